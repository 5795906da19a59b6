/-!
Model of objects with reference counts that refer to each other (/repo/component/object.h, ptr.h), for properties C158, C161 and C166.  The classes
of the objects `κ` and the members that refer to other objects `ρ` are those of the users of this file (`Sim/Own`, `Log/Own`, `Stat/Own`).

Simplifications: the destruction of an object releases its members in the order in which they were set; `refcount_t` does not overflow and
there is memory.
-/
namespace Verif.Heap

variable {κ ρ : Type}

/-- An object: its reference count (/repo/component/object.h 354), its class, and what its members refer to (the members are cited where
`ρ` is chosen). -/
structure Obj (κ ρ : Type) where
  rc : Nat
  kind : κ
  refs : List (ρ × Nat)
deriving DecidableEq

/-- What an object refers to.  (See `Obj`.) -/
def refsOf : Option (Obj κ ρ) → List Nat
  | none => []
  | some x => x.refs.map Prod.snd

/-- References from existing objects, counted.  (For termination of the model; no code.) -/
def total (cells : List (Option (Obj κ ρ))) : Nat := (cells.map fun x => (refsOf x).length).sum

/-- `AddRef()`; `none` if the object does not exist; /repo/component/object.h 321-325, 457-461. -/
def addRef (cells : List (Option (Obj κ ρ))) (c : Nat) : Option (List (Option (Obj κ ρ))) :=
  match cells[c]? with
  | some (some x) => some (cells.set c (some { x with rc := x.rc + 1 }))
  | _ => none

/-- `Release()` for each reference in turn; the last one destroys the object, whose members are then released; `none` if an object does not
exist; /repo/component/object.h 327-331, 464-472, ptr.h 178-191, heap-scheduler.h 75-81.  `n` bounds the work. -/
def drain : Nat → List Nat → List (Option (Obj κ ρ)) → Option (List (Option (Obj κ ρ)))
  | _, [], cells => some cells
  | 0, _ :: _, _ => none
  | n + 1, c :: w, cells =>
    match cells[c]? with
    | some (some x) =>
      if x.rc ≤ 1 then drain n (refsOf (some x) ++ w) (cells.set c none)
      else drain n w (cells.set c (some { x with rc := x.rc - 1 }))
    | _ => none

/-- One reference goes away; see `drain`. -/
def release (c : Nat) (cells : List (Option (Obj κ ρ))) : Option (List (Option (Obj κ ρ))) := drain (1 + total cells) [c] cells

/-- A member of the object `c` is set to refer to `d`; /repo/component/ptr.h 70-77, 193-201. -/
def link (c : Nat) (r : ρ) (d : Nat) (cells : List (Option (Obj κ ρ))) : Option (List (Option (Obj κ ρ))) :=
  match addRef cells d with
  | none => none
  | some h =>
    match h[c]? with
    | some (some x) => some (h.set c (some { x with refs := x.refs ++ [(r, d)] }))
    | _ => none

/-- A member of the object `c`, the reference at position `k`, is cleared or removed; /repo/component/ptr.h 178-191. -/
def unlink (c k : Nat) (cells : List (Option (Obj κ ρ))) : Option (List (Option (Obj κ ρ))) :=
  match cells[c]? with
  | some (some x) =>
    match x.refs[k]? with
    | none => some cells
    | some e => release e.2 (cells.set c (some { x with refs := x.refs.eraseIdx k }))
  | _ => none

/-- The class of an existing object.  (The static type of the pointer that the user has; no code.) -/
def kindAt (cells : List (Option (Obj κ ρ))) (c : Nat) : Option κ :=
  match cells[c]? with
  | some (some x) => some x.kind
  | _ => none

/-- The references of an existing object.  (See `Obj`.) -/
def refsAt (cells : List (Option (Obj κ ρ))) (c : Nat) : List (ρ × Nat) :=
  match cells[c]? with
  | some (some x) => x.refs
  | _ => []

end Verif.Heap
