import Verif.Query.Model
/-
Model of the comparison of smart pointers (`component/ptr.h` 300-316, 629-665, 790-802) and of their hash (824-833), over the
interface queries of `Verif.Query.Model`.

Simplifications: a type is the uid of an interface; a pointer is the number of the object whose interface it points to, so that
two pointers of one type are the same address exactly when the numbers are.
-/
namespace Verif.Query

/-- A `Ptr<T>` or a `T*`: the type and the address; ptr.h 319. -/
structure TPtr where
  ty : Iid
  at? : Option Nat
deriving DecidableEq, Repr

/-- What a comparison does: its result (`none`: an exception), and the objects on which `AddRef` and `Release` were called.
(ptr.h 300-316.) -/
structure Cmp where
  res : Option Bool
  added : List Nat
  released : List Nat
deriving DecidableEq, Repr

/-- The constructor of a `PtrBase<IObject>` from a pointer; ptr.h 70-111: the address, `none` for an exception, and the objects
referenced.  The outer `none`: the depth `f` is not enough or a pointer is wrong. -/
def identity (f : Nat) (W : World) (p : TPtr) : Option (Option (Option Nat) × List Nat) :=
  match p.at? with
  | none => some (some none, [])
  | some m =>
    if p.ty = iObject then some (some (some m), [m])
    else match query f W m iObject with
      | none => none
      | some (some o, refs) => some (some (some o), refs)
      | some (none, refs) => some (none, refs)

/-- `operator==`; ptr.h 300-316, 629-646, 790-795.  Pointers of one type are compared as they are, others by their `IObject`; the
two temporary `PtrBase<IObject>` release what they hold (ptr.h 178-190). -/
def same (f : Nat) (W : World) (a b : TPtr) : Option Cmp :=
  if a.ty = b.ty then some ⟨some (decide (a.at? = b.at?)), [], []⟩
  else match identity f W a with
    | none => none
    | some (none, ra) => some ⟨none, ra, []⟩
    | some (some x, ra) =>
      match identity f W b with
      | none => none
      | some (none, rb) => some ⟨none, ra ++ rb, x.toList⟩
      | some (some y, rb) => some ⟨some (decide (x = y)), ra ++ rb, y.toList ++ x.toList⟩

/-- `operator!=`; ptr.h 648-665, 797-802. -/
def differ (f : Nat) (W : World) (a b : TPtr) : Option Cmp := (same f W a b).map fun c => { c with res := c.res.map (!·) }

/-- `hash_value`; ptr.h 824-833.  `h` is `boost::hash<T*>`. -/
def hashOf (h : Option Nat → Nat) (p : TPtr) : Nat := h p.at?

/-- A comparison ends with `c`.  (Specification; no code.) -/
def Compares (W : World) (a b : TPtr) (c : Cmp) : Prop := ∃ f, same f W a b = some c

end Verif.Query
