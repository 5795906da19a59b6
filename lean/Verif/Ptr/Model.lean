/-
Model of `component/ptr.h` (`PtrBase`, `Ptr`) over the object classes of `component/object.h`.

An object allocated on the heap, or with static lifetime, is a *cell*.  It has a reference count, `Ptr` members (`fields`) and
*parts*: the things inside of it that pointers can point to.  A part either counts references in the cell itself (`Object` and the
navigator `AggObject`, `458-472` and `797-811`), does not count at all (`StaticObject` `545-553`, the navigator of a
`MemberAggObject` `912-920`), or forwards to its controller (`Aggregated` `625-633`, `MutualObject` `1029-1037`).  Members of type
`MemberAggObject` and `MutualObject` are further parts of the cell that contains them.

Calling a method through a pointer to a destroyed object, and underflow of a count, is undefined: the outcome `none`.
Destructors do nothing but destroy the `Ptr` members.  Counts do not overflow.
-/
namespace Verif.Ptr

/-- A pointer to an object: the cell and the part of it.  (`T* p_`, ptr.h 319.) -/
structure Ref where
  cell : Nat
  part : Nat
deriving DecidableEq, Repr

/-- What `AddRef`/`Release` on a part do; object.h 321-344. -/
inductive Deleg where
  | self
  | never
  | to (r : Ref)
deriving DecidableEq, Repr

/-- object.h 351-356 (`refCount_`, `controller_`), and the `Ptr` members of the implementation class. -/
structure Cell where
  alive : Bool
  count : Nat
  parts : List Deleg
  fields : List (Option Ref)
deriving DecidableEq, Repr

/-- The heap, the `Ptr` variables, and the counted references that are not held by a `Ptr` (`Detach`, explicit `AddRef`).
(ptr.h 319, object.h 351-356; the variables are the client's.) -/
structure State where
  cells : List Cell
  vars : List (Option Ref)
  raw : List Ref
deriving DecidableEq, Repr

/-- A program before it makes anything; no code. -/
def State.init : State := ⟨[], [], []⟩

/-- How `AddRef` and `Release` are forwarded in each cell, for its parts (object.h 336-344). -/
abbrev Shape := List (List Deleg)

/-- The parts of all cells; they never change.  (`controller_` is assigned in the constructors only, object.h 310-319.) -/
def State.shape (s : State) : Shape := s.cells.map (·.parts)

/-- The controller was constructed before: `r` comes before `q`.
(A controller is a constructor argument, object.h 316-319; no code of its own.) -/
def Ref.before (r q : Ref) : Prop := r.cell < q.cell ∨ r.cell = q.cell ∧ r.part < q.part

instance (r q : Ref) : Decidable (r.before q) := inferInstanceAs (Decidable (_ ∨ _))

/-- The cell whose count `AddRef` through `r` changes (object.h 336-344); `none` if there is none. -/
def counter (sh : Shape) (r : Ref) : Option Nat :=
  match (sh[r.cell]?).bind (·[r.part]?) with
  | some .self => some r.cell
  | some (.to q) => if q.before r then counter sh q else none
  | _ => none
termination_by (r.cell, r.part)
decreasing_by
  rename_i h
  rcases h with h | ⟨h1, h2⟩
  · exact Prod.Lex.left _ _ h
  · rw [h1]; exact Prod.Lex.right _ h2

/-- The object that `r` points to, and all controllers to which a call is forwarded, have not been destroyed.
(What a call through the pointers of object.h 336-344 needs to be defined.) -/
def State.live (s : State) (r : Ref) : Bool :=
  match s.cells[r.cell]? with
  | none => false
  | some x =>
    x.alive && match x.parts[r.part]? with
      | some (.to q) => if q.before r then s.live q else false
      | some _ => true
      | none => false
termination_by (r.cell, r.part)
decreasing_by
  rename_i h
  rcases h with h | ⟨h1, h2⟩
  · exact Prod.Lex.left _ _ h
  · rw [h1]; exact Prod.Lex.right _ h2

/-! ### Reference counting -/

/-- `AddRef`; object.h 321-325, 458-462. -/
def State.addRef (s : State) (r : Ref) : Option State :=
  if s.live r then
    match counter s.shape r with
    | none => some s
    | some c => some { s with cells := s.cells.modify c fun x => { x with count := x.count + 1 } }
  else none

/-- `Release` without the destruction of members; object.h 327-331, 464-472.  The second result are the members of the object
if it is deleted; they are released next (ptr.h 178-190), the last member first. -/
def State.release (s : State) (r : Ref) : Option (State × List Ref) :=
  if s.live r then
    match counter s.shape r with
    | none => some (s, [])
    | some c =>
      match s.cells[c]? with
      | none => none
      | some x =>
        if x.count = 0 then none
        else if x.count = 1 then
          some ({ s with cells := s.cells.set c { x with alive := false, count := 0 } }, (x.fields.filterMap id).reverse)
        else some ({ s with cells := s.cells.set c { x with count := x.count - 1 } }, [])
  else none

/-- All counts together.  (For termination of the model; no code.) -/
def State.total (s : State) : Nat := (s.cells.map (·.count)).sum

theorem sum_set {α : Type} (f : α → Nat) : ∀ {l : List α} {i : Nat} {x y : α}, l[i]? = some x →
    ((l.set i y).map f).sum + f x = (l.map f).sum + f y
  | [], i, x, y, h => by simp at h
  | a :: t, 0, x, y, h => by
    simp at h; subst h
    simp only [List.set_cons_zero, List.map_cons, List.sum_cons]; omega
  | a :: t, i + 1, x, y, h => by
    simp at h
    have := sum_set f (y := y) h
    simp only [List.set_cons_succ, List.map_cons, List.sum_cons]; omega

theorem release_total {s s' : State} {r : Ref} {Q : List Ref} (h : s.release r = some (s', Q)) :
    s'.total < s.total ∨ s' = s ∧ Q = [] := by
  unfold State.release at h
  split at h
  · split at h
    · cases h; exact Or.inr ⟨rfl, rfl⟩
    · split at h
      · cases h
      · rename_i c _ x hx
        split at h
        · cases h
        · split at h
          · cases h
            have := sum_set (·.count) (y := { x with alive := false, count := 0 }) hx
            left; unfold State.total; dsimp only at this ⊢; omega
          · cases h
            have := sum_set (·.count) (y := { x with count := x.count - 1 }) hx
            left; unfold State.total; dsimp only at this ⊢; omega
  · cases h

/-- Release the references one after the other, with everything that is destroyed on the way.
(The destructors of members, ptr.h 178-190, run by object.h 464-472.) -/
def drain (P : List Ref) (s : State) : Option State :=
  match P with
  | [] => some s
  | r :: P =>
    match _h : s.release r with
    | none => none
    | some (s', Q) => drain (Q ++ P) s'
termination_by (s.total, P.length)
decreasing_by
  rcases release_total _h with h | ⟨h1, h2⟩
  · exact Prod.Lex.left _ _ h
  · rw [h1, h2]; exact Prod.Lex.right _ (by simp)

/-! ### Pointers -/

/-- Where a `Ptr` is: a variable, or member `k` of a cell.  (ptr.h 319.) -/
inductive Loc where
  | var (i : Nat)
  | field (c k : Nat)
deriving DecidableEq, Repr

/-- The content of a `Ptr` (ptr.h 319); members of destroyed objects do not exist. -/
def State.get (s : State) : Loc → Option (Option Ref)
  | .var i => s.vars[i]?
  | .field c k => match s.cells[c]? with
    | none => none
    | some x => if x.alive then x.fields[k]? else none

/-- `p_ = v`.  (ptr.h 184-200, 319.) -/
def State.put (s : State) : Loc → Option Ref → State
  | .var i, v => { s with vars := s.vars.set i v }
  | .field c k, v => { s with cells := s.cells.modify c fun x => { x with fields := x.fields.set k v } }

/-- `Reset()`, which is also the destructor; ptr.h 178-190.  `p_` is set to null only after `Release`.  As nothing but the
destruction of the object that contains the `Ptr` could notice (which makes the later assignment undefined), the model sets it to
null before, and fails if that object is gone afterwards. -/
def State.reset (s : State) (l : Loc) : Option State :=
  match s.get l with
  | none => none
  | some none => some s
  | some (some r) =>
    match drain [r] (s.put l none) with
    | none => none
    | some s' => if (s'.get l).isSome then some s' else none

/-- `Reset(T* p, bool addRef)`; ptr.h 192-200.  With `addRef` also the constructor 70-77 when the `Ptr` is null before. -/
def State.assign (s : State) (l : Loc) (p : Option Ref) (add : Bool) : Option State :=
  match s.reset l with
  | none => none
  | some s1 =>
    match p, add with
    | some r, true => (s1.put l p).addRef r
    | _, _ => some (s1.put l p)

/-- Members of an implementation class that contain objects; object.h 882-954, 985-1057. -/
inductive Member where
  | mutual
  | aggregated
deriving DecidableEq, Repr

/-- The parts that a member makes, in an object whose implementation class is `impl`.  (object.h 882-954, 985-1057.) -/
def Member.parts (impl : Ref) : Member → List Deleg
  | .mutual => [.to impl]
  | .aggregated => [.never, .to impl]

/-- Operations of a program.  (The client's; the methods of ptr.h 60-310 and the constructors of object.h 428-1057.) -/
inductive Op where
  /-- `Ptr<T> p;` ptr.h 394-400. -/
  | newVar
  /-- `p = new Object<T>`; ptr.h 565-569, 236-247, and 471-474 on a new `Ptr`. -/
  | make (l : Loc) (members : List Member) (nf : Nat)
  /-- `p = new AggObject<T>(controller)` as `IObject`; class-factory.h 45-95, object.h 776-777. -/
  | makeAgg (l : Loc) (ctrl : Ref) (members : List Member) (nf : Nat)
  /-- `p = &staticObject`; ptr.h 571-575, 249-260. -/
  | makeStatic (l : Loc) (nf : Nat)
  /-- `p = q`; ptr.h 537-541, and 447-450 on a new `Ptr`. -/
  | copy (dst src : Loc)
  /-- `p = std::move(q)`; ptr.h 550-555, and 458-462 on a new `Ptr`. -/
  | move (dst src : Loc)
  /-- `p = q` with a `q` of another type; ptr.h 543-548, 202-234, 452-456, 79-111.  `res` is what `QueryInterface` gives, `none` if it throws. -/
  | query (dst src : Loc) (res : Option Ref)
  /-- `p = std::move(q)` with a `q` of another type; ptr.h 557-563, 464-469. -/
  | moveQuery (dst src : Loc) (res : Option Ref)
  /-- `p.Reset()`, `p = nullptr` and the destructor; ptr.h 524-528, 682-685, 178-181. -/
  | reset (l : Loc)
  /-- `p.Detach()`; ptr.h 768-773. -/
  | detach (l : Loc)
  /-- `p.Reset(r, false)` with a counted reference `r`; ptr.h 694-697. -/
  | attach (l : Loc) (r : Ref)
  /-- `p = r` with a raw pointer `r`; ptr.h 530-535, 688-691, 408-411. -/
  | fromRaw (l : Loc) (r : Ref)
  /-- `p.swap(q)`; ptr.h 780-783. -/
  | swap (l m : Loc)
  /-- `r->AddRef()` and `r->Release()` by the program. -/
  | addRef (r : Ref)
  | release (r : Ref)
deriving DecidableEq, Repr

/-- A new cell.  (The memory of `new Object<...>`, object.h 428-456.) -/
def State.alloc (s : State) (x : Cell) : State := { s with cells := s.cells ++ [x] }

/-- One operation.  (ptr.h 60-310; the lines are cited at the constructors of `Op` and at the definitions that are called.) -/
def State.step (s : State) : Op → Option State
  | .newVar => some { s with vars := s.vars ++ [none] }
  | .make l members nf =>
    let c := s.cells.length
    (s.alloc ⟨true, 0, .self :: members.flatMap (Member.parts ⟨c, 0⟩), List.replicate nf none⟩).assign l (some ⟨c, 0⟩) true
  | .makeAgg l ctrl members nf =>
    let c := s.cells.length
    if ctrl.cell < c then
      (s.alloc ⟨true, 0, .self :: .to ctrl :: members.flatMap (Member.parts ⟨c, 1⟩), List.replicate nf none⟩).assign l (some ⟨c, 0⟩) true
    else none
  | .makeStatic l nf =>
    let c := s.cells.length
    (s.alloc ⟨true, 0, [.never], List.replicate nf none⟩).assign l (some ⟨c, 0⟩) true
  | .copy dst src =>
    match s.get src with
    | none => none
    | some p => s.assign dst p true
  | .move dst src =>
    match s.get src with
    | none => none
    | some p =>
      match s.assign dst p false with
      | none => none
      | some s1 => if (s1.get src).isSome then some (s1.put src none) else none
  | .query dst src res =>
    match s.get src with
    | none => none
    | some p =>
      match s.reset dst with
      | none => none
      | some s1 =>
        match p, res with
        | none, _ => some s1
        | some r, none => if s1.live r then some s1 else none
        | some r, some q => if s1.live r then (s1.put dst (some q)).addRef q else none
  | .moveQuery dst src res =>
    if dst = src then none
    else
      match s.get src with
      | none => none
      | some p =>
        match s.reset dst with
        | none => none
        | some s1 =>
          match p, res with
          | none, _ => if (s1.get src).isSome then some s1 else none
          | some r, none => if s1.live r then some s1 else none
          | some r, some q =>
            if s1.live r then
              match (s1.put dst (some q)).addRef q with
              | none => none
              | some s2 => s2.reset src
            else none
  | .reset l => s.reset l
  | .detach l =>
    match s.get l with
    | none => none
    | some none => some s
    | some (some r) => some { s.put l none with raw := r :: s.raw }
  | .attach l r =>
    if r ∈ s.raw then
      match s.reset l with
      | none => none
      | some s1 => some { s1.put l (some r) with raw := s1.raw.erase r }
    else none
  | .fromRaw l r => s.assign l (some r) true
  | .swap l m =>
    match s.get l, s.get m with
    | some p, some q => some ((s.put l q).put m p)
    | _, _ => none
  | .addRef r =>
    match s.addRef r with
    | none => none
    | some s' => some { s' with raw := r :: s'.raw }
  | .release r => if r ∈ s.raw then drain [r] { s with raw := s.raw.erase r } else none

/-- A history.  (A client; no code.) -/
def State.run (s : State) : List Op → Option State
  | [] => some s
  | o :: os => match s.step o with
    | none => none
    | some s' => s'.run os

end Verif.Ptr
