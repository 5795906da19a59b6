/-!
# Objects under construction and destruction

`Object<T>` (/repo/component/object.h 428-487) counts the references to itself.  The count begins at
zero when the constructor of `T` is entered (`ObjectBase`, 311-314, 352-356, initialises the union with a null
pointer), and `Release()` deletes the object whenever the count reaches zero (464-472).  This model
follows the counts of any number of objects while their constructors and destructors run, which may
make and drop smart pointers to any object, also to their own (a constructor that creates aggregated
objects or connects a sink with `this` as the controller does so, object.h 581-650).

The history of a program is a list of operations.  Calls nest: an operation belongs to the constructor or
destructor that was entered last and has not returned.

Simplified: the counts do not wrap; a smart pointer is a number in a list, wherever it is stored
(`Ptr/Model` has variables and members); `AggObject` (object.h 766-811) counts and deletes in the same way.
-/

namespace Verif.Ptr.Build

/-- Where an object is in its life.  (`new Object<T>`, /repo/component/class-factory.h 79-86; `delete this`,
/repo/component/object.h 464-472.)  `failed`: its constructor threw. -/
inductive Phase where
  | building | ready | dying | freed | failed
deriving DecidableEq, Repr

/-- An object and its `refCount_`; /repo/component/object.h 352-356. -/
structure Obj where
  phase : Phase
  count : Nat
deriving DecidableEq, Repr

/-- `ptrs`: the object of each smart pointer.  `stack`: the objects whose constructor or destructor runs, the last
one first.  `log`: the objects whose destructor was entered.  (/repo/component/ptr.h 183-200, /repo/component/object.h 428-487.) -/
structure St where
  objs : List Obj
  ptrs : List Nat
  stack : List Nat
  log : List Nat
deriving DecidableEq, Repr

/-- Nothing exists yet. -/
def St.init : St := ⟨[], [], [], []⟩

/-- What a program does.  /repo/component/class-factory.h 79-86, /repo/component/ptr.h 70-77, 183-190. -/
inductive Op where
  /-- `new Object<T>`: the constructor of `T` is entered. -/
  | new
  /-- The constructor returns and a smart pointer is made of the new object; or the destructor returns. -/
  | ret
  /-- The constructor throws; the memory is released. -/
  | throw
  /-- A smart pointer to an object is made: a copy of another one, or from `this` in its constructor or destructor. -/
  | take (c : Nat)
  /-- A smart pointer to an object is destroyed or reset. -/
  | drop (c : Nat)
deriving DecidableEq, Repr

/-- `AddRef()`; /repo/component/object.h 321-325, 458-462.  On an object whose memory was released: undefined. -/
def addRef (x : Obj) : Option Obj :=
  match x.phase with
  | .freed | .failed => none
  | _ => some { x with count := x.count + 1 }

/-- `InternalRelease()`; /repo/component/object.h 327-331. -/
def release (x : Obj) : Option Obj :=
  match x.phase with
  | .freed | .failed => none
  | _ => if x.count = 0 then none else some { x with count := x.count - 1 }

/-- `Release()` on object `c`, `s` being the state without the pointer and `x` the object with the new count;
/repo/component/object.h 464-472.  `delete this` of an object under construction (the constructor goes on in released memory) and
of one under destruction (destroyed twice) is undefined. -/
def finish (s : St) (c : Nat) (x : Obj) : Option St :=
  if x.count = 0 then
    match x.phase with
    | .ready => some { s with objs := s.objs.set c { x with phase := .dying }, stack := c :: s.stack, log := c :: s.log }
    | _ => none
  else some { s with objs := s.objs.set c x }

/-- One operation; `none` is undefined behaviour.  A program can make a pointer to an object only if it has one or is in its constructor or
destructor.  /repo/component/object.h 428-487, /repo/component/ptr.h 70-77, 183-200. -/
def step (s : St) : Op → Option St
  | .new => some { s with objs := s.objs ++ [⟨.building, 0⟩], stack := s.objs.length :: s.stack }
  | .ret =>
    match s.stack with
    | [] => some s
    | c :: rest =>
      match s.objs[c]? with
      | none => none
      | some x =>
        if x.phase = .building then
          some { s with objs := s.objs.set c ⟨.ready, x.count + 1⟩, ptrs := c :: s.ptrs, stack := rest }
        else some { s with objs := s.objs.set c { x with phase := .freed }, stack := rest }
  | .throw =>
    match s.stack with
    | [] => some s
    | c :: rest =>
      match s.objs[c]? with
      | none => none
      | some x =>
        if x.phase = .building then some { s with objs := s.objs.set c { x with phase := .failed }, stack := rest }
        else some s
  | .take c =>
    if c ∈ s.ptrs ∨ c ∈ s.stack then
      match (s.objs[c]?).bind addRef with
      | none => none
      | some x => some { s with objs := s.objs.set c x, ptrs := c :: s.ptrs }
    else some s
  | .drop c =>
    if c ∈ s.ptrs then
      match (s.objs[c]?).bind release with
      | none => none
      | some x => finish { s with ptrs := s.ptrs.erase c } c x
    else some s

/-- A history.  (/repo/component/object.h 428-487.) -/
def run (s : St) : List Op → Option St
  | [] => some s
  | o :: os => (step s o).bind fun s' => run s' os

end Verif.Ptr.Build
