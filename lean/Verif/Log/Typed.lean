import Verif.Log.Model
/-!
Property C148: the types of log values (/repo/log/log-value.h 36-138, /repo/log/make-log-value.h 39-235,
/repo/log/log-value-traits.h, /repo/log/std-log-value-traits.h).

`Verif.Log.Model` has values of plain types only.  Here the types have qualifiers and may be references, as the template parameters of
`MakeLogValue`, `MakeConstantLogValue` and `Get` may.  `boost::typeindex::type_id` removes the reference and the qualifiers under it (its
documentation).  Simplifications: a type is a number for what is left then, and what was removed; the value of an object of a type that
is left is a number; the state of the program that a functor reads is `E`.
-/
namespace Verif.Log.Typed

/-- What a type is besides its qualifiers: an object type, an lvalue or an rvalue reference.
(The type arguments `T` of log-record.h 193-194 and log-value.h 36-138.) -/
inductive Ref | none | lvalue | rvalue
deriving DecidableEq, Repr

/-- A template argument `T` of `MakeLogValue<T>`, `MakeConstantLogValue<T>` (make-log-value.h 144-235) or `Get<T>` (log-value.h 96-97). -/
structure Ty where
  base : Nat
  const : Bool
  volatile : Bool
  ref : Ref
deriving DecidableEq, Repr

/-- An unqualified object type.  (The type arguments `T` of log-record.h 193-194.) -/
def Ty.plain (n : Nat) : Ty := ⟨n, false, false, .none⟩

/-- `boost::typeindex::type_id<T>()`, as used in log-value.h 66 and 126. -/
def Ty.typeId (t : Ty) : Nat := t.base

variable {E : Type}

/-- An object of a class derived from `ITypedLogValue<T>`; log-value.h 50-75, make-log-value.h 39-133. -/
structure Val (E : Type) where
  ty : Ty
  get : E → Nat

/-- `ITypedLogValue<T>::GetTypeId()`; log-value.h 63-67. -/
def Val.getTypeId (v : Val E) : Nat := v.ty.typeId

/-- The outcome of `Get<T>()`: a value, `LogValueTypeMismatch`, or a cast to a class that the object is not of.
(log-value.h 123-138.) -/
inductive Out | value (n : Nat) | mismatch | undefined
deriving DecidableEq, Repr

/-- `LogValue::Get<T>()`; log-value.h 123-138.  The cast of line 136 is defined if the object is of the class `ITypedLogValue<T>`. -/
def Val.getAs (e : E) (v : Val E) (t : Ty) : Out :=
  if v.getTypeId ≠ t.typeId then .mismatch
  else if v.ty = t then .value (v.get e)
  else .undefined

/-- `NormalizeLogValue()`; log-pending-value-pool.h 94-101, where `lv` is the number of the class `LogValue`: whether the value is left as it
is. -/
def keptByPool (lv : Nat) (v : Val E) : Bool := v.getTypeId = lv

/-- C148.  `Get` of the type that the value was made with gives the value; of a type that differs in more than qualifiers and references it
throws `LogValueTypeMismatch`. -/
theorem C148_get (e : E) (v : Val E) (t : Ty) :
    (t = v.ty → v.getAs e t = .value (v.get e)) ∧ (t.base ≠ v.ty.base → v.getAs e t = .mismatch) := by
  refine ⟨?_, fun h => ?_⟩
  · rintro rfl; simp [Val.getAs, Val.getTypeId]
  · simp [Val.getAs, Val.getTypeId, Ty.typeId, Ne.symm h]

/-- C148, the part that holds (missing: `const`, `volatile` and references): with plain types, `Get` gives the value or throws
`LogValueTypeMismatch`, according to whether the types are the same. -/
theorem C148_plain_partial (e : E) (n m : Nat) (f : E → Nat) :
    (Val.mk (.plain n) f).getAs e (.plain m) = if n = m then .value (f e) else .mismatch := by
  by_cases h : n = m
  · subst h; simp [Val.getAs, Val.getTypeId]
  · simp [Val.getAs, Val.getTypeId, Ty.typeId, Ty.plain, h]

/-- C148, when exactly `Get` is defined. -/
theorem C148_defined_iff (e : E) (v : Val E) (t : Ty) :
    v.getAs e t ≠ .undefined ↔ (t.base = v.ty.base → t = v.ty) := by
  by_cases h : v.ty.base = t.base
  · by_cases h2 : v.ty = t
    · subst h2; simp [Val.getAs, Val.getTypeId]
    · simp [Val.getAs, Val.getTypeId, Ty.typeId, h, h2, Ne.symm h2]
  · simp [Val.getAs, Val.getTypeId, Ty.typeId, h, Ne.symm h]

/-- C148 fails: a value made as `const T`, or as a reference to a `T` (such as by a functor that returns one), is read as a `T`; the check
passes and the object is used as one of another class. -/
theorem C148_fails (e : E) (n : Nat) (f : E → Nat) :
    (Val.mk ⟨n, true, false, .none⟩ f).getAs e (.plain n) = .undefined ∧
    (Val.mk ⟨n, true, false, .lvalue⟩ f).getAs e (.plain n) = .undefined ∧
    (Val.mk (.plain n) f).getAs e ⟨n, true, false, .lvalue⟩ = .undefined := by
  simp [Val.getAs, Val.getTypeId, Ty.typeId, Ty.plain]

/-- C148 fails for pending values: a pending value made as a reference to a `LogValue` is kept as it is, and applying it is undefined. -/
theorem C148_pending_fails (e : E) (lv : Nat) (f : E → Nat) :
    keptByPool lv (Val.mk ⟨lv, true, false, .lvalue⟩ f) = true ∧
    (Val.mk ⟨lv, true, false, .lvalue⟩ f).getAs e (.plain lv) = .undefined := by
  simp [keptByPool, Val.getAs, Val.getTypeId, Ty.typeId, Ty.plain]

example : (Val.mk (.plain 3) fun (_ : Unit) => 7).getAs () (.plain 3) = .value 7 ∧
    (Val.mk (.plain 3) fun (_ : Unit) => 7).getAs () (.plain 4) = .mismatch := by decide

end Verif.Log.Typed
