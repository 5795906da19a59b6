import Mathlib.Data.List.Basic

/-!
Model of the parameter objects of discrete, piecewise constant and piecewise linear distributions and of the construction of
distributions from them: /repo/random/distribution/i-discrete-distribution.h, i-piecewise-constant-distribution.h,
i-piecewise-linear-distribution.h, std-discrete-distribution.h, std-piecewise-constant-distribution.h,
std-piecewise-linear-distribution.h.

The numbers (`double`) are any type `D` with a comparison `lt` and a test `nonneg` (`>= 0`), as in IEEE arithmetic not necessarily total.
Boost's distributions are what they are given: two sequences of numbers, copied from the iterators.  A failed assertion is `none`.
Simplifications: the vectors are as long as the model needs (no allocation failure); what Boost does with the sequences, among them the
empty ones and single bounds, and how it counts them before copying (the iterators have an `int32_t` as their `difference_type`), is
not modelled; the random number engine is not part of the parameters (see `Random/Shared`).
-/
namespace Verif.Random.Params

/-- Conversions to `uint32_t`; i-discrete-distribution.h 64, i-piecewise-constant-distribution.h 66, i-piecewise-linear-distribution.h 65. -/
def u32 (n : Nat) : Nat := n % 2 ^ 32

/-- The three kinds of parameters; i-discrete-distribution.h 54-87,
i-piecewise-constant-distribution.h 56-105, i-piecewise-linear-distribution.h 55-100. -/
inductive Kind where
  | discrete
  | constant
  | linear
deriving DecidableEq

/-- `bounds_` and `weights_` (a discrete one has no bounds); i-discrete-distribution.h 86, i-piecewise-constant-distribution.h 103-104,
i-piecewise-linear-distribution.h 98-99. -/
structure Param (D : Type) where
  kind : Kind
  bounds : List D
  weights : List D

/-- What a distribution is made of: the sequences copied by the constructors of Boost's distributions;
std-discrete-distribution.h 132-140, std-piecewise-constant-distribution.h 178-189, std-piecewise-linear-distribution.h 178-189. -/
structure Dist (D : Type) where
  kind : Kind
  bounds : List D
  weights : List D
deriving DecidableEq

variable {D : Type}

/-- The comparisons of numbers, `<` and `>= 0`; i-discrete-distribution.h 69, i-piecewise-constant-distribution.h 79-80,
i-piecewise-linear-distribution.h 73-75. -/
structure Num (D : Type) where
  lt : D → D → Bool
  nonneg : D → Bool

/-- `AddWeight`; i-discrete-distribution.h 67-72. -/
def addWeight (N : Num D) (p : Param D) (w : D) : Option (Param D) :=
  match p.kind with
  | .discrete =>
    if N.nonneg w = true ∧ p.weights.length < 2 ^ 32 - 1 then some { p with weights := p.weights ++ [w] } else none
  | _ => none

/-- `SetLowerBound`; i-piecewise-constant-distribution.h 69-73. -/
def setLower (p : Param D) (b : D) : Option (Param D) :=
  match p.kind with
  | .constant => if p.bounds.length = 0 then some { p with bounds := p.bounds ++ [b] } else none
  | _ => none

/-- `AddInterval`; i-piecewise-constant-distribution.h 75-83. -/
def addInterval (N : Num D) (p : Param D) (b w : D) : Option (Param D) :=
  match p.kind with
  | .constant =>
    match p.bounds.getLast? with
    | none => none
    | some l =>
      if p.bounds.length < 2 ^ 32 - 1 ∧ N.lt l b = true ∧ N.nonneg w = true then
        some { p with bounds := p.bounds ++ [b], weights := p.weights ++ [w] } else none
  | _ => none

/-- `AddBound`; i-piecewise-linear-distribution.h 68-78. -/
def addBound (N : Num D) (p : Param D) (b w : D) : Option (Param D) :=
  match p.kind with
  | .linear =>
    if p.bounds.length < 2 ^ 32 - 1 ∧ (∀ l, p.bounds.getLast? = some l → N.lt l b = true) ∧ N.nonneg w = true then
      some { p with bounds := p.bounds ++ [b], weights := p.weights ++ [w] } else none
  | _ => none

/-- `GetWeight`, `GetIntervalWeight`, `GetBoundWeight`: i-discrete-distribution.h 74-78,
i-piecewise-constant-distribution.h 91-95, i-piecewise-linear-distribution.h 86-90. -/
def getWeight (p : Param D) (i : Nat) : Option D := p.weights[i]?

/-- `GetBound`; i-piecewise-constant-distribution.h 85-89, i-piecewise-linear-distribution.h 80-84. -/
def getBound (p : Param D) (i : Nat) : Option D := p.bounds[i]?

/-- `GetNumWeights`, `GetNumIntervals`; i-discrete-distribution.h 62-65, i-piecewise-constant-distribution.h 64-67. -/
def numWeights (p : Param D) : Nat := u32 p.weights.length

/-- `GetNumBounds`; i-piecewise-linear-distribution.h 63-66. -/
def numBounds (p : Param D) : Nat := u32 p.bounds.length

/-- Reading `n` numbers from an iterator at `0`: each dereference is a call of the getter, each `++` an increment of a `uint32_t`;
std-discrete-distribution.h 67-129, std-piecewise-constant-distribution.h 52-175, std-piecewise-linear-distribution.h 52-175. -/
def walk (get : Nat → Option D) (n : Nat) : Option (List D) := (List.range n).mapM fun k => get (u32 k)

/-- The number of `++` that take an iterator at `0` to an iterator at `last`: the indices are `uint32_t` and compared with `==`;
std-discrete-distribution.h 101-120, std-piecewise-constant-distribution.h 86-105, std-piecewise-linear-distribution.h 86-105. -/
def steps (last : Nat) : Nat := u32 last

/-- The constructors of the distributions; std-discrete-distribution.h 132-140, std-piecewise-constant-distribution.h 178-189,
std-piecewise-linear-distribution.h 178-189.  Boost reads one weight for every bound of a piecewise linear distribution, and one for
every interval of a piecewise constant one. -/
def create (p : Param D) : Option (Dist D) :=
  match p.kind with
  | .discrete => (walk (getWeight p) (steps (numWeights p))).map fun ws => ⟨.discrete, [], ws⟩
  | .constant =>
    match walk (getBound p) (steps (u32 (numWeights p + 1))) with
    | none => none
    | some bs => (walk (getWeight p) (bs.length - 1)).map fun ws => ⟨.constant, bs, ws⟩
  | .linear =>
    match walk (getBound p) (steps (numBounds p)) with
    | none => none
    | some bs => (walk (getWeight p) bs.length).map fun ws => ⟨.linear, bs, ws⟩

/-- Parameter objects and distributions made so far; several distributions may be made from one parameter object
(a `Ptr`); std-discrete-distribution.h 132-140. -/
structure World (D : Type) where
  params : List (Param D)
  dists : List (Dist D)

/-- The calls on parameter objects, by index, and the creation of a distribution; i-discrete-distribution.h 36-43,
i-piecewise-constant-distribution.h 36-45, i-piecewise-linear-distribution.h 36-44, and the constructors cited at `create`. -/
inductive Op (D : Type) where
  | new (k : Kind)
  | addWeight (i : Nat) (w : D)
  | setLower (i : Nat) (b : D)
  | addInterval (i : Nat) (b w : D)
  | addBound (i : Nat) (b w : D)
  | create (i : Nat)

/-- A call on one of the parameter objects (no file: the model's own addressing of objects). -/
def World.on (s : World D) (i : Nat) (f : Param D → Option (Param D)) : Option (World D) :=
  match s.params[i]? with
  | none => none
  | some p => (f p).map fun q => { s with params := s.params.set i q }

/-- One call; the functions cited at each case.  (See the cases; /repo/random/pseudo-random-generator.h 213-607.) -/
def World.step (N : Num D) (s : World D) : Op D → Option (World D)
  | .new k => some { s with params := s.params ++ [⟨k, [], []⟩] }
  | .addWeight i w => s.on i fun p => addWeight N p w
  | .setLower i b => s.on i fun p => setLower p b
  | .addInterval i b w => s.on i fun p => addInterval N p b w
  | .addBound i b w => s.on i fun p => addBound N p b w
  | .create i =>
    match s.params[i]? with
    | none => none
    | some p => (create p).map fun d => { s with dists := s.dists ++ [d] }

/-- A sequence of calls; a failed assertion ends the program.  (A client; no code.) -/
def World.run (N : Num D) (s : World D) : List (Op D) → Option (World D)
  | [] => some s
  | o :: os =>
    match s.step N o with
    | none => none
    | some s1 => s1.run N os

end Verif.Random.Params
