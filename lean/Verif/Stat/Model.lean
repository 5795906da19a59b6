import Mathlib.Algebra.Order.Field.Basic
/-
Model of `statistics/summary/summary.h`, `statistics/statistics-container.h`, `statistics/probe/probe-container.h`,
`statistics/statistics-enumerator.h` and `statistics/probe/probe-enumerator.h`.
-/
namespace Verif.Stat

/-! ### Summary -/

/-- summary.h 81-85.  Doubles are elements of an ordered field (no rounding, no overflow); `none` is NaN. -/
structure Summary (K : Type) where
  min : Option K
  max : Option K
  count : K
  sum : K
  sqrSum : K

variable {K : Type} [Field K] [LinearOrder K]

/-- summary.h 92-101 and `Reset` 158-165. -/
def Summary.init : Summary K := ⟨none, none, 0, 0, 0⟩

/-- summary.h 167-188.  Comparisons with NaN are false. -/
def Summary.onProbe (s : Summary K) (x : K) : Summary K :=
  let mn := if s.count = 0 then some x else match s.min with
    | some m => if m > x then some x else some m
    | none => none
  let mx := if s.count = 0 then some x else match s.max with
    | some m => if m < x then some x else some m
    | none => none
  ⟨mn, mx, s.count + 1, s.sum + x, s.sqrSum + x * x⟩

/-- summary.h 127-139. -/
def Summary.mean (s : Summary K) : Option K := if s.count = 0 then none else some (s.sum / s.count)

/-- summary.h 141-156, without the final square root. -/
def Summary.dev (s : Summary K) : Option K :=
  if s.count < 2 then none
  else
    let mean := s.sum / s.count
    some ((s.sqrSum + (-2 * s.sum + s.count * mean) * mean) / (s.count - 1))

/-- The calls on a summary.  (summary.h 158-188.) -/
inductive SOp (K : Type) where
  | probe (x : K)
  | reset

/-- One call; summary.h 158-188. -/
def Summary.step (s : Summary K) : SOp K → Summary K
  | .probe x => s.onProbe x
  | .reset => Summary.init

/-- A history of calls on a new summary.  (A client; no code.) -/
def Summary.run (os : List (SOp K)) : Summary K := os.foldl Summary.step Summary.init

/-! ### Containers -/

/-- `items_`; statistics-container.h 94-95, probe-container.h 81-82.  A name is a string, an item an object. -/
abbrev Items (N V : Type) := List (N × V)

section
variable {N V : Type} [DecidableEq N]

/-- `items_.find`.  (statistics-container.h 192-238, probe-container.h 179-220.) -/
def look (c : Items N V) (n : N) : Option V := (c.find? fun e => e.1 = n).map (·.2)

/-- `Get`, statistics-container.h 192-202 (`none`: `StatisticNotRegistered`); `GetProbe`, probe-container.h 179-189. -/
def get (c : Items N V) (n : N) : Option V := look c n

/-- `Has`, statistics-container.h 235-238, probe-container.h 217-220. -/
def has (c : Items N V) (n : N) : Bool := (c.countP fun e => e.1 = n) != 0

/-- `Add`, statistics-container.h 218-233, probe-container.h 202-215.  `v` is the new object; the first component is false when
`StatisticAlreadyRegistered` / `ProbeAlreadyRegistered` is thrown. -/
def add (c : Items N V) (n : N) (v : V) : Bool × Items N V :=
  match look c n with
  | some _ => (false, c)
  | none => (true, c ++ [(n, v)])

/-- The iteration of `MergeFrom` over the names that the enumerator gives; statistics-container.h 243-256, probe-container.h
224-237.  `none` if `Get` throws. -/
def mergeLoop (prefixed : N → N) (merged : Items N V) : List N → Items N V → Option (Items N V)
  | [], c => some c
  | n :: t, c =>
    match get merged n with
    | none => none
    | some v => mergeLoop prefixed merged t (match look c (prefixed n) with
      | some _ => c
      | none => c ++ [(prefixed n, v)])

/-- `erase`, statistics-container.h 167-170. -/
def erase (c : Items N V) (n : N) : Items N V := c.filter fun e => e.1 ≠ n

/-- The names in the order in which the hash map enumerates them: any permutation of the names.
(The iteration over `items_`, statistics-container.h 186-190.) -/
def Order (c : Items N V) (names : List N) : Prop := names.Perm (c.map (·.1))

/-! ### Enumerators -/

/-- statistics-enumerator.h 67-68, probe-enumerator.h. -/
structure Enum (N : Type) where
  items : List N
  index : Nat

/-- Constructor, statistics-enumerator.h 73-79; from the container's keys, statistics-container.h 186-190. -/
def Enum.make (names : List N) : Enum N := ⟨names, 0⟩

/-- 85-88 -/
def Enum.reset (e : Enum N) : Enum N := { e with index := 0 }

/-- 90-93 -/
def Enum.hasNext (e : Enum N) : Bool := decide (e.index < e.items.length)

/-- 95-105; `none`: `OutOfBounds`. -/
def Enum.next (e : Enum N) : Option N × Enum N :=
  match e.items[e.index]? with
  | none => (none, e)
  | some n => (some n, { e with index := e.index + 1 })

/-- Call `Next` until `HasNext` is false, at most `k` times.  (A client; no code.) -/
def Enum.drain : Nat → Enum N → List N × Enum N
  | 0, e => ([], e)
  | k + 1, e => if e.hasNext then
      match e.next with
      | (some n, e') => let r := Enum.drain k e'; (n :: r.1, r.2)
      | (none, e') => ([], e')
    else ([], e)
end

end Verif.Stat
