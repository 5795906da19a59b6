import Verif.Stat.Float
/-!
`statistics/summary/summary.h` with infinities and NaN, as samples and as results.

`Verif.Stat.Float` rounds but has neither infinities nor NaN.  Here a `double` is a number, an infinity or NaN; an operation
on two numbers is rounded as in `Verif.Stat.Float`, and its result is an infinity when it exceeds the greatest `double`.

Simplifications: one zero (the sign of a zero does not reach any report: no division by zero is made), subnormal results are
rounded like others.
-/
namespace Verif.Stat

/-- A `double`; IEEE 754.  (/repo/statistics/summary/summary.h 81-85.) -/
inductive Dbl
  | num (x : ℚ)
  | pos
  | neg
  | nan
deriving DecidableEq, Repr

/-- Rounding, and the greatest finite `double`.  (IEEE 754; no code.) -/
structure FpX extends Fp where
  big : ℚ
  wide : 2 ^ 53 ≤ big

/-- The result of an operation whose exact result is `x`.  (IEEE 754, the operations of /repo/statistics/summary/summary.h 127-188.) -/
def FpX.fit (F : FpX) (x : ℚ) : Dbl :=
  if F.big < F.rnd x then .pos else if F.rnd x < -F.big then .neg else .num (F.rnd x)

/-- An infinity with the sign of `x`, NaN for 0.  (IEEE 754; no code.) -/
def Dbl.signed (x : ℚ) : Dbl := if 0 < x then .pos else if x < 0 then .neg else .nan

/-- `-x`.  (IEEE 754; no code.) -/
def Dbl.opp : Dbl → Dbl
  | .num x => .num (-x)
  | .pos => .neg
  | .neg => .pos
  | .nan => .nan

/-- `a + b`; /repo/statistics/summary/summary.h 150, 185-187. -/
def FpX.add (F : FpX) : Dbl → Dbl → Dbl
  | .nan, _ => .nan
  | _, .nan => .nan
  | .num x, .num y => F.fit (x + y)
  | .num _, b => b
  | a, .num _ => a
  | .pos, .pos => .pos
  | .neg, .neg => .neg
  | .pos, .neg => .nan
  | .neg, .pos => .nan

/-- `a * b`; /repo/statistics/summary/summary.h 150, 187. -/
def FpX.mul (F : FpX) : Dbl → Dbl → Dbl
  | .nan, _ => .nan
  | _, .nan => .nan
  | .num x, .num y => F.fit (x * y)
  | .num x, .pos => .signed x
  | .num x, .neg => .signed (-x)
  | .pos, .num x => .signed x
  | .neg, .num x => .signed (-x)
  | .pos, .pos => .pos
  | .neg, .neg => .pos
  | .pos, .neg => .neg
  | .neg, .pos => .neg

/-- `a / b`; /repo/statistics/summary/summary.h 136, 149-151.  The divisor there is a number greater than 0; the other cases are
as if zeros were positive. -/
def FpX.div (F : FpX) : Dbl → Dbl → Dbl
  | .nan, _ => .nan
  | _, .nan => .nan
  | .num x, .num y => if y = 0 then .signed x else F.fit (x / y)
  | .num _, _ => .num 0
  | .pos, .num y => if y < 0 then .neg else .pos
  | .neg, .num y => if y < 0 then .pos else .neg
  | _, _ => .nan

/-- `a < b`; comparisons with NaN are false.  (IEEE 754; /repo/statistics/summary/summary.h 144, 176, 180.) -/
def Dbl.lt : Dbl → Dbl → Bool
  | .nan, _ => false
  | _, .nan => false
  | .num x, .num y => decide (x < y)
  | .num _, .pos => true
  | .num _, .neg => false
  | .pos, _ => false
  | .neg, .neg => false
  | .neg, _ => true

/-- The members; /repo/statistics/summary/summary.h 81-85. -/
structure SummaryX where
  min : Dbl
  max : Dbl
  count : Dbl
  sum : Dbl
  sqrSum : Dbl
deriving DecidableEq

/-- The constructor and `Reset`; /repo/statistics/summary/summary.h 92-101, 158-165. -/
def SummaryX.init : SummaryX := ⟨.nan, .nan, .num 0, .num 0, .num 0⟩

/-- `OnProbe`; /repo/statistics/summary/summary.h 167-188. -/
def SummaryX.onProbe (F : FpX) (s : SummaryX) (x : Dbl) : SummaryX :=
  let mn := if s.count = .num 0 then x else if x.lt s.min then x else s.min
  let mx := if s.count = .num 0 then x else if s.max.lt x then x else s.max
  ⟨mn, mx, F.add s.count (.num 1), F.add s.sum x, F.add s.sqrSum (F.mul x x)⟩

/-- `Mean`; /repo/statistics/summary/summary.h 127-139. -/
def SummaryX.mean (F : FpX) (s : SummaryX) : Dbl :=
  if s.count = .num 0 then .nan else F.div s.sum s.count

/-- `Stddev` up to the square root (which is NaN for NaN); /repo/statistics/summary/summary.h 141-156. -/
def SummaryX.dev (F : FpX) (s : SummaryX) : Dbl :=
  if s.count.lt (.num 2) then .nan
  else
    let mean := F.div s.sum s.count
    F.div (F.add s.sqrSum (F.mul (F.add (F.mul (.num (-2)) s.sum) (F.mul s.count mean)) mean)) (F.add s.count (.num (-1)))

/-- One call; /repo/statistics/summary/summary.h 158-188. -/
def SummaryX.step (F : FpX) (s : SummaryX) : SOp Dbl → SummaryX
  | .probe x => s.onProbe F x
  | .reset => SummaryX.init

/-- A history of calls on a new summary.  (A client; no code.) -/
def SummaryX.run (F : FpX) (os : List (SOp Dbl)) : SummaryX := os.foldl (SummaryX.step F) SummaryX.init

end Verif.Stat
