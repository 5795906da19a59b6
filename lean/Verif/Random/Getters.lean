import Verif.Random.Shared

/-!
# What distributions report

The `Get*` functions of the distributions (`random/distribution/std-*.h`), each of which asks the Boost distribution `dist_`
for one of its parameters or ends.

Simplifications.  Boost's distributions are external: `Accessors` says what is assumed of them, namely that they keep the
arguments they were constructed with, whatever is drawn from them.  The three distributions built from a parameter object
(discrete and piecewise) are left out; see `Params`.
-/

namespace Verif.Random

open Verif.Stat (Dbl)

/-- A result of one of the functions, of its C++ type.  (std-*-distribution.h 71-90, e.g. std-gamma-distribution.h 71-89.) -/
inductive Val where
  | u32 (x : BitVec 32)
  | i32 (x : BitVec 32)
  | u64 (x : BitVec 64)
  | i64 (x : BitVec 64)
  | dbl (x : Dbl)
  | flt (x : Dbl)
  | bool (b : Bool)
  deriving DecidableEq

/-- The functions, `GetMinValue` and so on.  (random/distribution/i-*-distribution.h, e.g. i-gamma-distribution.h 61-93.) -/
inductive Get where
  | minValue | maxValue
  | lowerBound | upperBound
  | probability | numTrials
  | mean | stddev | lambda
  | shape | scale | location
  | alpha | beta
  | degreesOfFreedom | numerator | denominator
  | a | b | c
  deriving DecidableEq

/-- What Boost's distributions return as the ends of a range without an end.  (External; used by e.g.
std-normal-distribution.h 71-79.) -/
structure Ends where
  low : Dbl
  high : Dbl

/-- `min()` of a Boost distribution; as Boost documents it.  (External; used by e.g. std-gamma-distribution.h 71-74.)
`none`: a distribution made from a parameter object. -/
def Ctor.min (E : Ends) : Ctor → Option Val
  | .uniformUint32 a _ => some (.u32 a)
  | .uniformInt32 a _ => some (.i32 a)
  | .uniformUint64 a _ => some (.u64 a)
  | .uniformInt64 a _ => some (.i64 a)
  | .uniformReal a _ => some (.dbl a)
  | .uniformFloat a _ => some (.flt a)
  | .bernoulli _ => some (.bool false)
  | .binomial _ _ => some (.u32 (BitVec.ofInt 32 0))
  | .negativeBinomial _ _ => some (.u32 0)
  | .geometric _ => some (.u32 0)
  | .poisson _ => some (.u32 0)
  | .exponential _ => some (.dbl 0)
  | .gamma _ _ => some (.dbl 0)
  | .weibull _ _ => some (.dbl 0)
  | .extremeValue _ _ => some (.dbl E.low)
  | .beta _ _ => some (.dbl 0)
  | .laplace _ _ => some (.dbl E.low)
  | .normal _ _ => some (.dbl E.low)
  | .lognormal _ _ => some (.dbl 0)
  | .chiSquared _ => some (.dbl 0)
  | .cauchy _ _ => some (.dbl E.low)
  | .fisherF _ _ => some (.dbl 0)
  | .studentT _ => some (.dbl E.low)
  | .triangle a _ _ => some (.dbl a)
  | .discrete _ | .piecewiseConstant _ | .piecewiseLinear _ => none

/-- `max()` of a Boost distribution; as Boost documents it.  (External; used by e.g. std-gamma-distribution.h 76-79.  The
`int32_t` of a binomial distribution is converted to the `uint32_t` returned, std-binomial-distribution.h 76-79.) -/
def Ctor.max (E : Ends) : Ctor → Option Val
  | .uniformUint32 _ b => some (.u32 b)
  | .uniformInt32 _ b => some (.i32 b)
  | .uniformUint64 _ b => some (.u64 b)
  | .uniformInt64 _ b => some (.i64 b)
  | .uniformReal _ b => some (.dbl b)
  | .uniformFloat _ b => some (.flt b)
  | .bernoulli _ => some (.bool true)
  | .binomial t _ => some (.u32 (BitVec.ofInt 32 t))
  | .negativeBinomial _ _ => some (.u32 (BitVec.allOnes 32))
  | .geometric _ => some (.u32 (BitVec.allOnes 32))
  | .poisson _ => some (.u32 (BitVec.allOnes 32))
  | .exponential _ => some (.dbl E.high)
  | .gamma _ _ => some (.dbl E.high)
  | .weibull _ _ => some (.dbl E.high)
  | .extremeValue _ _ => some (.dbl E.high)
  | .beta _ _ => some (.dbl 1)
  | .laplace _ _ => some (.dbl E.high)
  | .normal _ _ => some (.dbl E.high)
  | .lognormal _ _ => some (.dbl E.high)
  | .chiSquared _ => some (.dbl E.high)
  | .cauchy _ _ => some (.dbl E.high)
  | .fisherF _ _ => some (.dbl E.high)
  | .studentT _ => some (.dbl E.high)
  | .triangle _ _ c => some (.dbl c)
  | .discrete _ | .piecewiseConstant _ | .piecewiseLinear _ => none

/-- The functions of the distributions: what each asks of `dist_`; the lines are cited at each case, all of
random/distribution/std-*-distribution.h.  `none`: the interface of the distribution has no such function, or the
distribution is made from a parameter object. -/
def Ctor.get (E : Ends) : Ctor → Get → Option Val
  -- `(dist_.min)()`; std-uniform-uint32-distribution.h 71-74 and the same lines of the others
  -- (std-fisher-f-distribution.h 72-75, std-negative-binomial-distribution.h 72-75)
  | k, .minValue => k.min E
  -- `(dist_.max)()`; std-uniform-uint32-distribution.h 76-79 and the same lines of the others
  -- (std-fisher-f-distribution.h 77-80, std-negative-binomial-distribution.h 77-80)
  | k, .maxValue => k.max E
  -- `dist_.a()`; std-uniform-uint32-distribution.h 81-84, std-uniform-int32-distribution.h 81-84,
  -- std-uniform-uint64-distribution.h 81-84, std-uniform-int64-distribution.h 81-84, std-uniform-double-distribution.h 81-84,
  -- std-uniform-float-distribution.h 81-84
  | .uniformUint32 a _, .lowerBound => some (.u32 a)
  | .uniformInt32 a _, .lowerBound => some (.i32 a)
  | .uniformUint64 a _, .lowerBound => some (.u64 a)
  | .uniformInt64 a _, .lowerBound => some (.i64 a)
  | .uniformReal a _, .lowerBound => some (.dbl a)
  | .uniformFloat a _, .lowerBound => some (.flt a)
  -- `dist_.b()`; std-uniform-uint32-distribution.h 86-89, std-uniform-int32-distribution.h 86-89,
  -- std-uniform-uint64-distribution.h 86-89, std-uniform-int64-distribution.h 86-89, std-uniform-double-distribution.h 86-89,
  -- std-uniform-float-distribution.h 86-89
  | .uniformUint32 _ b, .upperBound => some (.u32 b)
  | .uniformInt32 _ b, .upperBound => some (.i32 b)
  | .uniformUint64 _ b, .upperBound => some (.u64 b)
  | .uniformInt64 _ b, .upperBound => some (.i64 b)
  | .uniformReal _ b, .upperBound => some (.dbl b)
  | .uniformFloat _ b, .upperBound => some (.flt b)
  | .bernoulli p, .probability => some (.dbl p)              -- `dist_.p()`; std-bernoulli-distribution.h 81-84
  -- `dist_.t()`, an `int32_t`, converted to `uint32_t`; std-binomial-distribution.h 81-84
  | .binomial t _, .numTrials => some (.u32 (BitVec.ofInt 32 t))
  | .binomial _ p, .probability => some (.dbl p)             -- `dist_.p()`; std-binomial-distribution.h 86-89
  | .negativeBinomial k _, .numTrials => some (.u32 k)       -- `dist_.k()`; std-negative-binomial-distribution.h 82-85
  | .negativeBinomial _ p, .probability => some (.dbl p)     -- `dist_.p()`; std-negative-binomial-distribution.h 87-90
  | .geometric p, .probability => some (.dbl p)              -- `dist_.p()`; std-geometric-distribution.h 81-84
  | .poisson m, .mean => some (.dbl m)                       -- `dist_.mean()`; std-poisson-distribution.h 81-84
  | .exponential l, .lambda => some (.dbl l)                 -- `dist_.lambda()`; std-exponential-distribution.h 81-84
  | .gamma a _, .shape => some (.dbl a)                      -- `dist_.alpha()`; std-gamma-distribution.h 81-84
  | .gamma _ b, .scale => some (.dbl b)                      -- `dist_.beta()`; std-gamma-distribution.h 86-89
  | .weibull a _, .shape => some (.dbl a)                    -- `dist_.a()`; std-weibull-distribution.h 81-84
  | .weibull _ b, .scale => some (.dbl b)                    -- `dist_.b()`; std-weibull-distribution.h 86-89
  | .extremeValue a _, .location => some (.dbl a)            -- `dist_.a()`; std-extreme-value-distribution.h 81-84
  | .extremeValue _ b, .scale => some (.dbl b)               -- `dist_.b()`; std-extreme-value-distribution.h 86-89
  | .beta a _, .alpha => some (.dbl a)                       -- `dist_.alpha()`; std-beta-distribution.h 81-84
  | .beta _ b, .beta => some (.dbl b)                        -- `dist_.beta()`; std-beta-distribution.h 86-89
  | .laplace m _, .mean => some (.dbl m)                     -- `dist_.mean()`; std-laplace-distribution.h 81-84
  | .laplace _ b, .scale => some (.dbl b)                    -- `dist_.beta()`; std-laplace-distribution.h 86-89
  | .normal m _, .mean => some (.dbl m)                      -- `dist_.mean()`; std-normal-distribution.h 81-84
  | .normal _ s, .stddev => some (.dbl s)                    -- `dist_.sigma()`; std-normal-distribution.h 86-89
  | .lognormal m _, .mean => some (.dbl m)                   -- `dist_.m()`; std-lognormal-distribution.h 81-84
  | .lognormal _ s, .stddev => some (.dbl s)                 -- `dist_.s()`; std-lognormal-distribution.h 86-89
  | .chiSquared n, .degreesOfFreedom => some (.dbl n)        -- `dist_.n()`; std-chi-squared-distribution.h 81-84
  | .cauchy a _, .location => some (.dbl a)                  -- `dist_.a()`; std-cauchy-distribution.h 81-84
  | .cauchy _ b, .scale => some (.dbl b)                     -- `dist_.b()`; std-cauchy-distribution.h 86-89
  | .fisherF m _, .numerator => some (.dbl m)                -- `dist_.m()`; std-fisher-f-distribution.h 82-85
  | .fisherF _ n, .denominator => some (.dbl n)              -- `dist_.n()`; std-fisher-f-distribution.h 87-90
  | .studentT n, .degreesOfFreedom => some (.dbl n)          -- `dist_.n()`; std-student-t-distribution.h 81-84
  | .triangle a _ _, .a => some (.dbl a)                     -- `dist_.a()`; std-triangle-distribution.h 81-84
  | .triangle _ b _, .b => some (.dbl b)                     -- `dist_.b()`; std-triangle-distribution.h 86-89
  | .triangle _ _ c, .c => some (.dbl c)                     -- `dist_.c()`; std-triangle-distribution.h 91-94
  | _, _ => none

/-- What is assumed of Boost's distributions: a distribution tells the arguments it was constructed with, and neither
`reset()` nor drawing changes them.  (External; used by the lines cited at `Ctor.get`, e.g. std-gamma-distribution.h 59-89.) -/
structure Accessors {R : Type} (B : Boost R) where
  args : B.Dist → Ctor
  made : ∀ k, args (B.make k) = k
  reset : ∀ d, args (B.reset d) = args d
  draw : ∀ d f o d' n, B.draw d f = some (o, d', n) → args d' = args d

/-- Calling one of the functions of a live distribution.  (The lines cited at `Ctor.get`, e.g. std-gamma-distribution.h 71-89.) -/
def World.get {g : Rng} {B : Boost g.Word} (A : Accessors B) (E : Ends) (w : World g B) (d : Nat) (k : Get) : Option Val :=
  match w.dist d with
  | none => none
  | some y => (A.args y.d).get E k

end Verif.Random
