import Verif.Random.Model
import Verif.Stat.Special

/-!
# Random engines as components, and the distributions created from them

`PseudoRandomEngine<StdRng>` (pseudo-random-generator.h 139-622) wraps a random number engine; the
distributions it creates (`random/distribution/std-*.h`) hold a counted pointer to it and draw from the
very engine it wraps.  The model is a world of engines and distributions named by numbers, with one step
per call.

A `double` or `float` parameter is a number, an infinity or NaN (`Dbl`).

Simplifications.  The Boost distributions are parameters (`Boost`): an object built from the arguments, a
`reset`, and an `operator()` that is given the outputs the engine is about to produce, and either never
returns or returns a value, its next state and the number of outputs it took.  One zero.  The three distributions built from a parameter object (discrete and piecewise)
are represented by an identifier of that object.  Query interface calls on the objects are not modelled
here (see `Query`).
-/

namespace Verif.Random

open Verif.Stat (Dbl)

/-- `a <= b`; comparisons with NaN are false.  (IEEE 754; pseudo-random-generator.h 215-363.) -/
def leq : Dbl → Dbl → Bool
  | .nan, _ => false
  | _, .nan => false
  | .num x, .num y => decide (x ≤ y)
  | .num _, .pos => true
  | .num _, .neg => false
  | .pos, .pos => true
  | .pos, _ => false
  | .neg, _ => true

/-- Whole numbers as `double`s.  (Literals; no code.) -/
instance (n : Nat) : OfNat Dbl n := ⟨.num n⟩

/-- The arguments of the `Create*Distribution` and `Generate*` functions; i-random.h 132-437. -/
inductive Call where
  | uniformUint32 (lb ub : BitVec 32)
  | uniformInt32 (lb ub : BitVec 32)
  | uniformUint64 (lb ub : BitVec 64)
  | uniformInt64 (lb ub : BitVec 64)
  | uniformDouble (lb ub : Dbl)
  | uniformFloat (lb ub : Dbl)
  | bernoulli (prob : Dbl)
  | binomial (numTrials : BitVec 32) (prob : Dbl)
  | negativeBinomial (numTrials : BitVec 32) (prob : Dbl)
  | geometric (prob : Dbl)
  | poisson (mean : Dbl)
  | exponential (lambda : Dbl)
  | gamma (shape scale : Dbl)
  | weibull (shape scale : Dbl)
  | extremeValue (location scale : Dbl)
  | beta (alpha beta : Dbl)
  | laplace (mean scale : Dbl)
  | normal (mean stddev : Dbl)
  | lognormal (mean stddev : Dbl)
  | chiSquared (degreesOfFreedom : Dbl)
  | cauchy (location scale : Dbl)
  | fisherF (numerator denominator : Dbl)
  | studentT (degreesOfFreedom : Dbl)
  | discrete (param : Nat)
  | piecewiseConstant (param : Nat)
  | piecewiseLinear (param : Nat)
  | triangle (a b c : Dbl)

/-- The assertions at the head of the `Create*Distribution` functions;
pseudo-random-generator.h 213-607. -/
def Call.asserts : Call → Bool
  | .uniformUint32 lb ub => lb.ule ub                                        -- 215-218
  | .uniformInt32 lb ub => lb.sle ub                                         -- 230-233
  | .uniformUint64 lb ub => lb.ule ub                                        -- 245-248
  | .uniformInt64 lb ub => lb.sle ub                                         -- 260-263
  | .uniformDouble lb ub => leq lb ub                                        -- 275-278
  | .uniformFloat lb ub => leq lb ub                                         -- 296-299
  | .bernoulli prob => leq 0 prob && leq prob 1                              -- 311-314
  | .binomial _ prob => leq 0 prob && leq prob 1                             -- 326-331
  | .negativeBinomial _ prob => leq 0 prob && leq prob 1                     -- 340-348
  | .geometric prob => leq 0 prob && leq prob 1                              -- 357-364
  | .poisson mean => Dbl.lt 0 mean                                           -- 372-379
  | .exponential lambda => Dbl.lt 0 lambda                                   -- 387-394
  | .gamma shape scale => Dbl.lt 0 shape && Dbl.lt 0 scale                   -- 402-410
  | .weibull shape scale => Dbl.lt 0 shape && Dbl.lt 0 scale                 -- 418-426
  | .extremeValue _ scale => Dbl.lt 0 scale                                  -- 434-441
  | .beta a b => Dbl.lt 0 a && Dbl.lt 0 b                                    -- 449-457
  | .laplace mean scale => Dbl.lt 0 mean && Dbl.lt 0 scale                   -- 465-473
  | .normal _ stddev => Dbl.lt 0 stddev                                      -- 481-488
  | .lognormal _ stddev => Dbl.lt 0 stddev                                   -- 496-503
  | .chiSquared n => Dbl.lt 0 n                                              -- 511-518
  | .cauchy _ scale => Dbl.lt 0 scale                                        -- 526-533
  | .fisherF m n => Dbl.lt 0 m && Dbl.lt 0 n                                 -- 541-549
  | .studentT n => Dbl.lt 0 n                                                -- 557-564
  | .discrete _ => true                                                      -- 572-579
  | .piecewiseConstant _ => true                                             -- 581-588
  | .piecewiseLinear _ => true                                               -- 590-597
  | .triangle _ _ _ => true                                                  -- 599-605

/-- A Boost distribution as constructed: its class and the arguments of its constructor, under Boost's names and of
the types its template arguments give it (line 48 of each std-*-distribution.h, e.g. std-gamma-distribution.h 48;
the number of trials of a binomial one is an `int32_t`, std-binomial-distribution.h 48). -/
inductive Ctor where
  | uniformUint32 (a b : BitVec 32)
  | uniformInt32 (a b : BitVec 32)
  | uniformUint64 (a b : BitVec 64)
  | uniformInt64 (a b : BitVec 64)
  | uniformReal (a b : Dbl)
  | uniformFloat (a b : Dbl)
  | bernoulli (p : Dbl)
  | binomial (t : Int) (p : Dbl)
  | negativeBinomial (k : BitVec 32) (p : Dbl)
  | geometric (p : Dbl)
  | poisson (mean : Dbl)
  | exponential (lambda : Dbl)
  | gamma (alpha beta : Dbl)
  | weibull (a b : Dbl)
  | extremeValue (a b : Dbl)
  | beta (alpha beta : Dbl)
  | laplace (mean beta : Dbl)
  | normal (mean sigma : Dbl)
  | lognormal (m s : Dbl)
  | chiSquared (n : Dbl)
  | cauchy (a b : Dbl)
  | fisherF (m n : Dbl)
  | studentT (n : Dbl)
  | discrete (param : Nat)
  | piecewiseConstant (param : Nat)
  | piecewiseLinear (param : Nat)
  | triangle (a b c : Dbl)

/-- The Boost distribution inside a created distribution: `Create*Distribution` passes its arguments to the constructor of
the distribution, which initialises `dist_` with them; pseudo-random-generator.h 213-605 and the lines cited. -/
def Call.created : Call → Ctor
  | .uniformUint32 lb ub => .uniformUint32 lb ub           -- std-uniform-uint32-distribution.h 52-57
  | .uniformInt32 lb ub => .uniformInt32 lb ub             -- std-uniform-int32-distribution.h 52-57
  | .uniformUint64 lb ub => .uniformUint64 lb ub           -- std-uniform-uint64-distribution.h 52-57
  | .uniformInt64 lb ub => .uniformInt64 lb ub             -- std-uniform-int64-distribution.h 52-57
  | .uniformDouble lb ub => .uniformReal lb ub             -- std-uniform-double-distribution.h 52-57
  | .uniformFloat lb ub => .uniformFloat lb ub             -- std-uniform-float-distribution.h 52-57
  | .bernoulli prob => .bernoulli prob                     -- std-bernoulli-distribution.h 52-57
  | .binomial numTrials prob => .binomial numTrials.toInt prob          -- std-binomial-distribution.h 52-57
  | .negativeBinomial numTrials prob => .negativeBinomial numTrials prob -- std-negative-binomial-distribution.h 52-58
  | .geometric prob => .geometric prob                     -- std-geometric-distribution.h 52-57
  | .poisson mean => .poisson mean                         -- std-poisson-distribution.h 52-57
  | .exponential lambda => .exponential lambda             -- std-exponential-distribution.h 52-57
  | .gamma shape scale => .gamma shape scale               -- std-gamma-distribution.h 52-57
  | .weibull shape scale => .weibull shape scale           -- std-weibull-distribution.h 52-57
  | .extremeValue location scale => .extremeValue location scale  -- std-extreme-value-distribution.h 52-57
  | .beta a b => .beta a b                                   -- std-beta-distribution.h 52-57
  | .laplace mean scale => .laplace mean scale             -- std-laplace-distribution.h 52-57
  | .normal mean stddev => .normal mean stddev             -- std-normal-distribution.h 52-57
  | .lognormal mean stddev => .lognormal mean stddev       -- std-lognormal-distribution.h 52-57
  | .chiSquared n => .chiSquared n                         -- std-chi-squared-distribution.h 52-57
  | .cauchy location scale => .cauchy location scale       -- std-cauchy-distribution.h 52-57
  | .fisherF m n => .fisherF m n                           -- std-fisher-f-distribution.h 52-58
  | .studentT n => .studentT n                             -- std-student-t-distribution.h 52-57
  | .discrete param => .discrete param                     -- std-discrete-distribution.h 132-140
  | .piecewiseConstant param => .piecewiseConstant param   -- std-piecewise-constant-distribution.h 178-188
  | .piecewiseLinear param => .piecewiseLinear param       -- std-piecewise-linear-distribution.h 178-188
  | .triangle a b c => .triangle a b c                     -- std-triangle-distribution.h 52-57

/-- The Boost distribution a `Generate*` function makes for one call, if there is such a function;
pseudo-random-generator.h 222-611. -/
def Call.temporary : Call → Option Ctor
  | .uniformUint32 lb ub => some (.uniformUint32 lb ub)               -- 222-226
  | .uniformInt32 lb ub => some (.uniformInt32 lb ub)                 -- 237-241
  | .uniformUint64 lb ub => some (.uniformUint64 lb ub)               -- 252-256
  | .uniformInt64 lb ub => some (.uniformInt64 lb ub)                 -- 267-271
  | .uniformDouble lb ub => some (.uniformReal lb ub)                 -- 282-286
  | .uniformFloat lb ub => some (.uniformFloat lb ub)                 -- 303-307
  | .bernoulli prob => some (.bernoulli prob)                         -- 318-322
  | .binomial numTrials prob => some (.binomial numTrials.toInt prob) -- 333-338
  | .negativeBinomial numTrials prob => some (.negativeBinomial numTrials prob)  -- 350-355
  | .geometric prob => some (.geometric prob)                         -- 366-370
  | .poisson mean => some (.poisson mean)                             -- 381-385
  | .exponential lambda => some (.exponential lambda)                 -- 396-400
  | .gamma shape scale => some (.gamma shape scale)                   -- 412-416
  | .weibull shape scale => some (.weibull shape scale)               -- 428-432
  | .extremeValue location scale => some (.extremeValue location scale)          -- 443-447
  | .beta a b => some (.beta a b)                                       -- 459-463
  | .laplace mean scale => some (.laplace mean scale)                 -- 475-479
  | .normal mean stddev => some (.normal mean stddev)                 -- 490-494
  | .lognormal mean stddev => some (.lognormal mean stddev)           -- 505-509
  | .chiSquared n => some (.chiSquared n)                             -- 520-524
  | .cauchy location scale => some (.cauchy location scale)           -- 535-539
  | .fisherF m n => some (.fisherF m n)                               -- 551-555
  | .studentT n => some (.studentT n)                                 -- 566-570
  | .discrete _ => none
  | .piecewiseConstant _ => none
  | .piecewiseLinear _ => none
  | .triangle a b c => some (.triangle a b c)                         -- 607-611

/-- The wrapped engine (the template parameter `StdRng`): what the calls of `PseudoRandomEngine` on it do;
pseudo-random-generator.h 154-210. -/
structure Rng where
  State : Type
  Word : Type
  /-- The result of `operator()`; pseudo-random-generator.h 168-171. -/
  out : State → Word
  /-- The state after `operator()`. -/
  next : State → State
  /-- The constructor taking a `uint64_t`; pseudo-random-generator.h 159-161. -/
  ctor : BitVec 64 → State
  /-- `seed` called by `Seed(uint32_t)`; pseudo-random-generator.h 189-192. -/
  seed32 : BitVec 32 → State → State

/-- The state after `k` calls of `operator()`.  (Specification; no code.) -/
def Rng.iter (g : Rng) : Nat → g.State → g.State
  | 0, s => s
  | k + 1, s => g.iter k (g.next s)

/-- The outputs the engine is about to produce.  (Specification; no code.) -/
def Rng.outs (g : Rng) (s : g.State) : Nat → g.Word := fun k => g.out (g.iter k s)

/-- The Boost distributions, over engines with results in `R`: `make` is the constructor, `draw` the
`operator()`.  External code: nothing is assumed about them except where a theorem says so.
(Used in std-*-distribution.h, e.g. std-uniform-uint32-distribution.h 45-64.) -/
structure Boost (R : Type) where
  Dist : Type
  Out : Type
  make : Ctor → Dist
  reset : Dist → Dist
  draw : Dist → (Nat → R) → Option (Out × Dist × Nat)

/-- A live `PseudoRandomEngine` object: `rng_` (pseudo-random-generator.h 621), its reference counter, and
how many of the references are held by the user. -/
structure Eng (g : Rng) where
  st : g.State
  rc : Nat
  held : Nat

/-- A live distribution object: the engine `rng_` refers to, and `dist_`
(e.g. std-uniform-uint32-distribution.h 96-97), with its reference counter. -/
structure DObj (g : Rng) (B : Boost g.Word) where
  eng : Nat
  d : B.Dist
  rc : Nat

/-- The objects alive, by name.  (pseudo-random-generator.h 621, e.g. std-uniform-uint32-distribution.h 96-97.) -/
structure World (g : Rng) (B : Boost g.Word) where
  eng : Nat → Option (Eng g)
  dist : Nat → Option (DObj g B)

variable {g : Rng} {B : Boost g.Word}

/-- Replace an engine.  (The model's own addressing of objects; no code.) -/
def World.setE (w : World g B) (e : Nat) (x : Option (Eng g)) : World g B :=
  { w with eng := fun i => if i = e then x else w.eng i }

/-- Replace a distribution.  (The model's own addressing of objects; no code.) -/
def World.setD (w : World g B) (d : Nat) (x : Option (DObj g B)) : World g B :=
  { w with dist := fun i => if i = d then x else w.dist i }

/-- Nothing is alive.  (A client before it makes anything; no code.) -/
def World.init : World g B := ⟨fun _ => none, fun _ => none⟩

/-- The calls.  New objects are given unused names by the caller.  (pseudo-random-generator.h 154-607.) -/
inductive Op where
  | construct (e : Nat) (v : BitVec 64)
  | hold (e : Nat)
  | drop (e : Nat)
  | generate (e : Nat)
  | seed (e : Nat) (v : BitVec 32)
  | discard (e : Nat) (z : Nat)
  | create (e d : Nat) (c : Call)
  | oneShot (e : Nat) (c : Call)
  | draw (d : Nat)
  | reset (d : Nat)
  | holdD (d : Nat)
  | dropD (d : Nat)

/-- What a call returns; `n` counts the outputs of the engine a distribution took.  (pseudo-random-generator.h 154-607.) -/
inductive Obs (g : Rng) (B : Boost g.Word) where
  | unit
  | word (x : g.Word)
  | value (o : B.Out) (n : Nat)

/-- How a call may fail: an object used without holding it, a failed assertion, an engine used after it
was destroyed, or a Boost distribution that never returns.
(pseudo-random-generator.h 154-607, the distributions' constructors.) -/
inductive Fault where
  | misuse
  | assertion
  | dangling
  | diverges
  deriving DecidableEq

/-- An engine the user holds.  (The model's own addressing of objects; no code.) -/
def World.user (w : World g B) (e : Nat) : Option (Eng g) :=
  match w.eng e with
  | some x => if 0 < x.held then some x else none
  | none => none

/-- Release one reference to an engine; component/object.h 464-472 (destroyed at zero). -/
def World.release (w : World g B) (e : Nat) (x : Eng g) : World g B :=
  if x.rc = 1 then w.setE e none else w.setE e (some { x with rc := x.rc - 1 })

/-- One call.  (The lines are cited at each case.) -/
def World.step (w : World g B) : Op → Except Fault (Obs g B × World g B)
  -- `new Object<PseudoRandomEngine>(value)` held by one pointer; pseudo-random-generator.h 159-161
  | .construct e v =>
    match w.eng e with
    | some _ => .error .misuse
    | none => .ok (.unit, w.setE e (some ⟨g.ctor v, 1, 1⟩))
  -- copying a pointer to the engine
  | .hold e =>
    match w.user e with
    | none => .error .misuse
    | some x => .ok (.unit, w.setE e (some { x with rc := x.rc + 1, held := x.held + 1 }))
  -- releasing a pointer to the engine
  | .drop e =>
    match w.user e with
    | none => .error .misuse
    | some x => .ok (.unit, w.release e { x with held := x.held - 1 })
  -- `Generate`; pseudo-random-generator.h 168-171
  | .generate e =>
    match w.user e with
    | none => .error .misuse
    | some x => .ok (.word (g.out x.st), w.setE e (some { x with st := g.next x.st }))
  -- `Seed`; pseudo-random-generator.h 189-192
  | .seed e v =>
    match w.user e with
    | none => .error .misuse
    | some x => .ok (.unit, w.setE e (some { x with st := g.seed32 v x.st }))
  -- `Discard`; pseudo-random-generator.h 194-197
  | .discard e z =>
    match w.user e with
    | none => .error .misuse
    | some x => .ok (.unit, w.setE e (some { x with st := g.iter z x.st }))
  -- `Create*Distribution`: the assertions, then an object holding a pointer to the engine;
  -- pseudo-random-generator.h 213-607, std-*-distribution.h constructors
  | .create e d c =>
    match w.user e, w.dist d with
    | some x, none =>
      if c.asserts then
        .ok (.unit, (w.setE e (some { x with rc := x.rc + 1 })).setD d (some ⟨e, B.make c.created, 1⟩))
      else .error .assertion
    | _, _ => .error .misuse
  -- `Generate*(params)`: a temporary Boost distribution applied to `rng_`; e.g. 222-226 (a call that does not exist
  -- counts as misuse)
  | .oneShot e c =>
    match w.user e, c.temporary with
    | some x, some k =>
      match B.draw (B.make k) (g.outs x.st) with
      | none => .error .diverges
      | some (o, _, n) => .ok (.value o n, w.setE e (some { x with st := g.iter n x.st }))
    | _, _ => .error .misuse
  -- `Generate` of a distribution: `dist_(rng_->GetRng())`; e.g. std-uniform-uint32-distribution.h 61-64
  | .draw d =>
    match w.dist d with
    | none => .error .misuse
    | some y =>
      match w.eng y.eng with
      | none => .error .dangling
      | some x =>
        match B.draw y.d (g.outs x.st) with
        | none => .error .diverges
        | some (o, d', n) =>
          .ok (.value o n, (w.setE y.eng (some { x with st := g.iter n x.st })).setD d (some { y with d := d' }))
  -- `Reset` of a distribution; e.g. std-uniform-uint32-distribution.h 66-69
  | .reset d =>
    match w.dist d with
    | none => .error .misuse
    | some y => .ok (.unit, w.setD d (some { y with d := B.reset y.d }))
  -- copying a pointer to a distribution
  | .holdD d =>
    match w.dist d with
    | none => .error .misuse
    | some y => .ok (.unit, w.setD d (some { y with rc := y.rc + 1 }))
  -- releasing a pointer to a distribution; the last one destroys it, which releases the engine
  | .dropD d =>
    match w.dist d with
    | none => .error .misuse
    | some y =>
      if y.rc = 1 then
        match w.eng y.eng with
        | none => .error .dangling
        | some x => .ok (.unit, (w.setD d none).release y.eng x)
      else .ok (.unit, w.setD d (some { y with rc := y.rc - 1 }))

/-- A history of calls: the results up to the first failure, and the world after it or the failure.  (A client; no code.) -/
def World.run (w : World g B) : List Op → List (Obs g B) × Except Fault (World g B)
  | [] => ([], .ok w)
  | o :: os =>
    match w.step o with
    | .error f => ([], .error f)
    | .ok (b, w') => let r := w'.run os; (b :: r.1, r.2)

end Verif.Random
