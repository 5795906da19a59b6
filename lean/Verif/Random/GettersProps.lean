import Verif.Random.Getters
import Verif.Random.SharedProps

/-! # Properties C159 and C160: distributions report their arguments, and are made from them -/

namespace Verif.Random

open Verif.Stat (Dbl)

variable {g : Rng} {B : Boost g.Word}

/-- The arguments of the last creation under the name `d` in a history.  (Specification.) -/
def lastCreate (d : Nat) : List Op → Option Call
  | [] => none
  | o :: os =>
    match lastCreate d os with
    | some c => some c
    | none =>
      match o with
      | .create _ d' c => if d' = d then some c else none
      | _ => none

/-- What the interfaces document a function of a distribution created with these arguments to return, where they say; the
names are those of the parameters in i-random.h 132-437.  (Specification; random/distribution/i-*-distribution.h, e.g.
i-binomial-distribution.h 60-91.) -/
def Call.reports : Call → Get → Option Val
  | .uniformUint32 lb _, .minValue | .uniformUint32 lb _, .lowerBound => some (.u32 lb)
  | .uniformUint32 _ ub, .maxValue | .uniformUint32 _ ub, .upperBound => some (.u32 ub)
  | .uniformInt32 lb _, .minValue | .uniformInt32 lb _, .lowerBound => some (.i32 lb)
  | .uniformInt32 _ ub, .maxValue | .uniformInt32 _ ub, .upperBound => some (.i32 ub)
  | .uniformUint64 lb _, .minValue | .uniformUint64 lb _, .lowerBound => some (.u64 lb)
  | .uniformUint64 _ ub, .maxValue | .uniformUint64 _ ub, .upperBound => some (.u64 ub)
  | .uniformInt64 lb _, .minValue | .uniformInt64 lb _, .lowerBound => some (.i64 lb)
  | .uniformInt64 _ ub, .maxValue | .uniformInt64 _ ub, .upperBound => some (.i64 ub)
  | .uniformDouble lb _, .minValue | .uniformDouble lb _, .lowerBound => some (.dbl lb)
  | .uniformDouble _ ub, .maxValue | .uniformDouble _ ub, .upperBound => some (.dbl ub)
  | .uniformFloat lb _, .minValue | .uniformFloat lb _, .lowerBound => some (.flt lb)
  | .uniformFloat _ ub, .maxValue | .uniformFloat _ ub, .upperBound => some (.flt ub)
  | .bernoulli _, .minValue => some (.bool false)
  | .bernoulli _, .maxValue => some (.bool true)
  | .bernoulli prob, .probability => some (.dbl prob)
  | .binomial _ _, .minValue => some (.u32 0)
  | .binomial numTrials _, .maxValue => some (.u32 numTrials)
  | .binomial numTrials _, .numTrials => some (.u32 numTrials)
  | .binomial _ prob, .probability => some (.dbl prob)
  | .negativeBinomial _ _, .minValue => some (.u32 0)
  | .negativeBinomial _ _, .maxValue => some (.u32 4294967295)
  | .negativeBinomial numTrials _, .numTrials => some (.u32 numTrials)
  | .negativeBinomial _ prob, .probability => some (.dbl prob)
  | .geometric _, .minValue => some (.u32 0)
  | .geometric _, .maxValue => some (.u32 4294967295)
  | .geometric prob, .probability => some (.dbl prob)
  | .poisson _, .minValue => some (.u32 0)
  | .poisson _, .maxValue => some (.u32 4294967295)
  | .poisson mean, .mean => some (.dbl mean)
  | .exponential _, .minValue => some (.dbl 0)
  | .exponential lambda, .lambda => some (.dbl lambda)
  | .gamma _ _, .minValue => some (.dbl 0)
  | .gamma shape _, .shape => some (.dbl shape)
  | .gamma _ scale, .scale => some (.dbl scale)
  | .weibull _ _, .minValue => some (.dbl 0)
  | .weibull shape _, .shape => some (.dbl shape)
  | .weibull _ scale, .scale => some (.dbl scale)
  | .extremeValue location _, .location => some (.dbl location)
  | .extremeValue _ scale, .scale => some (.dbl scale)
  | .beta _ _, .minValue => some (.dbl 0)
  | .beta _ _, .maxValue => some (.dbl 1)
  | .beta alpha _, .alpha => some (.dbl alpha)
  | .beta _ b, .beta => some (.dbl b)
  | .laplace mean _, .mean => some (.dbl mean)
  | .laplace _ scale, .scale => some (.dbl scale)
  | .normal mean _, .mean => some (.dbl mean)
  | .normal _ stddev, .stddev => some (.dbl stddev)
  | .lognormal _ _, .minValue => some (.dbl 0)
  | .lognormal mean _, .mean => some (.dbl mean)
  | .lognormal _ stddev, .stddev => some (.dbl stddev)
  | .chiSquared _, .minValue => some (.dbl 0)
  | .chiSquared n, .degreesOfFreedom => some (.dbl n)
  | .cauchy location _, .location => some (.dbl location)
  | .cauchy _ scale, .scale => some (.dbl scale)
  | .fisherF _ _, .minValue => some (.dbl 0)
  | .fisherF numerator _, .numerator => some (.dbl numerator)
  | .fisherF _ denominator, .denominator => some (.dbl denominator)
  | .studentT n, .degreesOfFreedom => some (.dbl n)
  | .triangle a _ _, .minValue | .triangle a _ _, .a => some (.dbl a)
  | .triangle _ b _, .b => some (.dbl b)
  | .triangle _ _ c, .maxValue | .triangle _ _ c, .c => some (.dbl c)
  | _, _ => none

/-- In a history, every live distribution is made from the arguments of the last creation under its name. -/
theorem made_from (A : Accessors B) (os : List Op) : ∀ {w w' : World g B} {bs : List (Obs g B)},
    w.run os = (bs, .ok w') → ∀ d y', w'.dist d = some y' →
      (∀ c, lastCreate d os = some c → A.args y'.d = c.created) ∧
      (lastCreate d os = none → ∃ y, w.dist d = some y ∧ A.args y'.d = A.args y.d) := by
  induction os with
  | nil =>
    intro w w' bs h d y' hy
    simp only [World.run, Prod.mk.injEq, Except.ok.injEq] at h
    obtain ⟨-, rfl⟩ := h
    exact ⟨fun c hc => by simp [lastCreate] at hc, fun _ => ⟨y', hy, rfl⟩⟩
  | cons o os ih =>
    intro w w' bs h d y' hy
    cases hs : w.step o with
    | error f => simp [World.run, hs] at h
    | ok p =>
      obtain ⟨b, w1⟩ := p
      have h1 : w1.run os = ((w1.run os).1, .ok w') := by
        simp only [World.run, hs, Prod.mk.injEq] at h
        exact Prod.ext rfl h.2
      obtain ⟨i1, i2⟩ := ih h1 d y' hy
      cases hl : lastCreate d os with
      | some c =>
        refine ⟨fun c' hc' => ?_, fun hn => ?_⟩
        · simp only [lastCreate, hl, Option.some.injEq] at hc'
          subst hc'; exact i1 c hl
        · simp [lastCreate, hl] at hn
      | none =>
        obtain ⟨y, hy1, ha⟩ := i2 hl
        have hd := did hs
        clear i1 i2 ih h h1 hs
        cases hd with
        | create e k c x h hh hk has =>
          by_cases e' : k = d
          · subst e'
            rw [setD_same] at hy1
            cases hy1
            simp only [lastCreate, hl, if_true]
            refine ⟨fun c' hc' => ?_, fun hn => by cases hn⟩
            cases hc'
            rw [ha]; exact A.made _
          · rw [setD_ne _ _ (Ne.symm e'), setE_dist] at hy1
            simp only [lastCreate, hl, if_neg e']
            exact ⟨fun c' hc' => (by cases hc'), fun _ => ⟨y, hy1, ha⟩⟩
        | construct | hold | generate | seed | discard | oneShot =>
          simp only [lastCreate, hl]
          exact ⟨fun c' hc' => (by cases hc'), fun _ => ⟨y, hy1, ha⟩⟩
        | drop e x h hh =>
          rw [release_dist] at hy1
          simp only [lastCreate, hl]
          exact ⟨fun c' hc' => (by cases hc'), fun _ => ⟨y, hy1, ha⟩⟩
        | draw k z x o' d' n hk h hb =>
          simp only [lastCreate, hl]
          refine ⟨fun c' hc' => (by cases hc'), fun _ => ?_⟩
          by_cases e' : k = d
          · subst e'
            rw [setD_same] at hy1
            cases hy1
            exact ⟨z, hk, ha.trans (A.draw _ _ _ _ _ hb)⟩
          · rw [setD_ne _ _ (Ne.symm e'), setE_dist] at hy1
            exact ⟨y, hy1, ha⟩
        | reset k z hk =>
          simp only [lastCreate, hl]
          refine ⟨fun c' hc' => (by cases hc'), fun _ => ?_⟩
          by_cases e' : k = d
          · subst e'
            rw [setD_same] at hy1
            cases hy1
            exact ⟨z, hk, ha.trans (A.reset _)⟩
          · rw [setD_ne _ _ (Ne.symm e')] at hy1
            exact ⟨y, hy1, ha⟩
        | holdD k z hk =>
          simp only [lastCreate, hl]
          refine ⟨fun c' hc' => (by cases hc'), fun _ => ?_⟩
          by_cases e' : k = d
          · subst e'
            rw [setD_same] at hy1
            cases hy1
            exact ⟨z, hk, ha⟩
          · rw [setD_ne _ _ (Ne.symm e')] at hy1
            exact ⟨y, hy1, ha⟩
        | dropLast k z x hk hr h =>
          simp only [lastCreate, hl]
          refine ⟨fun c' hc' => (by cases hc'), fun _ => ?_⟩
          rw [release_dist] at hy1
          by_cases e' : k = d
          · subst e'
            rw [setD_same] at hy1
            cases hy1
          · rw [setD_ne _ _ (Ne.symm e')] at hy1
            exact ⟨y, hy1, ha⟩
        | dropD k z hk hr =>
          simp only [lastCreate, hl]
          refine ⟨fun c' hc' => (by cases hc'), fun _ => ?_⟩
          by_cases e' : k = d
          · subst e'
            rw [setD_same] at hy1
            cases hy1
            exact ⟨z, hk, ha⟩
          · rw [setD_ne _ _ (Ne.symm e')] at hy1
            exact ⟨y, hy1, ha⟩

/-- A live distribution was created, and is made from the arguments of its creation. -/
theorem made_last (A : Accessors B) (os : List Op) {w : World g B} {bs : List (Obs g B)}
    (h : (World.init : World g B).run os = (bs, .ok w)) {d : Nat} {y : DObj g B} (hy : w.dist d = some y) :
    ∃ c, lastCreate d os = some c ∧ A.args y.d = c.created := by
  obtain ⟨h1, h2⟩ := made_from A os h d y hy
  cases hl : lastCreate d os with
  | some c => exact ⟨c, rfl, h1 c hl⟩
  | none =>
    obtain ⟨_, hz, _⟩ := h2 hl
    cases hz

/-! ### C159 -/

/-- **C159.** At every point of every history of calls on engines and distributions, a live distribution reports the
arguments it was created with, under the names they have in the documentation, and the ends of its range that are
documented; drawing, resetting, seeding, and other engines and distributions do not change that. -/
theorem C159_reports (A : Accessors B) (E : Ends) (os : List Op) {w : World g B} {bs : List (Obs g B)}
    (h : (World.init : World g B).run os = (bs, .ok w)) {d : Nat} {y : DObj g B} (hy : w.dist d = some y) :
    ∃ c, lastCreate d os = some c ∧ ∀ k v, c.reports k = some v → w.get A E d k = some v := by
  obtain ⟨c, hc, ha⟩ := made_last A os h hy
  refine ⟨c, hc, fun k v hv => ?_⟩
  simp only [World.get, hy, ha]
  cases c <;> cases k <;>
    simp_all [Call.reports, Call.created, Ctor.get, Ctor.min, Ctor.max]

/-- Distributions whose range has no lower end.  (Specification; the ranges of the distributions in i-random.h 310-437.) -/
def Call.openBelow : Call → Bool
  | .extremeValue _ _ | .laplace _ _ | .normal _ _ | .cauchy _ _ | .studentT _ => true
  | _ => false

/-- Distributions of `double`s whose range has no upper end.  (Specification; the ranges of the distributions in i-random.h 240-437.) -/
def Call.openAbove : Call → Bool
  | .exponential _ | .gamma _ _ | .weibull _ _ | .lognormal _ _ | .chiSquared _ | .fisherF _ _ => true
  | c => c.openBelow

/-- **C159, ranges without end.**  A distribution whose range has no lower end or no upper end reports what Boost takes for that end. -/
theorem C159_open (A : Accessors B) (E : Ends) (os : List Op) {w : World g B} {bs : List (Obs g B)}
    (h : (World.init : World g B).run os = (bs, .ok w)) {d : Nat} {y : DObj g B} (hy : w.dist d = some y) :
    ∃ c, lastCreate d os = some c ∧ (c.openBelow = true → w.get A E d .minValue = some (.dbl E.low)) ∧
      (c.openAbove = true → w.get A E d .maxValue = some (.dbl E.high)) := by
  obtain ⟨c, hc, ha⟩ := made_last A os h hy
  refine ⟨c, hc, fun hb => ?_, fun hb => ?_⟩ <;> simp only [World.get, hy, ha] <;> cases c <;>
    simp_all [Call.openBelow, Call.openAbove, Call.created, Ctor.get, Ctor.min, Ctor.max]

/-! ### C160 -/

/-- The number of trials of a binomial or negative binomial distribution, as Boost is given it.  (Specification: the
constructor argument of Boost's class.) -/
def Ctor.trials : Ctor → Option Int
  | .binomial t _ => some t
  | .negativeBinomial k _ => some k.toNat
  | _ => none

/-- The number of trials asked for; i-random.h 217-249.  (Specification.) -/
def Call.trials : Call → Option Int
  | .binomial numTrials _ => some numTrials.toNat
  | .negativeBinomial numTrials _ => some numTrials.toNat
  | _ => none

/-- **C160, as documented, is false.** Asked for 2³¹ trials or more, with arguments as documented, Boost's binomial
distribution is given a negative number of them, both by `CreateBinomialDistribution` and by `GenerateBinomial`, on every
engine; the distribution nevertheless reports the number asked for. -/
theorem C160_trials_fails (n : BitVec 32) (hn : 2 ^ 31 ≤ n.toNat) (p : Dbl) (hp : InUnit p) (A : Accessors B) (E : Ends)
    (w : World g B) (e d : Nat) (x : Eng g) (hx : w.eng e = some x) (hh : 0 < x.held) (hd : w.dist d = none) :
    (Call.binomial n p).documented ∧
    (∃ w' y t, w.step (.create e d (.binomial n p)) = .ok (.unit, w') ∧ w'.dist d = some y ∧
      (A.args y.d).trials = some t ∧ t < 0 ∧ w'.get A E d .numTrials = some (.u32 n)) ∧
    (∃ k t, (Call.binomial n p).temporary = some k ∧ k.trials = some t ∧ t < 0) := by
  have hu : w.user e = some x := user_some.2 ⟨hx, hh⟩
  have hneg : n.toInt < 0 := by
    have := n.isLt
    rw [BitVec.toInt_eq_toNat_cond, if_neg (by omega)]
    omega
  refine ⟨hp, ?_, ⟨_, _, rfl, rfl, hneg⟩⟩
  have ha : (Call.binomial n p).asserts = true := (unit_iff p).2 hp
  refine ⟨(w.setE e (some { x with rc := x.rc + 1 })).setD d (some ⟨e, B.make (Call.binomial n p).created, 1⟩),
    ⟨e, B.make (Call.binomial n p).created, 1⟩, n.toInt, by simp only [World.step, hu, hd, ha, if_true], setD_same _ _ _,
    ?_, hneg, ?_⟩
  · show (A.args (B.make _)).trials = _
    rw [A.made]; rfl
  · simp only [World.get, setD_same, A.made, Call.created, Ctor.get, BitVec.ofInt_toInt]

/-- **C160, what holds.** In every history, Boost's distribution inside a live binomial or negative binomial distribution was
given the number of trials asked for, and so is the one made by a one-shot call, if that number is less than 2³¹ or the
distribution is negative binomial.  Greater numbers of trials of a binomial distribution are what is missing. -/
theorem C160_trials_partial (A : Accessors B) (os : List Op) {w : World g B} {bs : List (Obs g B)}
    (h : (World.init : World g B).run os = (bs, .ok w)) :
    (∀ d y, w.dist d = some y → ∃ c, lastCreate d os = some c ∧
      ((∀ n p, c = .binomial n p → n.toNat < 2 ^ 31) → (A.args y.d).trials = c.trials)) ∧
    (∀ (c : Call) (k : Ctor), c.temporary = some k → (∀ n p, c = .binomial n p → n.toNat < 2 ^ 31) → k.trials = c.trials) := by
  have key : ∀ c : Call, (∀ n p, c = .binomial n p → n.toNat < 2 ^ 31) → c.created.trials = c.trials := by
    intro c hc
    cases c with
    | binomial n p =>
      have := hc n p rfl
      simp only [Call.created, Ctor.trials, Call.trials, Option.some.injEq]
      rw [BitVec.toInt_eq_toNat_cond, if_pos (by omega)]
    | _ => rfl
  constructor
  · intro d y hy
    obtain ⟨c, hc, ha⟩ := made_last A os h hy
    exact ⟨c, hc, fun hn => by rw [ha]; exact key c hn⟩
  · intro c k hk hn
    rw [temporary_created hk]
    exact key c hn

/-! ### Cases -/

/-- Boost distributions for the cases: they keep the arguments and take one output for each value. -/
def plainDist : Boost Nat :=
  { Dist := Ctor, Out := Nat, make := id, reset := id, draw := fun d f => some (f 0, d, 1) }

/-- The assumptions on Boost hold of them. -/
def plainAcc : Accessors plainDist :=
  { args := id, made := fun _ => rfl, reset := fun _ => rfl
    draw := by rintro d f o d' n h; cases h; rfl }

/-- C159 and C160 in a case: a binomial and a gamma distribution, drawn from and reset; the engine is seeded in between. -/
example : let w := ((World.init : World countRng plainDist).run
      [.construct 0 5#64, .create 0 1 (.binomial 20 0), .create 0 2 (.gamma 3 4), .draw 1, .seed 0 7#32, .draw 2, .reset 2]).2
    (match w with | .ok w => some (w.get plainAcc ⟨.neg, .pos⟩ 1 .maxValue, w.get plainAcc ⟨.neg, .pos⟩ 2 .shape,
        w.get plainAcc ⟨.neg, .pos⟩ 2 .scale, w.get plainAcc ⟨.neg, .pos⟩ 2 .maxValue) | .error _ => none) =
      some (some (.u32 20), some (.dbl 3), some (.dbl 4), some (.dbl .pos)) := by decide +kernel

/-- C160 fails in a case: 3000000000 trials become -1294967296. -/
example : (Call.binomial 3000000000 1).created.trials = some (-1294967296) ∧
    (Call.binomial 3000000000 1).trials = some 3000000000 := by decide +kernel

end Verif.Random
