import Verif.Random.SharedLemmas
import Verif.Random.Props

/-! # Properties C114-C120: engines shared by distributions -/

namespace Verif.Random

open Verif.Stat (Dbl)

variable {g : Rng} {B : Boost g.Word}

/-! ### C114 -/

/-- **C114.** In every history of calls on engines and distributions, no call ever finds its engine
destroyed: dropping the last user pointer to an engine while distributions created from it live on leaves
it alive.  And at every point of such a history an engine is alive exactly as long as the user holds it or
some live distribution draws from it. -/
theorem C114_lifetime (os : List Op) :
    ((World.init : World g B).run os).2 ≠ .error .dangling ∧
    ∀ bs w, (World.init : World g B).run os = (bs, .ok w) →
      (∀ d y, w.dist d = some y → ∃ x, w.eng y.eng = some x) ∧
      (∀ e x, w.eng e = some x → 0 < x.held ∨ ∃ d y, w.dist d = some y ∧ y.eng = e) := by
  refine ⟨?_, ?_⟩
  · have key : ∀ (os : List Op) (w : World g B), Inv w → (w.run os).2 ≠ .error .dangling := by
      intro os
      induction os with
      | nil => intro w _ h; cases h
      | cons o os ih =>
        intro w hi h
        cases hs : w.step o with
        | error f =>
          rw [run_cons_error os hs] at h
          cases h
          exact no_dangling hi o hs
        | ok r =>
          obtain ⟨b, w1⟩ := r
          rw [run_cons_ok os hs] at h
          exact ih w1 (inv_step hi hs) h
    exact key os _ inv_init
  · intro bs w h
    have hi := inv_run inv_init h
    refine ⟨fun d y hy => (hi.dist d y hy).2, ?_⟩
    intro e x hx
    obtain ⟨L, hu, hrc, hp⟩ := hi.eng e x hx
    cases L with
    | nil => left; simp at hrc; omega
    | cons d L =>
      right
      obtain ⟨y, hy, he⟩ := (hu.2 d).1 (by simp)
      exact ⟨d, y, hy, he⟩

/-! ### C115 -/

/-- How many outputs of engine `e` a call that returned `b` took. -/
def spent (w : World g B) (e : Nat) : Op → Obs g B → Nat
  | .generate e', _ => if e' = e then 1 else 0
  | .discard e' z, _ => if e' = e then z else 0
  | .oneShot e' _, .value _ n => if e' = e then n else 0
  | .draw d, .value _ n => if (w.dist d).map (·.eng) = some e then n else 0
  | _, _ => 0

/-- How many outputs of engine `e` a history took. -/
def total (w : World g B) (e : Nat) : List Op → Nat
  | [] => 0
  | o :: os =>
    match w.step o with
    | .error _ => 0
    | .ok (b, w') => spent w e o b + total w' e os

/-- The history neither seeds nor constructs engine `e`. -/
def Undisturbed (e : Nat) (os : List Op) : Prop :=
  ∀ o ∈ os, (∀ v, o ≠ .seed e v) ∧ (∀ v, o ≠ .construct e v)

theorem spent_step {w w' : World g B} {o : Op} {b : Obs g B} {e : Nat} {x x' : Eng g} (hs : w.step o = .ok (b, w'))
    (hx : w.eng e = some x) (hx' : w'.eng e = some x') (h1 : ∀ v, o ≠ .seed e v) (h2 : ∀ v, o ≠ .construct e v) :
    x'.st = g.iter (spent w e o b) x.st := by
  have keep : ∀ (w1 : World g B) (i : Nat) (z : Eng g), i ≠ e → w1.eng e = some x → (w1.release i z).eng e = some x' → x' = x := by
    intro w1 i z hi hw h
    rw [release_ne _ _ (Ne.symm hi), hw] at h
    cases h; rfl
  cases did hs with
  | construct i v h =>
    by_cases hi : e = i
    · subst hi; exact absurd rfl (h2 v)
    · rw [setE_ne _ _ hi, hx] at hx'; cases hx'; rfl
  | hold i z h hh =>
    by_cases hi : e = i
    · subst hi; rw [setE_same] at hx'; rw [h] at hx; cases hx; cases hx'; rfl
    · rw [setE_ne _ _ hi, hx] at hx'; cases hx'; rfl
  | drop i z h hh =>
    by_cases hi : e = i
    · subst hi
      rw [release_same] at hx'
      rw [h] at hx; cases hx
      split at hx'
      · cases hx'
      · cases hx'; rfl
    · rw [keep w i _ (Ne.symm hi) hx hx']; rfl
  | generate i z h hh =>
    by_cases hi : e = i
    · subst hi; rw [setE_same] at hx'; rw [h] at hx; cases hx; cases hx'; simp [spent, Rng.iter]
    · rw [setE_ne _ _ hi, hx] at hx'; cases hx'; simp [spent, Ne.symm hi, Rng.iter]
  | seed i v z h hh =>
    by_cases hi : e = i
    · subst hi; exact absurd rfl (h1 v)
    · rw [setE_ne _ _ hi, hx] at hx'; cases hx'; rfl
  | discard i k z h hh =>
    by_cases hi : e = i
    · subst hi; rw [setE_same] at hx'; rw [h] at hx; cases hx; cases hx'; simp [spent]
    · rw [setE_ne _ _ hi, hx] at hx'; cases hx'; simp [spent, Ne.symm hi, Rng.iter]
  | create i d c z h hh hd ha =>
    rw [setD_eng] at hx'
    by_cases hi : e = i
    · subst hi; rw [setE_same] at hx'; rw [h] at hx; cases hx; cases hx'; rfl
    · rw [setE_ne _ _ hi, hx] at hx'; cases hx'; rfl
  | oneShot i c z k' o d' n h hh hk' hb =>
    by_cases hi : e = i
    · subst hi; rw [setE_same] at hx'; rw [h] at hx; cases hx; cases hx'; simp [spent]
    · rw [setE_ne _ _ hi, hx] at hx'; cases hx'; simp [spent, Ne.symm hi, Rng.iter]
  | draw d y z o d' n hd h hb =>
    rw [setD_eng] at hx'
    by_cases hi : e = y.eng
    · subst hi; rw [setE_same] at hx'; rw [h] at hx; cases hx; cases hx'; simp [spent, hd]
    · rw [setE_ne _ _ hi, hx] at hx'; cases hx'; simp [spent, hd, Ne.symm hi, Rng.iter]
  | reset d y hd => rw [setD_eng, hx] at hx'; cases hx'; rfl
  | holdD d y hd => rw [setD_eng, hx] at hx'; cases hx'; rfl
  | dropLast d y z hd hr h =>
    by_cases hi : e = y.eng
    · subst hi
      rw [release_same] at hx'
      rw [h] at hx; cases hx
      split at hx'
      · cases hx'
      · cases hx'; rfl
    · rw [keep (w.setD d none) y.eng z (Ne.symm hi) hx hx']; rfl
  | dropD d y hd hr => rw [setD_eng, hx] at hx'; cases hx'; rfl

/-- An engine that is alive after a history that does not construct it was alive before. -/
theorem alive_back {w w' : World g B} {o : Op} {b : Obs g B} {e : Nat} {x' : Eng g} (hs : w.step o = .ok (b, w'))
    (hx' : w'.eng e = some x') (h2 : ∀ v, o ≠ .construct e v) : ∃ x, w.eng e = some x := by
  cases hw : w.eng e with
  | some x => exact ⟨x, rfl⟩
  | none =>
    exfalso
    have no : ∀ (w1 : World g B) (i : Nat) (z : Eng g), w1.eng e = none → e ≠ i → (w1.release i z).eng e = some x' → False := by
      intro w1 i z h hi h'
      rw [release_ne _ _ hi, h] at h'
      cases h'
    cases did hs with
    | construct i v h =>
      by_cases hi : e = i
      · subst hi; exact h2 v rfl
      · rw [setE_ne _ _ hi, hw] at hx'; cases hx'
    | hold i z h hh | generate i z h hh | seed i v z h hh | discard i k z h hh | oneShot i c z k' o d' n h hh hk' hb =>
      have hi : e ≠ i := by rintro rfl; rw [hw] at h; cases h
      rw [setE_ne _ _ hi, hw] at hx'; cases hx'
    | drop i z h hh =>
      exact no w i _ hw (by rintro rfl; rw [hw] at h; cases h) hx'
    | create i d c z h hh hd ha =>
      have hi : e ≠ i := by rintro rfl; rw [hw] at h; cases h
      rw [setD_eng, setE_ne _ _ hi, hw] at hx'; cases hx'
    | draw d y z o d' n hd h hb =>
      have hi : e ≠ y.eng := by rintro rfl; rw [hw] at h; cases h
      rw [setD_eng, setE_ne _ _ hi, hw] at hx'; cases hx'
    | reset d y hd => rw [setD_eng, hw] at hx'; cases hx'
    | holdD d y hd => rw [setD_eng, hw] at hx'; cases hx'
    | dropLast d y z hd hr h =>
      exact no (w.setD d none) y.eng z hw (by rintro rfl; rw [hw] at h; cases h) hx'
    | dropD d y hd hr => rw [setD_eng, hw] at hx'; cases hx'

theorem spent_run {w w' : World g B} {os : List Op} {bs : List (Obs g B)} {e : Nat} {x x' : Eng g}
    (hr : w.run os = (bs, .ok w')) (hu : Undisturbed e os) (hx : w.eng e = some x) (hx' : w'.eng e = some x') :
    x'.st = g.iter (total w e os) x.st := by
  induction os generalizing w bs x with
  | nil => cases hr; rw [hx] at hx'; cases hx'; rfl
  | cons o os ih =>
    obtain ⟨b, bs', w1, hbs, hs, hr1⟩ := run_cons_inv hr
    have hu1 : Undisturbed e os := fun o ho => hu o (List.mem_cons_of_mem _ ho)
    have hx1 : ∃ x1, w1.eng e = some x1 := by
      clear hbs ih hs hu hr hx x
      induction os generalizing w1 bs' with
      | nil => cases hr1; exact ⟨x', hx'⟩
      | cons p ps ih =>
        obtain ⟨b2, bs2, w2, _, hs2, hr2⟩ := run_cons_inv hr1
        obtain ⟨x2, hx2⟩ := ih bs2 w2 hr2 (fun o ho => hu1 o (List.mem_cons_of_mem _ ho))
        exact alive_back hs2 hx2 (hu1 p List.mem_cons_self).2
    obtain ⟨x1, hx1⟩ := hx1
    have h1 := spent_step hs hx hx1 (hu o List.mem_cons_self).1 (hu o List.mem_cons_self).2
    have h2 := ih hr1 hu1 hx1
    simp only [total, hs]
    rw [h2, h1, iter_add]

/-- **C115.** However many distributions share an engine and however their calls are interleaved, the engine's
outputs are handed out one after the other: if the outputs of the engine from now on are `f 0, f 1, ...`, then
after any history that does not reseed it and took `n` of them, `Generate` returns `f n`, and a distribution's
`Generate` or a one-shot call sees `f n, f (n+1), ...`; `Generate` takes one, `Discard(z)` takes `z`, and a
distribution takes as many as it reports.  So no output is used twice and none is skipped. -/
theorem C115_shared_stream {w w' : World g B} {os : List Op} {bs : List (Obs g B)} {e : Nat} {x x' : Eng g}
    (hr : w.run os = (bs, .ok w')) (hu : Undisturbed e os) (hx : w.eng e = some x) (hx' : w'.eng e = some x') :
    let f := g.outs x.st
    let n := total w e os
    (∀ b w2, w'.step (.generate e) = .ok (b, w2) →
      b = .word (f n) ∧ spent w' e (.generate e) b = 1) ∧
    (∀ z b w2, w'.step (.discard e z) = .ok (b, w2) → spent w' e (.discard e z) b = z) ∧
    (∀ c b w2, w'.step (.oneShot e c) = .ok (b, w2) →
      ∃ o d' k, B.draw (B.make c.created) (fun i => f (n + i)) = some (o, d', k) ∧ b = .value o k ∧
        spent w' e (.oneShot e c) b = k) ∧
    (∀ d y b w2, w'.dist d = some y → y.eng = e → w'.step (.draw d) = .ok (b, w2) →
      ∃ o d' k, B.draw y.d (fun i => f (n + i)) = some (o, d', k) ∧ b = .value o k ∧
        spent w' e (.draw d) b = k) := by
  have hst := spent_run hr hu hx hx'
  have houts : g.outs x'.st = fun i => g.outs x.st (total w e os + i) := by rw [hst, outs_iter]
  refine ⟨?_, ?_, ?_, ?_⟩
  · intro b w2 hs
    cases did hs with
    | generate _ z h hh =>
      rw [h] at hx'; cases hx'
      refine ⟨?_, by simp [spent]⟩
      rw [hst]; rfl
  · intro z b w2 hs
    simp [spent]
  · intro c b w2 hs
    cases did hs with
    | oneShot _ _ z t o d' k h hh ht' hb =>
      rw [h] at hx'; cases hx'
      rw [houts, temporary_created ht'] at hb
      exact ⟨o, d', k, hb, rfl, by simp [spent]⟩
  · intro d y b w2 hd he hs
    cases did hs with
    | draw _ y' z o d' k hd' h hb =>
      rw [hd] at hd'; cases hd'
      rw [he, hx'] at h; cases h
      rw [houts] at hb
      exact ⟨o, d', k, hb, rfl, by simp [spent, hd, he]⟩

/-! ### C116 -/

/-- The call concerns engine `e` or a distribution that `own` assigns to it. -/
def about (own : Nat → Nat) (e : Nat) : Op → Bool
  | .construct e' _ | .hold e' | .drop e' | .generate e' | .seed e' _ | .discard e' _ | .create e' _ _ | .oneShot e' _ =>
    decide (e' = e)
  | .draw d | .reset d | .holdD d | .dropD d => decide (own d = e)

/-- `own` tells from which engine each distribution of the history is created. -/
def Owned (own : Nat → Nat) (os : List Op) : Prop :=
  ∀ o ∈ os, ∀ e d c, o = .create e d c → own d = e

/-- The two worlds have the same engine `e`, with the same distributions. -/
structure Agrees (own : Nat → Nat) (e : Nat) (a b : World g B) : Prop where
  eng : a.eng e = b.eng e
  dist : ∀ d, own d = e → a.dist d = b.dist d
  ownA : ∀ d y, a.dist d = some y → y.eng = own d
  ownB : ∀ d y, b.dist d = some y → y.eng = own d

/-- Distributions keep to their engines. -/
theorem own_step {own : Nat → Nat} {w w' : World g B} {o : Op} {b : Obs g B} (hs : w.step o = .ok (b, w'))
    (hc : ∀ e d c, o = .create e d c → own d = e) (ho : ∀ d y, w.dist d = some y → y.eng = own d) :
    ∀ d y, w'.dist d = some y → y.eng = own d := by
  have set : ∀ (w1 : World g B) (d : Nat) (y1 : DObj g B), w1.dist = w.dist → y1.eng = own d →
      ∀ i z, (w1.setD d (some y1)).dist i = some z → z.eng = own i := by
    intro w1 d y1 hw hy i z hz
    by_cases hi : i = d
    · subst hi; rw [setD_same] at hz; cases hz; exact hy
    · rw [setD_ne _ _ hi, hw] at hz; exact ho i z hz
  cases did hs with
  | construct | hold | generate | seed | discard | oneShot => exact ho
  | drop => intro d y hy; rw [release_dist] at hy; exact ho d y hy
  | create e d c x h hh hd ha => exact set _ d _ rfl (hc e d c rfl).symm
  | draw d y x o d' n hd h hb => exact set _ d _ rfl (ho d y hd)
  | reset d y hd => exact set _ d _ rfl (ho d y hd)
  | holdD d y hd => exact set _ d _ rfl (ho d y hd)
  | dropLast d y x hd hr h =>
    intro i z hz
    rw [release_dist] at hz
    by_cases hi : i = d
    · subst hi; rw [setD_same] at hz; cases hz
    · rw [setD_ne _ _ hi] at hz; exact ho i z hz
  | dropD d y hd hr => exact set _ d _ rfl (ho d y hd)

/-- A call about another engine changes nothing here. -/
theorem other_step {own : Nat → Nat} {e : Nat} {w w' : World g B} {o : Op} {b : Obs g B} (hs : w.step o = .ok (b, w'))
    (hc : ∀ e d c, o = .create e d c → own d = e) (ho : ∀ d y, w.dist d = some y → y.eng = own d)
    (hn : about own e o = false) :
    w'.eng e = w.eng e ∧ ∀ d, own d = e → w'.dist d = w.dist d := by
  cases did hs with
  | construct i | hold i | generate i | seed i | discard i | oneShot i =>
    simp only [about, decide_eq_false_iff_not] at hn
    exact ⟨setE_ne _ _ (Ne.symm hn), fun _ _ => rfl⟩
  | drop i =>
    simp only [about, decide_eq_false_iff_not] at hn
    exact ⟨release_ne _ _ (Ne.symm hn), fun _ _ => by rw [release_dist]⟩
  | create i d c x h hh hd ha =>
    simp only [about, decide_eq_false_iff_not] at hn
    refine ⟨setE_ne _ _ (Ne.symm hn), fun k hk => ?_⟩
    have hkd : k ≠ d := by
      rintro rfl
      exact hn ((hc i k c rfl).symm.trans hk)
    rw [setD_ne _ _ hkd]; rfl
  | draw d y x o d' n hd h hb =>
    simp only [about, decide_eq_false_iff_not] at hn
    have hy := ho d y hd
    refine ⟨setE_ne _ _ (by rw [hy]; exact Ne.symm hn), fun k hk => ?_⟩
    rw [setD_ne _ _ (by rintro rfl; exact hn hk)]; rfl
  | reset d y hd | holdD d y hd | dropD d y hd hr =>
    simp only [about, decide_eq_false_iff_not] at hn
    exact ⟨rfl, fun k hk => setD_ne _ _ (by rintro rfl; exact hn hk)⟩
  | dropLast d y x hd hr h =>
    simp only [about, decide_eq_false_iff_not] at hn
    have hy := ho d y hd
    refine ⟨release_ne _ _ (by rw [hy]; exact Ne.symm hn), fun k hk => ?_⟩
    rw [release_dist, setD_ne _ _ (by rintro rfl; exact hn hk)]

/-- A call about the engine does the same in both worlds. -/
theorem same_step {own : Nat → Nat} {e : Nat} {a b a' : World g B} {o : Op} {r : Obs g B} (ha : Agrees own e a b)
    (hs : a.step o = .ok (r, a')) (hc : ∀ e d c, o = .create e d c → own d = e) (hn : about own e o = true) :
    ∃ b', b.step o = .ok (r, b') ∧ Agrees own e a' b' := by
  have user : ∀ x, a.eng e = some x → 0 < x.held → b.user e = some x := by
    intro x h hh; rw [user_some, ← ha.eng]; exact ⟨h, hh⟩
  have finish : ∀ b' : World g B, b.step o = .ok (r, b') → a'.eng e = b'.eng e → (∀ d, own d = e → a'.dist d = b'.dist d) →
      ∃ b', b.step o = .ok (r, b') ∧ Agrees own e a' b' := by
    intro b' h1 h2 h3
    exact ⟨b', h1, h2, h3, own_step hs hc ha.ownA, own_step h1 hc ha.ownB⟩
  have setd : ∀ (p q : World g B) (d : Nat) (y : Option (DObj g B)), (∀ k, own k = e → p.dist k = q.dist k) →
      ∀ k, own k = e → (p.setD d y).dist k = (q.setD d y).dist k := by
    intro p q d y h k hk
    by_cases hkd : k = d
    · subst hkd; rw [setD_same, setD_same]
    · rw [setD_ne _ _ hkd, setD_ne _ _ hkd]; exact h k hk
  cases did hs with
  | construct i v h =>
    simp only [about, decide_eq_true_eq] at hn; subst hn
    have hb : b.eng i = none := by rw [← ha.eng]; exact h
    exact finish (b.setE i (some ⟨g.ctor v, 1, 1⟩)) (by simp only [World.step, hb]) (by simp) ha.dist
  | hold i x h hh =>
    simp only [about, decide_eq_true_eq] at hn; subst hn
    exact finish (b.setE i _) (by simp only [World.step, user x h hh]; rfl) (by rw [setE_same, setE_same]) ha.dist
  | drop i x h hh =>
    simp only [about, decide_eq_true_eq] at hn; subst hn
    exact finish (b.release i _) (by simp only [World.step, user x h hh]; rfl) (by rw [release_same, release_same])
      (by simpa using ha.dist)
  | generate i x h hh =>
    simp only [about, decide_eq_true_eq] at hn; subst hn
    exact finish (b.setE i _) (by simp only [World.step, user x h hh]; rfl) (by rw [setE_same, setE_same]) ha.dist
  | seed i v x h hh =>
    simp only [about, decide_eq_true_eq] at hn; subst hn
    exact finish (b.setE i _) (by simp only [World.step, user x h hh]; rfl) (by rw [setE_same, setE_same]) ha.dist
  | discard i z x h hh =>
    simp only [about, decide_eq_true_eq] at hn; subst hn
    exact finish (b.setE i _) (by simp only [World.step, user x h hh]; rfl) (by rw [setE_same, setE_same]) ha.dist
  | create i d c x h hh hd has =>
    simp only [about, decide_eq_true_eq] at hn; subst hn
    have hbd : b.dist d = none := by rw [← ha.dist d (hc i d c rfl)]; exact hd
    refine finish ((b.setE i (some { x with rc := x.rc + 1 })).setD d _) (by simp only [World.step, user x h hh, hbd, has, if_true])
      (by rw [setD_eng, setD_eng, setE_same, setE_same]) (setd _ _ d _ ha.dist)
  | oneShot i c x k' o d' n h hh hk' hb =>
    simp only [about, decide_eq_true_eq] at hn; subst hn
    exact finish (b.setE i _) (by simp only [World.step, user x h hh, hk', hb]; rfl) (by rw [setE_same, setE_same]) ha.dist
  | draw d y x o d' n hd h hb =>
    simp only [about, decide_eq_true_eq] at hn
    have hy := (ha.ownA d y hd).trans hn
    have hbd : b.dist d = some y := by rw [← ha.dist d hn]; exact hd
    have hbe : b.eng y.eng = some x := by rw [hy, ← ha.eng, ← hy]; exact h
    refine finish ((b.setE y.eng (some { x with st := g.iter n x.st })).setD d _) (by simp only [World.step, hbd, hbe, hb])
      (by rw [setD_eng, setD_eng, hy, setE_same, setE_same]) (setd _ _ d _ ha.dist)
  | reset d y hd =>
    simp only [about, decide_eq_true_eq] at hn
    have hbd : b.dist d = some y := by rw [← ha.dist d hn]; exact hd
    exact finish (b.setD d _) (by simp only [World.step, hbd]) ha.eng (setd _ _ d _ ha.dist)
  | holdD d y hd =>
    simp only [about, decide_eq_true_eq] at hn
    have hbd : b.dist d = some y := by rw [← ha.dist d hn]; exact hd
    exact finish (b.setD d _) (by simp only [World.step, hbd]) ha.eng (setd _ _ d _ ha.dist)
  | dropLast d y x hd hr h =>
    simp only [about, decide_eq_true_eq] at hn
    have hy := (ha.ownA d y hd).trans hn
    have hbd : b.dist d = some y := by rw [← ha.dist d hn]; exact hd
    have hbe : b.eng y.eng = some x := by rw [hy, ← ha.eng, ← hy]; exact h
    refine finish ((b.setD d none).release y.eng x) (by simp only [World.step, hbd, hbe, hr, if_true]) ?_ ?_
    · rw [hy, release_same, release_same]
    · intro k hk
      rw [release_dist, release_dist]
      exact setd _ _ d _ ha.dist k hk
  | dropD d y hd hr =>
    simp only [about, decide_eq_true_eq] at hn
    have hbd : b.dist d = some y := by rw [← ha.dist d hn]; exact hd
    exact finish (b.setD d _) (by simp only [World.step, hbd, hr, if_false]) ha.eng (setd _ _ d _ ha.dist)

/-- The results of the calls selected by `p`. -/
def pick (p : Op → Bool) : List Op → List (Obs g B) → List (Obs g B)
  | o :: os, b :: bs => if p o then b :: pick p os bs else pick p os bs
  | _, _ => []

/-- **C116.** Engines do not influence one another: in any history over many engines and their distributions, the
results of the calls on one engine and its distributions are those obtained by making these calls alone, with all
calls on other engines and their distributions left out. -/
theorem C116_no_interference (own : Nat → Nat) (e : Nat) (os : List Op) (ho : Owned own os) {bs : List (Obs g B)}
    {w : World g B} (h : (World.init : World g B).run os = (bs, .ok w)) :
    ∃ w', (World.init : World g B).run (os.filter (about own e)) = (pick (about own e) os bs, .ok w') ∧
      w'.eng e = w.eng e := by
  have key : ∀ (os : List Op) (a b : World g B) (bs : List (Obs g B)) (a' : World g B), Owned own os → Agrees own e a b →
      a.run os = (bs, .ok a') → ∃ b', b.run (os.filter (about own e)) = (pick (about own e) os bs, .ok b') ∧ Agrees own e a' b' := by
    intro os
    induction os with
    | nil => intro a b bs a' _ ha h; cases h; exact ⟨b, rfl, ha⟩
    | cons o os ih =>
      intro a b bs a' ho ha h
      obtain ⟨r, bs', a1, rfl, hs, hr⟩ := run_cons_inv h
      have hc := ho o List.mem_cons_self
      have ho' : Owned own os := fun p hp => ho p (List.mem_cons_of_mem _ hp)
      cases hn : about own e o with
      | true =>
        obtain ⟨b1, hb1, ha1⟩ := same_step ha hs hc hn
        obtain ⟨b', hb', hab'⟩ := ih a1 b1 bs' a' ho' ha1 hr
        refine ⟨b', ?_, hab'⟩
        rw [List.filter_cons, if_pos hn, run_cons_ok _ hb1, hb']
        simp only [pick, hn, if_true]
      | false =>
        obtain ⟨h1, h2⟩ := other_step hs hc ha.ownA hn
        have ha1 : Agrees own e a1 b :=
          ⟨h1.trans ha.eng, fun d hd => (h2 d hd).trans (ha.dist d hd), own_step hs hc ha.ownA, ha.ownB⟩
        obtain ⟨b', hb', hab'⟩ := ih a1 b bs' a' ho' ha1 hr
        refine ⟨b', ?_, hab'⟩
        rw [List.filter_cons, if_neg (by simp [hn]), hb']
        simp [pick, hn]
  have h0 : Agrees own e (World.init : World g B) World.init :=
    ⟨rfl, fun _ _ => rfl, (fun _ _ h => by cases h), (fun _ _ h => by cases h)⟩
  obtain ⟨b', hb', hab'⟩ := key os _ _ bs w ho h0 h
  exact ⟨b', hb', hab'.eng.symm⟩

/-! ### C117 -/

/-- Relation of distributions that no caller can tell apart. -/
structure Alike (B : Boost R) (r : B.Dist → B.Dist → Prop) : Prop where
  equiv : Equivalence r
  draw : ∀ p q, r p q → ∀ f, (B.draw p f = none ∧ B.draw q f = none) ∨
    ∃ o n p' q', B.draw p f = some (o, p', n) ∧ B.draw q f = some (o, q', n) ∧ r p' q'
  reset : ∀ p q, r p q → r (B.reset p) (B.reset q)

/-- The states a distribution made with the arguments `c` can get into. -/
inductive From (B : Boost R) (c : Call) : B.Dist → Prop
  | make : From B c (B.make c.created)
  | draw {d d'} (f : Nat → R) (o n) : From B c d → B.draw d f = some (o, d', n) → From B c d'
  | reset {d} : From B c d → From B c (B.reset d)

/-- The call uses only engine `e`, already there, and distributions with names in `N`. -/
def On (e : Nat) (N : Nat → Prop) : Op → Prop
  | .generate e' | .seed e' _ | .discard e' _ | .oneShot e' _ => e' = e
  | .create e' d _ => e' = e ∧ N d
  | .draw d | .reset d | .holdD d | .dropD d => N d
  | .construct _ _ | .hold _ | .drop _ => False

/-- The two worlds look alike to a user of engine `e` and distributions `N`, apart from the distributions in
`rem`, which may have a past. -/
structure Twin (r : B.Dist → B.Dist → Prop) (e : Nat) (N : Nat → Prop) (rem : List Nat) (a b : World g B) : Prop where
  invA : Inv a
  invB : Inv b
  eng : ∃ x z, a.eng e = some x ∧ b.eng e = some z ∧ 0 < x.held ∧ 0 < z.held ∧ x.st = z.st
  dist : ∀ d, N d → (a.dist d = none ∧ b.dist d = none) ∨
    ∃ p q, a.dist d = some p ∧ b.dist d = some q ∧ p.eng = e ∧ q.eng = e ∧ p.rc = q.rc ∧
      (r p.d q.d ∨ d ∈ rem ∧ ∃ c, From B c p.d ∧ From B c q.d)

/-- Two outcomes of a call that look the same and lead to twins. -/
def SameStep (r : B.Dist → B.Dist → Prop) (e : Nat) (N : Nat → Prop) (rem : List Nat)
    (p q : Except Fault (Obs g B × World g B)) : Prop :=
  (∃ f, p = .error f ∧ q = .error f) ∨ ∃ o a b, p = .ok (o, a) ∧ q = .ok (o, b) ∧ Twin r e N rem a b

theorem twin_reset {r : B.Dist → B.Dist → Prop} {e : Nat} {N : Nat → Prop} {d : Nat} {rem : List Nat} {a b : World g B}
    (hr : Alike B r) (hf : ∀ c d, From B c d → r (B.reset d) (B.make c.created)) (ht : Twin r e N (d :: rem) a b) (hd : N d) :
    SameStep r e N rem (a.step (.reset d)) (b.step (.reset d)) := by
  rcases ht.dist d hd with ⟨h1, h2⟩ | ⟨p, q, h1, h2, e1, e2, hrc, hpq⟩
  · left; exact ⟨.misuse, by simp only [World.step, h1], by simp only [World.step, h2]⟩
  · right
    have hrel : r (B.reset p.d) (B.reset q.d) := by
      rcases hpq with h | ⟨_, c, hc1, hc2⟩
      · exact hr.reset _ _ h
      · exact hr.equiv.trans (hf c _ hc1) (hr.equiv.symm (hf c _ hc2))
    have s1 : a.step (.reset d) = .ok (.unit, a.setD d (some { p with d := B.reset p.d })) := by simp only [World.step, h1]
    have s2 : b.step (.reset d) = .ok (.unit, b.setD d (some { q with d := B.reset q.d })) := by simp only [World.step, h2]
    refine ⟨_, _, _, s1, s2, inv_step ht.invA s1, inv_step ht.invB s2, ht.eng, ?_⟩
    intro k hk
    by_cases hkd : k = d
    · subst hkd
      right
      exact ⟨_, _, setD_same _ _ _, setD_same _ _ _, e1, e2, hrc, .inl hrel⟩
    · rcases ht.dist k hk with ⟨h3, h4⟩ | ⟨p', q', h3, h4, e3, e4, hrc', hpq'⟩
      · left; rw [setD_ne _ _ hkd, setD_ne _ _ hkd]; exact ⟨h3, h4⟩
      · right
        refine ⟨p', q', by rw [setD_ne _ _ hkd]; exact h3, by rw [setD_ne _ _ hkd]; exact h4, e3, e4, hrc', ?_⟩
        rcases hpq' with h | ⟨hm, hc⟩
        · exact .inl h
        · rcases List.mem_cons.1 hm with h | h
          · exact absurd h hkd
          · exact .inr ⟨h, hc⟩

/-- Replacing a distribution of twins by alike ones. -/
theorem twin_setD {r : B.Dist → B.Dist → Prop} {e : Nat} {N : Nat → Prop} {a b a1 b1 : World g B} (ht : Twin r e N [] a b)
    {d : Nat} {p q : Option (DObj g B)} (ha : a1.dist = a.dist) (hb : b1.dist = b.dist)
    (hpq : (p = none ∧ q = none) ∨ ∃ y z, p = some y ∧ q = some z ∧ y.eng = e ∧ z.eng = e ∧ y.rc = z.rc ∧ r y.d z.d) :
    ∀ k, N k → ((a1.setD d p).dist k = none ∧ (b1.setD d q).dist k = none) ∨
      ∃ y z, (a1.setD d p).dist k = some y ∧ (b1.setD d q).dist k = some z ∧ y.eng = e ∧ z.eng = e ∧ y.rc = z.rc ∧
        (r y.d z.d ∨ k ∈ ([] : List Nat) ∧ ∃ c, From B c y.d ∧ From B c z.d) := by
  intro k hk
  by_cases hkd : k = d
  · subst hkd
    rw [setD_same, setD_same]
    rcases hpq with h | ⟨y, z, h1, h2, h3, h4, h5, h6⟩
    · exact .inl h
    · exact .inr ⟨y, z, h1, h2, h3, h4, h5, .inl h6⟩
  · rw [setD_ne _ _ hkd, setD_ne _ _ hkd, ha, hb]
    exact ht.dist k hk

theorem twin_step {r : B.Dist → B.Dist → Prop} {e : Nat} {N : Nat → Prop} {a b : World g B}
    (hr : Alike B r) (ht : Twin r e N [] a b) {o : Op} (ho : On e N o) :
    SameStep r e N [] (a.step o) (b.step o) := by
  obtain ⟨x, z, hx, hz, hxh, hzh, hst⟩ := ht.eng
  have ua : a.user e = some x := user_some.2 ⟨hx, hxh⟩
  have ub : b.user e = some z := user_some.2 ⟨hz, hzh⟩
  cases o with
  | construct | hold | drop => exact absurd ho id
  | generate i =>
    have hi : i = e := ho
    subst hi
    right
    have s1 : a.step (.generate i) = .ok (.word (g.out x.st), a.setE i (some { x with st := g.next x.st })) := by simp only [World.step, ua]
    have s2 : b.step (.generate i) = .ok (.word (g.out x.st), b.setE i (some { z with st := g.next z.st })) := by simp only [World.step, ub, hst]
    exact ⟨_, _, _, s1, s2, inv_step ht.invA s1, inv_step ht.invB s2,
      ⟨_, _, setE_same _ _ _, setE_same _ _ _, hxh, hzh, by simp [hst]⟩, ht.dist⟩
  | seed i v =>
    have hi : i = e := ho
    subst hi
    right
    have s1 : a.step (.seed i v) = .ok (.unit, a.setE i (some { x with st := g.seed32 v x.st })) := by simp only [World.step, ua]
    have s2 : b.step (.seed i v) = .ok (.unit, b.setE i (some { z with st := g.seed32 v z.st })) := by simp only [World.step, ub]
    exact ⟨_, _, _, s1, s2, inv_step ht.invA s1, inv_step ht.invB s2,
      ⟨_, _, setE_same _ _ _, setE_same _ _ _, hxh, hzh, by simp [hst]⟩, ht.dist⟩
  | discard i k =>
    have hi : i = e := ho
    subst hi
    right
    have s1 : a.step (.discard i k) = .ok (.unit, a.setE i (some { x with st := g.iter k x.st })) := by simp only [World.step, ua]
    have s2 : b.step (.discard i k) = .ok (.unit, b.setE i (some { z with st := g.iter k z.st })) := by simp only [World.step, ub]
    exact ⟨_, _, _, s1, s2, inv_step ht.invA s1, inv_step ht.invB s2,
      ⟨_, _, setE_same _ _ _, setE_same _ _ _, hxh, hzh, by simp [hst]⟩, ht.dist⟩
  | create i d c =>
    obtain ⟨hi, hd⟩ : i = e ∧ N d := ho
    subst hi
    rcases ht.dist d hd with ⟨h1, h2⟩ | ⟨p, q, h1, h2, _⟩
    · by_cases hc : c.asserts = true
      · right
        have s1 : a.step (.create i d c) = .ok (.unit, (a.setE i (some { x with rc := x.rc + 1 })).setD d (some ⟨i, B.make c.created, 1⟩)) := by
          simp only [World.step, ua, h1, hc, if_true]
        have s2 : b.step (.create i d c) = .ok (.unit, (b.setE i (some { z with rc := z.rc + 1 })).setD d (some ⟨i, B.make c.created, 1⟩)) := by
          simp only [World.step, ub, h2, hc, if_true]
        refine ⟨_, _, _, s1, s2, inv_step ht.invA s1, inv_step ht.invB s2,
          ⟨{ x with rc := x.rc + 1 }, { z with rc := z.rc + 1 }, by rw [setD_eng, setE_same],
            by rw [setD_eng, setE_same], hxh, hzh, hst⟩, ?_⟩
        exact twin_setD ht rfl rfl (.inr ⟨_, _, rfl, rfl, rfl, rfl, rfl, hr.equiv.refl _⟩)
      · left
        exact ⟨.assertion, by simp only [World.step, ua, h1, hc]; rfl, by simp only [World.step, ub, h2, hc]; rfl⟩
    · left
      exact ⟨.misuse, by simp only [World.step, ua, h1], by simp only [World.step, ub, h2]⟩
  | oneShot i c =>
    have hi : i = e := ho
    subst hi
    cases hk : c.temporary with
    | none => left; exact ⟨.misuse, by simp only [World.step, ua, hk], by simp only [World.step, ub, hk]⟩
    | some k =>
    cases hb : B.draw (B.make k) (g.outs x.st) with
    | none =>
      left
      exact ⟨.diverges, by simp only [World.step, ua, hk, hb], by simp only [World.step, ub, hk, ← hst, hb]⟩
    | some t =>
      obtain ⟨o, d', n⟩ := t
      right
      have s1 : a.step (.oneShot i c) = .ok (.value o n, a.setE i (some { x with st := g.iter n x.st })) := by
        simp only [World.step, ua, hk, hb]
      have s2 : b.step (.oneShot i c) = .ok (.value o n, b.setE i (some { z with st := g.iter n z.st })) := by
        simp only [World.step, ub, hk, ← hst, hb]
      exact ⟨_, _, _, s1, s2, inv_step ht.invA s1, inv_step ht.invB s2,
        ⟨_, _, setE_same _ _ _, setE_same _ _ _, hxh, hzh, by simp [hst]⟩, ht.dist⟩
  | draw d =>
    have hd : N d := ho
    rcases ht.dist d hd with ⟨h1, h2⟩ | ⟨p, q, h1, h2, e1, e2, hrc, hpq⟩
    · left; exact ⟨.misuse, by simp only [World.step, h1], by simp only [World.step, h2]⟩
    · have hpq : r p.d q.d := by
        rcases hpq with h | ⟨h, _⟩
        · exact h
        · cases h
      have hxp : a.eng p.eng = some x := by rw [e1]; exact hx
      have hzq : b.eng q.eng = some z := by rw [e2]; exact hz
      rcases hr.draw _ _ hpq (g.outs x.st) with ⟨h3, h4⟩ | ⟨o, n, p', q', h3, h4, h5⟩
      · left
        exact ⟨.diverges, by simp only [World.step, h1, hxp, h3], by simp only [World.step, h2, hzq, ← hst, h4]⟩
      · right
        have s1 : a.step (.draw d) = .ok (.value o n, (a.setE p.eng (some { x with st := g.iter n x.st })).setD d (some { p with d := p' })) := by
          simp only [World.step, h1, hxp, h3]
        have s2 : b.step (.draw d) = .ok (.value o n, (b.setE q.eng (some { z with st := g.iter n z.st })).setD d (some { q with d := q' })) := by
          simp only [World.step, h2, hzq, ← hst, h4]
        refine ⟨_, _, _, s1, s2, inv_step ht.invA s1, inv_step ht.invB s2,
          ⟨{ x with st := g.iter n x.st }, { z with st := g.iter n z.st }, by rw [setD_eng, e1, setE_same],
            by rw [setD_eng, e2, setE_same], hxh, hzh, by simp [hst]⟩, ?_⟩
        exact twin_setD ht rfl rfl (.inr ⟨_, _, rfl, rfl, e1, e2, hrc, h5⟩)
  | reset d =>
    have hd : N d := ho
    rcases ht.dist d hd with ⟨h1, h2⟩ | ⟨p, q, h1, h2, e1, e2, hrc, hpq⟩
    · left; exact ⟨.misuse, by simp only [World.step, h1], by simp only [World.step, h2]⟩
    · right
      have hpq : r p.d q.d := by
        rcases hpq with h | ⟨h, _⟩
        · exact h
        · cases h
      have s1 : a.step (.reset d) = .ok (.unit, a.setD d (some { p with d := B.reset p.d })) := by simp only [World.step, h1]
      have s2 : b.step (.reset d) = .ok (.unit, b.setD d (some { q with d := B.reset q.d })) := by simp only [World.step, h2]
      exact ⟨_, _, _, s1, s2, inv_step ht.invA s1, inv_step ht.invB s2, ⟨x, z, hx, hz, hxh, hzh, hst⟩,
        twin_setD ht rfl rfl (.inr ⟨_, _, rfl, rfl, e1, e2, hrc, hr.reset _ _ hpq⟩)⟩
  | holdD d =>
    have hd : N d := ho
    rcases ht.dist d hd with ⟨h1, h2⟩ | ⟨p, q, h1, h2, e1, e2, hrc, hpq⟩
    · left; exact ⟨.misuse, by simp only [World.step, h1], by simp only [World.step, h2]⟩
    · right
      have hpq : r p.d q.d := by
        rcases hpq with h | ⟨h, _⟩
        · exact h
        · cases h
      have s1 : a.step (.holdD d) = .ok (.unit, a.setD d (some { p with rc := p.rc + 1 })) := by simp only [World.step, h1]
      have s2 : b.step (.holdD d) = .ok (.unit, b.setD d (some { q with rc := q.rc + 1 })) := by simp only [World.step, h2]
      exact ⟨_, _, _, s1, s2, inv_step ht.invA s1, inv_step ht.invB s2, ⟨x, z, hx, hz, hxh, hzh, hst⟩,
        twin_setD ht rfl rfl (.inr ⟨_, _, rfl, rfl, e1, e2, by simp [hrc], hpq⟩)⟩
  | dropD d =>
    have hd : N d := ho
    rcases ht.dist d hd with ⟨h1, h2⟩ | ⟨p, q, h1, h2, e1, e2, hrc, hpq⟩
    · left; exact ⟨.misuse, by simp only [World.step, h1], by simp only [World.step, h2]⟩
    · right
      have hpq : r p.d q.d := by
        rcases hpq with h | ⟨h, _⟩
        · exact h
        · cases h
      by_cases h3 : p.rc = 1
      · have hxp : a.eng p.eng = some x := by rw [e1]; exact hx
        have hzq : b.eng q.eng = some z := by rw [e2]; exact hz
        have s1 : a.step (.dropD d) = .ok (.unit, (a.setD d none).release p.eng x) := by simp only [World.step, h1, h3, if_true, hxp]
        have s2 : b.step (.dropD d) = .ok (.unit, (b.setD d none).release q.eng z) := by simp only [World.step, h2, ← hrc, h3, if_true, hzq]
        have big : ∀ (w : World g B) (y : Eng g) (s : DObj g B), Inv w → w.eng e = some y → w.dist d = some s → s.eng = e → 0 < y.held → y.rc ≠ 1 := by
          intro w y s hi hy hs he hh h1
          obtain ⟨L, hu, hrc, _⟩ := hi.eng e y hy
          have := List.length_pos_of_mem ((hu.2 d).2 ⟨s, hs, he⟩)
          omega
        have nx := big a x p ht.invA hx h1 e1 hxh
        have nz := big b z q ht.invB hz h2 e2 hzh
        refine ⟨_, _, _, s1, s2, inv_step ht.invA s1, inv_step ht.invB s2,
          ⟨{ x with rc := x.rc - 1 }, { z with rc := z.rc - 1 }, by rw [e1, release_same, if_neg nx],
            by rw [e2, release_same, if_neg nz], hxh, hzh, hst⟩, ?_⟩
        rw [release_dist, release_dist]
        exact twin_setD ht rfl rfl (.inl ⟨rfl, rfl⟩)
      · have s1 : a.step (.dropD d) = .ok (.unit, a.setD d (some { p with rc := p.rc - 1 })) := by simp only [World.step, h1, h3, if_false]
        have s2 : b.step (.dropD d) = .ok (.unit, b.setD d (some { q with rc := q.rc - 1 })) := by simp only [World.step, h2, ← hrc, h3, if_false]
        exact ⟨_, _, _, s1, s2, inv_step ht.invA s1, inv_step ht.invB s2, ⟨x, z, hx, hz, hxh, hzh, hst⟩,
          twin_setD ht rfl rfl (.inr ⟨_, _, rfl, rfl, e1, e2, by simp [hrc], hpq⟩)⟩

/-- What a history shows: its results, and how it failed if it did. -/
def World.shows (w : World g B) (os : List Op) : List (Obs g B) × Option Fault :=
  ((w.run os).1, match (w.run os).2 with | .ok _ => none | .error f => some f)

theorem shows_of_same {r : B.Dist → B.Dist → Prop} {e : Nat} {N : Nat → Prop} {rem : List Nat} {a b : World g B} {o : Op} {os : List Op}
    (hs : SameStep r e N rem (a.step o) (b.step o)) (hc : ∀ a' b' : World g B, Twin r e N rem a' b' → a'.shows os = b'.shows os) :
    a.shows (o :: os) = b.shows (o :: os) := by
  rcases hs with ⟨f, h1, h2⟩ | ⟨w, a', b', h1, h2, ht⟩
  · simp only [World.shows, run_cons_error os h1, run_cons_error os h2]
  · have := hc a' b' ht
    simp only [World.shows, Prod.mk.injEq] at this
    simp only [World.shows, run_cons_ok os h1, run_cons_ok os h2, this.1, this.2]

theorem twin_shows {r : B.Dist → B.Dist → Prop} {e : Nat} {N : Nat → Prop} (hr : Alike B r) (os : List Op) :
    ∀ a b : World g B, Twin r e N [] a b → (∀ o ∈ os, On e N o) → a.shows os = b.shows os := by
  induction os with
  | nil => intro a b _ _; rfl
  | cons o os ih =>
    intro a b ht ho
    exact shows_of_same (twin_step hr ht (ho o List.mem_cons_self))
      (fun a' b' ht' => ih a' b' ht' (fun o ho' => ho o (List.mem_cons_of_mem _ ho')))

/-- **C117.** Runs can be replayed: let `a` and `b` be the worlds after any two histories.  If in both an engine is
seeded with the same value and the distributions `ds` created from it earlier (with the same arguments, whatever
they were used for since) are reset, then any calls on the engine, on these distributions and on distributions
created from then on show the same results in both.  Used of the code outside the library: seeding an engine
overwrites its state (`C117_seeding` for the engines of this library), and `reset` of a Boost distribution makes it
behave as if just made. -/
theorem C117_replay (hseed : ∀ v s t, g.seed32 v s = g.seed32 v t) {r : B.Dist → B.Dist → Prop} (hr : Alike B r)
    (hf : ∀ c d, From B c d → r (B.reset d) (B.make c.created)) {pa pb : List Op} {ra rb : List (Obs g B)} {a b : World g B}
    (ha : (World.init : World g B).run pa = (ra, .ok a)) (hb : (World.init : World g B).run pb = (rb, .ok b))
    (e : Nat) (v : BitVec 32) (N : Nat → Prop) (ds : List Nat) (os : List Op)
    (he : (∃ x, a.eng e = some x ∧ 0 < x.held) ∧ ∃ x, b.eng e = some x ∧ 0 < x.held)
    (hN : ∀ d, N d → (a.dist d = none ∧ b.dist d = none) ∨ d ∈ ds)
    (hds : ∀ d ∈ ds, N d ∧ ∃ c p q, a.dist d = some p ∧ b.dist d = some q ∧ p.eng = e ∧ q.eng = e ∧ p.rc = q.rc ∧
      From B c p.d ∧ From B c q.d)
    (hos : ∀ o ∈ os, On e N o) :
    a.shows (.seed e v :: (ds.map .reset ++ os)) = b.shows (.seed e v :: (ds.map .reset ++ os)) := by
  obtain ⟨⟨x, hx, hxh⟩, z, hz, hzh⟩ := he
  have ia := inv_run inv_init ha
  have ib := inv_run inv_init hb
  have s1 : a.step (.seed e v) = .ok (.unit, a.setE e (some { x with st := g.seed32 v x.st })) := by
    simp only [World.step, user_some.2 ⟨hx, hxh⟩]
  have s2 : b.step (.seed e v) = .ok (.unit, b.setE e (some { z with st := g.seed32 v z.st })) := by
    simp only [World.step, user_some.2 ⟨hz, hzh⟩]
  have ht : Twin r e N ds (a.setE e (some { x with st := g.seed32 v x.st })) (b.setE e (some { z with st := g.seed32 v z.st })) := by
    refine ⟨inv_step ia s1, inv_step ib s2, ⟨_, _, setE_same _ _ _, setE_same _ _ _, hxh, hzh, hseed _ _ _⟩, ?_⟩
    intro d hd
    rcases hN d hd with h | h
    · exact .inl h
    · obtain ⟨_, c, p, q, h1, h2, h3, h4, h5, h6, h7⟩ := hds d h
      exact .inr ⟨p, q, h1, h2, h3, h4, h5, .inr ⟨h, c, h6, h7⟩⟩
  refine shows_of_same (r := r) (N := N) (rem := ds) (.inr ⟨_, _, _, s1, s2, ht⟩) ?_
  have hn : ∀ d ∈ ds, N d := fun d hd => (hds d hd).1
  clear ht s1 s2 hds hN
  induction ds with
  | nil => intro a' b' ht'; exact twin_shows hr os a' b' ht' hos
  | cons d ds ih =>
    intro a' b' ht'
    rw [List.map_cons, List.cons_append]
    exact shows_of_same (twin_reset hr hf ht' (hn d List.mem_cons_self))
      (ih (fun k hk => hn k (List.mem_cons_of_mem _ hk)))

/-! ### C118 -/

/-- **C118.** A one-shot `Generate*(params)` call is the same as creating the distribution, drawing one value from it
and letting it go: same value, same number of outputs taken from the engine, same objects alive afterwards.  (There are no
one-shot calls for the three kinds made from a parameter object.) -/
theorem C118_one_shot (w : World g B) (e d : Nat) (c : Call) (x : Eng g) (hx : w.eng e = some x) (hh : 0 < x.held)
    (hrc : 0 < x.rc) (hd : w.dist d = none) (hc : c.asserts = true)
    (hn : ∀ p, c ≠ .discrete p ∧ c ≠ .piecewiseConstant p ∧ c ≠ .piecewiseLinear p) :
    (∀ b w', w.step (.oneShot e c) = .ok (b, w') →
      w.run [.create e d c, .draw d, .dropD d] = ([.unit, b, .unit], .ok w')) ∧
    (∀ f, w.step (.oneShot e c) = .error f → w.run [.create e d c, .draw d, .dropD d] = ([.unit], .error f)) := by
  have hu : w.user e = some x := user_some.2 ⟨hx, hh⟩
  have s1 : w.step (.create e d c) = .ok (.unit, (w.setE e (some { x with rc := x.rc + 1 })).setD d (some ⟨e, B.make c.created, 1⟩)) := by
    simp only [World.step, hu, hd, hc, if_true]
  generalize hw1 : (w.setE e (some { x with rc := x.rc + 1 })).setD d (some ⟨e, B.make c.created, 1⟩) = w1 at s1
  have e1 : w1.eng e = some { x with rc := x.rc + 1 } := by rw [← hw1, setD_eng, setE_same]
  have d1 : w1.dist d = some ⟨e, B.make c.created, 1⟩ := by rw [← hw1, setD_same]
  have hk : c.temporary = some c.created := by
    cases c with
    | discrete p => exact absurd rfl (hn p).1
    | piecewiseConstant p => exact absurd rfl (hn p).2.1
    | piecewiseLinear p => exact absurd rfl (hn p).2.2
    | _ => rfl
  have so : w.step (.oneShot e c) = match B.draw (B.make c.created) (g.outs x.st) with
      | none => .error .diverges
      | some (o, _, n) => .ok (.value o n, w.setE e (some { x with st := g.iter n x.st })) := by
    simp only [World.step, hu, hk]
    rfl
  have sd : w1.step (.draw d) = match B.draw (B.make c.created) (g.outs x.st) with
      | none => .error .diverges
      | some (o, d', n) => .ok (.value o n, (w1.setE e (some { x with rc := x.rc + 1, st := g.iter n x.st })).setD d
          (some ⟨e, d', 1⟩)) := by
    simp only [World.step, d1, e1]
    rfl
  cases hb : B.draw (B.make c.created) (g.outs x.st) with
  | none =>
    rw [hb] at so sd
    refine ⟨fun b w' h => ?_, fun f h => ?_⟩
    · rw [so] at h; cases h
    · rw [so] at h
      cases h
      rw [run_cons_ok _ s1, run_cons_error _ sd]
  | some t =>
    obtain ⟨o, d', n⟩ := t
    rw [hb] at so sd
    simp only at so sd
    refine ⟨fun b w' h => ?_, fun f h => ?_⟩
    · rw [so] at h
      cases h
      generalize hw2 : (w1.setE e (some { x with rc := x.rc + 1, st := g.iter n x.st })).setD d (some ⟨e, d', 1⟩) = w2 at sd
      have e2 : w2.eng e = some { x with rc := x.rc + 1, st := g.iter n x.st } := by rw [← hw2, setD_eng, setE_same]
      have d2 : w2.dist d = some ⟨e, d', 1⟩ := by rw [← hw2, setD_same]
      have s3 : w2.step (.dropD d) = .ok (.unit, (w2.setD d none).release e { x with rc := x.rc + 1, st := g.iter n x.st }) := by
        simp only [World.step, d2, e2, if_true]
      have hw3 : (w2.setD d none).release e { x with rc := x.rc + 1, st := g.iter n x.st }
          = w.setE e (some { x with st := g.iter n x.st }) := by
        have hne : x.rc + 1 ≠ 1 := by omega
        unfold World.release
        rw [if_neg hne, ← hw2, ← hw1]
        simp only [World.setE, World.setD, Nat.add_sub_cancel, World.mk.injEq]
        constructor
        · funext i
          by_cases hi : i = e
          · simp [hi]
          · simp [hi]
        · funext i
          by_cases hi : i = d
          · simp [hi, hd]
          · simp [hi]
      rw [run_cons_ok _ s1, run_cons_ok _ sd, run_cons_ok _ s3, run_nil, hw3]
    · rw [so] at h; cases h

/-! ### C119 -/

/-- `PseudoRandomEngine<xoshiro256plus_01>` and `PseudoRandomEngine<xoshiro256starstar>`
(pseudo-random-generator.h 644, 668), and the other engines with four 64-bit words: `out` is the output function. The
engine's `result_type`/`seed_type` is `uint64_t`, so both `rng_(value)` and `rng_.seed(seed)` pass the value on. -/
def rng256 {W : Type} (out : S4 64 → W) : Rng :=
  { State := S4 64, Word := W, out := out, next := transform4 17 45
    ctor := fun v => seed4 v ⟨0, 0, 0, 0⟩
    seed32 := fun v s => seed4 (v.setWidth 64) s }

/-- `PseudoRandomEngine<xoshiro128plus_01>` and `PseudoRandomEngine<xoshiro128starstar>`
(pseudo-random-generator.h 692, 722).  The engine's `seed_type` is `uint32_t` (xoshiro-engine.h 203-215, 425, 445-453),
so `rng_(value)` converts the `uint64_t` to 32 bits. -/
def rng128 {W : Type} (out : S4 32 → W) : Rng :=
  { State := S4 32, Word := W, out := out, next := transform4 9 11
    ctor := fun v => seed4 (v.setWidth 32) ⟨0, 0, 0, 0⟩
    seed32 := fun v s => seed4 v s }

/-- **C117.** Seeding the engines of this library overwrites the whole state. -/
theorem C117_seeding :
    (∀ (W : Type) (out : S4 64 → W) v s t, (rng256 out).seed32 v s = (rng256 out).seed32 v t) ∧
    (∀ (W : Type) (out : S4 32 → W) v s t, (rng128 out).seed32 v s = (rng128 out).seed32 v t) :=
  ⟨fun _ _ v s t => (C67_reseed 64 (v.setWidth 64)).1 s t, fun _ _ v s t => (C67_reseed 32 v).1 s t⟩

theorem seed4_word0 {w : Nat} (v : BitVec w) (s : S4 w) :
    (seed4 v s).s0 = (smOut splitmix64 (v.setWidth 64) 0).setWidth w := by
  have := seedLoop_eq (p := splitmix64) (w := w) (g := v.setWidth 64) (i := 0) (s := s.toFun) (m := 0) (k := 4) (by decide)
  simpa [seed4, S4.ofFun] using this

/-- Different 64-bit seeds give different states. -/
theorem seed4_inj {v v' : BitVec 64} {s s' : S4 64} (h : seed4 v s = seed4 v' s') : v = v' := by
  have h0 := congrArg S4.s0 h
  rw [seed4_word0, seed4_word0] at h0
  simp only [BitVec.setWidth_eq] at h0
  have h1 := mix_inj (x := v + BitVec.ofNat 64 1 * splitmix64.x) (y := v' + BitVec.ofNat 64 1 * splitmix64.x) h0
  have h2 := congrArg (· - BitVec.ofNat 64 1 * splitmix64.x) h1
  simpa only [BitVec.add_sub_cancel] using h2

/-- **C119, as documented, is false.** The engines are documented to be seeded by a 64-bit value
(pseudo-random-generator.h 634, 660, 684, 714).  `Seed` takes 32 bits, so no call of it puts a 64-bit engine into the
state it has when constructed with `2^32`; and the 32-bit engines cannot tell `0` from `2^32` even when constructed. -/
theorem C119_seed_fails :
    (∃ v, ∀ (W : Type) (out : S4 64 → W) w s, (rng256 out).seed32 w s ≠ (rng256 out).ctor v) ∧
    (∃ v v', v ≠ v' ∧ ∀ (W : Type) (out : S4 32 → W), (rng128 out).ctor v = (rng128 out).ctor v') := by
  refine ⟨⟨4294967296#64, ?_⟩, ⟨0#64, 4294967296#64, by decide, ?_⟩⟩
  · intro W out w s h
    have h1 := seed4_inj h
    have h2 := congrArg BitVec.toNat h1
    rw [BitVec.toNat_setWidth] at h2
    have h3 := w.isLt
    have h4 : (4294967296#64).toNat = 4294967296 := rfl
    rw [h4, Nat.mod_eq_of_lt (by omega)] at h2
    omega
  · intro W out
    show seed4 ((0#64).setWidth 32) _ = seed4 ((4294967296#64).setWidth 32) _
    have h : (0#64).setWidth 32 = (4294967296#64).setWidth 32 := by decide
    rw [h]

/-- **C119, what holds.** `Seed(v)` gives the state of an engine constructed with `v`; different values given to the
constructor of a 64-bit engine, and different values given to its `Seed`, give different states; a 32-bit engine
constructed with a 64-bit value behaves as if seeded with its low 32 bits.  (Missing from the documented
behaviour: 64-bit seeds through `Seed` and for the 32-bit engines.) -/
theorem C119_seed_partial :
    (∀ (W : Type) (out : S4 64 → W) w s, (rng256 out).seed32 w s = (rng256 out).ctor (w.setWidth 64)) ∧
    (∀ (W : Type) (out : S4 64 → W) v v', (rng256 out).ctor v = (rng256 out).ctor v' → v = v') ∧
    (∀ (W : Type) (out : S4 64 → W) w w' s s', (rng256 out).seed32 w s = (rng256 out).seed32 w' s' → w = w') ∧
    (∀ (W : Type) (out : S4 32 → W) v s, (rng128 out).ctor v = (rng128 out).seed32 (v.setWidth 32) s) := by
  refine ⟨?_, ?_, ?_, ?_⟩
  · intro W out w s; exact (C67_reseed 64 (w.setWidth 64)).1 s _
  · intro W out v v' h; exact seed4_inj h
  · intro W out w w' s s' h
    have h1 := congrArg BitVec.toNat (seed4_inj h)
    rw [BitVec.toNat_setWidth, BitVec.toNat_setWidth] at h1
    have := w.isLt; have := w'.isLt
    rw [Nat.mod_eq_of_lt (by omega), Nat.mod_eq_of_lt (by omega)] at h1
    exact BitVec.eq_of_toNat_eq h1
  · intro W out v s; exact (C67_reseed 32 (v.setWidth 32)).1 _ s

/-! ### C120 -/

/-- A number from 0 to 1.  (Specification.) -/
def InUnit (p : Dbl) : Prop := ∃ q, p = .num q ∧ 0 ≤ q ∧ q ≤ 1

/-- A number greater than 0, or the positive infinity.  (Specification.) -/
def Positive (a : Dbl) : Prop := a = .pos ∨ ∃ q, a = .num q ∧ 0 < q

/-- `b` is greater than or equal to `a`, neither being NaN.  (Specification.) -/
def AtMost (a b : Dbl) : Prop :=
  a ≠ .nan ∧ b ≠ .nan ∧ (a = .neg ∨ b = .pos ∨ ∃ p q, a = .num p ∧ b = .num q ∧ p ≤ q)

/-- What the documentation demands of the arguments ("must"); i-random.h 123-436. -/
def Call.documented : Call → Prop
  | .uniformUint32 lb ub => lb.toNat ≤ ub.toNat
  | .uniformUint64 lb ub => lb.toNat ≤ ub.toNat
  | .uniformInt32 lb ub => lb.toInt ≤ ub.toInt
  | .uniformInt64 lb ub => lb.toInt ≤ ub.toInt
  | .uniformDouble lb ub | .uniformFloat lb ub => AtMost lb ub
  | .bernoulli p | .binomial _ p | .negativeBinomial _ p | .geometric p => InUnit p
  | .poisson a | .exponential a | .chiSquared a | .studentT a => Positive a
  | .gamma a b | .weibull a b | .beta a b | .fisherF a b => Positive a ∧ Positive b
  | .extremeValue _ b | .laplace _ b | .normal _ b | .lognormal _ b | .cauchy _ b => Positive b
  | .discrete _ | .piecewiseConstant _ | .piecewiseLinear _ | .triangle _ _ _ => True

theorem lt_zero_iff (a : Dbl) : Dbl.lt 0 a = true ↔ Positive a := by
  cases a <;> simp [Dbl.lt, Positive, OfNat.ofNat]

theorem unit_iff (p : Dbl) : (leq 0 p && leq p 1) = true ↔ InUnit p := by
  cases p <;> simp [leq, InUnit, OfNat.ofNat]

theorem leq_iff (a b : Dbl) : leq a b = true ↔ AtMost a b := by
  cases a <;> cases b <;> simp [leq, AtMost]

/-- **C120, as documented, is false.** A Laplace distribution may be documented to have any mean, yet creating one
with mean `0` fails an assertion, on every engine; the one-shot call with the same arguments does not. -/
theorem C120_arguments_fails :
    ∃ c : Call, c.documented ∧ ∀ (g : Rng) (B : Boost g.Word) (w : World g B) (e d : Nat) (x : Eng g),
      w.eng e = some x → 0 < x.held → w.dist d = none →
      w.step (.create e d c) = .error .assertion ∧ w.step (.oneShot e c) ≠ .error .assertion := by
  refine ⟨.laplace 0 1, .inr ⟨1, rfl, by decide +kernel⟩, ?_⟩
  intro g B w e d x hx hh hd
  have hu : w.user e = some x := user_some.2 ⟨hx, hh⟩
  constructor
  · have : (Call.laplace 0 1).asserts = false := by decide +kernel
    simp only [World.step, hu, hd, this]
    rfl
  · simp only [World.step, hu, Call.temporary]
    split <;> simp

/-- **C120, what holds.** For an engine the user holds and an unused name, creating a distribution fails the argument
check exactly if the arguments are not as documented (so for NaN where a range is documented), for all kinds of
distributions but Laplace; for Laplace exactly if the scale is not positive or the mean is not positive.  A Laplace
distribution with a mean that is not positive is what is missing. -/
theorem C120_arguments_partial (w : World g B) (e d : Nat) (x : Eng g) (hx : w.eng e = some x) (hh : 0 < x.held)
    (hd : w.dist d = none) (c : Call) :
    ((∀ m s, c ≠ .laplace m s) → (w.step (.create e d c) = .error .assertion ↔ ¬ c.documented)) ∧
    (∀ m s, c = .laplace m s → (w.step (.create e d c) = .error .assertion ↔ ¬ (Positive m ∧ Positive s))) := by
  have hu : w.user e = some x := user_some.2 ⟨hx, hh⟩
  have hs : w.step (.create e d c) = .error .assertion ↔ ¬ c.asserts = true := by
    simp only [World.step, hu, hd]
    cases h : c.asserts <;> simp
  rw [hs]
  constructor
  · intro hl
    rw [not_iff_not]
    cases c with
    | laplace m s => exact absurd rfl (hl m s)
    | uniformUint32 a b => simp [Call.asserts, Call.documented, BitVec.ule]
    | uniformUint64 a b => simp [Call.asserts, Call.documented, BitVec.ule]
    | uniformInt32 a b => simp [Call.asserts, Call.documented, BitVec.sle]
    | uniformInt64 a b => simp [Call.asserts, Call.documented, BitVec.sle]
    | _ =>
      first
        | exact Iff.rfl
        | exact unit_iff _
        | exact leq_iff _ _
        | simp only [Call.asserts, Call.documented, lt_zero_iff, Bool.and_eq_true]
  · rintro m s rfl
    rw [not_iff_not]
    simp only [Call.asserts, lt_zero_iff, Bool.and_eq_true]

/-- C120: NaN and infinities among the arguments. -/
example : (Call.bernoulli .nan).asserts = false ∧ (Call.normal .nan .pos).asserts = true ∧
    (Call.uniformDouble .neg .pos).asserts = true ∧ (Call.uniformDouble 0 .nan).asserts = false ∧
    (Call.uniformInt32 (-1) 0).asserts = true ∧ (Call.uniformUint32 (-1) 0).asserts = false := by decide +kernel

/-! ### Cases -/

/-- A generator for the cases: it counts. -/
def countRng : Rng :=
  { State := Nat, Word := Nat, out := id, next := (· + 1), ctor := BitVec.toNat, seed32 := fun v _ => v.toNat }

/-- Distributions for the cases: each draw takes two outputs and returns the first, the next draw takes none and
returns the second (as generators of normal values in pairs do); `reset` drops a value kept. -/
def pairDist : Boost Nat :=
  { Dist := Option Nat, Out := Nat, make := fun _ => none, reset := fun _ => none
    draw := fun d f => match d with
      | none => some (f 0, some (f 1), 2)
      | some v => some (v, none, 0) }

theorem pairDist_alike : Alike pairDist Eq where
  equiv := ⟨fun _ => rfl, fun h => h.symm, fun h h' => h.trans h'⟩
  draw := by
    rintro p _ rfl f
    cases p with
    | none => exact .inr ⟨_, _, _, _, rfl, rfl, rfl⟩
    | some v => exact .inr ⟨_, _, _, _, rfl, rfl, rfl⟩
  reset := by rintro p _ rfl; rfl

/-- A history used below: one engine, two distributions sharing it, the engine's own pointer dropped early. -/
def caseOps : List Op :=
  [.construct 0 5#64, .create 0 1 (.normal 0 1), .create 0 2 (.normal 3 1), .draw 1, .drop 0, .draw 2, .draw 1]

/-- C114 and C115 are about histories like this one: the distributions outlive the user's pointer and share the stream
5, 6, 7, 8, ... -/
example : ((World.init : World countRng pairDist).run caseOps).1
    = [.unit, .unit, .unit, .value (5 : Nat) 2, .unit, .value (7 : Nat) 2, .value (6 : Nat) 0] := rfl

/-- C116: a second engine in between changes nothing. -/
example : ((World.init : World countRng pairDist).run
    [.construct 0 5#64, .construct 1 9#64, .create 0 1 (.normal 0 1), .generate 1, .draw 1]).1
    = [.unit, .unit, .unit, .word (9 : Nat), .value (5 : Nat) 2] ∧
    ((World.init : World countRng pairDist).run [.construct 0 5#64, .create 0 1 (.normal 0 1), .draw 1]).1
    = [.unit, .unit, .value (5 : Nat) 2] := ⟨rfl, rfl⟩

/-- C117 needs the resets: seeding alone does not replay, since a distribution may keep a value. -/
example : ((World.init : World countRng pairDist).run
      [.construct 0 5#64, .create 0 1 (.normal 0 1), .draw 1, .seed 0 5#32, .draw 1]).1
        = [.unit, .unit, .value (5 : Nat) 2, .unit, .value (6 : Nat) 0] ∧
    ((World.init : World countRng pairDist).run
      [.construct 0 5#64, .create 0 1 (.normal 0 1), .draw 1, .seed 0 5#32, .reset 1, .draw 1]).1
        = [.unit, .unit, .value (5 : Nat) 2, .unit, .unit, .value (5 : Nat) 2] := ⟨rfl, rfl⟩

/-- C117 applies to two different pasts of an engine and a distribution. -/
example (a b : World countRng pairDist) (ra rb)
    (ha : (World.init : World countRng pairDist).run [.construct 0 5#64, .create 0 1 (.normal 0 1)] = (ra, .ok a))
    (hb : (World.init : World countRng pairDist).run
      [.construct 0 8#64, .create 0 1 (.normal 0 1), .draw 1, .generate 0] = (rb, .ok b)) :
    a.shows [.seed 0 7#32, .reset 1, .draw 1, .generate 0] = b.shows [.seed 0 7#32, .reset 1, .draw 1, .generate 0] := by
  refine C117_replay (r := Eq) (fun _ _ _ => rfl) pairDist_alike (fun _ _ _ => rfl) ha hb 0 7#32 (fun d => d = 1) [1]
    [.draw 1, .generate 0] ?_ ?_ ?_ ?_
  · cases ha; cases hb; exact ⟨⟨_, rfl, by decide⟩, ⟨_, rfl, by decide⟩⟩
  · rintro d rfl; exact .inr (by simp)
  · intro d hd
    simp only [List.mem_singleton] at hd
    subst hd
    refine ⟨rfl, .normal 0 1, ?_⟩
    cases ha; cases hb
    refine ⟨_, _, rfl, rfl, rfl, rfl, rfl, .make, ?_⟩
    exact .draw (B := pairDist) (fun k => 8 + k) (8 : Nat) 2 .make rfl
  · intro o ho
    simp only [List.mem_cons, List.not_mem_nil, or_false] at ho
    rcases ho with rfl | rfl
    · exact rfl
    · exact rfl

/-- C118 in a case. -/
example : ((World.init : World countRng pairDist).run
    [.construct 0 5#64, .oneShot 0 (.normal 0 1), .create 0 1 (.normal 0 1), .draw 1, .dropD 1, .generate 0]).1
    = [.unit, .value (5 : Nat) 2, .unit, .value (7 : Nat) 2, .unit, .word (9 : Nat)] := rfl

end Verif.Random
