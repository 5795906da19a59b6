import Verif.Random.Shared

/-! # Lemmas about the world of engines and distributions -/

namespace Verif.Random

variable {g : Rng} {B : Boost g.Word}

@[simp] theorem setE_same (w : World g B) (e : Nat) (x : Option (Eng g)) : (w.setE e x).eng e = x := by
  simp [World.setE]
theorem setE_ne (w : World g B) {e i : Nat} (x : Option (Eng g)) (h : i ≠ e) : (w.setE e x).eng i = w.eng i := by
  simp [World.setE, h]
@[simp] theorem setE_dist (w : World g B) (e : Nat) (x : Option (Eng g)) : (w.setE e x).dist = w.dist := rfl
@[simp] theorem setD_same (w : World g B) (d : Nat) (y : Option (DObj g B)) : (w.setD d y).dist d = y := by
  simp [World.setD]
theorem setD_ne (w : World g B) {d i : Nat} (y : Option (DObj g B)) (h : i ≠ d) : (w.setD d y).dist i = w.dist i := by
  simp [World.setD, h]
@[simp] theorem setD_eng (w : World g B) (d : Nat) (y : Option (DObj g B)) : (w.setD d y).eng = w.eng := rfl
@[simp] theorem release_dist (w : World g B) (e : Nat) (x : Eng g) : (w.release e x).dist = w.dist := by
  unfold World.release; split <;> rfl
theorem release_ne (w : World g B) {e i : Nat} (x : Eng g) (h : i ≠ e) : (w.release e x).eng i = w.eng i := by
  unfold World.release; split <;> exact setE_ne _ _ h
theorem release_same (w : World g B) (e : Nat) (x : Eng g) :
    (w.release e x).eng e = if x.rc = 1 then none else some { x with rc := x.rc - 1 } := by
  unfold World.release; split <;> simp

theorem user_some {w : World g B} {e : Nat} {x : Eng g} : w.user e = some x ↔ w.eng e = some x ∧ 0 < x.held := by
  unfold World.user
  cases h : w.eng e with
  | none => simp
  | some z =>
    by_cases hz : 0 < z.held
    · simp only [hz, if_true, Option.some.injEq]
      constructor
      · rintro rfl; exact ⟨rfl, hz⟩
      · rintro ⟨h, _⟩; exact h
    · simp only [hz, if_false, Option.some.injEq]
      constructor
      · intro h; cases h
      · rintro ⟨rfl, h⟩; exact absurd h hz

/-- A `Generate*` function makes the same Boost distribution as the `Create*Distribution` function of the same arguments. -/
theorem temporary_created {c : Call} {k : Ctor} (h : c.temporary = some k) : k = c.created := by
  cases c <;> simp [Call.temporary] at h <;> exact h.symm

/-- What a successful call did, case by case. -/
inductive Did (w : World g B) : Op → Obs g B → World g B → Prop
  | construct (e v) (h : w.eng e = none) : Did w (.construct e v) .unit (w.setE e (some ⟨g.ctor v, 1, 1⟩))
  | hold (e x) (h : w.eng e = some x) (hh : 0 < x.held) :
      Did w (.hold e) .unit (w.setE e (some { x with rc := x.rc + 1, held := x.held + 1 }))
  | drop (e x) (h : w.eng e = some x) (hh : 0 < x.held) :
      Did w (.drop e) .unit (w.release e { x with held := x.held - 1 })
  | generate (e x) (h : w.eng e = some x) (hh : 0 < x.held) :
      Did w (.generate e) (.word (g.out x.st)) (w.setE e (some { x with st := g.next x.st }))
  | seed (e v x) (h : w.eng e = some x) (hh : 0 < x.held) :
      Did w (.seed e v) .unit (w.setE e (some { x with st := g.seed32 v x.st }))
  | discard (e z x) (h : w.eng e = some x) (hh : 0 < x.held) :
      Did w (.discard e z) .unit (w.setE e (some { x with st := g.iter z x.st }))
  | create (e d c x) (h : w.eng e = some x) (hh : 0 < x.held) (hd : w.dist d = none) (ha : c.asserts = true) :
      Did w (.create e d c) .unit ((w.setE e (some { x with rc := x.rc + 1 })).setD d (some ⟨e, B.make c.created, 1⟩))
  | oneShot (e c x k o d' n) (h : w.eng e = some x) (hh : 0 < x.held) (hk : c.temporary = some k)
      (hb : B.draw (B.make k) (g.outs x.st) = some (o, d', n)) :
      Did w (.oneShot e c) (.value o n) (w.setE e (some { x with st := g.iter n x.st }))
  | draw (d y x o d' n) (hd : w.dist d = some y) (h : w.eng y.eng = some x)
      (hb : B.draw y.d (g.outs x.st) = some (o, d', n)) :
      Did w (.draw d) (.value o n)
        ((w.setE y.eng (some { x with st := g.iter n x.st })).setD d (some { y with d := d' }))
  | reset (d y) (hd : w.dist d = some y) : Did w (.reset d) .unit (w.setD d (some { y with d := B.reset y.d }))
  | holdD (d y) (hd : w.dist d = some y) : Did w (.holdD d) .unit (w.setD d (some { y with rc := y.rc + 1 }))
  | dropLast (d y x) (hd : w.dist d = some y) (hr : y.rc = 1) (h : w.eng y.eng = some x) :
      Did w (.dropD d) .unit ((w.setD d none).release y.eng x)
  | dropD (d y) (hd : w.dist d = some y) (hr : y.rc ≠ 1) :
      Did w (.dropD d) .unit (w.setD d (some { y with rc := y.rc - 1 }))

theorem did {w w' : World g B} {o : Op} {b : Obs g B} (h : w.step o = .ok (b, w')) : Did w o b w' := by
  cases o with
  | construct e v =>
    simp only [World.step] at h
    split at h
    · cases h
    · rename_i he; cases h; exact .construct e v he
  | hold e =>
    simp only [World.step] at h
    split at h
    · cases h
    · rename_i x he; cases h; rw [user_some] at he; exact .hold e x he.1 he.2
  | drop e =>
    simp only [World.step] at h
    split at h
    · cases h
    · rename_i x he; cases h; rw [user_some] at he; exact .drop e x he.1 he.2
  | generate e =>
    simp only [World.step] at h
    split at h
    · cases h
    · rename_i x he; cases h; rw [user_some] at he; exact .generate e x he.1 he.2
  | seed e v =>
    simp only [World.step] at h
    split at h
    · cases h
    · rename_i x he; cases h; rw [user_some] at he; exact .seed e v x he.1 he.2
  | discard e z =>
    simp only [World.step] at h
    split at h
    · cases h
    · rename_i x he; cases h; rw [user_some] at he; exact .discard e z x he.1 he.2
  | create e d c =>
    simp only [World.step] at h
    split at h
    · rename_i x he hd
      split at h
      · rename_i ha; cases h; rw [user_some] at he; exact .create e d c x he.1 he.2 hd ha
      · cases h
    · cases h
  | oneShot e c =>
    simp only [World.step] at h
    split at h
    · rename_i x k he hk
      split at h
      · cases h
      · rename_i o d' n hb; cases h; rw [user_some] at he; exact .oneShot e c x k o d' n he.1 he.2 hk hb
    · cases h
  | draw d =>
    simp only [World.step] at h
    split at h
    · cases h
    · rename_i y hd
      split at h
      · cases h
      · rename_i x he
        split at h
        · cases h
        · rename_i o d' n hb; cases h; exact .draw d y x o d' n hd he hb
  | reset d =>
    simp only [World.step] at h
    split at h
    · cases h
    · rename_i y hd; cases h; exact .reset d y hd
  | holdD d =>
    simp only [World.step] at h
    split at h
    · cases h
    · rename_i y hd; cases h; exact .holdD d y hd
  | dropD d =>
    simp only [World.step] at h
    split at h
    · cases h
    · rename_i y hd
      split at h
      · rename_i hr
        split at h
        · cases h
        · rename_i x he; cases h; exact .dropLast d y x hd hr he
      · rename_i hr; cases h; exact .dropD d y hd hr

theorem run_nil (w : World g B) : w.run [] = ([], .ok w) := rfl

theorem run_cons_ok {w w' : World g B} {o : Op} {b : Obs g B} (os : List Op) (h : w.step o = .ok (b, w')) :
    w.run (o :: os) = (b :: (w'.run os).1, (w'.run os).2) := by
  simp only [World.run, h]

theorem run_cons_error {w : World g B} {o : Op} {f : Fault} (os : List Op) (h : w.step o = .error f) :
    w.run (o :: os) = ([], .error f) := by
  simp only [World.run, h]

/-- A successful history starts with a successful call. -/
theorem run_cons_inv {w w' : World g B} {o : Op} {os : List Op} {bs : List (Obs g B)}
    (h : w.run (o :: os) = (bs, .ok w')) :
    ∃ b bs' w1, bs = b :: bs' ∧ w.step o = .ok (b, w1) ∧ w1.run os = (bs', .ok w') := by
  cases hs : w.step o with
  | error f => rw [run_cons_error os hs] at h; cases h
  | ok r =>
    obtain ⟨b, w1⟩ := r
    rw [run_cons_ok os hs] at h
    injection h with h1 h2
    exact ⟨b, _, w1, h1.symm, rfl, by rw [← h2]⟩

theorem iter_add (m n : Nat) (s : g.State) : g.iter (m + n) s = g.iter n (g.iter m s) := by
  induction m generalizing s with
  | zero => simp [Rng.iter]
  | succ m ih => rw [show m + 1 + n = (m + n) + 1 by omega]; exact ih _

theorem outs_iter (m : Nat) (s : g.State) : g.outs (g.iter m s) = fun k => g.outs s (m + k) := by
  funext k; simp only [Rng.outs, iter_add]

/-! ### Counting -/

/-- `L` lists the live distributions drawing from engine `e`, each once. -/
def Users (w : World g B) (e : Nat) (L : List Nat) : Prop :=
  L.Nodup ∧ ∀ d, d ∈ L ↔ ∃ y, w.dist d = some y ∧ y.eng = e

/-- The reference counters count the references. -/
structure Inv (w : World g B) : Prop where
  eng : ∀ e x, w.eng e = some x → ∃ L, Users w e L ∧ x.rc = x.held + L.length ∧ 0 < x.rc
  dist : ∀ d y, w.dist d = some y → 0 < y.rc ∧ ∃ x, w.eng y.eng = some x

theorem inv_init : Inv (World.init : World g B) := ⟨(fun _ _ h => by cases h), (fun _ _ h => by cases h)⟩

/-- Changes that keep which distribution draws from which engine. -/
theorem users_congr {w w' : World g B} (h : ∀ d, (w'.dist d).map (·.eng) = (w.dist d).map (·.eng)) {e : Nat} {L : List Nat}
    (hu : Users w e L) : Users w' e L := by
  refine ⟨hu.1, fun d => (hu.2 d).trans ?_⟩
  have := h d
  constructor
  · rintro ⟨y, hy, he⟩
    rw [hy] at this
    cases hz : w'.dist d with
    | none => rw [hz] at this; cases this
    | some z =>
      rw [hz] at this
      simp only [Option.map_some, Option.some.injEq] at this
      exact ⟨z, rfl, this.trans he⟩
  · rintro ⟨y, hy, he⟩
    rw [hy] at this
    cases hz : w.dist d with
    | none => rw [hz] at this; cases this
    | some z =>
      rw [hz] at this
      simp only [Option.map_some, Option.some.injEq] at this
      exact ⟨z, rfl, this.symm.trans he⟩

theorem inv_setE {w : World g B} (hi : Inv w) {e : Nat} {x x' : Eng g} (h : w.eng e = some x)
    (hr : x'.rc + x.held = x.rc + x'.held) (h0 : 0 < x'.rc) : Inv (w.setE e (some x')) := by
  refine ⟨?_, ?_⟩
  · intro i z hz
    by_cases hie : i = e
    · subst hie
      rw [setE_same] at hz
      cases hz
      obtain ⟨L, hu, hrc, _⟩ := hi.eng _ _ h
      exact ⟨L, users_congr (fun _ => rfl) hu, by omega, h0⟩
    · rw [setE_ne _ _ hie] at hz
      obtain ⟨L, hu, hrc, hp⟩ := hi.eng _ _ hz
      exact ⟨L, users_congr (fun _ => rfl) hu, hrc, hp⟩
  · intro d y hy
    obtain ⟨hp, z, hz⟩ := hi.dist d y hy
    refine ⟨hp, ?_⟩
    by_cases hie : y.eng = e
    · exact ⟨x', by rw [hie, setE_same]⟩
    · exact ⟨z, by rw [setE_ne _ _ hie]; exact hz⟩

theorem inv_setD {w : World g B} (hi : Inv w) {d : Nat} {y y' : DObj g B} (h : w.dist d = some y)
    (he : y'.eng = y.eng) (h0 : 0 < y'.rc) : Inv (w.setD d (some y')) := by
  have hc : ∀ i, ((w.setD d (some y')).dist i).map (·.eng) = (w.dist i).map (·.eng) := by
    intro i
    by_cases hid : i = d
    · subst hid; rw [setD_same, h]; simp [he]
    · rw [setD_ne _ _ hid]
  refine ⟨?_, ?_⟩
  · intro i z hz
    obtain ⟨L, hu, hrc, hp⟩ := hi.eng i z hz
    exact ⟨L, users_congr hc hu, hrc, hp⟩
  · intro i z hz
    by_cases hid : i = d
    · subst hid
      rw [setD_same] at hz
      cases hz
      obtain ⟨_, q, hq⟩ := hi.dist _ _ h
      exact ⟨h0, q, by rw [he]; exact hq⟩
    · rw [setD_ne _ _ hid] at hz
      exact hi.dist i z hz

theorem inv_step {w w' : World g B} {o : Op} {b : Obs g B} (hi : Inv w) (hs : w.step o = .ok (b, w')) : Inv w' := by
  cases did hs with
  | construct e v h =>
    refine ⟨?_, ?_⟩
    · intro i z hz
      by_cases hie : i = e
      · subst hie
        rw [setE_same] at hz
        cases hz
        refine ⟨[], ⟨List.nodup_nil, ?_⟩, rfl, by simp⟩
        intro d
        constructor
        · intro hd; cases hd
        · rintro ⟨y, hy, he⟩
          obtain ⟨_, q, hq⟩ := hi.dist d y hy
          rw [he, h] at hq
          cases hq
      · rw [setE_ne _ _ hie] at hz
        obtain ⟨L, hu, hrc, hp⟩ := hi.eng _ _ hz
        exact ⟨L, users_congr (fun _ => rfl) hu, hrc, hp⟩
    · intro d y hy
      obtain ⟨hp, q, hq⟩ := hi.dist d y hy
      refine ⟨hp, q, ?_⟩
      have hne : y.eng ≠ e := by rintro rfl; rw [h] at hq; cases hq
      rw [setE_ne _ _ hne]; exact hq
  | hold e x h hh =>
    obtain ⟨L, hu, hrc, hp⟩ := hi.eng _ _ h
    exact inv_setE hi h (by simp; omega) (by simp)
  | drop e x h hh =>
    obtain ⟨L, hu, hrc, hp⟩ := hi.eng _ _ h
    unfold World.release
    by_cases h1 : x.rc = 1
    · simp only [h1, if_true]
      have hL : L = [] := List.length_eq_zero_iff.1 (by omega)
      subst hL
      refine ⟨?_, ?_⟩
      · intro i z hz
        by_cases hie : i = e
        · subst hie; rw [setE_same] at hz; cases hz
        · rw [setE_ne _ _ hie] at hz
          obtain ⟨L, hu, hrc, hp⟩ := hi.eng _ _ hz
          exact ⟨L, users_congr (fun _ => rfl) hu, hrc, hp⟩
      · intro d y hy
        obtain ⟨hp, q, hq⟩ := hi.dist d y hy
        refine ⟨hp, q, ?_⟩
        have hne : y.eng ≠ e := by
          intro he
          have := (hu.2 d).2 ⟨y, hy, he⟩
          cases this
        rw [setE_ne _ _ hne]; exact hq
    · simp only [h1, if_false]
      exact inv_setE hi h (by simp; omega) (by simp; omega)
  | generate e x h hh =>
    obtain ⟨L, hu, hrc, hp⟩ := hi.eng _ _ h
    exact inv_setE hi h rfl hp
  | seed e v x h hh =>
    obtain ⟨L, hu, hrc, hp⟩ := hi.eng _ _ h
    exact inv_setE hi h rfl hp
  | discard e z x h hh =>
    obtain ⟨L, hu, hrc, hp⟩ := hi.eng _ _ h
    exact inv_setE hi h rfl hp
  | create e d c x h hh hd ha =>
    refine ⟨?_, ?_⟩
    · intro i z hz
      rw [setD_eng] at hz
      by_cases hie : i = e
      · subst hie
        rw [setE_same] at hz
        cases hz
        obtain ⟨L, hu, hrc, hp⟩ := hi.eng _ _ h
        refine ⟨d :: L, ⟨?_, ?_⟩, ?_, ?_⟩
        · refine List.nodup_cons.2 ⟨?_, hu.1⟩
          intro hm
          obtain ⟨y, hy, _⟩ := (hu.2 d).1 hm
          rw [hd] at hy; cases hy
        · intro k
          by_cases hk : k = d
          · subst hk
            rw [setD_same]
            simp
          · rw [setD_ne _ _ hk]
            simp only [List.mem_cons, hk, false_or]
            exact hu.2 k
        · simp only [List.length_cons]; omega
        · simp
      · rw [setE_ne _ _ hie] at hz
        obtain ⟨L, hu, hrc, hp⟩ := hi.eng _ _ hz
        refine ⟨L, ⟨hu.1, ?_⟩, hrc, hp⟩
        intro k
        by_cases hk : k = d
        · subst hk
          rw [setD_same]
          constructor
          · intro hm
            obtain ⟨y, hy, _⟩ := (hu.2 k).1 hm
            rw [hd] at hy; cases hy
          · rintro ⟨y, hy, he⟩
            cases hy
            exact absurd he.symm hie
        · rw [setD_ne _ _ hk]; exact hu.2 k
    · intro k y hy
      rw [setD_eng]
      by_cases hk : k = d
      · subst hk
        rw [setD_same] at hy
        cases hy
        exact ⟨Nat.one_pos, _, setE_same _ _ _⟩
      · rw [setD_ne _ _ hk] at hy
        obtain ⟨hp, q, hq⟩ := hi.dist k y hy
        refine ⟨hp, ?_⟩
        by_cases hie : y.eng = e
        · rw [hie]; exact ⟨_, setE_same _ _ _⟩
        · exact ⟨q, by rw [setE_ne _ _ hie]; exact hq⟩
  | oneShot e c x k o d' n h hh hk hb =>
    obtain ⟨L, hu, hrc, hp⟩ := hi.eng _ _ h
    exact inv_setE hi h rfl hp
  | draw d y x o d' n hd h hb =>
    obtain ⟨L, hu, hrc, hp⟩ := hi.eng _ _ h
    have h1 : Inv (w.setE y.eng (some { x with st := g.iter n x.st })) := inv_setE hi h rfl hp
    exact inv_setD h1 (y := y) hd rfl (hi.dist d y hd).1
  | reset d y hd => exact inv_setD hi hd rfl (hi.dist d y hd).1
  | holdD d y hd => exact inv_setD hi hd rfl (by simp)
  | dropLast d y x hd hr h =>
    obtain ⟨L, hu, hrc, hp⟩ := hi.eng _ _ h
    have hmem : d ∈ L := (hu.2 d).2 ⟨y, hd, rfl⟩
    have hlen : (L.erase d).length = L.length - 1 := List.length_erase_of_mem hmem
    have hpos : 0 < L.length := List.length_pos_of_mem hmem
    have hdist : ((w.setD d none).release y.eng x).dist = fun i => if i = d then none else w.dist i := by
      rw [release_dist]; rfl
    have husers : ∀ i L', Users w i L' → i ≠ y.eng → Users ((w.setD d none).release y.eng x) i L' := by
      intro i L' hu' hi'
      refine ⟨hu'.1, fun k => (hu'.2 k).trans ?_⟩
      rw [hdist]
      by_cases hk : k = d
      · subst hk
        simp only [if_true]
        constructor
        · rintro ⟨z, hz, he⟩; rw [hd] at hz; cases hz; exact absurd he.symm hi'
        · rintro ⟨z, hz, _⟩; cases hz
      · simp only [hk, if_false]
    have herase : Users ((w.setD d none).release y.eng x) y.eng (L.erase d) := by
      refine ⟨hu.1.erase d, fun k => ?_⟩
      rw [hdist, hu.1.mem_erase_iff]
      by_cases hk : k = d
      · subst hk; simp
      · simp only [hk, if_false, ne_eq, not_false_eq_true, true_and]; exact hu.2 k
    refine ⟨?_, ?_⟩
    · intro i z hz
      by_cases hie : i = y.eng
      · subst hie
        rw [release_same] at hz
        by_cases h1 : x.rc = 1
        · simp [h1] at hz
        · simp only [h1, if_false, Option.some.injEq] at hz
          subst hz
          refine ⟨L.erase d, herase, ?_, ?_⟩
          · simp only [hlen]; omega
          · simp only; omega
      · rw [release_ne _ _ hie] at hz
        obtain ⟨L', hu', hrc', hp'⟩ := hi.eng i z hz
        exact ⟨L', husers i L' hu' hie, hrc', hp'⟩
    · intro k z hz
      rw [hdist] at hz
      by_cases hk : k = d
      · simp [hk] at hz
      · simp only [hk, if_false] at hz
        obtain ⟨hp', q, hq⟩ := hi.dist k z hz
        refine ⟨hp', ?_⟩
        by_cases hie : z.eng = y.eng
        · have hk2 : k ∈ L.erase d := (hu.1.mem_erase_iff).2 ⟨hk, (hu.2 k).2 ⟨z, hz, hie⟩⟩
          have := List.length_pos_of_mem hk2
          have h1 : x.rc ≠ 1 := by omega
          rw [hie, release_same]
          simp only [h1, if_false]
          exact ⟨_, rfl⟩
        · exact ⟨q, by rw [release_ne _ _ hie]; exact hq⟩
  | dropD d y hd hr =>
    have := (hi.dist d y hd).1
    exact inv_setD hi hd rfl (by simp; omega)

theorem inv_run {w w' : World g B} {os : List Op} {bs : List (Obs g B)} (hi : Inv w) (h : w.run os = (bs, .ok w')) :
    Inv w' := by
  induction os generalizing w bs with
  | nil => cases h; exact hi
  | cons o os ih =>
    obtain ⟨b, bs', w1, _, hs, hr⟩ := run_cons_inv h
    exact ih (inv_step hi hs) hr

/-- No call finds its engine destroyed. -/
theorem no_dangling {w : World g B} (hi : Inv w) (o : Op) : w.step o ≠ .error .dangling := by
  intro h
  cases o <;> simp only [World.step] at h
  case draw d =>
    split at h
    · cases h
    · rename_i y hd
      obtain ⟨_, x, hx⟩ := hi.dist d y hd
      simp only [hx] at h
      split at h <;> cases h
  case dropD d =>
    split at h
    · cases h
    · rename_i y hd
      obtain ⟨_, x, hx⟩ := hi.dist d y hd
      split at h
      · simp only [hx] at h; cases h
      · cases h
  case create e d c =>
    split at h
    · split at h <;> cases h
    · cases h
  case oneShot e c =>
    split at h
    · split at h <;> cases h
    · cases h
  all_goals (split at h <;> cases h)

end Verif.Random
