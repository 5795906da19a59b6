import Verif.Log.OwnLemmas
/-! Lemmas for property C161: every operation keeps the invariant. -/
namespace Verif.Log.Own

open Verif.Heap hiding Obj

/-- Every logger is as it should be. -/
def All (_ : Nat) : Prop := True

structure Inv (s : State) : Prop where
  rc : RInv s.cells (fun c => s.user.count c)
  ty : TInv s.cells
  good : Good All s.cells

/-- Connections that the user makes, and pointers that components keep, lead down. -/
def Downs (h : Cells) : Prop := ∀ c d, ((.conn, d) ∈ refsAt h c → kindAt h d = some .comp) ∧
  ((.kept, d) ∈ refsAt h c → kindAt h d = some .comp ∧ (kindAt h c = some .comp → d < c))

/-- Members that have nothing to do with connections. -/
def Quiet (r : Role) : Prop := r = .filter ∨ r = .kept

/-- A logger that is attached keeps its sources and sinks. -/
def Keeps (h h' : Cells) : Prop := ∀ c, (.self, c) ∈ refsAt h c → ∀ x, x ∈ refsAt h c → ¬ Quiet x.1 → x ∈ refsAt h' c

theorem Keeps.of_mono {h h' : Cells} (hm : ∀ e x, cr h e x ≤ cr h' e x) : Keeps h h' :=
  fun _ _ _ hx _ => cr_pos.mp (Nat.lt_of_lt_of_le (cr_pos.mpr hx) (hm _ _))

theorem not_small {h : Cells} {n : Nat} {x : Role × Nat} (h1 : x.1 ≠ .self) (h2 : x.1 ≠ .feed) : ¬ Small h n x := by
  rintro ⟨g | g, _⟩
  · exact h1 g
  · exact h2 g

theorem opt_none (y : Nat × Role × Nat) : (if (none : Option (Nat × Role × Nat)) = some y then 1 else 0) = 0 := if_neg (by simp)

theorem opt_some (c e : Nat) (x y : Role × Nat) : (if some (c, x) = some (e, y) then 1 else 0) = if e = c ∧ y = x then 1 else 0 := by
  by_cases g : e = c ∧ y = x
  · obtain ⟨rfl, rfl⟩ := g; simp
  · rw [if_neg g, if_neg]
    simp only [Option.some.injEq, Prod.mk.injEq]
    exact fun h => g ⟨h.1.symm, h.2.symm⟩

/-- What an operation does to the references. -/
structure Ok (h h' : Cells) (R : Nat → Nat) (p q : Prop) (ad cu : Option (Nat × Role × Nat)) : Prop where
  rc : RInv h' R
  ty : TInv h'
  good : Good All h'
  keep : p → Keeps h h'
  downs : q → Downs h → Downs h'
  fr : ∀ e, Live h' e → ∀ r d, r ≠ Role.self → r ≠ Role.feed →
    cr h' e (r, d) + (if cu = some (e, r, d) then 1 else 0) = cr h e (r, d) + if ad = some (e, r, d) then 1 else 0

theorem Inv.init : Inv State.init :=
  ⟨⟨fun c => by simp [State.init, rcOf, cnt], fun c x h => by simp [State.init] at h⟩, fun c r d h => by simp [State.init, refsAt] at h,
    fun l _ => ⟨by simp [One, State.init, cr, refsAt, isLogger, kindAt], fun s => by simp [State.init, cr, refsAt]⟩⟩

theorem Inv.live_user {s : State} (h : Inv s) {c : Nat} (hc : c ∈ s.user) : Live s.cells c := by
  apply alive_of_rc
  have := h.rc.eq c
  have := List.count_pos_iff.mpr hc
  omega

/-- References are as they were. -/
theorem same_good {h h' : Cells} (hk : ∀ e, kindAt h' e = kindAt h e) (hr : ∀ e, refsAt h' e = refsAt h e) {P : Nat → Prop} (hG : Good P h) :
    Good P h' := by
  have e1 : ∀ e x, cr h' e x = cr h e x := fun e x => by unfold cr; rw [hr]
  intro l hl
  refine ⟨?_, fun s => ?_⟩
  · unfold One
    rw [e1, isLogger_congr (hk l), (hG l hl).1]
    have : hasSinks h' l = hasSinks h l := by unfold hasSinks; rw [hr]
    rw [this]
  · rw [e1, e1, e1, (hG l hl).2 s]

theorem same_ok {h h' : Cells} {R : Nat → Nat} {p q : Prop} (hI : RInv h' R) (hk : ∀ e, kindAt h' e = kindAt h e)
    (hr : ∀ e, refsAt h' e = refsAt h e) (hT : TInv h) (hG : Good All h) : Ok h h' R p q none none :=
  ⟨hI, fun c r d hm => by rw [hk, hk]; rw [hr] at hm; exact hT c r d hm, same_good hk hr hG, fun _ c _ x hm _ => by rw [hr]; exact hm,
    fun _ hD c d => by rw [hr, hk, hk]; exact hD c d, fun e _ r d _ _ => by unfold cr; rw [hr]⟩

theorem push_all {h : Cells} {R : Nat → Nat} {k : Kind} {p q : Prop} (hI : RInv h R) (hT : TInv h) (hG : Good All h) :
    Ok h (h ++ [some ⟨1, k, []⟩]) (fun c => R c + if c = h.length then 1 else 0) p q none none := by
  obtain ⟨i1, r1, k1⟩ := push_ok (k := k) hI
  have e1 : ∀ e x, cr (h ++ [some ⟨1, k, []⟩]) e x = cr h e x := fun e x => by unfold cr; rw [r1]
  have kk : ∀ e a, kindAt h e = some a → kindAt (h ++ [some (⟨1, k, []⟩ : Obj)]) e = some a := by
    intro e a ha
    obtain ⟨x, hx⟩ := alive_of_kind ha
    have := lt_of_get hx
    rw [k1, if_neg (by omega)]; exact ha
  refine ⟨i1, fun c r d hm => ?_, fun l hl => ?_, fun _ c _ x hm _ => by rw [r1]; exact hm, fun _ hD c d => ?_,
    fun e _ r d _ _ => by rw [e1]⟩
  · rw [r1] at hm
    obtain ⟨a, b, g1, g2, g3⟩ := hT c r d hm
    exact ⟨a, b, kk _ _ g1, kk _ _ g2, g3⟩
  · obtain ⟨o, f⟩ := hG l hl
    refine ⟨?_, fun s => by rw [e1, e1, e1, f s]⟩
    unfold One at *
    have hs : hasSinks (h ++ [some (⟨1, k, []⟩ : Obj)]) l = hasSinks h l := by unfold hasSinks; rw [r1]
    rw [e1, o, hs]
    by_cases g : l = h.length
    · have : hasSinks h l = false := by
        unfold hasSinks refsAt; subst g; simp
      simp [this]
    · have : kindAt (h ++ [some (⟨1, k, []⟩ : Obj)]) l = kindAt h l := by rw [k1, if_neg g]
      rw [isLogger_congr this]
  · obtain ⟨d1, d2⟩ := hD c d
    rw [r1]
    refine ⟨fun hm => kk _ _ (d1 hm), fun hm => ⟨kk _ _ (d2 hm).1, fun hc => (d2 hm).2 ?_⟩⟩
    obtain ⟨a, b, g1, g2, g3⟩ := hT c _ d hm
    rw [kk _ _ g1] at hc
    rw [g1, hc]

theorem connect_all {h : Cells} {R : Nat → Nat} {c d : Nat} {a b : Kind} {p : Prop} (hI : RInv h R) (hT : TInv h) (hG : Good All h)
    (hc : kindAt h c = some a) (hd : kindAt h d = some b) (ha : a ≠ .comp) :
    ∃ h', connect (depth h c + 1) c .conn d h = some h' ∧ Ok h h' R p (b = .comp) (some (c, .conn, d)) none := by
  obtain ⟨h', e1, C, f⟩ := connect_ok (depth h c + 1) c .conn d h R All a b hI hT hG hc hd ha (by rw [depth_eq hc]; omega) (fun _ _ _ _ => trivial)
    (.inl rfl)
  refine ⟨h', e1, C.rc, C.ty, C.good, fun _ => .of_mono C.mono, fun hb hD e d' => ?_, fun e _ r d' n1 n2 => ?_⟩
  swap
  · rw [f e _ (not_small n1 n2), opt_none, opt_some, Nat.add_zero]
  rw [C.kind, C.kind]
  refine ⟨fun hm => ?_, fun hm => ?_⟩
  · have := f e (.conn, d') (by rintro ⟨g | g, _⟩ <;> cases g)
    by_cases g : e = c ∧ (Role.conn, d') = (.conn, d)
    · have q := g.2
      injection q with _ q
      rw [q, hd, hb]
    · rw [if_neg g] at this
      exact (hD e d').1 (cr_pos.mp (by have := cr_pos.mpr hm; omega))
  · have := f e (.kept, d') (by rintro ⟨g | g, _⟩ <;> cases g)
    rw [if_neg (by simp)] at this
    exact (hD e d').2 (cr_pos.mp (by have := cr_pos.mpr hm; omega))

theorem downs_less {h h' : Cells} {R : Nat → Nat} (hI : RInv h' R) (hk : ∀ e a, kindAt h' e = some a → kindAt h e = some a)
    (hm : ∀ e x, cr h' e x ≤ cr h e x) (hD : Downs h) : Downs h' := by
  have old : ∀ c r d, (r, d) ∈ refsAt h' c → (r, d) ∈ refsAt h c ∧ kindAt h' c = kindAt h c ∧ kindAt h' d = kindAt h d := by
    intro c r d hm'
    have m := Nat.lt_of_lt_of_le (cr_pos.mpr hm') (hm c (r, d))
    obtain ⟨a, ha⟩ := kind_of_live (alive_of_ref hm')
    obtain ⟨b, hb⟩ := kind_of_live (live_of hI (cr_pos.mpr hm'))
    exact ⟨cr_pos.mp m, by rw [ha, hk _ _ ha], by rw [hb, hk _ _ hb]⟩
  intro c d
  refine ⟨fun g => ?_, fun g => ?_⟩
  · obtain ⟨o1, _, o3⟩ := old _ _ _ g
    rw [o3]; exact (hD c d).1 o1
  · obtain ⟨o1, o2, o3⟩ := old _ _ _ g
    rw [o2, o3]; exact (hD c d).2 o1

theorem disconnect_all {h : Cells} {R : Nat → Nat} {c d : Nat} (hI : RInv h R) (hT : TInv h) (hG : Good All h) (hm : (.conn, d) ∈ refsAt h c) :
    ∃ h', disconnect (depth h c + 1) c (.conn, d) h = some h' ∧ Ok h h' R False True none (some (c, .conn, d)) := by
  obtain ⟨a, b, g1, g2, g3⟩ := hT _ _ _ hm
  obtain ⟨h', e1, D, v, f⟩ := disconnect_ok (depth h c + 1) c .conn d h R All a hI hT hG g1 hm (by rw [depth_eq g1]; omega)
    (fun _ _ _ _ => trivial) (.inl rfl)
  exact ⟨h', e1, D.rc, D.ty, D.good, fun f => f.elim, fun _ hD => downs_less D.rc D.kind D.mono hD,
    fun e he r d' n1 n2 => by have := f e he _ (not_small n1 n2 (x := (r, d'))); rw [← this, opt_none, opt_some, Nat.add_zero]⟩

theorem register_all {h : Cells} {R : Nat → Nat} {c d : Nat} {a b : Kind} {p q : Prop} (hI : RInv h R) (hT : TInv h) (hG : Good All h)
    (hc : kindAt h c = some a) (hd : kindAt h d = some b) (ha : b.depth < a.depth) (hb : b ≠ .comp) :
    ∃ h', register c d h = some h' ∧ Ok h h' R p q (some (c, .source, d)) none := by
  obtain ⟨h1, e1, i1, t1, l1, k1, q1, x1⟩ := link_all (r := .source) hI hT hc hd ⟨ha, hb⟩
  obtain ⟨oc, fc⟩ := hG c trivial
  have G1 : Good (fun l => l ≠ c) h1 := fun l hl => link_good k1 q1 x1 hl (by simp) (hG l trivial).1 (hG l trivial).2
  have s1 : cr h1 c (.self, c) = cr h c (.self, c) := skip x1 (by simp)
  have m1 : ∀ e x, cr h e x ≤ cr h1 e x := fun e x => by rw [x1]; omega
  have hs1 : hasSinks h1 c = hasSinks h c := by
    rw [Bool.eq_iff_iff, hasSinks_iff, hasSinks_iff]
    simp only [skip x1 (e := c) (show (Role.source, d) ≠ (.conn, _) by simp), skip x1 (e := c) (show (Role.source, d) ≠ (.feed, _) by simp)]
  have dn1 : Downs h → Downs h1 := by
    intro hD e d'
    rw [k1, k1]
    refine ⟨fun hm => (hD e d').1 (cr_pos.mp ?_), fun hm => (hD e d').2 (cr_pos.mp ?_)⟩
    · rw [← skip x1 (e := e) (show (Role.source, d) ≠ (.conn, d') by simp)]; exact cr_pos.mpr hm
    · rw [← skip x1 (e := e) (show (Role.source, d) ≠ (.kept, d') by simp)]; exact cr_pos.mpr hm
  unfold register
  simp only [e1]
  by_cases g : attached h1 c = true
  · rw [if_pos g]
    have sp : 0 < cr h1 c (.self, c) := (attached_iff t1).mp g
    obtain ⟨h2, e2, C, f⟩ := connect_ok (depth h1 d + 1) d .feed c h1 R (fun l => l ≠ c) b a i1 t1 G1 ((k1 d).trans hd) ((k1 c).trans hc) hb
      (by rw [depth_eq ((k1 d).trans hd)]; omega) (fun e k g1 g2 ee => by
        rw [ee, k1, hc] at g1; injection g1 with g1; subst g1; omega) (.inr ⟨rfl, fun f => f rfl, ha⟩)
    have ns : ∀ r', ¬ Small h1 b.depth (r', c) := by
      rintro r' ⟨_, k, g1, g2⟩
      have g1 : kindAt h1 c = some k := g1
      rw [k1, hc] at g1; injection g1 with g1; subst g1; omega
    have s2 : cr h2 c (.self, c) = cr h1 c (.self, c) := by rw [f c _ (ns .self)]; simp
    refine ⟨h2, e2, C.rc, C.ty, fun l _ => ?_, fun _ => .of_mono fun e x =>
      Nat.le_trans (m1 _ _) (C.mono _ _), fun _ hD e d' => ?_, fun e _ r d' n1 n2 => ?_⟩
    rotate_left 2
    · rw [f e _ (not_small n1 n2), if_neg (fun w => n2 (by have := w.2; injection this)), x1, opt_none, opt_some, Nat.add_zero]
    · by_cases gl : l = c
      · subst gl
        refine ⟨?_, fun s => ?_⟩
        · unfold One at *
          rw [s2, s1, oc, isLogger_congr ((C.kind l).trans (k1 l))]
          rw [s1, oc] at sp
          have cond : isLogger h l = true ∧ hasSinks h l = true := by
            by_contra w
            rw [if_neg w] at sp; exact Nat.lt_irrefl _ sp
          rw [if_pos cond, if_pos]
          refine ⟨cond.1, hasSinks_iff.mpr ?_⟩
          obtain ⟨d', w⟩ := hasSinks_iff.mp (hs1.trans cond.2)
          refine ⟨d', w.imp (fun w => Nat.lt_of_lt_of_le w (C.mono _ _)) (fun w => Nat.lt_of_lt_of_le w (C.mono _ _))⟩
        · rw [s2, if_pos sp, f s _ (ns .feed), f l (.source, s) (by rintro ⟨g | g, _⟩ <;> cases g), x1, x1, fc s, if_pos (by omega)]
          by_cases w : s = d
          · subst w; simp
          · simp [w]
      · exact C.good l gl
    · rw [C.kind, C.kind]
      refine ⟨fun hm => (dn1 hD e d').1 (cr_pos.mp ?_), fun hm => (dn1 hD e d').2 (cr_pos.mp ?_)⟩
      · have := f e (.conn, d') (by rintro ⟨g | g, _⟩ <;> cases g)
        rw [if_neg (by simp)] at this
        have := cr_pos.mpr hm; omega
      · have := f e (.kept, d') (by rintro ⟨g | g, _⟩ <;> cases g)
        rw [if_neg (by simp)] at this
        have := cr_pos.mpr hm; omega
  · rw [if_neg g]
    have sp : cr h1 c (.self, c) = 0 := by
      rcases Nat.eq_zero_or_pos (cr h1 c (.self, c)) with w | w
      · exact w
      · exact absurd ((attached_iff t1).mpr w) g
    refine ⟨h1, rfl, i1, t1, fun l _ => ?_, fun _ => .of_mono m1, fun _ hD => dn1 hD,
      fun e _ r d' _ _ => by rw [x1, opt_none, opt_some, Nat.add_zero]⟩
    by_cases gl : l = c
    · subst gl
      refine ⟨?_, fun s => ?_⟩
      · unfold One at *
        rw [s1, oc, isLogger_congr (k1 l), hs1]
      · rw [sp, if_neg (Nat.lt_irrefl _), skip x1 (by simp), fc s, ← s1, sp, if_neg (Nat.lt_irrefl _)]
    · exact G1 l gl

theorem sinks_same {h h' : Cells} {c : Nat} (h1 : ∀ d, cr h' c (.conn, d) = cr h c (.conn, d)) (h2 : ∀ d, cr h' c (.feed, d) = cr h c (.feed, d)) :
    hasSinks h' c = hasSinks h c := by
  rw [Bool.eq_iff_iff, hasSinks_iff, hasSinks_iff]
  simp only [h1, h2]

theorem mono_of {h h' : Cells} {c : Nat} {x : Role × Nat}
    (hx : ∀ e, Live h' e → ∀ y, cr h' e y + (if e = c ∧ y = x then 1 else 0) = cr h e y) (e : Nat) (y : Role × Nat) : cr h' e y ≤ cr h e y := by
  by_cases q : Live h' e
  · have := hx e q y; omega
  · rw [cr_dead _ q]; omega

theorem unregister_all {h : Cells} {R : Nat → Nat} {c d : Nat} (hI : RInv h R) (hT : TInv h) (hG : Good All h) (hR : 0 < R c)
    (hm : (.source, d) ∈ refsAt h c) : ∃ h', unregister c d h = some h' ∧ Ok h h' R False True none (some (c, .source, d)) := by
  obtain ⟨a, b, g1, g2, g3⟩ := hT _ _ _ hm
  obtain ⟨oc, fc⟩ := hG c trivial
  have lv : ∀ {h' : Cells}, RInv h' R → Live h' c := by
    intro h' hI'
    apply alive_of_rc
    have := hI'.eq c
    omega
  have kd : a.depth ≠ b.depth := by have := g3.1; omega
  unfold unregister
  by_cases g : attached h c = true
  · rw [if_pos g]
    have sp : 0 < cr h c (.self, c) := (attached_iff hT).mp g
    have fm : (.feed, c) ∈ refsAt h d := cr_pos.mp (by rw [fc d, if_pos sp]; exact cr_pos.mpr hm)
    obtain ⟨h1, e1, D, v, f⟩ := disconnect_ok (depth h d + 1) d .feed c h R (fun l => l ≠ c) b hI hT (fun l _ => hG l trivial) g2 fm
      (by rw [depth_eq g2]; omega) (fun e k w1 w2 ee => by
        rw [ee, g1] at w1; injection w1 with w1; subst w1; have := g3.1; omega) (.inr ⟨rfl, fun w => w rfl⟩)
    have lc1 := lv D.rc
    have ns : ∀ r' l k, kindAt h l = some k → a.depth ≤ k.depth → ¬ Small h b.depth (r', l) := by
      rintro r' l k hk hd ⟨_, k', w1, w2⟩
      have w1 : kindAt h l = some k' := w1
      rw [hk] at w1; injection w1 with w1; subst w1; have := g3.1; omega
    have c1 : ∀ x, ¬ Small h b.depth x → cr h1 c x = cr h c x := by
      intro x hx
      have := f c lc1 x hx
      rw [if_neg] at this
      · omega
      · rintro ⟨w, _⟩
        rw [w, g2] at g1
        injection g1 with g1
        exact kd (by rw [g1])
    have src1 : ∀ s, cr h1 c (.source, s) = cr h c (.source, s) := fun s => c1 _ (by rintro ⟨w | w, _⟩ <;> cases w)
    have sp1 : cr h1 c (.self, c) = cr h c (.self, c) := c1 _ (ns .self c a g1 (Nat.le_refl _))
    have sk1 : hasSinks h1 c = hasSinks h c := by
      apply sinks_same
      · intro d'; exact c1 _ (by rintro ⟨w | w, _⟩ <;> cases w)
      · intro d'
        rcases Nat.eq_zero_or_pos (cr h c (.feed, d')) with w | w
        · have := D.mono c (.feed, d'); omega
        · obtain ⟨a', b', w1, w2, w3⟩ := hT _ _ _ (cr_pos.mp w)
          rw [g1] at w1; injection w1 with w1; subst w1
          exact c1 _ (ns .feed d' b' w2 (Nat.le_of_lt w3.2))
    have m1 : (.source, d) ∈ refsAt h1 c := cr_pos.mp (by rw [src1]; exact cr_pos.mpr hm)
    obtain ⟨h2, e2, i2, t2, l2, k2, q2, x2, v2⟩ := clear_all D.rc D.ty m1
    simp only [e1]
    have lc2 := lv i2
    refine ⟨h2, e2, i2, t2, fun l _ => ?_, fun w => w.elim, fun _ hD => downs_less i2 (fun e k w => D.kind _ _ (k2 _ _ w))
      (fun e x => Nat.le_trans (mono_of x2 e x) (D.mono e x)) hD, fun e he r d' n1 n2 => ?_⟩
    swap
    · have he1 : Live h1 e := by
        obtain ⟨k, w⟩ := kind_of_live he
        exact alive_of_kind (k2 _ _ w)
      have y1 := f e he1 _ (not_small n1 n2 (x := (r, d')))
      rw [if_neg (fun w => n2 (by have := w.2; injection this))] at y1
      have y2 := x2 e he (r, d')
      rw [opt_none, opt_some]
      omega
    by_cases gl : l = c
    · subst gl
      have s2 : cr h2 l (.self, l) = cr h l (.self, l) := by
        have := x2 l lc2 (.self, l)
        rw [if_neg (by simp)] at this; omega
      have sk2 : hasSinks h2 l = hasSinks h1 l := by
        apply sinks_same
        · intro d'
          have := x2 l lc2 (.conn, d')
          rw [if_neg (by simp)] at this; omega
        · intro d'
          have := x2 l lc2 (.feed, d')
          rw [if_neg (by simp)] at this; omega
      have kl : kindAt h2 l = kindAt h l := by
        obtain ⟨k, w⟩ := kind_of_live lc2
        rw [w, D.kind _ _ (k2 _ _ w)]
      refine ⟨?_, fun s => ?_⟩
      · unfold One at *
        rw [s2, oc, isLogger_congr kl, sk2, sk1]
      · rw [s2, if_pos sp]
        have y := x2 l lc2 (.source, s)
        rw [src1] at y
        by_cases w : Live h2 s
        · have w1 : Live h1 s := by
            obtain ⟨k, w⟩ := kind_of_live w
            exact alive_of_kind (k2 _ _ w)
          have y2 := x2 s w (.feed, l)
          rw [if_neg (by simp)] at y2
          have y1 := f s w1 (.feed, l) (ns .feed l a g1 (Nat.le_refl _))
          rw [fc s, if_pos sp] at y1
          by_cases z : s = d
          · subst z; simp at y y1; omega
          · simp [z] at y y1; omega
        · rw [cr_dead _ w]
          rcases Nat.eq_zero_or_pos (cr h2 l (.source, s)) with z | z
          · exact z.symm
          · exact absurd (live_of i2 z) w
    · exact clear_good i2 k2 q2 x2 (by simp) (fun w => absurd w gl) (D.good l gl).1 (D.good l gl).2
  · rw [if_neg g]
    have sp : cr h c (.self, c) = 0 := by
      rcases Nat.eq_zero_or_pos (cr h c (.self, c)) with w | w
      · exact w
      · exact absurd ((attached_iff hT).mpr w) g
    obtain ⟨h2, e2, i2, t2, l2, k2, q2, x2, v2⟩ := clear_all hI hT hm
    have lc2 := lv i2
    refine ⟨h2, e2, i2, t2, fun l _ => ?_, fun w => w.elim, fun _ hD => downs_less i2 k2 (mono_of x2) hD,
      fun e he r d' _ _ => by rw [← x2 e he (r, d'), opt_none, opt_some, Nat.add_zero]⟩
    by_cases gl : l = c
    · subst gl
      have s2 : cr h2 l (.self, l) = cr h l (.self, l) := by
        have := x2 l lc2 (.self, l)
        rw [if_neg (by simp)] at this; omega
      have sk2 : hasSinks h2 l = hasSinks h l := by
        apply sinks_same
        · intro d'
          have := x2 l lc2 (.conn, d')
          rw [if_neg (by simp)] at this; omega
        · intro d'
          have := x2 l lc2 (.feed, d')
          rw [if_neg (by simp)] at this; omega
      have kl : kindAt h2 l = kindAt h l := by
        obtain ⟨k, w⟩ := kind_of_live lc2
        rw [w, k2 _ _ w]
      refine ⟨?_, fun s => ?_⟩
      · unfold One at *
        rw [s2, oc, isLogger_congr kl, sk2]
      · rw [s2, sp, if_neg (Nat.lt_irrefl _)]
        have := mono_of x2 s (.feed, l)
        have := fc s
        rw [sp, if_neg (Nat.lt_irrefl _)] at this
        omega
    · exact clear_good i2 k2 q2 x2 (by simp) (fun w => absurd w gl) (hG l trivial).1 (hG l trivial).2

theorem quiet_link {h : Cells} {R : Nat → Nat} {c d : Nat} {r : Role} {a b : Kind} {p : Prop} (hI : RInv h R) (hT : TInv h) (hG : Good All h)
    (hc : kindAt h c = some a) (hd : kindAt h d = some b) (ht : Ty r c d a b) (hq : Quiet r) :
    ∃ h', link c r d h = some h' ∧ Ok h h' R p (r = .kept → b = .comp ∧ (a = .comp → d < c)) (some (c, r, d)) none ∧ ∀ e, kindAt h' e = kindAt h e := by
  obtain ⟨h1, e1, i1, t1, l1, k1, q1, x1⟩ := link_all (r := r) hI hT hc hd ht
  have nr : ∀ r' d', ¬ Quiet r' → (r, d) ≠ (r', d') := by
    rintro r' d' hn e
    injection e with e _
    exact hn (e ▸ hq)
  have n1 : ¬ Quiet .self := by rintro (e | e) <;> cases e
  have n2 : ¬ Quiet .conn := by rintro (e | e) <;> cases e
  have n3 : ¬ Quiet .feed := by rintro (e | e) <;> cases e
  have n4 : ¬ Quiet .source := by rintro (e | e) <;> cases e
  refine ⟨h1, e1, ⟨i1, t1, fun l _ => ?_, fun _ => .of_mono fun e y => by rw [x1]; omega, fun hp hD e d' => ?_,
    fun e _ r' d' _ _ => by rw [x1, opt_none, opt_some, Nat.add_zero]⟩, k1⟩
  · refine ⟨?_, fun s => ?_⟩
    · unfold One
      rw [skip x1 (nr _ _ n1), isLogger_congr (k1 l), sinks_same (fun d' => skip x1 (nr _ _ n2)) (fun d' => skip x1 (nr _ _ n3)), (hG l trivial).1]
    · rw [skip x1 (nr _ _ n1), skip x1 (nr _ _ n3), skip x1 (nr _ _ n4), (hG l trivial).2 s]
  · rw [k1, k1]
    refine ⟨fun hm => (hD e d').1 (cr_pos.mp ?_), fun hm => ?_⟩
    · rw [← skip x1 (nr _ _ n2)]; exact cr_pos.mpr hm
    · by_cases g : e = c ∧ (Role.kept, d') = (r, d)
      · obtain ⟨rfl, g⟩ := g
        injection g with ga gb
        subst gb
        obtain ⟨w1, w2⟩ := hp ga.symm
        rw [hd, hc]
        exact ⟨by rw [w1], fun w => w2 (by injection w)⟩
      · apply (hD e d').2
        apply cr_pos.mp
        have := x1 e (.kept, d')
        rw [if_neg g] at this
        have := cr_pos.mpr hm
        omega

theorem quiet_clear {h : Cells} {R : Nat → Nat} {c : Nat} {x : Role × Nat} {p : Prop} (hI : RInv h R) (hT : TInv h) (hG : Good All h)
    (hm : x ∈ refsAt h c) (hq : Quiet x.1) :
    ∃ h', clear c x h = some h' ∧ Ok h h' R p True none (some (c, x)) ∧ ∀ e a, kindAt h' e = some a → kindAt h e = some a := by
  obtain ⟨h2, e2, i2, t2, l2, k2, q2, x2, v2⟩ := clear_all hI hT hm
  have nr : ∀ r' d', ¬ Quiet r' → (r', d') ≠ x := by
    rintro r' d' hn e
    subst e
    exact hn hq
  have n1 : ¬ Quiet .self := by rintro (e | e) <;> cases e
  have n2 : ¬ Quiet .conn := by rintro (e | e) <;> cases e
  have n3 : ¬ Quiet .feed := by rintro (e | e) <;> cases e
  have n4 : ¬ Quiet .source := by rintro (e | e) <;> cases e
  refine ⟨h2, e2, ⟨i2, t2, fun l _ => ?_, fun _ e hm y hy hn => ?_, fun _ hD => downs_less i2 k2 (mono_of x2) hD,
    fun e he r' d' _ _ => by rw [← x2 e he (r', d'), opt_none, opt_some, Nat.add_zero]⟩, k2⟩
  · refine clear_good i2 k2 q2 x2 (nr _ _ n3).symm (fun _ => ⟨fun w => n1 (w ▸ hq), fun w => n4 (w ▸ hq), fun w => ?_⟩) (hG l trivial).1
      (hG l trivial).2
    have lc : Live h2 c := by
      unfold isLogger at w
      cases z : kindAt h2 c with
      | none => rw [z] at w; cases w
      | some k => exact alive_of_kind z
    apply sinks_same
    · intro d'
      have := x2 c lc (.conn, d')
      rw [if_neg (fun w => nr _ _ n2 w.2)] at this; omega
    · intro d'
      have := x2 c lc (.feed, d')
      rw [if_neg (fun w => nr _ _ n3 w.2)] at this; omega
  · have lv := v2 e hm (.inr (nr _ _ n1).symm)
    have := x2 e lv y
    rw [if_neg (fun w => nr y.1 y.2 hn w.2)] at this
    exact cr_pos.mp (by have := cr_pos.mpr hy; omega)

theorem release_all {h : Cells} {R : Nat → Nat} {c : Nat} {p : Prop} (hI : RInv h (fun d => R d + if d = c then 1 else 0)) (hT : TInv h)
    (hG : Good All h) : ∃ h', release c h = some h' ∧ Ok h h' R p True none none := by
  obtain ⟨h', e1, i1, F, S⟩ := release_ok hI
  have kk : ∀ e a, kindAt h' e = some a → kindAt h e = some a := by
    intro e a ha
    obtain ⟨y, hy⟩ := alive_of_kind ha
    obtain ⟨x, hx, w1, _⟩ := F.keep e y hy
    rw [kindAt_some hy] at ha
    rw [kindAt_some hx, w1]; exact ha
  have rr : ∀ e, Live h' e → refsAt h' e = refsAt h e := by
    rintro e ⟨y, hy⟩
    obtain ⟨x, hx, _, w⟩ := F.keep e y hy
    rw [refsAt_some hy, refsAt_some hx, w]
  have nl : ¬ Live h' h.length := by
    rintro ⟨y, hy⟩
    have := lt_of_get hy
    rw [F.len] at this
    exact Nat.lt_irrefl _ this
  have xx : ∀ e, Live h' e → ∀ y, cr h' e y + (if e = h.length ∧ y = (Role.kept, 0) then 1 else 0) = cr h e y := by
    intro e he y
    rw [if_neg (fun (w : e = h.length ∧ y = (Role.kept, 0)) => nl (w.1 ▸ he))]
    unfold cr
    rw [rr e he]; rfl
  refine ⟨h', e1, i1, fun c r d hm => ?_, fun l _ => ?_, fun _ l hm y hy _ => ?_, fun _ hD => downs_less i1 kk (mono_of xx) hD,
    fun e he r d _ _ => by unfold cr; rw [rr e he]⟩
  · have w := hm
    rw [rr c (alive_of_ref hm)] at w
    obtain ⟨a, b, g1, g2, g3⟩ := hT c r d w
    obtain ⟨a', ha⟩ := kind_of_live (alive_of_ref hm)
    obtain ⟨b', hb⟩ := kind_of_live (live_of i1 (cr_pos.mpr hm))
    have e1 := kk _ _ ha
    rw [g1] at e1; injection e1 with e1; subst e1
    have e2 := kk _ _ hb
    rw [g2] at e2; injection e2 with e2; subst e2
    exact ⟨_, _, ha, hb, g3⟩
  · refine clear_good i1 kk (fun e he _ => rr e he) xx (by simp) (fun _ => ⟨by simp, by simp, fun z => ?_⟩) (hG l trivial).1 (hG l trivial).2
    exfalso
    unfold isLogger at z
    cases y : kindAt h' h.length with
    | none => rw [y] at z; cases z
    | some k => exact nl (alive_of_kind y)
  · have := S (fun e => e = l) (fun d hd => ⟨d, .self, hd, by subst hd; exact hm⟩)
    rw [rr l (closed_alive i1 this rfl)]
    exact hy

theorem setFilter_all {h : Cells} {R : Nat → Nat} {c : Nat} {d : Option Nat} {a : Kind} {p q : Prop} (hI : RInv h R) (hT : TInv h)
    (hG : Good All h) (hc : kindAt h c = some a) (ha : 0 < a.depth) (hR : 0 < R c) (hd : ∀ d', d = some d' → 0 < R d' ∧ kindAt h d' = some .comp) :
    ∃ h', setFilter c d h = some h' ∧ Ok h h' R p q (d.map fun d => (c, .filter, d))
      (((refsAt h c).find? fun e => e.1 == .filter).map fun e => (c, e)) := by
  have lv : ∀ {h' : Cells} {e : Nat}, RInv h' R → 0 < R e → Live h' e := by
    intro h' e hI' hE
    apply alive_of_rc
    have := hI'.eq e
    omega
  have first : ∃ h1, clearFilter c h = some h1 ∧ Ok h h1 R p True none (((refsAt h c).find? fun e => e.1 == .filter).map fun e => (c, e)) ∧
      ∀ e a, kindAt h1 e = some a → kindAt h e = some a := by
    unfold clearFilter
    cases w : (refsAt h c).find? fun e => e.1 == .filter with
    | none => exact ⟨h, rfl, ⟨hI, hT, hG, fun _ _ _ _ m _ => m, fun _ z => z, fun _ _ _ _ _ _ => by simp⟩, fun _ _ z => z⟩
    | some e =>
      have z := List.find?_some w
      simp only [beq_iff_eq] at z
      exact quiet_clear hI hT hG (List.mem_of_find?_eq_some w) (.inl z)
  obtain ⟨h1, e1, O1, k1⟩ := first
  unfold setFilter
  rw [e1]
  cases d with
  | none => exact ⟨h1, rfl, O1.rc, O1.ty, O1.good, O1.keep, fun _ => O1.downs trivial, O1.fr⟩
  | some d =>
    obtain ⟨hRd, hdk⟩ := hd d rfl
    have kc : kindAt h1 c = some a := by
      obtain ⟨k, w⟩ := kind_of_live (lv O1.rc hR)
      have := k1 _ _ w
      rw [hc] at this; injection this with this; subst this; exact w
    have kd : kindAt h1 d = some .comp := by
      obtain ⟨k, w⟩ := kind_of_live (lv O1.rc hRd)
      have := k1 _ _ w
      rw [hdk] at this; injection this with this; subst this; exact w
    obtain ⟨h2, e2, O2, k2⟩ := quiet_link (p := p) (r := .filter) O1.rc O1.ty O1.good kc kd ⟨ha, rfl⟩ (.inl rfl)
    refine ⟨h2, e2, O2.rc, O2.ty, O2.good, fun w c hm x hx hn =>
      O2.keep w c (O1.keep w c hm _ hm (by rintro (e | e) <;> cases e)) x (O1.keep w c hm x hx hn) hn, fun _ hD => O2.downs (fun w => by cases w) (O1.downs trivial hD), fun e he r d' n1 n2 => ?_⟩
    have y1 := O1.fr e (by obtain ⟨k, w⟩ := kind_of_live he; exact alive_of_kind ((k2 e).symm.trans w)) r d' n1 n2
    have y2 := O2.fr e he r d' n1 n2
    rw [Option.map_some]
    rw [opt_none] at y1 y2
    omega

/-! ### Operations -/

structure StepOk (s s' : State) (p q : Prop) (ad cu : Option (Nat × Role × Nat)) : Prop where
  inv : Inv s'
  keep : p → Keeps s.cells s'.cells
  downs : q → Downs s.cells → Downs s'.cells
  fr : ∀ e, Live s'.cells e → ∀ r d, r ≠ Role.self → r ≠ Role.feed →
    cr s'.cells e (r, d) + (if cu = some (e, r, d) then 1 else 0) = cr s.cells e (r, d) + if ad = some (e, r, d) then 1 else 0

theorem StepOk.refl {s : State} (h : Inv s) (p q : Prop) : StepOk s s p q none none :=
  ⟨h, fun _ _ _ _ m _ => m, fun _ m => m, fun _ _ _ _ _ _ => by simp⟩

theorem of_ok {s : State} {h' : Cells} {u : List Nat} {R : Nat → Nat} {p q p' q' : Prop} {ad cu ad' cu' : Option (Nat × Role × Nat)}
    (O : Ok s.cells h' R p q ad' cu')
    (hR : ∀ c, R c = u.count c) (hp : p' → p) (hq : q' → q) (h1 : ad = ad') (h2 : cu = cu') :
    StepOk s ⟨h', u⟩ p' q' ad cu :=
  ⟨⟨by
    have : R = fun c => u.count c := funext hR
    rw [← this]; exact O.rc, O.ty, O.good⟩, fun w => O.keep (hp w), fun w => O.downs (hq w), by subst h1; subst h2; exact O.fr⟩

theorem at?_some {s : State} {c k d : Nat} {r : Role} (h : s.at? c k r = some d) : (r, d) ∈ refsAt s.cells c := by
  unfold State.at? at h
  cases e : (refsAt s.cells c)[k]? with
  | none => rw [e] at h; cases h
  | some x =>
    rw [e] at h
    by_cases g : x.1 = r
    · simp only [g, if_true] at h
      injection h with h
      subst h; subst g
      exact List.mem_of_getElem? e
    · simp [g] at h

theorem step_ok {s : State} (hI : Inv s) (o : Op) : ∃ s', s.step o = some s' ∧ StepOk s s' o.keeps (o.plain s) (o.adds s) (o.cuts s) := by
  have none_case : ∀ ad cu : Option (Nat × Role × Nat), ad = none → cu = none →
      ∃ s', some s = some s' ∧ StepOk s s' o.keeps (o.plain s) ad cu := fun ad cu h1 h2 => ⟨s, rfl, by subst h1; subst h2; exact .refl hI _ _⟩
  have uk : ∀ {i c : Nat}, s.user[i]? = some c → ∃ a, kindAt s.cells c = some a := fun h => kind_of_live (hI.live_user (List.mem_of_getElem? h))
  have up : ∀ {i c : Nat}, s.user[i]? = some c → 0 < s.user.count c := fun h => List.count_pos_iff.mpr (List.mem_of_getElem? h)
  cases o with
  | create k =>
    refine ⟨_, rfl, of_ok (push_all (k := k) (p := True) (q := True) hI.rc hI.ty hI.good) (fun c => ?_) (fun _ => trivial) (fun _ => trivial) (by simp_all [Op.adds]) (by simp_all [Op.cuts])⟩
    rw [List.count_cons]
    by_cases g : c = s.cells.length
    · simp [g]
    · have : ¬ (s.cells.length = c) := fun h => g h.symm
      simp [g, this]
  | connect i j =>
    simp only [State.step]
    cases hi : s.user[i]? with
    | none => exact none_case _ _ (by simp_all [Op.adds]) (by simp_all [Op.cuts])
    | some c =>
      cases hj : s.user[j]? with
      | none => exact none_case _ _ (by simp_all [Op.adds]) (by simp_all [Op.cuts])
      | some d =>
        simp only
        by_cases g : kindAt s.cells c ≠ some .comp ∧ kindAt s.cells d ≠ some .source
        · rw [if_pos g]
          obtain ⟨a, ha⟩ := uk hi
          obtain ⟨b, hb⟩ := uk hj
          obtain ⟨h', e, O⟩ := connect_all (p := True) hI.rc hI.ty hI.good ha hb (fun w => g.1 (by rw [ha, w]))
          refine ⟨⟨h', s.user⟩, by rw [e]; rfl, of_ok O (fun _ => rfl) (fun _ => trivial) (fun w => ?_) (by simp_all [Op.adds]) (by simp_all [Op.cuts])⟩
          have := w d hj
          rw [hb] at this; injection this
        · rw [if_neg g]; exact none_case _ _ (by simp_all [Op.adds]) (by simp_all [Op.cuts])
  | disconnect i k =>
    simp only [State.step]
    cases hi : s.user[i]? with
    | none => exact none_case _ _ (by simp_all [Op.adds]) (by simp_all [Op.cuts])
    | some c =>
      simp only
      cases hk : s.at? c k .conn with
      | none => exact none_case _ _ (by simp_all [Op.adds]) (by simp_all [Op.cuts])
      | some d =>
        obtain ⟨h', e, O⟩ := disconnect_all hI.rc hI.ty hI.good (at?_some hk)
        exact ⟨⟨h', s.user⟩, by simp only [e]; rfl, of_ok O (fun _ => rfl) (fun w => w.elim) (fun _ => trivial) (by simp_all [Op.adds]) (by simp_all [Op.cuts])⟩
  | register i j =>
    simp only [State.step]
    cases hi : s.user[i]? with
    | none => exact none_case _ _ (by simp_all [Op.adds]) (by simp_all [Op.cuts])
    | some c =>
      cases hj : s.user[j]? with
      | none => exact none_case _ _ (by simp_all [Op.adds]) (by simp_all [Op.cuts])
      | some d =>
        simp only
        by_cases g : fits s.cells c d = true
        · rw [if_pos g]
          obtain ⟨a, ha⟩ := uk hi
          obtain ⟨b, hb⟩ := uk hj
          have w : b.depth < a.depth ∧ b ≠ .comp := by
            unfold fits at g
            rw [ha, hb] at g
            cases a <;> cases b <;> simp_all [Kind.depth]
          obtain ⟨h', e, O⟩ := register_all (p := True) (q := True) hI.rc hI.ty hI.good ha hb w.1 w.2
          exact ⟨⟨h', s.user⟩, by rw [e]; rfl, of_ok O (fun _ => rfl) (fun _ => trivial) (fun _ => trivial) (by simp_all [Op.adds]) (by simp_all [Op.cuts])⟩
        · rw [if_neg g]; exact none_case _ _ (by simp_all [Op.adds]) (by simp_all [Op.cuts])
  | unregister i k =>
    simp only [State.step]
    cases hi : s.user[i]? with
    | none => exact none_case _ _ (by simp_all [Op.adds]) (by simp_all [Op.cuts])
    | some c =>
      simp only
      cases hk : s.at? c k .source with
      | none => exact none_case _ _ (by simp_all [Op.adds]) (by simp_all [Op.cuts])
      | some d =>
        obtain ⟨h', e, O⟩ := unregister_all hI.rc hI.ty hI.good (up hi) (at?_some hk)
        exact ⟨⟨h', s.user⟩, by simp only [e]; rfl, of_ok O (fun _ => rfl) (fun w => w.elim) (fun _ => trivial) (by simp_all [Op.adds]) (by simp_all [Op.cuts])⟩
  | setFilter i j =>
    cases j with
    | none =>
      simp only [State.step]
      cases hi : s.user[i]? with
      | none => exact none_case _ _ (by simp_all [Op.adds]) (by simp_all [Op.cuts])
      | some c =>
        simp only
        by_cases g : isLogger s.cells c = true
        · rw [if_pos g]
          obtain ⟨a, ha⟩ := uk hi
          obtain ⟨h', e, O⟩ := setFilter_all (p := True) (q := True) (d := none) hI.rc hI.ty hI.good ha ((isLogger_iff ha).mp g) (up hi)
            (fun _ w => by cases w)
          exact ⟨⟨h', s.user⟩, by rw [e]; rfl, of_ok O (fun _ => rfl) (fun _ => trivial) (fun _ => trivial) (by simp_all [Op.adds]) (by simp_all [Op.cuts])⟩
        · rw [if_neg g]; exact none_case _ _ (by simp_all [Op.adds]) (by simp_all [Op.cuts])
    | some j =>
      simp only [State.step]
      cases hi : s.user[i]? with
      | none => exact none_case _ _ (by simp_all [Op.adds]) (by simp_all [Op.cuts])
      | some c =>
        cases hj : s.user[j]? with
        | none => exact none_case _ _ (by simp_all [Op.adds]) (by simp_all [Op.cuts])
        | some d =>
          simp only
          by_cases g : isLogger s.cells c = true ∧ kindAt s.cells d = some .comp
          · rw [if_pos g]
            obtain ⟨a, ha⟩ := uk hi
            obtain ⟨h', e, O⟩ := setFilter_all (p := True) (q := True) (d := some d) hI.rc hI.ty hI.good ha ((isLogger_iff ha).mp g.1) (up hi)
              (fun d' w => by injection w with w; subst w; exact ⟨up hj, g.2⟩)
            exact ⟨⟨h', s.user⟩, by rw [e]; rfl, of_ok O (fun _ => rfl) (fun _ => trivial) (fun _ => trivial) (by simp_all [Op.adds]) (by simp_all [Op.cuts])⟩
          · rw [if_neg g]; exact none_case _ _ (by simp_all [Op.adds]) (by simp_all [Op.cuts])
  | keep i j =>
    simp only [State.step]
    cases hi : s.user[i]? with
    | none => exact none_case _ _ (by simp_all [Op.adds]) (by simp_all [Op.cuts])
    | some c =>
      cases hj : s.user[j]? with
      | none => exact none_case _ _ (by simp_all [Op.adds]) (by simp_all [Op.cuts])
      | some d =>
        simp only
        by_cases g : isLogger s.cells c = false
        · rw [if_pos g]
          obtain ⟨a, ha⟩ := uk hi
          obtain ⟨b, hb⟩ := uk hj
          have w : a.depth = 0 := by
            rcases Nat.eq_zero_or_pos a.depth with w | w
            · exact w
            · rw [(isLogger_iff ha).mpr w] at g; cases g
          obtain ⟨h', e, O, _⟩ := quiet_link (p := True) (r := .kept) hI.rc hI.ty hI.good ha hb w (.inr rfl)
          refine ⟨⟨h', s.user⟩, by rw [e]; rfl, of_ok O (fun _ => rfl) (fun _ => trivial) (fun w _ => ?_) (by simp_all [Op.adds]) (by simp_all [Op.cuts])⟩
          obtain ⟨w1, w2⟩ := w c d hi hj
          rw [hb] at w1
          rw [ha] at w2
          exact ⟨by injection w1, fun z => w2 (by rw [z])⟩
        · rw [if_neg g]; exact none_case _ _ (by simp_all [Op.adds]) (by simp_all [Op.cuts])
  | forget i k =>
    simp only [State.step]
    cases hi : s.user[i]? with
    | none => exact none_case _ _ (by simp_all [Op.adds]) (by simp_all [Op.cuts])
    | some c =>
      simp only
      cases hk : s.at? c k .kept with
      | none => exact none_case _ _ (by simp_all [Op.adds]) (by simp_all [Op.cuts])
      | some d =>
        obtain ⟨h', e, O, _⟩ := quiet_clear (p := True) hI.rc hI.ty hI.good (at?_some hk) (.inr rfl)
        exact ⟨⟨h', s.user⟩, by simp only [e]; rfl, of_ok O (fun _ => rfl) (fun _ => trivial) (fun _ => trivial) (by simp_all [Op.adds]) (by simp_all [Op.cuts])⟩
  | copy i =>
    simp only [State.step]
    cases hi : s.user[i]? with
    | none => exact none_case _ _ (by simp_all [Op.adds]) (by simp_all [Op.cuts])
    | some c =>
      obtain ⟨h', e, i1, l1, k1, r1⟩ := addRef_ok hI.rc (hI.live_user (List.mem_of_getElem? hi))
      refine ⟨⟨h', c :: s.user⟩, by simp only [e]; rfl, of_ok (same_ok (p := True) (q := True) i1 k1 r1 hI.ty hI.good) (fun d => ?_) (fun _ => trivial)
        (fun _ => trivial) (by simp_all [Op.adds]) (by simp_all [Op.cuts])⟩
      rw [List.count_cons]
      by_cases g : d = c
      · simp [g]
      · have : ¬ (c = d) := fun h => g h.symm
        simp [g, this]
  | drop i =>
    simp only [State.step]
    cases hi : s.user[i]? with
    | none => exact none_case _ _ (by simp_all [Op.adds]) (by simp_all [Op.cuts])
    | some c =>
      have hr : RInv s.cells (fun d => (s.user.eraseIdx i).count d + if d = c then 1 else 0) := by
        have : (fun d => (s.user.eraseIdx i).count d + if d = c then 1 else 0) = fun d => s.user.count d := by
          funext d
          have := count_eraseIdx hi d
          omega
        rw [this]; exact hI.rc
      obtain ⟨h', e, O⟩ := release_all (p := True) hr hI.ty hI.good
      exact ⟨⟨h', s.user.eraseIdx i⟩, by simp only [e]; rfl, of_ok O (fun _ => rfl) (fun _ => trivial) (fun _ => trivial) (by simp_all [Op.adds]) (by simp_all [Op.cuts])⟩

end Verif.Log.Own
