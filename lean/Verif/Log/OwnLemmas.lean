import Verif.Log.Own
import Verif.Ptr.HeapLemmas
/-! Lemmas for property C161. -/
namespace Verif.Log.Own

open Verif.Heap hiding Obj

/-! ### Counting references -/

/-- How often an object has the reference. -/
def cr (h : Cells) (c : Nat) (e : Role × Nat) : Nat := (refsAt h c).count e

/-- The object exists. -/
def Live (h : Cells) (c : Nat) : Prop := ∃ x, h[c]? = some (some x)

theorem cr_pos {h : Cells} {c : Nat} {e : Role × Nat} : 0 < cr h c e ↔ e ∈ refsAt h c := List.count_pos_iff

theorem cr_dead {h : Cells} {c : Nat} (e : Role × Nat) (hd : ¬ Live h c) : cr h c e = 0 := by
  rcases Nat.eq_zero_or_pos (cr h c e) with g | g
  · exact g
  · exact absurd (alive_of_ref (cr_pos.mp g)) hd

theorem live_of {h : Cells} {R : Nat → Nat} (hI : RInv h R) {c d : Nat} {r : Role} (hm : 0 < cr h c (r, d)) : Live h d := by
  apply alive_of_rc
  have := cnt_pos (cr_pos.mp hm)
  have := hI.eq d
  omega

theorem kind_of_live {h : Cells} {c : Nat} (hl : Live h c) : ∃ a, kindAt h c = some a := by
  obtain ⟨x, hx⟩ := hl
  exact ⟨_, kindAt_some hx⟩

/-- Which members refer to what. -/
def Ty : Role → Nat → Nat → Kind → Kind → Prop
  | .self, c, d, a, _ => d = c ∧ 0 < a.depth
  | .source, _, _, a, b => b.depth < a.depth ∧ b ≠ .comp
  | .conn, _, _, a, _ => a ≠ .comp
  | .feed, _, _, a, b => a ≠ .comp ∧ a.depth < b.depth
  | .filter, _, _, a, b => 0 < a.depth ∧ b = .comp
  | .kept, _, _, a, _ => a.depth = 0

/-- All members refer to what they should. -/
def TInv (h : Cells) : Prop := ∀ c r d, (r, d) ∈ refsAt h c → ∃ a b, kindAt h c = some a ∧ kindAt h d = some b ∧ Ty r c d a b

/-- A logger refers to itself, once, if it has sinks. -/
def One (h : Cells) (l : Nat) : Prop := cr h l (.self, l) = if isLogger h l = true ∧ hasSinks h l = true then 1 else 0

/-- The sources of a logger that refers to itself feed it, as often as they are registered; nobody feeds another one. -/
def Feed (h : Cells) (l : Nat) : Prop := ∀ s, cr h s (.feed, l) = if 0 < cr h l (.self, l) then cr h l (.source, s) else 0

def Good (P : Nat → Prop) (h : Cells) : Prop := ∀ l, P l → One h l ∧ Feed h l

theorem isLogger_iff {h : Cells} {c : Nat} {a : Kind} (ha : kindAt h c = some a) : isLogger h c = true ↔ 0 < a.depth := by
  unfold isLogger; rw [ha]
  cases a <;> simp [Kind.depth]

theorem depth_eq {h : Cells} {c : Nat} {a : Kind} (ha : kindAt h c = some a) : depth h c = a.depth := by
  unfold depth; rw [ha]

theorem isLogger_congr {h h' : Cells} {c : Nat} (e : kindAt h' c = kindAt h c) : isLogger h' c = isLogger h c := by
  unfold isLogger; rw [e]

theorem hasSinks_iff {h : Cells} {c : Nat} : hasSinks h c = true ↔ ∃ d, 0 < cr h c (.conn, d) ∨ 0 < cr h c (.feed, d) := by
  unfold hasSinks
  rw [List.any_eq_true]
  constructor
  · rintro ⟨⟨r, d⟩, hm, he⟩
    simp only [Bool.or_eq_true, beq_iff_eq] at he
    rcases he with rfl | rfl
    · exact ⟨d, .inl (cr_pos.mpr hm)⟩
    · exact ⟨d, .inr (cr_pos.mpr hm)⟩
  · rintro ⟨d, g | g⟩
    · exact ⟨_, cr_pos.mp g, by simp⟩
    · exact ⟨_, cr_pos.mp g, by simp⟩

theorem attached_iff {h : Cells} (hT : TInv h) {c : Nat} : attached h c = true ↔ 0 < cr h c (.self, c) := by
  unfold attached
  rw [List.any_eq_true]
  constructor
  · rintro ⟨⟨r, d⟩, hm, he⟩
    simp only [beq_iff_eq] at he
    subst he
    obtain ⟨a, b, _, _, h3⟩ := hT _ _ _ hm
    obtain ⟨rfl, _⟩ := h3
    exact cr_pos.mpr hm
  · intro g
    exact ⟨_, cr_pos.mp g, by simp⟩

theorem count_sources {h : Cells} {c : Nat} (d : Nat) : (sources h c).count d = cr h c (.source, d) := by
  unfold sources cr
  generalize refsAt h c = l
  induction l with
  | nil => rfl
  | cons e l ih =>
    obtain ⟨r, a⟩ := e
    by_cases g : r = .source
    · subst g
      simp only [beq_self_eq_true, List.filter_cons_of_pos, List.map_cons, List.count_cons, ih]
      by_cases f : a = d <;> simp [f]
    · have : (r == Role.source) = false := by simpa using g
      simp only [List.filter_cons, this, List.count_cons]
      have f : ¬ ((r, a) = (Role.source, d)) := by
        intro e; injection e with e1 _; exact g e1
      simp [ih, f]

/-! ### One more reference -/

theorem link_all {h : Cells} {R : Nat → Nat} {c d : Nat} {r : Role} {a b : Kind} (hI : RInv h R) (hT : TInv h) (hc : kindAt h c = some a)
    (hd : kindAt h d = some b) (ht : Ty r c d a b) :
    ∃ h', link c r d h = some h' ∧ RInv h' R ∧ TInv h' ∧ h'.length = h.length ∧ (∀ e, kindAt h' e = kindAt h e) ∧
      (∀ e, e ≠ c → refsAt h' e = refsAt h e) ∧ ∀ e x, cr h' e x = cr h e x + if e = c ∧ x = (r, d) then 1 else 0 := by
  obtain ⟨h', e1, i1, l1, k1, r1⟩ := link_ok (r := r) hI (alive_of_kind hc) (alive_of_kind hd)
  refine ⟨h', e1, i1, fun e r' d' hm => ?_, l1, k1, fun e he => by rw [r1, if_neg he], fun e x => ?_⟩
  · rw [k1, k1]
    rw [r1] at hm
    by_cases g : e = c
    · subst g
      rw [if_pos rfl] at hm
      rcases List.mem_append.mp hm with g | g
      · exact hT _ _ _ g
      · simp only [List.mem_singleton, Prod.mk.injEq] at g
        obtain ⟨rfl, rfl⟩ := g
        exact ⟨a, b, hc, hd, ht⟩
    · rw [if_neg g] at hm
      exact hT _ _ _ hm
  · unfold cr
    rw [r1]
    by_cases g : e = c
    · subst g
      rw [if_pos rfl, List.count_append, List.count_singleton]
      by_cases f : x = (r, d)
      · simp [f]
      · have : ¬ ((r, d) = x) := fun h => f h.symm
        simp [f, this]
    · simp [g]

theorem skip {h h' : Cells} {c d : Nat} {r : Role} (hx : ∀ e x, cr h' e x = cr h e x + if e = c ∧ x = (r, d) then 1 else 0) {e : Nat}
    {x : Role × Nat} (hn : (r, d) ≠ x) : cr h' e x = cr h e x := by
  rw [hx, if_neg (fun g => hn g.2.symm), Nat.add_zero]

/-- A link of the object `c` leaves others as they are. -/
theorem link_good {h h' : Cells} {c d l : Nat} {r : Role} (hk : ∀ e, kindAt h' e = kindAt h e) (hr : ∀ e, e ≠ c → refsAt h' e = refsAt h e)
    (hx : ∀ e x, cr h' e x = cr h e x + if e = c ∧ x = (r, d) then 1 else 0) (hl : l ≠ c) (hn : (r, d) ≠ (.feed, l)) (ho : One h l)
    (hf : Feed h l) : One h' l ∧ Feed h' l := by
  have e1 : ∀ x, cr h' l x = cr h l x := fun x => by unfold cr; rw [hr l hl]
  refine ⟨?_, fun s => ?_⟩
  · unfold One at *
    rw [e1, isLogger_congr (hk l), ho]
    have : hasSinks h' l = hasSinks h l := by unfold hasSinks; rw [hr l hl]
    rw [this]
  · rw [skip hx hn, e1, e1, hf s]

/-! ### Connecting -/

/-- A reference that connecting an object of depth `m` may add. -/
def Small (h : Cells) (m : Nat) (x : Role × Nat) : Prop := (x.1 = .self ∨ x.1 = .feed) ∧ ∃ a, kindAt h x.2 = some a ∧ a.depth ≤ m

structure Conn (h h' : Cells) (R : Nat → Nat) (P : Nat → Prop) : Prop where
  rc : RInv h' R
  ty : TInv h'
  good : Good P h'
  len : h'.length = h.length
  kind : ∀ e, kindAt h' e = kindAt h e
  mono : ∀ e x, cr h e x ≤ cr h' e x

def ConnOk (n : Nat) : Prop := ∀ (c : Nat) (r : Role) (d : Nat) (h : Cells) (R : Nat → Nat) (P : Nat → Prop) (a b : Kind),
  RInv h R → TInv h → Good P h → kindAt h c = some a → kindAt h d = some b → a ≠ .comp → a.depth < n →
  (∀ e k, kindAt h e = some k → k.depth ≤ a.depth → P e) → (r = .conn ∨ r = .feed ∧ ¬ P d ∧ a.depth < b.depth) →
  ∃ h', connect n c r d h = some h' ∧ Conn h h' R P ∧
    ∀ e x, ¬ Small h a.depth x → cr h' e x = cr h e x + if e = c ∧ x = (r, d) then 1 else 0

theorem connect_loop {n : Nat} (ih : ConnOk n) (c : Nat) (R : Nat → Nat) (P : Nat → Prop) (a : Kind) (hP : ¬ P c) (hn : a.depth ≤ n) :
    ∀ (L : List Nat) (h : Cells), RInv h R → TInv h → Good P h → kindAt h c = some a →
      (∀ e k, kindAt h e = some k → k.depth < a.depth → P e) → (∀ s ∈ L, ∃ k, kindAt h s = some k ∧ k ≠ .comp ∧ k.depth < a.depth) →
      ∃ h', L.foldlM (fun h s => connect n s .feed c h) h = some h' ∧ Conn h h' R P ∧
        ∀ e x, ¬ ((x.1 = .self ∨ x.1 = .feed) ∧ ∃ k, kindAt h x.2 = some k ∧ k.depth < a.depth) →
          cr h' e x = cr h e x + if x = (.feed, c) then L.count e else 0
  | [], h, hI, hT, hG, _, _, _ => ⟨h, rfl, ⟨hI, hT, hG, rfl, fun _ => rfl, fun _ _ => Nat.le_refl _⟩, fun e x _ => by simp⟩
  | s :: L, h, hI, hT, hG, hc, hd, hL => by
    obtain ⟨k, hk, hk1, hk2⟩ := hL s (List.mem_cons_self ..)
    obtain ⟨h1, e1, C1, f1⟩ := ih s .feed c h R P k a hI hT hG hk hc hk1 (by omega) (fun e k' h1 h2 => hd e k' h1 (by omega))
      (.inr ⟨rfl, hP, hk2⟩)
    obtain ⟨h2, e2, C2, f2⟩ := connect_loop ih c R P a hP hn L h1 C1.rc C1.ty C1.good ((C1.kind c).trans hc)
      (fun e k' h1 h2 => hd e k' ((C1.kind e).symm.trans h1) h2)
      (fun s' hs' => by
        obtain ⟨k', g1, g2⟩ := hL s' (List.mem_cons_of_mem _ hs')
        exact ⟨k', (C1.kind s').trans g1, g2⟩)
    refine ⟨h2, ?_, ⟨C2.rc, C2.ty, C2.good, C2.len.trans C1.len, fun e => (C2.kind e).trans (C1.kind e),
      fun e x => Nat.le_trans (C1.mono e x) (C2.mono e x)⟩, fun e x hx => ?_⟩
    · simp only [List.foldlM_cons, e1]; exact e2
    · have n1 : ¬ Small h k.depth x := fun ⟨g1, k', g2, g3⟩ => hx ⟨g1, k', g2, by omega⟩
      have n2 : ¬ ((x.1 = .self ∨ x.1 = .feed) ∧ ∃ k, kindAt h1 x.2 = some k ∧ k.depth < a.depth) :=
        fun ⟨g1, k', g2, g3⟩ => hx ⟨g1, k', (C1.kind _).symm.trans g2, g3⟩
      rw [f2 e x n2, f1 e x n1, List.count_cons]
      by_cases g : x = (.feed, c)
      · by_cases f : e = s
        · subst f; simp [g]; omega
        · have : ¬ (s = e) := fun h => f h.symm
          simp [g, f, this]
      · simp [g]

theorem connect_ok : ∀ n, ConnOk n
  | 0 => fun _ _ _ _ _ _ _ _ _ _ _ _ _ _ h => absurd h (Nat.not_lt_zero _)
  | n + 1 => fun c r d h R P a b hI hT hG hc hd hk hn hP hr => by
    have Pc : P c := hP c a hc (Nat.le_refl _)
    have tyr : Ty r c d a b := by
      rcases hr with rfl | ⟨rfl, _, g⟩
      · exact hk
      · exact ⟨hk, g⟩
    have nf : ∀ l, P l → (r, d) ≠ (.feed, l) := by
      rintro l hl e
      injection e with e1 e2
      subst e2
      rcases hr with g | ⟨_, g, _⟩
      · rw [g] at e1; cases e1
      · exact g hl
    have ns : ∀ l, (r, d) ≠ (.self, l) := by
      rintro l e
      injection e with e1 _
      rcases hr with g | ⟨g, _⟩ <;> rw [g] at e1 <;> cases e1
    have nq : ∀ l, (r, d) ≠ (.source, l) := by
      rintro l e
      injection e with e1 _
      rcases hr with g | ⟨g, _⟩ <;> rw [g] at e1 <;> cases e1
    obtain ⟨oc, fc⟩ := hG c Pc
    unfold connect
    by_cases cond : isLogger h c = true ∧ hasSinks h c = false
    · rw [if_pos cond]
      have ad : 0 < a.depth := (isLogger_iff hc).mp cond.1
      have s0 : cr h c (.self, c) = 0 := by rw [oc, if_neg (by simp [cond.2])]
      have na : ¬ (attached h c = true) := by rw [attached_iff hT, s0]; exact Nat.lt_irrefl _
      rw [if_neg na]
      obtain ⟨h1, e1, i1, t1, l1, k1, q1, x1⟩ := link_all (r := .self) hI hT hc hc ⟨rfl, ad⟩
      simp only [e1]
      have G1 : Good (fun l => P l ∧ l ≠ c) h1 := fun l hl => link_good k1 q1 x1 hl.2 (by simp) (hG l hl.1).1 (hG l hl.1).2
      obtain ⟨h2, e2, C2, f2⟩ := connect_loop (connect_ok n) c R (fun l => P l ∧ l ≠ c) a (fun g => g.2 rfl) (by omega) (sources h1 c) h1 i1 t1 G1
        ((k1 c).trans hc) (fun e k g1 g2 => ⟨hP e k ((k1 e).symm.trans g1) (by omega), fun ee => by
          rw [ee, k1, hc] at g1; injection g1 with g1; subst g1; omega⟩)
        (fun s hs => by
          have : 0 < cr h1 c (.source, s) := by rw [← count_sources]; exact List.count_pos_iff.mpr hs
          obtain ⟨a', b', g1, g2, g3⟩ := t1 _ _ _ (cr_pos.mp this)
          rw [k1, hc] at g1; injection g1 with g1; subst g1
          exact ⟨b', g2, g3.2, g3.1⟩)
      simp only [e2]
      obtain ⟨h3, e3, i3, t3, l3, k3, q3, x3⟩ := link_all (r := r) C2.rc C2.ty ((C2.kind c).trans ((k1 c).trans hc))
        ((C2.kind d).trans ((k1 d).trans hd)) tyr
      have big : ∀ e x, x.1 = .self ∨ x.1 = .feed → x.2 = c → cr h2 e x = cr h1 e x + if x = (.feed, c) then (sources h1 c).count e else 0 := by
        intro e x _ hx
        apply f2
        rintro ⟨_, k, g1, g2⟩
        rw [hx, k1, hc] at g1; injection g1 with g1; subst g1; omega
      have src : ∀ s, cr h3 c (.source, s) = cr h1 c (.source, s) := by
        intro s
        rw [skip x3 (nq s), f2 c _ (by rintro ⟨g | g, _⟩ <;> cases g)]
        simp
      have slf : cr h3 c (.self, c) = 1 := by
        rw [skip x3 (ns c), big c _ (.inl rfl) rfl, x1, s0]; simp
      refine ⟨h3, e3, ⟨i3, t3, fun l hl => ?_, l3.trans (C2.len.trans l1), fun e => (k3 e).trans ((C2.kind e).trans (k1 e)),
        fun e x => ?_⟩, fun e x hx => ?_⟩
      · by_cases g : l = c
        · subst g
          refine ⟨?_, fun s => ?_⟩
          · unfold One
            rw [slf, if_pos]
            refine ⟨by rw [isLogger_congr ((k3 l).trans ((C2.kind l).trans (k1 l)))]; exact cond.1, hasSinks_iff.mpr ⟨d, ?_⟩⟩
            rcases hr with rfl | ⟨rfl, _⟩
            · left; rw [x3]; simp
            · right; rw [x3]; simp
          · rw [slf, if_pos Nat.one_pos, src, skip x3 (nf l hl), big s _ (.inr rfl) rfl, x1, fc s, s0, count_sources]
            simp
        · exact link_good k3 q3 x3 g (nf l hl) (C2.good l ⟨hl, g⟩).1 (C2.good l ⟨hl, g⟩).2
      · have := C2.mono e x
        rw [x1] at this
        rw [x3]; omega
      · have n1 : x ≠ (.self, c) := by
          rintro rfl; exact hx ⟨.inl rfl, a, hc, Nat.le_refl _⟩
        have n2 : x ≠ (.feed, c) := by
          rintro rfl; exact hx ⟨.inr rfl, a, hc, Nat.le_refl _⟩
        rw [x3, f2 e x (fun ⟨g1, k, g2, g3⟩ => hx ⟨g1, k, (k1 _).symm.trans g2, by omega⟩), x1]
        simp [n1, n2]
    · rw [if_neg cond]
      obtain ⟨h1, e1, i1, t1, l1, k1, q1, x1⟩ := link_all (r := r) hI hT hc hd tyr
      refine ⟨h1, e1, ⟨i1, t1, fun l hl => ?_, l1, k1, fun e x => by rw [x1]; omega⟩, fun e x _ => x1 e x⟩
      by_cases g : l = c
      · subst g
        have e0 : cr h1 l (.self, l) = cr h l (.self, l) := skip x1 (ns l)
        refine ⟨?_, fun s => ?_⟩
        · unfold One at *
          rw [e0, oc, isLogger_congr (k1 l)]
          by_cases f : isLogger h l = true
          · have f2 : hasSinks h l = true := by
              cases q : hasSinks h l with
              | true => rfl
              | false => exact absurd ⟨f, q⟩ cond
            have f3 : hasSinks h1 l = true := by
              obtain ⟨d', g⟩ := hasSinks_iff.mp f2
              refine hasSinks_iff.mpr ⟨d', ?_⟩
              rcases g with g | g
              · left; rw [x1]; omega
              · right; rw [x1]; omega
            rw [if_pos ⟨f, f2⟩, if_pos ⟨f, f3⟩]
          · rw [if_neg (fun g => f g.1), if_neg (fun g => f g.1)]
        · rw [e0, skip x1 (nf l hl), skip x1 (nq s), fc s]
      · exact link_good k1 q1 x1 g (nf l hl) (hG l hl).1 (hG l hl).2

/-! ### Disconnecting -/

/-- A reference to be cleared is the one at position `idxOf`. -/
theorem clear_all {h : Cells} {R : Nat → Nat} {c : Nat} {x : Role × Nat} (hI : RInv h R) (hT : TInv h) (hx : x ∈ refsAt h c) :
    ∃ h', clear c x h = some h' ∧ RInv h' R ∧ TInv h' ∧ h'.length = h.length ∧
      (∀ e a, kindAt h' e = some a → kindAt h e = some a) ∧ (∀ e, Live h' e → e ≠ c → refsAt h' e = refsAt h e) ∧
      (∀ e, Live h' e → ∀ y, cr h' e y + (if e = c ∧ y = x then 1 else 0) = cr h e y) ∧
      ∀ l, (.self, l) ∈ refsAt h l → (l ≠ c ∨ x ≠ (.self, l)) → Live h' l := by
  have hk : (refsAt h c)[(refsAt h c).idxOf x]? = some x := by
    rw [List.getElem?_eq_getElem (List.idxOf_lt_length_of_mem hx), List.getElem_idxOf]
  obtain ⟨h', e1, i1, L1, S1⟩ := unlink_ok (k := (refsAt h c).idxOf x) hI (alive_of_ref hx)
  have cnt : ∀ y, ((refsAt h c).eraseIdx ((refsAt h c).idxOf x)).count y + (if y = x then 1 else 0) = (refsAt h c).count y := by
    intro y
    rw [← List.erase_eq_eraseIdx_of_idxOf (w := rfl)]
    by_cases g : y = x
    · subst g
      rw [List.count_erase_self, if_pos rfl]
      have := List.count_pos_iff.mpr hx
      omega
    · rw [List.count_erase_of_ne g, if_neg g]; rfl
  have al : ∀ e r d, (r, d) ∈ refsAt h' e → Live h' d := fun e r d hm => live_of i1 (cr_pos.mpr hm)
  have kk : ∀ e a, kindAt h' e = some a → kindAt h e = some a := by
    intro e a ha
    obtain ⟨y, hy⟩ := alive_of_kind ha
    rw [kindAt_some hy] at ha
    injection ha with ha
    subst ha
    exact (L1.keep e y hy).1
  have rr : ∀ e, Live h' e → refsAt h' e = if e = c then (refsAt h e).eraseIdx ((refsAt h c).idxOf x) else refsAt h e := by
    rintro e ⟨y, hy⟩
    rw [refsAt_some hy]
    exact (L1.keep e y hy).2
  have sub : ∀ e y, y ∈ refsAt h' e → y ∈ refsAt h e := by
    intro e y hy
    rw [rr e (alive_of_ref hy)] at hy
    by_cases g : e = c
    · rw [if_pos g] at hy; exact List.mem_of_mem_eraseIdx hy
    · rw [if_neg g] at hy; exact hy
  refine ⟨h', e1, i1, fun e r d hm => ?_, L1.len, kk, fun e he hn => by rw [rr e he, if_neg hn], fun e he y => ?_, fun l hl hn => ?_⟩
  · obtain ⟨a, b, g1, g2, g3⟩ := hT _ _ _ (sub _ _ hm)
    obtain ⟨a', ga⟩ := kind_of_live (alive_of_ref hm)
    obtain ⟨b', gb⟩ := kind_of_live (al _ _ _ hm)
    have := kk _ _ ga
    rw [g1] at this; injection this with this; subst this
    have := kk _ _ gb
    rw [g2] at this; injection this with this; subst this
    exact ⟨_, _, ga, gb, g3⟩
  · unfold cr
    rw [rr e he]
    by_cases g : e = c
    · subst g
      rw [if_pos rfl]
      have := cnt y
      simpa using this
    · simp [g]
  · have := S1 (fun e => e = l) (fun d hd => by
      subst hd
      refine ⟨d, .self, rfl, ?_⟩
      by_cases g : d = c
      · subst g
        rw [if_pos rfl]
        apply mem_eraseIdx_of hl
        rw [hk]
        intro e
        injection e with e
        rcases hn with f | f
        · exact f rfl
        · exact f e
      · rw [if_neg g]; exact hl)
    exact closed_alive i1 this rfl

/-- Clearing a reference of the object `c` leaves others as they are. -/
theorem clear_good {h h' : Cells} {R : Nat → Nat} {c l : Nat} {x : Role × Nat} (hI : RInv h' R) (hk : ∀ e a, kindAt h' e = some a → kindAt h e = some a)
    (hr : ∀ e, Live h' e → e ≠ c → refsAt h' e = refsAt h e)
    (hx : ∀ e, Live h' e → ∀ y, cr h' e y + (if e = c ∧ y = x then 1 else 0) = cr h e y)
    (h1 : x ≠ (.feed, l)) (h2 : l = c → x.1 ≠ .self ∧ x.1 ≠ .source ∧ (isLogger h' c = true → hasSinks h' c = hasSinks h c)) (ho : One h l) (hf : Feed h l) :
    One h' l ∧ Feed h' l := by
  by_cases g : Live h' l
  · obtain ⟨a, ha⟩ := kind_of_live g
    have ka : kindAt h' l = kindAt h l := by rw [ha, hk l a ha]
    have e1 : cr h' l (.self, l) = cr h l (.self, l) := by
      rw [← hx l g, if_neg]; · rfl
      rintro ⟨f, rfl⟩
      exact (h2 f).1 rfl
    have e2 : ∀ s, cr h' l (.source, s) = cr h l (.source, s) := by
      intro s
      rw [← hx l g, if_neg]; · rfl
      rintro ⟨f, rfl⟩
      exact (h2 f).2.1 rfl
    refine ⟨?_, fun s => ?_⟩
    · unfold One at *
      rw [e1, ho, isLogger_congr ka]
      by_cases f : l = c
      · by_cases q : isLogger h l = true
        · rw [← (show hasSinks h' l = hasSinks h l by subst f; exact (h2 rfl).2.2 ((isLogger_congr ka).trans q))]
        · rw [if_neg (fun g => q g.1), if_neg (fun g => q g.1)]
      · have : hasSinks h' l = hasSinks h l := by unfold hasSinks; rw [hr l g f]
        rw [this]
    · rw [e1, e2]
      by_cases f : Live h' s
      · rw [← hf s, ← hx s f, if_neg (fun g => h1 g.2.symm)]; rfl
      · rw [cr_dead _ f]
        have : cr h l (.source, s) = 0 := by
          rcases Nat.eq_zero_or_pos (cr h l (.source, s)) with q | q
          · exact q
          · rw [← e2] at q
            exact absurd (live_of hI q) f
        rw [this]; simp
  · have e0 : ∀ y, cr h' l y = 0 := fun y => cr_dead y g
    refine ⟨?_, fun s => ?_⟩
    · unfold One
      rw [e0, if_neg]
      rintro ⟨f, _⟩
      unfold isLogger at f
      cases q : kindAt h' l with
      | none => rw [q] at f; cases f
      | some k => exact g (alive_of_kind q)
    · rw [e0, if_neg (Nat.lt_irrefl _)]
      rcases Nat.eq_zero_or_pos (cr h' s (.feed, l)) with q | q
      · exact q
      · exact absurd (live_of hI q) g

structure Disc (h h' : Cells) (R : Nat → Nat) (P : Nat → Prop) : Prop where
  rc : RInv h' R
  ty : TInv h'
  good : Good P h'
  len : h'.length = h.length
  kind : ∀ e a, kindAt h' e = some a → kindAt h e = some a
  mono : ∀ e x, cr h' e x ≤ cr h e x

def DiscOk (n : Nat) : Prop := ∀ (c : Nat) (r : Role) (d : Nat) (h : Cells) (R : Nat → Nat) (P : Nat → Prop) (a : Kind),
  RInv h R → TInv h → Good P h → kindAt h c = some a → (r, d) ∈ refsAt h c → a.depth < n →
  (∀ e k, kindAt h e = some k → k.depth ≤ a.depth → P e) → (r = .conn ∨ r = .feed ∧ ¬ P d) →
  ∃ h', disconnect n c (r, d) h = some h' ∧ Disc h h' R P ∧
    (∀ l k, kindAt h l = some k → a.depth < k.depth → (.self, l) ∈ refsAt h l → Live h' l) ∧
    ∀ e, Live h' e → ∀ x, ¬ Small h a.depth x → cr h' e x + (if e = c ∧ x = (r, d) then 1 else 0) = cr h e x

theorem live_self {h h' : Cells} {R : Nat → Nat} {P : Nat → Prop} (D : Disc h h' R P) {l : Nat} {k : Kind} (hk : kindAt h l = some k)
    (hl : Live h' l) : kindAt h' l = some k := by
  obtain ⟨k', g⟩ := kind_of_live hl
  have := D.kind _ _ g
  rw [hk] at this; injection this with this; subst this
  exact g

theorem disconnect_loop {n : Nat} (ih : DiscOk n) (c : Nat) (R : Nat → Nat) (P : Nat → Prop) (a : Kind) (hP : ¬ P c) (hn : a.depth ≤ n) :
    ∀ (L : List Nat) (h : Cells), RInv h R → TInv h → Good P h → kindAt h c = some a →
      (∀ e k, kindAt h e = some k → k.depth < a.depth → P e) → (.self, c) ∈ refsAt h c →
      (∀ s, cr h s (.feed, c) = L.count s) → (∀ s, L.count s ≤ cr h c (.source, s)) →
      ∃ h', L.foldlM (fun h s => disconnect n s (.feed, c) h) h = some h' ∧ Disc h h' R P ∧ Live h' c ∧ (∀ s, cr h' s (.feed, c) = 0) ∧
        (∀ l k, kindAt h l = some k → a.depth < k.depth → (.self, l) ∈ refsAt h l → Live h' l) ∧
        ∀ e, Live h' e → ∀ x, ¬ ((x.1 = .self ∨ x.1 = .feed) ∧ ∃ k, kindAt h x.2 = some k ∧ k.depth < a.depth) → x ≠ (.feed, c) →
          cr h' e x = cr h e x
  | [], h, hI, hT, hG, hc, _, hs, hf, _ =>
    ⟨h, rfl, ⟨hI, hT, hG, rfl, fun _ _ g => g, fun _ _ => Nat.le_refl _⟩, alive_of_kind hc, fun s => by simpa using hf s,
      fun l k g _ _ => alive_of_kind g, fun e _ x _ _ => rfl⟩
  | s :: L, h, hI, hT, hG, hc, hd, hs, hf, hL => by
    have m1 : 0 < cr h s (.feed, c) := by rw [hf]; simp
    obtain ⟨k, b, g1, g2, g3⟩ := hT _ _ _ (cr_pos.mp m1)
    rw [hc] at g2; injection g2 with g2; subst g2
    obtain ⟨h1, e1, D1, v1, f1⟩ := ih s .feed c h R P k hI hT hG g1 (cr_pos.mp m1) (by have := g3.2; omega)
      (fun e k' h1 h2 => hd e k' h1 (Nat.lt_of_le_of_lt h2 g3.2)) (.inr ⟨rfl, hP⟩)
    have lc : Live h1 c := v1 c a hc g3.2 hs
    have ns : ∀ r', ¬ Small h k.depth (r', c) := by
      rintro r' ⟨_, k', q1, q2⟩
      rw [hc] at q1; injection q1 with q1; subst q1
      have := g3.2; omega
    have hs1 : (.self, c) ∈ refsAt h1 c := by
      apply cr_pos.mp
      have := f1 c lc _ (ns .self)
      rw [if_neg (by simp)] at this
      have := cr_pos.mpr hs
      omega
    have src : ∀ s, cr h1 c (.source, s) = cr h c (.source, s) := by
      intro s
      have := f1 c lc (.source, s) (by rintro ⟨q | q, _⟩ <;> cases q)
      rw [if_neg (by simp)] at this
      omega
    have hL1 : ∀ s, L.count s ≤ cr h1 c (.source, s) := by
      intro s'
      rw [src]
      exact Nat.le_trans (by rw [List.count_cons]; omega) (hL s')
    have hf1 : ∀ e, cr h1 e (.feed, c) = L.count e := by
      intro e
      by_cases q : Live h1 e
      · have := f1 e q _ (ns .feed)
        rw [hf, List.count_cons] at this
        by_cases f : e = s
        · subst f; simp at this; omega
        · have f' : ¬ (s = e) := fun h => f h.symm
          simp [f, f'] at this; omega
      · rw [cr_dead _ q]
        rcases Nat.eq_zero_or_pos (L.count e) with f | f
        · exact f.symm
        · exact absurd (live_of D1.rc (Nat.lt_of_lt_of_le f (hL1 e))) q
    obtain ⟨h2, e2, D2, l2, z2, v2, f2⟩ := disconnect_loop ih c R P a hP hn L h1 D1.rc D1.ty D1.good (live_self D1 hc lc)
      (fun e k' h1 h2 => hd e k' (D1.kind _ _ h1) h2) hs1 hf1 hL1
    refine ⟨h2, ?_, ⟨D2.rc, D2.ty, D2.good, D2.len.trans D1.len, fun e k q => D1.kind _ _ (D2.kind _ _ q),
      fun e x => Nat.le_trans (D2.mono e x) (D1.mono e x)⟩, l2, z2, fun l k' q1 q2 q3 => ?_, fun e he x hx hn => ?_⟩
    · simp only [List.foldlM_cons, e1]; exact e2
    · have w : Live h1 l := v1 l k' q1 (by have := g3.2; omega) q3
      refine v2 l k' (live_self D1 q1 w) q2 ?_
      apply cr_pos.mp
      have := f1 l w (.self, l) (by
        rintro ⟨_, k'', p1, p2⟩
        rw [q1] at p1; injection p1 with p1; subst p1
        have := g3.2; omega)
      rw [if_neg (by simp)] at this
      have := cr_pos.mpr q3
      omega
    · have he1 : Live h1 e := by
        obtain ⟨k', q⟩ := kind_of_live he
        exact alive_of_kind (D2.kind _ _ q)
      have := f1 e he1 x (fun ⟨p1, k', p2, p3⟩ => hx ⟨p1, k', p2, Nat.lt_of_le_of_lt p3 g3.2⟩)
      rw [if_neg (fun q => hn q.2)] at this
      rw [f2 e he x (fun ⟨p1, k', p2, p3⟩ => hx ⟨p1, k', D1.kind _ _ p2, p3⟩) hn]
      omega

theorem disconnect_ok : ∀ n, DiscOk n
  | 0 => fun _ _ _ _ _ _ _ _ _ _ _ _ h => absurd h (Nat.not_lt_zero _)
  | n + 1 => fun c r d h R P a hI hT hG hc hm hn hP hr => by
    have Pc : P c := hP c a hc (Nat.le_refl _)
    have nf : ∀ l, P l → (r, d) ≠ (.feed, l) := by
      rintro l hl e
      injection e with e1 e2
      subst e2
      rcases hr with g | ⟨_, g⟩
      · rw [g] at e1; cases e1
      · exact g hl
    have rs : r ≠ .self ∧ r ≠ .source := by
      rcases hr with rfl | ⟨rfl, _⟩ <;> exact ⟨by simp, by simp⟩
    obtain ⟨oc, fc⟩ := hG c Pc
    obtain ⟨h1, e1, i1, t1, l1, k1, q1, x1, v1⟩ := clear_all hI hT hm
    have nself : ∀ l, (r, d) ≠ (.self, l) := fun l e => rs.1 (by injection e)
    have mono1 : ∀ e x, cr h1 e x ≤ cr h e x := by
      intro e x
      by_cases q : Live h1 e
      · have := x1 e q x; omega
      · rw [cr_dead _ q]; omega
    unfold disconnect
    simp only [e1]
    have sinks0 : hasSinks h c = true := by
      refine hasSinks_iff.mpr ⟨d, ?_⟩
      rcases hr with rfl | ⟨rfl, _⟩
      · exact .inl (cr_pos.mpr hm)
      · exact .inr (cr_pos.mpr hm)
    by_cases cond : isLogger h1 c = true ∧ hasSinks h1 c = false
    · rw [if_pos cond]
      have lc1 : Live h1 c := by
        have g := cond.1
        unfold isLogger at g
        cases q : kindAt h1 c with
        | none => rw [q] at g; cases g
        | some k => exact alive_of_kind q
      have kc1 : kindAt h1 c = some a := by
        obtain ⟨k', g⟩ := kind_of_live lc1
        have := k1 _ _ g
        rw [hc] at this; injection this with this; subst this; exact g
      have ad : 0 < a.depth := (isLogger_iff kc1).mp cond.1
      have s0 : cr h c (.self, c) = 1 := by rw [oc, if_pos ⟨(isLogger_iff hc).mpr ad, sinks0⟩]
      have s1 : cr h1 c (.self, c) = 1 := by
        have := x1 c lc1 (.self, c)
        rw [if_neg (fun g => nself c g.2.symm)] at this
        omega
      have G1 : Good (fun l => P l ∧ l ≠ c) h1 := fun l hl =>
        clear_good i1 k1 q1 x1 (nf l hl.1) (fun g => absurd g hl.2) (hG l hl.1).1 (hG l hl.1).2
      have src1 : ∀ s, cr h1 c (.source, s) = cr h c (.source, s) := by
        intro s
        have := x1 c lc1 (.source, s)
        rw [if_neg (fun g => rs.2 (by have := g.2; injection this with this; exact this.symm))] at this
        omega
      have F1 : ∀ s, cr h1 s (.feed, c) = cr h1 c (.source, s) := by
        intro s
        have f0 := fc s
        rw [s0, if_pos Nat.one_pos] at f0
        rw [src1]
        by_cases q : Live h1 s
        · have := x1 s q (.feed, c)
          rw [if_neg (fun g => nf c Pc g.2.symm)] at this
          omega
        · rw [cr_dead _ q]
          rcases Nat.eq_zero_or_pos (cr h c (.source, s)) with f | f
          · exact f.symm
          · rw [← src1] at f
            exact absurd (live_of i1 f) q
      obtain ⟨h2, e2, D2, l2, z2, v2, f2⟩ := disconnect_loop (disconnect_ok n) c R (fun l => P l ∧ l ≠ c) a (fun g => g.2 rfl) (by omega)
        (sources h1 c) h1 i1 t1 G1 kc1
        (fun e k g1 g2 => ⟨hP e k (k1 _ _ g1) (by omega), fun ee => by
          rw [ee, kc1] at g1; injection g1 with g1; subst g1; omega⟩)
        (cr_pos.mp (by omega)) (fun s => by rw [F1, count_sources]) (fun s => Nat.le_of_eq (count_sources s))
      simp only [e2]
      have big : ∀ r', ¬ ((((r', c) : Role × Nat).1 = .self ∨ ((r', c) : Role × Nat).1 = .feed) ∧
          ∃ k, kindAt h1 ((r', c) : Role × Nat).2 = some k ∧ k.depth < a.depth) := by
        rintro r' ⟨_, k, g1, g2⟩
        have : kindAt h1 c = some k := g1
        rw [kc1] at this; injection this with this; subst this; omega
      have s2 : cr h2 c (.self, c) = 1 := by rw [f2 c l2 _ (big .self) (by simp), s1]
      obtain ⟨h3, e3, i3, t3, l3, k3, q3, x3, v3⟩ := clear_all (c := c) (x := (.self, c)) D2.rc D2.ty (cr_pos.mp (by omega))
      have mono3 : ∀ e x, cr h3 e x ≤ cr h2 e x := by
        intro e x
        by_cases q : Live h3 e
        · have := x3 e q x; omega
        · rw [cr_dead _ q]; omega
      refine ⟨h3, e3, ⟨i3, t3, fun l hl => ?_, l3.trans (D2.len.trans l1), fun e k g => k1 _ _ (D2.kind _ _ (k3 _ _ g)),
        fun e x => Nat.le_trans (mono3 e x) (Nat.le_trans (D2.mono e x) (mono1 e x))⟩, fun l k g1 g2 g3 => ?_, fun e he x hx => ?_⟩
      · by_cases g : l = c
        · subst g
          have z3 : cr h3 l (.self, l) = 0 := by
            by_cases q : Live h3 l
            · have := x3 l q (.self, l)
              rw [if_pos ⟨rfl, rfl⟩] at this
              omega
            · exact cr_dead _ q
          refine ⟨?_, fun s => ?_⟩
          · unfold One
            rw [z3, if_neg]
            rintro ⟨_, f⟩
            obtain ⟨d', f⟩ := hasSinks_iff.mp f
            have : hasSinks h1 l = true := by
              refine hasSinks_iff.mpr ⟨d', ?_⟩
              rcases f with f | f
              · left
                have := mono3 l (.conn, d')
                have := D2.mono l (.conn, d')
                omega
              · right
                have := mono3 l (.feed, d')
                have := D2.mono l (.feed, d')
                omega
            rw [cond.2] at this; cases this
          · rw [z3, if_neg (Nat.lt_irrefl _)]
            have := mono3 s (.feed, l)
            rw [z2] at this
            omega
        · exact clear_good i3 k3 q3 x3 (by simp) (fun f => absurd f g) (D2.good l ⟨hl, g⟩).1 (D2.good l ⟨hl, g⟩).2
      · have nl : l ≠ c := by
          rintro rfl
          rw [hc] at g1; injection g1 with g1; subst g1; omega
        have w1 : Live h1 l := v1 l g3 (.inr (nself l))
        have kl1 : kindAt h1 l = some k := by
          obtain ⟨k', g⟩ := kind_of_live w1
          have := k1 _ _ g
          rw [g1] at this; injection this with this; subst this; exact g
        have m1 : (.self, l) ∈ refsAt h1 l := by
          apply cr_pos.mp
          have := x1 l w1 (.self, l)
          rw [if_neg (fun g => nself l g.2.symm)] at this
          have := cr_pos.mpr g3
          omega
        have w2 := v2 l k kl1 g2 m1
        have m2 : (.self, l) ∈ refsAt h2 l := by
          apply cr_pos.mp
          rw [f2 l w2 (.self, l) (by
            rintro ⟨_, k', p1, p2⟩
            have p1 : kindAt h1 l = some k' := p1
            rw [kl1] at p1; injection p1 with p1; subst p1; omega) (by simp)]
          exact cr_pos.mpr m1
        exact v3 l m2 (.inl nl)
      · have he2 : Live h2 e := by
          obtain ⟨k', q⟩ := kind_of_live he
          exact alive_of_kind (k3 _ _ q)
        have he1 : Live h1 e := by
          obtain ⟨k', q⟩ := kind_of_live he2
          exact alive_of_kind (D2.kind _ _ q)
        have n1 : x ≠ (.self, c) := by
          rintro rfl; exact hx ⟨.inl rfl, a, hc, Nat.le_refl _⟩
        have n2 : x ≠ (.feed, c) := by
          rintro rfl; exact hx ⟨.inr rfl, a, hc, Nat.le_refl _⟩
        have a1 := x1 e he1 x
        have a2 := f2 e he2 x (fun ⟨p1, k, p2, p3⟩ => hx ⟨p1, k, k1 _ _ p2, by omega⟩) n2
        have a3 := x3 e he x
        rw [if_neg (fun g => n1 g.2)] at a3
        omega
    · rw [if_neg cond]
      refine ⟨h1, rfl, ⟨i1, t1, fun l hl => ?_, l1, k1, mono1⟩, fun l k g1 g2 g3 => v1 l g3 (.inr (nself l)), fun e he x _ => x1 e he x⟩
      refine clear_good i1 k1 q1 x1 (nf l hl) (fun g => ⟨rs.1, rs.2, fun f => ?_⟩) (hG l hl).1 (hG l hl).2
      rw [sinks0]
      cases q : hasSinks h1 c with
      | true => rfl
      | false => exact absurd ⟨f, q⟩ cond

end Verif.Log.Own
