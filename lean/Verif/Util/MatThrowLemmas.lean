import Verif.Util.ArrThrowLemmas
import Verif.Util.MatLifeProps

set_option linter.unusedSimpArgs false
set_option linter.unusedVariables false
namespace Verif.Util

variable {T : Type}

/-! ### What is fine -/

/-- The cell `(a, b)` is one of the first `k` in memory. -/
def early (L : Layout) (rows cols k a b : Nat) : Prop :=
  match L with
  | .rowMajor => a * cols + b < k
  | .colMajor => b * rows + a < k

instance (L : Layout) (rows cols k a b : Nat) : Decidable (early L rows cols k a b) := by
  unfold early; cases L <;> exact inferInstance

/-- Legal calls, which may throw in assignments of elements and where memory for a new matrix is allocated. -/
def GLegalT (I J : Nat) (s : Grids T) : MTOp T → Prop
  | .ok o => GLegal I J s o
  | .new rows cols _ none | .newFill rows cols _ none =>
    rows ≤ (2 ^ 64 - 1) / 2 ∧ cols ≤ (2 ^ 64 - 1) / 2 ∧ rows * cols < 2 ^ 64 ∧ rows ≠ 0 ∧ cols ≠ 0
  | .copy r none => ∃ g, gr s r = some g ∧ g.rows ≠ 0 ∧ g.cols ≠ 0
  | .set r i j _ => ∃ g, gr s r = some g ∧ (I ≤ i ∧ i < I + g.rows) ∧ (J ≤ j ∧ j < J + g.cols)
  | .fill r _ k => ∃ g, gr s r = some g ∧ k < g.rows * g.cols
  | .fill1 r i _ k => ∃ g, gr s r = some g ∧ (I ≤ i ∧ i < I + g.rows) ∧ k < g.cols
  | .fill2 r j _ k => ∃ g, gr s r = some g ∧ (J ≤ j ∧ j < J + g.cols) ∧ j < J + g.rows ∧ k < g.rows
  | _ => False

/-- The intended effect: none, except that `fill`, `fill1` and `fill2` have assigned the first cells. -/
def GWantT (L : Layout) (I J : Nat) (s : Grids T) : MTOp T → Grids T
  | .ok o => GWant I J s o
  | .fill r v k => s.set r ((gr s r).map fun g => { g with cell := fun a b => if early L g.rows g.cols k a b then v else g.cell a b })
  | .fill1 r i v k => s.set r ((gr s r).map fun g => { g with cell := fun a b => if a = i - I ∧ b < k then v else g.cell a b })
  | .fill2 r j v k => s.set r ((gr s r).map fun g => { g with cell := fun a b => if b = j - J ∧ a < k then v else g.cell a b })
  | _ => s

def GLegalsT (L : Layout) (I J : Nat) (s : Grids T) : List (MTOp T) → Prop
  | [] => True
  | o :: t => GLegalT I J s o ∧ GLegalsT L I J (GWantT L I J s o) t

def GWantsT (L : Layout) (I J : Nat) (s : Grids T) : List (MTOp T) → Grids T
  | [] => s
  | o :: t => GWantsT L I J (GWantT L I J s o) t

theorem set_gr_self {s : Grids T} {r : Nat} {g : Grid T} (h : gr s r = some g) : s.set r (some g) = s := by
  have hx : s[r]? = some (some g) := Option.join_eq_some_iff.mp h
  have hlt : r < s.length := gr_lt h
  apply ext_opt
  intro i
  rw [List.getElem?_set]
  split
  · rename_i e
    subst e
    simp only [hx]
  · rfl

theorem back_self (m : MMem T) : m.back m.mem = m := rfl

theorem mstepT_holds (L : Layout) (I J : Nat) (m : MMem T) (f : Arrs T) (s : Grids T) (o : MTOp T) (h : Holds L m f s) (hl : GLegalT I J s o) :
    ∃ m' f', m.stepT L I J o = some m' ∧ Holds L m' f' (GWantT L I J s o) := by
  have small : ∀ {g : Grid T} {c : List T} {x : Mx}, Flat L g c → x.size1 = g.rows → x.size2 = g.cols → x.size = g.rows * g.cols := by
    intro g c x hf h1 h2
    rw [Mx.size, h1, h2]; exact Nat.mod_eq_of_lt hf.small
  have fresh : ∀ rows cols (d : T), (rows ≤ (2 ^ 64 - 1) / 2 ∧ cols ≤ (2 ^ 64 - 1) / 2 ∧ rows * cols < 2 ^ 64 ∧ rows ≠ 0 ∧ cols ≠ 0) →
      m.stepT L I J (.new rows cols d none) = some m := by
    rintro rows cols d ⟨l1, l2, l3, l4, l5⟩
    have hm : rows * cols % sizeMod = rows * cols := Nat.mod_eq_of_lt l3
    have hz : rows * cols ≠ 0 := Nat.mul_ne_zero l4 l5
    have l1' : rows ≤ maxSize := l1
    have l2' : cols ≤ maxSize := l2
    simp only [MMem.stepT, l1', l2', and_self, if_true, hm, MMem.minitPart, Mem.ainitPart, List.length_replicate, hz, if_false, Option.map_some,
      back_self]
  cases o with
  | ok o => exact C138_step L I J m f s o h hl
  | new rows cols d k =>
    cases k with
    | some j => cases hl
    | none => exact ⟨m, f, fresh rows cols d hl, h⟩
  | newFill rows cols d k =>
    cases k with
    | some j => cases hl
    | none => exact ⟨m, f, fresh rows cols d hl, h⟩
  | copy r k =>
    cases k with
    | some j => cases hl
    | none =>
      obtain ⟨g, hg, z1, z2⟩ := hl
      obtain ⟨c, x, h1, h2, h3, h4, h5⟩ := h.live hg
      have hz : x.size ≠ 0 := by rw [small h2 h4 h5]; exact Nat.mul_ne_zero z1 z2
      refine ⟨m, f, ?_, h⟩
      simp only [MMem.stepT, h3, Option.bind_some, MMem.mcopyPart, hz, if_false, Option.map_some]
  | copyAssign => cases hl
  | set r i j v =>
    obtain ⟨g, hg, ⟨l1, l2⟩, l3, l4⟩ := hl
    have := h.edit (g' := g) hg rfl rfl
      (F := fun x l => (x.index L I J i j).bind fun p => match l[p]? with | some (some _) => some l | _ => none) (fun x c hx hy hf => by
        refine ⟨c, ?_, rfl, hf⟩
        have hp := pos_lt (L := L) (rows := g.rows) (cols := g.cols) (a := i - I) (b := j - J) (by omega) (by omega)
        have e : x.index L I J i j = some (pos L g.rows g.cols (i - I) (j - J)) := by
          unfold Mx.index
          rw [if_pos (by omega), if_pos (by omega), hx, hy]
          cases L <;> rfl
        obtain ⟨u, hu⟩ := form_live (Nat.le_refl c.length) (i := pos L g.rows g.cols (i - I) (j - J)) (by rw [hf.len]; exact hp)
        rw [e, Option.bind_some]
        simp only [hu])
    rw [set_gr_self hg] at this
    exact this
  | fill r v k =>
    obtain ⟨g, hg, hk⟩ := hl
    simp only [MMem.stepT, GWantT, hg, Option.map_some]
    refine h.edit hg (by rfl) (by rfl) (fun x c hx hy hf => ?_)
    obtain ⟨c', h1, h2, h3⟩ := hf.filled v 0 1 k (fun a b => early L g.rows g.cols k a b) (fun k hk => by omega)
      (fun a b ha hb => by
        have e : early L g.rows g.cols k a b ↔ pos L g.rows g.cols a b < k := by cases L <;> rfl
        rw [e]
        constructor
        · intro q; exact ⟨_, q, by omega⟩
        · rintro ⟨n, q, e⟩; omega)
    refine ⟨c', ?_, h2, h3⟩
    have hs := small hf hx hy
    rw [if_pos (by omega), fillN_stride, ← h1]
  | fill1 r i v k =>
    obtain ⟨g, hg, ⟨l1, l2⟩, hk⟩ := hl
    simp only [MMem.stepT, GWantT, hg, Option.map_some]
    refine h.edit hg (by rfl) (by rfl) (fun x c hx hy hf => ?_)
    have ha : i - I < g.rows := by omega
    unfold Mx.fill1Part
    rw [if_pos (by omega), hx, hy]
    cases L with
    | rowMajor =>
      obtain ⟨c', h1, h2, h3⟩ := hf.filled v ((i - I) * g.cols) 1 k (fun a b => a = i - I ∧ b < k)
        (fun n hn => by have := cell_lt ha (show n < g.cols by omega); omega)
        (fun a b ha' hb => by
          constructor
          · rintro ⟨rfl, q⟩; exact ⟨b, q, by simp [pos]⟩
          · rintro ⟨n, hn, e⟩
            have e' : a * g.cols + b = (i - I) * g.cols + n := by simp only [pos] at e; omega
            obtain ⟨p1, p2⟩ := cell_inj hb (show n < g.cols by omega) e'
            exact ⟨p1, by omega⟩)
      exact ⟨c', by dsimp only; rw [fillN_stride]; exact h1, h2, h3⟩
    | colMajor =>
      obtain ⟨c', h1, h2, h3⟩ := hf.filled v (i - I) g.rows k (fun a b => a = i - I ∧ b < k)
        (fun n hn => by have := cell_lt (show n < g.cols by omega) ha; rw [Nat.mul_comm g.rows g.cols]; omega)
        (fun a b ha' hb => by
          constructor
          · rintro ⟨rfl, q⟩; exact ⟨b, q, by simp only [pos]; omega⟩
          · rintro ⟨n, hn, e⟩
            have e' : b * g.rows + a = n * g.rows + (i - I) := by simp only [pos] at e; omega
            obtain ⟨p1, p2⟩ := cell_inj ha' ha e'
            exact ⟨p2, by omega⟩)
      exact ⟨c', h1, h2, h3⟩
  | fill2 r j v k =>
    obtain ⟨g, hg, ⟨l1, l2⟩, l3, hk⟩ := hl
    simp only [MMem.stepT, GWantT, hg, Option.map_some]
    refine h.edit hg (by rfl) (by rfl) (fun x c hx hy hf => ?_)
    have hb : j - J < g.cols := by omega
    unfold Mx.fill2Part
    rw [if_pos (by omega), hx, hy]
    cases L with
    | colMajor =>
      obtain ⟨c', h1, h2, h3⟩ := hf.filled v ((j - J) * g.rows) 1 k (fun a b => b = j - J ∧ a < k)
        (fun n hn => by have := cell_lt hb (show n < g.rows by omega); rw [Nat.mul_comm g.rows g.cols]; omega)
        (fun a b ha' hb => by
          constructor
          · rintro ⟨rfl, q⟩; exact ⟨a, q, by simp [pos]⟩
          · rintro ⟨n, hn, e⟩
            have e' : b * g.rows + a = (j - J) * g.rows + n := by simp only [pos] at e; omega
            obtain ⟨p1, p2⟩ := cell_inj ha' (show n < g.rows by omega) e'
            exact ⟨p1, by omega⟩)
      exact ⟨c', by dsimp only; rw [fillN_stride]; exact h1, h2, h3⟩
    | rowMajor =>
      obtain ⟨c', h1, h2, h3⟩ := hf.filled v (j - J) g.cols k (fun a b => b = j - J ∧ a < k)
        (fun n hn => by have := cell_lt (show n < g.rows by omega) hb; omega)
        (fun a b ha' hb' => by
          constructor
          · rintro ⟨rfl, q⟩; exact ⟨a, q, by simp only [pos]; omega⟩
          · rintro ⟨n, hn, e⟩
            have e' : a * g.cols + b = n * g.cols + (j - J) := by simp only [pos] at e; omega
            obtain ⟨p1, p2⟩ := cell_inj hb' hb e'
            exact ⟨p2, by omega⟩)
      exact ⟨c', h1, h2, h3⟩

theorem mrunT_holds (L : Layout) (I J : Nat) : ∀ (os : List (MTOp T)) (m : MMem T) (f : Arrs T) (s : Grids T), Holds L m f s →
    GLegalsT L I J s os → ∃ m' f', m.runT L I J os = some m' ∧ Holds L m' f' (GWantsT L I J s os)
  | [], m, f, s, h, _ => ⟨m, f, rfl, h⟩
  | o :: t, m, f, s, h, hl => by
    obtain ⟨m1, f1, h1, h2⟩ := mstepT_holds L I J m f s o h hl.1
    obtain ⟨m2, f2, h3, h4⟩ := mrunT_holds L I J t m1 f1 _ h2 hl.2
    exact ⟨m2, f2, by simp only [MMem.runT, h1, Option.bind_some, h3], h4⟩

/-! ### What is not -/

/-- A block that no matrix refers to. -/
def MLost (m : MMem T) (b : Nat) (l : List (Option T)) : Prop :=
  m.blocks[b]? = some (some l) ∧ ∀ r x, m.mx r = some x → x.data ≠ some b

theorem MLost.mem {m : MMem T} {b : Nat} {l : List (Option T)} (h : MLost m b l) : Lost m.mem b l :=
  ⟨h.1, fun r v hv => by simp [Mem.vec, MMem.mem] at hv⟩

theorem MLost.of {m m' : MMem T} {b : Nat} {l : List (Option T)} (h : MLost m b l) (hb : m'.blocks[b]? = some (some l)) (hv : m'.mxs = m.mxs) :
    MLost m' b l := ⟨hb, fun r x hx => h.2 r x (by unfold MMem.mx at *; rw [← hv]; exact hx)⟩

theorem MLost.minit {m : MMem T} {b : Nat} {l : List (Option T)} (h : MLost m b l) {rows cols : Nat} {vs : List T} {x : Mx × MMem T}
    (e : m.minit rows cols vs = some x) : MLost x.2 b l ∧ x.1.data ≠ some b := by
  unfold MMem.minit at e
  obtain ⟨⟨y, w⟩, e1, rfl⟩ := Option.map_eq_some_iff.mp e
  rw [ainit_eq] at e1
  obtain ⟨a, b, c⟩ := h.mem.allocWith e1
  exact ⟨h.of a.1 rfl, b⟩

theorem MLost.minitPart {m : MMem T} {b : Nat} {l : List (Option T)} (h : MLost m b l) {rows cols : Nat} {vs : List T} {k : Fault} {x : Mx × MMem T}
    (e : m.minitPart rows cols vs k = some x) : MLost x.2 b l ∧ x.1.data ≠ some b := by
  unfold MMem.minitPart at e
  obtain ⟨⟨y, w⟩, e1, rfl⟩ := Option.map_eq_some_iff.mp e
  obtain ⟨a, b, c⟩ := h.mem.ainitPart e1
  exact ⟨h.of a.1 rfl, b⟩

theorem MLost.mcopy {m : MMem T} {b : Nat} {l : List (Option T)} (h : MLost m b l) {x : Mx} (hx : x.data ≠ some b) {z : Mx × MMem T}
    (e : m.mcopy x = some z) : MLost z.2 b l ∧ z.1.data ≠ some b := by
  unfold MMem.mcopy at e
  split at e
  · cases e; exact ⟨h, hx⟩
  · simp only [Option.bind_eq_some_iff] at e
    obtain ⟨_, _, _, _, e⟩ := e
    exact h.minit e

theorem MLost.mcopyPart {m : MMem T} {b : Nat} {l : List (Option T)} (h : MLost m b l) {x : Mx} (hx : x.data ≠ some b) {k : Fault} {z : Mx × MMem T}
    (e : m.mcopyPart x k = some z) : MLost z.2 b l ∧ z.1.data ≠ some b := by
  cases k with
  | none =>
    simp only [MMem.mcopyPart] at e
    split at e
    · cases e
    · cases e; exact ⟨h, hx⟩
  | some j =>
    simp only [MMem.mcopyPart, Option.bind_eq_some_iff] at e
    obtain ⟨_, _, _, _, e⟩ := e
    exact h.minitPart e

theorem MLost.mfree {m m1 : MMem T} {b : Nat} {l : List (Option T)} (h : MLost m b l) {x : Mx} (hx : x.data ≠ some b)
    (e : m.mfree x = some m1) : MLost m1 b l := by
  unfold MMem.mfree at e
  obtain ⟨w, e1, rfl⟩ := Option.map_eq_some_iff.mp e
  obtain ⟨a, _⟩ := h.mem.free (v := arr x.size x.data) hx e1
  exact h.of a.1 rfl

theorem MLost.edit {m m1 : MMem T} {b : Nat} {l : List (Option T)} (h : MLost m b l) {r : Nat} {F : Mx → List (Option T) → Option (List (Option T))}
    (e : m.edit r F = some m1) : MLost m1 b l := by
  simp only [MMem.edit, Option.bind_eq_some_iff, Option.map_eq_some_iff] at e
  obtain ⟨x, hx, l0, _, l', _, rfl⟩ := e
  exact h.of (h.mem.put (h.2 r x hx)).1 rfl

theorem MLost.app {n : MMem T} {b : Nat} {l : List (Option T)} {x : Mx} (hn : MLost n b l) (hx : x.data ≠ some b) :
    MLost { n with mxs := n.mxs ++ [some x] } b l := by
  refine ⟨hn.1, fun r y hy => ?_⟩
  unfold MMem.mx at hy
  rw [mxs_append] at hy
  split at hy
  · cases hy; exact hx
  · exact hn.2 r y hy

theorem MLost.sett {n : MMem T} {b : Nat} {l : List (Option T)} {x : Option Mx} (q : Nat) (hn : MLost n b l) (hx : ∀ y, x = some y → y.data ≠ some b) :
    MLost { n with mxs := n.mxs.set q x } b l := by
  refine ⟨hn.1, fun r y hy => ?_⟩
  unfold MMem.mx at hy
  rw [mxs_set] at hy
  split at hy
  · exact hx y hy
  · exact hn.2 r y hy

theorem MLost.step {m m' : MMem T} {b : Nat} {l : List (Option T)} (h : MLost m b l) (L : Layout) (I J : Nat) (o : MOp T)
    (e : m.step L I J o = some m') : MLost m' b l := by
  have e0 : ∀ y : Mx, some (⟨0, 0, none⟩ : Mx) = some y → y.data ≠ some b := by rintro _ ⟨⟩; exact nofun
  have one : ∀ {x : Mx}, x.data ≠ some b → ∀ y, some x = some y → y.data ≠ some b := by rintro x hx _ ⟨⟩; exact hx
  cases o with
  | new rows cols v =>
    simp only [MMem.step] at e
    split at e
    · obtain ⟨x, e1, rfl⟩ := Option.map_eq_some_iff.mp e
      obtain ⟨a, b⟩ := h.minit e1
      exact a.app b
    · cases e
  | newFill rows cols v =>
    simp only [MMem.step] at e
    split at e
    · obtain ⟨x, e1, rfl⟩ := Option.map_eq_some_iff.mp e
      obtain ⟨a, b⟩ := h.minit e1
      exact a.app b
    · cases e
  | copy r =>
    simp only [MMem.step, Option.bind_eq_some_iff, Option.map_eq_some_iff] at e
    obtain ⟨x, hx, z, e1, rfl⟩ := e
    obtain ⟨a, b⟩ := h.mcopy (h.2 r x hx) e1
    exact a.app b
  | copyAssign q r =>
    simp only [MMem.step] at e
    split at e
    · obtain ⟨_, _, rfl⟩ := Option.map_eq_some_iff.mp e
      exact h
    · simp only [Option.bind_eq_some_iff, Option.map_eq_some_iff] at e
      obtain ⟨y, hy, x, hx, m1, e1, z, e2, rfl⟩ := e
      obtain ⟨a, b⟩ := (h.mfree (h.2 q y hy) e1).mcopy (h.2 r x hx) e2
      exact a.sett q (one b)
  | move r =>
    simp only [MMem.step, Option.map_eq_some_iff] at e
    obtain ⟨x, hx, rfl⟩ := e
    exact (h.sett r e0).app (h.2 r x hx)
  | moveAssign q r =>
    simp only [MMem.step] at e
    split at e
    · obtain ⟨_, _, rfl⟩ := Option.map_eq_some_iff.mp e
      exact h
    · simp only [Option.bind_eq_some_iff, Option.map_eq_some_iff] at e
      obtain ⟨y, hy, x, hx, m1, e1, rfl⟩ := e
      exact ((h.mfree (h.2 q y hy) e1).sett q (one (h.2 r x hx))).sett r e0
  | swap q r =>
    simp only [MMem.step, Option.bind_eq_some_iff, Option.map_eq_some_iff] at e
    obtain ⟨y, hy, x, hx, rfl⟩ := e
    exact (h.sett q (one (h.2 r x hx))).sett r (one (h.2 q y hy))
  | destroy r =>
    simp only [MMem.step, Option.bind_eq_some_iff, Option.map_eq_some_iff] at e
    obtain ⟨x, hx, m1, e1, rfl⟩ := e
    exact (h.mfree (h.2 r x hx) e1).sett r nofun
  | set r i j v => exact h.edit e
  | fill r v => exact h.edit e
  | fill1 r i v => exact h.edit e
  | fill2 r j v => exact h.edit e

theorem MLost.stepT {m m' : MMem T} {b : Nat} {l : List (Option T)} (h : MLost m b l) (L : Layout) (I J : Nat) (o : MTOp T)
    (e : m.stepT L I J o = some m') : MLost m' b l := by
  cases o with
  | ok o => exact h.step L I J o e
  | new rows cols v k =>
    simp only [MMem.stepT] at e
    split at e
    · obtain ⟨x, e1, rfl⟩ := Option.map_eq_some_iff.mp e
      exact (h.minitPart e1).1
    · cases e
  | newFill rows cols v k =>
    simp only [MMem.stepT] at e
    split at e
    · obtain ⟨x, e1, rfl⟩ := Option.map_eq_some_iff.mp e
      exact (h.minitPart e1).1
    · cases e
  | copy r k =>
    simp only [MMem.stepT, Option.bind_eq_some_iff, Option.map_eq_some_iff] at e
    obtain ⟨x, hx, z, e1, rfl⟩ := e
    exact (h.mcopyPart (h.2 r x hx) e1).1
  | copyAssign q r k =>
    simp only [MMem.stepT] at e
    split at e
    · cases e
    · simp only [Option.bind_eq_some_iff, Option.map_eq_some_iff] at e
      obtain ⟨y, hy, x, hx, m1, e1, z, e2, rfl⟩ := e
      obtain ⟨a, b⟩ := (h.mfree (h.2 q y hy) e1).mcopyPart (h.2 r x hx) e2
      exact a.sett q (by rintro _ ⟨⟩; exact b)
  | set r i j v => exact h.edit e
  | fill r v k => exact h.edit e
  | fill1 r i v k => exact h.edit e
  | fill2 r j v k => exact h.edit e

theorem MLost.runT {b : Nat} {l : List (Option T)} (L : Layout) (I J : Nat) : ∀ (os : List (MTOp T)) {m m' : MMem T}, MLost m b l →
    m.runT L I J os = some m' → MLost m' b l
  | [], m, m', h, e => by cases e; exact h
  | o :: t, m, m', h, e => by
    simp only [MMem.runT, Option.bind_eq_some_iff] at e
    obtain ⟨m1, e1, e2⟩ := e
    exact MLost.runT L I J t (h.stepT L I J o e1) e2

end Verif.Util
