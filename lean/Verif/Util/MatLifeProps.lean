import Verif.Util.MatLife
import Verif.Util.ArrProps
import Verif.Util.MatProps
set_option linter.unusedSimpArgs false
set_option linter.unusedVariables false

/-!
C138: `BiMatrix` has the semantics of a value, for every history of calls on any number of matrices, in either layout.
-/
namespace Verif.Util

variable {T : Type}

/-! ### The specification -/

/-- A rectangle of values; `cell a b` counts for `a < rows`, `b < cols`. -/
structure Grid (T : Type) where
  rows : Nat
  cols : Nat
  cell : Nat → Nat → T

/-- What the caller sees of each matrix; `none` after destruction. -/
abbrev Grids (T : Type) := List (Option (Grid T))

/-- The matrix `r`. -/
def gr (s : Grids T) (r : Nat) : Option (Grid T) := (s[r]?).join

/-- Which calls are legal: the matrices exist, the indices are in range, and the number of cells can be represented.  (The condition
`j < J + g.rows` of `fill2` is the code's.) -/
def GLegal (I J : Nat) (s : Grids T) : MOp T → Prop
  | .new rows cols _ | .newFill rows cols _ => rows ≤ (2 ^ 64 - 1) / 2 ∧ cols ≤ (2 ^ 64 - 1) / 2 ∧ rows * cols < 2 ^ 64
  | .copy r | .move r | .destroy r | .fill r _ => ∃ g, gr s r = some g
  | .copyAssign q r | .moveAssign q r | .swap q r => (∃ g, gr s q = some g) ∧ ∃ g, gr s r = some g
  | .set r i j _ => ∃ g, gr s r = some g ∧ (I ≤ i ∧ i < I + g.rows) ∧ (J ≤ j ∧ j < J + g.cols)
  | .fill1 r i _ => ∃ g, gr s r = some g ∧ I ≤ i ∧ i < I + g.rows
  | .fill2 r j _ => ∃ g, gr s r = some g ∧ J ≤ j ∧ j < J + g.cols ∧ j < J + g.rows

/-- The intended effect of each call. -/
def GWant (I J : Nat) (s : Grids T) : MOp T → Grids T
  | .new rows cols d | .newFill rows cols d => s ++ [some ⟨rows, cols, fun _ _ => d⟩]
  | .copy r => s ++ [gr s r]
  | .copyAssign q r => s.set q (gr s r)
  | .move r => s.set r ((gr s r).map fun g => ⟨0, 0, g.cell⟩) ++ [gr s r]
  | .moveAssign q r => if q = r then s else (s.set q (gr s r)).set r ((gr s r).map fun g => ⟨0, 0, g.cell⟩)
  | .swap q r => (s.set q (gr s r)).set r (gr s q)
  | .destroy r => s.set r none
  | .set r i j v => s.set r ((gr s r).map fun g => { g with cell := fun a b => if a = i - I ∧ b = j - J then v else g.cell a b })
  | .fill r v => s.set r ((gr s r).map fun g => { g with cell := fun _ _ => v })
  | .fill1 r i v => s.set r ((gr s r).map fun g => { g with cell := fun a b => if a = i - I then v else g.cell a b })
  | .fill2 r j v => s.set r ((gr s r).map fun g => { g with cell := fun a b => if b = j - J then v else g.cell a b })

/-- A history of legal calls. -/
def GLegals (I J : Nat) (s : Grids T) : List (MOp T) → Prop
  | [] => True
  | o :: t => GLegal I J s o ∧ GLegals I J (GWant I J s o) t

/-- The intended effect of a history. -/
def GWants (I J : Nat) (s : Grids T) : List (MOp T) → Grids T
  | [] => s
  | o :: t => GWants I J (GWant I J s o) t

/-! ### The matrices as arrays -/

/-- The record of a matrix as that of an array. -/
def Mx.arr (x : Mx) : Vec := Util.arr x.size x.data

/-- The memory of the matrices as a memory of arrays. -/
def MMem.arrs (m : MMem T) : Mem T := ⟨m.blocks, m.mxs.map (Option.map Mx.arr), m.gone⟩

theorem arrs_vec (m : MMem T) (r : Nat) : m.arrs.vec r = (m.mx r).map Mx.arr := by
  unfold Mem.vec MMem.mx MMem.arrs
  rw [List.getElem?_map]
  rcases m.mxs[r]? with _ | _ | _ <;> rfl

theorem arrs_cells (m : MMem T) (p : Option Nat) : m.arrs.cells p = m.mem.cells p := by cases p <;> rfl

theorem arrs_put (m : MMem T) (p : Option Nat) (l : List (Option T)) : (m.back (m.mem.put p l)).arrs = m.arrs.put p l := by
  cases p <;> rfl

/-- What `ainit` does with the memory does not depend on the arrays. -/
theorem ainit_arrs (m : MMem T) (rows cols : Nat) (vs : List T) (h : rows * cols % sizeMod = vs.length) :
    (m.minit rows cols vs).map (fun x => (x.1.arr, x.2.arrs)) = m.arrs.ainit vs ∧
    ∀ x, m.minit rows cols vs = some x → x.1.size1 = rows ∧ x.1.size2 = cols ∧ x.2.mxs = m.mxs := by
  constructor
  · unfold MMem.minit Mem.ainit Mem.ablock
    by_cases e : vs.length = 0
    · have : vs = [] := List.eq_nil_of_length_eq_zero e
      subst this
      simp only [List.length_nil, if_true, Mem.cells, construct, Option.map_some, Mem.put, Mx.arr, Mx.size, h, Util.arr]
      rfl
    · simp only [e, if_false, Mem.cells, MMem.mem, MMem.arrs, List.getElem?_append_right (Nat.le_refl _), Nat.sub_self,
        List.getElem?_cons_zero, Option.join_some]
      cases construct (List.replicate vs.length none) 0 vs with
      | none => rfl
      | some l' => simp only [Option.map_some, Mem.put, Mx.arr, Mx.size, h, Util.arr, MMem.back]
  · intro x hx
    unfold MMem.minit at hx
    obtain ⟨y, -, rfl⟩ := Option.map_eq_some_iff.mp hx
    exact ⟨rfl, rfl, rfl⟩

theorem afree_arrs (m : MMem T) (x : Mx) : (m.mfree x).map MMem.arrs = m.arrs.afree x.arr ∧ ∀ m1, m.mfree x = some m1 → m1.mxs = m.mxs := by
  constructor
  · unfold MMem.mfree Mem.afree
    rw [arrs_cells]
    simp only [Mx.arr, Util.arr]
    cases m.mem.cells x.data with
    | none => rfl
    | some l =>
      dsimp only
      cases destroyN l 0 x.size with
      | none => rfl
      | some l' => cases x.data <;> rfl
  · intro m1 h
    unfold MMem.mfree at h
    obtain ⟨y, -, rfl⟩ := Option.map_eq_some_iff.mp h
    rfl

/-! ### The relation -/

/-- The cells `c` hold the grid `g`. -/
structure Flat (L : Layout) (g : Grid T) (c : List T) : Prop where
  len : c.length = g.rows * g.cols
  small : g.rows * g.cols < sizeMod
  get : ∀ a b, a < g.rows → b < g.cols → c[pos L g.rows g.cols a b]? = some (g.cell a b)

/-- One matrix: its record, its cells, its grid. -/
def Row (L : Layout) (x : Option Mx) (c : Option (List T)) (g : Option (Grid T)) : Prop :=
  match g with
  | some g => ∃ c' x', c = some c' ∧ Flat L g c' ∧ x = some x' ∧ x'.size1 = g.rows ∧ x'.size2 = g.cols
  | none => c = none

/-- The memory `m` holds the grids `s`; `f` are the cells of each. -/
structure Holds (L : Layout) (m : MMem T) (f : Arrs T) (s : Grids T) : Prop where
  reps : Reps m.arrs (full f)
  len : f.length = s.length
  rows : ∀ r, Row L (m.mx r) (ar f r) (gr s r)

theorem Holds.live {L : Layout} {m : MMem T} {f : Arrs T} {s : Grids T} (h : Holds L m f s) {r : Nat} {g : Grid T} (hg : gr s r = some g) :
    ∃ c x, ar f r = some c ∧ Flat L g c ∧ m.mx r = some x ∧ x.size1 = g.rows ∧ x.size2 = g.cols := by
  have := h.rows r
  rw [hg] at this
  exact this

theorem gr_set (s : Grids T) (q r : Nat) (g : Option (Grid T)) :
    gr (s.set q g) r = if q = r ∧ q < s.length then g else gr s r := by
  unfold gr
  rw [List.getElem?_set]
  by_cases e : q = r
  · subst e
    by_cases l : q < s.length
    · simp [l]
    · simp [l]
  · simp [e]

theorem ar_set (s : Arrs T) (q r : Nat) (g : Option (List T)) :
    ar (s.set q g) r = if q = r ∧ q < s.length then g else ar s r := by
  unfold ar
  rw [List.getElem?_set]
  by_cases e : q = r
  · subst e
    by_cases l : q < s.length
    · simp [l]
    · simp [l]
  · simp [e]

theorem gr_append (s : Grids T) (r : Nat) (g : Option (Grid T)) : gr (s ++ [g]) r = if r = s.length then g else gr s r := by
  unfold gr
  by_cases l : r < s.length
  · rw [List.getElem?_append_left l, if_neg (by omega)]
  · by_cases e : r = s.length
    · subst e; simp
    · rw [if_neg e, List.getElem?_eq_none (by simp; omega), List.getElem?_eq_none (by omega)]

theorem ar_append (s : Arrs T) (r : Nat) (g : Option (List T)) : ar (s ++ [g]) r = if r = s.length then g else ar s r := by
  unfold ar
  by_cases l : r < s.length
  · rw [List.getElem?_append_left l, if_neg (by omega)]
  · by_cases e : r = s.length
    · subst e; simp
    · rw [if_neg e, List.getElem?_eq_none (by simp; omega), List.getElem?_eq_none (by omega)]

theorem gr_lt {s : Grids T} {r : Nat} {g : Grid T} (h : gr s r = some g) : r < s.length := by
  unfold gr at h
  rcases Nat.lt_or_ge r s.length with x | x
  · exact x
  · rw [List.getElem?_eq_none x] at h; cases h

theorem mx_lt {m : MMem T} {r : Nat} {x : Mx} (h : m.mx r = some x) : r < m.mxs.length := by
  unfold MMem.mx at h
  rcases Nat.lt_or_ge r m.mxs.length with y | y
  · exact y
  · rw [List.getElem?_eq_none y] at h; cases h

theorem mxs_set (l : List (Option Mx)) (q r : Nat) (x : Option Mx) :
    ((l.set q x)[r]?).join = if q = r ∧ q < l.length then x else (l[r]?).join := by
  rw [List.getElem?_set]
  by_cases e : q = r
  · subst e
    by_cases h : q < l.length
    · simp [h]
    · simp [h]
  · simp [e]

theorem mxs_append (l : List (Option Mx)) (r : Nat) (x : Option Mx) :
    ((l ++ [x])[r]?).join = if r = l.length then x else (l[r]?).join := by
  by_cases h : r < l.length
  · rw [List.getElem?_append_left h, if_neg (by omega)]
  · by_cases e : r = l.length
    · subst e; simp
    · rw [if_neg e, List.getElem?_eq_none (by simp; omega), List.getElem?_eq_none (by omega)]

theorem Holds.mlen {L : Layout} {m : MMem T} {f : Arrs T} {s : Grids T} (h : Holds L m f s) : m.mxs.length = s.length := by
  have := h.reps.len
  simpa [MMem.arrs, full, h.len] using this

theorem rows_set {L : Layout} {l : List (Option Mx)} {f : Arrs T} {s : Grids T} (h1 : l.length = s.length) (h2 : f.length = s.length)
    (h : ∀ r : Nat, Row L ((l[r]?).join) (ar f r) (gr s r)) (q : Nat) {x : Option Mx} {c : Option (List T)} {g : Option (Grid T)}
    (hx : Row L x c g) : ∀ r : Nat, Row L (((l.set q x)[r]?).join) (ar (f.set q c) r) (gr (s.set q g) r) := by
  intro r
  rw [mxs_set, ar_set, gr_set, h1, h2]
  split
  · exact hx
  · exact h r

theorem rows_append {L : Layout} {l : List (Option Mx)} {f : Arrs T} {s : Grids T} (h1 : l.length = s.length) (h2 : f.length = s.length)
    (h : ∀ r : Nat, Row L ((l[r]?).join) (ar f r) (gr s r)) {x : Option Mx} {c : Option (List T)} {g : Option (Grid T)}
    (hx : Row L x c g) : ∀ r : Nat, Row L (((l ++ [x])[r]?).join) (ar (f ++ [c]) r) (gr (s ++ [g]) r) := by
  intro r
  rw [mxs_append, ar_append, gr_append, h1, h2]
  split
  · exact hx
  · exact h r

theorem row_empty (L : Layout) (f : Nat → Nat → T) : Row L (some ⟨0, 0, none⟩) (some []) (some ⟨0, 0, f⟩) :=
  ⟨[], ⟨0, 0, none⟩, rfl, ⟨rfl, by simp [sizeMod], fun _ _ h => absurd h (Nat.not_lt_zero _)⟩, rfl, rfl, rfl⟩

/-- From a call on arrays to one on matrices. -/
theorem lift {L : Layout} {m : MMem T} {f : Arrs T} {s : Grids T} (h : Holds L m f s) (o' : AOp T) (hl : ALegal 0 f o')
    {r : Option (MMem T)} (he : r.map MMem.arrs = m.arrs.astep 0 o') :
    ∃ m', r = some m' ∧ Reps m'.arrs (full (AWant 0 f o')) := by
  obtain ⟨a, h1, h2⟩ := C105_step 0 m.arrs f o' h.reps hl
  rw [h1] at he
  obtain ⟨m', e, rfl⟩ := Option.map_eq_some_iff.mp he
  exact ⟨m', e, h2⟩

theorem Flat.const (L : Layout) (rows cols : Nat) (v : T) (h : rows * cols < sizeMod) :
    Flat L ⟨rows, cols, fun _ _ => v⟩ (List.replicate (rows * cols) v) := by
  refine ⟨by simp, h, fun a b ha hb => ?_⟩
  rw [List.getElem?_replicate, if_pos (pos_lt ha hb)]

theorem strideN_spec (v : T) (stride : Nat) : ∀ (n p : Nat) (c : List T), (∀ k, k < n → p + k * stride < c.length) →
    ∃ c', strideN v stride (form c c.length) p n = some (form c' c.length) ∧ c'.length = c.length ∧
      strideFill v stride c p n = .ok c'
  | 0, p, c, _ => ⟨c, rfl, rfl, rfl⟩
  | n + 1, p, c, h => by
    have hp : p < c.length := by have := h 0 (by omega); simpa using this
    obtain ⟨u, hu⟩ := form_live (Nat.le_refl c.length) hp
    obtain ⟨c', h1, h2, h3⟩ := strideN_spec v stride n (p + stride) (c.set p v) (fun k hk => by
      have := h (k + 1) (by omega)
      rw [List.length_set]
      rw [Nat.add_mul] at this; omega)
    rw [List.length_set] at h1 h2
    refine ⟨c', ?_, h2, ?_⟩
    · simp only [strideN, hu]
      rw [set_form (Nat.le_refl _) hp]; exact h1
    · simp only [strideFill, if_pos hp]; exact h3

theorem fillN_stride (v : T) : ∀ (n p : Nat) (l : List (Option T)), fillN v l p n = strideN v 1 l p n
  | 0, p, l => rfl
  | n + 1, p, l => by
    simp only [fillN, strideN]
    rcases l[p]? with _ | _ | x
    · rfl
    · rfl
    · exact fillN_stride v n (p + 1) _

/-- Filling the cells `p, p + stride, …` where these are the ones `sel` selects. -/
theorem Flat.filled {L : Layout} {g : Grid T} {c : List T} (h : Flat L g c) (v : T) (p stride n : Nat) (sel : Nat → Nat → Prop)
    [∀ a b, Decidable (sel a b)] (hin : ∀ k, k < n → p + k * stride < g.rows * g.cols)
    (hsel : ∀ a b, a < g.rows → b < g.cols → (sel a b ↔ ∃ k, k < n ∧ pos L g.rows g.cols a b = p + k * stride)) :
    ∃ c', strideN v stride (form c c.length) p n = some (form c' c.length) ∧ c'.length = c.length ∧
      Flat L { g with cell := fun a b => if sel a b then v else g.cell a b } c' := by
  have hin' : ∀ k, k < n → p + k * stride < c.length := fun k hk => by rw [h.len]; exact hin k hk
  obtain ⟨c', h1, h2, h3⟩ := strideN_spec v stride n p c hin'
  obtain ⟨c'', e1, e2, e3, e4⟩ := strideFill_spec v stride n p c hin'
  rw [h3] at e1; cases e1
  refine ⟨c', h1, h2, ⟨h2.trans h.len, h.small, fun a b ha hb => ?_⟩⟩
  dsimp only
  by_cases e : sel a b
  · rw [if_pos e]
    obtain ⟨k, hk, hp⟩ := (hsel a b ha hb).mp e
    rw [hp]; exact e3 k hk
  · rw [if_neg e, e4 _ (fun k hk hp => e ((hsel a b ha hb).mpr ⟨k, hk, hp⟩))]
    exact h.get a b ha hb

/-- Editing the cells of one matrix. -/
theorem Holds.edit {L : Layout} {m : MMem T} {f : Arrs T} {s : Grids T} (h : Holds L m f s) {r : Nat} {g g' : Grid T}
    (hg : gr s r = some g) (hr : g'.rows = g.rows) (hc : g'.cols = g.cols) {F : Mx → List (Option T) → Option (List (Option T))}
    (hF : ∀ x c, x.size1 = g.rows → x.size2 = g.cols → Flat L g c →
      ∃ c', F x (form c c.length) = some (form c' c.length) ∧ c'.length = c.length ∧ Flat L g' c') :
    ∃ m' f', m.edit r F = some m' ∧ Holds L m' f' (s.set r (some g')) := by
  obtain ⟨c, x, h1, h2, h3, h4, h5⟩ := h.live hg
  obtain ⟨c', e1, e2, e3⟩ := hF x c h4 h5 h2
  obtain ⟨a, k1, k2⟩ := edit_of (f := fun _ l => F x l) h.reps h1 e2 (fun _ _ => e1)
  have hv : m.arrs.vec r = some x.arr := by rw [arrs_vec, h3]; rfl
  have key : (m.edit r F).map MMem.arrs = m.arrs.aedit r fun _ l => F x l := by
    unfold MMem.edit Mem.aedit
    rw [h3, hv]
    simp only [Option.bind_some, arrs_cells, Mx.arr, Util.arr]
    cases m.mem.cells x.data with
    | none => rfl
    | some l =>
      simp only [Option.bind_some]
      cases F x l with
      | none => rfl
      | some l' => simp only [Option.map_some, arrs_put]
  rw [k1] at key
  obtain ⟨m', e, rfl⟩ := Option.map_eq_some_iff.mp key
  have hm : m'.mxs = m.mxs := by
    unfold MMem.edit at e
    rw [h3] at e
    simp only [Option.bind_some] at e
    obtain ⟨l, -, e⟩ := Option.bind_eq_some_iff.mp e
    obtain ⟨l', -, rfl⟩ := Option.map_eq_some_iff.mp e
    rfl
  have hlt : r < s.length := gr_lt hg
  refine ⟨m', f.set r (some c'), e, k2, by simp [h.len], ?_⟩
  have h6 : m.mxs.set r (some x) = m.mxs := by
    apply ext_opt
    intro i
    rw [List.getElem?_set]
    split
    · rename_i ei; subst ei
      have hx : m.mxs[r]? = some (some x) := Option.join_eq_some_iff.mp h3
      rw [hx, if_pos (mx_lt h3)]
    · rfl
  have := rows_set h.mlen h.len (fun r => h.rows r) r (x := some x) (c := some c') (g := some g')
    ⟨c', x, rfl, e3, rfl, by rw [hr]; exact h4, by rw [hc]; exact h5⟩
  rw [h6] at this
  intro r'
  have e' : m'.mx r' = (m.mxs[r']?).join := by unfold MMem.mx; rw [hm]
  rw [e']; exact this r'

theorem mcopy_arrs {L : Layout} {m : MMem T} {x : Mx} {g : Grid T} {c : List T} (hx : x.size1 = g.rows) (hy : x.size2 = g.cols)
    (hf : Flat L g c) (hR : Rep m.arrs x.arr (c.length, c)) :
    (m.mcopy x).map (fun z => (z.1.arr, z.2.arrs)) = m.arrs.ainit c ∧
    ∀ z, m.mcopy x = some z → z.1.size1 = x.size1 ∧ z.1.size2 = x.size2 ∧ z.2.mxs = m.mxs := by
  have hs : x.size = c.length := hR.size
  unfold MMem.mcopy
  by_cases e : x.size = 0
  · rw [if_pos e]
    have hc : c = [] := List.eq_nil_of_length_eq_zero (hs ▸ e)
    subst hc
    have hd : x.data = none := hR.null.mpr rfl
    refine ⟨?_, fun z hz => by cases hz; exact ⟨rfl, rfl, rfl⟩⟩
    simp only [Option.map_some, Mem.ainit, Mem.ablock, List.length_nil, if_true, Mem.cells, construct, Mem.put, Mx.arr, Util.arr, e, hd]
  · rw [if_neg e]
    have h1 : m.mem.cells x.data = some (form c c.length) := by
      rw [← arrs_cells]; exact hR.mem
    have h2 : readN (form c c.length) 0 x.size = some c := by
      have := elems_spec hR
      simp only [Mem.elems] at this
      have hm : m.arrs.cells x.arr.data = some (form c c.length) := hR.mem
      rw [hm] at this
      exact this
    rw [h1, Option.bind_some, h2, Option.bind_some]
    exact ainit_arrs m x.size1 x.size2 c hs

/-- Every legal call is defined and has the intended effect. -/
theorem C138_step (L : Layout) (I J : Nat) (m : MMem T) (f : Arrs T) (s : Grids T) (o : MOp T) (h : Holds L m f s) (hl : GLegal I J s o) :
    ∃ m' f', m.step L I J o = some m' ∧ Holds L m' f' (GWant I J s o) := by
  have small : ∀ {g : Grid T} {c : List T} {x : Mx}, Flat L g c → x.size1 = g.rows → x.size2 = g.cols → x.size = c.length := by
    intro g c x hf h1 h2
    rw [Mx.size, h1, h2, hf.len]; exact Nat.mod_eq_of_lt hf.small
  have fresh : ∀ rows cols d, GLegal I J s (.new rows cols d) →
      ∃ m' f', m.step L I J (.new rows cols d) = some m' ∧ Holds L m' f' (s ++ [some ⟨rows, cols, fun _ _ => d⟩]) := by
    rintro rows cols d ⟨l1, l2, l3⟩
    have hm : rows * cols % sizeMod = rows * cols := Nat.mod_eq_of_lt l3
    obtain ⟨i1, i2⟩ := ainit_arrs m rows cols (List.replicate (rows * cols) d) (by rw [hm]; simp)
    obtain ⟨m', e1, e2⟩ := lift h (.new (rows * cols) d) trivial
      (r := (m.minit rows cols (List.replicate (rows * cols) d)).map MMem.push) (by
        simp only [Mem.astep, ← i1, Option.map_map]
        congr 1
        funext x
        simp [MMem.push, Mem.apush, MMem.arrs])
    refine ⟨m', _, ?_, e2, by simp [AWant, h.len], ?_⟩
    · simp only [MMem.step, hm]
      rw [if_pos ⟨l1, l2⟩]; exact e1
    · obtain ⟨x, hx, rfl⟩ := Option.map_eq_some_iff.mp e1
      obtain ⟨j1, j2, j3⟩ := i2 x hx
      have := rows_append h.mlen h.len (fun r => h.rows r) (x := some x.1) (c := some (List.replicate (rows * cols) d))
        (g := some ⟨rows, cols, fun _ _ => d⟩) ⟨_, x.1, rfl, Flat.const L rows cols d l3, rfl, j1, j2⟩
      intro r
      have e : (MMem.push x).mx r = ((m.mxs ++ [some x.1])[r]?).join := by
        simp only [MMem.mx, MMem.push, j3]
      rw [e]; exact this r
  cases o with
  | new rows cols d => exact fresh rows cols d hl
  | newFill rows cols d => exact fresh rows cols d hl
  | copy r =>
    obtain ⟨g, hg⟩ := hl
    obtain ⟨c, x, h1, h2, h3, h4, h5⟩ := h.live hg
    obtain ⟨v, hv, R⟩ := h.reps.rep r (c.length, c) (by rw [sq_full, h1]; rfl)
    rw [arrs_vec, h3] at hv
    cases hv
    obtain ⟨i1, i2⟩ := mcopy_arrs h4 h5 h2 R
    obtain ⟨m', e1, e2⟩ := lift h (.copy r) ⟨c, h1⟩ (r := (m.mcopy x).map MMem.push) (by
      have e := elems_spec R
      simp only [Mem.astep, awalk_eq, arrs_vec, h3, Option.map_some, Option.bind_some, e, ← i1, Option.map_map]
      congr 1
      funext x
      simp [MMem.push, Mem.apush, MMem.arrs])
    refine ⟨m', _, ?_, e2, by simp [AWant, GWant, h.len], ?_⟩
    · simp only [MMem.step, h3, Option.bind_some]; exact e1
    · obtain ⟨z, hz, rfl⟩ := Option.map_eq_some_iff.mp e1
      obtain ⟨j1, j2, j3⟩ := i2 z hz
      have := rows_append h.mlen h.len (fun r => h.rows r) (x := some z.1) (c := ar f r) (g := gr s r) (by
        rw [h1, hg]; exact ⟨c, z.1, rfl, h2, rfl, j1.trans h4, j2.trans h5⟩)
      intro r'
      have e : (MMem.push z).mx r' = ((m.mxs ++ [some z.1])[r']?).join := by
        simp only [MMem.mx, MMem.push, j3]
      rw [e]; exact this r'
  | copyAssign q r =>
    obtain ⟨⟨g', hg'⟩, g, hg⟩ := hl
    obtain ⟨c, x, h1, h2, h3, h4, h5⟩ := h.live hg
    obtain ⟨c', y, k1, k2, k3, k4, k5⟩ := h.live hg'
    by_cases eq : q = r
    · subst eq
      refine ⟨m, f, by simp only [MMem.step, if_true, h3, Option.map_some], ?_⟩
      have : s.set q (gr s q) = s := by
        apply ext_opt
        intro i
        rw [List.getElem?_set]
        split
        · rename_i ei; subst ei
          have hx : s[q]? = some (some g) := Option.join_eq_some_iff.mp hg
          rw [hx, hg, if_pos (gr_lt hg)]
        · rfl
      simp only [GWant, this]
      exact h
    · obtain ⟨v, hv, R⟩ := h.reps.rep r (c.length, c) (by rw [sq_full, h1]; rfl)
      obtain ⟨w, hw, Rw⟩ := h.reps.rep q (c'.length, c') (by rw [sq_full, k1]; rfl)
      obtain ⟨a1, f1, f2, f3, f4, f5, f6⟩ := free_spec Rw
      have R1 : Rep a1 v (c.length, c) := R.congr (by
        rcases hb : v.data with _ | b
        · rfl
        · exact f4 _ (fun b' e1 e2 => eq (h.reps.sep q r w v b' hw hv e1 (hb.trans e2))))
      have hv' := hv
      have hw' := hw
      rw [arrs_vec, h3] at hv'
      rw [arrs_vec, k3] at hw'
      cases hv'; cases hw'
      obtain ⟨p1, p2⟩ := afree_arrs m y
      have p3 : m.arrs.afree y.arr = some a1 := f1
      rw [p3] at p1
      obtain ⟨m1, g1, rfl⟩ := Option.map_eq_some_iff.mp p1
      have g2 := p2 m1 g1
      obtain ⟨i1, i2⟩ := mcopy_arrs h4 h5 h2 R1
      have hv1 : m1.arrs.vec r = some x.arr := by
        rw [arrs_vec]; unfold MMem.mx; rw [g2]
        have h3' : (m.mxs[r]?).join = some x := h3
        rw [h3']; rfl
      obtain ⟨m', e1, e2⟩ := lift h (.copyAssign q r) ⟨⟨c', k1⟩, c, h1⟩
        (r := (m1.mcopy x).map fun z => { z.2 with mxs := z.2.mxs.set q (some z.1) }) (by
          have e := elems_spec R1
          have hw2 : m.arrs.vec q = some y.arr := hw
          simp only [Mem.astep, eq, if_false, hw2, Option.bind_some, p3, awalk_eq, hv1, e, ← i1, Option.map_map]
          congr 1
          funext z
          simp [MMem.arrs, List.map_set])
      refine ⟨m', _, ?_, e2, by simp [AWant, GWant, h.len], ?_⟩
      · simp only [MMem.step, eq, if_false, k3, h3, Option.bind_some, g1]; exact e1
      · obtain ⟨z, hz, rfl⟩ := Option.map_eq_some_iff.mp e1
        obtain ⟨j1, j2, j3⟩ := i2 z hz
        have := rows_set h.mlen h.len (fun r => h.rows r) q (x := some z.1) (c := ar f r) (g := gr s r) (by
          rw [h1, hg]; exact ⟨c, z.1, rfl, h2, rfl, j1.trans h4, j2.trans h5⟩)
        intro r'
        have e : (MMem.mx { z.2 with mxs := z.2.mxs.set q (some z.1) } r') = ((m.mxs.set q (some z.1))[r']?).join := by
          simp only [MMem.mx, j3, g2]
        rw [e]; exact this r'
  | move r =>
    obtain ⟨g, hg⟩ := hl
    obtain ⟨c, x, h1, h2, h3, h4, h5⟩ := h.live hg
    obtain ⟨m', e1, e2⟩ := lift h (.move r) ⟨c, h1⟩ (r := m.step L I J (.move r)) (by
      simp only [MMem.step, Mem.astep, arrs_vec, h3, Option.map_some]
      simp [MMem.arrs, List.map_set]; rfl)
    refine ⟨m', _, e1, e2, by simp [AWant, GWant, h.len], ?_⟩
    simp only [MMem.step, h3, Option.map_some, Option.some.injEq] at e1
    subst e1
    have r1 := rows_set h.mlen h.len (fun r => h.rows r) r (row_empty L g.cell)
    have r2 := rows_append (by simp [h.mlen]) (by simp [h.len]) r1 (x := some x) (c := ar f r) (g := gr s r) (by
      rw [h1, hg]; exact ⟨c, x, rfl, h2, rfl, h4, h5⟩)
    simp only [GWant, AWant, hg, Option.map_some] at r2 ⊢
    exact r2
  | moveAssign q r =>
    obtain ⟨⟨g', hg'⟩, g, hg⟩ := hl
    obtain ⟨c, x, h1, h2, h3, h4, h5⟩ := h.live hg
    obtain ⟨c', y, k1, k2, k3, k4, k5⟩ := h.live hg'
    by_cases eq : q = r
    · subst eq
      refine ⟨m, f, by simp only [MMem.step, if_true, h3, Option.map_some], ?_⟩
      simp only [GWant, if_true]
      exact h
    · obtain ⟨p1, p2⟩ := afree_arrs m y
      obtain ⟨m', e1, e2⟩ := lift h (.moveAssign q r) ⟨⟨c', k1⟩, c, h1⟩ (r := m.step L I J (.moveAssign q r)) (by
        simp only [MMem.step, Mem.astep, arrs_vec, h3, k3, eq, if_false, Option.map_some, Option.bind_some, ← p1, Option.map_map]
        congr 1
        funext z
        simp [MMem.arrs, List.map_set]; rfl)
      refine ⟨m', _, e1, e2, by simp [AWant, GWant, eq, h.len], ?_⟩
      simp only [MMem.step, eq, if_false, h3, k3, Option.bind_some] at e1
      obtain ⟨m1, g1, rfl⟩ := Option.map_eq_some_iff.mp e1
      have g2 := p2 m1 g1
      have r1 := rows_set h.mlen h.len (fun r => h.rows r) q (x := some x) (c := ar f r) (g := gr s r) (by
        rw [h1, hg]; exact ⟨c, x, rfl, h2, rfl, h4, h5⟩)
      have r2 := rows_set (by simp [h.mlen]) (by simp [h.len]) r1 r (row_empty L g.cell)
      simp only [GWant, AWant, eq, if_false, MMem.mx, g2]
      simpa only [hg, Option.map_some] using r2
  | swap q r =>
    obtain ⟨⟨g', hg'⟩, g, hg⟩ := hl
    obtain ⟨c, x, h1, h2, h3, h4, h5⟩ := h.live hg
    obtain ⟨c', y, k1, k2, k3, k4, k5⟩ := h.live hg'
    obtain ⟨m', e1, e2⟩ := lift h (.swap q r) ⟨⟨c', k1⟩, c, h1⟩ (r := m.step L I J (.swap q r)) (by
      simp only [MMem.step, Mem.astep, arrs_vec, h3, k3, Option.map_some, Option.bind_some]
      simp [MMem.arrs, List.map_set])
    refine ⟨m', _, e1, e2, by simp [AWant, GWant, h.len], ?_⟩
    simp only [MMem.step, h3, k3, Option.map_some, Option.bind_some, Option.some.injEq] at e1
    subst e1
    have r1 := rows_set h.mlen h.len (fun r => h.rows r) q (x := some x) (c := ar f r) (g := gr s r) (by
      rw [h1, hg]; exact ⟨c, x, rfl, h2, rfl, h4, h5⟩)
    exact rows_set (by simp [h.mlen]) (by simp [h.len]) r1 r (x := some y) (c := ar f q) (g := gr s q) (by
      rw [k1, hg']; exact ⟨c', y, rfl, k2, rfl, k4, k5⟩)
  | destroy r =>
    obtain ⟨g, hg⟩ := hl
    obtain ⟨c, x, h1, h2, h3, h4, h5⟩ := h.live hg
    obtain ⟨p1, p2⟩ := afree_arrs m x
    obtain ⟨m', e1, e2⟩ := lift h (.destroy r) ⟨c, h1⟩ (r := m.step L I J (.destroy r)) (by
      simp only [MMem.step, Mem.astep, arrs_vec, h3, Option.map_some, Option.bind_some, ← p1, Option.map_map]
      congr 1
      funext z
      simp [MMem.arrs, List.map_set])
    refine ⟨m', _, e1, e2, by simp [AWant, GWant, h.len], ?_⟩
    simp only [MMem.step, h3, Option.bind_some] at e1
    obtain ⟨m1, g1, rfl⟩ := Option.map_eq_some_iff.mp e1
    have g2 := p2 m1 g1
    have r1 := rows_set h.mlen h.len (fun r => h.rows r) r (x := (none : Option Mx)) (c := none) (g := none) rfl
    simp only [GWant, AWant, MMem.mx, g2]
    exact r1
  | set r i j v =>
    obtain ⟨g, hg, ⟨l1, l2⟩, l3, l4⟩ := hl
    simp only [MMem.step, GWant, hg, Option.map_some]
    refine h.edit hg (by rfl) (by rfl) (fun x c hx hy hf => ?_)
    obtain ⟨c', h1, h2, h3⟩ := hf.filled v (pos L g.rows g.cols (i - I) (j - J)) 0 1 (fun a b => a = i - I ∧ b = j - J)
      (fun k hk => by have := pos_lt (L := L) (rows := g.rows) (cols := g.cols) (a := i - I) (b := j - J) (by omega) (by omega); omega)
      (fun a b ha hb => by
        constructor
        · rintro ⟨rfl, rfl⟩; exact ⟨0, by omega, by omega⟩
        · rintro ⟨k, -, e⟩; exact pos_inj ha hb (by omega) (by omega) (by omega))
    refine ⟨c', ?_, h2, h3⟩
    rw [← h1]
    have e : x.index L I J i j = some (pos L g.rows g.cols (i - I) (j - J)) := by
      unfold Mx.index
      rw [if_pos (by omega), if_pos (by omega), hx, hy]
      cases L <;> rfl
    rw [e, Option.bind_some]
    rfl
  | fill r v =>
    obtain ⟨g, hg⟩ := hl
    simp only [MMem.step, GWant, hg, Option.map_some]
    refine h.edit hg (by rfl) (by rfl) (fun x c hx hy hf => ?_)
    obtain ⟨c', h1, h2, h3⟩ := hf.filled v 0 1 (g.rows * g.cols) (fun _ _ => True) (fun k hk => by omega)
      (fun a b ha hb => ⟨fun _ => ⟨pos L g.rows g.cols a b, pos_lt ha hb, by omega⟩, fun _ => trivial⟩)
    refine ⟨c', ?_, h2, ?_⟩
    · rw [fillN_stride, small hf hx hy, ← h1, hf.len]
    · simpa using h3
  | fill1 r i v =>
    obtain ⟨g, hg, l1, l2⟩ := hl
    simp only [MMem.step, GWant, hg, Option.map_some]
    refine h.edit hg (by rfl) (by rfl) (fun x c hx hy hf => ?_)
    have ha : i - I < g.rows := by omega
    unfold Mx.fill1
    rw [if_pos (by omega), hx, hy]
    cases L with
    | rowMajor =>
      obtain ⟨c', h1, h2, h3⟩ := hf.filled v ((i - I) * g.cols) 1 g.cols (fun a b => a = i - I)
        (fun k hk => by have := cell_lt ha hk; omega)
        (fun a b ha' hb => by
          constructor
          · rintro rfl; exact ⟨b, hb, by simp [pos]⟩
          · rintro ⟨k, hk, e⟩
            have e' : a * g.cols + b = (i - I) * g.cols + k := by simp only [pos] at e; omega
            exact (cell_inj hb hk e').1)
      exact ⟨c', by dsimp only; rw [fillN_stride]; exact h1, h2, h3⟩
    | colMajor =>
      obtain ⟨c', h1, h2, h3⟩ := hf.filled v (i - I) g.rows g.cols (fun a b => a = i - I)
        (fun k hk => by have := cell_lt hk ha; rw [Nat.mul_comm g.rows g.cols]; omega)
        (fun a b ha' hb => by
          constructor
          · rintro rfl; exact ⟨b, hb, by simp only [pos]; omega⟩
          · rintro ⟨k, hk, e⟩
            have e' : b * g.rows + a = k * g.rows + (i - I) := by simp only [pos] at e; omega
            exact (cell_inj ha' ha e').2)
      exact ⟨c', h1, h2, h3⟩
  | fill2 r j v =>
    obtain ⟨g, hg, l1, l2, l3⟩ := hl
    simp only [MMem.step, GWant, hg, Option.map_some]
    refine h.edit hg (by rfl) (by rfl) (fun x c hx hy hf => ?_)
    have hb : j - J < g.cols := by omega
    unfold Mx.fill2
    rw [if_pos (by omega), hx, hy]
    cases L with
    | colMajor =>
      obtain ⟨c', h1, h2, h3⟩ := hf.filled v ((j - J) * g.rows) 1 g.rows (fun a b => b = j - J)
        (fun k hk => by have := cell_lt hb hk; rw [Nat.mul_comm g.rows g.cols]; omega)
        (fun a b ha' hb => by
          constructor
          · rintro rfl; exact ⟨a, ha', by simp [pos]⟩
          · rintro ⟨k, hk, e⟩
            have e' : b * g.rows + a = (j - J) * g.rows + k := by simp only [pos] at e; omega
            exact (cell_inj ha' hk e').1)
      exact ⟨c', by dsimp only; rw [fillN_stride]; exact h1, h2, h3⟩
    | rowMajor =>
      obtain ⟨c', h1, h2, h3⟩ := hf.filled v (j - J) g.cols g.rows (fun a b => b = j - J)
        (fun k hk => by have := cell_lt hk hb; omega)
        (fun a b ha' hb' => by
          constructor
          · rintro rfl; exact ⟨a, ha', by simp only [pos]; omega⟩
          · rintro ⟨k, hk, e⟩
            have e' : a * g.cols + b = k * g.cols + (j - J) := by simp only [pos] at e; omega
            exact (cell_inj hb' hb e').2)
      exact ⟨c', h1, h2, h3⟩

theorem C138_runs (L : Layout) (I J : Nat) : ∀ (os : List (MOp T)) (m : MMem T) (f : Arrs T) (s : Grids T), Holds L m f s → GLegals I J s os →
    ∃ m' f', m.run L I J os = some m' ∧ Holds L m' f' (GWants I J s os)
  | [], m, f, s, h, _ => ⟨m, f, rfl, h⟩
  | o :: t, m, f, s, h, hl => by
    obtain ⟨m1, f1, h1, h2⟩ := C138_step L I J m f s o h hl.1
    obtain ⟨m2, f2, h3, h4⟩ := C138_runs L I J t m1 f1 _ h2 hl.2
    exact ⟨m2, f2, by simp only [MMem.run, h1, Option.bind_some, h3], h4⟩

theorem holds_init (L : Layout) : Holds L (MMem.init : MMem T) [] [] :=
  ⟨reps_init, rfl, fun r => by simp [Row, gr, ar]⟩

/-- What the caller sees of the matrix `r`: the numbers of rows and columns, `at(i, j)`, `front()`, `back()`. -/
def GObserved (L : Layout) (I J : Nat) (m' : MMem T) (r : Nat) (g : Grid T) : Prop :=
  (∃ x, m'.mx r = some x ∧ x.size1 = g.rows ∧ x.size2 = g.cols) ∧
  (∀ a b, a < g.rows → b < g.cols → m'.at L I J r (I + a) (J + b) = some (g.cell a b)) ∧
  (∀ i j, ¬ ((I ≤ i ∧ i < I + g.rows) ∧ (J ≤ j ∧ j < J + g.cols)) → m'.at L I J r i j = none) ∧
  (0 < g.rows → 0 < g.cols → m'.front r = some (g.cell 0 0) ∧ m'.last r = some (g.cell (g.rows - 1) (g.cols - 1)))

theorem gobserved {L : Layout} {I J : Nat} {m' : MMem T} {f' : Arrs T} {s : Grids T} (h : Holds L m' f' s) {r : Nat} {g : Grid T}
    (hg : gr s r = some g) : GObserved L I J m' r g := by
  obtain ⟨c, x, e1, e2, e3, e4, e5⟩ := h.live hg
  obtain ⟨v, hv, R⟩ := h.reps.rep r (c.length, c) (by rw [sq_full, e1]; rfl)
  rw [arrs_vec, e3] at hv
  cases hv
  have hm : m'.mem.cells x.data = some (form c c.length) := by rw [← arrs_cells]; exact R.mem
  have hd : ∀ p : Nat, ((form c c.length)[p]?).join = c[p]? := by
    intro p
    rw [form_get (Nat.le_refl _)]
    by_cases g : p < c.length
    · rw [if_pos g, List.getElem?_eq_getElem g]; rfl
    · rw [if_neg g, if_neg g, List.getElem?_eq_none (by omega)]; rfl
  refine ⟨⟨x, e3, e4, e5⟩, ?_, ?_, ?_⟩
  · intro a b ha hb
    have e : x.index L I J (I + a) (J + b) = some (pos L g.rows g.cols a b) := by
      unfold Mx.index
      rw [if_pos (by omega), if_pos (by omega), e4, e5, show I + a - I = a by omega, show J + b - J = b by omega]
      cases L <;> rfl
    simp only [MMem.at, e3, Option.bind_some, e, hm, hd]
    exact e2.get a b ha hb
  · intro i j hn
    have e : x.index L I J i j = none := by
      unfold Mx.index
      rw [e4, e5]
      split
      · rw [if_neg (fun k => hn ⟨by assumption, k⟩)]
      · rfl
    simp only [MMem.at, e3, Option.bind_some, e]; rfl
  · intro hr hc
    have s : x.size = g.rows * g.cols := by rw [Mx.size, e4, e5]; exact Nat.mod_eq_of_lt e2.small
    constructor
    · simp only [MMem.front, e3, Option.bind_some, hm, hd, e4, e5]
      rw [if_pos (by omega)]
      have := e2.get 0 0 hr hc
      cases L <;> simpa [pos] using this
    · simp only [MMem.last, e3, Option.bind_some, hm, hd, e4, e5, s]
      rw [if_pos (by omega)]
      have := e2.get (g.rows - 1) (g.cols - 1) (by omega) (by omega)
      have p : pos L g.rows g.cols (g.rows - 1) (g.cols - 1) = g.rows * g.cols - 1 := by
        obtain ⟨n, hn⟩ : ∃ n, g.rows = n + 1 := ⟨g.rows - 1, by omega⟩
        obtain ⟨k, hk⟩ : ∃ k, g.cols = k + 1 := ⟨g.cols - 1, by omega⟩
        rw [hn, hk]
        cases L
        · simp only [pos, Nat.add_sub_cancel, Nat.add_mul, Nat.mul_add]; omega
        · simp only [pos, Nat.add_sub_cancel, Nat.add_mul, Nat.mul_add, Nat.mul_comm n k]; omega
      rw [← p]; exact this

/-- **C138.** After every history of legal calls on any number of matrices, in either layout, no call was undefined, and every matrix has
exactly the rows, columns and cells that the specification names: `at(i, j)` for the index pairs in range and no other, `front()` and
`back()`.  The specification does not mention the layout. -/
theorem C138_partial (L : Layout) (I J : Nat) (os : List (MOp T)) (hl : GLegals I J [] os) :
    ∃ m', (MMem.init : MMem T).run L I J os = some m' ∧ ∀ (r : Nat) (g : Grid T), gr (GWants I J [] os) r = some g →
      (∃ x, m'.mx r = some x ∧ x.size1 = g.rows ∧ x.size2 = g.cols) ∧
      (∀ a b, a < g.rows → b < g.cols → m'.at L I J r (I + a) (J + b) = some (g.cell a b)) ∧
      (∀ i j, ¬ ((I ≤ i ∧ i < I + g.rows) ∧ (J ≤ j ∧ j < J + g.cols)) → m'.at L I J r i j = none) ∧
      (0 < g.rows → 0 < g.cols → m'.front r = some (g.cell 0 0) ∧ m'.last r = some (g.cell (g.rows - 1) (g.cols - 1))) := by
  obtain ⟨m', f', h1, h⟩ := C138_runs L I J os _ _ [] (holds_init L) hl
  exact ⟨m', h1, fun r g hg => gobserved h hg⟩

/-- **C138 (memory).** After every history of legal calls: every allocated block belongs to exactly one matrix that still exists, and holds
as many live objects as that matrix has cells; every released block was released without a live object in it; so when every matrix has
been destroyed, nothing is allocated and no object is alive. -/
theorem C138_no_leak (L : Layout) (I J : Nat) (os : List (MOp T)) (hl : GLegals I J [] os) :
    ∃ m', (MMem.init : MMem T).run L I J os = some m' ∧
      (∀ (b : Nat) (l : List (Option T)), m'.blocks[b]? = some (some l) →
        ∃ r x g, m'.mx r = some x ∧ x.data = some b ∧ (∀ q y, m'.mx q = some y → y.data = some b → q = r) ∧
          gr (GWants I J [] os) r = some g ∧ l.length = g.rows * g.cols ∧ ∀ c ∈ l, c ≠ none) ∧
      (∀ l ∈ m'.gone, ∀ c ∈ l, c = none) ∧
      ((∀ r : Nat, gr (GWants I J [] os) r = none) → ∀ b : Nat, ∀ l, m'.blocks[b]? ≠ some (some l)) := by
  obtain ⟨m', f', h1, h⟩ := C138_runs L I J os _ _ [] (holds_init L) hl
  have live : ∀ (b : Nat) (l : List (Option T)), m'.blocks[b]? = some (some l) → m'.arrs.cells (some b) = some l := by
    intro b l hb; simp only [Mem.cells, MMem.arrs, hb, Option.join_some]
  have owner : ∀ (b : Nat) (l : List (Option T)), m'.blocks[b]? = some (some l) →
      ∃ r x g c, m'.mx r = some x ∧ x.data = some b ∧ gr (GWants I J [] os) r = some g ∧ ar f' r = some c ∧ Flat L g c := by
    intro b l hb
    obtain ⟨r, v, hv, hd⟩ := h.reps.owned b l (live b l hb)
    rw [arrs_vec] at hv
    obtain ⟨x, hx, rfl⟩ := Option.map_eq_some_iff.mp hv
    have hrow := h.rows r
    rcases hg : gr (GWants I J [] os) r with _ | g
    · rw [hg] at hrow
      have hn : ar f' r = none := hrow
      have := h.reps.dead r (by rw [sq_full, hn]; rfl)
      rw [arrs_vec, hx] at this
      cases this
    · obtain ⟨c, x', e1, e2, -⟩ := h.live hg
      exact ⟨r, x, g, c, hx, hd, hg, e1, e2⟩
  refine ⟨m', h1, fun b l hb => ?_, h.reps.gone, fun hz b l hb => ?_⟩
  · obtain ⟨r, x, g, c, hx, hd, hg, hc, hf⟩ := owner b l hb
    have hv : m'.arrs.vec r = some x.arr := by rw [arrs_vec, hx]; rfl
    obtain ⟨v, hv', R⟩ := h.reps.rep r (c.length, c) (by rw [sq_full, hc]; rfl)
    rw [hv] at hv'; cases hv'
    have hm : m'.arrs.cells x.data = some (form c c.length) := R.mem
    rw [hd, live b l hb] at hm
    simp only [form, Nat.sub_self, List.replicate_zero, List.append_nil, Option.some.injEq] at hm
    subst hm
    refine ⟨r, x, g, hx, hd, ?_, hg, by simpa using hf.len, ?_⟩
    · intro q y hy hyd
      exact h.reps.sep q r y.arr x.arr b (by rw [arrs_vec, hy]; rfl) hv hyd hd
    · intro o ho
      obtain ⟨t, -, rfl⟩ := List.mem_map.mp ho
      simp
  · obtain ⟨r, x, g, c, -, -, hg, -⟩ := owner b l hb
    rw [hz r] at hg; cases hg

/-- `fill2` of an existing column fails when there are more columns than rows; a matrix of `2^32 × 2^32` cells is constructed without
memory for its cells. -/
theorem C138_fails (L : Layout) :
    (∃ (os : List (MOp Nat)), GLegals 0 0 [] os ∧ (∃ g, gr (GWants 0 0 [] os) 0 = some g ∧ g.rows = 1 ∧ g.cols = 2) ∧
      (MMem.init : MMem Nat).run L 0 0 (os ++ [.fill2 0 1 7]) = none) ∧
    ∃ m' x, (MMem.init : MMem Nat).run L 0 0 [.new (2 ^ 32) (2 ^ 32) 0] = some m' ∧ m'.mx 0 = some x ∧ x.size1 = 2 ^ 32 ∧ x.size2 = 2 ^ 32 ∧
      m'.at L 0 0 0 0 0 = none := by
  refine ⟨⟨[.new 1 2 0], ⟨⟨by decide, by decide, by decide⟩, trivial⟩, ⟨_, rfl, rfl, rfl⟩, by cases L <;> decide⟩, ?_⟩
  refine ⟨⟨[], [some ⟨2 ^ 32, 2 ^ 32, none⟩], []⟩, ⟨2 ^ 32, 2 ^ 32, none⟩, ?_, rfl, rfl, rfl, by cases L <;> decide⟩
  have e : (2 : Nat) ^ 32 * 2 ^ 32 % sizeMod = 0 := by decide
  simp only [MMem.run, MMem.step, e, List.replicate_zero]
  rfl

/-! Three matrices with a common history: the second is a changed copy of the first, the third took the first's cells. -/
def mdemo : List (MOp Nat) :=
  [.newFill 2 3 5, .copy 0, .set 1 11 21 6, .fill1 1 10 7, .fill2 1 21 8, .move 0, .copyAssign 0 1, .moveAssign 1 2, .swap 0 1, .destroy 2]

example : GLegals (T := Nat) 10 20 [] mdemo :=
  ⟨⟨by decide, by decide, by decide⟩, ⟨_, rfl⟩, ⟨_, rfl, by decide, by decide⟩, ⟨_, rfl, by decide, by decide⟩,
    ⟨_, rfl, by decide, by decide, by decide⟩, ⟨_, rfl⟩, ⟨⟨_, rfl⟩, _, rfl⟩, ⟨⟨_, rfl⟩, _, rfl⟩, ⟨⟨_, rfl⟩, _, rfl⟩, ⟨_, rfl⟩, trivial⟩

example : ((MMem.init : MMem Nat).run .rowMajor 10 20 mdemo).map (fun m => (m.mxs, m.blocks)) =
    some ([some ⟨2, 3, some 0⟩, some ⟨2, 3, some 2⟩, none],
      [some [some 5, some 5, some 5, some 5, some 5, some 5], none, some [some 7, some 8, some 7, some 5, some 8, some 5]]) := by decide

end Verif.Util
