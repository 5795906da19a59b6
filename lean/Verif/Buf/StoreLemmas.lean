import Verif.Buf.Store

/-! Helper lemmas about shared storages. -/
set_option linter.unusedSimpArgs false
set_option linter.unusedVariables false
namespace Verif.Buf

/-! ### Reading and writing byte functions -/

@[simp] theorem rd_length (b lo n) : (rd b lo n).length = n := by simp [rd]

theorem rd_getElem? (b lo n k) : (rd b lo n)[k]? = if k < n then some (b (lo + k)) else none := by
  simp only [rd, List.getElem?_map, List.getElem?_range]
  split
  · rename_i h; simp [List.getElem?_range, h]
  · rename_i h; simp [h]

theorem rd_congr {b b' : Nat → Byte} {lo lo' n : Nat} (h : ∀ k, k < n → b (lo + k) = b' (lo' + k)) :
    rd b lo n = rd b' lo' n := by
  apply List.map_congr_left; intro k hk; exact h k (List.mem_range.mp hk)

theorem rd_add (b lo a c) : rd b lo (a + c) = rd b lo a ++ rd b (lo + a) c := by
  apply List.ext_getElem?; intro k
  rw [List.getElem?_append, rd_getElem?, rd_length, rd_getElem?, rd_getElem?]
  by_cases h : k < a
  · rw [if_pos (by omega), if_pos h, if_pos h]
  · rw [if_neg h]
    by_cases h2 : k < a + c
    · rw [if_pos h2, if_pos (by omega), show lo + a + (k - a) = lo + k by omega]
    · rw [if_neg h2, if_neg (by omega)]

theorem wr_in {b : Nat → Byte} {off : Nat} {data : List Byte} {k : Nat} (h : k < data.length) :
    wr b off data (off + k) = data[k] := by
  simp [wr, h]

theorem wr_out {b : Nat → Byte} {off : Nat} {data : List Byte} {k : Nat}
    (h : k < off ∨ off + data.length ≤ k) : wr b off data k = b k := by
  unfold wr
  split
  · rw [List.getElem?_eq_none (by omega)]; rfl
  · rfl

theorem rd_wr_self (b : Nat → Byte) (off : Nat) (data : List Byte) :
    rd (wr b off data) off data.length = data := by
  apply List.ext_getElem?; intro k
  rw [rd_getElem?]
  split
  · rename_i h; rw [wr_in h, List.getElem?_eq_getElem h]
  · rename_i h; rw [List.getElem?_eq_none (by omega)]

theorem rd_wr_out {b : Nat → Byte} {off : Nat} {data : List Byte} {lo n : Nat}
    (h : lo + n ≤ off ∨ off + data.length ≤ lo) : rd (wr b off data) lo n = rd b lo n := by
  apply rd_congr; intro k hk; exact wr_out (by omega)

/-! ### Storages in the heap -/

@[simp] theorem put_mem (m : Mem) (id x k) : (m.put id x).mem k = if k = id then x else m.mem k := rfl
@[simp] theorem put_next (m : Mem) (id x) : (m.put id x).next = m.next := rfl
@[simp] theorem put_junk (m : Mem) (id x) : (m.put id x).junk = m.junk := rfl

theorem put_same (m : Mem) (id) (y : Storage) : (m.put id (some y)).mem id = some y := by simp

/-- Whether a segment holds storage `id`. -/
abbrev holds (id : Nat) (s : Seg) : Bool := s.st == some id

theorem holds_iff {id : Nat} {s : Seg} : holds id s = true ↔ s.st = some id := by simp [holds]

/-- Reference counts are exact, nothing dangles, everything is in bounds. -/
structure Base (m : Mem) (L : List Seg) : Prop where
  closed : ∀ id, m.next ≤ id → m.mem id = none
  null : ∀ s ∈ L, s.st = none → s.lo = 0 ∧ s.hi = 0
  held : ∀ s ∈ L, ∀ id, s.st = some id → ∃ x, m.mem id = some x ∧ s.lo ≤ s.hi ∧ s.hi ≤ x.cap
  refs : ∀ id x, m.mem id = some x → x.ref = L.countP (holds id) ∧ 0 < x.ref

theorem base_perm {m : Mem} {L L' : List Seg} (h : L.Perm L') (hb : Base m L) : Base m L' :=
  ⟨hb.closed, fun s hs => hb.null s (h.mem_iff.mpr hs), fun s hs => hb.held s (h.mem_iff.mpr hs),
    fun id x hx => by rw [← h.countP_eq]; exact hb.refs id x hx⟩

theorem base_null {m : Mem} {R : List Seg} : Base m (Seg.null :: R) ↔ Base m R := by
  constructor
  · intro hb
    refine ⟨hb.closed, fun s hs => hb.null s (by simp [hs]), fun s hs => hb.held s (by simp [hs]), ?_⟩
    intro id x hx
    have := hb.refs id x hx
    simpa [Seg.null, holds] using this
  · intro hb
    refine ⟨hb.closed, ?_, ?_, ?_⟩
    · intro s hs h
      rcases List.mem_cons.mp hs with rfl | hs
      · exact ⟨rfl, rfl⟩
      · exact hb.null s hs h
    · intro s hs id h
      rcases List.mem_cons.mp hs with rfl | hs
      · cases h
      · exact hb.held s hs id h
    · intro id x hx
      simpa [Seg.null, holds] using hb.refs id x hx

/-- Some storages; and whether the end of a dirty range may still be unset (0), as a deep copy leaves it. -/
structure Cover where
  on : Nat → Prop
  loose : Bool

/-- All storages. -/
def Cover.all (b : Bool) : Cover := ⟨fun _ => True, b⟩

/-- The storage of a segment, if any, is one of them. -/
def Cover.has (c : Cover) (s : Seg) : Prop := ∀ id, s.st = some id → c.on id

theorem has_all (b : Bool) (s : Seg) : (Cover.all b).has s := fun _ _ => trivial

/-- Some storages, and at which sides their dirty ranges cover their holders. -/
structure Sides extends Cover where
  start : Bool
  stop : Bool

instance : Coe Cover Sides := ⟨fun c => ⟨c, true, true⟩⟩

/-- All storages: both sides, only the starts, only the ends. -/
abbrev Sides.all (b : Bool) : Sides := (Cover.all b : Cover)
abbrev Sides.starts : Sides := ⟨.all false, true, false⟩
abbrev Sides.ends : Sides := ⟨.all false, false, true⟩

/-- The dirty range of each of these storages covers its holders, at the given sides. -/
def Wide (b : Sides) (m : Mem) (L : List Seg) : Prop :=
  ∀ s ∈ L, ∀ id x, s.st = some id → m.mem id = some x → b.on id →
    (b.start = true → x.ds ≤ s.lo) ∧ (b.stop = true → s.hi ≤ x.de ∨ (b.loose = true ∧ x.de = 0))

theorem wide_perm {b : Sides} {m : Mem} {L L' : List Seg} (h : L.Perm L') (hb : Wide b m L) :
    Wide b m L' := fun s hs => hb s (h.mem_iff.mpr hs)

theorem wide_null {b : Sides} {m : Mem} {R : List Seg} : Wide b m (Seg.null :: R) ↔ Wide b m R := by
  constructor
  · intro h s hs; exact h s (by simp [hs])
  · intro h s hs
    rcases List.mem_cons.mp hs with rfl | hs
    · intro id x h'; cases h'
    · exact h s hs

/-- A storage held by the head and referenced once is held by nobody else. -/
theorem sole {m : Mem} {s : Seg} {R : List Seg} (hb : Base m (s :: R)) {id : Nat} {x : Storage}
    (hs : s.st = some id) (hx : m.mem id = some x) (hr : x.ref = 1) : ∀ t ∈ R, t.st ≠ some id := by
  intro t ht h
  have := (hb.refs id x hx).1
  rw [List.countP_cons_of_pos (holds_iff.mpr hs)] at this
  have : 0 < R.countP (holds id) := List.countP_pos_iff.mpr ⟨t, ht, holds_iff.mpr h⟩
  omega

theorem view_congr {m m' : Mem} {t : Seg} (h : ∀ id, t.st = some id → ∀ x, m.mem id = some x →
    ∃ x', m'.mem id = some x' ∧ ∀ k, t.lo ≤ k → k < t.hi → x'.bytes k = x.bytes k)
    (hl : ∀ id, t.st = some id → m.mem id = none → m'.mem id = none) : m'.view t = m.view t := by
  unfold Mem.view
  cases hst : t.st with
  | none => rfl
  | some id =>
    dsimp only
    cases hx : m.mem id with
    | none => rw [hl id hst hx]
    | some x =>
      obtain ⟨x', hx', hb⟩ := h id hst x hx
      rw [hx']
      exact rd_congr (fun k hk => hb _ (by omega) (by omega))

/-- Letting go of the head. -/
theorem base_drop {m : Mem} {s : Seg} {R : List Seg} (hb : Base m (s :: R)) :
    ∃ m', m.drop s = some m' ∧ Base m' R ∧ (∀ t ∈ R, m'.view t = m.view t) ∧
      m'.next = m.next ∧ (∀ b, Wide b m (s :: R) → Wide b m' R) ∧
      (∀ id, s.st ≠ some id → m'.mem id = m.mem id) ∧ m'.junk = m.junk ∧
      (∀ id x', m'.mem id = some x' → ∃ x, m.mem id = some x ∧ x'.cap = x.cap ∧ x'.ds = x.ds ∧
        x'.de = x.de ∧ x'.bytes = x.bytes) := by
  unfold Mem.drop
  cases hst : s.st with
  | none =>
    refine ⟨m, rfl, ?_, fun _ _ => rfl, rfl, fun b h t ht => h t (by simp [ht]), fun _ _ => rfl, rfl,
      fun id x' h => ⟨x', h, rfl, rfl, rfl, rfl⟩⟩
    have := hb.null s (by simp) hst
    have e : s = Seg.null := by
      obtain ⟨a, b, c⟩ := s; simp_all [Seg.null]
    rw [e] at hb; exact base_null.mp hb
  | some id =>
    obtain ⟨x, hx, hlo, hhi⟩ := hb.held s (by simp) id hst
    have hr := hb.refs id x hx
    rw [List.countP_cons_of_pos (holds_iff.mpr hst)] at hr
    have hcount : ∀ id', id' ≠ id → (s :: R).countP (holds id') = R.countP (holds id') := by
      intro id' hne
      rw [List.countP_cons_of_neg]
      simp only [holds, hst]; simp; exact fun h => hne h.symm
    simp only [Mem.release, hx]
    rw [if_neg (by omega)]
    by_cases h1 : x.ref - 1 = 0
    · rw [if_pos h1]
      have hz : R.countP (holds id) = 0 := by omega
      have hno : ∀ t ∈ R, t.st ≠ some id := by
        intro t ht h
        have := List.countP_eq_zero.mp hz t ht
        exact this (holds_iff.mpr h)
      refine ⟨_, rfl, ⟨?_, fun t ht => hb.null t (by simp [ht]), ?_, ?_⟩, ?_, rfl, ?_, ?_, rfl, ?_⟩
      · intro id' h; simp only [put_mem]; split
        · rfl
        · exact hb.closed id' h
      · intro t ht id' h
        have hne : id' ≠ id := fun e => hno t ht (e ▸ h)
        simp only [put_mem, if_neg hne]
        exact hb.held t (by simp [ht]) id' h
      · intro id' x' h
        simp only [put_mem] at h
        split at h
        · cases h
        · rename_i hne
          rw [← hcount id' hne]; exact hb.refs id' x' h
      · intro t ht
        apply view_congr
        · intro id' h x' hx'
          have hne : id' ≠ id := fun e => hno t ht (e ▸ h)
          exact ⟨x', by simp only [put_mem, if_neg hne]; exact hx', fun _ _ _ => rfl⟩
        · intro id' h hx'
          simp only [put_mem]; split
          · rfl
          · exact hx'
      · intro b hw t ht id' x' h hx'
        simp only [put_mem] at hx'
        split at hx'
        · cases hx'
        · exact hw t (by simp [ht]) id' x' h hx'
      · intro id' hne
        simp only [put_mem]; rw [if_neg]; rintro rfl; exact hne rfl
      · intro id' x' h
        simp only [put_mem] at h
        split at h
        · cases h
        · exact ⟨x', h, rfl, rfl, rfl, rfl⟩
    · rw [if_neg h1]
      refine ⟨_, rfl, ⟨?_, fun t ht => hb.null t (by simp [ht]), ?_, ?_⟩, ?_, rfl, ?_, ?_, rfl, ?_⟩
      · intro id' h; simp only [put_mem]; split
        · rename_i e; subst e; rw [hb.closed _ h] at hx; cases hx
        · exact hb.closed id' h
      · intro t ht id' h
        obtain ⟨x', hx', hb'⟩ := hb.held t (by simp [ht]) id' h
        simp only [put_mem]
        split
        · rename_i e; subst e
          rw [hx] at hx'; cases hx'
          exact ⟨_, rfl, hb'⟩
        · exact ⟨x', hx', hb'⟩
      · intro id' x' h
        simp only [put_mem] at h
        split at h
        · rename_i e; subst e; cases h; dsimp only; omega
        · rename_i hne
          rw [← hcount id' hne]; exact hb.refs id' x' h
      · intro t ht
        apply view_congr
        · intro id' h x' hx'
          simp only [put_mem]
          split
          · rename_i e; subst e; rw [hx] at hx'; cases hx'
            exact ⟨_, rfl, fun _ _ _ => rfl⟩
          · exact ⟨x', hx', fun _ _ _ => rfl⟩
        · intro id' h hx'
          simp only [put_mem]; split
          · rename_i e; subst e; rw [hx] at hx'; cases hx'
          · exact hx'
      · intro b hw t ht id' x' h hx'
        simp only [put_mem] at hx'
        split at hx'
        · rename_i e; subst e; cases hx'
          exact hw t (by simp [ht]) id' x h hx
        · exact hw t (by simp [ht]) id' x' h hx'
      · intro id' hne
        simp only [put_mem]; rw [if_neg]; rintro rfl; exact hne rfl
      · intro id' x' h
        simp only [put_mem] at h
        split at h
        · rename_i e; subst e; cases h; exact ⟨x, hx, rfl, rfl, rfl, rfl⟩
        · exact ⟨x', h, rfl, rfl, rfl, rfl⟩

/-- Changing bytes or the dirty range of a storage keeps the structural invariant. -/
theorem base_put {m : Mem} {L : List Seg} (hb : Base m L) {id : Nat} {x y : Storage}
    (hx : m.mem id = some x) (hc : y.cap = x.cap) (hr : y.ref = x.ref) :
    Base (m.put id (some y)) L := by
  refine ⟨?_, hb.null, ?_, ?_⟩
  · intro id' h; simp only [put_mem]; split
    · rename_i e; subst e; rw [hb.closed _ h] at hx; cases hx
    · exact hb.closed id' h
  · intro t ht id' h
    obtain ⟨x', hx', hb'⟩ := hb.held t ht id' h
    simp only [put_mem]
    split
    · rename_i e; subst e
      rw [hx] at hx'; cases hx'
      exact ⟨_, rfl, by rw [hc]; exact hb'⟩
    · exact ⟨x', hx', hb'⟩
  · intro id' x' h
    simp only [put_mem] at h
    split at h
    · rename_i e; subst e; cases h
      rw [hr]; exact hb.refs id' x hx
    · exact hb.refs id' x' h

/-- Replacing the range of the head by another range in bounds. -/
theorem base_range {m : Mem} {s : Seg} {R : List Seg} (hb : Base m (s :: R)) {id : Nat} {x : Storage}
    (hs : s.st = some id) (hx : m.mem id = some x) {lo hi : Nat} (h1 : lo ≤ hi) (h2 : hi ≤ x.cap) :
    Base m (⟨some id, lo, hi⟩ :: R) := by
  refine ⟨hb.closed, ?_, ?_, ?_⟩
  · intro t ht h
    rcases List.mem_cons.mp ht with rfl | ht
    · cases h
    · exact hb.null t (by simp [ht]) h
  · intro t ht id' h
    rcases List.mem_cons.mp ht with rfl | ht
    · cases h; exact ⟨x, hx, h1, h2⟩
    · exact hb.held t (by simp [ht]) id' h
  · intro id' x' h
    have := hb.refs id' x' h
    simp only [List.countP_cons, holds, hs] at this ⊢
    exact this

/-- A new storage with a new holder. -/
theorem base_alloc {m : Mem} {R : List Seg} (hb : Base m R) {cap lo hi : Nat} (h1 : lo ≤ hi)
    (h2 : hi ≤ cap) : Base (m.alloc cap).1 (⟨some m.next, lo, hi⟩ :: R) := by
  refine ⟨?_, ?_, ?_, ?_⟩
  · intro id h
    simp only [Mem.alloc] at h ⊢
    simp only [put_mem]
    rw [if_neg (by omega)]
    exact hb.closed id (by omega)
  · intro t ht h
    rcases List.mem_cons.mp ht with rfl | ht
    · cases h
    · exact hb.null t ht h
  · intro t ht id h
    rcases List.mem_cons.mp ht with rfl | ht
    · cases h
      exact ⟨⟨cap, 1, 0, 0, m.junk m.next⟩, by simp [Mem.alloc], h1, h2⟩
    · obtain ⟨x, hx, hr⟩ := hb.held t ht id h
      have hne : id ≠ m.next := by
        rintro rfl; rw [hb.closed _ (Nat.le_refl _)] at hx; cases hx
      exact ⟨x, by simp only [Mem.alloc, put_mem, if_neg hne]; exact hx, hr⟩
  · intro id x h
    simp only [Mem.alloc, put_mem] at h
    split at h
    · rename_i e; subst e; cases h
      have hz : R.countP (holds m.next) = 0 := by
        rw [List.countP_eq_zero]
        intro t ht h'
        obtain ⟨x, hx, _⟩ := hb.held t ht _ (holds_iff.mp h')
        rw [hb.closed _ (Nat.le_refl _)] at hx; cases hx
      rw [List.countP_cons_of_pos (by simp [holds]), hz]; simp
    · rename_i hne
      rw [List.countP_cons_of_neg (by simp [holds]; omega)]
      exact hb.refs id x h

/-- One more holder of a held storage. -/
theorem base_addRef {m : Mem} {R : List Seg} (hb : Base m R) {id : Nat} {x : Storage}
    (hx : m.mem id = some x) {lo hi : Nat} (h1 : lo ≤ hi) (h2 : hi ≤ x.cap) :
    ∃ m', m.addRef id = some m' ∧ Base m' (⟨some id, lo, hi⟩ :: R) ∧
      m' = m.put id (some { x with ref := x.ref + 1 }) := by
  refine ⟨m.put id (some { x with ref := x.ref + 1 }), by simp [Mem.addRef, hx], ?_, rfl⟩
  refine ⟨?_, ?_, ?_, ?_⟩
  · intro id' h; simp only [put_mem]; split
    · rename_i e; subst e; rw [hb.closed _ h] at hx; cases hx
    · exact hb.closed id' h
  · intro t ht h
    rcases List.mem_cons.mp ht with rfl | ht
    · cases h
    · exact hb.null t ht h
  · intro t ht id' h
    rcases List.mem_cons.mp ht with rfl | ht
    · cases h; exact ⟨_, put_same _ _ _, h1, h2⟩
    · obtain ⟨x', hx', hr⟩ := hb.held t ht id' h
      simp only [put_mem]
      split
      · rename_i e; subst e; rw [hx] at hx'; cases hx'; exact ⟨_, rfl, hr⟩
      · exact ⟨x', hx', hr⟩
  · intro id' x' h
    simp only [put_mem] at h
    split at h
    · rename_i e; subst e; cases h
      rw [List.countP_cons_of_pos (by simp [holds])]
      have := hb.refs id' x hx
      dsimp only; omega
    · rename_i hne
      rw [List.countP_cons_of_neg (by simp [holds]; omega)]
      exact hb.refs id' x' h

/-- Views survive a change of reference count or dirty range, and of bytes outside of the range. -/
theorem view_put {m : Mem} {id : Nat} {x y : Storage} (hx : m.mem id = some x) (t : Seg)
    (h : t.st = some id → ∀ k, t.lo ≤ k → k < t.hi → y.bytes k = x.bytes k) :
    (m.put id (some y)).view t = m.view t := by
  apply view_congr
  · intro id' h' x' hx'
    simp only [put_mem]
    split
    · rename_i e; subst e; rw [hx] at hx'; cases hx'
      exact ⟨y, rfl, h h'⟩
    · exact ⟨x', hx', fun _ _ _ => rfl⟩
  · intro id' h' hx'
    simp only [put_mem]; split
    · rename_i e; subst e; rw [hx] at hx'; cases hx'
    · exact hx'

theorem view_alloc {m : Mem} {R : List Seg} (hb : Base m R) (cap : Nat) {t : Seg} (ht : t ∈ R) :
    (m.alloc cap).1.view t = m.view t := by
  apply view_congr
  · intro id h x hx
    have hne : id ≠ m.next := by
      rintro rfl; rw [hb.closed _ (Nat.le_refl _)] at hx; cases hx
    exact ⟨x, by simp only [Mem.alloc, put_mem, if_neg hne]; exact hx, fun _ _ _ => rfl⟩
  · intro id h hx
    obtain ⟨x, hx', _⟩ := hb.held t ht id h
    rw [hx] at hx'; cases hx'

/-! ### Growing -/

/-- What growing by `size` achieves: `pos` is where the old data now begin. -/
structure GrowOk (m : Mem) (s : Seg) (R : List Seg) (size : Nat) (g : Grown) : Prop where
  base : Base g.mem (g.seg :: R)
  held : g.seg.st ≠ none
  len : g.seg.hi = g.seg.lo + size + (s.hi - s.lo)
  pos : g.seg.lo ≤ g.pos ∧ g.pos ≤ g.seg.lo + size
  data : ∀ id x, g.seg.st = some id → g.mem.mem id = some x → rd x.bytes g.pos (s.hi - s.lo) = m.view s
  others : ∀ t ∈ R, g.mem.view t = m.view t

/-- Nobody else reaches into `[lo, hi)` of the storage of `s`, if it is one of the storages. -/
def Clear (b : Cover) (s : Seg) (R : List Seg) (lo hi : Nat) : Prop :=
  ∀ t ∈ R, b.has t → t.st = s.st → hi ≤ t.lo ∨ t.hi ≤ lo

theorem view_of_grow {m : Mem} {s : Seg} {R : List Seg} {size : Nat} {g : Grown}
    (h : GrowOk m s R size g) : ∃ pre post, g.mem.view g.seg = pre ++ m.view s ++ post ∧
      pre.length = g.pos - g.seg.lo ∧ post.length = g.seg.lo + size - g.pos := by
  cases hst : g.seg.st with
  | none => exact absurd hst h.held
  | some id =>
    obtain ⟨x, hx, _⟩ := h.base.held g.seg (by simp) id hst
    have hd := h.data id x hst hx
    have := h.len; have := h.pos
    refine ⟨rd x.bytes g.seg.lo (g.pos - g.seg.lo),
      rd x.bytes (g.pos + (s.hi - s.lo)) (g.seg.lo + size - g.pos), ?_, by simp, by simp⟩
    simp only [Mem.view, hst, hx]
    rw [show g.seg.hi - g.seg.lo = (g.pos - g.seg.lo) + (s.hi - s.lo) + (g.seg.lo + size - g.pos) by omega,
      rd_add, rd_add, show g.seg.lo + (g.pos - g.seg.lo) = g.pos by omega, hd,
      show g.seg.lo + (g.pos - g.seg.lo + (s.hi - s.lo)) = g.pos + (s.hi - s.lo) by omega]
    rfl

theorem readSeg_ok {m : Mem} {s : Seg} {L : List Seg} (hb : Base m L) (hs : s ∈ L) :
    m.readSeg s = some (m.view s) ∧ (m.view s).length = s.hi - s.lo := by
  unfold Mem.readSeg Mem.view
  cases hst : s.st with
  | none => have := hb.null s hs hst; simp [this]
  | some id =>
    obtain ⟨x, hx, h1, h2⟩ := hb.held s hs id hst
    simp only [Mem.read, hx]
    rw [if_pos (by omega)]
    exact ⟨rfl, rd_length _ _ _⟩

/-- Reallocation. -/
theorem realloc_ok {m : Mem} {s : Seg} {R : List Seg} (hb : Base m (s :: R)) {size cap ns pos : Nat}
    (hsz : 0 < size) (hcap : ns + size + (s.hi - s.lo) ≤ cap) (h1 : ns ≤ pos) (h2 : pos ≤ ns + size) :
    ∃ g, realloc m s size cap ns pos = some g ∧ GrowOk m s R size g ∧ g.pos = pos ∧ g.seg.lo = ns ∧
      (∀ b, Wide b m (s :: R) → Wide b g.mem (g.seg :: R)) ∧
      (∀ (b : Cover) lo hi, Clear b g.seg R lo hi) ∧ g.seg.st = some m.next ∧
      (∀ id x', g.mem.mem id = some x' → id ≠ m.next → ∃ x, m.mem id = some x) := by
  have hcap0 : cap ≠ 0 := by omega
  have hb1 : Base (m.alloc cap).1 (⟨some m.next, ns, ns + size + (s.hi - s.lo)⟩ :: s :: R) :=
    base_alloc hb (by omega) hcap
  have hv1 : (m.alloc cap).1.view s = m.view s := view_alloc hb cap (by simp)
  obtain ⟨hrd, hlen⟩ := readSeg_ok hb1 (by simp : s ∈ _ :: s :: R)
  rw [hv1] at hrd hlen
  have hx1 : (m.alloc cap).1.mem m.next = some ⟨cap, 1, 0, 0, m.junk m.next⟩ := by simp [Mem.alloc]
  have hw : (m.alloc cap).1.write m.next pos (m.view s) = some ((m.alloc cap).1.put m.next
      (some ⟨cap, 1, 0, 0, wr (m.junk m.next) pos (m.view s)⟩)) := by
    simp only [Mem.write, hx1]; rw [if_pos (by omega)]
  have hb2 : Base ((m.alloc cap).1.put m.next (some ⟨cap, 1, 0, 0, wr (m.junk m.next) pos (m.view s)⟩))
      (s :: ⟨some m.next, ns, ns + size + (s.hi - s.lo)⟩ :: R) :=
    base_perm (List.Perm.swap _ _ _) (base_put hb1 hx1 rfl rfl)
  obtain ⟨m3, hd3, hb3, hv3, hn3, hw3, hk3, hj3, hp3⟩ := base_drop hb2
  have hsne : s.st ≠ some m.next := by
    intro h
    obtain ⟨x, hx, _⟩ := hb.held s (by simp) _ h
    rw [hb.closed _ (Nat.le_refl _)] at hx; cases hx
  have hx3 : m3.mem m.next = some ⟨cap, 1, 0, 0, wr (m.junk m.next) pos (m.view s)⟩ := by
    rw [hk3 _ hsne]; simp
  have hdirty : m3.dirty m.next ns (ns + size + (s.hi - s.lo)) = some (m3.put m.next
      (some ⟨cap, 1, ns, ns + size + (s.hi - s.lo), wr (m.junk m.next) pos (m.view s)⟩)) := by
    simp only [Mem.dirty, hx3]
  have hRne : ∀ t ∈ R, t.st ≠ some m.next := by
    intro t ht h
    obtain ⟨x, hx, _⟩ := hb.held t (by simp [ht]) _ h
    rw [hb.closed _ (Nat.le_refl _)] at hx; cases hx
  refine ⟨⟨m3.put m.next
      (some ⟨cap, 1, ns, ns + size + (s.hi - s.lo), wr (m.junk m.next) pos (m.view s)⟩),
      ⟨some m.next, ns, ns + size + (s.hi - s.lo)⟩, pos⟩,
    ?_, ⟨?_, ?_, ?_, ?_, ?_, ?_⟩, rfl, rfl, ?_, ?_, rfl, ?_⟩
  · unfold realloc
    rw [show m.allocate cap = ((m.alloc cap).1, some m.next) by simp [Mem.allocate, hcap0, Mem.alloc]]
    dsimp only
    rw [hrd]; dsimp only
    rw [hw]; dsimp only
    rw [hd3]; dsimp only
    rw [hdirty]
  · exact base_put hb3 hx3 rfl rfl
  · simp
  · simp
  · exact ⟨h1, h2⟩
  · intro id x h hx
    cases h
    simp only [put_mem, if_true] at hx
    cases hx
    rw [← hlen]; exact rd_wr_self _ _ _
  · intro t ht
    dsimp only
    rw [view_put hx3 t (fun h => absurd h (hRne t ht)), hv3 t (by simp [ht]),
      view_put hx1 t (fun h => absurd h (hRne t ht)), view_alloc hb cap (by simp [ht])]
  · intro b hW
    intro t ht id x h hx
    rcases List.mem_cons.mp ht with rfl | ht
    · cases h
      simp only [put_mem, if_true] at hx
      cases hx
      exact fun _ => ⟨fun _ => Nat.le_refl _, fun _ => .inl (Nat.le_refl _)⟩
    · have hne : id ≠ m.next := by rintro rfl; exact hRne t ht h
      simp only [put_mem, if_neg hne] at hx
      obtain ⟨y, hy, _, e1, e2, _⟩ := hp3 id x hx
      simp only [put_mem, if_neg hne, Mem.alloc] at hy
      intro hon
      have := hW t (by simp [ht]) id y h hy hon
      rw [e1, e2]; exact this
  · intro b lo hi t ht _ h
    exact absurd h (hRne t ht)
  · intro id x' h hne
    simp only [put_mem, if_neg hne] at h
    obtain ⟨y, hy, _⟩ := hp3 id x' h
    simp only [put_mem, if_neg hne, Mem.alloc] at hy
    exact ⟨y, hy⟩

/-- In-place growth at the start. -/
theorem adjustStart_ok {m : Mem} {s : Seg} {R : List Seg} (hb : Base m (s :: R)) {id : Nat}
    {x : Storage} (hs : s.st = some id) (hx : m.mem id = some x) {size : Nat} (hsz : size ≤ s.lo) :
    ∃ g, adjustStart m s id x size = some g ∧ GrowOk m s R size g ∧ g.pos = g.seg.lo + size ∧
      (x.ref = 1 ∨ x.ds = s.lo → ∀ b, Wide b m (s :: R) →
        Wide b g.mem (g.seg :: R) ∧ (b.start = true → Clear b.toCover g.seg R g.seg.lo (g.seg.lo + size))) := by
  obtain ⟨x', hx', h1, h2⟩ := hb.held s (by simp) id hs
  rw [hx] at hx'; cases hx'
  refine ⟨⟨m.put id (some { x with ds := s.lo - size, de := x.de }), ⟨some id, s.lo - size, s.hi⟩, s.lo⟩,
    by simp [adjustStart, Mem.dirty, hx], ⟨?_, ?_, ?_, ?_, ?_, ?_⟩, ?_, ?_⟩
  · exact base_range (base_put (y := { x with ds := s.lo - size, de := x.de }) hb hx rfl rfl) hs
      (put_same _ _ _) (by omega) h2
  · simp
  · dsimp only; omega
  · dsimp only; omega
  · intro id' y h hy
    cases h
    simp only [put_mem, if_true] at hy; cases hy
    simp only [Mem.view, hs, hx]
  · intro t ht; exact view_put hx t (fun _ _ _ _ => rfl)
  · dsimp only; omega
  · intro hc b hW
    have hsep : b.start = true → b.on id → ∀ t ∈ R, t.st = some id → s.lo ≤ t.lo := by
      intro hS hon t ht h
      rcases hc with hc | hc
      · exact absurd h (sole hb hs hx hc t ht)
      · have := (hW t (by simp [ht]) id x h hx hon).1 hS; omega
    refine ⟨?_, ?_⟩
    · intro t ht id' y h hy hon
      simp only [put_mem] at hy
      rcases List.mem_cons.mp ht with e | ht'
      · subst e; cases h
        simp only [if_true] at hy; cases hy
        have := hW s (by simp) id x hs hx hon
        exact ⟨fun _ => Nat.le_refl _, this.2⟩
      · split at hy
        · rename_i e; subst e; cases hy
          have h1 := hW t (by simp [ht']) id' x h hx hon
          refine ⟨fun hS => ?_, h1.2⟩
          have := hsep hS hon t ht' h
          dsimp only; omega
        · exact hW t (by simp [ht']) id' y h hy hon
    · intro hS t ht hon h
      have := hsep hS (hon id h) t ht h
      left; dsimp only; omega

/-- Moving the data inside the storage, at the start or at the end. -/
theorem move_ok {m : Mem} {s : Seg} {R : List Seg} (hb : Base m (s :: R)) {id : Nat} {x : Storage}
    (hs : s.st = some id) (hx : m.mem id = some x) (hr : x.ref = 1) {size ns pos : Nat}
    (hcap : ns + size + (s.hi - s.lo) ≤ x.cap) (h1 : ns ≤ pos) (h2 : pos ≤ ns + size) :
    let m' := m.put id (some { x with
      bytes := wr x.bytes pos (m.view s), ds := ns, de := ns + size + (s.hi - s.lo) })
    let g : Grown := ⟨m', ⟨some id, ns, ns + size + (s.hi - s.lo)⟩, pos⟩
    GrowOk m s R size g ∧ (∀ b, Wide b m (s :: R) → Wide b m' (g.seg :: R)) ∧
      ∀ (b : Cover) lo hi, Clear b g.seg R lo hi := by
  have hsole := sole hb hs hx hr
  have hlen := (readSeg_ok hb (by simp : s ∈ s :: R)).2
  refine ⟨⟨?_, ?_, ?_, ?_, ?_, ?_⟩, ?_, ?_⟩
  · exact base_range (base_put (y := { x with
      bytes := wr x.bytes pos (m.view s), ds := ns, de := ns + size + (s.hi - s.lo) }) hb hx rfl rfl) hs
      (put_same _ _ _) (by omega) hcap
  · simp
  · rfl
  · exact ⟨h1, h2⟩
  · intro id' y h hy
    cases h
    simp only [put_mem, if_true] at hy; cases hy
    rw [← hlen]; exact rd_wr_self _ _ _
  · intro t ht; exact view_put hx t (fun h => absurd h (hsole t ht))
  · intro b hW t ht id' y h hy
    simp only [put_mem] at hy
    rcases List.mem_cons.mp ht with e | ht'
    · subst e; cases h
      simp only [if_true] at hy; cases hy
      exact fun _ => ⟨fun _ => Nat.le_refl _, fun _ => .inl (Nat.le_refl _)⟩
    · have hne : id' ≠ id := by rintro rfl; exact hsole t ht' h
      rw [if_neg hne] at hy
      exact hW t (by simp [ht']) id' y h hy
  · intro b lo hi t ht _ h
    exact absurd h (hsole t ht)

theorem moveStart_eq {m : Mem} {s : Seg} {R : List Seg} (hb : Base m (s :: R)) {id : Nat} {x : Storage}
    (hs : s.st = some id) (hx : m.mem id = some x) {size : Nat}
    (hcap : (s.hi - s.lo) + size ≤ x.cap) :
    moveStart m s id size = some ⟨m.put id (some { x with
      bytes := wr x.bytes size (m.view s), ds := 0, de := 0 + size + (s.hi - s.lo) }),
      ⟨some id, 0, 0 + size + (s.hi - s.lo)⟩, size⟩ := by
  obtain ⟨hrd, hlen⟩ := readSeg_ok hb (by simp : s ∈ s :: R)
  simp only [Mem.readSeg, hs] at hrd
  unfold moveStart
  rw [hrd]; dsimp only
  simp only [Mem.write, hx]
  rw [if_pos (by omega)]
  simp only [Mem.dirty, put_mem, if_true, Mem.put]
  simp only [Nat.zero_add, Option.some.injEq, Grown.mk.injEq, Mem.mk.injEq, and_true]
  funext k; split <;> rfl

theorem moveEnd_eq {m : Mem} {s : Seg} {R : List Seg} (hb : Base m (s :: R)) {id : Nat} {x : Storage}
    (hs : s.st = some id) (hx : m.mem id = some x) {size : Nat}
    (hcap : (s.hi - s.lo) + size ≤ x.cap) :
    let ns := x.cap - ((s.hi - s.lo) + size)
    moveEnd m s id x size = some ⟨m.put id (some { x with
      bytes := wr x.bytes ns (m.view s), ds := ns, de := ns + size + (s.hi - s.lo) }),
      ⟨some id, ns, ns + size + (s.hi - s.lo)⟩, ns⟩ := by
  obtain ⟨hrd, hlen⟩ := readSeg_ok hb (by simp : s ∈ s :: R)
  simp only [Mem.readSeg, hs] at hrd
  unfold moveEnd
  dsimp only
  rw [hrd]; dsimp only
  simp only [Mem.write, hx]
  rw [if_pos (by omega)]
  simp only [Mem.dirty, put_mem, if_true, Mem.put]
  rw [show x.cap - (s.hi - s.lo + size) + size + (s.hi - s.lo) = x.cap by omega,
    show x.cap - (s.hi - s.lo + size) + (s.hi - s.lo) + size = x.cap by omega]
  simp only [Option.some.injEq, Grown.mk.injEq, Mem.mk.injEq, and_true]
  funext k; split <;> rfl

/-- In-place growth at the end. -/
theorem adjustEnd_ok {m : Mem} {s : Seg} {R : List Seg} (hb : Base m (s :: R)) {id : Nat}
    {x : Storage} (hs : s.st = some id) (hx : m.mem id = some x) {size : Nat}
    (hsz : s.hi + size ≤ x.cap) :
    ∃ g, adjustEnd m s id x size = some g ∧ GrowOk m s R size g ∧ g.pos = g.seg.lo ∧
      (x.ref = 1 ∨ x.de = s.hi → ∀ b : Sides, (b.loose = false ∨ s.hi ≠ 0 ∨ b.stop = false) → Wide b m (s :: R) →
        Wide b g.mem (g.seg :: R) ∧ (b.stop = true → Clear b.toCover g.seg R (g.seg.hi - size) g.seg.hi)) := by
  obtain ⟨x', hx', h1, h2⟩ := hb.held s (by simp) id hs
  rw [hx] at hx'; cases hx'
  refine ⟨⟨m.put id (some { x with ds := x.ds, de := s.lo + (s.hi - s.lo) + size }),
    ⟨some id, s.lo, s.hi + size⟩, s.lo⟩,
    by simp [adjustEnd, Mem.dirty, hx], ⟨?_, ?_, ?_, ?_, ?_, ?_⟩, rfl, ?_⟩
  · exact base_range (base_put (y := { x with ds := x.ds, de := s.lo + (s.hi - s.lo) + size }) hb hx rfl rfl)
      hs (put_same _ _ _) (by omega) hsz
  · simp
  · dsimp only; omega
  · dsimp only; omega
  · intro id' y h hy
    cases h
    simp only [put_mem, if_true] at hy; cases hy
    simp only [Mem.view, hs, hx]
  · intro t ht; exact view_put hx t (fun _ _ _ _ => rfl)
  · intro hc b hbz hW
    have hsep : b.stop = true → b.on id → ∀ t ∈ R, t.st = some id → t.hi ≤ s.hi := by
      intro hS hon t ht h
      rcases hc with hc | hc
      · exact absurd h (sole hb hs hx hc t ht)
      · rcases (hW t (by simp [ht]) id x h hx hon).2 hS with h' | ⟨h', h''⟩
        · omega
        · rcases hbz with hbz | hbz | hbz
          · rw [hbz] at h'; cases h'
          · omega
          · rw [hbz] at hS; cases hS
    refine ⟨?_, ?_⟩
    · intro t ht id' y h hy hon
      simp only [put_mem] at hy
      rcases List.mem_cons.mp ht with e | ht'
      · subst e; cases h
        simp only [if_true] at hy; cases hy
        have := hW s (by simp) id x hs hx hon
        exact ⟨this.1, fun _ => .inl (by dsimp only; omega)⟩
      · split at hy
        · rename_i e; subst e; cases hy
          have h1 := hW t (by simp [ht']) id' x h hx hon
          refine ⟨h1.1, fun hS => .inl ?_⟩
          have := hsep hS hon t ht' h
          dsimp only; omega
        · exact hW t (by simp [ht']) id' y h hy hon
    · intro hS t ht hon h
      have := hsep hS (hon id h) t ht h
      right; dsimp only; omega

/-- `AddAtStart(size)`: never undefined; the old bytes follow `size` fresh ones; nobody else is
affected; and with tight dirty ranges the fresh bytes belong to nobody else. -/
theorem growStart_ok {m : Mem} {s : Seg} {R : List Seg} (hb : Base m (s :: R)) {size : Nat}
    (hsz : 0 < size) :
    ∃ g, growStart m s size = some g ∧ GrowOk m s R size g ∧ g.pos = g.seg.lo + size ∧
      (∀ b, Wide b m (s :: R) → Wide b g.mem (g.seg :: R) ∧
        (b.start = true → Clear b.toCover g.seg R g.seg.lo (g.seg.lo + size))) := by
  unfold growStart
  cases hst : s.st with
  | none =>
    have hn := hb.null s (by simp) hst
    obtain ⟨g, e, ok, hp, hlo, hw, hc, _⟩ := realloc_ok hb (size := size) (cap := size) (ns := 0)
      (pos := size) hsz (by omega) (by omega) (by omega)
    exact ⟨g, e, ok, by omega, fun b h => ⟨hw b h, fun _ => hc _ _ _⟩⟩
  | some id =>
    obtain ⟨x, hx, h1, h2⟩ := hb.held s (by simp) id hst
    dsimp only
    rw [hx]; dsimp only
    have hre : ∀ cap ns pos, ns + size + (s.hi - s.lo) ≤ cap → pos = ns + size →
        ∃ g, realloc m s size cap ns pos = some g ∧ GrowOk m s R size g ∧ g.pos = g.seg.lo + size ∧
          (∀ b, Wide b m (s :: R) → Wide b g.mem (g.seg :: R) ∧
            (b.start = true → Clear b.toCover g.seg R g.seg.lo (g.seg.lo + size))) := by
      intro cap ns pos hc hp
      obtain ⟨g, e, ok, hp, hlo, hw, hc, _⟩ := realloc_ok hb (size := size) (cap := cap) (ns := ns)
        (pos := pos) hsz hc (by omega) (by omega)
      exact ⟨g, e, ok, by omega, fun b h => ⟨hw b h, fun _ => hc _ _ _⟩⟩
    by_cases c1 : x.ref = 1
    · rw [if_pos c1]
      by_cases c2 : size ≤ s.lo
      · rw [if_pos c2]
        obtain ⟨g, e, ok, hp, hw⟩ := adjustStart_ok hb hst hx c2
        exact ⟨g, e, ok, hp, hw (.inl c1)⟩
      · rw [if_neg c2]
        by_cases c3 : (s.hi - s.lo) + size ≤ x.cap
        · rw [if_pos c3, moveStart_eq hb hst hx c3]
          have := move_ok hb hst hx c1 (size := size) (ns := 0) (pos := size) (by omega) (by omega)
            (by omega)
          exact ⟨_, rfl, this.1, by simp, fun b h => ⟨this.2.1 b h, fun _ => this.2.2 _ _ _⟩⟩
        · rw [if_neg c3]
          exact hre _ _ _ (by omega) (by omega)
    · rw [if_neg c1]
      by_cases c2 : x.ds = s.lo
      · rw [if_pos c2]
        by_cases c3 : size ≤ s.lo
        · rw [if_pos c3]
          obtain ⟨g, e, ok, hp, hw⟩ := adjustStart_ok hb hst hx c3
          exact ⟨g, e, ok, hp, hw (.inr c2)⟩
        · rw [if_neg c3]
          exact hre _ _ _ (by omega) (by omega)
      · rw [if_neg c2]
        by_cases c3 : size ≤ s.lo
        · rw [if_pos c3]
          exact hre _ _ _ (by omega) (by omega)
        · rw [if_neg c3]
          exact hre _ _ _ (by omega) (by omega)

/-- `AddAtEnd(size)`, likewise. -/
theorem growEnd_ok {m : Mem} {s : Seg} {R : List Seg} (hb : Base m (s :: R)) {size : Nat}
    (hsz : 0 < size) :
    ∃ g, growEnd m s size = some g ∧ GrowOk m s R size g ∧ g.pos = g.seg.lo ∧
      (∀ b : Sides, (b.loose = false ∨ s.hi ≠ 0 ∨ b.stop = false) → Wide b m (s :: R) → Wide b g.mem (g.seg :: R) ∧
        (b.stop = true → Clear b.toCover g.seg R (g.seg.hi - size) g.seg.hi)) := by
  unfold growEnd
  cases hst : s.st with
  | none =>
    have hn := hb.null s (by simp) hst
    obtain ⟨g, e, ok, hp, hlo, hw, hc, _⟩ := realloc_ok hb (size := size) (cap := size) (ns := 0)
      (pos := 0) hsz (by omega) (by omega) (by omega)
    exact ⟨g, e, ok, by omega, fun b _ h => ⟨hw b h, fun _ => hc _ _ _⟩⟩
  | some id =>
    obtain ⟨x, hx, h1, h2⟩ := hb.held s (by simp) id hst
    dsimp only
    rw [hx]; dsimp only
    have hre : ∀ cap ns, ns + size + (s.hi - s.lo) ≤ cap →
        ∃ g, realloc m s size cap ns ns = some g ∧ GrowOk m s R size g ∧ g.pos = g.seg.lo ∧
          (∀ b : Sides, (b.loose = false ∨ s.hi ≠ 0 ∨ b.stop = false) → Wide b m (s :: R) → Wide b g.mem (g.seg :: R) ∧
            (b.stop = true → Clear b.toCover g.seg R (g.seg.hi - size) g.seg.hi)) := by
      intro cap ns hc
      obtain ⟨g, e, ok, hp, hlo, hw, hc, _⟩ := realloc_ok hb (size := size) (cap := cap) (ns := ns)
        (pos := ns) hsz hc (by omega) (by omega)
      exact ⟨g, e, ok, by omega, fun b _ h => ⟨hw b h, fun _ => hc _ _ _⟩⟩
    by_cases c1 : x.ref = 1
    · rw [if_pos c1]
      by_cases c2 : size ≤ x.cap - (s.lo + (s.hi - s.lo))
      · rw [if_pos c2]
        obtain ⟨g, e, ok, hp, hw⟩ := adjustEnd_ok hb hst hx (size := size) (by omega)
        exact ⟨g, e, ok, hp, hw (.inl c1)⟩
      · rw [if_neg c2]
        by_cases c3 : (s.hi - s.lo) + size ≤ x.cap
        · rw [if_pos c3, moveEnd_eq hb hst hx c3]
          have := move_ok hb hst hx c1 (size := size) (ns := x.cap - ((s.hi - s.lo) + size))
            (pos := x.cap - ((s.hi - s.lo) + size)) (by omega) (by omega) (by omega)
          exact ⟨_, rfl, this.1, rfl, fun b _ h => ⟨this.2.1 b h, fun _ => this.2.2 _ _ _⟩⟩
        · rw [if_neg c3]
          exact hre _ _ (by omega)
    · rw [if_neg c1]
      by_cases c2 : x.de = s.lo + (s.hi - s.lo)
      · rw [if_pos c2]
        by_cases c3 : size ≤ x.cap - (s.lo + (s.hi - s.lo))
        · rw [if_pos c3]
          obtain ⟨g, e, ok, hp, hw⟩ := adjustEnd_ok hb hst hx (size := size) (by omega)
          exact ⟨g, e, ok, hp, hw (.inr (by omega))⟩
        · rw [if_neg c3]
          exact hre _ _ (by omega)
      · rw [if_neg c2]
        by_cases c3 : size ≤ x.cap - (s.lo + (s.hi - s.lo))
        · rw [if_pos c3]
          exact hre _ _ (by omega)
        · rw [if_neg c3]
          exact hre _ _ (by omega)

theorem dirty_some {m m' : Mem} {id ds de : Nat} (h : m.dirty id ds de = some m') :
    ∃ x, m'.mem id = some x ∧ x.ds = ds ∧ x.de = de := by
  simp only [Mem.dirty] at h
  split at h
  · cases h
  · cases h; exact ⟨_, put_same _ _ _, rfl, rfl⟩

theorem realloc_edge {m : Mem} {s : Seg} {size cap ns pos : Nat} {g : Grown} (h : realloc m s size cap ns pos = some g) :
    ∃ id x, g.seg.st = some id ∧ g.mem.mem id = some x ∧ x.ds = g.seg.lo ∧ x.de = g.seg.hi := by
  unfold realloc at h
  repeat' split at h
  all_goals first | (cases h; done) | skip
  rename_i hd
  cases h
  obtain ⟨x, h1, h2, h3⟩ := dirty_some hd
  exact ⟨_, x, rfl, h1, h2, h3⟩

/-- After growth at the start the dirty range starts where the data start. -/
theorem growStart_edge {m : Mem} {s : Seg} {size : Nat} {g : Grown} (h : growStart m s size = some g) :
    ∃ id x, g.seg.st = some id ∧ g.mem.mem id = some x ∧ x.ds = g.seg.lo := by
  have re : ∀ {cap ns pos : Nat}, realloc m s size cap ns pos = some g →
      ∃ id x, g.seg.st = some id ∧ g.mem.mem id = some x ∧ x.ds = g.seg.lo := by
    intro cap ns pos e
    obtain ⟨id, x, h1, h2, h3, _⟩ := realloc_edge e
    exact ⟨id, x, h1, h2, h3⟩
  have ad : ∀ {id x}, adjustStart m s id x size = some g →
      ∃ id x, g.seg.st = some id ∧ g.mem.mem id = some x ∧ x.ds = g.seg.lo := by
    intro id x e
    unfold adjustStart at e
    split at e
    · cases e
    · rename_i hd
      cases e
      obtain ⟨y, h1, h2, _⟩ := dirty_some hd
      exact ⟨_, y, rfl, h1, h2⟩
  have mv : ∀ {id}, moveStart m s id size = some g →
      ∃ id x, g.seg.st = some id ∧ g.mem.mem id = some x ∧ x.ds = g.seg.lo := by
    intro id e
    unfold moveStart at e
    repeat' split at e
    all_goals first | (cases e; done) | skip
    rename_i hd
    cases e
    obtain ⟨y, h1, h2, _⟩ := dirty_some hd
    exact ⟨_, y, rfl, h1, h2⟩
  unfold growStart at h
  repeat' split at h
  all_goals first | exact re h | exact ad h | exact mv h | cases h

/-- After growth at the end the dirty range ends where the data end. -/
theorem growEnd_edge {m : Mem} {s : Seg} (hs : s.lo ≤ s.hi) {size : Nat} {g : Grown} (h : growEnd m s size = some g) :
    ∃ id x, g.seg.st = some id ∧ g.mem.mem id = some x ∧ x.de = g.seg.hi := by
  have re : ∀ {cap ns pos : Nat}, realloc m s size cap ns pos = some g →
      ∃ id x, g.seg.st = some id ∧ g.mem.mem id = some x ∧ x.de = g.seg.hi := by
    intro cap ns pos e
    obtain ⟨id, x, h1, h2, _, h3⟩ := realloc_edge e
    exact ⟨id, x, h1, h2, h3⟩
  have ad : ∀ {id x}, adjustEnd m s id x size = some g →
      ∃ id x, g.seg.st = some id ∧ g.mem.mem id = some x ∧ x.de = g.seg.hi := by
    intro id x e
    unfold adjustEnd at e
    split at e
    · cases e
    · rename_i hd
      cases e
      obtain ⟨y, h1, _, h2⟩ := dirty_some hd
      exact ⟨_, y, rfl, h1, by dsimp only; omega⟩
  have mv : ∀ {id x}, (s.hi - s.lo) + size ≤ x.cap → moveEnd m s id x size = some g →
      ∃ id x, g.seg.st = some id ∧ g.mem.mem id = some x ∧ x.de = g.seg.hi := by
    intro id x hle e
    unfold moveEnd at e
    dsimp only at e
    repeat' split at e
    all_goals first | (cases e; done) | skip
    rename_i hd
    cases e
    obtain ⟨y, h1, _, h2⟩ := dirty_some hd
    exact ⟨_, y, rfl, h1, by dsimp only; omega⟩
  unfold growEnd at h
  repeat' split at h
  all_goals first | exact re h | exact ad h | exact mv (by assumption) h | cases h

end Verif.Buf
