import Mathlib.Data.List.Perm.Basic
import Verif.Buf.StoreLemmas
import Verif.Buf.Buffer

/-! Helper lemmas about `Buffer` operations. -/
set_option linter.unusedSimpArgs false
set_option linter.unusedVariables false
namespace Verif.Buf

/-- Overwrite a byte sequence with `d` from position `off`. -/
def patch (v : List Byte) (off : Nat) (d : List Byte) : List Byte :=
  v.take off ++ d ++ v.drop (off + d.length)

theorem rd_take (b lo n k) : (rd b lo n).take k = rd b lo (min k n) := by
  apply List.ext_getElem?; intro i
  rw [List.getElem?_take, rd_getElem?, rd_getElem?]
  by_cases h : i < k <;> by_cases h2 : i < n <;> simp [h, h2] <;> omega

theorem rd_drop (b lo n k) : (rd b lo n).drop k = rd b (lo + k) (n - k) := by
  apply List.ext_getElem?; intro i
  rw [List.getElem?_drop, rd_getElem?, rd_getElem?]
  by_cases h : k + i < n
  · rw [if_pos h, if_pos (by omega), show lo + k + i = lo + (k + i) by omega]
  · rw [if_neg h, if_neg (by omega)]

theorem rd_wr_in {b : Nat → Byte} {off lo n : Nat} {d : List Byte} (h1 : lo ≤ off)
    (h2 : off + d.length ≤ lo + n) : rd (wr b off d) lo n = patch (rd b lo n) (off - lo) d := by
  unfold patch
  rw [rd_take, rd_drop, show n = (off - lo) + d.length + (n - (off - lo + d.length)) by omega, rd_add,
    rd_add, show lo + (off - lo) = off by omega, rd_wr_self,
    rd_wr_out (lo := lo) (n := off - lo) (by omega),
    rd_wr_out (lo := lo + (off - lo + d.length)) (by omega),
    show min (off - lo) (off - lo + d.length + (n - (off - lo + d.length))) = off - lo by omega]
  congr 2; omega

theorem patch_length {v d : List Byte} {off : Nat} (h : off + d.length ≤ v.length) :
    (patch v off d).length = v.length := by
  simp [patch]; omega

/-- Writing into the range of the head. -/
theorem fill_ok {m : Mem} {s : Seg} {R : List Seg} (hb : Base m (s :: R)) {off : Nat} {d : List Byte}
    (h1 : s.lo ≤ off) (h2 : off + d.length ≤ s.hi) :
    ∃ m', m.fill s off d = some m' ∧ Base m' (s :: R) ∧ (∀ b, Wide b m (s :: R) → Wide b m' (s :: R)) ∧
      m'.view s = patch (m.view s) (off - s.lo) d ∧
      (∀ t ∈ R, (t.st = s.st → off + d.length ≤ t.lo ∨ t.hi ≤ off) → m'.view t = m.view t) ∧
      m'.next = m.next := by
  unfold Mem.fill
  cases hst : s.st with
  | none =>
    have := hb.null s (by simp) hst
    have hd : d = [] := List.length_eq_zero_iff.mp (by omega)
    subst hd
    exact ⟨m, by simp, hb, fun _ h => h, by simp [Mem.view, hst, patch], fun _ _ _ => rfl, rfl⟩
  | some id =>
    obtain ⟨x, hx, h3, h4⟩ := hb.held s (by simp) id hst
    refine ⟨m.put id (some { x with bytes := wr x.bytes off d }), ?_, base_put hb hx rfl rfl, ?_, ?_, ?_, rfl⟩
    · simp only [Mem.write, hx]; rw [if_pos (by omega)]
    · intro b hW t ht id' y h hy
      simp only [put_mem] at hy
      split at hy
      · rename_i e; subst e; cases hy; exact hW t ht id' x h hx
      · exact hW t ht id' y h hy
    · simp only [Mem.view, hst, put_mem, if_true, hx]
      exact rd_wr_in h1 (by omega)
    · intro t ht hc
      refine view_put hx t ?_
      intro h k hk1 hk2
      have := hc h
      exact wr_out (by omega)

theorem view_length {m : Mem} {L : List Seg} (hb : Base m L) {s : Seg} (hs : s ∈ L) :
    (m.view s).length = s.hi - s.lo := (readSeg_ok hb hs).2

theorem null_eq {m : Mem} {L : List Seg} (hb : Base m L) {s : Seg} (hs : s ∈ L) (h : s.st = none) :
    s = Seg.null := by
  have := hb.null s hs h
  obtain ⟨a, b, c⟩ := s; simp_all [Seg.null]

theorem view_null (m : Mem) : m.view Seg.null = [] := rfl

/-- One more holder with the same range. -/
theorem acquire_ok {m : Mem} {L : List Seg} (hb : Base m L) {s : Seg} (hs : s ∈ L) :
    ∃ m', m.acquire s = some m' ∧ Base m' (s :: L) ∧ (∀ t, m'.view t = m.view t) ∧
      (∀ b, Wide b m L → Wide b m' (s :: L)) ∧ m'.next = m.next := by
  unfold Mem.acquire
  cases hst : s.st with
  | none =>
    have := null_eq hb hs hst
    subst this
    exact ⟨m, rfl, base_null.mpr hb, fun _ => rfl, fun b h => wide_null.mpr h, rfl⟩
  | some id =>
    obtain ⟨x, hx, h3, h4⟩ := hb.held s hs id hst
    obtain ⟨m', e, hb', rfl⟩ := base_addRef hb hx h3 h4
    have es : s = ⟨some id, s.lo, s.hi⟩ := by obtain ⟨a, b, c⟩ := s; simp_all
    refine ⟨_, e, by rw [es]; exact hb', fun t => view_put hx t (fun _ _ _ _ => rfl), ?_, rfl⟩
    intro b hW t ht id' y h hy
    have ht' : t ∈ L := by
      rcases List.mem_cons.mp ht with rfl | ht
      · exact hs
      · exact ht
    simp only [put_mem] at hy
    split at hy
    · rename_i e; subst e; cases hy; exact hW t ht' id' x h hx
    · exact hW t ht' id' y h hy

theorem construct_ok {m : Mem} {L : List Seg} (hb : Base m L) (a z e : Nat) :
    ∃ m' s, construct m a z e = some (m', s) ∧ Base m' (s :: L) ∧ m'.view s = List.replicate z 0 ∧
      (∀ t ∈ L, m'.view t = m.view t) ∧ (∀ b, Wide b m L → Wide b m' (s :: L)) := by
  unfold construct
  by_cases hc : a + z + e = 0
  · have ha : a = 0 := by omega
    have hz : z = 0 := by omega
    subst ha hz
    have : e = 0 := by omega
    subst this
    refine ⟨m, Seg.null, ?_, base_null.mpr hb, rfl, fun _ _ => rfl, fun b h => wide_null.mpr h⟩
    simp [Mem.allocate, Mem.dirtyOf, Mem.fill, Seg.null]
  · have e1 : m.allocate (a + z + e) = ((m.alloc (a + z + e)).1, some m.next) := by
      simp only [Mem.allocate]; rw [if_neg hc]; rfl
    rw [e1]; dsimp only
    have hb1 : Base (m.alloc (a + z + e)).1 (⟨some m.next, a, a + z⟩ :: L) :=
      base_alloc hb (by omega) (by omega)
    have hx1 : (m.alloc (a + z + e)).1.mem m.next = some ⟨a + z + e, 1, 0, 0, m.junk m.next⟩ := by
      simp [Mem.alloc]
    have hd : (m.alloc (a + z + e)).1.dirtyOf ⟨some m.next, a, a + z⟩ =
        some ((m.alloc (a + z + e)).1.put m.next (some ⟨a + z + e, 1, a, a + z, m.junk m.next⟩)) := by
      simp only [Mem.dirtyOf, Mem.dirty, hx1]
    rw [hd]; dsimp only
    have hb2 : Base ((m.alloc (a + z + e)).1.put m.next (some ⟨a + z + e, 1, a, a + z, m.junk m.next⟩))
        (⟨some m.next, a, a + z⟩ :: L) := base_put hb1 hx1 rfl rfl
    have hne : ∀ t ∈ L, t.st ≠ some m.next := by
      intro t ht h
      obtain ⟨x, hx, _⟩ := hb.held t ht _ h
      rw [hb.closed _ (Nat.le_refl _)] at hx; cases hx
    obtain ⟨m', e2, hb3, hw, hv, ho, _⟩ := fill_ok hb2 (off := a) (d := List.replicate z 0)
      (Nat.le_refl _) (by simp)
    rw [e2]
    refine ⟨m', _, rfl, hb3, ?_, ?_, ?_⟩
    · rw [hv]
      have hl := view_length hb2 (by simp : (⟨some m.next, a, a + z⟩ : Seg) ∈ _)
      simp only at hl
      unfold patch
      rw [List.drop_of_length_le (by simp [hl])]
      simp
    · intro t ht
      rw [ho t ht (fun h => absurd h (hne t ht)), view_put hx1 t (fun h => absurd h (hne t ht)),
        view_alloc hb _ ht]
    · intro b hW
      apply hw
      intro t ht id y h hy
      rcases List.mem_cons.mp ht with rfl | ht
      · cases h
        simp only [put_mem, if_true] at hy; cases hy
        exact fun _ => ⟨fun _ => Nat.le_refl _, fun _ => .inl (Nat.le_refl _)⟩
      · have hn : id ≠ m.next := by rintro rfl; exact hne t ht h
        simp only [put_mem, if_neg hn, Mem.alloc] at hy
        exact hW t ht id y h hy

theorem constructFrom_ok {m : Mem} {L : List Seg} (hb : Base m L) (d : List Byte) :
    ∃ m' s, constructFrom m d = some (m', s) ∧ Base m' (s :: L) ∧ m'.view s = d ∧
      (∀ t ∈ L, m'.view t = m.view t) ∧
      (∀ b : Sides, (b.loose = true ∨ d = [] ∨ ¬ b.on m.next ∨ b.stop = false) → Wide b m L → Wide b m' (s :: L)) ∧
      (∀ t ∈ L, ∀ id, t.st = some id → s.st ≠ some id) := by
  unfold constructFrom
  by_cases hc : d.length = 0
  · have hd : d = [] := List.length_eq_zero_iff.mp hc
    subst hd
    refine ⟨m, Seg.null, ?_, base_null.mpr hb, rfl, fun _ _ => rfl, fun b _ h => wide_null.mpr h, ?_⟩
    · simp [Mem.allocate, Mem.fill, Seg.null]
    · intro _ _ _ _ h; cases h
  · have e1 : m.allocate d.length = ((m.alloc d.length).1, some m.next) := by
      simp only [Mem.allocate]; rw [if_neg hc]; rfl
    rw [e1]; dsimp only
    have hb1 : Base (m.alloc d.length).1 (⟨some m.next, 0, d.length⟩ :: L) :=
      base_alloc hb (by omega) (by omega)
    have hx1 : (m.alloc d.length).1.mem m.next = some ⟨d.length, 1, 0, 0, m.junk m.next⟩ := by
      simp [Mem.alloc]
    have hne : ∀ t ∈ L, t.st ≠ some m.next := by
      intro t ht h
      obtain ⟨x, hx, _⟩ := hb.held t ht _ h
      rw [hb.closed _ (Nat.le_refl _)] at hx; cases hx
    obtain ⟨m', e2, hb3, hw, hv, ho, _⟩ := fill_ok hb1 (off := 0) (d := d) (Nat.le_refl _) (by simp)
    rw [e2]
    refine ⟨m', _, rfl, hb3, ?_, ?_, ?_, ?_⟩
    · rw [hv]
      have hl := view_length hb1 (by simp : (⟨some m.next, 0, d.length⟩ : Seg) ∈ _)
      simp only at hl
      unfold patch
      rw [List.drop_of_length_le (by simp [hl])]
      simp
    · intro t ht
      rw [ho t ht (fun h => absurd h (hne t ht)), view_alloc hb _ ht]
    · intro b hbz hW
      apply hw
      intro t ht id y h hy
      rcases List.mem_cons.mp ht with rfl | ht
      · cases h
        rw [hx1] at hy; cases hy
        intro hon
        rcases hbz with h | h | h | h
        · exact ⟨fun _ => Nat.zero_le _, fun _ => .inr ⟨h, rfl⟩⟩
        · exact absurd (by simp [h]) hc
        · exact absurd hon h
        · exact ⟨fun _ => Nat.zero_le _, fun h' => by rw [h] at h'; cases h'⟩
      · have hn : id ≠ m.next := by rintro rfl; exact hne t ht h
        simp only [put_mem, if_neg hn, Mem.alloc] at hy
        exact hW t ht id y h hy
    · intro t ht id h e
      cases e; exact hne t ht h

theorem removeAtStart_ok {m : Mem} {s : Seg} {R : List Seg} (hb : Base m (s :: R)) (n : Nat) :
    ∃ m' s', removeAtStart m s n = some (m', s') ∧ Base m' (s' :: R) ∧
      m'.view s' = (m.view s).drop n ∧ (∀ t ∈ R, m'.view t = m.view t) ∧
      (∀ b, Wide b m (s :: R) → Wide b m' (s' :: R)) := by
  unfold removeAtStart
  have hl := view_length hb (by simp : s ∈ s :: R)
  by_cases hn : n ≤ s.hi - s.lo
  · rw [if_pos hn]
    refine ⟨m, _, rfl, ?_, ?_, fun _ _ => rfl, ?_⟩
    · cases hst : s.st with
      | none =>
        have := null_eq hb (by simp : s ∈ s :: R) hst
        subst this
        have : n = 0 := by simpa [Seg.null] using hn
        subst this; exact hb
      | some id =>
        obtain ⟨x, hx, h3, h4⟩ := hb.held s (by simp) id hst
        exact base_range hb hst hx (lo := s.lo + n) (hi := s.hi) (by omega) h4
    · simp only [Mem.view]
      cases hst : s.st with
      | none => simp
      | some id =>
        dsimp only
        cases hx : m.mem id with
        | none => simp
        | some x =>
          dsimp only
          rw [rd_drop, show s.hi - (s.lo + n) = s.hi - s.lo - n by omega]
    · intro b hW t ht id x h hx
      rcases List.mem_cons.mp ht with rfl | ht
      · intro hon
        have := hW s (by simp) id x h hx hon
        exact ⟨fun hS => by have := this.1 hS; dsimp only; omega, this.2⟩
      · exact hW t (by simp [ht]) id x h hx
  · rw [if_neg hn]
    obtain ⟨m', e, hb', hv, _, hw, _⟩ := base_drop hb
    rw [e]
    have hnull : (if s.st.isSome then Seg.null else s) = Seg.null := by
      cases hst : s.st with
      | none => simp [null_eq hb (by simp : s ∈ s :: R) hst]
      | some id => rfl
    refine ⟨m', _, rfl, ?_, ?_, hv, ?_⟩
    · rw [hnull]; exact base_null.mpr hb'
    · rw [hnull, view_null, List.drop_of_length_le (by omega)]
    · intro b hW; rw [hnull]; exact wide_null.mpr (hw b hW)

theorem removeAtEnd_ok {m : Mem} {s : Seg} {R : List Seg} (hb : Base m (s :: R)) (n : Nat) :
    ∃ m' s', removeAtEnd m s n = some (m', s') ∧ Base m' (s' :: R) ∧
      m'.view s' = (m.view s).take ((m.view s).length - n) ∧ (∀ t ∈ R, m'.view t = m.view t) ∧
      (∀ b, Wide b m (s :: R) → Wide b m' (s' :: R)) := by
  unfold removeAtEnd
  have hl := view_length hb (by simp : s ∈ s :: R)
  rw [hl]
  by_cases hn : n ≤ s.hi - s.lo
  · rw [if_pos hn]
    refine ⟨m, _, rfl, ?_, ?_, fun _ _ => rfl, ?_⟩
    · cases hst : s.st with
      | none =>
        have := null_eq hb (by simp : s ∈ s :: R) hst
        subst this
        have : n = 0 := by simpa [Seg.null] using hn
        subst this; exact hb
      | some id =>
        obtain ⟨x, hx, h3, h4⟩ := hb.held s (by simp) id hst
        exact base_range hb hst hx (lo := s.lo) (hi := s.hi - n) (by omega) (by omega)
    · simp only [Mem.view]
      cases hst : s.st with
      | none => simp
      | some id =>
        dsimp only
        cases hx : m.mem id with
        | none => simp
        | some x =>
          dsimp only
          rw [rd_take, show s.hi - n - s.lo = min (s.hi - s.lo - n) (s.hi - s.lo) by omega]
    · intro b hW t ht id x h hx
      rcases List.mem_cons.mp ht with rfl | ht
      · intro hon
        have := hW s (by simp) id x h hx hon
        refine ⟨this.1, fun hS => ?_⟩
        rcases this.2 hS with h' | h'
        · left; dsimp only; omega
        · exact .inr h'
      · exact hW t (by simp [ht]) id x h hx
  · rw [if_neg hn]
    obtain ⟨m', e, hb', hv, _, hw, _⟩ := base_drop hb
    rw [e]
    have hnull : (if s.st.isSome then Seg.null else s) = Seg.null := by
      cases hst : s.st with
      | none => simp [null_eq hb (by simp : s ∈ s :: R) hst]
      | some id => rfl
    refine ⟨m', _, rfl, ?_, ?_, hv, ?_⟩
    · rw [hnull]; exact base_null.mpr hb'
    · rw [hnull, view_null, show s.hi - s.lo - n = 0 by omega]; rfl
    · intro b hW; rw [hnull]; exact wide_null.mpr (hw b hW)

theorem makeFragment_ok {m : Mem} {L : List Seg} (hb : Base m L) {s : Seg} (hs : s ∈ L) {a n : Nat}
    (h1 : a ≤ s.hi - s.lo) (h2 : n ≤ s.hi - s.lo - a) :
    ∃ m' f, makeFragment m s a n = some (m', f) ∧ Base m' (f :: L) ∧
      m'.view f = ((m.view s).drop a).take n ∧ (∀ t, m'.view t = m.view t) ∧
      (n = 0 → m' = m ∧ f = Seg.null) ∧
      (∀ b : Sides, (n = 0 ∨ ∀ id x, s.st = some id → m.mem id = some x → b.on id →
        (b.start = true → a = 0 ∧ x.ds = s.lo) ∧ (b.stop = true → a + n = s.hi - s.lo ∧ x.de = s.hi)) → Wide b m L → Wide b m' (f :: L)) := by
  unfold makeFragment
  rw [if_pos ⟨h1, h2⟩]
  by_cases hn : n = 0
  · subst hn
    rw [if_pos rfl]
    exact ⟨m, _, rfl, base_null.mpr hb, by simp [view_null], fun _ => rfl, fun _ => ⟨rfl, rfl⟩,
      fun b _ h => wide_null.mpr h⟩
  · rw [if_neg hn]
    cases hst : s.st with
    | none =>
      have := hb.null s hs hst
      omega
    | some id =>
      obtain ⟨x, hx, h3, h4⟩ := hb.held s hs id hst
      obtain ⟨m', e, hb', rfl⟩ := base_addRef hb hx (lo := s.lo + a) (hi := s.lo + a + n) (by omega)
        (by omega)
      dsimp only
      rw [e]; dsimp only
      rw [put_same]; dsimp only
      rw [if_pos (by omega)]
      simp only [Mem.dirty, put_same]
      refine ⟨_, _, rfl, ?_, ?_, ?_, fun h => absurd h hn, ?_⟩
      · exact base_put hb' (put_same _ _ _) rfl rfl
      · simp only [Mem.view, put_same, hst, hx]
        rw [rd_drop, rd_take]
        congr 1; omega
      · intro t
        rw [view_put (x := { x with ref := x.ref + 1 })
            (y := { x with ref := x.ref + 1, ds := s.lo + a, de := s.lo + a + n })
            (put_same _ _ _) t (fun _ _ _ _ => rfl)]
        exact view_put hx t (fun _ _ _ _ => rfl)
      · intro b hbz hW t ht id' y h hy hon
        have hno : b.on id → (b.start = true → a = 0 ∧ x.ds = s.lo) ∧
            (b.stop = true → a + n = s.hi - s.lo ∧ x.de = s.hi) := by
          rcases hbz with e | e
          · exact absurd e hn
          · exact e id x rfl hx
        rcases List.mem_cons.mp ht with rfl | htL
        · cases h
          simp only [put_same] at hy; cases hy
          exact ⟨fun _ => Nat.le_refl _, fun _ => .inl (Nat.le_refl _)⟩
        · by_cases hne : id' = id
          · subst hne
            simp only [put_same] at hy; cases hy
            have h0 := hno hon
            have h1 := hW t htL id' x h hx hon
            refine ⟨fun hS => ?_, fun hS => ?_⟩
            · have := h0.1 hS; have := h1.1 hS; dsimp only; omega
            · have := h0.2 hS
              rcases h1.2 hS with k | k
              · left; dsimp only; omega
              · have := (hb.held t htL id' h); left; dsimp only; omega
          · simp only [put_mem, if_neg hne] at hy
            exact hW t htL id' y h hy hon

theorem addAtStart_ok {m : Mem} {s : Seg} {R : List Seg} (hb : Base m (s :: R)) (n : Nat) :
    ∃ m' s' pre, addAtStart m s n = some (m', s') ∧ Base m' (s' :: R) ∧
      m'.view s' = pre ++ m.view s ∧ pre.length = n ∧ s'.hi - s'.lo = n + (s.hi - s.lo) ∧
      (∀ t ∈ R, m'.view t = m.view t) ∧ (0 < n → s'.st ≠ none) ∧
      (∀ b, Wide b m (s :: R) → Wide b m' (s' :: R) ∧
        (0 < n → b.start = true → Clear b.toCover s' R s'.lo (s'.lo + n))) := by
  unfold addAtStart
  by_cases hn : n = 0
  · subst hn
    rw [if_pos rfl]
    exact ⟨m, s, [], rfl, hb, rfl, rfl, by omega, fun _ _ => rfl, by omega,
      fun b h => ⟨h, by omega⟩⟩
  · rw [if_neg hn]
    obtain ⟨g, e, ok, hp, hw⟩ := growStart_ok hb (size := n) (by omega)
    rw [e]
    obtain ⟨pre, post, hv, h1, h2⟩ := view_of_grow ok
    have hpost : post = [] := List.length_eq_zero_iff.mp (by omega)
    subst hpost
    have := ok.len
    exact ⟨g.mem, g.seg, pre, rfl, ok.base, by simpa using hv, by omega, by omega, ok.others,
      fun _ => ok.held, fun b h => ⟨(hw b h).1, fun _ => (hw b h).2⟩⟩

theorem addAtEnd_ok {m : Mem} {s : Seg} {R : List Seg} (hb : Base m (s :: R)) (n : Nat) :
    ∃ m' s' post, addAtEnd m s n = some (m', s') ∧ Base m' (s' :: R) ∧
      m'.view s' = m.view s ++ post ∧ post.length = n ∧ s'.hi - s'.lo = (s.hi - s.lo) + n ∧
      (∀ t ∈ R, m'.view t = m.view t) ∧ (0 < n → s'.st ≠ none) ∧ s'.lo + n ≤ s'.hi ∧
      (∀ b : Sides, (b.loose = false ∨ s.hi ≠ 0 ∨ n = 0 ∨ b.stop = false) → Wide b m (s :: R) → Wide b m' (s' :: R) ∧
        (0 < n → b.stop = true → Clear b.toCover s' R (s'.hi - n) s'.hi)) := by
  unfold addAtEnd
  by_cases hn : n = 0
  · subst hn
    rw [if_pos rfl]
    refine ⟨m, s, [], rfl, hb, by simp, rfl, by omega, fun _ _ => rfl, by omega, ?_,
      fun b _ h => ⟨h, by omega⟩⟩
    cases hst : s.st with
    | none => have := hb.null s (by simp) hst; omega
    | some id => obtain ⟨_, _, h, _⟩ := hb.held s (by simp) id hst; omega
  · rw [if_neg hn]
    obtain ⟨g, e, ok, hp, hw⟩ := growEnd_ok hb (size := n) (by omega)
    rw [e]
    obtain ⟨pre, post, hv, h1, h2⟩ := view_of_grow ok
    have hpre : pre = [] := List.length_eq_zero_iff.mp (by omega)
    subst hpre
    have := ok.len
    refine ⟨g.mem, g.seg, post, rfl, ok.base, by simpa using hv, by omega, by omega, ok.others,
      fun _ => ok.held, by omega, ?_⟩
    intro b hc h
    have := hw b (by
      rcases hc with h | h | h | h
      · exact .inl h
      · exact .inr (.inl h)
      · exact absurd h hn
      · exact .inr (.inr h)) h
    exact ⟨this.1, fun _ => this.2⟩

theorem addBytesAtStart_ok {m : Mem} {s : Seg} {R : List Seg} (hb : Base m (s :: R)) (d : List Byte) :
    ∃ m' s', addBytesAtStart m s d = some (m', s') ∧ Base m' (s' :: R) ∧
      m'.view s' = d ++ m.view s ∧
      (∀ b, Wide b m (s :: R) → Wide b m' (s' :: R) ∧
        (d = [] ∨ b.start = true → ∀ t ∈ R, b.has t → m'.view t = m.view t)) := by
  unfold addBytesAtStart
  by_cases hn : d.length = 0
  · rw [if_pos hn]
    have := List.length_eq_zero_iff.mp hn; subst this
    exact ⟨m, s, rfl, hb, rfl, fun b h => ⟨h, fun _ _ _ _ => rfl⟩⟩
  · rw [if_neg hn]
    obtain ⟨m1, s1, pre, e, hb1, hv, hp, hlen, ho, hst, hw⟩ := addAtStart_ok hb d.length
    rw [e]; dsimp only
    obtain ⟨m2, e2, hb2, hw2, hv2, ho2, _⟩ := fill_ok hb1 (off := s1.lo) (d := d) (Nat.le_refl _)
      (by omega)
    rw [e2]
    refine ⟨m2, s1, rfl, hb2, ?_, ?_⟩
    · rw [hv2, hv]; unfold patch; simp [hp]
    · intro b hW
      obtain ⟨hW1, hcl⟩ := hw b hW
      refine ⟨hw2 b hW1, fun hS t ht hon => ?_⟩
      have hS : b.start = true := hS.resolve_left (fun e => hn (by simp [e]))
      rw [ho2 t ht (hcl (by omega) hS t ht hon), ho t ht]

theorem addBytesAtEnd_ok {m : Mem} {s : Seg} {R : List Seg} (hb : Base m (s :: R)) (d : List Byte) :
    ∃ m' s', addBytesAtEnd m s d = some (m', s') ∧ Base m' (s' :: R) ∧
      m'.view s' = m.view s ++ d ∧
      (∀ b : Sides, (b.loose = false ∨ s.hi ≠ 0 ∨ d = [] ∨ b.stop = false) → Wide b m (s :: R) →
        Wide b m' (s' :: R) ∧ (d = [] ∨ b.stop = true → ∀ t ∈ R, b.has t → m'.view t = m.view t)) := by
  unfold addBytesAtEnd
  by_cases hn : d.length = 0
  · rw [if_pos hn]
    have := List.length_eq_zero_iff.mp hn; subst this
    exact ⟨m, s, rfl, hb, by simp, fun b _ h => ⟨h, fun _ _ _ _ => rfl⟩⟩
  · rw [if_neg hn]
    obtain ⟨m1, s1, post, e, hb1, hv, hp, hlen, ho, hst, hle, hw⟩ := addAtEnd_ok hb d.length
    rw [e]; dsimp only
    obtain ⟨m2, e2, hb2, hw2, hv2, ho2, _⟩ := fill_ok hb1 (off := s1.hi - d.length) (d := d)
      (by omega) (by omega)
    rw [e2]
    have hl := view_length hb (by simp : s ∈ s :: R)
    refine ⟨m2, s1, rfl, hb2, ?_, ?_⟩
    · rw [hv2, hv]; unfold patch
      rw [List.take_append_of_le_length (by omega), List.take_of_length_le (by omega),
        List.drop_of_length_le (by simp; omega)]
      simp
    · intro b hbz hW
      obtain ⟨hW1, hcl⟩ := hw b (by
        rcases hbz with h | h | h | h
        · exact .inl h
        · exact .inr (.inl h)
        · exact .inr (.inr (.inl (by simp [h])))
        · exact .inr (.inr (.inr h))) hW
      refine ⟨hw2 b hW1, fun hS t ht hon => ?_⟩
      have hS : b.stop = true := hS.resolve_left (fun e => hn (by simp [e]))
      rw [ho2 t ht (fun h => by have := hcl (by omega) hS t ht hon h; omega), ho t ht]

/-- `CopyTo` of a valid buffer never goes wrong. -/
theorem copyOut_ok {m : Mem} {L : List Seg} (hb : Base m L) {s : Seg} (hs : s ∈ L) (n : Nat) :
    copyOut m s n = some ((m.view s).take n) := by
  unfold copyOut
  cases hst : s.st with
  | none => simp [Mem.view, hst]
  | some id =>
    obtain ⟨x, hx, h3, h4⟩ := hb.held s hs id hst
    simp only [Mem.read, hx, Mem.view, hst]
    rw [rd_take]
    split
    · rename_i h; rw [if_pos (by omega)]; congr 2; omega
    · rename_i h; rw [if_pos (by omega)]; congr 2; omega

/-! ### The list of buffers -/

theorem set_perm {L : List Seg} {i : Nat} {s : Seg} (h : L[i]? = some s) (s' : Seg) :
    L.Perm (s :: L.eraseIdx i) ∧ (L.set i s').Perm (s' :: L.eraseIdx i) := by
  obtain ⟨hi, rfl⟩ := List.getElem?_eq_some_iff.mp h
  exact ⟨(List.getElem_cons_eraseIdx_perm hi).symm, List.set_perm_cons_eraseIdx hi s'⟩

theorem mem_erase {L : List Seg} {i j : Nat} {t : Seg} (h : L[j]? = some t) (hj : j ≠ i) :
    t ∈ L.eraseIdx i := List.mem_eraseIdx_iff_getElem?.mpr ⟨j, hj, h⟩

theorem views_set {L : List Seg} {m m' : Mem} {i : Nat} {s' : Seg}
    (h : ∀ t ∈ L.eraseIdx i, m'.view t = m.view t) :
    (L.set i s').map m'.view = (L.map m.view).set i (m'.view s') := by
  apply List.ext_getElem?; intro j
  rw [List.getElem?_map, List.getElem?_set, List.getElem?_set]
  by_cases hij : i = j
  · subst hij
    rw [if_pos rfl, if_pos rfl, List.length_map]
    split <;> rfl
  · rw [if_neg hij, if_neg hij, List.getElem?_map]
    cases hj : L[j]? with
    | none => rfl
    | some t => simp [h t (mem_erase hj (fun e => hij e.symm))]

theorem views_congr {L : List Seg} {m m' : Mem} (h : ∀ t ∈ L, m'.view t = m.view t) :
    L.map m'.view = L.map m.view := List.map_congr_left h

theorem base_cons {m : Mem} {L : List Seg} {s : Seg} : Base m (s :: L) ↔ Base m (L ++ [s]) :=
  ⟨base_perm (List.perm_append_comm (l₁ := [s]) (l₂ := L)),
    base_perm (List.perm_append_comm (l₁ := L) (l₂ := [s]))⟩

theorem wide_cons {b : Sides} {m : Mem} {L : List Seg} {s : Seg} :
    Wide b m (s :: L) ↔ Wide b m (L ++ [s]) :=
  ⟨wide_perm (List.perm_append_comm (l₁ := [s]) (l₂ := L)),
    wide_perm (List.perm_append_comm (l₁ := L) (l₂ := [s]))⟩


theorem bytes_set_same {s : State} {i : Nat} {b b' : Seg} {m' : Mem} (h : s.bufs[i]? = some b) :
    (⟨m', s.bufs.set i b'⟩ : State).bytes i = m'.view b' := by
  have hi := (List.getElem?_eq_some_iff.mp h).1
  simp [State.bytes, List.getElem?_set, hi]

theorem size_set_same {s : State} {i : Nat} {b b' : Seg} {m' : Mem} (h : s.bufs[i]? = some b) :
    (⟨m', s.bufs.set i b'⟩ : State).size i = b'.hi - b'.lo := by
  have hi := (List.getElem?_eq_some_iff.mp h).1
  simp [State.size, List.getElem?_set, hi]

theorem bytes_set_ne {s : State} {i k : Nat} {b' : Seg} {m' : Mem} (hk : k ≠ i)
    (h : ∀ t ∈ s.bufs.eraseIdx i, m'.view t = s.mem.view t) :
    (⟨m', s.bufs.set i b'⟩ : State).bytes k = s.bytes k := by
  simp only [State.bytes, List.getElem?_set_ne (Ne.symm hk)]
  cases hkk : s.bufs[k]? with
  | none => rfl
  | some t => exact h t (mem_erase hkk hk)

theorem bytes_push {s : State} {b' : Seg} {m' : Mem}
    (h : ∀ t ∈ s.bufs, m'.view t = s.mem.view t) :
    (∀ k, k < s.bufs.length → (⟨m', s.bufs ++ [b']⟩ : State).bytes k = s.bytes k) ∧
    (⟨m', s.bufs ++ [b']⟩ : State).bytes s.bufs.length = m'.view b' := by
  constructor
  · intro k hk
    simp only [State.bytes, List.getElem?_append_left hk]
    have := List.getElem?_eq_getElem hk
    rw [this]
    exact h _ (List.getElem_mem hk)
  · simp [State.bytes]

theorem bytes_of {s : State} {i : Nat} {b : Seg} (h : s.bufs[i]? = some b) : s.bytes i = s.mem.view b := by
  simp [State.bytes, h]

theorem size_of {s : State} {i : Nat} {b : Seg} (h : s.bufs[i]? = some b) : s.size i = b.hi - b.lo := by
  simp [State.size, h]

theorem get_of_lt {s : State} {i : Nat} (h : i < s.bufs.length) : ∃ b, s.bufs[i]? = some b :=
  ⟨_, List.getElem?_eq_getElem h⟩

theorem on_eq {s : State} {i : Nat} {b b' : Seg} {m' : Mem} {f : Mem → Seg → Option (Mem × Seg)}
    (h : s.bufs[i]? = some b) (hf : f s.mem b = some (m', b')) :
    s.on i f = some ⟨m', s.bufs.set i b'⟩ := by
  simp [State.on, h, hf]

/-- The operations whose arguments respect the documented preconditions. -/
def Op.ok (s : State) : Op → Prop
  | .new _ _ _ | .newFrom _ => True
  | .copy j | .move j | .destroy j | .addStart j _ | .addEnd j _ | .addStartBytes j _ | .addEndBytes j _
  | .removeStart j _ | .removeEnd j _ => j < s.bufs.length
  | .assign i j | .moveAssign i j | .swap i j | .addStartBuf i j | .addEndBuf i j =>
    i < s.bufs.length ∧ j < s.bufs.length
  | .fragment j a n => j < s.bufs.length ∧ a + n ≤ s.size j
  | .write i off d => i < s.bufs.length ∧ off + d.length ≤ s.size i

/-- Operations for which the dirty ranges keep covering every holder: no fragments, and either no deep
copies (tight) or no `AddAtEnd` on an empty buffer (loose), as far as the given storages are concerned.  If only
the starts are to be covered: fragments from the very start; and likewise for the ends. -/
def Op.plain (b : Sides) (s : State) : Op → Prop
  | .newFrom d => b.loose = true ∨ d = [] ∨ ¬ b.on s.mem.next ∨ b.stop = false
  | .fragment j off n => n = 0 ∨ ∀ a, s.bufs[j]? = some a → ∀ id x, a.st = some id → s.mem.mem id = some x → b.on id →
      (b.start = true → off = 0 ∧ x.ds = a.lo) ∧ (b.stop = true → off + n = a.hi - a.lo ∧ x.de = a.hi)
  | .addEnd i n => b.loose = false ∨ s.size i ≠ 0 ∨ n = 0 ∨ b.stop = false
  | .addEndBytes i d => b.loose = false ∨ s.size i ≠ 0 ∨ d = [] ∨ b.stop = false
  | .addEndBuf i j => b.loose = false ∨ s.size i ≠ 0 ∨ s.size j = 0 ∨ b.stop = false
  | _ => True

/-- Operations that store bytes at covered sides only. -/
def Op.sided (b : Sides) (s : State) : Op → Prop
  | .addStartBytes _ d => d = [] ∨ b.start = true
  | .addStartBuf _ j => s.size j = 0 ∨ b.start = true
  | .addEndBytes _ d => d = [] ∨ b.stop = true
  | .addEndBuf _ j => s.size j = 0 ∨ b.stop = true
  | _ => True

theorem sided_cover (c : Cover) (s : State) (o : Op) : o.sided c s := by
  cases o <;> simp [Op.sided]

/-- Everything about one step: it does not go wrong, what it does to the buffers it names, what it does to
the others. -/
def Effect (s s' : State) : Op → Prop
  | .new _ z _ => s'.bufs.length = s.bufs.length + 1 ∧ s'.bytes s.bufs.length = List.replicate z 0
  | .newFrom d => s'.bufs.length = s.bufs.length + 1 ∧ s'.bytes s.bufs.length = d
  | .copy j => s'.bufs.length = s.bufs.length + 1 ∧ s'.bytes s.bufs.length = s.bytes j
  | .move j => s'.bufs.length = s.bufs.length + 1 ∧ s'.bytes s.bufs.length = s.bytes j ∧ s'.bytes j = []
  | .assign i j => s'.bufs.length = s.bufs.length ∧ s'.bytes i = s.bytes j
  | .moveAssign i j => s'.bufs.length = s.bufs.length ∧ s'.bytes i = s.bytes j ∧ (i ≠ j → s'.bytes j = [])
  | .swap i j => s'.bufs.length = s.bufs.length ∧ s'.bytes i = s.bytes j ∧ s'.bytes j = s.bytes i
  | .destroy i => s'.bufs.length = s.bufs.length ∧ s'.bytes i = []
  | .addStart i n => s'.bufs.length = s.bufs.length ∧ ∃ pre, pre.length = n ∧ s'.bytes i = pre ++ s.bytes i
  | .addEnd i n => s'.bufs.length = s.bufs.length ∧ ∃ post, post.length = n ∧ s'.bytes i = s.bytes i ++ post
  | .addStartBytes i d => s'.bufs.length = s.bufs.length ∧ s'.bytes i = d ++ s.bytes i
  | .addEndBytes i d => s'.bufs.length = s.bufs.length ∧ s'.bytes i = s.bytes i ++ d
  | .addStartBuf i j => s'.bufs.length = s.bufs.length ∧ (i ≠ j → s'.bytes i = s.bytes j ++ s.bytes i) ∧
      (i = j → ∃ pre, pre.length = s.size i ∧ s'.bytes i = pre ++ s.bytes i)
  | .addEndBuf i j => s'.bufs.length = s.bufs.length ∧ s'.bytes i = s.bytes i ++ s.bytes j
  | .removeStart i n => s'.bufs.length = s.bufs.length ∧ s'.bytes i = (s.bytes i).drop n
  | .removeEnd i n => s'.bufs.length = s.bufs.length ∧
      s'.bytes i = (s.bytes i).take ((s.bytes i).length - n)
  | .fragment j a n => s'.bufs.length = s.bufs.length + 1 ∧
      s'.bytes s.bufs.length = ((s.bytes j).drop a).take n
  | .write i off d => s'.bufs.length = s.bufs.length ∧ s'.bytes i = patch (s.bytes i) off d

/-- The existing buffers an operation is meant to change. -/
def Op.targets : Op → List Nat
  | .new _ _ _ | .newFrom _ | .copy _ | .fragment _ _ _ => []
  | .move j | .destroy j | .addStart j _ | .addEnd j _ | .addStartBytes j _ | .addEndBytes j _
  | .removeStart j _ | .removeEnd j _ | .write j _ _ => [j]
  | .assign i _ | .addStartBuf i _ | .addEndBuf i _ => [i]
  | .moveAssign i j | .swap i j => [i, j]

/-- All other buffers read as before. -/
def Frame (s s' : State) (o : Op) : Prop :=
  ∀ k, k < s.bufs.length → k ∉ o.targets → s'.bytes k = s.bytes k

/-- All other buffers on the given storages read as before. -/
def FrameOn (c : Cover) (s s' : State) (o : Op) : Prop :=
  ∀ k a, s.bufs[k]? = some a → k ∉ o.targets → c.has a → s'.bytes k = s.bytes k

theorem frame_all {b : Bool} {s s' : State} {o : Op} (h : FrameOn (.all b) s s' o) : Frame s s' o :=
  fun k hk hn => h k _ (List.getElem?_eq_getElem hk) hn (has_all _ _)

theorem frame_on {c : Cover} {s s' : State} {o : Op} (h : Frame s s' o) : FrameOn c s s' o :=
  fun k _ hk hn _ => h k (List.getElem?_eq_some_iff.mp hk).1 hn

/-- Operations that store bytes into a storage that may be shared. -/
def Op.stores : Op → Bool
  | .addStartBytes _ _ | .addEndBytes _ _ | .addStartBuf _ _ | .addEndBuf _ _ | .write _ _ _ => true
  | _ => false

def Op.isWrite : Op → Bool
  | .write _ _ _ => true
  | _ => false

/-- What a step guarantees. -/
structure StepOk (s : State) (o : Op) (s' : State) : Prop where
  step : s.step o = some s'
  base : Base s'.mem s'.bufs
  effect : Effect s s' o
  frame : o.stores = false → Frame s s' o
  wide : ∀ b, o.plain b s → Wide b s.mem s.bufs →
    Wide b s'.mem s'.bufs ∧ (o.isWrite = false → o.sided b s → FrameOn b.toCover s s' o)

/-- Lifting an operation on one buffer. -/
theorem on_ok {s : State} {i : Nat} {b b' : Seg} {m' : Mem} {f : Mem → Seg → Option (Mem × Seg)}
    (h : s.bufs[i]? = some b) (hf : f s.mem b = some (m', b'))
    (hb' : Base m' (b' :: s.bufs.eraseIdx i)) :
    s.on i f = some ⟨m', s.bufs.set i b'⟩ ∧ Base m' (s.bufs.set i b') ∧
      (∀ c, Wide c m' (b' :: s.bufs.eraseIdx i) → Wide c m' (s.bufs.set i b')) :=
  ⟨on_eq h hf, base_perm (set_perm h b').2.symm hb', fun c => wide_perm (set_perm h b').2.symm⟩

theorem frame_of {s : State} {i : Nat} {b' : Seg} {m' : Mem} {o : Op} (ht : i ∈ o.targets)
    (h : ∀ t ∈ s.bufs.eraseIdx i, m'.view t = s.mem.view t) :
    Frame s ⟨m', s.bufs.set i b'⟩ o := by
  intro k _ hk
  exact bytes_set_ne (fun e => hk (e ▸ ht)) h

theorem frame_of_on {c : Cover} {s : State} {i : Nat} {b' : Seg} {m' : Mem} {o : Op} (ht : i ∈ o.targets)
    (h : ∀ t ∈ s.bufs.eraseIdx i, c.has t → m'.view t = s.mem.view t) :
    FrameOn c s ⟨m', s.bufs.set i b'⟩ o := by
  intro k a hk hn hon
  have hne : k ≠ i := fun e => hn (e ▸ ht)
  simp only [State.bytes, List.getElem?_set_ne (Ne.symm hne), hk]
  exact h a (mem_erase hk hne) hon

theorem frame_push {s : State} {b' : Seg} {m' : Mem} {o : Op}
    (h : ∀ t ∈ s.bufs, m'.view t = s.mem.view t) :
    Frame s ⟨m', s.bufs ++ [b']⟩ o := fun k hk _ => (bytes_push h).1 k hk

theorem swap_perm {L : List Seg} {i j : Nat} {a b c : Seg} (hi : L[i]? = some a) (hj : L[j]? = some b) :
    ((L.set i b).set j c).Perm (c :: L.eraseIdx i) := by
  have hil := (List.getElem?_eq_some_iff.mp hi).1
  have h1 : (L.set i b)[j]? = some b := by
    rw [List.getElem?_set]
    by_cases e : i = j
    · simp [e ▸ hil, e]
    · rw [if_neg e, hj]
  have h2 := (set_perm h1 c)
  have h3 := (set_perm hi b).2
  have h4 : (L.eraseIdx i).Perm ((L.set i b).eraseIdx j) :=
    (List.perm_cons b).mp (h3.symm.trans h2.1)
  exact h2.2.trans ((List.perm_cons c).mpr h4.symm)

theorem step_ok {s : State} (hb : Base s.mem s.bufs) (o : Op) (ho : o.ok s) : ∃ s', StepOk s o s' := by
  cases o with
  | new a z e =>
    obtain ⟨m', b', e1, hb', hv, hvo, hw⟩ := construct_ok hb a z e
    refine ⟨⟨m', s.bufs ++ [b']⟩, by simp [State.step, State.push, e1], base_cons.mp hb',
      ⟨by simp, by rw [(bytes_push hvo).2, hv]⟩, fun _ => frame_push hvo,
      fun c _ h => ⟨wide_cons.mp (hw c h), fun _ _ => frame_on (frame_push hvo)⟩⟩
  | newFrom d =>
    obtain ⟨m', b', e1, hb', hv, hvo, hw, _⟩ := constructFrom_ok hb d
    refine ⟨⟨m', s.bufs ++ [b']⟩, by simp [State.step, State.push, e1], base_cons.mp hb',
      ⟨by simp, by rw [(bytes_push hvo).2, hv]⟩, fun _ => frame_push hvo,
      fun c hc h => ⟨?_, fun _ _ => frame_on (frame_push hvo)⟩⟩
    exact wide_cons.mp (hw c hc h)
  | copy j =>
    obtain ⟨b, hj⟩ := get_of_lt ho
    obtain ⟨m', e1, hb', hv, hw, _⟩ := acquire_ok hb (List.mem_of_getElem? hj)
    refine ⟨⟨m', s.bufs ++ [b]⟩, by simp [State.step, State.push, hj, e1], base_cons.mp hb',
      ⟨by simp, by rw [(bytes_push (fun t _ => hv t)).2, hv, bytes_of hj]⟩,
      fun _ => frame_push (fun t _ => hv t),
      fun c _ h => ⟨wide_cons.mp (hw c h), fun _ _ => frame_on (frame_push (fun t _ => hv t))⟩⟩
  | move j =>
    obtain ⟨b, hj⟩ := get_of_lt ho
    have hjl : j < s.bufs.length := ho
    have hp : (s.bufs.set j Seg.null ++ [b]).Perm (Seg.null :: s.bufs) := by
      refine (List.perm_append_comm).trans ?_
      refine ((List.perm_cons b).mpr (set_perm hj Seg.null).2).trans ?_
      refine (List.Perm.swap _ _ _).trans ?_
      exact (List.perm_cons _).mpr (set_perm hj Seg.null).1.symm
    have hfr : Frame s ⟨s.mem, s.bufs.set j Seg.null ++ [b]⟩ (.move j) := by
      intro k hk hkj
      have : k ≠ j := by simpa [Op.targets] using hkj
      simp only [State.bytes]
      rw [List.getElem?_append_left (by simpa using hk), List.getElem?_set_ne (Ne.symm this)]
    refine ⟨⟨s.mem, s.bufs.set j Seg.null ++ [b]⟩, by simp [State.step, hj],
      base_perm hp.symm (base_null.mpr hb), ⟨by simp, ?_, ?_⟩, fun _ => hfr,
      fun c _ h => ⟨wide_perm hp.symm (wide_null.mpr h), fun _ _ => frame_on hfr⟩⟩
    · have : s.bufs.length = (s.bufs.set j Seg.null).length := by simp
      simp only [State.bytes]
      rw [this, List.getElem?_append_right (Nat.le_refl _)]
      simp [hj]
    · simp [State.bytes, List.getElem?_append_left, hjl, view_null]
  | assign i j =>
    obtain ⟨a, hi⟩ := get_of_lt ho.1
    obtain ⟨b, hj⟩ := get_of_lt ho.2
    by_cases hij : i = j
    · subst hij
      refine ⟨s, by simp [State.step, hi], hb, ⟨rfl, rfl⟩, fun _ _ _ _ => rfl,
        fun c _ h => ⟨h, fun _ _ _ _ _ _ _ => rfl⟩⟩
    · obtain ⟨m1, e1, hb1, hv1, hw1, _⟩ := acquire_ok hb (List.mem_of_getElem? hj)
      have hp : (b :: s.bufs).Perm (a :: b :: s.bufs.eraseIdx i) :=
        ((List.perm_cons b).mpr (set_perm hi b).1).trans (List.Perm.swap _ _ _)
      obtain ⟨m2, e2, hb2, hv2, _, hw2, _⟩ := base_drop (base_perm hp hb1)
      have hfr : ∀ t ∈ s.bufs.eraseIdx i, m2.view t = s.mem.view t := by
        intro t ht; rw [hv2 t (by simp [ht]), hv1]
      refine ⟨⟨m2, s.bufs.set i b⟩, by simp [State.step, hi, hj, hij, e1, e2],
        base_perm (set_perm hi b).2.symm hb2, ⟨by simp, ?_⟩, fun _ => frame_of (by simp [Op.targets]) hfr,
        fun c _ h => ⟨wide_perm (set_perm hi b).2.symm (hw2 c (wide_perm hp (hw1 c h))),
          fun _ _ => frame_on (frame_of (by simp [Op.targets]) hfr)⟩⟩
      rw [bytes_set_same hi, hv2 b (by simp), hv1, bytes_of hj]
  | moveAssign i j =>
    obtain ⟨a, hi⟩ := get_of_lt ho.1
    obtain ⟨b, hj⟩ := get_of_lt ho.2
    by_cases hij : i = j
    · subst hij
      refine ⟨s, by simp [State.step, hi], hb, ⟨rfl, rfl, fun h => absurd rfl h⟩, fun _ _ _ _ => rfl,
        fun c _ h => ⟨h, fun _ _ _ _ _ _ _ => rfl⟩⟩
    · obtain ⟨m2, e2, hb2, hv2, _, hw2, _⟩ := base_drop (base_perm (set_perm hi b).1 hb)
      have hp := swap_perm hi hj (c := Seg.null)
      have hil : i < s.bufs.length := ho.1
      have hjl : j < s.bufs.length := ho.2
      have hfr : Frame s ⟨m2, (s.bufs.set i b).set j Seg.null⟩ (.moveAssign i j) := by
        intro k hk hkt
        simp [Op.targets] at hkt
        have hke := List.getElem?_eq_getElem hk
        simp only [State.bytes, List.getElem?_set_ne (Ne.symm hkt.2),
          List.getElem?_set_ne (Ne.symm hkt.1), hke]
        exact hv2 _ (mem_erase hke hkt.1)
      refine ⟨⟨m2, (s.bufs.set i b).set j Seg.null⟩, by simp [State.step, hi, hj, hij, e2],
        base_perm hp.symm (base_null.mpr hb2), ⟨by simp, ?_, ?_⟩, fun _ => hfr,
        fun c _ h => ⟨wide_perm hp.symm (wide_null.mpr (hw2 c (wide_perm (set_perm hi b).1 h))),
          fun _ _ => frame_on hfr⟩⟩
      · simp only [State.bytes, List.getElem?_set_ne (Ne.symm hij), List.getElem?_set_self hil, hj]
        exact hv2 b (mem_erase hj (Ne.symm hij))
      · intro _
        simp [State.bytes, hjl, view_null]
  | swap i j =>
    obtain ⟨a, hi⟩ := get_of_lt ho.1
    obtain ⟨b, hj⟩ := get_of_lt ho.2
    have hil : i < s.bufs.length := ho.1
    have hjl : j < s.bufs.length := ho.2
    have hp : ((s.bufs.set i b).set j a).Perm s.bufs := (swap_perm hi hj).trans (set_perm hi b).1.symm
    have hfr : Frame s ⟨s.mem, (s.bufs.set i b).set j a⟩ (.swap i j) := by
      intro k hk hkt
      simp [Op.targets] at hkt
      simp only [State.bytes, List.getElem?_set_ne (Ne.symm hkt.2), List.getElem?_set_ne (Ne.symm hkt.1)]
    refine ⟨⟨s.mem, (s.bufs.set i b).set j a⟩, by simp [State.step, hi, hj], base_perm hp.symm hb,
      ⟨by simp, ?_, ?_⟩, fun _ => hfr, fun c _ h => ⟨wide_perm hp.symm h, fun _ _ => frame_on hfr⟩⟩
    · by_cases hij : i = j
      · subst hij
        rw [hi] at hj; cases hj
        simp only [State.bytes, List.set_set, List.getElem?_set_self hil, hi]
      · simp only [State.bytes, List.getElem?_set_ne (Ne.symm hij), List.getElem?_set_self hil, hj]
    · simp [State.bytes, hjl, hi]
  | destroy i =>
    obtain ⟨b, hi⟩ := get_of_lt ho
    obtain ⟨m', e1, hb', hv, _, hw, _⟩ := base_drop (base_perm (set_perm hi Seg.null).1 hb)
    obtain ⟨h1, h2, h3⟩ := on_ok (f := fun m b => (m.drop b).map (fun m1 => (m1, Seg.null))) hi
      (by simp [e1]) (base_null.mpr hb')
    refine ⟨_, h1, h2, ⟨by simp, by rw [bytes_set_same hi]; rfl⟩,
      fun _ => frame_of (by simp [Op.targets]) hv,
      fun c _ h => ⟨h3 c (wide_null.mpr (hw c (wide_perm (set_perm hi Seg.null).1 h))),
        fun _ _ => frame_on (frame_of (by simp [Op.targets]) hv)⟩⟩
  | addStart i n =>
    obtain ⟨b, hi⟩ := get_of_lt ho
    have hp := (set_perm hi b).1
    obtain ⟨m', b', pre, e1, hb', hv, hpre, _, hvo, _, hw⟩ := addAtStart_ok (base_perm hp hb) n
    obtain ⟨h1, h2, h3⟩ := on_ok (f := fun m b => addAtStart m b n) hi e1 hb'
    exact ⟨_, h1, h2, ⟨by simp, pre, hpre, by rw [bytes_set_same hi, hv, bytes_of hi]⟩,
      fun _ => frame_of (by simp [Op.targets]) hvo,
      fun c _ h => ⟨h3 c (hw c (wide_perm hp h)).1, fun _ _ => frame_on (frame_of (by simp [Op.targets]) hvo)⟩⟩
  | addEnd i n =>
    obtain ⟨b, hi⟩ := get_of_lt ho
    have hp := (set_perm hi b).1
    obtain ⟨m', b', pre, e1, hb', hv, hpre, _, hvo, _, _, hw⟩ := addAtEnd_ok (base_perm hp hb) n
    obtain ⟨h1, h2, h3⟩ := on_ok (f := fun m b => addAtEnd m b n) hi e1 hb'
    refine ⟨_, h1, h2, ⟨by simp, pre, hpre, by rw [bytes_set_same hi, hv, bytes_of hi]⟩,
      fun _ => frame_of (by simp [Op.targets]) hvo,
      fun c hc h => ⟨h3 c (hw c ?_ (wide_perm hp h)).1, fun _ _ => frame_on (frame_of (by simp [Op.targets]) hvo)⟩⟩
    simp only [Op.plain, size_of hi] at hc
    rcases hc with h | h | h | h
    · exact .inl h
    · exact .inr (.inl (by omega))
    · exact .inr (.inr (.inl h))
    · exact .inr (.inr (.inr h))
  | addStartBytes i d =>
    obtain ⟨b, hi⟩ := get_of_lt ho
    have hp := (set_perm hi b).1
    obtain ⟨m', b', e1, hb', hv, hw⟩ := addBytesAtStart_ok (base_perm hp hb) d
    obtain ⟨h1, h2, h3⟩ := on_ok (f := fun m b => addBytesAtStart m b d) hi e1 hb'
    exact ⟨_, h1, h2, ⟨by simp, by rw [bytes_set_same hi, hv, bytes_of hi]⟩,
      fun h => by simp [Op.stores] at h,
      fun c _ h => ⟨h3 c (hw c (wide_perm hp h)).1,
        fun _ hs => frame_of_on (by simp [Op.targets]) ((hw c (wide_perm hp h)).2 hs)⟩⟩
  | addEndBytes i d =>
    obtain ⟨b, hi⟩ := get_of_lt ho
    have hp := (set_perm hi b).1
    obtain ⟨m', b', e1, hb', hv, hw⟩ := addBytesAtEnd_ok (base_perm hp hb) d
    obtain ⟨h1, h2, h3⟩ := on_ok (f := fun m b => addBytesAtEnd m b d) hi e1 hb'
    refine ⟨_, h1, h2, ⟨by simp, by rw [bytes_set_same hi, hv, bytes_of hi]⟩,
      fun h => by simp [Op.stores] at h, fun c hc h => ?_⟩
    have := hw c (by
      simp only [Op.plain, size_of hi] at hc
      rcases hc with h | h | h | h
      · exact .inl h
      · exact .inr (.inl (by omega))
      · exact .inr (.inr (.inl h))
      · exact .inr (.inr (.inr h))) (wide_perm hp h)
    exact ⟨h3 c this.1, fun _ hs => frame_of_on (by simp [Op.targets]) (this.2 hs)⟩
  | addStartBuf i j =>
    obtain ⟨a, hi⟩ := get_of_lt ho.1
    obtain ⟨b, hj⟩ := get_of_lt ho.2
    have hbl := view_length hb (List.mem_of_getElem? hj)
    by_cases hn : b.hi - b.lo = 0
    · have he : s.mem.view b = [] := List.length_eq_zero_iff.mp (by omega)
      refine ⟨s, by simp [State.step, hj, hn], hb, ⟨rfl, fun _ => ?_, ?_⟩, fun _ _ _ _ => rfl,
        fun c _ h => ⟨h, fun _ _ _ _ _ _ _ => rfl⟩⟩
      · rw [bytes_of hj, he, List.nil_append]
      · rintro rfl
        exact ⟨[], by rw [size_of hj, hn]; rfl, rfl⟩
    · have hp := (set_perm hi a).1
      obtain ⟨m1, a1, pre, e1, hb1, hv, hpre, hlen, hvo, hst, hw⟩ :=
        addAtStart_ok (base_perm hp hb) (b.hi - b.lo)
      obtain ⟨h1, h2, h3⟩ := on_ok (f := fun m c => addAtStart m c (b.hi - b.lo)) hi e1 hb1
      have hil : i < s.bufs.length := ho.1
      have g1 : (s.bufs.set i a1)[i]? = some a1 := by simp [hil]
      obtain ⟨c, g2⟩ : ∃ c, (s.bufs.set i a1)[j]? = some c :=
        ⟨_, List.getElem?_eq_getElem (by simpa using ho.2)⟩
      have e2 := copyOut_ok h2 (List.mem_of_getElem? g2) (b.hi - b.lo)
      -- the bytes copied
      have hdl : ((m1.view c).take (b.hi - b.lo)).length = b.hi - b.lo := by
        rw [List.length_take, view_length h2 (List.mem_of_getElem? g2)]
        by_cases hij : i = j
        · subst hij; rw [g1] at g2; cases g2; omega
        · rw [List.getElem?_set_ne hij, hj] at g2; cases g2; omega
      obtain ⟨m2, e3, hb2, hw2, hv2, hvo2, _⟩ := fill_ok hb1 (off := a1.lo)
        (d := (m1.view c).take (b.hi - b.lo)) (Nat.le_refl _) (by
          rw [hdl]; have := hlen; omega)
      have hstep : s.step (.addStartBuf i j) = some ⟨m2, s.bufs.set i a1⟩ := by
        simp only [State.step, hj]
        rw [if_neg hn, h1]
        dsimp only
        rw [g1, g2]
        dsimp only
        rw [e2]
        dsimp only
        rw [e3]; rfl
      have hown : m2.view a1 = (m1.view c).take (b.hi - b.lo) ++ s.mem.view a := by
        rw [hv2, hv]
        unfold patch
        rw [hdl]
        simp only [Nat.sub_self, List.take_zero, List.nil_append, Nat.zero_add]
        rw [← hpre, List.drop_left]
      have hfr : ∀ w, Wide w s.mem s.bufs → Op.sided w s (.addStartBuf i j) →
          FrameOn w.toCover s ⟨m2, s.bufs.set i a1⟩ (.addStartBuf i j) := by
        intro w hW hs
        simp only [Op.sided, size_of hj] at hs
        refine frame_of_on (by simp [Op.targets]) fun t ht hon => ?_
        have hcl := (hw w (wide_perm hp hW)).2 (by omega) (hs.resolve_left hn) t ht hon
        rw [hvo2 t ht (by rw [hdl]; exact hcl), hvo t ht]
      refine ⟨_, hstep, base_perm (set_perm hi a1).2.symm hb2, ⟨by simp, ?_, ?_⟩,
        fun h => by simp [Op.stores] at h,
        fun w _ h => ⟨wide_perm (set_perm hi a1).2.symm (hw2 w (hw w (wide_perm hp h)).1), fun _ => hfr w h⟩⟩
      · intro hij
        rw [List.getElem?_set_ne hij, hj] at g2; cases g2
        rw [bytes_set_same hi, hown, hvo b (mem_erase hj (Ne.symm hij)), bytes_of hj, bytes_of hi,
          List.take_of_length_le (by omega)]
      · rintro rfl
        rw [g1] at g2; cases g2
        exact ⟨_, by rw [hdl, size_of hj], by rw [bytes_set_same hi, hown, bytes_of hi]⟩
  | addEndBuf i j =>
    obtain ⟨a, hi⟩ := get_of_lt ho.1
    obtain ⟨b, hj⟩ := get_of_lt ho.2
    have hbl := view_length hb (List.mem_of_getElem? hj)
    have hal := view_length hb (List.mem_of_getElem? hi)
    by_cases hn : b.hi - b.lo = 0
    · have he : s.mem.view b = [] := List.length_eq_zero_iff.mp (by omega)
      refine ⟨s, by simp [State.step, hj, hn], hb, ⟨rfl, ?_⟩, fun _ _ _ _ => rfl,
        fun c _ h => ⟨h, fun _ _ _ _ _ _ _ => rfl⟩⟩
      rw [bytes_of hj, he, List.append_nil]
    · have hp := (set_perm hi a).1
      obtain ⟨m1, a1, post, e1, hb1, hv, hpost, hlen, hvo, hst, hle, hw⟩ :=
        addAtEnd_ok (base_perm hp hb) (b.hi - b.lo)
      obtain ⟨h1, h2, h3⟩ := on_ok (f := fun m c => addAtEnd m c (b.hi - b.lo)) hi e1 hb1
      have hil : i < s.bufs.length := ho.1
      have g1 : (s.bufs.set i a1)[i]? = some a1 := by simp [hil]
      obtain ⟨c, g2⟩ : ∃ c, (s.bufs.set i a1)[j]? = some c :=
        ⟨_, List.getElem?_eq_getElem (by simpa using ho.2)⟩
      have e2 := copyOut_ok h2 (List.mem_of_getElem? g2) (b.hi - b.lo)
      have hd : (m1.view c).take (b.hi - b.lo) = s.mem.view b := by
        by_cases hij : i = j
        · subst hij; rw [g1] at g2; cases g2
          rw [hi] at hj; cases hj
          rw [hv, List.take_append_of_le_length (by omega), List.take_of_length_le (by omega)]
        · rw [List.getElem?_set_ne hij, hj] at g2; cases g2
          rw [hvo b (mem_erase hj (Ne.symm hij)), List.take_of_length_le (by omega)]
      rw [hd] at e2
      obtain ⟨m2, e3, hb2, hw2, hv2, hvo2, _⟩ := fill_ok hb1 (off := a1.hi - (b.hi - b.lo))
        (d := s.mem.view b) (by omega) (by omega)
      have hstep : s.step (.addEndBuf i j) = some ⟨m2, s.bufs.set i a1⟩ := by
        simp only [State.step, hj]
        rw [if_neg hn, h1]
        dsimp only
        rw [g1, g2]
        dsimp only
        rw [e2]
        dsimp only
        rw [e3]; rfl
      have hown : m2.view a1 = s.mem.view a ++ s.mem.view b := by
        rw [hv2, hv]
        unfold patch
        rw [List.take_append_of_le_length (by omega), List.take_of_length_le (by omega),
          List.drop_of_length_le (by simp; omega), List.append_nil]
      have hfr : ∀ w, Op.plain w s (.addEndBuf i j) → Wide w s.mem s.bufs →
          Wide w m1 (a1 :: s.bufs.eraseIdx i) ∧
            (Op.sided w s (.addEndBuf i j) → FrameOn w.toCover s ⟨m2, s.bufs.set i a1⟩ (.addEndBuf i j)) := by
        intro w hc hW
        have hW1 := hw w (by
          simp only [Op.plain, size_of hi, size_of hj] at hc
          rcases hc with h | h | h | h
          · exact .inl h
          · exact .inr (.inl (by omega))
          · exact .inr (.inr (.inl h))
          · exact .inr (.inr (.inr h))) (wide_perm hp hW)
        refine ⟨hW1.1, fun hs => frame_of_on (by simp [Op.targets]) fun t ht hon => ?_⟩
        simp only [Op.sided, size_of hj] at hs
        have hcl := hW1.2 (by omega) (hs.resolve_left hn) t ht hon
        rw [hvo2 t ht (fun h => by have := hcl h; omega), hvo t ht]
      refine ⟨_, hstep, base_perm (set_perm hi a1).2.symm hb2, ⟨by simp, ?_⟩,
        fun h => by simp [Op.stores] at h,
        fun w hc h => ⟨wide_perm (set_perm hi a1).2.symm (hw2 w (hfr w hc h).1), fun _ => (hfr w hc h).2⟩⟩
      rw [bytes_set_same hi, hown, bytes_of hj, bytes_of hi]
  | removeStart i n =>
    obtain ⟨b, hi⟩ := get_of_lt ho
    have hp := (set_perm hi b).1
    obtain ⟨m', b', e1, hb', hv, hvo, hw⟩ := removeAtStart_ok (base_perm hp hb) n
    obtain ⟨h1, h2, h3⟩ := on_ok (f := fun m b => removeAtStart m b n) hi e1 hb'
    exact ⟨_, h1, h2, ⟨by simp, by rw [bytes_set_same hi, hv, bytes_of hi]⟩,
      fun _ => frame_of (by simp [Op.targets]) hvo,
      fun c _ h => ⟨h3 c (hw c (wide_perm hp h)), fun _ _ => frame_on (frame_of (by simp [Op.targets]) hvo)⟩⟩
  | removeEnd i n =>
    obtain ⟨b, hi⟩ := get_of_lt ho
    have hp := (set_perm hi b).1
    obtain ⟨m', b', e1, hb', hv, hvo, hw⟩ := removeAtEnd_ok (base_perm hp hb) n
    obtain ⟨h1, h2, h3⟩ := on_ok (f := fun m b => removeAtEnd m b n) hi e1 hb'
    exact ⟨_, h1, h2, ⟨by simp, by rw [bytes_set_same hi, hv, bytes_of hi]⟩,
      fun _ => frame_of (by simp [Op.targets]) hvo,
      fun c _ h => ⟨h3 c (hw c (wide_perm hp h)), fun _ _ => frame_on (frame_of (by simp [Op.targets]) hvo)⟩⟩
  | fragment j a n =>
    obtain ⟨b, hj⟩ := get_of_lt ho.1
    have h2 := ho.2
    rw [size_of hj] at h2
    obtain ⟨m', f, e1, hb', hv, hvo, hz, hw⟩ := makeFragment_ok hb (List.mem_of_getElem? hj) (a := a) (n := n)
      (by omega) (by omega)
    refine ⟨⟨m', s.bufs ++ [f]⟩, by simp [State.step, State.push, hj, e1], base_cons.mp hb',
      ⟨by simp, by rw [(bytes_push (fun t _ => hvo t)).2, hv, bytes_of hj]⟩,
      fun _ => frame_push (fun t _ => hvo t), fun c hc h => ⟨?_, fun _ _ => frame_on (frame_push (fun t _ => hvo t))⟩⟩
    refine wide_cons.mp (hw c ?_ h)
    rcases hc with e | e
    · exact .inl e
    · exact .inr (e b hj)
  | write i off d =>
    obtain ⟨b, hi⟩ := get_of_lt ho.1
    have hp := (set_perm hi b).1
    have h2 := ho.2
    rw [size_of hi] at h2
    have hle : b.lo ≤ b.hi := by
      cases hst : b.st with
      | none => have := hb.null b (List.mem_of_getElem? hi) hst; omega
      | some id => obtain ⟨_, _, h, _⟩ := hb.held b (List.mem_of_getElem? hi) id hst; exact h
    obtain ⟨m', e1, hb', hw, hv, hvo, _⟩ := fill_ok (base_perm hp hb) (off := b.lo + off) (d := d)
      (by omega) (by omega)
    obtain ⟨h1, h2', h3⟩ := on_ok (f := fun m b => if off + d.length ≤ b.hi - b.lo then
      (m.fill b (b.lo + off) d).map (fun m1 => (m1, b)) else none) (b' := b) (m' := m') hi
      (by rw [if_pos h2, e1]; rfl) hb'
    refine ⟨_, h1, h2', ⟨by simp, ?_⟩, fun h => by simp [Op.stores] at h,
      fun c _ h => ⟨h3 c (hw c (wide_perm hp h)), fun h => by simp [Op.isWrite] at h⟩⟩
    rw [bytes_set_same hi, hv, bytes_of hi]
    congr 1; omega

/-- After `AddAtStart` the dirty range starts with the buffer. -/
theorem addStart_edge {s s' : State} {i n : Nat} (h : s.step (.addStart i n) = some s') (hn : 0 < n) :
    ∃ a id x, s'.bufs[i]? = some a ∧ a.st = some id ∧ s'.mem.mem id = some x ∧ x.ds = a.lo := by
  simp only [State.step, State.on] at h
  split at h
  · cases h
  · rename_i b hb
    have hl := (List.getElem?_eq_some_iff.mp hb).1
    simp only [addAtStart] at h
    rw [if_neg (by omega)] at h
    cases e : growStart s.mem b n with
    | none => rw [e] at h; cases h
    | some g =>
      rw [e] at h; cases h
      obtain ⟨id, x, h1, h2, h3⟩ := growStart_edge e
      exact ⟨g.seg, id, x, by simp [hl], h1, h2, h3⟩

/-- After `AddAtEnd` the dirty range ends with the buffer. -/
theorem addEnd_edge {s s' : State} (hb : Base s.mem s.bufs) {i n : Nat} (h : s.step (.addEnd i n) = some s') (hn : 0 < n) :
    ∃ a id x, s'.bufs[i]? = some a ∧ a.st = some id ∧ s'.mem.mem id = some x ∧ x.de = a.hi ∧ n ≤ a.hi - a.lo := by
  simp only [State.step, State.on] at h
  split at h
  · cases h
  · rename_i b hb'
    have hl := (List.getElem?_eq_some_iff.mp hb').1
    have hle : b.lo ≤ b.hi := by
      cases hst : b.st with
      | none => have := hb.null b (List.mem_of_getElem? hb') hst; omega
      | some id => obtain ⟨_, _, h, _⟩ := hb.held b (List.mem_of_getElem? hb') id hst; exact h
    obtain ⟨m', a', post, e1, _, _, _, hlen, _⟩ := addAtEnd_ok (base_perm (set_perm hb' b).1 hb) n
    rw [e1] at h
    simp only [addAtEnd] at e1
    rw [if_neg (by omega)] at e1
    cases e : growEnd s.mem b n with
    | none => rw [e] at e1; cases e1
    | some g =>
      rw [e] at e1; cases e1; cases h
      obtain ⟨id, x, h1, h2, h3⟩ := growEnd_edge hle e
      exact ⟨g.seg, id, x, by simp [hl], h1, h2, h3, by omega⟩

end Verif.Buf
