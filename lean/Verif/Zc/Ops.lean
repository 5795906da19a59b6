import Verif.Zc.Lemmas

/-! Helper lemmas: growing, copying, realising and writing a `ZcBuffer`. -/
set_option linter.unusedSimpArgs false
set_option linter.unusedVariables false
namespace Verif.Zc
open Verif Verif.Buf

theorem weave_pre {v pre : List Byte} (h g : Nat) :
    weave (pre ++ v) (pre.length + h) g = pre ++ weave v h g := by
  simp [weave, List.take_append, List.drop_append, List.take_of_length_le, List.drop_of_length_le]

theorem weave_post {v post : List Byte} {h : Nat} (g : Nat) (hv : h ≤ v.length) :
    weave (v ++ post) h g = weave v h g ++ post := by
  simp [weave, List.take_append_of_le_length hv, List.drop_append_of_le_length hv]

theorem patch_append {v a b : List Byte} {o : Nat} (h : o + a.length ≤ v.length) :
    patch (patch v o a) (o + a.length) b = patch v o (a ++ b) := by
  unfold patch
  have e : (v.take o ++ a).length = o + a.length := by simp; omega
  have e1 : (v.take o ++ a ++ v.drop (o + a.length)).take (o + a.length) = v.take o ++ a := by
    rw [← e, List.take_left]
  have e2 : (v.take o ++ a ++ v.drop (o + a.length)).drop (o + a.length + b.length) =
      v.drop (o + (a ++ b).length) := by
    rw [List.drop_append, e, List.drop_of_length_le (by omega), List.nil_append, List.drop_drop]
    congr 1; simp; omega
  rw [e1, e2]; simp

theorem patch_nil (v : List Byte) (o : Nat) : patch v o [] = v := by simp [patch]

theorem weave_take {v : List Byte} {h g : Nat} (hv : h ≤ v.length) (n : Nat) :
    (weave v h g).take n = v.take (min n h) ++ List.replicate (min (n - min n h) g) 0 ++
      (v.drop h).take (n - min n h - min (n - min n h) g) := by
  unfold weave
  rw [List.take_append, List.take_append, List.take_take, List.length_append, List.length_take,
    List.length_replicate, List.take_replicate, Nat.min_eq_left hv]
  congr 1
  · congr 2
    rw [show n - h = n - min n h by omega]
  · congr 1; omega

theorem weave_patch_lo {v d : List Byte} {h g o : Nat} (hv : h ≤ v.length) (ho : o + d.length ≤ h) :
    weave (patch v o d) h g = patch (weave v h g) o d := by
  have hl : (patch v o d).length = v.length := patch_length (by omega)
  have hl2 : (weave v h g).length = v.length + g := weave_length hv
  apply List.ext_getElem?; intro i
  rw [weave_get (by omega)]
  unfold patch
  have hto : (v.take o).length = o := by simp; omega
  have hto2 : ((weave v h g).take o).length = o := by simp; omega
  simp only [List.getElem?_append, List.length_append, hto, hto2, List.getElem?_take, List.getElem?_drop,
    weave_get hv]
  by_cases c1 : i < o
  · simp [c1, show i < o + d.length by omega, show i < h by omega]
  · by_cases c2 : i < o + d.length
    · simp [c1, c2, show i < h by omega]
    · have e : o + d.length + (i - (o + d.length)) = i := by omega
      by_cases c3 : i < h
      · simp [c1, c2, c3, e]
      · by_cases c4 : i < h + g
        · simp [c1, c2, c3, c4, e]
        · simp only [c1, c2, c3, c4, e, if_false, show ¬ i - g < o + d.length by omega]
          congr 1; omega

theorem weave_patch_hi {v d : List Byte} {h g o : Nat} (hv : h ≤ v.length) (ho : h ≤ o)
    (hd : o + d.length ≤ v.length) :
    weave (patch v o d) h g = patch (weave v h g) (o + g) d := by
  have hl : (patch v o d).length = v.length := patch_length (by omega)
  have hl2 : (weave v h g).length = v.length + g := weave_length hv
  apply List.ext_getElem?; intro i
  rw [weave_get (by omega)]
  unfold patch
  have hto : (v.take o).length = o := by simp; omega
  have hto2 : ((weave v h g).take (o + g)).length = o + g := by simp; omega
  simp only [List.getElem?_append, List.length_append, hto, hto2, List.getElem?_take, List.getElem?_drop,
    weave_get hv]
  by_cases c1 : i < h
  · simp [c1, show i < o + d.length by omega, show i < o by omega, show i < o + g + d.length by omega,
      show i < o + g by omega]
  · by_cases c2 : i < h + g
    · simp [c1, c2, show i < o + g by omega, show i < o + g + d.length by omega]
    · by_cases c3 : i < o + g
      · simp [c1, c2, c3, show i - g < o by omega, show i - g < o + d.length by omega,
          show i < o + g + d.length by omega]
      · by_cases c4 : i < o + g + d.length
        · simp only [c1, c2, c3, c4, if_false, if_true, show ¬ i - g < o by omega,
            show i - g < o + d.length by omega]
          congr 1; omega
        · have e : o + g + d.length + (i - (o + g + d.length)) = i := by omega
          have e2 : o + d.length + (i - g - (o + d.length)) = i - g := by omega
          simp only [c1, c2, c3, c4, e, e2, if_false, show ¬ i - g < o + d.length by omega]

section
variable {m : Mem} {z : ZBuf} {R : List Seg}

theorem addAtStart_ok (hb : Base m (z.seg :: R)) (hz : ZOk z) (n : Nat) :
    ∃ m' z' pre, addAtStart m z n = some (m', z') ∧ Keep m z R m' z' ∧
      m'.view z'.seg = pre ++ m.view z.seg ∧ pre.length = n ∧
      z'.zs - z'.start = n + (z.zs - z.start) ∧ z'.ze - z'.zs = z.ze - z.zs ∧ z'.en - z'.ze = z.en - z.ze ∧
      (0 < n → z'.st ≠ none) ∧
      (∀ b : Cover, Wide b m (z.seg :: R) → 0 < n → Clear b z'.seg R z'.start (z'.start + n)) := by
  have h1 := hz.h1; have h2 := hz.h2; have h3 := hz.h3
  unfold addAtStart
  by_cases hn : n = 0
  · subst hn
    rw [if_pos rfl]
    exact ⟨m, z, [], rfl, ⟨hb, hz, fun _ _ => rfl, fun _ h => h⟩, rfl, rfl, by omega, rfl, rfl, by omega,
      by omega⟩
  · rw [if_neg hn]
    obtain ⟨g, e, ok, hp, hw⟩ := growStart_ok hb (size := n) (by omega)
    rw [e]
    obtain ⟨pre, post, hv, e1, e2⟩ := view_of_grow ok
    have hpost : post = [] := List.length_eq_zero_iff.mp (by omega)
    subst hpost
    have hlen := ok.len
    have hs : (⟨g.seg.st, g.seg.lo, g.pos + (z.zs - z.start), g.pos + (z.ze - z.start),
      g.pos + (z.en - z.start)⟩ : ZBuf).seg = g.seg := by
      have : g.pos + (z.en - z.start) - (g.pos + (z.ze - z.start) - (g.pos + (z.zs - z.start))) = g.seg.hi := by
        rw [hlen, hp]; simp only [ZBuf.seg]; omega
      simp only [ZBuf.seg, this]
    refine ⟨_, _, pre, rfl, ⟨by rw [hs]; exact ok.base, ⟨?_, ?_, ?_⟩, ok.others, ?_⟩, by rw [hs, hv]; simp, by omega,
      ?_, ?_, ?_, fun _ => ok.held, ?_⟩
    · dsimp only; omega
    · dsimp only; omega
    · dsimp only; omega
    · intro b h; rw [hs]; exact (hw b h).1
    · dsimp only; omega
    · dsimp only; omega
    · dsimp only; omega
    · intro b h _; rw [hs]; exact (hw b h).2 rfl

theorem addAtEnd_ok (hb : Base m (z.seg :: R)) (hz : ZOk z) (n : Nat) :
    ∃ m' z' post, addAtEnd m z n = some (m', z') ∧ Base m' (z'.seg :: R) ∧ ZOk z' ∧
      (∀ t ∈ R, m'.view t = m.view t) ∧
      m'.view z'.seg = m.view z.seg ++ post ∧ post.length = n ∧
      z'.zs - z'.start = z.zs - z.start ∧ z'.ze - z'.zs = z.ze - z.zs ∧ z'.en - z'.ze = z.en - z.ze + n ∧
      (0 < n → z'.st ≠ none) ∧
      (∀ b : Cover, (b.loose = false ∨ z.seg.hi ≠ 0 ∨ n = 0) → Wide b m (z.seg :: R) → Wide b m' (z'.seg :: R) ∧
        (0 < n → Clear b z'.seg R (z'.seg.hi - n) z'.seg.hi)) := by
  have h1 := hz.h1; have h2 := hz.h2; have h3 := hz.h3
  unfold addAtEnd
  by_cases hn : n = 0
  · subst hn
    rw [if_pos rfl]
    exact ⟨m, z, [], rfl, hb, hz, fun _ _ => rfl, by simp, rfl, by omega, rfl, rfl, by omega,
      fun b _ h => ⟨h, by omega⟩⟩
  · rw [if_neg hn]
    obtain ⟨g, e, ok, hp, hw⟩ := growEnd_ok hb (size := n) (by omega)
    rw [e]
    obtain ⟨pre, post, hv, e1, e2⟩ := view_of_grow ok
    have hpre : pre = [] := List.length_eq_zero_iff.mp (by omega)
    subst hpre
    have hlen := ok.len
    have hs : (⟨g.seg.st, g.seg.lo, g.pos + (z.zs - z.start), g.pos + (z.ze - z.start),
      g.pos + (z.en - z.start) + n⟩ : ZBuf).seg = g.seg := by
      have : g.pos + (z.en - z.start) + n - (g.pos + (z.ze - z.start) - (g.pos + (z.zs - z.start))) = g.seg.hi := by
        rw [hlen, hp]; simp only [ZBuf.seg]; omega
      simp only [ZBuf.seg, this]
    refine ⟨_, _, post, rfl, by rw [hs]; exact ok.base, ⟨?_, ?_, ?_⟩, ok.others, by rw [hs, hv]; simp, by omega,
      ?_, ?_, ?_, fun _ => ok.held, ?_⟩
    · dsimp only; omega
    · dsimp only; omega
    · dsimp only; omega
    · dsimp only; omega
    · dsimp only; omega
    · dsimp only; omega
    · intro b hc h; rw [hs]
      have := hw b (by
        rcases hc with h | h | h
        · exact .inl h
        · exact .inr (.inl h)
        · exact absurd h hn) h
      exact ⟨this.1, fun _ => this.2 rfl⟩

theorem addBytesAtStart_ok (hb : Base m (z.seg :: R)) (hz : ZOk z) (d : List Byte) :
    ∃ m' z', addBytesAtStart m z d = some (m', z') ∧ Base m' (z'.seg :: R) ∧ ZOk z' ∧
      bytesOf m' z' = d ++ bytesOf m z ∧
      (∀ b : Cover, Wide b m (z.seg :: R) → Wide b m' (z'.seg :: R) ∧ ∀ t ∈ R, b.has t → m'.view t = m.view t) := by
  unfold addBytesAtStart
  by_cases hn : d.length = 0
  · rw [if_pos hn]
    have := List.length_eq_zero_iff.mp hn; subst this
    exact ⟨m, z, rfl, hb, hz, rfl, fun b h => ⟨h, fun _ _ _ => rfl⟩⟩
  · rw [if_neg hn]
    obtain ⟨m1, z1, pre, e, k, hv, hp, hh, hg, ht, hst, hcl⟩ := addAtStart_ok hb hz d.length
    rw [e]; dsimp only
    obtain ⟨m2, e2, hb2, hw2, hv2, ho2, _⟩ := fill_ok k.base (off := z1.start) (d := d) (Nat.le_refl _)
      (by have := k.ok.h1; have := k.ok.h2; have := k.ok.h3; simp only [ZBuf.seg]; omega)
    rw [e2]
    refine ⟨m2, z1, rfl, hb2, k.ok, ?_, ?_⟩
    · rw [bytesOf_eq, bytesOf_eq, hv2, hv, hh, hg, ← weave_pre]
      simp only [ZBuf.seg, patch, Nat.sub_self, List.take_zero, List.nil_append, Nat.zero_add]
      rw [← hp, List.drop_left]
    · intro b hW
      refine ⟨hw2 b (k.wide b hW), fun t ht hon => ?_⟩
      rw [ho2 t ht (hcl b hW (by omega) t ht hon), k.others t ht]

theorem addBytesAtEnd_ok (hb : Base m (z.seg :: R)) (hz : ZOk z) (d : List Byte) :
    ∃ m' z', addBytesAtEnd m z d = some (m', z') ∧ Base m' (z'.seg :: R) ∧ ZOk z' ∧
      bytesOf m' z' = bytesOf m z ++ d ∧
      (∀ b : Cover, (b.loose = false ∨ z.seg.hi ≠ 0 ∨ d = []) → Wide b m (z.seg :: R) →
        Wide b m' (z'.seg :: R) ∧ ∀ t ∈ R, b.has t → m'.view t = m.view t) := by
  unfold addBytesAtEnd
  by_cases hn : d.length = 0
  · rw [if_pos hn]
    have := List.length_eq_zero_iff.mp hn; subst this
    exact ⟨m, z, rfl, hb, hz, by simp, fun b _ h => ⟨h, fun _ _ _ => rfl⟩⟩
  · rw [if_neg hn]
    obtain ⟨m1, z1, post, e, hb1, hz1, hvo, hv, hp, hh, hg, ht, hst, hw⟩ := addAtEnd_ok hb hz d.length
    rw [e]; dsimp only
    have h1 := hz1.h1; have h2 := hz1.h2; have h3 := hz1.h3
    obtain ⟨m2, e2, hb2, hw2, hv2, ho2, _⟩ := fill_ok hb1 (off := z1.en - (z1.ze - z1.zs) - d.length) (d := d)
      (by simp only [ZBuf.seg]; omega) (by simp only [ZBuf.seg]; omega)
    rw [e2]
    have hl := seg_length hb hz
    refine ⟨m2, z1, rfl, hb2, hz1, ?_, ?_⟩
    · rw [bytesOf_eq, bytesOf_eq, hv2, hv, hh, hg, ← weave_post _ (header_le hb hz)]
      simp only [ZBuf.seg, patch]
      rw [show (⟨z.st, z.start, z.en - (z.ze - z.zs)⟩ : Seg) = z.seg from rfl,
        show z1.en - (z.ze - z.zs) - d.length - z1.start = (m.view z.seg).length by omega, List.take_left,
        List.drop_of_length_le (by simp; omega), List.append_nil]
    · intro b hbz hW
      obtain ⟨hW1, hcl⟩ := hw b (by
        rcases hbz with h | h | h
        · exact .inl h
        · exact .inr (.inl h)
        · exact .inr (.inr (by simp [h]))) hW
      refine ⟨hw2 b hW1, fun t ht hon => ?_⟩
      rw [ho2 t ht (fun h => by have := hcl (by omega) t ht hon h; simp only [ZBuf.seg] at this; omega), hvo t ht]

/-- Writing into a storage does not touch a range that is elsewhere. -/
theorem fill_other {m m' : Mem} {s t : Seg} {off : Nat} {d : List Byte} (h : m.fill s off d = some m')
    (hd : t.st = s.st → off + d.length ≤ t.lo ∨ t.hi ≤ off) : m'.view t = m.view t := by
  unfold Mem.fill at h
  cases hst : s.st with
  | none => rw [hst] at h; simp at h; rw [h.2]
  | some id =>
    rw [hst] at h
    simp only [Mem.write] at h
    cases hx : m.mem id with
    | none => rw [hx] at h; cases h
    | some x =>
      rw [hx] at h
      dsimp only at h
      split at h
      · cases h
        refine view_put hx t ?_
        intro hh k hk1 hk2
        have := hd (by rw [hst, hh])
        exact wr_out (by omega)
      · cases h

theorem read_ok {m : Mem} {L : List Seg} (hb : Base m L) {t : Seg} (ht : t ∈ L) {id lo n : Nat} (hst : t.st = some id)
    (h1 : t.lo ≤ lo) (h2 : lo + n ≤ t.hi) : m.read id lo n = some (m.view ⟨t.st, lo, lo + n⟩) := by
  obtain ⟨x, hx, h3, h4⟩ := hb.held t ht id hst
  simp only [Mem.read, hx, Mem.view, hst]
  rw [if_pos (by omega)]
  congr 2; omega

theorem view_sub {m : Mem} {s : Seg} {lo hi : Nat} (h1 : s.lo ≤ lo) (h3 : hi ≤ s.hi) :
    m.view ⟨s.st, lo, hi⟩ = ((m.view s).drop (lo - s.lo)).take (hi - lo) := by
  simp only [Mem.view]
  cases hst : s.st with
  | none => simp
  | some id =>
    dsimp only
    cases hx : m.mem id with
    | none => simp
    | some x =>
      dsimp only
      rw [rd_drop, rd_take, show s.lo + (lo - s.lo) = lo by omega]
      congr 1; omega

theorem view_mk_length {m : Mem} {L : List Seg} (hb : Base m L) {t : Seg} (ht : t ∈ L) {lo hi : Nat}
    (h1 : t.lo ≤ lo) (h2 : hi ≤ t.hi) : (m.view ⟨t.st, lo, hi⟩).length = hi - lo := by
  rw [view_sub h1 h2, List.length_take, List.length_drop, view_length hb ht]; omega

/-- The copy of a buffer into the storage of the head. -/
theorem copyInto_ok {d : Seg} {c : ZBuf} (hb : Base m (d :: R)) (hc : c.seg ∈ d :: R) (hz : ZOk c)
    {id off size : Nat} (hd : d.st = some id) (h1 : d.lo ≤ off) (h2 : off + size ≤ d.hi) :
    ∃ m', copyInto m c id off size = some m' ∧ Base m' (d :: R) ∧
      (∀ b, Wide b m (d :: R) → Wide b m' (d :: R)) ∧
      (∀ t, (t.st = d.st → off + size ≤ t.lo ∨ t.hi ≤ off) → m'.view t = m.view t) ∧
      (c.st ≠ none → (c.st = d.st → off + size ≤ c.start ∨
          c.start + min size (c.zs - c.start) + (size - (c.ze - c.start)) ≤ off) →
        size ≤ c.size →
        m'.view d = patch (m.view d) (off - d.lo) ((bytesOf m c).take size)) := by
  have e1 := hz.h1; have e2 := hz.h2; have e3 := hz.h3
  have hfill : ∀ (m : Mem) o x, m.write id o x = m.fill d o x := by intro m o x; simp [Mem.fill, hd]
  unfold copyInto
  cases hst : c.st with
  | none => exact ⟨m, rfl, hb, fun _ h => h, fun _ _ => rfl, fun h => absurd rfl h⟩
  | some src =>
    dsimp only
    have hcl := view_length hb hc
    have hcl' : (m.view c.seg).length = (c.zs - c.start) + (c.en - c.ze) := by
      rw [hcl]; simp only [ZBuf.seg]; omega
    by_cases hzz : c.zs = c.ze
    · rw [if_pos hzz]
      rw [read_ok hb hc hst (lo := c.start) (n := min (c.en - c.start) size) (Nat.le_refl _)
        (by simp only [ZBuf.seg]; omega)]
      dsimp only
      have hl : (m.view ⟨c.seg.st, c.start, c.start + min (c.en - c.start) size⟩).length =
          min (c.en - c.start) size := by
        rw [view_mk_length hb hc (lo := c.start) (hi := c.start + min (c.en - c.start) size) (Nat.le_refl _)
          (by simp only [ZBuf.seg]; omega)]; omega
      obtain ⟨m', f1, f2, f3, f4, _⟩ := fill_ok hb (off := off)
        (d := m.view ⟨c.seg.st, c.start, c.start + min (c.en - c.start) size⟩) h1 (by omega)
      rw [hfill, f1]
      refine ⟨m', rfl, f2, f3, fun t ht => fill_other f1 (fun h => by have := ht h; omega), ?_⟩
      intro _ _ hsz
      rw [f4, view_sub (s := c.seg) (lo := c.start) (hi := c.start + min (c.en - c.start) size) (Nat.le_refl _)
        (by simp only [ZBuf.seg]; omega), bytesOf_eq, hzz, Nat.sub_self, weave_zero,
        show c.start - c.seg.lo = 0 by simp [ZBuf.seg], List.drop_zero]
      simp only [ZBuf.size] at hsz
      rw [show c.start + min (c.en - c.start) size - c.start = size by omega]
    · rw [if_neg hzz]
      have hh : min size (c.zs - c.start) ≤ c.zs - c.start := Nat.min_le_right _ _
      rw [read_ok hb hc hst (lo := c.start) (n := min size (c.zs - c.start)) (Nat.le_refl _)
        (by simp only [ZBuf.seg]; omega)]
      dsimp only
      have hl : (m.view ⟨c.seg.st, c.start, c.start + min size (c.zs - c.start)⟩).length =
          min size (c.zs - c.start) := by
        rw [view_mk_length hb hc (lo := c.start) (hi := c.start + min size (c.zs - c.start)) (Nat.le_refl _)
          (by simp only [ZBuf.seg]; omega)]; omega
      obtain ⟨m1, f1, b1, w1, v1, o1, _⟩ := fill_ok hb (off := off)
        (d := m.view ⟨c.seg.st, c.start, c.start + min size (c.zs - c.start)⟩) h1 (by omega)
      rw [hfill, f1]; dsimp only
      generalize hk : min (size - min size (c.zs - c.start)) (c.ze - c.zs) = k
      generalize hhd : min size (c.zs - c.start) = h at *
      obtain ⟨m2, f2, b2, w2, v2, o2, _⟩ := fill_ok b1 (off := off + h) (d := List.replicate k 0)
        (by omega) (by simp; omega)
      rw [hfill, f2]; dsimp only
      generalize ht : min (size - h - k) (c.en - c.ze) = tl
      rw [read_ok b2 hc hst (lo := c.zs) (n := tl) (by simpa [ZBuf.seg] using e1) (by simp only [ZBuf.seg]; omega)]
      dsimp only
      have hl2 : (m2.view ⟨c.seg.st, c.zs, c.zs + tl⟩).length = tl := by
        rw [view_mk_length b2 hc (by simpa [ZBuf.seg] using e1) (by simp only [ZBuf.seg]; omega)]; omega
      obtain ⟨m3, f3, b3, w3, v3, o3, _⟩ := fill_ok b2 (off := off + h + k)
        (d := m2.view ⟨c.seg.st, c.zs, c.zs + tl⟩) (by omega) (by omega)
      rw [hfill, f3]
      refine ⟨m3, rfl, b3, fun b hW => w3 b (w2 b (w1 b hW)), fun t htt => ?_, ?_⟩
      · rw [fill_other f3 (fun h => by have := htt h; omega), fill_other f2 (fun h => by
          have := htt h; simp only [List.length_replicate]; omega), fill_other f1 (fun h => by have := htt h; omega)]
      · intro _ hdis hsz
        simp only [ZBuf.size] at hsz
        have ev : m2.view ⟨c.seg.st, c.zs, c.zs + tl⟩ = m.view ⟨c.seg.st, c.zs, c.zs + tl⟩ := by
          by_cases htl : tl = 0
          · have z1 := view_mk_length b2 hc (lo := c.zs) (hi := c.zs + tl) (by simpa [ZBuf.seg] using e1)
              (by simp only [ZBuf.seg]; omega)
            have z2 := view_mk_length hb hc (lo := c.zs) (hi := c.zs + tl) (by simpa [ZBuf.seg] using e1)
              (by simp only [ZBuf.seg]; omega)
            rw [List.length_eq_zero_iff.mp (by omega : (m2.view ⟨c.seg.st, c.zs, c.zs + tl⟩).length = 0),
              List.length_eq_zero_iff.mp (by omega : (m.view ⟨c.seg.st, c.zs, c.zs + tl⟩).length = 0)]
          · rw [fill_other f2 (fun hh => by
              have := hdis (hst ▸ hh); simp only [List.length_replicate]; omega),
              fill_other f1 (fun hh => by
                have := hdis (hst ▸ hh); dsimp only; omega)]
        have hdl := view_length hb (by simp : d ∈ d :: R)
        rw [ev] at v3 hl2
        rw [v3, v2, v1, bytesOf_eq, weave_take (by omega), hhd]
        rw [show off + h + k - d.lo = (off + h - d.lo) + (List.replicate k (0 : Byte)).length by simp; omega,
          patch_append (by
            rw [patch_length (by omega)]; simp; omega),
          show off + h - d.lo = (off - d.lo) +
            (m.view ⟨c.seg.st, c.start, c.start + h⟩).length by omega,
          patch_append (by omega)]
        congr 1
        rw [List.append_assoc, view_sub (s := c.seg) (lo := c.start) (hi := c.start + h) (Nat.le_refl _)
            (by simp only [ZBuf.seg]; omega),
          view_sub (s := c.seg) (lo := c.zs) (hi := c.zs + tl) (by simpa [ZBuf.seg] using e1)
            (by simp only [ZBuf.seg]; omega)]
        rw [show c.start - c.seg.lo = 0 by simp [ZBuf.seg], List.drop_zero, show c.start + h - c.start = h by omega,
          show c.zs - c.seg.lo = c.zs - c.start by simp [ZBuf.seg], show c.zs + tl - c.zs = tl by omega, hk,
          show size - h - k = tl by omega]

theorem copyOut_ok {L : List Seg} (hb : Base m L) (hs : z.seg ∈ L) (hz : ZOk z) (n : Nat)
    (h : z.st ≠ none ∨ z.size = 0) : copyOut m z n = some ((bytesOf m z).take n) := by
  have e1 := hz.h1; have e2 := hz.h2; have e3 := hz.h3
  unfold copyOut
  cases hst : z.st with
  | none =>
    have hz0 : z.size = 0 := by rcases h with h | h <;> [exact absurd hst h; exact h]
    simp only [ZBuf.size] at hz0
    have : m.view z.seg = [] := by simp [Mem.view, ZBuf.seg, hst]
    simp [bytesOf, this, show z.ze - z.zs = 0 by omega]
  | some id =>
    dsimp only
    have hl := view_length hb hs
    have hl' : (m.view z.seg).length = (z.zs - z.start) + (z.en - z.ze) := by
      rw [hl]; simp only [ZBuf.seg]; omega
    by_cases hzz : z.zs = z.ze
    · rw [if_pos hzz, read_ok hb hs hst (lo := z.start) (n := min (z.en - z.start) n) (Nat.le_refl _)
        (by simp only [ZBuf.seg]; omega), view_sub (s := z.seg) (lo := z.start)
        (hi := z.start + min (z.en - z.start) n) (Nat.le_refl _) (by simp only [ZBuf.seg]; omega),
        bytesOf_eq, hzz, Nat.sub_self, weave_zero, show z.start - z.seg.lo = 0 by simp [ZBuf.seg], List.drop_zero]
      congr 1
      rw [show z.start + min (z.en - z.start) n - z.start = min n (m.view z.seg).length by omega]
      exact List.take_eq_take_iff.mpr (by omega)
    · rw [if_neg hzz, read_ok hb hs hst (lo := z.start) (n := min n (z.zs - z.start)) (Nat.le_refl _)
        (by simp only [ZBuf.seg]; omega)]
      generalize hh : min n (z.zs - z.start) = h
      generalize hk : min (n - h) (z.ze - z.zs) = k
      generalize ht : min (n - h - k) (z.en - z.ze) = tl
      rw [read_ok hb hs hst (lo := z.zs) (n := tl) (by simpa [ZBuf.seg] using e1) (by simp only [ZBuf.seg]; omega)]
      dsimp only
      rw [view_sub (s := z.seg) (lo := z.start) (hi := z.start + h) (Nat.le_refl _)
            (by simp only [ZBuf.seg]; omega),
          view_sub (s := z.seg) (lo := z.zs) (hi := z.zs + tl) (by simpa [ZBuf.seg] using e1)
            (by simp only [ZBuf.seg]; omega), bytesOf_eq, weave_take (by omega), hh, hk]
      rw [show z.start - z.seg.lo = 0 by simp [ZBuf.seg], List.drop_zero, show z.start + h - z.start = h by omega,
          show z.zs - z.seg.lo = z.zs - z.start by simp [ZBuf.seg], show z.zs + tl - z.zs = tl by omega]
      congr 2
      exact List.take_eq_take_iff.mpr (by simp; omega)

theorem construct_ok {L : List Seg} (hb : Base m L) (a g e : Nat) :
    ∃ m' z', construct m a g e = some (m', z') ∧ Base m' (z'.seg :: L) ∧ ZOk z' ∧
      bytesOf m' z' = List.replicate g 0 ∧ (∀ t ∈ L, m'.view t = m.view t) ∧
      (∀ b, Wide b m L → Wide b m' (z'.seg :: L)) := by
  unfold construct
  have hs : ∀ st, (⟨st, a, a, a + g, a + g⟩ : ZBuf).seg = ⟨st, a, a⟩ := by
    intro st; simp [ZBuf.seg]
  have hzo : ∀ st, ZOk ⟨st, a, a, a + g, a + g⟩ := fun st => ⟨Nat.le_refl _, by simp, Nat.le_refl _⟩
  by_cases hc : a + e = 0
  · have ha : a = 0 := by omega
    subst ha
    have e1 : m.allocate (0 + e) = (m, none) := by simp only [Mem.allocate]; rw [if_pos hc]
    rw [e1]; dsimp only
    refine ⟨m, _, rfl, by rw [hs]; exact base_null.mpr hb, hzo _, ?_, fun _ _ => rfl,
      fun b h => by rw [hs]; exact wide_null.mpr h⟩
    rw [bytesOf_eq, hs]; simp [weave, Mem.view]
  · have e1 : m.allocate (a + e) = ((m.alloc (a + e)).1, some m.next) := by
      simp only [Mem.allocate]; rw [if_neg hc]; rfl
    rw [e1]; dsimp only
    rw [hs]
    have hb1 : Base (m.alloc (a + e)).1 (⟨some m.next, a, a⟩ :: L) := base_alloc hb (by omega) (by omega)
    have hx1 : (m.alloc (a + e)).1.mem m.next = some ⟨a + e, 1, 0, 0, m.junk m.next⟩ := by
      simp [Mem.alloc]
    have hd : (m.alloc (a + e)).1.dirtyOf ⟨some m.next, a, a⟩ =
        some ((m.alloc (a + e)).1.put m.next (some ⟨a + e, 1, a, a, m.junk m.next⟩)) := by
      simp only [Mem.dirtyOf, Mem.dirty, hx1]
    rw [hd]
    have hne : ∀ t ∈ L, t.st ≠ some m.next := by
      intro t ht h
      obtain ⟨x, hx, _⟩ := hb.held t ht _ h
      rw [hb.closed _ (Nat.le_refl _)] at hx; cases hx
    refine ⟨_, _, rfl, by rw [hs]; exact base_put hb1 hx1 rfl rfl, hzo _, ?_, ?_, ?_⟩
    · simp [bytesOf, hs, Mem.view, rd]
    · intro t ht
      rw [view_put hx1 t (fun h => absurd h (hne t ht)), view_alloc hb _ ht]
    · intro b hW t ht id y h hy hon
      rw [hs] at ht
      rcases List.mem_cons.mp ht with rfl | ht
      · cases h
        simp only [put_mem, if_true] at hy; cases hy
        exact ⟨fun _ => Nat.le_refl _, fun _ => .inl (Nat.le_refl _)⟩
      · have hn : id ≠ m.next := by rintro rfl; exact hne t ht h
        simp only [put_mem, if_neg hn, Mem.alloc] at hy
        exact hW t ht id y h hy hon

theorem constructFrom_ok {L : List Seg} (hb : Base m L) (d : List Byte) :
    ∃ m' z', constructFrom m d = some (m', z') ∧ Base m' (z'.seg :: L) ∧ ZOk z' ∧
      bytesOf m' z' = d ∧ (∀ t ∈ L, m'.view t = m.view t) ∧
      (∀ b : Cover, (b.loose = true ∨ d = [] ∨ ¬ b.on m.next) → Wide b m L → Wide b m' (z'.seg :: L)) := by
  obtain ⟨m', s, e, hb', hv, hvo, hw, _⟩ := Buf.constructFrom_ok hb d
  have hs : ∀ st, (⟨st, 0, d.length, d.length, d.length⟩ : ZBuf).seg = ⟨st, 0, d.length⟩ := by
    intro st; simp [ZBuf.seg]
  have hzo : ∀ st, ZOk ⟨st, 0, d.length, d.length, d.length⟩ :=
    fun st => ⟨Nat.zero_le _, Nat.le_refl _, Nat.le_refl _⟩
  unfold Buf.constructFrom at e
  dsimp only at e
  unfold constructFrom
  dsimp only
  rw [hs]
  split at e
  · cases e
  · rename_i m1 e1
    cases e
    rw [e1]
    refine ⟨_, _, rfl, by rw [hs]; exact hb', hzo _, ?_, hvo, ?_⟩
    · rw [bytesOf_eq, hs, hv]; simp [weave_zero]
    · rw [hs]
      intro b hc
      refine hw b ?_
      rcases hc with h | h | h
      · exact .inl h
      · exact .inr (.inl h)
      · exact .inr (.inr (.inl h))

theorem makeFragment_ok {L : List Seg} (hb : Base m L) (hs : z.seg ∈ L) (hz : ZOk z) {a n : Nat}
    (h1 : a ≤ z.size) (h2 : n ≤ z.size - a) :
    ∃ m' f, makeFragment m z a n = some (m', f) ∧ Base m' (f.seg :: L) ∧ ZOk f ∧
      bytesOf m' f = ((bytesOf m z).drop a).take n ∧ (∀ t ∈ L, m'.view t = m.view t) ∧
      (∀ b, Wide b m L → Wide b m' (f.seg :: L)) := by
  unfold makeFragment
  rw [if_pos ⟨h1, h2⟩]
  obtain ⟨m1, e1, hb1, hv1, hw1, _⟩ := acquire_ok hb hs
  rw [e1]; dsimp only
  obtain ⟨m2, f, e2, k, hby⟩ := removeAtStart_ok hb1 hz a
  obtain ⟨f', e2', hst⟩ := removeAtStart_st (m := m1) a h1 hz
  rw [e2] at e2'; cases e2'
  rw [e2]; dsimp only
  obtain ⟨m3, f3, e3, k3, hby3⟩ := removeAtEnd_ok k.base k.ok (z.size - (a + n))
  have hb2 := hby (.inr h1)
  have hfs : f.size = z.size - a := by
    rw [← bytesOf_length k.base k.ok, hb2, List.length_drop, bytesOf_length hb1 hz]
  refine ⟨m3, f3, e3, k3.base, k3.ok, ?_, ?_, fun b h => k3.wide b (k.wide b (hw1 b h))⟩
  · rw [hby3 (.inr (by omega)), hb2, bytesOf_congr (hv1 z.seg), hfs]
    congr 1; omega
  · intro t ht
    rw [k3.others t ht, hv1]

/-- `MakeRealBuffer`. -/
theorem makeReal_ok {L : List Seg} (hb : Base m L) (hs : z.seg ∈ L) (hz : ZOk z) :
    ∃ m' f, makeReal m z = some (m', f) ∧ Base m' (f.seg :: L) ∧ ZOk f ∧ f.zs = f.ze ∧
      bytesOf m' f = bytesOf m z ∧ (∀ t ∈ L, m'.view t = m.view t) ∧
      (∀ b, Wide b m L → Wide b m' (f.seg :: L)) := by
  have e1 := hz.h1; have e2 := hz.h2; have e3 := hz.h3
  unfold makeReal
  by_cases hzz : z.ze = z.zs
  · rw [if_pos hzz]
    obtain ⟨m1, g1, hb1, hv1, hw1, _⟩ := acquire_ok hb hs
    rw [g1]
    exact ⟨m1, z, rfl, hb1, hz, hzz.symm, bytesOf_congr (hv1 _), fun t _ => hv1 t, hw1⟩
  · rw [if_neg hzz]
    have ha : m.allocate (z.en - z.start) = ((m.alloc (z.en - z.start)).1, some m.next) := by
      simp only [Mem.allocate]; rw [if_neg (by omega)]; rfl
    rw [ha]; dsimp only
    generalize hm1 : (m.alloc (z.en - z.start)).1 = m1
    have hne : ∀ t ∈ L, t.st ≠ some m.next := by
      intro t ht h
      obtain ⟨x, hx, _⟩ := hb.held t ht _ h
      rw [hb.closed _ (Nat.le_refl _)] at hx; cases hx
    let d : Seg := ⟨some m.next, 0, z.en - z.start⟩
    have hb1 : Base m1 (d :: L) := hm1 ▸ base_alloc hb (by omega) (by omega)
    have hx1 : m1.mem m.next = some ⟨z.en - z.start, 1, 0, 0, m.junk m.next⟩ := by
      rw [← hm1]; simp [Mem.alloc]
    have hv1 : ∀ t ∈ L, m1.view t = m.view t := fun t ht => hm1 ▸ view_alloc hb _ ht
    have hfill : ∀ (m' : Mem) o x, m'.write m.next o x = m'.fill d o x := by intro m' o x; rfl
    have hl := view_length hb hs
    have hl' : (m.view z.seg).length = (z.zs - z.start) + (z.en - z.ze) := by
      rw [hl]; simp only [ZBuf.seg]; omega
    -- the two reads
    have r1 : readAt m1 z.st z.start (z.zs - z.start) = some ((m.view z.seg).take (z.zs - z.start)) := by
      unfold readAt
      cases hst : z.st with
      | none =>
        have : m.view z.seg = [] := by simp [Mem.view, ZBuf.seg, hst]
        rw [this] at hl' ⊢
        simp at hl'
        dsimp only
        rw [if_pos (by omega)]; simp
      | some id =>
        dsimp only
        rw [read_ok hb1 (by simp [hs] : z.seg ∈ d :: L) hst (lo := z.start) (n := z.zs - z.start)
            (Nat.le_refl _) (by simp only [ZBuf.seg]; omega),
          view_sub (s := z.seg) (lo := z.start) (hi := z.start + (z.zs - z.start)) (Nat.le_refl _)
            (by simp only [ZBuf.seg]; omega), hv1 _ hs, show z.start - z.seg.lo = 0 by simp [ZBuf.seg], List.drop_zero]
        rw [show z.start + (z.zs - z.start) - z.start = z.zs - z.start by omega]
    have r2 : readAt m1 z.st z.zs (z.en - z.ze) = some ((m.view z.seg).drop (z.zs - z.start)) := by
      unfold readAt
      cases hst : z.st with
      | none =>
        have : m.view z.seg = [] := by simp [Mem.view, ZBuf.seg, hst]
        rw [this] at hl' ⊢
        simp at hl'
        dsimp only
        rw [if_pos (by omega)]; simp
      | some id =>
        dsimp only
        rw [read_ok hb1 (by simp [hs] : z.seg ∈ d :: L) hst (by simpa [ZBuf.seg] using e1)
            (by simp only [ZBuf.seg]; omega),
          view_sub (s := z.seg) (lo := z.zs) (hi := z.zs + (z.en - z.ze)) (by simpa [ZBuf.seg] using e1)
            (by simp only [ZBuf.seg]; omega), hv1 _ hs, show z.zs - z.seg.lo = z.zs - z.start by simp [ZBuf.seg]]
        rw [List.take_of_length_le]
        rw [List.length_drop]; omega
    rw [r1, r2]; dsimp only
    generalize hd1 : (m.view z.seg).take (z.zs - z.start) = d1
    generalize hd2 : (m.view z.seg).drop (z.zs - z.start) = d2
    have l1 : d1.length = z.zs - z.start := by rw [← hd1, List.length_take]; omega
    have l2 : d2.length = z.en - z.ze := by rw [← hd2, List.length_drop]; omega
    obtain ⟨m2, f1, b2, w2, v2, o2, _⟩ := fill_ok hb1 (off := 0) (d := d1) (Nat.le_refl _)
      (by dsimp only [d]; omega)
    rw [hfill, f1]; dsimp only
    obtain ⟨m3, f2, b3, w3, v3, o3, _⟩ := fill_ok b2 (off := z.zs - z.start)
      (d := List.replicate (z.ze - z.zs) 0) (Nat.zero_le _) (by dsimp only [d]; simp; omega)
    rw [hfill, f2]; dsimp only
    obtain ⟨m4, f3, b4, w4, v4, o4, _⟩ := fill_ok b3 (off := z.zs - z.start + (z.ze - z.zs))
      (d := d2) (Nat.zero_le _) (by dsimp only [d]; omega)
    rw [hfill, f3]; dsimp only
    obtain ⟨x4, hx4, h41, h42⟩ := b4.held d (by simp) m.next rfl
    simp only [Mem.dirty, hx4]
    have hs' : (⟨some m.next, 0, z.zs - z.start + (z.ze - z.zs), z.zs - z.start + (z.ze - z.zs),
        z.en - z.start⟩ : ZBuf).seg = d := by simp [ZBuf.seg, d]
    refine ⟨_, _, rfl, ?_, ⟨Nat.zero_le _, Nat.le_refl _, by dsimp only; omega⟩, rfl, ?_, ?_, ?_⟩
    · rw [hs']; exact base_put b4 hx4 rfl rfl
    · have hvv : (m4.put m.next (some { x4 with ds := 0, de := z.en - z.start })).view d = m4.view d :=
        view_put hx4 d (fun _ _ _ _ => rfl)
      rw [bytesOf_eq, hs', Nat.sub_self, weave_zero, hvv, v4, v3, v2, bytesOf_eq]
      have hdl := view_length hb1 (by simp : d ∈ d :: L)
      have hdl' : (m1.view d).length = z.en - z.start := hdl
      dsimp only [d] at hdl' ⊢
      rw [Nat.sub_zero, Nat.sub_zero, Nat.sub_zero]
      have q1 : z.zs - z.start + (z.ze - z.zs) = z.zs - z.start + (List.replicate (z.ze - z.zs) (0 : Byte)).length := by
        simp
      rw [q1, patch_append (by rw [patch_length (by omega)]; simp; omega)]
      have q2 : z.zs - z.start = 0 + d1.length := by omega
      rw [q2, patch_append (by omega)]
      unfold patch weave
      rw [← q2, hd1, hd2, List.drop_of_length_le (by simp; omega)]
      simp
    · intro t ht
      rw [view_put hx4 t (fun h => absurd h (hne t ht)), fill_other f3 (fun h => absurd h (hne t ht)),
        fill_other f2 (fun h => absurd h (hne t ht)), fill_other f1 (fun h => absurd h (hne t ht)), hv1 t ht]
    · intro b hW t ht id y h hy hon
      rw [hs'] at ht
      have hw1 : Wide b m1 L := by
        intro t ht id y h hy hon
        have hn : id ≠ m.next := by rintro rfl; exact hne t ht h
        rw [← hm1] at hy
        simp only [Mem.alloc, put_mem, if_neg hn] at hy
        exact hW t ht id y h hy hon
      rcases List.mem_cons.mp ht with rfl | ht
      · cases h
        simp only [put_mem, if_true] at hy; cases hy
        exact ⟨fun _ => Nat.le_refl _, fun _ => .inl (Nat.le_refl _)⟩
      · have hn : id ≠ m.next := by rintro rfl; exact hne t ht h
        have hmem : ∀ {ma mb : Mem} {o x}, ma.fill d o x = some mb → mb.mem id = ma.mem id := by
          intro ma mb o x hf
          simp only [Mem.fill, d, Mem.write] at hf
          split at hf
          · cases hf
          · split at hf
            · cases hf; simp [hn]
            · cases hf
        simp only [put_mem, if_neg hn] at hy
        rw [hmem f3, hmem f2, hmem f1] at hy
        exact hw1 t ht id y h hy hon

/-- Writing outside the zero area. -/
theorem writeAt_ok (hb : Base m (z.seg :: R)) (hz : ZOk z) {off : Nat} {d : List Byte}
    (h : writable z (z.start + off) d.length) :
    ∃ m', writeAt m z off d = some (m', z) ∧ Base m' (z.seg :: R) ∧
      bytesOf m' z = patch (bytesOf m z) off d ∧
      (∀ b, Wide b m (z.seg :: R) → Wide b m' (z.seg :: R)) := by
  have e1 := hz.h1; have e2 := hz.h2; have e3 := hz.h3
  unfold writeAt
  dsimp only
  rw [if_pos h]
  obtain ⟨w1, w2, w3⟩ := h
  have hl := seg_length hb hz
  by_cases hc : z.start + off < z.zs
  · rw [if_pos hc]
    obtain ⟨m', f1, b1, ww, v1, _, _⟩ := fill_ok hb (off := z.start + off) (d := d)
      (by simp [ZBuf.seg]) (by simp only [ZBuf.seg]; omega)
    rw [f1]
    refine ⟨m', rfl, b1, ?_, ww⟩
    rw [bytesOf_eq, bytesOf_eq, v1, show z.start + off - z.seg.lo = off by simp [ZBuf.seg],
      weave_patch_lo (header_le hb hz) (by omega)]
  · rw [if_neg hc]
    obtain ⟨m', f1, b1, ww, v1, _, _⟩ := fill_ok hb (off := z.start + off - (z.ze - z.zs)) (d := d)
      (by simp only [ZBuf.seg]; omega) (by simp only [ZBuf.seg]; omega)
    rw [f1]
    refine ⟨m', rfl, b1, ?_, ww⟩
    have : z.start + off - (z.ze - z.zs) - z.seg.lo = off - (z.ze - z.zs) := by simp only [ZBuf.seg]; omega
    rw [bytesOf_eq, bytesOf_eq, v1, this,
      weave_patch_hi (header_le hb hz) (by omega) (by omega)]
    congr 1; omega

end
end Verif.Zc
