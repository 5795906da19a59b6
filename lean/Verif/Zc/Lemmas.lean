import Verif.Buf.BufferLemmas
import Verif.Zc.Model

/-! Helper lemmas about `ZcBuffer` operations. -/
set_option linter.unusedSimpArgs false
set_option linter.unusedVariables false
namespace Verif.Zc
open Verif Verif.Buf

/-- Insert `g` zeros at position `h`. -/
def weave (v : List Byte) (h g : Nat) : List Byte := v.take h ++ List.replicate g 0 ++ v.drop h

theorem weave_get {v : List Byte} {h g : Nat} (hv : h ≤ v.length) (k : Nat) :
    (weave v h g)[k]? = if k < h then v[k]? else if k < h + g then some 0 else v[k - g]? := by
  unfold weave
  rw [List.append_assoc, List.getElem?_append, List.length_take, Nat.min_eq_left hv]
  by_cases h1 : k < h
  · rw [if_pos h1, if_pos h1, List.getElem?_take_of_lt h1]
  · rw [if_neg h1, if_neg h1, List.getElem?_append, List.length_replicate]
    by_cases h2 : k < h + g
    · rw [if_pos (by omega), if_pos h2, List.getElem?_replicate, if_pos (by omega)]
    · rw [if_neg (by omega), if_neg h2, List.getElem?_drop]
      congr 1; omega

theorem weave_length {v : List Byte} {h g : Nat} (hv : h ≤ v.length) :
    (weave v h g).length = v.length + g := by
  simp [weave]; omega

theorem weave_zero (v : List Byte) (h : Nat) : weave v h 0 = v := by simp [weave]

theorem weave_drop1 {v : List Byte} {h g n : Nat} (hv : h ≤ v.length) (hn : n ≤ h) :
    weave (v.drop n) (h - n) g = (weave v h g).drop n := by
  apply List.ext_getElem?; intro i
  rw [List.getElem?_drop, weave_get hv, weave_get (by simp; omega), List.getElem?_drop, List.getElem?_drop]
  by_cases c1 : n + i < h
  · rw [if_pos c1, if_pos (by omega)]
  · rw [if_neg c1, if_neg (by omega)]
    by_cases c2 : n + i < h + g
    · rw [if_pos c2, if_pos (by omega)]
    · rw [if_neg c2, if_neg (by omega)]; congr 1; omega

theorem weave_drop2 {v : List Byte} {h g n : Nat} (hv : h ≤ v.length) (h1 : h ≤ n) (h2 : n ≤ h + g) :
    weave (v.drop h) 0 (h + g - n) = (weave v h g).drop n := by
  apply List.ext_getElem?; intro i
  rw [List.getElem?_drop, weave_get hv, weave_get (by simp), List.getElem?_drop]
  rw [if_neg (show ¬ i < 0 by omega), if_neg (show ¬ n + i < h by omega)]
  by_cases c2 : n + i < h + g
  · rw [if_pos c2, if_pos (show i < 0 + (h + g - n) by omega)]
  · rw [if_neg c2, if_neg (show ¬ i < 0 + (h + g - n) by omega), List.getElem?_drop]; congr 1; omega

theorem weave_drop3 {v : List Byte} {h g n : Nat} (hv : h ≤ v.length) (h1 : h + g ≤ n) :
    v.drop (n - g) = (weave v h g).drop n := by
  apply List.ext_getElem?; intro i
  rw [List.getElem?_drop, List.getElem?_drop, weave_get hv, if_neg (by omega), if_neg (by omega)]
  congr 1; omega

theorem weave_take1 {v : List Byte} {h g k : Nat} (hv : h ≤ v.length) (h1 : h ≤ k) :
    weave (v.take k) h g = (weave v h g).take (k + g) := by
  apply List.ext_getElem?; intro i
  rw [List.getElem?_take, weave_get hv, weave_get (by simp; omega), List.getElem?_take, List.getElem?_take]
  by_cases c1 : i < h
  · rw [if_pos c1, if_pos (by omega), if_pos (by omega), if_pos c1]
  · rw [if_neg c1]
    by_cases c2 : i < h + g
    · rw [if_pos c2, if_pos (by omega), if_neg c1, if_pos c2]
    · rw [if_neg c2]
      by_cases c3 : i < k + g
      · rw [if_pos (by omega), if_pos c3, if_neg c1, if_neg c2]
      · rw [if_neg (by omega), if_neg c3]

theorem weave_take2 {v : List Byte} {h g g' : Nat} (hv : h ≤ v.length) (h1 : g' ≤ g) :
    weave (v.take h) h g' = (weave v h g).take (h + g') := by
  apply List.ext_getElem?; intro i
  rw [List.getElem?_take, weave_get hv, weave_get (by simp; omega), List.getElem?_take, List.getElem?_take]
  by_cases c1 : i < h
  · rw [if_pos c1, if_pos c1, if_pos (by omega), if_pos c1]
  · rw [if_neg c1]
    by_cases c2 : i < h + g'
    · rw [if_pos c2, if_pos c2, if_neg c1, if_pos (by omega)]
    · rw [if_neg c2, if_neg c2, if_neg (by omega)]

theorem weave_take3 {v : List Byte} {h g k : Nat} (hv : h ≤ v.length) (h1 : k ≤ h) :
    v.take k = (weave v h g).take k := by
  apply List.ext_getElem?; intro i
  rw [List.getElem?_take, List.getElem?_take, weave_get hv]
  by_cases c1 : i < k
  · rw [if_pos c1, if_pos c1, if_pos (by omega)]
  · rw [if_neg c1, if_neg c1]

/-- The offsets are ordered. -/
structure ZOk (z : ZBuf) : Prop where
  h1 : z.start ≤ z.zs
  h2 : z.zs ≤ z.ze
  h3 : z.ze ≤ z.en

theorem zok_null : ZOk ZBuf.null := ⟨by decide, by decide, by decide⟩
theorem seg_null : ZBuf.null.seg = Seg.null := rfl

theorem bytesOf_eq (m : Mem) (z : ZBuf) : bytesOf m z = weave (m.view z.seg) (z.zs - z.start) (z.ze - z.zs) := rfl

theorem bytesOf_congr {m m' : Mem} {z : ZBuf} (h : m'.view z.seg = m.view z.seg) :
    bytesOf m' z = bytesOf m z := by simp [bytesOf_eq, h]

section
variable {m : Mem} {z : ZBuf} {R : List Seg}

theorem seg_length (hb : Base m (z.seg :: R)) (hz : ZOk z) :
    (m.view z.seg).length = (z.zs - z.start) + (z.en - z.ze) := by
  rw [view_length hb (by simp)]
  have := hz.h1; have := hz.h2; have := hz.h3
  simp only [ZBuf.seg]; omega

theorem header_le (hb : Base m (z.seg :: R)) (hz : ZOk z) : z.zs - z.start ≤ (m.view z.seg).length := by
  rw [seg_length hb hz]; omega

theorem bytesOf_length (hb : Base m (z.seg :: R)) (hz : ZOk z) : (bytesOf m z).length = z.size := by
  have := hz.h1; have := hz.h2; have := hz.h3
  rw [bytesOf_eq, weave_length (header_le hb hz), seg_length hb hz, ZBuf.size]; omega

/-- Without a storage there are only zeros. -/
theorem null_z (hb : Base m (z.seg :: R)) (hz : ZOk z) (h : z.st = none) :
    z.start = 0 ∧ z.zs = 0 ∧ z.ze = z.en ∧ z.seg = Seg.null := by
  have := hb.null z.seg (by simp) h
  have := hz.h1; have := hz.h2; have := hz.h3
  simp only [ZBuf.seg] at *
  refine ⟨by omega, by omega, by omega, ?_⟩
  have e1 : z.start = 0 := by omega
  have e2 : z.en - (z.ze - z.zs) = 0 := by omega
  rw [h, e1, e2]; rfl

/-- Narrowing the range of the head. -/
theorem cut_ok {s : Seg} (hb : Base m (s :: R)) {lo hi : Nat} (h1 : s.lo ≤ lo) (h2 : lo ≤ hi) (h3 : hi ≤ s.hi) :
    Base m (⟨s.st, lo, hi⟩ :: R) ∧ (∀ b, Wide b m (s :: R) → Wide b m (⟨s.st, lo, hi⟩ :: R)) ∧
    m.view ⟨s.st, lo, hi⟩ = ((m.view s).drop (lo - s.lo)).take (hi - lo) := by
  refine ⟨?_, ?_, ?_⟩
  · cases hst : s.st with
    | none =>
      have hn := hb.null s (by simp) hst
      have e : (⟨none, lo, hi⟩ : Seg) = s := by
        obtain ⟨a, b, c⟩ := s; simp_all
      rw [e]; exact hb
    | some id =>
      obtain ⟨x, hx, _, _⟩ := hb.held s (by simp) id hst
      have := base_range hb hst hx (lo := lo) (hi := hi) (by omega) (by omega)
      first | exact this | exact hst ▸ this
  · intro b hW t ht id x h hx ho
    rcases List.mem_cons.mp ht with e | ht
    · subst e
      obtain ⟨g1, g2⟩ := hW s (by simp) id x h hx ho
      refine ⟨fun hS => by have := g1 hS; dsimp only; omega, fun hS => ?_⟩
      rcases g2 hS with g2 | g2
      · left; dsimp only; omega
      · exact .inr g2
    · exact hW t (by simp [ht]) id x h hx ho
  · simp only [Mem.view]
    cases hst : s.st with
    | none => simp
    | some id =>
      dsimp only
      cases hx : m.mem id with
      | none => simp
      | some x =>
        dsimp only
        rw [rd_drop, rd_take, show s.lo + (lo - s.lo) = lo by omega]
        congr 1; omega

/-- What an operation on the head keeps. -/
structure Keep (m : Mem) (z : ZBuf) (R : List Seg) (m' : Mem) (z' : ZBuf) : Prop where
  base : Base m' (z'.seg :: R)
  ok : ZOk z'
  others : ∀ t ∈ R, m'.view t = m.view t
  wide : ∀ b, Wide b m (z.seg :: R) → Wide b m' (z'.seg :: R)

theorem release_ok (hb : Base m (z.seg :: R)) (hz : ZOk z) :
    ∃ m' z', release m z = some (m', z') ∧ Keep m z R m' z' ∧ Base m' R ∧
      (∀ b, Wide b m (z.seg :: R) → Wide b m' R) ∧
      (z.st ≠ none → z' = ZBuf.null) ∧ (z.st = none → z' = z ∧ m' = m) := by
  unfold release
  cases hst : z.st with
  | none =>
    obtain ⟨_, _, _, hs⟩ := null_z hb hz hst
    refine ⟨m, z, rfl, ⟨hb, hz, fun _ _ => rfl, fun _ h => h⟩, ?_, ?_, by simp, fun _ => ⟨rfl, rfl⟩⟩
    · rw [hs] at hb; exact base_null.mp hb
    · intro b h; rw [hs] at h; exact wide_null.mp h
  | some id =>
    obtain ⟨m', e, hb', hv, _, hw, _⟩ := base_drop hb
    refine ⟨m', ZBuf.null, by simp [e], ⟨?_, zok_null, hv, ?_⟩, hb', hw, fun _ => rfl, by simp⟩
    · rw [seg_null]; exact base_null.mpr hb'
    · intro b h; rw [seg_null]; exact wide_null.mpr (hw b h)

theorem cut_lo {z' : ZBuf} (hb : Base m (z.seg :: R)) (hst : z'.st = z.st) (hok : ZOk z')
    (h1 : z.start ≤ z'.start) (h3 : z'.en - (z'.ze - z'.zs) = z.en - (z.ze - z.zs)) :
    Keep m z R m z' ∧ m.view z'.seg = (m.view z.seg).drop (z'.start - z.start) := by
  have := hok.h1; have := hok.h2; have := hok.h3
  obtain ⟨g1, g2, g3⟩ := cut_ok hb (lo := z'.start) (hi := z'.en - (z'.ze - z'.zs)) h1 (by omega)
    (by rw [h3]; exact Nat.le_refl _)
  have e : (⟨z.seg.st, z'.start, z'.en - (z'.ze - z'.zs)⟩ : Seg) = z'.seg := by simp [ZBuf.seg, hst]
  rw [e] at g1 g2 g3
  refine ⟨⟨g1, hok, fun _ _ => rfl, g2⟩, ?_⟩
  rw [g3, List.take_of_length_le]
  · rfl
  · rw [List.length_drop, view_length hb (by simp), h3]
    simp only [ZBuf.seg]; omega

theorem cut_hi {z' : ZBuf} (hb : Base m (z.seg :: R)) (hst : z'.st = z.st) (hok : ZOk z')
    (h1 : z'.start = z.start) (h3 : z'.en - (z'.ze - z'.zs) ≤ z.en - (z.ze - z.zs)) :
    Keep m z R m z' ∧ m.view z'.seg = (m.view z.seg).take (z'.en - (z'.ze - z'.zs) - z.start) := by
  have := hok.h1; have := hok.h2; have := hok.h3
  obtain ⟨g1, g2, g3⟩ := cut_ok hb (lo := z'.start) (hi := z'.en - (z'.ze - z'.zs))
    (by rw [h1]; exact Nat.le_refl _) (by omega) h3
  have e : (⟨z.seg.st, z'.start, z'.en - (z'.ze - z'.zs)⟩ : Seg) = z'.seg := by simp [ZBuf.seg, hst]
  rw [e] at g1 g2 g3
  refine ⟨⟨g1, hok, fun _ _ => rfl, g2⟩, ?_⟩
  rw [g3, show z'.start - z.seg.lo = 0 by simp only [ZBuf.seg]; omega, List.drop_zero, h1]

/-- `RemoveAtStart`: drops bytes, except that a buffer without storage ignores a request for more than it
has. -/
theorem removeAtStart_ok (hb : Base m (z.seg :: R)) (hz : ZOk z) (n : Nat) :
    ∃ m' z', removeAtStart m z n = some (m', z') ∧ Keep m z R m' z' ∧
      ((z.st ≠ none ∨ n ≤ z.size) → bytesOf m' z' = (bytesOf m z).drop n) := by
  have h1 := hz.h1; have h2 := hz.h2; have h3 := hz.h3
  have hl := header_le hb hz
  unfold removeAtStart
  dsimp only
  by_cases c1 : z.start + n ≤ z.zs
  · rw [if_pos c1]
    obtain ⟨k, hv⟩ := cut_lo (z' := (⟨z.st, z.start + n, z.zs, z.ze, z.en⟩ : ZBuf)) hb rfl ⟨c1, h2, h3⟩
      (by simp) rfl
    refine ⟨_, _, rfl, k, fun _ => ?_⟩
    rw [bytesOf_eq, bytesOf_eq, hv, ← weave_drop1 hl (by omega)]
    dsimp only
    rw [show z.start + n - z.start = n by omega, show z.zs - (z.start + n) = z.zs - z.start - n by omega]
  · rw [if_neg c1]
    by_cases c2 : z.start + n ≤ z.ze
    · rw [if_pos c2]
      obtain ⟨k, hv⟩ := cut_lo (z' := (⟨z.st, z.zs, z.zs, z.ze - (z.start + n - z.zs),
          z.en - (z.start + n - z.zs)⟩ : ZBuf)) hb rfl
          ⟨Nat.le_refl _, by dsimp only; omega, by dsimp only; omega⟩ h1 (by dsimp only; omega)
      refine ⟨_, _, rfl, k, fun _ => ?_⟩
      rw [bytesOf_eq, bytesOf_eq, hv, ← weave_drop2 hl (by omega) (by omega)]
      dsimp only
      rw [Nat.sub_self]
      congr 1; omega
    · rw [if_neg c2]
      by_cases c3 : z.start + n ≤ z.en
      · rw [if_pos c3]
        obtain ⟨k, hv⟩ := cut_lo (z' := (⟨z.st, z.zs + (z.start + n - z.ze),
            z.zs + (z.start + n - z.ze), z.zs + (z.start + n - z.ze),
            z.en - (z.ze - z.zs)⟩ : ZBuf)) hb rfl
            ⟨Nat.le_refl _, Nat.le_refl _, by dsimp only; omega⟩ (by dsimp only; omega) (by dsimp only; omega)
        refine ⟨_, _, rfl, k, fun _ => ?_⟩
        rw [bytesOf_eq, bytesOf_eq, hv, ← weave_drop3 hl (by omega)]
        dsimp only
        rw [Nat.sub_self, weave_zero]
        congr 1; omega
      · rw [if_neg c3]
        obtain ⟨m', z', e, k, hb', hw', hs, hn⟩ := release_ok hb hz
        refine ⟨m', z', e, k, fun hc => ?_⟩
        have hst : z.st ≠ none := by
          rcases hc with h | h
          · exact h
          · simp only [ZBuf.size] at h; omega
        rw [hs hst, List.drop_of_length_le (by rw [bytesOf_length hb hz, ZBuf.size]; omega)]
        rfl

theorem removeAtEnd_ok (hb : Base m (z.seg :: R)) (hz : ZOk z) (n : Nat) :
    ∃ m' z', removeAtEnd m z n = some (m', z') ∧ Keep m z R m' z' ∧
      ((z.st ≠ none ∨ n ≤ z.size) → bytesOf m' z' = (bytesOf m z).take (z.size - n)) := by
  have h1 := hz.h1; have h2 := hz.h2; have h3 := hz.h3
  have hl := header_le hb hz
  unfold removeAtEnd
  dsimp only
  by_cases c1 : n ≤ z.en - z.ze
  · rw [if_pos c1]
    obtain ⟨k, hv⟩ := cut_hi (z' := (⟨z.st, z.start, z.zs, z.ze, z.en - n⟩ : ZBuf)) hb rfl
      ⟨h1, h2, by dsimp only; omega⟩ rfl (by dsimp only; omega)
    refine ⟨_, _, rfl, k, fun _ => ?_⟩
    rw [bytesOf_eq, bytesOf_eq, hv, show z.size - n = (z.en - n - (z.ze - z.zs) - z.start) + (z.ze - z.zs) by
      simp only [ZBuf.size]; omega, ← weave_take1 hl (by omega)]
  · rw [if_neg c1]
    by_cases c2 : n ≤ z.en - z.zs
    · rw [if_pos c2]
      obtain ⟨k, hv⟩ := cut_hi (z' := (⟨z.st, z.start, z.zs, z.ze - (n - (z.en - z.ze)),
          z.ze - (n - (z.en - z.ze))⟩ : ZBuf)) hb rfl
          ⟨h1, by dsimp only; omega, Nat.le_refl _⟩ rfl (by dsimp only; omega)
      refine ⟨_, _, rfl, k, fun _ => ?_⟩
      rw [bytesOf_eq, bytesOf_eq, hv, show z.size - n = (z.zs - z.start) + (z.ze - (n - (z.en - z.ze)) - z.zs) by
        simp only [ZBuf.size]; omega, ← weave_take2 hl (by omega)]
      dsimp only
      rw [show z.ze - (n - (z.en - z.ze)) - (z.ze - (n - (z.en - z.ze)) - z.zs) - z.start = z.zs - z.start by omega]
    · rw [if_neg c2]
      by_cases c3 : n ≤ z.en - z.start
      · rw [if_pos c3]
        obtain ⟨k, hv⟩ := cut_hi (z' := (⟨z.st, z.start, z.zs - (n - (z.en - z.zs)),
            z.zs - (n - (z.en - z.zs)), z.zs - (n - (z.en - z.zs))⟩ : ZBuf)) hb rfl
            ⟨by dsimp only; omega, Nat.le_refl _, Nat.le_refl _⟩ rfl (by dsimp only; omega)
        refine ⟨_, _, rfl, k, fun _ => ?_⟩
        rw [bytesOf_eq, bytesOf_eq, hv, show z.size - n = z.zs - (n - (z.en - z.zs)) - z.start by
          simp only [ZBuf.size]; omega, ← weave_take3 hl (by omega)]
        dsimp only
        rw [Nat.sub_self, weave_zero, Nat.sub_zero]
      · rw [if_neg c3]
        obtain ⟨m', z', e, k, hb', hw', hs, hn⟩ := release_ok hb hz
        refine ⟨m', z', e, k, fun hc => ?_⟩
        have hst : z.st ≠ none := by
          rcases hc with h | h
          · exact h
          · simp only [ZBuf.size] at h; omega
        rw [hs hst, show z.size - n = 0 by simp only [ZBuf.size]; omega]
        rfl

/-- Removing keeps the storage pointer unless everything and more is removed. -/
theorem removeAtStart_st (n : Nat) (hn : n ≤ z.size) (hz : ZOk z) :
    ∃ z', removeAtStart m z n = some (m, z') ∧ z'.st = z.st := by
  have h1 := hz.h1; have h2 := hz.h2; have h3 := hz.h3
  simp only [ZBuf.size] at hn
  unfold removeAtStart
  dsimp only
  split
  · exact ⟨_, rfl, rfl⟩
  · split
    · exact ⟨_, rfl, rfl⟩
    · rw [if_pos (by omega)]; exact ⟨_, rfl, rfl⟩

end
end Verif.Zc
