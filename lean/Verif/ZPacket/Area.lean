import Verif.ZPacket.Props
import Verif.Zc.FamilyLemmas

/-! Headers and trailers that were just added, and who else has their bytes. -/
set_option linter.unusedSimpArgs false
set_option linter.unusedVariables false
namespace Verif.Zc
open Verif Verif.Buf

/-- After growing at the start under covered dirty ranges, nobody else has the added bytes. -/
theorem addStart_clear {s s' : ZState} (hb : Inv s) (hw : Wide (Cover.all false) s.mem s.segs)
    {i n : Nat} (hn : 0 < n) (h : s.step (.addStart i n) = some s') {a : ZBuf} (ha : s'.bufs[i]? = some a) {k : Nat} {c : ZBuf}
    (hk : s'.bufs[k]? = some c) (hki : k ≠ i) (hst : c.st = a.st) : a.start + n ≤ c.seg.lo ∨ c.seg.hi ≤ a.start := by
  simp only [ZState.step] at h
  obtain ⟨b0, m0, b1, h1, h2, h3⟩ := on_some h
  subst h3
  obtain ⟨q1, q2, q3⟩ := inv_head hb h1
  obtain ⟨g, e, ok, hp, hw'⟩ := growStart_ok q1 (size := n) hn
  have hi : i < s.bufs.length := (List.getElem?_eq_some_iff.mp h1).1
  have : b1 = a := by simpa [hi] using ha
  subst this
  unfold addAtStart at h2
  rw [if_neg (by omega), e] at h2
  cases h2
  rw [List.getElem?_set_ne (Ne.symm hki)] at hk
  exact (hw' _ (q3 _ hw)).2 rfl c.seg (mem_erase (seg_get hk) hki) (has_all _ _) hst

theorem addEnd_clear {s s' : ZState} (hb : Inv s) (hw : Wide (Cover.all false) s.mem s.segs)
    {i n : Nat} (hn : 0 < n) (h : s.step (.addEnd i n) = some s') {a : ZBuf} (ha : s'.bufs[i]? = some a) {k : Nat} {c : ZBuf}
    (hk : s'.bufs[k]? = some c) (hki : k ≠ i) (hst : c.st = a.st) : a.seg.hi ≤ c.seg.lo ∨ c.seg.hi ≤ a.seg.hi - n := by
  simp only [ZState.step] at h
  obtain ⟨b0, m0, b1, h1, h2, h3⟩ := on_some h
  subst h3
  obtain ⟨q1, q2, q3⟩ := inv_head hb h1
  obtain ⟨g, e, ok, hp, hw'⟩ := growEnd_ok q1 (size := n) hn
  have hi : i < s.bufs.length := (List.getElem?_eq_some_iff.mp h1).1
  have : b1 = a := by simpa [hi] using ha
  subst this
  unfold addAtEnd at h2
  rw [if_neg (by omega), e] at h2
  cases h2
  rw [List.getElem?_set_ne (Ne.symm hki)] at hk
  have := (hw' _ (.inl rfl) (q3 _ hw)).2 rfl c.seg (mem_erase (seg_get hk) hki) (has_all _ _) hst
  have e1 := q2.h1; have e2 := q2.h2; have e3 := q2.h3
  have hs := ok.len
  simp only [ZBuf.seg] at this hs ⊢
  omega

/-- Writing through one buffer, seen by another one that has none of its stored bytes. -/
theorem write_apart {t t' : ZState} (hb : Inv t) {j k off : Nat} {d : List Byte} {c f : ZBuf} (hjk : j ≠ k)
    (hj : t.bufs[j]? = some c) (hk : t.bufs[k]? = some f) (h : t.step (.write k off d) = some t')
    (hs : f.seg.lo < f.seg.hi → c.st = f.st → f.seg.hi ≤ c.seg.lo ∨ c.seg.hi ≤ f.seg.lo) :
    t'.bufs = t.bufs ∧ t'.bytes j = t.bytes j := by
  simp only [ZState.step] at h
  obtain ⟨f', m', f2, h1, h2, rfl⟩ := on_some h
  rw [hk] at h1; cases h1
  obtain ⟨q1, q2, _⟩ := inv_head hb hk
  have e1 := q2.h1; have e2 := q2.h2; have e3 := q2.h3
  unfold writeAt at h2
  dsimp only at h2
  by_cases hw : writable f (f.start + off) d.length
  · rw [if_pos hw] at h2
    obtain ⟨w1, w2, w3⟩ := hw
    obtain ⟨m2, f1, _, _, _, f3, _⟩ := fill_ok q1
      (off := if f.start + off < f.zs then f.start + off else f.start + off - (f.ze - f.zs)) (d := d)
      (by simp only [ZBuf.seg]; split <;> omega) (by simp only [ZBuf.seg]; split <;> omega)
    rw [f1] at h2; cases h2
    have hset : t.bufs.set k f = t.bufs := by
      apply List.ext_getElem?; intro a
      rw [List.getElem?_set]
      by_cases e : k = a
      · subst e; rw [if_pos rfl, hk, if_pos (List.getElem?_eq_some_iff.mp hk).1]
      · rw [if_neg e]
    refine ⟨hset, ?_⟩
    show (⟨m', t.bufs.set k f⟩ : ZState).bytes j = _
    rw [hset, bytes_of (s := ⟨m', t.bufs⟩) hj, bytes_of hj]
    refine bytesOf_congr ?_
    by_cases hd : d = []
    · subst hd
      clear f3
      generalize (if f.start + off < f.zs then f.start + off else f.start + off - (f.ze - f.zs)) = pos at f1
      cases hst : f.seg.st with
      | none => simp [Mem.fill, hst] at f1; rw [f1]
      | some id =>
        simp only [Mem.fill, hst, Mem.write] at f1
        cases hx : t.mem.mem id with
        | none => rw [hx] at f1; cases f1
        | some y =>
          rw [hx] at f1; dsimp only at f1
          split at f1
          · cases f1
            exact view_put hx c.seg (fun _ a _ _ => wr_out (by simp; omega))
          · cases f1
    · have hd' := List.length_pos_iff.mpr hd
      refine f3 _ (mem_erase (seg_get hj) hjk) fun e => ?_
      have := hs (by simp only [ZBuf.seg]; omega) e
      simp only [ZBuf.seg] at this ⊢
      split <;> omega
  · rw [if_neg hw] at h2; cases h2

end Verif.Zc

namespace Verif.ZPacket

/-- Packet `k` has none of the bytes of the buffer `f`. -/
def Apart (s : PState) (k : Nat) (f : Zc.ZBuf) : Prop :=
  ∀ (b : Nat) (y : Body) (c : Zc.ZBuf), s.pkts[k]? = some (some b) → s.body b = some y → s.bufs.bufs[y.buf]? = some c →
    f.seg.lo < f.seg.hi → c.st = f.st → f.seg.hi ≤ c.seg.lo ∨ c.seg.hi ≤ f.seg.lo

theorem writes_apart {k j : Nat} {f : Zc.ZBuf} (ws : List (Nat × List Byte)) : ∀ {s s' : PState}, PInv s s.pkts →
    k < s.pkts.length → s.bufs.bufs[j]? = some f → Apart s k f → s.run (writes j ws) = some s' →
    PInv s' s'.pkts ∧ s'.pkts = s.pkts ∧ Shows s' k s k ∧ (W s → W s') := by
  induction ws with
  | nil => intro s s' v _ _ _ h; cases h; exact ⟨v, rfl, ⟨rfl, fun _ _ => rfl, fun _ _ => rfl⟩, fun h => h⟩
  | cons w ws ih =>
    intro s s' v hl hf ha h
    simp only [writes, List.map_cons, PState.run] at h
    split at h
    · cases h
    · rename_i s1 e
      have st := step_ok v e
      have hpl : W s → W s1 := fun hx => (st.wide rfl hx).1
      simp only [PState.step] at e
      split at e
      · rename_i hfr
        simp only [List.all_eq_true, targets_eq] at hfr
        obtain ⟨g1, g2, g3, g4, g5, g6, g7, g8⟩ := user_ok v e (fun j hj b x hx => free_ne v (hfr j hj) hx)
        have hj : s.free j = true := hfr j (by simp [Zc.ZOp.targets])
        have hq := List.getElem?_eq_getElem hl
        have hbufs : s1.bufs.bufs = s.bufs.bufs := by
          have g5' := g5
          simp only [Zc.ZState.step] at g5'
          obtain ⟨b0, m0, b1, z1, z2, z3⟩ := Zc.on_some g5'
          rw [z3]
          have : b1 = b0 := by
            unfold Zc.writeAt at z2
            dsimp only at z2
            split at z2
            · cases hm : s.bufs.mem.fill b0.seg (if b0.start + w.1 < b0.zs then b0.start + w.1 else b0.start + w.1 - (b0.ze - b0.zs)) w.2 with
              | none => rw [hm] at z2; cases z2
              | some m2 => rw [hm] at z2; cases z2; rfl
            · cases z2
          subst this
          apply List.ext_getElem?; intro a
          rw [List.getElem?_set]
          by_cases e : j = a
          · subst e; rw [if_pos rfl, z1, if_pos (Tag.lt_of z1)]
          · rw [if_neg e]
        have sh : Shows s1 k s k := by
          refine shows_of (by rw [g2]; exact hq) hq ?_
          cases hp : s.pkts[k] with
          | none => rfl
          | some b =>
            rw [hp] at hq
            obtain ⟨y, hy⟩ := v.alive b (List.mem_of_getElem? hq)
            obtain ⟨c, hc⟩ := Zc.get_of_lt (v.range b y hy).1
            have hne : y.buf ≠ j := free_ne v hj hy
            have := (Zc.write_apart v.bb hne hc hf g5 (ha b y c hq hy hc)).2
            rw [view_some hy, view_some (by rw [g3]; exact hy)]
            simp [bodyView, this, g6, g7]
        obtain ⟨r1, r2, r3, r4⟩ := ih (s := s1) (s' := s') st.inv (by rw [g2]; exact hl) (by rw [hbufs]; exact hf)
          (by intro b y c h1 h2 h3; rw [g2] at h1; rw [g3] at h2; rw [hbufs] at h3; exact ha b y c h1 h2 h3) h
        exact ⟨r1, r2.trans g2, ⟨r3.1.trans sh.1, fun id off => (r3.2.1 id off).trans (sh.2.1 id off),
          fun id off => (r3.2.2 id off).trans (sh.2.2 id off)⟩, fun hw => r4 (hpl hw)⟩
      · cases e

section
variable {s s1 s2 : PState} {i n k : Nat} {held : Bool} {ws : List (Nat × List Byte)}

theorem header_area (v : PInv s s.pkts) (hw : W s)
    (h : s.step (.addHeader i n held) = some s1) (hr : s1.run (writes (s1.bufs.bufs.length - 1) ws) = some s2)
    (hk : k < s.pkts.length) (hki : k ≠ i) :
    PInv s2 s2.pkts ∧ k < s2.pkts.length ∧ Shows s2 k s k ∧ W s2 := by
  have hq := List.getElem?_eq_getElem hk
  obtain ⟨t1, t2, p0, b, x, e1, e2, e3, v2, hp, pr, own, oth, wd⟩ := addHeader_ok v h
  obtain ⟨q1, q2⟩ := oth k _ hq hki
  have sh := shows_of q1 hq q2
  obtain ⟨u1, u2, u3, _, u5, _⟩ := user_ok v2 e3 (by simp [Zc.ZOp.targets])
  obtain ⟨p1, _, _⟩ := act_parts e2
  obtain ⟨a, f1, f3⟩ := addStart_front pr.inv.bb p1
  obtain ⟨f, f2, f4⟩ := fragment_front v2.bb f1 f3 u5
  have hlast : s1.bufs.bufs[s1.bufs.bufs.length - 1]? = some f := by rw [f2]; simp
  have hap : Apart s1 k f := by
    intro c y g hc hy hg hpos hst
    obtain ⟨z1, z2, z3, z4, z5⟩ := f4
    have hbc : b ≠ c := by
      intro e; subst e
      rw [hc] at q1
      exact pr.own (mem_rest (hq.trans q1.symm) hki)
    have hne := ((own.inv).inj b c x y own.body hy hbc).1
    rw [u3] at hy
    have hlt := (v2.range c y hy).1
    rw [f2, List.getElem?_append_left hlt] at hg
    have hz := v2.bb.ok a (List.mem_of_getElem? f1)
    have l1 := hz.h1; have l2 := hz.h2; have l3 := hz.h3
    have hn : 0 < n := by simp only [Zc.ZBuf.seg] at hpos; omega
    have := Zc.addStart_clear pr.inv.bb (pr.wide hw) hn p1 f1 hg (Ne.symm hne) (by rw [hst, z1])
    simp only [Zc.ZBuf.seg] at this ⊢
    omega
  obtain ⟨r1, r2, r3, r4⟩ := writes_apart ws (step_ok v h).inv (Tag.lt_of q1) hlast hap hr
  exact ⟨r1, by rw [r2]; exact Tag.lt_of q1, ⟨r3.1.trans sh.1, fun id off => (r3.2.1 id off).trans (sh.2.1 id off),
    fun id off => (r3.2.2 id off).trans (sh.2.2 id off)⟩, r4 (wd hw)⟩

theorem trailer_area (v : PInv s s.pkts) (hw : W s)
    (h : s.step (.addTrailer i n held) = some s1) (hr : s1.run (writes (s1.bufs.bufs.length - 1) ws) = some s2)
    (hk : k < s.pkts.length) (hki : k ≠ i) :
    PInv s2 s2.pkts ∧ k < s2.pkts.length ∧ Shows s2 k s k ∧ W s2 := by
  have hq := List.getElem?_eq_getElem hk
  obtain ⟨t1, t2, p0, b, x, e1, e2, e3, v2, hp, pr, own, oth, wd⟩ := addTrailer_ok v h
  obtain ⟨q1, q2⟩ := oth k _ hq hki
  have sh := shows_of q1 hq q2
  obtain ⟨u1, u2, u3, _, u5, _⟩ := user_ok v2 e3 (by simp [Zc.ZOp.targets])
  obtain ⟨p1, _, _⟩ := act_parts e2
  obtain ⟨a, f1, f3⟩ := addEnd_back pr.inv.bb p1
  obtain ⟨f, f2, f4⟩ := fragment_back v2.bb f1 f3 (by rw [← Zc.size_of f1]; exact u5)
  have hlast : s1.bufs.bufs[s1.bufs.bufs.length - 1]? = some f := by rw [f2]; simp
  have hap : Apart s1 k f := by
    intro c y g hc hy hg hpos hst
    obtain ⟨z1, z2, z3, z4, z5⟩ := f4
    have hbc : b ≠ c := by
      intro e; subst e
      rw [hc] at q1
      exact pr.own (mem_rest (hq.trans q1.symm) hki)
    have hne := ((own.inv).inj b c x y own.body hy hbc).1
    rw [u3] at hy
    have hlt := (v2.range c y hy).1
    rw [f2, List.getElem?_append_left hlt] at hg
    have hz := v2.bb.ok a (List.mem_of_getElem? f1)
    have l1 := hz.h1; have l2 := hz.h2; have l3 := hz.h3
    have hn : 0 < n := by simp only [Zc.ZBuf.seg] at hpos; omega
    have := Zc.addEnd_clear pr.inv.bb (pr.wide hw) hn p1 f1 hg (Ne.symm hne) (by rw [hst, z1])
    simp only [Zc.ZBuf.seg, Zc.ZBuf.size] at this z5 ⊢
    omega
  obtain ⟨r1, r2, r3, r4⟩ := writes_apart ws (step_ok v h).inv (Tag.lt_of q1) hlast hap hr
  exact ⟨r1, by rw [r2]; exact Tag.lt_of q1, ⟨r3.1.trans sh.1, fun id off => (r3.2.1 id off).trans (sh.2.1 id off),
    fun id off => (r3.2.2 id off).trans (sh.2.2 id off)⟩, r4 (wd hw)⟩

end

end Verif.ZPacket
