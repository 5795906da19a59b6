import Verif.Packet.Props
import Verif.Buf.FamilyLemmas

/-! Headers and trailers that were just added, and who else has their bytes. -/
set_option linter.unusedSimpArgs false
set_option linter.unusedVariables false
namespace Verif.Buf

/-- After growing at the start under covered dirty ranges, nobody else has the added bytes. -/
theorem addStart_clear {s s' : State} (hb : Base s.mem s.bufs) {b : Sides} (hw : Wide b s.mem s.bufs) (hS : b.start = true)
    {i n : Nat} (hn : 0 < n) (h : s.step (.addStart i n) = some s') {a : Seg} (ha : s'.bufs[i]? = some a) {k : Nat} {c : Seg}
    (hk : s'.bufs[k]? = some c) (hki : k ≠ i) (hon : b.has c) (hst : c.st = a.st) : a.lo + n ≤ c.lo ∨ c.hi ≤ a.lo := by
  simp only [State.step] at h
  obtain ⟨b0, m0, b1, h1, h2, h3⟩ := on_some h
  subst h3
  have hp := (set_perm h1 b0).1
  obtain ⟨m', a', pre, e1, _, _, _, _, _, _, hw'⟩ := addAtStart_ok (base_perm hp hb) n
  rw [e1] at h2; cases h2
  have hi : i < s.bufs.length := (List.getElem?_eq_some_iff.mp h1).1
  have : b1 = a := by simpa [hi] using ha
  subst this
  rw [List.getElem?_set_ne (Ne.symm hki)] at hk
  exact (hw' b (wide_perm hp hw)).2 hn hS c (mem_erase hk hki) hon hst

theorem addEnd_clear {s s' : State} (hb : Base s.mem s.bufs) {b : Sides} (hw : Wide b s.mem s.bufs) (hS : b.stop = true)
    (hl : b.loose = false)
    {i n : Nat} (hn : 0 < n) (h : s.step (.addEnd i n) = some s') {a : Seg} (ha : s'.bufs[i]? = some a) {k : Nat} {c : Seg}
    (hk : s'.bufs[k]? = some c) (hki : k ≠ i) (hon : b.has c) (hst : c.st = a.st) : a.hi ≤ c.lo ∨ c.hi ≤ a.hi - n := by
  simp only [State.step] at h
  obtain ⟨b0, m0, b1, h1, h2, h3⟩ := on_some h
  subst h3
  have hp := (set_perm h1 b0).1
  obtain ⟨m', a', pre, e1, _, _, _, _, _, _, _, hw'⟩ := addAtEnd_ok (base_perm hp hb) n
  rw [e1] at h2; cases h2
  have hi : i < s.bufs.length := (List.getElem?_eq_some_iff.mp h1).1
  have : b1 = a := by simpa [hi] using ha
  subst this
  rw [List.getElem?_set_ne (Ne.symm hki)] at hk
  exact (hw' b (.inl hl) (wide_perm hp hw)).2 hn hS c (mem_erase hk hki) hon hst

/-- Writing through one buffer, seen by another one that has none of its bytes. -/
theorem write_apart {t t' : State} (hb : Base t.mem t.bufs) {j k off : Nat} {d : List Byte} {c f : Seg} (hjk : j ≠ k)
    (hj : t.bufs[j]? = some c) (hk : t.bufs[k]? = some f) (h : t.step (.write k off d) = some t')
    (hs : 0 < f.hi - f.lo → c.st = f.st → f.hi ≤ c.lo ∨ c.hi ≤ f.lo) :
    t'.bufs = t.bufs ∧ t'.bytes j = t.bytes j := by
  by_cases h0 : 0 < f.hi - f.lo
  · simp only [State.step, State.on, hk] at h
    by_cases hc : off + d.length ≤ f.hi - f.lo
    · rw [if_pos hc] at h
      obtain ⟨m2, f1, _, _, _, f2, _⟩ := fill_ok (base_perm (set_perm hk f).1 hb) (off := f.lo + off) (d := d)
        (by omega) (by omega)
      rw [f1] at h; cases h
      have hset : t.bufs.set k f = t.bufs := by
        apply List.ext_getElem?; intro a
        rw [List.getElem?_set]
        by_cases e : k = a
        · subst e; rw [if_pos rfl, hk, if_pos (List.getElem?_eq_some_iff.mp hk).1]
        · rw [if_neg e]
      refine ⟨hset, ?_⟩
      show (⟨m2, t.bufs.set k f⟩ : State).bytes j = _
      rw [hset, bytes_of (s := ⟨m2, t.bufs⟩) hj, bytes_of hj]
      refine f2 c (mem_erase hj hjk) fun e => ?_
      have := hs h0 e
      omega
    · rw [if_neg hc] at h; cases h
  · have := Verif.Packet.write_alias hb hj hk h (fun h => absurd h h0)
    rw [if_neg h0] at this
    exact ⟨this.1, this.2.2⟩

end Verif.Buf

namespace Verif.Packet

/-- Packet `k` has none of the bytes of the buffer `f`. -/
def Apart (s : PState) (k : Nat) (f : Buf.Seg) : Prop :=
  ∀ (b : Nat) (y : Body) (c : Buf.Seg), s.pkts[k]? = some (some b) → s.body b = some y → s.bufs.bufs[y.buf]? = some c →
    0 < f.hi - f.lo → c.st = f.st → f.hi ≤ c.lo ∨ c.hi ≤ f.lo

theorem writes_apart {k j : Nat} {f : Buf.Seg} (ws : List (Nat × List Byte)) : ∀ {s s' : PState}, PInv s s.pkts →
    k < s.pkts.length → s.bufs.bufs[j]? = some f → Apart s k f → s.run (writes j ws) = some s' →
    PInv s' s'.pkts ∧ s'.pkts = s.pkts ∧ Shows s' k s k ∧ ∀ w, W w s → W w s' := by
  induction ws with
  | nil => intro s s' v _ _ _ h; cases h; exact ⟨v, rfl, ⟨rfl, fun _ _ => rfl, fun _ _ => rfl⟩, fun _ h => h⟩
  | cons w ws ih =>
    intro s s' v hl hf ha h
    simp only [writes, List.map_cons, PState.run] at h
    split at h
    · cases h
    · rename_i s1 e
      have st := step_ok v e
      have hpl : ∀ w, W w s → W w s1 := fun x hx => (st.wide x rfl hx).1
      simp only [PState.step] at e
      split at e
      · rename_i hfr
        simp only [List.all_eq_true, targets_eq] at hfr
        obtain ⟨g1, g2, g3, g4, g5, g6, g7, g8⟩ := user_ok v e (fun j hj b x hx => free_ne v (hfr j hj) hx)
        have hj : s.free j = true := hfr j (by simp [Buf.Op.targets])
        have hq := List.getElem?_eq_getElem hl
        have hbufs : s1.bufs.bufs = s.bufs.bufs := (write_alias v.bb hf hf g5 (fun _ => ⟨rfl, Nat.le_refl _, Nat.le_refl _⟩)).1
        have sh : Shows s1 k s k := by
          refine shows_of (by rw [g2]; exact hq) hq ?_
          cases hp : s.pkts[k] with
          | none => rfl
          | some b =>
            rw [hp] at hq
            obtain ⟨y, hy⟩ := v.alive b (List.mem_of_getElem? hq)
            obtain ⟨c, hc⟩ := Buf.get_of_lt (v.range b y hy).1
            have hne : y.buf ≠ j := free_ne v hj hy
            have := (Buf.write_apart v.bb hne hc hf g5 (ha b y c hq hy hc)).2
            rw [view_some hy, view_some (by rw [g3]; exact hy)]
            simp [bodyView, this, g6, g7]
        obtain ⟨r1, r2, r3, r4⟩ := ih (s := s1) (s' := s') st.inv (by rw [g2]; exact hl) (by rw [hbufs]; exact hf)
          (by intro b y c h1 h2 h3; rw [g2] at h1; rw [g3] at h2; rw [hbufs] at h3; exact ha b y c h1 h2 h3) h
        exact ⟨r1, r2.trans g2, ⟨r3.1.trans sh.1, fun id off => (r3.2.1 id off).trans (sh.2.1 id off),
          fun id off => (r3.2.2 id off).trans (sh.2.2 id off)⟩, fun w hw => r4 w (hpl w hw)⟩
      · cases e

section
variable {s s1 s2 : PState} {i n k : Nat} {held : Bool} {ws : List (Nat × List Byte)}

theorem header_area (v : PInv s s.pkts) (w : Side) (hw : W w s) (hs : w.start = true) (hx : w.stop = false)
    (h : s.step (.addHeader i n held) = some s1) (hr : s1.run (writes (s1.bufs.bufs.length - 1) ws) = some s2)
    (hk : k < s.pkts.length) (hki : k ≠ i) :
    PInv s2 s2.pkts ∧ k < s2.pkts.length ∧ Shows s2 k s k ∧ W w s2 := by
  have hq := List.getElem?_eq_getElem hk
  obtain ⟨t1, t2, p0, b, x, e1, e2, e3, v2, hp, pr, own, oth, wd⟩ := addHeader_ok v h
  obtain ⟨q1, q2⟩ := oth k _ hq hki
  have sh := shows_of q1 hq q2
  obtain ⟨u1, u2, u3, _, u5, _⟩ := user_ok v2 e3 (by simp [Buf.Op.targets])
  obtain ⟨a, f, f1, f2, f3, f4, f5⟩ := fragment_seg v2.bb u5
  have hlast : s1.bufs.bufs[s1.bufs.bufs.length - 1]? = some f := by rw [f2]; simp
  have hap : Apart s1 k f := by
    intro c y g hc hy hg hpos hst
    have hn : 0 < n := by
      rcases Nat.eq_zero_or_pos n with e | e
      · rw [f5 e] at hpos; simp [Buf.Seg.null] at hpos
      · exact e
    obtain ⟨z1, z2, z3⟩ := f4 hn
    have hbc : b ≠ c := by
      intro e; subst e
      rw [hc] at q1
      exact pr.own (mem_rest (hq.trans q1.symm) hki)
    have hne := ((own.inv).inj b c x y own.body hy hbc).1
    rw [u3] at hy
    have hlt := (v2.range c y hy).1
    rw [f2, List.getElem?_append_left hlt] at hg
    obtain ⟨p1, _, _⟩ := act_parts e2
    have := Buf.addStart_clear pr.inv.bb (pr.wide w hw) (show w.on.start = true from hs) hn p1 f1 hg (Ne.symm hne)
      (Buf.has_all _ _) (by rw [hst, z1])
    omega
  obtain ⟨r1, r2, r3, r4⟩ := writes_apart ws (step_ok v h).inv (Tag.lt_of q1) hlast hap hr
  exact ⟨r1, by rw [r2]; exact Tag.lt_of q1, ⟨r3.1.trans sh.1, fun id off => (r3.2.1 id off).trans (sh.2.1 id off),
    fun id off => (r3.2.2 id off).trans (sh.2.2 id off)⟩, r4 w (wd w (by simp [hx]) hw)⟩

theorem trailer_area (v : PInv s s.pkts) (w : Side) (hw : W w s) (hs : w.stop = true) (hx : w.start = false)
    (h : s.step (.addTrailer i n held) = some s1) (hr : s1.run (writes (s1.bufs.bufs.length - 1) ws) = some s2)
    (hk : k < s.pkts.length) (hki : k ≠ i) :
    PInv s2 s2.pkts ∧ k < s2.pkts.length ∧ Shows s2 k s k ∧ W w s2 := by
  have hq := List.getElem?_eq_getElem hk
  obtain ⟨t1, t2, p0, b, x, e1, e2, e3, v2, hp, pr, own, oth, wd⟩ := addTrailer_ok v h
  obtain ⟨q1, q2⟩ := oth k _ hq hki
  have sh := shows_of q1 hq q2
  obtain ⟨u1, u2, u3, _, u5, _⟩ := user_ok v2 e3 (by simp [Buf.Op.targets])
  obtain ⟨a, f, f1, f2, f3, f4, f5⟩ := fragment_seg v2.bb u5
  rw [Buf.size_of f1] at f3 f4
  have hlast : s1.bufs.bufs[s1.bufs.bufs.length - 1]? = some f := by rw [f2]; simp
  have hap : Apart s1 k f := by
    intro c y g hc hy hg hpos hst
    have hn : 0 < n := by
      rcases Nat.eq_zero_or_pos n with e | e
      · rw [f5 e] at hpos; simp [Buf.Seg.null] at hpos
      · exact e
    obtain ⟨z1, z2, z3⟩ := f4 hn
    have hbc : b ≠ c := by
      intro e; subst e
      rw [hc] at q1
      exact pr.own (mem_rest (hq.trans q1.symm) hki)
    have hne := ((own.inv).inj b c x y own.body hy hbc).1
    rw [u3] at hy
    have hlt := (v2.range c y hy).1
    rw [f2, List.getElem?_append_left hlt] at hg
    obtain ⟨p1, _, _⟩ := act_parts e2
    have := Buf.addEnd_clear pr.inv.bb (pr.wide w hw) (show w.on.stop = true from hs) rfl hn p1 f1 hg (Ne.symm hne)
      (Buf.has_all _ _) (by rw [hst, z1])
    omega
  obtain ⟨r1, r2, r3, r4⟩ := writes_apart ws (step_ok v h).inv (Tag.lt_of q1) hlast hap hr
  exact ⟨r1, by rw [r2]; exact Tag.lt_of q1, ⟨r3.1.trans sh.1, fun id off => (r3.2.1 id off).trans (sh.2.1 id off),
    fun id off => (r3.2.2 id off).trans (sh.2.2 id off)⟩, r4 w (wd w (by simp [hx]) hw)⟩

end

end Verif.Packet
