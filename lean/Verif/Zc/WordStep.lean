import Verif.Zc.Word
import Verif.Zc.Props
import Verif.Buf.WordStep

/-! The operations on `ZcBuffer` in 64-bit words: single steps (helper lemmas for C139). -/
set_option linter.unusedSimpArgs false
set_option linter.unusedVariables false
namespace Verif.Zc
open Verif Verif.Buf

/-- `GetCapacity()` (`zc-buffer.h:561-564`). -/
def ZState.cap (s : ZState) (i : Nat) : Nat :=
  match s.bufs[i]? with
  | none => 0
  | some z => match z.st with
    | none => 0
    | some id => match s.mem.mem id with
      | none => 0
      | some x => x.cap

/-- Whether the sizes of an operation stay within what `size_t` and a storage can hold. -/
def ZOp.fits (s : ZState) : ZOp → Prop
  | .new a z e => 39 + (a + e) < 2 ^ 64 ∧ a + z < 2 ^ 64
  | .newFrom d => 39 + d.length < 2 ^ 64
  | .addStart i n | .addEnd i n => 39 + (s.cap i + s.size i + n) < 2 ^ 64
  | .addStartBytes i d | .addEndBytes i d => 39 + (s.cap i + s.size i + d.length) < 2 ^ 64
  | .addStartBuf i j | .addEndBuf i j => 39 + (s.cap i + s.size i + s.size j) < 2 ^ 64
  | .removeStart i n => n ≤ s.size i ∨ s.cap i + n < 2 ^ 64
  | .real j => 39 + s.size j < 2 ^ 64
  | .realize i => 39 + s.size i < 2 ^ 64
  | _ => True

/-- Every operation of a history fits in the state in which it is performed. -/
def ZState.Fits (s : ZState) : List ZOp → Prop
  | [] => True
  | o :: os => o.fits s ∧ ∀ s1, s.step o = some s1 → s1.Fits os

instance (s : ZState) (o : ZOp) : Decidable (o.fits s) := by unfold ZOp.fits; split <;> infer_instance

instance decFits : ∀ (hist : List ZOp) (s : ZState), Decidable (s.Fits hist)
  | [], _ => .isTrue trivial
  | o :: os, s =>
    have : Decidable (∀ s1, s.step o = some s1 → s1.Fits os) :=
      match h : s.step o with
      | none => .isTrue fun _ h' => nomatch h'
      | some s1 => match decFits os s1 with
        | .isTrue h1 => .isTrue fun s2 h' => by cases h'; exact h1
        | .isFalse h1 => .isFalse fun h2 => h1 (h2 s1 rfl)
    inferInstanceAs (Decidable (o.fits s ∧ ∀ s1, s.step o = some s1 → s1.Fits os))

/-- What is known about every buffer. -/
structure Good (m : Mem) (z : ZBuf) : Prop where
  ok : ZOk z
  held : Held m z.seg
  lt : z.en < 2 ^ 64

section
variable {m : Mem} {z : ZBuf}

theorem wsize_eq (h : Good m z) : z.wsize = z.size := by
  obtain ⟨⟨h1, h2, h3⟩, _, h4⟩ := h
  exact wsub_eq (by omega) h4

theorem seg_len (h : ZOk z) : z.seg.hi - z.seg.lo = (z.zs - z.start) + (z.en - z.ze) := by
  obtain ⟨h1, h2, h3⟩ := h
  simp only [ZBuf.seg]; omega

theorem wstored_eq (h : Good m z) : z.wstored = z.seg.hi - z.seg.lo := by
  rw [seg_len h.ok]
  obtain ⟨⟨h1, h2, h3⟩, _, h4⟩ := h
  unfold ZBuf.wstored
  rw [wsub_eq h1 (by omega), wsub_eq h3 h4, wadd_eq (by omega)]

theorem waddAtStart_eq (h : Good m z) (hc : Caps m) {n : Nat} (hn : 39 + (z.size + n) < 2 ^ 64) :
    waddAtStart m z n = addAtStart m z n ∧ ∀ r, addAtStart m z n = some r → r.2.en < 2 ^ 64 := by
  have hs := wstored_eq h
  have hl := seg_len h.ok
  obtain ⟨⟨h1, h2, h3⟩, hh, h4⟩ := h
  unfold waddAtStart addAtStart
  simp only [ZBuf.size] at hn
  by_cases h0 : n = 0
  · simp only [if_pos h0]
    exact ⟨trivial, fun r e => by cases e; exact h4⟩
  · simp only [if_neg h0]
    have e0 : wgrowStart m z.st z.start z.wstored n = (growStart m z.seg n).map Grown.w := by
      rw [hs]
      exact wgrowStart_eq (s := z.seg) hh hc (by omega)
    rw [e0]
    cases e : growStart m z.seg n with
    | none => exact ⟨rfl, fun r e => by cases e⟩
    | some g =>
      obtain ⟨r1, r2⟩ := growStart_hi hh.1 e
      have r2 : g.pos = n ∨ g.pos = z.start := r2
      simp only [Option.map_some, Grown.w]
      rw [wadd_shift h1 (by omega) (by omega), wadd_shift (hi := z.ze) (by omega) (by omega) (by omega),
        wadd_shift (hi := z.en) (by omega) (by omega) (by omega)]
      exact ⟨rfl, fun r e => by cases e; simp only; omega⟩

theorem waddAtEnd_eq (h : Good m z) (hc : Caps m) {n : Nat} (hn : 39 + (z.size + n) < 2 ^ 64)
    (hk : ∀ id x, z.st = some id → m.mem id = some x → x.cap + z.size + n < 2 ^ 64) :
    waddAtEnd m z n = addAtEnd m z n ∧ ∀ r, addAtEnd m z n = some r → r.2.en < 2 ^ 64 := by
  have hs := wstored_eq h
  have hl := seg_len h.ok
  obtain ⟨⟨h1, h2, h3⟩, hh, h4⟩ := h
  unfold waddAtEnd addAtEnd
  simp only [ZBuf.size] at hn hk
  by_cases h0 : n = 0
  · simp only [if_pos h0]
    exact ⟨trivial, fun r e => by cases e; exact h4⟩
  · simp only [if_neg h0]
    have e0 : wgrowEnd m z.st z.start z.wstored n = (growEnd m z.seg n).map Grown.w := by
      rw [hs]
      exact wgrowEnd_eq (s := z.seg) hh hc (by omega)
    rw [e0]
    cases e : growEnd m z.seg n with
    | none => exact ⟨rfl, fun r e => by cases e⟩
    | some g =>
      obtain ⟨r1, r2⟩ := growEnd_hi hh e
      have hp : g.pos + (z.en - z.start) + n < 2 ^ 64 := by
        rcases r2 with r2 | ⟨id, x, ex, ei, hx⟩
        · omega
        · have := hk id x ei ex; omega
      simp only [Option.map_some, Grown.w]
      rw [wadd_shift h1 (by omega) (by omega), wadd_shift (hi := z.ze) (by omega) (by omega) (by omega),
        wadd_shift' (hi := z.en) (by omega) (by omega) (by omega)]
      exact ⟨rfl, fun r e => by cases e; simp only; omega⟩

theorem caps_waddAtStart {n : Nat} {r : Mem × ZBuf} (h : Caps m) (e : waddAtStart m z n = some r) : Caps r.1 := by
  unfold waddAtStart at e
  split at e
  · cases e; exact h
  · rw [Option.map_eq_some_iff] at e
    obtain ⟨g, e, rfl⟩ := e
    exact caps_wgrowStart h e

theorem caps_waddAtEnd {n : Nat} {r : Mem × ZBuf} (h : Caps m) (e : waddAtEnd m z n = some r) : Caps r.1 := by
  unfold waddAtEnd at e
  split at e
  · cases e; exact h
  · rw [Option.map_eq_some_iff] at e
    obtain ⟨g, e, rfl⟩ := e
    exact caps_wgrowEnd h e

theorem addAtEnd_room {n : Nat} {r : Mem × ZBuf} (h : ZOk z) (e : addAtEnd m z n = some r) :
    n ≤ r.2.en - (r.2.ze - r.2.zs) := by
  obtain ⟨h1, h2, h3⟩ := h
  unfold addAtEnd at e
  split at e
  · omega
  · rw [Option.map_eq_some_iff] at e
    obtain ⟨g, e, rfl⟩ := e
    dsimp only
    omega

theorem caps_zrelease {r : Mem × ZBuf} (h : Caps m) (e : release m z = some r) : Caps r.1 ∧ r.2.en ≤ z.en := by
  unfold release at e
  split at e
  · cases e; exact ⟨h, Nat.le_refl _⟩
  · rw [Option.map_eq_some_iff] at e
    obtain ⟨g, e, rfl⟩ := e
    exact ⟨caps_drop h e, by simp [ZBuf.null]⟩

theorem wcopyInto_eq (h : Good m z) (m' : Mem) (dst off n : Nat) : wcopyInto m' z dst off n = copyInto m' z dst off n := by
  have hs := wstored_eq h
  have hl := seg_len h.ok
  obtain ⟨⟨h1, h2, h3⟩, hh, h4⟩ := h
  unfold wcopyInto copyInto
  rw [wsub_eq h1 (by omega), wsub_eq h2 (by omega), wsub_eq h3 h4]
  cases z.st with
  | none => rfl
  | some id =>
    dsimp only
    by_cases hz : z.zs = z.ze
    · simp only [if_pos hz]
      rw [hs, hl, show z.zs - z.start + (z.en - z.ze) = z.en - z.start by omega]
      cases m'.read id z.start (min (z.en - z.start) n) <;> rfl
    · simp only [if_neg hz]
      cases m'.read id z.start (min n (z.zs - z.start)) with
      | none => rfl
      | some d1 =>
        dsimp only
        cases m'.write dst off d1 with
        | none => rfl
        | some m1 =>
          dsimp only
          cases m1.write dst (off + min n (z.zs - z.start))
            (List.replicate (min (n - min n (z.zs - z.start)) (z.ze - z.zs)) 0) with
          | none => rfl
          | some m2 =>
            dsimp only
            cases m2.read id z.zs (min (n - min n (z.zs - z.start) - min (n - min n (z.zs - z.start)) (z.ze - z.zs))
              (z.en - z.ze)) <;> rfl

theorem caps_copyInto {m' : Mem} {dst off n : Nat} (hc : Caps m) (e : copyInto m z dst off n = some m') : Caps m' := by
  unfold copyInto at e
  split at e
  · cases e; exact hc
  · split at e
    · split at e
      · cases e
      · exact caps_write hc e
    · dsimp only at e
      split at e
      · cases e
      · split at e
        · cases e
        · rename_i e1
          split at e
          · cases e
          · rename_i e2
            split at e
            · cases e
            · exact caps_write (caps_write (caps_write hc e1) e2) e

theorem wremoveAtStart_eq (h : Good m z) {n : Nat} (hn : z.start + n < 2 ^ 64) :
    wremoveAtStart m z n = removeAtStart m z n := by
  obtain ⟨⟨h1, h2, h3⟩, hh, h4⟩ := h
  unfold wremoveAtStart removeAtStart
  rw [wadd_eq hn]
  dsimp only
  by_cases c1 : z.start + n ≤ z.zs
  · simp only [if_pos c1]
  · simp only [if_neg c1]
    by_cases c2 : z.start + n ≤ z.ze
    · simp only [if_pos c2]
      rw [wsub_eq (a := z.start + n) (b := z.zs) (by omega) (by omega), wsub_eq (a := z.ze) (by omega) (by omega),
        wsub_eq (a := z.en) (by omega) (by omega)]
    · simp only [if_neg c2]
      by_cases c3 : z.start + n ≤ z.en
      · simp only [if_pos c3]
        rw [wsub_eq (a := z.start + n) (b := z.ze) (by omega) (by omega), wsub_eq h2 (by omega),
          wsub_eq (a := z.en) (by omega) (by omega), wadd_eq (a := z.zs) (by omega)]
      · simp only [if_neg c3]

theorem removeAtStart_le {n : Nat} {r : Mem × ZBuf} (hc : Caps m) (e : removeAtStart m z n = some r) :
    Caps r.1 ∧ r.2.en ≤ z.en := by
  unfold removeAtStart at e
  dsimp only at e
  split at e
  · cases e; exact ⟨hc, Nat.le_refl _⟩
  · split at e
    · cases e; exact ⟨hc, Nat.sub_le _ _⟩
    · split at e
      · cases e; exact ⟨hc, Nat.sub_le _ _⟩
      · exact caps_zrelease hc e

theorem wremoveAtEnd_eq (h : ZOk z) (h4 : z.en < 2 ^ 64) (n : Nat) : wremoveAtEnd m z n = removeAtEnd m z n := by
  obtain ⟨h1, h2, h3⟩ := h
  unfold wremoveAtEnd removeAtEnd
  rw [wsub_eq h3 h4, wsub_eq (a := z.en) (b := z.zs) (by omega) h4, wsub_eq (a := z.en) (b := z.start) (by omega) h4]
  by_cases c1 : n ≤ z.en - z.ze
  · simp only [if_pos c1]; rw [wsub_eq (by omega) h4]
  · simp only [if_neg c1]
    by_cases c2 : n ≤ z.en - z.zs
    · simp only [if_pos c2]
      rw [wsub_eq (a := n) (by omega) (by omega), wsub_eq (a := z.ze) (by omega) (by omega)]
    · simp only [if_neg c2]
      by_cases c3 : n ≤ z.en - z.start
      · simp only [if_pos c3]
        rw [wsub_eq (a := n) (by omega) (by omega), wsub_eq (a := z.zs) (by omega) (by omega)]
      · simp only [if_neg c3]

theorem removeAtEnd_le {n : Nat} {r : Mem × ZBuf} (h : ZOk z) (hc : Caps m) (e : removeAtEnd m z n = some r) :
    Caps r.1 ∧ r.2.en ≤ z.en := by
  obtain ⟨h1, h2, h3⟩ := h
  unfold removeAtEnd at e
  split at e
  · cases e; exact ⟨hc, Nat.sub_le _ _⟩
  · split at e
    · cases e; exact ⟨hc, by simp only; omega⟩
    · split at e
      · cases e; exact ⟨hc, by simp only; omega⟩
      · exact caps_zrelease hc e

theorem removeAtStart_zok {n : Nat} {r : Mem × ZBuf} (h : ZOk z) (e : removeAtStart m z n = some r) : ZOk r.2 := by
  obtain ⟨h1, h2, h3⟩ := h
  unfold removeAtStart at e
  dsimp only at e
  split at e
  · cases e; exact ⟨by assumption, h2, h3⟩
  · split at e
    · cases e; exact ⟨by simp only; omega, by simp only; omega, by simp only; omega⟩
    · split at e
      · cases e; exact ⟨by simp only; omega, by simp only; omega, by simp only; omega⟩
      · unfold release at e
        split at e
        · cases e; exact ⟨h1, h2, h3⟩
        · rw [Option.map_eq_some_iff] at e
          obtain ⟨g, e, rfl⟩ := e
          exact zok_null

theorem wmakeFragment_eq (h : Good m z) (hc : Caps m) (a n : Nat) : wmakeFragment m z a n = makeFragment m z a n ∧
    ∀ r, makeFragment m z a n = some r → Caps r.1 ∧ r.2.en ≤ z.en := by
  have hz := wsize_eq h
  have hok := h.ok
  have h4 := h.lt
  obtain ⟨h1, h2, h3⟩ := h.ok
  unfold wmakeFragment makeFragment
  have hS : z.size = z.en - z.start := rfl
  rw [hz]
  by_cases c1 : a ≤ z.size
  · rw [wsub_eq c1 (by omega)]
    by_cases c2 : n ≤ z.size - a
    · simp only [c1, c2, and_self, if_true]
      rw [wadd_eq (a := a) (b := n) (by omega), wsub_eq (by omega) (by omega)]
      cases e1 : m.acquire z.seg with
      | none => exact ⟨rfl, fun r e => by cases e⟩
      | some m1 =>
        have hc1 := caps_acquire hc e1
        dsimp only
        have hg : wremoveAtStart m1 z a = removeAtStart m1 z a := by
          have h' : ∀ q : Mem, Held q z.seg → wremoveAtStart q z a = removeAtStart q z a := fun q hq =>
            wremoveAtStart_eq ⟨hok, hq, h4⟩ (by omega)
          refine h' m1 ⟨h.held.1, h.held.2.1, ?_⟩
          intro id x es ex
          have es' : z.st = some id := es
          simp only [Mem.acquire, es, Mem.addRef] at e1
          cases e0 : m.mem id with
          | none => rw [e0] at e1; cases e1
          | some y =>
            rw [e0] at e1; cases e1
            simp only [put_mem, if_true, Option.some.injEq] at ex
            subst ex
            exact h.held.2.2 id y es e0
        rw [hg]
        cases e2 : removeAtStart m1 z a with
        | none => exact ⟨rfl, fun r e => by cases e⟩
        | some q =>
          obtain ⟨m2, f⟩ := q
          have hf := removeAtStart_le hc1 e2
          have hfo := removeAtStart_zok hok e2
          dsimp only at hf hfo ⊢
          rw [wremoveAtEnd_eq hfo (by omega)]
          refine ⟨rfl, fun r e => ?_⟩
          have := removeAtEnd_le hfo hf.1 e
          exact ⟨this.1, by omega⟩
    · simp only [c2, and_false, if_false]
      exact ⟨trivial, fun r e => by cases e⟩
  · simp only [c1, false_and, if_false]
    exact ⟨trivial, fun r e => by cases e⟩

theorem wmakeReal_eq (h : Good m z) (hc : Caps m) (hn : 39 + z.size < 2 ^ 64) : wmakeReal m z = makeReal m z ∧
    ∀ r, makeReal m z = some r → Caps r.1 ∧ r.2.en ≤ z.en := by
  have h4 := h.lt
  obtain ⟨h1, h2, h3⟩ := h.ok
  simp only [ZBuf.size] at hn
  unfold wmakeReal makeReal
  by_cases c : z.ze = z.zs
  · simp only [if_pos c]
    refine ⟨trivial, fun r e => ?_⟩
    rw [Option.map_eq_some_iff] at e
    obtain ⟨g, e, rfl⟩ := e
    exact ⟨caps_acquire hc e, Nat.le_refl _⟩
  · simp only [if_neg c]
    rw [wsub_eq h1 (by omega), wsub_eq h2 (by omega), wsub_eq h3 h4, wsub_eq (a := z.en) (b := z.start) (by omega) h4,
      wadd_eq (by omega), wallocate_eq hn]
    cases e1 : m.allocate (z.en - z.start) with
    | mk m1 o =>
      have hc1 : Caps m1 := caps_wallocate (id := o) hc ((wallocate_eq hn).trans (congrArg some e1))
      cases o with
      | none => exact ⟨rfl, fun r e => by cases e⟩
      | some id =>
        dsimp only
        rcases e2 : readAt m1 z.st z.start (z.zs - z.start) with _ | d1
        · exact ⟨rfl, fun r e => by cases e⟩
        · rcases e3 : readAt m1 z.st z.zs (z.en - z.ze) with _ | d2
          · exact ⟨rfl, fun r e => by cases e⟩
          · dsimp only
            cases e4 : m1.write id 0 d1 with
            | none => exact ⟨rfl, fun r e => by cases e⟩
            | some m2 =>
              dsimp only
              cases e5 : m2.write id (z.zs - z.start) (List.replicate (z.ze - z.zs) 0) with
              | none => exact ⟨rfl, fun r e => by cases e⟩
              | some m3 =>
                dsimp only
                cases e6 : m3.write id (z.zs - z.start + (z.ze - z.zs)) d2 with
                | none => exact ⟨rfl, fun r e => by cases e⟩
                | some m4 =>
                  dsimp only
                  rw [if_pos (by omega)]
                  refine ⟨rfl, fun r e => ?_⟩
                  rw [Option.map_eq_some_iff] at e
                  obtain ⟨g, e, rfl⟩ := e
                  exact ⟨caps_dirty (caps_write (caps_write (caps_write hc1 e4) e5) e6) e, Nat.sub_le _ _⟩

theorem wconstruct_eq (hc : Caps m) (a n e : Nat) (h : 39 + (a + e) < 2 ^ 64) (h' : a + n < 2 ^ 64) :
    wconstruct m a n e = construct m a n e ∧ ∀ r, construct m a n e = some r → Caps r.1 ∧ r.2.en < 2 ^ 64 := by
  unfold wconstruct construct
  rw [wadd_eq (a := a) (b := e) (by omega), wadd_eq h', wsub_eq (a := a + n) (b := a) (by omega) h',
    wsub_eq (a := a + n) (by omega) h', wallocate_eq h]
  cases e1 : m.allocate (a + e) with
  | mk m1 o =>
    have hc1 : Caps m1 := caps_wallocate (id := o) hc ((wallocate_eq h).trans (congrArg some e1))
    cases o with
    | none =>
      refine ⟨rfl, fun r e => ?_⟩
      simp only [Mem.dirtyOf, ZBuf.seg, Option.map_some, Option.some.injEq] at e
      subst e; exact ⟨hc1, h'⟩
    | some id =>
      simp only [Mem.dirtyOf, ZBuf.seg]
      refine ⟨trivial, fun r e => ?_⟩
      rw [Option.map_eq_some_iff] at e
      obtain ⟨g, e, rfl⟩ := e
      exact ⟨caps_dirty hc1 e, h'⟩

theorem wconstructFrom_eq (hc : Caps m) (d : List Byte) (h : 39 + d.length < 2 ^ 64) :
    wconstructFrom m d = constructFrom m d ∧ ∀ r, constructFrom m d = some r → Caps r.1 ∧ r.2.en < 2 ^ 64 := by
  unfold wconstructFrom constructFrom
  rw [wallocate_eq h]
  cases e1 : m.allocate d.length with
  | mk m1 o =>
    have hc1 : Caps m1 := caps_wallocate (id := o) hc ((wallocate_eq h).trans (congrArg some e1))
    cases o with
    | none =>
      have hz : d = [] := by
        unfold Mem.allocate at e1
        split at e1
        · exact List.length_eq_zero_iff.mp (by assumption)
        · cases e1
      subst hz
      refine ⟨by simp [Mem.fill, ZBuf.seg], fun r e => ?_⟩
      simp [Mem.fill, ZBuf.seg] at e
      subst e; exact ⟨hc1, by simp⟩
    | some id =>
      simp only [Mem.fill, ZBuf.seg]
      refine ⟨trivial, fun r e => ?_⟩
      rw [Option.map_eq_some_iff] at e
      obtain ⟨g, e, rfl⟩ := e
      exact ⟨caps_write hc1 e, by simp only; omega⟩

end

/-! ### Steps -/

/-- The invariant in words: the limits of every buffer and the capacity of every storage are below `2^64`. -/
structure Inv2 (s : ZState) : Prop where
  inv : Inv s
  caps : Caps s.mem
  lt : ∀ z ∈ s.bufs, z.en < 2 ^ 64

section
variable {s : ZState}

theorem good_of (h : Inv2 s) {i : Nat} {z : ZBuf} (e : s.bufs[i]? = some z) : Good s.mem z :=
  ⟨h.inv.ok z (List.mem_of_getElem? e), held_of h.inv.base (seg_mem e), h.lt z (List.mem_of_getElem? e)⟩

/-- What a step must keep besides `Inv`. -/
def Kept (s : ZState) : Prop := Caps s.mem ∧ ∀ z ∈ s.bufs, z.en < 2 ^ 64

theorem lt_set (h : Inv2 s) {i : Nat} {w : ZBuf} (hw : w.en < 2 ^ 64) : ∀ z ∈ s.bufs.set i w, z.en < 2 ^ 64 := by
  intro z hz
  rcases List.mem_or_eq_of_mem_set hz with hz | rfl
  · exact h.lt z hz
  · exact hw

theorem lt_app (h : Inv2 s) {w : ZBuf} (hw : w.en < 2 ^ 64) : ∀ z ∈ s.bufs ++ [w], z.en < 2 ^ 64 := by
  intro z hz
  rcases List.mem_append.1 hz with hz | hz
  · exact h.lt z hz
  · rw [List.mem_singleton.1 hz]; exact hw

theorem on_both (h : Inv2 s) {i : Nat} {f g : Mem → ZBuf → Option (Mem × ZBuf)}
    (hf : ∀ b, s.bufs[i]? = some b → Good s.mem b →
      f s.mem b = g s.mem b ∧ ∀ r, g s.mem b = some r → Caps r.1 ∧ r.2.en < 2 ^ 64) :
    s.on i f = s.on i g ∧ ∀ s', s.on i g = some s' → Kept s' := by
  unfold ZState.on
  cases e : s.bufs[i]? with
  | none => exact ⟨rfl, fun s' e => by cases e⟩
  | some b =>
    obtain ⟨e1, e2⟩ := hf b e (good_of h e)
    dsimp only
    rw [e1]
    refine ⟨rfl, fun s' e => ?_⟩
    rw [Option.map_eq_some_iff] at e
    obtain ⟨r, e, rfl⟩ := e
    exact ⟨(e2 r e).1, lt_set h (e2 r e).2⟩

theorem push_both (h : Inv2 s) {i : Nat} {f g : Mem → ZBuf → Option (Mem × ZBuf)}
    (hf : ∀ b, s.bufs[i]? = some b → Good s.mem b →
      f s.mem b = g s.mem b ∧ ∀ r, g s.mem b = some r → Caps r.1 ∧ r.2.en < 2 ^ 64) :
    s.push i f = s.push i g ∧ ∀ s', s.push i g = some s' → Kept s' := by
  unfold ZState.push
  cases e : s.bufs[i]? with
  | none => exact ⟨rfl, fun s' e => by cases e⟩
  | some b =>
    obtain ⟨e1, e2⟩ := hf b e (good_of h e)
    dsimp only
    rw [e1]
    refine ⟨rfl, fun s' e => ?_⟩
    rw [Option.map_eq_some_iff] at e
    obtain ⟨r, e, rfl⟩ := e
    exact ⟨(e2 r e).1, lt_app h (e2 r e).2⟩

theorem cap_of {i : Nat} {z : ZBuf} {id : Nat} {x : Storage} (e : s.bufs[i]? = some z) (e1 : z.st = some id)
    (e2 : s.mem.mem id = some x) : s.cap i = x.cap := by
  simp only [ZState.cap, e, e1, e2]

theorem start_both (h : Inv2 s) {i n : Nat} {b : ZBuf} (e : s.bufs[i]? = some b) (hb : Good s.mem b)
    (hf : 39 + (s.cap i + s.size i + n) < 2 ^ 64) : waddAtStart s.mem b n = addAtStart s.mem b n ∧
      ∀ r, addAtStart s.mem b n = some r → Caps r.1 ∧ r.2.en < 2 ^ 64 := by
  rw [size_of e] at hf
  obtain ⟨e1, e2⟩ := waddAtStart_eq hb h.caps (n := n) (by omega)
  exact ⟨e1, fun r er => ⟨caps_waddAtStart h.caps (e1.trans er), e2 r er⟩⟩

theorem end_both (h : Inv2 s) {i n : Nat} {b : ZBuf} (e : s.bufs[i]? = some b) (hb : Good s.mem b)
    (hf : 39 + (s.cap i + s.size i + n) < 2 ^ 64) : waddAtEnd s.mem b n = addAtEnd s.mem b n ∧
      ∀ r, addAtEnd s.mem b n = some r → Caps r.1 ∧ r.2.en < 2 ^ 64 := by
  rw [size_of e] at hf
  obtain ⟨e1, e2⟩ := waddAtEnd_eq hb h.caps (n := n) (by omega) (fun id x es ex => by
    have := cap_of e es ex; omega)
  exact ⟨e1, fun r er => ⟨caps_waddAtEnd h.caps (e1.trans er), e2 r er⟩⟩

theorem start_le_cap (h : Inv2 s) {i : Nat} {b : ZBuf} (e : s.bufs[i]? = some b) : b.start ≤ s.cap i := by
  cases es : b.st with
  | none =>
    have h0 : b.start = 0 := (h.inv.base.null b.seg (seg_mem e) es).1
    omega
  | some id =>
    obtain ⟨x, ex, _, hcap⟩ := h.inv.base.held b.seg (seg_mem e) id es
    rw [cap_of e es ex]
    have hl : b.seg.lo ≤ b.seg.hi := (good_of h e).held.1
    exact Nat.le_trans hl hcap

theorem wstep_eq (h : Inv2 s) {o : ZOp} (hf : o.fits s) : s.wstep o = s.step o ∧ ∀ s', s.step o = some s' → Kept s' := by
  have hmap : ∀ {α : Type} {f : α → Mem × ZBuf} {x : Option α} {q : Mem × ZBuf}, x.map f = some q →
      ∀ {P : Mem × ZBuf → Prop}, (∀ m, x = some m → P (f m)) → P q := by
    intro α f x q e P h
    rw [Option.map_eq_some_iff] at e
    obtain ⟨m, e, rfl⟩ := e
    exact h m e
  cases o with
  | new a z t =>
    obtain ⟨e1, e2⟩ := wconstruct_eq h.caps a z t hf.1 hf.2
    simp only [ZState.wstep, ZState.step, e1]
    refine ⟨trivial, fun s' e => ?_⟩
    rw [Option.map_eq_some_iff] at e
    obtain ⟨r, e, rfl⟩ := e
    exact ⟨(e2 r e).1, lt_app h (e2 r e).2⟩
  | newFrom d =>
    obtain ⟨e1, e2⟩ := wconstructFrom_eq h.caps d hf
    simp only [ZState.wstep, ZState.step, e1]
    refine ⟨trivial, fun s' e => ?_⟩
    rw [Option.map_eq_some_iff] at e
    obtain ⟨r, e, rfl⟩ := e
    exact ⟨(e2 r e).1, lt_app h (e2 r e).2⟩
  | copy j =>
    refine ⟨rfl, ?_⟩
    simp only [ZState.step]
    refine (push_both h (f := fun m b => (m.acquire b.seg).map (fun m1 => (m1, b))) fun b _ hb => ⟨rfl, fun r e => ?_⟩).2
    exact hmap e (P := fun r => Caps r.1 ∧ r.2.en < 2 ^ 64) fun m em => ⟨caps_acquire h.caps em, hb.lt⟩
  | move j =>
    refine ⟨rfl, fun s' e => ?_⟩
    simp only [ZState.step] at e
    cases eb : s.bufs[j]? with
    | none => rw [eb] at e; cases e
    | some b =>
      rw [eb] at e; cases e
      refine ⟨h.caps, fun z hz => ?_⟩
      rcases List.mem_append.1 hz with hz | hz
      · exact lt_set h (by simp [ZBuf.null]) z hz
      · rw [List.mem_singleton.1 hz]; exact (good_of h eb).lt
  | assign i j =>
    refine ⟨rfl, fun s' e => ?_⟩
    simp only [ZState.step] at e
    split at e
    · rename_i eb
      split at e
      · cases e; exact ⟨h.caps, h.lt⟩
      · split at e
        · cases e
        · rename_i e1
          rw [Option.map_eq_some_iff] at e
          obtain ⟨m, e, rfl⟩ := e
          exact ⟨caps_drop (caps_acquire h.caps e1) e, lt_set h (good_of h eb).lt⟩
    · cases e
  | moveAssign i j =>
    refine ⟨rfl, fun s' e => ?_⟩
    simp only [ZState.step] at e
    split at e
    · rename_i ea eb
      split at e
      · cases e; exact ⟨h.caps, h.lt⟩
      · rw [Option.map_eq_some_iff] at e
        obtain ⟨m, e, rfl⟩ := e
        have hr := caps_zrelease h.caps e
        refine ⟨hr.1, fun z hz => ?_⟩
        rcases List.mem_or_eq_of_mem_set hz with hz | rfl
        · exact lt_set h (good_of h eb).lt z hz
        · exact Nat.lt_of_le_of_lt hr.2 (good_of h ea).lt
    · cases e
  | swap i j =>
    refine ⟨rfl, fun s' e => ?_⟩
    simp only [ZState.step] at e
    split at e
    · rename_i ea eb
      cases e
      refine ⟨h.caps, fun z hz => ?_⟩
      rcases List.mem_or_eq_of_mem_set hz with hz | rfl
      · exact lt_set h (good_of h eb).lt z hz
      · exact (good_of h ea).lt
    · cases e
  | destroy i =>
    refine ⟨rfl, ?_⟩
    simp only [ZState.step]
    refine (on_both h (f := fun m b => (release m b).map (fun r => (r.1, ZBuf.null))) fun b _ hb =>
      ⟨rfl, fun r e => ?_⟩).2
    exact hmap e (P := fun r => Caps r.1 ∧ r.2.en < 2 ^ 64) fun m em => ⟨(caps_zrelease h.caps em).1, by simp [ZBuf.null]⟩
  | addStart i n =>
    simp only [ZState.wstep, ZState.step]
    exact on_both h fun b e hb => start_both h e hb hf
  | addEnd i n =>
    simp only [ZState.wstep, ZState.step]
    exact on_both h fun b e hb => end_both h e hb hf
  | addStartBytes i d =>
    simp only [ZState.wstep, ZState.step]
    refine on_both h fun b e hb => ?_
    obtain ⟨e1, e2⟩ := start_both h e hb hf
    simp only [waddBytesAtStart, addBytesAtStart, e1]
    by_cases hd : d.length = 0
    · simp only [if_pos hd]
      exact ⟨trivial, fun r e => by cases e; exact ⟨h.caps, hb.lt⟩⟩
    · simp only [if_neg hd]
      cases ea : addAtStart s.mem b d.length with
      | none => exact ⟨rfl, fun r e => by cases e⟩
      | some q =>
        refine ⟨rfl, fun r e => ?_⟩
        exact hmap e (P := fun r => Caps r.1 ∧ r.2.en < 2 ^ 64) fun m em => ⟨caps_fill (e2 q ea).1 em, (e2 q ea).2⟩
  | addEndBytes i d =>
    have hs1 : ∀ s1, s.step (.addEnd i d.length) = some s1 → Inv s1 := fun s1 e => (step_inv h.inv e).1
    simp only [ZState.wstep, ZState.step] at hs1 ⊢
    refine on_both h fun b e hb => ?_
    obtain ⟨e1, e2⟩ := end_both h e hb hf
    simp only [waddBytesAtEnd, addBytesAtEnd, e1]
    by_cases hd : d.length = 0
    · simp only [if_pos hd]
      exact ⟨trivial, fun r e => by cases e; exact ⟨h.caps, hb.lt⟩⟩
    · simp only [if_neg hd]
      cases ea : addAtEnd s.mem b d.length with
      | none => exact ⟨rfl, fun r e => by cases e⟩
      | some q =>
        obtain ⟨k1, k2⟩ := e2 q ea
        have hi1 := hs1 ⟨q.1, s.bufs.set i q.2⟩ (by simp [ZState.on, e, ea])
        have hq : (s.bufs.set i q.2)[i]? = some q.2 := by
          rw [List.getElem?_set_self]
          rw [List.getElem?_eq_some_iff] at e; exact e.1
        obtain ⟨z1, z2, z3⟩ := hi1.ok q.2 (List.mem_of_getElem? hq)
        have hn : d.length ≤ q.2.en - (q.2.ze - q.2.zs) := addAtEnd_room hb.ok ea
        dsimp only
        rw [wsub_eq (a := q.2.ze) z2 (by omega), wsub_eq (a := q.2.en) (by omega) k2, wsub_eq hn (by omega)]
        refine ⟨rfl, fun r e => ?_⟩
        exact hmap e (P := fun r => Caps r.1 ∧ r.2.en < 2 ^ 64) fun m em => ⟨caps_fill k1 em, k2⟩
  | addStartBuf i j =>
    have hs1 : ∀ n s1, s.step (.addStart i n) = some s1 → Inv s1 := fun n s1 e => (step_inv h.inv e).1
    simp only [ZState.wstep, ZState.step] at hs1 ⊢
    cases ec : s.bufs[j]? with
    | none => exact ⟨rfl, fun r e => by cases e⟩
    | some c =>
      have hcs := wsize_eq (good_of h ec)
      simp only [ZOp.fits, size_of ec] at hf
      obtain ⟨e1, e2⟩ := on_both h (i := i) (f := fun m b => waddAtStart m b c.size)
        (g := fun m b => addAtStart m b c.size) fun b e hb => start_both h e hb hf
      dsimp only
      rw [hcs]
      by_cases h0 : c.size = 0
      · simp only [if_pos h0]
        exact ⟨trivial, fun s' e => by cases e; exact ⟨h.caps, h.lt⟩⟩
      · simp only [if_neg h0]
        rw [e1]
        rcases eo : s.on i (fun m b => addAtStart m b c.size) with _ | s1
        · exact ⟨rfl, fun r e => by cases e⟩
        · have hi1 : Inv2 s1 := ⟨hs1 _ _ eo, (e2 s1 eo).1, (e2 s1 eo).2⟩
          dsimp only
          rcases eb : s1.bufs[i]? with _ | b
          · exact ⟨rfl, fun r e => by cases e⟩
          · rcases ec1 : s1.bufs[j]? with _ | c1
            · exact ⟨rfl, fun r e => by cases e⟩
            · dsimp only
              cases es : b.st with
              | none => exact ⟨rfl, fun r e => by cases e⟩
              | some id =>
                dsimp only
                rw [wcopyInto_eq (good_of hi1 ec1)]
                refine ⟨rfl, fun s' e => ?_⟩
                rw [Option.map_eq_some_iff] at e
                obtain ⟨m, e, rfl⟩ := e
                exact ⟨caps_copyInto hi1.caps e, hi1.lt⟩
  | addEndBuf i j =>
    have hs1 : ∀ n s1, s.step (.addEnd i n) = some s1 → Inv s1 := fun n s1 e => (step_inv h.inv e).1
    simp only [ZState.wstep, ZState.step] at hs1 ⊢
    cases ec : s.bufs[j]? with
    | none => exact ⟨rfl, fun r e => by cases e⟩
    | some c =>
      have hcs := wsize_eq (good_of h ec)
      simp only [ZOp.fits, size_of ec] at hf
      obtain ⟨e1, e2⟩ := on_both h (i := i) (f := fun m b => waddAtEnd m b c.size)
        (g := fun m b => addAtEnd m b c.size) fun b e hb => end_both h e hb hf
      dsimp only
      rw [hcs]
      by_cases h0 : c.size = 0
      · simp only [if_pos h0]
        exact ⟨trivial, fun s' e => by cases e; exact ⟨h.caps, h.lt⟩⟩
      · simp only [if_neg h0]
        rw [e1]
        rcases eo : s.on i (fun m b => addAtEnd m b c.size) with _ | s1
        · exact ⟨rfl, fun r e => by cases e⟩
        · have hi1 : Inv2 s1 := ⟨hs1 _ _ eo, (e2 s1 eo).1, (e2 s1 eo).2⟩
          dsimp only
          rcases eb : s1.bufs[i]? with _ | b
          · exact ⟨rfl, fun r e => by cases e⟩
          · rcases ec1 : s1.bufs[j]? with _ | c1
            · exact ⟨rfl, fun r e => by cases e⟩
            · dsimp only
              cases es : b.st with
              | none => exact ⟨rfl, fun r e => by cases e⟩
              | some id =>
                have gb := good_of hi1 eb
                obtain ⟨z1, z2, z3⟩ := gb.ok
                have k2 := gb.lt
                have hn : c.size ≤ b.en - (b.ze - b.zs) := by
                  unfold ZState.on at eo
                  cases e0 : s.bufs[i]? with
                  | none => rw [e0] at eo; cases eo
                  | some b0 =>
                    rw [e0] at eo
                    dsimp only at eo
                    rw [Option.map_eq_some_iff] at eo
                    obtain ⟨q, eq, rfl⟩ := eo
                    have hlt : i < s.bufs.length := (List.getElem?_eq_some_iff.1 e0).1
                    simp only [List.getElem?_set_self hlt, Option.some.injEq] at eb
                    subst eb
                    exact addAtEnd_room (good_of h e0).ok eq
                dsimp only
                rw [wsub_eq (a := b.ze) z2 (by omega), wsub_eq (a := b.en) (by omega) k2, wsub_eq hn (by omega),
                  wcopyInto_eq (good_of hi1 ec1)]
                refine ⟨rfl, fun s' e => ?_⟩
                rw [Option.map_eq_some_iff] at e
                obtain ⟨m, e, rfl⟩ := e
                exact ⟨caps_copyInto hi1.caps e, hi1.lt⟩
  | removeStart i n =>
    simp only [ZState.wstep, ZState.step]
    refine on_both h fun b e hb => ?_
    have hst := start_le_cap h e
    have hlt := hb.lt
    obtain ⟨z1, z2, z3⟩ := hb.ok
    simp only [ZOp.fits, size_of e, ZBuf.size] at hf
    refine ⟨wremoveAtStart_eq hb (by omega), fun r er => ?_⟩
    have := removeAtStart_le h.caps er
    exact ⟨this.1, by omega⟩
  | removeEnd i n =>
    simp only [ZState.wstep, ZState.step]
    refine on_both h fun b e hb => ⟨wremoveAtEnd_eq hb.ok hb.lt n, fun r er => ?_⟩
    have := removeAtEnd_le hb.ok h.caps er
    exact ⟨this.1, Nat.lt_of_le_of_lt this.2 hb.lt⟩
  | fragment j a n =>
    simp only [ZState.wstep, ZState.step]
    refine push_both h fun b e hb => ?_
    obtain ⟨e1, e2⟩ := wmakeFragment_eq hb h.caps a n
    exact ⟨e1, fun r er => ⟨(e2 r er).1, Nat.lt_of_le_of_lt (e2 r er).2 hb.lt⟩⟩
  | real j =>
    simp only [ZState.wstep, ZState.step]
    refine push_both h fun b e hb => ?_
    simp only [ZOp.fits, size_of e] at hf
    obtain ⟨e1, e2⟩ := wmakeReal_eq hb h.caps hf
    exact ⟨e1, fun r er => ⟨(e2 r er).1, Nat.lt_of_le_of_lt (e2 r er).2 hb.lt⟩⟩
  | realize i =>
    simp only [ZState.wstep, ZState.step]
    refine on_both h fun b e hb => ?_
    simp only [ZOp.fits, size_of e] at hf
    obtain ⟨e1, e2⟩ := wmakeReal_eq hb h.caps hf
    rw [e1]
    cases ea : makeReal s.mem b with
    | none => exact ⟨rfl, fun r e => by cases e⟩
    | some q =>
      refine ⟨rfl, fun r er => ?_⟩
      exact hmap er (P := fun r => Caps r.1 ∧ r.2.en < 2 ^ 64) fun m em =>
        ⟨(caps_zrelease (e2 q ea).1 em).1, Nat.lt_of_le_of_lt (e2 q ea).2 hb.lt⟩
  | write i off d =>
    refine ⟨rfl, ?_⟩
    simp only [ZState.step]
    refine (on_both h (f := fun m b => writeAt m b off d) fun b e hb => ⟨rfl, fun r er => ?_⟩).2
    unfold writeAt at er
    dsimp only at er
    split at er
    · exact hmap er (P := fun r => Caps r.1 ∧ r.2.en < 2 ^ 64) fun m em => ⟨caps_fill h.caps em, hb.lt⟩
    · cases er

theorem wrun_eq {hist : List ZOp} : ∀ {s : ZState}, Inv2 s → s.Fits hist → s.wrun hist = s.run hist ∧
    ∀ s', s.run hist = some s' → Inv2 s' := by
  induction hist with
  | nil => intro s h _; exact ⟨rfl, fun s' e => by cases e; exact h⟩
  | cons o os ih =>
    intro s h hf
    obtain ⟨e1, e2⟩ := wstep_eq h hf.1
    simp only [ZState.wrun, ZState.run, e1]
    cases e : s.step o with
    | none => exact ⟨rfl, fun s' e => by cases e⟩
    | some s1 => exact ih ⟨(step_inv h.inv e).1, (e2 s1 e).1, (e2 s1 e).2⟩ (hf.2 s1 e)

theorem init_inv2 (junk) : Inv2 (ZState.init junk) :=
  ⟨init_inv junk, Buf.init_caps junk, by simp [ZState.init]⟩

end

end Verif.Zc
