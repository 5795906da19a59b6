import Verif.Zc.WordStep

/-!
Property theorems about the sizes of `ZcBuffer` in 64-bit words (C139).
-/
set_option linter.unusedSimpArgs false
set_option linter.unusedVariables false
namespace Verif.Zc
open Verif Verif.Buf

/-! ### C139 -/

/-- C139 (partial: sizes that fit): every history of operations on any number of buffers in which the bytes added to a buffer
together with its size and its capacity stay below `2^64 - 39`, and in which more bytes are removed at the start of a buffer
than it has only if their number plus the capacity is below `2^64`, gives the same result in 64-bit arithmetic as with unbounded
sizes: the same bytes, sizes and storages, and undefined behaviour in the same cases. -/
theorem C139_zc_partial (junk : Nat → Nat → Byte) (hist : List ZOp) (h : (ZState.init junk).Fits hist) :
    (ZState.init junk).wrun hist = (ZState.init junk).run hist :=
  (wrun_eq (init_inv2 junk) h).1

/-- C139 fails for larger requests: after any history, adding `n` bytes to a buffer without a zero area whose size plus `n`
reaches `2^64` is undefined (it does not throw). -/
theorem C139_zc_add_fails (junk : Nat → Nat → Byte) (hist : List ZOp) (s : ZState) (h : (ZState.init junk).Fits hist)
    (hs : (ZState.init junk).wrun hist = some s) (i n : Nat) (hn : n < 2 ^ 64) (z : ZBuf) (hz : s.bufs[i]? = some z)
    (hr : z.zs = z.ze) (ho : 2 ^ 64 ≤ s.size i + n) :
    s.wstep (.addStart i n) = none ∧ s.wstep (.addEnd i n) = none := by
  obtain ⟨e, hi⟩ := wrun_eq (init_inv2 junk) h
  have hi := hi s (e ▸ hs)
  have g := good_of hi hz
  obtain ⟨h1, h2, h3⟩ := g.ok
  have hlt := g.lt
  have hw := wstored_eq g
  have hl := seg_len g.ok
  rw [size_of hz] at ho
  simp only [ZBuf.size] at ho
  obtain ⟨g1, g2⟩ := wgrow_wrap hi.inv.base hi.caps (seg_mem hz) hn (by omega)
  rw [← hw] at g1 g2
  have g1 : wgrowStart s.mem z.st z.start z.wstored n = none := g1
  have g2 : wgrowEnd s.mem z.st z.start z.wstored n = none := g2
  have h0 : n ≠ 0 := by omega
  simp only [ZState.wstep, ZState.on, hz, waddAtStart, waddAtEnd, if_neg h0, g1, g2, Option.map_none, and_self]

/-- `ZcBuffer(a, z)`: the limits of the buffer. -/
theorem new_run (junk : Nat → Nat → Byte) {a : Nat} (z : Nat) (h : 0 < a) (ha : 39 + a < 2 ^ 64) :
    ∃ m x, (ZState.init junk).wstep (.new a z 0) = some ⟨m, [⟨some 0, a, a, wadd a z, wadd a z⟩]⟩ ∧ m.mem 0 = some x ∧
      x.ref = 1 := by
  have e0 : wadd a 0 = a := by rw [wadd_eq (by omega)]; rfl
  have h0 : a ≠ 0 := by omega
  simp only [ZState.wstep, wconstruct, e0, Mem.wallocate, if_neg h0, if_pos ha, Mem.dirty, ZState.init, Mem.alloc, Mem.put,
    Option.map_some, List.nil_append, if_true]
  exact ⟨_, _, rfl, by simp only [if_true]; rfl, rfl⟩

/-- C139 fails: removing `n` bytes at the start of an empty buffer that has room for `a` bytes before its start makes it
`2^64 - n` bytes long whenever `a + n ≥ 2^64`; with unbounded sizes it stays empty.  In particular
`ZcBuffer b(8); b.RemoveAtStart(SIZE_MAX)` leaves one byte that nobody has written. -/
theorem C139_remove_fails (junk : Nat → Nat → Byte) (a n : Nat) (ha : 39 + a < 2 ^ 64) (hn : n < 2 ^ 64) (ho : 2 ^ 64 ≤ a + n) :
    (∃ s, (ZState.init junk).wrun [.new a 0 0, .removeStart 0 n] = some s ∧ s.bufs.map ZBuf.wsize = [2 ^ 64 - n] ∧
      0 < 2 ^ 64 - n) ∧
    ∃ s, (ZState.init junk).run [.new a 0 0, .removeStart 0 n] = some s ∧ s.size 0 = 0 := by
  have h0 : 0 < a := by omega
  have hz : wadd a 0 = a := by rw [wadd_eq (by omega)]; rfl
  obtain ⟨r, hr⟩ : ∃ r, a + n = r + 2 ^ 64 := Nat.exists_eq_add_of_le' ho
  have hw : wadd a n = r := by unfold wadd; omega
  obtain ⟨m, x, e, ex, er⟩ := new_run junk 0 h0 ha
  have es : (ZState.init junk).step (.new a 0 0) = some ⟨m, [⟨some 0, a, a, a, a⟩]⟩ := by
    rw [← (wstep_eq (init_inv2 junk) (o := .new a 0 0) ⟨by omega, by omega⟩).1, e, hz]
  constructor
  · refine ⟨⟨m, [⟨some 0, r, a, a, a⟩]⟩, ?_, ?_, by omega⟩
    · simp only [ZState.wrun, e, hz]
      simp only [ZState.wstep, ZState.on, List.getElem?_cons_zero, wremoveAtStart, hw,
        if_pos (show r ≤ a by omega), Option.map_some, List.set_cons_zero]
    · simp only [List.map_cons, List.map_nil, ZBuf.wsize, wsub_eq (show r ≤ a by omega) (show a < 2 ^ 64 by omega)]
      congr 1; omega
  · refine ⟨⟨m.put 0 none, [ZBuf.null]⟩, ?_, rfl⟩
    simp only [ZState.run, es]
    simp only [ZState.step, ZState.on, List.getElem?_cons_zero, removeAtStart,
      if_neg (show ¬ a + n ≤ a by omega), release, Mem.drop, ZBuf.seg, Mem.release, ex, er, Option.map_some, List.set_cons_zero]
    rfl

/-- C139 fails: a buffer made of `a` reserved bytes and `z` zeros with `a + z ≥ 2^64` reports `z` bytes, but is empty after a
single byte is removed at its start; with unbounded sizes `z - 1` zeros remain. -/
theorem C139_zeros_fails (junk : Nat → Nat → Byte) (a z : Nat) (ha : 39 + a < 2 ^ 64) (hz : z < 2 ^ 64) (ho : 2 ^ 64 ≤ a + z) :
    (∃ s, (ZState.init junk).wrun [.new a z 0] = some s ∧ s.bufs.map ZBuf.wsize = [z]) ∧
    (∃ s, (ZState.init junk).wrun [.new a z 0, .removeStart 0 1] = some s ∧ s.bufs.map ZBuf.wsize = [0]) ∧
    ∃ s, (ZState.init junk).run [.new a z 0, .removeStart 0 1] = some s ∧ s.size 0 = z - 1 ∧ 0 < z - 1 := by
  have h0 : 0 < a := by omega
  obtain ⟨r, hr⟩ : ∃ r, a + z = r + 2 ^ 64 := Nat.exists_eq_add_of_le' ho
  have hw : wadd a z = r := by unfold wadd; omega
  obtain ⟨m, x, e, ex, er⟩ := new_run junk z h0 ha
  rw [hw] at e
  refine ⟨⟨_, by simp only [ZState.wrun, e]; exact rfl, ?_⟩, ⟨⟨m.put 0 none, [ZBuf.null]⟩, ?_, rfl⟩, ?_⟩
  · simp only [List.map_cons, List.map_nil, ZBuf.wsize]
    congr 1
    unfold wsub; omega
  · simp only [ZState.wrun, e]
    simp only [ZState.wstep, ZState.on, List.getElem?_cons_zero, wremoveAtStart,
      wadd_eq (show a + 1 < 2 ^ 64 by omega), if_neg (show ¬ a + 1 ≤ a by omega), if_neg (show ¬ a + 1 ≤ r by omega), release,
      Mem.drop, ZBuf.seg, Mem.release, ex, er, Option.map_some, List.set_cons_zero]
    rfl
  · have h1 : a ≠ 0 := by omega
    have : ∃ m', (ZState.init junk).run [.new a z 0, .removeStart 0 1] =
        some ⟨m', [⟨some 0, a, a, a + z - (a + 1 - a), a + z - (a + 1 - a)⟩]⟩ := by
      simp only [ZState.run, ZState.step, construct, Mem.allocate, Nat.add_zero, if_neg h1, ZState.init, Mem.dirtyOf, ZBuf.seg,
        Mem.dirty, Mem.alloc, Mem.put, if_true, Option.map_some, List.nil_append, ZState.on, List.getElem?_cons_zero,
        removeAtStart, if_neg (show ¬ a + 1 ≤ a by omega), if_pos (show a + 1 ≤ a + z by omega), List.set_cons_zero]
      exact ⟨_, rfl⟩
    obtain ⟨m', em⟩ := this
    refine ⟨_, em, ?_, by omega⟩
    simp only [ZState.size, List.getElem?_cons_zero, ZBuf.size]; omega

/-! Examples: the hypotheses are met. -/

/-- Buffers with zero areas that are shared, grown at both ends, cut, and made real. -/
def zwdemo : List ZOp := [.new 4 10 8, .addStartBytes 0 [1, 2], .copy 0, .addEndBytes 0 [3, 4, 5], .addStart 1 9, .fragment 0 1 13,
  .removeEnd 0 3, .addEndBuf 0 2, .real 2, .realize 0, .removeStart 1 1000, .write 0 0 [7]]

example : (ZState.init fun _ _ => 0).Fits zwdemo ∧
    ((ZState.init fun _ _ => 0).wrun zwdemo).map (fun s => (s.size 0, s.size 1, s.size 2, s.size 3)) = some (25, 0, 13, 13) := by
  exact ⟨by decide +kernel, by decide +kernel⟩

/-- A request beyond `2^64` for a buffer without a zero area. -/
example : (((ZState.init fun _ _ => 0).wrun [.newFrom [1, 2, 3]]).map fun s => decide (2 ^ 64 ≤ s.size 0 + (2 ^ 64 - 2)) &&
    s.bufs.all fun z => decide (z.zs = z.ze)) = some true ∧
    (ZState.init fun _ _ => 0).Fits [.newFrom [1, 2, 3]] := by
  exact ⟨by decide +kernel, by decide +kernel⟩

/-- `ZcBuffer b(8); b.RemoveAtStart(SIZE_MAX)`. -/
example : 39 + 8 < 2 ^ 64 ∧ 2 ^ 64 - 1 < 2 ^ 64 ∧ 2 ^ 64 ≤ 8 + (2 ^ 64 - 1) := by decide +kernel

end Verif.Zc
