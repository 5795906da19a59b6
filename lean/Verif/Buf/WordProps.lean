import Verif.Buf.WordStep

/-!
Property theorems about the sizes of `Buffer` in 64-bit words (C139).
-/
set_option linter.unusedSimpArgs false
set_option linter.unusedVariables false
namespace Verif.Buf

/-! ### C139 -/

/-- C139 (partial: sizes below `2^64 - 39`): every history of operations on any number of buffers whose sizes fit gives
the same result in 64-bit arithmetic as with unbounded sizes: the same bytes, sizes and storages, and undefined behaviour
in the same cases. -/
theorem C139_buffer_partial (junk : Nat → Nat → Byte) (hist : List Op) (h : (State.init junk).Fits hist) :
    (State.init junk).wrun hist = (State.init junk).run hist :=
  (wrun_eq (init_base junk) (init_caps junk) h).1

/-- C139 fails for larger requests: after any history, adding `n` bytes to a buffer whose size plus `n` reaches `2^64` is
undefined (it does not throw): the sum wraps, the code finds the storage large enough, and copies the data outside of it. -/
theorem C139_buffer_fails (junk : Nat → Nat → Byte) (hist : List Op) (s : State) (h : (State.init junk).Fits hist)
    (hs : (State.init junk).wrun hist = some s) (i n : Nat) (hn : n < 2 ^ 64) (ho : 2 ^ 64 ≤ s.size i + n) :
    s.wstep (.addStart i n) = none ∧ s.wstep (.addEnd i n) = none := by
  obtain ⟨e, hc⟩ := wrun_eq (init_base junk) (init_caps junk) h
  have hc := hc s hs
  have hb := run_base (init_base junk) (e ▸ hs)
  simp only [State.wstep, State.on]
  cases eb : s.bufs[i]? with
  | none => exact ⟨rfl, rfl⟩
  | some b =>
    have hm := mem_of_get eb
    have h1 := (held_of hb hm).1
    have hl := held_lt hb hc hm
    rw [size_eq eb] at ho
    obtain ⟨g1, g2⟩ := wgrow_wrap hb hc hm hn ho
    simp only [waddAtStart, waddAtEnd, if_neg (show ¬ n = 0 by omega), wsub_eq h1 (show b.hi < 2 ^ 64 by omega), g1, g2,
      Option.map_none, and_self]

/-! Examples: the hypotheses are met, and the wrapping requests exist. -/

/-- Buffers that are filled, shared, grown at both ends and cut. -/
def wdemo : List Op := [.new 4 2 8, .addStartBytes 0 [1, 2], .copy 0, .addEndBytes 0 [3, 4, 5], .addStart 1 9, .fragment 0 1 4,
  .removeEnd 0 3, .addEndBuf 0 2]

example : (State.init fun _ _ => 0).Fits wdemo ∧
    ((State.init fun _ _ => 0).wrun wdemo).map (fun s => (s.size 0, s.size 1, s.size 2)) = some (8, 13, 4) := by
  exact ⟨by decide +kernel, by decide +kernel⟩

/-- A request beyond `2^64` after such a history. -/
example : ((State.init fun _ _ => 0).wrun wdemo).map (fun s => decide (2 ^ 64 ≤ s.size 0 + (2 ^ 64 - 4))) = some true ∧
    (((State.init fun _ _ => 0).wrun (wdemo ++ [.addStart 0 (2 ^ 64 - 4)])).isNone) = true := by
  exact ⟨by decide +kernel, by decide +kernel⟩

end Verif.Buf
