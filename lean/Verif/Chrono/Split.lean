import Verif.Chrono.Lemmas
set_option linter.unusedSimpArgs false
set_option linter.unusedVariables false
/-!
`Split` for each supported resolution `10^-k`, `k ≤ 18` (the denominators that fit an `int64_t`).
-/
namespace Verif.Chrono

theorem rd_over (u v : Int) : ratioDivide u v .over = some (0, u, v) := rfl
theorem rd_under (u v : Int) : ratioDivide u v .under = some (0, u, v) := rfl

/-- Evaluate the divisions one by one. -/
macro "split_eval" : tactic => `(tactic| (
  unfold i64Max at *
  simp only [splitLoop, rd_over, Option.bind_eq_bind, Option.bind_some, Option.pure_def]
  repeat (
    rw [step1 (by omega) (by unfold i64Max; omega) (by decide) (by decide)]
    simp only [Option.bind_eq_bind, Option.bind_some, Option.pure_def, rd_under])
  try (
    rw [step2 (by omega) (by decide) (by unfold i64Max; omega) (by decide)]
    simp only [Option.bind_eq_bind, Option.bind_some, Option.pure_def, rd_under])
  refine ⟨_, rfl, _, _, _, _, _, _, _, _, _, _, _, _, rfl, ?_⟩
  simp only [Nat.cast_ofNat, Nat.cast_one] at *
  omega))

theorem units_0 : units (deci 0) = [
    .ratio ⟨86400, 1⟩, .ratio ⟨3600, 1⟩, .ratio ⟨60, 1⟩, .ratio ⟨1, 1⟩,
    .under, .under, .under, .under,
    .under, .under, .under, .under] := by decide

theorem split_0 (u : Int) (h0 : 0 ≤ u) (h1 : u ≤ i64Max) :
    ∃ xs, splitLoop (units (deci 0)) u 1 = some xs ∧ GoodParts 0 u xs := by
  rw [units_0]
  split_eval

theorem units_1 : units (deci 1) = [
    .ratio ⟨864000, 1⟩, .ratio ⟨36000, 1⟩, .ratio ⟨600, 1⟩, .ratio ⟨10, 1⟩,
    .ratio ⟨1, 100⟩, .under, .under, .under,
    .under, .under, .under, .under] := by decide

theorem split_1 (u : Int) (h0 : 0 ≤ u) (h1 : u ≤ i64Max) :
    ∃ xs, splitLoop (units (deci 1)) u 1 = some xs ∧ GoodParts 1 u xs := by
  rw [units_1]
  split_eval

theorem units_2 : units (deci 2) = [
    .ratio ⟨8640000, 1⟩, .ratio ⟨360000, 1⟩, .ratio ⟨6000, 1⟩, .ratio ⟨100, 1⟩,
    .ratio ⟨1, 10⟩, .under, .under, .under,
    .under, .under, .under, .under] := by decide

theorem split_2 (u : Int) (h0 : 0 ≤ u) (h1 : u ≤ i64Max) :
    ∃ xs, splitLoop (units (deci 2)) u 1 = some xs ∧ GoodParts 2 u xs := by
  rw [units_2]
  split_eval

theorem units_3 : units (deci 3) = [
    .ratio ⟨86400000, 1⟩, .ratio ⟨3600000, 1⟩, .ratio ⟨60000, 1⟩, .ratio ⟨1000, 1⟩,
    .ratio ⟨1, 1⟩, .under, .under, .under,
    .under, .under, .under, .under] := by decide

theorem split_3 (u : Int) (h0 : 0 ≤ u) (h1 : u ≤ i64Max) :
    ∃ xs, splitLoop (units (deci 3)) u 1 = some xs ∧ GoodParts 3 u xs := by
  rw [units_3]
  split_eval

theorem units_4 : units (deci 4) = [
    .ratio ⟨864000000, 1⟩, .ratio ⟨36000000, 1⟩, .ratio ⟨600000, 1⟩, .ratio ⟨10000, 1⟩,
    .ratio ⟨10, 1⟩, .ratio ⟨1, 100⟩, .under, .under,
    .under, .under, .under, .under] := by decide

theorem split_4 (u : Int) (h0 : 0 ≤ u) (h1 : u ≤ i64Max) :
    ∃ xs, splitLoop (units (deci 4)) u 1 = some xs ∧ GoodParts 4 u xs := by
  rw [units_4]
  split_eval

theorem units_5 : units (deci 5) = [
    .ratio ⟨8640000000, 1⟩, .ratio ⟨360000000, 1⟩, .ratio ⟨6000000, 1⟩, .ratio ⟨100000, 1⟩,
    .ratio ⟨100, 1⟩, .ratio ⟨1, 10⟩, .under, .under,
    .under, .under, .under, .under] := by decide

theorem split_5 (u : Int) (h0 : 0 ≤ u) (h1 : u ≤ i64Max) :
    ∃ xs, splitLoop (units (deci 5)) u 1 = some xs ∧ GoodParts 5 u xs := by
  rw [units_5]
  split_eval

theorem units_6 : units (deci 6) = [
    .ratio ⟨86400000000, 1⟩, .ratio ⟨3600000000, 1⟩, .ratio ⟨60000000, 1⟩, .ratio ⟨1000000, 1⟩,
    .ratio ⟨1000, 1⟩, .ratio ⟨1, 1⟩, .under, .under,
    .under, .under, .under, .under] := by decide

theorem split_6 (u : Int) (h0 : 0 ≤ u) (h1 : u ≤ i64Max) :
    ∃ xs, splitLoop (units (deci 6)) u 1 = some xs ∧ GoodParts 6 u xs := by
  rw [units_6]
  split_eval

theorem units_7 : units (deci 7) = [
    .ratio ⟨864000000000, 1⟩, .ratio ⟨36000000000, 1⟩, .ratio ⟨600000000, 1⟩, .ratio ⟨10000000, 1⟩,
    .ratio ⟨10000, 1⟩, .ratio ⟨10, 1⟩, .ratio ⟨1, 100⟩, .under,
    .under, .under, .under, .under] := by decide

theorem split_7 (u : Int) (h0 : 0 ≤ u) (h1 : u ≤ i64Max) :
    ∃ xs, splitLoop (units (deci 7)) u 1 = some xs ∧ GoodParts 7 u xs := by
  rw [units_7]
  split_eval

theorem units_8 : units (deci 8) = [
    .ratio ⟨8640000000000, 1⟩, .ratio ⟨360000000000, 1⟩, .ratio ⟨6000000000, 1⟩, .ratio ⟨100000000, 1⟩,
    .ratio ⟨100000, 1⟩, .ratio ⟨100, 1⟩, .ratio ⟨1, 10⟩, .under,
    .under, .under, .under, .under] := by decide

theorem split_8 (u : Int) (h0 : 0 ≤ u) (h1 : u ≤ i64Max) :
    ∃ xs, splitLoop (units (deci 8)) u 1 = some xs ∧ GoodParts 8 u xs := by
  rw [units_8]
  split_eval

theorem units_9 : units (deci 9) = [
    .ratio ⟨86400000000000, 1⟩, .ratio ⟨3600000000000, 1⟩, .ratio ⟨60000000000, 1⟩, .ratio ⟨1000000000, 1⟩,
    .ratio ⟨1000000, 1⟩, .ratio ⟨1000, 1⟩, .ratio ⟨1, 1⟩, .under,
    .under, .under, .under, .under] := by decide

theorem split_9 (u : Int) (h0 : 0 ≤ u) (h1 : u ≤ i64Max) :
    ∃ xs, splitLoop (units (deci 9)) u 1 = some xs ∧ GoodParts 9 u xs := by
  rw [units_9]
  split_eval

theorem units_10 : units (deci 10) = [
    .ratio ⟨864000000000000, 1⟩, .ratio ⟨36000000000000, 1⟩, .ratio ⟨600000000000, 1⟩, .ratio ⟨10000000000, 1⟩,
    .ratio ⟨10000000, 1⟩, .ratio ⟨10000, 1⟩, .ratio ⟨10, 1⟩, .ratio ⟨1, 100⟩,
    .under, .under, .under, .under] := by decide

theorem split_10 (u : Int) (h0 : 0 ≤ u) (h1 : u ≤ i64Max) :
    ∃ xs, splitLoop (units (deci 10)) u 1 = some xs ∧ GoodParts 10 u xs := by
  rw [units_10]
  split_eval

theorem units_11 : units (deci 11) = [
    .ratio ⟨8640000000000000, 1⟩, .ratio ⟨360000000000000, 1⟩, .ratio ⟨6000000000000, 1⟩, .ratio ⟨100000000000, 1⟩,
    .ratio ⟨100000000, 1⟩, .ratio ⟨100000, 1⟩, .ratio ⟨100, 1⟩, .ratio ⟨1, 10⟩,
    .under, .under, .under, .under] := by decide

theorem split_11 (u : Int) (h0 : 0 ≤ u) (h1 : u ≤ i64Max) :
    ∃ xs, splitLoop (units (deci 11)) u 1 = some xs ∧ GoodParts 11 u xs := by
  rw [units_11]
  split_eval

theorem units_12 : units (deci 12) = [
    .ratio ⟨86400000000000000, 1⟩, .ratio ⟨3600000000000000, 1⟩, .ratio ⟨60000000000000, 1⟩, .ratio ⟨1000000000000, 1⟩,
    .ratio ⟨1000000000, 1⟩, .ratio ⟨1000000, 1⟩, .ratio ⟨1000, 1⟩, .ratio ⟨1, 1⟩,
    .under, .under, .under, .under] := by decide

theorem split_12 (u : Int) (h0 : 0 ≤ u) (h1 : u ≤ i64Max) :
    ∃ xs, splitLoop (units (deci 12)) u 1 = some xs ∧ GoodParts 12 u xs := by
  rw [units_12]
  split_eval

theorem units_13 : units (deci 13) = [
    .ratio ⟨864000000000000000, 1⟩, .ratio ⟨36000000000000000, 1⟩, .ratio ⟨600000000000000, 1⟩, .ratio ⟨10000000000000, 1⟩,
    .ratio ⟨10000000000, 1⟩, .ratio ⟨10000000, 1⟩, .ratio ⟨10000, 1⟩, .ratio ⟨10, 1⟩,
    .ratio ⟨1, 100⟩, .under, .under, .under] := by decide

theorem split_13 (u : Int) (h0 : 0 ≤ u) (h1 : u ≤ i64Max) :
    ∃ xs, splitLoop (units (deci 13)) u 1 = some xs ∧ GoodParts 13 u xs := by
  rw [units_13]
  split_eval

theorem units_14 : units (deci 14) = [
    .ratio ⟨8640000000000000000, 1⟩, .ratio ⟨360000000000000000, 1⟩, .ratio ⟨6000000000000000, 1⟩, .ratio ⟨100000000000000, 1⟩,
    .ratio ⟨100000000000, 1⟩, .ratio ⟨100000000, 1⟩, .ratio ⟨100000, 1⟩, .ratio ⟨100, 1⟩,
    .ratio ⟨1, 10⟩, .under, .under, .under] := by decide

theorem split_14 (u : Int) (h0 : 0 ≤ u) (h1 : u ≤ i64Max) :
    ∃ xs, splitLoop (units (deci 14)) u 1 = some xs ∧ GoodParts 14 u xs := by
  rw [units_14]
  split_eval

theorem units_15 : units (deci 15) = [
    .over, .ratio ⟨3600000000000000000, 1⟩, .ratio ⟨60000000000000000, 1⟩, .ratio ⟨1000000000000000, 1⟩,
    .ratio ⟨1000000000000, 1⟩, .ratio ⟨1000000000, 1⟩, .ratio ⟨1000000, 1⟩, .ratio ⟨1000, 1⟩,
    .ratio ⟨1, 1⟩, .under, .under, .under] := by decide

theorem split_15 (u : Int) (h0 : 0 ≤ u) (h1 : u ≤ i64Max) :
    ∃ xs, splitLoop (units (deci 15)) u 1 = some xs ∧ GoodParts 15 u xs := by
  rw [units_15]
  split_eval

theorem units_16 : units (deci 16) = [
    .over, .over, .ratio ⟨600000000000000000, 1⟩, .ratio ⟨10000000000000000, 1⟩,
    .ratio ⟨10000000000000, 1⟩, .ratio ⟨10000000000, 1⟩, .ratio ⟨10000000, 1⟩, .ratio ⟨10000, 1⟩,
    .ratio ⟨10, 1⟩, .ratio ⟨1, 100⟩, .under, .under] := by decide

theorem split_16 (u : Int) (h0 : 0 ≤ u) (h1 : u ≤ i64Max) :
    ∃ xs, splitLoop (units (deci 16)) u 1 = some xs ∧ GoodParts 16 u xs := by
  rw [units_16]
  split_eval

theorem units_17 : units (deci 17) = [
    .over, .over, .ratio ⟨6000000000000000000, 1⟩, .ratio ⟨100000000000000000, 1⟩,
    .ratio ⟨100000000000000, 1⟩, .ratio ⟨100000000000, 1⟩, .ratio ⟨100000000, 1⟩, .ratio ⟨100000, 1⟩,
    .ratio ⟨100, 1⟩, .ratio ⟨1, 10⟩, .under, .under] := by decide

theorem split_17 (u : Int) (h0 : 0 ≤ u) (h1 : u ≤ i64Max) :
    ∃ xs, splitLoop (units (deci 17)) u 1 = some xs ∧ GoodParts 17 u xs := by
  rw [units_17]
  split_eval

theorem units_18 : units (deci 18) = [
    .over, .over, .over, .ratio ⟨1000000000000000000, 1⟩,
    .ratio ⟨1000000000000000, 1⟩, .ratio ⟨1000000000000, 1⟩, .ratio ⟨1000000000, 1⟩, .ratio ⟨1000000, 1⟩,
    .ratio ⟨1000, 1⟩, .ratio ⟨1, 1⟩, .under, .under] := by decide

theorem split_18 (u : Int) (h0 : 0 ≤ u) (h1 : u ≤ i64Max) :
    ∃ xs, splitLoop (units (deci 18)) u 1 = some xs ∧ GoodParts 18 u xs := by
  rw [units_18]
  split_eval

theorem splitLoop_good (k : Nat) (hk : k ≤ 18) (u : Int) (h0 : 0 ≤ u) (h1 : u ≤ i64Max) :
    ∃ xs, splitLoop (units (deci k)) u 1 = some xs ∧ GoodParts k u xs := by
  match k, hk with
  | 0, _ => exact split_0 u h0 h1
  | 1, _ => exact split_1 u h0 h1
  | 2, _ => exact split_2 u h0 h1
  | 3, _ => exact split_3 u h0 h1
  | 4, _ => exact split_4 u h0 h1
  | 5, _ => exact split_5 u h0 h1
  | 6, _ => exact split_6 u h0 h1
  | 7, _ => exact split_7 u h0 h1
  | 8, _ => exact split_8 u h0 h1
  | 9, _ => exact split_9 u h0 h1
  | 10, _ => exact split_10 u h0 h1
  | 11, _ => exact split_11 u h0 h1
  | 12, _ => exact split_12 u h0 h1
  | 13, _ => exact split_13 u h0 h1
  | 14, _ => exact split_14 u h0 h1
  | 15, _ => exact split_15 u h0 h1
  | 16, _ => exact split_16 u h0 h1
  | 17, _ => exact split_17 u h0 h1
  | 18, _ => exact split_18 u h0 h1
  | k + 19, h => exact absurd h (by omega)

end Verif.Chrono
