import Verif.Chrono.Text
set_option linter.unusedSimpArgs false
set_option linter.unusedVariables false
/-!
Property C101, the format: what the text of a duration looks like and which number it shows.
-/
namespace Verif.Chrono

/-! ### The format, stated without the model -/

/-- Two decimal digits.  (/repo/chrono/duration.h 1014-1016.) -/
def two (n : Nat) : List Char := [Nat.digitChar (n / 10), Nat.digitChar (n % 10)]

/-- Three decimal digits.  (/repo/chrono/duration.h 1018-1049.) -/
def three (n : Nat) : List Char := [Nat.digitChar (n / 100), Nat.digitChar (n / 10 % 10), Nat.digitChar (n % 10)]

/-- The groups below a second: a dash, three digits and the letter of the unit.  (/repo/chrono/duration.h 1018-1049.) -/
def groups : List Char → List Nat → List Char
  | c :: cs, n :: ns => '-' :: (three n ++ c :: groups cs ns)
  | _, _ => []

/-- The number shown by the groups, in units of `1000^-g` seconds for `g` groups.  (Specification; no code.) -/
def groupsVal (ns : List Nat) : Nat := ns.foldl (fun acc n => acc * 1000 + n) 0

/-! ### Lemmas -/

theorem digitC_eq {d : Nat} (h : d < 10) : digitC d = Nat.digitChar d := by
  have : ∀ d, d < 10 → digitC d = Nat.digitChar d := by decide
  exact this d h

theorem dec_toDigits (n : Nat) : dec n = Nat.toDigits 10 n := by
  induction n using Nat.strongRecOn with
  | _ n ih =>
    unfold dec
    split
    · rename_i h
      rw [Nat.toDigits_of_lt_base h, digitC_eq h]
    · rename_i h
      rw [ih (n / 10) (by omega), digitC_eq (Nat.mod_lt _ (by decide)),
        Nat.toDigits_of_base_le (n := n) (by decide) (by omega)]

theorem pad_two {n : Nat} (h : n < 100) : pad 2 n = two n := by
  have d : ∀ n, n < 10 → dec n = [digitC n] := by intro n h; rw [dec, if_pos h]
  have d2 : ∀ n, 10 ≤ n → n < 100 → dec n = [digitC (n / 10), digitC (n % 10)] := by
    intro n h1 h2; rw [dec, if_neg (by omega), d _ (by omega)]; rfl
  unfold pad two
  by_cases h1 : n < 10
  · rw [d n h1, digitC_eq h1, Nat.div_eq_of_lt h1, Nat.mod_eq_of_lt h1]; rfl
  · rw [d2 n (by omega) h, digitC_eq (by omega), digitC_eq (by omega)]; rfl

theorem pad_three {n : Nat} (h : n < 1000) : pad 3 n = three n := by
  have d : ∀ n, n < 10 → dec n = [digitC n] := by intro n h; rw [dec, if_pos h]
  have d2 : ∀ n, 10 ≤ n → n < 100 → dec n = [digitC (n / 10), digitC (n % 10)] := by
    intro n h1 h2; rw [dec, if_neg (by omega), d _ (by omega)]; rfl
  have d3 : ∀ n, 100 ≤ n → n < 1000 → dec n = [digitC (n / 10 / 10), digitC (n / 10 % 10), digitC (n % 10)] := by
    intro n h1 h2; rw [dec, if_neg (by omega), d2 _ (by omega) (by omega)]; rfl
  unfold pad three
  by_cases h1 : n < 10
  · rw [d n h1, digitC_eq h1, Nat.div_eq_of_lt (by omega), Nat.div_eq_of_lt h1, Nat.mod_eq_of_lt h1]; rfl
  · by_cases h2 : n < 100
    · rw [d2 n (by omega) h2, digitC_eq (by omega), digitC_eq (by omega), Nat.div_eq_of_lt h2,
        Nat.mod_eq_of_lt (a := n / 10) (by omega)]; rfl
    · rw [d3 n (by omega) h, digitC_eq (by omega), digitC_eq (by omega), digitC_eq (by omega),
        Nat.div_div_eq_div_mul]; rfl

/-- The units below a second that are printed: as many groups as the unit needs. -/
theorem units_sub (k : Nat) (hk : k ≤ 18) :
    ∃ rs : List Ratio, (units (deci k)).drop 4 = rs.map .ratio ++ List.replicate (8 - (k + 2) / 3) .under ∧
      rs.length = (k + 2) / 3 := by
  have : ∀ k, k ≤ 18 → ((units (deci k)).drop 4).drop ((k + 2) / 3) = List.replicate (8 - (k + 2) / 3) .under ∧
      (((units (deci k)).drop 4).take ((k + 2) / 3)).all (fun u => match u with | .ratio _ => true | _ => false) ∧
      ((units (deci k)).drop 4).length = 8 := by
    decide
  obtain ⟨h1, h2, h3⟩ := this k hk
  have conv : ∀ l : List TUnit, l.all (fun u => match u with | .ratio _ => true | _ => false) →
      ∃ rs : List Ratio, l = rs.map .ratio := by
    intro l
    induction l with
    | nil => intro _; exact ⟨[], rfl⟩
    | cons a l ih =>
      intro h
      simp only [List.all_cons, Bool.and_eq_true] at h
      obtain ⟨rs, rfl⟩ := ih h.2
      cases a with
      | ratio r => exact ⟨r :: rs, rfl⟩
      | over => simp at h
      | under => simp at h
  obtain ⟨rs, hrs⟩ := conv _ h2
  refine ⟨rs, ?_, ?_⟩
  · rw [← hrs, ← h1, List.take_append_drop]
  · have := congrArg List.length hrs
    rw [List.length_take, List.length_map, h3] at this
    omega

theorem subText_under (n : Nat) : ∀ (xs : List Int) (cs : List Char), subText (List.replicate n .under) xs cs = [] := by
  induction n with
  | zero => intro xs cs; cases xs <;> simp [subText]
  | succ n ih =>
    intro xs cs
    cases xs with
    | nil => simp [subText, List.replicate_succ]
    | cons x xs =>
      cases cs with
      | nil => simp [subText, List.replicate_succ]
      | cons c cs => simp [subText, List.replicate_succ, ih]

theorem subText_groups (n : Nat) (rs : List Ratio) : ∀ (xs : List Int) (cs : List Char), (∀ x ∈ xs, 0 ≤ x ∧ x < 1000) →
    rs.length ≤ xs.length → rs.length ≤ cs.length →
    subText (rs.map .ratio ++ List.replicate n .under) xs cs = groups cs ((xs.take rs.length).map Int.toNat) := by
  induction rs with
  | nil =>
    intro xs cs _ _ _
    simp only [List.map_nil, List.nil_append, subText_under, List.length_nil, List.take_zero]
    cases cs <;> rfl
  | cons r rs ih =>
    intro xs cs hx h1 h2
    cases xs with
    | nil => simp at h1
    | cons x xs =>
      cases cs with
      | nil => simp at h2
      | cons c cs =>
        have h0 := hx x List.mem_cons_self
        simp only [List.map_cons, List.cons_append, subText, List.length_cons, List.take_succ_cons, groups]
        rw [ih xs cs (fun y hy => hx y (List.mem_cons_of_mem _ hy)) (by simpa using h1) (by simpa using h2),
          if_neg (by simp), pad_three (by omega)]
        simp

theorem forall₂_replicate_zero {n : Nat} : ∀ {xs : List Int},
    List.Forall₂ (fun (t : TUnit) (x : Int) => t = TUnit.under → x = 0) (List.replicate n .under) xs →
    ∀ x ∈ xs, x = 0 := by
  induction n with
  | zero => intro xs h; cases h; simp
  | succ n ih =>
    intro xs h
    rw [List.replicate_succ] at h
    cases h with
    | cons h1 h2 =>
      intro x hx
      rcases List.mem_cons.1 hx with rfl | hx
      · exact h1 rfl
      · exact ih h2 x hx

/-- The sum of the fields, in the unit of the last group. -/
theorem fields_sum (k : Nat) (hk : k ≤ 18) {u d h m s p1 p2 p3 p4 p5 p6 p7 p8 : Int} {v : Nat} (hv : (v : Int) = u)
    (hd : 0 ≤ d) (hh : 0 ≤ h) (hm : 0 ≤ m) (hs : 0 ≤ s) (a1 : 0 ≤ p1) (a2 : 0 ≤ p2) (a3 : 0 ≤ p3) (a4 : 0 ≤ p4)
    (a5 : 0 ≤ p5) (a6 : 0 ≤ p6) (a7 : 0 ≤ p7) (a8 : 0 ≤ p8)
    (hsum : u * 10 ^ (24 - k) = (d * 86400 + h * 3600 + m * 60 + s) * 10 ^ 24 + p1 * 10 ^ 21 + p2 * 10 ^ 18 +
      p3 * 10 ^ 15 + p4 * 10 ^ 12 + p5 * 10 ^ 9 + p6 * 10 ^ 6 + p7 * 10 ^ 3 + p8)
    (hz : ∀ x ∈ ([p1, p2, p3, p4, p5, p6, p7, p8] : List Int).drop ((k + 2) / 3), x = 0) :
    v * 10 ^ (3 * ((k + 2) / 3) - k) =
      (d.toNat * 86400 + h.toNat * 3600 + m.toNat * 60 + s.toNat) * 1000 ^ ((k + 2) / 3) +
        groupsVal (([p1, p2, p3, p4, p5, p6, p7, p8].take ((k + 2) / 3)).map Int.toNat) := by
  obtain ⟨d, rfl⟩ := Int.eq_ofNat_of_zero_le hd
  obtain ⟨h, rfl⟩ := Int.eq_ofNat_of_zero_le hh
  obtain ⟨m, rfl⟩ := Int.eq_ofNat_of_zero_le hm
  obtain ⟨s, rfl⟩ := Int.eq_ofNat_of_zero_le hs
  obtain ⟨p1, rfl⟩ := Int.eq_ofNat_of_zero_le a1
  obtain ⟨p2, rfl⟩ := Int.eq_ofNat_of_zero_le a2
  obtain ⟨p3, rfl⟩ := Int.eq_ofNat_of_zero_le a3
  obtain ⟨p4, rfl⟩ := Int.eq_ofNat_of_zero_le a4
  obtain ⟨p5, rfl⟩ := Int.eq_ofNat_of_zero_le a5
  obtain ⟨p6, rfl⟩ := Int.eq_ofNat_of_zero_le a6
  obtain ⟨p7, rfl⟩ := Int.eq_ofNat_of_zero_le a7
  obtain ⟨p8, rfl⟩ := Int.eq_ofNat_of_zero_le a8
  subst hv
  have hs' : v * 10 ^ (24 - k) = (d * 86400 + h * 3600 + m * 60 + s) * 10 ^ 24 + p1 * 10 ^ 21 + p2 * 10 ^ 18 +
      p3 * 10 ^ 15 + p4 * 10 ^ 12 + p5 * 10 ^ 9 + p6 * 10 ^ 6 + p7 * 10 ^ 3 + p8 := by exact_mod_cast hsum
  clear hsum hd hh hm hs a1 a2 a3 a4 a5 a6 a7 a8
  simp only [Int.ofNat_eq_natCast, List.map_take, List.map_cons, List.map_nil, Int.toNat_natCast] at hz ⊢
  obtain rfl | rfl | rfl | rfl | rfl | rfl | rfl | rfl | rfl | rfl | rfl | rfl | rfl | rfl | rfl | rfl | rfl | rfl | rfl :
      k = 0 ∨ k = 1 ∨ k = 2 ∨ k = 3 ∨ k = 4 ∨ k = 5 ∨ k = 6 ∨ k = 7 ∨ k = 8 ∨ k = 9 ∨
      k = 10 ∨ k = 11 ∨ k = 12 ∨ k = 13 ∨ k = 14 ∨ k = 15 ∨ k = 16 ∨ k = 17 ∨ k = 18 := by omega
  all_goals
    simp only [List.drop_succ_cons, List.drop_zero, List.mem_cons, List.not_mem_nil, or_false,
      forall_eq_or_imp, forall_eq, Nat.reduceAdd, Nat.reduceDiv, Int.natCast_eq_zero] at hz
    simp only [Nat.reduceAdd, Nat.reduceDiv, Nat.reduceMul, Nat.reduceSub, Nat.reducePow, List.take_succ_cons,
      List.take_zero, groupsVal, List.foldl_cons, List.foldl_nil] at hs' ⊢
    omega

/-! ### C101 -/

/-- C101, the format: the text is a minus sign iff the duration is negative; the days in decimal and a
blank iff there are any; hours, minutes and seconds in two digits separated by colons; and for every
third power of ten down to the unit a dash, three digits and the letter of the unit.  The fields are in
their natural ranges and add up to the absolute value of the count. -/
theorem C101_format (k : Nat) (hk : k ≤ 18) {c : Int} (hc : I64 c) (hmin : c ≠ i64Min) :
    ∃ (D H M S : Nat) (fs : List Nat),
      (dur k c).toText = some ((if c < 0 then ['-'] else []) ++
        ((if 0 < D then Nat.toDigits 10 D ++ [' '] else []) ++
        (two H ++ [':'] ++ (two M ++ [':'] ++ (two S ++
          groups ['m', 'u', 'n', 'p', 'f', 'a', 'z', 'y'] fs))))) ∧
      H < 24 ∧ M < 60 ∧ S < 60 ∧ fs.length = (k + 2) / 3 ∧ (∀ f ∈ fs, f < 1000) ∧
      c.natAbs * 10 ^ (3 * ((k + 2) / 3) - k) =
        (D * 86400 + H * 3600 + M * 60 + S) * 1000 ^ ((k + 2) / 3) + groupsVal fs := by
  obtain ⟨d, h, m, s, subs, ht, hg, hf⟩ := text_parts k hk hc hmin
  obtain ⟨_, _, _, _, p1, p2, p3, p4, p5, p6, p7, p8, e0, hd0, hh, hmm, hs, r1, r2, r3, r4, r5, r6, r7, r8, hsum⟩ := hg
  simp only [List.cons.injEq] at e0
  obtain ⟨rfl, rfl, rfl, rfl, rfl⟩ := e0
  obtain ⟨rs, hu, hl⟩ := units_sub k hk
  have hall : ∀ x ∈ [p1, p2, p3, p4, p5, p6, p7, p8], 0 ≤ x ∧ x < 1000 := by
    simp only [List.mem_cons, List.not_mem_nil, or_false]
    rintro x (rfl | rfl | rfl | rfl | rfl | rfl | rfl | rfl) <;> assumption
  refine ⟨d.toNat, h.toNat, m.toNat, s.toNat, ([p1, p2, p3, p4, p5, p6, p7, p8].take rs.length).map Int.toNat,
    ?_, by omega, by omega, by omega, ?_, ?_, ?_⟩
  · rw [ht, hu, subText_groups _ _ _ _ hall (by simp; omega) (by simp; omega), dec_toDigits, pad_two (by omega),
      pad_two (by omega), pad_two (by omega)]
    by_cases hd : d = 0
    · simp [hd]
    · have h0 : 0 < d.toNat := by omega
      rw [if_pos (c := d ≠ 0) hd, if_pos (c := 0 < d.toNat) h0]
  · simp; omega
  · intro f hf
    obtain ⟨x, hx, rfl⟩ := List.mem_map.1 hf
    have := hall x (List.mem_of_mem_take hx)
    omega
  · have hz : ∀ x ∈ ([p1, p2, p3, p4, p5, p6, p7, p8] : List Int).drop rs.length, x = 0 := by
      have h4 := List.forall₂_drop rs.length hf
      rw [hu, List.drop_left' (by simp)] at h4
      exact forall₂_replicate_zero h4
    rw [hl] at hz
    rw [hl]
    exact fields_sum k hk (Int.natCast_natAbs c) hd0 hh.1 hmm.1 hs.1 r1.1 r2.1 r3.1 r4.1 r5.1 r6.1 r7.1 r8.1 hsum hz

/-- A case of `C101_format`: minus 1 day 2:03:04.005 in milliseconds. -/
example : (dur 3 (-93784005)).toText = some (['-'] ++ (Nat.toDigits 10 1 ++ [' '] ++ (two 2 ++ [':'] ++
    (two 3 ++ [':'] ++ (two 4 ++ groups ['m', 'u', 'n', 'p', 'f', 'a', 'z', 'y'] [5]))))) := by
  rw [C101_example]
  decide

end Verif.Chrono
