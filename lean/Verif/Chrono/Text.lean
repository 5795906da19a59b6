import Verif.Chrono.Props
set_option linter.unusedSimpArgs false
/-!
Property C101: the text of a duration or time point determines it.
-/
namespace Verif.Chrono

/-! ### Model -/

/-- Decimal digit character.  (What `oss <<` prints in /repo/chrono/duration.h 1004-1049.) -/
def digitC (d : Nat) : Char := Char.ofNat (48 + d)

/-- A number as printed by an output stream: decimal, no leading zeros.  (`oss << d` in /repo/chrono/duration.h 1009-1012.) -/
def dec (n : Nat) : List Char := if n < 10 then [digitC n] else dec (n / 10) ++ [digitC (n % 10)]

/-- `std::setw(w) << std::setfill('0') << n`: padded on the left to width `w`; longer numbers are not cut.
(/repo/chrono/duration.h 1014-1049.) -/
def pad (w n : Nat) : List Char := List.replicate (w - (dec n).length) '0' ++ dec n

/-- The parts below a second: `-xxxc` for each unit that is not `UnderflowTag`;
/repo/chrono/duration.h 1021-1052. -/
def subText : List TUnit → List Int → List Char → List Char
  | u :: us, x :: xs, c :: cs =>
    (if u = .under then [] else '-' :: (pad 3 x.toNat ++ [c])) ++ subText us xs cs
  | _, _, _ => []

/-- `ToString`; /repo/chrono/duration.h 986-1054.  The parts are not negative when `Split` is defined. -/
def Dur.toText (a : Dur) : Option (List Char) :=
  match a.split with
  | some (neg, d :: h :: m :: s :: subs) =>
    some ((if neg then ['-'] else []) ++ ((if d ≠ 0 then dec d.toNat ++ [' '] else []) ++
      (pad 2 h.toNat ++ [':'] ++ (pad 2 m.toNat ++ [':'] ++ (pad 2 s.toNat ++
        subText ((units a.res).drop 4) subs ['m', 'u', 'n', 'p', 'f', 'a', 'z', 'y'])))))
  | _ => none

/-- `TimePoint::ToString`; /repo/chrono/virtual-time-point.h 286-290. -/
def TP.toText (t : TP) : Option (List Char) := t.getDuration.toText

/-! ### Lemmas -/

/-- The characters of numbers.  (Specification; no code.) -/
def IsDigit (c : Char) : Prop := ∃ d, d < 10 ∧ c = digitC d

theorem digit_facts {c : Char} (h : IsDigit c) : c ≠ '-' ∧ c ≠ ' ' ∧ c ≠ ':' := by
  obtain ⟨d, hd, rfl⟩ := h
  have : ∀ d, d < 10 → digitC d ≠ '-' ∧ digitC d ≠ ' ' ∧ digitC d ≠ ':' := by decide
  exact this d hd

/-- Reading a decimal number.  (Specification; no code.) -/
def readDec (l : List Char) : Nat := l.foldl (fun acc c => acc * 10 + (c.toNat - 48)) 0

theorem digit_val {d : Nat} (h : d < 10) : (digitC d).toNat - 48 = d := by
  have : ∀ d, d < 10 → (digitC d).toNat - 48 = d := by decide
  exact this d h

theorem dec_digits (n : Nat) : ∀ c ∈ dec n, IsDigit c := by
  induction n using Nat.strongRecOn with
  | _ n ih =>
    intro c hc
    unfold dec at hc
    split at hc
    · rename_i h
      simp only [List.mem_singleton] at hc
      exact ⟨n, h, hc⟩
    · rename_i h
      rw [List.mem_append] at hc
      rcases hc with hc | hc
      · exact ih (n / 10) (by omega) c hc
      · simp only [List.mem_singleton] at hc
        exact ⟨n % 10, by omega, hc⟩

theorem readDec_dec (n : Nat) : readDec (dec n) = n := by
  induction n using Nat.strongRecOn with
  | _ n ih =>
    unfold dec
    split
    · rename_i h
      simp only [readDec, List.foldl_cons, List.foldl_nil, digit_val h]; omega
    · rename_i h
      have := ih (n / 10) (by omega)
      rw [readDec, List.foldl_append]
      rw [readDec] at this
      rw [this]
      simp only [List.foldl_cons, List.foldl_nil, digit_val (show n % 10 < 10 by omega)]
      omega

theorem dec_inj {m n : Nat} (h : dec m = dec n) : m = n := by
  rw [← readDec_dec m, h, readDec_dec]

theorem dec_length_pos (n : Nat) : 0 < (dec n).length := by
  unfold dec
  split <;> simp

theorem dec_length_le {n w : Nat} (hw : 0 < w) (h : n < 10 ^ w) : (dec n).length ≤ w := by
  induction w generalizing n with
  | zero => omega
  | succ w ih =>
    unfold dec
    split
    · simp
    · rename_i h10
      rw [List.length_append]
      have hw' : 0 < w := by
        rcases Nat.eq_zero_or_pos w with rfl | h0
        · simp at h; omega
        · exact h0
      have := ih hw' (n := n / 10) (by
        rw [Nat.pow_succ] at h
        exact Nat.div_lt_of_lt_mul (by omega))
      simp only [List.length_singleton]
      omega

theorem pad_length {n w : Nat} (hw : 0 < w) (h : n < 10 ^ w) : (pad w n).length = w := by
  have := dec_length_le hw h
  simp only [pad, List.length_append, List.length_replicate]
  omega

theorem readDec_pad (w n : Nat) : readDec (pad w n) = n := by
  have h0 : ∀ k acc, (List.replicate k '0').foldl (fun acc c => acc * 10 + (c.toNat - 48)) (acc * 0) = 0 := by
    intro k
    induction k with
    | zero => simp
    | succ k ih =>
      intro acc
      simp only [List.replicate_succ, List.foldl_cons]
      have := ih 0
      simpa using this
  have := h0 (w - (dec n).length) 0
  simp only [Nat.mul_zero] at this
  rw [readDec, pad, List.foldl_append, this]
  exact readDec_dec n

theorem pad_inj {w m n : Nat} (h : pad w m = pad w n) : m = n := by
  rw [← readDec_pad w m, h, readDec_pad]

theorem pad_digits (w n : Nat) : ∀ c ∈ pad w n, IsDigit c := by
  intro c hc
  rw [pad, List.mem_append] at hc
  rcases hc with hc | hc
  · have := List.eq_of_mem_replicate hc
    exact ⟨0, by decide, by rw [this]; decide⟩
  · exact dec_digits n c hc

theorem split_at_space {l l' t t' : List Char} (hl : ' ' ∉ l) (hl' : ' ' ∉ l')
    (h : l ++ ' ' :: t = l' ++ ' ' :: t') : l = l' ∧ t = t' := by
  induction l generalizing l' with
  | nil =>
    cases l' with
    | nil => simp at h; exact ⟨rfl, h⟩
    | cons a l' =>
      simp only [List.nil_append, List.cons_append, List.cons.injEq] at h
      exact absurd (h.1 ▸ List.mem_cons_self) hl'
  | cons a l ih =>
    cases l' with
    | nil =>
      simp only [List.nil_append, List.cons_append, List.cons.injEq] at h
      exact absurd (h.1 ▸ List.mem_cons_self) hl
    | cons b l' =>
      simp only [List.cons_append, List.cons.injEq] at h
      obtain ⟨h1, h2⟩ := ih (fun hm => hl (List.mem_cons_of_mem _ hm))
        (fun hm => hl' (List.mem_cons_of_mem _ hm)) h.2
      exact ⟨by rw [h.1, h1], h2⟩

theorem splitLoop_under {us : List TUnit} : ∀ {u v : Int} {xs : List Int},
    splitLoop us u v = some xs → List.Forall₂ (fun t x => t = TUnit.under → x = 0) us xs := by
  induction us with
  | nil => intro u v xs h; simp [splitLoop] at h; subst h; exact List.Forall₂.nil
  | cons t ts ih =>
    intro u v xs h
    have e : splitLoop (t :: ts) u v = (ratioDivide u v t).bind fun p =>
      (splitLoop ts p.2.1 p.2.2).bind fun xs => some (p.1 :: xs) := rfl
    rw [e] at h
    cases hr : ratioDivide u v t with
    | none => rw [hr] at h; simp at h
    | some p =>
      rw [hr, Option.bind_some] at h
      cases hs : splitLoop ts p.2.1 p.2.2 with
      | none => rw [hs] at h; simp at h
      | some ys =>
        rw [hs, Option.bind_some, Option.some.injEq] at h
        subst h
        refine List.Forall₂.cons ?_ (ih hs)
        rintro rfl
        rw [rd_under] at hr
        cases hr
        rfl

theorem subText_inj {us : List TUnit} : ∀ {xs ys : List Int} {cs : List Char},
    List.Forall₂ (fun t x => t = TUnit.under → x = 0) us xs →
    List.Forall₂ (fun t x => t = TUnit.under → x = 0) us ys →
    (∀ x ∈ xs, 0 ≤ x ∧ x < 1000) → (∀ x ∈ ys, 0 ≤ x ∧ x < 1000) → us.length ≤ cs.length →
    subText us xs cs = subText us ys cs → xs = ys := by
  induction us with
  | nil =>
    intro xs ys cs h1 h2 _ _ _ _
    cases h1; cases h2; rfl
  | cons t ts ih =>
    intro xs ys cs h1 h2 b1 b2 hl h
    cases h1 with
    | cons hx h1 =>
      cases h2 with
      | cons hy h2 =>
        rename_i x xs y ys
        cases cs with
        | nil => simp at hl
        | cons c cs =>
          simp only [subText] at h
          have hl' : ts.length ≤ cs.length := by simpa using hl
          have bx := b1 x List.mem_cons_self
          have bY := b2 y List.mem_cons_self
          have b1' : ∀ x ∈ xs, 0 ≤ x ∧ x < 1000 := fun z hz => b1 z (List.mem_cons_of_mem _ hz)
          have b2' : ∀ x ∈ ys, 0 ≤ x ∧ x < 1000 := fun z hz => b2 z (List.mem_cons_of_mem _ hz)
          by_cases ht : t = .under
          · simp only [ht, if_true, List.nil_append] at h
            rw [hx ht, hy ht, ih h1 h2 b1' b2' hl' h]
          · simp only [if_neg ht, List.cons_append, List.cons.injEq, true_and, List.append_assoc] at h
            have e := List.append_inj h (by
              rw [pad_length (by decide) (show x.toNat < 10 ^ 3 by omega),
                pad_length (by decide) (show y.toNat < 10 ^ 3 by omega)])
            have e1 := pad_inj e.1
            have e2 := e.2
            simp only [List.nil_append, List.cons_append, List.cons.injEq, true_and] at e2
            rw [ih h1 h2 b1' b2' hl' e2]
            congr 1
            omega

theorem subText_no_space {us : List TUnit} : ∀ {xs : List Int} {cs : List Char}, ' ' ∉ cs →
    ' ' ∉ subText us xs cs := by
  induction us with
  | nil => intro xs cs _; simp [subText]
  | cons t ts ih =>
    intro xs cs hc
    cases xs with
    | nil => simp [subText]
    | cons x xs =>
      cases cs with
      | nil => simp [subText]
      | cons c cs =>
        simp only [List.mem_cons, not_or] at hc
        simp only [subText, List.mem_append, not_or]
        refine ⟨?_, ih hc.2⟩
        split
        · simp
        · simp only [List.mem_cons, List.mem_append, not_or, List.not_mem_nil, or_false]
          exact ⟨by decide, fun h => (digit_facts (pad_digits _ _ _ h)).2.1 rfl, hc.1⟩

/-- The text below a day contains no blank and starts with a digit. -/
theorem clock_text (h m s : Nat) (t : List Char) (ht : ' ' ∉ t) :
    ' ' ∉ pad 2 h ++ [':'] ++ (pad 2 m ++ [':'] ++ (pad 2 s ++ t)) := by
  have hp : ∀ w n, ' ' ∉ pad w n := fun w n hm => (digit_facts (pad_digits w n _ hm)).2.1 rfl
  simp only [List.mem_append, not_or, List.mem_singleton]
  exact ⟨⟨hp _ _, by decide⟩, ⟨hp _ _, by decide⟩, hp _ _, ht⟩

theorem split_eq (a : Dur) {neg : Bool} {xs : List Int} (h : a.split = some (neg, xs)) :
    ∃ u, splitLoop (units a.res) u 1 = some xs := by
  unfold Dur.split at h
  by_cases hn : a.count < 0
  · simp only [hn, decide_true, if_true] at h
    cases hu : ck (-a.count) with
    | none => rw [hu] at h; simp at h
    | some u =>
      cases hs : splitLoop (units a.res) u 1 with
      | none => rw [hu] at h; simp [hs] at h
      | some ys =>
        rw [hu] at h
        simp [hs] at h
        exact ⟨u, by rw [hs, h.2]⟩
  · simp only [hn, decide_false, Bool.false_eq_true, if_false] at h
    cases hs : splitLoop (units a.res) a.count 1 with
    | none => simp [hs] at h
    | some ys =>
      simp [hs] at h
      exact ⟨a.count, by rw [hs, h.2]⟩

/-- What the text is made of. -/
theorem text_parts (k : Nat) (hk : k ≤ 18) {c : Int} (hc : I64 c) (hmin : c ≠ i64Min) :
    ∃ d h m s : Int, ∃ subs : List Int,
      (dur k c).toText = some ((if c < 0 then ['-'] else []) ++
        ((if d ≠ 0 then dec d.toNat ++ [' '] else []) ++
        (pad 2 h.toNat ++ [':'] ++ (pad 2 m.toNat ++ [':'] ++ (pad 2 s.toNat ++
          subText ((units (deci k)).drop 4) subs ['m', 'u', 'n', 'p', 'f', 'a', 'z', 'y']))))) ∧
      GoodParts k |c| (d :: h :: m :: s :: subs) ∧
      List.Forall₂ (fun t x => t = TUnit.under → x = 0) ((units (deci k)).drop 4) subs := by
  obtain ⟨xs, hsp, hg⟩ := C41_split k hk hc hmin
  have hg' := hg
  obtain ⟨d, h, m, s, ms, us, ns, ps, fs, as', zs, ys, rfl, -⟩ := hg'
  obtain ⟨u, hu⟩ := split_eq _ hsp
  refine ⟨d, h, m, s, _, ?_, hg, ?_⟩
  · simp only [Dur.toText, hsp]
    by_cases hn : c < 0 <;> simp [hn]
  · have := splitLoop_under hu
    have hd := List.forall₂_drop 4 this
    exact hd

/-! ### C101 -/

/-- C101: the text exists for every count except the minimum, and two durations of the same unit with
the same text are equal. -/
theorem C101_text (k : Nat) (hk : k ≤ 18) {c c' : Int} (hc : I64 c) (hc' : I64 c')
    (hm : c ≠ i64Min) (hm' : c' ≠ i64Min) :
    (dur k c).toText.isSome ∧ ((dur k c).toText = (dur k c').toText → c = c') := by
  obtain ⟨d, h, m, s, subs, ht, hg, hf⟩ := text_parts k hk hc hm
  obtain ⟨d', h', m', s', subs', ht', hg', hf'⟩ := text_parts k hk hc' hm'
  refine ⟨by rw [ht]; rfl, ?_⟩
  intro he
  rw [ht, ht', Option.some.injEq] at he
  obtain ⟨_, _, _, _, p1, p2, p3, p4, p5, p6, p7, p8, e0, hd0, hh, hmm, hs, r1, r2, r3, r4, r5, r6, r7, r8, hsum⟩ := hg
  obtain ⟨_, _, _, _, q1, q2, q3, q4, q5, q6, q7, q8, e0', hd0', hh', hmm', hs', s1, s2, s3, s4, s5, s6, s7, s8, hsum'⟩ := hg'
  simp only [List.cons.injEq] at e0 e0'
  obtain ⟨rfl, rfl, rfl, rfl, rfl⟩ := e0
  obtain ⟨rfl, rfl, rfl, rfl, rfl⟩ := e0'
  have hsp : ∀ xs, ' ' ∉ subText ((units (deci k)).drop 4) xs ['m', 'u', 'n', 'p', 'f', 'a', 'z', 'y'] :=
    fun xs => subText_no_space (by decide)
  have first : ∀ (D : Int) (H : Nat) (t : List Char),
      ∃ x r, IsDigit x ∧ (if D ≠ 0 then dec D.toNat ++ [' '] else []) ++ (pad 2 H ++ [':'] ++ t) = x :: r := by
    intro D H t
    by_cases hD : D ≠ 0
    · rw [if_pos hD]
      have := dec_length_pos D.toNat
      cases hdd : dec D.toNat with
      | nil => rw [hdd] at this; simp at this
      | cons x r => exact ⟨x, _, dec_digits D.toNat x (by rw [hdd]; exact List.mem_cons_self), rfl⟩
    · rw [if_neg hD, List.nil_append]
      cases hdd : pad 2 H with
      | nil =>
        have := dec_length_pos H
        have h2 : (pad 2 H).length = 0 := by rw [hdd]; rfl
        simp only [pad, List.length_append] at h2
        omega
      | cons x r => exact ⟨x, _, pad_digits 2 H x (by rw [hdd]; exact List.mem_cons_self), rfl⟩
  -- the sign
  have hsign : (c < 0 ↔ c' < 0) ∧
      (if d ≠ 0 then dec d.toNat ++ [' '] else []) ++ (pad 2 h.toNat ++ [':'] ++ (pad 2 m.toNat ++ [':'] ++
        (pad 2 s.toNat ++ subText ((units (deci k)).drop 4) [p1, p2, p3, p4, p5, p6, p7, p8]
          ['m', 'u', 'n', 'p', 'f', 'a', 'z', 'y']))) =
      (if d' ≠ 0 then dec d'.toNat ++ [' '] else []) ++ (pad 2 h'.toNat ++ [':'] ++ (pad 2 m'.toNat ++ [':'] ++
        (pad 2 s'.toNat ++ subText ((units (deci k)).drop 4) [q1, q2, q3, q4, q5, q6, q7, q8]
          ['m', 'u', 'n', 'p', 'f', 'a', 'z', 'y']))) := by
    obtain ⟨x, r, hx, ex⟩ := first d h.toNat (pad 2 m.toNat ++ [':'] ++
        (pad 2 s.toNat ++ subText ((units (deci k)).drop 4) [p1, p2, p3, p4, p5, p6, p7, p8]
          ['m', 'u', 'n', 'p', 'f', 'a', 'z', 'y']))
    obtain ⟨y, r', hy, ey⟩ := first d' h'.toNat (pad 2 m'.toNat ++ [':'] ++
        (pad 2 s'.toNat ++ subText ((units (deci k)).drop 4) [q1, q2, q3, q4, q5, q6, q7, q8]
          ['m', 'u', 'n', 'p', 'f', 'a', 'z', 'y']))
    rw [ex, ey] at he
    rw [ex, ey]
    by_cases n1 : c < 0 <;> by_cases n2 : c' < 0
    · simp only [n1, n2, if_true, List.cons_append, List.nil_append, List.cons.injEq, true_and] at he
      exact ⟨by simp [n1, n2], by rw [he.1, he.2]⟩
    · simp only [n1, n2, if_true, if_false, List.cons_append, List.nil_append, List.cons.injEq] at he
      exact absurd he.1.symm (digit_facts hy).1
    · simp only [n1, n2, if_true, if_false, List.cons_append, List.nil_append, List.cons.injEq] at he
      exact absurd he.1 (digit_facts hx).1
    · simp only [n1, n2, if_false, List.nil_append] at he
      exact ⟨by simp [n1, n2], he⟩
  obtain ⟨hsg, he⟩ := hsign
  -- the days
  have c1 := clock_text h.toNat m.toNat s.toNat _ (hsp [p1, p2, p3, p4, p5, p6, p7, p8])
  have c2 := clock_text h'.toNat m'.toNat s'.toNat _ (hsp [q1, q2, q3, q4, q5, q6, q7, q8])
  have hdd : ∀ n, ' ' ∉ dec n := fun n hm => (digit_facts (dec_digits n _ hm)).2.1 rfl
  have hday : d = d' ∧ pad 2 h.toNat ++ [':'] ++ (pad 2 m.toNat ++ [':'] ++
        (pad 2 s.toNat ++ subText ((units (deci k)).drop 4) [p1, p2, p3, p4, p5, p6, p7, p8]
          ['m', 'u', 'n', 'p', 'f', 'a', 'z', 'y'])) =
      pad 2 h'.toNat ++ [':'] ++ (pad 2 m'.toNat ++ [':'] ++
        (pad 2 s'.toNat ++ subText ((units (deci k)).drop 4) [q1, q2, q3, q4, q5, q6, q7, q8]
          ['m', 'u', 'n', 'p', 'f', 'a', 'z', 'y'])) := by
    by_cases z1 : d = 0 <;> by_cases z2 : d' = 0
    · subst z1; subst z2
      simp only [ne_eq, not_true_eq_false, if_false, List.nil_append] at he
      exact ⟨rfl, he⟩
    · subst z1
      simp only [ne_eq, not_true_eq_false, if_false, z2, not_false_eq_true, if_true, List.nil_append] at he
      rw [he] at c1
      exact absurd (by simp) c1
    · subst z2
      simp only [ne_eq, not_true_eq_false, if_false, z1, not_false_eq_true, if_true, List.nil_append] at he
      rw [← he] at c2
      exact absurd (by simp) c2
    · simp only [ne_eq, z1, z2, not_false_eq_true, if_true] at he
      rw [← List.append_cons (dec d.toNat), ← List.append_cons (dec d'.toNat)] at he
      obtain ⟨e1, e2⟩ := split_at_space (hdd _) (hdd _) he
      have := dec_inj e1
      exact ⟨by omega, e2⟩
  obtain ⟨hdd', heq⟩ := hday
  subst hdd'
  -- the fixed-width fields
  have w2 : ∀ {x : Int}, 0 ≤ x → x < 60 → (pad 2 x.toNat).length = 2 := by
    intro x h0 h1; exact pad_length (by decide) (by omega)
  have f1 := List.append_inj heq (by
    rw [List.length_append, List.length_append, w2 hh.1 (by omega), w2 hh'.1 (by omega)])
  have f2 := List.append_inj f1.2 (by
    rw [List.length_append, List.length_append, w2 hmm.1 hmm.2, w2 hmm'.1 hmm'.2])
  have f3 := List.append_inj f2.2 (by rw [w2 hs.1 hs.2, w2 hs'.1 hs'.2])
  have g1 := pad_inj (List.append_inj f1.1 (by rw [w2 hh.1 (by omega), w2 hh'.1 (by omega)])).1
  have g2 := pad_inj (List.append_inj f2.1 (by rw [w2 hmm.1 hmm.2, w2 hmm'.1 hmm'.2])).1
  have g3 := pad_inj f3.1
  have hlen : ((units (deci k)).drop 4).length ≤ (['m', 'u', 'n', 'p', 'f', 'a', 'z', 'y'] : List Char).length := by
    simp [units]
  have g4 := subText_inj hf hf' (by simp; omega) (by simp; omega) hlen f3.2
  simp only [List.cons.injEq, and_true] at g4
  obtain ⟨rfl, rfl, rfl, rfl, rfl, rfl, rfl, rfl⟩ := g4
  have t1 : h = h' := by omega
  have t2 : m = m' := by omega
  have t3 : s = s' := by omega
  subst t1; subst t2; subst t3
  have habs : |c| = |c'| := by
    rw [← hsum'] at hsum
    exact mul_right_cancel₀ (i10 (24 - k)).ne' hsum
  rcases abs_cases c with h1 | h1 <;> rcases abs_cases c' with h2 | h2 <;> omega

/-- C101 for time points. -/
theorem C101_time_point {t u : TP} (ht : I64 t.dt) (hu : I64 u.dt) (h1 : t.dt ≠ i64Min) (h2 : u.dt ≠ i64Min) :
    t.toText.isSome ∧ (t.toText = u.toText → t = u) := by
  have := C101_text 10 (by decide) ht hu h1 h2
  rw [show dur 10 t.dt = t.getDuration by rw [TP.getDuration, tenthNano_eq],
    show dur 10 u.dt = u.getDuration by rw [TP.getDuration, tenthNano_eq]] at this
  refine ⟨this.1, fun h => ?_⟩
  have e := this.2 h
  cases t; cases u; simp_all

/-- C101: the minimum has no text (negating it overflows). -/
theorem C101_min_fails (k : Nat) : (dur k i64Min).toText = none := by
  simp only [Dur.toText, C41_min_overflows k]

/-- A case of C101: minus 1 day 2:03:04.005 in milliseconds. -/
theorem C101_example : (dur 3 (-93784005)).toText = some "-1 02:03:04-005m".toList := by
  have e : (dur 3 (-93784005)).split = some (true, [1, 2, 3, 4, 5, 0, 0, 0, 0, 0, 0, 0]) := by decide
  have d : ∀ n, n < 10 → dec n = [digitC n] := by intro n h; rw [dec, if_pos h]
  have u : (units (dur 3 (-93784005)).res).drop 4 =
      [.ratio ⟨1, 1⟩, .under, .under, .under, .under, .under, .under, .under] := by decide
  simp only [Dur.toText, e, u, subText, pad]
  simp (decide := true) [d, digitC]

end Verif.Chrono
