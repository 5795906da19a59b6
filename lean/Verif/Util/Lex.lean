import Mathlib.Order.Defs.LinearOrder
import Mathlib.Order.Nat
set_option linter.unusedSimpArgs false
set_option linter.unusedVariables false

/-!
Model of `LexicalCompare` (/repo/utility/lexical-compare.h 275-320) and property C80.
-/
namespace Verif.Util

/-- A member named by a pointer-to-member: its type, the operators `<` and `==` of the type, and the access; lexical-compare.h
275-288, `lhs.*ptmv`. -/
structure Member (C : Type) where
  T : Type
  lt : T → T → Bool
  eq : T → T → Bool
  get : C → T

/-- `LexicalCompare(lhs, rhs, ptmv)`; lexical-compare.h 275-288. -/
def Member.cmp {C : Type} (m : Member C) (a b : C) : Int :=
  if m.lt (m.get a) (m.get b) then -1 else if m.eq (m.get a) (m.get b) then 0 else 1

/-- `LexicalCompare(lhs, rhs, ptmv, ptmvs...)`; lexical-compare.h 311-320.  The list of members is not empty in the code. -/
def lexCmp {C : Type} : List (Member C) → C → C → Int
  | [], _, _ => 0
  | [m], a, b => m.cmp a b
  | m :: m' :: ms, a, b => let r := m.cmp a b; if r = 0 then lexCmp (m' :: ms) a b else r

/-! ### The specification -/

/-- The operators are those of a linear order. -/
def Member.Ordered {C : Type} (m : Member C) : Prop :=
  ∃ o : LinearOrder m.T, (∀ x y, m.lt x y = true ↔ o.lt x y) ∧ ∀ x y, m.eq x y = true ↔ x = y

/-- The sequence of the named members of `a` is lexicographically less than that of `b`: the first member that differs is less.
(Specification; no code.) -/
def LexLess {C : Type} (ms : List (Member C)) (a b : C) : Prop :=
  ∃ pre m suf, ms = pre ++ m :: suf ∧ (∀ x ∈ pre, x.get a = x.get b) ∧ m.lt (m.get a) (m.get b) = true

/-- The sequences are equal.  (Specification; no code.) -/
def LexEq {C : Type} (ms : List (Member C)) (a b : C) : Prop := ∀ m ∈ ms, m.get a = m.get b

theorem lexCmp_cons {C : Type} (m : Member C) (ms : List (Member C)) (a b : C) :
    lexCmp (m :: ms) a b = if m.cmp a b = 0 then lexCmp ms a b else m.cmp a b := by
  cases ms with
  | nil =>
    simp only [lexCmp]
    split
    · assumption
    · rfl
  | cons m' ms => simp only [lexCmp]

theorem LexLess_cons {C : Type} (m : Member C) (ms : List (Member C)) (a b : C) :
    LexLess (m :: ms) a b ↔ m.lt (m.get a) (m.get b) = true ∨ (m.get a = m.get b ∧ LexLess ms a b) := by
  constructor
  · rintro ⟨pre, n, suf, h1, h2, h3⟩
    cases pre with
    | nil => simp only [List.nil_append, List.cons.injEq] at h1; obtain ⟨rfl, rfl⟩ := h1; exact Or.inl h3
    | cons p pre =>
      simp only [List.cons_append, List.cons.injEq] at h1
      obtain ⟨rfl, rfl⟩ := h1
      exact Or.inr ⟨h2 m (by simp), pre, n, suf, rfl, fun x hx => h2 x (by simp [hx]), h3⟩
  · rintro (h | ⟨h, pre, n, suf, rfl, h2, h3⟩)
    · exact ⟨[], m, ms, rfl, by simp, h⟩
    · refine ⟨m :: pre, n, suf, rfl, ?_, h3⟩
      intro x hx
      rcases List.mem_cons.mp hx with e | e
      · subst e; exact h
      · exact h2 x e

theorem cmp_cases {C : Type} (m : Member C) (h : m.Ordered) (a b : C) :
    (m.cmp a b = -1 ∧ m.lt (m.get a) (m.get b) = true ∧ m.get a ≠ m.get b ∧ ¬ m.lt (m.get b) (m.get a) = true) ∨
    (m.cmp a b = 0 ∧ m.get a = m.get b ∧ ¬ m.lt (m.get a) (m.get b) = true ∧ ¬ m.lt (m.get b) (m.get a) = true) ∨
    (m.cmp a b = 1 ∧ m.lt (m.get b) (m.get a) = true ∧ m.get a ≠ m.get b ∧ ¬ m.lt (m.get a) (m.get b) = true) := by
  obtain ⟨o, h1, h2⟩ := h
  have irr : ∀ x : m.T, ¬ m.lt x x = true := fun x g => lt_irrefl x ((h1 x x).mp g)
  have asy : ∀ x y : m.T, m.lt x y = true → ¬ m.lt y x = true := fun x y g g' => lt_asymm ((h1 x y).mp g) ((h1 y x).mp g')
  unfold Member.cmp
  rcases lt_trichotomy (m.get a) (m.get b) with g | g | g
  · have g' := (h1 _ _).mpr g
    exact Or.inl ⟨by rw [if_pos g'], g', ne_of_lt g, asy _ _ g'⟩
  · have n1 : ¬ m.lt (m.get a) (m.get b) = true := by rw [g]; exact irr _
    have n2 : ¬ m.lt (m.get b) (m.get a) = true := by rw [g]; exact irr _
    exact Or.inr (Or.inl ⟨by rw [if_neg n1, if_pos ((h2 _ _).mpr g)], g, n1, n2⟩)
  · have g' := (h1 _ _).mpr g
    have ne : m.get a ≠ m.get b := (ne_of_lt g).symm
    exact Or.inr (Or.inr ⟨by rw [if_neg (asy _ _ g'), if_neg (fun e => ne ((h2 _ _).mp e))], g', ne, asy _ _ g'⟩)

/-- **C80.** For members of ordered types, the result is `-1`, `0` or `1` exactly as the sequence of the named members of the first
object is lexicographically less than, equal to or greater than that of the second. -/
theorem C80_trichotomy {C : Type} : ∀ (ms : List (Member C)) (_ : ∀ m ∈ ms, m.Ordered) (a b : C),
    (lexCmp ms a b = -1 ↔ LexLess ms a b) ∧ (lexCmp ms a b = 0 ↔ LexEq ms a b) ∧ (lexCmp ms a b = 1 ↔ LexLess ms b a) ∧
    (lexCmp ms a b = -1 ∨ lexCmp ms a b = 0 ∨ lexCmp ms a b = 1)
  | [], _, a, b => by
    refine ⟨⟨fun h => by simp [lexCmp] at h, ?_⟩, ⟨fun _ m hm => by simp at hm, fun _ => rfl⟩, ⟨fun h => by simp [lexCmp] at h, ?_⟩,
      Or.inr (Or.inl rfl)⟩ <;>
    · rintro ⟨pre, m, suf, h, _⟩; simp at h
  | m :: ms, h, a, b => by
    have ih := C80_trichotomy ms (fun x hx => h x (by simp [hx])) a b
    rw [LexLess_cons, LexLess_cons, lexCmp_cons]
    have hEq : LexEq (m :: ms) a b ↔ m.get a = m.get b ∧ LexEq ms a b := by simp [LexEq]
    rw [hEq]
    rcases cmp_cases m (h m (by simp)) a b with ⟨c, g1, g2, g3⟩ | ⟨c, g1, g2, g3⟩ | ⟨c, g1, g2, g3⟩
    · rw [c, if_neg (by decide)]
      have g2' : ¬ m.get b = m.get a := fun e => g2 e.symm
      simp [g1, g2, g2', g3]
    · rw [c, if_pos rfl]
      simp only [g1]
      rw [← g1]
      have irr : ¬ m.lt (m.get a) (m.get a) = true := by
        have := g2; rw [← g1] at this; exact this
      simp only [irr, false_or, true_and, Bool.false_eq_true]
      exact ih
    · rw [c, if_neg (by decide)]
      simp [g1, g2, g3]

/-- **C80 (antisymmetric).** -/
theorem C80_antisymm {C : Type} (ms : List (Member C)) (h : ∀ m ∈ ms, m.Ordered) (a b : C) : lexCmp ms b a = - lexCmp ms a b := by
  obtain ⟨p1, p2, p3, p4⟩ := C80_trichotomy ms h a b
  obtain ⟨q1, q2, q3, q4⟩ := C80_trichotomy ms h b a
  have e : LexEq ms a b ↔ LexEq ms b a := ⟨fun g m hm => (g m hm).symm, fun g m hm => (g m hm).symm⟩
  rcases p4 with g | g | g
  · rw [g, q3.mpr (p1.mp g)]; rfl
  · rw [g, q2.mpr (e.mp (p2.mp g))]; rfl
  · rw [g, q1.mpr (p3.mp g)]

/-- **C80 (transitive).** -/
theorem C80_trans {C : Type} : ∀ (ms : List (Member C)) (_ : ∀ m ∈ ms, m.Ordered) (a b c : C),
    lexCmp ms a b ≤ 0 → lexCmp ms b c ≤ 0 → lexCmp ms a c ≤ 0 ∧ ((lexCmp ms a b < 0 ∨ lexCmp ms b c < 0) → lexCmp ms a c < 0)
  | [], _, a, b, c => by intro _ _; simp [lexCmp]
  | m :: ms, h, a, b, c => by
    have ih := C80_trans ms (fun x hx => h x (by simp [hx])) a b c
    have ho := h m (by simp)
    obtain ⟨o, o1, o2⟩ := ho
    have tr : ∀ x y z : m.T, m.lt x y = true → m.lt y z = true → m.lt x z = true :=
      fun x y z g g' => (o1 _ _).mpr (lt_trans ((o1 _ _).mp g) ((o1 _ _).mp g'))
    have ho : m.Ordered := ⟨o, o1, o2⟩
    rw [lexCmp_cons, lexCmp_cons, lexCmp_cons]
    rcases cmp_cases m ho a b with ⟨c1, g1, _, _⟩ | ⟨c1, g1, _, _⟩ | ⟨c1, g1, _, _⟩ <;>
    rcases cmp_cases m ho b c with ⟨c2, k1, _, _⟩ | ⟨c2, k1, _, _⟩ | ⟨c2, k1, _, _⟩
    · have : m.cmp a c = -1 := by unfold Member.cmp; rw [if_pos (tr _ _ _ g1 k1)]
      rw [this]; intro _ _; simp
    · have : m.cmp a c = -1 := by unfold Member.cmp; rw [if_pos (by rw [← k1]; exact g1)]
      rw [this]; intro _ _; simp
    · rw [c1, c2]; intro _ h2; simp at h2
    · have : m.cmp a c = -1 := by unfold Member.cmp; rw [if_pos (by rw [g1]; exact k1)]
      rw [this]; intro _ _; simp
    · have : m.cmp a c = 0 := by
        rcases cmp_cases m ho a c with ⟨_, _, ne, _⟩ | ⟨c3, _⟩ | ⟨_, _, ne, _⟩
        · exact absurd (g1.trans k1) ne
        · exact c3
        · exact absurd (g1.trans k1) ne
      rw [this, c1, c2, if_pos rfl, if_pos rfl, if_pos rfl]
      exact ih
    · rw [c2]; intro _ h2; simp at h2
    all_goals (rw [c1]; intro h1; simp at h1)

/-- **C80 needs ordered members.** For a member with incomparable values (a floating-point member holding NaN) both directions
report "greater". -/
theorem C80_unordered_fails {C : Type} (m : Member C) (ms : List (Member C)) (a b : C)
    (h1 : m.lt (m.get a) (m.get b) = false) (h2 : m.lt (m.get b) (m.get a) = false)
    (h3 : m.eq (m.get a) (m.get b) = false) (h4 : m.eq (m.get b) (m.get a) = false) :
    lexCmp (m :: ms) a b = 1 ∧ lexCmp (m :: ms) b a = 1 := by
  rw [lexCmp_cons, lexCmp_cons]
  simp [Member.cmp, h1, h2, h3, h4]

/-- A natural-number member.  (A client; no code.) -/
def natMember {C : Type} (f : C → Nat) : Member C := ⟨Nat, fun x y => decide (x < y), fun x y => x == y, f⟩

theorem natMember_ordered {C : Type} (f : C → Nat) : (natMember f).Ordered :=
  ⟨inferInstanceAs (LinearOrder Nat), fun x y => by simp [natMember]; rfl, fun (x y : Nat) => by simp [natMember]⟩

/-- Two members of different significance. -/
example : let ms := [natMember (C := Nat × Nat) Prod.fst, natMember Prod.snd]
    (∀ m ∈ ms, m.Ordered) ∧ lexCmp ms (1, 5) (1, 7) = -1 ∧ lexCmp ms (2, 5) (1, 7) = 1 := by
  refine ⟨?_, by decide, by decide⟩
  intro m hm
  rcases List.mem_cons.mp hm with e | hm
  · subst e; exact natMember_ordered _
  · rcases List.mem_cons.mp hm with e | hm
    · subst e; exact natMember_ordered _
    · simp at hm

end Verif.Util
