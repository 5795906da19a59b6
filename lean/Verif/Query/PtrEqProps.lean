import Verif.Query.PtrEq
import Verif.Query.Props
set_option linter.unusedSimpArgs false
set_option linter.unusedVariables false
/-! Property C154: comparing smart pointers. -/
namespace Verif.Query

/-- A pointer of the type `T` to `n`, obtained from the object `o` by any number of conversions between interfaces. -/
inductive Got (W : World) (o : Nat) : Iid → Nat → Prop
  | first {T : Iid} {n : Nat} {refs : List Nat} : Answers W o T (some n, refs) → Got W o T n
  | convert {T U : Iid} {m n : Nat} {refs : List Nat} : Got W o U m → Answers W m T (some n, refs) → Got W o T n

/-- The pointer refers to the object `o`: it was obtained from it by conversions, or points to an interface of it, or of an object
aggregated to it (which includes the pointer to the object itself, as its class). -/
def Refers (W : World) (o : Nat) (p : TPtr) : Prop :=
  ∃ m, p.at? = some m ∧ Belongs W o m ∧ (p.ty = iObject → m = o)

theorem got_answers {W : World} (hW : Wired W) {o : Nat} (ho : Root W o) {T : Iid} {n : Nat} (h : Got W o T n) :
    ∃ refs, Answers W o T (some n, refs) := by
  induction h with
  | first h => exact ⟨_, h⟩
  | convert _ h ih =>
    obtain ⟨refs, hr⟩ := ih
    exact ⟨_, (C50_same_answers hW ho hr).mp h⟩

theorem got_refers {W : World} (hW : Wired W) {o : Nat} (ho : Root W o) {T : Iid} {n : Nat} (h : Got W o T n) :
    Refers W o ⟨T, some n⟩ := by
  obtain ⟨refs, hr⟩ := got_answers hW ho h
  refine ⟨n, rfl, answer_belongs hW ho hr, fun e => ?_⟩
  have e : T = iObject := e
  subst e
  have := C50_deterministic hr (C50_identity ho)
  cases this; rfl

theorem identity_of {W : World} {o : Nat} (ho : Root W o) {p : TPtr} (h : Refers W o p) :
    ∃ f, ∀ g, f ≤ g → identity g W p = some (some (some o), [o]) := by
  obtain ⟨m, h1, h2, h3⟩ := h
  by_cases e : p.ty = iObject
  · refine ⟨0, fun g _ => ?_⟩
    have := h3 e; subst this
    simp [identity, h1, e]
  · obtain ⟨f, hf⟩ := (C51_query h2 iObject _).mpr (C50_identity ho)
    refine ⟨f, fun g hg => ?_⟩
    simp [identity, h1, e, query_le hg hf]

theorem belongs_unique {W : World} {o o' m : Nat} (ho : Root W o) (ho' : Root W o') (h : Belongs W o m) (h' : Belongs W o' m) :
    o = o' := by
  have a := (C51_query h iObject _).mpr (C50_identity ho)
  have b := (C51_query h' iObject _).mpr (C50_identity ho')
  have := C50_deterministic a b
  cases this; rfl

theorem compares_det {W : World} {a b : TPtr} {c c' : Cmp} (h : Compares W a b c) (h' : Compares W a b c') : c = c' := by
  have idle : ∀ {f g : Nat} {p : TPtr} {r}, f ≤ g → identity f W p = some r → identity g W p = some r := by
    intro f g p r hfg hr
    unfold identity at hr ⊢
    cases hp : p.at? with
    | none => rw [hp] at hr; exact hr
    | some m =>
      rw [hp] at hr
      dsimp only at hr ⊢
      split
      · rename_i e; rw [if_pos e] at hr; exact hr
      · rename_i e
        rw [if_neg e] at hr
        cases hq : query f W m iObject with
        | none => rw [hq] at hr; cases hr
        | some q => rw [query_le hfg hq]; rw [hq] at hr; exact hr
  have mono : ∀ {f g : Nat} {c}, f ≤ g → same f W a b = some c → same g W a b = some c := by
    intro f g c hfg hc
    unfold same at hc ⊢
    by_cases e : a.ty = b.ty
    · rw [if_pos e] at hc ⊢; exact hc
    · rw [if_neg e] at hc ⊢
      cases ha : identity f W a with
      | none => rw [ha] at hc; cases hc
      | some ra =>
        rw [idle hfg ha]; rw [ha] at hc
        obtain ⟨xa, la⟩ := ra
        cases xa with
        | none => exact hc
        | some x =>
          dsimp only at hc ⊢
          cases hb : identity f W b with
          | none => rw [hb] at hc; cases hc
          | some rb => rw [idle hfg hb]; rw [hb] at hc; exact hc
  obtain ⟨f, h⟩ := h
  obtain ⟨g, h'⟩ := h'
  have h1 := mono (Nat.le_max_left f g) h
  have h2 := mono (Nat.le_max_right f g) h'
  rw [h1] at h2; exact Option.some.inj h2

/-! ### C154 -/

/-- Pointers of different types are equal exactly when they refer to the same object, whatever interfaces and aggregated objects
they point to; the comparison does not throw, and takes no reference in the end. -/
theorem ptreq_object {W : World} {o o' : Nat} (ho : Root W o) (ho' : Root W o') {a b : TPtr} (ha : Refers W o a)
    (hb : Refers W o' b) (hne : a.ty ≠ b.ty) :
    (∃ c, Compares W a b c) ∧
    ∀ c, Compares W a b c → c.res = some (decide (o = o')) ∧ c.added.Perm c.released := by
  obtain ⟨f, hf⟩ := identity_of ho ha
  obtain ⟨g, hg⟩ := identity_of ho' hb
  have key : Compares W a b ⟨some (decide (o = o')), [o] ++ [o'], [o'] ++ [o]⟩ := by
    refine ⟨max f g, ?_⟩
    simp [same, hne, hf _ (Nat.le_max_left f g), hg _ (Nat.le_max_right f g)]
  refine ⟨⟨_, key⟩, fun c hc => ?_⟩
  have := compares_det hc key
  subst this
  exact ⟨rfl, List.perm_append_comm⟩

/-- Pointers of any types that were obtained from objects by conversions are equal exactly when they refer to the same object; so
equality is reflexive, symmetric and transitive on them.  This is the claim without pointers of one type to interfaces of
different objects that are aggregated to the same object: `ptreq_fails`. -/
theorem ptreq_partial {W : World} (hW : Wired W) {o o' : Nat} (ho : Root W o) (ho' : Root W o') {T U : Iid} {m n : Nat}
    (ha : Got W o T m) (hb : Got W o' U n) :
    (∃ c, Compares W ⟨T, some m⟩ ⟨U, some n⟩ c) ∧
    ∀ c, Compares W ⟨T, some m⟩ ⟨U, some n⟩ c → c.res = some (decide (o = o')) ∧ c.added.Perm c.released := by
  by_cases e : T = U
  · subst e
    have key : Compares W ⟨T, some m⟩ ⟨T, some n⟩ ⟨some (decide (m = n)), [], []⟩ := ⟨0, by simp [same]⟩
    refine ⟨⟨_, key⟩, fun c hc => ?_⟩
    have := compares_det hc key
    subst this
    refine ⟨?_, .refl _⟩
    obtain ⟨r1, h1⟩ := got_answers hW ho ha
    obtain ⟨r2, h2⟩ := got_answers hW ho' hb
    have : m = n ↔ o = o' := by
      constructor
      · rintro rfl
        exact belongs_unique ho ho' (answer_belongs hW ho h1) (answer_belongs hW ho' h2)
      · rintro rfl
        have := C50_deterministic h1 h2
        cases this; rfl
    simp [this]
  · exact ptreq_object ho ho' (got_refers hW ho ha) (got_refers hW ho' hb) e

/-- A null pointer equals null pointers of every type, and no other pointer. -/
theorem ptreq_null {W : World} {o : Nat} (ho : Root W o) (T : Iid) {a : TPtr} (ha : Refers W o a) (U : Iid) :
    (∀ c, Compares W ⟨T, none⟩ ⟨U, none⟩ c → c = ⟨some true, [], []⟩) ∧ (∃ c, Compares W ⟨T, none⟩ ⟨U, none⟩ c) ∧
    (∃ c, Compares W ⟨T, none⟩ a c ∧ c.res = some false ∧ c.added.Perm c.released) ∧
    (∃ c, Compares W a ⟨T, none⟩ c ∧ c.res = some false ∧ c.added.Perm c.released) := by
  have key : Compares W ⟨T, none⟩ ⟨U, none⟩ ⟨some true, [], []⟩ := by
    refine ⟨0, ?_⟩
    by_cases e : T = U <;> simp [same, e, identity]
  refine ⟨fun c hc => compares_det hc key, ⟨_, key⟩, ?_⟩
  obtain ⟨f, hf⟩ := identity_of ho ha
  have hf := hf f (Nat.le_refl _)
  obtain ⟨m, h1, -, -⟩ := ha
  have hnull : ∀ S, identity f W ⟨S, none⟩ = some (some none, []) := fun S => rfl
  by_cases e : T = a.ty
  · exact ⟨⟨⟨some false, [], []⟩, ⟨f, by simp [same, e, h1]⟩, rfl, .refl _⟩,
      ⟨⟨some false, [], []⟩, ⟨f, by simp [same, e, h1]⟩, rfl, .refl _⟩⟩
  · exact ⟨⟨⟨some false, [o], [o]⟩, ⟨f, by simp [same, e, hnull, hf]⟩, rfl, .refl _⟩,
      ⟨⟨some false, [o], [o]⟩, ⟨f, by simp [same, Ne.symm e, hnull, hf]⟩, rfl, .refl _⟩⟩

/-- `!=` is the negation of `==`, for all pointers. -/
theorem ptreq_differ (f : Nat) (W : World) (a b : TPtr) :
    (differ f W a b).map (·.res) = (same f W a b).map fun c => c.res.map (!·) := by
  unfold differ; cases same f W a b <;> rfl

/-- `==` is symmetric, for all pointers, except that the references are taken in the other order. -/
theorem ptreq_symm (f : Nat) (W : World) (a b : TPtr) (c : Cmp) (h : same f W a b = some c) (hr : c.res ≠ none) :
    ∃ c', same f W b a = some c' ∧ c'.res = c.res := by
  unfold same at h ⊢
  by_cases e : a.ty = b.ty
  · rw [if_pos e] at h; rw [if_pos e.symm]
    cases h
    exact ⟨_, rfl, by simp [eq_comm]⟩
  · rw [if_neg e] at h; rw [if_neg (Ne.symm e)]
    cases ha : identity f W a with
    | none => rw [ha] at h; cases h
    | some ra =>
      obtain ⟨xa, la⟩ := ra
      rw [ha] at h
      cases xa with
      | none => cases h; exact absurd rfl hr
      | some x =>
        cases hb : identity f W b with
        | none => rw [hb] at h; cases h
        | some rb =>
          obtain ⟨xb, lb⟩ := rb
          rw [hb] at h
          cases xb with
          | none => cases h; exact absurd rfl hr
          | some y =>
            cases h
            exact ⟨_, rfl, by simp [eq_comm]⟩

/-- Keys of an unordered container: equal pointers of one type have the same hash, whatever hash of addresses is used. -/
theorem ptreq_hash (h : Option Nat → Nat) (W : World) (T : Iid) (x y : Option Nat) (c : Cmp)
    (hc : Compares W ⟨T, x⟩ ⟨T, y⟩ c) (he : c.res = some true) : hashOf h ⟨T, x⟩ = hashOf h ⟨T, y⟩ := by
  obtain ⟨f, hc⟩ := hc
  simp only [same, if_true, Option.some.injEq] at hc
  subst hc
  simp only [Option.some.injEq, decide_eq_true_eq] at he
  subst he; rfl

/-- An object with two members that are event sinks of one interface (number 5), as a class with two handlers has. -/
def twoSinksNodes : List Node := [.object [], .navi 2, .aggregated 0 [.own 5], .navi 4, .aggregated 0 [.own 5]]

/-- The world of `twoSinksNodes`. -/
def twoSinks : World := fun n => twoSinksNodes[n]?

/-- Pointers to the two sinks of `twoSinks` refer to the same object, and each equals the object's `Ptr<IObject>`; but they have
the same type, and are not equal.  So equality does not tell whether pointers refer to the same object, and is not transitive. -/
theorem ptreq_fails :
    Wired twoSinks ∧ Root twoSinks 0 ∧
    Refers twoSinks 0 ⟨5, some 2⟩ ∧ Refers twoSinks 0 ⟨5, some 4⟩ ∧ Refers twoSinks 0 ⟨iObject, some 0⟩ ∧
    (∃ c, Compares twoSinks ⟨5, some 2⟩ ⟨iObject, some 0⟩ c ∧ c.res = some true) ∧
    (∃ c, Compares twoSinks ⟨iObject, some 0⟩ ⟨5, some 4⟩ c ∧ c.res = some true) ∧
    ∀ c, Compares twoSinks ⟨5, some 2⟩ ⟨5, some 4⟩ c → c.res = some false := by
  refine ⟨?_, .inl ⟨[], rfl⟩, ⟨2, rfl, .step rfl .refl, fun h => by cases h⟩, ⟨4, rfl, .step rfl .refl, fun h => by cases h⟩,
    ⟨0, rfl, .refl, fun _ => rfl⟩, ⟨_, ⟨3, rfl⟩, rfl⟩, ⟨_, ⟨3, rfl⟩, rfl⟩, fun c hc => ?_⟩
  · intro n map h i v hm
    match n with
    | 0 => rcases h with h | ⟨c, h⟩ | ⟨c, h⟩ <;> cases h; cases hm
    | 1 => rcases h with h | ⟨c, h⟩ | ⟨c, h⟩ <;> cases h
    | 2 => rcases h with h | ⟨c, h⟩ | ⟨c, h⟩ <;> cases h; simp at hm
    | 3 => rcases h with h | ⟨c, h⟩ | ⟨c, h⟩ <;> cases h
    | 4 => rcases h with h | ⟨c, h⟩ | ⟨c, h⟩ <;> cases h; simp at hm
    | n + 5 => rcases h with h | ⟨c, h⟩ | ⟨c, h⟩ <;> simp [twoSinks, twoSinksNodes] at h
  · have := compares_det hc ⟨0, rfl⟩
    subst this; rfl

/-- A case of `ptreq_partial`: the pointers to the interfaces 1 and 3 of `sample`, the second got through the interface 2. -/
example : Got sample 0 1 0 ∧ Got sample 0 3 4 ∧ (same 9 sample ⟨1, some 0⟩ ⟨3, some 4⟩).map (·.res) = some (some true) :=
  ⟨.first ⟨5, rfl⟩, .convert (.first (T := 2) (n := 2) ⟨5, rfl⟩) ⟨5, rfl⟩, rfl⟩

end Verif.Query
