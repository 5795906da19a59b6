import Verif.Query.Model
set_option linter.unusedSimpArgs false
set_option linter.unusedVariables false
/-! Properties C50, C51 (queries) and C52. -/
namespace Verif.Query

theorem scan_mono {q q' : Nat → Iid → Option Result} (h : ∀ n i r, q n i = some r → q' n i = some r) {n : Nat} {iid : Iid} {r : Result} :
    ∀ l : List Entry, scan q n iid l = some r → scan q' n iid l = some r
  | [], e => e
  | .own i :: t, e => by
    unfold scan at e ⊢
    split
    · rename_i hi; rw [if_pos hi] at e; exact e
    · rename_i hi; rw [if_neg hi] at e; exact scan_mono h t e
  | .agg i v :: t, e => by
    unfold scan at e ⊢
    split
    · rename_i hi; rw [if_pos hi] at e; exact h _ _ _ e
    · rename_i hi; rw [if_neg hi] at e; exact scan_mono h t e

theorem query_succ {W : World} : ∀ (f n : Nat) (i : Iid) (r : Result), query f W n i = some r → query (f + 1) W n i = some r
  | 0, n, i, r, h => by cases h
  | f + 1, n, i, r, h => by
    unfold query at h ⊢
    cases e : W n with
    | none => rw [e] at h; cases h
    | some x =>
      rw [e] at h
      cases x with
      | object map => exact scan_mono (query_succ f) _ h
      | mutualOf c map => exact scan_mono (query_succ f) _ h
      | aggregated c map => exact query_succ f _ _ _ h
      | navi k =>
        dsimp only at h ⊢
        split
        · rename_i hi; rw [if_pos hi] at h; exact h
        · rename_i hi; rw [if_neg hi] at h
          cases e2 : W k with
          | none => rw [e2] at h; cases h
          | some y =>
            rw [e2] at h
            cases y with
            | aggregated c map => exact scan_mono (query_succ f) _ h
            | object map => cases h
            | mutualOf c map => cases h
            | navi j => cases h

theorem query_le {W : World} {f g n : Nat} {i : Iid} {r : Result} (hfg : f ≤ g) (h : query f W n i = some r) : query g W n i = some r := by
  induction hfg with
  | refl => exact h
  | step _ ih => exact query_succ _ _ _ _ ih

/-- C50: a query has one answer. -/
theorem C50_deterministic {W : World} {n : Nat} {i : Iid} {r r' : Result} (h : Answers W n i r) (h' : Answers W n i r') : r = r' := by
  obtain ⟨f, h⟩ := h
  obtain ⟨g, h'⟩ := h'
  have h1 := query_le (Nat.le_max_left f g) h
  have h2 := query_le (Nat.le_max_right f g) h'
  rw [h1] at h2
  exact Option.some.inj h2

theorem scan_refs {q : Nat → Iid → Option Result} (h : ∀ n i r, q n i = some r → r.2 = r.1.toList) {n : Nat} {iid : Iid} {r : Result} :
    ∀ l : List Entry, scan q n iid l = some r → r.2 = r.1.toList
  | [], e => by cases e; rfl
  | .own i :: t, e => by
    unfold scan at e
    split at e
    · cases e; rfl
    · exact scan_refs h t e
  | .agg i v :: t, e => by
    unfold scan at e
    split at e
    · exact h _ _ _ e
    · exact scan_refs h t e

/-- C50: a successful query takes exactly one reference, on the object it gives; an unsuccessful one takes none. -/
theorem C50_reference {W : World} {n : Nat} {i : Iid} {r : Result} (h : Answers W n i r) : r.2 = r.1.toList := by
  obtain ⟨f, h⟩ := h
  revert n i r
  induction f with
  | zero => intro n i r h; cases h
  | succ f ih =>
    intro n i r h
    unfold query at h
    split at h
    · cases h
    · exact scan_refs (fun n i r h => ih h) _ h
    · split at h
      · cases h; rfl
      · split at h
        · exact scan_refs (fun n i r h => ih h) _ h
        · cases h
    · exact ih h
    · exact scan_refs (fun n i r h => ih h) _ h

theorem Belongs.trans {W : World} {a b c : Nat} (h : Belongs W a b) (g : Belongs W b c) : Belongs W a c := by
  induction g with
  | refl => exact h
  | step e _ ih => exact .step e ih

/-- C51: a query through an interface of an aggregated object gives what the controller gives. -/
theorem C51_query {W : World} {o m : Nat} (h : Belongs W o m) (i : Iid) (r : Result) : Answers W m i r ↔ Answers W o i r := by
  induction h with
  | refl => exact Iff.rfl
  | @step m k map e _ ih =>
    rw [← ih]
    constructor
    · rintro ⟨f, h⟩
      cases f with
      | zero => cases h
      | succ f => unfold query at h; rw [e] at h; exact ⟨f, h⟩
    · rintro ⟨f, h⟩
      exact ⟨f + 1, by unfold query; rw [e]; exact h⟩

theorem scan_belongs {W : World} {q : Nat → Iid → Option Result} {n : Nat} {iid : Iid} {m : Nat} {refs : List Nat}
    (hq : ∀ (i : Iid) (v : Nat), iid ≠ iObject → q v iid = some (some m, refs) → ∀ k mp, W v = some (.navi k) → W k = some (.aggregated n mp) → Belongs W n m)
    (hne : iid ≠ iObject) : ∀ l : List Entry, (∀ (i : Iid) (v : Nat), Entry.agg i v ∈ l → ∃ k mp, W v = some (.navi k) ∧ W k = some (.aggregated n mp)) →
    scan q n iid l = some (some m, refs) → Belongs W n m
  | [], _, e => by cases e
  | .own i :: t, hw, e => by
    unfold scan at e
    split at e
    · cases e; exact .refl
    · exact scan_belongs hq hne t (fun i v h => hw i v (List.mem_cons_of_mem _ h)) e
  | .agg i v :: t, hw, e => by
    unfold scan at e
    split at e
    · obtain ⟨k, mp, h1, h2⟩ := hw i v List.mem_cons_self
      exact hq i v hne e k mp h1 h2
    · exact scan_belongs hq hne t (fun i v h => hw i v (List.mem_cons_of_mem _ h)) e

/-- What an internal query finds belongs to the object. -/
theorem internal_belongs {W : World} (hW : Wired W) {iid : Iid} : ∀ (f n : Nat) (map : List Entry) (m : Nat) (refs : List Nat),
    (W n = some (.object map) ∨ (∃ c, W n = some (.aggregated c map)) ∨ (∃ c, W n = some (.mutualOf c map))) →
    internal (query f W) n map iid = some (some m, refs) → Belongs W n m := by
  intro f
  induction f with
  | zero =>
    intro n map m refs hn h
    by_cases hi : iid = iObject
    · unfold internal scan at h; rw [if_pos hi.symm] at h; cases h; exact .refl
    · unfold internal scan at h; rw [if_neg (Ne.symm hi)] at h
      exact scan_belongs (fun i v _ e => by cases e) hi map (hW n map hn) h
  | succ f ih =>
    intro n map m refs hn h
    by_cases hi : iid = iObject
    · unfold internal scan at h; rw [if_pos hi.symm] at h; cases h; exact .refl
    · unfold internal scan at h; rw [if_neg (Ne.symm hi)] at h
      refine scan_belongs (fun i v _ e k mp h1 h2 => ?_) hi map (hW n map hn) h
      unfold query at e
      rw [h1] at e
      dsimp only at e
      rw [if_neg hi, h2] at e
      exact (Belongs.step h2 .refl).trans (ih k mp m refs (Or.inr (Or.inl ⟨n, h2⟩)) e)

/-- An object with its own identity. -/
def Root (W : World) (o : Nat) : Prop := (∃ map, W o = some (.object map)) ∨ ∃ c map, W o = some (.mutualOf c map)

/-- C50: asking an object for `IObject` gives the object. -/
theorem C50_identity {W : World} {o : Nat} (h : Root W o) : Answers W o iObject (some o, [o]) := by
  rcases h with ⟨map, h⟩ | ⟨c, map, h⟩ <;> exact ⟨1, by unfold query; rw [h]; rfl⟩

theorem answer_belongs {W : World} (hW : Wired W) {o : Nat} (ho : Root W o) {i : Iid} {m : Nat} {refs : List Nat}
    (h : Answers W o i (some m, refs)) : Belongs W o m := by
  obtain ⟨f, h⟩ := h
  cases f with
  | zero => cases h
  | succ f =>
    unfold query at h
    rcases ho with ⟨map, e⟩ | ⟨c, map, e⟩
    · rw [e] at h; exact internal_belongs hW f o map m refs (Or.inl e) h
    · rw [e] at h; exact internal_belongs hW f o map m refs (Or.inr (Or.inr ⟨c, e⟩)) h

/-- C50: all interfaces of an object answer alike: what is supported does not depend on which interface is asked. -/
theorem C50_same_answers {W : World} (hW : Wired W) {o : Nat} (ho : Root W o) {i j : Iid} {m : Nat} {refs : List Nat} {r : Result}
    (h : Answers W o i (some m, refs)) : Answers W m j r ↔ Answers W o j r :=
  C51_query (answer_belongs hW ho h) j r

/-- C50: every interface that was obtained from an object, also by queries through other interfaces, gives the same identity and
the same answers. -/
theorem C50_history {W : World} (hW : Wired W) {o : Nat} (ho : Root W o) : ∀ (is : List Iid) (m : Nat),
    (∃ ms : List Nat, ms.length = is.length + 1 ∧ ms.head? = some o ∧ ms.getLast? = some m ∧
      ∀ t, t < is.length → ∃ refs a b, ms[t]? = some a ∧ ms[t + 1]? = some b ∧ Answers W a (is.getD t 0) (some b, refs)) →
    Answers W m iObject (some o, [o]) ∧ ∀ j r, Answers W m j r ↔ Answers W o j r := by
  rintro is m ⟨ms, hlen, hhead, hlast, hstep⟩
  have all : ∀ t, t ≤ is.length → ∀ a, ms[t]? = some a → Belongs W o a := by
    intro t
    induction t with
    | zero =>
      intro _ a ha
      rw [List.head?_eq_getElem?] at hhead
      rw [hhead] at ha; cases ha; exact .refl
    | succ t ih =>
      intro ht a ha
      obtain ⟨refs, b, c, hb, hc, hans⟩ := hstep t (by omega)
      rw [ha] at hc; cases hc
      have hbel := ih (by omega) b hb
      exact answer_belongs hW ho ((C51_query hbel _ _).mp hans)
  have hm : Belongs W o m := by
    refine all is.length (Nat.le_refl _) m ?_
    rw [List.getLast?_eq_getElem?, hlen] at hlast
    simpa using hlast
  exact ⟨(C51_query hm _ _).mpr (C50_identity ho), fun j r => C51_query hm j r⟩

/-- C51: the navigator gives itself for `IObject`. -/
theorem C51_navigator {W : World} {v k : Nat} (h : W v = some (.navi k)) : Answers W v iObject (some v, [v]) :=
  ⟨1, by unfold query; rw [h]; rfl⟩

theorem scan_defined {q : Nat → Iid → Option Result} {n : Nat} {iid : Iid} : ∀ l : List Entry,
    (∀ (i : Iid) (v : Nat), Entry.agg i v ∈ l → iid ≠ iObject → ∃ r, q v iid = some r) → iid ≠ iObject → ∃ r, scan q n iid l = some r
  | [], _, _ => ⟨_, rfl⟩
  | .own i :: t, h, hi => by
    unfold scan; split
    · exact ⟨_, rfl⟩
    · exact scan_defined t (fun i v hm => h i v (List.mem_cons_of_mem _ hm)) hi
  | .agg i v :: t, h, hi => by
    unfold scan; split
    · exact h i v List.mem_cons_self hi
    · exact scan_defined t (fun i v hm => h i v (List.mem_cons_of_mem _ hm)) hi

theorem internal_defined {W : World} (hW : Wired W) (rank : Nat → Nat)
    (hr : ∀ (n : Nat) (map : List Entry), (W n = some (.object map) ∨ (∃ c, W n = some (.aggregated c map)) ∨ (∃ c, W n = some (.mutualOf c map))) →
      ∀ (i : Iid) (v k : Nat), Entry.agg i v ∈ map → W v = some (.navi k) → rank k < rank n) {iid : Iid} :
    ∀ (f n : Nat) (map : List Entry), rank n ≤ f →
    (W n = some (.object map) ∨ (∃ c, W n = some (.aggregated c map)) ∨ (∃ c, W n = some (.mutualOf c map))) →
    ∃ r, internal (query f W) n map iid = some r := by
  intro f
  induction f with
  | zero =>
    intro n map hf hn
    unfold internal scan
    split
    · exact ⟨_, rfl⟩
    · rename_i hi
      refine scan_defined map (fun i v hm _ => ?_) (Ne.symm hi)
      obtain ⟨k, mp, h1, h2⟩ := hW n map hn i v hm
      have := hr n map hn i v k hm h1
      omega
  | succ f ih =>
    intro n map hf hn
    unfold internal scan
    split
    · exact ⟨_, rfl⟩
    · rename_i hi
      refine scan_defined map (fun i v hm hne => ?_) (Ne.symm hi)
      obtain ⟨k, mp, h1, h2⟩ := hW n map hn i v hm
      have := hr n map hn i v k hm h1
      obtain ⟨r, hrr⟩ := ih k mp (by omega) (Or.inr (Or.inl ⟨n, h2⟩))
      exact ⟨r, by unfold query; rw [h1]; dsimp only; rw [if_neg hne, h2]; exact hrr⟩

/-- C50: every query is answered, if no object aggregates itself (aggregated objects have a smaller `rank`). -/
theorem C50_answered {W : World} (hW : Wired W) (rank : Nat → Nat)
    (hr : ∀ (n : Nat) (map : List Entry), (W n = some (.object map) ∨ (∃ c, W n = some (.aggregated c map)) ∨ (∃ c, W n = some (.mutualOf c map))) →
      ∀ (i : Iid) (v k : Nat), Entry.agg i v ∈ map → W v = some (.navi k) → rank k < rank n) {o m : Nat} (ho : Root W o) (hm : Belongs W o m) (i : Iid) :
    ∃ r, Answers W m i r := by
  suffices h : ∃ r, Answers W o i r by
    obtain ⟨r, h⟩ := h
    exact ⟨r, (C51_query hm i r).mpr h⟩
  rcases ho with ⟨map, e⟩ | ⟨c, map, e⟩
  · obtain ⟨r, h⟩ := internal_defined hW rank hr (iid := i) (rank o) o map (Nat.le_refl _) (Or.inl e)
    exact ⟨r, rank o + 1, by unfold query; rw [e]; exact h⟩
  · obtain ⟨r, h⟩ := internal_defined hW rank hr (iid := i) (rank o) o map (Nat.le_refl _) (Or.inr (Or.inr ⟨c, e⟩))
    exact ⟨r, rank o + 1, by unfold query; rw [e]; exact h⟩

/-- An object (0) with interface 1, which aggregates an object (2, with interfaces 2 and 3) that itself aggregates another (4, with interface 3). -/
def sampleNodes : List Node :=
  [.object [.own 1, .agg 2 1, .agg 3 1], .navi 2, .aggregated 0 [.own 2, .agg 3 3], .navi 4, .aggregated 2 [.own 3, .own 9]]

def sample : World := fun n => sampleNodes[n]?

example : Wired sample := by
  intro n map h i v hm
  match n with
  | 0 =>
    rcases h with h | ⟨c, h⟩ | ⟨c, h⟩ <;> cases h
    simp at hm
    rcases hm with ⟨rfl, rfl⟩ | ⟨rfl, rfl⟩ <;> exact ⟨2, _, rfl, rfl⟩
  | 1 => rcases h with h | ⟨c, h⟩ | ⟨c, h⟩ <;> cases h
  | 2 =>
    rcases h with h | ⟨c, h⟩ | ⟨c, h⟩ <;> cases h
    simp at hm
    obtain ⟨rfl, rfl⟩ := hm
    exact ⟨4, _, rfl, rfl⟩
  | 3 => rcases h with h | ⟨c, h⟩ | ⟨c, h⟩ <;> cases h
  | 4 =>
    rcases h with h | ⟨c, h⟩ | ⟨c, h⟩ <;> cases h
    simp at hm
  | n + 5 =>
    have e : sample (n + 5) = none := rfl
    rcases h with h | ⟨c, h⟩ | ⟨c, h⟩ <;> rw [e] at h <;> cases h

example : Answers sample 0 3 (some 4, [4]) ∧ Answers sample 4 1 (some 0, [0]) ∧ Answers sample 4 9 (none, []) ∧ Answers sample 3 9 (some 4, [4]) :=
  ⟨⟨5, rfl⟩, ⟨5, rfl⟩, ⟨5, rfl⟩, ⟨5, rfl⟩⟩

/-- The hypothesis `Wired` is needed: when the aggregated object has another controller, its interface does not lead back. -/
theorem C50_unwired : ∃ W : World, (∃ map, W 0 = some (.object map)) ∧ Answers W 0 2 (some 2, [2]) ∧ Answers W 2 1 (none, []) ∧ Answers W 0 1 (some 0, [0]) := by
  let nodes : List Node := [.object [.own 1, .agg 2 1], .navi 2, .aggregated 3 [.own 2], .object []]
  exact ⟨fun n => nodes[n]?, ⟨_, rfl⟩, ⟨5, rfl⟩, ⟨5, rfl⟩, ⟨5, rfl⟩⟩

/-! ### Class registry -/

theorem sameText_iff : ∀ {a b : List Byte} {s t : List Byte}, text a = some s → text b = some t → sameText a b = some (decide (s = t))
  | [], _, _, _, h, _ => by cases h
  | _ :: _, [], _, _, _, h => by cases h
  | x :: a, y :: b, s, t, ha, hb => by
    unfold text at ha hb
    unfold sameText
    by_cases hxy : x = y
    · subst hxy
      rw [if_pos rfl]
      by_cases hx : x = 0
      · rw [if_pos hx] at ha hb ⊢; cases ha; cases hb; simp
      · rw [if_neg hx] at ha hb ⊢
        cases ea : text a with
        | none => rw [ea] at ha; cases ha
        | some s' =>
          cases eb : text b with
          | none => rw [eb] at hb; cases hb
          | some t' =>
            rw [ea] at ha; rw [eb] at hb; cases ha; cases hb
            rw [sameText_iff ea eb]; simp
    · rw [if_neg hxy]
      have : s ≠ t := by
        intro e; subst e
        by_cases hx : x = 0
        · rw [if_pos hx] at ha; cases ha
          rw [if_neg (fun h => hxy (hx.trans h.symm))] at hb
          cases eb : text b with
          | none => rw [eb] at hb; cases hb
          | some t' => rw [eb] at hb; cases hb
        · rw [if_neg hx] at ha
          cases ea : text a with
          | none => rw [ea] at ha; cases ha
          | some s' =>
            rw [ea] at ha; cases ha
            by_cases hy : y = 0
            · rw [if_pos hy] at hb; cases hb
            · rw [if_neg hy] at hb
              cases eb : text b with
              | none => rw [eb] at hb; cases hb
              | some t' => rw [eb] at hb; cases hb; exact hxy rfl
      simp [this]

/-- The registry as a function: the history of what was stored for a name, independent of lists. -/
def spec {F : Type} : List (ROp F) → List Byte → Option F
  | [], _ => none
  | .register f cid :: past, u => match spec past u with
    | some g => some g
    | none => if text cid = some u then f else none
  | .unregister cid :: past, u => if text cid = some u then none else spec past u
  | .unregisterAll :: _, _ => none

theorem spec_register {F : Type} (f : Option F) (cid u : List Byte) (past : List (ROp F)) :
    spec (.register f cid :: past) u = match spec past u with
      | some g => some g
      | none => if text cid = some u then f else none := by rw [spec]

theorem spec_unregister {F : Type} (cid u : List Byte) (past : List (ROp F)) :
    spec (.unregister cid :: past) u = if text cid = some u then none else spec past u := by rw [spec]

/-- All identifiers are C strings. -/
def ROp.good {F : Type} : ROp F → Prop
  | .register _ cid => (text cid).isSome
  | .unregister cid => (text cid).isSome
  | .unregisterAll => True

theorem find_same {F : Type} {r : Registry F} (hr : ∀ e ∈ r, (text e.1).isSome) {cid u : List Byte} (h : text cid = some u) :
    find r cid = (r.find? fun e => text e.1 = some u).map (·.2) := by
  unfold find
  congr 1
  induction r with
  | nil => rfl
  | cons e t ih =>
    have he := hr e List.mem_cons_self
    obtain ⟨s, hs⟩ := Option.isSome_iff_exists.mp he
    have ih := ih (fun e h => hr e (List.mem_cons_of_mem _ h))
    rw [List.find?_cons, List.find?_cons, ih, sameText_iff hs h, hs]
    by_cases e : s = u <;> simp [e]

/-- Past operations, the latest first. -/
theorem registry_spec {F : Type} : ∀ (past : List (ROp F)), (∀ o ∈ past, o.good) →
    (∀ e ∈ rrun [] past.reverse, (text e.1).isSome) ∧
    ∀ cid u, text cid = some u → find (rrun [] past.reverse) cid = spec past u
  | [], _ => ⟨(fun e h => by cases h), fun cid u _ => rfl⟩
  | o :: past, hg => by
    obtain ⟨h1, h2⟩ := registry_spec past (fun o h => hg o (List.mem_cons_of_mem _ h))
    have hrun : rrun [] (o :: past).reverse = rstep (rrun [] past.reverse) o := by
      unfold rrun; rw [List.reverse_cons, List.foldl_append]; rfl
    rw [hrun]
    generalize hR : rrun [] past.reverse = R at *
    have ho := hg o List.mem_cons_self
    cases o with
    | register f cid =>
      obtain ⟨c, hc⟩ := Option.isSome_iff_exists.mp (show (text cid).isSome from ho)
      cases f with
      | none =>
        refine ⟨h1, fun id u hu => ?_⟩
        show find R id = _
        rw [h2 id u hu, spec_register]
        cases spec past u with
        | some g => rfl
        | none => simp
      | some f =>
        cases ef : find R cid with
        | some g =>
          have e : rstep R (.register (some f) cid) = R := by
            show (register R (some f) cid).2 = R
            unfold register; dsimp only; rw [ef]
          rw [e]
          refine ⟨h1, fun id u hu => ?_⟩
          rw [h2 id u hu, spec_register]
          cases es : spec past u with
          | some g => rfl
          | none =>
            dsimp only
            rw [if_neg]
            intro e
            rw [h2 cid u e, es] at ef; cases ef
        | none =>
          have e : rstep R (.register (some f) cid) = (cid, f) :: R := by
            show (register R (some f) cid).2 = _
            unfold register; dsimp only; rw [ef]
          rw [e]
          have hall : ∀ e ∈ (cid, f) :: R, (text e.1).isSome := by
            intro e h
            rcases List.mem_cons.mp h with e | h
            · subst e; exact ho
            · exact h1 _ h
          refine ⟨hall, fun id u hu => ?_⟩
          rw [find_same hall hu, List.find?_cons]
          dsimp only
          by_cases hcu : text cid = some u
          · rw [hcu]; simp only [decide_true, Option.map_some]
            have : spec past u = none := by rw [← h2 cid u hcu]; exact ef
            rw [spec_register, this]; simp [hcu]
          · simp only [hcu, decide_false]
            rw [← find_same h1 hu, h2 id u hu]
            rw [spec_register]
            cases spec past u with
            | some g => rfl
            | none => simp [hcu]
    | unregister cid =>
      obtain ⟨c, hc⟩ := Option.isSome_iff_exists.mp (show (text cid).isSome from ho)
      have hall : ∀ e ∈ unregister R cid, (text e.1).isSome := fun e h => h1 e (List.mem_filter.mp h).1
      refine ⟨hall, fun id u hu => ?_⟩
      show find (unregister R cid) id = _
      rw [find_same hall hu]
      rw [spec_unregister, hc]
      have key : ∀ R : Registry F, (∀ e ∈ R, (text e.1).isSome) →
          (unregister R cid).find? (fun e => text e.1 = some u) = if c = u then none else R.find? (fun e => text e.1 = some u) := by
        intro R hR
        unfold unregister
        induction R with
        | nil => simp
        | cons e t ih =>
          have ih := ih (fun e h => hR e (List.mem_cons_of_mem _ h))
          obtain ⟨s, hs⟩ := Option.isSome_iff_exists.mp (hR e List.mem_cons_self)
          rw [List.filter_cons, sameText_iff hs hc]
          by_cases hsc : s = c
          · subst hsc
            simp only [decide_true, ne_eq, not_true_eq_false, decide_false, Bool.false_eq_true, if_false]
            rw [ih, List.find?_cons, hs]
            by_cases hsu : s = u <;> simp [hsu]
          · simp only [hsc, decide_false, ne_eq, Option.some.injEq, Bool.false_eq_true, not_false_eq_true, decide_true, if_true]
            rw [List.find?_cons, List.find?_cons, hs]
            by_cases hsu : s = u
            · subst hsu; simp [Ne.symm hsc]
            · simp only [Option.some.injEq, hsu, decide_false]; exact ih
      rw [key R h1]
      by_cases hcu : c = u
      · simp [hcu]
      · simp only [hcu, if_false, Option.some.injEq]
        rw [← find_same h1 hu]; exact h2 id u hu
    | unregisterAll =>
      exact ⟨(fun e h => by cases h), fun cid u _ => rfl⟩

/-- C52: lookup gives what the history says: the factory of the first registration of an equal identifier that has not been
unregistered since; or the exception.  `past` has the latest operation first. -/
theorem C52_lookup {F : Type} (past : List (ROp F)) (hg : ∀ o ∈ past, o.good) {cid u : List Byte} (h : text cid = some u) :
    getClassFactory (rrun [] past.reverse) cid = match spec past u with | some f => .ok f | none => .notRegistered := by
  unfold getClassFactory
  rw [(registry_spec past hg).2 cid u h]
  cases spec past u <;> rfl

/-- C52: registering succeeds exactly when the identifier is absent, and otherwise changes nothing. -/
theorem C52_register {F : Type} (past : List (ROp F)) (hg : ∀ o ∈ past, o.good) {cid u : List Byte} (h : text cid = some u) (f : F) :
    (spec past u = none → (register (rrun [] past.reverse) (some f) cid).1 = .ok () ∧
        getClassFactory (register (rrun [] past.reverse) (some f) cid).2 cid = .ok f) ∧
    (spec past u ≠ none → register (rrun [] past.reverse) (some f) cid = (.alreadyRegistered, rrun [] past.reverse)) ∧
    register (rrun [] past.reverse) none cid = (.invalidPointer, rrun [] past.reverse) := by
  have hf := (registry_spec past hg).2 cid u h
  refine ⟨fun hn => ?_, fun hn => ?_, rfl⟩
  · unfold register; dsimp only
    rw [hf, hn]
    refine ⟨rfl, ?_⟩
    unfold getClassFactory find
    rw [List.find?_cons, sameText_iff h h]; simp
  · unfold register; dsimp only
    rw [hf]
    cases e : spec past u with
    | none => exact absurd e hn
    | some g => rfl

/-- C52: after registering or unregistering, all other identifiers are as before. -/
theorem C52_others {F : Type} (past : List (ROp F)) (hg : ∀ o ∈ past, o.good) {cid id u v : List Byte} (h : text cid = some u) (hi : text id = some v)
    (hne : u ≠ v) (f : Option F) :
    getClassFactory (register (rrun [] past.reverse) f cid).2 id = getClassFactory (rrun [] past.reverse) id ∧
    getClassFactory (unregister (rrun [] past.reverse) cid) id = getClassFactory (rrun [] past.reverse) id ∧
    getClassFactory (unregister (rrun [] past.reverse) cid) cid = .notRegistered := by
  have step : ∀ o : ROp F, o.good → ∀ {x w}, text x = some w → find (rstep (rrun [] past.reverse) o) x = spec (o :: past) w := by
    intro o ho x w hx
    have := (registry_spec (o :: past) (fun p hp => by
      rcases List.mem_cons.mp hp with e | hp
      · subst e; exact ho
      · exact hg p hp)).2 x w hx
    rw [← this]
    unfold rrun; rw [List.reverse_cons, List.foldl_append]; rfl
  have hgood : (text cid).isSome := by rw [h]; rfl
  have h0 := (registry_spec past hg).2 id v hi
  refine ⟨?_, ?_, ?_⟩
  · unfold getClassFactory
    rw [show (register (rrun [] past.reverse) f cid).2 = rstep (rrun [] past.reverse) (.register f cid) from rfl, step (.register f cid) hgood hi, h0]
    rw [spec_register]
    cases spec past v with
    | some g => rfl
    | none => simp [h, hne]
  · unfold getClassFactory
    rw [show unregister (rrun [] past.reverse) cid = rstep (rrun [] past.reverse) (.unregister cid) from rfl, step (.unregister cid) hgood hi, h0]
    rw [spec_unregister]
    simp [h, hne]
  · unfold getClassFactory
    rw [show unregister (rrun [] past.reverse) cid = rstep (rrun [] past.reverse) (.unregister cid) from rfl, step (.unregister cid) hgood h]
    simp [spec, h]

/-- Two equal strings at different places, with different bytes behind. -/
example : getClassFactory (rrun [] [.register (some 7) [65, 66, 0, 1], .register (some 8) [65, 0]]) [65, 66, 0] = (.ok 7 : Outcome Nat) := by decide

example : text [65, 66, 0, 1] = some [65, 66] := by decide

end Verif.Query
