import Verif.Stat.Short
import Verif.Stat.Props
/-
C164: containers of probes and statistics when there is not enough memory.
-/
namespace Verif.Stat.Short
variable {N : Type} [DecidableEq N]

/-- The names for which there is memory. -/
def reached (m : Option Nat) (names : List N) : List N := match m with
  | none => names
  | some k => names.take k

theorem look_put (c : Nat) (n : N) (v : Option Nat) (t : Nat → Items N (Option Nat)) (x : Nat) (y : N) :
    look (put c n v t x) y = if x = c ∧ y = n then (look (t x) y).or (some v) else look (t x) y := by
  unfold put
  cases h : look (t c) n with
  | some w =>
    simp only
    split
    · rename_i e; rw [e.1, e.2, h]; rfl
    · rfl
  | none =>
    simp only
    by_cases hx : x = c
    · subst hx
      rw [Function.update_self, look_append, look_cons, look_nil]
      by_cases hy : y = n
      · subst hy; simp
      · have : ¬ n = y := fun e => hy e.symm
        simp [hy, this]
    · rw [Function.update_of_ne hx]; simp [hx]

theorem loop_spec {f : N → N} (hf : Function.Injective f) (c d : Nat) : ∀ (names : List N) (m : Option Nat) (t : Nat → Items N (Option Nat)),
    names.Nodup → (∀ n ∈ names, (look (t d) n).isSome) →
    ((loop c f d names m t).1 = .ok ∧ (reached m names) = names ∨ (loop c f d names m t).1 = .noMemory ∧ (reached m names) ≠ names) ∧
    (∀ x, x ≠ c → (loop c f d names m t).2 x = t x) ∧
    (∀ n ∈ reached m names, look ((loop c f d names m t).2 c) (f n) = (look (t c) (f n)).or (look (t d) n)) ∧
    (∀ y, y ∉ (reached m names).map f → look ((loop c f d names m t).2 c) y = look (t c) y)
  | [], m, t, _, _ => by
    have : reached m ([] : List N) = [] := by cases m <;> simp [reached]
    rw [this]; simp [loop]
  | n :: ns, m, t, hn, hp => by
    obtain ⟨hn1, hn2⟩ := List.nodup_cons.mp hn
    by_cases hm : m = some 0
    · subst hm; simp [loop, reached]
    · obtain ⟨v, hv⟩ := Option.isSome_iff_exists.mp (hp n List.mem_cons_self)
      have e : loop c f d (n :: ns) m t = loop c f d ns (m.map (· - 1)) (put c (f n) v t) := by
        rw [loop, if_neg hm, get, hv]
      have r : reached m (n :: ns) = n :: reached (m.map (· - 1)) ns := by
        cases m with
        | none => rfl
        | some k =>
          cases k with
          | zero => exact absurd rfl hm
          | succ k => simp [reached]
      have keep : ∀ x y, (look (t x) y).isSome → look (put c (f n) v t x) y = look (t x) y := by
        intro x y hs
        rw [look_put]; split
        · obtain ⟨w, hw⟩ := Option.isSome_iff_exists.mp hs
          rw [hw]; rfl
        · rfl
      have ih := loop_spec hf c d ns (m.map (· - 1)) (put c (f n) v t) hn2
        (fun k hk => by rw [keep _ _ (hp k (List.mem_cons_of_mem _ hk))]; exact hp k (List.mem_cons_of_mem _ hk))
      rw [e, r]
      obtain ⟨h1, h2, h3, h4⟩ := ih
      have sub : ∀ k ∈ reached (m.map (· - 1)) ns, k ∈ ns := by
        intro k hk
        cases m with
        | none => exact hk
        | some j => exact List.mem_of_mem_take hk
      have fresh : f n ∉ (reached (m.map (· - 1)) ns).map f := by
        intro hh
        obtain ⟨k, hk, ek⟩ := List.mem_map.mp hh
        exact hn1 (hf ek ▸ sub k hk)
      refine ⟨?_, ?_, ?_, ?_⟩
      · rcases h1 with ⟨a, b⟩ | ⟨a, b⟩
        · exact .inl ⟨a, by rw [b]⟩
        · exact .inr ⟨a, fun w => b (List.cons.inj w).2⟩
      · intro x hx
        rw [h2 x hx]; unfold put
        cases look (t c) (f n) with
        | some w => rfl
        | none => exact Function.update_of_ne hx _ _
      · intro k hk
        rcases List.mem_cons.mp hk with rfl | hk
        · rw [h4 _ fresh, look_put, if_pos ⟨rfl, rfl⟩, hv]
        · rw [h3 k hk, keep d k (hp k (List.mem_cons_of_mem _ (sub k hk))), look_put, if_neg]
          rintro ⟨_, w⟩
          exact hn1 (hf w ▸ sub k hk)
      · intro y hy
        rw [List.map_cons, List.mem_cons, not_or] at hy
        rw [h4 y hy.2, look_put, if_neg (fun w => hy.1 w.2)]

/-- No container has a name twice, and the objects in them have been made. -/
def Inv (s : St N) : Prop :=
  (∀ c, ((s.conts c).map (·.1)).Nodup) ∧ ∀ c n p, look (s.conts c) n = some (some p) → p < s.made

/-- What a client can call: the enumerator gives the names of the merged container, in any order, and prefixing is injective. -/
def Fits (s : St N) : Op N → Prop
  | .merge _ f d names _ => Function.Injective f ∧ Order (s.conts d) names
  | _ => True

/-- Histories. -/
inductive Ran : St N → List (Op N × Res) → St N → Prop
  | nil (s : St N) : Ran s [] s
  | snoc {s t : St N} {h : List (Op N × Res)} (o : Op N) : Ran s h t → Fits t o → Ran s (h ++ [(o, (t.step o).1)]) (t.step o).2

theorem put_nodup {c : Nat} {n : N} {v : Option Nat} {t : Nat → Items N (Option Nat)} (h : ∀ c, ((t c).map (·.1)).Nodup) :
    ∀ x, ((put c n v t x).map (·.1)).Nodup := by
  intro x
  unfold put
  cases e : look (t c) n with
  | some w => exact h x
  | none =>
    simp only
    by_cases hx : x = c
    · subst hx
      rw [Function.update_self, List.map_append, List.nodup_append]
      refine ⟨h x, by simp, ?_⟩
      intro a ha b hb
      simp only [List.map_cons, List.map_nil, List.mem_singleton] at hb
      subst hb
      rintro rfl
      exact (look_none_iff _ _).mp e ha
    · rw [Function.update_of_ne hx]; exact h x

theorem loop_nodup (c : Nat) (f : N → N) (d : Nat) : ∀ (names : List N) (m : Option Nat) (t : Nat → Items N (Option Nat)),
    (∀ c, ((t c).map (·.1)).Nodup) → ∀ x, (((loop c f d names m t).2 x).map (·.1)).Nodup
  | [], _, t, h => h
  | n :: ns, m, t, h => by
    rw [loop]; split
    · exact h
    · split
      · exact h
      · exact loop_nodup c f d ns _ _ (put_nodup h)

theorem loop_origin (c : Nat) (f : N → N) (d : Nat) (P : Option Nat → Prop) : ∀ (names : List N) (m : Option Nat)
    (t : Nat → Items N (Option Nat)), (∀ x y v, look (t x) y = some v → P v) →
    ∀ x y v, look ((loop c f d names m t).2 x) y = some v → P v
  | [], _, t, h => h
  | n :: ns, m, t, h => by
    rw [loop]; split
    · exact h
    · split
      · exact h
      · rename_i v hv
        refine loop_origin c f d P ns _ _ ?_
        intro x y w hw
        rw [look_put] at hw
        split at hw
        · cases e : look (t x) y with
          | none => rw [e] at hw; cases hw; exact h d n _ hv
          | some u => rw [e] at hw; cases hw; exact h x y _ e
        · exact h x y w hw

theorem loop_keep (c : Nat) (f : N → N) (d : Nat) : ∀ (names : List N) (m : Option Nat)
    (t : Nat → Items N (Option Nat)) (x : Nat) (y : N) (v : Option Nat), look (t x) y = some v →
    look ((loop c f d names m t).2 x) y = some v
  | [], _, _, _, _, _, h => h
  | n :: ns, m, t, x, y, v, h => by
    rw [loop]; split
    · exact h
    · split
      · exact h
      · refine loop_keep c f d ns _ _ x y v ?_
        rw [look_put, h]; split <;> rfl

theorem look_add (s : St N) (c : Nat) (n : N) (v : Option Nat) (h : look (s.conts c) n = none) (x : Nat) (y : N) :
    look (Function.update s.conts c (s.conts c ++ [(n, v)]) x) y = if x = c ∧ y = n then some v else look (s.conts x) y := by
  have := look_put c n v s.conts x y
  unfold put at this
  rw [h] at this
  simp only at this
  rw [this]
  split
  · rename_i e; rw [e.1, e.2, h]; rfl
  · rfl

theorem inv_step {s : St N} (h : Inv s) (o : Op N) : Inv (s.step o).2 := by
  obtain ⟨h1, h2⟩ := h
  cases o with
  | add c n m =>
    rw [St.step]; split
    · exact ⟨h1, h2⟩
    · split
      · exact ⟨h1, h2⟩
      · rename_i hl
        have nd : ∀ v x, ((Function.update s.conts c (s.conts c ++ [(n, v)]) x).map (·.1)).Nodup := by
          intro v x
          have := put_nodup (c := c) (n := n) (v := v) h1 x
          unfold put at this
          rwa [hl] at this
        split
        · refine ⟨nd _, ?_⟩
          intro x y p hp
          simp only at hp
          rw [look_add s c n none hl] at hp
          split at hp
          · exact absurd hp (by simp)
          · exact h2 x y p hp
        · refine ⟨nd _, ?_⟩
          intro x y p hp
          simp only at hp
          rw [look_add s c n _ hl] at hp
          split at hp
          · injection hp with hp; injection hp with hp; subst hp; exact Nat.lt_succ_self _
          · exact Nat.lt_succ_of_lt (h2 x y p hp)
  | erase c n =>
    refine ⟨?_, ?_⟩
    · intro x
      by_cases hx : x = c
      · subst hx
        simp only [St.step, Function.update_self]
        exact (h1 x).sublist (List.filter_sublist.map _)
      · simp only [St.step, Function.update_of_ne hx]; exact h1 x
    · intro x y p hp
      by_cases hx : x = c
      · subst hx
        simp only [St.step, Function.update_self] at hp
        rw [look_erase] at hp
        split at hp
        · exact absurd hp (by simp)
        · exact h2 x y p hp
      · simp only [St.step, Function.update_of_ne hx] at hp; exact h2 x y p hp
  | merge c f d names m =>
    refine ⟨loop_nodup c f d names m _ h1, ?_⟩
    intro x y p hp
    exact loop_origin c f d (fun v => ∀ p, v = some p → p < s.made) names m s.conts
      (fun x y v hv p e => h2 x y p (e ▸ hv)) x y (some p) hp p rfl
  | use c n =>
    rw [St.step]; split <;> exact ⟨h1, h2⟩

theorem Ran.inv {s t : St N} {h : List (Op N × Res)} (r : Ran s h t) (hs : Inv s) : Inv t := by
  induction r with
  | nil => exact hs
  | snoc o _ _ ih => exact inv_step ih o

theorem inv_init : Inv (St.init : St N) := ⟨fun _ => List.nodup_nil, fun _ _ _ h => absurd h (by simp [St.init, look_nil])⟩

/-- **C164.**  `Add`: a registered name is refused (if memory for an item is missing, for that reason), and lack of memory for the item
changes nothing; with enough memory the object is new, found under the name, and no other name changes. -/
theorem short_add {s : St N} {h : List (Op N × Res)} (r : Ran St.init h s) (c : Nat) (n : N) :
    s.step (.add c n .noItem) = (.noMemory, s) ∧
    (has (s.conts c) n = true → ∀ m, m ≠ .noItem → s.step (.add c n m) = (.refused, s)) ∧
    (has (s.conts c) n = false → ∃ p s', s.step (.add c n .ok) = (.made p, s') ∧
      get (s'.conts c) n = some (some p) ∧ (s'.step (.use c n)).1 = .used p ∧
      (∀ x y, (x, y) ≠ (c, n) → get (s'.conts x) y = get (s.conts x) y) ∧
      ∀ x y, get (s.conts x) y ≠ some (some p)) := by
  have hi := r.inv inv_init
  refine ⟨by simp [St.step], ?_, ?_⟩
  · intro hh m hm
    obtain ⟨v, hv⟩ := Option.isSome_iff_exists.mp ((has_iff _ _).mp hh)
    rw [St.step, if_neg hm, hv]
  · intro hh
    have hl : look (s.conts c) n = none := by
      rw [← Option.not_isSome_iff_eq_none, ← has_iff, hh]; simp
    have g : look (Function.update s.conts c (s.conts c ++ [(n, some s.made)]) c) n = some (some s.made) := by
      rw [look_add s c n _ hl, if_pos ⟨rfl, rfl⟩]
    refine ⟨s.made, ⟨Function.update s.conts c (s.conts c ++ [(n, some s.made)]), s.made + 1⟩, ?_, g, ?_, ?_, ?_⟩
    · rw [St.step, if_neg (by simp), hl]; simp
    · simp only [St.step, get]; rw [g]
    · intro x y hxy
      simp only [get]
      rw [look_add s c n _ hl, if_neg (fun w => hxy (by rw [w.1, w.2]))]
    · intro x y w
      exact absurd (hi.2 x y _ w) (Nat.lt_irrefl _)

/-- **C164.**  `MergeFrom` ends for lack of memory exactly if there is not memory for every name.  Wherever it ends: no item of the container
is replaced; the names it got to are there, with the items of the merged container if they were not there before; nothing else changes. -/
theorem short_merge {s : St N} {h : List (Op N × Res)} (r : Ran St.init h s) (c d : Nat) {f : N → N} (names : List N) (m : Option Nat)
    (hf : Fits s (.merge c f d names m)) :
    (match (generalizing := false) m with
      | none => (s.step (.merge c f d names m)).1 = .ok
      | some k => (s.step (.merge c f d names m)).1 = if names.length ≤ k then .ok else .noMemory) ∧
    (∀ x, x ≠ c → (s.step (.merge c f d names m)).2.conts x = s.conts x) ∧
    (∀ y v, get (s.conts c) y = some v → get ((s.step (.merge c f d names m)).2.conts c) y = some v) ∧
    (∀ n ∈ reached m names, get (s.conts c) (f n) = none →
      get ((s.step (.merge c f d names m)).2.conts c) (f n) = get (s.conts d) n) ∧
    (∀ y, (∀ n ∈ reached m names, f n ≠ y) →
      get ((s.step (.merge c f d names m)).2.conts c) y = get (s.conts c) y) := by
  have hi := r.inv inv_init
  have hp : ∀ n ∈ names, (look (s.conts d) n).isSome := by
    intro n hn
    rw [← Option.ne_none_iff_isSome]
    intro w
    exact (look_none_iff _ _).mp w (hf.2.mem_iff.mp hn)
  have nd : names.Nodup := hf.2.nodup_iff.mpr (hi.1 d)
  obtain ⟨h1, h2, h3, h4⟩ := loop_spec hf.1 c d names m s.conts nd hp
  refine ⟨?_, h2, fun y v hv => loop_keep c f d names m s.conts c y v hv, ?_, ?_⟩
  · cases m with
    | none =>
      rcases h1 with ⟨a, _⟩ | ⟨_, b⟩
      · exact a
      · exact absurd rfl b
    | some k =>
      show (loop c f d names (some k) s.conts).1 = _
      by_cases hk : names.length ≤ k
      · rw [if_pos hk]
        rcases h1 with ⟨a, _⟩ | ⟨_, b⟩
        · exact a
        · exact absurd (List.take_of_length_le hk) b
      · rw [if_neg hk]
        rcases h1 with ⟨_, b⟩ | ⟨a, _⟩
        · exact absurd (by have := congrArg List.length b; simp only [reached, List.length_take] at this; omega) hk
        · exact a
  · intro n hn e
    have := h3 n hn
    simp only [get] at e ⊢
    rw [e] at this
    exact this
  · intro y hy
    refine h4 y ?_
    intro w
    obtain ⟨n, hn, en⟩ := List.mem_map.mp w
    exact hy n hn en

/-- **C164.**  `MergeFrom` that ended for lack of memory can be repeated: with enough memory, and in whatever order the names come then, the
containers are as if there had been enough memory in the first place.  (Two different containers.) -/
theorem short_resume {s : St N} {h : List (Op N × Res)} (r : Ran St.init h s) {c d : Nat} (hcd : c ≠ d) {f : N → N} (names names' : List N)
    (k : Nat) (hf : Fits s (.merge c f d names (some k))) (hf' : Order (s.conts d) names') (x : Nat) (y : N) :
    get (((s.step (.merge c f d names (some k))).2.step (.merge c f d names' none)).2.conts x) y =
      get ((s.step (.merge c f d names none)).2.conts x) y := by
  have hfn : Fits s (.merge c f d names none) := hf
  obtain ⟨-, a2, a3, a4, a5⟩ := short_merge r c d names none hfn
  obtain ⟨-, b2, b3, b4, b5⟩ := short_merge r c d names (some k) hf
  have r' := Ran.snoc _ r hf
  have dd : (s.step (.merge c f d names (some k))).2.conts d = s.conts d := b2 d (fun e => hcd e.symm)
  have hf2 : Fits (s.step (.merge c f d names (some k))).2 (.merge c f d names' none) :=
    ⟨hf.1, by rw [dd]; exact hf'⟩
  obtain ⟨-, c2, c3, c4, c5⟩ := short_merge r' c d names' none hf2
  by_cases hx : x = c
  · subst hx
    by_cases hy : ∃ n ∈ names, f n = y
    · obtain ⟨n, hn, rfl⟩ := hy
      have hn' : n ∈ names' := hf'.mem_iff.mpr (hf.2.mem_iff.mp hn)
      cases e : get (s.conts x) (f n) with
      | some v => rw [c3 _ v (b3 _ v e), a3 _ v e]
      | none =>
        rw [a4 n hn e]
        cases e2 : get ((s.step (.merge x f d names (some k))).2.conts x) (f n) with
        | none => rw [c4 n hn' e2, dd]
        | some v =>
          rw [c3 _ v e2]
          by_cases ht : n ∈ names.take k
          · rw [← b4 n ht e, e2]
          · have := b5 (f n) (fun j hj w => ht (hf.1 w ▸ hj))
            rw [e2, e] at this
            exact absurd this (by simp)
    · have h0 : ∀ n ∈ names, f n ≠ y := fun n hn w => hy ⟨n, hn, w⟩
      rw [a5 y h0, c5 y (fun n hn => h0 n (hf.2.mem_iff.mpr (hf'.mem_iff.mp hn))), b5 y (fun n hn => h0 n (List.mem_of_mem_take hn))]
  · rw [c2 x hx, b2 x hx, a2 x hx]

/-- **C164.**  If in a history `Add` never failed between the item and the object — whatever other memory was missing — every name that a
container has leads to an object, and a call through it reaches that object. -/
theorem short_clean_partial {s : St N} {h : List (Op N × Res)} (r : Ran St.init h s)
    (hok : ∀ c n, (Op.add c n .noObject, Res.noMemory) ∉ h) (c : Nat) (n : N) (hh : has (s.conts c) n = true) :
    ∃ p, get (s.conts c) n = some (some p) ∧ s.step (.use c n) = (.used p, s) := by
  have all : ∀ x y v, look (s.conts x) y = some v → v ≠ none := by
    clear hh c n
    induction r with
    | nil => intro x y v hv; exact absurd hv (by simp [St.init, look_nil])
    | @snoc t h o _ _ ih =>
      have ih := ih (fun c n w => hok c n (List.mem_append_left _ w))
      cases o with
      | add c n m =>
        rw [St.step] at hok ⊢
        split
        · exact ih
        · rename_i hm
          rw [if_neg hm] at hok
          split
          · exact ih
          · rename_i hl
            rw [hl] at hok
            dsimp only at hok
            split
            · rename_i hm2
              rw [if_pos hm2] at hok
              subst hm2
              exact absurd (List.mem_append_right _ (List.mem_singleton.mpr rfl)) (hok c n)
            · intro x y v hv
              simp only at hv
              rw [look_add t c n _ hl] at hv
              split at hv
              · cases hv; simp
              · exact ih x y v hv
      | erase c n =>
        intro x y v hv
        by_cases hx : x = c
        · subst hx
          simp only [St.step, Function.update_self] at hv
          rw [look_erase] at hv
          split at hv
          · exact absurd hv (by simp)
          · exact ih x y v hv
        · simp only [St.step, Function.update_of_ne hx] at hv; exact ih x y v hv
      | merge c f d names m => exact loop_origin c f d (fun v => v ≠ none) names m t.conts ih
      | use c n =>
        rw [St.step]; split <;> exact ih
  obtain ⟨v, hv⟩ := Option.isSome_iff_exists.mp ((has_iff _ _).mp hh)
  cases v with
  | none => exact absurd rfl (all c n none hv)
  | some p => exact ⟨p, hv, by rw [St.step, get, hv]⟩

/-- **C164, what the code does instead.**  If there is memory for the item and not for the object, `Add` throws and the name is registered
nevertheless, with a null pointer.  From then on, until the name is erased, whatever else is called: the container has the name,
`Get` gives a null pointer, `Add` refuses it, and `Connect` uses the null pointer. -/
theorem short_fails {s : St N} (c : Nat) (n : N) (hn : has (s.conts c) n = false) :
    (s.step (.add c n .noObject)).1 = .noMemory ∧
    ∀ (h : List (Op N × Res)) (t : St N), Ran (s.step (.add c n .noObject)).2 h t → (∀ q, (Op.erase c n, q) ∉ h) →
      has (t.conts c) n = true ∧ get (t.conts c) n = some none ∧ (t.step (.add c n .ok)).1 = .refused ∧
      (t.step (.use c n)).1 = .fault := by
  have hl : look (s.conts c) n = none := by
    rw [← Option.not_isSome_iff_eq_none, ← has_iff, hn]; simp
  have e : s.step (.add c n .noObject) = (.noMemory, ⟨Function.update s.conts c (s.conts c ++ [(n, none)]), s.made⟩) := by
    rw [St.step, if_neg (by simp), hl]; simp
  refine ⟨by rw [e], ?_⟩
  intro h t r ho
  have key : look (t.conts c) n = some none := by
    induction r with
    | nil => rw [e]; simp only; rw [look_add s c n _ hl, if_pos ⟨rfl, rfl⟩]
    | @snoc t h o _ _ ih =>
      have ih := ih (fun q w => ho q (List.mem_append_left _ w))
      cases o with
      | add c' n' m =>
        rw [St.step]
        split
        · exact ih
        · split
          · exact ih
          · rename_i hl'
            have ne : ∀ v, look (Function.update t.conts c' (t.conts c' ++ [(n', v)]) c) n = some none := by
              intro v
              rw [look_add t c' n' v hl', if_neg, ih]
              rintro ⟨rfl, rfl⟩
              rw [ih] at hl'; exact absurd hl' (by simp)
            split
            · exact ne _
            · exact ne _
      | erase c' n' =>
        by_cases hx : c = c'
        · subst hx
          simp only [St.step, Function.update_self]
          rw [look_erase, if_neg, ih]
          rintro rfl
          exact ho _ (List.mem_append_right _ (List.mem_singleton.mpr rfl))
        · simp only [St.step, Function.update_of_ne hx]; exact ih
      | merge c' f d names m => exact loop_keep c' f d names m t.conts c n none ih
      | use c' n' => rw [St.step]; split <;> exact ih
  refine ⟨(has_iff _ _).mpr (by rw [key]; rfl), key, ?_, ?_⟩
  · rw [St.step, if_neg (by simp), key]
  · rw [St.step, get, key]

/-- **C164.**  Erasing such a name makes it as if it had never been added: every name of every container is as before the failed `Add`. -/
theorem short_cure {s : St N} (c : Nat) (n : N) (hn : has (s.conts c) n = false) (x : Nat) (y : N) :
    get (((s.step (.add c n .noObject)).2.step (.erase c n)).2.conts x) y = get (s.conts x) y := by
  have hl : look (s.conts c) n = none := by
    rw [← Option.not_isSome_iff_eq_none, ← has_iff, hn]; simp
  have e : s.step (.add c n .noObject) = (.noMemory, ⟨Function.update s.conts c (s.conts c ++ [(n, none)]), s.made⟩) := by
    rw [St.step, if_neg (by simp), hl]; simp
  rw [e]
  simp only [St.step, get]
  by_cases hx : x = c
  · subst hx
    rw [Function.update_self, look_erase]
    split
    · rename_i w; subst w; exact hl.symm
    · rename_i w
      rw [look_add s x n _ hl, if_neg (fun q => w q.2.symm)]
  · rw [Function.update_of_ne hx, look_add s c n _ hl, if_neg (fun q => hx q.1)]

/-! ### The hypotheses are met -/

/-- A history in which memory is missing at every place: for an item, in the midst of a `MergeFrom`, for an object. -/
example : ∃ (h : List (Op (List Nat) × Res)) (s : St (List Nat)), Ran St.init h s ∧
    (Op.add 0 [3] .noObject, Res.noMemory) ∈ h ∧ (Op.add 0 [1] .noItem, Res.noMemory) ∈ h ∧
    get (s.conts 1) [7, 1] = some (some 0) ∧ has (s.conts 1) [7, 2] = false ∧ get (s.conts 0) [3] = some none := by
  have f := @Ran.nil (List Nat) _ St.init
  have f := Ran.snoc (.add 0 [1] .noItem) f trivial
  have f := Ran.snoc (.add 0 [1] .ok) f trivial
  have f := Ran.snoc (.add 0 [2] .ok) f trivial
  have f := Ran.snoc (.merge 1 (7 :: ·) 0 [[1], [2]] (some 1)) f ⟨List.cons_injective, (by decide : List.Perm [[1], [2]] [[1], [2]])⟩
  have f := Ran.snoc (.add 0 [3] .noObject) f trivial
  exact ⟨_, _, f, List.mem_append_right _ (List.mem_singleton.mpr rfl), List.mem_cons_self, by decide, by decide, by decide⟩

end Verif.Stat.Short
