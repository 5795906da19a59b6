import Verif.Event.Model
set_option linter.unusedSimpArgs false
namespace Verif.Event
variable {σ : Type}

/-- The content of slot `i`. -/
def Table.sl (t : Table σ) (i : Nat) : Option σ := (t.slots[i]?).join

/-- The invariant of the table. -/
structure WF (cap : Nat) (t : Table σ) : Prop where
  num : t.num = t.slots.countP Option.isSome
  size : t.slots.length ≤ cap
  above : ∀ i, t.last ≤ i → t.sl i = none
  lastSome : t.last ≠ 0 → (t.sl (t.last - 1)).isSome

theorem join_isSome {o : Option (Option σ)} : o.join.isSome ↔ ∃ s, o = some (some s) := by
  rcases o with _ | _ | _ <;> simp

theorem sl_lt {t : Table σ} {i : Nat} (h : (t.sl i).isSome) : i < t.slots.length := by
  rw [Table.sl, join_isSome] at h
  obtain ⟨s, h⟩ := h
  exact (List.getElem?_eq_some_iff.mp h).1

theorem WF.last_le {cap : Nat} {t : Table σ} (w : WF cap t) : t.last ≤ t.slots.length := by
  by_cases h : t.last = 0
  · omega
  · have := sl_lt (w.lastSome h); omega

theorem WF.lt_last {cap : Nat} {t : Table σ} (w : WF cap t) {i : Nat} (h : (t.sl i).isSome) :
    i < t.last := by
  by_cases hh : i < t.last
  · exact hh
  · rw [w.above i (by omega)] at h; simp at h

theorem wf_init {cap : Nat} : WF cap (Table.init : Table σ) := by
  refine ⟨rfl, Nat.zero_le _, ?_, ?_⟩
  · intro i _; simp [Table.sl, Table.init]
  · intro h; exact absurd rfl h

theorem findFree_spec (l : List (Option σ)) (k : Nat) :
    (∀ i, findFree l k = some i → k ≤ i ∧ l[i - k]? = some none) ∧
    (findFree l k = none → l.countP Option.isSome = l.length) := by
  induction l generalizing k with
  | nil => simp [findFree]
  | cons a l ih =>
    cases a with
    | none => simp [findFree]
    | some a =>
      simp only [findFree]
      refine ⟨?_, ?_⟩
      · intro i h
        obtain ⟨h1, h2⟩ := (ih (k + 1)).1 i h
        refine ⟨by omega, ?_⟩
        rw [show i - k = (i - (k + 1)) + 1 by omega, List.getElem?_cons_succ]
        exact h2
      · intro h
        have := (ih (k + 1)).2 h
        simp [List.countP_cons, this]

theorem countP_set {l : List (Option σ)} {i : Nat} {a b : Option σ} (h : l[i]? = some a) :
    (l.set i b).countP Option.isSome + (if a.isSome then 1 else 0) =
      l.countP Option.isSome + (if b.isSome then 1 else 0) := by
  induction l generalizing i with
  | nil => simp at h
  | cons x l ih =>
    cases i with
    | zero =>
      simp only [List.getElem?_cons_zero, Option.some.injEq] at h
      subst h
      simp only [List.set_cons_zero, List.countP_cons]
      omega
    | succ i =>
      simp only [List.getElem?_cons_succ] at h
      have := ih h
      simp only [List.set_cons_succ, List.countP_cons]
      omega

theorem sl_set {l : List (Option σ)} {i : Nat} {b : Option σ} {m n : Nat} (h : i < l.length) (j : Nat) :
    (⟨l.set i b, m, n⟩ : Table σ).sl j = if j = i then b else (l[j]?).join := by
  simp only [Table.sl, List.getElem?_set]
  by_cases hj : j = i
  · subst hj; simp [h]
  · simp [hj, Ne.symm hj]

/-- What `insert` does to a table that satisfies the invariant. -/
theorem insert_spec {cap : Nat} {t : Table σ} (w : WF cap t) (hn : t.num < cap) (s : σ) :
    (t.insert s).1 ≠ 0 ∧ (t.insert s).1 ≤ cap ∧ t.sl ((t.insert s).1 - 1) = none ∧
    (∀ j, (t.insert s).2.sl j = if j + 1 = (t.insert s).1 then some s else t.sl j) ∧
    WF cap (t.insert s).2 ∧ t.last ≤ (t.insert s).2.last := by
  have hc := w.num
  have hs := w.size
  unfold Table.insert
  by_cases h : t.num < t.slots.length
  · rw [if_pos h]
    obtain ⟨f1, f2⟩ := findFree_spec t.slots 0
    cases hf : findFree t.slots 0 with
    | none => have := f2 hf; omega
    | some i =>
      obtain ⟨-, h2⟩ := f1 i hf
      simp only [Nat.sub_zero] at h2
      have hi : i < t.slots.length := (List.getElem?_eq_some_iff.mp h2).1
      have hsl : t.sl i = none := by simp [Table.sl, h2]
      dsimp only
      have hset : ∀ m n j, (⟨t.slots.set i (some s), m, n⟩ : Table σ).sl j =
          if j + 1 = i + 1 then some s else t.sl j := by
        intro m n j
        rw [sl_set hi]; simp [Table.sl]
      refine ⟨by omega, by omega, hsl, hset _ _, ⟨?_, ?_, ?_, ?_⟩, Nat.le_max_left ..⟩
      · have := countP_set (b := some s) h2
        simp only [Option.isSome_none, Option.isSome_some, if_true] at this
        simp only [hc]
        simpa using this.symm
      · simpa using hs
      · intro j hj
        have hj : max t.last (i + 1) ≤ j := hj
        rw [hset, if_neg (by omega)]
        exact w.above j (by omega)
      · intro _
        rw [hset]
        dsimp only
        by_cases h3 : t.last ≤ i + 1
        · rw [Nat.max_eq_right h3]; simp
        · rw [Nat.max_eq_left (by omega)]
          split
          · simp
          · exact w.lastSome (by omega)
  · rw [if_neg h]
    have hlen : t.num = t.slots.length := by
      have := List.countP_le_length (p := Option.isSome) (l := t.slots); omega
    dsimp only
    have hset : ∀ m n j, (⟨t.slots ++ [some s], m, n⟩ : Table σ).sl j =
        if j + 1 = t.num + 1 then some s else t.sl j := by
      intro m n j
      simp only [Table.sl]
      by_cases h1 : j < t.slots.length
      · rw [List.getElem?_append_left h1, if_neg (by omega)]
      · by_cases h2 : j = t.slots.length
        · subst h2; simp [hlen]
        · rw [if_neg (by omega), List.getElem?_eq_none (by simp; omega),
            List.getElem?_eq_none (by omega)]
    refine ⟨by omega, by omega, ?_, hset _ _, ⟨?_, ?_, ?_, ?_⟩, ?_⟩
    · simp [Table.sl, List.getElem?_eq_none, hlen]
    · simp [List.countP_append, hc]
    · simp; omega
    · intro j hj
      have hj : t.num + 1 ≤ j := hj
      rw [hset, if_neg (by omega)]
      simp only [Table.sl]
      rw [List.getElem?_eq_none (by omega)]; rfl
    · intro _
      rw [hset]; simp
    · have := w.last_le; show t.last ≤ t.num + 1; omega

theorem shrink_spec (slots : List (Option σ)) (n : Nat) (l : Nat) :
    shrink slots l ≤ l ∧
    (∀ i, shrink slots l ≤ i → i < l → (⟨slots, n, l⟩ : Table σ).sl i = none) ∧
    (shrink slots l ≠ 0 → ((⟨slots, n, l⟩ : Table σ).sl (shrink slots l - 1)).isSome) := by
  induction l with
  | zero => simp [shrink]
  | succ l ih =>
    obtain ⟨i1, i2, i3⟩ := ih
    simp only [Table.sl] at *
    rw [shrink]
    split
    · rename_i s hs
      refine ⟨Nat.le_refl _, fun i a b => by omega, fun _ => ?_⟩
      simp [hs]
    · rename_i hs
      refine ⟨by omega, ?_, i3⟩
      intro i h1 h2
      by_cases h : i < l
      · exact i2 i h1 h
      · have : i = l := by omega
        subst this
        rcases hq : slots[i]? with _ | _ | s
        · rfl
        · rfl
        · exact absurd hq (hs s)

theorem sl_mk {slots : List (Option σ)} {a b c d : Nat} :
    (⟨slots, a, b⟩ : Table σ).sl = (⟨slots, c, d⟩ : Table σ).sl := rfl

/-- What `disconnect` does to a table that satisfies the invariant. -/
theorem disconnect_spec {cap : Nat} {t : Table σ} (w : WF cap t) (hcap : cap < 2 ^ 32) (c : Nat) :
    (∀ j, (t.disconnect c).sl j = if j + 1 = c then none else t.sl j) ∧
    WF cap (t.disconnect c) ∧ (t.disconnect c).last ≤ t.last ∧
    ((t.sl (c - 1) = none ∨ c = 0) → t.disconnect c = t) := by
  have hs := w.size
  unfold Table.disconnect
  by_cases h0 : c = 0
  · subst h0
    rw [dec32, if_pos rfl]
    have : ¬ (2 ^ 32 - 1 < t.slots.length) := by omega
    dsimp only
    rw [if_neg this]
    refine ⟨fun j => by simp, w, Nat.le_refl _, fun _ => rfl⟩
  · rw [dec32, if_neg h0]
    dsimp only
    by_cases h1 : c - 1 < t.slots.length
    · rw [if_pos h1]
      rcases hq : t.slots[c - 1]? with _ | _ | s
      · rw [List.getElem?_eq_none_iff] at hq; omega
      · refine ⟨?_, w, Nat.le_refl _, fun _ => rfl⟩
        intro j
        by_cases hj : j + 1 = c
        · have hjj : j = c - 1 := by omega
          rw [if_pos hj, hjj]; simp [Table.sl, hq]
        · rw [if_neg hj]
      · dsimp only
        have hset : ∀ m n j, (⟨t.slots.set (c - 1) none, m, n⟩ : Table σ).sl j =
            if j + 1 = c then none else t.sl j := by
          intro m n j
          rw [sl_set h1]
          by_cases hj : j + 1 = c
          · rw [if_pos hj, if_pos (by omega)]
          · rw [if_neg hj, if_neg (by omega)]; rfl
        obtain ⟨s1, s2, s3⟩ := shrink_spec (t.slots.set (c - 1) none) (t.num - 1) t.last
        refine ⟨hset _ _, ⟨?_, ?_, ?_, ?_⟩, s1, ?_⟩
        · have := countP_set (b := (none : Option σ)) hq
          have hc := w.num
          simp only [Option.isSome_none, Option.isSome_some, if_true] at this
          simp only [hc]
          simp at this
          omega
        · simpa using hs
        · intro j hj
          by_cases h2 : j < t.last
          · exact s2 j hj h2
          · rw [hset]
            split
            · rfl
            · exact w.above j (by omega)
        · intro h3
          exact s3 h3
        · rintro (h | h)
          · simp [Table.sl, hq] at h
          · omega
    · rw [if_neg h1]
      refine ⟨?_, w, Nat.le_refl _, fun _ => rfl⟩
      intro j
      by_cases hj : j + 1 = c
      · rw [if_pos hj]
        simp only [Table.sl]
        rw [List.getElem?_eq_none (by omega)]; rfl
      · rw [if_neg hj]

theorem num_le {cap : Nat} {t : Table σ} (w : WF cap t) : t.num ≤ cap := by
  have := List.countP_le_length (p := Option.isSome) (l := t.slots)
  have := w.num
  have := w.size
  omega

theorem connect_some {cap : Nat} {t : Table σ} (w : WF cap t) (s : σ) :
    t.connect cap (some s) = if t.num = cap then .error .connectionLimit else .ok (t.insert s) := by
  unfold Table.connect
  dsimp only
  by_cases h : t.num = cap
  · rw [if_pos h, if_pos h]
  · rw [if_neg h, if_neg h]
    have := (insert_spec w (by have := num_le w; omega) s).1
    rw [if_neg this]

theorem apply_wf {cap : Nat} {t : Table σ} (w : WF cap t) (hcap : cap < 2 ^ 32) (op : Op σ) :
    WF cap (t.apply cap op) := by
  cases op with
  | connect s =>
    cases s with
    | none => exact w
    | some s =>
      simp only [Table.apply, connect_some w]
      by_cases h : t.num = cap
      · rw [if_pos h]; exact w
      · rw [if_neg h]
        exact (insert_spec w (by have := num_le w; omega) s).2.2.2.2.1
  | disconnect c => exact (disconnect_spec w hcap c).2.1

theorem run_wf {cap : Nat} {t : Table σ} (w : WF cap t) (hcap : cap < 2 ^ 32) (ops : List (Op σ)) :
    WF cap (t.run cap ops) := by
  induction ops generalizing t with
  | nil => exact w
  | cons op ops ih => exact ih (apply_wf w hcap op)

theorem insert_keep {cap : Nat} {t : Table σ} (w : WF cap t) (h : t.num < cap) (s : σ) {j : Nat} {x : σ}
    (hx : t.sl j = some x) : (t.insert s).2.sl j = some x := by
  obtain ⟨h0, -, h2, h3, -⟩ := insert_spec w h s
  rw [h3]
  split
  · rename_i hh
    rw [show (t.insert s).1 - 1 = j by omega, hx] at h2; simp at h2
  · exact hx

theorem apply_keep {cap : Nat} {t : Table σ} (w : WF cap t) (hcap : cap < 2 ^ 32) {op : Op σ} {j : Nat}
    {x : σ} (hx : t.sl j = some x) (hop : op ≠ .disconnect (j + 1)) :
    (t.apply cap op).sl j = some x := by
  cases op with
  | connect s =>
    cases s with
    | none => exact hx
    | some s =>
      simp only [Table.apply, connect_some w]
      by_cases h : t.num = cap
      · rw [if_pos h]; exact hx
      · rw [if_neg h]
        exact insert_keep w (by have := num_le w; omega) s hx
  | disconnect c =>
    simp only [Table.apply]
    rw [(disconnect_spec w hcap c).1, if_neg]
    · exact hx
    · intro h; exact hop (by rw [h])

theorem run_keep {cap : Nat} {t : Table σ} (w : WF cap t) (hcap : cap < 2 ^ 32) {ops : List (Op σ)}
    {j : Nat} {x : σ} (hx : t.sl j = some x) (hop : Op.disconnect (j + 1) ∉ ops) :
    (t.run cap ops).sl j = some x := by
  induction ops generalizing t with
  | nil => exact hx
  | cons op ops ih =>
    simp only [List.mem_cons, not_or] at hop
    exact ih (apply_wf w hcap op) (apply_keep w hcap hx (Ne.symm hop.1)) hop.2

theorem apply_none {cap : Nat} {t : Table σ} (w : WF cap t) (hcap : cap < 2 ^ 32) {op : Op σ} {j : Nat}
    (hx : t.sl j = none) (hop : ∀ s, op ≠ .connect s) : (t.apply cap op).sl j = none := by
  cases op with
  | connect s => exact absurd rfl (hop s)
  | disconnect c =>
    simp only [Table.apply]
    rw [(disconnect_spec w hcap c).1]
    split
    · rfl
    · exact hx

theorem run_none {cap : Nat} {t : Table σ} (w : WF cap t) (hcap : cap < 2 ^ 32) {ops : List (Op σ)}
    {j : Nat} (hx : t.sl j = none) (hop : ∀ s, Op.connect s ∉ ops) :
    (t.run cap ops).sl j = none := by
  induction ops generalizing t with
  | nil => exact hx
  | cons op ops ih =>
    refine ih (apply_wf w hcap op) (apply_none w hcap hx ?_) ?_
    · intro s h; exact hop s (by rw [h]; exact List.mem_cons_self)
    · intro s h; exact hop s (List.mem_cons_of_mem _ h)

theorem slots_of_sl {t : Table σ} {i : Nat} {s : σ} (h : t.sl i = some s) : t.slots[i]? = some (some s) := by
  have : (t.sl i).isSome := by rw [h]; rfl
  rw [Table.sl, join_isSome] at this
  obtain ⟨s', h'⟩ := this
  rw [Table.sl, h'] at h
  rw [h']; simp at h; rw [h]

/-- The statement about a loop of `Fire` from index `i`. -/
def LoopSpec (cap : Nat) (cb : Behaviour σ) (t : Table σ) (i : Nat) (called : List Nat)
    (r : Outcome σ) : Prop :=
  ∃ new t', r = .done (called ++ new) t' ∧ WF cap t' ∧
      new.Pairwise (· < ·) ∧ (∀ c ∈ new, i < c ∧ c ≤ cap) ∧
      (∀ j s, i ≤ j → t.sl j = some s → (∀ tr s, Op.disconnect (j + 1) ∉ cb tr s) → j + 1 ∈ new) ∧
      (∀ j, i ≤ j → t.sl j = none → (∀ tr s x, Op.connect x ∉ cb tr s) → j + 1 ∉ new)

theorem LoopSpec.skip {cap : Nat} {cb : Behaviour σ} {t : Table σ} {i : Nat} {called : List Nat}
    {r : Outcome σ} (h : LoopSpec cap cb t (i + 1) called r) (hs : t.sl i = none) :
    LoopSpec cap cb t i called r := by
  obtain ⟨new, t', h1, h2, h3, h4, h5, h6⟩ := h
  refine ⟨new, t', h1, h2, h3, fun c hc => ⟨by have := h4 c hc; omega, (h4 c hc).2⟩, ?_, ?_⟩
  · intro j s hj hjs
    by_cases e : j = i
    · subst e; rw [hs] at hjs; simp at hjs
    · exact h5 j s (by omega) hjs
  · intro j hj hjs hc
    by_cases e : j = i
    · subst e; intro hm; have := h4 _ hm; omega
    · exact h6 j (by omega) hjs hc

theorem LoopSpec.call {cap : Nat} (hcap : cap < 2 ^ 32) {cb : Behaviour σ} {t : Table σ} {i : Nat}
    {called : List Nat} {r : Outcome σ} {s : σ} (w : WF cap t) (hs : t.sl i = some s)
    (h : LoopSpec cap cb (t.run cap (cb called s)) (i + 1) (called ++ [i + 1]) r) :
    LoopSpec cap cb t i called r := by
  obtain ⟨new, t', h1, h2, h3, h4, h5, h6⟩ := h
  have hi : i + 1 ≤ cap := by
    have := sl_lt (t := t) (i := i) (by rw [hs]; rfl)
    have := w.size
    omega
  refine ⟨(i + 1) :: new, t', ?_, h2, ?_, ?_, ?_, ?_⟩
  · rw [h1]; simp
  · exact List.pairwise_cons.mpr ⟨fun c hc => (h4 c hc).1, h3⟩
  · intro c hc
    rcases List.mem_cons.mp hc with e | hc
    · omega
    · have := h4 c hc; omega
  · intro j x hj hjs hd
    by_cases e : j = i
    · subst e; exact List.mem_cons_self
    · exact List.mem_cons_of_mem _ (h5 j x (by omega) (run_keep w hcap hjs (hd _ _)) hd)
  · intro j hj hjs hc hm
    by_cases e : j = i
    · subst e; rw [hs] at hjs; simp at hjs
    · rcases List.mem_cons.mp hm with e' | hm
      · omega
      · exact h6 j (by omega) (run_none w hcap hjs (hc _ _)) hc hm

/-- The loop of `Fire(void)`, for arbitrary sinks. -/
theorem fireVoidLoop_spec {cap : Nat} (hcap : cap < 2 ^ 32) (cb : Behaviour σ) (fuel : Nat) (t : Table σ)
    (i : Nat) (called : List Nat) (w : WF cap t) (hf : cap < fuel + i) (hf0 : 0 < fuel) :
    LoopSpec cap cb t i called (fireVoidLoop cap cb fuel t i called) := by
  induction fuel generalizing t i called with
  | zero => omega
  | succ fuel ih =>
    rw [fireVoidLoop]
    have hl := w.last_le
    have hz := w.size
    by_cases h : i < t.last
    · rw [if_pos h]
      rcases hq : t.slots[i]? with _ | _ | s
      · rw [List.getElem?_eq_none_iff] at hq; omega
      · exact (ih t (i + 1) called w (by omega) (by omega)).skip (by simp [Table.sl, hq])
      · exact (ih _ (i + 1) _ (run_wf w hcap _) (by omega) (by omega)).call hcap w
          (by simp [Table.sl, hq])
    · rw [if_neg h]
      refine ⟨[], t, by simp, w, List.Pairwise.nil, by simp, ?_, by simp⟩
      intro j s hj hs
      rw [w.above j (by omega)] at hs; simp at hs

/-- The loop of `Fire(args...)`, when no sink above slot `k` is disconnected. -/
theorem fireArgsLoop_spec {cap : Nat} (hcap : cap < 2 ^ 32) (cb : Behaviour σ) (k : Nat)
    (hk : ∀ tr s c, k ≤ c → Op.disconnect c ∉ cb tr s) (fuel : Nat) (t : Table σ)
    (i : Nat) (called : List Nat) (w : WF cap t) (hf : cap ≤ fuel + i) (hf0 : 0 < fuel)
    (hkl : k ≤ t.last) (hik : i < t.last) :
    LoopSpec cap cb t i called (fireArgsLoop cap cb fuel t i called) := by
  induction fuel generalizing t i called with
  | zero => omega
  | succ fuel ih =>
    have hl := w.last_le
    have hz := w.size
    have hd : dec32 t.last = t.last - 1 := by rw [dec32, if_neg (by omega)]
    rw [fireArgsLoop, hd]
    by_cases h : i < t.last - 1
    · rw [if_pos h]
      rcases hq : t.slots[i]? with _ | _ | s
      · rw [List.getElem?_eq_none_iff] at hq; omega
      · exact (ih t (i + 1) called w (by omega) (by omega) hkl (by omega)).skip (by simp [Table.sl, hq])
      · have w' := run_wf w hcap (cb called s)
        obtain ⟨x, hx⟩ := Option.isSome_iff_exists.mp (w.lastSome (by omega))
        have hkeep := run_keep (ops := cb called s) w hcap hx (hk _ _ _ (by omega))
        have hgrow := w'.lt_last (i := t.last - 1) (by rw [hkeep]; rfl)
        exact (ih _ (i + 1) _ w' (by omega) (by omega) (by omega) (by omega)).call hcap w
          (by simp [Table.sl, hq])
    · rw [if_neg h]
      have he : i = t.last - 1 := by omega
      have hs := w.lastSome (by omega)
      rw [← he] at hs
      obtain ⟨s, hs⟩ := Option.isSome_iff_exists.mp hs
      rw [slots_of_sl hs]
      dsimp only
      have w' := run_wf w hcap (cb called s)
      refine ⟨[i + 1], _, rfl, w', by simp, ?_, ?_, ?_⟩
      · intro c hc
        simp only [List.mem_singleton] at hc
        omega
      · intro j x hj hx _
        have := w.lt_last (i := j) (by rw [hx]; rfl)
        simp only [List.mem_singleton]
        omega
      · intro j hj hx _ hm
        simp only [List.mem_singleton] at hm
        have : j = i := by omega
        rw [this, hs] at hx; simp at hx

/-! ### Sinks that leave the connections alone -/

/-- Indices `i ≤ j < i + n` whose slot is live, as cookies. -/
def liveFrom (t : Table σ) (i n : Nat) : List Nat :=
  (List.range' (i + 1) n).filter (fun c => (t.sl (c - 1)).isSome)

theorem liveFrom_succ (t : Table σ) (i n : Nat) :
    liveFrom t i (n + 1) = if (t.sl i).isSome then (i + 1) :: liveFrom t (i + 1) n
      else liveFrom t (i + 1) n := by
  simp only [liveFrom, List.range'_succ, List.filter_cons, Nat.add_sub_cancel]

theorem liveFrom_above {cap : Nat} {t : Table σ} (w : WF cap t) {i n : Nat} (h : t.last ≤ i) :
    liveFrom t i n = [] := by
  simp only [liveFrom, List.filter_eq_nil_iff, List.mem_range'_1]
  intro c hc
  rw [w.above (c - 1) (by omega)]
  simp

theorem fireVoidLoop_still {cap : Nat} (cb : Behaviour σ) (hcb : ∀ tr s, cb tr s = []) (fuel : Nat)
    (t : Table σ) (w : WF cap t) (i : Nat) (called : List Nat) (hf : cap < fuel + i) (hf0 : 0 < fuel) (n : Nat)
    (hn : cap = i + n) :
    fireVoidLoop cap cb fuel t i called = .done (called ++ liveFrom t i n) t := by
  induction fuel generalizing i called n with
  | zero => omega
  | succ fuel ih =>
    rw [fireVoidLoop]
    have hl := w.last_le
    have hz := w.size
    by_cases h : i < t.last
    · rw [if_pos h]
      obtain ⟨m, rfl⟩ : ∃ m, n = m + 1 := ⟨n - 1, by omega⟩
      rw [liveFrom_succ]
      rcases hq : t.slots[i]? with _ | _ | s
      · rw [List.getElem?_eq_none_iff] at hq; omega
      · have : t.sl i = none := by simp [Table.sl, hq]
        simp only [this, Option.isSome_none, Bool.false_eq_true, if_false]
        exact ih _ _ (by omega) (by omega) m (by omega)
      · have : t.sl i = some s := by simp [Table.sl, hq]
        simp only [this, Option.isSome_some, if_true, hcb, Table.run, List.foldl_nil]
        rw [ih _ _ (by omega) (by omega) m (by omega)]; simp
    · rw [if_neg h, liveFrom_above w (by omega), List.append_nil]

theorem fireArgsLoop_still {cap : Nat} (cb : Behaviour σ) (hcb : ∀ tr s, cb tr s = []) (fuel : Nat)
    (t : Table σ) (w : WF cap t) (i : Nat) (called : List Nat) (hf : cap ≤ fuel + i) (hf0 : 0 < fuel) (n : Nat)
    (hn : cap = i + n) (hi : i < t.last) :
    fireArgsLoop cap cb fuel t i called = .done (called ++ liveFrom t i n) t := by
  induction fuel generalizing i called n with
  | zero => omega
  | succ fuel ih =>
    have hl := w.last_le
    have hz := w.size
    have hd : dec32 t.last = t.last - 1 := by rw [dec32, if_neg (by omega)]
    rw [fireArgsLoop, hd]
    obtain ⟨m, rfl⟩ : ∃ m, n = m + 1 := ⟨n - 1, by omega⟩
    rw [liveFrom_succ]
    by_cases h : i < t.last - 1
    · rw [if_pos h]
      rcases hq : t.slots[i]? with _ | _ | s
      · rw [List.getElem?_eq_none_iff] at hq; omega
      · have : t.sl i = none := by simp [Table.sl, hq]
        simp only [this, Option.isSome_none, Bool.false_eq_true, if_false]
        exact ih _ _ (by omega) (by omega) m (by omega) (by omega)
      · have : t.sl i = some s := by simp [Table.sl, hq]
        simp only [this, Option.isSome_some, if_true, hcb, Table.run, List.foldl_nil]
        rw [ih _ _ (by omega) (by omega) m (by omega) (by omega)]; simp
    · rw [if_neg h]
      have he : i = t.last - 1 := by omega
      have hs := w.lastSome (by omega)
      rw [← he] at hs
      obtain ⟨s, hs⟩ := Option.isSome_iff_exists.mp hs
      rw [slots_of_sl hs]
      simp only [hcb, Table.run, List.foldl_nil, hs, Option.isSome_some, if_true]
      rw [liveFrom_above w (by omega)]

theorem visitLoop_eq {cap : Nat} {t : Table σ} (w : WF cap t) (n i : Nat) (hn : t.last = i + n) (m : Nat)
    (hm : cap = i + m) :
    visitLoop t.slots t.last n = (liveFrom t i m).filterMap (fun c => t.sl (c - 1)) := by
  have hl := w.last_le
  have hz := w.size
  induction n generalizing i m with
  | zero => rw [visitLoop, liveFrom_above w (by omega)]; rfl
  | succ n ih =>
    obtain ⟨m, rfl⟩ : ∃ m', m = m' + 1 := ⟨m - 1, by omega⟩
    rw [visitLoop, liveFrom_succ, show t.last - (n + 1) = i by omega]
    rcases hq : t.slots[i]? with _ | _ | s
    · rw [List.getElem?_eq_none_iff] at hq; omega
    · have : t.sl i = none := by simp [Table.sl, hq]
      simp only [this, Option.isSome_none, Bool.false_eq_true, if_false]
      exact ih _ (by omega) _ (by omega)
    · have : t.sl i = some s := by simp [Table.sl, hq]
      simp only [this, Option.isSome_some, if_true]
      rw [ih (i + 1) (by omega) m (by omega)]
      simp [this]

theorem countP_range (slots : List (Option σ)) (k n : Nat) (h : slots.length ≤ n) :
    (List.range' (k + 1) n).countP (fun c => ((slots[c - 1 - k]?).join).isSome) =
      slots.countP Option.isSome := by
  induction slots generalizing k n with
  | nil => simp
  | cons a l ih =>
    obtain ⟨n, rfl⟩ : ∃ m, n = m + 1 := ⟨n - 1, by simp at h; omega⟩
    rw [List.range'_succ, List.countP_cons, List.countP_cons, ← ih (k + 1) n (by simpa using h)]
    congr 1
    · apply List.countP_congr
      intro c hc
      rw [List.mem_range'_1] at hc
      rw [show c - 1 - k = (c - 1 - (k + 1)) + 1 by omega, List.getElem?_cons_succ]
    · simp

theorem liveFrom_length {cap : Nat} {t : Table σ} (w : WF cap t) : (liveFrom t 0 cap).length = t.num := by
  rw [w.num, ← countP_range t.slots 0 cap w.size, List.countP_eq_length_filter]
  rfl

theorem filterMap_congr' {α β : Type} {l : List α} {f g : α → Option β} (h : ∀ a ∈ l, f a = g a) :
    l.filterMap f = l.filterMap g := by
  induction l with
  | nil => rfl
  | cons a l ih =>
    rw [List.filterMap_cons, List.filterMap_cons, h a List.mem_cons_self,
      ih fun b hb => h b (List.mem_cons_of_mem _ hb)]

theorem getSink_eq {t : Table σ} (c : Nat) :
    t.getSink c = match (if c = 0 then none else t.sl (c - 1)) with
      | some s => .ok s
      | none => .error .noConnection := by
  unfold Table.getSink Table.sl
  by_cases h : c ≠ 0 ∧ c ≤ t.slots.length
  · rw [if_pos h, if_neg h.1]
    rcases t.slots[c - 1]? with _ | _ | s <;> rfl
  · rw [if_neg h]
    by_cases h0 : c = 0
    · rw [if_pos h0]
    · rw [if_neg h0, List.getElem?_eq_none (by omega)]; rfl

theorem get_eq {t : Table σ} (c : Nat) : t.get c = if c = 0 then none else t.sl (c - 1) := by
  unfold Table.get Table.sl
  by_cases h : c ≠ 0 ∧ c ≤ t.slots.length
  · rw [if_pos h, if_neg h.1]
    rcases t.slots[c - 1]? with _ | _ | s <;> rfl
  · rw [if_neg h]
    by_cases h0 : c = 0
    · rw [if_pos h0]
    · rw [if_neg h0, List.getElem?_eq_none (by omega)]; rfl

theorem prun_wf {cap : Nat} {t : Table σ} (w : WF cap t) (hcap : cap < 2 ^ 32) (ops : List (POp σ)) :
    WF cap (t.prun cap ops) := by
  induction ops generalizing t with
  | nil => exact w
  | cons op ops ih =>
    refine ih ?_
    cases op with
    | add x =>
      simp only [Table.papply, Table.add]
      by_cases h : t.num < cap
      · rw [if_pos h]; exact (insert_spec w h x).2.2.2.2.1
      · rw [if_neg h]; exact w
    | remove c => exact (disconnect_spec w hcap c).2.1

end Verif.Event
