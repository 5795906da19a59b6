import Verif.Event.Lemmas
set_option linter.unusedSimpArgs false
/-!
Properties C34 (fire), C35 (cookies of events), C36 (disconnect while firing), C37 (portainer).

Everything is stated through the public operations.  `sinkAt t c` is what `GetSink(c)` yields, and
`liveCookies cap t` lists, in increasing order, the cookies for which `GetSink` succeeds.
-/
namespace Verif.Event
variable {σ : Type}

/-- The sink connected under the cookie `c`, as told by `GetSink`. -/
def sinkAt (t : Table σ) (c : Nat) : Option σ :=
  match t.getSink c with
  | .ok s => some s
  | .error _ => none

/-- The live cookies in increasing order, as told by `GetSink`. -/
def liveCookies (cap : Nat) (t : Table σ) : List Nat :=
  (List.range' 1 cap).filter (fun c => (sinkAt t c).isSome)

/-- The tables an event of capacity `cap` can reach. -/
def Reachable (cap : Nat) (t : Table σ) : Prop := ∃ ops, t = Table.init.run cap ops

theorem Reachable.wf {cap : Nat} (hcap : cap < 2 ^ 32) {t : Table σ} (h : Reachable cap t) : WF cap t := by
  obtain ⟨ops, rfl⟩ := h
  exact run_wf wf_init hcap ops

theorem sinkAt_eq (t : Table σ) (c : Nat) : sinkAt t c = if c = 0 then none else t.sl (c - 1) := by
  rw [sinkAt, getSink_eq]
  by_cases h : c = 0
  · simp [h]
  · simp only [h, if_false]
    cases t.sl (c - 1) <;> rfl

theorem liveCookies_eq (cap : Nat) (t : Table σ) : liveCookies cap t = liveFrom t 0 cap := by
  apply List.filter_congr
  intro c hc
  rw [List.mem_range'_1] at hc
  rw [sinkAt_eq, if_neg (by omega)]

/-- No live cookie is missing from `liveCookies`. -/
theorem liveCookies_complete {cap : Nat} (hcap : cap < 2 ^ 32) {t : Table σ} (hr : Reachable cap t) (c : Nat) :
    c ∈ liveCookies cap t ↔ (sinkAt t c).isSome := by
  have w := hr.wf hcap
  constructor
  · intro h; exact (List.mem_filter.mp h).2
  · intro h
    refine List.mem_filter.mpr ⟨?_, h⟩
    rw [sinkAt_eq] at h
    by_cases h0 : c = 0
    · simp [h0] at h
    · rw [if_neg h0] at h
      have := sl_lt h
      have := w.size
      rw [List.mem_range'_1]; omega

/-! ### C34 -/

/-- C34.  After every history of connects and disconnects, when the sinks do not change the
connections, `Fire` (with and without arguments) calls every live cookie exactly once, in cookie
order, and changes nothing; `Visit` visits exactly the live sinks in the same order. -/
theorem C34_fire {cap : Nat} (hcap : cap < 2 ^ 32) {t : Table σ} (hr : Reachable cap t)
    (cb : Behaviour σ) (hcb : ∀ tr s, cb tr s = []) (fuel : Nat) (hf : cap < fuel) :
    fireVoid cap cb fuel t = .done (liveCookies cap t) t ∧
    fireArgs cap cb fuel t = .done (liveCookies cap t) t ∧
    t.visit = (liveCookies cap t).filterMap (sinkAt t) ∧
    (liveCookies cap t).Pairwise (· < ·) ∧
    (∀ c, c ∈ liveCookies cap t ↔ (sinkAt t c).isSome) := by
  have w := hr.wf hcap
  refine ⟨?_, ?_, ?_, ?_, liveCookies_complete hcap hr⟩
  · rw [liveCookies_eq, fireVoid, fireVoidLoop_still cb hcb fuel t w 0 [] (by omega) (by omega) cap (by omega)]
    rfl
  · rw [liveCookies_eq, fireArgs]
    by_cases h : t.last = 0
    · rw [if_pos h, liveFrom_above w (by omega)]
    · rw [if_neg h, fireArgsLoop_still cb hcb fuel t w 0 [] (by omega) (by omega) cap (by omega) (by omega)]
      rfl
  · rw [liveCookies_eq, Table.visit, visitLoop_eq w t.last 0 (by omega) cap (by omega)]
    apply filterMap_congr'
    intro c hc
    have := (List.mem_filter.mp hc).1
    rw [List.mem_range'_1] at this
    rw [sinkAt_eq, if_neg (by omega)]
  · exact List.Pairwise.filter _ (List.pairwise_lt_range' 1)

/-- A case of C34 with a hole: three sinks, the middle one disconnected. -/
example : fireArgs 4 (fun _ _ => []) 5
    (Table.init.run 4 [.connect (some 'a'), .connect (some 'b'), .connect (some 'c'), .disconnect 2]) =
    .done [1, 3] ⟨[some 'a', none, some 'c'], 2, 3⟩ := by decide

/-! ### C35 -/

/-- C35.  After every history, connecting a sink to an event that is not full succeeds with a
non-zero cookie within the capacity that was not in use, and adds exactly that connection. -/
theorem C35_connect {cap : Nat} (hcap : cap < 2 ^ 32) {t : Table σ} (hr : Reachable cap t) (s : σ)
    (hroom : t.getNumSinks < cap) :
    ∃ c t', t.connect cap (some s) = .ok (c, t') ∧ c ≠ 0 ∧ c ≤ cap ∧ sinkAt t c = none ∧
      (∀ c', sinkAt t' c' = if c' = c then some s else sinkAt t c') ∧
      t'.getNumSinks = t.getNumSinks + 1 ∧ Reachable cap t' := by
  have w := hr.wf hcap
  have hroom : t.num < cap := hroom
  obtain ⟨h0, h1, h2, h3, w', -⟩ := insert_spec w hroom s
  have hc : t.connect cap (some s) = .ok (t.insert s) := by
    rw [connect_some w, if_neg (by omega)]
  refine ⟨(t.insert s).1, (t.insert s).2, hc, h0, h1, ?_, ?_, ?_, ?_⟩
  · rw [sinkAt_eq, if_neg h0, h2]
  · intro c'
    rw [sinkAt_eq, sinkAt_eq]
    by_cases e : c' = 0
    · simp [e, Ne.symm h0]
    · rw [if_neg e, if_neg e, h3, show c' - 1 + 1 = c' by omega]
  · simp only [Table.getNumSinks]
    unfold Table.insert
    by_cases h : t.num < t.slots.length
    · rw [if_pos h]
      cases hf : findFree t.slots 0 with
      | none =>
        have := (findFree_spec t.slots 0).2 hf
        have := w.num
        omega
      | some i => rfl
    · rw [if_neg h]
  · obtain ⟨ops, rfl⟩ := hr
    refine ⟨ops ++ [.connect (some s)], ?_⟩
    simp only [Table.run, List.foldl_append, List.foldl_cons, List.foldl_nil]
    rw [Table.run] at hc
    rw [Table.apply, hc]

/-- C35.  The failures of `Connect`: a null sink is refused with `InvalidPointer`, and a full event
refuses with `ConnectionLimit`.  (A refusal returns no table: nothing is changed.) -/
theorem C35_connect_refused {cap : Nat} (hcap : cap < 2 ^ 32) {t : Table σ} (hr : Reachable cap t) (s : σ) :
    t.connect cap none = .error .invalidPointer ∧
    (t.connect cap (some s) = .error .connectionLimit ↔ t.getNumSinks = cap) := by
  refine ⟨rfl, ?_⟩
  rw [connect_some (hr.wf hcap)]
  by_cases h : t.num = cap
  · rw [if_pos h]; exact ⟨fun _ => h, fun _ => rfl⟩
  · rw [if_neg h]; exact ⟨fun hh => by simp at hh, fun hh => absurd hh h⟩

/-- C35.  Disconnecting removes exactly the connection named by the cookie; when no connection has
that cookie (including cookie zero) nothing at all changes. -/
theorem C35_disconnect {cap : Nat} (hcap : cap < 2 ^ 32) {t : Table σ} (hr : Reachable cap t) (c : Nat) :
    (∀ c', sinkAt (t.disconnect c) c' = if c' = c then none else sinkAt t c') ∧
    (sinkAt t c = none → t.disconnect c = t) ∧
    Reachable cap (t.disconnect c) := by
  have w := hr.wf hcap
  obtain ⟨h1, -, -, h3⟩ := disconnect_spec w hcap c
  refine ⟨?_, ?_, ?_⟩
  · intro c'
    rw [sinkAt_eq, sinkAt_eq]
    by_cases e : c' = 0
    · simp [e]
    · rw [if_neg e, if_neg e, h1, show c' - 1 + 1 = c' by omega]
  · intro h
    rw [sinkAt_eq] at h
    apply h3
    by_cases e : c = 0
    · exact .inr e
    · rw [if_neg e] at h; exact .inl h
  · obtain ⟨ops, rfl⟩ := hr
    refine ⟨ops ++ [.disconnect c], ?_⟩
    simp [Table.run, List.foldl_append, Table.apply]

/-- C35.  The number of sinks is the number of live cookies and never exceeds the capacity. -/
theorem C35_count {cap : Nat} (hcap : cap < 2 ^ 32) {t : Table σ} (hr : Reachable cap t) :
    t.getNumSinks = (liveCookies cap t).length ∧ t.getNumSinks ≤ cap ∧
    (∀ c, c ∈ liveCookies cap t ↔ (sinkAt t c).isSome) :=
  ⟨by rw [liveCookies_eq, liveFrom_length (hr.wf hcap)]; rfl, num_le (hr.wf hcap),
    liveCookies_complete hcap hr⟩

/-- A case of C35: the freed cookie 1 is handed out again, and the full event refuses. -/
example :
    let t := Table.init.run 2 [.connect (some 'a'), .connect (some 'b'), .disconnect 1]
    t.connect 2 (some 'c') = .ok (1, ⟨[some 'c', some 'b'], 2, 2⟩) ∧
    (⟨[some 'c', some 'b'], 2, 2⟩ : Table Char).connect 2 (some 'd') = .error .connectionLimit :=
  ⟨rfl, rfl⟩

/-- C35, capacity one: the same contract for the specialisation. -/
theorem C35_one (t : One σ) (s : σ) (c : Nat) :
    t.connect none = .error .invalidPointer ∧
    (t.connect (some s) = if t.getNumSinks = 1 then .error .connectionLimit else .ok (1, ⟨some s⟩)) ∧
    (∀ c', (⟨some s⟩ : One σ).getSink c' = if c' = 1 then .ok s else .error .noConnection) ∧
    (∀ c', (t.disconnect c).getSink c' = if c' = c then .error .noConnection else t.getSink c') ∧
    (t.getSink c = .error .noConnection → (t.disconnect c) = t) ∧
    t.getNumSinks ≤ 1 ∧ t.fire = t.visit ∧ t.visit.length = t.getNumSinks ∧
    (∀ x, t.getSink c = .ok x ↔ c = 1 ∧ x ∈ t.fire) := by
  obtain ⟨o⟩ := t
  refine ⟨rfl, ?_, ?_, ?_, ?_, ?_, rfl, ?_, ?_⟩
  · cases o <;> simp [One.connect, One.getNumSinks]
  · intro c'; simp [One.getSink]
  · intro c'
    simp only [One.disconnect]
    by_cases h : c = 1
    · subst h
      simp only [if_true]
      cases o <;> simp +contextual [One.getSink]
    · rw [if_neg h]
      by_cases e : c' = c
      · subst e; cases o <;> simp [One.getSink, h]
      · simp [e]
  · simp only [One.disconnect]
    by_cases h : c = 1
    · subst h; cases o <;> simp [One.getSink]
    · simp [h]
  · cases o <;> simp [One.getNumSinks]
  · cases o <;> simp [One.getNumSinks, One.visit]
  · intro x
    cases o with
    | none => simp [One.getSink, One.fire]
    | some y =>
      by_cases h : c = 1
      · simp [One.getSink, One.fire, h, eq_comm]
      · simp [One.getSink, One.fire, h]

/-! ### C36 -/

/-- C36, for `Fire(void)`: whatever the sinks do to the connections while the event fires (connect,
disconnect themselves or others), `Fire` terminates without touching a null or out-of-range sink; no
cookie is called twice; every sink connected at the start that no sink disconnects is called; and
when the sinks only disconnect, only sinks connected at the start are called. -/
theorem C36_fire_void {cap : Nat} (hcap : cap < 2 ^ 32) {t : Table σ} (hr : Reachable cap t)
    (cb : Behaviour σ) (fuel : Nat) (hf : cap < fuel) :
    ∃ called t', fireVoid cap cb fuel t = .done called t' ∧
      called.Pairwise (· < ·) ∧ (∀ c ∈ called, c ≠ 0 ∧ c ≤ cap) ∧
      (∀ c, (sinkAt t c).isSome → (∀ tr s, Op.disconnect c ∉ cb tr s) → c ∈ called) ∧
      ((∀ tr s x, Op.connect x ∉ cb tr s) → ∀ c ∈ called, (sinkAt t c).isSome) := by
  have w := hr.wf hcap
  obtain ⟨new, t', h1, -, h3, h4, h5, h6⟩ :=
    fireVoidLoop_spec hcap cb fuel t 0 [] w (by omega) (by omega)
  refine ⟨new, t', by simpa [fireVoid] using h1, h3, ?_, ?_, ?_⟩
  · intro c hc; have := h4 c hc; omega
  · intro c hc hd
    rw [sinkAt_eq] at hc
    by_cases e : c = 0
    · simp [e] at hc
    · rw [if_neg e] at hc
      obtain ⟨s, hs⟩ := Option.isSome_iff_exists.mp hc
      have := h5 (c - 1) s (Nat.zero_le _) hs (by rw [show c - 1 + 1 = c by omega]; exact hd)
      rwa [show c - 1 + 1 = c by omega] at this
  · intro hc c hm
    have h0 := h4 c hm
    rw [sinkAt_eq, if_neg (by omega)]
    by_cases hs : (t.sl (c - 1)).isSome
    · exact hs
    · exfalso
      have := h6 (c - 1) (Nat.zero_le _) (by simpa using hs) hc
      rw [show c - 1 + 1 = c by omega] at this
      exact this hm

/-- C36 is false of `Fire(args...)`: with two sinks, the first disconnecting the second (or both)
makes `Fire` use a null, respectively an out-of-range, sink pointer. -/
theorem C36_fire_args_fails :
    let t : Table Char := Table.init.run 4 [.connect (some 'a'), .connect (some 'b')]
    fireArgs 4 (fun _ s => if s = 'a' then [.disconnect 2] else []) 5 t = .fault ∧
    fireArgs 4 (fun _ s => if s = 'a' then [.disconnect 1, .disconnect 2] else []) 5 t = .fault ∧
    fireVoid 4 (fun _ s => if s = 'a' then [.disconnect 2] else []) 5 t =
      .done [1] ⟨[some 'a', none], 1, 1⟩ := by decide

/-- C36, the part that holds of `Fire(args...)`: when no sink disconnects the connection with the
highest cookie `k` (or anything above it), firing is safe and calls every sink that stays connected.
Missing: sinks that disconnect the connection with the highest cookie (see `C36_fire_args_fails`). -/
theorem C36_fire_args_partial {cap : Nat} (hcap : cap < 2 ^ 32) {t : Table σ} (hr : Reachable cap t)
    (cb : Behaviour σ) (fuel : Nat) (hf : cap < fuel) (k : Nat)
    (hk : (sinkAt t k).isSome) (hd : ∀ tr s c, k ≤ c → Op.disconnect c ∉ cb tr s) :
    ∃ called t', fireArgs cap cb fuel t = .done called t' ∧
      called.Pairwise (· < ·) ∧ (∀ c ∈ called, c ≠ 0 ∧ c ≤ cap) ∧
      (∀ c, (sinkAt t c).isSome → (∀ tr s, Op.disconnect c ∉ cb tr s) → c ∈ called) ∧
      ((∀ tr s x, Op.connect x ∉ cb tr s) → ∀ c ∈ called, (sinkAt t c).isSome) := by
  have w := hr.wf hcap
  rw [sinkAt_eq] at hk
  by_cases k0 : k = 0
  · simp [k0] at hk
  rw [if_neg k0] at hk
  have hkl := w.lt_last hk
  obtain ⟨new, t', h1, -, h3, h4, h5, h6⟩ :=
    fireArgsLoop_spec hcap cb k hd fuel t 0 [] w (by omega) (by omega) (by omega) (by omega)
  refine ⟨new, t', ?_, h3, ?_, ?_, ?_⟩
  · rw [fireArgs, if_neg (by omega), h1]; rfl
  · intro c hc; have := h4 c hc; omega
  · intro c hc hd
    rw [sinkAt_eq] at hc
    by_cases e : c = 0
    · simp [e] at hc
    · rw [if_neg e] at hc
      obtain ⟨s, hs⟩ := Option.isSome_iff_exists.mp hc
      have := h5 (c - 1) s (Nat.zero_le _) hs (by rw [show c - 1 + 1 = c by omega]; exact hd)
      rwa [show c - 1 + 1 = c by omega] at this
  · intro hc c hm
    have h0 := h4 c hm
    rw [sinkAt_eq, if_neg (by omega)]
    by_cases hs : (t.sl (c - 1)).isSome
    · exact hs
    · exfalso
      have := h6 (c - 1) (Nat.zero_le _) (by simpa using hs) hc
      rw [show c - 1 + 1 = c by omega] at this
      exact this hm

/-- A case of `C36_fire_args_partial`: three sinks, the first disconnects itself and the second. -/
example :
    let t : Table Char := Table.init.run 4 [.connect (some 'a'), .connect (some 'b'), .connect (some 'c')]
    (sinkAt t 3).isSome ∧
    fireArgs 4 (fun _ s => if s = 'a' then [.disconnect 1, .disconnect 2] else []) 5 t =
      .done [1, 3] ⟨[none, none, some 'c'], 1, 3⟩ := by decide

/-! ### C37 -/

/-- The containers a portainer of capacity `cap` can reach. -/
def PReachable (cap : Nat) (t : Table σ) : Prop := ∃ ops, t = Table.init.prun cap ops

theorem PReachable.wf {cap : Nat} (hcap : cap < 2 ^ 32) {t : Table σ} (h : PReachable cap t) : WF cap t := by
  obtain ⟨ops, rfl⟩ := h
  exact prun_wf wf_init hcap ops

/-- The live cookies in increasing order, as told by `Get`. -/
def pLive (cap : Nat) (t : Table σ) : List Nat :=
  (List.range' 1 cap).filter (fun c => (t.get c).isSome)

theorem pLive_eq (cap : Nat) (t : Table σ) : pLive cap t = liveFrom t 0 cap := by
  apply List.filter_congr
  intro c hc
  rw [List.mem_range'_1] at hc
  rw [get_eq, if_neg (by omega)]

/-- C37.  After every history, `Add` returns 0 exactly when the container is full, and otherwise a
fresh cookie under which exactly the new entry is found; `Remove` removes exactly the named entry
and ignores other cookies; `Visit` sees exactly the live entries, `GetSize` counts them. -/
theorem C37_portainer {cap : Nat} (hcap : cap < 2 ^ 32) {t : Table σ} (hr : PReachable cap t) (x : σ) (c : Nat) :
    ((t.add cap x).1 = 0 ↔ t.getSize = cap) ∧
    (t.getSize = cap → t.add cap x = (0, t)) ∧
    (t.getSize < cap → t.get (t.add cap x).1 = none ∧ (t.add cap x).1 ≤ cap ∧
      ∀ c', (t.add cap x).2.get c' = if c' = (t.add cap x).1 then some x else t.get c') ∧
    (∀ c', (t.disconnect c).get c' = if c' = c then none else t.get c') ∧
    (t.get c = none → t.disconnect c = t) ∧
    t.visit = (pLive cap t).filterMap t.get ∧
    t.getSize = (pLive cap t).length ∧ t.getSize ≤ cap ∧
    (∀ c', c' ∈ pLive cap t ↔ (t.get c').isSome) := by
  have w := hr.wf hcap
  rw [show t.getSize = t.num from rfl]
  have hle := num_le w
  have hfull : t.num = cap → t.add cap x = (0, t) := by
    intro h; rw [Table.add, if_neg (by omega)]
  refine ⟨?_, hfull, ?_, ?_, ?_, ?_, ?_, hle, ?_⟩
  · constructor
    · intro h
      by_cases hh : t.num < cap
      · rw [Table.add, if_pos hh] at h
        exact absurd h (insert_spec w hh x).1
      · omega
    · intro h; rw [hfull h]
  · intro hh
    rw [Table.add, if_pos hh]
    obtain ⟨h0, h1, h2, h3, -⟩ := insert_spec w hh x
    refine ⟨?_, h1, ?_⟩
    · rw [get_eq, if_neg h0, h2]
    · intro c'
      rw [get_eq, get_eq]
      by_cases e : c' = 0
      · simp [e, Ne.symm h0]
      · rw [if_neg e, if_neg e, h3, show c' - 1 + 1 = c' by omega]
  · intro c'
    rw [get_eq, get_eq]
    by_cases e : c' = 0
    · simp [e]
    · rw [if_neg e, if_neg e, (disconnect_spec w hcap c).1, show c' - 1 + 1 = c' by omega]
  · intro h
    rw [get_eq] at h
    apply (disconnect_spec w hcap c).2.2.2
    by_cases e : c = 0
    · exact .inr e
    · rw [if_neg e] at h; exact .inl h
  · rw [pLive_eq, Table.visit, visitLoop_eq w t.last 0 (by omega) cap (by omega)]
    apply filterMap_congr'
    intro c hc
    have := (List.mem_filter.mp hc).1
    rw [List.mem_range'_1] at this
    rw [get_eq, if_neg (by omega)]
  · rw [pLive_eq, liveFrom_length w]
  · intro c'
    constructor
    · intro h; exact (List.mem_filter.mp h).2
    · intro h
      refine List.mem_filter.mpr ⟨?_, h⟩
      rw [get_eq] at h
      by_cases h0 : c' = 0
      · simp [h0] at h
      · rw [if_neg h0] at h
        have := sl_lt h
        have := w.size
        rw [List.mem_range'_1]; omega

/-- C37, capacity one. -/
theorem C37_one (t : One σ) (x : σ) (c : Nat) :
    ((t.add x).1 = 0 ↔ t.getNumSinks = 1) ∧
    (t.getNumSinks = 1 → t.add x = (0, t)) ∧
    (t.getNumSinks = 0 → t.get (t.add x).1 = none ∧
      ∀ c', (t.add x).2.get c' = if c' = (t.add x).1 then some x else t.get c') ∧
    (∀ c', (t.disconnect c).get c' = if c' = c then none else t.get c') ∧
    t.visit = (t.get 1).toList ∧ t.visit.length = t.getNumSinks ∧ (c ≠ 1 → t.get c = none) := by
  obtain ⟨o⟩ := t
  refine ⟨?_, ?_, ?_, ?_, ?_, ?_, ?_⟩
  · cases o <;> simp [One.add, One.getNumSinks]
  · cases o <;> simp [One.add, One.getNumSinks]
  · cases o <;> simp [One.add, One.getNumSinks, One.get]
  · intro c'
    simp only [One.disconnect, One.get]
    by_cases h : c = 1
    · subst h; simp; intro h; simp [h]
    · rw [if_neg h]
      by_cases e : c' = c
      · subst e; simp [h]
      · simp [e]
  · cases o <;> simp [One.visit, One.get]
  · cases o <;> simp [One.visit, One.getNumSinks]
  · intro h; simp [One.get, h]

/-- A case of C37 with reuse of a freed cookie. -/
example :
    let t : Table Char := Table.init.prun 3 [.add 'a', .add 'b', .add 'c', .remove 2]
    t.add 3 'd' = (2, ⟨[some 'a', some 'd', some 'c'], 3, 3⟩) ∧ t.visit = ['a', 'c'] := by decide

end Verif.Event
