import Verif.Stat.Probe
import Verif.Stat.Props
import Verif.Event.Props
set_option linter.unusedSimpArgs false
set_option linter.unusedVariables false
set_option linter.unusedSectionVars false
/-! Property C152: a summary reports exactly the samples fired by the probes it is connected to. -/
namespace Verif.Stat.Feed
open Verif.Event (Table fireArgs Outcome Reachable sinkAt liveCookies)
variable {N K : Type} [DecidableEq N] [Field K] [LinearOrder K] [IsStrictOrderedRing K]

/-- A connection: probe, cookie, summary. -/
abbrev Conn := Nat × Nat × Nat

/-- What the calls and their results tell about the connections. -/
def told (live : List Conn) : Op N K × Res → List Conn
  | (.connect _ j, .cookie p k) => live ++ [(p, k, j)]
  | (.disconnect _ k, .dropped p) => live.filter fun e => ¬(e.1 = p ∧ e.2.1 = k)
  | _ => live

/-- The connections open after a history. -/
def openAfter (h : List (Op N K × Res)) : List Conn := h.foldl told []

/-- What a call, with its result, does to the samples `xs j` of each summary `j`: a sample fired by a probe counts once for each
connection that is open from that probe to the summary, and `Reset` forgets. -/
def hears (live : List Conn) (xs : Nat → List K) : Op N K × Res → Nat → List K
  | (.fire _ x, .fired p), j => xs j ++ List.replicate (live.countP fun e => e.1 = p ∧ e.2.2 = j) x
  | (.reset i, .ok), j => if i = j then [] else xs j
  | _, j => xs j

/-- Reading a history from its beginning. -/
def heardFrom (live : List Conn) (xs : Nat → List K) : List (Op N K × Res) → Nat → List K
  | [] => xs
  | e :: h => heardFrom (told live e) (hears live xs e) h

/-- The samples the summary `j` must report after a history. -/
def heard (h : List (Op N K × Res)) (j : Nat) : List K := heardFrom [] (fun _ => []) h j

/-- The calls of `MergeFrom` really enumerate, with an injective prefix; the state is the one before the call. -/
def Ok (s : Net N K) : Op N K → Prop
  | .merge _ f d names => Order (s.conts d) names ∧ Function.Injective f
  | _ => True

/-- Every call of a history is as `Ok` asks. -/
def OkAll (cap : Nat) (s : Net N K) : List (Op N K) → Prop
  | [] => True
  | o :: os => Ok s o ∧ OkAll cap (s.step cap o).2 os

/-- What holds between the state and what the history has told. -/
structure Inv (cap : Nat) (s : Net N K) (live : List Conn) (xs : Nat → List K) : Prop where
  reach : ∀ p, Reachable cap (s.tab p)
  sound : ∀ p k j, (p, k, j) ∈ live ↔ p < s.probes.length ∧ sinkAt (s.tab p) k = some j
  nodup : live.Nodup
  sinks : ∀ p k j, (p, k, j) ∈ live → j < s.sums.length
  uniq : Uniq s.conts
  names : ∀ c n p, get (s.conts c) n = some p → p < s.probes.length
  sums : ∀ j, j < s.sums.length → ∃ os, s.sums[j]? = some (Summary.run os) ∧ since os = xs j
  above : ∀ j, s.sums.length ≤ j → xs j = []

theorem inv_init (cap : Nat) : Inv cap (Net.init : Net N K) [] fun _ => [] where
  reach p := ⟨[], by simp [Net.tab, Net.init, Table.run]⟩
  sound p k j := by simp [Net.init]
  nodup := List.nodup_nil
  sinks := by simp
  uniq i := by simp [Net.init]
  names := by simp [Net.init, get, look]
  sums := by simp [Net.init]
  above := by simp

/-! ### Feeding -/

theorem feed_get (x : K) (sums : List (Summary K)) (i j : Nat) :
    (feed x sums i)[j]? = if i = j then sums[j]?.map (fun s => s.onProbe x) else sums[j]? := by
  simp only [feed, List.getElem?_modify]
  by_cases h : i = j <;> simp [h]

theorem feeds_length (x : K) (js : List Nat) (sums : List (Summary K)) :
    (js.foldl (feed x) sums).length = sums.length := by
  induction js generalizing sums with
  | nil => rfl
  | cons a t ih => rw [List.foldl_cons, ih]; simp [feed]

theorem since_append_probes (os : List (SOp K)) (n : Nat) (x : K) :
    since (os ++ List.replicate n (.probe x)) = since os ++ List.replicate n x := by
  induction n with
  | zero => simp
  | succ n ih => rw [List.replicate_succ', ← List.append_assoc, since_snoc_probe, ih, List.replicate_succ', List.append_assoc]

theorem run_append_probes (os : List (SOp K)) (n : Nat) (x : K) :
    Summary.run (os ++ List.replicate n (.probe x)) = (fun s : Summary K => s.onProbe x)^[n] (Summary.run os) := by
  induction n with
  | zero => simp
  | succ n ih =>
    rw [List.replicate_succ', ← List.append_assoc, run_snoc, ih, Function.iterate_succ_apply']
    rfl

theorem feeds_get (x : K) (j : Nat) : ∀ (js : List Nat) (sums : List (Summary K)),
    (js.foldl (feed x) sums)[j]? = sums[j]?.map ((fun s : Summary K => s.onProbe x)^[js.count j])
  | [], sums => by simp
  | a :: t, sums => by
    rw [List.foldl_cons, feeds_get x j t, feed_get]
    by_cases h : a = j
    · subst h
      rw [if_pos rfl, List.count_cons_self, Function.iterate_succ, Option.map_map]
    · rw [if_neg h, List.count_cons_of_ne h]

/-- Two lists without repetitions that correspond have the same length of their parts. -/
theorem count_live {cap : Nat} (hcap : cap < 2 ^ 32) {t : Table Nat} (hr : Reachable cap t) {live : List Conn} (hn : live.Nodup)
    (p : Nat) (hs : ∀ k j, (p, k, j) ∈ live ↔ sinkAt t k = some j) (j : Nat) :
    ((liveCookies cap t).filterMap (sinkOf t)).count j = live.countP fun e => e.1 = p ∧ e.2.2 = j := by
  have hsk : sinkOf t = sinkAt t := by
    funext k; unfold sinkOf sinkAt; cases t.getSink k <;> rfl
  obtain ⟨-, -, -, hp, hc⟩ := Verif.Event.C34_fire hcap hr (fun _ _ => []) (fun _ _ => rfl) (cap + 1) (by omega)
  have hnd : (liveCookies cap t).Nodup := hp.imp (fun h => Nat.ne_of_lt h)
  have e1 : ((liveCookies cap t).filterMap (sinkOf t)).count j =
      ((liveCookies cap t).filter fun k => sinkAt t k = some j).length := by
    rw [hsk, List.count, List.countP_filterMap, List.countP_eq_length_filter]
    congr 1
    apply List.filter_congr
    intro k _
    cases h : sinkAt t k <;> simp [h, beq_eq_decide]
  rw [e1, List.countP_eq_length_filter]
  have e2 : ((live.filter fun e => e.1 = p ∧ e.2.2 = j).map fun e => e.2.1).Perm
      ((liveCookies cap t).filter fun k => sinkAt t k = some j) := by
    apply (List.perm_ext_iff_of_nodup _ _).mpr
    · intro k
      simp only [List.mem_map, List.mem_filter, decide_eq_true_eq]
      constructor
      · rintro ⟨⟨q, k', j'⟩, ⟨h1, rfl, rfl⟩, rfl⟩
        have := (hs _ _).mp h1
        exact ⟨(hc _).mpr (by rw [this]; rfl), this⟩
      · rintro ⟨_, h2⟩
        exact ⟨(p, k, j), ⟨(hs k j).mpr h2, rfl, rfl⟩, rfl⟩
    · rw [List.Nodup, List.pairwise_map]
      apply List.Pairwise.imp_of_mem _ (hn.filter _)
      rintro ⟨a, b, c⟩ ⟨a', b', c'⟩ h1 h2 hne h
      simp only [List.mem_filter, decide_eq_true_eq] at h1 h2
      obtain ⟨_, rfl, rfl⟩ := h1
      obtain ⟨_, rfl, rfl⟩ := h2
      simp only at h; subst h; exact hne rfl
    · exact hnd.filter _
  rw [← e2.length_eq, List.length_map]

/-! ### The steps -/

theorem tab_set {s : Net N K} {p : Nat} (hp : p < s.probes.length) (t : Table Nat) (c sums) (q : Nat) :
    Net.tab (⟨s.probes.set p t, c, sums⟩ : Net N K) q = if q = p then t else s.tab q := by
  simp only [Net.tab, List.getD_eq_getElem?_getD, List.getElem?_set]
  by_cases h : p = q
  · subst h; simp [hp]
  · rw [if_neg h, if_neg (fun e => h e.symm)]

theorem find_lt {cap : Nat} {s : Net N K} {live xs} (w : Inv cap s live xs) {v : Via N} {p : Nat} (h : s.find v = some p) :
    p < s.probes.length := by
  cases v with
  | held q =>
    simp only [Net.find] at h
    split at h
    · cases h; assumption
    · cases h
  | named c n => exact w.names c n p h

theorem names_step {s : Net N K} {L : Nat} (hu : Uniq s.conts) (hn : ∀ c n p, get (s.conts c) n = some p → p < L)
    (o : COp N Nat) (ho : COk s.conts o) (hv : ∀ i n v, o = .add i n v → v < L)
    {b : Bool} {st' : Nat → Items N Nat} (h : cstep s.conts o = some (b, st')) :
    Uniq st' ∧ ∀ c n p, get (st' c) n = some p → p < L := by
  obtain ⟨b', st2, h1, h2, h3, -⟩ := C70_step s.conts hu o ho
  rw [h1] at h; cases h
  refine ⟨h2, fun c n p hg => ?_⟩
  cases o with
  | add i m v =>
    obtain ⟨a, b⟩ := h3
    by_cases e : (c, n) = (i, m)
    · cases e
      have hg := b.symm.trans hg
      dsimp only at hg
      cases hq : get (s.conts c) n with
      | some q => rw [hq] at hg; cases hg; exact hn _ _ _ hq
      | none => rw [hq] at hg; cases hg; exact hv _ _ _ rfl
    · exact hn c n p ((a c n e).symm.trans hg)
  | erase i m =>
    obtain ⟨a, b⟩ := h3
    by_cases e : (c, n) = (i, m)
    · cases e; cases b.symm.trans hg
    · exact hn c n p ((a c n e).symm.trans hg)
  | merge i f j names =>
    obtain ⟨a, b, d⟩ := h3
    by_cases e : c = i
    · subst e
      cases hq : get (s.conts c) n with
      | some q =>
        cases (b n q hq).symm.trans hg; exact hn _ _ _ hq
      | none =>
        obtain ⟨y, -, hy⟩ := (d n hq p).mp hg
        exact hn _ _ _ hy
    · have := congrFun (a c e) n
      exact hn c n p (this.symm.trans hg)

theorem step_inv {cap : Nat} (hcap : cap < 2 ^ 32) {s : Net N K} {live : List Conn} {xs : Nat → List K} (w : Inv cap s live xs)
    (o : Op N K) (ho : Ok s o) :
    Inv cap (s.step cap o).2 (told live (o, (s.step cap o).1)) (hears live xs (o, (s.step cap o).1)) := by
  cases o with
  | add c n =>
    simp only [Net.step]
    cases hl : look (s.conts c) n with
    | some q => exact w
    | none =>
      have hkeep : ∀ q, (Net.tab (⟨s.probes ++ [Table.init], Function.update s.conts c
          (Verif.Stat.add (s.conts c) n s.probes.length).2, s.sums⟩ : Net N K) q) =
          if q < s.probes.length then s.tab q else Table.init := by
        intro q
        simp only [Net.tab, List.getD_eq_getElem?_getD]
        by_cases h : q < s.probes.length
        · rw [List.getElem?_append_left h, if_pos h]
        · rw [if_neg h, List.getElem?_append_right (by omega)]
          by_cases e : q = s.probes.length
          · subst e; simp
          · rw [List.getElem?_eq_none (by simp; omega)]; rfl
      obtain ⟨h1, h2⟩ := names_step (s := s) (L := s.probes.length + 1) w.uniq
        (fun c n p h => Nat.lt_succ_of_lt (w.names c n p h)) (.add c n s.probes.length) trivial
        (by rintro i n v ⟨⟩; omega) (b := true) (st' := Function.update s.conts c (Verif.Stat.add (s.conts c) n s.probes.length).2)
        (by simp [cstep, Verif.Stat.add, hl])
      constructor
      · intro p; rw [hkeep]; split
        · exact w.reach p
        · exact ⟨[], rfl⟩
      · intro p k j
        simp only [told]
        rw [w.sound, hkeep]
        simp only [List.length_append, List.length_singleton]
        by_cases h : p < s.probes.length
        · simp [h]; omega
        · simp only [h, if_false, false_and, false_iff, not_and]
          intro _
          simp [sinkAt, Table.getSink, Table.init]
      · exact w.nodup
      · exact w.sinks
      · exact h1
      · intro c n p h
        simp only [List.length_append, List.length_singleton]
        exact h2 c n p h
      · exact w.sums
      · exact w.above
  | erase c n =>
    obtain ⟨h1, h2⟩ := names_step (s := s) (L := s.probes.length) w.uniq w.names (.erase c n) trivial
      (by rintro i n v ⟨⟩) (b := true) (st' := Function.update s.conts c (Verif.Stat.erase (s.conts c) n)) rfl
    exact ⟨w.reach, w.sound, w.nodup, w.sinks, h1, h2, w.sums, w.above⟩
  | merge c f d names =>
    simp only [Net.step]
    cases hm : mergeLoop f (s.conts d) names (s.conts c) with
    | none => exact w
    | some items =>
      obtain ⟨h1, h2⟩ := names_step (s := s) (L := s.probes.length) w.uniq w.names (.merge c f d names) ho
        (by rintro i n v ⟨⟩) (b := true) (st' := Function.update s.conts c items) (by simp [cstep, hm])
      exact ⟨w.reach, w.sound, w.nodup, w.sinks, h1, h2, w.sums, w.above⟩
  | summary =>
    refine ⟨w.reach, w.sound, w.nodup, fun p k j h => ?_, w.uniq, w.names, fun j hj => ?_, fun j hj => ?_⟩
    · have := w.sinks p k j h
      simp only [Net.step, List.length_append, List.length_singleton]; omega
    · simp only [Net.step, List.length_append, List.length_singleton] at hj ⊢
      by_cases h : j < s.sums.length
      · rw [List.getElem?_append_left h]; exact w.sums j h
      · have e : j = s.sums.length := by omega
        subst e
        refine ⟨[], ?_, ?_⟩
        · rw [List.getElem?_append_right (Nat.le_refl _)]; simp [Summary.run]
        · exact (w.above _ (Nat.le_refl _)).symm
    · simp only [Net.step, List.length_append, List.length_singleton] at hj
      exact w.above j (by omega)
  | reset i =>
    refine ⟨w.reach, w.sound, w.nodup, fun p k j h => ?_, w.uniq, w.names, fun j hj => ?_, fun j hj => ?_⟩
    · simpa [Net.step] using w.sinks p k j h
    · simp only [Net.step, List.length_modify] at hj ⊢
      simp only [hears, List.getElem?_modify]
      obtain ⟨os, h1, h2⟩ := w.sums j hj
      by_cases h : i = j
      · subst h
        refine ⟨[], ?_, ?_⟩
        · simp [h1, Summary.run]
        · rw [if_pos rfl]; rfl
      · rw [if_neg h]
        exact ⟨os, by simp [h, h1], h2⟩
    · simp only [Net.step, List.length_modify] at hj
      simp only [Net.step, hears]
      split
      · rfl
      · exact w.above j hj
  | connect v j =>
    simp only [Net.step]
    cases hf : s.find v with
    | none => exact w
    | some p =>
      dsimp only
      have hp := find_lt w hf
      by_cases hj : j < s.sums.length
      · rw [if_pos hj]
        by_cases hroom : (s.tab p).getNumSinks < cap
        · obtain ⟨k, t', h1, h2, h3, h4, h5, h6, h7⟩ := Verif.Event.C35_connect hcap (w.reach p) j hroom
          rw [h1]
          dsimp only
          refine ⟨fun q => ?_, fun q k' j' => ?_, ?_, fun q k' j' h => ?_, w.uniq, ?_, w.sums, w.above⟩
          · rw [tab_set hp]; split
            · exact h7
            · exact w.reach q
          · simp only [told, List.mem_append, List.mem_singleton, Prod.mk.injEq, List.length_set]
            rw [tab_set hp, w.sound]
            by_cases e : q = p
            · subst e
              simp only [true_and, if_true, h5]
              by_cases ek : k' = k
              · subst ek; simp [h4, hp, eq_comm]
              · simp [ek]
            · simp [e]
          · simp only [told]
            refine List.nodup_append.mpr ⟨w.nodup, by simp, ?_⟩
            rintro a ha b hb rfl
            simp only [List.mem_singleton] at hb; subst hb
            have := ((w.sound _ _ _).mp ha).2
            rw [h4] at this; cases this
          · simp only [told, List.mem_append, List.mem_singleton, Prod.mk.injEq] at h
            rcases h with h | ⟨-, -, rfl⟩
            · exact w.sinks q k' j' h
            · exact hj
          · intro c n q h
            simp only [List.length_set]
            exact w.names c n q h
        · have hc := (Verif.Event.C35_connect_refused hcap (w.reach p) j).2.mpr
            (by have := (Verif.Event.C35_count hcap (w.reach p)).2.1; omega)
          rw [hc]; exact w
      · rw [if_neg hj, (Verif.Event.C35_connect_refused hcap (w.reach p) 0).1]; exact w
  | disconnect v k =>
    simp only [Net.step]
    cases hf : s.find v with
    | none => exact w
    | some p =>
      dsimp only
      have hp := find_lt w hf
      obtain ⟨h1, -, h3⟩ := Verif.Event.C35_disconnect hcap (w.reach p) k
      refine ⟨fun q => ?_, fun q k' j' => ?_, ?_, fun q k' j' h => ?_, w.uniq, ?_, w.sums, w.above⟩
      · rw [tab_set hp]; split
        · exact h3
        · exact w.reach q
      · simp only [told, List.mem_filter, decide_eq_true_eq, List.length_set]
        rw [tab_set hp, w.sound]
        by_cases e : q = p
        · subst e
          simp only [if_true, h1, true_and]
          by_cases ek : k' = k <;> simp [ek]
        · simp [e]
      · exact w.nodup.filter _
      · simp only [told, List.mem_filter] at h
        exact w.sinks q k' j' h.1
      · intro c n q h
        simp only [List.length_set]
        exact w.names c n q h
  | fire v x =>
    simp only [Net.step]
    cases hf : s.find v with
    | none => exact w
    | some p =>
      dsimp only
      have hp := find_lt w hf
      obtain ⟨-, h2, -⟩ := Verif.Event.C34_fire hcap (w.reach p) (fun _ _ => []) (fun _ _ => rfl) (cap + 1) (by omega)
      rw [h2]
      dsimp only
      have hcount := fun j => count_live hcap (w.reach p) w.nodup p
        (fun k j => (w.sound p k j).trans ⟨fun h => h.2, fun h => ⟨hp, h⟩⟩) j
      refine ⟨fun q => ?_, fun q k' j' => ?_, w.nodup, fun q k' j' h => ?_, w.uniq, ?_, fun j hj => ?_, fun j hj => ?_⟩
      · rw [tab_set hp]; split
        · exact w.reach p
        · exact w.reach q
      · simp only [told, List.length_set]
        rw [tab_set hp, w.sound]
        by_cases e : q = p
        · subst e; simp
        · simp [e]
      · rw [feeds_length]; exact w.sinks q k' j' h
      · intro c n q h
        simp only [List.length_set]
        exact w.names c n q h
      · rw [feeds_length] at hj
        obtain ⟨os, h3, h4⟩ := w.sums j hj
        refine ⟨os ++ List.replicate (live.countP fun e => e.1 = p ∧ e.2.2 = j) (.probe x), ?_, ?_⟩
        · rw [feeds_get, h3, run_append_probes, hcount]; rfl
        · rw [since_append_probes, h4]; rfl
      · rw [feeds_length] at hj
        simp only [hears]
        rw [w.above j hj]
        have : live.countP (fun e => e.1 = p ∧ e.2.2 = j) = 0 := by
          rw [List.countP_eq_zero]
          rintro ⟨a, b, c⟩ h1 h2
          simp only [decide_eq_true_eq] at h2
          have := w.sinks _ _ _ h1
          omega
        rw [this]; rfl

theorem run_inv {cap : Nat} (hcap : cap < 2 ^ 32) : ∀ (os : List (Op N K)) (s : Net N K) (live : List Conn) (xs : Nat → List K),
    Inv cap s live xs → OkAll cap s os →
    Inv cap (s.run cap os).2 ((s.run cap os).1.foldl told live) (heardFrom live xs (s.run cap os).1)
  | [], _, _, _, w, _ => w
  | o :: os, s, live, xs, w, ho => by
    simp only [Net.run, List.foldl_cons, heardFrom]
    exact run_inv hcap os _ _ _ (step_inv hcap w o ho.1) ho.2

theorem reach_inv {cap : Nat} (hcap : cap < 2 ^ 32) (os : List (Op N K)) (ho : OkAll cap Net.init os) :
    Inv cap (Net.init.run cap os).2 (openAfter (Net.init.run cap os).1) (heard (Net.init.run cap os).1) :=
  run_inv hcap os _ _ _ (inv_init cap) ho

/-! ### C152 -/

/-- Whatever was added, merged, erased, connected, disconnected, fired and reset, through whatever names, each summary reports
exactly the samples it heard: those fired, since its last `Reset`, by the probes it was connected to at that time, once for each
connection.  The reports are the count, the sum, the least and the greatest, the mean and the sample variance of these. -/
theorem feed_reports {cap : Nat} (hcap : cap < 2 ^ 32) (os : List (Op N K)) (ho : OkAll cap Net.init os) (j : Nat) :
    let r := Net.init.run cap os
    let xs := heard r.1 j
    let mean := xs.sum / (xs.length : K)
    ∀ s, r.2.sums[j]? = some s →
      s.count = (xs.length : K) ∧ s.sum = xs.sum ∧
      (∀ m, s.min = some m ↔ m ∈ xs ∧ ∀ x ∈ xs, m ≤ x) ∧ (s.min = none ↔ xs = []) ∧
      (∀ m, s.max = some m ↔ m ∈ xs ∧ ∀ x ∈ xs, x ≤ m) ∧ (s.max = none ↔ xs = []) ∧
      s.mean = (if xs = [] then none else some mean) ∧
      s.dev = (if xs.length < 2 then none else some ((xs.map fun x => (x - mean) * (x - mean)).sum / ((xs.length : K) - 1))) := by
  intro r xs mean s hs
  obtain ⟨sos, h1, h2⟩ := (reach_inv hcap os ho).sums j (by
    rcases Nat.lt_or_ge j r.2.sums.length with h | h
    · exact h
    · rw [List.getElem?_eq_none h] at hs; cases hs)
  have e : s = Summary.run sos := by
    have := hs.symm.trans h1
    exact Option.some.inj this
  have hx : since sos = xs := h2
  subst e
  have a := C69_count_sum sos
  have b := C69_min sos
  have c := C69_max sos
  have d := C69_mean sos
  have v := C69_variance sos
  simp only [hx] at a b c d v
  exact ⟨a.1, a.2, b.1, b.2, c.1, c.2, d, v⟩

/-- What each call returns, after any history.  `Add` of a new name makes a probe that nobody has had before.  `Connect` is
refused exactly when the name is not registered, there is no summary, or the probe has as many connections as it can have;
otherwise it returns a cookie that no open connection of this probe has.  `Disconnect` and `Fire` of a registered name succeed,
and `Fire` never calls through a null pointer. -/
theorem feed_results {cap : Nat} (hcap : cap < 2 ^ 32) (os : List (Op N K)) (ho : OkAll cap Net.init os) :
    let r := Net.init.run cap os
    let live := openAfter r.1
    (∀ c n, (r.2.step cap (.add c n)).1 = if has (r.2.conts c) n then .refused else .made r.2.probes.length) ∧
    (∀ v j, r.2.find v = none → (r.2.step cap (.connect v j)).1 = .refused) ∧
    (∀ v j p, r.2.find v = some p →
      ((r.2.step cap (.connect v j)).1 = .refused ↔
        r.2.sums.length ≤ j ∨ (live.filter fun e => e.1 = p).length = cap) ∧
      ((r.2.step cap (.connect v j)).1 = .refused ∨
        ∃ k, (r.2.step cap (.connect v j)).1 = .cookie p k ∧ k ≠ 0 ∧ ∀ i, (p, k, i) ∉ live)) ∧
    (∀ v k, (r.2.step cap (.disconnect v k)).1 = match r.2.find v with | some p => .dropped p | none => .refused) ∧
    (∀ v x, (r.2.step cap (.fire v x)).1 = match r.2.find v with | some p => .fired p | none => .refused) := by
  intro r live
  have w : Inv cap r.2 live (heard r.1) := reach_inv hcap os ho
  refine ⟨fun c n => ?_, fun v j h => ?_, fun v j p h => ?_, fun v k => ?_, fun v x => ?_⟩
  · simp only [Net.step]
    cases hl : look (r.2.conts c) n with
    | some q =>
      rw [if_pos ((C70_has _ _).mpr ⟨q, hl⟩)]
    | none =>
      rw [if_neg]
      intro h
      obtain ⟨q, hq⟩ := (C70_has _ _).mp h
      simp only [get] at hq
      rw [hl] at hq; cases hq
  · simp only [Net.step, h]
  · have hp := find_lt w h
    have hnum : (r.2.tab p).getNumSinks = (live.filter fun e => e.1 = p).length := by
      obtain ⟨h0, -, h3⟩ := Verif.Event.C35_count hcap (w.reach p)
      rw [h0]
      have hs : ∀ k j, (p, k, j) ∈ live ↔ sinkAt (r.2.tab p) k = some j := fun k j =>
        (w.sound p k j).trans ⟨fun h => h.2, fun h => ⟨hp, h⟩⟩
      have hinc := (Verif.Event.C34_fire hcap (w.reach p) (fun _ _ => []) (fun _ _ => rfl) (cap + 1) (by omega)).2.2.2.1
      have e2 : ((live.filter fun e => e.1 = p).map fun e => e.2.1).Perm (liveCookies cap (r.2.tab p)) := by
        apply (List.perm_ext_iff_of_nodup _ _).mpr
        · intro k
          rw [h3]
          simp only [List.mem_map, List.mem_filter, decide_eq_true_eq]
          constructor
          · rintro ⟨⟨q, k', j'⟩, ⟨h1, rfl⟩, rfl⟩
            rw [(hs _ _).mp ‹_›]; rfl
          · intro hk
            obtain ⟨i, hi⟩ := Option.isSome_iff_exists.mp hk
            exact ⟨(p, k, i), ⟨(hs k i).mpr hi, rfl⟩, rfl⟩
        · rw [List.Nodup, List.pairwise_map]
          apply List.Pairwise.imp_of_mem _ (w.nodup.filter _)
          rintro ⟨a, b, c⟩ ⟨a', b', c'⟩ h1 h2 hne hh
          simp only [List.mem_filter, decide_eq_true_eq] at h1 h2
          obtain ⟨h1, rfl⟩ := h1
          obtain ⟨h2, rfl⟩ := h2
          simp only at hh; subst hh
          have := ((hs _ _).mp h1).symm.trans ((hs _ _).mp h2)
          cases this; exact hne rfl
        · exact hinc.imp (fun h => Nat.ne_of_lt h)
      rw [← e2.length_eq, List.length_map]
    simp only [Net.step, h]
    by_cases hj : j < r.2.sums.length
    · rw [if_pos hj]
      by_cases hroom : (r.2.tab p).getNumSinks < cap
      · obtain ⟨k, t', h1, h2, h3, h4, -⟩ := Verif.Event.C35_connect hcap (w.reach p) j hroom
        rw [h1]
        refine ⟨⟨fun hh => (by cases hh), fun hh => ?_⟩, .inr ⟨k, rfl, h2, fun i hi => ?_⟩⟩
        · omega
        · have := ((w.sound p k i).mp hi).2
          rw [h4] at this; cases this
      · have hle := (Verif.Event.C35_count hcap (w.reach p)).2.1
        have hc := (Verif.Event.C35_connect_refused hcap (w.reach p) j).2.mpr (by omega)
        rw [hc]
        exact ⟨⟨fun _ => .inr (by omega), fun _ => rfl⟩, .inl rfl⟩
    · rw [if_neg hj, (Verif.Event.C35_connect_refused hcap (w.reach p) 0).1]
      exact ⟨⟨fun _ => .inl (by omega), fun _ => rfl⟩, .inl rfl⟩
  · simp only [Net.step]
    cases r.2.find v <;> rfl
  · simp only [Net.step]
    cases hf : r.2.find v with
    | none => rfl
    | some p =>
      dsimp only
      rw [(Verif.Event.C34_fire hcap (w.reach p) (fun _ _ => []) (fun _ _ => rfl) (cap + 1) (by omega)).2.1]

/-- What the names mean, after any history: `Add` gives a name that was free to the new probe, `erase` frees a name, `MergeFrom`
makes each probe of the merged container known under its prefixed name unless that name is taken, and never fails; nothing else
changes what a name means. -/
theorem feed_names {cap : Nat} (hcap : cap < 2 ^ 32) (os : List (Op N K)) (ho : OkAll cap Net.init os) (o : Op N K)
    (hk : Ok (Net.init.run cap os).2 o) :
    let s := (Net.init.run cap os).2
    let m := fun c n => get (s.conts c) n
    let m' := fun c n => get ((s.step cap o).2.conts c) n
    match (generalizing := false) o with
    | .add c n => (∀ d x, (d, x) ≠ (c, n) → m' d x = m d x) ∧ m' c n = (m c n).or (some s.probes.length) ∧
        ∀ d x, m d x ≠ some s.probes.length
    | .erase c n => (∀ d x, (d, x) ≠ (c, n) → m' d x = m d x) ∧ m' c n = none
    | .merge c f d _ => (s.step cap o).1 = .ok ∧ (∀ e, e ≠ c → m' e = m e) ∧
        (∀ x p, m c x = some p → m' c x = some p) ∧
        (∀ x, m c x = none → ∀ p, m' c x = some p ↔ ∃ y, f y = x ∧ m d y = some p)
    | _ => m' = m := by
  intro s m m'
  have w := reach_inv hcap os ho
  cases o with
  | add c n =>
    obtain ⟨b, st', h1, -, ⟨h3, h4⟩, -⟩ := C70_step s.conts w.uniq (.add c n s.probes.length) trivial
    have hm : (s.step cap (.add c n)).2.conts = st' := by
      simp only [cstep, Option.some.injEq, Prod.mk.injEq] at h1
      simp only [Net.step]
      cases hl : look (s.conts c) n with
      | some q =>
        rw [← h1.2]
        simp only [Verif.Stat.add, hl, Function.update_eq_self]
      | none => rw [← h1.2]
    refine ⟨fun d x h => ?_, ?_, fun d x h => ?_⟩
    · show get ((s.step cap (.add c n)).2.conts d) x = _
      rw [hm]; exact h3 d x h
    · show get ((s.step cap (.add c n)).2.conts c) n = _
      rw [hm]; exact h4
    · exact Nat.lt_irrefl _ (w.names d x _ h)
  | erase c n =>
    obtain ⟨b, st', h1, -, ⟨h3, h4⟩, -⟩ := C70_step s.conts w.uniq (.erase c n) trivial
    simp only [cstep, Option.some.injEq, Prod.mk.injEq] at h1
    obtain ⟨-, rfl⟩ := h1
    exact ⟨h3, h4⟩
  | merge c f d names =>
    obtain ⟨b, st', h1, -, ⟨h3, h4, h5⟩, -⟩ := C70_step s.conts w.uniq (.merge c f d names) hk
    simp only [cstep, Option.map_eq_some_iff, Prod.mk.injEq] at h1
    obtain ⟨items, hi, -, rfl⟩ := h1
    have e : s.step cap (.merge c f d names) = (.ok, ⟨s.probes, Function.update s.conts c items, s.sums⟩) := by
      simp only [Net.step, hi]
    have e' : m' = fun c' n => get (Function.update s.conts c items c') n := by
      funext c' n
      show get ((s.step cap (.merge c f d names)).2.conts c') n = _
      rw [e]
    rw [e']
    exact ⟨by rw [e], h3, h4, h5⟩
  | summary => rfl
  | reset i => rfl
  | connect v j =>
    show m' = m
    have e : (s.step cap (.connect v j)).2.conts = s.conts := by
      simp only [Net.step]; split
      · rfl
      · split <;> rfl
    funext c n
    show get ((s.step cap (.connect v j)).2.conts c) n = _
    rw [e]
  | disconnect v k =>
    show m' = m
    have e : (s.step cap (.disconnect v k)).2.conts = s.conts := by
      simp only [Net.step]; split <;> rfl
    funext c n
    show get ((s.step cap (.disconnect v k)).2.conts c) n = _
    rw [e]
  | fire v x =>
    show m' = m
    have e : (s.step cap (.fire v x)).2.conts = s.conts := by
      simp only [Net.step]; split
      · rfl
      · split <;> rfl
    funext c n
    show get ((s.step cap (.fire v x)).2.conts c) n = _
    rw [e]

/-- The number of summaries is the number made. -/
theorem feed_made {cap : Nat} (os : List (Op N K)) :
    (Net.init.run cap os).2.sums.length = os.countP fun o => match o with | .summary => true | _ => false := by
  have step : ∀ (s : Net N K) (o : Op N K), (s.step cap o).2.sums.length =
      s.sums.length + (match o with | .summary => 1 | _ => 0) := by
    intro s o
    cases o <;> simp only [Net.step] <;> (try split) <;> (try split) <;> simp [feeds_length]
  have key : ∀ (os : List (Op N K)) (s : Net N K), (s.run cap os).2.sums.length =
      s.sums.length + os.countP fun o => match o with | .summary => true | _ => false := by
    intro os
    induction os with
    | nil => intro s; rfl
    | cons o os ih =>
      intro s
      rw [Net.run, ih, step, List.countP_cons]
      cases o <;> simp <;> omega
  rw [key]; simp [Net.init]

/-- A case: one probe, known as "a" in container 0 and as "xa" in container 1; two summaries; the first is connected twice, under
either name, and one of the connections is closed again. -/
example :
    let os : List (Op String ℚ) := [.add 0 "a", .merge 1 ("x" ++ ·) 0 ["a"], .summary, .summary, .fire (.held 0) 9,
      .connect (.named 0 "a") 0, .connect (.named 1 "xa") 0, .connect (.held 0) 1, .fire (.named 1 "xa") 3,
      .disconnect (.named 1 "xa") 1, .fire (.held 0) 5, .reset 1, .fire (.named 0 "b") 7, .fire (.named 0 "a") 8]
    let r := Net.init.run 10 os
    heard r.1 0 = [3, 3, 5, 8] ∧ heard r.1 1 = [8] ∧
      (r.2.sums.map fun s => (s.count, s.sum, s.min, s.max)) = [(4, 19, some 3, some 8), (1, 8, some 8, some 8)] := by
  decide +kernel

end Verif.Stat.Feed
