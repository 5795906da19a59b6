import Verif.Log.NetSteps
import Mathlib.Data.List.Perm.Basic
import Mathlib.Data.List.Count
import Mathlib.Data.List.Nodup
import Mathlib.Algebra.BigOperators.Group.List.Basic
set_option linter.unusedSimpArgs false
set_option linter.unusedVariables false
/-! Property C146. -/
namespace Verif.Log.Net
open Verif.Event (Table Reachable sinkAt liveCookies C35_connect C35_disconnect C35_count)

variable {cap : Nat} {rk : Nat → Nat} {f : Nat} {net : Loggers} {tr : Trace}

/-- Records of logger `i` can reach a sink of the user: one is connected to it, or to a logger that has it, directly or through others, as
a source. -/
inductive Feeds (tr : Trace) : Nat → Prop
  | sink {i c k : Nat} : connected i c tr = some k → Feeds tr i
  | via {i j d : Nat} : registered j d tr = some i → Feeds tr j → Feeds tr i

/-- A record fired at logger `i` comes to logger `j`, and all filters on the way accept it. -/
inductive Path (tr : Trace) (acc : Nat → Bool) : Nat → Nat → Prop
  | here {i : Nat} : acc i = true → Path tr acc i i
  | next {i m d j : Nat} : acc i = true → registered m d tr = some i → Path tr acc m j → Path tr acc i j

/-- The registrations of the source `i` that are in force, as logger and cookie. -/
def regsOf (i : Nat) (tr : Trace) : List (Nat × Nat) := tr.foldl (fun l e => match e with
  | (.register m s, d) => if s = i then l ++ [(m, d)] else l
  | (.unregister m d, _) => l.filter (· ≠ (m, d))
  | _ => l) []

theorem Shows.item {j d s : Nat} (h : Shows net tr) (hr : registered j d tr = some s) :
    ∃ a c : Nat, d = a + 1 ∧ (net j).items[a]? = some (some s, c) := by
  cases d with
  | zero => rw [h.none] at hr; cases hr
  | succ a =>
    rw [← h.regs] at hr
    cases hx : (net j).items[a]? with
    | none => rw [hx] at hr; cases hr
    | some x =>
      obtain ⟨o, c⟩ := x
      rw [hx] at hr
      have hr : o = some s := hr
      exact ⟨a, c, rfl, by rw [hr] at hx; exact hx⟩

theorem enabled_iff (hcap : cap < 2 ^ 32) (h : Sound cap rk net) (i : Nat) :
    isEnabled net i = true ↔ ∃ c x, sinkAt (net i).ev c = some x := by
  rw [← num_ne hcap (h.reach i)]; simp [isEnabled]

/-- C146.  After every history a logger is enabled exactly if its records can reach a sink of the user. -/
theorem C146_enabled (hcap : cap < 2 ^ 32) (hf : ∀ j, rk j < f) (h : Reach cap f rk net tr) (i : Nat) :
    isEnabled net i = true ↔ Feeds tr i := by
  obtain ⟨hs, hv⟩ := h.sound hcap hf
  constructor
  · intro he
    -- loggers further down have higher levels, which are bounded
    have key : ∀ n i, f - rk i ≤ n → isEnabled net i = true → Feeds tr i := by
      intro n
      induction n with
      | zero => intro i hi; have := hf i; omega
      | succ n ih =>
        intro i hi he
        obtain ⟨c, x, hx⟩ := (enabled_iff hcap hs i).mp he
        cases x with
        | user k => exact .sink ((hv.users i c k).mp hx)
        | logger j =>
          obtain ⟨a, ha⟩ := (hs.kept i c j hx).resolve_right id
          have hc : c ≠ 0 := by rintro rfl; rw [sinkAt_zero] at hx; cases hx
          have hn := ((hs.coh j not_false).2 a i c ha).mp hc
          have hd := hs.down j a i c ha
          refine .via (j := j) (d := a + 1) ?_ (ih j (by have := hf j; omega) (by simp [isEnabled, hn]))
          rw [← hv.regs, ha]; rfl
    exact key _ i (Nat.le_refl _) he
  · intro hfe
    induction hfe with
    | sink hc => exact (enabled_iff hcap hs _).mpr ⟨_, _, (hv.users _ _ _).mpr hc⟩
    | @via i j d hr _ ih =>
      obtain ⟨a, c, rfl, ha⟩ := hv.item hr
      have hn : (net j).ev.num ≠ 0 := by simpa [isEnabled] using ih
      have hc := ((hs.coh j not_false).2 a i c ha).mpr hn
      have := (hs.conn j a i c ha hc).resolve_right id
      exact (enabled_iff hcap hs _).mpr ⟨_, _, this⟩

/-- C146.  In every network so built each proper call of the user succeeds, or it is a `Connect` or `RegisterSource` that reports
`ConnectionLimit`: loggers never throw `IllegalMethodCall` at each other and never recur without end. -/
theorem C146_calls (hcap : cap < 2 ^ 32) (hf : ∀ j, rk j < f) (h : Reach cap f rk net tr) {o : Op} (ho : Ok rk tr o) :
    (∃ c net', step cap f net o = some (.ok (c, net')) ∧ Reach cap f rk net' (tr ++ [(o, c)])) ∨
    (step cap f net o = some (.error (.event .connectionLimit)) ∧ ((∃ i k, o = .connect i k) ∨ ∃ j s, o = .register j s)) := by
  obtain ⟨hs, hv⟩ := h.sound hcap hf
  obtain ⟨r, h1, h2⟩ := step_ok hcap hf hs hv ho
  cases r with
  | error e => obtain ⟨rfl, h2⟩ := h2; exact .inr ⟨h1, h2⟩
  | ok x => exact .inl ⟨x.1, x.2, h1, .step h ho h1⟩

/-! ### Registrations and connections -/

theorem regsOf_append (i : Nat) (tr : Trace) (e : Op × Nat) : regsOf i (tr ++ [e]) = match e with
    | (.register m s, d) => if s = i then regsOf i tr ++ [(m, d)] else regsOf i tr
    | (.unregister m d, _) => (regsOf i tr).filter (· ≠ (m, d))
    | _ => regsOf i tr := by
  rw [regsOf, List.foldl_append]; rfl

/-- `regsOf` lists the registrations, each once. -/
theorem regsOf_spec (hcap : cap < 2 ^ 32) (hf : ∀ j, rk j < f) (h : Reach cap f rk net tr) (i : Nat) :
    (regsOf i tr).Nodup ∧ ∀ m d, (m, d) ∈ regsOf i tr ↔ registered m d tr = some i := by
  induction h with
  | init => simp [regsOf, registered]
  | @step net net' tr o c h ho hst ih =>
    obtain ⟨hs, hv⟩ := h.sound hcap hf
    obtain ⟨ih1, ih2⟩ := ih
    cases o with
    | connect j k => refine ⟨by rw [regsOf_append]; exact ih1, fun m d => by rw [regsOf_append, registered_append]; exact ih2 m d⟩
    | disconnect j k => refine ⟨by rw [regsOf_append]; exact ih1, fun m d => by rw [regsOf_append, registered_append]; exact ih2 m d⟩
    | unregister j k =>
      refine ⟨by rw [regsOf_append]; exact ih1.filter _, fun m d => ?_⟩
      rw [regsOf_append, registered_append]
      dsimp only
      rw [List.mem_filter, ih2]
      by_cases e : j = m ∧ k = d
      · obtain ⟨rfl, rfl⟩ := e; simp
      · rw [if_neg e]
        simp only [ne_eq, decide_not, Bool.not_eq_eq_eq_not, Bool.not_true, decide_eq_false_iff_not, and_iff_left_iff_imp]
        intro _ e2
        cases e2; exact e ⟨rfl, rfl⟩
    | register j s =>
      have hg := register_ok hcap hf hs (j := j) (s := s) ho
      have hst' : register cap f net j s = .ok (c, net') := by
        rw [step] at hst; exact Option.some.inj hst
      rw [hst'] at hg
      obtain ⟨-, a, rfl, g3, -, -⟩ := hg
      have hfree : registered j (a + 1) tr = none := by rw [← hv.regs]; exact g3
      refine ⟨?_, fun m d => ?_⟩
      · rw [regsOf_append]
        dsimp only
        split
        · refine List.nodup_append.mpr ⟨ih1, by simp, ?_⟩
          intro x hx y hy e
          simp only [List.mem_singleton] at hy
          subst hy; subst e
          rw [ih2, hfree] at hx; cases hx
        · exact ih1
      · rw [regsOf_append, registered_append]
        dsimp only
        by_cases e : j = m ∧ a + 1 = d
        · obtain ⟨rfl, rfl⟩ := e
          by_cases e : s = i
          · subst e; simp
          · have := ih2 j (a + 1)
            rw [hfree] at this
            simp [e, this]
        · rw [if_neg e, ← ih2]
          by_cases e2 : s = i
          · rw [if_pos e2, List.mem_append]
            simp only [List.mem_singleton, or_iff_left_iff_imp]
            intro e3; cases e3; exact absurd ⟨rfl, rfl⟩ e
          · rw [if_neg e2]

/-- C146.  An enabled logger is connected to each of its sources as often as the source is registered with it, a logger that is not enabled
to none; the user's sinks are connected as the user said. -/
theorem C146_attached (hcap : cap < 2 ^ 32) (hf : ∀ j, rk j < f) (h : Reach cap f rk net tr) (s j : Nat) :
    ((liveCookies cap (net s).ev).filter fun c => sinkAt (net s).ev c = some (.logger j)).length =
      (if isEnabled net j then ((regsOf s tr).filter fun x => x.1 = j).length else 0) ∧
    ∀ c k, sinkAt (net s).ev c = some (.user k) ↔ connected s c tr = some k := by
  obtain ⟨hs, hv⟩ := h.sound hcap hf
  obtain ⟨r1, r2⟩ := regsOf_spec hcap hf h s
  refine ⟨?_, hv.users s⟩
  by_cases he : isEnabled net j = true
  · rw [if_pos he]
    have hn : (net j).ev.num ≠ 0 := by simpa [isEnabled] using he
    -- the cookie of the connection that belongs to a registration
    have hperm : (((regsOf s tr).filter fun x => x.1 = j).map fun x => (((net j).items[x.2 - 1]?.map (·.2)).getD 0)).Perm
        ((liveCookies cap (net s).ev).filter fun c => sinkAt (net s).ev c = some (.logger j)) := by
      refine (List.perm_ext_iff_of_nodup ?_ ?_).mpr fun c => ?_
      · refine List.Nodup.map_on ?_ (r1.filter _)
        rintro ⟨m, d⟩ hx ⟨m', d'⟩ hy e
        obtain ⟨hx1, hx2⟩ := List.mem_filter.mp hx
        obtain ⟨hy1, hy2⟩ := List.mem_filter.mp hy
        simp only [decide_eq_true_eq] at hx2 hy2
        subst hx2; subst hy2
        obtain ⟨a, c, rfl, ha⟩ := hv.item ((r2 _ _).mp hx1)
        obtain ⟨b, c', rfl, hb⟩ := hv.item ((r2 _ _).mp hy1)
        simp only [Nat.add_sub_cancel, ha, hb, Option.map_some, Option.getD_some] at e
        subst e
        have hc := ((hs.coh _ not_false).2 a s c ha).mpr hn
        have := hs.once _ a b _ ha hb hc
        rw [this]
      · have hp := (Event.C34_fire hcap (hs.reach s) (fun _ _ => []) (fun _ _ => rfl) (cap + 1) (by omega)).2.2.2.1
        exact (hp.imp (fun hlt => Nat.ne_of_lt hlt)).filter _
      · rw [List.mem_map, List.mem_filter, Event.liveCookies_complete hcap (hs.reach s)]
        constructor
        · rintro ⟨⟨m, d⟩, hx, rfl⟩
          obtain ⟨hx1, hx2⟩ := List.mem_filter.mp hx
          simp only [decide_eq_true_eq] at hx2
          subst hx2
          obtain ⟨a, c, rfl, ha⟩ := hv.item ((r2 _ _).mp hx1)
          simp only [Nat.add_sub_cancel, ha, Option.map_some, Option.getD_some]
          have hc := ((hs.coh _ not_false).2 a s c ha).mpr hn
          have := (hs.conn _ a s c ha hc).resolve_right id
          rw [this]; simp
        · rintro ⟨-, hc⟩
          simp only [decide_eq_true_eq] at hc
          obtain ⟨a, ha⟩ := (hs.kept s c j hc).resolve_right id
          refine ⟨(j, a + 1), List.mem_filter.mpr ⟨(r2 _ _).mpr ?_, by simp⟩, by simp [ha]⟩
          rw [← hv.regs, ha]; rfl
    rw [← hperm.length_eq, List.length_map]
  · rw [if_neg he]
    rw [List.length_eq_zero_iff, List.filter_eq_nil_iff]
    intro c hc hx
    simp only [decide_eq_true_eq] at hx
    obtain ⟨a, ha⟩ := (hs.kept s c j hx).resolve_right id
    have hc0 : c ≠ 0 := by rintro rfl; rw [sinkAt_zero] at hx; cases hx
    have := ((hs.coh j not_false).2 a s c ha).mp hc0
    exact he (by simp [isEnabled, this])

/-! ### Delivery -/

theorem mapM_some {α β : Type} (g : α → Option β) (k : α → β) : ∀ l : List α, (∀ x ∈ l, g x = some (k x)) → l.mapM g = some (l.map k)
  | [], _ => by simp
  | x :: l, h => by
    rw [List.mapM_cons, h x (by simp), mapM_some g k l (fun y hy => h y (by simp [hy]))]
    rfl

/-- The calls of one logger, given those of the loggers below. -/
def callsAt (cap : Nat) (acc : Nat → Bool) (net : Loggers) (below : Nat → List (Nat × Nat × Nat)) (i : Nat) : List (Nat × Nat × Nat) :=
  if acc i then ((liveCookies cap (net i).ev).map fun c => match sinkAt (net i).ev c with
    | some (.logger j) => below j
    | some (.user k) => [(i, c, k)]
    | none => []).flatten
  else []

theorem fire_step (hcap : cap < 2 ^ 32) (hs : Sound cap rk net) (acc : Nat → Bool) {n i : Nat} {below : Nat → List (Nat × Nat × Nat)}
    (hb : ∀ j, rk i < rk j → fire cap acc n net j = some (below j)) :
    fire cap acc (n + 1) net i = some (callsAt cap acc net below i) := by
  rw [fire, callsAt]
  cases acc i with
  | false => simp
  | true =>
    simp only [if_true]
    rw [(Event.C34_fire hcap (hs.reach i) (fun _ _ => []) (fun _ _ => rfl) (cap + 1) (by omega)).2.1]
    dsimp only
    rw [mapM_some (k := fun c => match sinkAt (net i).ev c with
      | some (.logger j) => below j
      | some (.user k) => [(i, c, k)]
      | none => [])]
    · rfl
    · intro c _
      cases hx : sinkAt (net i).ev c with
      | none => rfl
      | some x =>
        cases x with
        | user k => rfl
        | logger j =>
          obtain ⟨a, ha⟩ := (hs.kept i c j hx).resolve_right id
          exact hb j (hs.down j a i c ha)

theorem fire_exists (hcap : cap < 2 ^ 32) (hf : ∀ j, rk j < f) (hs : Sound cap rk net) (acc : Nat → Bool) :
    ∃ calls : Nat → List (Nat × Nat × Nat), (∀ i n, f - rk i ≤ n → fire cap acc n net i = some (calls i)) ∧
      ∀ i, calls i = callsAt cap acc net calls i := by
  have ex : ∀ i, ∃ l, ∀ n, f - rk i ≤ n → fire cap acc n net i = some l := by
    have key : ∀ m i, f - rk i ≤ m → ∃ l, ∀ n, f - rk i ≤ n → fire cap acc n net i = some l := by
      intro m
      induction m with
      | zero => intro i hi; have := hf i; omega
      | succ m ih =>
        intro i hi
        have hb : ∀ j, ∃ l, rk i < rk j → ∀ n, f - rk j ≤ n → fire cap acc n net j = some l := fun j => by
          by_cases hj : rk i < rk j
          · obtain ⟨l, hl⟩ := ih j (by have := hf j; omega)
            exact ⟨l, fun _ => hl⟩
          · exact ⟨[], fun h => absurd h hj⟩
        let below := fun j => Classical.choose (hb j)
        have hbel : ∀ j, rk i < rk j → ∀ n, f - rk j ≤ n → fire cap acc n net j = some (below j) := fun j => Classical.choose_spec (hb j)
        refine ⟨callsAt cap acc net below i, fun n hn => ?_⟩
        have := hf i
        obtain ⟨n, rfl⟩ : ∃ k, n = k + 1 := ⟨n - 1, by omega⟩
        exact fire_step hcap hs acc fun j hj => hbel j hj n (by omega)
    exact fun i => key _ i (Nat.le_refl _)
  refine ⟨fun i => Classical.choose (ex i), fun i => Classical.choose_spec (ex i), fun i => ?_⟩
  have h1 := Classical.choose_spec (ex i) (f - rk i + 1) (by omega)
  have h2 := fire_step hcap hs acc (n := f - rk i) (i := i) (below := fun i => Classical.choose (ex i))
    (fun j hj => Classical.choose_spec (ex j) _ (by omega))
  rw [h1] at h2
  exact Option.some.inj h2

/-- C146.  A record fired at a logger reaches exactly the sinks that are connected to the loggers to which a way of registrations leads
and on which all filters accept it. -/
theorem C146_delivered (hcap : cap < 2 ^ 32) (hf : ∀ j, rk j < f) (h : Reach cap f rk net tr) (acc : Nat → Bool) (i : Nat) :
    ∃ calls, fire cap acc f net i = some calls ∧
      ∀ j c k, (j, c, k) ∈ calls ↔ Path tr acc i j ∧ connected j c tr = some k := by
  obtain ⟨hs, hv⟩ := h.sound hcap hf
  obtain ⟨calls, h1, h2⟩ := fire_exists hcap hf hs acc
  refine ⟨calls i, h1 i f (by omega), fun j c k => ⟨fun hm => ?_, fun hpc => ?_⟩⟩
  · have key : ∀ n i, f - rk i ≤ n → (j, c, k) ∈ calls i → Path tr acc i j ∧ connected j c tr = some k := by
      intro n
      induction n with
      | zero => intro i hi; have := hf i; omega
      | succ n ih =>
        intro i hi hm
        rw [h2, callsAt] at hm
        cases ha : acc i with
        | false => rw [ha] at hm; simp at hm
        | true =>
          rw [ha] at hm
          simp only [if_true, List.mem_flatten, List.mem_map] at hm
          obtain ⟨l, ⟨d, -, rfl⟩, hm⟩ := hm
          cases hx : sinkAt (net i).ev d with
          | none => rw [hx] at hm; cases hm
          | some x =>
            rw [hx] at hm
            cases x with
            | user u =>
              simp only [List.mem_singleton, Prod.mk.injEq] at hm
              obtain ⟨rfl, rfl, rfl⟩ := hm
              exact ⟨.here ha, (hv.users _ _ _).mp hx⟩
            | logger m =>
              obtain ⟨a, hit⟩ := (hs.kept i d m hx).resolve_right id
              have hd := hs.down m a i d hit
              obtain ⟨p1, p2⟩ := ih m (by have := hf m; omega) hm
              exact ⟨.next (d := a + 1) ha (by rw [← hv.regs, hit]; rfl) p1, p2⟩
    exact key _ i (Nat.le_refl _) hm
  · obtain ⟨hp, hc⟩ := hpc
    have hsome : ∀ {i c x}, sinkAt (net i).ev c = some x → c ∈ liveCookies cap (net i).ev := fun {i c x} hx => by
      rw [Event.liveCookies_complete hcap (hs.reach i), hx]; rfl
    induction hp with
    | @here i ha =>
      rw [h2, callsAt, ha]
      simp only [if_true, List.mem_flatten, List.mem_map]
      have hu := (hv.users _ _ _).mpr hc
      exact ⟨_, ⟨c, hsome hu, rfl⟩, by rw [hu]; simp⟩
    | @next i m d j ha hr hp ih =>
      have hm := ih hc
      have hen : isEnabled net m = true := by
        rw [enabled_iff hcap hs]
        rw [h2, callsAt] at hm
        split at hm
        · simp only [List.mem_flatten, List.mem_map] at hm
          obtain ⟨l, ⟨d, hd, rfl⟩, -⟩ := hm
          rw [Event.liveCookies_complete hcap (hs.reach m)] at hd
          obtain ⟨x, hx⟩ := Option.isSome_iff_exists.mp hd
          exact ⟨d, x, hx⟩
        · cases hm
      obtain ⟨a, c', rfl, hit⟩ := hv.item hr
      have hn : (net m).ev.num ≠ 0 := by simpa [isEnabled] using hen
      have hc' := ((hs.coh m not_false).2 a i c' hit).mpr hn
      have hx := (hs.conn m a i c' hit hc').resolve_right id
      rw [h2, callsAt, ha]
      simp only [if_true, List.mem_flatten, List.mem_map]
      exact ⟨_, ⟨c', hsome hx, rfl⟩, by rw [hx]; exact hm⟩

theorem filterMap_count {σ : Type} [DecidableEq σ] (l : List Nat) (g : Nat → Option σ) (m : σ) :
    (l.filterMap g).count m = (l.filter fun c => g c = some m).length := by
  induction l with
  | nil => rfl
  | cons c l ih =>
    rw [List.filterMap_cons, List.filter_cons]
    cases hg : g c with
    | none => simpa using ih
    | some x =>
      by_cases e : x = m
      · subst e; simp [ih]
      · simp [List.count_cons, e, ih]

/-- C146.  How often a sink is called: once for its connection to the logger at which the record is fired, and as often as each registration
of this logger as a source lets the record pass on. -/
theorem C146_times (hcap : cap < 2 ^ 32) (hf : ∀ j, rk j < f) (h : Reach cap f rk net tr) (acc : Nat → Bool) :
    ∃ calls : Nat → List (Nat × Nat × Nat), (∀ i, fire cap acc f net i = some (calls i)) ∧ ∀ i x,
      (calls i).count x = if acc i then
        (if x.1 = i ∧ connected i x.2.1 tr = some x.2.2 then 1 else 0) + ((regsOf i tr).map fun r => (calls r.1).count x).sum
      else 0 := by
  obtain ⟨hs, hv⟩ := h.sound hcap hf
  obtain ⟨calls, h1, h2⟩ := fire_exists hcap hf hs acc
  refine ⟨calls, fun i => h1 i f (by omega), fun i x => ?_⟩
  obtain ⟨j, c, k⟩ := x
  cases ha : acc i with
  | false => rw [h2, callsAt, ha]; simp
  | true =>
    simp only [if_true]
    have hp := (Event.C34_fire hcap (hs.reach i) (fun _ _ => []) (fun _ _ => rfl) (cap + 1) (by omega)).2.2.2.1
    have hnd : (liveCookies cap (net i).ev).Nodup := hp.imp (fun hlt => Nat.ne_of_lt hlt)
    have hmem := Event.liveCookies_complete hcap (hs.reach i)
    -- the loggers connected, in the order of the cookies
    let lg : Nat → Option Nat := fun c => match sinkAt (net i).ev c with | some (.logger m) => some m | _ => none
    have split : ∀ l : List Nat, ((l.map fun c => match sinkAt (net i).ev c with
          | some (.logger j) => calls j
          | some (.user k) => [(i, c, k)]
          | none => []).flatten).count (j, c, k) =
        (l.filter fun d => j = i ∧ d = c ∧ sinkAt (net i).ev d = some (.user k)).length +
          ((l.filterMap lg).map fun m => (calls m).count (j, c, k)).sum := by
      intro l
      induction l with
      | nil => rfl
      | cons d l ih =>
        simp only [List.map_cons, List.flatten_cons, List.count_append, List.filterMap_cons, List.filter_cons]
        rw [ih]
        cases hd : sinkAt (net i).ev d with
        | none => simp [lg, hd]
        | some y =>
          cases y with
          | logger m => simp [lg, hd]; omega
          | user u =>
            simp only [lg, hd, List.count_cons, List.count_nil, Nat.zero_add, beq_iff_eq, Prod.mk.injEq, Option.some.injEq, Snk.user.injEq]
            by_cases e : i = j ∧ d = c ∧ u = k
            · obtain ⟨rfl, rfl, rfl⟩ := e; simp; omega
            · have e' : ¬ (j = i ∧ d = c ∧ u = k) := fun x => e ⟨x.1.symm, x.2⟩
              simp [e, e']
    rw [h2, callsAt, ha]
    simp only [if_true]
    rw [split]
    congr 1
    · by_cases e : j = i ∧ connected i c tr = some k
      · rw [if_pos e]
        obtain ⟨rfl, e⟩ := e
        have hu := (hv.users _ _ _).mpr e
        have : (fun d => decide (j = j ∧ d = c ∧ sinkAt (net j).ev d = some (.user k))) = fun d => d == c := by
          funext d
          by_cases ed : d = c
          · subst ed; simp [hu]
          · simp [ed]
        rw [this, ← List.countP_eq_length_filter]
        have hc1 := List.count_eq_one_of_mem hnd ((hmem c).mpr (by rw [hu]; rfl))
        rw [List.count] at hc1
        exact hc1
      · rw [if_neg e, List.length_eq_zero_iff, List.filter_eq_nil_iff]
        intro d _ hx
        simp only [decide_eq_true_eq] at hx
        obtain ⟨rfl, rfl, hx⟩ := hx
        exact e ⟨rfl, (hv.users _ _ _).mp hx⟩
    · -- loggers that are not enabled call nobody
      have hoff : ∀ m, isEnabled net m ≠ true → (calls m).count (j, c, k) = 0 := by
        intro m hm
        rw [h2, callsAt]
        split
        · have : liveCookies cap (net m).ev = [] := by
            rw [← List.length_eq_zero_iff]
            have := (C35_count hcap (hs.reach m)).1
            simp only [Table.getNumSinks] at this
            rw [← this]
            simpa [isEnabled] using hm
          rw [this]; rfl
        · rfl
      have hperm : ((liveCookies cap (net i).ev).filterMap lg).Perm (((regsOf i tr).map (·.1)).filter fun m => isEnabled net m) := by
        rw [List.perm_iff_count]
        intro m
        have hlg : (fun d => decide (lg d = some m)) = fun d => decide (sinkAt (net i).ev d = some (.logger m)) := by
          funext d
          refine decide_eq_decide.mpr ?_
          simp only [lg]
          cases hd : sinkAt (net i).ev d with
          | none => simp
          | some y => cases y <;> simp
        rw [filterMap_count, hlg, (C146_attached hcap hf h i m).1]
        by_cases he : isEnabled net m = true
        · rw [if_pos he, List.count_filter he, List.count, List.countP_map, List.countP_eq_length_filter]
          congr 1
        · rw [if_neg he, eq_comm, List.count_eq_zero]
          intro hx
          exact he (List.mem_filter.mp hx).2
      rw [(hperm.map _).sum_eq]
      have : ∀ l : List (Nat × Nat), (((l.map (·.1)).filter fun m => isEnabled net m).map fun m => (calls m).count (j, c, k)).sum =
          (l.map fun r => (calls r.1).count (j, c, k)).sum := by
        intro l
        induction l with
        | nil => rfl
        | cons r l ih =>
          simp only [List.map_cons, List.filter_cons, List.sum_cons]
          by_cases he : isEnabled net r.1 = true
          · rw [if_pos he, List.map_cons, List.sum_cons, ih]
          · rw [if_neg he, ih, hoff _ he, Nat.zero_add]
      exact this _

theorem Path.level {acc : Nat → Bool} {i j : Nat} (hs : Sound cap rk net) (hv : Shows net tr) (hp : Path tr acc i j) : rk i ≤ rk j := by
  induction hp with
  | here _ => exact Nat.le_refl _
  | @next i m d j _ hr _ ih =>
    obtain ⟨a, c, rfl, ha⟩ := hv.item hr
    exact Nat.le_trans (Nat.le_of_lt (hs.down m a i c ha)) ih

/-- C146.  If each logger is registered at most once as a source, no sink is called twice for a record. -/
theorem C146_once (hcap : cap < 2 ^ 32) (hf : ∀ j, rk j < f) (h : Reach cap f rk net tr) (acc : Nat → Bool)
    (hone : ∀ i, (regsOf i tr).length ≤ 1) (i : Nat) : ∃ calls, fire cap acc f net i = some calls ∧ calls.Nodup := by
  obtain ⟨calls, h1, h2⟩ := C146_times hcap hf h acc
  obtain ⟨hs, hv⟩ := h.sound hcap hf
  refine ⟨calls i, h1 i, List.nodup_iff_count_le_one.mpr fun x => ?_⟩
  have up : ∀ i, x ∈ calls i → rk i ≤ rk x.1 ∧ connected x.1 x.2.1 tr = some x.2.2 := by
    intro i hm
    obtain ⟨l, e, hd⟩ := C146_delivered hcap hf h acc i
    rw [h1] at e
    rw [Option.some.inj e] at hm
    obtain ⟨hp, hc⟩ := (hd x.1 x.2.1 x.2.2).mp hm
    exact ⟨hp.level hs hv, hc⟩
  have key : ∀ n i, f - rk i ≤ n → (calls i).count x ≤ 1 := by
    intro n
    induction n with
    | zero => intro i hi; have := hf i; omega
    | succ n ih =>
      intro i hi
      rw [h2]
      split
      · have h0 : ∀ m d, (m, d) ∈ regsOf i tr → rk i < rk m := fun m d hx => by
          obtain ⟨a, c, rfl, ha⟩ := hv.item (((regsOf_spec hcap hf h i).2 m d).mp hx)
          exact hs.down m a i c ha
        have hl := hone i
        cases hr : regsOf i tr with
        | nil => simp only [List.map_nil, List.sum_nil]; split <;> omega
        | cons r l =>
          rw [hr] at hl h0
          have : l = [] := by cases l with
            | nil => rfl
            | cons => simp at hl
          subst this
          obtain ⟨m, d⟩ := r
          have hlt := h0 m d (by simp)
          simp only [List.map_cons, List.map_nil, List.sum_cons, List.sum_nil, Nat.add_zero]
          split
          · rename_i e
            have : (calls m).count x = 0 := List.count_eq_zero.mpr fun hm => by
              have := (up m hm).1
              rw [e.1] at this; omega
            omega
          · have := ih m (by have := hf m; omega)
            omega
      · omega
  exact key _ i (Nat.le_refl _)

/-! ### Cycles -/

/-- The state after calls that succeed. -/
def after (cap f : Nat) : List Op → Loggers → Option Loggers
  | [], net => some net
  | o :: os, net => match step cap f net o with
    | some (.ok (_, net')) => after cap f os net'
    | _ => none

/-- C146, why cycles are left out.  A logger that was registered as its own source (or two that are each other's) refuses its first sink
with `IllegalMethodCall`. -/
theorem C146_cycle_refused :
    (∃ net, after 4 8 [.register 0 0] (fun _ => .init) = some net ∧
      ∃ e, step 4 8 net (.connect 0 5) = some (.error e) ∧ e = .illegalMethodCall) ∧
    (∃ net, after 4 8 [.register 0 1, .register 1 0] (fun _ => .init) = some net ∧
      ∃ e, step 4 8 net (.connect 0 5) = some (.error e) ∧ e = .illegalMethodCall) :=
  ⟨⟨_, rfl, _, rfl, rfl⟩, ⟨_, rfl, _, rfl, rfl⟩⟩

theorem fire_endless {net : Loggers} (h : (net 0).ev = ⟨[some (.user 5), some (.logger 0)], 2, 2⟩) (n : Nat) :
    fire 4 (fun _ => true) n net 0 = none := by
  induction n with
  | zero => rfl
  | succ n ih =>
    have hfa : Event.fireArgs 4 (fun _ _ => []) (4 + 1) (⟨[some (.user 5), some (.logger 0)], 2, 2⟩ : Table Snk) =
      .done [1, 2] ⟨[some (.user 5), some (.logger 0)], 2, 2⟩ := rfl
    have h1 : sinkAt (⟨[some (.user 5), some (.logger 0)], 2, 2⟩ : Table Snk) 1 = some (.user 5) := rfl
    have h2 : sinkAt (⟨[some (.user 5), some (.logger 0)], 2, 2⟩ : Table Snk) 2 = some (.logger 0) := rfl
    rw [fire, h, hfa]
    simp [h1, h2, ih]

/-- C146, why cycles are left out.  A logger that is registered as its own source after it has got a sink accepts that, and the next record
never ends, however deep the stack. -/
theorem C146_cycle_endless :
    ∃ net, after 4 8 [.connect 0 5, .register 0 0] (fun _ => .init) = some net ∧ ∀ n, fire 4 (fun _ => true) n net 0 = none :=
  ⟨_, rfl, fire_endless rfl⟩

/-! ### Examples -/

/-- A diamond: 1 and 2 have 0 as a source, 3 has 1 and 2.  The user has one sink at 3 and one at 1. -/
def diamond : List Op := [.register 1 0, .register 2 0, .register 3 1, .connect 3 7, .register 3 2, .connect 1 9]

/-- The diamond is a network of `Reach`, with the levels 0, 1, 1, 2. -/
theorem diamond_reach : ∃ net tr, Reach 4 8 (fun j => min ((j + 1) / 2) 2) net tr ∧ tr.map (·.1) = diamond ∧
    after 4 8 diamond (fun _ => .init) = some net ∧
    -- everything above a sink is enabled; logger 4 is not
    Feeds tr 0 ∧ isEnabled net 0 = true ∧ isEnabled net 4 = false ∧
    -- the record of 0 comes to the sink at 3 over 1 and over 2, to the sink at 1 once
    fire 4 (fun _ => true) 8 net 0 = some [(3, 1, 7), (1, 2, 9), (3, 1, 7)] ∧
    fire 4 (fun i => i != 2) 8 net 0 = some [(3, 1, 7), (1, 2, 9)] ∧
    -- disconnecting the sink at 3 leaves only the other
    ∃ net' c, Reach 4 8 (fun j => min ((j + 1) / 2) 2) net' (tr ++ [(.disconnect 3 1, c)]) ∧
      fire 4 (fun _ => true) 8 net' 0 = some [(1, 2, 9)] ∧ isEnabled net' 2 = false := by
  refine ⟨_, _, .step (.step (.step (.step (.step (.step .init (o := .register 1 0) (by show (0:Nat) < 1; decide) rfl)
    (o := .register 2 0) (by show (0:Nat) < 1; decide) rfl) (o := .register 3 1) (by show (1:Nat) < 2; decide) rfl)
    (o := .connect 3 7) trivial rfl) (o := .register 3 2) (by show (1:Nat) < 2; decide) rfl) (o := .connect 1 9) trivial rfl,
    rfl, rfl, .via (j := 1) (d := 1) rfl (.sink (c := 2) (k := 9) rfl), rfl, rfl, rfl, rfl, _, _, .step (.step (.step (.step (.step (.step
    (.step .init (o := .register 1 0) (by show (0:Nat) < 1; decide) rfl)
    (o := .register 2 0) (by show (0:Nat) < 1; decide) rfl) (o := .register 3 1) (by show (1:Nat) < 2; decide) rfl)
    (o := .connect 3 7) trivial rfl) (o := .register 3 2) (by show (1:Nat) < 2; decide) rfl) (o := .connect 1 9) trivial rfl)
    (o := .disconnect 3 1) rfl rfl, rfl, rfl⟩

/-- The hypotheses of the theorems hold of it. -/
example : (4 : Nat) < 2 ^ 32 ∧ ∀ j, (fun j => min ((j + 1) / 2) 2) j < 8 := ⟨by decide, fun j => by dsimp only; omega⟩

end Verif.Log.Net
