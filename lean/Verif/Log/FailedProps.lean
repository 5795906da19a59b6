import Verif.Log.FailedLemmas
set_option linter.unusedSimpArgs false
set_option linter.unusedVariables false
/-! Property C162: loggers some of whose calls threw. -/
namespace Verif.Log
open Verif.Event (Table WF insert_spec disconnect_spec connect_some num_le wf_init sinkAt)

/-- In every history, exceptions included: no source carries more connections of the logger than it has registrations.  Unless the
logger is stuck, a source that did not refuse its registration carries as many as it has registrations if the logger has a sink, and
every source carries none if it has not. -/
theorem failed_connected {cap0 cap : Nat} (hcap0 : cap0 < 2 ^ 32) (hcap : cap < 2 ^ 32) {h : Told} {l : Logger}
    (r : FReach cap0 cap h l) (s : Nat) :
    (mine cap l s).length ≤ (regs l s).length ∧
    (l.ev.getNumSinks = 0 → h.stuck = false → mine cap l s = []) ∧
    (l.ev.getNumSinks ≠ 0 → h.stuck = false ∧ (s ∉ h.missed → (mine cap l s).length = (regs l s).length)) := by
  have w := r.inv hcap0 hcap
  rw [mine_count w.good, regs_count]
  refine ⟨?_, fun h0 hs => ?_, fun h0 => ⟨?_, fun hm => ?_⟩⟩
  · exact List.countP_mono_left fun x _ hx => by simp at hx ⊢; exact hx.1
  · rw [← List.length_eq_zero_iff, mine_count w.good, List.countP_eq_zero]
    intro x hx
    have hf : l.sink = false := by
      cases e : l.sink with
      | false => rfl
      | true => rw [w.stuck.mpr ⟨e, h0⟩] at hs; cases hs
    simp [w.off hf x hx]
  · cases e : h.stuck with
    | false => rfl
    | true => exact absurd (w.stuck.mp e).2 h0
  · apply List.countP_congr
    intro x hx
    simp only [decide_eq_true_eq]
    exact ⟨fun h => h.1, fun h1 => ⟨h1, w.all h0 x hx s h1 hm⟩⟩

/-- When `Connect` throws, and what.  A stuck logger throws `IllegalMethodCall`; one that has sinks throws exactly if the sink is null
or the limit is reached; one that has none, and is not stuck, throws exactly if a registered source has not room for all its
registrations, or the sink is null, or the limit is zero. -/
theorem failed_connect {cap0 cap : Nat} (hcap0 : cap0 < 2 ^ 32) (hcap : cap < 2 ^ 32) {h : Told} {l : Logger}
    (r : FReach cap0 cap h l) (k : Option Nat) :
    (h.stuck = true → l.connect cap0 cap k = (some .illegalMethodCall, 0, l)) ∧
    (l.ev.getNumSinks ≠ 0 → ((l.connect cap0 cap k).1 = none ↔ k.isSome ∧ l.ev.getNumSinks < cap0)) ∧
    (l.ev.getNumSinks = 0 → h.stuck = false →
      ((l.connect cap0 cap k).1 = none ↔ k.isSome ∧ 0 < cap0 ∧ ∀ s, (l.srcs s).getNumSinks + (regs l s).length ≤ cap)) := by
  have w := r.inv hcap0 hcap
  have ev : ((∃ e, l.ev.connect cap0 k = .error e) ↔ ¬ (k.isSome ∧ l.ev.num < cap0)) := by
    cases k with
    | none => simp [Table.connect]
    | some k =>
      rw [connect_some w.ev]
      have := num_le w.ev
      by_cases hn : l.ev.num = cap0
      · simp [hn]
      · simp [hn]; omega
  refine ⟨fun hs => ?_, fun h0 => ?_, fun h0 hs => ?_⟩
  · obtain ⟨h1, h2⟩ := w.stuck.mp hs
    simp [Logger.connect, h1, h2]
  · simp only [Table.getNumSinks] at h0 ⊢
    simp only [Logger.connect, if_neg h0]
    cases hc : l.ev.connect cap0 k with
    | error e => rw [hc] at ev; simpa using ev
    | ok q => rw [hc] at ev; simp at ev ⊢; exact ev
  · simp only [Table.getNumSinks] at h0 ⊢
    have hf : l.sink = false := by
      cases e : l.sink with
      | false => rfl
      | true => rw [w.stuck.mpr ⟨e, h0⟩] at hs; cases hs
    have room := connectAll_room (cap := cap) l.items l.srcs w.good.wf
    simp only [← regs_count l] at room
    rw [← room]
    rw [h0] at ev
    simp only [Logger.connect, if_pos h0, hf, Bool.false_eq_true, if_false]
    cases hq : (connectAll cap l.items l.srcs).1 with
    | some e => simp
    | none =>
      dsimp only
      cases hc : l.ev.connect cap0 k with
      | error e => rw [hc] at ev; simp at ev ⊢; exact ev
      | ok q => rw [hc] at ev; simp at ev ⊢; exact ⟨ev.1, by omega⟩

/-- What a `Connect` that throws leaves behind.  If the logger has sinks, or is stuck already, nothing changes.  Otherwise it stays
without sinks, is stuck from then on, and there is a number of registrations, in the order of their cookies, up to which the sources are connected and
beyond which they are not; if a source refused, it is the next one. -/
theorem failed_connect_effect {cap0 cap : Nat} (hcap0 : cap0 < 2 ^ 32) (hcap : cap < 2 ^ 32) {h : Told} {l : Logger}
    (r : FReach cap0 cap h l) (k : Option Nat) {e : LErr} (he : (l.connect cap0 cap k).1 = some e) :
    (l.ev.getNumSinks ≠ 0 ∨ h.stuck = true → (l.connect cap0 cap k).2.2 = l) ∧
    (l.ev.getNumSinks = 0 → h.stuck = false → (l.connect cap0 cap k).2.2.ev.getNumSinks = 0 ∧
      (h.next l (.connect k) (some e) (l.connect cap0 cap k).2.2).stuck = true ∧
      ∃ n, (∀ s, (mine cap (l.connect cap0 cap k).2.2 s).length =
          ((List.range' 1 n).filter fun c => regAt l c = some s).length) ∧
        ((∀ c, n < c → regAt l c = none) ∨
          ∃ s, regAt l (n + 1) = some s ∧ ((l.connect cap0 cap k).2.2.srcs s).getNumSinks = cap)) := by
  have w := r.inv hcap0 hcap
  refine ⟨fun hh => ?_, fun h0 hs => ?_⟩
  · rcases hh with h0 | hs
    · simp only [Table.getNumSinks] at h0
      simp only [Logger.connect, if_neg h0] at he ⊢
      cases hc : l.ev.connect cap0 k with
      | error e => rfl
      | ok q => rw [hc] at he; cases he
    · rw [(failed_connect hcap0 hcap r k).1 hs]
  · have h0' : l.ev.num = 0 := h0
    have hf : l.sink = false := by
      cases e : l.sink with
      | false => rfl
      | true => rw [w.stuck.mpr ⟨e, h0⟩] at hs; cases hs
    obtain ⟨g, m, i, i1, i2, i3, i4⟩ := good_connectAll_any l.items [] l.srcs w.good (w.off hf)
    simp only [List.nil_append] at g
    have hl : (l.connect cap0 cap k).2.2 =
        { l with sink := true, items := (connectAll cap l.items l.srcs).2.1, srcs := (connectAll cap l.items l.srcs).2.2 } := by
      simp only [Logger.connect, if_pos h0', hf, Bool.false_eq_true, if_false] at he ⊢
      cases hq : (connectAll cap l.items l.srcs).1 with
      | some e => rfl
      | none =>
        rw [hq] at he
        dsimp only at he ⊢
        cases hc : l.ev.connect cap0 k with
        | error e => rfl
        | ok q => rw [hc] at he; cases he
    rw [hl]
    refine ⟨h0, by simp [Told.next, h0], i, fun s => ?_, ?_⟩
    · rw [mine_count (l := { l with sink := true, items := (connectAll cap l.items l.srcs).2.1, srcs := (connectAll cap l.items l.srcs).2.2 }) g,
        regs_take l s i i1]
      dsimp only
      have hlen := congrArg List.length m
      simp only [List.length_map] at hlen
      have e1 : (connectAll cap l.items l.srcs).2.1 =
          (connectAll cap l.items l.srcs).2.1.take i ++ (connectAll cap l.items l.srcs).2.1.drop i := by simp
      rw [e1, List.countP_append]
      have z : ((connectAll cap l.items l.srcs).2.1.drop i).countP (fun x => decide (x.1 = some s ∧ x.2 ≠ 0)) = 0 := by
        rw [List.countP_eq_zero]
        intro x hx
        obtain ⟨j, hj⟩ := List.getElem?_of_mem hx
        rw [List.getElem?_drop] at hj
        have := i2 _ x hj
        have h2 : ¬ x.2 ≠ 0 := fun hh => by have := (this.mp hh).1; omega
        simp [not_not.mp h2]
      rw [z, Nat.add_zero]
      have m' : ((connectAll cap l.items l.srcs).2.1.take i).map (·.1) = (l.items.take i).map (·.1) := by
        rw [List.map_take, List.map_take, m]
      have cm : ∀ q : List (Option Nat × Nat), (q.countP fun x => x.1 = some s) = (q.map (·.1)).countP fun x => x = some s := by
        intro q; rw [List.countP_map]; rfl
      rw [cm, ← m', ← cm]
      apply List.countP_congr
      intro x hx
      simp only [decide_eq_true_eq]
      refine ⟨fun h => h.1, fun h1 => ⟨h1, ?_⟩⟩
      obtain ⟨j, hj⟩ := List.getElem?_of_mem hx
      rw [List.getElem?_take] at hj
      split at hj
      · rename_i hji
        exact (i2 j x hj).mpr ⟨hji, by simp [h1]⟩
      · cases hj
    · cases hq : (connectAll cap l.items l.srcs).1 with
      | none =>
        left
        intro c hc
        have := i3 hq
        unfold regAt
        rw [if_neg (by omega), List.getElem?_eq_none (by omega)]; rfl
      | some e' =>
        right
        obtain ⟨-, s, e1, e2⟩ := i4 e' hq
        exact ⟨s, by simpa [regAt] using e1, e2⟩

/-- Any call of `Disconnect` on a logger without sinks – and one that takes its last sink – ends it: no source carries a connection of
the logger, the logger is not stuck, and the registrations are as they were. -/
theorem failed_recover {cap0 cap : Nat} (hcap0 : cap0 < 2 ^ 32) (hcap : cap < 2 ^ 32) {h : Told} {l : Logger}
    (r : FReach cap0 cap h l) (c : Nat) :
    (l.ev.getNumSinks = 0 → (l.disconnect c).ev.getNumSinks = 0) ∧
    ((l.disconnect c).ev.getNumSinks = 0 → (∀ s, mine cap (l.disconnect c) s = []) ∧ (∀ c', regAt (l.disconnect c) c' = regAt l c') ∧
      ∀ k, ((l.disconnect c).connect cap0 cap k).1 ≠ some .illegalMethodCall) := by
  have w := r.inv hcap0 hcap
  have r' : FReach cap0 cap (h.next l (.disconnect c) none (l.disconnect c)) (l.disconnect c) :=
    r.step (o := .disconnect c) (k := 0) trivial rfl
  refine ⟨fun h0 => ?_, fun h0 => ?_⟩
  · have h1 : l.ev.num = 0 := h0
    have e := disconnect_empty hcap0 w.ev h1 c
    simp only [Logger.disconnect, e, h1, if_true, Table.getNumSinks]
  · have hs : (h.next l (.disconnect c) none (l.disconnect c)).stuck = false := by simp [Told.next, h0]
    refine ⟨fun s => (failed_connected hcap0 hcap r' s).2.1 h0 hs, C73_registered (cap0 := cap0) (cap := cap) l (.disconnect c) (e := none) (k := 0) rfl, fun k he => ?_⟩
    have w' := r'.inv hcap0 hcap
    have hf : (l.disconnect c).sink = false := by
      cases e : (l.disconnect c).sink with
      | false => rfl
      | true => rw [w'.stuck.mpr ⟨e, h0⟩] at hs; cases hs
    have h0' : (l.disconnect c).ev.num = 0 := h0
    simp only [Logger.connect, if_pos h0', hf, Bool.false_eq_true, if_false] at he
    cases hq : (connectAll cap (l.disconnect c).items (l.disconnect c).srcs).1 with
    | some e =>
      obtain ⟨g, m, i, i1, i2, i3, i4⟩ := good_connectAll_any (l.disconnect c).items [] (l.disconnect c).srcs w'.good (w'.off hf)
      have := (i4 e hq).1
      rw [hq] at he
      cases he
      cases this
    | none =>
      rw [hq] at he
      dsimp only at he
      cases hc : (l.disconnect c).ev.connect cap0 k with
      | error e => rw [hc] at he; cases he
      | ok q => rw [hc] at he; cases he

/-- `RegisterSource` throws exactly if the logger has a sink, or is stuck, and the source has no room.  A call that throws registers
the source nevertheless, under a cookie that the caller does not get, and connects nothing. -/
theorem failed_register {cap0 cap : Nat} (hcap0 : cap0 < 2 ^ 32) (hcap : cap < 2 ^ 32) {h : Told} {l : Logger}
    (r : FReach cap0 cap h l) (s : Nat) :
    ((l.register cap (some s)).1 ≠ none ↔ (l.ev.getNumSinks ≠ 0 ∨ h.stuck = true) ∧ (l.srcs s).getNumSinks = cap) ∧
    ((l.register cap (some s)).1 ≠ none → (l.register cap (some s)).2.2.srcs = l.srcs ∧ (l.register cap (some s)).2.2.ev = l.ev ∧
      ∃ c, c ≠ 0 ∧ regAt l c = none ∧ ∀ c', regAt (l.register cap (some s)).2.2 c' = if c' = c then some s else regAt l c') := by
  have w := r.inv hcap0 hcap
  have hon : (l.ev.getNumSinks ≠ 0 ∨ h.stuck = true) ↔ l.sink = true := by
    rw [w.stuck]
    constructor
    · rintro (h0 | h0)
      · exact w.on h0
      · exact h0.1
    · intro hs
      by_cases h0 : l.ev.num = 0
      · exact Or.inr ⟨hs, h0⟩
      · exact Or.inl h0
  have h2 := C73_registered (cap0 := cap0) (cap := cap) l (.register (some s)) (e := (l.register cap (some s)).1)
    (k := (l.register cap (some s)).2.1) (l' := (l.register cap (some s)).2.2) rfl
  refine ⟨?_, fun he => ?_⟩
  · rw [hon]
    unfold Logger.register
    by_cases hs : l.sink = true
    · simp only [hs, if_true, true_and, Table.getNumSinks]
      rw [connect_some (w.good.wf s)]
      by_cases hn : (l.srcs s).num = cap
      · simp [hn]
      · simp [hn]
    · simp [hs]
  · refine ⟨?_, ?_, _, h2.1, h2.2.1, h2.2.2⟩
    all_goals
      unfold Logger.register at he ⊢
      by_cases hs : l.sink = true
      · simp only [hs, if_true] at he ⊢
        cases hc : (l.srcs s).connect cap (some .me) with
        | error e => rfl
        | ok q => first | (rw [hc] at he; exact absurd rfl he) | rfl
      · simp [hs] at he

/-- The claim that a call that throws has no effect fails.  A full source is registered by a call that throws; the sink goes and comes
back, and now `Connect` throws as well, and goes on throwing after the sink was disconnected, though it worked before. -/
theorem failed_register_fails :
    (Logger.runs 8 1 .init [.srcConnect 5 1, .connect (some 9), .register (some 5), .disconnect 1, .connect (some 9),
      .disconnect 0, .connect (some 9)]).map (·.1) =
    some [none, none, some (.event .connectionLimit), none, some (.event .connectionLimit), none, some (.event .connectionLimit)] := by
  decide

/-- Without the call that throws the sink comes back. -/
example : (Logger.runs 8 1 .init [.srcConnect 5 1, .connect (some 9), .disconnect 1, .connect (some 9)]).map (·.1) =
    some [none, none, none, none] := by decide

/-- A `Connect` that throws because one source is full leaves the sources before it connected. -/
theorem failed_connect_fails :
    (Logger.runs 8 1 .init [.srcConnect 6 1, .register (some 5), .register (some 6), .register (some 7), .connect (some 9)]).map
      (fun r => (r.1.getLast?, r.2.ev.getNumSinks, mine 1 r.2 5, mine 1 r.2 6, mine 1 r.2 7)) =
    some (some (some (.event .connectionLimit)), 0, [1], [], []) := by decide

/-- A history as in the theorems: the logger is stuck after a null sink, has missed the registration of a full source, and a `Disconnect`
ends it. -/
example : ∃ h l, FReach 8 1 h l ∧ h = ⟨true, [5]⟩ ∧ mine 1 l 6 = [1] ∧ mine 1 (l.disconnect 0) 6 = [] := by
  refine ⟨_, _, (((FReach.init.step (o := .srcConnect 5 1) trivial rfl).step (o := .register (some 6)) trivial rfl).step
    (o := .connect none) trivial rfl).step (o := .register (some 5)) trivial rfl, ?_, ?_, ?_⟩ <;> decide

end Verif.Log
