import Verif.Event.ThrowLemmas
import Verif.Event.Props
set_option linter.unusedSimpArgs false
/-!
Property C144: events survive sinks that throw and `Connect` without memory.

`args` tells `Fire(args...)` from `Fire(void)`; `fire args cap P n d tr t` is a `Fire` of depth `d`
after the calls `tr`; `callsAt d` are the cookies called by it, without those called by the `Fire`s
inside of it.
-/
namespace Verif.Event
variable {σ : Type}

/-- C144, consistency.  Whatever the sinks do - connect with or without memory, disconnect, fire the
event again to any depth, catch exceptions or not, throw - when `Fire` ends, by an exception or not,
the event is one that connects and disconnects alone can produce, so that C34 and C35 hold of it. -/
theorem C144_consistent (args : Bool) {cap : Nat} (hcap : cap < 2 ^ 32) (P : Sinks σ) (n d : Nat) (tr : List Ev)
    {t : Table σ} (hr : Reachable cap t) {b : Bool} {tr' : List Ev} {t' : Table σ}
    (h : fire args cap P n d tr t = .ended b tr' t') : Reachable cap t' := by
  have := (spec (args := args) (P := P) (safe := fun _ => False) hcap (by simp) n).2 d 0 tr t (hr.wf hcap)
  rw [fire] at h
  rw [h] at this
  obtain ⟨_, _, ⟨ops', rfl, _⟩, _⟩ := this
  obtain ⟨ops, rfl⟩ := hr
  exact ⟨ops ++ ops', by simp [Table.run]⟩

/-- C144, the calls.  When `Fire` ends, the sinks it called were called in the order of their cookies and
none twice.  If it ends without an exception, no sink it called threw, and every sink connected at the
start of which the sinks keep away was called.  If it ends with an exception, that is the exception of
the sink called last, which was the last thing that happened, and every such sink with a smaller cookie
was called.  An exception of a sink is never swallowed. -/
theorem C144_fire (args : Bool) {cap : Nat} (hcap : cap < 2 ^ 32) (P : Sinks σ) (n d : Nat) (tr : List Ev)
    {t : Table σ} (hr : Reachable cap t) {b : Bool} {tr' : List Ev} {t' : Table σ}
    (h : fire args cap P n d tr t = .ended b tr' t') :
    ∃ new, tr' = tr ++ new ∧ (callsAt d new).Pairwise (· < ·) ∧ (∀ c ∈ callsAt d new, c ≠ 0 ∧ c ≤ cap) ∧
      (b = false → (∀ c, Ev.ret d c true ∉ new) ∧
        ∀ c, (sinkAt t c).isSome → (∀ tr s, (P tr s).Spares c) → c ∈ callsAt d new) ∧
      (b = true → ∃ pre c, callsAt d new = pre ++ [c] ∧ new.getLast? = some (.ret d c true) ∧
        ∀ c' < c, (sinkAt t c').isSome → (∀ tr s, (P tr s).Spares c') → c' ∈ callsAt d new) := by
  have := (spec (args := args) (P := P) (safe := fun c => ∀ tr s, (P tr s).Spares c) hcap
    (fun c h => h) n).2 d 0 tr t (hr.wf hcap)
  rw [fire] at h
  rw [h] at this
  obtain ⟨new, e, -, -, p, r, f, th, x⟩ := this
  refine ⟨new, e, p, fun c hc => by have := r c hc; omega, ?_, ?_⟩
  · intro hb
    refine ⟨fun c hc => by have := x c hc; simp [hb] at this, ?_⟩
    intro c hc hs
    rw [sinkAt_eq] at hc
    by_cases e : c = 0
    · simp [e] at hc
    · rw [if_neg e] at hc
      obtain ⟨s, hx⟩ := Option.isSome_iff_exists.mp hc
      have := f hb (c - 1) s (Nat.zero_le _) hx (by rw [show c - 1 + 1 = c by omega]; exact hs)
      rwa [show c - 1 + 1 = c by omega] at this
  · intro hb
    obtain ⟨pre, c, h1, h2, h3⟩ := th hb
    refine ⟨pre, c, h1, h2, ?_⟩
    intro c' hlt hc hs
    rw [sinkAt_eq] at hc
    by_cases e : c' = 0
    · simp [e] at hc
    · rw [if_neg e] at hc
      obtain ⟨s, hx⟩ := Option.isSome_iff_exists.mp hc
      have := h3 (c' - 1) s (Nat.zero_le _) (by omega) hx (by rw [show c' - 1 + 1 = c' by omega]; exact hs)
      rwa [show c' - 1 + 1 = c' by omega] at this

/-- C144, safety of `Fire(void)`: no null or out-of-range sink is ever used, at any depth. -/
theorem C144_void {cap : Nat} (hcap : cap < 2 ^ 32) (P : Sinks σ) (n d : Nat) (tr : List Ev)
    {t : Table σ} (hr : Reachable cap t) : fire false cap P n d tr t ≠ .fault :=
  (void_ok hcap n).2 d 0 tr t (hr.wf hcap)

/-- C144, safety of `Fire(args...)`, the part that holds: as long as the sinks keep away from a
connection and from all connections with higher cookies.  Missing: sinks that disconnect the
connection with the highest cookie (see `C36_fire_args_fails`). -/
theorem C144_args_partial {cap : Nat} (hcap : cap < 2 ^ 32) (P : Sinks σ) (n d : Nat) (tr : List Ev)
    {t : Table σ} (hr : Reachable cap t) (k : Nat) (hk : (sinkAt t k).isSome)
    (hd : ∀ c, k ≤ c → ∀ tr s, (P tr s).Spares c) : fire true cap P n d tr t ≠ .fault := by
  have w := hr.wf hcap
  rw [sinkAt_eq] at hk
  by_cases k0 : k = 0
  · simp [k0] at hk
  rw [if_neg k0] at hk
  have hkl := w.lt_last hk
  exact (args_ok hcap k k0 hd n).2 d 0 tr t w (by omega) (by omega)

/-- C144, termination.  `Fire` ends when the sinks do not fire the event again, whatever they connect
(and sinks connected while firing may be called). -/
theorem C144_ends (args : Bool) {cap : Nat} (hcap : cap < 2 ^ 32) (P : Sinks σ) (hP : ∀ tr s, (P tr s).Flat)
    (d : Nat) (tr : List Ev) {t : Table σ} (hr : Reachable cap t) :
    ∃ n, ∀ m, n ≤ m → fire args cap P m d tr t ≠ .running := by
  obtain ⟨n, h⟩ := loop_ends (args := args) hcap hP d cap 0 tr t (hr.wf hcap) (by omega)
  exact ⟨n, fun m hm => by rw [fire, loop_fuel hm h]; exact h⟩

/-- A `Fire` that has ended does not depend on the fuel. -/
theorem C144_fuel (args : Bool) (cap : Nat) (P : Sinks σ) (n m d : Nat) (tr : List Ev) (t : Table σ) (h : n ≤ m)
    (hr : fire args cap P n d tr t ≠ .running) : fire args cap P m d tr t = fire args cap P n d tr t :=
  loop_fuel h hr

theorem apply_grow (cap : Nat) (t : Table σ) (o : Op σ) : t.slots.length ≤ (t.apply cap o).slots.length := by
  cases o with
  | disconnect c =>
    simp only [Table.apply, Table.disconnect]
    split
    · split <;> simp
    · exact Nat.le_refl _
  | connect s =>
    simp only [Table.apply]
    cases s with
    | none => simp [Table.connect]
    | some s =>
      simp only [Table.connect]
      by_cases h : t.num = cap
      · simp [h]
      · simp only [h, if_false]
        by_cases h0 : (t.insert s).1 = 0
        · simp [h0]
        · simp only [h0, if_false]
          simp only [Table.insert]
          split
          · split <;> simp
          · simp

theorem run_grow (cap : Nat) (ops : List (Op σ)) : ∀ t : Table σ, t.slots.length ≤ (t.run cap ops).slots.length := by
  induction ops with
  | nil => intro t; exact Nat.le_refl _
  | cons o ops ih => intro t; exact Nat.le_trans (apply_grow cap t o) (ih _)

/-- C144, `Connect` without memory.  It does what it does with memory, or reports `ConnectionLimit` (and
then nothing has changed).  It needs no memory if there have been more connections before. -/
theorem C144_connect {cap : Nat} (hcap : cap < 2 ^ 32) (t : Table σ) (s : Option σ) (mem : Bool) :
    (t.connectM cap s mem = t.connect cap s ∨ t.connectM cap s mem = .error .connectionLimit) ∧
    t.connectM cap s true = t.connect cap s ∧
    (∀ t0 ops, Reachable cap t0 → t = t0.run cap ops → t.getNumSinks < t0.getNumSinks →
      t.connectM cap s mem = t.connect cap s) := by
  refine ⟨connectM_cases cap t s mem, ?_, ?_⟩
  · cases s with
    | none => rfl
    | some s => simp only [Table.connectM, Table.connect, or_true, if_true]
  · intro t0 ops h0 e hlt
    have w0 := h0.wf hcap
    have hg := run_grow cap ops t0
    rw [← e] at hg
    have : t0.num ≤ t0.slots.length := by rw [w0.num]; exact List.countP_le_length
    simp only [Table.getNumSinks] at hlt
    cases s with
    | none => rfl
    | some s => simp only [Table.connectM, Table.connect, show t.num < t.slots.length by omega, true_or, if_true]

/-- C144, a portainer without memory: `Add` does what it does with memory, or returns the cookie 0 and has
changed nothing. -/
theorem C144_add (cap : Nat) (t : Table σ) (x : σ) (mem : Bool) :
    (t.addM cap x mem = t.add cap x ∨ t.addM cap x mem = (0, t)) ∧ t.addM cap x true = t.add cap x := by
  simp only [Table.addM, Table.add]
  refine ⟨?_, by simp⟩
  by_cases h : t.num < cap
  · by_cases h2 : t.num < t.slots.length ∨ mem = true
    · left; simp [h, h2]
    · right; simp [h, h2]
  · left; simp [h]

/-! ### Instances -/

/-- Three sinks; the second fires the event again, where the first throws, catches that, and disconnects
the third. -/
example : fire false 4
    (fun tr s => if s = 'a' then (if tr = [] then .ret else .throw)
      else .fire fun b => if b then .disconnect 3 .ret else .throw) 20 0 []
    (Table.init.run 4 [.connect (some 'a'), .connect (some 'b'), .connect (some 'c')]) =
    .ended false [.call 0 1, .ret 0 1 false, .call 0 2, .call 1 1, .ret 1 1 true, .ret 0 2 false]
      ⟨[some 'a', some 'b', none], 2, 2⟩ := rfl

/-- The second of three sinks connects another one for which there is no memory, and throws. -/
example : fire true 4
    (fun _ s => if s = 'b' then .connect (some 'd') false (fun r => match r with | .ok _ => .ret | .error _ => .throw)
      else .ret) 20 0 []
    (Table.init.run 4 [.connect (some 'a'), .connect (some 'b'), .connect (some 'c')]) =
    .ended true [.call 0 1, .ret 0 1 false, .call 0 2, .ret 0 2 true]
      ⟨[some 'a', some 'b', some 'c'], 3, 3⟩ := rfl

/-- A connection in the place of a removed one needs no memory. -/
example : (Table.init.run 4 [.connect (some 'a'), .connect (some 'b'), .disconnect 1]).connectM 4 (some 'c') false =
    .ok (1, ⟨[some 'c', some 'b'], 2, 2⟩) := rfl

end Verif.Event
