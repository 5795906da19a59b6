import Verif.Event.Destroy
import Verif.Event.ThrowProps
set_option linter.unusedSimpArgs false
/-!
Property C145: sinks may use the event in their destructors.

`disc cap D n [] t c` is `Disconnect(c)` where the destructors of the sinks do `D`, within the fuel
`n`.
-/
namespace Verif.Event
variable {σ : Type}

theorem run_append (cap : Nat) (t : Table σ) (a b : List (Op σ)) : t.run cap (a ++ b) = (t.run cap a).run cap b := by
  simp [Table.run]

theorem reachable_run {cap : Nat} {t : Table σ} (hr : Reachable cap t) (ops : List (Op σ)) : Reachable cap (t.run cap ops) := by
  obtain ⟨a, rfl⟩ := hr
  exact ⟨a ++ ops, by rw [run_append]⟩

/-- C145, consistency.  Whatever the destructors connect and disconnect inside of `Disconnect(c)`, to any
depth, if it ends then `c` is not connected, connections that no destructor removes are as before, and
the event is the one that results when the destructor does what it does (apart from connects that are
refused) before `Disconnect(c)`. -/
theorem C145_consistent {cap : Nat} (hcap : cap < 2 ^ 32) (D : Destructors σ) (n : Nat) {t : Table σ}
    (hr : Reachable cap t) (c : Nat) {t' : Table σ} (h : disc cap D n [] t c = .ok t') :
    Reachable cap t' ∧ sinkAt t' c = none ∧
    (∀ c' s, c' ≠ c → sinkAt t c' = some s → (∀ u dy x, Op.disconnect c' ∉ D u dy x) → sinkAt t' c' = some s) ∧
    ∃ ops, t' = t.run cap (ops ++ [.disconnect c]) ∧ ∀ o ∈ ops, ∃ u dy s, o ∈ D u dy s := by
  have w := hr.wf hcap
  have hm : Mid cap [] t := ⟨w, List.nodup_nil, by simp⟩
  obtain ⟨_, R, ops, rfl, hfrom⟩ := (destroy_spec hcap D n).1 [] t c t' hm h
  have e : t' = t.run cap (ops ++ [.disconnect c]) := R.run
  have hr1 := reachable_run hr ops
  have hd := (C35_disconnect hcap hr1 c).1
  have e' : t' = (t.run cap ops).disconnect c := by rw [e, run_append]; rfl
  refine ⟨by rw [e]; exact reachable_run hr _, by rw [e', hd, if_pos rfl], ?_, ops, e, hfrom⟩
  intro c' s hne hs hD
  rw [e', hd, if_neg hne]
  rw [sinkAt_eq] at hs ⊢
  by_cases h0 : c' = 0
  · simp [h0] at hs
  · rw [if_neg h0] at hs ⊢
    refine run_keep w hcap hs ?_
    rw [show c' - 1 + 1 = c' by omega]
    intro hm
    obtain ⟨u, dy, x, hx⟩ := hfrom _ hm
    exact hD u dy x hx

/-- C145, the part that holds of disconnects: no sink is released twice as long as no destructor disconnects
a connection whose sink is being destroyed.  Missing: destructors that disconnect their own connection (see
`C145_self_fails`). -/
theorem C145_alive_partial {cap : Nat} (D : Destructors σ)
    (hD : ∀ t dy s c, Op.disconnect c ∈ D t dy s → dec32 c ∉ dy) (n : Nat) (t : Table σ) (c : Nat) :
    disc cap D n [] t c ≠ .dead :=
  (destroy_alive D hD n).1 [] t c (by simp)

/-- The event as the destructor of the sink `c` finds it; /repo/event/event.h 143-151. -/
def Table.destroying (t : Table σ) : Table σ := { t with num := t.num - 1 }

theorem destroying_mid {cap : Nat} (hcap : cap < 2 ^ 32) {t : Table σ} (hr : Reachable cap t) {c : Nat}
    (hc : (sinkAt t c).isSome) : Mid cap [c - 1] t.destroying := by
  have w := hr.wf hcap
  rw [sinkAt_eq] at hc
  by_cases h0 : c = 0
  · simp [h0] at hc
  rw [if_neg h0] at hc
  have hl : [c - 1].length ≤ t.num := live_length w (by simp) (by simpa using hc)
  have e : t.destroying.up [c - 1] = t := by
    simp only [Table.destroying, Table.up, List.length_singleton] at hl ⊢
    rw [Nat.sub_add_cancel hl]
  exact ⟨by rw [e]; exact w, by simp, fun i hi => by rw [List.mem_singleton.1 hi]; exact hc⟩

/-- What a destructor does, it does in that state. -/
theorem disc_acts {cap : Nat} (D : Destructors σ) (n : Nat) {t : Table σ} {c : Nat} {s : σ}
    (hs : sinkAt t c = some s) (t1 : Table σ) (h1 : acts cap D n [c - 1] t.destroying (D t [c - 1] s) = .ok t1) :
    disc cap D (n + 1) [] t c = .ok ⟨t1.slots.set (c - 1) none, t1.num, shrink (t1.slots.set (c - 1) none) t1.last⟩ := by
  rw [sinkAt_eq] at hs
  by_cases h0 : c = 0
  · simp [h0] at hs
  rw [if_neg h0] at hs
  have hd : dec32 c = c - 1 := by rw [dec32, if_neg h0]
  have hlt := sl_lt (i := c - 1) (t := t) (by rw [hs]; rfl)
  simp only [disc, hd, hlt, if_true, slots_of_sl hs, List.not_mem_nil, if_false]
  simp only [Table.destroying] at h1
  rw [h1]

/-- C145, the part that holds of connects: the destructor of a sink can connect another sink if there have been
more connections before.  Missing: otherwise it cannot, whatever the capacity (see `C145_connect_fails`). -/
theorem C145_connect_partial {cap : Nat} (hcap : cap < 2 ^ 32) {t0 : Table σ} (hr : Reachable cap t0)
    (ops : List (Op σ)) (hlt : (t0.run cap ops).getNumSinks < t0.getNumSinks) (c : Nat)
    (hc : (sinkAt (t0.run cap ops) c).isSome) (s : σ) :
    ∃ x, (t0.run cap ops).destroying.connect cap (some s) = .ok x := by
  have hr' := reachable_run hr ops
  have hm := destroying_mid hcap hr' hc
  have hiff := connect_mid_fails (by simp) hm s
  cases hx : (t0.run cap ops).destroying.connect cap (some s) with
  | ok x => exact ⟨x, rfl⟩
  | error e =>
    exfalso
    have w := hr'.wf hcap
    have w0 := hr.wf hcap
    have he : e = .connectionLimit := by
      simp only [Table.connect] at hx
      split at hx
      · injection hx with hx; exact hx.symm
      · split at hx
        · injection hx with hx; exact hx.symm
        · cases hx
    rw [hx, he] at hiff
    have hall := hiff.1 rfl
    have : (t0.run cap ops).num = (t0.run cap ops).slots.length := by
      rw [w.num, List.countP_eq_length]
      intro o ho
      obtain ⟨i, hi, rfl⟩ := List.getElem_of_mem ho
      have := hall i hi
      rw [Table.sl] at this
      simp only [Table.destroying, List.getElem?_eq_getElem hi, Option.join_some] at this
      exact this
    have hg : t0.slots.length ≤ (t0.run cap ops).slots.length := run_grow cap ops t0
    have h0 : t0.num ≤ t0.slots.length := by rw [w0.num]; exact List.countP_le_length
    simp only [Table.getNumSinks] at hlt
    omega

/-- C145 is false of connects: the destructor of the only sink of an event cannot connect another sink, whatever
the capacity; after the `Disconnect` there is no sink at all. -/
theorem C145_connect_fails (cap : Nat) (hcap : 0 < cap) (a b : σ) (D : Destructors σ) (hD : ∀ t dy, D t dy a = [.connect (some b)]) :
    let t : Table σ := Table.init.run cap [.connect (some a)]
    sinkAt t 1 = some a ∧ t.destroying.connect cap (some b) = .error .connectionLimit ∧
    disc cap D 4 [] t 1 = .ok ⟨[none], 0, 0⟩ := by
  intro t
  have e : t = ⟨[some a], 1, 1⟩ := by
    simp only [t, Table.run, List.foldl_cons, List.foldl_nil, Table.apply, Table.connect, Table.init]
    rw [if_neg (by omega)]; rfl
  have hc : t.destroying.connect cap (some b) = .error .connectionLimit := by
    rw [e]
    show Table.connect cap (⟨[some a], 0, 1⟩ : Table σ) (some b) = _
    rw [Table.connect, if_neg (by simp only; omega)]; rfl
  refine ⟨by rw [e]; rfl, hc, ?_⟩
  refine (disc_acts D 3 (s := a) (by rw [e]; rfl) t.destroying ?_).trans (by rw [e]; rfl)
  rw [hD, acts, hc]
  rfl

/-- C145 is false of disconnects: a sink whose destructor disconnects it (as the destructor of a component that
disconnects all of its connections does) is released again while it is being destroyed. -/
theorem C145_self_fails :
    let t : Table Char := Table.init.run 4 [.connect (some 'a'), .connect (some 'b')]
    disc 4 (fun _ _ s => if s = 'a' then [.disconnect 2, .disconnect 1] else []) 9 [] t 1 = .dead := by
  intro t; rfl

/-- C145, capacity one: the destructor of the sink cannot connect another one, ever, and disconnecting again
releases the sink twice. -/
theorem C145_one_fails (D : σ → List (Op σ)) (s : σ) :
    ((∀ c, Op.disconnect c ∈ D s → c ≠ 1) → (⟨some s⟩ : One σ).disc D 1 = .ok ⟨none⟩) ∧
    (Op.disconnect 1 ∈ D s → (⟨some s⟩ : One σ).disc D 1 = .dead) := by
  have h1 : ∀ os : List (Op σ), (∀ c, Op.disconnect c ∈ os → c ≠ 1) → (⟨some s⟩ : One σ).acts os = .ok ⟨some s⟩ := by
    intro os
    induction os with
    | nil => intro _; rfl
    | cons o r ih =>
      intro h
      have := ih (fun c hc => h c (List.mem_cons_of_mem _ hc))
      cases o with
      | connect x => cases x <;> simp [One.acts, One.connect, this]
      | disconnect c => simp [One.acts, h c List.mem_cons_self, this]
  have h2 : ∀ os : List (Op σ), Op.disconnect 1 ∈ os → (⟨some s⟩ : One σ).acts os = .dead := by
    intro os
    induction os with
    | nil => intro h; cases h
    | cons o r ih =>
      intro h
      cases o with
      | connect x =>
        have := ih (by simpa using h)
        cases x <;> simp [One.acts, One.connect, this]
      | disconnect c =>
        by_cases e : c = 1
        · simp [One.acts, e]
        · have := ih (by rcases List.mem_cons.1 h with h | h; cases h; exact absurd rfl e; exact h)
          simp [One.acts, e, this]
  constructor
  · intro h; simp [One.disc, h1 _ h]
  · intro h; simp [One.disc, h2 _ h]

/-! ### Instances -/

/-- Four sinks; the destructor of the first disconnects the third, whose destructor disconnects the fourth and
connects a sink in the place of the second, which was removed before. -/
example : disc 4 (fun _ _ s => if s = 'a' then [.disconnect 3] else if s = 'c' then [.disconnect 4, .connect (some 'e')] else [])
    9 [] (Table.init.run 4 [.connect (some 'a'), .connect (some 'b'), .connect (some 'c'), .connect (some 'd'), .disconnect 2]) 1 =
    .ok ⟨[none, some 'e', none, none], 1, 2⟩ := rfl

end Verif.Event
