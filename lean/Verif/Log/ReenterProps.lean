import Verif.Log.ReenterSafe
/-!
**C168.**  Pending values, filters and sinks may use the logger that calls them.

The functors of pending values, the filter and the sinks of a logger may add, update and remove pending values, set the filter, connect and
disconnect sinks, fire further records at the logger and throw, while the logger calls them.
-/
namespace Verif.Log.Re
variable {cap : Nat} {own : Who → Bool} {P : Progs}

/-- A logger as calls from outside make it.  (Specification; no code.) -/
def Reach (cap : Nat) (l : Lg) : Prop := ∃ as, l = Lg.init.acts cap as

theorem Reach.ok (hcap : cap < 2 ^ 32) {l : Lg} (h : Reach cap l) : Ok cap l := by
  obtain ⟨as, rfl⟩ := h; exact Ok.init.acts hcap as

/-- **C168, the calls take effect.**  When a `Fire` ends, by an exception or not, the logger is as the calls that the callees made, one after the
other, make it: firing itself changes nothing, and no call is lost.  In particular it is a logger that calls from outside can produce. -/
theorem C168_effect (hcap : cap < 2 ^ 32) {l : Lg} (h : Reach cap l) {n d : Nat} {stk : List Who} {r : Rec} {tr : List Ev} {o : Option Unit}
    {tr' : List Ev} {l' : Lg} (hf : fire cap own P n d stk r tr l = .ended o tr' l') :
    (∃ new, tr' = tr ++ new ∧ l' = l.acts cap (actsOf new)) ∧ Reach cap l' := by
  have := (spec (own := own) (P := P) hcap n).2.2.2 d stk r tr l (h.ok hcap)
  rw [hf] at this
  obtain ⟨new, e1, e2, -⟩ := this
  obtain ⟨as, rfl⟩ := h
  exact ⟨⟨new, e1, e2⟩, as ++ actsOf new, by rw [e2, acts_append]⟩

/-- **C168, a record.**  A `Fire` that ends without an exception has three parts.  First every pending value is called once and its result
added to the record, unless the record has a value of that name.  Then the filter is asked, once, if there is one: the one that is set at
that moment.  Then, if there was none or it accepted, the sinks are called in the order of their cookies.  The filter and all sinks get
the same record, whatever was done to the pending values meanwhile. -/
theorem C168_fire (hcap : cap < 2 ^ 32) {l : Lg} (h : Reach cap l) {n d : Nat} {stk : List Who} {r : Rec} {tr : List Ev}
    {tr' : List Ev} {l' : Lg} (hf : fire cap own P n d stk r tr l = .ended (some ()) tr' l') :
    ∃ a b c vs r', tr' = tr ++ (a ++ b ++ c) ∧ Applied cap d l r a vs r' ∧
      match (generalizing := false) (l.acts cap (actsOf a)).filter with
      | none => b = [] ∧ ∃ cs, Delivered cap d (l.acts cap (actsOf a)) r' false c cs
      | some f => ∃ x, callsAt d b = [(.filter f, 0, r')] ∧ retsAt d b = [(.filter f, 0, some x)] ∧
          (x ≠ 1 → c = []) ∧ (x = 1 → ∃ cs, Delivered cap d (l.acts cap (actsOf (a ++ b))) r' false c cs) := by
  have := (spec (own := own) (P := P) hcap n).2.2.2 d stk r tr l (h.ok hcap)
  rw [hf] at this
  obtain ⟨new, e1, -, -, -, hs⟩ := this
  obtain ⟨a, b, c, vs, r', rfl, hap, -, -, hm⟩ := hs (by simp)
  refine ⟨a, b, c, vs, r', e1, hap, ?_⟩
  cases hx : (l.acts cap (actsOf a)).filter with
  | none => rw [hx] at hm; exact hm
  | some f => rw [hx] at hm; exact hm

/-- **C168, exceptions.**  `Fire` ends with an exception exactly if a callee of this `Fire` threw, which then was the last thing that happened.
No exception of a callee is swallowed, and none comes from the logger. -/
theorem C168_throw (hcap : cap < 2 ^ 32) {l : Lg} (h : Reach cap l) {n d : Nat} {stk : List Who} {r : Rec} {tr : List Ev} {o : Option Unit}
    {tr' : List Ev} {l' : Lg} (hf : fire cap own P n d stk r tr l = .ended o tr' l') :
    ∃ new, tr' = tr ++ new ∧ (o = none ↔ Threw d new) ∧ (o ≠ none → ∀ x ∈ retsAt d new, x.2.2 ≠ none) := by
  have := (spec (own := own) (P := P) hcap n).2.2.2 d stk r tr l (h.ok hcap)
  rw [hf] at this
  obtain ⟨new, e1, -, -, ht, hs⟩ := this
  have hr : o ≠ none → ∀ x ∈ retsAt d new, x.2.2 ≠ none := by
    intro ho
    obtain ⟨a, b, c, vs, r', -, -, -, hm, -⟩ := hs ho
    exact hm
  refine ⟨new, e1, ⟨ht, ?_⟩, hr⟩
  rintro ⟨x, c, hl⟩
  cases o with
  | none => rfl
  | some u =>
    exfalso
    refine hr (by simp) (x, c, none) ?_ rfl
    rw [retsAt, List.mem_filterMap]
    exact ⟨_, List.mem_of_getLast? hl, by simp⟩

/-- **C168 (partial), life.**  A callee is destroyed during its call only if no client holds it and a call gives up the reference of the
logger: `UpdateValue` or `RemoveValue` for a pending value, `SetFilter` for the filter, `Disconnect` for a sink.

Missing: that no callee is ever destroyed during its call, which is false (`C168_filter_fails`, `C168_update_fails`). -/
theorem C168_life_partial (hcap : cap < 2 ^ 32) {l : Lg} (h : Reach cap l) {n : Nat} {r : Rec} {tr : List Ev} {x : Who} {a : Act}
    (hf : fire cap own P n 0 [] r tr l = .dead x a) : own x = false ∧ a.releases x = true := by
  have := (lives (own := own) (P := P) hcap n).2.2.2 0 [] r tr l (h.ok hcap) (by simp)
  rw [hf] at this
  exact this

/-- **C168, life.**  If clients hold all callees, or no callee releases any, none is destroyed during its call. -/
theorem C168_life (hcap : cap < 2 ^ 32) {l : Lg} (h : Reach cap l)
    (hx : (∀ x, own x = true) ∨ ∀ tr x r, (P tr x r).All fun a => ∀ y, a.releases y = false) (n : Nat) (r : Rec) (tr : List Ev) (x : Who)
    (a : Act) : fire cap own P n 0 [] r tr l ≠ .dead x a := by
  intro hf
  obtain ⟨h1, h2⟩ := C168_life_partial hcap h hf
  rcases hx with hx | hx
  · rw [hx] at h1; cases h1
  · have := (made (cap := cap) (own := own) (P := P) hx n).2.2.2 0 [] r tr l
    rw [hf] at this
    rw [this x] at h2; cases h2

/-- **C168 (partial), safety.**  No invalid iterator and no null sink is used, whatever filter and sinks do, if the functors of pending values
add and remove no pending values (they may update those in `S`, names that are pending and that nobody removes) and fire nothing, and nobody
disconnects a certain connection and those with higher cookies (or anything).

Missing: functors that add or remove pending values (`C168_value_fails`), sinks that disconnect the highest cookie (`C36_fire_args_fails`). -/
theorem C168_safe_partial (hcap : cap < 2 ^ 32) {l : Lg} (h : Reach cap l) {k : Nat} {S : Nat → Prop}
    (hS : ∀ m, S m → ∃ v, (m, v) ∈ l.pend)
    (hk : (Event.sinkAt l.ev k).isSome ∨ k = 1)
    (hP : ∀ tr x r, (P tr x r).All fun a => (∀ c, k ≤ c → a ≠ .disconnect c) ∧ ∀ m, S m → a ≠ .remove m)
    (hV : ∀ tr v r, (P tr (.value v) r).Flat ∧ (P tr (.value v) r).All fun a => a.onKnown S)
    (n d : Nat) (stk : List Who) (r : Rec) (tr : List Ev) : fire cap own P n d stk r tr l ≠ .fault := by
  intro hf
  have hok := h.ok hcap
  have := (sound (own := own) hcap hP hV n).2.2.2 d stk r tr l hok (fun m hm => by obtain ⟨v, hv⟩ := hS m hm; exact has_names.2 (List.mem_map.2 ⟨_, hv, rfl⟩)) (by
    rcases hk with hk | hk
    · obtain ⟨s, hs⟩ := Option.isSome_iff_exists.1 hk
      obtain ⟨k0, hs⟩ := sinkAt_sl.1 hs
      have := hok.wf.lt_last (i := k - 1) (by simp [hs])
      omega
    · exact .inr hk)
  rw [hf] at this
  exact this

/-- **C168, termination.**  If no callee fires a record at the logger, `Fire` ends, whatever else the callees do. -/
theorem C168_ends (hcap : cap < 2 ^ 32) {l : Lg} (h : Reach cap l) (hP : ∀ tr x r, (P tr x r).Flat) (d : Nat) (stk : List Who) (r : Rec)
    (tr : List Ev) : ∃ res, res ≠ .running ∧ ∃ n, ∀ m, n ≤ m → fire cap own P m d stk r tr l = res :=
  fire_ends hcap hP r tr l (h.ok hcap)

/-! ### Where the code fails, and concrete cases -/

/-- Callees that do the same in each call: `p x` is the program of `x`.  (An example; no code.) -/
def const (p : Who → Script) : Progs := fun _ x _ => p x

/-- **C168 fails for functors:** a pending value whose functor adds another pending value, or removes its own name although a client holds
the value, invalidates the iterator of the loop that called it. -/
theorem C168_value_fails :
    fire 8 (fun _ => true) (const fun x => if x = .value 5 then .act (.add 2 6) (.ret 50) else .ret 1) 20 0 [] []  []
      (Lg.init.acts 8 [.add 1 5, .connect (some 7)]) = .fault ∧
    fire 8 (fun _ => true) (const fun x => if x = .value 5 then .act (.remove 1) (.ret 50) else .ret 1) 20 0 [] [] []
      (Lg.init.acts 8 [.add 1 5, .connect (some 7)]) = .fault := by
  constructor <;> decide +kernel

/-- **C168 fails for filters:** a filter that only the logger holds and that replaces itself (a filter for one record, say) is destroyed during
its own call. -/
theorem C168_filter_fails :
    fire 8 (fun _ => false) (const fun x => if x = .filter 3 then .act (.setFilter none) (.ret 1) else .ret 1) 20 0 [] [] []
      (Lg.init.acts 8 [.setFilter (some 3), .connect (some 7)]) = .dead (.filter 3) (.setFilter none) := by decide +kernel

/-- **C168 fails for values:** a functor that replaces the pending value it computes is destroyed during its own call. -/
theorem C168_update_fails :
    fire 8 (fun _ => false) (const fun x => if x = .value 5 then .act (.update 1 6) (.ret 50) else .ret 1) 20 0 [] [] []
      (Lg.init.acts 8 [.add 1 5, .connect (some 7)]) = .dead (.value 5) (.update 1 6) := by decide +kernel

/-- Whom a `Fire` from outside called with which records, if it ended.  (An example; no code.) -/
def seen : Res Unit → Option (List (Who × Nat × Rec))
  | .ended _ tr _ => some (callsAt 0 tr)
  | _ => none

/-- The logger after a `Fire` that ended without an exception.  (An example; no code.) -/
def left : Res Unit → Option Lg
  | .ended (some _) _ l => some l
  | _ => none

/-- A filter that a client holds and that replaces itself by the filter 4: it decides the record at hand, and the next record is decided by the
filter 4, which discards it.  The pending value 1 does not replace the value of the record.  The first sink adds a pending value,
which the second sink does not see but the next record has. -/
example :
    let own : Who → Bool := fun x => decide (x = .filter 3)
    let P : Progs := const fun x => match x with
      | .value v => .ret (10 * v)
      | .filter 3 => .act (.setFilter (some 4)) (.ret 1)
      | .filter _ => .ret 0
      | .sink 7 => .act (.add 3 9) (.ret 0)
      | .sink _ => .ret 0
    let l := Lg.init.acts 8 [.add 1 5, .add 2 6, .setFilter (some 3), .connect (some 7), .connect (some 8)]
    let l' := l.acts 8 [.setFilter (some 4), .add 3 9]
    seen (fire 8 own P 30 0 [] [(1, 0)] [] l) = some
      [(.value 5, 1, []), (.value 6, 2, []), (.filter 3, 0, [(1, 0), (2, 60)]), (.sink 7, 1, [(1, 0), (2, 60)]),
        (.sink 8, 2, [(1, 0), (2, 60)])] ∧
    left (fire 8 own P 30 0 [] [(1, 0)] [] l) = some l' ∧
    seen (fire 8 own P 30 0 [] [(1, 0)] [] l') = some
      [(.value 5, 1, []), (.value 6, 2, []), (.value 9, 3, []), (.filter 4, 0, [(1, 0), (2, 60), (3, 90)])] ∧
    left (fire 8 own P 30 0 [] [(1, 0)] [] l') = some l' ∧
    Reach 8 l ∧ Reach 8 l' := by
  refine ⟨by decide +kernel, by decide +kernel, by decide +kernel, by decide +kernel, ⟨_, rfl⟩, ⟨[.add 1 5, .add 2 6, .setFilter (some 3), .connect (some 7), .connect (some 8)] ++
    [.setFilter (some 4), .add 3 9], by rw [acts_append]⟩⟩

/-- A sink that fires a record itself when it gets one with the name 1, and sets a filter before; the sink behind it sees the inner record only
if the new filter accepts it.  The hypotheses of `C168_safe_partial` and `C168_life` hold. -/
example :
    let P : Progs := fun _ x r => match x with
      | .sink 7 => if has r 1 then .act (.setFilter (some 4)) (.fire [(2, 0)] fun b => if b then .ret 0 else .throw) else .ret 0
      | .filter _ => .ret 0
      | _ => .ret 0
    let l := Lg.init.acts 8 [.connect (some 7), .connect (some 8)]
    seen (fire 8 (fun _ => true) P 30 0 [] [(1, 0)] [] l) = some [(.sink 7, 1, [(1, 0)]), (.sink 8, 2, [(1, 0)])] ∧
    left (fire 8 (fun _ => true) P 30 0 [] [(1, 0)] [] l) = some (l.acts 8 [.setFilter (some 4)]) ∧
    (∀ tr x r, (P tr x r).All fun a => (∀ c, 1 ≤ c → a ≠ .disconnect c) ∧ ∀ m, m = 0 → a ≠ .remove m) ∧
    (∀ tr v r, (P tr (.value v) r).Flat ∧ (P tr (.value v) r).All fun a => a.onKnown (· = 0)) := by
  refine ⟨by decide +kernel, by decide +kernel, ?_, ?_⟩
  · intro tr x r
    dsimp only
    split
    · split
      · exact ⟨by simp, fun b => by cases b <;> trivial⟩
      · trivial
    · trivial
    · trivial
  · intro tr v r
    exact ⟨trivial, trivial⟩

/-- A functor that a client holds and that replaces its own value and another one: the loop sees the other one's new value, and the next
record has both.  The hypotheses of `C168_safe_partial` hold with the names 1 and 2. -/
example :
    let own : Who → Bool := fun x => decide (x = .value 5)
    let P : Progs := const fun x => match x with
      | .value 5 => .act (.update 1 6) (.act (.update 2 8) (.ret 50))
      | .value v => .ret (10 * v)
      | _ => .ret 1
    let l := Lg.init.acts 8 [.add 1 5, .add 2 7, .connect (some 9)]
    seen (fire 8 own P 30 0 [] [] [] l) = some [(.value 5, 1, []), (.value 8, 2, []), (.sink 9, 1, [(1, 50), (2, 80)])] ∧
    left (fire 8 own P 30 0 [] [] [] l) = some (l.acts 8 [.update 1 6, .update 2 8]) ∧
    (∀ m, m = 1 ∨ m = 2 → ∃ v, (m, v) ∈ l.pend) ∧
    (∀ tr x r, (P tr x r).All fun a => (∀ c, 1 ≤ c → a ≠ .disconnect c) ∧ ∀ m, m = 1 ∨ m = 2 → a ≠ .remove m) ∧
    (∀ tr v r, (P tr (.value v) r).Flat ∧ (P tr (.value v) r).All fun a => a.onKnown fun m => m = 1 ∨ m = 2) := by
  refine ⟨by decide +kernel, by decide +kernel, ?_, ?_, ?_⟩
  · rintro m (rfl | rfl)
    · exact ⟨5, by decide⟩
    · exact ⟨7, by decide⟩
  · intro tr x r
    dsimp only [const]
    split <;> simp [Script.All]
  · intro tr v r
    dsimp only [const]
    split <;> simp [Script.All, Script.Flat, Act.onKnown]

end Verif.Log.Re
