import Verif.Log.StreamReSafe
/-!
**C170.**  Pending values, filters and formatters may use the stream sink that calls them.

The functors of pending values, the filter and the formatter of a stream sink may add, update and remove pending values, set the filter, use
another formatter, add streams, fire further records at the sink and throw, while the sink calls them.
-/
namespace Verif.Log.Ss
open Verif.Log.Re (Rec)
variable {grow : Nat → Nat} {own : Who → Bool} {P : Progs}

/-- A sink as calls from outside make it.  (Specification; no code.) -/
def Reach (grow : Nat → Nat) (l : Sk) : Prop := ∃ as, l = Sk.init.acts grow as

theorem Reach.ok {l : Sk} (h : Reach grow l) : Ok l := by
  obtain ⟨as, rfl⟩ := h; exact Ok.init.acts as

/-- **C170, the calls take effect.**  When a `Fire` ends, by an exception or not, the sink is as the calls that the callees made, one after the
other, make it.  Everybody who was called was the sink's at that moment: the pending value of that name, the filter and the formatter that
were set, a stream that had been added. -/
theorem C170_effect {l : Sk} (h : Reach grow l) {n d : Nat} {stk : List Who} {r : Rec} {tr : List Ev} {o : Option Unit}
    {tr' : List Ev} {l' : Sk} (hf : fire grow own P n d stk r tr l = .ended o tr' l') :
    (∃ new, tr' = tr ++ new ∧ l' = l.acts grow (actsOf new) ∧ Current grow l new) ∧ Reach grow l' := by
  have := (right (grow := grow) (own := own) (P := P) n).2.2.2 d stk r tr l
  rw [hf] at this
  obtain ⟨new, e1, e2, e3⟩ := this
  obtain ⟨as, rfl⟩ := h
  exact ⟨⟨new, e1, e2, e3⟩, as ++ actsOf new, by rw [e2, acts_append]⟩

/-- **C170, a record.**  A `Fire` that ends without an exception has three parts.  First every pending value is called once and its result
added to the record, unless the record has a value of that name.  Then the filter is asked, once, if there is one.  Then, if there was none or
it accepted, the record is formatted once for every stream that the sink has in the end, in the order in which they were added: also for
the streams that filter and formatters add meanwhile.  The same holds, up to a stream, if a formatter throws: those before have it, and none behind. -/
theorem C170_fire {l : Sk} (h : Reach grow l) {n d : Nat} {stk : List Who} {r : Rec} {tr : List Ev} {o : Option Unit}
    {tr' : List Ev} {l' : Sk} (hf : fire grow own P n d stk r tr l = .ended o tr' l') :
    ∃ new, tr' = tr ++ new ∧ ((∃ f k r', (Who.formatter f, k, r') ∈ callsAt d new) ∨ o ≠ none →
      ∃ a b c vs r', new = a ++ b ++ c ∧ Applied grow d l r a vs r' ∧
        match (generalizing := false) (l.acts grow (actsOf a)).filter with
        | none => b = [] ∧ ∃ ks, Written grow d (l.acts grow (actsOf a)) r' o.isNone c ks
        | some f => ∃ x, callsAt d b = [(.filter f, 0, r')] ∧ retsAt d b = [(.filter f, 0, some x)] ∧
            (x ≠ 1 → c = []) ∧ (x = 1 → ∃ ks, Written grow d (l.acts grow (actsOf (a ++ b))) r' o.isNone c ks)) := by
  have := (spec (grow := grow) (own := own) (P := P) n).2.2.2 d stk r tr l h.ok
  rw [hf] at this
  obtain ⟨new, e1, -, -, -, -, -, hs⟩ := this
  refine ⟨new, e1, fun hx => ?_⟩
  obtain ⟨a, b, c, vs, r', e, hap, -, hm⟩ := hs (by
    rcases hx with ⟨f, k, r', hm⟩ | hx
    · exact .inl ⟨_, _, _, hm, f, rfl⟩
    · exact .inr hx)
  refine ⟨a, b, c, vs, r', e, hap, ?_⟩
  cases hx : (l.acts grow (actsOf a)).filter with
  | none => rw [hx] at hm; exact hm
  | some f => rw [hx] at hm; exact hm

/-- **C170, exceptions.**  Without a formatter `Fire` throws and calls nobody.  Otherwise it ends with an exception exactly if a callee of this
`Fire` threw, which then was the last thing that happened.  No exception of a callee is swallowed. -/
theorem C170_throw {l : Sk} (h : Reach grow l) {n d : Nat} {stk : List Who} {r : Rec} {tr : List Ev} {o : Option Unit}
    {tr' : List Ev} {l' : Sk} (hf : fire grow own P n d stk r tr l = .ended o tr' l') :
    ∃ new, tr' = tr ++ new ∧ (l.fmt = none → o = none ∧ new = [] ∧ l' = l) ∧ (l.fmt ≠ none → (o = none ↔ Threw d new)) ∧
      (o ≠ none → ∀ x ∈ retsAt d new, x.2.2 ≠ none) := by
  have := (spec (grow := grow) (own := own) (P := P) n).2.2.2 d stk r tr l h.ok
  rw [hf] at this
  obtain ⟨new, e1, e2, -, hn, ht, hr, -⟩ := this
  refine ⟨new, e1, fun h0 => ⟨(hn h0).1, (hn h0).2, by rw [e2, (hn h0).2]; rfl⟩, fun h0 => ⟨ht h0, ?_⟩, hr⟩
  rintro ⟨x, c, hl⟩
  cases o with
  | none => rfl
  | some u =>
    exfalso
    refine hr (by simp) (x, c, none) ?_ rfl
    rw [retsAt, List.mem_filterMap]
    exact ⟨_, List.mem_of_getLast? hl, by simp⟩

/-- **C170 (partial), life.**  A callee is destroyed during its call only if no client holds it and a call gives up the reference of the sink:
`UpdateValue` or `RemoveValue` for a pending value, `SetFilter` for the filter, `Use` for the formatter.

Missing: that no callee is ever destroyed during its call, which is false (`C170_use_fails`). -/
theorem C170_life_partial {l : Sk} (h : Reach grow l) {n : Nat} {r : Rec} {tr : List Ev} {x : Who} {a : Act}
    (hf : fire grow own P n 0 [] r tr l = .dead x a) : own x = false ∧ a.releases x = true := by
  have := (lives (grow := grow) (own := own) (P := P) n).2.2.2 0 [] r tr l h.ok (by simp)
  rw [hf] at this
  exact this

/-- **C170, life.**  If clients hold all callees, or no callee releases any, none is destroyed during its call. -/
theorem C170_life {l : Sk} (h : Reach grow l)
    (hx : (∀ x, own x = true) ∨ ∀ tr x c r, (P tr x c r).All fun a => ∀ y, a.releases y = false) (n : Nat) (r : Rec) (tr : List Ev) (x : Who)
    (a : Act) : fire grow own P n 0 [] r tr l ≠ .dead x a := by
  intro hf
  obtain ⟨h1, h2⟩ := C170_life_partial h hf
  rcases hx with hx | hx
  · rw [hx] at h1; cases h1
  · have := (made (grow := grow) (own := own) (P := P) hx n).2.2.2 0 [] r tr l
    rw [hf] at this
    rw [this x] at h2; cases h2

/-- **C170 (partial), safety.**  No invalid iterator and no null pointer is used, whatever the filter does, if the functors of pending values
add and remove no pending values (they may update those in `S`, names that are pending and that nobody removes), the formatters add no
streams, and neither fires a record at the sink.

Missing: functors that add or remove pending values (as for a logger, `C168_value_fails`), formatters that add streams (`C170_stream_fails`). -/
theorem C170_safe_partial {l : Sk} (h : Reach grow l) {S : Nat → Prop}
    (hS : ∀ m, S m → ∃ v, (m, v) ∈ l.pend)
    (hP : ∀ tr x c r, (P tr x c r).All fun a => ∀ m, S m → a ≠ .remove m)
    (hV : ∀ tr v c r, (P tr (.value v) c r).Flat ∧ (P tr (.value v) c r).All fun a => a.onKnown S)
    (hF : ∀ tr f c r, (P tr (.formatter f) c r).Flat ∧ (P tr (.formatter f) c r).All fun a => ∀ k, a ≠ .addStream k)
    (n d : Nat) (stk : List Who) (r : Rec) (tr : List Ev) : fire grow own P n d stk r tr l ≠ .fault := by
  intro hf
  have all : ∀ sc : Script, (sc.All fun a => ∀ k, a ≠ .addStream k) → sc.All fun a => a.onStreams = false := by
    intro sc
    induction sc with
    | ret x => exact fun _ => trivial
    | throw => exact fun _ => trivial
    | act a k ih =>
      refine fun hs => ⟨?_, ih hs.2⟩
      cases a with
      | addStream k => exact absurd rfl (hs.1 k)
      | _ => rfl
    | fire r k ih => exact fun hs b => ih b (hs b)
  have := (sound (grow := grow) (own := own) hP hV (fun tr f c r => ⟨(hF tr f c r).1, all _ (hF tr f c r).2⟩) n).2.2.2 d stk r tr l h.ok fun m hm => by
      obtain ⟨v, hv⟩ := hS m hm
      simp only [Re.has, List.any_eq_true, decide_eq_true_eq]
      exact ⟨_, hv, rfl⟩
  rw [hf] at this
  exact this

/-- **C170, termination.**  If no callee fires a record at the sink, `Fire` ends, whatever else the callees do: also if the formatter adds a
stream for every stream. -/
theorem C170_ends {l : Sk} (h : Reach grow l) (hP : ∀ tr x c r, (P tr x c r).Flat) (d : Nat) (stk : List Who) (r : Rec)
    (tr : List Ev) : ∃ res, res ≠ .running ∧ ∃ n, ∀ m, n ≤ m → fire grow own P m d stk r tr l = res :=
  fire_ends hP r tr l h.ok

/-! ### Where the code fails, and concrete cases -/

/-- Callees that do the same in each call: `p x c` is the program of `x` for the name or stream `c`.  (An example; no code.) -/
def const (p : Who → Nat → Script) : Progs := fun _ x c _ => p x c

/-- **C170 fails for streams:** a formatter that adds a stream to a sink with two streams (of the capacity 2) while it writes to the first
invalidates the iterator of the loop that called it. -/
theorem C170_stream_fails :
    fire (2 * ·) (fun _ => true) (const fun x c => if x = .formatter 3 ∧ c = 10 then .act (.addStream (some 12)) (.ret 0) else .ret 0) 20 0 [] [] []
      (Sk.init.acts (2 * ·) [.use (some 3), .addStream (some 10), .addStream (some 11)]) = .fault := by decide +kernel

/-- **C170 fails for formatters:** a formatter that only the sink holds and that uses another one from now on is destroyed during its own call. -/
theorem C170_use_fails :
    fire (2 * ·) (fun _ => false) (const fun x _ => if x = .formatter 3 then .act (.use (some 4)) (.ret 0) else .ret 0) 20 0 [] [] []
      (Sk.init.acts (2 * ·) [.use (some 3), .addStream (some 10)]) = .dead (.formatter 3) (.use (some 4)) := by decide +kernel

/-- Whom a `Fire` from outside called with which records, if it ended without (`b = true`) or with an exception.  (An example; no code.) -/
def seen (b : Bool) : Res Unit → Option (List (Who × Nat × Rec))
  | .ended o tr _ => if o.isSome = b then some (callsAt 0 tr) else none
  | _ => none

/-- Three streams in a vector of the capacity 4.  The formatter 3, which a client holds, adds a fourth stream and uses the formatter 4 when it
writes to the stream 11: the formatter 4 writes to the last two.  If it throws at the stream 11 the first two were called. -/
example :
    let l := Sk.init.acts (2 * ·) [.use (some 3), .add 1 5, .addStream (some 10), .addStream (some 11), .addStream (some 12)]
    let p : Script → Progs := fun k => const fun x c => match x with
      | .value v => .ret (10 * v)
      | .formatter 3 => if c = 11 then .act (.addStream (some 13)) (.act (.use (some 4)) k) else .ret 0
      | _ => .ret 0
    seen true (fire (2 * ·) (fun _ => true) (p (.ret 0)) 30 0 [] [] [] l) = some
      [(.value 5, 1, []), (.formatter 3, 10, [(1, 50)]), (.formatter 3, 11, [(1, 50)]), (.formatter 4, 12, [(1, 50)]),
        (.formatter 4, 13, [(1, 50)])] ∧
    seen false (fire (2 * ·) (fun _ => true) (p .throw) 30 0 [] [] [] l) = some
      [(.value 5, 1, []), (.formatter 3, 10, [(1, 50)]), (.formatter 3, 11, [(1, 50)])] ∧
    Reach (2 * ·) l := by
  refine ⟨by decide +kernel, by decide +kernel, ⟨_, rfl⟩⟩

/-- A filter that fires another record at the sink, once, and adds a stream.  The hypotheses of `C170_safe_partial` and `C170_life` hold. -/
example :
    let P : Progs := fun tr x _ _ => match x with
      | .filter _ => if tr = [] then .fire [(2, 0)] fun b => if b then .act (.addStream (some 11)) (.ret 1) else .throw else .ret 1
      | _ => .ret 0
    let l := Sk.init.acts (2 * ·) [.use (some 3), .setFilter (some 6), .addStream (some 10)]
    seen true (fire (2 * ·) (fun _ => true) P 30 0 [] [(1, 0)] [] l) = some
      [(.filter 6, 0, [(1, 0)]), (.formatter 3, 10, [(1, 0)]), (.formatter 3, 11, [(1, 0)])] ∧
    (∀ tr x c r, (P tr x c r).All fun a => ∀ m, False → a ≠ .remove m) ∧
    (∀ tr v c r, (P tr (.value v) c r).Flat ∧ (P tr (.value v) c r).All fun a => a.onKnown fun _ => False) ∧
    (∀ tr f c r, (P tr (.formatter f) c r).Flat ∧ (P tr (.formatter f) c r).All fun a => ∀ k, a ≠ .addStream k) := by
  refine ⟨by decide +kernel, ?_, fun _ _ _ _ => ⟨trivial, trivial⟩, fun _ _ _ _ => ⟨trivial, trivial⟩⟩
  intro tr x c r
  dsimp only
  split
  · split
    · intro b; cases b <;> simp [Script.All]
    · trivial
  · trivial

/-- A functor that a client holds and that replaces its own value and another one: the loop sees the other one's new value.  The hypotheses of
`C170_safe_partial` hold with the names 1 and 2. -/
example :
    let P : Progs := const fun x _ => match x with
      | .value 5 => .act (.update 1 6) (.act (.update 2 8) (.ret 50))
      | .value v => .ret (10 * v)
      | _ => .ret 1
    let l := Sk.init.acts (2 * ·) [.use (some 3), .add 1 5, .add 2 7, .addStream (some 10)]
    seen true (fire (2 * ·) (fun x => decide (x = .value 5)) P 30 0 [] [] [] l) = some
      [(.value 5, 1, []), (.value 8, 2, []), (.formatter 3, 10, [(1, 50), (2, 80)])] ∧
    (∀ m, m = 1 ∨ m = 2 → ∃ v, (m, v) ∈ l.pend) ∧
    (∀ tr x c r, (P tr x c r).All fun a => ∀ m, m = 1 ∨ m = 2 → a ≠ .remove m) ∧
    (∀ tr v c r, (P tr (.value v) c r).Flat ∧ (P tr (.value v) c r).All fun a => a.onKnown fun m => m = 1 ∨ m = 2) ∧
    (∀ tr f c r, (P tr (.formatter f) c r).Flat ∧ (P tr (.formatter f) c r).All fun a => ∀ k, a ≠ .addStream k) := by
  refine ⟨by decide +kernel, ?_, ?_, ?_, fun _ _ _ _ => ⟨trivial, trivial⟩⟩
  · rintro m (rfl | rfl)
    · exact ⟨5, by decide⟩
    · exact ⟨7, by decide⟩
  · intro tr x c r
    dsimp only [const]
    split <;> simp [Script.All]
  · intro tr v c r
    dsimp only [const]
    split <;> simp [Script.All, Script.Flat, Act.onKnown]

end Verif.Log.Ss
