import Verif.Log.NetProps
import Verif.Log.Record
set_option linter.unusedSimpArgs false
set_option linter.unusedVariables false
set_option linter.unusedSectionVars false
/-!
Property C147: the values that sinks see in records that go through a network of loggers (/repo/log/logger.h 130-145,
/repo/log/detail/log-pending-value-pool.h 86-92, /repo/log/log-record.h 264-310).

The network is the one of `Verif.Log.Net`.  All copies of a record share one body (C72), so the body is threaded through the whole
delivery.  Simplifications: the sinks of the user and the filters only read the record; the state of the program that functors in log values
read (`e`) does not change during the delivery.
-/
namespace Verif.Log.Net
open Verif.Event (Table Reachable sinkAt liveCookies)
open Verif.Stat (Items look)

variable {N E : Type} [DecidableEq N]

/-- What happens while a record is delivered: a logger gets it (logger.h 130), or a sink of the user does (event.h 226-230) and sees the
body of the record. -/
inductive Visit (N E : Type)
  | enter (i : Nat)
  | call (j c k : Nat) (b : Items N (LV E))

/-- The loop of `Event::Fire()` over the cookies of logger `i`, with the record handed on by value; event.h 213-240 as in C34,
log-record.h 274-277. -/
def passAll (below : Nat → Items N (LV E) → Option (List (Visit N E) × Items N (LV E))) (net : Loggers) (i : Nat) :
    List Nat → Items N (LV E) → Option (List (Visit N E) × Items N (LV E))
  | [], b => some ([], b)
  | c :: cs, b =>
    match (match sinkAt (net i).ev c with
      | some (.logger j) => below j b
      | some (.user k) => some ([.call i c k b], b)
      | none => some ([], b) : Option (List (Visit N E) × Items N (LV E))) with
    | none => none
    | some (l, b') => (passAll below net i cs b').map fun x => (l ++ x.1, x.2)

/-- There is no filter, or it accepts; logger.h 135-141. -/
def accepts (e : E) (filter : Option (E → Items N (LV E) → Bool)) (b : Items N (LV E)) : Bool :=
  match filter with | some g => g e b | none => true

/-- `Logger::Fire()` on a record with the body `b`; logger.h 130-145.  The result has the body afterwards. -/
def pass (cap : Nat) (e : E) (pool : Nat → Items N (LV E)) (filter : Nat → Option (E → Items N (LV E) → Bool)) :
    Nat → Loggers → Nat → Items N (LV E) → Option (List (Visit N E) × Items N (LV E))
  | 0, _, _, _ => none
  | f + 1, net, i, b => match apply e (pool i) b with
    | .error _ => none
    | .ok b1 =>
      if accepts e (filter i) b1 then
        match Event.fireArgs cap (fun _ _ => []) (cap + 1) (net i).ev with
        | .done cs _ => (passAll (pass cap e pool filter f net) net i cs b1).map fun x => (.enter i :: x.1, x.2)
        | _ => none
      else some ([.enter i], b1)

/-! ### The view of the user -/

/-- The loggers that got the record, in order.  (Specification; no code.) -/
def entered : List (Visit N E) → List Nat
  | [] => []
  | .enter i :: l => i :: entered l
  | .call .. :: l => entered l

/-- The sinks that were called, in order.  (Specification; no code.) -/
def called : List (Visit N E) → List (Nat × Nat × Nat)
  | [] => []
  | .enter _ :: l => called l
  | .call j c k _ :: l => (j, c, k) :: called l

/-- The first of the loggers that has a pending value of the name gives it.  (Specification; no code.) -/
def firstOf (e : E) (os : Nat → List (POp N E)) (ms : List Nat) (n : N) : Option (LV E) :=
  ms.findSome? fun m => (pend (os m) n).map (now e)

/-- A way of registrations from logger `i` to logger `j`, with the loggers on it.  (Specification; no code.) -/
inductive Way (tr : Trace) : Nat → Nat → List Nat → Prop
  | here {i : Nat} : Way tr i i [i]
  | next {i m d j : Nat} {p : List Nat} : registered m d tr = some i → Way tr m j p → Way tr i j (i :: p)

theorem entered_append (l l' : List (Visit N E)) : entered (l ++ l') = entered l ++ entered l' := by
  induction l with
  | nil => rfl
  | cons x l ih => cases x <;> simp [entered, ih]

theorem called_append (l l' : List (Visit N E)) : called (l ++ l') = called l ++ called l' := by
  induction l with
  | nil => rfl
  | cons x l ih => cases x <;> simp [called, ih]

theorem firstOf_append (e : E) (os : Nat → List (POp N E)) (l l' : List Nat) (n : N) :
    firstOf e os (l ++ l') n = (firstOf e os l n).or (firstOf e os l' n) := by
  rw [firstOf, List.findSome?_append]; rfl

/-- What the delivery `vs` has shown of the body: `b` before, `b'` after, and each call the values of the loggers that came before it.
(Specification; no code.) -/
structure Good (e : E) (os : Nat → List (POp N E)) (Q : Nat → Nat → Nat → List Nat → Prop) (b : Items N (LV E)) (vs : List (Visit N E))
    (b' : Items N (LV E)) : Prop where
  last : ∀ n, look b' n = (look b n).or (firstOf e os (entered vs) n)
  each : ∀ pre j c k bd post, vs = pre ++ .call j c k bd :: post →
    (∀ n, look bd n = (look b n).or (firstOf e os (entered pre) n)) ∧ Q j c k (entered pre)

theorem Good.append {e : E} {os : Nat → List (POp N E)} {Q : Nat → Nat → Nat → List Nat → Prop}
    (hQ : ∀ j c k l es, Q j c k es → Q j c k (l ++ es)) {b b1 b2 : Items N (LV E)} {l l' : List (Visit N E)}
    (h : Good e os Q b l b1) (h' : Good e os Q b1 l' b2) : Good e os Q b (l ++ l') b2 := by
  constructor
  · intro n
    rw [h'.last, h.last, entered_append, firstOf_append, Option.or_assoc]
  · intro pre j c k bd post hs
    rcases List.append_eq_append_iff.mp hs with ⟨as, h1, h2⟩ | ⟨bs, h1, h2⟩
    · obtain ⟨g1, g2⟩ := h'.each as j c k bd post h2
      refine ⟨fun n => ?_, ?_⟩
      · rw [g1, h.last, h1, entered_append, firstOf_append, Option.or_assoc]
      · rw [h1, entered_append]; exact hQ _ _ _ _ _ g2
    · cases bs with
      | nil =>
        simp only [List.nil_append] at h2
        simp only [List.append_nil] at h1
        obtain ⟨g1, g2⟩ := h'.each [] j c k bd post h2.symm
        subst h1
        refine ⟨fun n => ?_, ?_⟩
        · rw [g1, h.last]; simp [entered, firstOf]
        · have := hQ _ _ _ (entered l) _ g2; simpa [entered] using this
      | cons x bs =>
        rw [List.cons_append, List.cons.injEq] at h2
        obtain ⟨rfl, -⟩ := h2
        exact h.each pre j c k bd bs h1

theorem Good.mono {e : E} {os : Nat → List (POp N E)} {Q Q' : Nat → Nat → Nat → List Nat → Prop} {b b' : Items N (LV E)}
    {l : List (Visit N E)} (h : Good e os Q b l b') (hQ : ∀ j c k es, Q j c k es → Q' j c k es) : Good e os Q' b l b' :=
  ⟨h.last, fun pre j c k bd post hs => ⟨(h.each pre j c k bd post hs).1, hQ _ _ _ _ (h.each pre j c k bd post hs).2⟩⟩

theorem apply_pool (e : E) (os : List (POp N E)) {pool : Items N (LV E)} (hp : pool.Perm (poolRun os)) (b : Items N (LV E)) :
    ∃ b1, apply e pool b = .ok b1 ∧ ∀ n, look b1 n = (look b n).or ((pend os n).map (now e)) := by
  have hnd := (hp.map (·.1)).nodup_iff.mpr (pool_nodup os)
  obtain ⟨b', h3, h4⟩ := apply_spec e pool b hnd (fun x hx => pool_nest os x (hp.mem_iff.mp hx))
  refine ⟨b', h3, fun n => ?_⟩
  rw [h4, look_perm hp hnd, look_pool]
  congr 1
  cases pend os n with
  | none => rfl
  | some v => cases v <;> rfl

variable {cap : Nat} {rk : Nat → Nat} {f : Nat} {net : Loggers} {tr : Trace}

theorem passAll_ok (e : E) (os : Nat → List (POp N E)) {Q : Nat → Nat → Nat → List Nat → Prop} {i : Nat}
    {below : Nat → Items N (LV E) → Option (List (Visit N E) × Items N (LV E))}
    (hQ : ∀ j c k l es, Q j c k es → Q j c k (l ++ es))
    (hu : ∀ c k, sinkAt (net i).ev c = some (.user k) → Q i c k [])
    (hb : ∀ c j, sinkAt (net i).ev c = some (.logger j) → ∀ b, ∃ vs b', below j b = some (vs, b') ∧ Good e os Q b vs b') :
    ∀ cs b, ∃ vs b', passAll below net i cs b = some (vs, b') ∧ Good e os Q b vs b'
  | [], b => ⟨[], b, rfl, ⟨fun n => by simp [entered, firstOf], fun pre j c k bd post hs => by simp at hs⟩⟩
  | c :: cs, b => by
    have h1 : ∃ l b1, (match sinkAt (net i).ev c with
      | some (.logger j) => below j b
      | some (.user k) => some ([.call i c k b], b)
      | none => some ([], b) : Option (List (Visit N E) × Items N (LV E))) = some (l, b1) ∧ Good e os Q b l b1 := by
      cases hx : sinkAt (net i).ev c with
      | none => exact ⟨[], b, rfl, ⟨fun n => by simp [entered, firstOf], fun pre j c k bd post hs => by simp at hs⟩⟩
      | some x =>
        cases x with
        | logger j => exact hb c j hx b
        | user k =>
          refine ⟨_, b, rfl, ⟨fun n => by simp [entered, firstOf], fun pre j' c' k' bd post hs => ?_⟩⟩
          cases pre with
          | nil =>
            simp only [List.nil_append, List.cons.injEq, Visit.call.injEq] at hs
            obtain ⟨⟨rfl, rfl, rfl, rfl⟩, -⟩ := hs
            exact ⟨fun n => by simp [entered, firstOf], hu _ _ hx⟩
          | cons x pre => simp at hs
    obtain ⟨l, b1, e1, g1⟩ := h1
    obtain ⟨l', b2, e2, g2⟩ := passAll_ok e os hQ hu hb cs b1
    refine ⟨l ++ l', b2, ?_, g1.append hQ g2⟩
    rw [passAll, e1]
    simp only [e2, Option.map_some]

theorem pass_ok (hcap : cap < 2 ^ 32) (hf : ∀ j, rk j < f) (hs : Sound cap rk net) (hv : Shows net tr) (e : E)
    (os : Nat → List (POp N E)) {pool : Nat → Items N (LV E)} (hp : ∀ m, (pool m).Perm (poolRun (os m)))
    (filter : Nat → Option (E → Items N (LV E) → Bool)) : ∀ n i b, f - rk i ≤ n →
    ∃ vs b', pass cap e pool filter n net i b = some (vs, b') ∧
      Good e os (fun j c k es => connected j c tr = some k ∧ ∃ p, Way tr i j p ∧ p.Sublist es) b vs b' := by
  intro n
  induction n with
  | zero => intro i b hi; have := hf i; omega
  | succ n ih =>
    intro i b hi
    obtain ⟨b1, a1, a2⟩ := apply_pool e (os i) (hp i) b
    rw [pass, a1]
    dsimp only
    have enter : ∀ (vs : List (Visit N E)) (b' : Items N (LV E)),
        Good e os (fun j c k es => connected j c tr = some k ∧ ∃ p, Way tr i j (i :: p) ∧ p.Sublist es) b1 vs b' →
        Good e os (fun j c k es => connected j c tr = some k ∧ ∃ p, Way tr i j p ∧ p.Sublist es) b (.enter i :: vs) b' := by
      intro vs b' g
      constructor
      · intro m
        rw [g.last, a2, Option.or_assoc, entered, ← List.singleton_append, firstOf_append]
        simp [firstOf]
      · intro pre j c k bd post hs
        cases pre with
        | nil => simp at hs
        | cons x pre =>
          rw [List.cons_append, List.cons.injEq] at hs
          obtain ⟨rfl, hs⟩ := hs
          obtain ⟨g1, g2, p, g3, g4⟩ := g.each pre j c k bd post hs
          refine ⟨fun m => ?_, g2, i :: p, g3, ?_⟩
          · rw [g1, a2, Option.or_assoc, entered, ← List.singleton_append, firstOf_append]
            simp [firstOf]
          · rw [entered]; exact g4.cons_cons i
    split
    · rw [(Event.C34_fire hcap (hs.reach i) (fun _ _ => []) (fun _ _ => rfl) (cap + 1) (by omega)).2.1]
      dsimp only
      obtain ⟨vs, b', h1, h2⟩ := passAll_ok (net := net) (i := i) e os (below := pass cap e pool filter n net)
        (Q := fun j c k es => connected j c tr = some k ∧ ∃ p, Way tr i j (i :: p) ∧ p.Sublist es)
        (fun j c k l es h => ⟨h.1, h.2.imp fun p hp => ⟨hp.1, hp.2.trans (List.sublist_append_right l es)⟩⟩)
        (fun c k hx => ⟨(hv.users i c k).mp hx, [], .here, List.Sublist.refl _⟩)
        (fun c j hx b => by
          obtain ⟨a, ha⟩ := (hs.kept i c j hx).resolve_right id
          have hd := hs.down j a i c ha
          obtain ⟨vs, b', h1, h2⟩ := ih j b (by have := hf j; omega)
          refine ⟨vs, b', h1, h2.mono fun j' c' k es h => ⟨h.1, h.2.imp fun p hp => ⟨.next (d := a + 1) ?_ hp.1, hp.2⟩⟩⟩
          rw [← hv.regs, ha]; rfl)
        (liveCookies cap (net i).ev) b1
      refine ⟨.enter i :: vs, b', by rw [h1]; rfl, enter _ _ h2⟩
    · refine ⟨[.enter i], b1, rfl, enter [] b1 ⟨fun n => by simp [entered, firstOf], fun pre j c k bd post hs => by simp at hs⟩⟩

/-! ### C147 -/

/-- C147.  The exact values.  Delivering a record never fails.  When a sink is called, each name shows the record's own value, or else the
pending value of the logger that got the record first among those that have got it until then and have one. -/
theorem C147_values (hcap : cap < 2 ^ 32) (hf : ∀ j, rk j < f) (h : Reach cap f rk net tr) (e : E) (os : Nat → List (POp N E))
    (pool : Nat → Items N (LV E)) (hp : ∀ m, (pool m).Perm (poolRun (os m))) (filter : Nat → Option (E → Items N (LV E) → Bool))
    (i : Nat) (b : Items N (LV E)) : ∃ vs b', pass cap e pool filter f net i b = some (vs, b') ∧
      (∀ n, look b' n = (look b n).or (firstOf e os (entered vs) n)) ∧
      ∀ pre j c k bd post, vs = pre ++ .call j c k bd :: post →
        connected j c tr = some k ∧ ∀ n, look bd n = (look b n).or (firstOf e os (entered pre) n) := by
  obtain ⟨hs, hv⟩ := h.sound hcap hf
  obtain ⟨vs, b', h1, h2⟩ := pass_ok hcap hf hs hv e os hp filter f i b (by omega)
  exact ⟨vs, b', h1, h2.last, fun pre j c k bd post hs => ⟨(h2.each pre j c k bd post hs).2.1, (h2.each pre j c k bd post hs).1⟩⟩

theorem firstOf_only (e : E) (os : Nat → List (POp N E)) {n : N} {m : Nat} (hm : ∀ m', m' ≠ m → pend (os m') n = none) :
    ∀ l : List Nat, m ∈ l → firstOf e os l n = (pend (os m) n).map (now e)
  | [], h => by cases h
  | x :: l, h => by
    rw [← List.singleton_append, firstOf_append]
    by_cases hx : x = m
    · subst hx
      cases hv : pend (os x) n with
      | some v => simp [firstOf, hv]
      | none =>
        by_cases hl : x ∈ l
        · rw [firstOf_only e os hm l hl, hv]; simp [firstOf, hv]
        · have : firstOf e os l n = none := by
            rw [firstOf, List.findSome?_eq_none_iff]
            intro y hy
            rw [hm y (by rintro rfl; exact hl hy)]; rfl
          rw [this]; simp [firstOf, hv]
    · have h1 : firstOf e os [x] n = none := by simp [firstOf, hm x hx]
      rw [h1, Option.none_or]
      exact firstOf_only e os hm l ((List.mem_cons.mp h).resolve_left (fun e => hx e.symm))

/-- C147, the part that holds of every network.  Each call of a sink has a way of registrations from the logger at which the record was fired
to the logger of the sink, and a value that is pending at one logger on this way, and at no other logger at all, is seen by the sink unless the
record has its own.  Missing: names that are pending at more than one logger, and that names of loggers off the way are not seen. -/
theorem C147_way_partial (hcap : cap < 2 ^ 32) (hf : ∀ j, rk j < f) (h : Reach cap f rk net tr) (e : E) (os : Nat → List (POp N E))
    (pool : Nat → Items N (LV E)) (hp : ∀ m, (pool m).Perm (poolRun (os m))) (filter : Nat → Option (E → Items N (LV E) → Bool))
    (i : Nat) (b : Items N (LV E)) : ∃ vs b', pass cap e pool filter f net i b = some (vs, b') ∧
      ∀ j c k bd, .call j c k bd ∈ vs → connected j c tr = some k ∧ ∃ p, Way tr i j p ∧
        (∀ n v, look b n = some v → look bd n = some v) ∧
        ∀ n m, m ∈ p → (∀ m', m' ≠ m → pend (os m') n = none) → look bd n = (look b n).or ((pend (os m) n).map (now e)) := by
  obtain ⟨hs, hv⟩ := h.sound hcap hf
  obtain ⟨vs, b', h1, h2⟩ := pass_ok hcap hf hs hv e os hp filter f i b (by omega)
  refine ⟨vs, b', h1, fun j c k bd hm => ?_⟩
  obtain ⟨pre, post, rfl⟩ := List.append_of_mem hm
  obtain ⟨g1, g2, p, g3, g4⟩ := h2.each pre j c k bd post rfl
  refine ⟨g2, p, g3, fun n v hn => by rw [g1, hn]; rfl, fun n m hmp ho => ?_⟩
  rw [g1, firstOf_only e os ho _ (g4.mem hmp)]

/-- C147, the part about single files: if no logger has more than one sink, the sink sees, for every name, the record's own value or else that of the
first logger on the way that has one pending, and nothing else. -/
theorem C147_file_partial (hcap : cap < 2 ^ 32) (hf : ∀ j, rk j < f) (h : Reach cap f rk net tr) (e : E) (os : Nat → List (POp N E))
    (pool : Nat → Items N (LV E)) (hp : ∀ m, (pool m).Perm (poolRun (os m))) (filter : Nat → Option (E → Items N (LV E) → Bool))
    (hone : ∀ j, (net j).ev.getNumSinks ≤ 1) (i : Nat) (b : Items N (LV E)) :
    ∃ vs b', pass cap e pool filter f net i b = some (vs, b') ∧ (called vs).length ≤ 1 ∧
      ∀ j c k bd, .call j c k bd ∈ vs → ∃ p, Way tr i j p ∧ ∀ n, look bd n = (look b n).or (firstOf e os p n) := by
  obtain ⟨hs, hv⟩ := h.sound hcap hf
  have key : ∀ n i b, f - rk i ≤ n → ∃ vs b', pass cap e pool filter n net i b = some (vs, b') ∧ ((∃ p : List Nat, vs = p.map .enter) ∨
      ∃ (p : List Nat) (j c k : Nat) (bd : Items N (LV E)), vs = p.map .enter ++ [.call j c k bd] ∧ Way tr i j p) := by
    intro n
    induction n with
    | zero => intro i b hi; have := hf i; omega
    | succ n ih =>
      intro i b hi
      obtain ⟨b1, a1, a2⟩ := apply_pool e (os i) (hp i) b
      rw [pass, a1]
      dsimp only
      split
      · rw [(Event.C34_fire hcap (hs.reach i) (fun _ _ => []) (fun _ _ => rfl) (cap + 1) (by omega)).2.1]
        dsimp only
        have hl : (liveCookies cap (net i).ev).length ≤ 1 := by
          rw [← (Event.C35_count hcap (hs.reach i)).1]; exact hone i
        cases hc : liveCookies cap (net i).ev with
        | nil => exact ⟨[.enter i], b1, rfl, .inl ⟨[i], rfl⟩⟩
        | cons c l =>
          rw [hc] at hl
          have : l = [] := by cases l with
            | nil => rfl
            | cons => simp at hl
          subst this
          cases hx : sinkAt (net i).ev c with
          | none => exact ⟨[.enter i], b1, by simp [passAll, hx], .inl ⟨[i], rfl⟩⟩
          | some x =>
            cases x with
            | user k => exact ⟨[.enter i, .call i c k b1], b1, by simp [passAll, hx], .inr ⟨[i], i, c, k, b1, rfl, .here⟩⟩
            | logger j =>
              obtain ⟨a, ha⟩ := (hs.kept i c j hx).resolve_right id
              have hd := hs.down j a i c ha
              obtain ⟨vs, b', e1, e2⟩ := ih j b1 (by have := hf j; omega)
              refine ⟨.enter i :: vs, b', by simp [passAll, hx, e1], ?_⟩
              rcases e2 with ⟨p, rfl⟩ | ⟨p, j', c', k, bd, rfl, w⟩
              · exact .inl ⟨i :: p, rfl⟩
              · exact .inr ⟨i :: p, j', c', k, bd, rfl, .next (d := a + 1) (by rw [← hv.regs, ha]; rfl) w⟩
      · exact ⟨[.enter i], b1, rfl, .inl ⟨[i], rfl⟩⟩
  have hent : ∀ p : List Nat, entered (p.map (.enter : Nat → Visit N E)) = p ∧ called (p.map (.enter : Nat → Visit N E)) = [] := by
    intro p
    induction p with
    | nil => exact ⟨rfl, rfl⟩
    | cons x p ih => simp [entered, called, ih]
  obtain ⟨vs, b', e1, e2⟩ := key f i b (by omega)
  obtain ⟨vs', b'', h1, h2⟩ := pass_ok hcap hf hs hv e os hp filter f i b (by omega)
  rw [e1] at h1
  cases h1
  refine ⟨vs, b', e1, ?_, ?_⟩
  · rcases e2 with ⟨p, rfl⟩ | ⟨p, j, c, k, bd, rfl, w⟩
    · rw [(hent p).2]; simp
    · rw [called_append, (hent p).2]; simp [called]
  · intro j c k bd hm
    rcases e2 with ⟨p, rfl⟩ | ⟨p, j', c', k', bd', rfl, w⟩
    · simp at hm
    · rw [List.mem_append] at hm
      rcases hm with hm | hm
      · simp at hm
      · simp only [List.mem_singleton, Visit.call.injEq] at hm
        obtain ⟨rfl, rfl, rfl, rfl⟩ := hm
        refine ⟨p, w, fun n => ?_⟩
        rw [(h2.each (p.map .enter) j c k bd [] rfl).1, (hent p).1]

theorem passAll_called {net : Loggers} {i : Nat} {below : Nat → Items N (LV E) → Option (List (Visit N E) × Items N (LV E))}
    {calls : Nat → Option (List (Nat × Nat × Nat))} (hb : ∀ j b, (below j b).map (fun x => called x.1) = calls j) :
    ∀ cs b, (passAll below net i cs b).map (fun x => called x.1) = (cs.mapM fun c => match sinkAt (net i).ev c with
          | some (.logger j) => calls j
          | some (.user k) => some [(i, c, k)]
          | none => some []).map List.flatten
  | [], b => by simp [passAll, called]
  | c :: cs, b => by
    have ih := passAll_called (net := net) (i := i) hb cs
    rw [passAll, List.mapM_cons]
    have h1 : ((match sinkAt (net i).ev c with
      | some (.logger j) => below j b
      | some (.user k) => some ([.call i c k b], b)
      | none => some ([], b) : Option (List (Visit N E) × Items N (LV E)))).map (fun x => called x.1) =
        (match sinkAt (net i).ev c with
          | some (.logger j) => calls j
          | some (.user k) => some [(i, c, k)]
          | none => some []) := by
      cases sinkAt (net i).ev c with
      | none => rfl
      | some x => cases x with
        | logger j => exact hb j b
        | user k => rfl
    rw [← h1]
    generalize (match sinkAt (net i).ev c with
      | some (.logger j) => below j b
      | some (.user k) => some ([.call i c k b], b)
      | none => some ([], b) : Option (List (Visit N E) × Items N (LV E))) = r
    cases r with
    | none => rfl
    | some x =>
      obtain ⟨l, b'⟩ := x
      have := ih b'
      cases hp : passAll below net i cs b' with
      | none =>
        rw [hp] at this
        simp only [Option.map_none] at this
        simp only [hp, Option.map_none, Option.map_some]
        cases hq : (cs.mapM fun c => match sinkAt (net i).ev c with
          | some (.logger j) => calls j
          | some (.user k) => some [(i, c, k)]
          | none => some []) with
        | none => simp [hq]
        | some q => rw [hq] at this; simp at this
      | some y =>
        rw [hp] at this
        cases hq : (cs.mapM fun c => match sinkAt (net i).ev c with
          | some (.logger j) => calls j
          | some (.user k) => some [(i, c, k)]
          | none => some []) with
        | none => rw [hq] at this; simp at this
        | some q =>
          rw [hq] at this
          simp only [Option.map_some, Option.some.injEq] at this
          simp [hp, hq, called_append, this]

/-- C147.  If the decisions of the filters do not depend on the values, the sinks that are called are those of C146. -/
theorem C147_calls (e : E) (os : Nat → List (POp N E))
    (pool : Nat → Items N (LV E)) (hp : ∀ m, (pool m).Perm (poolRun (os m))) (filter : Nat → Option (E → Items N (LV E) → Bool))
    (acc : Nat → Bool) (hacc : ∀ m b, accepts e (filter m) b = acc m) :
    ∀ f i b, (pass cap e pool filter f net i b).map (fun x => called x.1) = fire cap acc f net i := by
  intro f
  induction f with
  | zero => intro i b; rfl
  | succ f ih =>
    intro i b
    obtain ⟨b1, a1, -⟩ := apply_pool e (os i) (hp i) b
    rw [pass, a1, fire]
    dsimp only
    rw [hacc]
    cases acc i with
    | false => rfl
    | true =>
      simp only [if_true]
      cases Event.fireArgs cap (fun _ _ => []) (cap + 1) (net i).ev with
      | done cs t =>
        dsimp only
        refine Eq.trans ?_ (passAll_called (net := net) (i := i) (below := pass cap e pool filter f net) (calls := fire cap acc f net) ih cs b1)
        rw [Option.map_map]
        rfl
      | _ => rfl

/-- What `Get<T>()` gives of name `n`, for each call.  (Specification; no code.) -/
def seen (e : E) (n : N) (ty : Nat) : List (Visit N E) → List (Nat × Option (Except RErr Nat))
  | [] => []
  | .enter _ :: l => seen e n ty l
  | .call j _ _ b :: l => (j, (look b n).map (LV.get e ty)) :: seen e n ty l

/-- Loggers 1 and 2 have the source 0; the user has sinks at 1, at 2 and, connected last, at 0. -/
def fork : List Op := [.register 1 0, .register 2 0, .connect 1 7, .connect 2 8, .connect 0 9]

/-- Logger 1 has the value 5 pending for the name `1`, logger 2 the value 6. -/
def forkPending (m : Nat) : List (POp Nat Unit) :=
  if m = 1 then [.add 1 (.leaf 0 fun _ => 5)] else if m = 2 then [.add 1 (.leaf 0 fun _ => 6)] else []

/-- C147 fails: independent loggers of one source disturb each other.  The sink of logger 2 gets the pending value of logger 1 instead of that
of logger 2, and the sink of the source gets it, too, although no logger is on its way. -/
theorem C147_fork_fails : ∃ net tr, Reach 4 8 (fun j => min j 1) net tr ∧ tr.map (·.1) = fork ∧
    registered 2 1 tr = some 0 ∧ (∀ d, registered 2 d tr = some 1 → False) ∧
    ∃ vs b', pass 4 () (fun m => poolRun (forkPending m)) (fun _ => none) 8 net 0 ([] : Items Nat (LV Unit)) = some (vs, b') ∧
      seen () 1 0 vs = [(1, some (.ok 5)), (2, some (.ok 5)), (0, some (.ok 5))] := by
  refine ⟨_, _, .step (.step (.step (.step (.step .init (o := .register 1 0) (by show (0:Nat) < 1; decide) rfl)
    (o := .register 2 0) (by show (0:Nat) < 1; decide) rfl) (o := .connect 1 7) trivial rfl) (o := .connect 2 8) trivial rfl)
    (o := .connect 0 9) trivial rfl, rfl, rfl, fun d hd => ?_, _, _, rfl, rfl⟩
  simp [registered] at hd

/-- C147 fails: a logger disturbs others even with records that its filter rejects. -/
theorem C147_rejected_fails : ∃ net tr, Reach 4 8 (fun j => min j 1) net tr ∧ tr.map (·.1) = fork ∧
    ∃ vs b', pass 4 () (fun m => poolRun (forkPending m)) (fun m => if m = 1 then some fun _ _ => false else none) 8 net 0
      ([] : Items Nat (LV Unit)) = some (vs, b') ∧ seen () 1 0 vs = [(2, some (.ok 5)), (0, some (.ok 5))] :=
  ⟨_, _, .step (.step (.step (.step (.step .init (o := .register 1 0) (by show (0:Nat) < 1; decide) rfl)
    (o := .register 2 0) (by show (0:Nat) < 1; decide) rfl) (o := .connect 1 7) trivial rfl) (o := .connect 2 8) trivial rfl)
    (o := .connect 0 9) trivial rfl, rfl, _, _, rfl, rfl⟩

/-! ### Examples -/

/-- A single file 0, 1, 2 with one sink at 2: the record's own value of name 0 is kept, name 1 is taken from logger 1, name 2 from logger 2. -/
example : ∃ net tr, Reach 4 8 (fun j => min j 2) net tr ∧ (∀ j, (net j).ev.getNumSinks ≤ 1) ∧
    ∃ vs b', pass 4 () (fun m => poolRun (if m = 1 then [.add 0 (.leaf 0 fun _ => 4), .add 1 (.leaf 0 fun _ => 5)] else
      if m = 2 then [.add 1 (.leaf 0 fun _ => 6), .add 2 (.leaf 0 fun _ => 7)] else [])) (fun _ => none) 8 net 0
      ([(0, .leaf 0 fun _ => 3)] : Items Nat (LV Unit)) = some (vs, b') ∧
    seen () 0 0 vs = [(2, some (.ok 3))] ∧ seen () 1 0 vs = [(2, some (.ok 5))] ∧ seen () 2 0 vs = [(2, some (.ok 7))] := by
  refine ⟨_, _, .step (.step (.step .init (o := .register 1 0) (by show (0:Nat) < 1; decide) rfl)
    (o := .register 2 1) (by show (1:Nat) < 2; decide) rfl) (o := .connect 2 8) trivial rfl, ?_, _, _, rfl, rfl, rfl, rfl⟩
  intro j
  match j with
  | 0 => decide
  | 1 => decide
  | 2 => decide
  | j + 3 => exact Nat.zero_le _

end Verif.Log.Net
