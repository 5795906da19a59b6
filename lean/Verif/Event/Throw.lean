import Verif.Event.Lemmas
/-!
Model of `nsfx::Event` and `nsfx::Portainer` whose sinks throw and that find no memory.

A sink is a program: it connects and disconnects sinks, fires the same event again, to any depth,
catches the exceptions of what it calls, or not, and returns or throws.  `Fire` has no handler: an
exception of a sink leaves the loop (/repo/event/event.h 248-289).  `Connect` may need memory for
another connection; `bad_alloc` is caught and reported as `ConnectionLimit` (/repo/event/event.h
125-141, 160-198).
-/
namespace Verif.Event
variable {σ : Type}

/-- `Connect()` with and without memory for another slot; /repo/event/event.h 125-141, 160-198: a
free slot needs no memory; otherwise `emplace_back` throws `bad_alloc`, which leaves the cookie 0.
(A vector may also have spare room; `mem` is then `true`.) -/
def Table.connectM (cap : Nat) (t : Table σ) (s : Option σ) (mem : Bool) : Except Err (Nat × Table σ) :=
  match s with
  | none => .error .invalidPointer
  | some s =>
    if t.num = cap then .error .connectionLimit
    else if t.num < t.slots.length ∨ mem = true then
      let r := t.insert s
      if r.1 = 0 then .error .connectionLimit else .ok r
    else .error .connectionLimit

/-- `Portainer::Add()`; /repo/event/portainer.h 137-157, 177-216. -/
def Table.addM (cap : Nat) (t : Table σ) (x : σ) (mem : Bool) : Nat × Table σ :=
  if t.num < cap then
    if t.num < t.slots.length ∨ mem = true then t.insert x else (0, t)
  else (0, t)

/-- What a sink does in one call.  `connect` is told the cookie or the exception, `fire` whether `Fire`
threw: a sink that does not catch goes on with `throw`.
(The client's; the methods are /repo/event/event.h 125-157, 248-289.) -/
inductive Script (σ : Type)
  | ret
  | throw
  | connect (s : Option σ) (mem : Bool) (k : Except Err Nat → Script σ)
  | disconnect (c : Nat) (k : Script σ)
  | fire (k : Bool → Script σ)

/-- The calls of sinks and their ends: the depth of the `Fire`, the cookie, and whether the sink
threw.  (The calls in /repo/event/event.h 257, 283, 287.) -/
inductive Ev
  | call (d c : Nat)
  | ret (d c : Nat) (threw : Bool)
deriving Repr, DecidableEq

/-- The programs of the sinks, given what happened before.  (The client's; no code.) -/
abbrev Sinks (σ : Type) := List Ev → σ → Script σ

/-- The outcome of a call or of `Fire`: it has ended, by an exception or not; a null or out-of-range
pointer has been used; or it has not ended within the given fuel.  (/repo/event/event.h 248-289.) -/
inductive Res (σ : Type)
  | ended (threw : Bool) (tr : List Ev) (t : Table σ)
  | fault
  | running

/-- What the loop of `Fire` does at index `i`.  (/repo/event/event.h 248-289.) -/
inductive Step (σ : Type)
  | stop
  | skip
  | call (s : σ)
  | callLast (s : σ)
  | null

/-- `Fire(void)` (`args = false`), also `Visit()`: /repo/event/event.h 235-262, /repo/event/portainer.h
246-257; and `Fire(args...)` (`args = true`): /repo/event/event.h 274-289. -/
def Table.next (args : Bool) (t : Table σ) (i : Nat) : Step σ :=
  if args then
    if i = 0 ∧ t.last = 0 then .stop
    else if i < dec32 t.last then
      match t.slots[i]? with
      | none => .null
      | some none => .skip
      | some (some s) => .call s
    else
      match t.slots[i]? with
      | some (some s) => .callLast s
      | _ => .null
  else if i < t.last then
    match t.slots[i]? with
    | none => .null
    | some none => .skip
    | some (some s) => .call s
  else .stop

mutual
/-- A sink runs, called from a `Fire` of depth `d`.  `fire` is a `Fire` of the same event inside of the
sink (/repo/event/event.h 248-289). -/
def runScript (args : Bool) (cap : Nat) (P : Sinks σ) :
    Nat → Nat → Script σ → List Ev → Table σ → Res σ
  | 0, _, _, _, _ => .running
  | _ + 1, _, .ret, tr, t => .ended false tr t
  | _ + 1, _, .throw, tr, t => .ended true tr t
  | n + 1, d, .connect s mem k, tr, t =>
    match t.connectM cap s mem with
    | .ok r => runScript args cap P n d (k (.ok r.1)) tr r.2
    | .error e => runScript args cap P n d (k (.error e)) tr t
  | n + 1, d, .disconnect c k, tr, t => runScript args cap P n d k tr (t.disconnect c)
  | n + 1, d, .fire k, tr, t =>
    match fireLoop args cap P n (d + 1) 0 tr t with
    | .ended b tr' t' => runScript args cap P n d (k b) tr' t'
    | .fault => .fault
    | .running => .running

/-- The loop of `Fire` from index `i`; /repo/event/event.h 248-262, 274-289.  An exception of a sink
ends it. -/
def fireLoop (args : Bool) (cap : Nat) (P : Sinks σ) :
    Nat → Nat → Nat → List Ev → Table σ → Res σ
  | 0, _, _, _, _ => .running
  | n + 1, d, i, tr, t =>
    match t.next args i with
    | .stop => .ended false tr t
    | .skip => fireLoop args cap P n d (i + 1) tr t
    | .call s =>
      match runScript args cap P n d (P tr s) (tr ++ [.call d (i + 1)]) t with
      | .ended true tr' t' => .ended true (tr' ++ [.ret d (i + 1) true]) t'
      | .ended false tr' t' => fireLoop args cap P n d (i + 1) (tr' ++ [.ret d (i + 1) false]) t'
      | .fault => .fault
      | .running => .running
    | .callLast s =>
      match runScript args cap P n d (P tr s) (tr ++ [.call d (i + 1)]) t with
      | .ended b tr' t' => .ended b (tr' ++ [.ret d (i + 1) b]) t'
      | .fault => .fault
      | .running => .running
    | .null => .fault
end

/-- `Fire` at depth `d`; /repo/event/event.h 248-289. -/
def fire (args : Bool) (cap : Nat) (P : Sinks σ) (n d : Nat) (tr : List Ev) (t : Table σ) : Res σ :=
  fireLoop args cap P n d 0 tr t

/-! ## Lemmas -/

/-- The sink never disconnects `c`.  (Specification; no code.) -/
def Script.Spares (c : Nat) : Script σ → Prop
  | .ret => True
  | .throw => True
  | .connect _ _ k => ∀ r, (k r).Spares c
  | .disconnect c' k => c' ≠ c ∧ k.Spares c
  | .fire k => ∀ b, (k b).Spares c

/-- The sink never fires the event.  (Specification; no code.) -/
def Script.Flat : Script σ → Prop
  | .ret => True
  | .throw => True
  | .connect _ _ k => ∀ r, (k r).Flat
  | .disconnect _ k => k.Flat
  | .fire _ => False

theorem connectM_cases (cap : Nat) (t : Table σ) (s : Option σ) (mem : Bool) :
    t.connectM cap s mem = t.connect cap s ∨ t.connectM cap s mem = .error .connectionLimit := by
  cases s with
  | none => left; rfl
  | some s =>
    simp only [Table.connectM, Table.connect]
    by_cases h : t.num = cap
    · right; simp [h]
    · by_cases h2 : t.num < t.slots.length ∨ mem = true
      · left; simp [h, h2]
      · right; simp [h, h2]

theorem connectM_apply {cap : Nat} {t : Table σ} {s : Option σ} {mem : Bool} {r : Nat × Table σ}
    (h : t.connectM cap s mem = .ok r) : r.2 = t.apply cap (.connect s) := by
  rcases connectM_cases cap t s mem with e | e
  · rw [e] at h; simp [Table.apply, h]
  · rw [e] at h; cases h

/-- `t'` comes from `t` by operations that do not disconnect the cookies of which all sinks keep
away.  (Specification; no code.) -/
def Moves (cap : Nat) (safe : Nat → Prop) (t t' : Table σ) : Prop :=
  ∃ ops, t' = t.run cap ops ∧ ∀ c, safe c → Op.disconnect c ∉ ops

theorem Moves.refl {cap : Nat} {safe : Nat → Prop} (t : Table σ) : Moves cap safe t t := ⟨[], rfl, by simp⟩

theorem Moves.one {cap : Nat} {safe : Nat → Prop} {t : Table σ} (o : Op σ)
    (h : ∀ c, safe c → Op.disconnect c ≠ o) : Moves cap safe t (t.apply cap o) :=
  ⟨[o], rfl, fun c hc hm => h c hc (by simpa using hm)⟩

theorem Moves.trans {cap : Nat} {safe : Nat → Prop} {t u v : Table σ} (h : Moves cap safe t u)
    (h' : Moves cap safe u v) : Moves cap safe t v := by
  obtain ⟨a, rfl, ha⟩ := h
  obtain ⟨b, rfl, hb⟩ := h'
  refine ⟨a ++ b, by simp [Table.run], fun c hc hm => ?_⟩
  rcases List.mem_append.1 hm with hm | hm
  · exact ha c hc hm
  · exact hb c hc hm

theorem Moves.wf {cap : Nat} (hcap : cap < 2 ^ 32) {safe : Nat → Prop} {t u : Table σ} (h : Moves cap safe t u)
    (w : WF cap t) : WF cap u := by
  obtain ⟨a, rfl, -⟩ := h; exact run_wf w hcap a

theorem Moves.keep {cap : Nat} (hcap : cap < 2 ^ 32) {safe : Nat → Prop} {t u : Table σ} (h : Moves cap safe t u)
    (w : WF cap t) {j : Nat} {x : σ} (hx : t.sl j = some x) (hs : safe (j + 1)) : u.sl j = some x := by
  obtain ⟨a, rfl, ha⟩ := h; exact run_keep w hcap hx (ha _ hs)

/-- The depth of an entry.  (Specification; no code.) -/
def Ev.depth : Ev → Nat
  | .call d _ => d
  | .ret d _ _ => d

/-- The calls made by a `Fire` of depth `d`.  (Specification; no code.) -/
def callsAt (d : Nat) (tr : List Ev) : List Nat :=
  tr.filterMap fun e => match e with
    | .call d' c => if d' = d then some c else none
    | .ret _ _ _ => none

end Verif.Event
