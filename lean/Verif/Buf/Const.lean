import Verif.Buf.Family

/-!
# Read-only buffers

`ConstBuffer` (`network/buffer/const-buffer.h`) wraps a private `Buffer` and forwards a part of the interface
to it.  The model is a client that owns buffers of both kinds, named by their position: a `Buf.State` in which
some buffers are marked read-only.

Simplifications: those of `Buf.Buffer`; the temporary `Buffer` that `MakeFragment` and `MakeRealBuffer` return
and convert (`const-buffer.h:257-265`) is taken to be the result itself (it is copied and destroyed, which leaves
the reference counter as it was).
-/
set_option linter.unusedSimpArgs false
set_option linter.unusedVariables false
namespace Verif.Buf

/-! ### Model -/

/-- The buffers of a client, and which of them are `ConstBuffer` objects.  (`buffer.h:331-347`, `const-buffer.h:161-165`.) -/
structure CState where
  s : State
  ro : List Bool

/-- No buffers yet.  (A client before it constructs any; no code.) -/
def CState.init (junk : Nat → Nat → Byte) : CState := ⟨State.init junk, []⟩

/-- The operations on both kinds of buffers.  (`const-buffer.h:49-157`, `buffer.h:60-327`.) -/
inductive COp where
  /-- An operation of `Buffer`; buffers that are appended or prepended may be of any kind
  (`buffer.h:672-682`, `835-846`). -/
  | buffer (o : Op)
  /-- `ConstBuffer(const Buffer&)` (`const-buffer.h:178-181`). -/
  | view (j : Nat)
  /-- `ConstBuffer(const ConstBuffer&)` (`const-buffer.h:183-186`). -/
  | copy (j : Nat)
  /-- `ConstBuffer(ConstBuffer&&)` (`const-buffer.h:197-200`). -/
  | move (j : Nat)
  /-- `operator=(const ConstBuffer&)` (`const-buffer.h:188-195`). -/
  | assign (i j : Nat)
  /-- `operator=(ConstBuffer&&)` (`const-buffer.h:202-209`). -/
  | moveAssign (i j : Nat)
  /-- `swap` (`const-buffer.h:292-295`). -/
  | swap (i j : Nat)
  /-- The implicit destructor. -/
  | destroy (i : Nat)
  /-- `MakeFragment` (`const-buffer.h:257-260`). -/
  | fragment (j start size : Nat)
  /-- `MakeRealBuffer` (`const-buffer.h:262-265`). -/
  | real (j : Nat)
  /-- `Realize` (`const-buffer.h:267-270`, `buffer.h:940-943`): does nothing. -/
  | realize (i : Nat)

/-- What is forwarded to the wrapped `Buffer`.  (`const-buffer.h:169-309`.) -/
def COp.forward : COp → List Op
  | .buffer o => [o]
  | .view j | .copy j | .real j => [.copy j]
  | .move j => [.move j]
  | .assign i j => [.assign i j]
  | .moveAssign i j => [.moveAssign i j]
  | .swap i j => [.swap i j]
  | .destroy i => [.destroy i]
  | .fragment j a n => [.fragment j a n]
  | .realize _ => []

/-- The kinds of buffers that an operation of `Buffer` accepts.
(What compiles: the methods of `buffer.h:60-327` that change bytes exist for `Buffer` only.) -/
def Op.typed (ro : List Bool) : Op → Bool
  | .new _ _ _ | .newFrom _ => true
  | .copy j | .move j | .destroy j | .addStart j _ | .addEnd j _ | .addStartBytes j _ | .addEndBytes j _
  | .removeStart j _ | .removeEnd j _ | .fragment j _ _ | .write j _ _ => ro[j]? == some false
  | .assign i j | .moveAssign i j | .swap i j => ro[i]? == some false && ro[j]? == some false
  | .addStartBuf i _ | .addEndBuf i _ => ro[i]? == some false

/-- The kinds of buffers that an operation accepts.  (What compiles: `const-buffer.h:49-157`.) -/
def COp.typed (ro : List Bool) : COp → Bool
  | .buffer o => o.typed ro
  | .view j => ro[j]? == some false
  | .copy j | .move j | .destroy j | .fragment j _ _ | .real j | .realize j => ro[j]? == some true
  | .assign i j | .moveAssign i j | .swap i j => ro[i]? == some true && ro[j]? == some true

/-- The kinds after an operation: the kinds of the new buffers are appended.
(The return types in `const-buffer.h:49-157` and `buffer.h:60-327`.) -/
def COp.kinds : COp → List Bool
  | .buffer (.new _ _ _) | .buffer (.newFrom _) | .buffer (.copy _) | .buffer (.move _)
  | .buffer (.fragment _ _ _) => [false]
  | .view _ | .copy _ | .move _ | .fragment _ _ _ | .real _ => [true]
  | _ => []

/-- One operation; `none` is undefined behaviour or a program that does not compile.  (`const-buffer.h:169-309`.) -/
def CState.step (c : CState) (o : COp) : Option CState :=
  if o.typed c.ro then (c.s.run o.forward).map fun s' => ⟨s', c.ro ++ o.kinds⟩ else none

/-- A history.  (A client; no code.) -/
def CState.run (c : CState) : List COp → Option CState
  | [] => some c
  | o :: os => match c.step o with
    | none => none
    | some c1 => c1.run os

/-! ### Lemmas -/

theorem run_app {a b : List Op} : ∀ {s : State}, s.run (a ++ b) = (s.run a).bind (fun t => t.run b) := by
  induction a with
  | nil => intro s; rfl
  | cons o os ih =>
    intro s
    simp only [List.cons_append, State.run]
    cases s.step o with
    | none => rfl
    | some s1 => exact ih

/-- The history of the wrapped buffers. -/
theorem forward_run {hist : List COp} : ∀ {c c' : CState}, c.run hist = some c' →
    c.s.run (hist.flatMap COp.forward) = some c'.s := by
  induction hist with
  | nil => intro c c' h; cases h; rfl
  | cons o os ih =>
    intro c c' h
    cases e : c.step o with
    | none => simp only [CState.run, e] at h; cases h
    | some c1 =>
      simp only [CState.run, e] at h
      rw [List.flatMap_cons, run_app]
      unfold CState.step at e
      split at e
      · cases e2 : c.s.run o.forward with
        | none => rw [e2] at e; cases e
        | some s1 =>
          rw [e2] at e; cases e
          exact ih h
      · cases e

theorem step_length {s s' : State} {o : Op} (hb : Base s.mem s.bufs) (h : s.step o = some s') :
    s'.bufs.length = s.bufs.length + (COp.kinds (.buffer o)).length := by
  rcases (step_base hb h).2 with hok | rfl
  · obtain ⟨s2, hs⟩ := step_ok hb o hok
    rw [hs.step] at h; cases h
    cases o <;> exact hs.effect.1
  · cases o with
    | new | newFrom | copy | move | fragment =>
      obtain ⟨s2, hs⟩ := step_ok hb _ (step_some_ok hb h trivial)
      rw [hs.step] at h; cases h
      exact hs.effect.1
    | _ => rfl

/-- Reachable states of a client.  (Specification; no code.) -/
def CReach (c : CState) : Prop := ∃ junk hist, (CState.init junk).run hist = some c

theorem creach_base {c : CState} (h : CReach c) : Base c.s.mem c.s.bufs := by
  obtain ⟨junk, hist, h⟩ := h
  exact run_base (init_base junk) (forward_run h)

theorem cstep_some {c c' : CState} {o : COp} (h : c.step o = some c') :
    o.typed c.ro = true ∧ c.s.run o.forward = some c'.s ∧ c'.ro = c.ro ++ o.kinds := by
  unfold CState.step at h
  split at h
  · rename_i ht
    cases e : c.s.run o.forward with
    | none => rw [e] at h; cases h
    | some s1 => rw [e] at h; cases h; exact ⟨ht, rfl, rfl⟩
  · cases h

theorem run_one {s : State} {o : Op} : s.run [o] = s.step o := by
  simp only [State.run]; cases s.step o <;> rfl

/-- The marks describe all buffers. -/
theorem cstep_wf {c c' : CState} {o : COp} (hb : Base c.s.mem c.s.bufs) (hl : c.ro.length = c.s.bufs.length)
    (h : c.step o = some c') : Base c'.s.mem c'.s.bufs ∧ c'.ro.length = c'.s.bufs.length := by
  obtain ⟨ht, hr, hk⟩ := cstep_some h
  refine ⟨run_base hb hr, ?_⟩
  rw [hk, List.length_append, hl]
  cases o with
  | realize => have e := Option.some.inj hr; rw [← e]; rfl
  | buffer o => rw [COp.forward, run_one] at hr; rw [step_length hb hr]
  | _ => simp only [COp.forward, run_one] at hr; rw [step_length hb hr]; rfl

theorem crun_wf {hist : List COp} : ∀ {c c' : CState}, Base c.s.mem c.s.bufs → c.ro.length = c.s.bufs.length →
    c.run hist = some c' → Base c'.s.mem c'.s.bufs ∧ c'.ro.length = c'.s.bufs.length := by
  induction hist with
  | nil => intro c c' hb hl h; cases h; exact ⟨hb, hl⟩
  | cons o os ih =>
    intro c c' hb hl h
    cases e : c.step o with
    | none => simp only [CState.run, e] at h; cases h
    | some c1 =>
      simp only [CState.run, e] at h
      obtain ⟨h1, h2⟩ := cstep_wf hb hl e
      exact ih h1 h2 h

theorem creach_wf {c : CState} (h : CReach c) : Base c.s.mem c.s.bufs ∧ c.ro.length = c.s.bufs.length := by
  obtain ⟨junk, hist, h⟩ := h
  exact crun_wf (init_base junk) rfl h

theorem views_length (s : State) : s.views.length = s.bufs.length := by simp [State.views]

theorem views_get {s : State} {k : Nat} (hk : k < s.bufs.length) : s.views[k]? = some (s.bytes k) := by
  simp [State.views, State.bytes, List.getElem?_eq_getElem hk]

/-- Two lists of byte sequences agree if they agree at each buffer. -/
theorem views_eq {s : State} {L : List (List Byte)} (hl : L.length = s.bufs.length)
    (h : ∀ k, k < s.bufs.length → L[k]? = some (s.bytes k)) : s.views = L := by
  apply List.ext_getElem?
  intro k
  by_cases hk : k < s.bufs.length
  · rw [views_get hk, h k hk]
  · rw [List.getElem?_eq_none (by rw [views_length]; omega), List.getElem?_eq_none (by omega)]

end Verif.Buf
