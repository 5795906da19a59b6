import Verif.Zc.Family

/-!
# Read-only zero-compressed buffers

`ConstZcBuffer` (`network/buffer/const-zc-buffer.h`) wraps a private `ZcBuffer` and forwards a part of the
interface to it.  The model is a client that owns buffers of both kinds, named by their position: a `Zc.ZState`
in which some buffers are marked read-only.

Simplifications: those of `Zc.Model`; the temporary `ZcBuffer` that `MakeFragment` and `MakeRealBuffer` return and
convert (`const-zc-buffer.h:280-288`) is taken to be the result itself (it is copied and destroyed, which leaves the
reference counter as it was).
-/
set_option linter.unusedSimpArgs false
set_option linter.unusedVariables false
namespace Verif.Zc
open Verif Verif.Buf

/-! ### Model -/

/-- The buffers of a client, and which of them are `ConstZcBuffer` objects.
(`zc-buffer.h:350-375`, `const-zc-buffer.h:184-190`.) -/
structure CState where
  s : ZState
  ro : List Bool

/-- No buffers yet.  (A client before it constructs any; no code.) -/
def CState.init (junk : Nat → Nat → Byte) : CState := ⟨ZState.init junk, []⟩

/-- The operations on both kinds of buffers.  (`const-zc-buffer.h:74-184`, `zc-buffer.h:77-346`.) -/
inductive COp where
  /-- An operation of `ZcBuffer`; buffers that are appended or prepended may be of any kind
  (`zc-buffer.h:771-780`, `937-947`). -/
  | buffer (o : ZOp)
  /-- `ConstZcBuffer(const ZcBuffer&)` (`const-zc-buffer.h:201-204`). -/
  | view (j : Nat)
  /-- `ConstZcBuffer(const ConstZcBuffer&)` (`const-zc-buffer.h:206-209`). -/
  | copy (j : Nat)
  /-- `ConstZcBuffer(ConstZcBuffer&&)` (`const-zc-buffer.h:220-223`), which copies. -/
  | move (j : Nat)
  /-- `operator=(const ConstZcBuffer&)` (`const-zc-buffer.h:211-218`). -/
  | assign (i j : Nat)
  /-- `operator=(ConstZcBuffer&&)` (`const-zc-buffer.h:225-232`). -/
  | moveAssign (i j : Nat)
  /-- `swap` (`const-zc-buffer.h:315-318`). -/
  | swap (i j : Nat)
  /-- The implicit destructor. -/
  | destroy (i : Nat)
  /-- `MakeFragment` (`const-zc-buffer.h:280-283`). -/
  | fragment (j start size : Nat)
  /-- `MakeRealBuffer` (`const-zc-buffer.h:285-288`). -/
  | real (j : Nat)
  /-- `Realize` (`const-zc-buffer.h:290-293`). -/
  | realize (i : Nat)

/-- What is forwarded to the wrapped `ZcBuffer`.  (`const-zc-buffer.h:192-332`.) -/
def COp.forward : COp → ZOp
  | .buffer o => o
  | .view j | .copy j | .move j => .copy j
  | .real j => .real j
  | .assign i j => .assign i j
  | .moveAssign i j => .moveAssign i j
  | .swap i j => .swap i j
  | .destroy i => .destroy i
  | .fragment j a n => .fragment j a n
  | .realize i => .realize i

/-- The kinds of buffers that an operation of `ZcBuffer` accepts.
(What compiles: the methods of `zc-buffer.h:77-346` that change bytes exist for `ZcBuffer` only.) -/
def ZOp.typed (ro : List Bool) : ZOp → Bool
  | .new _ _ _ | .newFrom _ => true
  | .copy j | .move j | .destroy j | .addStart j _ | .addEnd j _ | .addStartBytes j _ | .addEndBytes j _
  | .removeStart j _ | .removeEnd j _ | .fragment j _ _ | .write j _ _ | .real j | .realize j => ro[j]? == some false
  | .assign i j | .moveAssign i j | .swap i j => ro[i]? == some false && ro[j]? == some false
  | .addStartBuf i _ | .addEndBuf i _ => ro[i]? == some false

/-- The kinds of buffers that an operation accepts.  (What compiles: `const-zc-buffer.h:74-184`.) -/
def COp.typed (ro : List Bool) : COp → Bool
  | .buffer o => o.typed ro
  | .view j => ro[j]? == some false
  | .copy j | .move j | .destroy j | .fragment j _ _ | .real j | .realize j => ro[j]? == some true
  | .assign i j | .moveAssign i j | .swap i j => ro[i]? == some true && ro[j]? == some true

/-- The kinds of the buffers that an operation makes.
(The return types in `const-zc-buffer.h:74-184` and `zc-buffer.h:77-346`.) -/
def COp.kinds : COp → List Bool
  | .buffer (.new _ _ _) | .buffer (.newFrom _) | .buffer (.copy _) | .buffer (.move _)
  | .buffer (.fragment _ _ _) | .buffer (.real _) => [false]
  | .view _ | .copy _ | .move _ | .fragment _ _ _ | .real _ => [true]
  | _ => []

/-- One operation; `none` is undefined behaviour or a program that does not compile.  (`const-zc-buffer.h:192-332`.) -/
def CState.step (c : CState) (o : COp) : Option CState :=
  if o.typed c.ro then (c.s.step o.forward).map fun s' => ⟨s', c.ro ++ o.kinds⟩ else none

/-- A history.  (A client; no code.) -/
def CState.run (c : CState) : List COp → Option CState
  | [] => some c
  | o :: os => match c.step o with
    | none => none
    | some c1 => c1.run os

/-- The bytes of all buffers.  (See `ZState.bytes`; `zc-buffer.h:324-342`.) -/
def ZState.views (s : ZState) : List (List Byte) := s.bufs.map (bytesOf s.mem)

/-! ### Lemmas -/

theorem cstep_some {c c' : CState} {o : COp} (h : c.step o = some c') :
    o.typed c.ro = true ∧ c.s.step o.forward = some c'.s ∧ c'.ro = c.ro ++ o.kinds := by
  unfold CState.step at h
  split at h
  · rename_i ht
    cases e : c.s.step o.forward with
    | none => rw [e] at h; cases h
    | some s1 => rw [e] at h; cases h; exact ⟨ht, rfl, rfl⟩
  · cases h

/-- The history of the wrapped buffers. -/
theorem forward_run {hist : List COp} : ∀ {c c' : CState}, c.run hist = some c' →
    c.s.run (hist.map COp.forward) = some c'.s := by
  induction hist with
  | nil => intro c c' h; cases h; rfl
  | cons o os ih =>
    intro c c' h
    cases e : c.step o with
    | none => simp only [CState.run, e] at h; cases h
    | some c1 =>
      simp only [CState.run, e] at h
      simp only [List.map_cons, ZState.run, (cstep_some e).2.1]
      exact ih h

theorem step_length {s s' : ZState} {o : ZOp} (hb : Inv s) (h : s.step o = some s') :
    s'.bufs.length = s.bufs.length + (COp.kinds (.buffer o)).length := by
  rcases (step_inv hb h).2 with hok | rfl
  · obtain ⟨s2, hs⟩ := step_ok hb o hok
    rw [hs.step] at h; cases h
    cases o <;> exact hs.effect.1
  · cases o with
    | new | newFrom | copy | move | fragment | real =>
      obtain ⟨s2, hs⟩ := step_ok hb _ (step_some_ok h trivial)
      rw [hs.step] at h; cases h
      exact hs.effect.1
    | _ => rfl

/-- Reachable states of a client.  (Specification; no code.) -/
def CReach (c : CState) : Prop := ∃ junk hist, (CState.init junk).run hist = some c

/-- The marks describe all buffers. -/
theorem cstep_wf {c c' : CState} {o : COp} (hb : Inv c.s) (hl : c.ro.length = c.s.bufs.length)
    (h : c.step o = some c') : Inv c'.s ∧ c'.ro.length = c'.s.bufs.length := by
  obtain ⟨ht, hr, hk⟩ := cstep_some h
  refine ⟨(step_inv hb hr).1, ?_⟩
  rw [hk, List.length_append, hl, step_length hb hr]
  cases o <;> rfl

theorem crun_wf {hist : List COp} : ∀ {c c' : CState}, Inv c.s → c.ro.length = c.s.bufs.length →
    c.run hist = some c' → Inv c'.s ∧ c'.ro.length = c'.s.bufs.length := by
  induction hist with
  | nil => intro c c' hb hl h; cases h; exact ⟨hb, hl⟩
  | cons o os ih =>
    intro c c' hb hl h
    cases e : c.step o with
    | none => simp only [CState.run, e] at h; cases h
    | some c1 =>
      simp only [CState.run, e] at h
      obtain ⟨h1, h2⟩ := cstep_wf hb hl e
      exact ih h1 h2 h

theorem creach_wf {c : CState} (h : CReach c) : Inv c.s ∧ c.ro.length = c.s.bufs.length := by
  obtain ⟨junk, hist, h⟩ := h
  exact crun_wf (init_inv junk) rfl h

theorem views_length (s : ZState) : s.views.length = s.bufs.length := by simp [ZState.views]

theorem views_get {s : ZState} {k : Nat} (hk : k < s.bufs.length) : s.views[k]? = some (s.bytes k) := by
  simp [ZState.views, ZState.bytes, List.getElem?_eq_getElem hk]

/-- Two lists of byte sequences agree if they agree at each buffer. -/
theorem views_eq {s : ZState} {L : List (List Byte)} (hl : L.length = s.bufs.length)
    (h : ∀ k, k < s.bufs.length → L[k]? = some (s.bytes k)) : s.views = L := by
  apply List.ext_getElem?
  intro k
  by_cases hk : k < s.bufs.length
  · rw [views_get hk, h k hk]
  · rw [List.getElem?_eq_none (by rw [views_length]; omega), List.getElem?_eq_none (by omega)]

end Verif.Zc
