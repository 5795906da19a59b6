import Verif.Event.Life
set_option linter.unusedSimpArgs false
/-!
Lemmas about the life time of sinks that are being called (`Verif.Event.Life`).
-/
namespace Verif.Event
variable {τ : Type}

/-- What the proofs need to know about a source; `ok` is an invariant of it. -/
structure Source.Lawful (S : Source τ) (ok : τ → Prop) : Prop where
  init : ok S.init
  connect_ok : ∀ {t s}, ok t → ok (S.connect t s)
  disconnect_ok : ∀ {t c}, ok t → ok (S.disconnect t c)
  finish_ok : ∀ {t c}, ok t → ok (S.finish t c)
  connect_keep : ∀ {t c s s'}, ok t → S.look t c = some s → S.look (S.connect t s') c = some s
  disconnect_keep : ∀ {t c s c'}, ok t → S.look t c = some s → c' ≠ c →
    S.look (S.disconnect t c') c = some s
  finish_keep : ∀ {t c s c'}, ok t → S.look t c = some s → c' ≠ c →
    S.look (S.finish t c') c = some s
  next_call : ∀ {t k i c s}, ok t → S.next t k i = .call c s → S.look t c = some s
  next_callLast : ∀ {t k i c s}, ok t → S.next t k i = .callLast c s → S.look t c = some s
  look_kept : ∀ {t c s}, S.look t c = some s → s ∈ S.kept t
  kept_look : ∀ {t s}, s ∈ S.kept t → ∃ c, S.look t c = some s

/-- In the state with the frames `stack`, a call of the sink `s` of the connection `c` is under
way. -/
def Active (stack : List Frame) (c s : Nat) : Prop := ∃ r, Frame.call c s r ∈ stack

/-- After `m` steps, the connection `c` of the sink `s`, which is being called, is about to be
removed by an act, or by the return of another call of `c`. -/
def Lost (S : Source τ) (P : Prog) (script : List Act) (m c s : Nat) : Prop :=
  ∃ f fs w, exec S P script m = .run (f :: fs) w ∧ Active (f :: fs) c s ∧ S.look w.t c = some s ∧
    (f.rest.head? = some (.disconnect c) ∨
      (∃ s', f = .call c s' [] ∧ Active fs c s ∧ S.look (S.finish w.t c) c ≠ some s))

theorem Active.cons {f : Frame} {fs : List Frame} {c s : Nat} (h : Active fs c s) :
    Active (f :: fs) c s := by
  obtain ⟨r, h⟩ := h
  exact ⟨r, List.mem_cons_of_mem _ h⟩

theorem Active.uncons {f : Frame} {fs : List Frame} {c s : Nat} (h : Active (f :: fs) c s) :
    (∃ r, f = .call c s r) ∨ Active fs c s := by
  obtain ⟨r, h⟩ := h
  rcases List.mem_cons.mp h with h | h
  · exact .inl ⟨r, h.symm⟩
  · exact .inr ⟨r, h⟩

/-- What is known of every state on the way. -/
def Good (S : Source τ) (ok : τ → Prop) (P : Prog) (script : List Act) (n : Nat) (stack : List Frame)
    (w : World τ) : Prop :=
  ok w.t ∧ ∀ c s, Active stack c s → S.look w.t c = some s ∨ ∃ m, m < n ∧ Lost S P script m c s

theorem act_good {S : Source τ} {ok : τ → Prop} (L : S.Lawful ok) {P : Prog} {script : List Act}
    {n : Nat} {f f' : Frame} {fs : List Frame} {w : World τ} {a : Act} {r : List Act}
    (he : exec S P script n = .run (f :: fs) w) (hr : f.rest = a :: r)
    (hf : ∀ c s, Active (f' :: fs) c s → Active (f :: fs) c s)
    (g : Good S ok P script n (f :: fs) w) : Good S ok P script (n + 1) (f' :: fs) (w.act S a) := by
  obtain ⟨h1, h2⟩ := g
  have later : ∀ c s, (∃ m, m < n ∧ Lost S P script m c s) → ∃ m, m < n + 1 ∧ Lost S P script m c s :=
    fun c s ⟨m, hm, hl⟩ => ⟨m, by omega, hl⟩
  have same : ∀ w' : World τ, w'.t = w.t → Good S ok P script (n + 1) (f' :: fs) w' := by
    intro w' hw
    refine ⟨by rw [hw]; exact h1, fun c s ha => ?_⟩
    rcases h2 c s (hf c s ha) with h | h
    · exact .inl (by rw [hw]; exact h)
    · exact .inr (later c s h)
  cases a with
  | create => exact same _ rfl
  | hold x =>
    simp only [World.act]; split
    · exact same _ rfl
    · exact same _ rfl
  | release x => exact same _ rfl
  | fire k => exact same _ rfl
  | connect x =>
    simp only [World.act]; split
    · refine ⟨L.connect_ok h1, fun c s ha => ?_⟩
      rcases h2 c s (hf c s ha) with h | h
      · exact .inl (L.connect_keep h1 h)
      · exact .inr (later c s h)
    · exact same _ rfl
  | disconnect x =>
    refine ⟨L.disconnect_ok h1, fun c s ha => ?_⟩
    rcases h2 c s (hf c s ha) with h | h
    · by_cases hx : x = c
      · subst hx
        exact .inr ⟨n, by omega, f, fs, w, he, hf _ _ ha, h, .inl (by rw [hr]; rfl)⟩
      · exact .inl (L.disconnect_keep h1 h hx)
    · exact .inr (later c s h)

theorem doAct_good {S : Source τ} {ok : τ → Prop} (L : S.Lawful ok) {P : Prog} {script : List Act}
    {n : Nat} {f f' : Frame} {fs : List Frame} {w : World τ} {a : Act} {r : List Act}
    (he : exec S P script n = .run (f :: fs) w) (hr : f.rest = a :: r)
    (hf : ∀ c s, Active (f' :: fs) c s → Active (f :: fs) c s)
    (g : Good S ok P script n (f :: fs) w) {stack : List Frame} {w' : World τ}
    (h : doAct S a f' fs w = .run stack w') : Good S ok P script (n + 1) stack w' := by
  have g' := act_good L he hr hf g
  cases a with
  | fire k =>
    simp only [doAct, State.run.injEq] at h
    obtain ⟨rfl, rfl⟩ := h
    refine ⟨g'.1, fun c s ha => ?_⟩
    rcases ha.uncons with ⟨r, h⟩ | h
    · cases h
    · exact g'.2 c s h
  | _ =>
    simp only [doAct, State.run.injEq] at h
    obtain ⟨rfl, rfl⟩ := h
    exact g'

theorem exec_good {S : Source τ} {ok : τ → Prop} (L : S.Lawful ok) (P : Prog) (script : List Act)
    (n : Nat) : ∀ stack w, exec S P script n = .run stack w → Good S ok P script n stack w := by
  induction n with
  | zero =>
    intro stack w h
    simp only [exec, State.run.injEq] at h
    obtain ⟨rfl, rfl⟩ := h
    refine ⟨L.init, fun c s ha => ?_⟩
    obtain ⟨r, hr⟩ := ha
    simp at hr
  | succ n ih =>
    intro stack w h
    rw [exec] at h
    have later : ∀ c s, (∃ m, m < n ∧ Lost S P script m c s) →
        ∃ m, m < n + 1 ∧ Lost S P script m c s := fun c s ⟨m, hm, hl⟩ => ⟨m, by omega, hl⟩
    cases he : exec S P script n with
    | done w0 => rw [he] at h; simp [step] at h
    | null => rw [he] at h; simp [step] at h
    | dead => rw [he] at h; simp [step] at h
    | run st w0 =>
      have g := ih st w0 he
      rw [he] at h
      cases st with
      | nil => simp [step] at h
      | cons f fs =>
        cases f with
        | user r =>
          cases r with
          | nil =>
            simp only [step, State.run.injEq] at h
            obtain ⟨rfl, rfl⟩ := h
            refine ⟨g.1, fun c s ha => ?_⟩
            rcases g.2 c s ha.cons with h | h
            · exact .inl h
            · exact .inr (later c s h)
          | cons a r =>
            refine doAct_good L he rfl ?_ g h
            intro c s ha
            rcases ha.uncons with ⟨_, h⟩ | h
            · cases h
            · exact h.cons
        | call c0 s0 r =>
          cases r with
          | nil =>
            simp only [step, State.run.injEq] at h
            obtain ⟨rfl, rfl⟩ := h
            refine ⟨L.finish_ok g.1, fun c s ha => ?_⟩
            rcases g.2 c s ha.cons with h | h
            · by_cases hx : c0 = c
              · subst hx
                by_cases hl : S.look (S.finish w0.t c0) c0 = some s
                · exact .inl hl
                · exact .inr ⟨n, by omega, _, fs, w0, he, ha.cons, h, .inr ⟨s0, rfl, ha, hl⟩⟩
              · exact .inl (L.finish_keep g.1 h hx)
            · exact .inr (later c s h)
          | cons a r =>
            simp only [step] at h
            split at h
            · refine doAct_good L he rfl ?_ g h
              intro c s ha
              rcases ha.uncons with ⟨_, h⟩ | h
              · cases h; exact ⟨_, List.mem_cons_self⟩
              · exact h.cons
            · cases h
        | loop k i =>
          have g0 : ∀ c s, Active fs c s →
              S.look w0.t c = some s ∨ ∃ m, m < n + 1 ∧ Lost S P script m c s := by
            intro c s ha
            rcases g.2 c s ha.cons with h | h
            · exact .inl h
            · exact .inr (later c s h)
          simp only [step] at h
          cases hn : S.next w0.t k i with
          | stop =>
            rw [hn] at h; simp only [State.run.injEq] at h
            obtain ⟨rfl, rfl⟩ := h
            exact ⟨g.1, g0⟩
          | skip =>
            rw [hn] at h; simp only [State.run.injEq] at h
            obtain ⟨rfl, rfl⟩ := h
            refine ⟨g.1, fun c s ha => ?_⟩
            rcases ha.uncons with ⟨_, h⟩ | h
            · cases h
            · exact g0 c s h
          | null => rw [hn] at h; cases h
          | call c1 s1 =>
            rw [hn] at h; simp only [State.run.injEq] at h
            obtain ⟨rfl, rfl⟩ := h
            refine ⟨g.1, fun c s ha => ?_⟩
            rcases ha.uncons with ⟨_, h⟩ | h
            · cases h; exact .inl (L.next_call g.1 hn)
            · rcases h.uncons with ⟨_, h⟩ | h
              · cases h
              · exact g0 c s h
          | callLast c1 s1 =>
            rw [hn] at h; simp only [State.run.injEq] at h
            obtain ⟨rfl, rfl⟩ := h
            refine ⟨g.1, fun c s ha => ?_⟩
            rcases ha.uncons with ⟨_, h⟩ | h
            · cases h; exact .inl (L.next_callLast g.1 hn)
            · exact g0 c s h

/-- A program that uses a destroyed sink does so in a step of a call of that sink. -/
theorem dead_step {S : Source τ} {P : Prog} {script : List Act} {n : Nat}
    (h : exec S P script n = .dead) : ∃ j, j < n ∧ ∃ c s a r fs w,
      exec S P script j = .run (.call c s (a :: r) :: fs) w ∧ w.alive S s = false := by
  induction n with
  | zero => simp [exec] at h
  | succ n ih =>
    rw [exec] at h
    cases he : exec S P script n with
    | done w0 => rw [he] at h; simp [step] at h
    | null => rw [he] at h; simp [step] at h
    | dead =>
      obtain ⟨j, hj, h⟩ := ih he
      exact ⟨j, by omega, h⟩
    | run st w0 =>
      rw [he] at h
      have nodo : ∀ a f fs, doAct S a f fs w0 ≠ .dead := by
        intro a f fs
        cases a <;> simp [doAct]
      cases st with
      | nil => simp [step] at h
      | cons f fs =>
        cases f with
        | user r =>
          cases r with
          | nil => simp [step] at h
          | cons a r => exact absurd h (nodo _ _ _)
        | call c s r =>
          cases r with
          | nil => simp [step] at h
          | cons a r =>
            simp only [step] at h
            split at h
            · exact absurd h (nodo _ _ _)
            · rename_i hx
              exact ⟨n, by omega, c, s, a, r, fs, w0, he, by simpa using hx⟩
        | loop k i =>
          simp only [step] at h
          cases hn : S.next w0.t k i <;> rw [hn] at h <;> cases h

theorem dead_lost {S : Source τ} {ok : τ → Prop} (L : S.Lawful ok) {P : Prog} {script : List Act}
    {n : Nat} (h : exec S P script n = .dead) : ∃ j, j < n ∧ ∃ c s a r fs w,
      exec S P script j = .run (.call c s (a :: r) :: fs) w ∧ s ∉ w.held ∧
      (∀ c', S.look w.t c' ≠ some s) ∧ ∃ m, m < j ∧ Lost S P script m c s := by
  obtain ⟨j, hj, c, s, a, r, fs, w, he, ha⟩ := dead_step h
  simp only [World.alive, Bool.or_eq_false_iff] at ha
  have h1 : s ∉ w.held := by
    intro hm
    have := List.contains_iff_mem.mpr hm
    rw [ha.1] at this; cases this
  have h2 : ∀ c', S.look w.t c' ≠ some s := by
    intro c' hm
    have := List.contains_iff_mem.mpr (L.look_kept hm)
    rw [ha.2] at this; cases this
  refine ⟨j, hj, c, s, a, r, fs, w, he, h1, h2, ?_⟩
  rcases (exec_good L P script j _ _ he).2 c s ⟨_, List.mem_cons_self⟩ with h | h
  · exact absurd h (h2 c)
  · exact h

/-! ### The sources -/

theorem table_look_kept {t : Table Nat} {c s : Nat} (h : (if c = 0 then none else t.sl (c - 1)) = some s) :
    s ∈ t.slots.filterMap id := by
  by_cases h0 : c = 0
  · simp [h0] at h
  · rw [if_neg h0] at h
    have := slots_of_sl h
    exact List.mem_filterMap.mpr ⟨some s, List.mem_of_getElem? this, rfl⟩

theorem table_kept_look {t : Table Nat} {s : Nat} (h : s ∈ t.slots.filterMap id) :
    ∃ c, (if c = 0 then none else t.sl (c - 1)) = some s := by
  obtain ⟨x, hx, rfl⟩ := List.mem_filterMap.mp h
  obtain ⟨i, hi⟩ := List.getElem?_of_mem hx
  refine ⟨i + 1, ?_⟩
  simp [Table.sl, hi]

theorem table_keep {cap : Nat} (hcap : cap < 2 ^ 32) {t : Table Nat} (w : WF cap t) {c s : Nat}
    {op : Op Nat} (h : (if c = 0 then none else t.sl (c - 1)) = some s) (hop : op ≠ .disconnect c) :
    (if c = 0 then none else (t.apply cap op).sl (c - 1)) = some s := by
  by_cases h0 : c = 0
  · simp [h0] at h
  · rw [if_neg h0] at h ⊢
    exact apply_keep w hcap h (by rwa [show c - 1 + 1 = c by omega])

theorem voidEvent_lawful {cap : Nat} (hcap : cap < 2 ^ 32) : (voidEvent cap).Lawful (WF cap) where
  init := wf_init
  connect_ok h := apply_wf h hcap (.connect (some _))
  disconnect_ok h := apply_wf h hcap (.disconnect _)
  finish_ok h := h
  connect_keep w h := table_keep hcap w h (by simp)
  disconnect_keep w h hc := table_keep hcap w h (by simpa using hc)
  finish_keep _ h _ := h
  next_call {t k i c s} w h := by
    simp only [voidEvent] at h ⊢
    split at h
    · cases hx : t.slots[i]? with
      | none => rw [hx] at h; cases h
      | some x =>
        cases x with
        | none => rw [hx] at h; cases h
        | some y =>
          rw [hx] at h; cases h
          simp [Table.sl, hx]
    · cases h
  next_callLast {t k i c s} w h := by
    simp only [voidEvent] at h
    split at h
    · cases hx : t.slots[i]? with
      | none => rw [hx] at h; cases h
      | some x =>
        cases x <;> rw [hx] at h <;> cases h
    · cases h
  look_kept h := table_look_kept h
  kept_look h := table_kept_look h

theorem argsEvent_lawful {cap : Nat} (hcap : cap < 2 ^ 32) : (argsEvent cap).Lawful (WF cap) where
  init := wf_init
  connect_ok h := apply_wf h hcap (.connect (some _))
  disconnect_ok h := apply_wf h hcap (.disconnect _)
  finish_ok h := h
  connect_keep w h := table_keep hcap w h (by simp)
  disconnect_keep w h hc := table_keep hcap w h (by simpa using hc)
  finish_keep _ h _ := h
  next_call {t k i c s} w h := by
    simp only [argsEvent] at h ⊢
    split at h
    · cases h
    · split at h
      · cases hx : t.slots[i]? with
        | none => rw [hx] at h; cases h
        | some x =>
          cases x with
          | none => rw [hx] at h; cases h
          | some y =>
            rw [hx] at h; cases h
            simp [Table.sl, hx]
      · cases hx : t.slots[i]? with
        | none => rw [hx] at h; cases h
        | some x => cases x <;> rw [hx] at h <;> cases h
  next_callLast {t k i c s} w h := by
    simp only [argsEvent] at h ⊢
    split at h
    · cases h
    · split at h
      · cases hx : t.slots[i]? with
        | none => rw [hx] at h; cases h
        | some x => cases x <;> rw [hx] at h <;> cases h
      · cases hx : t.slots[i]? with
        | none => rw [hx] at h; cases h
        | some x =>
          cases x with
          | none => rw [hx] at h; cases h
          | some y =>
            rw [hx] at h; cases h
            simp [Table.sl, hx]
  look_kept h := table_look_kept h
  kept_look h := table_kept_look h

theorem oneEvent_lawful : oneEvent.Lawful (fun _ => True) where
  init := trivial
  connect_ok _ := trivial
  disconnect_ok _ := trivial
  finish_ok _ := trivial
  connect_keep {t c s s'} _ h := by
    simp only [oneEvent] at h ⊢
    split at h
    · rename_i hc
      simp [One.connect, h, hc]
    · cases h
  disconnect_keep {t c s c'} _ h hc := by
    simp only [oneEvent] at h ⊢
    split at h
    · rename_i h1
      subst h1
      rw [One.disconnect, if_neg hc, if_pos rfl, h]
    · cases h
  finish_keep _ h _ := h
  next_call {t k i c s} _ h := by
    simp only [oneEvent] at h
    split at h
    · cases hx : t.sink <;> rw [hx] at h <;> cases h
    · cases h
  next_callLast {t k i c s} _ h := by
    simp only [oneEvent] at h ⊢
    split at h
    · cases hx : t.sink <;> rw [hx] at h <;> cases h
      rfl
    · cases h
  look_kept {t c s} h := by
    simp only [oneEvent] at h ⊢
    split at h
    · rw [h]; exact List.mem_cons_self
    · cases h
  kept_look {t s} h := by
    simp only [oneEvent] at h ⊢
    exact ⟨1, by simpa using h⟩

theorem handles_set_keep {t : List (Option Nat)} {c s c' : Nat} (h : (t[c]?).join = some s) (hc : c' ≠ c) :
    ((t.set c' none)[c]?).join = some s := by
  rw [List.getElem?_set_ne hc, h]

theorem handles_lawful : handles.Lawful (fun _ => True) where
  init := trivial
  connect_ok _ := trivial
  disconnect_ok _ := trivial
  finish_ok _ := trivial
  connect_keep {t c s s'} _ h := by
    simp only [handles] at h ⊢
    have hlt : c < t.length := by
      by_cases hx : c < t.length
      · exact hx
      · rw [List.getElem?_eq_none (by omega)] at h; cases h
    rw [List.getElem?_append_left hlt, h]
  disconnect_keep _ h hc := handles_set_keep h hc
  finish_keep _ h hc := handles_set_keep h hc
  next_call {t k i c s} _ h := by
    simp only [handles] at h
    split at h
    · cases hx : (t[k]?).join <;> rw [hx] at h <;> cases h
    · cases h
  next_callLast {t k i c s} _ h := by
    simp only [handles] at h ⊢
    split at h
    · cases hx : (t[k]?).join <;> rw [hx] at h <;> cases h
      exact hx
    · cases h
  look_kept {t c s} h := by
    simp only [handles] at h ⊢
    rw [Option.join_eq_some_iff] at h
    exact List.mem_filterMap.mpr ⟨some s, List.mem_of_getElem? h, rfl⟩
  kept_look {t s} h := by
    simp only [handles] at h ⊢
    obtain ⟨x, hx, rfl⟩ := List.mem_filterMap.mp h
    obtain ⟨i, hi⟩ := List.getElem?_of_mem hx
    exact ⟨i, by rw [hi]; rfl⟩

/-! ### Sinks that do not disconnect -/

/-- The frames of a program whose sinks only do what `Q` allows. -/
def Shape (Q : Act → Prop) (stack : List Frame) : Prop :=
  ∃ pre r, (stack = pre ++ [.user r] ∨ (pre = [] ∧ stack = [])) ∧
    ∀ f ∈ pre, (∃ k i, f = .loop k i) ∨ ∃ c s r, f = .call c s r ∧ ∀ a ∈ r, Q a

theorem Shape.push {Q : Act → Prop} {stack : List Frame} {f g : Frame} (h : Shape Q (f :: stack))
    (hg : (∃ k i, g = .loop k i) ∨ ∃ c s r, g = .call c s r ∧ ∀ a ∈ r, Q a) :
    Shape Q (g :: f :: stack) := by
  obtain ⟨pre, r, h | h, hp⟩ := h
  · refine ⟨g :: pre, r, .inl (by rw [h]; rfl), ?_⟩
    intro x hx
    rcases List.mem_cons.mp hx with rfl | hx
    · exact hg
    · exact hp x hx
  · cases h.2

theorem Shape.pop {Q : Act → Prop} {stack : List Frame} {f : Frame} (h : Shape Q (f :: stack)) :
    Shape Q stack := by
  obtain ⟨pre, r, h | h, hp⟩ := h
  · cases pre with
    | nil =>
      simp only [List.nil_append, List.cons.injEq] at h
      exact ⟨[], r, .inr ⟨rfl, h.2⟩, by simp⟩
    | cons g pre =>
      simp only [List.cons_append, List.cons.injEq] at h
      exact ⟨pre, r, .inl h.2, fun x hx => hp x (List.mem_cons_of_mem _ hx)⟩
  · cases h.2

theorem Shape.user {Q : Act → Prop} {stack : List Frame} {r r' : List Act}
    (h : Shape Q (.user r :: stack)) : stack = [] ∧ Shape Q (.user r' :: stack) := by
  obtain ⟨pre, r0, h | h, hp⟩ := h
  · cases pre with
    | nil =>
      simp only [List.nil_append, List.cons.injEq] at h
      obtain ⟨-, rfl⟩ := h
      exact ⟨rfl, [], r', .inl rfl, by simp⟩
    | cons g pre =>
      simp only [List.cons_append, List.cons.injEq] at h
      rcases hp g List.mem_cons_self with ⟨_, _, e⟩ | ⟨_, _, _, e, -⟩ <;> rw [e] at h <;> cases h.1
  · cases h.2

theorem Shape.call {Q : Act → Prop} {stack : List Frame} {c s : Nat} {r : List Act}
    (h : Shape Q (.call c s r :: stack)) : stack ≠ [] ∧ ∀ a ∈ r, Q a := by
  obtain ⟨pre, r0, h | h, hp⟩ := h
  · cases pre with
    | nil => cases h
    | cons g pre =>
      simp only [List.cons_append, List.cons.injEq] at h
      refine ⟨by rw [h.2]; simp, ?_⟩
      rcases hp g List.mem_cons_self with ⟨_, _, e⟩ | ⟨_, _, _, e, hq⟩
      · rw [e] at h; cases h.1
      · rw [e] at h; cases h.1; exact hq
  · cases h.2

theorem Shape.top {Q : Act → Prop} {stack : List Frame} {f g : Frame} (h : Shape Q (f :: stack))
    (hs : stack ≠ []) (hg : (∃ k i, g = .loop k i) ∨ ∃ c s r, g = .call c s r ∧ ∀ a ∈ r, Q a) :
    Shape Q (g :: stack) := by
  have := h.pop
  cases stack with
  | nil => exact absurd rfl hs
  | cons x xs => exact this.push hg

theorem Shape.loop {Q : Act → Prop} {stack : List Frame} {k i : Nat}
    (h : Shape Q (.loop k i :: stack)) : stack ≠ [] := by
  obtain ⟨pre, r0, h | h, hp⟩ := h
  · cases pre with
    | nil => cases h
    | cons g pre =>
      simp only [List.cons_append, List.cons.injEq] at h
      rw [h.2]; simp
  · cases h.2

theorem exec_shape {S : Source τ} {Q : Act → Prop} {P : Prog} (hP : ∀ tr s, ∀ a ∈ P tr s, Q a)
    (script : List Act) (n : Nat) :
    ∀ stack w, exec S P script n = .run stack w → Shape Q stack := by
  induction n with
  | zero =>
    intro stack w h
    simp only [exec, State.run.injEq] at h
    obtain ⟨rfl, -⟩ := h
    exact ⟨[], script, .inl rfl, by simp⟩
  | succ n ih =>
    intro stack w h
    rw [exec] at h
    cases he : exec S P script n with
    | done w0 => rw [he] at h; simp [step] at h
    | null => rw [he] at h; simp [step] at h
    | dead => rw [he] at h; simp [step] at h
    | run st w0 =>
      have g := ih st w0 he
      rw [he] at h
      have doit : ∀ a f fs, doAct S a f fs w0 = .run stack w → Shape Q (f :: fs) → Shape Q stack := by
        intro a f fs h hs
        cases a <;> simp only [doAct, State.run.injEq] at h <;> obtain ⟨rfl, -⟩ := h
        all_goals first
          | exact hs
          | exact hs.push (.inl ⟨_, _, rfl⟩)
      cases st with
      | nil => simp [step] at h
      | cons f fs =>
        cases f with
        | user r =>
          cases r with
          | nil =>
            simp only [step, State.run.injEq] at h
            obtain ⟨rfl, -⟩ := h
            exact g.pop
          | cons a r => exact doit _ _ _ h (g.user).2
        | call c s r =>
          cases r with
          | nil =>
            simp only [step, State.run.injEq] at h
            obtain ⟨rfl, -⟩ := h
            exact g.pop
          | cons a r =>
            simp only [step] at h
            split at h
            · refine doit _ _ _ h (g.top g.call.1 (.inr ⟨_, _, _, rfl, ?_⟩))
              exact fun b hb => g.call.2 b (List.mem_cons_of_mem _ hb)
            · cases h
        | loop k i =>
          simp only [step] at h
          cases hn : S.next w0.t k i with
          | stop =>
            rw [hn] at h; simp only [State.run.injEq] at h
            obtain ⟨rfl, -⟩ := h
            exact g.pop
          | skip =>
            rw [hn] at h; simp only [State.run.injEq] at h
            obtain ⟨rfl, -⟩ := h
            exact g.top g.loop (.inl ⟨_, _, rfl⟩)
          | null => rw [hn] at h; cases h
          | call c1 s1 =>
            rw [hn] at h; simp only [State.run.injEq] at h
            obtain ⟨rfl, -⟩ := h
            exact (g.top g.loop (.inl ⟨_, _, rfl⟩)).push (.inr ⟨_, _, _, rfl, hP _ _⟩)
          | callLast c1 s1 =>
            rw [hn] at h; simp only [State.run.injEq] at h
            obtain ⟨rfl, -⟩ := h
            exact g.top g.loop (.inr ⟨_, _, _, rfl, hP _ _⟩)

/-- A program whose sinks never disconnect never has the connection of a running sink removed by an
act. -/
theorem no_disconnect {S : Source τ} {P : Prog}
    (hP : ∀ tr s c, Act.disconnect c ∉ P tr s) {script : List Act} {m c s : Nat} {f : Frame}
    {fs : List Frame} {w : World τ} (he : exec S P script m = .run (f :: fs) w)
    (ha : Active (f :: fs) c s) : f.rest.head? ≠ some (.disconnect c) := by
  intro hh
  have g := exec_shape (S := S) (Q := fun a => ∀ c, a ≠ .disconnect c) (P := P)
    (fun tr s a ha c e => hP tr s c (e ▸ ha)) script m _ _ he
  cases f with
  | user r =>
    rw [(g.user (r' := [])).1] at ha
    rcases ha.uncons with ⟨_, h⟩ | ⟨_, h⟩
    · cases h
    · simp at h
  | loop k i => simp [Frame.rest] at hh
  | call c0 s0 r =>
    exact g.call.2 _ (List.mem_of_mem_head? hh) c rfl

/-- The frames of a program whose sinks do not fire. -/
inductive Flat : List Frame → Prop
  | nil : Flat []
  | user (r : List Act) : Flat [.user r]
  | loop (k i : Nat) (r : List Act) : Flat [.loop k i, .user r]
  | last (c s : Nat) (b : List Act) (hb : ∀ k, Act.fire k ∉ b) (r : List Act) :
      Flat [.call c s b, .user r]
  | call (c s : Nat) (b : List Act) (hb : ∀ k, Act.fire k ∉ b) (k i : Nat) (r : List Act) :
      Flat [.call c s b, .loop k i, .user r]

theorem exec_flat {S : Source τ} {P : Prog} (hP : ∀ tr s k, Act.fire k ∉ P tr s)
    (script : List Act) (n : Nat) :
    ∀ stack w, exec S P script n = .run stack w → Flat stack := by
  induction n with
  | zero =>
    intro stack w h
    simp only [exec, State.run.injEq] at h
    obtain ⟨rfl, -⟩ := h
    exact .user _
  | succ n ih =>
    intro stack w h
    rw [exec] at h
    have doit : ∀ a f fs w0, (∀ k, a ≠ .fire k) → doAct S a f fs w0 = .run stack w → stack = f :: fs := by
      intro a f fs w0 hf h
      cases a with
      | fire k => exact absurd rfl (hf k)
      | _ => simp only [doAct, State.run.injEq] at h; exact h.1.symm
    cases he : exec S P script n with
    | done w0 => rw [he] at h; simp [step] at h
    | null => rw [he] at h; simp [step] at h
    | dead => rw [he] at h; simp [step] at h
    | run st w0 =>
      have g := ih st w0 he
      rw [he] at h
      cases g with
      | nil => simp [step] at h
      | user r =>
        cases r with
        | nil =>
          simp only [step, State.run.injEq] at h
          obtain ⟨rfl, -⟩ := h
          exact .nil
        | cons a r =>
          simp only [step] at h
          cases a with
          | fire k => simp only [doAct, State.run.injEq] at h; rw [← h.1]; exact .loop _ _ _
          | _ => rw [doit _ _ _ _ (by simp) h]; exact .user _
      | loop k i r =>
        simp only [step] at h
        cases hn : S.next w0.t k i <;> rw [hn] at h <;> simp only [State.run.injEq] at h
        case null => cases h
        all_goals obtain ⟨rfl, -⟩ := h
        · exact .user _
        · exact .loop _ _ _
        · exact .call _ _ _ (hP _ _) _ _ _
        · exact .last _ _ _ (hP _ _) _
      | last c s b hb r =>
        cases b with
        | nil =>
          simp only [step, State.run.injEq] at h
          obtain ⟨rfl, -⟩ := h
          exact .user _
        | cons a b =>
          simp only [step] at h
          split at h
          · rw [doit _ _ _ _ (fun k e => hb k (by rw [e]; exact List.mem_cons_self)) h]
            exact .last _ _ _ (fun k hk => hb k (List.mem_cons_of_mem _ hk)) _
          · cases h
      | call c s b hb k i r =>
        cases b with
        | nil =>
          simp only [step, State.run.injEq] at h
          obtain ⟨rfl, -⟩ := h
          exact .loop _ _ _
        | cons a b =>
          simp only [step] at h
          split at h
          · rw [doit _ _ _ _ (fun k e => hb k (by rw [e]; exact List.mem_cons_self)) h]
            exact .call _ _ _ (fun k hk => hb k (List.mem_cons_of_mem _ hk)) _ _ _
          · cases h

end Verif.Event
