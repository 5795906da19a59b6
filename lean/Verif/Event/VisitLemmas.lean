import Verif.Event.Visit
set_option linter.unusedSimpArgs false
set_option linter.unusedVariables false
/-! Lemmas about visits; the theorems are in `Verif.Event.VisitProps`. -/
namespace Verif.Event.Visit

variable {σ : Type}

theorem add_tbl (grow : Nat → Nat) (cap : Nat) (m : Mem σ) (x : σ) : (m.add grow cap x).tbl = (m.tbl.add cap x).2 := by
  unfold Mem.add; split <;> rfl

theorem tadd_wf {cap : Nat} {t : Table σ} (w : WF cap t) (x : σ) : WF cap (t.add cap x).2 := by
  unfold Table.add
  split
  · rename_i h; exact (insert_spec w h x).2.2.2.2.1
  · exact w

theorem tadd_keep {cap : Nat} {t : Table σ} (w : WF cap t) (x : σ) {j : Nat} {y : σ} (h : t.sl j = some y) :
    (t.add cap x).2.sl j = some y := by
  unfold Table.add
  split
  · rename_i h'; exact insert_keep w h' x h
  · exact h

theorem trem_keep {cap : Nat} {t : Table σ} (w : WF cap t) (hcap : cap < 2 ^ 32) {c j : Nat} {y : σ} (h : t.sl j = some y) (hc : j + 1 ≠ c) :
    (t.disconnect c).sl j = some y := by
  rw [(disconnect_spec w hcap c).1, if_neg hc, h]

theorem trem_sub {cap : Nat} {t : Table σ} (w : WF cap t) (hcap : cap < 2 ^ 32) {c j : Nat} {y : σ} (h : (t.disconnect c).sl j = some y) :
    t.sl j = some y := by
  rw [(disconnect_spec w hcap c).1] at h
  split at h
  · cases h
  · exact h

/-- All acts of a frame. -/
def Frame.acts : Frame σ → List (Act σ)
  | .loop .. => []
  | .call _ _ _ l => l
  | .main l => l

/-- What a frame knows about the table.  `K c`: nobody removes `c`.  `A`: nobody adds. -/
def FrOk (K : Nat → Prop) (A : Prop) (t : Table σ) : Frame σ → Prop
  | .loop i t0 seen => (seen.map (·.1)).Pairwise (· < ·) ∧ (∀ p ∈ seen, 0 < p.1 ∧ p.1 ≤ i) ∧
      (∀ j x, K (j + 1) → t0.sl j = some x → t.sl j = some x ∧ (j < i → (j + 1, x) ∈ seen)) ∧
      (A → (∀ j x, t.sl j = some x → t0.sl j = some x) ∧ ∀ p ∈ seen, t0.sl (p.1 - 1) = some p.2)
  | .call _ i x l => (∀ c, K c → Act.remove c ∉ l) ∧ (A → ∀ y, Act.add y ∉ l) ∧ (K (i + 1) → t.sl i = some x)
  | .main l => (∀ c, K c → Act.remove c ∉ l)

/-- What a finished visit satisfies. -/
def VOk (K : Nat → Prop) (A : Prop) (v : Table σ × List (Nat × σ)) : Prop :=
  (v.2.map (·.1)).Pairwise (· < ·) ∧ (∀ p ∈ v.2, 0 < p.1) ∧
    (∀ j x, K (j + 1) → v.1.sl j = some x → (j + 1, x) ∈ v.2) ∧ (A → ∀ p ∈ v.2, v.1.sl (p.1 - 1) = some p.2)

/-- The stack: the program outside of any visit is at the bottom. -/
def Bottom : List (Frame σ) → Prop
  | [] => True
  | [_] => True
  | f :: st => (∀ l, f ≠ .main l) ∧ Bottom st

structure Ok (K : Nat → Prop) (A : Prop) (cap : Nat) (c : Cfg σ) : Prop where
  wf : WF cap c.mem.tbl
  frames : ∀ f ∈ c.stack, FrOk K A c.mem.tbl f
  visits : ∀ v ∈ c.visits, VOk K A v
  reads : ∀ r ∈ c.reads, K r.1 → r.2.2 = some r.2.1
  bottom : Bottom c.stack

theorem Bottom.tail {f : Frame σ} {st : List (Frame σ)} (h : Bottom (f :: st)) : Bottom st := by
  cases st with
  | nil => trivial
  | cons g st => exact h.2

theorem Bottom.push {f g : Frame σ} {st : List (Frame σ)} (h : Bottom (f :: st)) (hg : ∀ l, g ≠ .main l) : Bottom (g :: f :: st) := ⟨hg, h⟩

theorem Bottom.swap {f g : Frame σ} {st : List (Frame σ)} (h : Bottom (f :: st)) (hg : ∀ l, g = .main l → ∃ l', f = .main l') : Bottom (g :: st) := by
  cases st with
  | nil => trivial
  | cons e st =>
    refine ⟨fun l hl => ?_, h.2⟩
    obtain ⟨l', hl'⟩ := hg l hl
    exact h.1 l' hl'

theorem Bottom.main {l : List (Act σ)} {st : List (Frame σ)} (h : Bottom (.main l :: st)) : st = [] := by
  cases st with
  | nil => rfl
  | cons e st => exact absurd rfl (h.1 l)

theorem FrOk.mono {K : Nat → Prop} {A : Prop} {t t' : Table σ} {f : Frame σ} (h : FrOk K A t f)
    (keep : ∀ j x, K (j + 1) → t.sl j = some x → t'.sl j = some x) (sub : A → ∀ j x, t'.sl j = some x → t.sl j = some x) : FrOk K A t' f := by
  cases f with
  | loop i t0 seen =>
    obtain ⟨h1, h2, h3, h4⟩ := h
    exact ⟨h1, h2, fun j x k e => ⟨keep j x k (h3 j x k e).1, (h3 j x k e).2⟩,
      fun a => ⟨fun j x e => (h4 a).1 j x (sub a j x e), (h4 a).2⟩⟩
  | call b i x l => exact ⟨h.1, h.2.1, fun k => keep i x k (h.2.2 k)⟩
  | main l => exact h

theorem loop_new {K : Nat → Prop} {A : Prop} {t : Table σ} : FrOk K A t (.loop 0 t []) := by
  refine ⟨by simp, by simp, fun j x _ e => ⟨e, fun h => absurd h (Nat.not_lt_zero _)⟩, fun _ => ⟨fun j x e => e, by simp⟩⟩

theorem slots_join {t : Table σ} {i : Nat} : (t.slots[i]?).join = t.sl i := rfl

/-- The acts of the visitors respect `K` and `A`. -/
def Keeps (K : Nat → Prop) (A : Prop) (P : Visitor σ) : Prop :=
  ∀ tr x, (∀ c, K c → Act.remove c ∉ P tr x) ∧ (A → ∀ y, Act.add y ∉ P tr x)

theorem step_ok {K : Nat → Prop} {A : Prop} {grow : Nat → Nat} {cap : Nat} (hcap : cap < 2 ^ 32) {P : Visitor σ} (hP : Keeps K A P) {c : Cfg σ} (h : Ok K A cap c) :
    step grow cap P c = .dangling ∨ ∃ c', step grow cap P c = .go c' ∧ Ok K A cap c' := by
  obtain ⟨m, stack, reads, visits, trace⟩ := c
  obtain ⟨wf, frames, hv, hr, bot⟩ := h
  dsimp only at wf frames hv hr bot
  cases stack with
  | nil => exact .inr ⟨_, rfl, ⟨wf, frames, hv, hr, bot⟩⟩
  | cons f st =>
    have hf := frames f (List.mem_cons_self ..)
    have hst : ∀ g ∈ st, FrOk K A m.tbl g := fun g hg => frames g (List.mem_cons_of_mem _ hg)
    cases f with
    | main l =>
      have hnil := bot.main
      cases l with
      | nil => exact .inr ⟨_, rfl, ⟨wf, hst, hv, hr, bot.tail⟩⟩
      | cons a as =>
        have has : FrOk K A m.tbl (.main as) := fun c k hm => hf c k (List.mem_cons_of_mem _ hm)
        cases a with
        | add x =>
          refine .inr ⟨_, rfl, ⟨?_, ?_, hv, hr, bot.swap (fun l _ => ⟨_, rfl⟩)⟩⟩
          · dsimp only; rw [add_tbl]; exact tadd_wf wf x
          · intro g hg
            rw [hnil] at hg
            rw [List.mem_singleton.1 hg]; exact has
        | remove k =>
          refine .inr ⟨_, rfl, ⟨(disconnect_spec wf hcap k).2.1, ?_, hv, hr, bot.swap (fun l _ => ⟨_, rfl⟩)⟩⟩
          intro g hg
          rw [hnil] at hg
          rw [List.mem_singleton.1 hg]; exact has
        | read =>
          refine .inr ⟨_, rfl, ⟨wf, ?_, hv, hr, bot.swap (fun l _ => ⟨_, rfl⟩)⟩⟩
          intro g hg
          rcases List.mem_cons.1 hg with rfl | hg
          · exact has
          · exact hst g hg
        | visit =>
          refine .inr ⟨_, rfl, ⟨wf, ?_, hv, hr, ?_⟩⟩
          · intro g hg
            rcases List.mem_cons.1 hg with rfl | hg
            · exact loop_new
            rcases List.mem_cons.1 hg with rfl | hg
            · exact has
            · exact hst g hg
          · exact Bottom.push (bot.swap (fun l _ => ⟨_, rfl⟩)) (fun l e => by cases e)
    | call b i x l =>
      obtain ⟨h1, h2, h3⟩ := hf
      cases l with
      | nil => exact .inr ⟨_, rfl, ⟨wf, hst, hv, hr, bot.tail⟩⟩
      | cons a as =>
        have has : FrOk K A m.tbl (.call b i x as) :=
          ⟨fun c k hm => h1 c k (List.mem_cons_of_mem _ hm), fun a y hm => h2 a y (List.mem_cons_of_mem _ hm), h3⟩
        have hall : ∀ g ∈ Frame.call b i x as :: st, FrOk K A m.tbl g := by
          intro g hg
          rcases List.mem_cons.1 hg with rfl | hg
          · exact has
          · exact hst g hg
        have bot' : Bottom (Frame.call b i x as :: st) := bot.swap (fun l e => by cases e)
        cases a with
        | add y =>
          have hA : ¬ A := fun a => h2 a y (List.mem_cons_self ..)
          refine .inr ⟨_, rfl, ⟨?_, ?_, hv, hr, bot'⟩⟩
          · dsimp only; rw [add_tbl]; exact tadd_wf wf y
          · intro g hg
            dsimp only; rw [add_tbl]
            exact (hall g hg).mono (fun j x _ e => tadd_keep wf y e) (fun a => absurd a hA)
        | remove k =>
          refine .inr ⟨_, rfl, ⟨(disconnect_spec wf hcap k).2.1, ?_, hv, hr, bot'⟩⟩
          intro g hg
          refine (hall g hg).mono (fun j x hk e => ?_) (fun a j x e => trem_sub wf hcap e)
          refine trem_keep wf hcap e ?_
          rintro rfl
          exact h1 _ hk (List.mem_cons_self ..)
        | read =>
          by_cases hb : b = m.block
          · refine .inr ⟨⟨m, .call b i x as :: st, (i + 1, x, (m.tbl.slots[i]?).join) :: reads, visits, trace⟩, ?_, ?_⟩
            · unfold step; simp only [hb, if_true]
            · refine ⟨wf, hall, hv, ?_, bot'⟩
              intro r hrm
              rcases List.mem_cons.1 hrm with rfl | hrm
              · intro k; exact h3 k
              · exact hr r hrm
          · left; unfold step; simp only [hb, if_false]
        | visit =>
          refine .inr ⟨_, rfl, ⟨wf, ?_, hv, hr, bot'.push (fun l e => by cases e)⟩⟩
          intro g hg
          rcases List.mem_cons.1 hg with rfl | hg
          · exact loop_new
          · exact hall g hg
    | loop i t0 seen =>
      obtain ⟨h1, h2, h3, h4⟩ := hf
      by_cases hi : i < m.tbl.last
      · have hlt : i < m.tbl.slots.length := Nat.lt_of_lt_of_le hi wf.last_le
        cases hs : m.tbl.slots[i]? with
        | none => rw [List.getElem?_eq_none_iff] at hs; omega
        | some o =>
          cases o with
          | none =>
            have hn : m.tbl.sl i = none := by unfold Table.sl; rw [hs]; rfl
            refine .inr ⟨⟨m, .loop (i + 1) t0 seen :: st, reads, visits, trace⟩, by unfold step; simp only [hi, if_true, hs], ⟨wf, ?_, hv, hr, bot.swap (fun l e => by cases e)⟩⟩
            intro g hg
            rcases List.mem_cons.1 hg with rfl | hg
            · refine ⟨h1, fun p hp => ⟨(h2 p hp).1, by have := (h2 p hp).2; omega⟩, fun j x k e => ⟨(h3 j x k e).1, fun hj => ?_⟩, h4⟩
              by_cases hji : j = i
              · subst hji; have := (h3 j x k e).1; rw [hn] at this; cases this
              · exact (h3 j x k e).2 (by omega)
            · exact hst g hg
          | some x =>
            have hx : m.tbl.sl i = some x := by unfold Table.sl; rw [hs]; rfl
            refine .inr ⟨⟨m, .call m.block i x (P trace x) :: .loop (i + 1) t0 (seen ++ [(i + 1, x)]) :: st, reads, visits, trace ++ [(i + 1, x)]⟩,
              by unfold step; simp only [hi, if_true, hs], ⟨wf, ?_, hv, hr, ?_⟩⟩
            · intro g hg
              rcases List.mem_cons.1 hg with rfl | hg
              · exact ⟨(hP _ _).1, (hP _ _).2, fun _ => hx⟩
              rcases List.mem_cons.1 hg with rfl | hg
              · refine ⟨?_, ?_, ?_, ?_⟩
                · rw [List.map_append, List.pairwise_append]
                  refine ⟨h1, by simp, ?_⟩
                  intro a ha b hb
                  rw [List.mem_map] at ha
                  obtain ⟨p, hp, rfl⟩ := ha
                  simp at hb
                  have := (h2 p hp).2
                  omega
                · intro p hp
                  rcases List.mem_append.1 hp with hp | hp
                  · exact ⟨(h2 p hp).1, by have := (h2 p hp).2; omega⟩
                  · simp at hp; subst hp; exact ⟨by simp, by simp⟩
                · intro j y k e
                  refine ⟨(h3 j y k e).1, fun hj => ?_⟩
                  by_cases hji : j = i
                  · subst hji
                    have := (h3 j y k e).1
                    rw [hx] at this
                    injection this with this
                    subst this
                    simp
                  · exact List.mem_append_left _ ((h3 j y k e).2 (by omega))
                · intro a
                  refine ⟨(h4 a).1, fun p hp => ?_⟩
                  rcases List.mem_append.1 hp with hp | hp
                  · exact (h4 a).2 p hp
                  · simp at hp; subst hp; exact (h4 a).1 i x hx
              · exact hst g hg
            · exact Bottom.push (bot.swap (fun l e => by cases e)) (fun l e => by cases e)
      · refine .inr ⟨⟨m, st, reads, (t0, seen) :: visits, trace⟩, by unfold step; simp only [hi, if_false], ⟨wf, hst, ?_, hr, bot.tail⟩⟩
        intro v hvm
        rcases List.mem_cons.1 hvm with rfl | hvm
        · refine ⟨h1, fun p hp => (h2 p hp).1, fun j x k e => (h3 j x k e).2 ?_, fun a => (h4 a).2⟩
          have := wf.lt_last (i := j) (by rw [(h3 j x k e).1]; rfl)
          omega
        · exact hv v hvm

theorem exec_ok {K : Nat → Prop} {A : Prop} {grow : Nat → Nat} {cap : Nat} (hcap : cap < 2 ^ 32) {P : Visitor σ} (hP : Keeps K A P)
    {script : List (Act σ)} (hs : ∀ c, K c → Act.remove c ∉ script) (n : Nat) :
    exec grow cap P script n = .dangling ∨ ∃ c, exec grow cap P script n = .go c ∧ Ok K A cap c := by
  induction n with
  | zero =>
    refine .inr ⟨_, rfl, ⟨wf_init, ?_, by simp, by simp, trivial⟩⟩
    intro f hf
    rw [List.mem_singleton.1 hf]
    exact hs
  | succ n ih =>
    rcases ih with ih | ⟨c, ih, hc⟩
    · left; unfold exec; rw [ih]
    · rcases step_ok (grow := grow) hcap hP hc with h | ⟨c', h, hc'⟩
      · left; unfold exec; rw [ih]; exact h
      · right; exact ⟨c', by unfold exec; rw [ih]; exact h, hc'⟩

/-! ### References -/

/-- All reads come first. -/
def Early (l : List (Act σ)) : Prop := ∃ k rest, l = List.replicate k .read ++ rest ∧ Act.read ∉ rest

theorem Early.tail {a : Act σ} {l : List (Act σ)} (h : Early (a :: l)) : Early l ∧ (a ≠ .read → Act.read ∉ l) := by
  obtain ⟨k, rest, e, hr⟩ := h
  cases k with
  | zero =>
    simp at e
    have : Act.read ∉ l := fun hm => hr (e ▸ List.mem_cons_of_mem _ hm)
    exact ⟨⟨0, l, by simp, this⟩, fun _ => this⟩
  | succ k =>
    rw [List.replicate_succ, List.cons_append] at e
    injection e with e1 e2
    exact ⟨⟨k, rest, e2, hr⟩, fun hne => absurd e1 hne⟩

/-- The visitors that are waiting have nothing more to read, and the one that is running still has its item if it has. -/
structure EOk (c : Cfg σ) : Prop where
  top : ∀ b i x l st, c.stack = .call b i x l :: st → Early l ∧ (Act.read ∈ l → b = c.mem.block ∧ c.mem.tbl.sl i = some x)
  below : ∀ f ∈ c.stack.tail, ∀ b i x l, f = .call b i x l → Act.read ∉ l
  reads : ∀ r ∈ c.reads, r.2.2 = some r.2.1

theorem pop_eok {m : Mem σ} {st : List (Frame σ)} (hb : ∀ f ∈ st, ∀ b i x l, f = .call b i x l → Act.read ∉ l)
    {reads : List (Nat × σ × Option σ)} (hr : ∀ r ∈ reads, r.2.2 = some r.2.1) {v : List (Table σ × List (Nat × σ))} {tr : List (Nat × σ)} : EOk ⟨m, st, reads, v, tr⟩ := by
  refine ⟨?_, fun f hf => hb f (List.mem_of_mem_tail hf), hr⟩
  intro b i x l st' e
  dsimp only at e
  have := hb (.call b i x l) (by rw [e]; exact List.mem_cons_self ..) b i x l rfl
  exact ⟨⟨0, l, by simp, this⟩, fun h => absurd h this⟩

theorem step_eok {grow : Nat → Nat} {cap : Nat} {P : Visitor σ} (hP : ∀ tr x, Early (P tr x)) {c : Cfg σ} (h : EOk c) :
    step grow cap P c = .range ∨ ∃ c', step grow cap P c = .go c' ∧ EOk c' := by
  obtain ⟨m, stack, reads, visits, trace⟩ := c
  obtain ⟨top, below, hr⟩ := h
  dsimp only at top below hr
  cases stack with
  | nil => exact .inr ⟨_, rfl, ⟨top, below, hr⟩⟩
  | cons f st =>
    have below : ∀ f ∈ st, ∀ b i x l, f = .call b i x l → Act.read ∉ l := below
    cases f with
    | main l =>
      cases l with
      | nil => exact .inr ⟨_, rfl, pop_eok below hr⟩
      | cons a as =>
        have : ∀ f ∈ Frame.main as :: st, ∀ b i x l, f = .call b i x l → Act.read ∉ l := by
          intro f hf b i x l e
          rcases List.mem_cons.1 hf with rfl | hf
          · cases e
          · exact below f hf b i x l e
        cases a with
        | visit =>
          exact .inr ⟨_, rfl, ⟨fun b i x l st e => by (dsimp only at e; cases e), this, hr⟩⟩
        | _ => exact .inr ⟨_, rfl, pop_eok this hr⟩
    | call b i x l =>
      obtain ⟨he, hread⟩ := top b i x l st rfl
      cases l with
      | nil => exact .inr ⟨_, rfl, pop_eok below hr⟩
      | cons a as =>
        obtain ⟨he', hne⟩ := he.tail
        have next : ∀ m' : Mem σ, a ≠ .read → EOk ⟨m', .call b i x as :: st, reads, visits, trace⟩ := by
          intro m' h
          refine pop_eok ?_ hr
          intro f hf b i x l e
          rcases List.mem_cons.1 hf with rfl | hf
          · cases e; exact hne h
          · exact below f hf b i x l e
        cases a with
        | add y => exact .inr ⟨_, rfl, next _ (by simp)⟩
        | remove k => exact .inr ⟨_, rfl, next _ (by simp)⟩
        | read =>
          obtain ⟨hb, hx⟩ := hread (List.mem_cons_self ..)
          refine .inr ⟨⟨m, .call b i x as :: st, (i + 1, x, (m.tbl.slots[i]?).join) :: reads, visits, trace⟩, ?_, ?_⟩
          · unfold step; simp only [hb, if_true]
          · refine ⟨?_, below, ?_⟩
            · intro b' i' x' l' st' e
              dsimp only at e
              cases e
              exact ⟨he', fun _ => ⟨hb, hx⟩⟩
            · intro r hrm
              rcases List.mem_cons.1 hrm with rfl | hrm
              · exact hx
              · exact hr r hrm
        | visit =>
          refine .inr ⟨_, rfl, ⟨fun b i x l st e => by (dsimp only at e; cases e), ?_, hr⟩⟩
          intro f hf b i x l e
          rcases List.mem_cons.1 hf with rfl | hf
          · cases e; exact hne (by simp)
          · exact below f hf b i x l e
    | loop i t0 seen =>
      by_cases hi : i < m.tbl.last
      · cases hs : m.tbl.slots[i]? with
        | none => left; unfold step; simp only [hi, if_true, hs]
        | some o =>
          have this : ∀ j sn, ∀ f ∈ Frame.loop j t0 sn :: st, ∀ b i x l, f = .call b i x l → Act.read ∉ l := by
            intro j sn f hf b i x l e
            rcases List.mem_cons.1 hf with rfl | hf
            · cases e
            · exact below f hf b i x l e
          cases o with
          | none =>
            exact .inr ⟨⟨m, .loop (i + 1) t0 seen :: st, reads, visits, trace⟩, by unfold step; simp only [hi, if_true, hs], pop_eok (this _ _) hr⟩
          | some x =>
            refine .inr ⟨⟨m, .call m.block i x (P trace x) :: .loop (i + 1) t0 (seen ++ [(i + 1, x)]) :: st, reads, visits, trace ++ [(i + 1, x)]⟩,
              by unfold step; simp only [hi, if_true, hs], ⟨?_, this _ _, hr⟩⟩
            intro b' i' x' l' st' e
            dsimp only at e
            cases e
            exact ⟨hP _ _, fun _ => ⟨rfl, by unfold Table.sl; rw [hs]; rfl⟩⟩
      · exact .inr ⟨⟨m, st, reads, (t0, seen) :: visits, trace⟩, by unfold step; simp only [hi, if_false], pop_eok below hr⟩

theorem exec_eok {grow : Nat → Nat} {cap : Nat} {P : Visitor σ} (hP : ∀ tr x, Early (P tr x)) (script : List (Act σ)) (n : Nat) :
    exec grow cap P script n = .range ∨ ∃ c, exec grow cap P script n = .go c ∧ EOk c := by
  induction n with
  | zero =>
    refine .inr ⟨_, rfl, pop_eok ?_ (by simp)⟩
    intro f hf b i x l e
    rw [List.mem_singleton.1 hf] at e; cases e
  | succ n ih =>
    rcases ih with ih | ⟨c, ih, hc⟩
    · left; unfold exec; rw [ih]
    · rcases step_eok (grow := grow) (cap := cap) hP hc with h | ⟨c', h, hc'⟩
      · left; unfold exec; rw [ih]; exact h
      · right; exact ⟨c', by unfold exec; rw [ih]; exact h, hc'⟩

/-- A visitor is about to add to a full vector. -/
def Full (c : Cfg σ) : Prop :=
  ∃ b i x y as st, c.stack = .call b i x (.add y :: as) :: st ∧ c.mem.room ≤ c.mem.tbl.num

/-- All references are into the present block. -/
structure ROk (c : Cfg σ) : Prop where
  frames : ∀ f ∈ c.stack, ∀ b i x l, f = .call b i x l → b = c.mem.block

theorem add_block {grow : Nat → Nat} {cap : Nat} {m : Mem σ} (w : WF cap m.tbl) (h : ¬ m.room ≤ m.tbl.num) (x : σ) : (m.add grow cap x).block = m.block := by
  unfold Mem.add
  split
  · rename_i hh
    have := w.num
    have := List.countP_le_length (p := Option.isSome) (l := m.tbl.slots)
    omega
  · rfl

theorem step_rok {grow : Nat → Nat} {cap : Nat} {P : Visitor σ} {c : Cfg σ} (w : WF cap c.mem.tbl) (hb : Bottom c.stack) (h : ROk c) :
    step grow cap P c = .range ∨ Full c ∨ ∃ c', step grow cap P c = .go c' ∧ ROk c' := by
  obtain ⟨m, stack, reads, visits, trace⟩ := c
  obtain ⟨h⟩ := h
  dsimp only at w hb h
  have mk : ∀ {m' : Mem σ} {st' : List (Frame σ)} {r v tr}, m'.block = m.block →
      (∀ f ∈ st', ∀ b i x l, f = .call b i x l → b = m.block) → ROk (⟨m', st', r, v, tr⟩ : Cfg σ) := by
    intro m' st' r v tr e hh
    exact ⟨fun f hf b i x l e' => by dsimp only; rw [e]; exact hh f hf b i x l e'⟩
  have up : ∀ {g : Frame σ} {st' : List (Frame σ)}, (∀ b i x l, g = .call b i x l → b = m.block) →
      (∀ f ∈ st', ∀ b i x l, f = .call b i x l → b = m.block) → ∀ f ∈ g :: st', ∀ b i x l, f = .call b i x l → b = m.block := by
    intro g st' h1 h2 f hf
    rcases List.mem_cons.1 hf with rfl | hf
    · exact h1
    · exact h2 f hf
  cases stack with
  | nil => exact .inr (.inr ⟨_, rfl, ⟨h⟩⟩)
  | cons f st =>
    have hst : ∀ f ∈ st, ∀ b i x l, f = .call b i x l → b = m.block := fun g hg => h g (List.mem_cons_of_mem _ hg)
    cases f with
    | main l =>
      have hm : ∀ as, ∀ b i x l, Frame.main (σ := σ) as = .call b i x l → b = m.block := fun as b i x l e => by cases e
      cases l with
      | nil => exact .inr (.inr ⟨_, rfl, mk rfl hst⟩)
      | cons a as =>
        have hnil := hb.main
        cases a with
        | add y =>
          refine .inr (.inr ⟨_, rfl, ⟨?_⟩⟩)
          intro f hf b i x l e
          rw [hnil] at hf
          rw [List.mem_singleton.1 hf] at e; cases e
        | remove k => exact .inr (.inr ⟨_, rfl, mk rfl (up (hm _) hst)⟩)
        | read => exact .inr (.inr ⟨_, rfl, mk rfl (up (hm _) hst)⟩)
        | visit => exact .inr (.inr ⟨_, rfl, mk rfl (up (fun b i x l e => by cases e) (up (hm _) hst))⟩)
    | call b i x l =>
      have hbm : b = m.block := h _ (List.mem_cons_self ..) b i x l rfl
      have hc : ∀ as, ∀ b' i' x' l', Frame.call (σ := σ) b i x as = .call b' i' x' l' → b' = m.block := fun as b' i' x' l' e => by
        cases e; exact hbm
      cases l with
      | nil => exact .inr (.inr ⟨_, rfl, mk rfl hst⟩)
      | cons a as =>
        cases a with
        | add y =>
          by_cases hf : m.room ≤ m.tbl.num
          · exact .inr (.inl ⟨b, i, x, y, as, st, rfl, hf⟩)
          · exact .inr (.inr ⟨_, rfl, mk (add_block w hf y) (up (hc _) hst)⟩)
        | remove k => exact .inr (.inr ⟨_, rfl, mk rfl (up (hc _) hst)⟩)
        | read =>
          refine .inr (.inr ⟨⟨m, .call b i x as :: st, (i + 1, x, (m.tbl.slots[i]?).join) :: reads, visits, trace⟩, ?_, mk rfl (up (hc _) hst)⟩)
          unfold step; simp only [hbm, if_true]
        | visit => exact .inr (.inr ⟨_, rfl, mk rfl (up (fun b i x l e => by cases e) (up (hc _) hst))⟩)
    | loop i t0 seen =>
      by_cases hi : i < m.tbl.last
      · cases hs : m.tbl.slots[i]? with
        | none => left; unfold step; simp only [hi, if_true, hs]
        | some o =>
          cases o with
          | none =>
            exact .inr (.inr ⟨⟨m, .loop (i + 1) t0 seen :: st, reads, visits, trace⟩, by unfold step; simp only [hi, if_true, hs],
              mk rfl (up (fun b i x l e => by cases e) hst)⟩)
          | some x =>
            exact .inr (.inr ⟨⟨m, .call m.block i x (P trace x) :: .loop (i + 1) t0 (seen ++ [(i + 1, x)]) :: st, reads, visits, trace ++ [(i + 1, x)]⟩,
              by unfold step; simp only [hi, if_true, hs],
              mk rfl (up (fun b i x l e => by cases e; rfl) (up (fun b i x l e => by cases e) hst))⟩)
      · exact .inr (.inr ⟨⟨m, st, reads, (t0, seen) :: visits, trace⟩, by unfold step; simp only [hi, if_false], mk rfl hst⟩)

theorem exec_rok {grow : Nat → Nat} {cap : Nat} (hcap : cap < 2 ^ 32) {P : Visitor σ} (script : List (Act σ)) (n : Nat)
    (hf : ∀ k c, k < n → exec grow cap P script k = .go c → ¬ Full c) : ∃ c, exec grow cap P script n = .go c ∧ ROk c ∧ WF cap c.mem.tbl := by
  induction n with
  | zero =>
    refine ⟨_, rfl, ⟨?_⟩, wf_init⟩
    intro f hf b i x l e
    rw [List.mem_singleton.1 hf] at e; cases e
  | succ n ih =>
    obtain ⟨c, hc, hr, hw⟩ := ih (fun k c hk => hf k c (by omega))
    have ok := exec_ok (K := fun _ => False) (A := False) (grow := grow) hcap (P := P)
      (fun tr x => ⟨fun c h => h.elim, fun h => h.elim⟩) (script := script) (fun c h => h.elim)
    have hbot : Bottom c.stack := by
      rcases ok n with h | ⟨c', h, hc'⟩
      · rw [hc] at h; cases h
      · rw [hc] at h; cases h; exact hc'.bottom
    have hn := ok (n + 1)
    rcases step_rok (grow := grow) (P := P) hw hbot hr with h | h | ⟨c', h, hr'⟩
    · have : exec grow cap P script (n + 1) = .range := by unfold exec; rw [hc]; exact h
      rcases hn with h' | ⟨c', h', _⟩ <;> rw [this] at h' <;> cases h'
    · exact absurd h (hf n c (by omega) hc)
    · have e : exec grow cap P script (n + 1) = .go c' := by unfold exec; rw [hc]; exact h
      refine ⟨c', e, hr', ?_⟩
      rcases hn with h' | ⟨c'', h', hw'⟩
      · rw [e] at h'; cases h'
      · rw [e] at h'; cases h'; exact hw'.wf

end Verif.Event.Visit
