import Verif.Log.OwnSteps
/-! Property C161: loggers, sources and sinks that their user has released are destroyed. -/
namespace Verif.Log.Own

open Verif.Heap hiding Obj

/-- What a user can get to.  (Specification; no code.) -/
def Reach (s : State) : Prop := ∃ l, State.init.run l = some s

theorem run_ok {s : State} (hI : Inv s) (l : List Op) :
    ∃ s', s.run l = some s' ∧ Inv s' ∧ ((∀ o ∈ l, o.keeps) → Keeps s.cells s'.cells) := by
  induction l generalizing s with
  | nil => exact ⟨s, rfl, hI, fun _ _ _ _ m _ => m⟩
  | cons o l ih =>
    obtain ⟨s1, e1, S1⟩ := step_ok hI o
    obtain ⟨s2, e2, i2, k2⟩ := ih S1.inv
    refine ⟨s2, by simp only [State.run, e1]; exact e2, i2, fun hk c hm x hx hn => ?_⟩
    have K := S1.keep (hk o (by simp))
    exact k2 (fun o' ho => hk o' (by simp [ho])) c (K c hm _ hm (by rintro (e | e) <;> cases e)) x (K c hm x hx hn) hn

theorem Reach.inv {s : State} (h : Reach s) : Inv s := by
  obtain ⟨l, hl⟩ := h
  obtain ⟨s', e, i, _⟩ := run_ok Inv.init l
  rw [hl] at e; injection e with e; subst e
  exact i

theorem refers_iff {s : State} {c d : Nat} : Refers s c d ↔ ∃ r, (r, d) ∈ refsAt s.cells c := by
  constructor
  · rintro ⟨x, hx, hd⟩
    obtain ⟨e, he, hs⟩ := List.mem_map.mp hd
    exact ⟨e.1, by rw [refsAt_some hx, ← hs]; exact he⟩
  · rintro ⟨r, hm⟩
    obtain ⟨x, hx⟩ := alive_of_ref hm
    rw [refsAt_some hx] at hm
    exact ⟨x, hx, List.mem_map.mpr ⟨_, hm, rfl⟩⟩

theorem alive_refers {s : State} (hI : Inv s) {c d : Nat} (h : Refers s c d) : Alive s d := by
  obtain ⟨r, hm⟩ := refers_iff.mp h
  exact live_of hI.rc (cr_pos.mpr hm)

theorem alive_path {s : State} (hI : Inv s) {c d : Nat} (hc : Alive s c) (h : Relation.ReflTransGen (Refers s) c d) : Alive s d := by
  cases h with
  | refl => exact hc
  | tail _ h => exact alive_refers hI h

/-- **C161.** Whatever a user does, no object is used after its destruction, and no logger throws. -/
theorem own_defined (l : List Op) : ∃ s, State.init.run l = some s := by
  obtain ⟨s, e, _⟩ := run_ok Inv.init l
  exact ⟨s, e⟩

/-- **C161.** What a pointer of the user leads to exists. -/
theorem own_held {s : State} (h : Reach s) {c : Nat} (hc : Held s c) : Alive s c := by
  cases hc with
  | user hm => exact h.inv.live_user hm
  | via _ hr => exact alive_refers h.inv hr

theorem holder {s : State} (h : Inv s) {c : Nat} (hc : Alive s c) : c ∈ s.user ∨ ∃ b, Refers s b c := by
  obtain ⟨x, hx⟩ := hc
  have h1 := h.rc.eq c
  have h2 := h.rc.pos c x hx
  rw [rcOf_some hx] at h1
  by_cases g : 0 < s.user.count c
  · exact .inl (List.count_pos_iff.mp g)
  · obtain ⟨b, y, hy, hm⟩ := cnt_mem (d := c) (cells := s.cells) (by omega)
    exact .inr ⟨b, y, hy, hm⟩

/-- **C161, exactly.** An object exists only if a pointer of the user leads to it or a cycle of references does. -/
theorem own_exact {s : State} (h : Reach s) {c : Nat} (hc : Alive s c) :
    Held s c ∨ ∃ d, Relation.TransGen (Refers s) d d ∧ Relation.ReflTransGen (Refers s) d c := by
  by_cases hh : Held s c
  · exact .inl hh
  right
  refine cycle_of_back (n := s.cells.length) (A := fun c => Alive s c ∧ ¬ Held s c) (fun c hc => ?_) (fun c hc => ?_) ⟨hc, hh⟩
  · obtain ⟨⟨x, hx⟩, _⟩ := hc
    exact lt_of_get hx
  · rcases holder h.inv hc.1 with g | ⟨b, hb⟩
    · exact absurd (Held.user g) hc.2
    · have hb' := hb
      obtain ⟨x, hx, _⟩ := hb
      exact ⟨b, ⟨⟨x, hx⟩, fun hB => hc.2 (.via hB hb')⟩, hb'⟩

theorem depth_bound (h : Cells) : ∃ B, ∀ c a, kindAt h c = some a → a.depth ≤ B := by
  have gen : ∀ n, ∃ B, ∀ c a, c < n → kindAt h c = some a → a.depth ≤ B := by
    intro n
    induction n with
    | zero => exact ⟨0, fun c a hc => absurd hc (Nat.not_lt_zero _)⟩
    | succ n ih =>
      obtain ⟨B, hB⟩ := ih
      refine ⟨B + depth h n, fun c a hc ha => ?_⟩
      by_cases g : c = n
      · subst g
        rw [depth_eq ha]; omega
      · have := hB c a (by omega) ha
        omega
  obtain ⟨B, hB⟩ := gen h.length
  refine ⟨B, fun c a ha => hB c a ?_ ha⟩
  obtain ⟨x, hx⟩ := alive_of_kind ha
  exact lt_of_get hx

/-- The object is registered as a source with the logger.  (Specification; no code.) -/
def Registered (s : State) (d l : Nat) : Prop := (.source, d) ∈ refsAt s.cells l

/-- The user has connected a sink to the logger, or to a logger that has it, directly or through others, as a source.
(Specification; no code.) -/
def Listened (s : State) (l : Nat) : Prop := ∃ m d, Relation.ReflTransGen (Registered s) l m ∧ (.conn, d) ∈ refsAt s.cells m

theorem self_iff {s : State} (hI : Inv s) {l : Nat} (hl : isLogger s.cells l = true) :
    (.self, l) ∈ refsAt s.cells l ↔ hasSinks s.cells l = true := by
  have := (hI.good l trivial).1
  unfold One at this
  rw [← cr_pos, this, hl]
  by_cases g : hasSinks s.cells l = true
  · simp [g]
  · simp [g]

theorem self_logger {s : State} (hI : Inv s) {l : Nat} (hl : (.self, l) ∈ refsAt s.cells l) : isLogger s.cells l = true := by
  obtain ⟨a, _, h1, _, h3⟩ := hI.ty _ _ _ hl
  exact (isLogger_iff h1).mpr h3.2

theorem registered_logger {s : State} (hI : Inv s) {d l : Nat} (h : Registered s d l) : isLogger s.cells l = true := by
  obtain ⟨a, b, h1, h2, h3⟩ := hI.ty _ _ _ h
  exact (isLogger_iff h1).mpr (by have := h3.1; omega)

/-- **C161.** A logger refers to itself exactly while the user has connected a sink to it or to a logger above it. -/
theorem own_self {s : State} (h : Reach s) {l n : Nat} (hl : kindAt s.cells l = some (.logger n)) :
    (.self, l) ∈ refsAt s.cells l ↔ Listened s l := by
  have hI := h.inv
  replace hl : isLogger s.cells l = true := (isLogger_iff hl).mpr (by simp [Kind.depth])
  constructor
  · obtain ⟨B, hB⟩ := depth_bound s.cells
    have gen : ∀ n l, B - depth s.cells l ≤ n → isLogger s.cells l = true → (.self, l) ∈ refsAt s.cells l → Listened s l := by
      intro n
      induction n with
      | zero =>
        intro l hn hl hs
        obtain ⟨d, g | g⟩ := hasSinks_iff.mp ((self_iff hI hl).mp hs)
        · exact ⟨l, d, .refl, cr_pos.mp g⟩
        · obtain ⟨a, b, w1, w2, w3⟩ := hI.ty _ _ _ (cr_pos.mp g)
          have := hB _ _ w2
          rw [depth_eq w1] at hn
          have := w3.2
          omega
      | succ n ih =>
        intro l hn hl hs
        obtain ⟨d, g | g⟩ := hasSinks_iff.mp ((self_iff hI hl).mp hs)
        · exact ⟨l, d, .refl, cr_pos.mp g⟩
        · obtain ⟨a, b, w1, w2, w3⟩ := hI.ty _ _ _ (cr_pos.mp g)
          have F := (hI.good d trivial).2 l
          have sd : 0 < cr s.cells d (.self, d) := by
            rcases Nat.eq_zero_or_pos (cr s.cells d (.self, d)) with z | z
            · rw [z, if_neg (Nat.lt_irrefl _)] at F; omega
            · exact z
          rw [if_pos sd] at F
          have reg : Registered s l d := cr_pos.mp (by omega)
          have := hB _ _ w2
          obtain ⟨m, e, p, q⟩ := ih d (by rw [depth_eq w2]; rw [depth_eq w1] at hn; have := w3.2; omega) (registered_logger hI reg)
            (cr_pos.mp sd)
          exact ⟨m, e, .head reg p, q⟩
    exact gen _ l (Nat.le_refl _) hl
  · rintro ⟨m, d, p, q⟩
    induction p using Relation.ReflTransGen.head_induction_on with
    | refl => exact (self_iff hI hl).mpr (hasSinks_iff.mpr ⟨d, .inl (cr_pos.mpr q)⟩)
    | @head a b r _ ih =>
      have sb := ih (registered_logger hI r)
      have F := (hI.good b trivial).2 a
      rw [if_pos (cr_pos.mpr sb)] at F
      exact (self_iff hI hl).mpr (hasSinks_iff.mpr ⟨b, .inr (by rw [F]; exact cr_pos.mpr r)⟩)

/-- **C161.** The objects that feed a logger are its sources, each as often as it is registered, while the user listens to the logger, and none
otherwise. -/
theorem own_feed {s : State} (h : Reach s) {l n : Nat} (hl : kindAt s.cells l = some (.logger n)) (d : Nat) :
    (Listened s l → (refsAt s.cells d).count (.feed, l) = (refsAt s.cells l).count (.source, d)) ∧
    (¬ Listened s l → (.feed, l) ∉ refsAt s.cells d) := by
  have F := (h.inv.good l trivial).2 d
  refine ⟨fun g => ?_, fun g m => ?_⟩
  · rw [if_pos (cr_pos.mpr ((own_self h hl).mpr g))] at F
    exact F
  · rw [if_neg (fun w => g ((own_self h hl).mp (cr_pos.mp w)))] at F
    exact absurd (cr_pos.mpr m) (by omega)

/-- **C161 fails for every logger with a sink:** as long as the user disconnects and unregisters nothing, the logger, its sinks and its sources
are not destroyed, whatever else the user does and lets go. -/
theorem own_logger_fails {s t : State} {l : List Op} {c d n : Nat} (h : Reach s) (hc : kindAt s.cells c = some (.logger n))
    (hd : (.conn, d) ∈ refsAt s.cells c) (hl : ∀ o ∈ l, o.keeps) (hr : s.run l = some t) :
    Alive t c ∧ Alive t d ∧ ∀ e, Registered s e c → Alive t e := by
  have hI := h.inv
  obtain ⟨t', e, i, k⟩ := run_ok hI l
  rw [hr] at e; injection e with e; subst e
  have self := (own_self h hc).mpr ⟨c, d, .refl, hd⟩
  have K := k hl c self
  refine ⟨live_of i.rc (cr_pos.mpr (K _ self (by rintro (e | e) <;> cases e))), live_of i.rc (cr_pos.mpr (K _ hd (by rintro (e | e) <;> cases e))),
    fun e he => live_of i.rc (cr_pos.mpr (K _ he (by rintro (e | e) <;> cases e)))⟩

/-- **C161.** Of the references that are not those of loggers attaching to sources, an operation makes the one it asks for and withdraws the one
it names, and no others; an object that is destroyed has none. -/
theorem own_effect {s s' : State} (h : Reach s) {o : Op} (hs : s.step o = some s') {e : Nat} (he : Alive s' e) {r : Role} (hr : r ≠ .self)
    (hf : r ≠ .feed) (d : Nat) :
    (refsAt s'.cells e).count (r, d) + (if o.cuts s = some (e, r, d) then 1 else 0) =
      (refsAt s.cells e).count (r, d) + if o.adds s = some (e, r, d) then 1 else 0 := by
  obtain ⟨s1, e1, S⟩ := step_ok h.inv o
  rw [hs] at e1; injection e1 with e1; subst e1
  exact S.fr e he r d hr hf

theorem find_role {l : List (Role × Nat)} {d : Nat} (h : (Role.filter, d) ∈ l) :
    ∃ d', (l.find? fun e => e.1 == .filter) = some (.filter, d') := by
  cases w : l.find? fun e => e.1 == .filter with
  | none =>
    have := List.find?_eq_none.mp w _ h
    simp at this
  | some e =>
    have z := List.find?_some w
    simp only [beq_iff_eq] at z
    exact ⟨e.2, by rw [← z]⟩

/-- **C161.** A logger refers to at most one filter. -/
theorem own_filter {s : State} (h : Reach s) (c d d' : Nat) :
    (refsAt s.cells c).count (.filter, d) ≤ 1 ∧ ((.filter, d) ∈ refsAt s.cells c → (.filter, d') ∈ refsAt s.cells c → d' = d) := by
  obtain ⟨l, hl⟩ := h
  -- the claim in terms of counts
  suffices g : ∀ c d d', cr s.cells c (.filter, d) + (if d = d' then 0 else cr s.cells c (.filter, d')) ≤ 1 by
    have g1 := g c d d
    have g2 := g c d d'
    rw [if_pos rfl] at g1
    refine ⟨g1, fun h1 h2 => ?_⟩
    by_contra hne
    rw [if_neg (fun e => hne e.symm)] at g2
    have := cr_pos.mpr h1
    have := cr_pos.mpr h2
    omega
  have gen : ∀ (l : List Op) (a : State), Inv a →
      (∀ c d d', cr a.cells c (.filter, d) + (if d = d' then 0 else cr a.cells c (.filter, d')) ≤ 1) → a.run l = some s →
      ∀ c d d', cr s.cells c (.filter, d) + (if d = d' then 0 else cr s.cells c (.filter, d')) ≤ 1 := by
    intro l
    induction l with
    | nil => intro a _ h1 h2; injection h2 with h2; subst h2; exact h1
    | cons o l ih =>
      intro a hI h1 h2
      obtain ⟨b, e1, S⟩ := step_ok hI o
      simp only [State.run, e1] at h2
      refine ih b S.inv (fun c d d' => ?_) h2
      by_cases hc : Live b.cells c
      swap
      · rw [cr_dead _ hc, cr_dead _ hc]; simp
      have f1 := S.fr c hc .filter d (by simp) (by simp)
      have f2 := S.fr c hc .filter d' (by simp) (by simp)
      have f3 := h1 c d d'
      by_cases ga : ∃ x, o.adds a = some (c, .filter, x)
      · -- the filter that was there is gone
        obtain ⟨x, hx⟩ := ga
        have cut : ∀ y, 0 < cr a.cells c (.filter, y) → o.cuts a = some (c, .filter, y) := by
          intro y hy
          obtain ⟨z, hz⟩ := find_role (cr_pos.mp hy)
          have hz' := List.mem_of_find?_eq_some hz
          have : z = y := by
            by_contra hne
            have := h1 c z y
            rw [if_neg hne] at this
            have := cr_pos.mpr hz'
            omega
          subst this
          cases o with
          | setFilter i j =>
            cases j with
            | none => simp [Op.adds] at hx
            | some j =>
              simp only [Op.adds] at hx
              simp only [Op.cuts]
              cases hi : a.user[i]? with
              | none => simp [hi] at hx
              | some c' =>
                cases hj : a.user[j]? with
                | none => simp [hi, hj] at hx
                | some d' =>
                  simp only [hi, hj] at hx
                  by_cases g : isLogger a.cells c' = true ∧ kindAt a.cells d' = some .comp
                  · rw [if_pos g] at hx
                    simp only [Option.some.injEq, Prod.mk.injEq] at hx
                    obtain ⟨rfl, _, _⟩ := hx
                    simp only
                    rw [if_pos g, hz]; rfl
                  · rw [if_neg g] at hx; cases hx
          | connect i j => simp only [Op.adds] at hx; split at hx <;> [split at hx; skip] <;> simp at hx
          | register i j => simp only [Op.adds] at hx; split at hx <;> [split at hx; skip] <;> simp at hx
          | keep i j => simp only [Op.adds] at hx; split at hx <;> [split at hx; skip] <;> simp at hx
          | _ => simp [Op.adds] at hx
        have one : ∀ y, cr b.cells c (.filter, y) = if y = x then 1 else 0 := by
          intro y
          have f := S.fr c hc .filter y (by simp) (by simp)
          have l1 := h1 c y y
          rw [if_pos rfl] at l1
          rw [hx] at f
          have e2 : (if some (c, Role.filter, x) = some (c, .filter, y) then 1 else 0) = if y = x then 1 else 0 := by
            by_cases w : y = x
            · subst w; simp
            · have : ¬ x = y := fun e => w e.symm
              simp [w, this]
          rw [e2] at f
          rcases Nat.eq_zero_or_pos (cr a.cells c (.filter, y)) with z | z
          · rw [z, Nat.zero_add] at f
            by_cases w : o.cuts a = some (c, .filter, y)
            · rw [if_pos w] at f
              -- a withdrawn filter was there
              exfalso
              have : 0 < cr a.cells c (.filter, y) := by
                cases o with
                | setFilter i j =>
                  cases j with
                  | none => simp [Op.adds] at hx
                  | some j =>
                    simp only [Op.cuts] at w
                    split at w
                    · split at w
                      · rw [Option.map_eq_some_iff] at w
                        obtain ⟨q, q1, q2⟩ := w
                        simp only [Prod.mk.injEq] at q2
                        obtain ⟨rfl, rfl⟩ := q2
                        exact cr_pos.mpr (List.mem_of_find?_eq_some q1)
                      · cases w
                    · cases w
                | connect i j => simp [Op.cuts] at w
                | register i j => simp [Op.cuts] at w
                | keep i j => simp [Op.cuts] at w
                | _ => simp [Op.adds] at hx
              omega
            · rw [if_neg w] at f; omega
          · rw [if_pos (cut y z)] at f
            omega
        rw [one, one]
        by_cases g1 : d = d'
        · subst g1; rw [if_pos rfl]; split <;> omega
        · rw [if_neg g1]
          by_cases g2 : d = x
          · rw [if_pos g2, if_neg (fun e => g1 (g2.trans e.symm))]
          · rw [if_neg g2]; split <;> omega
      · rw [if_neg (fun e => ga ⟨_, e⟩)] at f1 f2
        by_cases g1 : d = d'
        · rw [if_pos g1] at f3 ⊢; omega
        · rw [if_neg g1] at f3 ⊢; omega
  exact gen l State.init Inv.init (fun c d d' => by simp [State.init, cr, refsAt]) hl

/-! ### Histories that close no cycles of their own -/

/-- A history of operations that close no cycles: the user connects only components, and components keep only components, the newer the
older.  (Specification; no code.) -/
inductive Plain : State → List Op → Prop
  | nil (s : State) : Plain s []
  | cons {s s' : State} {o : Op} {l : List Op} : o.plain s → s.step o = some s' → Plain s' l → Plain s (o :: l)

/-- Height of the classes in a history that closes no cycles. -/
def height : Kind → Nat
  | .logger n => n + 2
  | .source => 1
  | .comp => 0

/-- A reference of an object that is neither the pool's pointer to its logger nor one of a source to the pool's logger. -/
def Down (s : State) (c d : Nat) : Prop := ∃ r, r ≠ Role.self ∧ r ≠ Role.feed ∧ (r, d) ∈ refsAt s.cells c

theorem down_acyclic {s : State} (hI : Inv s) (hD : Downs s.cells) (d : Nat) : ¬ Relation.TransGen (Down s) d d := by
  let f : Nat → Nat := fun c => match kindAt s.cells c with | some k => height k | none => 0
  have step : ∀ c d, Down s c d → f d < f c ∨ (f d = f c ∧ d < c) := by
    rintro c d ⟨r, n1, n2, hm⟩
    obtain ⟨a, b, ha, hb, ht⟩ := hI.ty c r d hm
    simp only [f, ha, hb]
    cases r with
    | self => exact absurd rfl n1
    | feed => exact absurd rfl n2
    | source =>
      left
      obtain ⟨t1, t2⟩ := ht
      cases a <;> cases b <;> simp_all [Kind.depth, height]
    | conn =>
      left
      have := (hD c d).1 hm
      rw [hb] at this; injection this with this; subst this
      have ht : a ≠ .comp := ht
      cases a <;> simp_all [height]
    | filter =>
      left
      obtain ⟨t1, rfl⟩ := ht
      cases a <;> simp_all [height, Kind.depth]
    | kept =>
      obtain ⟨w1, w2⟩ := (hD c d).2 hm
      rw [hb] at w1; injection w1 with w1; subst w1
      cases a with
      | logger n => simp [Ty, Kind.depth] at ht
      | source => left; simp [height]
      | comp => exact .inr ⟨rfl, w2 ha⟩
  have : ∀ c d, Relation.TransGen (Down s) c d → f d < f c ∨ (f d = f c ∧ d < c) := by
    intro c d h
    induction h with
    | single h => exact step _ _ h
    | tail _ h ih =>
      have := step _ _ h
      omega
  intro h
  have := this d d h
  omega

theorem via_logger {s : State} (hI : Inv s) {a b : Nat} (h : Relation.TransGen (Refers s) a b) :
    Relation.TransGen (Down s) a b ∨ ∃ l, (.self, l) ∈ refsAt s.cells l ∧ Relation.ReflTransGen (Refers s) l b := by
  have edge : ∀ {a b}, Refers s a b → Down s a b ∨ (.self, b) ∈ refsAt s.cells b := by
    intro a b hr
    obtain ⟨r, hm⟩ := refers_iff.mp hr
    by_cases g1 : r = .self
    · subst g1
      obtain ⟨_, _, _, _, h3⟩ := hI.ty _ _ _ hm
      obtain ⟨rfl, _⟩ := h3
      exact .inr hm
    · by_cases g2 : r = .feed
      · subst g2
        right
        have F := (hI.good b trivial).2 a
        rcases Nat.eq_zero_or_pos (cr s.cells b (.self, b)) with z | z
        · rw [z, if_neg (Nat.lt_irrefl _)] at F
          have := cr_pos.mpr hm; omega
        · exact cr_pos.mp z
      · exact .inl ⟨r, g1, g2, hm⟩
  induction h with
  | single h =>
    rcases edge h with g | g
    · exact .inl (.single g)
    · exact .inr ⟨_, g, .refl⟩
  | tail _ h ih =>
    rcases ih with g | ⟨l, h1, h2⟩
    · rcases edge h with w | w
      · exact .inl (.tail g w)
      · exact .inr ⟨_, w, .refl⟩
    · exact .inr ⟨l, h1, .tail h2 h⟩

/-- **C161** for histories that close no cycles of their own: an object exists exactly while a pointer of the user leads to it, or a logger
does to which the user listens. -/
theorem own_plain {l : List Op} {s : State} (hp : Plain State.init l) (hr : State.init.run l = some s) (c : Nat) :
    Alive s c ↔ Held s c ∨ ∃ m n, kindAt s.cells m = some (.logger n) ∧ Listened s m ∧ Relation.ReflTransGen (Refers s) m c := by
  have gen : ∀ (l : List Op) (a : State), Inv a → Downs a.cells → Plain a l → a.run l = some s → Inv s ∧ Downs s.cells := by
    intro l
    induction l with
    | nil => intro a hI hD _ h; injection h with h; subst h; exact ⟨hI, hD⟩
    | cons o l ih =>
      intro a hI hD hP h
      cases hP with
      | cons h1 h2 h3 =>
        obtain ⟨s1, e1, m1⟩ := step_ok hI o
        rw [h2] at e1; injection e1 with e1; subst e1
        simp only [State.run, h2] at h
        exact ih _ m1.inv (m1.downs h1 hD) h3 h
  obtain ⟨hI, hD⟩ := gen l State.init Inv.init (fun c d => by simp [State.init, refsAt]) hp hr
  constructor
  · intro hc
    rcases own_exact ⟨l, hr⟩ hc with g | ⟨d, hd, hp⟩
    · exact .inl g
    · rcases via_logger hI hd with g | ⟨m, h1, h2⟩
      · exact absurd g (down_acyclic hI hD d)
      · have hm := self_logger hI h1
        obtain ⟨a, ha⟩ := kind_of_live (alive_of_ref h1)
        cases a with
        | logger n => exact .inr ⟨m, n, ha, (own_self ⟨l, hr⟩ ha).mp h1, h2.trans hp⟩
        | source => unfold isLogger at hm; rw [ha] at hm; cases hm
        | comp => unfold isLogger at hm; rw [ha] at hm; cases hm
  · rintro (g | ⟨m, n, h1, _, h3⟩)
    · exact own_held ⟨l, hr⟩ g
    · exact alive_path hI (alive_of_kind h1) h3

/-- **C161 (partial).** After a history that closes no cycles of its own, when no sinks of the user are connected to loggers, an object exists
exactly while a pointer of the user leads to it: all that the user has released has been destroyed.

Missing: loggers that have sinks, for which the claim is false (`own_logger_fails`), and cycles that the user makes. -/
theorem own_released_partial {l : List Op} {s : State} (hp : Plain State.init l) (hr : State.init.run l = some s)
    (hn : ∀ c n d, kindAt s.cells c = some (.logger n) → (.conn, d) ∉ refsAt s.cells c) (c : Nat) : Alive s c ↔ Held s c := by
  rw [own_plain hp hr c]
  refine ⟨fun h => h.resolve_right ?_, .inl⟩
  rintro ⟨m, n, h1, ⟨m', d, p, q⟩, _⟩
  have hI : Inv s := Reach.inv ⟨l, hr⟩
  have lg : isLogger s.cells m' = true := by
    cases Relation.ReflTransGen.cases_tail p with
    | inl e => subst e; exact (isLogger_iff h1).mpr (by simp [Kind.depth])
    | inr e => obtain ⟨_, _, r⟩ := e; exact registered_logger hI r
  obtain ⟨a, ha⟩ := kind_of_live (alive_of_ref q)
  cases a with
  | logger n => exact hn m' n d ha q
  | source => unfold isLogger at lg; rw [ha] at lg; cases lg
  | comp => unfold isLogger at lg; rw [ha] at lg; cases lg

/-- A sink, a source, and two loggers, the source registered with the first, the first with the second, and the sink connected to the second. -/
def setup : List Op := [.create .comp, .create .source, .create (.logger 0), .create (.logger 1), .register 1 2, .register 0 1, .connect 0 3]

/-- **C161 fails**, the whole program: the user lets go of everything and all objects remain; had the sink been disconnected before, all would
have been destroyed. -/
theorem own_program_fails :
    (State.init.run (setup ++ [.drop 0, .drop 0, .drop 0, .drop 0])).map (fun s => (s.user, s.cells.map Option.isSome)) =
      some ([], [true, true, true, true]) ∧
    (State.init.run (setup ++ [.disconnect 0 2, .drop 0, .drop 0, .drop 0, .drop 0])).map (fun s => (s.user, s.cells.map Option.isSome)) =
      some ([], [false, false, false, false]) := by
  decide +kernel

/-- The histories of `own_program_fails` close no cycles of their own. -/
theorem setup_plain : Plain State.init (setup ++ [.disconnect 0 2, .drop 3]) := by
  refine .cons trivial rfl (.cons trivial rfl (.cons trivial rfl (.cons trivial rfl (.cons trivial rfl (.cons trivial rfl (.cons ?_ rfl
    (.cons trivial rfl (.cons trivial rfl (.nil _)))))))))
  intro d hd
  cases hd
  rfl

end Verif.Log.Own
