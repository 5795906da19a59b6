import Verif.Stat.OwnLemmas
/-! Property C166: probes, their containers and their collectors live exactly as long as they are needed. -/
namespace Verif.Stat.Own

open Verif.Heap hiding Obj

variable {N V : Type} [DecidableEq N]

/-- What a user can get to.  (Specification; no code.) -/
def Reach (s : State N V) : Prop := ∃ l, State.init.run l = some s

theorem Reach.inv {s : State N V} (h : Reach s) : Inv s := by
  obtain ⟨l, hl⟩ := h
  obtain ⟨s', e, i⟩ := run_ok Inv.init l
  rw [hl] at e; injection e with e; subst e
  exact i

omit [DecidableEq N] in
theorem refers_iff {s : State N V} {c d : Nat} : Refers s c d ↔ ∃ r, (r, d) ∈ refsAt s.cells c := by
  constructor
  · rintro ⟨x, hx, hd⟩
    obtain ⟨e, he, hs⟩ := List.mem_map.mp hd
    exact ⟨e.1, by rw [refsAt_some hx, ← hs]; exact he⟩
  · rintro ⟨r, hm⟩
    obtain ⟨x, hx⟩ := alive_of_ref hm
    rw [refsAt_some hx] at hm
    exact ⟨x, hx, List.mem_map.mpr ⟨_, hm, rfl⟩⟩

/-- **C166.** Whatever a user does, no object is used after its destruction. -/
theorem own_defined (l : List (Op N V)) : ∃ s, State.init.run l = some s := by
  obtain ⟨s, e, _⟩ := run_ok Inv.init l
  exact ⟨s, e⟩

/-- **C166.** What a pointer of the user leads to exists. -/
theorem own_held {s : State N V} (h : Reach s) {c : Nat} (hc : Held s c) : Alive s c := by
  have hI := h.inv
  cases hc with
  | user hm => exact hI.alive_user hm
  | via _ hr =>
    obtain ⟨r, hm⟩ := refers_iff.mp hr
    exact hI.alive_ref hm

/-- **C166, exactly.** An object exists only if a pointer of the user leads to it or a cycle of references does. -/
theorem own_exact {s : State N V} (h : Reach s) {c : Nat} (hc : Alive s c) :
    Held s c ∨ ∃ d, Relation.TransGen (Refers s) d d ∧ Relation.ReflTransGen (Refers s) d c := by
  have hI := h.inv
  by_cases hh : Held s c
  · exact .inl hh
  right
  refine cycle_of_back (n := s.cells.length) (A := fun c => Alive s c ∧ ¬ Held s c) (fun c hc => ?_) (fun c hc => ?_) ⟨hc, hh⟩
  · obtain ⟨⟨x, hx⟩, _⟩ := hc
    exact lt_of_get hx
  · obtain ⟨⟨x, hx⟩, hn⟩ := hc
    have h1 := hI.rc.eq c
    have h2 := hI.rc.pos c x hx
    rw [rcOf_some hx] at h1
    by_cases g : 0 < s.user.count c
    · exact absurd (Held.user (List.count_pos_iff.mp g)) hn
    · obtain ⟨b, y, hy, hm⟩ := cnt_mem (d := c) (cells := s.cells) (by omega)
      have hr : Refers s b c := ⟨y, hy, hm⟩
      exact ⟨b, ⟨⟨y, hy⟩, fun hb => hn (.via hb hr)⟩, hr⟩

/-- Height of the classes in a history that closes no cycles. -/
def height : Kind → Nat
  | .comp => 3
  | .container => 2
  | .probe => 1
  | .collector => 0

omit [DecidableEq N] in
theorem plain_acyclic {s : State N V} (hI : Inv s) (hD : Downs s) (d : Nat) : ¬ Relation.TransGen (Refers s) d d := by
  let f : Nat → Nat := fun c => match kindAt s.cells c with | some k => height k | none => 0
  have step : ∀ c d, Refers s c d → f d < f c ∨ (f d = f c ∧ d < c) := by
    intro c d hr
    obtain ⟨r, hm⟩ := refers_iff.mp hr
    obtain ⟨a, b, ha, hb, ht⟩ := hI.ty c r d hm
    have hd := hD c r d b hm hb
    simp only [f, ha, hb]
    cases r with
    | item n => obtain ⟨rfl, rfl⟩ := ht; left; decide
    | conn => obtain ⟨rfl, _⟩ := ht; have := hd.1 rfl; subst this; left; decide
    | kept =>
      have e : a = .comp := ht
      subst e
      cases b with
      | comp => exact .inr ⟨rfl, hd.2 rfl rfl⟩
      | container => left; decide
      | probe => left; decide
      | collector => left; decide
  have : ∀ c d, Relation.TransGen (Refers s) c d → f d < f c ∨ (f d = f c ∧ d < c) := by
    intro c d h
    induction h with
    | single h => exact step _ _ h
    | tail _ h ih =>
      have := step _ _ h
      omega
  intro h
  have := this d d h
  omega

/-- A history of operations that close no cycles: see `Op.plain`.  (Specification; no code.) -/
inductive Plain : State N V → List (Op N V) → Prop
  | nil (s : State N V) : Plain s []
  | cons {s s' : State N V} {o : Op N V} {l : List (Op N V)} : o.plain s → s.step o = some s' → Plain s' l → Plain s (o :: l)

/-- **C166.** When the sinks are collectors that keep no pointers, and components keep only containers, probes, collectors and components made
before them, an object exists exactly while a pointer of the user leads to it. -/
theorem own_plain {l : List (Op N V)} {s : State N V} (hp : Plain State.init l) (hr : State.init.run l = some s) (c : Nat) :
    Alive s c ↔ Held s c := by
  have gen : ∀ (l : List (Op N V)) (a : State N V), Inv a → Downs a → Plain a l → a.run l = some s → Inv s ∧ Downs s := by
    intro l
    induction l with
    | nil => intro a hI hD _ h; injection h with h; subst h; exact ⟨hI, hD⟩
    | cons o l ih =>
      intro a hI hD hP h
      cases hP with
      | cons h1 h2 h3 =>
        obtain ⟨s1, e1, m1⟩ := step_ok hI o
        rw [h2] at e1; injection e1 with e1; subst e1
        obtain ⟨i1, d1, _⟩ := m1.inv hI
        simp only [State.run, h2] at h
        exact ih _ i1 (d1 h1 hD) h3 h
  obtain ⟨hI, hD⟩ := gen l State.init Inv.init (fun c r d b hm => by simp [State.init, refsAt] at hm) hp hr
  refine ⟨fun hc => ?_, own_held ⟨l, hr⟩⟩
  rcases own_exact ⟨l, hr⟩ hc with g | ⟨d, hd, _⟩
  · exact g
  · exact absurd hd (plain_acyclic hI hD d)

/-- **C166.** In such a history, when the user has no pointers left, nothing is left. -/
theorem own_no_leak {l : List (Op N V)} {s : State N V} (hp : Plain State.init l) (hr : State.init.run l = some s) (hu : s.user = [])
    (c : Nat) : ¬ Alive s c := by
  rw [own_plain hp hr]
  intro hc
  induction hc with
  | user hm => rw [hu] at hm; cases hm
  | via _ _ ih => exact ih

/-- No operation of the history is a call of the object `c`.  (Specification; no code.) -/
def Untouched (c : Nat) : State N V → List (Op N V) → Prop
  | _, [] => True
  | s, o :: l => o.target s ≠ some c ∧ ∀ s1, s.step o = some s1 → Untouched c s1 l

/-- **C166.** Whatever happens to other objects, an object that goes on existing has the items and the connections that it had. -/
theorem own_frame {s s' : State N V} {l : List (Op N V)} {c : Nat} (h : Reach s) (hc : Alive s c) (hr : s.run l = some s')
    (hq : Untouched c s l) (hc' : Alive s' c) : refsAt s'.cells c = refsAt s.cells c ∧ kindAt s'.cells c = kindAt s.cells c := by
  have hI := h.inv
  obtain ⟨x, hx⟩ := hc
  have lt := lt_of_get hx
  obtain ⟨y, hy⟩ := hc'
  have key : ∀ (l : List (Op N V)) (s : State N V), Inv s → c < s.cells.length → s.run l = some s' → Untouched c s l →
      refsAt s'.cells c = refsAt s.cells c ∧ kindAt s'.cells c = kindAt s.cells c := by
    intro l
    induction l with
    | nil => intro s _ _ hr _; injection hr with hr; subst hr; exact ⟨rfl, rfl⟩
    | cons o l ih =>
      intro s hI lt hr hq
      obtain ⟨s1, e1, m1⟩ := step_ok hI o
      obtain ⟨i1, _, f1⟩ := m1.inv hI
      simp only [State.run, e1] at hr
      obtain ⟨q1, q2⟩ := ih s1 i1 (Nat.lt_of_lt_of_le lt f1.len) hr (hq.2 s1 e1)
      have k1 : kindAt s1.cells c = some y.kind := q2.symm.trans (kindAt_some hy)
      exact ⟨q1.trans (f1.refs c _ lt k1 hq.1), q2.trans (k1.trans (f1.kind c _ lt k1).symm)⟩
  exact key l s hI lt hr hq

/-! ### What the calls do -/

theorem item_push {cells : List (Option (Obj N))} {h : List (Option (Obj N))} {c p : Nat} {n : N} (hn : item cells c n = none)
    (hr : ∀ e, refsAt h e = if e = c then refsAt cells e ++ [(.item n, p)] else refsAt cells e) (e : Nat) (m : N) :
    item h e m = if e = c ∧ m = n then some p else item cells e m := by
  unfold item at hn ⊢
  rw [hr]
  by_cases g : e = c
  · subst g
    rw [if_pos rfl, List.find?_append]
    by_cases q : m = n
    · subst q
      rw [Option.map_eq_none_iff] at hn
      rw [hn]
      simp
    · have q' : ¬ (n = m) := fun h => q h.symm
      simp [q, q']
  · simp [g]

/-- **C166.** `Add` under a new name makes a probe without connections, which the container and the caller hold. -/
theorem own_add {s : State N V} {i c : Nat} {n : N} (h : Reach s) (hi : s.user[i]? = some c) (hc : kindAt s.cells c = some .container)
    (hn : item s.cells c n = none) :
    ∃ s' p, s.step (.add i n) = some s' ∧ ¬ Alive s p ∧ s'.user = p :: s.user ∧ kindAt s'.cells p = some .probe ∧ refsAt s'.cells p = [] ∧
      ∀ m, item s'.cells c m = if m = n then some p else item s.cells c m := by
  have hI := h.inv
  obtain ⟨q1, q2, q3⟩ := push_ok (k := Kind.probe) hI.rc
  obtain ⟨x, hx⟩ := alive_of_kind hc
  have lt := lt_of_get hx
  have hc' : kindAt (s.cells ++ [some ⟨1, .probe, []⟩]) c = some .container := by rw [q3, if_neg (by omega)]; exact hc
  have hp' : kindAt (s.cells ++ [some (⟨1, .probe, []⟩ : Obj N)]) s.cells.length = some .probe := by rw [q3, if_pos rfl]
  obtain ⟨h1, e1, i1, l1, k1, r1⟩ := link_ok (r := Role.item n) q1 (alive_of_kind hc') (alive_of_kind hp')
  refine ⟨⟨h1, (s.create .probe).user, s.got⟩, s.cells.length, ?_, ?_, rfl, ?_, ?_, ?_⟩
  · simp only [State.step, hi]
    rw [if_pos ⟨hc, hn⟩]
    show Option.map _ (link c (.item n) s.cells.length (s.cells ++ [some ⟨1, .probe, []⟩])) = _
    rw [e1]; rfl
  · rintro ⟨y, hy⟩
    exact Nat.lt_irrefl _ (lt_of_get hy)
  · show kindAt h1 _ = _
    rw [k1]; exact hp'
  · show refsAt h1 _ = _
    rw [r1, if_neg (by omega), q2]
    simp [refsAt]
  · intro m
    have hn' : item (s.cells ++ [some (⟨1, .probe, []⟩ : Obj N)]) c n = none := by
      unfold item; rw [q2]; exact hn
    show item h1 c m = _
    rw [item_push hn' r1]
    simp only [true_and]
    congr 1
    unfold item; rw [q2]

/-- **C166.** `GetProbe` gives the caller a pointer to the probe and changes nothing else. -/
theorem own_get {s : State N V} {i c p : Nat} {n : N} (h : Reach s) (hi : s.user[i]? = some c) (hn : item s.cells c n = some p) :
    ∃ s', s.step (.get i n) = some s' ∧ s'.user = p :: s.user ∧ ∀ e, refsAt s'.cells e = refsAt s.cells e ∧
      kindAt s'.cells e = kindAt s.cells e := by
  have hI := h.inv
  obtain ⟨h1, e1, i1, l1, k1, r1⟩ := addRef_ok hI.rc (hI.alive_ref (item_mem hn))
  refine ⟨⟨h1, p :: s.user, s.got⟩, ?_, rfl, fun e => ⟨r1 e, k1 e⟩⟩
  simp only [State.step, hi, hn]
  rw [e1]; rfl

omit [DecidableEq N] in
theorem find_erase [DecidableEq N] {l : List (Role N × Nat)} (hu : (l.filterMap name).Nodup) (n m : N) :
    (((l.eraseIdx (l.findIdx fun e => e.1 == .item n)).find? fun e => e.1 == .item m).map Prod.snd) =
      if m = n then none else (l.find? fun e => e.1 == .item m).map Prod.snd := by
  induction l with
  | nil => simp
  | cons e l ih =>
    have hu' : (l.filterMap name).Nodup := hu.sublist ((List.sublist_cons_self e l).filterMap name)
    by_cases g : e.1 = .item n
    · have hf : (e :: l).findIdx (fun e => e.1 == .item n) = 0 := by simp [List.findIdx_cons, g]
      rw [hf, List.eraseIdx_cons_zero]
      by_cases q : m = n
      · subst q
        rw [if_pos rfl, Option.map_eq_none_iff, List.find?_eq_none]
        intro x hx he
        have he : x.1 = .item m := eq_of_beq he
        have : name e = some m := by obtain ⟨r, p⟩ := e; subst g; rfl
        rw [List.filterMap_cons, this] at hu
        exact (List.nodup_cons.mp hu).1 (name_mem.mpr ⟨x.2, by rw [← he]; exact hx⟩)
      · have q' : ¬ (n = m) := fun h => q h.symm
        rw [if_neg q, List.find?_cons]
        have : (e.1 == Role.item m) = false := by rw [g]; simp [q']
        rw [this]
    · have hf : (e :: l).findIdx (fun e => e.1 == .item n) = l.findIdx (fun e => e.1 == .item n) + 1 := by
        rw [List.findIdx_cons, beq_false_of_ne g]; rfl
      rw [hf, List.eraseIdx_cons_succ, List.find?_cons, List.find?_cons]
      cases hm : (e.1 == Role.item m) with
      | false => exact ih hu'
      | true =>
        have hm : e.1 = .item m := eq_of_beq hm
        have : m ≠ n := by rintro rfl; exact g hm
        simp [this]

/-- **C166.** `erase` takes exactly the item of the name away. -/
theorem own_erase {s : State N V} {i c p : Nat} {n : N} (h : Reach s) (hi : s.user[i]? = some c) (hn : item s.cells c n = some p) :
    ∃ s', s.step (.erase i n) = some s' ∧ s'.user = s.user ∧ ∀ m, item s'.cells c m = if m = n then none else item s.cells c m := by
  have hI := h.inv
  have hc := hI.alive_user (List.mem_of_getElem? hi)
  obtain ⟨h1, e1, i1, l1, _⟩ := unlink_ok (k := (refsAt s.cells c).findIdx fun e => e.1 == .item n) hI.rc hc
  have hs : s.step (.erase i n) = some ⟨h1, s.user, s.got⟩ := by
    simp only [State.step, hi, hn]
    rw [if_pos (by rfl), e1]; rfl
  obtain ⟨s', es, m⟩ := step_ok hI (.erase i n)
  rw [hs] at es; injection es with es; subst es
  obtain ⟨I1, _⟩ := m.inv hI
  obtain ⟨y, hy⟩ := I1.alive_user (show c ∈ (⟨h1, s.user, s.got⟩ : State N V).user from List.mem_of_getElem? hi)
  refine ⟨_, hs, rfl, fun m => ?_⟩
  have hr : refsAt h1 c = (refsAt s.cells c).eraseIdx ((refsAt s.cells c).findIdx fun e => e.1 == .item n) := by
    rw [refsAt_some hy, (l1.keep c y hy).2, if_pos rfl]
  show item h1 c m = _
  unfold item
  rw [hr]
  exact find_erase (hI.uniq c) n m

/-- **C166.** `MergeFrom`: the container keeps the items that it has, and holds the probes of the other one under the new names. -/
theorem own_merge {s : State N V} {i j c d : Nat} {f : N → N} {names : List N} (h : Reach s) (hi : s.user[i]? = some c)
    (hj : s.user[j]? = some d) (hc : kindAt s.cells c = some .container) (hd : kindAt s.cells d = some .container)
    (hn : ∀ n ∈ names, item s.cells d n ≠ none) :
    ∃ s', s.step (.merge i f j names) = some s' ∧ s'.user = s.user ∧
      ∀ m, item s'.cells c m = (item s.cells c m).or ((names.find? fun n => f n = m).bind (item s.cells d)) := by
  have hI := h.inv
  have key : ∀ (names : List N) (s : State N V), Inv s → kindAt s.cells c = some .container → (∀ n ∈ names, item s.cells d n ≠ none) →
      ∃ h, loop c f d names s.cells = some h ∧
        ∀ m, item h c m = (item s.cells c m).or ((names.find? fun n => f n = m).bind (item s.cells d)) := by
    intro names
    induction names with
    | nil => intro s _ _ _; exact ⟨s.cells, rfl, fun m => by simp⟩
    | cons n ns ih =>
      intro s hI hc hn
      unfold loop
      cases hp : item s.cells d n with
      | none => exact absurd hp (hn n (by simp))
      | some p =>
        dsimp only
        by_cases g : item s.cells c (f n) = none
        · rw [if_pos g]
          obtain ⟨a, b, _, h2, h3⟩ := hI.ty _ _ _ (item_mem hp)
          obtain ⟨_, hb⟩ := h3
          subst hb
          obtain ⟨h1, e1, i1, l1, k1, r1⟩ := link_ok (r := Role.item (f n)) hI.rc (alive_of_kind hc) (alive_of_kind h2)
          have m : Move (N := N) (V := V) True (some c) s ⟨h1, s.user, s.got⟩ :=
            .link (r := Role.item (f n)) rfl hc h2 ⟨rfl, rfl⟩ (fun _ => ⟨fun h => (by cases h), fun h => (by cases h)⟩)
              (fun m hm => by injection hm with hm; subst hm; exact g) e1
          have I1 := (m.inv hI).1
          have hit := item_push g r1
          have same : ∀ n' q, item s.cells d n' = some q → item h1 d n' = some q := by
            intro n' q hq
            rw [hit]
            split
            · rename_i hh
              obtain ⟨rfl, rfl⟩ := hh
              rw [g] at hq; cases hq
            · exact hq
          obtain ⟨h', e', q'⟩ := ih ⟨h1, s.user, s.got⟩ I1 ((k1 c).trans hc) (fun n' hn' => by
            cases hq : item s.cells d n' with
            | none => exact absurd hq (hn n' (by simp [hn']))
            | some q => rw [show item (⟨h1, s.user, s.got⟩ : State N V).cells d n' = some q from same n' q hq]; simp)
          refine ⟨h', by rw [e1]; exact e', fun m => ?_⟩
          rw [q' m]
          show (item h1 c m).or _ = _
          rw [hit]
          by_cases qm : m = f n
          · subst qm
            simp [g, hp]
          · have qm' : ¬ (f n = m) := fun h => qm h.symm
            simp only [qm, and_false, if_false, List.find?_cons, qm', decide_false]
            congr 1
            cases hfd : ns.find? fun n => decide (f n = m) with
            | none => rfl
            | some n' =>
              have hmem := List.mem_of_find?_eq_some hfd
              cases hq : item s.cells d n' with
              | none => exact absurd hq (hn n' (by simp [hmem]))
              | some q => simpa [hq] using same n' q hq
        · rw [if_neg g]
          obtain ⟨h', e', q'⟩ := ih s hI hc (fun n' hn' => hn n' (by simp [hn']))
          refine ⟨h', e', fun m => ?_⟩
          rw [q' m]
          by_cases qm : m = f n
          · subst qm
            cases hq : item s.cells c (f n) with
            | none => exact absurd hq g
            | some q => simp
          · have qm' : ¬ (f n = m) := fun h => qm h.symm
            simp [qm']
  obtain ⟨h1, e1, q1⟩ := key names s hI hc hn
  refine ⟨⟨h1, s.user, s.got⟩, ?_, rfl, q1⟩
  simp only [State.step, hi, hj]
  rw [if_pos ⟨hc, hd⟩, e1]; rfl

/-- **C166.** `Connect` makes the probe hold the sink. -/
theorem own_connect {s : State N V} {i j c d : Nat} (h : Reach s) (hi : s.user[i]? = some c) (hj : s.user[j]? = some d)
    (hc : kindAt s.cells c = some .probe) (hd : kindAt s.cells d = some .collector ∨ kindAt s.cells d = some .comp) :
    ∃ s', s.step (.connect i j) = some s' ∧ s'.user = s.user ∧ refsAt s'.cells c = refsAt s.cells c ++ [(.conn, d)] := by
  have hI := h.inv
  have hd' : ∃ x, s.cells[d]? = some (some x) := hd.elim alive_of_kind alive_of_kind
  obtain ⟨h1, e1, i1, l1, k1, r1⟩ := link_ok (r := Role.conn) hI.rc (alive_of_kind hc) hd'
  refine ⟨⟨h1, s.user, s.got⟩, ?_, rfl, by rw [r1, if_pos rfl]⟩
  simp only [State.step, hi, hj]
  rw [if_pos ⟨hc, hd⟩, e1]; rfl

/-- **C166.** `Disconnect` makes the probe give up the sink. -/
theorem own_disconnect {s : State N V} {i k c d : Nat} (h : Reach s) (hi : s.user[i]? = some c)
    (hk : (refsAt s.cells c)[k]? = some (.conn, d)) :
    ∃ s', s.step (.disconnect i k) = some s' ∧ s'.user = s.user ∧ refsAt s'.cells c = (refsAt s.cells c).eraseIdx k := by
  have hI := h.inv
  have ha : s.at? c k .conn = some d := by unfold State.at?; rw [hk]; simp
  have hc := hI.alive_user (List.mem_of_getElem? hi)
  obtain ⟨h1, e1, i1, l1, _⟩ := unlink_ok (k := k) hI.rc hc
  have hs : s.step (.disconnect i k) = some ⟨h1, s.user, s.got⟩ := by
    simp only [State.step, hi, ha]
    rw [e1]; rfl
  obtain ⟨s', es, m⟩ := step_ok hI (.disconnect i k)
  rw [hs] at es; injection es with es; subst es
  obtain ⟨y, hy⟩ := (m.inv hI).1.alive_user (show c ∈ (⟨h1, s.user, s.got⟩ : State N V).user from List.mem_of_getElem? hi)
  refine ⟨_, hs, rfl, ?_⟩
  show refsAt h1 c = _
  rw [refsAt_some hy, (l1.keep c y hy).2, if_pos rfl]

/-- **C166.** A probe that the user holds gives each of its samples to its sinks, once for each connection, and all of them exist; nothing is
created or destroyed. -/
theorem own_fire {s : State N V} {i c : Nat} {v : V} (h : Reach s) (hi : s.user[i]? = some c) :
    ∃ (s' : State N V) (l : List Nat), s.step (.fire i v) = some s' ∧ s'.cells = s.cells ∧ s'.user = s.user ∧ s'.got = s.got ++ l.map (fun d => (d, c, v)) ∧
      (∀ d ∈ l, Alive s d) ∧ ∀ d, l.count d = (refsAt s.cells c).count (.conn, d) := by
  have hI := h.inv
  refine ⟨⟨s.cells, s.user, s.got ++ (sinks s.cells c).map fun d => (d, c, v)⟩, sinks s.cells c, ?_, rfl, rfl, rfl,
    fun d hd => hI.alive_ref (sink_mem.mp hd), fun d => ?_⟩
  · simp only [State.step, hi]
    rw [calls_ok fun d hd => hI.alive_ref (sink_mem.mp hd)]
    rfl
  · unfold sinks
    induction refsAt s.cells c with
    | nil => rfl
    | cons e l ih =>
      obtain ⟨r, x⟩ := e
      rw [List.filter_cons]
      cases r with
      | item n => simpa [List.count_cons] using ih
      | kept => simpa [List.count_cons] using ih
      | conn =>
        simp only [beq_self_eq_true, if_true, List.map_cons, List.count_cons, ih]
        by_cases g : x = d
        · simp [g]
        · simp [g]

/-- A component that keeps a container and is a sink of one of its probes is never destroyed, nor are container and probe, once the user has
let go; disconnecting first destroys all of them. -/
theorem own_cycle :
    let l : List (Op Nat Nat) := [.create .comp, .create .container, .keep 1 0, .add 0 7, .connect 0 2]
    ((State.init.run (l ++ [.drop 0, .drop 0, .drop 0])).map fun s => (s.user, s.cells.map Option.isSome)) = some ([], [true, true, true]) ∧
    ((State.init.run (l ++ [.disconnect 0 0, .drop 0, .drop 0, .drop 0])).map fun s => (s.user, s.cells.map Option.isSome)) =
      some ([], [false, false, false]) := by
  decide +kernel

/-- A summary is connected to a probe of a container that is merged into another one.  The first container goes away, and then the user's
pointer to the summary; the probe and the summary stay, and a sample arrives.  When the name is erased and the last pointer to the probe goes
away, the summary goes too. -/
example :
    let l : List (Op Nat Nat) := [.create .container, .create .collector, .add 1 7, .connect 0 1, .create .container,
      .merge 0 (· + 100) 3 [7], .drop 3, .drop 2, .fire 1 5]
    ((State.init.run l).map fun s => (s.cells.map Option.isSome, s.user, s.got)) =
      some ([false, true, true, true], [3, 2], [(1, 2, 5)]) ∧
    ((State.init.run (l ++ [.erase 0 107, .drop 1])).map fun s => s.cells.map Option.isSome) = some [false, false, false, true] := by
  decide +kernel

/-- That history closes no cycles; nor does one in which a component keeps its container, a probe and an older component. -/
example : ∃ s : State Nat Nat, Plain State.init [.create .comp, .create .comp, .keep 0 1, .create .container, .keep 1 0, .add 0 7, .keep 2 0,
      .create .collector, .connect 1 0, .copy 2, .fire 2 3] ∧
    State.init.run [.create .comp, .create .comp, .keep 0 1, .create .container, .keep 1 0, .add 0 7, .keep 2 0,
      .create .collector, .connect 1 0, .copy 2, .fire 2 3] = some s ∧ s.got = [(4, 3, 3)] := by
  refine ⟨_, ?_, rfl, by decide +kernel⟩
  refine .cons trivial rfl (.cons trivial rfl (.cons ?_ rfl (.cons trivial rfl (.cons ?_ rfl (.cons trivial rfl (.cons ?_ rfl
    (.cons trivial rfl (.cons ?_ rfl (.cons trivial rfl (.cons trivial rfl (.nil _)))))))))))
  · intro c d hc hd _; cases hc; cases hd; decide
  · intro c d hc hd hk; cases hc; cases hd; exact absurd hk (by decide +kernel)
  · intro c d hc hd hk; cases hc; cases hd; exact absurd hk (by decide +kernel)
  · intro d hd; cases hd; decide +kernel

end Verif.Stat.Own
