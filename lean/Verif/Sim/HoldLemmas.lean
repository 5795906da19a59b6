import Verif.Sim.Hold

/-! Lemmas about the life times of event handles. -/
set_option linter.unusedVariables false
namespace Verif.Sim

/-- The references of a call under way to handle `id`. -/
def HFrame.weight (K : HKind) (id : Nat) (f : HFrame) : Nat :=
  if f.id = id then (if K = .heap then 1 else 0) + (if f.sim then 1 else 0) else 0

/-- Who holds handle `id`. -/
def HSt.holders (K : HKind) (s : HSt) (id : Nat) : Nat :=
  s.queue.count id + s.user.count id + (s.frames.map (HFrame.weight K id)).sum

/-- The counts are `n`. -/
structure Acct (cells : List (Option Nat)) (n : Nat → Nat) : Prop where
  cell : ∀ id, id < cells.length → cells[id]? = some (if n id = 0 then none else some (n id))
  out : ∀ id, cells.length ≤ id → n id = 0

/-- One more for `id`. -/
def plus (id : Nat) (n : Nat → Nat) : Nat → Nat := fun i => n i + if id = i then 1 else 0

theorem Acct.lt {c : List (Option Nat)} {n : Nat → Nat} (h : Acct c n) {id : Nat} (hp : 0 < n id) : id < c.length := by
  rcases Nat.lt_or_ge id c.length with x | x
  · exact x
  · have := h.out id x
    omega

theorem Acct.get {c : List (Option Nat)} {n : Nat → Nat} (h : Acct c n) {id : Nat} (hp : 0 < n id) : c[id]? = some (some (n id)) := by
  rw [h.cell id (h.lt hp), if_neg (by omega)]

theorem touch_ok {s : HSt} {n : Nat → Nat} (h : Acct s.cells n) {id : Nat} (hp : 0 < n id) : s.touch id = s := by
  simp only [HSt.touch, h.get hp]

theorem addRef_ok {s : HSt} {n : Nat → Nat} (h : Acct s.cells n) {id : Nat} (hp : 0 < n id) :
    s.addRef id = { s with cells := s.cells.set id (some (n id + 1)) } := by
  simp only [HSt.addRef, h.get hp]

theorem Acct.addRef {s : HSt} {n : Nat → Nat} (h : Acct s.cells n) {id : Nat} (hp : 0 < n id) : Acct (s.addRef id).cells (plus id n) := by
  rw [addRef_ok h hp]
  have l := h.lt hp
  refine ⟨fun i hi => ?_, fun i hi => ?_⟩
  · simp only [List.length_set] at hi
    by_cases e : id = i
    · subst e
      simp [plus, hi]
    · simp only [plus, if_neg e, Nat.add_zero]
      rw [List.getElem?_set_ne e]
      exact h.cell i hi
  · simp only [List.length_set] at hi
    simp only [plus]
    rw [if_neg (by omega), h.out i hi]

theorem Acct.release {s : HSt} {n : Nat → Nat} {id : Nat} (h : Acct s.cells (plus id n)) :
    Acct (s.release id).cells n ∧ (s.release id).bad = s.bad ∧ s.release id = { s with cells := (s.release id).cells } := by
  have hp : plus id n id = n id + 1 := by simp [plus]
  have g := h.get (id := id) (by omega)
  rw [hp] at g
  have l := h.lt (id := id) (by omega)
  have e : s.release id = { s with cells := s.cells.set id (if n id = 0 then none else some (n id)) } := by
    simp only [HSt.release, g]
  rw [e]
  refine ⟨⟨fun i hi => ?_, fun i hi => ?_⟩, rfl, rfl⟩
  · simp only [List.length_set] at hi
    by_cases e : id = i
    · subst e
      simp [hi]
    · simp only
      rw [List.getElem?_set_ne e]
      have := h.cell i hi
      simpa [plus, e] using this
  · simp only [List.length_set] at hi
    have := h.out i hi
    simp only [plus] at this
    omega

/-- A new handle with its first reference. -/
theorem Acct.create {s : HSt} {n : Nat → Nat} (h : Acct s.cells n) :
    s.create.addRef s.cells.length = { s with cells := s.cells ++ [some 1] } ∧
      Acct (s.cells ++ [some 1]) (plus s.cells.length n) := by
  refine ⟨?_, ⟨fun i hi => ?_, fun i hi => ?_⟩⟩
  · simp [HSt.addRef, HSt.create]
  · simp only [List.length_append, List.length_singleton] at hi
    by_cases e : s.cells.length = i
    · subst e
      have := h.out s.cells.length (Nat.le_refl _)
      simp [plus, this]
    · rw [List.getElem?_append_left (by omega)]
      have := h.cell i (by omega)
      simpa [plus, e] using this
  · simp only [List.length_append, List.length_singleton] at hi
    have := h.out i (by omega)
    simp only [plus]
    rw [if_neg (by omega), this]

theorem count_eraseIdx : ∀ (l : List Nat) (i a b : Nat), l[i]? = some a → l.count b = (l.eraseIdx i).count b + if a = b then 1 else 0
  | [], _, _, _, h => by simp at h
  | x :: l, 0, a, b, h => by
    simp only [List.getElem?_cons_zero, Option.some.injEq] at h
    subst h
    simp only [List.eraseIdx_cons_zero, List.count_cons, beq_iff_eq]
  | x :: l, i + 1, a, b, h => by
    simp only [List.getElem?_cons_succ] at h
    have := count_eraseIdx l i a b h
    simp only [List.eraseIdx_cons_succ, List.count_cons]
    omega

theorem Acct.congr {c : List (Option Nat)} {n n' : Nat → Nat} (h : Acct c n) (e : ∀ i, n i = n' i) : Acct c n' := by
  rw [← funext e]; exact h

/-- What the calls under way rely on. -/
def FramesOk (K : HKind) (q : List Nat) : List HFrame → Prop
  | [] => True
  | f :: fs =>
    match K with
    | .heap => True
    | .list => ((f.sim = true ∨ f.id ∈ q) ∧ ∀ g ∈ fs, g.sim = true) ∧ fs.length < q.length
    | .set => f.id ∈ q ∧ fs = []

/-- The state, with `leak` references that nobody holds. -/
structure HoldInv (K : HKind) (s : HSt) (leak : Nat → Nat) : Prop where
  acct : Acct s.cells fun id => s.holders K id + leak id
  frames : FramesOk K s.queue s.frames
  bad : s.bad = false
  down : s.up = false → s.queue = []

/-- The conditions on firing an event: with a list, that the simulator holds the handles of the calls under way, and that more events are
pending than calls under way; with a set, that no call is under way. -/
def Tame (K : HKind) (s : HSt) : HOp → Prop
  | .fire _ _ =>
    match K with
    | .heap => True
    | .list => (∀ f ∈ s.frames, f.sim = true) ∧ s.frames.length < s.queue.length
    | .set => s.frames = []
  | _ => True

/-- What loses a reference with a heap. -/
def Loses (K : HKind) : HOp → Prop
  | .throw => K = .heap
  | .schedule .noNode => K = .heap
  | _ => False

theorem frames_cons {K : HKind} {q : List Nat} {x : Nat} {fs : List HFrame} (h : FramesOk K q fs) : FramesOk K (x :: q) fs := by
  cases fs with
  | nil => trivial
  | cons f fs =>
    cases K with
    | heap => trivial
    | list => exact ⟨⟨h.1.1.imp_right (List.mem_cons_of_mem _), h.1.2⟩, Nat.lt_succ_of_lt h.2⟩
    | set => exact ⟨List.mem_cons_of_mem _ h.1, h.2⟩

theorem frames_tail {K : HKind} {q q' : List Nat} {f : HFrame} {fs : List HFrame} (h : FramesOk K q (f :: fs))
    (hq : K = .list → fs.length ≤ q'.length) : FramesOk K q' fs := by
  cases fs with
  | nil => trivial
  | cons g fs =>
    cases K with
    | heap => trivial
    | list => exact ⟨⟨.inl (h.1.2 g List.mem_cons_self), fun x hx => h.1.2 x (List.mem_cons_of_mem _ hx)⟩, hq rfl⟩
    | set => cases h.2

theorem schedule_inv {K : HKind} {s : HSt} {leak : Nat → Nat} (h : HoldInv K s leak) (hu : s.up = true) (m : HMem) :
    ∃ leak', HoldInv K (s.schedule K m) leak' ∧ (¬ Loses K (.schedule m) → leak' = leak) := by
  obtain ⟨e1, a1⟩ := h.acct.create
  have nu : ∀ {s' : HSt}, s'.up = s.up → (s'.up = false → s'.queue = []) := by
    intro s' e x; rw [e, hu] at x; cases x
  have pos : 0 < plus s.cells.length (fun id => s.holders K id + leak id) s.cells.length := by simp [plus]
  have two : ∀ q u, Acct ({ s with cells := s.cells ++ [some 1], queue := q, user := u } : HSt).cells
      (plus s.cells.length fun id => s.holders K id + leak id) := fun q u => a1
  cases m with
  | noHandle => exact ⟨leak, h, fun _ => rfl⟩
  | ok =>
    refine ⟨leak, ?_, fun _ => rfl⟩
    have a2 := (two (s.cells.length :: s.queue) s.user).addRef pos
    rw [addRef_ok (two _ _) pos] at a2
    let c := (s.cells ++ [some 1]).set s.cells.length (some (plus s.cells.length (fun id => s.holders K id + leak id) s.cells.length + 1))
    have fin : HoldInv K ({ s with cells := c, queue := s.cells.length :: s.queue, user := s.cells.length :: s.user } : HSt) leak := by
      refine ⟨a2.congr fun i => ?_, frames_cons h.frames, h.bad, nu rfl⟩
      simp only [plus, HSt.holders, List.count_cons, beq_iff_eq]
      omega
    cases K with
    | heap =>
      simp only [HSt.schedule, e1]
      rw [addRef_ok (two _ _) pos]
      exact fin
    | list =>
      simp only [HSt.schedule, e1]
      rw [addRef_ok (two _ _) pos]
      exact fin
    | set =>
      simp only [HSt.schedule, e1]
      rw [addRef_ok (two _ _) pos]
      exact fin
  | noNode =>
    have back : HoldInv K (HSt.release s.cells.length { s with cells := s.cells ++ [some 1] }) leak := by
      obtain ⟨a, b, c⟩ := Acct.release (s := { s with cells := s.cells ++ [some 1] }) a1
      rw [c]
      exact ⟨a, h.frames, h.bad, h.down⟩
    cases K with
    | heap =>
      refine ⟨plus s.cells.length leak, ?_, fun x => absurd rfl x⟩
      simp only [HSt.schedule, e1]
      refine ⟨a1.congr fun i => ?_, h.frames, h.bad, h.down⟩
      simp only [plus, HSt.holders]
      omega
    | list =>
      refine ⟨leak, ?_, fun _ => rfl⟩
      simp only [HSt.schedule, e1]
      exact back
    | set =>
      refine ⟨leak, ?_, fun _ => rfl⟩
      simp only [HSt.schedule, e1]
      exact back

theorem count_pos {l : List Nat} {i a : Nat} (h : l[i]? = some a) : 0 < l.count a :=
  List.count_pos_iff.mpr (List.mem_of_getElem? h)

/-- Another pointer of the client. -/
theorem share_inv {K : HKind} {s : HSt} {leak : Nat → Nat} (h : HoldInv K s leak) {id : Nat} (hp : 0 < s.holders K id) :
    HoldInv K { s.addRef id with user := id :: s.user } leak := by
  have pos : 0 < s.holders K id + leak id := by omega
  have a := h.acct.addRef (id := id) pos
  rw [addRef_ok h.acct pos] at a ⊢
  refine ⟨a.congr fun i => ?_, h.frames, h.bad, h.down⟩
  simp only [plus, HSt.holders, List.count_cons, beq_iff_eq]
  omega

theorem endLoop_inv {K : HKind} {s : HSt} {leak : Nat → Nat} {f : HFrame}
    (ha : Acct s.cells fun id => s.holders K id + leak id + (if f.id = id then (if f.sim then 1 else 0) else 0))
    (hf : FramesOk K s.queue s.frames) (hb : s.bad = false) (hd : s.up = false → s.queue = []) : HoldInv K (s.endLoop f) leak := by
  unfold HSt.endLoop
  by_cases c : f.sim = true
  · rw [if_pos c]
    obtain ⟨a, b, e⟩ := Acct.release (s := s) (id := f.id) (n := fun id => s.holders K id + leak id) (ha.congr fun i => by
      simp only [plus, c, if_true])
    rw [e]
    exact ⟨a, hf, hb, hd⟩
  · rw [if_neg c]
    exact ⟨ha.congr fun i => by simp [c], hf, hb, hd⟩

theorem destroy_inv {K : HKind} {leak : Nat → Nat} (q : List Nat) : ∀ s : HSt, s.frames = [] → s.bad = false →
    Acct s.cells (fun id => q.count id + s.user.count id + leak id) →
    HoldInv K { q.foldl (fun s id => s.release id) s with queue := [], up := false } leak ∧
      (q.foldl (fun s id => s.release id) s).user = s.user := by
  induction q with
  | nil =>
    intro s hf hb ha
    refine ⟨⟨ha.congr fun i => by simp [HSt.holders, hf], ?_, hb, fun _ => rfl⟩, rfl⟩
    simp only [List.foldl_nil, hf]
    trivial
  | cons x q ih =>
    intro s hf hb ha
    obtain ⟨a, b, e⟩ := Acct.release (s := s) (id := x) (n := fun id => q.count id + s.user.count id + leak id) (ha.congr fun i => by
      simp only [plus, List.count_cons, beq_iff_eq]
      omega)
    simp only [List.foldl_cons]
    have u : (s.release x).user = s.user := by rw [e]
    have := ih (s.release x) (by rw [e]; exact hf) (b.trans hb) (by rw [u]; exact a)
    exact ⟨this.1, this.2.trans u⟩

theorem step_inv {K : HKind} {s : HSt} {leak : Nat → Nat} (h : HoldInv K s leak) (o : HOp) (ht : Tame K s o) :
    ∃ leak', HoldInv K (s.step K o) leak' ∧ (¬ Loses K o → leak' = leak) := by
  have get : ∀ {i id : Nat}, s.queue[i]? = some id → 0 < s.holders K id := by
    intro i id e
    have := count_pos e
    simp only [HSt.holders]; omega
  have getU : ∀ {i id : Nat}, s.user[i]? = some id → 0 < s.holders K id := by
    intro i id e
    have := count_pos e
    simp only [HSt.holders]; omega
  cases o with
  | schedule m =>
    simp only [HSt.step]
    split
    · rename_i hu; exact schedule_inv h hu m
    · exact ⟨leak, h, fun _ => rfl⟩
  | next i =>
    refine ⟨leak, ?_, fun _ => rfl⟩
    simp only [HSt.step]
    split
    · rename_i id e
      exact share_inv h (get e)
    · exact h
  | use i =>
    refine ⟨leak, ?_, fun _ => rfl⟩
    simp only [HSt.step]
    split
    · rename_i id e
      rw [touch_ok h.acct (id := id) (by have := getU e; omega)]
      exact h
    · exact h
  | copy i =>
    refine ⟨leak, ?_, fun _ => rfl⟩
    simp only [HSt.step]
    split
    · rename_i id e
      exact share_inv h (getU e)
    · exact h
  | drop i =>
    refine ⟨leak, ?_, fun _ => rfl⟩
    simp only [HSt.step]
    split
    · rename_i id e
      obtain ⟨a, b, c⟩ := Acct.release (s := { s with user := s.user.eraseIdx i }) (id := id)
        (n := fun j => ({ s with user := s.user.eraseIdx i } : HSt).holders K j + leak j) (h.acct.congr fun j => by
          have := count_eraseIdx s.user i id j e
          simp only [plus, HSt.holders]
          omega)
      rw [c]
      exact ⟨a, h.frames, h.bad, h.down⟩
    · exact h
  | destroy =>
    refine ⟨leak, ?_, fun _ => rfl⟩
    simp only [HSt.step, HSt.destroy]
    split
    · rename_i hf
      exact (destroy_inv s.queue s hf h.bad (h.acct.congr fun i => by simp [HSt.holders, hf])).1
    · exact h
  | throw =>
    simp only [HSt.step, HSt.throw]
    cases hf : s.frames with
    | nil => exact ⟨leak, h, fun _ => rfl⟩
    | cons f fs =>
      have hfr := h.frames
      rw [hf] at hfr
      by_cases ck : K = .heap
      · refine ⟨plus f.id leak, ?_, fun x => absurd ck x⟩
        refine endLoop_inv (h.acct.congr fun i => ?_) (frames_tail hfr fun e => (by subst e; exact Nat.le_of_lt hfr.2)) h.bad h.down
        simp only [plus, HSt.holders, hf, List.map_cons, List.sum_cons, HFrame.weight, if_pos ck]
        split <;> omega
      · refine ⟨leak, ?_, fun _ => rfl⟩
        refine endLoop_inv (h.acct.congr fun i => ?_) (frames_tail hfr fun e => (by subst e; exact Nat.le_of_lt hfr.2)) h.bad h.down
        simp only [HSt.holders, hf, List.map_cons, List.sum_cons, HFrame.weight, if_neg ck]
        split <;> omega
  | fire i sim =>
    refine ⟨leak, ?_, fun _ => rfl⟩
    simp only [HSt.step, HSt.fire]
    cases e : s.queue[i]? with
    | none => exact h
    | some id =>
      have hp := get e
      have hm := List.mem_of_getElem? e
      dsimp only
      -- the simulator's pointer
      have h1 : ∃ c, (if sim = true then s.addRef id else s) = { s with cells := c } ∧
          Acct c fun j => s.holders K j + leak j + if id = j then (if sim = true then 1 else 0) else 0 := by
        by_cases cs : sim = true
        · rw [if_pos cs]
          have a := h.acct.addRef (id := id) (by omega)
          rw [addRef_ok h.acct (by omega)] at a ⊢
          exact ⟨_, rfl, a.congr fun j => by simp [plus, cs]⟩
        · rw [if_neg cs]
          exact ⟨_, rfl, h.acct.congr fun j => by simp [cs]⟩
      obtain ⟨c, e1, a⟩ := h1
      rw [e1]
      cases K with
      | heap =>
        have a' : Acct c fun j => ({ s with cells := c, queue := s.queue.eraseIdx i, frames := ⟨id, sim⟩ :: s.frames } : HSt).holders .heap j +
            leak j := a.congr fun j => by
          have := count_eraseIdx s.queue i id j e
          simp only [HSt.holders, List.map_cons, List.sum_cons, HFrame.weight]
          split <;> simp_all <;> omega
        dsimp only
        rw [touch_ok (s := { s with cells := c, queue := s.queue.eraseIdx i }) a' (by simp only [HSt.holders, HFrame.weight, List.map_cons, List.sum_cons, if_true]; omega)]
        exact ⟨a', trivial, h.bad, fun x => by rw [h.down x] at hm; cases hm⟩
      | list =>
        have a' : Acct c fun j => ({ s with cells := c, frames := ⟨id, sim⟩ :: s.frames } : HSt).holders .list j + leak j :=
          a.congr fun j => by
          simp only [HSt.holders, List.map_cons, List.sum_cons, HFrame.weight]
          split <;> simp_all <;> omega
        dsimp only
        rw [touch_ok (s := { s with cells := c }) a' (by
          simp only [HSt.holders]
          have := count_pos e
          omega)]
        exact ⟨a', ⟨⟨.inr hm, ht.1⟩, ht.2⟩, h.bad, h.down⟩
      | set =>
        have a' : Acct c fun j => ({ s with cells := c, frames := ⟨id, sim⟩ :: s.frames } : HSt).holders .set j + leak j :=
          a.congr fun j => by
          simp only [HSt.holders, List.map_cons, List.sum_cons, HFrame.weight]
          split <;> simp_all <;> omega
        dsimp only
        rw [touch_ok (s := { s with cells := c }) a' (by
          simp only [HSt.holders]
          have := count_pos e
          omega)]
        exact ⟨a', ⟨hm, ht⟩, h.bad, h.down⟩
  | ret j =>
    refine ⟨leak, ?_, fun _ => rfl⟩
    simp only [HSt.step, HSt.ret]
    cases hf : s.frames with
    | nil => exact h
    | cons f fs =>
      have hfr := h.frames
      rw [hf] at hfr
      dsimp only
      have a0 : Acct s.cells fun i => ({ s with frames := fs } : HSt).holders K i + leak i + f.weight K i := h.acct.congr fun i => by
        simp only [HSt.holders, hf, List.map_cons, List.sum_cons]
        omega
      have pos : 0 < ({ s with frames := fs } : HSt).holders K f.id + leak f.id + f.weight K f.id := by
        cases K with
        | heap => simp only [HFrame.weight, if_true]; omega
        | list =>
          rcases hfr.1.1 with x | x
          · simp only [HFrame.weight, if_true, x]; omega
          · have := List.count_pos_iff.mpr x
            simp only [HSt.holders]; omega
        | set =>
          have := List.count_pos_iff.mpr hfr.1
          simp only [HSt.holders]; omega
      rw [touch_ok (s := { s with frames := fs }) a0 pos]
      cases K with
      | heap =>
        dsimp only
        obtain ⟨a, b, c⟩ := Acct.release (s := { s with frames := fs }) (id := f.id)
          (n := fun i => ({ s with frames := fs } : HSt).holders .heap i + leak i + (if f.id = i then (if f.sim then 1 else 0) else 0))
          (a0.congr fun i => by
            simp only [plus, HFrame.weight, if_true]
            split <;> omega)
        rw [c]
        exact endLoop_inv a (frames_tail hfr (by nofun)) h.bad h.down
      | list =>
        dsimp only
        have a0' : Acct s.cells fun i => ({ s with frames := fs } : HSt).holders .list i + leak i +
            (if f.id = i then (if f.sim then 1 else 0) else 0) := a0.congr fun i => by
          simp [HFrame.weight]
        have pq : 0 < s.queue.length := Nat.lt_of_le_of_lt (Nat.zero_le _) hfr.2
        have lj := Nat.mod_lt j pq
        generalize hj : j % s.queue.length = j' at lj
        obtain ⟨id, e⟩ : ∃ id, s.queue[j']? = some id := ⟨_, List.getElem?_eq_getElem lj⟩
        rw [e]
        dsimp only
        obtain ⟨a, b, c⟩ := Acct.release (s := { s with frames := fs, queue := s.queue.eraseIdx j' }) (id := id)
          (n := fun i => ({ s with frames := fs, queue := s.queue.eraseIdx j' } : HSt).holders .list i + leak i +
            (if f.id = i then (if f.sim then 1 else 0) else 0))
          (a0'.congr fun i => by
            have := count_eraseIdx s.queue j' id i e
            simp only [plus, HSt.holders]
            omega)
        rw [c]
        refine endLoop_inv a (frames_tail hfr fun _ => ?_) h.bad (fun x => ?_)
        · have := hfr.2
          simp only [List.length_eraseIdx]
          split <;> omega
        · have hq := h.down x
          rw [hq] at pq; cases pq
      | set =>
        dsimp only
        rw [if_pos hfr.1]
        obtain ⟨a, b, c⟩ := Acct.release (s := { s with frames := fs, queue := s.queue.erase f.id }) (id := f.id)
          (n := fun i => ({ s with frames := fs, queue := s.queue.erase f.id } : HSt).holders .set i + leak i +
            (if f.id = i then (if f.sim then 1 else 0) else 0))
          (a0.congr fun i => by
            have q := List.count_erase (a := i) (b := f.id) (l := s.queue)
            have z := List.count_pos_iff.mpr hfr.1
            simp only [plus, HSt.holders, HFrame.weight]
            by_cases e : f.id = i
            · subst e; simp at q ⊢; omega
            · have : ¬ (f.id == i) = true := by simpa using e
              simp [e] at q ⊢; omega)
        rw [c]
        refine endLoop_inv a (frames_tail hfr (by nofun)) h.bad (fun x => ?_)
        have := hfr.1
        rw [h.down x] at this; cases this

theorem run_inv {K : HKind} (ops : List HOp) (ht : ∀ l o r, ops = l ++ o :: r → Tame K (HSt.run K l) o) :
    ∃ leak, HoldInv K (HSt.run K ops) leak ∧ ((∀ o ∈ ops, ¬ Loses K o) → ∀ id, leak id = 0) := by
  have go : ∀ rops : List HOp, (∀ l o r, rops.reverse = l ++ o :: r → Tame K (HSt.run K l) o) →
      ∃ leak, HoldInv K (HSt.run K rops.reverse) leak ∧ ((∀ o ∈ rops, ¬ Loses K o) → ∀ id, leak id = 0) := by
    intro rops
    induction rops with
    | nil =>
      intro _
      refine ⟨fun _ => 0, ⟨⟨fun id hi => ?_, fun id _ => rfl⟩, trivial, rfl, fun x => by cases x⟩, fun _ _ => rfl⟩
      exact absurd hi (Nat.not_lt_zero _)
    | cons o rops ih =>
      intro ht
      obtain ⟨leak, h, hl⟩ := ih fun l o' r e => ht l o' (r ++ [o]) (by rw [List.reverse_cons, e]; simp)
      obtain ⟨leak', h', hl'⟩ := step_inv h o (ht rops.reverse o [] (by simp))
      refine ⟨leak', ?_, fun hn id => ?_⟩
      · rw [List.reverse_cons, show HSt.run K (rops.reverse ++ [o]) = (HSt.run K rops.reverse).step K o by simp [HSt.run]]
        exact h'
      · rw [hl' (hn o List.mem_cons_self)]
        exact hl (fun x hx => hn x (List.mem_cons_of_mem _ hx)) id
  have := go ops.reverse (by rw [List.reverse_reverse]; exact ht)
  rw [List.reverse_reverse] at this
  obtain ⟨leak, h, hl⟩ := this
  exact ⟨leak, h, fun hn => hl fun o ho => hn o (List.mem_reverse.mp ho)⟩

end Verif.Sim
