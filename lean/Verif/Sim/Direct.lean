import Verif.Sim.Shape

/-!
Using a scheduler directly, with any clock (not only under the simulator).
-/
set_option linter.unusedSimpArgs false
set_option linter.unusedVariables false
namespace Verif.Sim

section
variable {σ C : Type}

/-- Direct use of a scheduler: the clock is an arbitrary object, so it may show any time.
(The client's; the methods are /repo/simulation/list-scheduler.h 60-168.) -/
inductive DOp (σ : Type) where
  | act (a : Action σ)
  | clock (t : Int)
  | fireNext

/-- One such call; /repo/simulation/list-scheduler.h 60-168, set-scheduler.h 60-149, heap-scheduler.h 80-173. -/
def World.direct (I : Impl C) (P : Prog σ) (w : World σ C) : DOp σ → World σ C
  | .act a => w.perform I a
  | .clock t => w.setNow t
  | .fireNext => w.fireAndRemove I P

/-- A history of such calls.  (A client; no code.) -/
def World.directs (I : Impl C) (P : Prog σ) (w : World σ C) (os : List (DOp σ)) : World σ C :=
  os.foldl (World.direct I P) w

/-- What actions do to the container. -/
structure New (I : Impl C) (w w' : World σ C) (ks : List Key) : Prop where
  queue : w'.queue = ks.foldl (fun q k => I.insert k q) w.queue
  len : w'.view.handles.length = w.view.handles.length + ks.length
  ids : ∀ i k, ks[i]? = some k → k.id = w.view.handles.length + i ∧
    ∃ h, w'.view.handles[k.id]? = some h ∧ h.t = k.t
  due : ∀ k ∈ ks, w.view.now ≤ k.t
  now : w'.view.now = w.view.now

theorem perform_new (I : Impl C) (w : World σ C) (a : Action σ) :
    ∃ ks : List Key, New I w (w.perform I a) ks ∧
      ∀ (i : Nat) (h : Handle σ), w.view.handles[i]? = some h →
        ∃ h' : Handle σ, (w.perform I a).view.handles[i]? = some h' ∧ h'.t = h.t := by
  have h1 : ∀ t s, ∃ ks : List Key, New I w (w.orKeep (w.scheduleAt I t s)) ks ∧
      ∀ (i : Nat) (h : Handle σ), w.view.handles[i]? = some h →
        ∃ h' : Handle σ, (w.orKeep (w.scheduleAt I t s)).view.handles[i]? = some h' ∧ h'.t = h.t := by
    intro t s
    rcases scheduleAt_cases I w t s with ⟨e, he⟩ | ⟨x, hc, hs, ht, he⟩
    · rw [he]
      exact ⟨[], ⟨rfl, rfl, by simp, by simp, rfl⟩, fun i h hh => ⟨h, hh, rfl⟩⟩
    · rw [he]
      refine ⟨[⟨t, w.view.handles.length⟩], ⟨rfl, by simp [World.orKeep], ?_, ?_, rfl⟩, ?_⟩
      · intro i k hk
        cases i with
        | succ i => simp at hk
        | zero =>
          simp at hk; subst hk
          exact ⟨rfl, ⟨t, some x, false⟩, by simp [World.orKeep], rfl⟩
      · simp; omega
      · intro i h hh
        have hlt := (List.getElem?_eq_some_iff.mp hh).1
        refine ⟨h, ?_, rfl⟩
        simp only [World.orKeep]
        rw [List.getElem?_append_left hlt]; exact hh
  cases a with
  | «at» t s => exact h1 t s
  | now s =>
    simp only [World.perform, World.scheduleNow]; split
    · exact ⟨[], ⟨rfl, rfl, by simp, by simp, rfl⟩, fun i h hh => ⟨h, hh, rfl⟩⟩
    · exact h1 _ s
  | «in» dt s =>
    simp only [World.perform, World.scheduleIn]; split
    · exact ⟨[], ⟨rfl, rfl, by simp, by simp, rfl⟩, fun i h hh => ⟨h, hh, rfl⟩⟩
    · exact h1 _ s
  | cancel id =>
    simp only [World.perform]; split
    · refine ⟨[], ⟨rfl, by simp, by simp, by simp, rfl⟩, ?_⟩
      intro i h hh
      simp only [List.getElem?_modify, hh]
      by_cases hi : id = i
      · exact ⟨h.cancel, by simp [hi], rfl⟩
      · exact ⟨h, by simp [hi], rfl⟩
    · exact ⟨[], ⟨rfl, rfl, by simp, by simp, rfl⟩, fun i h hh => ⟨h, hh, rfl⟩⟩
  | pause => exact ⟨[], ⟨rfl, rfl, by simp, by simp, rfl⟩, fun i h hh => ⟨h, hh, rfl⟩⟩

theorem performs_new (I : Impl C) (as : List (Action σ)) : ∀ w : World σ C,
    ∃ ks : List Key, New I w (w.performs I as) ks ∧
      ∀ (i : Nat) (h : Handle σ), w.view.handles[i]? = some h →
        ∃ h' : Handle σ, (w.performs I as).view.handles[i]? = some h' ∧ h'.t = h.t := by
  induction as with
  | nil => intro w; exact ⟨[], ⟨rfl, rfl, by simp, by simp, rfl⟩, fun i h hh => ⟨h, hh, rfl⟩⟩
  | cons a as ih =>
    intro w
    obtain ⟨k1, n1, p1⟩ := perform_new I w a
    obtain ⟨k2, n2, p2⟩ := ih (w.perform I a)
    refine ⟨k1 ++ k2, ⟨?_, ?_, ?_, ?_, n2.now.trans n1.now⟩, ?_⟩
    · rw [List.foldl_append, ← n1.queue]; exact n2.queue
    · have := n1.len; have := n2.len
      simp only [World.performs, List.foldl_cons, List.length_append] at *
      omega
    · intro i k hk
      rcases Nat.lt_or_ge i k1.length with hlt | hge
      · rw [List.getElem?_append_left hlt] at hk
        obtain ⟨e, h, hh, ht⟩ := n1.ids i k hk
        obtain ⟨h', hh', ht'⟩ := p2 _ _ hh
        exact ⟨e, h', hh', ht'.trans ht⟩
      · rw [List.getElem?_append_right hge] at hk
        obtain ⟨e, h, hh, ht⟩ := n2.ids _ k hk
        have := n1.len
        exact ⟨by omega, h, hh, ht⟩
    · intro k hk
      rcases List.mem_append.mp hk with hk | hk
      · exact n1.due k hk
      · have := n2.due k hk; rw [n1.now] at this; exact this
    · intro i h hh
      obtain ⟨h', hh', ht'⟩ := p1 i h hh
      obtain ⟨h'', hh'', ht''⟩ := p2 _ _ hh'
      exact ⟨h'', hh'', ht''.trans ht'⟩

/-- A property of the container (given the number of events scheduled so far) that direct use
preserves. -/
structure Valid (I : Impl C) where
  V : C → Nat → Prop
  empty : V I.empty 0
  ins : ∀ c n t, V c n → V (I.insert ⟨t, n⟩ c) (n + 1)
  pre : ∀ c n, V c n → V (I.pre c) n
  post : ∀ c n k, V c n → V (I.post k c) n

theorem valid_perform {I : Impl C} (S : Valid I) (w : World σ C) (a : Action σ)
    (h : S.V w.queue w.view.handles.length) :
    S.V (w.perform I a).queue (w.perform I a).view.handles.length := by
  have h1 : ∀ t s, S.V (w.orKeep (w.scheduleAt I t s)).queue
      (w.orKeep (w.scheduleAt I t s)).view.handles.length := by
    intro t s
    rcases scheduleAt_cases I w t s with ⟨e, he⟩ | ⟨x, hc, hs, ht, he⟩
    · rw [he]; exact h
    · rw [he]; simpa [World.orKeep] using S.ins _ _ t h
  cases a with
  | «at» t s => exact h1 t s
  | now s => simp only [World.perform, World.scheduleNow]; split; exact h; exact h1 _ s
  | «in» dt s => simp only [World.perform, World.scheduleIn]; split; exact h; exact h1 _ s
  | cancel id => simp only [World.perform]; split; simpa using h; exact h
  | pause => exact h

theorem valid_performs {I : Impl C} (S : Valid I) (as : List (Action σ)) : ∀ w : World σ C,
    S.V w.queue w.view.handles.length →
    S.V (w.performs I as).queue (w.performs I as).view.handles.length := by
  induction as with
  | nil => intro w h; exact h
  | cons a as ih => intro w h; exact ih _ (valid_perform S w a h)

theorem valid_fireAndRemove {I : Impl C} (S : Valid I) (P : Prog σ) (w : World σ C)
    (h : S.V w.queue w.view.handles.length) :
    S.V (w.fireAndRemove I P).queue (w.fireAndRemove I P).view.handles.length := by
  unfold World.fireAndRemove
  split
  · exact h
  · rename_i k _
    dsimp only
    refine S.post _ _ _ ?_
    unfold World.fire
    split
    · rename_i s _ _
      have := valid_performs S (P.sink s (World.fireBegin { w with queue := I.pre w.queue } k).view)
        (World.fireBegin { w with queue := I.pre w.queue } k)
        (by simpa [World.fireBegin, View.log] using S.pre _ _ h)
      simpa [World.fireEnd] using this
    · exact S.pre _ _ h

theorem valid_directs {I : Impl C} (S : Valid I) (P : Prog σ) (os : List (DOp σ)) :
    ∀ w : World σ C, S.V w.queue w.view.handles.length →
    S.V (w.directs I P os).queue (w.directs I P os).view.handles.length := by
  induction os with
  | nil => intro w h; exact h
  | cons o os ih =>
    intro w h
    refine ih _ ?_
    cases o with
    | act a => exact valid_perform S w a h
    | clock t => exact h
    | fireNext => exact valid_fireAndRemove S P w h

def SortedIds (c : List Key) (n : Nat) : Prop := Sorted c ∧ ∀ k ∈ c, k.id < n

theorem SortedIds.ins {c : List Key} {n : Nat} (h : SortedIds c n) (t : Int) :
    SortedIds (ins ⟨t, n⟩ c) (n + 1) := by
  refine ⟨ins_sorted h.1 h.2, ?_⟩
  intro k hk
  rcases (mem_ins _ _ _).mp hk with rfl | hk
  · exact Nat.lt_succ_self _
  · have := h.2 k hk; omega

theorem SortedIds.sublist {c d : List Key} {n : Nat} (h : SortedIds c n) (hs : d.Sublist c) :
    SortedIds d n := ⟨h.1.sublist hs, fun k hk => h.2 k (hs.subset hk)⟩

def listValid : Valid listImpl where
  V := SortedIds
  empty := ⟨List.Pairwise.nil, by simp [listImpl]⟩
  ins c n t h := by
    show SortedIds (listInsert _ _) _
    rw [listInsert_eq h.2]; exact h.ins t
  pre _ _ h := h
  post c n k h := h.sublist (List.tail_sublist _)

def setValid : Valid setImpl where
  V := SortedIds
  empty := ⟨List.Pairwise.nil, by simp [setImpl]⟩
  ins c n t h := by
    show SortedIds (setInsert _ _) _
    rw [setInsert_eq h.2]; exact h.ins t
  pre _ _ h := h
  post c n k h := h.sublist List.filter_sublist

def HeapIds (c : List Key) (n : Nat) : Prop := IsHeap c ∧ c.Nodup ∧ ∀ k ∈ c, k.id < n

def heapValid (A : HeapAlg) : Valid (heapImpl A) where
  V := HeapIds
  empty := ⟨by intro i a b _ h; simp [heapImpl] at h, by simp [heapImpl], by simp [heapImpl]⟩
  ins c n t h := by
    refine ⟨A.push_heap _ _ h.1, ?_, ?_⟩
    · refine (A.push_perm _).nodup_iff.mpr ?_
      rw [List.nodup_append]
      refine ⟨h.2.1, by simp, ?_⟩
      intro a ha b hb hab
      simp only [List.mem_singleton] at hb
      subst hb; subst hab
      exact Nat.lt_irrefl _ (h.2.2 _ ha)
    · intro k hk
      have := (A.push_perm _).mem_iff.mp hk
      simp only [List.mem_append, List.mem_singleton] at this
      rcases this with h' | rfl
      · have := h.2.2 k h'; omega
      · exact Nat.lt_succ_self _
  pre c n h := by
    refine ⟨A.pop_heap _ h.1, ?_, ?_⟩
    · exact ((A.pop_perm c).nodup_iff.mpr h.2.1).sublist (List.dropLast_sublist _)
    · intro k hk
      exact h.2.2 k ((A.pop_perm c).mem_iff.mp ((List.dropLast_sublist _).subset hk))
  post _ _ _ h := h

/-- The container after firing: nothing but `k` disappears. -/
structure RemovesOnly (w w' : World σ (List Key)) (k : Key) : Prop where
  gone : k ∉ w'.queue
  kept : ∀ x ∈ w.queue, x ≠ k → x ∈ w'.queue
  only : ∀ x ∈ w'.queue, x ∈ w.queue ∨ w.view.handles.length ≤ x.id
  added : ∀ id h, w.view.handles.length ≤ id → w'.view.handles[id]? = some h →
    (⟨h.t, id⟩ : Key) ∈ w'.queue

theorem fold_mem (I : Impl (List Key)) (hI : ∀ k q x, x ∈ I.insert k q → x = k ∨ x ∈ q)
    (ks : List Key) : ∀ q x, x ∈ ks.foldl (fun q k => I.insert k q) q → x ∈ ks ∨ x ∈ q := by
  induction ks with
  | nil => intro q x h; exact .inr h
  | cons k ks ih =>
    intro q x h
    rcases ih _ _ h with h | h
    · exact .inl (by simp [h])
    · rcases hI _ _ _ h with rfl | h
      · exact .inl (by simp)
      · exact .inr h

theorem mem_listInsert (k : Key) (q : List Key) (x : Key) : x ∈ listInsert k q ↔ x = k ∨ x ∈ q := by
  induction q with
  | nil => simp [listInsert]
  | cons h r ih =>
    simp only [listInsert]; split
    · simp
    · simp [ih]; grind

/-- Inserting keys with new identities into a set. -/
theorem set_fold (ks : List Key) : ∀ (q : List Key) (n : Nat), SortedIds q n →
    (∀ i k, ks[i]? = some k → k.id = n + i) →
    ∀ x, x ∈ ks.foldl (fun q k => setInsert k q) q ↔ x ∈ ks ∨ x ∈ q := by
  induction ks with
  | nil => intro q n _ _ x; simp
  | cons k ks ih =>
    intro q n hq hid x
    have hk : k.id = n := by have := hid 0 k rfl; omega
    have hk' : k = ⟨k.t, n⟩ := by rw [← hk]
    rw [List.foldl_cons, ih (setInsert k q) (n + 1)]
    · rw [setInsert_eq (by rw [hk]; exact hq.2), mem_ins]
      simp; grind
    · rw [setInsert_eq (by rw [hk]; exact hq.2), hk']; exact hq.ins _
    · intro i k' h'
      have := hid (i + 1) k' (by simpa using h'); omega

/-- The case split of firing: the sink was called, or the event had been cancelled. -/
theorem fire_new (I : Impl C) (P : Prog σ) (w : World σ C) (k : Key) :
    ∃ ks : List Key, (w.fire I P k).queue = ks.foldl (fun q k => I.insert k q) w.queue ∧
      (w.fire I P k).view.handles.length = w.view.handles.length + ks.length ∧
      (∀ (i : Nat) (x : Key), ks[i]? = some x → x.id = w.view.handles.length + i ∧
        ∃ h : Handle σ, (w.fire I P k).view.handles[x.id]? = some h ∧ h.t = x.t) ∧
      ∀ x ∈ ks, w.view.now ≤ x.t := by
  unfold World.fire
  split
  · rename_i s _ _
    dsimp only
    obtain ⟨ks, hn, _⟩ := performs_new I (P.sink s (w.fireBegin k).view) (w.fireBegin k)
    have hlen : (w.fireBegin k).view.handles.length = w.view.handles.length := by
      simp [World.fireBegin, View.log]
    refine ⟨ks, hn.queue, ?_, ?_, hn.due⟩
    · simpa [World.fireEnd, hlen] using hn.len
    · intro i x hx
      obtain ⟨e, h, hh, ht⟩ := hn.ids i x hx
      refine ⟨by rw [e, hlen], ?_⟩
      simp only [World.fireEnd, List.getElem?_modify, hh]
      by_cases hi : k.id = x.id
      · exact ⟨h.fireEnd, by simp [hi], ht⟩
      · exact ⟨h, by simp [hi], ht⟩
  · exact ⟨[], rfl, rfl, by simp, by simp⟩

/-- Any handle with a new identity belongs to one of the new keys. -/
theorem new_handle {n : Nat} {ks : List Key} {hs : List (Handle σ)}
    (hlen : hs.length = n + ks.length)
    (hids : ∀ i x, ks[i]? = some x → x.id = n + i ∧ ∃ h, hs[x.id]? = some h ∧ h.t = x.t)
    (id : Nat) (h : Handle σ) (hge : n ≤ id) (hh : hs[id]? = some h) : (⟨h.t, id⟩ : Key) ∈ ks := by
  have hlt := (List.getElem?_eq_some_iff.mp hh).1
  have hi : id - n < ks.length := by omega
  have hx := List.getElem?_eq_getElem hi
  obtain ⟨e, h', hh', ht⟩ := hids (id - n) _ hx
  have : (ks[id - n]'hi).id = id := by omega
  rw [this] at hh'
  have : h = h' := by rw [hh] at hh'; exact Option.some.inj hh'
  subst this
  have : (⟨h.t, id⟩ : Key) = ks[id - n]'hi := by
    rw [ht]; generalize hg : ks[id - n]'hi = x at *; subst_vars; rfl
  rw [this]; exact List.getElem_mem hi

theorem new_ids {n : Nat} {ks : List Key} {hs : List (Handle σ)}
    (hids : ∀ i x, ks[i]? = some x → x.id = n + i ∧ ∃ h, hs[x.id]? = some h ∧ h.t = x.t) :
    ∀ x ∈ ks, n ≤ x.id := by
  intro x hx
  obtain ⟨i, hi⟩ := List.mem_iff_getElem?.mp hx
  have := (hids i x hi).1; omega

theorem set_removesOnly (P : Prog σ) (w : World σ (List Key))
    (hv : SortedIds w.queue w.view.handles.length) (k : Key) (hk : w.queue.head? = some k) :
    RemovesOnly w (w.fireAndRemove setImpl P) k := by
  have hmem : k ∈ w.queue := List.mem_of_mem_head? hk
  unfold World.fireAndRemove
  have : setImpl.front w.queue = some k := hk
  rw [this]
  dsimp only
  obtain ⟨ks, hq, hlen, hids, _⟩ := fire_new setImpl P { w with queue := setImpl.pre w.queue } k
  have hq' : ∀ x, x ∈ (World.fire setImpl P k { w with queue := setImpl.pre w.queue }).queue ↔
      x ∈ ks ∨ x ∈ w.queue := by
    rw [hq]; exact set_fold ks w.queue _ hv (fun i x hx => (hids i x hx).1)
  have hf : ∀ x, x ∈ setImpl.post k
      (World.fire setImpl P k { w with queue := setImpl.pre w.queue }).queue ↔
      (x ∈ ks ∨ x ∈ w.queue) ∧ x ≠ k := by
    intro x; rw [← hq']; simp [setImpl]
  have hnew := new_ids hids
  refine ⟨fun h => ((hf k).mp h).2 rfl, fun x hx hne => (hf x).mpr ⟨.inr hx, hne⟩, ?_, ?_⟩
  · intro x hx
    rcases ((hf x).mp hx).1 with h | h
    · exact .inr (hnew x h)
    · exact .inl h
  · intro id h hge hh
    refine (hf _).mpr ⟨.inl (new_handle hlen hids id h hge hh), ?_⟩
    intro e
    have := hv.2 k hmem
    rw [← e] at this
    simp only at this; omega

theorem heap_fold (A : HeapAlg) (ks : List Key) : ∀ (q : List Key) (x : Key),
    x ∈ ks.foldl (fun q k => (heapImpl A).insert k q) q ↔ x ∈ ks ∨ x ∈ q := by
  induction ks with
  | nil => intro q x; simp
  | cons k ks ih =>
    intro q x
    rw [List.foldl_cons, ih]
    have : x ∈ (heapImpl A).insert k q ↔ x ∈ q ++ [k] := (A.push_perm _).mem_iff
    rw [this]; simp; grind

theorem heap_removesOnly (A : HeapAlg) (P : Prog σ) (w : World σ (List Key))
    (hv : HeapIds w.queue w.view.handles.length) (k : Key) (hk : w.queue.head? = some k) :
    RemovesOnly w (w.fireAndRemove (heapImpl A) P) k := by
  have hmem : k ∈ w.queue := List.mem_of_mem_head? hk
  unfold World.fireAndRemove
  have : (heapImpl A).front w.queue = some k := hk
  rw [this]
  dsimp only
  obtain ⟨ks, hq, hlen, hids, _⟩ :=
    fire_new (heapImpl A) P { w with queue := (heapImpl A).pre w.queue } k
  obtain ⟨s, hs⟩ : ∃ s, w.queue = k :: s := by
    cases h : w.queue with
    | nil => rw [h] at hk; cases hk
    | cons a b => rw [h] at hk; cases hk; exact ⟨b, rfl⟩
  have hpre : ((heapImpl A).pre w.queue).Perm s := by
    have h1 := hv.1
    rw [hs] at h1 ⊢
    exact dropLast_perm (A.pop_perm _) (A.pop_last _ _ h1)
  have hnd := hv.2.1
  rw [hs] at hnd
  have hf : ∀ x, x ∈ (World.fire (heapImpl A) P k { w with queue := (heapImpl A).pre w.queue }).queue ↔
      x ∈ ks ∨ x ∈ s := by
    intro x; rw [hq, heap_fold]; simp only; rw [hpre.mem_iff]
  have hnew := new_ids hids
  refine ⟨?_, ?_, ?_, ?_⟩
  · intro h
    rcases (hf k).mp h with h | h
    · have := hnew k h; have := hv.2.2 k hmem; simp only at *; omega
    · exact (List.nodup_cons.mp hnd).1 h
  · intro x hx hne
    refine (hf x).mpr (.inr ?_)
    rw [hs] at hx
    rcases List.mem_cons.mp hx with rfl | hx
    · exact absurd rfl hne
    · exact hx
  · intro x hx
    rcases (hf x).mp hx with h | h
    · exact .inr (hnew x h)
    · exact .inl (by rw [hs]; simp [h])
  · intro id h hge hh
    exact (hf _).mpr (.inl (new_handle hlen hids id h hge hh))

theorem list_fold (k : Key) (ks : List Key) : ∀ (s : List Key) (n : Nat), SortedIds (k :: s) n →
    (∀ i x, ks[i]? = some x → x.id = n + i) → (∀ x ∈ ks, k.t ≤ x.t) →
    ∃ s', ks.foldl (fun q k => listInsert k q) (k :: s) = k :: s' ∧
      ∀ x, x ∈ s' ↔ x ∈ ks ∨ x ∈ s := by
  induction ks with
  | nil => intro s n _ _ _; exact ⟨s, rfl, by simp⟩
  | cons a ks ih =>
    intro s n hq hid ht
    have ha : a.id = n := by have := hid 0 a rfl; omega
    have ha' : a = ⟨a.t, n⟩ := by rw [← ha]
    have hlt : ¬ k.t > a.t := by have := ht a (by simp); omega
    have e : listInsert a (k :: s) = k :: listInsert a s := by simp [listInsert, hlt]
    have hsv : SortedIds (k :: listInsert a s) (n + 1) := by
      rw [← e, listInsert_eq (by rw [ha]; exact hq.2), ha']; exact hq.ins _
    obtain ⟨s', h1, h2⟩ := ih (listInsert a s) (n + 1) hsv
      (fun i x hx => by have := hid (i + 1) x (by simpa using hx); omega)
      (fun x hx => ht x (by simp [hx]))
    refine ⟨s', by rw [List.foldl_cons, e]; exact h1, ?_⟩
    intro x; rw [h2, mem_listInsert]; simp; grind

theorem list_removesOnly (P : Prog σ) (w : World σ (List Key))
    (hv : SortedIds w.queue w.view.handles.length) (k : Key) (hk : w.queue.head? = some k)
    (hdue : k.t ≤ w.view.now) :
    RemovesOnly w (w.fireAndRemove listImpl P) k := by
  have hmem : k ∈ w.queue := List.mem_of_mem_head? hk
  unfold World.fireAndRemove
  have : listImpl.front w.queue = some k := hk
  rw [this]
  dsimp only
  obtain ⟨ks, hq, hlen, hids, hge⟩ := fire_new listImpl P { w with queue := listImpl.pre w.queue } k
  obtain ⟨s, hs⟩ : ∃ s, w.queue = k :: s := by
    cases h : w.queue with
    | nil => rw [h] at hk; cases hk
    | cons a b => rw [h] at hk; cases hk; exact ⟨b, rfl⟩
  have hv' := hv
  rw [hs] at hv'
  obtain ⟨s', h1, h2⟩ := list_fold k ks s _ hv' (fun i x hx => (hids i x hx).1)
    (fun x hx => Int.le_trans hdue (hge x hx))
  have hq2 : listImpl.post k (World.fire listImpl P k { w with queue := listImpl.pre w.queue }).queue
      = s' := by
    rw [hq]
    show List.tail (ks.foldl (fun q k => listInsert k q) w.queue) = s'
    rw [hs, h1]; rfl
  have hnew := new_ids hids
  refine ⟨?_, ?_, ?_, ?_⟩
  · rw [hq2]
    intro h
    rcases (h2 k).mp h with h | h
    · have := hnew k h; have := hv.2 k hmem; simp only at *; omega
    · exact (List.nodup_cons.mp (sorted_nodup hv'.1)).1 h
  · rw [hq2]
    intro x hx hne
    refine (h2 x).mpr (.inr ?_)
    rw [hs] at hx
    rcases List.mem_cons.mp hx with rfl | hx
    · exact absurd rfl hne
    · exact hx
  · rw [hq2]
    intro x hx
    rcases (h2 x).mp hx with h | h
    · exact .inr (hnew x h)
    · exact .inl (by rw [hs]; simp [h])
  · rw [hq2]
    intro id h hge hh
    exact (h2 _).mpr (.inl (new_handle hlen hids id h hge hh))

/-! ### Draining -/

/-- Take `n` events one after another. -/
def drain (I : Impl C) (P : Prog σ) : Nat → World σ C → List Key
  | 0, _ => []
  | n + 1, w => match I.front w.queue with
    | none => []
    | some k => k :: drain I P n (w.fireAndRemove I P)

/-- A program whose sinks do nothing. -/
def quietProg : Prog σ := ⟨fun _ _ => [], fun _ => [], fun _ => [], fun _ => [], fun _ => []⟩

theorem quiet_queue (I : Impl C) (w : World σ C) (k : Key) (hk : I.front w.queue = some k) :
    (w.fireAndRemove I quietProg).queue = I.post k (I.pre w.queue) := by
  unfold World.fireAndRemove
  rw [hk]
  dsimp only
  unfold World.fire
  split <;> rfl

theorem drain_sorted (n : Nat) : ∀ (w : World σ (List Key)), Sorted w.queue →
    drain listImpl quietProg n w = w.queue.take n := by
  induction n with
  | zero => intro w _; rfl
  | succ n ih =>
    intro w hs
    simp only [drain]
    cases hq : w.queue with
    | nil => rfl
    | cons k s =>
      show k :: drain listImpl quietProg n (w.fireAndRemove listImpl quietProg) = _
      have : (w.fireAndRemove listImpl quietProg).queue = s := by
        rw [quiet_queue listImpl w k (by rw [hq]; rfl), hq]; rfl
      rw [hq] at hs
      rw [ih _ (by rw [this]; exact (List.pairwise_cons.mp hs).2), this]; rfl

theorem drain_set (n : Nat) : ∀ (w : World σ (List Key)), Sorted w.queue →
    drain setImpl quietProg n w = w.queue.take n := by
  induction n with
  | zero => intro w _; rfl
  | succ n ih =>
    intro w hs
    simp only [drain]
    cases hq : w.queue with
    | nil => rfl
    | cons k s =>
      show k :: drain setImpl quietProg n (w.fireAndRemove setImpl quietProg) = _
      rw [hq] at hs
      have : (w.fireAndRemove setImpl quietProg).queue = s := by
        rw [quiet_queue setImpl w k (by rw [hq]; rfl), hq]
        exact setRefine.post k _ s ⟨rfl, (List.pairwise_cons.mp hs).1⟩
      rw [ih _ (by rw [this]; exact (List.pairwise_cons.mp hs).2), this]; rfl

theorem drain_heap (A : HeapAlg) (n : Nat) : ∀ (w : World σ (List Key)), IsHeap w.queue →
    w.queue.Nodup → w.queue.length ≤ n →
    Sorted (drain (heapImpl A) quietProg n w) ∧
    (drain (heapImpl A) quietProg n w).Perm w.queue := by
  induction n with
  | zero =>
    intro w _ _ hl
    have : w.queue = [] := List.length_eq_zero_iff.mp (by omega)
    rw [this]; exact ⟨List.Pairwise.nil, List.Perm.refl _⟩
  | succ n ih =>
    intro w hh hnd hl
    simp only [drain]
    cases hq : w.queue with
    | nil => exact ⟨List.Pairwise.nil, List.Perm.refl _⟩
    | cons k s =>
      have hfr : (heapImpl A).front w.queue = some k := by rw [hq]; rfl
      show Sorted (k :: drain (heapImpl A) quietProg n (w.fireAndRemove (heapImpl A) quietProg)) ∧
        (k :: drain (heapImpl A) quietProg n (w.fireAndRemove (heapImpl A) quietProg)).Perm (k :: s)
      have e : (w.fireAndRemove (heapImpl A) quietProg).queue = (A.pop (k :: s)).dropLast := by
        rw [quiet_queue _ w k hfr, hq]; rfl
      rw [hq] at hh hnd hl
      have hp : ((A.pop (k :: s)).dropLast).Perm s :=
        dropLast_perm (A.pop_perm _) (A.pop_last _ _ hh)
      have := ih (w.fireAndRemove (heapImpl A) quietProg) (by rw [e]; exact A.pop_heap _ hh)
        (by rw [e]; exact hp.nodup_iff.mpr (List.nodup_cons.mp hnd).2)
        (by rw [e, hp.length_eq]; simp at hl; omega)
      rw [e] at this
      refine ⟨List.pairwise_cons.mpr ⟨?_, this.1⟩, (this.2.trans hp).cons k⟩
      intro x hx
      have hxs := hp.mem_iff.mp (this.2.mem_iff.mp hx)
      have h1 := heap_head_min hh x (by simp [hxs])
      have hne : x ≠ k := fun e => (List.nodup_cons.mp hnd).1 (e ▸ hxs)
      by_cases hlt : k.lt x = true
      · exact hlt
      · exact absurd (Key.eq_of_not_lt h1 (by simpa using hlt)) hne

end
end Verif.Sim
