import Verif.Sim.ThrowInv

/-! The three schedulers meet what the invariant needs. -/
set_option linter.unusedVariables false
namespace Verif.Sim
section
variable {σ : Type}

/-- Calls of the sink of event `id`. -/
def isFireOf (id : Nat) : Entry → Bool
  | .fire i _ => i == id
  | _ => false

/-- Returns from the sink of event `id`. -/
def isDoneOf (id : Nat) : Entry → Bool
  | .done i => i == id
  | _ => false

theorem countedFire : Counted isFireOf := by
  constructor <;> intros <;> simp_all [isFireOf]

theorem countedDone : Counted isDoneOf := by
  constructor <;> intros <;> simp_all [isDoneOf]

def listSch : Sch listImpl isDoneOf where
  toValid := listValid
  counted := countedDone
  bound _ _ h := h.2
  mem_ins c n t _ x := mem_listInsert _ _ _
  front_mem _ _ h := List.mem_of_mem_head? h
  pre_sub _ _ h := h
  pre_rest _ _ _ _ _ _ h _ := h
  pre_gone _ _ _ _ h := .inl ⟨fun _ => rfl, List.mem_of_mem_head? h⟩
  post_sub _ _ _ h := List.mem_of_mem_tail h
  removes P w k hv hk hd := list_removesOnly P w hv k hk hd
  kind := .inl ⟨fun _ _ _ => rfl, fun i => by simp [isDoneOf]⟩

def setSch : Sch setImpl isDoneOf where
  toValid := setValid
  counted := countedDone
  bound _ _ h := h.2
  mem_ins c n t h x := by
    show x ∈ setInsert _ _ ↔ _
    rw [setInsert_eq h.2, mem_ins]
  front_mem _ _ h := List.mem_of_mem_head? h
  pre_sub _ _ h := h
  pre_rest _ _ _ _ _ _ h _ := h
  pre_gone _ _ _ _ h := .inl ⟨fun _ => rfl, List.mem_of_mem_head? h⟩
  post_sub _ _ _ h := (List.mem_filter.mp h).1
  removes P w k hv hk _ := set_removesOnly P w hv k hk
  kind := .inl ⟨fun _ _ _ => rfl, fun i => by simp [isDoneOf]⟩

theorem heap_pre (A : HeapAlg) {c : List Key} {n : Nat} {k : Key} (h : HeapIds c n) (hk : c.head? = some k) :
    ∃ s, c = k :: s ∧ ((heapImpl A).pre c).Perm s := by
  cases c with
  | nil => cases hk
  | cons a s =>
    cases hk
    exact ⟨s, rfl, dropLast_perm (A.pop_perm _) (A.pop_last _ _ h.1)⟩

def heapSch (A : HeapAlg) : Sch (heapImpl A) isFireOf where
  toValid := heapValid A
  counted := countedFire
  bound _ _ h := h.2.2
  mem_ins c n t _ x := by
    have e : x ∈ (heapImpl A).insert ⟨t, n⟩ c ↔ x ∈ c ++ [⟨t, n⟩] := (A.push_perm _).mem_iff
    rw [e, List.mem_append, List.mem_singleton, or_comm]
  front_mem _ _ h := List.mem_of_mem_head? h
  pre_sub c x h := (A.pop_perm c).mem_iff.mp ((List.dropLast_sublist _).subset h)
  pre_rest c n k h hk x hx hne := by
    obtain ⟨s, rfl, p⟩ := heap_pre A h hk
    refine p.mem_iff.mpr ?_
    rcases List.mem_cons.mp hx with e | e
    · exact absurd e hne
    · exact e
  pre_gone c n k h hk := by
    obtain ⟨s, rfl, p⟩ := heap_pre A h hk
    exact .inr ⟨by simp [isFireOf], fun m => (List.nodup_cons.mp h.2.1).1 (p.mem_iff.mp m)⟩
  post_sub _ _ _ h := h
  removes P w k hv hk _ := heap_removesOnly A P w hv k hk
  kind := .inr ⟨fun _ _ => rfl, fun i t => by simp [isFireOf]⟩

theorem head_of_least {c : List Key} {k : Key} (hs : Sorted c) (m : k ∈ c) (lo : ∀ x ∈ c, x = k ∨ k.lt x = true) :
    c.head? = some k := by
  cases c with
  | nil => cases m
  | cons a l =>
    rcases lo a (by simp) with rfl | y
    · rfl
    · rcases List.mem_cons.mp m with rfl | m
      · rfl
      · have := (List.pairwise_cons.mp hs).1 k m
        rw [Key.lt_iff] at this y; omega

/-- What an exception leaves in the list and the set: the same first event. -/
theorem thrown_front {I : Impl (List Key)} (S : Sch I isDoneOf) (hfront : I.front = List.head?) (hpre : ∀ c, I.pre c = c)
    (hV : ∀ c n, S.V c n → Sorted c) (P : TProg σ) {w : World σ (List Key)} {k : Key}
    (hk : I.front w.queue = some k) (ht : w.view.now = k.t) (h : S.J w) (hth : (w.fireAndRemoveT I P).2 = true) :
    I.front (w.fireAndRemoveT I P).1.queue = some k := by
  obtain ⟨t, s, r, e, c, e2⟩ := thrown hk hth
  have h1 : S.J (({ w with queue := I.pre w.queue } : World σ (List Key)).fireBegin k) := S.during P hk h e []
  have h2 := S.performs (P.prog.sink s (({ w with queue := I.pre w.queue } : World σ (List Key)).fireBegin k).view) _ h1
  obtain ⟨b1, b2, -, -, -⟩ := performs_queue S
    (P.prog.sink s (({ w with queue := I.pre w.queue } : World σ (List Key)).fireBegin k).view) _ h1
  rw [e2]
  have hs := hV _ _ h2.1
  have hq := hV _ _ h.1
  have hmem : k ∈ w.queue := S.front_mem _ _ hk
  have hkn := S.bound _ _ h.1 k hmem
  have m := b1 k (by show k ∈ I.pre w.queue; rw [hpre]; exact hmem)
  have lo : ∀ x, x ∈ ((({ w with queue := I.pre w.queue } : World σ (List Key)).fireBegin k).performs I
      (P.prog.sink s (({ w with queue := I.pre w.queue } : World σ (List Key)).fireBegin k).view)).queue →
      x = k ∨ k.lt x = true := by
    intro x hx
    rcases b2 x hx with y | ⟨y1, y2⟩
    · have y : x ∈ w.queue := by rw [← hpre w.queue]; exact y
      rw [hfront] at hk
      cases hw : w.queue with
      | nil => rw [hw] at y; cases y
      | cons a l =>
        rw [hw] at y hk hq
        cases hk
        rcases List.mem_cons.mp y with rfl | y
        · exact .inl rfl
        · exact .inr ((List.pairwise_cons.mp hq).1 x y)
    · right
      have y1 : w.view.handles.length ≤ x.id := by simpa [World.fireBegin, View.log] using y1
      have y2 : w.view.now ≤ x.t := y2
      rw [Key.lt_iff]; omega
  rw [hfront]
  exact head_of_least hs m lo

end
end Verif.Sim
