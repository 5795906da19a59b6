import Verif.Event.VisitLemmas
/-!
Property C151: visiting the items of a portainer with visitors that use the portainer.
-/
namespace Verif.Event.Visit

variable {σ : Type}

/-- **C151**, the loop: whatever visitors do, `Visit` never goes beyond the items there are. -/
theorem visit_range {grow : Nat → Nat} {cap : Nat} (hcap : cap < 2 ^ 32) (P : Visitor σ) (script : List (Act σ)) (n : Nat) :
    exec grow cap P script n ≠ .range := by
  rcases exec_ok (K := fun _ => False) (A := False) (grow := grow) hcap (P := P)
    (fun tr x => ⟨fun c h => h.elim, fun h => h.elim⟩) (script := script) (fun c h => h.elim) n with h | ⟨c, h, _⟩ <;> rw [h] <;> simp

/-- **C151**, which items are visited: every visit that ends, also one that is made by a visitor, visits no item twice and goes by
ascending cookies; it visits every item that was there when it began and that nobody removes; and nothing but these if visitors do not add. -/
theorem visit_items {grow : Nat → Nat} {cap : Nat} (hcap : cap < 2 ^ 32) {P : Visitor σ} {script : List (Act σ)} {n : Nat} {c : Cfg σ}
    (h : exec grow cap P script n = .go c) {t0 : Table σ} {seen : List (Nat × σ)} (hv : (t0, seen) ∈ c.visits) :
    (seen.map (·.1)).Pairwise (· < ·) ∧
    (∀ k x, t0.get k = some x → Act.remove k ∉ script → (∀ tr y, Act.remove k ∉ P tr y) → (k, x) ∈ seen) ∧
    ((∀ tr y z, Act.add z ∉ P tr y) → ∀ p ∈ seen, t0.get p.1 = some p.2) := by
  have hget : ∀ k x, t0.get k = some x → k ≠ 0 ∧ t0.sl (k - 1) = some x := by
    intro k x hk
    unfold Table.get at hk
    split at hk
    · rename_i hh
      refine ⟨hh.1, ?_⟩
      unfold Table.sl
      split at hk
      · rename_i e; rw [e, hk]; rfl
      · cases hk
    · cases hk
  have hgot : ∀ k x, 0 < k → t0.sl (k - 1) = some x → t0.get k = some x := by
    intro k x h0 hk
    have h1 := slots_of_sl hk
    have h2 := (List.getElem?_eq_some_iff.1 h1).1
    unfold Table.get
    rw [if_pos ⟨by omega, by omega⟩, h1]
  have hk := exec_ok (grow := grow) (K := fun k => Act.remove k ∉ script ∧ ∀ tr y, Act.remove k ∉ P tr y) (A := ∀ tr y z, Act.add z ∉ P tr y) hcap
    (P := P) (fun tr x => ⟨fun c hc => hc.2 tr x, fun ha => ha tr x⟩) (script := script) (fun c hc => hc.1) n
  rcases hk with hk | ⟨c', hk, ok⟩
  · rw [h] at hk; cases hk
  rw [h] at hk; cases hk
  obtain ⟨h1, h2, h3, h4⟩ := ok.visits _ hv
  refine ⟨h1, ?_, ?_⟩
  · intro k x hx hs hP
    obtain ⟨h0, hx⟩ := hget k x hx
    have := h3 (k - 1) x (by rw [show k - 1 + 1 = k by omega]; exact ⟨hs, hP⟩) hx
    rwa [show k - 1 + 1 = k by omega] at this
  · intro hA p hp
    exact hgot _ _ (h2 p hp) (h4 hA p hp)

/-- **C151**, references: the visitor's reference dangles only after a visitor has added an item to a full vector. -/
theorem visit_growth {grow : Nat → Nat} {cap : Nat} (hcap : cap < 2 ^ 32) {P : Visitor σ} {script : List (Act σ)} {n : Nat}
    (h : exec grow cap P script n = .dangling) : ∃ k c, k < n ∧ exec grow cap P script k = .go c ∧ Full c := by
  apply Classical.byContradiction
  intro hh
  have := exec_rok (grow := grow) hcap (P := P) script n (fun k c hk he hf => hh ⟨k, c, hk, he, hf⟩)
  obtain ⟨c, e, _⟩ := this
  rw [h] at e; cases e

/-- **C151**, references, what holds: visitors that read their item before they do anything else are safe, and so are all visitors if none of
them adds.  Missing: visitors that add an item and read theirs afterwards (`visit_ref_fails`). -/
theorem visit_ref_partial {grow : Nat → Nat} {cap : Nat} (hcap : cap < 2 ^ 32) {P : Visitor σ} (script : List (Act σ)) (n : Nat)
    (hP : (∀ tr x, ∃ k rest, P tr x = List.replicate k .read ++ rest ∧ Act.read ∉ rest) ∨ ∀ tr x y, Act.add y ∉ P tr x) :
    ∃ c, exec grow cap P script n = .go c := by
  rcases hP with hP | hP
  · rcases exec_eok (grow := grow) (cap := cap) (P := P) hP script n with h | ⟨c, h, _⟩
    · exact absurd h (visit_range hcap P script n)
    · exact ⟨c, h⟩
  · cases h : exec grow cap P script n with
    | go c => exact ⟨c, rfl⟩
    | range => exact absurd h (visit_range hcap P script n)
    | dangling =>
      obtain ⟨k, c, _, hc, b, i, x, y, as, st, hst, _⟩ := visit_growth hcap h
      have hk := exec_ok (grow := grow) (K := fun _ => False) (A := True) hcap
        (P := P) (fun tr x => ⟨fun c hc => hc.elim, fun ha => hP tr x⟩) (script := script) (fun c hc => hc.elim) k
      rcases hk with hk | ⟨c', hk, ok⟩
      · rw [hc] at hk; cases hk
      rw [hc] at hk; cases hk
      have := ok.frames (.call b i x (.add y :: as)) (by rw [hst]; exact List.mem_cons_self ..)
      exact absurd (List.mem_cons_self ..) (this.2.1 trivial y)

/-- **C151**, what a visitor reads: its item, if it reads before it does anything else, or if nobody removes that item. -/
theorem visit_reads {grow : Nat → Nat} {cap : Nat} (hcap : cap < 2 ^ 32) {P : Visitor σ} {script : List (Act σ)} {n : Nat} {c : Cfg σ}
    (h : exec grow cap P script n = .go c) {k : Nat} {x : σ} {o : Option σ} (hr : (k, x, o) ∈ c.reads)
    (hP : (∀ tr x, ∃ j rest, P tr x = List.replicate j .read ++ rest ∧ Act.read ∉ rest) ∨
      Act.remove k ∉ script ∧ ∀ tr y, Act.remove k ∉ P tr y) : o = some x := by
  rcases hP with hP | hP
  · rcases exec_eok (grow := grow) (cap := cap) (P := P) hP script n with h' | ⟨c', h', ok⟩ <;> rw [h] at h' <;> cases h'
    exact ok.reads _ hr
  · have hk := exec_ok (grow := grow) (K := fun k => Act.remove k ∉ script ∧ ∀ tr y, Act.remove k ∉ P tr y) (A := False) hcap
      (P := P) (fun tr x => ⟨fun c hc => hc.2 tr x, fun ha => ha.elim⟩) (script := script) (fun c hc => hc.1) n
    rcases hk with hk | ⟨c', hk, ok⟩ <;> rw [h] at hk <;> cases hk
    exact ok.reads _ hr hP

/-- What was read in a run that did not end in undefined behaviour. -/
def Res.reads : Res σ → List (Nat × σ × Option σ)
  | .go c => c.reads
  | _ => []

/-- What the visits that ended have visited. -/
def Res.visits : Res σ → List (List (Nat × σ))
  | .go c => c.visits.map (·.2)
  | _ => []

/-- **C151** fails: a visitor that adds an item and then reads its own uses memory that is gone (the vector doubles its room); one that
removes its item and adds another reads the other. -/
theorem visit_ref_fails :
    exec (fun n => max 1 (2 * (n - 1))) 9 (fun _ x => if x = 'a' then [.add 'c', .read] else []) [.add 'a', .add 'b', .visit] 6 = .dangling ∧
    (exec (fun n => max 1 (2 * (n - 1))) 9 (fun _ x => if x = 'a' then [.remove 1, .add 'c', .read] else []) [.add 'a', .visit] 6).reads =
      [(1, 'a', some 'c')] := by
  refine ⟨by decide +kernel, by decide +kernel⟩

/-- A visitor that visits again, one that removes the next item, and one that reads: two visits end, and the hypotheses of the theorems hold
for the items `1` and `3`. -/
example : (exec (fun n => max 1 (2 * (n - 1))) 9 (fun tr x => if x = 'a' ∧ tr = [] then [.read, .remove 2, .visit] else [.read])
    [.add 'a', .add 'b', .add 'c', .visit] 40).visits = [[(1, 'a'), (3, 'c')], [(1, 'a'), (3, 'c')]] := by
  decide +kernel

end Verif.Event.Visit
