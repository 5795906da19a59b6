import Verif.Fixed.Model
import Mathlib.Data.List.Count

/-! Invariant of the fixed buffers: the reference count of a storage is the number of
buffer objects that point to it. -/

set_option linter.unusedSimpArgs false
set_option linter.unusedVariables false

namespace Verif.Fixed

/-- The reference count of every storage is the number of objects holding it, storages are
not empty and not freed while held, and unused names are free. -/
structure Inv (s : State) : Prop where
  ref : ∀ id c, s.mem.mem id = some c → c.ref = s.bufs.count (some id) ∧ 0 < c.ref ∧ c.bytes ≠ []
  live : ∀ id, some id ∈ s.bufs → ∃ c, s.mem.mem id = some c
  fresh : ∀ id, s.mem.next ≤ id → s.mem.mem id = none

theorem Inv.init (junk) : Inv (State.init junk) := by
  constructor <;> simp [State.init]

theorem mem_put (m : Mem) (id k : Nat) (x : Option Cell) :
    (m.put id x).mem k = if k = id then x else m.mem k := rfl

theorem next_put (m : Mem) (id : Nat) (x : Option Cell) : (m.put id x).next = m.next := rfl

theorem getElem?_mem {l : List (Option Nat)} {i : Nat} {x : Option Nat} (h : l[i]? = some x) :
    x ∈ l := List.mem_of_getElem? h

/-- Counting after replacing one entry. -/
theorem count_set (l : List (Option Nat)) (i : Nat) (a b x : Option Nat) (h : l[i]? = some a) :
    (l.set i b).count x + (if a = x then 1 else 0) = l.count x + (if b = x then 1 else 0) := by
  induction l generalizing i with
  | nil => simp at h
  | cons y l ih =>
    cases i with
    | zero =>
      simp at h; subst h
      simp only [List.set_cons_zero, List.count_cons]
      by_cases h1 : y = x <;> by_cases h2 : b = x <;> simp [h1, h2]
    | succ i =>
      simp only [List.getElem?_cons_succ] at h
      have := ih i h
      simp only [List.set_cons_succ, List.count_cons]
      omega

theorem count_pos_of (l : List (Option Nat)) (x : Option Nat) : 0 < l.count x ↔ x ∈ l :=
  List.count_pos_iff

/-- The invariant for a heap and a counting function: used while an operation is half done. -/
structure InvC (m : Mem) (cnt : Nat → Nat) : Prop where
  ref : ∀ id c, m.mem id = some c → c.ref = cnt id ∧ 0 < c.ref ∧ c.bytes ≠ []
  live : ∀ id, 0 < cnt id → ∃ c, m.mem id = some c
  fresh : ∀ id, m.next ≤ id → m.mem id = none

theorem inv_iff (s : State) : Inv s ↔ InvC s.mem (fun id => s.bufs.count (some id)) := by
  constructor
  · rintro ⟨a, b, c⟩
    exact ⟨a, fun id h => b id ((count_pos_of _ _).mp h), c⟩
  · rintro ⟨a, b, c⟩
    exact ⟨a, fun id h => b id ((count_pos_of _ _).mpr h), c⟩

theorem InvC.congr {m : Mem} {f g : Nat → Nat} (h : InvC m f) (e : ∀ id, f id = g id) : InvC m g := by
  have : f = g := funext e
  rw [← this]; exact h

/-- `Acquire` succeeds on a held storage and adds one to its count. -/
theorem acquire_inv {m : Mem} {cnt : Nat → Nat} (h : InvC m cnt) (x : Option Nat)
    (hx : ∀ id, x = some id → 0 < cnt id) :
    ∃ m', m.acquire x = some m' ∧ m'.next = m.next ∧ m'.junk = m.junk ∧
      InvC m' (fun id => cnt id + if x = some id then 1 else 0) ∧
      (∀ id, (m'.mem id).map (·.bytes) = (m.mem id).map (·.bytes)) := by
  cases x with
  | none => exact ⟨m, rfl, rfl, rfl, h.congr (by simp), fun _ => rfl⟩
  | some id =>
    obtain ⟨c, hc⟩ := h.live id (hx id rfl)
    refine ⟨m.put id (some { c with ref := c.ref + 1 }), by simp [Mem.acquire, hc], rfl, rfl, ?_, ?_⟩
    · constructor
      · intro k d hd
        rw [mem_put] at hd
        by_cases hk : k = id
        · subst hk
          simp at hd; subst hd
          obtain ⟨h1, h2, h3⟩ := h.ref k c hc
          simp [h1, h3]
        · have hk' : ¬ id = k := fun e => hk e.symm
          simp [hk] at hd
          simpa [hk'] using h.ref k d hd
      · intro k hk
        rw [mem_put]
        by_cases e : k = id
        · exact ⟨_, by simp [e]; rfl⟩
        · have e' : ¬ id = k := fun h => e h.symm
          simp [e'] at hk
          simpa [e] using h.live k hk
      · intro k hk
        rw [mem_put]
        by_cases e : k = id
        · subst e
          rw [h.fresh k hk] at hc; simp at hc
        · simp only [e, if_false]; exact h.fresh k hk
    · intro k
      rw [mem_put]
      by_cases e : k = id
      · subst e; simp [hc]
      · simp [e]

/-- `Release` succeeds on a held storage; the contents of the storages that remain held are kept. -/
theorem release_inv {m : Mem} {cnt : Nat → Nat} (h : InvC m cnt) (x : Option Nat)
    (hx : ∀ id, x = some id → 0 < cnt id) :
    ∃ m', m.release x = some m' ∧ m'.next = m.next ∧ m'.junk = m.junk ∧
      InvC m' (fun id => cnt id - if x = some id then 1 else 0) ∧
      (∀ id, 0 < cnt id - (if x = some id then 1 else 0) →
        (m'.mem id).map (·.bytes) = (m.mem id).map (·.bytes)) := by
  cases x with
  | none => exact ⟨m, rfl, rfl, rfl, h.congr (by simp), fun _ _ => rfl⟩
  | some id =>
    obtain ⟨c, hc⟩ := h.live id (hx id rfl)
    obtain ⟨h1, h2, h3⟩ := h.ref id c hc
    have hr : ¬ c.ref = 0 := by omega
    by_cases hz : c.ref - 1 = 0
    · refine ⟨m.put id none, by simp [Mem.release, hc, hr, hz], rfl, rfl, ?_, ?_⟩
      · constructor
        · intro k d hd
          rw [mem_put] at hd
          by_cases hk : k = id
          · simp [hk] at hd
          · have hk' : ¬ id = k := fun e => hk e.symm
            simp [hk] at hd
            simpa [hk'] using h.ref k d hd
        · intro k hk
          rw [mem_put]
          by_cases e : k = id
          · subst e; simp at hk; omega
          · have e' : ¬ id = k := fun h => e h.symm
            simp [e'] at hk
            simpa [e] using h.live k hk
        · intro k hk
          rw [mem_put]
          by_cases e : k = id
          · simp [e]
          · simp only [e, if_false]; exact h.fresh k hk
      · intro k hk
        rw [mem_put]
        by_cases e : k = id
        · subst e; simp at hk; omega
        · simp [e]
    · refine ⟨m.put id (some { c with ref := c.ref - 1 }), by simp [Mem.release, hc, hr, hz],
        rfl, rfl, ?_, ?_⟩
      · constructor
        · intro k d hd
          rw [mem_put] at hd
          by_cases hk : k = id
          · subst hk
            simp at hd; subst hd
            simp [h1, h3]; omega
          · have hk' : ¬ id = k := fun e => hk e.symm
            simp [hk] at hd
            simpa [hk'] using h.ref k d hd
        · intro k hk
          rw [mem_put]
          by_cases e : k = id
          · exact ⟨_, by simp [e]; rfl⟩
          · have e' : ¬ id = k := fun h => e h.symm
            simp [e'] at hk
            simpa [e] using h.live k hk
        · intro k hk
          rw [mem_put]
          by_cases e : k = id
          · subst e
            rw [h.fresh k hk] at hc; simp at hc
          · simp only [e, if_false]; exact h.fresh k hk
      · intro k hk
        rw [mem_put]
        by_cases e : k = id
        · subst e; simp [hc]
        · simp [e]

/-- `Allocate`: the new storage is held once (by the object being built). -/
theorem allocate_inv {m : Mem} {cnt : Nat → Nat} (h : InvC m cnt) (n : Nat) :
    InvC (m.allocate n).1 (fun id => cnt id + if (m.allocate n).2 = some id then 1 else 0) ∧
    (∀ id, 0 < cnt id → (m.allocate n).2 ≠ some id ∧ (m.allocate n).1.mem id = m.mem id) ∧
    ((m.allocate n).1.view (m.allocate n).2).length = n ∧
    ((m.allocate n).2.isSome ↔ 0 < n) := by
  by_cases hn : n = 0
  · subst hn
    simp only [Mem.allocate, if_true]
    exact ⟨h.congr (by simp), by simp, rfl, by simp⟩
  · simp only [Mem.allocate, hn, if_false]
    have hnone := h.fresh m.next (Nat.le_refl _)
    have hcnt : cnt m.next = 0 := by
      rcases Nat.eq_zero_or_pos (cnt m.next) with e | e
      · exact e
      · obtain ⟨c, hc⟩ := h.live _ e
        rw [hnone] at hc; simp at hc
    refine ⟨⟨?_, ?_, ?_⟩, ?_, ?_, by simp; omega⟩
    · intro k d hd
      simp only [Mem.put] at hd
      by_cases hk : k = m.next
      · subst hk
        simp at hd; subst hd
        simp [hcnt, hn]
      · have hk' : ¬ m.next = k := fun e => hk e.symm
        simp [hk] at hd
        simpa [hk'] using h.ref k d hd
    · intro k hk
      simp only [Mem.put]
      by_cases e : k = m.next
      · exact ⟨_, by simp [e]; rfl⟩
      · have e' : ¬ m.next = k := fun h => e h.symm
        simp [e'] at hk
        simpa [e] using h.live k hk
    · intro k hk
      simp only [Mem.put] at hk ⊢
      have : ¬ k = m.next := by omega
      simp only [this, if_false]
      exact h.fresh k (by omega)
    · intro k hk
      have : ¬ k = m.next := by rintro rfl; omega
      have h' : ¬ m.next = k := fun e => this e.symm
      simp [Mem.put, this, h']
    · simp [Mem.view, Mem.put]

theorem splice_length (b : List Byte) (off : Nat) (d : List Byte) (h : off + d.length ≤ b.length) :
    (splice b off d).length = b.length := by
  simp [splice]; omega

/-- Writing inside a held storage succeeds and changes only that storage. -/
theorem write_inv {m : Mem} {cnt : Nat → Nat} (h : InvC m cnt) (x : Option Nat) (off : Nat)
    (d : List Byte) (hx : ∀ id, x = some id → 0 < cnt id)
    (hl : off + d.length ≤ (m.view x).length) :
    ∃ m', m.write x off d = some m' ∧ m'.next = m.next ∧ m'.junk = m.junk ∧ InvC m' cnt ∧
      m'.view x = splice (m.view x) off d ∧
      (∀ id, x ≠ some id → m'.mem id = m.mem id) := by
  cases x with
  | none =>
    have h0 : off = 0 ∧ d = [] := by
      simp [Mem.view] at hl
      exact ⟨hl.1, hl.2⟩
    obtain ⟨rfl, rfl⟩ := h0
    exact ⟨m, by simp [Mem.write], rfl, rfl, h, by simp [Mem.view, splice], fun _ _ => rfl⟩
  | some id =>
    obtain ⟨c, hc⟩ := h.live id (hx id rfl)
    obtain ⟨h1, h2, h3⟩ := h.ref id c hc
    have hv : m.view (some id) = c.bytes := by simp [Mem.view, hc]
    rw [hv] at hl ⊢
    refine ⟨m.put id (some { c with bytes := splice c.bytes off d }), by simp [Mem.write, hc, hl],
      rfl, rfl, ⟨?_, ?_, ?_⟩, by simp [Mem.view, mem_put], ?_⟩
    · intro k e he
      rw [mem_put] at he
      by_cases hk : k = id
      · subst hk
        simp at he; subst he
        refine ⟨h1, h2, ?_⟩
        intro hnil
        have := splice_length c.bytes off d hl
        have hnil' : splice c.bytes off d = [] := hnil
        rw [hnil'] at this
        exact h3 (List.eq_nil_of_length_eq_zero this.symm)
      · simp [hk] at he; exact h.ref k e he
    · intro k hk
      rw [mem_put]
      by_cases e : k = id
      · exact ⟨_, by simp [e]; rfl⟩
      · simpa [e] using h.live k hk
    · intro k hk
      rw [mem_put]
      by_cases e : k = id
      · subst e; rw [h.fresh k hk] at hc; simp at hc
      · simp only [e, if_false]; exact h.fresh k hk
    · intro k hk
      have : ¬ k = id := fun e => hk (by rw [e])
      simp [mem_put, this]

end Verif.Fixed
