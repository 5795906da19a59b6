import Verif.Log.Reenter

/-!
What the calls on a logger do, said of histories of calls by maps from names: `C168_effect` says that the calls of functors, filters and sinks
take effect, and `C168_calls` says what the effect is.
-/
namespace Verif.Log.Calls

/-- A map with one entry changed.  (No code: this is the specification.) -/
def put (f : Nat → Option Nat) (n : Nat) (x : Option Nat) : Nat → Option Nat := fun m => if m = n then x else f m

/-- A list of entries is the map `f`, with every name once.  (No code: this is the specification.) -/
def Is (p : List (Nat × Nat)) (f : Nat → Option Nat) : Prop := (p.map (·.1)).Nodup ∧ ∀ m v, (m, v) ∈ p ↔ f m = some v

theorem Is.has {p : List (Nat × Nat)} {f : Nat → Option Nat} (h : Is p f) (n : Nat) : Re.has p n = (f n).isSome := by
  rw [Bool.eq_iff_iff, Option.isSome_iff_exists]
  simp only [Re.has, List.any_eq_true, decide_eq_true_eq]
  constructor
  · rintro ⟨⟨a, v⟩, hm, rfl⟩; exact ⟨v, (h.2 _ _).1 hm⟩
  · rintro ⟨v, hv⟩; exact ⟨(n, v), (h.2 _ _).2 hv, rfl⟩

theorem Is.append {p : List (Nat × Nat)} {f : Nat → Option Nat} (h : Is p f) {n : Nat} (hn : f n = none) (v : Nat) :
    Is (p ++ [(n, v)]) (put f n (some v)) := by
  refine ⟨?_, fun m x => ?_⟩
  · rw [List.map_append, List.nodup_append]
    refine ⟨h.1, by simp, ?_⟩
    intro a ha b hb
    simp only [List.map_cons, List.map_nil, List.mem_singleton] at hb
    subst hb
    rintro rfl
    obtain ⟨⟨a', x⟩, hm, rfl⟩ := List.mem_map.1 ha
    have := (h.2 _ _).1 hm
    simp [hn] at this
  · simp only [List.mem_append, List.mem_singleton, Prod.mk.injEq, h.2, put]
    by_cases e : m = n
    · subst e; simp [hn, eq_comm]
    · simp [e]

theorem Is.replace {p : List (Nat × Nat)} {f : Nat → Option Nat} (h : Is p f) {n : Nat} (hn : (f n).isSome = true) (v : Nat) :
    Is (p.map fun e => if e.1 = n then (n, v) else e) (put f n (some v)) := by
  refine ⟨?_, fun m x => ?_⟩
  · have : (p.map fun e => if e.1 = n then (n, v) else e).map (·.1) = p.map (·.1) := by
      rw [List.map_map]
      apply List.map_congr_left
      intro e _
      simp only [Function.comp]
      split
      · rename_i e'; exact e'.symm
      · rfl
    rw [this]; exact h.1
  · simp only [List.mem_map, put]
    constructor
    · rintro ⟨⟨a, y⟩, hm, he⟩
      dsimp only at he
      split at he
      · injection he with e1 e2; subst e1; subst e2; simp
      · rename_i hne
        injection he with e1 e2; subst e1; subst e2
        rw [if_neg hne]; exact (h.2 _ _).1 hm
    · by_cases e : m = n
      · subst e
        rw [if_pos rfl]
        intro hx
        injection hx with hx; subst hx
        obtain ⟨y, hy⟩ := Option.isSome_iff_exists.1 hn
        exact ⟨(m, y), (h.2 _ _).2 hy, by simp⟩
      · rw [if_neg e]
        intro hx
        exact ⟨(m, x), (h.2 _ _).2 hx, by simp [e]⟩

theorem Is.erase {p : List (Nat × Nat)} {f : Nat → Option Nat} (h : Is p f) (n : Nat) :
    Is (p.filter fun e => e.1 ≠ n) (put f n none) := by
  refine ⟨h.1.sublist (List.filter_sublist.map _), fun m x => ?_⟩
  simp only [List.mem_filter, h.2, put, ne_eq, decide_not, Bool.not_eq_true', decide_eq_false_iff_not]
  by_cases e : m = n <;> simp [e]

end Verif.Log.Calls

namespace Verif.Log.Re
open Verif.Log.Calls

/-- The pending values after calls, from those before: `AddValue` keeps what is there, `UpdateValue` does not, `RemoveValue` removes.
(The specification; logger.h 162-175.) -/
def valuesAfter (f : Nat → Option Nat) : List Act → Nat → Option Nat
  | [] => f
  | .add n v :: as => valuesAfter (if (f n).isSome then f else put f n (some v)) as
  | .update n v :: as => valuesAfter (put f n (some v)) as
  | .remove n :: as => valuesAfter (put f n none) as
  | _ :: as => valuesAfter f as

/-- The filter set last.  (The specification; logger.h 177-180.) -/
def filterAfter (f : Option Nat) : List Act → Option Nat
  | [] => f
  | .setFilter g :: as => filterAfter g as
  | _ :: as => filterAfter f as

theorem calls_from (cap : Nat) (as : List Act) (l : Lg) (f : Nat → Option Nat) (h : Is l.pend f) :
    Is (l.acts cap as).pend (valuesAfter f as) ∧ (l.acts cap as).filter = filterAfter l.filter as := by
  induction as generalizing l f with
  | nil => exact ⟨h, rfl⟩
  | cons a as ih =>
    have step : l.acts cap (a :: as) = (l.act cap a).acts cap as := rfl
    rw [step]
    cases a with
    | add n v =>
      simp only [Lg.act, valuesAfter, filterAfter, h.has]
      cases hn : f n with
      | none => simpa using ih _ _ (h.append hn v)
      | some y => simpa using ih _ _ h
    | update n v =>
      simp only [Lg.act, valuesAfter, filterAfter, h.has]
      cases hn : f n with
      | none => simpa using ih _ _ (h.append hn v)
      | some y => simpa using ih _ _ (h.replace (by rw [hn]; rfl) v)
    | remove n => exact ih _ _ (h.erase n)
    | setFilter g => exact ih _ _ h
    | connect s => exact ih _ _ h
    | disconnect c => exact ih _ _ h

/-- **C168, the effect of calls.**  After any history of calls a logger has the pending values that the history says, each name once, and
the filter set last. -/
theorem C168_calls (cap : Nat) (as : List Act) :
    (((Lg.init.acts cap as).pend.map (·.1)).Nodup ∧
      ∀ m v, (m, v) ∈ (Lg.init.acts cap as).pend ↔ valuesAfter (fun _ => none) as m = some v) ∧
    (Lg.init.acts cap as).filter = filterAfter none as :=
  calls_from cap as Lg.init _ ⟨by simp [Lg.init], by simp [Lg.init]⟩

/-- A value added twice is the first, one updated the last, one removed and added again the new one. -/
example : (Lg.init.acts 8 [.add 1 5, .add 1 6, .add 2 7, .update 2 8, .add 3 9, .remove 3, .add 3 4, .setFilter (some 1)]).pend =
    [(1, 5), (2, 8), (3, 4)] := by decide +kernel

end Verif.Log.Re
