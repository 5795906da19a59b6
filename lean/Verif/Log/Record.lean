import Verif.Log.Model
import Verif.Stat.Props
import Verif.Event.Props
set_option linter.unusedSimpArgs false
set_option linter.unusedVariables false
set_option linter.unusedSectionVars false
/-! Properties C72, C75, C88 and C89. -/
namespace Verif.Log
open Verif.Stat (Items look look_nil look_cons look_append has_iff look_erase)

variable {E N : Type} [DecidableEq N]

theorem look_add (b : Items N (LV E)) (n m : N) (v : LV E) :
    look (bodyAdd b n v).2 m = if n = m then (look b m).or (some v) else look b m := by
  unfold bodyAdd
  by_cases h : n = m
  · subst h
    cases hl : look b n <;> simp [look_append, look_cons, look_nil, hl]
  · cases hl : look b n <;> simp [look_append, look_cons, look_nil, h]

theorem look_setKey (b : Items N (LV E)) (n m : N) (v : LV E) :
    look (setKey b n v) m = if n = m then (look b m).map (fun _ => v) else look b m := by
  induction b with
  | nil => simp [setKey, look_nil]
  | cons e b ih =>
    unfold setKey at ih ⊢
    rw [List.map_cons, look_cons, look_cons, ih]
    by_cases h : n = m
    · subst h
      by_cases he : e.1 = n <;> simp [he]
    · by_cases he : e.1 = n
      · have : ¬ e.1 = m := fun x => h (he.symm.trans x)
        simp [he, h]
      · simp [he, h]

theorem look_update (b : Items N (LV E)) (n m : N) (v : LV E) :
    look (bodyUpdate b n v) m = if n = m then some v else look b m := by
  unfold bodyUpdate
  by_cases h : n = m
  · subst h
    cases hl : look b n <;> simp [look_append, look_cons, look_nil, look_setKey, hl]
  · cases hl : look b n <;> simp [look_append, look_cons, look_nil, look_setKey, h]

/-! ### C72 -/

/-- What the user is told about records: the values each record shows, and which records show each other's changes.
(Specification; no code.) -/
structure Spec (N E : Type) where
  size : Nat
  value : Nat → N → Option (LV E)
  share : Nat → Nat → Bool

/-- Make record `k` another name of record `r`.  (Specification; no code.) -/
def Spec.alias (a : Spec N E) (size k r : Nat) : Spec N E :=
  ⟨size, fun x => a.value (if x = k then r else x), fun x y => a.share (if x = k then r else x) (if y = k then r else y)⟩

/-- Make record `k` an independent record with the values `f`.  (Specification; no code.) -/
def Spec.fresh (a : Spec N E) (size k : Nat) (f : N → Option (LV E)) : Spec N E :=
  ⟨size, fun x => if x = k then f else a.value x, fun x y => if x = k ∨ y = k then x = y else a.share x y⟩

/-- Constructors, `Copy()`, `Add` (never overwrites) and `Update` (always sets).  (Specification; no code.) -/
def Spec.step (a : Spec N E) : ROp N E → Spec N E
  | .new => a.fresh (a.size + 1) a.size fun _ => none
  | .copy r => a.alias (a.size + 1) a.size r
  | .assign q r => a.alias a.size q r
  | .deep r => a.fresh (a.size + 1) a.size (a.value r)
  | .add r n v => { a with value := fun x m => if a.share x r ∧ n = m then (a.value x m).or (some v) else a.value x m }
  | .update r n v => { a with value := fun x m => if a.share x r ∧ n = m then some v else a.value x m }

/-- No records.  (Specification; no code.) -/
def Spec.init : Spec N E := ⟨0, fun _ _ => none, fun _ _ => false⟩

/-- The records a call names exist.  (Specification; no code.) -/
def Spec.ok (a : Spec N E) : ROp N E → Prop
  | .new => True
  | .copy r | .deep r | .add r _ _ | .update r _ _ => r < a.size
  | .assign q r => q < a.size ∧ r < a.size

/-- The model shows what the specification says.  (Specification; no code.) -/
structure Sees (s : Recs N E) (a : Spec N E) : Prop where
  size : s.recs.length = a.size
  bound : ∀ i ∈ s.recs, i < s.bodies.length
  value : ∀ (r i : Nat) (b : Items N (LV E)), s.recs[r]? = some i → s.bodies[i]? = some b → ∀ n, look b n = a.value r n
  share : ∀ q r i j : Nat, s.recs[q]? = some i → s.recs[r]? = some j → (a.share q r = true ↔ i = j)

theorem sees_init : Sees (⟨[], []⟩ : Recs N E) Spec.init := by
  constructor <;> simp [Spec.init]

theorem Sees.get {s : Recs N E} {a : Spec N E} (h : Sees s a) {r : Nat} (hr : r < a.size) :
    ∃ i b, s.recs[r]? = some i ∧ s.bodies[i]? = some b := by
  have h1 : r < s.recs.length := h.size ▸ hr
  have h2 := h.bound _ (List.getElem_mem h1)
  exact ⟨_, _, List.getElem?_eq_getElem h1, List.getElem?_eq_getElem h2⟩

/-- Appending an independent body. -/
theorem sees_fresh {s : Recs N E} {a : Spec N E} (h : Sees s a) (b : Items N (LV E)) (f : N → Option (LV E))
    (hf : ∀ n, look b n = f n) :
    Sees ⟨s.bodies ++ [b], s.recs ++ [s.bodies.length]⟩ (a.fresh (a.size + 1) a.size f) := by
  have hs := h.size
  have old : ∀ r i : Nat, (s.recs ++ [s.bodies.length])[r]? = some i →
      (r = a.size ∧ i = s.bodies.length) ∨ (r < a.size ∧ s.recs[r]? = some i ∧ i < s.bodies.length) := by
    intro r i hr
    rw [List.getElem?_append] at hr
    split at hr
    · rename_i hlt
      exact Or.inr ⟨hs ▸ hlt, hr, h.bound i (List.mem_of_getElem? hr)⟩
    · rename_i hlt
      left
      have := (List.getElem?_eq_some_iff.mp hr).1
      simp at this
      have hz : r - s.recs.length = 0 := by omega
      rw [hz] at hr; simp at hr
      exact ⟨by omega, hr.symm⟩
  constructor
  · simp [Spec.fresh, hs]
  · intro i hi
    simp only [List.mem_append, List.mem_singleton] at hi
    simp only [List.length_append, List.length_singleton]
    rcases hi with hi | hi
    · have := h.bound i hi; omega
    · omega
  · intro r i b' hr hb n
    rcases old r i hr with ⟨rfl, rfl⟩ | ⟨hlt, hr', hi⟩
    · rw [List.getElem?_append_right (Nat.le_refl _)] at hb
      simp at hb; subst hb
      simp [Spec.fresh, hf]
    · rw [List.getElem?_append_left hi] at hb
      simp only [Spec.fresh, if_neg (Nat.ne_of_lt hlt)]
      exact h.value r i b' hr' hb n
  · intro q r i j hq hr
    rcases old q i hq with ⟨rfl, rfl⟩ | ⟨hlt, hq', hi⟩ <;> rcases old r j hr with ⟨rfl, rfl⟩ | ⟨hlt', hr', hj⟩
    · simp [Spec.fresh]
    · simp [Spec.fresh]; omega
    · simp [Spec.fresh]; omega
    · simp only [Spec.fresh, if_neg (show ¬ (q = a.size ∨ r = a.size) by omega)]
      exact h.share q r i j hq' hr'

/-- Making `k` another name of `r`. -/
theorem sees_alias {s : Recs N E} {a : Spec N E} (h : Sees s a) {r i : Nat} (hr : s.recs[r]? = some i) (recs : List Nat)
    (size k : Nat) (hlen : recs.length = size)
    (hk : ∀ x : Nat, recs[x]? = if x = k then some i else s.recs[x]?) :
    Sees { s with recs := recs } (a.alias size k r) := by
  have key : ∀ x j : Nat, recs[x]? = some j → s.recs[if x = k then r else x]? = some j := by
    intro x j hx
    rw [hk] at hx
    by_cases e : x = k
    · rw [if_pos e] at hx ⊢; rw [hr, ← hx]
    · rw [if_neg e] at hx ⊢; exact hx
  constructor
  · exact hlen
  · intro j hj
    obtain ⟨x, hx⟩ := List.getElem?_of_mem hj
    exact h.bound j (List.mem_of_getElem? (key x j hx))
  · intro x j b hx hb n
    exact h.value _ j b (key x j hx) hb n
  · intro x y j l hx hy
    exact h.share _ _ j l (key x j hx) (key y l hy)

/-- Changing the body of `r`. -/
theorem sees_write {s : Recs N E} {a : Spec N E} (h : Sees s a) {r i : Nat} {b b' : Items N (LV E)}
    (hr : s.recs[r]? = some i) (hb : s.bodies[i]? = some b) (g : N → Option (LV E) → Option (LV E))
    (hg : ∀ n, look b' n = g n (look b n)) :
    Sees { s with bodies := s.bodies.set i b' }
      { a with value := fun x m => if a.share x r then g m (a.value x m) else a.value x m } := by
  constructor
  · exact h.size
  · intro j hj; simp only [List.length_set]; exact h.bound j hj
  · intro x j c hx hc n
    have hs := h.share x r j i hx hr
    dsimp only at hc ⊢
    rw [List.getElem?_set] at hc
    by_cases e : i = j
    · subst e
      rw [if_pos rfl] at hc
      split at hc
      · cases hc
        rw [if_pos (hs.mpr rfl), hg, h.value x i b hx hb n]
      · cases hc
    · rw [if_neg e] at hc
      rw [if_neg (by rw [hs]; exact Ne.symm e)]
      exact h.value x j c hx hc n
  · exact h.share

theorem sees_step {s : Recs N E} {a : Spec N E} (h : Sees s a) (o : ROp N E) (ho : a.ok o) :
    ∃ b s', s.step o = some (b, s') ∧ Sees s' (a.step o) ∧
      ∀ r n v, o = .add r n v → b = (a.value r n).isNone := by
  cases o with
  | new => exact ⟨_, _, rfl, sees_fresh h [] _ (fun n => rfl), by rintro _ _ _ ⟨⟩⟩
  | copy r =>
    obtain ⟨i, b, hr, hb⟩ := h.get ho
    refine ⟨true, { s with recs := s.recs ++ [i] }, by simp [Recs.step, hr], ?_, by rintro _ _ _ ⟨⟩⟩
    refine sees_alias h hr _ _ _ (by simp [h.size]) fun x => ?_
    have hs := h.size
    rw [List.getElem?_append]
    by_cases hx : x < s.recs.length
    · rw [if_pos hx, if_neg (by omega)]
    · rw [if_neg hx]
      by_cases e : x = a.size
      · rw [if_pos e, show x - s.recs.length = 0 by omega]; rfl
      · rw [if_neg e, List.getElem?_eq_none (by simp; omega), List.getElem?_eq_none (by omega)]
  | assign q r =>
    obtain ⟨i, b, hr, hb⟩ := h.get ho.2
    have hq : q < s.recs.length := h.size ▸ ho.1
    refine ⟨true, { s with recs := s.recs.set q i }, by simp [Recs.step, hr, hq], ?_, by rintro _ _ _ ⟨⟩⟩
    refine sees_alias h hr _ _ _ (by simp [h.size]) fun x => ?_
    rw [List.getElem?_set]
    by_cases e : q = x
    · subst e; simp [hq]
    · rw [if_neg e, if_neg (Ne.symm e)]
  | deep r =>
    obtain ⟨i, b, hr, hb⟩ := h.get ho
    refine ⟨true, ⟨s.bodies ++ [b], s.recs ++ [s.bodies.length]⟩, by simp [Recs.step, Recs.body, hr, hb], ?_, by rintro _ _ _ ⟨⟩⟩
    exact sees_fresh h b _ (fun n => h.value r i b hr hb n)
  | add r n v =>
    obtain ⟨i, b, hr, hb⟩ := h.get ho
    refine ⟨(bodyAdd b n v).1, { s with bodies := s.bodies.set i (bodyAdd b n v).2 }, by simp only [Recs.step, hr, hb, Option.bind_some, Option.map_some], ?_, ?_⟩
    · have := sees_write h hr hb (b' := (bodyAdd b n v).2) (fun m w => if n = m then w.or (some v) else w)
        (fun m => look_add b n m v)
      convert this using 1
      simp only [Spec.step]
      congr 1
      funext x m
      by_cases e1 : a.share x r = true <;> by_cases e2 : n = m <;> simp [e1, e2]
    · rintro r' n' v' ⟨⟩
      rw [← h.value r i b hr hb n]
      unfold bodyAdd
      cases look b n <;> rfl
  | update r n v =>
    obtain ⟨i, b, hr, hb⟩ := h.get ho
    refine ⟨true, { s with bodies := s.bodies.set i (bodyUpdate b n v) }, by simp only [Recs.step, hr, hb, Option.bind_some, Option.map_some], ?_, by rintro _ _ _ ⟨⟩⟩
    have := sees_write h hr hb (b' := bodyUpdate b n v) (fun m w => if n = m then some v else w)
      (fun m => look_update b n m v)
    convert this using 1
    simp only [Spec.step]
    congr 1
    funext x m
    by_cases e1 : a.share x r = true <;> by_cases e2 : n = m <;> simp [e1, e2]

/-- The specification of a history.  (Specification; no code.) -/
def Spec.run (a : Spec N E) (os : List (ROp N E)) : Spec N E := os.foldl Spec.step a

/-- Each call of the history names existing records.  (Specification; no code.) -/
def okAll (a : Spec N E) : List (ROp N E) → Prop
  | [] => True
  | o :: t => a.ok o ∧ okAll (a.step o) t

theorem sees_run : ∀ (os : List (ROp N E)) (s : Recs N E) (a : Spec N E), Sees s a → okAll a os →
    ∃ s', s.run os = some s' ∧ Sees s' (a.run os)
  | [], s, a, h, _ => ⟨s, rfl, h⟩
  | o :: t, s, a, h, ho => by
    obtain ⟨b, s', h1, h2, -⟩ := sees_step h o ho.1
    obtain ⟨s'', h3, h4⟩ := sees_run t s' _ h2 ho.2
    exact ⟨s'', by rw [Recs.run, h1]; exact h3, h4⟩

/-- After every history of constructors, copies, assignments, `Copy()`, `Add` and `Update` over any number of records: no call
fails, `Exists` and `Get` show in each record exactly the values of the specification (the value first added or last set through
this record or one that shares its values), and `Get` reports an absent name and a wrong type by the two exceptions. -/
theorem C72_records (os : List (ROp N E)) (ho : okAll Spec.init os) :
    ∃ s, (⟨[], []⟩ : Recs N E).run os = some s ∧
      ∀ r, r < (Spec.init.run os : Spec N E).size → ∀ n e ty,
        s.hasName r n = some ((Spec.init.run os).value r n).isSome ∧
        s.get e r n ty = some (match (Spec.init.run os).value r n with
          | none => .error .notFound
          | some (.leaf ty' f) => if ty' = ty then .ok (f e) else .error .typeMismatch
          | some (.nest _) => .error .typeMismatch) := by
  obtain ⟨s, h1, h2⟩ := sees_run os _ _ sees_init ho
  refine ⟨s, h1, fun r hr n e ty => ?_⟩
  obtain ⟨i, b, hi, hb⟩ := h2.get hr
  have hv := h2.value r i b hi hb n
  constructor
  · simp only [Recs.hasName, Recs.body, hi, hb, Option.bind_some, Option.map_some, Option.some.injEq, bodyExists]
    have hh := has_iff b n
    rw [hv] at hh
    cases hx : Stat.has b n <;> cases hy : ((Spec.init.run os).value r n).isSome <;> simp_all
  · simp only [Recs.get, Recs.body, hi, hb, Option.bind_some, Option.map_some, Option.some.injEq, bodyGet, hv]
    cases (Spec.init.run os).value r n with
    | none => rfl
    | some v =>
      cases v with
      | leaf ty' f => by_cases e : ty' = ty <;> simp [LV.get, e]
      | nest f => rfl

/-- `Add` tells whether the name was absent, and each single call does what the specification says, in every state that a history
reaches. -/
theorem C72_add (os : List (ROp N E)) (ho : okAll Spec.init os) (r : Nat) (n : N) (v : LV E)
    (hr : r < (Spec.init.run os : Spec N E).size) :
    ∃ s b s', (⟨[], []⟩ : Recs N E).run os = some s ∧ s.step (.add r n v) = some (b, s') ∧
      b = ((Spec.init.run os).value r n).isNone := by
  obtain ⟨s, h1, h2⟩ := sees_run os _ _ sees_init ho
  obtain ⟨b, s', h3, -, h4⟩ := sees_step h2 (.add r n v) hr
  exact ⟨s, b, s', h1, h3, h4 r n v rfl⟩

/-- Sharing, as the specification defines it, is an equivalence on the existing records. -/
theorem C72_share (os : List (ROp N E)) (ho : okAll Spec.init os) :
    let a := (Spec.init.run os : Spec N E)
    (∀ x, x < a.size → a.share x x = true) ∧
    (∀ x y, x < a.size → y < a.size → a.share x y = a.share y x) ∧
    (∀ x y z, x < a.size → y < a.size → z < a.size → a.share x y = true → a.share y z = true → a.share x z = true) ∧
    (∀ x y, x < a.size → y < a.size → a.share x y = true → a.value x = a.value y) := by
  intro a
  obtain ⟨s, h1, h2⟩ := sees_run os _ _ sees_init ho
  have g : ∀ x, x < a.size → ∃ i b, s.recs[x]? = some i ∧ s.bodies[i]? = some b := fun x hx => h2.get hx
  refine ⟨fun x hx => ?_, fun x y hx hy => ?_, fun x y z hx hy hz h h' => ?_, fun x y hx hy h => ?_⟩
  · obtain ⟨i, b, hi, -⟩ := g x hx
    exact (h2.share x x i i hi hi).mpr rfl
  · obtain ⟨i, b, hi, -⟩ := g x hx
    obtain ⟨j, c, hj, -⟩ := g y hy
    rw [Bool.eq_iff_iff]
    exact (h2.share x y i j hi hj).trans (eq_comm.trans (h2.share y x j i hj hi).symm)
  · obtain ⟨i, b, hi, -⟩ := g x hx
    obtain ⟨j, c, hj, -⟩ := g y hy
    obtain ⟨k, d, hk, -⟩ := g z hz
    exact (h2.share x z i k hi hk).mpr (((h2.share x y i j hi hj).mp h).trans ((h2.share y z j k hj hk).mp h'))
  · obtain ⟨i, b, hi, hb⟩ := g x hx
    obtain ⟨j, c, hj, hc⟩ := g y hy
    have e := (h2.share x y i j hi hj).mp h
    subst e
    rw [hb] at hc; cases hc
    funext n
    rw [← h2.value x i b hi hb n, ← h2.value y i b hj hb n]

/-- Record 1 is a copy of record 0, record 2 is made by `Copy()`: a value added through 1 is seen in 0 and not in 2. -/
example : let a : Spec Nat Unit := Spec.init.run [.new, .copy 0, .deep 0, .add 1 7 (.leaf 0 fun _ => 5)]
    a.value 0 7 = some (.leaf 0 fun _ => 5) ∧ a.value 2 7 = none ∧ okAll Spec.init
      ([.new, .copy 0, .deep 0, .add 1 7 (.leaf 0 fun _ => 5)] : List (ROp Nat Unit)) := by
  refine ⟨by rfl, by rfl, ?_⟩
  simp [okAll, Spec.ok, Spec.init, Spec.step, Spec.fresh, Spec.alias]

/-! ### C75 -/

/-- The pending value of a name after a history: the first one added or the last one set since its removal.
(Specification; no code.) -/
def pend (os : List (POp N E)) (n : N) : Option (LV E) :=
  os.foldl (fun acc o => match o with
    | .add m v => if m = n then acc.or (some v) else acc
    | .update m v => if m = n then some v else acc
    | .remove m => if m = n then none else acc) none

/-- What a pending value contributes at the time of `Fire`: a value of type `LogValue` is asked for its value.
(Specification; no code.) -/
def now (e : E) : LV E → LV E
  | .leaf ty f => .leaf ty f
  | .nest f => f e

theorem look_pool (os : List (POp N E)) (n : N) : look (poolRun os) n = (pend os n).map LV.normalize := by
  unfold poolRun pend
  have : ∀ (p : Items N (LV E)) (acc : Option (LV E)), look p n = acc.map LV.normalize →
      look (os.foldl poolStep p) n = (os.foldl (fun acc o => match o with
        | .add m v => if m = n then acc.or (some v) else acc
        | .update m v => if m = n then some v else acc
        | .remove m => if m = n then none else acc) acc).map LV.normalize := by
    induction os with
    | nil => intro p acc h; exact h
    | cons o os ih =>
      intro p acc h
      rw [List.foldl_cons, List.foldl_cons]
      apply ih
      cases o with
      | add m v =>
        simp only [poolStep, look_add, h]
        split
        · cases acc <;> rfl
        · rfl
      | update m v =>
        simp only [poolStep, look_update, h]
        split <;> rfl
      | remove m =>
        simp only [poolStep, look_erase, h]
        split <;> rfl
  exact this [] none rfl

theorem keys_setKey (b : Items N (LV E)) (n : N) (v : LV E) : (setKey b n v).map (·.1) = b.map (·.1) := by
  unfold setKey
  rw [List.map_map]
  apply List.map_congr_left
  intro e _
  simp only [Function.comp]
  split
  · rename_i h; exact h.symm
  · rfl

theorem nodup_snoc {b : Items N (LV E)} {n : N} {v : LV E} (h : (b.map (·.1)).Nodup) (hn : look b n = none) :
    ((b ++ [(n, v)]).map (·.1)).Nodup := by
  have := (Stat.look_none_iff b n).mp hn
  simp only [List.map_append, List.map_cons, List.map_nil]
  exact List.nodup_append.mpr ⟨h, by simp, by rintro a ha b hb rfl; simp at hb; subst hb; exact this ha⟩

theorem pool_nodup (os : List (POp N E)) : ((poolRun os).map (·.1)).Nodup := by
  unfold poolRun
  have : ∀ p : Items N (LV E), (p.map (·.1)).Nodup → ((os.foldl poolStep p).map (·.1)).Nodup := by
    induction os with
    | nil => intro p h; exact h
    | cons o os ih =>
      intro p h
      apply ih
      cases o with
      | add m v =>
        simp only [poolStep, bodyAdd]
        cases hl : look p m with
        | some _ => exact h
        | none => exact nodup_snoc h hl
      | update m v =>
        simp only [poolStep, bodyUpdate]
        cases hl : look p m with
        | some _ => dsimp only; rw [keys_setKey]; exact h
        | none => exact nodup_snoc h hl
      | remove m => exact h.sublist (List.filter_sublist.map _)
  exact this [] (by simp)

theorem look_perm {p q : Items N (LV E)} (h : p.Perm q) (hn : (p.map (·.1)).Nodup) (n : N) : look p n = look q n := by
  induction h with
  | nil => rfl
  | cons x _ ih =>
    rw [look_cons, look_cons, ih (List.nodup_cons.mp hn).2]
  | swap x y l =>
    simp only [List.map_cons, List.nodup_cons, List.mem_cons, not_or] at hn
    simp only [look_cons]
    by_cases h1 : y.1 = n
    · have : ¬ x.1 = n := fun h2 => hn.1.1 (h1.trans h2.symm)
      simp [h1, this]
    · simp [h1]
  | trans h1 _ ih1 ih2 => rw [ih1 hn, ih2 ((h1.map _).nodup_iff.mp hn)]

/-- `Apply` adds what is absent; with distinct names the order does not matter. -/
theorem apply_spec (e : E) : ∀ (p b : Items N (LV E)), (p.map (·.1)).Nodup → (∀ x ∈ p, ∃ f, x.2 = .nest f) →
    ∃ b', apply e p b = .ok b' ∧ ∀ n, look b' n = (look b n).or ((look p n).map (now e))
  | [], b, _, _ => ⟨b, rfl, fun n => by simp [look_nil]⟩
  | (m, v) :: t, b, hn, hv => by
    obtain ⟨f, hf⟩ := hv (m, v) (by simp)
    dsimp only at hf
    subst hf
    obtain ⟨hm, hn'⟩ := List.nodup_cons.mp hn
    obtain ⟨b', h1, h2⟩ := apply_spec e t (bodyAdd b m (f e)).2 hn' (fun x hx => hv x (by simp [hx]))
    refine ⟨b', by simp only [apply, LV.getValue]; exact h1, fun n => ?_⟩
    rw [h2, look_add, look_cons]
    by_cases hmn : m = n
    · subst hmn
      have : look t m = none := (Stat.look_none_iff t m).mpr hm
      simp [this, now]
    · simp [hmn]

theorem pool_nest (os : List (POp N E)) (x : N × LV E) (hx : x ∈ poolRun os) : ∃ f, x.2 = LV.nest f := by
  have h := look_pool os x.1
  have hl : look (poolRun os) x.1 = some x.2 := by
    have := pool_nodup os
    revert hx this
    generalize poolRun os = p
    intro hx hn
    induction p with
    | nil => cases hx
    | cons y p ih =>
      obtain ⟨h1, h2⟩ := List.nodup_cons.mp hn
      rw [look_cons]
      rcases List.mem_cons.mp hx with rfl | hx
      · simp
      · rw [if_neg, ih hx h2]
        intro hy
        exact h1 (List.mem_map.mpr ⟨x, hx, hy.symm⟩)
  rw [hl] at h
  cases hp : pend os x.1 with
  | none => rw [hp] at h; cases h
  | some v =>
    rw [hp] at h
    simp only [Option.map_some, Option.some.injEq] at h
    rw [h]
    cases v with
    | leaf ty f => exact ⟨_, rfl⟩
    | nest f => exact ⟨_, rfl⟩

/-- After every history of records and of pending values (in whatever order the hash map enumerates them), `Fire` raises no
exception; the record then shows its own values, and the pending value for each other name; it is handed to the sinks exactly
when there is no filter or the filter accepts that record. -/
theorem C75_fire (ros : List (ROp N E)) (hro : okAll Spec.init ros) (pos : List (POp N E)) (ord : Items N (LV E))
    (hord : ord.Perm (poolRun pos)) (e : E) (filter : Option (E → Items N (LV E) → Bool))
    (r : Nat) (hr : r < (Spec.init.run ros : Spec N E).size) :
    ∃ s s' acc b', (⟨[], []⟩ : Recs N E).run ros = some s ∧ fire e ord filter s r = some (.ok (acc, s')) ∧
      s'.body r = some b' ∧
      (∀ n, look b' n = ((Spec.init.run ros).value r n).or ((pend pos n).map (now e))) ∧
      (acc = true ↔ ∀ f, filter = some f → f e b' = true) := by
  obtain ⟨s, h1, h2⟩ := sees_run ros _ _ sees_init hro
  obtain ⟨i, b, hi, hb⟩ := h2.get hr
  have hnd := (hord.map (·.1)).nodup_iff.mpr (pool_nodup pos)
  obtain ⟨b', h3, h4⟩ := apply_spec e ord b hnd (fun x hx => pool_nest pos x (hord.mem_iff.mp hx))
  refine ⟨s, { s with bodies := s.bodies.set i b' }, (match filter with | some f => f e b' | none => true), b', h1, by simp only [fire, hi, hb, Option.bind_some, Option.map_some, h3]; cases filter <;> rfl,
    ?_, fun n => ?_, ?_⟩
  · have : i < s.bodies.length := (List.getElem?_eq_some_iff.mp hb).1
    simp [Recs.body, hi, this]
  · rw [h4, h2.value r i b hi hb n, look_perm hord hnd, look_pool]
    congr 1
    cases pend pos n with
    | none => rfl
    | some v => cases v <;> rfl
  · cases filter with
    | none => simp
    | some f => simp

/-- The sinks that `Fire` of the logger's event then calls: every connected one exactly once, in cookie order. -/
theorem C75_sinks {cap : Nat} (hcap : cap < 2 ^ 32) {σ : Type} {t : Event.Table σ} (hr : Event.Reachable cap t) :
    Event.fireArgs cap (fun _ _ => []) (cap + 1) t = .done (Event.liveCookies cap t) t ∧
      ∀ c, c ∈ Event.liveCookies cap t ↔ (Event.sinkAt t c).isSome :=
  ⟨(Event.C34_fire hcap hr _ (fun _ _ => rfl) (cap + 1) (by omega)).2.1, Event.liveCookies_complete hcap hr⟩

/-- A pending value `9` for name 1 is added only where the record has none; name 0 keeps its own value. -/
example : (fire () (poolRun [.add 0 (.leaf 0 fun _ => 8), .add 1 (.leaf 0 fun _ => 9)]) none
      (⟨[[(0, .leaf 0 fun _ => 3)]], [0]⟩ : Recs Nat Unit) 0).map (fun x => match x with
        | .ok (acc, s) => (acc, s.get () 0 0 0, s.get () 0 1 0)
        | .error _ => (false, none, none)) =
    some (true, some (.ok 3), some (.ok 9)) := by rfl

/-! ### C88 -/

/-- The caller's record keeps its values exactly if every pending name is one of its names already. -/
theorem C88_caller_iff (ros : List (ROp N E)) (hro : okAll Spec.init ros) (pos : List (POp N E)) (ord : Items N (LV E))
    (hord : ord.Perm (poolRun pos)) (e : E) (filter : Option (E → Items N (LV E) → Bool))
    (r : Nat) (hr : r < (Spec.init.run ros : Spec N E).size) :
    ∃ s s' acc b', (⟨[], []⟩ : Recs N E).run ros = some s ∧ fire e ord filter s r = some (.ok (acc, s')) ∧
      s'.body r = some b' ∧
      ((∀ n, look b' n = (Spec.init.run ros).value r n) ↔
        ∀ n, (pend pos n).isSome → ((Spec.init.run ros).value r n).isSome) := by
  obtain ⟨s, h1, h2⟩ := sees_run ros _ _ sees_init hro
  obtain ⟨i, b, hi, hb⟩ := h2.get hr
  have hnd := (hord.map (·.1)).nodup_iff.mpr (pool_nodup pos)
  obtain ⟨b', h3, h4⟩ := apply_spec e ord b hnd (fun x hx => pool_nest pos x (hord.mem_iff.mp hx))
  refine ⟨s, { s with bodies := s.bodies.set i b' }, (match filter with | some f => f e b' | none => true), b', h1, by simp only [fire, hi, hb, Option.bind_some, Option.map_some, h3]; cases filter <;> rfl,
    ?_, ?_⟩
  · have : i < s.bodies.length := (List.getElem?_eq_some_iff.mp hb).1
    simp [Recs.body, hi, this]
  · have key : ∀ n, look b' n = ((Spec.init.run ros).value r n).or ((pend pos n).map (now e)) := by
      intro n
      rw [h4, h2.value r i b hi hb n, look_perm hord hnd, look_pool]
      congr 1
      cases pend pos n with
      | none => rfl
      | some v => cases v <;> rfl
    constructor
    · intro h n hp
      have := h n
      rw [key] at this
      cases hv : (Spec.init.run ros).value r n with
      | some _ => rfl
      | none =>
        rw [hv] at this
        cases hq : pend pos n with
        | none => rw [hq] at hp; cases hp
        | some w => rw [hq] at this; simp at this
    · intro h n
      rw [key]
      cases hv : (Spec.init.run ros).value r n with
      | some _ => rfl
      | none =>
        cases hq : pend pos n with
        | none => rfl
        | some w => have := h n (by rw [hq]; rfl); rw [hv] at this; cases this

/-- The record of the caller does not keep its values: one pending value, an empty record, a filter that rejects everything. -/
theorem C88_fails : ∃ (s s' : Recs Nat Unit), s.hasName 0 1 = some false ∧
    fire () (poolRun [.add 1 (.leaf 0 fun _ => 9)]) (some fun _ _ => false) s 0 = some (.ok (false, s')) ∧
    s'.hasName 0 1 = some true :=
  ⟨⟨[[]], [0]⟩, ⟨[[(1, .leaf 0 fun _ => 9)]], [0]⟩, by rfl, by rfl, by rfl⟩

/-! ### C89 -/

/-- The streams and files in the order in which they were added.  (Specification; no code.) -/
def added : Nat → List StOp → List (Nat ⊕ Nat)
  | _, [] => []
  | f, .addStream k :: t => .inl k :: added f t
  | f, .addFile :: t => .inr f :: added (f + 1) t

/-- A record is formatted exactly once on each stream and file, in the order of their addition, provided that at most one file was
added.  Missing: several files. -/
theorem C89_streams_partial (grow : Nat → Nat) (os : List StOp) (h : os.countP (· = .addFile) ≤ 1) :
    (Streams.run grow os).write (Streams.run grow os).ptrs = some (added 0 os) := by
  -- without further files the pointers stay as they are
  have none_ : ∀ (os : List StOp) (s : Streams), os.countP (· = .addFile) = 0 →
      os.foldl (Streams.step grow) s =
        { s with ptrs := s.ptrs ++ os.filterMap fun | .addStream k => some (.user k) | .addFile => none } := by
    intro os
    induction os with
    | nil => intro s _; simp
    | cons o t ih =>
      intro s h
      cases o with
      | addStream k =>
        rw [List.foldl_cons, ih _ (by simpa using h)]
        simp [Streams.step]
      | addFile => simp at h
  have wr : ∀ (s : Streams) (l l' : List StreamPtr) (a a' : List (Nat ⊕ Nat)), s.write l = some a → s.write l' = some a' →
      s.write (l ++ l') = some (a ++ a') := by
    intro s l
    induction l with
    | nil => intro l' a a' h h'; simp only [Streams.write, Option.some.injEq] at h; subst h; exact h'
    | cons p l ih =>
      intro l' a a' h h'
      cases p with
      | user k =>
        simp only [Streams.write, Option.map_eq_some_iff] at h
        obtain ⟨w, h, rfl⟩ := h
        simp [Streams.write, ih l' w a' h h']
      | file g i =>
        simp only [Streams.write] at h
        split at h
        · rename_i hg
          simp only [Option.map_eq_some_iff] at h
          obtain ⟨w, h, rfl⟩ := h
          simp [Streams.write, ih l' w a' h h', hg]
        · cases h
  have users : ∀ (os : List StOp) (s : Streams) (f : Nat), os.countP (· = .addFile) = 0 →
      s.write (os.filterMap fun | .addStream k => some (.user k) | .addFile => none) = some (added f os) := by
    intro os s
    induction os with
    | nil => intro f _; rfl
    | cons o t ih =>
      intro f h
      cases o with
      | addStream k => simp [Streams.write, added, ih f (by simpa using h)]
      | addFile => simp at h
  have gen : ∀ (os : List StOp) (s : Streams) (a : List (Nat ⊕ Nat)), s.files = 0 → s.cap = 0 →
      (∀ s' : Streams, s'.write s.ptrs = some a) →
      os.countP (· = .addFile) ≤ 1 →
      (os.foldl (Streams.step grow) s).write (os.foldl (Streams.step grow) s).ptrs = some (a ++ added 0 os) := by
    intro os
    induction os with
    | nil => intro s a _ _ hw _; simp [added, hw]
    | cons o t ih =>
      intro s a hf hc hw h
      rw [List.foldl_cons]
      cases o with
      | addStream k =>
        have := ih (s.step grow (.addStream k)) (a ++ [.inl k]) hf hc (fun s' => wr s' _ _ _ _ (hw s') (by rfl)) (by simpa using h)
        rw [this]; simp [added]
      | addFile =>
        have ht : t.countP (· = .addFile) = 0 := by simpa using h
        rw [none_ t _ ht]
        dsimp only
        have hs : s.step grow .addFile = ⟨s.ptrs ++ [.file (s.gen + 1) 0], 1, max 1 (grow s.cap), s.gen + 1⟩ := by
          simp [Streams.step, hf, hc]
        rw [hs]
        dsimp only
        rw [List.append_assoc]
        refine wr _ _ _ _ _ (hw _) ?_
        simp only [added]
        refine wr _ [_] _ [_] _ (by simp [Streams.write]) (users t _ 1 ht)
  exact gen os .init [] rfl rfl (fun _ => rfl) h

/-- For every growth policy some number of added files leaves pointers into the former allocation; with the policy of doubling two
files suffice. -/
theorem C89_two_files_fails (grow : Nat → Nat) :
    (∃ n, (Streams.run grow (List.replicate (n + 1) .addFile)).write
      (Streams.run grow (List.replicate (n + 1) .addFile)).ptrs = none) ∧
    (Streams.run (2 * ·) [.addFile, .addFile]).write (Streams.run (2 * ·) [.addFile, .addFile]).ptrs = none := by
  refine ⟨?_, by rfl⟩
  -- fill the first allocation exactly, then add one more
  have fill : ∀ k, 1 ≤ k → k ≤ max 1 (grow 0) → ∃ p, Streams.run grow (List.replicate k .addFile) =
      ⟨.file 1 0 :: p, k, max 1 (grow 0), 1⟩ := by
    intro k
    induction k with
    | zero => intro h; omega
    | succ k ih =>
      intro _ h
      have e : Streams.run grow (List.replicate (k + 1) .addFile) =
          (Streams.run grow (List.replicate k .addFile)).step grow .addFile := by
        rw [List.replicate_succ']; simp [Streams.run]
      by_cases hk : k = 0
      · subst hk; exact ⟨[], by simp [Streams.run, Streams.step, Streams.init]⟩
      · obtain ⟨p, hp⟩ := ih (by omega) (by omega)
        refine ⟨p ++ [.file 1 k], ?_⟩
        rw [e, hp]
        simp only [Streams.step]
        rw [if_pos (by omega)]
        rfl
  obtain ⟨p, hp⟩ := fill (max 1 (grow 0)) (by omega) (by omega)
  refine ⟨max 1 (grow 0), ?_⟩
  have e : Streams.run grow (List.replicate (max 1 (grow 0) + 1) .addFile) =
      (Streams.run grow (List.replicate (max 1 (grow 0)) .addFile)).step grow .addFile := by
    rw [List.replicate_succ']; simp [Streams.run]
  rw [e, hp]
  simp only [Streams.step]
  rw [if_neg (by omega)]
  simp [Streams.write]

example : (Streams.run (2 * ·) [.addStream 4, .addFile, .addStream 5]).write
    (Streams.run (2 * ·) [.addStream 4, .addFile, .addStream 5]).ptrs = some [.inl 4, .inr 0, .inl 5] := by decide

end Verif.Log
