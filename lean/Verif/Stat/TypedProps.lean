import Verif.Stat.Typed
import Verif.Stat.ProbeProps
import Mathlib.Algebra.Order.Ring.Rat
import Verif.Ptr.HeapLemmas
/-
C165: what collectors of statistics get, and which collectors are accepted.
-/
namespace Verif.Stat.Typed
open Verif.Event (Table fireVoid fireArgs Outcome Reachable sinkAt liveCookies)
open Verif.Stat.Feed (Conn sinkOf)
variable {N V : Type} [DecidableEq N]

/-- What the calls and their results tell: the open connections (statistic, cookie, collector), the kinds of the statistics, the kinds
that each collector understands, and for each collector the calls that it must have got, each with the kind of the statistic that fired. -/
structure Seen (V : Type) where
  live : List Conn
  kind : Nat → Nat
  cols : List (List Nat)
  calls : Nat → List (Nat × V)

/-- Reading a call with its result.  A value fired by a statistic counts once for each connection that is open from it to the collector. -/
def see (a : Seen V) : Op N V × Res → Seen V
  | (.add _ _ k, .made p) => { a with kind := Function.update a.kind p k }
  | (.collector ks, .ok) => { a with cols := a.cols ++ [ks] }
  | (.connect _ _ (some j), .cookie p k) => { a with live := a.live ++ [(p, k, j)] }
  | (.disconnect _ _ k, .dropped p) => { a with live := a.live.filter fun e => ¬(e.1 = p ∧ e.2.1 = k) }
  | (.fire _ v, .fired p) =>
    { a with calls := fun j => a.calls j ++ List.replicate (a.live.countP fun e => e.1 = p ∧ e.2.2 = j) (a.kind p, v) }
  | _ => a

/-- Reading a history. -/
def seen (h : List (Op N V × Res)) : Seen V := h.foldl see ⟨[], fun _ => 0, [], fun _ => []⟩

/-- The calls of `MergeFrom` really enumerate, with an injective prefix. -/
def Ok (s : Net N V) : Op N V → Prop
  | .merge _ f d names => Order (s.conts d) names ∧ Function.Injective f
  | _ => True

/-- Histories. -/
inductive Ran (cap : Nat) : List (Op N V × Res) → Net N V → Prop
  | nil : Ran cap [] Net.init
  | snoc {h : List (Op N V × Res)} {s : Net N V} (o : Op N V) : Ran cap h s → Ok s o → Ran cap (h ++ [(o, (s.step cap o).1)]) (s.step cap o).2

/-- What holds between the state and what the history has told. -/
structure Inv (cap : Nat) (s : Net N V) (a : Seen V) : Prop where
  reach : ∀ p t, s.stats[p]? = some t → Reachable cap t.tab ∧ t.kind = a.kind p
  sound : ∀ p k j, (p, k, j) ∈ a.live ↔ ∃ t, s.stats[p]? = some t ∧ sinkAt t.tab k = some j
  nodup : a.live.Nodup
  fits : ∀ p k j, (p, k, j) ∈ a.live → a.kind p ∈ s.cols.getD j []
  cols : s.cols = a.cols
  uniq : Uniq s.conts
  names : ∀ c n p, get (s.conts c) n = some p → p < s.stats.length
  calls : ∀ j, (s.got.filter fun e => e.1 = j).map (·.2) = a.calls j
  typed : ∀ j k v, (j, k, v) ∈ s.got → k ∈ s.cols.getD j []

theorem inv_init (cap : Nat) : Inv cap (Net.init : Net N V) ⟨[], fun _ => 0, [], fun _ => []⟩ where
  reach p t h := by simp [Net.init] at h
  sound p k j := by simp [Net.init]
  nodup := List.nodup_nil
  fits := by simp
  cols := rfl
  uniq i := by simp [Net.init]
  names := by simp [Net.init, get, look]
  calls := by simp [Net.init]
  typed := by simp [Net.init]

theorem names_step {st : Nat → Items N Nat} {L : Nat} (hu : Uniq st) (hn : ∀ c n p, get (st c) n = some p → p < L)
    (o : COp N Nat) (ho : COk st o) (hv : ∀ i n v, o = .add i n v → v < L)
    {b : Bool} {st' : Nat → Items N Nat} (h : cstep st o = some (b, st')) :
    Uniq st' ∧ ∀ c n p, get (st' c) n = some p → p < L :=
  Feed.names_step (s := (⟨[], st, []⟩ : Feed.Net N ℚ)) hu hn o ho hv h

theorem get_setStat {l : List Statistic} {p : Nat} {t : Statistic} (h : l[p]? = some t) (u : Statistic) (q : Nat) :
    (l.set p u)[q]? = if q = p then some u else l[q]? := by
  have hp : p < l.length := by
    rcases Nat.lt_or_ge p l.length with g | g
    · exact g
    · rw [List.getElem?_eq_none g] at h; cases h
  rw [List.getElem?_set]
  by_cases e : p = q
  · subst e; simp [hp]
  · rw [if_neg e, if_neg (fun w => e w.symm)]

theorem stat_of {s : Net N V} {a : Seen V} {cap : Nat} (w : Inv cap s a) {c : Nat} {n : N} {p : Nat} (h : get (s.conts c) n = some p) :
    ∃ t, s.stats[p]? = some t := ⟨_, List.getElem?_eq_getElem (w.names c n p h)⟩

theorem getD_snoc {cols : List (List Nat)} {j k : Nat} (ks : List Nat) (h : k ∈ cols.getD j []) : k ∈ (cols ++ [ks]).getD j [] := by
  rw [List.getD_eq_getElem?_getD] at h ⊢
  rcases Nat.lt_or_ge j cols.length with g | g
  · rwa [List.getElem?_append_left g]
  · rw [List.getElem?_eq_none g] at h; simp at h

theorem fire_eq {cap : Nat} (hcap : cap < 2 ^ 32) {t : Statistic} (hr : Reachable cap t.tab) : t.fire cap = .done (liveCookies cap t.tab) t.tab := by
  obtain ⟨h1, h2, -⟩ := Verif.Event.C34_fire hcap hr (fun _ _ => []) (fun _ _ => rfl) (cap + 1) (by omega)
  unfold Statistic.fire
  split
  · exact h1
  · exact h2

theorem set_self {l : List Statistic} {p : Nat} {t : Statistic} (h : l[p]? = some t) : l.set p t = l := by
  apply List.ext_getElem?
  intro q
  rw [get_setStat h]
  split
  · rename_i e; rw [e, h]
  · rfl

theorem step_inv {cap : Nat} (hcap : cap < 2 ^ 32) {s : Net N V} {a : Seen V} (w : Inv cap s a) (o : Op N V) (ho : Ok s o) :
    Inv cap (s.step cap o).2 (see a (o, (s.step cap o).1)) := by
  cases o with
  | add c n kind =>
    simp only [Net.step]
    cases hl : look (s.conts c) n with
    | some q => exact w
    | none =>
      obtain ⟨h1, h2⟩ := names_step (st := s.conts) (L := s.stats.length + 1) w.uniq
        (fun c n p h => Nat.lt_succ_of_lt (w.names c n p h)) (.add c n s.stats.length) trivial
        (by rintro i n v ⟨⟩; omega) (b := true) (st' := Function.update s.conts c (Verif.Stat.add (s.conts c) n s.stats.length).2)
        (by simp [cstep, Verif.Stat.add, hl])
      have old : ∀ p k j, (p, k, j) ∈ a.live → p < s.stats.length := by
        intro p k j h
        obtain ⟨t, ht, -⟩ := (w.sound p k j).mp h
        exact Verif.Heap.lt_of_get ht
      refine ⟨?_, ?_, w.nodup, ?_, w.cols, h1, ?_, w.calls, w.typed⟩
      · intro p t h
        simp only [see] at h ⊢
        rcases Nat.lt_or_ge p s.stats.length with g | g
        · rw [List.getElem?_append_left g] at h
          rw [Function.update_of_ne (by omega)]
          exact w.reach p t h
        · rw [List.getElem?_append_right g] at h
          by_cases e : p = s.stats.length
          · subst e
            simp at h; subst h
            exact ⟨⟨[], rfl⟩, by simp⟩
          · rw [List.getElem?_eq_none (by simp; omega)] at h; cases h
      · intro p k j
        simp only [see]
        rw [w.sound]
        rcases Nat.lt_or_ge p s.stats.length with g | g
        · rw [List.getElem?_append_left g]
        · rw [List.getElem?_append_right g, List.getElem?_eq_none g]
          constructor
          · rintro ⟨t, ht, -⟩; cases ht
          · rintro ⟨t, ht, hk⟩
            by_cases e : p = s.stats.length
            · subst e
              simp at ht; subst ht
              simp [sinkAt, Table.getSink, Table.init] at hk
            · rw [List.getElem?_eq_none (by simp; omega)] at ht; cases ht
      · intro p k j h
        simp only [see] at h ⊢
        rw [Function.update_of_ne (by have := old p k j h; omega)]
        exact w.fits p k j h
      · intro c n p h
        simp only [List.length_append, List.length_singleton]
        exact h2 c n p h
  | erase c n =>
    obtain ⟨h1, h2⟩ := names_step (st := s.conts) (L := s.stats.length) w.uniq w.names (.erase c n) trivial
      (by rintro i n v ⟨⟩) (b := true) (st' := Function.update s.conts c (Verif.Stat.erase (s.conts c) n)) rfl
    exact ⟨w.reach, w.sound, w.nodup, w.fits, w.cols, h1, h2, w.calls, w.typed⟩
  | merge c f d names =>
    simp only [Net.step]
    cases hm : mergeLoop f (s.conts d) names (s.conts c) with
    | none => exact w
    | some items =>
      obtain ⟨h1, h2⟩ := names_step (st := s.conts) (L := s.stats.length) w.uniq w.names (.merge c f d names) ho
        (by rintro i n v ⟨⟩) (b := true) (st' := Function.update s.conts c items) (by simp [cstep, hm])
      exact ⟨w.reach, w.sound, w.nodup, w.fits, w.cols, h1, h2, w.calls, w.typed⟩
  | collector ks =>
    refine ⟨w.reach, w.sound, w.nodup, fun p k j h => getD_snoc ks (w.fits p k j h), ?_, w.uniq, w.names, w.calls,
      fun j k v h => getD_snoc ks (w.typed j k v h)⟩
    simp only [Net.step, see]; rw [w.cols]
  | connect c n j =>
    simp only [Net.step]
    cases hg : get (s.conts c) n with
    | none => cases j <;> exact w
    | some p =>
      obtain ⟨t, ht⟩ := stat_of w hg
      obtain ⟨hr, hk⟩ := w.reach p t ht
      dsimp only
      rw [ht]
      dsimp only
      cases j with
      | none =>
        have e : t.connect cap s.cols p none = (.invalidPointer, t) := by
          simp only [Statistic.connect, convert, (Verif.Event.C35_connect_refused hcap hr 0).1, if_true]
        rw [e]
        dsimp only
        rw [set_self ht]
        exact w
      | some j =>
        by_cases hc : t.kind ∈ s.cols.getD j []
        · by_cases hroom : t.tab.getNumSinks < cap
          · obtain ⟨k, t', h1, h2, h3, h4, h5, h6, h7⟩ := Verif.Event.C35_connect hcap hr j hroom
            have e : t.connect cap s.cols p (some j) = (.cookie p k, { t with tab := t' }) := by
              simp only [Statistic.connect, convert, if_pos hc, h1]
            rw [e]
            dsimp only [see]
            refine ⟨?_, ?_, ?_, ?_, w.cols, w.uniq, ?_, w.calls, w.typed⟩
            · intro q u hu
              simp only at hu ⊢
              rw [get_setStat ht] at hu
              split at hu
              · rename_i e; subst e; cases hu; exact ⟨h7, hk⟩
              · exact w.reach q u hu
            · intro q k' j'
              simp only [List.mem_append, List.mem_singleton, Prod.mk.injEq]
              rw [get_setStat ht, w.sound]
              by_cases e : q = p
              · subst e
                rw [if_pos rfl]
                constructor
                · rintro (⟨u, hu, hs⟩ | ⟨-, rfl, rfl⟩)
                  · refine ⟨_, rfl, ?_⟩
                    rw [ht] at hu; cases hu
                    simp only [h5]
                    rw [if_neg, hs]
                    rintro rfl; rw [h4] at hs; cases hs
                  · exact ⟨_, rfl, by simp [h5]⟩
                · rintro ⟨u, hu, hs⟩
                  cases hu
                  simp only [h5] at hs
                  split at hs
                  · rename_i e; subst e; cases hs; exact .inr ⟨rfl, rfl, rfl⟩
                  · exact .inl ⟨t, ht, hs⟩
              · rw [if_neg e]
                constructor
                · rintro (h | h)
                  · exact h
                  · exact absurd h.1 e
                · exact .inl
            · refine List.nodup_append.mpr ⟨w.nodup, by simp, ?_⟩
              rintro x hx b hb rfl
              simp only [List.mem_singleton] at hb; subst hb
              obtain ⟨u, hu, hs⟩ := (w.sound _ _ _).mp hx
              rw [ht] at hu; cases hu
              rw [h4] at hs; cases hs
            · intro q k' j' h
              simp only [List.mem_append, List.mem_singleton, Prod.mk.injEq] at h
              rcases h with h | ⟨rfl, rfl, rfl⟩
              · exact w.fits q k' j' h
              · rw [← hk]; exact hc
            · intro c n q h
              simp only [List.length_set]
              exact w.names c n q h
          · have hle := (Verif.Event.C35_count hcap hr).2.1
            have hl := (Verif.Event.C35_connect_refused hcap hr j).2.mpr (by omega)
            have e : t.connect cap s.cols p (some j) = (.limit, t) := by
              simp only [Statistic.connect, convert, if_pos hc, hl]; simp
            rw [e]
            dsimp only
            rw [set_self ht]
            exact w
        · have e : t.connect cap s.cols p (some j) = (.noInterface, t) := by
            simp only [Statistic.connect, convert, if_neg hc]
          rw [e]
          dsimp only
          rw [set_self ht]
          exact w
  | disconnect c n k =>
    simp only [Net.step]
    cases hg : get (s.conts c) n with
    | none => exact w
    | some p =>
      obtain ⟨t, ht⟩ := stat_of w hg
      obtain ⟨hr, hk⟩ := w.reach p t ht
      dsimp only
      rw [ht]
      obtain ⟨h1, -, h3⟩ := Verif.Event.C35_disconnect hcap hr k
      dsimp only [see]
      refine ⟨?_, ?_, w.nodup.filter _, fun q k' j' h => w.fits q k' j' (List.mem_filter.mp h).1, w.cols, w.uniq, ?_, w.calls, w.typed⟩
      · intro q u hu
        simp only at hu ⊢
        rw [get_setStat ht] at hu
        split at hu
        · rename_i e; subst e; cases hu; exact ⟨h3, hk⟩
        · exact w.reach q u hu
      · intro q k' j'
        simp only [List.mem_filter, decide_eq_true_eq]
        rw [get_setStat ht, w.sound]
        by_cases e : q = p
        · subst e
          rw [if_pos rfl]
          constructor
          · rintro ⟨⟨u, hu, hs⟩, hne⟩
            rw [ht] at hu; cases hu
            refine ⟨_, rfl, ?_⟩
            simp only [h1]
            rw [if_neg (fun e => hne ⟨rfl, e⟩), hs]
          · rintro ⟨u, hu, hs⟩
            cases hu
            simp only [h1] at hs
            split at hs
            · cases hs
            · rename_i hne
              exact ⟨⟨t, ht, hs⟩, fun e => hne e.2⟩
        · rw [if_neg e]
          simp [e]
      · intro c n q h
        simp only [List.length_set]
        exact w.names c n q h
  | fire p v =>
    simp only [Net.step]
    cases ht : s.stats[p]? with
    | none => exact w
    | some t =>
      obtain ⟨hr, hk⟩ := w.reach p t ht
      dsimp only
      rw [fire_eq hcap hr]
      dsimp only [see]
      have hs : ∀ k j, (p, k, j) ∈ a.live ↔ sinkAt t.tab k = some j := by
        intro k j
        rw [w.sound]
        constructor
        · rintro ⟨u, hu, h⟩; rw [ht] at hu; cases hu; exact h
        · intro h; exact ⟨t, ht, h⟩
      have hcount := fun j => Feed.count_live hcap hr w.nodup p hs j
      have e : s.stats.set p { t with tab := t.tab } = s.stats := set_self ht
      rw [e]
      refine ⟨w.reach, w.sound, w.nodup, w.fits, w.cols, w.uniq, w.names, ?_, ?_⟩
      · intro j
        simp only [List.filter_append, List.map_append]
        rw [w.calls j, ← hcount j, ← hk]
        congr 1
        generalize (liveCookies cap t.tab).filterMap (sinkOf t.tab) = l
        induction l with
        | nil => rfl
        | cons i l ih =>
          rw [List.map_cons, List.filter_cons, List.count_cons]
          by_cases e : i = j
          · subst e
            simp only [decide_true, if_true, List.map_cons, ih, beq_self_eq_true, List.replicate_succ]
          · simp only [e, decide_false, Bool.false_eq_true, if_false, ih, beq_iff_eq, Nat.add_zero]
      · intro j k u h
        simp only [List.mem_append, List.mem_map] at h
        rcases h with h | ⟨i, hi, e⟩
        · exact w.typed j k u h
        · injection e with e1 e2
          injection e2 with e2 e3
          subst e1; subst e2
          obtain ⟨k', -, hk'⟩ := List.mem_filterMap.mp hi
          have : sinkAt t.tab k' = some i := by
            unfold sinkOf at hk'; unfold sinkAt
            cases h : t.tab.getSink k' <;> rw [h] at hk' <;> exact hk'
          rw [hk]
          exact w.fits p k' i ((hs k' i).mpr this)

theorem Ran.inv {cap : Nat} (hcap : cap < 2 ^ 32) {h : List (Op N V × Res)} {s : Net N V} (r : Ran cap h s) : Inv cap s (seen h) := by
  induction r with
  | nil => exact inv_init cap
  | snoc o _ ho ih =>
    rw [seen, List.foldl_append]
    exact step_inv hcap ih o ho

/-- **C165.**  After any history each collector has got exactly the calls that the history tells: for every value that was fired by a
statistic, one call for each connection that was open at that time from the statistic to the collector, with that value, through
the interface of the statistic's kind, in the order of firing. -/
theorem typed_calls {cap : Nat} (hcap : cap < 2 ^ 32) {h : List (Op N V × Res)} {s : Net N V} (r : Ran cap h s) (j : Nat) :
    (s.got.filter fun e => e.1 = j).map (·.2) = (seen h).calls j := (r.inv hcap).calls j

/-- **C165.**  No collector is called through an interface that it does not provide. -/
theorem typed_safe {cap : Nat} (hcap : cap < 2 ^ 32) {h : List (Op N V × Res)} {s : Net N V} (r : Ran cap h s) (j k : Nat) (v : V)
    (hv : (j, k, v) ∈ s.got) : ∃ ks, (seen h).cols[j]? = some ks ∧ k ∈ ks := by
  have w := r.inv hcap
  have := w.typed j k v hv
  rw [w.cols, List.getD_eq_getElem?_getD] at this
  cases e : (seen h).cols[j]? with
  | none => rw [e] at this; simp at this
  | some ks => exact ⟨ks, rfl, by rw [e] at this; exact this⟩

/-- The statistic that a name means. -/
def Names (s : Net N V) (c : Nat) (n : N) (p : Nat) : Prop := get (s.conts c) n = some p

/-- **C165.**  `Connect`, after any history: an unknown name is refused; a null pointer and an object without the sink interface of the
statistic's kind are refused, each with its exception; a statistic with as many connections as it can have refuses; every other
collector is connected, with a cookie that no open connection of the statistic has. -/
theorem typed_connect {cap : Nat} (hcap : cap < 2 ^ 32) {h : List (Op N V × Res)} {s : Net N V} (r : Ran cap h s) (c : Nat) (n : N) :
    (has (s.conts c) n = false → ∀ j, s.step cap (.connect c n j) = (.refused, s)) ∧
    ∀ p, Names s c n p →
      s.step cap (.connect c n none) = (.invalidPointer, s) ∧
      ∀ j, (s.step cap (.connect c n (some j))).1 = .noInterface ∧ (s.step cap (.connect c n (some j))).2 = s ∧
            (¬ ∃ ks, (seen h).cols[j]? = some ks ∧ (seen h).kind p ∈ ks) ∨
          (s.step cap (.connect c n (some j))).1 = .limit ∧ (s.step cap (.connect c n (some j))).2 = s ∧
            ((seen h).live.filter fun e => e.1 = p).length = cap ∧ (∃ ks, (seen h).cols[j]? = some ks ∧ (seen h).kind p ∈ ks) ∨
          (∃ k, (s.step cap (.connect c n (some j))).1 = .cookie p k ∧ k ≠ 0 ∧ ∀ i, (p, k, i) ∉ (seen h).live) ∧
            ((seen h).live.filter fun e => e.1 = p).length < cap ∧ ∃ ks, (seen h).cols[j]? = some ks ∧ (seen h).kind p ∈ ks := by
  have w := r.inv hcap
  refine ⟨?_, ?_⟩
  · intro hh j
    have hl : get (s.conts c) n = none := by
      rw [get, ← Option.not_isSome_iff_eq_none, ← has_iff, hh]; simp
    simp only [Net.step, hl]
  · intro p hg
    have hg : get (s.conts c) n = some p := hg
    obtain ⟨t, ht⟩ := stat_of w hg
    obtain ⟨hr, hk⟩ := w.reach p t ht
    have st : ∀ j, s.step cap (.connect c n j) =
        ((t.connect cap s.cols p j).1, { s with stats := s.stats.set p (t.connect cap s.cols p j).2 }) := by
      intro j; simp only [Net.step, hg, ht]
    have und : ∀ j, (∃ ks, (seen h).cols[j]? = some ks ∧ (seen h).kind p ∈ ks) ↔ t.kind ∈ s.cols.getD j [] := by
      intro j
      rw [w.cols, List.getD_eq_getElem?_getD, hk]
      cases (seen h).cols[j]? with
      | none => simp
      | some ks => simp
    have hs : ∀ k j, (p, k, j) ∈ (seen h).live ↔ sinkAt t.tab k = some j := by
      intro k j
      rw [w.sound]
      constructor
      · rintro ⟨u, hu, h⟩; rw [ht] at hu; cases hu; exact h
      · intro h; exact ⟨t, ht, h⟩
    have hnum : t.tab.getNumSinks = ((seen h).live.filter fun e => e.1 = p).length := by
      obtain ⟨h0, -, h3⟩ := Verif.Event.C35_count hcap hr
      rw [h0]
      have hinc := (Verif.Event.C34_fire hcap hr (fun _ _ => []) (fun _ _ => rfl) (cap + 1) (by omega)).2.2.2.1
      have e2 : (((seen h).live.filter fun e => e.1 = p).map fun e => e.2.1).Perm (liveCookies cap t.tab) := by
        apply (List.perm_ext_iff_of_nodup _ _).mpr
        · intro k
          rw [h3]
          simp only [List.mem_map, List.mem_filter, decide_eq_true_eq]
          constructor
          · rintro ⟨⟨q, k', j'⟩, ⟨h1, rfl⟩, rfl⟩
            rw [(hs _ _).mp ‹_›]; rfl
          · intro hk
            obtain ⟨i, hi⟩ := Option.isSome_iff_exists.mp hk
            exact ⟨(p, k, i), ⟨(hs k i).mpr hi, rfl⟩, rfl⟩
        · rw [List.Nodup, List.pairwise_map]
          apply List.Pairwise.imp_of_mem _ (w.nodup.filter _)
          rintro ⟨a, b, c⟩ ⟨a', b', c'⟩ h1 h2 hne hh
          simp only [List.mem_filter, decide_eq_true_eq] at h1 h2
          obtain ⟨h1, rfl⟩ := h1
          obtain ⟨h2, rfl⟩ := h2
          simp only at hh; subst hh
          have := ((hs _ _).mp h1).symm.trans ((hs _ _).mp h2)
          cases this; exact hne rfl
        · exact hinc.imp (fun h => Nat.ne_of_lt h)
      rw [← e2.length_eq, List.length_map]
    refine ⟨?_, ?_⟩
    · have e : t.connect cap s.cols p none = (.invalidPointer, t) := by
        simp only [Statistic.connect, convert, (Verif.Event.C35_connect_refused hcap hr 0).1, if_true]
      rw [st, e]; dsimp only; rw [set_self ht]
    · intro j
      rw [und, ← hnum]
      by_cases hc : t.kind ∈ s.cols.getD j []
      · by_cases hroom : t.tab.getNumSinks < cap
        · obtain ⟨k, t', h1, h2, h3, h4, -⟩ := Verif.Event.C35_connect hcap hr j hroom
          have e : t.connect cap s.cols p (some j) = (.cookie p k, { t with tab := t' }) := by
            simp only [Statistic.connect, convert, if_pos hc, h1]
          refine .inr (.inr ⟨⟨k, by rw [st, e], h2, fun i hi => ?_⟩, hroom, hc⟩)
          have := (hs k i).mp hi
          rw [h4] at this; cases this
        · have hle := (Verif.Event.C35_count hcap hr).2.1
          have hl := (Verif.Event.C35_connect_refused hcap hr j).2.mpr (by omega)
          have e : t.connect cap s.cols p (some j) = (.limit, t) := by
            simp only [Statistic.connect, convert, if_pos hc, hl]; simp
          refine .inr (.inl ⟨by rw [st, e], by rw [st, e]; dsimp only; rw [set_self ht], by omega, hc⟩)
      · have e : t.connect cap s.cols p (some j) = (.noInterface, t) := by
          simp only [Statistic.connect, convert, if_neg hc]
        exact .inl ⟨by rw [st, e], by rw [st, e]; dsimp only; rw [set_self ht], hc⟩

/-- **C165.**  The other calls, after any history: `Add` makes a statistic that nobody has had before, unless the name is taken;
`Disconnect` of a registered name and `Fire` of a statistic that has been made succeed. -/
theorem typed_results {cap : Nat} (hcap : cap < 2 ^ 32) {h : List (Op N V × Res)} {s : Net N V} (r : Ran cap h s) :
    (∀ c n k, (s.step cap (.add c n k)).1 = if has (s.conts c) n then .refused else .made s.stats.length) ∧
    (∀ c n, ¬ Names s c n s.stats.length) ∧
    (∀ c n p k, Names s c n p → (s.step cap (.disconnect c n k)).1 = .dropped p) ∧
    (∀ p v, p < s.stats.length → (s.step cap (.fire p v)).1 = .fired p) := by
  have w := r.inv hcap
  refine ⟨fun c n k => ?_, fun c n hn => Nat.lt_irrefl _ (w.names c n _ hn), fun c n p k hg => ?_, fun p v hp => ?_⟩
  · simp only [Net.step]
    cases hl : look (s.conts c) n with
    | some q => rw [if_pos ((C70_has _ _).mpr ⟨q, hl⟩)]
    | none =>
      rw [if_neg]
      intro hh
      obtain ⟨q, hq⟩ := (C70_has _ _).mp hh
      simp only [get] at hq
      rw [hl] at hq; cases hq
  · obtain ⟨t, ht⟩ := stat_of w hg
    have hg : get (s.conts c) n = some p := hg
    simp only [Net.step, hg, ht]
  · have ht := List.getElem?_eq_getElem hp
    obtain ⟨hr, -⟩ := w.reach p _ ht
    simp only [Net.step, ht, fire_eq hcap hr]

/-! ### The hypotheses are met -/

/-- Two statistics of kinds 1 and 2, merged into another container under a prefix; a collector that understands both kinds, connected to
both, to one of them under the merged name; one that does not understand kind 2 is refused; then both fire. -/
example : ∃ (h : List (Op (List Nat) Nat × Res)) (s : Net (List Nat) Nat), Ran 8 h s ∧
    (seen h).calls 0 = [(1, 5), (2, 6)] ∧ (seen h).calls 1 = [(1, 5)] ∧ s.got = [(0, 1, 5), (1, 1, 5), (0, 2, 6)] ∧
    (s.step 8 (.connect 0 [2] (some 1))).1 = .noInterface := by
  have f := @Ran.nil (List Nat) Nat _ 8
  have f := Ran.snoc (.add 0 [1] 1) f trivial
  have f := Ran.snoc (.add 0 [2] 2) f trivial
  have f := Ran.snoc (.merge 1 (7 :: ·) 0 [[1], [2]]) f ⟨(by decide : List.Perm [[1], [2]] [[1], [2]]), List.cons_injective⟩
  have f := Ran.snoc (.collector [1, 2]) f trivial
  have f := Ran.snoc (.collector [1]) f trivial
  have f := Ran.snoc (.connect 0 [1] (some 0)) f trivial
  have f := Ran.snoc (.connect 1 [7, 2] (some 0)) f trivial
  have f := Ran.snoc (.connect 1 [7, 1] (some 1)) f trivial
  have f := Ran.snoc (.fire 0 5) f trivial
  have f := Ran.snoc (.fire 1 6) f trivial
  exact ⟨_, _, f, by decide +kernel, by decide +kernel, by decide +kernel, by decide +kernel⟩

end Verif.Stat.Typed
