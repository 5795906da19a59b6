import Verif.Log.NetVals

/-!
Property C147: what the filters of loggers see of a record that goes through a network (/repo/log/logger.h 130-145).
-/
namespace Verif.Log.Net
open Verif.Event (Table Reachable sinkAt liveCookies)
open Verif.Stat (Items look)

variable {N E : Type} [DecidableEq N]
variable {cap : Nat} {rk : Nat → Nat} {f : Nat} {net : Loggers} {tr : Trace}

/-- The filter of each logger that got the record has been asked about its own values and the pending values of the loggers that got it until
then, this one included; if it accepted, all sinks of the user at this logger were called.  (Specification; no code.) -/
def Asked (e : E) (os : Nat → List (POp N E)) (filter : Nat → Option (E → Items N (LV E) → Bool)) (tr : Trace)
    (b : Items N (LV E)) (vs : List (Visit N E)) : Prop :=
  ∀ pre m post, vs = pre ++ .enter m :: post →
    ∃ b1, (∀ n, look b1 n = (look b n).or (firstOf e os (entered pre ++ [m]) n)) ∧
      (accepts e (filter m) b1 = true → ∀ c k, connected m c tr = some k → ∃ bd, .call m c k bd ∈ post)

theorem asked_nil (e : E) (os : Nat → List (POp N E)) (filter : Nat → Option (E → Items N (LV E) → Bool)) (b : Items N (LV E)) :
    Asked e os filter tr b [] := fun pre m post h => by simp at h

theorem asked_append {e : E} {os : Nat → List (POp N E)} {filter : Nat → Option (E → Items N (LV E) → Bool)}
    {b b1 : Items N (LV E)} {l l' : List (Visit N E)} (g : ∀ n, look b1 n = (look b n).or (firstOf e os (entered l) n))
    (h : Asked e os filter tr b l) (h' : Asked e os filter tr b1 l') : Asked e os filter tr b (l ++ l') := by
  intro pre m post hs
  rcases List.append_eq_append_iff.mp hs with ⟨as, h1, h2⟩ | ⟨bs, h1, h2⟩
  · obtain ⟨b2, g1, g2⟩ := h' as m post h2
    refine ⟨b2, fun n => ?_, g2⟩
    rw [g1, g, h1, entered_append, List.append_assoc, firstOf_append e os (entered l), Option.or_assoc]
  · cases bs with
    | nil =>
      simp only [List.nil_append] at h2
      simp only [List.append_nil] at h1
      obtain ⟨b2, g1, g2⟩ := h' [] m post h2.symm
      subst h1
      refine ⟨b2, fun n => ?_, g2⟩
      rw [g1, g, Option.or_assoc, firstOf_append e os (entered l)]; rfl
    | cons x bs =>
      rw [List.cons_append, List.cons.injEq] at h2
      obtain ⟨rfl, h3⟩ := h2
      obtain ⟨b2, g1, g2⟩ := h pre m bs h1
      refine ⟨b2, g1, fun ha c k hk => ?_⟩
      obtain ⟨bd, hb⟩ := g2 ha c k hk
      exact ⟨bd, by rw [h3]; exact List.mem_append_left _ hb⟩

theorem passAll_asked (e : E) (os : Nat → List (POp N E)) (filter : Nat → Option (E → Items N (LV E) → Bool)) {i : Nat}
    {below : Nat → Items N (LV E) → Option (List (Visit N E) × Items N (LV E))}
    (hb : ∀ c j, sinkAt (net i).ev c = some (.logger j) → ∀ b, ∃ vs b', below j b = some (vs, b') ∧
      (∀ n, look b' n = (look b n).or (firstOf e os (entered vs) n)) ∧ Asked e os filter tr b vs) :
    ∀ cs b, ∃ vs b', passAll below net i cs b = some (vs, b') ∧
      (∀ n, look b' n = (look b n).or (firstOf e os (entered vs) n)) ∧ Asked e os filter tr b vs ∧
      ∀ c k, c ∈ cs → sinkAt (net i).ev c = some (.user k) → ∃ bd, .call i c k bd ∈ vs
  | [], b => ⟨[], b, rfl, fun n => by simp [entered, firstOf], asked_nil e os filter b, fun c k hc => by cases hc⟩
  | c :: cs, b => by
    have h1 : ∃ l b1, passAll below net i (c :: cs) b = (passAll below net i cs b1).map (fun x => (l ++ x.1, x.2)) ∧
        (∀ n, look b1 n = (look b n).or (firstOf e os (entered l) n)) ∧ Asked e os filter tr b l ∧
        ∀ k, sinkAt (net i).ev c = some (.user k) → ∃ bd, .call i c k bd ∈ l := by
      cases hx : sinkAt (net i).ev c with
      | none => exact ⟨[], b, by rw [passAll, hx], fun n => by simp [entered, firstOf], asked_nil e os filter b, fun k hk => by cases hk⟩
      | some x =>
        cases x with
        | logger j =>
          obtain ⟨vs, b', e1, e2, e3⟩ := hb c j hx b
          exact ⟨vs, b', by simp only [passAll, hx, e1], e2, e3, fun k hk => by cases hk⟩
        | user k =>
          refine ⟨[.call i c k b], b, by rw [passAll, hx], fun n => by simp [entered, firstOf], ?_, fun k' hk => ?_⟩
          · intro pre m post hs
            cases pre with
            | nil => simp at hs
            | cons x pre => simp at hs
          · cases hk; exact ⟨b, List.mem_singleton.2 rfl⟩
    obtain ⟨l, b1, e1, g1, g2, g3⟩ := h1
    obtain ⟨l', b2, e2, k1, k2, k3⟩ := passAll_asked e os filter hb cs b1
    refine ⟨l ++ l', b2, ?_, ?_, asked_append g1 g2 k2, ?_⟩
    · rw [e1, e2]; rfl
    · intro n; rw [k1, g1, entered_append, firstOf_append, Option.or_assoc]
    · intro c' k hc hk
      rcases List.mem_cons.1 hc with rfl | hc
      · obtain ⟨bd, hm⟩ := g3 k hk; exact ⟨bd, List.mem_append_left _ hm⟩
      · obtain ⟨bd, hm⟩ := k3 c' k hc hk; exact ⟨bd, List.mem_append_right _ hm⟩

/-- C147.  What filters see.  Delivering a record never fails.  The filter of each logger that gets the record decides about a record that
shows the record's own values, or else the pending value of the logger that got it first among those that have got it until then, this one
included, and have one.  If it accepts, all sinks of the user at this logger are called; if that of the logger at which the record was fired
rejects, nobody is. -/
theorem C147_filters (hcap : cap < 2 ^ 32) (hf : ∀ j, rk j < f) (h : Reach cap f rk net tr) (e : E) (os : Nat → List (POp N E))
    (pool : Nat → Items N (LV E)) (hp : ∀ m, (pool m).Perm (poolRun (os m))) (filter : Nat → Option (E → Items N (LV E) → Bool))
    (i : Nat) (b : Items N (LV E)) : ∃ vs b', pass cap e pool filter f net i b = some (vs, b') ∧
      (∀ pre m post, vs = pre ++ .enter m :: post →
        ∃ b1, (∀ n, look b1 n = (look b n).or (firstOf e os (entered pre ++ [m]) n)) ∧
          (accepts e (filter m) b1 = true → ∀ c k, connected m c tr = some k → ∃ bd, .call m c k bd ∈ post)) ∧
      ∃ b1, (∀ n, look b1 n = (look b n).or ((pend (os i) n).map (now e))) ∧
        (accepts e (filter i) b1 = false → vs = [.enter i]) ∧
        (accepts e (filter i) b1 = true → ∀ c k, connected i c tr = some k → ∃ bd, .call i c k bd ∈ vs) := by
  obtain ⟨hs, hv⟩ := h.sound hcap hf
  have key : ∀ n i b, f - rk i ≤ n → ∃ vs b', pass cap e pool filter n net i b = some (vs, b') ∧
      (∀ n, look b' n = (look b n).or (firstOf e os (entered vs) n)) ∧ Asked e os filter tr b vs ∧
      ∃ b1, (∀ n, look b1 n = (look b n).or ((pend (os i) n).map (now e))) ∧
        (accepts e (filter i) b1 = false → vs = [.enter i]) ∧
        (accepts e (filter i) b1 = true → ∀ c k, connected i c tr = some k → ∃ bd, .call i c k bd ∈ vs) := by
    intro n
    induction n with
    | zero => intro i b hi; have := hf i; omega
    | succ n ih =>
      intro i b hi
      obtain ⟨b1, a1, a2⟩ := apply_pool e (os i) (hp i) b
      have a3 : ∀ n, look b1 n = (look b n).or (firstOf e os [i] n) := by
        intro n; rw [a2]; simp [firstOf]
      have hcons : ∀ l n, firstOf e os (i :: l) n = (firstOf e os [i] n).or (firstOf e os l n) :=
        fun l n => firstOf_append e os [i] l n
      rw [pass, a1]
      dsimp only
      cases hacc : accepts e (filter i) b1 with
      | true =>
        rw [if_pos rfl, (Event.C34_fire hcap (hs.reach i) (fun _ _ => []) (fun _ _ => rfl) (cap + 1) (by omega)).2.1]
        dsimp only
        obtain ⟨vs, b', h1, h2, h3, h4⟩ := passAll_asked (net := net) (tr := tr) (i := i) e os filter (below := pass cap e pool filter n net)
          (fun c j hx b => by
            obtain ⟨a, ha⟩ := (hs.kept i c j hx).resolve_right id
            have hd := hs.down j a i c ha
            obtain ⟨vs, b', h1, h2, h3, -⟩ := ih j b (by have := hf j; omega)
            exact ⟨vs, b', h1, h2, h3⟩)
          (liveCookies cap (net i).ev) b1
        have hcall : ∀ c k, connected i c tr = some k → ∃ bd, .call i c k bd ∈ vs := by
          intro c k hk
          have hx := (hv.users i c k).mpr hk
          exact h4 c k ((Event.liveCookies_complete hcap (hs.reach i) c).mpr (by rw [hx]; rfl)) hx
        refine ⟨.enter i :: vs, b', by rw [h1]; rfl, ?_, ?_, b1, a2, ?_, ?_⟩
        · intro m
          rw [h2, a3, Option.or_assoc, entered, hcons (entered vs)]
        · intro pre m post hs
          cases pre with
          | nil =>
            rw [List.nil_append, List.cons.injEq] at hs
            obtain ⟨h5, rfl⟩ := hs
            cases h5
            exact ⟨b1, by simpa [entered] using a3, fun _ => hcall⟩
          | cons x pre =>
            rw [List.cons_append, List.cons.injEq] at hs
            obtain ⟨rfl, hs⟩ := hs
            obtain ⟨b2, g1, g2⟩ := h3 pre m post hs
            refine ⟨b2, fun n => ?_, g2⟩
            rw [g1, a3, Option.or_assoc, entered, List.cons_append, hcons (entered pre ++ [m])]
        · intro hn; rw [hacc] at hn; cases hn
        · intro _ c k hk
          obtain ⟨bd, hm⟩ := hcall c k hk
          exact ⟨bd, List.mem_cons_of_mem _ hm⟩
      | false =>
        rw [if_neg (by simp)]
        refine ⟨[.enter i], b1, rfl, by simpa [entered] using a3, ?_, b1, a2, fun _ => rfl, ?_⟩
        · intro pre m post hs
          cases pre with
          | nil =>
            rw [List.nil_append, List.cons.injEq] at hs
            obtain ⟨h5, rfl⟩ := hs
            cases h5
            exact ⟨b1, by simpa [entered] using a3, fun ha => by rw [hacc] at ha; cases ha⟩
          | cons x pre => simp at hs
        · intro ha; rw [hacc] at ha; cases ha
  obtain ⟨vs, b', h1, -, h3, h4⟩ := key f i b (by omega)
  exact ⟨vs, b', h1, h3, h4⟩

/-- A filter that wants the name `1` with a value of a logger before it: logger 2 accepts although the value is pending at logger 1 only; and a
filter of logger 1 itself accepts because of its own pending value. -/
example : ∃ net tr, Reach 4 8 (fun j => min j 2) net tr ∧
    ∃ vs b', pass 4 () (fun m => poolRun (if m = 1 then [.add 1 (.leaf 0 fun _ => 5)] else []))
      (fun _ => some fun _ b => (look b 1).isSome || (look b 0).isNone) 8 net 1 ([(0, .leaf 0 fun _ => 3)] : Items Nat (LV Unit)) = some (vs, b') ∧
    entered vs = [1, 2] ∧ called vs = [(2, 1, 8)] :=
  ⟨_, _, .step (.step (.step .init (o := .register 1 0) (by show (0:Nat) < 1; decide) rfl)
    (o := .register 2 1) (by show (1:Nat) < 2; decide) rfl) (o := .connect 2 8) trivial rfl, _, _, rfl, rfl, rfl⟩

end Verif.Log.Net
