import Verif.Log.Net
import Verif.Log.Source
set_option linter.unusedSimpArgs false
set_option linter.unusedVariables false
/-! The invariant of networks of loggers. -/
namespace Verif.Log.Net
open Verif.Event (Table Reachable sinkAt liveCookies C35_connect C35_disconnect C35_count)

/-- The connection tables and the registered sources fit together, except at the loggers `X` that are being connected or
disconnected and for the connections `F` that are being made or undone. -/
structure Inv (cap : Nat) (rk : Nat → Nat) (net : Loggers) (X : Nat → Prop) (F : Nat → Nat → Nat → Prop) : Prop where
  reach : ∀ i, Reachable cap (net i).ev
  conn : ∀ (j a s c : Nat), (net j).items[a]? = some (some s, c) → c ≠ 0 → sinkAt (net s).ev c = some (.logger j) ∨ F s c j
  once : ∀ (j a b : Nat) (x : Option Nat × Nat), (net j).items[a]? = some x → (net j).items[b]? = some x → x.2 ≠ 0 → a = b
  kept : ∀ (s c j : Nat), sinkAt (net s).ev c = some (.logger j) → (∃ a : Nat, (net j).items[a]? = some (some s, c)) ∨ F s c j
  down : ∀ (j a s c : Nat), (net j).items[a]? = some (some s, c) → rk s < rk j
  zero : ∀ (j a c : Nat), (net j).items[a]? = some (none, c) → c = 0
  coh : ∀ j, ¬ X j → ((net j).sink = true ↔ (net j).ev.num ≠ 0) ∧
    ∀ (a s c : Nat), (net j).items[a]? = some (some s, c) → (c ≠ 0 ↔ (net j).ev.num ≠ 0)

/-- What a call at logger `i` leaves alone: the loggers that are not below `i`, the sources of all loggers, and the user's sinks at all
other loggers. -/
structure Frame (rk : Nat → Nat) (i : Nat) (net net' : Loggers) : Prop where
  above : ∀ j, rk i ≤ rk j → j ≠ i → net' j = net j
  srcs : ∀ j, (net' j).items.map (·.1) = (net j).items.map (·.1)
  users : ∀ j c u, j ≠ i → (sinkAt (net' j).ev c = some (.user u) ↔ sinkAt (net j).ev c = some (.user u))

theorem sinkAt_zero {σ : Type} (t : Table σ) : sinkAt t 0 = none := by rw [Event.sinkAt_eq, if_pos rfl]

theorem num_ne {cap : Nat} (hcap : cap < 2 ^ 32) {t : Table Snk} (h : Reachable cap t) :
    t.num ≠ 0 ↔ ∃ c x, sinkAt t c = some x := by
  obtain ⟨h1, -, h3⟩ := C35_count hcap h
  have h1 : t.num = (liveCookies cap t).length := h1
  rw [h1, Ne, List.length_eq_zero_iff]
  constructor
  · intro hne
    obtain ⟨c, hc⟩ := List.exists_mem_of_ne_nil _ hne
    obtain ⟨x, hx⟩ := Option.isSome_iff_exists.mp ((h3 c).mp hc)
    exact ⟨c, x, hx⟩
  · rintro ⟨c, x, hx⟩ e
    have := (h3 c).mpr (by rw [hx]; rfl)
    rw [e] at this; cases this

theorem setItem_self (net : Loggers) (j a : Nat) (x) : (net.setItem j a x) j = { net j with items := (net j).items.set a x } := by
  simp [Loggers.setItem, upd]
theorem setItem_ne (net : Loggers) {j k : Nat} (a : Nat) (x) (h : k ≠ j) : (net.setItem j a x) k = net k := by
  simp [Loggers.setItem, upd, h]
theorem setItem_ev (net : Loggers) (j a : Nat) (x) (k : Nat) : ((net.setItem j a x) k).ev = (net k).ev := by
  by_cases h : k = j
  · subst h; rw [setItem_self]
  · rw [setItem_ne _ _ _ h]
theorem setItem_sink (net : Loggers) (j a : Nat) (x) (k : Nat) : ((net.setItem j a x) k).sink = (net k).sink := by
  by_cases h : k = j
  · subst h; rw [setItem_self]
  · rw [setItem_ne _ _ _ h]
theorem setItem_items (net : Loggers) (j a : Nat) (x) (k b : Nat) : ((net.setItem j a x) k).items[b]? =
    if k = j ∧ b = a ∧ a < (net j).items.length then some x else (net k).items[b]? := by
  by_cases h : k = j
  · subst h
    rw [setItem_self]
    simp only [List.getElem?_set]
    by_cases e : b = a
    · subst e
      by_cases h : b < (net k).items.length
      · simp [h]
      · simp [h]
    · simp [e, Ne.symm e]
  · rw [setItem_ne _ _ _ h, if_neg (by simp [h])]

theorem Frame.rfl' {rk : Nat → Nat} {i : Nat} {net : Loggers} : Frame rk i net net :=
  ⟨fun _ _ _ => rfl, fun _ => rfl, fun _ _ _ _ => Iff.rfl⟩

variable {cap : Nat} {rk : Nat → Nat}

/-- Weaken the exceptions. -/
theorem Inv.mono {net : Loggers} {X X' : Nat → Prop} {F F' : Nat → Nat → Nat → Prop} (h : Inv cap rk net X F)
    (hX : ∀ j, X j → X' j) (hF : ∀ a c j, F a c j → F' a c j) : Inv cap rk net X' F' where
  reach := h.reach
  conn j a s c h1 h2 := (h.conn j a s c h1 h2).imp id (hF _ _ _)
  once := h.once
  kept s c j h1 := (h.kept s c j h1).imp id (hF _ _ _)
  down := h.down
  zero := h.zero
  coh j hj := h.coh j fun hx => hj (hX j hx)

/-- A connection `(s, k)` of logger `j` has been made and is written down at the item `a`. -/
theorem Inv.stored {net : Loggers} {X : Nat → Prop} {F : Nat → Nat → Nat → Prop} {j a s k c0 : Nat}
    (h : Inv cap rk net X fun x c m => F x c m ∨ (x = s ∧ c = k ∧ m = j))
    (hit : (net j).items[a]? = some (some s, c0)) (hk : sinkAt (net s).ev k = some (.logger j)) (hXj : X j)
    (hF : ∀ x c, ¬ F x c j) (hold : c0 ≠ 0 → c0 = k)
    (hfresh : ∀ b : Nat, (net j).items[b]? = some (some s, k) → k ≠ 0 → b = a) :
    Inv cap rk (net.setItem j a (some s, k)) X F := by
  have hlt : a < (net j).items.length := (List.getElem?_eq_some_iff.mp hit).1
  refine ⟨fun i => by rw [setItem_ev]; exact h.reach i, fun m b t c hb hc => ?_, fun m b b' x hb hb' hx => ?_,
    fun t c m hs => ?_, fun m b t c hb => ?_, fun m b c hb => ?_, fun m hm => ?_⟩
  · rw [setItem_items] at hb
    rw [setItem_ev]
    split at hb
    · rename_i e
      obtain ⟨rfl, rfl, -⟩ := e
      cases hb
      exact .inl hk
    · rename_i e
      rcases h.conn m b t c hb hc with h1 | h1 | ⟨rfl, rfl, rfl⟩
      · exact .inl h1
      · exact .inr h1
      · exact .inl hk
  · rw [setItem_items] at hb hb'
    split at hb
    · rename_i e
      obtain ⟨rfl, rfl, -⟩ := e
      cases hb
      split at hb'
      · rename_i e'; exact e'.2.1.symm
      · exact (hfresh b' hb' hx).symm
    · split at hb'
      · rename_i e
        obtain ⟨rfl, rfl, -⟩ := e
        cases hb'
        exact hfresh b hb hx
      · exact h.once m b b' x hb hb' hx
  · rw [setItem_ev] at hs
    by_cases e : t = s ∧ c = k ∧ m = j
    · obtain ⟨rfl, rfl, rfl⟩ := e
      exact .inl ⟨a, by rw [setItem_items, if_pos ⟨rfl, rfl, hlt⟩]⟩
    · rcases h.kept t c m hs with ⟨b, hb⟩ | h1 | h1
      · refine .inl ⟨b, ?_⟩
        rw [setItem_items, if_neg]
        · exact hb
        · rintro ⟨rfl, rfl, -⟩
          rw [hit] at hb
          cases hb
          have hc0 : c0 ≠ 0 := by rintro rfl; rw [sinkAt_zero] at hs; cases hs
          exact e ⟨rfl, hold hc0, rfl⟩
      · exact .inr h1
      · exact absurd h1 e
  · rw [setItem_items] at hb
    split at hb
    · rename_i e
      obtain ⟨rfl, rfl, -⟩ := e
      cases hb
      exact h.down _ _ _ _ hit
    · exact h.down m b t c hb
  · rw [setItem_items] at hb
    split at hb
    · cases hb
    · exact h.zero m b c hb
  · have hne : m ≠ j := fun e => hm (e ▸ hXj)
    rw [setItem_ne _ _ _ hne]
    exact h.coh m hm

/-- A connection of logger `j` has been undone and is crossed out at the item `a`. -/
theorem Inv.cleared {net : Loggers} {X : Nat → Prop} {F : Nat → Nat → Nat → Prop} {j a s k : Nat} {o : Option Nat}
    (h : Inv cap rk net X fun x c m => F x c m ∨ (x = s ∧ c = k ∧ m = j))
    (hit : (net j).items[a]? = some (some s, k)) (hk : sinkAt (net s).ev k = none) (hXj : X j)
    (ho : o = some s ∨ o = none) :
    Inv cap rk (net.setItem j a (o, 0)) X F := by
  have hlt : a < (net j).items.length := (List.getElem?_eq_some_iff.mp hit).1
  refine ⟨fun i => by rw [setItem_ev]; exact h.reach i, fun m b t c hb hc => ?_, fun m b b' x hb hb' hx => ?_,
    fun t c m hs => ?_, fun m b t c hb => ?_, fun m b c hb => ?_, fun m hm => ?_⟩
  · rw [setItem_items] at hb
    rw [setItem_ev]
    split at hb
    · cases hb; exact absurd rfl hc
    · rename_i e
      rcases h.conn m b t c hb hc with h1 | h1 | ⟨rfl, rfl, rfl⟩
      · exact .inl h1
      · exact .inr h1
      · exact absurd ⟨rfl, h.once _ _ _ _ hb hit hc, hlt⟩ e
  · rw [setItem_items] at hb hb'
    split at hb
    · cases hb; exact absurd rfl hx
    · split at hb'
      · cases hb'; exact absurd rfl hx
      · exact h.once m b b' x hb hb' hx
  · rw [setItem_ev] at hs
    rcases h.kept t c m hs with ⟨b, hb⟩ | h1 | ⟨rfl, rfl, rfl⟩
    · refine .inl ⟨b, ?_⟩
      rw [setItem_items, if_neg]
      · exact hb
      · rintro ⟨rfl, rfl, -⟩
        rw [hit] at hb
        cases hb
        rw [hk] at hs; cases hs
    · exact .inr h1
    · rw [hk] at hs; cases hs
  · rw [setItem_items] at hb
    split at hb
    · rename_i e
      obtain ⟨rfl, rfl, -⟩ := e
      cases hb
      rcases ho with e | e
      · cases e; exact h.down _ _ _ _ hit
      · cases e
    · exact h.down m b t c hb
  · rw [setItem_items] at hb
    split at hb
    · cases hb; rfl
    · exact h.zero m b c hb
  · have hne : m ≠ j := fun e => hm (e ▸ hXj)
    rw [setItem_ne _ _ _ hne]
    exact h.coh m hm

/-- Same tables and items: the flags of exempted loggers do not matter. -/
theorem Inv.flag {net : Loggers} {X : Nat → Prop} {F : Nat → Nat → Nat → Prop} {i : Nat} (h : Inv cap rk net X F) (hX : X i) (b : Bool) :
    Inv cap rk (upd net i { net i with sink := b }) X F := by
  have he : ∀ j, ((upd net i { net i with sink := b }) j).ev = (net j).ev := fun j => by
    by_cases e : j = i
    · subst e; rw [upd_self]
    · rw [upd_ne _ _ e]
  have hi : ∀ j, ((upd net i { net i with sink := b }) j).items = (net j).items := fun j => by
    by_cases e : j = i
    · subst e; rw [upd_self]
    · rw [upd_ne _ _ e]
  refine ⟨fun j => he j ▸ h.reach j, fun j a s c => ?_, fun j a b x => ?_, fun s c j => ?_, fun j a s c => ?_, fun j a c => ?_, fun j hj => ?_⟩
  · rw [hi, he]; exact h.conn j a s c
  · rw [hi]; exact h.once j a b x
  · rw [hi, he]; exact h.kept s c j
  · rw [hi]; exact h.down j a s c
  · rw [hi]; exact h.zero j a c
  · have : j ≠ i := fun e => hj (e ▸ hX)
    rw [upd_ne _ _ this]
    exact h.coh j hj

theorem Frame.trans {i : Nat} {a b c : Loggers} (h : Frame rk i a b) (k : Frame rk i b c) : Frame rk i a c :=
  ⟨fun j h1 h2 => (k.above j h1 h2).trans (h.above j h1 h2), fun j => (k.srcs j).trans (h.srcs j),
    fun j x u hj => (k.users j x u hj).trans (h.users j x u hj)⟩

theorem Frame.set {i a : Nat} {net : Loggers} {s c0 k : Nat} (hit : (net i).items[a]? = some (some s, c0)) :
    Frame rk i net (net.setItem i a (some s, k)) := by
  refine ⟨fun j _ h2 => setItem_ne _ _ _ h2, fun j => ?_, fun j c u hj => by rw [setItem_ev]⟩
  by_cases e : j = i
  · subst e
    rw [setItem_self]
    dsimp only
    rw [List.map_set]
    obtain ⟨h1, h2⟩ := List.getElem?_eq_some_iff.mp hit
    refine List.ext_getElem? fun b => ?_
    rw [List.getElem?_set]
    split
    · rename_i e
      subst e
      rw [List.length_map, if_pos h1, List.getElem?_map, hit]; rfl
    · rfl
  · rw [setItem_ne _ _ _ e]

/-- What `Connect` of logger `t` with the sink `s` may do. -/
def ConnGood (cap : Nat) (rk : Nat → Nat) (net : Loggers) (X : Nat → Prop) (F : Nat → Nat → Nat → Prop) (t : Nat) (s : Snk) :
    Except Err (Nat × Loggers) → Prop
  | .error e => e = .event .connectionLimit
  | .ok (k, net') => Inv cap rk net' X (fun x c m => F x c m ∨ (x = t ∧ c = k ∧ s = .logger m)) ∧ k ≠ 0 ∧
      sinkAt (net t).ev k = none ∧ (∀ c, sinkAt (net' t).ev c = if c = k then some s else sinkAt (net t).ev c) ∧ Frame rk t net net'

/-- What `Disconnect` of logger `t` with the cookie `c` does. -/
def DiscGood (cap : Nat) (rk : Nat → Nat) (net : Loggers) (X : Nat → Prop) (F : Nat → Nat → Nat → Prop) (t c : Nat) :
    Except Err Loggers → Prop
  | .error _ => False
  | .ok net' => Inv cap rk net' X F ∧
      (∀ d, sinkAt (net' t).ev d = if d = c then none else sinkAt (net t).ev d) ∧ Frame rk t net net'

theorem connLoop_ok {X : Nat → Prop} {F : Nat → Nat → Nat → Prop} {i : Nat} (hX : X i) (hF : ∀ x c, ¬ F x c i)
    {conn : Loggers → Nat → Snk → Except Err (Nat × Loggers)}
    (hc : ∀ net t, Inv cap rk net X F → rk t < rk i → ConnGood cap rk net X F t (.logger i) (conn net t (.logger i))) :
    ∀ (n a : Nat) (net : Loggers), Inv cap rk net X F → a + n = (net i).items.length →
      (∀ (b s c : Nat), b < a → (net i).items[b]? = some (some s, c) → c ≠ 0) →
      (∀ (b s c : Nat), a ≤ b → (net i).items[b]? = some (some s, c) → c = 0) →
      match connLoop conn i n a net with
      | .error e => e = .event .connectionLimit
      | .ok net' => Inv cap rk net' X F ∧ (∀ (b s c : Nat), (net' i).items[b]? = some (some s, c) → c ≠ 0) ∧
          (net' i).sink = (net i).sink ∧ (net' i).ev = (net i).ev ∧ Frame rk i net net' := by
  intro n
  induction n with
  | zero =>
    intro a net h hl hlo hhi
    rw [connLoop]
    refine ⟨h, fun b s c hb => hlo b s c ?_ hb, rfl, rfl, Frame.rfl'⟩
    have := (List.getElem?_eq_some_iff.mp hb).1
    omega
  | succ n ih =>
    intro a net h hl hlo hhi
    rw [connLoop]
    have skip : (∀ (s c : Nat), (net i).items[a]? ≠ some (some s, c)) →
        match connLoop conn i n (a + 1) net with
        | .error e => e = .event .connectionLimit
        | .ok net' => Inv cap rk net' X F ∧ (∀ (b s c : Nat), (net' i).items[b]? = some (some s, c) → c ≠ 0) ∧
            (net' i).sink = (net i).sink ∧ (net' i).ev = (net i).ev ∧ Frame rk i net net' := by
      intro hne
      refine ih (a + 1) net h (by omega) (fun b s c hb hit => ?_) (fun b s c hb hit => hhi b s c (by omega) hit)
      by_cases e : b = a
      · subst e; exact absurd hit (hne s c)
      · exact hlo b s c (by omega) hit
    cases hit : (net i).items[a]? with
    | none => exact skip fun s c => by rw [hit]; simp
    | some x =>
      obtain ⟨o, c0⟩ := x
      cases o with
      | none => exact skip fun s c => by rw [hit]; simp
      | some s =>
        dsimp only
        have hr := h.down _ _ _ _ hit
        have hg := hc net s h hr
        cases he : conn net s (.logger i) with
        | error e => rw [he] at hg; exact hg
        | ok r =>
          obtain ⟨k, net1⟩ := r
          rw [he] at hg
          obtain ⟨g1, g2, g3, g4, g5⟩ := hg
          dsimp only
          have hne : i ≠ s := by rintro rfl; omega
          have hni : net1 i = net i := g5.above i (by omega) hne
          have hk : sinkAt (net1 s).ev k = some (.logger i) := by rw [g4, if_pos rfl]
          have hit1 : (net1 i).items[a]? = some (some s, c0) := by rw [hni, hit]
          have hz : c0 = 0 := hhi a s c0 (Nat.le_refl _) hit
          have hi2 : Inv cap rk (net1.setItem i a (some s, k)) X F := by
            refine Inv.stored (c0 := c0) (g1.mono (fun _ hx => hx) ?_) hit1 hk hX hF (fun h0 => absurd hz h0) ?_
            · rintro x c m (hx | ⟨rfl, rfl, e⟩)
              · exact .inl hx
              · cases e; exact .inr ⟨rfl, rfl, rfl⟩
            · intro b hb _
              rw [hni] at hb
              rcases h.conn i b s k hb g2 with h1 | h1
              · rw [g3] at h1; cases h1
              · exact absurd h1 (hF _ _)
          have hfr : Frame rk i net (net1.setItem i a (some s, k)) := by
            refine Frame.trans ⟨fun j h1 h2 => g5.above j (by omega) ?_, g5.srcs, fun j c u hj => ?_⟩ (Frame.set hit1)
            · rintro rfl; omega
            · by_cases e : j = s
              · subst e
                rw [g4]
                by_cases e : c = k
                · subst e; rw [if_pos rfl, g3]; simp
                · rw [if_neg e]
              · exact g5.users j c u e
          have hlen : a < (net1 i).items.length := (List.getElem?_eq_some_iff.mp hit1).1
          have := ih (a + 1) (net1.setItem i a (some s, k)) hi2 ?_ ?_ ?_
          · cases hl2 : connLoop conn i n (a + 1) (net1.setItem i a (some s, k)) with
            | error e => rw [hl2] at this; exact this
            | ok net2 =>
              rw [hl2] at this
              obtain ⟨t1, t2, t3, t4, t5⟩ := this
              refine ⟨t1, t2, ?_, ?_, hfr.trans t5⟩
              · rw [t3, setItem_sink, hni]
              · rw [t4, setItem_ev, hni]
          · rw [setItem_self]
            simp only [List.length_set]
            rw [hni]; omega
          · intro b s' c hb hbit
            rw [setItem_items] at hbit
            split at hbit
            · cases hbit; exact g2
            · rename_i e
              rw [hni] at hbit
              refine hlo b s' c ?_ hbit
              by_cases e2 : b = a
              · exact absurd ⟨rfl, e2, hlen⟩ e
              · omega
          · intro b s' c hb hbit
            rw [setItem_items, if_neg (by omega), hni] at hbit
            exact hhi b s' c (by omega) hbit

/-- A sink is added to the event of a logger whose sources are connected. -/
theorem Inv.add {net : Loggers} {X : Nat → Prop} {F : Nat → Nat → Nat → Prop} {i k : Nat} {s : Snk} {tb : Table Snk}
    (hcap : cap < 2 ^ 32)
    (h : Inv cap rk net (fun j => X j ∨ j = i) F) (hr : Reachable cap tb) (hfree : sinkAt (net i).ev k = none)
    (htb : ∀ c, sinkAt tb c = if c = k then some s else sinkAt (net i).ev c)
    (hs : (net i).sink = true) (hit : ∀ (b t c : Nat), (net i).items[b]? = some (some t, c) → c ≠ 0) :
    Inv cap rk (upd net i { net i with ev := tb }) X (fun x c m => F x c m ∨ (x = i ∧ c = k ∧ s = .logger m)) := by
  have hi : ∀ j, ((upd net i { net i with ev := tb }) j).items = (net j).items := fun j => by
    by_cases e : j = i
    · subst e; rw [upd_self]
    · rw [upd_ne _ _ e]
  have hsk : ∀ j c, sinkAt ((upd net i { net i with ev := tb }) j).ev c =
      if j = i ∧ c = k then some s else sinkAt (net j).ev c := fun j c => by
    by_cases e : j = i
    · subst e; rw [upd_self, htb]; simp
    · rw [upd_ne _ _ e, if_neg (fun h => e h.1)]
  have hn : tb.num ≠ 0 := (num_ne hcap hr).mpr ⟨k, s, by rw [htb, if_pos rfl]⟩
  refine ⟨fun j => ?_, fun j a t c hj hc => ?_, fun j a b x => ?_, fun t c j hj => ?_, fun j a t c => ?_, fun j a c => ?_, fun j hj => ?_⟩
  · by_cases e : j = i
    · subst e; rw [upd_self]; exact hr
    · rw [upd_ne _ _ e]; exact h.reach j
  · rw [hi] at hj
    rw [hsk]
    rcases h.conn j a t c hj hc with h1 | h1
    · split
      · rename_i e
        obtain ⟨rfl, rfl⟩ := e
        rw [hfree] at h1; cases h1
      · exact .inl h1
    · exact .inr (.inl h1)
  · rw [hi]; exact h.once j a b x
  · rw [hsk] at hj
    rw [hi]
    split at hj
    · rename_i e
      obtain ⟨rfl, rfl⟩ := e
      cases hj
      exact .inr (.inr ⟨rfl, rfl, rfl⟩)
    · exact (h.kept t c j hj).imp id .inl
  · rw [hi]; exact h.down j a t c
  · rw [hi]; exact h.zero j a c
  · by_cases e : j = i
    · subst e
      rw [upd_self]
      exact ⟨⟨fun _ => hn, fun _ => hs⟩, fun a t c hx => ⟨fun _ => hn, fun _ => hit a t c hx⟩⟩
    · rw [upd_ne _ _ e]
      exact h.coh j (fun hx => hx.elim hj e)

theorem connect_ok (hcap : cap < 2 ^ 32) : ∀ (f : Nat) (net : Loggers) (i : Nat) (s : Snk) (X : Nat → Prop) (F : Nat → Nat → Nat → Prop),
    rk i < f → Inv cap rk net X F → (∀ j, X j → rk i < rk j) → (∀ x c j, F x c j → X j) →
    ConnGood cap rk net X F i s (connect cap f net i s) := by
  intro f
  induction f with
  | zero => intro net i s X F h; omega
  | succ f ih =>
    intro net i s X F hf h hX hF
    have hXi : ¬ X i := fun hx => by have := hX i hx; omega
    have hco := h.coh i hXi
    -- the part before the sink is added
    have pre : match (if (net i).ev.num = 0 then
          if (net i).sink then .error .illegalMethodCall
          else connLoop (connect cap f) i (net i).items.length 0 (upd net i { net i with sink := true })
        else .ok net : Except Err Loggers) with
        | .error e => e = .event .connectionLimit
        | .ok net' => Inv cap rk net' (fun j => X j ∨ j = i) F ∧ (∀ (b s c : Nat), (net' i).items[b]? = some (some s, c) → c ≠ 0) ∧
          (net' i).sink = true ∧ (net' i).ev = (net i).ev ∧ Frame rk i net net' := by
      by_cases hn : (net i).ev.num = 0
      · rw [if_pos hn]
        have hs : (net i).sink = false := by
          cases hs : (net i).sink with
          | false => rfl
          | true => exact absurd hn (hco.1.mp hs)
        rw [hs]
        simp only [Bool.false_eq_true, if_false]
        have h0 : Inv cap rk (upd net i { net i with sink := true }) (fun j => X j ∨ j = i) F :=
          (h.mono (fun j hj => .inl hj) (fun _ _ _ hx => hx)).flag (X := fun j => X j ∨ j = i) (.inr rfl) true
        have hl := connLoop_ok (cap := cap) (rk := rk) (X := fun j => X j ∨ j = i) (F := F) (i := i) (.inr rfl)
          (fun x c hx => hXi (hF x c i hx)) (conn := connect cap f)
          (fun net' t h' ht => ih net' t (.logger i) _ F (by omega) h' (fun j hj => by
            rcases hj with hj | rfl
            · have := hX j hj; omega
            · exact ht) (fun x c j hx => .inl (hF x c j hx)))
          (net i).items.length 0 (upd net i { net i with sink := true }) h0 (by rw [upd_self]; simp) (fun b s c hb => by omega)
          (fun b s c _ hb => by
            rw [upd_self] at hb
            have := (hco.2 b s c hb)
            by_contra hc
            exact this.mp hc hn)
        have hfr : Frame rk i net (upd net i { net i with sink := true }) := by
          refine ⟨fun j _ h2 => upd_ne _ _ h2, fun j => ?_, fun j c u hj => by rw [upd_ne _ _ hj]⟩
          by_cases e : j = i
          · subst e; rw [upd_self]
          · rw [upd_ne _ _ e]
        cases he : connLoop (connect cap f) i (net i).items.length 0 (upd net i { net i with sink := true }) with
        | error e => rw [he] at hl; exact hl
        | ok net' =>
          rw [he] at hl
          obtain ⟨l1, l2, l3, l4, l5⟩ := hl
          rw [upd_self] at l3 l4
          exact ⟨l1, l2, l3, l4, hfr.trans l5⟩
      · rw [if_neg hn]
        exact ⟨h.mono (fun _ hx => .inl hx) (fun _ _ _ hx => hx), fun b s c hb => (hco.2 b s c hb).mpr hn, hco.1.mpr hn, rfl, Frame.rfl'⟩
    rw [connect]
    cases he : (if (net i).ev.num = 0 then
          if (net i).sink then .error .illegalMethodCall
          else connLoop (connect cap f) i (net i).items.length 0 (upd net i { net i with sink := true })
        else .ok net : Except Err Loggers) with
    | error e => rw [he] at pre; exact pre
    | ok net' =>
      rw [he] at pre
      obtain ⟨p1, p2, p3, p4, p5⟩ := pre
      dsimp only
      by_cases hroom : (net' i).ev.getNumSinks < cap
      · obtain ⟨k, tb, c1, c2, c3, c4, c5, c6, c7⟩ := C35_connect hcap (p1.reach i) s hroom
        rw [c1]
        refine ⟨Inv.add hcap p1 c7 c4 c5 p3 p2, c2, by rw [← p4]; exact c4, fun c => ?_, ?_⟩
        · rw [upd_self, ← p4]; exact c5 c
        · refine p5.trans ⟨fun j _ h2 => upd_ne _ _ h2, fun j => ?_, fun j c u hj => by rw [upd_ne _ _ hj]⟩
          by_cases e : j = i
          · subst e; rw [upd_self]
          · rw [upd_ne _ _ e]
      · have h1 := (C35_count hcap (p1.reach i)).2.1
        have h2 := (Event.C35_connect_refused hcap (p1.reach i) s).2.mpr (by omega)
        rw [h2]
        rfl

theorem discLoop_ok {X : Nat → Prop} {F : Nat → Nat → Nat → Prop} {i : Nat} (hX : X i) (hF : ∀ x c, ¬ F x c i)
    {disc : Loggers → Nat → Nat → Except Err Loggers}
    (hd : ∀ net t c, Inv cap rk net X F → rk t < rk i → (∀ j, sinkAt (net t).ev c = some (.logger j) → j = i) →
      DiscGood cap rk net X (fun x d m => F x d m ∨ (x = t ∧ d = c ∧ m = i)) t c (disc net t c)) :
    ∀ (n a : Nat) (net : Loggers), Inv cap rk net X F → a + n = (net i).items.length →
      (∀ (b s c : Nat), b < a → (net i).items[b]? = some (some s, c) → c = 0) →
      match discLoop disc i n a net with
      | .error _ => False
      | .ok net' => Inv cap rk net' X F ∧ (∀ (b s c : Nat), (net' i).items[b]? = some (some s, c) → c = 0) ∧
          (net' i).ev = (net i).ev ∧ Frame rk i net net' := by
  intro n
  induction n with
  | zero =>
    intro a net h hl hlo
    rw [discLoop]
    refine ⟨h, fun b s c hb => hlo b s c ?_ hb, rfl, Frame.rfl'⟩
    have := (List.getElem?_eq_some_iff.mp hb).1
    omega
  | succ n ih =>
    intro a net h hl hlo
    rw [discLoop]
    have skip : (∀ (s c : Nat), (net i).items[a]? ≠ some (some s, c)) →
        match discLoop disc i n (a + 1) net with
        | .error _ => False
        | .ok net' => Inv cap rk net' X F ∧ (∀ (b s c : Nat), (net' i).items[b]? = some (some s, c) → c = 0) ∧
            (net' i).ev = (net i).ev ∧ Frame rk i net net' := by
      intro hne
      refine ih (a + 1) net h (by omega) (fun b s c hb hit => ?_)
      by_cases e : b = a
      · subst e; exact absurd hit (hne s c)
      · exact hlo b s c (by omega) hit
    cases hit : (net i).items[a]? with
    | none => exact skip fun s c => by rw [hit]; simp
    | some x =>
      obtain ⟨o, c0⟩ := x
      cases o with
      | none => exact skip fun s c => by rw [hit]; simp
      | some s =>
        dsimp only
        have hr := h.down _ _ _ _ hit
        have hg := hd net s c0 h hr (fun j hj => by
          by_cases hz : c0 = 0
          · subst hz; rw [sinkAt_zero] at hj; cases hj
          · rcases h.conn i a s c0 hit hz with h1 | h1
            · rw [h1] at hj; cases hj; rfl
            · exact absurd h1 (hF _ _))
        cases he : disc net s c0 with
        | error e => rw [he] at hg; exact hg
        | ok net1 =>
          rw [he] at hg
          obtain ⟨g1, g4, g5⟩ := hg
          dsimp only
          have hne : i ≠ s := by rintro rfl; omega
          have hni : net1 i = net i := g5.above i (by omega) hne
          have hk : sinkAt (net1 s).ev c0 = none := by rw [g4, if_pos rfl]
          have hit1 : (net1 i).items[a]? = some (some s, c0) := by rw [hni, hit]
          have hi2 : Inv cap rk (net1.setItem i a (some s, 0)) X F := Inv.cleared g1 hit1 hk hX (.inl rfl)
          have hfr : Frame rk i net (net1.setItem i a (some s, 0)) := by
            refine Frame.trans ⟨fun j h1 h2 => g5.above j (by omega) ?_, g5.srcs, fun j c u hj => ?_⟩ (Frame.set hit1)
            · rintro rfl; omega
            · by_cases e : j = s
              · subst e
                rw [g4]
                by_cases e : c = c0
                · subst e
                  rw [if_pos rfl]
                  by_cases hz : c = 0
                  · subst hz; rw [sinkAt_zero]
                  · rcases h.conn i a j c hit hz with h1 | h1
                    · rw [h1]; simp
                    · exact absurd h1 (hF _ _)
                · rw [if_neg e]
              · exact g5.users j c u e
          have hlen : a < (net1 i).items.length := (List.getElem?_eq_some_iff.mp hit1).1
          have := ih (a + 1) (net1.setItem i a (some s, 0)) hi2 ?_ ?_
          · cases hl2 : discLoop disc i n (a + 1) (net1.setItem i a (some s, 0)) with
            | error e => rw [hl2] at this; exact this
            | ok net2 =>
              rw [hl2] at this
              obtain ⟨t1, t2, t4, t5⟩ := this
              refine ⟨t1, t2, ?_, hfr.trans t5⟩
              rw [t4, setItem_ev, hni]
          · rw [setItem_self]
            simp only [List.length_set]
            rw [hni]; omega
          · intro b s' c hb hbit
            rw [setItem_items] at hbit
            split at hbit
            · cases hbit; rfl
            · rename_i e
              rw [hni] at hbit
              refine hlo b s' c ?_ hbit
              by_cases e2 : b = a
              · exact absurd ⟨rfl, e2, hlen⟩ e
              · omega

/-- A connection of the event of a logger is removed. -/
theorem Inv.remove {net : Loggers} {X : Nat → Prop} {F : Nat → Nat → Nat → Prop} {i k : Nat} {tb : Table Snk}
    (h : Inv cap rk net X F) (hr : Reachable cap tb)
    (htb : ∀ c, sinkAt tb c = if c = k then none else sinkAt (net i).ev c)
    (hk : ∀ j, sinkAt (net i).ev k = some (.logger j) → F i k j) :
    Inv cap rk (upd net i { net i with ev := tb }) (fun j => X j ∨ j = i) F := by
  have hi : ∀ j, ((upd net i { net i with ev := tb }) j).items = (net j).items := fun j => by
    by_cases e : j = i
    · subst e; rw [upd_self]
    · rw [upd_ne _ _ e]
  have hsk : ∀ j c, sinkAt ((upd net i { net i with ev := tb }) j).ev c =
      if j = i ∧ c = k then none else sinkAt (net j).ev c := fun j c => by
    by_cases e : j = i
    · subst e; rw [upd_self, htb]; simp
    · rw [upd_ne _ _ e, if_neg (fun h => e h.1)]
  refine ⟨fun j => ?_, fun j a t c hj hc => ?_, fun j a b x => ?_, fun t c j hj => ?_, fun j a t c => ?_, fun j a c => ?_, fun j hj => ?_⟩
  · by_cases e : j = i
    · subst e; rw [upd_self]; exact hr
    · rw [upd_ne _ _ e]; exact h.reach j
  · rw [hi] at hj
    rw [hsk]
    rcases h.conn j a t c hj hc with h1 | h1
    · split
      · rename_i e
        obtain ⟨rfl, rfl⟩ := e
        exact .inr (hk _ h1)
      · exact .inl h1
    · exact .inr h1
  · rw [hi]; exact h.once j a b x
  · rw [hsk] at hj
    rw [hi]
    split at hj
    · cases hj
    · exact h.kept t c j hj
  · rw [hi]; exact h.down j a t c
  · rw [hi]; exact h.zero j a c
  · have e : j ≠ i := fun e => hj (.inr e)
    rw [upd_ne _ _ e]
    exact h.coh j (fun hx => hj (.inl hx))

theorem disconnect_ok (hcap : cap < 2 ^ 32) : ∀ (f : Nat) (net : Loggers) (i c : Nat) (X : Nat → Prop) (F : Nat → Nat → Nat → Prop),
    rk i < f → Inv cap rk net X F → (∀ j, X j → rk i < rk j) → (∀ x c j, F x c j → X j) →
    (∀ j, sinkAt (net i).ev c = some (.logger j) → F i c j) →
    DiscGood cap rk net X F i c (disconnect f net i c) := by
  intro f
  induction f with
  | zero => intro net i c X F h; omega
  | succ f ih =>
    intro net i c X F hf h hX hF hk
    have hXi : ¬ X i := fun hx => by have := hX i hx; omega
    have hco := h.coh i hXi
    obtain ⟨d1, d2, d3⟩ := C35_disconnect hcap (h.reach i) c
    have hrem := Inv.remove h d3 d1 hk
    have hfr : Frame rk i net (upd net i { net i with ev := (net i).ev.disconnect c }) := by
      refine ⟨fun j _ h2 => upd_ne _ _ h2, fun j => ?_, fun j c u hj => by rw [upd_ne _ _ hj]⟩
      by_cases e : j = i
      · subst e; rw [upd_self]
      · rw [upd_ne _ _ e]
    rw [disconnect]
    dsimp only
    rw [upd_self]
    dsimp only
    by_cases hn : ((net i).ev.disconnect c).num = 0
    · rw [if_pos hn]
      have hl := discLoop_ok (cap := cap) (rk := rk) (X := fun j => X j ∨ j = i) (F := F) (i := i) (.inr rfl)
        (fun x c hx => hXi (hF x c i hx)) (disc := disconnect f)
        (fun net' t c h' ht hj => ih net' t c _ _ (by omega) (h'.mono (fun _ hx => hx) (fun _ _ _ hx => .inl hx)) (fun j hj => by
            rcases hj with hj | rfl
            · have := hX j hj; omega
            · exact ht) (fun x c j hx => by
              rcases hx with hx | ⟨-, -, rfl⟩
              · exact .inl (hF x c j hx)
              · exact .inr rfl) (fun j hs => .inr ⟨rfl, rfl, hj j hs⟩))
        (net i).items.length 0 _ hrem (by rw [upd_self]; simp) (fun b s c hb => by omega)
      cases he : discLoop (disconnect f) i (net i).items.length 0 (upd net i { net i with ev := (net i).ev.disconnect c }) with
      | error e => rw [he] at hl; exact hl
      | ok net2 =>
        rw [he] at hl
        obtain ⟨l1, l2, l3, l4⟩ := hl
        rw [upd_self] at l3
        dsimp only at l3 ⊢
        have hfl := l1.flag (X := fun j => X j ∨ j = i) (.inr rfl) false
        refine ⟨⟨hfl.reach, hfl.conn, hfl.once, hfl.kept, hfl.down, hfl.zero, fun j hj => ?_⟩, fun d => ?_, ?_⟩
        · by_cases e : j = i
          · subst e
            rw [upd_self]
            dsimp only
            rw [l3]
            exact ⟨by simp [hn], fun a s c hx => by simp [hn, l2 a s c hx]⟩
          · exact hfl.coh j (fun hx => hx.elim hj e)
        · rw [upd_self]
          dsimp only
          rw [l3]; exact d1 d
        · refine (hfr.trans l4).trans ⟨fun j _ h2 => upd_ne _ _ h2, fun j => ?_, fun j c u hj => by rw [upd_ne _ _ hj]⟩
          by_cases e : j = i
          · subst e; rw [upd_self]
          · rw [upd_ne _ _ e]
    · rw [if_neg hn]
      refine ⟨⟨hrem.reach, hrem.conn, hrem.once, hrem.kept, hrem.down, hrem.zero, fun j hj => ?_⟩, fun d => ?_, hfr⟩
      · by_cases e : j = i
        · subst e
          rw [upd_self]
          dsimp only
          have hn0 : (net j).ev.num ≠ 0 := by
            obtain ⟨d, x, hx⟩ := (num_ne hcap d3).mp hn
            rw [d1] at hx
            split at hx
            · cases hx
            · exact (num_ne hcap (h.reach j)).mpr ⟨d, x, hx⟩
          refine ⟨⟨fun _ => hn, fun _ => hco.1.mpr hn0⟩, fun a s c hx => ⟨fun _ => hn, fun _ => (hco.2 a s c hx).mpr hn0⟩⟩
        · exact hrem.coh j (fun hx => hx.elim hj e)
      · rw [upd_self]; exact d1 d

end Verif.Log.Net
