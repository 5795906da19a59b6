import Verif.Log.NetLemmas
set_option linter.unusedSimpArgs false
set_option linter.unusedVariables false
/-! The calls of the user on a network of loggers keep the invariant. -/
namespace Verif.Log.Net
open Verif.Event (Table Reachable sinkAt liveCookies C35_connect C35_disconnect C35_count)

variable {cap : Nat} {rk : Nat → Nat}

/-- The invariant between the calls of the user. -/
abbrev Sound (cap : Nat) (rk : Nat → Nat) (net : Loggers) : Prop := Inv cap rk net (fun _ => False) (fun _ _ _ => False)

/-- The network is as the calls of the user say. -/
structure Shows (net : Loggers) (tr : Trace) : Prop where
  users : ∀ i c k, sinkAt (net i).ev c = some (.user k) ↔ connected i c tr = some k
  regs : ∀ j a, ((net j).items[a]?.bind (·.1)) = registered j (a + 1) tr
  none : ∀ j, registered j 0 tr = none

theorem connected_append (i c : Nat) (tr : Trace) (e : Op × Nat) : connected i c (tr ++ [e]) = match e with
    | (.connect i' k, c') => if i' = i ∧ c' = c then some k else connected i c tr
    | (.disconnect i' c', _) => if i' = i ∧ c' = c then none else connected i c tr
    | _ => connected i c tr := by
  rw [connected, List.foldl_append]; rfl

theorem registered_append (j c : Nat) (tr : Trace) (e : Op × Nat) : registered j c (tr ++ [e]) = match e with
    | (.register j' s, c') => if j' = j ∧ c' = c then some s else registered j c tr
    | (.unregister j' c', _) => if j' = j ∧ c' = c then none else registered j c tr
    | _ => registered j c tr := by
  rw [registered, List.foldl_append]; rfl

theorem srcs_get {net net' : Loggers} {j : Nat} (h : (net' j).items.map (·.1) = (net j).items.map (·.1)) (a : Nat) :
    (net' j).items[a]?.bind (·.1) = (net j).items[a]?.bind (·.1) := by
  have : ((net' j).items.map (·.1))[a]? = ((net j).items.map (·.1))[a]? := by rw [h]
  rw [List.getElem?_map, List.getElem?_map] at this
  cases h1 : (net' j).items[a]? <;> cases h2 : (net j).items[a]? <;> simp_all

/-- A source is noted at the item `a`, without connection. -/
theorem Inv.put {net net1 : Loggers} {j a s : Nat} (h : Sound cap rk net) (hs : rk s < rk j)
    (hev : ∀ k, (net1 k).ev = (net k).ev) (hsk : ∀ k, (net1 k).sink = (net k).sink)
    (hit : ∀ k b, (net1 k).items[b]? = if k = j ∧ b = a then some (some s, 0) else (net k).items[b]?)
    (hold : ∀ x, (net j).items[a]? = some x → x.1 = none) : Inv cap rk net1 (fun k => k = j) (fun _ _ _ => False) := by
  refine ⟨fun i => by rw [hev]; exact h.reach i, fun m b t c hb hc => ?_, fun m b b' x hb hb' hx => ?_,
    fun t c m hs => ?_, fun m b t c hb => ?_, fun m b c hb => ?_, fun m hm => ?_⟩
  · rw [hit] at hb
    rw [hev]
    split at hb
    · cases hb; exact absurd rfl hc
    · exact h.conn m b t c hb hc
  · rw [hit] at hb hb'
    split at hb
    · cases hb; exact absurd rfl hx
    · split at hb'
      · cases hb'; exact absurd rfl hx
      · exact h.once m b b' x hb hb' hx
  · rw [hev] at hs
    rcases h.kept t c m hs with ⟨b, hb⟩ | h1
    · refine .inl ⟨b, ?_⟩
      rw [hit, if_neg]
      · exact hb
      · rintro ⟨rfl, rfl⟩
        have := hold _ hb
        cases this
    · exact h1.elim
  · rw [hit] at hb
    split at hb
    · rename_i e; obtain ⟨rfl, rfl⟩ := e; cases hb; exact hs
    · exact h.down m b t c hb
  · rw [hit] at hb
    split at hb
    · cases hb
    · exact h.zero m b c hb
  · rw [hsk, hev]
    refine ⟨(h.coh m not_false).1, fun b t c hb => ?_⟩
    rw [hit, if_neg (fun e => hm e.1)] at hb
    exact (h.coh m not_false).2 b t c hb

theorem register_ok (hcap : cap < 2 ^ 32) {f : Nat} (hf : ∀ j, rk j < f) {net : Loggers} (h : Sound cap rk net) {j s : Nat}
    (hs : rk s < rk j) :
    match register cap f net j s with
    | .error e => e = .event .connectionLimit
    | .ok (c, net') => Sound cap rk net' ∧ ∃ a, c = a + 1 ∧ (net j).items[a]?.bind (·.1) = none ∧
      (∀ k b, (net' k).items[b]?.bind (·.1) = if k = j ∧ b = a then some s else (net k).items[b]?.bind (·.1)) ∧
      (∀ k c u, sinkAt (net' k).ev c = some (.user u) ↔ sinkAt (net k).ev c = some (.user u)) := by
  obtain ⟨sl1, sl2⟩ := slot_spec (net j).items
  have hc0 : ((net j).items[slot (net j).items]?.map (·.2)).getD 0 = 0 := by
    cases hx : (net j).items[slot (net j).items]? with
    | none => rfl
    | some x =>
      obtain ⟨o, c⟩ := x
      have : o = none := sl2 _ hx
      subst this
      exact h.zero _ _ _ hx
  have hnone : (net j).items[slot (net j).items]?.bind (·.1) = none := by
    cases hx : (net j).items[slot (net j).items]? with
    | none => rfl
    | some x => exact sl2 _ hx
  -- the network with the source noted
  have key : ∃ net1 : Loggers, net1 = (if slot (net j).items < (net j).items.length then net.setItem j (slot (net j).items) (some s, 0)
      else upd net j { net j with items := (net j).items ++ [(some s, 0)] }) ∧ (∀ k, (net1 k).ev = (net k).ev) ∧
      (∀ k, (net1 k).sink = (net k).sink) ∧
      (∀ k b, (net1 k).items[b]? = if k = j ∧ b = slot (net j).items then some (some s, 0) else (net k).items[b]?) := by
    refine ⟨_, rfl, ?_⟩
    split
    · rename_i hlt
      refine ⟨fun k => setItem_ev .., fun k => setItem_sink .., fun k b => ?_⟩
      rw [setItem_items]
      simp [hlt]
    · rename_i hlt
      have hle : slot (net j).items = (net j).items.length := by omega
      refine ⟨fun k => ?_, fun k => ?_, fun k b => ?_⟩
      · by_cases e : k = j
        · subst e; rw [upd_self]
        · rw [upd_ne _ _ e]
      · by_cases e : k = j
        · subst e; rw [upd_self]
        · rw [upd_ne _ _ e]
      · by_cases e : k = j
        · subst e
          rw [upd_self, hle]
          dsimp only
          by_cases hb : b = (net k).items.length
          · subst hb; simp
          · rw [if_neg (by simp [hb])]
            by_cases hb2 : b < (net k).items.length
            · rw [List.getElem?_append_left hb2]
            · rw [List.getElem?_eq_none (by simp; omega), List.getElem?_eq_none (by omega)]
        · rw [upd_ne _ _ e, if_neg (fun h => e h.1)]
  obtain ⟨net1, e1, hev, hsk, hit⟩ := key
  have hput := Inv.put h hs hev hsk hit sl2
  have hita : (net1 j).items[slot (net j).items]? = some (some s, 0) := by rw [hit, if_pos ⟨rfl, rfl⟩]
  unfold register
  dsimp only
  rw [hc0, ← e1]
  cases hsj : (net1 j).sink with
  | false =>
    simp only [Bool.false_eq_true, if_false]
    refine ⟨⟨hput.reach, hput.conn, hput.once, hput.kept, hput.down, hput.zero, fun m _ => ?_⟩, slot (net j).items, rfl, hnone, fun k b => ?_, fun k c u => by rw [hev]⟩
    · by_cases e : m = j
      · subst e
        have hco := h.coh m not_false
        rw [hsk] at hsj
        have hn : (net m).ev.num = 0 := by
          by_contra hn
          rw [hco.1.mpr hn] at hsj; cases hsj
        rw [hev, hsk, hn, hsj]
        refine ⟨by simp, fun a t c hx => ?_⟩
        rw [hit] at hx
        split at hx
        · cases hx; simp
        · have := hco.2 a t c hx
          rwa [hn] at this
      · exact hput.coh m e
    · rw [hit]
      split <;> rfl
  | true =>
    simp only [if_true]
    have hg := connect_ok hcap f net1 s (.logger j) _ _ (hf s) hput (fun k hk => by subst hk; exact hs) (fun _ _ _ hx => hx.elim)
    cases hcn : connect cap f net1 s (.logger j) with
    | error e => rw [hcn] at hg; exact hg
    | ok r =>
      obtain ⟨k, net2⟩ := r
      rw [hcn] at hg
      obtain ⟨g1, g2, g3, g4, g5⟩ := hg
      dsimp only
      have hne : j ≠ s := by rintro rfl; omega
      have hnj : net2 j = net1 j := g5.above j (by omega) hne
      have hk : sinkAt (net2 s).ev k = some (.logger j) := by rw [g4, if_pos rfl]
      have hst : Inv cap rk (net2.setItem j (slot (net j).items) (some s, k)) (fun k => k = j) (fun _ _ _ => False) := by
        refine Inv.stored (c0 := 0) (g1.mono (fun _ hx => hx) ?_) (by rw [hnj]; exact hita) hk rfl (fun _ _ hx => hx) (fun h0 => absurd rfl h0) ?_
        · rintro x c m (hx | ⟨rfl, rfl, e⟩)
          · exact hx.elim
          · cases e; exact .inr ⟨rfl, rfl, rfl⟩
        · intro b hb _
          rw [hnj] at hb
          rcases hput.conn j b s k hb g2 with h1 | h1
          · rw [g3] at h1; cases h1
          · exact h1.elim
      have hlen : slot (net j).items < (net2 j).items.length := by
        rw [hnj]; exact (List.getElem?_eq_some_iff.mp hita).1
      refine ⟨⟨hst.reach, hst.conn, hst.once, hst.kept, hst.down, hst.zero, fun m _ => ?_⟩, slot (net j).items, rfl, hnone, fun m b => ?_, fun m c u => ?_⟩
      · by_cases e : m = j
        · subst e
          have hco := h.coh m not_false
          rw [setItem_sink, setItem_ev, hnj, hev]
          have hs1 := hsj
          rw [hsk] at hs1
          have hn := hco.1.mp hs1
          refine ⟨⟨fun _ => hn, fun _ => hsj⟩, fun a t c hx => ⟨fun _ => hn, fun _ => ?_⟩⟩
          rw [setItem_items] at hx
          split at hx
          · cases hx; exact g2
          · rename_i e
            rw [hnj, hit, if_neg] at hx
            · exact (hco.2 a t c hx).mpr hn
            · rintro ⟨-, rfl⟩
              exact e ⟨rfl, rfl, hlen⟩
        · exact hst.coh m e
      · rw [setItem_items]
        split
        · rename_i e
          rw [if_pos ⟨e.1, e.2.1⟩]; rfl
        · rename_i e
          rw [srcs_get (g5.srcs m), hit]
          split
          · rfl
          · rfl
      · rw [setItem_ev, ← hev]
        by_cases e : m = s
        · subst e
          rw [g4]
          by_cases e : c = k
          · subst e; rw [if_pos rfl, g3]; simp
          · rw [if_neg e]
        · exact g5.users m c u e

theorem unregister_ok (hcap : cap < 2 ^ 32) {f : Nat} (hf : ∀ j, rk j < f) {net : Loggers} (h : Sound cap rk net) {j c s : Nat}
    (hreg : c ≠ 0) (hs : (net j).items[c - 1]?.bind (·.1) = some s) :
    ∃ net', unregister f net j c = some (.ok net') ∧ Sound cap rk net' ∧
      (∀ k b, (net' k).items[b]?.bind (·.1) = if k = j ∧ b = c - 1 then none else (net k).items[b]?.bind (·.1)) ∧
      (∀ k c u, sinkAt (net' k).ev c = some (.user u) ↔ sinkAt (net k).ev c = some (.user u)) := by
  cases hit : (net j).items[c - 1]? with
  | none => rw [hit] at hs; cases hs
  | some x =>
    obtain ⟨o, k⟩ := x
    rw [hit] at hs
    have hs : o = some s := hs
    subst hs
    have hr := h.down _ _ _ _ hit
    have hlen := (List.getElem?_eq_some_iff.mp hit).1
    have hco := h.coh j not_false
    -- whatever is done to the connection, crossing out the item ends well
    have fin : ∀ net1 : Loggers, Inv cap rk net1 (fun m => m = j) (fun x d m => False ∨ (x = s ∧ d = k ∧ m = j)) → net1 j = net j →
        sinkAt (net1 s).ev k = none → (∀ m, (net1 m).items.map (·.1) = (net m).items.map (·.1)) →
        (∀ m c u, sinkAt (net1 m).ev c = some (.user u) ↔ sinkAt (net m).ev c = some (.user u)) →
        Sound cap rk (net1.setItem j (c - 1) (none, 0)) ∧
        (∀ m b, ((net1.setItem j (c - 1) (none, 0)) m).items[b]?.bind (·.1) =
          if m = j ∧ b = c - 1 then none else (net m).items[b]?.bind (·.1)) ∧
        (∀ m d u, sinkAt ((net1.setItem j (c - 1) (none, 0)) m).ev d = some (.user u) ↔ sinkAt (net m).ev d = some (.user u)) := by
      intro net1 h1 hj hk hsr hu
      have hcl := Inv.cleared h1 (by rw [hj]; exact hit) hk rfl (o := none) (.inr rfl)
      refine ⟨⟨hcl.reach, hcl.conn, hcl.once, hcl.kept, hcl.down, hcl.zero, fun m _ => ?_⟩, fun m b => ?_, fun m d u => ?_⟩
      · by_cases e : m = j
        · subst e
          rw [setItem_sink, setItem_ev, hj]
          refine ⟨hco.1, fun a t d hx => ?_⟩
          rw [setItem_items] at hx
          split at hx
          · cases hx
          · rw [hj] at hx; exact hco.2 a t d hx
        · exact hcl.coh m e
      · rw [setItem_items]
        split
        · rename_i e; rw [if_pos ⟨e.1, e.2.1⟩]; rfl
        · rename_i e
          rw [srcs_get (hsr m), if_neg]
          rintro ⟨rfl, rfl⟩
          exact e ⟨rfl, rfl, by rw [hj]; exact hlen⟩
      · rw [setItem_ev]; exact hu m d u
    rw [unregister, if_neg hreg, hit]
    dsimp only
    by_cases hk : k = 0
    · subst hk
      rw [if_neg (by simp)]
      exact ⟨_, rfl, fin net (h.mono (fun _ hx => hx.elim) (fun _ _ _ hx => hx.elim)) rfl (sinkAt_zero _) (fun _ => rfl) (fun _ _ _ => Iff.rfl)⟩
    · rw [if_pos hk]
      have hcon : sinkAt (net s).ev k = some (.logger j) := (h.conn _ _ _ _ hit hk).resolve_right id
      have hg := disconnect_ok hcap f net s k (fun m => m = j) (fun x d m => False ∨ (x = s ∧ d = k ∧ m = j)) (hf s)
        (h.mono (fun _ hx => hx.elim) (fun _ _ _ hx => hx.elim)) (fun m hm => by subst hm; exact hr)
        (fun _ _ m hx => by rcases hx with hx | ⟨-, -, e⟩; exacts [hx.elim, e])
        (fun m hm => by rw [hcon] at hm; cases hm; exact .inr ⟨rfl, rfl, rfl⟩)
      cases hd : disconnect f net s k with
      | error e => rw [hd] at hg; exact hg.elim
      | ok net1 =>
        rw [hd] at hg
        obtain ⟨g1, g4, g5⟩ := hg
        have hne : j ≠ s := by rintro rfl; omega
        refine ⟨_, rfl, fin net1 g1 (g5.above j (by omega) hne) (by rw [g4, if_pos rfl]) g5.srcs (fun m d u => ?_)⟩
        by_cases e : m = s
        · subst e
          rw [g4]
          by_cases e : d = k
          · subst e; rw [if_pos rfl, hcon]; simp
          · rw [if_neg e]
        · exact g5.users m d u e

theorem sound_init : Sound cap rk (fun _ => .init) where
  reach _ := ⟨[], rfl⟩
  conn := by simp [Node.init]
  once := by simp [Node.init]
  kept s c j h := by
    rw [Event.sinkAt_eq] at h
    simp [Node.init, Table.sl, Table.init] at h
  down := by simp [Node.init]
  zero := by simp [Node.init]
  coh := by simp [Node.init, Table.init]

theorem shows_init : Shows (fun _ => .init) [] where
  users i c k := by
    rw [Event.sinkAt_eq]
    simp [Node.init, Table.sl, Table.init, connected]
  regs := by simp [Node.init, registered]
  none := by simp [registered]

/-- One call: it succeeds or says `ConnectionLimit`. -/
theorem step_ok (hcap : cap < 2 ^ 32) {f : Nat} (hf : ∀ j, rk j < f) {net : Loggers} {tr : Trace} (h : Sound cap rk net) (hs : Shows net tr)
    {o : Op} (ho : Ok rk tr o) :
    ∃ r, step cap f net o = some r ∧ match r with
      | .error e => e = .event .connectionLimit ∧ ((∃ i k, o = .connect i k) ∨ ∃ j s, o = .register j s)
      | .ok (c, net') => Sound cap rk net' ∧ Shows net' (tr ++ [(o, c)]) := by
  cases o with
  | connect i k =>
    refine ⟨_, rfl, ?_⟩
    have hg := connect_ok hcap f net i (.user k) _ _ (hf i) h (fun _ hx => hx.elim) (fun _ _ _ hx => hx.elim)
    cases hc : connect cap f net i (.user k) with
    | error e => rw [hc] at hg; exact ⟨hg, .inl ⟨i, k, rfl⟩⟩
    | ok r =>
      obtain ⟨c, net'⟩ := r
      rw [hc] at hg
      obtain ⟨g1, g2, g3, g4, g5⟩ := hg
      refine ⟨g1.mono (fun _ hx => hx) ?_, ⟨fun i' c' k' => ?_, fun j a => ?_, fun j => ?_⟩⟩
      · rintro x d m (hx | ⟨-, -, e⟩)
        · exact hx
        · cases e
      · rw [connected_append]
        dsimp only
        by_cases e : i' = i
        · subst e
          rw [g4]
          by_cases e : c' = c
          · subst e; simp
          · rw [if_neg e, if_neg (fun x => e x.2.symm)]; exact hs.users _ _ _
        · rw [if_neg (fun x => e x.1.symm), g5.users _ _ _ e]; exact hs.users _ _ _
      · rw [registered_append]
        dsimp only
        rw [srcs_get (g5.srcs j)]; exact hs.regs j a
      · rw [registered_append]; exact hs.none j
  | disconnect i c =>
    refine ⟨_, rfl, ?_⟩
    obtain ⟨k, hk⟩ := Option.isSome_iff_exists.mp ho
    have hu := (hs.users i c k).mpr hk
    have hg := disconnect_ok hcap f net i c _ _ (hf i) h (fun _ hx => hx.elim) (fun _ _ _ hx => hx.elim)
      (fun j hj => by rw [hu] at hj; cases hj)
    cases hd : disconnect f net i c with
    | error e => rw [hd] at hg; exact hg.elim
    | ok net' =>
      rw [hd] at hg
      obtain ⟨g1, g4, g5⟩ := hg
      refine ⟨g1, ⟨fun i' c' k' => ?_, fun j a => ?_, fun j => ?_⟩⟩
      · rw [connected_append]
        dsimp only
        by_cases e : i' = i
        · subst e
          rw [g4]
          by_cases e : c' = c
          · subst e; simp
          · rw [if_neg e, if_neg (fun x => e x.2.symm)]; exact hs.users _ _ _
        · rw [if_neg (fun x => e x.1.symm), g5.users _ _ _ e]; exact hs.users _ _ _
      · rw [registered_append]
        dsimp only
        rw [srcs_get (g5.srcs j)]; exact hs.regs j a
      · rw [registered_append]; exact hs.none j
  | register j s =>
    refine ⟨_, rfl, ?_⟩
    have hg := register_ok hcap hf h (j := j) (s := s) ho
    cases hr : register cap f net j s with
    | error e => rw [hr] at hg; exact ⟨hg, .inr ⟨j, s, rfl⟩⟩
    | ok r =>
      obtain ⟨c, net'⟩ := r
      rw [hr] at hg
      obtain ⟨g1, a, rfl, g3, g4, g5⟩ := hg
      refine ⟨g1, ⟨fun i' c' k' => ?_, fun j' b => ?_, fun j' => ?_⟩⟩
      · rw [connected_append]
        dsimp only
        rw [g5]; exact hs.users _ _ _
      · rw [registered_append]
        dsimp only
        rw [g4, hs.regs]
        by_cases e : j' = j ∧ b = a
        · rw [if_pos e, if_pos ⟨e.1.symm, by rw [e.2]⟩]
        · rw [if_neg e, if_neg (fun x => e ⟨x.1.symm, by omega⟩)]
      · rw [registered_append]
        dsimp only
        rw [if_neg (by omega)]; exact hs.none j'
  | unregister j c =>
    obtain ⟨s, hk⟩ := Option.isSome_iff_exists.mp ho
    have hc0 : c ≠ 0 := by rintro rfl; rw [hs.none] at hk; cases hk
    have hit : (net j).items[c - 1]?.bind (·.1) = some s := by
      rw [hs.regs, show c - 1 + 1 = c by omega]; exact hk
    obtain ⟨net', e, g1, g4, g5⟩ := unregister_ok hcap hf h hc0 hit
    refine ⟨.ok (0, net'), by rw [step, e]; rfl, g1, ⟨fun i' c' k' => ?_, fun j' b => ?_, fun j' => ?_⟩⟩
    · rw [connected_append]
      dsimp only
      rw [g5]; exact hs.users _ _ _
    · rw [registered_append]
      dsimp only
      rw [g4, hs.regs]
      by_cases e : j' = j ∧ b = c - 1
      · rw [if_pos e, if_pos ⟨e.1.symm, by omega⟩]
      · rw [if_neg e, if_neg (fun x => e ⟨x.1.symm, by omega⟩)]
    · rw [registered_append]
      dsimp only
      rw [hs.none]; simp

theorem Reach.sound (hcap : cap < 2 ^ 32) {f : Nat} (hf : ∀ j, rk j < f) {net : Loggers} {tr : Trace} (h : Reach cap f rk net tr) :
    Sound cap rk net ∧ Shows net tr := by
  induction h with
  | init => exact ⟨sound_init, shows_init⟩
  | step h ho hst ih =>
    obtain ⟨r, h1, h2⟩ := step_ok hcap hf ih.1 ih.2 ho
    rw [hst] at h1
    cases h1
    exact h2

end Verif.Log.Net
