import Verif.ZPacket.Effects
import Verif.Tag.Throw

/-!
Packets with zero-compressed buffers when there is no memory, as in `Verif.Packet.Throw` (`network/packet/packet.h`): `new Body` in
`MakePrivate` (`954-970`), the storage of the buffer (`zc-buffer.h:792`, `960`) or an array of tags (`Tag.Throw`) cannot be allocated, and the state is what the statements before left.

The buffer of a packet allocates before it changes anything (`zc-buffer.h:788-809`, `956-977`), so it is as it was
when that throws.  Whether the storage has to be allocated at all is not looked at: every `AddHeader` and `AddTrailer` may throw there.
-/
set_option linter.unusedSimpArgs false
set_option linter.unusedVariables false
namespace Verif.ZPacket

/-! ### Model -/

/-- Which allocation fails: the body, the storage of the bytes, an array of byte tags, an array of packet tags; `m` as in `Tag.State.fail`.
(`packet.h:722`, `954-970`; the allocations of `zc-buffer.h:395-470`, `630-1010`; `Tag.Throw`.) -/
inductive Point where
  | body
  | storage
  | byteTags (m : Nat)
  | packetTags (m : Nat)

/-- The exception reaches the caller, or it meets a `noexcept` and `std::terminate` is called.
(`noexcept` at `packet.h:812`, `820`, `893`.) -/
inductive Outcome where
  | thrown (s : PState)
  | terminated

/-- `MakePrivate` (`packet.h:954-970`) allocates a body. -/
def allocates (s : PState) (i : Nat) (held : Bool) : Bool :=
  match s.pkts[i]? with
  | none => false
  | some none => true
  | some (some d) =>
    match s.body d with
    | none => false
    | some y => decide (1 < y.ref) || held

/-- The packet that an operation makes private before anything else, and whether its body has another holder
(`packet.h:778-833`, `849-859`, `901-927`). -/
def PState.privates (s : PState) : Op → Option (Nat × Bool)
  | .addHeader i _ held | .addTrailer i _ held | .removeHeader i _ held | .removeTrailer i _ held
  | .addByteTag i _ _ _ _ held => some (i, held)
  | .addHeaderBuf i j held | .addTrailerBuf i j held => if s.free j then some (i, held) else none
  | .addPacketTag i _ k _ _ held =>
    match s.pkts[k]? with
    | none => none
    | some p => some (i, held || decide (s.pkts[i]? = some p))
  | .addHeaderPkt i j held | .addTrailerPkt i j held =>
    match s.pkts[j]? with
    | some (some c) => some (i, held || decide (s.pkts[i]? = some (some c)))
    | _ => none
  | _ => none

/-- What an operation that adds bytes does to the three parts of the body, in this order (`packet.h:778-810`, `901-927`); `x` is the body,
`s1` the state after `MakePrivate`. -/
def adds (s s1 : PState) (x : Body) : Op → Option (Zc.ZOp × Tag.Op Nat × Tag.Op (Option Nat))
  | .addHeader _ n _ => some (.addStart x.buf n, .addStart x.bt n, .addStart x.pt n)
  | .addTrailer _ n _ => some (.addEnd x.buf n, .addEnd x.bt n, .addEnd x.pt n)
  | .addHeaderBuf _ j _ => some (.addStartBuf x.buf j, .addStart x.bt (s1.bufs.size j), .addStart x.pt (s1.bufs.size j))
  | .addTrailerBuf _ j _ => some (.addEndBuf x.buf j, .addEnd x.bt (s1.bufs.size j), .addEnd x.pt (s1.bufs.size j))
  | .addHeaderPkt _ j _ =>
    match s.pkts[j]? with
    | some (some c) => (s.body c).map fun y => (.addStartBuf x.buf y.buf, .addListStart x.bt y.bt, .addListStart x.pt y.pt)
    | _ => none
  | .addTrailerPkt _ j _ =>
    match s.pkts[j]? with
    | some (some c) => (s.body c).map fun y => (.addEndBuf x.buf y.buf, .addListEnd x.bt y.bt, .addListEnd x.pt y.pt)
    | _ => none
  | _ => none

/-- The state when an array of byte tags cannot be allocated: the bytes have been added (`packet.h:781-782`, `790-791`, `799-800`,
`807-808`, `909-910`, `923-924`), or there were no bytes to add (`AddByteTag`, `831-832`). -/
def failByteTags (s s1 : PState) (x : Body) (m : Nat) (o : Op) : Option PState :=
  match o with
  | .addByteTag _ id v start size _ => (s1.bt.fail m (.insert x.bt id v start size)).map fun b => { s1 with bt := b }
  | o =>
    match adds s s1 x o with
    | none => none
    | some (p, q, _) =>
      match s1.bufs.step p, s1.bt.fail m q with
      | some a, some b => some { s1 with bufs := a, bt := b }
      | _, _ => none

/-- The same for the array of packet tags; the byte tags have followed the bytes.  (`packet.h:778-810`, `901-927`.) -/
def failPacketTags (s s1 : PState) (x : Body) (m : Nat) (o : Op) : Option PState :=
  match o with
  | .addPacketTag _ id k start size _ =>
    match s.pkts[k]? with
    | none => none
    | some p => (s1.pt.fail m (.insert x.pt id p start size)).map fun c => { s1 with pt := c }
  | o =>
    match adds s s1 x o with
    | none => none
    | some (p, q, r) =>
      match s1.bufs.step p, s1.bt.step q, s1.pt.fail m r with
      | some a, some b, some c => some { s1 with bufs := a, bt := b, pt := c }
      | _, _, _ => none

/-- An operation finds no memory at a point; `none` where it allocates nothing there (`packet.h`: constructor from a buffer `720-728`,
`RemoveHeader`, `RemoveTrailer`, `MakeFragment` are `noexcept`, `812-826`, `893-899`, and the copy that `MakeFragment` starts with always
shares its body). -/
def PState.fail (s : PState) (o : Op) : Point → Option Outcome
  | .body =>
    match o with
    | .fromBuf _ => some (.thrown s)
    | .fragment j _ _ => if j < s.pkts.length then some .terminated else none
    | .removeHeader i _ held | .removeTrailer i _ held => if allocates s i held then some .terminated else none
    | o =>
      match s.privates o with
      | none => none
      | some (i, held) => if allocates s i held then some (.thrown s) else none
  | .storage =>
    match s.privates o with
    | none => none
    | some (i, held) =>
      match makePrivate s i held with
      | none => none
      | some (s1, x) => (adds s s1 x o).map fun _ => .thrown s1
  | .byteTags m =>
    match s.privates o with
    | none => none
    | some (i, held) =>
      match makePrivate s i held with
      | none => none
      | some (s1, x) => (failByteTags s s1 x m o).map .thrown
  | .packetTags m =>
    match s.privates o with
    | none => none
    | some (i, held) =>
      match makePrivate s i held with
      | none => none
      | some (s1, x) => (failPacketTags s s1 x m o).map .thrown

/-- An operation that returns, or one that throws.  (A client; no code.) -/
inductive Ev where
  | done (o : Op)
  | failed (o : Op) (p : Point)

/-- One operation that returns or throws.  (A client; no code.) -/
def PState.stepE (s : PState) : Ev → Option PState
  | .done o => s.step o
  | .failed o p =>
    match s.fail o p with
    | some (.thrown s') => some s'
    | _ => none

/-- A history of such operations.  (A client; no code.) -/
def PState.runE (s : PState) : List Ev → Option PState
  | [] => some s
  | e :: es =>
    match s.stepE e with
    | none => none
    | some s1 => s1.runE es

/-- The failures other than those of tag lists that have to follow bytes which were already added.  (Specification; no code.) -/
def Ev.clean : Ev → Bool
  | .done _ => true
  | .failed _ .body | .failed _ .storage => true
  | .failed (.addByteTag ..) (.byteTags _) | .failed (.addPacketTag ..) (.packetTags _) => true
  | _ => false

/-! ### Lemmas -/

/-- A tag list operation that changes nothing that can be seen.  (Specification; no code.) -/
def Idle {V : Type} (i : Nat) (o : Tag.Op V) : Prop := o = .removeStart i 0 ∨ o = .addStart i 0

theorem insert_fail {V : Type} {t t' : Tag.State V} {m i id start size : Nat} {v : V} (b : Tag.TBase t.heap t.lists)
    (hi : i < t.lists.length) (h : t.fail m (.insert i id v start size) = some t') : ∃ o, Idle i o ∧ t.step o = some t' := by
  simp only [Tag.State.fail] at h
  obtain ⟨l, h', l', hl, e, rfl⟩ := Tag.on_some h
  split at e
  · have same : (h', l') = (t.heap, l) → ∃ o, Idle i o ∧ t.step o = some ⟨h', t.lists.set i l'⟩ := by
      intro q
      cases q
      refine ⟨.removeStart i 0, .inl rfl, ?_⟩
      rw [tag_noop b hi]
      have : t.lists.set i l = t.lists := by
        apply List.ext_getElem?; intro k
        rw [List.getElem?_set]
        by_cases e : i = k
        · subst e; rw [if_pos rfl, if_pos hi, hl]
        · rw [if_neg e]
      rw [this]
    unfold Tag.prepareFail at e
    cases ht : l.tia with
    | none => simp only [ht, Option.some.injEq] at e; exact same e.symm
    | some a =>
      obtain ⟨x, hx, hxl⟩ := (Tag.head_base b hl).held l (List.mem_cons_self ..) a ht
      simp only [ht, hx] at e
      by_cases h1 : x.ref = 1
      · rw [if_pos h1] at e
        have c4 := (Tag.compact_ok (Tag.head_base b hl) ht hx h1).2.2.2.1
        simp only [c4] at e
        split at e
        · refine ⟨.addStart i 0, .inr rfl, ?_⟩
          simp only [Option.some.injEq] at e
          have : Tag.expand t.heap l 0 0 = some (h', l') := by
            unfold Tag.expand
            simp only [ht, hx, if_pos h1, e]
            simp
          simp [Tag.State.step, Tag.State.on, hl, this]
        · cases e
      · rw [if_neg h1] at e
        split at e
        · simp only [Option.some.injEq] at e; exact same e.symm
        · split at e
          · cases e
          · simp only [Option.some.injEq] at e; exact same e.symm
  · cases e

theorem idle_size {V : Type} {t t' : Tag.State V} {i : Nat} {o : Tag.Op V} (b : Tag.TBase t.heap t.lists) (ho : Idle i o)
    (h : t.step o = some t') : t'.size i = t.size i ∧ ∀ id off, off < t.size i → t'.get i id off = t.get i id off := by
  rcases ho with rfl | rfl
  · have k := (Tag.resize_of _ _ b i 0).2.2.1 h
    exact ⟨by omega, fun id off _ => k.2 off id⟩
  · have k := (Tag.resize_of _ _ b i 0).1 h
    exact ⟨by omega, fun id off ho => k.2 off ho id⟩

theorem idle_targets {V : Type} {i : Nat} {o : Tag.Op V} (ho : Idle i o) : o.targets = [i] := by
  rcases ho with rfl | rfl <;> rfl

/-- Nothing that packets show has changed.  (Specification; no code.) -/
structure Quiet (s s' : PState) : Prop where
  inv : PInv s' s'.pkts
  len : s'.pkts.length = s.pkts.length
  bytes : ∀ k, s'.bytes k = s.bytes k
  bt : ∀ k id off, off < s.size k → s'.byteTag k id off = s.byteTag k id off
  pt : ∀ k id off, off < s.size k → s'.packetTag k id off = s.packetTag k id off
  wide : W s → W s'

theorem quiet_refl {s : PState} (v : PInv s s.pkts) : Quiet s s :=
  ⟨v, rfl, fun _ => rfl, fun _ _ _ _ => rfl, fun _ _ _ _ => rfl, fun h => h⟩

theorem private_quiet {s s1 s2 : PState} {i : Nat} {held : Bool} {x : Body} (v : PInv s s.pkts)
    (h : makePrivate s i held = some (s1, x)) {p : Tag.Op Nat} {q : Tag.Op (Option Nat)} (hp : Idle x.bt p) (hq : Idle x.pt q)
    (e : act s1 (.removeStart x.buf 0) p q = some s2) : Quiet s s2 := by
  obtain ⟨e1, e2, e3⟩ := act_parts e
  obtain ⟨p0, b, g1, g2, g3, _, _, _, g4, g5⟩ := own_run v h e rfl (idle_targets hp) (idle_targets hq) (by
    intro P b v1 hx
    have sy := v1.sync b x hx
    rw [(idle_size v1.tb hp e2).1, (idle_size v1.tp hq e3).1, bsize_removeStart v1.bb (Nat.zero_le _) e1]
    omega)
  have a := priv_parts (v.perm (perm_pkts g1)) g1 g2
  have o := own_parts g1 g3
  have sy := g2.inv.sync b x g2.body
  have r := g2.inv.range b x g2.body
  rw [buf_noop g2.inv.bb r.1] at e1
  have hb := (Option.some.inj e1).symm
  have oth : ∀ k, k ≠ i → s2.bytes k = s.bytes k ∧ (∀ id off, s2.byteTag k id off = s.byteTag k id off) ∧
      ∀ id off, s2.packetTag k id off = s.packetTag k id off := by
    intro k hk
    cases hq : s.pkts[k]? with
    | some q =>
      obtain ⟨z1, z2⟩ := g4 rfl k q hq hk
      obtain ⟨a1, a2, a3⟩ := obs_view z1
      obtain ⟨b1, b2, b3⟩ := obs_view hq
      exact ⟨by rw [a1, b1, z2], fun id off => by rw [a2, b2, z2], fun id off => by rw [a3, b3, z2]⟩
    | none =>
      have hq' : s2.pkts[k]? = none := by rw [g3.pkts, List.getElem?_set_ne (Ne.symm hk)]; exact hq
      simp [PState.bytes, PState.byteTag, PState.packetTag, hq, hq']
  refine ⟨g3.inv, by rw [g3.pkts]; simp, fun k => ?_, fun k id off ho => ?_, fun k id off ho => ?_, fun hw => (g5 trivial hw).1⟩
  · by_cases hk : k = i
    · subst hk; rw [o.bytes, a.1, hb]
    · exact (oth k hk).1
  · by_cases hk : k = i
    · subst hk; rw [o.bt, a.2.2.1, (idle_size g2.inv.tb hp e2).2 id off (by rw [sy.1, ← a.2.1]; exact ho)]
    · exact (oth k hk).2.1 id off
  · by_cases hk : k = i
    · subst hk; rw [o.pt, a.2.2.2, (idle_size g2.inv.tp hq e3).2 id off (by rw [sy.2, ← a.2.1]; exact ho)]
    · exact (oth k hk).2.2 id off

theorem private_body {s s1 : PState} {i : Nat} {held : Bool} {x : Body} (v : PInv s s.pkts) (h : makePrivate s i held = some (s1, x)) :
    ∃ P b, PInv s1 P ∧ s1.body b = some x := by
  cases hp0 : s.pkts[i]? with
  | none => simp [makePrivate, hp0] at h
  | some p0 =>
    obtain ⟨b, pr⟩ := makePrivate_ok (v.perm (perm_pkts hp0)) hp0 h
    exact ⟨_, b, pr.inv, pr.body⟩

theorem fail_quiet {s s' : PState} {o : Op} {p : Point} (v : PInv s s.pkts) (h : s.fail o p = some (.thrown s'))
    (hc : (Ev.failed o p).clean = true) : Quiet s s' := by
  cases p with
  | body =>
    have e : s' = s := by
      simp only [PState.fail] at h
      split at h
      · cases h; rfl
      · split at h <;> cases h
      · split at h <;> cases h
      · split at h <;> cases h
      · split at h
        · cases h
        · split at h
          · cases h; rfl
          · cases h
    rw [e]; exact quiet_refl v
  | storage =>
    simp only [PState.fail] at h
    split at h
    · cases h
    · rename_i i held hi
      split at h
      · cases h
      · rename_i s1 x e
        obtain ⟨P, b, v1, hx⟩ := private_body v e
        have r := v1.range b x hx
        have hs : s' = s1 := by
          cases ha : adds s s1 x o with
          | none => rw [ha] at h; cases h
          | some z => rw [ha] at h; simp at h; exact h.symm
        rw [hs]
        exact private_quiet v e (.inl rfl) (.inl rfl) (by simp [act, buf_noop v1.bb r.1, tag_noop v1.tb r.2.1, tag_noop v1.tp r.2.2])
  | byteTags m =>
    cases o with
    | addByteTag i id w start size held =>
      simp only [PState.fail, PState.privates] at h
      split at h
      · cases h
      · rename_i s1 x e
        obtain ⟨P, b, v1, hx⟩ := private_body v e
        have r := v1.range b x hx
        simp only [failByteTags] at h
        cases hf : s1.bt.fail m (.insert x.bt id w start size) with
        | none => rw [hf] at h; cases h
        | some c =>
          rw [hf] at h; cases h
          obtain ⟨o, h1, h2⟩ := insert_fail v1.tb r.2.1 hf
          exact private_quiet v e h1 (.inl rfl) (on_act_bt v1 hx (by simp [PState.onBt, h2]))
    | _ => cases hc
  | packetTags m =>
    cases o with
    | addPacketTag i id k start size held =>
      simp only [PState.fail, PState.privates] at h
      cases hk : s.pkts[k]? with
      | none => simp [hk] at h
      | some p =>
        simp only [hk] at h
        split at h
        · cases h
        · rename_i s1 x e
          obtain ⟨P, b, v1, hx⟩ := private_body v e
          have r := v1.range b x hx
          simp only [failPacketTags, hk] at h
          cases hf : s1.pt.fail m (.insert x.pt id p start size) with
          | none => rw [hf] at h; cases h
          | some c =>
            rw [hf] at h; cases h
            obtain ⟨o, h1, h2⟩ := insert_fail v1.tp r.2.2 hf
            exact private_quiet v e (.inl rfl) h1 (on_act_pt v1 hx (by simp [PState.onPt, h2]))
    | _ => cases hc

theorem stepE_inv {s s' : PState} {e : Ev} (v : PInv s s.pkts) (hc : e.clean = true) (h : s.stepE e = some s') : PInv s' s'.pkts := by
  cases e with
  | done o => exact (step_ok v h).inv
  | failed o p =>
    simp only [PState.stepE] at h
    split at h
    · rename_i s1 e; cases h; exact (fail_quiet v e hc).inv
    · cases h

theorem runE_inv {hist : List Ev} : ∀ {s s' : PState}, PInv s s.pkts → (∀ e ∈ hist, e.clean = true) → s.runE hist = some s' →
    PInv s' s'.pkts := by
  induction hist with
  | nil => intro s s' v _ h; cases h; exact v
  | cons o os ih =>
    intro s s' v hc h
    simp only [PState.runE] at h
    split at h
    · cases h
    · rename_i s1 e; exact ih (stepE_inv v (hc o (by simp)) e) (fun e he => hc e (by simp [he])) h

end Verif.ZPacket
