import Verif.ZPacket.Stack
import Verif.Tag.ThrowProps

/-!
Property theorems about packets with zero-compressed buffers that find no memory (C141).

`Reach` includes histories with failures of the kind of `C141_packets_partial`, so the theorems about packets (C125 to C129, C131)
hold after such failures too.
-/
set_option linter.unusedSimpArgs false
set_option linter.unusedVariables false
namespace Verif.ZPacket

/-- C141, packets (partial: not when a tag list cannot follow bytes that have already been added, see `C141_shift_fails`; not
`RemoveHeader`, `RemoveTrailer` and `MakeFragment`, see `C141_terminates_fails`).  An operation that throws because the body or the storage cannot be
allocated, or a tag that cannot be added, leaves the bytes of every packet and the tags of every byte as they were, and one can go on. -/
theorem C141_packets_partial (s s' : PState) (hs : Reach s) (o : Op) (p : Point) (h : s.fail o p = some (.thrown s'))
    (hc : (Ev.failed o p).clean = true) :
    Reach s' ∧ s'.pkts.length = s.pkts.length ∧ ∀ k, s'.bytes k = s.bytes k ∧ s'.size k = s.size k ∧
      ∀ id off, off < s.size k → s'.byteTag k id off = s.byteTag k id off ∧ s'.packetTag k id off = s.packetTag k id off := by
  have v := reach_inv hs
  have q := fail_quiet v h hc
  refine ⟨reach_stepE hs hc (by simp [PState.stepE, h]), q.len, fun k => ⟨q.bytes k, ?_, fun id off ho => ⟨q.bt k id off ho, q.pt k id off ho⟩⟩⟩
  rw [size_bytes q.inv, size_bytes v, q.bytes]

/-- C141: an operation that failed in this way can be repeated, and then adds the bytes to the packet as it was before the failure. -/
theorem C141_retry (s s' : PState) (hs : Reach s) (o : Op) (p : Point) (h : s.fail o p = some (.thrown s'))
    (hc : (Ev.failed o p).clean = true) (i n : Nat) (hi : i < s.pkts.length) (held : Bool) :
    (∃ t, s'.step (.addHeader i n held) = some t ∧ (∃ pre, pre.length = n ∧ t.bytes i = pre ++ s.bytes i) ∧
      ∀ id off, off < s.size i → t.byteTag i id (off + n) = s.byteTag i id off ∧ t.packetTag i id (off + n) = s.packetTag i id off) ∧
    (∃ t, s'.step (.addTrailer i n held) = some t ∧ (∃ post, post.length = n ∧ t.bytes i = s.bytes i ++ post) ∧
      ∀ id off, off < s.size i → t.byteTag i id off = s.byteTag i id off ∧ t.packetTag i id off = s.packetTag i id off) := by
  obtain ⟨r, l, q⟩ := C141_packets_partial s s' hs o p h hc
  obtain ⟨q1, q2, q3⟩ := q i
  obtain ⟨⟨t, ht⟩, ⟨u, hu⟩, _⟩ := C126_defined s' r i (by omega) n held
  have a := (C127_add_size s' t r i n held).1 ht
  have b := (C127_add_size s' u r i n held).2 hu
  obtain ⟨⟨pre, a1, a2, _⟩, a3⟩ := a
  obtain ⟨⟨post, b1, b2, _⟩, b3⟩ := b
  refine ⟨⟨t, ht, ⟨pre, a1, by rw [a2, q1]⟩, fun id off ho => ?_⟩, ⟨u, hu, ⟨post, b1, by rw [b2, q1]⟩, fun id off ho => ?_⟩⟩
  · have z := a3 id off (by omega)
    rw [z.1, z.2]; exact q3 id off ho
  · have z := b3 id off (by omega)
    rw [z.1, z.2]; exact q3 id off ho

/-- C141: even when the tags of a packet cannot follow the bytes that `AddHeader(size)` or `AddTrailer(size)` added, all other packets are as
they were. -/
theorem C141_others (s s' : PState) (hs : Reach s) (i n : Nat) (held : Bool) (p : Point)
    (h : s.fail (.addHeader i n held) p = some (.thrown s') ∨ s.fail (.addTrailer i n held) p = some (.thrown s')) (k : Nat) (hk : k ≠ i) :
    s'.bytes k = s.bytes k ∧ ∀ id off, off < s.size k →
      s'.byteTag k id off = s.byteTag k id off ∧ s'.packetTag k id off = s.packetTag k id off := by
  have v := reach_inv hs
  have easy : ∀ o, s.fail o p = some (.thrown s') → (Ev.failed o p).clean = true → s'.bytes k = s.bytes k ∧ ∀ id off, off < s.size k →
      s'.byteTag k id off = s.byteTag k id off ∧ s'.packetTag k id off = s.packetTag k id off := by
    intro o h hc
    have q := fail_quiet v h hc
    exact ⟨q.bytes k, fun id off ho => ⟨q.bt k id off ho, q.pt k id off ho⟩⟩
  have hard : ∀ s1 x, makePrivate s i held = some (s1, x) → s'.body = s1.body → s'.pkts = s1.pkts →
      (∀ j, j < s1.bufs.bufs.length → j ≠ x.buf → s'.bufs.bytes j = s1.bufs.bytes j) →
      (∀ j, j < s1.bt.lists.length → j ≠ x.bt → s'.bt.views[j]? = s1.bt.views[j]?) →
      (∀ j, j < s1.pt.lists.length → j ≠ x.pt → s'.pt.views[j]? = s1.pt.views[j]?) →
      s'.bytes k = s.bytes k ∧ ∀ id off, off < s.size k →
        s'.byteTag k id off = s.byteTag k id off ∧ s'.packetTag k id off = s.packetTag k id off := by
    intro s1 x e hb hp f1 f2 f3
    cases hi : s.pkts[i]? with
    | none => simp [makePrivate, hi] at e
    | some p0 =>
      obtain ⟨b, pr⟩ := makePrivate_ok (v.perm (perm_pkts hi)) hi e
      have hpk : s'.pkts[k]? = s.pkts[k]? := by rw [hp, pr.pkts, List.getElem?_set_ne (Ne.symm hk)]
      cases hq : s.pkts[k]? with
      | none =>
        rw [hq] at hpk
        simp [PState.bytes, PState.byteTag, PState.packetTag, hq, hpk]
      | some q =>
        rw [hq] at hpk
        have hm := mem_rest hq hk
        have hv : view s' q = view s q := by
          rw [← pr.keep q hm]
          cases q with
          | none => rfl
          | some c =>
            obtain ⟨y, hy⟩ := pr.inv.alive c (by simp [hm])
            have hc : c ≠ b := fun e => pr.own (e ▸ hm)
            have r := pr.inv.range c y hy
            have nj := pr.inv.inj c b y x hy pr.body hc
            rw [view_some hy, view_some (s := s') (by rw [hb]; exact hy)]
            simp [bodyView, f1 _ r.1 nj.1, f2 _ r.2.1 nj.2.1, f3 _ r.2.2 nj.2.2]
        obtain ⟨a1, a2, a3⟩ := obs_view hpk
        obtain ⟨b1, b2, b3⟩ := obs_view hq
        exact ⟨by rw [a1, b1, hv], fun id off _ => ⟨by rw [a2, b2, hv], by rw [a3, b3, hv]⟩⟩
  cases p with
  | body => rcases h with h | h <;> exact easy _ h rfl
  | storage => rcases h with h | h <;> exact easy _ h rfl
  | byteTags m =>
    rcases h with h | h
    all_goals
      simp only [PState.fail, PState.privates] at h
      split at h
      · cases h
      · rename_i s1 x e
        simp only [failByteTags, adds] at h
        split at h
        · rename_i a b e1 e2
          cases h
          obtain ⟨P, d, v1, hx⟩ := private_body v e
          have k1 := buf_step v1.bb e1
          have k2 := Tag.fail_ok v1.tb e2
          refine hard s1 x e rfl rfl (fun j hj hn => k1.frame rfl j hj ?_) (fun j hj hn => k2.rest j hj ?_) (fun _ _ _ => rfl)
          · simpa [Zc.ZOp.targets] using hn
          · simpa [Tag.Op.targets] using hn
        · cases h
  | packetTags m =>
    rcases h with h | h
    all_goals
      simp only [PState.fail, PState.privates] at h
      split at h
      · cases h
      · rename_i s1 x e
        simp only [failPacketTags, adds] at h
        split at h
        · rename_i a b c e1 e2 e3
          cases h
          obtain ⟨P, d, v1, hx⟩ := private_body v e
          have k1 := buf_step v1.bb e1
          have k3 := Tag.fail_ok v1.tp e3
          refine hard s1 x e rfl rfl (fun j hj hn => k1.frame rfl j hj ?_) (fun j hj hn => (Tag.frame v1.tb e2 hj ?_).1) (fun j hj hn => k3.rest j hj ?_)
          · simpa [Zc.ZOp.targets] using hn
          · simpa [Tag.Op.targets] using hn
          · simpa [Tag.Op.targets] using hn
        · cases h

/-- A packet of which the first byte, tagged with 7, has been cut off; the last byte is tagged with 8; packet 1 is a copy. -/
def cut : List Op := [.user (.newFrom [1, 2, 3, 4]), .fromBuf 0, .addByteTag 0 7 70 0 1 false, .addByteTag 0 8 80 3 1 false,
  .removeHeader 0 1 false, .copy 0]

/-- C141 fails: `AddHeader` of the copy throws in the list of byte tags, but a byte has been added in front, and the tag of the byte 4 now is on
the byte 3. -/
theorem C141_shift_fails :
    (((PState.init fun _ _ => 0).run cut).map fun s => (s.bytes 1, s.byteTag 1 8 1, s.byteTag 1 8 2)) =
      some ([2, 3, 4], none, some 80) ∧
    (((PState.init fun _ _ => 0).runE (cut.map .done ++ [.failed (.addHeader 1 1 false) (.byteTags 0)])).map fun s =>
      (s.bytes 1, s.byteTag 1 8 2, s.byteTag 1 8 3, s.bytes 0, s.byteTag 0 8 2)) =
      some ([0, 2, 3, 4], some 80, none, [2, 3, 4], some 80) := by
  exact ⟨rfl, rfl⟩

/-- C141 fails: `RemoveHeader` and `MakeFragment` are declared not to throw, but have to copy the body of a packet that is shared; without
memory they end the program. -/
theorem C141_terminates_fails (s : PState) (hs : Reach s) (j : Nat) (hj : j < s.pkts.length) (t : PState)
    (ht : s.step (.copy j) = some t) (n m : Nat) :
    t.fail (.removeHeader s.pkts.length n false) .body = some .terminated ∧
    t.fail (.removeTrailer s.pkts.length n false) .body = some .terminated ∧
    s.fail (.fragment j n m) .body = some .terminated := by
  have v := reach_inv hs
  have hq := List.getElem?_eq_getElem hj
  have key : allocates t s.pkts.length false = true := by
    simp only [PState.step, hq] at ht
    cases e : addRef s s.pkts[j] with
    | none => rw [e] at ht; cases ht
    | some s1 =>
      rw [e] at ht; cases ht
      have g3 := (addRef_ok v e).2.2.1
      have hl : ({ s1 with pkts := s1.pkts ++ [s.pkts[j]] } : PState).pkts[s.pkts.length]? = some s.pkts[j] := by
        show (s1.pkts ++ [s.pkts[j]])[s.pkts.length]? = _
        rw [g3]; simp
      unfold allocates
      rw [hl]
      cases hb : s.pkts[j] with
      | none => rfl
      | some b =>
        rw [hb] at e hq
        obtain ⟨x, hx⟩ := v.alive b (List.mem_of_getElem? hq)
        simp only [addRef, hx] at e
        cases e
        have hr := v.ref b x hx
        have : 0 < s.pkts.count (some b) := List.count_pos_iff.mpr (List.mem_of_getElem? hq)
        simp only [PState.setBody, if_true, decide_eq_true_eq, Bool.or_false]
        omega
  refine ⟨by simp [PState.fail, key], by simp [PState.fail, key], by simp [PState.fail, hj]⟩

/-- The hypotheses of the theorems above: a packet whose body is shared fails to get a body, then storage, then room for a tag, and then gets
all of them. -/
def hard : List Ev :=
  [.failed (.fromBuf 0) .body] ++ cut.map .done ++
    [.failed (.addHeader 1 1 false) .body, .failed (.addHeader 1 1 false) .storage,
      .done (.addByteTag 0 9 90 0 3 false), .failed (.addByteTag 1 6 60 0 3 false) (.byteTags 0), .done (.addByteTag 1 6 60 0 3 false),
      .done (.addHeader 1 1 false)]

example : (hard.all Ev.clean) = true ∧ (((PState.init fun _ _ => 0).runE hard).map fun s =>
    (s.bytes 0, s.bytes 1, s.byteTag 0 9 0, s.byteTag 1 6 0, s.byteTag 1 6 1, s.byteTag 1 8 3)) =
    some ([2, 3, 4], [0, 2, 3, 4], some 90, none, some 60, some 80) := ⟨rfl, rfl⟩

example : ∃ s s' : PState, Reach s ∧ s.fail (.addHeader 1 1 false) .storage = some (.thrown s') ∧ s.bytes 1 = [2, 3, 4] := by
  have e : ((PState.init fun _ _ => 0).run cut).isSome = true := rfl
  refine ⟨((PState.init fun _ _ => 0).run cut).get e, ?_, reach_run (Option.some_get e).symm, ?_, rfl⟩
  · exact ((makePrivate (((PState.init fun _ _ => 0).run cut).get e) 1 false).get rfl).1
  · rfl

/-- A history as `ReachPlain` demands, with failures. -/
def smooth : List Ev :=
  [.done (.user (.new 0 3 0)), .done (.fromBuf 0), .done (.copy 0), .failed (.addHeader 1 1 false) .body,
    .failed (.addHeader 1 1 false) .storage, .done (.addHeader 1 1 false), .failed (.addTrailer 0 2 false) .storage]

example : ∃ s : PState, ReachPlain s ∧ s.bytes 0 = [0, 0, 0] ∧ s.bytes 1 = [5, 0, 0, 0] :=
  ⟨((PState.init fun _ _ => 5).runE smooth).get rfl, ⟨_, smooth, by decide, (Option.some_get _).symm⟩, rfl, rfl⟩

end Verif.ZPacket
