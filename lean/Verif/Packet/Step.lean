import Verif.Packet.Lemmas

/-! One packet operation: the invariant, and what other packets see. -/
set_option linter.unusedSimpArgs false
set_option linter.unusedVariables false
namespace Verif.Packet

theorem buf_noop {s : Buf.State} {i : Nat} (hi : i < s.bufs.length) : s.step (.removeStart i 0) = some s := by
  obtain ⟨b, hb⟩ := Buf.get_of_lt hi
  have : Buf.removeAtStart s.mem b 0 = some (s.mem, b) := by simp [Buf.removeAtStart]
  rw [show s.step (.removeStart i 0) = s.on i (fun m c => Buf.removeAtStart m c 0) from rfl, Buf.on_eq hb this]
  congr 1
  show (⟨s.mem, s.bufs.set i b⟩ : Buf.State) = s
  rw [show s.bufs.set i b = s.bufs by
    apply List.ext_getElem?; intro k
    rw [List.getElem?_set]
    by_cases e : i = k
    · subst e; rw [if_pos rfl, hb, if_pos hi]
    · rw [if_neg e]]

theorem tag_noop {V : Type} {s : Tag.State V} (b : Tag.TBase s.heap s.lists) {i : Nat} (hi : i < s.lists.length) :
    s.step (.removeStart i 0) = some s := by
  have ht := List.getElem?_eq_getElem hi
  have hle := b.le _ (List.getElem_mem hi)
  have : Tag.removeStart s.heap s.lists[i] 0 = some (s.heap, s.lists[i]) := by simp [Tag.removeStart, hle]
  simp [Tag.State.step, Tag.State.on, ht, this]

theorem free_ne {s : PState} {P : List (Option Nat)} (v : PInv s P) {j : Nat} (h : s.free j = true) {b : Nat} {x : Body}
    (hx : s.body b = some x) : x.buf ≠ j := by
  have hb : b < s.next := by
    rcases Nat.lt_or_ge b s.next with h | h
    · exact h
    · rw [v.closed b h] at hx; cases hx
  simp only [PState.free, List.all_eq_true, List.mem_range] at h
  have := h b hb
  rw [hx] at this
  simpa using this

theorem targets_eq (o : Buf.Op) : bufTargets o = o.targets := by cases o <;> rfl

/-- The client works with buffers that no body owns. -/
theorem user_ok {s s' : PState} {P : List (Option Nat)} (v : PInv s P) {o : Buf.Op} (h : s.onBuf o = some s')
    (hf : ∀ j ∈ o.targets, ∀ b x, s.body b = some x → x.buf ≠ j) :
    PInv s' P ∧ s'.pkts = s.pkts ∧ s'.body = s.body ∧ (o.stores = false → Keep s s' P) ∧ s.bufs.step o = some s'.bufs ∧
      s'.bt = s.bt ∧ s'.pt = s.pt ∧
      (∀ w : Side, o.plain w.on s.bufs → W w s →
        W w s' ∧ (o.isWrite = false → o.sided w.on s.bufs → Keep s s' P)) := by
  unfold PState.onBuf at h
  cases e : s.bufs.step o with
  | none => rw [e] at h; cases h
  | some a =>
    rw [e] at h; cases h
    have k := buf_step v.bb e
    have nt : ∀ c x, s.body c = some x → x.buf ∉ o.targets := fun c x hx hm => hf _ hm c x hx rfl
    have fin : Buf.Frame s.bufs a o → Keep s { s with bufs := a } P := by
      intro f r hr
      cases r with
      | none => rfl
      | some c =>
        obtain ⟨y, hy⟩ := v.alive c hr
        rw [view_some hy, view_some (s := { s with bufs := a }) hy]
        simp [bodyView, f _ (v.range c y hy).1 (nt c y hy)]
    refine ⟨⟨k.base, v.tb, v.tp, v.closed, ?_, v.inj, v.ref, v.alive, ?_⟩, rfl, rfl, fun hst => fin (k.frame hst), rfl, rfl, rfl,
      fun w hw h => ⟨(k.wide w hw h).1, fun hn hd => fin ((k.wide w hw h).2 hn hd)⟩⟩
    · intro c x hx
      have r := v.range c x hx
      exact ⟨Nat.lt_of_lt_of_le r.1 k.le, r.2⟩
    · intro c x hx
      have : a.size x.buf = s.bufs.size x.buf := by
        simp [Buf.State.size, k.segs _ (v.range c x hx).1 (nt c x hx)]
      show s.bt.size x.bt = a.size x.buf ∧ s.pt.size x.pt = a.size x.buf
      rw [this]; exact v.sync c x hx

/-- What an operation on packet `i` guarantees. -/
structure Own (s s' : PState) (i b : Nat) (x : Body) : Prop where
  inv : PInv s' s'.pkts
  body : s'.body b = some x
  pkts : s'.pkts = s.pkts.set i (some b)

def Others (s s' : PState) (i : Nat) : Prop :=
  ∀ k q, s.pkts[k]? = some q → k ≠ i → s'.pkts[k]? = some q ∧ view s' q = view s q

theorem perm_pkts {s : PState} {i : Nat} {p : Option Nat} (h : s.pkts[i]? = some p) :
    s.pkts.Perm (p :: s.pkts.eraseIdx i) := (Tag.set_perm h p).1

theorem mem_rest {L : List (Option Nat)} {i k : Nat} {q : Option Nat} (h : L[k]? = some q) (hk : k ≠ i) :
    q ∈ L.eraseIdx i := List.mem_eraseIdx_iff_getElem?.mpr ⟨k, hk, h⟩

theorem own_fin {s s1 s2 : PState} {i b : Nat} {p : Option Nat} {x : Body} (hp : s.pkts[i]? = some p)
    (pr : Priv s s1 (s.pkts.eraseIdx i) p i b x) (inv : PInv s2 (some b :: s.pkts.eraseIdx i))
    (hb : s2.body = s1.body) (pk : s2.pkts = s1.pkts) :
    Own s s2 i b x ∧ (Keep s1 s2 (s.pkts.eraseIdx i) → Others s s2 i) := by
  have e : s2.pkts = s.pkts.set i (some b) := pk.trans pr.pkts
  refine ⟨⟨?_, by rw [hb]; exact pr.body, e⟩, ?_⟩
  · rw [e]; exact inv.perm (Tag.set_perm hp (some b)).2.symm
  · intro k j q hq hj
    refine ⟨by rw [e, List.getElem?_set_ne (Ne.symm hj)]; exact hq, ?_⟩
    have := mem_rest hq hj
    rw [k q this, pr.keep q this]

/-- Run `MakePrivate` and then `act` on the body. -/
theorem own_run {s s1 s2 : PState} {i : Nat} {held : Bool} {x : Body} (v : PInv s s.pkts)
    (h : makePrivate s i held = some (s1, x)) {o : Buf.Op} {p : Tag.Op Nat} {q : Tag.Op (Option Nat)}
    (e : act s1 o p q = some s2) (ho : o.targets = [x.buf]) (hp : p.targets = [x.bt]) (hq : q.targets = [x.pt])
    (hs : ∀ P b, PInv s1 P → s1.body b = some x →
      s2.bt.size x.bt = s2.bufs.size x.buf ∧ s2.pt.size x.pt = s2.bufs.size x.buf) :
    ∃ p0 b, s.pkts[i]? = some p0 ∧ Priv s s1 (s.pkts.eraseIdx i) p0 i b x ∧ Own s s2 i b x ∧
      PInv s2 (some b :: s.pkts.eraseIdx i) ∧ s2.body = s1.body ∧ s2.pkts = s1.pkts ∧
      (o.stores = false → Others s s2 i) ∧
      (∀ w : Side, o.plain w.on s1.bufs → W w s →
        W w s2 ∧ (o.isWrite = false → o.sided w.on s1.bufs → Others s s2 i)) := by
  cases hp0 : s.pkts[i]? with
  | none => simp [makePrivate, hp0] at h
  | some p0 =>
    obtain ⟨b, pr⟩ := makePrivate_ok (v.perm (perm_pkts hp0)) hp0 h
    obtain ⟨g1, g2, g3, g4, g5⟩ := own_act pr.inv pr.body pr.own e ho hp hq (hs _ b pr.inv pr.body)
    obtain ⟨f1, f2⟩ := own_fin hp0 pr g1 g2 g3
    exact ⟨p0, b, rfl, pr, f1, g1, g2, g3, fun hst => f2 (g4 hst),
      fun w hw h => ⟨(g5 w hw (pr.wide w h)).1, fun hn hd => f2 ((g5 w hw (pr.wide w h)).2 hn hd)⟩⟩

theorem on_act_bt {s s' : PState} {P : List (Option Nat)} (v : PInv s P) {b : Nat} {x : Body} (hx : s.body b = some x)
    {o : Tag.Op Nat} (h : s.onBt o = some s') : act s (.removeStart x.buf 0) o (.removeStart x.pt 0) = some s' := by
  have r := v.range b x hx
  unfold PState.onBt at h
  cases e : s.bt.step o with
  | none => rw [e] at h; cases h
  | some a =>
    rw [e] at h; cases h
    simp [act, buf_noop r.1, tag_noop v.tp r.2.2, e]

theorem on_act_pt {s s' : PState} {P : List (Option Nat)} (v : PInv s P) {b : Nat} {x : Body} (hx : s.body b = some x)
    {o : Tag.Op (Option Nat)} (h : s.onPt o = some s') :
    act s (.removeStart x.buf 0) (.removeStart x.bt 0) o = some s' := by
  have r := v.range b x hx
  unfold PState.onPt at h
  cases e : s.pt.step o with
  | none => rw [e] at h; cases h
  | some a =>
    rw [e] at h; cases h
    simp [act, buf_noop r.1, tag_noop v.tb r.2.1, e]

/-- The packets an operation is applied to (and so may change). -/
def Op.targets : Op → List Nat
  | .new | .fromBuf _ | .copy _ | .getPacketTag _ _ _ | .fragment _ _ _ | .user _ | .reap _ => []
  | .move j => [j]
  | .moveAssign i j _ | .swap i j => [i, j]
  | .assign i _ _ | .destroy i _ | .addHeader i _ _ | .addTrailer i _ _ | .addHeaderBuf i _ _ | .addTrailerBuf i _ _
  | .removeHeader i _ _ | .removeTrailer i _ _ | .addByteTag i _ _ _ _ _ | .addPacketTag i _ _ _ _ _
  | .copyTags i _ | .addHeaderPkt i _ _ | .addTrailerPkt i _ _ => [i]

/-- The operations that copy bytes into a packet, write through a client's buffer, or replace all tags. -/
def Op.quiet : Op → Bool
  | .addHeaderBuf _ _ _ | .addTrailerBuf _ _ _ | .addHeaderPkt _ _ _ | .addTrailerPkt _ _ _ | .copyTags _ _ => false
  | .user o => !o.stores
  | _ => true

/-- The operations that keep the dirty ranges covering what is in use at the given sides: no fragments of the client's buffers; no
parts handed out by `AddTrailer(size)` if the starts matter, by `AddHeader(size)` or deep copies if the ends matter. -/
def Op.plain (w : Side) : Op → Bool
  | .addHeader _ n _ => n == 0 || !w.stop
  | .addTrailer _ n _ => n == 0 || !w.start
  | .user (.newFrom _) => !w.stop
  | .user (.fragment _ _ n) => n == 0
  | _ => true

/-- The operations that store no bytes at a side that is not covered. -/
def Op.sided (w : Side) : Op → Bool
  | .addHeaderBuf _ _ _ | .addHeaderPkt _ _ _ | .user (.addStartBytes _ _) | .user (.addStartBuf _ _) => w.start
  | .addTrailerBuf _ _ _ | .addTrailerPkt _ _ _ | .user (.addEndBytes _ _) | .user (.addEndBuf _ _) => w.stop
  | _ => true

def Op.isWrite : Op → Bool
  | .user (.write _ _ _) => true
  | _ => false

def Op.isCopyTags : Op → Bool
  | .copyTags _ _ => true
  | _ => false

/-- Every packet the operation is not applied to shows what it showed. -/
def Frame (s s' : PState) (o : Op) : Prop :=
  ∀ k q, s.pkts[k]? = some q → k ∉ o.targets → s'.pkts[k]? = some q ∧ view s' q = view s q

structure StepOk (s s' : PState) (o : Op) : Prop where
  inv : PInv s' s'.pkts
  quiet : o.quiet = true → Frame s s' o
  wide : ∀ w, o.plain w = true → W w s →
    W w s' ∧ (o.isWrite = false → o.isCopyTags = false → o.sided w = true → Frame s s' o)

theorem others_frame {s s' : PState} {i : Nat} {o : Op} (ht : o.targets = [i]) (h : Others s s' i) : Frame s s' o := by
  intro k q hq hk
  exact h k q hq (by rw [ht] at hk; simpa using hk)

theorem removeHeader_ok {s s' : PState} {i n : Nat} {held : Bool} (v : PInv s s.pkts)
    (h : removeHeader s i n held = some s') :
    ∃ s1 p0 b x, makePrivate s i held = some (s1, x) ∧
      act s1 (.removeStart x.buf n) (.removeStart x.bt n) (.removeStart x.pt n) = some s' ∧
      s.pkts[i]? = some p0 ∧ Priv s s1 (s.pkts.eraseIdx i) p0 i b x ∧ Own s s' i b x ∧ Others s s' i ∧
      (∀ w, W w s → W w s') := by
  unfold removeHeader at h
  split at h
  · cases h
  · rename_i s1 x e
    obtain ⟨p1, p2, p3⟩ := act_parts h
    obtain ⟨p0, b, g1, g2, g3, _, _, _, g4, g5⟩ := own_run v e h rfl rfl rfl (by
      intro P b v hx
      rw [tsize_removeStart v.tb p2, tsize_removeStart v.tp p3, bsize_removeStart v.bb p1]
      have := v.sync b x hx
      omega)
    exact ⟨s1, p0, b, x, e, h, g1, g2, g3, g4 rfl, fun w hw => (g5 w trivial hw).1⟩

theorem removeTrailer_ok {s s' : PState} {i n : Nat} {held : Bool} (v : PInv s s.pkts)
    (h : removeTrailer s i n held = some s') :
    ∃ s1 p0 b x, makePrivate s i held = some (s1, x) ∧
      act s1 (.removeEnd x.buf n) (.removeEnd x.bt n) (.removeEnd x.pt n) = some s' ∧
      s.pkts[i]? = some p0 ∧ Priv s s1 (s.pkts.eraseIdx i) p0 i b x ∧ Own s s' i b x ∧ Others s s' i ∧
      (∀ w, W w s → W w s') := by
  unfold removeTrailer at h
  split at h
  · cases h
  · rename_i s1 x e
    obtain ⟨p1, p2, p3⟩ := act_parts h
    obtain ⟨p0, b, g1, g2, g3, _, _, _, g4, g5⟩ := own_run v e h rfl rfl rfl (by
      intro P b v hx
      rw [tsize_removeEnd v.tb p2, tsize_removeEnd v.tp p3, bsize_removeEnd v.bb p1]
      have := v.sync b x hx
      omega)
    exact ⟨s1, p0, b, x, e, h, g1, g2, g3, g4 rfl, fun w hw => (g5 w trivial hw).1⟩

theorem addHeader_ok {s s' : PState} {i n : Nat} {held : Bool} (v : PInv s s.pkts)
    (h : addHeader s i n held = some s') :
    ∃ s1 s2 p0 b x, makePrivate s i held = some (s1, x) ∧
      act s1 (.addStart x.buf n) (.addStart x.bt n) (.addStart x.pt n) = some s2 ∧
      s2.onBuf (.fragment x.buf 0 n) = some s' ∧ PInv s2 s2.pkts ∧
      s.pkts[i]? = some p0 ∧ Priv s s1 (s.pkts.eraseIdx i) p0 i b x ∧ Own s s' i b x ∧ Others s s' i ∧
      (∀ w, (n == 0 || !w.stop) = true → W w s → W w s') := by
  unfold addHeader at h
  split at h
  · cases h
  · rename_i s1 x e
    split at h
    · cases h
    · rename_i s2 e2
      obtain ⟨p1, p2, p3⟩ := act_parts e2
      obtain ⟨p0, b, g1, g2, g3, _, g6, g7, g4, g5⟩ := own_run v e e2 rfl rfl rfl (by
        intro P b v hx
        rw [tsize_addStart v.tb p2, tsize_addStart v.tp p3, bsize_addStart v.bb p1]
        have := v.sync b x hx
        omega)
      obtain ⟨u1, u2, u3, u4, u5, _, _, u6⟩ := user_ok g3.inv h (by simp [Buf.Op.targets])
      refine ⟨s1, s2, p0, b, x, e, e2, h, g3.inv, g1, g2, ⟨u2 ▸ u1, by rw [u3]; exact g3.body, u2.trans g3.pkts⟩, ?_, ?_⟩
      · intro k q hq hk
        obtain ⟨a1, a2⟩ := g4 rfl k q hq hk
        exact ⟨by rw [u2]; exact a1, (u4 rfl q (List.mem_of_getElem? a1)).trans a2⟩
      · intro w hn hw
        refine (u6 w ?_ (g5 w trivial hw).1).1
        by_cases h0 : n = 0
        · exact .inl h0
        · refine .inr fun a ha id y hst hy _ => ⟨fun _ => ⟨rfl, ?_⟩, fun hs => ?_⟩
          · obtain ⟨a', id', y', q1, q2, q3, q4⟩ := Buf.addStart_edge p1 (by omega)
            rw [ha] at q1; cases q1
            rw [hst] at q2; cases q2
            rw [hy] at q3; cases q3
            exact q4
          · have : w.stop = true := hs
            simp [h0, this] at hn

theorem addTrailer_ok {s s' : PState} {i n : Nat} {held : Bool} (v : PInv s s.pkts)
    (h : addTrailer s i n held = some s') :
    ∃ s1 s2 p0 b x, makePrivate s i held = some (s1, x) ∧
      act s1 (.addEnd x.buf n) (.addEnd x.bt n) (.addEnd x.pt n) = some s2 ∧
      s2.onBuf (.fragment x.buf (s2.bufs.size x.buf - n) n) = some s' ∧ PInv s2 s2.pkts ∧
      s.pkts[i]? = some p0 ∧ Priv s s1 (s.pkts.eraseIdx i) p0 i b x ∧ Own s s' i b x ∧ Others s s' i ∧
      (∀ w, (n == 0 || !w.start) = true → W w s → W w s') := by
  unfold addTrailer at h
  split at h
  · cases h
  · rename_i s1 x e
    split at h
    · cases h
    · rename_i s2 e2
      obtain ⟨p1, p2, p3⟩ := act_parts e2
      obtain ⟨p0, b, g1, g2, g3, _, g6, g7, g4, g5⟩ := own_run v e e2 rfl rfl rfl (by
        intro P b v hx
        rw [tsize_addEnd v.tb p2, tsize_addEnd v.tp p3, bsize_addEnd v.bb p1]
        have := v.sync b x hx
        omega)
      obtain ⟨u1, u2, u3, u4, u5, _, _, u6⟩ := user_ok g3.inv h (by simp [Buf.Op.targets])
      refine ⟨s1, s2, p0, b, x, e, e2, h, g3.inv, g1, g2, ⟨u2 ▸ u1, by rw [u3]; exact g3.body, u2.trans g3.pkts⟩, ?_, ?_⟩
      · intro k q hq hk
        obtain ⟨a1, a2⟩ := g4 rfl k q hq hk
        exact ⟨by rw [u2]; exact a1, (u4 rfl q (List.mem_of_getElem? a1)).trans a2⟩
      · intro w hn hw
        refine (u6 w ?_ (g5 w (.inl rfl) hw).1).1
        by_cases h0 : n = 0
        · exact .inl h0
        · refine .inr fun a ha id y hst hy _ => ⟨fun hs => ?_, fun _ => ?_⟩
          · have : w.start = true := hs
            simp [h0, this] at hn
          · obtain ⟨a', id', y', q1, q2, q3, q4, q5⟩ := Buf.addEnd_edge g2.inv.bb p1 (by omega)
            rw [ha] at q1; cases q1
            rw [hst] at q2; cases q2
            rw [hy] at q3; cases q3
            rw [Buf.size_of ha]
            exact ⟨by omega, q4⟩

/-- One more handle to the body `p`, named by a new packet. -/
theorem push_ok {s s1 : PState} {p : Option Nat} (v : PInv s s.pkts) (h : addRef s p = some s1) :
    PInv { s1 with pkts := s1.pkts ++ [p] } (s1.pkts ++ [p]) ∧
      (∀ (k : Nat) (q : Option Nat), s.pkts[k]? = some q → (s1.pkts ++ [p])[k]? = some q) ∧
      (∀ q, view { s1 with pkts := s1.pkts ++ [p] } q = view s q) ∧
      (∀ w, W w s → W w { s1 with pkts := s1.pkts ++ [p] }) := by
  obtain ⟨g1, g2, g3, g4, _⟩ := addRef_ok v h
  refine ⟨(g1.perm ?_).pkts _, ?_, fun q => g2 q, ?_⟩
  · rw [g3]; exact (List.perm_append_singleton p s.pkts).symm
  · intro k q hq; rw [g3, List.getElem?_append_left (Tag.lt_of hq)]; exact hq
  · intro w hw; show Buf.Wide w.on s1.bufs.mem s1.bufs.bufs; rw [g4]; exact hw

/-- `CopyTagsFrom` with equal sizes. -/
theorem copyTags_ok {s s' : PState} {b c : Nat} {x y : Body} (v : PInv s s.pkts) (hx : s.body b = some x)
    (hy : s.body c = some y) (hs : s.bufs.size x.buf = s.bufs.size y.buf)
    (h : act s (.removeStart x.buf 0) (.assign x.bt y.bt) (.assign x.pt y.pt) = some s') :
    PInv s' s.pkts ∧ s'.pkts = s.pkts ∧ s'.body = s.body ∧ s'.bufs = s.bufs ∧
      (∀ p ∈ s.pkts, p ≠ some b → view s' p = view s p) ∧
      s'.bt.views[x.bt]? = s.bt.views[y.bt]? ∧ s'.pt.views[x.pt]? = s.pt.views[y.pt]? := by
  obtain ⟨p1, p2, p3⟩ := act_parts h
  have rx := v.range b x hx
  have sx := v.sync b x hx
  have sy := v.sync c y hy
  have t2 := tsize_assign v.tb p2 rx.2.1
  have t3 := tsize_assign v.tp p3 rx.2.2
  have hbuf : s'.bufs = s.bufs := by rw [buf_noop rx.1] at p1; exact (Option.some.inj p1).symm
  obtain ⟨g1, g2, g3, g4, g5, _, _, _, g6⟩ := act_still v h b
    (fun c' z hz hc => by simpa [Buf.Op.targets] using (v.inj c' b z x hz hx hc).1)
    (fun c' z hz hc => by simpa [Tag.Op.targets] using (v.inj c' b z x hz hx hc).2.1)
    (fun c' z hz hc => by simpa [Tag.Op.targets] using (v.inj c' b z x hz hx hc).2.2)
    (fun z hz => by
      rw [hx] at hz; cases hz
      rw [t2.1, t3.1, hbuf]; omega)
  refine ⟨g1, g3, g2, hbuf, ?_, t2.2, t3.2⟩
  intro p hp hn
  cases p with
  | none => rfl
  | some d =>
    obtain ⟨z, hz⟩ := v.alive d hp
    rw [view_some hz, view_some (by rw [g2]; exact hz)]
    exact (g6 d z hz (fun e => hn (by rw [e]))).view (by rw [hbuf])

theorem step_ok {s s' : PState} {o : Op} (v : PInv s s.pkts) (h : s.step o = some s') : StepOk s s' o := by
  cases o with
  | new =>
    cases h
    have f : Frame s { s with pkts := s.pkts ++ [none] } .new := by
      intro k q hq _
      exact ⟨by rw [List.getElem?_append_left (Tag.lt_of hq)]; exact hq, rfl⟩
    refine ⟨((PInv.none.mpr v).perm (List.perm_append_singleton none s.pkts).symm).pkts _, fun _ => f, fun _ _ hw => ⟨hw, fun _ _ _ => f⟩⟩
  | fromBuf j =>
    simp only [PState.step] at h
    split at h
    · rename_i a b c e1 e2 e3
      split at h
      · rename_i b' c' e4 e5
        cases h
        obtain ⟨n1, n2, n3, n4⟩ := new_size v.tb e2
        obtain ⟨m1, m2, m3, m4⟩ := new_size v.tp e3
        have k1 := buf_step v.bb e1
        have f1 := copy_bufs v.bb e1
        have q4 := tsize_addEnd n1 e4
        have q5 := tsize_addEnd m1 e5
        rw [tsize_of n4] at q4
        rw [tsize_of m4] at q5
        have bd : ∀ k, k ≠ s.next → (if k = s.next then some (⟨1, s.bufs.bufs.length, s.bt.lists.length, s.pt.lists.length⟩ : Body)
            else s.body k) = (s.body k).map fun z => { z with ref := if (none : Option Nat) = some k then z.ref - 1 else z.ref } := by
          intro k hk
          rw [if_neg hk]
          cases s.body k <;> simp
        obtain ⟨g1, g2, g3⟩ := fork_ok (s := s) (P := s.pkts) (old := none)
          (s1 := (({ s with bufs := a, bt := b', pt := c', pkts := s.pkts ++ [none] } : PState).fresh s.pkts.length
            ⟨1, s.bufs.bufs.length, s.bt.lists.length, s.pt.lists.length⟩)) (PInv.none.mpr v) e1 rfl rfl
          (by show _ < a.bufs.length; omega) (Tag.step_base n1 e4).1
          (fun k hk => by
            show b'.views[k]? = _
            rw [(Tag.frame n1 e4 (k := k) (by omega) (by simp [Tag.Op.targets]; omega)).1, n2 k hk])
          (by have := tag_len n1 e4; show _ < b'.lists.length; omega) (Tag.step_base m1 e5).1
          (fun k hk => by
            show c'.views[k]? = _
            rw [(Tag.frame m1 e5 (k := k) (by omega) (by simp [Tag.Op.targets]; omega)).1, m2 k hk])
          (by have := tag_len m1 e5; show _ < c'.lists.length; omega) rfl (if_pos rfl) bd
          (by
            show b'.size _ = a.size _ ∧ c'.size _ = a.size _
            rw [f1.2.2, q4, q5]; simp)
        have e : ((s.pkts ++ [none]).set s.pkts.length (some s.next)) = s.pkts ++ [some s.next] := by simp
        have f : Frame s (({ s with bufs := a, bt := b', pt := c', pkts := s.pkts ++ [none] } : PState).fresh s.pkts.length
            ⟨1, s.bufs.bufs.length, s.bt.lists.length, s.pt.lists.length⟩) (.fromBuf j) := by
          intro k q hq _
          refine ⟨?_, g2 q (List.mem_of_getElem? hq)⟩
          show ((s.pkts ++ [none]).set s.pkts.length (some s.next))[k]? = _
          rw [e, List.getElem?_append_left (Tag.lt_of hq)]; exact hq
        refine ⟨?_, fun _ => f, fun w _ hw => ⟨(k1.wide w trivial hw).1, fun _ _ _ => f⟩⟩
        show PInv _ ((s.pkts ++ [none]).set s.pkts.length (some s.next))
        rw [e]
        exact g1.perm (List.perm_append_singleton _ _).symm
      · cases h
    · cases h
  | copy j =>
    simp only [PState.step] at h
    split at h
    · cases h
    · rename_i p hp
      cases e : addRef s p with
      | none => rw [e] at h; cases h
      | some s1 =>
        rw [e] at h; cases h
        obtain ⟨g1, g2, g3, g4⟩ := push_ok v e
        have f : Frame s { s1 with pkts := s1.pkts ++ [p] } (.copy j) := fun k q hq _ => ⟨g2 k q hq, g3 q⟩
        exact ⟨g1, fun _ => f, fun _ _ hw => ⟨g4 _ hw, fun _ _ _ => f⟩⟩
  | move j =>
    simp only [PState.step] at h
    split at h
    · cases h
    · rename_i p hp
      cases h
      have f : Frame s { s with pkts := s.pkts.set j none ++ [p] } (.move j) := by
        intro k q hq hk
        simp only [Op.targets, List.mem_singleton] at hk
        refine ⟨?_, rfl⟩
        show (s.pkts.set j none ++ [p])[k]? = _
        rw [List.getElem?_append_left (by simpa using Tag.lt_of hq), List.getElem?_set_ne (Ne.symm hk)]; exact hq
      refine ⟨?_, fun _ => f, fun _ _ hw => ⟨hw, fun _ _ _ => f⟩⟩
      refine PInv.pkts ?_ _
      have h1 := v.perm (perm_pkts hp)
      refine (PInv.none.mpr h1).perm ?_
      show (none :: p :: s.pkts.eraseIdx j).Perm (s.pkts.set j none ++ [p])
      refine ((List.Perm.swap p none _).trans ?_).trans (List.perm_append_singleton p _).symm
      exact (List.perm_cons p).mpr (Tag.set_perm hp none).2.symm
  | assign i j held =>
    simp only [PState.step] at h
    split at h
    · rename_i p q hp hq
      by_cases e : p = q
      · rw [if_pos e] at h; cases h
        have f : Frame s s (.assign i j held) := fun k q hq _ => ⟨hq, rfl⟩
        exact ⟨v, fun _ => f, fun _ _ hw => ⟨hw, fun _ _ _ => f⟩⟩
      · rw [if_neg e] at h
        split at h
        · cases h
        · rename_i s1 e1
          cases e2 : addRef s1 q with
          | none => rw [e2] at h; cases h
          | some s2 =>
            rw [e2] at h; cases h
            obtain ⟨g1, g2, g3, g4⟩ := release_ok (v.perm (perm_pkts hp)) e1
            obtain ⟨u1, u2, u3, u4, _⟩ := addRef_ok g1 e2
            have f : Frame s { s2 with pkts := s2.pkts.set i q } (.assign i j held) := by
              intro k r hr hk
              simp only [Op.targets, List.mem_singleton] at hk
              refine ⟨?_, (u2 r).trans (g2 r (mem_rest hr hk))⟩
              show (s2.pkts.set i q)[k]? = _
              rw [u3, g3, List.getElem?_set_ne (Ne.symm hk)]; exact hr
            refine ⟨?_, fun _ => f, fun _ _ hw => ⟨?_, fun _ _ _ => f⟩⟩
            · refine (u1.perm ?_).pkts _
              dsimp only
              rw [u3, g3]; exact (Tag.set_perm hp q).2.symm
            · show Buf.Wide _ s2.bufs.mem s2.bufs.bufs
              rw [u4]; exact g4 _ hw
    · cases h
  | moveAssign i j held =>
    simp only [PState.step] at h
    split at h
    · rename_i p q hp hq
      by_cases e : p = q
      · rw [if_pos e] at h; cases h
        have f : Frame s s (.moveAssign i j held) := fun k q hq _ => ⟨hq, rfl⟩
        exact ⟨v, fun _ => f, fun _ _ hw => ⟨hw, fun _ _ _ => f⟩⟩
      · rw [if_neg e] at h
        cases e1 : release s p held with
        | none => rw [e1] at h; cases h
        | some s1 =>
          rw [e1] at h; cases h
          have hij : i ≠ j := by rintro rfl; rw [hp] at hq; cases hq; exact e rfl
          obtain ⟨g1, g2, g3, g4⟩ := release_ok (v.perm (perm_pkts hp)) e1
          have f : Frame s { s1 with pkts := (s1.pkts.set i q).set j none } (.moveAssign i j held) := by
            intro k r hr hk
            simp only [Op.targets, List.mem_cons, List.not_mem_nil, or_false, not_or] at hk
            refine ⟨?_, g2 r (mem_rest hr hk.1)⟩
            show ((s1.pkts.set i q).set j none)[k]? = _
            rw [g3, List.getElem?_set_ne (Ne.symm hk.2), List.getElem?_set_ne (Ne.symm hk.1)]; exact hr
          refine ⟨?_, fun _ => f, fun _ _ hw => ⟨g4 _ hw, fun _ _ _ => f⟩⟩
          refine PInv.pkts ?_ _
          dsimp only
          rw [g3]
          have hj : (s.pkts.set i q)[j]? = some q := by rw [List.getElem?_set_ne hij]; exact hq
          have q1 : (s.pkts.set i q).Perm (q :: (s.pkts.set i q).eraseIdx j) := (Tag.set_perm hj none).1
          have q2 := (Tag.set_perm hj none).2
          have q3 := (Tag.set_perm hp q).2
          exact (PInv.none.mpr g1).perm (((List.perm_cons none).mpr ((List.perm_cons q).mp (q3.symm.trans q1))).trans q2.symm)
    · cases h
  | swap i j =>
    simp only [PState.step] at h
    split at h
    · rename_i p q hp hq
      cases h
      have f : Frame s { s with pkts := (s.pkts.set i q).set j p } (.swap i j) := by
        intro k r hr hk
        simp only [Op.targets, List.mem_cons, List.not_mem_nil, or_false, not_or] at hk
        refine ⟨?_, rfl⟩
        show ((s.pkts.set i q).set j p)[k]? = _
        rw [List.getElem?_set_ne (Ne.symm hk.2), List.getElem?_set_ne (Ne.symm hk.1)]; exact hr
      refine ⟨PInv.pkts (v.perm ?_) _, fun _ => f, fun _ _ hw => ⟨hw, fun _ _ _ => f⟩⟩
      have hj : (s.pkts.set i q)[j]? = some q := by
        rw [List.getElem?_set]
        by_cases e : i = j
        · subst e; rw [if_pos rfl, if_pos (Tag.lt_of hp)]
        · rw [if_neg e]; exact hq
      have q1 : (s.pkts.set i q).Perm (q :: (s.pkts.set i q).eraseIdx j) := (Tag.set_perm hj p).1
      have q2 := (Tag.set_perm hj p).2
      have q3 := (Tag.set_perm hp q).2
      exact (perm_pkts hp).trans (((List.perm_cons p).mpr ((List.perm_cons q).mp (q3.symm.trans q1))).trans q2.symm)
    · cases h
  | destroy i held =>
    simp only [PState.step] at h
    split at h
    · cases h
    · rename_i p hp
      cases e1 : release s p held with
      | none => rw [e1] at h; cases h
      | some s1 =>
        rw [e1] at h; cases h
        obtain ⟨g1, g2, g3, g4⟩ := release_ok (v.perm (perm_pkts hp)) e1
        have f : Frame s { s1 with pkts := s1.pkts.set i none } (.destroy i held) := by
          intro k r hr hk
          simp only [Op.targets, List.mem_singleton] at hk
          refine ⟨?_, g2 r (mem_rest hr hk)⟩
          show (s1.pkts.set i none)[k]? = _
          rw [g3, List.getElem?_set_ne (Ne.symm hk)]; exact hr
        refine ⟨((PInv.none.mpr g1).perm ?_).pkts _, fun _ => f, fun _ _ hw => ⟨g4 _ hw, fun _ _ _ => f⟩⟩
        dsimp only
        rw [g3]; exact (Tag.set_perm hp none).2.symm
  | addHeader i n held =>
    obtain ⟨_, _, _, _, _, _, _, _, _, _, _, g1, g2, g3⟩ := addHeader_ok v h
    have f := others_frame (o := .addHeader i n held) rfl g2
    exact ⟨g1.inv, fun _ => f, fun w hn hw => ⟨g3 w hn hw, fun _ _ _ => f⟩⟩
  | addTrailer i n held =>
    obtain ⟨_, _, _, _, _, _, _, _, _, _, _, g1, g2, g3⟩ := addTrailer_ok v h
    have f := others_frame (o := .addTrailer i n held) rfl g2
    exact ⟨g1.inv, fun _ => f, fun w hn hw => ⟨g3 w hn hw, fun _ _ _ => f⟩⟩
  | addHeaderBuf i j held =>
    simp only [PState.step] at h
    split at h
    · split at h
      · cases h
      · rename_i s1 x e
        obtain ⟨p1, p2, p3⟩ := act_parts h
        obtain ⟨p0, b, g1, g2, g3, _, _, _, g4, g5⟩ := own_run v e h rfl rfl rfl (by
          intro P b v hx
          rw [tsize_addStart v.tb p2, tsize_addStart v.tp p3, bsize_addStartBuf v.bb (v.range b x hx).1 p1]
          have := v.sync b x hx
          omega)
        refine ⟨g3.inv, fun hc => by simp [Op.quiet] at hc, fun w _ hw => ⟨(g5 w trivial hw).1,
          fun _ _ hd => others_frame rfl ((g5 w trivial hw).2 rfl (.inr hd))⟩⟩
    · cases h
  | addTrailerBuf i j held =>
    simp only [PState.step] at h
    split at h
    · split at h
      · cases h
      · rename_i s1 x e
        obtain ⟨p1, p2, p3⟩ := act_parts h
        obtain ⟨p0, b, g1, g2, g3, _, _, _, g4, g5⟩ := own_run v e h rfl rfl rfl (by
          intro P b v hx
          rw [tsize_addEnd v.tb p2, tsize_addEnd v.tp p3, bsize_addEndBuf v.bb (v.range b x hx).1 p1]
          have := v.sync b x hx
          omega)
        refine ⟨g3.inv, fun hc => by simp [Op.quiet] at hc, fun w _ hw => ⟨(g5 w (.inl rfl) hw).1,
          fun _ _ hd => others_frame rfl ((g5 w (.inl rfl) hw).2 rfl (.inr hd))⟩⟩
    · cases h
  | removeHeader i n held =>
    obtain ⟨_, _, _, _, _, _, _, _, g1, g2, g3⟩ := removeHeader_ok v h
    have f := others_frame (o := .removeHeader i n held) rfl g2
    exact ⟨g1.inv, fun _ => f, fun w hn hw => ⟨g3 w hw, fun _ _ _ => f⟩⟩
  | removeTrailer i n held =>
    obtain ⟨_, _, _, _, _, _, _, _, g1, g2, g3⟩ := removeTrailer_ok v h
    have f := others_frame (o := .removeTrailer i n held) rfl g2
    exact ⟨g1.inv, fun _ => f, fun w hn hw => ⟨g3 w hw, fun _ _ _ => f⟩⟩
  | addByteTag i id t start size held =>
    simp only [PState.step] at h
    split at h
    · cases h
    · rename_i s1 x e
      have hx : ∃ P b, PInv s1 P ∧ s1.body b = some x := by
        cases hp0 : s.pkts[i]? with
        | none => simp [makePrivate, hp0] at e
        | some p0 =>
          obtain ⟨b, pr⟩ := makePrivate_ok (v.perm (perm_pkts hp0)) hp0 e
          exact ⟨_, b, pr.inv, pr.body⟩
      obtain ⟨P1, b1, v1, hb1⟩ := hx
      have h' := on_act_bt v1 hb1 h
      obtain ⟨p1, p2, p3⟩ := act_parts h'
      obtain ⟨p0, b, g1, g2, g3, _, _, _, g4, g5⟩ := own_run v e h' rfl rfl rfl (by
        intro P b v hx
        rw [tsize_insert v.tb p2, tsize_removeStart v.tp p3, bsize_removeStart v.bb p1]
        have := v.sync b x hx
        omega)
      have f := others_frame (o := .addByteTag i id t start size held) rfl (g4 rfl)
      exact ⟨g3.inv, fun _ => f, fun w _ hw => ⟨(g5 w trivial hw).1, fun _ _ _ => f⟩⟩
  | addPacketTag i id k start size held =>
    simp only [PState.step] at h
    split at h
    · cases h
    · split at h
      · cases h
      · rename_i s1 x e
        have hx : ∃ P b, PInv s1 P ∧ s1.body b = some x := by
          cases hp0 : s.pkts[i]? with
          | none => simp [makePrivate, hp0] at e
          | some p0 =>
            obtain ⟨b, pr⟩ := makePrivate_ok (v.perm (perm_pkts hp0)) hp0 e
            exact ⟨_, b, pr.inv, pr.body⟩
        obtain ⟨P1, b1, v1, hb1⟩ := hx
        have h' := on_act_pt v1 hb1 h
        obtain ⟨p1, p2, p3⟩ := act_parts h'
        obtain ⟨p0, b, g1, g2, g3, _, _, _, g4, g5⟩ := own_run v e h' rfl rfl rfl (by
          intro P b v hx
          rw [tsize_insert v.tp p3, tsize_removeStart v.tb p2, bsize_removeStart v.bb p1]
          have := v.sync b x hx
          omega)
        have f := others_frame (o := .addPacketTag i id k start size held) rfl (g4 rfl)
        exact ⟨g3.inv, fun _ => f, fun w _ hw => ⟨(g5 w trivial hw).1, fun _ _ _ => f⟩⟩
  | getPacketTag i id off =>
    simp only [PState.step] at h
    split at h
    · cases h
      have f : Frame s s (.getPacketTag i id off) := fun k q hq _ => ⟨hq, rfl⟩
      exact ⟨v, fun _ => f, fun _ _ hw => ⟨hw, fun _ _ _ => f⟩⟩
    · rename_i p hp
      cases e : addRef s p with
      | none => rw [e] at h; cases h
      | some s1 =>
        rw [e] at h; cases h
        obtain ⟨g1, g2, g3, g4⟩ := push_ok v e
        have f : Frame s { s1 with pkts := s1.pkts ++ [p] } (.getPacketTag i id off) := fun k q hq _ => ⟨g2 k q hq, g3 q⟩
        exact ⟨g1, fun _ => f, fun _ _ hw => ⟨g4 _ hw, fun _ _ _ => f⟩⟩
  | copyTags i j =>
    have nop : StepOk s s (.copyTags i j) := by
      have f : Frame s s (.copyTags i j) := fun k q hq _ => ⟨hq, rfl⟩
      exact ⟨v, fun _ => f, fun _ _ hw => ⟨hw, fun _ _ _ => f⟩⟩
    simp only [PState.step] at h
    split at h
    · rename_i b c hb hc
      split at h
      · rename_i x y hx hy
        split at h
        · rename_i hs
          split at h
          · rename_i b' c' e1 e2
            cases h
            have ha : act s (.removeStart x.buf 0) (.assign x.bt y.bt) (.assign x.pt y.pt) =
                some { s with bt := b', pt := c' } := by
              simp [act, buf_noop (v.range b x hx).1, e1, e2]
            obtain ⟨g1, g2, g3, g4, _⟩ := copyTags_ok v hx hy hs ha
            refine ⟨g2 ▸ g1, fun hq => by simp [Op.quiet] at hq, fun _ _ hw => ⟨hw, fun _ hc => by simp [Op.isCopyTags] at hc⟩⟩
          · cases h
        · cases h; exact nop
      · cases h
    · cases h; exact nop
    · cases h
  | fragment j start size =>
    simp only [PState.step] at h
    split at h
    · cases h
    · rename_i p hp
      split at h
      · cases h
      · rename_i s1 e1
        obtain ⟨g1, g2, g3, g4⟩ := push_ok v e1
        split at h
        · cases h
        · rename_i s2 e2
          obtain ⟨_, _, _, _, _, _, _, _, r1, r2, r3⟩ := removeHeader_ok g1 e2
          split at h
          · obtain ⟨_, _, _, _, _, _, _, _, u1, u2, u3⟩ := removeTrailer_ok r1.inv h
            have hl : s1.pkts.length = s.pkts.length := by rw [(addRef_ok v e1).2.2.1]
            have f : Frame s s' (.fragment j start size) := by
              intro k q hq _
              have hk : k ≠ s1.pkts.length := by have := Tag.lt_of hq; omega
              obtain ⟨a1, a2⟩ := r2 k q (g2 k q hq) hk
              obtain ⟨a3, a4⟩ := u2 k q a1 hk
              exact ⟨a3, a4.trans (a2.trans (g3 q))⟩
            exact ⟨u1.inv, fun _ => f, fun _ _ hw => ⟨u3 _ (r3 _ (g4 _ hw)), fun _ _ _ => f⟩⟩
          · cases h
  | addHeaderPkt i j held =>
    simp only [PState.step] at h
    split at h
    · cases h
    · cases h
      have f : Frame s s (.addHeaderPkt i j held) := fun k q hq _ => ⟨hq, rfl⟩
      exact ⟨v, fun _ => f, fun _ _ hw => ⟨hw, fun _ _ _ => f⟩⟩
    · rename_i c hc
      split at h
      · rename_i y s1 x hy e
        obtain ⟨p1, p2, p3⟩ := act_parts h
        obtain ⟨p0, b, g1, g2, g3, _, _, _, g4, g5⟩ := own_run v e h rfl rfl rfl (by
          intro P b v1 hx
          rw [tsize_addListStart v1.tb p2, tsize_addListStart v1.tp p3, bsize_addStartBuf v1.bb (v1.range b x hx).1 p1]
          have h1 := v1.sync b x hx
          cases hp0 : s.pkts[i]? with
          | none => simp [makePrivate, hp0] at e
          | some p0 =>
            obtain ⟨b', pr⟩ := makePrivate_ok (v.perm (perm_pkts hp0)) hp0 e
            obtain ⟨y', hy', z1, z2, z3⟩ := pr.idx c y hy
            have h2 := v1.sync c y' hy'
            rw [z1, z2, z3] at h2
            omega)
        refine ⟨g3.inv, fun hc => by simp [Op.quiet] at hc, fun w _ hw => ⟨(g5 w trivial hw).1,
          fun _ _ hd => others_frame rfl ((g5 w trivial hw).2 rfl (.inr hd))⟩⟩
      · cases h
  | addTrailerPkt i j held =>
    simp only [PState.step] at h
    split at h
    · cases h
    · cases h
      have f : Frame s s (.addTrailerPkt i j held) := fun k q hq _ => ⟨hq, rfl⟩
      exact ⟨v, fun _ => f, fun _ _ hw => ⟨hw, fun _ _ _ => f⟩⟩
    · rename_i c hc
      split at h
      · rename_i y s1 x hy e
        obtain ⟨p1, p2, p3⟩ := act_parts h
        obtain ⟨p0, b, g1, g2, g3, _, _, _, g4, g5⟩ := own_run v e h rfl rfl rfl (by
          intro P b v1 hx
          rw [tsize_addListEnd v1.tb p2, tsize_addListEnd v1.tp p3, bsize_addEndBuf v1.bb (v1.range b x hx).1 p1]
          have h1 := v1.sync b x hx
          cases hp0 : s.pkts[i]? with
          | none => simp [makePrivate, hp0] at e
          | some p0 =>
            obtain ⟨b', pr⟩ := makePrivate_ok (v.perm (perm_pkts hp0)) hp0 e
            obtain ⟨y', hy', z1, z2, z3⟩ := pr.idx c y hy
            have h2 := v1.sync c y' hy'
            rw [z1, z2, z3] at h2
            omega)
        refine ⟨g3.inv, fun hc => by simp [Op.quiet] at hc, fun w _ hw => ⟨(g5 w (.inl rfl) hw).1,
          fun _ _ hd => others_frame rfl ((g5 w (.inl rfl) hw).2 rfl (.inr hd))⟩⟩
      · cases h
  | user o =>
    simp only [PState.step] at h
    split at h
    · rename_i hf
      simp only [List.all_eq_true, targets_eq] at hf
      obtain ⟨g1, g2, g3, g4, g5, g6, g7, g8⟩ := user_ok v h (fun j hj b x hx => free_ne v (hf j hj) hx)
      have fin : Keep s s' s.pkts → Frame s s' (.user o) := by
        intro k j q hq _
        exact ⟨by rw [g2]; exact hq, k q (List.mem_of_getElem? hq)⟩
      refine ⟨g2 ▸ g1, fun hq => fin (g4 (by simpa [Op.quiet] using hq)), fun w hp hw => ?_⟩
      have hpl : o.plain w.on s.bufs := by
        cases o <;> simp_all [Op.plain, Buf.Op.plain, Buf.Cover.all, Side.on]
      refine ⟨(g8 w hpl hw).1, fun hwr _ hd => fin ((g8 w hpl hw).2 ?_ ?_)⟩
      · cases o <;> simp_all [Op.isWrite, Buf.Op.isWrite]
      · cases o <;> simp_all [Op.sided, Buf.Op.sided, Side.on]
    · cases h
  | reap b =>
    simp only [PState.step] at h
    split at h
    · cases h
    · rename_i x hx
      split at h
      · rename_i h0
        have hr := v.ref b x hx
        have hn : some b ∉ s.pkts := List.count_eq_zero.mp (by omega)
        -- count the body as held once more
        have v' : PInv (s.setBody b (some { x with ref := 1 })) (some b :: s.pkts) := by
          have : addRef s (some b) = some (s.setBody b (some { x with ref := 1 })) := by
            simp [addRef, hx, h0]
          exact (addRef_ok v this).1
        have hk : kill (s.setBody b (some { x with ref := 1 })) b { x with ref := 1 } = some s' := by
          rw [← h]
          unfold kill act
          simp only [PState.setBody]
          cases s.bufs.step (.destroy x.buf) <;> cases s.bt.step (.destroy x.bt) <;> cases s.pt.step (.destroy x.pt) <;> simp
          funext c
          by_cases e : c = b <;> simp [e]
        obtain ⟨g1, g2, g3, g4, _⟩ := kill_ok v' (if_pos rfl) hn hk
        have hv : ∀ q, view (s.setBody b (some { x with ref := 1 })) q = view s q := by
          have : addRef s (some b) = some (s.setBody b (some { x with ref := 1 })) := by
            simp [addRef, hx, h0]
          exact (addRef_ok v this).2.1
        have f : Frame s s' (.reap b) := by
          intro k q hq _
          exact ⟨by rw [g3]; exact hq, (g2 q (List.mem_of_getElem? hq)).trans (hv q)⟩
        exact ⟨by rw [g3]; exact g1, fun _ => f, fun _ _ hw => ⟨g4 _ hw, fun _ _ _ => f⟩⟩
      · cases h

end Verif.Packet
