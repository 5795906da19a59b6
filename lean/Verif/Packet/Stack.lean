import Verif.Packet.Props
import Verif.Message.Wire

/-!
Property C111: messages as headers of packets.

The sender adds a header to a packet and writes a message through an iterator at the beginning of the returned buffer, layer by layer;
the receiver reads each message from the beginning of the packet's buffer and removes it.  `PacketBuffer` is `Buffer`
(/repo/network/packet/packet-buffer.h 39).
-/
set_option linter.unusedSimpArgs false
set_option linter.unusedVariables false
namespace Verif.Packet
open Verif Verif.Iter Verif.Message

/-! ### Model -/

/-- `begin()` and `cbegin()`; /repo/network/buffer/buffer.h 950-955, 964-969. -/
def beginOf (f : Buf.Seg) : It := ⟨f.lo, f.hi, f.lo⟩

/-- The storage an iterator points to: none for a null buffer. -/
def dataOf (m : Buf.Mem) (f : Buf.Seg) : Option (List Byte) :=
  match f.st with
  | none => some []
  | some id => (m.mem id).map fun x => Buf.rd x.bytes 0 x.cap

/-- The storage after the iterator has written. -/
def setData (m : Buf.Mem) (f : Buf.Seg) (d : List Byte) : Buf.Mem :=
  match f.st with
  | none => m
  | some id =>
    match m.mem id with
    | none => m
    | some x => m.put id (some { x with bytes := Buf.wr x.bytes 0 d })

/-- A message is written from the beginning of buffer `k` of the client. -/
def writeMsg (h : Host) (fs : List (Order × Field)) (s : PState) (k : Nat) : Option PState :=
  match s.bufs.bufs[k]? with
  | none => none
  | some f =>
    match dataOf s.bufs.mem f with
    | none => none
    | some d =>
      match writeAll plain h fs (beginOf f) d with
      | none => none
      | some (_, d') => some { s with bufs := { s.bufs with mem := setData s.bufs.mem f d' } }

/-- The buffer that `GetBuffer()` copies; /repo/network/packet/packet.h 773-776. -/
def segOf (s : PState) (i : Nat) : Option Buf.Seg :=
  match s.pkts[i]? with
  | none => none
  | some none => some .null
  | some (some b) =>
    match s.body b with
    | none => none
    | some x => s.bufs.bufs[x.buf]?

/-- A message is read from the beginning of the buffer of packet `i`: the number of bytes read, and the values. -/
def readMsg (h : Host) (xs : List (Order × Var)) (s : PState) (i : Nat) : Option (Nat × List Field) :=
  match segOf s i with
  | none => none
  | some f =>
    match dataOf s.bufs.mem f with
    | none => none
    | some d => (readAll plain h xs (beginOf f) d).map fun r => (r.1.cursor - (beginOf f).cursor, r.2)

/-- Storages have less than `2^63` bytes: no allocation can be larger (`PTRDIFF_MAX`). -/
def Fits (s : PState) : Prop := ∀ id x, s.bufs.mem.mem id = some x → x.cap < 2 ^ 63

/-- The layers of a sender on host `h`, the outermost first, put around what packet `i` held; in between, anything may happen to other
packets that does not copy bytes into packets or write. -/
inductive Sends (h : Host) (i : Nat) : PState → List (List (Order × Field)) → PState → Prop
  | done (s) : Sends h i s [] s
  | other {s ls s1 s2} (o : Op) : Sends h i s ls s1 → s1.step o = some s2 → o.quiet = true → i ∉ o.targets → Sends h i s ls s2
  | layer {s ls s1 s2 s3} (fs : List (Order × Field)) (held : Bool) : Sends h i s ls s1 →
      s1.step (.addHeader i (total fs) held) = some s2 → Fits s2 →
      writeMsg h fs s2 (s2.bufs.bufs.length - 1) = some s3 → Sends h i s (fs :: ls) s3

/-- A receiver on host `h` reads messages into variables and removes them, one after the other. -/
inductive Receives (h : Host) (i : Nat) : PState → List (List (Order × Var)) → List (List Field) → PState → Prop
  | done (s) : Receives h i s [] [] s
  | other {s xss out s1 s2} (o : Op) : s.step o = some s1 → o.quiet = true → i ∉ o.targets → Receives h i s1 xss out s2 →
      Receives h i s xss out s2
  | layer {s xss out s1 s2} (xs : List (Order × Var)) (held : Bool) (n : Nat) (vs : List Field) : Fits s →
      readMsg h xs s i = some (n, vs) → s.step (.removeHeader i n held) = some s1 → Receives h i s1 xss out s2 →
      Receives h i s (xs :: xss) (vs :: out) s2

/-! ### Lemmas -/

theorem part_begin {b : Nat → Byte} {cap : Nat} {f : Buf.Seg} (hc : f.hi ≤ cap) :
    part (beginOf f) (Buf.rd b 0 cap) = Buf.rd b f.lo (f.hi - f.lo) := by
  apply List.ext_getElem?
  intro k
  have e1 : (beginOf f).start = f.lo := rfl
  have e2 : (beginOf f).stop = f.hi := rfl
  rw [part_get, Buf.rd_getElem?, Buf.rd_getElem?, e1, e2]
  by_cases h : k < f.hi - f.lo
  · rw [if_pos h, if_pos h, if_pos (by omega), Nat.zero_add]
  · rw [if_neg h, if_neg h]

/-- The storage of a buffer that exists. -/
theorem data_ok {m : Buf.Mem} {L : List Buf.Seg} (hb : Buf.Base m L) {f : Buf.Seg} (hf : f ∈ L)
    (hfit : ∀ id x, m.mem id = some x → x.cap < 2 ^ 63) :
    ∃ d, dataOf m f = some d ∧ part (beginOf f) d = m.view f ∧ (m.view f).length = f.hi - f.lo ∧
      ∀ n, n ≤ f.hi - f.lo → Iter.Room (beginOf f) d n := by
  unfold dataOf Buf.Mem.view
  cases hst : f.st with
  | none =>
    obtain ⟨h1, h2⟩ := hb.null f hf hst
    refine ⟨[], rfl, by simp [part], by simp [h1, h2], ?_⟩
    intro n hn
    exact ⟨Nat.le_refl _, by simp only [beginOf]; omega, by simp [beginOf, h2], by simp⟩
  | some id =>
    obtain ⟨x, hx, h1, h2⟩ := hb.held f hf id hst
    refine ⟨Buf.rd x.bytes 0 x.cap, by simp [hx], by simp only [hx]; exact part_begin h2, by simp [hx], ?_⟩
    intro n hn
    exact ⟨Nat.le_refl _, by simp only [beginOf]; omega, by simpa [beginOf] using h2, by simpa using hfit id x hx⟩

/-- Writing a message is writing its bytes. -/
theorem writeMsg_eq {h : Host} {fs : List (Order × Field)} (hok : ∀ p ∈ fs, p.2.Ok h) {s s' : PState}
    (hb : Buf.Base s.bufs.mem s.bufs.bufs) (hfit : Fits s) {k : Nat} (hw : writeMsg h fs s k = some s') :
    s.onBuf (.write k 0 (bytesOf h fs)) = some s' := by
  unfold writeMsg at hw
  cases hk : s.bufs.bufs[k]? with
  | none => rw [hk] at hw; cases hw
  | some f =>
    rw [hk] at hw
    dsimp only at hw
    obtain ⟨d, hd, hp, hlen, hroom⟩ := data_ok hb (List.mem_of_getElem? hk) hfit
    rw [hd] at hw
    dsimp only at hw
    cases hwa : writeAll plain h fs (beginOf f) d with
    | none => rw [hwa] at hw; cases hw
    | some r =>
      obtain ⟨it', d'⟩ := r
      rw [hwa] at hw
      simp only [Option.some.injEq] at hw
      have ef := eff_all plainView hok (hroom 0 (Nat.zero_le _)) hwa
      have hR : Iter.Room (beginOf f) d (bytesOf h fs).length := ef.room
      have hB : part (beginOf f) d' = splice (part (beginOf f) d) ((beginOf f).cursor - (beginOf f).start) (bytesOf h fs) := ef.bytes
      have hF : ∀ i, ¬ ((beginOf f).start ≤ i ∧ i < (beginOf f).stop) → d'[i]? = d[i]? := ef.frame
      have hL : d'.length = d.length := ef.len
      have hup : f.lo + (bytesOf h fs).length ≤ f.hi := hR.upper
      have hset : s.bufs.bufs.set k f = s.bufs.bufs := by
        apply List.ext_getElem?; intro a
        rw [List.getElem?_set]
        by_cases e : k = a
        · subst e; rw [if_pos rfl, hk, if_pos (Tag.lt_of hk)]
        · rw [if_neg e]
      have key : s.bufs.mem.fill f (f.lo + 0) (bytesOf h fs) = some (setData s.bufs.mem f d') := by
        unfold Buf.Mem.fill setData
        cases hst : f.st with
        | none =>
          obtain ⟨h1, h2⟩ := hb.null f (List.mem_of_getElem? hk) hst
          have : bytesOf h fs = [] := List.length_eq_zero_iff.mp (by omega)
          simp [this]
        | some id =>
          obtain ⟨x, hx, h1, h2⟩ := hb.held f (List.mem_of_getElem? hk) id hst
          have hdx : d = Buf.rd x.bytes 0 x.cap := by
            simp only [dataOf, hst, hx, Option.map_some, Option.some.injEq] at hd
            exact hd.symm
          simp only [Buf.Mem.write, hx, Nat.add_zero]
          rw [if_pos (by omega)]
          congr 3
          suffices e : Buf.wr x.bytes f.lo (bytesOf h fs) = Buf.wr x.bytes 0 d' by rw [e]
          funext a
          have hR0 : Buf.wr x.bytes 0 d' a = (d'[a]?).getD (x.bytes a) := by simp [Buf.wr]
          rw [hR0]
          by_cases c1 : f.lo ≤ a ∧ a < f.hi
          · have g := congrArg (fun l => l[a - f.lo]?) hB
            rw [part_get, splice_get (by rw [hp, hlen]; simp only [beginOf]; omega)] at g
            have b1 : (beginOf f).start = f.lo := rfl
            have b2 : (beginOf f).stop = f.hi := rfl
            have b3 : (beginOf f).cursor = f.lo := rfl
            rw [b1, b2, b3, Nat.sub_self, if_pos (by omega), show f.lo + (a - f.lo) = a by omega] at g
            rw [g, part_get]
            simp only [Buf.wr, if_pos c1.1]
            by_cases c2 : a - f.lo < (bytesOf h fs).length
            · rw [if_neg (by omega), if_pos (by omega), Nat.sub_zero]
            · rw [if_neg (by omega), if_neg (by omega), b1, b2, if_pos (by omega), hdx, Buf.rd_getElem?,
                List.getElem?_eq_none (by omega)]
              rw [if_pos (by omega), show 0 + (f.lo + (a - f.lo)) = a by omega]
              rfl
          · rw [hF a (by simpa [beginOf] using c1), hdx, Buf.rd_getElem?, Buf.wr_out (by omega)]
            split <;> simp
      have hstep : s.bufs.step (.write k 0 (bytesOf h fs)) = some ⟨setData s.bufs.mem f d', s.bufs.bufs⟩ := by
        simp only [Buf.State.step, Buf.State.on, hk]
        rw [if_pos (by omega), key]
        simp [hset]
      simp only [PState.onBuf, hstep, Option.map_some, Option.some.injEq]
      exact hw

theorem writeMsg_ok {h : Host} {fs : List (Order × Field)} (hok : ∀ p ∈ fs, p.2.Ok h) {s : PState}
    (hb : Buf.Base s.bufs.mem s.bufs.bufs) (hfit : Fits s) {k : Nat} {f : Buf.Seg} (hk : s.bufs.bufs[k]? = some f)
    (hn : total fs ≤ f.hi - f.lo) : ∃ s', writeMsg h fs s k = some s' := by
  obtain ⟨d, hd, hp, hlen, hroom⟩ := data_ok hb (List.mem_of_getElem? hk) hfit
  obtain ⟨r, hr⟩ := ok_all plainView hok (hroom _ hn) trivial
  exact ⟨_, by simp only [writeMsg, hk, hd, hr]; rfl⟩

/-- The last buffer after `AddHeader` is the client's. -/
theorem last_free {s s' : PState} (v : PInv s s.pkts) {i n : Nat} {held : Bool} (h : addHeader s i n held = some s') :
    s'.free (s'.bufs.bufs.length - 1) = true := by
  obtain ⟨s1, s2, p0, b, x, h1, h2, hu, v2, h3, h4, h5, _, _⟩ := addHeader_ok v h
  obtain ⟨u1, u2, u3, u4, u5, u6, u7, _⟩ := user_ok v2 hu (by simp [Buf.Op.targets])
  obtain ⟨c, f, c1, c2, c3, c4, c5⟩ := fragment_seg v2.bb u5
  have hlen : s'.bufs.bufs.length - 1 = s2.bufs.bufs.length := by rw [c2]; simp
  simp only [PState.free, List.all_eq_true, List.mem_range]
  intro b' _
  split
  · rfl
  · rename_i y hy
    rw [u3] at hy
    have := (v2.range b' y hy).1
    simp; omega

/-- Adding one layer. -/
theorem layer_ok {h : Host} {fs : List (Order × Field)} (hok : ∀ p ∈ fs, p.2.Ok h) {s s1 s2 : PState} {i : Nat} {held : Bool}
    (v : PInv s s.pkts) (h1 : s.step (.addHeader i (total fs) held) = some s1) (hfit : Fits s1)
    (h2 : writeMsg h fs s1 (s1.bufs.bufs.length - 1) = some s2) :
    s1.step (.user (.write (s1.bufs.bufs.length - 1) 0 (bytesOf h fs))) = some s2 ∧ PInv s2 s2.pkts ∧
      s2.pkts.length = s1.pkts.length ∧
      s2.bytes i = bytesOf h fs ++ s.bytes i ∧
      (∀ id off, off < s.size i → s2.byteTag i id (off + total fs) = s.byteTag i id off) ∧
      (∀ id off, off < s.size i → s2.packetTag i id (off + total fs) = s.packetTag i id off) := by
  have v1 := (step_ok v h1).inv
  have hon := writeMsg_eq hok v1.bb hfit h2
  have hstep : s1.step (.user (.write (s1.bufs.bufs.length - 1) 0 (bytesOf h fs))) = some s2 := by
    show (if (bufTargets _).all s1.free then _ else _) = _
    rw [if_pos (by simpa [bufTargets] using last_free v h1)]
    exact hon
  have v2 := (step_ok v1 hstep).inv
  obtain ⟨⟨pre, l1, l2⟩, t1, t2, _, b, x, c, f, c1, c2, c3, c4, c5, c6, c7, c8⟩ := addHeader_effect v h1
  obtain ⟨g1, g2, g3, g4, g5, g6, g7, g8⟩ := user_ok v1 hon (by
    intro j hj b' y hy
    exact free_ne v1 (by simp [Buf.Op.targets] at hj; rw [hj]; exact last_free v h1) hy)
  obtain ⟨q1, q2, q3⟩ := write_alias v1.bb c3 c4 g5 (by
    intro hp
    obtain ⟨z1, z2⟩ := c6 (by omega)
    exact ⟨z1, by omega, by omega⟩)
  have p1 := parts_of c1 c2
  have p2 := parts_of (s := s2) (by rw [g2]; exact c1) (by rw [g3]; exact c2)
  have hl := bytesOf_length h fs
  refine ⟨hstep, v2, by rw [g2], ?_, ?_, ?_⟩
  · rw [p2.bytes, q3, ← p1.bytes, l2]
    split
    · rename_i hp
      obtain ⟨z1, z2⟩ := c6 (by omega)
      rw [z2, Nat.sub_self, Nat.zero_add]
      unfold Buf.patch
      rw [List.take_zero, List.nil_append, Nat.zero_add, hl, ← l1, List.drop_left]
    · have e0 : total fs = 0 := by omega
      have e1 : bytesOf h fs = [] := List.length_eq_zero_iff.mp (by omega)
      have e2 : pre = [] := List.length_eq_zero_iff.mp (by omega)
      rw [e1, e2]
  · intro id off ho
    rw [p2.bt, g6, ← p1.bt]; exact t1 id off ho
  · intro id off ho
    rw [p2.pt, g7, ← p1.pt]; exact t2 id off ho

theorem reach_step {s s' : PState} (h : Reach s) {o : Op} (hs : s.step o = some s') : Reach s' := reach_stepE (e := .done o) h rfl hs

/-- The buffer of a packet and its storage. -/
theorem seg_ok {s : PState} (v : PInv s s.pkts) (hfit : Fits s) {i : Nat} (hi : i < s.pkts.length) :
    ∃ f d, segOf s i = some f ∧ dataOf s.bufs.mem f = some d ∧ part (beginOf f) d = s.bytes i ∧
      (s.bytes i).length = f.hi - f.lo ∧ (∀ n, n ≤ f.hi - f.lo → Iter.Room (beginOf f) d n) ∧ f.hi < 2 ^ 63 := by
  have hp := List.getElem?_eq_getElem hi
  cases e : s.pkts[i] with
  | none =>
    rw [e] at hp
    refine ⟨.null, [], by simp [segOf, hp], rfl, by simp [part, PState.bytes, hp], by simp [PState.bytes, hp, Buf.Seg.null], ?_, by decide⟩
    intro n hn
    exact ⟨Nat.le_refl _, by simp [beginOf, Buf.Seg.null] at *; omega, by simp [beginOf, Buf.Seg.null], by simp⟩
  | some b =>
    rw [e] at hp
    obtain ⟨x, hx⟩ := v.alive b (List.mem_of_getElem? hp)
    obtain ⟨f, hf⟩ := Buf.get_of_lt (s := s.bufs) (v.range b x hx).1
    obtain ⟨d, h1, h2, h3, h4⟩ := data_ok v.bb (List.mem_of_getElem? hf) hfit
    rw [(parts_of hp hx).bytes, Buf.bytes_of hf]
    refine ⟨f, d, by simp [segOf, hp, hx, hf], h1, h2, h3, h4, ?_⟩
    cases hst : f.st with
    | none => have := v.bb.null f (List.mem_of_getElem? hf) hst; omega
    | some id =>
      obtain ⟨y, hy, _, h6⟩ := v.bb.held f (List.mem_of_getElem? hf) id hst
      have := hfit id y hy
      omega

/-- Reading what stands at the beginning of a packet. -/
theorem readMsg_ok {h₁ h₂ : Host} {fs : List (Order × Field)} {xs : List (Order × Var)}
    (hok : ∀ p ∈ fs, p.2.Ok h₁ ∧ p.2.Ok h₂) (hh : h₁ = h₂ ∨ ∀ p ∈ fs, p.1 ≠ .native) (hm : Matches fs xs)
    {s : PState} (v : PInv s s.pkts) (hfit : Fits s) {i : Nat} (hi : i < s.pkts.length) {rest : List Byte}
    (hb : s.bytes i = bytesOf h₁ fs ++ rest) : readMsg h₂ xs s i = some (total fs, fs.map Prod.snd) := by
  have hl := bytesOf_length h₁ fs
  obtain ⟨f, d, hf, hd, h1, h2, h3, _⟩ := seg_ok v hfit hi
  have hAt : At plainView (beginOf f) d (bytesOf h₁ fs) := by
    refine ⟨h3 _ ?_, ?_⟩
    · rw [← h2, hb, List.length_append]; omega
    · show ((part (beginOf f) d).drop ((beginOf f).cursor - (beginOf f).start)).take _ = _
      rw [h1, hb]
      simp [beginOf]
  have hr := read_all plainView (fun p hp => ⟨(hok p hp).1, (hok p hp).2, hh.imp_right (fun h => h p hp)⟩) hm hAt
  simp only [readMsg, hf, hd, hr, Option.map_some, Option.some.injEq, Prod.mk.injEq, and_true]
  show (beginOf f).cursor + total fs - (beginOf f).cursor = total fs
  omega

/-! ### Properties -/

/-- The bytes of layers, the outermost first. -/
def wireOf (h : Host) (ls : List (List (Order × Field))) : List Byte := ls.flatMap (format h)

/-- **C111, sending.** After any number of layers, the packet holds the messages of all layers in the format of the wire, the outermost
first, followed by what it held before, with all tags; the state is one that operations on packets reach. -/
theorem C111_sent {h : Host} {i : Nat} {s s' : PState} {ls : List (List (Order × Field))} (hs : Reach s) (hi : i < s.pkts.length)
    (hok : ∀ fs ∈ ls, ∀ p ∈ fs, p.2.Ok h) (hS : Sends h i s ls s') :
    Reach s' ∧ i < s'.pkts.length ∧ s'.bytes i = wireOf h ls ++ s.bytes i ∧
      (∀ id off, off < s.size i → s'.byteTag i id (off + (wireOf h ls).length) = s.byteTag i id off) ∧
      (∀ id off, off < s.size i → s'.packetTag i id (off + (wireOf h ls).length) = s.packetTag i id off) := by
  induction hS with
  | done => exact ⟨hs, hi, by simp [wireOf], fun _ _ _ => by simp [wireOf], fun _ _ _ => by simp [wireOf]⟩
  | @other ls s1 s2 o h1 h2 hq hn ih =>
    obtain ⟨a1, a2, a3, a4, a5⟩ := ih hok
    have v := reach_inv a1
    have k := step_ok v h2
    have sh := frame_shows (k.quiet hq) a2 hn
    have hg := (k.quiet hq i _ (List.getElem?_eq_getElem a2) hn).1
    refine ⟨reach_step a1 h2, Tag.lt_of hg, by rw [sh.1, a3], ?_, ?_⟩
    · intro id off ho; rw [sh.2.1]; exact a4 id off ho
    · intro id off ho; rw [sh.2.2]; exact a5 id off ho
  | @layer ls s1 s2 s3 fs held h1 h2 hf h3 ih =>
    obtain ⟨a1, a2, a3, a4, a5⟩ := ih (fun l hl => hok l (List.mem_cons_of_mem _ hl))
    have v := reach_inv a1
    obtain ⟨e1, e2, e3, e4, e5, e6⟩ := layer_ok (hok fs List.mem_cons_self) v h2 hf h3
    have hlen : s.size i + (wireOf h ls).length = s1.size i := by
      rw [size_bytes v, a3, List.length_append, size_bytes (reach_inv hs), Nat.add_comm]
    have hfl : (format h fs).length = total fs := by rw [← bytesOf_format, bytesOf_length]
    have hw : (wireOf h (fs :: ls)).length = (wireOf h ls).length + total fs := by
      simp only [wireOf, List.flatMap_cons, List.length_append, hfl]; omega
    obtain ⟨_, _, _, _, b, _, _, _, c1, _⟩ := addHeader_effect v h2
    refine ⟨reach_step (reach_step a1 h2) e1, by rw [e3]; exact Tag.lt_of c1, ?_, ?_, ?_⟩
    · rw [e4, a3, bytesOf_format]; simp [wireOf, List.append_assoc]
    · intro id off ho
      rw [hw, ← Nat.add_assoc, e5 id _ (by omega)]; exact a4 id off ho
    · intro id off ho
      rw [hw, ← Nat.add_assoc, e6 id _ (by omega)]; exact a5 id off ho

theorem received {h₁ h₂ : Host} {j : Nat} {t t' : PState} {xss : List (List (Order × Var))} {out : List (List Field)}
    (hR : Receives h₂ j t xss out t') : ∀ {ls : List (List (Order × Field))} {payload : List Byte}, PInv t t.pkts → j < t.pkts.length →
    (∀ fs ∈ ls, ∀ p ∈ fs, p.2.Ok h₁ ∧ p.2.Ok h₂) → (h₁ = h₂ ∨ ∀ fs ∈ ls, ∀ p ∈ fs, p.1 ≠ .native) →
    List.Forall₂ Matches ls xss → t.bytes j = wireOf h₁ ls ++ payload →
    out = ls.map (·.map Prod.snd) ∧ t'.bytes j = payload ∧
      (∀ id off, t'.byteTag j id off = t.byteTag j id (off + (wireOf h₁ ls).length)) ∧
      (∀ id off, t'.packetTag j id off = t.packetTag j id (off + (wireOf h₁ ls).length)) := by
  induction hR with
  | done s =>
    intro ls payload v hj hok hh hm hb
    cases hm
    exact ⟨rfl, by simpa [wireOf] using hb, fun _ _ => by simp [wireOf], fun _ _ => by simp [wireOf]⟩
  | @other s xss out s1 s2 o h1 hq hn h2 ih =>
    intro ls payload v hj hok hh hm hb
    have k := step_ok v h1
    have sh := frame_shows (k.quiet hq) hj hn
    have hg := (k.quiet hq j _ (List.getElem?_eq_getElem hj) hn).1
    obtain ⟨r1, r2, r3, r4⟩ := ih k.inv (Tag.lt_of hg) hok hh hm (by rw [sh.1, hb])
    exact ⟨r1, r2, fun id off => by rw [r3, sh.2.1], fun id off => by rw [r4, sh.2.2]⟩
  | @layer s xss out s1 s2 xs held n vs hf h1 h2 h3 ih =>
    intro ls payload v hj hok hh hm hb
    cases hm with
    | @cons fs _ ls _ hm1 hm2 =>
      have hfl : (format h₁ fs).length = total fs := by rw [← bytesOf_format, bytesOf_length]
      have hb' : s.bytes j = bytesOf h₁ fs ++ (wireOf h₁ ls ++ payload) := by
        rw [hb, bytesOf_format]; simp [wireOf, List.append_assoc]
      have hr := readMsg_ok (hok fs List.mem_cons_self) (hh.imp_right (fun h => h fs List.mem_cons_self)) hm1 v hf hj hb'
      rw [h1] at hr
      simp only [Option.some.injEq, Prod.mk.injEq] at hr
      obtain ⟨rfl, rfl⟩ := hr
      obtain ⟨_, e2, e3, e4⟩ := removeHeader_effect v h2
      have k := step_ok v h2
      obtain ⟨_, _, _, _, _, _, k3, _, k5, _⟩ := removeHeader_ok v h2
      have hb1 : s1.bytes j = wireOf h₁ ls ++ payload := by
        rw [e2, hb', ← bytesOf_length h₁ fs, List.drop_left]
      obtain ⟨r1, r2, r3, r4⟩ := ih k.inv (by rw [k5.pkts]; simpa using hj) (fun l hl => hok l (List.mem_cons_of_mem _ hl))
        (hh.imp_right (fun h l hl => h l (List.mem_cons_of_mem _ hl))) hm2 hb1
      have hw : (wireOf h₁ (fs :: ls)).length = (wireOf h₁ ls).length + total fs := by
        simp only [wireOf, List.flatMap_cons, List.length_append, hfl]; omega
      refine ⟨by simp [r1], r2, ?_, ?_⟩
      · intro id off; rw [r3, e3, hw, Nat.add_assoc]
      · intro id off; rw [r4, e4, hw, Nat.add_assoc]

/-- **C111, receiving.** Whoever has a packet with the bytes that were sent (the packet itself, a copy, a reassembled one, in whatever
state of the program) and reads and removes messages of the same types gets exactly the fields of every layer, and is left with exactly
what the sender's packet held at first; the hosts may differ if no field is in native order.  The tags that remain are those of the
bytes that remain. -/
theorem C111_received {h₁ h₂ : Host} {i j : Nat} {s s' t t' : PState} {ls : List (List (Order × Field))}
    {xss : List (List (Order × Var))} {out : List (List Field)} (hs : Reach s) (hi : i < s.pkts.length)
    (hok : ∀ fs ∈ ls, ∀ p ∈ fs, p.2.Ok h₁ ∧ p.2.Ok h₂) (hh : h₁ = h₂ ∨ ∀ fs ∈ ls, ∀ p ∈ fs, p.1 ≠ .native)
    (hS : Sends h₁ i s ls s') (ht : Reach t) (hj : j < t.pkts.length) (hb : t.bytes j = s'.bytes i)
    (hm : List.Forall₂ Matches ls xss) (hR : Receives h₂ j t xss out t') :
    out = ls.map (·.map Prod.snd) ∧ t'.bytes j = s.bytes i ∧
      (∀ id off, t'.byteTag j id off = t.byteTag j id (off + (wireOf h₁ ls).length)) ∧
      (∀ id off, t'.packetTag j id off = t.packetTag j id (off + (wireOf h₁ ls).length)) := by
  obtain ⟨_, _, e, _⟩ := C111_sent hs hi (fun fs hfs p hp => (hok fs hfs p hp).1) hS
  exact received hR (reach_inv ht) hj hok hh hm (by rw [hb, e])

/-- **C111, progress.** A layer can always be added, and the next layer can always be read and removed, if the storages of the states
involved are of possible sizes. -/
theorem C111_progress {h₁ h₂ : Host} {i : Nat} {s : PState} (hs : Reach s) (hi : i < s.pkts.length) {fs : List (Order × Field)}
    (hok : ∀ p ∈ fs, p.2.Ok h₁ ∧ p.2.Ok h₂) (held : Bool) :
    (∃ s1, s.step (.addHeader i (total fs) held) = some s1 ∧
      (Fits s1 → ∃ s2, writeMsg h₁ fs s1 (s1.bufs.bufs.length - 1) = some s2)) ∧
    ∀ {xs rest}, (h₁ = h₂ ∨ ∀ p ∈ fs, p.1 ≠ .native) → Matches fs xs → Fits s → s.bytes i = format h₁ fs ++ rest →
      ∃ s1, readMsg h₂ xs s i = some ((format h₁ fs).length, fs.map Prod.snd) ∧
        s.step (.removeHeader i (format h₁ fs).length held) = some s1 := by
  have v := reach_inv hs
  have hl : (format h₁ fs).length = total fs := by rw [← bytesOf_format, bytesOf_length]
  constructor
  · obtain ⟨⟨s1, h1⟩, _⟩ := C20_defined s hs i hi (total fs) held
    refine ⟨s1, h1, fun hf => ?_⟩
    obtain ⟨_, _, _, _, b, x, c, f, c1, c2, c3, c4, c5, _⟩ := addHeader_effect v h1
    exact writeMsg_ok (fun p hp => (hok p hp).1) (step_ok v h1).inv.bb hf c4 (by omega)
  · intro xs rest hh hm hf hb
    rw [← bytesOf_format] at hb
    have hr := readMsg_ok hok hh hm v hf hi hb
    obtain ⟨_, _, h3⟩ := C20_defined s hs i hi (total fs) held
    obtain ⟨s1, h4⟩ := (h3 (by rw [size_bytes v, hb, List.length_append, bytesOf_length]; omega)).1
    exact ⟨s1, by rw [hl]; exact hr, by rw [hl]; exact h4⟩

/-- Two layers around three bytes on a packet that shares its body with another one, read back by way of the other order of hosts. -/
example : ((((PState.init fun _ _ => 0xcc).run shared).bind fun s => s.step (.addHeader 1 2 false)).bind fun s =>
    (writeMsg .little [(.big, .arith .w2 7)] s (s.bufs.bufs.length - 1)).bind fun s =>
    (s.step (.addHeader 1 5 false)).bind fun s =>
    (writeMsg .little [(.little, .arith .w4 0x01020304), (.native, .seq 7 3)] s (s.bufs.bufs.length - 1)).bind fun s =>
    (readMsg .big [(.little, .arith .w4), (.native, .seq 7 0)] s 1).bind fun r =>
    (s.step (.removeHeader 1 r.1 false)).bind fun s' =>
    (readMsg .big [(.big, .arith .w2)] s' 1).map fun r' => (s.bytes 0, s.bytes 1, s.byteTag 1 7 8, r, r', s'.bytes 1)) =
  some ([0, 0, 0], [4, 3, 2, 1, 3, 0, 7, 0, 0, 0], some 70, (5, [.arith .w4 0x01020304, .seq 7 3]), (2, [.arith .w2 7]),
    [0, 7, 0, 0, 0]) := by rfl

/-- A packet of three bytes, with room for a header, with a header. -/
def s0 : PState := ((PState.init fun _ _ => 0).run [.user (.newFrom [1, 2, 3]), .fromBuf 0]).get rfl
def s1 : PState := (s0.step (.addHeader 0 2 false)).get rfl
def s2 : PState := (writeMsg .little [(.big, .arith .w2 7)] s1 (s1.bufs.bufs.length - 1)).get rfl

theorem fits_of {s : PState} (r : Reach s) (h : ((List.range s.bufs.mem.next).all fun id =>
    ((s.bufs.mem.mem id).all fun x => decide (x.cap < 2 ^ 63))) = true) : Fits s := by
  intro id x hx
  simp only [List.all_eq_true, List.mem_range] at h
  have := h id (Nat.lt_of_not_le fun c => by rw [(reach_inv r).bb.closed id c] at hx; cases hx)
  simpa [hx] using this

/-- The hypotheses of C111 hold of a packet of three bytes with a header. -/
example : ∃ s s' t, Reach s ∧ s.bytes 0 = [1, 2, 3] ∧ Sends .little 0 s [[(.big, .arith .w2 7)]] s' ∧ Reach s' ∧
    Receives .big 0 s' [[(.big, .arith .w2)]] [[.arith .w2 7]] t := by
  have r0 : Reach s0 := reach_run (Option.some_get _).symm
  have hok : ∀ p ∈ [((.big : Order), (.arith .w2 7 : Message.Field))], p.2.Ok .little ∧ p.2.Ok .big := by
    intro p hp
    simp only [List.mem_cons, List.not_mem_nil, or_false] at hp
    subst hp
    exact ⟨by show 7 < 256 ^ 2; decide, by show 7 < 256 ^ 2; decide⟩
  have h1 : s0.step (.addHeader 0 2 false) = some s1 := (Option.some_get _).symm
  have h2 : writeMsg .little [(.big, .arith .w2 7)] s1 (s1.bufs.bufs.length - 1) = some s2 := (Option.some_get _).symm
  have f1 : Fits s1 := fits_of (reach_step r0 h1) rfl
  have hS : Sends .little 0 s0 [[(.big, .arith .w2 7)]] s2 := .layer _ false (.done _) h1 f1 h2
  have r2 := (C111_sent r0 (by decide) (by simpa using fun p hp => (hok p hp).1) hS).1
  have f2 : Fits s2 := fits_of r2 rfl
  obtain ⟨t, q1, q2⟩ := (C111_progress (i := 0) r2 (by decide) hok false).2 (xs := [(.big, .arith .w2)]) (rest := [1, 2, 3])
    (.inr (by simp)) (.cons ⟨rfl, rfl⟩ .nil) f2 rfl
  exact ⟨s0, s2, t, r0, rfl, hS, r2, .layer _ false _ _ f2 q1 q2 (.done _)⟩

end Verif.Packet
