import Verif.ZPacket.Props
import Verif.Message.Wire

/-!
Property C129: messages as headers of packets of zero-compressed buffers.

The sender adds a header to a packet and writes a message through an iterator at the beginning of the returned buffer, layer by layer;
the receiver reads each message from the beginning of the packet's buffer, which may hold compressed zeros anywhere, and removes it.
`PacketBuffer` is `ZcBuffer` (/repo/network/packet/packet-buffer.h 75-79).
-/
set_option linter.unusedSimpArgs false
set_option linter.unusedVariables false
namespace Verif.ZPacket
open Verif Verif.Iter Verif.Message

/-! ### Model -/

/-- `begin()` and `cbegin()`; /repo/network/buffer/zc-buffer.h 1094-1099, 1108-1113. -/
def beginOf (f : Zc.ZBuf) : ZcIter.ZIt := ⟨f.start, f.zs, f.ze, f.en, f.start⟩

/-- The storage an iterator points to: none for a null buffer. -/
def dataOf (m : Buf.Mem) (f : Zc.ZBuf) : Option (List Byte) :=
  match f.st with
  | none => some []
  | some id => (m.mem id).map fun x => Buf.rd x.bytes 0 x.cap

/-- The storage after the iterator has written. -/
def setData (m : Buf.Mem) (f : Zc.ZBuf) (d : List Byte) : Buf.Mem :=
  match f.st with
  | none => m
  | some id =>
    match m.mem id with
    | none => m
    | some x => m.put id (some { x with bytes := Buf.wr x.bytes 0 d })

/-- A message is written from the beginning of buffer `k` of the client. -/
def writeMsg (h : Host) (fs : List (Order × Field)) (s : PState) (k : Nat) : Option PState :=
  match s.bufs.bufs[k]? with
  | none => none
  | some f =>
    match dataOf s.bufs.mem f with
    | none => none
    | some d =>
      match writeAll compressed h fs (beginOf f) d with
      | none => none
      | some (_, d') => some { s with bufs := { s.bufs with mem := setData s.bufs.mem f d' } }

/-- The buffer that `GetBuffer()` copies; /repo/network/packet/packet.h 773-776. -/
def segOf (s : PState) (i : Nat) : Option Zc.ZBuf :=
  match s.pkts[i]? with
  | none => none
  | some none => some .null
  | some (some b) =>
    match s.body b with
    | none => none
    | some x => s.bufs.bufs[x.buf]?

/-- A message is read from the beginning of the buffer of packet `i`: the number of bytes read, and the values. -/
def readMsg (h : Host) (xs : List (Order × Var)) (s : PState) (i : Nat) : Option (Nat × List Field) :=
  match segOf s i with
  | none => none
  | some f =>
    match dataOf s.bufs.mem f with
    | none => none
    | some d => (readAll compressed h xs (beginOf f) d).map fun r => (r.1.cursor - (beginOf f).cursor, r.2)

/-- Storages have less than `2^63` bytes (no allocation can be larger), and so do buffers, with their compressed zeros. -/
structure Fits (s : PState) : Prop where
  mem : ∀ id x, s.bufs.mem.mem id = some x → x.cap < 2 ^ 63
  bufs : ∀ z ∈ s.bufs.bufs, z.en < 2 ^ 63

/-- The layers of a sender on host `h`, the outermost first, put around what packet `i` held; in between, anything may happen to other
packets that does not copy bytes into packets or write. -/
inductive Sends (h : Host) (i : Nat) : PState → List (List (Order × Field)) → PState → Prop
  | done (s) : Sends h i s [] s
  | other {s ls s1 s2} (o : Op) : Sends h i s ls s1 → s1.step o = some s2 → o.quiet = true → i ∉ o.targets → Sends h i s ls s2
  | layer {s ls s1 s2 s3} (fs : List (Order × Field)) (held : Bool) : Sends h i s ls s1 →
      s1.step (.addHeader i (total fs) held) = some s2 → Fits s2 →
      writeMsg h fs s2 (s2.bufs.bufs.length - 1) = some s3 → Sends h i s (fs :: ls) s3

/-- A receiver on host `h` reads messages into variables and removes them, one after the other. -/
inductive Receives (h : Host) (i : Nat) : PState → List (List (Order × Var)) → List (List Field) → PState → Prop
  | done (s) : Receives h i s [] [] s
  | other {s xss out s1 s2} (o : Op) : s.step o = some s1 → o.quiet = true → i ∉ o.targets → Receives h i s1 xss out s2 →
      Receives h i s xss out s2
  | layer {s xss out s1 s2} (xs : List (Order × Var)) (held : Bool) (n : Nat) (vs : List Field) : Fits s →
      readMsg h xs s i = some (n, vs) → s.step (.removeHeader i n held) = some s1 → Receives h i s1 xss out s2 →
      Receives h i s (xs :: xss) (vs :: out) s2

/-! ### Lemmas -/

/-- The storage of a buffer that exists. -/
theorem data_ok {t : Zc.ZState} (hb : Zc.Inv t) {k : Nat} {f : Zc.ZBuf} (hf : t.bufs[k]? = some f)
    (hfit : ∀ id x, t.mem.mem id = some x → x.cap < 2 ^ 63) (hen : f.en < 2 ^ 63) :
    ∃ d, dataOf t.mem f = some d ∧ ZcIter.logical (beginOf f) d = t.bytes k ∧ (t.bytes k).length = f.en - f.start ∧
      (∀ id x, f.st = some id → t.mem.mem id = some x → d = Buf.rd x.bytes 0 x.cap) ∧
      ∀ n, n ≤ f.en - f.start → ZRoom (beginOf f) d n := by
  have hz := hb.ok f (List.mem_of_getElem? hf)
  have z1 := hz.h1; have z2 := hz.h2; have z3 := hz.h3
  have hlen : (t.bytes k).length = f.en - f.start := by rw [Zc.bytes_len hb, Zc.size_of hf]; rfl
  rw [Zc.bytes_of hf] at hlen ⊢
  unfold dataOf
  cases hst : f.st with
  | none =>
    have := hb.base.null f.seg (Zc.seg_mem hf) hst
    simp only [Zc.ZBuf.seg] at this
    refine ⟨[], rfl, by simp [ZcIter.logical, beginOf, Zc.bytesOf, Buf.Mem.view, Zc.ZBuf.seg, hst], hlen, by simp, fun n hn => ?_⟩
    refine ⟨⟨z1, z2, z3, Nat.le_refl _, ?_, ?_, ?_⟩, hen, by simp⟩
    · show f.start + n ≤ f.en; omega
    · show f.en - (f.ze - f.zs) ≤ 0; omega
    · show f.en < 2 ^ 64; omega
  | some id =>
    obtain ⟨x, hx, h1, h2⟩ := hb.base.held f.seg (Zc.seg_mem hf) id hst
    simp only [Zc.ZBuf.seg] at h1 h2
    refine ⟨Buf.rd x.bytes 0 x.cap, by simp [hx], ?_, hlen, ?_, fun n hn => ?_⟩
    · simp only [ZcIter.logical, beginOf, Zc.bytesOf, Buf.Mem.view, Zc.ZBuf.seg, hst, hx]
      congr 1
      · congr 1
        apply List.ext_getElem?
        intro k
        simp only [List.getElem?_take, List.getElem?_drop, Buf.rd_getElem?]
        grind
      · apply List.ext_getElem?
        intro k
        simp only [List.getElem?_take, List.getElem?_drop, Buf.rd_getElem?]
        grind
    · intro id' x' e e'; cases e; rw [hx] at e'; cases e'; rfl
    · refine ⟨⟨z1, z2, z3, Nat.le_refl _, ?_, ?_, ?_⟩, hen, by simpa using hfit id x hx⟩
      · show f.start + n ≤ f.en; omega
      · show f.en - (f.ze - f.zs) ≤ _; simpa using h2
      · show f.en < 2 ^ 64; omega

/-- The buffer is all stored, and its bytes are all in front of the place where zeros would be, or all behind it. -/
structure Flat (f : Zc.ZBuf) : Prop where
  ze : f.ze = f.zs
  zs : f.zs = f.en ∨ f.zs = f.start

/-- Writing a message is writing its bytes. -/
theorem writeMsg_eq {h : Host} {fs : List (Order × Field)} (hok : ∀ p ∈ fs, p.2.Ok h) {s s' : PState}
    (hb : Zc.Inv s.bufs) (hfit : Fits s) {k : Nat} {f : Zc.ZBuf} (hk : s.bufs.bufs[k]? = some f) (hF : Flat f)
    (hw : writeMsg h fs s k = some s') : s.onBuf (.write k 0 (bytesOf h fs)) = some s' := by
  unfold writeMsg at hw
  rw [hk] at hw
  dsimp only at hw
  obtain ⟨d, hd, hp, hlen, hdx, hroom⟩ := data_ok hb hk hfit.mem (hfit.bufs f (List.mem_of_getElem? hk))
  rw [hd] at hw
  dsimp only at hw
  have hz := hb.ok f (List.mem_of_getElem? hk)
  have z1 := hz.h1; have z2 := hF.zs; have z3 := hF.ze
  cases hwa : writeAll compressed h fs (beginOf f) d with
  | none => rw [hwa] at hw; cases hw
  | some r =>
    obtain ⟨it', d'⟩ := r
    rw [hwa] at hw
    simp only [Option.some.injEq] at hw
    have ef := eff_all zcView hok (hroom 0 (Nat.zero_le _)) hwa
    have hR : ZRoom (beginOf f) d (bytesOf h fs).length := ef.room
    have hB : ZcIter.logical (beginOf f) d' =
        splice (ZcIter.logical (beginOf f) d) ((beginOf f).cursor - (beginOf f).start) (bytesOf h fs) := ef.bytes
    have hFr : ∀ i, ¬ (f.start ≤ i ∧ i < f.en - (f.ze - f.zs)) → d'[i]? = d[i]? := ef.frame
    have hL : d'.length = d.length := ef.len
    have hup : f.start + (bytesOf h fs).length ≤ f.en := hR.room.upper
    have hR' : ZRoom (beginOf f) d' 0 := zcView.room_len hL (hroom 0 (Nat.zero_le _))
    have hset : s.bufs.bufs.set k f = s.bufs.bufs := by
      apply List.ext_getElem?; intro a
      rw [List.getElem?_set]
      by_cases e : k = a
      · subst e; rw [if_pos rfl, hk, if_pos (Tag.lt_of hk)]
      · rw [if_neg e]
    have key : s.bufs.mem.fill f.seg f.start (bytesOf h fs) = some (setData s.bufs.mem f d') := by
      unfold Buf.Mem.fill setData
      cases hst : f.st with
      | none =>
        have := hb.base.null f.seg (Zc.seg_mem hk) hst
        simp only [Zc.ZBuf.seg] at this
        have : bytesOf h fs = [] := List.length_eq_zero_iff.mp (by omega)
        simp [this, Zc.ZBuf.seg, hst]
      | some id =>
        obtain ⟨x, hx, h1, h2⟩ := hb.base.held f.seg (Zc.seg_mem hk) id hst
        have hdx := hdx id x hst hx
        simp only [Zc.ZBuf.seg] at h1 h2
        simp only [Zc.ZBuf.seg, hst, Buf.Mem.write, hx]
        rw [if_pos (by omega)]
        congr 3
        suffices e : Buf.wr x.bytes f.start (bytesOf h fs) = Buf.wr x.bytes 0 d' by rw [e]
        funext a
        have hR0 : Buf.wr x.bytes 0 d' a = (d'[a]?).getD (x.bytes a) := by simp [Buf.wr]
        rw [hR0]
        by_cases c1 : f.start ≤ a ∧ a < f.en
        · have g := congrArg (fun l => l[a - f.start]?) hB
          have b1 : (beginOf f).start = f.start := rfl
          have b2 : (beginOf f).en = f.en := rfl
          have b3 : (beginOf f).cursor = f.start := rfl
          have b4 : (beginOf f).zs = f.zs := rfl
          rw [splice_get (by rw [hp, hlen, b1, b3]; omega)] at g
          have g1 := ZcIter.logical_get (it := beginOf f) hR'.room (c := a) c1.1 c1.2
          have g2 := ZcIter.logical_get (it := beginOf f) hR.room (c := a) c1.1 c1.2
          have b5 : (beginOf f).ze = f.ze := rfl
          have key : ∀ x y : Option Byte, (if a < f.zs then x else if a < f.zs then y else x) = x := by
            intro x y; split <;> rfl
          rw [b1, b4, b5, z3, Nat.sub_self, Nat.sub_zero, key] at g1 g2
          rw [g1, g2, b1, b3, Nat.sub_self, if_neg (by omega)] at g
          rw [g]
          simp only [Buf.wr, if_pos c1.1]
          by_cases c2 : a - f.start < (bytesOf h fs).length
          · rw [if_pos (by omega), Nat.sub_zero]
          · rw [if_neg (by omega), hdx, Buf.rd_getElem?, List.getElem?_eq_none (by omega), if_pos (by omega), Nat.zero_add]
            rfl
        · rw [hFr a (by omega), hdx, Buf.rd_getElem?, Buf.wr_out (by omega)]
          split <;> simp
    have hstep : s.bufs.step (.write k 0 (bytesOf h fs)) = some ⟨setData s.bufs.mem f d', s.bufs.bufs⟩ := by
      simp only [Zc.ZState.step, Zc.ZState.on, hk, Zc.writeAt, Nat.add_zero]
      have hpos : (if f.start < f.zs then f.start else f.start - (f.ze - f.zs)) = f.start := by split <;> omega
      rw [if_pos (by unfold Zc.writable; omega), hpos, key]
      simp [hset]
    simp only [PState.onBuf, hstep, Option.map_some, Option.some.injEq]
    exact hw

theorem writeMsg_ok {h : Host} {fs : List (Order × Field)} (hok : ∀ p ∈ fs, p.2.Ok h) {s : PState}
    (hb : Zc.Inv s.bufs) (hfit : Fits s) {k : Nat} {f : Zc.ZBuf} (hk : s.bufs.bufs[k]? = some f) (hF : Flat f)
    (hn : total fs ≤ f.en - f.start) : ∃ s', writeMsg h fs s k = some s' := by
  obtain ⟨d, hd, hp, hlen, hdx, hroom⟩ := data_ok hb hk hfit.mem (hfit.bufs f (List.mem_of_getElem? hk))
  have hz := hb.ok f (List.mem_of_getElem? hk)
  have z1 := hz.h1; have z2 := hF.zs; have z3 := hF.ze
  obtain ⟨r, hr⟩ := C102_compressed_accepts hok (hroom _ hn) (by
    show f.start + total fs ≤ f.zs ∨ f.ze ≤ f.start; omega)
  exact ⟨_, by simp only [writeMsg, hk, hd, hr]; rfl⟩

/-- The buffer that `AddHeader` returns has nowhere compressed zeros. -/
theorem header_flat {t t' : Zc.ZState} (hb : Zc.Inv t) {j n : Nat} {c : Zc.ZBuf} (hc : t.bufs[j]? = some c)
    (hn : c.start + n ≤ c.zs) (h : t.step (.fragment j 0 n) = some t') {f : Zc.ZBuf} (hf : t'.bufs = t.bufs ++ [f]) : Flat f := by
  have hz := hb.ok c (List.mem_of_getElem? hc)
  have e1 := hz.h1; have e2 := hz.h2; have e3 := hz.h3
  simp only [Zc.ZState.step] at h
  obtain ⟨c', m', f', h1, h2, rfl⟩ := Zc.push_some h
  rw [hc] at h1; cases h1
  have : f' = f := by simpa using hf
  subst this
  unfold Zc.makeFragment at h2
  have hcs : c.size = c.en - c.start := rfl
  rw [if_pos (by omega)] at h2
  cases ha : t.mem.acquire c.seg with
  | none => rw [ha] at h2; cases h2
  | some m1 =>
    rw [ha] at h2; dsimp only at h2
    unfold Zc.removeAtStart at h2
    dsimp only at h2
    rw [if_pos (by omega)] at h2
    dsimp only at h2
    unfold Zc.removeAtEnd at h2
    dsimp only at h2
    split at h2
    · cases h2
      exact ⟨by dsimp only; omega, .inl (by dsimp only; omega)⟩
    · split at h2
      · cases h2
        exact ⟨by dsimp only; omega, .inl (by dsimp only; omega)⟩
      · rw [if_pos (by omega)] at h2
        cases h2
        exact ⟨by dsimp only, .inl (by dsimp only)⟩

theorem header_buf {s s' : PState} (v : PInv s s.pkts) {i n : Nat} {held : Bool} (h : addHeader s i n held = some s') :
    ∃ f, s'.bufs.bufs[s'.bufs.bufs.length - 1]? = some f ∧ Flat f ∧ f.en = f.start + n := by
  obtain ⟨s1, s2, p0, b, x, h1, h2, hu, v2, h3, h4, h5, _, _⟩ := addHeader_ok v h
  obtain ⟨e1, e2, e3⟩ := act_parts h2
  obtain ⟨u1, u2, u3, u4, u5, u6, u7, _⟩ := user_ok v2 hu (by simp [Zc.ZOp.targets])
  obtain ⟨c, c1, c3⟩ := addStart_front h4.inv.bb e1
  obtain ⟨f, c2, c4⟩ := fragment_front v2.bb c1 c3 u5
  exact ⟨f, by rw [c2]; simp, header_flat v2.bb c1 c3 u5 c2, c4.size⟩

/-- The last buffer after `AddHeader` is the client's. -/
theorem last_free {s s' : PState} (v : PInv s s.pkts) {i n : Nat} {held : Bool} (h : addHeader s i n held = some s') :
    s'.free (s'.bufs.bufs.length - 1) = true := by
  obtain ⟨s1, s2, p0, b, x, h1, h2, hu, v2, h3, h4, h5, _, _⟩ := addHeader_ok v h
  obtain ⟨e1, e2, e3⟩ := act_parts h2
  obtain ⟨u1, u2, u3, u4, u5, u6, u7, _⟩ := user_ok v2 hu (by simp [Zc.ZOp.targets])
  obtain ⟨c, c1, c3⟩ := addStart_front h4.inv.bb e1
  obtain ⟨f, c2, c4⟩ := fragment_front v2.bb c1 c3 u5
  have hlen : s'.bufs.bufs.length - 1 = s2.bufs.bufs.length := by rw [c2]; simp
  simp only [PState.free, List.all_eq_true, List.mem_range]
  intro b' _
  split
  · rfl
  · rename_i y hy
    rw [u3] at hy
    have := (v2.range b' y hy).1
    simp; omega

/-- Adding one layer. -/
theorem layer_ok {h : Host} {fs : List (Order × Field)} (hok : ∀ p ∈ fs, p.2.Ok h) {s s1 s2 : PState} {i : Nat} {held : Bool}
    (v : PInv s s.pkts) (h1 : s.step (.addHeader i (total fs) held) = some s1) (hfit : Fits s1)
    (h2 : writeMsg h fs s1 (s1.bufs.bufs.length - 1) = some s2) :
    s1.step (.user (.write (s1.bufs.bufs.length - 1) 0 (bytesOf h fs))) = some s2 ∧ PInv s2 s2.pkts ∧
      s2.pkts.length = s1.pkts.length ∧
      s2.bytes i = bytesOf h fs ++ s.bytes i ∧
      (∀ id off, off < s.size i → s2.byteTag i id (off + total fs) = s.byteTag i id off) ∧
      (∀ id off, off < s.size i → s2.packetTag i id (off + total fs) = s.packetTag i id off) := by
  have v1 := (step_ok v h1).inv
  obtain ⟨f, w1, w2, w3⟩ := header_buf v h1
  have hon := writeMsg_eq hok v1.bb hfit w1 w2 h2
  have hstep : s1.step (.user (.write (s1.bufs.bufs.length - 1) 0 (bytesOf h fs))) = some s2 := by
    show (if (bufTargets _).all s1.free then _ else _) = _
    rw [if_pos (by simpa [bufTargets] using last_free v h1)]
    exact hon
  have v2 := (step_ok v1 hstep).inv
  obtain ⟨⟨pre, l1, l2⟩, t1, t2, _, b, x, c, f, c1, c2, c3, c4, c5, c6⟩ := addHeader_effect v h1
  obtain ⟨g1, g2, g3, g4, g5, g6, g7, g8⟩ := user_ok v1 hon (by
    intro j hj b' y hy
    exact free_ne v1 (by simp [Zc.ZOp.targets] at hj; rw [hj]; exact last_free v h1) hy)
  obtain ⟨q1, q2, q3⟩ := write_alias v1.bb c3 c4 g5 c5
  have p1 := parts_of c1 c2
  have p2 := parts_of (s := s2) (by rw [g2]; exact c1) (by rw [g3]; exact c2)
  have hl := bytesOf_length h fs
  refine ⟨hstep, v2, by rw [g2], ?_, ?_, ?_⟩
  · rw [p2.bytes, q3, ← p1.bytes, l2]
    unfold Buf.patch
    rw [Nat.zero_add, List.take_zero, List.nil_append, Nat.zero_add, hl, ← l1, List.drop_left]
  · intro id off ho
    rw [p2.bt, g6, ← p1.bt]; exact t1 id off ho
  · intro id off ho
    rw [p2.pt, g7, ← p1.pt]; exact t2 id off ho

theorem reach_step {s s' : PState} (h : Reach s) {o : Op} (hs : s.step o = some s') : Reach s' := reach_stepE (e := .done o) h rfl hs

/-- The buffer of a packet and its storage. -/
theorem seg_ok {s : PState} (v : PInv s s.pkts) (hfit : Fits s) {i : Nat} (hi : i < s.pkts.length) :
    ∃ f d, segOf s i = some f ∧ dataOf s.bufs.mem f = some d ∧ ZcIter.logical (beginOf f) d = s.bytes i ∧
      (s.bytes i).length = f.en - f.start ∧ (∀ n, n ≤ f.en - f.start → ZRoom (beginOf f) d n) ∧ f.en < 2 ^ 63 := by
  have hp := List.getElem?_eq_getElem hi
  cases e : s.pkts[i] with
  | none =>
    rw [e] at hp
    refine ⟨.null, [], by simp [segOf, hp], rfl, by simp [PState.bytes, hp, ZcIter.logical, beginOf, Zc.ZBuf.null],
      by simp [PState.bytes, hp, Zc.ZBuf.null], ?_, by decide⟩
    intro n hn
    have : n = 0 := by simpa [Zc.ZBuf.null] using hn
    subst this
    exact ⟨⟨by decide, by decide, by decide, by decide, by decide, by decide, by decide⟩, by decide, by decide⟩
  | some b =>
    rw [e] at hp
    obtain ⟨x, hx⟩ := v.alive b (List.mem_of_getElem? hp)
    obtain ⟨f, hf⟩ := Zc.get_of_lt (v.range b x hx).1
    have hen := hfit.bufs f (List.mem_of_getElem? hf)
    obtain ⟨d, d1, d2, d3, d4, d5⟩ := data_ok v.bb hf hfit.mem hen
    rw [(parts_of hp hx).bytes]
    exact ⟨f, d, by simp [segOf, hp, hx, hf], d1, d2, d3, d5, hen⟩

/-- Reading what stands at the beginning of a packet. -/
theorem readMsg_ok {h₁ h₂ : Host} {fs : List (Order × Field)} {xs : List (Order × Var)}
    (hok : ∀ p ∈ fs, p.2.Ok h₁ ∧ p.2.Ok h₂) (hh : h₁ = h₂ ∨ ∀ p ∈ fs, p.1 ≠ .native) (hm : Matches fs xs)
    {s : PState} (v : PInv s s.pkts) (hfit : Fits s) {i : Nat} (hi : i < s.pkts.length) {rest : List Byte}
    (hb : s.bytes i = bytesOf h₁ fs ++ rest) : readMsg h₂ xs s i = some (total fs, fs.map Prod.snd) := by
  have hl := bytesOf_length h₁ fs
  obtain ⟨f, d, hf, hd, h1, h2, h3, _⟩ := seg_ok v hfit hi
  have hAt : At zcView (beginOf f) d (bytesOf h₁ fs) := by
    refine ⟨h3 _ ?_, ?_⟩
    · rw [← h2, hb, List.length_append]; omega
    · show ((ZcIter.logical (beginOf f) d).drop ((beginOf f).cursor - (beginOf f).start)).take _ = _
      rw [h1, hb]
      simp [beginOf]
  have hr := read_all zcView (fun p hp => ⟨(hok p hp).1, (hok p hp).2, hh.imp_right (fun h => h p hp)⟩) hm hAt
  simp only [readMsg, hf, hd, hr, Option.map_some, Option.some.injEq, Prod.mk.injEq, and_true]
  show (beginOf f).cursor + total fs - (beginOf f).cursor = total fs
  omega

/-! ### Properties -/

/-- The bytes of layers, the outermost first. -/
def wireOf (h : Host) (ls : List (List (Order × Field))) : List Byte := ls.flatMap (format h)

/-- **C129, sending.** After any number of layers, the packet holds the messages of all layers in the format of the wire, the outermost
first, followed by what it held before, with all tags; the state is one that operations on packets reach. -/
theorem C129_sent {h : Host} {i : Nat} {s s' : PState} {ls : List (List (Order × Field))} (hs : Reach s) (hi : i < s.pkts.length)
    (hok : ∀ fs ∈ ls, ∀ p ∈ fs, p.2.Ok h) (hS : Sends h i s ls s') :
    Reach s' ∧ i < s'.pkts.length ∧ s'.bytes i = wireOf h ls ++ s.bytes i ∧
      (∀ id off, off < s.size i → s'.byteTag i id (off + (wireOf h ls).length) = s.byteTag i id off) ∧
      (∀ id off, off < s.size i → s'.packetTag i id (off + (wireOf h ls).length) = s.packetTag i id off) := by
  induction hS with
  | done => exact ⟨hs, hi, by simp [wireOf], fun _ _ _ => by simp [wireOf], fun _ _ _ => by simp [wireOf]⟩
  | @other ls s1 s2 o h1 h2 hq hn ih =>
    obtain ⟨a1, a2, a3, a4, a5⟩ := ih hok
    have v := reach_inv a1
    have k := step_ok v h2
    have sh := frame_shows (k.quiet hq) a2 hn
    have hg := (k.quiet hq i _ (List.getElem?_eq_getElem a2) hn).1
    refine ⟨reach_step a1 h2, Tag.lt_of hg, by rw [sh.1, a3], ?_, ?_⟩
    · intro id off ho; rw [sh.2.1]; exact a4 id off ho
    · intro id off ho; rw [sh.2.2]; exact a5 id off ho
  | @layer ls s1 s2 s3 fs held h1 h2 hf h3 ih =>
    obtain ⟨a1, a2, a3, a4, a5⟩ := ih (fun l hl => hok l (List.mem_cons_of_mem _ hl))
    have v := reach_inv a1
    obtain ⟨e1, e2, e3, e4, e5, e6⟩ := layer_ok (hok fs List.mem_cons_self) v h2 hf h3
    have hlen : s.size i + (wireOf h ls).length = s1.size i := by
      rw [size_bytes v, a3, List.length_append, size_bytes (reach_inv hs), Nat.add_comm]
    have hfl : (format h fs).length = total fs := by rw [← bytesOf_format, bytesOf_length]
    have hw : (wireOf h (fs :: ls)).length = (wireOf h ls).length + total fs := by
      simp only [wireOf, List.flatMap_cons, List.length_append, hfl]; omega
    obtain ⟨_, _, _, _, b, _, _, _, c1, _⟩ := addHeader_effect v h2
    refine ⟨reach_step (reach_step a1 h2) e1, by rw [e3]; exact Tag.lt_of c1, ?_, ?_, ?_⟩
    · rw [e4, a3, bytesOf_format]; simp [wireOf, List.append_assoc]
    · intro id off ho
      rw [hw, ← Nat.add_assoc, e5 id _ (by omega)]; exact a4 id off ho
    · intro id off ho
      rw [hw, ← Nat.add_assoc, e6 id _ (by omega)]; exact a5 id off ho

theorem received {h₁ h₂ : Host} {j : Nat} {t t' : PState} {xss : List (List (Order × Var))} {out : List (List Field)}
    (hR : Receives h₂ j t xss out t') : ∀ {ls : List (List (Order × Field))} {payload : List Byte}, PInv t t.pkts → j < t.pkts.length →
    (∀ fs ∈ ls, ∀ p ∈ fs, p.2.Ok h₁ ∧ p.2.Ok h₂) → (h₁ = h₂ ∨ ∀ fs ∈ ls, ∀ p ∈ fs, p.1 ≠ .native) →
    List.Forall₂ Matches ls xss → t.bytes j = wireOf h₁ ls ++ payload →
    out = ls.map (·.map Prod.snd) ∧ t'.bytes j = payload ∧
      (∀ id off, t'.byteTag j id off = t.byteTag j id (off + (wireOf h₁ ls).length)) ∧
      (∀ id off, t'.packetTag j id off = t.packetTag j id (off + (wireOf h₁ ls).length)) := by
  induction hR with
  | done s =>
    intro ls payload v hj hok hh hm hb
    cases hm
    exact ⟨rfl, by simpa [wireOf] using hb, fun _ _ => by simp [wireOf], fun _ _ => by simp [wireOf]⟩
  | @other s xss out s1 s2 o h1 hq hn h2 ih =>
    intro ls payload v hj hok hh hm hb
    have k := step_ok v h1
    have sh := frame_shows (k.quiet hq) hj hn
    have hg := (k.quiet hq j _ (List.getElem?_eq_getElem hj) hn).1
    obtain ⟨r1, r2, r3, r4⟩ := ih k.inv (Tag.lt_of hg) hok hh hm (by rw [sh.1, hb])
    exact ⟨r1, r2, fun id off => by rw [r3, sh.2.1], fun id off => by rw [r4, sh.2.2]⟩
  | @layer s xss out s1 s2 xs held n vs hf h1 h2 h3 ih =>
    intro ls payload v hj hok hh hm hb
    cases hm with
    | @cons fs _ ls _ hm1 hm2 =>
      have hfl : (format h₁ fs).length = total fs := by rw [← bytesOf_format, bytesOf_length]
      have hb' : s.bytes j = bytesOf h₁ fs ++ (wireOf h₁ ls ++ payload) := by
        rw [hb, bytesOf_format]; simp [wireOf, List.append_assoc]
      have hr := readMsg_ok (hok fs List.mem_cons_self) (hh.imp_right (fun h => h fs List.mem_cons_self)) hm1 v hf hj hb'
      rw [h1] at hr
      simp only [Option.some.injEq, Prod.mk.injEq] at hr
      obtain ⟨rfl, rfl⟩ := hr
      obtain ⟨_, e2, e3, e4⟩ := removeHeader_effect v h2
      have k := step_ok v h2
      obtain ⟨_, _, _, _, _, _, k3, _, k5, _⟩ := removeHeader_ok v h2
      have hb1 : s1.bytes j = wireOf h₁ ls ++ payload := by
        rw [e2, hb', ← bytesOf_length h₁ fs, List.drop_left]
      obtain ⟨r1, r2, r3, r4⟩ := ih k.inv (by rw [k5.pkts]; simpa using hj) (fun l hl => hok l (List.mem_cons_of_mem _ hl))
        (hh.imp_right (fun h l hl => h l (List.mem_cons_of_mem _ hl))) hm2 hb1
      have hw : (wireOf h₁ (fs :: ls)).length = (wireOf h₁ ls).length + total fs := by
        simp only [wireOf, List.flatMap_cons, List.length_append, hfl]; omega
      refine ⟨by simp [r1], r2, ?_, ?_⟩
      · intro id off; rw [r3, e3, hw, Nat.add_assoc]
      · intro id off; rw [r4, e4, hw, Nat.add_assoc]

/-- **C129, receiving.** Whoever has a packet with the bytes that were sent (the packet itself, a copy, a reassembled one, in whatever
state of the program) and reads and removes messages of the same types gets exactly the fields of every layer, and is left with exactly
what the sender's packet held at first; the hosts may differ if no field is in native order.  The tags that remain are those of the
bytes that remain. -/
theorem C129_received {h₁ h₂ : Host} {i j : Nat} {s s' t t' : PState} {ls : List (List (Order × Field))}
    {xss : List (List (Order × Var))} {out : List (List Field)} (hs : Reach s) (hi : i < s.pkts.length)
    (hok : ∀ fs ∈ ls, ∀ p ∈ fs, p.2.Ok h₁ ∧ p.2.Ok h₂) (hh : h₁ = h₂ ∨ ∀ fs ∈ ls, ∀ p ∈ fs, p.1 ≠ .native)
    (hS : Sends h₁ i s ls s') (ht : Reach t) (hj : j < t.pkts.length) (hb : t.bytes j = s'.bytes i)
    (hm : List.Forall₂ Matches ls xss) (hR : Receives h₂ j t xss out t') :
    out = ls.map (·.map Prod.snd) ∧ t'.bytes j = s.bytes i ∧
      (∀ id off, t'.byteTag j id off = t.byteTag j id (off + (wireOf h₁ ls).length)) ∧
      (∀ id off, t'.packetTag j id off = t.packetTag j id (off + (wireOf h₁ ls).length)) := by
  obtain ⟨_, _, e, _⟩ := C129_sent hs hi (fun fs hfs p hp => (hok fs hfs p hp).1) hS
  exact received hR (reach_inv ht) hj hok hh hm (by rw [hb, e])

/-- **C129, progress.** A layer can always be added, and the next layer can always be read and removed, if the storages of the states
involved are of possible sizes. -/
theorem C129_progress {h₁ h₂ : Host} {i : Nat} {s : PState} (hs : Reach s) (hi : i < s.pkts.length) {fs : List (Order × Field)}
    (hok : ∀ p ∈ fs, p.2.Ok h₁ ∧ p.2.Ok h₂) (held : Bool) :
    (∃ s1, s.step (.addHeader i (total fs) held) = some s1 ∧
      (Fits s1 → ∃ s2, writeMsg h₁ fs s1 (s1.bufs.bufs.length - 1) = some s2)) ∧
    ∀ {xs rest}, (h₁ = h₂ ∨ ∀ p ∈ fs, p.1 ≠ .native) → Matches fs xs → Fits s → s.bytes i = format h₁ fs ++ rest →
      ∃ s1, readMsg h₂ xs s i = some ((format h₁ fs).length, fs.map Prod.snd) ∧
        s.step (.removeHeader i (format h₁ fs).length held) = some s1 := by
  have v := reach_inv hs
  have hl : (format h₁ fs).length = total fs := by rw [← bytesOf_format, bytesOf_length]
  constructor
  · obtain ⟨⟨s1, h1⟩, _⟩ := C126_defined s hs i hi (total fs) held
    refine ⟨s1, h1, fun hf => ?_⟩
    obtain ⟨f, w1, w2, w3⟩ := header_buf v h1
    exact writeMsg_ok (fun p hp => (hok p hp).1) (step_ok v h1).inv.bb hf w1 w2 (by omega)
  · intro xs rest hh hm hf hb
    rw [← bytesOf_format] at hb
    have hr := readMsg_ok hok hh hm v hf hi hb
    obtain ⟨_, _, h3⟩ := C126_defined s hs i hi (total fs) held
    obtain ⟨s1, h4⟩ := (h3 (by rw [size_bytes v, hb, List.length_append, bytesOf_length]; omega)).1
    exact ⟨s1, by rw [hl]; exact hr, by rw [hl]; exact h4⟩

/-- Two layers around three bytes on a packet that shares its body with another one, read back by way of the other order of hosts. -/
example : ((((PState.init fun _ _ => 0xcc).run shared).bind fun s => s.step (.addHeader 1 2 false)).bind fun s =>
    (writeMsg .little [(.big, .arith .w2 7)] s (s.bufs.bufs.length - 1)).bind fun s =>
    (s.step (.addHeader 1 5 false)).bind fun s =>
    (writeMsg .little [(.little, .arith .w4 0x01020304), (.native, .seq 7 3)] s (s.bufs.bufs.length - 1)).bind fun s =>
    (readMsg .big [(.little, .arith .w4), (.native, .seq 7 0)] s 1).bind fun r =>
    (s.step (.removeHeader 1 r.1 false)).bind fun s' =>
    (readMsg .big [(.big, .arith .w2)] s' 1).map fun r' => (s.bytes 0, s.bytes 1, s.byteTag 1 7 8, r, r', s'.bytes 1)) =
  some ([0, 0, 0], [4, 3, 2, 1, 3, 0, 7, 0, 0, 0], some 70, (5, [.arith .w4 0x01020304, .seq 7 3]), (2, [.arith .w2 7]),
    [0, 7, 0, 0, 0]) := by rfl

/-- A receiver reads a message whose last bytes are compressed zeros. -/
example : ((PState.init fun _ _ => 0xcc).run [.user (.new 2 3 1), .user (.addStart 0 2), .user (.write 0 0 [1, 2]),
    .fromBuf 0]).bind (fun s => (readMsg .little [(.big, .arith .w4)] s 0).map fun r => (s.bytes 0, r)) =
  some ([1, 2, 0, 0, 0], (4, [.arith .w4 0x01020000])) := by rfl

/-- A packet of three bytes, with room for a header, with a header. -/
def s0 : PState := ((PState.init fun _ _ => 0).run [.user (.newFrom [1, 2, 3]), .fromBuf 0]).get rfl
def s1 : PState := (s0.step (.addHeader 0 2 false)).get rfl
def s2 : PState := (writeMsg .little [(.big, .arith .w2 7)] s1 (s1.bufs.bufs.length - 1)).get rfl

theorem fits_of {s : PState} (r : Reach s) (h : ((List.range s.bufs.mem.next).all fun id =>
    ((s.bufs.mem.mem id).all fun x => decide (x.cap < 2 ^ 63))) = true) (h' : (s.bufs.bufs.all fun z => decide (z.en < 2 ^ 63)) = true) :
    Fits s := by
  refine ⟨fun id x hx => ?_, fun z hz => by simpa using (List.all_eq_true.mp h') z hz⟩
  simp only [List.all_eq_true, List.mem_range] at h
  have := h id (Nat.lt_of_not_le fun c => by rw [(reach_inv r).bb.base.closed id c] at hx; cases hx)
  simpa [hx] using this

/-- The hypotheses of C129 hold of a packet of three bytes with a header. -/
example : ∃ s s' t, Reach s ∧ s.bytes 0 = [1, 2, 3] ∧ Sends .little 0 s [[(.big, .arith .w2 7)]] s' ∧ Reach s' ∧
    Receives .big 0 s' [[(.big, .arith .w2)]] [[.arith .w2 7]] t := by
  have r0 : Reach s0 := reach_run (Option.some_get _).symm
  have hok : ∀ p ∈ [((.big : Order), (.arith .w2 7 : Message.Field))], p.2.Ok .little ∧ p.2.Ok .big := by
    intro p hp
    simp only [List.mem_cons, List.not_mem_nil, or_false] at hp
    subst hp
    exact ⟨by show 7 < 256 ^ 2; decide, by show 7 < 256 ^ 2; decide⟩
  have h1 : s0.step (.addHeader 0 2 false) = some s1 := (Option.some_get _).symm
  have h2 : writeMsg .little [(.big, .arith .w2 7)] s1 (s1.bufs.bufs.length - 1) = some s2 := (Option.some_get _).symm
  have f1 : Fits s1 := fits_of (reach_step r0 h1) rfl rfl
  have hS : Sends .little 0 s0 [[(.big, .arith .w2 7)]] s2 := .layer _ false (.done _) h1 f1 h2
  have r2 := (C129_sent r0 (by decide) (by simpa using fun p hp => (hok p hp).1) hS).1
  have f2 : Fits s2 := fits_of r2 rfl rfl
  obtain ⟨t, q1, q2⟩ := (C129_progress (i := 0) r2 (by decide) hok false).2 (xs := [(.big, .arith .w2)]) (rest := [1, 2, 3])
    (.inr (by simp)) (.cons ⟨rfl, rfl⟩ .nil) f2 rfl
  exact ⟨s0, s2, t, r0, rfl, hS, r2, .layer _ false _ _ f2 q1 q2 (.done _)⟩

end Verif.ZPacket
