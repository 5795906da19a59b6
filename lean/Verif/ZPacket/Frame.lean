import Verif.ZPacket.Stack
import Verif.Message.Size

/-!
Property C131: messages as headers and trailers of packets of zero-compressed buffers.

As in `Stack`, but a layer may stand in front of what the packet holds or behind it.  The sender of a trailer writes it from the beginning of
the buffer that `AddTrailer` returns; the receiver reads it from `cend()` moved back by the size of the message.
-/
set_option linter.unusedSimpArgs false
set_option linter.unusedVariables false
namespace Verif.ZPacket
open Verif Verif.Iter Verif.Message

/-! ### Model -/

/-- `end()` and `cend()`; /repo/network/buffer/zc-buffer.h 1101-1106, 1115-1120. -/
def endOf (f : Zc.ZBuf) : ZcIter.ZIt := ⟨f.start, f.zs, f.ze, f.en, f.en⟩

/-- A message is read from the end of the buffer of packet `i`, moved back by its size (`MoveBackward`). -/
def readTail (h : Host) (xs : List (Order × Var)) (s : PState) (i : Nat) : Option (List Field) :=
  match segOf s i with
  | none => none
  | some f =>
    match dataOf s.bufs.mem f with
    | none => none
    | some d =>
      match ZcIter.moveBackward (endOf f) (sizes xs) with
      | none => none
      | some it => (readAll compressed h xs it d).map Prod.snd

/-- The layers of a sender on host `h`, the last added first, put around what packet `i` held; in between, anything may happen to other
packets that does not copy bytes into packets or write. -/
inductive Frames (h : Host) (i : Nat) : PState → List (Edge × List (Order × Field)) → PState → Prop
  | done (s) : Frames h i s [] s
  | other {s ls s1 s2} (o : Op) : Frames h i s ls s1 → s1.step o = some s2 → o.quiet = true → i ∉ o.targets → Frames h i s ls s2
  | header {s ls s1 s2 s3} (fs : List (Order × Field)) (held : Bool) : Frames h i s ls s1 →
      s1.step (.addHeader i (total fs) held) = some s2 → Fits s2 →
      writeMsg h fs s2 (s2.bufs.bufs.length - 1) = some s3 → Frames h i s ((.front, fs) :: ls) s3
  | trailer {s ls s1 s2 s3} (fs : List (Order × Field)) (held : Bool) : Frames h i s ls s1 →
      s1.step (.addTrailer i (total fs) held) = some s2 → Fits s2 →
      writeMsg h fs s2 (s2.bufs.bufs.length - 1) = some s3 → Frames h i s ((.back, fs) :: ls) s3

/-- A receiver on host `h` reads messages into variables and removes them, one after the other. -/
inductive Unframes (h : Host) (i : Nat) : PState → List (Edge × List (Order × Var)) → List (List Field) → PState → Prop
  | done (s) : Unframes h i s [] [] s
  | other {s xss out s1 s2} (o : Op) : s.step o = some s1 → o.quiet = true → i ∉ o.targets → Unframes h i s1 xss out s2 →
      Unframes h i s xss out s2
  | header {s xss out s1 s2} (xs : List (Order × Var)) (held : Bool) (n : Nat) (vs : List Field) : Fits s →
      readMsg h xs s i = some (n, vs) → s.step (.removeHeader i n held) = some s1 → Unframes h i s1 xss out s2 →
      Unframes h i s ((.front, xs) :: xss) (vs :: out) s2
  | trailer {s xss out s1 s2} (xs : List (Order × Var)) (held : Bool) (vs : List Field) : Fits s →
      readTail h xs s i = some vs → s.step (.removeTrailer i (sizes xs) held) = some s1 → Unframes h i s1 xss out s2 →
      Unframes h i s ((.back, xs) :: xss) (vs :: out) s2

/-! ### Lemmas -/

/-- The last buffer after `AddTrailer` is the client's. -/
theorem last_free_end {s s' : PState} (v : PInv s s.pkts) {i n : Nat} {held : Bool} (h : addTrailer s i n held = some s') :
    s'.free (s'.bufs.bufs.length - 1) = true := by
  obtain ⟨s1, s2, p0, b, x, h1, h2, hu, v2, h3, h4, h5, _, _⟩ := addTrailer_ok v h
  obtain ⟨e1, e2, e3⟩ := act_parts h2
  obtain ⟨u1, u2, u3, u4, u5, u6, u7, _⟩ := user_ok v2 hu (by simp [Zc.ZOp.targets])
  obtain ⟨c, c1, c3⟩ := addEnd_back h4.inv.bb e1
  have hcs : s2.bufs.size x.buf = c.size := Zc.size_of c1
  obtain ⟨f, c2, c4⟩ := fragment_back v2.bb c1 c3 (by rw [← hcs]; exact u5)
  have hlen : s'.bufs.bufs.length - 1 = s2.bufs.bufs.length := by rw [c2]; simp
  simp only [PState.free, List.all_eq_true, List.mem_range]
  intro b' _
  split
  · rfl
  · rename_i y hy
    rw [u3] at hy
    have := (v2.range b' y hy).1
    simp; omega

/-- The buffer that `AddTrailer` returns has nowhere compressed zeros. -/
theorem trailer_flat {t t' : Zc.ZState} (hb : Zc.Inv t) {j n : Nat} {c : Zc.ZBuf} (hc : t.bufs[j]? = some c)
    (hn : c.ze + n ≤ c.en) (h : t.step (.fragment j (c.size - n) n) = some t') {f : Zc.ZBuf} (hf : t'.bufs = t.bufs ++ [f]) : Flat f := by
  have hz := hb.ok c (List.mem_of_getElem? hc)
  have e1 := hz.h1; have e2 := hz.h2; have e3 := hz.h3
  simp only [Zc.ZState.step] at h
  obtain ⟨c', m', f', h1, h2, rfl⟩ := Zc.push_some h
  rw [hc] at h1; cases h1
  have : f' = f := by simpa using hf
  subst this
  unfold Zc.makeFragment at h2
  have hcs : c.size = c.en - c.start := rfl
  rw [if_pos (by omega)] at h2
  cases ha : t.mem.acquire c.seg with
  | none => rw [ha] at h2; cases h2
  | some m1 =>
    rw [ha] at h2; dsimp only at h2
    cases hr : Zc.removeAtStart m1 c (c.size - n) with
    | none => rw [hr] at h2; cases h2
    | some r =>
      obtain ⟨m2, z2⟩ := r
      rw [hr] at h2; dsimp only at h2
      have hz2 : z2.ze = z2.zs ∧ z2.zs = z2.start ∧ z2.zs ≤ z2.en ∧ z2.en = z2.start + n := by
        unfold Zc.removeAtStart at hr
        dsimp only at hr
        split at hr
        · cases hr; dsimp only; omega
        · split at hr
          · cases hr; dsimp only; omega
          · rw [if_pos (by omega)] at hr
            cases hr; dsimp only; omega
      obtain ⟨g1, g2, g3, g4⟩ := hz2
      unfold Zc.removeAtEnd at h2
      rw [if_pos (by omega)] at h2
      cases h2
      exact ⟨g1, .inr g2⟩

theorem trailer_buf {s s' : PState} (v : PInv s s.pkts) {i n : Nat} {held : Bool} (h : addTrailer s i n held = some s') :
    ∃ f, s'.bufs.bufs[s'.bufs.bufs.length - 1]? = some f ∧ Flat f ∧ f.en = f.start + n := by
  obtain ⟨s1, s2, p0, b, x, h1, h2, hu, v2, h3, h4, h5, _, _⟩ := addTrailer_ok v h
  obtain ⟨e1, e2, e3⟩ := act_parts h2
  obtain ⟨u1, u2, u3, u4, u5, u6, u7, _⟩ := user_ok v2 hu (by simp [Zc.ZOp.targets])
  obtain ⟨c, c1, c3⟩ := addEnd_back h4.inv.bb e1
  have hcs : s2.bufs.size x.buf = c.size := Zc.size_of c1
  rw [hcs] at u5
  obtain ⟨f, c2, c4⟩ := fragment_back v2.bb c1 c3 u5
  exact ⟨f, by rw [c2]; simp, trailer_flat v2.bb c1 c3 u5 c2, c4.size⟩

/-- Adding one layer behind. -/
theorem tail_ok {h : Host} {fs : List (Order × Field)} (hok : ∀ p ∈ fs, p.2.Ok h) {s s1 s2 : PState} {i : Nat} {held : Bool}
    (v : PInv s s.pkts) (h1 : s.step (.addTrailer i (total fs) held) = some s1) (hfit : Fits s1)
    (h2 : writeMsg h fs s1 (s1.bufs.bufs.length - 1) = some s2) :
    s1.step (.user (.write (s1.bufs.bufs.length - 1) 0 (bytesOf h fs))) = some s2 ∧ PInv s2 s2.pkts ∧
      s2.pkts.length = s1.pkts.length ∧
      s2.bytes i = s.bytes i ++ bytesOf h fs ∧
      (∀ id off, off < s.size i → s2.byteTag i id off = s.byteTag i id off) ∧
      (∀ id off, off < s.size i → s2.packetTag i id off = s.packetTag i id off) := by
  have v1 := (step_ok v h1).inv
  obtain ⟨f, w1, w2, w3⟩ := trailer_buf v h1
  have hon := writeMsg_eq hok v1.bb hfit w1 w2 h2
  have hstep : s1.step (.user (.write (s1.bufs.bufs.length - 1) 0 (bytesOf h fs))) = some s2 := by
    show (if (bufTargets _).all s1.free then _ else _) = _
    rw [if_pos (by simpa [bufTargets] using last_free_end v h1)]
    exact hon
  have v2 := (step_ok v1 hstep).inv
  obtain ⟨⟨post, l1, l2⟩, t1, t2, _, b, x, c, f, c1, c2, c3, c4, c5, c6⟩ := addTrailer_effect v h1
  obtain ⟨g1, g2, g3, g4, g5, g6, g7, g8⟩ := user_ok v1 hon (by
    intro j hj b' y hy
    exact free_ne v1 (by simp [Zc.ZOp.targets] at hj; rw [hj]; exact last_free_end v h1) hy)
  obtain ⟨q1, q2, q3⟩ := write_alias v1.bb c3 c4 g5 c5
  have p1 := parts_of c1 c2
  have p2 := parts_of (s := s2) (by rw [g2]; exact c1) (by rw [g3]; exact c2)
  have hl := bytesOf_length h fs
  have hsz := size_bytes v i
  refine ⟨hstep, v2, by rw [g2], ?_, ?_, ?_⟩
  · rw [p2.bytes, q3, ← p1.bytes, l2]
    unfold Buf.patch
    rw [Nat.add_zero, hsz, List.take_left, hl, List.drop_of_length_le (by rw [List.length_append]; omega), List.append_nil]
  · intro id off ho
    rw [p2.bt, g6, ← p1.bt]; exact t1 id off ho
  · intro id off ho
    rw [p2.pt, g7, ← p1.pt]; exact t2 id off ho

/-- Reading what stands at the end of a packet. -/
theorem readTail_ok {h₁ h₂ : Host} {fs : List (Order × Field)} {xs : List (Order × Var)}
    (hok : ∀ p ∈ fs, p.2.Ok h₁ ∧ p.2.Ok h₂) (hh : h₁ = h₂ ∨ ∀ p ∈ fs, p.1 ≠ .native) (hm : Matches fs xs)
    {s : PState} (v : PInv s s.pkts) (hfit : Fits s) {i : Nat} (hi : i < s.pkts.length) {rest : List Byte}
    (hb : s.bytes i = rest ++ bytesOf h₁ fs) : readTail h₂ xs s i = some (fs.map Prod.snd) := by
  have hl := bytesOf_length h₁ fs
  have hs := sizes_matches hm
  obtain ⟨f, d, hf, hd, h1, h2, h3, hlt⟩ := seg_ok v hfit hi
  have hn : total fs ≤ f.en - f.start := by rw [← h2, hb, List.length_append]; omega
  have hmv : ZcIter.moveBackward (endOf f) (sizes xs) = some { beginOf f with cursor := f.en - total fs } := by
    have hle : f.start ≤ f.en := by have := (h3 0 (Nat.zero_le _)).room.upper; exact this
    have e1 : szAdd f.start (total fs) = f.start + total fs := szAdd_of_lt (by omega)
    have e2 : szSub f.en (total fs) = f.en - total fs := by unfold szSub sizeMod; omega
    show (if decide (szAdd f.start (sizes xs) ≤ f.en) = true then some ({ endOf f with cursor := szSub f.en (sizes xs) } : ZcIter.ZIt) else none) = _
    rw [hs, e1, e2, if_pos (by simp; omega)]
    rfl
  have hAt : At zcView { beginOf f with cursor := f.en - total fs } d (bytesOf h₁ fs) := by
    have hr := h3 _ hn
    have e : ({ beginOf f with cursor := f.en - total fs } : ZcIter.ZIt) = zcView.adv (beginOf f) (f.en - f.start - total fs) := by
      have hle : f.start ≤ f.en := by have := (h3 0 (Nat.zero_le _)).room.upper; exact this
      show _ = ({ beginOf f with cursor := f.start + (f.en - f.start - total fs) } : ZcIter.ZIt)
      rw [show f.start + (f.en - f.start - total fs) = f.en - total fs by omega]
    have hR : zcView.Room (beginOf f) d (f.en - f.start - total fs + total fs) := by
      rw [show f.en - f.start - total fs + total fs = f.en - f.start by omega]; exact h3 _ (Nat.le_refl _)
    have hrest : rest.length = f.en - f.start - total fs := by
      have := congrArg List.length hb
      rw [h2, List.length_append] at this; omega
    rw [e]
    refine ⟨by rw [hl]; exact room_step zcView hR, ?_⟩
    rw [zcView.log_adv, zcView.pos_adv (h3 0 (Nat.zero_le _))]
    show ((ZcIter.logical (beginOf f) d).drop ((beginOf f).cursor - (beginOf f).start + _)).take _ = _
    have e0 : (beginOf f).cursor - (beginOf f).start = 0 := Nat.sub_self _
    rw [h1, hb, e0, Nat.zero_add, ← hrest, List.drop_left, List.take_length]
  have hr := read_all zcView (fun p hp => ⟨(hok p hp).1, (hok p hp).2, hh.imp_right (fun h => h p hp)⟩) hm hAt
  simp only [readTail, hf, hd, hmv, hr, Option.map_some]

/-! ### Properties -/

/-- **C131, sending.** After any number of layers in front and behind, the packet holds the messages of all layers in the format of the wire
around what it held before, in the order in which they were added, with all tags; the state is one that operations on packets reach. -/
theorem C131_sent {h : Host} {i : Nat} {s s' : PState} {ls : List (Edge × List (Order × Field))} (hs : Reach s) (hi : i < s.pkts.length)
    (hok : ∀ l ∈ ls, ∀ p ∈ l.2, p.2.Ok h) (hS : Frames h i s ls s') :
    Reach s' ∧ i < s'.pkts.length ∧ s'.bytes i = wrap h ls (s.bytes i) ∧
      (∀ id off, off < s.size i → s'.byteTag i id (off + inFront h ls) = s.byteTag i id off) ∧
      (∀ id off, off < s.size i → s'.packetTag i id (off + inFront h ls) = s.packetTag i id off) := by
  induction hS with
  | done => exact ⟨hs, hi, rfl, fun _ _ _ => rfl, fun _ _ _ => rfl⟩
  | @other ls s1 s2 o h1 h2 hq hn ih =>
    obtain ⟨a1, a2, a3, a4, a5⟩ := ih hok
    have v := reach_inv a1
    have k := step_ok v h2
    have sh := frame_shows (k.quiet hq) a2 hn
    have hg := (k.quiet hq i _ (List.getElem?_eq_getElem a2) hn).1
    refine ⟨reach_step a1 h2, Tag.lt_of hg, by rw [sh.1, a3], ?_, ?_⟩
    · intro id off ho; rw [sh.2.1]; exact a4 id off ho
    · intro id off ho; rw [sh.2.2]; exact a5 id off ho
  | @header ls s1 s2 s3 fs held h1 h2 hf h3 ih =>
    obtain ⟨a1, a2, a3, a4, a5⟩ := ih (fun l hl => hok l (List.mem_cons_of_mem _ hl))
    have v := reach_inv a1
    obtain ⟨e1, e2, e3, e4, e5, e6⟩ := layer_ok (hok _ List.mem_cons_self) v h2 hf h3
    have hlen : s.size i + inFront h ls ≤ s1.size i := by
      rw [size_bytes v, a3, size_bytes (reach_inv hs)]; exact wrap_length h ls _
    have hfl : (format h fs).length = total fs := by rw [← bytesOf_format, bytesOf_length]
    obtain ⟨_, _, _, _, b, _, _, _, c1, _⟩ := addHeader_effect v h2
    refine ⟨reach_step (reach_step a1 h2) e1, by rw [e3]; exact Tag.lt_of c1, ?_, ?_, ?_⟩
    · rw [e4, a3, bytesOf_format]; rfl
    · intro id off ho
      show s3.byteTag i id (off + ((format h fs).length + inFront h ls)) = _
      rw [show off + ((format h fs).length + inFront h ls) = off + inFront h ls + total fs by omega, e5 id _ (by omega)]
      exact a4 id off ho
    · intro id off ho
      show s3.packetTag i id (off + ((format h fs).length + inFront h ls)) = _
      rw [show off + ((format h fs).length + inFront h ls) = off + inFront h ls + total fs by omega, e6 id _ (by omega)]
      exact a5 id off ho
  | @trailer ls s1 s2 s3 fs held h1 h2 hf h3 ih =>
    obtain ⟨a1, a2, a3, a4, a5⟩ := ih (fun l hl => hok l (List.mem_cons_of_mem _ hl))
    have v := reach_inv a1
    obtain ⟨e1, e2, e3, e4, e5, e6⟩ := tail_ok (hok _ List.mem_cons_self) v h2 hf h3
    have hlen : s.size i + inFront h ls ≤ s1.size i := by
      rw [size_bytes v, a3, size_bytes (reach_inv hs)]; exact wrap_length h ls _
    obtain ⟨_, _, _, _, b, _, _, _, c1, _⟩ := addTrailer_effect v h2
    refine ⟨reach_step (reach_step a1 h2) e1, by rw [e3]; exact Tag.lt_of c1, ?_, ?_, ?_⟩
    · rw [e4, a3, bytesOf_format]; rfl
    · intro id off ho
      show s3.byteTag i id (off + inFront h ls) = _
      rw [e5 id _ (by omega)]; exact a4 id off ho
    · intro id off ho
      show s3.packetTag i id (off + inFront h ls) = _
      rw [e6 id _ (by omega)]; exact a5 id off ho

theorem unframed {h₁ h₂ : Host} {j : Nat} {t t' : PState} {xss : List (Edge × List (Order × Var))} {out : List (List Field)}
    (hR : Unframes h₂ j t xss out t') : ∀ {ls : List (Edge × List (Order × Field))} {payload : List Byte}, PInv t t.pkts → j < t.pkts.length →
    (∀ l ∈ ls, ∀ p ∈ l.2, p.2.Ok h₁ ∧ p.2.Ok h₂) → (h₁ = h₂ ∨ ∀ l ∈ ls, ∀ p ∈ l.2, p.1 ≠ .native) →
    List.Forall₂ (fun l x => l.1 = x.1 ∧ Matches l.2 x.2) ls xss → t.bytes j = wrap h₁ ls payload →
    out = ls.map (·.2.map Prod.snd) ∧ t'.bytes j = payload ∧
      (∀ id off, t'.byteTag j id off = t.byteTag j id (off + inFront h₁ ls)) ∧
      (∀ id off, t'.packetTag j id off = t.packetTag j id (off + inFront h₁ ls)) := by
  induction hR with
  | done s =>
    intro ls payload v hj hok hh hm hb
    cases hm
    exact ⟨rfl, hb, fun _ _ => rfl, fun _ _ => rfl⟩
  | @other s xss out s1 s2 o h1 hq hn h2 ih =>
    intro ls payload v hj hok hh hm hb
    have k := step_ok v h1
    have sh := frame_shows (k.quiet hq) hj hn
    have hg := (k.quiet hq j _ (List.getElem?_eq_getElem hj) hn).1
    obtain ⟨r1, r2, r3, r4⟩ := ih k.inv (Tag.lt_of hg) hok hh hm (by rw [sh.1, hb])
    exact ⟨r1, r2, fun id off => by rw [r3, sh.2.1], fun id off => by rw [r4, sh.2.2]⟩
  | @header s xss out s1 s2 xs held n vs hf h1 h2 h3 ih =>
    intro ls payload v hj hok hh hm hb
    cases hm with
    | @cons l _ ls _ hm1 hm2 =>
      obtain ⟨sd, fs⟩ := l
      obtain ⟨hsd, hm1⟩ := hm1
      have hsd' : sd = .front := hsd
      subst hsd'
      have hfl : (format h₁ fs).length = total fs := by rw [← bytesOf_format, bytesOf_length]
      have hb' : s.bytes j = bytesOf h₁ fs ++ wrap h₁ ls payload := by rw [hb, bytesOf_format]; rfl
      have hr := readMsg_ok (hok _ List.mem_cons_self) (hh.imp_right (fun h => h _ List.mem_cons_self)) hm1 v hf hj hb'
      rw [h1] at hr
      simp only [Option.some.injEq, Prod.mk.injEq] at hr
      obtain ⟨rfl, rfl⟩ := hr
      obtain ⟨_, e2, e3, e4⟩ := removeHeader_effect v h2
      have k := step_ok v h2
      obtain ⟨_, _, _, _, _, _, k3, _, k5, _⟩ := removeHeader_ok v h2
      have hb1 : s1.bytes j = wrap h₁ ls payload := by
        rw [e2, hb', show total (Edge.front, fs).2 = (bytesOf h₁ fs).length from (bytesOf_length h₁ fs).symm, List.drop_left]
      obtain ⟨r1, r2, r3, r4⟩ := ih k.inv (by rw [k5.pkts]; simpa using hj) (fun l hl => hok l (List.mem_cons_of_mem _ hl))
        (hh.imp_right (fun h l hl => h l (List.mem_cons_of_mem _ hl))) hm2 hb1
      refine ⟨by simp [r1], r2, ?_, ?_⟩
      · intro id off
        show _ = s.byteTag j id (off + ((format h₁ fs).length + inFront h₁ ls))
        rw [r3, e3]; congr 1; show off + inFront h₁ ls + total fs = _; omega
      · intro id off
        show _ = s.packetTag j id (off + ((format h₁ fs).length + inFront h₁ ls))
        rw [r4, e4]; congr 1; show off + inFront h₁ ls + total fs = _; omega
  | @trailer s xss out s1 s2 xs held vs hf h1 h2 h3 ih =>
    intro ls payload v hj hok hh hm hb
    cases hm with
    | @cons l _ ls _ hm1 hm2 =>
      obtain ⟨sd, fs⟩ := l
      obtain ⟨hsd, hm1⟩ := hm1
      have hsd' : sd = .back := hsd
      subst hsd'
      have hb' : s.bytes j = wrap h₁ ls payload ++ bytesOf h₁ fs := by rw [hb, bytesOf_format]; rfl
      have hr := readTail_ok (hok _ List.mem_cons_self) (hh.imp_right (fun h => h _ List.mem_cons_self)) hm1 v hf hj hb'
      rw [h1] at hr
      simp only [Option.some.injEq] at hr
      subst hr
      obtain ⟨_, e2, e3, e4⟩ := removeTrailer_effect v h2
      have k := step_ok v h2
      obtain ⟨_, _, _, _, _, _, k3, _, k5, _⟩ := removeTrailer_ok v h2
      have hb1 : s1.bytes j = wrap h₁ ls payload := by
        have hs : sizes xs = (bytesOf h₁ fs).length := by rw [bytesOf_length]; exact sizes_matches hm1
        rw [e2, hb', hs, List.length_append, Nat.add_sub_cancel, List.take_left]
      obtain ⟨r1, r2, r3, r4⟩ := ih k.inv (by rw [k5.pkts]; simpa using hj) (fun l hl => hok l (List.mem_cons_of_mem _ hl))
        (hh.imp_right (fun h l hl => h l (List.mem_cons_of_mem _ hl))) hm2 hb1
      refine ⟨by simp [r1], r2, ?_, ?_⟩
      · intro id off; rw [r3, e3]; rfl
      · intro id off; rw [r4, e4]; rfl

/-- **C131, receiving.** Whoever has a packet with the bytes that were sent and reads and removes messages of the same types at the same sides
gets exactly the fields of every layer, and is left with exactly what the sender's packet held at first; the hosts may differ if no field is in
native order.  The tags that remain are those of the bytes that remain. -/
theorem C131_received {h₁ h₂ : Host} {i j : Nat} {s s' t t' : PState} {ls : List (Edge × List (Order × Field))}
    {xss : List (Edge × List (Order × Var))} {out : List (List Field)} (hs : Reach s) (hi : i < s.pkts.length)
    (hok : ∀ l ∈ ls, ∀ p ∈ l.2, p.2.Ok h₁ ∧ p.2.Ok h₂) (hh : h₁ = h₂ ∨ ∀ l ∈ ls, ∀ p ∈ l.2, p.1 ≠ .native)
    (hS : Frames h₁ i s ls s') (ht : Reach t) (hj : j < t.pkts.length) (hb : t.bytes j = s'.bytes i)
    (hm : List.Forall₂ (fun l x => l.1 = x.1 ∧ Matches l.2 x.2) ls xss) (hR : Unframes h₂ j t xss out t') :
    out = ls.map (·.2.map Prod.snd) ∧ t'.bytes j = s.bytes i ∧
      (∀ id off, t'.byteTag j id off = t.byteTag j id (off + inFront h₁ ls)) ∧
      (∀ id off, t'.packetTag j id off = t.packetTag j id (off + inFront h₁ ls)) := by
  obtain ⟨_, _, e, _⟩ := C131_sent hs hi (fun l hl p hp => (hok l hl p hp).1) hS
  exact unframed hR (reach_inv ht) hj hok hh hm (by rw [hb, e])

/-- **C131, progress.** A trailer can always be added, and a trailer can always be read and removed, if the storages of the states
involved are of possible sizes; for headers see C129. -/
theorem C131_progress {h₁ h₂ : Host} {i : Nat} {s : PState} (hs : Reach s) (hi : i < s.pkts.length) {fs : List (Order × Field)}
    (hok : ∀ p ∈ fs, p.2.Ok h₁ ∧ p.2.Ok h₂) (held : Bool) :
    (∃ s1, s.step (.addTrailer i (total fs) held) = some s1 ∧
      (Fits s1 → ∃ s2, writeMsg h₁ fs s1 (s1.bufs.bufs.length - 1) = some s2)) ∧
    ∀ {xs rest}, (h₁ = h₂ ∨ ∀ p ∈ fs, p.1 ≠ .native) → Matches fs xs → Fits s → s.bytes i = rest ++ format h₁ fs →
      ∃ s1, readTail h₂ xs s i = some (fs.map Prod.snd) ∧ s.step (.removeTrailer i (sizes xs) held) = some s1 := by
  have v := reach_inv hs
  constructor
  · obtain ⟨_, ⟨s1, h1⟩, _⟩ := C126_defined s hs i hi (total fs) held
    refine ⟨s1, h1, fun hf => ?_⟩
    obtain ⟨f, w1, w2, w3⟩ := trailer_buf v h1
    exact writeMsg_ok (fun p hp => (hok p hp).1) (step_ok v h1).inv.bb hf w1 w2 (by omega)
  · intro xs rest hh hm hf hb
    rw [← bytesOf_format] at hb
    have hr := readTail_ok hok hh hm v hf hi hb
    have hsz := sizes_matches hm
    obtain ⟨_, _, h3⟩ := C126_defined s hs i hi (sizes xs) held
    obtain ⟨s1, h4⟩ := (h3 (by rw [size_bytes v, hb, List.length_append, bytesOf_length]; omega)).2
    exact ⟨s1, hr, h4⟩

/-- A header and a trailer around three bytes on a packet that shares its body with another one, read back on a host of the other order. -/
example : ((((PState.init fun _ _ => 0xcc).run shared).bind fun s => s.step (.addTrailer 1 4 false)).bind fun s =>
    (writeMsg .little [(.big, .arith .w4 0xdeadbeef)] s (s.bufs.bufs.length - 1)).bind fun s =>
    (s.step (.addHeader 1 2 false)).bind fun s =>
    (writeMsg .little [(.little, .arith .w2 0x0102)] s (s.bufs.bufs.length - 1)).bind fun s =>
    (readMsg .big [(.little, .arith .w2)] s 1).bind fun r =>
    (s.step (.removeHeader 1 r.1 false)).bind fun s' =>
    (readTail .big [(.big, .arith .w4)] s' 1).bind fun r' =>
    (s'.step (.removeTrailer 1 4 false)).map fun s'' => (s.bytes 0, s.bytes 1, s.byteTag 1 7 3, r, r', s''.bytes 1)) =
  some ([0, 0, 0], [2, 1, 0, 0, 0, 0xde, 0xad, 0xbe, 0xef], some 70, (2, [.arith .w2 0x0102]), [.arith .w4 0xdeadbeef],
    [0, 0, 0]) := by rfl

/-- The packet of three bytes with a trailer. -/
def u1 : PState := (s0.step (.addTrailer 0 2 false)).get rfl
def u2 : PState := (writeMsg .little [(.big, .arith .w2 7)] u1 (u1.bufs.bufs.length - 1)).get rfl

/-- The hypotheses of C131 hold of a packet of three bytes with a trailer. -/
example : ∃ s s' t, Reach s ∧ s.bytes 0 = [1, 2, 3] ∧ Frames .little 0 s [(.back, [(.big, .arith .w2 7)])] s' ∧ Reach s' ∧
    s'.bytes 0 = [1, 2, 3, 0, 7] ∧ Unframes .big 0 s' [(.back, [(.big, .arith .w2)])] [[.arith .w2 7]] t := by
  have r0 : Reach s0 := reach_run (Option.some_get _).symm
  have hok : ∀ p ∈ [((.big : Order), (.arith .w2 7 : Message.Field))], p.2.Ok .little ∧ p.2.Ok .big := by
    intro p hp
    simp only [List.mem_cons, List.not_mem_nil, or_false] at hp
    subst hp
    exact ⟨by show 7 < 256 ^ 2; decide, by show 7 < 256 ^ 2; decide⟩
  have h1 : s0.step (.addTrailer 0 2 false) = some u1 := (Option.some_get _).symm
  have h2 : writeMsg .little [(.big, .arith .w2 7)] u1 (u1.bufs.bufs.length - 1) = some u2 := (Option.some_get _).symm
  have f1 : Fits u1 := fits_of (reach_step r0 h1) rfl rfl
  have hS : Frames .little 0 s0 [(.back, [(.big, .arith .w2 7)])] u2 := .trailer _ false (.done _) h1 f1 h2
  have r2 := (C131_sent r0 (by decide) (by simpa using fun p hp => (hok p hp).1) hS).1
  have f2 : Fits u2 := fits_of r2 rfl rfl
  obtain ⟨t, q1, q2⟩ := (C131_progress (i := 0) r2 (by decide) hok false).2 (xs := [(.big, .arith .w2)]) (rest := [1, 2, 3])
    (.inr (by simp)) (.cons ⟨rfl, rfl⟩ .nil) f2 rfl
  exact ⟨s0, u2, t, r0, rfl, hS, r2, rfl, .trailer _ false _ f2 q1 q2 (.done _)⟩

end Verif.ZPacket
