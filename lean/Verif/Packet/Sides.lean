import Verif.Packet.Area

/-!
More about C19 and C20: packets that only ever get headers (or only ever get trailers) by size.

The defect of `C19_overwrite_fails` needs both: `AddTrailer(size)` makes a storage forget that bytes in front of the trailer
are in use, a header that is added later is then put there (and the other way round).  With headers only nothing is
forgotten at the start of a storage, where headers go.
-/
set_option linter.unusedSimpArgs false
set_option linter.unusedVariables false
namespace Verif.Packet

/-- No `AddTrailer(size)` and no fragment of a client buffer, unless empty. -/
def Op.headersOnly : Op → Bool
  | .addTrailer _ n _ => n == 0
  | .user (.fragment _ _ n) => n == 0
  | _ => true

/-- No `AddHeader(size)`, no fragment of a client buffer, unless empty, and no buffer made of given bytes. -/
def Op.trailersOnly : Op → Bool
  | .addHeader _ n _ => n == 0
  | .user (.fragment _ _ n) => n == 0
  | .user (.newFrom _) => false
  | _ => true

/-- Bytes are copied into a packet or a client buffer, at its end. -/
def Op.storesAtEnd : Op → Bool
  | .addTrailerBuf _ _ _ | .addTrailerPkt _ _ _ | .user (.addEndBytes _ _) | .user (.addEndBuf _ _) => true
  | _ => false

/-- Bytes are copied into a packet or a client buffer, at its start. -/
def Op.storesAtStart : Op → Bool
  | .addHeaderBuf _ _ _ | .addHeaderPkt _ _ _ | .user (.addStartBytes _ _) | .user (.addStartBuf _ _) => true
  | _ => false

theorem headersOnly_plain (o : Op) (h : o.headersOnly = true) : o.plain ⟨true, false⟩ = true := by
  cases o with
  | user o => cases o <;> first | rfl | exact h
  | addHeader i n held => simp [Op.plain]
  | addTrailer i n held => simp only [Op.headersOnly] at h; simp [Op.plain, h]
  | _ => rfl

theorem trailersOnly_plain (o : Op) (h : o.trailersOnly = true) : o.plain ⟨false, true⟩ = true := by
  cases o with
  | user o => cases o <;> first | rfl | exact h
  | addTrailer i n held => simp [Op.plain]
  | addHeader i n held => simp only [Op.trailersOnly] at h; simp [Op.plain, h]
  | _ => rfl

theorem storesAtEnd_sided (o : Op) (h : o.storesAtEnd = false) : o.sided ⟨true, false⟩ = true := by
  cases o with
  | user o => cases o <;> first | rfl | cases h
  | _ => first | rfl | cases h

theorem storesAtStart_sided (o : Op) (h : o.storesAtStart = false) : o.sided ⟨false, true⟩ = true := by
  cases o with
  | user o => cases o <;> first | rfl | cases h
  | _ => first | rfl | cases h

/-- Anything that is not applied to packet `k`: operations, and headers that are added and written. -/
inductive HeaderTraffic (k : Nat) : PState → PState → Prop
  | nothing (s) : HeaderTraffic k s s
  | both {s s1 s2} : HeaderTraffic k s s1 → HeaderTraffic k s1 s2 → HeaderTraffic k s s2
  /-- among others `AddHeader` of a size, a buffer or a packet, and `RemoveHeader`, `RemoveTrailer`, `DeepCopy`; not
  `CopyTagsFrom` and not what copies bytes to an end -/
  | step {s s1} (o : Op) : s.step o = some s1 → o.headersOnly = true → o.storesAtEnd = false → o.isWrite = false →
      o.isCopyTags = false → k ∉ o.targets → HeaderTraffic k s s1
  /-- `AddHeader(n)` and then writes into the returned buffer -/
  | header {s s1 s2} (i n : Nat) (held : Bool) (ws : List (Nat × List Byte)) : i ≠ k →
      s.step (.addHeader i n held) = some s1 → s1.run (writes (s1.bufs.bufs.length - 1) ws) = some s2 →
      HeaderTraffic k s s2

/-- The same at the other end. -/
inductive TrailerTraffic (k : Nat) : PState → PState → Prop
  | nothing (s) : TrailerTraffic k s s
  | both {s s1 s2} : TrailerTraffic k s s1 → TrailerTraffic k s1 s2 → TrailerTraffic k s s2
  | step {s s1} (o : Op) : s.step o = some s1 → o.trailersOnly = true → o.storesAtStart = false → o.isWrite = false →
      o.isCopyTags = false → k ∉ o.targets → TrailerTraffic k s s1
  | trailer {s s1 s2} (i n : Nat) (held : Bool) (ws : List (Nat × List Byte)) : i ≠ k →
      s.step (.addTrailer i n held) = some s1 → s1.run (writes (s1.bufs.bufs.length - 1) ws) = some s2 →
      TrailerTraffic k s s2

theorem Shows.trans {s t u : PState} {i j k : Nat} (h : Shows t j s i) (g : Shows u k t j) : Shows u k s i :=
  ⟨g.1.trans h.1, fun id off => (g.2.1 id off).trans (h.2.1 id off), fun id off => (g.2.2 id off).trans (h.2.2 id off)⟩

theorem headerTraffic_ok {k : Nat} {s s' : PState} (h : HeaderTraffic k s s') : PInv s s.pkts → W ⟨true, false⟩ s →
    k < s.pkts.length → PInv s' s'.pkts ∧ k < s'.pkts.length ∧ Shows s' k s k ∧ W ⟨true, false⟩ s' := by
  induction h with
  | nothing s => exact fun v w hk => ⟨v, hk, ⟨rfl, fun _ _ => rfl, fun _ _ => rfl⟩, w⟩
  | both _ _ ih1 ih2 =>
    intro v w hk
    obtain ⟨v1, k1, s1, w1⟩ := ih1 v w hk
    obtain ⟨v2, k2, s2, w2⟩ := ih2 v1 w1 k1
    exact ⟨v2, k2, s1.trans s2, w2⟩
  | step o h h1 h2 h3 h4 h5 =>
    intro v w hk
    have st := step_ok v h
    obtain ⟨w1, f⟩ := st.wide _ (headersOnly_plain o h1) w
    have f := f h3 h4 (storesAtEnd_sided o h2)
    exact ⟨st.inv, Tag.lt_of (f k _ (List.getElem?_eq_getElem hk) h5).1, frame_shows f hk h5, w1⟩
  | header i n held ws hi h1 h2 => exact fun v w hk => header_area v _ w rfl rfl h1 h2 hk (Ne.symm hi)

theorem trailerTraffic_ok {k : Nat} {s s' : PState} (h : TrailerTraffic k s s') : PInv s s.pkts → W ⟨false, true⟩ s →
    k < s.pkts.length → PInv s' s'.pkts ∧ k < s'.pkts.length ∧ Shows s' k s k ∧ W ⟨false, true⟩ s' := by
  induction h with
  | nothing s => exact fun v w hk => ⟨v, hk, ⟨rfl, fun _ _ => rfl, fun _ _ => rfl⟩, w⟩
  | both _ _ ih1 ih2 =>
    intro v w hk
    obtain ⟨v1, k1, s1, w1⟩ := ih1 v w hk
    obtain ⟨v2, k2, s2, w2⟩ := ih2 v1 w1 k1
    exact ⟨v2, k2, s1.trans s2, w2⟩
  | step o h h1 h2 h3 h4 h5 =>
    intro v w hk
    have st := step_ok v h
    obtain ⟨w1, f⟩ := st.wide _ (trailersOnly_plain o h1) w
    have f := f h3 h4 (storesAtStart_sided o h2)
    exact ⟨st.inv, Tag.lt_of (f k _ (List.getElem?_eq_getElem hk) h5).1, frame_shows f hk h5, w1⟩
  | trailer i n held ws hi h1 h2 => exact fun v w hk => trailer_area v _ w rfl rfl h1 h2 hk (Ne.symm hi)

/-- C19 (partial: histories without non-empty `AddTrailer(size)` and without fragments of client buffers; not
`CopyTagsFrom`, not what copies bytes to an end of a packet).  Whatever happens to other packets, including headers that are
copied in, and headers that are added by size and then written, a packet keeps its bytes and tags. -/
theorem C19_headers_partial (junk : Nat → Nat → Byte) (hist : List Op) (s s' : PState)
    (hr : (PState.init junk).run hist = some s) (hp : ∀ o ∈ hist, o.headersOnly = true) (k : Nat) (hk : k < s.pkts.length)
    (h : HeaderTraffic k s s') : Shows s' k s k := by
  have v := run_inv (init_inv junk) hr
  have w := run_wide (init_inv junk) (Buf.init_wide _ junk) (fun o ho => headersOnly_plain o (hp o ho)) hr
  exact (headerTraffic_ok h v w hk).2.2.1

/-- C19 (partial: histories without non-empty `AddHeader(size)`, without fragments of client buffers and without buffers
made of given bytes; not `CopyTagsFrom`, not what copies bytes to the start of a packet).  The same with trailers. -/
theorem C19_trailers_partial (junk : Nat → Nat → Byte) (hist : List Op) (s s' : PState)
    (hr : (PState.init junk).run hist = some s) (hp : ∀ o ∈ hist, o.trailersOnly = true) (k : Nat) (hk : k < s.pkts.length)
    (h : TrailerTraffic k s s') : Shows s' k s k := by
  have v := run_inv (init_inv junk) hr
  have w := run_wide (init_inv junk) (Buf.init_wide _ junk) (fun o ho => trailersOnly_plain o (hp o ho)) hr
  exact (trailerTraffic_ok h v w hk).2.2.1

/-! ### C20 with headers that are written into other packets meanwhile -/

/-- Packet `i` gets headers, each of which is written and later removed again, in any nesting; meanwhile anything happens to
other packets. -/
inductive HeaderBalanced (i : Nat) : PState → PState → Prop
  | other {s s1} : HeaderTraffic i s s1 → HeaderBalanced i s s1
  | both {s s1 s2} : HeaderBalanced i s s1 → HeaderBalanced i s1 s2 → HeaderBalanced i s s2
  | header {s s1 s2 s3 s4} (n : Nat) (held held' : Bool) (ws : List (Nat × List Byte)) :
      s.step (.addHeader i n held) = some s1 → s1.run (writes (s1.bufs.bufs.length - 1) ws) = some s2 →
      HeaderBalanced i s2 s3 → s3.step (.removeHeader i n held') = some s4 → HeaderBalanced i s s4

theorem writes_wide {w : Side} {j : Nat} (ws : List (Nat × List Byte)) {s s' : PState} (v : PInv s s.pkts) (hw : W w s)
    (h : s.run (writes j ws) = some s') : W w s' := by
  refine run_wide v hw ?_ h
  intro o ho
  simp only [writes, List.mem_map] at ho
  obtain ⟨x, _, rfl⟩ := ho
  rfl

theorem headerBalanced_ok {i : Nat} {s s' : PState} (h : HeaderBalanced i s s') : PInv s s.pkts → W ⟨true, false⟩ s →
    i < s.pkts.length → (PInv s' s'.pkts ∧ i < s'.pkts.length ∧ Restored s' s i) ∧ W ⟨true, false⟩ s' := by
  induction h with
  | other h =>
    intro v w hi
    obtain ⟨v1, k1, sh, w1⟩ := headerTraffic_ok h v w hi
    exact ⟨⟨v1, k1, by rw [size_bytes v1, size_bytes v, sh.1], sh.1, fun id off _ => sh.2.1 id off,
      fun id off _ => sh.2.2 id off⟩, w1⟩
  | both _ _ ih1 ih2 =>
    intro v w hi
    obtain ⟨⟨v1, l1, a1, a2, a3, a4⟩, w1⟩ := ih1 v w hi
    obtain ⟨⟨v2, l2, b1, b2, b3, b4⟩, w2⟩ := ih2 v1 w1 l1
    exact ⟨⟨v2, l2, b1.trans a1, b2.trans a2, fun id off ho => (b3 id off (by omega)).trans (a3 id off ho),
      fun id off ho => (b4 id off (by omega)).trans (a4 id off ho)⟩, w2⟩
  | @header s s1 s2 s3 s4 n held held' ws h1 h2 h3 h4 ih =>
    intro v w hi
    have st := step_ok v h1
    have w2 := writes_wide ws st.inv (st.wide _ (by simp [Op.plain]) w).1 h2
    refine ⟨header_undo v h1 h2 (fun v2 l2 => (ih v2 w2 l2).1) h4, ?_⟩
    have v2 := run_inv st.inv h2
    have l2 : i < s2.pkts.length := by
      obtain ⟨_, _, _, _, b, x, c, f, c1, c2, c3, c4, c5, c6, c7, c8⟩ := addHeader_effect v h1
      obtain ⟨_, _, _, _, _, _, m5⟩ := writes_ok (a := 0) ws st.inv c1 c2 c3 c4 c5 (fun hn => by simpa using c6 hn)
        (by omega) h2
      rw [m5]; exact Tag.lt_of c1
    obtain ⟨⟨v3, _, _⟩, w3⟩ := ih v2 w2 l2
    exact ((step_ok v3 h4).wide _ rfl w3).1

/-- C20, where meanwhile other packets get headers whose bytes are stored (histories as in `C19_headers_partial`). -/
theorem C20_headers (junk : Nat → Nat → Byte) (hist : List Op) (s s' : PState)
    (hr : (PState.init junk).run hist = some s) (hp : ∀ o ∈ hist, o.headersOnly = true) (i : Nat) (hi : i < s.pkts.length)
    (h : HeaderBalanced i s s') :
    s'.size i = s.size i ∧ s'.bytes i = s.bytes i ∧
      (∀ id off, off < s.size i → s'.byteTag i id off = s.byteTag i id off) ∧
      ∀ id off, off < s.size i → s'.packetTag i id off = s.packetTag i id off := by
  have v := run_inv (init_inv junk) hr
  have w := run_wide (init_inv junk) (Buf.init_wide _ junk) (fun o ho => headersOnly_plain o (hp o ho)) hr
  exact (headerBalanced_ok h v w hi).1.2.2

/-- Three bytes from the client, a packet of them with a tag and a copy of the packet. -/
def pair : List Op := [.user (.new 4 3 4), .fromBuf 0, .addByteTag 0 7 70 0 2 false, .copy 0, .user (.new 0 2 0)]

/-- A case for the header theorems: both packets share their bytes; the second one gets a header that is written while the
first one keeps its bytes, then the first one gets one, which goes elsewhere. -/
example : (∀ o ∈ pair, o.headersOnly = true) ∧
    (((PState.init fun _ _ => 0xcc).run (pair ++ [.addHeader 1 2 false, .user (.write 4 0 [1, 2])])).map fun s =>
      (s.bytes 0, s.bytes 1, s.pkts.length)) = some ([0, 0, 0], [1, 2, 0, 0, 0], 2) ∧
    (((PState.init fun _ _ => 0xcc).run (pair ++ [.addHeader 1 2 false, .user (.write 4 0 [1, 2]), .addHeader 0 2 false,
      .user (.write 5 0 [3, 4])])).map fun s => (s.bytes 0, s.bytes 1)) = some ([3, 4, 0, 0, 0], [1, 2, 0, 0, 0]) :=
  ⟨by decide, by rfl, by rfl⟩

/-- A case for the trailer theorem. -/
example : (∀ o ∈ pair, o.trailersOnly = true) ∧
    (((PState.init fun _ _ => 0xcc).run (pair ++ [.addTrailer 1 2 false, .user (.write 4 0 [1, 2]), .addTrailer 0 2 false,
      .user (.write 5 0 [3, 4])])).map fun s => (s.bytes 0, s.bytes 1)) = some ([0, 0, 0, 3, 4], [0, 0, 0, 1, 2]) :=
  ⟨by decide, by rfl⟩

end Verif.Packet
