import Verif.ZPacket.Area

/-!
More about C125 and C126: headers and trailers that are added by size and then written, among anything else that happens to
other packets.
-/
set_option linter.unusedSimpArgs false
set_option linter.unusedVariables false
namespace Verif.ZPacket

/-- Anything that is not applied to packet `k`: operations, and headers and trailers that are added and written. -/
inductive Traffic (k : Nat) : PState → PState → Prop
  | nothing (s) : Traffic k s s
  | both {s s1 s2} : Traffic k s s1 → Traffic k s1 s2 → Traffic k s s2
  /-- every operation but `CopyTagsFrom`, deep copies from another kind of buffer, and writes into client buffers -/
  | step {s s1} (o : Op) : s.step o = some s1 → o.plain = true → o.isWrite = false → o.isCopyTags = false → k ∉ o.targets →
      Traffic k s s1
  /-- `AddHeader(n)` and then writes into the returned buffer -/
  | header {s s1 s2} (i n : Nat) (held : Bool) (ws : List (Nat × List Byte)) : i ≠ k →
      s.step (.addHeader i n held) = some s1 → s1.run (writes (s1.bufs.bufs.length - 1) ws) = some s2 → Traffic k s s2
  | trailer {s s1 s2} (i n : Nat) (held : Bool) (ws : List (Nat × List Byte)) : i ≠ k →
      s.step (.addTrailer i n held) = some s1 → s1.run (writes (s1.bufs.bufs.length - 1) ws) = some s2 → Traffic k s s2

theorem Shows.trans {s t u : PState} {i j k : Nat} (h : Shows t j s i) (g : Shows u k t j) : Shows u k s i :=
  ⟨g.1.trans h.1, fun id off => (g.2.1 id off).trans (h.2.1 id off), fun id off => (g.2.2 id off).trans (h.2.2 id off)⟩

theorem traffic_ok {k : Nat} {s s' : PState} (h : Traffic k s s') : PInv s s.pkts → W s →
    k < s.pkts.length → PInv s' s'.pkts ∧ k < s'.pkts.length ∧ Shows s' k s k ∧ W s' := by
  induction h with
  | nothing s => exact fun v w hk => ⟨v, hk, ⟨rfl, fun _ _ => rfl, fun _ _ => rfl⟩, w⟩
  | both _ _ ih1 ih2 =>
    intro v w hk
    obtain ⟨v1, k1, s1, w1⟩ := ih1 v w hk
    obtain ⟨v2, k2, s2, w2⟩ := ih2 v1 w1 k1
    exact ⟨v2, k2, s1.trans s2, w2⟩
  | step o h h1 h3 h4 h5 =>
    intro v w hk
    have st := step_ok v h
    obtain ⟨w1, f⟩ := st.wide h1 w
    have f := f h3 h4
    exact ⟨st.inv, Tag.lt_of (f k _ (List.getElem?_eq_getElem hk) h5).1, frame_shows f hk h5, w1⟩
  | header i n held ws hi h1 h2 => exact fun v w hk => header_area v w h1 h2 hk (Ne.symm hi)
  | trailer i n held ws hi h1 h2 => exact fun v w hk => trailer_area v w h1 h2 hk (Ne.symm hi)

/-- C125 (partial: histories without deep copies from another kind of buffer; not `CopyTagsFrom`; of the writes into buffers of
the client only those into a header or trailer that was just added).  Whatever happens to other packets, a packet keeps its
bytes and tags. -/
theorem C125_traffic_partial (s s' : PState) (hs : ReachPlain s) (k : Nat) (hk : k < s.pkts.length) (h : Traffic k s s') :
    Shows s' k s k := by
  obtain ⟨v, w⟩ := plain_inv hs
  exact (traffic_ok h v w hk).2.2.1

/-! ### C126 with headers and trailers that are written into other packets meanwhile -/

/-- Packet `i` gets headers and trailers, each of which is written and later removed again, in any nesting; meanwhile anything
happens to other packets. -/
inductive Nested (i : Nat) : PState → PState → Prop
  | other {s s1} : Traffic i s s1 → Nested i s s1
  | both {s s1 s2} : Nested i s s1 → Nested i s1 s2 → Nested i s s2
  | header {s s1 s2 s3 s4} (n : Nat) (held held' : Bool) (ws : List (Nat × List Byte)) :
      s.step (.addHeader i n held) = some s1 → s1.run (writes (s1.bufs.bufs.length - 1) ws) = some s2 →
      Nested i s2 s3 → s3.step (.removeHeader i n held') = some s4 → Nested i s s4
  | trailer {s s1 s2 s3 s4} (n : Nat) (held held' : Bool) (ws : List (Nat × List Byte)) :
      s.step (.addTrailer i n held) = some s1 → s1.run (writes (s1.bufs.bufs.length - 1) ws) = some s2 →
      Nested i s2 s3 → s3.step (.removeTrailer i n held') = some s4 → Nested i s s4

theorem writes_wide {j : Nat} (ws : List (Nat × List Byte)) {s s' : PState} (v : PInv s s.pkts) (hw : W s)
    (h : s.run (writes j ws) = some s') : W s' := by
  refine run_wide v hw ?_ h
  intro o ho
  simp only [writes, List.mem_map] at ho
  obtain ⟨x, _, rfl⟩ := ho
  rfl

theorem nested_ok {i : Nat} {s s' : PState} (h : Nested i s s') : PInv s s.pkts → W s →
    i < s.pkts.length → (PInv s' s'.pkts ∧ i < s'.pkts.length ∧ Restored s' s i) ∧ W s' := by
  induction h with
  | other h =>
    intro v w hi
    obtain ⟨v1, k1, sh, w1⟩ := traffic_ok h v w hi
    exact ⟨⟨v1, k1, by rw [size_bytes v1, size_bytes v, sh.1], sh.1, fun id off _ => sh.2.1 id off,
      fun id off _ => sh.2.2 id off⟩, w1⟩
  | both _ _ ih1 ih2 =>
    intro v w hi
    obtain ⟨⟨v1, l1, a1, a2, a3, a4⟩, w1⟩ := ih1 v w hi
    obtain ⟨⟨v2, l2, b1, b2, b3, b4⟩, w2⟩ := ih2 v1 w1 l1
    exact ⟨⟨v2, l2, b1.trans a1, b2.trans a2, fun id off ho => (b3 id off (by omega)).trans (a3 id off ho),
      fun id off ho => (b4 id off (by omega)).trans (a4 id off ho)⟩, w2⟩
  | @header s s1 s2 s3 s4 n held held' ws h1 h2 h3 h4 ih =>
    intro v w hi
    have st := step_ok v h1
    have w2 := writes_wide ws st.inv (st.wide (by simp [Op.plain]) w).1 h2
    refine ⟨header_undo v h1 h2 (fun v2 l2 => (ih v2 w2 l2).1) h4, ?_⟩
    have v2 := run_inv st.inv h2
    have l2 : i < s2.pkts.length := by
      obtain ⟨_, _, _, _, b, x, c, f, c1, c2, c3, c4, c5, _⟩ := addHeader_effect v h1
      obtain ⟨_, _, _, _, _, _, m5⟩ := writes_ok ws st.inv c1 c2 c3 c4 c5 h2
      rw [m5]; exact Tag.lt_of c1
    obtain ⟨⟨v3, _, _⟩, w3⟩ := ih v2 w2 l2
    exact ((step_ok v3 h4).wide rfl w3).1
  | @trailer s s1 s2 s3 s4 n held held' ws h1 h2 h3 h4 ih =>
    intro v w hi
    have st := step_ok v h1
    have w2 := writes_wide ws st.inv (st.wide (by simp [Op.plain]) w).1 h2
    refine ⟨trailer_undo v h1 h2 (fun v2 l2 => (ih v2 w2 l2).1) h4, ?_⟩
    have v2 := run_inv st.inv h2
    have l2 : i < s2.pkts.length := by
      obtain ⟨_, _, _, _, b, x, c, f, c1, c2, c3, c4, c5, _⟩ := addTrailer_effect v h1
      obtain ⟨_, _, _, _, _, _, m5⟩ := writes_ok ws st.inv c1 c2 c3 c4 c5 h2
      rw [m5]; exact Tag.lt_of c1
    obtain ⟨⟨v3, _, _⟩, w3⟩ := ih v2 w2 l2
    exact ((step_ok v3 h4).wide rfl w3).1

/-- C126, where meanwhile other packets get headers and trailers whose bytes are stored (histories without deep copies from
another kind of buffer). -/
theorem C126_nested (s s' : PState) (hs : ReachPlain s) (i : Nat) (hi : i < s.pkts.length) (h : Nested i s s') :
    s'.size i = s.size i ∧ s'.bytes i = s.bytes i ∧
      (∀ id off, off < s.size i → s'.byteTag i id off = s.byteTag i id off) ∧
      ∀ id off, off < s.size i → s'.packetTag i id off = s.packetTag i id off := by
  obtain ⟨v, w⟩ := plain_inv hs
  exact (nested_ok h v w hi).1.2.2

/-- A case: two packets share their bytes; each gets a header and a trailer that are written, one after the other.  In the
configuration with plain buffers the second trailer would go where the first packet has its bytes. -/
example : (∀ o ∈ shared, o.plain = true) ∧
    (((PState.init fun _ _ => 0xcc).run (shared ++ [.addHeader 1 2 false, .user (.write 4 0 [1, 2]), .addTrailer 0 2 false,
      .user (.write 5 0 [3, 4])])).map fun s => (s.bytes 0, s.bytes 1)) = some ([0, 0, 0, 3, 4], [1, 2, 0, 0, 0]) ∧
    (((PState.init fun _ _ => 0xcc).run (shared ++ [.addHeader 1 2 false, .user (.write 4 0 [1, 2]), .addTrailer 0 2 false,
      .user (.write 5 0 [3, 4]), .addTrailer 1 1 false, .user (.write 6 0 [9])])).map fun s => (s.bytes 0, s.bytes 1)) =
      some ([0, 0, 0, 3, 4], [1, 2, 0, 0, 0, 9]) :=
  ⟨by decide, by rfl, by rfl⟩

end Verif.ZPacket
