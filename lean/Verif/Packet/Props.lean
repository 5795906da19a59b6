import Verif.Packet.Throw

/-!
Property theorems about packets (C19, C20, C85, C86).

`bytes i` are the bytes that packet `i` reads as, `byteTag i id off` and `packetTag i id off` the values that
`GetByteTag(id, off)` and `GetPacketTag(id, off)` return (`none`: they throw).
-/
set_option linter.unusedSimpArgs false
set_option linter.unusedVariables false
namespace Verif.Packet

/-- Reached by a history of operations on any number of packets and buffers.  Operations may also have thrown because there was no memory,
except where a tag list could not follow bytes that had already been added (C141). -/
def Reach (s : PState) : Prop := ∃ junk hist, (∀ e ∈ hist, Ev.clean e = true) ∧ (PState.init junk).runE hist = some s

theorem init_inv (junk) : PInv (PState.init junk) (PState.init junk).pkts :=
  ⟨Buf.init_base junk, Tag.init_base, Tag.init_base, fun _ _ => rfl, (fun b x h => by cases h), (fun b c x y h => by cases h),
    (fun b x h => by cases h), (fun b h => by simp [PState.init] at h), (fun b x h => by cases h)⟩

theorem run_inv {hist : List Op} : ∀ {s s' : PState}, PInv s s.pkts → s.run hist = some s' → PInv s' s'.pkts := by
  induction hist with
  | nil => intro s s' v h; cases h; exact v
  | cons o os ih =>
    intro s s' v h
    simp only [PState.run] at h
    split at h
    · cases h
    · rename_i s1 e; exact ih (step_ok v e).inv h

theorem reach_inv {s : PState} (h : Reach s) : PInv s s.pkts := by
  obtain ⟨junk, hist, hc, h⟩ := h
  exact runE_inv (init_inv junk) hc h

theorem runE_done {hist : List Op} : ∀ {s s' : PState}, s.run hist = some s' → s.runE (hist.map .done) = some s' := by
  induction hist with
  | nil => intro s s' h; exact h
  | cons o os ih =>
    intro s s' h
    simp only [List.map_cons, PState.run, PState.runE, PState.stepE] at h ⊢
    split at h
    · cases h
    · rename_i s1 e; simp only [e]; exact ih h

theorem reach_run {junk : Nat → Nat → Byte} {hist : List Op} {s : PState} (h : (PState.init junk).run hist = some s) : Reach s :=
  ⟨junk, hist.map .done, fun e he => by obtain ⟨o, _, rfl⟩ := List.mem_map.mp he; rfl, runE_done h⟩

theorem reach_stepE {s s' : PState} (h : Reach s) {e : Ev} (hc : e.clean = true) (hs : s.stepE e = some s') : Reach s' := by
  obtain ⟨junk, hist, hh, h⟩ := h
  refine ⟨junk, hist ++ [e], fun x hx => ?_, ?_⟩
  · rcases List.mem_append.mp hx with hx | hx
    · exact hh x hx
    · rw [List.mem_singleton.mp hx]; exact hc
  · have app : ∀ (l : List Ev) (a : PState), a.runE l = some s → a.runE (l ++ [e]) = some s' := by
      intro l
      induction l with
      | nil => intro a ha; cases ha; simp [PState.runE, hs]
      | cons p l ih =>
        intro a ha
        simp only [List.cons_append, PState.runE] at ha ⊢
        split at ha
        · cases ha
        · exact ih _ ha
    exact app hist _ h

/-- Packet `j` of one state shows the bytes and tags that packet `k` shows in the other. -/
def Shows (s' : PState) (j : Nat) (s : PState) (k : Nat) : Prop :=
  s'.bytes j = s.bytes k ∧ (∀ id off, s'.byteTag j id off = s.byteTag k id off) ∧
    ∀ id off, s'.packetTag j id off = s.packetTag k id off

theorem shows_of {s s' : PState} {j k : Nat} {p q : Option Nat} (hj : s'.pkts[j]? = some p) (hk : s.pkts[k]? = some q)
    (h : view s' p = view s q) : Shows s' j s k := by
  obtain ⟨a1, a2, a3⟩ := obs_view hj
  obtain ⟨b1, b2, b3⟩ := obs_view hk
  exact ⟨by rw [a1, b1, h], fun id off => by rw [a2, b2, h], fun id off => by rw [a3, b3, h]⟩

theorem frame_shows {s s' : PState} {o : Op} (f : Frame s s' o) {k : Nat} (hk : k < s.pkts.length) (hn : k ∉ o.targets) :
    Shows s' k s k := by
  have hq := List.getElem?_eq_getElem hk
  obtain ⟨h1, h2⟩ := f k _ hq hn
  exact shows_of h1 hq h2

/-! ### C19 -/

/-- C19 (partial: not the operations that copy bytes into the packet, not `CopyTagsFrom`).  Adding and removing headers
and trailers by size, tagging, fragments, copying, moving, assigning and destroying packets, and the client's work with
its own buffers short of writing, leave every other packet as it was, after any history. -/
theorem C19_isolated_partial (s s' : PState) (hs : Reach s) (o : Op) (h : s.step o = some s') (hq : o.quiet = true) (k : Nat)
    (hk : k < s.pkts.length) (hn : k ∉ o.targets) : Shows s' k s k :=
  frame_shows ((step_ok (reach_inv hs) h).quiet hq) hk hn

theorem run_wide {w : Side} {hist : List Op} : ∀ {s s' : PState}, PInv s s.pkts → W w s → (∀ o ∈ hist, o.plain w = true) →
    s.run hist = some s' → W w s' := by
  induction hist with
  | nil => intro s s' _ w _ h; cases h; exact w
  | cons o os ih =>
    intro s s' v w hp h
    simp only [PState.run] at h
    split at h
    · cases h
    · rename_i s1 e
      have k := step_ok v e
      exact ih k.inv (k.wide _ (hp o (by simp)) w).1 (fun o' ho' => hp o' (by simp [ho'])) h

/-- C19 (partial: histories in which no `AddHeader(size)`, `AddTrailer(size)` or `MakeFragment` of a buffer hands out part of
a buffer; not `CopyTagsFrom`).  Then also the operations that copy bytes into a packet leave every other packet as it
was. -/
theorem C19_storing_partial (junk : Nat → Nat → Byte) (hist : List Op) (s s' : PState)
    (hr : (PState.init junk).run hist = some s) (hp : ∀ o ∈ hist, o.plain ⟨true, true⟩ = true) (o : Op) (h : s.step o = some s')
    (ho : o.plain ⟨true, true⟩ = true) (hw : o.isWrite = false) (hc : o.isCopyTags = false) (k : Nat) (hk : k < s.pkts.length)
    (hn : k ∉ o.targets) : Shows s' k s k := by
  have v := run_inv (init_inv junk) hr
  have w := run_wide (init_inv junk) (Buf.init_wide _ junk) hp hr
  refine frame_shows (((step_ok v h).wide _ ho w).2 hw hc ?_) hk hn
  cases o with
  | user o => cases o <;> rfl
  | _ => rfl

/-- C19 (partial): `CopyTagsFrom` changes only packets that share their body with the one it is applied to. -/
theorem C19_copyTags_partial (s s' : PState) (hs : Reach s) (i j : Nat) (h : s.step (.copyTags i j) = some s') (k : Nat)
    (hk : k < s.pkts.length) (hn : s.pkts[k]? ≠ s.pkts[i]?) : Shows s' k s k := by
  have v := reach_inv hs
  have hq := List.getElem?_eq_getElem hk
  simp only [PState.step] at h
  split at h
  · rename_i b c hb hc
    split at h
    · rename_i x y hx hy
      split at h
      · rename_i hsz
        split at h
        · rename_i b' c' e1 e2
          cases h
          have ha : act s (.removeStart x.buf 0) (.assign x.bt y.bt) (.assign x.pt y.pt) =
              some { s with bt := b', pt := c' } := by
            simp [act, buf_noop (v.range b x hx).1, e1, e2]
          obtain ⟨g1, g2, g3, g4, g5, _⟩ := copyTags_ok v hx hy hsz ha
          refine shows_of hq hq (g5 _ (List.getElem_mem hk) ?_)
          intro e; rw [hq, e, hb] at hn; exact hn rfl
        · cases h
      · cases h; exact ⟨rfl, fun _ _ => rfl, fun _ _ => rfl⟩
    · cases h
  · cases h; exact ⟨rfl, fun _ _ => rfl, fun _ _ => rfl⟩
  · cases h

/-- C19: a copy shows what the original shows. -/
theorem C19_copy (s s' : PState) (hs : Reach s) (j : Nat) (h : s.step (.copy j) = some s') :
    Shows s' s.pkts.length s j := by
  have v := reach_inv hs
  simp only [PState.step] at h
  split at h
  · cases h
  · rename_i p hp
    cases e : addRef s p with
    | none => rw [e] at h; cases h
    | some s1 =>
      rw [e] at h; cases h
      obtain ⟨g1, g2, g3, g4, _⟩ := addRef_ok v e
      refine shows_of (p := p) ?_ hp (g2 p)
      show (s1.pkts ++ [p])[s.pkts.length]? = _
      rw [g3]; simp

/-- Three bytes from the client, a packet of them with a tag, a copy of the packet. -/
def shared : List Op :=
  [.user (.new 4 3 4), .fromBuf 0, .addByteTag 0 7 70 0 2 false, .copy 0, .user (.new 0 2 0)]

/-- A case for the theorems above: two packets sharing a body; the second one gets a header of two bytes and a tag. -/
example : (((PState.init fun _ _ => 0xcc).run (shared ++ [.addHeaderBuf 1 2 false, .addByteTag 1 8 80 0 3 false])).map fun s =>
    (s.bytes 0, s.bytes 1, s.byteTag 0 7 1, s.byteTag 0 8 1, s.byteTag 1 7 3, s.byteTag 1 8 1)) =
    some ([0, 0, 0], [0, 0, 0, 0, 0], some 70, none, some 70, some 80) := by rfl

/-- C19 fails for `CopyTagsFrom`: applied to one packet it replaces the tags of every packet that shares its body. -/
theorem C19_copyTags_fails : (((PState.init fun _ _ => 0).run
    (shared ++ [.fromBuf 0, .copyTags 1 2])).map fun s => s.byteTag 0 7 0) = some none ∧
    (((PState.init fun _ _ => 0).run (shared ++ [.fromBuf 0])).map fun s => s.byteTag 0 7 0) = some (some 70) := by
  exact ⟨rfl, rfl⟩

/-- C19 fails for bytes: a copy gets a trailer by size, which makes the shared storage forget that the bytes in front of the
trailer are in use; when the copy then drops its old bytes and gets a new header, they are overwritten although the original
still has them. -/
theorem C19_overwrite_fails :
    (((PState.init fun _ _ => 0).run [.user (.new 4 2 4), .user (.newFrom [9, 9]), .fromBuf 0, .copy 0,
      .addTrailer 1 2 false, .removeHeader 1 2 false]).map fun s => s.bytes 0) = some [0, 0] ∧
    (((PState.init fun _ _ => 0).run [.user (.new 4 2 4), .user (.newFrom [9, 9]), .fromBuf 0, .copy 0,
      .addTrailer 1 2 false, .removeHeader 1 2 false, .addHeaderBuf 1 1 false]).map fun s => s.bytes 0) = some [9, 9] := by
  exact ⟨rfl, rfl⟩

/-! ### C20 -/

/-- Packet `i` gets headers and trailers, each of which is written and later removed again, in any nesting; meanwhile other
packets are worked with. -/
inductive Balanced (i : Nat) : PState → PState → Prop
  | nothing (s) : Balanced i s s
  | both {s s1 s2} : Balanced i s s1 → Balanced i s1 s2 → Balanced i s s2
  /-- anything that is not applied to the packet (and does not copy bytes into a packet) -/
  | other {s s1} (o : Op) : s.step o = some s1 → o.quiet = true → i ∉ o.targets → Balanced i s s1
  /-- `AddHeader(n)`, writes into the returned area, whatever is balanced, `RemoveHeader(n)` -/
  | header {s s1 s2 s3 s4} (n : Nat) (held held' : Bool) (ws : List (Nat × List Byte)) :
      s.step (.addHeader i n held) = some s1 → s1.run (writes (s1.bufs.bufs.length - 1) ws) = some s2 →
      Balanced i s2 s3 → s3.step (.removeHeader i n held') = some s4 → Balanced i s s4
  | trailer {s s1 s2 s3 s4} (n : Nat) (held held' : Bool) (ws : List (Nat × List Byte)) :
      s.step (.addTrailer i n held) = some s1 → s1.run (writes (s1.bufs.bufs.length - 1) ws) = some s2 →
      Balanced i s2 s3 → s3.step (.removeTrailer i n held') = some s4 → Balanced i s s4

/-- Size, bytes and the tags of every byte. -/
def Restored (s' s : PState) (i : Nat) : Prop :=
  s'.size i = s.size i ∧ s'.bytes i = s.bytes i ∧
    (∀ id off, off < s.size i → s'.byteTag i id off = s.byteTag i id off) ∧
    ∀ id off, off < s.size i → s'.packetTag i id off = s.packetTag i id off

/-- Adding, writing, anything that restores the packet, and removing. -/
theorem header_undo {i n : Nat} {held held' : Bool} {ws : List (Nat × List Byte)} {s s1 s2 s3 s4 : PState} (v : PInv s s.pkts)
    (h1 : s.step (.addHeader i n held) = some s1) (h2 : s1.run (writes (s1.bufs.bufs.length - 1) ws) = some s2)
    (ih : PInv s2 s2.pkts → i < s2.pkts.length → PInv s3 s3.pkts ∧ i < s3.pkts.length ∧ Restored s3 s2 i)
    (h4 : s3.step (.removeHeader i n held') = some s4) : PInv s4 s4.pkts ∧ i < s4.pkts.length ∧ Restored s4 s i := by
  have v1 := (step_ok v h1).inv
  obtain ⟨⟨pre, l1, l2⟩, t1, t2, _, b, x, c, f, c1, c2, c3, c4, c5, c6, c7, c8⟩ := addHeader_effect v h1
  obtain ⟨v2, m1, _, m2, m3, m4, m5⟩ := writes_ok (a := 0) ws v1 c1 c2 c3 c4 c5 (fun hn => by simpa using c6 hn)
    (by omega) h2
  obtain ⟨v3, l3, r1, r2, r3, r4⟩ := ih v2 (by rw [m5]; exact Tag.lt_of c1)
  have v4 := (step_ok v3 h4).inv
  obtain ⟨e1, e2, e3, e4⟩ := removeHeader_effect v3 h4
  have hb : s4.bytes i = s.bytes i := by
    rw [e2, r2, ← Nat.zero_add n, m2, l2, Nat.zero_add, ← l1, List.drop_left]
  have hs : s4.size i = s.size i := by rw [size_bytes v4, size_bytes v, hb]
  have hl : s2.size i = s.size i + n := by
    rw [size_bytes v2, m1, l2, List.length_append, l1, size_bytes v]; omega
  refine ⟨v4, ?_, hs, hb, fun id off ho => ?_, fun id off ho => ?_⟩
  · obtain ⟨_, _, _, _, _, _, k3, _, k5, _⟩ := removeHeader_ok v3 h4
    rw [k5.pkts]; simpa using l3
  · rw [e3, r3 id _ (by omega), m3, t1 id off ho]
  · rw [e4, r4 id _ (by omega), m4, t2 id off ho]

/-- Adding, writing, anything that restores the packet, and removing. -/
theorem trailer_undo {i n : Nat} {held held' : Bool} {ws : List (Nat × List Byte)} {s s1 s2 s3 s4 : PState} (v : PInv s s.pkts)
    (h1 : s.step (.addTrailer i n held) = some s1) (h2 : s1.run (writes (s1.bufs.bufs.length - 1) ws) = some s2)
    (ih : PInv s2 s2.pkts → i < s2.pkts.length → PInv s3 s3.pkts ∧ i < s3.pkts.length ∧ Restored s3 s2 i)
    (h4 : s3.step (.removeTrailer i n held') = some s4) : PInv s4 s4.pkts ∧ i < s4.pkts.length ∧ Restored s4 s i := by
  have v1 := (step_ok v h1).inv
  obtain ⟨⟨post, l1, l2⟩, t1, t2, _, b, x, c, f, c1, c2, c3, c4, c5, c6, c7, c8⟩ := addTrailer_effect v h1
  obtain ⟨v2, m1, m2, _, m3, m4, m5⟩ := writes_ok (a := s.size i) ws v1 c1 c2 c3 c4 c5 c6 (by omega) h2
  obtain ⟨v3, l3, r1, r2, r3, r4⟩ := ih v2 (by rw [m5]; exact Tag.lt_of c1)
  have v4 := (step_ok v3 h4).inv
  obtain ⟨e1, e2, e3, e4⟩ := removeTrailer_effect v3 h4
  have hl : s2.size i = s.size i + n := by
    rw [size_bytes v2, m1, l2, List.length_append, l1, size_bytes v]
  have hb : s4.bytes i = s.bytes i := by
    rw [e2, r2, ← size_bytes v2, hl, Nat.add_sub_cancel, m2, l2, size_bytes v, List.take_left]
  have hs : s4.size i = s.size i := by rw [size_bytes v4, size_bytes v, hb]
  refine ⟨v4, ?_, hs, hb, fun id off ho => ?_, fun id off ho => ?_⟩
  · obtain ⟨_, _, _, _, _, _, k3, _, k5, _⟩ := removeTrailer_ok v3 h4
    rw [k5.pkts]; simpa using l3
  · rw [e3, r3 id _ (by omega), m3, t1 id off ho]
  · rw [e4, r4 id _ (by omega), m4, t2 id off ho]

theorem balanced_ok {i : Nat} {s s' : PState} (h : Balanced i s s') :
    PInv s s.pkts → i < s.pkts.length → PInv s' s'.pkts ∧ i < s'.pkts.length ∧ Restored s' s i := by
  induction h with
  | nothing s => exact fun v hi => ⟨v, hi, rfl, rfl, fun _ _ _ => rfl, fun _ _ _ => rfl⟩
  | both h1 h2 ih1 ih2 =>
    intro v hi
    obtain ⟨v1, l1, a1, a2, a3, a4⟩ := ih1 v hi
    obtain ⟨v2, l2, b1, b2, b3, b4⟩ := ih2 v1 l1
    exact ⟨v2, l2, b1.trans a1, b2.trans a2, fun id off ho => (b3 id off (by omega)).trans (a3 id off ho),
      fun id off ho => (b4 id off (by omega)).trans (a4 id off ho)⟩
  | @other s s1 o h hq hn =>
    intro v hi
    have k := step_ok v h
    have hg := List.getElem?_eq_getElem hi
    have f := k.quiet hq i _ hg hn
    have sh := shows_of f.1 hg f.2
    exact ⟨k.inv, Tag.lt_of f.1, by rw [size_bytes k.inv, size_bytes v, sh.1], sh.1, fun id off _ => sh.2.1 id off,
      fun id off _ => sh.2.2 id off⟩
  | header n held held' ws h1 h2 h3 h4 ih => exact fun v _ => header_undo v h1 h2 ih h4
  | trailer n held held' ws h1 h2 h3 h4 ih => exact fun v _ => trailer_undo v h1 h2 ih h4

/-- C20.  Removing a header or trailer undoes adding it, whatever was written into it, to any depth of nesting, and whatever
happened to other packets in between short of storing bytes in them and of `CopyTagsFrom`: size, bytes, byte tags and packet tags are as before. -/
theorem C20_undo (s s' : PState) (hs : Reach s) (i : Nat) (hi : i < s.pkts.length) (h : Balanced i s s') :
    s'.size i = s.size i ∧ s'.bytes i = s.bytes i ∧
      (∀ id off, off < s.size i → s'.byteTag i id off = s.byteTag i id off) ∧
      ∀ id off, off < s.size i → s'.packetTag i id off = s.packetTag i id off :=
  (balanced_ok h (reach_inv hs) hi).2.2

theorem act_remove {s : PState} {P : List (Option Nat)} (v : PInv s P) {b n : Nat} {x : Body} (hx : s.body b = some x)
    (hn : n ≤ s.bufs.size x.buf) :
    (∃ s', act s (.removeStart x.buf n) (.removeStart x.bt n) (.removeStart x.pt n) = some s') ∧
    (∃ s', act s (.removeEnd x.buf n) (.removeEnd x.bt n) (.removeEnd x.pt n) = some s') := by
  have r := v.range b x hx
  have sy := v.sync b x hx
  have t1 := tag_room v.tb r.2.1 (n := n) (by omega)
  have t2 := tag_room v.tp r.2.2 (n := n) (by omega)
  constructor
  · obtain ⟨a, ha⟩ := Buf.step_ok v.bb (.removeStart x.buf n) r.1
    obtain ⟨b, hb, _⟩ := Tag.step_ok v.tb (.removeStart x.bt n) t1
    obtain ⟨c, hc, _⟩ := Tag.step_ok v.tp (.removeStart x.pt n) t2
    exact ⟨_, by unfold act; rw [ha.step, hb, hc]⟩
  · obtain ⟨a, ha⟩ := Buf.step_ok v.bb (.removeEnd x.buf n) r.1
    obtain ⟨b, hb, _⟩ := Tag.step_ok v.tb (.removeEnd x.bt n) t1
    obtain ⟨c, hc, _⟩ := Tag.step_ok v.tp (.removeEnd x.pt n) t2
    exact ⟨_, by unfold act; rw [ha.step, hb, hc]⟩

/-- C20: headers and trailers of any size can be added, and up to `GetSize()` bytes removed, in every state. -/
theorem C20_defined (s : PState) (hs : Reach s) (i : Nat) (hi : i < s.pkts.length) (n : Nat) (held : Bool) :
    (∃ s', s.step (.addHeader i n held) = some s') ∧ (∃ s', s.step (.addTrailer i n held) = some s') ∧
      (n ≤ s.size i → (∃ s', s.step (.removeHeader i n held) = some s') ∧ ∃ s', s.step (.removeTrailer i n held) = some s') := by
  have v := reach_inv hs
  obtain ⟨s1, x, p, b, h1, h2, pr⟩ := makePrivate_some v hi held
  have r := pr.inv.range b x pr.body
  have sz := (priv_parts (v.perm (perm_pkts h2)) h2 pr).2.1
  refine ⟨?_, ?_, fun hn => ?_⟩
  · obtain ⟨a, ha⟩ := Buf.step_ok pr.inv.bb (.addStart x.buf n) r.1
    obtain ⟨b', hb, _⟩ := Tag.step_ok pr.inv.tb (.addStart x.bt n) (Tag.view_lt.mpr r.2.1)
    obtain ⟨c, hc, _⟩ := Tag.step_ok pr.inv.tp (.addStart x.pt n) (Tag.view_lt.mpr r.2.2)
    have hz := bsize_addStart pr.inv.bb ha.step
    have hk := (buf_step pr.inv.bb ha.step)
    obtain ⟨f, hf⟩ := Buf.step_ok hk.base (.fragment x.buf 0 n) ⟨Nat.lt_of_lt_of_le r.1 hk.le, by omega⟩
    exact ⟨{ s1 with bufs := f, bt := b', pt := c }, by
      simp only [PState.step, addHeader, h1, act, ha.step, hb, hc, PState.onBuf, hf.step]; rfl⟩
  · obtain ⟨a, ha⟩ := Buf.step_ok pr.inv.bb (.addEnd x.buf n) r.1
    obtain ⟨b', hb, _⟩ := Tag.step_ok pr.inv.tb (.addEnd x.bt n) (Tag.view_lt.mpr r.2.1)
    obtain ⟨c, hc, _⟩ := Tag.step_ok pr.inv.tp (.addEnd x.pt n) (Tag.view_lt.mpr r.2.2)
    have hz := bsize_addEnd pr.inv.bb ha.step
    have hk := (buf_step pr.inv.bb ha.step)
    obtain ⟨f, hf⟩ := Buf.step_ok hk.base (.fragment x.buf (a.size x.buf - n) n) ⟨Nat.lt_of_lt_of_le r.1 hk.le, by omega⟩
    exact ⟨{ s1 with bufs := f, bt := b', pt := c }, by
      simp only [PState.step, addTrailer, h1, act, ha.step, hb, hc, PState.onBuf, hf.step]; rfl⟩
  · obtain ⟨⟨a, ha⟩, ⟨c, hc⟩⟩ := act_remove pr.inv pr.body (n := n) (by omega)
    exact ⟨⟨a, by simp only [PState.step, removeHeader, h1]; exact ha⟩,
      ⟨c, by simp only [PState.step, removeTrailer, h1]; exact hc⟩⟩

/-- A case: a packet that shares its body gets a trailer inside a header, both written, then both are removed. -/
example : (((PState.init fun _ _ => 0xcc).run (shared ++ [.addHeader 1 2 false, .user (.write 4 0 [1, 2]), .addTrailer 1 1 false,
    .user (.write 5 0 [3])])).map fun s => (s.bytes 1, s.byteTag 1 7 3)) = some ([1, 2, 0, 0, 0, 3], some 70) ∧
    (((PState.init fun _ _ => 0xcc).run (shared ++ [.addHeader 1 2 false, .user (.write 4 0 [1, 2]), .addTrailer 1 1 false,
    .user (.write 5 0 [3]), .removeTrailer 1 1 false, .removeHeader 1 2 false])).map fun s => (s.bytes 1, s.byteTag 1 7 1)) =
    some ([0, 0, 0], some 70) := ⟨rfl, rfl⟩

/-! ### C85: what the operations do to the bytes and tags of the packet -/

/-- C85: `AddHeader(size)` and `AddTrailer(size)` add exactly that many bytes, the returned buffer reads as the added bytes, and
all other bytes keep their values and tags. -/
theorem C85_add_size (s s' : PState) (hs : Reach s) (i n : Nat) (held : Bool) :
    (s.step (.addHeader i n held) = some s' → (∃ pre, pre.length = n ∧ s'.bytes i = pre ++ s.bytes i ∧
        s'.bufs.bytes (s'.bufs.bufs.length - 1) = pre) ∧
      ∀ id off, off < s.size i → s'.byteTag i id (off + n) = s.byteTag i id off ∧
        s'.packetTag i id (off + n) = s.packetTag i id off) ∧
    (s.step (.addTrailer i n held) = some s' → (∃ post, post.length = n ∧ s'.bytes i = s.bytes i ++ post ∧
        s'.bufs.bytes (s'.bufs.bufs.length - 1) = post) ∧
      ∀ id off, off < s.size i → s'.byteTag i id off = s.byteTag i id off ∧
        s'.packetTag i id off = s.packetTag i id off) := by
  have v := reach_inv hs
  refine ⟨fun h => ?_, fun h => ?_⟩
  · obtain ⟨⟨pre, l1, l2⟩, t1, t2, e, _⟩ := addHeader_effect v h
    exact ⟨⟨pre, l1, l2, by rw [e, l2, ← l1, List.take_left]⟩, fun id off ho => ⟨t1 id off ho, t2 id off ho⟩⟩
  · obtain ⟨⟨post, l1, l2⟩, t1, t2, e, _⟩ := addTrailer_effect v h
    exact ⟨⟨post, l1, l2, by rw [e, l2, size_bytes v, List.drop_left]⟩, fun id off ho => ⟨t1 id off ho, t2 id off ho⟩⟩

/-- C85: `RemoveHeader` and `RemoveTrailer` drop exactly that many bytes; the remaining bytes keep their tags. -/
theorem C85_remove (s s' : PState) (hs : Reach s) (i n : Nat) (held : Bool) :
    (s.step (.removeHeader i n held) = some s' → n ≤ s.size i ∧ s'.bytes i = (s.bytes i).drop n ∧
      ∀ id off, s'.byteTag i id off = s.byteTag i id (off + n) ∧ s'.packetTag i id off = s.packetTag i id (off + n)) ∧
    (s.step (.removeTrailer i n held) = some s' → n ≤ s.size i ∧ s'.bytes i = (s.bytes i).take (s.size i - n) ∧
      ∀ id off, s'.byteTag i id off = s.byteTag i id off ∧ s'.packetTag i id off = s.packetTag i id off) := by
  have v := reach_inv hs
  refine ⟨fun h => ?_, fun h => ?_⟩
  · obtain ⟨e1, e2, e3, e4⟩ := removeHeader_effect v h
    exact ⟨e1, e2, fun id off => ⟨e3 id off, e4 id off⟩⟩
  · obtain ⟨e1, e2, e3, e4⟩ := removeTrailer_effect v h
    exact ⟨e1, by rw [size_bytes v]; exact e2, fun id off => ⟨e3 id off, e4 id off⟩⟩

/-- C85: `AddHeader(buffer)` and `AddTrailer(buffer)`. -/
theorem C85_add_buffer (s s' : PState) (hs : Reach s) (i j : Nat) (hj : j < s.bufs.bufs.length) (held : Bool) :
    (s.step (.addHeaderBuf i j held) = some s' → s'.bytes i = s.bufs.bytes j ++ s.bytes i ∧
      ∀ id off, off < s.size i → s'.byteTag i id (off + s.bufs.size j) = s.byteTag i id off ∧
        s'.packetTag i id (off + s.bufs.size j) = s.packetTag i id off) ∧
    (s.step (.addTrailerBuf i j held) = some s' → s'.bytes i = s.bytes i ++ s.bufs.bytes j ∧
      ∀ id off, off < s.size i → s'.byteTag i id off = s.byteTag i id off ∧
        s'.packetTag i id off = s.packetTag i id off) := by
  have v := reach_inv hs
  refine ⟨fun h => ?_, fun h => ?_⟩
  · simp only [PState.step] at h
    split at h
    · rename_i hf
      split at h
      · cases h
      · rename_i s1 x e
        obtain ⟨p1, p2, p3⟩ := act_parts h
        obtain ⟨p0, b, g1, g2, g3, _, _, _, _, _⟩ := own_run v e h rfl rfl rfl (by
          intro P b v hx
          rw [tsize_addStart v.tb p2, tsize_addStart v.tp p3, bsize_addStartBuf v.bb (v.range b x hx).1 p1]
          have := v.sync b x hx
          omega)
        have a := priv_parts (v.perm (perm_pkts g1)) g1 g2
        have q := own_parts g1 g3
        have sy := g2.inv.sync b x g2.body
        have hn : x.buf ≠ j := by
          rcases (makePrivate_parts v e).1 with ⟨h, _⟩ | ⟨_, c, _, hc⟩
          · omega
          · exact free_ne v hf hc
        have hsz : s1.bufs.size j = s.bufs.size j := by simp [Buf.State.size, (g2.bufs.2 j hj).2]
        have ef := buf_effect g2.inv.bb p1 (show x.buf < s1.bufs.bufs.length from (g2.inv.range b x g2.body).1)
        have k2 := (Tag.resize_of _ _ g2.inv.tb x.bt _).1 p2
        have k3 := (Tag.resize_of _ _ g2.inv.tp x.pt _).1 p3
        refine ⟨by rw [q.bytes, ef.2.1 hn, (g2.bufs.2 j hj).1, a.1], fun id off ho => ⟨?_, ?_⟩⟩
        · rw [q.bt, a.2.2.1, ← hsz, k2.2 off (by rw [sy.1, ← a.2.1]; exact ho)]
        · rw [q.pt, a.2.2.2, ← hsz, k3.2 off (by rw [sy.2, ← a.2.1]; exact ho)]
    · cases h
  · simp only [PState.step] at h
    split at h
    · rename_i hf
      split at h
      · cases h
      · rename_i s1 x e
        obtain ⟨p1, p2, p3⟩ := act_parts h
        obtain ⟨p0, b, g1, g2, g3, _, _, _, _, _⟩ := own_run v e h rfl rfl rfl (by
          intro P b v hx
          rw [tsize_addEnd v.tb p2, tsize_addEnd v.tp p3, bsize_addEndBuf v.bb (v.range b x hx).1 p1]
          have := v.sync b x hx
          omega)
        have a := priv_parts (v.perm (perm_pkts g1)) g1 g2
        have q := own_parts g1 g3
        have sy := g2.inv.sync b x g2.body
        have ef := buf_effect g2.inv.bb p1 (show x.buf < s1.bufs.bufs.length from (g2.inv.range b x g2.body).1)
        have k2 := (Tag.resize_of _ _ g2.inv.tb x.bt _).2.1 p2
        have k3 := (Tag.resize_of _ _ g2.inv.tp x.pt _).2.1 p3
        refine ⟨by rw [q.bytes, ef.2, (g2.bufs.2 j hj).1, a.1], fun id off ho => ⟨?_, ?_⟩⟩
        · rw [q.bt, a.2.2.1, k2.2 off (by rw [sy.1, ← a.2.1]; exact ho)]
        · rw [q.pt, a.2.2.2, k3.2 off (by rw [sy.2, ← a.2.1]; exact ho)]
    · cases h

/-- C85: `AddHeader(packet)` and `AddTrailer(packet)` concatenate the bytes, also when a packet is added to itself; the tags of
the packet stay with its bytes and win over those of the added packet, and every tagged byte of the added packet is tagged with
the same id in the result. -/
theorem C85_add_packet (s s' : PState) (hs : Reach s) (i j : Nat) (held : Bool) :
    (s.step (.addHeaderPkt i j held) = some s' → s'.bytes i = s.bytes j ++ s.bytes i ∧
      (∀ id off v, off < s.size i → s.byteTag i id off = some v → s'.byteTag i id (s.size j + off) = some v) ∧
      (∀ id off v, off < s.size i → s.packetTag i id off = some v → s'.packetTag i id (s.size j + off) = some v) ∧
      (∀ id off, off < s.size j → (s.byteTag j id off).isSome → (s'.byteTag i id off).isSome) ∧
      (∀ id off, off < s.size j → (s.packetTag j id off).isSome → (s'.packetTag i id off).isSome)) ∧
    (s.step (.addTrailerPkt i j held) = some s' → s'.bytes i = s.bytes i ++ s.bytes j ∧
      (∀ id off v, off < s.size i → s.byteTag i id off = some v → s'.byteTag i id off = some v) ∧
      (∀ id off v, off < s.size i → s.packetTag i id off = some v → s'.packetTag i id off = some v) ∧
      (∀ id off, off < s.size j → (s.byteTag j id off).isSome → (s'.byteTag i id (s.size i + off)).isSome) ∧
      (∀ id off, off < s.size j → (s.packetTag j id off).isSome → (s'.packetTag i id (s.size i + off)).isSome)) := by
  have v := reach_inv hs
  have empty : s.pkts[j]? = some none → s.bytes j = [] ∧ s.size j = 0 := by
    intro h
    have : s.bytes j = [] := by simp [PState.bytes, h]
    exact ⟨this, by rw [size_bytes v, this]; rfl⟩
  refine ⟨fun h => ?_, fun h => ?_⟩
  · simp only [PState.step] at h
    split at h
    · cases h
    · rename_i hc
      cases h
      obtain ⟨e1, e2⟩ := empty hc
      simp only [e1, e2, List.nil_append, Nat.zero_add]
      exact ⟨trivial, fun _ _ _ _ h => h, fun _ _ _ _ h => h, fun _ _ h => by omega, fun _ _ h => by omega⟩
    · rename_i c hc
      split at h
      · rename_i y s1 x hy e
        have pj := parts_of hc hy
        have ry := v.range c y hy
        have hne := private_ne v e hy
        obtain ⟨_, mp2, mp3⟩ := makePrivate_parts v e
        have gb : ∀ id off, s1.bt.get y.bt id off = s.byteTag j id off := fun id off => by
          rw [pj.bt, tag_get, tag_get, mp2 _ ry.2.1]
        have gp : ∀ id off, s1.pt.get y.pt id off = s.packetTag j id off := fun id off => by
          rw [pj.pt, tag_get, tag_get, mp3 _ ry.2.2]
        have sj := v.sync c y hy
        have szb : s1.bt.size y.bt = s.size j := by
          rw [pj.size, ← sj.1]
          have h1 := List.getElem?_eq_getElem (Tag.view_lt.mpr ry.2.1)
          rw [tsize_of h1, tsize_of ((mp2 _ ry.2.1).trans h1)]
        have szp : s1.pt.size y.pt = s.size j := by
          rw [pj.size, ← sj.2]
          have h1 := List.getElem?_eq_getElem (Tag.view_lt.mpr ry.2.2)
          rw [tsize_of h1, tsize_of ((mp3 _ ry.2.2).trans h1)]
        obtain ⟨p1, p2, p3⟩ := act_parts h
        have szbuf : ∀ (h : s1.bufs.bufs[y.buf]? = s.bufs.bufs[y.buf]?), s1.bufs.size y.buf = s.size j := by
          intro h; rw [pj.size]; simp [Buf.State.size, h]
        obtain ⟨p0, b, g1, g2, g3, _, _, _, g4, g5⟩ := own_run v e h rfl rfl rfl (by
          intro P b v1 hx
          rw [tsize_addListStart v1.tb p2, tsize_addListStart v1.tp p3, bsize_addStartBuf v1.bb (v1.range b x hx).1 p1]
          have h1 := v1.sync b x hx
          cases hp0 : s.pkts[i]? with
          | none => simp [makePrivate, hp0] at e
          | some p0 =>
            obtain ⟨b', pr⟩ := makePrivate_ok (v.perm (perm_pkts hp0)) hp0 e
            have := szbuf (pr.bufs.2 _ ry.1).2
            omega)
        have a := priv_parts (v.perm (perm_pkts g1)) g1 g2
        have q := own_parts g1 g3
        have sy := g2.inv.sync b x g2.body
        have ef := buf_effect g2.inv.bb p1 (show x.buf < s1.bufs.bufs.length from (g2.inv.range b x g2.body).1)
        have k2 := (Tag.no_loss_of _ _ g2.inv.tb x.bt y.bt).1 p2
        have k3 := (Tag.no_loss_of _ _ g2.inv.tp x.pt y.pt).1 p3
        refine ⟨by rw [q.bytes, ef.2.1 hne.1, (g2.bufs.2 _ ry.1).1, a.1, pj.bytes], ?_, ?_, ?_, ?_⟩
        · intro id off w ho hw
          rw [q.bt, ← szb]
          exact k2.2.1 off id w (by rw [sy.1, ← a.2.1]; exact ho) (by rw [← a.2.2.1]; exact hw)
        · intro id off w ho hw
          rw [q.pt, ← szp]
          exact k3.2.1 off id w (by rw [sy.2, ← a.2.1]; exact ho) (by rw [← a.2.2.2]; exact hw)
        · intro id off ho hw
          rw [q.bt]
          exact k2.2.2 off id (by rw [szb]; exact ho) (by rw [gb]; exact hw)
        · intro id off ho hw
          rw [q.pt]
          exact k3.2.2 off id (by rw [szp]; exact ho) (by rw [gp]; exact hw)
      · cases h
  · simp only [PState.step] at h
    split at h
    · cases h
    · rename_i hc
      cases h
      obtain ⟨e1, e2⟩ := empty hc
      simp only [e1, e2, List.append_nil]
      exact ⟨trivial, fun _ _ _ _ h => h, fun _ _ _ _ h => h, fun _ _ h => by omega, fun _ _ h => by omega⟩
    · rename_i c hc
      split at h
      · rename_i y s1 x hy e
        have pj := parts_of hc hy
        have ry := v.range c y hy
        obtain ⟨_, mp2, mp3⟩ := makePrivate_parts v e
        have gb : ∀ id off, s1.bt.get y.bt id off = s.byteTag j id off := fun id off => by
          rw [pj.bt, tag_get, tag_get, mp2 _ ry.2.1]
        have gp : ∀ id off, s1.pt.get y.pt id off = s.packetTag j id off := fun id off => by
          rw [pj.pt, tag_get, tag_get, mp3 _ ry.2.2]
        have sj := v.sync c y hy
        have szb : s1.bt.size y.bt = s.size j := by
          rw [pj.size, ← sj.1]
          have h1 := List.getElem?_eq_getElem (Tag.view_lt.mpr ry.2.1)
          rw [tsize_of h1, tsize_of ((mp2 _ ry.2.1).trans h1)]
        have szp : s1.pt.size y.pt = s.size j := by
          rw [pj.size, ← sj.2]
          have h1 := List.getElem?_eq_getElem (Tag.view_lt.mpr ry.2.2)
          rw [tsize_of h1, tsize_of ((mp3 _ ry.2.2).trans h1)]
        obtain ⟨p1, p2, p3⟩ := act_parts h
        have szbuf : ∀ (h : s1.bufs.bufs[y.buf]? = s.bufs.bufs[y.buf]?), s1.bufs.size y.buf = s.size j := by
          intro h; rw [pj.size]; simp [Buf.State.size, h]
        obtain ⟨p0, b, g1, g2, g3, _, _, _, g4, g5⟩ := own_run v e h rfl rfl rfl (by
          intro P b v1 hx
          rw [tsize_addListEnd v1.tb p2, tsize_addListEnd v1.tp p3, bsize_addEndBuf v1.bb (v1.range b x hx).1 p1]
          have h1 := v1.sync b x hx
          cases hp0 : s.pkts[i]? with
          | none => simp [makePrivate, hp0] at e
          | some p0 =>
            obtain ⟨b', pr⟩ := makePrivate_ok (v.perm (perm_pkts hp0)) hp0 e
            have := szbuf (pr.bufs.2 _ ry.1).2
            omega)
        have a := priv_parts (v.perm (perm_pkts g1)) g1 g2
        have q := own_parts g1 g3
        have sy := g2.inv.sync b x g2.body
        have ef := buf_effect g2.inv.bb p1 (show x.buf < s1.bufs.bufs.length from (g2.inv.range b x g2.body).1)
        have k2 := (Tag.no_loss_of _ _ g2.inv.tb x.bt y.bt).2 p2
        have k3 := (Tag.no_loss_of _ _ g2.inv.tp x.pt y.pt).2 p3
        refine ⟨by rw [q.bytes, ef.2, (g2.bufs.2 _ ry.1).1, a.1, pj.bytes], ?_, ?_, ?_, ?_⟩
        · intro id off w ho hw
          rw [q.bt]
          exact k2.2.1 off id w (by rw [sy.1, ← a.2.1]; exact ho) (by rw [← a.2.2.1]; exact hw)
        · intro id off w ho hw
          rw [q.pt]
          exact k3.2.1 off id w (by rw [sy.2, ← a.2.1]; exact ho) (by rw [← a.2.2.2]; exact hw)
        · intro id off ho hw
          rw [q.bt, a.2.1, ← sy.1]
          exact k2.2.2 off id (by rw [szb]; exact ho) (by rw [gb]; exact hw)
        · intro id off ho hw
          rw [q.pt, a.2.1, ← sy.2]
          exact k3.2.2 off id (by rw [szp]; exact ho) (by rw [gp]; exact hw)
      · cases h

/-- C85: `MakeFragment(start, size)` is the packet of the bytes `[start, start + size)` with their tags. -/
theorem C85_fragment (s s' : PState) (hs : Reach s) (j start size : Nat) (h : s.step (.fragment j start size) = some s') :
    start + size ≤ s.size j ∧ s'.pkts.length = s.pkts.length + 1 ∧
      s'.bytes s.pkts.length = ((s.bytes j).drop start).take size ∧
      ∀ id off, s'.byteTag s.pkts.length id off = s.byteTag j id (off + start) ∧
        s'.packetTag s.pkts.length id off = s.packetTag j id (off + start) := by
  have v := reach_inv hs
  simp only [PState.step] at h
  split at h
  · cases h
  · rename_i p hp
    split at h
    · cases h
    · rename_i s1 e1
      obtain ⟨g1, g2, g3, g4⟩ := push_ok v e1
      have hl : s1.pkts.length = s.pkts.length := by rw [(addRef_ok v e1).2.2.1]
      split at h
      · cases h
      · rename_i s2 e2
        have k1 := removeHeader_effect g1 e2
        obtain ⟨_, _, _, _, _, _, _, _, r1, _, _⟩ := removeHeader_ok g1 e2
        split at h
        · rename_i hsz
          have k2 := removeTrailer_effect r1.inv h
          obtain ⟨_, _, _, _, _, _, _, _, u1, _, _⟩ := removeTrailer_ok r1.inv h
          rw [hl] at k1 k2 hsz
          have sh : Shows { s1 with pkts := s1.pkts ++ [p] } s.pkts.length s j :=
            shows_of (p := p) (by show (s1.pkts ++ [p])[_]? = _; rw [← hl]; simp) hp (g3 p)
          have z1 := size_bytes g1 s.pkts.length
          rw [sh.1, ← size_bytes v] at z1
          have z2 := size_bytes r1.inv s.pkts.length
          rw [k1.2.1, sh.1, List.length_drop, ← size_bytes v] at z2
          refine ⟨by omega, ?_, ?_, fun id off => ⟨?_, ?_⟩⟩
          · rw [u1.pkts, r1.pkts]; simp [hl]
          · rw [k2.2.1, ← size_bytes r1.inv, k1.2.1, sh.1]
            congr 1; omega
          · rw [k2.2.2.1, k1.2.2.1, sh.2.1]
          · rw [k2.2.2.2, k1.2.2.2, sh.2.2]
        · cases h

/-- A case: a packet of three bytes with a tagged byte is added to itself, and a fragment of the result taken. -/
example : (((PState.init fun _ _ => 0).run [.user (.newFrom [1, 2, 3]), .fromBuf 0, .addByteTag 0 7 70 1 1 false,
    .addHeaderPkt 0 0 false, .fragment 0 2 3]).map fun s => (s.bytes 0, s.byteTag 0 7 1, s.byteTag 0 7 4, s.bytes 1, s.byteTag 1 7 2)) =
    some ([1, 2, 3, 1, 2, 3], some 70, some 70, [3, 1, 2], some 70) := rfl

/-! ### C86: which operations are defined; tags -/

theorem addRef_some {s : PState} {P : List (Option Nat)} (v : PInv s P) {p : Option Nat} (hp : p ∈ P) :
    ∃ s', addRef s p = some s' := by
  cases p with
  | none => exact ⟨s, rfl⟩
  | some b => obtain ⟨x, hx⟩ := v.alive b hp; simp only [addRef, hx]; exact ⟨_, rfl⟩

theorem release_some {s : PState} {P : List (Option Nat)} {p : Option Nat} (v : PInv s (p :: P)) (held : Bool) :
    ∃ s', release s p held = some s' := by
  cases p with
  | none => exact ⟨s, rfl⟩
  | some b =>
    obtain ⟨x, hx⟩ := v.alive b List.mem_cons_self
    have r := v.range b x hx
    simp only [release, hx]
    split
    · obtain ⟨a, ha⟩ := Buf.step_ok v.bb (.destroy x.buf) r.1
      obtain ⟨b', hb, _⟩ := Tag.step_ok v.tb (.destroy x.bt) (Tag.view_lt.mpr r.2.1)
      obtain ⟨c, hc, _⟩ := Tag.step_ok v.tp (.destroy x.pt) (Tag.view_lt.mpr r.2.2)
      simp only [kill, act, ha.step, hb, hc]; exact ⟨_, rfl⟩
    · exact ⟨_, rfl⟩

/-- C86: copying, moving, assigning, swapping and destroying packets, and adding a packet to another one (or to itself), never go
wrong, whatever the history: no packet refers to a body that is gone. -/
theorem C86_defined (s : PState) (hs : Reach s) (i j : Nat) (hi : i < s.pkts.length) (hj : j < s.pkts.length) (held : Bool) :
    (∃ s', s.step (.copy j) = some s') ∧ (∃ s', s.step (.move j) = some s') ∧ (∃ s', s.step (.assign i j held) = some s') ∧
      (∃ s', s.step (.moveAssign i j held) = some s') ∧ (∃ s', s.step (.swap i j) = some s') ∧
      (∃ s', s.step (.destroy i held) = some s') ∧ (∃ s', s.step (.addHeaderPkt i j held) = some s') ∧
      ∃ s', s.step (.addTrailerPkt i j held) = some s' := by
  have v := reach_inv hs
  have ei := List.getElem?_eq_getElem hi
  have ej := List.getElem?_eq_getElem hj
  have vi := v.perm (perm_pkts ei)
  refine ⟨?_, ?_, ?_, ?_, ?_, ?_, ?_⟩
  · obtain ⟨s1, h⟩ := addRef_some v (List.getElem_mem hj)
    simp only [PState.step, ej, h]; exact ⟨_, rfl⟩
  · simp only [PState.step, ej]; exact ⟨_, rfl⟩
  · simp only [PState.step, ei, ej]
    split
    · exact ⟨_, rfl⟩
    · rename_i hne
      obtain ⟨s1, h⟩ := release_some vi held
      have hij : j ≠ i := by rintro rfl; exact hne rfl
      obtain ⟨s2, h2⟩ := addRef_some (release_ok vi h).1 (mem_rest ej hij)
      simp only [h, h2]; exact ⟨_, rfl⟩
  · simp only [PState.step, ei, ej]
    split
    · exact ⟨_, rfl⟩
    · obtain ⟨s1, h⟩ := release_some vi held
      simp only [h]; exact ⟨_, rfl⟩
  · simp only [PState.step, ei, ej]; exact ⟨_, rfl⟩
  · obtain ⟨s1, h⟩ := release_some vi held
    simp only [PState.step, ei, h]; exact ⟨_, rfl⟩
  · cases hc : s.pkts[j] with
    | none => rw [hc] at ej; simp only [PState.step, ej]; exact ⟨⟨_, rfl⟩, ⟨_, rfl⟩⟩
    | some c =>
      rw [hc] at ej
      obtain ⟨y, hy⟩ := v.alive c (List.mem_of_getElem? ej)
      obtain ⟨s1, x, p, b, h1, h2, pr⟩ := makePrivate_some v hi (held || decide (s.pkts[i]? = some (some c)))
      have r := pr.inv.range b x pr.body
      obtain ⟨y', hy', z1, z2, z3⟩ := pr.idx c y hy
      have r' := pr.inv.range c y' hy'
      rw [z1, z2, z3] at r'
      simp only [PState.step, ej, hy, h1]
      constructor
      · obtain ⟨a, ha⟩ := Buf.step_ok pr.inv.bb (.addStartBuf x.buf y.buf) ⟨r.1, r'.1⟩
        obtain ⟨b', hb, _⟩ := Tag.step_ok pr.inv.tb (.addListStart x.bt y.bt) ⟨Tag.view_lt.mpr r.2.1, Tag.view_lt.mpr r'.2.1⟩
        obtain ⟨c', hc, _⟩ := Tag.step_ok pr.inv.tp (.addListStart x.pt y.pt) ⟨Tag.view_lt.mpr r.2.2, Tag.view_lt.mpr r'.2.2⟩
        simp only [act, ha.step, hb, hc]; exact ⟨_, rfl⟩
      · obtain ⟨a, ha⟩ := Buf.step_ok pr.inv.bb (.addEndBuf x.buf y.buf) ⟨r.1, r'.1⟩
        obtain ⟨b', hb, _⟩ := Tag.step_ok pr.inv.tb (.addListEnd x.bt y.bt) ⟨Tag.view_lt.mpr r.2.1, Tag.view_lt.mpr r'.2.1⟩
        obtain ⟨c', hc, _⟩ := Tag.step_ok pr.inv.tp (.addListEnd x.pt y.pt) ⟨Tag.view_lt.mpr r.2.2, Tag.view_lt.mpr r'.2.2⟩
        simp only [act, ha.step, hb, hc]; exact ⟨_, rfl⟩

/-- C86: bytes can be removed exactly up to the size of the packet, and a range can be tagged exactly if it is nonempty and within
the packet; so the tag lists always track exactly the bytes of the packet. -/
theorem C86_bounds (s : PState) (hs : Reach s) (i : Nat) (hi : i < s.pkts.length) (held : Bool) :
    (∀ n, (∃ s', s.step (.removeHeader i n held) = some s') ↔ n ≤ s.size i) ∧
    (∀ n, (∃ s', s.step (.removeTrailer i n held) = some s') ↔ n ≤ s.size i) ∧
    (∀ id t start size, (∃ s', s.step (.addByteTag i id t start size held) = some s') ↔
      0 < size ∧ start + size ≤ s.size i) ∧
    (∀ id k start size, k < s.pkts.length → ((∃ s', s.step (.addPacketTag i id k start size held) = some s') ↔
      0 < size ∧ start + size ≤ s.size i)) := by
  have v := reach_inv hs
  refine ⟨fun n => ⟨fun ⟨s', h⟩ => (removeHeader_effect v h).1, fun h => ((C20_defined s hs i hi n held).2.2 h).1⟩,
    fun n => ⟨fun ⟨s', h⟩ => (removeTrailer_effect v h).1, fun h => ((C20_defined s hs i hi n held).2.2 h).2⟩, ?_, ?_⟩
  · intro id t start size
    obtain ⟨s1, x, p, b, h1, h2, pr⟩ := makePrivate_some v hi held
    have r := pr.inv.range b x pr.body
    have sy := pr.inv.sync b x pr.body
    have sz := (priv_parts (v.perm (perm_pkts h2)) h2 pr).2.1
    simp only [PState.step, h1, PState.onBt]
    constructor
    · rintro ⟨s', h⟩
      cases e : s1.bt.step (.insert x.bt id t start size) with
      | none => rw [e] at h; cases h
      | some a =>
        obtain ⟨q1, w, q2, q3⟩ := Tag.step_some_ok e
        have := tsize_of q2
        exact ⟨q1, by omega⟩
    · rintro ⟨q1, q2⟩
      obtain ⟨w, w1, w2⟩ := tag_room pr.inv.tb r.2.1 (n := start + size) (by omega)
      obtain ⟨a, ha, _⟩ := Tag.step_ok pr.inv.tb (.insert x.bt id t start size) ⟨q1, w, w1, by omega⟩
      rw [ha]; exact ⟨_, rfl⟩
  · intro id k start size hk
    have ek := List.getElem?_eq_getElem hk
    obtain ⟨s1, x, p, b, h1, h2, pr⟩ := makePrivate_some v hi (held || decide (s.pkts[i]? = some (s.pkts[k])))
    have r := pr.inv.range b x pr.body
    have sy := pr.inv.sync b x pr.body
    have sz := (priv_parts (v.perm (perm_pkts h2)) h2 pr).2.1
    simp only [PState.step, ek, h1, PState.onPt]
    constructor
    · rintro ⟨s', h⟩
      cases e : s1.pt.step (.insert x.pt id s.pkts[k] start size) with
      | none => rw [e] at h; cases h
      | some a =>
        obtain ⟨q1, w, q2, q3⟩ := Tag.step_some_ok e
        have := tsize_of q2
        exact ⟨q1, by omega⟩
    · rintro ⟨q1, q2⟩
      obtain ⟨w, w1, w2⟩ := tag_room pr.inv.tp r.2.2 (n := start + size) (by omega)
      obtain ⟨a, ha, _⟩ := Tag.step_ok pr.inv.tp (.insert x.pt id s.pkts[k] start size) ⟨q1, w, w1, by omega⟩
      rw [ha]; exact ⟨_, rfl⟩

/-- C86: adding a byte tag tags exactly the bytes of the range that do not yet have a tag of this id; bytes and packet tags stay. -/
theorem C86_byte_tag (s s' : PState) (hs : Reach s) (i id t start size : Nat) (held : Bool)
    (h : s.step (.addByteTag i id t start size held) = some s') :
    s'.bytes i = s.bytes i ∧ (∀ id' off, s'.packetTag i id' off = s.packetTag i id' off) ∧
      ∀ off, off < s.size i →
        (start ≤ off ∧ off < start + size →
          s'.byteTag i id off = some (match s.byteTag i id off with | some w => w | none => t)) ∧
        (¬ (start ≤ off ∧ off < start + size) → s'.byteTag i id off = s.byteTag i id off) ∧
        ∀ id', id' ≠ id → s'.byteTag i id' off = s.byteTag i id' off := by
  have v := reach_inv hs
  simp only [PState.step] at h
  split at h
  · cases h
  · rename_i s1 x e
    have hx : ∃ P b, PInv s1 P ∧ s1.body b = some x := by
      cases hp0 : s.pkts[i]? with
      | none => simp [makePrivate, hp0] at e
      | some p0 =>
        obtain ⟨b, pr⟩ := makePrivate_ok (v.perm (perm_pkts hp0)) hp0 e
        exact ⟨_, b, pr.inv, pr.body⟩
    obtain ⟨P1, b1, v1, hb1⟩ := hx
    have r1 := v1.range b1 x hb1
    have h' := on_act_bt v1 hb1 h
    obtain ⟨p1, p2, p3⟩ := act_parts h'
    rw [buf_noop r1.1] at p1; rw [tag_noop v1.tp r1.2.2] at p3
    have hb := (Option.some.inj p1).symm
    have hp := (Option.some.inj p3).symm
    obtain ⟨p0, b, g1, g2, g3, _, _, _, g4, g5⟩ := own_run v e h' rfl rfl rfl (by
      intro P b v hx
      have k := (Tag.insert_of _ _ v.tb _ _ _ _ _ p2).1
      have := v.sync b x hx
      rw [hb, hp, k]; exact this)
    have a := priv_parts (v.perm (perm_pkts g1)) g1 g2
    have q := own_parts g1 g3
    have sy := g2.inv.sync b x g2.body
    have k := (Tag.insert_of _ _ v1.tb _ _ _ _ _ p2).2
    refine ⟨by rw [q.bytes, a.1, hb], fun id' off => by rw [q.pt, a.2.2.2, hp], fun off ho => ?_⟩
    have kk := k off (by rw [sy.1, ← a.2.1]; exact ho)
    refine ⟨fun hr => ?_, fun hr => ?_, fun id' hne => ?_⟩
    · rw [q.bt, kk.1 hr, a.2.2.1]
      cases s1.bt.get x.bt id off <;> rfl
    · rw [q.bt, kk.2.1 hr, a.2.2.1]
    · rw [q.bt, kk.2.2 id' hne, a.2.2.1]

example : (((PState.init fun _ _ => 0).run [.user (.newFrom [1, 2, 3]), .fromBuf 0, .copy 0, .addByteTag 0 7 70 1 2 false,
    .destroy 1 false, .addByteTag 0 7 71 0 3 false]).map fun s => (s.byteTag 0 7 0, s.byteTag 0 7 1, s.byteTag 0 7 2)) =
    some (some 71, some 70, some 70) := rfl

end Verif.Packet
