import Verif.Packet.Step

/-! What an operation does to the packet it is applied to. -/
set_option linter.unusedSimpArgs false
set_option linter.unusedVariables false
namespace Verif.Packet

/-- What packet `i` shows, in terms of the parts of its body. -/
structure Parts (s : PState) (i : Nat) (x : Body) : Prop where
  bytes : s.bytes i = s.bufs.bytes x.buf
  size : s.size i = s.bufs.size x.buf
  bt : ∀ id off, s.byteTag i id off = s.bt.get x.bt id off
  pt : ∀ id off, s.packetTag i id off = s.pt.get x.pt id off

theorem parts_of {s : PState} {i b : Nat} {x : Body} (h : s.pkts[i]? = some (some b)) (hx : s.body b = some x) : Parts s i x :=
  ⟨by simp [PState.bytes, h, hx], by simp [PState.size, h, hx], fun _ _ => by simp [PState.byteTag, h, hx],
    fun _ _ => by simp [PState.packetTag, h, hx]⟩

theorem size_bytes {s : PState} {P : List (Option Nat)} (v : PInv s P) (i : Nat) : s.size i = (s.bytes i).length := by
  unfold PState.size PState.bytes
  cases h : s.pkts[i]? with
  | none => rfl
  | some p =>
    cases p with
    | none => rfl
    | some b =>
      dsimp only
      cases hb : s.body b with
      | none => rfl
      | some x => exact Buf.size_eq_length v.bb x.buf

/-- `MakePrivate` does not change what the packet shows. -/
theorem priv_parts {s s1 : PState} {P : List (Option Nat)} {p : Option Nat} {i b : Nat} {x : Body} (v : PInv s (p :: P))
    (hp : s.pkts[i]? = some p) (pr : Priv s s1 P p i b x) :
    s.bytes i = s1.bufs.bytes x.buf ∧ s.size i = s1.bufs.size x.buf ∧
      (∀ id off, s.byteTag i id off = s1.bt.get x.bt id off) ∧
      ∀ id off, s.packetTag i id off = s1.pt.get x.pt id off := by
  have hi : s1.pkts[i]? = some (some b) := by rw [pr.pkts]; simp [Tag.lt_of hp]
  have q := parts_of hi pr.body
  obtain ⟨a1, a2, a3⟩ := obs_view hp
  obtain ⟨b1, b2, b3⟩ := obs_view hi
  rw [pr.view] at b1 b2 b3
  have e : s.bytes i = s1.bytes i := by rw [a1, b1]
  refine ⟨by rw [e, q.bytes], ?_, fun id off => by rw [a2, ← b2, q.bt], fun id off => by rw [a3, ← b3, q.pt]⟩
  rw [size_bytes v, e, ← q.size, size_bytes pr.inv]

theorem own_parts {s s' : PState} {i b : Nat} {p : Option Nat} {x : Body} (hp : s.pkts[i]? = some p) (o : Own s s' i b x) :
    Parts s' i x := parts_of (by rw [o.pkts]; simp [Tag.lt_of hp]) o.body

section
variable {s s' : PState} {i n : Nat} {held : Bool}

theorem removeHeader_effect (v : PInv s s.pkts) (h : removeHeader s i n held = some s') :
    n ≤ s.size i ∧ s'.bytes i = (s.bytes i).drop n ∧ (∀ id off, s'.byteTag i id off = s.byteTag i id (off + n)) ∧
      (∀ id off, s'.packetTag i id off = s.packetTag i id (off + n)) := by
  obtain ⟨s1, p0, b, x, h1, h2, h3, h4, h5, _, _⟩ := removeHeader_ok v h
  have a := priv_parts (v.perm (perm_pkts h3)) h3 h4
  have q := own_parts h3 h5
  obtain ⟨e1, e2, e3⟩ := act_parts h2
  have k2 := ((Tag.resize_of _ _ h4.inv.tb x.bt n).2.2.1 e2)
  have k3 := ((Tag.resize_of _ _ h4.inv.tp x.pt n).2.2.1 e3)
  have sy := h4.inv.sync b x h4.body
  refine ⟨by rw [a.2.1]; omega, by rw [q.bytes, a.1, (buf_effect h4.inv.bb e1 trivial).2], fun id off => ?_, fun id off => ?_⟩
  · rw [q.bt, a.2.2.1, k2.2]
  · rw [q.pt, a.2.2.2, k3.2]

theorem removeTrailer_effect (v : PInv s s.pkts) (h : removeTrailer s i n held = some s') :
    n ≤ s.size i ∧ s'.bytes i = (s.bytes i).take ((s.bytes i).length - n) ∧
      (∀ id off, s'.byteTag i id off = s.byteTag i id off) ∧
      (∀ id off, s'.packetTag i id off = s.packetTag i id off) := by
  obtain ⟨s1, p0, b, x, h1, h2, h3, h4, h5, _, _⟩ := removeTrailer_ok v h
  have a := priv_parts (v.perm (perm_pkts h3)) h3 h4
  have q := own_parts h3 h5
  obtain ⟨e1, e2, e3⟩ := act_parts h2
  have k2 := ((Tag.resize_of _ _ h4.inv.tb x.bt n).2.2.2 e2)
  have k3 := ((Tag.resize_of _ _ h4.inv.tp x.pt n).2.2.2 e3)
  have sy := h4.inv.sync b x h4.body
  refine ⟨by rw [a.2.1]; omega, by rw [q.bytes, a.1, (buf_effect h4.inv.bb e1 trivial).2], fun id off => ?_, fun id off => ?_⟩
  · rw [q.bt, a.2.2.1, k2.2]
  · rw [q.pt, a.2.2.2, k3.2]

/-- The fragment made of a buffer uses the same storage, at the given place. -/
theorem fragment_seg {t t' : Buf.State} (hb : Buf.Base t.mem t.bufs) {j a n : Nat} (h : t.step (.fragment j a n) = some t') :
    ∃ b f, t.bufs[j]? = some b ∧ t'.bufs = t.bufs ++ [f] ∧ a + n ≤ b.hi - b.lo ∧
      (0 < n → f.st = b.st ∧ f.lo = b.lo + a ∧ f.hi = b.lo + a + n) ∧ (n = 0 → f = Buf.Seg.null) := by
  have hok := Buf.step_some_ok hb h trivial
  obtain ⟨hj, hsz⟩ := hok
  obtain ⟨b, hbj⟩ := Buf.get_of_lt hj
  rw [Buf.size_of hbj] at hsz
  simp only [Buf.State.step, hbj] at h
  have hc : a ≤ b.hi - b.lo ∧ n ≤ (b.hi - b.lo) - a := by omega
  simp only [Buf.makeFragment, if_pos hc] at h
  by_cases hn : n = 0
  · rw [if_pos hn] at h
    cases h
    exact ⟨b, Buf.Seg.null, hbj, rfl, hsz, fun h => by omega, fun _ => rfl⟩
  · rw [if_neg hn] at h
    cases hst : b.st with
    | none => rw [hst] at h; cases h
    | some id =>
      rw [hst] at h; dsimp only at h
      cases h1 : t.mem.addRef id with
      | none => rw [h1] at h; cases h
      | some m1 =>
        rw [h1] at h; dsimp only at h
        cases h2 : m1.mem id with
        | none => rw [h2] at h; cases h
        | some y =>
          rw [h2] at h; dsimp only at h
          split at h
          · cases h3 : m1.dirty id (b.lo + a) (b.lo + a + n) with
            | none => rw [h3] at h; cases h
            | some m2 =>
              rw [h3] at h; cases h
              exact ⟨b, ⟨some id, b.lo + a, b.lo + a + n⟩, hbj, rfl, hsz, fun _ => ⟨hst.symm ▸ rfl, rfl, rfl⟩, fun e => absurd e hn⟩
          · cases h

theorem addHeader_effect (v : PInv s s.pkts) (h : addHeader s i n held = some s') :
    (∃ pre, pre.length = n ∧ s'.bytes i = pre ++ s.bytes i) ∧
      (∀ id off, off < s.size i → s'.byteTag i id (off + n) = s.byteTag i id off) ∧
      (∀ id off, off < s.size i → s'.packetTag i id (off + n) = s.packetTag i id off) ∧
      s'.bufs.bytes (s'.bufs.bufs.length - 1) = (s'.bytes i).take n ∧
      ∃ b x c f, s'.pkts[i]? = some (some b) ∧ s'.body b = some x ∧ s'.bufs.bufs[x.buf]? = some c ∧
        s'.bufs.bufs[s'.bufs.bufs.length - 1]? = some f ∧ f.hi - f.lo = n ∧ (0 < n → f.st = c.st ∧ f.lo = c.lo) ∧
        x.buf < s'.bufs.bufs.length - 1 ∧ n ≤ c.hi - c.lo := by
  obtain ⟨s1, s2, p0, b, x, h1, h2, hu, v2, h3, h4, h5, _, _⟩ := addHeader_ok v h
  have a := priv_parts (v.perm (perm_pkts h3)) h3 h4
  have q := own_parts h3 h5
  obtain ⟨e1, e2, e3⟩ := act_parts h2
  have k2 := ((Tag.resize_of _ _ h4.inv.tb x.bt n).1 e2)
  have k3 := ((Tag.resize_of _ _ h4.inv.tp x.pt n).1 e3)
  have sy := h4.inv.sync b x h4.body
  obtain ⟨u1, u2, u3, u4, u5, u6, u7, _⟩ := user_ok v2 hu (by simp [Buf.Op.targets])
  obtain ⟨c, f, c1, c2, c3, c4, c5⟩ := fragment_seg v2.bb u5
  have hlen : s'.bufs.bufs.length - 1 = s2.bufs.bufs.length := by rw [c2]; simp
  have hc : s'.bufs.bufs[x.buf]? = some c := by
    rw [c2, List.getElem?_append_left (Tag.lt_of c1)]; exact c1
  have ef := buf_effect v2.bb u5 trivial
  have same : s'.bufs.bytes x.buf = s2.bufs.bytes x.buf :=
    (buf_step v2.bb u5).frame rfl _ (Tag.lt_of c1) (by simp [Buf.Op.targets])
  obtain ⟨_, pre, l1, l2⟩ := buf_effect h4.inv.bb e1 trivial
  refine ⟨⟨pre, l1, by rw [q.bytes, same, a.1]; exact l2⟩, ?_, ?_, ?_, b, x, c, f, ?_, h5.body, hc, ?_, ?_, ?_, ?_, by omega⟩
  · intro id off ho
    rw [q.bt, a.2.2.1, u6, k2.2 off (by rw [sy.1, ← a.2.1]; exact ho)]
  · intro id off ho
    rw [q.pt, a.2.2.2, u7, k3.2 off (by rw [sy.2, ← a.2.1]; exact ho)]
  · rw [hlen, q.bytes, same]; exact ef.2
  · rw [h5.pkts]; simp [Tag.lt_of h3]
  · rw [hlen, c2]; simp
  · by_cases hn : n = 0
    · rw [c5 hn, hn]; rfl
    · obtain ⟨d1, d2, d3⟩ := c4 (by omega); omega
  · intro hn; obtain ⟨d1, d2, d3⟩ := c4 hn; exact ⟨d1, by omega⟩
  · rw [hlen]; exact Tag.lt_of c1

theorem addTrailer_effect (v : PInv s s.pkts) (h : addTrailer s i n held = some s') :
    (∃ post, post.length = n ∧ s'.bytes i = s.bytes i ++ post) ∧
      (∀ id off, off < s.size i → s'.byteTag i id off = s.byteTag i id off) ∧
      (∀ id off, off < s.size i → s'.packetTag i id off = s.packetTag i id off) ∧
      s'.bufs.bytes (s'.bufs.bufs.length - 1) = (s'.bytes i).drop (s.size i) ∧
      ∃ b x c f, s'.pkts[i]? = some (some b) ∧ s'.body b = some x ∧ s'.bufs.bufs[x.buf]? = some c ∧
        s'.bufs.bufs[s'.bufs.bufs.length - 1]? = some f ∧ f.hi - f.lo = n ∧
        (0 < n → f.st = c.st ∧ f.lo = c.lo + s.size i) ∧
        x.buf < s'.bufs.bufs.length - 1 ∧ c.hi - c.lo = s.size i + n := by
  obtain ⟨s1, s2, p0, b, x, h1, h2, hu, v2, h3, h4, h5, _, _⟩ := addTrailer_ok v h
  have a := priv_parts (v.perm (perm_pkts h3)) h3 h4
  have q := own_parts h3 h5
  obtain ⟨e1, e2, e3⟩ := act_parts h2
  have k2 := ((Tag.resize_of _ _ h4.inv.tb x.bt n).2.1 e2)
  have k3 := ((Tag.resize_of _ _ h4.inv.tp x.pt n).2.1 e3)
  have sy := h4.inv.sync b x h4.body
  obtain ⟨u1, u2, u3, u4, u5, u6, u7, _⟩ := user_ok v2 hu (by simp [Buf.Op.targets])
  obtain ⟨c, f, c1, c2, c3, c4, c5⟩ := fragment_seg v2.bb u5
  have hlen : s'.bufs.bufs.length - 1 = s2.bufs.bufs.length := by rw [c2]; simp
  have hc : s'.bufs.bufs[x.buf]? = some c := by
    rw [c2, List.getElem?_append_left (Tag.lt_of c1)]; exact c1
  have ef := (buf_effect v2.bb u5 trivial).2
  have same : s'.bufs.bytes x.buf = s2.bufs.bytes x.buf :=
    (buf_step v2.bb u5).frame rfl _ (Tag.lt_of c1) (by simp [Buf.Op.targets])
  obtain ⟨_, post, l1, l2⟩ := buf_effect h4.inv.bb e1 trivial
  have hsz := bsize_addEnd h4.inv.bb e1
  have hcs : s2.bufs.size x.buf = c.hi - c.lo := Buf.size_of c1
  refine ⟨⟨post, l1, by rw [q.bytes, same, a.1]; exact l2⟩, ?_, ?_, ?_, b, x, c, f, ?_, h5.body, hc, ?_, ?_, ?_, ?_, ?_⟩
  · intro id off ho
    rw [q.bt, a.2.2.1, u6, k2.2 off (by rw [sy.1, ← a.2.1]; exact ho)]
  · intro id off ho
    rw [q.pt, a.2.2.2, u7, k3.2 off (by rw [sy.2, ← a.2.1]; exact ho)]
  · rw [hlen, q.bytes, same, ef, a.2.1, show s2.bufs.size x.buf - n = s1.bufs.size x.buf by omega, List.take_of_length_le]
    rw [List.length_drop, l2, List.length_append, l1, Buf.size_eq_length h4.inv.bb]; omega
  · rw [h5.pkts]; simp [Tag.lt_of h3]
  · rw [hlen, c2]; simp
  · by_cases hn : n = 0
    · rw [c5 hn, hn]; rfl
    · obtain ⟨d1, d2, d3⟩ := c4 (by omega); omega
  · intro hn; obtain ⟨d1, d2, d3⟩ := c4 hn; exact ⟨d1, by rw [d2, a.2.1]; omega⟩
  · rw [hlen]; exact Tag.lt_of c1
  · rw [a.2.1]; omega

end

theorem makePrivate_some {s : PState} (v : PInv s s.pkts) {i : Nat} (hi : i < s.pkts.length) (held : Bool) :
    ∃ s1 x p b, makePrivate s i held = some (s1, x) ∧ s.pkts[i]? = some p ∧ Priv s s1 (s.pkts.eraseIdx i) p i b x := by
  have hp := List.getElem?_eq_getElem hi
  have key : ∃ r, makePrivate s i held = some r := by
    unfold makePrivate
    rw [hp]
    cases h : s.pkts[i] with
    | none =>
      obtain ⟨a, ha⟩ := Buf.step_ok v.bb (.new 0 0 0) trivial
      obtain ⟨b, hb, _⟩ := Tag.step_ok v.tb (.new) trivial
      obtain ⟨c, hc, _⟩ := Tag.step_ok v.tp (.new) trivial
      dsimp only
      rw [ha.step, hb, hc]; exact ⟨_, rfl⟩
    | some d =>
      obtain ⟨y, hy⟩ := v.alive d (h ▸ List.getElem_mem hi)
      have r := v.range d y hy
      dsimp only
      rw [hy]; dsimp only
      split
      · obtain ⟨a, ha⟩ := Buf.step_ok v.bb (.copy y.buf) r.1
        obtain ⟨b, hb, _⟩ := Tag.step_ok v.tb (.copy y.bt) (Tag.view_lt.mpr r.2.1)
        obtain ⟨c, hc, _⟩ := Tag.step_ok v.tp (.copy y.pt) (Tag.view_lt.mpr r.2.2)
        rw [ha.step, hb, hc]; exact ⟨_, rfl⟩
      · exact ⟨_, rfl⟩
  obtain ⟨⟨s1, x⟩, h⟩ := key
  obtain ⟨b, pr⟩ := makePrivate_ok (v.perm (perm_pkts hp)) hp h
  exact ⟨s1, x, _, b, h, hp, pr⟩

theorem tag_room {V : Type} {t : Tag.State V} (b : Tag.TBase t.heap t.lists) {i n : Nat} (hi : i < t.lists.length)
    (hn : n ≤ t.size i) : ∃ v, t.views[i]? = some v ∧ v.bs + n ≤ v.be := by
  have hv := List.getElem?_eq_getElem (Tag.view_lt.mpr hi)
  refine ⟨_, hv, ?_⟩
  have := tsize_of hv
  have := tview_le b hv
  omega

/-- Writing through one buffer, seen by another one on the same storage. -/
theorem write_alias {t t' : Buf.State} (hb : Buf.Base t.mem t.bufs) {j k off : Nat} {d : List Byte} {c f : Buf.Seg}
    (hj : t.bufs[j]? = some c) (hk : t.bufs[k]? = some f) (h : t.step (.write k off d) = some t')
    (hs : 0 < f.hi - f.lo → f.st = c.st ∧ c.lo ≤ f.lo ∧ f.hi ≤ c.hi) :
    t'.bufs = t.bufs ∧ off + d.length ≤ f.hi - f.lo ∧
      t'.bytes j = if 0 < f.hi - f.lo then Buf.patch (t.bytes j) (f.lo - c.lo + off) d else t.bytes j := by
  simp only [Buf.State.step, Buf.State.on, hk] at h
  by_cases hc : off + d.length ≤ f.hi - f.lo
  · rw [if_pos hc] at h
    cases hm : t.mem.fill f (f.lo + off) d with
    | none => rw [hm] at h; cases h
    | some m' =>
      rw [hm] at h; cases h
      have hset : t.bufs.set k f = t.bufs := by
        apply List.ext_getElem?; intro a
        rw [List.getElem?_set]
        by_cases e : k = a
        · subst e; rw [if_pos rfl, hk, if_pos (Tag.lt_of hk)]
        · rw [if_neg e]
      refine ⟨hset, hc, ?_⟩
      show (⟨m', t.bufs.set k f⟩ : Buf.State).bytes j = _
      rw [hset, Buf.bytes_of (s := ⟨m', t.bufs⟩) hj, Buf.bytes_of hj]
      by_cases hp : 0 < f.hi - f.lo
      · rw [if_pos hp]
        obtain ⟨h1, h2, h3⟩ := hs hp
        obtain ⟨m2, f1, _, _, f2, _⟩ := Buf.fill_ok (Buf.base_perm (Buf.set_perm hj c).1 hb) (off := f.lo + off) (d := d)
          (by omega) (by omega)
        have e : t.mem.fill f (f.lo + off) d = t.mem.fill c (f.lo + off) d := by simp [Buf.Mem.fill, h1]
        rw [e, f1] at hm; cases hm
        dsimp only
        rw [f2, show f.lo + off - c.lo = f.lo - c.lo + off by omega]
      · rw [if_neg hp]
        have hd : d = [] := List.length_eq_zero_iff.mp (by omega)
        subst hd
        dsimp only
        cases hst : f.st with
        | none => simp [Buf.Mem.fill, hst] at hm; rw [hm]
        | some id =>
          simp only [Buf.Mem.fill, hst, Buf.Mem.write] at hm
          cases hx : t.mem.mem id with
          | none => rw [hx] at hm; cases hm
          | some y =>
            rw [hx] at hm; dsimp only at hm
            split at hm
            · cases hm
              exact Buf.view_put hx c (fun _ a _ _ => Buf.wr_out (by simp; omega))
            · cases hm
  · rw [if_neg hc] at h; cases h

/-- Writes of the client into one of its buffers. -/
def writes (f : Nat) (ws : List (Nat × List Byte)) : List Op := ws.map fun w => .user (.write f w.1 w.2)

/-- Writes into a buffer that covers the bytes `[a, a + n)` of packet `i`. -/
theorem writes_ok {i b k a n : Nat} {x : Body} {c f : Buf.Seg} (ws : List (Nat × List Byte)) : ∀ {s s' : PState},
    PInv s s.pkts → s.pkts[i]? = some (some b) → s.body b = some x → s.bufs.bufs[x.buf]? = some c →
    s.bufs.bufs[k]? = some f → f.hi - f.lo = n → (0 < n → f.st = c.st ∧ f.lo = c.lo + a) → a + n ≤ c.hi - c.lo →
    s.run (writes k ws) = some s' →
    PInv s' s'.pkts ∧ (s'.bytes i).length = (s.bytes i).length ∧ (s'.bytes i).take a = (s.bytes i).take a ∧
      (s'.bytes i).drop (a + n) = (s.bytes i).drop (a + n) ∧ (∀ id off, s'.byteTag i id off = s.byteTag i id off) ∧
      (∀ id off, s'.packetTag i id off = s.packetTag i id off) ∧ s'.pkts = s.pkts := by
  induction ws with
  | nil => intro s s' v _ _ _ _ _ _ _ h; cases h; exact ⟨v, rfl, rfl, rfl, fun _ _ => rfl, fun _ _ => rfl, rfl⟩
  | cons w ws ih =>
    intro s s' v h1 h2 h3 h4 h5 h6 h7 h
    simp only [writes, List.map_cons, PState.run] at h
    split at h
    · cases h
    · rename_i s1 e
      have hv := (step_ok v e).inv
      simp only [PState.step] at e
      split at e
      · rename_i hf
        simp only [List.all_eq_true, targets_eq] at hf
        obtain ⟨g1, g2, g3, g4, g5, g6, g7, g8⟩ := user_ok v e (fun j hj b x hx => free_ne v (hf j hj) hx)
        obtain ⟨q1, q2, q3⟩ := write_alias v.bb h3 h4 g5 (by
          intro hp
          obtain ⟨z1, z2⟩ := h6 (by omega)
          exact ⟨z1, by omega, by omega⟩)
        have p1 := parts_of h1 h2
        have p2 := parts_of (s := s1) (by rw [g2]; exact h1) (by rw [g3]; exact h2)
        obtain ⟨r1, r2, r3, r4, r5, r6, r7⟩ := ih hv (by rw [g2]; exact h1) (by rw [g3]; exact h2) (by rw [q1]; exact h3)
          (by rw [q1]; exact h4) h5 h6 h7 h
        have hlen : (s.bytes i).length = c.hi - c.lo := by
          rw [← size_bytes v, p1.size, Buf.size_of h3]
        have key : (s1.bytes i).length = (s.bytes i).length ∧ (s1.bytes i).take a = (s.bytes i).take a ∧
            (s1.bytes i).drop (a + n) = (s.bytes i).drop (a + n) := by
          rw [p2.bytes, q3, ← p1.bytes]
          split
          · rename_i hp
            obtain ⟨z1, z2⟩ := h6 (by omega)
            refine ⟨Buf.patch_length (by omega), ?_, ?_⟩
            · unfold Buf.patch
              rw [List.append_assoc, List.take_append_of_le_length (by rw [List.length_take]; omega), List.take_take]
              congr 1; omega
            · unfold Buf.patch
              have e1 : (List.take (f.lo - c.lo + w.1) (s.bytes i) ++ w.2).length = f.lo - c.lo + w.1 + w.2.length := by
                rw [List.length_append, List.length_take]; omega
              rw [List.drop_append, List.drop_of_length_le (by rw [e1]; omega), List.nil_append, e1, List.drop_drop]
              congr 1; omega
          · exact ⟨rfl, rfl, rfl⟩
        refine ⟨r1, r2.trans key.1, r3.trans key.2.1, r4.trans key.2.2, fun id off => ?_, fun id off => ?_, r7.trans g2⟩
        · rw [r5, p2.bt, p1.bt, g6]
        · rw [r6, p2.pt, p1.pt, g7]
      · cases e

/-- What `MakePrivate` does to the parts: it keeps the body, or appends one. -/
theorem makePrivate_parts {s s1 : PState} (v : PInv s s.pkts) {i : Nat} {held : Bool} {x : Body}
    (h : makePrivate s i held = some (s1, x)) :
    ((x.buf = s.bufs.bufs.length ∧ x.bt = s.bt.lists.length ∧ x.pt = s.pt.lists.length) ∨
      (held = false ∧ ∃ c, s.pkts[i]? = some (some c) ∧ s.body c = some x)) ∧
    (∀ k < s.bt.lists.length, s1.bt.views[k]? = s.bt.views[k]?) ∧
    (∀ k < s.pt.lists.length, s1.pt.views[k]? = s.pt.views[k]?) := by
  unfold makePrivate at h
  dsimp only at h
  split at h
  · cases h
  · split at h
    · rename_i a b c e1 e2 e3
      cases h
      exact ⟨.inl ⟨rfl, rfl, rfl⟩, (new_size v.tb e2).2.1, (new_size v.tp e3).2.1⟩
    · cases h
  · rename_i d hd
    split at h
    · cases h
    · rename_i y hy
      split at h
      · split at h
        · rename_i a b c e1 e2 e3
          cases h
          exact ⟨.inl ⟨rfl, rfl, rfl⟩, (copy_size v.tb e2).2.1, (copy_size v.tp e3).2.1⟩
        · cases h
      · rename_i hn
        cases h
        refine ⟨.inr ⟨?_, d, hd, hy⟩, fun _ _ => rfl, fun _ _ => rfl⟩
        cases held
        · rfl
        · exact absurd (.inr rfl) hn

/-- The same for a buffer that is not the packet's own. -/
theorem private_ne {s s1 : PState} (v : PInv s s.pkts) {i c : Nat} {held : Bool} {x y : Body}
    (h : makePrivate s i (held || decide (s.pkts[i]? = some (some c))) = some (s1, x)) (hy : s.body c = some y) :
    x.buf ≠ y.buf ∧ x.bt ≠ y.bt ∧ x.pt ≠ y.pt := by
  have r := v.range c y hy
  rcases (makePrivate_parts v h).1 with ⟨e1, e2, e3⟩ | ⟨e, d, hd, hx⟩
  · omega
  · simp only [Bool.or_eq_false_iff, decide_eq_false_iff_not] at e
    exact v.inj d c x y hx hy (fun hc => e.2 (by rw [hd, hc]))

end Verif.Packet
