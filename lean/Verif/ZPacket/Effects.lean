import Verif.ZPacket.Step
import Verif.Zc.FamilyLemmas

/-! What an operation does to the packet it is applied to. -/
set_option linter.unusedSimpArgs false
set_option linter.unusedVariables false
namespace Verif.ZPacket

/-- What packet `i` shows, in terms of the parts of its body. -/
structure Parts (s : PState) (i : Nat) (x : Body) : Prop where
  bytes : s.bytes i = s.bufs.bytes x.buf
  size : s.size i = s.bufs.size x.buf
  bt : ∀ id off, s.byteTag i id off = s.bt.get x.bt id off
  pt : ∀ id off, s.packetTag i id off = s.pt.get x.pt id off

theorem parts_of {s : PState} {i b : Nat} {x : Body} (h : s.pkts[i]? = some (some b)) (hx : s.body b = some x) : Parts s i x :=
  ⟨by simp [PState.bytes, h, hx], by simp [PState.size, h, hx], fun _ _ => by simp [PState.byteTag, h, hx],
    fun _ _ => by simp [PState.packetTag, h, hx]⟩

theorem size_bytes {s : PState} {P : List (Option Nat)} (v : PInv s P) (i : Nat) : s.size i = (s.bytes i).length := by
  unfold PState.size PState.bytes
  cases h : s.pkts[i]? with
  | none => rfl
  | some p =>
    cases p with
    | none => rfl
    | some b =>
      dsimp only
      cases hb : s.body b with
      | none => rfl
      | some x => exact (Zc.bytes_len v.bb x.buf).symm

/-- `MakePrivate` does not change what the packet shows. -/
theorem priv_parts {s s1 : PState} {P : List (Option Nat)} {p : Option Nat} {i b : Nat} {x : Body} (v : PInv s (p :: P))
    (hp : s.pkts[i]? = some p) (pr : Priv s s1 P p i b x) :
    s.bytes i = s1.bufs.bytes x.buf ∧ s.size i = s1.bufs.size x.buf ∧
      (∀ id off, s.byteTag i id off = s1.bt.get x.bt id off) ∧
      ∀ id off, s.packetTag i id off = s1.pt.get x.pt id off := by
  have hi : s1.pkts[i]? = some (some b) := by rw [pr.pkts]; simp [Tag.lt_of hp]
  have q := parts_of hi pr.body
  obtain ⟨a1, a2, a3⟩ := obs_view hp
  obtain ⟨b1, b2, b3⟩ := obs_view hi
  rw [pr.view] at b1 b2 b3
  have e : s.bytes i = s1.bytes i := by rw [a1, b1]
  refine ⟨by rw [e, q.bytes], ?_, fun id off => by rw [a2, ← b2, q.bt], fun id off => by rw [a3, ← b3, q.pt]⟩
  rw [size_bytes v, e, ← q.size, size_bytes pr.inv]

theorem own_parts {s s' : PState} {i b : Nat} {p : Option Nat} {x : Body} (hp : s.pkts[i]? = some p) (o : Own s s' i b x) :
    Parts s' i x := parts_of (by rw [o.pkts]; simp [Tag.lt_of hp]) o.body

section
variable {s s' : PState} {i n : Nat} {held : Bool}

theorem removeHeader_effect (v : PInv s s.pkts) (h : removeHeader s i n held = some s') :
    n ≤ s.size i ∧ s'.bytes i = (s.bytes i).drop n ∧ (∀ id off, s'.byteTag i id off = s.byteTag i id (off + n)) ∧
      (∀ id off, s'.packetTag i id off = s.packetTag i id (off + n)) := by
  obtain ⟨s1, p0, b, x, h1, h2, h3, h4, h5, _, _⟩ := removeHeader_ok v h
  have a := priv_parts (v.perm (perm_pkts h3)) h3 h4
  have q := own_parts h3 h5
  obtain ⟨e1, e2, e3⟩ := act_parts h2
  have k2 := ((Tag.resize_of _ _ h4.inv.tb x.bt n).2.2.1 e2)
  have k3 := ((Tag.resize_of _ _ h4.inv.tp x.pt n).2.2.1 e3)
  have sy := h4.inv.sync b x h4.body
  refine ⟨by rw [a.2.1]; omega, by rw [q.bytes, a.1, (buf_effect h4.inv.bb e1 trivial).2 (.inr (by omega))], fun id off => ?_, fun id off => ?_⟩
  · rw [q.bt, a.2.2.1, k2.2]
  · rw [q.pt, a.2.2.2, k3.2]

theorem removeTrailer_effect (v : PInv s s.pkts) (h : removeTrailer s i n held = some s') :
    n ≤ s.size i ∧ s'.bytes i = (s.bytes i).take ((s.bytes i).length - n) ∧
      (∀ id off, s'.byteTag i id off = s.byteTag i id off) ∧
      (∀ id off, s'.packetTag i id off = s.packetTag i id off) := by
  obtain ⟨s1, p0, b, x, h1, h2, h3, h4, h5, _, _⟩ := removeTrailer_ok v h
  have a := priv_parts (v.perm (perm_pkts h3)) h3 h4
  have q := own_parts h3 h5
  obtain ⟨e1, e2, e3⟩ := act_parts h2
  have k2 := ((Tag.resize_of _ _ h4.inv.tb x.bt n).2.2.2 e2)
  have k3 := ((Tag.resize_of _ _ h4.inv.tp x.pt n).2.2.2 e3)
  have sy := h4.inv.sync b x h4.body
  refine ⟨by rw [a.2.1]; omega, by rw [q.bytes, a.1, (buf_effect h4.inv.bb e1 trivial).2 (.inr (by omega)), Zc.bytes_len h4.inv.bb], fun id off => ?_, fun id off => ?_⟩
  · rw [q.bt, a.2.2.1, k2.2]
  · rw [q.pt, a.2.2.2, k3.2]

/-- Buffer `f` covers the `n` bytes at `a` of buffer `c`, which are stored bytes: they are not in its zero area. -/
structure Covers (c f : Zc.ZBuf) (a n : Nat) : Prop where
  st : f.st = c.st
  flat : f.zs = f.ze
  lo : f.start ≤ f.zs
  size : f.en = f.start + n
  place : (f.start = c.start + a ∧ c.start + a + n ≤ c.zs) ∨
    (f.start + (c.ze - c.zs) = c.start + a ∧ c.ze ≤ c.start + a ∧ c.start + a + n ≤ c.en)

/-- The fragment made of the first bytes of a buffer that are all stored in front of the zero area. -/
theorem fragment_front {t t' : Zc.ZState} (hb : Zc.Inv t) {j n : Nat} {c : Zc.ZBuf} (hc : t.bufs[j]? = some c)
    (hn : c.start + n ≤ c.zs) (h : t.step (.fragment j 0 n) = some t') :
    ∃ f, t'.bufs = t.bufs ++ [f] ∧ Covers c f 0 n := by
  have hz := hb.ok c (List.mem_of_getElem? hc)
  have e1 := hz.h1; have e2 := hz.h2; have e3 := hz.h3
  simp only [Zc.ZState.step] at h
  obtain ⟨c', m', f, h1, h2, rfl⟩ := Zc.push_some h
  rw [hc] at h1; cases h1
  refine ⟨f, rfl, ?_⟩
  unfold Zc.makeFragment at h2
  have hcs : c.size = c.en - c.start := rfl
  rw [if_pos (by omega)] at h2
  cases ha : t.mem.acquire c.seg with
  | none => rw [ha] at h2; cases h2
  | some m1 =>
    rw [ha] at h2; dsimp only at h2
    unfold Zc.removeAtStart at h2
    dsimp only at h2
    rw [if_pos (by omega)] at h2
    dsimp only at h2
    unfold Zc.removeAtEnd at h2
    dsimp only at h2
    split at h2
    · cases h2
      exact ⟨rfl, by dsimp only; omega, by dsimp only; omega, by dsimp only; omega, .inl (by dsimp only; omega)⟩
    · split at h2
      · cases h2
        exact ⟨rfl, by dsimp only; omega, by dsimp only; omega, by dsimp only; omega, .inl (by dsimp only; omega)⟩
      · rw [if_pos (by omega)] at h2
        cases h2
        exact ⟨rfl, by dsimp only, by dsimp only; omega, by dsimp only; omega, .inl (by dsimp only; omega)⟩

/-- The same for the last bytes, stored behind the zero area. -/
theorem fragment_back {t t' : Zc.ZState} (hb : Zc.Inv t) {j n : Nat} {c : Zc.ZBuf} (hc : t.bufs[j]? = some c)
    (hn : c.ze + n ≤ c.en) (h : t.step (.fragment j (c.size - n) n) = some t') :
    ∃ f, t'.bufs = t.bufs ++ [f] ∧ Covers c f (c.size - n) n := by
  have hz := hb.ok c (List.mem_of_getElem? hc)
  have e1 := hz.h1; have e2 := hz.h2; have e3 := hz.h3
  simp only [Zc.ZState.step] at h
  obtain ⟨c', m', f, h1, h2, rfl⟩ := Zc.push_some h
  rw [hc] at h1; cases h1
  refine ⟨f, rfl, ?_⟩
  unfold Zc.makeFragment at h2
  have hcs : c.size = c.en - c.start := rfl
  rw [if_pos (by omega)] at h2
  cases ha : t.mem.acquire c.seg with
  | none => rw [ha] at h2; cases h2
  | some m1 =>
    rw [ha] at h2; dsimp only at h2
    cases hr : Zc.removeAtStart m1 c (c.size - n) with
    | none => rw [hr] at h2; cases h2
    | some r =>
      obtain ⟨m2, z2⟩ := r
      rw [hr] at h2; dsimp only at h2
      have hz2 : z2.st = c.st ∧ z2.zs = z2.ze ∧ z2.start ≤ z2.zs ∧ z2.zs ≤ z2.en ∧ z2.en = z2.start + n ∧
          z2.start + (c.ze - c.zs) = c.start + (c.size - n) := by
        unfold Zc.removeAtStart at hr
        dsimp only at hr
        split at hr
        · cases hr; dsimp only; exact ⟨rfl, by omega, by omega, by omega, by omega, by omega⟩
        · split at hr
          · cases hr; dsimp only; exact ⟨rfl, by omega, by omega, by omega, by omega, by omega⟩
          · rw [if_pos (by omega)] at hr
            cases hr; dsimp only; exact ⟨rfl, rfl, by omega, by omega, by omega, by omega⟩
      obtain ⟨g1, g2, g3, g4, g5, g6⟩ := hz2
      unfold Zc.removeAtEnd at h2
      rw [if_pos (by omega)] at h2
      cases h2
      exact ⟨g1, g2, g3, by dsimp only; omega, .inr (by dsimp only; omega)⟩

/-- `AddAtStart(n)` stores the new bytes in front of the zero area, `AddAtEnd(n)` behind it. -/
theorem addStart_front {t t' : Zc.ZState} (hb : Zc.Inv t) {j n : Nat} (h : t.step (.addStart j n) = some t') :
    ∃ c, t'.bufs[j]? = some c ∧ c.start + n ≤ c.zs := by
  simp only [Zc.ZState.step] at h
  obtain ⟨b, m', b', h1, h2, rfl⟩ := Zc.on_some h
  have hl := Tag.lt_of h1
  obtain ⟨q1, q2, _⟩ := Zc.inv_head hb h1
  refine ⟨b', by simp [hl], ?_⟩
  unfold Zc.addAtStart at h2
  split at h2
  · rename_i hn; cases h2; have := q2.h1; omega
  · obtain ⟨g, e, ok, hp, _⟩ := Buf.growStart_ok q1 (size := n) (by omega)
    rw [e] at h2; cases h2
    dsimp only; omega

theorem addEnd_back {t t' : Zc.ZState} (hb : Zc.Inv t) {j n : Nat} (h : t.step (.addEnd j n) = some t') :
    ∃ c, t'.bufs[j]? = some c ∧ c.ze + n ≤ c.en := by
  simp only [Zc.ZState.step] at h
  obtain ⟨b, m', b', h1, h2, rfl⟩ := Zc.on_some h
  have hl := Tag.lt_of h1
  obtain ⟨q1, q2, _⟩ := Zc.inv_head hb h1
  have e1 := q2.h1; have e2 := q2.h2; have e3 := q2.h3
  refine ⟨b', by simp [hl], ?_⟩
  unfold Zc.addAtEnd at h2
  split at h2
  · rename_i hn; cases h2; omega
  · cases e : Buf.growEnd t.mem b.seg n with
    | none => rw [e] at h2; cases h2
    | some g => rw [e] at h2; cases h2; dsimp only; omega

theorem addHeader_effect (v : PInv s s.pkts) (h : addHeader s i n held = some s') :
    (∃ pre, pre.length = n ∧ s'.bytes i = pre ++ s.bytes i) ∧
      (∀ id off, off < s.size i → s'.byteTag i id (off + n) = s.byteTag i id off) ∧
      (∀ id off, off < s.size i → s'.packetTag i id (off + n) = s.packetTag i id off) ∧
      s'.bufs.bytes (s'.bufs.bufs.length - 1) = (s'.bytes i).take n ∧
      ∃ b x c f, s'.pkts[i]? = some (some b) ∧ s'.body b = some x ∧ s'.bufs.bufs[x.buf]? = some c ∧
        s'.bufs.bufs[s'.bufs.bufs.length - 1]? = some f ∧ Covers c f 0 n ∧ x.buf < s'.bufs.bufs.length - 1 := by
  obtain ⟨s1, s2, p0, b, x, h1, h2, hu, v2, h3, h4, h5, _, _⟩ := addHeader_ok v h
  have a := priv_parts (v.perm (perm_pkts h3)) h3 h4
  have q := own_parts h3 h5
  obtain ⟨e1, e2, e3⟩ := act_parts h2
  have k2 := ((Tag.resize_of _ _ h4.inv.tb x.bt n).1 e2)
  have k3 := ((Tag.resize_of _ _ h4.inv.tp x.pt n).1 e3)
  have sy := h4.inv.sync b x h4.body
  obtain ⟨u1, u2, u3, u4, u5, u6, u7, _⟩ := user_ok v2 hu (by simp [Zc.ZOp.targets])
  obtain ⟨c, c1, c3⟩ := addStart_front h4.inv.bb e1
  obtain ⟨f, c2, c4⟩ := fragment_front v2.bb c1 c3 u5
  have hlen : s'.bufs.bufs.length - 1 = s2.bufs.bufs.length := by rw [c2]; simp
  have hc : s'.bufs.bufs[x.buf]? = some c := by
    rw [c2, List.getElem?_append_left (Tag.lt_of c1)]; exact c1
  have ef := buf_effect v2.bb u5 trivial
  have same : s'.bufs.bytes x.buf = s2.bufs.bytes x.buf :=
    (buf_step v2.bb u5).frame rfl _ (Tag.lt_of c1) (by simp [Zc.ZOp.targets])
  obtain ⟨_, pre, l1, l2⟩ := buf_effect h4.inv.bb e1 trivial
  refine ⟨⟨pre, l1, by rw [q.bytes, same, a.1]; exact l2⟩, ?_, ?_, ?_, b, x, c, f, ?_, h5.body, hc, ?_, c4, ?_⟩
  · intro id off ho
    rw [q.bt, a.2.2.1, u6, k2.2 off (by rw [sy.1, ← a.2.1]; exact ho)]
  · intro id off ho
    rw [q.pt, a.2.2.2, u7, k3.2 off (by rw [sy.2, ← a.2.1]; exact ho)]
  · rw [hlen, q.bytes, same]; exact ef.2
  · rw [h5.pkts]; simp [Tag.lt_of h3]
  · rw [hlen, c2]; simp
  · rw [hlen]; exact Tag.lt_of c1

theorem addTrailer_effect (v : PInv s s.pkts) (h : addTrailer s i n held = some s') :
    (∃ post, post.length = n ∧ s'.bytes i = s.bytes i ++ post) ∧
      (∀ id off, off < s.size i → s'.byteTag i id off = s.byteTag i id off) ∧
      (∀ id off, off < s.size i → s'.packetTag i id off = s.packetTag i id off) ∧
      s'.bufs.bytes (s'.bufs.bufs.length - 1) = (s'.bytes i).drop (s.size i) ∧
      ∃ b x c f, s'.pkts[i]? = some (some b) ∧ s'.body b = some x ∧ s'.bufs.bufs[x.buf]? = some c ∧
        s'.bufs.bufs[s'.bufs.bufs.length - 1]? = some f ∧ Covers c f (s.size i) n ∧ x.buf < s'.bufs.bufs.length - 1 := by
  obtain ⟨s1, s2, p0, b, x, h1, h2, hu, v2, h3, h4, h5, _, _⟩ := addTrailer_ok v h
  have a := priv_parts (v.perm (perm_pkts h3)) h3 h4
  have q := own_parts h3 h5
  obtain ⟨e1, e2, e3⟩ := act_parts h2
  have k2 := ((Tag.resize_of _ _ h4.inv.tb x.bt n).2.1 e2)
  have k3 := ((Tag.resize_of _ _ h4.inv.tp x.pt n).2.1 e3)
  have sy := h4.inv.sync b x h4.body
  obtain ⟨u1, u2, u3, u4, u5, u6, u7, _⟩ := user_ok v2 hu (by simp [Zc.ZOp.targets])
  obtain ⟨c, c1, c3⟩ := addEnd_back h4.inv.bb e1
  have hcs : s2.bufs.size x.buf = c.size := Zc.size_of c1
  obtain ⟨f, c2, c4⟩ := fragment_back v2.bb c1 c3 (by rw [← hcs]; exact u5)
  have hlen : s'.bufs.bufs.length - 1 = s2.bufs.bufs.length := by rw [c2]; simp
  have hc : s'.bufs.bufs[x.buf]? = some c := by
    rw [c2, List.getElem?_append_left (Tag.lt_of c1)]; exact c1
  have ef := (buf_effect v2.bb u5 trivial).2
  have same : s'.bufs.bytes x.buf = s2.bufs.bytes x.buf :=
    (buf_step v2.bb u5).frame rfl _ (Tag.lt_of c1) (by simp [Zc.ZOp.targets])
  obtain ⟨_, post, l1, l2⟩ := buf_effect h4.inv.bb e1 trivial
  have hsz := bsize_addEnd h4.inv.bb e1
  refine ⟨⟨post, l1, by rw [q.bytes, same, a.1]; exact l2⟩, ?_, ?_, ?_, b, x, c, f, ?_, h5.body, hc, ?_, ?_, ?_⟩
  · intro id off ho
    rw [q.bt, a.2.2.1, u6, k2.2 off (by rw [sy.1, ← a.2.1]; exact ho)]
  · intro id off ho
    rw [q.pt, a.2.2.2, u7, k3.2 off (by rw [sy.2, ← a.2.1]; exact ho)]
  · rw [hlen, q.bytes, same, ef, a.2.1, show s2.bufs.size x.buf - n = s1.bufs.size x.buf by omega, List.take_of_length_le]
    rw [List.length_drop, l2, List.length_append, l1, Zc.bytes_len h4.inv.bb]; omega
  · rw [h5.pkts]; simp [Tag.lt_of h3]
  · rw [hlen, c2]; simp
  · rw [a.2.1, show s1.bufs.size x.buf = c.size - n by omega]; exact c4
  · rw [hlen]; exact Tag.lt_of c1

end

theorem makePrivate_some {s : PState} (v : PInv s s.pkts) {i : Nat} (hi : i < s.pkts.length) (held : Bool) :
    ∃ s1 x p b, makePrivate s i held = some (s1, x) ∧ s.pkts[i]? = some p ∧ Priv s s1 (s.pkts.eraseIdx i) p i b x := by
  have hp := List.getElem?_eq_getElem hi
  have key : ∃ r, makePrivate s i held = some r := by
    unfold makePrivate
    rw [hp]
    cases h : s.pkts[i] with
    | none =>
      obtain ⟨a, ha⟩ := Zc.step_ok v.bb (.new 0 0 0) trivial
      obtain ⟨b, hb, _⟩ := Tag.step_ok v.tb (.new) trivial
      obtain ⟨c, hc, _⟩ := Tag.step_ok v.tp (.new) trivial
      dsimp only
      rw [ha.step, hb, hc]; exact ⟨_, rfl⟩
    | some d =>
      obtain ⟨y, hy⟩ := v.alive d (h ▸ List.getElem_mem hi)
      have r := v.range d y hy
      dsimp only
      rw [hy]; dsimp only
      split
      · obtain ⟨a, ha⟩ := Zc.step_ok v.bb (.copy y.buf) r.1
        obtain ⟨b, hb, _⟩ := Tag.step_ok v.tb (.copy y.bt) (Tag.view_lt.mpr r.2.1)
        obtain ⟨c, hc, _⟩ := Tag.step_ok v.tp (.copy y.pt) (Tag.view_lt.mpr r.2.2)
        rw [ha.step, hb, hc]; exact ⟨_, rfl⟩
      · exact ⟨_, rfl⟩
  obtain ⟨⟨s1, x⟩, h⟩ := key
  obtain ⟨b, pr⟩ := makePrivate_ok (v.perm (perm_pkts hp)) hp h
  exact ⟨s1, x, _, b, h, hp, pr⟩

theorem tag_room {V : Type} {t : Tag.State V} (b : Tag.TBase t.heap t.lists) {i n : Nat} (hi : i < t.lists.length)
    (hn : n ≤ t.size i) : ∃ v, t.views[i]? = some v ∧ v.bs + n ≤ v.be := by
  have hv := List.getElem?_eq_getElem (Tag.view_lt.mpr hi)
  refine ⟨_, hv, ?_⟩
  have := tsize_of hv
  have := tview_le b hv
  omega

/-- Writing through one buffer, seen by another one on the same storage. -/
theorem write_alias {t t' : Zc.ZState} (hb : Zc.Inv t) {j k off a n : Nat} {d : List Byte} {c f : Zc.ZBuf}
    (hj : t.bufs[j]? = some c) (hk : t.bufs[k]? = some f) (h : t.step (.write k off d) = some t') (hs : Covers c f a n) :
    t'.bufs = t.bufs ∧ off + d.length ≤ n ∧ t'.bytes j = Buf.patch (t.bytes j) (a + off) d := by
  obtain ⟨s1, s2, s3, s4, s5⟩ := hs
  simp only [Zc.ZState.step] at h
  obtain ⟨f', m', f2, h1, h2, rfl⟩ := Zc.on_some h
  rw [hk] at h1; cases h1
  unfold Zc.writeAt at h2
  dsimp only at h2
  by_cases hw : Zc.writable f (f.start + off) d.length
  · rw [if_pos hw] at h2
    have hpos : (if f.start + off < f.zs then f.start + off else f.start + off - (f.ze - f.zs)) = f.start + off := by
      split <;> omega
    rw [hpos] at h2
    have hle : off + d.length ≤ n := by have := hw.1; omega
    cases hm : t.mem.fill f.seg (f.start + off) d with
    | none => rw [hm] at h2; cases h2
    | some m2 =>
      rw [hm] at h2; cases h2
      have hset : t.bufs.set k f = t.bufs := by
        apply List.ext_getElem?; intro a
        rw [List.getElem?_set]
        by_cases e : k = a
        · subst e; rw [if_pos rfl, hk, if_pos (Tag.lt_of hk)]
        · rw [if_neg e]
      refine ⟨hset, hle, ?_⟩
      show (⟨m', t.bufs.set k f⟩ : Zc.ZState).bytes j = _
      rw [hset, Zc.bytes_of (s := ⟨m', t.bufs⟩) hj, Zc.bytes_of hj]
      obtain ⟨q1, q2, _⟩ := Zc.inv_head hb hj
      have e1 := q2.h1; have e2 := q2.h2; have e3 := q2.h3
      have hst : f.seg.st = c.seg.st := s1
      have e : t.mem.fill f.seg (f.start + off) d = t.mem.fill c.seg (f.start + off) d := by simp [Buf.Mem.fill, hst]
      rw [e] at hm
      have hlen := Zc.seg_length q1 q2
      obtain ⟨m3, f1, _, _, v1, _, _⟩ := Buf.fill_ok q1 (off := f.start + off) (d := d)
        (by simp only [Zc.ZBuf.seg]; omega) (by simp only [Zc.ZBuf.seg]; omega)
      rw [f1] at hm; cases hm
      dsimp only
      rw [Zc.bytesOf_eq, Zc.bytesOf_eq, v1]
      rcases s5 with ⟨p1, p2⟩ | ⟨p1, p2, p3⟩
      · rw [show f.start + off - c.seg.lo = a + off by simp only [Zc.ZBuf.seg]; omega,
          Zc.weave_patch_lo (Zc.header_le q1 q2) (by omega)]
      · have : f.start + off - c.seg.lo = a + off - (c.ze - c.zs) := by simp only [Zc.ZBuf.seg]; omega
        rw [this, Zc.weave_patch_hi (Zc.header_le q1 q2) (by omega) (by omega)]
        congr 1; omega
  · rw [if_neg hw] at h2; cases h2

/-- Writes of the client into one of its buffers. -/
def writes (f : Nat) (ws : List (Nat × List Byte)) : List Op := ws.map fun w => .user (.write f w.1 w.2)

/-- Writes into a buffer that covers the bytes `[a, a + n)` of packet `i`. -/
theorem writes_ok {i b k a n : Nat} {x : Body} {c f : Zc.ZBuf} (ws : List (Nat × List Byte)) : ∀ {s s' : PState},
    PInv s s.pkts → s.pkts[i]? = some (some b) → s.body b = some x → s.bufs.bufs[x.buf]? = some c →
    s.bufs.bufs[k]? = some f → Covers c f a n →
    s.run (writes k ws) = some s' →
    PInv s' s'.pkts ∧ (s'.bytes i).length = (s.bytes i).length ∧ (s'.bytes i).take a = (s.bytes i).take a ∧
      (s'.bytes i).drop (a + n) = (s.bytes i).drop (a + n) ∧ (∀ id off, s'.byteTag i id off = s.byteTag i id off) ∧
      (∀ id off, s'.packetTag i id off = s.packetTag i id off) ∧ s'.pkts = s.pkts := by
  induction ws with
  | nil => intro s s' v _ _ _ _ _ h; cases h; exact ⟨v, rfl, rfl, rfl, fun _ _ => rfl, fun _ _ => rfl, rfl⟩
  | cons w ws ih =>
    intro s s' v h1 h2 h3 h4 h5 h
    simp only [writes, List.map_cons, PState.run] at h
    split at h
    · cases h
    · rename_i s1 e
      have hv := (step_ok v e).inv
      simp only [PState.step] at e
      split at e
      · rename_i hf
        simp only [List.all_eq_true, targets_eq] at hf
        obtain ⟨g1, g2, g3, g4, g5, g6, g7, g8⟩ := user_ok v e (fun j hj b x hx => free_ne v (hf j hj) hx)
        obtain ⟨q1, q2, q3⟩ := write_alias v.bb h3 h4 g5 h5
        have hz := v.bb.ok c (List.mem_of_getElem? h3)
        have z1 := hz.h1; have z2 := hz.h2; have z3 := hz.h3
        have han : a + n ≤ c.size := by have := h5.place; simp only [Zc.ZBuf.size]; omega
        have p1 := parts_of h1 h2
        have p2 := parts_of (s := s1) (by rw [g2]; exact h1) (by rw [g3]; exact h2)
        obtain ⟨r1, r2, r3, r4, r5, r6, r7⟩ := ih hv (by rw [g2]; exact h1) (by rw [g3]; exact h2) (by rw [q1]; exact h3)
          (by rw [q1]; exact h4) h5 h
        have hlen : (s.bytes i).length = c.size := by
          rw [← size_bytes v, p1.size, Zc.size_of h3]
        have key : (s1.bytes i).length = (s.bytes i).length ∧ (s1.bytes i).take a = (s.bytes i).take a ∧
            (s1.bytes i).drop (a + n) = (s.bytes i).drop (a + n) := by
          rw [p2.bytes, q3, ← p1.bytes]
          refine ⟨Buf.patch_length (by omega), ?_, ?_⟩
          · unfold Buf.patch
            rw [List.append_assoc, List.take_append_of_le_length (by rw [List.length_take]; omega), List.take_take]
            congr 1; omega
          · unfold Buf.patch
            have e1 : (List.take (a + w.1) (s.bytes i) ++ w.2).length = a + w.1 + w.2.length := by
              rw [List.length_append, List.length_take]; omega
            rw [List.drop_append, List.drop_of_length_le (by rw [e1]; omega), List.nil_append, e1, List.drop_drop]
            congr 1; omega
        refine ⟨r1, r2.trans key.1, r3.trans key.2.1, r4.trans key.2.2, fun id off => ?_, fun id off => ?_, r7.trans g2⟩
        · rw [r5, p2.bt, p1.bt, g6]
        · rw [r6, p2.pt, p1.pt, g7]
      · cases e

/-- What `MakePrivate` does to the parts: it keeps the body, or appends one. -/
theorem makePrivate_parts {s s1 : PState} (v : PInv s s.pkts) {i : Nat} {held : Bool} {x : Body}
    (h : makePrivate s i held = some (s1, x)) :
    ((x.buf = s.bufs.bufs.length ∧ x.bt = s.bt.lists.length ∧ x.pt = s.pt.lists.length) ∨
      (held = false ∧ ∃ c, s.pkts[i]? = some (some c) ∧ s.body c = some x)) ∧
    (∀ k < s.bt.lists.length, s1.bt.views[k]? = s.bt.views[k]?) ∧
    (∀ k < s.pt.lists.length, s1.pt.views[k]? = s.pt.views[k]?) := by
  unfold makePrivate at h
  dsimp only at h
  split at h
  · cases h
  · split at h
    · rename_i a b c e1 e2 e3
      cases h
      exact ⟨.inl ⟨rfl, rfl, rfl⟩, (new_size v.tb e2).2.1, (new_size v.tp e3).2.1⟩
    · cases h
  · rename_i d hd
    split at h
    · cases h
    · rename_i y hy
      split at h
      · split at h
        · rename_i a b c e1 e2 e3
          cases h
          exact ⟨.inl ⟨rfl, rfl, rfl⟩, (copy_size v.tb e2).2.1, (copy_size v.tp e3).2.1⟩
        · cases h
      · rename_i hn
        cases h
        refine ⟨.inr ⟨?_, d, hd, hy⟩, fun _ _ => rfl, fun _ _ => rfl⟩
        cases held
        · rfl
        · exact absurd (.inr rfl) hn

/-- The same for a buffer that is not the packet's own. -/
theorem private_ne {s s1 : PState} (v : PInv s s.pkts) {i c : Nat} {held : Bool} {x y : Body}
    (h : makePrivate s i (held || decide (s.pkts[i]? = some (some c))) = some (s1, x)) (hy : s.body c = some y) :
    x.buf ≠ y.buf ∧ x.bt ≠ y.bt ∧ x.pt ≠ y.pt := by
  have r := v.range c y hy
  rcases (makePrivate_parts v h).1 with ⟨e1, e2, e3⟩ | ⟨e, d, hd, hx⟩
  · omega
  · simp only [Bool.or_eq_false_iff, decide_eq_false_iff_not] at e
    exact v.inj d c x y hx hy (fun hc => e.2 (by rw [hd, hc]))

end Verif.ZPacket
