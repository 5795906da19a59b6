import Verif.Zc.Props
import Verif.Tag.Props
import Verif.ZPacket.Model

/-! Helper lemmas about packets. -/
set_option linter.unusedSimpArgs false
set_option linter.unusedVariables false
namespace Verif.ZPacket

/-! ### Buffers and tag lists -/

theorem buf_segs {s s' : Zc.ZState} {o : Zc.ZOp} (h : s.step o = some s') :
    s.bufs.length ≤ s'.bufs.length ∧ ∀ k < s.bufs.length, k ∉ o.targets → s'.bufs[k]? = s.bufs[k]? := by
  have on : ∀ {t t' : Zc.ZState} {i : Nat} {f : Buf.Mem → Zc.ZBuf → Option (Buf.Mem × Zc.ZBuf)},
      t.on i f = some t' → t'.bufs.length = t.bufs.length ∧ ∀ k, k ≠ i → t'.bufs[k]? = t.bufs[k]? := by
    intro t t' i f h
    simp only [Zc.ZState.on] at h
    split at h
    · cases h
    · cases hf : f t.mem _ with
      | none => rw [hf] at h; cases h
      | some r =>
        rw [hf] at h; cases h
        exact ⟨by simp, fun k hk => by simp [List.getElem?_set_ne (Ne.symm hk)]⟩
  have push : ∀ {i : Nat} {f : Buf.Mem → Zc.ZBuf → Option (Buf.Mem × Zc.ZBuf)}, s.push i f = some s' →
      s.bufs.length ≤ s'.bufs.length ∧ ∀ k < s.bufs.length, s'.bufs[k]? = s.bufs[k]? := by
    intro i f h
    simp only [Zc.ZState.push] at h
    split at h
    · cases h
    · cases hf : f s.mem _ with
      | none => rw [hf] at h; cases h
      | some r =>
        rw [hf] at h; cases h
        exact ⟨by simp, fun k hk => by simp [List.getElem?_append_left hk]⟩
  cases o with
  | new a z e =>
    simp only [Zc.ZState.step] at h
    cases hf : Zc.construct s.mem a z e with
    | none => rw [hf] at h; cases h
    | some r =>
      rw [hf] at h; cases h
      exact ⟨by simp, fun k hk _ => by simp [List.getElem?_append_left hk]⟩
  | newFrom d =>
    simp only [Zc.ZState.step] at h
    cases hf : Zc.constructFrom s.mem d with
    | none => rw [hf] at h; cases h
    | some r =>
      rw [hf] at h; cases h
      exact ⟨by simp, fun k hk _ => by simp [List.getElem?_append_left hk]⟩
  | copy j | fragment j a n | real j =>
    simp only [Zc.ZState.step] at h
    have := push h
    exact ⟨this.1, fun k hk _ => this.2 k hk⟩
  | move j =>
    simp only [Zc.ZState.step] at h
    split at h
    · cases h
    · cases h
      refine ⟨by simp, fun k hk hn => ?_⟩
      simp only [Zc.ZOp.targets, List.mem_singleton] at hn
      rw [List.getElem?_append_left (by simpa using hk), List.getElem?_set_ne (Ne.symm hn)]
  | assign i j =>
    simp only [Zc.ZState.step] at h
    split at h
    · split at h
      · cases h; exact ⟨Nat.le_refl _, fun _ _ _ => rfl⟩
      · split at h
        · cases h
        · cases hd : Buf.Mem.drop _ _ with
          | none => rw [hd] at h; cases h
          | some r =>
            rw [hd] at h; cases h
            refine ⟨by simp, fun k hk hn => ?_⟩
            simp only [Zc.ZOp.targets, List.mem_singleton] at hn
            exact List.getElem?_set_ne (Ne.symm hn)
    · cases h
  | moveAssign i j =>
    simp only [Zc.ZState.step] at h
    split at h
    · split at h
      · cases h; exact ⟨Nat.le_refl _, fun _ _ _ => rfl⟩
      · cases hd : Zc.release _ _ with
          | none => rw [hd] at h; cases h
          | some r =>
            rw [hd] at h; cases h
            refine ⟨by simp, fun k hk hn => ?_⟩
            simp only [Zc.ZOp.targets, List.mem_cons, List.not_mem_nil, or_false, not_or] at hn
            rw [List.getElem?_set_ne (Ne.symm hn.2), List.getElem?_set_ne (Ne.symm hn.1)]
    · cases h
  | swap i j =>
    simp only [Zc.ZState.step] at h
    split at h
    · cases h
      refine ⟨by simp, fun k hk hn => ?_⟩
      simp only [Zc.ZOp.targets, List.mem_cons, List.not_mem_nil, or_false, not_or] at hn
      rw [List.getElem?_set_ne (Ne.symm hn.2), List.getElem?_set_ne (Ne.symm hn.1)]
    · cases h
  | destroy i | addStart i n | addEnd i n | addStartBytes i n | addEndBytes i n | removeStart i n
  | removeEnd i n | write i off d | realize i =>
    simp only [Zc.ZState.step] at h
    have := on h
    refine ⟨Nat.le_of_eq this.1.symm, fun k hk hn => this.2 k ?_⟩
    simpa [Zc.ZOp.targets] using hn
  | addStartBuf i j | addEndBuf i j =>
    simp only [Zc.ZState.step] at h
    split at h
    · cases h
    · split at h
      · cases h; exact ⟨Nat.le_refl _, fun _ _ _ => rfl⟩
      · split at h
        · cases h
        · rename_i s1 e
          have h1 := on e
          split at h
          · split at h
            · cases h
            · cases hd : Zc.copyInto _ _ _ _ _ with
              | none => rw [hd] at h; cases h
              | some r =>
                rw [hd] at h; cases h
                refine ⟨Nat.le_of_eq h1.1.symm, fun k hk hn => h1.2 k ?_⟩
                simpa [Zc.ZOp.targets] using hn
          · cases h

/-- What an operation on buffers that does not fail does to the buffers it is not meant to change. -/
structure BufStep (s s' : Zc.ZState) (o : Zc.ZOp) : Prop where
  base : Zc.Inv s'
  le : s.bufs.length ≤ s'.bufs.length
  segs : ∀ k < s.bufs.length, k ∉ o.targets → s'.bufs[k]? = s.bufs[k]?
  frame : o.stores = false → Zc.Frame s s' o
  wide : o.plain (.all false) s → Buf.Wide (Buf.Cover.all false) s.mem s.segs →
    Buf.Wide (Buf.Cover.all false) s'.mem s'.segs ∧ (o.isWrite = false → Zc.Frame s s' o)

theorem buf_step {s s' : Zc.ZState} {o : Zc.ZOp} (hb : Zc.Inv s) (h : s.step o = some s') :
    BufStep s s' o := by
  have h1 := Zc.step_inv hb h
  have h2 := buf_segs h
  rcases h1.2 with hok | rfl
  · obtain ⟨s2, hs⟩ := Zc.step_ok hb o hok
    have := hs.step; rw [h] at this; cases this
    exact ⟨hs.inv, h2.1, h2.2, hs.frame, fun hp hw => ⟨(hs.wide _ hp hw).1, fun hk => Zc.frame_all ((hs.wide _ hp hw).2.1 hk)⟩⟩
  · exact ⟨hb, h2.1, h2.2, fun _ _ _ _ => rfl, fun _ w => ⟨w, fun _ _ _ _ => rfl⟩⟩

theorem buf_effect {s s' : Zc.ZState} {o : Zc.ZOp} (hb : Zc.Inv s) (h : s.step o = some s')
    (hd : o.destOk s) : Zc.Effect s s' o := by
  obtain ⟨s2, hs⟩ := Zc.step_ok hb o (Zc.step_some_ok h hd)
  have := hs.step; rw [h] at this; cases this
  exact hs.effect

theorem tag_len {V : Type} {s s' : Tag.State V} {o : Tag.Op V} (b : Tag.TBase s.heap s.lists)
    (h : s.step o = some s') : s.lists.length ≤ s'.lists.length := by
  have hv := (Tag.step_base b h).2
  have e : ∀ t : Tag.State V, t.lists.length = t.views.length := fun t => by simp [Tag.State.views]
  rw [e, e]
  cases o with
  | new => rw [hv]; simp
  | newCap => obtain ⟨v, h1, _⟩ := hv; rw [h1]; simp
  | copy => obtain ⟨v, _, h1⟩ := hv; rw [h1]; simp
  | assign i j => obtain ⟨v, _, h1⟩ := hv; rw [h1]; simp
  | swap i j => obtain ⟨v, w, _, _, h1⟩ := hv; rw [h1]; simp
  | destroy i => rw [hv]; simp
  | addStart i n | addEnd i n => obtain ⟨v, v', _, _, h1⟩ := hv; rw [h1]; simp
  | removeStart i n | removeEnd i n => obtain ⟨v, _, h1⟩ := hv; rw [h1]; simp
  | insert i id v start size => obtain ⟨v, l, _, _, h1⟩ := hv; rw [h1]; simp
  | addListStart i j | addListEnd i j => obtain ⟨v, w, v', _, _, _, h1⟩ := hv; rw [h1]; simp

/-! ### What a packet shows -/

/-- The contents of a packet: bytes, and what its two tag lists see. -/
structure PV where
  bytes : List Byte
  bt : Option (Tag.View Nat)
  pt : Option (Tag.View (Option Nat))

def PV.empty : PV := ⟨[], some ⟨0, 0, []⟩, some ⟨0, 0, []⟩⟩

def bodyView (s : PState) (x : Body) : PV := ⟨s.bufs.bytes x.buf, s.bt.views[x.bt]?, s.pt.views[x.pt]?⟩

/-- What a packet with this body pointer shows. -/
def view (s : PState) : Option Nat → PV
  | none => .empty
  | some b =>
    match s.body b with
    | none => .empty
    | some x => bodyView s x

theorem view_some {s : PState} {b : Nat} {x : Body} (h : s.body b = some x) : view s (some b) = bodyView s x := by
  simp [view, h]

def PV.tag {V : Type} (v : Option (Tag.View V)) (id off : Nat) : Option V :=
  match v with
  | none => none
  | some v => Tag.lookup v.l id (v.bs + off)

theorem tag_get {V : Type} (s : Tag.State V) (i id off : Nat) : s.get i id off = PV.tag s.views[i]? id off := by
  cases h : s.views[i]? with
  | some v => exact (Tag.get_view h id off).1
  | none =>
    have h1 : s.lists[i]? = none := by simpa [Tag.State.views] using h
    simp [Tag.State.get, h1, PV.tag]

/-- The three observations are read off the view. -/
theorem obs_view {s : PState} {i : Nat} {p : Option Nat} (h : s.pkts[i]? = some p) :
    s.bytes i = (view s p).bytes ∧ (∀ id off, s.byteTag i id off = PV.tag (view s p).bt id off) ∧
      ∀ id off, s.packetTag i id off = PV.tag (view s p).pt id off := by
  cases p with
  | none => simp [PState.bytes, PState.byteTag, PState.packetTag, h, view, PV.empty, PV.tag, Tag.lookup]
  | some b =>
    cases hb : s.body b with
    | none => simp [PState.bytes, PState.byteTag, PState.packetTag, h, hb, view, PV.empty, PV.tag, Tag.lookup]
    | some x => simp [PState.bytes, PState.byteTag, PState.packetTag, h, hb, view, bodyView, tag_get]

/-! ### The invariant -/

/-- Everything is consistent, where `P` are the body pointers of all packets outside of tags. -/
structure PInv (s : PState) (P : List (Option Nat)) : Prop where
  bb : Zc.Inv s.bufs
  tb : Tag.TBase s.bt.heap s.bt.lists
  tp : Tag.TBase s.pt.heap s.pt.lists
  closed : ∀ b, s.next ≤ b → s.body b = none
  range : ∀ b x, s.body b = some x →
    x.buf < s.bufs.bufs.length ∧ x.bt < s.bt.lists.length ∧ x.pt < s.pt.lists.length
  inj : ∀ b c x y, s.body b = some x → s.body c = some y → b ≠ c → x.buf ≠ y.buf ∧ x.bt ≠ y.bt ∧ x.pt ≠ y.pt
  ref : ∀ b x, s.body b = some x → x.ref = P.count (some b)
  alive : ∀ b, some b ∈ P → ∃ x, s.body b = some x
  sync : ∀ b x, s.body b = some x → s.bt.size x.bt = s.bufs.size x.buf ∧ s.pt.size x.pt = s.bufs.size x.buf

theorem PInv.perm {s : PState} {P Q : List (Option Nat)} (v : PInv s P) (h : P.Perm Q) : PInv s Q :=
  { v with ref := fun b x hx => by rw [v.ref b x hx, h.count_eq], alive := fun b hb => v.alive b (h.mem_iff.mpr hb) }

theorem PInv.pkts {s : PState} {P : List (Option Nat)} (v : PInv s P) (l : List (Option Nat)) :
    PInv { s with pkts := l } P := ⟨v.bb, v.tb, v.tp, v.closed, v.range, v.inj, v.ref, v.alive, v.sync⟩

theorem PInv.none {s : PState} {P : List (Option Nat)} : PInv s (none :: P) ↔ PInv s P := by
  constructor
  · intro v
    exact { v with ref := fun b x hx => by rw [v.ref b x hx]; simp, alive := fun b hb => v.alive b (by simp [hb]) }
  · intro v
    exact { v with ref := fun b x hx => by rw [v.ref b x hx]; simp, alive := fun b hb => v.alive b (by simpa using hb) }

theorem view_pkts (s : PState) (l : List (Option Nat)) (p : Option Nat) : view { s with pkts := l } p = view s p := rfl

/-- The bytes, or everything, stay the same for some packets. -/
def Keep (s s' : PState) (P : List (Option Nat)) : Prop := ∀ p ∈ P, view s' p = view s p

theorem Keep.trans {s t u : PState} {P : List (Option Nat)} (h : Keep s t P) (k : Keep t u P) : Keep s u P :=
  fun p hp => (k p hp).trans (h p hp)

/-- Tags and sizes of the body stay the same; bytes unless something is written. -/
structure Still (s s' : PState) (x : Body) : Prop where
  bt : s'.bt.views[x.bt]? = s.bt.views[x.bt]?
  pt : s'.pt.views[x.pt]? = s.pt.views[x.pt]?
  seg : s'.bufs.bufs[x.buf]? = s.bufs.bufs[x.buf]?

theorem Still.view {s s' : PState} {x : Body} (h : Still s s' x) (hb : s'.bufs.bytes x.buf = s.bufs.bytes x.buf) :
    bodyView s' x = bodyView s x := by simp [bodyView, h.bt, h.pt, hb]

theorem Still.sync {s s' : PState} {x : Body} (h : Still s s' x)
    (hs : s.bt.size x.bt = s.bufs.size x.buf ∧ s.pt.size x.pt = s.bufs.size x.buf) :
    s'.bt.size x.bt = s'.bufs.size x.buf ∧ s'.pt.size x.pt = s'.bufs.size x.buf := by
  have e : s'.bufs.size x.buf = s.bufs.size x.buf := by simp [Zc.ZState.size, h.seg]
  rw [(Tag.same_view h.bt).2, (Tag.same_view h.pt).2, e]; exact hs

/-- Three operations that change nothing but the parts of one body (or of none), bodies and packets staying. -/
theorem act_still {s : PState} {P : List (Option Nat)} (v : PInv s P) {o : Zc.ZOp} {p : Tag.Op Nat}
    {q : Tag.Op (Option Nat)} {s' : PState} (h : act s o p q = some s') (b : Nat)
    (ho : ∀ c x, s.body c = some x → c ≠ b → x.buf ∉ o.targets)
    (hp : ∀ c x, s.body c = some x → c ≠ b → x.bt ∉ p.targets)
    (hq : ∀ c x, s.body c = some x → c ≠ b → x.pt ∉ q.targets)
    (hs : ∀ x, s.body b = some x → s'.bt.size x.bt = s'.bufs.size x.buf ∧ s'.pt.size x.pt = s'.bufs.size x.buf) :
    PInv s' P ∧ s'.body = s.body ∧ s'.pkts = s.pkts ∧ s'.next = s.next ∧ BufStep s.bufs s'.bufs o ∧
      s.bufs.step o = some s'.bufs ∧ s.bt.step p = some s'.bt ∧ s.pt.step q = some s'.pt ∧
      (∀ c x, s.body c = some x → c ≠ b → Still s s' x) := by
  unfold act at h
  split at h
  · rename_i a b' c' e1 e2 e3
    cases h
    have k1 := buf_step v.bb e1
    have still : ∀ c x, s.body c = some x → c ≠ b → Still s { s with bufs := a, bt := b', pt := c' } x := by
      intro c x hx hc
      have r := v.range c x hx
      exact ⟨(Tag.frame v.tb e2 r.2.1 (hp c x hx hc)).1, (Tag.frame v.tp e3 r.2.2 (hq c x hx hc)).1,
        k1.segs _ r.1 (ho c x hx hc)⟩
    refine ⟨⟨k1.base, (Tag.step_base v.tb e2).1, (Tag.step_base v.tp e3).1, v.closed, ?_, v.inj, v.ref, v.alive, ?_⟩,
      rfl, rfl, rfl, k1, e1, e2, e3, still⟩
    · intro c x hx
      have r := v.range c x hx
      exact ⟨Nat.lt_of_lt_of_le r.1 k1.le, Nat.lt_of_lt_of_le r.2.1 (tag_len v.tb e2),
        Nat.lt_of_lt_of_le r.2.2 (tag_len v.tp e3)⟩
    · intro c x hx
      by_cases hc : c = b
      · exact hs x (hc ▸ hx)
      · exact (still c x hx hc).sync (v.sync c x hx)
  · cases h

/-! ### Sizes -/

theorem bsize_addStart {s s' : Zc.ZState} (hb : Zc.Inv s) {i n : Nat}
    (h : s.step (.addStart i n) = some s') : s'.size i = s.size i + n := by
  rw [← Zc.bytes_len (buf_step hb h).base, ← Zc.bytes_len hb]
  obtain ⟨_, pre, e1, e2⟩ := buf_effect hb h trivial
  rw [e2, List.length_append, e1]; omega

theorem bsize_addEnd {s s' : Zc.ZState} (hb : Zc.Inv s) {i n : Nat}
    (h : s.step (.addEnd i n) = some s') : s'.size i = s.size i + n := by
  rw [← Zc.bytes_len (buf_step hb h).base, ← Zc.bytes_len hb]
  obtain ⟨_, pre, e1, e2⟩ := buf_effect hb h trivial
  rw [e2, List.length_append, e1]

theorem bsize_addStartBuf {s s' : Zc.ZState} (hb : Zc.Inv s) {i j : Nat} (hi : i < s.bufs.length)
    (h : s.step (.addStartBuf i j) = some s') : s'.size i = s.size i + s.size j :=
  (buf_effect hb h hi).2.trans (Nat.add_comm _ _)

theorem bsize_addEndBuf {s s' : Zc.ZState} (hb : Zc.Inv s) {i j : Nat} (hi : i < s.bufs.length)
    (h : s.step (.addEndBuf i j) = some s') : s'.size i = s.size i + s.size j :=
  (buf_effect hb h hi).2

theorem bsize_removeStart {s s' : Zc.ZState} (hb : Zc.Inv s) {i n : Nat} (hn : n ≤ s.size i)
    (h : s.step (.removeStart i n) = some s') : s'.size i = s.size i - n := by
  rw [← Zc.bytes_len (buf_step hb h).base, (buf_effect hb h trivial).2 (.inr hn), List.length_drop, Zc.bytes_len hb]

theorem bsize_removeEnd {s s' : Zc.ZState} (hb : Zc.Inv s) {i n : Nat} (hn : n ≤ s.size i)
    (h : s.step (.removeEnd i n) = some s') : s'.size i = s.size i - n := by
  rw [← Zc.bytes_len (buf_step hb h).base, (buf_effect hb h trivial).2 (.inr hn), List.length_take, Zc.bytes_len hb]
  omega

section tags
variable {V : Type} {s s' : Tag.State V}

theorem tsize_of {i : Nat} {v : Tag.View V} (h : s.views[i]? = some v) : s.size i = (v.be - v.bs).toNat :=
  (Tag.get_view h 0 0).2.2

theorem tview_le (b : Tag.TBase s.heap s.lists) {i : Nat} {v : Tag.View V} (h : s.views[i]? = some v) : v.bs ≤ v.be := by
  obtain ⟨t, ht, rfl⟩ := Tag.view_some h
  exact b.le t (List.mem_of_getElem? ht)

theorem set_get {α : Type} {L : List α} {i : Nat} {v w : α} (h : L[i]? = some v) : (L.set i w)[i]? = some w := by
  simp [Tag.lt_of h]

theorem tsize_addStart (b : Tag.TBase s.heap s.lists) {i n : Nat} (h : s.step (.addStart i n) = some s') :
    s'.size i = s.size i + n := by
  obtain ⟨v, v', h1, g, h2⟩ := (Tag.step_base b h).2
  have := tview_le b h1
  rw [tsize_of h1, tsize_of (h2 ▸ set_get h1), g.bs, g.be]; omega

theorem tsize_addEnd (b : Tag.TBase s.heap s.lists) {i n : Nat} (h : s.step (.addEnd i n) = some s') :
    s'.size i = s.size i + n := by
  obtain ⟨v, v', h1, g, h2⟩ := (Tag.step_base b h).2
  have := tview_le b h1
  rw [tsize_of h1, tsize_of (h2 ▸ set_get h1), g.bs, g.be]; omega

theorem tsize_removeStart (b : Tag.TBase s.heap s.lists) {i n : Nat} (h : s.step (.removeStart i n) = some s') :
    s'.size i = s.size i - n := by
  obtain ⟨v, h1, h2⟩ := (Tag.step_base b h).2
  have := tview_le b h1
  rw [tsize_of h1, tsize_of (h2 ▸ set_get h1)]; dsimp only; omega

theorem tsize_removeEnd (b : Tag.TBase s.heap s.lists) {i n : Nat} (h : s.step (.removeEnd i n) = some s') :
    s'.size i = s.size i - n := by
  obtain ⟨v, h1, h2⟩ := (Tag.step_base b h).2
  have := tview_le b h1
  rw [tsize_of h1, tsize_of (h2 ▸ set_get h1)]; dsimp only; omega

theorem tremoveStart_le (b : Tag.TBase s.heap s.lists) {i n : Nat} (h : s.step (.removeStart i n) = some s') :
    n ≤ s.size i := by
  simp only [Tag.State.step, Tag.State.on] at h
  split at h
  · cases h
  · rename_i t ht
    have := b.le t (List.mem_of_getElem? ht)
    unfold Tag.removeStart at h
    by_cases hc : t.bs + n ≤ t.be
    · simp only [Tag.State.size, ht]; omega
    · rw [if_neg hc] at h; cases h

theorem tremoveEnd_le (b : Tag.TBase s.heap s.lists) {i n : Nat} (h : s.step (.removeEnd i n) = some s') :
    n ≤ s.size i := by
  simp only [Tag.State.step, Tag.State.on] at h
  split at h
  · cases h
  · rename_i t ht
    have := b.le t (List.mem_of_getElem? ht)
    unfold Tag.removeEnd at h
    by_cases hc : t.bs ≤ t.be - n
    · simp only [Tag.State.size, ht]; omega
    · rw [if_neg hc] at h; cases h

theorem tsize_insert (b : Tag.TBase s.heap s.lists) {i id start size : Nat} {x : V}
    (h : s.step (.insert i id x start size) = some s') : s'.size i = s.size i := by
  obtain ⟨v, l, h1, _, h2⟩ := (Tag.step_base b h).2
  rw [tsize_of h1, tsize_of (h2 ▸ set_get h1)]

theorem tsize_addListStart (b : Tag.TBase s.heap s.lists) {i j : Nat} (h : s.step (.addListStart i j) = some s') :
    s'.size i = s.size i + s.size j := by
  obtain ⟨v, w, v', h1, h2, ⟨u, g, e1, e2, _⟩, h3⟩ := (Tag.step_base b h).2
  have := tview_le b h1
  rw [tsize_of h1, tsize_of h2, tsize_of (h3 ▸ set_get h1), e1, e2, g.bs, g.be]; omega

theorem tsize_addListEnd (b : Tag.TBase s.heap s.lists) {i j : Nat} (h : s.step (.addListEnd i j) = some s') :
    s'.size i = s.size i + s.size j := by
  obtain ⟨v, w, v', h1, h2, ⟨u, g, e1, e2, _⟩, h3⟩ := (Tag.step_base b h).2
  have := tview_le b h1
  rw [tsize_of h1, tsize_of h2, tsize_of (h3 ▸ set_get h1), e1, e2, g.bs, g.be]; omega

theorem tsize_assign (b : Tag.TBase s.heap s.lists) {i j : Nat} (h : s.step (.assign i j) = some s') (hi : i < s.lists.length) :
    s'.size i = s.size j ∧ s'.views[i]? = s.views[j]? := by
  obtain ⟨v, h1, h2⟩ := (Tag.step_base b h).2
  have : s'.views[i]? = some v := by rw [h2]; simp [Tag.view_lt.mpr hi]
  exact ⟨by rw [tsize_of h1, tsize_of this], by rw [this, h1]⟩

end tags

/-! ### Bodies -/

/-- The dirty ranges cover what packets and client use (see `Verif.Buf`). -/
def W (s : PState) : Prop := Buf.Wide (Buf.Cover.all false) s.bufs.mem s.bufs.segs

/-- A new body with one reference, held by a packet that gives up its old body. -/
theorem fork_ok {s s1 : PState} {P : List (Option Nat)} {old : Option Nat} (v : PInv s (old :: P)) {o : Zc.ZOp}
    (e1 : s.bufs.step o = some s1.bufs) (t1 : o.targets = []) (st : o.stores = false)
    (l1 : s.bufs.bufs.length < s1.bufs.bufs.length)
    (tb : Tag.TBase s1.bt.heap s1.bt.lists) (vb : ∀ k < s.bt.lists.length, s1.bt.views[k]? = s.bt.views[k]?)
    (lb : s.bt.lists.length < s1.bt.lists.length)
    (tp : Tag.TBase s1.pt.heap s1.pt.lists) (vp : ∀ k < s.pt.lists.length, s1.pt.views[k]? = s.pt.views[k]?)
    (lp : s.pt.lists.length < s1.pt.lists.length) (n1 : s1.next = s.next + 1)
    (b1 : s1.body s.next = some ⟨1, s.bufs.bufs.length, s.bt.lists.length, s.pt.lists.length⟩)
    (b2 : ∀ k, k ≠ s.next → s1.body k =
      (s.body k).map fun z => { z with ref := if old = some k then z.ref - 1 else z.ref })
    (hs : s1.bt.size s.bt.lists.length = s1.bufs.size s.bufs.bufs.length ∧
      s1.pt.size s.pt.lists.length = s1.bufs.size s.bufs.bufs.length) :
    PInv s1 (some s.next :: P) ∧ Keep s s1 P ∧ some s.next ∉ P := by
  have k1 := buf_step v.bb e1
  have hlt : ∀ b, some b ∈ P → b ≠ s.next := by
    intro b hb e
    obtain ⟨x, hx⟩ := v.alive b (by simp [hb])
    rw [v.closed b (by omega)] at hx; cases hx
  have hb : ∀ k y, s1.body k = some y → (k = s.next ∧ y = ⟨1, s.bufs.bufs.length, s.bt.lists.length, s.pt.lists.length⟩) ∨
      (k ≠ s.next ∧ ∃ z, s.body k = some z ∧ y = { z with ref := if old = some k then z.ref - 1 else z.ref }) := by
    intro k y hy
    by_cases e : k = s.next
    · rw [e, b1] at hy; exact .inl ⟨e, (Option.some.inj hy).symm⟩
    · rw [b2 k e] at hy
      cases hz : s.body k with
      | none => rw [hz] at hy; cases hy
      | some z => rw [hz] at hy; exact .inr ⟨e, z, rfl, (Option.some.inj hy).symm⟩
  have still : ∀ k z, s.body k = some z → Still s s1 z := by
    intro k z hz
    have r := v.range k z hz
    exact ⟨vb _ r.2.1, vp _ r.2.2, k1.segs _ r.1 (by simp [t1])⟩
  refine ⟨⟨k1.base, tb, tp, ?_, ?_, ?_, ?_, ?_, ?_⟩, ?_, ?_⟩
  · intro b hb
    rw [b2 b (by omega), v.closed b (by omega)]; rfl
  · intro k y hy
    rcases hb k y hy with ⟨_, rfl⟩ | ⟨_, z, hz, rfl⟩
    · exact ⟨l1, lb, lp⟩
    · have r := v.range k z hz
      exact ⟨by dsimp only; omega, by dsimp only; omega, by dsimp only; omega⟩
  · intro b c x y hx hy hbc
    rcases hb b x hx with ⟨h1, rfl⟩ | ⟨h1, z, hz, rfl⟩ <;> rcases hb c y hy with ⟨h2, rfl⟩ | ⟨h2, z', hz', rfl⟩
    · omega
    · have r := v.range c z' hz'
      exact ⟨by dsimp only; omega, by dsimp only; omega, by dsimp only; omega⟩
    · have r := v.range b z hz
      exact ⟨by dsimp only; omega, by dsimp only; omega, by dsimp only; omega⟩
    · exact v.inj b c z z' hz hz' hbc
  · intro k y hy
    rcases hb k y hy with ⟨h1, rfl⟩ | ⟨h1, z, hz, rfl⟩
    · rw [h1, List.count_cons_self, List.count_eq_zero.mpr (fun h => hlt _ h rfl)]
    · have := v.ref k z hz
      rw [List.count_cons] at this
      have e : ¬ ((some s.next : Option Nat) == some k) = true := by simpa using Ne.symm h1
      rw [List.count_cons, if_neg e]
      by_cases ho : old = some k
      · rw [if_pos (by simpa using ho)] at this; rw [if_pos ho]; dsimp only; omega
      · rw [if_neg (by simpa using ho)] at this; rw [if_neg ho]; dsimp only; omega
  · intro b hb
    rcases List.mem_cons.mp hb with e | hb
    · cases e; exact ⟨_, b1⟩
    · obtain ⟨x, hx⟩ := v.alive b (by simp [hb])
      exact ⟨_, by rw [b2 b (hlt b hb), hx]; rfl⟩
  · intro k y hy
    rcases hb k y hy with ⟨h1, rfl⟩ | ⟨h1, z, hz, rfl⟩
    · exact hs
    · exact (still k z hz).sync (v.sync k z hz)
  · intro p hp
    cases p with
    | none => rfl
    | some b =>
      obtain ⟨x, hx⟩ := v.alive b (by simp [hp])
      have e := b2 b (hlt b hp)
      rw [hx] at e
      rw [ZPacket.view_some e, ZPacket.view_some hx]
      have := (still b x hx).view (k1.frame st _ (v.range b x hx).1 (by simp [t1]))
      simpa [bodyView] using this
  · intro h; exact hlt _ h rfl

/-- `MakePrivate`. -/
structure Priv (s s1 : PState) (P : List (Option Nat)) (p : Option Nat) (i b : Nat) (x : Body) : Prop where
  inv : PInv s1 (some b :: P)
  keep : Keep s s1 P
  body : s1.body b = some x
  own : some b ∉ P
  view : view s1 (some b) = view s p
  pkts : s1.pkts = s.pkts.set i (some b)
  wide : W s → W s1
  idx : ∀ c y, s.body c = some y → ∃ y', s1.body c = some y' ∧ y'.buf = y.buf ∧ y'.bt = y.bt ∧ y'.pt = y.pt
  bufs : s.bufs.bufs.length ≤ s1.bufs.bufs.length ∧
    ∀ k < s.bufs.bufs.length, s1.bufs.bytes k = s.bufs.bytes k ∧ s1.bufs.bufs[k]? = s.bufs.bufs[k]?

theorem new_size {V : Type} {s s' : Tag.State V} (b : Tag.TBase s.heap s.lists) (h : s.step .new = some s') :
    Tag.TBase s'.heap s'.lists ∧ (∀ k < s.lists.length, s'.views[k]? = s.views[k]?) ∧
      s'.lists.length = s.lists.length + 1 ∧ s'.views[s.lists.length]? = some ⟨0, 0, []⟩ := by
  have hv := (Tag.step_base b h).2
  refine ⟨(Tag.step_base b h).1, fun k hk => (Tag.frame b h hk (by simp [Tag.Op.targets])).1, ?_, ?_⟩
  · have := congrArg List.length hv
    simpa [Tag.State.views] using this
  · have e : s.lists.length = s.views.length := by simp [Tag.State.views]
    rw [hv, e]; simp

theorem copy_size {V : Type} {s s' : Tag.State V} (b : Tag.TBase s.heap s.lists) {j : Nat} (h : s.step (.copy j) = some s') :
    Tag.TBase s'.heap s'.lists ∧ (∀ k < s.lists.length, s'.views[k]? = s.views[k]?) ∧
      s'.lists.length = s.lists.length + 1 ∧ s'.views[s.lists.length]? = s.views[j]? := by
  obtain ⟨v, h1, hv⟩ := (Tag.step_base b h).2
  refine ⟨(Tag.step_base b h).1, fun k hk => (Tag.frame b h hk (by simp [Tag.Op.targets])).1, ?_, ?_⟩
  · have := congrArg List.length hv
    simpa [Tag.State.views] using this
  · have e : s.lists.length = s.views.length := by simp [Tag.State.views]
    rw [hv, e, h1]; simp

theorem copy_bufs {s s' : Zc.ZState} (hb : Zc.Inv s) {j : Nat} (h : s.step (.copy j) = some s') :
    s'.bufs.length = s.bufs.length + 1 ∧ s'.bytes s.bufs.length = s.bytes j ∧ s'.size s.bufs.length = s.size j := by
  have e := buf_effect hb h trivial
  exact ⟨e.1, e.2, by rw [← Zc.bytes_len (buf_step hb h).base, ← Zc.bytes_len hb, e.2]⟩

theorem makePrivate_ok {s s1 : PState} {P : List (Option Nat)} {p : Option Nat} {i : Nat} {held : Bool} {x : Body}
    (v : PInv s (p :: P)) (hp : s.pkts[i]? = some p) (h : makePrivate s i held = some (s1, x)) :
    ∃ b, Priv s s1 P p i b x := by
  unfold makePrivate at h
  rw [hp] at h
  cases p with
  | none =>
    dsimp only at h
    split at h
    · rename_i a b c e1 e2 e3
      cases h
      obtain ⟨n1, n2, n3, n4⟩ := new_size v.tb e2
      obtain ⟨m1, m2, m3, m4⟩ := new_size v.tp e3
      have k1 := buf_step v.bb e1
      have f1 : a.bufs.length = s.bufs.bufs.length + 1 ∧ a.bytes s.bufs.bufs.length = List.replicate 0 0 :=
        buf_effect v.bb e1 trivial
      have bd : ∀ k, k ≠ s.next → (if k = s.next then some (⟨1, s.bufs.bufs.length, s.bt.lists.length, s.pt.lists.length⟩ : Body)
          else s.body k) = (s.body k).map fun z => { z with ref := if (none : Option Nat) = some k then z.ref - 1 else z.ref } := by
        intro k hk
        rw [if_neg hk]
        cases s.body k <;> simp
      obtain ⟨g1, g2, g3⟩ := fork_ok (s1 := (({ s with bufs := a, bt := b, pt := c } : PState).fresh i
          ⟨1, s.bufs.bufs.length, s.bt.lists.length, s.pt.lists.length⟩)) v e1 rfl rfl (by show _ < a.bufs.length; omega)
        n1 n2 (by show _ < b.lists.length; omega) m1 m2 (by show _ < c.lists.length; omega) rfl (if_pos rfl) bd
        (by
          show b.size _ = a.size _ ∧ c.size _ = a.size _
          rw [tsize_of n4, tsize_of m4, ← Zc.bytes_len k1.base, f1.2]; simp)
      refine ⟨s.next, g1, g2, if_pos rfl, g3, ?_, rfl, fun hw => (k1.wide trivial hw).1, ?_, k1.le, ?_⟩
      · rw [ZPacket.view_some (x := ⟨1, s.bufs.bufs.length, s.bt.lists.length, s.pt.lists.length⟩) (if_pos rfl)]
        show (⟨a.bytes _, b.views[_]?, c.views[_]?⟩ : PV) = PV.empty
        rw [n4, m4, f1.2]; rfl
      · intro c' y hy
        have hn : c' ≠ s.next := by rintro rfl; rw [v.closed _ (Nat.le_refl _)] at hy; cases hy
        exact ⟨y, by show (if _ then _ else _) = _; rw [if_neg hn]; exact hy, rfl, rfl, rfl⟩
      · intro k hk
        exact ⟨k1.frame rfl k hk (by simp [Zc.ZOp.targets]), k1.segs k hk (by simp [Zc.ZOp.targets])⟩
    · cases h
  | some d =>
    dsimp only at h
    cases hd : s.body d with
    | none => rw [hd] at h; cases h
    | some y =>
      rw [hd] at h; dsimp only at h
      by_cases hc : 1 < y.ref ∨ held = true
      · rw [if_pos hc] at h
        split at h
        · rename_i a b c e1 e2 e3
          cases h
          obtain ⟨n1, n2, n3, n4⟩ := copy_size v.tb e2
          obtain ⟨m1, m2, m3, m4⟩ := copy_size v.tp e3
          have k1 := buf_step v.bb e1
          have f1 := copy_bufs v.bb e1
          have hdn : d ≠ s.next := by rintro rfl; rw [v.closed _ (Nat.le_refl _)] at hd; cases hd
          have bd : ∀ k, k ≠ s.next → (if k = s.next then some (⟨1, s.bufs.bufs.length, s.bt.lists.length, s.pt.lists.length⟩ : Body)
              else if k = d then some { y with ref := y.ref - 1 } else s.body k) =
              (s.body k).map fun z => { z with ref := if some d = some k then z.ref - 1 else z.ref } := by
            intro k hk
            rw [if_neg hk]
            by_cases e : k = d
            · rw [if_pos e, e, hd]; simp
            · rw [if_neg e]
              have : ¬ d = k := fun h => e h.symm
              cases s.body k <;> simp [this]
          have sy := v.sync d y hd
          obtain ⟨g1, g2, g3⟩ := fork_ok (s1 := ((({ s with bufs := a, bt := b, pt := c } : PState).setBody d
              (some { y with ref := y.ref - 1 })).fresh i
              ⟨1, s.bufs.bufs.length, s.bt.lists.length, s.pt.lists.length⟩)) v e1 rfl rfl (by show _ < a.bufs.length; omega)
            n1 n2 (by show _ < b.lists.length; omega) m1 m2 (by show _ < c.lists.length; omega) rfl (if_pos rfl) bd
            (by
              show b.size _ = a.size _ ∧ c.size _ = a.size _
              rw [(Tag.same_view n4).2, (Tag.same_view m4).2, f1.2.2]; exact sy)
          refine ⟨s.next, g1, g2, if_pos rfl, g3, ?_, rfl, fun hw => (k1.wide trivial hw).1, ?_, k1.le, ?_⟩
          · rw [ZPacket.view_some (x := ⟨1, s.bufs.bufs.length, s.bt.lists.length, s.pt.lists.length⟩) (if_pos rfl),
              ZPacket.view_some hd]
            show (⟨a.bytes _, b.views[_]?, c.views[_]?⟩ : PV) = bodyView s y
            rw [n4, m4, f1.2.1]; rfl
          · intro c' z hz
            have hn : c' ≠ s.next := by rintro rfl; rw [v.closed _ (Nat.le_refl _)] at hz; cases hz
            have e := bd c' hn
            exact ⟨{ z with ref := if some d = some c' then z.ref - 1 else z.ref },
              e.trans (congrArg (Option.map _) hz), rfl, rfl, rfl⟩
          · intro k hk
            exact ⟨k1.frame rfl k hk (by simp [Zc.ZOp.targets]), k1.segs k hk (by simp [Zc.ZOp.targets])⟩
        · cases h
      · rw [if_neg hc] at h
        cases h
        refine ⟨d, v, fun _ _ => rfl, hd, ?_, rfl, ?_, fun h => h, fun c y hy => ⟨y, hy, rfl, rfl, rfl⟩,
          Nat.le_refl _, fun _ _ => ⟨rfl, rfl⟩⟩
        · have := v.ref d x hd
          rw [List.count_cons_self] at this
          exact List.count_eq_zero.mp (by omega)
        · apply List.ext_getElem?; intro k
          rw [List.getElem?_set]
          by_cases e : i = k
          · subst e; rw [if_pos rfl, hp, if_pos (Tag.lt_of hp)]
          · rw [if_neg e]

theorem view_of_idx {s : PState} {b : Nat} {x y : Body} (h : s.body b = some x) (e1 : x.buf = y.buf) (e2 : x.bt = y.bt)
    (e3 : x.pt = y.pt) : view s (some b) = bodyView s y := by
  rw [view_some h]; simp [bodyView, e1, e2, e3]

theorem addRef_ok {s s' : PState} {P : List (Option Nat)} {p : Option Nat} (v : PInv s P) (h : addRef s p = some s') :
    PInv s' (p :: P) ∧ (∀ q, view s' q = view s q) ∧ s'.pkts = s.pkts ∧ s'.bufs = s.bufs ∧
      ∀ c y, s.body c = some y → ∃ y', s'.body c = some y' ∧ y'.buf = y.buf ∧ y'.bt = y.bt ∧ y'.pt = y.pt := by
  cases p with
  | none => cases h; exact ⟨PInv.none.mpr v, fun _ => rfl, rfl, rfl, fun c y hy => ⟨y, hy, rfl, rfl, rfl⟩⟩
  | some b =>
    simp only [addRef] at h
    split at h
    · cases h
    · rename_i x hx
      cases h
      have hb : ∀ k y, (s.setBody b (some { x with ref := x.ref + 1 })).body k = some y →
          ∃ z, s.body k = some z ∧ y.buf = z.buf ∧ y.bt = z.bt ∧ y.pt = z.pt ∧
            y.ref = z.ref + if some b = some k then 1 else 0 := by
        intro k y hy
        simp only [PState.setBody] at hy
        by_cases e : k = b
        · rw [if_pos e] at hy; cases hy; exact ⟨x, e ▸ hx, rfl, rfl, rfl, by simp [e]⟩
        · rw [if_neg e] at hy
          exact ⟨y, hy, rfl, rfl, rfl, by simp [Ne.symm e]⟩
      refine ⟨⟨v.bb, v.tb, v.tp, ?_, ?_, ?_, ?_, ?_, ?_⟩, ?_, rfl, rfl, ?_⟩
      · intro k hk
        have : k ≠ b := by rintro rfl; rw [v.closed k hk] at hx; cases hx
        show (if _ then _ else _) = _
        rw [if_neg this]; exact v.closed k hk
      · intro k y hy
        obtain ⟨z, hz, e1, e2, e3, _⟩ := hb k y hy
        rw [e1, e2, e3]; exact v.range k z hz
      · intro k c y y' hy hy' hkc
        obtain ⟨z, hz, e1, e2, e3, _⟩ := hb k y hy
        obtain ⟨z', hz', e1', e2', e3', _⟩ := hb c y' hy'
        rw [e1, e2, e3, e1', e2', e3']; exact v.inj k c z z' hz hz' hkc
      · intro k y hy
        obtain ⟨z, hz, _, _, _, e⟩ := hb k y hy
        rw [e, v.ref k z hz, List.count_cons]
        simp
      · intro k hk
        by_cases e : k = b
        · exact ⟨_, if_pos e⟩
        · have : some k ∈ P := by
            rcases List.mem_cons.mp hk with h | h
            · cases h; exact absurd rfl e
            · exact h
          obtain ⟨z, hz⟩ := v.alive k this
          exact ⟨z, by show (if _ then _ else _) = _; rw [if_neg e]; exact hz⟩
      · intro k y hy
        obtain ⟨z, hz, e1, e2, e3, _⟩ := hb k y hy
        rw [e1, e2, e3]; exact v.sync k z hz
      · intro q
        cases q with
        | none => rfl
        | some k =>
          by_cases e : k = b
          · subst e
            rw [view_of_idx (y := x) (s := s.setBody k (some { x with ref := x.ref + 1 })) (if_pos rfl) rfl rfl rfl,
              view_some hx]; rfl
          · have : (s.setBody b (some { x with ref := x.ref + 1 })).body k = s.body k := if_neg e
            simp only [view, this]; rfl
      · intro k y hy
        by_cases e : k = b
        · subst e
          rw [hx] at hy; cases hy
          exact ⟨_, if_pos rfl, rfl, rfl, rfl⟩
        · exact ⟨y, by show (if _ then _ else _) = _; rw [if_neg e]; exact hy, rfl, rfl, rfl⟩

/-- An operation on the parts of a body that no other packet uses. -/
theorem own_act {s s' : PState} {P : List (Option Nat)} {b : Nat} {x : Body} (v : PInv s (some b :: P)) (hx : s.body b = some x)
    (hb : some b ∉ P) {o : Zc.ZOp} {p : Tag.Op Nat} {q : Tag.Op (Option Nat)} (h : act s o p q = some s')
    (ho : o.targets = [x.buf]) (hp : p.targets = [x.bt]) (hq : q.targets = [x.pt])
    (hs : s'.bt.size x.bt = s'.bufs.size x.buf ∧ s'.pt.size x.pt = s'.bufs.size x.buf) :
    PInv s' (some b :: P) ∧ s'.body = s.body ∧ s'.pkts = s.pkts ∧ (o.stores = false → Keep s s' P) ∧
      (o.plain (.all false) s.bufs → W s →
        W s' ∧ (o.isWrite = false → Keep s s' P)) := by
  obtain ⟨g1, g2, g3, g4, g5, _, _, _, g6⟩ := act_still v h b
    (fun c y hy hc => by rw [ho]; simpa using (v.inj c b y x hy hx hc).1)
    (fun c y hy hc => by rw [hp]; simpa using (v.inj c b y x hy hx hc).2.1)
    (fun c y hy hc => by rw [hq]; simpa using (v.inj c b y x hy hx hc).2.2)
    (fun y hy => by rw [hx] at hy; cases hy; exact hs)
  have fin : Zc.Frame s.bufs s'.bufs o → Keep s s' P := by
    intro f r hr
    cases r with
    | none => rfl
    | some c =>
      have hc : c ≠ b := fun e => hb (e ▸ hr)
      obtain ⟨y, hy⟩ := v.alive c (by simp [hr])
      rw [view_some hy, view_some (by rw [g2]; exact hy)]
      exact (g6 c y hy hc).view (f _ (v.range c y hy).1 (by rw [ho]; simpa using (v.inj c b y x hy hx hc).1))
  exact ⟨g1, g2, g3, fun hst => fin (g5.frame hst),
    fun hw h => ⟨(g5.wide hw h).1, fun hn => fin ((g5.wide hw h).2 hn)⟩⟩

theorem act_parts {s s' : PState} {o : Zc.ZOp} {p : Tag.Op Nat} {q : Tag.Op (Option Nat)} (h : act s o p q = some s') :
    s.bufs.step o = some s'.bufs ∧ s.bt.step p = some s'.bt ∧ s.pt.step q = some s'.pt := by
  unfold act at h
  split at h
  · rename_i e1 e2 e3; cases h; exact ⟨e1, e2, e3⟩
  · cases h

/-- A body that nobody uses is destroyed. -/
theorem kill_ok {s s' : PState} {P : List (Option Nat)} {b : Nat} {x : Body} (v : PInv s (some b :: P)) (hx : s.body b = some x)
    (hb : some b ∉ P) (h : kill s b x = some s') :
    PInv s' P ∧ Keep s s' P ∧ s'.pkts = s.pkts ∧ (W s → W s') ∧ s'.body b = none ∧
      ∀ c, c ≠ b → s'.body c = s.body c := by
  unfold kill at h
  split at h
  · cases h
  · rename_i s1 e
    cases h
    obtain ⟨p1, p2, p3⟩ := act_parts e
    have r := v.range b x hx
    have d1 : s1.bufs.bytes x.buf = [] := (buf_effect v.bb p1 trivial).2
    have d2 : s1.bt.views = s.bt.views.set x.bt ⟨0, 0, []⟩ := (Tag.step_base v.tb p2).2
    have d3 : s1.pt.views = s.pt.views.set x.pt ⟨0, 0, []⟩ := (Tag.step_base v.tp p3).2
    obtain ⟨g1, g2, g3, g4, g5⟩ := own_act v hx hb e rfl rfl rfl (by
      have e2 : s1.bt.views[x.bt]? = some ⟨0, 0, []⟩ := by
        rw [d2]; simp [Tag.view_lt.mpr r.2.1]
      have e3 : s1.pt.views[x.pt]? = some ⟨0, 0, []⟩ := by
        rw [d3]; simp [Tag.view_lt.mpr r.2.2]
      rw [tsize_of e2, tsize_of e3, ← Zc.bytes_len (buf_step v.bb p1).base, d1]; simp)
    have hbd : ∀ k y, (s1.setBody b none).body k = some y → k ≠ b ∧ s1.body k = some y := by
      intro k y hy
      simp only [PState.setBody] at hy
      by_cases e : k = b
      · rw [if_pos e] at hy; cases hy
      · rw [if_neg e] at hy; exact ⟨e, hy⟩
    have hne : ∀ k, k ≠ b → (s1.setBody b none).body k = s.body k := by
      intro k hk; show (if _ then _ else _) = _; rw [if_neg hk, g2]
    refine ⟨⟨g1.bb, g1.tb, g1.tp, ?_, ?_, ?_, ?_, ?_, ?_⟩, ?_, g3, fun hw => (g5 trivial hw).1, if_pos rfl, hne⟩
    · intro k hk
      show (if _ then _ else _) = _
      split
      · rfl
      · exact g1.closed k hk
    · exact fun k y hy => g1.range k y (hbd k y hy).2
    · exact fun k c y z hy hz hkc => g1.inj k c y z (hbd k y hy).2 (hbd c z hz).2 hkc
    · intro k y hy
      have := g1.ref k y (hbd k y hy).2
      rw [List.count_cons] at this
      simpa [Ne.symm (hbd k y hy).1] using this
    · intro k hk
      have hkb : k ≠ b := fun e => hb (e ▸ hk)
      obtain ⟨y, hy⟩ := v.alive k (by simp [hk])
      exact ⟨y, (hne k hkb).trans hy⟩
    · exact fun k y hy => g1.sync k y (hbd k y hy).2
    · intro p hp
      have k1 := g4 rfl p hp
      cases p with
      | none => rfl
      | some k =>
        have hkb : k ≠ b := fun e => hb (e ▸ hp)
        rw [← k1]
        have : (s1.setBody b none).body k = s1.body k := if_neg hkb
        simp only [view, this]; rfl

theorem release_ok {s s' : PState} {P : List (Option Nat)} {p : Option Nat} {held : Bool} (v : PInv s (p :: P))
    (h : release s p held = some s') :
    PInv s' P ∧ Keep s s' P ∧ s'.pkts = s.pkts ∧ (W s → W s') := by
  cases p with
  | none => cases h; exact ⟨PInv.none.mp v, fun _ _ => rfl, rfl, fun h => h⟩
  | some b =>
    simp only [release] at h
    split at h
    · cases h
    · rename_i x hx
      have hr := v.ref b x hx
      rw [List.count_cons_self] at hr
      by_cases hc : x.ref = 1 ∧ held = false
      · rw [if_pos hc] at h
        obtain ⟨g1, g2, g3, g4, _⟩ := kill_ok v hx (List.count_eq_zero.mp (by omega)) h
        exact ⟨g1, g2, g3, g4⟩
      · rw [if_neg hc] at h
        cases h
        have hb : ∀ k y, (s.setBody b (some { x with ref := x.ref - 1 })).body k = some y →
            ∃ z, s.body k = some z ∧ y.buf = z.buf ∧ y.bt = z.bt ∧ y.pt = z.pt ∧
              z.ref = y.ref + if some b = some k then 1 else 0 := by
          intro k y hy
          simp only [PState.setBody] at hy
          by_cases e : k = b
          · rw [if_pos e] at hy; cases hy; exact ⟨x, e ▸ hx, rfl, rfl, rfl, by simp [e]; omega⟩
          · rw [if_neg e] at hy
            exact ⟨y, hy, rfl, rfl, rfl, by simp [Ne.symm e]⟩
        refine ⟨⟨v.bb, v.tb, v.tp, ?_, ?_, ?_, ?_, ?_, ?_⟩, ?_, rfl, fun h => h⟩
        · intro k hk
          have : k ≠ b := by rintro rfl; rw [v.closed k hk] at hx; cases hx
          show (if _ then _ else _) = _
          rw [if_neg this]; exact v.closed k hk
        · intro k y hy
          obtain ⟨z, hz, e1, e2, e3, _⟩ := hb k y hy
          rw [e1, e2, e3]; exact v.range k z hz
        · intro k c y y' hy hy' hkc
          obtain ⟨z, hz, e1, e2, e3, _⟩ := hb k y hy
          obtain ⟨z', hz', e1', e2', e3', _⟩ := hb c y' hy'
          rw [e1, e2, e3, e1', e2', e3']; exact v.inj k c z z' hz hz' hkc
        · intro k y hy
          obtain ⟨z, hz, _, _, _, e⟩ := hb k y hy
          have := v.ref k z hz
          rw [List.count_cons] at this
          by_cases e' : b = k
          · simp [e'] at this e; omega
          · simp [e'] at this e; omega
        · intro k hk
          by_cases e : k = b
          · exact ⟨_, if_pos e⟩
          · obtain ⟨z, hz⟩ := v.alive k (by simp [hk])
            exact ⟨z, by show (if _ then _ else _) = _; rw [if_neg e]; exact hz⟩
        · intro k y hy
          obtain ⟨z, hz, e1, e2, e3, _⟩ := hb k y hy
          rw [e1, e2, e3]; exact v.sync k z hz
        · intro q hq
          cases q with
          | none => rfl
          | some k =>
            by_cases e : k = b
            · subst e
              rw [view_of_idx (y := x) (s := s.setBody k (some { x with ref := x.ref - 1 })) (if_pos rfl) rfl rfl rfl,
                view_some hx]; rfl
            · have : (s.setBody b (some { x with ref := x.ref - 1 })).body k = s.body k := if_neg e
              simp only [view, this]; rfl

end Verif.ZPacket
