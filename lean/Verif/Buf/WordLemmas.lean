import Verif.Buf.Word
import Verif.Buf.Props

/-! Helper lemmas about the sizes of `Buffer` in 64-bit words (C139). -/
set_option linter.unusedSimpArgs false
set_option linter.unusedVariables false
namespace Verif.Buf

theorem wadd_eq {a b : Nat} (h : a + b < 2 ^ 64) : wadd a b = a + b := Nat.mod_eq_of_lt h

theorem wsub_eq {a b : Nat} (h : b ≤ a) (ha : a < 2 ^ 64) : wsub a b = a - b := by
  unfold wsub; omega

theorem wadd_shift {lo hi pos : Nat} (h : lo ≤ hi) (hl : lo < 2 ^ 64) (hp : pos + (hi - lo) < 2 ^ 64) :
    wadd hi (wsub pos lo) = pos + (hi - lo) := by
  unfold wadd wsub; omega

theorem wadd_shift' {lo hi pos n : Nat} (h : lo ≤ hi) (hl : lo < 2 ^ 64) (hp : pos + (hi - lo) + n < 2 ^ 64) :
    wadd hi (wadd (wsub pos lo) n) = pos + (hi - lo) + n := by
  unfold wadd wsub; omega

/-- Every storage can be allocated. -/
def Caps (m : Mem) : Prop := ∀ id x, m.mem id = some x → 39 + x.cap < 2 ^ 64

theorem caps_put {m : Mem} {id : Nat} {x : Storage} (h : Caps m) (hx : 39 + x.cap < 2 ^ 64) : Caps (m.put id (some x)) := by
  intro k y hy
  simp only [put_mem] at hy
  split at hy
  · cases hy; exact hx
  · exact h k y hy

theorem caps_del {m : Mem} {id : Nat} (h : Caps m) : Caps (m.put id none) := by
  intro k y hy
  simp only [put_mem] at hy
  split at hy
  · cases hy
  · exact h k y hy

theorem caps_dirty {m m' : Mem} {id a b : Nat} (h : Caps m) (e : m.dirty id a b = some m') : Caps m' := by
  unfold Mem.dirty at e
  split at e
  · cases e
  · rename_i x hx; cases e; exact caps_put h (h id x hx)

theorem caps_write {m m' : Mem} {id a : Nat} {d : List Byte} (h : Caps m) (e : m.write id a d = some m') : Caps m' := by
  unfold Mem.write at e
  split at e
  · cases e
  · rename_i x hx
    split at e
    · cases e; exact caps_put h (h id x hx)
    · cases e

theorem caps_addRef {m m' : Mem} {id : Nat} (h : Caps m) (e : m.addRef id = some m') : Caps m' := by
  unfold Mem.addRef at e
  split at e
  · cases e
  · rename_i x hx; cases e; exact caps_put h (h id x hx)

theorem caps_release {m m' : Mem} {id : Nat} (h : Caps m) (e : m.release id = some m') : Caps m' := by
  unfold Mem.release at e
  split at e
  · cases e
  · rename_i x hx
    split at e
    · cases e
    · split at e
      · cases e; exact caps_del h
      · cases e; exact caps_put h (h id x hx)

theorem caps_drop {m m' : Mem} {s : Seg} (h : Caps m) (e : m.drop s = some m') : Caps m' := by
  unfold Mem.drop at e
  split at e
  · cases e; exact h
  · exact caps_release h e

theorem caps_acquire {m m' : Mem} {s : Seg} (h : Caps m) (e : m.acquire s = some m') : Caps m' := by
  unfold Mem.acquire at e
  split at e
  · cases e; exact h
  · exact caps_addRef h e

theorem caps_fill {m m' : Mem} {s : Seg} {off : Nat} {d : List Byte} (h : Caps m) (e : m.fill s off d = some m') :
    Caps m' := by
  unfold Mem.fill at e
  split at e
  · split at e
    · cases e; exact h
    · cases e
  · exact caps_write h e

theorem caps_wallocate {m m' : Mem} {n : Nat} {id : Option Nat} (h : Caps m) (e : m.wallocate n = some (m', id)) :
    Caps m' := by
  unfold Mem.wallocate at e
  split at e
  · cases e; exact h
  · split at e
    · rename_i hn; cases e
      exact caps_put (m := m) h hn
    · cases e

theorem wallocate_eq {m : Mem} {n : Nat} (h : 39 + n < 2 ^ 64) : m.wallocate n = some (m.allocate n) := by
  unfold Mem.wallocate Mem.allocate
  by_cases hn : n = 0
  · simp only [if_pos hn]
  · simp only [if_neg hn, if_pos h]

theorem caps_wrealloc {m : Mem} {st lo ds size c a p} {g : WGrown} (h : Caps m)
    (e : wrealloc m st lo ds size c a p = some g) : Caps g.mem := by
  unfold wrealloc at e
  split at e
  · cases e
  · cases e
  · rename_i m1 id e1
    split at e
    · cases e
    · split at e
      · cases e
      · rename_i m2 e2
        split at e
        · cases e
        · rename_i m3 e3
          split at e
          · cases e
          · rename_i m4 e4
            cases e
            exact caps_dirty (caps_drop (caps_write (caps_wallocate h e1) e2) e3) e4

theorem caps_wgrowStart {m : Mem} {st lo ds size} {g : WGrown} (h : Caps m)
    (e : wgrowStart m st lo ds size = some g) : Caps g.mem := by
  have hA : ∀ id x, wadjustStart m lo id x size = some g → Caps g.mem := by
    intro id x e
    unfold wadjustStart at e
    split at e
    · cases e
    · rename_i m1 e1; cases e; exact caps_dirty h e1
  have hM : ∀ id, wmoveStart m lo ds id size = some g → Caps g.mem := by
    intro id e
    unfold wmoveStart at e
    split at e
    · cases e
    · split at e
      · cases e
      · rename_i m1 e1
        split at e
        · cases e
        · rename_i m2 e2; cases e; exact caps_dirty (caps_write h e1) e2
  unfold wgrowStart at e
  split at e
  · exact caps_wrealloc h e
  · split at e
    · cases e
    · repeat' split at e
      all_goals first | exact caps_wrealloc h e | exact hA _ _ e | exact hM _ e

theorem caps_wgrowEnd {m : Mem} {st lo ds size} {g : WGrown} (h : Caps m)
    (e : wgrowEnd m st lo ds size = some g) : Caps g.mem := by
  have hA : ∀ id x, wadjustEnd m lo ds id x size = some g → Caps g.mem := by
    intro id x e
    unfold wadjustEnd at e
    split at e
    · cases e
    · rename_i m1 e1; cases e; exact caps_dirty h e1
  have hM : ∀ id x, wmoveEnd m lo ds id x size = some g → Caps g.mem := by
    intro id x e
    unfold wmoveEnd at e
    dsimp only at e
    split at e
    · cases e
    · split at e
      · cases e
      · rename_i m1 e1
        split at e
        · cases e
        · rename_i m2 e2; cases e; exact caps_dirty (caps_write h e1) e2
  unfold wgrowEnd at e
  split at e
  · exact caps_wrealloc h e
  · split at e
    · cases e
    · dsimp only at e
      repeat' split at e
      all_goals first | exact caps_wrealloc h e | exact hA _ _ e | exact hM _ _ e

/-! ### Growth in words is growth -/

/-- What the word model says about the result of growing. -/
def Grown.w (g : Grown) : WGrown := ⟨g.mem, g.seg.st, g.seg.lo, g.pos⟩

theorem wrealloc_eq {m : Mem} {s : Seg} {size c a p : Nat} (hc : 39 + c < 2 ^ 64) (ha : a + size + (s.hi - s.lo) < 2 ^ 64) :
    wrealloc m s.st s.lo (s.hi - s.lo) size c a p = (realloc m s size c a p).map Grown.w := by
  unfold wrealloc realloc
  rw [wallocate_eq hc, wadd_eq (a := a) (b := size) (by omega), wadd_eq ha]
  cases e1 : m.allocate c with
  | mk m1 o =>
    cases o with
    | none => rfl
    | some id =>
      have e2 : m1.readOf s.st s.lo (s.hi - s.lo) = m1.readSeg s := by
        unfold Mem.readOf Mem.readSeg; rfl
      dsimp only
      rw [e2]
      cases m1.readSeg s with
      | none => rfl
      | some d =>
        dsimp only
        cases m1.write id p d with
        | none => rfl
        | some m2 =>
          dsimp only
          have e3 : m2.drop ⟨s.st, s.lo, s.lo⟩ = m2.drop s := rfl
          rw [e3]
          cases m2.drop s with
          | none => rfl
          | some m3 =>
            dsimp only
            cases m3.dirty id a (a + size + (s.hi - s.lo)) with
            | none => rfl
            | some m4 => rfl

/-- The range of a buffer lies in its storage. -/
def Held (m : Mem) (s : Seg) : Prop :=
  s.lo ≤ s.hi ∧ (s.st = none → s.hi = 0) ∧ ∀ id x, s.st = some id → m.mem id = some x → s.hi ≤ x.cap

theorem held_of {m : Mem} {L : List Seg} (hb : Base m L) {s : Seg} (hs : s ∈ L) : Held m s := by
  refine ⟨?_, fun h => (hb.null s hs h).2, ?_⟩
  · cases e : s.st with
    | none => have := hb.null s hs e; omega
    | some id => obtain ⟨x, _, h, _⟩ := hb.held s hs id e; exact h
  · intro id x h hx
    obtain ⟨y, hy, _, h2⟩ := hb.held s hs id h
    rw [hy] at hx; cases hx; exact h2

theorem held_lt {m : Mem} {L : List Seg} (hb : Base m L) (hc : Caps m) {s : Seg} (hs : s ∈ L) : s.hi + 39 < 2 ^ 64 := by
  cases e : s.st with
  | none => have := hb.null s hs e; omega
  | some id =>
    obtain ⟨y, hy, _, h2⟩ := hb.held s hs id e
    have := hc id y hy
    omega

theorem wgrowStart_eq {m : Mem} {s : Seg} (hs : Held m s) (hc : Caps m) {size : Nat}
    (hn : 39 + ((s.hi - s.lo) + size) < 2 ^ 64) :
    wgrowStart m s.st s.lo (s.hi - s.lo) size = (growStart m s size).map Grown.w := by
  obtain ⟨h1, h2, h3⟩ := hs
  unfold wgrowStart growStart
  cases e : s.st with
  | none =>
    dsimp only
    rw [← e, wrealloc_eq (by omega) (by omega)]
  | some id =>
    dsimp only
    cases ex : m.mem id with
    | none => rfl
    | some x =>
      have h4 := h3 id x e ex
      have h5 := hc id x ex
      dsimp only
      rw [wadd_eq (a := s.hi - s.lo) (b := size) (by omega), wadd_eq (a := size) (b := s.hi - s.lo) (by omega), ← e]
      have hA : size ≤ s.lo → wadjustStart m s.lo id x size = (adjustStart m s id x size).map Grown.w := by
        intro h
        unfold wadjustStart adjustStart
        rw [wsub_eq h (by omega)]
        cases m.dirty id (s.lo - size) x.de <;> rfl
      have hM : wmoveStart m s.lo (s.hi - s.lo) id size = (moveStart m s id size).map Grown.w := by
        unfold wmoveStart moveStart
        rw [wadd_eq (a := size) (b := s.hi - s.lo) (by omega)]
        cases m.read id s.lo (s.hi - s.lo) with
        | none => rfl
        | some d =>
          dsimp only
          cases m.write id size d with
          | none => rfl
          | some m1 =>
            dsimp only
            cases m1.dirty id 0 (size + (s.hi - s.lo)) <;> rfl
      by_cases c1 : x.ref = 1
      · simp only [if_pos c1]
        by_cases c2 : size ≤ s.lo
        · simp only [if_pos c2]; exact hA c2
        · simp only [if_neg c2]
          by_cases c3 : s.hi - s.lo + size ≤ x.cap
          · simp only [if_pos c3]; exact hM
          · simp only [if_neg c3]; exact wrealloc_eq (by omega) (by omega)
      · simp only [if_neg c1]
        by_cases c4 : x.ds = s.lo
        · simp only [if_pos c4]
          by_cases c2 : size ≤ s.lo
          · simp only [if_pos c2]; exact hA c2
          · simp only [if_neg c2]; exact wrealloc_eq (by omega) (by omega)
        · simp only [if_neg c4]
          by_cases c2 : size ≤ s.lo
          · simp only [if_pos c2]
            rw [wsub_eq c2 (by omega)]; exact wrealloc_eq h5 (by omega)
          · simp only [if_neg c2]; exact wrealloc_eq (by omega) (by omega)

theorem wgrowEnd_eq {m : Mem} {s : Seg} (hs : Held m s) (hc : Caps m) {size : Nat}
    (hn : 39 + ((s.hi - s.lo) + size) < 2 ^ 64) :
    wgrowEnd m s.st s.lo (s.hi - s.lo) size = (growEnd m s size).map Grown.w := by
  obtain ⟨h1, h2, h3⟩ := hs
  unfold wgrowEnd growEnd
  cases e : s.st with
  | none =>
    dsimp only
    rw [← e, wrealloc_eq (by omega) (by omega)]
  | some id =>
    dsimp only
    cases ex : m.mem id with
    | none => rfl
    | some x =>
      have h4 := h3 id x e ex
      have h5 := hc id x ex
      dsimp only
      rw [wadd_eq (a := s.hi - s.lo) (b := size) (by omega), wadd_eq (a := size) (b := s.hi - s.lo) (by omega),
        wadd_eq (a := s.lo) (b := s.hi - s.lo) (by omega), wsub_eq (a := x.cap) (by omega) (by omega), ← e]
      have hA : size ≤ x.cap - (s.lo + (s.hi - s.lo)) →
          wadjustEnd m s.lo (s.hi - s.lo) id x size = (adjustEnd m s id x size).map Grown.w := by
        intro h
        unfold wadjustEnd adjustEnd
        rw [wadd_eq (a := s.lo) (b := s.hi - s.lo) (by omega), wadd_eq (by omega)]
        cases m.dirty id x.ds (s.lo + (s.hi - s.lo) + size) <;> rfl
      have hM : s.hi - s.lo + size ≤ x.cap →
          wmoveEnd m s.lo (s.hi - s.lo) id x size = (moveEnd m s id x size).map Grown.w := by
        intro h
        unfold wmoveEnd moveEnd
        dsimp only
        rw [wadd_eq (a := s.hi - s.lo) (b := size) (by omega), wsub_eq h (by omega)]
        cases m.read id s.lo (s.hi - s.lo) with
        | none => rfl
        | some d =>
          dsimp only
          cases m.write id (x.cap - (s.hi - s.lo + size)) d with
          | none => rfl
          | some m1 =>
            dsimp only
            cases m1.dirty id (x.cap - (s.hi - s.lo + size)) x.cap <;> rfl
      by_cases c2 : size ≤ x.cap - (s.lo + (s.hi - s.lo))
      · simp only [if_pos c2]
        by_cases c1 : x.ref = 1
        · simp only [if_pos c1]; exact hA c2
        · simp only [if_neg c1]
          by_cases c4 : x.de = s.lo + (s.hi - s.lo)
          · simp only [if_pos c4]; exact hA c2
          · simp only [if_neg c4]; exact wrealloc_eq h5 (by omega)
      · simp only [if_neg c2]
        by_cases c1 : x.ref = 1
        · simp only [if_pos c1]
          by_cases c3 : s.hi - s.lo + size ≤ x.cap
          · simp only [if_pos c3]; exact hM c3
          · simp only [if_neg c3]; exact wrealloc_eq (by omega) (by omega)
        · simp only [if_neg c1]
          by_cases c4 : x.de = s.lo + (s.hi - s.lo)
          · simp only [if_pos c4]; exact wrealloc_eq (by omega) (by omega)
          · simp only [if_neg c4]; exact wrealloc_eq (by omega) (by omega)

/-! ### Where the data go -/

theorem realloc_hi {m : Mem} {s : Seg} {size c a p : Nat} {g : Grown} (e : realloc m s size c a p = some g) :
    g.pos = p ∧ g.seg.lo = a ∧ g.seg.hi = a + size + (s.hi - s.lo) := by
  unfold realloc at e
  split at e
  · cases e
  · split at e
    · cases e
    · split at e
      · cases e
      · split at e
        · cases e
        · split at e
          · cases e
          · cases e; exact ⟨rfl, rfl, rfl⟩

theorem growStart_hi {m : Mem} {s : Seg} (hs : s.lo ≤ s.hi) {size : Nat} {g : Grown} (e : growStart m s size = some g) :
    g.seg.hi = g.pos + (s.hi - s.lo) ∧ (g.pos = size ∨ g.pos = s.lo) := by
  unfold growStart at e
  have hR : ∀ {c a p : Nat}, (p = a + size) → (p = size ∨ p = s.lo) → realloc m s size c a p = some g →
      g.seg.hi = g.pos + (s.hi - s.lo) ∧ (g.pos = size ∨ g.pos = s.lo) := by
    intro c a p h h' e
    obtain ⟨r1, r2, r3⟩ := realloc_hi e
    rw [r1, r3, h]; exact ⟨rfl, h ▸ h'⟩
  have hA : ∀ {id x}, adjustStart m s id x size = some g →
      g.seg.hi = g.pos + (s.hi - s.lo) ∧ (g.pos = size ∨ g.pos = s.lo) := by
    intro id x e
    unfold adjustStart at e
    split at e
    · cases e
    · cases e; exact ⟨by simp only; omega, .inr rfl⟩
  have hM : ∀ {id}, moveStart m s id size = some g →
      g.seg.hi = g.pos + (s.hi - s.lo) ∧ (g.pos = size ∨ g.pos = s.lo) := by
    intro id e
    unfold moveStart at e
    split at e
    · cases e
    · split at e
      · cases e
      · split at e
        · cases e
        · cases e; exact ⟨rfl, .inl rfl⟩
  split at e
  · exact hR (by omega) (.inl rfl) e
  · split at e
    · cases e
    · repeat' split at e
      all_goals first | exact hA e | exact hM e | exact hR (by omega) (.inl rfl) e | exact hR rfl (.inr (by omega)) e

theorem growEnd_hi {m : Mem} {s : Seg} (hs : Held m s) {size : Nat} {g : Grown} (e : growEnd m s size = some g) :
    g.seg.hi = g.pos + (s.hi - s.lo) + size ∧ (g.pos = 0 ∨ ∃ id x, m.mem id = some x ∧ s.st = some id ∧
      g.pos + (s.hi - s.lo) + size ≤ x.cap) := by
  obtain ⟨h1, h2, h3⟩ := hs
  unfold growEnd at e
  have hR : ∀ {c a p : Nat}, p = a → realloc m s size c a p = some g →
      g.seg.hi = g.pos + (s.hi - s.lo) + size ∧ g.pos = p := by
    intro c a p h e
    obtain ⟨r1, r2, r3⟩ := realloc_hi e
    rw [r1, r3, h]; exact ⟨by omega, rfl⟩
  split at e
  · obtain ⟨r1, r2⟩ := hR rfl e; exact ⟨r1, .inl r2⟩
  · rename_i id ei
    split at e
    · cases e
    · rename_i x ex
      have h4 := h3 id x ei ex
      have hA : size ≤ x.cap - (s.lo + (s.hi - s.lo)) → adjustEnd m s id x size = some g →
          g.seg.hi = g.pos + (s.hi - s.lo) + size ∧ (g.pos = 0 ∨ ∃ id x, m.mem id = some x ∧ s.st = some id ∧
            g.pos + (s.hi - s.lo) + size ≤ x.cap) := by
        intro h e
        unfold adjustEnd at e
        split at e
        · cases e
        · cases e; exact ⟨by simp only; omega, .inr ⟨id, x, ex, ei, by simp only; omega⟩⟩
      have hM : s.hi - s.lo + size ≤ x.cap → moveEnd m s id x size = some g →
          g.seg.hi = g.pos + (s.hi - s.lo) + size ∧ (g.pos = 0 ∨ ∃ id x, m.mem id = some x ∧ s.st = some id ∧
            g.pos + (s.hi - s.lo) + size ≤ x.cap) := by
        intro h e
        unfold moveEnd at e
        dsimp only at e
        split at e
        · cases e
        · split at e
          · cases e
          · split at e
            · cases e
            · cases e; exact ⟨rfl, .inr ⟨id, x, ex, ei, by simp only; omega⟩⟩
      have hR0 : ∀ {c : Nat}, realloc m s size c 0 0 = some g →
          g.seg.hi = g.pos + (s.hi - s.lo) + size ∧ (g.pos = 0 ∨ ∃ id x, m.mem id = some x ∧ s.st = some id ∧
            g.pos + (s.hi - s.lo) + size ≤ x.cap) := by
        intro c e; obtain ⟨r1, r2⟩ := hR rfl e; exact ⟨r1, .inl r2⟩
      split at e
      · split at e
        · rename_i h; exact hA h e
        · split at e
          · rename_i h; exact hM h e
          · exact hR0 e
      · split at e
        · split at e
          · rename_i h; exact hA h e
          · exact hR0 e
        · split at e
          · rename_i h
            obtain ⟨r1, r2⟩ := hR rfl e
            exact ⟨r1, .inr ⟨id, x, ex, ei, by rw [r2]; omega⟩⟩
          · exact hR0 e

/-! ### The operations -/

section
variable {m : Mem} {s : Seg}

theorem waddAtStart_eq (hs : Held m s) (hc : Caps m) (hl : s.hi + 39 < 2 ^ 64) {n : Nat}
    (hn : 39 + ((s.hi - s.lo) + n) < 2 ^ 64) : waddAtStart m s n = addAtStart m s n := by
  unfold waddAtStart addAtStart
  split
  · rfl
  · rw [wsub_eq hs.1 (by omega), wgrowStart_eq hs hc hn]
    cases e : growStart m s n with
    | none => rfl
    | some g =>
      obtain ⟨r1, r2⟩ := growStart_hi hs.1 e
      have := hs.1
      simp only [Option.map_some, Grown.w, Option.some.injEq, Prod.mk.injEq, true_and]
      rw [wadd_shift hs.1 (by omega) (by omega), ← r1]

theorem waddAtEnd_eq (hs : Held m s) (hc : Caps m) (hl : s.hi + 39 < 2 ^ 64) {n : Nat}
    (hn : 39 + ((s.hi - s.lo) + n) < 2 ^ 64) : waddAtEnd m s n = addAtEnd m s n := by
  unfold waddAtEnd addAtEnd
  split
  · rfl
  · rw [wsub_eq hs.1 (by omega), wgrowEnd_eq hs hc hn]
    cases e : growEnd m s n with
    | none => rfl
    | some g =>
      obtain ⟨r1, r2⟩ := growEnd_hi hs e
      have := hs.1
      simp only [Option.map_some, Grown.w, Option.some.injEq, Prod.mk.injEq, true_and]
      rw [wadd_shift' hs.1 (by omega), ← r1]
      rcases r2 with r2 | ⟨id, x, ex, ei, h⟩
      · omega
      · have := hc id x ex; omega

theorem wcopyOut_eq (hs : Held m s) (hl : s.hi + 39 < 2 ^ 64) (n : Nat) : wcopyOut m s n = copyOut m s n := by
  unfold wcopyOut copyOut
  rw [wsub_eq hs.1 (by omega)]
  cases s.st <;> rfl

theorem wremoveAtStart_eq (hs : Held m s) (hl : s.hi + 39 < 2 ^ 64) (n : Nat) :
    wremoveAtStart m s n = removeAtStart m s n := by
  unfold wremoveAtStart removeAtStart
  rw [wsub_eq hs.1 (by omega)]
  have := hs.1
  split
  · rw [wadd_eq (by omega)]
  · rfl

theorem wremoveAtEnd_eq (hs : Held m s) (hl : s.hi + 39 < 2 ^ 64) (n : Nat) :
    wremoveAtEnd m s n = removeAtEnd m s n := by
  unfold wremoveAtEnd removeAtEnd
  rw [wsub_eq hs.1 (by omega)]
  have := hs.1
  split
  · rw [wsub_eq (by omega) (by omega)]
  · rfl

theorem wmakeFragment_eq (hs : Held m s) (hl : s.hi + 39 < 2 ^ 64) (a n : Nat) :
    wmakeFragment m s a n = makeFragment m s a n := by
  unfold wmakeFragment makeFragment
  rw [wsub_eq hs.1 (by omega)]
  have := hs.1
  by_cases h1 : a ≤ s.hi - s.lo
  · rw [wsub_eq h1 (by omega)]
    by_cases h2 : n ≤ s.hi - s.lo - a
    · simp only [h1, h2, and_self, if_true]
      rw [wadd_eq (a := s.lo) (b := a) (by omega), wadd_eq (a := s.lo + a) (b := n) (by omega)]
      by_cases h3 : n = 0
      · simp only [if_pos h3]
      · simp only [if_neg h3]
        cases s.st with
        | none => rfl
        | some id =>
          dsimp only
          cases m.addRef id with
          | none => rfl
          | some m1 =>
            dsimp only
            cases m1.mem id with
            | none => rfl
            | some x => simp only [Nat.le_add_right, true_and]
    · simp only [h2, and_false, if_false]
  · simp only [h1, false_and, if_false]

theorem wconstruct_eq (a z e : Nat) (h : 39 + (a + z + e) < 2 ^ 64) : wconstruct m a z e = construct m a z e := by
  unfold wconstruct construct
  rw [wadd_eq (a := a) (b := z) (by omega), wadd_eq (a := a + z) (b := e) (by omega), wallocate_eq h]
  cases e1 : m.allocate (a + z + e) with
  | mk m1 o =>
    cases o with
    | none =>
      have hz : z = 0 := by
        unfold Mem.allocate at e1
        split at e1
        · omega
        · cases e1
      subst hz
      simp [Mem.dirtyOf, Mem.fill]
    | some id =>
      simp only [Mem.dirtyOf, Mem.fill]
      cases m1.dirty id a (a + z) with
      | none => rfl
      | some m2 =>
        dsimp only
        cases m2.write id a (List.replicate z 0) <;> rfl

theorem wconstructFrom_eq (d : List Byte) (h : 39 + d.length < 2 ^ 64) : wconstructFrom m d = constructFrom m d := by
  unfold wconstructFrom constructFrom
  rw [wallocate_eq h]
  cases e1 : m.allocate d.length with
  | mk m1 o =>
    cases o with
    | none =>
      have hz : d = [] := by
        unfold Mem.allocate at e1
        split at e1
        · exact List.length_eq_zero_iff.mp (by assumption)
        · cases e1
      subst hz
      simp [Mem.fill]
    | some id =>
      simp only [Mem.fill]
      cases m1.write id 0 d <;> rfl

theorem caps_waddAtStart {n : Nat} {r : Mem × Seg} (h : Caps m) (e : waddAtStart m s n = some r) : Caps r.1 := by
  unfold waddAtStart at e
  split at e
  · cases e; exact h
  · rw [Option.map_eq_some_iff] at e
    obtain ⟨g, e, rfl⟩ := e
    exact caps_wgrowStart h e

theorem caps_waddAtEnd {n : Nat} {r : Mem × Seg} (h : Caps m) (e : waddAtEnd m s n = some r) : Caps r.1 := by
  unfold waddAtEnd at e
  split at e
  · cases e; exact h
  · rw [Option.map_eq_some_iff] at e
    obtain ⟨g, e, rfl⟩ := e
    exact caps_wgrowEnd h e

end

end Verif.Buf
