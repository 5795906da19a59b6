import Verif.Buf.WordLemmas

/-!
The operations on `Buffer` in 64-bit words: single steps (helper lemmas for C139).
-/
set_option linter.unusedSimpArgs false
set_option linter.unusedVariables false
namespace Verif.Buf

/-- Whether the sizes of an operation stay within what a storage can hold: 39 bytes less than `2^64`. -/
def Op.fits (s : State) : Op → Prop
  | .new a z e => 39 + (a + z + e) < 2 ^ 64
  | .newFrom d => 39 + d.length < 2 ^ 64
  | .addStart i n | .addEnd i n => 39 + (s.size i + n) < 2 ^ 64
  | .addStartBytes i d | .addEndBytes i d => 39 + (s.size i + d.length) < 2 ^ 64
  | .addStartBuf i j | .addEndBuf i j => 39 + (s.size i + s.size j) < 2 ^ 64
  | _ => True

/-- Every operation of a history fits in the state in which it is performed. -/
def State.Fits (s : State) : List Op → Prop
  | [] => True
  | o :: os => o.fits s ∧ ∀ s1, s.step o = some s1 → s1.Fits os

instance (s : State) (o : Op) : Decidable (o.fits s) := by unfold Op.fits; split <;> infer_instance

instance decFits : ∀ (hist : List Op) (s : State), Decidable (s.Fits hist)
  | [], _ => .isTrue trivial
  | o :: os, s =>
    have : Decidable (∀ s1, s.step o = some s1 → s1.Fits os) :=
      match h : s.step o with
      | none => .isTrue fun _ h' => nomatch h'
      | some s1 => match decFits os s1 with
        | .isTrue h1 => .isTrue fun s2 h' => by cases h'; exact h1
        | .isFalse h1 => .isFalse fun h2 => h1 (h2 s1 rfl)
    inferInstanceAs (Decidable (o.fits s ∧ ∀ s1, s.step o = some s1 → s1.Fits os))

theorem on_congr {s : State} {i : Nat} {f g : Mem → Seg → Option (Mem × Seg)}
    (h : ∀ b, s.bufs[i]? = some b → f s.mem b = g s.mem b) : s.on i f = s.on i g := by
  unfold State.on
  cases e : s.bufs[i]? with
  | none => rfl
  | some b => simp only [h b e]

theorem caps_on {s s' : State} {i : Nat} {f : Mem → Seg → Option (Mem × Seg)} (e : s.on i f = some s')
    (h : ∀ b r, f s.mem b = some r → Caps r.1) : Caps s'.mem := by
  unfold State.on at e
  split at e
  · cases e
  · rename_i b _
    rw [Option.map_eq_some_iff] at e
    obtain ⟨r, e, rfl⟩ := e
    exact h b r e

theorem caps_push {s s' : State} {r : Option (Mem × Seg)} (e : s.push r = some s') (h : ∀ q, r = some q → Caps q.1) :
    Caps s'.mem := by
  unfold State.push at e
  rw [Option.map_eq_some_iff] at e
  obtain ⟨q, e, rfl⟩ := e
  exact h q e

theorem size_eq {s : State} {i : Nat} {b : Seg} (h : s.bufs[i]? = some b) : s.size i = b.hi - b.lo := by
  simp only [State.size, h]

theorem mem_of_get {s : State} {i : Nat} {b : Seg} (h : s.bufs[i]? = some b) : b ∈ s.bufs :=
  List.mem_of_getElem? h

theorem wstep_caps {s s' : State} {o : Op} (hc : Caps s.mem) (e : s.wstep o = some s') : Caps s'.mem := by
  have hmap : ∀ {f : Mem → Mem × Seg} {x : Option Mem} {q : Mem × Seg}, (∀ m, (f m).1 = m) → x.map f = some q →
      (∀ m, x = some m → Caps m) → Caps q.1 := by
    intro f x q hf e h
    rw [Option.map_eq_some_iff] at e
    obtain ⟨m, e, rfl⟩ := e
    rw [hf]; exact h m e
  cases o with
  | new a z t =>
    refine caps_push e fun q e => ?_
    unfold wconstruct at e
    split at e
    · cases e
    · rename_i e1; cases e; exact caps_wallocate hc e1
    · rename_i e1
      split at e
      · cases e
      · rename_i e2
        exact hmap (fun _ => rfl) e fun m em => caps_write (caps_dirty (caps_wallocate hc e1) e2) em
  | newFrom d =>
    refine caps_push e fun q e => ?_
    unfold wconstructFrom at e
    split at e
    · cases e
    · rename_i e1; cases e; exact caps_wallocate hc e1
    · rename_i e1
      exact hmap (fun _ => rfl) e fun m em => caps_write (caps_wallocate hc e1) em
  | copy j =>
    simp only [State.wstep, State.step] at e
    split at e
    · cases e
    · refine caps_push e fun q e => ?_
      exact hmap (fun _ => rfl) e fun m em => caps_acquire hc em
  | move j =>
    simp only [State.wstep, State.step] at e
    split at e
    · cases e
    · cases e; exact hc
  | assign i j =>
    simp only [State.wstep, State.step] at e
    split at e
    · split at e
      · cases e; exact hc
      · split at e
        · cases e
        · rename_i e1
          rw [Option.map_eq_some_iff] at e
          obtain ⟨m, e, rfl⟩ := e
          exact caps_drop (caps_acquire hc e1) e
    · cases e
  | moveAssign i j =>
    simp only [State.wstep, State.step] at e
    split at e
    · split at e
      · cases e; exact hc
      · rw [Option.map_eq_some_iff] at e
        obtain ⟨m, e, rfl⟩ := e
        exact caps_drop hc e
    · cases e
  | swap i j =>
    simp only [State.wstep, State.step] at e
    split at e
    · cases e; exact hc
    · cases e
  | destroy i =>
    simp only [State.wstep, State.step] at e
    exact caps_on e fun b r e => hmap (fun _ => rfl) e fun m em => caps_drop hc em
  | addStart i n =>
    simp only [State.wstep, State.step] at e
    exact caps_on e fun b r e => caps_waddAtStart hc e
  | addEnd i n =>
    simp only [State.wstep, State.step] at e
    exact caps_on e fun b r e => caps_waddAtEnd hc e
  | addStartBytes i d =>
    simp only [State.wstep, State.step] at e
    refine caps_on e fun b r e => ?_
    unfold waddBytesAtStart at e
    split at e
    · cases e; exact hc
    · split at e
      · cases e
      · rename_i e1; exact hmap (fun _ => rfl) e fun m em => caps_fill (caps_waddAtStart hc e1) em
  | addEndBytes i d =>
    simp only [State.wstep, State.step] at e
    refine caps_on e fun b r e => ?_
    unfold waddBytesAtEnd at e
    split at e
    · cases e; exact hc
    · split at e
      · cases e
      · rename_i e1; exact hmap (fun _ => rfl) e fun m em => caps_fill (caps_waddAtEnd hc e1) em
  | addStartBuf i j =>
    simp only [State.wstep] at e
    split at e
    · cases e
    · split at e
      · cases e; exact hc
      · split at e
        · cases e
        · rename_i s1 e1
          have h1 := caps_on e1 fun b r e => caps_waddAtStart hc e
          split at e
          · split at e
            · cases e
            · rw [Option.map_eq_some_iff] at e
              obtain ⟨m, e, rfl⟩ := e
              exact caps_fill h1 e
          · cases e
  | addEndBuf i j =>
    simp only [State.wstep] at e
    split at e
    · cases e
    · split at e
      · cases e; exact hc
      · split at e
        · cases e
        · rename_i s1 e1
          have h1 := caps_on e1 fun b r e => caps_waddAtEnd hc e
          split at e
          · split at e
            · cases e
            · rw [Option.map_eq_some_iff] at e
              obtain ⟨m, e, rfl⟩ := e
              exact caps_fill h1 e
          · cases e
  | removeStart i n =>
    simp only [State.wstep, State.step] at e
    refine caps_on e fun b r e => ?_
    unfold wremoveAtStart at e
    split at e
    · cases e; exact hc
    · exact hmap (fun _ => rfl) e fun m em => caps_drop hc em
  | removeEnd i n =>
    simp only [State.wstep, State.step] at e
    refine caps_on e fun b r e => ?_
    unfold wremoveAtEnd at e
    split at e
    · cases e; exact hc
    · exact hmap (fun _ => rfl) e fun m em => caps_drop hc em
  | fragment j a n =>
    simp only [State.wstep] at e
    split at e
    · cases e
    · refine caps_push e fun q e => ?_
      unfold wmakeFragment at e
      split at e
      · split at e
        · cases e; exact hc
        · split at e
          · cases e
          · split at e
            · cases e
            · rename_i e1
              split at e
              · cases e
              · dsimp only at e
                split at e
                · exact hmap (fun _ => rfl) e fun m em => caps_dirty (caps_addRef hc e1) em
                · cases e
      · cases e
  | write i off d =>
    simp only [State.wstep, State.step] at e
    refine caps_on e fun b r e => ?_
    split at e
    · exact hmap (fun _ => rfl) e fun m em => caps_fill hc em
    · cases e

theorem wstep_eq {s : State} {o : Op} (hb : Base s.mem s.bufs) (hc : Caps s.mem) (hf : o.fits s) : s.wstep o = s.step o := by
  cases o with
  | new a z t => simp only [State.wstep, State.step, wconstruct_eq a z t hf]
  | newFrom d => simp only [State.wstep, State.step, wconstructFrom_eq d hf]
  | copy | move | assign | moveAssign | swap | destroy | write => rfl
  | addStart i n =>
    simp only [State.wstep, State.step]
    refine on_congr fun b e => ?_
    have hm := mem_of_get e
    simp only [Op.fits, size_eq e] at hf
    exact waddAtStart_eq (held_of hb hm) hc (held_lt hb hc hm) hf
  | addEnd i n =>
    simp only [State.wstep, State.step]
    refine on_congr fun b e => ?_
    have hm := mem_of_get e
    simp only [Op.fits, size_eq e] at hf
    exact waddAtEnd_eq (held_of hb hm) hc (held_lt hb hc hm) hf
  | addStartBytes i d =>
    simp only [State.wstep, State.step]
    refine on_congr fun b e => ?_
    have hm := mem_of_get e
    simp only [Op.fits, size_eq e] at hf
    simp only [waddBytesAtStart, addBytesAtStart, waddAtStart_eq (held_of hb hm) hc (held_lt hb hc hm) hf]
    split
    · rfl
    · cases addAtStart s.mem b d.length <;> rfl
  | addEndBytes i d =>
    have hE : s.on i (fun m b => waddAtEnd m b d.length) = s.step (.addEnd i d.length) := by
      simp only [State.step]
      refine on_congr fun b e => ?_
      have hm := mem_of_get e
      simp only [Op.fits, size_eq e] at hf
      exact waddAtEnd_eq (held_of hb hm) hc (held_lt hb hc hm) hf
    simp only [State.wstep, State.step]
    refine on_congr fun b e => ?_
    have hm := mem_of_get e
    have hf' := hf
    simp only [Op.fits, size_eq e] at hf
    simp only [waddBytesAtEnd, addBytesAtEnd]
    split
    · rfl
    · rw [waddAtEnd_eq (held_of hb hm) hc (held_lt hb hc hm) hf]
      cases e1 : addAtEnd s.mem b d.length with
      | none => rfl
      | some r =>
        obtain ⟨m1, s1⟩ := r
        have e2 : s.step (.addEnd i d.length) = some ⟨m1, s.bufs.set i s1⟩ := by
          simp only [State.step, State.on, e, e1, Option.map_some]
        have hb1 := (step_base hb e2).1
        have hc1 := caps_waddAtEnd hc ((waddAtEnd_eq (held_of hb hm) hc (held_lt hb hc hm) hf).trans e1)
        have hi : i < s.bufs.length := (List.getElem?_eq_some_iff.mp e).1
        have hm1 : s1 ∈ s.bufs.set i s1 := List.mem_of_getElem? (List.getElem?_set_self hi)
        have hl1 := held_lt hb1 hc1 hm1
        have hge : d.length ≤ s1.hi := by
          simp only [addAtEnd] at e1
          split at e1
          · omega
          · rw [Option.map_eq_some_iff] at e1
            obtain ⟨g, eg, er⟩ := e1
            have := (growEnd_hi (held_of hb hm) eg).1
            cases er
            omega
        simp only
        rw [wsub_eq hge (by omega)]
  | addStartBuf i j =>
    simp only [State.wstep, State.step]
    cases e : s.bufs[j]? with
    | none => rfl
    | some c =>
      have hm := mem_of_get e
      dsimp only
      rw [wsub_eq (held_of hb hm).1 (by have := held_lt hb hc hm; omega)]
      split
      · rfl
      · have hE : s.on i (fun m b => waddAtStart m b (c.hi - c.lo)) = s.step (.addStart i (c.hi - c.lo)) := by
          simp only [State.step]
          refine on_congr fun b e' => ?_
          have hm' := mem_of_get e'
          simp only [Op.fits, size_eq e, size_eq e'] at hf
          exact waddAtStart_eq (held_of hb hm') hc (held_lt hb hc hm') hf
        have hE' : s.on i (fun m b => addAtStart m b (c.hi - c.lo)) = s.step (.addStart i (c.hi - c.lo)) := rfl
        rw [hE, hE']
        cases e1 : s.step (.addStart i (c.hi - c.lo)) with
        | none => rfl
        | some s1 =>
          have hb1 := (step_base hb e1).1
          have hc1 : Caps s1.mem := caps_on (hE.trans e1) fun b r e => caps_waddAtStart hc e
          dsimp only
          rcases eb : s1.bufs[i]? with _ | b
          · rfl
          · rcases ec : s1.bufs[j]? with _ | c1
            · rfl
            · have hm1 := mem_of_get ec
              dsimp only
              rw [wcopyOut_eq (held_of hb1 hm1) (held_lt hb1 hc1 hm1)]
              cases copyOut s1.mem c1 (c.hi - c.lo) <;> rfl
  | addEndBuf i j =>
    simp only [State.wstep, State.step]
    cases e : s.bufs[j]? with
    | none => rfl
    | some c =>
      have hm := mem_of_get e
      dsimp only
      rw [wsub_eq (held_of hb hm).1 (by have := held_lt hb hc hm; omega)]
      split
      · rfl
      · rename_i hne
        have hE : s.on i (fun m b => waddAtEnd m b (c.hi - c.lo)) = s.step (.addEnd i (c.hi - c.lo)) := by
          simp only [State.step]
          refine on_congr fun b e' => ?_
          have hm' := mem_of_get e'
          simp only [Op.fits, size_eq e, size_eq e'] at hf
          exact waddAtEnd_eq (held_of hb hm') hc (held_lt hb hc hm') hf
        have hE' : s.on i (fun m b => addAtEnd m b (c.hi - c.lo)) = s.step (.addEnd i (c.hi - c.lo)) := rfl
        rw [hE, hE']
        cases e1 : s.step (.addEnd i (c.hi - c.lo)) with
        | none => rfl
        | some s1 =>
          have hb1 := (step_base hb e1).1
          have hc1 : Caps s1.mem := caps_on (hE.trans e1) fun b r e => caps_waddAtEnd hc e
          dsimp only
          rcases eb : s1.bufs[i]? with _ | b
          · rfl
          · rcases ec : s1.bufs[j]? with _ | c1
            · rfl
            · have hm1 := mem_of_get ec
              have hmb := mem_of_get eb
              have hlb := held_lt hb1 hc1 hmb
              have hge : c.hi - c.lo ≤ b.hi := by
                simp only [State.step, State.on] at e1
                split at e1
                · cases e1
                · rename_i b0 e0
                  rw [Option.map_eq_some_iff] at e1
                  obtain ⟨r, er, rfl⟩ := e1
                  have hi : i < s.bufs.length := (List.getElem?_eq_some_iff.mp e0).1
                  rw [List.getElem?_set_self hi] at eb
                  cases eb
                  simp only [addAtEnd, if_neg hne] at er
                  rw [Option.map_eq_some_iff] at er
                  obtain ⟨g, eg, rfl⟩ := er
                  have := (growEnd_hi (held_of hb (mem_of_get e0)) eg).1
                  simp only
                  omega
              dsimp only
              rw [wcopyOut_eq (held_of hb1 hm1) (held_lt hb1 hc1 hm1), wsub_eq hge (by omega)]
              cases copyOut s1.mem c1 (c.hi - c.lo) <;> rfl
  | removeStart i n =>
    simp only [State.wstep, State.step]
    refine on_congr fun b e => ?_
    exact wremoveAtStart_eq (held_of hb (mem_of_get e)) (held_lt hb hc (mem_of_get e)) n
  | removeEnd i n =>
    simp only [State.wstep, State.step]
    refine on_congr fun b e => ?_
    exact wremoveAtEnd_eq (held_of hb (mem_of_get e)) (held_lt hb hc (mem_of_get e)) n
  | fragment j a n =>
    simp only [State.wstep, State.step]
    cases e : s.bufs[j]? with
    | none => rfl
    | some b => simp only [wmakeFragment_eq (held_of hb (mem_of_get e)) (held_lt hb hc (mem_of_get e))]

theorem wrun_eq {hist : List Op} : ∀ {s : State}, Base s.mem s.bufs → Caps s.mem → s.Fits hist →
    s.wrun hist = s.run hist ∧ ∀ s', s.wrun hist = some s' → Caps s'.mem := by
  induction hist with
  | nil => intro s hb hc _; exact ⟨rfl, fun s' e => by cases e; exact hc⟩
  | cons o os ih =>
    intro s hb hc hf
    have e := wstep_eq hb hc hf.1
    simp only [State.wrun, State.run]
    cases e1 : s.step o with
    | none => rw [e1] at e; simp only [e]; exact ⟨trivial, fun s' h => by cases h⟩
    | some s1 =>
      rw [e1] at e
      simp only [e]
      exact ih (step_base hb e1).1 (wstep_caps hc e) (hf.2 s1 e1)

theorem init_caps (junk) : Caps (State.init junk).mem := fun id x h => by simp [State.init] at h

/-- Growing a segment by so much that its length reaches `2^64` is undefined. -/
theorem wgrow_wrap {m : Mem} {L : List Seg} {b : Seg} (hb : Base m L) (hc : Caps m) (hm : b ∈ L) {n : Nat} (hn : n < 2 ^ 64)
    (ho : 2 ^ 64 ≤ b.hi - b.lo + n) :
    wgrowStart m b.st b.lo (b.hi - b.lo) n = none ∧ wgrowEnd m b.st b.lo (b.hi - b.lo) n = none := by
  obtain ⟨h1, h2, h3⟩ := held_of hb hm
  have hl := held_lt hb hc hm
  cases est : b.st with
  | none => have := h2 est; omega
  | some id =>
    obtain ⟨x, ex, _, hcap⟩ := hb.held b hm id est
    have hx := hc id x ex
    obtain ⟨r, hr⟩ : ∃ r, b.hi - b.lo + n = r + 2 ^ 64 := Nat.exists_eq_add_of_le' ho
    have hw1 : wadd (b.hi - b.lo) n = r := by unfold wadd; omega
    have hw2 : wadd n (b.hi - b.lo) = r := by unfold wadd; omega
    have hre : ∀ p, r < p + (b.hi - b.lo) →
        wrealloc m (some id) b.lo (b.hi - b.lo) n (r) 0 p = none := by
      intro p hp
      unfold wrealloc
      split
      · rfl
      · rfl
      · rename_i m1 k ea
        have em : ∃ y, m1.mem k = some y ∧ y.cap = r := by
          unfold Mem.wallocate at ea
          split at ea
          · cases ea
          · split at ea
            · cases ea; exact ⟨_, put_same _ _ _, rfl⟩
            · cases ea
        obtain ⟨y, ey, ecap⟩ := em
        split
        · rfl
        · rename_i d ed
          have hd : d.length = b.hi - b.lo := by
            simp only [Mem.readOf, Mem.read] at ed
            split at ed
            · cases ed
            · split at ed
              · cases ed; simp
              · cases ed
          have : m1.write k p d = none := by
            unfold Mem.write
            rw [ey]; simp only
            rw [if_neg (by omega)]
          rw [this]
    have hwr : ∀ p, x.cap < p + (b.hi - b.lo) →
        (match m.read id b.lo (b.hi - b.lo) with
          | none => none
          | some data => m.write id p data) = none := by
      intro p hp
      unfold Mem.read
      rw [ex]; simp only
      rw [if_pos (by omega)]
      simp only [Mem.write, ex]
      rw [if_neg (by simp only [rd_length]; omega)]
    have key : ∀ {p} (f : Mem → Option WGrown), x.cap < p + (b.hi - b.lo) →
        (match m.read id b.lo (b.hi - b.lo) with
          | none => none
          | some data => match m.write id p data with
            | none => none
            | some m1 => f m1) = none := by
      intro p f hp
      have := hwr p hp
      cases er : m.read id b.lo (b.hi - b.lo) with
      | none => rfl
      | some d => rw [er] at this; simp only at this; simp only [this]
    constructor
    · simp only [wgrowStart, ex,
        if_neg (show ¬ n ≤ b.lo by omega), hw1, hw2, hre n (by omega)]
      have : wmoveStart m b.lo (b.hi - b.lo) id n = none := by
        unfold wmoveStart
        exact key _ (by omega)
      simp only [this, ite_self]
    · have hp : wsub x.cap (wadd b.lo (b.hi - b.lo)) = x.cap - b.hi := by
        rw [wadd_eq (by omega), wsub_eq (by omega) (by omega)]; omega
      simp only [wgrowEnd, ex,
        hp, if_neg (show ¬ n ≤ x.cap - b.hi by omega), hw1, hw2, hre 0 (by omega)]
      by_cases c3 : r ≤ x.cap
      · have : wmoveEnd m b.lo (b.hi - b.lo) id x n = none := by
          unfold wmoveEnd
          simp only [hw1, wsub_eq c3 (show x.cap < 2 ^ 64 by omega)]
          exact key _ (by omega)
        simp only [this, ite_self]
      · omega

end Verif.Buf
