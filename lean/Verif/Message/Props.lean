import Verif.Message.Lemmas

/-!
Properties C102 and C103: messages of arithmetic values, arrays, durations, time points, sequence numbers
and addresses, through both kinds of iterators.
-/
set_option linter.unusedSimpArgs false
set_option linter.unusedVariables false
namespace Verif.Message
open Verif Verif.Iter

/-- The receiver declares the variables of the sender's fields, in the same orders. -/
def Matches (fs : List (Order × Field)) (xs : List (Order × Var)) : Prop :=
  List.Forall₂ (fun p q => p.1 = q.1 ∧ q.2.Fits p.2) fs xs

/-- **C102.** A message written at the cursor of a buffer that has room for it can be written; it takes exactly
the sizes of its fields; no other byte of the storage changes; and reading the same types in the same orders
from the place where it was written gives back every field, whatever the variables held before, on the same
host or, if no field is in native order, on any host. -/
theorem C102_round_trip {h₁ h₂ : Host} {fs : List (Order × Field)} {xs : List (Order × Var)}
    (hok : ∀ p ∈ fs, p.2.Ok h₁ ∧ p.2.Ok h₂) (hh : h₁ = h₂ ∨ ∀ p ∈ fs, p.1 ≠ .native) (hm : Matches fs xs)
    {it : It} {d : List Byte} (hr : Iter.Room it d (total fs)) :
    ∃ d', writeAll plain h₁ fs it d = some ({ it with cursor := it.cursor + total fs }, d') ∧
      SameOutside d d' it.cursor (total fs) ∧
      readAll plain h₂ xs it d' = some ({ it with cursor := it.cursor + total fs }, fs.map Prod.snd) := by
  obtain ⟨r, h1⟩ := ok_all plainView (fun p hp => (hok p hp).1) hr trivial
  have ef := eff_all plainView (fun p hp => (hok p hp).1) (room_le plainView hr (Nat.zero_le _)) h1
  have hlen := bytesOf_length h₁ fs
  have hi : r.1 = { it with cursor := it.cursor + total fs } := by rw [← hlen]; exact ef.iter
  refine ⟨r.2, by rw [h1, ← hi], ⟨ef.len, ?_⟩, ?_⟩
  · intro i hi
    have l1 := hr.lower; have l2 := hr.upper; have l3 := hr.inside
    by_cases hw : it.start ≤ i ∧ i < it.stop
    · have hb : part it r.2 = splice (part it d) (it.cursor - it.start) (bytesOf h₁ fs) := ef.bytes
      have hpl : (part it d).length = it.stop - it.start := part_len l3
      have g := congrArg (fun l : List Byte => l[i - it.start]?) hb
      rw [(splice_sameOutside (by rw [hlen, hpl]; omega)).2 (i - it.start) (by rw [hlen]; omega), part_get, part_get,
        if_pos (show i - it.start < it.stop - it.start by omega), if_pos (show i - it.start < it.stop - it.start by omega),
        show it.start + (i - it.start) = i by omega] at g
      exact g
    · exact ef.frame i hw
  · exact read_all plainView (fun p hp => ⟨(hok p hp).1, (hok p hp).2, hh.imp_right (fun h => h p hp)⟩) hm
      (at_of_effect plainView ef)

/-- A message of every kind of field: a big-endian half word, a little-endian array, a native duration, a time point,
a 12-bit sequence number and a 20-bit address. -/
def sample : List (Order × Field) :=
  [(.big, .arith .w2 0xabcd), (.little, .array .w4 [1, 0xfffffffe]), (.native, .duration (-5)), (.big, .timePoint ⟨7⟩),
    (.big, .seq 12 0xabc), (.little, .addr 20 [0xabcde])]

/-- Variables for it. -/
def sampleVars : List (Order × Var) :=
  [(.big, .arith .w2), (.little, .array .w4 2), (.native, .duration), (.big, .timePoint),
    (.big, .seq 12 0xfff), (.little, .addr 20 [0x12345])]

/-- The hypotheses of C102 are met by the sample in a storage of 40 bytes. -/
example : (∀ p ∈ sample, p.2.Ok .little ∧ p.2.Ok .little) ∧ Matches sample sampleVars ∧
    Iter.Room ⟨1, 40, 3⟩ (List.replicate 40 0) (total sample) := by
  have w1 : Address.Wf 20 [0xabcde] := ⟨by decide, by unfold Address.Small; decide, by decide⟩
  have w2 : Address.Wf 20 [0x12345] := ⟨by decide, by unfold Address.Small; decide, by decide⟩
  refine ⟨?_, ?_, ⟨by decide, by decide, by decide, by decide⟩⟩
  · have i1 : Chrono.I64 (-5) := by constructor <;> decide
    have i2 : Chrono.I64 7 := by constructor <;> decide
    intro p hp
    simp only [sample, List.mem_cons, List.not_mem_nil, or_false] at hp
    rcases hp with rfl | rfl | rfl | rfl | rfl | rfl
    · simp [Field.Ok, Width.n]
    · simp [Field.Ok, Width.n]
    · exact ⟨i1, i1⟩
    · exact ⟨i2, i2⟩
    · simp [Field.Ok]
    · exact ⟨⟨rfl, by decide, w1⟩, ⟨rfl, by decide, w1⟩⟩
  · simp [Matches, sample, sampleVars, Var.Fits, w2]

/-- **C102** on a zero-compressed buffer: whenever the writes are accepted, the logical bytes change at the place
of the message only, nothing changes outside the storage of the buffer, and the message reads back. -/
theorem C102_compressed {h₁ h₂ : Host} {fs : List (Order × Field)} {xs : List (Order × Var)}
    (hok : ∀ p ∈ fs, p.2.Ok h₁ ∧ p.2.Ok h₂) (hh : h₁ = h₂ ∨ ∀ p ∈ fs, p.1 ≠ .native) (hm : Matches fs xs)
    {it it' : ZcIter.ZIt} {d d' : List Byte} (hr : ZRoom it d 0)
    (hw : writeAll compressed h₁ fs it d = some (it', d')) :
    it.cursor + total fs ≤ it.en ∧ it' = { it with cursor := it.cursor + total fs } ∧
      SameOutside (ZcIter.logical it d) (ZcIter.logical it d') (it.cursor - it.start) (total fs) ∧
      d'.length = d.length ∧
      (∀ i, i < it.start ∨ it.en - (it.ze - it.zs) ≤ i → d'[i]? = d[i]?) ∧
      readAll compressed h₂ xs it d' = some (it', fs.map Prod.snd) := by
  have ef := eff_all zcView (fun p hp => (hok p hp).1) hr hw
  have hlen := bytesOf_length h₁ fs
  have hi : it' = { it with cursor := it.cursor + total fs } := by rw [← hlen]; exact ef.iter
  have hR : ZRoom it d (total fs) := by rw [← hlen]; exact ef.room
  refine ⟨hR.room.upper, hi, ?_, ef.len, fun i hi => ef.frame i (by show ¬ (_ ∧ _); omega), ?_⟩
  · have hb : ZcIter.logical it d' = splice (ZcIter.logical it d) (it.cursor - it.start) (bytesOf h₁ fs) := ef.bytes
    have l1 := hR.room.lower; have l2 := hR.room.upper
    rw [hb, ← hlen]
    exact splice_sameOutside (by rw [hlen, ZcIter.logical_length hR.room]; omega)
  · rw [hi]
    exact read_all zcView (fun p hp => ⟨(hok p hp).1, (hok p hp).2, hh.imp_right (fun h => h p hp)⟩) hm
      (at_of_effect zcView ef)

/-- **C102** on a zero-compressed buffer: the writes are accepted when the message lies in front of the zero area
or behind it. -/
theorem C102_compressed_accepts {h : Host} {fs : List (Order × Field)} (hok : ∀ p ∈ fs, p.2.Ok h)
    {it : ZcIter.ZIt} {d : List Byte} (hr : ZRoom it d (total fs))
    (hf : it.cursor + total fs ≤ it.zs ∨ it.ze ≤ it.cursor) :
    ∃ r, writeAll compressed h fs it d = some r := ok_all zcView hok hr hf

/-! ### C103 -/

/-- A variable of a size below half the address space. -/
def Var.Small : Var → Prop
  | .seq bits _ => bits ≤ 64
  | .addr bits _ => bits < 2 ^ 63
  | _ => True

section
variable {ι κ : Type} {S : Stream ι} {T : Stream κ} (V : View S) (W : View T)

/-- Two legitimate iterators at the same place of the same bytes. -/
structure Same (it : ι) (d : List Byte) (jt : κ) (c : List Byte) : Prop where
  left : V.Room it d 0
  right : W.Room jt c 0
  bytes : V.logical it d = W.logical jt c
  pos : V.pos it = W.pos jt

/-- Two reads with the same result, leaving the iterators at the same place. -/
def Alike {α : Type} (it : ι) (jt : κ) (d : List Byte) (c : List Byte) (a : Option (ι × α)) (b : Option (κ × α)) : Prop :=
  (a = none ∧ b = none) ∨
    ∃ n x, a = some (V.adv it n, x) ∧ b = some (W.adv jt n, x) ∧ Same V W (V.adv it n) d (W.adv jt n) c

theorem Same.room {it : ι} {d : List Byte} {jt : κ} {c : List Byte} (h : Same V W it d jt c) (n : Nat) :
    V.Room it d n ↔ W.Room jt c n := by
  rw [V.room_iff, W.room_iff, h.bytes, h.pos]
  simp [h.left, h.right]

theorem Same.adv {it : ι} {d : List Byte} {jt : κ} {c : List Byte} (h : Same V W it d jt c) {n : Nat}
    (hr : V.Room it d n) : Same V W (V.adv it n) d (W.adv jt n) c :=
  ⟨V.room_adv hr, W.room_adv ((h.room V W n).1 hr), by rw [V.log_adv, W.log_adv, h.bytes],
    by rw [V.pos_adv h.left, W.pos_adv h.right, h.pos]⟩

theorem alike_val {h : Host} {e : Order} {w : Width} {it : ι} {d : List Byte} {jt : κ} {c : List Byte}
    (hs : Same V W it d jt c) : Alike V W it jt d c (S.readVal h e w it d) (T.readVal h e w jt c) := by
  by_cases hr : V.Room it d w.n
  · have hr' := (hs.room V W w.n).1 hr
    exact .inr ⟨_, _, V.readVal hr, by rw [W.readVal hr', hs.bytes, hs.pos], hs.adv V W hr⟩
  · exact .inl ⟨V.readVal_none hs.left hr, W.readVal_none hs.right (fun h => hr ((hs.room V W _).2 h))⟩

theorem alike_bytes {h : Host} {e : Order} {n : Nat} (hn : n < 2 ^ 63) {it : ι} {d : List Byte} {jt : κ} {c : List Byte}
    (hs : Same V W it d jt c) : Alike V W it jt d c (S.readBytes h e n it d) (T.readBytes h e n jt c) := by
  by_cases hr : V.Room it d n
  · have hr' := (hs.room V W n).1 hr
    exact .inr ⟨_, _, V.readBytes hr, by rw [W.readBytes hr', hs.bytes, hs.pos], hs.adv V W hr⟩
  · exact .inl ⟨V.readBytes_none hs.left hn hr, W.readBytes_none hs.right hn (fun h => hr ((hs.room V W _).2 h))⟩

theorem alike_map {α β : Type} (f : α → β) {it : ι} {jt : κ} {d c : List Byte} {a : Option (ι × α)} {b : Option (κ × α)}
    (h : Alike V W it jt d c a b) : Alike V W it jt d c (a.map fun p => (p.1, f p.2)) (b.map fun p => (p.1, f p.2)) := by
  rcases h with ⟨rfl, rfl⟩ | ⟨n, x, rfl, rfl, hs⟩
  · exact .inl ⟨rfl, rfl⟩
  · exact .inr ⟨n, f x, rfl, rfl, hs⟩

theorem alike_array {h : Host} {e : Order} {w : Width} {d c : List Byte} : ∀ {n : Nat} {it : ι} {jt : κ},
    Same V W it d jt c → Alike V W it jt d c (readArray S h e w n it d) (readArray T h e w n jt c) := by
  intro n
  induction n with
  | zero => intro it jt hs; exact .inr ⟨0, [], by rw [V.adv_zero]; rfl, by rw [W.adv_zero]; rfl, by rw [V.adv_zero, W.adv_zero]; exact hs⟩
  | succ n ih =>
    intro it jt hs
    rcases alike_val V W (h := h) (e := e) (w := w) hs with ⟨h1, h2⟩ | ⟨m, v, h1, h2, hs1⟩
    · exact .inl ⟨by simp only [readArray, h1], by simp only [readArray, h2]⟩
    · rcases ih hs1 with ⟨h3, h4⟩ | ⟨k, vs, h3, h4, hs2⟩
      · exact .inl ⟨by simp only [readArray, h1, h3], by simp only [readArray, h2, h4]⟩
      · exact .inr ⟨m + k, v :: vs, by simp only [readArray, h1, h3, V.adv_adv],
          by simp only [readArray, h2, h4, W.adv_adv], by rw [← V.adv_adv, ← W.adv_adv]; exact hs2⟩

theorem alike_field {h : Host} {e : Order} {x : Var} (hx : x.Small) {it : ι} {d : List Byte} {jt : κ} {c : List Byte}
    (hs : Same V W it d jt c) : Alike V W it jt d c (readField S h e x it d) (readField T h e x jt c) := by
  cases x with
  | arith w => exact alike_map V W _ (alike_val V W hs)
  | array w n => exact alike_map V W _ (alike_array V W hs)
  | duration => exact alike_map V W (fun n => Field.duration (ofPattern n)) (alike_val V W hs)
  | timePoint =>
    rcases alike_val V W (h := h) (e := e) (w := .w8) hs with ⟨h1, h2⟩ | ⟨m, v, h1, h2, hs1⟩
    · exact .inl ⟨by simp only [readField, h1], by simp only [readField, h2]⟩
    · generalize hq : Chrono.TP.ofDuration ⟨Chrono.tenthNano, ofPattern v⟩ = q
      cases q with
      | none => exact .inl ⟨by simp only [readField, h1, hq, Option.map_none], by simp only [readField, h2, hq, Option.map_none]⟩
      | some t =>
        exact .inr ⟨m, .timePoint t, by simp only [readField, h1, hq, Option.map_some],
          by simp only [readField, h2, hq, Option.map_some], hs1⟩
  | seq bits old =>
    have hx' : bits ≤ 64 := hx
    exact alike_map V W (fun bs => Field.seq bits (unimage h ((image h (SeqNum.valueSize bits) old).take (SeqNum.wireOffset h bits)
      ++ bs ++ (image h (SeqNum.valueSize bits) old).drop (SeqNum.wireOffset h bits + SeqNum.wireSize bits))))
      (alike_bytes V W (by unfold SeqNum.wireSize; omega) hs)
  | addr bits old =>
    have hx' : bits < 2 ^ 63 := hx
    exact alike_map V W (fun bs => Field.addr bits (Address.readIn bits old bs))
      (alike_bytes V W (by unfold Address.nb; omega) hs)

theorem alike_all {h : Host} {d c : List Byte} : ∀ {xs : List (Order × Var)}, (∀ p ∈ xs, p.2.Small) → ∀ {it : ι} {jt : κ},
    Same V W it d jt c → Alike V W it jt d c (readAll S h xs it d) (readAll T h xs jt c) := by
  intro xs
  induction xs with
  | nil => intro _ it jt hs; exact .inr ⟨0, [], by rw [V.adv_zero]; rfl, by rw [W.adv_zero]; rfl, by rw [V.adv_zero, W.adv_zero]; exact hs⟩
  | cons p xs ih =>
    obtain ⟨e, x⟩ := p
    intro hx it jt hs
    rcases alike_field V W (h := h) (e := e) (hx (e, x) (by simp)) hs with ⟨h1, h2⟩ | ⟨m, v, h1, h2, hs1⟩
    · exact .inl ⟨by simp only [readAll, h1], by simp only [readAll, h2]⟩
    · rcases ih (fun p hp => hx p (by simp [hp])) hs1 with ⟨h3, h4⟩ | ⟨k, vs, h3, h4, hs2⟩
      · exact .inl ⟨by simp only [readAll, h1, h3], by simp only [readAll, h2, h4]⟩
      · exact .inr ⟨m + k, v :: vs, by simp only [readAll, h1, h3, V.adv_adv],
          by simp only [readAll, h2, h4, W.adv_adv], by rw [← V.adv_adv, ← W.adv_adv]; exact hs2⟩

end

/-- **C103.** Reading any sequence of variables, of any types, in any orders, from any place of a zero-compressed
buffer gives the same values as reading them from the same place of a plain buffer with the same bytes; if the bytes
do not suffice, both are refused. -/
theorem C103_same_reads (h : Host) {xs : List (Order × Var)} (hx : ∀ p ∈ xs, p.2.Small)
    {zt : ZcIter.ZIt} {zd : List Byte} (hz : ZRoom zt zd 0) {it : It} {d : List Byte} (hr : Iter.Room it d 0)
    (hb : ZcIter.logical zt zd = (d.drop it.start).take (it.stop - it.start))
    (hp : zt.cursor - zt.start = it.cursor - it.start) :
    (readAll compressed h xs zt zd).map Prod.snd = (readAll plain h xs it d).map Prod.snd ∧
    ∀ zt' it' vs vs', readAll compressed h xs zt zd = some (zt', vs) → readAll plain h xs it d = some (it', vs') →
      zt'.cursor - zt.cursor = it'.cursor - it.cursor := by
  have hs : Same zcView plainView zt zd it d := ⟨hz, hr, hb, hp⟩
  have hl := hz.room.lower; have hl2 := hr.lower
  rcases alike_all zcView plainView (h := h) hx hs with ⟨h1, h2⟩ | ⟨n, vs, h1, h2, hs1⟩
  · exact ⟨by rw [h1, h2]; rfl, fun zt' it' vs vs' e _ => by rw [h1] at e; cases e⟩
  · refine ⟨by rw [h1, h2]; rfl, ?_⟩
    intro zt' it' vs1 vs2 e1 e2
    rw [h1, Option.some.injEq, Prod.mk.injEq] at e1
    rw [h2, Option.some.injEq, Prod.mk.injEq] at e2
    obtain ⟨rfl, -⟩ := e1
    obtain ⟨rfl, -⟩ := e2
    show zt.cursor + n - zt.cursor = it.cursor + n - it.cursor
    omega

/-- The hypotheses of C103 are met by a buffer with a zero area of three bytes and the plain buffer of its bytes; reading
a half word and a word across the zero area. -/
example : ZRoom ⟨1, 2, 5, 8, 1⟩ [9, 7, 6, 5, 4] 0 ∧ Iter.Room ⟨0, 7, 0⟩ [7, 0, 0, 0, 6, 5, 4] 0 ∧
    ZcIter.logical ⟨1, 2, 5, 8, 1⟩ [9, 7, 6, 5, 4] = (([7, 0, 0, 0, 6, 5, 4] : List Byte).drop 0).take (7 - 0) ∧
    (readAll compressed .little [(.big, .arith .w2), (.little, .arith .w4)] ⟨1, 2, 5, 8, 1⟩ [9, 7, 6, 5, 4]).map Prod.snd =
      some [.arith .w2 0x700, .arith .w4 0x05060000] :=
  ⟨⟨⟨by decide, by decide, by decide, by decide, by decide, by decide, by decide⟩, by decide, by decide⟩,
    ⟨by decide, by decide, by decide, by decide⟩, by decide, by decide⟩

end Verif.Message
