import Verif.Message.View
import Verif.SeqNum.Props
import Verif.Address.Props
import Verif.Chrono.Arith

/-!
Every field is a list of numbers of given widths on the wire.
-/
set_option linter.unusedSimpArgs false
set_option linter.unusedVariables false
namespace Verif.Message
open Verif Verif.Iter

/-- Widths and values of the numbers a field consists of. -/
def words : Field → List (Nat × Nat)
  | .arith w v => [(w.n, v)]
  | .array w vs => vs.map fun v => (w.n, v)
  | .duration c => [(8, pattern c)]
  | .timePoint t => [(8, pattern t.dt)]
  | .seq bits v => [(SeqNum.wireSize bits, v)]
  | .addr bits a => [(Address.nb bits, Address.num bits a)]

/-- Their bytes. -/
def wires (h : Host) (e : Order) : List (Nat × Nat) → List Byte
  | [] => []
  | (n, v) :: ws => wire h e n v ++ wires h e ws

/-- The values a program can hold.  Addresses exist on little-endian hosts only. -/
def Field.Ok (h : Host) : Field → Prop
  | .arith w v => v < 256 ^ w.n
  | .array w vs => ∀ v ∈ vs, v < 256 ^ w.n
  | .duration c => Chrono.I64 c
  | .timePoint t => Chrono.I64 t.dt
  | .seq bits v => 0 < bits ∧ bits ≤ 64 ∧ v < 2 ^ bits
  | .addr bits a => h = .little ∧ 0 < bits ∧ Address.Wf bits a

/-- The variable has the type of the value, and holds some value of that type. -/
def Var.Fits : Var → Field → Prop
  | .arith w, .arith w' _ => w' = w
  | .array w n, .array w' vs => w' = w ∧ vs.length = n
  | .duration, .duration _ => True
  | .timePoint, .timePoint _ => True
  | .seq bits old, .seq bits' _ => bits' = bits ∧ old < 2 ^ bits
  | .addr bits old, .addr bits' _ => bits' = bits ∧ Address.Wf bits old
  | _, _ => False

/-- Bytes a field occupies: the widths of scalars, elements, counts (eight), sequence numbers and addresses
(bits rounded up to bytes). -/
def Field.size : Field → Nat
  | .arith w _ => w.n
  | .array w vs => vs.length * w.n
  | .duration _ => 8
  | .timePoint _ => 8
  | .seq bits _ => (bits + 7) / 8
  | .addr bits _ => (bits + 7) / 8

theorem wires_length (h : Host) (e : Order) (f : Field) : (wires h e (words f)).length = f.size := by
  cases f with
  | array w vs =>
    simp only [words, Field.size]
    induction vs with
    | nil => simp [wires]
    | cons v vs ih => simp only [List.map_cons, wires, List.length_append, wire_length, ih, List.length_cons]; rw [Nat.add_mul]; omega
  | _ => simp [words, wires, Field.size, SeqNum.wireSize, Address.nb]

theorem splice_splice {L a b : List Byte} {p : Nat} (h : p + a.length + b.length ≤ L.length) :
    splice (splice L p a) (p + a.length) b = splice L p (a ++ b) := by
  have hl : (splice L p a).length = L.length := splice_length (by omega)
  apply List.ext_getElem?
  intro i
  rw [splice_get (by rw [hl]; exact h), splice_get (by omega), splice_get (by simp; omega)]
  simp only [List.length_append, List.getElem?_append]
  by_cases c1 : i < p
  · rw [if_pos (show i < p + a.length by omega), if_pos c1, if_pos c1]
  · by_cases c2 : i < p + a.length
    · rw [if_pos c2, if_neg c1, if_pos c2, if_neg c1, if_pos (show i < p + (a.length + b.length) by omega),
        if_pos (show i - p < a.length by omega)]
    · rw [if_neg c2, if_neg c1, if_neg c2, if_neg c1]
      by_cases c3 : i < p + a.length + b.length
      · rw [if_pos c3, if_pos (show i < p + (a.length + b.length) by omega), if_neg (show ¬ i - p < a.length by omega)]
        congr 1; omega
      · rw [if_neg c3, if_neg (show ¬ i < p + (a.length + b.length) by omega)]

section
variable {ι : Type} {S : Stream ι} (V : View S)

/-- The effect of writing bytes at the cursor. -/
structure Effect (it : ι) (d : List Byte) (bs : List Byte) (r : ι × List Byte) : Prop where
  room : V.Room it d bs.length
  iter : r.1 = V.adv it bs.length
  len : r.2.length = d.length
  bytes : V.logical it r.2 = splice (V.logical it d) (V.pos it) bs
  frame : ∀ i, ¬ V.Window it i → r.2[i]? = d[i]?

theorem room_le {it : ι} {d : List Byte} {n m : Nat} (h : V.Room it d n) (hm : m ≤ n) : V.Room it d m := by
  rw [V.room_iff] at h ⊢; exact ⟨h.1, by omega⟩

theorem room_step {it : ι} {d : List Byte} {n m : Nat} (h : V.Room it d (n + m)) : V.Room (V.adv it n) d m := by
  have h0 := room_le V h (Nat.zero_le _)
  have h1 := V.room_adv (room_le V h (Nat.le_add_right n m))
  rw [V.room_iff] at h ⊢
  refine ⟨h1, ?_⟩
  rw [V.pos_adv h0, V.log_adv]; omega

theorem Effect.nil {it : ι} {d : List Byte} (h : V.Room it d 0) : Effect V it d [] (it, d) :=
  ⟨h, V.adv_zero.symm, rfl, by simp [splice], fun _ _ => rfl⟩

theorem Effect.trans {it : ι} {d a b : List Byte} {r q : ι × List Byte} (h1 : Effect V it d a r)
    (h2 : Effect V r.1 r.2 b q) : Effect V it d (a ++ b) q := by
  have r0 := room_le V h1.room (Nat.zero_le _)
  have hr := h2.room
  have hrm := h1.room
  rw [V.room_iff] at hrm
  rw [h1.iter] at hr
  have hr' := V.room_len h1.len.symm hr
  rw [V.room_iff, V.pos_adv r0, V.log_adv] at hr'
  have hR : V.Room it d (a ++ b).length := by
    rw [V.room_iff]; refine ⟨r0, ?_⟩; rw [List.length_append]; omega
  refine ⟨hR, ?_, ?_, ?_, ?_⟩
  · rw [h2.iter, h1.iter, V.adv_adv, List.length_append]
  · rw [h2.len, h1.len]
  · have e := h2.bytes
    rw [h1.iter, V.log_adv, V.log_adv, V.pos_adv r0, h1.bytes] at e
    rw [e, splice_splice (by omega)]
  · intro i hi
    rw [h2.frame i (by rw [h1.iter, V.window_adv]; exact hi), h1.frame i hi]

theorem eff_val {h : Host} {e : Order} {w : Width} {v : Nat} {it : ι} {d : List Byte} {r : ι × List Byte}
    (hr : V.Room it d 0) (hw : S.writeVal h e w v it d = some r) : Effect V it d (wire h e w.n v) r := by
  obtain ⟨a1, a2, a3, a4, a5⟩ := V.writeVal hr hw
  exact ⟨by rw [wire_length]; exact a1, by rw [wire_length]; exact a2, a3, a4, a5⟩

theorem eff_bytes {h : Host} {e : Order} {n v : Nat} {it : ι} {d : List Byte} {r : ι × List Byte} (hn : 0 < n)
    (hr : V.Room it d 0) (hw : S.writeBytes h e (image h n v) it d = some r) : Effect V it d (wire h e n v) r := by
  obtain ⟨a1, a2, a3, a4, a5⟩ := V.writeBytes hr (by rw [image_length]; exact hn) hw
  rw [image_length] at a1 a2
  exact ⟨by rw [wire_length]; exact a1, by rw [wire_length]; exact a2, a3, a4, a5⟩

theorem eff_array {h : Host} {e : Order} {w : Width} : ∀ {vs : List Nat} {it : ι} {d : List Byte} {r : ι × List Byte},
    V.Room it d 0 → writeArray S h e w vs it d = some r →
      Effect V it d (wires h e (vs.map fun v => (w.n, v))) r := by
  intro vs
  induction vs with
  | nil =>
    intro it d r hr hw
    simp only [writeArray, Option.some.injEq] at hw
    subst hw
    exact Effect.nil V hr
  | cons v vs ih =>
    intro it d r hr hw
    simp only [writeArray] at hw
    cases h1 : S.writeVal h e w v it d with
    | none => rw [h1] at hw; cases hw
    | some q =>
      obtain ⟨it1, d1⟩ := q
      rw [h1] at hw
      have e1 := eff_val V hr h1
      refine Effect.trans V e1 (ih ?_ hw)
      have := V.room_len e1.len (V.room_adv e1.room)
      rw [← e1.iter] at this
      exact this

theorem seq_image (h : Host) {bits v : Nat} (hb : bits ≤ 64) :
    ((image h (SeqNum.valueSize bits) v).drop (SeqNum.wireOffset h bits)).take (SeqNum.wireSize bits) =
      image h (SeqNum.wireSize bits) v := SeqNum.wire_bytes h hb v

theorem addr_image {bits : Nat} (hb : 0 < bits) {a : Address.Limbs} (ha : Address.Wf bits a) :
    Address.outBytes bits a = image .little (Address.nb bits) (Address.num bits a) := by
  obtain ⟨o1, o2⟩ := Address.outBytes_ok hb ha
  rw [image, Address.num, ← o2, ← o1, leBytes_leVal]

theorem eff_field {h : Host} {e : Order} {f : Field} (hf : f.Ok h) {it : ι} {d : List Byte} {r : ι × List Byte}
    (hr : V.Room it d 0) (hw : writeField S h e f it d = some r) : Effect V it d (wires h e (words f)) r := by
  cases f with
  | arith w v => simpa [words, wires] using eff_val V hr hw
  | array w vs => exact eff_array V hr hw
  | duration c => simpa [words, wires, Width.n] using eff_val V hr hw
  | timePoint t =>
    have := eff_val V hr hw
    simp only [words, wires, List.append_nil]
    exact this
  | seq bits v =>
    obtain ⟨b1, b2, b3⟩ := hf
    simp only [writeField, seq_image h b2] at hw
    simpa [words, wires] using eff_bytes V (by unfold SeqNum.wireSize; omega) hr hw
  | addr bits a =>
    obtain ⟨b1, b2, b3⟩ := hf
    subst b1
    simp only [writeField, addr_image b2 b3] at hw
    simpa [words, wires] using eff_bytes V (by unfold Address.nb; omega) hr hw

/-- The bytes of a message. -/
def bytesOf (h : Host) : List (Order × Field) → List Byte
  | [] => []
  | (e, f) :: fs => wires h e (words f) ++ bytesOf h fs

/-- Bytes a message occupies. -/
def total : List (Order × Field) → Nat
  | [] => 0
  | (_, f) :: fs => f.size + total fs

theorem bytesOf_length (h : Host) (fs : List (Order × Field)) : (bytesOf h fs).length = total fs := by
  induction fs with
  | nil => rfl
  | cons p fs ih => obtain ⟨e, f⟩ := p; simp [bytesOf, total, wires_length, ih]

theorem eff_all {h : Host} : ∀ {fs : List (Order × Field)}, (∀ p ∈ fs, p.2.Ok h) → ∀ {it : ι} {d : List Byte}
    {r : ι × List Byte}, V.Room it d 0 → writeAll S h fs it d = some r → Effect V it d (bytesOf h fs) r := by
  intro fs
  induction fs with
  | nil =>
    intro _ it d r hr hw
    simp only [writeAll, Option.some.injEq] at hw
    subst hw
    exact Effect.nil V hr
  | cons p fs ih =>
    obtain ⟨e, f⟩ := p
    intro hok it d r hr hw
    simp only [writeAll] at hw
    cases h1 : writeField S h e f it d with
    | none => rw [h1] at hw; cases hw
    | some q =>
      obtain ⟨it1, d1⟩ := q
      rw [h1] at hw
      have e1 := eff_field V (hok (e, f) (by simp)) hr h1
      refine Effect.trans V e1 (ih (fun p hp => hok p (by simp [hp])) ?_ hw)
      have := V.room_len e1.len (V.room_adv e1.room)
      rw [← e1.iter] at this
      exact this

/-! Writing succeeds where the bytes are writable. -/

theorem ok_array {h : Host} {e : Order} {w : Width} : ∀ {vs : List Nat} {it : ι} {d : List Byte},
    V.Room it d (vs.length * w.n) → V.Free it (vs.length * w.n) → ∃ r, writeArray S h e w vs it d = some r := by
  intro vs
  induction vs with
  | nil => intro it d _ _; exact ⟨_, rfl⟩
  | cons v vs ih =>
    intro it d hr hf
    have e1 : (v :: vs).length * w.n = w.n + vs.length * w.n := by
      rw [List.length_cons, Nat.add_mul]; omega
    rw [e1] at hr hf
    obtain ⟨f1, f2⟩ := V.free_split hf
    obtain ⟨⟨it1, d1⟩, h1⟩ := V.okVal (h := h) (e := e) (v := v) (room_le V hr (Nat.le_add_right ..)) f1
    have ef := eff_val V (room_le V hr (Nat.zero_le _)) h1
    have hi : it1 = V.adv it w.n := by simpa using ef.iter
    obtain ⟨r, h2⟩ := ih (it := it1) (d := d1) (by rw [hi]; exact V.room_len ef.len (room_step V hr)) (by rw [hi]; exact f2)
    exact ⟨r, by simp only [writeArray, h1, h2]⟩

theorem ok_field {h : Host} {e : Order} {f : Field} (hf : f.Ok h) {it : ι} {d : List Byte} (hr : V.Room it d f.size)
    (hF : V.Free it f.size) : ∃ r, writeField S h e f it d = some r := by
  cases f with
  | arith w v => exact V.okVal hr hF
  | array w vs => exact ok_array V hr hF
  | duration c => exact V.okVal (w := .w8) hr hF
  | timePoint t => exact V.okVal (w := .w8) hr hF
  | seq bits v =>
    obtain ⟨b1, b2, b3⟩ := hf
    simp only [writeField, seq_image h b2]
    refine V.okBytes ?_ ?_ ?_ <;> rw [image_length]
    · unfold SeqNum.wireSize; omega
    · exact hr
    · exact hF
  | addr bits a =>
    obtain ⟨b1, b2, b3⟩ := hf
    subst b1
    simp only [writeField, addr_image b2 b3]
    refine V.okBytes ?_ ?_ ?_ <;> rw [image_length]
    · unfold Address.nb; omega
    · exact hr
    · exact hF

theorem ok_all {h : Host} : ∀ {fs : List (Order × Field)}, (∀ p ∈ fs, p.2.Ok h) → ∀ {it : ι} {d : List Byte},
    V.Room it d (total fs) → V.Free it (total fs) → ∃ r, writeAll S h fs it d = some r := by
  intro fs
  induction fs with
  | nil => intro _ it d _ _; exact ⟨_, rfl⟩
  | cons p fs ih =>
    obtain ⟨e, f⟩ := p
    intro hok it d hr hF
    simp only [total] at hr hF
    obtain ⟨f1, f2⟩ := V.free_split hF
    obtain ⟨⟨it1, d1⟩, h1⟩ := ok_field V (e := e) (hok (e, f) (by simp)) (room_le V hr (Nat.le_add_right ..)) f1
    have ef := eff_field V (hok (e, f) (by simp)) (room_le V hr (Nat.zero_le _)) h1
    have hi : it1 = V.adv it f.size := by have := ef.iter; rwa [wires_length] at this
    obtain ⟨r, h2⟩ := ih (fun p hp => hok p (by simp [hp])) (it := it1) (d := d1)
      (by rw [hi]; exact V.room_len ef.len (room_step V hr)) (by rw [hi]; exact f2)
    exact ⟨r, by simp only [writeAll, h1, h2]⟩

/-! Reading. -/

/-- The next bytes at the cursor. -/
def At (it : ι) (d : List Byte) (bs : List Byte) : Prop :=
  V.Room it d bs.length ∧ ((V.logical it d).drop (V.pos it)).take bs.length = bs

theorem At.split {it : ι} {d a b : List Byte} (h : At V it d (a ++ b)) :
    At V it d a ∧ At V (V.adv it a.length) d b := by
  obtain ⟨h1, h2⟩ := h
  have r0 := room_le V h1 (Nat.zero_le _)
  rw [List.length_append] at h1 h2
  refine ⟨⟨room_le V h1 (Nat.le_add_right ..), ?_⟩, room_step V h1, ?_⟩
  · have := congrArg (List.take a.length) h2
    rwa [List.take_take, Nat.min_eq_left (Nat.le_add_right ..), List.take_left'  rfl] at this
  · have := congrArg (List.drop a.length) h2
    rw [List.drop_take, List.drop_left' rfl, List.drop_drop, Nat.add_sub_cancel_left] at this
    rw [V.log_adv, V.pos_adv r0]
    exact this

/-- The same host, or an order that does not depend on it. -/
def Agree (h₁ h₂ : Host) (e : Order) : Prop := h₁ = h₂ ∨ e ≠ .native

theorem value_wire {h₁ h₂ : Host} {e : Order} (ha : Agree h₁ h₂ e) (n v : Nat) :
    ZcIter.value h₂ e (wire h₁ e n v) = v % 256 ^ n := by
  have gen : ∀ h, ZcIter.value h e (wire h e n v) = v % 256 ^ n := by
    intro h
    have : (if isNative h e = true then wire h e n v else (wire h e n v).reverse) = image h n v := by
      unfold wire; split <;> simp
    rw [ZcIter.value, this, unimage_image]
  rcases ha with rfl | ha
  · exact gen _
  · cases e with
    | native => exact absurd rfl ha
    | little => rw [wire_little, ← wire_little h₂]; exact gen _
    | big => rw [wire_big, ← wire_big h₂]; exact gen _

theorem read_val {h₁ h₂ : Host} {e : Order} (ha : Agree h₁ h₂ e) {w : Width} {v : Nat} (hv : v < 256 ^ w.n) {it : ι}
    {d : List Byte} (hA : At V it d (wire h₁ e w.n v)) : S.readVal h₂ e w it d = some (V.adv it w.n, v) := by
  obtain ⟨h1, h2⟩ := hA
  rw [wire_length] at h1 h2
  rw [V.readVal h1, h2, value_wire ha, Nat.mod_eq_of_lt hv]

theorem read_bytes {h₁ h₂ : Host} {e : Order} (ha : Agree h₁ h₂ e) {n v : Nat} (hv : v < 256 ^ n) {it : ι}
    {d : List Byte} (hA : At V it d (wire h₁ e n v)) :
    ∃ bs, S.readBytes h₂ e n it d = some (V.adv it n, bs) ∧ bs.length = n ∧ unimage h₂ bs = v := by
  obtain ⟨h1, h2⟩ := hA
  rw [wire_length] at h1 h2
  refine ⟨_, V.readBytes h1, ?_, ?_⟩
  · rw [h2]; split <;> simp
  · rw [h2]
    have := value_wire ha n v
    rw [Nat.mod_eq_of_lt hv] at this
    exact this

theorem read_array {h₁ h₂ : Host} {e : Order} (ha : Agree h₁ h₂ e) {w : Width} : ∀ {vs : List Nat} {it : ι} {d : List Byte},
    (∀ v ∈ vs, v < 256 ^ w.n) → At V it d (wires h₁ e (vs.map fun v => (w.n, v))) →
      readArray S h₂ e w vs.length it d = some (V.adv it (vs.length * w.n), vs) := by
  intro vs
  induction vs with
  | nil => intro it d _ _; simp [readArray, V.adv_zero]
  | cons v vs ih =>
    intro it d hv hA
    simp only [List.map_cons, wires] at hA
    obtain ⟨a1, a2⟩ := At.split V hA
    rw [wire_length] at a2
    simp only [List.length_cons, readArray]
    rw [read_val V ha (hv v (by simp)) a1]
    simp only [ih (fun x hx => hv x (by simp [hx])) a2, V.adv_adv]
    rw [Nat.add_mul, Nat.one_mul, Nat.add_comm]

theorem pattern_lt (c : Int) : pattern c < 2 ^ 64 := by
  unfold pattern; omega

theorem ofPattern_pattern {c : Int} (h : Chrono.I64 c) : ofPattern (pattern c) = c := by
  obtain ⟨h1, h2⟩ := h
  unfold Chrono.i64Min at h1
  unfold Chrono.i64Max at h2
  unfold ofPattern pattern
  split <;> omega

theorem tp_read {c : Int} (h : Chrono.I64 c) :
    Chrono.TP.ofDuration ⟨Chrono.tenthNano, c⟩ = some ⟨c⟩ := by
  have hh := (Chrono.C43_from_coarser (k := 10) (by decide) c)
  have e : (⟨Chrono.tenthNano, c⟩ : Chrono.Dur) = Chrono.dur 10 c := by rw [Chrono.dur, Chrono.tenthNano_eq]
  rw [e]
  have hs : (Chrono.TP.ofDuration (Chrono.dur 10 c)).isSome := hh.2.2 ⟨c, h, by rw [Chrono.ticks, Chrono.tenthNano_eq]⟩
  obtain ⟨t, ht⟩ := Option.isSome_iff_exists.1 hs
  obtain ⟨_, h2⟩ := hh.1 t ht
  have : t.getDuration = Chrono.dur 10 t.dt := by rw [Chrono.TP.getDuration, Chrono.tenthNano_eq]
  rw [this, Chrono.sec_inj] at h2
  rw [ht, ← h2]

theorem read_field {h₁ h₂ : Host} {e : Order} (ha : Agree h₁ h₂ e) {f : Field} {x : Var} (hf₁ : f.Ok h₁) (hf : f.Ok h₂)
    (hx : x.Fits f) {it : ι} {d : List Byte} (hA : At V it d (wires h₁ e (words f))) :
    readField S h₂ e x it d = some (V.adv it f.size, f) := by
  cases f with
  | arith w v =>
    cases x with
    | arith w' =>
      simp only [Var.Fits] at hx; subst hx
      simp only [words, wires, List.append_nil] at hA
      simp only [readField, read_val V ha hf hA]
      rfl
    | _ => exact hx.elim
  | array w vs =>
    cases x with
    | array w' n =>
      obtain ⟨rfl, rfl⟩ := hx
      simp only [readField, read_array V ha hf hA]
      rfl
    | _ => exact hx.elim
  | duration c =>
    cases x with
    | duration =>
      simp only [words, wires, List.append_nil] at hA
      have := read_val V ha (w := .w8) (v := pattern c) (pattern_lt c) hA
      simp only [readField, this, Option.map_some, ofPattern_pattern hf]
      rfl
    | _ => exact hx.elim
  | timePoint t =>
    cases x with
    | timePoint =>
      simp only [words, wires, List.append_nil] at hA
      have := read_val V ha (w := .w8) (v := pattern t.dt) (pattern_lt _) hA
      simp only [readField, this]
      rw [ofPattern_pattern hf, tp_read hf]
      rfl
    | _ => exact hx.elim
  | seq bits v =>
    cases x with
    | seq bits' old =>
      obtain ⟨rfl, ho⟩ := hx
      obtain ⟨b1, b2, b3⟩ := hf
      simp only [words, wires, List.append_nil] at hA
      obtain ⟨bs, r1, r2, r3⟩ := read_bytes V ha (Nat.lt_of_lt_of_le b3 SeqNum.pow_wire) hA
      simp only [readField, r1, Option.map_some]
      rw [SeqNum.assemble h₂ b2 ho _ r2, r3]
      rfl
    | _ => exact hx.elim
  | addr bits a =>
    cases x with
    | addr bits' old =>
      obtain ⟨he, ho⟩ := hx
      subst he
      obtain ⟨b1, b2, b3⟩ := hf
      subst b1
      simp only [words, wires, List.append_nil] at hA
      have hlt : Address.num bits a < 256 ^ Address.nb bits := by
        have := Address.outBytes_ok b2 b3
        rw [Address.num, ← this.2, ← this.1]; exact leVal_lt _
      obtain ⟨bs, r1, r2, r3⟩ := read_bytes V ha hlt hA
      simp only [readField, r1, Option.map_some]
      obtain ⟨q1, q2⟩ := Address.readIn_ok b2 ho r2
      have r3' : leVal bs = Address.num bits a := r3
      have : Address.readIn bits old bs = a := by
        apply Address.wf_ext b2 q1 b3
        rw [q2, r3', Address.num, Nat.mod_eq_of_lt b3.lt]
      rw [this]
      rfl
    | _ => exact hx.elim

theorem read_all {h₁ h₂ : Host} : ∀ {fs : List (Order × Field)} {xs : List (Order × Var)},
    (∀ p ∈ fs, p.2.Ok h₁ ∧ p.2.Ok h₂ ∧ Agree h₁ h₂ p.1) →
    List.Forall₂ (fun p q => p.1 = q.1 ∧ q.2.Fits p.2) fs xs → ∀ {it : ι} {d : List Byte},
    At V it d (bytesOf h₁ fs) → readAll S h₂ xs it d = some (V.adv it (total fs), fs.map Prod.snd) := by
  intro fs
  induction fs with
  | nil =>
    intro xs _ hm it d _
    cases hm
    simp [readAll, total, V.adv_zero]
  | cons p fs ih =>
    obtain ⟨e, f⟩ := p
    intro xs hok hm it d hA
    cases hm with
    | @cons _ q _ xs h1 h2 =>
      obtain ⟨e', x⟩ := q
      obtain ⟨rfl, hx⟩ := h1
      simp only [bytesOf] at hA
      obtain ⟨a1, a2⟩ := At.split V hA
      rw [wires_length] at a2
      obtain ⟨o1, o2, o3⟩ := hok (e, f) (by simp)
      simp only [readAll, read_field V o3 o1 o2 hx a1, ih (fun p hp => hok p (by simp [hp])) h2 a2, V.adv_adv, total,
        List.map_cons]

theorem at_of_effect {it : ι} {d bs : List Byte} {r : ι × List Byte} (h : Effect V it d bs r) : At V it r.2 bs := by
  have h1 := h.room
  refine ⟨V.room_len h.len h1, ?_⟩
  rw [V.room_iff] at h1
  rw [h.bytes, take_drop_splice h1.2]

end
end Verif.Message
