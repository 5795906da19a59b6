/-!
Model of `BasicTagList` (`network/packet/tag/basic-tag-list.h`) with the shared arrays of tag indices
(`basic-tag-index.h`, `basic-tag-index-array.h`), over any number of lists that share arrays.  `none` is a
failed assertion or undefined behaviour.

Simplifications: buffer positions are unbounded integers relative to `REF_POINT` (`basic-tag-list.h:424`),
so the 64-bit overflow assertions of `AddAtStart`/`AddAtEnd` (`510-512`, `549-551`) are not modelled (they are in `Tag.Word`); the value of
a tag (a buffer or a packet) is an arbitrary value that is copied; allocation does not fail (it does in `Tag.Throw`); a destroyed list
stays in the state as an empty list; a null array pointer that is only used to form an empty range is harmless.
-/
namespace Verif.Tag

variable {V : Type}

/-- One tag on a range of bytes (`basic-tag-index.h:68-70`; the tag is an id and a value, `basic-tag.h`). -/
structure Idx (V : Type) where
  id : Nat
  val : V
  st : Int
  en : Int

/-- `HasTaggedByte` (`basic-tag-index.h:167-179`): `tagStart < bufferEnd && tagEnd > bufferStart`. -/
def Idx.has (e : Idx V) (bs be : Int) : Bool := decide (e.st < be) && decide (bs < e.en)

/-- The test of `Exists` and `Get` (`basic-tag-list.h:619-621`, `642-644`). -/
def Idx.covers (e : Idx V) (p : Int) : Bool := decide (e.st ≤ p) && decide (p < e.en)

/-- `BasicTagIndexArray` (`basic-tag-index-array.h:41-44`): capacity, reference count and the constructed
elements; `dirty_` is `idx.length`. -/
structure Arr (V : Type) where
  cap : Nat
  ref : Nat
  idx : List (Idx V)

/-- The arrays (`basic-tag-index-array.h:35-45`) by number, and the number of the next allocation. -/
structure Heap (V : Type) where
  mem : Nat → Option (Arr V)
  next : Nat

/-- The fields of a list (`basic-tag-list.h:427-431`). -/
structure TL where
  bs : Int
  be : Int
  size : Nat
  tia : Option Nat
deriving DecidableEq

/-- An assignment to a member of `*tia_` (`basic-tag-index-array.h:41-44`), an allocation or a deletion. -/
def Heap.put (h : Heap V) (a : Nat) (x : Option (Arr V)) : Heap V :=
  ⟨fun b => if b = a then x else h.mem b, h.next⟩

/-- `TagIndexArray::Allocate` (`basic-tag-index-array.h:49-58`): asserts a positive capacity, one reference. -/
def Heap.allocate (h : Heap V) (cap : Nat) (l : List (Idx V)) : Option (Heap V × Nat) :=
  if 0 < cap ∧ l.length ≤ cap then
    some (⟨fun b => if b = h.next then some ⟨cap, 1, l⟩ else h.mem b, h.next + 1⟩, h.next)
  else none

/-- `TagIndexArray::AddRef` (`basic-tag-index-array.h:60-65`). -/
def Heap.addRef (h : Heap V) : Option Nat → Option (Heap V)
  | none => some h
  | some a =>
    match h.mem a with
    | none => none
    | some x => some (h.put a (some { x with ref := x.ref + 1 }))

/-- `TagIndexArray::Release` (`basic-tag-index-array.h:67-84`): the array is freed when the count reaches zero. -/
def Heap.release (h : Heap V) : Option Nat → Option (Heap V)
  | none => some h
  | some a =>
    match h.mem a with
    | none => none
    | some x => if x.ref = 1 then some (h.put a none) else some (h.put a (some { x with ref := x.ref - 1 }))

/-- The elements a list uses: the first `size_` of its array.  (`basic-tag-list.h:430-431`.) -/
def entries (h : Heap V) (t : TL) : List (Idx V) :=
  match t.tia with
  | none => []
  | some a =>
    match h.mem a with
    | none => []
    | some x => x.idx.take t.size

/-- The two loops of `Compact` (`basic-tag-list.h:775-803`): keep the leading elements that have a tagged
byte, drop the first that has none, then move the later ones that have toward the head. -/
def squeeze (p : Idx V → Bool) (l : List (Idx V)) : List (Idx V) :=
  match l.dropWhile p with
  | [] => l
  | _ :: rest => l.takeWhile p ++ rest.filter p

/-- `Compact` (`basic-tag-list.h:757-806`); the first loop (`766-773`) destroys the elements past `size_`. -/
def compact (h : Heap V) (t : TL) (a : Nat) (x : Arr V) : Heap V × TL :=
  let l := squeeze (fun e => e.has t.bs t.be) (x.idx.take t.size)
  (h.put a (some { x with idx := l }), { t with size := l.length })

/-- `Reallocate` (`basic-tag-list.h:808-838`). -/
def reallocate (h : Heap V) (t : TL) (a : Nat) (x : Arr V) (cap : Nat) : Option (Heap V × TL) :=
  if x.cap ≤ cap then
    let l := (x.idx.take t.size).filter (fun e => e.has t.bs t.be)
    match h.allocate cap l with
    | none => none
    | some (h1, b) =>
      match h1.release (some a) with
      | none => none
      | some h2 => some (h2, { t with size := l.length, tia := some b })
  else none

/-- `PrepareToInsert` (`basic-tag-list.h:697-755`), with its two final assertions. -/
def prepare (h : Heap V) (t : TL) : Option (Heap V × TL) :=
  let r : Option (Heap V × TL) :=
    match t.tia with
    | none =>
      match h.allocate 4 [] with
      | none => none
      | some (h1, b) => some (h1, { t with tia := some b })
    | some a =>
      match h.mem a with
      | none => none
      | some x =>
        if x.ref = 1 then
          let c := compact h t a x
          match c.1.mem a with
          | none => none
          | some y => if y.idx.length = y.cap then reallocate c.1 c.2 a y (y.cap * 2) else some c
        else if x.idx.length = x.cap then reallocate h t a x (x.cap * 2)
        else if t.size = x.idx.length then some (h, t)
        else reallocate h t a x x.cap
  match r with
  | none => none
  | some (h1, t1) =>
    match t1.tia with
    | none => none
    | some b =>
      match h1.mem b with
      | none => none
      | some y => if y.idx.length < y.cap ∧ t1.size = y.idx.length then some (h1, t1) else none

/-- Construct an element behind the last one (`basic-tag-list.h:596-601`, `926-930`). -/
def append (h : Heap V) (t : TL) (e : Idx V) : Option (Heap V × TL) :=
  match prepare h t with
  | none => none
  | some (h1, t1) =>
    match t1.tia with
    | none => none
    | some b =>
      match h1.mem b with
      | none => none
      | some y => some (h1.put b (some { y with idx := y.idx ++ [e] }), { t1 with size := t1.size + 1 })

/-- `Insert` (`basic-tag-list.h:586-608`). -/
def insert (h : Heap V) (t : TL) (id : Nat) (v : V) (start size : Nat) : Option (Heap V × TL) :=
  if (start : Int) + size ≤ t.be - t.bs ∧ 0 < size then
    append h t ⟨id, v, t.bs + start, t.bs + start + size⟩
  else none

/-- Drop the trailing elements that fail the test: the first loop of `ExpandBuffer` (`basic-tag-list.h:863-868`). -/
def trim (p : Idx V → Bool) (l : List (Idx V)) : List (Idx V) := (l.reverse.dropWhile (fun e => !p e)).reverse

/-- `ExpandBuffer` (`basic-tag-list.h:840-895`). -/
def expand (h : Heap V) (t : TL) (a b : Nat) : Option (Heap V × TL) :=
  let r : Option (Heap V × TL) :=
    match t.tia with
    | none => some (h, t)
    | some k =>
      match h.mem k with
      | none => none
      | some x =>
        if x.ref = 1 then some (compact h t k x)
        else
          let l := trim (fun e => e.has t.bs t.be) (x.idx.take t.size)
          let t1 : TL := { t with size := l.length }
          if l.any (fun e => !e.has t.bs t.be && e.has (t.bs - a) (t.be + b)) then reallocate h t1 k x x.cap
          else some (h, t1)
  match r with
  | none => none
  | some (h1, t1) => some (h1, { t1 with bs := t1.bs - a, be := t1.be + b })

/-- `HasTag` (`basic-tag-list.h:897-916`). -/
def hasTag (l : List (Idx V)) (id : Nat) (st en : Int) : Bool :=
  l.any (fun e => decide (e.id = id) && (decide (e.st = st) && decide (e.en = en)))

/-- `InsertTag` (`basic-tag-list.h:918-932`). -/
def insertTag (h : Heap V) (t : TL) (e : Idx V) : Option (Heap V × TL) :=
  if !hasTag (entries h t) e.id e.st e.en && e.has t.bs t.be then append h t e else some (h, t)

/-- The copying loop of `AddAtStart(rhs)` and `AddAtEnd(rhs)` (`basic-tag-list.h:523-536`, `562-575`): `n` elements
of `r` from the `k`-th on, shifted by `d`, each read from the array when its turn comes. -/
def pour (h : Heap V) (t r : TL) (d : Int) : Nat → Nat → Option (Heap V × TL)
  | 0, _ => some (h, t)
  | n + 1, k =>
    match (entries h r)[k]? with
    | none => none
    | some e =>
      match insertTag h t ⟨e.id, e.val, e.st + d, e.en + d⟩ with
      | none => none
      | some (h1, t1) => pour h1 t1 r d n (k + 1)

/-- `AddAtStart(BasicTagList rhs)` (`basic-tag-list.h:517-537`); the argument is a copy that is destroyed at the
end. -/
def addListStart (h : Heap V) (t r : TL) : Option (Heap V × TL) :=
  match h.addRef r.tia with
  | none => none
  | some h0 =>
    match expand h0 t (r.be - r.bs).toNat 0 with
    | none => none
    | some (h1, t1) =>
      match pour h1 t1 r (t1.bs - r.bs) r.size 0 with
      | none => none
      | some (h2, t2) =>
        match h2.release r.tia with
        | none => none
        | some h3 => some (h3, t2)

/-- `AddAtEnd(BasicTagList rhs)` (`basic-tag-list.h:555-576`). -/
def addListEnd (h : Heap V) (t r : TL) : Option (Heap V × TL) :=
  match h.addRef r.tia with
  | none => none
  | some h0 =>
    match expand h0 t 0 (r.be - r.bs).toNat with
    | none => none
    | some (h1, t1) =>
      match pour h1 t1 r (t1.be - r.be) r.size 0 with
      | none => none
      | some (h2, t2) =>
        match h2.release r.tia with
        | none => none
        | some h3 => some (h3, t2)

/-- `RemoveAtStart` (`basic-tag-list.h:539-545`). -/
def removeStart (h : Heap V) (t : TL) (n : Nat) : Option (Heap V × TL) :=
  if t.bs + n ≤ t.be then some (h, { t with bs := t.bs + n }) else none

/-- `RemoveAtEnd` (`basic-tag-list.h:578-584`). -/
def removeEnd (h : Heap V) (t : TL) (n : Nat) : Option (Heap V × TL) :=
  if t.bs ≤ t.be - n then some (h, { t with be := t.be - n }) else none

/-- The default constructor (`basic-tag-list.h:436-444`). -/
def TL.null : TL := ⟨0, 0, 0, none⟩

/-- The arrays and the lists (`basic-tag-list.h:426-431`) of a client. -/
structure State (V : Type) where
  heap : Heap V
  lists : List TL

/-- No lists yet.  (A client before it makes any; no code.) -/
def State.init : State V := ⟨⟨fun _ => none, 0⟩, []⟩

/-- The public interface (`basic-tag-list.h:243-420`). -/
inductive Op (V : Type) where
  /-- default constructor -/
  | new
  /-- `BasicTagList(capacity, bufferSize)`; `BasicTagList(capacity)` is the instance `(capacity, 0)` -/
  | newCap (cap n : Nat)
  | copy (j : Nat)
  | assign (i j : Nat)
  | swap (i j : Nat)
  | destroy (i : Nat)
  | addStart (i n : Nat)
  | addEnd (i n : Nat)
  | removeStart (i n : Nat)
  | removeEnd (i n : Nat)
  | insert (i id : Nat) (v : V) (start size : Nat)
  | addListStart (i j : Nat)
  | addListEnd (i j : Nat)

/-- Apply an operation to the `i`-th list.  (A method is called on the list in place, `basic-tag-list.h:485-900`.) -/
def State.on (s : State V) (i : Nat) (f : Heap V → TL → Option (Heap V × TL)) : Option (State V) :=
  match s.lists[i]? with
  | none => none
  | some t =>
    match f s.heap t with
    | none => none
    | some (h, t') => some ⟨h, s.lists.set i t'⟩

/-- One public operation of some list (lines as cited at each definition above; copying
`basic-tag-list.h:473-483`, assignment `485-506`, the constructor with a capacity `446-462`, destruction `464-471`,
`swap` `934-941`). -/
def State.step (s : State V) : Op V → Option (State V)
  | .new => some ⟨s.heap, s.lists ++ [TL.null]⟩
  | .newCap cap n =>
    match s.heap.allocate cap [] with
    | none => none
    | some (h, a) => some ⟨h, s.lists ++ [⟨-((n / 2 : Nat) : Int), -((n / 2 : Nat) : Int) + n, 0, some a⟩]⟩
  | .copy j =>
    match s.lists[j]? with
    | none => none
    | some t =>
      match s.heap.addRef t.tia with
      | none => none
      | some h => some ⟨h, s.lists ++ [t]⟩
  | .assign i j =>
    match s.lists[j]? with
    | none => none
    | some r =>
      if i = j then some s
      else s.on i fun h t =>
        match h.addRef r.tia with
        | none => none
        | some h1 =>
          match h1.release t.tia with
          | none => none
          | some h2 => some (h2, r)
  | .swap i j =>
    match s.lists[i]?, s.lists[j]? with
    | some a, some b => some ⟨s.heap, (s.lists.set i b).set j a⟩
    | _, _ => none
  | .destroy i => s.on i fun h t =>
      match h.release t.tia with
      | none => none
      | some h1 => some (h1, TL.null)
  | .addStart i n => s.on i fun h t => expand h t n 0
  | .addEnd i n => s.on i fun h t => expand h t 0 n
  | .removeStart i n => s.on i fun h t => Tag.removeStart h t n
  | .removeEnd i n => s.on i fun h t => Tag.removeEnd h t n
  | .insert i id v start size => s.on i fun h t => Tag.insert h t id v start size
  | .addListStart i j =>
    match s.lists[j]? with
    | none => none
    | some r => s.on i fun h t => Tag.addListStart h t r
  | .addListEnd i j =>
    match s.lists[j]? with
    | none => none
    | some r => s.on i fun h t => Tag.addListEnd h t r

/-- A history.  (A client; no code.) -/
def State.run (s : State V) : List (Op V) → Option (State V)
  | [] => some s
  | o :: os =>
    match s.step o with
    | none => none
    | some s1 => s1.run os

/-- First element with the id that covers the position (`basic-tag-list.h:610-653`). -/
def lookup (l : List (Idx V)) (id : Nat) (p : Int) : Option V :=
  (l.find? (fun e => decide (e.id = id) && e.covers p)).map Idx.val

/-- Number of bytes a list tracks: `bufferEnd_ - bufferStart_`.  (`basic-tag-list.h:427-428`.) -/
def State.size (s : State V) (i : Nat) : Nat :=
  match s.lists[i]? with
  | none => 0
  | some t => (t.be - t.bs).toNat

/-- `Get` (`basic-tag-list.h:632-653`): `none` is the exception `TagNotFound`; the byte offset is asserted to be
inside the buffer, which callers of this definition state. -/
def State.get (s : State V) (i id off : Nat) : Option V :=
  match s.lists[i]? with
  | none => none
  | some t => lookup (entries s.heap t) id (t.bs + off)

/-- `Exists` (`basic-tag-list.h:610-630`). -/
def State.exists (s : State V) (i id off : Nat) : Bool :=
  match s.lists[i]? with
  | none => false
  | some t => (entries s.heap t).any (fun e => decide (e.id = id) && e.covers (t.bs + off))

end Verif.Tag
