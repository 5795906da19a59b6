import Verif.Base.Bytes

/-!
Model of the shared byte storages of `network/buffer` and of the storage decisions that `Buffer` and
`ZcBuffer` have in common.

* `Storage` - `network/buffer/storage/basic-buffer-storage.h:55-134` (tracking variant).
* `Seg` - what a buffer knows about its storage: the pointer and the physical byte range it occupies.
  For a `Buffer` this is the whole object (`network/buffer/buffer.h:335-347`); for a `ZcBuffer` the
  physical range is `[start_, start_ + GetInternalSize())` (`network/buffer/zc-buffer.h:556-559`).

Undefined behaviour (access to a freed storage, access outside a storage, failed assertion, null
dereference) is `none`.  `size_t` is unbounded: a storage of `2^64` bytes cannot be allocated;
`Buf.Word` has the same operations in 64 bits (C139).
-/
namespace Verif.Buf

/-- `basic-buffer-storage.h:55-92`.  The bytes are a function; every access goes through `Mem.read` and
`Mem.write`, which check the capacity. -/
structure Storage where
  cap : Nat
  ref : Nat
  ds : Nat
  de : Nat
  bytes : Nat → Byte

/-- The heap of storages.  `next` is the name of the next allocation; `junk` gives the contents of
newly allocated, not yet initialised memory (`new uint8_t[n]`, `basic-buffer-storage.h:108`): arbitrary. -/
structure Mem where
  mem : Nat → Option Storage
  next : Nat
  junk : Nat → Nat → Byte

/-- The storage part of a buffer object: `storage_`, and the physical range (`buffer.h:335-347`). -/
structure Seg where
  st : Option Nat
  lo : Nat
  hi : Nat
deriving DecidableEq, Repr

/-- A null buffer (`buffer.h:358-363`). -/
def Seg.null : Seg := ⟨none, 0, 0⟩

/-- Store at a name.  (An assignment to a member of `*storage_`, `basic-buffer-storage.h:86-91`.) -/
def Mem.put (m : Mem) (id : Nat) (x : Option Storage) : Mem :=
  { m with mem := fun k => if k = id then x else m.mem k }

/-- `Allocate` with a positive capacity (`basic-buffer-storage.h:102-116`). -/
def Mem.alloc (m : Mem) (cap : Nat) : Mem × Nat :=
  ({ m.put m.next (some ⟨cap, 1, 0, 0, m.junk m.next⟩) with next := m.next + 1 }, m.next)

/-- `Allocate` (`basic-buffer-storage.h:102-116`): null for capacity 0. -/
def Mem.allocate (m : Mem) (cap : Nat) : Mem × Option Nat :=
  if cap = 0 then (m, none) else ((m.alloc cap).1, some (m.alloc cap).2)

/-- `AddRef` (`basic-buffer-storage.h:118-123`). -/
def Mem.addRef (m : Mem) (id : Nat) : Option Mem :=
  match m.mem id with
  | none => none
  | some x => some (m.put id (some { x with ref := x.ref + 1 }))

/-- `Release` (`basic-buffer-storage.h:125-134`): frees at zero. -/
def Mem.release (m : Mem) (id : Nat) : Option Mem :=
  match m.mem id with
  | none => none
  | some x =>
    if x.ref = 0 then none
    else if x.ref - 1 = 0 then some (m.put id none)
    else some (m.put id (some { x with ref := x.ref - 1 }))

/-- `n` bytes at `lo`.  (`basic-buffer-storage.h:91`, `bytes_`.) -/
def rd (b : Nat → Byte) (lo n : Nat) : List Byte := (List.range n).map (fun k => b (lo + k))

/-- Overwrite with `data` at `off`.  (`basic-buffer-storage.h:91`, `bytes_`.) -/
def wr (b : Nat → Byte) (off : Nat) (data : List Byte) : Nat → Byte := fun k =>
  if off ≤ k then (data[k - off]?).getD (b k) else b k

/-- Source side of `memcpy`/`memmove` from a storage.
(`buffer.h:555`, `695`, `714`, `860`, `880`; `zc-buffer.h:614-655`, `793`, `814`, `961`.) -/
def Mem.read (m : Mem) (id off n : Nat) : Option (List Byte) :=
  match m.mem id with
  | none => none
  | some x => if off + n ≤ x.cap then some (rd x.bytes off n) else none

/-- Destination side of `memcpy`/`memmove`/`memset` into a storage.
(`buffer.h:386`, `399`, `668`, `695`, `714`, `830`, `860`, `880`.) -/
def Mem.write (m : Mem) (id off : Nat) (data : List Byte) : Option Mem :=
  match m.mem id with
  | none => none
  | some x =>
    if off + data.length ≤ x.cap then some (m.put id (some { x with bytes := wr x.bytes off data }))
    else none

/-- `storage_->dirtyStart_ = ds; storage_->dirtyEnd_ = de`.  (`buffer.h:370-414`, `640-720`, `805-890`.) -/
def Mem.dirty (m : Mem) (id ds de : Nat) : Option Mem :=
  match m.mem id with
  | none => none
  | some x => some (m.put id (some { x with ds := ds, de := de }))

/-- The bytes a segment denotes.  (`bytes_ + start_` to `bytes_ + end_`, `buffer.h:305-325`.) -/
def Mem.view (m : Mem) (s : Seg) : List Byte :=
  match s.st with
  | none => []
  | some id => match m.mem id with
    | none => []
    | some x => rd x.bytes s.lo (s.hi - s.lo)

/-- Source side of copying all data of a buffer; with a null storage only an empty copy is defined.  (`buffer.h:540-558`.) -/
def Mem.readSeg (m : Mem) (s : Seg) : Option (List Byte) :=
  match s.st with
  | none => if s.hi - s.lo = 0 then some [] else none
  | some id => m.read id s.lo (s.hi - s.lo)

/-- Let go of the storage, if any (`buffer.h:487-497`). -/
def Mem.drop (m : Mem) (s : Seg) : Option Mem :=
  match s.st with
  | none => some m
  | some id => m.release id

/-- The result of growing: new heap, new segment, and the physical offset where the old data now begin
(so every other offset moves by `pos - start_`).  (The members that `buffer.h:640-720` and `805-890` assign.) -/
structure Grown where
  mem : Mem
  seg : Seg
  pos : Nat

/-- `InternalAddAtStart`/`InternalAddAtEnd` with `ReallocateTag` (`buffer.h:690-709`, `854-874`,
`zc-buffer.h:788-810`, `955-977`): allocate, copy the data to `pos`, release the old storage, set the
dirty range. -/
def realloc (m : Mem) (s : Seg) (size newCap newStart pos : Nat) : Option Grown :=
  match m.allocate newCap with
  | (_, none) => none
  | (m1, some id) =>
    match m1.readSeg s with
    | none => none
    | some data =>
      match m1.write id pos data with
      | none => none
      | some m2 =>
        match m2.drop s with
        | none => none
        | some m3 =>
          match m3.dirty id newStart (newStart + size + (s.hi - s.lo)) with
          | none => none
          | some m4 => some ⟨m4, ⟨some id, newStart, newStart + size + (s.hi - s.lo)⟩, pos⟩

/-- `InternalAddAtStart(size, AdjustOffsetTag)` (`buffer.h:684-688`, `zc-buffer.h:782-786`). -/
def adjustStart (m : Mem) (s : Seg) (id : Nat) (x : Storage) (size : Nat) : Option Grown :=
  match m.dirty id (s.lo - size) x.de with
  | none => none
  | some m1 => some ⟨m1, ⟨some id, s.lo - size, s.hi⟩, s.lo⟩

/-- `InternalAddAtStart(size, dataSize, MoveMemoryTag)` (`buffer.h:711-724`, `zc-buffer.h:812-826`). -/
def moveStart (m : Mem) (s : Seg) (id : Nat) (size : Nat) : Option Grown :=
  match m.read id s.lo (s.hi - s.lo) with
  | none => none
  | some data =>
    match m.write id size data with
    | none => none
    | some m1 =>
      match m1.dirty id 0 (size + (s.hi - s.lo)) with
      | none => none
      | some m2 => some ⟨m2, ⟨some id, 0, size + (s.hi - s.lo)⟩, size⟩

/-- `AddAtStart(size)`, `size > 0` (`buffer.h:565-660`, `zc-buffer.h:664-759`). -/
def growStart (m : Mem) (s : Seg) (size : Nat) : Option Grown :=
  match s.st with
  | none => realloc m s size size 0 size
  | some id =>
    match m.mem id with
    | none => none
    | some x =>
      if x.ref = 1 then
        if size ≤ s.lo then adjustStart m s id x size
        else if (s.hi - s.lo) + size ≤ x.cap then moveStart m s id size
        else realloc m s size (size + (s.hi - s.lo)) 0 size
      else if x.ds = s.lo then
        if size ≤ s.lo then adjustStart m s id x size
        else realloc m s size (size + (s.hi - s.lo)) 0 size
      else if size ≤ s.lo then realloc m s size x.cap (s.lo - size) (s.lo - size + size)
      else realloc m s size (size + (s.hi - s.lo)) 0 size

/-- `InternalAddAtEnd(size, dataSize, AdjustOffsetTag)` (`buffer.h:848-852`, `zc-buffer.h:949-953`). -/
def adjustEnd (m : Mem) (s : Seg) (id : Nat) (x : Storage) (size : Nat) : Option Grown :=
  match m.dirty id x.ds (s.lo + (s.hi - s.lo) + size) with
  | none => none
  | some m1 => some ⟨m1, ⟨some id, s.lo, s.hi + size⟩, s.lo⟩

/-- `InternalAddAtEnd(size, dataSize, MoveMemoryTag)` (`buffer.h:876-890`, `zc-buffer.h:979-995`). -/
def moveEnd (m : Mem) (s : Seg) (id : Nat) (x : Storage) (size : Nat) : Option Grown :=
  let newStart := x.cap - ((s.hi - s.lo) + size)
  match m.read id s.lo (s.hi - s.lo) with
  | none => none
  | some data =>
    match m.write id newStart data with
    | none => none
    | some m1 =>
      match m1.dirty id newStart x.cap with
      | none => none
      | some m2 => some ⟨m2, ⟨some id, newStart, newStart + (s.hi - s.lo) + size⟩, newStart⟩

/-- `AddAtEnd(size)`, `size > 0` (`buffer.h:726-822`, `zc-buffer.h:828-924`). -/
def growEnd (m : Mem) (s : Seg) (size : Nat) : Option Grown :=
  match s.st with
  | none => realloc m s size size 0 0
  | some id =>
    match m.mem id with
    | none => none
    | some x =>
      if x.ref = 1 then
        if size ≤ x.cap - (s.lo + (s.hi - s.lo)) then adjustEnd m s id x size
        else if (s.hi - s.lo) + size ≤ x.cap then moveEnd m s id x size
        else realloc m s size ((s.hi - s.lo) + size) 0 0
      else if x.de = s.lo + (s.hi - s.lo) then
        if size ≤ x.cap - (s.lo + (s.hi - s.lo)) then adjustEnd m s id x size
        else realloc m s size ((s.hi - s.lo) + size) 0 0
      else if size ≤ x.cap - (s.lo + (s.hi - s.lo)) then realloc m s size x.cap s.lo s.lo
      else realloc m s size (size + (s.hi - s.lo)) 0 0

end Verif.Buf
