import Verif.Buf.Buffer

/-!
Model of `Buffer` (`network/buffer/buffer.h`) in which every computation on sizes and offsets is done in `size_t` of 64
bits and wraps.  The states are those of `Buf.Buffer`, so that the two models can be compared; all offsets and sizes of a
state reached here are below `2^64`.

A pointer `bytes_ + off` is the pair of a storage and `off`; accesses are checked against the capacity without wrapping
(going past the end of the block is undefined whether or not the address wraps).  Writing through an iterator is taken
from `Buf.Buffer`; the arithmetic of iterators is the subject of C83.  The exceptions of `operator new` are not modelled.
-/
namespace Verif.Buf

/-- `a + b` in `size_t`; used for every sum in `buffer.h:358-933` and `zc-buffer.h:386-1092`. -/
def wadd (a b : Nat) : Nat := (a + b) % 2 ^ 64

/-- `a - b` in `size_t`; used for every difference in `buffer.h:358-933` and `zc-buffer.h:386-1092`. -/
def wsub (a b : Nat) : Nat := (a + (2 ^ 64 - b % 2 ^ 64)) % 2 ^ 64

/-- `Allocate` (`basic-buffer-storage.h:102-116`): `sizeof (BasicBufferStorage) - 1` is 39 (four words and an array of one
byte, padded to 40).  If `39 + capacity` wraps the block is smaller than the header and the capacity; this is taken as
undefined. -/
def Mem.wallocate (m : Mem) (cap : Nat) : Option (Mem × Option Nat) :=
  if cap = 0 then some (m, none)
  else if 39 + cap < 2 ^ 64 then some ((m.alloc cap).1, some (m.alloc cap).2)
  else none

/-- The data of a buffer, `n` bytes at `lo`; with a null storage only an empty copy is defined.
(`buffer.h:540-558`, `695`, `714`, `860`, `880`.) -/
def Mem.readOf (m : Mem) (st : Option Nat) (lo n : Nat) : Option (List Byte) :=
  match st with
  | none => if n = 0 then some [] else none
  | some id => m.read id lo n

/-- The result of growing: heap, storage, new `start_`, and the offset where the old data now begin.  The other offsets
are moved by `delta = pos - start_` (`0` where the code leaves them alone).
(The members that `buffer.h:640-720` and `805-890` assign.) -/
structure WGrown where
  mem : Mem
  st : Option Nat
  lo : Nat
  pos : Nat

/-- `InternalAddAtStart`/`InternalAddAtEnd` with `ReallocateTag` (`buffer.h:690-709`, `854-874`, `zc-buffer.h:788-810`,
`955-977`). -/
def wrealloc (m : Mem) (st : Option Nat) (lo ds size newCap newStart pos : Nat) : Option WGrown :=
  match m.wallocate newCap with
  | none => none
  | some (_, none) => none
  | some (m1, some id) =>
    match m1.readOf st lo ds with
    | none => none
    | some data =>
      match m1.write id pos data with
      | none => none
      | some m2 =>
        match m2.drop ⟨st, lo, lo⟩ with
        | none => none
        | some m3 =>
          match m3.dirty id newStart (wadd (wadd newStart size) ds) with
          | none => none
          | some m4 => some ⟨m4, some id, newStart, pos⟩

/-- `InternalAddAtStart(size, AdjustOffsetTag)` (`buffer.h:684-688`, `zc-buffer.h:782-786`). -/
def wadjustStart (m : Mem) (lo : Nat) (id : Nat) (x : Storage) (size : Nat) : Option WGrown :=
  match m.dirty id (wsub lo size) x.de with
  | none => none
  | some m1 => some ⟨m1, some id, wsub lo size, lo⟩

/-- `InternalAddAtStart(size, dataSize, MoveMemoryTag)` (`buffer.h:711-724`, `zc-buffer.h:812-826`). -/
def wmoveStart (m : Mem) (lo ds : Nat) (id : Nat) (size : Nat) : Option WGrown :=
  match m.read id lo ds with
  | none => none
  | some data =>
    match m.write id size data with
    | none => none
    | some m1 =>
      match m1.dirty id 0 (wadd size ds) with
      | none => none
      | some m2 => some ⟨m2, some id, 0, size⟩

/-- `AddAtStart(size)`, `size > 0` (`buffer.h:565-660`, `zc-buffer.h:664-759`); `ds` is `dataSize`. -/
def wgrowStart (m : Mem) (st : Option Nat) (lo ds size : Nat) : Option WGrown :=
  match st with
  | none => wrealloc m st lo ds size size 0 size
  | some id =>
    match m.mem id with
    | none => none
    | some x =>
      if x.ref = 1 then
        if size ≤ lo then wadjustStart m lo id x size
        else if wadd ds size ≤ x.cap then wmoveStart m lo ds id size
        else wrealloc m st lo ds size (wadd size ds) 0 size
      else if x.ds = lo then
        if size ≤ lo then wadjustStart m lo id x size
        else wrealloc m st lo ds size (wadd size ds) 0 size
      else if size ≤ lo then wrealloc m st lo ds size x.cap (wsub lo size) (wsub lo size + size)
      else wrealloc m st lo ds size (wadd size ds) 0 size

/-- `InternalAddAtEnd(size, dataSize, AdjustOffsetTag)` (`buffer.h:848-852`, `zc-buffer.h:949-953`). -/
def wadjustEnd (m : Mem) (lo ds : Nat) (id : Nat) (x : Storage) (size : Nat) : Option WGrown :=
  match m.dirty id x.ds (wadd (wadd lo ds) size) with
  | none => none
  | some m1 => some ⟨m1, some id, lo, lo⟩

/-- `InternalAddAtEnd(size, dataSize, MoveMemoryTag)` (`buffer.h:876-890`, `zc-buffer.h:979-995`). -/
def wmoveEnd (m : Mem) (lo ds : Nat) (id : Nat) (x : Storage) (size : Nat) : Option WGrown :=
  let newStart := wsub x.cap (wadd ds size)
  match m.read id lo ds with
  | none => none
  | some data =>
    match m.write id newStart data with
    | none => none
    | some m1 =>
      match m1.dirty id newStart x.cap with
      | none => none
      | some m2 => some ⟨m2, some id, newStart, newStart⟩

/-- `AddAtEnd(size)`, `size > 0` (`buffer.h:726-822`, `zc-buffer.h:828-924`). -/
def wgrowEnd (m : Mem) (st : Option Nat) (lo ds size : Nat) : Option WGrown :=
  match st with
  | none => wrealloc m st lo ds size size 0 0
  | some id =>
    match m.mem id with
    | none => none
    | some x =>
      let post := wsub x.cap (wadd lo ds)
      if x.ref = 1 then
        if size ≤ post then wadjustEnd m lo ds id x size
        else if wadd ds size ≤ x.cap then wmoveEnd m lo ds id x size
        else wrealloc m st lo ds size (wadd ds size) 0 0
      else if x.de = wadd lo ds then
        if size ≤ post then wadjustEnd m lo ds id x size
        else wrealloc m st lo ds size (wadd ds size) 0 0
      else if size ≤ post then wrealloc m st lo ds size x.cap lo lo
      else wrealloc m st lo ds size (wadd size ds) 0 0

/-- `BasicBuffer(startSize, zeroSize, endSize)` (`buffer.h:365-401`). -/
def wconstruct (m : Mem) (start zeros tail : Nat) : Option (Mem × Seg) :=
  match m.wallocate (wadd (wadd start zeros) tail) with
  | none => none
  | some (m0, none) => some (m0, ⟨none, start, wadd start zeros⟩)
  | some (m0, some id) =>
    match m0.dirty id start (wadd start zeros) with
    | none => none
    | some m1 => (m1.write id start (List.replicate zeros 0)).map fun m2 => (m2, ⟨some id, start, wadd start zeros⟩)

/-- The deep-copying constructor (`buffer.h:417-427`). -/
def wconstructFrom (m : Mem) (data : List Byte) : Option (Mem × Seg) :=
  match m.wallocate data.length with
  | none => none
  | some (m0, none) => some (m0, ⟨none, 0, data.length⟩)
  | some (m0, some id) => (m0.write id 0 data).map fun m1 => (m1, ⟨some id, 0, data.length⟩)

/-- `AddAtStart(size)` (`buffer.h:565-660`): `end_ += delta`. -/
def waddAtStart (m : Mem) (s : Seg) (size : Nat) : Option (Mem × Seg) :=
  if size = 0 then some (m, s)
  else (wgrowStart m s.st s.lo (wsub s.hi s.lo) size).map fun g =>
    (g.mem, ⟨g.st, g.lo, wadd s.hi (wsub g.pos s.lo)⟩)

/-- `AddAtEnd(size)` (`buffer.h:726-822`): `end_ += delta + size`. -/
def waddAtEnd (m : Mem) (s : Seg) (size : Nat) : Option (Mem × Seg) :=
  if size = 0 then some (m, s)
  else (wgrowEnd m s.st s.lo (wsub s.hi s.lo) size).map fun g =>
    (g.mem, ⟨g.st, g.lo, wadd s.hi (wadd (wsub g.pos s.lo) size)⟩)

/-- `AddAtStart(src, size)` (`buffer.h:662-670`). -/
def waddBytesAtStart (m : Mem) (s : Seg) (src : List Byte) : Option (Mem × Seg) :=
  if src.length = 0 then some (m, s)
  else match waddAtStart m s src.length with
    | none => none
    | some (m1, s1) => (m1.fill s1 s1.lo src).map (fun m2 => (m2, s1))

/-- `AddAtEnd(src, size)` (`buffer.h:824-833`). -/
def waddBytesAtEnd (m : Mem) (s : Seg) (src : List Byte) : Option (Mem × Seg) :=
  if src.length = 0 then some (m, s)
  else match waddAtEnd m s src.length with
    | none => none
    | some (m1, s1) => (m1.fill s1 (wsub s1.hi src.length) src).map (fun m2 => (m2, s1))

/-- `CopyTo(dst, size)` (`buffer.h:540-563`). -/
def wcopyOut (m : Mem) (s : Seg) (size : Nat) : Option (List Byte) :=
  match s.st with
  | none => some []
  | some id => m.read id s.lo (if wsub s.hi s.lo ≤ size then wsub s.hi s.lo else size)

/-- `RemoveAtStart(size)` (`buffer.h:892-902`). -/
def wremoveAtStart (m : Mem) (s : Seg) (size : Nat) : Option (Mem × Seg) :=
  if size ≤ wsub s.hi s.lo then some (m, { s with lo := wadd s.lo size })
  else (m.drop s).map (fun m1 => (m1, if s.st.isSome then Seg.null else s))

/-- `RemoveAtEnd(size)` (`buffer.h:904-914`). -/
def wremoveAtEnd (m : Mem) (s : Seg) (size : Nat) : Option (Mem × Seg) :=
  if size ≤ wsub s.hi s.lo then some (m, { s with hi := wsub s.hi size })
  else (m.drop s).map (fun m1 => (m1, if s.st.isSome then Seg.null else s))

/-- `MakeFragment(start, size)` (`buffer.h:916-933`, `403-415`). -/
def wmakeFragment (m : Mem) (s : Seg) (start size : Nat) : Option (Mem × Seg) :=
  if start ≤ wsub s.hi s.lo ∧ size ≤ wsub (wsub s.hi s.lo) start then
    if size = 0 then some (m, Seg.null)
    else match s.st with
      | none => none
      | some id =>
        match m.addRef id with
        | none => none
        | some m1 =>
          match m1.mem id with
          | none => none
          | some x =>
            let a := wadd s.lo start
            let b := wadd (wadd s.lo start) size
            if a ≤ b ∧ b ≤ x.cap then (m1.dirty id a b).map (fun m2 => (m2, ⟨some id, a, b⟩))
            else none
  else none

/-- One operation; the operations that compute no sizes are those of `State.step`.
(Each case calls the definition for its method, which cites the lines in `buffer.h`.) -/
def State.wstep (s : State) : Op → Option State
  | .new a z e => s.push (wconstruct s.mem a z e)
  | .newFrom d => s.push (wconstructFrom s.mem d)
  | .addStart i n => s.on i (fun m b => waddAtStart m b n)
  | .addEnd i n => s.on i (fun m b => waddAtEnd m b n)
  | .addStartBytes i d => s.on i (fun m b => waddBytesAtStart m b d)
  | .addEndBytes i d => s.on i (fun m b => waddBytesAtEnd m b d)
  | .addStartBuf i j => match s.bufs[j]? with
    | none => none
    | some c =>
      let n := wsub c.hi c.lo
      if n = 0 then some s
      else match s.on i (fun m b => waddAtStart m b n) with
        | none => none
        | some s1 => match s1.bufs[i]?, s1.bufs[j]? with
          | some b, some c => match wcopyOut s1.mem c n with
            | none => none
            | some d => (s1.mem.fill b b.lo d).map (fun m => ⟨m, s1.bufs⟩)
          | _, _ => none
  | .addEndBuf i j => match s.bufs[j]? with
    | none => none
    | some c =>
      let n := wsub c.hi c.lo
      if n = 0 then some s
      else match s.on i (fun m b => waddAtEnd m b n) with
        | none => none
        | some s1 => match s1.bufs[i]?, s1.bufs[j]? with
          | some b, some c => match wcopyOut s1.mem c n with
            | none => none
            | some d => (s1.mem.fill b (wsub b.hi n) d).map (fun m => ⟨m, s1.bufs⟩)
          | _, _ => none
  | .removeStart i n => s.on i (fun m b => wremoveAtStart m b n)
  | .removeEnd i n => s.on i (fun m b => wremoveAtEnd m b n)
  | .fragment j a n => match s.bufs[j]? with
    | none => none
    | some b => s.push (wmakeFragment s.mem b a n)
  | o => s.step o

/-- A history.  (A client; no code.) -/
def State.wrun (s : State) : List Op → Option State
  | [] => some s
  | o :: os => match s.wstep o with
    | none => none
    | some s1 => s1.wrun os

end Verif.Buf
