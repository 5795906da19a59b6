import Verif.Buf.Buffer

/-!
Model of `ZcBuffer` (`network/buffer/zc-buffer.h`): a buffer whose middle part, the zero area, is not stored.
Any number of buffers share storages.  `none` is undefined behaviour or a failed assertion.

The storage decisions of `AddAtStart`/`AddAtEnd` are textually those of `Buffer` with
`dataSize = GetInternalSize()`, so they use `growStart`/`growEnd` on the physical range of the buffer.

Simplifications: `size_t` is unbounded (in particular `start_ + size` in `RemoveAtStart` does not wrap, see `Zc.Word`); the
exceptions of `operator new` are not modelled; a source block given by pointer is a byte list; a destroyed
buffer stays in the list as a null buffer.
-/
namespace Verif.Zc
open Verif Verif.Buf

/-- `zc-buffer.h:349-374`. -/
structure ZBuf where
  st : Option Nat
  start : Nat
  zs : Nat
  ze : Nat
  en : Nat
deriving DecidableEq, Repr

/-- `zc-buffer.h:386-394`. -/
def ZBuf.null : ZBuf := ⟨none, 0, 0, 0, 0⟩

/-- The physical range in the storage: the header is at `[start_, zeroStart_)`, the trailer directly behind
it (`zc-buffer.h:405`, `556-559`, `649-651`). -/
def ZBuf.seg (z : ZBuf) : Seg := ⟨z.st, z.start, z.en - (z.ze - z.zs)⟩

/-- `GetSize` (`zc-buffer.h:551-554`). -/
def ZBuf.size (z : ZBuf) : Nat := z.en - z.start

/-- The heap and the `ZcBuffer` objects (`zc-buffer.h:350-375`) of a client. -/
structure ZState where
  mem : Mem
  bufs : List ZBuf

/-- A client before it constructs any; no code. -/
def ZState.init (junk : Nat → Nat → Byte) : ZState := ⟨⟨fun _ => none, 0, junk⟩, []⟩

/-- The bytes of a buffer: header, zeros, trailer.
(What the iterators of `zc-buffer.h:324-342` read: header, zeros, trailer.) -/
def bytesOf (m : Mem) (z : ZBuf) : List Byte :=
  (m.view z.seg).take (z.zs - z.start) ++ List.replicate (z.ze - z.zs) 0 ++
    (m.view z.seg).drop (z.zs - z.start)

/-- `BasicBuffer(startSize, zeroSize, endSize)` (`zc-buffer.h:423-435`); the constructors with fewer
arguments (`396-421`) are the instances `(capacity, 0, 0)` and `(startSize, zeroSize, 0)`. -/
def construct (m : Mem) (s z e : Nat) : Option (Mem × ZBuf) :=
  let r := m.allocate (s + e)
  let b : ZBuf := ⟨r.2, s, s, s + z, s + z⟩
  (r.1.dirtyOf b.seg).map (fun m1 => (m1, b))

/-- The deep-copying constructor from another kind of buffer whose bytes are `data`
(`zc-buffer.h:457-469`).  The dirty range stays at `[0, 0)`. -/
def constructFrom (m : Mem) (data : List Byte) : Option (Mem × ZBuf) :=
  let r := m.allocate data.length
  let b : ZBuf := ⟨r.2, 0, data.length, data.length, data.length⟩
  (r.1.fill b.seg 0 data).map (fun m1 => (m1, b))

/-- `Release` (`zc-buffer.h:537-549`): without a storage nothing happens, not even to the offsets. -/
def release (m : Mem) (z : ZBuf) : Option (Mem × ZBuf) :=
  match z.st with
  | none => some (m, z)
  | some _ => (m.drop z.seg).map (fun m1 => (m1, ZBuf.null))

/-- `AddAtStart(size)` (`zc-buffer.h:664-759`); the old data now begin at `g.pos`, and every offset moves
along. -/
def addAtStart (m : Mem) (z : ZBuf) (size : Nat) : Option (Mem × ZBuf) :=
  if size = 0 then some (m, z)
  else (growStart m z.seg size).map (fun g =>
    (g.mem, ⟨g.seg.st, g.seg.lo, g.pos + (z.zs - z.start), g.pos + (z.ze - z.start),
      g.pos + (z.en - z.start)⟩))

/-- `AddAtEnd(size)` (`zc-buffer.h:828-924`). -/
def addAtEnd (m : Mem) (z : ZBuf) (size : Nat) : Option (Mem × ZBuf) :=
  if size = 0 then some (m, z)
  else (growEnd m z.seg size).map (fun g =>
    (g.mem, ⟨g.seg.st, g.seg.lo, g.pos + (z.zs - z.start), g.pos + (z.ze - z.start),
      g.pos + (z.en - z.start) + size⟩))

/-- `AddAtStart(src, size)` (`zc-buffer.h:761-769`). -/
def addBytesAtStart (m : Mem) (z : ZBuf) (src : List Byte) : Option (Mem × ZBuf) :=
  if src.length = 0 then some (m, z)
  else match addAtStart m z src.length with
    | none => none
    | some (m1, z1) => (m1.fill z1.seg z1.start src).map (fun m2 => (m2, z1))

/-- `AddAtEnd(src, size)` (`zc-buffer.h:926-935`). -/
def addBytesAtEnd (m : Mem) (z : ZBuf) (src : List Byte) : Option (Mem × ZBuf) :=
  if src.length = 0 then some (m, z)
  else match addAtEnd m z src.length with
    | none => none
    | some (m1, z1) =>
      (m1.fill z1.seg (z1.en - (z1.ze - z1.zs) - src.length) src).map (fun m2 => (m2, z1))

/-- `CopyTo(dst, size)` where `dst` is `off` bytes into storage `dst` (`zc-buffer.h:592-662`), as
`AddAtStart(buffer)`/`AddAtEnd(buffer)` call it: the pieces are copied one after the other. -/
def copyInto (m : Mem) (z : ZBuf) (dst off size : Nat) : Option Mem :=
  match z.st with
  | none => some m
  | some id =>
    if z.zs = z.ze then
      match m.read id z.start (min (z.en - z.start) size) with
      | none => none
      | some d => m.write dst off d
    else
      let h := min size (z.zs - z.start)
      match m.read id z.start h with
      | none => none
      | some d1 =>
        match m.write dst off d1 with
        | none => none
        | some m1 =>
          let k := min (size - h) (z.ze - z.zs)
          match m1.write dst (off + h) (List.replicate k 0) with
          | none => none
          | some m2 =>
            match m2.read id z.zs (min (size - h - k) (z.en - z.ze)) with
            | none => none
            | some d2 => m2.write dst (off + h + k) d2

/-- The bytes that `CopyTo(dst, size)` stores into a block outside all storages
(`zc-buffer.h:592-662`). -/
def copyOut (m : Mem) (z : ZBuf) (size : Nat) : Option (List Byte) :=
  match z.st with
  | none => some []
  | some id =>
    if z.zs = z.ze then m.read id z.start (min (z.en - z.start) size)
    else
      let h := min size (z.zs - z.start)
      let k := min (size - h) (z.ze - z.zs)
      match m.read id z.start h, m.read id z.zs (min (size - h - k) (z.en - z.ze)) with
      | some d1, some d2 => some (d1 ++ List.replicate k 0 ++ d2)
      | _, _ => none

/-- `CopyTo(dst, size)`: the block afterwards and the returned number; `none` if the block is too small for
what is copied.  (`zc-buffer.h:592-660`.) -/
def copyTo (m : Mem) (z : ZBuf) (dst : List Byte) (size : Nat) : Option (List Byte × Nat) :=
  match copyOut m z size with
  | none => none
  | some d => if d.length ≤ dst.length then some (d ++ dst.drop d.length, d.length) else none

/-- `RemoveAtStart(size)` (`zc-buffer.h:997-1025`). -/
def removeAtStart (m : Mem) (z : ZBuf) (size : Nat) : Option (Mem × ZBuf) :=
  let newStart := z.start + size
  if newStart ≤ z.zs then some (m, { z with start := newStart })
  else if newStart ≤ z.ze then
    let delta := newStart - z.zs
    some (m, { z with start := z.zs, ze := z.ze - delta, en := z.en - delta })
  else if newStart ≤ z.en then
    let delta := newStart - z.ze
    let gamma := z.ze - z.zs
    some (m, { z with start := z.zs + delta, zs := z.zs + delta, ze := z.zs + delta, en := z.en - gamma })
  else release m z

/-- `RemoveAtEnd(size)` (`zc-buffer.h:1027-1050`). -/
def removeAtEnd (m : Mem) (z : ZBuf) (size : Nat) : Option (Mem × ZBuf) :=
  if size ≤ z.en - z.ze then some (m, { z with en := z.en - size })
  else if size ≤ z.en - z.zs then
    let delta := size - (z.en - z.ze)
    some (m, { z with ze := z.ze - delta, en := z.ze - delta })
  else if size ≤ z.en - z.start then
    let delta := size - (z.en - z.zs)
    some (m, { z with zs := z.zs - delta, ze := z.zs - delta, en := z.zs - delta })
  else release m z

/-- `MakeFragment(start, size)` (`zc-buffer.h:1052-1064`): a shallow copy cut at both ends. -/
def makeFragment (m : Mem) (z : ZBuf) (start size : Nat) : Option (Mem × ZBuf) :=
  if start ≤ z.size ∧ size ≤ z.size - start then
    match m.acquire z.seg with
    | none => none
    | some m1 =>
      match removeAtStart m1 z start with
      | none => none
      | some (m2, f) => removeAtEnd m2 f (z.size - (start + size))
  else none

/-- `n` bytes at `off` from the storage of a buffer; without a storage only an empty copy is defined.
(The copies in `zc-buffer.h:1077-1092`.) -/
def readAt (m : Mem) (st : Option Nat) (off n : Nat) : Option (List Byte) :=
  match st with
  | none => if n = 0 then some [] else none
  | some id => m.read id off n

/-- `MakeRealBuffer` (`zc-buffer.h:1066-1070`, `1077-1092`) with the private constructor (`437-455`). -/
def makeReal (m : Mem) (z : ZBuf) : Option (Mem × ZBuf) :=
  if z.ze = z.zs then (m.acquire z.seg).map (fun m1 => (m1, z))
  else
    let header := z.zs - z.start
    let gamma := z.ze - z.zs
    let trailer := z.en - z.ze
    match m.allocate (z.en - z.start) with
    | (_, none) => none
    | (m1, some id) =>
      match readAt m1 z.st z.start header, readAt m1 z.st z.zs trailer with
      | some d1, some d2 =>
        match m1.write id 0 d1 with
        | none => none
        | some m2 =>
          match m2.write id header (List.replicate gamma 0) with
          | none => none
          | some m3 =>
            match m3.write id (header + gamma) d2 with
            | none => none
            | some m4 =>
              (m4.dirty id 0 (z.en - z.start)).map (fun m5 =>
                (m5, ⟨some id, 0, header + gamma, header + gamma, z.en - z.start⟩))
      | _, _ => none

/-- `WritableCheck` (`zc-buffer-iterator.h:1379-1386`, `1395-1406`) and the assertion of `CursorToOffset`
(`498-503`): whether `n` bytes may be stored at `cursor`. -/
def writable (z : ZBuf) (cursor n : Nat) : Prop :=
  cursor + n ≤ z.en ∧
  ¬((cursor < z.zs ∧ z.zs < cursor + n) ∨ (cursor < z.ze ∧ z.ze < cursor + n)) ∧
  ¬(z.zs ≤ cursor ∧ cursor < z.ze)

instance (z : ZBuf) (c n : Nat) : Decidable (writable z c n) := by unfold writable; infer_instance

/-- Bytes stored through an iterator `off` bytes from the start of the buffer
(`zc-buffer-iterator.h:771-798`, `800-812`, offset from `504-513`); refused if not writable. -/
def writeAt (m : Mem) (z : ZBuf) (off : Nat) (d : List Byte) : Option (Mem × ZBuf) :=
  let cursor := z.start + off
  if writable z cursor d.length then
    (m.fill z.seg (if cursor < z.zs then cursor else cursor - (z.ze - z.zs)) d).map (fun m1 => (m1, z))
  else none

/-- The operations of a client: the public interface, `zc-buffer.h:77-346`. -/
inductive ZOp where
  /-- `zc-buffer.h:386-435` -/
  | new (start zeros tail : Nat)
  /-- `457-469` -/
  | newFrom (data : List Byte)
  /-- `476-484` -/
  | copy (j : Nat)
  /-- `505-517` -/
  | move (j : Nat)
  /-- `486-503` -/
  | assign (i j : Nat)
  /-- `519-527` -/
  | moveAssign (i j : Nat)
  /-- `1122-1132` -/
  | swap (i j : Nat)
  /-- `471-474` -/
  | destroy (i : Nat)
  | addStart (i n : Nat)
  | addEnd (i n : Nat)
  | addStartBytes (i : Nat) (src : List Byte)
  | addEndBytes (i : Nat) (src : List Byte)
  /-- `AddAtStart(buffer)` (`771-780`). -/
  | addStartBuf (i j : Nat)
  /-- `AddAtEnd(buffer)` (`937-947`). -/
  | addEndBuf (i j : Nat)
  | removeStart (i n : Nat)
  | removeEnd (i n : Nat)
  | fragment (j start size : Nat)
  /-- `MakeRealBuffer` -/
  | real (j : Nat)
  /-- `Realize` (`1072-1075`). -/
  | realize (i : Nat)
  | write (i off : Nat) (data : List Byte)

/-- A call of a non-const method of `zc-buffer.h:199-346` on the object in place. -/
def ZState.on (s : ZState) (i : Nat) (f : Mem → ZBuf → Option (Mem × ZBuf)) : Option ZState :=
  match s.bufs[i]? with
  | none => none
  | some b => (f s.mem b).map (fun r => ⟨r.1, s.bufs.set i r.2⟩)

/-- A constructor of `zc-buffer.h:77-160`, or a returned object. -/
def ZState.push (s : ZState) (j : Nat) (f : Mem → ZBuf → Option (Mem × ZBuf)) : Option ZState :=
  match s.bufs[j]? with
  | none => none
  | some b => (f s.mem b).map (fun r => ⟨r.1, s.bufs ++ [r.2]⟩)

/-- One operation.  (Each case calls the definition for its method, which cites the lines in `zc-buffer.h`.) -/
def ZState.step (s : ZState) : ZOp → Option ZState
  | .new a z e => (construct s.mem a z e).map (fun r => ⟨r.1, s.bufs ++ [r.2]⟩)
  | .newFrom d => (constructFrom s.mem d).map (fun r => ⟨r.1, s.bufs ++ [r.2]⟩)
  | .copy j => s.push j (fun m b => (m.acquire b.seg).map (fun m1 => (m1, b)))
  | .move j => match s.bufs[j]? with
    | none => none
    | some b => some ⟨s.mem, s.bufs.set j ZBuf.null ++ [b]⟩
  | .assign i j => match s.bufs[i]?, s.bufs[j]? with
    | some a, some b =>
      if i = j then some s
      else match s.mem.acquire b.seg with
        | none => none
        | some m1 => (m1.drop a.seg).map (fun m2 => ⟨m2, s.bufs.set i b⟩)
    | _, _ => none
  | .moveAssign i j => match s.bufs[i]?, s.bufs[j]? with
    | some a, some b =>
      if i = j then some s
      else (release s.mem a).map (fun r => ⟨r.1, (s.bufs.set i b).set j r.2⟩)
    | _, _ => none
  | .swap i j => match s.bufs[i]?, s.bufs[j]? with
    | some a, some b => some ⟨s.mem, (s.bufs.set i b).set j a⟩
    | _, _ => none
  | .destroy i => s.on i (fun m b => (release m b).map (fun r => (r.1, ZBuf.null)))
  | .addStart i n => s.on i (fun m b => addAtStart m b n)
  | .addEnd i n => s.on i (fun m b => addAtEnd m b n)
  | .addStartBytes i d => s.on i (fun m b => addBytesAtStart m b d)
  | .addEndBytes i d => s.on i (fun m b => addBytesAtEnd m b d)
  | .addStartBuf i j => match s.bufs[j]? with
    | none => none
    | some c =>
      if c.size = 0 then some s
      else match s.on i (fun m b => addAtStart m b c.size) with
        | none => none
        | some s1 => match s1.bufs[i]?, s1.bufs[j]? with
          | some b, some c1 => match b.st with
            | none => none
            | some id => (copyInto s1.mem c1 id b.start c.size).map (fun m => ⟨m, s1.bufs⟩)
          | _, _ => none
  | .addEndBuf i j => match s.bufs[j]? with
    | none => none
    | some c =>
      if c.size = 0 then some s
      else match s.on i (fun m b => addAtEnd m b c.size) with
        | none => none
        | some s1 => match s1.bufs[i]?, s1.bufs[j]? with
          | some b, some c1 => match b.st with
            | none => none
            | some id =>
              (copyInto s1.mem c1 id (b.en - (b.ze - b.zs) - c.size) c.size).map (fun m => ⟨m, s1.bufs⟩)
          | _, _ => none
  | .removeStart i n => s.on i (fun m b => removeAtStart m b n)
  | .removeEnd i n => s.on i (fun m b => removeAtEnd m b n)
  | .fragment j a n => s.push j (fun m b => makeFragment m b a n)
  | .real j => s.push j makeReal
  | .realize i => s.on i (fun m b => match makeReal m b with
    | none => none
    | some (m1, r) => (release m1 b).map (fun q => (q.1, r)))
  | .write i off d => s.on i (fun m b => writeAt m b off d)

/-- A history.  (A client; no code.) -/
def ZState.run (s : ZState) : List ZOp → Option ZState
  | [] => some s
  | o :: os => match s.step o with
    | none => none
    | some s1 => s1.run os

/-- The bytes that buffer `i` reads as.  (What `cbegin()` to `cend()` reads, `zc-buffer.h:337-342`.) -/
def ZState.bytes (s : ZState) (i : Nat) : List Byte :=
  match s.bufs[i]? with
  | none => []
  | some b => bytesOf s.mem b

/-- `GetSize()`.  (`zc-buffer.h:551-554`.) -/
def ZState.size (s : ZState) (i : Nat) : Nat :=
  match s.bufs[i]? with
  | none => 0
  | some b => b.size

end Verif.Zc
