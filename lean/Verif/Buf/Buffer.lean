import Verif.Buf.Store

/-!
Model of `Buffer` (`network/buffer/buffer.h`): every public operation, over any number of buffers that
share storages.  A `Buffer` object is a `Seg`.  `none` is undefined behaviour.

Simplifications: the exceptions of `operator new` are not modelled; a source block given by pointer
(`AddAtStart(const uint8_t*, size_t)`) is a byte list, so blocks that lie inside the buffer's own storage
are not covered; a destroyed buffer object stays in the list as a null buffer.
-/
namespace Verif.Buf

/-- The heap and the `Buffer` objects (`buffer.h:331-347`) of a client. -/
structure State where
  mem : Mem
  bufs : List Seg

/-- No buffers yet.  (A client before it constructs any; no code.) -/
def State.init (junk : Nat → Nat → Byte) : State := ⟨⟨fun _ => none, 0, junk⟩, []⟩

/-- Set the dirty range if there is a storage (`buffer.h:370-374`, `382-386`, `396-400`, `410-414`). -/
def Mem.dirtyOf (m : Mem) (s : Seg) : Option Mem :=
  match s.st with
  | none => some m
  | some id => m.dirty id s.lo s.hi

/-- Write into the storage of a segment at a physical offset; with a null storage there is nothing
to write.  (`buffer.h:386`, `399`, `668`, `680`, `830-831`, `843-844`.) -/
def Mem.fill (m : Mem) (s : Seg) (off : Nat) (data : List Byte) : Option Mem :=
  match s.st with
  | none => if data = [] then some m else none
  | some id => m.write id off data

/-- `BasicBuffer(startSize, zeroSize, endSize)` (`buffer.h:390-401`); the constructors
`BasicBuffer(capacity)` (`365-375`) and `BasicBuffer(startSize, zeroSize)` (`377-388`) are the instances
`(capacity, 0, 0)` and `(startSize, zeroSize, 0)`. -/
def construct (m : Mem) (start zeros tail : Nat) : Option (Mem × Seg) :=
  let r := m.allocate (start + zeros + tail)
  let s : Seg := ⟨r.2, start, start + zeros⟩
  match r.1.dirtyOf s with
  | none => none
  | some m1 =>
    match m1.fill s start (List.replicate zeros 0) with
    | none => none
    | some m2 => some (m2, s)

/-- The deep-copying constructor from another kind of buffer whose bytes are `data`
(`buffer.h:417-427`).  The dirty range stays at `[0, 0)`. -/
def constructFrom (m : Mem) (data : List Byte) : Option (Mem × Seg) :=
  let r := m.allocate data.length
  let s : Seg := ⟨r.2, 0, data.length⟩
  match r.1.fill s 0 data with
  | none => none
  | some m1 => some (m1, s)

/-- `Acquire` (`buffer.h:479-485`). -/
def Mem.acquire (m : Mem) (s : Seg) : Option Mem :=
  match s.st with
  | none => some m
  | some id => m.addRef id

/-- `AddAtStart(size)` (`buffer.h:565-660`). -/
def addAtStart (m : Mem) (s : Seg) (size : Nat) : Option (Mem × Seg) :=
  if size = 0 then some (m, s) else (growStart m s size).map (fun g => (g.mem, g.seg))

/-- `AddAtEnd(size)` (`buffer.h:726-822`). -/
def addAtEnd (m : Mem) (s : Seg) (size : Nat) : Option (Mem × Seg) :=
  if size = 0 then some (m, s) else (growEnd m s size).map (fun g => (g.mem, g.seg))

/-- `AddAtStart(src, size)` (`buffer.h:662-670`). -/
def addBytesAtStart (m : Mem) (s : Seg) (src : List Byte) : Option (Mem × Seg) :=
  if src.length = 0 then some (m, s)
  else match addAtStart m s src.length with
    | none => none
    | some (m1, s1) => (m1.fill s1 s1.lo src).map (fun m2 => (m2, s1))

/-- `AddAtEnd(src, size)` (`buffer.h:824-833`). -/
def addBytesAtEnd (m : Mem) (s : Seg) (src : List Byte) : Option (Mem × Seg) :=
  if src.length = 0 then some (m, s)
  else match addAtEnd m s src.length with
    | none => none
    | some (m1, s1) => (m1.fill s1 (s1.hi - src.length) src).map (fun m2 => (m2, s1))

/-- The bytes that `CopyTo(dst, size)` stores (`buffer.h:540-563`): 0 bytes without a storage,
otherwise the leading `min(GetSize(), size)` bytes. -/
def copyOut (m : Mem) (s : Seg) (size : Nat) : Option (List Byte) :=
  match s.st with
  | none => some []
  | some id => m.read id s.lo (if s.hi - s.lo ≤ size then s.hi - s.lo else size)

/-- `CopyTo(dst, size)` into a block of memory: the block afterwards and the returned number; `none` if
the block is too small for what is copied.  (`buffer.h:540-563`.) -/
def copyTo (m : Mem) (s : Seg) (dst : List Byte) (size : Nat) : Option (List Byte × Nat) :=
  match copyOut m s size with
  | none => none
  | some d => if d.length ≤ dst.length then some (d ++ dst.drop d.length, d.length) else none

/-- `RemoveAtStart(size)` (`buffer.h:892-902`). -/
def removeAtStart (m : Mem) (s : Seg) (size : Nat) : Option (Mem × Seg) :=
  if size ≤ s.hi - s.lo then some (m, { s with lo := s.lo + size })
  else (m.drop s).map (fun m1 => (m1, if s.st.isSome then Seg.null else s))

/-- `RemoveAtEnd(size)` (`buffer.h:904-914`). -/
def removeAtEnd (m : Mem) (s : Seg) (size : Nat) : Option (Mem × Seg) :=
  if size ≤ s.hi - s.lo then some (m, { s with hi := s.hi - size })
  else (m.drop s).map (fun m1 => (m1, if s.st.isSome then Seg.null else s))

/-- `MakeFragment(start, size)` (`buffer.h:916-933`), with the asserted precondition; the private
constructor (`403-415`) overwrites the dirty range of the shared storage. -/
def makeFragment (m : Mem) (s : Seg) (start size : Nat) : Option (Mem × Seg) :=
  if start ≤ s.hi - s.lo ∧ size ≤ (s.hi - s.lo) - start then
    if size = 0 then some (m, Seg.null)
    else match s.st with
      | none => none
      | some id =>
        match m.addRef id with
        | none => none
        | some m1 =>
          match m1.mem id with
          | none => none
          | some x =>
            if s.lo + start + size ≤ x.cap then
              (m1.dirty id (s.lo + start) (s.lo + start + size)).map
                (fun m2 => (m2, ⟨some id, s.lo + start, s.lo + start + size⟩))
            else none
  else none

/-- The operations of a client that owns any number of buffers, named by their position.
(The public interface, `buffer.h:60-327`.) -/
inductive Op where
  /-- Default, capacity, start+zero and start+zero+end constructors (`buffer.h:358-401`). -/
  | new (start zeros tail : Nat)
  /-- Deep-copying constructor (`417-427`). -/
  | newFrom (data : List Byte)
  /-- Copy constructor (`434-440`); also `MakeRealBuffer` (`935-938`), which returns `Buffer(*this)`. -/
  | copy (j : Nat)
  /-- Move constructor (`459-467`). -/
  | move (j : Nat)
  /-- Copy assignment (`442-457`). -/
  | assign (i j : Nat)
  /-- Move assignment (`469-477`). -/
  | moveAssign (i j : Nat)
  /-- `swap` (`978-986`). -/
  | swap (i j : Nat)
  /-- Destructor (`429-432`). -/
  | destroy (i : Nat)
  | addStart (i n : Nat)
  | addEnd (i n : Nat)
  | addStartBytes (i : Nat) (src : List Byte)
  | addEndBytes (i : Nat) (src : List Byte)
  /-- `AddAtStart(buffer)` (`672-682`); `i = j` is allowed. -/
  | addStartBuf (i j : Nat)
  /-- `AddAtEnd(buffer)` (`835-846`); `i = j` is allowed. -/
  | addEndBuf (i j : Nat)
  | removeStart (i n : Nat)
  | removeEnd (i n : Nat)
  | fragment (j start size : Nat)
  /-- Writing through an iterator of buffer `i`, at `off` bytes from its start. -/
  | write (i off : Nat) (data : List Byte)

/-- Apply an operation that works on one buffer.
(A call of a non-const method of `buffer.h:192-327` on the object in place.) -/
def State.on (s : State) (i : Nat) (f : Mem → Seg → Option (Mem × Seg)) : Option State :=
  match s.bufs[i]? with
  | none => none
  | some b => (f s.mem b).map (fun r => ⟨r.1, s.bufs.set i r.2⟩)

/-- Append a newly constructed buffer.  (A constructor of `buffer.h:60-97`, or a returned object.) -/
def State.push (s : State) (r : Option (Mem × Seg)) : Option State :=
  r.map (fun r => ⟨r.1, s.bufs ++ [r.2]⟩)

/-- One operation.  (Each case calls the definition for its method, which cites the lines in `buffer.h`.) -/
def State.step (s : State) : Op → Option State
  | .new a z e => s.push (construct s.mem a z e)
  | .newFrom d => s.push (constructFrom s.mem d)
  | .copy j => match s.bufs[j]? with
    | none => none
    | some b => s.push ((s.mem.acquire b).map (fun m => (m, b)))
  | .move j => match s.bufs[j]? with
    | none => none
    | some b => some ⟨s.mem, s.bufs.set j Seg.null ++ [b]⟩
  | .assign i j => match s.bufs[i]?, s.bufs[j]? with
    | some a, some b =>
      if i = j then some s
      else match s.mem.acquire b with
        | none => none
        | some m1 => (m1.drop a).map (fun m2 => ⟨m2, s.bufs.set i b⟩)
    | _, _ => none
  | .moveAssign i j => match s.bufs[i]?, s.bufs[j]? with
    | some a, some b =>
      if i = j then some s
      else (s.mem.drop a).map (fun m1 => ⟨m1, (s.bufs.set i b).set j Seg.null⟩)
    | _, _ => none
  | .swap i j => match s.bufs[i]?, s.bufs[j]? with
    | some a, some b => some ⟨s.mem, (s.bufs.set i b).set j a⟩
    | _, _ => none
  | .destroy i => s.on i (fun m b => (m.drop b).map (fun m1 => (m1, Seg.null)))
  | .addStart i n => s.on i (fun m b => addAtStart m b n)
  | .addEnd i n => s.on i (fun m b => addAtEnd m b n)
  | .addStartBytes i d => s.on i (fun m b => addBytesAtStart m b d)
  | .addEndBytes i d => s.on i (fun m b => addBytesAtEnd m b d)
  | .addStartBuf i j => match s.bufs[j]? with
    | none => none
    | some c =>
      let n := c.hi - c.lo
      if n = 0 then some s
      else match s.on i (fun m b => addAtStart m b n) with
        | none => none
        | some s1 => match s1.bufs[i]?, s1.bufs[j]? with
          | some b, some c => match copyOut s1.mem c n with
            | none => none
            | some d => (s1.mem.fill b b.lo d).map (fun m => ⟨m, s1.bufs⟩)
          | _, _ => none
  | .addEndBuf i j => match s.bufs[j]? with
    | none => none
    | some c =>
      let n := c.hi - c.lo
      if n = 0 then some s
      else match s.on i (fun m b => addAtEnd m b n) with
        | none => none
        | some s1 => match s1.bufs[i]?, s1.bufs[j]? with
          | some b, some c => match copyOut s1.mem c n with
            | none => none
            | some d => (s1.mem.fill b (b.hi - n) d).map (fun m => ⟨m, s1.bufs⟩)
          | _, _ => none
  | .removeStart i n => s.on i (fun m b => removeAtStart m b n)
  | .removeEnd i n => s.on i (fun m b => removeAtEnd m b n)
  | .fragment j a n => match s.bufs[j]? with
    | none => none
    | some b => s.push (makeFragment s.mem b a n)
  | .write i off d => s.on i (fun m b =>
      if off + d.length ≤ b.hi - b.lo then (m.fill b (b.lo + off) d).map (fun m1 => (m1, b)) else none)

/-- A history.  (A client; no code.) -/
def State.run (s : State) : List Op → Option State
  | [] => some s
  | o :: os => match s.step o with
    | none => none
    | some s1 => s1.run os

/-- The bytes that buffer `i` reads as.  (What `cbegin()` to `cend()` reads, `buffer.h:305-325`.) -/
def State.bytes (s : State) (i : Nat) : List Byte :=
  match s.bufs[i]? with
  | none => []
  | some b => s.mem.view b

/-- `GetSize()` (`buffer.h:499-507`). -/
def State.size (s : State) (i : Nat) : Nat :=
  match s.bufs[i]? with
  | none => 0
  | some b => b.hi - b.lo

/-- The bytes of all buffers.  (See `State.bytes`; `buffer.h:305-325`.) -/
def State.views (s : State) : List (List Byte) := s.bufs.map s.mem.view

end Verif.Buf
