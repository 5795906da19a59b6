import Verif.Base.Bytes

/-!
Model of `FixedBuffer` (`network/buffer/fixed-buffer.h`) and of `ConstFixedBuffer`
(`network/buffer/const-fixed-buffer.h`, which forwards every call to a contained
`FixedBuffer`): every public operation, over any number of buffer objects that share
storages.

A buffer object is the pointer to its storage; a storage is its reference count and its
bytes (`storage/basic-buffer-storage.h:148-214`, the variant without a dirty area).
`none` is undefined behaviour: access to a freed storage, or outside a storage, or
through a null iterator.

Simplifications: exceptions of `operator new` are not modelled; `size_t` is unbounded;
a destroyed object stays in the list as a null buffer; a read-only object is an object
through which no `write` is performed.
-/
namespace Verif.Fixed

/-- `BasicBufferStorage<false>`: reference count and bytes; the capacity is the number of
bytes (`basic-buffer-storage.h:148-172`). -/
structure Cell where
  ref : Nat
  bytes : List Byte

/-- The heap of storages.  `next` names the next allocation, `junk` gives the contents of
memory that was allocated and not yet initialised.  (`basic-buffer-storage.h:148-194`.) -/
structure Mem where
  mem : Nat → Option Cell
  next : Nat
  junk : Nat → Nat → Byte

/-- Store at a name.  (An assignment to a member of `*storage_`, `basic-buffer-storage.h:148-172`.) -/
def Mem.put (m : Mem) (id : Nat) (x : Option Cell) : Mem :=
  { m with mem := fun k => if k = id then x else m.mem k }

/-- `BufferStorage::Allocate(size)`: null for size 0
(`basic-buffer-storage.h:182-194`). -/
def Mem.allocate (m : Mem) (size : Nat) : Mem × Option Nat :=
  if size = 0 then (m, none)
  else
    ({ m.put m.next (some ⟨1, (List.range size).map (m.junk m.next)⟩) with next := m.next + 1 },
     some m.next)

/-- `FixedBuffer::Acquire` (`fixed-buffer.h:240-246`), `AddRef`
(`basic-buffer-storage.h:196-201`). -/
def Mem.acquire (m : Mem) : Option Nat → Option Mem
  | none => some m
  | some id =>
    match m.mem id with
    | none => none
    | some c => some (m.put id (some { c with ref := c.ref + 1 }))

/-- `FixedBuffer::Release` (`fixed-buffer.h:248-256`), `BufferStorage::Release`
(`basic-buffer-storage.h:203-212`): frees at zero. -/
def Mem.release (m : Mem) : Option Nat → Option Mem
  | none => some m
  | some id =>
    match m.mem id with
    | none => none
    | some c =>
      if c.ref = 0 then none
      else if c.ref - 1 = 0 then some (m.put id none)
      else some (m.put id (some { c with ref := c.ref - 1 }))

/-- `data` written over `b` from position `off` on.  (`bytes_`, `basic-buffer-storage.h:172`.) -/
def splice (b : List Byte) (off : Nat) (data : List Byte) : List Byte :=
  b.take off ++ data ++ b.drop (off + data.length)

/-- Write into a storage.  (Through `begin()`, `fixed-buffer.h:126-147`, and `memset`, `184`.) -/
def Mem.write (m : Mem) (h : Option Nat) (off : Nat) (data : List Byte) : Option Mem :=
  match h with
  | none => if off = 0 ∧ data = [] then some m else none
  | some id =>
    match m.mem id with
    | none => none
    | some c =>
      if off + data.length ≤ c.bytes.length then
        some (m.put id (some { c with bytes := splice c.bytes off data }))
      else none

/-- All objects and the heap.  (`fixed-buffer.h:152-157`, `const-fixed-buffer.h:121-126`.) -/
structure State where
  mem : Mem
  bufs : List (Option Nat)

/-- No buffers yet.  (A client before it constructs any; no code.) -/
def State.init (junk : Nat → Nat → Byte) : State := ⟨⟨fun _ => none, 0, junk⟩, []⟩

/-- The bytes of a buffer object.  (What `cbegin()` to `cend()` reads, `fixed-buffer.h:281-311`.) -/
def Mem.view (m : Mem) : Option Nat → List Byte
  | none => []
  | some id => match m.mem id with
    | none => []
    | some c => c.bytes

/-- What iterators over buffer `i` read (`begin()`/`end()` span `[0, capacity)`,
`fixed-buffer.h:281-311`). -/
def State.bytes (s : State) (i : Nat) : List Byte :=
  match s.bufs[i]? with
  | none => []
  | some h => s.mem.view h

/-- `GetSize()` (`fixed-buffer.h:258-261`; `const-fixed-buffer.h:171-174`). -/
def State.size (s : State) (i : Nat) : Nat :=
  match s.bufs[i]? with
  | none => 0
  | some none => 0
  | some (some id) => match s.mem.mem id with
    | none => 0
    | some c => c.bytes.length

/-- `CopyTo(dst, size)` into a block `dst` (`fixed-buffer.h:269-279`;
`const-fixed-buffer.h:182-185`): the block afterwards and the returned number; `none` if
the block is too small for what is copied. -/
def State.copyTo (s : State) (i : Nat) (dst : List Byte) (size : Nat) : Option (List Byte × Nat) :=
  match s.bufs[i]? with
  | none => none
  | some none => some (dst, 0)
  | some (some id) => match s.mem.mem id with
    | none => none
    | some c =>
      let copied := if c.bytes.length ≤ size then c.bytes.length else size
      if copied ≤ dst.length then some (c.bytes.take copied ++ dst.drop copied, copied) else none

/-- The operations of a client, naming buffer objects by their position.
(The public interface, `fixed-buffer.h:48-148`, `const-fixed-buffer.h:45-117`.) -/
inductive Op where
  /-- `FixedBuffer()` and `FixedBuffer(size)` (`fixed-buffer.h:169-177`). -/
  | new (size : Nat)
  /-- `FixedBuffer(size, zeroInit)` (`179-186`). -/
  | newInit (size : Nat) (zero : Bool)
  /-- The deep-copying constructor from another kind of buffer with bytes `data`
      (`188-196`). -/
  | newFrom (data : List Byte)
  /-- The deep-copying constructor from a read-only fixed buffer, object `j` (`188-196`). -/
  | newDeep (j : Nat)
  /-- Copy constructor, also of and to `ConstFixedBuffer` (`203-207`;
      `const-fixed-buffer.h:138-146`). -/
  | copy (j : Nat)
  /-- Move constructor (`224-228`; `const-fixed-buffer.h:157-160`). -/
  | move (j : Nat)
  /-- Copy assignment (`209-222`; `const-fixed-buffer.h:148-155`). -/
  | assign (i j : Nat)
  /-- Move assignment: swap, then release (`230-238`; `const-fixed-buffer.h:162-169`). -/
  | moveAssign (i j : Nat)
  /-- `swap` (`313-319`; `const-fixed-buffer.h:207-213`). -/
  | swap (i j : Nat)
  /-- Destructor (`198-201`). -/
  | destroy (i : Nat)
  /-- Writing through an iterator of buffer `i` from position `off` (`281-295`). -/
  | write (i off : Nat) (data : List Byte)

/-- Append a constructed object.  (The result of a constructor, `fixed-buffer.h:169-207`.) -/
def State.push (s : State) (r : Mem × Option Nat) : State := ⟨r.1, s.bufs ++ [r.2]⟩

/-- One operation.
(Each case cites its lines at the constructor of `Op` or the definition it calls; `fixed-buffer.h:169-319`.) -/
def State.step (s : State) : Op → Option State
  | .new n => some (s.push (s.mem.allocate n))
  | .newInit n zero =>
    let r := s.mem.allocate n
    if zero && r.2.isSome then
      (r.1.write r.2 0 (List.replicate n 0)).map (fun m => s.push (m, r.2))
    else some (s.push r)
  | .newFrom d =>
    let r := s.mem.allocate d.length
    (r.1.write r.2 0 d).map (fun m => s.push (m, r.2))
  | .newDeep j => match s.bufs[j]? with
    | none => none
    | some _ =>
      let r := s.mem.allocate (s.size j)
      match r.2 with
      | none => some (s.push r)
      | some id =>
        match (State.mk r.1 s.bufs).copyTo j (r.1.view (some id)) (s.size j) with
        | none => none
        | some d => (r.1.write (some id) 0 d.1).map (fun m => s.push (m, some id))
  | .copy j => match s.bufs[j]? with
    | none => none
    | some h => (s.mem.acquire h).map (fun m => s.push (m, h))
  | .move j => match s.bufs[j]? with
    | none => none
    | some h => some ⟨s.mem, s.bufs.set j none ++ [h]⟩
  | .assign i j => match s.bufs[i]?, s.bufs[j]? with
    | some a, some b =>
      if i = j then some s
      else match s.mem.acquire b with
        | none => none
        | some m1 => (m1.release a).map (fun m2 => ⟨m2, s.bufs.set i b⟩)
    | _, _ => none
  | .moveAssign i j => match s.bufs[i]?, s.bufs[j]? with
    | some a, some b =>
      if i = j then some s
      else (s.mem.release a).map (fun m1 => ⟨m1, (s.bufs.set i b).set j none⟩)
    | _, _ => none
  | .swap i j => match s.bufs[i]?, s.bufs[j]? with
    | some a, some b => some ⟨s.mem, (s.bufs.set i b).set j a⟩
    | _, _ => none
  | .destroy i => match s.bufs[i]? with
    | none => none
    | some a => (s.mem.release a).map (fun m1 => ⟨m1, s.bufs.set i none⟩)
  | .write i off d => match s.bufs[i]? with
    | none => none
    | some h => (s.mem.write h off d).map (fun m => ⟨m, s.bufs⟩)

/-- A history.  (A client; no code.) -/
def State.run (s : State) : List Op → Option State
  | [] => some s
  | o :: os => match s.step o with
    | none => none
    | some s1 => s1.run os

end Verif.Fixed
