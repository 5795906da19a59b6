import Verif.Zc.Model
import Verif.Tag.Model

/-!
Model of `Packet` (`network/packet/packet.h`) with `PacketBuffer` = `ZcBuffer`, the configuration
`NSFX_PACKET_USES_ZERO_COMPRESSED_BUFFER` (`packet-buffer.h:75-79`): the same functions as in `Verif.Packet.Model`, on
zero-compressed buffers (`Verif.Zc`) and arrays of tags (`Verif.Tag`).  `none` is a failed assertion or undefined
behaviour.

A body owns one buffer and two tag lists, named by their positions in the buffer state and the two tag list states;
all other buffers of the buffer state belong to the client.

Packet tags hold packets.  The reference counts below count `Packet` objects outside of tags only.  Whether a body is
also held by a tag somewhere is an arbitrary input `held` of the operations that look at the count, and a body
that no packet outside of tags uses may be destroyed at any later time (`reap`, when the last tag goes away), so every
behaviour of the code is a history of the model.  Simplifications: allocation does not fail (it does in `ZPacket.Throw`); a destroyed packet stays in
the list as a null packet; reference counts do not overflow.
-/
namespace Verif.ZPacket

/-- `Packet::Body` (`packet.h:671-693`). -/
structure Body where
  ref : Nat
  buf : Nat
  bt : Nat
  pt : Nat

/-- Byte tags carry buffers (represented by a number), packet tags carry packets (a body, or none for a null
packet).  (`packet.h:666-694` and the objects of a client.) -/
structure PState where
  bufs : Zc.ZState
  bt : Tag.State Nat
  pt : Tag.State (Option Nat)
  body : Nat → Option Body
  next : Nat
  pkts : List (Option Nat)

/-- A client before it constructs any packet or buffer; no code. -/
def PState.init (junk : Nat → Nat → Byte) : PState :=
  ⟨Zc.ZState.init junk, Tag.State.init, Tag.State.init, fun _ => none, 0, []⟩

/-- An operation on buffers, on byte tag lists, on packet tag lists.  (`body_->buffer_`, `packet.h:671-693`.) -/
def PState.onBuf (s : PState) (o : Zc.ZOp) : Option PState := (s.bufs.step o).map fun x => { s with bufs := x }
/-- An operation on byte tag lists (`body_->byteTagList_`, `packet.h:671-693`). -/
def PState.onBt (s : PState) (o : Tag.Op Nat) : Option PState := (s.bt.step o).map fun x => { s with bt := x }
/-- An operation on packet tag lists (`body_->packetTagList_`, `packet.h:671-693`). -/
def PState.onPt (s : PState) (o : Tag.Op (Option Nat)) : Option PState :=
  (s.pt.step o).map fun x => { s with pt := x }

/-- An assignment to a member of `*body_` (`packet.h:671-693`), or its deletion (`942-952`). -/
def PState.setBody (s : PState) (b : Nat) (x : Option Body) : PState :=
  { s with body := fun c => if c = b then x else s.body c }

/-- Give packet `i` a new body with one reference.  (`packet.h:721-728`, `960-964`.) -/
def PState.fresh (s : PState) (i : Nat) (x : Body) : PState :=
  { s with body := fun c => if c = s.next then some x else s.body c, next := s.next + 1,
           pkts := s.pkts.set i (some s.next) }

/-- `MakePrivate` (`packet.h:954-970`) with the body constructors (`697-709`). -/
def makePrivate (s : PState) (i : Nat) (held : Bool) : Option (PState × Body) :=
  let x : Body := ⟨1, s.bufs.bufs.length, s.bt.lists.length, s.pt.lists.length⟩
  match s.pkts[i]? with
  | none => none
  | some none =>
    match s.bufs.step (.new 0 0 0), s.bt.step .new, s.pt.step .new with
    | some a, some b, some c => some (({ s with bufs := a, bt := b, pt := c } : PState).fresh i x, x)
    | _, _, _ => none
  | some (some d) =>
    match s.body d with
    | none => none
    | some y =>
      if 1 < y.ref ∨ held = true then
        match s.bufs.step (.copy y.buf), s.bt.step (.copy y.bt), s.pt.step (.copy y.pt) with
        | some a, some b, some c =>
          some ((({ s with bufs := a, bt := b, pt := c } : PState).setBody d (some { y with ref := y.ref - 1 })).fresh i x, x)
        | _, _, _ => none
      else some (s, y)

/-- Do one operation on each part of the body.  (`packet.h:778-826`, in the order of the statements.) -/
def act (s : PState) (o : Zc.ZOp) (p : Tag.Op Nat) (q : Tag.Op (Option Nat)) : Option PState :=
  match s.bufs.step o, s.bt.step p, s.pt.step q with
  | some a, some b, some c => some { s with bufs := a, bt := b, pt := c }
  | _, _, _ => none

/-- `RemoveHeader` (`packet.h:812-818`). -/
def removeHeader (s : PState) (i n : Nat) (held : Bool) : Option PState :=
  match makePrivate s i held with
  | none => none
  | some (s1, x) => act s1 (.removeStart x.buf n) (.removeStart x.bt n) (.removeStart x.pt n)

/-- `RemoveTrailer` (`packet.h:820-826`). -/
def removeTrailer (s : PState) (i n : Nat) (held : Bool) : Option PState :=
  match makePrivate s i held with
  | none => none
  | some (s1, x) => act s1 (.removeEnd x.buf n) (.removeEnd x.bt n) (.removeEnd x.pt n)

/-- `AddHeader(size)` (`packet.h:778-785`); the returned buffer is appended to the buffers. -/
def addHeader (s : PState) (i n : Nat) (held : Bool) : Option PState :=
  match makePrivate s i held with
  | none => none
  | some (s1, x) =>
    match act s1 (.addStart x.buf n) (.addStart x.bt n) (.addStart x.pt n) with
    | none => none
    | some s2 => s2.onBuf (.fragment x.buf 0 n)

/-- `AddTrailer(size)` (`packet.h:787-794`). -/
def addTrailer (s : PState) (i n : Nat) (held : Bool) : Option PState :=
  match makePrivate s i held with
  | none => none
  | some (s1, x) =>
    match act s1 (.addEnd x.buf n) (.addEnd x.bt n) (.addEnd x.pt n) with
    | none => none
    | some s2 => s2.onBuf (.fragment x.buf (s2.bufs.size x.buf - n) n)

/-- `AddRef` (`packet.h:934-940`). -/
def addRef (s : PState) : Option Nat → Option PState
  | none => some s
  | some b =>
    match s.body b with
    | none => none
    | some x => some (s.setBody b (some { x with ref := x.ref + 1 }))

/-- Destroy a body.  (`delete body_`, `packet.h:942-952`.) -/
def kill (s : PState) (b : Nat) (x : Body) : Option PState :=
  match act s (.destroy x.buf) (.destroy x.bt) (.destroy x.pt) with
  | none => none
  | some s1 => some (s1.setBody b none)

/-- `Release` (`packet.h:942-952`). -/
def release (s : PState) (p : Option Nat) (held : Bool) : Option PState :=
  match p with
  | none => some s
  | some b =>
    match s.body b with
    | none => none
    | some x =>
      if x.ref = 1 ∧ held = false then kill s b x
      else some (s.setBody b (some { x with ref := x.ref - 1 }))

/-- `GetSize()` (`packet.h:768-771`). -/
def PState.size (s : PState) (i : Nat) : Nat :=
  match s.pkts[i]? with
  | some (some b) =>
    match s.body b with
    | some x => s.bufs.size x.buf
    | none => 0
  | _ => 0

/-- The bytes that `GetBuffer()` reads as (`packet.h:773-776`). -/
def PState.bytes (s : PState) (i : Nat) : List Byte :=
  match s.pkts[i]? with
  | some (some b) =>
    match s.body b with
    | some x => s.bufs.bytes x.buf
    | none => []
  | _ => []

/-- `GetByteTag`, `HasByteTag` (`packet.h:835-847`): `none` is the exception `TagNotFound`. -/
def PState.byteTag (s : PState) (i id off : Nat) : Option Nat :=
  match s.pkts[i]? with
  | some (some b) =>
    match s.body b with
    | some x => s.bt.get x.bt id off
    | none => none
  | _ => none

/-- `GetPacketTag`, `HasPacketTag` (`packet.h:861-873`): the packet in the tag. -/
def PState.packetTag (s : PState) (i id off : Nat) : Option (Option Nat) :=
  match s.pkts[i]? with
  | some (some b) =>
    match s.body b with
    | some x => s.pt.get x.pt id off
    | none => none
  | _ => none

/-- No body uses the buffer.  (What keeps the buffers of a client apart from those of bodies; no code.) -/
def PState.free (s : PState) (j : Nat) : Bool :=
  (List.range s.next).all fun b => match s.body b with | none => true | some x => x.buf != j

/-- The operations of a client that owns any number of packets and buffers (`packet.h:424-652`). -/
inductive Op where
  /-- `Packet()` -/
  | new
  /-- `Packet(buffer)` for a buffer of the client -/
  | fromBuf (j : Nat)
  | copy (j : Nat)
  | move (j : Nat)
  | assign (i j : Nat) (held : Bool)
  | moveAssign (i j : Nat) (held : Bool)
  | swap (i j : Nat)
  | destroy (i : Nat) (held : Bool)
  | addHeader (i n : Nat) (held : Bool)
  | addTrailer (i n : Nat) (held : Bool)
  /-- `AddHeader(buffer)`, `AddTrailer(buffer)` -/
  | addHeaderBuf (i j : Nat) (held : Bool)
  | addTrailerBuf (i j : Nat) (held : Bool)
  | removeHeader (i n : Nat) (held : Bool)
  | removeTrailer (i n : Nat) (held : Bool)
  | addByteTag (i id v start size : Nat) (held : Bool)
  | addPacketTag (i id k start size : Nat) (held : Bool)
  | getPacketTag (i id off : Nat)
  | copyTags (i j : Nat)
  | fragment (j start size : Nat)
  /-- `AddHeader(packet)`, `AddTrailer(packet)` -/
  | addHeaderPkt (i j : Nat) (held : Bool)
  | addTrailerPkt (i j : Nat) (held : Bool)
  /-- The client works with buffers of its own, or copies the buffer of a packet (`GetBuffer`). -/
  | user (o : Zc.ZOp)
  /-- A body that is used by no packet outside of tags goes away. -/
  | reap (b : Nat)

/-- The existing buffers that a client operation changes.  (The client's own buffers; `zc-buffer.h:77-346`.) -/
def bufTargets : Zc.ZOp → List Nat
  | .new _ _ _ | .newFrom _ | .copy _ | .fragment _ _ _ | .real _ => []
  | .move j | .destroy j | .addStart j _ | .addEnd j _ | .addStartBytes j _ | .addEndBytes j _
  | .removeStart j _ | .removeEnd j _ | .write j _ _ | .realize j => [j]
  | .assign i _ | .addStartBuf i _ | .addEndBuf i _ => [i]
  | .moveAssign i j | .swap i j => [i, j]

/-- One operation (`packet.h`: constructors `714-728`, copy and move `735-766`, `AddHeader(buffer)` and
`AddTrailer(buffer)` `796-810`, tags `828-873`, `CopyTagsFrom` `875-891`, `MakeFragment` `893-899`,
`AddHeader(packet)` and `AddTrailer(packet)` `901-927`, `swap` `929-932`).  A packet argument passed by value holds one more
reference during the call. -/
def PState.step (s : PState) : Op → Option PState
  | .new => some { s with pkts := s.pkts ++ [none] }
  | .fromBuf j =>
    match s.bufs.step (.copy j), s.bt.step .new, s.pt.step .new with
    | some a, some b, some c =>
      let x : Body := ⟨1, s.bufs.bufs.length, s.bt.lists.length, s.pt.lists.length⟩
      let n := s.bufs.size j
      match b.step (.addEnd x.bt n), c.step (.addEnd x.pt n) with
      | some b', some c' =>
        some (({ s with bufs := a, bt := b', pt := c', pkts := s.pkts ++ [none] } : PState).fresh s.pkts.length x)
      | _, _ => none
    | _, _, _ => none
  | .copy j =>
    match s.pkts[j]? with
    | none => none
    | some p => (addRef s p).map fun s1 => { s1 with pkts := s1.pkts ++ [p] }
  | .move j =>
    match s.pkts[j]? with
    | none => none
    | some p => some { s with pkts := s.pkts.set j none ++ [p] }
  | .assign i j held =>
    match s.pkts[i]?, s.pkts[j]? with
    | some p, some q =>
      if p = q then some s
      else
        match release s p held with
        | none => none
        | some s1 => (addRef s1 q).map fun s2 => { s2 with pkts := s2.pkts.set i q }
    | _, _ => none
  | .moveAssign i j held =>
    match s.pkts[i]?, s.pkts[j]? with
    | some p, some q =>
      if p = q then some s
      else (release s p held).map fun s1 => { s1 with pkts := (s1.pkts.set i q).set j none }
    | _, _ => none
  | .swap i j =>
    match s.pkts[i]?, s.pkts[j]? with
    | some p, some q => some { s with pkts := (s.pkts.set i q).set j p }
    | _, _ => none
  | .destroy i held =>
    match s.pkts[i]? with
    | none => none
    | some p => (release s p held).map fun s1 => { s1 with pkts := s1.pkts.set i none }
  | .addHeader i n held => ZPacket.addHeader s i n held
  | .addTrailer i n held => ZPacket.addTrailer s i n held
  | .addHeaderBuf i j held =>
    if s.free j then
      match makePrivate s i held with
      | none => none
      | some (s1, x) =>
        act s1 (.addStartBuf x.buf j) (.addStart x.bt (s1.bufs.size j)) (.addStart x.pt (s1.bufs.size j))
    else none
  | .addTrailerBuf i j held =>
    if s.free j then
      match makePrivate s i held with
      | none => none
      | some (s1, x) => act s1 (.addEndBuf x.buf j) (.addEnd x.bt (s1.bufs.size j)) (.addEnd x.pt (s1.bufs.size j))
    else none
  | .removeHeader i n held => ZPacket.removeHeader s i n held
  | .removeTrailer i n held => ZPacket.removeTrailer s i n held
  | .addByteTag i id v start size held =>
    match makePrivate s i held with
    | none => none
    | some (s1, x) => s1.onBt (.insert x.bt id v start size)
  | .addPacketTag i id k start size held =>
    match s.pkts[k]? with
    | none => none
    | some p =>
      match makePrivate s i (held || decide (s.pkts[i]? = some p)) with
      | none => none
      | some (s1, x) => s1.onPt (.insert x.pt id p start size)
  | .getPacketTag i id off =>
    match s.packetTag i id off with
    | none => some s
    | some p => (addRef s p).map fun s1 => { s1 with pkts := s1.pkts ++ [p] }
  | .copyTags i j =>
    match s.pkts[i]?, s.pkts[j]? with
    | some (some b), some (some c) =>
      match s.body b, s.body c with
      | some x, some y =>
        if s.bufs.size x.buf = s.bufs.size y.buf then
          match s.bt.step (.assign x.bt y.bt), s.pt.step (.assign x.pt y.pt) with
          | some b', some c' => some { s with bt := b', pt := c' }
          | _, _ => none
        else some s
      | _, _ => none
    | some _, some _ => some s
    | _, _ => none
  | .fragment j start size =>
    match s.pkts[j]? with
    | none => none
    | some p =>
      match addRef s p with
      | none => none
      | some s1 =>
        let f := s1.pkts.length
        match ZPacket.removeHeader { s1 with pkts := s1.pkts ++ [p] } f start false with
        | none => none
        | some s2 => if size ≤ s2.size f then ZPacket.removeTrailer s2 f (s2.size f - size) false else none
  | .addHeaderPkt i j held =>
    match s.pkts[j]? with
    | none => none
    | some none => some s
    | some (some c) =>
      match s.body c, makePrivate s i (held || decide (s.pkts[i]? = some (some c))) with
      | some y, some (s1, x) => act s1 (.addStartBuf x.buf y.buf) (.addListStart x.bt y.bt) (.addListStart x.pt y.pt)
      | _, _ => none
  | .addTrailerPkt i j held =>
    match s.pkts[j]? with
    | none => none
    | some none => some s
    | some (some c) =>
      match s.body c, makePrivate s i (held || decide (s.pkts[i]? = some (some c))) with
      | some y, some (s1, x) => act s1 (.addEndBuf x.buf y.buf) (.addListEnd x.bt y.bt) (.addListEnd x.pt y.pt)
      | _, _ => none
  | .user o => if (bufTargets o).all s.free then s.onBuf o else none
  | .reap b =>
    match s.body b with
    | none => none
    | some x => if x.ref = 0 then kill s b x else none

/-- A history.  (A client; no code.) -/
def PState.run (s : PState) : List Op → Option PState
  | [] => some s
  | o :: os =>
    match s.step o with
    | none => none
    | some s1 => s1.run os

end Verif.ZPacket
