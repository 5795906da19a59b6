import Verif.Zc.Model
import Verif.Buf.Word

/-!
Model of `ZcBuffer` (`network/buffer/zc-buffer.h`) in which every computation on sizes and offsets is done in `size_t` of
64 bits and wraps.  See `Buf.Word`.  The zero area takes no memory, so offsets near `2^64` are easy to reach.
-/
namespace Verif.Zc
open Verif Verif.Buf

/-- `GetSize()` (`zc-buffer.h:551-554`). -/
def ZBuf.wsize (z : ZBuf) : Nat := wsub z.en z.start

/-- `GetInternalSize()` (`zc-buffer.h:556-559`). -/
def ZBuf.wstored (z : ZBuf) : Nat := wadd (wsub z.zs z.start) (wsub z.en z.ze)

/-- `BasicBuffer(startSize, zeroSize, endSize)` (`zc-buffer.h:396-435`). -/
def wconstruct (m : Mem) (s z e : Nat) : Option (Mem × ZBuf) :=
  match m.wallocate (wadd s e) with
  | none => none
  | some (m0, none) => some (m0, ⟨none, s, s, wadd s z, wadd s z⟩)
  | some (m0, some id) =>
    (m0.dirty id s (wsub (wadd s z) (wsub (wadd s z) s))).map fun m1 => (m1, ⟨some id, s, s, wadd s z, wadd s z⟩)

/-- The deep-copying constructor (`zc-buffer.h:457-469`). -/
def wconstructFrom (m : Mem) (data : List Byte) : Option (Mem × ZBuf) :=
  match m.wallocate data.length with
  | none => none
  | some (m0, none) => some (m0, ⟨none, 0, data.length, data.length, data.length⟩)
  | some (m0, some id) => (m0.write id 0 data).map fun m1 => (m1, ⟨some id, 0, data.length, data.length, data.length⟩)

/-- `AddAtStart(size)` (`zc-buffer.h:664-759`). -/
def waddAtStart (m : Mem) (z : ZBuf) (size : Nat) : Option (Mem × ZBuf) :=
  if size = 0 then some (m, z)
  else (wgrowStart m z.st z.start z.wstored size).map fun g =>
    let delta := wsub g.pos z.start
    (g.mem, ⟨g.st, g.lo, wadd z.zs delta, wadd z.ze delta, wadd z.en delta⟩)

/-- `AddAtEnd(size)` (`zc-buffer.h:828-924`). -/
def waddAtEnd (m : Mem) (z : ZBuf) (size : Nat) : Option (Mem × ZBuf) :=
  if size = 0 then some (m, z)
  else (wgrowEnd m z.st z.start z.wstored size).map fun g =>
    let delta := wsub g.pos z.start
    (g.mem, ⟨g.st, g.lo, wadd z.zs delta, wadd z.ze delta, wadd z.en (wadd delta size)⟩)

/-- `AddAtStart(src, size)` (`zc-buffer.h:761-769`). -/
def waddBytesAtStart (m : Mem) (z : ZBuf) (src : List Byte) : Option (Mem × ZBuf) :=
  if src.length = 0 then some (m, z)
  else match waddAtStart m z src.length with
    | none => none
    | some (m1, z1) => (m1.fill z1.seg z1.start src).map (fun m2 => (m2, z1))

/-- `AddAtEnd(src, size)` (`zc-buffer.h:926-935`). -/
def waddBytesAtEnd (m : Mem) (z : ZBuf) (src : List Byte) : Option (Mem × ZBuf) :=
  if src.length = 0 then some (m, z)
  else match waddAtEnd m z src.length with
    | none => none
    | some (m1, z1) =>
      (m1.fill z1.seg (wsub (wsub z1.en (wsub z1.ze z1.zs)) src.length) src).map (fun m2 => (m2, z1))

/-- `CopyTo(dst, size)` into a storage (`zc-buffer.h:592-662`). -/
def wcopyInto (m : Mem) (z : ZBuf) (dst off size : Nat) : Option Mem :=
  match z.st with
  | none => some m
  | some id =>
    if z.zs = z.ze then
      match m.read id z.start (min z.wstored size) with
      | none => none
      | some d => m.write dst off d
    else
      let h := min size (wsub z.zs z.start)
      match m.read id z.start h with
      | none => none
      | some d1 =>
        match m.write dst off d1 with
        | none => none
        | some m1 =>
          let k := min (size - h) (wsub z.ze z.zs)
          match m1.write dst (off + h) (List.replicate k 0) with
          | none => none
          | some m2 =>
            match m2.read id z.zs (min (size - h - k) (wsub z.en z.ze)) with
            | none => none
            | some d2 => m2.write dst (off + h + k) d2

/-- `RemoveAtStart(size)` (`zc-buffer.h:997-1025`). -/
def wremoveAtStart (m : Mem) (z : ZBuf) (size : Nat) : Option (Mem × ZBuf) :=
  let newStart := wadd z.start size
  if newStart ≤ z.zs then some (m, { z with start := newStart })
  else if newStart ≤ z.ze then
    let delta := wsub newStart z.zs
    some (m, { z with start := z.zs, ze := wsub z.ze delta, en := wsub z.en delta })
  else if newStart ≤ z.en then
    let delta := wsub newStart z.ze
    let gamma := wsub z.ze z.zs
    some (m, { z with start := wadd z.zs delta, zs := wadd z.zs delta, ze := wadd z.zs delta, en := wsub z.en gamma })
  else release m z

/-- `RemoveAtEnd(size)` (`zc-buffer.h:1027-1050`). -/
def wremoveAtEnd (m : Mem) (z : ZBuf) (size : Nat) : Option (Mem × ZBuf) :=
  if size ≤ wsub z.en z.ze then some (m, { z with en := wsub z.en size })
  else if size ≤ wsub z.en z.zs then
    let delta := wsub size (wsub z.en z.ze)
    some (m, { z with ze := wsub z.ze delta, en := wsub z.ze delta })
  else if size ≤ wsub z.en z.start then
    let delta := wsub size (wsub z.en z.zs)
    some (m, { z with zs := wsub z.zs delta, ze := wsub z.zs delta, en := wsub z.zs delta })
  else release m z

/-- `MakeFragment(start, size)` (`zc-buffer.h:1052-1064`). -/
def wmakeFragment (m : Mem) (z : ZBuf) (start size : Nat) : Option (Mem × ZBuf) :=
  if start ≤ z.wsize ∧ size ≤ wsub z.wsize start then
    match m.acquire z.seg with
    | none => none
    | some m1 =>
      match wremoveAtStart m1 z start with
      | none => none
      | some (m2, f) => wremoveAtEnd m2 f (wsub z.wsize (wadd start size))
  else none

/-- `MakeRealBuffer` (`zc-buffer.h:1066-1070`, `1077-1092`) with the private constructor and its assertions (`437-455`). -/
def wmakeReal (m : Mem) (z : ZBuf) : Option (Mem × ZBuf) :=
  if z.ze = z.zs then (m.acquire z.seg).map (fun m1 => (m1, z))
  else
    let header := wsub z.zs z.start
    let gamma := wsub z.ze z.zs
    let trailer := wsub z.en z.ze
    let cap := wsub z.en z.start
    match m.wallocate cap with
    | none => none
    | some (_, none) => none
    | some (m1, some id) =>
      match readAt m1 z.st z.start header, readAt m1 z.st z.zs trailer with
      | some d1, some d2 =>
        match m1.write id 0 d1 with
        | none => none
        | some m2 =>
          match m2.write id header (List.replicate gamma 0) with
          | none => none
          | some m3 =>
            match m3.write id (header + gamma) d2 with
            | none => none
            | some m4 =>
              if wadd header gamma ≤ cap then
                (m4.dirty id 0 cap).map (fun m5 => (m5, ⟨some id, 0, wadd header gamma, wadd header gamma, cap⟩))
              else none
      | _, _ => none

/-- One operation; the operations that compute no sizes are those of `ZState.step`.
(Each case calls the definition for its method, which cites the lines in `zc-buffer.h`.) -/
def ZState.wstep (s : ZState) : ZOp → Option ZState
  | .new a z e => (wconstruct s.mem a z e).map (fun r => ⟨r.1, s.bufs ++ [r.2]⟩)
  | .newFrom d => (wconstructFrom s.mem d).map (fun r => ⟨r.1, s.bufs ++ [r.2]⟩)
  | .addStart i n => s.on i (fun m b => waddAtStart m b n)
  | .addEnd i n => s.on i (fun m b => waddAtEnd m b n)
  | .addStartBytes i d => s.on i (fun m b => waddBytesAtStart m b d)
  | .addEndBytes i d => s.on i (fun m b => waddBytesAtEnd m b d)
  | .addStartBuf i j => match s.bufs[j]? with
    | none => none
    | some c =>
      if c.wsize = 0 then some s
      else match s.on i (fun m b => waddAtStart m b c.wsize) with
        | none => none
        | some s1 => match s1.bufs[i]?, s1.bufs[j]? with
          | some b, some c1 => match b.st with
            | none => none
            | some id => (wcopyInto s1.mem c1 id b.start c.wsize).map (fun m => ⟨m, s1.bufs⟩)
          | _, _ => none
  | .addEndBuf i j => match s.bufs[j]? with
    | none => none
    | some c =>
      if c.wsize = 0 then some s
      else match s.on i (fun m b => waddAtEnd m b c.wsize) with
        | none => none
        | some s1 => match s1.bufs[i]?, s1.bufs[j]? with
          | some b, some c1 => match b.st with
            | none => none
            | some id =>
              (wcopyInto s1.mem c1 id (wsub (wsub b.en (wsub b.ze b.zs)) c.wsize) c.wsize).map (fun m => ⟨m, s1.bufs⟩)
          | _, _ => none
  | .removeStart i n => s.on i (fun m b => wremoveAtStart m b n)
  | .removeEnd i n => s.on i (fun m b => wremoveAtEnd m b n)
  | .fragment j a n => s.push j (fun m b => wmakeFragment m b a n)
  | .real j => s.push j wmakeReal
  | .realize i => s.on i (fun m b => match wmakeReal m b with
    | none => none
    | some (m1, r) => (release m1 b).map (fun q => (q.1, r)))
  | o => s.step o

/-- A history.  (A client; no code.) -/
def ZState.wrun (s : ZState) : List ZOp → Option ZState
  | [] => some s
  | o :: os => match s.wstep o with
    | none => none
    | some s1 => s1.wrun os

end Verif.Zc
