import Verif.Tag.Props

/-!
`BasicTagList` (`network/packet/tag/basic-tag-list.h`) in which every computation on positions and sizes is done in `size_t` of 64 bits and
wraps, and the assertions on sizes are as written.  The states are those of `Tag.Model`: a position is stored as its difference from
`REF_POINT` (`basic-tag-list.h:424`), which for a `size_t` is from `-(2^63 - 1)` to `2^63`.  Comparisons of positions are comparisons of
these numbers, so that the definitions that only compare (`compact`, `reallocate`, `prepare`, `append`, `insertTag`) are those of
`Tag.Model`.  Not modelled: the overflow of the number of elements of an array.
-/
namespace Verif.Tag

variable {V : Type}

/-- `REF_POINT` (`basic-tag-list.h:424`): half of the largest `size_t`. -/
def REF : Int := 2 ^ 63 - 1

/-- The position that a `size_t` holds in place of the position `x` relative to `REF_POINT`; used for every sum and difference of
positions in `basic-tag-list.h:436-941`. -/
def wpos (x : Int) : Int := (x + REF) % 2 ^ 64 - REF

/-- The `size_t` in place of the number `x`: `bufferEnd_ - bufferStart_` and `start + size` (`basic-tag-list.h:520`, `559`, `589`, `613`,
`636`). -/
def wsize (x : Int) : Nat := (x % 2 ^ 64).toNat

/-- `ExpandBuffer` (`basic-tag-list.h:840-895`). -/
def wexpand (h : Heap V) (t : TL) (a b : Nat) : Option (Heap V × TL) :=
  let r : Option (Heap V × TL) :=
    match t.tia with
    | none => some (h, t)
    | some k =>
      match h.mem k with
      | none => none
      | some x =>
        if x.ref = 1 then some (compact h t k x)
        else
          let l := trim (fun e => e.has t.bs t.be) (x.idx.take t.size)
          let t1 : TL := { t with size := l.length }
          if l.any (fun e => !e.has t.bs t.be && e.has (wpos (t.bs - a)) (wpos (t.be + b))) then reallocate h t1 k x x.cap
          else some (h, t1)
  match r with
  | none => none
  | some (h1, t1) => some (h1, { t1 with bs := wpos (t1.bs - a), be := wpos (t1.be + b) })

/-- `AddAtStart(size_t)` (`basic-tag-list.h:508-515`). -/
def waddStart (h : Heap V) (t : TL) (n : Nat) : Option (Heap V × TL) :=
  if (n : Int) ≤ t.bs + REF then wexpand h t n 0 else none

/-- `AddAtEnd(size_t)` (`basic-tag-list.h:547-554`). -/
def waddEnd (h : Heap V) (t : TL) (n : Nat) : Option (Heap V × TL) :=
  if t.be ≤ wpos (t.be + n) then wexpand h t 0 n else none

/-- `RemoveAtStart` (`basic-tag-list.h:539-545`). -/
def wremoveStart (h : Heap V) (t : TL) (n : Nat) : Option (Heap V × TL) :=
  if wpos (t.bs + n) ≤ t.be then some (h, { t with bs := wpos (t.bs + n) }) else none

/-- `RemoveAtEnd` (`basic-tag-list.h:578-584`). -/
def wremoveEnd (h : Heap V) (t : TL) (n : Nat) : Option (Heap V × TL) :=
  if wpos (t.bs + n) ≤ t.be then some (h, { t with be := wpos (t.be - n) }) else none

/-- `Insert` (`basic-tag-list.h:586-608`). -/
def winsert (h : Heap V) (t : TL) (id : Nat) (v : V) (start size : Nat) : Option (Heap V × TL) :=
  if wsize (start + size) ≤ wsize (t.be - t.bs) ∧ 0 < size then
    append h t ⟨id, v, wpos (t.bs + start), wpos (wpos (t.bs + start) + size)⟩
  else none

/-- The copying loop of `AddAtStart(rhs)` and `AddAtEnd(rhs)` (`basic-tag-list.h:523-536`, `562-575`); its two assertions compare sums that are
equal in `size_t`. -/
def wpour (h : Heap V) (t r : TL) (d : Int) : Nat → Nat → Option (Heap V × TL)
  | 0, _ => some (h, t)
  | n + 1, k =>
    match (entries h r)[k]? with
    | none => none
    | some e =>
      match insertTag h t ⟨e.id, e.val, wpos (e.st + d), wpos (e.en + d)⟩ with
      | none => none
      | some (h1, t1) => wpour h1 t1 r d n (k + 1)

/-- `AddAtStart(BasicTagList rhs)` (`basic-tag-list.h:517-537`). -/
def waddListStart (h : Heap V) (t r : TL) : Option (Heap V × TL) :=
  match h.addRef r.tia with
  | none => none
  | some h0 =>
    match waddStart h0 t (wsize (r.be - r.bs)) with
    | none => none
    | some (h1, t1) =>
      match wpour h1 t1 r (t1.bs - r.bs) r.size 0 with
      | none => none
      | some (h2, t2) =>
        match h2.release r.tia with
        | none => none
        | some h3 => some (h3, t2)

/-- `AddAtEnd(BasicTagList rhs)` (`basic-tag-list.h:556-576`). -/
def waddListEnd (h : Heap V) (t r : TL) : Option (Heap V × TL) :=
  match h.addRef r.tia with
  | none => none
  | some h0 =>
    match waddEnd h0 t (wsize (r.be - r.bs)) with
    | none => none
    | some (h1, t1) =>
      match wpour h1 t1 r (t1.be - r.be) r.size 0 with
      | none => none
      | some (h2, t2) =>
        match h2.release r.tia with
        | none => none
        | some h3 => some (h3, t2)

/-- One public operation of some list (lines as at each definition above; the constructor with a capacity and a size
`basic-tag-list.h:454-461`).  Copying, assignment, `swap` and destruction compute no position (`464-506`, `934-941`). -/
def State.wstep (s : State V) : Op V → Option (State V)
  | .newCap cap n =>
    match s.heap.allocate cap [] with
    | none => none
    | some (h, a) =>
      some ⟨h, s.lists ++ [⟨wpos (-((n / 2 : Nat) : Int)), wpos (wpos (-((n / 2 : Nat) : Int)) + n), 0, some a⟩]⟩
  | .addStart i n => s.on i fun h t => waddStart h t n
  | .addEnd i n => s.on i fun h t => waddEnd h t n
  | .removeStart i n => s.on i fun h t => wremoveStart h t n
  | .removeEnd i n => s.on i fun h t => wremoveEnd h t n
  | .insert i id v start size => s.on i fun h t => winsert h t id v start size
  | .addListStart i j =>
    match s.lists[j]? with
    | none => none
    | some r => s.on i fun h t => waddListStart h t r
  | .addListEnd i j =>
    match s.lists[j]? with
    | none => none
    | some r => s.on i fun h t => waddListEnd h t r
  | o => s.step o

/-- A history of operations (lines as in `State.wstep`). -/
def State.wrun (s : State V) : List (Op V) → Option (State V)
  | [] => some s
  | o :: os =>
    match s.wstep o with
    | none => none
    | some s1 => s1.wrun os

/-- `Get` (`basic-tag-list.h:632-653`): `none` is a failed assertion, `some none` is `TagNotFound`. -/
def State.wget (s : State V) (i id off : Nat) : Option (Option V) :=
  match s.lists[i]? with
  | none => none
  | some t => if off < wsize (t.be - t.bs) then some (lookup (entries s.heap t) id (wpos (t.bs + off))) else none

/-! What the histories do to the number of bytes that each list has ever tracked (not a definition of the code). -/

/-- The number of bytes that each list has tracked since it was made, with those of the lists that were added to it.  Bytes that are
removed still count. -/
def track (W : List Nat) : Op V → List Nat
  | .new => W ++ [0]
  | .newCap _ n => W ++ [n]
  | .copy j => W ++ [W.getD j 0]
  | .assign i j => W.set i (W.getD j 0)
  | .swap i j => (W.set i (W.getD j 0)).set j (W.getD i 0)
  | .destroy i => W.set i 0
  | .addStart i n | .addEnd i n => W.set i (W.getD i 0 + n)
  | .removeStart _ _ | .removeEnd _ _ | .insert _ _ _ _ _ => W
  | .addListStart i j | .addListEnd i j => W.set i (W.getD i 0 + W.getD j 0)

/-- No list tracks more than `m` bytes at any time. -/
def Fits (m : Nat) : List Nat → List (Op V) → Prop
  | _, [] => True
  | W, o :: os => (∀ w ∈ track W o, w ≤ m) ∧ Fits m (track W o) os

end Verif.Tag
