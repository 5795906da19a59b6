set_option linter.unusedSimpArgs false
set_option linter.unusedVariables false
/-!
Model of who keeps log values and the bodies of log records alive (/repo/log/log-record.h 41-322, /repo/log/log-value.h 36-140,
/repo/log/make-log-value.h 39-185), for property C150.

A body of a record and a value are reference-counted objects (`boost::intrusive_ref_counter`), called cells here.  A body refers
to the values it maps names to; a value refers to what was copied into it when it was made (a `ValueBasedLogValue<LogRecord>`, a
`ValueBasedLogValue<LogValue>`, a functor that captured records or values).  `LogRecord` and `LogValue` variables of the client
refer to cells.  A text got from a record is a pointer into its value; reading it is defined while the value exists.

Simplifications: a parameter that is passed by value is a copy that the client makes before the call (`copyVal`) or its own
variable (`std::move`), which is empty afterwards; two values of the same cell number never exist; counters do not overflow.
Functors do not run here (see `Functor.lean`).  A variable that was destroyed or moved from is `none`; destroying it is nothing.
-/
namespace Verif.Log.Life

/-! ### Model -/

/-- `LogRecordImpl` (log-record.h 41-92; `items` are its named values) or a log value (make-log-value.h 39-133; `text` is what
`CstrLogValue` stores, `items` what was copied into it, without names).  `rc` is the count of `intrusive_ref_counter`. -/
structure Cell where
  rc : Nat
  body : Bool
  text : String
  items : List (String × Nat)
deriving DecidableEq, Repr

/-- The objects, dead ones as `none`; the records (`impl_`, log-record.h 258) and the values (`p_`, log-value.h 101) of a client. -/
structure State where
  cells : List (Option Cell)
  recs : List (Option Nat)
  vals : List (Option Nat)
deriving DecidableEq, Repr

/-- A client before it makes anything; no code. -/
def State.init : State := ⟨[], [], []⟩

/-- What a cell refers to.  (The values in `items_`, log-record.h 90; the members of make-log-value.h 68, 132.) -/
def refsOf : Option Cell → List Nat
  | none => []
  | some x => x.items.map Prod.snd

/-- References from existing cells, counted.  (For termination of the model; no code.) -/
def total (cells : List (Option Cell)) : Nat := (cells.map fun x => (refsOf x).length).sum

/-- `intrusive_ptr_add_ref`; `none` if the cell does not exist.  (Copies of `p_` and `impl_`, log-record.h 274-291.) -/
def addRef (cells : List (Option Cell)) (c : Nat) : Option (List (Option Cell)) :=
  match cells[c]? with
  | some (some x) => some (cells.set c (some { x with rc := x.rc + 1 }))
  | _ => none

/-- `intrusive_ptr_add_ref` for each.  (The copy of the map at log-record.h 269-272; captures at make-log-value.h 45-48, 119-122.) -/
def addRefs : List Nat → List (Option Cell) → Option (List (Option Cell))
  | [], cells => some cells
  | c :: w, cells =>
    match addRef cells c with
    | none => none
    | some cells' => addRefs w cells'

/-- `intrusive_ptr_release` for each reference in turn; the last one deletes the cell, and then what it refers to is released.
`none` if a cell does not exist.  (Destructors of `LogRecord`, `LogValue`, `LogRecordImpl` and the values, which are implicit or
empty: make-log-value.h 60, 92, 124.)  `n` bounds the work. -/
def drain : Nat → List Nat → List (Option Cell) → Option (List (Option Cell))
  | _, [], cells => some cells
  | 0, _ :: _, _ => none
  | n + 1, c :: w, cells =>
    match cells[c]? with
    | some (some x) =>
      if x.rc ≤ 1 then drain n (refsOf (some x) ++ w) (cells.set c none)
      else drain n w (cells.set c (some { x with rc := x.rc - 1 }))
    | _ => none

/-- One reference goes away.  (See `drain`; log-record.h 258, log-value.h 101.) -/
def release (c : Option Nat) (cells : List (Option Cell)) : Option (List (Option Cell)) :=
  match c with
  | none => some cells
  | some c => drain (1 + total cells) [c] cells

/-- `items_.find(name)`; log-record.h 98, 104, 119. -/
def lookup (items : List (String × Nat)) (name : String) : Option Nat :=
  (items.find? fun e => e.1 == name).map Prod.snd

/-- `it->second = value`; log-record.h 105-109. -/
def replace (items : List (String × Nat)) (name : String) (v : Nat) : List (String × Nat) :=
  items.map fun e => if e.1 = name then (e.1, v) else e

/-- What a client does.  (The lines are cited at each case.) -/
inductive Op where
  /-- `LogRecord()`; log-record.h 264-267 -/
  | newRec
  /-- `LogRecord(record)`, and `LogRecord(std::move(record))`, as the parameter is `const LogRecord&&`; log-record.h 274-277, 288-291 -/
  | copyRec (i : Nat)
  /-- `record = other`, with or without `std::move`; log-record.h 279-286, 293-300 -/
  | assignRec (i j : Nat)
  /-- `record.Copy()`; log-record.h 228-231, 269-272 -/
  | deep (i : Nat)
  /-- End of a `LogRecord`. -/
  | dropRec (i : Nat)
  /-- `MakeLogValue<T>(...)` with a text, and copies of records and values in it; make-log-value.h 39-185, log-value.h 107-115 -/
  | makeVal (text : String) (rs vs : List Nat)
  /-- `LogValue(value)`; implicit, log-value.h 85-102 -/
  | copyVal (i : Nat)
  /-- `LogValue(std::move(value))`; implicit, log-value.h 85-102 -/
  | moveVal (i : Nat)
  /-- `value = other`; implicit, log-value.h 85-102 -/
  | assignVal (i j : Nat)
  /-- End of a `LogValue`. -/
  | dropVal (i : Nat)
  /-- `record.Add(name, value)`, using up the value; log-record.h 96-100, 302-305 -/
  | add (i : Nat) (name : String) (j : Nat)
  /-- `record.Update(name, value)`, using up the value; log-record.h 102-110, 307-310 -/
  | update (i : Nat) (name : String) (j : Nat)

/-- A new record variable.  (A constructor, log-record.h 264-291.) -/
def State.pushRec (s : State) (cells : List (Option Cell)) (c : Nat) : State := ⟨cells, s.recs ++ [some c], s.vals⟩

/-- A new value variable.  (A constructor, log-value.h 107-115.) -/
def State.pushVal (s : State) (cells : List (Option Cell)) (c : Nat) : State := ⟨cells, s.recs, s.vals ++ [some c]⟩

/-- The cells that variables refer to; `none` if one is empty.  (What a copy needs, log-record.h 274-277.) -/
def handles (vars : List (Option Nat)) : List Nat → Option (List Nat)
  | [] => some []
  | i :: l =>
    match vars[i]?, handles vars l with
    | some (some c), some t => some (c :: t)
    | _, _ => none

/-- One call; `none` if an empty variable or an object that does not exist is used.  (The lines are cited at `Op`.) -/
def State.step (s : State) : Op → Option State
  | .newRec => some (s.pushRec (s.cells ++ [some ⟨1, true, "", []⟩]) s.cells.length)
  | .copyRec i =>
    match s.recs[i]? with
    | some (some c) => (addRef s.cells c).map fun h => s.pushRec h c
    | _ => none
  | .assignRec i j =>
    match s.recs[i]?, s.recs[j]? with
    | some o, some (some c) =>
      match addRef s.cells c with
      | none => none
      | some h => (release o h).map fun h => ⟨h, s.recs.set i (some c), s.vals⟩
    | _, _ => none
  | .deep i =>
    match s.recs[i]? with
    | some (some c) =>
      match s.cells[c]? with
      | some (some x) =>
        (addRefs (refsOf (some x)) s.cells).map fun h => s.pushRec (h ++ [some ⟨1, true, "", x.items⟩]) s.cells.length
      | _ => none
    | _ => none
  | .dropRec i =>
    match s.recs[i]? with
    | some o => (release o s.cells).map fun h => ⟨h, s.recs.set i none, s.vals⟩
    | none => none
  | .makeVal text rs vs =>
    match handles s.recs rs, handles s.vals vs with
    | some a, some b =>
      (addRefs (a ++ b) s.cells).map fun h =>
        s.pushVal (h ++ [some ⟨1, false, text, (a ++ b).map fun c => ("", c)⟩]) s.cells.length
    | _, _ => none
  | .copyVal i =>
    match s.vals[i]? with
    | some (some c) => (addRef s.cells c).map fun h => s.pushVal h c
    | _ => none
  | .moveVal i =>
    match s.vals[i]? with
    | some (some c) => some ⟨s.cells, s.recs, s.vals.set i none ++ [some c]⟩
    | _ => none
  | .assignVal i j =>
    match s.vals[i]?, s.vals[j]? with
    | some o, some (some c) =>
      match addRef s.cells c with
      | none => none
      | some h => (release o h).map fun h => ⟨h, s.recs, s.vals.set i (some c)⟩
    | _, _ => none
  | .dropVal i =>
    match s.vals[i]? with
    | some o => (release o s.cells).map fun h => ⟨h, s.recs, s.vals.set i none⟩
    | none => none
  | .add i name j =>
    match s.recs[i]?, s.vals[j]? with
    | some (some c), some (some v) =>
      match s.cells[c]? with
      | some (some x) =>
        match lookup x.items name with
        | none => some ⟨s.cells.set c (some { x with items := x.items ++ [(name, v)] }), s.recs, s.vals.set j none⟩
        | some _ => (release (some v) s.cells).map fun h => ⟨h, s.recs, s.vals.set j none⟩
      | _ => none
    | _, _ => none
  | .update i name j =>
    match s.recs[i]?, s.vals[j]? with
    | some (some c), some (some v) =>
      match s.cells[c]? with
      | some (some x) =>
        match lookup x.items name with
        | none => some ⟨s.cells.set c (some { x with items := x.items ++ [(name, v)] }), s.recs, s.vals.set j none⟩
        | some o =>
          (release (some o) (s.cells.set c (some { x with items := replace x.items name v }))).map fun h =>
            ⟨h, s.recs, s.vals.set j none⟩
      | _ => none
    | _, _ => none

/-- A history.  (A client; no code.) -/
def State.run (s : State) : List Op → Option State
  | [] => some s
  | o :: l =>
    match s.step o with
    | none => none
    | some s' => s'.run l

/-- `record.Get<const char*>(name)`: the value whose text the pointer points into; log-record.h 117-134, 317-322,
make-log-value.h 94-97. -/
def State.get (s : State) (i : Nat) (name : String) : Option Nat :=
  match s.recs[i]? with
  | some (some c) =>
    match s.cells[c]? with
    | some (some x) => lookup x.items name
    | _ => none
  | _ => none

/-- Reading the text that a pointer points to; `none` if the value does not exist any more.  (make-log-value.h 94-100.) -/
def State.deref (s : State) (v : Nat) : Option String :=
  match s.cells[v]? with
  | some (some x) => some x.text
  | _ => none

/-! ### What the properties say -/

/-- A variable holds the object, directly or inside of what it holds.  (Specification; no code.) -/
inductive Held (s : State) : Nat → Prop
  | ofRec {i c : Nat} : s.recs[i]? = some (some c) → Held s c
  | ofVal {i c : Nat} : s.vals[i]? = some (some c) → Held s c
  | inside {c d : Nat} {x : Cell} : Held s c → s.cells[c]? = some (some x) → d ∈ x.items.map Prod.snd → Held s d

/-- The object exists.  (Specification; no code.) -/
def Alive (s : State) (c : Nat) : Prop := ∃ x, s.cells[c]? = some (some x)

/-- An existing object refers to another.  (Specification; no code.) -/
def Contains (s : State) (c d : Nat) : Prop := ∃ x, s.cells[c]? = some (some x) ∧ d ∈ x.items.map Prod.snd

/-- An operation uses no empty variable.  (Specification; no code.) -/
def Op.ok (s : State) : Op → Prop
  | .newRec => True
  | .copyRec i | .deep i => ∃ c, s.recs[i]? = some (some c)
  | .assignRec i j => i < s.recs.length ∧ ∃ c, s.recs[j]? = some (some c)
  | .dropRec i => i < s.recs.length
  | .makeVal _ rs vs => (∀ i ∈ rs, ∃ c, s.recs[i]? = some (some c)) ∧ ∀ i ∈ vs, ∃ c, s.vals[i]? = some (some c)
  | .copyVal i | .moveVal i => ∃ c, s.vals[i]? = some (some c)
  | .assignVal i j => i < s.vals.length ∧ ∃ c, s.vals[j]? = some (some c)
  | .dropVal i => i < s.vals.length
  | .add i _ j | .update i _ j => (∃ c, s.recs[i]? = some (some c)) ∧ ∃ c, s.vals[j]? = some (some c)

/-- The operation puts no record into a value.  (Specification; no code.) -/
def Op.plain : Op → Bool
  | .makeVal _ rs _ => rs.isEmpty
  | _ => true

/-- What a client can get to.  (Specification; no code.) -/
def Reach (s : State) : Prop := ∃ l, State.init.run l = some s

end Verif.Log.Life
