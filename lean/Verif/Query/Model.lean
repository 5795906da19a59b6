import Verif.Base.Bytes
/-
Model of interface queries (`component/object.h`) and of the class registry (`component/class-registry.h`, `component/uid.h`).

Objects are numbered.  What a number stands for never changes: interface maps are code (object.h 1176-1295), and so are the
expressions for the navigators in them; the controller of an object is set by its constructor (object.h 316-319, 351-356).
-/
namespace Verif.Query

/-- The uid of an interface, a number for a text (uid.h 46-83). -/
abbrev Iid := Nat

/-- uid of `IObject`.  (object.h 1176-1195.) -/
def iObject : Iid := 0

/-- Entries of an interface map; object.h 1206-1215 and 1229-1241 (`own`), 1255-1261 (`agg`, with the navigator). -/
inductive Entry where
  | own (iid : Iid)
  | agg (iid : Iid) (navi : Nat)
deriving DecidableEq, Repr

/-- The classes that make an implementation class concrete.  (The lines are cited at each case.) -/
inductive Node where
  /-- `Object`, `StaticObject`; object.h 428-487, 516-568. -/
  | object (map : List Entry)
  /-- `AggObject`, `MemberAggObject` with their aggregated object; object.h 766-846, 882-954. -/
  | navi (inner : Nat)
  /-- `Aggregated`; object.h 581-652. -/
  | aggregated (ctrl : Nat) (map : List Entry)
  /-- `MutualObject`; object.h 985-1057. -/
  | mutualOf (ctrl : Nat) (map : List Entry)
deriving DecidableEq, Repr

/-- All objects by number; object.h 305-356. -/
abbrev World := Nat → Option Node

/-- The object that implements the interface, or `NoInterface` (`none`); and the objects on which `AddRef` was called.
(object.h 1098-1141, 1272-1295.) -/
abbrev Result := Option Nat × List Nat

/-- Visit the entries in order, the first with the same uid decides; object.h 1098-1141, 1272-1295.  `q` is `QueryInterface` of other
objects. -/
def scan (q : Nat → Iid → Option Result) (n : Nat) (iid : Iid) : List Entry → Option Result
  | [] => some (none, [])
  | .own i :: t => if i = iid then some (some n, [n]) else scan q n iid t
  | .agg i v :: t => if i = iid then q v iid else scan q n iid t

/-- `InternalQueryInterface`; the map begins with `IObject`, object.h 1176-1195. -/
def internal (q : Nat → Iid → Option Result) (n : Nat) (map : List Entry) (iid : Iid) : Option Result :=
  scan q n iid (.own iObject :: map)

/-- `QueryInterface`: object.h 474-477 and 560-563 (`object`), 820-833 and 929-941 (`navi`), 346-349 and 637-641 (`aggregated`),
1044-1047 (`mutualOf`).  The first argument bounds the depth of calls; `none` if it is not enough, or a pointer is wrong. -/
def query : Nat → World → Nat → Iid → Option Result
  | 0, _, _, _ => none
  | f + 1, W, n, iid =>
    match W n with
    | none => none
    | some (.object map) => internal (query f W) n map iid
    | some (.navi inner) =>
      if iid = iObject then some (some n, [n])
      else match W inner with
        | some (.aggregated _ map) => internal (query f W) inner map iid
        | _ => none
    | some (.aggregated ctrl _) => query f W ctrl iid
    | some (.mutualOf _ map) => internal (query f W) n map iid

/-- A query of `n` for `iid` ends with `r`.  (Specification; no code.) -/
def Answers (W : World) (n : Nat) (iid : Iid) (r : Result) : Prop := ∃ f, query f W n iid = some r

/-- Every aggregated entry names a navigator that was created with the object as the controller.
(Specification of correct interface maps, object.h 1255-1261.) -/
def Wired (W : World) : Prop :=
  ∀ n map, (W n = some (.object map) ∨ (∃ c, W n = some (.aggregated c map)) ∨ (∃ c, W n = some (.mutualOf c map))) →
    ∀ i v, Entry.agg i v ∈ map → ∃ k m, W v = some (.navi k) ∧ W k = some (.aggregated n m)

/-- `m` is `o`, or an aggregated object whose controller, or controller's controller, ... is `o`.  (Specification; no code.) -/
inductive Belongs (W : World) (o : Nat) : Nat → Prop
  | refl : Belongs W o o
  | step {m k : Nat} {map : List Entry} : W m = some (.aggregated k map) → Belongs W o k → Belongs W o m

/-! ### Class registry -/

/-- A C string in memory: the bytes from the pointer on; `none` if there is no end.  uid.h 50-52. -/
def text : List Byte → Option (List Byte)
  | [] => none
  | b :: t => if b = 0 then some [] else (text t).map (b :: ·)

/-- `strcmp(...)` is zero; uid.h 80-83.  `none` when it reads beyond the memory. -/
def sameText : List Byte → List Byte → Option Bool
  | a :: s, b :: t => if a = b then (if a = 0 then some true else sameText s t) else some false
  | _, _ => none

/-- `map_`; class-registry.h 345.  The hash of a uid (uid.h 117-121) is a function of its text, so the map finds the entry whose
uid is equal. -/
abbrev Registry (F : Type) := List (List Byte × F)

/-- A result, or the exceptions of class-registry.h 300-337. -/
inductive Outcome (α : Type) where
  | ok (a : α)
  | invalidPointer
  | alreadyRegistered
  | notRegistered
deriving DecidableEq, Repr

/-- `map_.find(cid)`; class-registry.h 300-337. -/
def find {F : Type} (r : Registry F) (cid : List Byte) : Option F :=
  (r.find? fun e => sameText e.1 cid = some true).map (·.2)

/-- class-registry.h 300-313. -/
def register {F : Type} (r : Registry F) (factory : Option F) (cid : List Byte) : Outcome Unit × Registry F :=
  match factory with
  | none => (.invalidPointer, r)
  | some f => match find r cid with
    | some _ => (.alreadyRegistered, r)
    | none => (.ok (), (cid, f) :: r)

/-- class-registry.h 315-318. -/
def unregister {F : Type} (r : Registry F) (cid : List Byte) : Registry F :=
  r.filter fun e => sameText e.1 cid ≠ some true

/-- class-registry.h 325-337. -/
def getClassFactory {F : Type} (r : Registry F) (cid : List Byte) : Outcome F :=
  match find r cid with
  | some f => .ok f
  | none => .notRegistered

/-- The calls on a class registry; class-registry.h 300-323. -/
inductive ROp (F : Type) where
  | register (factory : Option F) (cid : List Byte)
  | unregister (cid : List Byte)
  | unregisterAll
deriving DecidableEq, Repr

/-- class-registry.h 300-323. -/
def rstep {F : Type} (r : Registry F) : ROp F → Registry F
  | .register f cid => (register r f cid).2
  | .unregister cid => unregister r cid
  | .unregisterAll => []

/-- A history of calls.  (A client; no code.) -/
def rrun {F : Type} (r : Registry F) (os : List (ROp F)) : Registry F := os.foldl rstep r

end Verif.Query
