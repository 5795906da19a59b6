import Verif.Stat.Model
import Mathlib.Logic.Function.Basic
/-
Model of containers of probes and of statistics for which there is not enough memory: `statistics/probe/probe-container.h` 179-238 and
`statistics/statistics-container.h` 192-257.

`emplace(name, nullptr)` comes first and the object is made afterwards, so an item may be a null pointer.  Memory may be missing for the
item, for the object, or at any turn of the loop of `MergeFrom`.

Simplifications: an object is a number, given out in the order of creation; what probes and statistics do is C70 and C152.  The list of
names that `GetEnumerator` makes is there or `MergeFrom` ends before its first turn.
-/
namespace Verif.Stat.Short

/-- `items_` of each container (probe-container.h 81-82, statistics-container.h 94-95), `none` being a null pointer; the number of
objects made. -/
structure St (N : Type) where
  conts : Nat → Items N (Option Nat)
  made : Nat

/-- What memory there is for `Add`: enough, none for the item, or none for the object.  (The environment; no code.) -/
inductive Mem
  | ok
  | noItem
  | noObject
deriving DecidableEq

/-- The calls: `Add` (probe-container.h 202-215, statistics-container.h 218-233), `erase` (154-157; 167-170), `MergeFrom` (222-238; 240-257)
with the names that the enumerator gives and the number of names for which there is memory (`none`: enough), and `Connect` or `Disconnect`
by name (191-200; 204-216). -/
inductive Op (N : Type)
  | add (c : Nat) (n : N) (m : Mem)
  | erase (c : Nat) (n : N)
  | merge (c : Nat) (f : N → N) (d : Nat) (names : List N) (m : Option Nat)
  | use (c : Nat) (n : N)

/-- What a call returns.  `made p`, `used p`: the object; `refused`: `ProbeNotRegistered` and the like; `noMemory`: `std::bad_alloc`;
`fault`: a null pointer is used.  (probe-container.h 179-215, statistics-container.h 192-233.) -/
inductive Res
  | ok
  | made (p : Nat)
  | used (p : Nat)
  | refused
  | noMemory
  | fault
deriving DecidableEq

variable {N : Type} [DecidableEq N]

/-- Empty containers: probe-container.h 165-167, statistics-container.h 176-179. -/
def St.init : St N := ⟨fun _ => [], 0⟩

/-- A turn of the loop of `MergeFrom`: `emplace(pname, nullptr)` and, if the name is new, the pointer;
probe-container.h 231-236, statistics-container.h 250-255. -/
def put (c : Nat) (n : N) (v : Option Nat) (t : Nat → Items N (Option Nat)) : Nat → Items N (Option Nat) :=
  match look (t c) n with
  | some _ => t
  | none => Function.update t c (t c ++ [(n, v)])

/-- The loop of `MergeFrom`, which may end for lack of memory at any turn; probe-container.h 225-237, statistics-container.h 244-256.
The merged container may be the container itself. -/
def loop (c : Nat) (f : N → N) (d : Nat) : List N → Option Nat → (Nat → Items N (Option Nat)) → Res × (Nat → Items N (Option Nat))
  | [], _, t => (.ok, t)
  | n :: ns, m, t =>
    if m = some 0 then (.noMemory, t)
    else
      match get (t d) n with
      | none => (.refused, t)
      | some v => loop c f d ns (m.map (· - 1)) (put c (f n) v t)

/-- One call.  (probe-container.h 154-157, 191-238; statistics-container.h 167-170, 204-257.) -/
def St.step (s : St N) : Op N → Res × St N
  | .add c n m =>
    if m = .noItem then (.noMemory, s)
    else
      match look (s.conts c) n with
      | some _ => (.refused, s)
      | none =>
        if m = .noObject then (.noMemory, ⟨Function.update s.conts c (s.conts c ++ [(n, none)]), s.made⟩)
        else (.made s.made, ⟨Function.update s.conts c (s.conts c ++ [(n, some s.made)]), s.made + 1⟩)
  | .erase c n => (.ok, ⟨Function.update s.conts c (Verif.Stat.erase (s.conts c) n), s.made⟩)
  | .merge c f d names m => let r := loop c f d names m s.conts; (r.1, ⟨r.2, s.made⟩)
  | .use c n =>
    match get (s.conts c) n with
    | none => (.refused, s)
    | some none => (.fault, s)
    | some (some p) => (.used p, s)

end Verif.Stat.Short
