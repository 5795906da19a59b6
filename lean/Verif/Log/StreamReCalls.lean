import Verif.Log.ReCalls
import Verif.Log.StreamRe

/-!
The same for stream sinks: `C170_effect` says that the calls of functors, filters and formatters take effect, and `C170_calls` says what the
effect is.
-/
namespace Verif.Log.Ss
open Verif.Log.Calls

/-- The pending values after calls, from those before.  (The specification; log-stream-sink.h 145-158.) -/
def valuesAfter (f : Nat → Option Nat) : List Act → Nat → Option Nat
  | [] => f
  | .add n v :: as => valuesAfter (if (f n).isSome then f else put f n (some v)) as
  | .update n v :: as => valuesAfter (put f n (some v)) as
  | .remove n :: as => valuesAfter (put f n none) as
  | _ :: as => valuesAfter f as

/-- The filter set last.  (The specification; log-stream-sink.h 160-163.) -/
def filterAfter (f : Option Nat) : List Act → Option Nat
  | [] => f
  | .setFilter g :: as => filterAfter g as
  | _ :: as => filterAfter f as

/-- The formatter set last; a null pointer does not count.  (The specification; log-stream-sink.h 111-118.) -/
def formatterAfter (f : Option Nat) : List Act → Option Nat
  | [] => f
  | .use (some g) :: as => formatterAfter (some g) as
  | _ :: as => formatterAfter f as

/-- The streams added, in order; those that cannot be used do not count.  (The specification; log-stream-sink.h 165-174.) -/
def streamsOf (as : List Act) : List Nat := as.filterMap fun a => match a with | .addStream k => k | _ => none

theorem calls_from (grow : Nat → Nat) (as : List Act) (l : Sk) (f : Nat → Option Nat) (h : Is l.pend f) :
    Is (l.acts grow as).pend (valuesAfter f as) ∧ (l.acts grow as).filter = filterAfter l.filter as ∧
    (l.acts grow as).fmt = formatterAfter l.fmt as ∧ (l.acts grow as).strs = l.strs ++ streamsOf as := by
  induction as generalizing l f with
  | nil => exact ⟨h, rfl, rfl, by simp [Sk.acts, streamsOf]⟩
  | cons a as ih =>
    have step : l.acts grow (a :: as) = (l.act grow a).acts grow as := rfl
    rw [step]
    cases a with
    | add n v =>
      simp only [Sk.act, valuesAfter, filterAfter, formatterAfter, h.has]
      cases hn : f n with
      | none => simpa [streamsOf] using ih _ _ (h.append hn v)
      | some y => simpa [streamsOf] using ih _ _ h
    | update n v =>
      simp only [Sk.act, valuesAfter, filterAfter, formatterAfter, h.has]
      cases hn : f n with
      | none => simpa [streamsOf] using ih _ _ (h.append hn v)
      | some y => simpa [streamsOf] using ih _ _ (h.replace (by rw [hn]; rfl) v)
    | remove n => simpa [streamsOf, Sk.act, valuesAfter, filterAfter, formatterAfter] using ih (l.act grow (.remove n)) _ (h.erase n)
    | setFilter g => simpa [streamsOf, Sk.act, valuesAfter, filterAfter, formatterAfter] using ih (l.act grow (.setFilter g)) _ h
    | use g =>
      cases g with
      | none => simpa [streamsOf, Sk.act, valuesAfter, filterAfter, formatterAfter] using ih (l.act grow (.use none)) _ h
      | some g => simpa [streamsOf, Sk.act, valuesAfter, filterAfter, formatterAfter] using ih (l.act grow (.use (some g))) _ h
    | addStream k =>
      cases k with
      | none => simpa [streamsOf, Sk.act, valuesAfter, filterAfter, formatterAfter] using ih (l.act grow (.addStream none)) _ h
      | some k =>
        simp only [Sk.act, valuesAfter, filterAfter, formatterAfter]
        split
        · simpa [streamsOf] using ih { l with strs := l.strs ++ [k] } _ h
        · simpa [streamsOf] using
            ih { l with strs := l.strs ++ [k], room := max (l.strs.length + 1) (grow l.room), moves := l.moves + 1 } _ h

/-- **C170, the effect of calls.**  After any history of calls a stream sink has the pending values that the history says, each name once,
the filter and the formatter set last, and the streams in the order in which they were added. -/
theorem C170_calls (grow : Nat → Nat) (as : List Act) :
    (((Sk.init.acts grow as).pend.map (·.1)).Nodup ∧
      ∀ m v, (m, v) ∈ (Sk.init.acts grow as).pend ↔ valuesAfter (fun _ => none) as m = some v) ∧
    (Sk.init.acts grow as).filter = filterAfter none as ∧ (Sk.init.acts grow as).fmt = formatterAfter none as ∧
    (Sk.init.acts grow as).strs = streamsOf as :=
  calls_from grow as Sk.init (fun _ => none) ⟨by simp [Sk.init], by simp [Sk.init]⟩

/-- Values, a formatter that a null pointer does not replace, and two streams of three. -/
example : let l := Sk.init.acts (2 * ·) [.add 1 5, .add 1 6, .update 1 7, .use (some 3), .use none, .addStream (some 10), .addStream none, .addStream (some 11)]
    l.pend = [(1, 7)] ∧ l.fmt = some 3 ∧ l.strs = [10, 11] := by decide +kernel

end Verif.Log.Ss
