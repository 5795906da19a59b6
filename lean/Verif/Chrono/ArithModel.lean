import Verif.Chrono.Model

/-! Model of the remaining arithmetic of `Duration` and the virtual time point: compound assignment,
increments, the makers and the mirrored addition. -/
namespace Verif.Chrono

/-- `operator*=`; /repo/chrono/duration.h 664-668. -/
def Dur.mulAssign (a : Dur) (n : Int) : Option Dur := (ck (a.count * n)).map (⟨a.res, ·⟩)

/-- `operator/=`; /repo/chrono/duration.h 670-674. -/
def Dur.divAssign (a : Dur) (n : Int) : Option Dur :=
  if n = 0 then none else (ck (a.count.tdiv n)).map (⟨a.res, ·⟩)

/-- `operator%=` with another resolution; /repo/chrono/duration.h 682-687.  A zero divisor and
`INT64_MIN % -1` are undefined. -/
def Dur.modAssign (a b : Dur) : Option Dur :=
  match convertCount b.res a.res b.count with
  | some y =>
    if y = 0 then none
    else if I64 (a.count.tdiv y) then some ⟨a.res, a.count.tmod y⟩ else none
  | none => none

/-- `operator++`; /repo/chrono/duration.h 616-625: the object afterwards. -/
def Dur.inc (a : Dur) : Option Dur := (ck (a.count + 1)).map (⟨a.res, ·⟩)
/-- `operator--`; /repo/chrono/duration.h 627-636: the object afterwards. -/
def Dur.dec (a : Dur) : Option Dur := (ck (a.count - 1)).map (⟨a.res, ·⟩)

/-- The resolution `ratio<1>`.  (/repo/chrono/duration.h 432.) -/
def oneSecond : Ratio := ⟨1, 1⟩

/-- `Seconds(n)`; /repo/chrono/duration.h 1121-1125. -/
def mkSeconds (n : Int) : Dur := ⟨oneSecond, n⟩
/-- `Minutes(n)`; /repo/chrono/duration.h 1127-1131. -/
def mkMinutes (n : Int) : Option Dur := (ck (n * 60)).map (⟨oneSecond, ·⟩)
/-- `Hours(n)`; /repo/chrono/duration.h 1133-1137. -/
def mkHours (n : Int) : Option Dur := (ck (n * 3600)).map (⟨oneSecond, ·⟩)
/-- `Days(n)`; /repo/chrono/duration.h 1139-1143. -/
def mkDays (n : Int) : Option Dur := (ck (n * 86400)).map (⟨oneSecond, ·⟩)

/-- `operator+(Duration, TimePoint)`; /repo/chrono/virtual-time-point.h 245-249. -/
def TP.addLeft (d : Dur) (t : TP) : Option TP := do
  let d' ← d.convert tenthNano
  let r ← d'.add t.getDuration
  return ⟨r.count⟩

/-- `TimePoint::operator+=`; /repo/chrono/virtual-time-point.h 104-108.  The argument is converted to
the clock's duration, then added with the `operator+=` of equal resolutions
(/repo/chrono/duration.h 638-642). -/
def TP.addAssign (t : TP) (d : Dur) : Option TP := do
  let d' ← d.convert tenthNano
  let c ← ck (t.dt + d'.count)
  return ⟨c⟩

/-- `TimePoint::operator-=`; /repo/chrono/virtual-time-point.h 110-114. -/
def TP.subAssign (t : TP) (d : Dur) : Option TP := do
  let d' ← d.convert tenthNano
  let c ← ck (t.dt - d'.count)
  return ⟨c⟩

end Verif.Chrono
