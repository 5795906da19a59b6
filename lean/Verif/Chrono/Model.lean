/-!
Model of `nsfx::chrono::Duration` (/repo/chrono/duration.h) and of the virtual time point
(/repo/chrono/virtual-time-point.h).

A `count_t` is an `int64_t` (/repo/chrono/config.h 102): an `Int` within the 64-bit range.  Every
signed operation whose exact result leaves that range (undefined behaviour), and every failed
`BOOST_ASSERT`, is the outcome `none`.  The `double` constructors and `ToDouble` are not modelled.
-/
namespace Verif.Chrono

/-- `INT64_MAX`.  (The range of `count_t`, /repo/chrono/config.h 102.) -/
def i64Max : Int := 9223372036854775807
/-- `INT64_MIN`.  (The range of `count_t`, /repo/chrono/config.h 102.) -/
def i64Min : Int := -9223372036854775808

/-- The values of a `count_t`; /repo/chrono/config.h 102. -/
def I64 (x : Int) : Prop := i64Min ≤ x ∧ x ≤ i64Max

instance (x : Int) : Decidable (I64 x) := by unfold I64; infer_instance

/-- The result of a signed 64-bit operation with exact result `x`: overflow is undefined.
(Every sum, difference and product of `count_t`s in /repo/chrono/duration.h 150-395, 600-982.) -/
def ck (x : Int) : Option Int := if I64 x then some x else none

/-! ### Compile-time ratios -/

/-- `std::ratio<num, den>` with positive terms.  (The parameter `Res` of /repo/chrono/duration.h 414-421.) -/
structure Ratio where
  num : Nat
  den : Nat
deriving Repr, DecidableEq

/-- `std::ratio<num, den>::type`, the reduced form.  (/repo/chrono/duration.h 54, 103, 203, 216, 432.) -/
def Ratio.mk' (n d : Nat) : Ratio := ⟨n / Nat.gcd n d, d / Nat.gcd n d⟩

/-- `ratio_multiply`.  (/repo/chrono/duration.h 54, 103.) -/
def Ratio.mul (a b : Ratio) : Ratio := .mk' (a.num * b.num) (a.den * b.den)

/-- `ratio_divide`.  (/repo/chrono/duration.h 203, 216, 291, 324, 357, 432.) -/
def Ratio.div (a b : Ratio) : Ratio := .mk' (a.num * b.den) (a.den * b.num)

/-- `ratio_less`.  (/repo/chrono/duration.h 226, 245.) -/
def Ratio.lt (a b : Ratio) : Bool := a.num * b.den < b.num * a.den

/-- `ratio_equal` (of reduced ratios).  (/repo/chrono/duration.h 242.) -/
def Ratio.eq (a b : Ratio) : Bool := a.num = b.num && a.den = b.den

/-- A duration type `Duration<Res>` together with a value: the resolution and `count_`;
/repo/chrono/duration.h 414-450, 866. -/
structure Dur where
  res : Ratio
  count : Int
deriving Repr, DecidableEq

/-! ### Conversion -/

/-- `ConvertCount<Rs, Rd>(count)`; /repo/chrono/duration.h 198-229. -/
def convertCount (rs rd : Ratio) (c : Int) : Option Int :=
  if rd.lt rs then
    -- PrecisionUpTag, 198-210: the assertion, then the product
    let rx : Int := (rs.div rd).num
    if c ≤ i64Max.tdiv rx ∧ i64Min.tdiv rx ≤ c then ck (c * rx) else none
  else
    -- PrecisionDownTag, 212-220
    let rx : Int := (rd.div rs).num
    ck (c.tdiv rx)

/-- The converting constructor and assignment; /repo/chrono/duration.h 536-554. -/
def Dur.convert (d : Dur) (r : Ratio) : Option Dur := (convertCount d.res r d.count).map (⟨r, ·⟩)

/-! ### Comparison -/

/-- `Equal<Res1, Res2>(lhs, rhs, LeftIsFinerTag)`; /repo/chrono/duration.h 287-304. -/
def equalLF (r1 r2 : Ratio) (l r : Int) : Option Bool :=
  let rx : Int := (r2.div r1).num
  if r > i64Max.tdiv rx then some false
  else if r < i64Min.tdiv rx then some false
  else (ck (r * rx)).map (fun p => decide (l = p))

/-- `Less<Res1, Res2>(lhs, rhs, LeftIsFinerTag)`; /repo/chrono/duration.h 320-337. -/
def lessLF (r1 r2 : Ratio) (l r : Int) : Option Bool :=
  let rx : Int := (r2.div r1).num
  if r > i64Max.tdiv rx then some false
  else if r < i64Min.tdiv rx then some true
  else (ck (r * rx)).map (fun p => decide (l < p))

/-- `LessEqual<Res1, Res2>(lhs, rhs, LeftIsFinerTag)`; /repo/chrono/duration.h 353-370. -/
def lessEqualLF (r1 r2 : Ratio) (l r : Int) : Option Bool :=
  let rx : Int := (r2.div r1).num
  if r > i64Max.tdiv rx then some false
  else if r < i64Min.tdiv rx then some true
  else (ck (r * rx)).map (fun p => decide (l ≤ p))

/-- `Equal` with the tag of `WhichIsFiner`; /repo/chrono/duration.h 238-248, 280-311; `operator==`
888-894. -/
def Dur.eq (a b : Dur) : Option Bool :=
  if a.res.eq b.res then some (decide (a.count = b.count))
  else if a.res.lt b.res then equalLF a.res b.res a.count b.count
  else equalLF b.res a.res b.count a.count

/-- `Less` with the tag of `WhichIsFiner`; /repo/chrono/duration.h 313-344; `operator<` 872-878. -/
def Dur.lt (a b : Dur) : Option Bool :=
  if a.res.eq b.res then some (decide (a.count < b.count))
  else if a.res.lt b.res then lessLF a.res b.res a.count b.count
  else (lessEqualLF b.res a.res b.count a.count).map (!·)

/-- `LessEqual` with the tag of `WhichIsFiner`; /repo/chrono/duration.h 346-377; `operator<=`
880-886. -/
def Dur.le (a b : Dur) : Option Bool :=
  if a.res.eq b.res then some (decide (a.count ≤ b.count))
  else if a.res.lt b.res then lessEqualLF a.res b.res a.count b.count
  else (lessLF b.res a.res b.count a.count).map (!·)

/-- `operator!=`; /repo/chrono/duration.h 896-902. -/
def Dur.ne (a b : Dur) : Option Bool := (a.eq b).map (!·)
/-- `operator>`; /repo/chrono/duration.h 904-910. -/
def Dur.gt (a b : Dur) : Option Bool := (a.le b).map (!·)
/-- `operator>=`; /repo/chrono/duration.h 912-918. -/
def Dur.ge (a b : Dur) : Option Bool := (a.lt b).map (!·)

/-! ### Arithmetic -/

/-- `Common<Res1, Res2>`; /repo/chrono/duration.h 382-388. -/
def common (a b : Ratio) : Ratio := if b.lt a then b else a

/-- Convert both operands to the common resolution and combine them.
(The scheme of `operator+`, `-`, `%` and so on, /repo/chrono/duration.h 924-982.) -/
def Dur.binop (f : Int → Int → Option Int) (a b : Dur) : Option Dur :=
  let r := common a.res b.res
  match convertCount a.res r a.count, convertCount b.res r b.count with
  | some x, some y => (f x y).map (⟨r, ·⟩)
  | _, _ => none

/-- `operator+`; /repo/chrono/duration.h 925-932. -/
def Dur.add (a b : Dur) : Option Dur := a.binop (fun x y => ck (x + y)) b
/-- `operator-`; /repo/chrono/duration.h 934-941. -/
def Dur.sub (a b : Dur) : Option Dur := a.binop (fun x y => ck (x - y)) b
/-- `operator%`; /repo/chrono/duration.h 973-980; a zero divisor is undefined. -/
def Dur.mod (a b : Dur) : Option Dur :=
  a.binop (fun x y => if y = 0 then none else if I64 (x.tdiv y) then ck (x.tmod y) else none) b
/-- `operator/` of two durations; /repo/chrono/duration.h 957-964. -/
def Dur.div (a b : Dur) : Option Int :=
  let r := common a.res b.res
  match convertCount a.res r a.count, convertCount b.res r b.count with
  | some x, some y => if y = 0 then none else ck (x.tdiv y)
  | _, _ => none

/-- `operator*(Duration, count_t)`; /repo/chrono/duration.h 943-955. -/
def Dur.mulN (a : Dur) (n : Int) : Option Dur := (ck (a.count * n)).map (⟨a.res, ·⟩)

/-- `operator/(Duration, count_t)`; /repo/chrono/duration.h 966-971. -/
def Dur.divN (a : Dur) (n : Int) : Option Dur :=
  if n = 0 then none else (ck (a.count.tdiv n)).map (⟨a.res, ·⟩)

/-- Unary `operator-`; /repo/chrono/duration.h 689-692. -/
def Dur.neg (a : Dur) : Option Dur := (ck (-a.count)).map (⟨a.res, ·⟩)

/-- `operator+=` with another resolution; /repo/chrono/duration.h 650-655. -/
def Dur.addAssign (a b : Dur) : Option Dur :=
  match convertCount b.res a.res b.count with
  | some y => (ck (a.count + y)).map (⟨a.res, ·⟩)
  | none => none

/-- `operator-=` with another resolution; /repo/chrono/duration.h 657-662. -/
def Dur.subAssign (a b : Dur) : Option Dur :=
  match convertCount b.res a.res b.count with
  | some y => (ck (a.count - y)).map (⟨a.res, ·⟩)
  | none => none

/-! ### Splitting -/

/-- A unit measured in fundamental periods; /repo/chrono/duration.h 44-45: `UnderflowTag`,
`OverflowTag`, or a ratio. -/
inductive TUnit
  | under
  | over
  | ratio (r : Ratio)
deriving Repr, DecidableEq

/-- `MakeSmallerUnit`; /repo/chrono/duration.h 50-79. -/
def smaller (u : TUnit) (factor : Nat) : TUnit :=
  match u with
  | .ratio r => if Ratio.lt ⟨1, 1⟩ r then .ratio (r.mul ⟨1, factor⟩) else .under
  | _ => .under

/-- `MakeBiggerUnit`; /repo/chrono/duration.h 84-128. -/
def bigger (u : TUnit) (factor : Nat) : TUnit :=
  match u with
  | .ratio r =>
    if r.num ≤ 9223372036854775807 / factor ∧ r.den ≤ 9223372036854775807 / 1 then
      .ratio (r.mul ⟨factor, 1⟩)
    else .over
  | _ => .over

/-- The number of fundamental periods in a second; /repo/chrono/duration.h 432. -/
def secondUnit (res : Ratio) : TUnit := .ratio (Ratio.div ⟨1, 1⟩ res)

/-- The units in the order used by `Split`: day, hour, minute, second, milli, micro, nano, pico,
femto, atto, zepto, yocto; /repo/chrono/duration.h 432-449. -/
def units (res : Ratio) : List TUnit :=
  let s := secondUnit res
  let mi := bigger s 60
  let h := bigger mi 60
  let d := bigger h 24
  let ms := smaller s 1000
  let us := smaller ms 1000
  let ns := smaller us 1000
  let ps := smaller ns 1000
  let fs := smaller ps 1000
  let as' := smaller fs 1000
  let zs := smaller as' 1000
  let ys := smaller zs 1000
  [d, h, mi, s, ms, us, ns, ps, fs, as', zs, ys]

/-- `RatioDivide`; /repo/chrono/duration.h 172-190: the quotient and the new `u`, `v`.  Every product
and difference is checked. -/
def ratioDivide (u v : Int) : TUnit → Option (Int × Int × Int)
  | .under => some (0, u, v)
  | .over => some (0, u, v)
  | .ratio r => do
    if 0 ≤ u ∧ 0 < v then
      let du ← ck (r.den * u)
      let nv ← ck (r.num * v)
      let x := du.tdiv nv
      let p ← ck (nv * x)
      let u' ← ck (du - p)
      let v' ← ck (r.den * v)
      return (x, u', v')
    else none

/-- The sequence of `RatioDivide` calls in `Split`; /repo/chrono/duration.h 788-800. -/
def splitLoop : List TUnit → Int → Int → Option (List Int)
  | [], _, _ => some []
  | t :: ts, u, v => do
    let (x, u', v') ← ratioDivide u v t
    let xs ← splitLoop ts u' v'
    return x :: xs

/-- `Split`; /repo/chrono/duration.h 780-801: the sign and the twelve parts. -/
def Dur.split (a : Dur) : Option (Bool × List Int) := do
  let neg := decide (a.count < 0)
  let u ← if neg then ck (-a.count) else some a.count
  let xs ← splitLoop (units a.res) u 1
  return (neg, xs)

/-! ### Time points -/

/-- `VirtualClock::tenth_nano`; /repo/chrono/virtual-time-point.h 38-42. -/
def tenthNano : Ratio := ⟨1, 10000000000⟩

/-- `TimePoint<VirtualClock>`: the count of its member `dt_`; /repo/chrono/virtual-time-point.h
71-189. -/
structure TP where
  dt : Int
deriving Repr, DecidableEq

/-- `GetDuration()`; /repo/chrono/virtual-time-point.h 120-126. -/
def TP.getDuration (t : TP) : Dur := ⟨tenthNano, t.dt⟩

/-- Constructor from a duration; /repo/chrono/virtual-time-point.h 74-75. A duration of another
resolution is converted first (/repo/chrono/duration.h 536-539). -/
def TP.ofDuration (d : Dur) : Option TP := (d.convert tenthNano).map (fun d => ⟨d.count⟩)

/-- `operator+(TimePoint, Duration)`; /repo/chrono/virtual-time-point.h 239-243.  An argument of
another resolution is converted implicitly (/repo/chrono/duration.h 536-539). -/
def TP.add (t : TP) (d : Dur) : Option TP := do
  let d' ← d.convert tenthNano
  let r ← t.getDuration.add d'
  return ⟨r.count⟩

/-- `operator-(TimePoint, Duration)`; /repo/chrono/virtual-time-point.h 251-255. -/
def TP.subD (t : TP) (d : Dur) : Option TP := do
  let d' ← d.convert tenthNano
  let r ← t.getDuration.sub d'
  return ⟨r.count⟩

/-- `operator-(TimePoint, TimePoint)`; /repo/chrono/virtual-time-point.h 257-261. -/
def TP.sub (t u : TP) : Option Dur := t.getDuration.sub u.getDuration

/-- `operator<`; /repo/chrono/virtual-time-point.h 199-203. -/
def TP.lt (t u : TP) : Option Bool := t.getDuration.lt u.getDuration
/-- `operator<=`; /repo/chrono/virtual-time-point.h 205-209. -/
def TP.le (t u : TP) : Option Bool := t.getDuration.le u.getDuration
/-- `operator==`; /repo/chrono/virtual-time-point.h 211-215. -/
def TP.eq (t u : TP) : Option Bool := t.getDuration.eq u.getDuration

end Verif.Chrono
