/-
Model of `random/detail/rot.h`, `random/detail/is-power-2.h`,
`random/engine/splitmix-engine.h`, `random/engine/xoshiro-engine.h`,
`random/engine/xoroshiro-engine.h`.
Unsigned words are `BitVec w` (wrapping arithmetic, as `uint32_t`/`uint64_t`).
-/
namespace Verif.Random

/-- `rotl`; rot.h 29-33.  Defined behaviour needs `0 < k < w` (a shift by the full width is
undefined); every use in the engines has such an amount. -/
def rotl {w : Nat} (n : BitVec w) (k : Nat) : BitVec w := (n <<< k) ||| (n >>> (w - k))

/-- `rotr`; rot.h 35-39. -/
def rotr {w : Nat} (n : BitVec w) (k : Nat) : BitVec w := (n >>> k) ||| (n <<< (w - k))

/-- `is_power_2<n>`; is-power-2.h 33-40.  The primary template recurses on `n >> 1` while
`n >= 2` and `n` is even; the specialisations end the recursion. -/
def isPower2 (n : Nat) : Bool :=
  if n ≥ 2 ∧ n % 2 = 0 then
    if n = 2 then true else isPower2 (n / 2)
  else false
termination_by n
decreasing_by omega

/-! ### splitmix -/

/-- Template parameters of `splitmix_engine`; splitmix-engine.h 34-36. -/
structure SplitmixParams (w : Nat) where
  (a b c : Nat)
  (x y z : BitVec w)

/-- The value part of `operator()`; splitmix-engine.h 65-68. -/
def SplitmixParams.mix (p : SplitmixParams w) (t : BitVec w) : BitVec w :=
  let t := (t ^^^ (t >>> p.a)) * p.y
  let t := (t ^^^ (t >>> p.b)) * p.z
  t ^^^ (t >>> p.c)

/-- `operator()`: (result, new state); splitmix-engine.h 63-69. -/
def SplitmixParams.next (p : SplitmixParams w) (s : BitVec w) : BitVec w × BitVec w :=
  (p.mix (s + p.x), s + p.x)

/-- `splitmix64`; splitmix-engine.h 114-117. -/
def splitmix64 : SplitmixParams 64 :=
  { a := 30, b := 27, c := 31,
    x := 0x9e3779b97f4a7c15#64, y := 0xbf58476d1ce4e5b9#64, z := 0x94d049bb133111eb#64 }

/-! ### xoshiro -/

/-- State of the four-word engines; `UIntType s_[4]`.  (xoshiro-engine.h 244.) -/
structure S4 (w : Nat) where
  (s0 s1 s2 s3 : BitVec w)
deriving DecidableEq

/-- `xoshiro_n4_transformer::transform`; xoshiro-engine.h 69-84, statement by statement. -/
def transform4 (a b : Nat) (s : S4 w) : S4 w :=
  let t := s.s1 <<< a
  let s := { s with s2 := s.s2 ^^^ s.s0 }
  let s := { s with s3 := s.s3 ^^^ s.s1 }
  let s := { s with s1 := s.s1 ^^^ s.s2 }
  let s := { s with s0 := s.s0 ^^^ s.s3 }
  let s := { s with s2 := s.s2 ^^^ t }
  { s with s3 := rotl s.s3 b }

/-- State of the eight-word engines; `UIntType s_[8]`.  (xoshiro-engine.h 244.) -/
structure S8 (w : Nat) where
  (s0 s1 s2 s3 s4 s5 s6 s7 : BitVec w)
deriving DecidableEq

/-- `xoshiro_n8_transformer::transform`; xoshiro-engine.h 96-117. -/
def transform8 (a b : Nat) (s : S8 w) : S8 w :=
  let t := s.s1 <<< a
  let s := { s with s2 := s.s2 ^^^ s.s0 }
  let s := { s with s5 := s.s5 ^^^ s.s1 }
  let s := { s with s1 := s.s1 ^^^ s.s2 }
  let s := { s with s7 := s.s7 ^^^ s.s3 }
  let s := { s with s3 := s.s3 ^^^ s.s4 }
  let s := { s with s4 := s.s4 ^^^ s.s5 }
  let s := { s with s0 := s.s0 ^^^ s.s6 }
  let s := { s with s6 := s.s6 ^^^ s.s7 }
  let s := { s with s6 := s.s6 ^^^ t }
  { s with s7 := rotl s.s7 b }

/-! ### Scramblers -/

/-- The `+` scrambler on the two selected words; xoshiro-engine.h 122-133,
xoroshiro-engine.h 60-72, 102-113. -/
def plusS (x y : BitVec w) : BitVec w := x + y

/-- The `*` scrambler on the selected word; xoshiro-engine.h 135-146, xoroshiro-engine.h 74-85,
115-126. -/
def starS (s : BitVec w) (x : BitVec w) : BitVec w := x * s

/-- The `**` scrambler on the selected word; xoshiro-engine.h 148-159, xoroshiro-engine.h 87-98,
128-139. -/
def starstarS (s : BitVec w) (r : Nat) (t : BitVec w) (x : BitVec w) : BitVec w :=
  rotl (x * s) r * t

/-! ### xoroshiro -/

/-- State of the two-word engines; xoroshiro-engine.h 51-56. -/
structure S2 (w : Nat) where
  (s0 s1 : BitVec w)
deriving DecidableEq

/-- `transform(state_size_tag<2>)`; xoroshiro-engine.h 207-214. -/
def transform2 (a b c : Nat) (st : S2 w) : S2 w :=
  let s0 := st.s0
  let s1 := st.s1 ^^^ s0
  { s0 := rotl s0 a ^^^ s1 ^^^ (s1 <<< b), s1 := rotl s1 c }

/-- State of the engines with `n > 2` words; xoroshiro-engine.h 38-49.  `s` is the array `s_`
(only indices below `n` are ever accessed), `p` is `p_`. -/
structure SN (w : Nat) where
  s : Nat → BitVec w
  p : Nat

/-- `array[i] = v`.  (xoshiro-engine.h 213, xoroshiro-engine.h 180, 190-193.) -/
def upd {w : Nat} (s : Nat → BitVec w) (i : Nat) (v : BitVec w) : Nat → BitVec w :=
  fun j => if j = i then v else s j

/-- `transform(state_size_tag<n_>)` for `n_ > 2`; xoroshiro-engine.h 184-195.  The local `p` is
incremented, the member `p_` is not written. -/
def transformN (n a b c : Nat) (st : SN w) : SN w :=
  let q := st.p
  let p := (st.p + 1) &&& (n - 1)
  let s0 := st.s p
  let s1 := st.s q ^^^ s0
  { st with s := upd (upd st.s q (rotl s0 a ^^^ s1 ^^^ (s1 <<< b))) p (rotl s1 c) }

/-- The index used by the scramblers for register `i`; xoroshiro-engine.h 60-98. -/
def regIndex (n p i : Nat) : Nat := (p + ((i + 1) &&& (n - 1))) &&& (n - 1)

/-! ### Engines -/

/-- An engine as seen by its callers: `operator()` returns a result and changes the state
(xoshiro-engine.h 218-223, xoroshiro-engine.h 233-238), `seed` overwrites the state. -/
structure Engine where
  State : Type
  Word : Type
  Seed : Type
  scramble : State → Word
  transform : State → State
  seed : Seed → State → State

/-- `operator()`.  (xoshiro-engine.h 218-223, xoroshiro-engine.h 233-238.) -/
def Engine.next (e : Engine) (s : e.State) : e.Word × e.State := (e.scramble s, e.transform s)

/-- `discard(z)`: call `operator()` `z` times, dropping the result; xoshiro-engine.h 225-231,
xoroshiro-engine.h 240-246, splitmix-engine.h 71-77. -/
def Engine.discard (e : Engine) : Nat → e.State → e.State
  | 0,     s => s
  | z + 1, s => e.discard z (e.next s).2

/-- The loop `for (i = 0; i < n; ++i) s_[i] = static_cast<UIntType>(gen())` of `seed`, from
iteration `i` on, `gen` being a splitmix engine in state `g`; xoshiro-engine.h 208-215, xoroshiro-engine.h 198-205. -/
def seedLoop (gen : SplitmixParams 64) (w : Nat) (g : BitVec 64) (i : Nat) : Nat → (Nat → BitVec w) → (Nat → BitVec w)
  | 0,     s => s
  | k + 1, s =>
    let r := gen.next g
    seedLoop gen w r.2 (i + 1) k (upd s i (r.1.setWidth w))

/-- Array view of a four-word state.  (`s_`, xoshiro-engine.h 244.) -/
def S4.ofFun (f : Nat → BitVec w) : S4 w := ⟨f 0, f 1, f 2, f 3⟩
/-- Array view of an eight-word state.  (`s_`, xoshiro-engine.h 244.) -/
def S8.ofFun (f : Nat → BitVec w) : S8 w := ⟨f 0, f 1, f 2, f 3, f 4, f 5, f 6, f 7⟩
/-- Array view of a two-word state.  (`s_`, xoroshiro-engine.h 51-56.) -/
def S2.ofFun (f : Nat → BitVec w) : S2 w := ⟨f 0, f 1⟩
/-- Array view of a four-word state.  (`s_`, xoshiro-engine.h 244.) -/
def S4.toFun (s : S4 w) : Nat → BitVec w
  | 0 => s.s0 | 1 => s.s1 | 2 => s.s2 | _ => s.s3
/-- Array view of an eight-word state.  (`s_`, xoshiro-engine.h 244.) -/
def S8.toFun (s : S8 w) : Nat → BitVec w
  | 0 => s.s0 | 1 => s.s1 | 2 => s.s2 | 3 => s.s3 | 4 => s.s4 | 5 => s.s5 | 6 => s.s6 | _ => s.s7
/-- Array view of a two-word state.  (`s_`, xoroshiro-engine.h 51-56.) -/
def S2.toFun (s : S2 w) : Nat → BitVec w
  | 0 => s.s0 | _ => s.s1

/-- `seed(value)` of the xoshiro engines; the `UIntType` seed converts to `uint64_t`.  (xoshiro-engine.h 208-215.) -/
def seed4 (v : BitVec w) (s : S4 w) : S4 w := S4.ofFun (seedLoop splitmix64 w (v.setWidth 64) 0 4 s.toFun)
/-- `seed(value)` of the eight-word xoshiro engines.  (xoshiro-engine.h 208-215.) -/
def seed8 (v : BitVec w) (s : S8 w) : S8 w := S8.ofFun (seedLoop splitmix64 w (v.setWidth 64) 0 8 s.toFun)
/-- `seed(value)` of the two-word xoroshiro engines; xoroshiro-engine.h 198-205. -/
def seed2 (v : BitVec w) (s : S2 w) : S2 w := S2.ofFun (seedLoop splitmix64 w (v.setWidth 64) 0 2 s.toFun)
/-- `seed(value)` of the xoroshiro engines with `n > 2`; xoroshiro-engine.h 177-182. -/
def seedN (n : Nat) (v : BitVec w) (st : SN w) : SN w :=
  { s := seedLoop splitmix64 w (v.setWidth 64) 0 n st.s, p := n - 1 }

/-- `xoshiro_engine` with four words; typedefs xoshiro-engine.h 272-340. -/
def engine4 (w a b : Nat) (scr : S4 w → BitVec w) : Engine :=
  ⟨S4 w, BitVec w, BitVec w, scr, transform4 a b, seed4⟩
/-- `xoshiro_engine` with eight words; typedefs xoshiro-engine.h 342-408. -/
def engine8 (w a b : Nat) (scr : S8 w → BitVec w) : Engine :=
  ⟨S8 w, BitVec w, BitVec w, scr, transform8 a b, seed8⟩
/-- `xoroshiro_engine` with two words; typedefs xoroshiro-engine.h 285-350. -/
def engine2 (w a b c : Nat) (scr : S2 w → BitVec w) : Engine :=
  ⟨S2 w, BitVec w, BitVec w, scr, transform2 a b c, seed2⟩
/-- `xoroshiro_engine` with `n > 2` words; typedefs xoroshiro-engine.h 352-411. -/
def engineN (w n a b c : Nat) (scr : SN w → BitVec w) : Engine :=
  ⟨SN w, BitVec w, BitVec w, scr, transformN n a b c, seedN n⟩
/-- `splitmix_engine` as an engine; splitmix-engine.h 33-91. -/
def engineSplitmixOf (p : SplitmixParams 64) : Engine :=
  ⟨BitVec 64, BitVec 64, BitVec 64, fun s => (p.next s).1, fun s => (p.next s).2, fun v _ => v⟩
/-- `splitmix64` as an engine; splitmix-engine.h 114-117. -/
def engineSplitmix : Engine := engineSplitmixOf splitmix64

/-- Scrambler of `xoshiro128plus`/`xoshiro256plus`; xoshiro-engine.h 272-275, 316-319. -/
def scr4plus (s : S4 w) : BitVec w := plusS s.s0 s.s3
/-- Scrambler of `xoshiro128starstar`.  (xoshiro-engine.h 296-299.) -/
def scr128starstar (s : S4 32) : BitVec 32 := starstarS 5 7 9 s.s0
/-- Scrambler of `xoshiro256starstar`.  (xoshiro-engine.h 350-353.) -/
def scr256starstar (s : S4 64) : BitVec 64 := starstarS 5 7 9 s.s1
/-- Scrambler of `xoshiro512plus`.  (xoshiro-engine.h 380-383.) -/
def scr8plus (s : S8 64) : BitVec 64 := plusS s.s0 s.s2
/-- Scrambler of `xoshiro512starstar`.  (xoshiro-engine.h 405-408.) -/
def scr512starstar (s : S8 64) : BitVec 64 := starstarS 5 7 9 s.s1
/-- Scrambler of `xoroshiro64star`; xoroshiro-engine.h 285-286. -/
def scr64star (s : S2 32) : BitVec 32 := starS 0x9e3779bb#32 s.s0
/-- Scrambler of `xoroshiro64starstar`; xoroshiro-engine.h 309-310. -/
def scr64starstar (s : S2 32) : BitVec 32 := starstarS 0x9e3779bb#32 5 5 s.s0
/-- Scrambler of `xoroshiro128plus`; xoroshiro-engine.h 342-343. -/
def scr2plus (s : S2 64) : BitVec 64 := plusS s.s0 s.s1
/-- Scrambler of `xoroshiro128starstar`; xoroshiro-engine.h 367-368. -/
def scr2starstar (s : S2 64) : BitVec 64 := starstarS 5 7 9 s.s0
/-- Scrambler of `xoroshiro1024plus` (registers 15 and 0).  (xoroshiro-engine.h 381-383.) -/
def scrNplus (st : SN 64) : BitVec 64 :=
  plusS (st.s (regIndex 16 st.p 15)) (st.s (regIndex 16 st.p 0))
/-- Scrambler of `xoroshiro1024star` (register 0).  (xoroshiro-engine.h 395-397.) -/
def scrNstar (st : SN 64) : BitVec 64 :=
  starS 0x9e3779b97f4a7c13#64 (st.s (regIndex 16 st.p 0))
/-- Scrambler of `xoroshiro1024starstar` (register 0).  (xoroshiro-engine.h 409-411.) -/
def scrNstarstar (st : SN 64) : BitVec 64 := starstarS 5 7 9 (st.s (regIndex 16 st.p 0))

/-! ### Unit-interval engines -/

/-- `uint_to_real<..., uint32_t>::convert`: the integer `m >> 8`; xoshiro-engine.h 456-463,
xoroshiro-engine.h 456-464. -/
def unit32 (m : BitVec 32) : Nat := (m >>> 8).toNat
/-- `uint_to_real<..., uint64_t>::convert`: the integer `m >> 11`; xoshiro-engine.h 465-472,
xoroshiro-engine.h 466-473. -/
def unit64 (m : BitVec 64) : Nat := (m >>> 11).toNat

/-- The floating-point expression `k * (1 / 2^p)` with rounding function `rnd` applied to each
conversion and operation (`(m >> 8) * (1.0f / 16777216.0f)`).  (xoshiro-engine.h 456-472, xoroshiro-engine.h 456-473.) -/
def unitReal (rnd : Rat → Rat) (p : Nat) (k : Nat) : Rat :=
  rnd (rnd (k : Rat) * rnd (rnd 1 / rnd (2 ^ p : Rat)))

end Verif.Random
