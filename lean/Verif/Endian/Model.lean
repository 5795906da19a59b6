import Verif.Iter.Model
/-
Model of the conversion functions of `utility/endian.h`.
-/
namespace Verif.Endian
open Verif.Iter (Order isNative)

/-- `aux::ReorderBytes(uint8_t)`; endian.h 164-167. -/
def reorder8 (v : BitVec 8) : BitVec 8 := v

/-- `aux::ReorderBytes(uint16_t)`; endian.h 169-172.  The operands are promoted to `int` and the
result is truncated to 16 bits, hence the 32-bit intermediate. -/
def reorder16 (v : BitVec 16) : BitVec 16 :=
  (((v.setWidth 32) <<< 8) ||| ((v.setWidth 32) >>> 8)).setWidth 16

/-- `aux::ReorderBytes(uint32_t)`; endian.h 174-180. -/
def reorder32 (v : BitVec 32) : BitVec 32 :=
  ((v &&& 0x000000ff#32) <<< 24)
    ||| ((v &&& 0x0000ff00#32) <<< 8)
    ||| ((v &&& 0x00ff0000#32) >>> 8)
    ||| ((v &&& 0xff000000#32) >>> 24)

/-- `aux::ReorderBytes(uint64_t)`; endian.h 182-192. -/
def reorder64 (v : BitVec 64) : BitVec 64 :=
  ((v &&& 0x00000000000000ff#64) <<< 56)
    ||| ((v &&& 0x000000000000ff00#64) <<< 40)
    ||| ((v &&& 0x0000000000ff0000#64) <<< 24)
    ||| ((v &&& 0x00000000ff000000#64) <<< 8)
    ||| ((v &&& 0x000000ff00000000#64) >>> 8)
    ||| ((v &&& 0x0000ff0000000000#64) >>> 24)
    ||| ((v &&& 0x00ff000000000000#64) >>> 40)
    ||| ((v &&& 0xff00000000000000#64) >>> 56)

/-- `byte_order_f<e1, e2>`: `true` for `reverse_byte_order_t`; endian.h 154-157. -/
def differs (h : Host) (e₁ e₂ : Order) : Bool := isNative h e₁ ^^ isNative h e₂

/-- `NativeToLittleEndian`, `LittleToNativeEndian`, `NativeToBigEndian`, `BigToNativeEndian`
(endian.h 236-266) for a type whose reversal is `rev`: `ReorderBytes(v, tag)` (205-226). -/
def convert (h : Host) (e : Order) (rev : α → α) (v : α) : α :=
  if differs h e .native then rev v else v

/-- `LittleToBigEndian`, `BigToLittleEndian`; endian.h 268-280. -/
def swapEnds (rev : α → α) (v : α) : α := rev v

end Verif.Endian
