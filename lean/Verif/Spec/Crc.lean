import Verif.Model.Common
/-!
# The CRC-32 of IEEE 802.3, as used for the frame check sequence

The serial form: bits enter in the order in which they are sent, the least significant bit of a byte first.
-/
namespace Verif.Spec

open Verif

/-- The bits of a byte in the order in which they are sent. -/
def byteBits (b : Byte) : List Bool :=
  [b.getLsbD 0, b.getLsbD 1, b.getLsbD 2, b.getLsbD 3, b.getLsbD 4, b.getLsbD 5, b.getLsbD 6, b.getLsbD 7]

/-- The bits of a byte string in the order in which they are sent. -/
def wireBits (bs : Bytes) : List Bool := bs.flatMap byteBits

/-- One shift of the register, with the reflected polynomial. -/
def crcShift (s : BitVec 32) : BitVec 32 := (s >>> 1) ^^^ (if s.getLsbD 0 then (0xedb88320 : BitVec 32) else 0)

/-- The register after some bits. -/
def crcBits (s : BitVec 32) (bits : List Bool) : BitVec 32 :=
  bits.foldl (fun s b => crcShift (s ^^^ if b then (1 : BitVec 32) else 0)) s

/-- CRC-32: the register starts with ones, and its complement is the result. -/
def crc32 (bs : Bytes) : BitVec 32 := ~~~ crcBits 0xffffffff (wireBits bs)

/-- The checksum of the standard as that of the model. -/
@[instance_reducible] def ieeeCrc : Crc32 := ⟨crc32⟩

/-! The check value published for this checksum: of the digits 1 to 9. -/
example : crc32 [0x31, 0x32, 0x33, 0x34, 0x35, 0x36, 0x37, 0x38, 0x39] = 0xcbf43926 := by decide +kernel

end Verif.Spec
