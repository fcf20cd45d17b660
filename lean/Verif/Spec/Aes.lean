import Verif.Model.Common
/-!
# AES-128, FIPS 197

A block and a round key are sixteen bytes; the byte with index `r + 4 c` is in row `r` and column `c` of the
state.
-/
namespace Verif.Spec

open Verif

/-- Multiplication by x in GF(2^8), section 4.2.1. -/
def xtime (b : Byte) : Byte := (b <<< 1) ^^^ (if b.msb then (0x1b : Byte) else 0)

/-- Multiplication by the constants of sections 5.1.3 and 5.3.3. -/
def mul3 (b : Byte) : Byte := xtime b ^^^ b
def mul9 (b : Byte) : Byte := xtime (xtime (xtime b)) ^^^ b
def mul11 (b : Byte) : Byte := xtime (xtime (xtime b)) ^^^ xtime b ^^^ b
def mul13 (b : Byte) : Byte := xtime (xtime (xtime b)) ^^^ xtime (xtime b) ^^^ b
def mul14 (b : Byte) : Byte := xtime (xtime (xtime b)) ^^^ xtime (xtime b) ^^^ xtime b

/-- The substitution table, byte 0 in the lowest place. -/
def sboxTable : Nat :=
  0x16bb54b00f2d99416842e6bf0d89a18cdf2855cee9871e9b948ed9691198f8e19e1dc186b95735610ef6034866b53e708a8bbd4b1f74dde8c6b4a61c2e2578ba08ae7a65eaf4566ca94ed58d6d37c8e779e4959162acd3c25c2406490a3a32e0db0b5ede14b8ee4688902a22dc4f816073195d643d7ea7c41744975fec130ccdd2f3ff1021dab6bcf5389d928f40a351a89f3c507f02f94585334d43fbaaefd0cf584c4a39becb6a5bb1fc20ed00d153842fe329b3d63b52a05a6e1b1a2c830975b227ebe28012079a059618c323c7041531d871f1e5a534ccf73f362693fdb7c072a49cafa2d4adf04759fa7dc982ca76abd7fe2b670130c56f6bf27b777c63

/-- The inverse table. -/
def invSboxTable : Nat :=
  0x7d0c2155631469e126d677ba7e042b17619953833cbbebc8b0f52aae4d3be0a0ef9cc9939f7ae52d0d4ab519a97f51605fec8027591012b131c7078833a8dd1ff45acd78fec0db9a2079d2c64b3e56fc1bbe18aa0e62b76f89c5291d711af1476edf751ce837f9e28535ade72274ac9673e6b4f0cecff297eadc674f4111913a6b8a130103bdafc1020f3fca8f1e2cd00645b3b80558e4f70ad3bc8c00abd890849d8da75746155edab9edfd5048706c92b6655dcc5ca4d41698688664f6f87225d18b6d49a25b76b224d92866a12e084ec3fa420b954cee3d23c2a632947b54cbe9dec444438e3487ff2f9b8239e37cfbd7f3819ea340bf38a53630d56a0952

/-- `SubBytes` of a byte, section 5.1.1. -/
def sbox (b : Byte) : Byte := BitVec.ofNat 8 (sboxTable >>> (8 * b.toNat))

/-- `InvSubBytes` of a byte, section 5.3.2. -/
def invSbox (b : Byte) : Byte := BitVec.ofNat 8 (invSboxTable >>> (8 * b.toNat))

/-- `ShiftRows`, section 5.1.2: row `r` moves left by `r`. -/
def shiftRows : Bytes → Bytes
  | [a0, a1, a2, a3, b0, b1, b2, b3, c0, c1, c2, c3, d0, d1, d2, d3] =>
    [a0, b1, c2, d3, b0, c1, d2, a3, c0, d1, a2, b3, d0, a1, b2, c3]
  | s => s

/-- `InvShiftRows`, section 5.3.1. -/
def invShiftRows : Bytes → Bytes
  | [a0, b1, c2, d3, b0, c1, d2, a3, c0, d1, a2, b3, d0, a1, b2, c3] =>
    [a0, a1, a2, a3, b0, b1, b2, b3, c0, c1, c2, c3, d0, d1, d2, d3]
  | s => s

/-- `MixColumns`, section 5.1.3, column by column. -/
def mixColumns : Bytes → Bytes
  | a :: b :: c :: d :: rest =>
    (xtime a ^^^ mul3 b ^^^ c ^^^ d) :: (a ^^^ xtime b ^^^ mul3 c ^^^ d) ::
    (a ^^^ b ^^^ xtime c ^^^ mul3 d) :: (mul3 a ^^^ b ^^^ c ^^^ xtime d) :: mixColumns rest
  | s => s

/-- `InvMixColumns`, section 5.3.3. -/
def invMixColumns : Bytes → Bytes
  | a :: b :: c :: d :: rest =>
    (mul14 a ^^^ mul11 b ^^^ mul13 c ^^^ mul9 d) :: (mul9 a ^^^ mul14 b ^^^ mul11 c ^^^ mul13 d) ::
    (mul13 a ^^^ mul9 b ^^^ mul14 c ^^^ mul11 d) :: (mul11 a ^^^ mul13 b ^^^ mul9 c ^^^ mul14 d) ::
    invMixColumns rest
  | s => s

/-- Byte-wise exclusive or, `AddRoundKey` of section 5.1.4. -/
def xorBlock (a b : Bytes) : Bytes := List.zipWith (· ^^^ ·) a b

/-- The next round key, section 5.2: `rcon` is the round constant. -/
def nextRoundKey (rcon : Byte) : Bytes → Bytes
  | [a0, a1, a2, a3, b0, b1, b2, b3, c0, c1, c2, c3, d0, d1, d2, d3] =>
    let w0 := [a0 ^^^ sbox d1 ^^^ rcon, a1 ^^^ sbox d2, a2 ^^^ sbox d3, a3 ^^^ sbox d0]
    let w1 := xorBlock [b0, b1, b2, b3] w0
    let w2 := xorBlock [c0, c1, c2, c3] w1
    let w3 := xorBlock [d0, d1, d2, d3] w2
    w0 ++ w1 ++ w2 ++ w3
  | k => k

/-- The round keys after a given one. -/
def roundKeys : (rcons : List Byte) → (key : Bytes) → List Bytes
  | [], _ => []
  | r :: rs, k => nextRoundKey r k :: roundKeys rs (nextRoundKey r k)

/-- The ten round constants: powers of x. -/
def rcons : List Byte := [0x01, 0x02, 0x04, 0x08, 0x10, 0x20, 0x40, 0x80, 0x1b, 0x36]

/-- The rounds of `Cipher`, section 5.1; the last one leaves out `MixColumns`. -/
def encRounds : (keys : List Bytes) → Bytes → Bytes
  | [], s => s
  | [k], s => xorBlock (shiftRows (s.map sbox)) k
  | k :: ks, s => encRounds ks (xorBlock (mixColumns (shiftRows (s.map sbox))) k)

/-- The rounds of `InvCipher`, section 5.3. -/
def decRounds : (keys : List Bytes) → Bytes → Bytes
  | [], s => s
  | [k], s => (invShiftRows (xorBlock s k)).map invSbox
  | k :: ks, s => (invShiftRows (invMixColumns (xorBlock (decRounds ks s) k))).map invSbox

/-- Encryption of one block. -/
def aesEncrypt (key : Arr 16) (block : Bytes) : Bytes :=
  encRounds (roundKeys rcons key.val) (xorBlock block key.val)

/-- Decryption of one block. -/
def aesDecrypt (key : Arr 16) (block : Bytes) : Bytes :=
  xorBlock (decRounds (roundKeys rcons key.val) block) key.val

/-- Multiplication in GF(2^8), section 4.2: `n` bits of `b` are left. -/
def gmul : (n : Nat) → (a b : Byte) → Byte
  | 0, _, _ => 0
  | n + 1, a, b => (if b.getLsbD 0 then a else 0) ^^^ gmul n (xtime a) (b >>> 1)

/-- `SubBytes` as section 5.1.1 defines it: the inverse in the field, here the power 254, and an affine map. -/
def sboxOf (b : Byte) : Byte :=
  let mul := gmul 8
  let b2 := mul b b
  let b3 := mul b2 b
  let b12 := mul (mul b3 b3) (mul b3 b3)
  let b15 := mul b12 b3
  let b60 := mul (mul b15 b15) (mul b15 b15)
  let b240 := mul (mul b60 b60) (mul b60 b60)
  let i := mul b240 (mul b12 b2)
  i ^^^ i.rotateLeft 1 ^^^ i.rotateLeft 2 ^^^ i.rotateLeft 3 ^^^ i.rotateLeft 4 ^^^ 0x63

/-! The table is the one the standard defines, and the constants are its products. -/
example : ∀ b : Byte, sbox b = sboxOf b := by decide +kernel
example : ∀ b : Byte, mul3 b = gmul 8 b 3 ∧ mul9 b = gmul 8 b 9 ∧ mul11 b = gmul 8 b 11 ∧ mul13 b = gmul 8 b 13 ∧
    mul14 b = gmul 8 b 14 := by decide +kernel

/-! The example of appendix C.1. -/
example : aesEncrypt ⟨[0x00, 0x01, 0x02, 0x03, 0x04, 0x05, 0x06, 0x07, 0x08, 0x09, 0x0a, 0x0b, 0x0c, 0x0d, 0x0e,
      0x0f], rfl⟩ [0x00, 0x11, 0x22, 0x33, 0x44, 0x55, 0x66, 0x77, 0x88, 0x99, 0xaa, 0xbb, 0xcc, 0xdd, 0xee, 0xff] =
    [0x69, 0xc4, 0xe0, 0xd8, 0x6a, 0x7b, 0x04, 0x30, 0xd8, 0xcd, 0xb7, 0x80, 0x70, 0xb4, 0xc5, 0x5a] := by
  decide +kernel

end Verif.Spec
