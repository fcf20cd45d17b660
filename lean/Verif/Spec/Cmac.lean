import Verif.Spec.Aes
/-!
# AES-CMAC (RFC 4493)

The message authentication code that IEEE 802.11 uses for EAPOL-Key frames of the suites with SHA-256 and of SAE.
-/
namespace Verif.Spec

/-- Multiplication by `x` of a block taken as a polynomial: shift left, and reduce by 0x87. -/
def cmacDouble (block : Bytes) : Bytes :=
  let v := fromBE 128 block
  toBE ((v <<< 1) ^^^ (if v.msb then (0x87 : BitVec 128) else 0))

/-- Cipher block chaining over `n` whole blocks. -/
def cmacChain (key : Arr 16) : (n : Nat) → (state m : Bytes) → Bytes
  | 0, state, _ => state
  | n + 1, state, m => cmacChain key n (aesEncrypt key (xorBlock state (m.take 16))) (m.drop 16)

/-- The code: the last block, whole or padded by one bit and zeros, is combined with the first or the second
subkey. -/
def aesCmac (key : Arr 16) (m : Bytes) : Bytes :=
  let k1 := cmacDouble (aesEncrypt key (List.replicate 16 0))
  let k2 := cmacDouble k1
  let n := (m.length - 1) / 16
  let last := m.drop (16 * n)
  let last := if last.length = 16 then xorBlock last k1
    else xorBlock (last ++ 0x80 :: List.replicate (15 - last.length) 0) k2
  aesEncrypt key (xorBlock (cmacChain key n (List.replicate 16 0) m) last)

/-- The key of the test vectors of RFC 4493. -/
private def testKey : Arr 16 := ⟨[0x2b, 0x7e, 0x15, 0x16, 0x28, 0xae, 0xd2, 0xa6, 0xab, 0xf7, 0x15, 0x88, 0x09, 0xcf,
  0x4f, 0x3c], rfl⟩

/-- The message of the test vectors. -/
private def testMessage : Bytes := [
  0x6b, 0xc1, 0xbe, 0xe2, 0x2e, 0x40, 0x9f, 0x96, 0xe9, 0x3d, 0x7e, 0x11, 0x73, 0x93, 0x17, 0x2a,
  0xae, 0x2d, 0x8a, 0x57, 0x1e, 0x03, 0xac, 0x9c, 0x9e, 0xb7, 0x6f, 0xac, 0x45, 0xaf, 0x8e, 0x51,
  0x30, 0xc8, 0x1c, 0x46, 0xa3, 0x5c, 0xe4, 0x11, 0xe5, 0xfb, 0xc1, 0x19, 0x1a, 0x0a, 0x52, 0xef,
  0xf6, 0x9f, 0x24, 0x45, 0xdf, 0x4f, 0x9b, 0x17, 0xad, 0x2b, 0x41, 0x7b, 0xe6, 0x6c, 0x37, 0x10]

/-- The test vectors of RFC 4493: no byte, 16, 40 and 64 bytes. -/
example : aesCmac testKey [] =
    [0xbb, 0x1d, 0x69, 0x29, 0xe9, 0x59, 0x37, 0x28, 0x7f, 0xa3, 0x7d, 0x12, 0x9b, 0x75, 0x67, 0x46] := by
  decide +kernel
example : aesCmac testKey (testMessage.take 16) =
    [0x07, 0x0a, 0x16, 0xb4, 0x6b, 0x4d, 0x41, 0x44, 0xf7, 0x9b, 0xdd, 0x9d, 0xd0, 0x4a, 0x28, 0x7c] := by
  decide +kernel
example : aesCmac testKey (testMessage.take 40) =
    [0xdf, 0xa6, 0x67, 0x47, 0xde, 0x9a, 0xe6, 0x30, 0x30, 0xca, 0x32, 0x61, 0x14, 0x97, 0xc8, 0x27] := by
  decide +kernel
example : aesCmac testKey testMessage =
    [0x51, 0xf0, 0xbe, 0xbf, 0x7e, 0x3b, 0x9d, 0x92, 0xfc, 0x49, 0x74, 0x17, 0x79, 0x36, 0x3c, 0xfe] := by
  decide +kernel

end Verif.Spec
