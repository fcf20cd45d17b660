import Verif.Spec.Aes
import Verif.Model.Crypto.EapolSerde
/-!
# AES key wrap: RFC 3394, and RFC 5649 with padding

The registers are eight bytes each.  The steps of one pass are numbered from `t`; the passes of `n` registers
begin at 1, n + 1, ..., 5 n + 1.
-/
namespace Verif.Spec

open Verif

/-- The step number as eight bytes. -/
def stepBytes (t : Nat) : Bytes := toBE (BitVec.ofNat 64 t)

/-- One pass of the wrapping process, section 2.2.1. -/
def wrapPass (enc : Bytes → Bytes) : (t : Nat) → (a : Bytes) → List Bytes → Bytes × List Bytes
  | _, a, [] => (a, [])
  | t, a, r :: rs =>
    let b := enc (a ++ r)
    let q := wrapPass enc (t + 1) (xorBlock (b.take 8) (stepBytes t)) rs
    (q.1, b.drop 8 :: q.2)

/-- One pass of the unwrapping process, section 2.2.2: from the last register to the first. -/
def unwrapPass (dec : Bytes → Bytes) : (t : Nat) → (a : Bytes) → List Bytes → Bytes × List Bytes
  | _, a, [] => (a, [])
  | t, a, r :: rs =>
    let q := unwrapPass dec (t + 1) a rs
    let b := dec (xorBlock q.1 (stepBytes t) ++ r)
    (b.take 8, b.drop 8 :: q.2)

/-- The passes which begin at the given steps, in this order. -/
def wrapPasses (enc : Bytes → Bytes) : List Nat → Bytes × List Bytes → Bytes × List Bytes
  | [], s => s
  | t :: ts, s => wrapPasses enc ts (wrapPass enc t s.1 s.2)

/-- The passes which begin at the given steps, undone from the last to the first. -/
def unwrapPasses (dec : Bytes → Bytes) : List Nat → Bytes × List Bytes → Bytes × List Bytes
  | [], s => s
  | t :: ts, s => let q := unwrapPasses dec ts s; unwrapPass dec t q.1 q.2

/-- The first steps of the six passes. -/
def passStarts (n : Nat) : List Nat := [1, n + 1, 2 * n + 1, 3 * n + 1, 4 * n + 1, 5 * n + 1]

/-- Bytes as registers. -/
def registers : (n : Nat) → Bytes → List Bytes
  | 0, _ => []
  | n + 1, bs => bs.take 8 :: registers n (bs.drop 8)

/-- The initial value of section 2.2.3.1. -/
def defaultIv : Bytes := List.replicate 8 0xa6

/-- The wrapping process with an initial value. -/
def wrapWith (key : Arr 16) (iv data : Bytes) : Bytes :=
  let n := data.length / 8
  let s := wrapPasses (aesEncrypt key) (passStarts n) (iv, registers n data)
  s.1 ++ s.2.flatten

/-- The unwrapping process: the initial value and the data. -/
def unwrapWith (key : Arr 16) (wrapped : Bytes) : Bytes × Bytes :=
  let n := wrapped.length / 8 - 1
  let s := unwrapPasses (aesDecrypt key) (passStarts n) (wrapped.take 8, registers n (wrapped.drop 8))
  (s.1, s.2.flatten)

/-- RFC 3394 key wrap of data whose length is a multiple of eight. -/
def keyWrap (key : Arr 16) (data : Bytes) : Bytes := wrapWith key defaultIv data

/-- RFC 3394 key unwrap: `none` if the integrity check fails. -/
def keyUnwrap (key : Arr 16) (wrapped : Bytes) : Option Bytes :=
  let u := unwrapWith key wrapped
  if wrapped.length % 8 = 0 ∧ 8 ≤ wrapped.length ∧ u.1 = defaultIv then some u.2 else none

/-- RFC 5649, section 3: the alternative initial value, with the length of the data. -/
def alternativeIv (n : Nat) : Bytes := [0xa6, 0x59, 0x59, 0xa6] ++ toBE (BitVec.ofNat 32 n)

/-- RFC 5649, section 4.1: pad with zeros; one register is encrypted as one block with the initial value. -/
def keyWrapPadded (key : Arr 16) (data : Bytes) : Bytes :=
  let padded := data ++ List.replicate (8 * ((data.length + 7) / 8) - data.length) 0
  if padded.length = 8 then aesEncrypt key (alternativeIv data.length ++ padded)
  else wrapWith key (alternativeIv data.length) padded

/-! The example of RFC 3394, section 4.1, and those of RFC 5649, section 6, need keys of 128 and 192 bits; the
first one is checked here. -/
def rfcKey : Arr 16 := ⟨[0x00, 0x01, 0x02, 0x03, 0x04, 0x05, 0x06, 0x07, 0x08, 0x09, 0x0a, 0x0b, 0x0c, 0x0d, 0x0e,
  0x0f], rfl⟩
def rfcData : Bytes := [0x00, 0x11, 0x22, 0x33, 0x44, 0x55, 0x66, 0x77, 0x88, 0x99, 0xaa, 0xbb, 0xcc, 0xdd, 0xee,
  0xff]
def rfcWrapped : Bytes := [0x1f, 0xa6, 0x8b, 0x0a, 0x81, 0x12, 0xb4, 0x47, 0xae, 0xf3, 0x4b, 0xd8, 0xfb, 0x5a, 0x7b,
  0x82, 0x9d, 0x3e, 0x86, 0x23, 0x71, 0xd2, 0xcf, 0xe5]
example : keyWrap rfcKey rfcData = rfcWrapped := by decide +kernel
example : keyUnwrap rfcKey rfcWrapped = some rfcData := by decide +kernel
example : keyUnwrap rfcKey (rfcWrapped.set 23 0xe4) = none := by decide +kernel

end Verif.Spec
