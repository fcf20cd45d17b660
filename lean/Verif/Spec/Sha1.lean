import Verif.Model.Crypto.KeyMgmt
/-!
# SHA-1 (FIPS 180-4), HMAC (RFC 2104) and PBKDF2 (RFC 8018)
-/
namespace Verif.Spec

open Verif

/-- The five words of the state. -/
structure ShaState where
  a : BitVec 32
  b : BitVec 32
  c : BitVec 32
  d : BitVec 32
  e : BitVec 32
  deriving DecidableEq

/-- The message followed by a one bit, zeros and the length in bits: a multiple of 64 bytes. -/
def shaPad (m : Bytes) : Bytes :=
  m ++ 0x80 :: (List.replicate ((119 - m.length % 64) % 64) 0 ++ toBE (BitVec.ofNat 64 (8 * m.length)))

/-- Big-endian words. -/
def shaWords : (n : Nat) → Bytes → List (BitVec 32)
  | 0, _ => []
  | n + 1, bs => fromBE 32 (bs.take 4) :: shaWords n (bs.drop 4)

/-- The round of section 6.1.2 with function value `f`, constant `k` and schedule word `w`. -/
def shaRound (s : ShaState) (f k w : BitVec 32) : ShaState :=
  ⟨s.a.rotateLeft 5 + f + s.e + k + w, s.a, s.b.rotateLeft 30, s.c, s.d⟩

/-- The function and the constant of round `t`, sections 4.1.1 and 4.2.1. -/
def shaStep (t : Nat) (s : ShaState) (w : BitVec 32) : ShaState :=
  if t < 20 then shaRound s ((s.b &&& s.c) ^^^ (~~~ s.b &&& s.d)) 0x5a827999 w
  else if t < 40 then shaRound s (s.b ^^^ s.c ^^^ s.d) 0x6ed9eba1 w
  else if t < 60 then shaRound s ((s.b &&& s.c) ^^^ (s.b &&& s.d) ^^^ (s.c &&& s.d)) 0x8f1bbcdc w
  else shaRound s (s.b ^^^ s.c ^^^ s.d) 0xca62c1d6 w

/-- `n` rounds from round `t`; `win` holds the next sixteen words of the schedule. -/
def shaRounds : (n t : Nat) → (win : List (BitVec 32)) → ShaState → ShaState
  | 0, _, _, s => s
  | n + 1, t, win, s =>
    let w := win.getD 0 0
    let next := (win.getD 13 0 ^^^ win.getD 8 0 ^^^ win.getD 2 0 ^^^ w).rotateLeft 1
    shaRounds n (t + 1) (win.drop 1 ++ [next]) (shaStep t s w)

/-- One block. -/
def shaBlock (s : ShaState) (block : Bytes) : ShaState :=
  let r := shaRounds 80 0 (shaWords 16 block) s
  ⟨s.a + r.a, s.b + r.b, s.c + r.c, s.d + r.d, s.e + r.e⟩

/-- `n` blocks. -/
def shaBlocks : (n : Nat) → ShaState → Bytes → ShaState
  | 0, s, _ => s
  | n + 1, s, bs => shaBlocks n (shaBlock s (bs.take 64)) (bs.drop 64)

/-- The initial state, section 5.3.1. -/
def shaInit : ShaState := ⟨0x67452301, 0xefcdab89, 0x98badcfe, 0x10325476, 0xc3d2e1f0⟩

/-- The digest of a state. -/
def shaOut (s : ShaState) : Arr 20 :=
  ⟨toBE s.a ++ toBE s.b ++ toBE s.c ++ toBE s.d ++ toBE s.e, by simp⟩

/-- SHA-1. -/
def sha1 (m : Bytes) : Arr 20 := let p := shaPad m; shaOut (shaBlocks (p.length / 64) shaInit p)

/-- HMAC-SHA-1: a key longer than a block is replaced by its digest. -/
def hmacSha1 (key m : Bytes) : Arr 20 :=
  let k := if 64 < key.length then (sha1 key).val else key
  let k := k ++ List.replicate (64 - k.length) 0
  sha1 (k.map (· ^^^ 0x5c) ++ (sha1 (k.map (· ^^^ 0x36) ++ m)).val)

/-- The remaining `n` iterations for one block of PBKDF2. -/
def hmacIter (password : Bytes) : (n : Nat) → (u acc : Bytes) → Bytes
  | 0, _, acc => acc
  | n + 1, u, acc =>
    let u' := (hmacSha1 password u).val
    hmacIter password n u' (List.zipWith (· ^^^ ·) acc u')

/-- Block `i` of PBKDF2. -/
def hmacDerive (password salt : Bytes) (rounds i : Nat) : Bytes :=
  let u := (hmacSha1 password (salt ++ toBE (BitVec.ofNat 32 i))).val
  hmacIter password (rounds - 1) u u

/-- PBKDF2 with HMAC-SHA-1. -/
def pbkdf2Sha1 (password salt : Bytes) (rounds n : Nat) : Bytes :=
  ((List.range ((n + 19) / 20)).flatMap fun i => hmacDerive password salt rounds (i + 1)).take n

/-- The HMAC of the standard as that of the model. -/
@[instance_reducible] def realHmac : HmacSha1 := ⟨hmacSha1⟩

/-! "abc" (FIPS 180), and the first two vectors of RFC 6070. -/
example : (sha1 [0x61, 0x62, 0x63]).val = [0xa9, 0x99, 0x3e, 0x36, 0x47, 0x06, 0x81, 0x6a, 0xba, 0x3e, 0x25, 0x71,
    0x78, 0x50, 0xc2, 0x6c, 0x9c, 0xd0, 0xd8, 0x9d] := by decide +kernel
example : pbkdf2Sha1 [0x70, 0x61, 0x73, 0x73, 0x77, 0x6f, 0x72, 0x64] [0x73, 0x61, 0x6c, 0x74] 1 20 =
    [0x0c, 0x60, 0xc8, 0x0f, 0x96, 0x1f, 0x0e, 0x71, 0xf3, 0xa9, 0xb5, 0x24, 0xaf, 0x60, 0x12, 0x06, 0x2f, 0xe0,
      0x37, 0xa6] := by decide +kernel
example : pbkdf2Sha1 [0x70, 0x61, 0x73, 0x73, 0x77, 0x6f, 0x72, 0x64] [0x73, 0x61, 0x6c, 0x74] 2 20 =
    [0xea, 0x6c, 0x01, 0x4d, 0xc7, 0x2d, 0x6f, 0x8c, 0xcd, 0x1e, 0xd9, 0x2a, 0xce, 0x1d, 0x41, 0xf0, 0xd8, 0xde,
      0x89, 0x57] := by decide +kernel

end Verif.Spec
