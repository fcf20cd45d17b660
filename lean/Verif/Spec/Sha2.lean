import Verif.Spec.Sha1
/-!
# SHA-256 and SHA-384 (FIPS 180-4), HMAC with them (RFC 2104)
-/
namespace Verif.Spec

open Verif

/-- What distinguishes the functions of the family with words of `w` bits: the constants of the rounds, the initial
state, the amounts of rotation (for the last of `s0` and `s1`, of shift) and the bytes of the digest. -/
structure Sha2 (w : Nat) where
  k : List (BitVec w)
  init : List (BitVec w)
  sum0 : Nat × Nat × Nat
  sum1 : Nat × Nat × Nat
  s0 : Nat × Nat × Nat
  s1 : Nat × Nat × Nat
  digest : Nat

/-- SHA-256, sections 4.1.2, 4.2.2 and 5.3.3. -/
def sha256Params : Sha2 32 where
  k := [
    0x428a2f98, 0x71374491, 0xb5c0fbcf, 0xe9b5dba5, 0x3956c25b, 0x59f111f1, 0x923f82a4, 0xab1c5ed5,
    0xd807aa98, 0x12835b01, 0x243185be, 0x550c7dc3, 0x72be5d74, 0x80deb1fe, 0x9bdc06a7, 0xc19bf174,
    0xe49b69c1, 0xefbe4786, 0x0fc19dc6, 0x240ca1cc, 0x2de92c6f, 0x4a7484aa, 0x5cb0a9dc, 0x76f988da,
    0x983e5152, 0xa831c66d, 0xb00327c8, 0xbf597fc7, 0xc6e00bf3, 0xd5a79147, 0x06ca6351, 0x14292967,
    0x27b70a85, 0x2e1b2138, 0x4d2c6dfc, 0x53380d13, 0x650a7354, 0x766a0abb, 0x81c2c92e, 0x92722c85,
    0xa2bfe8a1, 0xa81a664b, 0xc24b8b70, 0xc76c51a3, 0xd192e819, 0xd6990624, 0xf40e3585, 0x106aa070,
    0x19a4c116, 0x1e376c08, 0x2748774c, 0x34b0bcb5, 0x391c0cb3, 0x4ed8aa4a, 0x5b9cca4f, 0x682e6ff3,
    0x748f82ee, 0x78a5636f, 0x84c87814, 0x8cc70208, 0x90befffa, 0xa4506ceb, 0xbef9a3f7, 0xc67178f2]
  init := [
    0x6a09e667, 0xbb67ae85, 0x3c6ef372, 0xa54ff53a, 0x510e527f, 0x9b05688c, 0x1f83d9ab, 0x5be0cd19]
  sum0 := (2, 13, 22)
  sum1 := (6, 11, 25)
  s0 := (7, 18, 3)
  s1 := (17, 19, 10)
  digest := 32

/-- SHA-384, sections 4.1.3, 4.2.3 and 5.3.4. -/
def sha384Params : Sha2 64 where
  k := [
    0x428a2f98d728ae22, 0x7137449123ef65cd, 0xb5c0fbcfec4d3b2f, 0xe9b5dba58189dbbc, 0x3956c25bf348b538,
    0x59f111f1b605d019, 0x923f82a4af194f9b, 0xab1c5ed5da6d8118, 0xd807aa98a3030242, 0x12835b0145706fbe,
    0x243185be4ee4b28c, 0x550c7dc3d5ffb4e2, 0x72be5d74f27b896f, 0x80deb1fe3b1696b1, 0x9bdc06a725c71235,
    0xc19bf174cf692694, 0xe49b69c19ef14ad2, 0xefbe4786384f25e3, 0x0fc19dc68b8cd5b5, 0x240ca1cc77ac9c65,
    0x2de92c6f592b0275, 0x4a7484aa6ea6e483, 0x5cb0a9dcbd41fbd4, 0x76f988da831153b5, 0x983e5152ee66dfab,
    0xa831c66d2db43210, 0xb00327c898fb213f, 0xbf597fc7beef0ee4, 0xc6e00bf33da88fc2, 0xd5a79147930aa725,
    0x06ca6351e003826f, 0x142929670a0e6e70, 0x27b70a8546d22ffc, 0x2e1b21385c26c926, 0x4d2c6dfc5ac42aed,
    0x53380d139d95b3df, 0x650a73548baf63de, 0x766a0abb3c77b2a8, 0x81c2c92e47edaee6, 0x92722c851482353b,
    0xa2bfe8a14cf10364, 0xa81a664bbc423001, 0xc24b8b70d0f89791, 0xc76c51a30654be30, 0xd192e819d6ef5218,
    0xd69906245565a910, 0xf40e35855771202a, 0x106aa07032bbd1b8, 0x19a4c116b8d2d0c8, 0x1e376c085141ab53,
    0x2748774cdf8eeb99, 0x34b0bcb5e19b48a8, 0x391c0cb3c5c95a63, 0x4ed8aa4ae3418acb, 0x5b9cca4f7763e373,
    0x682e6ff3d6b2b8a3, 0x748f82ee5defb2fc, 0x78a5636f43172f60, 0x84c87814a1f0ab72, 0x8cc702081a6439ec,
    0x90befffa23631e28, 0xa4506cebde82bde9, 0xbef9a3f7b2c67915, 0xc67178f2e372532b, 0xca273eceea26619c,
    0xd186b8c721c0c207, 0xeada7dd6cde0eb1e, 0xf57d4f7fee6ed178, 0x06f067aa72176fba, 0x0a637dc5a2c898a6,
    0x113f9804bef90dae, 0x1b710b35131c471b, 0x28db77f523047d84, 0x32caab7b40c72493, 0x3c9ebe0a15c9bebc,
    0x431d67c49c100d4c, 0x4cc5d4becb3e42b6, 0x597f299cfc657e2a, 0x5fcb6fab3ad6faec, 0x6c44198c4a475817]
  init := [
    0xcbbb9d5dc1059ed8, 0x629a292a367cd507, 0x9159015a3070dd17, 0x152fecd8f70e5939,
    0x67332667ffc00b31, 0x8eb44a8768581511, 0xdb0c2e0d64f98fa7, 0x47b5481dbefa4fa4]
  sum0 := (28, 34, 39)
  sum1 := (14, 18, 41)
  s0 := (1, 8, 7)
  s1 := (19, 61, 6)
  digest := 48

variable {w : Nat}

/-- The eight working variables. -/
structure Sha2State (w : Nat) where
  a : BitVec w
  b : BitVec w
  c : BitVec w
  d : BitVec w
  e : BitVec w
  f : BitVec w
  g : BitVec w
  h : BitVec w

/-- The message followed by a one bit, zeros and the length in bits (in two words): a multiple of 16 words of `b`
bytes. -/
def sha2Pad (b : Nat) (m : Bytes) : Bytes :=
  m ++ 0x80 :: (List.replicate ((32 * b - 1 - 2 * b - m.length % (16 * b)) % (16 * b)) 0 ++
    toBE (BitVec.ofNat (16 * b) (8 * m.length)))

/-- Big-endian words of `b` bytes. -/
def sha2Words (w b : Nat) : (n : Nat) → Bytes → List (BitVec w)
  | 0, _ => []
  | n + 1, bs => fromBE w (bs.take b) :: sha2Words w b n (bs.drop b)

/-- Three rotations. -/
def sha2Sum (r : Nat × Nat × Nat) (x : BitVec w) : BitVec w :=
  x.rotateRight r.1 ^^^ x.rotateRight r.2.1 ^^^ x.rotateRight r.2.2

/-- Two rotations and a shift. -/
def sha2Sigma (r : Nat × Nat × Nat) (x : BitVec w) : BitVec w :=
  x.rotateRight r.1 ^^^ x.rotateRight r.2.1 ^^^ (x >>> r.2.2)

/-- One round, section 6.2.2. -/
def sha2Round (p : Sha2 w) (s : Sha2State w) (k x : BitVec w) : Sha2State w :=
  let t1 := s.h + sha2Sum p.sum1 s.e + ((s.e &&& s.f) ^^^ (~~~ s.e &&& s.g)) + k + x
  let t2 := sha2Sum p.sum0 s.a + ((s.a &&& s.b) ^^^ (s.a &&& s.c) ^^^ (s.b &&& s.c))
  ⟨t1 + t2, s.a, s.b, s.c, s.d + t1, s.e, s.f, s.g⟩

/-- The rounds with these constants; `win` holds the next sixteen words of the schedule. -/
def sha2Rounds (p : Sha2 w) : (ks win : List (BitVec w)) → Sha2State w → Sha2State w
  | [], _, s => s
  | k :: ks, win, s =>
    let x := win.getD 0 0
    let next := sha2Sigma p.s1 (win.getD 14 0) + win.getD 9 0 + sha2Sigma p.s0 (win.getD 1 0) + x
    sha2Rounds p ks (win.drop 1 ++ [next]) (sha2Round p s k x)

/-- One block of sixteen words of `b` bytes. -/
def sha2Block (p : Sha2 w) (b : Nat) (s : Sha2State w) (block : Bytes) : Sha2State w :=
  let r := sha2Rounds p p.k (sha2Words w b 16 block) s
  ⟨s.a + r.a, s.b + r.b, s.c + r.c, s.d + r.d, s.e + r.e, s.f + r.f, s.g + r.g, s.h + r.h⟩

/-- `n` blocks. -/
def sha2Blocks (p : Sha2 w) (b : Nat) : (n : Nat) → Sha2State w → Bytes → Sha2State w
  | 0, s, _ => s
  | n + 1, s, bs => sha2Blocks p b n (sha2Block p b s (bs.take (16 * b))) (bs.drop (16 * b))

/-- The initial state as working variables. -/
def sha2Init (p : Sha2 w) : Sha2State w :=
  let i := fun n => p.init.getD n 0
  ⟨i 0, i 1, i 2, i 3, i 4, i 5, i 6, i 7⟩

/-- The digest of a message. -/
def sha2 (p : Sha2 w) (m : Bytes) : Bytes :=
  let q := sha2Pad (w / 8) m
  let s := sha2Blocks p (w / 8) (q.length / (16 * (w / 8))) (sha2Init p) q
  (toBE s.a ++ toBE s.b ++ toBE s.c ++ toBE s.d ++ toBE s.e ++ toBE s.f ++ toBE s.g ++ toBE s.h).take p.digest

/-- HMAC: a key longer than a block is replaced by its digest. -/
def hmacSha2 (p : Sha2 w) (key m : Bytes) : Bytes :=
  let b := 2 * w
  let k := if b < key.length then sha2 p key else key
  let k := k ++ List.replicate (b - k.length) 0
  sha2 p (k.map (· ^^^ 0x5c) ++ sha2 p (k.map (· ^^^ 0x36) ++ m))

/-- HMAC-SHA-256. -/
def hmacSha256 (key m : Bytes) : Bytes := hmacSha2 sha256Params key m

/-- HMAC-SHA-384. -/
def hmacSha384 (key m : Bytes) : Bytes := hmacSha2 sha384Params key m

theorem hmacSha256_length (key m : Bytes) : (hmacSha256 key m).length = 32 := by
  simp [hmacSha256, hmacSha2, sha2, sha256Params]

theorem hmacSha384_length (key m : Bytes) : (hmacSha384 key m).length = 48 := by
  simp [hmacSha384, hmacSha2, sha2, sha384Params]

/-! "abc" (FIPS 180), and the first vector of RFC 4231 for each. -/
example : sha2 sha256Params [0x61, 0x62, 0x63] = [0xba, 0x78, 0x16, 0xbf, 0x8f, 0x01, 0xcf, 0xea, 0x41, 0x41, 0x40, 0xde, 0x5d, 0xae, 0x22, 0x23, 0xb0, 0x03,
    0x61, 0xa3, 0x96, 0x17, 0x7a, 0x9c, 0xb4, 0x10, 0xff, 0x61, 0xf2, 0x00, 0x15, 0xad] := by decide +kernel
example : sha2 sha384Params [0x61, 0x62, 0x63] = [0xcb, 0x00, 0x75, 0x3f, 0x45, 0xa3, 0x5e, 0x8b, 0xb5, 0xa0, 0x3d, 0x69, 0x9a, 0xc6, 0x50, 0x07, 0x27, 0x2c,
    0x32, 0xab, 0x0e, 0xde, 0xd1, 0x63, 0x1a, 0x8b, 0x60, 0x5a, 0x43, 0xff, 0x5b, 0xed, 0x80, 0x86, 0x07, 0x2b,
    0xa1, 0xe7, 0xcc, 0x23, 0x58, 0xba, 0xec, 0xa1, 0x34, 0xc8, 0x25, 0xa7] := by decide +kernel
example : hmacSha256 (List.replicate 20 0x0b) [0x48, 0x69, 0x20, 0x54, 0x68, 0x65, 0x72, 0x65] =
    [0xb0, 0x34, 0x4c, 0x61, 0xd8, 0xdb, 0x38, 0x53, 0x5c, 0xa8, 0xaf, 0xce, 0xaf, 0x0b, 0xf1, 0x2b, 0x88, 0x1d,
    0xc2, 0x00, 0xc9, 0x83, 0x3d, 0xa7, 0x26, 0xe9, 0x37, 0x6c, 0x2e, 0x32, 0xcf, 0xf7] := by decide +kernel
example : hmacSha384 (List.replicate 20 0x0b) [0x48, 0x69, 0x20, 0x54, 0x68, 0x65, 0x72, 0x65] =
    [0xaf, 0xd0, 0x39, 0x44, 0xd8, 0x48, 0x95, 0x62, 0x6b, 0x08, 0x25, 0xf4, 0xab, 0x46, 0x90, 0x7f, 0x15, 0xf9,
    0xda, 0xdb, 0xe4, 0x10, 0x1e, 0xc6, 0x82, 0xaa, 0x03, 0x4c, 0x7c, 0xeb, 0xc5, 0x9c, 0xfa, 0xea, 0x9e, 0xa9,
    0x07, 0x6e, 0xde, 0x7f, 0x4a, 0xf1, 0x52, 0xe8, 0xb2, 0xfa, 0x9c, 0xb6] := by decide +kernel

end Verif.Spec
