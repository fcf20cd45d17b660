import Verif.Model.Elements.Rsn
/-!
# `/repo/src/crypto/key_mgmt.rs`: key derivation

HMAC and PBKDF2 come from other crates and are not modelled: they are parameters.  Feeding a message to an
HMAC piece by piece is modelled as feeding the concatenation.  The output buffer is represented by its
length.  The rest of the file is in `Model/Crypto/EapolSerde.lean`.
-/
namespace Verif

/-- HMAC-SHA-1, `HSha1`, /repo/src/crypto/key_mgmt.rs:23; some function with 20 bytes of output.
`new_from_slice` accepts keys of every length. -/
class HmacSha1 where
  hmac : (key message : Bytes) → Arr 20

/-- PBKDF2 with HMAC-SHA-1 from the `pbkdf2` crate: password, salt, rounds, output length. -/
class Pbkdf2Sha1 where
  derive : (password salt : Bytes) → (rounds : Nat) → (n : Nat) → Arr n

/-- `generate_pmkid`, /repo/src/crypto/key_mgmt.rs:32-47, generic over the HMAC `h`.  The slice panics when
the output of `h` is shorter than 16 bytes. -/
def generatePmkid (h : (key message : Bytes) → Bytes) (key : Bytes) (authenticator_address
    supplicant_address : Mac) : Res (Arr 16) :=
  let out := h key ([0x50, 0x4d, 0x4b, 0x20, 0x4e, 0x61, 0x6d, 0x65] ++ authenticator_address.val ++
    supplicant_address.val)
  if hl : 16 ≤ out.length then .ok ⟨out.take 16, by simp [hl]⟩ else .panic

/-- `map_passphrase_to_psk`, /repo/src/crypto/key_mgmt.rs:53-55. -/
def mapPassphraseToPsk [Pbkdf2Sha1] (passphrase ssid : Bytes) (n : Nat) : Arr n :=
  Pbkdf2Sha1.derive passphrase ssid 4096 n

/-- `prf_iter`, /repo/src/crypto/key_mgmt.rs:62-93.  `i as u8` truncates. -/
def prfIter [HmacSha1] (key label : Bytes) (data : List Bytes) (n : Nat) : Bytes :=
  (List.range ((n + 19) / 20)).flatMap fun i =>
    (HmacSha1.hmac key (label ++ [0x00] ++ data.flatten ++ [BitVec.ofNat 8 i])).val.take
      (min 20 (n - 20 * i))

/-- `prf`, /repo/src/crypto/key_mgmt.rs:98-100. -/
def prf [HmacSha1] (key label data : Bytes) (n : Nat) : Bytes := prfIter key label [data] n

/-- `a.iter().partial_cmp(b.iter()) == Some(Less)`, /repo/src/crypto/key_mgmt.rs:107. -/
def lexLt : Bytes → Bytes → Bool
  | [], [] => false
  | [], _ :: _ => true
  | _ :: _, [] => false
  | x :: xs, y :: ys => if x.toNat < y.toNat then true else if y.toNat < x.toNat then false else lexLt xs ys

/-- `sort_lexicographically`, /repo/src/crypto/key_mgmt.rs:106-112. -/
def sortLexicographically (a b : Bytes) : Bytes × Bytes := if lexLt a b then (a, b) else (b, a)

/-- `"Pairwise key expansion"`. -/
def pairwiseKeyExpansion : Bytes :=
  [0x50, 0x61, 0x69, 0x72, 0x77, 0x69, 0x73, 0x65, 0x20, 0x6b, 0x65, 0x79, 0x20,
   0x65, 0x78, 0x70, 0x61, 0x6e, 0x73, 0x69, 0x6f, 0x6e]

/-- `derive_ptk`, /repo/src/crypto/key_mgmt.rs:116-135. -/
def derivePtk [HmacSha1] (pmk : Bytes) (authenticator_address supplicant_address : Mac)
    (authenticator_nonce supplicant_nonce : Arr 32) (n : Nat) : Bytes :=
  let (min_address, max_address) := sortLexicographically authenticator_address.val supplicant_address.val
  let (min_nonce, max_nonce) := sortLexicographically authenticator_nonce.val supplicant_nonce.val
  prfIter pmk pairwiseKeyExpansion [min_address, max_address, min_nonce, max_nonce] n

/-- `split_at_checked`. -/
def splitAtChecked (l : Bytes) (n : Nat) : Option (Bytes × Bytes) :=
  if n ≤ l.length then some (l.take n, l.drop n) else none

/-- `partition_ptk`, /repo/src/crypto/key_mgmt.rs:141-153. -/
def partitionPtk (ptk : Bytes) (akm_suite : IEEE80211AkmType)
    (cipher_suite : IEEE80211CipherSuiteSelector) : Option (Bytes × Bytes × Bytes) := do
  let kck_len ← akm_suite.kckLen
  let kek_len ← akm_suite.kekLen
  let tk_len ← cipher_suite.tkLen
  let (kck, kek_and_tk) ← splitAtChecked ptk kck_len
  let (kek, tk) ← splitAtChecked kek_and_tk kek_len
  let tk ← if tk_len ≤ tk.length then some (tk.take tk_len) else none
  some (kck, kek, tk)

end Verif
