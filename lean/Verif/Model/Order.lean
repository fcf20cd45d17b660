import Verif.Model.Crypto.CryptoHeader
import Verif.Model.Crypto.Eapol
import Verif.Model.Elements.Simple
/-!
# The derived `Ord`

A derived `cmp` compares the fields in the order of their declaration and stops at the first that differ; of an
enumeration, a variant declared earlier is less.  `serializable_enum!` of `macro-bits` declares `Unknown` after the
listed variants.  Arrays and slices compare item by item from the front.  Left out are the two marker types of
/repo/src/elements/ssid.rs, which have one value each, and `KeyManagementError`.
-/
namespace Verif

/-- `Ord` of the unsigned integers. -/
def cmpBits {w : Nat} (a b : BitVec w) : Ordering := compare a.toNat b.toNat

/-- `Ord` of `[u8]` and of `[u8; N]`. -/
def cmpBytes : Bytes → Bytes → Ordering
  | [], [] => .eq
  | [], _ :: _ => .lt
  | _ :: _, [] => .gt
  | x :: xs, y :: ys => (cmpBits x y).then (cmpBytes xs ys)

/-- Derived for `IBSSParameterSetElement`, /repo/src/elements/ibss_parameter_set.rs:13-19. -/
def IBSSParameterSetElement.cmp (a b : IBSSParameterSetElement) : Ordering := cmpBits a.atim_window b.atim_window

/-- Derived for `CryptoHeader`, /repo/src/crypto/crypto_header.rs:8-15. -/
def CryptoHeader.cmp (a b : CryptoHeader) : Ordering :=
  (cmpBytes a.packetNumber.val b.packetNumber.val).then (cmpBits a.keyId b.keyId)

/-- The position of a variant of `MicState`, /repo/src/crypto/crypto_header.rs:102-109. -/
def MicState.position : MicState → Nat
  | .NotPresent => 0
  | .Short => 1
  | .Long => 2

/-- Derived for `MicState`, /repo/src/crypto/crypto_header.rs:100-109. -/
def MicState.cmp (a b : MicState) : Ordering := compare a.position b.position

/-- Derived for `CryptoWrapper`, /repo/src/crypto/crypto_header.rs:121-133, given that of the payload. -/
def CryptoWrapper.cmp {π : Type} (c : π → π → Ordering) (a b : CryptoWrapper π) : Ordering :=
  (a.crypto_header.cmp b.crypto_header).then ((c a.payload b.payload).then (a.mic_state.cmp b.mic_state))

/-- Derived for `PotentiallyWrappedPayload`, /repo/src/frames/data_frame/mod.rs:72-79. -/
def PotentiallyWrappedPayload.cmp {π : Type} (c : π → π → Ordering) :
    PotentiallyWrappedPayload π → PotentiallyWrappedPayload π → Ordering
  | .Unwrapped p, .Unwrapped q => c p q
  | .Unwrapped _, .CryptoWrapped _ => .lt
  | .CryptoWrapped _, .Unwrapped _ => .gt
  | .CryptoWrapped v, .CryptoWrapped w => CryptoWrapper.cmp c v w

/-- The position of a variant of `KeyDescriptorVersion`, /repo/src/crypto/eapol.rs:21-29. -/
def KeyDescriptorVersion.position : KeyDescriptorVersion → Nat
  | .Rc4HmacMd5 => 0
  | .AesHmacSha1 => 1
  | .AesCmac => 2
  | .Unknown _ => 3

/-- Derived for `KeyDescriptorVersion`, /repo/src/crypto/eapol.rs:18-30. -/
def KeyDescriptorVersion.cmp : KeyDescriptorVersion → KeyDescriptorVersion → Ordering
  | .Unknown x, .Unknown y => cmpBits x y
  | a, b => compare a.position b.position

/-- Derived for `KeyInformation`, a structure around a `u16`, /repo/src/crypto/eapol.rs:32-34. -/
def KeyInformation.cmp (a b : KeyInformation) : Ordering := cmpBits a.bits b.bits

/-- Derived for `EapolKeyFrame`, /repo/src/crypto/eapol.rs:74-94, given that of the key data; the MIC is a slice or an
array. -/
def EapolKeyFrame.cmp {κ : Type} (c : κ → κ → Ordering) (a b : EapolKeyFrame κ) : Ordering :=
  (a.key_information.cmp b.key_information).then <|
  (cmpBits a.key_length b.key_length).then <|
  (cmpBits a.key_replay_counter b.key_replay_counter).then <|
  (cmpBytes a.key_nonce.val b.key_nonce.val).then <|
  (cmpBits a.key_iv b.key_iv).then <|
  (cmpBits a.key_rsc b.key_rsc).then <|
  (cmpBytes a.key_mic b.key_mic).then <|
  c a.key_data b.key_data

end Verif
