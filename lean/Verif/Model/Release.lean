import Verif.Model.Crypto.CryptoHeader
import Verif.Model.Crypto.EapolSerde
import Verif.Model.Elements.RateMacros
import Verif.Model.Elements.Tim
import Verif.Model.Frames.Generic
/-!
# The functions that a release build compiles differently

Elsewhere this model describes a build with overflow checks and debug assertions.  In a release build integer
arithmetic wraps, the amount of a shift is taken modulo the width, and the setters that `bitfield-struct`
generates do not check their argument but cut off the bits that do not fit.  Here are the functions of the crate
with an operation that can overflow or a setter whose argument may not fit, as compiled without these checks.
Out of bounds indexing and slicing, `unwrap` and `assert!` panic in every build.  `usize` has 64 bits.
-/
namespace Verif

/-- `a - b` for `usize`, wrapping. -/
def wrappingSub (a b : Nat) : Nat := if b ≤ a then a - b else 2 ^ 64 + a - b

namespace Release

/-- `EncodedRate::from_rate_in_kbps`, /repo/src/elements/rates/mod.rs:36-38. -/
def fromRateInKbps (rate : Nat) (is_b : Bool) : EncodedRate :=
  ((⟨0⟩ : EncodedRate).with_rate ((BitVec.ofNat 8 (rate / 500)).setWidth 7)).with_is_b is_b

/-- `rate!(lit)` and `rate!(lit B)`, /repo/src/elements/rates/supported_rates.rs:125-142. -/
def rateMacro (lit : ℚ) (is_b : Bool) : EncodedRate :=
  fromRateInKbps (F32.asUsize (F32.toSigned (F32.toSigned lit * 1000))) is_b

/-- `AssociationID::new_unchecked`, /repo/src/common/aid.rs:37-39. -/
def newUnchecked (aid : BitVec 16) : AssociationID := AssociationID.new.with_internal_aid (aid.setWidth 14)

/-- `FrameControlField::with_frame_type`, /repo/src/common/mod.rs:124-125. -/
def withFrameType (f : FrameControlField) (t : FrameType) : FrameControlField :=
  f.with_frame_type (t.intoBits.setWidth 6)

/-- The fold of `VHTMCSMap::from_vht_mcs_iter`, /repo/src/elements/vht.rs:108-115, from index `i`: the `u8` is
shifted by `i * 2` modulo eight. -/
def foldSupport : Nat → BitVec 16 → List VHTMCSSupport → BitVec 16
  | _, acc, [] => acc
  | i, acc, s :: l => foldSupport (i + 1) (acc ||| (s.intoBits <<< (i * 2 % 8)).zeroExtend 16) l

/-- `VHTMCSMap::from_vht_mcs_iter`, /repo/src/elements/vht.rs:107-116. -/
def fromIter (l : List VHTMCSSupport) : VHTMCSMap := ⟨foldSupport 0 0 (l.take 8)⟩

/-- `aid_iter` driven to its end over the positions `is`, /repo/src/elements/tim.rs:275-283: the 16-bit addition
wraps. -/
def collectAids (bytes : Bytes) (n1 : Nat) : List Nat → Res (List AssociationID)
  | [] => .ok []
  | i :: is =>
    match bytes[i / 8]? with
    | none => .panic
    | some b => do
      let l ← collectAids bytes n1 is
      if b.getLsbD (i % 8) then
        pure ((AssociationID.newChecked (BitVec.ofNat 16 (n1 * 8) + BitVec.ofNat 16 i)).toList ++ l)
      else pure l

/-- `TIMBitmap::aid_iter` driven to its end, /repo/src/elements/tim.rs:274-284. -/
def aidIter (b : TIMBitmap) : Res (Option (List AssociationID)) :=
  match b.partial_virtual_bitmap with
  | none => .ok none
  | some bits => do
    let bytes ← bits.asBytes
    let l ← collectAids bytes b.bitmap_control.n1 (List.range' 1 (bytes.length * 8 - 1))
    pure (some l)

/-- `ControlFrame::get_fcf`, /repo/src/frames/control_frame/mod.rs:65-69. -/
def controlFcf (c : ControlFrame) : FrameControlField :=
  (withFrameType ⟨0⟩ (.Control c.getSubtype)).withFcfFlags c.getFcfFlags

/-- `DataFrameHeader::get_fcf`, /repo/src/frames/data_frame/header.rs:37-41. -/
def dataFcf (h : DataFrameHeader) : FrameControlField :=
  (withFrameType ⟨0⟩ (.Data h.subtype)).withFcfFlags h.fcf_flags

section
variable [ScrollRule]

/-- `strip_and_validate_fcs`, /repo/src/common/mod.rs:161-171: `split_at` panics when the index is outside. -/
def stripAndValidateFcs [Crc32] (bytes : Bytes) : Res Bytes := do
  let mid := wrappingSub bytes.length 4
  if bytes.length < mid then .panic
  else do
    let body := bytes.take mid
    let fcs := bytes.drop mid
    let v ← pread (readLE 32) 0 fcs
    if v = Crc32.hash body then pure body else .err .badInput

/-- `ManagementFrame::try_into_ctx`, /repo/src/frames/mgmt_frame/mod.rs:97-120. -/
def writeMgmtFrame [Crc32] (subtype : ManagementFrameSubtype) (h : ManagementFrameHeader) (body : Writer)
    (with_fcs : Bool) : Writer := Wr.run do
  Wr.gwrite (writeLE ((withFrameType ⟨0⟩ (.Management subtype)).withFcfFlags h.fcf_flags).bits)
  Wr.gwrite (writeMgmtHeader h)
  Wr.gwrite body
  if with_fcs then attachFcs else pure ()

/-- `DataFrame::try_into_ctx`, /repo/src/frames/data_frame/mod.rs:209-231. -/
def writeDataFrame [Crc32] (f : DataFrame Obj) (with_fcs : Bool) : Writer := Wr.run do
  Wr.gwrite (writeLE (dataFcf f.header).bits)
  Wr.gwrite (writeDataHeader f.header)
  Wr.opt f.payload fun p => p.write
  if with_fcs then attachFcs else pure ()

/-- `CryptoWrapper::try_from_ctx`, /repo/src/crypto/crypto_header.rs:134-158: slicing panics when the length is
too large. -/
def readCryptoWrapper {π : Type} (mic_state : MicState) (payload : Reader π) :
    Reader (CryptoWrapper π) := Rd.run do
  let crypto_header ← Rd.gread readCryptoHeader
  let rest ← Rd.remaining
  let n := wrappingSub rest.length mic_state.micLength
  let payload ← Rd.lift (if rest.length < n then .panic else pread payload 0 (rest.take n))
  Rd.toEnd
  pure { crypto_header, payload, mic_state }

/-- The decryption step of `deserialize_eapol_data_frame`, /repo/src/crypto/key_mgmt.rs:368-401. -/
def unwrapKeyData [AesKw] (kek : Option (Arr 16)) (buffer : Bytes) (tempLength start mic_len : Nat) : Res Bytes := do
  let length_offset := start + 81 + mic_len
  let key_data_length ← Res.mapErr .BufferTooShort (pread (readBE 16) length_offset buffer)
  let key_data ← slice buffer (length_offset + 2) key_data_length.toNat
  let kek ← Res.ofOption EapolSerdeError.MissingKey.code kek
  let plain_length := wrappingSub key_data_length.toNat 8
  if tempLength < plain_length then .panic
  else if key_data.length % 8 ≠ 0 ∨ key_data.length < 8 then
    .err EapolSerdeError.TemporaryBufferToShort.code
  else do
    let plain ← Res.ofOption EapolSerdeError.TemporaryBufferToShort.code (AesKw.unwrap kek key_data)
    let (buffer, _) ← Res.unwrap (pwrite (writeBE (key_data_length - 8)) length_offset buffer)
    let (buffer, _) ← Res.unwrap (pwrite (writeBytes plain) (length_offset + 2) buffer)
    let new_buffer_len := wrappingSub buffer.length 8
    if buffer.length < new_buffer_len then .panic
    else do
      let buffer := buffer.take new_buffer_len
      let n := wrappingSub (wrappingSub new_buffer_len start) 4
      let (buffer, _) ← Res.unwrap (pwrite (writeBE (BitVec.ofNat 16 n)) (start + 2) buffer)
      pure buffer

/-- `deserialize_eapol_data_frame` after the removal of the check sequence,
/repo/src/crypto/key_mgmt.rs:319-405. -/
def deserializeEapol [HmacSha1] [AesKw] (kck kek : Option (Arr 16)) (buffer : Bytes) (tempLength : Nat)
    (akm : IEEE80211AkmType) : Res (EapolKeyFrame Bytes) := do
  let header ← Res.mapErr .BufferTooShort (pread readDataHeader 0 buffer)
  let payload_offset := header.lengthInBytes
  let tail ← getFrom buffer (payload_offset + 6)
  let ether_type ← Res.mapErr .BufferTooShort (pread (readBE 16) 0 tail)
  if ether_type ≠ 0x888e#16 then .err EapolSerdeError.EtherTypeNotEapol.code
  else do
    let start := payload_offset + 8
    let tail ← slice buffer (start + 5) (buffer.length - (start + 5))
    let bits ← Res.mapErr .BufferTooShort (pread (readBE 16) 0 tail)
    let key_information : KeyInformation := ⟨bits⟩
    let mic_len ← Res.ofOption EapolSerdeError.UnknownAkmSuite.code akm.keyMicLen
    checkStep key_information kck buffer start mic_len
    let buffer ← (if key_information.encrypted_key_data = true then
      unwrapKeyData kek buffer tempLength start mic_len else .ok buffer)
    Res.mapErr .KeyFrameDeserializationFailure (pread (readEapolKeyFrame akm) start buffer)

/-- `deserialize_eapol_data_frame`, /repo/src/crypto/key_mgmt.rs:306-405: `get_mut` gives `None` when the end is
outside the buffer. -/
def deserializeEapolDataFrame [HmacSha1] [AesKw] (kck kek : Option (Arr 16)) (buffer : Bytes) (tempLength : Nat)
    (akm : IEEE80211AkmType) (with_fcs : Bool) : Res (EapolKeyFrame Bytes) :=
  if with_fcs then
    let n := wrappingSub buffer.length 4
    if buffer.length < n then .err EapolSerdeError.BufferTooShort.code
    else deserializeEapol kck kek (buffer.take n) tempLength akm
  else deserializeEapol kck kek buffer tempLength akm

end

end Release

end Verif
