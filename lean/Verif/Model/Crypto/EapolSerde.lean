import Verif.Model.Crypto.Eapol
import Verif.Model.Crypto.KeyMgmt
import Verif.Model.Crypto.Michael
/-!
# `/repo/src/crypto/key_mgmt.rs`: protected EAPOL frames

AES key wrap comes from the crate `aes-kw` and is not modelled: it is a parameter.  What is assumed of it is
in the class below: `wrap` refuses data whose length is not a multiple of eight and otherwise gives eight
bytes more; `unwrap` refuses lengths that are not a multiple of eight, the length zero, and data that fails
the integrity check, and otherwise gives eight bytes less.  Of the temporary buffer only the length matters,
since whatever is read from it has been written before in the same call.  When an error is returned the
contents of the buffer are not modelled.
-/
namespace Verif

/-- `KekAes128` of `aes-kw`. -/
class AesKw where
  wrap : (kek : Arr 16) → (data : Bytes) → Bytes
  unwrap : (kek : Arr 16) → (data : Bytes) → Option Bytes
  wrap_length : ∀ kek data, data.length % 8 = 0 → (wrap kek data).length = data.length + 8
  unwrap_length : ∀ kek data plain, unwrap kek data = some plain → plain.length + 8 = data.length

/-- `wrap_with_padding` of `aes-kw`, for data of less than 2^32 bytes. -/
class AesKwp where
  wrapPadded : (kek : Arr 16) → (data : Bytes) → Bytes

/-- `KeyManagementError`, /repo/src/crypto/key_mgmt.rs:157-164. -/
inductive KeyManagementError
  | InvalidKeyLength | InvalidOutputLength | ScratchBufferTooShort
  deriving DecidableEq

/-- `wrap_eapol_key_data`, /repo/src/crypto/key_mgmt.rs:169-178.  `aes-kw` refuses an output slice whose length
is not that of the data, rounded up to a multiple of eight, and eight; the result is the new output slice. -/
def wrapEapolKeyData [AesKwp] (kek : Arr 16) (key_data output : Bytes) : Except KeyManagementError Bytes :=
  if output.length = 8 * ((key_data.length + 7) / 8) + 8 then .ok (AesKwp.wrapPadded kek key_data)
  else .error .InvalidOutputLength

/-- `EapolSerdeError`, /repo/src/crypto/key_mgmt.rs:183-200. -/
inductive EapolSerdeError
  | BufferTooShort | TemporaryBufferToShort | NoPayload | MissingKey | KeyFrameDeserializationFailure
  | UnknownAkmSuite | InvalidMic | EtherTypeNotEapol
  deriving DecidableEq

/-- The error as an `Err`. -/
def EapolSerdeError.code : EapolSerdeError → Err
  | .BufferTooShort => .other 0
  | .TemporaryBufferToShort => .other 1
  | .NoPayload => .other 2
  | .MissingKey => .other 3
  | .KeyFrameDeserializationFailure => .other 4
  | .UnknownAkmSuite => .other 5
  | .InvalidMic => .other 6
  | .EtherTypeNotEapol => .other 7

/-- `map_err(|_| e)`. -/
def Res.mapErr {α : Type} (e : EapolSerdeError) : Res α → Res α
  | .ok a => .ok a
  | .err _ => .err e.code
  | .panic => .panic

/-- `buffer[at..][..bs.len()].copy_from_slice(bs)`. -/
def copyInto (buffer : Bytes) (position : Nat) (bs : Bytes) : Res Bytes :=
  if position + bs.length ≤ buffer.length then
    .ok (buffer.take position ++ bs ++ buffer.drop (position + bs.length))
  else .panic

section
variable [ScrollRule]

/-- `let _ = buffer.pwrite_with(x, position, Endian::Big)`. -/
def pwriteIgnore (x : BitVec 16) (position : Nat) (buffer : Bytes) : Bytes :=
  match pwrite (writeBE x) position buffer with
  | .ok (b, _) => b
  | _ => buffer

/-- The padded length, /repo/src/crypto/key_mgmt.rs:253-259. -/
def paddedKeyDataLength (n : Nat) : Nat :=
  if n < 16 then 16 else if n % 8 ≠ 0 then n / 8 * 8 + 8 else n

/-- The padding, /repo/src/crypto/key_mgmt.rs:264-267. -/
def padInBuffer (buffer : Bytes) (key_data_start key_data_length padded : Nat) : Res Bytes :=
  if padded ≠ key_data_length then
    copyInto buffer (key_data_start + key_data_length) (0xdd :: List.replicate (padded - (key_data_length + 1)) 0)
  else .ok buffer

/-- The encryption step of `serialize_eapol_data_frame`, /repo/src/crypto/key_mgmt.rs:252-293: the buffer
and the number of bytes written. -/
def wrapKeyData [AesKw] (kek : Option (Arr 16)) (buffer : Bytes) (tempLength written key_data_length
    key_data_length_start key_data_start mic_len eapol_frame_start : Nat) : Res (Bytes × Nat) := do
  let padded := paddedKeyDataLength key_data_length
  if buffer.length < key_data_start then .panic
  else if buffer.length < key_data_start + padded then .err EapolSerdeError.BufferTooShort.code
  else do
    let buffer ← padInBuffer buffer key_data_start key_data_length padded
    let padded_key_data ← slice buffer key_data_start padded
    let kek ← Res.ofOption EapolSerdeError.MissingKey.code kek
    if tempLength < padded + 8 then .panic
    else if padded % 8 ≠ 0 then .err EapolSerdeError.TemporaryBufferToShort.code
    else do
      let wrapped := AesKw.wrap kek padded_key_data
      if buffer.length < key_data_start + (padded + 8) then .err EapolSerdeError.BufferTooShort.code
      else do
        let buffer ← copyInto buffer key_data_start wrapped
        let more ← Res.sub (padded + 8) key_data_length
        let buffer := pwriteIgnore (BitVec.ofNat 16 (padded + 8)) key_data_length_start buffer
        let buffer := pwriteIgnore (BitVec.ofNat 16 (77 + mic_len + 2 + (padded + 8))) (eapol_frame_start + 2) buffer
        pure (buffer, written + more)

/-- The MIC step of `serialize_eapol_data_frame`, /repo/src/crypto/key_mgmt.rs:294-300.
`copy_from_slice` panics unless the MIC field has 16 bytes. -/
def insertMic [HmacSha1] (kck : Option (Arr 16)) (buffer : Bytes) (written eapol_frame_start mic_start
    mic_end : Nat) : Res Bytes := do
  let kck ← Res.ofOption EapolSerdeError.MissingKey.code kck
  let n ← Res.sub written eapol_frame_start
  let message ← slice buffer eapol_frame_start n
  let mic := (HmacSha1.hmac kck.val message).val.take 16
  if mic_end - mic_start ≠ 16 then .panic
  else copyInto buffer mic_start mic

/-- The condition of the encryption step, /repo/src/crypto/key_mgmt.rs:252. -/
def wrapStep [AesKw] (key_information : KeyInformation) (kek : Option (Arr 16)) (buffer : Bytes) (tempLength written
    key_data_length key_data_length_start key_data_start mic_len eapol_frame_start : Nat) : Res (Bytes × Nat) :=
  if key_data_length ≠ 0 ∧ key_information.encrypted_key_data = true then
    wrapKeyData kek buffer tempLength written key_data_length key_data_length_start key_data_start mic_len
      eapol_frame_start
  else .ok (buffer, written)

/-- The condition of the MIC step, /repo/src/crypto/key_mgmt.rs:294. -/
def micStep [HmacSha1] (key_information : KeyInformation) (kck : Option (Arr 16)) (buffer : Bytes) (written
    eapol_frame_start mic_start mic_end : Nat) : Res Bytes :=
  if key_information.key_mic = true then insertMic kck buffer written eapol_frame_start mic_start mic_end
  else .ok buffer

/-- `serialize_eapol_data_frame`, /repo/src/crypto/key_mgmt.rs:205-302: the buffer and the number of bytes
written. -/
def serializeEapolDataFrame [Crc32] [HmacSha1] [AesKw] (kck kek : Option (Arr 16)) (f : EapolDataFrame Obj)
    (buffer : Bytes) (tempLength : Nat) : Res (Bytes × Nat) :=
  if tempLength < 24 then .err EapolSerdeError.TemporaryBufferToShort.code
  else do
    let (mic_start, mic_end) ← Res.ofOption EapolSerdeError.NoPayload.code f.eapolMicRange
    let snap ← Res.ofOption EapolSerdeError.NoPayload.code f.payload
    let mic_len := snap.payload.key_mic.length
    let (length_start, length_end) ← Res.ofOption EapolSerdeError.NoPayload.code f.eapolKeyDataLengthRange
    let key_data_start ← Res.ofOption EapolSerdeError.NoPayload.code f.eapolKeyDataRange
    let key_information := snap.payload.key_information
    let eapol_frame_start := f.header.lengthInBytes + 8
    let (buffer, written) ← Res.mapErr .BufferTooShort (pwrite (writeDataFrame f.obj false) 0 buffer)
    let length_bytes ← slice buffer length_start (length_end - length_start)
    let key_data_length ← Res.unwrap (pread (readBE 16) 0 length_bytes)
    let (buffer, written) ← wrapStep key_information kek buffer tempLength written key_data_length.toNat
      length_start key_data_start mic_len eapol_frame_start
    let buffer ← micStep key_information kck buffer written eapol_frame_start mic_start mic_end
    pure (buffer, written)

/-- `buffer.get(position..)`. -/
def getFrom (buffer : Bytes) (position : Nat) : Res Bytes :=
  if position ≤ buffer.length then .ok (buffer.drop position) else .err EapolSerdeError.BufferTooShort.code

/-- `buffer.get(position..position + n)`. -/
def getRange (buffer : Bytes) (position n : Nat) : Res Bytes :=
  if position + n ≤ buffer.length then .ok ((buffer.drop position).take n)
  else .err EapolSerdeError.BufferTooShort.code

/-- The MIC check of `deserialize_eapol_data_frame`, /repo/src/crypto/key_mgmt.rs:344-367. -/
def checkMic [HmacSha1] (kck : Option (Arr 16)) (buffer : Bytes) (start mic_len : Nat) : Res Unit := do
  let kck ← Res.ofOption EapolSerdeError.MissingKey.code kck
  let before ← getRange buffer start 81
  let after ← getFrom buffer (start + 81 + mic_len)
  let provided_mic ← slice buffer (start + 81) mic_len
  let calculated_mic :=
    (HmacSha1.hmac kck.val (before ++ List.replicate (8 * (mic_len / 8)) 0 ++ after)).val
  if 20 < mic_len then .panic
  else if calculated_mic.take mic_len ≠ provided_mic then .err EapolSerdeError.InvalidMic.code
  else pure ()

/-- The decryption step of `deserialize_eapol_data_frame`, /repo/src/crypto/key_mgmt.rs:368-401: the buffer
afterwards. -/
def unwrapKeyData [AesKw] (kek : Option (Arr 16)) (buffer : Bytes) (tempLength start mic_len : Nat) : Res Bytes := do
  let length_offset := start + 81 + mic_len
  let key_data_length ← Res.mapErr .BufferTooShort (pread (readBE 16) length_offset buffer)
  let key_data ← slice buffer (length_offset + 2) key_data_length.toNat
  let kek ← Res.ofOption EapolSerdeError.MissingKey.code kek
  let plain_length ← Res.sub key_data_length.toNat 8
  if tempLength < plain_length then .panic
  else if key_data.length % 8 ≠ 0 ∨ key_data.length < 8 then
    .err EapolSerdeError.TemporaryBufferToShort.code
  else do
    let plain ← Res.ofOption EapolSerdeError.TemporaryBufferToShort.code (AesKw.unwrap kek key_data)
    let (buffer, _) ← Res.unwrap (pwrite (writeBE (BitVec.ofNat 16 plain_length)) length_offset buffer)
    let (buffer, _) ← Res.unwrap (pwrite (writeBytes plain) (length_offset + 2) buffer)
    let new_buffer_len ← Res.sub buffer.length 8
    let buffer := buffer.take new_buffer_len
    let n ← Res.sub new_buffer_len start
    let n ← Res.sub n 4
    let (buffer, _) ← Res.unwrap (pwrite (writeBE (BitVec.ofNat 16 n)) (start + 2) buffer)
    pure buffer

/-- The condition of the MIC check, /repo/src/crypto/key_mgmt.rs:344. -/
def checkStep [HmacSha1] (key_information : KeyInformation) (kck : Option (Arr 16)) (buffer : Bytes)
    (start mic_len : Nat) : Res Unit :=
  if key_information.key_mic = true then checkMic kck buffer start mic_len else .ok ()

/-- The condition of the decryption step, /repo/src/crypto/key_mgmt.rs:368. -/
def unwrapStep [AesKw] (key_information : KeyInformation) (kek : Option (Arr 16)) (buffer : Bytes)
    (tempLength start mic_len : Nat) : Res Bytes :=
  if key_information.encrypted_key_data = true then unwrapKeyData kek buffer tempLength start mic_len
  else .ok buffer

/-- `deserialize_eapol_data_frame` after the removal of the check sequence,
/repo/src/crypto/key_mgmt.rs:319-405.  The first slice operator panics when the frame ends before the key
information. -/
def deserializeEapol [HmacSha1] [AesKw] (kck kek : Option (Arr 16)) (buffer : Bytes) (tempLength : Nat)
    (akm : IEEE80211AkmType) : Res (EapolKeyFrame Bytes) := do
  let header ← Res.mapErr .BufferTooShort (pread readDataHeader 0 buffer)
  let payload_offset := header.lengthInBytes
  let tail ← getFrom buffer (payload_offset + 6)
  let ether_type ← Res.mapErr .BufferTooShort (pread (readBE 16) 0 tail)
  if ether_type ≠ 0x888e#16 then .err EapolSerdeError.EtherTypeNotEapol.code
  else do
    let start := payload_offset + 8
    let tail ← slice buffer (start + 5) (buffer.length - (start + 5))
    let bits ← Res.mapErr .BufferTooShort (pread (readBE 16) 0 tail)
    let key_information : KeyInformation := ⟨bits⟩
    let mic_len ← Res.ofOption EapolSerdeError.UnknownAkmSuite.code akm.keyMicLen
    checkStep key_information kck buffer start mic_len
    let buffer ← unwrapStep key_information kek buffer tempLength start mic_len
    Res.mapErr .KeyFrameDeserializationFailure (pread (readEapolKeyFrame akm) start buffer)

/-- `deserialize_eapol_data_frame`, /repo/src/crypto/key_mgmt.rs:306-405.  The check sequence is cut off and
not looked at; cutting it off panics on less than four bytes. -/
def deserializeEapolDataFrame [HmacSha1] [AesKw] (kck kek : Option (Arr 16)) (buffer : Bytes) (tempLength : Nat)
    (akm : IEEE80211AkmType) (with_fcs : Bool) : Res (EapolKeyFrame Bytes) :=
  if with_fcs then do
    let n ← Res.sub buffer.length 4
    deserializeEapol kck kek (buffer.take n) tempLength akm
  else deserializeEapol kck kek buffer tempLength akm

end

end Verif
