import Verif.Model.Crypto.EapolSerde
/-!
# `/repo/src/crypto/key_mgmt.rs`: what the caller finds in the buffer afterwards

`deserialize_eapol_data_frame` and `serialize_eapol_data_frame` change the buffer they are given.
`Model/Crypto/EapolSerde.lean` gives only their results; here they are transcribed once more with the buffer as the
caller finds it afterwards, whether a value or an error was returned.  The views `buffer = &mut buffer[..n]` are a
length `n`: the function sees the first `n` bytes.  The one thing left out is the buffer after writing the frame
itself has failed.
-/
namespace Verif

/-- A function with a `&mut [u8]` argument: what it returns, and the bytes afterwards. -/
def InPlace (α : Type) := Bytes → Res α × Bytes

namespace InPlace

instance : Monad InPlace where
  pure a := fun b => (.ok a, b)
  bind x f := fun b =>
    match x b with
    | (.ok a, b') => f a b'
    | (.err e, b') => (.err e, b')
    | (.panic, b') => (.panic, b')

/-- An operation that only looks at the first `n` bytes. -/
def look {α : Type} (n : Nat) (f : Bytes → Res α) : InPlace α := fun b => (f (b.take n), b)

section
variable [ScrollRule]

/-- `buffer.pwrite(x, offset).unwrap()` where `buffer` is the first `n` bytes. -/
def edit (n : Nat) (w : Writer) (offset : Nat) : InPlace Unit := fun b =>
  match pwrite w offset (b.take n) with
  | .ok (v, _) => (.ok (), v ++ b.drop n)
  | _ => (.panic, b)

/-- The decryption step, /repo/src/crypto/key_mgmt.rs:368-401: the length of the view afterwards. -/
def unwrapKeyData [AesKw] (kek : Option (Arr 16)) (n tempLength start mic_len : Nat) : InPlace Nat := do
  let length_offset := start + 81 + mic_len
  let key_data_length ← look n fun b => Res.mapErr .BufferTooShort (pread (readBE 16) length_offset b)
  let key_data ← look n fun b => slice b (length_offset + 2) key_data_length.toNat
  let kek ← look n fun _ => Res.ofOption EapolSerdeError.MissingKey.code kek
  let plain_length ← look n fun _ => Res.sub key_data_length.toNat 8
  let plain ← look n fun _ =>
    if tempLength < plain_length then .panic
    else if key_data.length % 8 ≠ 0 ∨ key_data.length < 8 then
      .err EapolSerdeError.TemporaryBufferToShort.code
    else Res.ofOption EapolSerdeError.TemporaryBufferToShort.code (AesKw.unwrap kek key_data)
  edit n (writeBE (BitVec.ofNat 16 plain_length)) length_offset
  edit n (writeBytes plain) (length_offset + 2)
  let new_buffer_len ← look n fun b => Res.sub b.length 8
  let body ← look new_buffer_len fun _ => Res.sub new_buffer_len start
  let body ← look new_buffer_len fun _ => Res.sub body 4
  edit new_buffer_len (writeBE (BitVec.ofNat 16 body)) (start + 2)
  pure new_buffer_len

/-- `deserialize_eapol_data_frame` on the first `n` bytes, /repo/src/crypto/key_mgmt.rs:319-405. -/
def deserialize [HmacSha1] [AesKw] (kck kek : Option (Arr 16)) (n tempLength : Nat) (akm : IEEE80211AkmType) :
    InPlace (EapolKeyFrame Bytes) := do
  let header ← look n fun b => Res.mapErr .BufferTooShort (pread readDataHeader 0 b)
  let payload_offset := header.lengthInBytes
  let tail ← look n fun b => getFrom b (payload_offset + 6)
  let ether_type ← look n fun _ => Res.mapErr .BufferTooShort (pread (readBE 16) 0 tail)
  if ether_type ≠ 0x888e#16 then look n fun _ => .err EapolSerdeError.EtherTypeNotEapol.code
  else do
    let start := payload_offset + 8
    let tail ← look n fun b => slice b (start + 5) (b.length - (start + 5))
    let bits ← look n fun _ => Res.mapErr .BufferTooShort (pread (readBE 16) 0 tail)
    let key_information : KeyInformation := ⟨bits⟩
    let mic_len ← look n fun _ => Res.ofOption EapolSerdeError.UnknownAkmSuite.code akm.keyMicLen
    look n fun b => checkStep key_information kck b start mic_len
    let n ← (if key_information.encrypted_key_data = true then unwrapKeyData kek n tempLength start mic_len
      else pure n)
    look n fun b => Res.mapErr .KeyFrameDeserializationFailure (pread (readEapolKeyFrame akm) start b)

/-- `deserialize_eapol_data_frame`, /repo/src/crypto/key_mgmt.rs:306-405. -/
def deserializeEapolDataFrame [HmacSha1] [AesKw] (kck kek : Option (Arr 16)) (tempLength : Nat)
    (akm : IEEE80211AkmType) (with_fcs : Bool) : InPlace (EapolKeyFrame Bytes) := fun b =>
  if with_fcs then
    match Res.sub b.length 4 with
    | .ok n => deserialize kck kek n tempLength akm b
    | .err e => (.err e, b)
    | .panic => (.panic, b)
  else deserialize kck kek b.length tempLength akm b

/-- An operation that looks at the whole buffer. -/
def see {α : Type} (f : Bytes → Res α) : InPlace α := fun b => (f b, b)

/-- An operation that changes the buffer as a whole or not at all. -/
def change (f : Bytes → Res Bytes) : InPlace Unit := fun b =>
  match f b with
  | .ok b' => (.ok (), b')
  | .err e => (.err e, b)
  | .panic => (.panic, b)

/-- The encryption step, /repo/src/crypto/key_mgmt.rs:252-293: the number of bytes written. -/
def wrapKeyData [AesKw] (kek : Option (Arr 16)) (tempLength written key_data_length
    key_data_length_start key_data_start mic_len eapol_frame_start : Nat) : InPlace Nat := do
  let padded := paddedKeyDataLength key_data_length
  see fun b =>
    if b.length < key_data_start then .panic
    else if b.length < key_data_start + padded then .err EapolSerdeError.BufferTooShort.code
    else .ok ()
  change fun b => padInBuffer b key_data_start key_data_length padded
  let padded_key_data ← see fun b => slice b key_data_start padded
  let kek ← see fun _ => Res.ofOption EapolSerdeError.MissingKey.code kek
  see fun b =>
    if tempLength < padded + 8 then .panic
    else if padded % 8 ≠ 0 then .err EapolSerdeError.TemporaryBufferToShort.code
    else if b.length < key_data_start + (padded + 8) then .err EapolSerdeError.BufferTooShort.code
    else .ok ()
  change fun b => copyInto b key_data_start (AesKw.wrap kek padded_key_data)
  let more ← see fun _ => Res.sub (padded + 8) key_data_length
  change fun b => .ok (pwriteIgnore (BitVec.ofNat 16 (padded + 8)) key_data_length_start b)
  change fun b => .ok (pwriteIgnore (BitVec.ofNat 16 (77 + mic_len + 2 + (padded + 8))) (eapol_frame_start + 2) b)
  pure (written + more)

/-- `serialize_eapol_data_frame` once the frame has been written, /repo/src/crypto/key_mgmt.rs:247-301. -/
def protect [HmacSha1] [AesKw] (kck kek : Option (Arr 16)) (key_information : KeyInformation) (tempLength written
    mic_start mic_end length_start length_end key_data_start mic_len eapol_frame_start : Nat) : InPlace Nat := do
  let length_bytes ← see fun b => slice b length_start (length_end - length_start)
  let key_data_length ← see fun _ => Res.unwrap (pread (readBE 16) 0 length_bytes)
  let written ← (if key_data_length.toNat ≠ 0 ∧ key_information.encrypted_key_data = true then
      wrapKeyData kek tempLength written key_data_length.toNat length_start key_data_start mic_len eapol_frame_start
    else pure written)
  change fun b => micStep key_information kck b written eapol_frame_start mic_start mic_end
  pure written

/-- `serialize_eapol_data_frame`, /repo/src/crypto/key_mgmt.rs:205-302.  There is no buffer in the result if writing
the frame fails. -/
def serializeEapolDataFrame [Crc32] [HmacSha1] [AesKw] (kck kek : Option (Arr 16)) (f : EapolDataFrame Obj)
    (tempLength : Nat) (buffer : Bytes) : Res Nat × Option Bytes :=
  if tempLength < 24 then (.err EapolSerdeError.TemporaryBufferToShort.code, some buffer)
  else
    match f.eapolMicRange, f.payload, f.eapolKeyDataLengthRange, f.eapolKeyDataRange with
    | some (mic_start, mic_end), some snap, some (length_start, length_end), some key_data_start =>
      match pwrite (writeDataFrame f.obj false) 0 buffer with
      | .ok (buffer, written) =>
        let r := protect kck kek snap.payload.key_information tempLength written mic_start mic_end length_start
          length_end key_data_start snap.payload.key_mic.length (f.header.lengthInBytes + 8) buffer
        (r.1, some r.2)
      | .err _ => (.err EapolSerdeError.BufferTooShort.code, none)
      | .panic => (.panic, none)
    | _, _, _, _ => (.err EapolSerdeError.NoPayload.code, some buffer)

end

end InPlace

end Verif
