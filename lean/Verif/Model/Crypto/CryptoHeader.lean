import Verif.Model.Frames.Data
/-!
# `/repo/src/crypto/crypto_header.rs` and the crypto wrapping of `/repo/src/frames/data_frame/mod.rs`
-/
namespace Verif

/-- `CryptoHeader`, /repo/src/crypto/crypto_header.rs:12-15.  The fields are private, so values come
from `new`, from parsing, or from `Default`. -/
structure CryptoHeader where
  packetNumber : Arr 6
  keyId : Byte
  deriving DecidableEq

namespace CryptoHeader

/-- `MAX_PN`, /repo/src/crypto/crypto_header.rs:20. -/
def MAX_PN : BitVec 64 := 2 ^ 48 - 1
/-- `MAX_KEY_ID`, /repo/src/crypto/crypto_header.rs:22. -/
def MAX_KEY_ID : Byte := 2 ^ 2 - 1

/-- `pn_and_key_id_valid`, /repo/src/crypto/crypto_header.rs:35-37. -/
def pnAndKeyIdValid (packet_number : BitVec 64) (key_id : Byte) : Bool :=
  decide (packet_number ≤ MAX_PN) || decide (key_id ≤ MAX_KEY_ID)

/-- `new`, /repo/src/crypto/crypto_header.rs:28-33. -/
def new (packet_number : BitVec 64) (key_id : Byte) : Option CryptoHeader :=
  if pnAndKeyIdValid packet_number key_id then
    some ⟨⟨(toLE packet_number).take 6, by simp⟩, key_id⟩
  else none

/-- `packet_number`, /repo/src/crypto/crypto_header.rs:41-45. -/
def packet_number (h : CryptoHeader) : BitVec 64 := fromLE 64 (h.packetNumber.val ++ [0, 0])

/-- `key_id`, /repo/src/crypto/crypto_header.rs:49-51. -/
def key_id (h : CryptoHeader) : Byte := h.keyId

/-- `Default`, /repo/src/crypto/crypto_header.rs:8. -/
def default : CryptoHeader := ⟨Arr.zero 6, 0⟩

end CryptoHeader

variable [ScrollRule]

/-- `CryptoHeader::try_from_ctx`, /repo/src/crypto/crypto_header.rs:53-80. -/
def readCryptoHeader : Reader CryptoHeader := Rd.run do
  let header ← Rd.gread (readArr 8)
  if !(header.val.getD 3 0).getLsbD 5 then Rd.fail .badInput
  else pure ⟨⟨header.val.take 2 ++ header.val.drop 4, by simp⟩, header.val.getD 3 0 <<< 6⟩

/-- `CryptoHeader::try_into_ctx`, /repo/src/crypto/crypto_header.rs:81-93. -/
def writeCryptoHeader (h : CryptoHeader) : Writer := Wr.run do
  Wr.gwrite (writeBytes (h.packetNumber.val.take 2))
  Wr.gwrite (writeU8 0)
  Wr.gwrite (writeU8 (0x20#8 ||| (h.keyId <<< 6)))
  Wr.gwrite (writeBytes (h.packetNumber.val.drop 2))

/-- `CryptoHeader::measure_with`, /repo/src/crypto/crypto_header.rs:94-98. -/
def measureCryptoHeader (_ : CryptoHeader) : Nat := 8

/-- `MicState`, /repo/src/crypto/crypto_header.rs:102-109. -/
inductive MicState where
  | NotPresent
  | Short
  | Long
  deriving DecidableEq, Repr

/-- `mic_length`, /repo/src/crypto/crypto_header.rs:112-118. -/
def MicState.micLength : MicState → Nat
  | .NotPresent => 0
  | .Short => 8
  | .Long => 16

/-- `CryptoWrapper`, /repo/src/crypto/crypto_header.rs:126-133. -/
structure CryptoWrapper (π : Type) where
  crypto_header : CryptoHeader
  payload : π
  mic_state : MicState
  deriving DecidableEq

/-- `CryptoWrapper::try_from_ctx`, /repo/src/crypto/crypto_header.rs:134-158.  The length of the payload
is computed with an unchecked subtraction. -/
def readCryptoWrapper {π : Type} (mic_state : MicState) (payload : Reader π) :
    Reader (CryptoWrapper π) := Rd.run do
  let crypto_header ← Rd.gread readCryptoHeader
  let rest ← Rd.remaining
  let n ← Rd.lift (Res.sub rest.length mic_state.micLength)
  let payload ← Rd.lift (pread payload 0 (rest.take n))
  Rd.toEnd
  pure { crypto_header, payload, mic_state }

/-- `buf[offset..][..n].fill(0); offset += n`, /repo/src/crypto/crypto_header.rs:168-169; panics when the
buffer is too short. -/
def fillZeros (n : Nat) : Wr Unit := fun buf off =>
  if off + n ≤ buf.length then
    .ok ((), buf.take off ++ List.replicate n 0 ++ buf.drop (off + n), off + n)
  else .panic

/-- `CryptoWrapper::try_into_ctx`, /repo/src/crypto/crypto_header.rs:159-173. -/
def writeCryptoWrapper (c : CryptoWrapper Obj) : Writer := Wr.run do
  Wr.gwrite (writeCryptoHeader c.crypto_header)
  Wr.gwrite c.payload.write
  fillZeros c.mic_state.micLength

/-- `CryptoWrapper::measure_with`, /repo/src/crypto/crypto_header.rs:174-180. -/
def measureCryptoWrapper (c : CryptoWrapper Obj) : Nat :=
  measureCryptoHeader c.crypto_header + c.payload.measure + c.mic_state.micLength

/-- A wrapped payload as something to write. -/
def cryptoWrapperObj (c : CryptoWrapper Obj) : Obj := ⟨writeCryptoWrapper c, measureCryptoWrapper c⟩

/-- `PotentiallyWrappedPayload`, /repo/src/frames/data_frame/mod.rs:74-79. -/
inductive PotentiallyWrappedPayload (π : Type) where
  | Unwrapped (p : π)
  | CryptoWrapped (w : CryptoWrapper π)
  deriving DecidableEq

/-- `payload`, /repo/src/frames/data_frame/mod.rs:84-90. -/
def PotentiallyWrappedPayload.payload {π : Type} : PotentiallyWrappedPayload π → π
  | .Unwrapped p => p
  | .CryptoWrapped w => w.payload

/-- An assignment through `payload_mut`, /repo/src/frames/data_frame/mod.rs:92-98. -/
def PotentiallyWrappedPayload.setPayload {π : Type} (x : π) :
    PotentiallyWrappedPayload π → PotentiallyWrappedPayload π
  | .Unwrapped _ => .Unwrapped x
  | .CryptoWrapped w => .CryptoWrapped { w with payload := x }

/-- `potentially_wrapped_payload`, /repo/src/frames/data_frame/mod.rs:132-148. -/
def potentiallyWrappedPayload (f : DataFrame Bytes) (mic_state : Option MicState) :
    Res (Option (PotentiallyWrappedPayload DataFrameReadPayload)) :=
  match f.payload with
  | none => .ok none
  | some payload =>
    if f.header.fcf_flags.protected_ then
      match mic_state with
      | none => .ok none
      | some m => do
        let w ← (pread (readCryptoWrapper m (readDataFramePayload f.header.isAmsdu)) 0 payload).unwrap
        pure (some (.CryptoWrapped w))
    else do
      match ← (pread (readDataFramePayload f.header.isAmsdu) 0 payload).toOption with
      | some p => pure (some (.Unwrapped p))
      | none => pure none

omit [ScrollRule] in
/-- `crypto_wrap`, /repo/src/frames/data_frame/mod.rs:153-170. -/
def cryptoWrap {π : Type} (f : DataFrame π) (crypto_header : CryptoHeader) (mic_state : MicState) :
    DataFrame (CryptoWrapper π) where
  header := { f.header with fcf_flags := f.header.fcf_flags.with_protected_ true }
  payload := f.payload.map fun payload => { crypto_header, payload, mic_state }

end Verif
