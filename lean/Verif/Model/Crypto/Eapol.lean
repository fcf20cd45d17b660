import Verif.Model.Elements.Rsn
import Verif.Model.Frames.Data
/-!
# `/repo/src/crypto/eapol.rs`

`KeyDescriptorVersion` and `KeyInformation` are in `Model/ElementTypes.lean`.
`SnapLlcFrame` comes from the crate `llc-rs`, which is not part of the repository: it is modelled as the
eight-byte LLC/SNAP header AA AA 03, the OUI, the ethertype in big-endian order, and then the payload.
-/
namespace Verif

/-- `EapolKeyFrame`, /repo/src/crypto/eapol.rs:76-94; `κ` is `Obj` when written and `Bytes` when read. -/
structure EapolKeyFrame (κ : Type) where
  key_information : KeyInformation
  key_length : BitVec 16
  key_replay_counter : BitVec 64
  key_nonce : Arr 32
  key_iv : BitVec 128
  key_rsc : BitVec 64
  key_mic : Bytes
  key_data : κ
  deriving DecidableEq

section
variable [ScrollRule]

/-- The part read from the whole input, /repo/src/crypto/eapol.rs:101-111; the version is not looked at. -/
def readEapolStart : Rd (BitVec 16) := do
  let _protocol_version ← Rd.gread readU8
  let packet_type ← Rd.gread readU8
  if packet_type ≠ 3 then Rd.fail .badInput
  else Rd.gread (readBE 16)

/-- The part read from the packet body, /repo/src/crypto/eapol.rs:113-151. -/
def readEapolBody (akm : IEEE80211AkmType) : Rd (EapolKeyFrame Bytes) := do
  let descriptor_type ← Rd.gread readU8
  if descriptor_type ≠ 2 then Rd.fail .badInput
  else do
    let key_information ← Rd.gread (readBE 16)
    let key_length ← Rd.gread (readBE 16)
    let key_replay_counter ← Rd.gread (readBE 64)
    let key_nonce ← Rd.gread (readArr 32)
    let key_iv ← Rd.gread (readBE 128)
    let key_rsc ← Rd.gread (readBE 64)
    Rd.advance 8
    let key_mic_len ← Rd.lift (Res.ofOption .badInput akm.keyMicLen)
    let key_mic ← Rd.gread (readBytes key_mic_len)
    let key_data_length ← Rd.gread (readBE 16)
    let key_data ← Rd.gread (readBytes key_data_length.toNat)
    pure { key_information := ⟨key_information⟩, key_length, key_replay_counter, key_nonce, key_iv, key_rsc,
           key_mic, key_data }

/-- `EapolKeyFrame::try_from_ctx`, /repo/src/crypto/eapol.rs:95-153. -/
def readEapolKeyFrame (akm : IEEE80211AkmType) : Reader (EapolKeyFrame Bytes) := fun inp => do
  let (packet_body_length, offset) ← readEapolStart inp 0
  let packet_body ← pread (readBytes (packet_body_length.toNat + 4)) 0 inp
  readEapolBody akm packet_body offset

/-- `offset += n` while writing. -/
def Wr.skip (n : Nat) : Wr Unit := fun buf off => .ok ((), buf, off + n)

/-- The value of `offset` while writing. -/
def Wr.offset : Wr Nat := fun buf off => .ok (off, buf, off)

/-- `buf.pwrite_with(x, at, ctx)?`. -/
def Wr.patch (w : Writer) (position : Nat) : Wr Unit := fun buf off =>
  match pwrite w position buf with
  | .ok (buf', _) => .ok ((), buf', off)
  | .err e => .err e
  | .panic => .panic

/-- The fixed part of `EapolKeyFrame::try_into_ctx` with the MIC, /repo/src/crypto/eapol.rs:184-193. -/
def writeEapolFixed {κ : Type} (f : EapolKeyFrame κ) : Wr Unit := do
  Wr.gwrite (writeU8 2)
  Wr.gwrite (writeBE f.key_information.bits)
  Wr.gwrite (writeBE f.key_length)
  Wr.gwrite (writeBE f.key_replay_counter)
  Wr.gwrite (writeBytes f.key_nonce.val)
  Wr.gwrite (writeBE f.key_iv)
  Wr.gwrite (writeBE f.key_rsc)
  Wr.gwrite (writeBE (0 : BitVec 64))
  Wr.gwrite (writeBytes f.key_mic)

/-- `EapolKeyFrame::try_into_ctx`, /repo/src/crypto/eapol.rs:173-211; `as u16` truncates. -/
def writeEapolKeyFrame (f : EapolKeyFrame Obj) : Writer := Wr.run do
  Wr.gwrite (writeU8 2)
  Wr.gwrite (writeU8 3)
  let packet_body_length_offset ← Wr.offset
  Wr.skip 2
  writeEapolFixed f
  let key_data_length_offset ← Wr.offset
  Wr.skip 2
  Wr.gwrite f.key_data.write
  let offset ← Wr.offset
  let n ← Wr.lift (Res.sub offset key_data_length_offset)
  let key_data_length ← Wr.lift (Res.sub n 2)
  Wr.patch (writeBE (BitVec.ofNat 16 key_data_length)) key_data_length_offset
  let n ← Wr.lift (Res.sub offset packet_body_length_offset)
  let packet_body_length ← Wr.lift (Res.sub n 2)
  Wr.patch (writeBE (BitVec.ofNat 16 packet_body_length)) packet_body_length_offset

end

/-- `EapolKeyFrame::measure_with`, /repo/src/crypto/eapol.rs:154-172. -/
def measureEapolKeyFrame (f : EapolKeyFrame Obj) : Nat :=
  1 + 1 + 2 + 1 + 2 + 2 + 8 + 32 + 16 + 8 + 8 + f.key_mic.length + 2 + f.key_data.measure

/-- `SnapLlcFrame` of `llc-rs`. -/
structure SnapLlcFrame (π : Type) where
  oui : Arr 3
  ether_type : BitVec 16
  payload : π
  deriving DecidableEq

/-- `SnapLlcFrame::try_into_ctx` of `llc-rs`, assumed. -/
def writeSnap [ScrollRule] (f : SnapLlcFrame Obj) : Writer := Wr.run do
  Wr.gwrite (writeU8 0xaa)
  Wr.gwrite (writeU8 0xaa)
  Wr.gwrite (writeU8 0x03)
  Wr.gwrite (writeBytes f.oui.val)
  Wr.gwrite (writeBE f.ether_type)
  Wr.gwrite f.payload.write

/-- A SNAP frame as something to write. -/
def snapObj [ScrollRule] (f : SnapLlcFrame Obj) : Obj := ⟨writeSnap f, 8 + f.payload.measure⟩

/-- An EAPOL key frame as something to write. -/
def eapolObj [ScrollRule] (f : EapolKeyFrame Obj) : Obj := ⟨writeEapolKeyFrame f, measureEapolKeyFrame f⟩

/-- `EapolDataFrame`, /repo/src/crypto/eapol.rs:66-67. -/
abbrev EapolDataFrame (κ : Type) := DataFrame (SnapLlcFrame (EapolKeyFrame κ))

/-- The frame with everything in it made writable. -/
def EapolDataFrame.obj [ScrollRule] (f : EapolDataFrame Obj) : DataFrame Obj :=
  { header := f.header, payload := f.payload.map fun s => snapObj { s with payload := eapolObj s.payload } }

namespace EapolDataFrame
variable {κ : Type}

/-- `eapol_mic_range`, /repo/src/crypto/eapol.rs:214-218: start and end. -/
def eapolMicRange (f : EapolDataFrame κ) : Option (Nat × Nat) :=
  match f.payload with
  | none => none
  | some s =>
    let mic_start := f.header.lengthInBytes + 8 + 1 + 1 + 2 + 1 + 2 + 2 + 8 + 32 + 16 + 8 + 8
    some (mic_start, mic_start + s.payload.key_mic.length)

/-- `eapol_key_data_length_range`, /repo/src/crypto/eapol.rs:220-235. -/
def eapolKeyDataLengthRange (f : EapolDataFrame κ) : Option (Nat × Nat) :=
  match f.payload with
  | none => none
  | some s =>
    let start := f.header.lengthInBytes + 8 + 1 + 1 + 2 + 1 + 2 + 2 + 8 + 32 + 16 + 8 + 8 +
      s.payload.key_mic.length
    some (start, start + 2)

/-- `eapol_key_data_range`, /repo/src/crypto/eapol.rs:237-253: start of an open range. -/
def eapolKeyDataRange (f : EapolDataFrame κ) : Option Nat :=
  match f.payload with
  | none => none
  | some s =>
    some (f.header.lengthInBytes + 8 + 1 + 1 + 2 + 1 + 2 + 2 + 8 + 32 + 16 + 8 + 8 +
      s.payload.key_mic.length + 2)

end EapolDataFrame

end Verif
