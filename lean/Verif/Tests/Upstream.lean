import Verif.Model.Elements.Table
import Verif.Model.Elements.Vendor
import Verif.Model.Elements.Compare
import Verif.Model.Frames.Builder
import Verif.Model.Frames.Generic
import Verif.Model.Crypto.CryptoHeader
import Verif.Model.Crypto.Michael
import Verif.Spec.Crc
/-!
# The tests of the crate, run on the model

Each example states what a test of /repo/tests or an example of /repo/examples asserts, for both readings of
scroll's offset rule.  These are checks of the model, not proofs of properties.
-/
namespace Verif.Tests

open Verif

/-- The text of a string literal. -/
def text (bytes : Bytes) (h : utf8Valid bytes = true := by decide) : Str := ⟨bytes, h⟩

/-- The macro `roundtrip_test!`, /repo/tests/common.rs:11-30: reading gives the value, and writing the value
into a buffer of the measured size gives the bytes. -/
def RoundTrip {α β : Type} [ScrollRule] (read : Reader α) (eq : α → Bool) (measure : α → Nat) (write : β → Writer)
    (value : β) (bytes : Bytes) : Prop :=
  match pread read 0 bytes with
  | .ok a => eq a = true ∧
    pwrite (write value) 0 (List.replicate (measure a) 0) = .ok (bytes, measure a)
  | _ => False

instance {α β : Type} [ScrollRule] (read : Reader α) (eq : α → Bool) (measure : α → Nat) (write : β → Writer)
    (value : β) (bytes : Bytes) : Decidable (RoundTrip read eq measure write value bytes) := by
  unfold RoundTrip; split <;> infer_instance

/-! /repo/tests/aid.rs:4-10 -/
example : (AssociationID.newChecked 1).isSome ∧ (AssociationID.newChecked 2007).isSome ∧
    (AssociationID.newChecked (2007 ||| 0xc000)).isSome ∧ AssociationID.newChecked 2008 = none ∧
    (AssociationID.newChecked 1).map AssociationID.intoBits = some 0xc001 := by decide

/-! /repo/tests/elements/dsss_parameter_set.rs -/
example (s : Bool) : letI : ScrollRule := ⟨s⟩
    RoundTrip readDSSS (· == ⟨13⟩) measureDSSS writeDSSS ⟨13⟩ [13] := by cases s <;> decide +kernel

/-! /repo/tests/elements/ibss_parameter_set.rs -/
example (s : Bool) : letI : ScrollRule := ⟨s⟩
    RoundTrip readIBSS (· == ⟨42⟩) measureIBSS writeIBSS ⟨42⟩ [42, 0] := by cases s <;> decide +kernel

/-! /repo/tests/elements/ssid.rs and mesh_id.rs -/
def testName : Str := text [0x54, 0x65, 0x73, 0x74]
def longName : Str := text [0x4c, 0x6f, 0x72, 0x65, 0x6d, 0x20, 0x69, 0x70, 0x73, 0x75, 0x6d, 0x20, 0x64, 0x6f,
  0x6c, 0x6f, 0x72, 0x20, 0x73, 0x69, 0x74, 0x20, 0x61, 0x6d, 0x65, 0x74, 0x20, 0x61, 0x75, 0x67, 0x75, 0x65,
  0x2e]
example (s : Bool) : letI : ScrollRule := ⟨s⟩
    RoundTrip readSSID (· == ⟨testName⟩) measureSSID writeSSID ⟨testName⟩ [0x54, 0x65, 0x73, 0x74] := by
  cases s <;> decide +kernel
example : SSIDLikeElement.isHidden ⟨text []⟩ = true ∧ measureSSID ⟨testName⟩ = 4 ∧
    SSIDLikeElement.new testName = some ⟨testName⟩ ∧ SSIDLikeElement.new longName = none := by decide

/-! /repo/tests/elements/supported_rates.rs.  The macros give `from_rate_in_kbps` of a thousand times the
literal. -/
example : EncodedRate.fromRateInKbps 1500 true = .ok ⟨0x83⟩ ∧ (⟨0x83⟩ : EncodedRate).is_b = true ∧
    (⟨0x83⟩ : EncodedRate).rateInKbps = 1500 ∧ EncodedRate.fromRateInKbps 2000 false = .ok ⟨0x04⟩ := by decide
example : (newSupportedRates [⟨0x83⟩]).isSome ∧ newSupportedRates (List.replicate 9 ⟨0x83⟩) = none ∧
    (newExtendedSupportedRates [⟨0x83⟩]).isSome ∧
    newExtendedSupportedRates (List.replicate 252 ⟨0x83⟩) = none := by decide +kernel
example (s : Bool) : letI : ScrollRule := ⟨s⟩
    RoundTrip readSupportedRates (fun r => ratesEq ratesContainer listContainer r [⟨0x83⟩] = .ok true)
      (fun r => r.bytes.measure) writeSupportedRates ⟨[⟨0x83⟩]⟩ [0x83] ∧
    RoundTrip readExtendedSupportedRates
      (fun r => ratesEq ratesContainer listContainer r [⟨0x83⟩, ⟨0x04⟩] = .ok true)
      (fun r => r.bytes.measure) writeExtendedSupportedRates ⟨[⟨0x83⟩, ⟨0x04⟩]⟩ [0x83, 0x04] := by
  cases s <;> decide +kernel

/-! /repo/tests/elements/tim.rs -/
example (s : Bool) : letI : ScrollRule := ⟨s⟩
    ∃ b, timListing [0, 12, 13] = .ok b ∧
      RoundTrip readTIM (fun e => e.eq ⟨2, 3, some b⟩ = .ok true)
        (fun e => match measureTIM e with | .ok n => n | _ => 0) writeTIM ⟨2, 3, some b⟩
        [0x02, 0x03, 0x01, 0x01, 0x30] ∧
      b.aidIter.map (fun o => o.map fun l => l.map fun a => a.aid) = .ok (some [12, 13]) := by
  cases s <;> exact ⟨_, rfl, by decide +kernel, by decide +kernel⟩
example (s : Bool) : letI : ScrollRule := ⟨s⟩
    RoundTrip readTIM (fun e => e.eq ⟨2, 3, none⟩ = .ok true)
      (fun e => match measureTIM e with | .ok n => n | _ => 0) writeTIM ⟨2, 3, none⟩ [0x02, 0x03] := by
  cases s <;> decide +kernel

/-! /repo/tests/elements/rsn.rs with /repo/bins/elements/rsn.bin -/
def testRsn : RsnElement.OfLists := ⟨some .Ccmp128, some [.Ccmp128], some [.Psk],
  some (RsnCapabilities.new.with_ptksa_replay_counter 3), none, none⟩
def testRsnBytes : Bytes := [
    0x01, 0x00, 0x00, 0x0f, 0xac, 0x04, 0x01, 0x00, 0x00, 0x0f, 0xac, 0x04, 0x01, 0x00, 0x00, 0x0f,
    0xac, 0x02, 0x0c, 0x00]
example (s : Bool) : letI : ScrollRule := ⟨s⟩
    RoundTrip readRsn (fun q => q.parsedEqLists testRsn = .ok true) (fun _ => measureRsnLists testRsn)
      writeRsnLists testRsn testRsnBytes := by cases s <;> decide +kernel
example : RsnElement.WPA2_PERSONAL =
    ((((RsnElement.empty (P := List IEEE80211CipherSuiteSelector) (A := List IEEE80211AkmType)
      (M := List (Arr 16))).withGroupDataCipherSuite .Ccmp128).withPairwiseCipherSuiteList
        [.Ccmp128]).withAkmList [] [.Psk]).withRsnCapabilities [] [] RsnCapabilities.new := by decide
example : IEEE80211AkmType.Psk.keyMicLen = some 16 := by decide

/-! /repo/tests/elements/mod.rs:22-59 -/
def testElements : Bytes := [
    0x00, 0x04, 0x54, 0x65, 0x73, 0x74, 0xdd, 0x06, 0x00, 0x80, 0x41, 0x00, 0x13, 0x37, 0xff, 0x03, 0x00, 0x13, 0x37]
example (s : Bool) : letI : ScrollRule := ⟨s⟩
    getFirstElement testElements ssidKind = .ok (some ⟨testName⟩) ∧
    getFirstElementRaw testElements (.VendorSpecific [0x00, 0x80, 0x41, 0x00]) =
      .ok (some ⟨0xdd, [0x00, 0x80, 0x41, 0x00, 0x13, 0x37]⟩) ∧
    getFirstElementRaw testElements (.ExtId 0x00) = .ok (some ⟨0xff, [0x00, 0x13, 0x37]⟩) := by
  cases s <;> decide +kernel

/-! /repo/tests/frames/generic_frame.rs -/
def ack : Bytes := [0xd4, 0x00, 0x37, 0x13, 0x01, 0x02, 0x03, 0x04, 0x05, 0x06]
example (s : Bool) : letI : ScrollRule := ⟨s⟩; letI := Spec.ieeeCrc
    ∃ g, GenericFrame.new ack false = .ok g ∧
      g.frameControlField = FrameControlField.withFrameType ⟨0⟩ (.Control .Ack) ∧ g.duration = .ok 0x1337 ∧
      g.address1 = .ok ⟨[1, 2, 3, 4, 5, 6], rfl⟩ ∧ g.address2 = .ok none := by
  cases s <;> exact ⟨_, rfl, by decide +kernel, by decide +kernel, by decide +kernel, by decide +kernel⟩
example (s : Bool) : letI : ScrollRule := ⟨s⟩; letI := Spec.ieeeCrc
    ∃ g, GenericFrame.new (ack ++ [0, 0, 0, 0, 0, 0]) false = .ok g ∧ g.address2 = .ok none := by
  cases s <;> exact ⟨_, rfl, by decide +kernel⟩
example (s : Bool) : letI : ScrollRule := ⟨s⟩; letI := Spec.ieeeCrc
    ∃ g, GenericFrame.new [
      0x80, 0x00, 0x00, 0x00, 0x01, 0x02, 0x03, 0x04, 0x05, 0x06, 0x01, 0x02, 0x03, 0x04, 0x05, 0x06,
      0xff, 0xff, 0xff, 0xff, 0xff, 0xff, 0x10, 0x00, 0x00, 0x00, 0x00, 0x00, 0x00, 0x00, 0x00, 0x00,
      0x00, 0x00, 0x00, 0x00] false = .ok g ∧ g.address2 = .ok (some ⟨[1, 2, 3, 4, 5, 6], rfl⟩) ∧
      g.address3 = .ok (some ⟨[0xff, 0xff, 0xff, 0xff, 0xff, 0xff], rfl⟩) ∧
      g.sequenceControl = .ok (some ((⟨0⟩ : SequenceControl).with_sequence_number 1)) := by
  cases s <;> exact ⟨_, rfl, by decide +kernel, by decide +kernel, by decide +kernel⟩

/-! /repo/tests/frames/action.rs with files of /repo/bins/frames -/
def awdlAction : Bytes := [
    0xd0, 0x00, 0x00, 0x00, 0xff, 0xff, 0xff, 0xff, 0xff, 0xff, 0xea, 0xd0, 0x74, 0x53, 0xe1, 0x9c,
    0x00, 0x25, 0x00, 0xff, 0x94, 0x73, 0xa0, 0x31, 0x7f, 0x00, 0x17, 0xf2, 0x08, 0x10, 0x03, 0x00,
    0xc1, 0xe6, 0x9e, 0x41, 0x9f, 0xe5, 0x9e, 0x41, 0x04, 0x49, 0x00, 0x2c, 0x1f, 0x00, 0x06, 0x00,
    0x10, 0x00, 0x6e, 0x00, 0x00, 0x18, 0x10, 0x00, 0x10, 0x00, 0x00, 0x00, 0x03, 0x03, 0x03, 0x03,
    0xf2, 0xf4, 0xef, 0xf6, 0xa3, 0xf9, 0x04, 0x00, 0x66, 0x2f, 0x49, 0x2f, 0x0f, 0x01, 0x00, 0x03,
    0xff, 0xff, 0x1d, 0x2e, 0x00, 0x00, 0x1d, 0x2e, 0x00, 0x00, 0x00, 0x00, 0x00, 0x00, 0x00, 0x00,
    0x00, 0x00, 0x2b, 0x06, 0x1d, 0x2e, 0x1d, 0x2e, 0x00, 0x00, 0x00, 0x00, 0x00, 0x00, 0x00, 0x00,
    0x00, 0x00, 0x00, 0x00, 0x05, 0x15, 0x00, 0x00, 0x00, 0x00, 0x01, 0x00, 0xf2, 0xf4, 0xef, 0xf6,
    0xa3, 0xf9, 0x1a, 0x02, 0x00, 0x00, 0xfe, 0x01, 0x00, 0x00, 0x00, 0x00, 0x12, 0x29, 0x00, 0x0f,
    0x03, 0x00, 0x03, 0xff, 0xff, 0x2c, 0x80, 0x00, 0x00, 0x2c, 0x80, 0x00, 0x00, 0x00, 0x00, 0x00,
    0x00, 0x00, 0x00, 0x00, 0x00, 0x06, 0x51, 0x2c, 0x80, 0x2c, 0x80, 0x00, 0x00, 0x00, 0x00, 0x00,
    0x00, 0x00, 0x00, 0x00, 0x00, 0x00, 0x00, 0x00, 0x18, 0x28, 0x00, 0xf2, 0xf4, 0xef, 0xf6, 0xa3,
    0xf9, 0xf2, 0xf4, 0xef, 0xf6, 0xa3, 0xf9, 0x9f, 0x0d, 0x00, 0x00, 0x01, 0x00, 0x00, 0x00, 0x1a,
    0x02, 0x00, 0x00, 0xfe, 0x01, 0x00, 0x00, 0x00, 0x00, 0x00, 0x00, 0x00, 0x00, 0x00, 0x00, 0xc4,
    0x0d, 0x00, 0x00, 0x0c, 0x2f, 0x00, 0x63, 0x9f, 0x44, 0x45, 0x00, 0x03, 0x00, 0x00, 0x00, 0x00,
    0x00, 0x00, 0x00, 0x74, 0x00, 0xea, 0xd0, 0x74, 0x53, 0xe1, 0x9c, 0x04, 0x00, 0x00, 0x00, 0x00,
    0x00, 0x6d, 0x10, 0x00, 0x00, 0x9f, 0x0d, 0x00, 0x00, 0xa9, 0xe4, 0x05, 0x00, 0x08, 0x2f, 0x00,
    0x00, 0x35, 0x40, 0x00, 0x00, 0x07, 0x0a, 0x00, 0x00, 0x00, 0x6f, 0x01, 0x1f, 0xff, 0xff, 0xff,
    0x00, 0x00, 0x11, 0x0e, 0x00, 0xbf, 0x0c, 0x32, 0x00, 0x80, 0x03, 0xea, 0xff, 0x00, 0x00, 0xea,
    0xff, 0x00, 0x00, 0x15, 0x02, 0x00, 0x71, 0x01, 0x06, 0x09, 0x00, 0x00, 0x00, 0x00, 0x02, 0x04,
    0x00, 0x00, 0x00, 0x00]
def meshOpen : Bytes := [
    0xd0, 0x00, 0x38, 0x01, 0xe8, 0x9c, 0x25, 0x14, 0x4f, 0xc8, 0xe8, 0x9c, 0x25, 0x14, 0x51, 0x00,
    0xe8, 0x9c, 0x25, 0x14, 0x51, 0x00, 0x00, 0x00, 0x0f, 0x01, 0x00, 0x00, 0x01, 0x08, 0x82, 0x04,
    0x0b, 0x16, 0x0c, 0x12, 0x18, 0x24, 0x32, 0x04, 0x30, 0x48, 0x60, 0x6c, 0x72, 0x08, 0x6d, 0x65,
    0x73, 0x68, 0x74, 0x65, 0x73, 0x74, 0x71, 0x07, 0x01, 0x01, 0x00, 0x01, 0x00, 0x00, 0x09, 0x75,
    0x04, 0x00, 0x00, 0xa3, 0xd6, 0x2d, 0x1a, 0xfe, 0x01, 0x03, 0xff, 0xff, 0x00, 0x00, 0x00, 0x00,
    0x00, 0x00, 0x00, 0x00, 0x00, 0x00, 0x01, 0x00, 0x00, 0x00, 0x00, 0x00, 0x00, 0x00, 0x00, 0x00,
    0x00, 0x3d, 0x16, 0x02, 0x00, 0x03, 0x00, 0x00, 0x00, 0xff, 0xff, 0x00, 0x00, 0x00, 0x00, 0x00,
    0x00, 0x00, 0x00, 0x00, 0x00, 0x00, 0x00, 0x00, 0x00]
example (s : Bool) : letI : ScrollRule := ⟨s⟩; letI := Spec.ieeeCrc
    (matchFrames awdlAction none [(MgmtKind.RawAction.frame, readMgmtFrame readRawAction)]).map
      (fun r => r.2.2.category_code) = .ok .VendorSpecific := by cases s <;> decide +kernel
example (s : Bool) : letI : ScrollRule := ⟨s⟩; letI := Spec.ieeeCrc
    (matchFrames awdlAction none [(MgmtKind.VendorAction.frame, readMgmtFrame readVendorAction)]).map
      (fun r => r.2.2.oui) = .ok ⟨[0x00, 0x17, 0xf2], rfl⟩ := by cases s <;> decide +kernel
def meshOpenElements [ScrollRule] : Bytes :=
  letI := Spec.ieeeCrc
  match matchFrames meshOpen none [(MgmtKind.MeshPeeringOpen.frame, readMgmtFrame readMeshPeeringOpen)] with
  | .ok r => r.2.2.elements
  | _ => []
example (s : Bool) : letI : ScrollRule := ⟨s⟩; letI := Spec.ieeeCrc
    (getFirstElement meshOpenElements meshIdKind).map (fun o => o.map fun e => e.ssid.bytes) =
      .ok (some [0x6d, 0x65, 0x73, 0x68, 0x74, 0x65, 0x73, 0x74]) ∧
    getFirstElement meshOpenElements meshConfigurationKind = .ok (some {
      active_path_selection_protocol_identifier := .HWMP
      active_path_selection_metric_identifier := .AirtimeLinkMetric
      congestion_control_mode_identifier := .NotActivated
      syncronization_method_identifier := .NeighborOffsetSynchronization
      authentication_protocol_identifier := .NoAuthentication
      mesh_formation_info := (((⟨0⟩ : MeshFormationInfo).with_connected_to_mesh_gate false).with_num_peerings
        0).with_connected_to_as false
      mesh_capability := ((⟨0⟩ : MeshCapability).with_accept_additional_mesh_peerings true).with_forwarding
        true }) := by cases s <;> decide +kernel

/-! /repo/tests/frames/data_frame.rs -/
def ourMac : Mac := ⟨[0x00, 0x20, 0x91, 0x13, 0x37, 0x00], rfl⟩
def apMac : Mac := ⟨[0x00, 0x20, 0x91, 0x13, 0x37, 0x01], rfl⟩
def dataProgram : List (BuilderOp Bytes) := [.to_ds, .category .Data, .payload .Bytes [0x13, 0x37],
  .destination_address apMac, .source_address ourMac, .bssid apMac]
def dataFrameBytes : Bytes := [
    0x08, 0x01, 0x00, 0x00, 0x00, 0x20, 0x91, 0x13, 0x37, 0x01, 0x00, 0x20, 0x91, 0x13, 0x37, 0x00,
    0x00, 0x20, 0x91, 0x13, 0x37, 0x01, 0x00, 0x00, 0x13, 0x37]
example (s : Bool) : letI : ScrollRule := ⟨s⟩; letI := Spec.ieeeCrc
    ∃ f r, buildDataFrame dataProgram = some f ∧ pread (readDataFrame false) 0 dataFrameBytes = .ok r ∧
      r.header = f.header ∧ potentiallyWrappedPayload r none = .ok (some (.Unwrapped (.Single [0x13, 0x37]))) ∧
      f.payload = some [0x13, 0x37] ∧
      (let g : DataFrame Obj := ⟨f.header, f.payload.map bytesObj⟩
       (pwrite (writeDataFrame g false) 0 (List.replicate (measureDataFrame g false) 0)).map (·.1) =
         .ok dataFrameBytes) := by
  cases s <;> exact ⟨_, _, rfl, rfl, by decide +kernel, by decide +kernel, by decide +kernel, by decide +kernel⟩
def encryptedBytes : Bytes := [
    0x88, 0x41, 0x30, 0x00, 0x7c, 0x5a, 0x1c, 0x15, 0xcf, 0xa7, 0x74, 0xd8, 0x3e, 0x9e, 0xff, 0x57,
    0x84, 0x39, 0x8f, 0xe2, 0x57, 0x39, 0xb0, 0x03, 0x00, 0x00, 0x3a, 0x00, 0x00, 0x20, 0x00, 0x00,
    0x00, 0x00, 0x81, 0x5b, 0x20, 0xb6, 0x32, 0x4d, 0xfb, 0x2a, 0x3d, 0xd6, 0x65, 0x00, 0x78, 0x1c,
    0xa3, 0xf7, 0x64, 0x1c, 0xec, 0x21, 0xdc, 0x05, 0xa7, 0xd5, 0x92, 0x47, 0x50, 0xe6, 0x83, 0x46,
    0x3a, 0x48, 0x82, 0x55, 0x46, 0xff, 0x33, 0x19, 0x01, 0xa0]
example (s : Bool) : letI : ScrollRule := ⟨s⟩; letI := Spec.ieeeCrc
    ∃ r w, pread (readDataFrame false) 0 encryptedBytes = .ok r ∧
      potentiallyWrappedPayload r (some .NotPresent) = .ok (some (.CryptoWrapped w)) ∧
      w.crypto_header.packet_number = 0x3a ∧ w.crypto_header.key_id = 0 := by
  cases s <;> exact ⟨_, _, rfl, rfl, by decide +kernel, by decide +kernel⟩

/-! /repo/tests/crypto/michael.rs -/
example : michael 0 [] = .ok 0x82925c1ca1d130b8 ∧
    michael 0x82925c1ca1d130b8 [0x4d] = .ok 0x434721ca40639b3f ∧
    michael 0x434721ca40639b3f [0x4d, 0x69] = .ok 0xe8f9becae97e5d29 ∧
    michael 0xe8f9becae97e5d29 [0x4d, 0x69, 0x63] = .ok 0x90038fc6cf13c1db ∧
    michael 0x90038fc6cf13c1db [0x4d, 0x69, 0x63, 0x68] = .ok 0xd55e100510128986 ∧
    michael 0xd55e100510128986 [0x4d, 0x69, 0x63, 0x68, 0x61, 0x65, 0x6c] = .ok 0x0a942b124ecaa546 := by
  decide +kernel
example : michaelBlockFunction 0 0 = (0, 0) ∧ michaelBlockFunction 0 1 = (0xc00015a8, 0xc0000b95) ∧
    michaelBlockFunction 1 0 = (0x6b519593, 0x572b8b8a) ∧
    michaelBlockFunction 0x01234567 0x83659326 = (0x441492c2, 0x1d8427ed) ∧
    (List.range 1000).foldl (fun s _ => michaelBlockFunction s.1 s.2) (1, 0) = (0x9f04c4ad, 0x2ec6c2bf) := by
  decide +kernel

/-! /repo/examples/beacon.rs -/
def beaconHead : Bytes := [0x80, 0x00, 0x00, 0x00, 0xff, 0xff, 0xff, 0xff, 0xff, 0xff, 0x00, 0x80, 0x41, 0xff,
  0xff, 0xff, 0x00, 0x80, 0x41, 0x13, 0x37, 0x42, 0x00, 0x00, 0xff, 0xff, 0xff, 0xff, 0xff, 0xff, 0xff, 0xff,
  0x04, 0x00, 0x00, 0x00]
def initialBytes : Bytes := beaconHead ++ [0x00, 0x06, 0x4c, 0x61, 0x6d, 0x62, 0x64, 0x61, 0xdd, 0x0f, 0x50, 0x6f,
  0x9a, 0x1c, 0x00, 0x80, 0x41, 0x13, 0x37, 0x43, 0x04, 0x54, 0x65, 0x73, 0x74]
def newBytes : Bytes := beaconHead ++ [0x00, 0x04, 0x54, 0x65, 0x73, 0x74, 0xdd, 0x12, 0x50, 0x6f, 0x9a, 0x1c, 0x00,
  0x80, 0x41, 0x13, 0x37, 0x43, 0x07, 0x4f, 0x57, 0x45, 0x54, 0x65, 0x73, 0x74]
def newElements [ScrollRule] : Obj := ((Chain.last (.typed (ssidElem ⟨testName⟩))).append (.typed (oweElem
  ⟨⟨[0x00, 0x80, 0x41, 0x13, 0x37, 0x43], rfl⟩, text [0x4f, 0x57, 0x45, 0x54, 0x65, 0x73, 0x74], none⟩))).obj
example (s : Bool) : letI : ScrollRule := ⟨s⟩; letI := Spec.ieeeCrc
    ∃ h b, pread (readMgmtFrame readBeaconLike false) 0 initialBytes = .ok (h, b) ∧
      (getFirstElement b.elements ssidKind).map (fun o => o.map fun e => e.ssid.bytes) =
        .ok (some [0x4c, 0x61, 0x6d, 0x62, 0x64, 0x61]) ∧
      (getFirstElement b.elements oweKind).map (fun o => o.map fun e => e.ssid) = .ok (some testName) ∧
      (let c : BeaconLikeBody Obj := ⟨b.timestamp, b.beacon_interval, b.capabilities_info, newElements⟩
       (pwrite (writeMgmtFrame .Beacon h (writeBeaconLike c) false) 0
         (List.replicate (measureMgmtFrame h (measureBeaconLike c) false) 0)).map (·.1) = .ok newBytes) := by
  cases s <;> exact ⟨_, _, rfl, by decide +kernel, by decide +kernel, by decide +kernel⟩

/-! /repo/examples/match_frames.rs, /repo/examples/elements.rs, /repo/benches/ieee80211.rs and
/repo/tests/issues/issue_4.rs with /repo/bins/frames/beacon.bin -/
def beacon : Bytes := [
    0x80, 0x00, 0x00, 0x00, 0xff, 0xff, 0xff, 0xff, 0xff, 0xff, 0xbc, 0x9f, 0xe4, 0x28, 0xf4, 0x20,
    0xbc, 0x9f, 0xe4, 0x28, 0xf4, 0x20, 0x10, 0x49, 0x02, 0xc5, 0xc9, 0x28, 0x07, 0x00, 0x00, 0x00,
    0x64, 0x00, 0x11, 0x15, 0x00, 0x04, 0x33, 0x37, 0x43, 0x33, 0x01, 0x06, 0x98, 0x24, 0xb0, 0x48,
    0x60, 0x6c, 0x03, 0x01, 0x2c, 0x05, 0x19, 0x00, 0x01, 0x02, 0x10, 0x00, 0x00, 0x00, 0x00, 0x00,
    0x00, 0x00, 0x08, 0x00, 0x00, 0x00, 0x00, 0x00, 0x00, 0x00, 0x00, 0x00, 0x00, 0x80, 0x00, 0x02,
    0x07, 0x06, 0x44, 0x45, 0x20, 0x24, 0x08, 0x17, 0x20, 0x01, 0x00, 0x23, 0x02, 0x12, 0x00, 0x30,
    0x1a, 0x01, 0x00, 0x00, 0x0f, 0xac, 0x04, 0x01, 0x00, 0x00, 0x0f, 0xac, 0x04, 0x01, 0x00, 0x00,
    0x0f, 0xac, 0x01, 0xa8, 0x00, 0x00, 0x00, 0x00, 0x0f, 0xac, 0x06, 0x0b, 0x05, 0xc9, 0x00, 0x61,
    0x20, 0x4e, 0x33, 0x05, 0x01, 0x24, 0x28, 0x2c, 0x30, 0x33, 0x05, 0x02, 0x34, 0x38, 0x3c, 0x40,
    0x43, 0x06, 0x00, 0x0c, 0x05, 0x48, 0x05, 0x48, 0x46, 0x05, 0x73, 0xd0, 0x01, 0x00, 0x0d, 0x2d,
    0x1a, 0xad, 0x09, 0x03, 0xff, 0xff, 0xff, 0xff, 0x00, 0x00, 0x00, 0x00, 0x00, 0x00, 0x00, 0x00,
    0x01, 0x00, 0x00, 0x00, 0x00, 0x00, 0x00, 0x00, 0x00, 0x00, 0x00, 0x3d, 0x16, 0x2c, 0x00, 0x05,
    0x00, 0x00, 0x00, 0x00, 0x00, 0x00, 0x00, 0x00, 0x00, 0x00, 0x00, 0x00, 0x00, 0x00, 0x00, 0x00,
    0x00, 0x00, 0x00, 0x7f, 0x0a, 0x04, 0x00, 0x08, 0x00, 0x00, 0x00, 0x00, 0x40, 0x00, 0x40, 0xbf,
    0x0c, 0x91, 0xf9, 0x8b, 0x33, 0xaa, 0xff, 0x00, 0x00, 0xaa, 0xff, 0x00, 0x20, 0xc0, 0x05, 0x00,
    0x00, 0x00, 0x00, 0x00, 0xc3, 0x02, 0x00, 0x2e, 0xff, 0x20, 0x23, 0x05, 0x01, 0x08, 0x9a, 0x40,
    0x10, 0x00, 0x60, 0x08, 0x88, 0x1f, 0xc3, 0x83, 0x1c, 0x01, 0x08, 0x00, 0xaa, 0xff, 0xaa, 0xff,
    0x3b, 0x1c, 0xc7, 0x71, 0x1c, 0xc7, 0x71, 0x1c, 0xc7, 0x71, 0xff, 0x07, 0x24, 0xf4, 0x3f, 0x00,
    0x15, 0xfc, 0xff, 0xff, 0x0e, 0x26, 0x0f, 0x03, 0xa4, 0x16, 0x2f, 0xa9, 0xff, 0x45, 0x75, 0xff,
    0x62, 0x32, 0xff, 0xdd, 0x18, 0x00, 0x50, 0xf2, 0x02, 0x01, 0x01, 0x0f, 0x00, 0x03, 0xa4, 0x00,
    0x00, 0x27, 0xa4, 0x00, 0x00, 0x42, 0x43, 0x5e, 0x00, 0x62, 0x32, 0x2f, 0x00, 0xdd, 0x16, 0x8c,
    0xfd, 0xf0, 0x04, 0x00, 0x00, 0x49, 0x4c, 0x51, 0x03, 0x02, 0x09, 0x72, 0x01, 0x00, 0x00, 0x00,
    0x00, 0xfe, 0xff, 0x00, 0x00, 0xdd, 0x07, 0x8c, 0xfd, 0xf0, 0x04, 0x01, 0x01, 0x00, 0xdd, 0x07,
    0x00, 0x0b, 0x86, 0x01, 0x04, 0x08, 0x12, 0xdd, 0x0b, 0x00, 0x0b, 0x86, 0x01, 0x03, 0x00, 0x41,
    0x50, 0x36, 0x39, 0x32]
def checkBeacon [ScrollRule] (h : ManagementFrameHeader) (b : BeaconLikeBody Bytes) : Prop :=
  h.transmitter_address = ⟨[0xbc, 0x9f, 0xe4, 0x28, 0xf4, 0x20], rfl⟩ ∧ b.beacon_interval = 100 ∧
  (getFirstElement b.elements ssidKind).map (fun o => o.map fun e => e.ssid.bytes) =
    .ok (some [0x33, 0x37, 0x43, 0x33]) ∧
  (getFirstElement b.elements rsnKind).map (fun o => o.map fun e =>
      e.parsedEqLists ⟨some .Ccmp128, some [.Ccmp128], some [.Wpa], some ⟨0x00a8⟩, some [],
        some .BipCmac128⟩) = .ok (some (.ok true)) ∧
  (getFirstElement b.elements timKind).map (fun o => o.map fun e => (e.dtim_count, e.dtim_period)) =
    .ok (some (0, 1)) ∧
  (getFirstElement b.elements vendorKind).map Option.isSome = .ok true ∧
  (letI := Spec.ieeeCrc
   let c : BeaconLikeBody Obj := ⟨b.timestamp, b.beacon_interval, b.capabilities_info, bytesObj b.elements⟩
   (pwrite (writeMgmtFrame .Beacon h (writeBeaconLike c) false) 0 (List.replicate 8000 0)).map
     (fun r => (r.1.take r.2)) = .ok beacon)
instance [ScrollRule] (h : ManagementFrameHeader) (b : BeaconLikeBody Bytes) : Decidable (checkBeacon h b) := by
  unfold checkBeacon; infer_instance
example (s : Bool) : letI : ScrollRule := ⟨s⟩; letI := Spec.ieeeCrc
    (pread (readMgmtFrame readBeaconLike false) 0 beacon).map (fun r => decide (checkBeacon r.1 r.2)) =
      .ok true := by
  cases s <;> decide +kernel

end Verif.Tests
