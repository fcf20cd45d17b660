import Verif.Model.Elements.Core
import Verif.Basic.BitSet
import Verif.Model.ElementTypes
/-!
# `/repo/src/elements/ht`
-/
namespace Verif

namespace SupportedMCSSetFlags

/-- `is_tx_mcs_undefined`, /repo/src/elements/ht/mcs_set.rs:35-40. -/
def isTxMcsUndefined (f : SupportedMCSSetFlags) : Bool :=
  !(f.tx_mcs_set_defined && f.tx_rx_mcs_set_not_equal &&
    f.tx_maximum_number_spatial_streams_supported == 0 && f.tx_unequal_modulation_supported)

/-- `is_tx_rx_mcs_defined_equal`, /repo/src/elements/ht/mcs_set.rs:42-47. -/
def isTxRxMcsDefinedEqual (f : SupportedMCSSetFlags) : Bool :=
  f.isTxMcsUndefined && !f.tx_rx_mcs_set_not_equal &&
    f.tx_maximum_number_spatial_streams_supported == 0 && !f.tx_unequal_modulation_supported

/-- `may_tx_mcs_set_differ_from_rx`, /repo/src/elements/ht/mcs_set.rs:49-51. -/
def mayTxMcsSetDifferFromRx (f : SupportedMCSSetFlags) : Bool :=
  f.isTxMcsUndefined && f.tx_rx_mcs_set_not_equal

end SupportedMCSSetFlags

/-- `SupportedMCSSet`, /repo/src/elements/ht/mcs_set.rs:59-62. -/
structure SupportedMCSSet where
  supported_rx_mcs_set : Arr 10
  supported_rx_mcs_set_flags : SupportedMCSSetFlags
  deriving DecidableEq, Repr

/-- `SupportedMCSSet::supported_rx_mcs_indices`, /repo/src/elements/ht/mcs_set.rs:64-68. -/
def SupportedMCSSet.supportedRxMcsIndices (s : SupportedMCSSet) : List Bool :=
  s.supported_rx_mcs_set.val.flatMap fun byte => (List.range 8).map fun i => byte.getLsbD i

/-- The loop of `generate_supported_rx_mcs_set`, /repo/src/elements/ht/mcs_set.rs:116-122. -/
def setMcsBits : Nat → List Bool → Bytes → Res Bytes
  | _, [], bytes => .ok bytes
  | i, s :: l, bytes => do
    let bytes ← setBitAt bytes (i >>> 3) (i &&& 7) s
    setMcsBits (i + 1) l bytes

/-- `generate_supported_rx_mcs_set`, /repo/src/elements/ht/mcs_set.rs:113-125. -/
def generateSupportedRxMcsSet (mcs_indices : List Bool) : Res Bytes :=
  setMcsBits 0 (mcs_indices.take 76) (List.replicate 10 0)

/-- `supported_rx_mcs_set![a, b, ...]`, /repo/src/elements/ht/mcs_set.rs:138-162.  A failed
assertion (a compile error) is `panic`. -/
def mcsSetListing : List Nat → Bytes → Res Bytes
  | [], buf => .ok buf
  | i :: l, buf =>
    if i < 77 then
      if ((buf[i >>> 3]?).getD 0).getLsbD (i &&& 7) then .panic
      else do
        let buf ← setBitAt buf (i >>> 3) (i &&& 7) true
        mcsSetListing l buf
    else .panic

/-- The loop of `supported_rx_mcs_set!(start => end)`, /repo/src/elements/ht/mcs_set.rs:172-177; the
first argument is the number of iterations. -/
def mcsSetRangeLoop : Nat → Nat → Bytes → Res Bytes
  | 0, _, buf => .ok buf
  | k + 1, i, buf => do
    let buf ← setBitAt buf (i >>> 3) (i &&& 7) true
    mcsSetRangeLoop k (i + 1) buf

/-- `supported_rx_mcs_set!(start => end)`, /repo/src/elements/ht/mcs_set.rs:163-183. -/
def mcsSetRange (start stop : Nat) : Res Bytes :=
  if stop < 77 then mcsSetRangeLoop (stop - start) start (List.replicate 10 0) else .panic

variable [ScrollRule]

/-- `TryFromCtx for SupportedMCSSet`, /repo/src/elements/ht/mcs_set.rs:75-97.  The two reserved bytes
are skipped without a check. -/
def readSupportedMCSSet : Reader SupportedMCSSet := Rd.run do
  let set ← Rd.gread (readArr 10)
  let flags ← Rd.gread (readArr 4)
  Rd.advance 2
  pure { supported_rx_mcs_set := set, supported_rx_mcs_set_flags := ⟨fromLE 32 flags.val⟩ }

/-- `TryIntoCtx for SupportedMCSSet`, /repo/src/elements/ht/mcs_set.rs:98-111. -/
def writeSupportedMCSSet (s : SupportedMCSSet) : Writer := Wr.run do
  Wr.gwrite (writeBytes s.supported_rx_mcs_set.val)
  Wr.gwrite (writeBytes ((toLE (s.supported_rx_mcs_set_flags.bits.zeroExtend 64)).take 6))

/-- `MeasureWith for SupportedMCSSet`, /repo/src/elements/ht/mcs_set.rs:70-74. -/
def measureSupportedMCSSet (_ : SupportedMCSSet) : Nat := 16

/-- `HTCapabilitiesElement`, /repo/src/elements/ht/capabilities.rs:255-262. -/
structure HTCapabilitiesElement where
  ht_capabilities_info : HTCapabilitiesInfo
  ampdu_parameters : AMpduParameters
  supported_mcs_set : SupportedMCSSet
  extended_capabilities : HTExtendedCapabilities
  transmit_beamforming_capabilities : TransmitBeamformingCapabilities
  asel_capability : ASELCapability
  deriving DecidableEq, Repr

/-- `TryFromCtx`, /repo/src/elements/ht/capabilities.rs:268-298. -/
def readHTCapabilities : Reader HTCapabilitiesElement := Rd.run do
  let info ← Rd.gread (readLE 16)
  let ampdu ← Rd.gread readU8
  let set ← Rd.gread readSupportedMCSSet
  let ext ← Rd.gread (readLE 16)
  let beam ← Rd.gread (readLE 32)
  let asel ← Rd.gread readU8
  pure {
    ht_capabilities_info := ⟨info⟩
    ampdu_parameters := ⟨ampdu⟩
    supported_mcs_set := set
    extended_capabilities := ⟨ext⟩
    transmit_beamforming_capabilities := ⟨beam⟩
    asel_capability := ⟨asel⟩ }

/-- `TryIntoCtx`, /repo/src/elements/ht/capabilities.rs:299-333. -/
def writeHTCapabilities (e : HTCapabilitiesElement) : Writer := Wr.run do
  Wr.gwrite (writeLE e.ht_capabilities_info.bits)
  Wr.gwrite (writeU8 e.ampdu_parameters.bits)
  Wr.gwrite (writeSupportedMCSSet e.supported_mcs_set)
  Wr.gwrite (writeLE e.extended_capabilities.bits)
  Wr.gwrite (writeLE e.transmit_beamforming_capabilities.bits)
  Wr.gwrite (writeU8 e.asel_capability.bits)

/-- `MeasureWith`, /repo/src/elements/ht/capabilities.rs:263-267. -/
def measureHTCapabilities (_ : HTCapabilitiesElement) : Nat := 26

/-- `HTOperationElement`, /repo/src/elements/ht/operation.rs:92-99. -/
structure HTOperationElement where
  primary_channel : Byte
  ht_operation_information : HTOperationInformation
  basic_ht_mcs_set : SupportedMCSSet
  deriving DecidableEq, Repr

/-- `TryFromCtx`, /repo/src/elements/ht/operation.rs:105-126: the five bytes are the low ones of a
little-endian `u64`. -/
def readHTOperation : Reader HTOperationElement := Rd.run do
  let primary_channel ← Rd.gread readU8
  let info ← Rd.gread (readArr 5)
  let set ← Rd.gread readSupportedMCSSet
  pure {
    primary_channel := primary_channel
    ht_operation_information := ⟨fromLE 64 (info.val ++ [0, 0, 0])⟩
    basic_ht_mcs_set := set }

/-- `TryIntoCtx`, /repo/src/elements/ht/operation.rs:127-141: the five bytes are the first ones of
the big-endian `u64`, i.e. the high ones. -/
def writeHTOperation (e : HTOperationElement) : Writer := Wr.run do
  Wr.gwrite (writeU8 e.primary_channel)
  Wr.gwrite (writeBytes ((toBE e.ht_operation_information.bits).take 5))
  Wr.gwrite (writeSupportedMCSSet e.basic_ht_mcs_set)

/-- `MeasureWith`, /repo/src/elements/ht/operation.rs:100-104. -/
def measureHTOperation (_ : HTOperationElement) : Nat := 22

end Verif
