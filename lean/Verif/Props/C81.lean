import Verif.Model.Defaults
import Verif.Props.C10
import Verif.Props.C11
import Verif.Props.C13
import Verif.Props.C14
import Verif.Props.C16
import Verif.Props.C17
import Verif.Props.C48
import Verif.Props.C67
/-!
# C81: default values

A default value can be sent: written and read back it is the same value.  A default value claims nothing: the packed
fields of a default element hold the defaults of their own types.
-/
namespace Verif

namespace Spec

/-- Written into any buffer of some size, a value is read back as one that is `same`. -/
def Survives {α : Type} (w : Writer) (r : Reader α) (same : α → Prop) : Prop :=
  ∃ size, ∀ buf : Bytes, size ≤ buf.length →
    ∃ out k x m, w buf = .ok (out, k) ∧ r (out.take k) = .ok (x, m) ∧ same x

/-- It can be written, but what is written is refused. -/
def Unreadable {α : Type} (w : Writer) (r : Reader α) : Prop :=
  ∃ size, ∀ buf : Bytes, size ≤ buf.length →
    ∃ out k e, w buf = .ok (out, k) ∧ r (out.take k) = .err e

/-- Into any buffer of some size these bytes are written, and what lies behind them is left. -/
def WritesBytes (w : Writer) (bs : Bytes) : Prop :=
  ∃ size, ∀ buf : Bytes, size ≤ buf.length → w buf = .ok (bs ++ buf.drop bs.length, bs.length)

end Spec

open Spec

variable [ScrollRule]

omit [ScrollRule] in
private theorem survives_of {α : Type} {w : Writer} {r : Reader α} {bs : Bytes} {n m : Nat} {d : α}
    {same : α → Prop} (hw : Emits w bs n) (hr : r bs = .ok (d, m)) (hs : same d) : Survives w r same := by
  refine ⟨n, fun buf hb => ⟨_, _, d, m, hw.ok buf hb, ?_, hs⟩⟩
  rw [List.take_left]
  exact hr

omit [ScrollRule] in
private theorem unreadable_of {α : Type} {w : Writer} {r : Reader α} {bs : Bytes} {n : Nat} {e : Err}
    (hw : Emits w bs n) (hr : r bs = .err e) : Unreadable w r := by
  refine ⟨n, fun buf hb => ⟨_, _, e, hw.ok buf hb, ?_⟩⟩
  rw [List.take_left]
  exact hr

omit [ScrollRule] in
private theorem survives_codec {α : Type} {r : Reader α} {w : α → Writer} {enc : α → Bytes} {valid : α → Prop}
    {n : Nat} (h : Codec r w enc valid n) (d : α) (hv : valid d) : Survives (w d) r (· = d) := by
  have := h.read d [] hv
  rw [List.append_nil] at this
  exact survives_of (h.write d) this rfl

/-- Default elements are read back as they were written: channel, window, HT and VHT capabilities, HT operation, the
empty name, no rates, the empty traffic indication and the empty RSN element. -/
theorem c81_elements :
    Survives (writeDSSS .default) readDSSS (· = .default) ∧
    Survives (writeIBSS .default) readIBSS (· = .default) ∧
    Survives (writeHTCapabilities .default) readHTCapabilities (· = .default) ∧
    Survives (writeHTOperation .default) readHTOperation (· = .default) ∧
    Survives (writeVHTCapabilities .default) readVHTCapabilities (· = .default) ∧
    Survives (writeSSID .default) readSSID (· = .default) ∧
    Survives (writeSupportedRates .default) readSupportedRates (RatesYields · []) ∧
    Survives (writeExtendedSupportedRates .default) readExtendedSupportedRates (RatesYields · []) ∧
    Survives (writeTIM .default) readTIM (· = .default) ∧
    Survives (writeRsnLists .empty) readRsn (RsnSame · .empty) := by
  refine ⟨survives_codec c12_dsss _ trivial, survives_codec c12_ibss _ trivial, ?_, ?_,
    survives_codec c12_vht_capabilities _ trivial, ?_, ?_, ?_, ?_, ?_⟩
  · have := c13_round_trip .default []
    rw [List.append_nil] at this
    exact survives_of (c13_write _).1 this rfl
  · obtain ⟨i, h, e⟩ := c14_round_trip_partial .default []
    rw [List.append_nil] at h
    refine survives_of (c14_write_partial _).1 h ?_
    have : i = 0 := by
      have := congrArg (fromLE 64) e
      rw [fromLE_toLE rfl] at this
      rw [this]
      rfl
    subst this
    rfl
  · exact survives_of (c10_write _).1 (c10_round_trip ⟨[], by decide⟩ _ rfl) rfl
  · obtain ⟨it, h, hy⟩ := c11_round_trip_supported [] .default rfl
    exact survives_of (c11_write_supported [] .default rfl).1 h ((hy []).2 rfl)
  · obtain ⟨it, h, hy⟩ := c11_round_trip_extended [] .default rfl
    exact survives_of (c11_write_extended .default).1 h ((hy []).2 rfl)
  · obtain ⟨n, -, -, h⟩ := (c16_write .default [] (by intro b bits h; cases h)).2 (by decide)
    exact survives_of h ((c16_parse 0 0 []).2 (by decide)) rfl
  · have hwf : RsnWf (.empty : RsnElement.OfLists) := c17_empty_wf
    obtain ⟨q, h, hq⟩ := c17_read .empty hwf (by simp [RsnSmall, RsnElement.empty])
      (by simp [RsnCanonical, RsnElement.empty]) (by simp [RsnEndOk, RsnElement.empty]) [] (.inl rfl)
    rw [List.append_nil] at h
    exact survives_of (c17_write _ hwf (by simp [RsnSmall, RsnElement.empty])
      (by simp [RsnEndOk, RsnElement.empty])) h hq

private theorem elements_emits : Emits (elementsObj []).write [] slack := by
  exact ((Emits.bytes []).pwrite0).cast rfl (by simp)

/-- A body whose elements are the empty container is read back exactly under the lax rule. -/
private theorem body_default {β : Type → Type} {read : Reader (β Bytes)} {write : β Obj → Writer}
    {get : (ε : Type) → β ε → ε} {set : (ε δ : Type) → β ε → δ → β δ}
    {fixed : (ε : Type) → β ε → Bytes} {valid : β Bytes → Prop} {n : Nat} {need : Nat → Nat}
    {same : Bytes → Bytes → Prop} (h : BodyOf read write get set fixed valid n need same)
    (b : β Obj) (d : β Bytes) (hb : get _ b = elementsObj []) (hd : set _ _ b [] = d) (hv : valid d) :
    Survives (write b) read (· = d) ↔ ScrollRule.strict = false := by
  have hw := h.writes b [] slack (by rw [hb]; exact elements_emits)
  rw [List.append_nil] at hw
  constructor
  · rintro ⟨size, hs⟩
    obtain ⟨out, k, x, m, ho, hr, rfl⟩ := hs (List.replicate (size + need slack) 0) (by simp)
    rw [hw.ok _ (by simp)] at ho
    cases ho
    rw [List.take_left] at hr
    cases hst : ScrollRule.strict with
    | false => rfl
    | true =>
      obtain ⟨e, he⟩ := h.short (fixed _ b) (by
        rw [← h.fixed_set b [], h.size]; simp [slack, hst])
      rw [he] at hr
      cases hr
  · intro hst
    have hs0 : slack = 0 := by simp [slack, hst]
    have hr := h.reads (set _ _ b []) (hd ▸ hv) (by rw [hs0]; exact Nat.zero_le _)
    rw [h.get_set, h.fixed_set, List.append_nil, hd] at hr
    exact survives_of hw hr rfl

/-- Default bodies are read back as they were written under the lax rule, and under that only: they hold no
elements. -/
theorem c81_bodies :
    (Survives (writeAssociationRequest (.default (elementsObj []))) readAssociationRequest (· = .default []) ↔
      ScrollRule.strict = false) ∧
    (Survives (writeAssociationResponse (.default (elementsObj []))) readAssociationResponse (· = .default []) ↔
      ScrollRule.strict = false) ∧
    (Survives (writeAuthentication (.default (elementsObj []))) readAuthentication (· = .default []) ↔
      ScrollRule.strict = false) ∧
    (Survives (writeBeaconLike (.default (elementsObj []))) readBeaconLike (· = .default []) ↔
      ScrollRule.strict = false) ∧
    (Survives (writeDisassociation (.default (elementsObj []))) readDisassociation (· = .default []) ↔
      ScrollRule.strict = false) ∧
    (Survives (writeDeauthentication (.default (elementsObj []))) readDeauthentication (· = .default []) ↔
      ScrollRule.strict = false) ∧
    (Survives (writeProbeRequest (.default (elementsObj []))) readProbeRequest (· = .default []) ↔
      ScrollRule.strict = false) ∧
    (Survives (writeMeshPeeringOpen (.default (elementsObj []))) readMeshPeeringOpen (· = .default []) ↔
      ScrollRule.strict = false) ∧
    (Survives (writeMeshPeeringClose (.default (elementsObj []))) readMeshPeeringClose (· = .default []) ↔
      ScrollRule.strict = false) := by
  refine ⟨body_default c22_association_request _ _ rfl rfl trivial,
    body_default c22_association_response _ _ rfl rfl ⟨?_, ?_⟩, body_default c22_authentication _ _ rfl rfl ⟨?_, ?_⟩,
    body_default c22_beacon _ _ rfl rfl trivial, body_default c22_disassociation _ _ rfl rfl ?_,
    body_default c22_deauthentication _ _ rfl rfl ?_, body_default c22_probe_request _ _ rfl rfl trivial,
    body_default c22_mesh_peering_open _ _ rfl rfl trivial, body_default c22_mesh_peering_close _ _ rfl rfl trivial⟩
  · intro v h; cases h
  · intro a h; cases h
  · intro v h; cases h
  · intro v h; cases h
  · intro v h; cases h
  · intro v h; cases h

/-- Violation: the default body of a mesh peering confirmation holds the association ID 0, so it is written but
refused when read, under either rule. -/
theorem c81_confirm : Unreadable (writeMeshPeeringConfirm (.default (elementsObj []))) readMeshPeeringConfirm := by
  have hw := c22_mesh_peering_confirm.writes (.default (elementsObj [])) [] slack elements_emits
  have hr : ∃ e, readMeshPeeringConfirm (15 :: 2 :: (toLE (0 : BitVec 16) ++ toLE (0xc000 : BitVec 16)) ++ []) =
      .err e := by
    rename_i i
    obtain ⟨s⟩ := i
    cases s <;> exact ⟨_, rfl⟩
  obtain ⟨e, he⟩ := hr
  exact unreadable_of hw he

/-- The default action bodies are read back as they were written. -/
theorem c81_actions :
    Survives (writeRawAction .default) readRawAction (· = .default) ∧
    Survives (writeVendorAction (.default (bytesObj []))) readVendorAction (· = .default []) := by
  refine ⟨?_, ?_⟩
  · exact survives_of (c48_raw_write _) (c48_raw_round_trip _ fun v h => nomatch h) rfl
  · exact survives_of (c48_vendor_write (.default (bytesObj [])) [] 0 (Emits.bytes [])) (c48_vendor_round_trip _ _) rfl

/-- The default header of a management frame is read back as it was written. -/
theorem c81_mgmt_header :
    Survives (writeMgmtHeader .default) (readMgmtHeader ManagementFrameHeader.default.fcf_flags) (· = .default) := by
  have := c21_round_trip_partial .default rfl []
  rw [List.append_nil] at this
  exact survives_of (c21_write _) this rfl

/-- Violation: the default data frame has no payload but a subtype that has one: it is read back with an empty
payload. -/
theorem c81_data_frame [Crc32] (fcs : Bool) :
    Survives (writeDataFrame .default fcs) (readDataFrame fcs) (· = ⟨.default, some []⟩) ∧
    (⟨.default, some []⟩ : DataFrame Bytes) ≠ .default := by
  refine ⟨?_, by decide⟩
  have hv : ValidData DataFrameHeader.default := ⟨by decide, fun v h => nomatch h⟩
  have hw := c49_write .default hv [] 0 ⟨rfl, rfl⟩ fcs
  have hr := c49_read ⟨.default, some []⟩ hv ⟨by decide, by decide, by decide⟩ ⟨fun _ => rfl, fun _ => rfl⟩ fcs
  exact survives_of hw hr rfl

/-- Violation: the default element for OWE transition mode is read back under the lax rule only. -/
theorem c81_owe : Survives (writeOWE .default) readOWE (· = .default) ↔ ScrollRule.strict = false := by
  have hw : Emits (writeOWE .default) (oweWire .default) (7 + slack) := by
    apply Emits.cast
    · apply WEmits.run
      apply WEmits.arr (hp := by decide)
      apply WEmits.u8
      apply WEmits.bind (WEmits.gwrite (Emits.bytes []))
      exact WEmits.pure
    · rfl
    · have := slack_le
      simp; omega
  constructor
  · rintro ⟨size, hs⟩
    obtain ⟨out, k, x, m, ho, hr, rfl⟩ := hs (List.replicate (size + (7 + slack)) 0) (by simp)
    rw [hw.ok _ (by simp)] at ho
    cases ho
    rw [List.take_left] at hr
    cases hst : ScrollRule.strict with
    | false => rfl
    | true =>
      obtain ⟨e, he⟩ := c20_owe_hidden_strict (Arr.zero 6) (by simp [slack, hst])
      have : readOWE (oweWire .default) = .err e := he
      rw [this] at hr
      cases hr
  · intro hst
    have hs0 : slack = 0 := by simp [slack, hst]
    exact survives_of hw ((c67_owe .default).2 ⟨by decide, fun _ => by rw [hs0]; exact Nat.zero_le _⟩) rfl

omit [ScrollRule] in
private theorem writes_of {w : Writer} {bs bs' : Bytes} {n : Nat} (hw : Emits w bs n) (h : bs = bs') :
    WritesBytes w bs' := h ▸ ⟨n, fun buf hb => hw.ok buf hb⟩

/-- The bytes of a default element: zeros, but for the version of an RSN element. -/
theorem c81_element_bytes :
    WritesBytes (writeDSSS .default) (List.replicate 1 0) ∧
    WritesBytes (writeIBSS .default) (List.replicate 2 0) ∧
    WritesBytes (writeHTCapabilities .default) (List.replicate 26 0) ∧
    WritesBytes (writeHTOperation .default) (List.replicate 22 0) ∧
    WritesBytes (writeVHTCapabilities .default) (List.replicate 12 0) ∧
    WritesBytes (writeSSID .default) [] ∧
    WritesBytes (writeSupportedRates .default) [] ∧
    WritesBytes (writeExtendedSupportedRates .default) [] ∧
    WritesBytes (writeTIM .default) [0, 0] ∧
    WritesBytes (writeRsnLists .empty) [1, 0] := by
  refine ⟨writes_of (c12_dsss.write _) (by rfl), writes_of (c12_ibss.write _) (by rfl),
    writes_of (c13_write _).1 (by rfl), writes_of (c14_write_partial _).1 (by rfl),
    writes_of (c12_vht_capabilities.write _) (by rfl), writes_of (c10_write _).1 (by rfl),
    writes_of (c11_write_supported [] .default rfl).1 (by rfl), writes_of (c11_write_extended .default).1 (by rfl),
    ?_, ?_⟩
  · obtain ⟨n, -, -, h⟩ := (c16_write .default [] (by intro b bits h; cases h)).2 (by decide)
    exact writes_of h (by rfl)
  · exact writes_of (c17_write _ c17_empty_wf (by simp [RsnSmall, RsnElement.empty])
      (by simp [RsnEndOk, RsnElement.empty])) (by rfl)

omit [ScrollRule] in
private theorem body_bytes {β : Type → Type} {read : Reader (β Bytes)} {write : β Obj → Writer}
    {get : (ε : Type) → β ε → ε} {set : (ε δ : Type) → β ε → δ → β δ}
    {fixed : (ε : Type) → β ε → Bytes} {valid : β Bytes → Prop} {n : Nat} {need : Nat → Nat}
    {same : Bytes → Bytes → Prop} [ScrollRule] (h : BodyOf read write get set fixed valid n need same)
    (b : β Obj) (bs : Bytes) (hb : get _ b = elementsObj []) (hbs : fixed _ b = bs) : WritesBytes (write b) bs := by
  have hw := h.writes b [] slack (by rw [hb]; exact elements_emits)
  exact writes_of hw (by rw [List.append_nil, hbs])

/-- The bytes of a default body: zeros, but for the reason "unspecified", the algorithm "open system" (which is zero),
the codes of an action, and the association ID of a mesh peering confirmation. -/
theorem c81_body_bytes :
    WritesBytes (writeAssociationRequest (.default (elementsObj []))) (List.replicate 4 0) ∧
    WritesBytes (writeAssociationResponse (.default (elementsObj []))) (List.replicate 6 0) ∧
    WritesBytes (writeAuthentication (.default (elementsObj []))) (List.replicate 6 0) ∧
    WritesBytes (writeBeaconLike (.default (elementsObj []))) (List.replicate 12 0) ∧
    WritesBytes (writeDisassociation (.default (elementsObj []))) [1, 0] ∧
    WritesBytes (writeDeauthentication (.default (elementsObj []))) [1, 0] ∧
    WritesBytes (writeProbeRequest (.default (elementsObj []))) [] ∧
    WritesBytes (writeMeshPeeringOpen (.default (elementsObj []))) [15, 1, 0, 0] ∧
    WritesBytes (writeMeshPeeringConfirm (.default (elementsObj []))) [15, 2, 0, 0, 0x00, 0xc0] ∧
    WritesBytes (writeMeshPeeringClose (.default (elementsObj []))) [15, 3] ∧
    WritesBytes (writeRawAction .default) [127] ∧
    WritesBytes (writeVendorAction (.default (bytesObj []))) [127, 0, 0, 0] ∧
    WritesBytes (writeMgmtHeader .default) (List.replicate 22 0) :=
  ⟨body_bytes c22_association_request _ _ rfl (by simp only [AssociationRequestBody.default]; decide),
    body_bytes c22_association_response _ _ rfl (by simp only [AssociationResponseBody.default]; decide),
    body_bytes c22_authentication _ _ rfl (by simp only [AuthenticationBody.default]; decide),
    body_bytes c22_beacon _ _ rfl (by simp only [BeaconLikeBody.default]; decide),
    body_bytes c22_disassociation _ _ rfl (by simp only [ReasonBody.default]; decide),
    body_bytes c22_deauthentication _ _ rfl (by simp only [ReasonBody.default]; decide),
    body_bytes c22_probe_request _ _ rfl rfl,
    body_bytes c22_mesh_peering_open _ _ rfl (by simp only [MeshPeeringOpenBody.default]; decide),
    body_bytes c22_mesh_peering_confirm _ _ rfl (by simp only [MeshPeeringConfirmBody.default]; decide),
    body_bytes c22_mesh_peering_close _ _ rfl rfl,
    writes_of (c48_raw_write _) (by rfl),
    writes_of (c48_vendor_write (.default (bytesObj [])) [] 0 (Emits.bytes [])) (by rfl),
    writes_of (c21_write _) (by rfl)⟩

/-- The bytes of the default data frame: its type, then zeros. -/
theorem c81_data_bytes [Crc32] : WritesBytes (writeDataFrame .default false) (8 :: List.replicate 23 0) :=
  writes_of (c49_write .default ⟨by decide, fun v h => nomatch h⟩ [] 0 ⟨rfl, rfl⟩ false) (by rfl)

-- What the default beacon body is: timestamp, interval and capabilities, all zero.
example : writeBeaconLike (.default (elementsObj [])) (List.replicate 13 0xff) =
    .ok (List.replicate 12 0 ++ [0xff], 12) := by
  rename_i i
  obtain ⟨s⟩ := i
  cases s <;> rfl

/-! ## What a default claims -/

omit [ScrollRule] in
/-- The enumerated fields of the default packed values of the HT elements and of the RSN capabilities hold the defaults
of their types.  What is missing: the power save mode and the VHT MCS maps, below. -/
theorem c81_fields_partial :
    let ht := HTCapabilitiesElement.default
    let op := HTOperationElement.default
    MAXAMpduLength.fromBits (ht.ampdu_parameters.max_a_mpdu_length.zeroExtend 8) = .default ∧
    MpduDensity.fromBits (ht.ampdu_parameters.mpdu_density.zeroExtend 8) = .default ∧
    BeamformingCalibration.fromBits (ht.transmit_beamforming_capabilities.calibration.zeroExtend 8) = .default ∧
    BeamformingFeedback.fromBits
      (ht.transmit_beamforming_capabilities.explicit_transmit_beamforming_csi_feedback.zeroExtend 8) = .default ∧
    BeamformingFeedback.fromBits
      (ht.transmit_beamforming_capabilities.explicit_noncompressed_beamforming_feedback_capable.zeroExtend 8) =
        .default ∧
    BeamformingFeedback.fromBits
      (ht.transmit_beamforming_capabilities.explicit_compressed_beamforming_feedback_capable.zeroExtend 8) =
        .default ∧
    GroupingCapability.fromBits (ht.transmit_beamforming_capabilities.minimal_grouping.zeroExtend 8) = .default ∧
    SecondaryChannelOffset.fromBits (op.ht_operation_information.secondary_channel_offset.zeroExtend 8) = .default ∧
    HTProtectionMode.fromBits (op.ht_operation_information.ht_protection_mode.zeroExtend 8) = .default ∧
    OptionalFeatureConfig.fromBits (RsnCapabilities.new.mfp_config.zeroExtend 8) = .default ∧
    OptionalFeatureConfig.fromBits (RsnCapabilities.new.spp_ampdu_config.zeroExtend 8) = .default := by
  decide

omit [ScrollRule] in
/-- Violation: the default HT capabilities announce static spatial multiplexing power save, although the default of
that setting is "disabled". -/
theorem c81_power_save :
    SmPwSave.fromBits (HTCapabilitiesElement.default.ht_capabilities_info.sm_power_save.zeroExtend 8) = .Static ∧
    SmPwSave.default = .Disabled := by
  decide

omit [ScrollRule] in
/-- Violation: the default VHT capabilities claim MCS 0 to 7 for every number of spatial streams from one to eight, in
both directions, although the default of that setting is "not supported". -/
theorem c81_vht_claims (n : Nat) (h : 1 ≤ n ∧ n ≤ 8) :
    VHTCapabilitiesElement.default.supported_vht_mcs_and_nss_set.rxMap.supportForNss n = some .ZeroToSeven ∧
    VHTCapabilitiesElement.default.supported_vht_mcs_and_nss_set.txMap.supportForNss n = some .ZeroToSeven ∧
    VHTMCSMap.default.supportForNss n = some .ZeroToSeven ∧ VHTMCSSupport.default = .NotSupported := by
  have : n = 1 ∨ n = 2 ∨ n = 3 ∨ n = 4 ∨ n = 5 ∨ n = 6 ∨ n = 7 ∨ n = 8 := by omega
  rcases this with rfl | rfl | rfl | rfl | rfl | rfl | rfl | rfl <;> decide

omit [ScrollRule] in
example : VHTCapabilitiesElement.default.supported_vht_mcs_and_nss_set.rxMap.supportForNss 8 = some .ZeroToSeven :=
  (c81_vht_claims 8 (by decide)).1

omit [ScrollRule] in
/-- The default set of HT MCS claims none, whatever the index. -/
theorem c81_ht_claims_none (b : Bool) (h : b ∈ SupportedMCSSet.default.supportedRxMcsIndices) : b = false := by
  have : SupportedMCSSet.default.supportedRxMcsIndices = List.replicate 80 false := by decide +kernel
  rw [this] at h
  exact List.eq_of_mem_replicate h

/-! ## Iterators -/

omit [ScrollRule] in
/-- The default iterators give nothing, stay as they are, and write nothing. -/
theorem c81_iterators {α : Type} (r : Reader α) :
    ReadIterator.default.next r = .ok (none, .default) ∧ ReadIterator.default.len = 0 ∧
    ReadIterator.default.measure = 0 :=
  ⟨rfl, rfl, rfl⟩

/-- The default iterators of rates and of A-MSDU subframes give nothing. -/
theorem c81_other_iterators :
    RatesReadIterator.default.next = .ok (none, .default) ∧ SubframeIter.default.next = .ok (none, .default) ∧
    SubframeIter.default.lengthInBytes = 0 :=
  ⟨rfl, rfl, rfl⟩

/-! ## Bitmaps -/

omit [ScrollRule] in
/-- The default bitmaps of a traffic indication map announce nothing. -/
theorem c81_bitmaps :
    TIMBits.defaultStatic.asBytes = .ok [0] ∧ TIMBits.defaultConst.asBytes = .ok [0] ∧
    TIMBitmap.default.trafficIndicator = false ∧ TIMBitmap.default.aidIter = .ok none := by
  decide +kernel

/-- Violation: the default bitmap is lost in an element, which is read back without bitmap. -/
theorem c81_bitmap_lost :
    Survives (writeTIM ⟨0, 0, some .default⟩) readTIM (· = ⟨0, 0, none⟩) ∧
    (⟨0, 0, none⟩ : TIMElement) ≠ ⟨0, 0, some .default⟩ := by
  refine ⟨?_, by decide⟩
  obtain ⟨n, -, -, h⟩ := (c16_write ⟨0, 0, some .default⟩ [] (by intro b bits h h'; cases h; cases h')).2 (by decide)
  have hr : readTIM (timBytes ⟨0, 0, some .default⟩ []) = _ := (c16_parse 0 0 []).2 (by decide)
  exact survives_of h hr rfl

end Verif
