import Verif.Spec.Parsers
import Verif.Lemmas.Safety
import Verif.Props.C37
/-!
# Every listed parser is safe
-/
namespace Verif
open Spec

theorem SafeReader.noPanic {α : Type} {r : Reader α} (h : SafeReader r) : NoPanic r := by
  intro inp
  cases hr : r inp with
  | ok x => exact .inl ⟨x.1, x.2, rfl⟩
  | err e => exact .inr ⟨e, rfl⟩
  | panic => exact absurd hr (h.ne_panic inp)

theorem noPanic_of_ne {α : Type} {r : Reader α} (h : ∀ inp, r inp ≠ .panic) : NoPanic r := by
  intro inp
  cases hr : r inp with
  | ok x => exact .inl ⟨x.1, x.2, rfl⟩
  | err e => exact .inr ⟨e, rfl⟩
  | panic => exact absurd hr (h inp)

theorem SafeReader.withinInput {α : Type} {r : Reader α} (h : SafeReader r) : WithinInput r := by
  intro inp v n hr
  have := h inp
  rw [hr] at this
  exact this

variable [ScrollRule] [Crc32]

theorem parser_safe {α : Type} {r : Reader α} (h : Parser r) : SafeReader r := by
  induction h with
  | rawElement => exact c08_safe
  | rawExtElement => exact readRawExtElement_safe
  | typedExtElement r _ ih => exact readTypedExtElement_safe ih
  | vendorSpecific => intro inp; simp [readVendorSpecificElement]
  | elements => exact readElements_safe
  | ssid => exact readSSID_safe
  | supportedRates => exact readSupportedRates_safe
  | extendedSupportedRates => exact readExtendedSupportedRates_safe
  | dsss => exact c12_dsss.safe
  | ibss => exact c12_ibss.safe
  | bssLoad => exact c12_bss_load.safe
  | timBitmap => exact readTIMBitmap_safe
  | tim => exact readTIM_safe
  | htCapabilities => exact readHTCapabilities_safe
  | vhtCapabilities => exact c12_vht_capabilities.safe
  | vhtOperation => exact c12_vht_operation.safe
  | meshConfiguration => exact c12_mesh_configuration.safe
  | cipherSuite => exact readCipherSuite_safe
  | akm => exact readAkm_safe
  | pmkid => exact (readArr_fixed 16).safe
  | rsn => exact readRsn_safe
  | gtk => exact readGtk_safe
  | bandAndChannel => exact readBandAndChannelInfo_safe
  | owe => exact readOWE_safe
  | mgmtHeader f => exact (c21_fixed f).safe
  | associationRequest => exact readAssociationRequest_safe
  | associationResponse => exact readAssociationResponse_safe
  | authentication => exact readAuthentication_safe
  | beaconLike => exact readBeaconLike_safe
  | disassociation => exact readDisassociation_safe
  | deauthentication => exact readDeauthentication_safe
  | probeRequest => exact readProbeRequest_safe
  | rawAction => exact readRawAction_safe
  | vendorAction => exact readVendorAction_safe
  | meshPeeringOpen => exact readMeshPeeringOpen_safe
  | meshPeeringConfirm => exact readMeshPeeringConfirm_safe
  | meshPeeringClose => exact readMeshPeeringClose_safe
  | mgmtFrame r _ ih => exact readMgmtFrameBody_safe ih
  | control s f => exact readControlFrame_safe s f
  | dataHeader => exact c27_safe
  | dataFrame => exact readDataFrameBody_safe
  | dataPayload b => intro inp; simp [readDataFramePayload]
  | empty => intro inp; simp [readEmpty]
  | cryptoHeader => exact readCryptoHeader_safe
  | eapolKey akm => exact c37_safe akm

end Verif
