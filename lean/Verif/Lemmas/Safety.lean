import Verif.Lemmas.Frames
import Verif.Props.C05
import Verif.Props.C08
import Verif.Props.C12
import Verif.Props.C13
import Verif.Props.C17
import Verif.Props.C21
import Verif.Props.C27
import Verif.Props.C31
import Verif.Model.Elements.Tim
import Verif.Model.Elements.Rates
import Verif.Model.Elements.Vendor
import Verif.Model.Frames.Control
/-!
# Safety of each parser: helpers for C41 and C43
-/
namespace Verif

/-! ## Steps which may leave the input -/

/-- A body which never panics, wherever it starts. -/
def Rd.NoPanic {α : Type} (p : Rd α) : Prop := ∀ (inp : Bytes) (off : Nat), p inp off ≠ .panic

namespace Rd.NoPanic

theorem run {α : Type} {p : Rd α} (h : Rd.NoPanic p) (inp : Bytes) : Rd.run p inp ≠ .panic := h inp 0

theorem pure {α : Type} {a : α} : Rd.NoPanic (pure a : Rd α) := by
  intro inp off
  show Rd.pure a inp off ≠ _
  simp [Rd.pure]

theorem bind {α β : Type} {p : Rd α} {f : α → Rd β} (h1 : Rd.NoPanic p) (h2 : ∀ a, Rd.NoPanic (f a)) :
    Rd.NoPanic (p >>= f) := by
  intro inp off
  show Rd.bind p f inp off ≠ _
  unfold Rd.bind
  have := h1 inp off
  cases hp : p inp off with
  | ok x => exact h2 _ _ _
  | err e => simp
  | panic => exact absurd hp this

theorem gread [ScrollRule] {α : Type} {r : Reader α} (h : ∀ inp, r inp ≠ .panic) :
    Rd.NoPanic (Rd.gread r) := by
  intro inp off
  simp only [Rd.gread]
  split
  · simp
  · have := h (inp.drop off)
    cases hr : r (inp.drop off) with
    | ok x => simp
    | err e => simp
    | panic => exact absurd hr this

theorem advance {n : Nat} : Rd.NoPanic (Rd.advance n) := by
  intro inp off
  simp [Rd.advance]

end Rd.NoPanic

variable [ScrollRule]

theorem readGtk_safe : SafeReader readGtk := by
  apply Rd.Safe.run
  rd_safe

theorem readBandAndChannelInfo_safe : SafeReader readBandAndChannelInfo := by
  apply Rd.Safe.run
  rd_safe

theorem readOWE_safe : SafeReader readOWE := by
  apply Rd.Safe.run
  rd_safe
  apply Rd.Safe.bind (Rd.Safe.gread (readStr_safe _)); intro _
  apply Rd.Safe.bind (Rd.Safe.greadOk readBandAndChannelInfo_safe); intro _
  exact Rd.Safe.pure

omit [ScrollRule] in
theorem readSupportedRates_safe : SafeReader readSupportedRates := by
  intro inp
  simp only [readSupportedRates]
  split
  · rename_i h; split at h <;> simp_all
  · trivial
  · rename_i h; split at h <;> simp_all

omit [ScrollRule] in
theorem readExtendedSupportedRates_safe : SafeReader readExtendedSupportedRates := by
  intro inp
  simp only [readExtendedSupportedRates]
  split
  · rename_i h; split at h <;> simp_all
  · trivial
  · rename_i h; split at h <;> simp_all

theorem readTIMBitmap_safe : SafeReader readTIMBitmap := by
  apply Rd.Safe.run
  rd_safe

theorem readTIM_safe : SafeReader readTIM := by
  apply Rd.Safe.run
  rd_safe
  rename_i p _
  apply Rd.Safe.bind (Rd.Safe.lift (by simp only [checkDtimParameters]; (repeat' split) <;> simp)); intro _
  apply Rd.Safe.bind (Rd.Safe.greadOk readTIMBitmap_safe); intro _
  exact Rd.Safe.pure

omit [ScrollRule] in
theorem readSSID_safe : SafeReader readSSID := by
  intro inp
  simp only [readSSID]
  by_cases h : 32 < inp.length
  · simp [h]
  · have := readStr_safe inp.length inp
    rw [if_neg h]
    cases hr : readStr inp.length inp with
    | ok x => rw [hr] at this; exact this
    | err e => trivial
    | panic => rw [hr] at this; exact this

theorem readRawExtElement_safe : SafeReader readRawExtElement := by
  apply Rd.Safe.run
  rd_safe

theorem readTypedExtElement_safe {α : Type} {r : Reader α} (h : SafeReader r) :
    SafeReader (readTypedExtElement r) := by
  apply Rd.Safe.run
  rd_safe
  apply Rd.Safe.bind (Rd.Safe.gread h); intro _
  exact Rd.Safe.pure

theorem readCipherSuite_safe : SafeReader readCipherSuite := by
  apply Rd.Safe.run
  rd_safe

theorem readAkm_safe : SafeReader readAkm := by
  apply Rd.Safe.run
  rd_safe

theorem readRsnList_safe : Rd.Safe readRsnList := by
  apply Rd.Safe.bind (Rd.Safe.greadOk (readLE_fixed _).safe); intro o
  cases o with
  | none => exact Rd.Safe.pure
  | some n =>
    apply Rd.Safe.bind (Rd.Safe.greadOk (readBytes_fixed _).safe); intro o
    cases o <;> exact Rd.Safe.pure

theorem readRsn_safe : SafeReader readRsn := by
  apply Rd.Safe.run
  apply Rd.Safe.bind (Rd.Safe.gread (readLE_fixed _).safe); intro v
  apply Rd.Safe.ite_fail
  apply Rd.Safe.bind (Rd.Safe.greadOk readCipherSuite_safe); intro o
  cases o with
  | none => exact Rd.Safe.pure
  | some g =>
  apply Rd.Safe.bind readRsnList_safe; intro o
  cases o with
  | none => exact Rd.Safe.pure
  | some p =>
  apply Rd.Safe.bind readRsnList_safe; intro o
  cases o with
  | none => exact Rd.Safe.pure
  | some a =>
  apply Rd.Safe.bind (Rd.Safe.greadOk (readLE_fixed _).safe); intro o
  cases o with
  | none => exact Rd.Safe.pure
  | some c =>
  apply Rd.Safe.bind readRsnList_safe; intro o
  cases o with
  | none => exact Rd.Safe.pure
  | some m =>
  apply Rd.Safe.bind (Rd.Safe.greadOk readCipherSuite_safe); intro o
  cases o <;> exact Rd.Safe.pure

theorem readControlFrame_safe (s : ControlFrameSubtype) (f : FCFFlags) :
    SafeReader (readControlFrame s f) := by
  apply Rd.Safe.run
  split <;> rd_safe

theorem readSupportedMCSSet_ne_panic (inp : Bytes) : readSupportedMCSSet inp ≠ .panic := by
  apply Rd.NoPanic.run
  apply Rd.NoPanic.bind (Rd.NoPanic.gread (readArr_fixed 10).safe.ne_panic); intro _
  apply Rd.NoPanic.bind (Rd.NoPanic.gread (readArr_fixed 4).safe.ne_panic); intro _
  apply Rd.NoPanic.bind Rd.NoPanic.advance; intro _
  exact Rd.NoPanic.pure

theorem readHTOperation_ne_panic (inp : Bytes) : readHTOperation inp ≠ .panic := by
  apply Rd.NoPanic.run
  apply Rd.NoPanic.bind (Rd.NoPanic.gread (readLE_fixed 8).safe.ne_panic); intro _
  apply Rd.NoPanic.bind (Rd.NoPanic.gread (readArr_fixed 5).safe.ne_panic); intro _
  apply Rd.NoPanic.bind (Rd.NoPanic.gread readSupportedMCSSet_ne_panic); intro _
  exact Rd.NoPanic.pure

theorem readHTCapabilities_safe : SafeReader readHTCapabilities := by
  intro inp
  by_cases h : 26 ≤ inp.length
  · obtain ⟨e, he, _⟩ := c13_parse_write inp h
    rw [he]; exact h
  · obtain ⟨x, hx⟩ := c13_short inp (by omega)
    rw [hx]; trivial

theorem readAssociationRequest_safe : SafeReader readAssociationRequest := by
  apply Rd.Safe.run
  rd_safe
  apply Rd.Safe.bind (Rd.Safe.gread readElements_safe); intro _
  exact Rd.Safe.pure

theorem readAssociationResponse_safe : SafeReader readAssociationResponse := by
  apply Rd.Safe.run
  rd_safe
  apply Rd.Safe.bind (Rd.Safe.lift (by simp only [aidOfResponse]; (repeat' split) <;> simp)); intro _
  apply Rd.Safe.bind (Rd.Safe.gread readElements_safe); intro _
  exact Rd.Safe.pure

theorem readAuthentication_safe : SafeReader readAuthentication := by
  apply Rd.Safe.run
  rd_safe
  apply Rd.Safe.bind (Rd.Safe.gread readElements_safe); intro _
  exact Rd.Safe.pure

theorem readBeaconLike_safe : SafeReader readBeaconLike := by
  apply Rd.Safe.run
  rd_safe
  apply Rd.Safe.bind (Rd.Safe.gread readElements_safe); intro _
  exact Rd.Safe.pure

theorem readDisassociation_safe : SafeReader readDisassociation := by
  apply Rd.Safe.run
  rd_safe
  apply Rd.Safe.bind (Rd.Safe.gread readElements_safe); intro _
  exact Rd.Safe.pure

theorem readDeauthentication_safe : SafeReader readDeauthentication := by
  apply Rd.Safe.run
  rd_safe
  apply Rd.Safe.bind (Rd.Safe.gread readElements_safe); intro _
  exact Rd.Safe.pure

theorem readProbeRequest_safe : SafeReader readProbeRequest := by
  apply Rd.Safe.run
  apply Rd.Safe.bind (Rd.Safe.gread readElements_safe); intro _
  exact Rd.Safe.pure

theorem readRawAction_safe : SafeReader readRawAction := by
  apply Rd.Safe.run
  rd_safe

theorem readVendorAction_safe : SafeReader readVendorAction := by
  apply Rd.Safe.run
  rd_safe
  apply Rd.Safe.ite_fail
  rd_safe

theorem readMeshPeeringOpen_safe : SafeReader readMeshPeeringOpen := by
  apply Rd.Safe.run
  apply Rd.Safe.bind (checkSelfProtected_safe _); intro _
  rd_safe
  apply Rd.Safe.bind (Rd.Safe.gread readElements_safe); intro _
  exact Rd.Safe.pure

theorem readMeshPeeringConfirm_safe : SafeReader readMeshPeeringConfirm := by
  apply Rd.Safe.run
  apply Rd.Safe.bind (checkSelfProtected_safe _); intro _
  rd_safe
  apply Rd.Safe.bind (Rd.Safe.lift (by split <;> simp)); intro _
  apply Rd.Safe.bind (Rd.Safe.gread readElements_safe); intro _
  exact Rd.Safe.pure

theorem readMeshPeeringClose_safe : SafeReader readMeshPeeringClose := by
  apply Rd.Safe.run
  apply Rd.Safe.bind (checkSelfProtected_safe _); intro _
  apply Rd.Safe.bind (Rd.Safe.gread readElements_safe); intro _
  exact Rd.Safe.pure

theorem readMgmtFrameBody_safe {β : Type} {r : Reader β} (hr : SafeReader r) :
    SafeReader (readMgmtFrameBody r) := by
  apply Rd.Safe.run
  apply Rd.Safe.bind (Rd.Safe.gread (readLE_fixed 16).safe); intro f
  dsimp only
  split
  · apply Rd.Safe.bind (Rd.Safe.gread (c21_fixed _).safe); intro _
    apply Rd.Safe.bind (Rd.Safe.gread hr); intro _
    exact Rd.Safe.pure
  · exact Rd.Safe.fail

theorem readDataFrameBody_safe : SafeReader readDataFrameBody := by
  apply Rd.Safe.run
  apply Rd.Safe.bind (Rd.Safe.gread c27_safe)
  intro h
  split
  · apply Rd.Safe.bind Rd.Safe.remaining; intro _
    exact Rd.Safe.pure
  · exact Rd.Safe.pure

theorem readCryptoHeader_safe : SafeReader readCryptoHeader := by
  apply Rd.Safe.run
  rd_safe
  apply Rd.Safe.ite_fail
  exact Rd.Safe.pure

end Verif
