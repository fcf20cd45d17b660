import Verif.Props.C18
/-!
# C02 for the RSN selectors, and the optional feature setting which violates it
-/
namespace Verif

/-- Cipher suite selectors: the codes of the standard decode to the variant of that name and encode back; any
other of the 2^32 codes is kept. -/
theorem c02_IEEE80211CipherSuiteSelector :
    Spec.CodeEnum IEEE80211CipherSuiteSelector.withCipherSuiteSelector
      IEEE80211CipherSuiteSelector.cipherSuiteSelector .Unknown
      (Spec.cipherSuites.map fun p => (Spec.ieeeCode p.1, p.2)) := c18_cipher_codes

/-- AKM suite selectors, likewise. -/
theorem c02_IEEE80211AkmType :
    Spec.CodeEnum IEEE80211AkmType.withCipherSuiteSelector IEEE80211AkmType.cipherSuiteSelector .Unknown
      (Spec.akmSuites.map fun p => (Spec.ieeeCode p.1, p.2)) := c18_akm_codes

/-- The two-bit optional feature setting keeps its code when read and written exactly for the codes 0 and
1. -/
theorem c02_OptionalFeatureConfig_partial (v : BitVec 2) :
    (OptionalFeatureConfig.fromBits (v.zeroExtend 8)).intoBits = v.zeroExtend 8 ↔ v = 0 ∨ v = 1 :=
  c18_feature_bits_partial v

/-- Violation: the codes 2 and 3 of the optional feature setting are exchanged. -/
theorem c02_OptionalFeatureConfig_changed :
    (OptionalFeatureConfig.fromBits 2).intoBits = 3 ∧ (OptionalFeatureConfig.fromBits 3).intoBits = 2 :=
  c18_feature_bits_changed

/-- Concrete case: an unknown vendor's selector survives. -/
example : (IEEE80211CipherSuiteSelector.withCipherSuiteSelector 0x01f25000) = .Unknown 0x01f25000 := by
  decide

end Verif
