import Verif.Lemmas.Rsn
/-!
# C18: RSN suite tables: selector codes, key lengths, optional features

A selector on the wire is four bytes: the OUI and the suite type.
-/
namespace Verif

/-- The selector with OUI 00-0f-ac and suite type `t`, as the little-endian integer of its bytes. -/
def Spec.ieeeCode (t : Nat) : Nat := 0x00 + 0x0f * 2 ^ 8 + 0xac * 2 ^ 16 + t * 2 ^ 24

/-- Cipher suite types of IEEE 802.11 table "cipher suite selectors". -/
def Spec.cipherSuites : List (Nat × IEEE80211CipherSuiteSelector) := [
  (0, .UseGroupCipherSuite), (1, .Wep40), (2, .Tkip), (4, .Ccmp128), (5, .Wep104),
  (6, .BipCmac128), (7, .GroupAddessedTrafficNotAllowed), (8, .Gcmp128), (9, .Gcmp256),
  (10, .Ccmp256), (11, .BIPGcmp128), (12, .BIPGcmp256), (13, .BIPCcmp256)]

/-- AKM suite types, as named by the crate; the last two have other numbers in the standard, see
`c18_group_dependent_wrong`. -/
def Spec.akmSuites : List (Nat × IEEE80211AkmType) := [
  (0, .None), (1, .Wpa), (2, .Psk), (3, .FTOverIEEE8021X), (4, .FTUsingPsk), (5, .WpaSha256),
  (6, .PskSha256), (7, .Tdls), (8, .Sae), (9, .FTUsingSae), (10, .APPeerKey),
  (11, .WpaSha256SuiteB), (12, .WpaSha384SuiteB), (13, .FTOverIEEE8021XSha384),
  (14, .FilsSha256Aes256), (15, .FilsSha384Aes512), (16, .FTOverFilsSha256Aes256),
  (17, .FTOverFilsSha384Aes512), (18, .OpportunisticWirelessEncryption), (19, .FTUsingPskSha384),
  (20, .PskSha384), (21, .Pasn), (22, .SaeGroupDefend), (23, .FTUsingSaeGroupDefend)]

/-- Decoding and encoding of cipher suite selectors over all 2^32 codes. -/
theorem c18_cipher_codes : Spec.CodeEnum IEEE80211CipherSuiteSelector.withCipherSuiteSelector
    IEEE80211CipherSuiteSelector.cipherSuiteSelector .Unknown
    (Spec.cipherSuites.map fun p => (Spec.ieeeCode p.1, p.2)) := by
  refine codeEnum_of (tab := IEEE80211CipherSuiteSelector.table) ?_ ?_ (fun _ => rfl)
    IEEE80211CipherSuiteSelector.table_nodup (by decide) ?_
  · intro v
    rw [cipher_with_eq]
    unfold IEEE80211CipherSuiteSelector.fromBits
    cases lookupCode v IEEE80211CipherSuiteSelector.table <;> rfl
  · intro p hp
    rw [cipher_sel_eq]
    exact IEEE80211CipherSuiteSelector.table_intoBits p hp
  · intro e; cases e <;> first | exact .inr ⟨_, rfl⟩ | (left; decide)

/-- The same for AKM suite selectors. -/
theorem c18_akm_codes : Spec.CodeEnum IEEE80211AkmType.withCipherSuiteSelector
    IEEE80211AkmType.cipherSuiteSelector .Unknown
    (Spec.akmSuites.map fun p => (Spec.ieeeCode p.1, p.2)) := by
  refine codeEnum_of (tab := IEEE80211AkmType.table) ?_ ?_ (fun _ => rfl)
    IEEE80211AkmType.table_nodup (by decide) ?_
  · intro v
    rw [akm_with_eq]
    unfold IEEE80211AkmType.fromBits
    cases lookupCode v IEEE80211AkmType.table <;> rfl
  · intro p hp
    rw [akm_sel_eq]
    exact IEEE80211AkmType.table_intoBits p hp
  · intro e; cases e <;> first | exact .inr ⟨_, rfl⟩ | (left; decide)

/-- Violation: SAE whose hash depends on the group, without and with fast transition, has the suite
types 24 and 25 in the standard; the library sends 22 and 23 for them and does not know 24 and 25. -/
theorem c18_group_dependent_wrong :
    (∀ c, c.toNat = Spec.ieeeCode 24 ∨ c.toNat = Spec.ieeeCode 25 →
      IEEE80211AkmType.withCipherSuiteSelector c = .Unknown c) ∧
    IEEE80211AkmType.SaeGroupDefend.cipherSuiteSelector.toNat = Spec.ieeeCode 22 ∧
    IEEE80211AkmType.FTUsingSaeGroupDefend.cipherSuiteSelector.toNat = Spec.ieeeCode 23 := by
  refine ⟨fun c hc => ?_, by decide, by decide⟩
  have h : c = BitVec.ofNat 32 (Spec.ieeeCode 24) ∨ c = BitVec.ofNat 32 (Spec.ieeeCode 25) := by
    rcases hc with h | h
    · exact .inl (BitVec.eq_of_toNat_eq (by rw [h]; decide))
    · exact .inr (BitVec.eq_of_toNat_eq (by rw [h]; decide))
  rcases h with rfl | rfl <;> decide

/-- A selector read from four bytes is written as the same four bytes. -/
theorem c18_cipher_wire [ScrollRule] (b0 b1 b2 b3 : Byte) (rest : Bytes) :
    ∃ c, readCipherSuite (b0 :: b1 :: b2 :: b3 :: rest) = .ok (c, 4) ∧
      Emits (writeCipherSuite c) [b0, b1, b2, b3] 4 := by
  refine ⟨.withCipherSuiteSelector (fromLE 32 [b0, b1, b2, b3]), ?_, ?_⟩
  · have := readCipherSuite_toLE (fromLE 32 [b0, b1, b2, b3]) rest
    rw [toLE_fromLE rfl _ rfl] at this
    simpa only [List.cons_append, List.nil_append] using this
  · have := writeCipherSuite_emits (.withCipherSuiteSelector (fromLE 32 [b0, b1, b2, b3]))
    rw [c18_cipher_codes.lossless, toLE_fromLE rfl _ rfl] at this
    exact this

/-- The same for AKM suite selectors. -/
theorem c18_akm_wire [ScrollRule] (b0 b1 b2 b3 : Byte) (rest : Bytes) :
    ∃ c, readAkm (b0 :: b1 :: b2 :: b3 :: rest) = .ok (c, 4) ∧
      Emits (writeAkm c) [b0, b1, b2, b3] 4 := by
  refine ⟨.withCipherSuiteSelector (fromLE 32 [b0, b1, b2, b3]), ?_, ?_⟩
  · have := readAkm_toLE (fromLE 32 [b0, b1, b2, b3]) rest
    rw [toLE_fromLE rfl _ rfl] at this
    simpa only [List.cons_append, List.nil_append] using this
  · have := writeAkm_emits (.withCipherSuiteSelector (fromLE 32 [b0, b1, b2, b3]))
    rw [c18_akm_codes.lossless, toLE_fromLE rfl _ rfl] at this
    exact this

/-- Lengths in bytes of the temporal key of each cipher suite type (IEEE 802.11, table "cipher
suite key lengths"). -/
def Spec.tkLens : List (Nat × Nat) := [(1, 5), (2, 32), (4, 16), (5, 13), (6, 16), (8, 16), (9, 32),
  (10, 32), (11, 16), (12, 32), (13, 32)]

/-- Lengths in bytes of the MIC of each cipher suite type: 8 for TKIP, CCMP-128 and BIP-CMAC-128,
16 for the GCMP, 256-bit and GMAC suites; none for WEP. -/
def Spec.micLens : List (Nat × Nat) := [(2, 8), (4, 8), (6, 8), (8, 16), (9, 16), (10, 16), (11, 16),
  (12, 16), (13, 16)]

/-- Lengths of the EAPOL-Key confirmation key by AKM type (table "integrity and key wrap
algorithms"; types 7 and 10 as in the crate). -/
def Spec.kckLens : List (Nat × Nat) := [(1, 16), (2, 16), (3, 16), (4, 16), (5, 16), (6, 16), (7, 16),
  (8, 16), (9, 16), (10, 16), (11, 16), (12, 24), (13, 24), (19, 24), (20, 24)]

/-- Lengths of the EAPOL-Key encryption key by AKM type. -/
def Spec.kekLens : List (Nat × Nat) := [(1, 16), (2, 16), (3, 16), (4, 16), (5, 16), (6, 16), (7, 16),
  (8, 16), (9, 16), (10, 16), (11, 16), (12, 32), (13, 32), (14, 32), (15, 64), (16, 32), (17, 64),
  (19, 32), (20, 32)]

/-- Lengths of the second confirmation key by AKM type. -/
def Spec.kck2Lens : List (Nat × Nat) := [(16, 16), (17, 24)]

/-- Lengths of the second encryption key by AKM type. -/
def Spec.kek2Lens : List (Nat × Nat) := [(16, 16), (17, 32)]

/-- Lengths of the EAPOL-Key MIC by AKM type (types 16 and 17 as in the crate). -/
def Spec.keyMicLens : List (Nat × Nat) := [(1, 16), (2, 16), (3, 16), (4, 16), (5, 16), (6, 16),
  (7, 16), (8, 16), (9, 16), (10, 16), (11, 16), (12, 24), (13, 24), (14, 0), (15, 0), (16, 16),
  (17, 24), (19, 24), (20, 24)]

/-- The entry for a selector of the IEEE; vendor selectors have none. -/
def Spec.suiteLen (t : List (Nat × Nat)) (b0 b1 b2 b3 : Byte) : Option Nat :=
  if [b0, b1, b2] = [0x00, 0x0f, 0xac] then t.lookup b3.toNat else none

private theorem len_of {f : Byte → Option Nat} {t : List (Nat × Nat)} (b0 b1 b2 b3 : Byte)
    (h : ∀ i : Fin 256, f ⟨i⟩ = t.lookup i.val) :
    (match (if b0 = 0x00 ∧ b1 = 0x0f ∧ b2 = 0xac then some b3 else none) with
      | some t => f t
      | none => none) = Spec.suiteLen t b0 b1 b2 b3 := by
  by_cases hc : b0 = 0x00 ∧ b1 = 0x0f ∧ b2 = 0xac
  · obtain ⟨rfl, rfl, rfl⟩ := hc
    simpa [Spec.suiteLen] using h b3.toFin
  · have hn : ¬ [b0, b1, b2] = [0x00, 0x0f, 0xac] := by
      intro h
      simp only [List.cons.injEq, and_true] at h
      exact hc h
    rw [if_neg hc, Spec.suiteLen, if_neg hn]

theorem c18_tk_len (b0 b1 b2 b3 : Byte) :
    (IEEE80211CipherSuiteSelector.withCipherSuiteSelector (fromLE 32 [b0, b1, b2, b3])).tkLen =
      Spec.suiteLen Spec.tkLens b0 b1 b2 b3 := by
  simp only [IEEE80211CipherSuiteSelector.tkLen, c18_cipher_codes.lossless, ieee_type]
  refine len_of (f := fun t => _) b0 b1 b2 b3 ?_
  decide +kernel

theorem c18_mic_len (b0 b1 b2 b3 : Byte) :
    (IEEE80211CipherSuiteSelector.withCipherSuiteSelector (fromLE 32 [b0, b1, b2, b3])).micLen =
      Spec.suiteLen Spec.micLens b0 b1 b2 b3 := by
  simp only [IEEE80211CipherSuiteSelector.micLen, c18_cipher_codes.lossless, ieee_type]
  refine len_of (f := fun t => _) b0 b1 b2 b3 ?_
  decide +kernel

/-- Without the rows for types 19 and 20; the full statement has them, see `c18_sha384_missing`. -/
theorem c18_kck_len_partial (b0 b1 b2 b3 : Byte) :
    (IEEE80211AkmType.withCipherSuiteSelector (fromLE 32 [b0, b1, b2, b3])).kckLen =
      Spec.suiteLen (Spec.kckLens.filter (·.1 < 19)) b0 b1 b2 b3 := by
  simp only [IEEE80211AkmType.kckLen, c18_akm_codes.lossless, ieee_type]
  refine len_of (f := fun t => _) b0 b1 b2 b3 ?_
  decide +kernel

/-- Without the rows for types 19 and 20; the full statement has them, see `c18_sha384_missing`. -/
theorem c18_kek_len_partial (b0 b1 b2 b3 : Byte) :
    (IEEE80211AkmType.withCipherSuiteSelector (fromLE 32 [b0, b1, b2, b3])).kekLen =
      Spec.suiteLen (Spec.kekLens.filter (·.1 < 19)) b0 b1 b2 b3 := by
  simp only [IEEE80211AkmType.kekLen, c18_akm_codes.lossless, ieee_type]
  refine len_of (f := fun t => _) b0 b1 b2 b3 ?_
  decide +kernel

theorem c18_kck2_len (b0 b1 b2 b3 : Byte) :
    (IEEE80211AkmType.withCipherSuiteSelector (fromLE 32 [b0, b1, b2, b3])).kck2Len =
      Spec.suiteLen Spec.kck2Lens b0 b1 b2 b3 := by
  simp only [IEEE80211AkmType.kck2Len, c18_akm_codes.lossless, ieee_type]
  refine len_of (f := fun t => _) b0 b1 b2 b3 ?_
  decide +kernel

theorem c18_kek2_len (b0 b1 b2 b3 : Byte) :
    (IEEE80211AkmType.withCipherSuiteSelector (fromLE 32 [b0, b1, b2, b3])).kek2Len =
      Spec.suiteLen Spec.kek2Lens b0 b1 b2 b3 := by
  simp only [IEEE80211AkmType.kek2Len, c18_akm_codes.lossless, ieee_type]
  refine len_of (f := fun t => _) b0 b1 b2 b3 ?_
  decide +kernel

/-- Without the rows for types 19 and 20; the full statement has them, see `c18_sha384_missing`. -/
theorem c18_key_mic_len_partial (b0 b1 b2 b3 : Byte) :
    (IEEE80211AkmType.withCipherSuiteSelector (fromLE 32 [b0, b1, b2, b3])).keyMicLen =
      Spec.suiteLen (Spec.keyMicLens.filter (·.1 < 19)) b0 b1 b2 b3 := by
  simp only [IEEE80211AkmType.keyMicLen, c18_akm_codes.lossless, ieee_type]
  refine len_of (f := fun t => _) b0 b1 b2 b3 ?_
  decide +kernel

/-- Violation: the two suites with a pre-shared key and SHA-384, types 19 and 20, which the library names,
have no key lengths at all, where the standard has 24, 32 and 24 bytes. -/
theorem c18_sha384_missing (b3 : Byte) (h : b3 = 19 ∨ b3 = 20) :
    let t := IEEE80211AkmType.withCipherSuiteSelector (fromLE 32 [0x00, 0x0f, 0xac, b3])
    (t = .FTUsingPskSha384 ∨ t = .PskSha384) ∧
    t.kckLen = none ∧ Spec.suiteLen Spec.kckLens 0x00 0x0f 0xac b3 = some 24 ∧
    t.kekLen = none ∧ Spec.suiteLen Spec.kekLens 0x00 0x0f 0xac b3 = some 32 ∧
    t.keyMicLen = none ∧ Spec.suiteLen Spec.keyMicLens 0x00 0x0f 0xac b3 = some 24 := by
  rcases h with rfl | rfl <;> decide +kernel

/-- A concrete case: 00-0f-ac-4 is CCMP-128 with 16 byte keys; 00-50-f2-4 is a vendor suite. -/
example : IEEE80211CipherSuiteSelector.withCipherSuiteSelector (fromLE 32 [0, 0x0f, 0xac, 4]) = .Ccmp128 ∧
    Spec.suiteLen Spec.tkLens 0 0x0f 0xac 4 = some 16 ∧
    Spec.suiteLen Spec.tkLens 0 0x50 0xf2 4 = none := by decide

/-! ## Optional features

The property asks that a setting read from the wire and written again is unchanged, and that two
stations supporting a feature are compatible.  Both fail. -/

/-- The two encodings that survive reading and writing, and exactly those. -/
theorem c18_feature_bits_partial (v : BitVec 2) :
    (OptionalFeatureConfig.fromBits (v.zeroExtend 8)).intoBits = v.zeroExtend 8 ↔ v = 0 ∨ v = 1 := by
  revert v; decide

/-- Violation: reading 0b10 and writing it again gives 0b11 (and 0b11 gives 0b10). -/
theorem c18_feature_bits_changed :
    (OptionalFeatureConfig.fromBits 0b10).intoBits = 0b11 ∧
    (OptionalFeatureConfig.fromBits 0b11).intoBits = 0b10 := by decide

/-- Violation: a setting written and read again; "required" comes back as "invalid". -/
theorem c18_feature_write_read (f : OptionalFeatureConfig) :
    OptionalFeatureConfig.fromBits f.intoBits = f ↔ f = .Disabled ∨ f = .Capable := by
  cases f <;> decide

/-- The same through the capability field: setting the management frame protection to "required"
reads back as "invalid". -/
theorem c18_mfp_required_lost (c : RsnCapabilities) :
    (c.withMfpConfig .Required).mfpConfig = .Invalid ∧
    (c.withSppAmpduConfig .Required).sppAmpduConfig = .Invalid := by
  have h1 : (c.with_mfp_config 3).mfp_config = 3 := getField_setField_same _ 6 2 3 (by decide)
  have h2 : (c.with_spp_ampdu_config 3).spp_ampdu_config = 3 :=
    getField_setField_same _ 10 2 3 (by decide)
  simp only [RsnCapabilities.mfpConfig, RsnCapabilities.withMfpConfig,
    RsnCapabilities.sppAmpduConfig, RsnCapabilities.withSppAmpduConfig]
  rw [show OptionalFeatureConfig.Required.intoBits.truncate 2 = (3 : BitVec 2) from rfl, h1, h2]
  decide

/-- What the standard says about management frame protection: bit 6 of the capabilities says
"required", bit 7 "capable"; required without capable is invalid. -/
def Spec.mfp (bits : BitVec 16) : OptionalFeatureConfig :=
  match bits.getLsbD 6, bits.getLsbD 7 with
  | false, false => .Disabled
  | false, true => .Capable
  | true, true => .Required
  | true, false => .Invalid

/-- Violation: the decoded setting agrees with the standard only when it is "disabled". -/
theorem c18_mfp_standard_partial (c : RsnCapabilities) :
    c.mfpConfig = Spec.mfp c.bits ↔ c.mfp_config = 0 := by
  have hb : ∀ x : BitVec 2, OptionalFeatureConfig.fromBits (x.zeroExtend 8) =
      (match x.getLsbD 0, x.getLsbD 1 with
        | false, false => OptionalFeatureConfig.Disabled
        | false, true => .Capable
        | true, true => .Required
        | true, false => .Invalid) ↔ x = 0 := by decide
  have h6 : c.bits.getLsbD 6 = c.mfp_config.getLsbD 0 :=
    (getLsbD_getField c.bits 6 2 0).symm
  have h7 : c.bits.getLsbD 7 = c.mfp_config.getLsbD 1 :=
    (getLsbD_getField c.bits 6 2 1).symm
  unfold Spec.mfp RsnCapabilities.mfpConfig
  rw [h6, h7]
  exact hb c.mfp_config

/-- What the standard says about signalling and payload protected A-MSDUs: bit 10 says "capable",
bit 11 "required", the other way round than for management frame protection. -/
def Spec.spp (bits : BitVec 16) : OptionalFeatureConfig :=
  match bits.getLsbD 11, bits.getLsbD 10 with
  | false, false => .Disabled
  | false, true => .Capable
  | true, true => .Required
  | true, false => .Invalid

/-- Violation: the decoded setting agrees with the standard only when nothing is required. -/
theorem c18_spp_standard_partial (c : RsnCapabilities) :
    c.sppAmpduConfig = Spec.spp c.bits ↔ c.bits.getLsbD 11 = false := by
  have hb : ∀ x : BitVec 2, OptionalFeatureConfig.fromBits (x.zeroExtend 8) =
      (match x.getLsbD 1, x.getLsbD 0 with
        | false, false => OptionalFeatureConfig.Disabled
        | false, true => .Capable
        | true, true => .Required
        | true, false => .Invalid) ↔ x.getLsbD 1 = false := by decide
  have h10 : c.bits.getLsbD 10 = c.spp_ampdu_config.getLsbD 0 :=
    (getLsbD_getField c.bits 10 2 0).symm
  have h11 : c.bits.getLsbD 11 = c.spp_ampdu_config.getLsbD 1 :=
    (getLsbD_getField c.bits 10 2 1).symm
  unfold Spec.spp RsnCapabilities.sppAmpduConfig
  rw [h10, h11]
  exact hb c.spp_ampdu_config

/-- Written, a setting for payload protection always has the bits of the standard. -/
theorem c18_spp_written (c : RsnCapabilities) (f : OptionalFeatureConfig) :
    Spec.spp (c.withSppAmpduConfig f).bits = f := by
  have h : (c.withSppAmpduConfig f).spp_ampdu_config = f.intoBits.truncate 2 :=
    getField_setField_same _ 10 2 _ (by decide)
  have h10 : (c.withSppAmpduConfig f).bits.getLsbD 10 =
      (c.withSppAmpduConfig f).spp_ampdu_config.getLsbD 0 := (getLsbD_getField _ 10 2 0).symm
  have h11 : (c.withSppAmpduConfig f).bits.getLsbD 11 =
      (c.withSppAmpduConfig f).spp_ampdu_config.getLsbD 1 := (getLsbD_getField _ 10 2 1).symm
  unfold Spec.spp
  rw [h10, h11, h]
  cases f <;> rfl

/-- Violation: written, a setting for management frame protection has the bits of the standard only
when it is "disabled" or "required"; "capable" is sent as "required but not capable". -/
theorem c18_mfp_written_partial (c : RsnCapabilities) (f : OptionalFeatureConfig) :
    (Spec.mfp (c.withMfpConfig f).bits = f ↔ f = .Disabled ∨ f = .Required) ∧
    Spec.mfp (c.withMfpConfig .Capable).bits = .Invalid := by
  have key : ∀ g : OptionalFeatureConfig, Spec.mfp (c.withMfpConfig g).bits =
      (match g with
        | .Disabled => .Disabled | .Capable => .Invalid | .Required => .Required
        | .Invalid => .Capable) := by
    intro g
    have h : (c.withMfpConfig g).mfp_config = g.intoBits.truncate 2 :=
      getField_setField_same _ 6 2 _ (by decide)
    have h6 : (c.withMfpConfig g).bits.getLsbD 6 = (c.withMfpConfig g).mfp_config.getLsbD 0 :=
      (getLsbD_getField _ 6 2 0).symm
    have h7 : (c.withMfpConfig g).bits.getLsbD 7 = (c.withMfpConfig g).mfp_config.getLsbD 1 :=
      (getLsbD_getField _ 6 2 1).symm
    unfold Spec.mfp
    rw [h6, h7, h]
    cases g <;> rfl
  refine ⟨?_, key .Capable⟩
  rw [key f]
  cases f <;> decide

/-- A concrete case: a station that requires payload protection sends 0x0c00, which the standard
reads as "required" and the library as "invalid". -/
example : (RsnCapabilities.new.withSppAmpduConfig .Required).bits = 0x0c00 ∧
    Spec.spp 0x0c00 = .Required ∧ (⟨0x0c00⟩ : RsnCapabilities).sppAmpduConfig = .Invalid := by decide

/-- Two settings fit together: neither station requires what the other is not capable of. -/
def Spec.compatible (a b : OptionalFeatureConfig) : Bool :=
  (a != .Required || b == .Required || b == .Capable) &&
  (b != .Required || a == .Required || a == .Capable)

/-- Exactly when `is_compatible` answers yes. -/
theorem c18_compatible_iff (a b : OptionalFeatureConfig) :
    a.isCompatible b = true ↔
      (a = .Required ∧ b = .Required) ∨
      ((a = .Disabled ∨ a = .Invalid) ∧ (b = .Disabled ∨ b = .Invalid)) := by
  cases a <;> cases b <;> decide

/-- It answers yes only for settings that fit together... -/
theorem c18_compatible_sound_partial (a b : OptionalFeatureConfig) (h : a.isCompatible b = true) :
    Spec.compatible a b = true := by
  revert h; cases a <;> cases b <;> decide

/-- ...but not for all of them. Violation: two stations that are both capable are reported
incompatible, as are a capable and a requiring one, and a capable and a disabled one. -/
theorem c18_capable_incompatible :
    OptionalFeatureConfig.isCompatible .Capable .Capable = false ∧
    OptionalFeatureConfig.isCompatible .Capable .Required = false ∧
    OptionalFeatureConfig.isCompatible .Capable .Disabled = false ∧
    Spec.compatible .Capable .Capable = true ∧ Spec.compatible .Capable .Required = true ∧
    Spec.compatible .Capable .Disabled = true := by decide

end Verif
