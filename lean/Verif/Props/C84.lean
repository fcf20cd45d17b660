import Verif.Props.C18
import Verif.Props.C40
import Verif.Props.C60
import Verif.Spec.Cmac
import Verif.Spec.Sha1
/-!
# C84: EAPOL frames are protected by the algorithms of their suite

The standard's table "integrity and key wrap algorithms" names the algorithm of the MIC and the one for the key
data by the key management suite and the version of the key descriptor.  The algorithms are parameters here, but
for the concrete cases, which use HMAC-SHA-1 and AES-CMAC as their standards define them.
-/
namespace Verif

namespace Spec

inductive Integrity where
  | hmacMd5 | hmacSha1 | aesCmac | hmacSha256 | hmacSha384
  deriving DecidableEq

inductive Wrapping where
  | arc4 | aesKeyWrap
  deriving DecidableEq

/-- IEEE 802.11-2020, table 12-10, for the suites whose EAPOL frames have a MIC: suite type and descriptor
version. -/
def protectionTable : List ((Nat × Nat) × (Integrity × Wrapping)) := [
  ((1, 1), .hmacMd5, .arc4), ((2, 1), .hmacMd5, .arc4),
  ((1, 2), .hmacSha1, .aesKeyWrap), ((2, 2), .hmacSha1, .aesKeyWrap),
  ((3, 3), .aesCmac, .aesKeyWrap), ((4, 3), .aesCmac, .aesKeyWrap), ((5, 3), .aesCmac, .aesKeyWrap),
  ((6, 3), .aesCmac, .aesKeyWrap), ((8, 0), .aesCmac, .aesKeyWrap), ((9, 0), .aesCmac, .aesKeyWrap),
  ((11, 0), .hmacSha256, .aesKeyWrap), ((12, 0), .hmacSha384, .aesKeyWrap),
  ((13, 0), .hmacSha384, .aesKeyWrap), ((19, 0), .hmacSha384, .aesKeyWrap),
  ((20, 0), .hmacSha384, .aesKeyWrap)]

/-- The entry for a suite as the library names it and the key information of a frame, whose lowest three bits are
the version. -/
def protection (akm : IEEE80211AkmType) (bits : BitVec 16) : Option (Integrity × Wrapping) :=
  ((akmSuites.find? fun p => p.2 == akm).map (·.1)).bind fun t =>
    protectionTable.lookup (t, bits.toNat % 8)

/-- The frame with its MIC field zeroed, which is what the MIC is computed over. -/
def eapolUnsigned {κ : Type} (v : Byte) (f : EapolKeyFrame κ) (res kd : Bytes) : Bytes :=
  eapolWire v { f with key_mic := List.replicate f.key_mic.length 0 } res kd

/-- The MIC of a frame with this key data, by one of the algorithms. -/
def SignedBy {κ : Type} (mac : Integrity → Bytes → Bytes → Bytes) (alg : Integrity) (key : Arr 16) (v : Byte)
    (f : EapolKeyFrame κ) (res kd : Bytes) : Prop :=
  f.key_mic = (mac alg key.val (eapolUnsigned v f res kd)).take f.key_mic.length

end Spec

open Spec
variable [ScrollRule] [Crc32] [HmacSha1] [AesKw]

/-- What is sent, for every frame that can be and every suite and version: the MIC, if flagged, is the right one for
an algorithm exactly if that algorithm and HMAC-SHA-1 agree on this frame. -/
theorem c84_send (mac : Integrity → Bytes → Bytes → Bytes)
    (hmac : ∀ k m, mac .hmacSha1 k m = (HmacSha1.hmac k m).val)
    (c : Arr 16) (kek : Option (Arr 16)) (h : DataFrameHeader) (s : SnapLlcFrame (EapolKeyFrame Obj))
    (hv : ValidData h) (data : Bytes) (need : Nat) (hd : Emits s.payload.key_data.write data need)
    (hflag : s.payload.key_information.key_mic = true) (h0 : s.payload.key_mic = List.replicate 16 0)
    (kd : Bytes) (hkd : wireKeyData kek s.payload.key_information.encrypted_key_data data = some kd)
    (buf : Bytes) (temp : Nat) (ht : max 24 kd.length ≤ temp) (hl : kd.length < 65441)
    (hb : h.lengthInBytes + 107 + max (max need slack) kd.length ≤ buf.length) :
    ∃ out n, ∃ f : EapolKeyFrame Obj, serializeEapolDataFrame (some c) kek ⟨h, some s⟩ buf temp = .ok (out, n) ∧
      out.take n = eapolPrefix h s.oui s.ether_type ++ eapolWire 2 f (Arr.zero 8).val kd ∧
      f.key_information = s.payload.key_information ∧ f.key_mic.length = 16 ∧
      ∀ alg, SignedBy mac alg c 2 f (Arr.zero 8).val kd ↔
        (mac alg c.val (eapolUnsigned 2 s.payload (Arr.zero 8).val kd)).take 16 =
          (mac .hmacSha1 c.val (eapolUnsigned 2 s.payload (Arr.zero 8).val kd)).take 16 := by
  have hm16 : s.payload.key_mic.length = 16 := by rw [h0]; rfl
  have hmic : wireMic (some c) s.payload.key_information.key_mic s.payload kd =
      some ((HmacSha1.hmac c.val (eapolWire 2 s.payload (Arr.zero 8).val kd)).val.take 16) := by
    rw [wireMic, if_pos hflag, if_pos hm16]; rfl
  obtain ⟨out, ho, hw⟩ := c39_serialise (some c) kek h s hv data need hd kd _ hkd hmic buf temp ht
    (by omega) (by omega)
  have hlen : ((HmacSha1.hmac c.val (eapolWire 2 s.payload (Arr.zero 8).val kd)).val.take 16).length = 16 := by
    rw [List.length_take, (HmacSha1.hmac _ _).property]; rfl
  refine ⟨_, _, { s.payload with key_mic :=
    (HmacSha1.hmac c.val (eapolWire 2 s.payload (Arr.zero 8).val kd)).val.take 16 }, hw, ?_, rfl, hlen,
    fun alg => ?_⟩
  · rw [List.take_left, ho]
  · have hu : eapolUnsigned 2 { s.payload with key_mic :=
        (HmacSha1.hmac c.val (eapolWire 2 s.payload (Arr.zero 8).val kd)).val.take 16 } (Arr.zero 8).val kd =
        eapolWire 2 s.payload (Arr.zero 8).val kd := by
      unfold eapolUnsigned
      dsimp only
      rw [hlen, ← h0]
    have hu' : eapolUnsigned 2 s.payload (Arr.zero 8).val kd = eapolWire 2 s.payload (Arr.zero 8).val kd := by
      unfold eapolUnsigned
      rw [hm16, ← h0]
    unfold SignedBy
    rw [hu, hu']
    dsimp only
    rw [hlen, hmac]
    exact eq_comm

/-- Sending with a suite and version for which the standard has HMAC-SHA-1 and AES key wrap.  The full statement is
for all entries of the table; see `c84_send_wrong` and `c84_wrap_wrong`. -/
theorem c84_send_partial (mac : Integrity → Bytes → Bytes → Bytes)
    (hmac : ∀ k m, mac .hmacSha1 k m = (HmacSha1.hmac k m).val) (akm : IEEE80211AkmType)
    (c : Arr 16) (kek : Option (Arr 16)) (h : DataFrameHeader) (s : SnapLlcFrame (EapolKeyFrame Obj))
    (ha : protection akm s.payload.key_information.bits = some (.hmacSha1, .aesKeyWrap))
    (hv : ValidData h) (data : Bytes) (need : Nat) (hd : Emits s.payload.key_data.write data need)
    (hflag : s.payload.key_information.key_mic = true) (h0 : s.payload.key_mic = List.replicate 16 0)
    (kd : Bytes) (hkd : wireKeyData kek s.payload.key_information.encrypted_key_data data = some kd)
    (buf : Bytes) (temp : Nat) (ht : max 24 kd.length ≤ temp) (hl : kd.length < 65441)
    (hb : h.lengthInBytes + 107 + max (max need slack) kd.length ≤ buf.length) :
    ∃ out n, ∃ f : EapolKeyFrame Obj, ∃ alg w, serializeEapolDataFrame (some c) kek ⟨h, some s⟩ buf temp = .ok (out, n) ∧
      out.take n = eapolPrefix h s.oui s.ether_type ++ eapolWire 2 f (Arr.zero 8).val kd ∧
      protection akm f.key_information.bits = some (alg, w) ∧ SignedBy mac alg c 2 f (Arr.zero 8).val kd := by
  obtain ⟨out, n, f, h1, h2, h3, _, h5⟩ := c84_send mac hmac c kek h s hv data need hd hflag h0 kd hkd buf temp ht hl hb
  exact ⟨out, n, f, _, _, h1, h2, by rw [h3]; exact ha, (h5 .hmacSha1).2 rfl⟩

/-- Violation: whatever the table says, the MIC sent is that of HMAC-SHA-1.  For every other algorithm it is wrong,
unless the two happen to agree on the frame. -/
theorem c84_send_wrong (mac : Integrity → Bytes → Bytes → Bytes)
    (hmac : ∀ k m, mac .hmacSha1 k m = (HmacSha1.hmac k m).val) (akm : IEEE80211AkmType) (alg : Integrity)
    (w : Wrapping) (c : Arr 16) (kek : Option (Arr 16)) (h : DataFrameHeader) (s : SnapLlcFrame (EapolKeyFrame Obj))
    (ha : protection akm s.payload.key_information.bits = some (alg, w))
    (hv : ValidData h) (data : Bytes) (need : Nat) (hd : Emits s.payload.key_data.write data need)
    (hflag : s.payload.key_information.key_mic = true) (h0 : s.payload.key_mic = List.replicate 16 0)
    (kd : Bytes) (hkd : wireKeyData kek s.payload.key_information.encrypted_key_data data = some kd)
    (buf : Bytes) (temp : Nat) (ht : max 24 kd.length ≤ temp) (hl : kd.length < 65441)
    (hb : h.lengthInBytes + 107 + max (max need slack) kd.length ≤ buf.length)
    (hne : (mac alg c.val (eapolUnsigned 2 s.payload (Arr.zero 8).val kd)).take 16 ≠
      (mac .hmacSha1 c.val (eapolUnsigned 2 s.payload (Arr.zero 8).val kd)).take 16) :
    ∃ out n, ∃ f : EapolKeyFrame Obj, serializeEapolDataFrame (some c) kek ⟨h, some s⟩ buf temp = .ok (out, n) ∧
      out.take n = eapolPrefix h s.oui s.ether_type ++ eapolWire 2 f (Arr.zero 8).val kd ∧
      protection akm f.key_information.bits = some (alg, w) ∧ ¬SignedBy mac alg c 2 f (Arr.zero 8).val kd := by
  obtain ⟨out, n, f, h1, h2, h3, _, h5⟩ := c84_send mac hmac c kek h s hv data need hd hflag h0 kd hkd buf temp ht hl hb
  exact ⟨out, n, f, h1, h2, by rw [h3]; exact ha, fun hs => hne ((h5 alg).1 hs)⟩

omit [ScrollRule] [Crc32] [HmacSha1] in
/-- Violation: key data flagged as encrypted is always put through AES key wrap, which makes it longer; with
descriptor version 1 the standard has ARC4, which, like every stream cipher, keeps its length. -/
theorem c84_wrap_wrong (k : Arr 16) (data : Bytes) (hne : data ≠ []) (cipher : Bytes → Bytes)
    (hc : ∀ d, (cipher d).length = d.length) :
    (protection .Psk 1 = some (.hmacMd5, .arc4)) ∧
    wireKeyData (some k) true data ≠ some (cipher data) := by
  refine ⟨by decide, fun h => ?_⟩
  rw [wireKeyData, if_pos ⟨rfl, hne⟩, Option.map_some, Option.some.injEq] at h
  have hl := congrArg List.length h
  rw [wrap_padKeyData_length, padKeyData_length, hc] at hl
  omega

omit [Crc32] in
/-- Receiving with a suite and version for which the standard has HMAC-SHA-1 and AES key wrap: a frame that is right
is accepted and handed out as it was sent.  The full statement is for all entries of the table; see
`c84_receive_wrong`. -/
theorem c84_receive_partial (mac : Integrity → Bytes → Bytes → Bytes)
    (hmac : ∀ k m, mac .hmacSha1 k m = (HmacSha1.hmac k m).val)
    (c : Arr 16) (kek : Option (Arr 16)) (h : DataFrameHeader) (hv : ValidData h)
    (hc : HeaderConsistent h) (oui : Arr 3) (v : Byte) (g : EapolKeyFrame Bytes) (res : Arr 8) (kd : Bytes)
    (temp : Nat) (akm : IEEE80211AkmType)
    (ha : protection akm g.key_information.bits = some (.hmacSha1, .aesKeyWrap))
    (hlen : g.key_mic.length = 16) (hl : kd.length < 65441) (hs : slack ≤ g.key_data.length)
    (hsig : SignedBy mac .hmacSha1 c v g res.val kd)
    (henc : if g.key_information.encrypted_key_data = true then
        kd.length % 8 = 0 ∧ g.key_data.length ≤ temp ∧ ∃ k, kek = some k ∧ AesKw.unwrap k kd = some g.key_data
      else g.key_data = kd) :
    deserializeEapolDataFrame (some c) kek (eapolPrefix h oui 0x888e ++ eapolWire v g res.val kd) temp akm false =
      .ok g := by
  have hakm : akm.keyMicLen = some 16 := by
    unfold protection at ha
    cases hf : akmSuites.find? (fun p => p.2 == akm) with
    | none => rw [hf] at ha; cases ha
    | some p =>
      have hp := List.find?_some hf
      have hmem := List.mem_of_find?_eq_some hf
      simp only [beq_iff_eq] at hp
      subst hp
      rw [hf] at ha
      simp only [Option.map_some, Option.bind_some] at ha
      have hv8 : g.key_information.bits.toNat % 8 < 8 := Nat.mod_lt _ (by decide)
      generalize g.key_information.bits.toNat % 8 = ver at ha hv8
      have key : ∀ p ∈ akmSuites, ∀ ver < 8,
          protectionTable.lookup (p.1, ver) = some (.hmacSha1, .aesKeyWrap) → p.2.keyMicLen = some 16 := by
        decide +kernel
      exact key p hmem ver hv8 ha
  refine c39_deserialise (some c) kek h hv hc oui v g res kd temp akm (by rw [hakm, hlen]) (by omega) hs
    (fun _ => ⟨by omega, c, rfl, ?_⟩) henc
  have := hsig
  unfold SignedBy at this
  rw [hmac] at this
  exact this.symm

omit [Crc32] in
/-- Violation: a frame with the right MIC of another algorithm, as the standard asks for with the suite and version,
is refused for its MIC, unless the two algorithms happen to agree on it. -/
theorem c84_receive_wrong (mac : Integrity → Bytes → Bytes → Bytes)
    (hmac : ∀ k m, mac .hmacSha1 k m = (HmacSha1.hmac k m).val) (alg : Integrity)
    (c : Arr 16) (kek : Option (Arr 16)) (h : DataFrameHeader) (hv : ValidData h)
    (hc : HeaderConsistent h) (oui : Arr 3) (v : Byte) (g : EapolKeyFrame Bytes) (res : Arr 8) (kd : Bytes)
    (temp : Nat) (akm : IEEE80211AkmType)
    (hakm : akm.keyMicLen = some 16) (hlen : g.key_mic.length = 16)
    (hflag : g.key_information.key_mic = true)
    (hsig : SignedBy mac alg c v g res.val kd)
    (hne : (mac alg c.val (eapolUnsigned v g res.val kd)).take 16 ≠
      (mac .hmacSha1 c.val (eapolUnsigned v g res.val kd)).take 16) :
    deserializeEapolDataFrame (some c) kek (eapolPrefix h oui 0x888e ++ eapolWire v g res.val kd) temp akm false =
      .err EapolSerdeError.InvalidMic.code := by
  have hcut : ∀ b : Bytes, withoutFcs b false = b := fun _ => rfl
  generalize hbody : eapolPrefix h oui 0x888e ++ eapolWire v g res.val kd = body
  have hpl : (eapolPrefix h oui 0x888e).length = h.lengthInBytes + 8 := eapolPrefix_length h oui 0x888e
  have hdrop : body.drop (h.lengthInBytes + 8) = eapolWire v g res.val kd := by
    rw [← hbody, ← hpl, List.drop_left]
  have hpre : ∀ i, i < h.lengthInBytes + 8 → body[i]? = (eapolPrefix h oui 0x888e)[i]? := by
    intro i hi
    rw [← hbody, List.getElem?_append_left (by omega)]
  have hread : readDataHeader body = .ok (h, 2 + (dataHeaderWire h).length) := by
    have := c27_round_trip h hv hc (snapWire oui 0x888e [] ++ eapolWire v g res.val kd)
    rw [← hbody, eapolPrefix]
    simpa only [List.append_assoc] using this
  have hsplit : eapolPrefix h oui 0x888e =
      (frameStart (.Data h.subtype) h.fcf_flags ++ dataHeaderWire h ++ 0xaa :: 0xaa :: 0x03 :: oui.val) ++
        [0x88, 0x8e] := by
    simp only [eapolPrefix, snapWire, List.append_assoc, List.cons_append]
    rfl
  have hsl : (frameStart (.Data h.subtype) h.fcf_flags ++ dataHeaderWire h ++
      0xaa :: 0xaa :: 0x03 :: oui.val).length = h.lengthInBytes + 6 := by
    have := congrArg List.length hsplit
    rw [hpl, List.length_append] at this
    simp only [List.length_cons, List.length_nil] at this
    omega
  have he1 : body[h.lengthInBytes + 6]? = some 0x88 := by
    rw [hpre _ (by omega), hsplit, List.getElem?_append_right (by omega), hsl, Nat.sub_self]; rfl
  have he2 : body[h.lengthInBytes + 7]? = some 0x8e := by
    rw [hpre _ (by omega), hsplit, List.getElem?_append_right (by omega), hsl,
      show h.lengthInBytes + 7 - (h.lengthInBytes + 6) = 1 by omega]; rfl
  have hwl : (eapolWire v g res.val kd).length = 99 + kd.length := by
    simp [eapolWire, eapolFields, hlen]; omega
  have hbl : body.length = h.lengthInBytes + 8 + (99 + kd.length) := by
    rw [← hbody, List.length_append, hpl, hwl]
  obtain ⟨hi, lo, hbits⟩ : ∃ hi lo, toBE g.key_information.bits = [hi, lo] :=
    ⟨_, _, rfl⟩
  have hb5 : body[h.lengthInBytes + 8 + 5]? = some hi := by
    rw [← List.getElem?_drop, hdrop]
    simp only [eapolWire, eapolFields, hbits]
    rfl
  have hhi : hi.getLsbD 0 = true := by
    have h1 : hi = BitVec.ofNat 8 (g.key_information.bits.toNat / 256) := by
      have := congrArg List.head? hbits
      exact (Option.some.inj this).symm
    have h2 : g.key_information.bits.getLsbD 8 = true := by
      have := hflag
      simpa [KeyInformation.key_mic, getBit] using this
    rw [h1, BitVec.getLsbD_ofNat]
    have h3 : (g.key_information.bits.toNat / 256).testBit 0 = g.key_information.bits.toNat.testBit 8 := by
      rw [show (256 : Nat) = 2 ^ 8 from rfl, Nat.testBit_div_two_pow]
    rw [h3]
    simpa [BitVec.getLsbD] using h2
  have hnot : ¬MicMatches c body (h.lengthInBytes + 8) 16 := by
    unfold MicMatches
    rw [hdrop]
    have h81 : (v :: 3 :: (toBE (BitVec.ofNat 16 (79 + g.key_mic.length + kd.length)) ++
        eapolFields g res.val)).length = 81 := by simp [eapolFields]
    have hw : eapolWire v g res.val kd = (v :: 3 :: (toBE (BitVec.ofNat 16 (79 + g.key_mic.length + kd.length)) ++
        eapolFields g res.val)) ++ (g.key_mic ++ (toBE (BitVec.ofNat 16 kd.length) ++ kd)) := by
      simp only [eapolWire, List.cons_append, List.append_assoc]
    have hz : zeroed (eapolWire v g res.val kd) 81 16 = eapolUnsigned v g res.val kd := by
      rw [hw]
      generalize hX : v :: 3 :: (toBE (BitVec.ofNat 16 (79 + g.key_mic.length + kd.length)) ++
        eapolFields g res.val) = X at *
      unfold zeroed
      rw [← h81, List.take_left, ← List.drop_drop, List.drop_left, List.drop_left' hlen]
      simp only [eapolUnsigned, eapolWire, List.length_replicate]
      rw [← hX, hlen]
      simp [eapolFields]
    rw [hz]
    have hm' : ((eapolWire v g res.val kd).drop 81).take 16 = g.key_mic := by
      rw [hw, ← h81, List.drop_left]
      exact List.take_left' hlen
    rw [hm']
    intro hm
    refine hne ?_
    rw [hmac, ← hm]
    unfold SignedBy at hsig
    rw [hlen] at hsig
    exact hsig.symm
  exact c40_mismatch_partial (some c) kek body temp akm false (by simp) h _ (h.lengthInBytes + 8)
    hread rfl he1 he2 hi hb5 hhi 16 hakm (by omega) (by rw [hcut]; omega)
    (fun c' hc' => by cases hc'; exact hnot)

omit [ScrollRule] [Crc32] [HmacSha1] [AesKw] in
/-- For which suites and versions the two partial theorems speak: two suites, with the version that names
HMAC-SHA-1. -/
theorem c84_scope (akm : IEEE80211AkmType) (bits : BitVec 16) :
    protection akm bits = some (.hmacSha1, .aesKeyWrap) ↔
      (akm = .Wpa ∨ akm = .Psk) ∧ bits.toNat % 8 = 2 := by
  have hv8 : bits.toNat % 8 < 8 := Nat.mod_lt _ (by decide)
  unfold protection
  generalize bits.toNat % 8 = ver at hv8 ⊢
  cases hf : akmSuites.find? (fun p => p.2 == akm) with
  | none =>
    have h1 : akm ≠ .Wpa := by rintro rfl; revert hf; decide
    have h2 : akm ≠ .Psk := by rintro rfl; revert hf; decide
    simp [h1, h2]
  | some p =>
    have hp := List.find?_some hf
    have hmem := List.mem_of_find?_eq_some hf
    simp only [beq_iff_eq] at hp
    subst hp
    simp only [Option.map_some, Option.bind_some]
    have key : ∀ p ∈ akmSuites, ∀ ver < 8,
        (protectionTable.lookup (p.1, ver) = some (.hmacSha1, .aesKeyWrap) ↔
          (p.2 = .Wpa ∨ p.2 = .Psk) ∧ ver = 2) := by
      decide +kernel
    exact key p hmem ver hv8

/-- A frame with all its fields, as a receiver gets it: the second message of a handshake with SAE, but for its
MIC. -/
def saeFrame (mic : Bytes) : EapolKeyFrame Bytes where
  key_information := ⟨0x0108⟩
  key_length := 0
  key_replay_counter := 1
  key_nonce := Arr.zero 32
  key_iv := 0
  key_rsc := 0
  key_mic := mic
  key_data := [0x30, 2, 1, 0]

/-- The bytes of that frame, within a data frame to an access point. -/
def saeBytes (mic : Bytes) : Bytes :=
  [8, 1] ++ List.replicate 22 0 ++ [0xaa, 0xaa, 3, 0, 0, 0, 0x88, 0x8e] ++
    eapolWire 2 (saeFrame mic) (Arr.zero 8).val [0x30, 2, 1, 0]

omit [ScrollRule] [Crc32] [HmacSha1] [AesKw] in
/-- Violation, with the real algorithms: SAE has AES-CMAC.  The frame with that MIC is refused, and the one with the
MIC of HMAC-SHA-1, which no station that follows the standard sends, is accepted. -/
theorem c84_sae_wrong (s : Bool) :
    letI : ScrollRule := ⟨s⟩
    letI := realHmac
    letI := realKw
    let k : Arr 16 := ⟨List.replicate 16 7, by simp⟩
    let u := eapolUnsigned 2 (saeFrame (List.replicate 16 0)) (Arr.zero 8).val [0x30, 2, 1, 0]
    let m := (realHmac.hmac k.val u).val.take 16
    protection .Sae 0x0108 = some (.aesCmac, .aesKeyWrap) ∧
    deserializeEapolDataFrame (some k) none (saeBytes (aesCmac k u)) 0 .Sae false =
      .err EapolSerdeError.InvalidMic.code ∧
    deserializeEapolDataFrame (some k) none (saeBytes m) 0 .Sae false = .ok (saeFrame m) := by
  cases s <;> decide +kernel

/-- The two partial theorems with the real algorithms: what is sent with the suite of a passphrase carries the MIC
that the standard asks for, and comes back as it was sent. -/
example (s : Bool) :
    letI : ScrollRule := ⟨s⟩
    letI : Crc32 := ⟨fun _ => 0⟩
    letI := realHmac
    letI := realKw
    let f := fun mic : Bytes => { saeFrame mic with
      key_information := ⟨0x010a⟩, key_length := 0x0102, key_data := [0x30, 2, 1, 0] }
    let m := (realHmac.hmac (Arr.zero 16).val
      (eapolUnsigned 2 (f (List.replicate 16 0)) (Arr.zero 8).val [0x30, 2, 1, 0])).val.take 16
    protection .Psk 0x010a = some (.hmacSha1, .aesKeyWrap) ∧
    toyRound (toyInput 0x010a (List.replicate 16 0) [0x30, 2, 1, 0]) .Psk = .ok (f m) := by
  cases s <;> decide +kernel

end Verif
