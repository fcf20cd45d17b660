import Verif.Props.C09
import Verif.Props.C12
import Verif.Props.C15
import Verif.Props.C16
import Verif.Props.C30
import Verif.Props.C31
import Verif.Props.C32
/-!
# C58: size reports and views of parts of received data

Containers of received bytes are written as the bytes they were read from and report their number.
The views of parts are stated against byte positions of the input.
-/
namespace Verif

open Spec

variable [ScrollRule]

/-! ## Containers of received bytes -/

/-- An iterator over received bytes is written as the bytes not yet consumed, and reports their number;
a finished one is written as nothing. -/
theorem c58_iterator (o : Option Bytes) :
    Emits (ReadIterator.write ⟨o⟩) (o.getD []) (max (o.getD []).length slack) ∧
      ReadIterator.measure ⟨o⟩ = (o.getD []).length :=
  ⟨Emits.pwrite0 (Emits.bytes _), rfl⟩

/-- Received elements are written as they were received, and report their number of bytes. -/
theorem c58_elements (inp : Bytes) (n : Nat) (els : Bytes) (h : readElements inp = .ok (els, n)) :
    n = inp.length ∧ (elementsObj els).measure = inp.length ∧
      Emits (elementsObj els).write inp (max inp.length slack) := by
  cases h
  exact ⟨rfl, rfl, Emits.pwrite0 (Emits.bytes _)⟩

omit [ScrollRule] in
/-- An empty list of elements is written as nothing into any buffer. -/
theorem c58_empty (buf : Bytes) : emptyObj.write buf = .ok (buf, 0) ∧ emptyObj.measure = 0 := ⟨rfl, rfl⟩

omit [ScrollRule] in
/-- The payload of a data frame takes the whole input, as an A-MSDU exactly when asked to, and reports its
length. -/
theorem c58_payload_read (amsdu : Bool) (inp : Bytes) : ∃ p,
    readDataFramePayload amsdu inp = .ok (p, inp.length) ∧ p.lengthInBytes = inp.length ∧
      (amsdu = false → p = .Single inp) ∧ (amsdu = true → p = .AMSDU ⟨some inp⟩) := by
  cases amsdu
  · exact ⟨.Single inp, rfl, rfl, fun _ => rfl, by simp⟩
  · exact ⟨.AMSDU ⟨some inp⟩, rfl, rfl, by simp, fun _ => rfl⟩

/-- A received payload is written as the bytes it was read from. -/
theorem c58_payload_write (amsdu : Bool) (inp : Bytes) (p : DataFrameReadPayload) (n : Nat)
    (h : readDataFramePayload amsdu inp = .ok (p, n)) :
    Emits (writeDataFramePayload p) inp (max inp.length slack) := by
  cases amsdu <;> cases h <;> exact Emits.pwrite0 (Emits.bytes _)

omit [ScrollRule] in
/-- Each step of the subframe iterator reports fewer bytes than before, by what the step consumed; at
the end it reports none. -/
theorem c58_subframes_length (it it' : SubframeIter) (o : Option (AMSDUSubframe Bytes))
    [ScrollRule] (h : it.next = .ok (o, it')) :
    (o = none → it'.lengthInBytes = 0) ∧
    (∀ s, o = some s → ∃ bs, it.bytes = some bs ∧
      it'.lengthInBytes + (14 + s.payload.length + padding (14 + s.payload.length)) =
        it.lengthInBytes) := by
  obtain ⟨bytes⟩ := it
  cases bytes with
  | none => cases h; exact ⟨fun _ => rfl, by simp⟩
  | some bs =>
    rcases c30_next bs with h1 | ⟨s, rest, rfl, _, h1⟩
    · simp only [SubframeIter.fromBytes] at h1
      rw [h1] at h
      cases h
      exact ⟨fun _ => rfl, by simp⟩
    · simp only [SubframeIter.fromBytes] at h1
      rw [h1] at h
      by_cases hp : padding (14 + s.payload.length) ≤ rest.length
      · rw [if_pos hp] at h
        cases h
        refine ⟨by simp, ?_⟩
        rintro _ ⟨⟩
        refine ⟨_, rfl, ?_⟩
        simp only [SubframeIter.lengthInBytes, Option.getD_some, List.length_append, subframeBody_length,
          List.length_drop]
        omega
      · rw [if_neg hp] at h
        cases h

/-! ## Views -/

omit [ScrollRule] in
/-- The contents of a payload, whether it is protected or not, one frame or several.  Partial: under the strict
rule of `scroll` there have to be contents, see `c58_payload_view_strict`. -/
theorem c58_payload_view_partial [ScrollRule] (f : DataFrame Bytes) (m : MicState) (content : Bytes)
    (hs : slack ≤ content.length)
    (h : f.header.fcf_flags.protected_ = false ∧ f.payload = some content ∨
      f.header.fcf_flags.protected_ = true ∧ ∃ (b : Arr 8) (mic : Bytes) (c : CryptoHeader),
        f.payload = some (b.val ++ (content ++ mic)) ∧ mic.length = m.micLength ∧
          readCryptoHeader b.val = .ok (c, 8)) :
    ∃ w, potentiallyWrappedPayload f (some m) = .ok (some w) ∧
      w.payload = if f.header.isAmsdu then .AMSDU ⟨some content⟩ else .Single content := by
  rcases h with ⟨h1, h2⟩ | ⟨h1, b, mic, c, h2, h3, h4⟩
  · refine ⟨_, (c32_unprotected f (some m) content h2 h1).trans (by rw [if_pos hs]), ?_⟩
    rfl
  · exact ⟨_, c32_protected f m b content mic h2 h1 h3 c h4 hs, rfl⟩

omit [ScrollRule] in
/-- Violation: under the strict rule the empty contents of a frame are not seen, and those of a protected frame
make the view panic. -/
theorem c58_payload_view_strict [ScrollRule] (hs : slack = 1) (f : DataFrame Bytes) (m : MicState) :
    (f.header.fcf_flags.protected_ = false → f.payload = some [] →
      potentiallyWrappedPayload f (some m) = .ok none) ∧
    (∀ (b : Arr 8) (mic : Bytes), f.header.fcf_flags.protected_ = true → f.payload = some (b.val ++ mic) →
      mic.length = m.micLength → potentiallyWrappedPayload f (some m) = .panic) := by
  refine ⟨fun h1 h2 => ?_, fun b mic h1 h2 h3 => ?_⟩
  · rw [c32_unprotected f (some m) [] h2 h1, if_neg (by simp [hs])]
  · refine c32_payload_panics f m _ h2 h1 (.inl ?_)
    rw [List.length_append, h3, b.property, hs]
    omega

/-- A wrapped payload reports the size of header, content and MIC together. -/
theorem c58_wrapper_object (c : CryptoWrapper Obj) (bs : Bytes) (h : c.payload.measure = bs.length) :
    (cryptoWrapperObj c).measure = 8 + bs.length + c.mic_state.micLength := by
  simp [cryptoWrapperObj, measureCryptoWrapper, measureCryptoHeader, h]

/-- The default header is packet number 0 and key 0. -/
theorem c58_default_header :
    Emits (writeCryptoHeader .default) [0, 0, 0, 0x20, 0, 0, 0, 0] 8 := by
  have h := (c31_write_any .default).1
  have e : cryptoHeaderWire CryptoHeader.default.packet_number.toNat
      CryptoHeader.default.key_id.toNat = [0, 0, 0, 0x20, 0, 0, 0, 0] := by decide
  rwa [e] at h

/-- VHT capabilities: the receive map is in bytes 4 and 5 of the element, the transmit map in bytes 8 and
9, each with two bits for each number of streams. -/
theorem c58_vht_maps (inp : Bytes) (e : VHTCapabilitiesElement) (k : Nat)
    (h : readVHTCapabilities inp = .ok (e, k)) (n : Nat) :
    e.supported_vht_mcs_and_nss_set.rxMap.supportForNss n =
      (if 1 ≤ n ∧ n ≤ 8 then
        vhtSupport (((inp.getD 4 0).toNat + 256 * (inp.getD 5 0).toNat) / 4 ^ (n - 1) % 4) else none) ∧
    e.supported_vht_mcs_and_nss_set.txMap.supportForNss n =
      (if 1 ≤ n ∧ n ≤ 8 then
        vhtSupport (((inp.getD 8 0).toNat + 256 * (inp.getD 9 0).toNat) / 4 ^ (n - 1) % 4) else none) := by
  have hl : 12 ≤ inp.length := by
    by_cases hl : inp.length < 12
    · obtain ⟨er, he⟩ := c12_vht_capabilities.short inp hl
      rw [he] at h; cases h
    · omega
  obtain ⟨x, rest, rfl⟩ := exists_toLE 32 rfl (by omega : 32 / 8 ≤ inp.length)
  simp only [List.length_append, toLE_length] at hl
  obtain ⟨y, rest, rfl⟩ := exists_toLE 64 rfl (by omega : 64 / 8 ≤ rest.length)
  have hr := c12_vht_capabilities.read ⟨⟨x⟩, ⟨y⟩⟩ rest trivial
  rw [List.append_assoc] at hr
  rw [hr] at h
  cases h
  have e1 : (SupportedVHTMCSAndNSSSet.rxMap ⟨y⟩).bits.toNat = y.toNat % 65536 := by
    simp [SupportedVHTMCSAndNSSSet.rxMap, SupportedVHTMCSAndNSSSet.rx_vht_mcs_map, getField]
  have e2 : (SupportedVHTMCSAndNSSSet.txMap ⟨y⟩).bits.toNat = y.toNat / 2 ^ 32 % 65536 := by
    simp [SupportedVHTMCSAndNSSSet.txMap, SupportedVHTMCSAndNSSSet.tx_vht_mcs_map, getField,
      Nat.shiftRight_eq_div_pow]
  have b1 : ((toLE x ++ (toLE y ++ rest)).getD 4 0).toNat +
      256 * ((toLE x ++ (toLE y ++ rest)).getD 5 0).toNat = y.toNat % 65536 := by
    simp [toLE, leBytes]
    omega
  have b2 : ((toLE x ++ (toLE y ++ rest)).getD 8 0).toNat +
      256 * ((toLE x ++ (toLE y ++ rest)).getD 9 0).toNat = y.toNat / 2 ^ 32 % 65536 := by
    simp [toLE, leBytes]
    omega
  rw [c15_support, c15_support]
  simp only [pair, e1, e2, b1, b2, and_self]

/-- Announcing only group traffic: the element is the two parameters, a control octet with the indicator
bit and one zero octet, and no station is announced. -/
theorem c58_multicast (c p : Byte) (h : ¬ p < c) :
    Emits (writeTIM ⟨c, p, some timMulticast⟩) [c, p, 1, 0] 4 ∧
      timMulticast.trafficIndicator = true ∧ timMulticast.aidIter = .ok none := by
  refine ⟨?_, by decide, by decide⟩
  have hw : Emits (writeTIMBitmap timMulticast) [1, 0] 2 := by
    apply WEmits.run
    apply WEmits.u8 (n := 1)
    exact (WEmits.gwrite_pos (Emits.writeU8 0) (by decide))
  exact writeTIM_tail ⟨c, p, some timMulticast⟩ (if_neg h) (tail := [1, 0]) (n := 2)
    (WEmits.gwrite_pos hw (by decide))

/-! ## Sizes reported without a value -/

/-- The sizes that selectors, PMKIDs and the DSSS parameter set report for their types are the numbers of bytes
written for every value and consumed from every input that is accepted; shorter input is refused. -/
theorem c58_type_sizes :
    (∀ c : IEEE80211CipherSuiteSelector, ∃ bs, bs.length = sizeSuite ∧ Emits (writeCipherSuite c) bs sizeSuite) ∧
    (∀ c : IEEE80211AkmType, ∃ bs, bs.length = sizeSuite ∧ Emits (writeAkm c) bs sizeSuite) ∧
    (∀ p : Arr 16, p.val.length = sizePmkid ∧ measurePmkid p = sizePmkid ∧ Emits (writePmkid p) p.val sizePmkid) ∧
    (∀ e : DSSSParameterSetElement, measureDSSS e = sizeDSSS ∧ Emits (writeDSSS e) [e.current_channel] sizeDSSS) ∧
    FixedReader readCipherSuite sizeSuite ∧ FixedReader readAkm sizeSuite ∧ FixedReader readPmkid sizePmkid ∧
    FixedReader readDSSS sizeDSSS := by
  refine ⟨fun c => ⟨_, by simp [sizeSuite], writeCipherSuite_emits c⟩, fun c => ⟨_, by simp [sizeSuite], writeAkm_emits c⟩,
    fun p => ⟨p.property, rfl, writePmkid_emits p⟩, fun e => ⟨rfl, ?_⟩, readCipherSuite_fixed, readAkm_fixed, ?_, ?_⟩
  · exact c12_dsss.write e
  · exact readArr_fixed 16
  · exact c12_dsss.fixed

/-- A subframe reports its length without padding: what its contents take, and what is consumed of the input
before the padding. -/
theorem c58_subframe_length (bs : Bytes) (s : AMSDUSubframe Bytes) (n : Nat) (h : readSubframe bs = .ok (s, n)) :
    s.lengthInBytes = measureSubframe (toWrite s) ∧ s.lengthInBytes = (subframeBody s).length ∧
      s.lengthInBytes ≤ bs.length ∧ s.lengthInBytes ≤ n ∧ n < s.lengthInBytes + 4 ∧ n % 4 = 0 := by
  obtain ⟨h1, h2, rest, rfl⟩ := readSubframe_parses bs s n h
  have hl := subframeBody_length s
  refine ⟨rfl, by rw [hl]; rfl, ?_, ?_, ?_, ?_⟩ <;> simp only [AMSDUSubframe.lengthInBytes, List.length_append, hl, padding] at * <;> omega

omit [ScrollRule] in
/-- Assigning the contents of a payload changes only the contents: it is then what was assigned, and the wrapping
is kept. -/
theorem c58_set_payload {π : Type} (w : PotentiallyWrappedPayload π) (x y : π) :
    (w.setPayload x).payload = x ∧ (w.setPayload x).setPayload y = w.setPayload y ∧ w.setPayload w.payload = w ∧
      (∀ c, w = .CryptoWrapped c → ∃ c', w.setPayload x = .CryptoWrapped c' ∧ c'.crypto_header = c.crypto_header ∧
        c'.mic_state = c.mic_state ∧ c'.payload = x) ∧
      (∀ p, w = .Unwrapped p → w.setPayload x = .Unwrapped x) := by
  cases w with
  | Unwrapped p => exact ⟨rfl, rfl, rfl, (by intro c hc; cases hc), fun _ _ => rfl⟩
  | CryptoWrapped w =>
    refine ⟨rfl, rfl, rfl, ?_, by intro c hc; cases hc⟩
    rintro c ⟨⟩
    exact ⟨_, rfl, rfl, rfl, rfl⟩

/-! Two receive streams with MCS 0 to 9 and one transmit stream with MCS 0 to 8. -/
example (s : Bool) : letI : ScrollRule := ⟨s⟩
    ∃ e, readVHTCapabilities [0, 0, 0, 0, 0xfa, 0xff, 0, 0, 0xfd, 0xff, 0, 0] = .ok (e, 12) ∧
      e.supported_vht_mcs_and_nss_set.rxMap.supportForNss 2 = some .ZeroToNine ∧
      e.supported_vht_mcs_and_nss_set.txMap.supportForNss 1 = some .ZeroToEight ∧
      e.supported_vht_mcs_and_nss_set.txMap.supportForNss 2 = some .NotSupported := by
  cases s <;> exact ⟨_, rfl, by decide, by decide, by decide⟩

/-! A subframe of one payload byte takes sixteen of the eighteen bytes. -/
example (s : Bool) : letI : ScrollRule := ⟨s⟩
    ∃ f it, (SubframeIter.fromBytes
        [1, 1, 1, 1, 1, 1, 2, 2, 2, 2, 2, 2, 1, 0, 7, 0, 9, 9]).next = .ok (some f, it) ∧
      f.payload = [7] ∧ it.lengthInBytes = 2 := by
  cases s <;> exact ⟨_, _, rfl, by decide, by decide⟩

example : ¬ (3 : Byte) < 1 := by decide

end Verif
