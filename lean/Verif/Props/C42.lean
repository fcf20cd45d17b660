import Verif.Lemmas.Local
import Verif.Lemmas.Elements
import Verif.Props.C30
import Verif.Model.Crypto.Eapol
/-!
# C42: fixed-layout parsers ignore bytes after what they consume
-/
namespace Verif
open Spec

variable [ScrollRule]

namespace Spec

/-- The parsers of fixed layouts, including those whose optional parts are announced by earlier ones. -/
inductive FixedLayout : {α : Type} → Reader α → Prop
  | dsss : FixedLayout readDSSS
  | ibss : FixedLayout readIBSS
  | bssLoad : FixedLayout readBSSLoad
  | vhtCapabilities : FixedLayout readVHTCapabilities
  | vhtOperation : FixedLayout readVHTOperation
  | meshConfiguration : FixedLayout readMeshConfiguration
  | mcsSet : FixedLayout readSupportedMCSSet
  | htCapabilities : FixedLayout readHTCapabilities
  | htOperation : FixedLayout readHTOperation
  | bandAndChannel : FixedLayout readBandAndChannelInfo
  | cipherSuite : FixedLayout readCipherSuite
  | akm : FixedLayout readAkm
  | pmkid : FixedLayout readPmkid
  | mgmtHeader (f : FCFFlags) : FixedLayout (readMgmtHeader f)
  | dataHeader : FixedLayout readDataHeader
  | cryptoHeader : FixedLayout readCryptoHeader
  | rts (f : FCFFlags) : FixedLayout (readControlFrame .RTS f)
  | cts (f : FCFFlags) : FixedLayout (readControlFrame .CTS f)
  | ack (f : FCFFlags) : FixedLayout (readControlFrame .Ack f)

end Spec

/-- Each of them gives the same result whatever follows, and on just the bytes it consumed. -/
theorem c42_fixed_layout {α : Type} {r : Reader α} (h : FixedLayout r) : IgnoresSuffix r := by
  apply LocalReader.ignoresSuffix
  cases h with
  | dsss => exact c12_dsss.local (by decide)
  | ibss => exact c12_ibss.local (by decide)
  | bssLoad => exact c12_bss_load.local (by decide)
  | vhtCapabilities => exact c12_vht_capabilities.local (by decide)
  | vhtOperation => exact c12_vht_operation.local (by decide)
  | meshConfiguration => exact c12_mesh_configuration.local (by decide)
  | mcsSet => exact readSupportedMCSSet_local
  | htCapabilities => exact readHTCapabilities_local
  | htOperation => exact readHTOperation_local
  | bandAndChannel => exact readBandAndChannelInfo_local
  | cipherSuite => exact readCipherSuite_local
  | akm => exact readAkm_local
  | pmkid => exact readArr_local _ (by decide)
  | mgmtHeader f => exact readMgmtHeader_local f
  | dataHeader => exact readDataHeader_local
  | cryptoHeader => exact readCryptoHeader_local
  | rts f => exact readControlFrame_local _ f (by simp)
  | cts f => exact readControlFrame_local _ f (by simp)
  | ack f => exact readControlFrame_local _ f (by simp)

/-- A raw element: what follows is ignored; the consumed bytes alone give the same result, except, with
the strict offset rule, for an empty element. -/
theorem c42_raw_element_partial (inp : Bytes) (e : RawElement) (n : Nat)
    (h : readRawElement inp = .ok (e, n)) :
    (∀ more, readRawElement (inp ++ more) = .ok (e, n)) ∧
    (slack ≤ e.slice.length → readRawElement (inp.take n) = .ok (e, n)) := by
  rcases element_or_end inp with ⟨e', rest, rfl, hl, hs⟩ | hn
  · rw [readRawElement_tlv e' rest hl hs] at h
    simp only [Res.ok.injEq, Prod.mk.injEq] at h
    obtain ⟨rfl, rfl⟩ := h
    refine ⟨fun more => ?_, fun hsl => ?_⟩
    · rw [List.append_assoc]
      exact readRawElement_tlv e' _ hl (by simp only [List.length_append] at *; omega)
    · have := readRawElement_tlv e' [] hl (by simpa using hsl)
      rw [List.append_nil] at this
      rw [List.take_left]
      exact this
  · obtain ⟨x, hx⟩ := readRawElement_noElement hn
    rw [hx] at h; simp at h

omit [ScrollRule] in
/-- Violation: with the strict rule an empty element which is the last thing in a frame is lost, and one
which is not is read. -/
theorem c42_raw_element_strict : let _ : ScrollRule := ⟨true⟩
    readRawElement [1, 0, 9] = .ok (⟨1, []⟩, 2) ∧ readRawElement [1, 0] = .err .badOffset := by decide

/-- The length by which EAPOL-Key frames are framed comes with them: what follows is ignored. -/
theorem c42_eapol_suffix (akm : IEEE80211AkmType) (inp : Bytes) (f : EapolKeyFrame Bytes) (n : Nat)
    (h : readEapolKeyFrame akm inp = .ok (f, n)) (more : Bytes) :
    readEapolKeyFrame akm (inp ++ more) = .ok (f, n) := by
  have hs := slack_le
  have hstart : Rd.Local readEapolStart := by
    apply Rd.Local.bind (Rd.Local.gread (readLE_local _ (by decide))); intro _
    apply Rd.Local.bind (Rd.Local.gread (readLE_local _ (by decide))); intro _
    apply Rd.Local.ite Rd.Local.fail
    exact Rd.Local.gread (readBE_local _ (by decide))
  have hE : ∀ i, readEapolKeyFrame akm i = (readEapolStart i 0).bind fun x =>
      (pread (readBytes (x.1.toNat + 4)) 0 i).bind fun b => readEapolBody akm b x.2 := fun _ => rfl
  rw [hE] at h ⊢
  cases h1 : readEapolStart inp 0 with
  | ok x =>
    obtain ⟨len, o⟩ := x
    rw [h1] at h
    have h1' : readEapolStart (inp ++ more) 0 = .ok (len, o) := by
      have := (hstart inp 0 len o h1).2 (inp.drop o ++ more)
      rwa [← List.append_assoc, List.take_append_drop] at this
    rw [h1']
    simp only [Res.bind] at h ⊢
    cases h2 : pread (readBytes (len.toNat + 4)) 0 inp with
    | ok body =>
      rw [h2] at h
      have h2' : pread (readBytes (len.toNat + 4)) 0 (inp ++ more) = .ok body := by
        simp only [pread, Rd.gread, badOff_eq, List.drop_zero, Nat.zero_add] at h2 ⊢
        by_cases hb : inp.length < slack
        · rw [if_pos (by simpa using hb)] at h2; simp [Res.map] at h2
        · rw [if_neg (by simpa using hb)] at h2
          rw [if_neg (by simp only [List.length_append, decide_eq_true_eq]; omega)]
          simp only [readBytes] at h2 ⊢
          by_cases hl : len.toNat + 4 ≤ inp.length
          · rw [if_pos hl] at h2
            rw [if_pos (by simp only [List.length_append]; omega), List.take_append_of_le_length hl]
            exact h2
          · rw [if_neg hl] at h2; simp [Res.map] at h2
      rw [h2']
      exact h
    | err e => rw [h2] at h; simp at h
    | panic => rw [h2] at h; simp at h
  | err e => rw [h1] at h; cases h
  | panic => rw [h1] at h; cases h

/-- The fixed part of a concrete EAPOL-Key frame without MIC and key data, the packet body being declared
one byte longer than needed. -/
def longEapol : Bytes := [2, 3, 0, 96, 2] ++ List.replicate 95 0

omit [ScrollRule] in
/-- Violation: an EAPOL-Key frame whose packet body is longer than its contents is accepted, with fewer
bytes reported than needed: those bytes alone are not accepted. -/
theorem c42_eapol_short (s : Bool) :
    letI : ScrollRule := ⟨s⟩
    ∃ f, readEapolKeyFrame .Psk longEapol = .ok (f, 99) ∧
      (readEapolKeyFrame .Psk (longEapol.take 99)).isErr = true := by
  refine ⟨⟨⟨0⟩, 0, 0, Arr.zero 32, 0, 0, List.replicate 16 0, []⟩, ?_, ?_⟩ <;> cases s <;> decide +kernel

/-- Concrete cases: a data header with QoS control, and a management header with HT control. -/
example (s : Bool) : letI : ScrollRule := ⟨s⟩
    (readDataHeader (0x88 :: 0x01 :: List.replicate 30 7)).map (·.2) = .ok 26 ∧
    (readDataHeader (0x88 :: 0x01 :: List.replicate 24 7)).map (·.2) = .ok 26 ∧
    (readMgmtHeader ⟨0x80⟩ (List.replicate 40 7)).map (·.2) = .ok 26 := by
  cases s <;> decide +kernel

end Verif
