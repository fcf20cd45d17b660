import Verif.Lemmas.Ht
/-!
# C13: HT capabilities
-/
namespace Verif

/-- Layout of the HT capabilities element: info, A-MPDU parameters, MCS set (bitmap, flags, two
reserved bytes), extended capabilities, transmit beamforming, antenna selection. -/
def Spec.htCapabilities (e : HTCapabilitiesElement) : Bytes :=
  toLE e.ht_capabilities_info.bits ++ [e.ampdu_parameters.bits] ++
    (e.supported_mcs_set.supported_rx_mcs_set.val ++
      toLE e.supported_mcs_set.supported_rx_mcs_set_flags.bits ++ [0, 0]) ++
    toLE e.extended_capabilities.bits ++ toLE e.transmit_beamforming_capabilities.bits ++
    [e.asel_capability.bits]

open Spec

variable [ScrollRule]

/-- Writing emits exactly these 26 bytes, the reported size. -/
theorem c13_write (e : HTCapabilitiesElement) :
    Emits (writeHTCapabilities e) (htCapabilities e) 26 ∧ (htCapabilities e).length = 26 ∧
      measureHTCapabilities e = 26 := by
  refine ⟨?_, by simp [htCapabilities], rfl⟩
  apply Emits.cast (n := 26)
  · apply WEmits.run
    apply WEmits.cast
    · apply WEmits.leI (hp := by decide)
      apply WEmits.u8
      apply WEmits.seq
      · exact (WEmits.gwrite_pos (writeSupportedMCSSet_emits _) (by decide)).cast rfl (by simp)
      · wr_steps
    · rfl
    · simp
  · simp [htCapabilities, encMCSSet]
  · rfl

/-- Parsing them gives the element back, whatever follows. -/
theorem c13_round_trip (e : HTCapabilitiesElement) (rest : Bytes) :
    readHTCapabilities (htCapabilities e ++ rest) = .ok (e, 26) := by
  have h : htCapabilities e ++ rest = toLE e.ht_capabilities_info.bits ++
      (e.ampdu_parameters.bits :: (encMCSSet e.supported_mcs_set ++
        (toLE e.extended_capabilities.bits ++ (toLE e.transmit_beamforming_capabilities.bits ++
          (e.asel_capability.bits :: rest))))) := by
    simp [htCapabilities, encMCSSet]
  rw [h]
  apply RdAt.run
  apply RdAt.cast
  · apply RdAt.le (h := by decide) (hp := by decide)
    apply RdAt.u8
    apply RdAt.sub
    · rw [encMCSSet_length]; exact readSupportedMCSSet_enc _ _
    · simp
    · rd_steps
  · simp

/-- Inputs shorter than 26 bytes are errors. -/
theorem c13_short (inp : Bytes) (h : inp.length < 26) : ∃ x, readHTCapabilities inp = .err x :=
  Rd.Needs.run (n := 26)
    (Rd.Needs.bind (k := 2) (n := 24) (Rd.Adv.gread (readLE_fixed 16).adv) fun _ =>
     Rd.Needs.bind (k := 1) (n := 23) (Rd.Adv.gread (readLE_fixed 8).adv) fun _ =>
     Rd.Needs.bind (k := 16) (n := 7) (Rd.Adv.gread readSupportedMCSSet_adv) fun _ =>
     Rd.Needs.bind (k := 2) (n := 5) (Rd.Adv.gread (readLE_fixed 16).adv) fun _ =>
     Rd.Needs.bind (k := 4) (n := 1) (Rd.Adv.gread (readLE_fixed 32).adv) fun _ =>
     Rd.Needs.left (Rd.Needs.gread (readLE_fixed 8))) inp h

/-- Parsing at least 26 bytes succeeds and consumes 26; writing the result gives the input bytes back
with the two reserved bytes of the MCS set zeroed. -/
theorem c13_parse_write (inp : Bytes) (h : 26 ≤ inp.length) :
    ∃ e, readHTCapabilities inp = .ok (e, 26) ∧
      htCapabilities e = inp.take 17 ++ [0, 0] ++ (inp.drop 19).take 7 := by
  obtain ⟨a, r, rfl⟩ := exists_toLE 16 rfl (inp := inp) (by omega)
  simp at h
  obtain ⟨b, r, rfl⟩ := exists_u8 (inp := r) (by omega)
  simp at h
  obtain ⟨c, r, rfl⟩ := exists_arr 10 (inp := r) (by omega)
  simp at h
  obtain ⟨d, r, rfl⟩ := exists_arr 4 (inp := r) (by omega)
  simp at h
  obtain ⟨x, r, rfl⟩ := exists_arr 2 (inp := r) (by omega)
  simp at h
  obtain ⟨f, r, rfl⟩ := exists_toLE 16 rfl (inp := r) (by omega)
  simp at h
  obtain ⟨g, r, rfl⟩ := exists_toLE 32 rfl (inp := r) (by omega)
  simp at h
  obtain ⟨i, r, rfl⟩ := exists_u8 (inp := r) (by omega)
  refine ⟨⟨⟨a⟩, ⟨b⟩, ⟨c, ⟨fromLE 32 d.val⟩⟩, ⟨f⟩, ⟨g⟩, ⟨i⟩⟩, ?_, ?_⟩
  · apply RdAt.run
    apply RdAt.cast
    · apply RdAt.le (h := by decide) (hp := by decide)
      apply RdAt.u8
      rw [show c.val ++ (d.val ++ (x.val ++ (toLE f ++ (toLE g ++ i :: r)))) =
        (c.val ++ (d.val ++ x.val)) ++ (toLE f ++ (toLE g ++ i :: r)) by simp]
      apply RdAt.sub
      · have := readSupportedMCSSet_arr c d (x.val ++ (toLE f ++ (toLE g ++ i :: r)))
        simpa [List.append_assoc] using this
      · simp
      · rd_steps
    · simp
  · simp [htCapabilities, toLE_fromLE (w := 32) rfl d.val (by simp), List.take_append,
      List.drop_append, List.take_of_length_le, List.drop_eq_nil_of_le]

/-- For the MCS set alone the claim about the consumed length is violated: given 14 or 15 bytes it
reports 16 consumed. -/
theorem c13_mcs_set_overreports (inp : Bytes) (h : inp.length = 14 ∨ inp.length = 15) :
    ∃ s, readSupportedMCSSet inp = .ok (s, 16) := by
  obtain ⟨a, r, rfl⟩ := exists_arr 10 (inp := inp) (by omega)
  simp at h
  obtain ⟨f, r, rfl⟩ := exists_arr 4 (inp := r) (by omega)
  exact ⟨_, readSupportedMCSSet_arr a f r⟩

/-- The MCS set round trips. -/
theorem c13_mcs_set_round_trip (s : SupportedMCSSet) (rest : Bytes) :
    Emits (writeSupportedMCSSet s) (encMCSSet s) 16 ∧
      readSupportedMCSSet (encMCSSet s ++ rest) = .ok (s, 16) ∧ measureSupportedMCSSet s = 16 :=
  ⟨writeSupportedMCSSet_emits s, readSupportedMCSSet_enc s rest, rfl⟩

/-- Concrete case. -/
example : let e : HTCapabilitiesElement := ⟨⟨0x1234⟩, ⟨5⟩, ⟨⟨[1,2,3,4,5,6,7,8,9,10], rfl⟩, ⟨0xa0b0c0d0⟩⟩,
    ⟨0x0102⟩, ⟨0x03040506⟩, ⟨7⟩⟩
    htCapabilities e = [0x34, 0x12, 5, 1, 2, 3, 4, 5, 6, 7, 8, 9, 10, 0xd0, 0xc0, 0xb0, 0xa0, 0, 0,
      2, 1, 6, 5, 4, 3, 7] := by decide

end Verif
