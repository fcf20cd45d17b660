import Verif.Model.Elements.Simple
import Verif.Lemmas.Elements
/-!
# C12: fixed-size elements round trip in both directions

`Codec r w enc valid n` (in `Verif/Basic/Tactics.lean`): writing a value emits the `n` bytes `enc`, reading
gives the value back and errs on shorter input, and any `n` bytes are the encoding of a valid value.
-/
namespace Verif

variable [ScrollRule]

/-- DSSS parameter set: the channel. -/
theorem c12_dsss : Codec readDSSS writeDSSS (fun e => [e.current_channel]) (fun _ => True) 1 where
  len _ := rfl
  read a rest _ := by
    have hs := slack_le
    simp only [readDSSS, pread0]
    rw [if_neg (by simp; omega), List.cons_append, readU8_cons]; rfl
  short inp h := by
    simp only [readDSSS, pread0]
    obtain ⟨e, he⟩ := (readLE_fixed 8 inp).2 h
    rw [show readU8 inp = _ from he]
    split <;> exact ⟨_, rfl⟩
  write a := (Emits.pwrite0 (Emits.writeU8 _)).cast rfl (by have := slack_le; omega)
  onto inp h := by
    obtain ⟨x, rest, rfl⟩ := exists_u8 h
    exact ⟨⟨x⟩, rest, trivial, rfl⟩

/-- IBSS parameter set: the ATIM window, little-endian. -/
theorem c12_ibss : Codec readIBSS writeIBSS (fun e => toLE e.atim_window) (fun _ => True) 2 where
  len _ := by simp
  read a rest _ := by
    have hs := slack_le
    simp only [readIBSS, pread0]
    rw [if_neg (by simp; omega), readLE_append rfl]; rfl
  short inp h := by
    simp only [readIBSS, pread0]
    obtain ⟨e, he⟩ := (readLE_fixed 16 inp).2 h
    rw [he]
    split <;> exact ⟨_, rfl⟩
  write a := (Emits.pwrite0 (Emits.writeLE _)).cast rfl (by have := slack_le; omega)
  onto inp h := by
    obtain ⟨x, rest, rfl⟩ := exists_toLE 16 rfl h
    exact ⟨⟨x⟩, rest, trivial, rfl⟩

/-- BSS load: station count (little-endian), channel utilisation, available admission capacity. -/
theorem c12_bss_load : Codec readBSSLoad writeBSSLoad
    (fun e => toLE e.station_count ++ e.channel_utilization :: toLE e.available_admission_capacity)
    (fun _ => True) 5 where
  len _ := by simp
  read a rest _ := by rd_exact
  short inp h := by
    have : FixedReader readBSSLoad 5 := by rd_fixed_run
    exact (this inp).2 h
  write a := by wr_exact
  onto inp h := by
    obtain ⟨x, rest, rfl⟩ := exists_toLE 16 rfl (by omega : 16 / 8 ≤ inp.length)
    simp at h
    obtain ⟨y, rest, rfl⟩ := exists_u8 (by omega : 1 ≤ rest.length)
    simp at h
    obtain ⟨z, rest, rfl⟩ := exists_toLE 16 rfl (by omega : 16 / 8 ≤ rest.length)
    exact ⟨⟨x, y, z⟩, rest, trivial, by simp⟩

/-- VHT capabilities: 32 bits of capabilities and 64 bits of MCS and NSS set, little-endian. -/
theorem c12_vht_capabilities : Codec readVHTCapabilities writeVHTCapabilities
    (fun e => toLE e.vht_capabilities_info.bits ++ toLE e.supported_vht_mcs_and_nss_set.bits)
    (fun _ => True) 12 where
  len _ := by simp
  read a rest _ := by rd_exact
  short inp h := by
    have : FixedReader readVHTCapabilities 12 := by rd_fixed_run
    exact (this inp).2 h
  write a := by wr_exact
  onto inp h := by
    obtain ⟨x, rest, rfl⟩ := exists_toLE 32 rfl (by omega : 32 / 8 ≤ inp.length)
    simp at h
    obtain ⟨y, rest, rfl⟩ := exists_toLE 64 rfl (by omega : 64 / 8 ≤ rest.length)
    exact ⟨⟨⟨x⟩, ⟨y⟩⟩, rest, trivial, by simp⟩

/-- VHT operation: channel width, two centre frequency segments, basic MCS and NSS set. -/
theorem c12_vht_operation : Codec readVHTOperation writeVHTOperation
    (fun e => e.channel_bandwidth.intoBits :: e.channel_center_frequency_segment_0 ::
      e.channel_center_frequency_segment_1 :: toLE e.basic_vht_mcs_and_nss_set.bits)
    (fun e => e.channel_bandwidth.Canonical) 5 where
  len _ := by simp
  read a rest hv := by
    have h : readVHTOperation (a.channel_bandwidth.intoBits ::
        a.channel_center_frequency_segment_0 :: a.channel_center_frequency_segment_1 ::
        toLE a.basic_vht_mcs_and_nss_set.bits ++ rest) = .ok (⟨.fromBits a.channel_bandwidth.intoBits,
          a.channel_center_frequency_segment_0, a.channel_center_frequency_segment_1,
          ⟨a.basic_vht_mcs_and_nss_set.bits⟩⟩, 5) := by rd_exact
    rw [h, ChannelWidth.fromBits_intoBits _ hv]
  short inp h := by
    have : FixedReader readVHTOperation 5 := by rd_fixed_run
    exact (this inp).2 h
  write a := by wr_exact
  onto inp h := by
    obtain ⟨x, rest, rfl⟩ := exists_u8 (by omega : 1 ≤ inp.length)
    simp at h
    obtain ⟨y, rest, rfl⟩ := exists_u8 (by omega : 1 ≤ rest.length)
    simp at h
    obtain ⟨z, rest, rfl⟩ := exists_u8 (by omega : 1 ≤ rest.length)
    simp at h
    obtain ⟨u, rest, rfl⟩ := exists_toLE 16 rfl (by omega : 16 / 8 ≤ rest.length)
    exact ⟨⟨.fromBits x, y, z, ⟨u⟩⟩, rest, ChannelWidth.canonical_fromBits x, by
      simp [ChannelWidth.intoBits_fromBits]⟩

/-- Mesh configuration: five identifiers, formation info, capability, one byte each. -/
theorem c12_mesh_configuration : Codec readMeshConfiguration writeMeshConfiguration
    (fun e => [e.active_path_selection_protocol_identifier.intoBits,
      e.active_path_selection_metric_identifier.intoBits,
      e.congestion_control_mode_identifier.intoBits, e.syncronization_method_identifier.intoBits,
      e.authentication_protocol_identifier.intoBits, e.mesh_formation_info.bits,
      e.mesh_capability.bits])
    (fun e => e.active_path_selection_protocol_identifier.Canonical ∧
      e.active_path_selection_metric_identifier.Canonical ∧
      e.congestion_control_mode_identifier.Canonical ∧
      e.syncronization_method_identifier.Canonical ∧
      e.authentication_protocol_identifier.Canonical) 7 where
  len _ := by simp
  read a rest hv := by
    obtain ⟨a1, a2, a3, a4, a5, a6, a7⟩ := a
    obtain ⟨h1, h2, h3, h4, h5⟩ := hv
    have h : readMeshConfiguration ([a1.intoBits, a2.intoBits, a3.intoBits, a4.intoBits, a5.intoBits,
        a6.bits, a7.bits] ++ rest) = .ok (⟨.fromBits a1.intoBits, .fromBits a2.intoBits,
        .fromBits a3.intoBits, .fromBits a4.intoBits, .fromBits a5.intoBits, ⟨a6.bits⟩,
        ⟨a7.bits⟩⟩, 7) := by rd_exact
    simp only at h1 h2 h3 h4 h5
    rw [h, MeshConfigurationActivePathSelectionProtocolIdentifier.fromBits_intoBits _ h1,
      MeshConfigurationActivePathSelectionMetricIdentifier.fromBits_intoBits _ h2,
      MeshConfigurationCongestionControlModeIdentifier.fromBits_intoBits _ h3,
      MeshConfigurationSynchronizationMethodIdentifier.fromBits_intoBits _ h4,
      MeshConfigurationAuthenticationProtocolIdentifier.fromBits_intoBits _ h5]
  short inp h := by
    have : FixedReader readMeshConfiguration 7 := by rd_fixed_run
    exact (this inp).2 h
  write a := by wr_exact
  onto inp h := by
    match inp, h with
    | x1 :: x2 :: x3 :: x4 :: x5 :: x6 :: x7 :: rest, _ =>
      exact ⟨⟨.fromBits x1, .fromBits x2, .fromBits x3, .fromBits x4, .fromBits x5, ⟨x6⟩, ⟨x7⟩⟩, rest,
        ⟨MeshConfigurationActivePathSelectionProtocolIdentifier.canonical_fromBits _,
          MeshConfigurationActivePathSelectionMetricIdentifier.canonical_fromBits _,
          MeshConfigurationCongestionControlModeIdentifier.canonical_fromBits _,
          MeshConfigurationSynchronizationMethodIdentifier.canonical_fromBits _,
          MeshConfigurationAuthenticationProtocolIdentifier.canonical_fromBits _⟩, by
        simp [MeshConfigurationActivePathSelectionProtocolIdentifier.intoBits_fromBits,
          MeshConfigurationActivePathSelectionMetricIdentifier.intoBits_fromBits,
          MeshConfigurationCongestionControlModeIdentifier.intoBits_fromBits,
          MeshConfigurationSynchronizationMethodIdentifier.intoBits_fromBits,
          MeshConfigurationAuthenticationProtocolIdentifier.intoBits_fromBits]⟩

omit [ScrollRule] in
/-- The same in words, for any such type: parsing long enough input and writing gives the consumed
bytes back, in a buffer of exactly that size. -/
theorem c12_parse_write {α : Type} {r : Reader α} {w : α → Writer} {enc : α → Bytes}
    {valid : α → Prop} {n : Nat} (h : Codec r w enc valid n) (inp : Bytes) (hl : n ≤ inp.length)
    (buf : Bytes) (hb : buf.length = n) :
    ∃ a, r inp = .ok (a, n) ∧ w a buf = .ok (inp.take n, n) := by
  obtain ⟨a, ha, _, he, hw⟩ := h.parse_write inp hl
  refine ⟨a, ha, ?_⟩
  have := hw.ok buf (by omega)
  rw [this]
  have h2 : (inp.take n).length = n := by simp; omega
  rw [h2, List.drop_of_length_le (by omega), List.append_nil]

omit [ScrollRule] in
/-- The IBSS ATIM window given as a duration is kept up to rounding down to whole time units, as long
as it fits in 16 bits of them. -/
theorem c12_ibss_duration (micros : Nat) (h : micros < 65536 * 1024) :
    (IBSSParameterSetElement.new micros).atimWindowMicros ≤ micros ∧
      micros < (IBSSParameterSetElement.new micros).atimWindowMicros + 1024 := by
  simp only [IBSSParameterSetElement.new, IBSSParameterSetElement.atimWindowMicros, tuMicros,
    BitVec.toNat_ofNat]
  omega

omit [ScrollRule] in
/-- A longer duration silently wraps around: 65536 time units become none. -/
theorem c12_ibss_duration_wraps :
    (IBSSParameterSetElement.new (65536 * 1024)).atimWindowMicros = 0 := by decide

/-- The side condition on enumerations is needed: `Unknown` holding the code of a named variant is read
back as the named variant. -/
theorem c12_unknown_named :
    let e : VHTOperationElement := ⟨.Unknown 0, 1, 2, ⟨3⟩⟩
    ¬ e.channel_bandwidth.Canonical ∧
      readVHTOperation (e.channel_bandwidth.intoBits :: 1 :: 2 :: toLE (3 : BitVec 16)) =
        .ok (⟨.TwentyOrFourtyMHz, 1, 2, ⟨3⟩⟩, 5) := by
  refine ⟨fun h => h 0 rfl (by decide), ?_⟩
  exact c12_vht_operation.read ⟨.TwentyOrFourtyMHz, 1, 2, ⟨3⟩⟩ [] (by intro v h; cases h)

/-- Concrete case. -/
example : (let _ : ScrollRule := ⟨true⟩; readBSSLoad [2, 1, 3, 5, 4, 9]) = .ok (⟨0x0102, 3, 0x0405⟩, 5) := by
  decide

end Verif
