import Verif.Props.C03
import Verif.Model.Elements.RateMacros
/-!
# C87: the HT-SIG of a transmission describes it

Figure 19-6 and Tables 19-11 and 19-27 to 19-41 of the standard, written down as a description of a transmission and the
bits sent for it.
-/
namespace Verif

namespace Spec

/-- A transmission, as far as the first 32 bits of its HT-SIG tell. -/
structure Transmission where
  /-- index into the MCS tables -/
  mcs : Nat
  /-- 40 MHz -/
  wide : Bool
  /-- bytes of the PSDU -/
  length : Nat
  smoothing : Bool
  sounding : Bool
  aggregated : Bool
  /-- space-time streams minus spatial streams -/
  stbc : Nat
  ldpc : Bool
  shortGi : Bool
  mcs_lt : mcs < 77
  length_lt : length < 65536
  stbc_lt : stbc < 3

/-- The number of spatial streams of an MCS. -/
def spatialStreams (mcs : Nat) : Nat :=
  if mcs < 8 then 1 else if mcs < 16 then 2 else if mcs < 24 then 3 else if mcs < 32 then 4
  else if mcs = 32 then 1 else if mcs < 39 then 2 else if mcs < 53 then 3 else 4

/-- The bits of the HT-SIG, in the order in which they are sent. -/
def htSigBit (t : Transmission) (i : Nat) : Bool :=
  if i < 7 then t.mcs.testBit i
  else if i = 7 then t.wide
  else if i < 24 then t.length.testBit (i - 8)
  else if i = 24 then t.smoothing
  else if i = 25 then !t.sounding
  else if i = 26 then true
  else if i = 27 then t.aggregated
  else if i < 30 then t.stbc.testBit (i - 28)
  else if i = 30 then t.ldpc
  else t.shortGi

/-- `s` is the HT-SIG of `t`. -/
def Describes (s : HtSig) (t : Transmission) : Prop := ∀ i, i < 32 → s.bits.getLsbD i = htSigBit t i

end Spec

open Spec

private theorem bit (n : Nat) {w i : Nat} (h : i < w) : (BitVec.ofNat w n)[i] = n.testBit i := by
  rw [← BitVec.getLsbD_eq_getElem, BitVec.getLsbD_ofNat]
  simp [h]

private theorem field {len off n : Nat} {s : HtSig} {t : Transmission} {get : HtSig → BitVec len}
    {set : HtSig → BitVec len → HtSig} (hf : FieldAt HtSig.bits get set off) (h : Describes s t) (hn : n < 2 ^ len)
    (ht : ∀ i, i < len → htSigBit t (off + i) = n.testBit i) : (get s).toNat = n := by
  have : get s = BitVec.ofNat len n := by
    apply BitVec.eq_of_getLsbD_eq
    intro i hi
    rw [hf.2.1 s i hi, h _ (by have := hf.1; omega), ht i hi]
    simp [hi, bit]
  rw [this, BitVec.toNat_ofNat, Nat.mod_eq_of_lt hn]

/-- The accessors return what the transmission is, but for the number of spatial streams: the field of this name holds
the difference between space-time and spatial streams. -/
theorem c87_read_partial (s : HtSig) (t : Transmission) (h : Describes s t) :
    s.mcs.toNat = t.mcs ∧ s.is_40mhz = t.wide ∧ s.ht_length.toNat = t.length ∧ s.smoothing_recommended = t.smoothing ∧
      s.not_sounding = !t.sounding ∧ s.is_ampdu = t.aggregated ∧ s.is_ldpc = t.ldpc ∧ s.short_gi = t.shortGi ∧
      s.spatial_stream_count.toNat = t.stbc := by
  obtain ⟨h0, h1, h2, h3, h4, -, h6, h7, h8, h9⟩ := c03_HtSig
  have l1 := t.mcs_lt
  have l2 := t.length_lt
  have l3 := t.stbc_lt
  refine ⟨field h0 h (by omega) ?_, ?_, field h2 h (by omega) ?_, ?_, ?_, ?_, ?_, ?_, field h7 h (by omega) ?_⟩
  · intro i hi; simp [htSigBit, hi]
  · rw [h1.2.1, h _ (by omega)]; rfl
  · intro i hi
    have a : ¬ 8 + i < 7 := by omega
    have b : ¬ 8 + i = 7 := by omega
    have c : 8 + i < 24 := by omega
    simp [htSigBit, a, b, c]
  · rw [h3.2.1, h _ (by omega)]; rfl
  · rw [h4.2.1, h _ (by omega)]; rfl
  · rw [h6.2.1, h _ (by omega)]; rfl
  · rw [h8.2.1, h _ (by omega)]; rfl
  · rw [h9.2.1, h _ (by omega)]; rfl
  · intro i hi
    have a : ¬ 28 + i < 24 := by omega
    have b : 28 + i < 30 := by omega
    simp [htSigBit, b, show ¬ 28 + i < 7 by omega, show ¬ 28 + i = 7 by omega, a, show ¬ 28 + i = 24 by omega,
      show ¬ 28 + i = 25 by omega, show ¬ 28 + i = 26 by omega, show ¬ 28 + i = 27 by omega]

/-- There is one HT-SIG for a transmission. -/
theorem c87_unique (s s' : HtSig) (t : Transmission) (h : Describes s t) (h' : Describes s' t) : s = s' := by
  cases s; cases s'
  congr 1
  apply BitVec.eq_of_getLsbD_eq
  intro i hi
  exact (h i hi).trans (h' i hi).symm

/-- Starting from `new` and setting every field gives the HT-SIG of the transmission, reserved bit included: again with
the difference of streams for `spatial_stream_count`. -/
theorem c87_build_partial (t : Transmission) :
    Describes (((((((((HtSig.new.with_mcs (BitVec.ofNat 7 t.mcs)).with_is_40mhz t.wide).with_ht_length
      (BitVec.ofNat 16 t.length)).with_smoothing_recommended t.smoothing).with_not_sounding (!t.sounding)).with_is_ampdu
      t.aggregated).with_spatial_stream_count (BitVec.ofNat 2 t.stbc)).with_is_ldpc t.ldpc).with_short_gi t.shortGi) t := by
  obtain ⟨h0, h1, h2, h3, h4, -, h6, h7, h8, h9⟩ := c03_HtSig
  intro i hi
  rw [h9.2.2, h8.2.2, h7.2.2, h6.2.2, h4.2.2, h3.2.2, h2.2.2, h1.2.2, h0.2.2]
  have key : i < 7 ∨ i = 7 ∨ (8 ≤ i ∧ i < 24) ∨ i = 24 ∨ i = 25 ∨ i = 26 ∨ i = 27 ∨ (28 ≤ i ∧ i < 30) ∨ i = 30 ∨
    i = 31 := by omega
  rcases key with h | rfl | ⟨h, h'⟩ | rfl | rfl | rfl | rfl | ⟨h, h'⟩ | rfl | rfl
  · simp [htSigBit, bit, h, show i ≠ 7 by omega, show i ≠ 24 by omega, show i ≠ 25 by omega, show i ≠ 27 by omega,
      show i ≠ 30 by omega, show i ≠ 31 by omega, show ¬ 8 ≤ i by omega, show ¬ 28 ≤ i by omega]
  · rfl
  · simp [htSigBit, bit, h, h', show ¬ i < 7 by omega, show i ≠ 7 by omega, show i ≠ 24 by omega, show i ≠ 25 by omega,
      show i ≠ 27 by omega, show i ≠ 30 by omega, show i ≠ 31 by omega, show ¬ 28 ≤ i by omega,
      show i - 8 < 16 by omega]
  · rfl
  · rfl
  · rfl
  · rfl
  · simp [htSigBit, bit, h, h', show ¬ i < 7 by omega, show i ≠ 7 by omega, show ¬ i < 24 by omega, show i ≠ 24 by omega,
      show i ≠ 25 by omega, show i ≠ 26 by omega, show i ≠ 27 by omega, show i ≠ 30 by omega, show i ≠ 31 by omega,
      show i - 28 < 2 by omega]
  · rfl
  · rfl

/-- Violation: the field documented as the number of spatial streams is that number only when it happens to be the
number of extra space-time streams; without space-time coding it is zero, and never the number of streams. -/
theorem c87_streams_wrong (s : HtSig) (t : Transmission) (h : Describes s t) :
    (s.spatial_stream_count.toNat = spatialStreams t.mcs ↔ t.stbc = spatialStreams t.mcs) ∧
      (t.stbc = 0 → s.spatial_stream_count.toNat = 0 ∧ spatialStreams t.mcs ≠ 0) := by
  obtain ⟨-, -, -, -, -, -, -, -, h⟩ := c87_read_partial s t h
  rw [h]
  refine ⟨Iff.rfl, fun h0 => ⟨h0, ?_⟩⟩
  unfold spatialStreams
  repeat' split
  all_goals decide

/-- Two streams at MCS 12, 1500 bytes in an A-MPDU over 40 MHz: the accessor says none. -/
example : ∃ t : Transmission, t.mcs = 12 ∧ spatialStreams t.mcs = 2 ∧ Describes ⟨0x8F05DC8C⟩ t ∧
    (⟨0x8F05DC8C⟩ : HtSig).spatial_stream_count = 0 :=
  ⟨⟨12, true, 1500, true, false, true, 0, false, true, by decide, by decide, by decide⟩, rfl, by decide,
    by unfold Describes; decide, by decide⟩

/-- The table, for each number of streams. -/
example : [0, 8, 16, 24, 32, 33, 38, 39, 52, 53, 76].map spatialStreams = [1, 2, 3, 4, 1, 2, 2, 3, 3, 4, 4] := by decide

end Verif
