import Verif.Model.Elements.Rates
/-!
# C47: rate encoding
-/
namespace Verif

theorem EncodedRate.get_new (v : BitVec 7) (b : Bool) :
    (((⟨0⟩ : EncodedRate).with_rate v).with_is_b b).rate = v ∧
      (((⟨0⟩ : EncodedRate).with_rate v).with_is_b b).is_b = b := by
  constructor
  · show getField (setField (setField _ 0 7 v) 7 1 _) 0 7 = v
    rw [getField_setField_other _ _ _ _ _ _ (by decide) (by decide)]
    exact getField_setField_same _ _ _ _ (by decide)
  · exact getBit_setBit_same _ _ _ (by decide)

/-- A multiple of 500 kbit/s up to 63500 is encoded in units of 500 kbit/s, and decodes to itself with
the flag kept. -/
theorem c47_round_trip (k : Nat) (h : k * 500 ≤ 63500) (b : Bool) :
    ∃ r, EncodedRate.fromRateInKbps (k * 500) b = .ok r ∧
      r.rateInKbps = k * 500 ∧ r.is_b = b ∧ r.bits.toNat = k + (if b then 128 else 0) := by
  have hk : k ≤ 127 := by omega
  simp only [EncodedRate.fromRateInKbps, fitField, Nat.mul_div_cancel k (show 0 < 500 by omega)]
  rw [if_pos (by simp; omega)]
  refine ⟨_, rfl, ?_, (EncodedRate.get_new _ b).2, ?_⟩
  · simp only [EncodedRate.rateInKbps, (EncodedRate.get_new _ b).1]
    simp only [BitVec.toNat_setWidth, BitVec.toNat_ofNat]
    omega
  · have key : ∀ k : Fin 128, ∀ b : Bool,
        (((⟨0⟩ : EncodedRate).with_rate (BitVec.setWidth 7 (BitVec.ofNat 8 k.val))).with_is_b
          b).bits.toNat = k.val + (if b then 128 else 0) := by decide +kernel
    exact key ⟨k, by omega⟩ b

/-- Other values up to 63999 round down to the next multiple. -/
theorem c47_rounds_down (n : Nat) (h : n < 64000) (b : Bool) :
    ∃ r, EncodedRate.fromRateInKbps n b = .ok r ∧ r.rateInKbps ≤ n ∧ n < r.rateInKbps + 500 ∧
      r.is_b = b := by
  simp only [EncodedRate.fromRateInKbps, fitField]
  rw [if_pos (by simp; omega)]
  refine ⟨_, rfl, ?_, ?_, (EncodedRate.get_new _ b).2⟩ <;>
  · simp only [EncodedRate.rateInKbps, (EncodedRate.get_new _ b).1]
    simp only [BitVec.toNat_setWidth, BitVec.toNat_ofNat]
    omega

/-- The last clause of C47 is violated: the constructor panics for 64000 kbit/s, and exactly when the
number of units modulo 256 does not fit in seven bits. -/
theorem c47_panics_iff (n : Nat) (b : Bool) :
    EncodedRate.fromRateInKbps n b = .panic ↔ 128 ≤ n / 500 % 256 := by
  simp only [EncodedRate.fromRateInKbps, fitField, BitVec.toNat_ofNat]
  by_cases h : n / 500 % 256 < 128
  · rw [if_pos (by simpa using h)]
    simp; omega
  · rw [if_neg (by simpa using h)]
    simp; omega

theorem c47_panics : EncodedRate.fromRateInKbps 64000 false = .panic := by decide

/-- Still larger values wrap around silently. -/
theorem c47_wraps : (EncodedRate.fromRateInKbps 130000 true).map (·.rateInKbps) = .ok 2000 := by
  decide

/-- Decoding any byte and encoding it again gives the byte back. -/
theorem c47_decode_encode (r : EncodedRate) :
    EncodedRate.fromRateInKbps r.rateInKbps r.is_b = .ok r := by
  have key : ∀ x : BitVec 8, EncodedRate.fromRateInKbps (EncodedRate.mk x).rateInKbps
      (EncodedRate.mk x).is_b = .ok ⟨x⟩ := by decide +kernel
  exact key r.bits

/-- Concrete case: 5.5 Mbit/s, basic. -/
example : EncodedRate.fromRateInKbps 5500 true = .ok ⟨0x8b⟩ := by decide

end Verif
