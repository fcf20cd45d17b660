import Verif.Model.Elements.RateMacros
import Mathlib.Tactic.Linarith
import Mathlib.Tactic.FieldSimp
import Mathlib.Tactic.Ring
import Mathlib.Tactic.Positivity
import Mathlib.Tactic.NormNum
/-! # Rounding to binary32 -/
namespace Verif
namespace F32

theorem nearestEven_int (z : ℤ) : nearestEven z = z := by simp [nearestEven]

theorem nearestEven_err (q : ℚ) : |(nearestEven q : ℚ) - q| ≤ 1 / 2 := by
  have h1 := Int.floor_le q
  have h2 := Int.lt_floor_add_one q
  unfold nearestEven
  split_ifs <;> push_cast <;> rw [abs_le] <;> constructor <;> linarith

theorem ulp_pos (q : ℚ) : 0 < ulp q := zpow_pos (by norm_num) _

theorem toF32_err (q : ℚ) : |toF32 q - q| ≤ ulp q / 2 := by
  have h := nearestEven_err (q / ulp q)
  have hp := ulp_pos q
  have : toF32 q - q = ((nearestEven (q / ulp q) : ℚ) - q / ulp q) * ulp q := by
    unfold toF32; field_simp
  rw [this, abs_mul, abs_of_pos hp]
  nlinarith

/-- A number with a whole number of units in the last place is kept. -/
theorem toF32_of_int (q : ℚ) (z : ℤ) (h : q = z * ulp q) : toF32 q = q := by
  have hp := ulp_pos q
  have : q / ulp q = z := by rw [div_eq_iff hp.ne']; exact h
  unfold toF32
  rw [this, nearestEven_int, ← h]

/-- An integer below 2^24 is kept. -/
theorem toF32_nat_half (n : ℕ) (h : n < 2 ^ 24) (k : ℕ) (hk : k ≤ 1) : toF32 ((n : ℚ) / 2 ^ k) = n / 2 ^ k := by
  rcases Nat.eq_zero_or_pos n with rfl | hn
  · refine toF32_of_int _ 0 ?_; simp
  have hq : (0 : ℚ) < n / 2 ^ k := by positivity
  have hlog : Int.log 2 ((n : ℚ) / 2 ^ k) ≤ 23 - k := by
    have : (n : ℚ) / 2 ^ k < (2 : ℚ) ^ ((24 : ℤ) - k) := by
      rw [zpow_sub₀ (by norm_num), zpow_natCast]
      rw [div_lt_div_iff_of_pos_right (by positivity)]
      exact_mod_cast h
    have := (Int.lt_zpow_iff_log_lt (x := 24 - (k : ℤ)) (by norm_num : 1 < 2) hq).1 (by push_cast; exact this)
    omega
  obtain ⟨m, hm⟩ : ∃ m : ℕ, (m : ℤ) = 23 - (k : ℤ) - max (Int.log 2 ((n : ℚ) / 2 ^ k)) (-126) :=
    ⟨(23 - (k : ℤ) - max (Int.log 2 ((n : ℚ) / 2 ^ k)) (-126)).toNat, by omega⟩
  refine toF32_of_int _ ((n : ℤ) * 2 ^ m) ?_
  have hu : ulp ((n : ℚ) / 2 ^ k) = 2 ^ (-(m : ℤ) - k) := by
    unfold ulp; congr 1; omega
  rw [hu, zpow_sub₀ (by norm_num), zpow_neg, zpow_natCast, zpow_natCast]
  push_cast
  field_simp

/-- The rounding error relative to the number. -/
theorem toF32_rel (q : ℚ) (h : (2 : ℚ) ^ (-126 : ℤ) ≤ q) : |toF32 q - q| ≤ q / 2 ^ 24 := by
  have hq : 0 < q := lt_of_lt_of_le (by positivity) h
  have hl : (-126 : ℤ) ≤ Int.log 2 q := (Int.zpow_le_iff_le_log (by norm_num) hq).1 (by exact_mod_cast h)
  have hu : ulp q ≤ q / 2 ^ 23 := by
    unfold ulp
    rw [max_eq_left hl, zpow_sub₀ (by norm_num)]
    have := Int.zpow_log_le_self (b := 2) (by norm_num) hq
    have h2 : ((2 : ℚ) ^ (23 : ℤ)) = 2 ^ 23 := by norm_cast
    rw [h2]
    push_cast at this
    gcongr
  have := toF32_err q
  linarith

/-- A number up to 2^(-126) is rounded to at most that. -/
theorem toF32_small (q : ℚ) (h0 : 0 ≤ q) (h : q < (2 : ℚ) ^ (-126 : ℤ)) :
    |toF32 q - q| ≤ (2 : ℚ) ^ (-150 : ℤ) := by
  rcases h0.eq_or_lt with rfl | hq
  · have : toF32 0 = 0 := by simpa using toF32_of_int 0 0 (by simp)
    rw [this, sub_zero, abs_zero]; positivity
  have hu : ulp q = (2 : ℚ) ^ (-149 : ℤ) := by
    unfold ulp
    have := (Int.lt_zpow_iff_log_lt (x := -126) (by norm_num : 1 < 2) hq).1 (by push_cast; exact h)
    rw [max_eq_right (by omega)]; norm_num
  have := toF32_err q
  rw [hu] at this
  refine this.trans (le_of_eq ?_)
  norm_num

theorem le_nearestEven (q : ℚ) : ⌊q⌋ ≤ nearestEven q := by
  unfold nearestEven; split_ifs <;> omega

theorem nearestEven_le (q : ℚ) : nearestEven q ≤ ⌊q⌋ + 1 := by
  unfold nearestEven; split_ifs <;> omega

theorem nearestEven_mono {a b : ℚ} (h : a ≤ b) : nearestEven a ≤ nearestEven b := by
  have hf := Int.floor_mono h
  rcases hf.eq_or_lt with he | hl
  · unfold nearestEven
    rw [he]
    split_ifs <;> first | omega | (exfalso; linarith)
  · have := nearestEven_le a
    have := le_nearestEven b
    omega

theorem nearestEven_le_int (q : ℚ) (z : ℤ) (h : q ≤ z) : nearestEven q ≤ z := by
  simpa [nearestEven_int] using nearestEven_mono h

theorem int_le_nearestEven (q : ℚ) (z : ℤ) (h : (z : ℚ) ≤ q) : z ≤ nearestEven q := by
  simpa [nearestEven_int] using nearestEven_mono h

/-- Rounding keeps the order. -/
theorem toF32_mono {a b : ℚ} (ha : 0 < a) (h : a ≤ b) : toF32 a ≤ toF32 b := by
  have hb : 0 < b := ha.trans_le h
  have hlog : Int.log 2 a ≤ Int.log 2 b := Int.log_mono_right ha h
  have hpa := ulp_pos a
  have hpb := ulp_pos b
  by_cases he : max (Int.log 2 a) (-126) = max (Int.log 2 b) (-126)
  · have hu : ulp a = ulp b := by unfold ulp; rw [he]
    unfold toF32
    rw [hu]
    have : nearestEven (a / ulp b) ≤ nearestEven (b / ulp b) := nearestEven_mono (by gcongr)
    have : ((nearestEven (a / ulp b) : ℤ) : ℚ) ≤ nearestEven (b / ulp b) := by exact_mod_cast this
    gcongr
  · have hlt : max (Int.log 2 a) (-126) + 1 ≤ Int.log 2 b := by omega
    have hmb : max (Int.log 2 b) (-126) = Int.log 2 b := by omega
    set ea := max (Int.log 2 a) (-126) with hea
    have hua : ulp a * 2 ^ 24 = (2 : ℚ) ^ (ea + 1) := by
      unfold ulp
      rw [← hea, ← zpow_natCast, ← zpow_add₀ (by norm_num)]
      congr 1; push_cast; ring
    have hub : ulp b * 2 ^ 23 = (2 : ℚ) ^ (Int.log 2 b) := by
      unfold ulp
      rw [hmb, ← zpow_natCast, ← zpow_add₀ (by norm_num)]
      congr 1; push_cast; ring
    have h1 : a ≤ (2 : ℚ) ^ (ea + 1) := by
      have := (Int.lt_zpow_iff_log_lt (x := ea + 1) (by norm_num : 1 < 2) ha).2 (by omega)
      push_cast at this
      exact this.le
    have h2 : (2 : ℚ) ^ (Int.log 2 b) ≤ b := by
      have := Int.zpow_log_le_self (b := 2) (by norm_num) hb
      push_cast at this
      exact this
    have h3 : nearestEven (a / ulp a) ≤ 2 ^ 24 := by
      apply nearestEven_le_int
      rw [div_le_iff₀ hpa]; push_cast; linarith
    have h4 : 2 ^ 23 ≤ nearestEven (b / ulp b) := by
      apply int_le_nearestEven
      rw [le_div_iff₀ hpb]; push_cast; linarith
    have h3' : ((nearestEven (a / ulp a) : ℤ) : ℚ) ≤ 2 ^ 24 := by exact_mod_cast h3
    have h4' : (2 ^ 23 : ℚ) ≤ nearestEven (b / ulp b) := by exact_mod_cast h4
    have h5 : (2 : ℚ) ^ (ea + 1) ≤ 2 ^ (Int.log 2 b) := zpow_le_zpow_right₀ (by norm_num) hlt
    calc toF32 a ≤ 2 ^ 24 * ulp a := by unfold toF32; gcongr
      _ = 2 ^ (ea + 1) := by rw [mul_comm]; exact hua
      _ ≤ 2 ^ (Int.log 2 b) := h5
      _ = 2 ^ 23 * ulp b := by rw [mul_comm]; exact hub.symm
      _ ≤ toF32 b := by unfold toF32; gcongr

end F32
end Verif
