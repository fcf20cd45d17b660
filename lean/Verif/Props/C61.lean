import Verif.Lemmas.F32
import Verif.Props.C01
import Verif.Props.C10
import Verif.Props.C11
import Verif.Props.C47
/-!
# C61: what the macros accept

`rate!` multiplies in single precision and truncates.  The claim is about the number that the programmer
wrote, so it must cover what is lost by rounding.
-/
namespace Verif

open F32

/-- The rounding of the model is that of IEEE 754: no integer is nearer, and of two that are equally near the
even one is taken. -/
theorem c61_nearest_even (q : ℚ) (k : ℤ) (hk : k ≠ nearestEven q) :
    |q - nearestEven q| ≤ |q - k| ∧ (|q - nearestEven q| = |q - k| → nearestEven q % 2 = 0) := by
  have h0 := Int.floor_le q
  have h1 := Int.lt_floor_add_one q
  have hcast : ∀ a b : ℤ, a < b → (a : ℚ) + 1 ≤ b := fun a b h => by exact_mod_cast h
  unfold nearestEven at *
  generalize hf : ⌊q⌋ = f at *
  split_ifs at * with a b c
  · rw [abs_of_nonneg (by linarith)]
    rcases lt_or_gt_of_ne hk with h | h
    · have := hcast _ _ h
      rw [abs_of_nonneg (by linarith)]
      exact ⟨by linarith, fun e => by linarith⟩
    · have := hcast _ _ h
      rw [abs_of_nonpos (by linarith)]
      exact ⟨by linarith, fun e => by linarith⟩
  · push_cast at *
    rw [abs_of_nonpos (by linarith)]
    rcases lt_or_gt_of_ne hk with h | h
    · have : (k : ℚ) ≤ f := by exact_mod_cast Int.lt_add_one_iff.1 h
      rw [abs_of_nonneg (by linarith)]
      exact ⟨by linarith, fun e => by linarith⟩
    · have := hcast _ _ h
      push_cast at this
      rw [abs_of_nonpos (by linarith)]
      exact ⟨by linarith, fun e => by linarith⟩
  · rw [abs_of_nonneg (by linarith)]
    refine ⟨?_, fun _ => c⟩
    rcases lt_or_gt_of_ne hk with h | h
    · have := hcast _ _ h
      rw [abs_of_nonneg (by linarith)]; linarith
    · have := hcast _ _ h
      rw [abs_of_nonpos (by linarith)]; linarith
  · push_cast at *
    rw [abs_of_nonpos (by linarith)]
    refine ⟨?_, fun _ => by omega⟩
    rcases lt_or_gt_of_ne hk with h | h
    · have : (k : ℚ) ≤ f := by exact_mod_cast Int.lt_add_one_iff.1 h
      rw [abs_of_nonneg (by linarith)]; linarith
    · have := hcast _ _ h
      push_cast at this
      rw [abs_of_nonpos (by linarith)]; linarith

example : nearestEven (5 / 2) = 2 ∧ nearestEven (7 / 2) = 4 := by
  constructor <;> norm_num [nearestEven]

private theorem toF32_up (q : ℚ) (h : 0 ≤ q) : toF32 q ≤ q + q / 2 ^ 24 + 2 ^ (-150 : ℤ) := by
  have h0 : (0 : ℚ) ≤ 2 ^ (-150 : ℤ) := by positivity
  rcases le_or_gt ((2 : ℚ) ^ (-126 : ℤ)) q with hl | hl
  · have := (abs_le.1 (toF32_rel q hl)).2
    linarith
  · have := (abs_le.1 (toF32_small q h hl)).2
    have h1 : 0 ≤ q / 2 ^ 24 := by positivity
    generalize (2 : ℚ) ^ (-150 : ℤ) = c at *
    linarith

private theorem toF32_nonneg (q : ℚ) (h : 0 ≤ q) : 0 ≤ toF32 q := by
  unfold toF32
  have := int_le_nearestEven (q / ulp q) 0 (by push_cast; exact div_nonneg h (ulp_pos q).le)
  have : (0 : ℚ) ≤ nearestEven (q / ulp q) := by exact_mod_cast this
  exact mul_nonneg this (ulp_pos q).le

private theorem le_round (n k : ℕ) (hk : k ≤ 1) (q : ℚ) (hn : n < 2 ^ 24) (h : (n : ℚ) / 2 ^ k ≤ q) :
    (n : ℚ) / 2 ^ k ≤ toF32 q := by
  rcases Nat.eq_zero_or_pos n with rfl | hp
  · simpa using toF32_nonneg q (by simpa using h)
  · calc (n : ℚ) / 2 ^ k = toF32 (n / 2 ^ k) := (toF32_nat_half n hn k hk).symm
      _ ≤ toF32 q := toF32_mono (by positivity) h

private theorem rateMacro_nonneg (q : ℚ) (h : 0 ≤ q) (b : Bool) :
    rateMacro q b = EncodedRate.fromRateInKbps (asUsize (toF32 (toF32 q * 1000))) b := by
  have h1 := toF32_nonneg q h
  unfold rateMacro toSigned
  rw [if_neg (not_lt.2 h), if_neg (not_lt.2 (by positivity))]

/-- The number of kbit/s passed on by `rate!`. -/
private theorem kbps_bounds (q : ℚ) (n : ℕ) (hn : n < 2 ^ 12) (h1 : (n : ℚ) / 2 ≤ q)
    (h2 : q + (n + 1) / 2 ^ 23 ≤ (n + 1) / 2) :
    asUsize (toF32 (toF32 q * 1000)) / 500 = n := by
  have hq : 0 ≤ q := le_trans (by positivity) h1
  have hr := toF32_nonneg q hq
  have l1 : (n : ℚ) / 2 ≤ toF32 q := by simpa using le_round n 1 le_rfl q (by omega) (by simpa using h1)
  have l2 : ((500 * n : ℕ) : ℚ) ≤ toF32 (toF32 q * 1000) := by
    simpa using le_round (500 * n) 0 (by omega) (toF32 q * 1000) (by omega) (by push_cast; linarith)
  have u1 := toF32_up q hq
  have u2 := toF32_up (toF32 q * 1000) (by positivity)
  have he : (2 : ℚ) ^ (-150 : ℤ) ≤ 1 / 2 ^ 60 := by norm_num
  have hn0 : (0 : ℚ) ≤ n := by positivity
  have l3 : toF32 (toF32 q * 1000) < ((500 * (n + 1) : ℕ) : ℚ) := by
    push_cast
    linarith
  have f1 : ((500 * n : ℕ) : ℤ) ≤ ⌊toF32 (toF32 q * 1000)⌋ := Int.le_floor.2 (by exact_mod_cast l2)
  have f2 : ⌊toF32 (toF32 q * 1000)⌋ < ((500 * (n + 1) : ℕ) : ℤ) := Int.floor_lt.2 (by exact_mod_cast l3)
  unfold asUsize
  omega

/-- Where a rate between `n` and `n + 1` steps of 500 kbit/s keeps a relative distance of `2 ^ -22` from the
next step, it is encoded as `n`, whatever single precision did to it; the flag is the one given. -/
theorem c61_rate (q : ℚ) (n : ℕ) (hn : n < 128) (h1 : (n : ℚ) / 2 ≤ q)
    (h2 : q + (n + 1) / 2 ^ 23 ≤ (n + 1) / 2) (b : Bool) :
    ∃ r, rateMacro q b = .ok r ∧ r.rate.toNat = n ∧ r.is_b = b ∧
      r.bits.toNat = n + (if b then 128 else 0) := by
  have hk := kbps_bounds q n (by omega) h1 h2
  obtain ⟨r, h, hr, hb, hbits⟩ := c47_round_trip n (by omega) b
  refine ⟨r, ?_, ?_, hb, hbits⟩
  · rw [← h, rateMacro_nonneg q (le_trans (by positivity) h1)]
    unfold EncodedRate.fromRateInKbps
    rw [hk, Nat.mul_div_cancel n (by omega)]
  · simp only [EncodedRate.rateInKbps] at hr
    omega

/-- A whole number `n` of steps is encoded exactly. -/
theorem c61_rate_exact (n : ℕ) (hn : n < 128) (b : Bool) :
    ∃ r, rateMacro (n / 2) b = .ok r ∧ r.rate.toNat = n ∧ r.is_b = b ∧
      r.bits.toNat = n + (if b then 128 else 0) := by
  refine c61_rate _ n hn le_rfl ?_ b
  have : (n : ℚ) ≤ 128 := by exact_mod_cast hn.le
  linarith

/-- Every literal below 64 with up to four decimal places is rounded down to a step, as if the
multiplication were exact. -/
theorem c61_rate_decimal (m : ℕ) (hm : m < 640000) (b : Bool) :
    ∃ r, rateMacro (m / 10000) b = .ok r ∧ r.rate.toNat = m / 5000 ∧ r.is_b = b := by
  have h1 : m / 5000 * 5000 ≤ m := Nat.div_mul_le_self m 5000
  have h2 : m + 1 ≤ (m / 5000 + 1) * 5000 := by omega
  have h1' : ((m / 5000 : ℕ) : ℚ) * 5000 ≤ m := by exact_mod_cast h1
  have h2' : (m : ℚ) + 1 ≤ (((m / 5000 : ℕ) : ℚ) + 1) * 5000 := by exact_mod_cast h2
  have h3 : ((m / 5000 : ℕ) : ℚ) ≤ 128 := by
    have : m / 5000 ≤ 128 := by omega
    exact_mod_cast this
  obtain ⟨r, a1, a2, a3, _⟩ := c61_rate ((m : ℚ) / 10000) (m / 5000) (by omega) (by linarith)
    (by linarith) b
  exact ⟨r, a1, a2, a3⟩

/-- A literal from 64 up to 127.5 does not compile. -/
theorem c61_rate_too_large (n : ℕ) (h1 : 128 ≤ n) (h2 : n < 256) (b : Bool) :
    rateMacro (n / 2) b = .panic := by
  have hk := kbps_bounds (n / 2) n (by omega) le_rfl (by
    have : (n : ℚ) ≤ 256 := by exact_mod_cast h2.le
    linarith)
  rw [rateMacro_nonneg _ (by positivity), c47_panics_iff, hk]
  omega

/-- Violation: a literal of 128 or more is not refused by `rate!`; up to 2048 it compiles and wraps around
to a rate below 64 in every other interval of 64, and does not compile in between. -/
theorem c61_rate_wraps (n : ℕ) (h1 : 256 ≤ n) (h2 : n < 4096) (b : Bool) :
    (n % 256 < 128 → ∃ r, rateMacro (n / 2) b = .ok r ∧ r.rate.toNat = n % 256) ∧
    (128 ≤ n % 256 → rateMacro (n / 2) b = .panic) := by
  have hk := kbps_bounds (n / 2) n (by omega) le_rfl (by
    have : (n : ℚ) ≤ 4096 := by exact_mod_cast h2.le
    linarith)
  have hm := rateMacro_nonneg (n / 2) (by positivity) b
  constructor
  · intro hlt
    obtain ⟨r, h, hr, _⟩ := c47_round_trip (n % 256) (by omega) b
    refine ⟨r, ?_, ?_⟩
    · rw [← h, hm]
      unfold EncodedRate.fromRateInKbps
      rw [hk, Nat.mul_div_cancel _ (by omega)]
      have : BitVec.ofNat 8 n = BitVec.ofNat 8 (n % 256) := by
        apply BitVec.eq_of_toNat_eq
        simp only [BitVec.toNat_ofNat]
        omega
      rw [this]
    · simp only [EncodedRate.rateInKbps] at hr
      omega
  · intro hge
    rw [hm, c47_panics_iff, hk]
    omega

/-- Violation: a negative literal is not refused either; it compiles to the rate zero. -/
theorem c61_rate_negative (q : ℚ) (h : q < 0) (b : Bool) :
    ∃ r, rateMacro q b = .ok r ∧ r.rate.toNat = 0 ∧ r.is_b = b := by
  have h1 := toF32_nonneg (-q) (by linarith)
  have h2 : toSigned q ≤ 0 := by
    unfold toSigned
    rw [if_pos h]
    linarith
  have h3 : toSigned (toSigned q * 1000) ≤ 0 := by
    have hle : toSigned q * 1000 ≤ 0 := by linarith
    generalize toSigned q * 1000 = x at hle
    unfold toSigned
    rcases lt_or_eq_of_le hle with hx | hx
    · rw [if_pos hx]
      have := toF32_nonneg (-x) (by linarith)
      linarith
    · subst hx
      rw [if_neg (lt_irrefl _)]
      simp [toF32, nearestEven]
  have h4 : asUsize (toSigned (toSigned q * 1000)) = 0 := by
    have : ⌊toSigned (toSigned q * 1000)⌋ ≤ 0 := by
      have := Int.floor_le_floor h3
      simpa using this
    unfold asUsize
    rw [Int.toNat_eq_zero.2 this]
    exact Nat.zero_min _
  obtain ⟨r, hr, hr', hb, _⟩ := c47_round_trip 0 (by simp) b
  refine ⟨r, ?_, ?_, hb⟩
  · rw [← hr, Nat.zero_mul]
    unfold rateMacro
    rw [h4]
  · simp only [EncodedRate.rateInKbps] at hr'
    omega

/-- 5.5 Mbit/s as a basic rate, 11 Mbit/s as another, and two literals that need the truncation. -/
example : (∃ r, rateMacro (11 / 2) true = .ok r ∧ r.bits.toNat = 0x8b) ∧
    (∃ r, rateMacro 11 false = .ok r ∧ r.bits.toNat = 0x16) ∧
    (∃ r, rateMacro (19999 / 10000) false = .ok r ∧ r.rate.toNat = 3) := by
  refine ⟨?_, ?_, ?_⟩
  · obtain ⟨r, h, _, _, hb⟩ := c61_rate_exact 11 (by omega) true
    exact ⟨r, by exact_mod_cast h, by simpa using hb⟩
  · obtain ⟨r, h, _, _, hb⟩ := c61_rate_exact 22 (by omega) false
    refine ⟨r, ?_, by simpa using hb⟩
    rw [← h]; norm_num
  · obtain ⟨r, h, hr, _⟩ := c61_rate_decimal 19999 (by omega) false
    exact ⟨r, by exact_mod_cast h, by simpa using hr⟩

namespace Spec

/-- The byte for `n` steps of 500 kbit/s. -/
def rateByte (nb : ℕ × Bool) : BitVec 8 := BitVec.ofNat 8 (nb.1 + if nb.2 then 128 else 0)

/-- The literals for these rates. -/
def rateLits (l : List (ℕ × Bool)) : List (ℚ × Bool) := l.map fun nb => ((nb.1 : ℚ) / 2, nb.2)

end Spec

open Spec

private theorem rateMacros_ok (l : List (ℕ × Bool)) (h : ∀ x ∈ l, x.1 < 128) :
    ∃ rs, rateMacros (rateLits l) = .ok rs ∧ rs.map EncodedRate.bits = l.map rateByte := by
  induction l with
  | nil => exact ⟨[], rfl, rfl⟩
  | cons x l ih =>
    obtain ⟨rs, h1, h2⟩ := ih (fun y hy => h y (List.mem_cons_of_mem _ hy))
    obtain ⟨r, hr, _, _, hb⟩ := c61_rate_exact x.1 (h x List.mem_cons_self) x.2
    refine ⟨r :: rs, ?_, ?_⟩
    · show (rateMacro _ _ >>= fun r => rateMacros (rateLits l) >>= fun rs => pure (r :: rs)) = _
      rw [hr, h1]
      rfl
    · rw [List.map_cons, List.map_cons, h2]
      congr 1
      apply BitVec.eq_of_toNat_eq
      rw [hb, rateByte, BitVec.toNat_ofNat]
      have := h x List.mem_cons_self
      split <;> omega

variable [ScrollRule]

/-- `supported_rates!` with up to eight rates gives what `new` gives for them, and writing it emits their bytes in
the order listed; with more rates it does not compile. -/
theorem c61_supported_rates (l : List (ℕ × Bool)) (h : ∀ x ∈ l, x.1 < 128) :
    (l.length ≤ 8 → ∃ e, supportedRatesMacro (rateLits l) = .ok e ∧
        newSupportedRates e.supported_rates = some e ∧
        Emits (writeSupportedRates e) (l.map rateByte) l.length ∧ measureRates e = l.length) ∧
      (8 < l.length → supportedRatesMacro (rateLits l) = .panic) := by
  obtain ⟨rs, h1, h2⟩ := rateMacros_ok l h
  have hl : rs.length = l.length := by simpa using congrArg List.length h2
  refine ⟨fun h8 => ⟨⟨rs⟩, ?_, ?_⟩, fun h8 => ?_⟩
  · unfold supportedRatesMacro
    rw [h1, Res.ok_bind, if_pos (by omega)]; rfl
  · have hnew : newSupportedRates rs = some ⟨rs⟩ := by unfold newSupportedRates; rw [if_pos (by omega)]
    obtain ⟨w, m⟩ := c11_write_supported rs ⟨rs⟩ hnew
    rw [h2, hl] at w
    exact ⟨hnew, w, m.trans hl⟩
  · unfold supportedRatesMacro
    rw [h1, Res.ok_bind, if_neg (by omega)]

/-- The same for `extended_supported_rates!` and 251 rates. -/
theorem c61_extended_supported_rates (l : List (ℕ × Bool)) (h : ∀ x ∈ l, x.1 < 128) :
    (l.length ≤ 251 → ∃ e, extendedSupportedRatesMacro (rateLits l) = .ok e ∧
        newExtendedSupportedRates e.supported_rates = some e ∧
        Emits (writeExtendedSupportedRates e) (l.map rateByte) l.length ∧ measureRates e = l.length) ∧
      (251 < l.length → extendedSupportedRatesMacro (rateLits l) = .panic) := by
  obtain ⟨rs, h1, h2⟩ := rateMacros_ok l h
  have hl : rs.length = l.length := by simpa using congrArg List.length h2
  refine ⟨fun h8 => ⟨⟨rs⟩, ?_, ?_⟩, fun h8 => ?_⟩
  · unfold extendedSupportedRatesMacro
    rw [h1, Res.ok_bind, if_pos (by omega)]; rfl
  · obtain ⟨w, m⟩ := c11_write_extended ⟨rs⟩
    rw [show (RatesElement.mk rs).supported_rates = rs from rfl, h2, hl] at w
    refine ⟨?_, w, m.trans hl⟩
    unfold newExtendedSupportedRates; rw [if_pos (show rs.length ≤ 251 by omega)]
  · unfold extendedSupportedRatesMacro
    rw [h1, Res.ok_bind, if_neg (by omega)]

/-- `supported_rates![1 B, 2 B, 5.5 B, 11 B]`, which the crate's own documentation uses. -/
example : ∃ e, supportedRatesMacro (rateLits [(2, true), (4, true), (11, true), (22, true)]) = .ok e ∧
    Emits (writeSupportedRates e) [0x82, 0x84, 0x8b, 0x96] 4 := by
  obtain ⟨e, h, _, w, _⟩ := (c61_supported_rates [(2, true), (4, true), (11, true), (22, true)]
    (by decide)).1 (by decide)
  exact ⟨e, h, w⟩

omit [ScrollRule] in
/-- `ssid!` and `mesh_id!` accept exactly what `new` accepts, with the same result; anything longer does
not compile. -/
theorem c61_ssid (s : Str) :
    (∀ e, ssidMacro s = .ok e ↔ SSIDLikeElement.new s = some e) ∧
      (ssidMacro s = .panic ↔ 32 < s.bytes.length) := by
  unfold ssidMacro SSIDLikeElement.new
  show (∀ e, _ ↔ (if s.bytes.length ≤ 32 then _ else _) = _) ∧ _
  by_cases h : s.bytes.length ≤ 32
  · simp only [if_pos h]
    exact ⟨fun e => by simp, by simp; omega⟩
  · simp only [if_neg h]
    exact ⟨fun e => by simp, by simp; omega⟩

omit [ScrollRule] in
example : ssidMacro ⟨[0x4f, 0x70, 0x65, 0x6e], by decide⟩ = .ok ⟨⟨[0x4f, 0x70, 0x65, 0x6e], by decide⟩⟩ ∧
    ssidMacro ⟨List.replicate 33 0x61, by decide⟩ = .panic := by decide

omit [ScrollRule] in
/-- Converting from 16 bits reads the type from bits 0 and 1 and the subtype from bits 2 to 5, converting back
gives these six bits, and a frame type that was read survives. -/
theorem c61_frame_type (v : BitVec 16) :
    typeNumbers (FrameType.fromU16 v) = (v.toNat % 4, v.toNat / 4 % 16) ∧
      (FrameType.fromU16 v).intoU16.toNat = v.toNat % 64 ∧
      FrameType.fromU16 (FrameType.fromU16 v).intoU16 = FrameType.fromU16 v := by
  have k1 : ∀ b : BitVec 8, (FrameType.fromBits b).intoBits.toNat = b.toNat % 64 := by decide +kernel
  have k2 : ∀ b : BitVec 8, FrameType.fromBits (FrameType.fromBits b).intoBits = FrameType.fromBits b := by
    decide +kernel
  refine ⟨?_, ?_, ?_⟩
  · rw [FrameType.fromU16, c01_decode]
    simp only [BitVec.truncate_eq_setWidth, BitVec.toNat_setWidth]
    congr 1 <;> omega
  · simp only [FrameType.fromU16, FrameType.intoU16, BitVec.truncate_eq_setWidth, BitVec.toNat_setWidth, k1]
    omega
  · simp only [FrameType.fromU16, FrameType.intoU16, BitVec.truncate_eq_setWidth]
    rw [show BitVec.setWidth 8 (BitVec.setWidth 16 (FrameType.fromBits (BitVec.setWidth 8 v)).intoBits) =
      (FrameType.fromBits (BitVec.setWidth 8 v)).intoBits from by
        apply BitVec.eq_of_toNat_eq; simp only [BitVec.toNat_setWidth]; omega]
    exact k2 _

omit [ScrollRule] in
example : FrameType.fromU16 0xff12 = .Data .Null := by decide

omit [ScrollRule] in
/-- A new HT-SIG has its reserved bit set and every field zero. -/
theorem c61_ht_sig :
    HtSig.new.reserved = true ∧ HtSig.new.mcs = 0 ∧ HtSig.new.is_40mhz = false ∧ HtSig.new.ht_length = 0 ∧
      HtSig.new.smoothing_recommended = false ∧ HtSig.new.not_sounding = false ∧
      HtSig.new.is_ampdu = false ∧ HtSig.new.spatial_stream_count = 0 ∧ HtSig.new.is_ldpc = false ∧
      HtSig.new.short_gi = false := by decide

end Verif
