import Verif.Model.Elements.Simple
/-!
# C15: VHT MCS map

Two bits per number of spatial streams; code 0..2 for MCS 0-7, 0-8, 0-9 and 3 for "not supported".
-/
namespace Verif

/-- The n-th pair of bits of a map, as a number. -/
def Spec.pair (m : BitVec 16) (n : Nat) : Nat := m.toNat / 4 ^ (n - 1) % 4

/-- The support level with code `c`, by the table of the standard. -/
def Spec.vhtSupport : Nat → Option VHTMCSSupport
  | 0 => some .ZeroToSeven
  | 1 => some .ZeroToEight
  | 2 => some .ZeroToNine
  | 3 => some .NotSupported
  | _ => none

theorem vhtSupport_fromBits (v : BitVec 8) (h : v.toNat < 4) :
    some (VHTMCSSupport.fromBits v) = Spec.vhtSupport v.toNat := by
  have : v = 0 ∨ v = 1 ∨ v = 2 ∨ v = 3 := by
    have h4 : v.toNat = 0 ∨ v.toNat = 1 ∨ v.toNat = 2 ∨ v.toNat = 3 := by omega
    rcases h4 with h | h | h | h
    · exact .inl (BitVec.eq_of_toNat_eq h)
    · exact .inr (.inl (BitVec.eq_of_toNat_eq h))
    · exact .inr (.inr (.inl (BitVec.eq_of_toNat_eq h)))
    · exact .inr (.inr (.inr (BitVec.eq_of_toNat_eq h)))
  rcases this with rfl | rfl | rfl | rfl <;> rfl

/-- Support is reported exactly for 1..=8 streams, and is the level coded by that pair of bits. -/
theorem c15_support (m : VHTMCSMap) (n : Nat) :
    m.supportForNss n = if 1 ≤ n ∧ n ≤ 8 then Spec.vhtSupport (Spec.pair m.bits n) else none := by
  unfold VHTMCSMap.supportForNss
  by_cases h : 1 ≤ n ∧ n ≤ 8
  · rw [if_pos (by omega), if_pos h]
    have hv : (((m.bits >>> ((n - 1) * 2)) &&& 0b11).truncate 8).toNat = Spec.pair m.bits n := by
      unfold Spec.pair
      rw [BitVec.truncate_eq_setWidth, BitVec.toNat_setWidth, BitVec.toNat_and,
        BitVec.toNat_ushiftRight, Nat.shiftRight_eq_div_pow]
      rw [show (0b11 : BitVec 16).toNat = 2 ^ 2 - 1 from rfl, Nat.and_two_pow_sub_one_eq_mod,
        show (4 : Nat) = 2 ^ 2 from rfl, ← Nat.pow_mul, Nat.mul_comm 2 (n - 1)]
      omega
    rw [← hv]
    exact vhtSupport_fromBits _ (by rw [hv]; unfold Spec.pair; omega)
  · rw [if_neg (by omega), if_neg h]

/-- The iterator gives the eight levels in order. -/
theorem c15_iter (m : VHTMCSMap) :
    m.supportIter.map some = [1, 2, 3, 4, 5, 6, 7, 8].map
      (fun n => Spec.vhtSupport (Spec.pair m.bits n)) := by
  have key : ∀ n, 1 ≤ n ∧ n ≤ 8 → m.supportForNss n =
      some (VHTMCSSupport.fromBits (((m.bits >>> ((n - 1) * 2)) &&& 0b11).truncate 8)) := by
    intro n h
    unfold VHTMCSMap.supportForNss
    rw [if_pos (by omega)]
  have e : ∀ n, 1 ≤ n ∧ n ≤ 8 → m.supportForNss n = Spec.vhtSupport (Spec.pair m.bits n) := by
    intro n h
    rw [c15_support, if_pos h]
  simp only [VHTMCSMap.supportIter, List.map_cons, List.map_nil]
  rw [← e 1 (by omega), ← e 2 (by omega), ← e 3 (by omega), ← e 4 (by omega), ← e 5 (by omega),
    ← e 6 (by omega), ← e 7 (by omega), ← e 8 (by omega)]
  rw [key 1 (by omega), key 2 (by omega), key 3 (by omega), key 4 (by omega), key 5 (by omega),
    key 6 (by omega), key 7 (by omega), key 8 (by omega)]
  simp only [List.filterMap_cons, List.filterMap_nil, key 1 (by omega), key 2 (by omega),
    key 3 (by omega), key 4 (by omega), key 5 (by omega), key 6 (by omega), key 7 (by omega),
    key 8 (by omega), List.map_cons, List.map_nil]

/-- The code of a level, by the table of the standard. -/
def Spec.vhtCode : VHTMCSSupport → Option Nat
  | .ZeroToSeven => some 0
  | .ZeroToEight => some 1
  | .ZeroToNine => some 2
  | .NotSupported => some 3
  | .Unknown _ => none

/-- What is missing: building from more than four levels.  `from_vht_mcs_iter` shifts a `u8`, which
overflows (a panic) at the fifth item, so that the eight levels of a map can never be put
together again. -/
theorem c15_rebuild_panics (m : VHTMCSMap) : VHTMCSMap.fromIter m.supportIter = .panic := by
  have h := c15_iter m
  have hl : m.supportIter.length = 8 := by
    have := congrArg List.length h
    simpa using this
  match hs : m.supportIter, hl with
  | [a, b, c, d, e, f, g, i], _ => rfl

/-- The same for any five or more levels. -/
theorem c15_build_five_panics (l : List VHTMCSSupport) (h : 5 ≤ l.length) :
    VHTMCSMap.fromIter l = .panic := by
  match l, h with
  | a :: b :: c :: d :: e :: l, _ => rfl

/-- The conclusion of the next theorem, checked on one list. -/
def c15Good (l : List VHTMCSSupport) : Bool :=
  match VHTMCSMap.fromIter l with
  | .ok m => [1, 2, 3, 4, 5, 6, 7, 8].all fun n =>
    m.supportForNss n == some (l.getD (n - 1) .ZeroToSeven)
  | _ => false

/-- Building from at most four levels gives the map with these levels in the first places.  (Then the
remaining places read as "MCS 0-7", not as "not supported".) -/
theorem c15_build_partial (l : List VHTMCSSupport) (hl : l.length ≤ 4)
    (hk : ∀ s ∈ l, ∃ c, Spec.vhtCode s = some c) :
    ∃ m, VHTMCSMap.fromIter l = .ok m ∧
      ∀ n, 1 ≤ n → n ≤ 8 → m.supportForNss n = some (l.getD (n - 1) .ZeroToSeven) := by
  have named : ∀ s : VHTMCSSupport, (∃ c, Spec.vhtCode s = some c) →
      s ∈ [VHTMCSSupport.ZeroToSeven, .ZeroToEight, .ZeroToNine, .NotSupported] := by
    rintro s ⟨c, hc⟩
    cases s <;> simp_all [Spec.vhtCode]
  have h8 : ∀ m : VHTMCSMap, ∀ l : List VHTMCSSupport,
      (∀ n ∈ [1, 2, 3, 4, 5, 6, 7, 8], m.supportForNss n = some (l.getD (n - 1) .ZeroToSeven)) →
      ∀ n, 1 ≤ n → n ≤ 8 → m.supportForNss n = some (l.getD (n - 1) .ZeroToSeven) := by
    intro m l h n h1 h2
    refine h n ?_
    simp only [List.mem_cons, List.not_mem_nil]
    omega
  have k4 : ∀ a ∈ [VHTMCSSupport.ZeroToSeven, .ZeroToEight, .ZeroToNine, .NotSupported],
      ∀ b ∈ [VHTMCSSupport.ZeroToSeven, .ZeroToEight, .ZeroToNine, .NotSupported],
      ∀ c ∈ [VHTMCSSupport.ZeroToSeven, .ZeroToEight, .ZeroToNine, .NotSupported],
      ∀ d ∈ [VHTMCSSupport.ZeroToSeven, .ZeroToEight, .ZeroToNine, .NotSupported],
      ∀ l ∈ [[], [a], [a, b], [a, b, c], [a, b, c, d]], c15Good l = true := by decide +kernel
  have z : VHTMCSSupport.ZeroToSeven ∈
      [VHTMCSSupport.ZeroToSeven, .ZeroToEight, .ZeroToNine, .NotSupported] := by simp
  have fin : ∀ l, c15Good l = true → ∃ m, VHTMCSMap.fromIter l = .ok m ∧
      ∀ n, 1 ≤ n → n ≤ 8 → m.supportForNss n = some (l.getD (n - 1) .ZeroToSeven) := by
    intro l h
    cases hf : VHTMCSMap.fromIter l with
    | ok m =>
      simp only [c15Good, hf] at h
      exact ⟨m, rfl, h8 m l fun n hn => beq_iff_eq.1 (List.all_eq_true.1 h n hn)⟩
    | err e => simp [c15Good, hf] at h
    | panic => simp [c15Good, hf] at h
  match l, hl, hk with
  | [], _, _ => exact fin _ (k4 _ z _ z _ z _ z _ (by simp))
  | [a], _, hk => exact fin _ (k4 _ (named a (hk a (by simp))) _ z _ z _ z _ (by simp))
  | [a, b], _, hk =>
    exact fin _ (k4 _ (named a (hk a (by simp))) _ (named b (hk b (by simp))) _ z _ z _ (by simp))
  | [a, b, c], _, hk =>
    exact fin _ (k4 _ (named a (hk a (by simp))) _ (named b (hk b (by simp))) _
      (named c (hk c (by simp))) _ z _ (by simp))
  | [a, b, c, d], _, hk =>
    exact fin _ (k4 _ (named a (hk a (by simp))) _ (named b (hk b (by simp))) _
      (named c (hk c (by simp))) _ (named d (hk d (by simp))) _ (by simp))

/-- The maximum MPDU length in bytes: the three lengths of the standard survive, and the fourth code
has no length. -/
theorem c15_mpdu_length (i : VHTCapabilitiesInfo) (len : BitVec 16) :
    (i.withMaximumMpduLengthInBytes len).maximumMpduLengthInBytes =
      if len = 3895 ∨ len = 7991 ∨ len = 11454 then some len else none := by
  have h : ∀ v, (i.with_maximum_mpdu_length v).maximum_mpdu_length = v := fun v => by
    simp only [VHTCapabilitiesInfo.maximum_mpdu_length, VHTCapabilitiesInfo.with_maximum_mpdu_length]
    exact getField_setField_same _ _ _ _ (by decide)
  simp only [VHTCapabilitiesInfo.maximumMpduLengthInBytes,
    VHTCapabilitiesInfo.withMaximumMpduLengthInBytes, h]
  by_cases h1 : len = 3895
  · subst h1; rfl
  · by_cases h2 : len = 7991
    · subst h2; rfl
    · by_cases h3 : len = 11454
      · subst h3; rfl
      · rw [if_neg h1, if_neg h2, if_neg h3, if_neg (by rintro (h | h | h) <;> contradiction)]
        rfl

/-- Concrete case. -/
example : (VHTMCSMap.mk 0xfffa).supportForNss 1 = some .ZeroToNine ∧
    (VHTMCSMap.mk 0xfffa).supportForNss 3 = some .NotSupported ∧
    VHTMCSMap.fromIter [.ZeroToNine, .ZeroToNine, .NotSupported, .NotSupported] =
      .ok ⟨0xfa⟩ := by decide

end Verif
