import Verif.Model.Elements.Ht
/-!
# C46: HT receive MCS bitmap

`Spec.bitAt bytes i` is bit `i` of the bitmap.
-/
namespace Verif

open Spec

theorem flatMap_bits (bytes : Bytes) (i : Nat) :
    (bytes.flatMap fun byte => (List.range 8).map fun i => byte.getLsbD i)[i]? =
      if i < 8 * bytes.length then some (bitAt bytes i) else none := by
  induction bytes generalizing i with
  | nil => simp
  | cons b bs ih =>
    rw [List.flatMap_cons]
    by_cases h : i < 8
    · rw [List.getElem?_append_left (by simpa using h)]
      rw [if_pos (by simp; omega)]
      simp only [List.getElem?_map, List.getElem?_range h, Option.map_some, bitAt]
      rw [show i / 8 = 0 by omega, Nat.mod_eq_of_lt h]
      simp
    · rw [List.getElem?_append_right (by simpa using h)]
      simp only [List.length_map, List.length_range, ih]
      have e : bitAt (b :: bs) i = bitAt bs (i - 8) := by
        unfold bitAt
        rw [show i / 8 = (i - 8) / 8 + 1 by omega, show i % 8 = (i - 8) % 8 by omega]
        simp [List.getD_eq_getElem?_getD]
      rw [e]
      simp only [List.length_cons]
      by_cases h2 : i - 8 < 8 * bs.length
      · rw [if_pos h2, if_pos (by omega)]
      · rw [if_neg h2, if_neg (by omega)]

/-- Reading: the i-th reported flag is the i-th bit of the bitmap, for all 80 bits. -/
theorem c46_indices (s : SupportedMCSSet) (i : Nat) :
    s.supportedRxMcsIndices[i]? =
      if i < 80 then some (bitAt s.supported_rx_mcs_set.val i) else none := by
  unfold SupportedMCSSet.supportedRxMcsIndices
  rw [flatMap_bits]
  simp

theorem setMcsBits_spec (l : List Bool) (i : Nat) (bytes : Bytes)
    (h : i + l.length ≤ 8 * bytes.length) :
    ∃ bytes', setMcsBits i l bytes = .ok bytes' ∧ bytes'.length = bytes.length ∧
      ∀ j, bitAt bytes' j = if i ≤ j ∧ j < i + l.length then l.getD (j - i) false
        else bitAt bytes j := by
  induction l generalizing i bytes with
  | nil => exact ⟨bytes, rfl, rfl, fun j => by rw [if_neg (by simp)]⟩
  | cons v l ih =>
    simp only [List.length_cons] at h
    obtain ⟨b1, h1, hl1, hb1⟩ := setBitAt_spec bytes i v (by omega)
    obtain ⟨b2, h2, hl2, hb2⟩ := ih (i + 1) b1 (by omega)
    refine ⟨b2, ?_, by omega, fun j => ?_⟩
    · simp only [setMcsBits, shiftRight_three, and_seven, h1, Res.ok_bind, h2]
    · rw [hb2, hb1]
      simp only [List.length_cons]
      by_cases hj : j = i
      · subst hj
        rw [if_neg (by omega), if_pos rfl, if_pos (by omega)]
        simp
      · by_cases hr : i + 1 ≤ j ∧ j < i + 1 + l.length
        · rw [if_pos hr, if_pos (by omega)]
          rw [show j - i = (j - (i + 1)) + 1 by omega]
          simp
        · rw [if_neg hr, if_neg hj, if_neg (by omega)]

/-- Building from an iterator of flags: bit `i` is the i-th flag, for the first 76 flags only.  What is
missing for the full claim: index 76 (see the next theorem). -/
theorem c46_generate_partial (l : List Bool) :
    ∃ bytes, generateSupportedRxMcsSet l = .ok bytes ∧ bytes.length = 10 ∧
      ∀ i, bitAt bytes i = (decide (i < 76) && l.getD i false) := by
  obtain ⟨b, h, hl, hb⟩ := setMcsBits_spec (l.take 76) 0 (List.replicate 10 0) (by simp; omega)
  refine ⟨b, h, by simpa using hl, fun i => ?_⟩
  rw [hb, bitAt_replicate]
  simp only [List.length_take, Nat.zero_le, true_and, Nat.zero_add, Nat.sub_zero,
    List.getD_eq_getElem?_getD, List.getElem?_take]
  by_cases h1 : i < 76
  · by_cases h2 : i < l.length
    · rw [if_pos (by omega)]; simp [h1]
    · rw [if_neg (by omega)]
      simp [List.getElem?_eq_none (show l.length ≤ i by omega)]
  · rw [if_neg (by omega)]; simp [h1]

/-- C46 is violated: MCS index 76, which is valid, is lost. -/
theorem c46_generate_loses_76 (l : List Bool) (bytes : Bytes)
    (h : generateSupportedRxMcsSet l = .ok bytes) : bitAt bytes 76 = false := by
  obtain ⟨b, hb, _, hbit⟩ := c46_generate_partial l
  rw [hb] at h
  cases h
  rw [hbit]; rfl

theorem mcsSetListing_spec (l : List Nat) (buf : Bytes) (hl : buf.length = 10) :
    ((∀ i ∈ l, i < 77 ∧ bitAt buf i = false) ∧ l.Nodup →
      ∃ b, mcsSetListing l buf = .ok b ∧ b.length = 10 ∧
        ∀ j, bitAt b j = (decide (j ∈ l) || bitAt buf j)) ∧
    (¬ ((∀ i ∈ l, i < 77 ∧ bitAt buf i = false) ∧ l.Nodup) → mcsSetListing l buf = .panic) := by
  induction l generalizing buf with
  | nil => exact ⟨fun _ => ⟨buf, rfl, hl, fun j => by simp⟩, fun h => absurd (by simp) h⟩
  | cons i l ih =>
    have hg : ((buf[i >>> 3]?).getD 0).getLsbD (i &&& 7) = bitAt buf i := by
      rw [shiftRight_three, and_seven]
      simp [bitAt, List.getD_eq_getElem?_getD]
    have hdef : mcsSetListing (i :: l) buf = if i < 77 then
        if bitAt buf i then .panic else (do
          let buf ← setBitAt buf (i >>> 3) (i &&& 7) true
          mcsSetListing l buf) else .panic := by
      conv => lhs; unfold mcsSetListing
      rw [hg]
    by_cases h77 : i < 77
    · by_cases hb : bitAt buf i = true
      · constructor
        · rintro ⟨h, _⟩
          have := (h i (by simp)).2
          rw [hb] at this; cases this
        · intro _
          rw [hdef, if_pos h77, if_pos hb]
      · simp only [Bool.not_eq_true] at hb
        obtain ⟨b1, h1, hl1, hb1⟩ := setBitAt_spec buf i true (by omega)
        have hstep : mcsSetListing (i :: l) buf = mcsSetListing l b1 := by
          rw [hdef, if_pos h77, hb]
          simp only [Bool.false_eq_true, if_false, shiftRight_three, and_seven, h1, Res.ok_bind]
        have hiff : ((∀ j ∈ i :: l, j < 77 ∧ bitAt buf j = false) ∧ (i :: l).Nodup) ↔
            ((∀ j ∈ l, j < 77 ∧ bitAt b1 j = false) ∧ l.Nodup) := by
          simp only [List.nodup_cons, List.mem_cons]
          constructor
          · rintro ⟨h, hn, hd⟩
            refine ⟨fun j hj => ⟨(h j (.inr hj)).1, ?_⟩, hd⟩
            rw [hb1, if_neg (by rintro rfl; exact hn hj)]
            exact (h j (.inr hj)).2
          · rintro ⟨h, hd⟩
            have hn : i ∉ l := by
              intro hi
              have := (h i hi).2
              rw [hb1, if_pos rfl] at this; cases this
            refine ⟨?_, hn, hd⟩
            rintro j (rfl | hj)
            · exact ⟨h77, hb⟩
            · refine ⟨(h j hj).1, ?_⟩
              have := (h j hj).2
              rwa [hb1, if_neg (by rintro rfl; exact hn hj)] at this
        rw [hstep, hiff]
        obtain ⟨ih1, ih2⟩ := ih b1 (by omega)
        refine ⟨fun h => ?_, ih2⟩
        obtain ⟨b, hbo, hbl, hbb⟩ := ih1 h
        refine ⟨b, hbo, hbl, fun j => ?_⟩
        rw [hbb, hb1]
        by_cases hj : j = i
        · subst hj; simp
        · simp [hj]
    · constructor
      · rintro ⟨h, _⟩
        exact absurd (h i (by simp)).1 h77
      · intro _
        rw [hdef, if_neg h77]

/-- The listing macro: accepted exactly without duplicates and for indices 0..=76, and then sets exactly
the listed bits. -/
theorem c46_listing (l : List Nat) :
    ((∀ i ∈ l, i ≤ 76) ∧ l.Nodup → ∃ b, mcsSetListing l (List.replicate 10 0) = .ok b ∧
      b.length = 10 ∧ ∀ j, bitAt b j = decide (j ∈ l)) ∧
    (¬ ((∀ i ∈ l, i ≤ 76) ∧ l.Nodup) → mcsSetListing l (List.replicate 10 0) = .panic) := by
  have h := mcsSetListing_spec l (List.replicate 10 0) (by simp)
  simp only [bitAt_replicate, and_true, Bool.or_false] at h
  have e : (∀ i ∈ l, i < 77) ↔ (∀ i ∈ l, i ≤ 76) :=
    ⟨fun h i hi => by have := h i hi; omega, fun h i hi => by have := h i hi; omega⟩
  rwa [e] at h

theorem mcsSetRangeLoop_spec (k i : Nat) (buf : Bytes) (h : i + k ≤ 8 * buf.length) :
    ∃ b, mcsSetRangeLoop k i buf = .ok b ∧ b.length = buf.length ∧
      ∀ j, bitAt b j = (decide (i ≤ j ∧ j < i + k) || bitAt buf j) := by
  induction k generalizing i buf with
  | zero => exact ⟨buf, rfl, rfl, fun j => by simp; omega⟩
  | succ k ih =>
    obtain ⟨b1, h1, hl1, hb1⟩ := setBitAt_spec buf i true (by omega)
    obtain ⟨b2, h2, hl2, hb2⟩ := ih (i + 1) b1 (by omega)
    refine ⟨b2, ?_, by omega, fun j => ?_⟩
    · simp only [mcsSetRangeLoop, shiftRight_three, and_seven, h1, Res.ok_bind, h2]
    · rw [hb2, hb1]
      by_cases hj : j = i
      · subst hj; simp
      · have : (i + 1 ≤ j ∧ j < i + 1 + k) ↔ (i ≤ j ∧ j < i + (k + 1)) := by omega
        simp [hj, this]

/-- The range macro: accepted exactly when the (exclusive) end is at most 76, and then sets exactly the
bits of the range.  So index 76 cannot be given by a range. -/
theorem c46_range (start stop : Nat) :
    (stop ≤ 76 → ∃ b, mcsSetRange start stop = .ok b ∧ b.length = 10 ∧
      ∀ j, bitAt b j = decide (start ≤ j ∧ j < stop)) ∧
    (76 < stop → mcsSetRange start stop = .panic) := by
  unfold mcsSetRange
  constructor
  · intro h
    rw [if_pos (by omega)]
    by_cases hs : start ≤ stop
    · obtain ⟨b, h1, h2, h3⟩ := mcsSetRangeLoop_spec (stop - start) start (List.replicate 10 0)
        (by simp; omega)
      refine ⟨b, h1, by simpa using h2, fun j => ?_⟩
      rw [h3, bitAt_replicate, Bool.or_false]
      rw [show start + (stop - start) = stop by omega]
    · rw [show stop - start = 0 by omega]
      refine ⟨_, rfl, by simp, fun j => ?_⟩
      rw [bitAt_replicate]
      simp; omega
  · intro h
    rw [if_neg (by omega)]

/-- Concrete case: MCS 0, 1 and 76. -/
example : mcsSetListing [0, 1, 76] (List.replicate 10 0) = .ok [3, 0, 0, 0, 0, 0, 0, 0, 0, 0x10] ∧
    generateSupportedRxMcsSet (List.replicate 77 true) =
      .ok [255, 255, 255, 255, 255, 255, 255, 255, 255, 0x0f] := by decide

end Verif
