import Verif.Model.Elements.Tim
import Verif.Props.C04
import Verif.Lemmas.Elements
/-!
# Lemmas about the traffic indication map
-/
namespace Verif

open Spec

theorem bitAt_take (bytes : Bytes) (k j : Nat) :
    bitAt (bytes.take k) j = if j / 8 < k then bitAt bytes j else false := by
  unfold bitAt
  simp only [List.getD_eq_getElem?_getD, List.getElem?_take]
  split <;> simp

theorem bitAt_drop (bytes : Bytes) (k j : Nat) :
    bitAt (bytes.drop k) j = bitAt bytes (8 * k + j) := by
  unfold bitAt
  simp only [List.getD_eq_getElem?_getD, List.getElem?_drop]
  rw [show (8 * k + j) / 8 = k + j / 8 by omega, show (8 * k + j) % 8 = j % 8 by omega]

theorem newChecked_toNat (n : Nat) (h : n < 2 ^ 14) :
    ((AssociationID.newChecked (BitVec.ofNat 16 n)).toList.map fun a => a.aid.toNat) =
      if 1 ≤ n ∧ n ≤ 2007 then [n] else [] := by
  have hx : (BitVec.ofNat 16 n).toNat % 2 ^ 14 = n := by simp; omega
  split
  · rename_i hr
    cases hc : AssociationID.newChecked (BitVec.ofNat 16 n) with
    | none => have := (c04_refused _).1 hc; omega
    | some a =>
      have := c04_aid _ a hc
      rw [hx] at this
      simp [this]
  · rename_i hr
    rw [(c04_refused _).2 (by omega)]; rfl

theorem collectAids_spec (bytes : Bytes) (n1 : Nat) (is : List Nat)
    (hi : ∀ i ∈ is, i < 8 * bytes.length) (hn : 8 * bytes.length + n1 * 8 ≤ 2 ^ 14) :
    ∃ l, collectAids bytes n1 is = .ok l ∧ l.map (fun a => a.aid.toNat) =
      (is.filter fun i => bitAt bytes i && decide (1 ≤ n1 * 8 + i ∧ n1 * 8 + i ≤ 2007)).map
        (n1 * 8 + ·) := by
  induction is with
  | nil => exact ⟨[], rfl, rfl⟩
  | cons i is ih =>
    obtain ⟨l, hl, hm⟩ := ih fun j hj => hi j (by simp [hj])
    have h1 := hi i (by simp)
    have hk : i / 8 < bytes.length := by omega
    have hg : bytes[i / 8]? = some bytes[i / 8] := List.getElem?_eq_getElem hk
    have hb : bitAt bytes i = bytes[i / 8].getLsbD (i % 8) := by
      simp [bitAt, List.getD_eq_getElem?_getD, hg]
    have hlt : i % 65536 = i := Nat.mod_eq_of_lt (by omega)
    simp only [collectAids, hg, ← hb, hlt]
    by_cases hbit : bitAt bytes i = true
    · rw [if_pos hbit, if_pos (by omega)]
      simp only [hl, Res.ok_bind, Res.pure_eq]
      refine ⟨_, rfl, ?_⟩
      rw [List.map_append, hm, newChecked_toNat _ (by omega), List.filter_cons]
      by_cases hr : 1 ≤ n1 * 8 + i ∧ n1 * 8 + i ≤ 2007
      · simp [hbit, hr]
      · simp [hbit, hr]
    · rw [if_neg hbit]
      refine ⟨l, hl, ?_⟩
      rw [hm, List.filter_cons]
      simp [hbit]

/-- What `aid_iter` yields. -/
theorem aidIter_spec (b : TIMBitmap) (bits : TIMBits) (bytes : Bytes)
    (hb : b.partial_virtual_bitmap = some bits) (ha : bits.asBytes = .ok bytes)
    (hn : bytes.length + b.bitmap_control.n1 ≤ 2048) :
    ∃ l, b.aidIter = .ok (some l) ∧
      (l.map fun a => a.aid.toNat).Pairwise (· < ·) ∧
      ∀ a, a ∈ l.map (fun a => a.aid.toNat) ↔ 1 ≤ a ∧ a ≤ 2007 ∧ 8 * b.bitmap_control.n1 < a ∧
        bitAt bytes (a - 8 * b.bitmap_control.n1) = true := by
  obtain ⟨l, hl, hm⟩ := collectAids_spec bytes b.bitmap_control.n1
    (List.range' 1 (bytes.length * 8 - 1))
    (by intro i hi; rw [List.mem_range'_1] at hi; omega) (by omega)
  refine ⟨l, by simp only [TIMBitmap.aidIter, hb, ha, Res.ok_bind, hl, Res.pure_eq], ?_, ?_⟩
  · rw [hm, List.pairwise_map]
    refine List.Pairwise.imp ?_ (List.Pairwise.filter _ (List.pairwise_lt_range'))
    intro x y h; omega
  · intro a
    rw [hm, List.mem_map]
    simp only [List.mem_filter, List.mem_range'_1, Bool.and_eq_true, decide_eq_true_eq]
    constructor
    · rintro ⟨i, ⟨hi, hbit, h1, h2⟩, rfl⟩
      refine ⟨h1, h2, by omega, ?_⟩
      rwa [show b.bitmap_control.n1 * 8 + i - 8 * b.bitmap_control.n1 = i by omega]
    · rintro ⟨h1, h2, h3, h4⟩
      have : a - 8 * b.bitmap_control.n1 < 8 * bytes.length := by
        apply Classical.byContradiction
        intro hc
        rw [bitAt_ge (by omega)] at h4; cases h4
      exact ⟨a - 8 * b.bitmap_control.n1, ⟨by omega, h4, by omega⟩, by omega⟩

/-- Final bitmap, N1 and N2 of the loops of `new_static` and `tim_bitmap!` over numbers. -/
structure TimLoop (l : List Nat) (pvb : Bytes) (n1 n2 : Nat) (r : Bytes × Nat × Nat) : Prop where
  len : r.1.length = pvb.length
  bits : ∀ j, bitAt r.1 j = (decide (j ∈ l) || bitAt pvb j)
  n1_le : r.2.1 ≤ n1 ∧ ∀ a ∈ l, a ≠ 0 → r.2.1 ≤ a / 8
  n1_mem : r.2.1 = n1 ∨ ∃ a ∈ l, a ≠ 0 ∧ r.2.1 = a / 8
  n2_ge : n2 ≤ r.2.2 ∧ ∀ a ∈ l, a / 8 ≤ r.2.2
  n2_mem : r.2.2 = n2 ∨ ∃ a ∈ l, r.2.2 = a / 8

theorem TimLoop.step {a : Nat} {l : List Nat} {pvb pvb1 : Bytes} {n1 n2 : Nat}
    {r : Bytes × Nat × Nat} (hl : pvb1.length = pvb.length)
    (hb : ∀ j, bitAt pvb1 j = if j = a then true else bitAt pvb j)
    (h : TimLoop l pvb1 (if a / 8 < n1 ∧ a ≠ 0 then a / 8 else n1)
      (if n2 < a / 8 then a / 8 else n2) r) : TimLoop (a :: l) pvb n1 n2 r where
  len := h.len.trans hl
  bits j := by
    rw [h.bits, hb]
    by_cases hj : j = a
    · simp [hj]
    · simp [hj]
  n1_le := by
    obtain ⟨h1, h2⟩ := h.n1_le
    refine ⟨by split at h1 <;> omega, ?_⟩
    intro x hx h0
    rcases List.mem_cons.1 hx with rfl | hx
    · split at h1 <;> omega
    · exact h2 x hx h0
  n1_mem := by
    rcases h.n1_mem with h1 | ⟨x, hx, h0, h1⟩
    · split at h1
      · rename_i hc; exact .inr ⟨a, by simp, hc.2, h1⟩
      · exact .inl h1
    · exact .inr ⟨x, by simp [hx], h0, h1⟩
  n2_ge := by
    obtain ⟨h1, h2⟩ := h.n2_ge
    refine ⟨by split at h1 <;> omega, ?_⟩
    intro x hx
    rcases List.mem_cons.1 hx with rfl | hx
    · split at h1 <;> omega
    · exact h2 x hx
  n2_mem := by
    rcases h.n2_mem with h1 | ⟨x, hx, h1⟩
    · split at h1
      · exact .inr ⟨a, by simp, h1⟩
      · exact .inl h1
    · exact .inr ⟨x, by simp [hx], h1⟩

theorem TimLoop.nil (pvb : Bytes) (n1 n2 : Nat) : TimLoop [] pvb n1 n2 (pvb, n1, n2) where
  len := rfl
  bits j := by simp
  n1_le := ⟨Nat.le_refl _, by simp⟩
  n1_mem := .inl rfl
  n2_ge := ⟨Nat.le_refl _, by simp⟩
  n2_mem := .inl rfl

theorem newStaticLoop_spec (l : List AssociationID) (pvb : Bytes) (n1 n2 : Nat)
    (hv : ∀ a ∈ l, a.aid.toNat < 8 * pvb.length) :
    ∃ r, newStaticLoop l pvb n1 n2 = .ok r ∧
      TimLoop (l.map fun a => a.aid.toNat) pvb n1 n2 r := by
  induction l generalizing pvb n1 n2 with
  | nil => exact ⟨_, rfl, TimLoop.nil ..⟩
  | cons a l ih =>
    obtain ⟨p1, h1, hl1, hb1⟩ := setBitAt_spec pvb a.aid.toNat true (hv a (by simp))
    obtain ⟨r, hr, ht⟩ := ih p1 _ _ (fun x hx => by rw [hl1]; exact hv x (by simp [hx]))
    refine ⟨r, ?_, TimLoop.step hl1 hb1 ht⟩
    simp only [newStaticLoop, h1, Res.ok_bind]
    exact hr

theorem timListingLoop_spec (l : List Nat) (pvb : Bytes) (n1 n2 : Nat) (hp : pvb.length = 251) :
    ((∀ a ∈ l, a ≤ 2007) → ∃ r, timListingLoop l pvb n1 n2 = .ok r ∧ TimLoop l pvb n1 n2 r) ∧
    (¬ (∀ a ∈ l, a ≤ 2007) → timListingLoop l pvb n1 n2 = .panic) := by
  induction l generalizing pvb n1 n2 with
  | nil => exact ⟨fun _ => ⟨_, rfl, TimLoop.nil ..⟩, fun h => absurd (by simp) h⟩
  | cons a l ih =>
    by_cases ha : a ≤ 2007
    · obtain ⟨p1, h1, hl1, hb1⟩ := setBitAt_spec pvb a true (by omega)
      simp only [timListingLoop, if_pos ha, h1, Res.ok_bind]
      obtain ⟨ih1, ih2⟩ := ih p1 (if a / 8 < n1 ∧ a ≠ 0 then a / 8 else n1)
        (if n2 < a / 8 then a / 8 else n2) (by omega)
      constructor
      · intro h
        obtain ⟨r, hr, ht⟩ := ih1 fun x hx => h x (by simp [hx])
        exact ⟨r, hr, TimLoop.step hl1 hb1 ht⟩
      · intro h
        apply ih2
        intro hc
        apply h
        intro x hx
        rcases List.mem_cons.1 hx with rfl | hx
        · exact ha
        · exact hc x hx
    · refine ⟨fun h => absurd (h a (by simp)) ha, fun _ => ?_⟩
      simp only [timListingLoop, if_neg ha]

theorem timRangeLoop_spec (k i : Nat) (pvb : Bytes) (h : i + k ≤ 8 * pvb.length) :
    ∃ b, timRangeLoop k i pvb = .ok b ∧ b.length = pvb.length ∧
      ∀ j, bitAt b j = (decide (i ≤ j ∧ j < i + k) || bitAt pvb j) := by
  induction k generalizing i pvb with
  | zero => exact ⟨pvb, rfl, rfl, fun j => by simp; omega⟩
  | succ k ih =>
    obtain ⟨b1, h1, hl1, hb1⟩ := setBitAt_spec pvb i true (by omega)
    obtain ⟨b2, h2, hl2, hb2⟩ := ih (i + 1) b1 (by omega)
    refine ⟨b2, ?_, by omega, fun j => ?_⟩
    · simp only [timRangeLoop, h1, Res.ok_bind, h2]
    · rw [hb2, hb1]
      by_cases hj : j = i
      · subst hj; simp
      · have : (i + 1 ≤ j ∧ j < i + 1 + k) ↔ (i ≤ j ∧ j < i + (k + 1)) := by omega
        simp [hj, this]

theorem n1_withN1 (c : TIMBitmapControl) (n : Nat) (h : n ≤ 255) :
    (c.withN1 (BitVec.ofNat 8 n)).n1 = 2 * (n / 2) ∧
      (c.withN1 (BitVec.ofNat 8 n)).traffic_indicator = c.traffic_indicator := by
  constructor
  · simp only [TIMBitmapControl.n1, TIMBitmapControl.withN1, TIMBitmapControl.bitmap_offset,
      TIMBitmapControl.with_bitmap_offset]
    rw [getField_setField_same _ _ _ _ (by decide)]
    simp
    omega
  · simp only [TIMBitmapControl.withN1, TIMBitmapControl.traffic_indicator,
      TIMBitmapControl.with_bitmap_offset, getBit]
    rw [getLsbD_setField _ _ _ _ _ (by decide)]
    simp

theorem traffic_with (c : TIMBitmapControl) (v : Bool) :
    (c.with_traffic_indicator v).traffic_indicator = v := by
  simp only [TIMBitmapControl.with_traffic_indicator, TIMBitmapControl.traffic_indicator]
  exact getBit_setBit_same _ _ _ (by decide)

theorem and_254 (n : Nat) (h : n ≤ 255) : n &&& 0xfe = 2 * (n / 2) := by
  have : ∀ n : Fin 256, n.val &&& 0xfe = 2 * (n.val / 2) := by decide +kernel
  exact this ⟨n, by omega⟩

variable [ScrollRule]

/-- A TLV whose measured size need not be its size. -/
theorem writeTLV_emits_any (t : Byte) (o : Obj) (p : Bytes) (n : Nat) (hw : Emits o.write p n)
    (hl : o.measure ≤ 255) :
    Emits (writeTLV t o) (t :: BitVec.ofNat 8 o.measure :: p) (2 + max n slack) := by
  apply WEmits.run
  refine (WEmits.u8 (WEmits.lift_bind (a := BitVec.ofNat 8 o.measure) ?_
    (WEmits.u8 (WEmits.gwrite hw)))).cast rfl (by omega)
  rw [if_pos hl]

end Verif
