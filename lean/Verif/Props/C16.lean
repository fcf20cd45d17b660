import Verif.Lemmas.Tim
/-!
# C16: the set of associations announced by a TIM is the set read back

The standard: with offset N1, bit `i` of the partial virtual bitmap is traffic for AID `8 * N1 + i`.
The code departs from it in several ways; each construction has a theorem saying exactly which
AIDs are read back, and a violation.
-/
namespace Verif

namespace Spec

/-- The AIDs announced by a bitmap control and a partial virtual bitmap, by the standard. -/
def Announced (n1 : Nat) (bytes : Bytes) (a : Nat) : Prop :=
  1 ≤ a ∧ a ≤ 2007 ∧ 8 * n1 ≤ a ∧ bitAt bytes (a - 8 * n1) = true

/-- The iterator of `b` yields just the numbers satisfying `P`, in ascending order. -/
def ReadsBack (b : TIMBitmap) (P : Nat → Prop) : Prop :=
  ∃ l, b.aidIter = .ok (some l) ∧ (l.map fun a => a.aid.toNat).Pairwise (· < ·) ∧
    ∀ a, a ∈ l.map (fun a => a.aid.toNat) ↔ P a

/-- The smallest number of a list. -/
def Lowest (lo : Nat) (l : List Nat) : Prop := lo ∈ l ∧ ∀ a ∈ l, lo ≤ a

end Spec

open Spec

/-- Reading back determines the set. -/
theorem readsBack_unique {b : TIMBitmap} {P Q : Nat → Prop} (h : ReadsBack b P)
    (h' : ReadsBack b Q) (a : Nat) : P a ↔ Q a := by
  obtain ⟨l, hl, _, h1⟩ := h
  obtain ⟨l', hl', _, h1'⟩ := h'
  rw [hl] at hl'
  cases hl'
  rw [← h1, h1']

/-- Iterating over a bitmap (of a size that an element can have): exactly the announced AIDs in
ascending order, except that the AID of the very first bit is left out. -/
theorem c16_aid_iter_partial (b : TIMBitmap) (bits : TIMBits) (bytes : Bytes)
    (hb : b.partial_virtual_bitmap = some bits) (ha : bits.asBytes = .ok bytes)
    (hl : bytes.length ≤ 255) :
    ReadsBack b fun a => Announced b.bitmap_control.n1 bytes a ∧ a ≠ 8 * b.bitmap_control.n1 := by
  have hn : b.bitmap_control.n1 ≤ 254 := by
    have := b.bitmap_control.bitmap_offset.isLt
    simp only [TIMBitmapControl.n1]; omega
  obtain ⟨l, h1, h2, h3⟩ := aidIter_spec b bits bytes hb ha (by omega)
  refine ⟨l, h1, h2, fun a => (h3 a).trans ?_⟩
  unfold Announced
  constructor
  · rintro ⟨a1, a2, a3, a4⟩; exact ⟨⟨a1, a2, by omega, a4⟩, by omega⟩
  · rintro ⟨⟨a1, a2, a3, a4⟩, a5⟩; exact ⟨a1, a2, by omega, a4⟩

/-- Violation: a received bitmap with N1 = 2 and first byte 1 announces AID 16, which is not read
back. -/
theorem c16_first_bit_missed :
    ∃ b : TIMBitmap, b = ⟨⟨0x02⟩, some (.slice [0x01])⟩ ∧ Announced b.bitmap_control.n1 [0x01] 16 ∧
      b.aidIter = .ok (some []) := by
  refine ⟨_, rfl, ?_, by decide⟩
  unfold Announced
  decide

/-- `new_static` never fails on valid AIDs. -/
theorem newStatic_spec (m : Bool) (aids : List AssociationID) (hlen : aids.length ≤ 2007)
    (hv : ∀ a ∈ aids, 1 ≤ a.aid.toNat ∧ a.aid.toNat ≤ 2007) :
    ∃ b pvb n1 n2, TIMBitmap.newStatic m aids = .ok b ∧ b.trafficIndicator = m ∧
      b.bitmap_control.n1 = 2 * (n1 / 2) ∧
      b.partial_virtual_bitmap = some (.static pvb n2) ∧ pvb.length = 251 ∧ n2 ≤ 250 ∧ n1 ≤ 251 ∧
      (∀ lo, Lowest lo (aids.map fun a => a.aid.toNat) → n1 = lo / 8) ∧
      (aids = [] → n1 = 251) ∧
      (∀ a ∈ aids, a.aid.toNat / 8 ≤ n2) ∧ (n2 = 0 ∨ ∃ a ∈ aids, a.aid.toNat / 8 = n2) ∧
      ∀ j, bitAt pvb j =
        decide (j ∈ (aids.map fun a => a.aid.toNat) ∨ (m = true ∧ n1 = 0 ∧ j = 1)) := by
  have htake : aids.take 2007 = aids := List.take_of_length_le hlen
  obtain ⟨⟨pvb, n1, n2⟩, hr, ht⟩ := newStaticLoop_spec aids (List.replicate 251 0) 251 0
    (fun a ha => by have := hv a ha; rw [List.length_replicate]; omega)
  have hlo : ∀ lo, Lowest lo (aids.map fun a => a.aid.toNat) → n1 = lo / 8 := by
    rintro lo ⟨hm, hmin⟩
    have hpos : ∀ x ∈ aids.map (fun a => a.aid.toNat), 1 ≤ x ∧ x ≤ 2007 := by
      intro x hx
      obtain ⟨a, ha, rfl⟩ := List.mem_map.1 hx
      exact hv a ha
    have hlo1 := ht.n1_le.2 lo hm (by have := hpos lo hm; omega)
    rcases ht.n1_mem with h | ⟨x, hx, _, h⟩
    · have := hpos lo hm
      simp only at h hlo1; omega
    · have := hmin x hx
      simp only at h hlo1; omega
  have hn1 : n1 ≤ 251 := ht.n1_le.1
  have hn2 : n2 ≤ 250 := by
    rcases ht.n2_mem with h | ⟨x, hx, h⟩
    · simp only at h; omega
    · obtain ⟨a, ha, rfl⟩ := List.mem_map.1 hx
      have := hv a ha
      simp only at h; omega
  have hpl : pvb.length = 251 := ht.len.trans List.length_replicate
  have hnil : aids = [] → n1 = 251 := by
    rintro rfl
    rcases ht.n1_mem with h | ⟨x, hx, _⟩
    · exact h
    · simp at hx
  have hn2m : n2 = 0 ∨ ∃ a ∈ aids, a.aid.toNat / 8 = n2 := by
    rcases ht.n2_mem with h | ⟨x, hx, h⟩
    · exact .inl h
    · obtain ⟨a, ha, rfl⟩ := List.mem_map.1 hx
      exact .inr ⟨a, ha, h.symm⟩
  have hctl := n1_withN1 ((⟨0⟩ : TIMBitmapControl).with_traffic_indicator m) n1 (by omega)
  have hbits : ∀ j, bitAt pvb j = decide (j ∈ (aids.map fun a => a.aid.toNat)) := by
    intro j
    have := ht.bits j
    rw [bitAt_replicate, Bool.or_false] at this
    exact this
  have hge : ∀ a ∈ aids, a.aid.toNat / 8 ≤ n2 := fun a ha =>
    ht.n2_ge.2 _ (List.mem_map_of_mem ha)
  by_cases hc : n1 = 0 ∧ m = true
  · obtain ⟨p1, h1, hl1, hb1⟩ := setBitAt_spec pvb 1 true (by omega)
    refine ⟨⟨((⟨0⟩ : TIMBitmapControl).with_traffic_indicator m).withN1 (BitVec.ofNat 8 n1),
      some (.static p1 n2)⟩, p1, n1, n2, ?_, hctl.2.trans (traffic_with _ _), hctl.1, rfl,
      by omega, hn2, hn1, hlo, hnil, hge, hn2m, ?_⟩
    · simp only [TIMBitmap.newStatic, htake, hr, Res.ok_bind, if_pos hc, Res.pure_eq]
      rw [show setBitAt pvb 0 1 true = .ok p1 from h1]
      rfl
    · intro j
      rw [hb1, hbits]
      by_cases hj : j = 1
      · simp [hj, hc.1, hc.2]
      · simp [hj]
  · refine ⟨⟨((⟨0⟩ : TIMBitmapControl).with_traffic_indicator m).withN1 (BitVec.ofNat 8 n1),
      some (.static pvb n2)⟩, pvb, n1, n2, ?_, hctl.2.trans (traffic_with _ _), hctl.1, rfl,
      hpl, hn2, hn1, hlo, hnil, hge, hn2m, ?_⟩
    · simp only [TIMBitmap.newStatic, htake, hr, Res.ok_bind, if_neg hc, Res.pure_eq]
    · intro j
      rw [hbits]
      congr 1
      simp only [eq_iff_iff]
      constructor
      · intro h; exact .inl h
      · rintro (h | ⟨h1, h2, _⟩)
        · exact h
        · exact absurd ⟨h2, h1⟩ hc

/-- Exactly what a bitmap built from a non-empty list of AIDs with smallest one `lo` reads back: the
AIDs shifted up by 16 * (lo / 16), and with multicast traffic also AID 1 if `lo` is below 8.  The
traffic indicator is right. -/
theorem c16_static_exact (m : Bool) (aids : List AssociationID) (hlen : aids.length ≤ 2007)
    (hv : ∀ a ∈ aids, 1 ≤ a.aid.toNat ∧ a.aid.toNat ≤ 2007) (lo : Nat)
    (hlo : Lowest lo (aids.map fun a => a.aid.toNat)) :
    ∃ b, TIMBitmap.newStatic m aids = .ok b ∧ b.trafficIndicator = m ∧
      ReadsBack b fun a => a ≤ 2007 ∧ ∃ x,
        (x ∈ aids.map (fun a => a.aid.toNat) ∨ (m = true ∧ lo < 8 ∧ x = 1)) ∧
        a = 16 * (lo / 16) + x := by
  obtain ⟨b, pvb, n1, n2, h1, h2, h3, h4, h5, h6, h6', h7, _, h9, _, h10⟩ :=
    newStatic_spec m aids hlen hv
  refine ⟨b, h1, h2, ?_⟩
  have hn1 := h7 lo hlo
  have hb : (TIMBits.static pvb n2).asBytes = .ok (pvb.take (n2 + 1)) := by
    simp only [TIMBits.asBytes]; rw [if_pos (by omega)]
  obtain ⟨l, hl, hp, hm⟩ := c16_aid_iter_partial b _ _ h4 hb (by simp; omega)
  refine ⟨l, hl, hp, fun a => (hm a).trans ?_⟩
  unfold Announced
  dsimp only
  rw [h3, hn1, bitAt_take, h10]
  have e : 8 * (2 * (lo / 8 / 2)) = 16 * (lo / 16) := by omega
  rw [e]
  constructor
  · rintro ⟨⟨a1, a2, a3, a4⟩, a5⟩
    refine ⟨a2, a - 16 * (lo / 16), ?_, by omega⟩
    split at a4
    · rcases of_decide_eq_true a4 with h | ⟨hm, h0, hj⟩
      · exact .inl h
      · exact .inr ⟨hm, by omega, hj⟩
    · cases a4
  · rintro ⟨a2, x, hx, rfl⟩
    have hx1 : 1 ≤ x ∧ x / 8 ≤ n2 := by
      rcases hx with hx | ⟨_, _, rfl⟩
      · obtain ⟨y, hy, rfl⟩ := List.mem_map.1 hx
        exact ⟨(hv y hy).1, h9 y hy⟩
      · omega
    refine ⟨⟨by omega, a2, by omega, ?_⟩, by omega⟩
    rw [show 16 * (lo / 16) + x - 16 * (lo / 16) = x by omega, if_pos (by omega)]
    apply decide_eq_true
    rcases hx with hx | ⟨hm, h8, rfl⟩
    · exact .inl hx
    · exact .inr ⟨hm, by omega, rfl⟩

/-- Without AIDs nothing is read back. -/
theorem c16_static_empty (m : Bool) :
    ∃ b, TIMBitmap.newStatic m [] = .ok b ∧ b.trafficIndicator = m ∧
      ReadsBack b fun _ => False := by
  obtain ⟨b, pvb, n1, n2, h1, h2, h3, h4, h5, h6, h6', _, h8, _, _, h10⟩ :=
    newStatic_spec m [] (by simp) (by simp)
  have h8 := h8 rfl
  refine ⟨b, h1, h2, ?_⟩
  have hb : (TIMBits.static pvb n2).asBytes = .ok (pvb.take (n2 + 1)) := by
    simp only [TIMBits.asBytes]; rw [if_pos (by omega)]
  obtain ⟨l, hl, hp, hm⟩ := c16_aid_iter_partial b _ _ h4 hb (by simp; omega)
  refine ⟨l, hl, hp, fun a => (hm a).trans ?_⟩
  unfold Announced
  dsimp only
  rw [bitAt_take, h10]
  simp [h8]

/-- So `new_static` is right exactly when the smallest AID is below 16 and, with multicast traffic, is not
below 8 or AID 1 is in the list. -/
theorem c16_static_partial (m : Bool) (aids : List AssociationID) (hlen : aids.length ≤ 2007)
    (hv : ∀ a ∈ aids, 1 ≤ a.aid.toNat ∧ a.aid.toNat ≤ 2007) (lo : Nat)
    (hlo : Lowest lo (aids.map fun a => a.aid.toNat)) :
    ∃ b, TIMBitmap.newStatic m aids = .ok b ∧
      ((ReadsBack b fun a => a ∈ aids.map fun a => a.aid.toNat) ↔
        lo < 16 ∧ (m = true → 8 ≤ lo ∨ 1 ∈ aids.map fun a => a.aid.toNat)) := by
  obtain ⟨b, h1, _, h3⟩ := c16_static_exact m aids hlen hv lo hlo
  refine ⟨b, h1, ?_⟩
  constructor
  · intro h
    have hu := readsBack_unique h h3
    have h16 : lo < 16 := by
      obtain ⟨_, x, hx, he⟩ := (hu lo).1 hlo.1
      rcases hx with hx | ⟨_, h8, _⟩
      · have := hlo.2 x hx
        omega
      · omega
    refine ⟨h16, fun hm => ?_⟩
    by_cases h8 : 8 ≤ lo
    · exact .inl h8
    · refine .inr ((hu 1).2 ⟨by omega, 1, .inr ⟨hm, by omega, rfl⟩, by omega⟩)
  · rintro ⟨h16, hm⟩
    obtain ⟨l, hl, hp, hmem⟩ := h3
    refine ⟨l, hl, hp, fun a => (hmem a).trans ?_⟩
    rw [show 16 * (lo / 16) = 0 by omega]
    constructor
    · rintro ⟨_, x, hx, rfl⟩
      rw [Nat.zero_add]
      rcases hx with hx | ⟨h1, h2, rfl⟩
      · exact hx
      · rcases hm h1 with h | h
        · omega
        · exact h
    · intro ha
      have : a ≤ 2007 := by
        obtain ⟨y, hy, rfl⟩ := List.mem_map.1 ha
        exact (hv y hy).2
      exact ⟨this, a, .inl ha, by omega⟩

/-- AIDs after the first 2007 of the list are ignored. -/
theorem c16_static_truncates (m : Bool) (aids : List AssociationID) :
    TIMBitmap.newStatic m aids = TIMBitmap.newStatic m (aids.take 2007) := by
  simp only [TIMBitmap.newStatic, List.take_take, Nat.min_self]

/-- Violation: a map announcing traffic for AID 42 only is read as AID 74. -/
theorem c16_static_wrong (a : AssociationID) (h : a.aid.toNat = 42) :
    ∃ b, TIMBitmap.newStatic false [a] = .ok b ∧ ReadsBack b (· = 74) := by
  obtain ⟨b, h1, _, l, hl, hp, hm⟩ := c16_static_exact false [a] (by simp) (by simp [h]) 42
    ⟨by simp [h], by simp [h]⟩
  refine ⟨b, h1, l, hl, hp, fun x => (hm x).trans ?_⟩
  simp only [List.map_cons, List.map_nil, List.mem_singleton, h]
  constructor
  · rintro ⟨_, y, (rfl | ⟨h, _⟩), rfl⟩
    · decide
    · cases h
  · rintro rfl
    exact ⟨by omega, 42, .inl rfl, by decide⟩

/-- The listing macro compiles exactly for AIDs up to 2007.  It then reads back all of them except
0 (announced by the traffic indicator) and except 16 * (lo / 16), `lo` being the smallest non-zero
one. -/
theorem c16_listing_exact (aids : List Nat) (lo : Nat) (hlo : Lowest lo (aids.filter (· ≠ 0))) :
    ((∀ a ∈ aids, a ≤ 2007) → ∃ b, timListing aids = .ok b ∧
      (b.trafficIndicator = true ↔ 0 ∈ aids) ∧
      ReadsBack b fun a => a ∈ aids ∧ a ≠ 0 ∧ a ≠ 16 * (lo / 16)) ∧
    (¬ (∀ a ∈ aids, a ≤ 2007) → timListing aids = .panic) := by
  obtain ⟨s1, s2⟩ := timListingLoop_spec aids (List.replicate 251 0) 251 0
    List.length_replicate
  constructor
  · intro hv
    obtain ⟨⟨pvb, n1, n2⟩, hr, ht⟩ := s1 hv
    obtain ⟨hm, hmin⟩ := hlo
    simp only [List.mem_filter, decide_eq_true_eq, ne_eq] at hm hmin
    have hn1 : n1 = lo / 8 := by
      have hlo1 := ht.n1_le.2 lo hm.1 hm.2
      have h2007 := hv lo hm.1
      rcases ht.n1_mem with h | ⟨x, hx, h0, h⟩
      · simp only at h hlo1; omega
      · have := hmin x ⟨hx, by simpa using h0⟩
        simp only at h hlo1; omega
    have hpl : pvb.length = 251 := ht.len.trans List.length_replicate
    have hn2 : n2 ≤ 250 := by
      rcases ht.n2_mem with h | ⟨x, hx, h⟩
      · simp only at h; omega
      · have := hv x hx; simp only at h; omega
    have hge : ∀ a ∈ aids, a / 8 ≤ n2 := ht.n2_ge.2
    have h2007 := hv lo hm.1
    have hlon2 := hge lo hm.1
    have hand : n1 &&& 0xfe = 2 * (lo / 16) := by rw [and_254 _ (by omega)]; omega
    have hctl := n1_withN1 ((⟨0⟩ : TIMBitmapControl).with_traffic_indicator (aids.contains 0))
      (n1 &&& 0xfe) (by omega)
    let b : TIMBitmap := ⟨((⟨0⟩ : TIMBitmapControl).with_traffic_indicator (aids.contains 0)).withN1
      (BitVec.ofNat 8 (n1 &&& 0xfe)), some (.const pvb (n1 &&& 0xfe) n2)⟩
    have hbn : b.bitmap_control.n1 = 2 * (lo / 16) := by
      rw [show b.bitmap_control.n1 = _ from hctl.1, hand]; omega
    refine ⟨b, ?_, ?_, ?_⟩
    · simp only [timListing, hr, Res.ok_bind, Res.pure_eq]; rfl
    · show b.bitmap_control.traffic_indicator = true ↔ _
      rw [hctl.2, traffic_with]; simp
    · have hb : (TIMBits.const pvb (n1 &&& 0xfe) n2).asBytes =
          .ok ((pvb.take (n2 + 1)).drop (n1 &&& 0xfe)) := by
        simp only [TIMBits.asBytes]; rw [if_pos (by omega)]
      obtain ⟨l, hl, hp, hmem⟩ := c16_aid_iter_partial b _ _ rfl hb (by simp; omega)
      refine ⟨l, hl, hp, fun a => (hmem a).trans ?_⟩
      unfold Announced
      dsimp only
      rw [hbn, hand, bitAt_drop, bitAt_take, ht.bits, bitAt_replicate, Bool.or_false]
      constructor
      · rintro ⟨⟨a1, a2, a3, a4⟩, a5⟩
        rw [show 8 * (2 * (lo / 16)) + (a - 8 * (2 * (lo / 16))) = a by omega] at a4
        split at a4
        · exact ⟨of_decide_eq_true a4, by omega, by omega⟩
        · cases a4
      · rintro ⟨a1, a2, a3⟩
        have h1 := hv a a1
        have h2 := hmin a ⟨a1, by simpa using a2⟩
        refine ⟨⟨by omega, h1, by omega, ?_⟩, by omega⟩
        rw [show 8 * (2 * (lo / 16)) + (a - 8 * (2 * (lo / 16))) = a by omega,
          if_pos (by have := hge a a1; omega)]
        exact decide_eq_true a1
  · intro h
    simp only [timListing, s2 h, Res.panic_bind]

/-- Violation: AID 16, listed, is not read back (nor any other lowest AID that is a multiple of 16). -/
theorem c16_listing_misses :
    ∃ b, timListing [16, 20] = .ok b ∧ ReadsBack b (· = 20) := by
  obtain ⟨b, h1, _, l, hl, hp, hm⟩ := (c16_listing_exact [16, 20] 16
    ⟨by decide, by decide⟩).1 (by decide)
  refine ⟨b, h1, l, hl, hp, fun a => (hm a).trans ?_⟩
  simp only [List.mem_cons, List.not_mem_nil, or_false]
  omega

/-- Violation: a list with no AID but 0, other than the literal form `tim_bitmap!(0)`, makes a bitmap
whose use panics. -/
theorem c16_listing_zero_panics :
    ∃ b, timListing [0, 0] = .ok b ∧ b.aidIter = .panic := ⟨_, rfl, by decide⟩

/-- The range macro compiles exactly for an end up to 2007 and then reads back the range except 0 and
except 16 * (min / 16). -/
theorem c16_range_exact (lo hi : Nat) (h : lo ≤ hi) :
    (hi ≤ 2007 → ∃ b, timRange lo hi = .ok b ∧ (b.trafficIndicator = true ↔ lo = 0) ∧
      ReadsBack b fun a => lo ≤ a ∧ a ≤ hi ∧ a ≠ 0 ∧ a ≠ 16 * (lo / 16)) ∧
    (2007 < hi → timRange lo hi = .panic) := by
  constructor
  · intro hv
    obtain ⟨pvb, hr, hpl, hbits⟩ := timRangeLoop_spec (hi + 1 - lo) lo (List.replicate 251 0)
      (by rw [List.length_replicate]; omega)
    have hpl : pvb.length = 251 := hpl.trans List.length_replicate
    have hand : (lo / 8) &&& 0xfe = 2 * (lo / 16) := by rw [and_254 _ (by omega)]; omega
    have hctl := n1_withN1 ((⟨0⟩ : TIMBitmapControl).with_traffic_indicator (lo == 0))
      ((lo / 8) &&& 0xfe) (by omega)
    let b : TIMBitmap := ⟨((⟨0⟩ : TIMBitmapControl).with_traffic_indicator (lo == 0)).withN1
      (BitVec.ofNat 8 ((lo / 8) &&& 0xfe)), some (.const pvb ((lo / 8) &&& 0xfe) (hi / 8))⟩
    have hbn : b.bitmap_control.n1 = 2 * (lo / 16) := by
      rw [show b.bitmap_control.n1 = _ from hctl.1, hand]; omega
    refine ⟨b, ?_, ?_, ?_⟩
    · simp only [timRange, if_pos hv, hr, Res.ok_bind, Res.pure_eq]; rfl
    · show b.bitmap_control.traffic_indicator = true ↔ _
      rw [hctl.2, traffic_with]; simp
    · have hb : (TIMBits.const pvb ((lo / 8) &&& 0xfe) (hi / 8)).asBytes =
          .ok ((pvb.take (hi / 8 + 1)).drop ((lo / 8) &&& 0xfe)) := by
        simp only [TIMBits.asBytes]; rw [if_pos (by omega)]
      obtain ⟨l, hl, hp, hmem⟩ := c16_aid_iter_partial b _ _ rfl hb (by simp; omega)
      refine ⟨l, hl, hp, fun a => (hmem a).trans ?_⟩
      unfold Announced
      dsimp only
      rw [hbn, hand, bitAt_drop, bitAt_take, hbits, bitAt_replicate, Bool.or_false]
      constructor
      · rintro ⟨⟨a1, a2, a3, a4⟩, a5⟩
        rw [show 8 * (2 * (lo / 16)) + (a - 8 * (2 * (lo / 16))) = a by omega] at a4
        split at a4
        · have := of_decide_eq_true a4
          omega
        · cases a4
      · rintro ⟨a1, a2, a3, a4⟩
        refine ⟨⟨by omega, by omega, by omega, ?_⟩, by omega⟩
        rw [show 8 * (2 * (lo / 16)) + (a - 8 * (2 * (lo / 16))) = a by omega, if_pos (by omega)]
        exact decide_eq_true (by omega)
  · intro h
    simp only [timRange]; rw [if_neg (by omega)]

/-- `new_raw` accepts exactly bitmaps that end by byte 251 of the map. -/
theorem c16_new_raw (c : TIMBitmapControl) (bytes : Bytes) (b : TIMBitmap) :
    TIMBitmap.newRaw c (some (.slice bytes)) = .ok (some b) ↔
      bytes.length + c.n1 ≤ 251 ∧ b = ⟨c, some (.slice bytes)⟩ := by
  simp only [TIMBitmap.newRaw, TIMBits.asBytes, Res.ok_bind, Res.pure_eq]
  split
  · rename_i h; simp; omega
  · rename_i h
    simp only [Res.ok.injEq, Option.some.injEq]
    constructor
    · rintro rfl; exact ⟨by omega, rfl⟩
    · rintro ⟨_, rfl⟩; rfl

variable [ScrollRule]

/-- Reading a TIM: two bytes at least, count at most period; the map is the rest, if any. -/
theorem c16_parse (c p : Byte) (rest : Bytes) :
    (p < c → ∃ x, readTIM (c :: p :: rest) = .err x) ∧
    (¬ p < c → readTIM (c :: p :: rest) = .ok (⟨c, p, match rest with
      | [] => none
      | x :: r => some ⟨⟨x⟩, some (.slice r)⟩⟩, 2 + rest.length)) := by
  constructor
  · intro h
    apply RdErr.run
    refine RdErr.bind_right (bs := [c]) (a := c)
      (RdAt.gread (readU8_cons c _) (by have := slack_le; simp; omega)) ?_
    refine RdErr.bind_right (bs := [p]) (a := p)
      (RdAt.gread (readU8_cons p _) (by have := slack_le; simp; omega)) ?_
    exact RdErr.bind_left (RdErr.lift (by simp only [checkDtimParameters]; exact if_pos h))
  · intro h
    apply RdAt.run
    apply RdAt.cast
    · apply RdAt.u8
      apply RdAt.u8
      apply RdAt.bind0 (RdAt.lift (a := ()) (by simp only [checkDtimParameters]; exact if_neg h))
      show RdAt _ _ _ rest.length
      cases rest with
      | nil =>
        have hr : ∃ x, readTIMBitmap [] = .err x :=
          RdErr.run (RdErr.bind_left (RdErr.gread (e := .tooBig) rfl))
        obtain ⟨x, hr⟩ := hr
        exact RdAt.bind0 (RdAt.greadOk_none hr) RdAt.pure
      | cons x r =>
        have hr : readTIMBitmap (x :: r) = .ok (⟨⟨x⟩, some (.slice r)⟩, (x :: r).length) := by
          apply RdAt.run
          apply RdAt.cast
          · apply RdAt.u8
            apply RdAt.bind0 RdAt.remaining
            have := RdAt.bind (bs := r) (rest := []) (p := Rd.toEnd) (a := ())
              (f := fun _ => (pure ⟨⟨x⟩, some (.slice r)⟩ : Rd TIMBitmap))
              (by rw [List.append_nil]; exact RdAt.toEnd) RdAt.pure
            rw [List.append_nil] at this
            exact this
          · simp; omega
        have h2 := RdAt.greadOk_some hr (by have := slack_le; simp; omega)
        have := RdAt.bind (bs := x :: r) (rest := [])
          (f := fun bm => (pure ⟨c, p, bm⟩ : Rd TIMElement)) (by rw [List.append_nil]; exact h2)
          RdAt.pure
        rw [List.append_nil] at this
        exact this
    · omega

/-- Less than two bytes are an error. -/
theorem c16_parse_short (inp : Bytes) (h : inp.length < 2) : ∃ x, readTIM inp = .err x :=
  Rd.Needs.run (n := 2)
    (Rd.Needs.bind (k := 1) (n := 1) (Rd.Adv.gread (readLE_fixed 8).adv) fun _ =>
     Rd.Needs.left (Rd.Needs.gread (readLE_fixed 8))) inp h

/-- A count above the period is reported as bad input, both when reading and when writing, and before the size of the
buffer matters. -/
theorem c16_bad_dtim (c p : Byte) (h : p < c) :
    (∀ rest, readTIM (c :: p :: rest) = .err .badInput) ∧
    ∀ (b : Option TIMBitmap) (buf : Bytes), writeTIM ⟨c, p, b⟩ buf = .err .badInput := by
  have hc : checkDtimParameters p c = .err .badInput := if_pos h
  have hs := slack_le
  refine ⟨fun rest => ?_, fun b buf => ?_⟩
  · have h1 := RdAt.gread (inp := c :: p :: rest) (readU8_cons c _) (by simp; omega) []
    have h2 := RdAt.gread (inp := p :: rest) (readU8_cons p _) (by simp; omega) [c]
    simp only [List.nil_append, List.length_nil, Nat.zero_add, List.singleton_append, List.length_singleton] at h1 h2
    simp only [readTIM, Rd.run, Bind.bind, Rd.bind, h1, h2, Rd.lift, hc, Res.bind]
  · rw [writeTIM, hc]
    rfl

/-- What a TIM is written as. -/
def Spec.timBytes (e : TIMElement) (map : Bytes) : Bytes :=
  [e.dtim_count, e.dtim_period] ++ match e.bitmap with
    | none => []
    | some b => match b.partial_virtual_bitmap with
      | some _ => b.bitmap_control.bits :: map
      | none => if b.trafficIndicator then [b.bitmap_control.bits, 0] else []

theorem writeTIM_tail (e : TIMElement) {tail : Bytes} {n : Nat}
    (hck : checkDtimParameters e.dtim_period e.dtim_count = .ok ())
    (h : WEmits (match e.bitmap with
      | some b => if b.isEmpty then pure () else Wr.gwrite (writeTIMBitmap b)
      | none => pure ()) () tail n) :
    Emits (writeTIM e) (e.dtim_count :: e.dtim_period :: tail) (2 + n) := by
  apply WEmits.run
  apply WEmits.cast
  · apply WEmits.lift_bind hck
    apply WEmits.u8
    apply WEmits.u8
    exact h
  · rfl
  · omega

/-- Writing: refused if the count exceeds the period; otherwise the two parameters and the map, if it
announces anything.  With an empty map the strict reading of scroll's rule asks for one spare byte. -/
theorem c16_write (e : TIMElement) (map : Bytes)
    (hm : ∀ b bits, e.bitmap = some b → b.partial_virtual_bitmap = some bits →
      bits.asBytes = .ok map) :
    (e.dtim_period < e.dtim_count → Refuses (writeTIM e)) ∧
    (¬ e.dtim_period < e.dtim_count → ∃ n, n ≤ (timBytes e map).length + slack ∧
      (map ≠ [] → n = (timBytes e map).length) ∧ Emits (writeTIM e) (timBytes e map) n) := by
  have hs := slack_le
  constructor
  · intro h
    exact Refuses.lift (if_pos h)
  · intro h
    have hck : checkDtimParameters e.dtim_period e.dtim_count = .ok () := if_neg h
    obtain ⟨c, p, bm⟩ := e
    cases bm with
    | none =>
      refine ⟨2, by simp [timBytes], by simp [timBytes], ?_⟩
      exact (writeTIM_tail _ hck WEmits.pure).cast rfl rfl
    | some b =>
      obtain ⟨ctl, pvb⟩ := b
      cases pvb with
      | none =>
        by_cases ht : ctl.traffic_indicator = true
        · refine ⟨4, by simp [timBytes, TIMBitmap.trafficIndicator, ht],
            by simp [timBytes, TIMBitmap.trafficIndicator, ht], ?_⟩
          have hw : Emits (writeTIMBitmap ⟨ctl, none⟩) [ctl.bits, 0] 2 := by
            apply WEmits.run
            simp only [TIMBitmap.trafficIndicator, ht, if_true]
            apply WEmits.u8 (n := 1)
            exact (WEmits.gwrite_pos (Emits.writeU8 0) (by decide))
          refine (writeTIM_tail _ hck (tail := [ctl.bits, 0]) (n := 2) ?_).cast
            (by simp [timBytes, TIMBitmap.trafficIndicator, ht]) rfl
          simp only [TIMBitmap.isEmpty, TIMBitmap.trafficIndicator, ht, Bool.not_true,
            Bool.false_and, Bool.false_eq_true, if_false]
          exact WEmits.gwrite_pos hw (by decide)
        · simp only [Bool.not_eq_true] at ht
          refine ⟨2, by simp [timBytes, TIMBitmap.trafficIndicator, ht],
            by simp [timBytes, TIMBitmap.trafficIndicator, ht], ?_⟩
          refine (writeTIM_tail _ hck (tail := []) (n := 0) ?_).cast
            (by simp [timBytes, TIMBitmap.trafficIndicator, ht]) rfl
          simp only [TIMBitmap.isEmpty, TIMBitmap.trafficIndicator, ht, Bool.not_false,
            Option.isNone_none, Bool.and_true, if_true]
          exact WEmits.pure
      | some bits =>
        have ha := hm _ bits rfl rfl
        have hbits : ∃ n, n ≤ max map.length slack ∧ Emits (writeTIMBits bits) map n := by
          cases bits with
          | slice bytes =>
            simp only [TIMBits.asBytes, Res.ok.injEq] at ha
            subst ha
            exact ⟨_, by omega, Emits.bytes bytes⟩
          | static bytes n2 =>
            refine ⟨_, Nat.le_refl _, ?_⟩
            have : writeTIMBits (.static bytes n2) = pwrite (writeBytes map) 0 := by
              funext buf
              simp only [writeTIMBits, ha, Res.ok_bind]
            rw [this]
            exact (Emits.bytes map).pwrite0
          | const bytes n1 n2 =>
            refine ⟨_, Nat.le_refl _, ?_⟩
            have : writeTIMBits (.const bytes n1 n2) = pwrite (writeBytes map) 0 := by
              funext buf
              simp only [writeTIMBits, ha, Res.ok_bind]
            rw [this]
            exact (Emits.bytes map).pwrite0
        obtain ⟨n, hn, hw⟩ := hbits
        have hle := hw.le
        refine ⟨2 + (1 + max n slack), by simp [timBytes]; omega, ?_, ?_⟩
        · intro hne
          have : 0 < map.length := List.length_pos_iff.2 hne
          simp [timBytes]; omega
        · have hb : Emits (writeTIMBitmap ⟨ctl, some bits⟩) (ctl.bits :: map) (1 + max n slack) :=
            WEmits.run (by apply WEmits.u8; exact WEmits.gwrite hw)
          refine (writeTIM_tail _ hck (tail := ctl.bits :: map)
            (n := 1 + max n slack) ?_).cast (by simp [timBytes]) (by omega)
          simp only [TIMBitmap.isEmpty, Option.isNone_some, Bool.and_false, Bool.false_eq_true,
            if_false]
          exact WEmits.gwrite_pos hb (by omega)

/-- A written map is parsed as the same control and the same bytes, hence reads back the same AIDs. -/
theorem c16_round_trip (e : TIMElement) (b : TIMBitmap) (bits : TIMBits) (map : Bytes)
    (h : ¬ e.dtim_period < e.dtim_count) (hb : e.bitmap = some b)
    (hp : b.partial_virtual_bitmap = some bits) (hm : bits.asBytes = .ok map) :
    ∃ b', readTIM (timBytes e map) = .ok (⟨e.dtim_count, e.dtim_period, some b'⟩,
        (timBytes e map).length) ∧
      b'.bitmap_control = b.bitmap_control ∧ b'.partial_virtual_bitmap = some (.slice map) ∧
      b'.aidIter = b.aidIter := by
  refine ⟨⟨b.bitmap_control, some (.slice map)⟩, ?_, rfl, rfl, ?_⟩
  · have := (c16_parse e.dtim_count e.dtim_period (b.bitmap_control.bits :: map)).2 h
    simp only [timBytes, hb, hp]
    rw [show [e.dtim_count, e.dtim_period] ++ b.bitmap_control.bits :: map =
      e.dtim_count :: e.dtim_period :: b.bitmap_control.bits :: map from rfl, this]
    simp; omega
  · simp only [TIMBitmap.aidIter, hp, hm, show (TIMBits.slice map).asBytes = .ok map from rfl]

omit [ScrollRule] in
/-- Violation: the size reported for a static map is one less than what is written, so that in an element the
length byte is one too small. -/
theorem c16_static_measure (e : TIMElement) (ctl : TIMBitmapControl) (pvb : Bytes) (n2 : Nat)
    (hb : e.bitmap = some ⟨ctl, some (.static pvb n2)⟩) (hn : n2 < pvb.length) :
    measureTIM e = .ok (3 + n2) ∧
      (timBytes e (pvb.take (n2 + 1))).length = 4 + n2 := by
  constructor
  · simp only [measureTIM, hb, TIMBitmap.measure, TIMBits.measure, Res.map]
    congr 1; omega
  · simp [timBytes, hb]; omega

/-- ... and whoever parses the element gets the map without its last byte, and takes that byte for the
start of the next element. -/
theorem c16_wrapped_static_truncated (e : TIMElement) (ctl : TIMBitmapControl) (pvb : Bytes)
    (n2 : Nat) (h : ¬ e.dtim_period < e.dtim_count)
    (hb : e.bitmap = some ⟨ctl, some (.static pvb n2)⟩) (hn : n2 < pvb.length) (h250 : n2 ≤ 250) :
    ∃ bytes, Emits (Elem.writeWrapped ⟨.Id 5, ⟨writeTIM e, 3 + n2⟩⟩) bytes (6 + n2) ∧
      ∃ last, bytes = tlv ⟨5, timBytes e (pvb.take n2)⟩ ++ [last] ∧
      pvb[n2]? = some last ∧
      ∀ rest, readRawElement (bytes ++ rest) =
        .ok (⟨5, timBytes e (pvb.take n2)⟩, 5 + n2) := by
  have hs := slack_le
  obtain ⟨n, _, hn', hw⟩ := (c16_write e (pvb.take (n2 + 1)) (by
    intro b bits h1 h2
    rw [hb] at h1
    cases h1
    cases h2
    simp only [TIMBits.asBytes]; exact if_pos hn)).2 h
  have hne : pvb.take (n2 + 1) ≠ [] := by
    intro hc
    have := congrArg List.length hc
    rw [List.length_take, List.length_nil] at this; omega
  rw [hn' hne, (c16_static_measure e ctl pvb n2 hb hn).2] at hw
  have hlast : pvb.take (n2 + 1) = pvb.take n2 ++ [pvb[n2]] := List.take_succ_eq_append_getElem hn
  have hbytes : timBytes e (pvb.take (n2 + 1)) = timBytes e (pvb.take n2) ++ [pvb[n2]] := by
    rw [hlast]
    simp only [timBytes, hb, List.cons_append, List.nil_append]
  have hlen : (timBytes e (pvb.take n2)).length = 3 + n2 := by simp [timBytes, hb]; omega
  have hw2 := (writeTLV_emits_any 5 ⟨writeTIM e, 3 + n2⟩ _ _ hw (by show 3 + n2 ≤ 255; omega)).pwrite0
  refine ⟨_, hw2.cast rfl (by omega), pvb[n2], ?_, List.getElem?_eq_getElem hn, ?_⟩
  · rw [hbytes]
    simp only [tlv, hlen, List.cons_append]
  · intro rest
    have := readRawElement_tlv ⟨5, timBytes e (pvb.take n2)⟩ ([pvb[n2]] ++ rest)
      (by show (timBytes e (pvb.take n2)).length ≤ 255; omega)
      (by rw [List.length_append, List.length_singleton]; omega)
    rw [tlv_length, show 2 + (timBytes e (pvb.take n2)).length = 5 + n2 by omega] at this
    rw [← this, hbytes]
    simp only [tlv, hlen, List.cons_append, List.append_assoc]

/-- Concrete case: AIDs 3 and 9 are read back. -/
example : (TIMBitmap.newStatic false [⟨0xc003⟩, ⟨0xc009⟩] >>= fun b => b.aidIter) =
    .ok (some [⟨0xc003⟩, ⟨0xc009⟩]) := by decide +kernel

/-- Concrete case for the lists. -/
example : Lowest 16 ([0, 16, 20].filter (· ≠ 0)) := ⟨by decide, by decide⟩

/-- Concrete case: a TIM with multicast traffic and AID 10. -/
example : (let _ : ScrollRule := ⟨true⟩
    readTIM [1, 3, 0x01, 0x00, 0x04]) =
    .ok (⟨1, 3, some ⟨⟨0x01⟩, some (.slice [0x00, 0x04])⟩⟩, 5) := by decide

end Verif
