import Verif.Lemmas.Ht
/-!
# C14: HT operation

The operation information is read little-endian and written as the first five bytes of the
big-endian form, so neither direction of the round trip holds.
-/
namespace Verif

/-- The layout the standard gives: primary channel, five bytes of information (little-endian), MCS
set. -/
def Spec.htOperation (e : HTOperationElement) : Bytes :=
  [e.primary_channel] ++ (toLE e.ht_operation_information.bits).take 5 ++
    (e.basic_ht_mcs_set.supported_rx_mcs_set.val ++
      toLE e.basic_ht_mcs_set.supported_rx_mcs_set_flags.bits ++ [0, 0])

open Spec

variable [ScrollRule]

/-- Parsing at least 22 bytes succeeds, consumes 22, and all of them but the two reserved ones are
kept, in the standard's layout. -/
theorem c14_parse (inp : Bytes) (h : 22 ≤ inp.length) :
    ∃ e, readHTOperation inp = .ok (e, 22) ∧ htOperation e = inp.take 20 ++ [0, 0] := by
  obtain ⟨b, r, rfl⟩ := exists_u8 (inp := inp) (by omega)
  simp at h
  obtain ⟨i, r, rfl⟩ := exists_arr 5 (inp := r) (by omega)
  simp at h
  obtain ⟨c, r, rfl⟩ := exists_arr 10 (inp := r) (by omega)
  simp at h
  obtain ⟨d, r, rfl⟩ := exists_arr 4 (inp := r) (by omega)
  simp at h
  obtain ⟨x, r, rfl⟩ := exists_arr 2 (inp := r) (by omega)
  refine ⟨⟨b, ⟨fromLE 64 (i.val ++ [0, 0, 0])⟩, ⟨c, ⟨fromLE 32 d.val⟩⟩⟩, ?_, ?_⟩
  · apply RdAt.run
    apply RdAt.cast
    · apply RdAt.u8
      apply RdAt.arr (hp := by decide)
      rw [show c.val ++ (d.val ++ (x.val ++ r)) = (c.val ++ (d.val ++ x.val)) ++ r by simp]
      apply RdAt.sub
      · have := readSupportedMCSSet_arr c d (x.val ++ r)
        simpa [List.append_assoc] using this
      · simp
      · rd_steps
    · simp
  · simp only [htOperation, toLE_fromLE (w := 64) rfl (i.val ++ [0, 0, 0]) (by simp),
      toLE_fromLE (w := 32) rfl d.val (by simp)]
    simp [List.take_append, List.take_of_length_le]

/-- Less than 20 bytes are an error. -/
theorem c14_short (inp : Bytes) (h : inp.length < 20) : ∃ x, readHTOperation inp = .err x := by
  by_cases h6 : inp.length < 6
  · exact Rd.Needs.run (n := 6)
      (Rd.Needs.bind (k := 1) (n := 5) (Rd.Adv.gread (readLE_fixed 8).adv) fun _ =>
       Rd.Needs.left (Rd.Needs.gread (readArr_fixed 5))) inp h6
  · obtain ⟨b, r, rfl⟩ := exists_u8 (inp := inp) (by omega)
    simp at h h6
    obtain ⟨i, r, rfl⟩ := exists_arr 5 (inp := r) (by omega)
    simp at h
    apply RdErr.run
    refine RdErr.bind_right (bs := [b]) (a := b)
      (RdAt.gread (readU8_cons b _) (by have := slack_le; simp; omega)) ?_
    refine RdErr.bind_right (bs := i.val) (a := i)
      (by rw [i.property]
          exact RdAt.gread (readArr_append i _) (by have := slack_le; simp; omega)) ?_
    obtain ⟨e, he⟩ := readSupportedMCSSet_short r (by omega)
    exact RdErr.bind_left (RdErr.gread he)

/-- Violation: with 20 or 21 bytes the reserved bytes are not checked: 22 bytes are reported as consumed. -/
theorem c14_overreports (inp : Bytes) (h : inp.length = 20 ∨ inp.length = 21) :
    ∃ e, readHTOperation inp = .ok (e, 22) := by
  obtain ⟨b, r, rfl⟩ := exists_u8 (inp := inp) (by omega)
  simp at h
  obtain ⟨i, r, rfl⟩ := exists_arr 5 (inp := r) (by omega)
  simp at h
  obtain ⟨c, r, rfl⟩ := exists_arr 10 (inp := r) (by omega)
  simp at h
  obtain ⟨d, r, rfl⟩ := exists_arr 4 (inp := r) (by omega)
  have key : RdAt (Rd.gread readSupportedMCSSet >>= fun set => pure
      ({ primary_channel := b, ht_operation_information := ⟨fromLE 64 (i.val ++ [0, 0, 0])⟩,
         basic_ht_mcs_set := set } : HTOperationElement)) (c.val ++ (d.val ++ r))
      ⟨b, ⟨fromLE 64 (i.val ++ [0, 0, 0])⟩, ⟨c, ⟨fromLE 32 d.val⟩⟩⟩ 16 := by
    intro pre
    show Rd.bind _ _ _ _ = _
    have := RdAt.gread (readSupportedMCSSet_arr c d r) (by have := slack_le; simp; omega) pre
    simp only [Rd.bind, this]
    rfl
  refine ⟨⟨b, ⟨fromLE 64 (i.val ++ [0, 0, 0])⟩, ⟨c, ⟨fromLE 32 d.val⟩⟩⟩, ?_⟩
  apply RdAt.run
  apply RdAt.cast
  · apply RdAt.u8
    apply RdAt.arr (hp := by decide)
    exact key
  · rfl

/-- What writing emits: the channel, the five high bytes of the information word starting with the
highest, and the MCS set; 22 bytes, the reported size. -/
theorem c14_write_partial (e : HTOperationElement) :
    Emits (writeHTOperation e) ([e.primary_channel] ++
      (toLE e.ht_operation_information.bits).reverse.take 5 ++ encMCSSet e.basic_ht_mcs_set) 22 ∧
      measureHTOperation e = 22 := by
  refine ⟨?_, rfl⟩
  apply Emits.cast (n := 22)
  · apply WEmits.run
    apply WEmits.cast
    · apply WEmits.u8
      apply WEmits.seq
      · exact (WEmits.gwrite_pos (Emits.bytes _) (by simp))
      · exact (WEmits.gwrite_pos (writeSupportedMCSSet_emits _) (by decide))
    · rfl
    · simp
  · simp [toBE]
  · rfl

/-- What survives: primary channel and MCS set always; the information word iff it is what reading
its reversed high bytes gives. -/
theorem c14_round_trip_partial (e : HTOperationElement) (rest : Bytes) :
    ∃ i, readHTOperation ([e.primary_channel] ++
        (toLE e.ht_operation_information.bits).reverse.take 5 ++
        encMCSSet e.basic_ht_mcs_set ++ rest) =
        .ok (⟨e.primary_channel, ⟨i⟩, e.basic_ht_mcs_set⟩, 22) ∧
      toLE i = (toLE e.ht_operation_information.bits).reverse.take 5 ++ [0, 0, 0] := by
  refine ⟨fromLE 64 ((toLE e.ht_operation_information.bits).reverse.take 5 ++ [0, 0, 0]), ?_,
    toLE_fromLE rfl _ (by simp)⟩
  have hl : ((toLE e.ht_operation_information.bits).reverse.take 5).length = 5 := by simp
  have h : readHTOperation (e.primary_channel ::
      ((⟨(toLE e.ht_operation_information.bits).reverse.take 5, hl⟩ : Arr 5).val ++
        (encMCSSet e.basic_ht_mcs_set ++ rest))) = .ok (⟨e.primary_channel,
      ⟨fromLE 64 ((toLE e.ht_operation_information.bits).reverse.take 5 ++ [0, 0, 0])⟩,
      e.basic_ht_mcs_set⟩, 22) := by
    apply RdAt.run
    apply RdAt.cast
    · apply RdAt.u8
      apply RdAt.arr (hp := by decide)
      apply RdAt.sub
      · rw [encMCSSet_length]; exact readSupportedMCSSet_enc _ _
      · simp
      · rd_steps
    · simp
  simpa [List.append_assoc] using h

/-- C14 is violated: an element whose information word is 1 (secondary channel above) is written with
an all-zero information field and read back as 0. -/
theorem c14_round_trip_fails :
    ∃ (e e' : HTOperationElement) (bytes : Bytes), Emits (writeHTOperation e) bytes 22 ∧
      readHTOperation bytes = .ok (e', 22) ∧ e ≠ e' := by
  let set : SupportedMCSSet := ⟨Arr.zero 10, ⟨0⟩⟩
  let e : HTOperationElement := ⟨6, ⟨1⟩, set⟩
  refine ⟨e, ⟨6, ⟨0⟩, set⟩, _, (c14_write_partial e).1, ?_, ?_⟩
  · obtain ⟨i, hi, hb⟩ := c14_round_trip_partial e []
    have : i = 0 := toLE_inj rfl (hb.trans (by decide))
    subst this
    rw [List.append_nil] at hi
    exact hi
  · decide

/-- Violation: the other direction fails too, received bytes are not reproduced.  The information bytes
x0 x1 x2 x3 x4 come out as 00 00 00 x4 x3. -/
theorem c14_rewrite (b : Byte) (x : Arr 5) (s : SupportedMCSSet) :
    ∃ e, readHTOperation (b :: (x.val ++ encMCSSet s)) = .ok (e, 22) ∧
      Emits (writeHTOperation e)
        ([b, 0, 0, 0, x.val.getD 4 0, x.val.getD 3 0] ++ encMCSSet s) 22 := by
  refine ⟨⟨b, ⟨fromLE 64 (x.val ++ [0, 0, 0])⟩, s⟩, ?_, ?_⟩
  · apply RdAt.run
    apply RdAt.cast
    · apply RdAt.u8
      apply RdAt.arr (hp := by decide)
      rw [← List.append_nil (encMCSSet s)]
      apply RdAt.sub
      · rw [encMCSSet_length]; exact readSupportedMCSSet_enc _ _
      · simp
      · rd_steps
    · simp
  · refine (c14_write_partial _).1.cast ?_ rfl
    simp only [toLE_fromLE (w := 64) rfl (x.val ++ [0, 0, 0]) (by simp)]
    obtain ⟨l, hl⟩ := x
    match l, hl with
    | [x0, x1, x2, x3, x4], _ => rfl

/-- Concrete case: five different information bytes. -/
example : (let _ : ScrollRule := ⟨true⟩
    readHTOperation ([6, 1, 2, 3, 4, 5] ++ List.replicate 16 0)) =
    .ok (⟨6, ⟨0x0504030201⟩, ⟨Arr.zero 10, ⟨0⟩⟩⟩, 22) := by decide

end Verif
