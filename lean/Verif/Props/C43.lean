import Verif.Props.C14
import Verif.Props.C41
/-!
# C43: the reported consumed length never exceeds the input
-/
namespace Verif
open Spec

variable [ScrollRule] [Crc32]

/-- The listed parsers stay within the input.  (The full statement is for all parsers; the violations
follow.) -/
theorem c43_within_input_partial {α : Type} {r : Reader α} (h : Parser r) : WithinInput r :=
  (parser_safe h).withinInput

/-- So do frames with a check sequence: they stay within the bytes before it. -/
theorem c43_with_fcs {β : Type} (r : Reader β) (hr : Parser r) (inp : Bytes) :
    (∀ v n, readMgmtFrame r true inp = .ok (v, n) → n + 4 ≤ inp.length) ∧
    (∀ v n, readDataFrame true inp = .ok (v, n) → n + 4 ≤ inp.length) := by
  constructor
  · intro v n h
    simp only [readMgmtFrame, if_true] at h
    cases hs : stripAndValidateFcs inp with
    | ok x =>
      rw [hs] at h
      have := (readMgmtFrameBody_safe (parser_safe hr)).withinInput x v n h
      have h2 := (c05_accepts_iff inp x).1 hs
      rw [h2]; simp; omega
    | err e => rw [hs] at h; simp at h
    | panic => rw [hs] at h; simp at h
  · intro v n h
    simp only [readDataFrame, if_true] at h
    cases hs : stripAndValidateFcs inp with
    | ok x =>
      rw [hs] at h
      have := readDataFrameBody_safe.withinInput x v n h
      have h2 := (c05_accepts_iff inp x).1 hs
      rw [h2]; simp; omega
    | err e => rw [hs] at h; simp at h
    | panic => rw [hs] at h; simp at h

omit [Crc32] in
/-- Violation: the MCS set reports 16 bytes of 14. -/
theorem c43_mcs_set (inp : Bytes) (h : inp.length = 14 ∨ inp.length = 15) :
    ∃ s, readSupportedMCSSet inp = .ok (s, 16) ∧ inp.length < 16 := by
  obtain ⟨s, hs⟩ := c13_mcs_set_overreports inp h
  exact ⟨s, hs, by omega⟩

omit [Crc32] in
/-- Violation: HT operation reports 22 bytes of 20. -/
theorem c43_ht_operation (inp : Bytes) (h : inp.length = 20 ∨ inp.length = 21) :
    ∃ e, readHTOperation inp = .ok (e, 22) ∧ inp.length < 22 := by
  obtain ⟨s, hs⟩ := c14_overreports inp h
  exact ⟨s, hs, by omega⟩

omit [Crc32] in
/-- An A-MSDU subframe reports its padding as consumed, which need not be there: it reports too much
exactly when the input ends inside the padding, and at most three bytes too much. -/
theorem c43_subframe_partial (inp : Bytes) (s : AMSDUSubframe Bytes) (n : Nat)
    (h : readSubframe inp = .ok (s, n)) :
    14 + s.payload.length ≤ inp.length ∧
    (n ≤ inp.length ↔ padding (14 + s.payload.length) ≤ inp.length - (14 + s.payload.length)) ∧
    n ≤ inp.length + 3 := by
  obtain ⟨h1, _, rest, rfl⟩ := readSubframe_parses inp s n h
  have : padding (14 + s.payload.length) ≤ 3 := by simp only [padding]; omega
  simp only [List.length_append, subframeBody, toLE_length, s.destination_address.property,
    s.source_address.property]
  omega

omit [Crc32] in
/-- Violation: 15 bytes of which 16 are reported. -/
theorem c43_subframe_wrong (d s : Mac) (x : Byte) :
    readSubframe (d.val ++ s.val ++ [1, 0, x]) = .ok (⟨d, s, [x]⟩, 16) ∧
    (d.val ++ s.val ++ [1, 0, x]).length = 15 := by
  refine ⟨?_, by simp⟩
  have h : Rd.run (do
      let destination_address ← Rd.gread readMac
      let source_address ← Rd.gread readMac
      let length ← Rd.gread (readLE 16)
      let payload ← Rd.gread (readBytes length.toNat)
      pure { destination_address, source_address, payload } : Rd (AMSDUSubframe Bytes))
      (d.val ++ (s.val ++ (toLE 1#16 ++ ([x] ++ [])))) = .ok (⟨d, s, [x]⟩, 15) := by
    apply RdAt.run
    apply RdAt.cast
    · apply RdAt.arr (hp := by decide)
      apply RdAt.arr (hp := by decide)
      apply RdAt.le (h := by decide) (hp := by decide)
      apply RdAt.bind
      · exact RdAt.gread (readBytes_append [x] []) (by have := slack_le; simp; omega)
      · exact RdAt.pure
    · simp
  have e : d.val ++ s.val ++ [1, 0, x] = d.val ++ (s.val ++ (toLE 1#16 ++ ([x] ++ []))) := by
    have : toLE 1#16 = [1, 0] := by decide
    simp [this]
  rw [e]
  simp only [readSubframe, h, Res.map]
  rfl

/-- An input of the last kind. -/
example (s : Bool) : letI : ScrollRule := ⟨s⟩
    ((readSubframe (List.replicate 12 0 ++ [1, 0, 7])).map (·.2)) = .ok 16 := by
  cases s <;> decide

end Verif
