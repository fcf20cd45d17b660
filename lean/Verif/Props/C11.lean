import Verif.Model.Elements.Rates
import Verif.Basic
/-!
# C11: supported rates and extended supported rates
-/
namespace Verif

/-- Repeated calls of `next` on a rates iterator return the rates in order, then `None`. -/
inductive Spec.RatesYields : RatesReadIterator → List EncodedRate → Prop where
  | done {it it' : RatesReadIterator} (h : it.next = .ok (none, it')) : RatesYields it []
  | more {it it' : RatesReadIterator} {r : EncodedRate} {l : List EncodedRate}
      (h : it.next = .ok (some r, it')) (t : RatesYields it' l) : RatesYields it (r :: l)

open Spec

theorem ratesYields_new (l : List EncodedRate) :
    RatesYields (.new (l.map EncodedRate.bits)) l := by
  induction l with
  | nil => exact .done (it' := ⟨⟨none⟩⟩) (by decide)
  | cons r l ih =>
    refine .more (it' := .new (l.map EncodedRate.bits)) ?_ ih
    simp [RatesReadIterator.next, RatesReadIterator.new, ReadIterator.next, ReadIterator.new,
      readU8_cons]

theorem Spec.RatesYields.unique {it : RatesReadIterator} {l l' : List EncodedRate}
    (h : RatesYields it l) (h' : RatesYields it l') : l = l' := by
  induction h generalizing l' with
  | done h =>
    cases h' with
    | done _ => rfl
    | more h2 _ => rw [h] at h2; cases h2
  | more h t ih =>
    cases h' with
    | done h2 => rw [h] at h2; cases h2
    | more h2 t2 => rw [h] at h2; cases h2; rw [ih t2]

/-- Creation accepts at most 8 rates and keeps them. -/
theorem c11_new_supported (l : List EncodedRate) (e : RatesElement) :
    newSupportedRates l = some e ↔ l.length ≤ 8 ∧ e = ⟨l⟩ := by
  unfold newSupportedRates
  split <;> rename_i h
  · simp only [h, true_and, Option.some.injEq]; exact eq_comm
  · simp [h]

/-- Creation accepts at most 251 extended rates and keeps them. -/
theorem c11_new_extended (l : List EncodedRate) (e : RatesElement) :
    newExtendedSupportedRates l = some e ↔ l.length ≤ 251 ∧ e = ⟨l⟩ := by
  unfold newExtendedSupportedRates
  split <;> rename_i h
  · simp only [h, true_and, Option.some.injEq]; exact eq_comm
  · simp [h]

/-- Parsing supported rates succeeds exactly on at most 8 bytes, uses all of them and gives one rate
per byte, in order. -/
theorem c11_parse_supported (inp : Bytes) :
    (inp.length ≤ 8 → ∃ it, readSupportedRates inp = .ok (it, inp.length) ∧
      ∀ l, RatesYields it l ↔ l = inp.map EncodedRate.mk) ∧
    (8 < inp.length → ∃ x, readSupportedRates inp = .err x) := by
  unfold readSupportedRates
  constructor
  · intro h
    rw [if_neg (by omega)]
    refine ⟨_, rfl, fun l => ?_⟩
    have := ratesYields_new (inp.map EncodedRate.mk)
    simp only [List.map_map, show EncodedRate.bits ∘ EncodedRate.mk = id from rfl, List.map_id] at this
    exact ⟨fun h => h.unique this, fun h => h ▸ this⟩
  · intro h
    exact ⟨.tooBig, if_pos h⟩

/-- Parsing extended supported rates: the same, with at most 255 bytes. -/
theorem c11_parse_extended (inp : Bytes) :
    (inp.length ≤ 255 → ∃ it, readExtendedSupportedRates inp = .ok (it, inp.length) ∧
      ∀ l, RatesYields it l ↔ l = inp.map EncodedRate.mk) ∧
    (255 < inp.length → ∃ x, readExtendedSupportedRates inp = .err x) := by
  unfold readExtendedSupportedRates
  constructor
  · intro h
    rw [if_neg (by omega)]
    refine ⟨_, rfl, fun l => ?_⟩
    have := ratesYields_new (inp.map EncodedRate.mk)
    simp only [List.map_map, show EncodedRate.bits ∘ EncodedRate.mk = id from rfl, List.map_id] at this
    exact ⟨fun h => h.unique this, fun h => h ▸ this⟩
  · intro h
    exact ⟨.tooBig, if_pos h⟩

variable [ScrollRule]

theorem gwriteRates_emits (l : List EncodedRate) :
    WEmits (gwriteRates l) () (l.map EncodedRate.bits) l.length := by
  induction l with
  | nil => exact WEmits.pure
  | cons r l ih =>
    exact (WEmits.u8 ih).cast rfl (by simp; omega)

/-- Writing supported rates that could be created emits one byte per rate, in order; the reported
size is their number. -/
theorem c11_write_supported (l : List EncodedRate) (e : RatesElement)
    (h : newSupportedRates l = some e) :
    Emits (writeSupportedRates e) (l.map EncodedRate.bits) l.length ∧
      measureRates e = l.length := by
  obtain ⟨hl, rfl⟩ := (c11_new_supported l e).1 h
  refine ⟨?_, rfl⟩
  have := (gwriteRates_emits (l.take 8)).run
  unfold writeSupportedRates
  rwa [List.take_of_length_le hl] at this ⊢

/-- The same for extended rates. -/
theorem c11_write_extended (e : RatesElement) :
    Emits (writeExtendedSupportedRates e) (e.supported_rates.map EncodedRate.bits)
      e.supported_rates.length ∧ measureRates e = e.supported_rates.length :=
  ⟨(gwriteRates_emits _).run, rfl⟩

omit [ScrollRule] in
/-- Round trip of supported rates. -/
theorem c11_round_trip_supported (l : List EncodedRate) (e : RatesElement)
    (h : newSupportedRates l = some e) :
    ∃ it, readSupportedRates (l.map EncodedRate.bits) = .ok (it, l.length) ∧
      ∀ l', RatesYields it l' ↔ l' = l := by
  obtain ⟨hl, rfl⟩ := (c11_new_supported l e).1 h
  have := (c11_parse_supported (l.map EncodedRate.bits)).1 (by simpa using hl)
  simpa only [List.length_map, List.map_map, show EncodedRate.mk ∘ EncodedRate.bits = id from rfl,
    List.map_id] using this

omit [ScrollRule] in
/-- Round trip of extended supported rates. -/
theorem c11_round_trip_extended (l : List EncodedRate) (e : RatesElement)
    (h : newExtendedSupportedRates l = some e) :
    ∃ it, readExtendedSupportedRates (l.map EncodedRate.bits) = .ok (it, l.length) ∧
      ∀ l', RatesYields it l' ↔ l' = l := by
  obtain ⟨hl, rfl⟩ := (c11_new_extended l e).1 h
  have := (c11_parse_extended (l.map EncodedRate.bits)).1 (by simp; omega)
  simpa only [List.length_map, List.map_map, show EncodedRate.mk ∘ EncodedRate.bits = id from rfl,
    List.map_id] using this

/-- Beyond the limit, made by `new_unchecked`: only eight rates are written, but all are measured. -/
theorem c11_unchecked (e : RatesElement) (h : 8 < e.supported_rates.length) :
    Emits (writeSupportedRates e) ((e.supported_rates.take 8).map EncodedRate.bits) 8 ∧
      measureRates e ≠ 8 := by
  refine ⟨(gwriteRates_emits _).run.cast rfl (by simp; omega), ?_⟩
  unfold measureRates
  omega

/-- Concrete case. -/
example : newSupportedRates [⟨0x82⟩, ⟨0x84⟩] = some ⟨[⟨0x82⟩, ⟨0x84⟩]⟩ ∧
    (let _ : ScrollRule := ⟨true⟩
     writeSupportedRates ⟨[⟨0x82⟩, ⟨0x84⟩]⟩ [9, 9, 9]) = .ok ([0x82, 0x84, 9], 2) := by decide

end Verif
