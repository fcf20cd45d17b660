import Verif.Lemmas.Elements
/-!
# C08: iterating over received elements terminates, never panics, never looks outside the buffer
-/
namespace Verif

open Spec

variable [ScrollRule]

/-- For any bytes, iteration ends after at most `len / 2` items, without panic; the items are the
bytes' elements one after the other from the start, and what is left over holds no further element. -/
theorem c08_iterate (bytes : Bytes) : ∃ raws, Yields readRawElement (.new bytes) raws ∧
    ElementsOf bytes raws ∧ raws.length ≤ bytes.length / 2 ∧
    ∃ tail, bytes = raws.flatMap tlv ++ tail ∧ NoElement tail := by
  obtain ⟨raws, h⟩ := elementsOf_exists bytes
  have := h.length_le
  exact ⟨raws, h.yields, h, by omega, h.flat.2⟩

/-- The same for the iterator driven to its end. -/
theorem c08_collect (bytes : Bytes) : ∃ raws, rawElements bytes = .ok raws ∧
    raws.length ≤ bytes.length / 2 := by
  obtain ⟨raws, h⟩ := elementsOf_exists bytes
  have := h.length_le
  exact ⟨raws, collect_of_yields h.yields _ (by omega), by omega⟩

/-- Each item's payload is a contiguous piece of the input, right after its id and length bytes. -/
theorem c08_contiguous (bytes : Bytes) (raws : List RawElement)
    (h : Yields readRawElement (.new bytes) raws) (e : RawElement) (he : e ∈ raws) :
    ∃ pre post, bytes = pre ++ e.tlv_type :: BitVec.ofNat 8 e.slice.length :: e.slice ++ post ∧
      e.slice.length ≤ 255 := by
  obtain ⟨raws', h'⟩ := elementsOf_exists bytes
  cases h.unique h'.yields
  obtain ⟨hl, tail, hb, _⟩ := h'.flat
  obtain ⟨l1, l2, rfl⟩ := List.append_of_mem he
  exact ⟨l1.flatMap tlv, l2.flatMap tlv ++ tail, by simp [hb, tlv], hl e he⟩

/-- Reading one raw element never panics and never claims more than the input. -/
theorem c08_safe : SafeReader readRawElement := by
  intro inp
  rcases element_or_end inp with ⟨e, rest, rfl, hl, hs⟩ | hn
  · rw [readRawElement_tlv e rest hl hs]; simp
  · obtain ⟨e, he⟩ := readRawElement_noElement hn
    rw [he]; trivial

/-- None of the lookups panics on any bytes, provided the kind's own parser does not. -/
theorem c08_lookup_safe {α : Type} (bytes : Bytes) (k : ElementKind α)
    (hv : k.id ≠ .VendorSpecific []) (hs : ∀ p, k.read p ≠ .panic) :
    (∃ l, getMatchingElements bytes k = .ok l) ∧ (∃ o, getFirstElement bytes k = .ok o) ∧
    (∃ l, getMatchingElementsRaw bytes k.id = .ok l) ∧
    (∃ o, getFirstElementRaw bytes k.id = .ok o) := by
  obtain ⟨raws, h⟩ := elementsOf_exists bytes
  have hl := h.length_le
  refine ⟨⟨_, (collectMap_of_yields h.yields _ (by omega)).trans
      (filterMapRes_ok (matchTyped_eq k hv hs) raws)⟩,
    ⟨_, (findMap_of_yields h.yields _ (by omega)).trans (findRes_ok (matchTyped_eq k hv hs) raws)⟩,
    ⟨_, (collectMap_of_yields h.yields _ (by omega)).trans
      (filterMapRes_ok (matchRaw_eq k.id hv) raws)⟩,
    ⟨_, (findMap_of_yields h.yields _ (by omega)).trans (findRes_ok (matchRaw_eq k.id hv) raws)⟩⟩

/-- Concrete case: two elements and a truncated third. -/
example : (let _ : ScrollRule := ⟨true⟩
    rawElements [0, 2, 1, 2, 3, 1, 9, 5, 4, 0]) = .ok [⟨0, [1, 2]⟩, ⟨3, [9]⟩] := by decide

end Verif
