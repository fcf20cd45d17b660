import Verif.Lemmas.Elements
/-!
# C06: writing a chain of elements and iterating over the bytes yields the same elements
-/
namespace Verif

open Spec

/-- Writing a chain of any length of plain, extended, vendor and raw elements emits the concatenation of
id, length and contents of each, in order. -/
theorem c06_written [ScrollRule] {c : Chain} {raws : List RawElement} {x : Nat}
    (h : ChainOf c raws x) : Emits c.write (raws.flatMap tlv) ((raws.flatMap tlv).length + x) :=
  h.emits

/-- With the rule of the current `scroll` (offset at the end allowed), or when the last item is not an
empty raw element, a buffer of exactly the written size is enough. -/
theorem c06_exact_buffer [ScrollRule] {c : Chain} {raws : List RawElement} {x : Nat}
    (h : ChainOf c raws x) (hx : slack = 0 ∨ x = 0) :
    Emits c.write (raws.flatMap tlv) (raws.flatMap tlv).length := by
  have h1 := h.emits
  have h2 : x = 0 := by
    rcases hx with hx | hx
    · have : ∀ {c : Chain} {l : List RawElement} {x : Nat}, ChainOf c l x → x ≤ slack := by
        intro c l x h
        induction h with
        | last h => exact h.extra_le
        | link _ _ ih => exact ih
      have := this h
      omega
    · exact hx
  simpa [h2] using h1

/-- Iterating over the bytes of any list of raw elements yields exactly these, in order, with nothing
after (under the strict rule of `scroll`, if the last one is not empty). -/
theorem c06_iterate [ScrollRule] (raws : List RawElement)
    (hall : ∀ e ∈ raws, e.slice.length ≤ 255)
    (hs : ∀ e, raws.getLast? = some e → slack ≤ e.slice.length) (l : List RawElement) :
    Yields readRawElement (.new (raws.flatMap tlv)) l ↔ l = raws := by
  have h := (elementsOf_flatMap raws hall hs).yields
  exact ⟨fun hl => hl.unique h, fun e => e ▸ h⟩

/-- Round trip: any chain written into any large enough buffer, then iterated. -/
theorem c06_roundtrip [ScrollRule] {c : Chain} {raws : List RawElement} {x : Nat}
    (h : ChainOf c raws x) (hs : ∀ e, raws.getLast? = some e → slack ≤ e.slice.length)
    (buf : Bytes) (hb : (raws.flatMap tlv).length + x ≤ buf.length) :
    ∃ buf' n, c.write buf = .ok (buf', n) ∧ buf'.length = buf.length ∧
      rawElements (buf'.take n) = .ok raws := by
  have h1 := h.emits
  have he := elementsOf_flatMap raws h.len_le hs
  refine ⟨_, _, h1.ok buf hb, ?_, ?_⟩
  · simp only [List.length_append, List.length_drop]; omega
  · rw [List.take_left]
    have := he.length_le
    exact collect_of_yields he.yields _ (by omega)

/-- An element whose contents do not fit the length byte makes the whole write an error. -/
theorem c06_overlong [ScrollRule] {c : Chain} (h : BadChain c) (buf : Bytes) :
    ∃ e, c.write buf = .err e := h.refuses buf

/-- `append` puts the new element last. -/
theorem c06_append [ScrollRule] {c : Chain} {raws : List RawElement} {x y : Nat} {i : ChainItem}
    {e : RawElement} (h : ChainOf c raws x) (hi : ItemOf i e y) :
    ChainOf (c.append i) (raws ++ [e]) y := by
  induction h with
  | last h => exact .link h (.last hi)
  | link h t ih => exact .link h ih

/-- The chain made by `element_chain!` has its arguments in order. -/
theorem c06_element_chain [ScrollRule] {i : ChainItem} {e : RawElement} {x : Nat} (h : ItemOf i e x)
    (ps : List (ChainItem × RawElement)) (hs : ∀ p ∈ ps, ∃ y, ItemOf p.1 p.2 y) :
    ∃ y, ChainOf (elementChain i (ps.map Prod.fst)) (e :: ps.map Prod.snd) y := by
  induction ps generalizing i e x with
  | nil => exact ⟨x, .last h⟩
  | cons p ps ih =>
    obtain ⟨y, hy⟩ := hs p (by simp)
    obtain ⟨z, hz⟩ := ih hy (fun q hq => hs q (List.mem_cons_of_mem _ hq))
    exact ⟨z, .link h hz⟩

/-- C06 in full is violated under the strict rule: an empty last element (for example a wildcard SSID
at the end of a probe request) is lost when iterating. -/
theorem c06_strict_loses_empty_last : ¬ ∀ (_ : ScrollRule) (raws : List RawElement),
    (∀ e ∈ raws, e.slice.length ≤ 255) →
    Yields readRawElement (.new (raws.flatMap tlv)) raws := by
  intro h
  let _ : ScrollRule := ⟨true⟩
  have h1 := h ⟨true⟩ [⟨0, []⟩] (by simp)
  have h2 : ElementsOf ([⟨0, []⟩].flatMap tlv) [] := .stop (.strict 0 0 rfl)
  exact absurd (h1.unique h2.yields) (by simp)

/-- Concrete case: a plain, an extended, a vendor and a raw element. -/
example : (let _ : ScrollRule := ⟨true⟩
    (elementChain (.typed ⟨.Id 3, ⟨writeBytes [9], 1⟩⟩)
      [.typed ⟨.ExtId 7, ⟨writeBytes [1, 2], 2⟩⟩,
       .typed ⟨.VendorSpecific [0x50, 0x6f], ⟨writeBytes [8], 1⟩⟩,
       .raw ⟨42, [5, 5]⟩]).write (List.replicate 18 0xee)) =
    .ok ([3, 1, 9, 255, 3, 7, 1, 2, 221, 3, 0x50, 0x6f, 8, 42, 2, 5, 5, 0xee], 17) := by decide

/-- The hypotheses of the theorems above hold for it. -/
example : ∃ y, @ChainOf ⟨true⟩ (elementChain (.typed ⟨.Id 3, ⟨writeBytes [9], 1⟩⟩)
      [.typed ⟨.ExtId 7, ⟨writeBytes [1, 2], 2⟩⟩]) [⟨3, [9]⟩, ⟨255, [7, 1, 2]⟩] y :=
  let _ : ScrollRule := ⟨true⟩
  ⟨_, .link (.typed ⟨.Id 3, ⟨writeBytes [9], 1⟩⟩ [9] 1 (Emits.bytes _) (by simp) rfl (by decide))
    (.last (.typed ⟨.ExtId 7, ⟨writeBytes [1, 2], 2⟩⟩ [1, 2] 2 (Emits.bytes _) (by simp) rfl
      (by decide)))⟩

/-- Concrete over-long element. -/
example : @BadChain ⟨false⟩ (.link (.raw ⟨1, [2]⟩) (.last (.raw ⟨1, List.replicate 256 0⟩))) :=
  let _ : ScrollRule := ⟨false⟩
  .later (.raw ⟨1, [2]⟩ (by decide)) (.last (by show 255 < (List.replicate 256 (0 : Byte)).length; rw [List.length_replicate]; omega))

end Verif
