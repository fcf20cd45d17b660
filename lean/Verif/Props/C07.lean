import Verif.Lemmas.Elements
/-!
# C07: element lookup

`Spec.ElementsOf bytes raws` says that `raws` are the raw elements of the bytes; every byte string has
exactly one such list (`c08_iterate`).  `Spec.contents id e` is the payload of `e` if `e` has the ID,
`Spec.parsed k p` is the parse of a payload.
-/
namespace Verif

open Spec

/-- The payload of an element under an ID is what the writer of an element with that ID puts there. -/
theorem c07_contents (id : ElementID) (e : RawElement) (p : Bytes) :
    contents id e = some p ↔ e = rawOf id p := contents_iff id e p

variable [ScrollRule]

/-- `element_id_matches` is true exactly for elements with the given (extension) ID or vendor prefix; it
never panics. -/
theorem c07_matches (raw : RawElement) (id : ElementID) (hv : id ≠ .VendorSpecific []) :
    ∃ b, elementIdMatches raw id = .ok b ∧ (b = true ↔ HasId raw id) :=
  elementIdMatches_iff raw id (by rintro pfx rfl rfl; exact hv rfl)

/-- `get_matching_elements_raw` yields all raw elements with the ID, in order. -/
theorem c07_matching_raw {bytes : Bytes} {raws : List RawElement} (h : ElementsOf bytes raws)
    (id : ElementID) (hv : id ≠ .VendorSpecific []) :
    getMatchingElementsRaw bytes id = .ok (raws.filter fun e => (contents id e).isSome) := by
  have hl := h.length_le
  rw [getMatchingElementsRaw, collectMap_of_yields h.yields _ (by omega),
    filterMapRes_ok (matchRaw_eq id hv)]
  congr 1
  rw [show (fun e => if (contents id e).isSome = true then some e else none) =
    Option.guard (fun e => (contents id e).isSome) from rfl, List.filterMap_eq_filter]

/-- `get_first_element_raw` returns the first of them, if any. -/
theorem c07_first_raw {bytes : Bytes} {raws : List RawElement} (h : ElementsOf bytes raws)
    (id : ElementID) (hv : id ≠ .VendorSpecific []) :
    getFirstElementRaw bytes id = .ok (raws.find? fun e => (contents id e).isSome) := by
  have hl := h.length_le
  rw [getFirstElementRaw, findMap_of_yields h.yields _ (by omega),
    findRes_ok (matchRaw_eq id hv)]
  congr 1
  rw [show (fun e => if (contents id e).isSome = true then some e else none) =
    Option.guard (fun e => (contents id e).isSome) from rfl, List.filterMap_eq_filter,
    List.head?_filter]

/-- `get_matching_elements` yields, in order, the parses of all elements with the kind's ID, leaving
out those whose payload does not parse and all elements with other IDs whatever their contents. -/
theorem c07_matching {α : Type} {bytes : Bytes} {raws : List RawElement} (h : ElementsOf bytes raws)
    (k : ElementKind α) (hv : k.id ≠ .VendorSpecific []) (hs : ∀ p, k.read p ≠ .panic) :
    getMatchingElements bytes k =
      .ok (raws.filterMap fun e => (contents k.id e).bind (parsed k)) := by
  have hl := h.length_le
  rw [getMatchingElements, collectMap_of_yields h.yields _ (by omega),
    filterMapRes_ok (matchTyped_eq k hv hs)]

/-- `get_first_element` returns `a` exactly when some element with the kind's ID parses to `a` and no
element with this ID before it parses. -/
theorem c07_first_some {α : Type} {bytes : Bytes} {raws : List RawElement}
    (h : ElementsOf bytes raws) (k : ElementKind α) (hv : k.id ≠ .VendorSpecific [])
    (hs : ∀ p, k.read p ≠ .panic) (a : α) :
    getFirstElement bytes k = .ok (some a) ↔
      ∃ pre post p, raws = pre ++ rawOf k.id p :: post ∧ parsed k p = some a ∧
        ∀ q, rawOf k.id q ∈ pre → parsed k q = none := by
  have hl := h.length_le
  rw [getFirstElement, findMap_of_yields h.yields _ (by omega), findRes_ok (matchTyped_eq k hv hs),
    List.head?_filterMap]
  simp only [Res.ok.injEq, List.findSome?_eq_some_iff]
  constructor
  · rintro ⟨pre, e, post, hr, he, hpre⟩
    obtain ⟨p, hp, ha⟩ := Option.bind_eq_some_iff.1 he
    cases (contents_iff _ _ _).1 hp
    refine ⟨pre, post, p, hr, ha, fun q hq => ?_⟩
    simpa [(contents_iff k.id _ q).2 rfl] using hpre _ hq
  · rintro ⟨pre, post, p, hr, ha, hpre⟩
    refine ⟨pre, _, post, hr, by simp [(contents_iff k.id _ p).2 rfl, ha], fun e he => ?_⟩
    cases hc : contents k.id e with
    | none => rfl
    | some q =>
      cases (contents_iff _ _ _).1 hc
      simpa using hpre q he

/-- `get_first_element` returns `None` exactly when no element with the kind's ID parses. -/
theorem c07_first_none {α : Type} {bytes : Bytes} {raws : List RawElement}
    (h : ElementsOf bytes raws) (k : ElementKind α) (hv : k.id ≠ .VendorSpecific [])
    (hs : ∀ p, k.read p ≠ .panic) :
    getFirstElement bytes k = .ok none ↔ ∀ p, rawOf k.id p ∈ raws → parsed k p = none := by
  have hl := h.length_le
  rw [getFirstElement, findMap_of_yields h.yields _ (by omega), findRes_ok (matchTyped_eq k hv hs),
    List.head?_filterMap]
  simp only [Res.ok.injEq, List.findSome?_eq_none_iff]
  constructor
  · intro h p hp
    simpa [(contents_iff k.id _ p).2 rfl] using h _ hp
  · intro h e he
    cases hc : contents k.id e with
    | none => rfl
    | some q =>
      cases (contents_iff _ _ _).1 hc
      simpa using h q he

/-- The parse of the first element with the kind's ID, if that parses.  (The full claim drops the
hypothesis `hp`; see `c07_first_wrong`.) -/
theorem c07_first_partial {α : Type} {bytes : Bytes} {raws : List RawElement}
    (h : ElementsOf bytes raws) (k : ElementKind α) (hv : k.id ≠ .VendorSpecific [])
    (hs : ∀ p, k.read p ≠ .panic) (pre post : List RawElement) (p : Bytes) (a : α)
    (hr : raws = pre ++ rawOf k.id p :: post) (hpre : ∀ e ∈ pre, ¬ HasId e k.id)
    (hp : parsed k p = some a) : getFirstElement bytes k = .ok (some a) := by
  rw [c07_first_some h k hv hs]
  refine ⟨pre, post, p, hr, hp, fun q hq => absurd ?_ (hpre _ hq)⟩
  rw [← contents_isSome, (contents_iff _ _ q).2 rfl]; rfl

omit [ScrollRule] in
/-- C07 as stated is violated: when the first element of the kind does not parse, the lookup
does not report this but goes on and returns a later one. -/
theorem c07_first_wrong : ¬ ∀ (_ : ScrollRule) (bytes : Bytes) (raws : List RawElement)
    (k : ElementKind Byte) (pre post : List RawElement) (p : Bytes),
    ElementsOf bytes raws → k.id ≠ .VendorSpecific [] → (∀ p, k.read p ≠ .panic) →
    raws = pre ++ rawOf k.id p :: post → (∀ e ∈ pre, ¬ HasId e k.id) →
    getFirstElement bytes k = .ok (parsed k p) := by
  intro h
  let _ : ScrollRule := ⟨true⟩
  have h1 := h ⟨true⟩ [3, 0, 3, 1, 5] [⟨3, []⟩, ⟨3, [5]⟩] ⟨.Id 3, readU8⟩ [] [⟨3, [5]⟩] []
    (elementsOf_flatMap [⟨3, []⟩, ⟨3, [5]⟩] (by decide) (by
      intro e he; cases he; decide)) (by simp)
    ((readLE_fixed 8).safe.ne_panic) rfl (by simp)
  exact absurd h1 (by decide)

omit [ScrollRule] in
/-- Violation: `parse_raw_element`, called directly, panics on a vendor element shorter than the prefix. -/
theorem c07_parse_raw_panics : (let _ : ScrollRule := ⟨true⟩
    parseRawElement ⟨.VendorSpecific [0x50, 0x6f, 0x9a, 0x1c], readU8⟩ ⟨221, [0x50]⟩) = .panic := by
  decide

/-- Concrete case: the second and third elements are of other kinds, the fourth is of the kind. -/
example : (let _ : ScrollRule := ⟨true⟩
    getFirstElement [0, 2, 1, 2, 221, 1, 0x50, 255, 2, 7, 9, 221, 3, 0x50, 0x6f, 8]
      ⟨.VendorSpecific [0x50, 0x6f], readU8⟩) = .ok (some 8) := by decide

end Verif
