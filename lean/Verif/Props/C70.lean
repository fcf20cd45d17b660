import Verif.Props.C07
import Verif.Props.C08
import Verif.Model.Frames.Mgmt
import Verif.Lemmas.Safety
/-!
# C70: what surrounds an element does not matter

A lookup depends on the elements with the ID that is looked up, not on the others; bytes behind an element do
not change it; what is cut off at the end only takes elements away from the end.
-/
namespace Verif

open Spec

variable [ScrollRule]

/-! ## Other elements -/

private theorem other_matches {e : RawElement} {id : ElementID} (h : ¬ HasId e id) :
    elementIdMatches e id = .ok false := by
  by_cases hv : id = .VendorSpecific []
  · subst hv
    have : e.tlv_type ≠ 0xdd := fun ht => h ⟨ht, e.slice, rfl⟩
    simp only [elementIdMatches]
    rw [if_neg this]
  · rw [elementIdMatches_contents e id hv]
    cases hc : (contents id e).isSome with
    | false => rfl
    | true => exact absurd ((contents_isSome id e).1 hc) h

omit [ScrollRule] in
private theorem filterMapRes_filter {α β : Type} {f : α → Res (Option β)} {q : α → Bool}
    (h : ∀ a, q a = false → f a = .ok none) (l : List α) : filterMapRes f l = filterMapRes f (l.filter q) := by
  induction l with
  | nil => rfl
  | cons a l ih =>
    cases hq : q a with
    | true => simp only [List.filter_cons, hq, if_true, filterMapRes, ih]
    | false =>
      simp only [List.filter_cons, hq, filterMapRes, h a hq, ih, Res.ok_bind, Option.toList, List.nil_append,
        Res.pure_eq, Bool.false_eq_true, if_false]
      cases filterMapRes f (List.filter q l) <;> rfl

omit [ScrollRule] in
private theorem findRes_filter {α β : Type} {f : α → Res (Option β)} {q : α → Bool}
    (h : ∀ a, q a = false → f a = .ok none) (l : List α) : findRes f l = findRes f (l.filter q) := by
  induction l with
  | nil => rfl
  | cons a l ih =>
    cases hq : q a with
    | true => simp only [List.filter_cons, hq, if_true, findRes, ih]
    | false =>
      simp only [List.filter_cons, hq, findRes, h a hq, ih, Res.ok_bind, Bool.false_eq_true, if_false]

/-- Two byte strings whose elements with an ID are the same, in the same order, whatever else they hold and
wherever: every lookup of this ID gives the same on both, a panic of the element's own parser included. -/
theorem c70_only_matching {a b : Bytes} {ra rb : List RawElement} (ha : ElementsOf a ra) (hb : ElementsOf b rb)
    (id : ElementID)
    (h : ra.filter (fun e => (contents id e).isSome) = rb.filter fun e => (contents id e).isSome) :
    getMatchingElementsRaw a id = getMatchingElementsRaw b id ∧
    getFirstElementRaw a id = getFirstElementRaw b id ∧
    ∀ {α : Type} (read : Reader α), getMatchingElements a ⟨id, read⟩ = getMatchingElements b ⟨id, read⟩ ∧
      getFirstElement a ⟨id, read⟩ = getFirstElement b ⟨id, read⟩ := by
  have hla := ha.length_le
  have hlb := hb.length_le
  have hq : ∀ e, (contents id e).isSome = false → elementIdMatches e id = .ok false := fun e he =>
    other_matches fun hh => by rw [(contents_isSome id e).2 hh] at he; cases he
  have h1 : ∀ e, (contents id e).isSome = false → matchRaw id e = .ok none := fun e he => by
    simp [matchRaw, hq e he]
  have h2 : ∀ {α : Type} (read : Reader α) e, (contents id e).isSome = false →
      matchTyped ⟨id, read⟩ e = .ok none := fun read e he => by simp [matchTyped, hq e he]
  refine ⟨?_, ?_, fun read => ⟨?_, ?_⟩⟩
  · rw [getMatchingElementsRaw, collectMap_of_yields ha.yields _ (by omega), getMatchingElementsRaw,
      collectMap_of_yields hb.yields _ (by omega), filterMapRes_filter h1, h, ← filterMapRes_filter h1]
  · rw [getFirstElementRaw, findMap_of_yields ha.yields _ (by omega), getFirstElementRaw,
      findMap_of_yields hb.yields _ (by omega), findRes_filter h1, h, ← findRes_filter h1]
  · rw [getMatchingElements, collectMap_of_yields ha.yields _ (by omega), getMatchingElements,
      collectMap_of_yields hb.yields _ (by omega), filterMapRes_filter (h2 read), h,
      ← filterMapRes_filter (h2 read)]
  · rw [getFirstElement, findMap_of_yields ha.yields _ (by omega), getFirstElement,
      findMap_of_yields hb.yields _ (by omega), findRes_filter (h2 read), h, ← findRes_filter (h2 read)]

/-- An element with the ID that does not parse is ignored too by the lookups that parse. -/
theorem c70_only_parsing {α : Type} {a b : Bytes} {ra rb : List RawElement} (ha : ElementsOf a ra)
    (hb : ElementsOf b rb) (k : ElementKind α) (hv : k.id ≠ .VendorSpecific []) (hs : ∀ p, k.read p ≠ .panic)
    (h : ra.filterMap (fun e => (contents k.id e).bind (parsed k)) =
      rb.filterMap fun e => (contents k.id e).bind (parsed k)) :
    getMatchingElements a k = getMatchingElements b k ∧ getFirstElement a k = getFirstElement b k := by
  have hla := ha.length_le
  have hlb := hb.length_le
  refine ⟨by rw [c07_matching ha k hv hs, c07_matching hb k hv hs, h], ?_⟩
  rw [getFirstElement, findMap_of_yields ha.yields _ (by omega), findRes_ok (matchTyped_eq k hv hs), h,
    getFirstElement, findMap_of_yields hb.yields _ (by omega), findRes_ok (matchTyped_eq k hv hs)]

/-! ## Bytes before and after -/

/-- Whole elements, then any bytes: iteration gives those elements, then what it gives on the rest.  With the
strict rule of `scroll`, the last of them must not be empty if there is no rest. -/
theorem c70_append {b : Bytes} {rb : List RawElement} (hb : ElementsOf b rb) (ra : List RawElement)
    (hall : ∀ e ∈ ra, e.slice.length ≤ 255)
    (hs : ∀ e, ra.getLast? = some e → slack ≤ e.slice.length + b.length) :
    ElementsOf (ra.flatMap tlv ++ b) (ra ++ rb) ∧
    rawElements (ra.flatMap tlv ++ b) = .ok (ra ++ rb) := by
  suffices H : ElementsOf (ra.flatMap tlv ++ b) (ra ++ rb) from
    ⟨H, collect_of_yields H.yields _ (by have := H.length_le; omega)⟩
  induction ra with
  | nil => exact hb
  | cons e ra ih =>
    rw [List.flatMap_cons, List.append_assoc, List.cons_append]
    refine .elem e (hall e (by simp)) (not_noElement (hall e (by simp)) ?_)
      (ih (fun e' he' => hall e' (List.mem_cons_of_mem _ he')) ?_)
    · cases ra with
      | nil => simpa using hs e (by simp)
      | cons b bs =>
        have h1 := slack_le
        have h2 := tlv_length b
        simp; omega
    · intro e' he'
      apply hs
      cases ra with
      | nil => simp at he'
      | cons b bs => simpa using he'

/-- An element put between others, with another ID than the one looked up, changes no lookup. -/
theorem c70_insert (ra : List RawElement) (hall : ∀ e ∈ ra, e.slice.length ≤ 255) (e : RawElement)
    (he : e.slice.length ≤ 255) (b : Bytes)
    (hs : ∀ x, ra.getLast? = some x → slack ≤ x.slice.length + b.length)
    (hse : slack ≤ e.slice.length + b.length) (id : ElementID) (hn : ¬ HasId e id) :
    getMatchingElementsRaw (ra.flatMap tlv ++ tlv e ++ b) id = getMatchingElementsRaw (ra.flatMap tlv ++ b) id ∧
    getFirstElementRaw (ra.flatMap tlv ++ tlv e ++ b) id = getFirstElementRaw (ra.flatMap tlv ++ b) id ∧
    ∀ {α : Type} (read : Reader α),
      getMatchingElements (ra.flatMap tlv ++ tlv e ++ b) ⟨id, read⟩ =
        getMatchingElements (ra.flatMap tlv ++ b) ⟨id, read⟩ ∧
      getFirstElement (ra.flatMap tlv ++ tlv e ++ b) ⟨id, read⟩ =
        getFirstElement (ra.flatMap tlv ++ b) ⟨id, read⟩ := by
  obtain ⟨rb, hb⟩ := elementsOf_exists b
  have h1 := (c70_append hb ra hall hs).1
  have h2 := (c70_append hb (ra ++ [e]) (by
    intro x hx
    rcases List.mem_append.1 hx with hx | hx
    · exact hall x hx
    · rw [List.mem_singleton.1 hx]; exact he) (by
    intro x hx
    simp only [List.getLast?_append, List.getLast?_singleton, Option.some_or, Option.some.injEq] at hx
    rw [← hx]; exact hse)).1
  rw [show (ra ++ [e]).flatMap tlv = ra.flatMap tlv ++ tlv e by simp] at h2
  have hc : (contents id e).isSome = false := by
    cases hc : (contents id e).isSome with
    | false => rfl
    | true => exact absurd ((contents_isSome id e).1 hc) hn
  exact c70_only_matching h2 h1 id (by simp [hc])

/-- Changing the contents of one element, not their length, changes that element and nothing else. -/
theorem c70_change (ra : List RawElement) (hall : ∀ e ∈ ra, e.slice.length ≤ 255) (t t' : Byte) (p p' : Bytes)
    (hp : p.length ≤ 255) (hp' : p'.length = p.length) (b : Bytes) (hs : slack ≤ p.length + b.length) :
    ∃ rb, rawElements (ra.flatMap tlv ++ (t :: BitVec.ofNat 8 p.length :: p) ++ b) = .ok (ra ++ ⟨t, p⟩ :: rb) ∧
      rawElements (ra.flatMap tlv ++ (t' :: BitVec.ofNat 8 p.length :: p') ++ b) = .ok (ra ++ ⟨t', p'⟩ :: rb) := by
  obtain ⟨rb, hb⟩ := elementsOf_exists b
  have key : ∀ (t : Byte) (q : Bytes), q.length = p.length →
      rawElements (ra.flatMap tlv ++ (t :: BitVec.ofNat 8 p.length :: q) ++ b) = .ok (ra ++ ⟨t, q⟩ :: rb) := by
    intro t q hq
    have h2 := (c70_append hb (ra ++ [⟨t, q⟩]) (by
      intro x hx
      rcases List.mem_append.1 hx with hx | hx
      · exact hall x hx
      · rw [List.mem_singleton.1 hx]; exact hq ▸ hp) (by
      intro x hx
      simp only [List.getLast?_append, List.getLast?_singleton, Option.some_or, Option.some.injEq] at hx
      rw [← hx]; simp only [hq]; exact hs)).2
    simpa [tlv, hq] using h2
  exact ⟨rb, key t p rfl, key t' p' hp'⟩

/-! ## Cutting off -/

private theorem noElement_take {bs : Bytes} (h : NoElement bs) (n : Nat) : NoElement (bs.take n) := by
  cases h with
  | short _ h => exact .short _ (by simp; omega)
  | cut t l rest h =>
    match n with
    | 0 => exact .short _ (by simp)
    | 1 => exact .short _ (by simp)
    | n + 2 => exact .cut t l _ (by simp; omega)
  | strict t l h =>
    match n with
    | 0 => exact .short _ (by simp)
    | 1 => exact .short _ (by simp)
    | n + 2 => simp only [List.take_succ_cons, List.take_nil]; exact .strict t l h

private theorem tlv_take {e : RawElement} {rest : Bytes} (hl : e.slice.length ≤ 255) {n : Nat}
    (hn : n < 2 + max e.slice.length slack) (hr : slack ≤ e.slice.length + rest.length) :
    NoElement ((tlv e ++ rest).take n) := by
  rcases element_or_end ((tlv e ++ rest).take n) with ⟨x, r, hx, hxl, hxs⟩ | h
  · exfalso
    have hlen := congrArg List.length hx
    have hpre : (tlv e ++ rest) = tlv x ++ (r ++ (tlv e ++ rest).drop n) := by
      rw [← List.append_assoc, ← hx, List.take_append_drop]
    simp only [tlv, List.cons_append, List.cons.injEq] at hpre
    have h2 := congrArg BitVec.toNat hpre.2.1
    simp only [BitVec.toNat_ofNat] at h2
    simp only [List.length_take, List.length_append, tlv_length] at hlen
    have := slack_le
    omega
  · exact h

/-- The elements of the first `n` bytes are the first elements of the whole: those that end within `n` bytes.
(With the strict rule of `scroll` an empty element must be followed by another byte.) -/
theorem c70_take {bs : Bytes} {l : List RawElement} (h : ElementsOf bs l) (n : Nat) :
    ∃ l', ElementsOf (bs.take n) l' ∧ rawElements (bs.take n) = .ok l' ∧ l' <+: l ∧
      ∀ pre e post, l = pre ++ e :: post →
        (pre.length < l'.length ↔ (pre.flatMap tlv).length + 2 + max e.slice.length slack ≤ n) := by
  suffices H : ∃ l', ElementsOf (bs.take n) l' ∧ l' <+: l ∧
      ∀ pre e post, l = pre ++ e :: post →
        (pre.length < l'.length ↔ (pre.flatMap tlv).length + 2 + max e.slice.length slack ≤ n) by
    obtain ⟨l', h1, h2, h3⟩ := H
    exact ⟨l', h1, collect_of_yields h1.yields _ (by have := h1.length_le; omega), h2, h3⟩
  induction h generalizing n with
  | stop h => exact ⟨[], .stop (noElement_take h n), List.prefix_refl _, fun pre e post h => by simp at h⟩
  | @elem x rest l hl h t ih =>
    have hs := slack_of_not_noElement h
    have hlen := tlv_length x
    by_cases hn : n < 2 + max x.slice.length slack
    · refine ⟨[], .stop (tlv_take hl hn hs), List.nil_prefix, fun pre e post hp => ?_⟩
      simp only [List.length_nil, Nat.not_lt_zero, false_iff]
      cases pre with
      | nil => cases hp; simp only [List.flatMap_nil, List.length_nil]; omega
      | cons y pre =>
        cases hp
        simp only [List.flatMap_cons, List.length_append]
        have := slack_le
        omega
    · obtain ⟨l', h1, h2, h3⟩ := ih (n - (tlv x).length)
      have htake : (tlv x ++ rest).take n = tlv x ++ rest.take (n - (tlv x).length) := by
        rw [List.take_append, List.take_of_length_le (by omega)]
      refine ⟨x :: l', ?_, ?_, fun pre e post hp => ?_⟩
      · rw [htake]
        refine .elem x hl (not_noElement hl ?_) h1
        simp only [List.length_take]
        omega
      · exact List.cons_prefix_cons.2 ⟨rfl, h2⟩
      · cases pre with
        | nil => cases hp; simp only [List.flatMap_nil, List.length_nil, List.length_cons]; omega
        | cons y pre =>
          simp only [List.cons_append, List.cons.injEq] at hp
          obtain ⟨rfl, rfl⟩ := hp
          have := h3 pre e post rfl
          simp only [List.flatMap_cons, List.length_append, List.length_cons]
          omega

/-- What a lookup finds in the first bytes, it finds in the whole; all matches are the first of all matches. -/
theorem c70_take_lookup {α : Type} (bs : Bytes) (n : Nat) (k : ElementKind α) (hv : k.id ≠ .VendorSpecific [])
    (hs : ∀ p, k.read p ≠ .panic) :
    (∃ l l', getMatchingElements (bs.take n) k = .ok l' ∧ getMatchingElements bs k = .ok l ∧ l' <+: l) ∧
    ∀ a, getFirstElement (bs.take n) k = .ok (some a) → getFirstElement bs k = .ok (some a) := by
  obtain ⟨l, h⟩ := elementsOf_exists bs
  obtain ⟨l', h', _, ⟨r, rfl⟩, _⟩ := c70_take h n
  refine ⟨⟨_, _, c07_matching h' k hv hs, c07_matching h k hv hs, ?_⟩, fun a ha => ?_⟩
  · rw [List.filterMap_append]; exact List.prefix_append _ _
  · obtain ⟨pre, post, p, rfl, hp, hq⟩ := (c07_first_some h' k hv hs a).1 ha
    exact (c07_first_some h k hv hs a).2 ⟨pre, post ++ r, p, by simp, hp, hq⟩

/-- Two byte strings that agree on their first `n` bytes have the same elements there. -/
theorem c70_agree {a b : Bytes} {ra rb : List RawElement} (ha : ElementsOf a ra) (hb : ElementsOf b rb) (n : Nat)
    (h : a.take n = b.take n) (pre post : List RawElement) (e : RawElement) (hr : ra = pre ++ e :: post)
    (hn : (pre.flatMap tlv).length + 2 + max e.slice.length slack ≤ n) : pre ++ [e] <+: rb := by
  obtain ⟨l', h1, _, ⟨r, hp1⟩, hl⟩ := c70_take ha n
  obtain ⟨l'', h2, _, hp2, _⟩ := c70_take hb n
  rw [h] at h1
  cases h1.unique h2
  have := (hl pre e post hr).2 hn
  refine List.IsPrefix.trans ?_ hp2
  rw [hr] at hp1
  have hlen : (pre ++ [e]).length ≤ l'.length := by simp; omega
  have h3 : pre ++ [e] <+: l' ++ r := by rw [hp1]; exact ⟨post, by simp⟩
  exact List.prefix_of_prefix_length_le h3 ⟨r, rfl⟩ hlen

/-- The network name of a frame: no element but the SSID elements has any influence. -/
theorem c70_ssid {a b : Bytes} {ra rb : List RawElement} (ha : ElementsOf a ra) (hb : ElementsOf b rb)
    (h : ra.filter (fun e => e.tlv_type = 0) = rb.filter fun e => e.tlv_type = 0) :
    bodySsid a = bodySsid b := by
  have := ((c70_only_matching ha hb (.Id 0) (by
    have hq : (fun e : RawElement => (contents (.Id 0) e).isSome) = fun e => decide (e.tlv_type = 0) := by
      funext e
      simp only [contents]
      split <;> simp_all
    rw [hq]; exact h)).2.2 readSSID).2
  rw [bodySsid, this, bodySsid]

/-! ## Where it does matter -/

omit [ScrollRule] in
/-- Violation: with the strict rule of `scroll`, whether an empty element is seen depends on what follows: the
element `[0, 0]` (a hidden name) at the end is not seen, but is if any byte follows, even one that belongs to no
element. -/
theorem c70_following_byte : (let _ : ScrollRule := ⟨true⟩
    (rawElements [0, 0] = .ok [] ∧ rawElements [0, 0, 7] = .ok [⟨0, []⟩]) ∧
    (getFirstElementRaw [1, 1, 2, 0, 0] (.Id 0) = .ok none ∧
      getFirstElementRaw [1, 1, 2, 0, 0, 7] (.Id 0) = .ok (some ⟨0, []⟩))) := by
  decide +kernel

omit [ScrollRule] in
/-- Violation: elements that are cut off are dropped without an error: the lookup on the cut bytes says that
there is no such element. -/
theorem c70_cut_silent (s : Bool) : letI : ScrollRule := ⟨s⟩
    bodySsid [3, 1, 6, 0, 4, 97, 98, 99, 100] = .ok (some ⟨[97, 98, 99, 100], by decide⟩) ∧
    bodySsid ([3, 1, 6, 0, 4, 97, 98, 99, 100].take 8) = .ok none := by
  cases s <;> decide +kernel

/-! ## Concrete cases -/

omit [ScrollRule] in
/-- Three elements, the middle one of another kind, and a cut fourth. -/
example (s : Bool) : letI : ScrollRule := ⟨s⟩
    let a : Bytes := [1, 2, 0x82, 0x84, 221, 3, 9, 9, 9, 1, 1, 0x8b, 7, 9, 1]
    let b : Bytes := [1, 2, 0x82, 0x84, 1, 1, 0x8b, 7, 9, 1]
    rawElements a = .ok [⟨1, [0x82, 0x84]⟩, ⟨221, [9, 9, 9]⟩, ⟨1, [0x8b]⟩] ∧
    getMatchingElementsRaw a (.Id 1) = .ok [⟨1, [0x82, 0x84]⟩, ⟨1, [0x8b]⟩] ∧
    getMatchingElementsRaw b (.Id 1) = .ok [⟨1, [0x82, 0x84]⟩, ⟨1, [0x8b]⟩] ∧
    rawElements (a.take 8) = .ok [⟨1, [0x82, 0x84]⟩] ∧
    rawElements (a.take 9) = .ok [⟨1, [0x82, 0x84]⟩, ⟨221, [9, 9, 9]⟩] ∧
    ¬ HasId ⟨221, [9, 9, 9]⟩ (.Id 1) := by
  cases s <;> refine ⟨?_, ?_, ?_, ?_, ?_, ?_⟩ <;> first | decide +kernel | (intro h; cases h)

end Verif
