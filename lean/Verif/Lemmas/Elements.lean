import Verif.Spec.Elements
import Verif.Spec.Iter
/-!
# Lemmas about elements and element chains
-/
namespace Verif

open Spec

set_option linter.unusedSectionVars false

variable [ScrollRule]

theorem WEmits.lift_bind {α β : Type} {x : Res α} {a : α} {f : α → Wr β} {b : β} {bs : Bytes}
    {n : Nat} (h : x = .ok a) (h2 : WEmits (f a) b bs n) : WEmits (Wr.lift x >>= f) b bs n :=
  (WEmits.bind (WEmits.lift h) h2).cast rfl (by simp)

/-- Writing a TLV. -/
theorem writeTLV_emits (t : Byte) (o : Obj) (p : Bytes) (n : Nat) (hw : Emits o.write p n)
    (hm : o.measure = p.length) (hl : p.length ≤ 255) :
    Emits (writeTLV t o) (t :: BitVec.ofNat 8 p.length :: p) (2 + max n slack) := by
  apply WEmits.run
  refine (WEmits.u8 (WEmits.lift_bind (a := BitVec.ofNat 8 p.length) ?_
    (WEmits.u8 (WEmits.gwrite hw)))).cast rfl (by omega)
  rw [hm, if_pos hl]

/-- A payload measured above 255 cannot be written. -/
theorem writeTLV_refuses (t : Byte) (o : Obj) (hl : 255 < o.measure) : Refuses (writeTLV t o) := by
  intro buf
  have hg : (∃ e, Wr.gwrite (writeU8 t) buf 0 = .err e) ∨
      (∃ b n, Wr.gwrite (writeU8 t) buf 0 = .ok ((), b, n)) := by
    have h := WEmits.gwrite_pos (Emits.writeU8 t) Nat.one_pos
    by_cases hb : 1 ≤ buf.length
    · exact .inr ⟨_, _, h.ok [] buf hb⟩
    · exact .inl (h.err [] buf (by omega))
  rcases hg with ⟨e, he⟩ | ⟨b, n, hb⟩
  · refine ⟨e, ?_⟩
    simp only [writeTLV, Wr.run, bind, Wr.bind, he]
  · refine ⟨.badInput, ?_⟩
    simp only [writeTLV, Wr.run, bind, Wr.bind, hb, Wr.lift]
    rw [if_neg (by omega)]
    rfl

theorem Refuses.pwrite0 {w : Writer} (h : Refuses w) : Refuses (pwrite w 0) := by
  intro buf
  simp only [pwrite, Wr.gwrite]
  split
  · rename_i h1
    split at h1
    · cases h1
    · obtain ⟨e, he⟩ := h (buf.drop 0)
      rw [he] at h1; cases h1
  · exact ⟨_, rfl⟩
  · rename_i h1
    split at h1
    · cases h1
    · obtain ⟨e, he⟩ := h (buf.drop 0)
      rw [he] at h1; cases h1

theorem writeRawElement_emits (e : RawElement) (hl : e.slice.length ≤ 255) :
    Emits (writeRawElement e) (tlv e) (2 + max e.slice.length slack) :=
  writeTLV_emits _ _ _ _ (Emits.bytes _) rfl hl

theorem typedExt_emits (x : Byte) (o : Obj) (p : Bytes) (n : Nat) (hw : Emits o.write p n) :
    Emits (typedExtElement x o).write (x :: p) (1 + max n slack) :=
  WEmits.run (WEmits.u8 (WEmits.gwrite hw))

theorem prefixed_emits (pfx : Bytes) (o : Obj) (p : Bytes) (n : Nat) (hw : Emits o.write p n) :
    Emits (prefixedVendorPayload pfx o).write (pfx ++ p) (pfx.length + max n slack) :=
  (WEmits.run (WEmits.bind (WEmits.gwrite (Emits.bytes pfx)) (WEmits.gwrite hw))).cast rfl (by
    omega)

theorem vendorSpecific_emits (o : Obj) (p : Bytes) (n : Nat) (hw : Emits o.write p n) :
    Emits (vendorSpecificElement o).write p (max n slack) :=
  WEmits.run (WEmits.gwrite hw)

/-- Writing a wrapped element. -/
theorem writeWrapped_emits (e : Elem) (p : Bytes) (n : Nat) (hw : Emits e.obj.write p n)
    (hn : p.length ≤ n) (hm : e.obj.measure = p.length)
    (hl : (rawOf e.id p).slice.length ≤ 255) :
    Emits e.writeWrapped (tlv (rawOf e.id p))
      ((tlv (rawOf e.id p)).length + (max n slack - p.length)) := by
  have hs := slack_le
  obtain ⟨id, o⟩ := e
  cases id with
  | Id i =>
    refine (Emits.pwrite0 (writeTLV_emits i o p n hw hm hl)).cast rfl ?_
    simp [tlv, rawOf]; omega
  | ExtId x =>
    refine (Emits.pwrite0 (writeTLV_emits 0xff (typedExtElement x o) (x :: p) _
      (typedExt_emits x o p n hw) (by simpa [typedExtElement] using hm) hl)).cast rfl ?_
    simp [tlv, rawOf]; omega
  | VendorSpecific pfx =>
    refine (Emits.pwrite0 (writeTLV_emits 0xdd (vendorSpecificElement (prefixedVendorPayload pfx o))
      (pfx ++ p) _ (vendorSpecific_emits _ _ _ (prefixed_emits pfx o p n hw))
      (by simpa [vendorSpecificElement, prefixedVendorPayload] using hm) hl)).cast rfl ?_
    simp [tlv, rawOf]; omega

theorem tlv_length (e : RawElement) : (tlv e).length = 2 + e.slice.length := by
  simp [tlv]; omega

theorem Spec.ItemOf.extra_le {i : ChainItem} {e : RawElement} {x : Nat} (h : ItemOf i e x) :
    x ≤ slack := by
  cases h with
  | raw => omega
  | typed e p n hw hn hm hl => have := hw.le; omega

theorem Spec.ItemOf.len_le {i : ChainItem} {e : RawElement} {x : Nat} (h : ItemOf i e x) :
    e.slice.length ≤ 255 := by
  cases h with
  | raw _ h => exact h
  | typed e p n hw hn hm hl => exact hl

theorem Spec.ChainOf.ne_nil {c : Chain} {l : List RawElement} {x : Nat} (h : ChainOf c l x) : l ≠ [] := by
  cases h <;> simp

theorem Spec.ChainOf.len_le {c : Chain} {l : List RawElement} {x : Nat} (h : ChainOf c l x) :
    ∀ e ∈ l, e.slice.length ≤ 255 := by
  induction h with
  | last h => intro e he; simp at he; subst he; exact h.len_le
  | link h t ih =>
    intro e he
    rcases List.mem_cons.1 he with rfl | he
    · exact h.len_le
    · exact ih e he

/-- What writing the first part of an item emits. -/
theorem Spec.ItemOf.emits {i : ChainItem} {e : RawElement} {x : Nat} (h : ItemOf i e x) :
    Emits (match i with | .typed e => e.writeWrapped | .raw e => writeRawElement e) (tlv e)
      ((tlv e).length + x) := by
  cases h with
  | raw e h =>
    exact (writeRawElement_emits e h).cast rfl (by rw [tlv_length]; omega)
  | typed e p n hw hn hm hl => exact writeWrapped_emits e p n hw hw.le hm hl

theorem flatMap_tlv_length_pos {l : List RawElement} (h : l ≠ []) :
    2 ≤ (l.flatMap tlv).length := by
  cases l with
  | nil => exact absurd rfl h
  | cons a l => simp [tlv_length]; omega

theorem Spec.ChainOf.emits {c : Chain} {l : List RawElement} {x : Nat} (h : ChainOf c l x) :
    Emits c.write (l.flatMap tlv) ((l.flatMap tlv).length + x) := by
  have hs := slack_le
  induction h with
  | @last i e x h =>
    have h1 := h.emits
    have h2 := tlv_length e
    cases i with
    | typed e' => exact (Emits.pwrite0 h1).cast (by simp) (by simp; omega)
    | raw e' => exact (Emits.pwrite0 h1).cast (by simp) (by simp; omega)
  | @link i e x y c l h t ih =>
    have h1 := h.emits
    have hx := h.extra_le
    have h2 := flatMap_tlv_length_pos t.ne_nil
    have h3 := tlv_length e
    cases i with
    | typed e' =>
      refine (WEmits.run (WEmits.bind (WEmits.gwrite h1) (WEmits.gwrite ih))).cast (by simp) ?_
      simp only [List.flatMap_cons, List.length_append]; omega
    | raw e' =>
      refine (WEmits.run (WEmits.bind (WEmits.gwrite h1) (WEmits.gwrite ih))).cast (by simp) ?_
      simp only [List.flatMap_cons, List.length_append]; omega

/-! ## Reading raw elements -/

theorem readRawElement_tlv (e : RawElement) (rest : Bytes) (hl : e.slice.length ≤ 255)
    (hs : slack ≤ e.slice.length + rest.length) :
    readRawElement (tlv e ++ rest) = .ok (e, (tlv e).length) := by
  apply RdAt.run
  show RdAt _ (e.tlv_type :: BitVec.ofNat 8 e.slice.length :: (e.slice ++ rest)) _ _
  have hb : (BitVec.ofNat 8 e.slice.length).toNat = e.slice.length := by simp; omega
  have hr : readBytes (BitVec.ofNat 8 e.slice.length).toNat (e.slice ++ rest) =
      .ok (e.slice, e.slice.length) := by rw [hb]; exact readBytes_append _ _
  refine (RdAt.u8 (RdAt.u8 (m := e.slice.length + 0) ?_)).cast (by rw [tlv_length]; omega)
  exact RdAt.bind (RdAt.gread hr (by simpa using hs)) RdAt.pure

theorem readRawElement_short (inp : Bytes) (h : inp.length < 2) :
    ∃ e, readRawElement inp = .err e := by
  apply RdErr.run
  match inp, h with
  | [], _ => exact RdErr.bind_left (RdErr.gread (e := .tooBig) rfl)
  | [a], _ =>
    have h1 : readU8 [a] = .ok (a, 1) := readU8_cons a []
    exact RdErr.bind_right (bs := [a]) (rest := [])
      (RdAt.gread h1 (by have := slack_le; simpa using this))
      (RdErr.bind_left (RdErr.gread (e := .tooBig) rfl))

theorem readRawElement_noElement {inp : Bytes} (h : NoElement inp) :
    ∃ e, readRawElement inp = .err e := by
  cases h with
  | short _ h => exact readRawElement_short _ h
  | cut t l rest h =>
    apply RdErr.run
    have hs := slack_le
    have h1 : readU8 (t :: l :: rest) = .ok (t, 1) := readU8_cons _ _
    have h2 : readU8 (l :: rest) = .ok (l, 1) := readU8_cons _ _
    refine RdErr.bind_right (bs := [t]) (rest := l :: rest) (RdAt.gread h1 (by simp; omega))
      (RdErr.bind_right (bs := [l]) (rest := rest) (RdAt.gread h2 (by simp; omega))
        (RdErr.bind_left (RdErr.gread (e := .tooBig) ?_)))
    simp only [readBytes]; rw [if_neg (by omega)]
  | strict t l h =>
    apply RdErr.run
    have hs := slack_le
    have h1 : readU8 [t, l] = .ok (t, 1) := readU8_cons _ _
    have h2 : readU8 [l] = .ok (l, 1) := readU8_cons _ _
    exact RdErr.bind_right (bs := [t]) (rest := [l]) (RdAt.gread h1 (by simp; omega))
      (RdErr.bind_right (bs := [l]) (rest := []) (RdAt.gread h2 (by simp; omega))
        (RdErr.bind_left (RdErr.gread_short (by simp; omega))))

theorem slack_of_not_noElement {e : RawElement} {rest : Bytes}
    (h : ¬ NoElement (tlv e ++ rest)) : slack ≤ e.slice.length + rest.length := by
  apply Classical.byContradiction
  intro hn
  have h1 := slack_le
  have h2 : e.slice = [] := List.eq_nil_of_length_eq_zero (by omega)
  have h3 : rest = [] := List.eq_nil_of_length_eq_zero (by omega)
  apply h
  simp only [tlv, h2, h3, List.append_nil]
  exact .strict _ _ (by omega)

theorem not_noElement {e : RawElement} {rest : Bytes} (hl : e.slice.length ≤ 255)
    (h : slack ≤ e.slice.length + rest.length) : ¬ NoElement (tlv e ++ rest) := by
  intro hn
  obtain ⟨er, he⟩ := readRawElement_noElement hn
  rw [readRawElement_tlv e rest hl h] at he
  cases he

/-- Every byte string starts with an element or is at the end. -/
theorem element_or_end (inp : Bytes) :
    (∃ e rest, inp = tlv e ++ rest ∧ e.slice.length ≤ 255 ∧
      slack ≤ e.slice.length + rest.length) ∨ NoElement inp := by
  match inp with
  | [] => exact .inr (.short _ (by simp))
  | [a] => exact .inr (.short _ (by simp))
  | t :: l :: rest =>
    by_cases hl : l.toNat ≤ rest.length
    · by_cases hs : slack ≤ rest.length
      · left
        have hlt := l.isLt
        refine ⟨⟨t, rest.take l.toNat⟩, rest.drop l.toNat, ?_, ?_, ?_⟩
        · simp only [tlv, List.length_take, Nat.min_eq_left hl, BitVec.ofNat_toNat,
            BitVec.setWidth_eq, List.cons_append, List.take_append_drop]
        · simp; omega
        · simp; omega
      · right
        have h1 := slack_le
        have : rest = [] := List.eq_nil_of_length_eq_zero (by omega)
        subst this
        exact .strict t l (by simp at hs; omega)
    · exact .inr (.cut t l rest (by omega))

/-- Every byte string has its list of elements. -/
theorem elementsOf_exists (bs : Bytes) : ∃ raws, ElementsOf bs raws := by
  suffices H : ∀ k (bs : Bytes), bs.length ≤ k → ∃ raws, ElementsOf bs raws from
    H _ bs (Nat.le_refl _)
  intro k
  induction k with
  | zero => intro bs h; exact ⟨[], .stop (.short _ (by omega))⟩
  | succ k ih =>
    intro bs h
    rcases element_or_end bs with ⟨e, rest, rfl, hl, hs⟩ | hn
    · have ht := tlv_length e
      obtain ⟨raws, hr⟩ := ih rest (by simp at h; omega)
      exact ⟨e :: raws, .elem e hl (not_noElement hl hs) hr⟩
    · exact ⟨[], .stop hn⟩

/-- Iterating over raw elements yields the elements of the bytes. -/
theorem Spec.ElementsOf.yields {bs : Bytes} {raws : List RawElement} (h : ElementsOf bs raws) :
    Yields readRawElement (.new bs) raws := by
  induction h with
  | stop h =>
    obtain ⟨e, he⟩ := readRawElement_noElement h
    exact .done (it' := ⟨none⟩) (by simp [ReadIterator.next, ReadIterator.new, he])
  | @elem e rest l hl h t ih =>
    refine .more (it' := .new rest) ?_ ih
    simp only [ReadIterator.next, ReadIterator.new,
      readRawElement_tlv e rest hl (slack_of_not_noElement h)]
    rw [if_pos (by simp)]
    simp

theorem Spec.ElementsOf.unique {bs : Bytes} {l l' : List RawElement} (h : ElementsOf bs l)
    (h' : ElementsOf bs l') : l = l' := h.yields.unique h'.yields

theorem Spec.ElementsOf.flat {bs : Bytes} {raws : List RawElement} (h : ElementsOf bs raws) :
    (∀ e ∈ raws, e.slice.length ≤ 255) ∧ ∃ tail, bs = raws.flatMap tlv ++ tail ∧ NoElement tail := by
  induction h with
  | @stop bs h => exact ⟨by simp, bs, by simp, h⟩
  | @elem e rest l hl h t ih =>
    obtain ⟨ha, tail, rfl, hn⟩ := ih
    refine ⟨?_, tail, by simp, hn⟩
    intro e' he'
    rcases List.mem_cons.1 he' with rfl | he'
    · exact hl
    · exact ha e' he'

theorem Spec.ElementsOf.length_le {bs : Bytes} {raws : List RawElement} (h : ElementsOf bs raws) :
    2 * raws.length ≤ bs.length := by
  induction h with
  | stop h => simp
  | @elem e rest l hl h t ih =>
    have := tlv_length e
    simp only [List.length_cons, List.length_append]; omega

/-- The elements of concatenated raw elements. -/
theorem elementsOf_flatMap (raws : List RawElement) (hall : ∀ e ∈ raws, e.slice.length ≤ 255)
    (hs : ∀ e, raws.getLast? = some e → slack ≤ e.slice.length) :
    ElementsOf (raws.flatMap tlv) raws := by
  induction raws with
  | nil => exact .stop (.short _ (by simp))
  | cons e raws ih =>
    rw [List.flatMap_cons]
    refine .elem e (hall e (by simp)) (not_noElement (hall e (by simp)) ?_)
      (ih (fun e' he' => hall e' (List.mem_cons_of_mem _ he')) ?_)
    · cases raws with
      | nil => have := hs e (by simp); omega
      | cons b bs =>
        have h1 := slack_le
        have h2 := tlv_length b
        simp; omega
    · intro e' he'
      apply hs
      cases raws with
      | nil => simp at he'
      | cons b bs => simpa using he'

/-! ## Iteration with a bound -/

section Iter
variable {α β : Type}

theorem collect_of_yields {r : Reader α} {it : ReadIterator} {l : List α} (h : Yields r it l) :
    ∀ k, l.length < k → it.collect r k = .ok l := by
  induction h with
  | done h =>
    intro k hk
    cases k with
    | zero => simp at hk
    | succ k => simp [ReadIterator.collect, h]
  | more h t ih =>
    intro k hk
    cases k with
    | zero => simp at hk
    | succ k =>
      simp only [List.length_cons] at hk
      simp [ReadIterator.collect, h, ih k (by omega)]

/-- `filter_map` over a list, stopping at the first panic. -/
def filterMapRes (f : α → Res (Option β)) : List α → Res (List β)
  | [] => .ok []
  | a :: l => do
    let b ← f a
    let rest ← filterMapRes f l
    pure (b.toList ++ rest)

/-- First accepted item of a list. -/
def findRes (f : α → Res (Option β)) : List α → Res (Option β)
  | [] => .ok none
  | a :: l => do
    match ← f a with
    | some b => pure (some b)
    | none => findRes f l

theorem collectMap_of_yields {r : Reader α} {f : α → Res (Option β)} {it : ReadIterator}
    {l : List α} (h : Yields r it l) :
    ∀ k, l.length < k → it.collectMap r f k = filterMapRes f l := by
  induction h with
  | done h =>
    intro k hk
    cases k with
    | zero => simp at hk
    | succ k => simp [ReadIterator.collectMap, h, filterMapRes]
  | @more it it' a l h t ih =>
    intro k hk
    cases k with
    | zero => simp at hk
    | succ k =>
      simp only [List.length_cons] at hk
      simp only [ReadIterator.collectMap, h, Res.ok_bind, filterMapRes, ih k (by omega)]

theorem findMap_of_yields {r : Reader α} {f : α → Res (Option β)} {it : ReadIterator}
    {l : List α} (h : Yields r it l) :
    ∀ k, l.length < k → (it.findMap r f k).map Prod.fst = findRes f l := by
  induction h with
  | done h =>
    intro k hk
    cases k with
    | zero => simp at hk
    | succ k => simp [ReadIterator.findMap, h, findRes, Res.map]
  | @more it it' a l h t ih =>
    intro k hk
    cases k with
    | zero => simp at hk
    | succ k =>
      simp only [List.length_cons] at hk
      have ih' := ih k (by omega)
      simp only [ReadIterator.findMap, h, Res.ok_bind, findRes, ← ih']
      cases f a with
      | ok o => cases o <;> rfl
      | err e => rfl
      | panic => rfl

end Iter

/-! ## Matching -/

theorem pread0 {α : Type} (r : Reader α) (inp : Bytes) :
    pread r 0 inp = if inp.length < slack then .err .badOffset else (r inp).map Prod.fst := by
  simp only [pread, Rd.gread, badOff_eq, Nat.zero_add, List.drop_zero]
  by_cases h : inp.length < slack
  · simp [h, Res.map]
  · simp only [h, decide_false, if_false]
    cases r inp with
    | ok p => rfl
    | err e => rfl
    | panic => rfl

theorem pread_ext_cons (x : Byte) (p : Bytes) :
    pread readRawExtElement 0 (x :: p) = .ok ⟨x, p⟩ := by
  have h1 := slack_le
  have h : readRawExtElement (x :: p) = .ok (⟨x, p⟩, 1 + 0) := by
    refine RdAt.run (RdAt.u8 ?_)
    exact RdAt.bind0 RdAt.remaining RdAt.pure
  rw [pread0, if_neg (by simp; omega), h]; rfl

theorem pread_ext_nil : ∃ e, pread readRawExtElement 0 [] = .err e := by
  rw [pread0]
  split
  · exact ⟨_, rfl⟩
  · obtain ⟨e, he⟩ : ∃ e, readRawExtElement [] = .err e :=
      RdErr.run (RdErr.bind_left (RdErr.gread (e := .tooBig) rfl))
    exact ⟨e, by rw [he]; rfl⟩

theorem pread_vendor (p : Bytes) :
    pread readVendorSpecificElement 0 p = if p.length < slack then .err .badOffset else .ok p := by
  rw [pread0]; rfl

/-- The matching test decides `HasId`, except for an empty vendor prefix on empty contents. -/
theorem elementIdMatches_iff (raw : RawElement) (id : ElementID)
    (hv : ∀ pfx, id = .VendorSpecific pfx → pfx ≠ []) :
    ∃ b, elementIdMatches raw id = .ok b ∧ (b = true ↔ HasId raw id) := by
  cases id with
  | Id i => exact ⟨_, rfl, by rw [beq_iff_eq]; exact eq_comm⟩
  | ExtId x =>
    simp only [elementIdMatches, HasId]
    by_cases ht : raw.tlv_type = 0xff
    · rw [if_pos ht]
      obtain ⟨t, s⟩ := raw
      cases s with
      | nil =>
        obtain ⟨e, he⟩ := pread_ext_nil
        exact ⟨false, by simp [he, Res.toOption], by simp⟩
      | cons y p =>
        exact ⟨x == y, by simp [pread_ext_cons, Res.toOption], by
          simp only at ht
          simp only [beq_iff_eq, ht, List.cons.injEq, exists_and_left, exists_eq', and_true]
          exact ⟨fun h => ⟨trivial, h.symm⟩, fun h => h.2.symm⟩⟩
    · rw [if_neg ht]
      exact ⟨false, rfl, by simp only [Bool.false_eq_true, false_iff]; exact fun h => ht h.1⟩
  | VendorSpecific pfx =>
    simp only [elementIdMatches, HasId]
    by_cases ht : raw.tlv_type = 0xdd
    · rw [if_pos ht, pread_vendor]
      by_cases hs : raw.slice.length < slack
      · rw [if_pos hs]
        have h1 := slack_le
        have h2 : raw.slice = [] := List.eq_nil_of_length_eq_zero (by omega)
        have h3 := hv pfx rfl
        exact ⟨false, rfl, by simp [h2, h3]⟩
      · rw [if_neg hs]
        refine ⟨pfx.isPrefixOf raw.slice, rfl, ?_⟩
        rw [List.isPrefixOf_iff_prefix]
        constructor
        · rintro ⟨p, hp⟩; exact ⟨ht, p, hp.symm⟩
        · rintro ⟨_, p, hp⟩; exact ⟨p, hp.symm⟩
    · rw [if_neg ht]
      exact ⟨false, rfl, by simp only [Bool.false_eq_true, false_iff]; exact fun h => ht h.1⟩

omit [ScrollRule] in
theorem contents_iff (id : ElementID) (e : RawElement) (p : Bytes) :
    contents id e = some p ↔ e = rawOf id p := by
  obtain ⟨t, s⟩ := e
  cases id with
  | Id i =>
    simp only [contents, rawOf]
    by_cases h : t = i
    · simp [h]
    · simp [h]
  | ExtId x =>
    simp only [contents, rawOf]
    by_cases h : t = 255
    · subst h
      cases s with
      | nil => simp
      | cons y q =>
        by_cases h : y = x
        · simp [h]
        · simp [h]
    · simp only [h, if_false]
      simp only [reduceCtorEq, false_iff]
      intro he; cases he; exact h rfl
  | VendorSpecific pfx =>
    simp only [contents, rawOf]
    constructor
    · intro h
      split at h
      · rename_i h1
        obtain ⟨rfl, h2⟩ := h1
        cases h
        congr 1
        conv => lhs; rw [← List.take_append_drop pfx.length s, h2]
      · cases h
    · intro h
      cases h
      simp

omit [ScrollRule] in
theorem contents_isSome (id : ElementID) (e : RawElement) :
    (contents id e).isSome = true ↔ HasId e id := by
  rw [Option.isSome_iff_exists]
  simp only [contents_iff]
  obtain ⟨t, s⟩ := e
  cases id with
  | Id i =>
    exact ⟨fun ⟨p, h⟩ => by cases h; rfl, fun h => ⟨s, by cases h; rfl⟩⟩
  | ExtId x =>
    exact ⟨fun ⟨p, h⟩ => by cases h; exact ⟨rfl, p, rfl⟩, fun ⟨h, p, h2⟩ => ⟨p, by
      cases h; cases h2; rfl⟩⟩
  | VendorSpecific pfx =>
    exact ⟨fun ⟨p, h⟩ => by cases h; exact ⟨rfl, p, rfl⟩, fun ⟨h, p, h2⟩ => ⟨p, by
      cases h; cases h2; rfl⟩⟩

theorem filterMapRes_ok {α β : Type} {f : α → Res (Option β)} {g : α → Option β}
    (h : ∀ a, f a = .ok (g a)) (l : List α) : filterMapRes f l = .ok (l.filterMap g) := by
  induction l with
  | nil => rfl
  | cons a l ih =>
    simp only [filterMapRes, h, ih, Res.ok_bind, Res.pure_eq]
    cases hg : g a <;> simp [hg]

theorem findRes_ok {α β : Type} {f : α → Res (Option β)} {g : α → Option β}
    (h : ∀ a, f a = .ok (g a)) (l : List α) : findRes f l = .ok (l.filterMap g).head? := by
  induction l with
  | nil => rfl
  | cons a l ih =>
    simp only [findRes, h, ih, Res.ok_bind, Res.pure_eq]
    cases hg : g a <;> simp [hg]

theorem elementIdMatches_contents (raw : RawElement) (id : ElementID)
    (hv : id ≠ .VendorSpecific []) :
    elementIdMatches raw id = .ok (contents id raw).isSome := by
  obtain ⟨b, hb, hi⟩ := elementIdMatches_iff raw id (by rintro pfx rfl rfl; exact hv rfl)
  rw [hb, Bool.eq_iff_iff.2 (hi.trans (contents_isSome id raw).symm)]

theorem matchRaw_eq (id : ElementID) (hv : id ≠ .VendorSpecific []) (raw : RawElement) :
    matchRaw id raw = .ok (if (contents id raw).isSome then some raw else none) := by
  simp [matchRaw, elementIdMatches_contents raw id hv]

theorem pread_parsed {α : Type} (k : ElementKind α) (hs : ∀ p, k.read p ≠ .panic) (p : Bytes) :
    (pread k.read 0 p).toOption = .ok (parsed k p) := by
  rw [pread0]
  simp only [parsed]
  by_cases h : p.length < slack
  · simp [h]
  · simp only [h, if_false]
    cases hr : k.read p with
    | ok a => obtain ⟨a, n⟩ := a; rfl
    | err e => rfl
    | panic => exact absurd hr (hs p)

theorem matchTyped_eq {α : Type} (k : ElementKind α) (hv : k.id ≠ .VendorSpecific [])
    (hs : ∀ p, k.read p ≠ .panic) (raw : RawElement) :
    matchTyped k raw = .ok ((contents k.id raw).bind (parsed k)) := by
  simp only [matchTyped, elementIdMatches_contents raw k.id hv, Res.ok_bind, Res.pure_eq]
  cases hc : contents k.id raw with
  | none => simp
  | some p =>
    simp only [Option.isSome_some, if_true, Option.bind_some]
    have he := (contents_iff k.id raw p).1 hc
    subst he
    obtain ⟨id, r⟩ := k
    cases id with
    | Id i => simpa [parseRawElement, rawOf] using pread_parsed ⟨.Id i, r⟩ hs p
    | ExtId x =>
      simpa [parseRawElement, rawOf, pread_ext_cons] using pread_parsed ⟨.ExtId x, r⟩ hs p
    | VendorSpecific pfx =>
      have h1 := slack_le
      have h2 : pfx ≠ [] := by rintro rfl; exact hv rfl
      have h3 : 0 < pfx.length := List.length_pos_iff.2 h2
      simpa [parseRawElement, rawOf, pread_vendor, show ¬ pfx.length + p.length < slack by omega]
        using pread_parsed ⟨.VendorSpecific pfx, r⟩ hs p

/-! ## Chains with an over-long element -/

theorem writeWrapped_refuses (e : Elem) (h : 255 + 2 < e.wrappedMeasure) :
    Refuses e.writeWrapped := by
  obtain ⟨id, o⟩ := e
  cases id with
  | Id i =>
    exact (writeTLV_refuses i o (by
      simp [Elem.wrappedMeasure, ElementID.elementHeaderLength] at h; omega)).pwrite0
  | ExtId x =>
    exact (writeTLV_refuses _ (typedExtElement x o) (by
      simp [Elem.wrappedMeasure, ElementID.elementHeaderLength] at h
      simp [typedExtElement]; omega)).pwrite0
  | VendorSpecific pfx =>
    exact (writeTLV_refuses _ (vendorSpecificElement (prefixedVendorPayload pfx o)) (by
      simp [Elem.wrappedMeasure, ElementID.elementHeaderLength] at h
      simp [vendorSpecificElement, prefixedVendorPayload]; omega)).pwrite0

theorem Spec.Overlong.refuses {i : ChainItem} (h : Overlong i) :
    Refuses (match i with | .typed e => e.writeWrapped | .raw e => writeRawElement e) := by
  cases i with
  | typed e => exact writeWrapped_refuses e h
  | raw e => exact writeTLV_refuses _ _ h

theorem Refuses.gwrite_left {w : Writer} {α : Type} {q : Unit → Wr α} (h : Refuses w) (buf : Bytes)
    (off : Nat) : ∃ e, (Wr.gwrite w >>= q) buf off = .err e := by
  show ∃ e, Wr.bind (Wr.gwrite w) q buf off = .err e
  simp only [Wr.bind, Wr.gwrite]
  obtain ⟨e, he⟩ := h (buf.drop off)
  by_cases hb : badOff off buf.length
  · exact ⟨.badOffset, by simp [hb]⟩
  · exact ⟨e, by simp [hb, he]⟩

theorem Refuses.seq_left {w v : Writer} (h : Refuses w) :
    Refuses (Wr.run do Wr.gwrite w; Wr.gwrite v) := by
  intro buf
  obtain ⟨e, he⟩ := h.gwrite_left (q := fun _ => Wr.gwrite v) buf 0
  exact ⟨e, by simp only [Wr.run, he]⟩

theorem Refuses.seq_right {w v : Writer} {bs : Bytes} {n : Nat} (hw : Emits w bs n)
    (h : Refuses v) : Refuses (Wr.run do Wr.gwrite w; Wr.gwrite v) := by
  intro buf
  have h1 := WEmits.gwrite hw
  by_cases hb : max n slack ≤ buf.length
  · have h2 := h1.ok [] buf hb
    obtain ⟨e, he⟩ := h.gwrite_left (q := fun _ => pure ()) (bs ++ buf.drop bs.length) bs.length
    have h3 : ∃ e, Wr.gwrite v (bs ++ buf.drop bs.length) bs.length = .err e := by
      simp only [Wr.gwrite]
      obtain ⟨e, he⟩ := h ((bs ++ buf.drop bs.length).drop bs.length)
      by_cases hb : badOff bs.length (bs ++ buf.drop bs.length).length
      · exact ⟨.badOffset, by simp only [hb, if_true]⟩
      · exact ⟨e, by simp only [hb, he]; rfl⟩
    obtain ⟨e, he⟩ := h3
    refine ⟨e, ?_⟩
    simp only [List.nil_append, List.length_nil, Nat.zero_add] at h2
    show (match Wr.bind (Wr.gwrite w) (fun _ => Wr.gwrite v) buf 0 with
      | .ok (_, b, o) => Res.ok (b, o) | .err e => .err e | .panic => .panic) = _
    simp only [Wr.bind, h2, he]
  · obtain ⟨e, he⟩ := h1.err [] buf (by omega)
    refine ⟨e, ?_⟩
    simp only [List.nil_append, List.length_nil] at he
    show (match Wr.bind (Wr.gwrite w) (fun _ => Wr.gwrite v) buf 0 with
      | .ok (_, b, o) => Res.ok (b, o) | .err e => .err e | .panic => .panic) = _
    simp only [Wr.bind, he]

theorem Spec.BadChain.refuses {c : Chain} (h : BadChain c) : Refuses c.write := by
  induction h with
  | @last i h => cases i <;> exact h.refuses.pwrite0
  | @here i c h => cases i <;> exact h.refuses.seq_left
  | @later i e x c h t ih => cases i <;> exact Refuses.seq_right h.emits ih

end Verif
