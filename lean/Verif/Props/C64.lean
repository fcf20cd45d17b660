import Verif.Basic.Inversion
import Verif.Model.Hash
import Verif.Props.C18
import Verif.Props.C55
/-!
# C64: values that compare equal have the same hash

The contract of `core::hash::Hash`, for the types of the crate whose `PartialEq` is written by hand and whose
`Hash` is derived.
-/
namespace Verif

namespace Spec

/-- Any hasher: some state, a step for each call and a result. -/
structure Hasher where
  State : Type
  init : State
  step : State → HashWrite → State
  finish : State → BitVec 64

/-- The hash of a value. -/
def Hasher.run (h : Hasher) (f : Feed) : BitVec 64 := h.finish (f.foldl h.step h.init)

/-- Two values have the same hash, whichever hasher is used. -/
def SameHash (a b : Feed) : Prop := ∀ h : Hasher, h.run a = h.run b

/-- The bytes of a received list are made up of items of `n` bytes, with nothing left over. -/
def WholeItems (n : Nat) : Option ReadIterator → Prop
  | none => True
  | some it => ∃ bytes, it.bytes = some bytes ∧ bytes.length % n = 0

/-- All maps are received ones. -/
def SliceMap (e : TIMElement) : Prop :=
  ∀ b bits, e.bitmap = some b → b.partial_virtual_bitmap = some bits → ∃ bytes, bits = .slice bytes

/-- The map is absent or was made by `new_static` from AIDs. -/
def StaticMap (e : TIMElement) : Prop :=
  ∀ b, e.bitmap = some b → ∃ m aids,
    (∀ a ∈ aids, 1 ≤ a.aid.toNat ∧ a.aid.toNat ≤ 2007) ∧ TIMBitmap.newStatic m aids = .ok b

/-- The map is absent or was made by `tim_bitmap!`. -/
def MacroMap (e : TIMElement) : Prop :=
  ∀ b, e.bitmap = some b →
    b = timMulticast ∨ (∃ aids, timListing aids = .ok b) ∨ ∃ lo hi, timRange lo hi = .ok b

/-- What is handed over for a value tells the value, whatever is handed over after it. -/
def PrefixCode {α : Type} (h : α → Feed) : Prop := ∀ a b x y, h a ++ x = h b ++ y → a = b ∧ x = y

end Spec

open Spec

/-- No hasher tells two values apart exactly if the same calls are made for both. -/
theorem c64_feed (a b : Feed) : SameHash a b ↔ a = b := by
  constructor
  · intro h
    have key : ∀ (f acc : Feed), f.foldl (fun s w => s ++ [w]) acc = acc ++ f := by
      intro f
      induction f with
      | nil => simp
      | cons w f ih => intro acc; simp [ih]
    have := h ⟨Feed, [], fun s w => s ++ [w], fun s => if s = a then 1 else 0⟩
    simp only [Hasher.run, key, List.nil_append, if_true] at this
    by_cases hn : b = a
    · exact hn.symm
    · rw [if_neg hn] at this
      exact absurd this (by decide)
  · rintro rfl _; rfl

/-! ## Rates -/

/-- Supported rates and extended supported rates in arrays or slices: equal ones have the same hash. -/
theorem c64_rates (h : EncodedRate → Feed) (l l' : List EncodedRate)
    (heq : ratesEq listContainer listContainer l l' = .ok true) :
    SameHash (ratesHash (hashSlice h) l) (ratesHash (hashSlice h) l') := by
  unfold ratesEq at heq
  rw [Container.eq_holds list_lawful ((holds_list l l).2 rfl) ((holds_list l' l').2 rfl)] at heq
  simp only [Res.ok.injEq, decide_eq_true_eq] at heq
  subst heq
  exact (c64_feed _ _).2 rfl

example : ratesEq listContainer listContainer [⟨0x82⟩, ⟨0x84⟩] [⟨0x82⟩, ⟨0x84⟩] = .ok true ∧
    ratesHash (hashSlice fun r : EncodedRate => [.u8 r.bits]) [⟨0x82⟩, ⟨0x84⟩] = [.usize 2, .u8 0x82, .u8 0x84] := by decide

/-! ## RSN elements -/

section
variable (hc : IEEE80211CipherSuiteSelector → Feed) (hr : RsnCapabilities → Feed)

/-- RSN elements over arrays or slices: equal ones have the same hash. -/
theorem c64_rsn_lists (ha : IEEE80211AkmType → Feed) (hm : Arr 16 → Feed) (e e' : RsnElement.OfLists)
    (heq : RsnElement.eq listContainer listContainer listContainer listContainer listContainer listContainer
      e e' = .ok true) :
    SameHash (e.hash hc hr (hashSlice hc) (hashSlice ha) (hashSlice hm))
      (e'.hash hc hr (hashSlice hc) (hashSlice ha) (hashSlice hm)) := by
  rw [c55_rsn_lists] at heq
  simp only [Res.ok.injEq, decide_eq_true_eq] at heq
  subst heq
  exact (c64_feed _ _).2 rfl

theorem whole_of_yields {α : Type} {r : Reader α} {n : Nat} (hf : FixedReader r n)
    (enc : α → Bytes) (he : ∀ inp x m, r inp = .ok (x, m) → enc x = inp.take n) (l : List α) :
    ∀ bytes : Bytes, bytes.length % n = 0 → Yields r ⟨some bytes⟩ l → bytes = l.flatMap enc := by
  induction l with
  | nil =>
    intro bytes hl hy
    cases hy with
    | done h =>
      by_cases hle : n ≤ bytes.length
      · obtain ⟨a, ha⟩ := (hf bytes).1 hle
        simp [ReadIterator.next, ha, hle] at h
      · have h0 : bytes.length = 0 := by rw [Nat.mod_eq_of_lt (by omega)] at hl; exact hl
        simpa using h0
  | cons a l ih =>
    intro bytes hl hy
    cases hy with
    | more h t =>
      by_cases hle : n ≤ bytes.length
      · obtain ⟨x, hx⟩ := (hf bytes).1 hle
        simp only [ReadIterator.next, hx, if_pos hle, Res.ok.injEq, Prod.mk.injEq, Option.some.injEq] at h
        obtain ⟨rfl, rfl⟩ := h
        have := ih (bytes.drop n) (by rw [List.length_drop, ← Nat.mod_eq_sub_mod hle]; exact hl) t
        rw [List.flatMap_cons, he _ _ _ hx, ← this, List.take_append_drop]
      · obtain ⟨e, hx⟩ := (hf bytes).2 (by omega)
        simp [ReadIterator.next, hx] at h

/-- Lists without left over bytes that have the same items are the same bytes. -/
theorem whole_same {α : Type} {r : Reader α} {n : Nat} (hf : FixedReader r n)
    (enc : α → Bytes) (he : ∀ inp x m, r inp = .ok (x, m) → enc x = inp.take n)
    {a b : Option ReadIterator} {l : Option (List α)} (ha : WholeItems n a) (hb : WholeItems n b)
    (h1 : SameList r a l) (h2 : SameList r b l) : a = b := by
  rcases a with _ | a <;> rcases b with _ | b <;> rcases l with _ | l <;> simp only [SameList] at h1 h2
  · rfl
  · obtain ⟨x, hx', hx⟩ := ha
    obtain ⟨y, hy', hy⟩ := hb
    obtain ⟨a⟩ := a
    obtain ⟨b⟩ := b
    dsimp only at hx' hy'
    subst hx' hy'
    rw [whole_of_yields hf enc he l x hx h1, whole_of_yields hf enc he l y hy h2]

variable [ScrollRule]

omit [ScrollRule] in
theorem suite_take {α : Type} {r : Reader α} {f : BitVec 32 → α} {g : α → BitVec 32}
    (hfg : ∀ v, g (f v) = v) (hf : FixedReader r 4) (hr : ∀ v rest, r (toLE v ++ rest) = .ok (f v, 4))
    (inp : Bytes) (x : α) (m : Nat) (h : r inp = .ok (x, m)) : toLE (g x) = inp.take 4 := by
  by_cases hl : 4 ≤ inp.length
  · have hd : inp = toLE (fromLE 32 (inp.take 4)) ++ inp.drop 4 := by
      rw [toLE_fromLE rfl _ (by simp; omega), List.take_append_drop]
    have h2 := hr (fromLE 32 (inp.take 4)) (inp.drop 4)
    rw [← hd, h] at h2
    simp only [Res.ok.injEq, Prod.mk.injEq] at h2
    rw [h2.1, hfg, toLE_fromLE rfl _ (by simp; omega)]
  · obtain ⟨e, he⟩ := (hf inp).2 (by omega)
    rw [he] at h; cases h

/-- Received RSN elements without left over bytes in their lists: equal ones have the same hash. -/
theorem rsn_whole (q q' : RsnElement.Parsed) (heq : RsnElement.parsedEqParsed q q' = .ok true)
    (h1 : WholeItems 4 q.pairwise_cipher_suite_list) (h2 : WholeItems 4 q.akm_list)
    (h3 : WholeItems 16 q.pmkid_list) (h1' : WholeItems 4 q'.pairwise_cipher_suite_list)
    (h2' : WholeItems 4 q'.akm_list) (h3' : WholeItems 16 q'.pmkid_list) : q = q' := by
  obtain ⟨e, ⟨a1, a2, a3, a4, a5, a6⟩, ⟨b1, b2, b3, b4, b5, b6⟩⟩ := (c55_rsn_parsed_parsed q q').1 heq
  have e2 := whole_same readCipherSuite_fixed (fun c => toLE c.cipherSuiteSelector)
    (suite_take c18_cipher_codes.lossless readCipherSuite_fixed readCipherSuite_toLE) h1 h1' a2 b2
  have e3 := whole_same readAkm_fixed (fun c => toLE c.cipherSuiteSelector)
    (suite_take c18_akm_codes.lossless readAkm_fixed readAkm_toLE) h2 h2' a3 b3
  have e5 := whole_same (readArr_fixed 16) (fun c => c.val) (fun inp x m h => by
    obtain ⟨bs, rest, rfl, -, rfl⟩ := readArr_parses 16 inp x m h
    simp) h3 h3' a5 b5
  obtain ⟨g, p, a, c, m, k⟩ := q
  obtain ⟨g', p', a', c', m', k'⟩ := q'
  simp only at a1 a4 a6 b1 b4 b6 e2 e3 e5
  rw [a1, a4, a6, b1, b4, b6, e2, e3, e5]

/-- What holds of every result. -/
private def Post {α : Type} (p : Rd α) (Q : α → Prop) : Prop :=
  ∀ inp off a off', p inp off = .ok (a, off') → Q a

omit [ScrollRule] in
private theorem Post.bind {α β : Type} {p : Rd α} {f : α → Rd β} {Q : α → Prop} {R : β → Prop}
    (h1 : Post p Q) (h2 : ∀ a, Q a → Post (f a) R) : Post (p >>= f) R := by
  intro inp off b off' h
  change Rd.bind p f inp off = _ at h
  unfold Rd.bind at h
  split at h
  · rename_i a o ha
    exact h2 a (h1 _ _ _ _ ha) _ _ _ _ h
  · cases h
  · cases h

omit [ScrollRule] in
private theorem Post.any {α : Type} (p : Rd α) : Post p fun _ => True := fun _ _ _ _ _ => trivial

omit [ScrollRule] in
private theorem Post.pure {α : Type} {a : α} {Q : α → Prop} (h : Q a) : Post (Pure.pure a : Rd α) Q := by
  intro inp off b off' hb
  cases hb
  exact h

private theorem readRsnList_post : Post readRsnList (WholeItems 4) := by
  unfold readRsnList
  refine Post.bind (Post.any _) fun o _ => ?_
  cases o with
  | none => exact Post.pure trivial
  | some len =>
    refine Post.bind (Q := fun o => ∀ l, o = some l → l.length = len.toNat * 4) ?_ fun o ho => ?_
    · intro inp off a off' h l hl
      subst hl
      simp only [Rd.greadOk] at h
      split at h
      · rename_i x o hx
        simp only [Res.ok.injEq, Prod.mk.injEq, Option.some.injEq] at h
        obtain ⟨rfl, -⟩ := h
        simp only [Rd.gread, readBytes] at hx
        split at hx
        · cases hx
        · split at hx
          · rename_i hr
            split at hr
            · cases hr; cases hx
              rw [List.length_take]; omega
            · cases hr
          · cases hx
          · cases hx
      · cases h
      · cases h
    · cases o with
      | none => exact Post.pure trivial
      | some l => exact Post.pure ⟨l, rfl, by rw [ho l rfl]; omega⟩

theorem readRsn_whole (inp : Bytes) (q : RsnElement.Parsed) (n : Nat) (h : readRsn inp = .ok (q, n)) :
    WholeItems 4 q.pairwise_cipher_suite_list ∧ WholeItems 4 q.akm_list := by
  have : Post readRsnBody fun q => WholeItems 4 q.pairwise_cipher_suite_list ∧ WholeItems 4 q.akm_list := by
    unfold readRsnBody
    refine Post.bind (Post.any _) fun o _ => ?_
    rcases o with _ | g
    · exact Post.pure ⟨trivial, trivial⟩
    refine Post.bind readRsnList_post fun p hp => ?_
    rcases p with _ | p
    · exact Post.pure ⟨trivial, trivial⟩
    refine Post.bind readRsnList_post fun a ha => ?_
    rcases a with _ | a
    · exact Post.pure ⟨hp, trivial⟩
    refine Post.bind (Post.any _) fun c _ => ?_
    rcases c with _ | c
    · exact Post.pure ⟨hp, ha⟩
    refine Post.bind (Post.any _) fun m _ => ?_
    rcases m with _ | m
    · exact Post.pure ⟨hp, ha⟩
    refine Post.bind (Post.any _) fun k _ => ?_
    rcases k with _ | k
    · exact Post.pure ⟨hp, ha⟩
    · exact Post.pure ⟨hp, ha⟩
  have h2 : Post (do let v ← Rd.gread (readLE 16); if v ≠ 1 then Rd.fail .badInput else readRsnBody)
      fun q => WholeItems 4 q.pairwise_cipher_suite_list ∧ WholeItems 4 q.akm_list := by
    refine Post.bind (Post.any _) fun v _ => ?_
    split
    · intro _ _ _ _ h; cases h
    · exact this
  exact h2 _ _ _ _ h

/-- Received RSN elements whose PMKID lists, if there are any, are made up of whole PMKIDs: equal ones have the
same hash.  (Partial: without that condition, `c64_rsn_wrong`.) -/
theorem c64_rsn_partial (inp inp' : Bytes) (q q' : RsnElement.Parsed) (n n' : Nat)
    (h : readRsn inp = .ok (q, n)) (h' : readRsn inp' = .ok (q', n'))
    (hw : WholeItems 16 q.pmkid_list) (hw' : WholeItems 16 q'.pmkid_list)
    (heq : RsnElement.parsedEqParsed q q' = .ok true) :
    SameHash (q.hash hc hr ReadIterator.hash ReadIterator.hash ReadIterator.hash)
      (q'.hash hc hr ReadIterator.hash ReadIterator.hash ReadIterator.hash) := by
  obtain ⟨h1, h2⟩ := readRsn_whole _ _ _ h
  obtain ⟨h1', h2'⟩ := readRsn_whole _ _ _ h'
  rw [rsn_whole q q' heq h1 h2 hw h1' h2' hw']
  exact (c64_feed _ _).2 rfl

omit [ScrollRule] in
/-- Violation: two received RSN elements compare equal and have different hashes, whatever the hashes of their
parts: the bytes at the end of a PMKID list that do not make up a PMKID are hashed and not compared.  (`RsnElement`
has `PartialEq` and `Hash`, but not `Eq`.) -/
theorem c64_rsn_wrong (s : Bool) : letI : ScrollRule := ⟨s⟩
    ∃ q q' : RsnElement.Parsed,
      readRsn ([1, 0] ++ toLE IEEE80211CipherSuiteSelector.Ccmp128.cipherSuiteSelector ++
        [0, 0, 0, 0, 0, 0, 1, 0, 7, 7, 7, 7]) = .ok (q, 18) ∧
      readRsn ([1, 0] ++ toLE IEEE80211CipherSuiteSelector.Ccmp128.cipherSuiteSelector ++
        [0, 0, 0, 0, 0, 0, 1, 0, 8, 8, 8, 8]) = .ok (q', 18) ∧
      RsnElement.parsedEqParsed q q' = .ok true ∧
      ¬ SameHash (q.hash hc hr ReadIterator.hash ReadIterator.hash ReadIterator.hash)
        (q'.hash hc hr ReadIterator.hash ReadIterator.hash ReadIterator.hash) := by
  refine ⟨⟨some .Ccmp128, some (.new []), some (.new []), some ⟨0⟩, some (.new [7, 7, 7, 7]), none⟩,
    ⟨some .Ccmp128, some (.new []), some (.new []), some ⟨0⟩, some (.new [8, 8, 8, 8]), none⟩, ?_⟩
  refine ⟨by cases s <;> decide +kernel, by cases s <;> decide +kernel, by cases s <;> decide +kernel, ?_⟩
  rw [c64_feed]
  simp [RsnElement.hash, hashOption, ReadIterator.hash, ReadIterator.new, hashBytes]

/-- Two received elements with a PMKID each. -/
example (s : Bool) : letI : ScrollRule := ⟨s⟩
    ∃ q : RsnElement.Parsed,
      readRsn ([1, 0] ++ toLE IEEE80211CipherSuiteSelector.Ccmp128.cipherSuiteSelector ++
        [0, 0, 0, 0, 0, 0, 4, 0, 1, 2, 3, 4, 5, 6, 7, 8, 9, 10, 11, 12, 13, 14, 15, 16]) = .ok (q, 30) ∧
      q.pmkid_list = some (.new [1, 2, 3, 4, 5, 6, 7, 8, 9, 10, 11, 12, 13, 14, 15, 16]) ∧
      RsnElement.parsedEqParsed q q = .ok true := by
  refine ⟨⟨some .Ccmp128, some (.new []), some (.new []), some ⟨0⟩,
    some (.new [1, 2, 3, 4, 5, 6, 7, 8, 9, 10, 11, 12, 13, 14, 15, 16]), none⟩, ?_⟩
  cases s <;> decide +kernel

end

/-! ## TIM elements -/

/-- Equality of TIM elements, down to the bytes of the maps. -/
theorem timEq_maps {e e' : TIMElement} (h : e.eq e' = .ok true)
    (hb : ∀ b b' bits bits' bytes, e.bitmap = some b → e'.bitmap = some b' →
      b.bitmap_control = b'.bitmap_control → b.partial_virtual_bitmap = some bits →
      b'.partial_virtual_bitmap = some bits' → bits.asBytes = .ok bytes → bits'.asBytes = .ok bytes →
      bits = bits') : e = e' := by
  obtain ⟨h1, h2, m, h3, h4⟩ := (c55_tim_true e e').1 h
  obtain ⟨c, p, b⟩ := e
  obtain ⟨c', p', b'⟩ := e'
  dsimp only at h1 h2
  subst h1 h2
  unfold TimMap at h3 h4
  dsimp only at h3 h4
  rcases b with _ | ⟨k, v⟩ <;> rcases b' with _ | ⟨k', v'⟩ <;> rcases m with _ | ⟨km, _ | bytes⟩ <;>
    dsimp only at h3 h4 <;> try exact absurd h3 id
  all_goals try exact absurd h4 id
  · rfl
  · obtain ⟨rfl, rfl⟩ := h3
    obtain ⟨rfl, rfl⟩ := h4
    rfl
  · obtain ⟨rfl, bits, rfl, h5⟩ := h3
    obtain ⟨rfl, bits', rfl, h6⟩ := h4
    rw [hb _ _ bits bits' bytes rfl rfl rfl rfl rfl h5 h6]

/-- Received TIM elements: equal ones have the same hash. -/
theorem c64_tim_received (e e' : TIMElement) (h : SliceMap e) (h' : SliceMap e') (heq : e.eq e' = .ok true) :
    SameHash e.hash e'.hash := by
  rw [timEq_maps heq]
  · exact (c64_feed _ _).2 rfl
  intro b b' bits bits' bytes hb hb' _ hp hp' ha ha'
  obtain ⟨x, rfl⟩ := h b bits hb hp
  obtain ⟨y, rfl⟩ := h' b' bits' hb' hp'
  cases ha; cases ha'; rfl

/-- TIM elements with maps made by `new_static`: equal ones have the same hash. -/
theorem c64_tim_static (e e' : TIMElement) (h : StaticMap e) (h' : StaticMap e') (heq : e.eq e' = .ok true) :
    SameHash e.hash e'.hash := by
  rw [timEq_maps heq]
  · exact (c64_feed _ _).2 rfl
  intro b b' bits bits' bytes hb hb' _ hp hp' ha ha'
  have key : ∀ e : TIMElement, StaticMap e → ∀ b, e.bitmap = some b → ∀ bits,
      b.partial_virtual_bitmap = some bits → bits.asBytes = .ok bytes →
      ∃ pvb n2, bits = .static pvb n2 ∧ pvb.length = 251 ∧ n2 ≤ 250 ∧ bytes = pvb.take (n2 + 1) ∧
        ∀ j, n2 < j / 8 → bitAt pvb j = false := by
    intro e h b hb bits hp ha
    obtain ⟨m, aids, hv, hs⟩ := h b hb
    rw [show TIMBitmap.newStatic m aids = TIMBitmap.newStatic m (aids.take 2007) by
      simp only [TIMBitmap.newStatic, List.take_take, Nat.min_self]] at hs
    obtain ⟨b2, pvb, n1, n2, h1, -, -, h4, h5, h6, -, -, -, h9, h10, h11⟩ :=
      newStatic_spec m (aids.take 2007) (by rw [List.length_take]; omega)
        (fun a ha => hv a (List.mem_of_mem_take ha))
    rw [hs] at h1; cases h1
    rw [hp] at h4; cases h4
    refine ⟨pvb, n2, rfl, h5, h6, ?_, ?_⟩
    · simp only [TIMBits.asBytes] at ha; rw [if_pos (by omega)] at ha; cases ha; rfl
    · intro j hj
      rw [h11, decide_eq_false_iff_not]
      rintro (hm | ⟨-, -, rfl⟩)
      · obtain ⟨a, ha, rfl⟩ := List.mem_map.1 hm
        have := h9 a ha
        omega
      · omega
  obtain ⟨pvb, n2, rfl, l1, l2, l3, l4⟩ := key e h b hb bits hp ha
  obtain ⟨pvb', n2', rfl, l1', l2', l3', l4'⟩ := key e' h' b' hb' bits' hp' ha'
  have hn : n2 = n2' := by
    have := congrArg List.length (l3.symm.trans l3')
    simp only [List.length_take] at this
    omega
  subst hn
  congr 1
  apply eq_of_bitAt (by omega)
  intro j
  by_cases hj : n2 < j / 8
  · rw [l4 j hj, l4' j hj]
  · have := congrArg (fun l => bitAt l j) (l3.symm.trans l3')
    simp only [bitAt_take] at this
    rwa [if_pos (by omega), if_pos (by omega)] at this

/-- A map made by `tim_bitmap!` says nothing outside what is sent but for the traffic indicator. -/
theorem macro_spec (b : TIMBitmap) (bits : TIMBits) (hp : b.partial_virtual_bitmap = some bits)
    (h : b = timMulticast ∨ (∃ aids, timListing aids = .ok b) ∨ ∃ lo hi, timRange lo hi = .ok b) :
    ∃ pvb n2, bits = .const pvb b.bitmap_control.n1 n2 ∧ pvb.length = 251 ∧
      (∀ j, j / 8 < b.bitmap_control.n1 → bitAt pvb j = (b.trafficIndicator && decide (j = 0))) ∧
      ∀ j, n2 < j / 8 → bitAt pvb j = false := by
  rcases h with rfl | ⟨aids, h⟩ | ⟨lo, hi, h⟩
  · cases hp
  · obtain ⟨s1, s2⟩ := timListingLoop_spec aids (List.replicate 251 0) 251 0 List.length_replicate
    by_cases hv : ∀ a ∈ aids, a ≤ 2007
    · obtain ⟨⟨pvb, n1, n2⟩, hr, ht⟩ := s1 hv
      simp only [timListing, hr, Res.ok_bind, Res.pure_eq, Res.ok.injEq] at h
      have hn1 : n1 ≤ 251 := ht.n1_le.1
      have hand := and_254 n1 (by omega)
      have hctl := n1_withN1 ((⟨0⟩ : TIMBitmapControl).with_traffic_indicator (aids.contains 0))
        (n1 &&& 0xfe) (by omega)
      subst h
      cases hp
      have hN : (((⟨0⟩ : TIMBitmapControl).with_traffic_indicator (aids.contains 0)).withN1
          (BitVec.ofNat 8 (n1 &&& 0xfe))).n1 = n1 &&& 0xfe := by rw [hctl.1]; omega
      refine ⟨pvb, n2, by rw [hN], ht.len.trans List.length_replicate, ?_, ?_⟩
      · intro j hj
        dsimp only at hj
        rw [hN] at hj
        rw [show bitAt pvb j = _ from ht.bits j, bitAt_replicate, Bool.or_false]
        simp only [TIMBitmap.trafficIndicator]
        rw [hctl.2, traffic_with, Bool.eq_iff_iff]
        simp only [decide_eq_true_eq, Bool.and_eq_true, List.contains_iff_mem]
        constructor
        · intro hm
          by_cases h0 : j = 0
          · exact ⟨h0 ▸ hm, h0⟩
          · have : n1 ≤ j / 8 := ht.n1_le.2 j hm h0
            omega
        · rintro ⟨hm, rfl⟩; exact hm
      · intro j hj
        rw [show bitAt pvb j = _ from ht.bits j, bitAt_replicate, Bool.or_false, decide_eq_false_iff_not]
        intro hm
        have : j / 8 ≤ n2 := ht.n2_ge.2 j hm
        omega
    · simp only [timListing, s2 hv, Res.panic_bind] at h
      cases h
  · unfold timRange at h
    split at h
    · rename_i hhi
      have hloop : ∃ pvb, timRangeLoop (hi + 1 - lo) lo (List.replicate 251 0) = .ok pvb ∧
          pvb.length = 251 ∧ ∀ j, bitAt pvb j = decide (lo ≤ j ∧ j ≤ hi) := by
        by_cases hle : lo ≤ hi
        · obtain ⟨pvb, h1, h2, h3⟩ := timRangeLoop_spec (hi + 1 - lo) lo (List.replicate 251 0)
            (by rw [List.length_replicate]; omega)
          refine ⟨pvb, h1, h2.trans List.length_replicate, fun j => ?_⟩
          rw [h3, bitAt_replicate, Bool.or_false]
          congr 1
          rw [eq_iff_iff]
          omega
        · rw [show hi + 1 - lo = 0 by omega]
          refine ⟨_, rfl, List.length_replicate, fun j => ?_⟩
          rw [bitAt_replicate, eq_comm, decide_eq_false_iff_not]
          omega
      obtain ⟨pvb, hr, hl, hbits⟩ := hloop
      simp only [hr, Res.ok_bind, Res.pure_eq, Res.ok.injEq] at h
      have hle : (lo / 8) &&& 0xfe ≤ 254 := Nat.and_le_right
      have hle2 : (lo / 8) &&& 0xfe ≤ lo / 8 := Nat.and_le_left
      have hev : (lo / 8) &&& 0xfe = 2 * (((lo / 8) &&& 0xfe) / 2) := by
        have : ((lo / 8) &&& 0xfe) % 2 = 0 := by
          rw [show 2 = 2 ^ 1 from rfl, Nat.and_mod_two_pow]
          simp
        omega
      have hctl := n1_withN1 ((⟨0⟩ : TIMBitmapControl).with_traffic_indicator (lo == 0))
        ((lo / 8) &&& 0xfe) (by omega)
      subst h
      cases hp
      rw [← hev] at hctl
      refine ⟨pvb, hi / 8, by rw [hctl.1], hl, ?_, ?_⟩
      · intro j hj
        dsimp only at hj
        rw [hctl.1] at hj
        rw [hbits]
        simp only [TIMBitmap.trafficIndicator]
        rw [hctl.2, traffic_with, Bool.eq_iff_iff]
        simp only [decide_eq_true_eq, Bool.and_eq_true, beq_iff_eq]
        omega
      · intro j hj
        rw [hbits, decide_eq_false_iff_not]
        omega
    · cases h

/-- TIM elements with maps made by `tim_bitmap!`: equal ones have the same hash. -/
theorem c64_tim_macro (e e' : TIMElement) (h : MacroMap e) (h' : MacroMap e') (heq : e.eq e' = .ok true) :
    SameHash e.hash e'.hash := by
  rw [timEq_maps heq]
  · exact (c64_feed _ _).2 rfl
  intro b b' bits bits' bytes hb hb' hc hp hp' ha ha'
  obtain ⟨pvb, n2, rfl, l1, l2, l3⟩ := macro_spec b bits hp (h b hb)
  obtain ⟨pvb', n2', rfl, l1', l2', l3'⟩ := macro_spec b' bits' hp' (h' b' hb')
  simp only [TIMBitmap.trafficIndicator] at l2 l2'
  rw [← hc] at l2' ha' ⊢
  simp only [TIMBits.asBytes] at ha ha'
  split at ha
  · split at ha'
    · rename_i hn hn'
      simp only [Res.ok.injEq] at ha ha'
      have hbytes := ha.trans ha'.symm
      have hn2 : n2 = n2' := by
        have := congrArg List.length hbytes
        simp only [List.length_drop, List.length_take] at this
        omega
      subst hn2
      congr 1
      apply eq_of_bitAt (by omega)
      intro j
      by_cases hj : j / 8 < b.bitmap_control.n1
      · rw [l2 j hj, l2' j hj]
      · by_cases hj2 : n2 < j / 8
        · rw [l3 j hj2, l3' j hj2]
        · have := congrArg (fun l => bitAt l (j - 8 * b.bitmap_control.n1)) hbytes
          simp only [bitAt_drop, bitAt_take,
            show 8 * b.bitmap_control.n1 + (j - 8 * b.bitmap_control.n1) = j by omega] at this
          rwa [if_pos (by omega), if_pos (by omega)] at this
    · cases ha'
  · cases ha

/-- Violation: two TIM elements with static maps that `new_raw` accepts compare equal and have different hashes:
the bytes beyond N2 are hashed and not compared.  `TIMElement` has `Eq`, so that this breaks the contract. -/
theorem c64_tim_wrong :
    let bits : TIMBits := .static (4 :: List.replicate 250 0) 0
    let bits' : TIMBits := .static (4 :: List.replicate 250 1) 0
    ∃ b b', TIMBitmap.newRaw ⟨0⟩ (some bits) = .ok (some b) ∧
      TIMBitmap.newRaw ⟨0⟩ (some bits') = .ok (some b') ∧
      (⟨0, 1, some b⟩ : TIMElement).eq ⟨0, 1, some b'⟩ = .ok true ∧
      ¬ SameHash (⟨0, 1, some b⟩ : TIMElement).hash (⟨0, 1, some b'⟩ : TIMElement).hash := by
  refine ⟨⟨⟨0⟩, some (.static (4 :: List.replicate 250 0) 0)⟩,
    ⟨⟨0⟩, some (.static (4 :: List.replicate 250 1) 0)⟩, by decide +kernel, by decide +kernel,
    by decide +kernel, ?_⟩
  rw [c64_feed]
  decide +kernel

/-- Violation: the same with maps of the type the macro uses, whose fields are public. -/
theorem c64_tim_const_wrong :
    let bits : TIMBits := .const (4 :: List.replicate 250 0) 0 0
    let bits' : TIMBits := .const (0 :: 4 :: List.replicate 249 0) 1 1
    ∃ b b', TIMBitmap.newRaw ⟨0⟩ (some bits) = .ok (some b) ∧
      TIMBitmap.newRaw ⟨0⟩ (some bits') = .ok (some b') ∧
      (⟨0, 1, some b⟩ : TIMElement).eq ⟨0, 1, some b'⟩ = .ok true ∧
      ¬ SameHash (⟨0, 1, some b⟩ : TIMElement).hash (⟨0, 1, some b'⟩ : TIMElement).hash := by
  refine ⟨⟨⟨0⟩, some (.const (4 :: List.replicate 250 0) 0 0)⟩,
    ⟨⟨0⟩, some (.const (0 :: 4 :: List.replicate 249 0) 1 1)⟩, by decide +kernel, by decide +kernel,
    by decide +kernel, ?_⟩
  rw [c64_feed]
  decide +kernel

/-- Two different ways to the same map: the listing and the range. -/
example : ∃ b b', timListing [20, 21, 22] = .ok b ∧ timRange 20 22 = .ok b' ∧
    (⟨0, 1, some b⟩ : TIMElement).eq ⟨0, 1, some b'⟩ = .ok true ∧
    (⟨0, 1, some b⟩ : TIMElement).hash = (⟨0, 1, some b'⟩ : TIMElement).hash := by
  refine ⟨⟨⟨2⟩, some (.const ([0, 0, 0x70] ++ List.replicate 248 0) 2 2)⟩,
    ⟨⟨2⟩, some (.const ([0, 0, 0x70] ++ List.replicate 248 0) 2 2)⟩, ?_⟩
  decide +kernel

/-- The same AIDs in another order. -/
example : ∃ b, TIMBitmap.newStatic false [⟨1⟩, ⟨9⟩] = .ok b ∧ TIMBitmap.newStatic false [⟨9⟩, ⟨1⟩] = .ok b ∧
    (⟨0, 1, some b⟩ : TIMElement).eq ⟨0, 1, some b⟩ = .ok true := by
  refine ⟨⟨⟨0⟩, some (.static ([2, 2] ++ List.replicate 249 0) 1)⟩, ?_⟩
  decide +kernel

/-! ## Values that differ are told apart

The other direction: a derived `Hash` leaves nothing out, so two values whose calls are the same are the same
value.  `PrefixCode` is asked of the derived `Hash` of fields whose type derives everything. -/

theorem prefixCode_option {α : Type} {h : α → Feed} (hp : PrefixCode h) : PrefixCode (hashOption h) := by
  intro a b x y e
  rcases a with _ | a <;> rcases b with _ | b <;>
    simp only [hashOption, List.cons_append, List.nil_append, List.cons.injEq, HashWrite.isize.injEq] at e
  · exact ⟨rfl, e.2⟩
  · exact absurd e.1 (by decide)
  · exact absurd e.1 (by decide)
  · obtain ⟨rfl, r⟩ := hp _ _ _ _ e.2
    exact ⟨rfl, r⟩

theorem prefixCode_bytes : PrefixCode hashBytes := by
  intro a b x y e
  simp only [hashBytes, List.cons_append, List.nil_append, List.cons.injEq, HashWrite.bytes.injEq] at e
  exact ⟨e.2.1, e.2.2⟩

theorem prefixCode_slice {α : Type} {h : α → Feed} (hp : PrefixCode h) : PrefixCode (hashSlice h) := by
  intro a b x y e
  simp only [hashSlice, List.cons_append, List.cons.injEq, HashWrite.usize.injEq] at e
  obtain ⟨hl, e⟩ := e
  induction a generalizing b with
  | nil =>
    cases b with
    | nil => exact ⟨rfl, e⟩
    | cons => cases hl
  | cons i a ih =>
    cases b with
    | nil => cases hl
    | cons j b =>
      simp only [List.flatMap_cons, List.append_assoc] at e
      obtain ⟨rfl, e2⟩ := hp _ _ _ _ e
      obtain ⟨rfl, r⟩ := ih b (by simpa using hl) e2
      exact ⟨rfl, r⟩

/-- Two lists of rates with the same hash under every hasher are the same list. -/
theorem c64_rates_separates (h : EncodedRate → Feed) (hp : PrefixCode h) (l l' : List EncodedRate)
    (hs : SameHash (ratesHash (hashSlice h) l) (ratesHash (hashSlice h) l')) : l = l' := by
  have e := (c64_feed _ _).1 hs
  exact (prefixCode_slice hp l l' [] [] (by simpa [ratesHash] using e)).1

/-- Two RSN elements of the same type with the same hash under every hasher are the same element: over lists
with `P`, `A` and `M` lists, and as received with `ReadIterator`s. -/
theorem c64_rsn_separates {P A M : Type} (hc : IEEE80211CipherSuiteSelector → Feed) (hr : RsnCapabilities → Feed)
    (hp : P → Feed) (ha : A → Feed) (hm : M → Feed) (pc : PrefixCode hc) (pr : PrefixCode hr) (pp : PrefixCode hp)
    (pa : PrefixCode ha) (pm : PrefixCode hm) (e e' : RsnElement P A M)
    (hs : SameHash (e.hash hc hr hp ha hm) (e'.hash hc hr hp ha hm)) : e = e' := by
  have h := (c64_feed _ _).1 hs
  simp only [RsnElement.hash, List.append_assoc] at h
  obtain ⟨h1, h⟩ := prefixCode_option pc _ _ _ _ h
  obtain ⟨h2, h⟩ := prefixCode_option pp _ _ _ _ h
  obtain ⟨h3, h⟩ := prefixCode_option pa _ _ _ _ h
  obtain ⟨h4, h⟩ := prefixCode_option pr _ _ _ _ h
  obtain ⟨h5, h⟩ := prefixCode_option pm _ _ _ _ h
  obtain ⟨h6, -⟩ := prefixCode_option pc _ _ [] [] (by simpa using h)
  cases e
  cases e'
  simp_all

/-- The calls for a received list tell its bytes. -/
theorem c64_received_list_separates : PrefixCode ReadIterator.hash := by
  rintro ⟨a⟩ ⟨b⟩ x y e
  obtain ⟨rfl, r⟩ := prefixCode_option prefixCode_bytes a b x y e
  exact ⟨rfl, r⟩

/-- Two TIM elements with the same hash under every hasher are the same element, and have the same kind of map. -/
theorem c64_tim_separates (e e' : TIMElement) (hs : SameHash e.hash e'.hash) : e = e' := by
  have h := (c64_feed _ _).1 hs
  obtain ⟨c, p, b⟩ := e
  obtain ⟨c', p', b'⟩ := e'
  simp only [TIMElement.hash, List.cons.injEq, HashWrite.u8.injEq] at h
  obtain ⟨rfl, rfl, h⟩ := h
  have hbits : ∀ b b' : TIMBits, b.hash = b'.hash → b = b' := by
    intro b b' h
    cases b <;> cases b' <;>
      simp_all [TIMBits.hash, hashBytes]
  rcases b with _ | ⟨⟨k⟩, m⟩ <;> rcases b' with _ | ⟨⟨k'⟩, m'⟩ <;>
    simp only [hashOption, TIMBitmap.hash, List.cons.injEq, HashWrite.isize.injEq, HashWrite.u8.injEq] at h
  · rfl
  · exact absurd h.1 (by decide)
  · exact absurd h.1 (by decide)
  · obtain ⟨-, rfl, h⟩ := h
    rcases m with _ | m <;> rcases m' with _ | m' <;>
      simp only [List.cons.injEq, HashWrite.isize.injEq] at h
    · rfl
    · exact absurd h.1 (by decide)
    · exact absurd h.1 (by decide)
    · rw [hbits m m' h.2]

example : PrefixCode (fun r : EncodedRate => [.u8 r.bits]) := by
  rintro ⟨a⟩ ⟨b⟩ x y e
  simp only [List.cons_append, List.nil_append, List.cons.injEq, HashWrite.u8.injEq] at e
  exact ⟨by rw [e.1], e.2⟩

example : (⟨0, 1, none⟩ : TIMElement).hash ≠ (⟨0, 2, none⟩ : TIMElement).hash ∧
    (⟨0, 1, some ⟨⟨0⟩, none⟩⟩ : TIMElement).hash ≠ (⟨0, 1, none⟩ : TIMElement).hash := by decide

end Verif
