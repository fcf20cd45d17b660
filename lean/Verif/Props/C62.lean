import Verif.Model.Display
import Verif.Lemmas.Elements
import Verif.Spec.Iter
/-!
# C62: text shows the value

What a text says is read off by scanning it for runs of decimal digits.
-/
namespace Verif

namespace Spec

/-- The value of a digit. -/
def digitValue (c : Char) : Nat := if c.isDigit then c.toNat - 48 else c.toNat - 87

/-- The number written by digits, the first one counting most. -/
def numeral (base : Nat) (l : List Char) : Nat := l.foldl (fun a c => a * base + digitValue c) 0

/-- The runs of decimal digits in a text; `cur` is the value of the run being read. -/
def numbersFrom : Option Nat → List Char → List Nat
  | cur, [] => cur.toList
  | cur, c :: l =>
    if c.isDigit then numbersFrom (some (cur.getD 0 * 10 + digitValue c)) l
    else cur.toList ++ numbersFrom none l

/-- The numbers that appear in a text, in order. -/
def numbers : List Char → List Nat := numbersFrom none

/-- Bytes as one number, the first one counting most. -/
def bigEndian (bs : Bytes) : Nat := bs.foldl (fun a b => a * 256 + b.toNat) 0

/-- Texts between brackets, separated by commas. -/
def bracketed (l : List (List Char)) : List Char := ['['] ++ List.intercalate [',', ' '] l ++ [']']

/-- The names of the four MCS ranges by their code. -/
def vhtRangeName : Nat → List Char
  | 0 => "ZeroToSeven".toList
  | 1 => "ZeroToEight".toList
  | 2 => "ZeroToNine".toList
  | _ => "NotSupported".toList

end Spec

open Spec

private theorem digitValue_digitChar (n : Nat) (h : n < 16) : digitValue n.digitChar = n := by
  have : ∀ n : Fin 16, digitValue (Nat.digitChar n.val) = n.val := by decide
  exact this ⟨n, h⟩

theorem numeral_toDigits (b : Nat) (hb : 1 < b) (hb' : b ≤ 16) (n : Nat) : numeral b (Nat.toDigits b n) = n := by
  induction n using Nat.strongRecOn with
  | ind n ih =>
    rcases Nat.lt_or_ge n b with h | h
    · rw [Nat.toDigits_of_lt_base h]
      simp only [numeral, List.foldl_cons, List.foldl_nil, Nat.zero_mul, Nat.zero_add]
      exact digitValue_digitChar n (by omega)
    · rw [Nat.toDigits_of_base_le hb h]
      have hm := Nat.mod_lt n (show 0 < b by omega)
      have hd := Nat.div_add_mod n b
      have := ih (n / b) (Nat.div_lt_self (by omega) hb)
      unfold numeral at this ⊢
      rw [List.foldl_append, this]
      simp only [List.foldl_cons, List.foldl_nil]
      rw [digitValue_digitChar _ (by omega), Nat.mul_comm]
      exact hd

private theorem numbersFrom_digits (l : List Char) (hl : ∀ c ∈ l, c.isDigit = true) (rest : List Char) (k : Nat) :
    numbersFrom (some k) (l ++ rest) =
      numbersFrom (some (l.foldl (fun a c => a * 10 + digitValue c) k)) rest := by
  induction l generalizing k with
  | nil => rfl
  | cons c l ih =>
    rw [List.cons_append, numbersFrom, if_pos (hl c List.mem_cons_self)]
    exact ih (fun x hx => hl x (List.mem_cons_of_mem _ hx)) _

/-- A text that does not go on with a digit. -/
private def NoDigit (t : List Char) : Prop := ∀ c ∈ t.head?, c.isDigit = false

private theorem numbersFrom_some (k : Nat) (t : List Char) (h : NoDigit t) :
    numbersFrom (some k) t = k :: numbersFrom none t := by
  cases t with
  | nil => rfl
  | cons c l =>
    have := h c rfl
    simp [numbersFrom, this]

private theorem numbers_dec (n : Nat) (t : List Char) (h : NoDigit t) :
    numbers (showDec n ++ t) = n :: numbers t := by
  have hd : ∀ c ∈ Nat.toDigits 10 n, c.isDigit = true :=
    fun c hc => Nat.isDigit_of_mem_toDigits (by omega) (by omega) hc
  have hv := numeral_toDigits 10 (by omega) (by omega) n
  unfold showDec numbers
  cases hl : Nat.toDigits 10 n with
  | nil => exact absurd hl Nat.toDigits_ne_nil
  | cons c l =>
    rw [hl] at hd hv
    rw [List.cons_append, numbersFrom, if_pos (hd c List.mem_cons_self)]
    rw [numbersFrom_digits l (fun x hx => hd x (List.mem_cons_of_mem _ hx))]
    have : l.foldl (fun a c => a * 10 + digitValue c) ((none : Option Nat).getD 0 * 10 + digitValue c) = n := hv
    rw [this, numbersFrom_some _ _ h]

private theorem numbers_skip (s t : List Char) (h : ∀ c ∈ s, c.isDigit = false) : numbers (s ++ t) = numbers t := by
  induction s with
  | nil => rfl
  | cons c s ih =>
    have hc := h c List.mem_cons_self
    rw [List.cons_append]
    show numbersFrom none (c :: (s ++ t)) = _
    rw [numbersFrom, hc]
    exact ih fun x hx => h x (List.mem_cons_of_mem _ hx)

private theorem noDigit_cons (c : Char) (t : List Char) (h : c.isDigit = false) : NoDigit (c :: t) := by
  intro x hx; cases hx; exact h

private theorem noDigit_append (s t : List Char) (h : ∀ c ∈ s, c.isDigit = false) (hs : s ≠ []) : NoDigit (s ++ t) := by
  cases s with
  | nil => exact absurd rfl hs
  | cons c s => exact noDigit_cons _ _ (h c List.mem_cons_self)

private theorem numbers_rest (l : List Nat) (t : List Char) (h : NoDigit t) :
    numbers (showRest (l.map showDec) ++ t) = l ++ numbers t ∧ NoDigit (showRest (l.map showDec) ++ t) := by
  induction l with
  | nil => exact ⟨rfl, h⟩
  | cons n l ih =>
    refine ⟨?_, noDigit_cons _ _ (by decide)⟩
    show numbers ([',', ' '] ++ showDec n ++ showRest (l.map showDec) ++ t) = _
    rw [List.append_assoc, List.append_assoc, numbers_skip _ _ (by decide), numbers_dec n _ ih.2, ih.1]
    rfl

private theorem numbers_list (l : List Nat) (t : List Char) :
    numbers (showList (l.map showDec) ++ t) = l ++ numbers t := by
  cases l with
  | nil => exact numbers_skip _ _ (by decide)
  | cons n l =>
    have hr := numbers_rest l (']' :: t) (noDigit_cons _ _ (by decide))
    show numbers (['['] ++ showDec n ++ showRest (l.map showDec) ++ [']'] ++ t) = _
    simp only [List.append_assoc, List.cons_append, List.nil_append]
    rw [show '[' :: (showDec n ++ (showRest (l.map showDec) ++ ']' :: t)) =
      ['['] ++ (showDec n ++ (showRest (l.map showDec) ++ ']' :: t)) from rfl, numbers_skip _ _ (by decide),
      numbers_dec n _ hr.2, hr.1, show ']' :: t = [']'] ++ t from rfl, numbers_skip [']'] t (by decide)]

/-- An association ID is shown as its number. -/
theorem c62_aid (a : AssociationID) : numbers a.debug = [a.aid.toNat] := by
  have := numbers_dec a.aid.toNat [] (by intro c hc; cases hc)
  rw [List.append_nil] at this
  exact this

/-- A rate is shown in Mbit/s: the whole part, then 5 if there is a half; `B` appears exactly with the flag. -/
theorem c62_rate (r : EncodedRate) :
    numbers r.display = r.rate.toNat / 2 :: (if r.rate.toNat % 2 = 1 then [5] else []) ∧
      ('B' ∈ r.display ↔ r.is_b = true) := by
  have key : ∀ x : BitVec 8, numbers (EncodedRate.mk x).display =
      (EncodedRate.mk x).rate.toNat / 2 :: (if (EncodedRate.mk x).rate.toNat % 2 = 1 then [5] else []) ∧
      ('B' ∈ (EncodedRate.mk x).display ↔ (EncodedRate.mk x).is_b = true) := by decide +kernel
  exact key r.bits

/-- So different rates are shown differently. -/
theorem c62_rate_injective (r r' : EncodedRate) (h : r.display = r'.display) : r = r' := by
  obtain ⟨h1, h2⟩ := c62_rate r
  obtain ⟨h3, h4⟩ := c62_rate r'
  rw [h] at h1 h2
  have hb : r.is_b = r'.is_b := by
    have := h2.symm.trans h4
    cases hx : r.is_b <;> cases hy : r'.is_b <;> simp [hx, hy] at this ⊢
  have hr : r.rate.toNat = r'.rate.toNat := by
    have he := h1.symm.trans h3
    simp only [List.cons.injEq] at he
    obtain ⟨e1, e2⟩ := he
    split at e2 <;> split at e2 <;> simp at e2 <;> omega
  have key : ∀ x : BitVec 8, x.toNat =
      (EncodedRate.mk x).rate.toNat + (if (EncodedRate.mk x).is_b then 128 else 0) := by decide +kernel
  have : r.bits = r'.bits := by
    apply BitVec.eq_of_toNat_eq
    rw [key r.bits, key r'.bits]
    show r.rate.toNat + (if r.is_b then 128 else 0) = _
    rw [hr, hb]
  cases r; cases r'; exact congrArg _ this

example : (EncodedRate.mk 0x8b).display = "5.5Mbit/s  (B)".toList ∧ (EncodedRate.mk 0x16).display = "11Mbit/s ".toList := by
  decide

private theorem toDigits_no_space (n : Nat) : ∀ c ∈ Nat.toDigits 16 n, c ≠ ' ' := by
  have hd : ∀ d : Fin 16, Nat.digitChar d.val ≠ ' ' := by decide
  induction n using Nat.strongRecOn with
  | ind n ih =>
    intro c hc
    rcases Nat.lt_or_ge n 16 with h | h
    · rw [Nat.toDigits_of_lt_base h, List.mem_singleton] at hc
      rw [hc]; exact hd ⟨n, h⟩
    · rw [Nat.toDigits_of_base_le (by omega) h, List.mem_append, List.mem_singleton] at hc
      rcases hc with hc | hc
      · exact ih _ (by omega) c hc
      · rw [hc]; exact hd ⟨n % 16, by omega⟩

private theorem dropWhile_spaces (n k : Nat) :
    (List.replicate k ' ' ++ Nat.toDigits 16 n).dropWhile (· = ' ') = Nat.toDigits 16 n := by
  induction k with
  | zero =>
    have h := toDigits_no_space n
    cases hl : Nat.toDigits 16 n with
    | nil => rfl
    | cons c l =>
      rw [hl] at h
      have := h c List.mem_cons_self
      simp [this]
  | succ k ih => simpa [List.replicate_succ, List.dropWhile] using ih

private theorem leNat_foldr (bs : Bytes) : leNat bs = bs.foldr (fun b a => a * 256 + b.toNat) 0 := by
  induction bs with
  | nil => rfl
  | cons b bs ih => rw [List.foldr_cons, ← ih, leNat]; omega

private theorem fromBE_toNat (p : Arr 16) : (fromBE 128 p.val).toNat = bigEndian p.val := by
  have h := leNat_lt p.val.reverse
  rw [List.length_reverse, p.property] at h
  unfold fromBE fromLE bigEndian
  rw [BitVec.toNat_ofNat, Nat.mod_eq_of_lt (Nat.lt_of_lt_of_le h (by decide)), leNat_foldr, List.foldl_eq_foldr_reverse]

/-- A PMKID is shown as the hexadecimal numeral of its bytes, after spaces. -/
theorem c62_pmkid (p : Arr 16) :
    numeral 16 ((displayPmkid p).dropWhile (· = ' ')) = bigEndian p.val := by
  unfold displayPmkid showHex16
  rw [dropWhile_spaces, numeral_toDigits 16 (by omega) (by omega), fromBE_toNat]

/-- So different PMKIDs are shown differently. -/
theorem c62_pmkid_injective (p p' : Arr 16) (h : displayPmkid p = displayPmkid p') : p = p' := by
  have h1 := c62_pmkid p
  rw [h, c62_pmkid p', ← fromBE_toNat, ← fromBE_toNat] at h1
  have h2 := BitVec.eq_of_toNat_eq h1
  apply Subtype.ext
  rw [← toBE_fromBE (w := 128) (by omega) p.val p.property, ← h2, toBE_fromBE (by omega) p'.val p'.property]

/-- Violation: a PMKID is not always shown by its 32 digits; leading zeros are dropped. -/
theorem c62_pmkid_short_wrong (p : Arr 16) : (displayPmkid p).length = 32 ↔ 2 ^ 124 ≤ bigEndian p.val := by
  have hlt : bigEndian p.val < 16 ^ 32 := by
    rw [← fromBE_toNat]
    exact (fromBE 128 p.val).isLt
  have h32 := (Nat.length_toDigits_le_iff (b := 16) (n := bigEndian p.val) (k := 32) (by omega) (by omega)).2 hlt
  have h31 := Nat.length_toDigits_le_iff (b := 16) (n := bigEndian p.val) (k := 31) (by omega) (by omega)
  unfold displayPmkid showHex16
  rw [fromBE_toNat, List.length_append, List.length_replicate]
  have e : (16 : Nat) ^ 31 = 2 ^ 124 := by decide
  rw [e] at h31
  omega

/-- A PMKID of small value is shown in sixteen columns. -/
theorem c62_pmkid_columns (p : Arr 16) (h : bigEndian p.val < 2 ^ 64) : (displayPmkid p).length = 16 := by
  have h16 := (Nat.length_toDigits_le_iff (b := 16) (n := bigEndian p.val) (k := 16) (by omega) (by omega)).2 h
  unfold displayPmkid showHex16
  rw [fromBE_toNat, List.length_append, List.length_replicate]
  omega

/-- The PMKID that ends in 0x1f and is zero otherwise. -/
example : bigEndian [0, 0, 0, 0, 0, 0, 0, 0, 0, 0, 0, 0, 0, 0, 0, 0x1f] < 2 ^ 64 := by decide

/-- A PMKID with a leading zero digit. -/
example : displayPmkid ⟨[0x0a, 1, 1, 1, 1, 1, 1, 1, 1, 1, 1, 1, 1, 1, 1, 0x1f], rfl⟩ =
    "a01010101010101010101010101011f".toList := by decide +kernel

private theorem display_eq (b : TIMBitmap) (aids : Option (List AssociationID)) (h : b.aidIter = .ok aids) :
    b.display = .ok (showList (((if b.trafficIndicator then [0] else []) ++
      (aids.getD []).map (fun a : AssociationID => a.aid.toNat)).map showDec)) := by
  unfold TIMBitmap.display TIMBitmap.trafficIndicator
  rw [h, Res.ok_bind, List.map_append, List.map_map]
  cases b.bitmap_control.traffic_indicator <;> rfl

/-- The numbers in the text of a bitmap are 0 for group traffic and the association IDs of `aid_iter`; it panics
exactly when `aid_iter` does. -/
theorem c62_tim_bitmap (b : TIMBitmap) :
    (∀ aids, b.aidIter = .ok aids → ∃ t, b.display = .ok t ∧
      numbers t = (if b.trafficIndicator then [0] else []) ++ (aids.getD []).map (·.aid.toNat)) ∧
    (b.display = .panic ↔ b.aidIter = .panic) := by
  constructor
  · intro aids h
    refine ⟨_, display_eq b aids h, ?_⟩
    have := numbers_list ((if b.trafficIndicator then [0] else []) ++ (aids.getD []).map (·.aid.toNat)) []
    simpa only [List.append_nil, show numbers [] = [] from rfl] using this
  · cases h : b.aidIter with
    | ok a => simp [display_eq b a h]
    | err e => simp [TIMBitmap.display, h]
    | panic => simp [TIMBitmap.display, h]

/-- The text of a TIM element shows its DTIM count and period and then the numbers of its bitmap. -/
theorem c62_tim_element (e : TIMElement) :
    (e.bitmap = none → ∃ t, e.display = .ok t ∧ numbers t = [e.dtim_count.toNat, e.dtim_period.toNat]) ∧
    (∀ b aids, e.bitmap = some b → b.aidIter = .ok aids → ∃ t, e.display = .ok t ∧
      numbers t = [e.dtim_count.toNat, e.dtim_period.toNat] ++ ((if b.trafficIndicator then [0] else []) ++
        (aids.getD []).map (·.aid.toNat))) := by
  have head : ∀ t, NoDigit t → numbers ("TIMElement { dtim_count: ".toList ++ showDec e.dtim_count.toNat ++
      ", dtim_period: ".toList ++ showDec e.dtim_period.toNat ++ t) =
      [e.dtim_count.toNat, e.dtim_period.toNat] ++ numbers t := by
    intro t ht
    rw [List.append_assoc, List.append_assoc, List.append_assoc, numbers_skip _ _ (by decide),
      numbers_dec _ _ (noDigit_append _ _ (by decide) (by decide)), numbers_skip _ _ (by decide),
      numbers_dec _ _ ht]
    rfl
  constructor
  · intro h
    refine ⟨_, by unfold TIMElement.display; rw [h]; rfl, ?_⟩
    rw [List.append_assoc, head _ (by rw [List.nil_append]; unfold NoDigit; decide)]
    rfl
  · intro b aids h ha
    refine ⟨_, by unfold TIMElement.display; rw [h]; simp only [display_eq b aids ha]; rfl, ?_⟩
    rw [List.append_assoc, head _ (by
      rw [List.append_assoc]; exact noDigit_append _ _ (by decide) (by decide)), List.append_assoc,
      numbers_skip _ _ (by decide), numbers_list]
    congr 1
    exact List.append_nil _

private theorem format_some (b : TIMBitmap) (a : AssociationID) (l : List AssociationID)
    (h : b.aidIter = .ok (some (a :: l))) :
    b.format = .ok (showList (((a :: l).map (·.aid.toNat)).map showDec) ++ "[]".toList) := by
  unfold TIMBitmap.format
  rw [h, Res.ok_bind]
  simp only [List.map_cons, List.map_map, showList]
  rfl

/-- The text of a bitmap for a logger shows the same association IDs, but not the group traffic. -/
theorem c62_tim_format (b : TIMBitmap) (aids : Option (List AssociationID)) (h : b.aidIter = .ok aids) :
    ∃ t, b.format = .ok t ∧ numbers t = (aids.getD []).map (·.aid.toNat) := by
  match aids, h with
  | none, h => exact ⟨_, by unfold TIMBitmap.format; rw [h]; rfl, rfl⟩
  | some [], h => exact ⟨_, by unfold TIMBitmap.format; rw [h]; rfl, rfl⟩
  | some (a :: l), h =>
    refine ⟨_, format_some b a l h, ?_⟩
    rw [numbers_list]
    exact List.append_nil _

/-- Violation: to a logger, a bitmap with any association ID is shown as its list followed by the empty list. -/
theorem c62_tim_format_wrong (b : TIMBitmap) (l : List AssociationID) (hl : l ≠ [])
    (h : b.aidIter = .ok (some l)) :
    ∃ t, b.format = .ok (t ++ "[]".toList) ∧ numbers t = l.map (·.aid.toNat) ∧ t.getLast? = some ']' := by
  cases l with
  | nil => exact absurd rfl hl
  | cons a l =>
    refine ⟨_, format_some b a l h, ?_, ?_⟩
    · have := numbers_list ((a :: l).map (·.aid.toNat)) []
      simpa only [List.append_nil, show numbers [] = [] from rfl] using this
    · show (_ ++ [']'] : List Char).getLast? = _
      exact List.getLast?_concat

/-- Stations 3 and 12 with group traffic, as printed and as logged. -/
example :
    let b : TIMBitmap := ⟨⟨1⟩, some (.slice [0x08, 0x10])⟩
    b.display = .ok "[0, 3, 12]".toList ∧ b.format = .ok "[3, 12][]".toList ∧
      (TIMElement.mk 1 3 (some b)).display =
        .ok "TIMElement { dtim_count: 1, dtim_period: 3, association_ids: [0, 3, 12] }".toList := by
  decide

/-! ## Lists -/

private theorem showList_eq (l : List (List Char)) : showList l = bracketed l := by
  cases l with
  | nil => rfl
  | cons x l =>
    have : ∀ x, x ++ showRest l = List.intercalate [',', ' '] (x :: l) := by
      induction l with
      | nil => intro x; simp [showRest, List.intercalate, List.intersperse]
      | cons y l ih =>
        intro x
        rw [showRest, List.append_assoc, ih y]
        simp [List.intercalate, List.intersperse]
    unfold bracketed
    rw [← this]
    simp [showList]

/-- A text that can stand in a list: no comma and no closing bracket. -/
private def Item (t : List Char) : Prop := ∀ c ∈ t, c ≠ ',' ∧ c ≠ ']'

private theorem item_split (a a' : List Char) (ha : Item a) (ha' : Item a') (c c' : Char) (hc : c = ',' ∨ c = ']')
    (hc' : c' = ',' ∨ c' = ']') (t t' : List Char) (h : a ++ c :: t = a' ++ c' :: t') : a = a' ∧ c :: t = c' :: t' := by
  induction a generalizing a' with
  | nil =>
    cases a' with
    | nil => exact ⟨rfl, h⟩
    | cons x a' =>
      simp only [List.nil_append, List.cons_append, List.cons.injEq] at h
      have := ha' x List.mem_cons_self
      rw [← h.1] at this
      rcases hc with rfl | rfl
      · exact absurd rfl this.1
      · exact absurd rfl this.2
  | cons x a ih =>
    cases a' with
    | nil =>
      simp only [List.nil_append, List.cons_append, List.cons.injEq] at h
      have := ha x List.mem_cons_self
      rw [h.1] at this
      rcases hc' with rfl | rfl
      · exact absurd rfl this.1
      · exact absurd rfl this.2
    | cons y a' =>
      simp only [List.cons_append, List.cons.injEq] at h
      obtain ⟨h1, h2⟩ := ih a' (fun c hc => ha c (List.mem_cons_of_mem _ hc))
        (fun c hc => ha' c (List.mem_cons_of_mem _ hc)) h.2
      exact ⟨by rw [h.1, h1], h2⟩

private theorem rest_head (l : List (List Char)) : ∃ c t, (c = ',' ∨ c = ']') ∧ showRest l ++ [']'] = c :: t := by
  cases l with
  | nil => exact ⟨_, _, .inr rfl, rfl⟩
  | cons x l => exact ⟨_, _, .inl rfl, rfl⟩

private theorem rest_injective (l l' : List (List Char)) (hl : ∀ t ∈ l, Item t) (hl' : ∀ t ∈ l', Item t)
    (h : showRest l ++ [']'] = showRest l' ++ [']']) : l = l' := by
  induction l generalizing l' with
  | nil =>
    cases l' with
    | nil => rfl
    | cons y l' => simp [showRest] at h
  | cons x l ih =>
    cases l' with
    | nil => simp [showRest] at h
    | cons y l' =>
      simp only [showRest, List.append_assoc, List.cons_append, List.nil_append, List.cons.injEq, true_and] at h
      obtain ⟨c, t, hc, e⟩ := rest_head l
      obtain ⟨c', t', hc', e'⟩ := rest_head l'
      rw [e, e'] at h
      obtain ⟨h1, h2⟩ := item_split x y (hl _ List.mem_cons_self) (hl' _ List.mem_cons_self) c c' hc hc' t t' h
      rw [← e, ← e'] at h2
      rw [h1, ih l' (fun t ht => hl t (List.mem_cons_of_mem _ ht)) (fun t ht => hl' t (List.mem_cons_of_mem _ ht)) h2]

/-- A list text shows which items there are, as long as no item contains a comma or a closing bracket and there is
at least one in each list. -/
private theorem list_injective (l l' : List (List Char)) (hl : ∀ t ∈ l, Item t) (hl' : ∀ t ∈ l', Item t)
    (hn : l ≠ []) (hn' : l' ≠ []) (h : showList l = showList l') : l = l' := by
  cases l with
  | nil => exact absurd rfl hn
  | cons x l =>
    cases l' with
    | nil => exact absurd rfl hn'
    | cons y l' =>
      apply rest_injective (x :: l) (y :: l') hl hl'
      simp only [showList, List.append_assoc, List.cons_append, List.nil_append, List.cons.injEq, true_and] at h
      simp only [showRest, List.append_assoc, h]

private theorem formatRest_of_yields {α : Type} (r : Reader α) (f : α → List Char) (it : ReadIterator) (l : List α)
    (h : Yields r it l) (fuel : Nat) (hf : l.length < fuel) : it.formatRest r f fuel = .ok (showRest (l.map f)) := by
  induction h generalizing fuel with
  | done h =>
    obtain _ | fuel := fuel
    · omega
    · rw [ReadIterator.formatRest, h]; rfl
  | more h t ih =>
    obtain _ | fuel := fuel
    · omega
    · rw [ReadIterator.formatRest, h]
      show (ReadIterator.formatRest r f fuel _).bind _ = _
      rw [ih fuel (by simpa using hf)]
      rfl

/-- The items of received bytes are shown between brackets, in order, separated by commas; to a logger the same. -/
theorem c62_items {α : Type} (r : Reader α) (f : α → List Char) (it : ReadIterator) (l : List α) (h : Yields r it l)
    (fuel : Nat) (hf : l.length < fuel) :
    it.debug r f fuel = .ok (bracketed (l.map f)) ∧ it.format r f fuel = .ok (bracketed (l.map f)) := by
  constructor
  · unfold ReadIterator.debug
    letI : ScrollRule := ⟨true⟩
    rw [collect_of_yields h fuel hf, ← showList_eq]
    rfl
  · unfold ReadIterator.format
    rw [← showList_eq]
    cases h with
    | done h => rw [h]; rfl
    | more h t =>
      rw [h]
      simp only [Res.ok_bind, formatRest_of_yields r f _ _ t fuel (by simp at hf; omega), List.map_cons, showList]
      show Res.ok _ = Res.ok _
      simp

/-- For items that take at least one byte there is always such a list, so received bytes can always be shown. -/
theorem c62_items_total {α : Type} (r : Reader α) (hs : SafeReader r) (hp : Progress r) (f : α → List Char) (bs : Bytes) :
    ∃ l, Yields r (.new bs) l ∧ (ReadIterator.new bs).debug r f (bs.length + 1) = .ok (bracketed (l.map f)) ∧
      (ReadIterator.new bs).format r f (bs.length + 1) = .ok (bracketed (l.map f)) := by
  obtain ⟨l, hy, hl⟩ := yields_exists hs hp bs
  exact ⟨l, hy, c62_items r f _ l hy _ (by omega)⟩

/-- Two bytes as a list of bytes. -/
example : ∃ l, Yields readU8 (.new [7, 200]) l ∧
    (ReadIterator.new [7, 200]).debug readU8 (fun b => showDec b.toNat) 3 = .ok "[7, 200]".toList ∧
    (ReadIterator.new [7, 200]).format readU8 (fun b => showDec b.toNat) 3 = .ok "[7, 200]".toList :=
  ⟨[7, 200], .more (it' := ⟨some [200]⟩) (by decide) (.more (it' := ⟨some []⟩) (by decide)
    (.done (it' := ⟨none⟩) (by decide))), by decide, by decide⟩

/-- A map of MCS ranges is shown as eight names, that of each number of streams being given by its two bits. -/
theorem c62_vht_map (m : VHTMCSMap) :
    m.debug = bracketed ([0, 1, 2, 3, 4, 5, 6, 7].map fun i => vhtRangeName (m.bits.toNat / 4 ^ i % 4)) := by
  have one : ∀ i ∈ [0, 1, 2, 3, 4, 5, 6, 7],
      (VHTMCSSupport.fromBits (((m.bits >>> (i * 2)) &&& 0b11).truncate 8)).debug =
        vhtRangeName (m.bits.toNat / 4 ^ i % 4) := by
    intro i _
    have key : ∀ v : Fin 4, (VHTMCSSupport.fromBits (BitVec.ofNat 8 v.val)).debug = vhtRangeName v.val := by decide
    have hv : ((m.bits >>> (i * 2)) &&& 0b11).truncate 8 = BitVec.ofNat 8 (m.bits.toNat / 4 ^ i % 4) := by
      apply BitVec.eq_of_toNat_eq
      rw [BitVec.truncate_eq_setWidth, BitVec.toNat_setWidth, BitVec.toNat_and, BitVec.toNat_ushiftRight,
        Nat.shiftRight_eq_div_pow, show BitVec.toNat (3 : BitVec 16) = 2 ^ 2 - 1 from rfl, Nat.and_two_pow_sub_one_eq_mod,
        show (2 : Nat) ^ (i * 2) = 4 ^ i by rw [Nat.mul_comm, Nat.pow_mul], BitVec.toNat_ofNat]
    rw [hv]
    exact key ⟨_, Nat.mod_lt _ (by omega)⟩
  rw [← showList_eq]
  unfold VHTMCSMap.debug
  congr 1
  have : m.supportIter.map VHTMCSSupport.debug = [0, 1, 2, 3, 4, 5, 6, 7].map fun i =>
      (VHTMCSSupport.fromBits (((m.bits >>> (i * 2)) &&& 0b11).truncate 8)).debug := by
    simp [VHTMCSMap.supportIter, VHTMCSMap.supportForNss]
  rw [this]
  exact List.map_congr_left one

/-- A range by itself is shown so as well, and different ranges give different texts. -/
theorem c62_vht_range (r : VHTMCSSupport) :
    (r.debug = match r with
      | .ZeroToSeven => vhtRangeName 0
      | .ZeroToEight => vhtRangeName 1
      | .ZeroToNine => vhtRangeName 2
      | .NotSupported => vhtRangeName 3
      | .Unknown b => "Unknown(".toList ++ Nat.toDigits 10 b.toNat ++ ")".toList) ∧
    ∀ r' : VHTMCSSupport, r.debug = r'.debug → r = r' := by
  constructor
  · cases r with
    | Unknown b =>
      show "Unknown(".toList ++ showDec b.toNat ++ ")".toList = _
      unfold showDec
      with_reducible rfl
    | _ => decide +kernel
  · intro r' h
    have hn : ∀ b : BitVec 8, numbers (VHTMCSSupport.Unknown b).debug = [b.toNat] := fun b => by
      have e : VHTMCSSupport.debug (.Unknown b) = "Unknown(".toList ++ showDec b.toNat ++ ")".toList := rfl
      rw [e]
      rw [List.append_assoc, numbers_skip _ _ (by decide), numbers_dec _ _ (by intro c hc; cases hc; rfl)]
      rfl
    have h0 : numbers VHTMCSSupport.ZeroToSeven.debug = [] ∧ numbers VHTMCSSupport.ZeroToEight.debug = [] ∧
        numbers VHTMCSSupport.ZeroToNine.debug = [] ∧ numbers VHTMCSSupport.NotSupported.debug = [] := by decide
    obtain ⟨h0, h1, h2, h3⟩ := h0
    have hnum := congrArg numbers h
    cases r <;> cases r' <;>
      simp only [hn, h0, h1, h2, h3, List.cons.injEq, and_true, reduceCtorEq, BitVec.toNat_inj] at hnum <;>
      first
      | (with_reducible rfl)
      | (rw [hnum])
      | (exact absurd h (by decide +kernel))

/-- So different maps are shown differently. -/
theorem c62_vht_map_injective (m m' : VHTMCSMap) (h : m.debug = m'.debug) : m = m' := by
  rw [c62_vht_map, c62_vht_map, ← showList_eq, ← showList_eq] at h
  have hi : ∀ v : Fin 4, ∀ c ∈ vhtRangeName v.val, c ≠ ',' ∧ c ≠ ']' := by decide
  have hitem : ∀ n : Nat, Item (vhtRangeName (n % 4)) := fun n => hi ⟨n % 4, Nat.mod_lt _ (by omega)⟩
  have h2 := list_injective _ _ (by simp only [List.forall_mem_map]; intros; exact hitem _)
    (by simp only [List.forall_mem_map]; intros; exact hitem _) (by simp) (by simp) h
  have hname : ∀ a b : Fin 4, vhtRangeName a.val = vhtRangeName b.val → a.val = b.val := by decide
  have hn : ∀ a b : Nat, vhtRangeName (a % 4) = vhtRangeName (b % 4) → a % 4 = b % 4 :=
    fun a b e => hname ⟨a % 4, Nat.mod_lt _ (by omega)⟩ ⟨b % 4, Nat.mod_lt _ (by omega)⟩ e
  simp only [List.map_cons, List.map_nil, List.cons.injEq, and_true] at h2
  obtain ⟨e0, e1, e2, e3, e4, e5, e6, e7⟩ := h2
  have d0 := hn _ _ e0; have d1 := hn _ _ e1; have d2 := hn _ _ e2; have d3 := hn _ _ e3
  have d4 := hn _ _ e4; have d5 := hn _ _ e5; have d6 := hn _ _ e6; have d7 := hn _ _ e7
  have l1 := m.bits.isLt
  have l2 := m'.bits.isLt
  have : m.bits = m'.bits := by
    apply BitVec.eq_of_toNat_eq
    simp only [Nat.reducePow, Nat.div_one] at d0 d1 d2 d3 d4 d5 d6 d7
    omega
  cases m; cases m'; exact congrArg _ this

example : (VHTMCSMap.mk 0xfffa).debug =
    ("[ZeroToNine, ZeroToNine, NotSupported, NotSupported, NotSupported, NotSupported, NotSupported, " ++
      "NotSupported]").toList := by decide

/-! ## Texts for a logger -/

/-- An association ID is logged as its number. -/
theorem c62_aid_format (a : AssociationID) : numbers a.format = [a.aid.toNat] := c62_aid a

/-- A PMKID is logged as the hexadecimal numeral of its bytes, so different ones are logged differently; it is not
always logged by its 32 digits. -/
theorem c62_pmkid_format (p : Arr 16) : numeral 16 (formatPmkid p) = bigEndian p.val ∧
    (∀ p', formatPmkid p = formatPmkid p' → p = p') := by
  have hv : ∀ p : Arr 16, numeral 16 (formatPmkid p) = bigEndian p.val := fun p => by
    unfold formatPmkid
    rw [numeral_toDigits 16 (by omega) (by omega), fromBE_toNat]
  refine ⟨hv p, fun p' h => ?_⟩
  apply c62_pmkid_injective
  unfold formatPmkid at h
  unfold displayPmkid showHex16
  rw [h]

/-- The logged text of a TIM element shows its DTIM count and period and then the association IDs of its bitmap. -/
theorem c62_tim_element_format (e : TIMElement) :
    (e.bitmap = none → ∃ t, e.format = .ok t ∧ numbers t = [e.dtim_count.toNat, e.dtim_period.toNat]) ∧
    (∀ b aids, e.bitmap = some b → b.aidIter = .ok aids → ∃ t, e.format = .ok t ∧
      numbers t = [e.dtim_count.toNat, e.dtim_period.toNat] ++ (aids.getD []).map (·.aid.toNat)) := by
  have head : ∀ t, numbers ("TIMElement { dtim_count: ".toList ++ showDec e.dtim_count.toNat ++
      ", dtim_period: ".toList ++ showDec e.dtim_period.toNat ++ ", bitmap: ".toList ++ t) =
      [e.dtim_count.toNat, e.dtim_period.toNat] ++ numbers t := by
    intro t
    rw [List.append_assoc, List.append_assoc, List.append_assoc, List.append_assoc, numbers_skip _ _ (by decide),
      numbers_dec _ _ (noDigit_append _ _ (by decide) (by decide)), numbers_skip _ _ (by decide),
      numbers_dec _ _ (noDigit_append _ _ (by decide) (by decide)), numbers_skip _ _ (by decide)]
    rfl
  constructor
  · intro h
    refine ⟨_, by unfold TIMElement.format; rw [h]; rfl, ?_⟩
    rw [List.append_assoc, head]
    rfl
  · intro b aids h ha
    have key : ∀ t, b.format = .ok t → e.format = .ok ("TIMElement { dtim_count: ".toList ++
        showDec e.dtim_count.toNat ++ ", dtim_period: ".toList ++ showDec e.dtim_period.toNat ++
        ", bitmap: ".toList ++ ("Some(".toList ++ t ++ ")".toList) ++ " }".toList) := by
      intro t ht
      unfold TIMElement.format
      rw [h]
      simp only [ht]
      rfl
    match aids, ha with
    | none, ha =>
      refine ⟨_, key "[]".toList (by unfold TIMBitmap.format; rw [ha]; rfl), ?_⟩
      rw [List.append_assoc, head]; rfl
    | some [], ha =>
      refine ⟨_, key "[]".toList (by unfold TIMBitmap.format; rw [ha]; rfl), ?_⟩
      rw [List.append_assoc, head]; rfl
    | some (a :: l), ha =>
      refine ⟨_, key _ (format_some b a l ha), ?_⟩
      rw [List.append_assoc, head, List.append_assoc, List.append_assoc, List.append_assoc, numbers_skip _ _ (by decide),
        numbers_list]
      congr 1
      exact List.append_nil _

example : (TIMElement.mk 1 3 (some ⟨⟨1⟩, some (.slice [0x08, 0x10])⟩)).format =
    .ok "TIMElement { dtim_count: 1, dtim_period: 3, bitmap: Some([3, 12][]) }".toList := by decide +kernel

/-- An OWE transition element is shown with address and name, and with the channel exactly if there is one. -/
theorem c62_owe (mac : Mac → List Char) (name : Str → List Char) (band : BandAndChannelInfo → List Char) (m : Mac)
    (s : Str) (b : BandAndChannelInfo) :
    OWETransitionModeElement.display mac name band ⟨m, s, none⟩ =
      "OWETransitionModeElement { bssid: ".toList ++ mac m ++ ", ssid: ".toList ++ name s ++ " }".toList ∧
    OWETransitionModeElement.display mac name band ⟨m, s, some b⟩ =
      "OWETransitionModeElement { bssid: ".toList ++ mac m ++ ", ssid: ".toList ++ name s ++
        ", band_and_channel_info: ".toList ++ band b ++ " }".toList := by
  unfold OWETransitionModeElement.display
  refine ⟨?_, ?_⟩
  · dsimp only
    rw [List.append_nil]
  · dsimp only
    rw [List.append_assoc _ ", band_and_channel_info: ".toList (band b)]

/-- A name is shown as it is. -/
theorem c62_ssid (s : Str) (e : SSIDLikeElement) (h : SSIDLikeElement.new s = some e) : e.display = s.bytes := by
  unfold SSIDLikeElement.new at h
  split at h
  · cases h; rfl
  · cases h

end Verif
