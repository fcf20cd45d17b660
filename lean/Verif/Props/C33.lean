import Verif.Model.Crypto.Michael
/-!
# C33: Michael

The specification follows IEEE 802.11 (12.5.2.3): the key and the message are byte strings, read as
little-endian 32-bit words; the message is padded with the byte 0x5a and then with four to seven zero
bytes so that the total is a multiple of four; each word is added (exclusive or) into the left half, followed
by the block function; the result is the two halves in little-endian byte order.
-/
namespace Verif

namespace Spec

/-- Rotation of a 32-bit word to the left, on numbers. -/
def rotl (x k : Nat) : Nat := x * 2 ^ k % 2 ^ 32 + x / 2 ^ (32 - k)

/-- XSWAP of the standard: bytes 0 and 1 exchange places, and so do bytes 2 and 3. -/
def xswapBytes : Bytes → Bytes
  | [a, b, c, d] => [b, a, d, c]
  | l => l

/-- The block function of the standard on numbers below 2^32; `Nat.xor` is the exclusive or. -/
def michaelBlock (l r : Nat) : Nat × Nat :=
  let r := r ^^^ rotl l 17
  let l := (l + r) % 2 ^ 32
  let r := r ^^^ leNat (xswapBytes (leBytes 4 l))
  let l := (l + r) % 2 ^ 32
  let r := r ^^^ rotl l 3
  let l := (l + r) % 2 ^ 32
  let r := r ^^^ rotl l 30
  let l := (l + r) % 2 ^ 32
  (l, r)

/-- Padding: 0x5a and between four and seven zeros. -/
def michaelPad (m : Bytes) : Bytes := m ++ 0x5a :: List.replicate (7 - m.length % 4) 0

/-- Little-endian words. -/
def words : Bytes → List Nat
  | a :: b :: c :: d :: rest => leNat [a, b, c, d] :: words rest
  | _ => []

/-- The state after all words. -/
def michaelState (key m : Bytes) : Nat × Nat :=
  (words (michaelPad m)).foldl (fun s w => michaelBlock (s.1 ^^^ w) s.2)
    (leNat (key.take 4), leNat (key.drop 4))

/-- Michael as a function of byte strings. -/
def michaelBytes (key m : Bytes) : Bytes :=
  leBytes 4 (michaelState key m).1 ++ leBytes 4 (michaelState key m).2

end Spec

open Spec

private theorem rotl_eq (x : BitVec 32) (k : Nat) (hk : k < 32) :
    (x.rotateLeft k).toNat = rotl x.toNat k := by
  have hx := x.isLt
  rw [BitVec.toNat_rotateLeft, Nat.mod_eq_of_lt hk, Nat.shiftLeft_eq, Nat.shiftRight_eq_div_pow]
  have hd : x.toNat / 2 ^ (32 - k) < 2 ^ k := by
    rw [Nat.div_lt_iff_lt_mul (Nat.two_pow_pos _), ← Nat.pow_add]
    rwa [show k + (32 - k) = 32 by omega]
  have hm : x.toNat * 2 ^ k % 2 ^ 32 = 2 ^ k * (x.toNat % 2 ^ (32 - k)) := by
    rw [show (2 : Nat) ^ 32 = 2 ^ k * 2 ^ (32 - k) by rw [← Nat.pow_add]; congr 1; omega,
      Nat.mul_comm, Nat.mul_mod_mul_left]
  rw [rotl, hm, Nat.two_pow_add_eq_or_of_lt hd]

private theorem rotr_eq (x : BitVec 32) : (x.rotateRight 2).toNat = rotl x.toNat 30 := by
  rw [← rotl_eq x 30 (by decide), BitVec.toNat_rotateLeft, BitVec.toNat_rotateRight, Nat.or_comm]

private theorem xswap_split (x : BitVec 32) : xswap x =
    (x.extractLsb' 16 8 ++ (x.extractLsb' 24 8 ++ (x.extractLsb' 0 8 ++ x.extractLsb' 8 8))).cast rfl := by
  apply BitVec.eq_of_getLsbD_eq
  intro i hi
  simp only [xswap, BitVec.getLsbD_or, BitVec.getLsbD_ushiftRight, BitVec.getLsbD_shiftLeft,
    BitVec.getLsbD_and, BitVec.getLsbD_cast, BitVec.getLsbD_append, BitVec.getLsbD_extractLsb']
  rcases i with _|_|_|_|_|_|_|_|_|_|_|_|_|_|_|_|_|_|_|_|_|_|_|_|_|_|_|_|_|_|_|_|i
  all_goals first | omega | simp [BitVec.getLsbD_of_ge]

private theorem toNat_app {n m : Nat} (a : BitVec n) (b : BitVec m) :
    (a ++ b).toNat = a.toNat * 2 ^ m + b.toNat := by
  rw [BitVec.toNat_append, Nat.shiftLeft_eq, Nat.mul_comm, Nat.two_pow_add_eq_or_of_lt b.isLt]

private theorem xswap_eq (x : BitVec 32) : (xswap x).toNat = leNat (xswapBytes (leBytes 4 x.toNat)) := by
  have hx := x.isLt
  rw [xswap_split, BitVec.toNat_cast, toNat_app, toNat_app, toNat_app]
  simp only [BitVec.extractLsb'_toNat, Nat.shiftRight_eq_div_pow, leBytes, xswapBytes, leNat,
    BitVec.toNat_ofNat]
  omega

/-- The block function is the standard's, for all states. -/
theorem c33_block (l r : BitVec 32) :
    ((michaelBlockFunction l r).1.toNat, (michaelBlockFunction l r).2.toNat) =
      michaelBlock l.toNat r.toNat := by
  simp only [michaelBlockFunction, michaelBlock, BitVec.toNat_add, BitVec.toNat_xor, rotr_eq, xswap_eq,
    rotl_eq _ 17 (by decide), rotl_eq _ 3 (by decide)]

/-- The inverse of the block function. -/
private def unblock (l r : BitVec 32) : BitVec 32 × BitVec 32 :=
  let l := l - r
  let r := r ^^^ l.rotateRight 2
  let l := l - r
  let r := r ^^^ l.rotateLeft 3
  let l := l - r
  let r := r ^^^ xswap l
  let l := l - r
  let r := r ^^^ l.rotateLeft 17
  (l, r)

private theorem xor_xor (a b : BitVec 32) : a ^^^ b ^^^ b = a := by
  rw [BitVec.xor_assoc, BitVec.xor_self, BitVec.xor_zero]

private theorem unblock_block (l r : BitVec 32) :
    unblock (michaelBlockFunction l r).1 (michaelBlockFunction l r).2 = (l, r) := by
  simp only [unblock, michaelBlockFunction, BitVec.add_sub_cancel, xor_xor]

private theorem block_unblock (l r : BitVec 32) :
    michaelBlockFunction (unblock l r).1 (unblock l r).2 = (l, r) := by
  simp only [unblock, michaelBlockFunction, BitVec.sub_add_cancel, xor_xor]

/-- The block function is a bijection of the states. -/
theorem c33_block_bijective :
    (∀ l r l' r' : BitVec 32, michaelBlockFunction l r = michaelBlockFunction l' r' → l = l' ∧ r = r') ∧
    (∀ l' r' : BitVec 32, ∃ l r, michaelBlockFunction l r = (l', r')) := by
  refine ⟨fun l r l' r' h => ?_, fun l r => ⟨(unblock l r).1, (unblock l r).2, block_unblock l r⟩⟩
  have h1 := unblock_block l r
  rw [h, unblock_block] at h1
  simpa [eq_comm] using h1

/-! ## The whole function -/

/-- One word into the state. -/
private def absorb (s : BitVec 32 × BitVec 32) (w : BitVec 32) : BitVec 32 × BitVec 32 :=
  michaelBlockFunction (s.1 ^^^ w) s.2

/-- The full words of a message. -/
private def fullWords : Bytes → List (BitVec 32)
  | a :: b :: c :: d :: rest => fromLE 32 [a, b, c, d] :: fullWords rest
  | _ => []

/-- What is left after the full words. -/
private def rest4 : Bytes → Bytes
  | _ :: _ :: _ :: _ :: rest => rest4 rest
  | l => l

private theorem foldlM_map' {α β γ : Type} (f : γ → α) (g : β → α → Res β) (l : List γ) (b : β) :
    (l.map f).foldlM g b = l.foldlM (fun b c => g b (f c)) b := by
  induction l generalizing b with
  | nil => rfl
  | cons x xs ih =>
    rw [List.map_cons, List.foldlM_cons, List.foldlM_cons]
    cases g b (f x) with
    | ok y => exact ih y
    | err e => rfl
    | panic => rfl

private theorem loop_eq : ∀ (m : Bytes) (s : BitVec 32 × BitVec 32),
    (List.range (m.length / 4)).foldlM (michaelStep m) s = .ok ((fullWords m).foldl absorb s)
  | a :: b :: c :: d :: rest, s => by
    have hl : (a :: b :: c :: d :: rest).length / 4 = rest.length / 4 + 1 := by
      simp only [List.length_cons]; omega
    rw [hl, List.range_succ_eq_map, List.foldlM_cons]
    have h0 : michaelStep (a :: b :: c :: d :: rest) s 0 = .ok (absorb s (fromLE 32 [a, b, c, d])) := by
      simp [michaelStep, slice, absorb]
    have hs : ∀ s' i, michaelStep (a :: b :: c :: d :: rest) s' (Nat.succ i) = michaelStep rest s' i := by
      intro s' i
      have hd : List.drop (Nat.succ i * 4) (a :: b :: c :: d :: rest) = List.drop (i * 4) rest := by
        rw [Nat.succ_mul, List.drop_succ_cons, List.drop_succ_cons, List.drop_succ_cons,
          List.drop_succ_cons]
      simp only [michaelStep, slice, hd, List.length_cons]
      congr 1
      by_cases h : i * 4 ≤ rest.length ∧ 4 ≤ rest.length - i * 4
      · rw [if_pos h, if_pos (by omega)]
      · rw [if_neg h, if_neg (by omega)]
    rw [h0, Res.ok_bind, foldlM_map']
    have := loop_eq rest (absorb s (fromLE 32 [a, b, c, d]))
    simp only [fullWords, List.foldl_cons, ← this]
    congr 1
    funext s' i
    exact hs s' i
  | [], s => by simp [fullWords]
  | [_], s => by simp [fullWords]
  | [_, _], s => by simp [fullWords]
  | [a, b, c], s => by simp [fullWords]

private theorem slice_rest : ∀ m : Bytes, slice m (m.length / 4 * 4) (m.length % 4) = .ok (rest4 m)
  | a :: b :: c :: d :: rest => by
    have ih := slice_rest rest
    have h1 : (a :: b :: c :: d :: rest).length / 4 * 4 = rest.length / 4 * 4 + 4 := by
      simp only [List.length_cons]; omega
    have h2 : (a :: b :: c :: d :: rest).length % 4 = rest.length % 4 := by
      simp only [List.length_cons]; omega
    rw [h1, h2, rest4, ← ih]
    simp only [slice, List.drop_succ_cons, List.length_cons]
    by_cases h : rest.length / 4 * 4 ≤ rest.length ∧ rest.length % 4 ≤ rest.length - rest.length / 4 * 4
    · rw [if_pos h, if_pos (by omega)]
    · exfalso; omega
  | [] => by simp [slice, rest4]
  | [_] => by simp [slice, rest4]
  | [_, _] => by simp [slice, rest4]
  | [a, b, c] => by simp [slice, rest4]

/-- The word made of the remaining bytes and the padding byte. -/
private def lastWord (m : Bytes) : BitVec 32 :=
  fromLE 32 ((rest4 m ++ List.replicate (4 - m.length % 4) 0).set (m.length % 4) 0x5a)

private theorem lastWord_cons (a b c d : Byte) (rest : Bytes) :
    lastWord (a :: b :: c :: d :: rest) = lastWord rest := by
  have h2 : (a :: b :: c :: d :: rest).length % 4 = rest.length % 4 := by
    simp only [List.length_cons]; omega
  simp only [lastWord, h2, rest4]

private theorem words_pad : ∀ m : Bytes,
    words (michaelPad m) = (fullWords m).map BitVec.toNat ++ [(lastWord m).toNat, 0]
  | a :: b :: c :: d :: rest => by
    have ih := words_pad rest
    have h2 : (a :: b :: c :: d :: rest).length % 4 = rest.length % 4 := by
      simp only [List.length_cons]; omega
    have hp : michaelPad (a :: b :: c :: d :: rest) = a :: b :: c :: d :: michaelPad rest := by
      simp only [michaelPad, h2, List.cons_append]
    rw [hp, words, ih, fullWords, lastWord_cons, List.map_cons, List.cons_append]
    congr 1
    have := leNat_lt [a, b, c, d]
    simp only [fromLE, BitVec.toNat_ofNat]
    rw [Nat.mod_eq_of_lt]
    simpa using this
  | [] => by
    simp [michaelPad, words, fullWords, lastWord, rest4, leNat, List.replicate, fromLE]
  | [a] => by
    have ha := a.isLt
    simp [michaelPad, words, fullWords, lastWord, rest4, leNat, List.replicate, fromLE]
    omega
  | [a, b] => by
    have ha := a.isLt; have hb := b.isLt
    simp [michaelPad, words, fullWords, lastWord, rest4, leNat, List.replicate, fromLE]
    omega
  | [a, b, c] => by
    have ha := a.isLt; have hb := b.isLt; have hc := c.isLt
    simp [michaelPad, words, fullWords, lastWord, rest4, leNat, List.replicate, fromLE]
    omega

/-- The state the code reaches. -/
private def codeState (key : BitVec 64) (m : Bytes) : BitVec 32 × BitVec 32 :=
  (fullWords m ++ [lastWord m, 0#32]).foldl absorb
    (u32ToBe ((key >>> 32).setWidth 32), u32ToBe (key.setWidth 32))

private theorem michael_eq (key : BitVec 64) (m : Bytes) :
    michael key m = .ok (fromBE 64 (toLE (codeState key m).1 ++ toLE (codeState key m).2)) := by
  unfold michael
  simp only [loop_eq, slice_rest, Res.ok_bind, Res.pure_eq]
  simp only [codeState, List.foldl_append, List.foldl_cons, List.foldl_nil, absorb, lastWord,
    BitVec.xor_zero]

private theorem foldl_words (ws : List (BitVec 32)) (s : BitVec 32 × BitVec 32) :
    (((ws.foldl absorb s).1.toNat, (ws.foldl absorb s).2.toNat)) =
      (ws.map BitVec.toNat).foldl (fun s w => michaelBlock (s.1 ^^^ w) s.2) (s.1.toNat, s.2.toNat) := by
  induction ws generalizing s with
  | nil => rfl
  | cons w ws ih =>
    rw [List.foldl_cons, ih, List.map_cons, List.foldl_cons, absorb, ← BitVec.toNat_xor, c33_block]

private theorem key_split (key : BitVec 64) :
    (toBE key).take 4 = toLE (u32ToBe ((key >>> 32).setWidth 32)) ∧
    (toBE key).drop 4 = toLE (u32ToBe (key.setWidth 32)) := by
  have hk := key.isLt
  have h : ∀ x : BitVec 32, toLE (u32ToBe x) = toBE x := by
    intro x
    rw [u32ToBe, fromBE, toLE_fromLE rfl _ (by simp)]
    rfl
  rw [h, h]
  have h1 : ((key >>> 32).setWidth 32).toNat = key.toNat / 2 ^ 32 := by
    simp [Nat.shiftRight_eq_div_pow]; omega
  have h2 : (key.setWidth 32).toNat = key.toNat % 2 ^ 32 := by simp
  simp only [toBE, toLE, leBytes, h1, h2, List.reverse_cons, List.reverse_nil, List.nil_append,
    List.cons_append, List.take, List.drop]
  simp only [List.cons.injEq, and_true]
  refine ⟨⟨?_, ?_, ?_, ?_⟩, ?_, ?_, ?_, ?_⟩ <;> (apply BitVec.eq_of_toNat_eq; simp; try omega)

/-- Michael for every key and every message: the result, written as eight bytes in big-endian order, is
what the specification computes from the eight key bytes in the same order.  Nothing panics. -/
theorem c33_michael (key : BitVec 64) (m : Bytes) :
    ∃ mic, michael key m = .ok mic ∧ toBE mic = michaelBytes (toBE key) m := by
  refine ⟨_, michael_eq key m, ?_⟩
  rw [toBE_fromBE rfl _ (by simp)]
  have hw := words_pad m
  have hs := foldl_words (fullWords m ++ [lastWord m, 0#32])
    (u32ToBe ((key >>> 32).setWidth 32), u32ToBe (key.setWidth 32))
  rw [List.map_append, show List.map BitVec.toNat [lastWord m, 0#32] = [(lastWord m).toNat, 0] from rfl,
    ← hw] at hs
  have hkey : ∀ x : BitVec 32, leNat (toLE x) = x.toNat := by
    intro x
    have := x.isLt
    rw [toLE, leNat_leBytes]
    exact Nat.mod_eq_of_lt this
  obtain ⟨k1, k2⟩ := key_split key
  rw [michaelBytes, michaelState, k1, k2, hkey, hkey, ← hs]
  rfl

/-- The same with the key given as eight bytes. -/
theorem c33_michael_bytes (key : Arr 8) (m : Bytes) :
    michael (fromBE 64 key.val) m = .ok (fromBE 64 (michaelBytes key.val m)) := by
  obtain ⟨mic, h1, h2⟩ := c33_michael (fromBE 64 key.val) m
  rw [toBE_fromBE rfl _ (by simp)] at h2
  rw [h1, ← h2, fromBE_toBE rfl]

private theorem absorb_inj (w : BitVec 32) {s t : BitVec 32 × BitVec 32} (h : absorb s w = absorb t w) :
    s = t := by
  obtain ⟨h1, h2⟩ := c33_block_bijective.1 _ _ _ _ h
  have := congrArg (· ^^^ w) h1
  simp only [xor_xor] at this
  exact Prod.ext this h2

/-- Different keys give different results for the same message: different states stay different. -/
theorem c33_key_injective (k k' : BitVec 64) (m : Bytes) (h : michael k m = michael k' m) : k = k' := by
  rw [michael_eq, michael_eq] at h
  simp only [Res.ok.injEq] at h
  have h' := congrArg toBE h
  rw [toBE_fromBE rfl _ (by simp), toBE_fromBE rfl _ (by simp)] at h'
  obtain ⟨h1, h2⟩ := List.append_inj h' (by simp)
  have e : codeState k m = codeState k' m := Prod.ext (toLE_inj rfl h1) (toLE_inj rfl h2)
  have hfold : ∀ (ws : List (BitVec 32)) (s t : BitVec 32 × BitVec 32),
      ws.foldl absorb s = ws.foldl absorb t → s = t := by
    intro ws
    induction ws with
    | nil => intro s t h; exact h
    | cons w ws ih => intro s t h; exact absorb_inj w (ih _ _ h)
  have := hfold _ _ _ e
  simp only [Prod.mk.injEq] at this
  obtain ⟨k1, k2⟩ := key_split k
  obtain ⟨l1, l2⟩ := key_split k'
  have hb : toBE k = toBE k' := by
    rw [← List.take_append_drop 4 (toBE k), ← List.take_append_drop 4 (toBE k'), k1, k2, l1, l2,
      this.1, this.2]
  rw [← fromBE_toBE rfl k, ← fromBE_toBE rfl k', hb]

/-! ## What a change of the message does -/

private theorem fold_inj (ws : List (BitVec 32)) (s t : BitVec 32 × BitVec 32)
    (h : ws.foldl absorb s = ws.foldl absorb t) : s = t := by
  induction ws generalizing s t with
  | nil => exact h
  | cons w ws ih => exact absorb_inj w (ih _ _ h)

private theorem words_app : ∀ (pre x : Bytes), pre.length % 4 = 0 →
    fullWords (pre ++ x) = fullWords pre ++ fullWords x ∧ lastWord (pre ++ x) = lastWord x
  | a :: b :: c :: d :: rest, x, h => by
    obtain ⟨h1, h2⟩ := words_app rest x (by simp only [List.length_cons] at h; omega)
    constructor
    · simp only [List.cons_append, fullWords, h1]
    · simp only [List.cons_append, lastWord_cons, h2]
  | [], x, _ => by simp [fullWords]
  | [_], x, h => by simp at h
  | [_, _], x, h => by simp at h
  | [_, _, _], x, h => by simp at h

private theorem state_eq (k : BitVec 64) (m m' : Bytes) (h : michael k m = michael k m') :
    codeState k m = codeState k m' := by
  rw [michael_eq, michael_eq] at h
  simp only [Res.ok.injEq] at h
  have h' := congrArg toBE h
  rw [toBE_fromBE rfl _ (by simp), toBE_fromBE rfl _ (by simp)] at h'
  obtain ⟨h1, h2⟩ := List.append_inj h' (by simp)
  exact Prod.ext (toLE_inj rfl h1) (toLE_inj rfl h2)

private theorem absorb_word {s : BitVec 32 × BitVec 32} {w w' : BitVec 32} (h : absorb s w = absorb s w') : w = w' := by
  obtain ⟨h1, -⟩ := c33_block_bijective.1 _ _ _ _ h
  have := congrArg (s.1 ^^^ ·) h1
  simpa only [← BitVec.xor_assoc, BitVec.xor_self, BitVec.zero_xor] using this

private theorem fromLE_inj (x y : Bytes) (hx : x.length = 4) (hy : y.length = 4) (h : fromLE 32 x = fromLE 32 y) : x = y := by
  rw [← toLE_fromLE (w := 32) rfl x hx, ← toLE_fromLE (w := 32) rfl y hy, h]

private theorem lastWord_inj (w w' : Bytes) (hw : w.length < 4) (hw' : w'.length < 4) (h : lastWord w = lastWord w') :
    w = w' := by
  have key : ∀ x : Bytes, x.length < 4 → ∃ y, y.length = 4 ∧ lastWord x = fromLE 32 y ∧
      y = x ++ 0x5a :: List.replicate (3 - x.length) 0 := by
    intro x hx
    match x, hx with
    | [], _ => exact ⟨_, rfl, rfl, rfl⟩
    | [_], _ => exact ⟨_, rfl, rfl, rfl⟩
    | [_, _], _ => exact ⟨_, rfl, rfl, rfl⟩
    | [_, _, _], _ => exact ⟨_, rfl, rfl, rfl⟩
    | _ :: _ :: _ :: _ :: _, hx => simp only [List.length_cons] at hx; omega
  obtain ⟨y, h1, h2, h3⟩ := key w hw
  obtain ⟨y', h1', h2', h3'⟩ := key w' hw'
  have := fromLE_inj y y' h1 h1' (by rw [← h2, ← h2', h])
  rw [h3, h3'] at this
  have aux : ∀ x y : Bytes, x.length < 4 → y.length < 4 → x.length < y.length →
      x ++ 0x5a :: List.replicate (3 - x.length) 0 ≠ y ++ 0x5a :: List.replicate (3 - y.length) 0 := by
    intro x y hx hy hlt he
    have := congrArg (·[y.length]?) he
    simp only [List.getElem?_append_right (Nat.le_of_lt hlt), List.getElem?_append_right (Nat.le_refl _), Nat.sub_self,
      List.getElem?_cons_zero] at this
    rw [show y.length - x.length = y.length - x.length - 1 + 1 by omega, List.getElem?_cons_succ,
      List.getElem?_replicate] at this
    split at this
    · exact absurd this (by decide)
    · cases this
  rcases Nat.lt_trichotomy w.length w'.length with hlt | heq | hlt
  · exact absurd this (aux w w' hw hw' hlt)
  · exact (List.append_inj this heq).1
  · exact absurd this.symm (aux w' w hw' hw hlt)

/-- A change within one word of the message always changes the result, whatever the key: if four octets at a multiple of four
are replaced by others; or if the octets after the last multiple of four are replaced, be they as many or not. -/
theorem c33_one_word (k : BitVec 64) (pre w w' post : Bytes) (hp : pre.length % 4 = 0) (hne : w ≠ w')
    (h : w.length = 4 ∧ w'.length = 4 ∨ w.length < 4 ∧ w'.length < 4 ∧ post = []) :
    michael k (pre ++ (w ++ post)) ≠ michael k (pre ++ (w' ++ post)) := by
  intro he
  have hs := state_eq k _ _ he
  simp only [codeState, (words_app pre _ hp).1, (words_app pre _ hp).2] at hs
  rcases h with ⟨h1, h2⟩ | ⟨h1, h2, rfl⟩
  · have e : ∀ x : Bytes, x.length = 4 → fullWords x = [fromLE 32 x] := by
      intro x hx
      match x, hx with
      | [_, _, _, _], _ => rfl
    rw [(words_app w post (by omega)).1, (words_app w post (by omega)).2, (words_app w' post (by omega)).1,
      (words_app w' post (by omega)).2, e w h1, e w' h2] at hs
    simp only [List.foldl_append, List.foldl_cons, List.foldl_nil] at hs
    exact hne (fromLE_inj w w' h1 h2 (absorb_word (fold_inj _ _ _ (absorb_inj _ (absorb_inj _ hs)))))
  · have e : ∀ x : Bytes, x.length < 4 → fullWords x = [] := by
      intro x hx
      match x, hx with
      | [], _ | [_], _ | [_, _], _ | [_, _, _], _ => rfl
      | _ :: _ :: _ :: _ :: _, hx => simp only [List.length_cons] at hx; omega
    simp only [List.append_nil, e w h1, e w' h2, List.foldl_append, List.foldl_cons, List.foldl_nil] at hs
    exact hne (lastWord_inj w w' h1 h2 (absorb_word (absorb_inj _ hs)))

/-- For every message and every result there is a key, and by `c33_key_injective` only one: whoever knows a message with its
code can compute the key.  (So the code must not be seen in the clear; 12.5.2.1.)  -/
theorem c33_key_exists (m : Bytes) (mic : BitVec 64) : ∃ k, michael k m = .ok mic := by
  have hsurj : ∀ (ws : List (BitVec 32)) (t : BitVec 32 × BitVec 32), ∃ s, ws.foldl absorb s = t := by
    intro ws
    induction ws with
    | nil => exact fun t => ⟨t, rfl⟩
    | cons w ws ih =>
      intro t
      obtain ⟨u, hu⟩ := ih t
      obtain ⟨l, r, hlr⟩ := c33_block_bijective.2 u.1 u.2
      refine ⟨(l ^^^ w, r), ?_⟩
      rw [List.foldl_cons, absorb, xor_xor, hlr]
      exact hu
  obtain ⟨s, hs⟩ := hsurj (fullWords m ++ [lastWord m, 0#32])
    (fromLE 32 ((toBE mic).take 4), fromLE 32 ((toBE mic).drop 4))
  refine ⟨fromBE 64 (toLE s.1 ++ toLE s.2), ?_⟩
  obtain ⟨k1, k2⟩ := key_split (fromBE 64 (toLE s.1 ++ toLE s.2))
  rw [toBE_fromBE rfl _ (by simp)] at k1 k2
  rw [List.take_left' (by simp)] at k1
  rw [List.drop_left' (by simp)] at k2
  rw [michael_eq, codeState, ← toLE_inj rfl k1, ← toLE_inj rfl k2, hs, toLE_fromLE rfl _ (by simp),
    toLE_fromLE rfl _ (by simp), List.take_append_drop, fromBE_toBE rfl]

/-- Test vectors of the standard (annex J): the first two of the chain. -/
example : michael 0 [] = .ok 0x82925c1ca1d130b8 ∧
    michael 0x82925c1ca1d130b8 [0x4d] = .ok 0x434721ca40639b3f := by decide +kernel

/-- Changes that `c33_one_word` speaks of: in the middle, and at the end with another length. -/
example (k : BitVec 64) : michael k [1, 2, 3, 4, 5, 6, 7, 8, 9] ≠ michael k [1, 2, 3, 4, 5, 0, 7, 8, 9] ∧
    michael k [1, 2, 3, 4, 5] ≠ michael k [1, 2, 3, 4, 6, 7] :=
  ⟨c33_one_word k [1, 2, 3, 4] [5, 6, 7, 8] [5, 0, 7, 8] [9] rfl (by decide) (.inl ⟨rfl, rfl⟩),
    c33_one_word k [1, 2, 3, 4] [5] [6, 7] [] rfl (by decide) (.inr ⟨by decide, by decide, rfl⟩)⟩

end Verif
