import Verif.Spec.KeyWrap
/-!
# AES-128 and the key wrap are invertible
-/
namespace Verif.Spec

open Verif

theorem invSbox_sbox : ∀ b : Byte, invSbox (sbox b) = b := by decide +kernel

theorem sbox_invSbox : ∀ b : Byte, sbox (invSbox b) = b := by decide +kernel

theorem xtime_xor (a b : Byte) : xtime (a ^^^ b) = xtime a ^^^ xtime b := by
  have h : ∀ p q : Bool, (if (p ^^ q) = true then (0x1b : Byte) else 0) =
      (if p = true then (0x1b : Byte) else 0) ^^^ (if q = true then (0x1b : Byte) else 0) := by decide
  simp only [xtime, BitVec.shiftLeft_xor_distrib, BitVec.msb_xor, h]
  ac_rfl

theorem mul3_xor (a b : Byte) : mul3 (a ^^^ b) = mul3 a ^^^ mul3 b := by
  simp only [mul3, xtime_xor]; ac_rfl
theorem mul9_xor (a b : Byte) : mul9 (a ^^^ b) = mul9 a ^^^ mul9 b := by
  simp only [mul9, xtime_xor]; ac_rfl
theorem mul11_xor (a b : Byte) : mul11 (a ^^^ b) = mul11 a ^^^ mul11 b := by
  simp only [mul11, xtime_xor]; ac_rfl
theorem mul13_xor (a b : Byte) : mul13 (a ^^^ b) = mul13 a ^^^ mul13 b := by
  simp only [mul13, xtime_xor]; ac_rfl
theorem mul14_xor (a b : Byte) : mul14 (a ^^^ b) = mul14 a ^^^ mul14 b := by
  simp only [mul14, xtime_xor]; ac_rfl

/-- The row of the product of the two matrices that gives one, in both orders. -/
theorem row1 : ∀ a : Byte, mul14 (xtime a) ^^^ mul11 a ^^^ mul13 a ^^^ mul9 (mul3 a) = a := by decide +kernel
theorem row2 : ∀ a : Byte, mul14 (mul3 a) ^^^ mul11 (xtime a) ^^^ mul13 a ^^^ mul9 a = 0 := by decide +kernel
theorem row3 : ∀ a : Byte, mul14 a ^^^ mul11 (mul3 a) ^^^ mul13 (xtime a) ^^^ mul9 a = 0 := by decide +kernel
theorem row4 : ∀ a : Byte, mul14 a ^^^ mul11 a ^^^ mul13 (mul3 a) ^^^ mul9 (xtime a) = 0 := by decide +kernel
theorem col1 : ∀ a : Byte, xtime (mul14 a) ^^^ mul3 (mul9 a) ^^^ mul13 a ^^^ mul11 a = a := by decide +kernel
theorem col2 : ∀ a : Byte, xtime (mul11 a) ^^^ mul3 (mul14 a) ^^^ mul9 a ^^^ mul13 a = 0 := by decide +kernel
theorem col3 : ∀ a : Byte, xtime (mul13 a) ^^^ mul3 (mul11 a) ^^^ mul14 a ^^^ mul9 a = 0 := by decide +kernel
theorem col4 : ∀ a : Byte, xtime (mul9 a) ^^^ mul3 (mul13 a) ^^^ mul11 a ^^^ mul14 a = 0 := by decide +kernel

theorem xor_entry {a : Byte} {A B C D X : Byte} (hA : A = a) (hB : B = 0) (hC : C = 0) (hD : D = 0)
    (h : X = A ^^^ B ^^^ C ^^^ D) : X = a := by
  rw [h, hA, hB, hC, hD]; simp

theorem mix_entry (a b c d : Byte) :
    mul14 (xtime a ^^^ mul3 b ^^^ c ^^^ d) ^^^ mul11 (a ^^^ xtime b ^^^ mul3 c ^^^ d) ^^^
      mul13 (a ^^^ b ^^^ xtime c ^^^ mul3 d) ^^^ mul9 (mul3 a ^^^ b ^^^ c ^^^ xtime d) = a := by
  refine xor_entry (a := a) (row1 a) (row2 b) (row3 c) (row4 d) ?_
  simp only [mul14_xor, mul11_xor, mul13_xor, mul9_xor]
  ac_rfl

theorem unmix_entry (a b c d : Byte) :
    xtime (mul14 a ^^^ mul11 b ^^^ mul13 c ^^^ mul9 d) ^^^ mul3 (mul9 a ^^^ mul14 b ^^^ mul11 c ^^^ mul13 d) ^^^
      (mul13 a ^^^ mul9 b ^^^ mul14 c ^^^ mul11 d) ^^^ (mul11 a ^^^ mul13 b ^^^ mul9 c ^^^ mul14 d) = a := by
  refine xor_entry (a := a) (col1 a) (col2 b) (col3 c) (col4 d) ?_
  simp only [xtime_xor, mul3_xor]
  ac_rfl

theorem invMix_mix : ∀ s : Bytes, invMixColumns (mixColumns s) = s
  | a :: b :: c :: d :: rest => by
    simp only [mixColumns, invMixColumns]
    rw [invMix_mix rest]
    have h1 := mix_entry a b c d
    have h2 := mix_entry b c d a
    have h3 := mix_entry c d a b
    have h4 := mix_entry d a b c
    simp only [List.cons.injEq, and_true]
    refine ⟨h1, Eq.trans ?_ h2, Eq.trans ?_ h3, Eq.trans ?_ h4⟩ <;>
      simp only [mul14_xor, mul11_xor, mul13_xor, mul9_xor] <;> ac_rfl
  | [_, _, _] | [_, _] | [_] | [] => rfl

theorem mix_invMix : ∀ s : Bytes, mixColumns (invMixColumns s) = s
  | a :: b :: c :: d :: rest => by
    simp only [mixColumns, invMixColumns]
    rw [mix_invMix rest]
    have h1 := unmix_entry a b c d
    have h2 := unmix_entry b c d a
    have h3 := unmix_entry c d a b
    have h4 := unmix_entry d a b c
    simp only [List.cons.injEq, and_true]
    refine ⟨h1, Eq.trans ?_ h2, Eq.trans ?_ h3, Eq.trans ?_ h4⟩ <;>
      simp only [xtime_xor, mul3_xor] <;> ac_rfl
  | [_, _, _] | [_, _] | [_] | [] => rfl

theorem mix_length : ∀ s : Bytes, (mixColumns s).length = s.length
  | a :: b :: c :: d :: rest => by simp only [mixColumns, List.length_cons, mix_length rest]
  | [_, _, _] | [_, _] | [_] | [] => rfl

theorem invMix_length : ∀ s : Bytes, (invMixColumns s).length = s.length
  | a :: b :: c :: d :: rest => by simp only [invMixColumns, List.length_cons, invMix_length rest]
  | [_, _, _] | [_, _] | [_] | [] => rfl

theorem sixteen (s : Bytes) (h : s.length = 16) : ∃ a0 a1 a2 a3 b0 b1 b2 b3 c0 c1 c2 c3 d0 d1 d2 d3,
    s = [a0, a1, a2, a3, b0, b1, b2, b3, c0, c1, c2, c3, d0, d1, d2, d3] := by
  match s, h with
  | [a0, a1, a2, a3, b0, b1, b2, b3, c0, c1, c2, c3, d0, d1, d2, d3], _ =>
    exact ⟨a0, a1, a2, a3, b0, b1, b2, b3, c0, c1, c2, c3, d0, d1, d2, d3, rfl⟩

theorem invShift_shift (s : Bytes) (h : s.length = 16) : invShiftRows (shiftRows s) = s := by
  obtain ⟨_, _, _, _, _, _, _, _, _, _, _, _, _, _, _, _, rfl⟩ := sixteen s h; rfl

theorem shift_invShift (s : Bytes) (h : s.length = 16) : shiftRows (invShiftRows s) = s := by
  obtain ⟨_, _, _, _, _, _, _, _, _, _, _, _, _, _, _, _, rfl⟩ := sixteen s h; rfl

theorem shift_length (s : Bytes) (h : s.length = 16) : (shiftRows s).length = 16 := by
  obtain ⟨_, _, _, _, _, _, _, _, _, _, _, _, _, _, _, _, rfl⟩ := sixteen s h; rfl

theorem invShift_length (s : Bytes) (h : s.length = 16) : (invShiftRows s).length = 16 := by
  obtain ⟨_, _, _, _, _, _, _, _, _, _, _, _, _, _, _, _, rfl⟩ := sixteen s h; rfl

theorem nextRoundKey_length (r : Byte) (s : Bytes) (h : s.length = 16) : (nextRoundKey r s).length = 16 := by
  obtain ⟨_, _, _, _, _, _, _, _, _, _, _, _, _, _, _, _, rfl⟩ := sixteen s h; rfl

theorem xorBlock_length (a b : Bytes) (h : a.length = b.length) : (xorBlock a b).length = a.length := by
  simp [xorBlock, h]

theorem xorBlock_cancel : ∀ (a b : Bytes), a.length = b.length → xorBlock (xorBlock a b) b = a
  | [], _, _ => rfl
  | x :: a, [], h => by simp at h
  | x :: a, y :: b, h => by
    have ih := xorBlock_cancel a b (by simpa using h)
    simp only [xorBlock, List.zipWith_cons_cons] at ih ⊢
    rw [ih, BitVec.xor_assoc, BitVec.xor_self, BitVec.xor_zero]

theorem roundKeys_length (rs : List Byte) : ∀ k : Bytes, k.length = 16 → ∀ q ∈ roundKeys rs k, q.length = 16 := by
  induction rs with
  | nil => intro k _ q hq; cases hq
  | cons r rs ih =>
    intro k hk q hq
    have hn := nextRoundKey_length r k hk
    rcases List.mem_cons.1 hq with h | h
    · rw [h, hn]
    · exact ih _ hn q h

theorem encRounds_length : ∀ (ks : List Bytes), (∀ q ∈ ks, q.length = 16) → ∀ s : Bytes, s.length = 16 →
    (encRounds ks s).length = 16
  | [], _, s, hs => hs
  | [k], hk, s, hs => by
    have h1 := shift_length (s.map sbox) (by simpa using hs)
    have h2 := hk k (by simp)
    simp only [encRounds, xorBlock_length _ _ (h1.trans h2.symm), h1]
  | k :: k' :: ks, hk, s, hs => by
    have h1 := shift_length (s.map sbox) (by simpa using hs)
    have h2 := hk k (by simp)
    simp only [encRounds]
    exact encRounds_length (k' :: ks) (fun q hq => hk q (List.mem_cons_of_mem _ hq)) _
      (by rw [xorBlock_length _ _ (by rw [mix_length, h1, h2]), mix_length, h1])

theorem decRounds_length : ∀ (ks : List Bytes), (∀ q ∈ ks, q.length = 16) → ∀ s : Bytes, s.length = 16 →
    (decRounds ks s).length = 16
  | [], _, s, hs => hs
  | [k], hk, s, hs => by
    have h2 := hk k (by simp)
    simp only [decRounds, List.length_map]
    exact invShift_length _ (by rw [xorBlock_length _ _ (hs.trans h2.symm), hs])
  | k :: k' :: ks, hk, s, hs => by
    have h2 := hk k (by simp)
    have h1 := decRounds_length (k' :: ks) (fun q hq => hk q (List.mem_cons_of_mem _ hq)) s hs
    simp only [decRounds, List.length_map]
    exact invShift_length _ (by rw [invMix_length, xorBlock_length _ _ (h1.trans h2.symm), h1])

theorem map_invSbox_sbox (s : Bytes) : (s.map sbox).map invSbox = s := by
  rw [List.map_map]
  exact (List.map_congr_left fun b _ => invSbox_sbox b).trans (List.map_id' s)

theorem map_sbox_invSbox (s : Bytes) : (s.map invSbox).map sbox = s := by
  rw [List.map_map]
  exact (List.map_congr_left fun b _ => sbox_invSbox b).trans (List.map_id' s)

theorem dec_enc : ∀ (ks : List Bytes), (∀ q ∈ ks, q.length = 16) → ∀ s : Bytes, s.length = 16 →
    decRounds ks (encRounds ks s) = s
  | [], _, s, _ => rfl
  | [k], hk, s, hs => by
    have hm : (s.map sbox).length = 16 := by simpa using hs
    have h1 := shift_length (s.map sbox) hm
    have h2 := hk k (by simp)
    simp only [encRounds, decRounds]
    rw [xorBlock_cancel _ _ (h1.trans h2.symm), invShift_shift _ hm, map_invSbox_sbox]
  | k :: k' :: ks, hk, s, hs => by
    have hm : (s.map sbox).length = 16 := by simpa using hs
    have h1 := shift_length (s.map sbox) hm
    have h2 := hk k (by simp)
    simp only [encRounds, decRounds]
    rw [dec_enc (k' :: ks) (fun q hq => hk q (List.mem_cons_of_mem _ hq)) _
      (by rw [xorBlock_length _ _ (by rw [mix_length, h1, h2]), mix_length, h1])]
    rw [xorBlock_cancel _ _ (by rw [mix_length, h1, h2]), invMix_mix, invShift_shift _ hm, map_invSbox_sbox]

theorem enc_dec : ∀ (ks : List Bytes), (∀ q ∈ ks, q.length = 16) → ∀ s : Bytes, s.length = 16 →
    encRounds ks (decRounds ks s) = s
  | [], _, s, _ => rfl
  | [k], hk, s, hs => by
    have h2 := hk k (by simp)
    have h3 : (xorBlock s k).length = 16 := by rw [xorBlock_length _ _ (hs.trans h2.symm), hs]
    simp only [encRounds, decRounds]
    rw [map_sbox_invSbox, shift_invShift _ h3, xorBlock_cancel _ _ (hs.trans h2.symm)]
  | k :: k' :: ks, hk, s, hs => by
    have h2 := hk k (by simp)
    have hk' := fun q hq => hk q (List.mem_cons_of_mem _ hq)
    have h1 := decRounds_length (k' :: ks) hk' s hs
    simp only [encRounds, decRounds]
    rw [map_sbox_invSbox, shift_invShift _ (by rw [invMix_length, xorBlock_length _ _ (h1.trans h2.symm), h1]),
      mix_invMix, xorBlock_cancel _ _ (h1.trans h2.symm), enc_dec (k' :: ks) hk' s hs]

theorem aesEncrypt_length (key : Arr 16) (b : Bytes) (h : b.length = 16) : (aesEncrypt key b).length = 16 :=
  encRounds_length _ (roundKeys_length _ _ key.property) _
    (by rw [xorBlock_length _ _ (h.trans key.property.symm), h])

theorem aesDecrypt_length (key : Arr 16) (b : Bytes) (h : b.length = 16) : (aesDecrypt key b).length = 16 := by
  have h1 := decRounds_length _ (roundKeys_length rcons _ key.property) b h
  rw [aesDecrypt, xorBlock_length _ _ (h1.trans key.property.symm), h1]

/-- Decryption undoes encryption. -/
theorem aesDecrypt_encrypt (key : Arr 16) (b : Bytes) (h : b.length = 16) :
    aesDecrypt key (aesEncrypt key b) = b := by
  rw [aesDecrypt, aesEncrypt, dec_enc _ (roundKeys_length _ _ key.property) _
    (by rw [xorBlock_length _ _ (h.trans key.property.symm), h]), xorBlock_cancel _ _ (h.trans key.property.symm)]

/-- Encryption undoes decryption. -/
theorem aesEncrypt_decrypt (key : Arr 16) (b : Bytes) (h : b.length = 16) :
    aesEncrypt key (aesDecrypt key b) = b := by
  have h1 := decRounds_length _ (roundKeys_length rcons _ key.property) b h
  rw [aesEncrypt, aesDecrypt, xorBlock_cancel _ _ (h1.trans key.property.symm),
    enc_dec _ (roundKeys_length _ _ key.property) b h]

/-! ## The wrapping process -/

/-- A block cipher and its inverse. -/
structure Cipher (enc dec : Bytes → Bytes) : Prop where
  enc_length : ∀ b, b.length = 16 → (enc b).length = 16
  dec_length : ∀ b, b.length = 16 → (dec b).length = 16
  dec_enc : ∀ b, b.length = 16 → dec (enc b) = b
  enc_dec : ∀ b, b.length = 16 → enc (dec b) = b

theorem aes_cipher (key : Arr 16) : Cipher (aesEncrypt key) (aesDecrypt key) :=
  ⟨aesEncrypt_length key, aesDecrypt_length key, aesDecrypt_encrypt key, aesEncrypt_decrypt key⟩

/-- Registers of eight bytes. -/
def Regs (rs : List Bytes) : Prop := ∀ r ∈ rs, r.length = 8

theorem stepBytes_length (t : Nat) : (stepBytes t).length = 8 := by simp [stepBytes]

section
variable {enc dec : Bytes → Bytes} (hc : Cipher enc dec)
include hc

theorem wrapPass_shape : ∀ (rs : List Bytes) (t : Nat) (a : Bytes), a.length = 8 → Regs rs →
    (wrapPass enc t a rs).1.length = 8 ∧ Regs (wrapPass enc t a rs).2 ∧
      (wrapPass enc t a rs).2.length = rs.length
  | [], _, a, ha, hr => ⟨ha, hr, rfl⟩
  | r :: rs, t, a, ha, hr => by
    have hl := hc.enc_length (a ++ r) (by rw [List.length_append, ha, hr r (by simp)])
    have ih := wrapPass_shape rs (t + 1) (xorBlock ((enc (a ++ r)).take 8) (stepBytes t))
      (by rw [xorBlock_length _ _ (by simp [hl, stepBytes_length])]; simp [hl])
      (fun q hq => hr q (List.mem_cons_of_mem _ hq))
    simp only [wrapPass]
    refine ⟨ih.1, fun q hq => ?_, by simp [ih.2.2]⟩
    rcases List.mem_cons.1 hq with h | h
    · rw [h]; simp [hl]
    · exact ih.2.1 q h

theorem unwrapPass_shape : ∀ (rs : List Bytes) (t : Nat) (a : Bytes), a.length = 8 → Regs rs →
    (unwrapPass dec t a rs).1.length = 8 ∧ Regs (unwrapPass dec t a rs).2 ∧
      (unwrapPass dec t a rs).2.length = rs.length
  | [], _, a, ha, hr => ⟨ha, hr, rfl⟩
  | r :: rs, t, a, ha, hr => by
    have ih := unwrapPass_shape rs (t + 1) a ha (fun q hq => hr q (List.mem_cons_of_mem _ hq))
    have hl := hc.dec_length (xorBlock (unwrapPass dec (t + 1) a rs).1 (stepBytes t) ++ r)
      (by rw [List.length_append, xorBlock_length _ _ (by rw [ih.1, stepBytes_length]), ih.1, hr r (by simp)])
    simp only [unwrapPass]
    refine ⟨by simp [hl], fun q hq => ?_, by simp [ih.2.2]⟩
    rcases List.mem_cons.1 hq with h | h
    · rw [h]; simp [hl]
    · exact ih.2.1 q h

theorem unwrapPass_wrapPass : ∀ (rs : List Bytes) (t : Nat) (a : Bytes), a.length = 8 → Regs rs →
    unwrapPass dec t (wrapPass enc t a rs).1 (wrapPass enc t a rs).2 = (a, rs)
  | [], _, a, _, _ => rfl
  | r :: rs, t, a, ha, hr => by
    have h16 : (a ++ r).length = 16 := by rw [List.length_append, ha, hr r (by simp)]
    have hl := hc.enc_length (a ++ r) h16
    have ht : ((enc (a ++ r)).take 8).length = (stepBytes t).length := by simp [hl, stepBytes_length]
    have ih := unwrapPass_wrapPass rs (t + 1) (xorBlock ((enc (a ++ r)).take 8) (stepBytes t))
      (by rw [xorBlock_length _ _ ht, ht, stepBytes_length]) (fun q hq => hr q (List.mem_cons_of_mem _ hq))
    simp only [wrapPass, unwrapPass]
    rw [ih]
    simp only
    rw [xorBlock_cancel _ _ ht, List.take_append_drop, hc.dec_enc _ h16]
    simp [ha]

theorem wrapPass_unwrapPass : ∀ (rs : List Bytes) (t : Nat) (a : Bytes), a.length = 8 → Regs rs →
    wrapPass enc t (unwrapPass dec t a rs).1 (unwrapPass dec t a rs).2 = (a, rs)
  | [], _, a, _, _ => rfl
  | r :: rs, t, a, ha, hr => by
    have hr' : Regs rs := fun q hq => hr q (List.mem_cons_of_mem _ hq)
    have hs := (unwrapPass_shape hc rs (t + 1) a ha hr').1
    have hx : (unwrapPass dec (t + 1) a rs).1.length = (stepBytes t).length := by rw [hs, stepBytes_length]
    have hxl := (xorBlock_length _ _ hx).trans hs
    have h16 : (xorBlock (unwrapPass dec (t + 1) a rs).1 (stepBytes t) ++ r).length = 16 := by
      rw [List.length_append, hxl, hr r (by simp)]
    have ih := wrapPass_unwrapPass rs (t + 1) a ha hr'
    simp only [wrapPass, unwrapPass]
    rw [List.take_append_drop, hc.enc_dec _ h16]
    rw [List.take_left' hxl, List.drop_left' hxl, xorBlock_cancel _ _ hx, ih]

theorem wrapPasses_shape : ∀ (ts : List Nat) (s : Bytes × List Bytes), s.1.length = 8 → Regs s.2 →
    (wrapPasses enc ts s).1.length = 8 ∧ Regs (wrapPasses enc ts s).2 ∧
      (wrapPasses enc ts s).2.length = s.2.length
  | [], s, ha, hr => ⟨ha, hr, rfl⟩
  | t :: ts, s, ha, hr => by
    have h := wrapPass_shape hc s.2 t s.1 ha hr
    have ih := wrapPasses_shape ts _ h.1 h.2.1
    exact ⟨ih.1, ih.2.1, ih.2.2.trans h.2.2⟩

theorem unwrapPasses_shape : ∀ (ts : List Nat) (s : Bytes × List Bytes), s.1.length = 8 → Regs s.2 →
    (unwrapPasses dec ts s).1.length = 8 ∧ Regs (unwrapPasses dec ts s).2 ∧
      (unwrapPasses dec ts s).2.length = s.2.length
  | [], s, ha, hr => ⟨ha, hr, rfl⟩
  | t :: ts, s, ha, hr => by
    have ih := unwrapPasses_shape ts s ha hr
    have h := unwrapPass_shape hc (unwrapPasses dec ts s).2 t _ ih.1 ih.2.1
    exact ⟨h.1, h.2.1, h.2.2.trans ih.2.2⟩

theorem unwrapPasses_wrapPasses : ∀ (ts : List Nat) (s : Bytes × List Bytes), s.1.length = 8 → Regs s.2 →
    unwrapPasses dec ts (wrapPasses enc ts s) = s
  | [], s, _, _ => rfl
  | t :: ts, s, ha, hr => by
    have h := wrapPass_shape hc s.2 t s.1 ha hr
    simp only [wrapPasses, unwrapPasses]
    rw [unwrapPasses_wrapPasses ts _ h.1 h.2.1]
    exact unwrapPass_wrapPass hc s.2 t s.1 ha hr

theorem wrapPasses_unwrapPasses : ∀ (ts : List Nat) (s : Bytes × List Bytes), s.1.length = 8 → Regs s.2 →
    wrapPasses enc ts (unwrapPasses dec ts s) = s
  | [], s, _, _ => rfl
  | t :: ts, s, ha, hr => by
    have ih := unwrapPasses_shape hc ts s ha hr
    simp only [wrapPasses, unwrapPasses]
    rw [wrapPass_unwrapPass hc _ t _ ih.1 ih.2.1]
    exact wrapPasses_unwrapPasses ts s ha hr

end

theorem registers_regs : ∀ (n : Nat) (bs : Bytes), 8 * n ≤ bs.length → Regs (registers n bs)
  | 0, _, _ => fun _ h => nomatch h
  | n + 1, bs, h => by
    intro q hq
    rcases List.mem_cons.1 hq with h' | h'
    · rw [h']; simp; omega
    · exact registers_regs n (bs.drop 8) (by simp; omega) q h'

theorem registers_length : ∀ (n : Nat) (bs : Bytes), (registers n bs).length = n
  | 0, _ => rfl
  | n + 1, bs => by simp [registers, registers_length n]

theorem registers_flatten : ∀ (n : Nat) (bs : Bytes), bs.length = 8 * n → (registers n bs).flatten = bs
  | 0, bs, h => by simp at h; simp [registers, h]
  | n + 1, bs, h => by
    simp only [registers, List.flatten_cons]
    rw [registers_flatten n (bs.drop 8) (by simp; omega), List.take_append_drop]

theorem registers_of_flatten : ∀ (rs : List Bytes), Regs rs → registers rs.length rs.flatten = rs
  | [], _ => rfl
  | r :: rs, h => by
    have hl := h r (by simp)
    simp only [List.length_cons, registers, List.flatten_cons]
    rw [List.take_left' hl, List.drop_left' hl, registers_of_flatten rs fun q hq => h q (List.mem_cons_of_mem _ hq)]

theorem regs_flatten_length : ∀ (rs : List Bytes), Regs rs → rs.flatten.length = 8 * rs.length
  | [], _ => rfl
  | r :: rs, h => by
    have hl := h r (by simp)
    have ih := regs_flatten_length rs fun q hq => h q (List.mem_cons_of_mem _ hq)
    simp only [List.flatten_cons, List.length_append, List.length_cons, hl, ih]; omega

theorem wrapWith_length (key : Arr 16) (iv data : Bytes) (hi : iv.length = 8) (hd : data.length % 8 = 0) :
    (wrapWith key iv data).length = data.length + 8 := by
  have hs := wrapPasses_shape (aes_cipher key) (passStarts (data.length / 8)) (iv, registers (data.length / 8) data) hi
    (registers_regs _ _ (by omega))
  simp only [wrapWith, List.length_append]
  rw [hs.1, regs_flatten_length _ hs.2.1, hs.2.2]
  simp only [registers_length]; omega

/-- Unwrapping gives back the initial value and the data. -/
theorem unwrapWith_wrapWith (key : Arr 16) (iv data : Bytes) (hi : iv.length = 8) (hd : data.length % 8 = 0) :
    unwrapWith key (wrapWith key iv data) = (iv, data) := by
  have hs := wrapPasses_shape (aes_cipher key) (passStarts (data.length / 8)) (iv, registers (data.length / 8) data) hi
    (registers_regs _ _ (by omega))
  have hl := wrapWith_length key iv data hi hd
  have hn : (wrapWith key iv data).length / 8 - 1 = data.length / 8 := by omega
  simp only [registers_length] at hs
  simp only [unwrapWith]
  rw [hn]
  simp only [wrapWith]
  rw [List.take_left' hs.1, List.drop_left' hs.1]
  have hr := registers_of_flatten _ hs.2.1
  rw [hs.2.2] at hr
  rw [hr]
  have h := unwrapPasses_wrapPasses (aes_cipher key) (passStarts (data.length / 8))
    (iv, registers (data.length / 8) data) hi (registers_regs _ _ (by omega))
  rw [h]
  simp only [registers_flatten _ data (by omega : data.length = 8 * (data.length / 8))]

/-- Wrapping what was unwrapped gives back the wrapped bytes. -/
theorem wrapWith_unwrapWith (key : Arr 16) (w : Bytes) (h8 : w.length % 8 = 0) (hw : 8 ≤ w.length) :
    wrapWith key (unwrapWith key w).1 (unwrapWith key w).2 = w ∧ (unwrapWith key w).1.length = 8 ∧
      (unwrapWith key w).2.length + 8 = w.length := by
  have ha : (w.take 8).length = 8 := by simp; omega
  have hr := registers_regs (w.length / 8 - 1) (w.drop 8) (by simp; omega)
  have hs := unwrapPasses_shape (aes_cipher key) (passStarts (w.length / 8 - 1))
    (w.take 8, registers (w.length / 8 - 1) (w.drop 8)) ha hr
  simp only [registers_length] at hs
  have hl : (unwrapWith key w).2.length = 8 * (w.length / 8 - 1) := by
    simp only [unwrapWith]; rw [regs_flatten_length _ hs.2.1, hs.2.2]
  refine ⟨?_, hs.1, by omega⟩
  have hn : (unwrapWith key w).2.length / 8 = w.length / 8 - 1 := by omega
  simp only [wrapWith]
  rw [hn]
  simp only [unwrapWith]
  have hg := registers_of_flatten _ hs.2.1
  rw [hs.2.2] at hg
  rw [hg]
  have h := wrapPasses_unwrapPasses (aes_cipher key) (passStarts (w.length / 8 - 1))
    (w.take 8, registers (w.length / 8 - 1) (w.drop 8)) ha hr
  rw [h]
  simp only [registers_flatten _ (w.drop 8) (by simp; omega : (w.drop 8).length = 8 * (w.length / 8 - 1)),
    List.take_append_drop]

end Verif.Spec
