import Verif.Model.Crypto.KeyMgmt
/-!
# C34: the PRF

For any HMAC with 20 bytes of output.
-/
namespace Verif

namespace Spec

/-- Byte `j` of the PRF of the standard (12.7.1.2): blocks HMAC(K, A || 00 || B || i) for i = 0, 1, 2, ...,
one after the other, i being a single octet. -/
def prfByte (hmac : Bytes → Bytes → Arr 20) (key label data : Bytes) (j : Nat) : Byte :=
  (hmac key (label ++ 0 :: (data ++ [BitVec.ofNat 8 (j / 20)]))).val.getD (j % 20) 0

/-- The key lengths of a PTK. -/
def ptkLen (akm : IEEE80211AkmType) (cipher : IEEE80211CipherSuiteSelector) : Option Nat :=
  match akm.kckLen, akm.kekLen, cipher.tkLen with
  | some a, some b, some c => some (a + b + c)
  | _, _, _ => none

end Spec

open Spec

/-- All blocks up to the `m`th. -/
private def cat (b : Nat → Arr 20) (m : Nat) : Bytes := (List.range m).flatMap fun i => (b i).val

private theorem cat_succ (b : Nat → Arr 20) (m : Nat) : cat b (m + 1) = cat b m ++ (b m).val := by
  simp [cat, List.range_succ]

private theorem cat_length (b : Nat → Arr 20) (m : Nat) : (cat b m).length = 20 * m := by
  induction m with
  | zero => rfl
  | succ m ih => rw [cat_succ, List.length_append, ih, (b m).property]; omega

private theorem cat_getD (b : Nat → Arr 20) (m j : Nat) (h : j < 20 * m) :
    (cat b m).getD j 0 = (b (j / 20)).val.getD (j % 20) 0 := by
  induction m with
  | zero => omega
  | succ m ih =>
    rw [cat_succ]
    by_cases hj : j < 20 * m
    · rw [← ih hj]
      simp only [List.getD_eq_getElem?_getD]
      rw [List.getElem?_append_left (by rw [cat_length]; exact hj)]
    · simp only [List.getD_eq_getElem?_getD]
      rw [List.getElem?_append_right (by rw [cat_length]; omega), cat_length,
        show j / 20 = m by omega, show j - 20 * m = j % 20 by omega]

private theorem chunks (b : Nat → Arr 20) (n m : Nat) :
    ((List.range m).flatMap fun i => (b i).val.take (min 20 (n - 20 * i))) = (cat b m).take n := by
  induction m with
  | zero => simp [cat]
  | succ m ih =>
    rw [List.range_succ, List.flatMap_append, ih, cat_succ, List.take_append, cat_length]
    simp only [List.flatMap_cons, List.flatMap_nil, List.append_nil]
    congr 1
    by_cases h : n - 20 * m ≤ 20
    · rw [show min 20 (n - 20 * m) = n - 20 * m by omega]
    · rw [show min 20 (n - 20 * m) = 20 by omega, List.take_of_length_le (by simp),
        List.take_of_length_le (by simp; omega)]

variable [HmacSha1]

private theorem prf_eq (key label : Bytes) (data : List Bytes) (n m : Nat) (h : n ≤ 20 * m) :
    prfIter key label data n = (cat (fun i => HmacSha1.hmac key
      (label ++ [0x00] ++ data.flatten ++ [BitVec.ofNat 8 i])) m).take n := by
  unfold prfIter
  rw [chunks (fun i => HmacSha1.hmac key (label ++ [0x00] ++ data.flatten ++ [BitVec.ofNat 8 i]))]
  generalize (fun i => HmacSha1.hmac key (label ++ [0x00] ++ data.flatten ++ [BitVec.ofNat 8 i])) = b
  have mono : ∀ d m', n ≤ 20 * m' → (cat b m').take n = (cat b (m' + d)).take n := by
    intro d
    induction d with
    | zero => intros; rfl
    | succ d ih =>
      intro m' hm
      rw [ih m' hm, ← Nat.add_assoc, cat_succ, List.take_append, cat_length,
        show n - 20 * (m' + d) = 0 by omega, List.take_zero, List.append_nil]
  have := mono (m - (n + 19) / 20) ((n + 19) / 20) (by omega)
  rw [this]
  congr 2
  omega

/-- The output has the requested length. -/
theorem c34_length (key label : Bytes) (data : List Bytes) (n : Nat) :
    (prfIter key label data n).length = n := by
  rw [prf_eq key label data n ((n + 19) / 20) (by omega), List.length_take, cat_length]
  omega

/-- Every byte of the output is the standard's; the data is the concatenation of the pieces given. -/
theorem c34_bytes (key label : Bytes) (data : List Bytes) (n j : Nat) (h : j < n) :
    (prfIter key label data n).getD j 0 = prfByte HmacSha1.hmac key label data.flatten j := by
  rw [prf_eq key label data n ((n + 19) / 20) (by omega)]
  have := cat_getD (fun i => HmacSha1.hmac key
      (label ++ [0x00] ++ data.flatten ++ [BitVec.ofNat 8 i])) ((n + 19) / 20) j (by omega)
  rw [List.getD_eq_getElem?_getD, List.getElem?_take_of_lt h, ← List.getD_eq_getElem?_getD, this]
  simp [prfByte]

/-- So the output is exactly the first `n` bytes of the standard's stream. -/
theorem c34_prf (key label : Bytes) (data : List Bytes) (n : Nat) :
    prfIter key label data n = (List.range n).map (prfByte HmacSha1.hmac key label data.flatten) := by
  apply List.ext_getElem?
  intro j
  by_cases h : j < n
  · have hb := c34_bytes key label data n j h
    rw [List.getD_eq_getElem?_getD] at hb
    rw [List.getElem?_map, List.getElem?_range h, Option.map_some, ← hb]
    have hj : j < (prfIter key label data n).length := by rw [c34_length]; exact h
    rw [List.getElem?_eq_getElem hj]; rfl
  · rw [List.getElem?_eq_none (by rw [c34_length]; omega), List.getElem?_eq_none (by simp; omega)]

/-- Shorter outputs are prefixes of longer ones. -/
theorem c34_prefix (key label : Bytes) (data : List Bytes) (n m : Nat) (h : n ≤ m) :
    prfIter key label data n = (prfIter key label data m).take n := by
  rw [c34_prf, c34_prf, ← List.map_take, List.take_range, Nat.min_eq_left h]

/-- `prf` is `prf_iter` on one piece, so cutting the data into pieces makes no difference. -/
theorem c34_pieces (key label : Bytes) (data : List Bytes) (n : Nat) :
    prfIter key label data n = prf key label data.flatten n := by
  rw [prf, c34_prf, c34_prf]
  simp

/-- The counter is one octet: up to 256 blocks the counters differ, after that the output repeats. -/
theorem c34_counter (key label data : Bytes) (n : Nat) :
    (prf key label data (5120 + n)).drop 5120 = prf key label data n ∧
    (∀ i j, i < 256 → j < 256 → BitVec.ofNat 8 i = BitVec.ofNat 8 j → i = j) := by
  constructor
  · rw [prf, prf, c34_prf, c34_prf, ← List.map_drop, List.range_eq_range', List.range_eq_range']
    simp only [List.drop_range', Nat.add_sub_cancel_left]
    rw [← List.range_eq_range', List.range'_eq_map_range, List.map_map]
    apply List.map_congr_left
    intro j hj
    simp only [Function.comp_apply, prfByte]
    rw [show (0 + 1 * 5120 + j) / 20 = 256 + j / 20 by omega, show (0 + 1 * 5120 + j) % 20 = j % 20 by omega]
    congr 7
    apply BitVec.eq_of_toNat_eq
    simp
  · intro i j hi hj e
    have := congrArg BitVec.toNat e
    simp only [BitVec.toNat_ofNat] at this
    omega

/-- The PTK has the length of the buffer given, so for a buffer of the length the suites call for it is KCK,
KEK and TK together; its bytes are those of the PRF with the label "Pairwise key expansion" (see C35 for the
data). -/
theorem c34_ptk (pmk : Bytes) (aa spa : Mac) (an sn : Arr 32) (akm : IEEE80211AkmType)
    (cipher : IEEE80211CipherSuiteSelector) (n : Nat) (h : ptkLen akm cipher = some n) :
    (derivePtk pmk aa spa an sn n).length = n ∧
    ∃ a b c, akm.kckLen = some a ∧ akm.kekLen = some b ∧ cipher.tkLen = some c ∧
      (derivePtk pmk aa spa an sn n).length = a + b + c := by
  have hl : (derivePtk pmk aa spa an sn n).length = n := c34_length ..
  refine ⟨hl, ?_⟩
  unfold ptkLen at h
  split at h
  · rename_i a b c h1 h2 h3
    exact ⟨a, b, c, h1, h2, h3, by rw [hl]; simpa using h.symm⟩
  · cases h

end Verif

namespace Verif

/-- An HMAC that returns the last byte of the message twenty times: 45 bytes are three blocks. -/
example :
    letI : HmacSha1 := ⟨fun _ m => ⟨List.replicate 20 (m.getLastD 9), by simp⟩⟩
    prf [1] [2] [3] 45 = List.replicate 20 0 ++ List.replicate 20 1 ++ List.replicate 5 2 := by decide

/-- WPA2-PSK with CCMP: a PTK of 48 bytes. -/
example : Spec.ptkLen .Psk .Ccmp128 = some 48 := by decide

end Verif
