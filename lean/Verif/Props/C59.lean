import Verif.Spec.Crc
import Verif.Props.C05
import Verif.Props.C23
import Verif.Props.C24
import Verif.Props.C49
/-!
# C59: transmission errors in bursts of up to 32 bits are refused

Here the checksum is CRC-32 (`Spec.crc32`), which the `crc32fast` crate implements.
-/
namespace Verif

open Spec

/-- `frame'` is `frame` with some of up to 32 neighbouring bits changed. -/
def Spec.Burst (frame frame' : Bytes) : Prop := ∃ p x y q : List Bool,
  wireBits frame = p ++ x ++ q ∧ wireBits frame' = p ++ y ++ q ∧
    x.length = y.length ∧ x.length ≤ 32 ∧ x ≠ y

/-! ## The register -/

private theorem shift_bit (s : BitVec 32) (i : Nat) : (crcShift s).getLsbD i =
    (s.getLsbD (i + 1) ^^ (s.getLsbD 0 && (0xedb88320 : BitVec 32).getLsbD i)) := by
  unfold crcShift
  rw [BitVec.getLsbD_xor, BitVec.getLsbD_ushiftRight, Nat.add_comm 1 i]
  cases s.getLsbD 0 <;> simp

private theorem shift_xor (a b : BitVec 32) : crcShift (a ^^^ b) = crcShift a ^^^ crcShift b := by
  apply BitVec.eq_of_getLsbD_eq
  intro i _
  simp only [shift_bit, BitVec.getLsbD_xor]
  cases a.getLsbD (i + 1) <;> cases b.getLsbD (i + 1) <;> cases a.getLsbD 0 <;> cases b.getLsbD 0 <;> simp

private theorem shift_zero (x : BitVec 32) (h : crcShift x = 0) : x = 0 := by
  have hb : ∀ i, (crcShift x).getLsbD i = false := by intro i; rw [h]; simp
  have h31 := hb 31
  rw [shift_bit, BitVec.getLsbD_of_ge x (31 + 1) (by omega),
    show (0xedb88320 : BitVec 32).getLsbD 31 = true by decide] at h31
  have h0 : x.getLsbD 0 = false := by simpa using h31
  apply BitVec.eq_of_getLsbD_eq
  intro i _
  cases i with
  | zero => simpa using h0
  | succ j =>
    have := hb j
    rw [shift_bit, h0] at this
    simpa using this

private theorem shift_inj {a b : BitVec 32} (h : crcShift a = crcShift b) : a = b := by
  have : a ^^^ b = 0 := shift_zero _ (by rw [shift_xor, h, BitVec.xor_self]; rfl)
  exact BitVec.xor_eq_zero_iff.1 this

private theorem shift_shl (x : BitVec 32) (h : x.getLsbD 31 = false) : crcShift (x <<< 1) = x := by
  apply BitVec.eq_of_getLsbD_eq
  intro i hi
  rw [shift_bit]
  simp only [BitVec.getLsbD_shiftLeft]
  by_cases h31 : i = 31
  · subst h31; rw [h]; simp
  · have : i + 1 < 32 := by omega
    simp [this]

/-- `n` shifts. -/
private def shifts : Nat → BitVec 32 → BitVec 32
  | 0, s => s
  | n + 1, s => shifts n (crcShift s)

private theorem shifts_inj (n : Nat) {a b : BitVec 32} (h : shifts n a = shifts n b) : a = b := by
  induction n generalizing a b with
  | zero => exact h
  | succ n ih => exact shift_inj (ih h)

/-- Bits as a word, the first one the least significant. -/
private def word : List Bool → BitVec 32
  | [] => 0
  | b :: l => (if b then (1 : BitVec 32) else 0) ^^^ (word l <<< 1)

private theorem word_bit (l : List Bool) (i : Nat) (hi : i < 32) : (word l).getLsbD i = l.getD i false := by
  induction l generalizing i with
  | nil => simp [word]
  | cons b l ih =>
    rw [word, BitVec.getLsbD_xor, BitVec.getLsbD_shiftLeft]
    cases i with
    | zero => cases b <;> simp
    | succ j =>
      have h1 : (if b then (1 : BitVec 32) else 0).getLsbD (j + 1) = false := by
        cases b
        · simp
        · simp [BitVec.getLsbD_one]
      rw [h1, Nat.add_sub_cancel, ih j (by omega)]
      simp [hi]

private theorem word_inj {x y : List Bool} (hl : x.length = y.length) (h32 : x.length ≤ 32)
    (h : word x = word y) : x = y := by
  apply List.ext_getElem hl
  intro i h1 h2
  have e := congrArg (BitVec.getLsbD · i) h
  simp only [word_bit _ i (by omega : i < 32)] at e
  simpa [List.getD_eq_getElem?_getD, h1, h2] using e

private theorem crcBits_word (l : List Bool) (h : l.length ≤ 32) (s : BitVec 32) :
    crcBits s l = shifts l.length (s ^^^ word l) := by
  induction l generalizing s with
  | nil => simp [crcBits, shifts, word]
  | cons b l ih =>
    have h' : l.length < 32 := h
    have : crcBits s (b :: l) = crcBits (crcShift (s ^^^ if b then (1 : BitVec 32) else 0)) l := rfl
    rw [this, ih (by omega)]
    show shifts l.length _ = shifts l.length _
    congr 1
    rw [word, ← BitVec.xor_assoc, shift_xor (s ^^^ _), shift_shl]
    rw [word_bit _ 31 (by decide), List.getD_eq_getElem?_getD, List.getElem?_eq_none (by omega)]
    rfl

private theorem crcBits_append (s : BitVec 32) (x y : List Bool) :
    crcBits s (x ++ y) = crcBits (crcBits s x) y := List.foldl_append

private theorem crcBits_inj (l : List Bool) {a b : BitVec 32} (h : crcBits a l = crcBits b l) : a = b := by
  induction l generalizing a b with
  | nil => exact h
  | cons c l ih => exact (BitVec.xor_left_inj _).1 (shift_inj (ih h))

/-- Two different strings of up to 32 bits lead to different registers. -/
private theorem crcBits_burst (s : BitVec 32) {x y : List Bool} (hl : x.length = y.length)
    (h32 : x.length ≤ 32) (h : crcBits s x = crcBits s y) : x = y := by
  rw [crcBits_word x h32, crcBits_word y (by omega), hl] at h
  exact word_inj hl h32 ((BitVec.xor_right_inj _).1 (shifts_inj _ h))

/-! ## The check sequence -/

private theorem wireBits_append (a b : Bytes) : wireBits (a ++ b) = wireBits a ++ wireBits b :=
  List.flatMap_append

theorem wireBits_length (a : Bytes) : (wireBits a).length = 8 * a.length := by
  induction a with
  | nil => rfl
  | cons b l ih =>
    show (byteBits b ++ wireBits l).length = _
    rw [List.length_append, ih, List.length_cons]
    simp only [byteBits, List.length_cons, List.length_nil]
    omega

private theorem byteBits_inj {a b : Byte} (h : byteBits a = byteBits b) : a = b := by
  simp only [byteBits, List.cons.injEq, and_true] at h
  obtain ⟨h0, h1, h2, h3, h4, h5, h6, h7⟩ := h
  apply BitVec.eq_of_getLsbD_eq
  intro i hi
  match i, hi with
  | 0, _ => exact h0
  | 1, _ => exact h1
  | 2, _ => exact h2
  | 3, _ => exact h3
  | 4, _ => exact h4
  | 5, _ => exact h5
  | 6, _ => exact h6
  | 7, _ => exact h7

private theorem wireBits_inj {x y : Bytes} (hl : x.length = y.length) (h : wireBits x = wireBits y) :
    x = y := by
  induction x generalizing y with
  | nil => exact (List.length_eq_zero_iff.1 hl.symm).symm
  | cons a x ih =>
    cases y with
    | nil => simp at hl
    | cons b y =>
      have h' : byteBits a ++ wireBits x = byteBits b ++ wireBits y := h
      obtain ⟨h1, h2⟩ := List.append_inj h' rfl
      rw [byteBits_inj h1, ih (by simpa using hl) h2]

private theorem word_toLE (v : BitVec 32) : word (wireBits (toLE v)) = v := by
  have key : ∀ k j : Nat, j < 8 → (BitVec.ofNat 8 (v.toNat / 2 ^ k)).getLsbD j = v.getLsbD (j + k) := by
    intro k j hj
    simp only [BitVec.getLsbD_ofNat, hj, decide_true, Bool.true_and, Nat.testBit_div_two_pow]
    rfl
  have e : wireBits (toLE v) = (List.range 32).map v.getLsbD := by
    have e0 := key 0
    have e1 := key 8
    have e2 := key 16
    have e3 := key 24
    simp only [Nat.pow_zero, Nat.div_one] at e0
    have hb : toLE v = [BitVec.ofNat 8 v.toNat, BitVec.ofNat 8 (v.toNat / 2 ^ 8),
        BitVec.ofNat 8 (v.toNat / 2 ^ 16), BitVec.ofNat 8 (v.toNat / 2 ^ 24)] := by
      simp [toLE, leBytes, Nat.div_div_eq_div_mul]
    rw [hb]
    simp only [wireBits, byteBits, List.flatMap_cons, List.flatMap_nil, List.cons_append, List.nil_append,
      List.append_nil, e0, e1, e2, e3, Nat.reduceLT]
    rfl
  apply BitVec.eq_of_getLsbD_eq
  intro i hi
  rw [word_bit _ i hi, e]
  simp [List.getD_eq_getElem?_getD, hi]

private theorem xor_not (s : BitVec 32) : s ^^^ ~~~ s = 0xffffffff := by
  have : (0xffffffff : BitVec 32) = BitVec.allOnes 32 := by decide
  rw [this]
  apply BitVec.eq_of_getLsbD_eq
  intro i hi
  rw [BitVec.getLsbD_allOnes, BitVec.getLsbD_xor, BitVec.getLsbD_not]
  simp [hi]

/-- The register after a correct frame. -/
private theorem residue_iff (body fcs : Bytes) (h4 : fcs.length = 4) :
    fcs = toLE (crc32 body) ↔ crcBits 0xffffffff (wireBits (body ++ fcs)) = shifts 32 0xffffffff := by
  have hl : (wireBits fcs).length = 32 := by rw [wireBits_length, h4]
  rw [wireBits_append, crcBits_append, crcBits_word _ (by omega), hl]
  constructor
  · rintro rfl
    rw [word_toLE, crc32, xor_not]
  · intro h
    have hv : fcs = toLE (fromLE 32 fcs) := (toLE_fromLE rfl fcs (by simpa using h4)).symm
    rw [hv, word_toLE] at h
    have h := (shifts_inj _ h).trans (xor_not (crcBits 0xffffffff (wireBits body))).symm
    rw [hv, crc32, ← (BitVec.xor_right_inj _).1 h]

variable [ScrollRule]

/-- Whatever the frame and wherever the burst, the check sequence included: a frame accepted before the
burst is refused after it. -/
theorem c59_burst (frame frame' body : Bytes) (hb : Burst frame frame')
    (hv : letI := ieeeCrc; stripAndValidateFcs frame = .ok body) :
    letI := ieeeCrc; stripAndValidateFcs frame' = .err .badInput := by
  letI := ieeeCrc
  obtain ⟨p, x, y, q, h1, h2, hl, h32, hne⟩ := hb
  have hlen : frame'.length = frame.length := by
    have e1 := congrArg List.length h1
    have e2 := congrArg List.length h2
    simp only [wireBits_length, List.length_append] at e1 e2
    omega
  have hf := (c05_accepts_iff frame body).1 hv
  have h4 : 4 ≤ frame'.length := by rw [hlen, hf]; simp
  have hsplit : frame' = frame'.take (frame'.length - 4) ++ frame'.drop (frame'.length - 4) := by simp
  have hf4 : (frame'.drop (frame'.length - 4)).length = 4 := by simp; omega
  have he := c05_rejects_with (frame'.take (frame'.length - 4)) (frame'.drop (frame'.length - 4)) hf4 (by
    intro hc
    have r1 := (residue_iff body _ (by simp)).1 (rfl : toLE (crc32 body) = _)
    have r2 := (residue_iff _ _ hf4).1 hc
    rw [← hsplit, h2] at r2
    rw [show body ++ toLE (crc32 body) = frame from hf.symm, h1, ← r2] at r1
    simp only [crcBits_append] at r1
    exact hne (crcBits_burst _ hl h32 (crcBits_inj q r1)))
  rwa [← hsplit] at he

/-- In particular any change of up to four neighbouring bytes. -/
theorem c59_bytes (p x y q body : Bytes) (hv : letI := ieeeCrc; stripAndValidateFcs (p ++ x ++ q) = .ok body)
    (hl : x.length = y.length) (h4 : x.length ≤ 4) (hne : x ≠ y) :
    letI := ieeeCrc; stripAndValidateFcs (p ++ y ++ q) = .err .badInput := by
  refine c59_burst (p ++ x ++ q) (p ++ y ++ q) body
    ⟨wireBits p, wireBits x, wireBits y, wireBits q, ?_, ?_, ?_, ?_, ?_⟩ hv
  · simp only [wireBits_append]
  · simp only [wireBits_append]
  · simp only [wireBits_length, hl]
  · rw [wireBits_length]; omega
  · exact fun h => hne (wireBits_inj hl h)

/-- So whatever has been written with a check sequence is refused after a burst. -/
theorem c59_attached (pre buf frame' : Bytes) (h : 4 ≤ buf.length) :
    letI := ieeeCrc
    ∃ buf' off, attachFcs (pre ++ buf) pre.length = .ok ((), buf', off) ∧
      (Burst (buf'.take off) frame' → stripAndValidateFcs frame' = .err .badInput) := by
  letI := ieeeCrc
  obtain ⟨buf', off, h1, h2⟩ := c05_attach_then_validate pre buf h
  exact ⟨buf', off, h1, fun hb => c59_burst _ _ _ hb h2⟩

/-- Management frames of any kind. -/
theorem c59_management {β : Type} (r : Reader β) (frame frame' : Bytes) (hb : Burst frame frame')
    (x : (ManagementFrameHeader × β) × Nat) (hv : letI := ieeeCrc; readMgmtFrame r true frame = .ok x) :
    letI := ieeeCrc; readMgmtFrame r true frame' = .err .badInput := by
  letI := ieeeCrc
  simp only [readMgmtFrame, if_true] at hv ⊢
  cases hs : stripAndValidateFcs frame with
  | ok body => rw [c59_burst _ _ _ hb hs]; rfl
  | err e => rw [hs] at hv; cases hv
  | panic => rw [hs] at hv; cases hv

/-- Data frames. -/
theorem c59_data (frame frame' : Bytes) (hb : Burst frame frame') (x : DataFrame Bytes × Nat)
    (hv : letI := ieeeCrc; readDataFrame true frame = .ok x) :
    letI := ieeeCrc; readDataFrame true frame' = .err .badInput := by
  letI := ieeeCrc
  simp only [readDataFrame, if_true] at hv ⊢
  cases hs : stripAndValidateFcs frame with
  | ok body => rw [c59_burst _ _ _ hb hs]; rfl
  | err e => rw [hs] at hv; cases hv
  | panic => rw [hs] at hv; cases hv

/-- Frames of unknown kind, and with them everything dispatched by `match_frames!`. -/
theorem c59_generic {α : Type} (frame frame' : Bytes) (hb : Burst frame frame') (g : GenericFrame)
    (hv : letI := ieeeCrc; GenericFrame.new frame true = .ok g) (ctx : Bool)
    (arms : List (FrameKind × (Bool → Reader α))) :
    letI := ieeeCrc
    GenericFrame.new frame' true = .err .badInput ∧
      matchFrames frame' (some ctx) arms = .err .badInput := by
  letI := ieeeCrc
  have key : GenericFrame.new frame' true = .err .badInput := by
    simp only [GenericFrame.new, if_true] at hv ⊢
    cases hs : stripAndValidateFcs frame with
    | ok body => rw [c59_burst _ _ _ hb hs]; rfl
    | err e => rw [hs] at hv; cases hv
    | panic => rw [hs] at hv; cases hv
  exact ⟨key, by simp only [matchFrames, Option.isSome_some, key]; rfl⟩

/-! A frame with its check sequence, and with one bit changed. -/
example (s : Bool) : letI : ScrollRule := ⟨s⟩; letI := ieeeCrc
    stripAndValidateFcs ([0x31, 0x32, 0x33, 0x34, 0x35, 0x36, 0x37, 0x38, 0x39] ++ [0x26, 0x39, 0xf4, 0xcb]) =
      .ok [0x31, 0x32, 0x33, 0x34, 0x35, 0x36, 0x37, 0x38, 0x39] ∧
    stripAndValidateFcs ([0x31, 0x32, 0x33, 0x34, 0x35, 0x36, 0x37, 0x38, 0x38] ++ [0x26, 0x39, 0xf4, 0xcb]) =
      .err .badInput := by cases s <;> decide +kernel

example : Burst [0x31, 0x32, 0x80] [0x31, 0x32, 0x81] :=
  ⟨wireBits [0x31, 0x32], [false], [true], [false, false, false, false, false, false, true],
    by decide, by decide, rfl, by decide, by decide⟩

end Verif
