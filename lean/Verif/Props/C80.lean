import Verif.Model.Order
import Verif.Props.C31
/-!
# C80: values compare as what they stand for

The types with a derived `Ord`: it is a total order which calls equal only what is equal, and a packet number, a MIC
length, a window or a version is less in this order when it is less as a number.
-/
namespace Verif

namespace Spec

/-- A comparison which is a total order and finds equal exactly what is equal. -/
structure TotalOrder {α : Type} (cmp : α → α → Ordering) : Prop where
  eq : ∀ a b, cmp a b = .eq ↔ a = b
  swap : ∀ a b, cmp b a = (cmp a b).swap
  trans : ∀ a b c, cmp a b = .lt → cmp b c = .lt → cmp a c = .lt

/-- The comparison agrees with the number a value stands for. -/
def OrderedBy {α : Type} (cmp : α → α → Ordering) (number : α → Nat) (a b : α) : Prop :=
  (cmp a b = .lt ↔ number a < number b) ∧ (cmp a b = .gt ↔ number b < number a)

end Spec

open Spec

private theorem nat_order : TotalOrder (fun a b : Nat => compare a b) where
  eq a b := Nat.compare_eq_eq
  swap a b := (Nat.compare_swap a b).symm
  trans a b c h h' := by
    rw [Nat.compare_eq_lt] at *
    omega

private theorem on {α β : Type} {c : β → β → Ordering} (h : TotalOrder c) {f : α → β}
    (hf : ∀ a b, f a = f b → a = b) : TotalOrder fun a b => c (f a) (f b) where
  eq a b := by rw [h.eq]; exact ⟨hf a b, fun e => e ▸ rfl⟩
  swap a b := h.swap _ _
  trans a b d := h.trans _ _ _

private theorem lex {α β : Type} {c : α → α → Ordering} {d : β → β → Ordering} (h : TotalOrder c)
    (h' : TotalOrder d) : TotalOrder fun x y : α × β => (c x.1 y.1).then (d x.2 y.2) where
  eq x y := by
    rw [Ordering.then_eq_eq, h.eq, h'.eq]
    exact ⟨fun e => Prod.ext e.1 e.2, fun e => e ▸ ⟨rfl, rfl⟩⟩
  swap x y := by rw [Ordering.swap_then, ← h.swap, ← h'.swap]
  trans x y z := by
    simp only [Ordering.then_eq_lt, h.eq]
    rintro (a | ⟨a, a'⟩) (b | ⟨b, b'⟩)
    · exact .inl (h.trans _ _ _ a b)
    · exact .inl (b ▸ a)
    · exact .inl (a ▸ b)
    · exact .inr ⟨a.trans b, h'.trans _ _ _ a' b'⟩

private theorem bits_order (w : Nat) : TotalOrder (cmpBits (w := w)) :=
  on nat_order fun _ _ h => BitVec.eq_of_toNat_eq h

private theorem bytes_order : TotalOrder cmpBytes where
  eq a := by
    induction a with
    | nil => intro b; cases b <;> simp [cmpBytes]
    | cons x xs ih =>
      intro b
      cases b with
      | nil => simp [cmpBytes]
      | cons y ys =>
        rw [cmpBytes, Ordering.then_eq_eq, (bits_order 8).eq, ih]
        simp
  swap a := by
    induction a with
    | nil => intro b; cases b <;> rfl
    | cons x xs ih =>
      intro b
      cases b with
      | nil => rfl
      | cons y ys => rw [cmpBytes, cmpBytes, Ordering.swap_then, ← (bits_order 8).swap, ← ih]
  trans a := by
    induction a with
    | nil => intro b c; cases b <;> cases c <;> simp [cmpBytes]
    | cons x xs ih =>
      intro b c
      cases b with
      | nil => simp [cmpBytes]
      | cons y ys =>
        cases c with
        | nil => simp [cmpBytes]
        | cons z zs =>
          simp only [cmpBytes, Ordering.then_eq_lt, (bits_order 8).eq]
          rintro (a | ⟨a, a'⟩) (b | ⟨b, b'⟩)
          · exact .inl ((bits_order 8).trans _ _ _ a b)
          · exact .inl (b ▸ a)
          · exact .inl (a ▸ b)
          · exact .inr ⟨a.trans b, ih _ _ a' b'⟩

private theorem arr_order (n : Nat) : TotalOrder fun a b : Arr n => cmpBytes a.val b.val :=
  on bytes_order fun _ _ h => Subtype.ext h

private theorem header_order : TotalOrder CryptoHeader.cmp :=
  on (lex (arr_order 6) (bits_order 8)) (f := fun h : CryptoHeader => (h.packetNumber, h.keyId)) fun a b h => by
    cases a; cases b; cases h; rfl

private theorem mic_order : TotalOrder MicState.cmp :=
  on nat_order (f := MicState.position) fun a b h => by cases a <;> cases b <;> first | rfl | cases h

private theorem wrapper_order {π : Type} {c : π → π → Ordering} (h : TotalOrder c) :
    TotalOrder (CryptoWrapper.cmp c) :=
  on (lex header_order (lex h mic_order))
    (f := fun w : CryptoWrapper π => (w.crypto_header, w.payload, w.mic_state)) fun a b h => by
    cases a; cases b; cases h; rfl

/-- Each derived order is a total order which finds equal exactly what is equal: window, crypto header, MIC state,
wrapped payloads, key descriptor version, key information and EAPOL key frames. -/
theorem c80_total {π κ : Type} {c : π → π → Ordering} {d : κ → κ → Ordering} (hc : TotalOrder c)
    (hd : TotalOrder d) :
    TotalOrder IBSSParameterSetElement.cmp ∧ TotalOrder CryptoHeader.cmp ∧ TotalOrder MicState.cmp ∧
    TotalOrder (CryptoWrapper.cmp c) ∧ TotalOrder (PotentiallyWrappedPayload.cmp c) ∧
    TotalOrder KeyDescriptorVersion.cmp ∧ TotalOrder KeyInformation.cmp ∧ TotalOrder (EapolKeyFrame.cmp d) := by
  refine ⟨?_, header_order, mic_order, wrapper_order hc, ?_, ?_, ?_, ?_⟩
  · exact on (bits_order 16) (f := IBSSParameterSetElement.atim_window) fun a b h => by cases a; cases b; cases h; rfl
  · have hw := wrapper_order hc
    constructor
    · intro a b
      cases a <;> cases b <;> simp [PotentiallyWrappedPayload.cmp, hc.eq, hw.eq]
    · intro a b
      cases a <;> cases b <;>
        first | rfl | exact hc.swap _ _ | exact hw.swap _ _
    · intro a b e
      cases a <;> cases b <;> cases e <;> simp only [PotentiallyWrappedPayload.cmp] <;>
        first
          | exact hc.trans _ _ _
          | exact hw.trans _ _ _
          | exact fun _ _ => trivial
          | simp
  · have hb := bits_order 8
    constructor
    · intro a b
      cases a <;> cases b <;> simp [KeyDescriptorVersion.cmp, KeyDescriptorVersion.position, hb.eq] <;> decide
    · intro a b
      cases a <;> cases b <;> first | rfl | exact hb.swap _ _
    · intro a b e
      cases a <;> cases b <;> cases e <;>
        simp only [KeyDescriptorVersion.cmp, KeyDescriptorVersion.position] <;>
        first
          | exact hb.trans _ _ _
          | decide
          | exact fun h _ => absurd h (by decide)
          | exact fun _ h => absurd h (by decide)
          | exact fun _ _ => by decide
  · exact on (bits_order 16) (f := KeyInformation.bits) fun a b h => by cases a; cases b; cases h; rfl
  · have hi : TotalOrder KeyInformation.cmp :=
      on (bits_order 16) (f := KeyInformation.bits) fun a b h => by cases a; cases b; cases h; rfl
    exact on (lex hi (lex (bits_order 16) (lex (bits_order 64) (lex (arr_order 32) (lex (bits_order 128)
      (lex (bits_order 64) (lex bytes_order hd)))))))
      (f := fun f : EapolKeyFrame κ => (f.key_information, f.key_length, f.key_replay_counter, f.key_nonce, f.key_iv,
        f.key_rsc, f.key_mic, f.key_data)) fun a b h => by
        cases a; cases b; cases h; rfl

/-- A total order to use it with: the payload is a byte string. -/
example : TotalOrder (PotentiallyWrappedPayload.cmp cmpBytes) :=
  (c80_total bytes_order bytes_order).2.2.2.2.1

/-- A longer MIC is more than a shorter one. -/
theorem c80_mic (a b : MicState) : OrderedBy MicState.cmp MicState.micLength a b := by
  cases a <;> cases b <;> unfold OrderedBy <;> decide

/-- A longer ATIM window is more than a shorter one. -/
theorem c80_window (a b : IBSSParameterSetElement) :
    OrderedBy IBSSParameterSetElement.cmp IBSSParameterSetElement.atimWindowMicros a b := by
  unfold OrderedBy IBSSParameterSetElement.cmp cmpBits IBSSParameterSetElement.atimWindowMicros tuMicros
  rw [Nat.compare_eq_lt, Nat.compare_eq_gt]
  omega

/-! ## Packet numbers -/

private theorem leNat_low (i : Nat) : ∀ a b : Bytes, a.length = b.length → leNat a % 256 ^ i = leNat b % 256 ^ i →
    leNat a / 256 ^ i % 256 < leNat b / 256 ^ i % 256 → cmpBytes a b = .lt := by
  induction i with
  | zero =>
    intro a b hl _ h
    cases a with
    | nil =>
      cases b with
      | nil => simp at h
      | cons => simp at hl
    | cons x xs =>
      cases b with
      | nil => simp at hl
      | cons y ys =>
        simp only [leNat, Nat.pow_zero, Nat.div_one] at h
        have hx := x.isLt
        have hy := y.isLt
        rw [cmpBytes, Ordering.then_eq_lt]
        left
        unfold cmpBits
        rw [Nat.compare_eq_lt]
        omega
  | succ i ih =>
    intro a b hl he h
    cases a with
    | nil =>
      cases b with
      | nil => simp at h
      | cons => simp at hl
    | cons x xs =>
      cases b with
      | nil => simp at hl
      | cons y ys =>
        simp only [leNat] at he h
        have hx := x.isLt
        have hy := y.isLt
        have hp : 256 ^ (i + 1) = 256 * 256 ^ i := by rw [Nat.pow_succ, Nat.mul_comm]
        rw [hp] at he h
        rw [Nat.mod_mul, Nat.mod_mul] at he
        have q1 : (x.toNat + 256 * leNat xs) % 256 = x.toNat := by omega
        have q2 : (y.toNat + 256 * leNat ys) % 256 = y.toNat := by omega
        have q3 : (x.toNat + 256 * leNat xs) / 256 = leNat xs := by omega
        have q4 : (y.toNat + 256 * leNat ys) / 256 = leNat ys := by omega
        rw [← Nat.div_div_eq_div_mul, ← Nat.div_div_eq_div_mul, q3, q4] at h
        rw [q1, q2, q3, q4] at he
        have e1 : x.toNat = y.toNat := by omega
        have e2 : leNat xs % 256 ^ i = leNat ys % 256 ^ i := by omega
        rw [cmpBytes, Ordering.then_eq_lt, (bits_order 8).eq]
        right
        exact ⟨BitVec.eq_of_toNat_eq e1, ih xs ys (by simpa using hl) e2 h⟩

private theorem leNat_append_zeros (l : Bytes) : leNat (l ++ [0, 0]) = leNat l := by
  induction l with
  | nil => rfl
  | cons x xs ih => rw [List.cons_append, leNat, leNat, ih]

private theorem leNat_lt6 (l : Bytes) : leNat l < 256 ^ l.length := by
  induction l with
  | nil => simp [leNat]
  | cons x xs ih =>
    have := x.isLt
    simp only [leNat, List.length_cons, Nat.pow_succ]
    omega

private theorem pn_toNat (h : CryptoHeader) : h.packet_number.toNat = leNat h.packetNumber.val := by
  have := leNat_lt6 h.packetNumber.val
  rw [Arr.length_val] at this
  unfold CryptoHeader.packet_number fromLE
  rw [BitVec.toNat_ofNat, leNat_append_zeros, Nat.mod_eq_of_lt (by omega)]

/-- Which of two headers is less is decided by the lowest byte in which their packet numbers differ. -/
theorem c80_lowest_byte (a b : CryptoHeader) (i : Nat)
    (he : a.packet_number.toNat % 256 ^ i = b.packet_number.toNat % 256 ^ i)
    (hl : a.packet_number.toNat / 256 ^ i % 256 < b.packet_number.toNat / 256 ^ i % 256) :
    a.cmp b = .lt ∧ b.cmp a = .gt := by
  rw [pn_toNat, pn_toNat] at he hl
  have h := leNat_low i _ _ (by simp) he hl
  have : a.cmp b = .lt := by
    unfold CryptoHeader.cmp
    rw [Ordering.then_eq_lt]
    exact .inl h
  exact ⟨this, by rw [header_order.swap, this]; rfl⟩

/-- Packet numbers which differ in one byte only, for example in the lowest one, compare as numbers.  What is missing:
all other packet numbers. -/
theorem c80_packet_number_partial (a b : CryptoHeader) (i : Nat) (hk : a.key_id = b.key_id)
    (hlow : a.packet_number.toNat % 256 ^ i = b.packet_number.toNat % 256 ^ i)
    (hhigh : a.packet_number.toNat / 256 ^ (i + 1) = b.packet_number.toNat / 256 ^ (i + 1)) :
    OrderedBy CryptoHeader.cmp (fun h => h.packet_number.toNat) a b := by
  have hp : 256 ^ (i + 1) = 256 ^ i * 256 := Nat.pow_succ ..
  rw [hp, ← Nat.div_div_eq_div_mul, ← Nat.div_div_eq_div_mul] at hhigh
  have hpos : 0 < 256 ^ i := Nat.pow_pos (by decide)
  have ea := Nat.div_add_mod a.packet_number.toNat (256 ^ i)
  have eb := Nat.div_add_mod b.packet_number.toNat (256 ^ i)
  rw [← hlow] at eb
  have key : ∀ m n p r : Nat, 0 < p → m < n → p * m + r < p * n + r := by
    intro m n p r hp h
    exact Nat.add_lt_add_right (Nat.mul_lt_mul_of_pos_left h hp) _
  rcases Nat.lt_trichotomy (a.packet_number.toNat / 256 ^ i) (b.packet_number.toNat / 256 ^ i) with h | h | h
  · have := c80_lowest_byte a b i hlow (by omega)
    have := key _ _ _ (a.packet_number.toNat % 256 ^ i) hpos h
    unfold OrderedBy
    simp only [*]
    constructor <;> simp <;> omega
  · rw [h] at ea
    have hpn : a.packet_number = b.packet_number := BitVec.eq_of_toNat_eq (by omega)
    have : a = b := CryptoHeader.ext_views hpn hk
    subst this
    unfold OrderedBy
    rw [(header_order.eq a a).2 rfl]
    simp
  · have := c80_lowest_byte b a i hlow.symm (by omega)
    have := key _ _ _ (a.packet_number.toNat % 256 ^ i) hpos h
    unfold OrderedBy
    simp only [*]
    constructor <;> simp <;> omega

/-- Violation: the header of the next packet is greater than that of the packet before it unless the lowest byte of the
packet number overflows; then it is less. -/
theorem c80_next_packet (a b : CryptoHeader) (h : b.packet_number.toNat = a.packet_number.toNat + 1) :
    (a.cmp b = .lt ↔ a.packet_number.toNat % 256 ≠ 255) ∧ (a.cmp b = .gt ↔ a.packet_number.toNat % 256 = 255) := by
  by_cases hc : a.packet_number.toNat % 256 = 255
  · have := c80_lowest_byte b a 0 (by simp [Nat.mod_one]) (by simp; omega)
    rw [this.2]
    simp [hc]
  · have := c80_lowest_byte a b 0 (by simp [Nat.mod_one]) (by simp; omega)
    rw [this.1]
    simp [hc]

/-- Violation: packet 256 is less than packet 1, so a receiver which keeps the greatest header seen takes it for a
replay. -/
theorem c80_packet_number_wrong :
    ∃ a b, CryptoHeader.new 1 0 = some a ∧ CryptoHeader.new 256 0 = some b ∧
      a.packet_number.toNat < b.packet_number.toNat ∧ b.cmp a = .lt := by
  refine ⟨⟨⟨[1, 0, 0, 0, 0, 0], rfl⟩, 0⟩, ⟨⟨[0, 1, 0, 0, 0, 0], rfl⟩, 0⟩, ?_⟩
  decide +kernel

/-- Two headers meeting the hypotheses of `c80_packet_number_partial` with `i = 1`: packets 0x105 and 0x305. -/
example : (⟨⟨[5, 1, 0, 0, 0, 0], rfl⟩, 2⟩ : CryptoHeader).cmp ⟨⟨[5, 3, 0, 0, 0, 0], rfl⟩, 2⟩ = .lt ∧
    (⟨⟨[5, 1, 0, 0, 0, 0], rfl⟩, 2⟩ : CryptoHeader).packet_number.toNat % 256 ^ 1 =
      (⟨⟨[5, 3, 0, 0, 0, 0], rfl⟩, 2⟩ : CryptoHeader).packet_number.toNat % 256 ^ 1 := by decide +kernel

/-! ## Key descriptor versions -/

private theorem version_cases (a : Byte) :
    (a.toNat = 1 ∧ KeyDescriptorVersion.fromBits a = .Rc4HmacMd5) ∨
    (a.toNat = 2 ∧ KeyDescriptorVersion.fromBits a = .AesHmacSha1) ∨
    (a.toNat = 3 ∧ KeyDescriptorVersion.fromBits a = .AesCmac) ∨
    ((a.toNat = 0 ∨ 3 < a.toNat) ∧ KeyDescriptorVersion.fromBits a = .Unknown a) := by
  by_cases h1 : a = 1
  · subst h1; decide
  by_cases h2 : a = 2
  · subst h2; decide
  by_cases h3 : a = 3
  · subst h3; decide
  have n1 : a.toNat ≠ 1 := fun h => h1 (BitVec.eq_of_toNat_eq h)
  have n2 : a.toNat ≠ 2 := fun h => h2 (BitVec.eq_of_toNat_eq h)
  have n3 : a.toNat ≠ 3 := fun h => h3 (BitVec.eq_of_toNat_eq h)
  refine .inr (.inr (.inr ⟨by omega, ?_⟩))
  unfold KeyDescriptorVersion.fromBits
  rw [lookupCode_none]
  simp only [KeyDescriptorVersion.table, List.map_cons, List.map_nil, List.mem_cons, List.not_mem_nil, or_false,
    not_or]
  exact ⟨h1, h2, h3⟩

/-- Violation: two versions read from their codes compare as these codes exactly when neither is the code 0 beside one
of the named versions 1 to 3: version 0 has no name, so it is more than each of those. -/
theorem c80_version (a b : Byte) :
    OrderedBy KeyDescriptorVersion.cmp (fun v => v.intoBits.toNat) (.fromBits a) (.fromBits b) ↔
      ¬ ((a.toNat = 0 ∧ 1 ≤ b.toNat ∧ b.toNat ≤ 3) ∨ (b.toNat = 0 ∧ 1 ≤ a.toNat ∧ a.toNat ≤ 3)) := by
  unfold OrderedBy
  simp only [KeyDescriptorVersion.intoBits_fromBits]
  rcases version_cases a with ⟨h, e⟩ | ⟨h, e⟩ | ⟨h, e⟩ | ⟨h, e⟩ <;>
    rcases version_cases b with ⟨h', e'⟩ | ⟨h', e'⟩ | ⟨h', e'⟩ | ⟨h', e'⟩ <;>
    simp only [e, e', KeyDescriptorVersion.cmp, KeyDescriptorVersion.position, cmpBits, Nat.compare_eq_lt,
      Nat.compare_eq_gt, true_iff, iff_self, and_self] <;> omega

/-- Version 0 is more than AES-CMAC, whose code is 3. -/
example : KeyDescriptorVersion.cmp (.fromBits 0) (.fromBits 3) = .gt := by decide

/-- Versions 2 and 3 are in order. -/
example : KeyDescriptorVersion.cmp (.fromBits 2) (.fromBits 3) = .lt := by decide

/-! ## EAPOL key frames -/

/-- Of two messages with the same key information and key length, the one with the lower replay counter is less,
whatever else they hold. -/
theorem c80_replay_counter {κ : Type} (c : κ → κ → Ordering) (a b : EapolKeyFrame κ)
    (hi : a.key_information = b.key_information) (hl : a.key_length = b.key_length)
    (hr : a.key_replay_counter.toNat ≠ b.key_replay_counter.toNat) :
    OrderedBy (EapolKeyFrame.cmp c) (fun f => f.key_replay_counter.toNat) a b := by
  have h1 : a.key_information.cmp b.key_information = .eq := by
    rw [hi]; exact ((bits_order 16).eq _ _).2 rfl
  have h2 : cmpBits a.key_length b.key_length = .eq := by
    rw [hl]; exact ((bits_order 16).eq _ _).2 rfl
  unfold OrderedBy EapolKeyFrame.cmp
  rw [h1, h2]
  simp only [Ordering.then_eq_lt, Ordering.then_eq_gt, (bits_order 64).eq]
  have ne : ¬ a.key_replay_counter = b.key_replay_counter := fun h => hr (h ▸ rfl)
  simp [ne, cmpBits, Nat.compare_eq_lt, Nat.compare_eq_gt]

/-- Violation: in general the replay counter does not decide: the key information comes first, so the first message of
a handshake, resent with a higher counter, is less than the third message sent before it. -/
theorem c80_replay_counter_wrong :
    ∃ a b : EapolKeyFrame Bytes, a.key_replay_counter.toNat < b.key_replay_counter.toNat ∧
      a.cmp cmpBytes b = .gt := by
  let z : Arr 32 := ⟨List.replicate 32 0, rfl⟩
  refine ⟨⟨⟨0x13ca⟩, 16, 2, z, 0, 0, [], []⟩, ⟨⟨0x008a⟩, 16, 3, z, 0, 0, [], []⟩, ?_⟩
  decide +kernel

/-! ## Wrapped payloads -/

/-- A payload in the clear is less than any wrapped one; two of the same kind compare by payload, or first by the
header, then by payload, then by the MIC. -/
theorem c80_payloads {π : Type} (c : π → π → Ordering) (p q : π) (v w : CryptoWrapper π) :
    PotentiallyWrappedPayload.cmp c (.Unwrapped p) (.CryptoWrapped w) = .lt ∧
    PotentiallyWrappedPayload.cmp c (.CryptoWrapped w) (.Unwrapped p) = .gt ∧
    PotentiallyWrappedPayload.cmp c (.Unwrapped p) (.Unwrapped q) = c p q ∧
    (v.crypto_header.cmp w.crypto_header ≠ .eq →
      PotentiallyWrappedPayload.cmp c (.CryptoWrapped v) (.CryptoWrapped w) =
        v.crypto_header.cmp w.crypto_header) ∧
    (v.crypto_header = w.crypto_header → c v.payload w.payload ≠ .eq →
      PotentiallyWrappedPayload.cmp c (.CryptoWrapped v) (.CryptoWrapped w) = c v.payload w.payload) ∧
    (v.crypto_header = w.crypto_header → c v.payload w.payload = .eq →
      PotentiallyWrappedPayload.cmp c (.CryptoWrapped v) (.CryptoWrapped w) = v.mic_state.cmp w.mic_state) := by
  refine ⟨rfl, rfl, rfl, ?_, ?_, ?_⟩
  · intro h
    simp only [PotentiallyWrappedPayload.cmp, CryptoWrapper.cmp]
    cases hc : v.crypto_header.cmp w.crypto_header <;> simp_all
  · intro h h'
    simp only [PotentiallyWrappedPayload.cmp, CryptoWrapper.cmp]
    rw [(header_order.eq _ _).2 h]
    cases hc : c v.payload w.payload <;> simp_all
  · intro h h'
    simp only [PotentiallyWrappedPayload.cmp, CryptoWrapper.cmp]
    rw [(header_order.eq _ _).2 h, h']
    rfl

/-- Equal headers and payloads: the longer MIC is more. -/
example : PotentiallyWrappedPayload.cmp cmpBytes
    (.CryptoWrapped ⟨⟨⟨[1, 0, 0, 0, 0, 0], rfl⟩, 0⟩, [7], .Long⟩)
    (.CryptoWrapped ⟨⟨⟨[1, 0, 0, 0, 0, 0], rfl⟩, 0⟩, [7], .Short⟩) = .gt := by decide +kernel

end Verif
