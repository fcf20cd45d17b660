import Verif.Basic.Tactics
import Verif.Model.Crypto.CryptoHeader
/-!
# C31: the CCMP/GCMP header

Violations: `new` accepts a packet number out of range when the key id is in range and the reverse
(`c31_new_iff`, `c31_accepts_out_of_range`); the parser shifts the key id octet the wrong way, so the key id
is lost (`c31_key_id_wrong`, `c31_key_id_lost`).
-/
namespace Verif

namespace Spec

/-- The header of the standard: PN0 PN1, a reserved octet, the octet with the key id in bits 6 and 7 and
the extended IV bit 5, PN2 to PN5. -/
def cryptoHeaderWire (pn keyId : Nat) : Bytes :=
  [BitVec.ofNat 8 pn, BitVec.ofNat 8 (pn / 2 ^ 8), 0, BitVec.ofNat 8 (64 * keyId + 32),
    BitVec.ofNat 8 (pn / 2 ^ 16), BitVec.ofNat 8 (pn / 2 ^ 24), BitVec.ofNat 8 (pn / 2 ^ 32),
    BitVec.ofNat 8 (pn / 2 ^ 40)]

/-- The packet number in a header's bytes. -/
def packetNumberOf (b : Bytes) : Nat :=
  (b.getD 0 0).toNat + 2 ^ 8 * (b.getD 1 0).toNat + 2 ^ 16 * (b.getD 4 0).toNat +
    2 ^ 24 * (b.getD 5 0).toNat + 2 ^ 32 * (b.getD 6 0).toNat + 2 ^ 40 * (b.getD 7 0).toNat

/-- The extended IV flag, bit 5 of the fourth octet. -/
def extIv (b : Bytes) : Bool := (b.getD 3 0).toNat / 32 % 2 = 1

end Spec

open Spec

private theorem toLE64 (x : BitVec 64) : toLE x = leBytes 8 x.toNat := rfl

/-- Which arguments `new` accepts. -/
theorem c31_new_iff (pn : BitVec 64) (k : Byte) :
    (CryptoHeader.new pn k).isSome = true ↔ pn.toNat < 2 ^ 48 ∨ k.toNat < 4 := by
  unfold CryptoHeader.new CryptoHeader.pnAndKeyIdValid
  have h1 : (pn ≤ CryptoHeader.MAX_PN) ↔ pn.toNat < 2 ^ 48 := by
    rw [BitVec.le_def, show CryptoHeader.MAX_PN.toNat = 2 ^ 48 - 1 from by decide]; omega
  have h2 : (k ≤ CryptoHeader.MAX_KEY_ID) ↔ k.toNat < 4 := by
    rw [BitVec.le_def, show CryptoHeader.MAX_KEY_ID.toNat = 3 from by decide]; omega
  simp only [h1, h2]
  by_cases a : pn.toNat < 2 ^ 48 <;> by_cases b : k.toNat < 4 <;> simp [a, b]

/-- Arguments in range are accepted and kept; the missing half of the property is that others are
refused, which is false. -/
theorem c31_new_partial (pn : BitVec 64) (k : Byte) (hp : pn.toNat < 2 ^ 48) (_hk : k.toNat < 4) :
    ∃ h, CryptoHeader.new pn k = some h ∧ h.packet_number = pn ∧ h.key_id = k := by
  have hs := (c31_new_iff pn k).2 (.inl hp)
  unfold CryptoHeader.new at hs ⊢
  split at hs
  · rename_i hv
    refine ⟨_, if_pos hv, ?_, rfl⟩
    apply BitVec.eq_of_toNat_eq
    rw [CryptoHeader.packet_number]
    simp only [toLE64, leBytes, fromLE, BitVec.toNat_ofNat, List.take, leNat, List.cons_append,
      List.nil_append]
    simp
    omega
  · simp at hs

/-- Neither bound is enforced on its own: packet number 2^48 becomes packet number 0, and key id 255 is
accepted. -/
theorem c31_accepts_out_of_range :
    (CryptoHeader.new (2 ^ 48) 0).map CryptoHeader.packet_number = some 0 ∧
    (CryptoHeader.new 0 255).map CryptoHeader.key_id = some 255 := by decide

/-- The default header has packet number 0 and key 0, and is what `new` makes of these. -/
theorem c31_default : CryptoHeader.default.packet_number = 0 ∧ CryptoHeader.default.key_id = 0 ∧
    CryptoHeader.new 0 0 = some CryptoHeader.default := by decide

/-- Both out of range is refused. -/
theorem c31_refuses (pn : BitVec 64) (k : Byte) (hp : 2 ^ 48 ≤ pn.toNat) (hk : 4 ≤ k.toNat) :
    CryptoHeader.new pn k = none := by
  have := mt (c31_new_iff pn k).1 (by omega)
  cases h : CryptoHeader.new pn k
  · rfl
  · simp [h] at this

/-- The two accessors determine a header. -/
theorem CryptoHeader.ext_views {a b : CryptoHeader} (hp : a.packet_number = b.packet_number)
    (hk : a.key_id = b.key_id) : a = b := by
  have hx : (a.packetNumber.val ++ [0, 0]) = (b.packetNumber.val ++ [0, 0]) := by
    rw [← toLE_fromLE (w := 64) rfl (a.packetNumber.val ++ [0, 0]) (by simp),
      ← toLE_fromLE (w := 64) rfl (b.packetNumber.val ++ [0, 0]) (by simp)]
    exact congrArg toLE hp
  have hy := List.append_cancel_right hx
  obtain ⟨⟨a1, _⟩, a2⟩ := a
  obtain ⟨⟨b1, _⟩, b2⟩ := b
  simp only [CryptoHeader.key_id] at hk
  simp only at hy
  subst hk hy; rfl

variable [ScrollRule]

/-- The bytes written, for every header; measuring gives the same size. -/
theorem c31_write_any (h : CryptoHeader) :
    Emits (writeCryptoHeader h) (cryptoHeaderWire h.packet_number.toNat h.key_id.toNat) 8 ∧
      measureCryptoHeader h = 8 := by
  refine ⟨?_, rfl⟩
  apply Emits.cast
  · apply WEmits.run
    apply WEmits.seq
    · exact WEmits.gwrite_pos (Emits.bytes _) (by simp)
    wr_steps
    exact WEmits.gwrite_pos (Emits.bytes _) (by simp)
  · obtain ⟨⟨l, hl⟩, k⟩ := h
    match l, hl with
    | [b0, b1, b4, b5, b6, b7], _ =>
      have hkey : (0x20#8 ||| (k <<< 6)) = BitVec.ofNat 8 (64 * k.toNat + 32) := by
        have : ∀ k : BitVec 8, (0x20#8 ||| (k <<< 6)) = BitVec.ofNat 8 (64 * k.toNat + 32) := by
          decide +kernel
        exact this k
      have h0 := b0.isLt; have h1 := b1.isLt; have h4 := b4.isLt
      have h5 := b5.isLt; have h6 := b6.isLt; have h7 := b7.isLt
      simp only [cryptoHeaderWire, CryptoHeader.packet_number, CryptoHeader.key_id, fromLE,
        BitVec.toNat_ofNat, List.take, List.drop, List.cons_append, List.nil_append, leNat, hkey]
      congr 1
      · apply BitVec.eq_of_toNat_eq; simp; omega
      congr 1
      · apply BitVec.eq_of_toNat_eq; simp; omega
      congr 1; congr 1; congr 1
      · apply BitVec.eq_of_toNat_eq; simp; omega
      congr 1
      · apply BitVec.eq_of_toNat_eq; simp; omega
      congr 1
      · apply BitVec.eq_of_toNat_eq; simp; omega
      congr 1
      · apply BitVec.eq_of_toNat_eq; simp; omega
  · simp

/-- The bytes written for a header made from arguments in range. -/
theorem c31_write (pn : BitVec 64) (k : Byte) (hp : pn.toNat < 2 ^ 48) (hk : k.toNat < 4)
    (h : CryptoHeader) (e : CryptoHeader.new pn k = some h) :
    Emits (writeCryptoHeader h) (cryptoHeaderWire pn.toNat k.toNat) 8 := by
  obtain ⟨h', e', p, q⟩ := c31_new_partial pn k hp hk
  rw [e] at e'; cases e'
  rw [← p, ← q]
  exact (c31_write_any h).1

/-- What the parser does with any eight bytes or more: the extended IV bit decides acceptance, eight bytes
are consumed and the packet number is the one on the wire.  The key id is not the one on the wire, see
`c31_key_id_wrong`. -/
theorem c31_parse (b : Arr 8) (rest : Bytes) :
    (extIv b.val = false → readCryptoHeader (b.val ++ rest) = .err .badInput) ∧
    (extIv b.val = true → ∃ h, readCryptoHeader (b.val ++ rest) = .ok (h, 8) ∧
      h.packet_number.toNat = packetNumberOf b.val ∧
      h.key_id = b.val.getD 3 0 <<< 6) := by
  have hbit : ∀ x : BitVec 8, x.getLsbD 5 = decide (x.toNat / 32 % 2 = 1) := by decide +kernel
  have hr := RdAt.gread (r := readArr 8) (readArr_append b rest) (by have := slack_le; simp; omega) []
  simp only [List.nil_append, List.length_nil, Nat.zero_add] at hr
  have key : readCryptoHeader (b.val ++ rest) =
      (if !(b.val.getD 3 0).getLsbD 5 then Res.err Err.badInput
       else .ok (⟨⟨b.val.take 2 ++ b.val.drop 4, by simp⟩, b.val.getD 3 0 <<< 6⟩, 8)) := by
    show Rd.bind _ _ _ _ = _
    simp only [Rd.bind, hr]
    split <;> rfl
  rw [key, hbit]
  refine ⟨fun h => ?_, fun h => ?_⟩
  · simp only [extIv] at h
    rw [h]; rfl
  · simp only [extIv] at h
    rw [h]
    refine ⟨_, rfl, ?_, rfl⟩
    obtain ⟨l, hl⟩ := b
    match l, hl with
    | [b0, b1, b2, b3, b4, b5, b6, b7], _ =>
      have h0 := b0.isLt; have h1 := b1.isLt; have h4 := b4.isLt
      have h5 := b5.isLt; have h6 := b6.isLt; have h7 := b7.isLt
      simp only [CryptoHeader.packet_number, packetNumberOf, fromLE, List.take, List.drop,
        List.cons_append, List.nil_append, leNat, BitVec.toNat_ofNat, List.getD_cons_zero,
        List.getD_cons_succ]
      simp
      omega

/-- Fewer than eight bytes are an error, and nothing panics. -/
theorem c31_short (inp : Bytes) :
    readCryptoHeader inp ≠ .panic ∧ (inp.length < 8 → ∃ e, readCryptoHeader inp = .err e) := by
  by_cases hl : inp.length < 8
  · have : ∃ e, readCryptoHeader inp = .err e := by
      apply RdErr.run
      apply RdErr.bind_left
      obtain ⟨e, he⟩ := (readArr_fixed 8 inp).2 hl
      exact RdErr.gread he
    obtain ⟨e, he⟩ := this
    exact ⟨by simp [he], fun _ => ⟨e, he⟩⟩
  · refine ⟨?_, fun h => absurd h hl⟩
    obtain ⟨b, rest, rfl⟩ := exists_arr 8 (inp := inp) (by omega)
    have h := c31_parse b rest
    cases hx : extIv b.val
    · rw [h.1 hx]; simp
    · obtain ⟨h', e, _⟩ := h.2 hx
      rw [e]; simp

/-- The key id the parser returns is 64 times the two lowest bits of the octet, never a valid non-zero key
id: whenever the key id on the wire (the two highest bits) is not zero, the result differs from it. -/
theorem c31_key_id_wrong (b : Arr 8) (rest : Bytes) (h : CryptoHeader) (n : Nat)
    (e : readCryptoHeader (b.val ++ rest) = .ok (h, n)) :
    h.key_id.toNat = 64 * ((b.val.getD 3 0).toNat % 4) ∧
    ((b.val.getD 3 0).toNat / 64 ≠ 0 → h.key_id.toNat ≠ (b.val.getD 3 0).toNat / 64) := by
  have hk : h.key_id = b.val.getD 3 0 <<< 6 := by
    cases hx : extIv b.val
    · rw [(c31_parse b rest).1 hx] at e; cases e
    · obtain ⟨h', e', _, hk⟩ := (c31_parse b rest).2 hx
      rw [e] at e'; cases e'; exact hk
  rw [hk]
  generalize b.val.getD 3 0 = x
  revert x
  decide +kernel

/-- Parsing a written header: the packet number is kept, the key id always becomes zero. -/
theorem c31_key_id_lost (pn : BitVec 64) (k : Byte) (hp : pn.toNat < 2 ^ 48) (hk : k.toNat < 4)
    (rest : Bytes) :
    ∃ h, readCryptoHeader (cryptoHeaderWire pn.toNat k.toNat ++ rest) = .ok (h, 8) ∧
      h.packet_number = pn ∧ h.key_id = 0 := by
  have hx : extIv (cryptoHeaderWire pn.toNat k.toNat) = true := by
    simp only [extIv, cryptoHeaderWire, List.getD_cons_zero, List.getD_cons_succ, BitVec.toNat_ofNat]
    simp; omega
  obtain ⟨h, e, h1, h2⟩ := (c31_parse ⟨cryptoHeaderWire pn.toNat k.toNat, rfl⟩ rest).2 hx
  refine ⟨h, e, ?_, ?_⟩
  · apply BitVec.eq_of_toNat_eq
    rw [h1]
    simp only [packetNumberOf, cryptoHeaderWire, List.getD_cons_zero, List.getD_cons_succ,
      BitVec.toNat_ofNat]
    omega
  · rw [h2]
    simp only [cryptoHeaderWire, List.getD_cons_zero, List.getD_cons_succ]
    have : ∀ k : BitVec 8, k.toNat < 4 → (BitVec.ofNat 8 (64 * k.toNat + 32) <<< 6) = 0#8 := by
      decide +kernel
    exact this k hk

/-- The round trip holds exactly for key id 0; for the other key ids it fails. -/
theorem c31_round_trip_partial (pn : BitVec 64) (k : Byte) (hp : pn.toNat < 2 ^ 48) (hk : k.toNat < 4)
    (h : CryptoHeader) (e : CryptoHeader.new pn k = some h) (rest : Bytes) :
    readCryptoHeader (cryptoHeaderWire pn.toNat k.toNat ++ rest) = .ok (h, 8) ↔ k = 0 := by
  obtain ⟨h0, e0, p0, k0⟩ := c31_key_id_lost pn k hp hk rest
  obtain ⟨h1, e1, p1, k1⟩ := c31_new_partial pn k hp hk
  rw [e] at e1; cases e1
  rw [e0]
  constructor
  · intro he
    cases he
    exact k1.symm.trans k0
  · intro hz
    have : h0 = h := CryptoHeader.ext_views (p0.trans p1.symm) (by rw [k0, k1, hz])
    rw [this]

/-- Packet number 0x0102030405ff with key id 2. -/
example : (CryptoHeader.new 0x0102030405ff 2).isSome = true ∧
    cryptoHeaderWire 0x0102030405ff 2 = [0xff, 0x05, 0, 0xa0, 0x04, 0x03, 0x02, 0x01] := by decide

end Verif
