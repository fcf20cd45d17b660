import Verif.Props.C31
import Verif.Props.C37
/-!
# C88: the receive counter of a handshake message is a packet number

The Key RSC field (12.7.2 of the standard) tells the supplicant the packet number of the last group frame that was sent,
so that it can discard older ones (12.5.3.4.4).  The least significant octet comes first, as in the CCMP header.
-/
namespace Verif

namespace Spec

/-- The octets of the Key RSC field for a packet number. -/
def rscOctets (n : Nat) : Bytes :=
  [BitVec.ofNat 8 n, BitVec.ofNat 8 (n / 2 ^ 8), BitVec.ofNat 8 (n / 2 ^ 16), BitVec.ofNat 8 (n / 2 ^ 24),
    BitVec.ofNat 8 (n / 2 ^ 32), BitVec.ofNat 8 (n / 2 ^ 40), 0, 0]

/-- Where they are in an EAPOL-Key frame: version, type, length, descriptor type, information, length, replay counter,
nonce and IV come before. -/
def rscField (frame : Bytes) : Bytes := (frame.drop (1 + 1 + 2 + 1 + 2 + 2 + 8 + 32 + 16)).take 8

/-- The packet number with its octets in the opposite order, in the upper six of eight. -/
def rscReversed (n : Nat) : Nat :=
  n % 2 ^ 8 * 2 ^ 56 + n / 2 ^ 8 % 2 ^ 8 * 2 ^ 48 + n / 2 ^ 16 % 2 ^ 8 * 2 ^ 40 + n / 2 ^ 24 % 2 ^ 8 * 2 ^ 32 +
    n / 2 ^ 32 % 2 ^ 8 * 2 ^ 24 + n / 2 ^ 40 % 2 ^ 8 * 2 ^ 16

/-- Packet numbers that read the same in both orders. -/
def RscSame (n : Nat) : Prop :=
  n % 2 ^ 16 = 0 ∧ n / 2 ^ 16 % 2 ^ 8 = n / 2 ^ 40 % 2 ^ 8 ∧ n / 2 ^ 24 % 2 ^ 8 = n / 2 ^ 32 % 2 ^ 8

/-- The replay check for a frame after a message with this receive counter. -/
def NotReplayed (rsc : BitVec 64) (h : CryptoHeader) : Prop := rsc.toNat < h.packet_number.toNat

end Spec

open Spec

/-- The six octets of a packet number. -/
private theorem digits (n : Nat) (hn : n < 2 ^ 48) : ∃ a b c d e f : Nat, a < 256 ∧ b < 256 ∧ c < 256 ∧ d < 256 ∧ e < 256 ∧
    f < 256 ∧ n = a + 256 * b + 65536 * c + 16777216 * d + 4294967296 * e + 1099511627776 * f := by
  have h1 := Nat.div_add_mod n 256
  have h2 := Nat.div_add_mod (n / 256) 256
  have h3 := Nat.div_add_mod (n / 256 / 256) 256
  have h4 := Nat.div_add_mod (n / 256 / 256 / 256) 256
  have h5 := Nat.div_add_mod (n / 256 / 256 / 256 / 256) 256
  refine ⟨n % 256, n / 256 % 256, n / 256 / 256 % 256, n / 256 / 256 / 256 % 256, n / 256 / 256 / 256 / 256 % 256,
    n / 256 / 256 / 256 / 256 / 256, by omega, by omega, by omega, by omega, by omega, by omega, by omega⟩

/-- The octets as they are in the specification. -/
private theorem octets {n a b c d e f : Nat} (ha : a < 256) (hb : b < 256) (hc : c < 256) (hd : d < 256) (he : e < 256)
    (hf : f < 256)
    (h : n = a + 256 * b + 65536 * c + 16777216 * d + 4294967296 * e + 1099511627776 * f) :
    n % 2 ^ 8 = a ∧ n / 2 ^ 8 % 2 ^ 8 = b ∧ n / 2 ^ 16 % 2 ^ 8 = c ∧ n / 2 ^ 24 % 2 ^ 8 = d ∧ n / 2 ^ 32 % 2 ^ 8 = e ∧
      n / 2 ^ 40 % 2 ^ 8 = f := by
  refine ⟨by omega, by omega, by omega, by omega, by omega, by omega⟩

private theorem octets_number {n : Nat} (hn : n < 2 ^ 48) : (fromBE 64 (rscOctets n)).toNat = rscReversed n := by
  obtain ⟨a, b, c, d, e, f, ha, hb, hc, hd, he, hf, hs⟩ := digits n hn
  obtain ⟨o0, o1, o2, o3, o4, o5⟩ := octets ha hb hc hd he hf hs
  have hl : ∀ k, (BitVec.ofNat 8 k).toNat = k % 2 ^ 8 := fun k => BitVec.toNat_ofNat k 8
  simp only [fromBE, fromLE, rscOctets, List.reverse_cons, List.reverse_nil, List.nil_append, List.cons_append, leNat,
    hl, BitVec.toNat_ofNat, o0, o1, o2, o3, o4, o5, rscReversed, BitVec.ofNat_eq_ofNat]
  omega

private theorem rsc_number {x : BitVec 64} {n : Nat} (hn : n < 2 ^ 48) (h : toBE x = rscOctets n) :
    x.toNat = rscReversed n := by
  rw [← octets_number hn, ← h, fromBE_toBE rfl]

/-- The octets that are written. -/
private theorem rsc_written (x : BitVec 64) (hn : x.toNat < 2 ^ 48) : toBE x = (rscOctets x.toNat).reverse := by
  have h6 : x.toNat / 2 ^ 48 = 0 := by omega
  have h7 : x.toNat / 2 ^ 56 = 0 := by omega
  have h : toLE x = leBytes 8 x.toNat := rfl
  unfold toBE
  rw [h]
  simp only [leBytes, Nat.div_div_eq_div_mul, Nat.reduceMul, rscOctets]
  rw [show (281474976710656 : Nat) = 2 ^ 48 from rfl, show (72057594037927936 : Nat) = 2 ^ 56 from rfl, h6, h7]
  rfl

private theorem reversed_iff (n : Nat) (hn : n < 2 ^ 48) : rscReversed n = n ↔ RscSame n := by
  obtain ⟨a, b, c, d, e, f, ha, hb, hc, hd, he, hf, hs⟩ := digits n hn
  obtain ⟨o0, o1, o2, o3, o4, o5⟩ := octets ha hb hc hd he hf hs
  have hm : n % 2 ^ 16 = a + 256 * b := by clear o0 o1 o2 o3 o4 o5; omega
  unfold rscReversed RscSame
  rw [o0, o1, o2, o3, o4, o5, hm, hs]
  clear o0 o1 o2 o3 o4 o5 hm hs hn
  constructor
  · intro h
    have h0 : a + 256 * b = 0 := by omega
    have hz : a = 0 ∧ b = 0 := by clear h; omega
    obtain ⟨rfl, rfl⟩ := hz
    have h1 : 16777216 * c + 65536 * d + 256 * e + f = c + 256 * d + 65536 * e + 16777216 * f := by omega
    clear h
    have h2 : c = f := by omega
    subst h2
    have h3 : d = e := by omega
    exact ⟨rfl, rfl, h3⟩
  · rintro ⟨h0, rfl, rfl⟩
    have hz : a = 0 ∧ b = 0 := by omega
    obtain ⟨rfl, rfl⟩ := hz
    omega

private theorem reversed_large (n : Nat) (hn : n < 2 ^ 48) (h : n % 2 ^ 16 ≠ 0) : 2 ^ 48 ≤ rscReversed n := by
  obtain ⟨a, b, c, d, e, f, ha, hb, hc, hd, he, hf, hs⟩ := digits n hn
  obtain ⟨o0, o1, o2, o3, o4, o5⟩ := octets ha hb hc hd he hf hs
  have hm : n % 2 ^ 16 = a + 256 * b := by clear o0 o1 o2 o3 o4 o5; omega
  unfold rscReversed
  rw [o0, o1, o2, o3, o4, o5]
  rw [hm] at h
  clear o0 o1 o2 o3 o4 o5 hm hs hn
  omega

private theorem packet_number_lt (h : CryptoHeader) : h.packet_number.toNat < 2 ^ 48 := by
  obtain ⟨⟨p, hp⟩, k⟩ := h
  match p, hp with
  | [a, b, c, d, e, f], _ =>
    have := a.isLt
    have := b.isLt
    have := c.isLt
    have := d.isLt
    have := e.isLt
    have := f.isLt
    simp only [CryptoHeader.packet_number, fromLE, leNat, List.cons_append, List.nil_append, BitVec.toNat_ofNat]
    simp
    omega

variable [ScrollRule]

/-- What is read from a frame that follows the standard: the octets in the opposite order. -/
theorem c88_read (akm : IEEE80211AkmType) (inp : Bytes) (f : EapolKeyFrame Bytes) (k : Nat)
    (h : readEapolKeyFrame akm inp = .ok (f, k)) (n : Nat) (hn : n < 2 ^ 48) (hr : rscField inp = rscOctets n) :
    f.key_rsc.toNat = rscReversed n := by
  obtain ⟨v, L, res, extra, rest, -, -, -, -, rfl⟩ := c37_parse akm inp f k h
  refine rsc_number hn (Eq.trans ?_ hr)
  have e : v :: 3 :: (toBE L ++ (eapolFields f res.val ++ (f.key_mic ++ (toBE (BitVec.ofNat 16 f.key_data.length) ++
      (f.key_data ++ (extra ++ rest)))))) = (v :: 3 :: (toBE L ++ (2 :: (toBE f.key_information.bits ++
      (toBE f.key_length ++ (toBE f.key_replay_counter ++ (f.key_nonce.val ++ toBE f.key_iv))))))) ++
      (toBE f.key_rsc ++ (res.val ++ (f.key_mic ++ (toBE (BitVec.ofNat 16 f.key_data.length) ++
      (f.key_data ++ (extra ++ rest)))))) := by
    simp [eapolFields]
  rw [rscField, e, List.drop_left' (by simp), List.take_left' (by simp)]

/-- Violation: the field documented as the packet number is that only for the few packet numbers that read the same in
both orders. -/
theorem c88_read_wrong (akm : IEEE80211AkmType) (inp : Bytes) (f : EapolKeyFrame Bytes) (k : Nat)
    (h : readEapolKeyFrame akm inp = .ok (f, k)) (n : Nat) (hn : n < 2 ^ 48) (hr : rscField inp = rscOctets n) :
    f.key_rsc.toNat = n ↔ RscSame n := by
  rw [c88_read akm inp f k h n hn hr, reversed_iff n hn]

/-- Violation: after a message that follows the standard, with any packet number whose lower 16 bits are not all zero, a
supplicant that compares packet numbers with the field takes every group frame for a replay. -/
theorem c88_traffic_lost (akm : IEEE80211AkmType) (inp : Bytes) (f : EapolKeyFrame Bytes) (k : Nat)
    (h : readEapolKeyFrame akm inp = .ok (f, k)) (n : Nat) (hn : n < 2 ^ 48) (hr : rscField inp = rscOctets n)
    (hz : n % 2 ^ 16 ≠ 0) (c : CryptoHeader) : ¬ NotReplayed f.key_rsc c := by
  unfold NotReplayed
  have := packet_number_lt c
  have := reversed_large n hn hz
  rw [c88_read akm inp f k h n hn hr]
  omega

/-- Violation: old frames can pass as well.  After a message that says that 2^40 is the last packet number, a frame
sent before it, with packet number 2^39, is not taken for a replay. -/
theorem c88_replay_wrong (akm : IEEE80211AkmType) (inp : Bytes) (f : EapolKeyFrame Bytes) (k : Nat)
    (h : readEapolKeyFrame akm inp = .ok (f, k)) (hr : rscField inp = rscOctets (2 ^ 40)) :
    ∃ c : CryptoHeader, c.packet_number.toNat = 2 ^ 39 ∧ NotReplayed f.key_rsc c := by
  refine ⟨⟨⟨[0, 0, 0, 0, 0x80, 0], rfl⟩, 0⟩, by decide, ?_⟩
  unfold NotReplayed
  rw [c88_read akm inp f k h (2 ^ 40) (by decide) hr]
  decide

/-- For the packet numbers that read the same in both orders, the first group frame of all among them, the check is
right: exactly newer frames pass. -/
theorem c88_check_partial (akm : IEEE80211AkmType) (inp : Bytes) (f : EapolKeyFrame Bytes) (k : Nat)
    (h : readEapolKeyFrame akm inp = .ok (f, k)) (n : Nat) (hn : n < 2 ^ 48) (hr : rscField inp = rscOctets n)
    (hs : RscSame n) (c : CryptoHeader) : NotReplayed f.key_rsc c ↔ n < c.packet_number.toNat := by
  unfold NotReplayed
  rw [(c88_read_wrong akm inp f k h n hn hr).2 hs]

/-- Violation: what is sent is the octets of the packet number in the opposite order, which is what the standard has only for the
same packet numbers. -/
theorem c88_sent_wrong (f : EapolKeyFrame Obj) (data : Bytes) (need : Nat) (hd : Emits f.key_data.write data need)
    (hn : f.key_rsc.toNat < 2 ^ 48) (buf : Bytes) (hb : 83 + f.key_mic.length + max need slack ≤ buf.length) :
    ∃ out, writeEapolKeyFrame f buf = .ok (out ++ buf.drop out.length, out.length) ∧
      rscField out = (rscOctets f.key_rsc.toNat).reverse ∧
      (rscField out = rscOctets f.key_rsc.toNat ↔ RscSame f.key_rsc.toNat) := by
  have hw := (c37_write f data need hd).ok buf hb
  have hr : rscField (eapolWire 2 f (Arr.zero 8).val data) = toBE f.key_rsc := by
    have e : eapolWire 2 f (Arr.zero 8).val data =
        (2 :: 3 :: (toBE (BitVec.ofNat 16 (79 + f.key_mic.length + data.length)) ++ (2 :: (toBE f.key_information.bits ++
        (toBE f.key_length ++ (toBE f.key_replay_counter ++ (f.key_nonce.val ++ toBE f.key_iv))))))) ++
        (toBE f.key_rsc ++ ((Arr.zero 8).val ++ (f.key_mic ++ (toBE (BitVec.ofNat 16 data.length) ++ data)))) := by
      simp [eapolWire, eapolFields]
    rw [rscField, e, List.drop_left' (by simp), List.take_left' (by simp)]
  refine ⟨_, hw, ?_, ?_⟩
  · rw [hr, rsc_written _ hn]
  · rw [hr]
    constructor
    · intro h
      exact (reversed_iff _ hn).1 (rsc_number hn h).symm
    · intro h
      have h1 : fromBE 64 (rscOctets f.key_rsc.toNat) = f.key_rsc :=
        BitVec.eq_of_toNat_eq ((octets_number hn).trans ((reversed_iff _ hn).2 h))
      rw [← toBE_fromBE (w := 64) rfl (rscOctets f.key_rsc.toNat) rfl, h1]

/-- Between two users of the crate the field has the same value on both sides. -/
theorem c88_own (akm : IEEE80211AkmType) (f : EapolKeyFrame Bytes) (rest : Bytes)
    (ha : akm.keyMicLen = some f.key_mic.length)
    (hl : 79 + f.key_mic.length + f.key_data.length < 65536) (hs : slack ≤ f.key_data.length) (buf : Bytes)
    (hb : 83 + f.key_mic.length + f.key_data.length ≤ buf.length) :
    ∃ out g n, writeEapolKeyFrame { f with key_data := bytesObj f.key_data } buf =
      .ok (out ++ buf.drop out.length, out.length) ∧ readEapolKeyFrame akm (out ++ rest) = .ok (g, n) ∧
      ∀ c, NotReplayed g.key_rsc c ↔ f.key_rsc.toNat < c.packet_number.toNat := by
  obtain ⟨out, h1, h2⟩ := c37_round_trip_partial akm f rest ha hl hs buf hb
  exact ⟨out, f, out.length, h1, h2, fun c => Iff.rfl⟩

/-- A message of an authenticator whose last group frame had this packet number. -/
private def rscMessage (n : Nat) : Bytes :=
  [2, 3, 0, 98, 2, 3, 0x0a, 0, 16, 0, 0, 0, 0, 0, 0, 0, 1] ++ List.replicate 32 0x11 ++ List.replicate 16 0 ++
    rscOctets n ++ List.replicate 8 0 ++ List.replicate 16 0xab ++ [0, 3, 1, 2, 3]

example (s : Bool) :
    letI : ScrollRule := ⟨s⟩
    rscField (rscMessage 5) = rscOctets 5 ∧
    (readEapolKeyFrame .Psk (rscMessage 5)).map (fun r => r.1.key_rsc.toNat) = .ok (5 * 2 ^ 56) ∧
    rscField (rscMessage (2 ^ 40)) = rscOctets (2 ^ 40) ∧
    (readEapolKeyFrame .Psk (rscMessage (2 ^ 40))).map (fun r => r.1.key_rsc.toNat) = .ok (2 ^ 16) ∧
    (readEapolKeyFrame .Psk (rscMessage 0)).map (fun r => r.1.key_rsc.toNat) = .ok 0 := by
  cases s <;> decide +kernel

example : RscSame 0 ∧ RscSame (2 ^ 40 + 2 ^ 16) ∧ ¬ RscSame 5 ∧ 5 % 2 ^ 16 ≠ 0 ∧ ¬ RscSame (2 ^ 40) := by
  unfold RscSame
  decide

end Verif
