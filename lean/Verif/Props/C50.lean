import Verif.Model.Crypto.KeyMgmt
/-!
# C50: PMKID and PMK derivation
-/
namespace Verif

namespace Spec

/-- The bytes of a text. -/
def ascii (s : String) : Bytes := s.toUTF8.toList.map fun c => c.toBitVec

/-- Exclusive or of byte strings of equal length. -/
def xorBytes (a b : Bytes) : Bytes := List.zipWith (· ^^^ ·) a b

/-- The iterated part of PBKDF2 (RFC 8018, 5.2): U_1 = PRF(P, first), U_{k+1} = PRF(P, U_k); returns the
last U and the exclusive or of all `c + 1` of them. -/
def pbkdf2Iter (prf : Bytes → Bytes → Bytes) (p first : Bytes) : Nat → Bytes × Bytes
  | 0 => (prf p first, prf p first)
  | c + 1 =>
    let (u, t) := pbkdf2Iter prf p first c
    (prf p u, xorBytes t (prf p u))

/-- Block `i` (counted from 1) of PBKDF2 with `c` iterations. -/
def pbkdf2Block (prf : Bytes → Bytes → Bytes) (p salt : Bytes) (c i : Nat) : Bytes :=
  (pbkdf2Iter prf p (salt ++ toBE (BitVec.ofNat 32 i)) (c - 1)).2

/-- PBKDF2 with `n` bytes of output. -/
def pbkdf2 (prf : Bytes → Bytes → Bytes) (p salt : Bytes) (c n : Nat) : Bytes :=
  ((List.range n).flatMap fun i => pbkdf2Block prf p salt c (i + 1)).take n

end Spec

open Spec

/-- The PMKID is the first 16 bytes of HMAC(PMK, "PMK Name" || AA || SPA), for any HMAC with at least 16
bytes of output (SHA-1, SHA-256, SHA-384). -/
theorem c50_pmkid (h : Bytes → Bytes → Bytes) (pmk : Bytes) (aa spa : Mac)
    (hl : 16 ≤ (h pmk (ascii "PMK Name" ++ (aa.val ++ spa.val))).length) :
    ∃ out, generatePmkid h pmk aa spa = .ok out ∧
      out.val = (h pmk (ascii "PMK Name" ++ (aa.val ++ spa.val))).take 16 := by
  have hs : ascii "PMK Name" = [0x50, 0x4d, 0x4b, 0x20, 0x4e, 0x61, 0x6d, 0x65] := by decide +kernel
  rw [hs] at hl ⊢
  unfold generatePmkid
  simp only [List.append_assoc]
  rw [dif_pos hl]
  exact ⟨_, rfl, rfl⟩

/-- With an HMAC of shorter output, which the type of the function allows, it panics. -/
theorem c50_pmkid_short (h : Bytes → Bytes → Bytes) (pmk : Bytes) (aa spa : Mac)
    (hl : ∀ k m, (h k m).length < 16) : generatePmkid h pmk aa spa = .panic := by
  unfold generatePmkid
  have := hl pmk ([0x50, 0x4d, 0x4b, 0x20, 0x4e, 0x61, 0x6d, 0x65] ++ aa.val ++ spa.val)
  simp only
  rw [dif_neg (by omega)]

/-- The PSK: if the `pbkdf2` crate computes PBKDF2, the PSK of any requested length is PBKDF2 of the
passphrase with the SSID as salt and 4096 iterations; for WPA2 the length is 32. -/
theorem c50_psk [Pbkdf2Sha1] (hmac : Bytes → Bytes → Bytes)
    (hcrate : ∀ p s c n, (Pbkdf2Sha1.derive p s c n).val = pbkdf2 hmac p s c n) (passphrase ssid : Bytes) :
    (mapPassphraseToPsk passphrase ssid 32).val = pbkdf2 hmac passphrase ssid 4096 32 ∧
    ∀ n, (mapPassphraseToPsk passphrase ssid n).val.length = n ∧
      (mapPassphraseToPsk passphrase ssid n).val = pbkdf2 hmac passphrase ssid 4096 n :=
  ⟨hcrate _ _ _ _, fun n => ⟨by simp, hcrate _ _ _ _⟩⟩

/-- The hypothesis of `c50_psk` can be met. -/
example : ∃ _ : Pbkdf2Sha1, ∀ p s c n, (Pbkdf2Sha1.derive p s c n).val =
    pbkdf2 (fun _ m => m.take 1 ++ List.replicate 19 0 ++ List.replicate (1 - (m.take 1).length) 0) p s c n := by
  have hlen : ∀ p s c i, (pbkdf2Block (fun _ m => m.take 1 ++ List.replicate 19 0 ++
      List.replicate (1 - (m.take 1).length) 0) p s c i).length = 20 := by
    intro p s c i
    unfold pbkdf2Block
    generalize c - 1 = c
    induction c with
    | zero => simp [pbkdf2Iter]
    | succ c ih => simp only [pbkdf2Iter, xorBytes, List.length_zipWith, ih]; simp; omega
  refine ⟨⟨fun p s c n => ⟨pbkdf2 _ p s c n, ?_⟩⟩, fun _ _ _ _ => rfl⟩
  have : ∀ m, ((List.range m).flatMap fun i => pbkdf2Block (fun _ m => m.take 1 ++ List.replicate 19 0 ++
      List.replicate (1 - (m.take 1).length) 0) p s c (i + 1)).length = 20 * m := by
    intro m
    induction m with
    | zero => rfl
    | succ m ih => rw [List.range_succ, List.flatMap_append, List.length_append, ih]; simp only [List.flatMap_cons, List.flatMap_nil, List.append_nil, hlen]; omega
  rw [pbkdf2, List.length_take, this]; omega

/-- A PMKID with an HMAC that returns the message. -/
example : generatePmkid (fun _ m => m) [] ⟨[1, 2, 3, 4, 5, 6], rfl⟩ ⟨[7, 8, 9, 10, 11, 12], rfl⟩ =
    .ok ⟨[0x50, 0x4d, 0x4b, 0x20, 0x4e, 0x61, 0x6d, 0x65, 1, 2, 3, 4, 5, 6, 7, 8], rfl⟩ := by decide

end Verif
