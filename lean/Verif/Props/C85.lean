import Verif.Props.C18
import Verif.Props.C35
import Verif.Props.C36
import Verif.Props.C50
import Verif.Spec.Sha2
/-!
# C85: the keys of a handshake are those of its suite

The standard derives the PTK with a function that depends on the key management suite: the PRF with HMAC-SHA-1
(12.7.1.2), or the KDF with SHA-256 or SHA-384 (12.7.1.6.2).  The hash functions are concrete here.
-/
namespace Verif

namespace Spec

inductive KeyHash where
  | sha1 | sha256 | sha384
  deriving DecidableEq

/-- The bytes of a digest. -/
def KeyHash.size : KeyHash → Nat
  | .sha1 => 20
  | .sha256 => 32
  | .sha384 => 48

/-- HMAC with this hash. -/
def KeyHash.hmac : KeyHash → Bytes → Bytes → Bytes
  | .sha1 => fun k m => (hmacSha1 k m).val
  | .sha256 => hmacSha256
  | .sha384 => hmacSha384

/-- IEEE 802.11-2020, table 9-151 and 12.7.1.3: the suite types whose PTK is the expansion of a PMK by a hash that
the suite alone determines, and that hash.  (Fast transition, FILS, TDLS and the suites whose hash depends on a group
have other derivations.) -/
def ptkHashes : List (Nat × KeyHash) := [
  (1, .sha1), (2, .sha1), (5, .sha256), (6, .sha256), (8, .sha256), (11, .sha256), (12, .sha384), (20, .sha384)]

/-- Block `i`, counted from 0.  The PRF (12.7.1.2) has HMAC(K, label || 00 || data || i) with `i` in one octet; the KDF
(12.7.1.6.2) has HMAC(K, i + 1 || label || data || length), the counter and the length of the output in bits being
16-bit little-endian numbers. -/
def expandBlock (h : KeyHash) (key label data : Bytes) (n i : Nat) : Bytes :=
  match h with
  | .sha1 => h.hmac key (label ++ 0 :: (data ++ [BitVec.ofNat 8 i]))
  | _ => h.hmac key (toLE (BitVec.ofNat 16 (i + 1)) ++ (label ++ (data ++ toLE (BitVec.ofNat 16 (8 * n)))))

/-- "Pairwise key expansion", see `expansionLabel_text`. -/
def expansionLabel : Bytes :=
  [80, 97, 105, 114, 119, 105, 115, 101, 32, 107, 101, 121, 32, 101, 120, 112, 97, 110, 115, 105, 111, 110]

theorem expansionLabel_text : expansionLabel = ascii "Pairwise key expansion" := by decide +kernel

/-- The PTK of `n` bytes by the function that goes with a hash: as many blocks as are needed, cut to length. -/
def standardPtk (h : KeyHash) (pmk : Bytes) (aa spa : Mac) (an sn : Arr 32) (n : Nat) : Bytes :=
  ((List.range ((n + h.size - 1) / h.size)).flatMap
    (expandBlock h pmk expansionLabel (ptkData aa spa an sn) n)).take n

/-- KCK, KEK and TK by the standard, for suite type `a` and cipher suite type `c`. -/
def standardKeys (a c : Nat) (pmk : Bytes) (aa spa : Mac) (an sn : Arr 32) : Option (Bytes × Bytes × Bytes) :=
  (ptkHashes.lookup a).bind fun h =>
  (kckLens.lookup a).bind fun x =>
  (kekLens.lookup a).bind fun y =>
  (tkLens.lookup c).map fun z =>
    let ptk := standardPtk h pmk aa spa an sn (x + y + z)
    (ptk.take x, (ptk.drop x).take y, ptk.drop (x + y))

/-- The length of the PTK for suite type `a` and cipher suite type `c`. -/
def standardLen (a c : Nat) : Option Nat :=
  (kckLens.lookup a).bind fun x => (kekLens.lookup a).bind fun y => (tkLens.lookup c).map fun z => x + y + z

end Spec

open Spec

theorem KeyHash.hmac_length (h : KeyHash) (k m : Bytes) : (h.hmac k m).length = h.size := by
  cases h
  · exact (hmacSha1 k m).property
  · exact hmacSha256_length k m
  · exact hmacSha384_length k m

/-- The PMKID, with the hash of whichever suite: the first 128 bits of HMAC(key, "PMK Name" || AA || SPA). -/
theorem c85_pmkid (h : KeyHash) (key : Bytes) (aa spa : Mac) :
    ∃ out, generatePmkid h.hmac key aa spa = .ok out ∧
      out.val = (h.hmac key (ascii "PMK Name" ++ (aa.val ++ spa.val))).take 16 :=
  c50_pmkid _ _ _ _ (by rw [KeyHash.hmac_length]; cases h <;> decide)

theorem expandBlock_length (h : KeyHash) (key label data : Bytes) (n i : Nat) :
    (expandBlock h key label data n i).length = h.size := by
  cases h <;> (unfold expandBlock; exact KeyHash.hmac_length _ _ _)

theorem length_flatMap_range (f : Nat → Bytes) (l : Nat) (hf : ∀ i, (f i).length = l) (k : Nat) :
    ((List.range k).flatMap f).length = k * l := by
  induction k with
  | zero => simp
  | succ k ih => rw [List.range_succ, List.flatMap_append, List.length_append, ih]; simp [hf, Nat.succ_mul]

theorem standardPtk_length (h : KeyHash) (pmk : Bytes) (aa spa : Mac) (an sn : Arr 32) (n : Nat) :
    (standardPtk h pmk aa spa an sn n).length = n := by
  rw [standardPtk, List.length_take, length_flatMap_range _ h.size (fun i => expandBlock_length _ _ _ _ _ i)]
  have : 0 < h.size := by cases h <;> decide
  have h1 := Nat.div_add_mod (n + h.size - 1) h.size
  have h2 := Nat.mod_lt (n + h.size - 1) this
  rw [Nat.mul_comm] at h1
  omega

/-- What `derive_ptk` computes is the standard's PTK for the suites with SHA-1, of any length. -/
theorem derivePtk_sha1 [HmacSha1] (hreal : ∀ k m, HmacSha1.hmac k m = hmacSha1 k m) (pmk : Bytes) (aa spa : Mac)
    (an sn : Arr 32) (n : Nat) : derivePtk pmk aa spa an sn n = standardPtk .sha1 pmk aa spa an sn n := by
  have hlen := standardPtk_length .sha1 pmk aa spa an sn n
  have hlab : ("Pairwise key expansion".toUTF8.toList.map fun c => c.toBitVec) = expansionLabel :=
    expansionLabel_text.symm
  rw [c35_input, hlab]
  refine List.ext_getElem (by simp [hlen]) fun j h1 h2 => ?_
  rw [List.length_map, List.length_range] at h1
  rw [List.getElem_map, List.getElem_range]
  unfold standardPtk at h2 ⊢
  rw [List.getElem_take]
  have key : ∀ (f : Nat → Bytes), (∀ i, (f i).length = 20) → ∀ k j (hj : j < ((List.range k).flatMap f).length),
      ((List.range k).flatMap f)[j] = (f (j / 20)).getD (j % 20) 0 := by
    intro f hf k
    induction k with
    | zero => intro j hj; simp at hj
    | succ k ih =>
      intro j hj
      have hl := length_flatMap_range f 20 hf k
      rw [length_flatMap_range f 20 hf] at hj
      have he : (List.range (k + 1)).flatMap f = (List.range k).flatMap f ++ f k := by
        rw [List.range_succ, List.flatMap_append]; simp
      rw [List.getElem_of_eq he]
      by_cases hjk : j < k * 20
      · rw [List.getElem_append_left (by omega)]
        exact ih j (by omega)
      · rw [List.getElem_append_right (by omega), List.getD_eq_getElem?_getD]
        have h1 : j / 20 = k := by omega
        have h2 : j - ((List.range k).flatMap f).length = j % 20 := by omega
        rw [h1, List.getElem?_eq_getElem (by rw [hf]; omega), Option.getD_some]
        simp only [h2]
  rw [key _ (fun i => expandBlock_length .sha1 _ _ _ _ i)]
  unfold prfByte
  rw [hreal]
  rfl

/-- The lengths of the library are those of the standard for all suites of the table but the last. -/
theorem ptk_lens (a : Nat) (akm : IEEE80211AkmType) (ha : (a, akm) ∈ akmSuites) (hh : (ptkHashes.lookup a).isSome)
    (h20 : a ≠ 20) : akm.kckLen = kckLens.lookup a ∧ akm.kekLen = kekLens.lookup a := by
  have key : ∀ p ∈ akmSuites, (ptkHashes.lookup p.1).isSome → p.1 ≠ 20 →
      p.2.kckLen = kckLens.lookup p.1 ∧ p.2.kekLen = kekLens.lookup p.1 := by decide +kernel
  exact key (a, akm) ha hh h20

theorem cipher_lens (c : Nat) (cipher : IEEE80211CipherSuiteSelector) (hc : (c, cipher) ∈ cipherSuites) :
    cipher.tkLen = tkLens.lookup c := by
  have key : ∀ p ∈ cipherSuites, p.2.tkLen = tkLens.lookup p.1 := by decide +kernel
  exact key (c, cipher) hc

/-- What the two functions give together, for every suite of the table but the last: the parts of the expansion with
HMAC-SHA-1, with the lengths of the suite. -/
theorem c85_keys [HmacSha1] (hreal : ∀ k m, HmacSha1.hmac k m = hmacSha1 k m) (a c n : Nat) (akm : IEEE80211AkmType)
    (cipher : IEEE80211CipherSuiteSelector) (ha : (a, akm) ∈ akmSuites) (hc : (c, cipher) ∈ cipherSuites)
    (hh : (ptkHashes.lookup a).isSome) (h20 : a ≠ 20) (hn : standardLen a c = some n)
    (pmk : Bytes) (aa spa : Mac) (an sn : Arr 32) :
    ∃ h x y, ptkHashes.lookup a = some h ∧ kckLens.lookup a = some x ∧ kekLens.lookup a = some y ∧
      partitionPtk (derivePtk pmk aa spa an sn n) akm cipher =
        some ((standardPtk .sha1 pmk aa spa an sn n).take x, ((standardPtk .sha1 pmk aa spa an sn n).drop x).take y,
          (standardPtk .sha1 pmk aa spa an sn n).drop (x + y)) ∧
      (partitionPtk (derivePtk pmk aa spa an sn n) akm cipher = standardKeys a c pmk aa spa an sn ↔
        standardPtk .sha1 pmk aa spa an sn n = standardPtk h pmk aa spa an sn n) := by
  obtain ⟨hx, hy⟩ := ptk_lens a akm ha hh h20
  have hz := cipher_lens c cipher hc
  obtain ⟨h, hh⟩ := Option.isSome_iff_exists.1 hh
  unfold standardLen at hn
  cases hkx : kckLens.lookup a with
  | none => rw [hkx] at hn; cases hn
  | some x =>
    cases hky : kekLens.lookup a with
    | none => rw [hkx, hky] at hn; cases hn
    | some y =>
      cases hkz : tkLens.lookup c with
      | none => rw [hkx, hky, hkz] at hn; cases hn
      | some z =>
        rw [hkx, hky, hkz] at hn
        have hn' : x + y + z = n := Option.some.inj hn
        have hl := standardPtk_length .sha1 pmk aa spa an sn n
        have hl' := standardPtk_length h pmk aa spa an sn n
        have hp : partitionPtk (derivePtk pmk aa spa an sn n) akm cipher =
            some ((standardPtk .sha1 pmk aa spa an sn n).take x,
              ((standardPtk .sha1 pmk aa spa an sn n).drop x).take y,
              (standardPtk .sha1 pmk aa spa an sn n).drop (x + y)) := by
          rw [c36_partition, derivePtk_sha1 hreal]
          refine ⟨⟨[], ?_⟩, ?_, ?_, ?_⟩
          · rw [List.append_nil, ← List.drop_drop, List.take_append_drop, List.take_append_drop]
          · rw [hx, hkx, List.length_take, hl, Nat.min_eq_left (by omega)]
          · rw [hy, hky, List.length_take, List.length_drop, hl, Nat.min_eq_left (by omega)]
          · rw [hz, hkz, List.length_drop, hl]; congr 1; omega
        have hs : standardKeys a c pmk aa spa an sn =
            some ((standardPtk h pmk aa spa an sn n).take x,
              ((standardPtk h pmk aa spa an sn n).drop x).take y,
              (standardPtk h pmk aa spa an sn n).drop (x + y)) := by
          unfold standardKeys
          rw [hh, hkx, hky, hkz, ← hn']
          rfl
        refine ⟨h, x, y, hh, rfl, rfl, hp, ?_⟩
        rw [hp, hs, Option.some.injEq, Prod.mk.injEq, Prod.mk.injEq]
        refine ⟨fun ⟨h1, h2, h3⟩ => ?_, fun he => by rw [he]; exact ⟨rfl, rfl, rfl⟩⟩
        generalize standardPtk .sha1 pmk aa spa an sn n = p at h1 h2 h3
        generalize standardPtk h pmk aa spa an sn n = q at h1 h2 h3
        rw [← List.take_append_drop x p, ← List.take_append_drop x q, h1, ← List.take_append_drop y (p.drop x),
          ← List.take_append_drop y (q.drop x), h2, List.drop_drop, List.drop_drop, h3]

/-- With the suites for 802.1X and for a pre-shared key, and every cipher suite that has a temporal key, the keys are
those of the standard.  The full statement is for all suites of the table; see `c85_keys_wrong` and
`c85_psk_sha384_lost`. -/
theorem c85_keys_partial [HmacSha1] (hreal : ∀ k m, HmacSha1.hmac k m = hmacSha1 k m) (a c n : Nat)
    (akm : IEEE80211AkmType) (cipher : IEEE80211CipherSuiteSelector) (ha : (a, akm) ∈ akmSuites)
    (hc : (c, cipher) ∈ cipherSuites) (hsha : ptkHashes.lookup a = some .sha1) (hn : standardLen a c = some n)
    (pmk : Bytes) (aa spa : Mac) (an sn : Arr 32) :
    partitionPtk (derivePtk pmk aa spa an sn n) akm cipher = standardKeys a c pmk aa spa an sn ∧
    (standardKeys a c pmk aa spa an sn).isSome := by
  have h20 : a ≠ 20 := by rintro rfl; revert hsha; decide
  obtain ⟨h, x, y, h1, _, _, hp, hiff⟩ :=
    c85_keys hreal a c n akm cipher ha hc (by rw [hsha]; rfl) h20 hn pmk aa spa an sn
  rw [hsha, Option.some.injEq] at h1
  subst h1
  have he := hiff.2 rfl
  exact ⟨he, by rw [← he, hp]; rfl⟩

/-- For which suites `c85_keys_partial` speaks. -/
theorem c85_scope (a : Nat) (akm : IEEE80211AkmType) (ha : (a, akm) ∈ akmSuites) :
    ptkHashes.lookup a = some .sha1 ↔ akm = .Wpa ∨ akm = .Psk := by
  have key : ∀ p ∈ akmSuites, ptkHashes.lookup p.1 = some .sha1 ↔ p.2 = .Wpa ∨ p.2 = .Psk := by decide +kernel
  exact key (a, akm) ha

/-- Violation: with the suites that have SHA-256 or SHA-384 the keys are still those of HMAC-SHA-1.  They are wrong
unless the two functions happen to agree... -/
theorem c85_keys_wrong [HmacSha1] (hreal : ∀ k m, HmacSha1.hmac k m = hmacSha1 k m) (a c n : Nat) (h : KeyHash)
    (akm : IEEE80211AkmType) (cipher : IEEE80211CipherSuiteSelector) (ha : (a, akm) ∈ akmSuites)
    (hc : (c, cipher) ∈ cipherSuites) (hh : ptkHashes.lookup a = some h) (h20 : a ≠ 20)
    (hn : standardLen a c = some n) (pmk : Bytes) (aa spa : Mac) (an sn : Arr 32)
    (hne : standardPtk .sha1 pmk aa spa an sn n ≠ standardPtk h pmk aa spa an sn n) :
    partitionPtk (derivePtk pmk aa spa an sn n) akm cipher ≠ standardKeys a c pmk aa spa an sn := by
  obtain ⟨h', x, y, h1, _, _, _, hiff⟩ :=
    c85_keys hreal a c n akm cipher ha hc (by rw [hh]; rfl) h20 hn pmk aa spa an sn
  rw [hh, Option.some.injEq] at h1
  subst h1
  exact fun he => hne (hiff.1 he)

/-- ...as they do not here.  Violation, with the real hash functions: two stations with SAE, and two with the suite
B of 192 bits, get none of the three keys of the standard. -/
theorem c85_sae_wrong :
    letI := realHmac
    let aa : Mac := ⟨[1, 2, 3, 4, 5, 6], rfl⟩
    let spa : Mac := ⟨[7, 8, 9, 10, 11, 12], rfl⟩
    let an : Arr 32 := ⟨List.replicate 32 0x41, rfl⟩
    let sn : Arr 32 := ⟨List.replicate 32 0x53, rfl⟩
    let pmk := List.replicate 32 0x0b
    let differ := fun (p q : Option (Bytes × Bytes × Bytes)) =>
      match p, q with
      | some p, some q => p.1 != q.1 && p.2.1 != q.2.1 && p.2.2 != q.2.2
      | _, _ => false
    differ (partitionPtk (derivePtk pmk aa spa an sn 48) .Sae .Ccmp128) (standardKeys 8 4 pmk aa spa an sn) = true ∧
    differ (partitionPtk (derivePtk pmk aa spa an sn 48) .PskSha256 .Ccmp128)
      (standardKeys 6 4 pmk aa spa an sn) = true ∧
    differ (partitionPtk (derivePtk pmk aa spa an sn 88) .WpaSha384SuiteB .Gcmp256)
      (standardKeys 12 9 pmk aa spa an sn) = true := by
  decide +kernel

/-- Violation: for a pre-shared key with SHA-384, suite type 20, there are no keys at all. -/
theorem c85_psk_sha384_lost (ptk : Bytes) (cipher : IEEE80211CipherSuiteSelector) :
    (20, IEEE80211AkmType.PskSha384) ∈ akmSuites ∧ partitionPtk ptk .PskSha384 cipher = none ∧
    ∀ pmk aa spa an sn, (standardKeys 20 9 pmk aa spa an sn).isSome :=
  ⟨by decide, rfl, fun _ _ _ _ _ => rfl⟩

/-- Which keys the functions for EAPOL frames can be given: they take a KCK and a KEK of 16 bytes.  Violation: the
keys of the two suites with SHA-384 have 24 and 32 bytes, and do not fit; all others do. -/
theorem c85_fit_wrong (ptk : Bytes) (akm : IEEE80211AkmType) (cipher : IEEE80211CipherSuiteSelector)
    (kck kek tk : Bytes) (h : partitionPtk ptk akm cipher = some (kck, kek, tk)) :
    (kck.length = 16 ∧ kek.length = 16 ∨ kck.length = 24 ∧ kek.length = 32) ∧
    (akm = .WpaSha384SuiteB ∨ akm = .FTOverIEEE8021XSha384 → kck.length = 24 ∧ kek.length = 32) := by
  obtain ⟨_, h1, h2, _⟩ := (c36_partition _ _ _ _ _ _).1 h
  refine ⟨?_, ?_⟩
  · unfold IEEE80211AkmType.kckLen at h1
    unfold IEEE80211AkmType.kekLen at h2
    cases hs : getSuiteTypeIfOuiIsIeee akm.cipherSuiteSelector with
    | none => rw [hs] at h1; cases h1
    | some t =>
      rw [hs] at h1 h2
      dsimp only at h1 h2
      by_cases h11 : 1 ≤ t.toNat ∧ t.toNat ≤ 11
      · rw [if_pos h11] at h1 h2
        exact .inl ⟨(Option.some.inj h1).symm, (Option.some.inj h2).symm⟩
      · rw [if_neg h11] at h1 h2
        by_cases h13 : 12 ≤ t.toNat ∧ t.toNat ≤ 13
        · rw [if_pos h13] at h1
          rw [if_pos (by omega)] at h2
          exact .inr ⟨(Option.some.inj h1).symm, (Option.some.inj h2).symm⟩
        · rw [if_neg h13] at h1; cases h1
  · rintro (rfl | rfl) <;>
    · have e1 : some 24 = some kck.length := h1
      have e2 : some 32 = some kek.length := h2
      exact ⟨(Option.some.inj e1).symm, (Option.some.inj e2).symm⟩

/-- The vector of IEEE 802.11i, H.3: PRF-512 of a key of 20 bytes 0b. -/
example : letI := realHmac
    prf (List.replicate 20 0x0b) [0x70, 0x72, 0x65, 0x66, 0x69, 0x78] [0x48, 0x69, 0x20, 0x54, 0x68, 0x65, 0x72, 0x65] 64 =
    [0xbc, 0xd4, 0xc6, 0x50, 0xb3, 0x0b, 0x96, 0x84, 0x95, 0x18, 0x29, 0xe0, 0xd7, 0x5f, 0x9d, 0x54,
     0xb8, 0x62, 0x17, 0x5e, 0xd9, 0xf0, 0x06, 0x06, 0xe1, 0x7d, 0x8d, 0xa3, 0x54, 0x02, 0xff, 0xee,
     0x75, 0xdf, 0x78, 0xc3, 0xd3, 0x1e, 0x0f, 0x88, 0x9f, 0x01, 0x21, 0x20, 0xc0, 0x86, 0x2b, 0xeb,
     0x67, 0x75, 0x3e, 0x74, 0x39, 0xae, 0x24, 0x2e, 0xdb, 0x83, 0x73, 0x69, 0x83, 0x56, 0xcf, 0x5a] := by
  decide +kernel

/-- The hypotheses of `c85_keys_partial` for a network with a passphrase and CCMP, and those of `c85_keys_wrong`. -/
example : (2, IEEE80211AkmType.Psk) ∈ akmSuites ∧ (4, IEEE80211CipherSuiteSelector.Ccmp128) ∈ cipherSuites ∧
    ptkHashes.lookup 2 = some .sha1 ∧ standardLen 2 4 = some 48 ∧
    ptkHashes.lookup 8 = some .sha256 ∧ standardLen 8 4 = some 48 := by decide

end Verif
