import Verif.Props.C40
import Verif.Lemmas.Aes
import Verif.Spec.Sha1
/-!
# C60: key data under the actual key wrap

The key wrap is no longer a parameter here: it is RFC 3394 with AES-128 as FIPS 197 defines it.
-/
namespace Verif

namespace Spec

/-- AES key wrap (RFC 3394) as the key wrap of the model. -/
@[instance_reducible] def realKw : AesKw where
  wrap := keyWrap
  unwrap := keyUnwrap
  wrap_length k d h := wrapWith_length k defaultIv d rfl h
  unwrap_length k w d h := by
    unfold keyUnwrap at h
    dsimp only at h
    split at h
    · rename_i hc
      cases h
      exact (wrapWith_unwrapWith k w hc.1 hc.2.1).2.2
    · cases h

/-- AES key wrap with padding (RFC 5649) as that of the model. -/
@[instance_reducible] def realKwp : AesKwp := ⟨keyWrapPadded⟩

end Spec

open Spec

/-- The law assumed in C39 holds of the actual key wrap. -/
theorem c60_lawful : letI := realKw; LawfulAesKw :=
  letI := realKw
  ⟨fun k d hd => by
    have h := unwrapWith_wrapWith k defaultIv d rfl hd
    have hl := wrapWith_length k defaultIv d rfl hd
    show keyUnwrap k (keyWrap k d) = some d
    unfold keyUnwrap keyWrap
    rw [h]
    dsimp only
    rw [if_pos ⟨by omega, by omega, rfl⟩]⟩

/-- Unwrapping accepts nothing but wrapped data. -/
theorem c60_unwrap_iff (k : Arr 16) (w d : Bytes) :
    keyUnwrap k w = some d ↔ d.length % 8 = 0 ∧ w = keyWrap k d := by
  constructor
  · intro h
    unfold keyUnwrap at h
    dsimp only at h
    split at h
    · rename_i hc
      cases h
      obtain ⟨h1, _, h2⟩ := wrapWith_unwrapWith k w hc.1 hc.2.1
      refine ⟨by omega, ?_⟩
      rw [hc.2.2] at h1
      exact h1.symm
    · cases h
  · rintro ⟨hd, rfl⟩
    exact c60_lawful.unwrap_wrap k d hd

variable [ScrollRule]

/-- A frame that is accepted and flagged as encrypted holds exactly the wrap, under the key given, of the key
data handed out. -/
theorem c60_received [HmacSha1] (kck kek : Option (Arr 16)) (buf : Bytes) (temp : Nat) (akm : IEEE80211AkmType)
    (with_fcs : Bool) (f : EapolKeyFrame Bytes)
    (h : letI := realKw; deserializeEapolDataFrame kck kek buf temp akm with_fcs = .ok f)
    (he : f.key_information.encrypted_key_data = true) :
    ∃ k m hd n, kek = some k ∧ akm.keyMicLen = some m ∧
      readDataHeader (withoutFcs buf with_fcs) = .ok (hd, n) ∧
      ((withoutFcs buf with_fcs).drop (hd.lengthInBytes + 8 + 81 + m)).take (2 + (f.key_data.length + 8)) =
        toBE (BitVec.ofNat 16 (f.key_data.length + 8)) ++ keyWrap k f.key_data := by
  letI := realKw
  obtain ⟨m, hd, n, kd, hm, hr, hkd, _, hu⟩ := c40_key_data kck kek buf temp akm with_fcs f h
  rw [if_pos he] at hu
  obtain ⟨k, hk, hu⟩ := hu
  obtain ⟨h8, rfl⟩ := (c60_unwrap_iff k kd f.key_data).1 hu
  have hl : (keyWrap k f.key_data).length = f.key_data.length + 8 := wrapWith_length k defaultIv _ rfl h8
  rw [hl] at hkd
  exact ⟨k, m, hd, n, hk, hm, hr, hkd⟩

/-- Key data that was changed on the way is never taken for what was sent: a frame whose key data field is not
the wrap of `data` is refused, or gives other key data. -/
theorem c60_changed [HmacSha1] (kck : Option (Arr 16)) (k : Arr 16) (buf : Bytes) (temp : Nat)
    (akm : IEEE80211AkmType) (with_fcs : Bool) (f : EapolKeyFrame Bytes) (m : Nat) (hd : DataFrameHeader) (n : Nat)
    (data : Bytes) (hm : akm.keyMicLen = some m)
    (hr : readDataHeader (withoutFcs buf with_fcs) = .ok (hd, n))
    (h : letI := realKw; deserializeEapolDataFrame kck (some k) buf temp akm with_fcs = .ok f)
    (he : f.key_information.encrypted_key_data = true)
    (hne : ((withoutFcs buf with_fcs).drop (hd.lengthInBytes + 8 + 81 + m + 2)).take (data.length + 8) ≠
      keyWrap k data) : f.key_data ≠ data := by
  rintro rfl
  obtain ⟨k', m', hd', n', hk, hm', hr', hkd⟩ := c60_received kck (some k) buf temp akm with_fcs f h he
  cases hk
  rw [hm, Option.some.injEq] at hm'
  rw [hr, Res.ok.injEq, Prod.mk.injEq] at hr'
  obtain ⟨rfl, rfl⟩ := hr'
  subst hm'
  apply hne
  rw [← List.drop_drop]
  generalize (withoutFcs buf with_fcs).drop (hd.lengthInBytes + 8 + 81 + m) = rest at hkd
  have h2 := congrArg (List.drop 2) hkd
  rw [List.drop_left' (by simp), List.drop_take] at h2
  rw [← h2]
  congr 1
  omega

/-- The round trip of C39 with the actual key wrap.  (As there, a frame flagged for a MIC has to be given a MIC
field of zeros, and one flagged as encrypted some key data.) -/
theorem c60_round_trip_partial [Crc32] [HmacSha1] (kck : Option (Arr 16)) (k : Arr 16) (h : DataFrameHeader)
    (hv : ValidData h) (hc : HeaderConsistent h) (oui : Arr 3) (f : EapolKeyFrame Bytes) (akm : IEEE80211AkmType)
    (ha : akm.keyMicLen = some f.key_mic.length)
    (hmic : f.key_information.key_mic = true → f.key_mic = List.replicate 16 0 ∧ kck.isSome)
    (henc : f.key_information.encrypted_key_data = true) (hne : f.key_data ≠ [])
    (buf : Bytes) (temp : Nat) (ht : f.key_data.length + 24 ≤ temp)
    (hl : f.key_mic.length + f.key_data.length + 103 < 65536)
    (hb : h.lengthInBytes + f.key_mic.length + f.key_data.length + 115 ≤ buf.length) :
    letI := realKw
    ∃ (out mic : Bytes), mic.length = f.key_mic.length ∧
      serializeEapolDataFrame kck (some k) ⟨h, some ⟨oui, 0x888e, { f with key_data := bytesObj f.key_data }⟩⟩ buf
        temp = .ok (out ++ buf.drop out.length, out.length) ∧
      out.drop (h.lengthInBytes + 8 + 83 + f.key_mic.length) = keyWrap k (padKeyData f.key_data) ∧
      deserializeEapolDataFrame kck (some k) out temp akm false =
        .ok { f with key_mic := mic, key_data := padKeyData f.key_data } := by
  letI := realKw
  haveI := c60_lawful
  obtain ⟨out, mic, hser, ⟨kd, hkd, hm, ho⟩, _, hdes⟩ := c39_round_trip_partial kck (some k) h hv hc oui f akm ha
    hmic (fun _ => ⟨hne, rfl⟩)
    (by have := slack_le; have := List.length_pos_iff.2 hne; omega) buf temp ht hl hb
  have hml : mic.length = f.key_mic.length := by
    unfold wireMic at hm
    split at hm
    · split at hm
      · obtain ⟨c, _, rfl⟩ := Option.map_eq_some_iff.1 hm
        simp [*]
      · cases hm
    · cases hm; rfl
  refine ⟨out, mic, hml, hser, ?_, ?_⟩
  · rw [wireKeyData, if_pos ⟨henc, hne⟩, Option.map_some, Option.some.injEq] at hkd
    subst hkd
    have hp : (eapolPrefix h oui 0x888e).length = h.lengthInBytes + 8 := by
      have := c27_length h
      simp only [eapolPrefix, snapWire, List.length_append]
      simp
      omega
    rw [ho, Nat.add_assoc _ 83, ← hp, ← List.drop_drop, List.drop_left, eapolWire]
    have hF : (eapolFields ({ f with key_mic := mic } : EapolKeyFrame Bytes) (Arr.zero 8).val).length = 77 := by
      simp [eapolFields]
    generalize eapolFields ({ f with key_mic := mic } : EapolKeyFrame Bytes) (Arr.zero 8).val = F at hF ⊢
    have hw : ∀ (v w : Byte) (E D W : Bytes), E.length = 2 → D.length = 2 →
        List.drop (83 + f.key_mic.length) (v :: w :: (E ++ (F ++ (mic ++ (D ++ W))))) = W := by
      intro v w E D W hE hD
      have h1 : v :: w :: (E ++ (F ++ (mic ++ (D ++ W)))) = (v :: w :: (E ++ (F ++ (mic ++ D)))) ++ W := by simp
      rw [h1]
      exact List.drop_left' (by simp [hE, hD, hF, hml]; omega)
    exact hw _ _ _ _ _ (by simp) (by simp)
  · have := hdes (Arr.zero 4) false
    simpa [henc] using this

/-! ## `wrap_eapol_key_data` -/

omit [ScrollRule] in
/-- The outcome: an output slice of the wrong length is refused; otherwise the output is the wrap of RFC 5649. -/
theorem c60_wrap_eapol (k : Arr 16) (data out : Bytes) :
    letI := realKwp
    wrapEapolKeyData k data out =
      if out.length = 8 * ((data.length + 7) / 8) + 8 then .ok (keyWrapPadded k data)
      else .error .InvalidOutputLength := rfl

omit [ScrollRule] in
private theorem padded_length (data : Bytes) :
    (data ++ List.replicate (8 * ((data.length + 7) / 8) - data.length) (0 : Byte)).length =
      8 * ((data.length + 7) / 8) := by
  simp; omega

omit [ScrollRule] in
/-- The output fills the slice. -/
theorem c60_wrap_eapol_length (k : Arr 16) (data : Bytes) :
    (keyWrapPadded k data).length = 8 * ((data.length + 7) / 8) + 8 := by
  have hp := padded_length data
  unfold keyWrapPadded
  dsimp only
  split
  · rename_i h8
    rw [aesEncrypt_length _ _ (by rw [List.length_append, h8]; simp [alternativeIv])]
    omega
  · rw [wrapWith_length _ _ _ (by simp [alternativeIv]) (by omega), hp]

omit [ScrollRule] in
/-- The output determines the key data: with the same key, different key data (of less than 2^32 bytes) gives
different output. -/
theorem c60_wrap_eapol_injective (k : Arr 16) (d d' : Bytes) (hd : d.length < 4294967296)
    (hd' : d'.length < 4294967296) (h : keyWrapPadded k d = keyWrapPadded k d') : d = d' := by
  have hl := congrArg List.length h
  rw [c60_wrap_eapol_length, c60_wrap_eapol_length] at hl
  have hp := padded_length d
  have hp' := padded_length d'
  have hiv : ∀ n : Nat, (alternativeIv n).length = 8 := by intro n; simp [alternativeIv]
  have key : alternativeIv d.length = alternativeIv d'.length ∧
      d ++ List.replicate (8 * ((d.length + 7) / 8) - d.length) (0 : Byte) =
        d' ++ List.replicate (8 * ((d'.length + 7) / 8) - d'.length) 0 := by
    unfold keyWrapPadded at h
    dsimp only at h
    by_cases h8 : 8 * ((d.length + 7) / 8) = 8
    · rw [if_pos (by rw [hp, h8]), if_pos (by rw [hp']; omega)] at h
      have h := congrArg (aesDecrypt k) h
      rw [aesDecrypt_encrypt _ _ (by rw [List.length_append, hp, hiv]; omega),
        aesDecrypt_encrypt _ _ (by rw [List.length_append, hp', hiv]; omega)] at h
      exact List.append_inj h (by rw [hiv, hiv])
    · rw [if_neg (by rw [hp]; exact h8), if_neg (by rw [hp']; omega)] at h
      have h := congrArg (unwrapWith k) h
      rw [unwrapWith_wrapWith _ _ _ (hiv _) (by omega), unwrapWith_wrapWith _ _ _ (hiv _) (by omega)] at h
      exact Prod.mk.inj h
  obtain ⟨h1, h2⟩ := key
  have hn : d.length = d'.length := by
    unfold alternativeIv at h1
    have h3 := congrArg (fun bs => (fromBE 32 bs).toNat) (List.append_cancel_left h1)
    simp only [fromBE_toBE (w := 32) rfl, BitVec.toNat_ofNat] at h3
    rw [Nat.mod_eq_of_lt (by omega), Nat.mod_eq_of_lt (by omega)] at h3
    exact h3
  exact (List.append_inj h2 hn).1

omit [ScrollRule] in
/-- Violation: what `wrap_eapol_key_data` makes of key data of more than eight bytes is not key data of an EAPOL
frame.  IEEE 802.11 asks for RFC 3394 and padding by 0xdd and zeros; the function applies RFC 5649, and the
receiver, this crate included, fails the integrity check: for every key and all key data. -/
theorem c60_wrap_eapol_refused (k : Arr 16) (data : Bytes) (h : 8 < data.length) :
    keyUnwrap k (keyWrapPadded k data) = none := by
  have hp := padded_length data
  have hiv : (alternativeIv data.length).length = 8 := by simp [alternativeIv]
  unfold keyWrapPadded
  dsimp only
  rw [if_neg (by omega)]
  unfold keyUnwrap
  rw [unwrapWith_wrapWith _ _ _ hiv (by omega)]
  dsimp only
  rw [if_neg]
  rintro ⟨_, _, h3⟩
  have h4 := congrArg (fun l => List.getD l 1 0) h3
  exact absurd h4 (by simp [alternativeIv, defaultIv, List.getD])

omit [ScrollRule] in
/-- The same for key data of eight bytes, with a certain key. -/
example : keyUnwrap rfcKey (keyWrapPadded rfcKey (rfcData.take 8)) = none := by decide +kernel

omit [ScrollRule] in
example : letI := realKwp
    wrapEapolKeyData rfcKey (rfcData.take 9) (List.replicate 24 0) = .ok (keyWrapPadded rfcKey (rfcData.take 9)) ∧
    wrapEapolKeyData rfcKey (rfcData.take 9) (List.replicate 25 0) = .error .InvalidOutputLength := by
  constructor <;> rfl

end Verif
