import Verif.Props.C39
/-!
# C40: a frame whose MIC does not match is not accepted
-/
namespace Verif

namespace Spec

/-- The bytes from `from` on, `n` of them, replaced by zeros. -/
def zeroed (bs : Bytes) (start n : Nat) : Bytes := bs.take start ++ List.replicate n 0 ++ bs.drop (start + n)

/-- A received frame without its check sequence. -/
def withoutFcs (buf : Bytes) (with_fcs : Bool) : Bytes := if with_fcs then buf.take (buf.length - 4) else buf

/-- Does the EAPOL frame at `start` in `body` carry the right MIC of `m` bytes, at offset 81? -/
def MicMatches [HmacSha1] (key : Arr 16) (body : Bytes) (start m : Nat) : Prop :=
  ((body.drop start).drop 81).take m =
    (HmacSha1.hmac key.val (zeroed (body.drop start) 81 m)).val.take m

end Spec

open Spec

variable [ScrollRule] [HmacSha1] [AesKw]

omit [ScrollRule] [AesKw] in
/-- The check of the code is the one of the specification. -/
private theorem check_ok {kck : Option (Arr 16)} {body : Bytes} {start m : Nat} (hm : m % 8 = 0)
    (h : checkMic kck body start m = .ok ()) :
    start + 81 + m ≤ body.length ∧ ∃ c, kck = some c ∧ MicMatches c body start m := by
  unfold checkMic at h
  obtain ⟨c, hc, h⟩ := Res.bind_eq_ok h
  obtain ⟨b, hb, h⟩ := Res.bind_eq_ok h
  obtain ⟨a, ha, h⟩ := Res.bind_eq_ok h
  obtain ⟨p, hp, h⟩ := Res.bind_eq_ok h
  obtain ⟨hbl, rfl⟩ := getRange_ok hb
  obtain ⟨hal, rfl⟩ := getFrom_ok ha
  refine ⟨hal, c, Res.ofOption_ok hc, ?_⟩
  rw [slice, if_pos (by omega)] at hp
  cases hp
  dsimp only at h
  split at h
  · cases h
  · split at h
    · cases h
    · rename_i hne
      rw [Decidable.not_not] at hne
      unfold MicMatches zeroed
      rw [List.drop_drop, List.drop_drop, ← hne]
      congr 3
      rw [show 8 * (m / 8) = m by omega, show start + (81 + m) = start + 81 + m by omega]

/-- What acceptance says about the received bytes: they hold the fields handed out and the MIC handed out, and
behind it the key data with its length; the key data handed out is that, unwrapped if so flagged. -/
theorem eapol_accepted {kck kek : Option (Arr 16)} {body : Bytes} {temp : Nat} {akm : IEEE80211AkmType}
    {f : EapolKeyFrame Bytes} (h : deserializeEapol kck kek body temp akm = .ok f) :
    ∃ hd n p res kd tail, readDataHeader body = .ok (hd, n) ∧ p.length = 4 ∧
      akm.keyMicLen = some f.key_mic.length ∧ kd.length < 65536 ∧
      body.drop (hd.lengthInBytes + 8) = p ++ (eapolFields f (res : Arr 8).val ++ (f.key_mic ++
        (toBE (BitVec.ofNat 16 kd.length) ++ (kd ++ tail)))) ∧
      checkStep f.key_information kck body (hd.lengthInBytes + 8) f.key_mic.length = .ok () ∧
      (if f.key_information.encrypted_key_data = true then ∃ k, kek = some k ∧ AesKw.unwrap k kd = some f.key_data
        else f.key_data = kd) := by
  unfold deserializeEapol at h
  obtain ⟨hd, hh, h⟩ := Res.bind_eq_ok h
  obtain ⟨_, n, hr⟩ := pread_ok (Res.mapErr_ok hh)
  obtain ⟨_, _, h⟩ := Res.bind_eq_ok h
  obtain ⟨_, _, h⟩ := Res.bind_eq_ok h
  split at h
  · cases h
  dsimp only at h
  generalize hst : hd.lengthInBytes + 8 = start at *
  obtain ⟨tl, htl, h⟩ := Res.bind_eq_ok h
  obtain ⟨bits, hbits, h⟩ := Res.bind_eq_ok h
  obtain ⟨m, hm, h⟩ := Res.bind_eq_ok h
  obtain ⟨_, hchk, h⟩ := Res.bind_eq_ok h
  obtain ⟨buf', hunw, h⟩ := Res.bind_eq_ok h
  have hm := Res.ofOption_ok hm
  obtain ⟨hsl5, n', hread⟩ := pread_ok (Res.mapErr_ok h)
  obtain ⟨v, L, res, extra, rest, hmic, _, hL, _, hinp⟩ := c37_parse akm _ f n' hread
  have hLl := L.isLt
  rw [hm, Option.some.injEq] at hmic
  -- the received bytes from the key information on
  have hsame : ∃ p kd tail, p.length = 4 ∧ kd.length < 65536 ∧
      body.drop start = p ++ (eapolFields f res.val ++ (f.key_mic ++
        (toBE (BitVec.ofNat 16 kd.length) ++ (kd ++ tail)))) ∧
      (if (⟨bits⟩ : KeyInformation).encrypted_key_data = true then
        ∃ k, kek = some k ∧ AesKw.unwrap k kd = some f.key_data else f.key_data = kd) := by
    unfold unwrapStep at hunw
    split at hunw
    · rename_i hflag
      obtain ⟨a, c, b, k, kd, tail, c', plain, t, hb, ha, hc, hbl, hc', hkl, hk, hu, rfl⟩ := unwrap_ok hunw
      have hul := AesKw.unwrap_length k kd plain hu
      obtain ⟨a1, a2, rfl, ha1⟩ := split_at_length a start (by omega)
      have ha2 : a2.length = 2 := by simp at ha; omega
      rw [hb]
      simp only [List.append_assoc] at hinp ⊢
      rw [← ha1, List.drop_left] at hinp ⊢
      have h4 : (a2 ++ c') ++ (b ++ (toBE (BitVec.ofNat 16 plain.length) ++ (plain ++ t))) =
          (v :: 3 :: toBE L) ++ ((eapolFields f res.val ++ f.key_mic) ++
            (toBE (BitVec.ofNat 16 f.key_data.length) ++ (f.key_data ++ (extra ++ rest)))) := by
        simpa only [List.append_assoc, List.cons_append] using hinp
      obtain ⟨_, h5⟩ := List.append_inj h4 (by simp [ha2, hc'])
      obtain ⟨hb2, h6⟩ := List.append_inj h5 (by simp [hbl, eapolFields, ← hmic]; omega)
      obtain ⟨hl2, h7⟩ := List.append_inj h6 (by simp)
      have hpl : plain.length = f.key_data.length := by
        have := congrArg (fun bs => (fromBE 16 bs).toNat) hl2
        simp only [fromBE_toBE (w := 16) rfl] at this
        rw [BitVec.toNat_ofNat, BitVec.toNat_ofNat, Nat.mod_eq_of_lt (by omega), Nat.mod_eq_of_lt (by omega)] at this
        exact this
      obtain ⟨hp, _⟩ := List.append_inj h7 hpl
      refine ⟨a2 ++ c, kd, tail, by simp [ha2, hc], hkl, ?_, ?_⟩
      · rw [hb2]
        simp
      · rw [if_pos hflag]
        exact ⟨k, hk, by rw [hu, hp]⟩
    · rename_i hflag
      cases hunw
      refine ⟨v :: 3 :: toBE L, f.key_data, extra ++ rest, by simp, by omega, by rw [hinp]; simp, ?_⟩
      rw [if_neg hflag]
  obtain ⟨p, kd, tail, hp4, hkl, hbody, hkd⟩ := hsame
  -- the flags that were tested are the ones handed out
  have hflag : (⟨bits⟩ : KeyInformation) = f.key_information := by
    rw [slice] at htl
    split at htl
    · cases htl
      rw [List.take_of_length_le (by simp), ← List.drop_drop, hbody] at hbits
      generalize toBE (BitVec.ofNat 16 kd.length) ++ (kd ++ tail) = d at hbits
      match p, hp4 with
      | [p0, p1, p2, p3], _ =>
        have h5 : List.drop 5 ([p0, p1, p2, p3] ++ (eapolFields f res.val ++ (f.key_mic ++ d))) =
            toBE f.key_information.bits ++ (List.drop 3 (eapolFields f res.val) ++ (f.key_mic ++ d)) := by
          have hI : (toBE f.key_information.bits).length = 2 := by simp
          simp only [eapolFields]
          generalize toBE f.key_information.bits = I at *
          match I, hI with
          | [x, y], _ => rfl
        rw [h5] at hbits
        have hq := preadBE_mid [] (List.drop 3 (eapolFields f res.val) ++ (f.key_mic ++ d)) f.key_information.bits
          (p := 0) rfl
        rw [List.nil_append] at hq
        rw [hq] at hbits
        simp only [Res.mapErr] at hbits
        cases hbits
        rfl
    · cases htl
  rw [hflag] at hkd hchk
  exact ⟨hd, n, p, res, kd, tail, by simpa using hr, hp4, by rw [hm, hmic], hkl, by rw [hst]; exact hbody,
    by rw [hst, ← hmic]; exact hchk, hkd⟩

/-- Only the frame without its check sequence matters. -/
theorem eapol_without_fcs {kck kek : Option (Arr 16)} {buf : Bytes} {temp : Nat} {akm : IEEE80211AkmType}
    {with_fcs : Bool} {f : EapolKeyFrame Bytes}
    (h : deserializeEapolDataFrame kck kek buf temp akm with_fcs = .ok f) :
    deserializeEapol kck kek (withoutFcs buf with_fcs) temp akm = .ok f := by
  unfold deserializeEapolDataFrame at h
  cases with_fcs
  · simpa [withoutFcs] using h
  · simp only [if_true] at h
    obtain ⟨n, hn, h⟩ := Res.bind_eq_ok h
    obtain ⟨_, rfl⟩ := Res.sub_ok hn
    exact h

/-- A frame that is accepted and has the MIC flag set has the right MIC: the MIC field of the frame handed out
is the one received, and equals the first bytes of the HMAC, under the key given, of the EAPOL frame as received
with zeros for the MIC field. -/
theorem c40_accepted (kck kek : Option (Arr 16)) (buf : Bytes) (temp : Nat) (akm : IEEE80211AkmType)
    (with_fcs : Bool) (f : EapolKeyFrame Bytes)
    (h : deserializeEapolDataFrame kck kek buf temp akm with_fcs = .ok f)
    (hf : f.key_information.key_mic = true) :
    ∃ c m hd n, kck = some c ∧ akm.keyMicLen = some m ∧
      readDataHeader (withoutFcs buf with_fcs) = .ok (hd, n) ∧
      f.key_mic = (((withoutFcs buf with_fcs).drop (hd.lengthInBytes + 8)).drop 81).take m ∧
      f.key_mic.length = m ∧
      MicMatches c (withoutFcs buf with_fcs) (hd.lengthInBytes + 8) m := by
  obtain ⟨hd, n, p, res, kd, tail, hr, hp4, hm, _, hbody, hchk, _⟩ := eapol_accepted (eapol_without_fcs h)
  have hFl : (eapolFields f res.val).length = 77 := by simp [eapolFields]
  unfold checkStep at hchk
  rw [if_pos hf] at hchk
  have h8 : f.key_mic.length % 8 = 0 := by have := keyMicLen_cases akm _ hm; omega
  obtain ⟨hl, c, rfl, hmm⟩ := check_ok h8 hchk
  refine ⟨c, _, hd, n, rfl, hm, hr, ?_, rfl, hmm⟩
  rw [hbody, ← List.append_assoc, show (81 : Nat) = (p ++ eapolFields f res.val).length by simp [hp4, hFl],
    List.drop_left, List.take_left]

/-- The key data handed out is the key data received, whose length is the field behind the MIC: as it is, or,
if the frame is flagged as encrypted, unwrapped with the key given. -/
theorem c40_key_data (kck kek : Option (Arr 16)) (buf : Bytes) (temp : Nat) (akm : IEEE80211AkmType)
    (with_fcs : Bool) (f : EapolKeyFrame Bytes)
    (h : deserializeEapolDataFrame kck kek buf temp akm with_fcs = .ok f) :
    ∃ m hd n kd, akm.keyMicLen = some m ∧ readDataHeader (withoutFcs buf with_fcs) = .ok (hd, n) ∧
      ((withoutFcs buf with_fcs).drop (hd.lengthInBytes + 8 + 81 + m)).take (2 + kd.length) =
        toBE (BitVec.ofNat 16 kd.length) ++ kd ∧ kd.length < 65536 ∧
      (if f.key_information.encrypted_key_data = true then ∃ k, kek = some k ∧ AesKw.unwrap k kd = some f.key_data
        else f.key_data = kd) := by
  obtain ⟨hd, n, p, res, kd, tail, hr, hp4, hm, hkl, hbody, _, hkd⟩ := eapol_accepted (eapol_without_fcs h)
  have hFl : (eapolFields f res.val).length = 77 := by simp [eapolFields]
  refine ⟨_, hd, n, kd, hm, hr, ?_, hkl, hkd⟩
  rw [Nat.add_assoc _ 81, ← List.drop_drop, hbody]
  have h1 : p ++ (eapolFields f res.val ++ (f.key_mic ++ (toBE (BitVec.ofNat 16 kd.length) ++ (kd ++ tail)))) =
      (p ++ (eapolFields f res.val ++ f.key_mic)) ++ ((toBE (BitVec.ofNat 16 kd.length) ++ kd) ++ tail) := by simp
  have h2 : (p ++ (eapolFields f res.val ++ f.key_mic)).length = 81 + f.key_mic.length := by simp [hp4, hFl]; omega
  rw [h1, ← h2, List.drop_left, show 2 + kd.length = (toBE (BitVec.ofNat 16 kd.length) ++ kd).length by simp,
    List.take_left]

/-- A complete EAPOL frame with the MIC flag: nothing happens before the MIC is checked. -/
private theorem flagged_first (kck kek : Option (Arr 16)) (buf : Bytes) (temp : Nat) (akm : IEEE80211AkmType)
    (with_fcs : Bool) (hfcs : with_fcs = true → 4 ≤ buf.length) (hd : DataFrameHeader) (n start : Nat)
    (hh : readDataHeader (withoutFcs buf with_fcs) = .ok (hd, n)) (hst : start = hd.lengthInBytes + 8)
    (he1 : (withoutFcs buf with_fcs)[hd.lengthInBytes + 6]? = some 0x88)
    (he2 : (withoutFcs buf with_fcs)[hd.lengthInBytes + 7]? = some 0x8e)
    (b : Byte) (hb : (withoutFcs buf with_fcs)[start + 5]? = some b) (hflag : b.getLsbD 0 = true)
    (m : Nat) (hm : akm.keyMicLen = some m) (hl : start + 81 + m ≤ (withoutFcs buf with_fcs).length) :
    ∃ k : Unit → Res (EapolKeyFrame Bytes), deserializeEapolDataFrame kck kek buf temp akm with_fcs =
      (checkMic kck (withoutFcs buf with_fcs) start m).bind k := by
  have hred : deserializeEapolDataFrame kck kek buf temp akm with_fcs =
      deserializeEapol kck kek (withoutFcs buf with_fcs) temp akm := by
    unfold deserializeEapolDataFrame withoutFcs
    cases with_fcs
    · rfl
    · have := hfcs rfl
      simp only [if_true]
      rw [Res.sub, if_pos (by omega)]
      rfl
  rw [hred]
  generalize withoutFcs buf with_fcs = body at *
  have hsl := slack_le
  have two : ∀ (l : Bytes) (i : Nat) (x y : Byte), l[i]? = some x → l[i + 1]? = some y →
      l.drop i = x :: y :: l.drop (i + 2) := by
    intro l i x y hx hy
    obtain ⟨h1, rfl⟩ := List.getElem?_eq_some_iff.1 hx
    obtain ⟨h2, rfl⟩ := List.getElem?_eq_some_iff.1 hy
    rw [List.drop_eq_getElem_cons h1, List.drop_eq_getElem_cons h2]
  have hhead : pread readDataHeader 0 body = .ok hd := by
    have := RdAt.gread hh (by omega) []
    simp only [List.nil_append, List.length_nil] at this
    simp only [pread, this, Res.map]
  have h2 : ∀ (x y : Byte) (z : Bytes), pread (readBE 16) 0 (x :: y :: z) = .ok (x ++ y) := by
    intro x y z
    have hv : toBE (x ++ y : BitVec 16) = [x, y] := by
      have hq := toBE_fromBE (w := 16) rfl [x, y] rfl
      have : (x ++ y : BitVec 16) = fromBE 16 [x, y] := by
        apply BitVec.eq_of_toNat_eq
        have h1 := x.isLt
        have h2 := y.isLt
        rw [BitVec.toNat_append, ← Nat.shiftLeft_add_eq_or_of_lt h2, Nat.shiftLeft_eq]
        simp [fromBE, fromLE, leNat]
        omega
      rw [this, hq]
    have := preadBE_mid [] z (x ++ y : BitVec 16) (p := 0) rfl
    rw [hv] at this
    exact this
  unfold deserializeEapol
  rw [hhead]
  simp only [Res.mapErr, Res.ok_bind]
  rw [getFrom, if_pos (by omega)]
  simp only [Res.ok_bind]
  rw [two body _ _ _ he1 he2, h2]
  simp only [Res.ok_bind]
  rw [if_neg (by decide), ← hst]
  obtain ⟨y, hy⟩ : ∃ y, body[start + 5 + 1]? = some y := ⟨_, List.getElem?_eq_getElem (by omega)⟩
  have hs : slice body (start + 5) (body.length - (start + 5)) = .ok (b :: y :: body.drop (start + 5 + 2)) := by
    rw [slice, if_pos (by omega), List.take_of_length_le (by simp), two body _ _ _ hb hy]
  rw [hs]
  simp only [Res.ok_bind]
  rw [h2]
  simp only [Res.ok_bind, hm, Res.ofOption_some]
  have hkm : (⟨b ++ y⟩ : KeyInformation).key_mic = true := by
    show (b ++ y : BitVec 16).getLsbD 8 = true
    rw [BitVec.getLsbD_append]
    simpa using hflag
  rw [checkStep, if_pos hkm]
  exact ⟨_, rfl⟩

/-- A complete EAPOL frame with the MIC flag (bit 0 of the byte at offset 5) and the wrong MIC gives the MIC
error, whatever else it contains; without a key the error is the one for a missing key.  The full statement
has no bound on the length of the MIC: see `c40_long_mic_panics`. -/
theorem c40_mismatch_partial (kck kek : Option (Arr 16)) (buf : Bytes) (temp : Nat) (akm : IEEE80211AkmType)
    (with_fcs : Bool) (hfcs : with_fcs = true → 4 ≤ buf.length) (hd : DataFrameHeader) (n start : Nat)
    (hh : readDataHeader (withoutFcs buf with_fcs) = .ok (hd, n)) (hst : start = hd.lengthInBytes + 8)
    (he1 : (withoutFcs buf with_fcs)[hd.lengthInBytes + 6]? = some 0x88)
    (he2 : (withoutFcs buf with_fcs)[hd.lengthInBytes + 7]? = some 0x8e)
    (b : Byte) (hb : (withoutFcs buf with_fcs)[start + 5]? = some b) (hflag : b.getLsbD 0 = true)
    (m : Nat) (hm : akm.keyMicLen = some m) (h20 : m ≤ 20) (hl : start + 81 + m ≤ (withoutFcs buf with_fcs).length)
    (hno : ∀ c, kck = some c → ¬ MicMatches c (withoutFcs buf with_fcs) start m) :
    deserializeEapolDataFrame kck kek buf temp akm with_fcs =
      .err (if kck.isSome then EapolSerdeError.InvalidMic else EapolSerdeError.MissingKey).code := by
  obtain ⟨k, hk⟩ := flagged_first kck kek buf temp akm with_fcs hfcs hd n start hh hst he1 he2 b hb hflag m hm hl
  rw [hk]
  generalize withoutFcs buf with_fcs = body at *
  unfold checkMic
  cases kck with
  | none => rfl
  | some c =>
    simp only [Res.ofOption_some, Res.ok_bind]
    rw [getRange, if_pos (by omega)]
    simp only [Res.ok_bind]
    rw [getFrom, if_pos (by omega)]
    simp only [Res.ok_bind]
    rw [slice, if_pos (by omega)]
    simp only [Res.ok_bind]
    rw [if_neg (by omega)]
    have h8 : 8 * (m / 8) = m := by have := keyMicLen_cases akm m hm; omega
    have hno := hno c rfl
    unfold MicMatches zeroed at hno
    rw [List.drop_drop, List.drop_drop, show start + (81 + m) = start + 81 + m by omega] at hno
    rw [h8, if_pos (fun hh => hno hh.symm)]
    rfl

/-- Violation: with a suite whose MIC has 24 bytes (types 12, 13 and 17) every complete frame with the MIC flag
makes the receiver panic, since HMAC-SHA-1 has only 20; so does the right MIC. -/
theorem c40_long_mic_panics (c : Arr 16) (kek : Option (Arr 16)) (buf : Bytes) (temp : Nat) (akm : IEEE80211AkmType)
    (with_fcs : Bool) (hfcs : with_fcs = true → 4 ≤ buf.length) (hd : DataFrameHeader) (n start : Nat)
    (hh : readDataHeader (withoutFcs buf with_fcs) = .ok (hd, n)) (hst : start = hd.lengthInBytes + 8)
    (he1 : (withoutFcs buf with_fcs)[hd.lengthInBytes + 6]? = some 0x88)
    (he2 : (withoutFcs buf with_fcs)[hd.lengthInBytes + 7]? = some 0x8e)
    (b : Byte) (hb : (withoutFcs buf with_fcs)[start + 5]? = some b) (hflag : b.getLsbD 0 = true)
    (m : Nat) (hm : akm.keyMicLen = some m) (h20 : 20 < m) (hl : start + 81 + m ≤ (withoutFcs buf with_fcs).length) :
    deserializeEapolDataFrame (some c) kek buf temp akm with_fcs = .panic := by
  obtain ⟨k, hk⟩ := flagged_first (some c) kek buf temp akm with_fcs hfcs hd n start hh hst he1 he2 b hb hflag m hm hl
  rw [hk]
  generalize withoutFcs buf with_fcs = body at *
  unfold checkMic
  simp only [Res.ofOption_some, Res.ok_bind]
  rw [getRange, if_pos (by omega)]
  simp only [Res.ok_bind]
  rw [getFrom, if_pos (by omega)]
  simp only [Res.ok_bind]
  rw [slice, if_pos (by omega)]
  simp only [Res.ok_bind]
  rw [if_pos h20]
  rfl

/-! ## Concrete cases -/

/-- A frame with the right MIC (the exclusive or, with the toy HMAC), accepted, and the same with one bit of the
nonce changed, rejected. -/
example (s : Bool) :
    letI : ScrollRule := ⟨s⟩
    letI := toyHmac
    letI := toyKw
    let k : Option (Arr 16) := some (Arr.zero 16)
    let good := toyFrame 1 (List.replicate 16 0x60) [0, 1, 1]
    (deserializeEapolDataFrame k k good 100 .Psk false).map (·.key_data) = .ok [1] ∧
    deserializeEapolDataFrame k k (good.take 60 ++ 1 :: good.drop 61) 100 .Psk false =
      .err EapolSerdeError.InvalidMic.code := by
  cases s <;> decide +kernel

example (s : Bool) :
    letI : ScrollRule := ⟨s⟩
    letI := toyHmac
    letI := toyKw
    let k : Option (Arr 16) := some (Arr.zero 16)
    deserializeEapolDataFrame k k (toyFrame 1 (List.replicate 24 0) [0, 1, 1]) 100 .WpaSha384SuiteB false =
      .panic := by
  cases s <;> decide +kernel

omit [ScrollRule] [HmacSha1] [AesKw] in
/-- Frames without the MIC flag are accepted whatever their MIC, even if a key was given. -/
theorem c40_unflagged_accepted (s : Bool) :
    letI : ScrollRule := ⟨s⟩
    letI := toyHmac
    letI := toyKw
    let k : Option (Arr 16) := some (Arr.zero 16)
    (deserializeEapolDataFrame k k (toyFrame 0 (List.replicate 16 0x99) [0, 1, 1]) 100 .Psk false).map (·.key_data) =
      .ok [1] := by
  cases s <;> decide +kernel

omit [ScrollRule] [HmacSha1] [AesKw] in
/-- The MIC length of the FILS suites is zero, so that for these a flagged frame is always accepted. -/
theorem c40_zero_length_accepted (s : Bool) :
    letI : ScrollRule := ⟨s⟩
    letI := toyHmac
    letI := toyKw
    let k : Option (Arr 16) := some (Arr.zero 16)
    (deserializeEapolDataFrame k k (toyFrame 1 [] [0, 1, 1]) 100 .FilsSha256Aes256 false).map (·.key_data) =
      .ok [1] := by
  cases s <;> decide +kernel

end Verif
