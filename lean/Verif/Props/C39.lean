import Verif.Lemmas.EapolSerde
import Verif.Props.C38
/-!
# C39: protected EAPOL frames, serialised and deserialised
-/
namespace Verif

namespace Spec

/-- What is asked of a key wrap: unwrapping undoes wrapping. -/
class LawfulAesKw [AesKw] : Prop where
  unwrap_wrap : ∀ (k : Arr 16) (d : Bytes), d.length % 8 = 0 → AesKw.unwrap k (AesKw.wrap k d) = some d

/-- Key data padded for the key wrap (12.7.2 of the standard): to at least sixteen bytes and a multiple of
eight, by one byte 0xdd and zeros. -/
def padKeyData (data : Bytes) : Bytes :=
  let n := max 16 (8 * ((data.length + 7) / 8))
  if data.length = n then data else data ++ 0xdd :: List.replicate (n - data.length - 1) 0

/-- The key data on the wire: wrapped if the flag is set and there is any; `none` if the key is missing. -/
def wireKeyData [AesKw] (kek : Option (Arr 16)) (encrypted : Bool) (data : Bytes) : Option Bytes :=
  if encrypted = true ∧ data ≠ [] then kek.map fun k => AesKw.wrap k (padKeyData data) else some data

/-- The MIC on the wire: if the flag is set, the first 16 bytes of the HMAC of the key frame as given, that
is with the MIC field it was given, which has to have 16 bytes; otherwise the field as it was given. -/
def wireMic [HmacSha1] {κ : Type} (kck : Option (Arr 16)) (flag : Bool) (f : EapolKeyFrame κ) (keyData : Bytes) :
    Option Bytes :=
  if flag = true then
    if f.key_mic.length = 16 then
      kck.map fun k => (HmacSha1.hmac k.val (eapolWire 2 f (Arr.zero 8).val keyData)).val.take 16
    else none
  else some f.key_mic

/-- A data frame up to the EAPOL frame. -/
def eapolPrefix (h : DataFrameHeader) (oui : Arr 3) (etherType : BitVec 16) : Bytes :=
  frameStart (.Data h.subtype) h.fcf_flags ++ (dataHeaderWire h ++ snapWire oui etherType [])

/-- What a frame has to satisfy for `deserialize_eapol_data_frame` not to panic; `start` is the offset of the
EAPOL frame.  The byte at `start + 5` holds the MIC flag (bit 0) and the flag for encrypted key data (bit 4). -/
structure EapolSafe (body : Bytes) (start temp : Nat) (akm : IEEE80211AkmType) : Prop where
  key_information : start + 5 ≤ body.length
  mic : ∀ b m, body[start + 5]? = some b → b.getLsbD 0 = true → akm.keyMicLen = some m → m ≤ 20
  key_data : ∀ b m hi lo, body[start + 5]? = some b → b.getLsbD 4 = true → akm.keyMicLen = some m →
    body[start + 81 + m]? = some hi → body[start + 82 + m]? = some lo →
    8 ≤ 256 * hi.toNat + lo.toNat ∧ start + 83 + m + (256 * hi.toNat + lo.toNat) ≤ body.length ∧
      256 * hi.toNat + lo.toNat ≤ temp + 8

end Spec

open Spec

theorem padKeyData_length (data : Bytes) :
    (padKeyData data).length = max 16 (8 * ((data.length + 7) / 8)) := by
  unfold padKeyData
  dsimp only
  split
  · assumption
  · simp; omega

theorem wrap_padKeyData_length [AesKw] (k : Arr 16) (data : Bytes) :
    (AesKw.wrap k (padKeyData data)).length = (padKeyData data).length + 8 :=
  AesKw.wrap_length k _ (by rw [padKeyData_length]; omega)

private theorem padded_eq (n : Nat) : paddedKeyDataLength n = max 16 (8 * ((n + 7) / 8)) := by
  unfold paddedKeyDataLength
  split
  · omega
  · split <;> omega

variable [ScrollRule]

/-- The encryption step on a buffer given in pieces: `y` up to the body length, `z` up to the key data
length. -/
private theorem wrap_step [AesKw] (k : Arr 16) (y lb z d data rest : Bytes) (temp written ms : Nat)
    (hlb : lb.length = 2) (hd : d.length = 2) (start : Nat) (hy : y.length = start + 2)
    (ht : (padKeyData data).length + 8 ≤ temp) (hr : (padKeyData data).length + 8 - data.length ≤ rest.length) :
    wrapKeyData (some k) (y ++ (lb ++ (z ++ (d ++ (data ++ rest))))) temp written data.length
      (y.length + 2 + z.length) (y.length + 2 + z.length + 2) ms start =
    .ok (y ++ (toBE (BitVec.ofNat 16 (77 + ms + 2 + ((padKeyData data).length + 8))) ++ (z ++
      (toBE (BitVec.ofNat 16 ((padKeyData data).length + 8)) ++ (AesKw.wrap k (padKeyData data) ++
      rest.drop ((padKeyData data).length + 8 - data.length))))),
      written + ((padKeyData data).length + 8 - data.length)) := by
  have hpl := padKeyData_length data
  have hpe : paddedKeyDataLength data.length = (padKeyData data).length := by rw [padded_eq, hpl]
  have hwl := wrap_padKeyData_length k data
  unfold wrapKeyData
  simp only [hpe]
  have hge : data.length ≤ (padKeyData data).length := by omega
  have hbl : (y ++ (lb ++ (z ++ (d ++ (data ++ rest))))).length =
      y.length + 2 + z.length + 2 + data.length + rest.length := by simp [hlb, hd]; omega
  rw [if_neg (by omega), if_neg (by omega)]
  -- padding
  have hpad : padInBuffer (y ++ (lb ++ (z ++ (d ++ (data ++ rest))))) (y.length + 2 + z.length + 2) data.length
        (padKeyData data).length =
      .ok (y ++ (lb ++ (z ++ (d ++ (padKeyData data ++
        rest.drop ((padKeyData data).length - data.length)))))) := by
    unfold padInBuffer
    by_cases hc : (padKeyData data).length ≠ data.length
    · rw [if_pos hc]
      have hp : padKeyData data = data ++ 0xdd :: List.replicate ((padKeyData data).length - data.length - 1) 0 := by
        conv => lhs; unfold padKeyData
        dsimp only
        rw [if_neg (by omega), hpl]
      have h1 := copyInto_mid (y ++ (lb ++ (z ++ (d ++ data)))) (rest.take ((padKeyData data).length - data.length))
        (0xdd :: List.replicate ((padKeyData data).length - (data.length + 1)) 0)
        (rest.drop ((padKeyData data).length - data.length))
        (p := y.length + 2 + z.length + 2 + data.length) (by simp [hlb, hd]; omega)
        (by simp; omega)
      rw [List.take_append_drop] at h1
      simp only [List.append_assoc] at h1
      rw [h1]
      rw [show (padKeyData data).length - (data.length + 1) = (padKeyData data).length - data.length - 1 by omega]
      have hx : ∀ r : Bytes, data ++ (0xdd :: List.replicate ((padKeyData data).length - data.length - 1) 0 ++ r) =
          padKeyData data ++ r := by
        intro r
        conv => rhs; rw [hp]
        simp
      rw [hx]
    · rw [if_neg hc]
      have he : (padKeyData data).length = data.length := by omega
      have hp : padKeyData data = data := by
        unfold padKeyData
        dsimp only
        rw [if_pos (by omega)]
      rw [hp]
      simp
  rw [hpad]
  simp only [Res.ok_bind]
  have hsl := slice_mid (y ++ (lb ++ (z ++ d))) (padKeyData data)
    (rest.drop ((padKeyData data).length - data.length)) (p := y.length + 2 + z.length + 2)
    (n := (padKeyData data).length) (by simp [hlb, hd]; omega) rfl
  simp only [List.append_assoc] at hsl
  rw [hsl]
  simp only [Res.ok_bind, Res.ofOption_some]
  rw [if_neg (by omega), if_neg (by omega), if_neg (by simp [hlb, hd]; omega)]
  have hcp := copyInto_mid (y ++ (lb ++ (z ++ d)))
    (padKeyData data ++ (rest.drop ((padKeyData data).length - data.length)).take 8)
    (AesKw.wrap k (padKeyData data)) (rest.drop ((padKeyData data).length + 8 - data.length))
    (p := y.length + 2 + z.length + 2) (by simp [hlb, hd]; omega) (by rw [hwl]; simp; omega)
  have hrd : (rest.drop ((padKeyData data).length - data.length)).take 8 ++
      rest.drop ((padKeyData data).length + 8 - data.length) =
      rest.drop ((padKeyData data).length - data.length) := by
    have := List.take_append_drop 8 (rest.drop ((padKeyData data).length - data.length))
    rw [List.drop_drop, show (padKeyData data).length - data.length + 8 =
      (padKeyData data).length + 8 - data.length by omega] at this
    exact this
  simp only [List.append_assoc, hrd] at hcp
  rw [hcp]
  simp only [Res.ok_bind]
  rw [Res.sub, if_pos (by omega)]
  simp only [Res.ok_bind]
  have h1 := pwriteIgnore_mid (y ++ (lb ++ z)) d (AesKw.wrap k (padKeyData data) ++
      rest.drop ((padKeyData data).length + 8 - data.length)) (BitVec.ofNat 16 ((padKeyData data).length + 8))
      (p := y.length + 2 + z.length) (by simp [hlb]; omega) hd
  simp only [List.append_assoc] at h1
  rw [h1]
  have h2 := pwriteIgnore_mid y lb (z ++ (toBE (BitVec.ofNat 16 ((padKeyData data).length + 8)) ++
    (AesKw.wrap k (padKeyData data) ++ rest.drop ((padKeyData data).length + 8 - data.length))))
    (BitVec.ofNat 16 (77 + ms + 2 + ((padKeyData data).length + 8))) (p := start + 2) (by omega) hlb
  rw [h2]
  rfl

omit [ScrollRule] in
/-- The MIC step. -/
private theorem mic_step [HmacSha1] (k : Arr 16) (a w1 m w2 rest : Bytes) (hm : m.length = 16) :
    insertMic (some k) (a ++ (w1 ++ (m ++ (w2 ++ rest)))) (a.length + (w1 ++ (m ++ w2)).length) a.length
      (a.length + w1.length) (a.length + w1.length + 16) =
    .ok (a ++ (w1 ++ ((HmacSha1.hmac k.val (w1 ++ (m ++ w2))).val.take 16 ++ (w2 ++ rest)))) := by
  unfold insertMic
  simp only [Res.ofOption_some, Res.ok_bind]
  rw [Res.sub, if_pos (by omega)]
  have hs := slice_mid a (w1 ++ (m ++ w2)) rest (p := a.length)
    (n := a.length + (w1 ++ (m ++ w2)).length - a.length) rfl (by omega)
  simp only [List.append_assoc] at hs
  simp only [Res.ok_bind]
  rw [hs]
  simp only [Res.ok_bind]
  rw [if_neg (by omega)]
  have := copyInto_mid (a ++ w1) m ((HmacSha1.hmac k.val (w1 ++ (m ++ w2))).val.take 16) (w2 ++ rest)
    (p := a.length + w1.length) (by simp) (by simp [hm])
  simp only [List.append_assoc] at this
  exact this

omit [ScrollRule] in
theorem eapolPrefix_length (h : DataFrameHeader) (oui : Arr 3) (t : BitVec 16) :
    (eapolPrefix h oui t).length = h.lengthInBytes + 8 := by
  rw [c27_length]
  simp [eapolPrefix, snapWire]
  omega

omit [ScrollRule] in
private theorem frame_eq (h : DataFrameHeader) (oui : Arr 3) (t : BitVec 16) (w : Bytes) :
    dataFrameWire h (snapWire oui t w) = eapolPrefix h oui t ++ w := by
  simp [dataFrameWire, eapolPrefix, snapWire]

variable [Crc32] [HmacSha1] [AesKw]

/-- Serialising, once the frame itself has been written: the encryption step and the MIC step on the buffer given
in pieces. -/
theorem serialise_steps (kck kek : Option (Arr 16)) (h : DataFrameHeader) (s : SnapLlcFrame (EapolKeyFrame Obj))
    (hv : ValidData h) (data : Bytes) (need : Nat) (hd : Emits s.payload.key_data.write data need)
    (buf : Bytes) (temp : Nat) (ht : 24 ≤ temp) (hl : data.length < 65536)
    (hb : h.lengthInBytes + 91 + s.payload.key_mic.length + max need slack ≤ buf.length) :
    let A := eapolPrefix h s.oui s.ether_type
    let F := eapolFields s.payload (Arr.zero 8).val
    let M := s.payload.key_mic
    serializeEapolDataFrame kck kek ⟨h, some s⟩ buf temp =
      (wrapStep s.payload.key_information kek
        ((A ++ [2, 3]) ++ (toBE (BitVec.ofNat 16 (79 + M.length + data.length)) ++ ((F ++ M) ++
          (toBE (BitVec.ofNat 16 data.length) ++ (data ++ buf.drop (A.length + 83 + M.length + data.length))))))
        temp (A.length + 83 + M.length + data.length) data.length
        (h.lengthInBytes + 8 + 1 + 1 + 2 + 1 + 2 + 2 + 8 + 32 + 16 + 8 + 8 + M.length)
        (h.lengthInBytes + 8 + 1 + 1 + 2 + 1 + 2 + 2 + 8 + 32 + 16 + 8 + 8 + M.length + 2) M.length
        (h.lengthInBytes + 8)) >>= fun p =>
      (micStep s.payload.key_information kck p.1 p.2 (h.lengthInBytes + 8)
        (h.lengthInBytes + 8 + 1 + 1 + 2 + 1 + 2 + 2 + 8 + 32 + 16 + 8 + 8)
        (h.lengthInBytes + 8 + 1 + 1 + 2 + 1 + 2 + 2 + 8 + 32 + 16 + 8 + 8 + M.length)) >>= fun b =>
      pure (b, p.2) := by
  have hsl := slack_le
  have hle := hd.le
  dsimp only
  generalize hA : eapolPrefix h s.oui s.ether_type = A
  have hAl : A.length = h.lengthInBytes + 8 := by rw [← hA, eapolPrefix_length]
  generalize hF : eapolFields s.payload (Arr.zero 8).val = F
  have hFl : F.length = 77 := by rw [← hF]; simp [eapolFields]
  have hw := (c38_write h s hv data need hd false).pwrite0.ok buf (by
    have h27 := c27_length h
    have := congrArg List.length (frame_eq h s.oui s.ether_type (eapolWire 2 s.payload (Arr.zero 8).val data))
    rw [hA] at this
    rw [this]
    simp [eapolWire, hF, hFl, hAl]
    omega)
  rw [withFcs, if_neg (by decide), frame_eq, hA] at hw
  simp only [eapolWire, hF] at hw
  generalize hL : toBE (BitVec.ofNat 16 (79 + s.payload.key_mic.length + data.length)) = L at hw
  have hLl : L.length = 2 := by rw [← hL]; simp
  generalize hM : s.payload.key_mic = M at *
  unfold serializeEapolDataFrame
  rw [if_neg (by omega)]
  simp only [EapolDataFrame.eapolMicRange, EapolDataFrame.eapolKeyDataLengthRange,
    EapolDataFrame.eapolKeyDataRange, Res.ofOption_some, Res.ok_bind, hM]
  rw [hw]
  simp only [Res.mapErr, Res.ok_bind]
  generalize hD : toBE (BitVec.ofNat 16 data.length) = D
  have hDl : D.length = 2 := by rw [← hD]; simp
  have hn : (A ++ 2 :: 3 :: (L ++ (F ++ (M ++ (D ++ data))))).length = A.length + 83 + M.length + data.length := by
    simp [hLl, hFl, hDl]; omega
  rw [hn]
  have hbuf : A ++ 2 :: 3 :: (L ++ (F ++ (M ++ (D ++ data)))) ++ buf.drop (A.length + 83 + M.length + data.length) =
      (A ++ [2, 3]) ++ (L ++ ((F ++ M) ++ (D ++ (data ++ buf.drop (A.length + 83 + M.length + data.length))))) := by
    simp
  rw [hbuf]
  have hs := slice_mid (A ++ [2, 3] ++ L ++ F ++ M) D (data ++ buf.drop (A.length + 83 + M.length + data.length))
    (p := h.lengthInBytes + 8 + 1 + 1 + 2 + 1 + 2 + 2 + 8 + 32 + 16 + 8 + 8 + M.length)
    (n := h.lengthInBytes + 8 + 1 + 1 + 2 + 1 + 2 + 2 + 8 + 32 + 16 + 8 + 8 + M.length + 2 -
      (h.lengthInBytes + 8 + 1 + 1 + 2 + 1 + 2 + 2 + 8 + 32 + 16 + 8 + 8 + M.length))
    (by simp [hAl, hLl, hFl]; omega) (by omega)
  have hs' : slice ((A ++ [2, 3]) ++ (L ++ ((F ++ M) ++ (D ++ (data ++
      buf.drop (A.length + 83 + M.length + data.length))))))
    (h.lengthInBytes + 8 + 1 + 1 + 2 + 1 + 2 + 2 + 8 + 32 + 16 + 8 + 8 + M.length)
    (h.lengthInBytes + 8 + 1 + 1 + 2 + 1 + 2 + 2 + 8 + 32 + 16 + 8 + 8 + M.length + 2 -
      (h.lengthInBytes + 8 + 1 + 1 + 2 + 1 + 2 + 2 + 8 + 32 + 16 + 8 + 8 + M.length)) = .ok D := by
    rw [← hs]; simp only [List.append_assoc]
  rw [hs']
  have hp := preadBE_mid [] [] (BitVec.ofNat 16 data.length) (p := 0) rfl
  simp only [List.nil_append, List.append_nil, hD] at hp
  simp only [Res.ok_bind, hp, Res.unwrap_ok]
  have htn : (BitVec.ofNat 16 data.length).toNat = data.length := by
    rw [BitVec.toNat_ofNat, Nat.mod_eq_of_lt (by omega)]
  rw [htn]

/-- What is written: the frame as `eapolWire` has it, with the key data wrapped if so flagged and the MIC
inserted if so flagged; the rest of the buffer is left alone.  (`wireMic` tells over which bytes the MIC is
computed.)  The hypotheses are that no key is missing, that temporary buffer and buffer are large enough and
that the body length fits its field. -/
theorem c39_serialise (kck kek : Option (Arr 16)) (h : DataFrameHeader) (s : SnapLlcFrame (EapolKeyFrame Obj))
    (hv : ValidData h) (data : Bytes) (need : Nat) (hd : Emits s.payload.key_data.write data need)
    (kd mic : Bytes) (hkd : wireKeyData kek s.payload.key_information.encrypted_key_data data = some kd)
    (hmic : wireMic kck s.payload.key_information.key_mic s.payload kd = some mic)
    (buf : Bytes) (temp : Nat) (ht : max 24 kd.length ≤ temp)
    (hl : 79 + s.payload.key_mic.length + kd.length < 65536)
    (hb : h.lengthInBytes + 91 + s.payload.key_mic.length + max (max need slack) kd.length ≤ buf.length) :
    ∃ out, out = eapolPrefix h s.oui s.ether_type ++
        eapolWire 2 { s.payload with key_mic := mic } (Arr.zero 8).val kd ∧
      serializeEapolDataFrame kck kek ⟨h, some s⟩ buf temp = .ok (out ++ buf.drop out.length, out.length) := by
  refine ⟨_, rfl, ?_⟩
  have hsl := slack_le
  have hle := hd.le
  generalize hA : eapolPrefix h s.oui s.ether_type = A
  have hAl : A.length = h.lengthInBytes + 8 := by rw [← hA, eapolPrefix_length]
  generalize hF : eapolFields s.payload (Arr.zero 8).val = F
  have hFl : F.length = 77 := by rw [← hF]; simp [eapolFields]
  have hkl : data.length ≤ kd.length := by
    unfold wireKeyData at hkd
    split at hkd
    · cases kek with
      | none => cases hkd
      | some k =>
        simp only [Option.map_some, Option.some.injEq] at hkd
        rw [← hkd, wrap_padKeyData_length, padKeyData_length]
        omega
    · cases hkd; exact Nat.le_refl _
  have hsteps := serialise_steps kck kek h s hv data need hd buf temp (by omega) (by omega) (by omega)
  dsimp only at hsteps
  rw [hA, hF] at hsteps
  rw [hsteps]
  generalize hL : toBE (BitVec.ofNat 16 (79 + s.payload.key_mic.length + data.length)) = L
  have hLl : L.length = 2 := by rw [← hL]; simp
  generalize hM : s.payload.key_mic = M at *
  generalize hD : toBE (BitVec.ofNat 16 data.length) = D
  have hDl : D.length = 2 := by rw [← hD]; simp
  have hstep : wrapStep s.payload.key_information kek
      ((A ++ [2, 3]) ++ (L ++ ((F ++ M) ++ (D ++ (data ++ buf.drop (A.length + 83 + M.length + data.length))))))
      temp (A.length + 83 + M.length + data.length) data.length
      (h.lengthInBytes + 8 + 1 + 1 + 2 + 1 + 2 + 2 + 8 + 32 + 16 + 8 + 8 + M.length)
      (h.lengthInBytes + 8 + 1 + 1 + 2 + 1 + 2 + 2 + 8 + 32 + 16 + 8 + 8 + M.length + 2) M.length
      (h.lengthInBytes + 8) =
      .ok ((A ++ [2, 3]) ++ (toBE (BitVec.ofNat 16 (79 + M.length + kd.length)) ++ ((F ++ M) ++
        (toBE (BitVec.ofNat 16 kd.length) ++ (kd ++ buf.drop (A.length + 83 + M.length + kd.length))))),
        A.length + 83 + M.length + kd.length) := by
    unfold wrapStep
    unfold wireKeyData at hkd
    have hiff : (data.length ≠ 0 ∧ s.payload.key_information.encrypted_key_data = true) ↔
        (s.payload.key_information.encrypted_key_data = true ∧ data ≠ []) := by
      constructor
      · rintro ⟨a, b⟩; exact ⟨b, fun e => a (by simp [e])⟩
      · rintro ⟨a, b⟩; exact ⟨fun e => b (List.length_eq_zero_iff.1 e), a⟩
    by_cases hc : s.payload.key_information.encrypted_key_data = true ∧ data ≠ []
    · rw [if_pos (hiff.2 hc)]
      rw [if_pos hc] at hkd
      cases kek with
      | none => cases hkd
      | some k =>
        simp only [Option.map_some, Option.some.injEq] at hkd
        have hkdl : kd.length = (padKeyData data).length + 8 := by rw [← hkd, wrap_padKeyData_length]
        have := wrap_step k (A ++ [2, 3]) L (F ++ M) D data (buf.drop (A.length + 83 + M.length + data.length)) temp
          (A.length + 83 + M.length + data.length) M.length hLl hDl (h.lengthInBytes + 8) (by simp [hAl])
          (by omega) (by rw [List.length_drop]; omega)
        have epos : List.length (α := Byte) (A ++ [2, 3]) + 2 + List.length (F ++ M) =
          h.lengthInBytes + 8 + 1 + 1 + 2 + 1 + 2 + 2 + 8 + 32 + 16 + 8 + 8 + M.length := by
            simp [hAl, hFl]; omega
        rw [epos] at this
        rw [this, hkd, List.drop_drop, ← hkdl,
          show A.length + 83 + M.length + data.length + (kd.length - data.length) =
            A.length + 83 + M.length + kd.length by omega,
          show 77 + M.length + 2 + kd.length = 79 + M.length + kd.length by omega]
    · rw [if_neg (fun x => hc (hiff.1 x))]
      rw [if_neg hc] at hkd
      cases hkd
      rw [hL, hD]
  rw [hstep]
  simp only [Res.ok_bind]
  have hmst : micStep s.payload.key_information kck
      ((A ++ [2, 3]) ++ (toBE (BitVec.ofNat 16 (79 + M.length + kd.length)) ++ ((F ++ M) ++
        (toBE (BitVec.ofNat 16 kd.length) ++ (kd ++ buf.drop (A.length + 83 + M.length + kd.length))))))
      (A.length + 83 + M.length + kd.length) (h.lengthInBytes + 8)
      (h.lengthInBytes + 8 + 1 + 1 + 2 + 1 + 2 + 2 + 8 + 32 + 16 + 8 + 8)
      (h.lengthInBytes + 8 + 1 + 1 + 2 + 1 + 2 + 2 + 8 + 32 + 16 + 8 + 8 + M.length) =
      .ok ((A ++ [2, 3]) ++ (toBE (BitVec.ofNat 16 (79 + M.length + kd.length)) ++ ((F ++ mic) ++
        (toBE (BitVec.ofNat 16 kd.length) ++ (kd ++ buf.drop (A.length + 83 + M.length + kd.length)))))) ∧
      mic.length = M.length := by
    unfold micStep
    unfold wireMic at hmic
    by_cases hc : s.payload.key_information.key_mic = true
    · rw [if_pos hc]
      rw [if_pos hc, hM] at hmic
      by_cases h16 : M.length = 16
      · rw [if_pos h16] at hmic
        cases kck with
        | none => cases hmic
        | some k =>
          simp only [Option.map_some, Option.some.injEq] at hmic
          have := mic_step k A ([2, 3] ++ (toBE (BitVec.ofNat 16 (79 + M.length + kd.length)) ++ F)) M
            (toBE (BitVec.ofNat 16 kd.length) ++ kd) (buf.drop (A.length + 83 + M.length + kd.length)) h16
          have hw2 : eapolWire 2 s.payload (Arr.zero 8).val kd =
              [2, 3] ++ (toBE (BitVec.ofNat 16 (79 + M.length + kd.length)) ++ F) ++ (M ++
              (toBE (BitVec.ofNat 16 kd.length) ++ kd)) := by
            simp [eapolWire, hM, hF]
          rw [hw2] at hmic
          rw [hmic] at this
          refine ⟨?_, ?_⟩
          · have e1 : A.length + ([2, 3] ++ (toBE (BitVec.ofNat 16 (79 + M.length + kd.length)) ++ F) ++ (M ++
              (toBE (BitVec.ofNat 16 kd.length) ++ kd))).length = A.length + 83 + M.length + kd.length := by
              simp [hFl]; omega
            have e2 : A.length + ([2, 3] ++ (toBE (BitVec.ofNat 16 (79 + M.length + kd.length)) ++ F)).length =
              h.lengthInBytes + 8 + 1 + 1 + 2 + 1 + 2 + 2 + 8 + 32 + 16 + 8 + 8 := by
              simp [hFl, hAl]
            rw [e1, e2, hAl] at this
            rw [hAl, h16]
            rw [h16] at this
            simp only [List.append_assoc] at this ⊢
            exact this
          · rw [← hmic, h16]; simp
      · rw [if_neg h16] at hmic; cases hmic
    · rw [if_neg hc]
      rw [if_neg hc, hM] at hmic
      cases hmic
      exact ⟨rfl, rfl⟩
  rw [hmst.1]
  simp only [Res.ok_bind, Res.pure_eq]
  have hout : eapolWire 2 { s.payload with key_mic := mic } (Arr.zero 8).val kd =
      [2, 3] ++ (toBE (BitVec.ofNat 16 (79 + M.length + kd.length)) ++ (F ++ (mic ++
        (toBE (BitVec.ofNat 16 kd.length) ++ kd)))) := by
    simp [eapolWire, hmst.2, ← hF, eapolFields]
  have hol : (A ++ eapolWire 2 { s.payload with key_mic := mic } (Arr.zero 8).val kd).length =
      A.length + 83 + M.length + kd.length := by
    rw [hout]; simp [hFl, hmst.2]; omega
  rw [hol, hout]
  simp

omit [ScrollRule] [Crc32] [HmacSha1] [AesKw] in
/-- The MIC lengths there are. -/
theorem keyMicLen_cases (akm : IEEE80211AkmType) (m : Nat) (h : akm.keyMicLen = some m) :
    m = 0 ∨ m = 16 ∨ m = 24 := by
  unfold IEEE80211AkmType.keyMicLen at h
  split at h
  · dsimp only at h
    split at h
    · cases h; simp
    · split at h
      · cases h; simp
      · split at h
        · cases h; simp
        · cases h
  · cases h

omit [ScrollRule] [Crc32] [AesKw] in
private theorem check_step (c : Arr 16) (a : Bytes) {κ : Type} (g : EapolKeyFrame κ) (v : Byte) (res : Arr 8)
    (kd : Bytes) (hm : g.key_mic.length = 0 ∨ g.key_mic.length = 16)
    (hmac : (HmacSha1.hmac c.val (eapolWire v { g with key_mic := List.replicate g.key_mic.length 0 } res.val
      kd)).val.take g.key_mic.length = g.key_mic) :
    checkMic (some c) (a ++ eapolWire v g res.val kd) a.length g.key_mic.length = .ok () := by
  have hFl : (eapolFields g res.val).length = 77 := by simp [eapolFields]
  generalize hL : toBE (BitVec.ofNat 16 (79 + g.key_mic.length + kd.length)) = L
  generalize hD : toBE (BitVec.ofNat 16 kd.length) = D
  have hLl : L.length = 2 := by rw [← hL]; simp
  have hz : eapolWire v { g with key_mic := List.replicate g.key_mic.length 0 } res.val kd =
      (v :: 3 :: (L ++ eapolFields g res.val)) ++ (List.replicate g.key_mic.length 0 ++ (D ++ kd)) := by
    simp [eapolWire, hL, hD]
    rfl
  have hw : eapolWire v g res.val kd = (v :: 3 :: (L ++ eapolFields g res.val)) ++ (g.key_mic ++ (D ++ kd)) := by
    simp [eapolWire, hL, hD]
  rw [hz] at hmac
  rw [hw]
  generalize hP : v :: 3 :: (L ++ eapolFields g res.val) = P at *
  have hPl : P.length = 81 := by rw [← hP]; simp [hLl, hFl]
  generalize g.key_mic = M at *
  unfold checkMic
  simp only [Res.ofOption_some, Res.ok_bind]
  have h1 : getRange (a ++ (P ++ (M ++ (D ++ kd)))) a.length 81 = .ok P := by
    rw [getRange, if_pos (by simp [hPl]), List.drop_left, ← hPl, List.take_left]
  have h2 : getFrom (a ++ (P ++ (M ++ (D ++ kd)))) (a.length + 81 + M.length) = .ok (D ++ kd) := by
    rw [getFrom, if_pos (by simp [hPl]; omega)]
    have := List.drop_left (l₁ := a ++ (P ++ M)) (l₂ := D ++ kd)
    simp only [List.append_assoc, List.length_append, hPl] at this
    rw [Nat.add_assoc]
    rw [this]
  have h3 := slice_mid (a ++ P) M (D ++ kd) (p := a.length + 81) (n := M.length) (by simp [hPl]) rfl
  simp only [List.append_assoc] at h3
  rw [h1]; simp only [Res.ok_bind]
  rw [h2]; simp only [Res.ok_bind]
  rw [h3]; simp only [Res.ok_bind]
  rw [if_neg (by omega)]
  have h8 : 8 * (M.length / 8) = M.length := by omega
  rw [h8, List.append_assoc, hmac, if_neg (by simp)]
  rfl

omit [Crc32] [HmacSha1] in
private theorem unwrap_step (k : Arr 16) (a : Bytes) {κ : Type} (g : EapolKeyFrame κ) (v : Byte) (res : Arr 8)
    (kd plain : Bytes) (hu : AesKw.unwrap k kd = some plain) (h8 : kd.length % 8 = 0) (temp : Nat)
    (ht : plain.length ≤ temp) (hl : 79 + g.key_mic.length + kd.length < 65536) :
    unwrapKeyData (some k) (a ++ eapolWire v g res.val kd) temp a.length g.key_mic.length =
      .ok (a ++ eapolWire v g res.val plain) := by
  have hsl := slack_le
  have hul := AesKw.unwrap_length k kd plain hu
  have hFl : (eapolFields g res.val).length = 77 := by simp [eapolFields]
  generalize hM : g.key_mic = M at *
  generalize hF : eapolFields g res.val = F at *
  have hw : ∀ d : Bytes, a ++ eapolWire v g res.val d = (a ++ [v, 3]) ++ (toBE (BitVec.ofNat 16 (79 + M.length +
      d.length)) ++ ((F ++ M) ++ (toBE (BitVec.ofNat 16 d.length) ++ d))) := by
    intro d; simp [eapolWire, hM, hF]
  rw [hw, hw]
  generalize hL : toBE (BitVec.ofNat 16 (79 + M.length + kd.length)) = L
  have hLl : L.length = 2 := by rw [← hL]; simp
  unfold unwrapKeyData
  dsimp only
  have hp : pread (readBE 16) (a.length + 81 + M.length) (a ++ [v, 3] ++ (L ++ (F ++ M ++
      (toBE (BitVec.ofNat 16 kd.length) ++ kd)))) = .ok (BitVec.ofNat 16 kd.length) := by
    have := preadBE_mid (a ++ [v, 3] ++ L ++ F ++ M) kd (BitVec.ofNat 16 kd.length)
      (p := a.length + 81 + M.length) (by simp [hLl, hFl]; omega)
    simpa only [List.append_assoc] using this
  have htn : (BitVec.ofNat 16 kd.length).toNat = kd.length := by
    rw [BitVec.toNat_ofNat, Nat.mod_eq_of_lt (by omega)]
  rw [hp]
  simp only [Res.mapErr, Res.ok_bind, htn]
  have hs : slice (a ++ [v, 3] ++ (L ++ (F ++ M ++ (toBE (BitVec.ofNat 16 kd.length) ++ kd))))
      (a.length + 81 + M.length + 2) kd.length = .ok kd := by
    have := slice_mid (a ++ [v, 3] ++ L ++ F ++ M ++ toBE (BitVec.ofNat 16 kd.length)) kd []
      (p := a.length + 81 + M.length + 2) (n := kd.length) (by simp [hLl, hFl]; omega) rfl
    simpa only [List.append_assoc, List.append_nil] using this
  rw [hs]
  simp only [Res.ofOption_some, Res.ok_bind]
  rw [Res.sub, if_pos (by omega)]
  simp only [Res.ok_bind]
  rw [if_neg (by omega), if_neg (by omega), hu]
  simp only [Res.ofOption_some, Res.ok_bind]
  rw [show kd.length - 8 = plain.length by omega]
  generalize hD : toBE (BitVec.ofNat 16 kd.length) = D
  have hDl : D.length = 2 := by rw [← hD]; simp
  have h1 : pwrite (writeBE (BitVec.ofNat 16 plain.length)) (a.length + 81 + M.length)
      (a ++ [v, 3] ++ (L ++ (F ++ M ++ (D ++ kd)))) =
      .ok (a ++ [v, 3] ++ (L ++ (F ++ M ++ (toBE (BitVec.ofNat 16 plain.length) ++ kd))), 2) := by
    have := pwriteBE_mid (a ++ [v, 3] ++ L ++ F ++ M) D kd (BitVec.ofNat 16 plain.length)
      (p := a.length + 81 + M.length) (by simp [hLl, hFl]; omega) hDl
    simpa only [List.append_assoc] using this
  rw [h1]
  simp only [Res.unwrap_ok, Res.ok_bind]
  generalize hD2 : toBE (BitVec.ofNat 16 plain.length) = D2
  have hD2l : D2.length = 2 := by rw [← hD2]; simp
  have h2 : pwrite (writeBytes plain) (a.length + 81 + M.length + 2)
      (a ++ [v, 3] ++ (L ++ (F ++ M ++ (D2 ++ kd)))) =
      .ok (a ++ [v, 3] ++ (L ++ (F ++ M ++ (D2 ++ (plain ++ kd.drop plain.length)))), plain.length) := by
    have := pwriteBytes_mid (a ++ [v, 3] ++ L ++ F ++ M ++ D2) (kd.take plain.length) plain (kd.drop plain.length)
      (p := a.length + 81 + M.length + 2) (by simp [hLl, hFl, hD2l]; omega) (by simp; omega) (by simp; omega)
    rw [List.take_append_drop, List.length_take, Nat.min_eq_left (by omega)] at this
    simpa only [List.append_assoc] using this
  rw [h2]
  simp only [Res.unwrap_ok, Res.ok_bind]
  have hbl : (a ++ [v, 3] ++ (L ++ (F ++ M ++ (D2 ++ (plain ++ kd.drop plain.length))))).length =
      a.length + 83 + M.length + kd.length := by
    simp [hLl, hFl, hD2l]; omega
  rw [hbl, Res.sub, if_pos (by omega)]
  simp only [Res.ok_bind]
  have htk : (a ++ [v, 3] ++ (L ++ (F ++ M ++ (D2 ++ (plain ++ kd.drop plain.length))))).take
      (a.length + 83 + M.length + kd.length - 8) = a ++ [v, 3] ++ (L ++ (F ++ M ++ (D2 ++ plain))) := by
    have hx : a ++ [v, 3] ++ (L ++ (F ++ M ++ (D2 ++ (plain ++ kd.drop plain.length)))) =
      (a ++ [v, 3] ++ (L ++ (F ++ M ++ (D2 ++ plain)))) ++ kd.drop plain.length := by
      simp only [List.append_assoc]
    have hxl : (a ++ [v, 3] ++ (L ++ (F ++ M ++ (D2 ++ plain)))).length =
      a.length + 83 + M.length + kd.length - 8 := by simp [hLl, hFl, hD2l]; omega
    rw [hx, ← hxl, List.take_left]
  rw [htk, Res.sub, if_pos (by omega)]
  simp only [Res.ok_bind]
  rw [Res.sub, if_pos (by omega)]
  simp only [Res.ok_bind]
  rw [show a.length + 83 + M.length + kd.length - 8 - a.length - 4 = 79 + M.length + plain.length by omega]
  rw [pwriteBE_mid (a ++ [v, 3]) L (F ++ M ++ (D2 ++ plain)) _ (by simp) hLl]
  rfl

omit [Crc32] in
/-- Deserialising a well-formed protected frame: the MIC, if flagged, is that of the frame with the MIC field
zeroed; the key data, if flagged, is unwrapped; the frame comes back with the key data in the clear. -/
theorem c39_deserialise (kck kek : Option (Arr 16)) (h : DataFrameHeader) (hv : ValidData h)
    (hc : HeaderConsistent h) (oui : Arr 3) (v : Byte) (g : EapolKeyFrame Bytes) (res : Arr 8) (kd : Bytes)
    (temp : Nat) (akm : IEEE80211AkmType) (ha : akm.keyMicLen = some g.key_mic.length)
    (hl : 79 + g.key_mic.length + kd.length < 65536) (hs : slack ≤ g.key_data.length)
    (hmic : g.key_information.key_mic = true → g.key_mic.length ≤ 20 ∧ ∃ c, kck = some c ∧
      (HmacSha1.hmac c.val (eapolWire v { g with key_mic := List.replicate g.key_mic.length 0 } res.val
        kd)).val.take g.key_mic.length = g.key_mic)
    (henc : if g.key_information.encrypted_key_data = true then
        kd.length % 8 = 0 ∧ g.key_data.length ≤ temp ∧ ∃ k, kek = some k ∧ AesKw.unwrap k kd = some g.key_data
      else g.key_data = kd) :
    deserializeEapol kck kek (eapolPrefix h oui 0x888e ++ eapolWire v g res.val kd) temp akm = .ok g := by
  have hsl := slack_le
  generalize hA : eapolPrefix h oui 0x888e = A
  have hAl : A.length = h.lengthInBytes + 8 := by rw [← hA, eapolPrefix_length]
  have hhead : ∀ w : Bytes, pread readDataHeader 0 (A ++ w) = .ok h := by
    intro w
    have := RdAt.gread (c27_round_trip h hv hc (snapWire oui 0x888e [] ++ w)) (by simp; omega) []
    simp only [List.nil_append, List.length_nil] at this
    rw [← hA, eapolPrefix]
    simp only [List.append_assoc]
    simp only [pread, this, Res.map]
  unfold deserializeEapol
  rw [hhead]
  simp only [Res.mapErr, Res.ok_bind]
  have htail : ∀ w : Bytes, getFrom (A ++ w) (h.lengthInBytes + 6) = .ok (toBE (0x888e : BitVec 16) ++ w) := by
    intro w
    rw [getFrom, if_pos (by simp [hAl]; omega)]
    have hx : A ++ w = (frameStart (.Data h.subtype) h.fcf_flags ++ (dataHeaderWire h ++ (0xaa :: 0xaa :: 0x03 ::
        oui.val))) ++ (toBE (0x888e : BitVec 16) ++ w) := by
      rw [← hA]; simp [eapolPrefix, snapWire]
    have hxl : (frameStart (.Data h.subtype) h.fcf_flags ++ (dataHeaderWire h ++ (0xaa :: 0xaa :: 0x03 ::
        oui.val))).length = h.lengthInBytes + 6 := by
      rw [c27_length]; simp; omega
    rw [hx, ← hxl, List.drop_left]
  rw [htail]
  simp only [Res.ok_bind]
  have hpe := fun w => preadBE_mid [] w (0x888e : BitVec 16) (p := 0) rfl
  simp only [List.nil_append] at hpe
  rw [hpe]
  simp only [Res.ok_bind]
  rw [if_neg (by decide)]
  have hwl : (eapolWire v g res.val kd).length = 83 + g.key_mic.length + kd.length := by
    simp [eapolWire, eapolFields]; omega
  have hki : slice (A ++ eapolWire v g res.val kd) (h.lengthInBytes + 8 + 5)
      ((A ++ eapolWire v g res.val kd).length - (h.lengthInBytes + 8 + 5)) =
      .ok (toBE g.key_information.bits ++ (eapolWire v g res.val kd).drop 7) := by
    have hx : A ++ eapolWire v g res.val kd = (A ++ (eapolWire v g res.val kd).take 5) ++
        ((eapolWire v g res.val kd).drop 5 ++ []) := by simp
    have hd5 : (eapolWire v g res.val kd).drop 5 = toBE g.key_information.bits ++ (eapolWire v g res.val kd).drop 7 := by
      have hL : (toBE (BitVec.ofNat 16 (79 + g.key_mic.length + kd.length))).length = 2 := by simp
      have hI : (toBE g.key_information.bits).length = 2 := by simp
      simp only [eapolWire, eapolFields]
      generalize toBE (BitVec.ofNat 16 (79 + g.key_mic.length + kd.length)) = L at *
      generalize toBE g.key_information.bits = I at *
      match L, hL, I, hI with
      | [a, b], _, [c, d], _ => rfl
    have := slice_mid (A ++ (eapolWire v g res.val kd).take 5) ((eapolWire v g res.val kd).drop 5) []
      (p := h.lengthInBytes + 8 + 5) (n := (A ++ eapolWire v g res.val kd).length - (h.lengthInBytes + 8 + 5))
      (by rw [List.length_append, hAl, List.length_take, hwl]; omega)
      (by rw [List.length_append, List.length_drop, hwl, hAl]; omega)
    rw [← hx] at this
    rw [this, hd5]
  rw [hki]
  simp only [Res.ok_bind]
  have hpk := fun w => preadBE_mid [] w g.key_information.bits (p := 0) rfl
  simp only [List.nil_append] at hpk
  rw [hpk]
  simp only [Res.ok_bind, ha, Res.ofOption_some]
  have hki2 : (⟨g.key_information.bits⟩ : KeyInformation) = g.key_information := rfl
  rw [hki2, ← hAl]
  have hchk : checkStep g.key_information kck (A ++ eapolWire v g res.val kd) A.length g.key_mic.length = .ok () := by
    unfold checkStep
    by_cases hf : g.key_information.key_mic = true
    · rw [if_pos hf]
      obtain ⟨h20, c, rfl, hm⟩ := hmic hf
      have := keyMicLen_cases akm _ ha
      exact check_step c A g v res kd (by omega) hm
    · rw [if_neg hf]
  rw [hchk]
  simp only [Res.ok_bind]
  have hunw : unwrapStep g.key_information kek (A ++ eapolWire v g res.val kd) temp A.length g.key_mic.length =
      .ok (A ++ eapolWire v g res.val g.key_data) ∧ g.key_data.length ≤ kd.length := by
    unfold unwrapStep
    by_cases hf : g.key_information.encrypted_key_data = true
    · rw [if_pos hf] at henc ⊢
      obtain ⟨h8, ht, k, rfl, hu⟩ := henc
      have := AesKw.unwrap_length k kd _ hu
      exact ⟨unwrap_step k A g v res kd g.key_data hu h8 temp ht hl, by omega⟩
    · rw [if_neg hf] at henc ⊢
      rw [henc]
      exact ⟨rfl, Nat.le_refl _⟩
  rw [hunw.1]
  simp only [Res.ok_bind]
  have hr := c37_read akm v g res [] [] ha (by simp; omega) (by simpa using hs)
  have hr' : readEapolKeyFrame akm (eapolWire v g res.val g.key_data) =
      .ok (g, 83 + g.key_mic.length + g.key_data.length) := by
    simpa [eapolWire] using hr
  have := RdAt.gread hr' (by simp [eapolWire]; omega) A
  simp only [pread, this, Res.map]

/-- Round trip.  The sender serialises with any keys it needs; a receiver with the same keys gets the fields
as they were, the MIC that was inserted, and the key data: padded if it was wrapped, as it was otherwise.
A flagged frame has to be given a MIC field of 16 zeros, and a frame flagged as encrypted some key data. -/
theorem c39_round_trip_partial [LawfulAesKw] (kck kek : Option (Arr 16)) (h : DataFrameHeader) (hv : ValidData h)
    (hc : HeaderConsistent h) (oui : Arr 3) (f : EapolKeyFrame Bytes) (akm : IEEE80211AkmType)
    (ha : akm.keyMicLen = some f.key_mic.length)
    (hmic : f.key_information.key_mic = true → f.key_mic = List.replicate 16 0 ∧ kck.isSome)
    (henc : f.key_information.encrypted_key_data = true → f.key_data ≠ [] ∧ kek.isSome)
    (hs : slack ≤ f.key_data.length) (buf : Bytes) (temp : Nat)
    (ht : f.key_data.length + 24 ≤ temp) (hl : f.key_mic.length + f.key_data.length + 103 < 65536)
    (hb : h.lengthInBytes + f.key_mic.length + f.key_data.length + 115 ≤ buf.length) :
    ∃ (out : Bytes) (mic : Bytes),
      serializeEapolDataFrame kck kek ⟨h, some ⟨oui, 0x888e, { f with key_data := bytesObj f.key_data }⟩⟩ buf temp =
        .ok (out ++ buf.drop out.length, out.length) ∧
      (∃ kd, wireKeyData kek f.key_information.encrypted_key_data f.key_data = some kd ∧
        wireMic kck f.key_information.key_mic f kd = some mic ∧
        out = eapolPrefix h oui 0x888e ++ eapolWire 2 { f with key_mic := mic } (Arr.zero 8).val kd) ∧
      (f.key_information.key_mic = false → mic = f.key_mic) ∧
      (∀ fcs : Arr 4, ∀ with_fcs : Bool,
        deserializeEapolDataFrame kck kek (out ++ if with_fcs then fcs.val else []) temp akm with_fcs =
          .ok { f with
            key_mic := mic
            key_data := if f.key_information.encrypted_key_data then padKeyData f.key_data else f.key_data }) := by
  have hsl := slack_le
  have hpl := padKeyData_length f.key_data
  -- the key data on the wire
  have hkd : ∃ kd, wireKeyData kek f.key_information.encrypted_key_data f.key_data = some kd ∧
      kd.length ≤ f.key_data.length + 24 ∧ f.key_data.length ≤ kd.length ∧
      if f.key_information.encrypted_key_data = true then
        kd.length % 8 = 0 ∧ (padKeyData f.key_data).length ≤ temp ∧
          ∃ k, kek = some k ∧ AesKw.unwrap k kd = some (padKeyData f.key_data)
      else f.key_data = kd := by
    by_cases he : f.key_information.encrypted_key_data = true
    · obtain ⟨hne, hk⟩ := henc he
      obtain ⟨k, rfl⟩ := Option.isSome_iff_exists.1 hk
      have hwl := wrap_padKeyData_length k f.key_data
      refine ⟨AesKw.wrap k (padKeyData f.key_data), ?_, by omega, by omega, ?_⟩
      · simp [wireKeyData, he, hne]
      · rw [if_pos he]
        exact ⟨by omega, by omega, k, rfl, LawfulAesKw.unwrap_wrap k _ (by omega)⟩
    · refine ⟨f.key_data, ?_, by omega, Nat.le_refl _, ?_⟩
      · rw [wireKeyData, if_neg (fun hh => he hh.1)]
      · rw [if_neg he]
  obtain ⟨kd, hkd, hkl, hkg, hun⟩ := hkd
  -- the MIC on the wire
  have hm : ∃ mic, wireMic kck f.key_information.key_mic ({ f with key_data := bytesObj f.key_data } :
      EapolKeyFrame Obj) kd = some mic ∧ mic.length = f.key_mic.length ∧
      (f.key_information.key_mic = false → mic = f.key_mic) ∧
      (f.key_information.key_mic = true → mic.length ≤ 20 ∧ ∃ c, kck = some c ∧
      (HmacSha1.hmac c.val (eapolWire 2 ({ f with key_mic := List.replicate mic.length 0 } : EapolKeyFrame Bytes)
        (Arr.zero 8).val kd)).val.take mic.length = mic) := by
    by_cases he : f.key_information.key_mic = true
    · obtain ⟨hz, hk⟩ := hmic he
      obtain ⟨c, rfl⟩ := Option.isSome_iff_exists.1 hk
      have hl16 : f.key_mic.length = 16 := by rw [hz]; simp
      have hml : ((HmacSha1.hmac c.val (eapolWire 2 f (Arr.zero 8).val kd)).val.take 16).length = 16 := by simp
      have hsame : eapolWire 2 ({ f with key_data := bytesObj f.key_data } : EapolKeyFrame Obj) (Arr.zero 8).val kd =
          eapolWire 2 f (Arr.zero 8).val kd := rfl
      refine ⟨(HmacSha1.hmac c.val (eapolWire 2 f (Arr.zero 8).val kd)).val.take 16, ?_, by rw [hml, hl16],
        fun hh => absurd (he.symm.trans hh) (by decide), ?_⟩
      · simp [wireMic, he, hl16]
        exact congrArg (fun x => List.take 16 (HmacSha1.hmac c.val x).val) hsame
      · intro _
        refine ⟨by rw [hml]; omega, c, rfl, ?_⟩
        rw [hml, ← hz]
    · refine ⟨f.key_mic, ?_, rfl, fun _ => rfl, fun hh => absurd hh he⟩
      rw [wireMic, if_neg he]
  obtain ⟨mic, hm, hml, hmu, hmc⟩ := hm
  obtain ⟨out, ho, hser⟩ := c39_serialise kck kek h
    ⟨oui, 0x888e, { f with key_data := bytesObj f.key_data }⟩ hv f.key_data _ (Emits.bytes _) kd mic hkd hm buf temp
    (by omega) (by show 79 + f.key_mic.length + kd.length < _; omega)
    (by show h.lengthInBytes + 91 + f.key_mic.length + _ ≤ _; omega)
  refine ⟨out, mic, hser, ⟨kd, hkd, hm, ho⟩, hmu, ?_⟩
  have hdes := c39_deserialise kck kek h hv hc oui 2 ({ f with
      key_mic := mic
      key_data := if f.key_information.encrypted_key_data then padKeyData f.key_data else f.key_data } :
      EapolKeyFrame Bytes) (Arr.zero 8) kd temp akm (by rw [ha, hml])
    (by show 79 + mic.length + kd.length < 65536; omega)
    (by show slack ≤ List.length (ite _ _ _); split <;> omega)
    hmc
    (by
      show if f.key_information.encrypted_key_data = true then _ else _
      by_cases he : f.key_information.encrypted_key_data = true
      · simp only [he, if_true] at hun ⊢
        exact hun
      · simp only [he] at hun ⊢
        exact hun)
  have ho' : out = eapolPrefix h oui 0x888e ++ eapolWire 2 ({ f with
      key_mic := mic
      key_data := if f.key_information.encrypted_key_data then padKeyData f.key_data else f.key_data } :
      EapolKeyFrame Bytes) (Arr.zero 8).val kd := ho
  rw [← ho'] at hdes
  intro fcs with_fcs
  cases with_fcs
  · simpa [deserializeEapolDataFrame] using hdes
  · simp only [deserializeEapolDataFrame, if_true]
    rw [Res.sub, if_pos (by simp)]
    simp only [Res.ok_bind]
    rw [show (out ++ fcs.val).length - 4 = out.length by simp, List.take_left]
    exact hdes

omit [Crc32] in
/-- Deserialising does not panic on input that satisfies `EapolSafe`.  (It does on other input, see below.) -/
theorem c39_no_panic_partial (kck kek : Option (Arr 16)) (buf : Bytes) (temp : Nat) (akm : IEEE80211AkmType)
    (with_fcs : Bool) (hl : with_fcs = true → 4 ≤ buf.length)
    (h : ∀ hd n, readDataHeader (if with_fcs then buf.take (buf.length - 4) else buf) = .ok (hd, n) →
      EapolSafe (if with_fcs then buf.take (buf.length - 4) else buf) (hd.lengthInBytes + 8) temp akm) :
    deserializeEapolDataFrame kck kek buf temp akm with_fcs ≠ .panic := by
  have key : ∀ body : Bytes, (∀ hd n, readDataHeader body = .ok (hd, n) →
      EapolSafe body (hd.lengthInBytes + 8) temp akm) → deserializeEapol kck kek body temp akm ≠ .panic := by
    intro body h
    unfold deserializeEapol
    refine Res.bind_ne_panic (Res.mapErr_ne_panic (pread_ne_panic c27_safe _ _)) fun hd hh => ?_
    obtain ⟨_, n, hr⟩ := pread_ok (Res.mapErr_ok hh)
    obtain ⟨h1, h2, h3⟩ := h hd n (by simpa using hr)
    generalize hst : hd.lengthInBytes + 8 = start at *
    refine Res.bind_ne_panic getFrom_ne_panic fun tail _ => ?_
    refine Res.bind_ne_panic (Res.mapErr_ne_panic (pread_ne_panic (readBE_fixed 16).safe _ _)) fun et _ => ?_
    split
    · intro hh; cases hh
    have hs : slice body (start + 5) (body.length - (start + 5)) = .ok (body.drop (start + 5)) := by
      rw [slice, if_pos (by omega), List.take_of_length_le (by simp)]
    rw [hst]
    dsimp only
    rw [hs]
    simp only [Res.ok_bind]
    refine Res.bind_ne_panic (Res.mapErr_ne_panic (pread_ne_panic (readBE_fixed 16).safe _ _)) fun bits hb => ?_
    obtain ⟨x, hi, lo, z, hbody, hx, hbits⟩ := preadBE_ok (Res.mapErr_ok hb)
    have hx0 : x = [] := List.eq_nil_of_length_eq_zero hx
    subst hx0
    have hget : body[start + 5]? = some hi := by
      have := congrArg (fun l => l[0]?) hbody
      simpa using this
    refine Res.bind_ne_panic Res.ofOption_ne_panic fun m hm => ?_
    have hm := Res.ofOption_ok hm
    refine Res.bind_ne_panic ?_ fun _ _ => Res.bind_ne_panic ?_ fun _ _ =>
      Res.mapErr_ne_panic (pread_ne_panic (c37_safe akm) _ _)
    · unfold checkStep
      split
      · rename_i hf
        have hf : hi.getLsbD 0 = true := by
          have h8 : bits.getLsbD 8 = true := hf
          rw [hbits, BitVec.getLsbD_append] at h8
          simpa using h8
        have h20 := h2 hi m hget hf hm
        unfold checkMic
        refine Res.bind_ne_panic Res.ofOption_ne_panic fun _ _ =>
          Res.bind_ne_panic getRange_ne_panic fun _ _ => Res.bind_ne_panic getFrom_ne_panic fun _ hg => ?_
        obtain ⟨hgl, _⟩ := getFrom_ok hg
        rw [slice, if_pos (by omega)]
        simp only [Res.ok_bind]
        rw [if_neg (by omega)]
        split <;> (intro hh; cases hh)
      · intro hh; cases hh
    · unfold unwrapStep
      split
      · rename_i hf
        have hf : hi.getLsbD 4 = true := by
          have h8 : bits.getLsbD 12 = true := hf
          rw [hbits, BitVec.getLsbD_append] at h8
          simpa using h8
        apply unwrap_ne_panic
        intro v hv
        obtain ⟨x, hi', lo', z, hbody', hx', hv'⟩ := preadBE_ok hv
        have hvn : v.toNat = 256 * hi'.toNat + lo'.toNat := by
          rw [hv', BitVec.toNat_append, ← Nat.shiftLeft_add_eq_or_of_lt lo'.isLt, Nat.shiftLeft_eq]
          omega
        have g1 : body[start + 81 + m]? = some hi' := by
          rw [hbody', ← hx', List.getElem?_append_right (Nat.le_refl _)]; simp
        have g2 : body[start + 82 + m]? = some lo' := by
          rw [hbody', List.getElem?_append_right (by omega), show start + 82 + m - x.length = 1 by omega]; simp
        have := h3 hi m hi' lo' hget hf hm g1 g2
        omega
      · intro hh; cases hh
  unfold deserializeEapolDataFrame
  cases with_fcs
  · simpa using key buf (by simpa using h)
  · have := hl rfl
    simp only [if_true]
    rw [Res.sub, if_pos (by omega)]
    exact key _ (by simpa using h)

/-! ## Concrete cases

A toy HMAC (the exclusive or of all bytes, twenty times) and a toy key wrap (eight bytes 0xa6 appended). -/

/-- A toy HMAC. -/
@[instance_reducible] def toyHmac : HmacSha1 := ⟨fun k m => ⟨List.replicate 20 ((k ++ m).foldl (· ^^^ ·) 0), by simp⟩⟩

/-- A toy key wrap. -/
@[instance_reducible] def toyKw : AesKw where
  wrap _ d := d ++ List.replicate 8 0xa6
  unwrap _ d := if 8 ≤ d.length ∧ d.drop (d.length - 8) = List.replicate 8 0xa6 then some (d.take (d.length - 8))
    else none
  wrap_length := by intro _ d _; simp
  unwrap_length := by
    intro _ d p h
    split at h
    · cases h; simp; omega
    · cases h

/-- A data frame with an EAPOL frame given by the first byte of the key information, the MIC and what follows
the MIC. -/
def toyFrame (info : Byte) (mic tail : Bytes) : Bytes :=
  [8, 0] ++ List.replicate 22 0 ++ [0xaa, 0xaa, 3, 0, 0, 0, 0x88, 0x8e] ++ [2, 3, 0,
    BitVec.ofNat 8 (77 + mic.length + tail.length), 2, info, 2] ++ List.replicate 74 0 ++ mic ++ tail

omit [ScrollRule] [Crc32] [HmacSha1] [AesKw] in
/-- The law is not vacuous. -/
theorem toyKw_lawful : letI := toyKw; LawfulAesKw :=
  letI := toyKw
  ⟨by
    intro k d _
    show (if _ then _ else _) = _
    have hw : AesKw.wrap k d = d ++ List.replicate 8 0xa6 := rfl
    rw [hw]
    simp⟩

omit [ScrollRule] [Crc32] [HmacSha1] [AesKw] in
/-- Violations: received bytes on which deserialising panics.  In order: a frame of three bytes with check
sequence; a frame that ends with the ether type; encrypted key data of length zero; a key data length beyond
the end; a temporary buffer that is too short; a MIC length of 24. -/
theorem c39_panics (s : Bool) :
    letI : ScrollRule := ⟨s⟩
    letI := toyHmac
    letI := toyKw
    let k : Option (Arr 16) := some (Arr.zero 16)
    deserializeEapolDataFrame k k [1, 2, 3] 100 .Psk true = .panic ∧
    deserializeEapolDataFrame k k ((toyFrame 0 [] []).take 32) 100 .Psk false = .panic ∧
    deserializeEapolDataFrame k k (toyFrame 0x10 (List.replicate 16 0) [0, 0]) 100 .Psk false = .panic ∧
    deserializeEapolDataFrame k k (toyFrame 0x10 (List.replicate 16 0) [0, 9, 1]) 100 .Psk false = .panic ∧
    deserializeEapolDataFrame k k (toyFrame 0x10 (List.replicate 16 0) ([0, 16] ++ List.replicate 16 0)) 7 .Psk false
      = .panic ∧
    deserializeEapolDataFrame k k (toyFrame 0x01 (List.replicate 24 0) [0, 1, 1]) 100 .WpaSha384SuiteB false
      = .panic := by
  cases s <;> decide +kernel

/-- The frame given to `serialize_eapol_data_frame` below. -/
def toyInput (info : BitVec 16) (mic data : Bytes) : EapolDataFrame Obj :=
  ⟨⟨.Data, ⟨1⟩, 0, Arr.zero 6, Arr.zero 6, Arr.zero 6, ⟨0⟩, none, none, none⟩, some ⟨Arr.zero 3, 0x888e, {
    key_information := ⟨info⟩, key_length := 0x0102, key_replay_counter := 1, key_nonce := Arr.zero 32,
    key_iv := 0, key_rsc := 0, key_mic := mic, key_data := bytesObj data }⟩⟩

/-- Serialise and deserialise. -/
def toyRound [ScrollRule] [Crc32] [HmacSha1] [AesKw] (f : EapolDataFrame Obj) (akm : IEEE80211AkmType) :
    Res (EapolKeyFrame Bytes) := do
  let k : Option (Arr 16) := some (Arr.zero 16)
  let (b, n) ← serializeEapolDataFrame k k f (List.replicate 300 7) 100
  deserializeEapolDataFrame k k (b.take n) 100 akm false

omit [ScrollRule] [Crc32] [HmacSha1] [AesKw] in
/-- Violations of the round trip.  The MIC field is not zeroed before the MIC is computed, so that a frame
given with another MIC field is rejected by the receiver; a frame flagged as encrypted without key data makes
the receiver panic; a MIC field that does not have 16 bytes, and a temporary buffer of 24 bytes with key data of
more than 16 bytes, make the sender panic. -/
theorem c39_round_trip_wrong (s : Bool) :
    letI : ScrollRule := ⟨s⟩
    letI : Crc32 := ⟨fun _ => 0⟩
    letI := toyHmac
    letI := toyKw
    let k : Option (Arr 16) := some (Arr.zero 16)
    toyRound (toyInput 0x0102 (1 :: List.replicate 15 0) [1, 2]) .Psk = .err EapolSerdeError.InvalidMic.code ∧
    toyRound (toyInput 0x1002 (List.replicate 16 0) []) .Psk = .panic ∧
    serializeEapolDataFrame k k (toyInput 0x0102 (List.replicate 24 0) [1, 2]) (List.replicate 300 7) 100 = .panic ∧
    serializeEapolDataFrame k k (toyInput 0x1002 (List.replicate 16 0) (List.replicate 17 1))
      (List.replicate 300 7) 24 = .panic := by
  cases s <;> decide +kernel

/-- A round trip with MIC and wrapped key data, which comes back padded. -/
example (s : Bool) :
    letI : ScrollRule := ⟨s⟩
    letI : Crc32 := ⟨fun _ => 0⟩
    letI := toyHmac
    letI := toyKw
    toyRound (toyInput 0x1102 (List.replicate 16 0) (List.replicate 17 1)) .Psk = .ok {
      key_information := ⟨0x1102⟩, key_length := 0x0102, key_replay_counter := 1, key_nonce := Arr.zero 32,
      key_iv := 0, key_rsc := 0, key_mic := List.replicate 16 0x91,
      key_data := List.replicate 17 1 ++ [0xdd, 0, 0, 0, 0, 0, 0] } := by
  cases s <;> decide +kernel

/-- A frame to which `c39_no_panic_partial` applies: encrypted key data that is garbage. -/
example (s : Bool) :
    letI : ScrollRule := ⟨s⟩
    letI := toyHmac
    letI := toyKw
    deserializeEapolDataFrame none (some (Arr.zero 16)) (toyFrame 0x10 (List.replicate 16 0)
      ([0, 16] ++ List.replicate 16 0)) 100 .Psk false = .err EapolSerdeError.TemporaryBufferToShort.code := by
  cases s <;> decide +kernel

end Verif
