import Verif.Props.C40
/-!
# C56: handling of protected EAPOL frames fails with the error that names the cause
-/
namespace Verif
open Spec

/-- The eight errors are told apart. -/
theorem c56_errors_distinct (a b : EapolSerdeError) : a.code = b.code ↔ a = b := by
  cases a <;> cases b <;> decide

variable [ScrollRule] [Crc32] [HmacSha1] [AesKw]

/-! ## Serialising -/

/-- A temporary buffer under 24 bytes is refused, whatever the rest. -/
theorem c56_temporary_buffer (kck kek : Option (Arr 16)) (f : EapolDataFrame Obj) (buf : Bytes) (temp : Nat)
    (ht : temp < 24) :
    serializeEapolDataFrame kck kek f buf temp = .err EapolSerdeError.TemporaryBufferToShort.code := by
  unfold serializeEapolDataFrame
  rw [if_pos ht]

/-- A frame without payload is refused. -/
theorem c56_no_payload (kck kek : Option (Arr 16)) (h : DataFrameHeader) (buf : Bytes) (temp : Nat)
    (ht : 24 ≤ temp) :
    serializeEapolDataFrame kck kek ⟨h, none⟩ buf temp = .err EapolSerdeError.NoPayload.code := by
  unfold serializeEapolDataFrame
  rw [if_neg (by omega)]
  rfl

/-- A buffer too short for the frame as given is refused. -/
theorem c56_buffer_short (kck kek : Option (Arr 16)) (h : DataFrameHeader) (s : SnapLlcFrame (EapolKeyFrame Obj))
    (hv : ValidData h) (data : Bytes) (need : Nat) (hd : Emits s.payload.key_data.write data need)
    (buf : Bytes) (temp : Nat) (ht : 24 ≤ temp)
    (hb : buf.length < h.lengthInBytes + 91 + s.payload.key_mic.length + max need slack) :
    serializeEapolDataFrame kck kek ⟨h, some s⟩ buf temp = .err EapolSerdeError.BufferTooShort.code := by
  have hw := (c38_write h s hv data need hd false).pwrite0.err buf (by
    have := c27_length h
    omega)
  obtain ⟨e, hw⟩ := hw
  unfold serializeEapolDataFrame
  rw [if_neg (by omega)]
  simp only [EapolDataFrame.eapolMicRange, EapolDataFrame.eapolKeyDataLengthRange,
    EapolDataFrame.eapolKeyDataRange, Res.ofOption_some, Res.ok_bind]
  rw [hw]
  rfl

omit [ScrollRule] [Crc32] [HmacSha1] [AesKw] in
private theorem copyInto_some {b x : Bytes} {p : Nat} (h : p + x.length ≤ b.length) :
    ∃ c, copyInto b p x = .ok c ∧ c.length = b.length := by
  refine ⟨_, if_pos h, ?_⟩
  simp; omega

omit [ScrollRule] [Crc32] [HmacSha1] [AesKw] in
private theorem padded_length (data : Bytes) : paddedKeyDataLength data.length = (padKeyData data).length := by
  rw [padKeyData_length]
  unfold paddedKeyDataLength
  split
  · omega
  · split <;> omega

omit [ScrollRule] [Crc32] [HmacSha1] [AesKw] in
private theorem pad_some {b : Bytes} {p n m : Nat} (hm : n ≤ m) (h : p + m ≤ b.length) :
    ∃ c, padInBuffer b p n m = .ok c ∧ c.length = b.length := by
  unfold padInBuffer
  split
  · exact copyInto_some (by simp; omega)
  · exact ⟨b, rfl, rfl⟩

omit [Crc32] [HmacSha1] in
/-- The outcomes of the encryption step other than success. -/
private theorem wrap_cases (kek : Option (Arr 16)) (b data : Bytes) (temp written ls kds ms efs : Nat)
    (hk : kds ≤ b.length) :
    (b.length < kds + (padKeyData data).length →
      wrapKeyData kek b temp written data.length ls kds ms efs = .err EapolSerdeError.BufferTooShort.code) ∧
    (kds + (padKeyData data).length ≤ b.length → kek = none →
      wrapKeyData kek b temp written data.length ls kds ms efs = .err EapolSerdeError.MissingKey.code) ∧
    (kds + (padKeyData data).length ≤ b.length → kek.isSome → temp < (padKeyData data).length + 8 →
      wrapKeyData kek b temp written data.length ls kds ms efs = .panic) ∧
    (kds + (padKeyData data).length ≤ b.length → kek.isSome → (padKeyData data).length + 8 ≤ temp →
      b.length < kds + ((padKeyData data).length + 8) →
      wrapKeyData kek b temp written data.length ls kds ms efs = .err EapolSerdeError.BufferTooShort.code) ∧
    (kek.isSome → (padKeyData data).length + 8 ≤ temp → kds + ((padKeyData data).length + 8) ≤ b.length →
      ∃ p, wrapKeyData kek b temp written data.length ls kds ms efs = .ok p) := by
  have hpl := padKeyData_length data
  have hmod : (padKeyData data).length % 8 = 0 := by omega
  have hge : data.length ≤ (padKeyData data).length := by omega
  unfold wrapKeyData
  simp only [padded_length]
  rw [if_neg (by omega)]
  refine ⟨fun h1 => by rw [if_pos h1], ?_⟩
  have hsl : ∀ c : Bytes, c.length = b.length → kds + (padKeyData data).length ≤ b.length →
      slice c kds (padKeyData data).length = .ok ((c.drop kds).take (padKeyData data).length) := by
    intro c hc h
    exact if_pos ⟨by omega, by omega⟩
  refine ⟨fun h1 h2 => ?_, fun h1 h2 h3 => ?_, fun h1 h2 h3 h4 => ?_, fun h2 h3 h4 => ?_⟩
  · obtain ⟨c, hc, hcl⟩ := pad_some hge h1
    rw [if_neg (by omega), hc]
    simp only [Res.ok_bind]
    rw [hsl c hcl h1, h2]
    rfl
  · obtain ⟨c, hc, hcl⟩ := pad_some hge h1
    obtain ⟨k, rfl⟩ := Option.isSome_iff_exists.1 h2
    rw [if_neg (by omega), hc]
    simp only [Res.ok_bind]
    rw [hsl c hcl h1]
    simp only [Res.ok_bind, Res.ofOption_some]
    rw [if_pos h3]
  · obtain ⟨c, hc, hcl⟩ := pad_some hge h1
    obtain ⟨k, rfl⟩ := Option.isSome_iff_exists.1 h2
    rw [if_neg (by omega), hc]
    simp only [Res.ok_bind]
    rw [hsl c hcl h1]
    simp only [Res.ok_bind, Res.ofOption_some]
    rw [if_neg (by omega), if_neg (by omega), if_pos (by omega)]
  · have h1 : kds + (padKeyData data).length ≤ b.length := by omega
    obtain ⟨c, hc, hcl⟩ := pad_some hge h1
    obtain ⟨k, rfl⟩ := Option.isSome_iff_exists.1 h2
    rw [if_neg (by omega), hc]
    simp only [Res.ok_bind]
    rw [hsl c hcl h1]
    simp only [Res.ok_bind, Res.ofOption_some]
    rw [if_neg (by omega), if_neg (by omega), if_neg (by omega)]
    have htl : ((c.drop kds).take (padKeyData data).length).length = (padKeyData data).length := by
      rw [List.length_take, List.length_drop]; omega
    have hwl := AesKw.wrap_length k ((c.drop kds).take (padKeyData data).length) (by omega)
    obtain ⟨c', hc', hcl'⟩ := copyInto_some (b := c) (x := AesKw.wrap k ((c.drop kds).take (padKeyData data).length))
      (p := kds) (by omega)
    rw [hc']
    simp only [Res.ok_bind]
    rw [Res.sub, if_pos (by omega)]
    exact ⟨_, rfl⟩

section
variable (kck kek : Option (Arr 16)) (h : DataFrameHeader) (s : SnapLlcFrame (EapolKeyFrame Obj))
  (hv : ValidData h) (data : Bytes) (need : Nat) (hd : Emits s.payload.key_data.write data need)
  (buf : Bytes) (temp : Nat) (ht : 24 ≤ temp) (hl : data.length < 65536)
  (hb : h.lengthInBytes + 91 + s.payload.key_mic.length + max need slack ≤ buf.length)
include hv hd ht hl hb

/-- The frame having been written, the outcome is that of the encryption step, unless it succeeds. -/
private theorem outcome (he : s.payload.key_information.encrypted_key_data = true) (hne : data ≠ []) :
    ∃ b, b.length = buf.length ∧ ∃ ls kds written, kds = h.lengthInBytes + 91 + s.payload.key_mic.length ∧
      ∃ f : Bytes × Nat → Res (Bytes × Nat),
      (∀ p, f p = (micStep s.payload.key_information kck p.1 p.2 (h.lengthInBytes + 8)
        (h.lengthInBytes + 8 + 1 + 1 + 2 + 1 + 2 + 2 + 8 + 32 + 16 + 8 + 8)
        (h.lengthInBytes + 8 + 1 + 1 + 2 + 1 + 2 + 2 + 8 + 32 + 16 + 8 + 8 + s.payload.key_mic.length)) >>= fun b =>
      pure (b, p.2)) ∧
      serializeEapolDataFrame kck kek ⟨h, some s⟩ buf temp =
        wrapKeyData kek b temp written data.length ls kds s.payload.key_mic.length (h.lengthInBytes + 8) >>= f := by
  have hst := serialise_steps kck kek h s hv data need hd buf temp ht hl hb
  have hle := hd.le
  have hAl := eapolPrefix_length h s.oui s.ether_type
  have hFl : (eapolFields s.payload (Arr.zero 8).val).length = 77 := by simp [eapolFields]
  dsimp only at hst
  unfold wrapStep at hst
  rw [if_pos ⟨fun e => hne (List.length_eq_zero_iff.1 e), he⟩] at hst
  refine Exists.intro _ (And.intro ?_ ⟨_, _, _, ?_, _, fun p => rfl, hst⟩)
  · simp only [List.length_append, List.length_drop, toBE_length, hAl, hFl, List.length_cons, List.length_nil]
    omega
  · omega

/-- With room for the frame but not for its padded key data, the buffer is too short: so it is with a key and a
sufficient temporary buffer when there is no room for the wrapped key data. -/
theorem c56_wrapped_short (he : s.payload.key_information.encrypted_key_data = true) (hne : data ≠ [])
    (hs : buf.length < h.lengthInBytes + 91 + s.payload.key_mic.length + (padKeyData data).length ∨
      kek.isSome ∧ (padKeyData data).length + 8 ≤ temp ∧
      buf.length < h.lengthInBytes + 91 + s.payload.key_mic.length + ((padKeyData data).length + 8)) :
    serializeEapolDataFrame kck kek ⟨h, some s⟩ buf temp = .err EapolSerdeError.BufferTooShort.code := by
  obtain ⟨b, hbl, ls, kds, w, hk, f, -, hf⟩ := outcome kck kek h s hv data need hd buf temp ht hl hb he hne
  obtain ⟨c1, -, -, c4, -⟩ := wrap_cases kek b data temp w ls kds s.payload.key_mic.length (h.lengthInBytes + 8)
    (by omega)
  rw [hf]
  by_cases h1 : buf.length < kds + (padKeyData data).length
  · rw [c1 (by omega)]; rfl
  · rcases hs with hs | ⟨h2, h3, h4⟩
    · omega
    · rw [c4 (by omega) h2 h3 (by omega)]; rfl

/-- Without the key, frames flagged as encrypted are not written. -/
theorem c56_missing_kek (he : s.payload.key_information.encrypted_key_data = true) (hne : data ≠ [])
    (hk : kek = none)
    (hs : h.lengthInBytes + 91 + s.payload.key_mic.length + (padKeyData data).length ≤ buf.length) :
    serializeEapolDataFrame kck kek ⟨h, some s⟩ buf temp = .err EapolSerdeError.MissingKey.code := by
  obtain ⟨b, hbl, ls, kds, w, hkd, f, -, hf⟩ := outcome kck kek h s hv data need hd buf temp ht hl hb he hne
  obtain ⟨-, c2, -⟩ := wrap_cases kek b data temp w ls kds s.payload.key_mic.length (h.lengthInBytes + 8)
    (by omega)
  rw [hf, c2 (by omega) hk]; rfl

/-- Violation: a temporary buffer of 24 bytes or more that is too short for the wrapped key data makes the
sender panic, though there is an error for it. -/
theorem c56_temporary_buffer_panics (he : s.payload.key_information.encrypted_key_data = true) (hne : data ≠ [])
    (hk : kek.isSome) (htp : temp < (padKeyData data).length + 8)
    (hs : h.lengthInBytes + 91 + s.payload.key_mic.length + (padKeyData data).length ≤ buf.length) :
    serializeEapolDataFrame kck kek ⟨h, some s⟩ buf temp = .panic := by
  obtain ⟨b, hbl, ls, kds, w, hkd, f, -, hf⟩ := outcome kck kek h s hv data need hd buf temp ht hl hb he hne
  obtain ⟨-, -, c3, -⟩ := wrap_cases kek b data temp w ls kds s.payload.key_mic.length (h.lengthInBytes + 8)
    (by omega)
  rw [hf, c3 (by omega) hk htp]; rfl

/-- The MIC step, once reached, determines the outcome if it does not succeed. -/
private theorem mic_outcome {r : Res (Bytes × Nat)}
    (hr : ∀ b w : _, micStep s.payload.key_information kck b w (h.lengthInBytes + 8)
        (h.lengthInBytes + 8 + 1 + 1 + 2 + 1 + 2 + 2 + 8 + 32 + 16 + 8 + 8)
        (h.lengthInBytes + 8 + 1 + 1 + 2 + 1 + 2 + 2 + 8 + 32 + 16 + 8 + 8 + s.payload.key_mic.length) >>=
        (fun b => pure (b, w)) = r)
    (hkd : s.payload.key_information.encrypted_key_data = true → data ≠ [] →
      kek.isSome ∧ (padKeyData data).length + 8 ≤ temp ∧
      h.lengthInBytes + 91 + s.payload.key_mic.length + ((padKeyData data).length + 8) ≤ buf.length) :
    serializeEapolDataFrame kck kek ⟨h, some s⟩ buf temp = r := by
  by_cases hc : s.payload.key_information.encrypted_key_data = true ∧ data ≠ []
  · obtain ⟨h1, h2, h3⟩ := hkd hc.1 hc.2
    obtain ⟨b, hbl, ls, kds, w, hkds, f, hfe, hf⟩ := outcome kck kek h s hv data need hd buf temp ht hl hb hc.1 hc.2
    obtain ⟨-, -, -, -, c5⟩ := wrap_cases kek b data temp w ls kds s.payload.key_mic.length (h.lengthInBytes + 8)
      (by omega)
    obtain ⟨p, hp⟩ := c5 h1 h2 (by omega)
    rw [hf, hp]
    simp only [Res.ok_bind]
    rw [hfe, hr]
  · have hst := serialise_steps kck kek h s hv data need hd buf temp ht hl hb
    dsimp only at hst
    rw [hst]
    unfold wrapStep
    rw [if_neg (fun e => hc ⟨e.2, fun h0 => e.1 (by rw [h0]; rfl)⟩)]
    simp only [Res.ok_bind]
    rw [hr]

/-- Without the key for the MIC, frames flagged as having one are not written. -/
theorem c56_missing_kck (hm : s.payload.key_information.key_mic = true) (hk : kck = none)
    (hkd : s.payload.key_information.encrypted_key_data = true → data ≠ [] →
      kek.isSome ∧ (padKeyData data).length + 8 ≤ temp ∧
      h.lengthInBytes + 91 + s.payload.key_mic.length + ((padKeyData data).length + 8) ≤ buf.length) :
    serializeEapolDataFrame kck kek ⟨h, some s⟩ buf temp = .err EapolSerdeError.MissingKey.code := by
  refine mic_outcome kck kek h s hv data need hd buf temp ht hl hb (fun b w => ?_) hkd
  unfold micStep insertMic
  rw [if_pos hm, hk]
  rfl

/-- Violation: a MIC field that does not have sixteen bytes makes the sender panic: there are AKM suites with
MICs of 24 bytes. -/
theorem c56_mic_length_panics (hm : s.payload.key_information.key_mic = true) (hk : kck.isSome)
    (hml : s.payload.key_mic.length ≠ 16)
    (hkd : s.payload.key_information.encrypted_key_data = true → data ≠ [] →
      kek.isSome ∧ (padKeyData data).length + 8 ≤ temp ∧
      h.lengthInBytes + 91 + s.payload.key_mic.length + ((padKeyData data).length + 8) ≤ buf.length) :
    serializeEapolDataFrame kck kek ⟨h, some s⟩ buf temp = .panic := by
  refine mic_outcome kck kek h s hv data need hd buf temp ht hl hb (fun b w => ?_) hkd
  obtain ⟨k, rfl⟩ := Option.isSome_iff_exists.1 hk
  unfold micStep insertMic
  rw [if_pos hm]
  simp only [Res.ofOption_some, Res.ok_bind]
  unfold Res.sub slice
  split
  · simp only [Res.ok_bind]
    split
    · simp only [Res.ok_bind]
      rw [if_pos (by omega)]
      rfl
    · rfl
  · rfl

end

/-! ## Deserialising -/

omit [Crc32] in
/-- The check sequence is cut off and not looked at. -/
private theorem without (kck kek : Option (Arr 16)) (buf : Bytes) (temp : Nat) (akm : IEEE80211AkmType)
    (with_fcs : Bool) (hfcs : with_fcs = true → 4 ≤ buf.length) :
    deserializeEapolDataFrame kck kek buf temp akm with_fcs =
      deserializeEapol kck kek (withoutFcs buf with_fcs) temp akm := by
  unfold deserializeEapolDataFrame withoutFcs
  cases with_fcs
  · rfl
  · have := hfcs rfl
    simp only [if_true]
    rw [Res.sub, if_pos (by omega)]
    rfl

omit [Crc32] [HmacSha1] [AesKw] in
private theorem head {body : Bytes} {hd : DataFrameHeader} {n : Nat} (hh : readDataHeader body = .ok (hd, n))
    (hb : 0 < body.length) : pread readDataHeader 0 body = .ok hd := by
  have hsl := slack_le
  have := RdAt.gread hh (by omega) []
  simp only [List.nil_append, List.length_nil] at this
  simp only [pread, this, Res.map]

omit [Crc32] [HmacSha1] [AesKw] [ScrollRule] in
private theorem two {l : Bytes} {i : Nat} {x y : Byte} (hx : l[i]? = some x) (hy : l[i + 1]? = some y) :
    l.drop i = x :: y :: l.drop (i + 2) := by
  obtain ⟨h1, rfl⟩ := List.getElem?_eq_some_iff.1 hx
  obtain ⟨h2, rfl⟩ := List.getElem?_eq_some_iff.1 hy
  rw [List.drop_eq_getElem_cons h1, List.drop_eq_getElem_cons h2]

omit [Crc32] [HmacSha1] [AesKw] [ScrollRule] in
private theorem toBE2 (x y : Byte) : toBE (x ++ y : BitVec 16) = [x, y] := by
  have hq := toBE_fromBE (w := 16) rfl [x, y] rfl
  have : (x ++ y : BitVec 16) = fromBE 16 [x, y] := by
    apply BitVec.eq_of_toNat_eq
    have h1 := x.isLt
    have h2 := y.isLt
    rw [BitVec.toNat_append, ← Nat.shiftLeft_add_eq_or_of_lt h2, Nat.shiftLeft_eq]
    simp [fromBE, fromLE, leNat]
    omega
  rw [this, hq]

omit [Crc32] [HmacSha1] [AesKw] in
private theorem pread2 (x y : Byte) (z : Bytes) : pread (readBE 16) 0 (x :: y :: z) = .ok (x ++ y) := by
  have := preadBE_mid [] z (x ++ y : BitVec 16) (p := 0) rfl
  rw [toBE2] at this
  exact this

omit [Crc32] [HmacSha1] [AesKw] in
private theorem pread2_short {p : Nat} {b : Bytes} (h : b.length < p + 2) :
    ∃ e, pread (readBE 16) p b = .err e := by
  cases hp : pread (readBE 16) p b with
  | ok v =>
    obtain ⟨x, hi, lo, z, rfl, rfl, -⟩ := preadBE_ok hp
    simp at h
    omega
  | err e => exact ⟨e, rfl⟩
  | panic => exact absurd hp (pread_ne_panic (readBE_fixed 16).safe _ _)

section
variable (kck kek : Option (Arr 16)) (buf : Bytes) (temp : Nat) (akm : IEEE80211AkmType)
  (with_fcs : Bool) (hfcs : with_fcs = true → 4 ≤ buf.length)
include hfcs

omit [Crc32] in
/-- No complete data frame header: too short. -/
theorem c56_read_header (e : Err) (hh : readDataHeader (withoutFcs buf with_fcs) = .err e) :
    deserializeEapolDataFrame kck kek buf temp akm with_fcs = .err EapolSerdeError.BufferTooShort.code := by
  rw [without kck kek buf temp akm with_fcs hfcs]
  generalize withoutFcs buf with_fcs = body at *
  unfold deserializeEapol
  have : ∃ e, pread readDataHeader 0 body = .err e := by
    simp only [pread, Rd.gread, List.drop_zero, hh]
    split
    · exact ⟨_, rfl⟩
    · exact ⟨_, rfl⟩
  obtain ⟨e, he⟩ := this
  rw [he]
  rfl

variable (hd : DataFrameHeader) (n : Nat) (hh : readDataHeader (withoutFcs buf with_fcs) = .ok (hd, n))
include hh

omit [Crc32] in
/-- The ether type is missing: too short. -/
theorem c56_read_no_type (h0 : 0 < (withoutFcs buf with_fcs).length)
    (hl : (withoutFcs buf with_fcs).length < hd.lengthInBytes + 8) :
    deserializeEapolDataFrame kck kek buf temp akm with_fcs = .err EapolSerdeError.BufferTooShort.code := by
  rw [without kck kek buf temp akm with_fcs hfcs]
  generalize withoutFcs buf with_fcs = body at *
  unfold deserializeEapol
  rw [head hh h0]
  simp only [Res.mapErr, Res.ok_bind]
  unfold getFrom
  split
  · simp only [Res.ok_bind]
    obtain ⟨e, he⟩ := pread2_short (p := 0) (b := body.drop (hd.lengthInBytes + 6)) (by rw [List.length_drop]; omega)
    rw [he]
    rfl
  · rfl

variable (x y : Byte) (hx : (withoutFcs buf with_fcs)[hd.lengthInBytes + 6]? = some x)
  (hy : (withoutFcs buf with_fcs)[hd.lengthInBytes + 7]? = some y)
include hx hy

omit [Crc32] in
/-- Another ether type. -/
theorem c56_read_type (hne : (x, y) ≠ (0x88, 0x8e)) :
    deserializeEapolDataFrame kck kek buf temp akm with_fcs = .err EapolSerdeError.EtherTypeNotEapol.code := by
  rw [without kck kek buf temp akm with_fcs hfcs]
  generalize withoutFcs buf with_fcs = body at *
  have hlen : hd.lengthInBytes + 7 < body.length := (List.getElem?_eq_some_iff.1 hy).1
  unfold deserializeEapol
  rw [head hh (by omega)]
  simp only [Res.mapErr, Res.ok_bind]
  rw [getFrom, if_pos (by omega)]
  simp only [Res.ok_bind]
  rw [two hx hy, pread2]
  simp only [Res.ok_bind]
  have : (x ++ y : BitVec 16) ≠ 0x888e#16 := by
    intro h
    apply hne
    have h1 : (x ++ y : BitVec 16) = (0x88#8 ++ 0x8e#8 : BitVec 16) := h
    have hx : x = 0x88#8 := by
      have := congrArg (BitVec.extractLsb' 8 8) h1
      rwa [BitVec.extractLsb'_append_eq_left, BitVec.extractLsb'_append_eq_left] at this
    have hy : y = 0x8e#8 := by
      have := congrArg (BitVec.extractLsb' 0 8) h1
      rwa [BitVec.extractLsb'_append_eq_right, BitVec.extractLsb'_append_eq_right] at this
    rw [hx, hy]
    rfl
  rw [if_pos this]

variable (ex : x = 0x88) (ey : y = 0x8e)
include ex ey

omit [Crc32] in
/-- The key information is cut off: too short, or, without even its start, a panic (violation). -/
theorem c56_read_no_info :
    ((withoutFcs buf with_fcs).length < hd.lengthInBytes + 13 →
      deserializeEapolDataFrame kck kek buf temp akm with_fcs = .panic) ∧
    (hd.lengthInBytes + 13 ≤ (withoutFcs buf with_fcs).length →
      (withoutFcs buf with_fcs).length < hd.lengthInBytes + 15 →
      deserializeEapolDataFrame kck kek buf temp akm with_fcs = .err EapolSerdeError.BufferTooShort.code) := by
  rw [without kck kek buf temp akm with_fcs hfcs]
  generalize withoutFcs buf with_fcs = body at *
  have hlen : hd.lengthInBytes + 7 < body.length := (List.getElem?_eq_some_iff.1 hy).1
  unfold deserializeEapol
  rw [head hh (by omega)]
  simp only [Res.mapErr, Res.ok_bind]
  rw [getFrom, if_pos (by omega)]
  simp only [Res.ok_bind]
  rw [two hx hy, pread2]
  simp only [Res.ok_bind]
  rw [if_neg (by rw [ex, ey]; decide)]
  constructor
  · intro hl
    rw [slice, if_neg (by omega)]
    rfl
  · intro h1 h2
    rw [slice, if_pos (by omega)]
    simp only [Res.ok_bind]
    obtain ⟨e, he⟩ := pread2_short (p := 0)
      (b := (body.drop (hd.lengthInBytes + 8 + 5)).take (body.length - (hd.lengthInBytes + 8 + 5)))
      (by rw [List.length_take]; omega)
    rw [he]
    rfl

variable (b c : Byte) (hb : (withoutFcs buf with_fcs)[hd.lengthInBytes + 13]? = some b)
  (hc : (withoutFcs buf with_fcs)[hd.lengthInBytes + 14]? = some c)
include hb hc

omit [Crc32] in
private theorem reduce : deserializeEapolDataFrame kck kek buf temp akm with_fcs = (do
    let m ← Res.ofOption EapolSerdeError.UnknownAkmSuite.code akm.keyMicLen
    checkStep ⟨b ++ c⟩ kck (withoutFcs buf with_fcs) (hd.lengthInBytes + 8) m
    let buffer ← unwrapStep ⟨b ++ c⟩ kek (withoutFcs buf with_fcs) temp (hd.lengthInBytes + 8) m
    Res.mapErr .KeyFrameDeserializationFailure (pread (readEapolKeyFrame akm) (hd.lengthInBytes + 8) buffer)) := by
  rw [without kck kek buf temp akm with_fcs hfcs]
  generalize withoutFcs buf with_fcs = body at *
  have hlen : hd.lengthInBytes + 14 < body.length := (List.getElem?_eq_some_iff.1 hc).1
  unfold deserializeEapol
  rw [head hh (by omega)]
  simp only [Res.mapErr, Res.ok_bind]
  rw [getFrom, if_pos (by omega)]
  simp only [Res.ok_bind]
  rw [two hx hy, pread2]
  simp only [Res.ok_bind]
  rw [if_neg (by rw [ex, ey]; decide)]
  have hs : slice body (hd.lengthInBytes + 8 + 5) (body.length - (hd.lengthInBytes + 8 + 5)) =
      .ok (b :: c :: body.drop (hd.lengthInBytes + 13 + 2)) := by
    rw [slice, if_pos (by omega), List.take_of_length_le (by simp), show hd.lengthInBytes + 8 + 5 =
      hd.lengthInBytes + 13 from rfl, two hb hc]
  rw [hs]
  simp only [Res.ok_bind]
  rw [pread2]
  rfl

omit [Crc32] in
/-- A suite whose MIC length is not known. -/
theorem c56_read_akm (ha : akm.keyMicLen = none) :
    deserializeEapolDataFrame kck kek buf temp akm with_fcs = .err EapolSerdeError.UnknownAkmSuite.code := by
  rw [reduce kck kek buf temp akm with_fcs hfcs hd n hh x y hx hy ex ey b c hb hc, ha]
  rfl

variable (m : Nat) (hm : akm.keyMicLen = some m)
include hm

omit [Crc32] in
/-- A frame flagged as having a MIC, without the key for it. -/
theorem c56_read_missing_kck (hflag : b.getLsbD 0 = true) (hk : kck = none) :
    deserializeEapolDataFrame kck kek buf temp akm with_fcs = .err EapolSerdeError.MissingKey.code := by
  rw [reduce kck kek buf temp akm with_fcs hfcs hd n hh x y hx hy ex ey b c hb hc, hm, hk]
  have hkm : (⟨b ++ c⟩ : KeyInformation).key_mic = true := by
    show (b ++ c : BitVec 16).getLsbD 8 = true
    rw [BitVec.getLsbD_append]
    simpa using hflag
  simp only [Res.ofOption_some, Res.ok_bind]
  rw [checkStep, if_pos hkm]
  rfl

omit [Crc32] in
/-- A frame flagged as having a MIC that ends before the end of the MIC: too short. -/
theorem c56_read_mic_short (hflag : b.getLsbD 0 = true) (hk : kck.isSome)
    (hl : (withoutFcs buf with_fcs).length < hd.lengthInBytes + 8 + 81 + m) :
    deserializeEapolDataFrame kck kek buf temp akm with_fcs = .err EapolSerdeError.BufferTooShort.code := by
  rw [reduce kck kek buf temp akm with_fcs hfcs hd n hh x y hx hy ex ey b c hb hc, hm]
  obtain ⟨k, rfl⟩ := Option.isSome_iff_exists.1 hk
  have hkm : (⟨b ++ c⟩ : KeyInformation).key_mic = true := by
    show (b ++ c : BitVec 16).getLsbD 8 = true
    rw [BitVec.getLsbD_append]
    simpa using hflag
  simp only [Res.ofOption_some, Res.ok_bind]
  rw [checkStep, if_pos hkm]
  unfold checkMic
  simp only [Res.ofOption_some, Res.ok_bind]
  unfold getRange
  split
  · simp only [Res.ok_bind]
    rw [getFrom, if_neg (by omega)]
    rfl
  · rfl

variable (hl : hd.lengthInBytes + 8 + 81 + m ≤ (withoutFcs buf with_fcs).length)
  (hmic : b.getLsbD 0 = true → m ≤ 20 ∧ ∃ k, kck = some k ∧ MicMatches k (withoutFcs buf with_fcs) (hd.lengthInBytes + 8) m)
include hl hmic

omit [Crc32] in
private theorem past_mic : deserializeEapolDataFrame kck kek buf temp akm with_fcs = (do
    let buffer ← unwrapStep ⟨b ++ c⟩ kek (withoutFcs buf with_fcs) temp (hd.lengthInBytes + 8) m
    Res.mapErr .KeyFrameDeserializationFailure (pread (readEapolKeyFrame akm) (hd.lengthInBytes + 8) buffer)) := by
  rw [reduce kck kek buf temp akm with_fcs hfcs hd n hh x y hx hy ex ey b c hb hc, hm]
  simp only [Res.ofOption_some, Res.ok_bind]
  have hkm : (⟨b ++ c⟩ : KeyInformation).key_mic = b.getLsbD 0 := by
    show (b ++ c : BitVec 16).getLsbD 8 = _
    rw [BitVec.getLsbD_append]
    simp
  have : checkStep ⟨b ++ c⟩ kck (withoutFcs buf with_fcs) (hd.lengthInBytes + 8) m = .ok () := by
    rw [checkStep, hkm]
    split
    · rename_i hf
      obtain ⟨h20, k, rfl, hmm⟩ := hmic hf
      have h8 : 8 * (m / 8) = m := by have := keyMicLen_cases akm m hm; omega
      unfold checkMic
      simp only [Res.ofOption_some, Res.ok_bind]
      rw [getRange, if_pos (by omega), getFrom, if_pos hl]
      simp only [Res.ok_bind]
      rw [slice, if_pos (by omega)]
      simp only [Res.ok_bind]
      rw [if_neg (by omega), h8]
      unfold MicMatches zeroed at hmm
      rw [List.drop_drop, List.drop_drop, show hd.lengthInBytes + 8 + (81 + m) = hd.lengthInBytes + 8 + 81 + m by omega] at hmm
      rw [if_neg (fun h => h hmm.symm)]
      rfl
    · rfl
  rw [this]
  rfl

omit [Crc32] in
/-- A frame that is not flagged as encrypted and does not parse as a key frame. -/
theorem c56_read_key_frame (henc : b.getLsbD 4 = false) (e : Err)
    (hk : readEapolKeyFrame akm ((withoutFcs buf with_fcs).drop (hd.lengthInBytes + 8)) = .err e) :
    deserializeEapolDataFrame kck kek buf temp akm with_fcs = .err EapolSerdeError.KeyFrameDeserializationFailure.code := by
  rw [past_mic kck kek buf temp akm with_fcs hfcs hd n hh x y hx hy ex ey b c hb hc m hm hl hmic]
  have hke : (⟨b ++ c⟩ : KeyInformation).encrypted_key_data = false := by
    show (b ++ c : BitVec 16).getLsbD 12 = false
    rw [BitVec.getLsbD_append]
    simpa using henc
  rw [unwrapStep, hke]
  simp only [Bool.false_eq_true, if_false, Res.ok_bind]
  have : ∃ e, pread (readEapolKeyFrame akm) (hd.lengthInBytes + 8) (withoutFcs buf with_fcs) = .err e := by
    simp only [pread, Rd.gread, hk]
    split
    · exact ⟨_, rfl⟩
    · exact ⟨_, rfl⟩
  obtain ⟨e, he⟩ := this
  rw [he]
  rfl

variable (henc : b.getLsbD 4 = true)
include henc

omit [Crc32] in
private theorem past_flag : deserializeEapolDataFrame kck kek buf temp akm with_fcs = (do
    let buffer ← unwrapKeyData kek (withoutFcs buf with_fcs) temp (hd.lengthInBytes + 8) m
    Res.mapErr .KeyFrameDeserializationFailure (pread (readEapolKeyFrame akm) (hd.lengthInBytes + 8) buffer)) := by
  rw [past_mic kck kek buf temp akm with_fcs hfcs hd n hh x y hx hy ex ey b c hb hc m hm hl hmic]
  have hke : (⟨b ++ c⟩ : KeyInformation).encrypted_key_data = true := by
    show (b ++ c : BitVec 16).getLsbD 12 = true
    rw [BitVec.getLsbD_append]
    simpa using henc
  rw [unwrapStep, if_pos hke]

omit [Crc32] in
/-- A frame flagged as encrypted that ends in the length of the key data: too short. -/
theorem c56_read_no_length (hs : (withoutFcs buf with_fcs).length < hd.lengthInBytes + 8 + 81 + m + 2) :
    deserializeEapolDataFrame kck kek buf temp akm with_fcs = .err EapolSerdeError.BufferTooShort.code := by
  rw [past_flag kck kek buf temp akm with_fcs hfcs hd n hh x y hx hy ex ey b c hb hc m hm hl hmic henc]
  obtain ⟨e, he⟩ := pread2_short hs
  unfold unwrapKeyData
  simp only [he]
  rfl

variable (hi lo : Byte) (hhi : (withoutFcs buf with_fcs)[hd.lengthInBytes + 8 + 81 + m]? = some hi)
  (hlo : (withoutFcs buf with_fcs)[hd.lengthInBytes + 8 + 81 + m + 1]? = some lo) (len : Nat) (hlen : len = 256 * hi.toNat + lo.toNat)
include hhi hlo hlen

omit [Crc32] in
private theorem past_length : deserializeEapolDataFrame kck kek buf temp akm with_fcs = (do
    let buffer ← (do
      let key_data ← slice (withoutFcs buf with_fcs) (hd.lengthInBytes + 8 + 81 + m + 2) len
      let kek ← Res.ofOption EapolSerdeError.MissingKey.code kek
      let plain_length ← Res.sub len 8
      if temp < plain_length then .panic
      else if key_data.length % 8 ≠ 0 ∨ key_data.length < 8 then
        .err EapolSerdeError.TemporaryBufferToShort.code
      else do
        let plain ← Res.ofOption EapolSerdeError.TemporaryBufferToShort.code (AesKw.unwrap kek key_data)
        let (buffer, _) ← Res.unwrap (pwrite (writeBE (BitVec.ofNat 16 plain_length))
          (hd.lengthInBytes + 8 + 81 + m) (withoutFcs buf with_fcs))
        let (buffer, _) ← Res.unwrap (pwrite (writeBytes plain) (hd.lengthInBytes + 8 + 81 + m + 2) buffer)
        let new_buffer_len ← Res.sub buffer.length 8
        let buffer := buffer.take new_buffer_len
        let n ← Res.sub new_buffer_len (hd.lengthInBytes + 8)
        let n ← Res.sub n 4
        let (buffer, _) ← Res.unwrap (pwrite (writeBE (BitVec.ofNat 16 n)) (hd.lengthInBytes + 8 + 2) buffer)
        pure buffer)
    Res.mapErr .KeyFrameDeserializationFailure (pread (readEapolKeyFrame akm) (hd.lengthInBytes + 8) buffer)) := by
  rw [past_flag kck kek buf temp akm with_fcs hfcs hd n hh x y hx hy ex ey b c hb hc m hm hl hmic henc]
  have hp : pread (readBE 16) (hd.lengthInBytes + 8 + 81 + m) (withoutFcs buf with_fcs) = .ok (hi ++ lo) := by
    have h2 := two hhi hlo
    have hlt : hd.lengthInBytes + 8 + 81 + m + 1 < (withoutFcs buf with_fcs).length :=
      (List.getElem?_eq_some_iff.1 hlo).1
    generalize withoutFcs buf with_fcs = body at *
    generalize hd.lengthInBytes + 8 + 81 + m = p at *
    have := preadBE_mid (body.take p) (body.drop (p + 2)) (hi ++ lo : BitVec 16) (p := p)
      (by rw [List.length_take]; omega)
    rw [toBE2, List.cons_append, List.cons_append, List.nil_append, ← h2,
      List.take_append_drop] at this
    exact this
  have hn : (hi ++ lo : BitVec 16).toNat = len := by
    have h1 := hi.isLt
    have h2 := lo.isLt
    rw [BitVec.toNat_append, ← Nat.shiftLeft_add_eq_or_of_lt h2, Nat.shiftLeft_eq]
    omega
  unfold unwrapKeyData
  simp only [hp, Res.mapErr, Res.ok_bind, hn]

omit [Crc32] in
/-- Violation: a key data length beyond the end of the frame makes the receiver panic, although the error for it
is at hand. -/
theorem c56_read_length_panics (hs : (withoutFcs buf with_fcs).length < hd.lengthInBytes + 8 + 81 + m + 2 + len) :
    deserializeEapolDataFrame kck kek buf temp akm with_fcs = .panic := by
  rw [past_length kck kek buf temp akm with_fcs hfcs hd n hh x y hx hy ex ey b c hb hc m hm hl hmic henc
    hi lo hhi hlo len hlen, slice, if_neg (by omega)]
  rfl

variable (hs : hd.lengthInBytes + 8 + 81 + m + 2 + len ≤ (withoutFcs buf with_fcs).length)
include hs

omit [Crc32] in
/-- Encrypted key data, without the key for it. -/
theorem c56_read_missing_kek (hk : kek = none) :
    deserializeEapolDataFrame kck kek buf temp akm with_fcs = .err EapolSerdeError.MissingKey.code := by
  rw [past_length kck kek buf temp akm with_fcs hfcs hd n hh x y hx hy ex ey b c hb hc m hm hl hmic henc
    hi lo hhi hlo len hlen, slice, if_pos (by omega), hk]
  rfl

omit [Crc32] in
/-- Violations: encrypted key data shorter than eight bytes, and a temporary buffer too short for the plain key
data, make the receiver panic. -/
theorem c56_read_panics (hk : kek.isSome) (h8 : len < 8 ∨ temp + 8 < len) : deserializeEapolDataFrame kck kek buf temp akm with_fcs = .panic := by
  rw [past_length kck kek buf temp akm with_fcs hfcs hd n hh x y hx hy ex ey b c hb hc m hm hl hmic henc
    hi lo hhi hlo len hlen, slice, if_pos (by omega)]
  obtain ⟨k, rfl⟩ := Option.isSome_iff_exists.1 hk
  simp only [Res.ok_bind, Res.ofOption_some]
  by_cases h : 8 ≤ len
  · rw [Res.sub, if_pos h]
    simp only [Res.ok_bind]
    rw [if_pos (by omega)]
    rfl
  · rw [Res.sub, if_neg h]
    rfl

omit [Crc32] in
/-- Violation: key data that does not unwrap under the key, because of the wrong key or a changed byte, is
reported as too short a temporary buffer, however long that buffer. -/
theorem c56_read_unwrap_wrong (k : Arr 16) (hk : kek = some k) (h8 : 8 ≤ len) (ht : len ≤ temp + 8)
    (hu : len % 8 ≠ 0 ∨ AesKw.unwrap k (((withoutFcs buf with_fcs).drop (hd.lengthInBytes + 8 + 81 + m + 2)).take len) = none) :
    deserializeEapolDataFrame kck kek buf temp akm with_fcs = .err EapolSerdeError.TemporaryBufferToShort.code := by
  rw [past_length kck kek buf temp akm with_fcs hfcs hd n hh x y hx hy ex ey b c hb hc m hm hl hmic henc
    hi lo hhi hlo len hlen, slice, if_pos (by omega), hk]
  simp only [Res.ok_bind, Res.ofOption_some]
  rw [Res.sub, if_pos h8]
  simp only [Res.ok_bind]
  rw [if_neg (by omega)]
  have hkl : (((withoutFcs buf with_fcs).drop (hd.lengthInBytes + 8 + 81 + m + 2)).take len).length = len := by
    rw [List.length_take, List.length_drop]
    omega
  rw [hkl]
  by_cases hm8 : len % 8 = 0
  · rw [if_neg (by omega)]
    rcases hu with hu | hu
    · exact absurd hm8 hu
    · rw [hu]
      rfl
  · rw [if_pos (by omega)]
    rfl

end

/-! ## Concrete cases -/

omit [ScrollRule] [Crc32] [HmacSha1] [AesKw] in
/-- Violation: the temporary buffer is long enough, the last byte of the wrapped key data is wrong.  Then: no
header, no ether type, another ether type, no key for the MIC, no key for the key data, the end of the frame
missing. -/
theorem c56_unwrap_wrong_witness (s : Bool) :
    letI : ScrollRule := ⟨s⟩
    letI := toyHmac
    letI := toyKw
    let k : Option (Arr 16) := some (Arr.zero 16)
    let wrapped := [0, 16] ++ List.replicate 8 1 ++ List.replicate 8 0xa6
    deserializeEapolDataFrame k k (toyFrame 0x10 (List.replicate 16 0) (wrapped.dropLast ++ [0])) 100 .Psk false
      = .err EapolSerdeError.TemporaryBufferToShort.code ∧
    (deserializeEapolDataFrame k k (toyFrame 0x10 (List.replicate 16 0) wrapped) 100 .Psk false).isOk = true ∧
    deserializeEapolDataFrame k k ((toyFrame 0x10 [] []).take 12) 100 .Psk false
      = .err EapolSerdeError.BufferTooShort.code ∧
    deserializeEapolDataFrame k k ((toyFrame 0x10 [] []).take 30) 100 .Psk false
      = .err EapolSerdeError.BufferTooShort.code ∧
    deserializeEapolDataFrame k k ((toyFrame 0x10 [] []).take 30 ++ [8, 0]) 100 .Psk false
      = .err EapolSerdeError.EtherTypeNotEapol.code ∧
    deserializeEapolDataFrame none k (toyFrame 0x01 (List.replicate 16 0) [0, 0]) 100 .Psk false
      = .err EapolSerdeError.MissingKey.code ∧
    deserializeEapolDataFrame k none (toyFrame 0x10 (List.replicate 16 0) wrapped) 100 .Psk false
      = .err EapolSerdeError.MissingKey.code ∧
    deserializeEapolDataFrame k k (toyFrame 0x00 (List.replicate 16 0) [0, 4, 1]) 100 .Psk false
      = .err EapolSerdeError.KeyFrameDeserializationFailure.code := by
  cases s <;> decide +kernel

end Verif
