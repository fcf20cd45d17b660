import Verif.Props.C31
/-!
# C32: encrypted payload wrapper

Violations: writing panics when the buffer has room for header and payload but not for the MIC
(`c32_write_panics`); parsing panics when the input has a header but is shorter than header and MIC
(`c32_read_panics_iff`); `potentially_wrapped_payload` panics on every protected frame whose payload is not a
well-formed wrapped payload (`c32_payload_panics`, `c32_payload_panics_example`).
-/
namespace Verif

open Spec

variable [ScrollRule]

omit [ScrollRule] in
private theorem extIv_append (b : Arr 8) (rest : Bytes) : extIv (b.val ++ rest) = extIv b.val := by
  have : 3 < b.val.length := by simp
  simp only [extIv, List.getD_eq_getElem?_getD, List.getElem?_append_left this]

private theorem wr_split (c : CryptoWrapper Obj) (bs : Bytes) (need : Nat)
    (h : Emits c.payload.write bs need) (buf : Bytes) :
    ∃ w : Bytes, w = cryptoHeaderWire c.crypto_header.packet_number.toNat c.crypto_header.key_id.toNat ∧
    (8 + max need slack ≤ buf.length → writeCryptoWrapper c buf =
      Wr.run (fun _ _ => fillZeros c.mic_state.micLength
        ((w ++ bs) ++ buf.drop (8 + bs.length)) (w ++ bs).length) buf) ∧
    (buf.length < 8 + max need slack → ∃ e, writeCryptoWrapper c buf = .err e) := by
  have hw := WEmits.gwrite_pos (c31_write_any c.crypto_header).1 (by decide)
  have hb := WEmits.seq (f := fun _ => Wr.gwrite c.payload.write) (hw.cast rfl rfl) (WEmits.gwrite h)
  refine ⟨_, rfl, fun hl => ?_, fun hl => ?_⟩
  · have h8 := hw.ok [] buf (by omega)
    have hp := (WEmits.gwrite h).ok (cryptoHeaderWire c.crypto_header.packet_number.toNat
      c.crypto_header.key_id.toNat) (buf.drop 8) (by simp; omega)
    simp only [List.nil_append, List.length_nil, Nat.zero_add] at h8
    have hlen : (cryptoHeaderWire c.crypto_header.packet_number.toNat
      c.crypto_header.key_id.toNat).length = 8 := rfl
    rw [hlen] at h8
    rw [hlen] at hp
    have : Wr.bind (Wr.gwrite (writeCryptoHeader c.crypto_header)) (fun _ => Wr.bind (Wr.gwrite c.payload.write)
        (fun _ => fillZeros c.mic_state.micLength)) buf 0 = fillZeros c.mic_state.micLength
        ((cryptoHeaderWire c.crypto_header.packet_number.toNat c.crypto_header.key_id.toNat ++ bs) ++
          buf.drop (8 + bs.length)) (8 + bs.length) := by
      simp only [Wr.bind, h8, hp, List.append_assoc, List.drop_drop]
    unfold writeCryptoWrapper Wr.run
    show (match Wr.bind (Wr.gwrite (writeCryptoHeader c.crypto_header)) (fun _ => Wr.bind (Wr.gwrite c.payload.write)
        (fun _ => fillZeros c.mic_state.micLength)) buf 0 with
        | .ok (_, b, o) => Res.ok (b, o) | .err e => .err e | .panic => .panic) = _
    rw [this, List.length_append, hlen]
    rfl
  · have := (WEmits.run hb).err buf (by simpa [cryptoHeaderWire] using hl)
    obtain ⟨e, he⟩ := this
    refine ⟨e, ?_⟩
    unfold Wr.run at he
    have hb' : (Wr.gwrite (writeCryptoHeader c.crypto_header) >>= fun _ => Wr.gwrite c.payload.write) buf 0
        = .err e := by
      revert he
      split <;> simp_all
    unfold writeCryptoWrapper Wr.run
    have : Wr.bind (Wr.gwrite (writeCryptoHeader c.crypto_header)) (fun _ => Wr.bind (Wr.gwrite c.payload.write)
        (fun _ => fillZeros c.mic_state.micLength)) buf 0 = .err e := by
      have hb'' : Wr.bind (Wr.gwrite (writeCryptoHeader c.crypto_header))
        (fun _ => Wr.gwrite c.payload.write) buf 0 = .err e := hb'
      simp only [Wr.bind] at hb'' ⊢
      cases h1 : Wr.gwrite (writeCryptoHeader c.crypto_header) buf 0 with
      | ok x =>
        simp only [h1] at hb'' ⊢
        rw [hb'']
      | err e' => simp only [h1] at hb'' ⊢; exact hb''
      | panic => simp only [h1] at hb''; cases hb''
    show (match Wr.bind (Wr.gwrite (writeCryptoHeader c.crypto_header)) (fun _ => Wr.bind (Wr.gwrite c.payload.write)
        (fun _ => fillZeros c.mic_state.micLength)) buf 0 with
        | .ok (_, b, o) => Res.ok (b, o) | .err e => .err e | .panic => .panic) = _
    rw [this]

/-- Given room for everything, the wrapper is written as header, payload, zeros of the MIC's length, and
the rest of the buffer is left alone.  The full property also wants an error when there is too little room:
see `c32_write_short` and, for the violation, `c32_write_panics`. -/
theorem c32_write_partial (c : CryptoWrapper Obj) (bs : Bytes) (need : Nat)
    (h : Emits c.payload.write bs need) (buf : Bytes) (hn : 8 + max need slack ≤ buf.length)
    (hm : 8 + bs.length + c.mic_state.micLength ≤ buf.length) :
    writeCryptoWrapper c buf = .ok
      (cryptoHeaderWire c.crypto_header.packet_number.toNat c.crypto_header.key_id.toNat ++
        (bs ++ (List.replicate c.mic_state.micLength 0 ++
          buf.drop (8 + bs.length + c.mic_state.micLength))),
       8 + bs.length + c.mic_state.micLength) := by
  obtain ⟨w, hw, h1, _⟩ := wr_split c bs need h buf
  rw [h1 hn, ← hw]
  have hlen : w.length = 8 := by rw [hw]; rfl
  simp only [Wr.run, fillZeros]
  rw [if_pos (by simp [hlen]; omega)]
  have hd : List.drop ((w ++ bs).length + c.mic_state.micLength) (w ++ bs ++ buf.drop (8 + bs.length)) =
      buf.drop (8 + bs.length + c.mic_state.micLength) := by
    rw [← List.drop_drop, List.drop_left, List.drop_drop]
  rw [hd, List.take_left]
  simp only [List.length_append, hlen, List.append_assoc]

/-- Too little room for header or payload is an error. -/
theorem c32_write_short (c : CryptoWrapper Obj) (bs : Bytes) (need : Nat)
    (h : Emits c.payload.write bs need) (buf : Bytes) (hn : buf.length < 8 + need) :
    ∃ e, writeCryptoWrapper c buf = .err e := by
  obtain ⟨w, hw, _, h2⟩ := wr_split c bs need h buf
  exact h2 (by omega)

/-- Room for header and payload but not for the MIC panics. -/
theorem c32_write_panics (c : CryptoWrapper Obj) (bs : Bytes) (need : Nat)
    (h : Emits c.payload.write bs need) (buf : Bytes) (hn : 8 + max need slack ≤ buf.length)
    (hm : buf.length < 8 + bs.length + c.mic_state.micLength) :
    writeCryptoWrapper c buf = .panic := by
  obtain ⟨w, hw, h1, _⟩ := wr_split c bs need h buf
  rw [h1 hn]
  have hlen : w.length = 8 := by rw [hw]; rfl
  have := h.le
  simp only [Wr.run, fillZeros]
  rw [if_neg (by simp [hlen]; omega)]

omit [ScrollRule] in
/-- The size reported is the number of bytes written, when that holds of the payload. -/
theorem c32_measure (c : CryptoWrapper Obj) (bs : Bytes) (h : c.payload.measure = bs.length) :
    measureCryptoWrapper c = 8 + bs.length + c.mic_state.micLength := by
  simp [measureCryptoWrapper, measureCryptoHeader, h]

omit [ScrollRule] in
/-- The sizes in numbers: 8 bytes of header, and a MIC of 0, 8 (CCMP-128) or 16 bytes. -/
theorem c32_sizes (h : CryptoHeader) (p : Obj) :
    measureCryptoWrapper ⟨h, p, .NotPresent⟩ = 8 + p.measure ∧
    measureCryptoWrapper ⟨h, p, .Short⟩ = 16 + p.measure ∧
    measureCryptoWrapper ⟨h, p, .Long⟩ = 24 + p.measure := by
  simp only [measureCryptoWrapper, measureCryptoHeader, MicState.micLength]
  omega

/-- A three byte payload with a short MIC: written into 20 bytes; ten bytes are an error; twelve panic. -/
example (s : Bool) :
    letI : ScrollRule := ⟨s⟩
    let c : CryptoWrapper Obj := ⟨CryptoHeader.default, bytesObj [1, 2, 3], .Short⟩
    writeCryptoWrapper c (List.replicate 20 7) =
      .ok ([0, 0, 0, 0x20, 0, 0, 0, 0, 1, 2, 3, 0, 0, 0, 0, 0, 0, 0, 0, 7], 19) ∧
    (writeCryptoWrapper c (List.replicate 10 7)).isErr = true ∧
    writeCryptoWrapper c (List.replicate 12 7) = .panic := by
  cases s <;> decide

/-- What the parser returns on header, payload and MIC: the header as parsed on its own and whatever the
payload parser makes of exactly the payload bytes, with all input consumed; the MIC's content plays no
role. -/
theorem c32_parse {π : Type} (m : MicState) (r : Reader π) (b : Arr 8) (payload mic : Bytes)
    (hm : mic.length = m.micLength) (h : CryptoHeader)
    (hh : readCryptoHeader b.val = .ok (h, 8)) :
    readCryptoWrapper m r (b.val ++ (payload ++ mic)) =
      (pread r 0 payload).map fun p => (⟨h, p, m⟩, (b.val ++ (payload ++ mic)).length) := by
  have hh' : readCryptoHeader (b.val ++ (payload ++ mic)) = .ok (h, 8) := by
    have h0 := c31_parse b []
    have h1 := c31_parse b (payload ++ mic)
    rw [List.append_nil] at h0
    cases hx : extIv b.val
    · rw [h0.1 hx] at hh; cases hh
    · obtain ⟨a, ea, pa, ka⟩ := h0.2 hx
      obtain ⟨c, ec, pc, kc⟩ := h1.2 hx
      rw [ea] at hh; cases hh
      rw [ec]
      rw [CryptoHeader.ext_views (BitVec.eq_of_toNat_eq (pc.trans pa.symm)) (kc.trans ka.symm)]
  have hs := slack_le
  have hg := RdAt.gread hh' (by simp; omega) []
  simp only [List.nil_append, List.length_nil, Nat.zero_add] at hg
  show Rd.bind _ _ _ _ = _
  simp only [Rd.bind, hg]
  show Rd.bind _ _ _ _ = _
  have hr : Rd.remaining (b.val ++ (payload ++ mic)) 8 = .ok (payload ++ mic, 8) := by
    simp only [Rd.remaining]
    rw [if_pos (by simp)]
    congr 2
    have := List.drop_left (l₁ := b.val) (l₂ := payload ++ mic)
    rwa [b.property] at this
  simp only [Rd.bind, hr]
  show Rd.bind _ _ _ _ = _
  have hn : Res.sub (payload ++ mic).length m.micLength = .ok payload.length := by
    simp [Res.sub, hm]
  simp only [Rd.bind, Rd.lift, hn, Res.bind]
  show Rd.bind _ _ _ _ = _
  simp only [Rd.bind, List.take_left]
  cases pread r 0 payload <;> rfl

/-- Writing and parsing back, the MIC filled in with anything of its length: the payload is returned; the
header is the one written if its key id is zero (see C31). -/
theorem c32_round_trip_partial {π : Type} (c : CryptoHeader) (hk : c.key_id = 0) (m : MicState)
    (r : Reader π) (payload mic : Bytes) (hm : mic.length = m.micLength) (p : π)
    (hp : pread r 0 payload = .ok p) :
    readCryptoWrapper m r
        (cryptoHeaderWire c.packet_number.toNat c.key_id.toNat ++ (payload ++ mic)) =
      .ok (⟨c, p, m⟩, 8 + payload.length + m.micLength) := by
  have hpn : c.packet_number.toNat < 2 ^ 48 := by
    have := leNat_lt c.packetNumber.val
    rw [c.packetNumber.property] at this
    simp only [CryptoHeader.packet_number, fromLE, BitVec.toNat_ofNat]
    have happ : ∀ l : Bytes, leNat (l ++ [0, 0]) = leNat l := by
      intro l
      induction l with
      | nil => rfl
      | cons a l ih => rw [List.cons_append, leNat, leNat, ih]
    rw [happ]
    omega
  obtain ⟨h, e, p1, k1⟩ := c31_key_id_lost c.packet_number c.key_id hpn (by simp [hk]) []
  rw [List.append_nil] at e
  have hc : h = c := CryptoHeader.ext_views p1 (k1.trans hk.symm)
  subst hc
  have := c32_parse m r ⟨cryptoHeaderWire h.packet_number.toNat h.key_id.toNat, rfl⟩ payload mic hm h e
  rw [hp] at this
  refine this.trans ?_
  simp only [Res.map, List.length_append, hm]
  congr 2
  simp [cryptoHeaderWire]; omega

/-- When the parser panics, the payload parser being one that does not: the header is there and accepted,
and what follows is shorter than the MIC. -/
theorem c32_read_panics_iff {π : Type} (m : MicState) (r : Reader π)
    (hr : ∀ b : Bytes, r b ≠ .panic) (inp : Bytes) :
    readCryptoWrapper m r inp = .panic ↔
      8 ≤ inp.length ∧ inp.length < 8 + m.micLength ∧ extIv inp = true := by
  by_cases hl : inp.length < 8
  · obtain ⟨e, he⟩ := (c31_short inp).2 hl
    have : ∃ e, readCryptoWrapper m r inp = .err e :=
      RdErr.run (RdErr.bind_left (RdErr.gread he))
    obtain ⟨e, he⟩ := this
    rw [he]
    simp; omega
  · obtain ⟨b, rest, rfl⟩ := exists_arr 8 (inp := inp) (by omega)
    have hext := extIv_append b rest
    rw [hext]
    cases hx : extIv b.val
    · have : ∃ e, readCryptoWrapper m r (b.val ++ rest) = .err e :=
        RdErr.run (RdErr.bind_left (RdErr.gread ((c31_parse b rest).1 hx)))
      obtain ⟨e, he⟩ := this
      rw [he]; simp
    · obtain ⟨h, e, _⟩ := (c31_parse b []).2 hx
      rw [List.append_nil] at e
      by_cases hm : m.micLength ≤ rest.length
      · have hsplit : rest = rest.take (rest.length - m.micLength) ++
            rest.drop (rest.length - m.micLength) := (List.take_append_drop _ _).symm
        have := c32_parse m r b (rest.take (rest.length - m.micLength))
          (rest.drop (rest.length - m.micLength)) (by simp; omega) h e
        rw [← hsplit] at this
        rw [this]
        constructor
        · intro hp
          exfalso
          have hne : pread r 0 (rest.take (rest.length - m.micLength)) ≠ .panic := by
            unfold pread Rd.gread
            split
            · simp [Res.map]
            · simp only [List.drop_zero]
              have := hr (rest.take (rest.length - m.micLength))
              cases hq : r (rest.take (rest.length - m.micLength)) with
              | ok x => simp [Res.map]
              | err e => simp [Res.map]
              | panic => exact absurd hq this
          cases hq : pread r 0 (rest.take (rest.length - m.micLength)) with
          | ok x => simp [hq, Res.map] at hp
          | err e => simp [hq, Res.map] at hp
          | panic => exact hne hq
        · rintro ⟨_, h2, _⟩
          simp at h2; omega
      · have hpanic : readCryptoWrapper m r (b.val ++ rest) = .panic := by
          have hh' : ∃ h', readCryptoHeader (b.val ++ rest) = .ok (h', 8) := by
            obtain ⟨h', e', _⟩ := (c31_parse b rest).2 hx
            exact ⟨h', e'⟩
          obtain ⟨h', hh'⟩ := hh'
          have hs := slack_le
          have hg := RdAt.gread hh' (by simp; omega) []
          simp only [List.nil_append, List.length_nil, Nat.zero_add] at hg
          show Rd.bind _ _ _ _ = _
          simp only [Rd.bind, hg]
          show Rd.bind _ _ _ _ = _
          have hr : Rd.remaining (b.val ++ rest) 8 = .ok (rest, 8) := by
            simp only [Rd.remaining]
            rw [if_pos (by simp)]
            congr 2
            have := List.drop_left (l₁ := b.val) (l₂ := rest)
            rwa [b.property] at this
          simp only [Rd.bind, hr]
          show Rd.bind _ _ _ _ = _
          have hn : Res.sub rest.length m.micLength = .panic := by
            simp only [Res.sub]; rw [if_neg hm]
          simp only [Rd.bind, Rd.lift, hn, Res.bind]
        rw [hpanic]
        simp; omega

/-- Only a header, expecting a short MIC. -/
example (s : Bool) :
    letI : ScrollRule := ⟨s⟩
    readCryptoWrapper .Short (readBytes 0) [0, 0, 0, 0x20, 0, 0, 0, 0] = .panic := by
  cases s <;> decide

/-! ## Payload access of data frames -/

omit [ScrollRule] in
private theorem payload_total (a : Bool) (b : Bytes) : readDataFramePayload a b ≠ .panic := by
  simp [readDataFramePayload]

/-- Unprotected frames: the payload as it is (none for an empty payload if scroll refuses to read at the
end). -/
theorem c32_unprotected (f : DataFrame Bytes) (ms : Option MicState) (p : Bytes)
    (hp : f.payload = some p) (h : f.header.fcf_flags.protected_ = false) :
    potentiallyWrappedPayload f ms = .ok (if slack ≤ p.length then
      some (.Unwrapped (if f.header.isAmsdu then .AMSDU (.fromBytes p) else .Single p)) else none) := by
  have hpr : pread (readDataFramePayload f.header.isAmsdu) 0 p = if slack ≤ p.length then
      .ok (if f.header.isAmsdu then .AMSDU (.fromBytes p) else .Single p) else .err .badOffset := by
    simp only [pread, Rd.gread, badOff_eq, Nat.zero_add]
    by_cases hs : slack ≤ p.length
    · rw [if_neg (by simp; omega), if_pos hs]
      simp [readDataFramePayload, Res.map]
    · rw [if_pos (by simp; omega), if_neg hs]
      simp [Res.map]
  unfold potentiallyWrappedPayload
  simp only [hp, h, hpr]
  by_cases hs : slack ≤ p.length
  · simp [hs]
  · simp [hs]

/-- No payload, or a protected frame without knowing the MIC's length: nothing. -/
theorem c32_none (f : DataFrame Bytes) (ms : Option MicState)
    (h : f.payload = none ∨ (f.header.fcf_flags.protected_ = true ∧ ms = none)) :
    potentiallyWrappedPayload f ms = .ok none := by
  unfold potentiallyWrappedPayload
  rcases h with h | ⟨h1, h2⟩
  · simp [h]
  · cases hp : f.payload <;> simp [h1, h2]

/-- Protected frames whose payload is header, content, MIC: header and content. -/
theorem c32_protected (f : DataFrame Bytes) (m : MicState) (b : Arr 8) (content mic : Bytes)
    (hp : f.payload = some (b.val ++ (content ++ mic))) (h : f.header.fcf_flags.protected_ = true)
    (hm : mic.length = m.micLength) (c : CryptoHeader) (hc : readCryptoHeader b.val = .ok (c, 8))
    (hs : slack ≤ content.length) :
    potentiallyWrappedPayload f (some m) = .ok (some (.CryptoWrapped
      ⟨c, if f.header.isAmsdu then .AMSDU (.fromBytes content) else .Single content, m⟩)) := by
  have hsl := slack_le
  have hin : pread (readDataFramePayload f.header.isAmsdu) 0 content =
      .ok (if f.header.isAmsdu then .AMSDU (.fromBytes content) else .Single content) := by
    simp only [pread, Rd.gread, badOff_eq, Nat.zero_add]
    rw [if_neg (by simp; omega)]
    simp [readDataFramePayload, Res.map]
  have hw := c32_parse m (readDataFramePayload f.header.isAmsdu) b content mic hm c hc
  rw [hin] at hw
  unfold potentiallyWrappedPayload
  simp only [hp, h, if_true, pread, Rd.gread, badOff_eq, Nat.zero_add]
  rw [if_neg (by simp; omega)]
  simp only [List.drop_zero, hw, Res.map]
  simp

/-- Protected frames panic when the payload is too short for header and MIC, or lacks the extended IV
bit, or has no content and scroll refuses to read at the end; together with `c32_protected` this covers
all cases. -/
theorem c32_payload_panics (f : DataFrame Bytes) (m : MicState) (p : Bytes)
    (hp : f.payload = some p) (h : f.header.fcf_flags.protected_ = true)
    (hbad : p.length < 8 + slack + m.micLength ∨ extIv p = false) :
    potentiallyWrappedPayload f (some m) = .panic := by
  have hsl := slack_le
  have key : ∀ x, pread (readCryptoWrapper m (readDataFramePayload f.header.isAmsdu)) 0 p ≠ .ok x := by
    intro x hx
    simp only [pread, Rd.gread, badOff_eq, Nat.zero_add, List.drop_zero] at hx
    split at hx
    · simp [Res.map] at hx
    · by_cases hl : p.length < 8
      · obtain ⟨e, he⟩ := (c31_short p).2 hl
        obtain ⟨e, he⟩ := RdErr.run (p := do
          let crypto_header ← Rd.gread readCryptoHeader
          let rest ← Rd.remaining
          let n ← Rd.lift (Res.sub rest.length m.micLength)
          let payload ← Rd.lift (pread (readDataFramePayload f.header.isAmsdu) 0 (rest.take n))
          Rd.toEnd
          pure (CryptoWrapper.mk crypto_header payload m)) (inp := p) (RdErr.bind_left (RdErr.gread he))
        have he' : readCryptoWrapper m (readDataFramePayload f.header.isAmsdu) p = .err e := he
        rw [he'] at hx
        simp [Res.map] at hx
      · obtain ⟨b, rest, rfl⟩ := exists_arr 8 (inp := p) (by omega)
        have hext := extIv_append b rest
        rw [hext] at hbad
        cases hxx : extIv b.val
        · obtain ⟨e, he⟩ := RdErr.run (p := do
            let crypto_header ← Rd.gread readCryptoHeader
            let rest ← Rd.remaining
            let n ← Rd.lift (Res.sub rest.length m.micLength)
            let payload ← Rd.lift (pread (readDataFramePayload f.header.isAmsdu) 0 (rest.take n))
            Rd.toEnd
            pure (CryptoWrapper.mk crypto_header payload m)) (inp := b.val ++ rest)
            (RdErr.bind_left (RdErr.gread ((c31_parse b rest).1 hxx)))
          have he' : readCryptoWrapper m (readDataFramePayload f.header.isAmsdu) (b.val ++ rest) = .err e := he
          rw [he'] at hx
          simp [Res.map] at hx
        · simp only [hxx, Bool.true_eq_false, or_false, List.length_append, b.property] at hbad
          by_cases hm : rest.length < m.micLength
          · have := (c32_read_panics_iff m (readDataFramePayload f.header.isAmsdu) (payload_total _)
              (b.val ++ rest)).2 ⟨by simp, by simp; omega, by rw [hext]; exact hxx⟩
            rw [this] at hx
            simp [Res.map] at hx
          · obtain ⟨c, e, _⟩ := (c31_parse b []).2 hxx
            rw [List.append_nil] at e
            have hsplit : rest = rest.take (rest.length - m.micLength) ++
                rest.drop (rest.length - m.micLength) := (List.take_append_drop _ _).symm
            have := c32_parse m (readDataFramePayload f.header.isAmsdu) b
              (rest.take (rest.length - m.micLength))
              (rest.drop (rest.length - m.micLength)) (by simp; omega) c e
            rw [← hsplit] at this
            have hbad' : pread (readDataFramePayload f.header.isAmsdu) 0
                (rest.take (rest.length - m.micLength)) = .err .badOffset := by
              simp only [pread, Rd.gread, badOff_eq, Nat.zero_add]
              rw [if_pos (by simp; omega)]
              rfl
            rw [hbad'] at this
            rw [this] at hx
            simp [Res.map] at hx
  unfold potentiallyWrappedPayload
  simp only [hp, h, if_true]
  cases hq : pread (readCryptoWrapper m (readDataFramePayload f.header.isAmsdu)) 0 p with
  | ok x => exact absurd hq (key x)
  | err e => simp
  | panic => simp

private def exampleHeader : DataFrameHeader :=
  { subtype := .Data, fcf_flags := ⟨0x40⟩, duration := 0, address_1 := Arr.zero 6,
    address_2 := Arr.zero 6, address_3 := Arr.zero 6, sequence_control := ⟨0⟩, address_4 := none,
    qos := none, ht_control := none }

omit [ScrollRule] in
/-- A received protected data frame with a three byte payload is enough. -/
theorem c32_payload_panics_example (s : Bool) :
    letI : ScrollRule := ⟨s⟩
    potentiallyWrappedPayload ⟨exampleHeader, some [1, 2, 3]⟩ (some .NotPresent) = .panic := by
  cases s <;> decide

/-- A protected frame of the kind `c32_protected` is about. -/
example (s : Bool) :
    letI : ScrollRule := ⟨s⟩
    potentiallyWrappedPayload ⟨exampleHeader, some [5, 0, 0, 0x20, 0, 0, 0, 0, 42, 1, 1, 1, 1, 1, 1, 1, 1]⟩
      (some .Short) = .ok (some (.CryptoWrapped ⟨⟨⟨[5, 0, 0, 0, 0, 0], rfl⟩, 0⟩, .Single [42], .Short⟩)) := by
  cases s <;> decide

omit [ScrollRule] in
/-- `crypto_wrap` sets the protected flag, changes nothing else of the header and keeps the payload. -/
theorem c32_wrap {π : Type} (f : DataFrame π) (c : CryptoHeader) (m : MicState) :
    (cryptoWrap f c m).header.fcf_flags.protected_ = true ∧
    (∀ i < 8, i ≠ 6 → (cryptoWrap f c m).header.fcf_flags.bits.getLsbD i =
      f.header.fcf_flags.bits.getLsbD i) ∧
    { (cryptoWrap f c m).header with fcf_flags := f.header.fcf_flags } = f.header ∧
    (cryptoWrap f c m).payload = f.payload.map fun p => ⟨c, p, m⟩ := by
  refine ⟨?_, ?_, rfl, rfl⟩
  · simp only [cryptoWrap]
    exact getBit_setBit_same _ _ _ (by decide)
  · intro i hi hne
    simp only [cryptoWrap, FCFFlags.with_protected_]
    exact getBit_setBit_other _ _ _ _ (by decide) (Ne.symm hne)

end Verif
