import Verif.Props.C30
import Verif.Props.C32
import Verif.Props.C65
import Verif.Props.C28
import Verif.Props.C29
/-!
# C68: aggregated and encrypted data frames arrive as they were sent

The whole way is followed: subframes or a payload are put into a frame, which is encrypted or not and
written with or without a check sequence; the bytes are handed to `match_frames!`, and the payload is taken
from the frame in the arm.
-/
namespace Verif

namespace Spec

/-- Into every buffer of at least `size` bytes, `w` writes some string of at most `size` bytes with the
property `P`, leaves the rest alone and returns the length. -/
def Writes (w : Writer) (P : Bytes → Prop) (size : Nat) : Prop :=
  ∀ buf : Bytes, size ≤ buf.length → ∃ bs, P bs ∧ bs.length ≤ size ∧
    w buf = .ok (bs ++ buf.drop bs.length, bs.length)

/-- A sequence of subframes as something to write. -/
def amsduPayload [ScrollRule] (ss : List (AMSDUSubframe Bytes)) : Obj :=
  ⟨writeAmsdu (ss.map toWrite), measureAmsdu (ss.map toWrite)⟩

/-- An encrypted frame with its payload as something to write. -/
def wrappedFrame [ScrollRule] (f : DataFrame Obj) (c : CryptoHeader) (m : MicState) : DataFrame Obj :=
  ⟨(cryptoWrap f c m).header, (cryptoWrap f c m).payload.map cryptoWrapperObj⟩

/-- The arms before this one are for control and management frames. -/
def BeforeData [ScrollRule] {α : Type} (pre : List (FrameKind × (Bool → Reader α))) : Prop :=
  ∀ a ∈ pre, a.1 = controlFrameKind ∨ ∃ k : MgmtKind, a.1 = k.frame

end Spec

open Spec

variable [ScrollRule] [Crc32]

omit [ScrollRule] [Crc32] in
theorem Emits.writes {w : Writer} {bs : Bytes} {n : Nat} (h : Emits w bs n) : Writes w (· = bs) n :=
  fun buf hb => ⟨bs, rfl, h.le, h.ok buf hb⟩

omit [Crc32] in
/-- Subframes are such a string. -/
theorem amsdu_writes (ss : List (AMSDUSubframe Bytes)) :
    Writes (amsduPayload ss).write (SubframesOf ss) (paddedSize ss) := by
  intro buf hb
  obtain ⟨bs, h1, h2, h3⟩ := c30_write ss buf hb
  exact ⟨bs, h1, Nat.le_of_eq h2, h3⟩

omit [Crc32] in
/-- After a prefix of fixed contents, only what the next writer does with the rest of the buffer matters. -/
private theorem prefix_congr {p : Wr Unit} {bs : Bytes} {need : Nat} (hp : WEmits p () bs need) (w w' : Writer)
    (rest : Wr Unit) (buf : Bytes) (hb : need ≤ buf.length)
    (hw : w (buf.drop bs.length) = w' (buf.drop bs.length)) :
    Wr.run (p >>= fun _ => Wr.gwrite w >>= fun _ => rest) buf =
      Wr.run (p >>= fun _ => Wr.gwrite w' >>= fun _ => rest) buf := by
  have h := hp.ok [] buf hb
  simp only [List.nil_append, List.length_nil, Nat.zero_add] at h
  have hg : Wr.gwrite w (bs ++ buf.drop bs.length) bs.length =
      Wr.gwrite w' (bs ++ buf.drop bs.length) bs.length := by
    simp only [Wr.gwrite, List.drop_left, hw]
  have : (p >>= fun _ => Wr.gwrite w >>= fun _ => rest) buf 0 =
      (p >>= fun _ => Wr.gwrite w' >>= fun _ => rest) buf 0 := by
    show Wr.bind p _ _ _ = Wr.bind p _ _ _
    simp only [Wr.bind, h]
    show Wr.bind (Wr.gwrite w) _ _ _ = Wr.bind (Wr.gwrite w') _ _ _
    simp only [Wr.bind, hg]
  simp only [Wr.run, this]

omit [Crc32] in
/-- Encrypting. -/
theorem wrapper_writes (c : CryptoHeader) (m : MicState) (o : Obj) (P : Bytes → Prop) (size : Nat)
    (ho : Writes o.write P size) :
    Writes (writeCryptoWrapper ⟨c, o, m⟩) (fun bs => ∃ content, P content ∧
      bs = cryptoHeaderWire c.packet_number.toNat c.key_id.toNat ++
        (content ++ List.replicate m.micLength 0)) (8 + max size slack + m.micLength) := by
  intro buf hb
  obtain ⟨bs, h1, h2, h3⟩ := ho (buf.drop 8) (by simp; omega)
  have hc : writeCryptoWrapper ⟨c, o, m⟩ buf = writeCryptoWrapper ⟨c, bytesObj bs, m⟩ buf := by
    refine prefix_congr (WEmits.gwrite_pos (c31_write_any c).1 (by decide)) o.write (writeBytes bs)
      (fillZeros m.micLength) buf (by omega) ?_
    have : (cryptoHeaderWire c.packet_number.toNat c.key_id.toNat).length = 8 := rfl
    rw [this, h3]
    exact ((Emits.bytes bs).ok _ (by simp; omega)).symm
  have hw := c32_write_partial ⟨c, bytesObj bs, m⟩ bs bs.length (Emits.bytes bs) buf
    (by omega) (by show 8 + bs.length + m.micLength ≤ _; omega)
  have h8 : (cryptoHeaderWire c.packet_number.toNat c.key_id.toNat).length = 8 := rfl
  refine ⟨_, ⟨bs, h1, rfl⟩, ?_, ?_⟩
  · simp only [List.length_append, h8, List.length_replicate]; omega
  · rw [hc, hw]
    simp only [List.append_assoc, List.length_append, h8, List.length_replicate]
    congr 2
    · congr 4; omega
    · omega

/-- Putting into a frame. -/
theorem frame_writes (h : DataFrameHeader) (hv : ValidData h) (o : Obj) (P : Bytes → Prop) (size : Nat)
    (ho : Writes o.write P size) (fcs : Bool) :
    Writes (writeDataFrame ⟨h, some o⟩ fcs) (fun bs => ∃ content, P content ∧
      bs = withFcs fcs (dataFrameWire h content))
      (2 + (dataHeaderWire h).length + max size slack + if fcs then 4 else 0) := by
  intro buf hb
  have hf : (frameStart (.Data h.subtype) h.fcf_flags).length = 2 := rfl
  obtain ⟨bs, h1, h2, h3⟩ := ho (buf.drop (2 + (dataHeaderWire h).length)) (by
    simp only [List.length_drop]; omega)
  have hc : writeDataFrame ⟨h, some o⟩ fcs buf = writeDataFrame ⟨h, some (bytesObj bs)⟩ fcs buf := by
    obtain ⟨f, hf', hb', _, _⟩ := fcf_written (.Data h.subtype) hv h.fcf_flags
    have hp : WEmits (do
        let fcf ← Wr.lift (FrameControlField.withFrameType ⟨0⟩ (.Data h.subtype))
        Wr.gwrite (writeLE (fcf.withFcfFlags h.fcf_flags).bits)
        Wr.gwrite (writeDataHeader h) : Wr Unit) ()
        (frameStart (.Data h.subtype) h.fcf_flags ++ dataHeaderWire h)
        (2 + (dataHeaderWire h).length) := by
      apply WEmits.cast
      · apply WEmits.lift_bind hf'
        apply WEmits.leI (hp := by decide)
        exact WEmits.gwrite_pos (c27_write h) (by simp [dataHeaderWire]; omega)
      · simp [hb']
      · simp
    have := prefix_congr hp o.write (writeBytes bs) (if fcs then attachFcs else pure ()) buf (by omega) (by
      rw [List.length_append, hf, h3]
      exact ((Emits.bytes bs).ok _ (by simp only [List.length_drop]; omega)).symm)
    simp only [Wr.bind_assoc] at this
    exact this
  have hw := (c49_write ⟨h, some (bytesObj bs)⟩ hv bs _ ⟨_, Emits.bytes bs, rfl⟩ fcs).ok buf (by
    dsimp only [dataFrameWire]
    simp only [List.length_append, hf]
    cases fcs <;> simp at hb ⊢ <;> omega)
  refine ⟨_, ⟨bs, h1, rfl⟩, ?_, hc.trans hw⟩
  cases fcs <;> simp [withFcs, dataFrameWire, hf] at hb ⊢ <;> omega

/-- The frame reaches the arm, with some contents that satisfy `P` as its payload. -/
theorem frame_arrives {α : Type} (h : DataFrameHeader) (hv : ValidData h) (hc : HeaderConsistent h)
    (hs : payloadSubtype h.subtype) (o : Obj) (P : Bytes → Prop) (size : Nat) (ho : Writes o.write P size)
    (fcs : Bool) (block : DataFrame Bytes → α) (pre post : List (FrameKind × (Bool → Reader α)))
    (hpre : BeforeData pre) (buf : Bytes)
    (hb : (2 + (dataHeaderWire h).length + max size slack + if fcs then 4 else 0) ≤ buf.length) :
    ∃ out n content, writeDataFrame ⟨h, some o⟩ fcs buf = .ok (out, n) ∧ P content ∧
      matchFrames (out.take n) (if fcs then some true else none)
        (pre ++ armOf dataFrameKind readDataFrame block :: post) =
          .ok (pre.length, block ⟨h, some content⟩) := by
  obtain ⟨bs, ⟨content, hp, rfl⟩, _, hw⟩ := frame_writes h hv o P size ho fcs buf hb
  refine ⟨_, _, content, hw, hp, ?_⟩
  obtain ⟨h1, h2⟩ := c65_data ⟨h, some content⟩ hv hc ⟨fun _ => hs, fun _ => rfl⟩ block pre post hpre
  rw [List.take_left]
  cases fcs
  · exact h1
  · exact h2 true

omit [ScrollRule] [Crc32] in
private theorem subframes_length {ss : List (AMSDUSubframe Bytes)} {bs : Bytes} (h : SubframesOf ss bs)
    (hne : ss ≠ []) : 1 ≤ bs.length := by
  cases h with
  | nil => exact absurd rfl hne
  | cons pad hp h =>
    simp only [List.length_append, subframeBody_length]
    omega

omit [ScrollRule] [Crc32] in
private theorem subframes_nil {bs : Bytes} (h : SubframesOf [] bs) : bs = [] := by
  cases h; rfl

omit [Crc32] in
private theorem subframes_slack {ss : List (AMSDUSubframe Bytes)} {bs : Bytes} (h : SubframesOf ss bs)
    (hne : ss = [] → slack = 0) : slack ≤ bs.length := by
  have hsl := slack_le
  cases ss with
  | nil => rw [hne rfl]; exact Nat.zero_le _
  | cons s ss =>
    have := subframes_length h (by simp)
    omega

/-- An aggregate that is sent in an unprotected frame arrives: the arm for data frames gets the frame, and
iterating over its payload gives the subframes.  Partial: the header must agree with its flags and subtype
(C27), payloads must fit the length field (C30), and under the strict offset rule of scroll there must be a
subframe. -/
theorem c68_amsdu_partial {α : Type} (h : DataFrameHeader) (hv : ValidData h) (hc : HeaderConsistent h)
    (ha : CarriesAmsdu h) (hu : h.fcf_flags.protected_ = false) (ss : List (AMSDUSubframe Bytes))
    (hf : ∀ s ∈ ss, PayloadFits s) (hne : ss = [] → slack = 0) (fcs : Bool) (mic : Option MicState)
    (block : DataFrame Bytes → α) (pre post : List (FrameKind × (Bool → Reader α)))
    (hpre : BeforeData pre) (buf : Bytes)
    (hb : (2 + (dataHeaderWire h).length + max (paddedSize ss) slack + if fcs then 4 else 0) ≤ buf.length) :
    ∃ out n f, writeDataFrame ⟨h, some (amsduPayload ss)⟩ fcs buf = .ok (out, n) ∧
      matchFrames (out.take n) (if fcs then some true else none)
        (pre ++ armOf dataFrameKind readDataFrame block :: post) = .ok (pre.length, block f) ∧
      f.header = h ∧ ∃ it, potentiallyWrappedPayload f mic = .ok (some (.Unwrapped (.AMSDU it))) ∧
        ∀ fuel, ss.length < fuel → it.collect fuel = .ok ss := by
  have hpay : payloadSubtype h.subtype := (c27_subtypes h.subtype hv).2.1 ha.1
  obtain ⟨out, n, content, hw, hp, hm⟩ := frame_arrives h hv hc hpay (amsduPayload ss) _ _ (amsdu_writes ss)
    fcs block pre post hpre buf hb
  refine ⟨out, n, _, hw, hm, rfl, .fromBytes content, ?_, fun fuel hfuel => c30_iterate ss content hp hf fuel hfuel⟩
  rw [c32_unprotected ⟨h, some content⟩ mic content rfl hu, if_pos (subframes_slack hp hne),
    if_pos ((c28_amsdu h).2 ha)]

omit [Crc32] in
/-- Reading back the header of an encrypted payload, whatever the key id was. -/
private theorem read_header (c : CryptoHeader) :
    ∃ c', readCryptoHeader (cryptoHeaderWire c.packet_number.toNat c.key_id.toNat) = .ok (c', 8) ∧
      c'.packet_number = c.packet_number ∧ c'.key_id = 0 := by
  have hx : extIv (cryptoHeaderWire c.packet_number.toNat c.key_id.toNat) = true := by
    simp only [extIv, cryptoHeaderWire, List.getD_cons_zero, List.getD_cons_succ, BitVec.toNat_ofNat]
    simp; omega
  have hp : c.packet_number.toNat < 2 ^ 48 := by
    obtain ⟨⟨l, hl⟩, k⟩ := c
    match l, hl with
    | [b0, b1, b4, b5, b6, b7], _ =>
      have h0 := b0.isLt; have h1 := b1.isLt; have h4 := b4.isLt
      have h5 := b5.isLt; have h6 := b6.isLt; have h7 := b7.isLt
      simp only [CryptoHeader.packet_number, fromLE, BitVec.toNat_ofNat, List.cons_append, List.nil_append,
        leNat]
      simp
      omega
  obtain ⟨h, e, h1, h2⟩ := (c31_parse ⟨cryptoHeaderWire c.packet_number.toNat c.key_id.toNat, rfl⟩ []).2 hx
  rw [List.append_nil] at e
  refine ⟨h, e, ?_, ?_⟩
  · apply BitVec.eq_of_toNat_eq
    rw [h1]
    simp only [packetNumberOf, cryptoHeaderWire, List.getD_cons_zero, List.getD_cons_succ,
      BitVec.toNat_ofNat]
    omega
  · rw [h2]
    simp only [cryptoHeaderWire, List.getD_cons_zero, List.getD_cons_succ]
    have : ∀ k : BitVec 8, (BitVec.ofNat 8 (64 * k.toNat + 32) <<< 6) = 0#8 := by decide +kernel
    exact this _

omit [ScrollRule] [Crc32] in
/-- Encrypting keeps a header proper. -/
private theorem wrap_header (f : DataFrame Obj) (c : CryptoHeader) (m : MicState) (hc : HeaderConsistent f.header) :
    HeaderConsistent (cryptoWrap f c m).header ∧ (cryptoWrap f c m).header.fcf_flags.protected_ = true := by
  obtain ⟨h1, h2, h3, _⟩ := c32_wrap f c m
  refine ⟨⟨?_, hc.qos, ?_⟩, h1⟩
  · have ht : (cryptoWrap f c m).header.fcf_flags.to_ds = f.header.fcf_flags.to_ds := h2 0 (by decide) (by decide)
    have hf : (cryptoWrap f c m).header.fcf_flags.from_ds = f.header.fcf_flags.from_ds :=
      h2 1 (by decide) (by decide)
    rw [ht, hf]
    exact hc.address_4
  · have ho : (cryptoWrap f c m).header.fcf_flags.order = f.header.fcf_flags.order := h2 7 (by decide) (by decide)
    rw [ho]
    exact hc.ht_control

/-- The common part: an encrypted frame arrives, and what is in it is found. -/
private theorem protected_arrives {α : Type} (f : DataFrame Obj) (o : Obj) (hfo : f.payload = some o)
    (hv : ValidData f.header) (hc : HeaderConsistent f.header) (hs : payloadSubtype f.header.subtype)
    (c : CryptoHeader) (m : MicState) (P : Bytes → Prop) (size : Nat) (ho : Writes o.write P size)
    (hne : ∀ bs, P bs → slack ≤ bs.length) (fcs : Bool) (block : DataFrame Bytes → α)
    (pre post : List (FrameKind × (Bool → Reader α))) (hpre : BeforeData pre) (buf : Bytes)
    (hb : (2 + (dataHeaderWire f.header).length + (8 + max size slack + m.micLength) + if fcs then 4 else 0) ≤
      buf.length) :
    ∃ out n r content c', writeDataFrame (wrappedFrame f c m) fcs buf = .ok (out, n) ∧
      matchFrames (out.take n) (if fcs then some true else none)
        (pre ++ armOf dataFrameKind readDataFrame block :: post) = .ok (pre.length, block r) ∧
      r.header = (cryptoWrap f c m).header ∧ P content ∧
      potentiallyWrappedPayload r (some m) = .ok (some (.CryptoWrapped
        ⟨c', if f.header.isAmsdu then .AMSDU (.fromBytes content) else .Single content, m⟩)) ∧
      c'.packet_number = c.packet_number ∧ c'.key_id = 0 := by
  obtain ⟨hc', hprot⟩ := wrap_header f c m hc
  have hsl := slack_le
  obtain ⟨out, n, wrapped, hw, ⟨content, hp, rfl⟩, hm⟩ := frame_arrives (cryptoWrap f c m).header hv hc' hs
    (cryptoWrapperObj ⟨c, o, m⟩) _ _ (wrapper_writes c m o P size ho) fcs block pre post hpre buf (by
      have : (dataHeaderWire (cryptoWrap f c m).header).length = (dataHeaderWire f.header).length := rfl
      rw [this]; omega)
  obtain ⟨c', h1, h2, h3⟩ := read_header c
  refine ⟨out, n, _, content, c', ?_, hm, rfl, hp, ?_, h2, h3⟩
  · rw [← hw, wrappedFrame, (c32_wrap f c m).2.2.2, hfo]
    rfl
  · exact c32_protected ⟨(cryptoWrap f c m).header, _⟩ m
      ⟨cryptoHeaderWire c.packet_number.toNat c.key_id.toNat, rfl⟩ content (List.replicate m.micLength 0) rfl
      hprot (by simp) c' h1 (hne _ hp)

/-- A payload that is sent in an encrypted frame arrives, with the packet number; the header is the one sent
with the protected flag.  (Encryption itself is done by the hardware or the caller: the contents are
written as they are, before the place of the MIC.)  Partial: the header must agree with its flags and
subtype, the payload must not be empty under the strict offset rule, and the key id arrives only if it is
zero. -/
theorem c68_protected_partial {α : Type} (f : DataFrame Obj) (o : Obj) (hfo : f.payload = some o)
    (hv : ValidData f.header) (hc : HeaderConsistent f.header) (hs : payloadSubtype f.header.subtype)
    (ha : ¬ CarriesAmsdu f.header) (c : CryptoHeader) (m : MicState) (bs : Bytes) (k : Nat)
    (ho : Emits o.write bs k) (hne : bs = [] → slack = 0) (fcs : Bool) (block : DataFrame Bytes → α)
    (pre post : List (FrameKind × (Bool → Reader α))) (hpre : BeforeData pre) (buf : Bytes)
    (hb : (2 + (dataHeaderWire f.header).length + (8 + max k slack + m.micLength) + if fcs then 4 else 0) ≤
      buf.length) :
    ∃ out n r c', writeDataFrame (wrappedFrame f c m) fcs buf = .ok (out, n) ∧
      matchFrames (out.take n) (if fcs then some true else none)
        (pre ++ armOf dataFrameKind readDataFrame block :: post) = .ok (pre.length, block r) ∧
      r.header = { f.header with fcf_flags := f.header.fcf_flags.with_protected_ true } ∧
      potentiallyWrappedPayload r (some m) = .ok (some (.CryptoWrapped ⟨c', .Single bs, m⟩)) ∧
      c'.packet_number = c.packet_number ∧ (c'.key_id = c.key_id ↔ c.key_id = 0) ∧ c'.key_id = 0 := by
  have hsl := slack_le
  obtain ⟨out, n, r, content, c', h1, h2, h3, rfl, h4, h5, h6⟩ := protected_arrives f o hfo hv hc hs c m _ k
    ho.writes (by
      intro b hb'
      rw [hb']
      cases bs with
      | nil => rw [hne rfl]; exact Nat.zero_le _
      | cons x l => simp; omega) fcs block pre post hpre buf hb
  rw [if_neg (by rw [c28_amsdu]; exact ha)] at h4
  exact ⟨out, n, r, c', h1, h2, h3, h4, h5, by rw [h6]; exact eq_comm, h6⟩

/-- The same for an aggregate. -/
theorem c68_protected_amsdu_partial {α : Type} (h : DataFrameHeader) (hv : ValidData h) (hc : HeaderConsistent h)
    (ha : CarriesAmsdu h) (ss : List (AMSDUSubframe Bytes)) (hf : ∀ s ∈ ss, PayloadFits s)
    (hne : ss = [] → slack = 0) (c : CryptoHeader) (m : MicState) (fcs : Bool) (block : DataFrame Bytes → α)
    (pre post : List (FrameKind × (Bool → Reader α))) (hpre : BeforeData pre) (buf : Bytes)
    (hb : (2 + (dataHeaderWire h).length + (8 + max (paddedSize ss) slack + m.micLength) +
      if fcs then 4 else 0) ≤ buf.length) :
    ∃ out n r c' it, writeDataFrame (wrappedFrame ⟨h, some (amsduPayload ss)⟩ c m) fcs buf = .ok (out, n) ∧
      matchFrames (out.take n) (if fcs then some true else none)
        (pre ++ armOf dataFrameKind readDataFrame block :: post) = .ok (pre.length, block r) ∧
      r.header = { h with fcf_flags := h.fcf_flags.with_protected_ true } ∧
      potentiallyWrappedPayload r (some m) = .ok (some (.CryptoWrapped ⟨c', .AMSDU it, m⟩)) ∧
      (∀ fuel, ss.length < fuel → it.collect fuel = .ok ss) ∧
      c'.packet_number = c.packet_number ∧ (c'.key_id = c.key_id ↔ c.key_id = 0) ∧ c'.key_id = 0 := by
  have hpay : payloadSubtype h.subtype := (c27_subtypes h.subtype hv).2.1 ha.1
  obtain ⟨out, n, r, content, c', h1, h2, h3, hp, h4, h5, h6⟩ :=
    protected_arrives ⟨h, some (amsduPayload ss)⟩ _ rfl hv hc hpay c m _ _ (amsdu_writes ss)
      (fun bs hbs => subframes_slack hbs hne) fcs block pre post hpre buf hb
  rw [if_pos ((c28_amsdu h).2 ha)] at h4
  exact ⟨out, n, r, c', .fromBytes content, h1, h2, h3, h4,
    fun fuel hfuel => c30_iterate ss content hp hf fuel hfuel, h5, by rw [h6]; exact eq_comm, h6⟩

/-- Violation: under the strict offset rule of scroll an encrypted frame with nothing in it arrives, and
asking for its payload panics. -/
theorem c68_empty_panics (hsl : slack = 1) {α : Type} (f : DataFrame Obj) (o : Obj) (hfo : f.payload = some o)
    (hv : ValidData f.header) (hc : HeaderConsistent f.header) (hs : payloadSubtype f.header.subtype)
    (c : CryptoHeader) (m : MicState) (k : Nat) (ho : Emits o.write [] k) (fcs : Bool)
    (block : DataFrame Bytes → α) (pre post : List (FrameKind × (Bool → Reader α))) (hpre : BeforeData pre)
    (buf : Bytes)
    (hb : (2 + (dataHeaderWire f.header).length + (8 + max k slack + m.micLength) + if fcs then 4 else 0) ≤
      buf.length) :
    ∃ out n r, writeDataFrame (wrappedFrame f c m) fcs buf = .ok (out, n) ∧
      matchFrames (out.take n) (if fcs then some true else none)
        (pre ++ armOf dataFrameKind readDataFrame block :: post) = .ok (pre.length, block r) ∧
      potentiallyWrappedPayload r (some m) = .panic := by
  obtain ⟨hc', hprot⟩ := wrap_header f c m hc
  obtain ⟨out, n, wrapped, hw, ⟨content, rfl, rfl⟩, hm⟩ := frame_arrives (cryptoWrap f c m).header hv hc' hs
    (cryptoWrapperObj ⟨c, o, m⟩) _ _ (wrapper_writes c m o _ k ho.writes) fcs block pre post hpre buf (by
      have : (dataHeaderWire (cryptoWrap f c m).header).length = (dataHeaderWire f.header).length := rfl
      rw [this]; omega)
  refine ⟨out, n, _, ?_, hm, c32_payload_panics _ m _ rfl hprot (.inl ?_)⟩
  · rw [← hw, wrappedFrame, (c32_wrap f c m).2.2.2, hfo]
    rfl
  · have h8 : (cryptoHeaderWire c.packet_number.toNat c.key_id.toNat).length = 8 := rfl
    simp only [List.length_append, h8, List.length_nil, List.length_replicate, hsl]
    omega

/-- A frame made with the builder arrives, and the receiver finds in the roles the addresses that were given
for them.  Partial: the frame must be without QoS and the order flag and have a fourth address if both
direction flags are set (no other frame of the builder is proper, `c29_proper_iff`), frames from the DS must
not have been given their destination by that name (`c29_from_ds_swapped`), and a payload must have been
given exactly if the category has one. -/
theorem c68_built_partial {α : Type} (ops : List (BuilderOp Obj)) (f : DataFrame Obj)
    (hb : buildDataFrame ops = some f)
    (hn : ¬(ops.any isFromDs = true ∧ ops.any isDestination = true))
    (hcat : BuilderOp.category .Data ∈ ops ∨ BuilderOp.category .DataNull ∈ ops)
    (hord : BuilderOp.order ∉ ops) (ham : (given ops).amsdu = false)
    (h4 : (given ops).to_ds = true ∧ (given ops).from_ds = true → (given ops).address .four ≠ none)
    (bs : Option Bytes)
    (hp : match bs with
      | some bs => ∃ t o k, BuilderOp.payload t o ∈ ops ∧ Emits o.write bs k
      | none => BuilderOp.category .DataNull ∈ ops)
    (fcs : Bool) (block : DataFrame Bytes → α) (pre post : List (FrameKind × (Bool → Reader α)))
    (hpre : BeforeData pre) :
    ∃ size, ∀ buf : Bytes, size ≤ buf.length → ∃ out n r,
      writeDataFrame f fcs buf = .ok (out, n) ∧
      matchFrames (out.take n) (if fcs then some true else none)
        (pre ++ armOf dataFrameKind readDataFrame block :: post) = .ok (pre.length, block r) ∧
      r.payload = bs ∧
      (∀ i, r.header.fcf_flags.bits.getLsbD i = true ↔ ∃ op ∈ ops, i ∈ flagBits op) ∧
      (let row := addressTable (given ops).to_ds (given ops).from_ds false
       r.header.destinationAddress = row.1.bind (given ops).address ∧
       r.header.sourceAddress = row.2.1.bind (given ops).address ∧
       some r.header.receiverAddress = (given ops).address .one ∧
       some r.header.transmitterAddress = (given ops).address .two) := by
  obtain ⟨c, hc1, hc2⟩ := c29_subtype ops f hb
  have hsub : f.header.subtype.intoBits.toNat = categoryNumber c := hc2
  have hcon : HeaderConsistent f.header := (c29_proper_iff ops f hb).2 ⟨hcat, hord, fun h => by
    have := c29_addresses_partial ops f hb hn .four
    have h5 := h4 h
    rw [← this] at h5
    cases h6 : f.header.address_4 with
    | none => exact absurd h6 h5
    | some a => rfl⟩
  have hnq : c = .Data ∨ c = .DataNull := by
    rcases hcat with h | h
    · exact .inl ((hc1 _).1 h).symm
    · exact .inr ((hc1 _).1 h).symm
  obtain ⟨r1, r2, r3, r4, _⟩ := c29_roles_partial ops f hb hn ham
  rw [ham] at r1 r2
  have hpay : match (generalizing := false) f.payload, bs with
      | none, none => True
      | some o, some bs => ∃ k, Emits o.write bs k
      | _, _ => False := by
    cases bs with
    | none => rw [c29_null_payload ops f hb (.inl hp)]; trivial
    | some bs =>
      obtain ⟨t, o, k, ho, he⟩ := hp
      rw [(c29_payload ops f hb o).2 (.inl ⟨t, ho⟩)]
      exact ⟨k, he⟩
  have hpc : PayloadConsistent f := by
    rw [PayloadConsistent, payloadSubtype, hsub]
    rcases hnq with rfl | rfl
    · cases bs with
      | none => exact absurd ((hc1 _).1 hp) (by decide)
      | some bs =>
        cases hf : f.payload with
        | none => rw [hf] at hpay; exact hpay.elim
        | some o => simp [categoryNumber]
    · rw [c29_null_payload ops f hb (.inl ((hc1 _).2 rfl))]
      simp [categoryNumber]
  obtain ⟨size, h⟩ := c65_data_partial f (c29_valid ops f hb) hcon hpc bs hpay fcs block pre post hpre
  refine ⟨size, fun buf hbuf => ?_⟩
  obtain ⟨out, n, h1, h2⟩ := h buf hbuf
  exact ⟨out, n, _, h1, h2, rfl, c29_flags ops f hb, r1, r2, r3, r4⟩

/-! ## Concrete cases -/

private def mac (k : Byte) : Mac := ⟨[k, k, k, k, k, k], rfl⟩

private def aggregateHeader : DataFrameHeader :=
  ⟨.QoSData, ⟨1⟩, 0x102, mac 1, mac 2, mac 3, ⟨0x30⟩, none, some ⟨[0x85, 0], rfl⟩, none⟩

private def aggregate : List (AMSDUSubframe Bytes) := [⟨mac 4, mac 5, [7]⟩, ⟨mac 6, mac 7, [8, 9]⟩]

omit [ScrollRule] [Crc32] in
/-- The hypotheses on header and subframes. -/
example : ValidData aggregateHeader ∧ HeaderConsistent aggregateHeader ∧ CarriesAmsdu aggregateHeader ∧
    aggregateHeader.fcf_flags.protected_ = false ∧ ∀ s ∈ aggregate, PayloadFits s :=
  ⟨⟨by decide, DataFrameSubtype.canonical_fromBits 8⟩, ⟨by decide, by decide, by decide⟩,
    ⟨by decide, _, rfl, by decide⟩, by decide, by simp [aggregate, PayloadFits]⟩

/-- What the receiver makes of a frame: the subframes, and for an encrypted frame the packet number. -/
private def received (m : MicState) (f : DataFrame Bytes) : Res (Option (BitVec 64) × List (AMSDUSubframe Bytes)) :=
  match potentiallyWrappedPayload f (some m) with
  | .ok (some (.Unwrapped (.AMSDU it))) => (it.collect 10).map fun l => (none, l)
  | .ok (some (.CryptoWrapped ⟨c, .AMSDU it, _⟩)) => (it.collect 10).map fun l => (some c.packet_number, l)
  | .ok _ => .err .badInput
  | .err e => .err e
  | .panic => .panic

omit [ScrollRule] [Crc32] in
/-- An aggregate sent plain and encrypted; an encrypted frame with nothing in it. -/
example (s : Bool) : letI : ScrollRule := ⟨s⟩
    let _ : Crc32 := ⟨fun bs => BitVec.ofNat 32 bs.length⟩
    let arms := [armOf MgmtKind.Deauthentication.frame (readMgmtFrame readDeauthentication) fun _ => .err .badInput,
      armOf dataFrameKind readDataFrame (received .Long)]
    let through (f : DataFrame Obj) := match writeDataFrame f true (List.replicate 100 0xee) with
      | .ok (out, n) => match matchFrames (out.take n) (some true) arms with
        | .ok (1, r) => r
        | _ => .err .badInput
      | _ => .err .badInput
    let c : CryptoHeader := ⟨⟨[5, 1, 0, 0, 0, 0], rfl⟩, 0⟩
    through ⟨aggregateHeader, some (amsduPayload aggregate)⟩ = .ok (none, aggregate) ∧
    through (wrappedFrame ⟨aggregateHeader, some (amsduPayload aggregate)⟩ c .Long) =
      .ok (some 0x105, aggregate) ∧
    through (wrappedFrame ⟨aggregateHeader, some (bytesObj [])⟩ c .Long) =
      if s then .panic else .ok (some 0x105, []) := by
  cases s <;> decide +kernel

omit [ScrollRule] [Crc32] in
/-- A frame of the builder with all four addresses. -/
example (o : Obj) : let ops : List (BuilderOp Obj) := [.to_and_from_ds, .category .Data, .payload .Bytes o,
      .receiver_address (mac 1), .transmitter_address (mac 2), .destination_address (mac 3),
      .source_address (mac 4), .retry]
    (buildDataFrame ops).isSome = true ∧ (given ops).amsdu = false ∧
    (given ops).address .four = some (mac 4) ∧ ops.any isFromDs = false := by
  refine ⟨rfl, rfl, ?_, rfl⟩
  simp [given, Given.next, Given.fill, addressTable]

end Verif
