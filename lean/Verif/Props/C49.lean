import Verif.Props.C27
/-!
# C49: data frames
-/
namespace Verif

namespace Spec

/-- A data frame without check sequence. -/
def dataFrameWire (h : DataFrameHeader) (payload : Bytes) : Bytes :=
  frameStart (.Data h.subtype) h.fcf_flags ++ (dataHeaderWire h ++ payload)

/-- The payload is there exactly when the subtype carries one. -/
def PayloadConsistent {π : Type} (f : DataFrame π) : Prop :=
  f.payload.isSome ↔ payloadSubtype f.header.subtype

end Spec

open Spec

variable [ScrollRule] [Crc32]

/-- Frame control field, header, payload and check sequence are written in this order. -/
theorem c49_write (f : DataFrame Obj) (hv : ValidData f.header) (p : Bytes) (m : Nat)
    (hp : match f.payload with
      | none => p = [] ∧ m = 0
      | some o => ∃ k, Emits o.write p k ∧ m = max k slack) (fcs : Bool) :
    Emits (writeDataFrame f fcs) (withFcs fcs (dataFrameWire f.header p))
      (max (2 + (dataHeaderWire f.header).length + m)
        ((dataFrameWire f.header p).length + if fcs then 4 else 0)) := by
  obtain ⟨h, o⟩ := f
  obtain ⟨f, hf, hb, _, _⟩ := fcf_written (.Data h.subtype) hv h.fcf_flags
  have key : WEmits (do
      let fcf ← Wr.lift (FrameControlField.withFrameType ⟨0⟩ (.Data h.subtype))
      Wr.gwrite (writeLE (fcf.withFcfFlags h.fcf_flags).bits)
      Wr.gwrite (writeDataHeader h)
      Wr.opt o fun p => p.write : Wr Unit) () (dataFrameWire h p)
      (2 + (dataHeaderWire h).length + m) := by
    apply WEmits.cast
    · apply WEmits.lift_bind hf
      apply WEmits.leI (hp := by decide)
      apply WEmits.seq (WEmits.gwrite_pos (c27_write h) (by simp [dataHeaderWire]; omega))
      show WEmits (Wr.opt o fun p => p.write) () p m
      cases o with
      | none => obtain ⟨rfl, rfl⟩ := hp; exact WEmits.pure
      | some o => obtain ⟨k, hk, rfl⟩ := hp; exact WEmits.gwrite hk
    · simp [dataFrameWire, hb]
    · simp; omega
  have := Emits.withFcs key fcs
  simp only [Wr.bind_assoc] at this
  exact this

/-- Reading what was written. -/
theorem c49_read (f : DataFrame Bytes) (hv : ValidData f.header) (hc : HeaderConsistent f.header)
    (hp : PayloadConsistent f) (fcs : Bool) :
    readDataFrame fcs (withFcs fcs (dataFrameWire f.header (f.payload.getD []))) =
      .ok (f, 2 + (dataHeaderWire f.header).length) := by
  have key : readDataFrameBody (dataFrameWire f.header (f.payload.getD [])) =
      .ok (f, 2 + (dataHeaderWire f.header).length) := by
    have hsl := slack_le
    obtain ⟨h, o⟩ := f
    have h1 := c27_round_trip h hv hc (o.getD [])
    have h2 := (c27_subtypes h.subtype hv).2
    simp only [PayloadConsistent] at hp
    rw [← h2] at hp
    rw [← List.append_assoc] at h1
    rw [dataFrameWire, ← List.append_assoc]
    apply RdAt.run
    apply RdAt.cast
    · apply RdAt.bind (RdAt.cast (RdAt.gread h1 (by simp; omega)) (by simp))
      cases o with
      | none =>
        rw [if_neg (by simpa using hp)]
        exact RdAt.pure
      | some o =>
        rw [if_pos (by simpa using hp)]
        exact RdAt.bind_pure RdAt.remaining rfl
    · simp
  cases fcs
  · exact key
  · have := (c05_accepts_iff _ (dataFrameWire f.header (f.payload.getD []))).2 rfl
    simp only [readDataFrame, withFcs, if_true, this, Res.ok_bind, key]

/-- Writing a frame and reading it back, with the payload as raw bytes. -/
theorem c49_round_trip (f : DataFrame Bytes) (hv : ValidData f.header) (hc : HeaderConsistent f.header)
    (hp : PayloadConsistent f) (fcs : Bool) (buf : Bytes)
    (hb : 2 + (dataHeaderWire f.header).length +
      (match f.payload with | some p => max p.length slack | none => 0) +
      (if fcs then 4 else 0) ≤ buf.length) :
    ∃ out k, writeDataFrame ⟨f.header, f.payload.map bytesObj⟩ fcs buf = .ok (out, k) ∧
      k = f.lengthInBytes + (if fcs then 4 else 0) ∧ out.length = buf.length ∧
      out.drop k = buf.drop k ∧
      readDataFrame fcs (out.take k) = .ok (f, f.header.lengthInBytes) := by
  have hsl := slack_le
  obtain ⟨h, o⟩ := f
  have hw : Emits (writeDataFrame ⟨h, o.map bytesObj⟩ fcs) (withFcs fcs (dataFrameWire h (o.getD [])))
      (max (2 + (dataHeaderWire h).length + (match o with | some p => max p.length slack | none => 0))
        ((dataFrameWire h (o.getD [])).length + if fcs then 4 else 0)) := by
    apply c49_write ⟨h, o.map bytesObj⟩ hv
    cases o with
    | none => exact ⟨rfl, rfl⟩
    | some p => exact ⟨_, Emits.bytes p, rfl⟩
  have hlen : (withFcs fcs (dataFrameWire h (o.getD []))).length =
      (DataFrame.mk h o).lengthInBytes + (if fcs then 4 else 0) := by
    have := c27_length h
    cases o <;> cases fcs <;> simp [withFcs, dataFrameWire, DataFrame.lengthInBytes, this] <;> omega
  have hok := hw.ok buf (by
    refine Nat.le_trans ?_ hb
    cases o <;> cases fcs <;> simp [dataFrameWire] <;> omega)
  refine ⟨_, _, hok, hlen, ?_, ?_, ?_⟩
  · have := hw.le
    simp
    cases o <;> cases fcs <;> simp [withFcs, dataFrameWire] at hb this ⊢ <;> omega
  · rw [List.drop_left]
  · rw [List.take_left, c49_read ⟨h, o⟩ hv hc hp fcs, c27_length]

/-- Conversely, whatever is accepted is such a frame: the payload is everything after the header up to
the check sequence, which is right. -/
theorem c49_parse (fcs : Bool) (inp : Bytes) (f : DataFrame Bytes) (n : Nat)
    (hr : readDataFrame fcs inp = .ok (f, n)) :
    ∃ (b0 : Byte) (rest : Bytes),
      inp = withFcs fcs (b0 :: f.header.fcf_flags.bits :: (dataHeaderWire f.header ++ rest)) ∧
      b0.toNat / 4 % 4 = 2 ∧ b0.toNat / 16 = f.header.subtype.intoBits.toNat ∧
      f.payload = (if payloadSubtype f.header.subtype then some rest else none) ∧
      HeaderConsistent f.header ∧ ValidData f.header ∧ n = f.header.lengthInBytes := by
  obtain ⟨frame, hframe, hbody⟩ : ∃ frame, inp = withFcs fcs frame ∧
      readDataFrameBody frame = .ok (f, n) := by
    cases fcs
    · exact ⟨inp, rfl, hr⟩
    · simp only [readDataFrame, if_true] at hr
      cases hs : stripAndValidateFcs inp with
      | ok frame =>
        rw [hs] at hr
        exact ⟨frame, (c05_accepts_iff _ _).1 hs, hr⟩
      | err e => rw [hs] at hr; simp at hr
      | panic => rw [hs] at hr; simp at hr
  subst hframe
  have hpar : ParsesR readDataHeader (fun h bs _ => ∃ (b0 : Byte),
      bs = b0 :: h.fcf_flags.bits :: dataHeaderWire h ∧ b0.toNat / 4 % 4 = 2 ∧
      b0.toNat / 16 = h.subtype.intoBits.toNat ∧ HeaderConsistent h ∧ ValidData h) := by
    intro inp h n hr
    obtain ⟨b0, rest, rfl, rfl, h1⟩ := c27_parse inp h n hr
    exact ⟨b0 :: h.fcf_flags.bits :: dataHeaderWire h, rest, by simp, by simp; omega, b0, rfl, h1⟩
  have hp : ParsesR readDataFrameBody (fun f bs rest => ∃ (b0 : Byte),
      bs = b0 :: f.header.fcf_flags.bits :: dataHeaderWire f.header ∧ b0.toNat / 4 % 4 = 2 ∧
      b0.toNat / 16 = f.header.subtype.intoBits.toNat ∧
      f.payload = (if payloadSubtype f.header.subtype then some rest else none) ∧
      HeaderConsistent f.header ∧ ValidData f.header) := by
    apply Parses.run
    refine Parses.imp (Parses.bind (Parses.gread' hpar) fun _ =>
      Parses.ite (fun _ => Parses.bind Parses.remaining fun _ => Parses.pure) fun _ => Parses.pure) ?_
    rintro f bs rest ⟨h, _, _, rfl, ⟨b0, rfl, h1, h2, h3, h4⟩, hx⟩
    have hs := (c27_subtypes h.subtype h4).2
    rcases hx with ⟨hpay, p, _, _, rfl, ⟨rfl, rfl⟩, rfl, rfl⟩ | ⟨hpay, rfl, rfl⟩
    · exact ⟨b0, by simp, h1, h2, by rw [if_pos (hs.1 hpay)]; simp, h3, h4⟩
    · exact ⟨b0, by simp, h1, h2, by rw [if_neg (fun h => hpay (hs.2 h))], h3, h4⟩
  obtain ⟨bs, rest, rfl, rfl, b0, rfl, h1, h2, h3, h4, h5⟩ := hp _ _ _ hbody
  exact ⟨b0, rest, by simp, h1, h2, h3, h4, h5, by rw [c27_length]; simp; omega⟩

/-- A frame with a wrong check sequence is an error; nothing panics except when a check sequence is
expected in fewer than four bytes. -/
theorem c49_wrong_fcs (frame fcs : Bytes) (h4 : fcs.length = 4) (hne : fcs ≠ toLE (Crc32.hash frame)) :
    ∃ e, readDataFrame true (frame ++ fcs) = .err e := by
  obtain ⟨e, he⟩ := c05_rejects frame fcs h4 hne
  exact ⟨e, by simp only [readDataFrame, if_true, he]; rfl⟩

theorem c49_panics_iff (fcs : Bool) (inp : Bytes) :
    readDataFrame fcs inp = .panic ↔ fcs = true ∧ inp.length < 4 := by
  have key : SafeReader readDataFrameBody := by
    apply Rd.Safe.run
    apply Rd.Safe.bind (Rd.Safe.gread c27_safe)
    intro h
    split
    · apply Rd.Safe.bind Rd.Safe.remaining; intro _
      exact Rd.Safe.pure
    · exact Rd.Safe.pure
  cases fcs
  · simp [readDataFrame, key.ne_panic inp]
  · simp only [readDataFrame, if_true, true_and]
    rw [← c05_short_panics_iff]
    cases hs : stripAndValidateFcs inp with
    | ok x => simpa using key.ne_panic x
    | err e => simp
    | panic => simp

/-- A data frame without check sequence is its header and, when the subtype has a payload, all bytes
after it; it is accepted exactly when the header is. -/
theorem c49_from_header (inp : Bytes) :
    (∀ h n, readDataHeader inp = .ok (h, n) → readDataFrame false inp =
      .ok (⟨h, if payloadSubtype h.subtype then some (inp.drop n) else none⟩, n)) ∧
    (∀ e, readDataHeader inp = .err e → ∃ e, readDataFrame false inp = .err e) := by
  have hs := slack_le
  have hE : readDataFrame false inp = readDataFrameBody inp := rfl
  rw [hE]
  constructor
  · intro h n hr
    obtain ⟨b0, rest, hi, hn, _, _, _, hv⟩ := c27_parse inp h n hr
    have hp := (c27_subtypes h.subtype hv).2
    have hl : n ≤ inp.length ∧ 2 ≤ n := by rw [hi, hn]; simp; omega
    have hsplit : inp = inp.take n ++ inp.drop n := (List.take_append_drop _ _).symm
    have hlt : (inp.take n).length = n := by simp; omega
    apply RdAt.run
    rw [hsplit] at hr
    rw [hsplit, List.drop_append, hlt]
    apply RdAt.cast
    · apply RdAt.bind (RdAt.cast (RdAt.gread hr (by simp; omega)) hlt.symm)
      split
      · rename_i hpay
        rw [if_pos (hp.1 hpay)]
        exact RdAt.bind_pure RdAt.remaining (by simp)
      · rename_i hpay
        rw [if_neg (fun x => hpay (hp.2 x))]
        exact RdAt.pure
    · simp [hlt]
  · intro e he
    exact RdErr.run (RdErr.bind_left (RdErr.gread he))

/-- The reported size is the number of bytes written, whenever the payload reports its own. -/
theorem c49_measure (f : DataFrame Obj) (hv : ValidData f.header) (p : Bytes) (m : Nat)
    (hp : match f.payload with
      | none => p = [] ∧ m = 0
      | some o => ∃ k, Emits o.write p k ∧ m = max k slack)
    (hm : ∀ o ∈ f.payload, o.measure = p.length) (fcs : Bool) (buf out : Bytes) (k : Nat)
    (hk : writeDataFrame f fcs buf = .ok (out, k)) : measureDataFrame f fcs = k := by
  have hE := c49_write f hv p m hp fcs
  by_cases hb : max (2 + (dataHeaderWire f.header).length + m)
        ((dataFrameWire f.header p).length + if fcs then 4 else 0) ≤ buf.length
  · have := hk.symm.trans (hE.ok buf hb)
    simp only [Res.ok.injEq, Prod.mk.injEq] at this
    rw [this.2, measureDataFrame, c27_length]
    cases ho : f.payload with
    | none =>
      rw [ho] at hp
      obtain ⟨rfl, _⟩ := hp
      cases fcs <;> simp [withFcs, dataFrameWire] <;> omega
    | some o =>
      show 2 + _ + o.measure + _ = _
      rw [hm o ho]
      cases fcs <;> simp [withFcs, dataFrameWire] <;> omega
  · obtain ⟨x, hx⟩ := hE.err buf (by omega)
    rw [hx] at hk
    simp at hk

/-- A concrete frame with check sequence under a toy checksum. -/
example : let _ : Crc32 := ⟨fun bs => BitVec.ofNat 32 bs.length⟩
    let m (k : Byte) : Mac := ⟨[k, k, k, k, k, k], rfl⟩
    let h : DataFrameHeader := ⟨.QoSData, ⟨1⟩, 0x102, m 1, m 2, m 3, ⟨0x30⟩, none,
      some ⟨[5, 0], rfl⟩, none⟩
    let frame : Bytes := [0x88, 1, 2, 1, 1, 1, 1, 1, 1, 1, 2, 2, 2, 2, 2, 2, 3, 3, 3, 3, 3, 3, 0x30, 0,
      5, 0, 0xaa, 0xbb, 28, 0, 0, 0]
    writeDataFrame ⟨h, some (bytesObj [0xaa, 0xbb])⟩ true (List.replicate 32 0) = .ok (frame, 32) ∧
    readDataFrame true frame = .ok (⟨h, some [0xaa, 0xbb]⟩, 26) ∧
    measureDataFrame ⟨h, some (bytesObj [0xaa, 0xbb])⟩ true = 32 := by
  cases ‹ScrollRule› with | mk s => cases s <;> decide +kernel

end Verif
