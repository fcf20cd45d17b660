import Verif.Props.C37
import Verif.Props.C49
/-!
# C38: the ranges of MIC and key data in a data frame carrying an EAPOL-Key frame
-/
namespace Verif

namespace Spec

/-- An LLC/SNAP frame. -/
def snapWire (oui : Arr 3) (etherType : BitVec 16) (payload : Bytes) : Bytes :=
  0xaa :: 0xaa :: 0x03 :: (oui.val ++ (toBE etherType ++ payload))

/-- The bytes of a data frame from `start` up to `stop`. -/
def between (bytes : Bytes) (start stop : Nat) : Bytes := (bytes.drop start).take (stop - start)

end Spec

open Spec

variable [ScrollRule] [Crc32]

omit [Crc32] in
private theorem snap_emits (s : SnapLlcFrame Obj) (bs : Bytes) (need : Nat) (h : Emits s.payload.write bs need) :
    Emits (writeSnap s) (snapWire s.oui s.ether_type bs) (8 + max need slack) := by
  apply Emits.cast
  · apply WEmits.run
    wr_steps
    exact WEmits.gwrite h
  · simp [snapWire]
  · omega

/-- What is written for a data frame carrying an EAPOL-Key frame. -/
theorem c38_write (h : DataFrameHeader) (s : SnapLlcFrame (EapolKeyFrame Obj)) (hv : ValidData h) (data : Bytes)
    (need : Nat) (hd : Emits s.payload.key_data.write data need) (fcs : Bool) :
    Emits (writeDataFrame (EapolDataFrame.obj ⟨h, some s⟩) fcs)
      (withFcs fcs (dataFrameWire h (snapWire s.oui s.ether_type (eapolWire 2 s.payload (Arr.zero 8).val data))))
      (max (2 + (dataHeaderWire h).length + (8 + (83 + s.payload.key_mic.length + max need slack)))
        ((dataFrameWire h (snapWire s.oui s.ether_type (eapolWire 2 s.payload (Arr.zero 8).val data))).length +
          if fcs then 4 else 0)) := by
  have h1 := c37_write s.payload data need hd
  have h2 := snap_emits { s with payload := eapolObj s.payload } _ _ h1
  have h3 := c49_write (EapolDataFrame.obj ⟨h, some s⟩) hv _ _ ⟨_, h2, rfl⟩ fcs
  have hsl := slack_le
  exact h3.cast rfl (by simp only [EapolDataFrame.obj]; congr 1; omega)

omit [ScrollRule] in
private theorem wire_split {κ : Type} (h : DataFrameHeader) (s : SnapLlcFrame (EapolKeyFrame κ)) (data : Bytes)
    (fcs : Bool) :
    ∃ a tail : Bytes, a.length = h.lengthInBytes + 8 + 81 ∧ tail.length = (if fcs then 4 else 0) ∧
      withFcs fcs (dataFrameWire h (snapWire s.oui s.ether_type (eapolWire 2 s.payload (Arr.zero 8).val data))) =
        a ++ (s.payload.key_mic ++ (toBE (BitVec.ofNat 16 data.length) ++ (data ++ tail))) := by
  refine ⟨frameStart (.Data h.subtype) h.fcf_flags ++ (dataHeaderWire h ++ (0xaa :: 0xaa :: 0x03 :: (s.oui.val ++
    (toBE s.ether_type ++ (2 :: 3 :: (toBE (BitVec.ofNat 16 (79 + s.payload.key_mic.length + data.length)) ++
    eapolFields s.payload (Arr.zero 8).val)))))),
    if fcs then toLE (Crc32.hash (dataFrameWire h (snapWire s.oui s.ether_type
      (eapolWire 2 s.payload (Arr.zero 8).val data)))) else [], ?_, ?_, ?_⟩
  · rw [c27_length]
    simp [eapolFields]
    omega
  · cases fcs <;> simp
  · cases fcs
    · simp [withFcs, dataFrameWire, snapWire, eapolWire]
    · rw [withFcs, if_pos rfl, if_pos rfl]
      generalize toLE (Crc32.hash _) = tail
      simp [dataFrameWire, snapWire, eapolWire]

omit [ScrollRule] [Crc32] in
private theorem between_mid (x y z : Bytes) (n m : Nat) (hx : x.length = n) (hm : n + y.length = m) :
    between (x ++ (y ++ z)) n m = y := by
  subst hx hm
  simp [between]

/-- The three ranges of a data frame carrying an EAPOL-Key frame select, in what is written for it, the
MIC, the key data length and the key data.  The last range is open, so with a check sequence it also
includes the check sequence. -/
theorem c38_ranges (h : DataFrameHeader) (s : SnapLlcFrame (EapolKeyFrame Obj)) (hv : ValidData h) (data : Bytes)
    (need : Nat) (hd : Emits s.payload.key_data.write data need) (fcs : Bool) (buf : Bytes)
    (hb : 95 + h.lengthInBytes + s.payload.key_mic.length + max need slack ≤ buf.length) :
    ∃ (out : Bytes) (m m' l l' k : Nat),
      writeDataFrame (EapolDataFrame.obj ⟨h, some s⟩) fcs buf = .ok (out ++ buf.drop out.length, out.length) ∧
      EapolDataFrame.eapolMicRange ⟨h, some s⟩ = some (m, m') ∧
      EapolDataFrame.eapolKeyDataLengthRange ⟨h, some s⟩ = some (l, l') ∧
      EapolDataFrame.eapolKeyDataRange ⟨h, some s⟩ = some k ∧
      between out m m' = s.payload.key_mic ∧
      between out l l' = toBE (BitVec.ofNat 16 data.length) ∧
      between out k (k + data.length) = data ∧
      k + data.length + (if fcs then 4 else 0) = out.length := by
  obtain ⟨a, tail, ha, ht, e⟩ := wire_split h s data fcs
  have hle := hd.le
  have hw := (c38_write h s hv data need hd fcs).ok buf (by
    have hlen := congrArg List.length e
    have h27 := c27_length h
    simp only [List.length_append, ha, ht, toBE_length] at hlen
    have hx : (dataFrameWire h (snapWire s.oui s.ether_type (eapolWire 2 s.payload (Arr.zero 8).val data))).length
        + (if fcs = true then 4 else 0) =
        (withFcs fcs (dataFrameWire h (snapWire s.oui s.ether_type
          (eapolWire 2 s.payload (Arr.zero 8).val data)))).length := by
      cases fcs <;> simp [withFcs]
    rw [hx, hlen]
    have : (if fcs = true then 4 else 0) ≤ 4 := by split <;> omega
    omega)
  rw [e] at hw
  refine ⟨_, _, _, _, _, _, hw, rfl, rfl, rfl, ?_, ?_, ?_, ?_⟩
  · exact between_mid _ _ _ _ _ (by omega) rfl
  · have := fun z => between_mid (a ++ s.payload.key_mic) (toBE (BitVec.ofNat 16 data.length)) z
      (h.lengthInBytes + 8 + 1 + 1 + 2 + 1 + 2 + 2 + 8 + 32 + 16 + 8 + 8 + s.payload.key_mic.length) _
      (by simp; omega) rfl
    simp only [List.append_assoc, toBE_length] at this
    exact this _
  · have := fun z => between_mid (a ++ (s.payload.key_mic ++ toBE (BitVec.ofNat 16 data.length))) data z
      (h.lengthInBytes + 8 + 1 + 1 + 2 + 1 + 2 + 2 + 8 + 32 + 16 + 8 + 8 + s.payload.key_mic.length + 2) _
      (by simp; omega) rfl
    simp only [List.append_assoc] at this
    exact this _
  · simp [ha, ht]; omega

omit [ScrollRule] [Crc32] in
/-- A subtype that can be written is written like one that has a wire form of its own. -/
private theorem same_type (s : DataFrameSubtype) (h : FrameControlField.withFrameType ⟨0⟩ (.Data s) ≠ .panic) :
    ∃ t, ValidFrameType (.Data t) ∧
      FrameControlField.withFrameType ⟨0⟩ (.Data t) = FrameControlField.withFrameType ⟨0⟩ (.Data s) := by
  have key : ∀ c : BitVec 8, (0b10 ||| (c <<< 2)).toNat < 2 ^ 6 →
      (0b10 ||| (BitVec.ofNat 8 (c.toNat % 16) <<< 2)) = (0b10 ||| (c <<< 2)) := by decide +kernel
  have hlt : (0b10 ||| (s.intoBits <<< 2)).toNat < 2 ^ 6 := by
    apply Classical.byContradiction
    intro hn
    apply h
    rw [FrameControlField.withFrameType, fitField, if_neg (by exact hn)]
    rfl
  refine ⟨.fromBits (BitVec.ofNat 8 (s.intoBits.toNat % 16)), ⟨?_, DataFrameSubtype.canonical_fromBits _⟩, ?_⟩
  · rw [DataFrameSubtype.intoBits_fromBits, BitVec.toNat_ofNat]
    omega
  · simp only [FrameControlField.withFrameType, FrameType.intoBits, DataFrameSubtype.intoBits_fromBits, key _ hlt]

/-- The same for every header, those with a subtype that has no wire form included: whenever writing the
frame succeeds, the ranges select the MIC, the key data length and the key data in what was written. -/
theorem c38_ranges_written (h : DataFrameHeader) (s : SnapLlcFrame (EapolKeyFrame Obj)) (data : Bytes)
    (need : Nat) (hd : Emits s.payload.key_data.write data need) (fcs : Bool) (buf out : Bytes) (n : Nat)
    (hw : writeDataFrame (EapolDataFrame.obj ⟨h, some s⟩) fcs buf = .ok (out, n)) :
    ∃ (m m' l l' k : Nat),
      EapolDataFrame.eapolMicRange ⟨h, some s⟩ = some (m, m') ∧
      EapolDataFrame.eapolKeyDataLengthRange ⟨h, some s⟩ = some (l, l') ∧
      EapolDataFrame.eapolKeyDataRange ⟨h, some s⟩ = some k ∧
      between (out.take n) m m' = s.payload.key_mic ∧
      between (out.take n) l l' = toBE (BitVec.ofNat 16 data.length) ∧
      between (out.take n) k (k + data.length) = data ∧
      k + data.length + (if fcs then 4 else 0) = n ∧ n ≤ buf.length ∧ out.length = buf.length := by
  have hp : FrameControlField.withFrameType ⟨0⟩ (.Data h.subtype) ≠ .panic := by
    intro hp
    unfold writeDataFrame at hw
    simp only [EapolDataFrame.obj, hp] at hw
    exact nomatch hw
  obtain ⟨t, ht, e⟩ := same_type h.subtype hp
  have hE := c38_write { h with subtype := t } s ht data need hd fcs
  have hw' : writeDataFrame (EapolDataFrame.obj ⟨{ h with subtype := t }, some s⟩) fcs buf = .ok (out, n) := by
    rw [← hw]
    unfold writeDataFrame
    simp only [EapolDataFrame.obj, e]
    rfl
  have hlen : _ ≤ buf.length := Nat.le_of_not_lt fun hlt => by
    obtain ⟨e', he'⟩ := hE.err buf hlt
    rw [he'] at hw'
    exact nomatch hw'
  have hok := hE.ok buf hlen
  rw [hw'] at hok
  simp only [Res.ok.injEq, Prod.mk.injEq] at hok
  have hle := Nat.le_trans hE.le hlen
  have htake : out.take n = withFcs fcs (dataFrameWire { h with subtype := t }
      (snapWire s.oui s.ether_type (eapolWire 2 s.payload (Arr.zero 8).val data))) := by
    rw [hok.1, hok.2, List.take_left]
  have hl2 : out.length = buf.length := by
    rw [hok.1, List.length_append, List.length_drop]
    omega
  have hn : n ≤ buf.length := by rw [hok.2]; exact hle
  obtain ⟨a, tail, ha, htl, e⟩ := wire_split { h with subtype := t } s data fcs
  have hn' := congrArg List.length e
  rw [← hok.2] at hn'
  rw [htake, e]
  rw [show DataFrameHeader.lengthInBytes { h with subtype := t } = h.lengthInBytes from rfl] at ha
  refine ⟨_, _, _, _, _, rfl, rfl, rfl, ?_, ?_, ?_, ?_, hn, hl2⟩
  · exact between_mid _ _ _ _ _ (by omega) rfl
  · have := fun z => between_mid (a ++ s.payload.key_mic) (toBE (BitVec.ofNat 16 data.length)) z
      (h.lengthInBytes + 8 + 1 + 1 + 2 + 1 + 2 + 2 + 8 + 32 + 16 + 8 + 8 + s.payload.key_mic.length) _
      (by simp; omega) rfl
    simp only [List.append_assoc, toBE_length] at this
    exact this _
  · have := fun z => between_mid (a ++ (s.payload.key_mic ++ toBE (BitVec.ofNat 16 data.length))) data z
      (h.lengthInBytes + 8 + 1 + 1 + 2 + 1 + 2 + 2 + 8 + 32 + 16 + 8 + 8 + s.payload.key_mic.length + 2) _
      (by simp; omega) rfl
    simp only [List.append_assoc] at this
    exact this _
  · rw [hn']
    simp [ha, htl]; omega

omit [ScrollRule] [Crc32] in
/-- Without a payload there is nothing to select. -/
theorem c38_no_payload {κ : Type} (h : DataFrameHeader) :
    EapolDataFrame.eapolMicRange (κ := κ) ⟨h, none⟩ = none ∧
    EapolDataFrame.eapolKeyDataLengthRange (κ := κ) ⟨h, none⟩ = none ∧
    EapolDataFrame.eapolKeyDataRange (κ := κ) ⟨h, none⟩ = none := ⟨rfl, rfl, rfl⟩

/-- A QoS data frame with four bytes of key data, 26 bytes of header: the MIC is bytes 115 to 130. -/
example (s : Bool) :
    letI : ScrollRule := ⟨s⟩
    letI : Crc32 := ⟨fun _ => 0x04030201⟩
    let h : DataFrameHeader := ⟨.QoSData, ⟨1⟩, 0, Arr.zero 6, Arr.zero 6, Arr.zero 6, ⟨0⟩, none,
      some ⟨[1, 2], rfl⟩, none⟩
    let f : EapolDataFrame Obj := ⟨h, some ⟨Arr.zero 3, 0x888e, {
      key_information := ⟨0x030a⟩, key_length := 0x0102, key_replay_counter := 1, key_nonce := Arr.zero 32,
      key_iv := 0, key_rsc := 0, key_mic := List.replicate 16 0xab, key_data := bytesObj [1, 2, 3, 4] }⟩⟩
    f.eapolMicRange = some (115, 131) ∧ f.eapolKeyDataLengthRange = some (131, 133) ∧
    f.eapolKeyDataRange = some 133 ∧
    (writeDataFrame f.obj true (List.replicate 200 7)).map (fun r => (r.1.drop 113).take 31) =
      .ok ([0, 0] ++ List.replicate 16 0xab ++ [0, 4, 1, 2, 3, 4, 1, 2, 3, 4, 7, 7, 7]) := by
  cases s <;> decide +kernel

end Verif
