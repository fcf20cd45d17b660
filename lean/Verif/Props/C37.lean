import Verif.Basic.Inversion
import Verif.Lemmas.WrAt
/-!
# C37: EAPOL-Key frames

Violations: the protocol version is not checked (`c37_version_ignored`); under the strict rule of scroll a
frame without key data is refused, though handshake message 4 is one (`c37_empty_strict`).
-/
namespace Verif

namespace Spec

/-- The fixed fields from the descriptor type to the reserved octets, big-endian. -/
def eapolFields {κ : Type} (f : EapolKeyFrame κ) (reserved : Bytes) : Bytes :=
  2 :: (toBE f.key_information.bits ++ (toBE f.key_length ++ (toBE f.key_replay_counter ++
    (f.key_nonce.val ++ (toBE f.key_iv ++ (toBE f.key_rsc ++ reserved))))))

/-- An EAPOL-Key frame (12.7.2 of the standard), of version `version`, with key data `data`: version, type
3, length of the rest, fields, MIC, length of the key data, key data. -/
def eapolWire {κ : Type} (version : Byte) (f : EapolKeyFrame κ) (reserved data : Bytes) : Bytes :=
  version :: 3 :: (toBE (BitVec.ofNat 16 (79 + f.key_mic.length + data.length)) ++
    (eapolFields f reserved ++ (f.key_mic ++ (toBE (BitVec.ofNat 16 data.length) ++ data))))

end Spec

open Spec

private theorem toBE16 (x : BitVec 16) : (toBE x).length = 2 := by simp

/-- The length of a frame. -/
private theorem eapolWire_length {κ : Type} (v : Byte) (f : EapolKeyFrame κ) (res : Arr 8) (data : Bytes) :
    (eapolWire v f res.val data).length = 83 + f.key_mic.length + data.length := by
  simp [eapolWire, eapolFields]; omega

private theorem fields_length {κ : Type} (f : EapolKeyFrame κ) (res : Arr 8) :
    (eapolFields f res.val).length = 77 := by
  simp [eapolFields]

variable [ScrollRule]

private theorem fixed_emits {κ : Type} (f : EapolKeyFrame κ) :
    WEmits (writeEapolFixed f) () (eapolFields f (Arr.zero 8).val ++ f.key_mic)
      (77 + max f.key_mic.length slack) := by
  apply WEmits.cast
  · unfold writeEapolFixed
    wr_steps
    exact WEmits.gwrite (Emits.bytes f.key_mic)
  · have h0 : toBE (0 : BitVec 64) = (Arr.zero 8).val := by decide
    rw [h0]
    simp only [eapolFields, List.append_assoc, List.cons_append]
  · omega

private theorem fixed_past {κ : Type} (f : EapolKeyFrame κ) {buf : Bytes} {off : Nat} (h : buf.length < off) :
    WrErr (writeEapolFixed f) buf off := WrErr.bind_left (WrErr.gwrite_past h)

/-- What is written, for key data that writes `data` and needs `need` bytes of buffer: version 2, reserved
octets zero.  The two length fields are those of `eapolWire`, so they are the actual lengths when these
are below 2^16 (`c37_lengths_partial`).  Too short a buffer is an error. -/
theorem c37_write (f : EapolKeyFrame Obj) (data : Bytes) (need : Nat) (h : Emits f.key_data.write data need) :
    Emits (writeEapolKeyFrame f) (eapolWire 2 f (Arr.zero 8).val data)
      (83 + f.key_mic.length + max need slack) := by
  have hsl := slack_le
  have hle := h.le
  refine ⟨?_, ?_, ?_⟩
  · rw [eapolWire_length]; omega
  · intro buf hb
    have hF : (eapolFields f (Arr.zero 8).val ++ f.key_mic).length = 77 + f.key_mic.length := by
      rw [List.length_append, fields_length]
    generalize hFdef : eapolFields f (Arr.zero 8).val ++ f.key_mic = F at hF
    have hfix := fixed_emits f
    rw [hFdef] at hfix
    have s1 := (WEmits.gwrite_pos (Emits.writeU8 2) (by decide)).ok [] buf (by omega)
    simp only [List.nil_append, List.length_nil, Nat.zero_add] at s1
    have s2 := (WEmits.gwrite_pos (Emits.writeU8 3) (by decide)).ok [2] (buf.drop 1) (by simp; omega)
    simp only [List.drop_drop, List.length_singleton] at s2
    have s4 := hfix.ok ([2, 3] ++ (buf.drop 2).take 2) (buf.drop 4) (by simp; omega)
    have e4 : ([2, 3] ++ (buf.drop 2).take 2 : Bytes).length = 4 := by simp; omega
    have d4 : [2, 3] ++ (buf.drop 2).take 2 ++ buf.drop 4 = [2] ++ ([3] ++ buf.drop (1 + 1)) := by
      have := List.take_append_drop 2 (buf.drop 2)
      rw [List.drop_drop] at this
      rw [List.append_assoc, this]
      rfl
    rw [e4, d4, List.drop_drop, hF] at s4
    generalize hold : (buf.drop (81 + f.key_mic.length)).take 2 = old at *
    have hol : old.length = 2 := by rw [← hold]; simp; omega
    have s6 := (WEmits.gwrite h).ok ([2, 3] ++ (buf.drop 2).take 2 ++ F ++ old)
      (buf.drop (83 + f.key_mic.length)) (by simp; omega)
    have e6 : ([2, 3] ++ (buf.drop 2).take 2 ++ F ++ old).length = 83 + f.key_mic.length := by
      rw [List.length_append, List.length_append, e4, hF, hol]; omega
    have d6 : [2, 3] ++ (buf.drop 2).take 2 ++ F ++ old ++ buf.drop (83 + f.key_mic.length) =
        [2, 3] ++ (buf.drop 2).take 2 ++ (F ++ buf.drop (4 + (77 + f.key_mic.length))) := by
      have := List.take_append_drop 2 (buf.drop (81 + f.key_mic.length))
      rw [List.drop_drop, hold, show 81 + f.key_mic.length + 2 = 83 + f.key_mic.length by omega] at this
      rw [show 4 + (77 + f.key_mic.length) = 81 + f.key_mic.length by omega, ← this]
      simp only [List.append_assoc]
    rw [e6, d6, List.drop_drop] at s6
    have o2 : ((buf.drop 2).take 2).length = 2 := by simp; omega
    generalize (buf.drop 2).take 2 = old2 at *
    have s7 := Wr.patch_middle ([2, 3] ++ old2 ++ F) old (toBE (BitVec.ofNat 16 data.length))
      (data ++ buf.drop (83 + f.key_mic.length + data.length)) (83 + f.key_mic.length + data.length)
      (by simp [hol]) (by simp) _ ((Emits.writeBE (BitVec.ofNat 16 data.length)).cast rfl (by simp))
    have s8 := Wr.patch_middle [2, 3] old2 (toBE (BitVec.ofNat 16 (79 + f.key_mic.length + data.length)))
      (F ++ (toBE (BitVec.ofNat 16 data.length) ++ (data ++ buf.drop (83 + f.key_mic.length + data.length))))
      (83 + f.key_mic.length + data.length) (by simp [o2]) (by simp) _
      ((Emits.writeBE (BitVec.ofNat 16 (79 + f.key_mic.length + data.length))).cast rfl (by simp))
    unfold writeEapolKeyFrame Wr.run
    have key : ∀ (P : Wr Unit) b o, P buf 0 = .ok ((), b, o) →
        (match P buf 0 with
          | .ok (_, b, o) => Res.ok (b, o)
          | .err e => .err e
          | .panic => .panic) = .ok (b, o) := by
      intro P b o h; rw [h]
    apply key
    refine (Wr.bind_ok s1).trans ?_
    refine (Wr.bind_ok s2).trans ?_
    refine (Wr.bind_ok (p := Wr.offset) rfl).trans ?_
    refine (Wr.bind_ok (p := Wr.skip 2) rfl).trans ?_
    refine (Wr.bind_ok s4).trans ?_
    refine (Wr.bind_ok (p := Wr.offset) rfl).trans ?_
    refine (Wr.bind_ok (p := Wr.skip 2) rfl).trans ?_
    rw [show 4 + (77 + f.key_mic.length) + 2 = 83 + f.key_mic.length by omega]
    refine (Wr.bind_ok s6).trans ?_
    refine (Wr.bind_ok (p := Wr.offset) rfl).trans ?_
    have n1 : Res.sub (83 + f.key_mic.length + data.length) (4 + (77 + f.key_mic.length)) =
        .ok (2 + data.length) := by
      rw [Res.sub, if_pos (by omega)]; congr 1; omega
    have n2 : Res.sub (2 + data.length) 2 = .ok data.length := by
      rw [Res.sub, if_pos (by omega)]; congr 1; omega
    have n3 : Res.sub (83 + f.key_mic.length + data.length) (1 + 1) =
        .ok (81 + f.key_mic.length + data.length) := by
      rw [Res.sub, if_pos (by omega)]; congr 1; omega
    have n4 : Res.sub (81 + f.key_mic.length + data.length) 2 =
        .ok (79 + f.key_mic.length + data.length) := by
      rw [Res.sub, if_pos (by omega)]; congr 1; omega
    refine (Wr.bind_ok (Wr.lift_ok n1 _ _)).trans ?_
    refine (Wr.bind_ok (Wr.lift_ok n2 _ _)).trans ?_
    have p7 : ([2, 3] ++ old2 ++ F).length = 4 + (77 + f.key_mic.length) := by
      rw [List.length_append, e4, hF]
    rw [p7] at s7
    rw [List.append_assoc _ old] at *
    refine (Wr.bind_ok s7).trans ?_
    refine (Wr.bind_ok (Wr.lift_ok n3 _ _)).trans ?_
    refine (Wr.bind_ok (Wr.lift_ok n4 _ _)).trans ?_
    simp only [List.append_assoc] at s8 ⊢
    refine s8.trans ?_
    rw [eapolWire_length]
    congr 2
    rw [eapolWire, ← hFdef]
    simp
  · intro buf hb
    have key : ∀ P : Wr Unit, WrErr P buf 0 →
        ∃ e, (match P buf 0 with
          | .ok (_, b, o) => Res.ok (b, o)
          | .err e => .err e
          | .panic => .panic) = .err e := by
      intro P ⟨e, h⟩; exact ⟨e, by rw [h]⟩
    unfold writeEapolKeyFrame Wr.run
    apply key
    by_cases h1 : buf.length < 1
    · exact WrErr.bind_left (WrErr.ofEmits (WEmits.gwrite_pos (Emits.writeU8 2) (by decide)) [] buf h1)
    have s1 := (WEmits.gwrite_pos (Emits.writeU8 2) (by decide)).ok [] buf (by omega)
    simp only [List.nil_append, List.length_nil, Nat.zero_add] at s1
    refine WrErr.bind_right s1 ?_
    by_cases h2 : buf.length < 2
    · exact WrErr.bind_left (WrErr.ofEmits (WEmits.gwrite_pos (Emits.writeU8 3) (by decide)) [2] (buf.drop 1)
        (by simp; omega))
    have s2 := (WEmits.gwrite_pos (Emits.writeU8 3) (by decide)).ok [2] (buf.drop 1) (by simp; omega)
    simp only [List.drop_drop, List.length_singleton] at s2
    refine WrErr.bind_right s2 ?_
    refine WrErr.bind_right (p := Wr.offset) rfl ?_
    refine WrErr.bind_right (p := Wr.skip 2) rfl ?_
    by_cases h4 : buf.length < 4
    · exact WrErr.bind_left (fixed_past f (by simp; omega))
    have d4 : [2, 3] ++ (buf.drop 2).take 2 ++ buf.drop 4 = [2] ++ ([3] ++ buf.drop (1 + 1)) := by
      have := List.take_append_drop 2 (buf.drop 2)
      rw [List.drop_drop] at this
      rw [List.append_assoc, this]
      rfl
    have e4 : ([2, 3] ++ (buf.drop 2).take 2 : Bytes).length = 4 := by simp; omega
    by_cases h5 : buf.length - 4 < 77 + max f.key_mic.length slack
    · have := WrErr.ofEmits (fixed_emits f) ([2, 3] ++ (buf.drop 2).take 2) (buf.drop 4) (by simp; omega)
      rw [d4, e4] at this
      exact WrErr.bind_left this
    have hF : (eapolFields f (Arr.zero 8).val ++ f.key_mic).length = 77 + f.key_mic.length := by
      rw [List.length_append, fields_length]
    have s4 := (fixed_emits f).ok ([2, 3] ++ (buf.drop 2).take 2) (buf.drop 4) (by simp; omega)
    rw [e4, d4, List.drop_drop, hF] at s4
    refine WrErr.bind_right s4 ?_
    refine WrErr.bind_right (p := Wr.offset) rfl ?_
    refine WrErr.bind_right (p := Wr.skip 2) rfl ?_
    generalize eapolFields f (Arr.zero 8).val ++ f.key_mic = F at *
    by_cases h6 : buf.length < 83 + f.key_mic.length
    · refine WrErr.bind_left (WrErr.gwrite_past ?_)
      rw [List.length_append, e4, List.length_append, hF, List.length_drop]
      omega
    have hol : ((buf.drop (81 + f.key_mic.length)).take 2).length = 2 := by simp; omega
    have d6 : [2, 3] ++ (buf.drop 2).take 2 ++ F ++ (buf.drop (81 + f.key_mic.length)).take 2 ++
        buf.drop (83 + f.key_mic.length) =
        [2, 3] ++ (buf.drop 2).take 2 ++ (F ++ buf.drop (4 + (77 + f.key_mic.length))) := by
      have := List.take_append_drop 2 (buf.drop (81 + f.key_mic.length))
      rw [List.drop_drop, show 81 + f.key_mic.length + 2 = 83 + f.key_mic.length by omega] at this
      rw [show 4 + (77 + f.key_mic.length) = 81 + f.key_mic.length by omega, List.append_assoc _ _ (buf.drop _),
        this]
      simp only [List.append_assoc]
    have := WrErr.ofEmits (WEmits.gwrite h)
      ([2, 3] ++ (buf.drop 2).take 2 ++ F ++ (buf.drop (81 + f.key_mic.length)).take 2)
      (buf.drop (83 + f.key_mic.length)) (by rw [List.length_drop]; omega)
    rw [d6, List.length_append, List.length_append, e4, hF, hol] at this
    exact WrErr.bind_left this

omit [ScrollRule] in
/-- The size reported is the number of bytes written, when that holds of the key data. -/
theorem c37_measure (f : EapolKeyFrame Obj) (data : Bytes) (h : f.key_data.measure = data.length) :
    measureEapolKeyFrame f = (eapolWire 2 f (Arr.zero 8).val data).length := by
  rw [eapolWire_length]
  simp only [measureEapolKeyFrame, h]
  omega

omit [ScrollRule] in
/-- The two length fields of a frame: the first is the number of bytes after it, the second the number of
bytes of key data, both reduced modulo 2^16. -/
theorem c37_length_fields {κ : Type} (v : Byte) (f : EapolKeyFrame κ) (res : Arr 8) (data : Bytes) :
    (fromBE 16 ((eapolWire v f res.val data).drop 2 |>.take 2)).toNat =
      ((eapolWire v f res.val data).length - 4) % 65536 ∧
    (fromBE 16 ((eapolWire v f res.val data).drop (81 + f.key_mic.length) |>.take 2)).toNat = data.length % 65536 := by
  constructor
  · rw [eapolWire_length]
    simp only [eapolWire, List.drop]
    rw [List.take_append_of_le_length (by simp), List.take_of_length_le (by simp), fromBE_toBE rfl]
    simp only [BitVec.toNat_ofNat]
    omega
  · have e : eapolWire v f res.val data =
        ((v :: 3 :: toBE (BitVec.ofNat 16 (79 + f.key_mic.length + data.length))) ++ eapolFields f res.val ++
          f.key_mic) ++ (toBE (BitVec.ofNat 16 data.length) ++ data) := by
      simp [eapolWire]
    have el : ((v :: 3 :: toBE (BitVec.ofNat 16 (79 + f.key_mic.length + data.length))) ++
        eapolFields f res.val ++ f.key_mic).length = 81 + f.key_mic.length := by
      simp [fields_length]; omega
    rw [e, ← el, List.drop_left, List.take_append_of_le_length (by simp), List.take_of_length_le (by simp),
      fromBE_toBE rfl]
    simp only [BitVec.toNat_ofNat]

omit [ScrollRule] in
/-- So they are the actual lengths as long as the body is below 2^16 bytes. -/
theorem c37_lengths_partial {κ : Type} (v : Byte) (f : EapolKeyFrame κ) (res : Arr 8) (data : Bytes)
    (hl : 79 + f.key_mic.length + data.length < 65536) :
    (fromBE 16 ((eapolWire v f res.val data).drop 2 |>.take 2)).toNat = (eapolWire v f res.val data).length - 4 ∧
    (fromBE 16 ((eapolWire v f res.val data).drop (81 + f.key_mic.length) |>.take 2)).toNat = data.length := by
  have h := c37_length_fields v f res data
  have hw := eapolWire_length v f res data
  rw [h.1, h.2]
  rw [hw]
  omega

omit [ScrollRule] in
/-- Violation: longer key data is written, with a body length that is too small. -/
theorem c37_length_wraps {κ : Type} (v : Byte) (f : EapolKeyFrame κ) (res : Arr 8) (data : Bytes)
    (hl : 65536 ≤ 79 + f.key_mic.length + data.length) :
    (fromBE 16 ((eapolWire v f res.val data).drop 2 |>.take 2)).toNat < (eapolWire v f res.val data).length - 4 := by
  have h := c37_length_fields v f res data
  have hw := eapolWire_length v f res data
  rw [h.1]
  rw [hw]
  omega

example : 65536 ≤ 79 + (List.replicate 16 (0xab : Byte)).length + (List.replicate 65500 (0 : Byte)).length := by
  rw [List.length_replicate, List.length_replicate]
  decide

omit [ScrollRule] in
/-- Where each field is, counted from the first byte of the frame, and that the integers are big-endian. -/
theorem c37_offsets {κ : Type} (v : Byte) (f : EapolKeyFrame κ) (res : Arr 8) (data : Bytes) :
    let w := eapolWire v f res.val data
    let field (start len : Nat) : Bytes := (w.drop start).take len
    field 0 1 = [v] ∧ field 1 1 = [3] ∧ field 4 1 = [2] ∧
    fromBE 16 (field 5 2) = f.key_information.bits ∧
    fromBE 16 (field 7 2) = f.key_length ∧
    fromBE 64 (field 9 8) = f.key_replay_counter ∧
    field 17 32 = f.key_nonce.val ∧
    fromBE 128 (field 49 16) = f.key_iv ∧
    fromBE 64 (field 65 8) = f.key_rsc ∧
    field 73 8 = res.val ∧
    field 81 f.key_mic.length = f.key_mic ∧
    w.drop (83 + f.key_mic.length) = data := by
  have go : ∀ (a b c : Bytes) (n m : Nat), a.length = n → b.length = m →
      ((a ++ (b ++ c)).drop n).take m = b := by
    rintro a b c n m rfl rfl
    rw [List.drop_left, List.take_left]
  generalize hL : toBE (BitVec.ofNat 16 (79 + f.key_mic.length + data.length)) = L
  generalize hD : toBE (BitVec.ofNat 16 data.length) = D
  have lL : L.length = 2 := by rw [← hL]; simp
  have lD : D.length = 2 := by rw [← hD]; simp
  have e : eapolWire v f res.val data = [v] ++ ([3] ++ (L ++ ([2] ++ (toBE f.key_information.bits ++
      (toBE f.key_length ++ (toBE f.key_replay_counter ++ (f.key_nonce.val ++ (toBE f.key_iv ++
      (toBE f.key_rsc ++ (res.val ++ (f.key_mic ++ (D ++ data)))))))))))) := by
    simp [eapolWire, eapolFields, hL, hD]
  intro w field
  refine ⟨?_, ?_, ?_, ?_, ?_, ?_, ?_, ?_, ?_, ?_, ?_, ?_⟩
  · simp only [field, w, e]; exact go [] [v] _ 0 1 rfl rfl
  · simp only [field, w, e]; exact go [v] [3] _ 1 1 rfl rfl
  · simp only [field, w, e]
    have := fun c => go ([v] ++ ([3] ++ L)) [2] c 4 1 (by simp [lL]) rfl
    simp only [List.append_assoc] at this
    rw [this]
  · simp only [field, w, e]
    have := fun c => go ([v] ++ ([3] ++ (L ++ [2]))) (toBE f.key_information.bits) c 5 2 (by simp [lL]) (by simp)
    simp only [List.append_assoc] at this
    rw [this, fromBE_toBE rfl]
  · simp only [field, w, e]
    have := fun c => go ([v] ++ ([3] ++ (L ++ ([2] ++ toBE f.key_information.bits)))) (toBE f.key_length) c 7 2
      (by simp [lL]) (by simp)
    simp only [List.append_assoc] at this
    rw [this, fromBE_toBE rfl]
  · simp only [field, w, e]
    have := fun c => go ([v] ++ ([3] ++ (L ++ ([2] ++ (toBE f.key_information.bits ++ toBE f.key_length)))))
      (toBE f.key_replay_counter) c 9 8 (by simp [lL]) (by simp)
    simp only [List.append_assoc] at this
    rw [this, fromBE_toBE rfl]
  · simp only [field, w, e]
    have := fun c => go ([v] ++ ([3] ++ (L ++ ([2] ++ (toBE f.key_information.bits ++ (toBE f.key_length ++
      toBE f.key_replay_counter)))))) f.key_nonce.val c 17 32 (by simp [lL]) (by simp)
    simp only [List.append_assoc] at this
    rw [this]
  · simp only [field, w, e]
    have := fun c => go ([v] ++ ([3] ++ (L ++ ([2] ++ (toBE f.key_information.bits ++ (toBE f.key_length ++
      (toBE f.key_replay_counter ++ f.key_nonce.val))))))) (toBE f.key_iv) c 49 16 (by simp [lL]) (by simp)
    simp only [List.append_assoc] at this
    rw [this, fromBE_toBE rfl]
  · simp only [field, w, e]
    have := fun c => go ([v] ++ ([3] ++ (L ++ ([2] ++ (toBE f.key_information.bits ++ (toBE f.key_length ++
      (toBE f.key_replay_counter ++ (f.key_nonce.val ++ toBE f.key_iv)))))))) (toBE f.key_rsc) c 65 8
      (by simp [lL]) (by simp)
    simp only [List.append_assoc] at this
    rw [this, fromBE_toBE rfl]
  · simp only [field, w, e]
    have := fun c => go ([v] ++ ([3] ++ (L ++ ([2] ++ (toBE f.key_information.bits ++ (toBE f.key_length ++
      (toBE f.key_replay_counter ++ (f.key_nonce.val ++ (toBE f.key_iv ++ toBE f.key_rsc))))))))) res.val c 73 8
      (by simp [lL]) (by simp)
    simp only [List.append_assoc] at this
    rw [this]
  · simp only [field, w, e]
    have := fun c => go ([v] ++ ([3] ++ (L ++ ([2] ++ (toBE f.key_information.bits ++ (toBE f.key_length ++
      (toBE f.key_replay_counter ++ (f.key_nonce.val ++ (toBE f.key_iv ++ (toBE f.key_rsc ++ res.val))))))))))
      f.key_mic c 81 _ (by simp [lL]) rfl
    simp only [List.append_assoc] at this
    rw [this]
  · simp only [w, e]
    have h0 : ([v] ++ ([3] ++ (L ++ ([2] ++ (toBE f.key_information.bits ++ (toBE f.key_length ++
      (toBE f.key_replay_counter ++ (f.key_nonce.val ++ (toBE f.key_iv ++ (toBE f.key_rsc ++ (res.val ++
      (f.key_mic ++ D)))))))))))).length = 83 + f.key_mic.length := by
      simp [lL, lD]; omega
    rw [← h0]
    have := List.drop_left (l₁ := [v] ++ ([3] ++ (L ++ ([2] ++ (toBE f.key_information.bits ++ (toBE f.key_length ++
      (toBE f.key_replay_counter ++ (f.key_nonce.val ++ (toBE f.key_iv ++ (toBE f.key_rsc ++ (res.val ++
      (f.key_mic ++ D)))))))))))) (l₂ := data)
    simpa only [List.append_assoc] using this

private theorem start_read (v : Byte) (L : BitVec 16) (rest : Bytes) :
    readEapolStart (v :: 3 :: (toBE L ++ rest)) 0 = .ok (L, 4) := by
  have : RdAt readEapolStart (v :: 3 :: (toBE L ++ rest)) L 4 := by
    apply RdAt.cast
    · unfold readEapolStart
      apply RdAt.u8
      apply RdAt.u8
      rw [if_neg (by decide)]
      exact RdAt.gread (readBE_append (by decide) L rest) (by have := slack_le; simp; omega)
    · rfl
  have := this []
  simpa using this

private theorem body_read (akm : IEEE80211AkmType) (f : EapolKeyFrame Bytes) (res : Arr 8) (extra : Bytes)
    (ha : akm.keyMicLen = some f.key_mic.length) (hd : f.key_data.length < 65536)
    (hs : slack ≤ f.key_data.length + extra.length) :
    RdAt (readEapolBody akm) (eapolFields f res.val ++ (f.key_mic ++ (toBE (BitVec.ofNat 16 f.key_data.length) ++
      (f.key_data ++ extra)))) f (79 + f.key_mic.length + f.key_data.length) := by
  have hsl := slack_le
  apply RdAt.cast
  · unfold readEapolBody eapolFields
    simp only [List.append_assoc, List.cons_append]
    apply RdAt.u8
    rw [if_neg (by decide)]
    rd_steps
    apply RdAt.bind (bs := res.val) (a := ()) (by simpa using RdAt.advance)
    apply RdAt.bind0 (RdAt.lift (a := f.key_mic.length) (by rw [ha]; rfl))
    apply RdAt.bind (bs := f.key_mic) (RdAt.gread (readBytes_append _ _) (by simp; omega))
    apply RdAt.be (h := by decide) (hp := by decide)
    refine RdAt.bind (bs := f.key_data) (a := f.key_data) (RdAt.gread ?_ (by simp; omega)) RdAt.pure
    rw [show (BitVec.ofNat 16 f.key_data.length).toNat = f.key_data.length by simp; omega]
    exact readBytes_append _ _
  · simp; omega

/-- Parsing a frame of any version, with any reserved octets and possibly bytes between the key data and
the end of the body (`extra`), followed by anything. -/
theorem c37_read (akm : IEEE80211AkmType) (v : Byte) (f : EapolKeyFrame Bytes) (res : Arr 8) (extra rest : Bytes)
    (ha : akm.keyMicLen = some f.key_mic.length)
    (hl : 79 + f.key_mic.length + f.key_data.length + extra.length < 65536)
    (hs : slack ≤ f.key_data.length + extra.length) :
    readEapolKeyFrame akm (v :: 3 :: (toBE (BitVec.ofNat 16 (79 + f.key_mic.length + f.key_data.length +
      extra.length)) ++ (eapolFields f res.val ++ (f.key_mic ++ (toBE (BitVec.ofNat 16 f.key_data.length) ++
      (f.key_data ++ (extra ++ rest))))))) = .ok (f, 83 + f.key_mic.length + f.key_data.length) := by
  have hsl := slack_le
  unfold readEapolKeyFrame
  rw [start_read]
  generalize hL : BitVec.ofNat 16 (79 + f.key_mic.length + f.key_data.length + extra.length) = L
  have hLn : L.toNat = 79 + f.key_mic.length + f.key_data.length + extra.length := by
    rw [← hL, BitVec.toNat_ofNat]; omega
  have hb := body_read akm f res extra ha (by omega) hs (v :: 3 :: toBE L)
  have hlen : (v :: 3 :: toBE L).length = 4 := by simp
  have hx : ∀ b : Bytes, (v :: 3 :: toBE L) ++ b = v :: 3 :: (toBE L ++ b) := fun _ => rfl
  rw [hlen, hx] at hb
  generalize hB : v :: 3 :: (toBE L ++ (eapolFields f res.val ++ (f.key_mic ++
    (toBE (BitVec.ofNat 16 f.key_data.length) ++ (f.key_data ++ extra))))) = B at hb
  have hBl : B.length = L.toNat + 4 := by
    rw [← hB, hLn]; simp [fields_length]; omega
  have hin : v :: 3 :: (toBE L ++ (eapolFields f res.val ++ (f.key_mic ++
    (toBE (BitVec.ofNat 16 f.key_data.length) ++ (f.key_data ++ (extra ++ rest)))))) = B ++ rest := by
    rw [← hB]; simp
  rw [hin]
  have hp : pread (readBytes (L.toNat + 4)) 0 (B ++ rest) = .ok B := by
    have := RdAt.gread (readBytes_append B rest) (by simp; omega) []
    rw [← hBl]
    simp only [List.nil_append, List.length_nil] at this
    simp only [pread, this, Res.map]
  show (pread (readBytes (L.toNat + 4)) 0 (B ++ rest) >>= fun b => readEapolBody akm b 4) = _
  rw [hp]
  show readEapolBody akm B 4 = _
  rw [hb]
  congr 2
  omega

/-- Round trip: what is written is parsed back under an AKM whose MIC length is that of the frame, with
anything following, provided the body length fits its field and (under the strict rule) there is key data. -/
theorem c37_round_trip_partial (akm : IEEE80211AkmType) (f : EapolKeyFrame Bytes) (rest : Bytes)
    (ha : akm.keyMicLen = some f.key_mic.length)
    (hl : 79 + f.key_mic.length + f.key_data.length < 65536) (hs : slack ≤ f.key_data.length) (buf : Bytes)
    (hb : 83 + f.key_mic.length + f.key_data.length ≤ buf.length) :
    ∃ out, writeEapolKeyFrame { f with key_data := bytesObj f.key_data } buf =
      .ok (out ++ buf.drop out.length, out.length) ∧
      readEapolKeyFrame akm (out ++ rest) = .ok (f, out.length) := by
  have hw := (c37_write { f with key_data := bytesObj f.key_data } f.key_data _ (Emits.bytes _)).ok buf
    (by simp; omega)
  refine ⟨_, hw, ?_⟩
  rw [eapolWire_length]
  have := c37_read akm 2 f (Arr.zero 8) [] rest ha (by simpa using hl) (by simpa using hs)
  simpa [eapolWire, eapolFields] using this

omit [ScrollRule] in
private theorem ofOption_ne_panic {α : Type} (e : Err) (x : Option α) : Res.ofOption e x ≠ .panic := by
  cases x <;> simp [Res.ofOption]

private theorem start_parses :
    Parses readEapolStart (fun L bs _ => ∃ v, bs = v :: 3 :: toBE L) := by
  unfold readEapolStart
  refine (Parses.bind (Parses.gread' readU8_parses) fun v => Parses.bind (Parses.gread' readU8_parses) fun t =>
    Parses.ite (fun _ => Parses.fail (Q := fun _ _ _ => False)) fun _ =>
      Parses.gread' (readBE_parses 16 rfl)).imp ?_
  rintro L bs rest ⟨v, b1, b2, rfl, rfl, t, b3, b4, rfl, rfl, h | ⟨ht, rfl⟩⟩
  · exact h.2.elim
  · have : t = 3 := by simpa using ht
    exact ⟨v, by simp [this]⟩

private theorem body_parses (akm : IEEE80211AkmType) :
    Parses (readEapolBody akm) (fun f bs rest => ∃ res : Arr 8, akm.keyMicLen = some f.key_mic.length ∧
      f.key_data.length < 65536 ∧ slack ≤ f.key_data.length + rest.length ∧
      bs = eapolFields f res.val ++ (f.key_mic ++ (toBE (BitVec.ofNat 16 f.key_data.length) ++ f.key_data))) := by
  unfold readEapolBody
  refine (Parses.bind (Parses.gread' readU8_parses) fun d =>
    Parses.ite (fun _ => Parses.fail (Q := fun _ _ _ => False)) fun _ =>
    Parses.bind (Parses.gread' (readBE_parses 16 rfl)) fun a1 =>
    Parses.bind (Parses.gread' (readBE_parses 16 rfl)) fun a2 =>
    Parses.bind (Parses.gread' (readBE_parses 64 rfl)) fun a3 =>
    Parses.bind (Parses.gread' (readArr_parses 32)) fun a4 =>
    Parses.bind (Parses.gread' (readBE_parses 128 rfl)) fun a5 =>
    Parses.bind (Parses.gread' (readBE_parses 64 rfl)) fun a6 =>
    Parses.skip (Q := fun (f : EapolKeyFrame Bytes) bs rest => f.key_information = ⟨a1⟩ ∧ f.key_length = a2 ∧
      f.key_replay_counter = a3 ∧ f.key_nonce = a4 ∧ f.key_iv = a5 ∧ f.key_rsc = a6 ∧
      akm.keyMicLen = some f.key_mic.length ∧ f.key_data.length < 65536 ∧
      slack ≤ f.key_data.length + rest.length ∧ bs = f.key_mic ++ (toBE (BitVec.ofNat 16 f.key_data.length) ++ f.key_data)) ?_ ?_).imp ?_
  · refine Rd.Needs.lift (ofOption_ne_panic _ _) fun m inp off hl => ?_
    exact Rd.Needs.left (Rd.Needs.gread (readBytes_fixed m)) inp off (by omega)
  · refine (Parses.bind Parses.lift fun m => Parses.bind (Parses.gread' (readBytes_parses m)) fun mic =>
      Parses.bind (Parses.gread' (readBE_parses 16 rfl)) fun dl =>
      Parses.bind (Parses.gread (readBytes_parses dl.toNat)) fun d => Parses.pure).imp ?_
    rintro f bs rest ⟨m, _, _, rfl, ⟨hm, rfl⟩, mic, _, _, rfl, ⟨rfl, hml⟩, dl, _, _, rfl, rfl, d, _, _, rfl,
      ⟨⟨rfl, hdl⟩, hsl⟩, rfl, rfl⟩
    refine ⟨rfl, rfl, rfl, rfl, rfl, rfl, ?_, ?_, ?_, ?_⟩
    · cases hk : akm.keyMicLen with
      | none => rw [hk] at hm; cases hm
      | some x =>
        rw [hk] at hm
        simp only [Res.ofOption, Res.ok.injEq] at hm
        simp only [hml, hm]
    · simp only [hdl]; exact dl.isLt
    · simpa using hsl
    · simp only [hdl]
      simp
  · rintro ⟨i, kl, rc, no, iv, rsc, mic, dat⟩ bs rest ⟨d, _, _, rfl, rfl, h | ⟨hd, h⟩⟩
    · exact h.2.elim
    · obtain ⟨a1, _, _, rfl, rfl, a2, _, _, rfl, rfl, a3, _, _, rfl, rfl, a4, _, _, rfl, rfl, a5, _, _, rfl, rfl,
        a6, _, _, rfl, rfl, res, b2, rfl, rfl, rfl, rfl, rfl, rfl, rfl, h7, h8, h9, rfl⟩ := h
      have : d = 2 := by simpa using hd
      exact ⟨res, h7, h8, h9, by simp [eapolFields, this]⟩

/-- Whatever is accepted is a frame of type 3 and descriptor type 2 with the AKM's MIC length, whose fields
are the ones returned; the body length field covers the whole frame and perhaps more. -/
theorem c37_parse (akm : IEEE80211AkmType) (inp : Bytes) (f : EapolKeyFrame Bytes) (n : Nat)
    (h : readEapolKeyFrame akm inp = .ok (f, n)) :
    ∃ (v : Byte) (L : BitVec 16) (res : Arr 8) (extra rest : Bytes),
      akm.keyMicLen = some f.key_mic.length ∧ slack ≤ f.key_data.length + extra.length ∧
      L.toNat = 79 + f.key_mic.length + f.key_data.length + extra.length ∧
      n = 83 + f.key_mic.length + f.key_data.length ∧
      inp = v :: 3 :: (toBE L ++ (eapolFields f res.val ++ (f.key_mic ++
        (toBE (BitVec.ofNat 16 f.key_data.length) ++ (f.key_data ++ (extra ++ rest)))))) := by
  unfold readEapolKeyFrame at h
  cases hs : readEapolStart inp 0 with
  | err e => rw [hs] at h; cases h
  | panic => rw [hs] at h; cases h
  | ok x =>
    obtain ⟨L, o⟩ := x
    obtain ⟨bs, r1, rfl, ho, v, rfl⟩ := start_parses [] inp L o hs
    have ho : o = 4 := by simpa using ho
    subst ho
    rw [hs] at h
    generalize hin : v :: 3 :: toBE L ++ r1 = inp at *
    have h : (pread (readBytes (L.toNat + 4)) 0 inp >>= fun b => readEapolBody akm b 4) = .ok (f, n) := h
    cases hp : pread (readBytes (L.toNat + 4)) 0 inp with
    | err e => rw [hp] at h; cases h
    | panic => rw [hp] at h; cases h
    | ok B =>
      rw [hp] at h
      have h : readEapolBody akm B 4 = .ok (f, n) := h
      have hB : B = inp.take (L.toNat + 4) ∧ L.toNat + 4 ≤ inp.length := by
        simp only [pread, Rd.gread] at hp
        split at hp
        · cases hp
        · simp only [List.drop_zero, readBytes] at hp
          by_cases hc : L.toNat + 4 ≤ inp.length
          · rw [if_pos hc] at hp
            simp only [Res.map, Res.ok.injEq] at hp
            exact ⟨hp.symm, hc⟩
          · rw [if_neg hc] at hp; cases hp
      have hr1 : inp.length = 4 + r1.length := by rw [← hin]; simp; omega
      have hB2 : B = (v :: 3 :: toBE L) ++ r1.take L.toNat := by
        rw [hB.1, ← hin, List.take_append, List.take_of_length_le (by simp)]
        simp
      rw [hB2] at h
      obtain ⟨bs, extra, e1, e2, res, h1, _, h2, h3⟩ := body_parses akm (v :: 3 :: toBE L) _ f n (by simpa using h)
      have hbl : bs.length = 79 + f.key_mic.length + f.key_data.length := by
        rw [h3]; simp [fields_length]; omega
      have hl := congrArg List.length e1
      simp only [List.length_take, List.length_append] at hl
      refine ⟨v, L, res, extra, r1.drop L.toNat, h1, h2, ?_, ?_, ?_⟩
      · omega
      · rw [e2, hbl]; simp; omega
      · rw [← hin]
        conv => lhs; rw [← List.take_append_drop L.toNat r1, e1, h3]
        simp

/-- No input makes the parser panic, and it never claims to have consumed more than there is. -/
theorem c37_safe (akm : IEEE80211AkmType) : SafeReader (readEapolKeyFrame akm) := by
  have hst : Rd.Safe readEapolStart := by
    unfold readEapolStart
    refine Rd.Safe.bind (Rd.Safe.gread (readLE_fixed _).safe) fun v =>
      Rd.Safe.bind (Rd.Safe.gread (readLE_fixed _).safe) fun t => Rd.Safe.ite (fun _ => Rd.Safe.fail) fun _ =>
      Rd.Safe.gread (readBE_fixed _).safe
  have hbo : Rd.Safe (readEapolBody akm) := by
    unfold readEapolBody
    refine Rd.Safe.bind (Rd.Safe.gread (readLE_fixed _).safe) fun d => Rd.Safe.ite (fun _ => Rd.Safe.fail) fun _ => ?_
    rd_safe
    refine Rd.Safe.skip (fun inp off hl => ?_) ?_
    · refine Rd.Needs.lift (n := 0) (ofOption_ne_panic _ _) (fun m inp off hl => ?_) inp off hl
      exact Rd.Needs.left (Rd.Needs.gread (readBytes_fixed m)) inp off (by omega)
    · refine Rd.Safe.bind (Rd.Safe.lift (ofOption_ne_panic _ _)) fun m => ?_
      rd_safe
  intro inp
  have h0 := hst inp 0 (Nat.zero_le _)
  unfold readEapolKeyFrame
  cases hs : readEapolStart inp 0 with
  | err e => trivial
  | panic => rw [hs] at h0; exact h0.elim
  | ok x =>
    obtain ⟨L, o⟩ := x
    obtain ⟨bs, r1, _, ho, v, rfl⟩ := start_parses [] inp L o hs
    have ho : o = 4 := by simpa using ho
    subst ho
    have hE : (Res.ok (L, 4) >>= fun x => pread (readBytes (x.1.toNat + 4)) 0 inp >>= fun b =>
        readEapolBody akm b x.2) = pread (readBytes (L.toNat + 4)) 0 inp >>= fun b => readEapolBody akm b 4 := rfl
    rw [hE]
    have h1 := Rd.Safe.gread (readBytes_fixed (L.toNat + 4)).safe inp 0 (Nat.zero_le _)
    simp only [pread]
    cases hg : Rd.gread (readBytes (L.toNat + 4)) inp 0 with
    | err e => trivial
    | panic => rw [hg] at h1; exact h1.elim
    | ok y =>
      obtain ⟨B, n⟩ := y
      rw [hg] at h1
      have hB : B.length = L.toNat + 4 ∧ n = L.toNat + 4 := by
        simp only [Rd.gread] at hg
        split at hg
        · cases hg
        · simp only [List.drop_zero, readBytes] at hg
          by_cases hc : L.toNat + 4 ≤ inp.length
          · rw [if_pos hc] at hg
            simp only [Res.ok.injEq, Prod.mk.injEq] at hg
            refine ⟨?_, by omega⟩
            rw [← hg.1, List.length_take]; omega
          · rw [if_neg hc] at hg; cases hg
      have hE2 : (((Res.ok (B, n)).map Prod.fst) >>= fun b => readEapolBody akm b 4) = readEapolBody akm B 4 := rfl
      rw [hE2]
      have h2 := hbo B 4 (by omega)
      cases hr : readEapolBody akm B 4 with
      | err e => trivial
      | panic => rw [hr] at h2; exact h2
      | ok z =>
        rw [hr] at h2
        have := h1.2
        exact Nat.le_trans h2.2 (by omega)

/-- Frames of another type or descriptor type, or for an AKM without a known MIC length, are errors; so is a
body length beyond the input or too small for the fields, MIC and key data. -/
theorem c37_errors (akm : IEEE80211AkmType) :
    (∀ (v t : Byte) (rest : Bytes), t ≠ 3 → ∃ e, readEapolKeyFrame akm (v :: t :: rest) = .err e) ∧
    (∀ (v : Byte) (L : BitVec 16) (d : Byte) (rest : Bytes), d ≠ 2 →
      ∃ e, readEapolKeyFrame akm (v :: 3 :: (toBE L ++ d :: rest)) = .err e) ∧
    (akm.keyMicLen = none → ∀ inp, ∃ e, readEapolKeyFrame akm inp = .err e) ∧
    (∀ (v : Byte) (L : BitVec 16) (rest : Bytes), rest.length < L.toNat →
      ∃ e, readEapolKeyFrame akm (v :: 3 :: (toBE L ++ rest)) = .err e) ∧
    (∀ (v : Byte) (L : BitVec 16) (rest : Bytes) (m : Nat), akm.keyMicLen = some m → L.toNat < 79 + m →
      ∃ e, readEapolKeyFrame akm (v :: 3 :: (toBE L ++ rest)) = .err e) := by
  have key : ∀ inp, (∀ f n, readEapolKeyFrame akm inp ≠ .ok (f, n)) → ∃ e, readEapolKeyFrame akm inp = .err e := by
    intro inp hno
    have hs := c37_safe akm inp
    cases hr : readEapolKeyFrame akm inp with
    | ok x => exact absurd hr (hno x.1 x.2)
    | err e => exact ⟨e, rfl⟩
    | panic => rw [hr] at hs; exact hs.elim
  have split : ∀ {v v' : Byte} {L L' : BitVec 16} {r r' : Bytes},
      v :: 3 :: (toBE L ++ r) = v' :: 3 :: (toBE L' ++ r') → L = L' ∧ r = r' := by
    intro v v' L L' r r' e
    simp only [List.cons.injEq, true_and] at e
    obtain ⟨h1, h2⟩ := List.append_inj e.2 (by simp)
    refine ⟨?_, h2⟩
    rw [← fromBE_toBE (w := 16) rfl L, h1, fromBE_toBE rfl]
  refine ⟨fun v t rest ht => key _ ?_, fun v L d rest hd => key _ ?_, fun hk inp => key _ ?_,
    fun v L rest hl => key _ ?_, fun v L rest m hk hl => key _ ?_⟩
  · intro f n hr
    obtain ⟨v', L', res, extra, rest', _, _, _, _, e⟩ := c37_parse akm _ f n hr
    simp only [List.cons.injEq] at e
    exact ht e.2.1
  · intro f n hr
    obtain ⟨v', L', res, extra, rest', _, _, _, _, e⟩ := c37_parse akm _ f n hr
    have := (split e).2
    simp only [eapolFields, List.cons_append, List.cons.injEq] at this
    exact hd this.1
  · intro f n hr
    obtain ⟨v', L', res, extra, rest', h1, _⟩ := c37_parse akm _ f n hr
    rw [hk] at h1; cases h1
  · intro f n hr
    obtain ⟨v', L', res, extra, rest', h1, _, h3, _, e⟩ := c37_parse akm _ f n hr
    obtain ⟨rfl, rfl⟩ := split e
    simp [fields_length] at hl
    omega
  · intro f n hr
    obtain ⟨v', L', res, extra, rest', h1, _, h3, _, e⟩ := c37_parse akm _ f n hr
    obtain ⟨rfl, _⟩ := split e
    rw [hk] at h1
    cases h1
    omega

/-- Violation: the property wants other protocol versions refused, but the parser does not look at the
version. -/
theorem c37_version_ignored (akm : IEEE80211AkmType) (v v' : Byte) (rest : Bytes) (f : EapolKeyFrame Bytes) (n : Nat)
    (h : readEapolKeyFrame akm (v :: rest) = .ok (f, n)) : readEapolKeyFrame akm (v' :: rest) = .ok (f, n) := by
  obtain ⟨w, L, res, extra, rest', h1, h2, h3, h4, e⟩ := c37_parse akm _ f n h
  simp only [List.cons.injEq] at e
  rw [e.2, h4]
  have := L.isLt
  have hL : L = BitVec.ofNat 16 (79 + f.key_mic.length + f.key_data.length + extra.length) := by
    rw [← h3]; simp
  rw [hL]
  exact c37_read akm v' f res extra rest' h1 (by omega) h2

/-- Violation: under the strict rule of scroll a frame without key data (handshake message 4) whose body
ends right there is refused, whatever follows it in the buffer. -/
theorem c37_empty_strict (hs : slack = 1) (akm : IEEE80211AkmType) (v : Byte) (f : EapolKeyFrame Bytes) (res : Arr 8)
    (rest : Bytes) (ha : akm.keyMicLen = some f.key_mic.length) (hm : 79 + f.key_mic.length < 65536) :
    ∃ e, readEapolKeyFrame akm (eapolWire v f res.val [] ++ rest) = .err e := by
  have hsafe := c37_safe akm (eapolWire v f res.val [] ++ rest)
  cases hr : readEapolKeyFrame akm (eapolWire v f res.val [] ++ rest) with
  | err e => exact ⟨e, rfl⟩
  | panic => rw [hr] at hsafe; exact hsafe.elim
  | ok x =>
    obtain ⟨g, n⟩ := x
    exfalso
    obtain ⟨w, L, res', extra, rest', h1, h2, h3, h4, e⟩ := c37_parse akm _ g n hr
    have hw : eapolWire v f res.val [] ++ rest = v :: 3 ::
        (toBE (BitVec.ofNat 16 (79 + f.key_mic.length)) ++ (eapolFields f res.val ++ (f.key_mic ++
        (toBE (0 : BitVec 16) ++ rest)))) := by simp [eapolWire]
    rw [hw] at e
    simp only [List.cons.injEq, true_and] at e
    obtain ⟨e1, e2⟩ := List.append_inj e.2 (by simp)
    have e1 : BitVec.ofNat 16 (79 + f.key_mic.length) = L := by
      rw [← fromBE_toBE (w := 16) rfl (BitVec.ofNat 16 (79 + f.key_mic.length)), e1, fromBE_toBE rfl]
    rw [ha] at h1
    have h1 : f.key_mic.length = g.key_mic.length := by simpa using h1
    rw [← e1, BitVec.toNat_ofNat] at h3
    omega

/-- Message 4 of the handshake, twenty bytes of key data, and their wire forms. -/
private def exFrame (data : Bytes) : EapolKeyFrame Bytes where
  key_information := ⟨0x030a⟩
  key_length := 0x0102
  key_replay_counter := 0x0102030405060708
  key_nonce := ⟨List.replicate 32 0x11, rfl⟩
  key_iv := 0x0f
  key_rsc := 0x22
  key_mic := List.replicate 16 0xab
  key_data := data

example : IEEE80211AkmType.Psk.keyMicLen = some (exFrame [1]).key_mic.length := by decide

example (s : Bool) :
    letI : ScrollRule := ⟨s⟩
    writeEapolKeyFrame { exFrame [1, 2, 3] with key_data := bytesObj [1, 2, 3] } (List.replicate 103 7) =
      .ok ([2, 3, 0, 98, 2, 3, 0x0a, 1, 2, 1, 2, 3, 4, 5, 6, 7, 8] ++ List.replicate 32 0x11 ++
        List.replicate 15 0 ++ [0x0f] ++ List.replicate 7 0 ++ [0x22] ++ List.replicate 8 0 ++
        List.replicate 16 0xab ++ [0, 3, 1, 2, 3, 7], 102) ∧
    readEapolKeyFrame .Psk (eapolWire 2 (exFrame [1, 2, 3]) (List.replicate 8 9) [1, 2, 3] ++ [0xff]) =
      .ok (exFrame [1, 2, 3], 102) ∧
    (readEapolKeyFrame .Psk (eapolWire 1 (exFrame []) (List.replicate 8 9) [] ++ [0xff])).isOk = !s ∧
    (writeEapolKeyFrame { exFrame [1, 2, 3] with key_data := bytesObj [1, 2, 3] } (List.replicate 101 7)).isErr =
      true := by
  cases s <;> decide +kernel

end Verif
