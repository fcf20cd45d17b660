import Verif.Model.Common
/-!
# C05: frame check sequence

`Crc32.hash` is an arbitrary function: the theorems hold for any checksum.
-/
namespace Verif

variable [ScrollRule] [Crc32]

private theorem strip_eq (body fcs : Bytes) (h : fcs.length = 4) :
    stripAndValidateFcs (body ++ fcs) =
      if fromLE 32 fcs = Crc32.hash body then .ok body else .err .badInput := by
  have hs : Res.sub (body ++ fcs).length 4 = .ok body.length := by
    simp [Res.sub, h]
  have hp : pread (readLE 32) 0 fcs = .ok (fromLE 32 fcs) := by
    have hsl := slack_le
    simp only [pread, Rd.gread, badOff_eq, List.drop_zero, readLE, h]
    rw [if_neg (by simp; omega)]
    simp [List.take_of_length_le (Nat.le_of_eq h), Res.map]
  simp only [stripAndValidateFcs, hs, Res.ok_bind, List.take_left, List.drop_left, hp]
  rfl

omit [ScrollRule] [Crc32] in
private theorem split4 (bs : Bytes) (h : 4 ≤ bs.length) :
    ∃ body fcs : Bytes, bs = body ++ fcs ∧ fcs.length = 4 :=
  ⟨bs.take (bs.length - 4), bs.drop (bs.length - 4), by simp, by simp; omega⟩

/-- Validation succeeds exactly when the last four bytes are the little-endian checksum of all
preceding bytes, and then returns exactly the preceding bytes. -/
theorem c05_accepts_iff (bs out : Bytes) :
    stripAndValidateFcs bs = .ok out ↔ bs = out ++ toLE (Crc32.hash out) := by
  constructor
  · intro h
    by_cases h4 : 4 ≤ bs.length
    · obtain ⟨body, fcs, rfl, hf⟩ := split4 bs h4
      rw [strip_eq body fcs hf] at h
      split at h
      · rename_i he
        cases h
        rw [← he, toLE_fromLE rfl fcs (by simpa using hf)]
      · cases h
    · have : Res.sub bs.length 4 = .panic := by simp [Res.sub]; omega
      simp [stripAndValidateFcs, this] at h
  · rintro rfl
    rw [strip_eq _ _ (by simp), if_pos (fromLE_toLE rfl _)]

/-- A frame of at least four bytes whose trailer is anything else is rejected with an error. -/
theorem c05_rejects_with (body fcs : Bytes) (h : fcs.length = 4) (hne : fcs ≠ toLE (Crc32.hash body)) :
    stripAndValidateFcs (body ++ fcs) = .err .badInput := by
  rw [strip_eq body fcs h, if_neg]
  intro he
  apply hne
  rw [← he, toLE_fromLE rfl fcs (by simpa using h)]

theorem c05_rejects (body fcs : Bytes) (h : fcs.length = 4) (hne : fcs ≠ toLE (Crc32.hash body)) :
    ∃ e, stripAndValidateFcs (body ++ fcs) = .err e := ⟨_, c05_rejects_with body fcs h hne⟩

/-- In particular changing any one byte of a correct trailer makes it rejected. -/
theorem c05_trailer_corruption (body : Bytes) (i : Nat) (hi : i < 4) (b : Byte)
    (hb : (toLE (Crc32.hash body))[i]? ≠ some b) :
    ∃ e, stripAndValidateFcs (body ++ (toLE (Crc32.hash body)).set i b) = .err e := by
  apply c05_rejects
  · simp
  · intro he
    apply hb
    rw [← he]
    simp [hi]

/-- Attaching writes the checksum of everything before the offset at the offset, leaves the rest of
the buffer alone, and advances the offset by four. -/
theorem c05_attach (pre buf : Bytes) (h : 4 ≤ buf.length) :
    attachFcs (pre ++ buf) pre.length =
      .ok ((), pre ++ toLE (Crc32.hash pre) ++ buf.drop 4, pre.length + 4) := by
  have := (WEmits.gwrite_pos (Emits.writeLE (Crc32.hash pre)) (by decide)).ok pre buf h
  simp only [attachFcs, List.length_append, List.take_left]
  rw [if_pos (by omega), this]
  simp

/-- With fewer than four bytes left attaching is an error. -/
theorem c05_attach_short (pre buf : Bytes) (h : buf.length < 4) :
    ∃ e, attachFcs (pre ++ buf) pre.length = .err e := by
  have := (WEmits.gwrite_pos (Emits.writeLE (Crc32.hash pre)) (by decide)).err pre buf h
  simp only [attachFcs, List.length_append, List.take_left]
  rw [if_pos (by omega)]
  exact this

/-- What attaching produced is accepted and gives the original bytes back. -/
theorem c05_attach_then_validate (pre buf : Bytes) (h : 4 ≤ buf.length) :
    ∃ buf' off, attachFcs (pre ++ buf) pre.length = .ok ((), buf', off) ∧
      stripAndValidateFcs (buf'.take off) = .ok pre := by
  refine ⟨_, _, c05_attach pre buf h, ?_⟩
  rw [c05_accepts_iff, List.take_append_of_le_length (by simp),
    List.take_of_length_le (by simp)]

/-- A buffer shorter than four bytes panics (and only then): the last part of C05 does not hold
for the code. -/
theorem c05_short_panics_iff (bs : Bytes) :
    stripAndValidateFcs bs = .panic ↔ bs.length < 4 := by
  constructor
  · intro h
    apply Classical.byContradiction
    intro hn
    obtain ⟨body, fcs, rfl, hf⟩ := split4 bs (by omega)
    rw [strip_eq body fcs hf] at h
    split at h <;> cases h
  · intro h
    have : Res.sub bs.length 4 = .panic := by simp [Res.sub]; omega
    simp [stripAndValidateFcs, this]

/-- Violation of the last part of C05, concretely. -/
theorem c05_short_not_error : ¬ ∀ bs : Bytes, stripAndValidateFcs bs ≠ .panic :=
  fun h => h [] ((c05_short_panics_iff []).2 (by decide))

/-- Concrete case, with a toy checksum (the length of the data). -/
example : let _ : Crc32 := ⟨fun bs => BitVec.ofNat 32 bs.length⟩
    let _ : ScrollRule := ⟨true⟩
    stripAndValidateFcs [7, 8, 2, 0, 0, 0] = .ok [7, 8] ∧
    stripAndValidateFcs [7, 8, 3, 0, 0, 0] = .err .badInput ∧
    attachFcs [7, 8, 9, 9, 9, 9, 9] 2 = .ok ((), [7, 8, 2, 0, 0, 0, 9], 6) := by decide

end Verif
