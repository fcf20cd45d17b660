import Verif.Model.Elements.Simple
import Verif.Spec.Utf8
/-!
# C10: SSID and mesh ID

The claim about names is stated with `Spec.IsUtf8` (the bytes encode a sequence of Unicode scalar
values) rather than with the validity check of the parser.
-/
namespace Verif

open Spec

variable [ScrollRule]

omit [ScrollRule] in
/-- Creation succeeds exactly for names of at most 32 bytes, and keeps the name. -/
theorem c10_new (s : Str) (e : SSIDLikeElement) :
    SSIDLikeElement.new s = some e ↔ s.bytes.length ≤ 32 ∧ e.ssid = s := by
  unfold SSIDLikeElement.new Str.len
  obtain ⟨t⟩ := e
  split
  · rename_i h
    simp [h, eq_comm]
  · rename_i h
    simp [h]

omit [ScrollRule] in
/-- Parsing succeeds exactly on at most 32 bytes of UTF-8; the name is the whole input. -/
theorem c10_parse (inp : Bytes) (e : SSIDLikeElement) (n : Nat) :
    readSSID inp = .ok (e, n) ↔
      inp.length ≤ 32 ∧ IsUtf8 inp ∧ e.ssid.bytes = inp ∧ n = inp.length := by
  obtain ⟨⟨b, hb⟩⟩ := e
  unfold readSSID
  by_cases h1 : 32 < inp.length
  · rw [if_pos h1]
    constructor
    · intro h; cases h
    · intro h; omega
  · rw [if_neg h1]
    by_cases h2 : utf8Valid inp = true
    · simp only [readStr, Nat.lt_irrefl, if_false, List.take_length, h2, dite_true, Res.ok_bind,
        Res.pure_eq, Res.ok.injEq, Prod.mk.injEq, SSIDLikeElement.mk.injEq, Str.mk.injEq]
      constructor
      · rintro ⟨rfl, rfl⟩
        exact ⟨by omega, (utf8Valid_iff _).1 h2, rfl, rfl⟩
      · rintro ⟨_, _, rfl, rfl⟩
        exact ⟨rfl, rfl⟩
    · simp only [readStr, Nat.lt_irrefl, if_false, List.take_length, h2]
      constructor
      · intro h; cases h
      · rintro ⟨_, h, _⟩
        exact absurd ((utf8Valid_iff _).2 h) h2

omit [ScrollRule] in
/-- Everything else is an error, not a panic. -/
theorem c10_parse_error (inp : Bytes) (h : ¬ (inp.length ≤ 32 ∧ IsUtf8 inp)) :
    ∃ x, readSSID inp = .err x := by
  unfold readSSID
  by_cases h1 : 32 < inp.length
  · exact ⟨.tooBig, if_pos h1⟩
  · have h2 : ¬ utf8Valid inp = true := fun h2 => h ⟨by omega, (utf8Valid_iff _).1 h2⟩
    rw [if_neg h1]
    exact ⟨.badInput, by simp [readStr, h2]⟩

/-- Writing emits exactly the bytes of the name; the reported size is their number.  (With the strict
offset rule of `scroll`, writing the empty name needs a non-empty buffer.) -/
theorem c10_write (e : SSIDLikeElement) :
    Emits (writeSSID e) e.ssid.bytes (max e.ssid.bytes.length slack) ∧
      measureSSID e = e.ssid.bytes.length :=
  ⟨Emits.pwrite0 (Emits.bytes _), rfl⟩

omit [ScrollRule] in
/-- What is written for a name that could be created parses back to the same element. -/
theorem c10_round_trip (s : Str) (e : SSIDLikeElement) (h : SSIDLikeElement.new s = some e) :
    readSSID e.ssid.bytes = .ok (e, measureSSID e) := by
  obtain ⟨hl, rfl⟩ := (c10_new s e).1 h
  exact (c10_parse _ _ _).2 ⟨hl, (utf8Valid_iff _).1 e.ssid.valid, rfl, rfl⟩

omit [ScrollRule] in
/-- A hidden SSID is exactly the empty name. -/
theorem c10_hidden (e : SSIDLikeElement) : e.isHidden = true ↔ e.ssid.bytes = [] := by
  simp [SSIDLikeElement.isHidden]

/-- Concrete case: "é" is accepted, a lone continuation byte and 33 letters are not. -/
example : IsUtf8 [0xc3, 0xa9] ∧
    (readSSID [0xc3, 0xa9]).isOk = true ∧ (readSSID [0xa9]).isErr = true ∧
    (readSSID (List.replicate 33 0x61)).isErr = true ∧
    (readSSID (List.replicate 32 0x61)).isOk = true :=
  ⟨⟨[0xe9], by simp [IsScalar], by decide⟩, by decide, by decide, by decide, by decide⟩

end Verif
