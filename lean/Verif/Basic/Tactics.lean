import Verif.Basic.Reader
import Verif.Basic.Writer
/-!
# Tactics for bodies of readers and writers
-/
namespace Verif

/-- Goals `RdAt body input ?value ?count`, the input being given piece by piece. -/
macro "rd_steps" : tactic => `(tactic| repeat (first
  | with_reducible exact RdAt.pure
  | with_reducible apply RdAt.u8
  | with_reducible apply RdAt.le (h := by decide) (hp := by decide)
  | with_reducible apply RdAt.be (h := by decide) (hp := by decide)
  | with_reducible apply RdAt.arr (hp := by decide)
  | with_reducible apply RdAt.bind0 RdAt.remaining
  | with_reducible apply RdAt.bind0 (RdAt.lift rfl)))

/-- Goals `Rd.Fixed body ?count`. -/
macro "rd_fixed" : tactic => `(tactic| repeat (first
  | with_reducible exact Rd.Fixed.pure
  | (with_reducible apply Rd.Fixed.bind (Rd.Fixed.gread (readLE_fixed _) (by decide)); intro _)
  | (with_reducible apply Rd.Fixed.bind (Rd.Fixed.gread (readBE_fixed _) (by decide)); intro _)
  | (with_reducible apply Rd.Fixed.bind (Rd.Fixed.gread (readArr_fixed _) (by decide)); intro _)))

/-- Goals `Rd.Safe body`. -/
macro "rd_safe" : tactic => `(tactic| repeat (first
  | with_reducible exact Rd.Safe.pure
  | with_reducible exact Rd.Safe.fail
  | (with_reducible apply Rd.Safe.bind (Rd.Safe.gread (readLE_fixed _).safe); intro _)
  | (with_reducible apply Rd.Safe.bind (Rd.Safe.gread (readBE_fixed _).safe); intro _)
  | (with_reducible apply Rd.Safe.bind (Rd.Safe.gread (readArr_fixed _).safe); intro _)
  | (with_reducible apply Rd.Safe.bind (Rd.Safe.gread (readBytes_fixed _).safe); intro _)
  | (with_reducible apply Rd.Safe.bind Rd.Safe.remaining; intro _)
  | (with_reducible apply Rd.Safe.bind Rd.Safe.toEnd; intro _)))

/-- Goals `WEmits body () ?bytes ?need`. -/
macro "wr_steps" : tactic => `(tactic| repeat (first
  | with_reducible exact WEmits.pure
  | with_reducible apply WEmits.u8
  | with_reducible apply WEmits.leI (hp := by decide)
  | with_reducible apply WEmits.beI (hp := by decide)
  | with_reducible apply WEmits.arr (hp := by decide)
  | with_reducible exact WEmits.gwrite_pos (Emits.writeU8 _) (by decide)
  | with_reducible exact WEmits.gwrite_pos (Emits.writeLE _) (by decide)
  | with_reducible exact WEmits.gwrite_pos (Emits.writeBE _) (by decide)))

/-- Goals `reader (bytes) = .ok (value, count)` for a body of simple steps. -/
macro "rd_exact" : tactic => `(tactic| (
  try simp only [List.append_assoc, List.cons_append, List.nil_append]
  apply RdAt.run
  apply RdAt.cast
  · rd_steps
  · first | rfl | (simp <;> done) | (simp <;> omega)))

/-- Goals `FixedReader reader count` for a body of simple steps. -/
macro "rd_fixed_run" : tactic => `(tactic| (
  apply Rd.Fixed.run
  apply Rd.Fixed.cast
  · rd_fixed
  · first | rfl | omega))

/-- Goals `Emits writer bytes need` for a body of simple steps. -/
macro "wr_exact" : tactic => `(tactic| (
  apply Emits.cast
  · apply WEmits.run
    wr_steps
  · first | rfl | (simp <;> done)
  · first | rfl | (simp <;> omega)))

/-- A fixed-layout type: `enc` gives the bytes of a value, `n` of them; writing emits exactly
these bytes; reading inverts it on `valid` values, ignores what follows, and errs on less than `n`
bytes; any `n` bytes are the encoding of a valid value. -/
structure Codec {α : Type} (r : Reader α) (w : α → Writer) (enc : α → Bytes) (valid : α → Prop)
    (n : Nat) : Prop where
  len : ∀ a, (enc a).length = n
  read : ∀ a rest, valid a → r (enc a ++ rest) = .ok (a, n)
  short : ∀ inp : Bytes, inp.length < n → ∃ e, r inp = .err e
  write : ∀ a, Emits (w a) (enc a) n
  onto : ∀ inp : Bytes, n ≤ inp.length → ∃ a rest, valid a ∧ inp = enc a ++ rest

namespace Codec

variable {α : Type} {r : Reader α} {w : α → Writer} {enc : α → Bytes} {valid : α → Prop} {n : Nat}

/-- Reading any long enough input succeeds, and writing the result gives the consumed bytes. -/
theorem parse_write (h : Codec r w enc valid n) (inp : Bytes) (hl : n ≤ inp.length) :
    ∃ a, r inp = .ok (a, n) ∧ valid a ∧ enc a = inp.take n ∧ Emits (w a) (inp.take n) n := by
  obtain ⟨a, rest, hv, rfl⟩ := h.onto inp hl
  have e : (enc a ++ rest).take n = enc a := by
    rw [← h.len a, List.take_left]
  exact ⟨a, h.read a rest hv, hv, e.symm, by rw [e]; exact h.write a⟩

theorem fixed (h : Codec r w enc valid n) : FixedReader r n := by
  intro inp
  refine ⟨fun hl => ?_, h.short inp⟩
  obtain ⟨a, ha, _⟩ := h.parse_write inp hl
  exact ⟨a, ha⟩

theorem safe (h : Codec r w enc valid n) : SafeReader r := h.fixed.safe

/-- The encoding determines a valid value. -/
theorem inj (h : Codec r w enc valid n) {a b : α} (ha : valid a) (hb : valid b)
    (e : enc a = enc b) : a = b := by
  have h1 := h.read a [] ha
  rw [e, h.read b [] hb] at h1
  cases h1; rfl

end Codec

/-- Every non-empty input starts with a byte. -/
theorem exists_u8 {inp : Bytes} (h : 1 ≤ inp.length) : ∃ (x : Byte) (rest : Bytes), inp = x :: rest := by
  cases inp with
  | nil => simp at h
  | cons x r => exact ⟨x, r, rfl⟩

end Verif
