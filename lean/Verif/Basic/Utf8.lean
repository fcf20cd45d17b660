import Verif.Basic.Bytes
import Verif.Basic.Reader
/-!
# UTF-8: `core::str::from_utf8` and `scroll`'s `StrCtx`
-/
namespace Verif

/-- A continuation byte `10xxxxxx`. -/
def isCont (b : Byte) : Bool := decide (0x80 ≤ b.toNat ∧ b.toNat ≤ 0xbf)

/-- `core::str::from_utf8(bytes).is_ok()`: the byte ranges of Table 3-7 of the Unicode Standard, as in
`core::str::validations::run_utf8_validation`. -/
def utf8Valid : Bytes → Bool
  | [] => true
  | a :: l1 =>
    if a.toNat < 0x80 then utf8Valid l1
    else match l1 with
    | [] => false
    | b :: l2 =>
      if 0xc2 ≤ a.toNat ∧ a.toNat ≤ 0xdf then isCont b && utf8Valid l2
      else match l2 with
      | [] => false
      | c :: l3 =>
        if 0xe0 ≤ a.toNat ∧ a.toNat ≤ 0xef then
          isCont b && decide (a.toNat = 0xe0 → 0xa0 ≤ b.toNat) &&
            decide (a.toNat = 0xed → b.toNat ≤ 0x9f) && isCont c && utf8Valid l3
        else match l3 with
        | [] => false
        | d :: l4 =>
          if 0xf0 ≤ a.toNat ∧ a.toNat ≤ 0xf4 then
            isCont b && decide (a.toNat = 0xf0 → 0x90 ≤ b.toNat) &&
              decide (a.toNat = 0xf4 → b.toNat ≤ 0x8f) && isCont c && isCont d && utf8Valid l4
          else false

/-- A Rust `str`: bytes that are valid UTF-8. -/
structure Str where
  bytes : Bytes
  valid : utf8Valid bytes = true
  deriving DecidableEq

/-- `str::len`. -/
def Str.len (s : Str) : Nat := s.bytes.length

/-- `<&str>::try_from_ctx(src, StrCtx::Length(len))` of `scroll`. -/
def readStr (len : Nat) : Reader Str := fun inp =>
  if inp.length < len then .err .tooBig
  else if h : utf8Valid (inp.take len) = true then .ok (⟨inp.take len, h⟩, len)
  else .err .badInput

theorem readStr_safe (len : Nat) : SafeReader (readStr len) := by
  intro inp
  simp only [readStr]
  by_cases h1 : inp.length < len
  · simp [h1]
  · by_cases h2 : utf8Valid (inp.take len) = true
    · simp [h1, h2]; omega
    · simp [h1, h2]

theorem readStr_append (s : Str) (rest : Bytes) :
    readStr s.len (s.bytes ++ rest) = .ok (s, s.len) := by
  obtain ⟨b, hv⟩ := s
  simp [readStr, Str.len, hv]

end Verif
