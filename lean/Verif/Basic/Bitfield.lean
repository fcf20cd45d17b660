import Verif.Basic.Res
import Verif.Basic.Bytes
/-!
# Packed bit fields

Transcription of `#[bitfield(uN)]` structs of the `bitfield-struct` crate: fields are
allocated from the least significant bit upwards in declaration order.
-/
namespace Verif

/-- The `len` bits of `x` from position `off`. -/
def getField {w : Nat} (x : BitVec w) (off len : Nat) : BitVec len := x.extractLsb' off len

/-- `x` with the `len` bits from position `off` replaced by `v`. -/
def setField {w : Nat} (x : BitVec w) (off len : Nat) (v : BitVec len) : BitVec w :=
  (x &&& ~~~(((BitVec.allOnes len).setWidth w) <<< off)) ||| ((v.setWidth w) <<< off)

theorem getLsbD_getField {w : Nat} (x : BitVec w) (off len i : Nat) :
    (getField x off len).getLsbD i = (decide (i < len) && x.getLsbD (off + i)) := by
  simp [getField]

theorem getLsbD_setField {w : Nat} (x : BitVec w) (off len i : Nat) (v : BitVec len)
    (h : off + len ≤ w) :
    (setField x off len v).getLsbD i =
      if off ≤ i ∧ i < off + len then v.getLsbD (i - off) else x.getLsbD i := by
  by_cases hiw : i < w
  · simp only [setField, BitVec.getLsbD_or, BitVec.getLsbD_and, BitVec.getLsbD_not,
      BitVec.getLsbD_shiftLeft, BitVec.getLsbD_setWidth, BitVec.getLsbD_allOnes, hiw,
      decide_true, Bool.true_and]
    by_cases h1 : i < off
    · simp [h1, show ¬ off ≤ i by omega]
    · have hv : i - off < w := by omega
      by_cases h2 : i < off + len
      · simp [h1, hv, show i - off < len by omega, show off ≤ i by omega, h2]
      · have : v.getLsbD (i - off) = false := BitVec.getLsbD_of_ge _ _ (by omega)
        simp [h1, show ¬ (i - off < len) by omega, this, h2]
  · rw [BitVec.getLsbD_of_ge _ _ (by omega), if_neg (by omega), BitVec.getLsbD_of_ge _ _ (by omega)]

/-- Reading the field just set. -/
theorem getField_setField_same {w : Nat} (x : BitVec w) (off len : Nat) (v : BitVec len)
    (h : off + len ≤ w) : getField (setField x off len v) off len = v := by
  apply BitVec.eq_of_getLsbD_eq
  intro i hi
  rw [getLsbD_getField, getLsbD_setField _ _ _ _ _ h]
  simp [hi]

/-- Reading a field that does not overlap the one set. -/
theorem getField_setField_other {w : Nat} (x : BitVec w) (off len off' len' : Nat) (v : BitVec len)
    (h : off + len ≤ w) (hd : off + len ≤ off' ∨ off' + len' ≤ off) :
    getField (setField x off len v) off' len' = getField x off' len' := by
  apply BitVec.eq_of_getLsbD_eq
  intro i hi
  rw [getLsbD_getField, getLsbD_getField, getLsbD_setField _ _ _ _ _ h]
  rw [if_neg (by omega)]

/-- Setting a field to its own value changes nothing. -/
theorem setField_getField {w : Nat} (x : BitVec w) (off len : Nat) (h : off + len ≤ w) :
    setField x off len (getField x off len) = x := by
  apply BitVec.eq_of_getLsbD_eq
  intro i hi
  rw [getLsbD_setField _ _ _ _ _ h, getLsbD_getField]
  split
  · rw [show off + (i - off) = i by omega]; simp; omega
  · rfl

/-- A one-bit field read as `bool`. -/
def getBit {w : Nat} (x : BitVec w) (off : Nat) : Bool := x.getLsbD off

/-- A one-bit field written from a `bool`. -/
def setBit {w : Nat} (x : BitVec w) (off : Nat) (v : Bool) : BitVec w :=
  setField x off 1 (BitVec.ofBool v)

theorem getBit_setBit_same {w : Nat} (x : BitVec w) (off : Nat) (v : Bool) (h : off < w) :
    getBit (setBit x off v) off = v := by
  simp [getBit, setBit, getLsbD_setField _ _ _ _ _ (show off + 1 ≤ w by omega)]

theorem getBit_setBit_other {w : Nat} (x : BitVec w) (off off' : Nat) (v : Bool) (h : off < w)
    (hd : off ≠ off') : getBit (setBit x off v) off' = getBit x off' := by
  rw [getBit, setBit, getLsbD_setField _ _ _ _ _ (show off + 1 ≤ w by omega), if_neg (by omega)]
  rfl

/-- A setter argument: the value must fit in the field, otherwise the setter panics. -/
def fitField {r : Nat} (len : Nat) (v : BitVec r) : Res (BitVec len) :=
  if v.toNat < 2 ^ len then .ok (v.setWidth len) else .panic

open Lean in
/-- `bitfield Name : w where | field : width ...` transcribes a `#[bitfield]` struct.  For a field `f`
it defines the getter `Name.f` and the setter `Name.with_f`.  Fields called `pad...` are padding. -/
syntax (docComment)? "bitfield " ident " : " num " where " ("| " ident " : " num)+ : command

open Lean in
macro_rules
  | `($[$doc:docComment]? bitfield $n:ident : $w:num where $[| $fs:ident : $ws:num]*) => do
    let name := n.getId
    let bits := mkIdentFrom n `bits
    let mut cmds : Array (TSyntax `command) := #[]
    cmds := cmds.push (← `($[$doc:docComment]? structure $n where
        /-- The raw word. -/
        $bits:ident : BitVec $w
        deriving DecidableEq, Repr))
    let mut off := 0
    let mut entries : Array (TSyntax `term) := #[]
    for (f, fw) in fs.zip ws do
      let fname := f.getId.toString
      let offS := Syntax.mkNumLit (toString off)
      let str := Syntax.mkStrLit fname
      entries := entries.push (← `(($str, $offS, $fw)))
      unless fname.startsWith "pad" do
        let getter := mkIdentFrom f (name ++ f.getId)
        let setter := mkIdentFrom f (name ++ Name.mkSimple ("with_" ++ fname))
        let proj := mkIdentFrom n (name ++ `bits)
        let mkN := mkIdentFrom n (name ++ `mk)
        if fw.raw.isNatLit? == some 1 then
          cmds := cmds.push (← `(
            /-- Getter of the flag. -/
            def $getter (x : $n) : Bool := getBit ($proj x) $offS))
          cmds := cmds.push (← `(
            /-- Setter of the flag. -/
            def $setter (x : $n) (v : Bool) : $n := $mkN (setBit ($proj x) $offS v)))
        else
          cmds := cmds.push (← `(
            /-- Getter of the field. -/
            def $getter (x : $n) : BitVec $fw := getField ($proj x) $offS $fw))
          cmds := cmds.push (← `(
            /-- Setter of the field. -/
            def $setter (x : $n) (v : BitVec $fw) : $n := $mkN (setField ($proj x) $offS $fw v)))
      off := off + (TSyntax.getNat ⟨fw.raw⟩)
    let layout := mkIdentFrom n (name ++ `layout)
    cmds := cmds.push (← `(
      /-- Name, position and width of each field. -/
      def $layout : List (String × Nat × Nat) := [$entries,*]))
    return mkNullNode cmds

end Verif
