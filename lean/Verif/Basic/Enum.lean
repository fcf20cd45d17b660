import Verif.Basic.Bytes
/-!
# Enumerations of codes

`rust_enum` transcribes `macro_bits::serializable_enum!`: an enum with named
codes plus `Unknown(code)`.  `fromBits` looks the code up in the list in order
and falls back to `Unknown`; `intoBits` gives the code back.

For every enum the macro also proves the two round trips.  `Canonical x` says
that `x` is not `Unknown(c)` with `c` the code of a named variant; such a value
can be constructed by hand but is never returned by `fromBits`.
-/
namespace Verif

/-- First entry of a code table with the given code. -/
def lookupCode {w : Nat} {α : Type} (v : BitVec w) : List (BitVec w × α) → Option α
  | [] => none
  | (c, a) :: t => if v = c then some a else lookupCode v t

theorem lookupCode_mem {w : Nat} {α : Type} {v : BitVec w} {t : List (BitVec w × α)} {a : α}
    (h : lookupCode v t = some a) : (v, a) ∈ t := by
  induction t with
  | nil => simp [lookupCode] at h
  | cons p t ih =>
    obtain ⟨c, b⟩ := p
    simp only [lookupCode] at h
    split at h
    · simp_all
    · exact List.mem_cons_of_mem _ (ih h)

theorem lookupCode_none {w : Nat} {α : Type} {v : BitVec w} {t : List (BitVec w × α)}
    (h : v ∉ t.map Prod.fst) : lookupCode v t = none := by
  induction t with
  | nil => rfl
  | cons p t ih =>
    obtain ⟨c, b⟩ := p
    simp only [List.map_cons, List.mem_cons, not_or] at h
    simp [lookupCode, h.1, ih h.2]

theorem lookupCode_not_mem {w : Nat} {α : Type} {v : BitVec w} {t : List (BitVec w × α)}
    (h : lookupCode v t = none) : v ∉ t.map Prod.fst := by
  induction t with
  | nil => simp
  | cons p t ih =>
    obtain ⟨c, b⟩ := p
    simp only [lookupCode] at h
    split at h
    · simp at h
    · simp [ih h, *]

open Lean in
/-- `rust_enum Name : w where | A => 1 | B => 2` transcribes a `serializable_enum!`. -/
syntax (docComment)? "rust_enum " ident " : " num " where " ("| " ident " => " num)+ : command

open Lean in
macro_rules
  | `($[$doc:docComment]? rust_enum $n:ident : $w:num where $[| $cs:ident => $vs:num]*) => do
    let name := n.getId
    let mk (s : Name) : TSyntax `ident := mkIdentFrom n (name ++ s)
    let unknown := mkIdentFrom n `Unknown
    let bare := cs.map fun c => mkIdentFrom c c.getId
    let quals := cs.map fun c => mkIdentFrom c (name ++ c.getId)
    let unkQ := mk `Unknown
    let entries ← (quals.zip vs).mapM fun (q, v) => `((BitVec.ofNat $w $v, $q))
    let codes ← vs.mapM fun v => `(BitVec.ofNat $w $v)
    let fromBits := mk `fromBits
    let intoBits := mk `intoBits
    let table := mk `table
    let canonical := mk `Canonical
    let tableOk := mk `table_intoBits
    let tableNodup := mk `table_nodup
    let rt1 := mk `intoBits_fromBits
    let rt2 := mk `fromBits_intoBits
    let canF := mk `canonical_fromBits
    `($[$doc:docComment]? inductive $n where
        $[| $bare:ident]*
        | $unknown:ident (v : BitVec $w)
        deriving DecidableEq, Repr
      /-- The codes of the named variants. -/
      def $table : List (BitVec $w × $n) := [$entries,*]
      /-- Code to variant. -/
      def $fromBits (v : BitVec $w) : $n :=
        match lookupCode v $table with
        | some a => a
        | none => $unkQ v
      /-- Variant to code. -/
      def $intoBits : $n → BitVec $w
        $[| $quals => $codes]*
        | $unkQ v => v
      /-- Not an `Unknown` holding the code of a named variant. -/
      def $canonical (x : $n) : Prop := ∀ v, x = $unkQ v → v ∉ List.map Prod.fst $table
      theorem $tableOk : ∀ p ∈ $table, $intoBits p.2 = p.1 := by decide
      theorem $tableNodup : (List.map Prod.fst $table).Nodup := by decide
      theorem $rt1 (v : BitVec $w) : $intoBits ($fromBits v) = v := by
        unfold $fromBits
        cases h : lookupCode v $table with
        | some a => exact $tableOk _ (lookupCode_mem h)
        | none => rfl
      theorem $rt2 (x : $n) (h : $canonical x) : $fromBits ($intoBits x) = x := by
        cases x with
        | $unknown:ident v =>
          have := lookupCode_none (h v rfl)
          unfold $fromBits $intoBits
          simp only [this]
        | _ => rfl
      theorem $canF (v : BitVec $w) : $canonical ($fromBits v) := by
        intro u hu
        unfold $fromBits at hu
        cases h : lookupCode v $table with
        | some a =>
          simp only [h] at hu
          have hm := lookupCode_mem h
          subst hu
          exact absurd hm (by
            have key : ∀ p ∈ $table, ∀ u, p.2 ≠ $unkQ u := by
              simp [$table:ident]
            intro hm'
            exact key _ hm' u rfl)
        | none =>
          simp only [h] at hu
          cases hu
          exact lookupCode_not_mem h)

end Verif
