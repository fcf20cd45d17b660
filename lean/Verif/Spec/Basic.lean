import Verif.Basic
/-!
# Specification vocabulary shared by the property files

`Emits` (in `Basic/Writer.lean`), `SafeReader` and `FixedReader` (in
`Basic/Reader.lean`) are also used in statements; they are predicates on the
input/output behaviour of a writer or a reader only.
-/
namespace Verif.Spec

/-- The accessors `get`/`set` of a packed struct address exactly the `len` bits from `off`. -/
def FieldAt {S : Type} {w len : Nat} (bits : S → BitVec w) (get : S → BitVec len)
    (set : S → BitVec len → S) (off : Nat) : Prop :=
  off + len ≤ w ∧
  (∀ s i, i < len → (get s).getLsbD i = (bits s).getLsbD (off + i)) ∧
  (∀ s v i, (bits (set s v)).getLsbD i =
    if off ≤ i ∧ i < off + len then v.getLsbD (i - off) else (bits s).getLsbD i)

/-- The accessors `get`/`set` of a packed struct address exactly bit `off`. -/
def BitAt {S : Type} {w : Nat} (bits : S → BitVec w) (get : S → Bool)
    (set : S → Bool → S) (off : Nat) : Prop :=
  off < w ∧
  (∀ s, get s = (bits s).getLsbD off) ∧
  (∀ s v i, (bits (set s v)).getLsbD i = if i = off then v else (bits s).getLsbD i)

/-- What an enumeration must satisfy: `table` lists the codes of the named variants, every other
code is kept as an unknown code, and decoding and encoding are inverse. -/
structure CodeEnum {E : Type} {w : Nat} (fromBits : BitVec w → E) (intoBits : E → BitVec w)
    (unknown : BitVec w → E) (table : List (Nat × E)) : Prop where
  /-- A listed code decodes to its variant. -/
  named : ∀ p ∈ table, fromBits (BitVec.ofNat w p.1) = p.2
  /-- A listed variant encodes to its code. -/
  code : ∀ p ∈ table, (intoBits p.2).toNat = p.1
  /-- A code that is not listed is kept. -/
  other : ∀ v, v.toNat ∉ table.map Prod.fst → fromBits v = unknown v
  /-- Encoding after decoding. -/
  lossless : ∀ v, intoBits (fromBits v) = v
  /-- Unknown codes encode to themselves. -/
  unknownCode : ∀ v, intoBits (unknown v) = v
  /-- Every value is listed or unknown. -/
  total : ∀ e, e ∈ table.map Prod.snd ∨ ∃ v, e = unknown v

/-- Consequence: no two values returned by decoding share a code. -/
theorem CodeEnum.inj {E : Type} {w : Nat} {f : BitVec w → E} {g : E → BitVec w} {u : BitVec w → E}
    {t : List (Nat × E)} (h : CodeEnum f g u t) {a b : BitVec w} (e : g (f a) = g (f b)) :
    a = b := by
  rw [h.lossless, h.lossless] at e; exact e

end Verif.Spec

namespace Verif

theorem fieldAt_of {S : Type} {w len : Nat} {bits : S → BitVec w} {get : S → BitVec len}
    {set : S → BitVec len → S} {off : Nat} (h : off + len ≤ w)
    (hg : ∀ s, get s = getField (bits s) off len)
    (hs : ∀ s v, bits (set s v) = setField (bits s) off len v) : Spec.FieldAt bits get set off := by
  refine ⟨h, ?_, ?_⟩
  · intro s i hi
    rw [hg, getLsbD_getField]; simp [hi]
  · intro s v i
    rw [hs, getLsbD_setField _ _ _ _ _ h]

theorem bitAt_of {S : Type} {w : Nat} {bits : S → BitVec w} {get : S → Bool}
    {set : S → Bool → S} {off : Nat} (h : off < w)
    (hg : ∀ s, get s = getBit (bits s) off)
    (hs : ∀ s v, bits (set s v) = setBit (bits s) off v) : Spec.BitAt bits get set off := by
  refine ⟨h, hg, ?_⟩
  intro s v i
  rw [hs, setBit, getLsbD_setField _ _ _ _ _ (show off + 1 ≤ w by omega)]
  by_cases hi : i = off
  · subst hi; simp
  · rw [if_neg (by omega), if_neg hi]

/-- Proves a conjunction of `FieldAt`/`BitAt` facts about generated accessors. -/
macro "bitfield_layout" : tactic => `(tactic|
  repeat' first
    | exact fieldAt_of (by decide) (fun _ => rfl) (fun _ _ => rfl)
    | exact bitAt_of (by decide) (fun _ => rfl) (fun _ _ => rfl)
    | apply And.intro)

/-- Consequences of a layout: a field reads back what was set, and setting it leaves disjoint
fields alone. -/
theorem Spec.FieldAt.get_set {S : Type} {w len : Nat} {bits : S → BitVec w} {get : S → BitVec len}
    {set : S → BitVec len → S} {off : Nat} (h : Spec.FieldAt bits get set off) (s : S)
    (v : BitVec len) : get (set s v) = v := by
  apply BitVec.eq_of_getLsbD_eq
  intro i hi
  rw [h.2.1 _ i hi, h.2.2, if_pos (by omega), Nat.add_sub_cancel_left]

theorem Spec.FieldAt.get_set_other {S : Type} {w len len' : Nat} {bits : S → BitVec w}
    {get : S → BitVec len} {set : S → BitVec len → S} {off : Nat}
    {get' : S → BitVec len'} {set' : S → BitVec len' → S} {off' : Nat}
    (h : Spec.FieldAt bits get set off) (h' : Spec.FieldAt bits get' set' off')
    (hd : off + len ≤ off' ∨ off' + len' ≤ off) (s : S) (v : BitVec len) :
    get' (set s v) = get' s := by
  apply BitVec.eq_of_getLsbD_eq
  intro i hi
  rw [h'.2.1 _ i hi, h'.2.1 _ i hi, h.2.2, if_neg (by omega)]

theorem Spec.BitAt.get_set {S : Type} {w : Nat} {bits : S → BitVec w} {get : S → Bool}
    {set : S → Bool → S} {off : Nat} (h : Spec.BitAt bits get set off) (s : S) (v : Bool) :
    get (set s v) = v := by
  rw [h.2.1, h.2.2, if_pos rfl]

theorem Spec.BitAt.get_set_other {S : Type} {w : Nat} {bits : S → BitVec w} {get get' : S → Bool}
    {set set' : S → Bool → S} {off off' : Nat} (h : Spec.BitAt bits get set off)
    (h' : Spec.BitAt bits get' set' off') (hd : off ≠ off') (s : S) (v : Bool) :
    get' (set s v) = get' s := by
  rw [h'.2.1, h'.2.1, h.2.2, if_neg (Ne.symm hd)]

theorem Spec.BitAt.get_set_field {S : Type} {w len : Nat} {bits : S → BitVec w} {get : S → Bool}
    {set : S → Bool → S} {off : Nat} {get' : S → BitVec len} {set' : S → BitVec len → S}
    {off' : Nat} (h : Spec.BitAt bits get set off) (h' : Spec.FieldAt bits get' set' off')
    (hd : off < off' ∨ off' + len ≤ off) (s : S) (v : Bool) :
    get' (set s v) = get' s := by
  apply BitVec.eq_of_getLsbD_eq
  intro i hi
  rw [h'.2.1 _ i hi, h'.2.1 _ i hi, h.2.2, if_neg (by omega)]

theorem Spec.FieldAt.get_set_bit {S : Type} {w len : Nat} {bits : S → BitVec w} {get : S → Bool}
    {set : S → Bool → S} {off : Nat} {get' : S → BitVec len} {set' : S → BitVec len → S}
    {off' : Nat} (h' : Spec.FieldAt bits get' set' off') (h : Spec.BitAt bits get set off)
    (hd : off < off' ∨ off' + len ≤ off) (s : S) (v : BitVec len) :
    get (set' s v) = get s := by
  rw [h.2.1, h.2.1, h'.2.2, if_neg (by omega)]

/-- A `rust_enum` meets `CodeEnum` for its own table, given that the table lists every variant. -/
theorem codeEnum_of {E : Type} {w : Nat} {f : BitVec w → E} {g : E → BitVec w} {u : BitVec w → E}
    {tab : List (BitVec w × E)} {t : List (Nat × E)}
    (hf : ∀ v, f v = match lookupCode v tab with | some a => a | none => u v)
    (hg : ∀ p ∈ tab, g p.2 = p.1) (hu : ∀ v, g (u v) = v)
    (hn : (tab.map Prod.fst).Nodup)
    (ht : t = tab.map fun p => (p.1.toNat, p.2))
    (htot : ∀ e, e ∈ tab.map Prod.snd ∨ ∃ v, e = u v) : Spec.CodeEnum f g u t := by
  have key : ∀ p ∈ tab, f p.1 = p.2 := by
    intro p hp
    rw [hf]
    have : lookupCode p.1 tab = some p.2 := by
      clear hf hg hu ht htot t
      induction tab with
      | nil => cases hp
      | cons q tl ih =>
        simp only [lookupCode]
        rw [List.map_cons, List.nodup_cons] at hn
        rcases List.mem_cons.1 hp with rfl | hm
        · simp
        · rw [if_neg]
          · exact ih hn.2 hm
          · intro he
            exact hn.1 (he ▸ List.mem_map_of_mem hm)
    rw [this]
  subst ht
  constructor
  · intro p hp
    obtain ⟨q, hq, rfl⟩ := List.mem_map.1 hp
    simp [key q hq]
  · intro p hp
    obtain ⟨q, hq, rfl⟩ := List.mem_map.1 hp
    simp [hg q hq]
  · intro v hv
    rw [hf, lookupCode_none]
    intro hm
    obtain ⟨q, hq, rfl⟩ := List.mem_map.1 hm
    exact hv (by
      rw [List.map_map]
      exact List.mem_map.2 ⟨q, hq, rfl⟩)
  · intro v
    rw [hf]
    cases h : lookupCode v tab with
    | some a => exact hg _ (lookupCode_mem h)
    | none => exact hu v
  · exact hu
  · intro e
    rcases htot e with h | h
    · left
      obtain ⟨q, hq, rfl⟩ := List.mem_map.1 h
      rw [List.map_map]
      exact List.mem_map.2 ⟨q, hq, rfl⟩
    · exact .inr h

end Verif
