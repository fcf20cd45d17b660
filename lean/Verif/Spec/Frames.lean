import Verif.Basic.Bytes
/-!
# Frames: specification vocabulary
-/
namespace Verif.Spec

/-- An optional fixed-size field: its bytes, or nothing. -/
def optWire {k : Nat} : Option (Arr k) → Bytes
  | none => []
  | some x => x.val

@[simp] theorem optWire_none {k : Nat} : optWire (none : Option (Arr k)) = [] := rfl
@[simp] theorem optWire_some {k : Nat} (x : Arr k) : optWire (some x) = x.val := rfl

theorem optWire_length {k : Nat} (o : Option (Arr k)) :
    (optWire o).length = if o.isSome then k else 0 := by
  cases o <;> simp

end Verif.Spec
