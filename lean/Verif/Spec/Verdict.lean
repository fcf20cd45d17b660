import Verif.Basic.Reader
/-!
# What the error of a parser says about the input: vocabulary of C78
-/
namespace Verif.Spec

/-- The errors by which `scroll` says that the input ended too early. -/
def Short (e : Err) : Prop := e = .tooBig ∨ e = .badOffset

/-- What the errors of a parser mean.  `lo` and `hi` are numbers of bytes: fewer than `lo` are never
enough, and `hi` are always enough to tell. -/
structure Verdict {α : Type} (r : Reader α) (lo hi : Nat) : Prop where
  /-- There are two kinds of errors: the input is too short, or it is invalid. -/
  kinds : ∀ inp e, r inp = .err e → Short e ∨ e = .badInput
  /-- Invalid input stays invalid whatever follows. -/
  final : ∀ inp, r inp = .err .badInput → ∀ more, r (inp ++ more) = .err .badInput
  /-- Nothing shorter is accepted. -/
  needs : ∀ inp v, r inp = .ok v → lo ≤ inp.length
  /-- Nothing this long is called too short. -/
  sated : ∀ inp e, hi ≤ inp.length → r inp = .err e → e = .badInput

end Verif.Spec
