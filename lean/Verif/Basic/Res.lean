/-!
# Results

`Res α` is the outcome of a Rust function: `ok` and `err` are the two cases of a
`Result`, `panic` is an abort (slice out of bounds, `unwrap` of `None`,
arithmetic overflow, failed assertion).  Error payloads are dropped; only the
kind of a `scroll::Error` is kept.
-/
namespace Verif

/-- Kinds of errors.  `badOffset`, `tooBig`, `badInput` are the ones of
`scroll::Error`; `other` numbers the error cases of other error types where they are used. -/
inductive Err where
  | badOffset
  | tooBig
  | badInput
  | other (code : Nat)
  deriving DecidableEq, Repr

/-- Outcome of a modelled Rust function. -/
inductive Res (α : Type u) where
  | ok (a : α)
  | err (e : Err)
  | panic
  deriving DecidableEq, Repr

namespace Res

/-- Sequencing (the `?` operator; a panic propagates). -/
def bind {α : Type u} {β : Type v} : Res α → (α → Res β) → Res β
  | .ok a, f => f a
  | .err e, _ => .err e
  | .panic, _ => .panic

/-- `Result::map`. -/
def map {α : Type u} {β : Type v} (f : α → β) : Res α → Res β
  | .ok a => .ok (f a)
  | .err e => .err e
  | .panic => .panic

/-- `Result::ok` : errors become `none`; a panic stays a panic. -/
def toOption {α : Type u} : Res α → Res (Option α)
  | .ok a => .ok (some a)
  | .err _ => .ok none
  | .panic => .panic

/-- `Result::unwrap` / `Option::unwrap`. -/
def unwrap {α : Type u} : Res α → Res α
  | .ok a => .ok a
  | .err _ => .panic
  | .panic => .panic

/-- `Option::ok_or`. -/
def ofOption {α : Type u} (e : Err) : Option α → Res α
  | some a => .ok a
  | none => .err e

/-- `Option::unwrap`. -/
def unwrapOpt {α : Type u} : Option α → Res α
  | some a => .ok a
  | none => .panic

/-- `usize` subtraction with overflow check. -/
def sub (a b : Nat) : Res Nat := if b ≤ a then .ok (a - b) else .panic

/-- Was a value returned? -/
def isOk {α : Type u} : Res α → Bool
  | .ok _ => true
  | _ => false

/-- Was an error returned? -/
def isErr {α : Type u} : Res α → Bool
  | .err _ => true
  | _ => false

/-- Did the function panic? -/
def isPanic {α : Type u} : Res α → Bool
  | .panic => true
  | _ => false

instance : Monad Res where
  pure := .ok
  bind := Res.bind

@[simp] theorem pure_eq {α : Type u} (a : α) : (pure a : Res α) = .ok a := rfl
@[simp] theorem ok_bind {α β : Type u} (a : α) (f : α → Res β) : (Res.ok a >>= f) = f a := rfl
@[simp] theorem err_bind {α β : Type u} (e : Err) (f : α → Res β) :
    ((Res.err e : Res α) >>= f) = .err e := rfl
@[simp] theorem panic_bind {α β : Type u} (f : α → Res β) :
    ((Res.panic : Res α) >>= f) = .panic := rfl
@[simp] theorem map_ok {α β : Type u} (a : α) (f : α → β) : (f <$> Res.ok a) = .ok (f a) := rfl
@[simp] theorem map_err {α β : Type u} (e : Err) (f : α → β) :
    (f <$> (Res.err e : Res α)) = .err e := rfl
@[simp] theorem map_panic {α β : Type u} (f : α → β) : (f <$> (Res.panic : Res α)) = .panic := rfl
@[simp] theorem toOption_ok {α : Type u} (a : α) : (Res.ok a).toOption = .ok (some a) := rfl
@[simp] theorem toOption_err {α : Type u} (e : Err) :
    (Res.err e : Res α).toOption = .ok none := rfl
@[simp] theorem toOption_panic {α : Type u} : (Res.panic : Res α).toOption = .panic := rfl
@[simp] theorem unwrap_ok {α : Type u} (a : α) : (Res.ok a).unwrap = .ok a := rfl
@[simp] theorem unwrap_err {α : Type u} (e : Err) : (Res.err e : Res α).unwrap = .panic := rfl
@[simp] theorem unwrap_panic {α : Type u} : (Res.panic : Res α).unwrap = .panic := rfl
@[simp] theorem ofOption_some {α : Type u} (e : Err) (a : α) : ofOption e (some a) = .ok a := rfl
@[simp] theorem ofOption_none {α : Type u} (e : Err) :
    (ofOption e none : Res α) = .err e := rfl
@[simp] theorem unwrapOpt_some {α : Type u} (a : α) : unwrapOpt (some a) = .ok a := rfl
@[simp] theorem unwrapOpt_none {α : Type u} : (unwrapOpt none : Res α) = .panic := rfl

instance : LawfulMonad Res := LawfulMonad.mk'
  (id_map := by intro α x; cases x <;> rfl)
  (pure_bind := by intros; rfl)
  (bind_assoc := by intro α β γ x f g; cases x <;> rfl)

end Res
end Verif
