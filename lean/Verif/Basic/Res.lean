/-!
# Outcomes of Rust calls

`Res ε α` is the outcome of a Rust call returning `Result<α, ε>` that may also panic.
Functions that cannot return an error but can panic are polymorphic in `ε`.
-/

namespace Verif

/-- Outcome of a Rust call: `Ok`, `Err` or a panic (assertion, `unwrap`, slice bounds, arithmetic). -/
inductive Res (ε α : Type) where
  | ok (a : α)
  | err (e : ε)
  | panic
  deriving DecidableEq, Repr

namespace Res

variable {ε α β : Type}

/-- Sequencing: Rust's `?` together with unwinding on panic. -/
@[simp] def bind : Res ε α → (α → Res ε β) → Res ε β
  | ok a, f => f a
  | err e, _ => err e
  | panic, _ => panic

instance : Monad (Res ε) where
  pure := ok
  bind := bind

@[simp] theorem pure_eq (a : α) : (pure a : Res ε α) = ok a := rfl
@[simp] theorem bind_ok (a : α) (f : α → Res ε β) : (ok a >>= f) = f a := rfl
@[simp] theorem bind_err (e : ε) (f : α → Res ε β) : ((err e : Res ε α) >>= f) = err e := rfl
@[simp] theorem bind_panic (f : α → Res ε β) : ((panic : Res ε α) >>= f) = panic := rfl

theorem bind_eq_ok {x : Res ε α} {f : α → Res ε β} {b : β} :
    (x >>= f) = ok b ↔ ∃ a, x = ok a ∧ f a = ok b := by
  cases x <;> simp

/-- `assert!(p)`. -/
@[simp] def assert (p : Prop) [Decidable p] : Res ε Unit := if p then ok () else panic

/-- `Option::ok_or(e)?`. -/
@[simp] def okOr (o : Option α) (e : ε) : Res ε α :=
  match o with
  | some a => ok a
  | none => err e

/-- `Option::unwrap` / `Option::expect`. -/
@[simp] def unwrap (o : Option α) : Res ε α :=
  match o with
  | some a => ok a
  | none => panic

/-- The outcome is `Ok`. -/
@[simp] def isOk : Res ε α → Bool
  | ok _ => true
  | _ => false

/-- The outcome is a panic. -/
@[simp] def isPanic : Res ε α → Bool
  | panic => true
  | _ => false

end Res
end Verif
