import Verif.Basic.Res

/-!
# Test functions

A `#[test]` function of the repository is modelled as a program whose outcome is `ok ()` if it returns (or returns `Ok(())`), `err`
if it returns `Err`, and `panic` if an assertion or an `unwrap` fails. A test passes with `ok ()`, one that is marked
`#[should_panic]` passes with `panic`. Values from the operating system's generator are parameters.
-/

namespace Verif.Res
variable {ε ε' α : Type}

/-- `Result::unwrap`. -/
def unwrapResult : Res ε α → Res ε' α
  | ok a => ok a
  | _ => panic

/-- `Result::unwrap_err`. -/
def unwrapErr : Res ε α → Res ε' ε
  | err e => ok e
  | _ => panic

@[simp] theorem unwrapResult_ok (a : α) : (unwrapResult (ok a : Res ε α) : Res ε' α) = ok a := rfl
@[simp] theorem unwrapResult_err (e : ε) : (unwrapResult (err e : Res ε α) : Res ε' α) = panic := rfl
@[simp] theorem unwrapResult_panic : (unwrapResult (panic : Res ε α) : Res ε' α) = panic := rfl
@[simp] theorem unwrapErr_err (e : ε) : (unwrapErr (err e : Res ε α) : Res ε' ε) = ok e := rfl

end Verif.Res
