/-!
# Basic vocabulary shared by all models

Strings are lists of characters, `Result`s that may also panic are `Outcome`s.
-/

namespace Verif

/-- Rust strings, as lists of Unicode scalar values (simplification: the UTF-8 encoding is only
modelled where byte offsets matter). -/
abbrev Str := List Char

/-- The result of a fallible Rust call: `Ok`, `Err`, or a panic (`assert!`, `unwrap`, `unreachable!`,
slice out of range).  The payload of `Err` is dropped unless a model says otherwise. -/
inductive Outcome (α : Type) where
  | ok (a : α)
  | err
  | panic
  deriving DecidableEq, Repr

namespace Outcome

/-- Sequencing (`?` operator): errors and panics propagate. -/
def bind {α β : Type} : Outcome α → (α → Outcome β) → Outcome β
  | .ok a, f => f a
  | .err, _ => .err
  | .panic, _ => .panic

instance : Monad Outcome where
  pure := .ok
  bind := bind

/-- `for x in xs { acc.push(f(x)?) }`: the first failure, in list order, is the result. -/
def mapList {α β : Type} (f : α → Outcome β) : List α → Outcome (List β)
  | [] => .ok []
  | x :: xs =>
    match f x with
    | .ok y =>
      match mapList f xs with
      | .ok ys => .ok (y :: ys)
      | .err => .err
      | .panic => .panic
    | .err => .err
    | .panic => .panic

/-- Did the call return `Ok`? -/
def isOk {α : Type} : Outcome α → Bool
  | .ok _ => true
  | _ => false

@[simp] theorem bind_ok {α β : Type} (a : α) (f : α → Outcome β) : (Outcome.ok a >>= f) = f a := rfl
@[simp] theorem bind_err {α β : Type} (f : α → Outcome β) : (Outcome.err >>= f) = .err := rfl
@[simp] theorem bind_panic {α β : Type} (f : α → Outcome β) : (Outcome.panic >>= f) = .panic := rfl
@[simp] theorem pure_eq {α : Type} (a : α) : (pure a : Outcome α) = .ok a := rfl

end Outcome

end Verif
