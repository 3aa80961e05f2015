import Mathlib.Order.Defs.LinearOrder

/-!
# Outcomes of C++ calls

A C++ function that may throw is modelled as a function into `Except Err α`.
-/

namespace Verif

/-- The exception kinds of `ostk::core::error` used in the repository, plus `ub`, which stands for C++ undefined
behaviour (for example an unchecked out-of-bounds access) and is never produced by a well defined execution. -/
inductive Err where
  /-- `ostk::core::error::runtime::Undefined` -/
  | undefined
  /-- `ostk::core::error::runtime::Wrong` -/
  | wrong
  /-- `ostk::core::error::RuntimeError` -/
  | runtimeError
  /-- `ostk::core::error::runtime::ToBeImplemented` -/
  | toBeImplemented
  /-- C++ undefined behaviour -/
  | ub
  deriving DecidableEq, Repr

/-- A call that may throw. -/
abbrev Res (α : Type) := Except Err α

end Verif
