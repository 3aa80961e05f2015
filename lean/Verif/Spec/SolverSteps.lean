import Verif.Spec.Solver

/-!
# Steppers that make progress

The contract of a stepper with step control that matters for the end of an integration. odeint's controlled steppers shorten a rejected step to at most nine tenths of it, and the
next step they propose after an accepted one is no shorter than that.
-/

namespace Verif.Spec

variable {α V M : Type} [Field α] [LinearOrder α]

/-- steps up to `short` are accepted, and no step shorter than `least` is proposed unless a shorter one was asked for -/
structure Advances (c : Odeint.Controlled α V M) (short least : α) : Prop where
  time : ∀ f m x t dt, (c.tryStep f m x t dt).accepted = true → (c.tryStep f m x t dt).t = t + dt
  stays : ∀ f m x t dt, (c.tryStep f m x t dt).accepted = false → (c.tryStep f m x t dt).t = t
  accepts : ∀ f m x t dt, |dt| ≤ short → (c.tryStep f m x t dt).accepted = true
  shrinks : ∀ f m x t dt, (c.tryStep f m x t dt).accepted = false → |(c.tryStep f m x t dt).dt| ≤ 9 / 10 * |dt|
  floor : ∀ f m x t dt, (c.tryStep f m x t dt).accepted = false → least ≤ |(c.tryStep f m x t dt).dt|
  keeps : ∀ f m x t dt, (c.tryStep f m x t dt).accepted = true → min least |dt| ≤ |(c.tryStep f m x t dt).dt|
  forward : ∀ f m x t dt, 0 < dt → 0 < (c.tryStep f m x t dt).dt
  backward : ∀ f m x t dt, dt < 0 → (c.tryStep f m x t dt).dt < 0

end Verif.Spec
