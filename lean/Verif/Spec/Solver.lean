import Verif.Model.Solver
import Mathlib.Algebra.Module.LinearMap.Defs
import Mathlib.Algebra.Order.Group.Unbundled.Abs

/-!
# What the numerical solver is asked to do

A clock of a system of equations is a linear quantity of the state whose derivative is one: after integrating, it tells how much time the integration has covered, whatever method
was used. The contract of a stepper with step control is what odeint documents for `try_step`: an accepted step advances the state and the time by the step that was proposed, a
rejected one leaves both alone and proposes no longer a step, and the next step proposed has the direction of the one before.
-/

namespace Verif.Spec

variable {α V M : Type} [Field α] [LinearOrder α] [AddCommGroup V] [Module α V]

/-- a linear quantity that grows at unit rate -/
def Clock (f : OdeSystem α V) (l : V →ₗ[α] α) : Prop := ∀ x t, l (f x t) = 1

/-- a linear quantity that the system conserves -/
def Conserved (f : OdeSystem α V) (l : V →ₗ[α] α) : Prop := ∀ x t, l (f x t) = 0

/-- the contract of `try_step` -/
structure KeepsTime (c : Odeint.Controlled α V M) : Prop where
  accepted : ∀ f l m x t dt, Clock f l → (c.tryStep f m x t dt).accepted = true → (c.tryStep f m x t dt).t = t + dt ∧ l (c.tryStep f m x t dt).x = l x + dt
  rejected : ∀ f m x t dt, (c.tryStep f m x t dt).accepted = false → (c.tryStep f m x t dt).t = t ∧ (c.tryStep f m x t dt).x = x
  shorter : ∀ f m x t dt, (c.tryStep f m x t dt).accepted = false → |(c.tryStep f m x t dt).dt| ≤ |dt|
  forward : ∀ f m x t dt, 0 < dt → 0 < (c.tryStep f m x t dt).dt
  backward : ∀ f m x t dt, dt < 0 → (c.tryStep f m x t dt).dt < 0

/-- a call of the solver that integrates -/
inductive Call (α V : Type) where
  | times (x : V) (start : Option α) (times : List (Option α)) (f : OdeSystem α V)
  | time (x : V) (start finish : Option α) (f : OdeSystem α V)
  | duration (x : V) (duration : Option α) (f : OdeSystem α V)
  | durations (x : V) (durations : List (Option α)) (f : OdeSystem α V)

/-- the solver after a call, whether or not the call threw; `none` when it has not returned -/
def after (eps : α) (lib : Steppers α V M) (fuel : ℕ) (s : NumSolver α V) : Call α V → Option (NumSolver α V)
  | .times x a ts f => (s.integrateTimes eps lib fuel x a ts f).map Prod.fst
  | .time x a b f => (s.integrateTime eps lib fuel x a b f).map Prod.fst
  | .duration x d f => (s.integrateDuration eps lib fuel x d f).map Prod.fst
  | .durations x ds f => (s.integrateDurations eps lib fuel x ds f).map Prod.fst

/-- the solver after a history of calls -/
def history (eps : α) (lib : Steppers α V M) (fuel : ℕ) : NumSolver α V → List (Call α V) → Option (NumSolver α V)
  | s, [] => some s
  | s, c :: cs => (after eps lib fuel s c).bind fun s' => history eps lib fuel s' cs

end Verif.Spec
