import Verif.Model.Err
import Mathlib.Algebra.Order.Field.Basic
import Mathlib.Algebra.Order.Group.MinMax
import Mathlib.Algebra.Module.Defs

/-!
# Numerical solver

`src/OpenSpaceToolkit/Mathematics/Solver/NumericalSolver.cpp`. Numbers are elements of an ordered field, states are vectors of a module over it, a system of equations is a
function of the state and the time.

The class hands the work to the functions `integrate_times`, `integrate_adaptive` and `integrate_const` of boost::numeric::odeint, which are not in the repository. They are
modelled below from the source of the library (`boost/numeric/odeint/integrate/detail/*.hpp`). `eps` is `std::numeric_limits<double>::epsilon()`, by which odeint compares times.
The Runge-Kutta 4 stepper is modelled by its formula. The other six steppers control their step: they are parameters, of which the model knows only the function `try_step`.

Loops that need not end take a number of turns `fuel`; `none` means that the loop has not ended after that many turns. A call that returns for no `fuel` does not return.
-/

namespace Verif

/-- `SystemOfEquationsWrapper` (NumericalSolver.hpp 59-60): the derivative of the state as a function of the state and the time -/
abbrev OdeSystem (α V : Type) := V → α → V

namespace Odeint

/-- what `try_step` does: whether the step was accepted, and the new values of the stepper's memory and of the arguments it takes by reference -/
structure Tried (α V M : Type) where
  accepted : Bool
  mem : M
  x : V
  t : α
  dt : α

/-- a stepper that controls its step -/
structure Controlled (α V M : Type) where
  init : M
  tryStep : OdeSystem α V → M → V → α → α → Tried α V M

variable {α V M : Type} [Field α] [LinearOrder α]

/-- `less_with_sign` (odeint/util/detail/less_with_sign.hpp): `t1 < t2` in the direction of `dt` -/
def lessWithSign (eps t1 t2 dt : α) : Bool := if 0 < dt then decide (eps < t2 - t1) else decide (eps < t1 - t2)

/-- `less_eq_with_sign` -/
def lessEqWithSign (eps t1 t2 dt : α) : Bool := if 0 < dt then decide (t1 - t2 ≤ eps) else decide (t2 - t1 ≤ eps)

/-- `min_abs` -/
def minAbs (t1 t2 : α) : α := if 0 < t1 then min t1 t2 else max t1 t2

/-- `max_abs` -/
def maxAbs (t1 t2 : α) : α := if 0 < t1 then max t1 t2 else min t1 t2

/-- `runge_kutta4::do_step`: the classical method of order four -/
def rk4 [AddCommGroup V] [Module α V] (f : OdeSystem α V) (x : V) (t dt : α) : V :=
  let k1 := f x t
  let k2 := f (x + (dt / 2) • k1) (t + dt / 2)
  let k3 := f (x + (dt / 2) • k2) (t + dt / 2)
  let k4 := f (x + dt • k3) (t + dt)
  x + (dt / 6) • k1 + (dt / 3) • k2 + (dt / 3) • k3 + (dt / 6) • k4

/-- the inner loop of `integrate_times` for a stepper without step control: from `t` to the next time `T`; `cur` is the variable `current_dt` -/
def timesPlainTo (eps : α) (step : V → α → α → V) (T dt : α) : ℕ → V → α → α → Option (V × α)
  | 0, _, _, _ => none
  | fuel + 1, x, t, cur =>
    if lessWithSign eps t T cur then
      let cur := minAbs dt (T - t)
      timesPlainTo eps step T dt fuel (step x t cur) (t + cur) cur
    else some (x, cur)

/-- `integrate_times` for a stepper without step control: what the observer sees -/
def timesPlain (eps : α) (step : V → α → α → V) (dt : α) (fuel : ℕ) : V → α → α → List α → Option (List (V × α))
  | x, _, t, [] => some [(x, t)]
  | x, cur, t, T :: Ts =>
    match timesPlainTo eps step T dt fuel x t cur with
    | none => none
    | some (x', cur') => (timesPlain eps step dt fuel x' cur' T Ts).map ((x, t) :: ·)

/-- the inner loop of `integrate_times` for a stepper with step control; `fails` is the count of `failed_step_checker`, which throws when it reaches 500 -/
def timesControlledTo (eps : α) (try_ : M → V → α → α → Tried α V M) (T : α) : ℕ → ℕ → M → V → α → α → Option (Res (ℕ × M × V × α))
  | 0, _, _, _, _, _ => none
  | fuel + 1, fails, m, x, t, dt =>
    if lessWithSign eps t T dt then
      let r := try_ m x t (minAbs dt (T - t))
      if r.accepted then timesControlledTo eps try_ T fuel 0 r.mem r.x r.t (maxAbs dt r.dt)
      else if 500 ≤ fails then some (.error .runtimeError)
      else timesControlledTo eps try_ T fuel (fails + 1) r.mem r.x r.t r.dt
    else some (.ok (fails, m, x, dt))

/-- `integrate_times` for a stepper with step control: what the observer sees, and whether an exception ends the integration -/
def timesControlled (eps : α) (try_ : M → V → α → α → Tried α V M) (fuel : ℕ) : ℕ → M → V → α → α → List α → Option (List (V × α) × Res Unit)
  | _, _, x, _, t, [] => some ([(x, t)], .ok ())
  | fails, m, x, dt, t, T :: Ts =>
    match timesControlledTo eps try_ T fuel fails m x t dt with
    | none => none
    | some (.error e) => some ([(x, t)], .error e)
    | some (.ok (fails', m', x', dt')) => (timesControlled eps try_ fuel fails' m' x' dt' T Ts).map fun r => ((x, t) :: r.1, r.2)

/-- `integrate_const` for a stepper without step control: what the observer sees, the state and the number of steps -/
def constPlain (eps : α) (step : V → α → α → V) (start finish dt : α) : ℕ → V → ℕ → Option (List (V × α) × V × ℕ)
  | 0, _, _ => none
  | fuel + 1, x, n =>
    let time := start + (n : α) * dt
    if lessEqWithSign eps (time + dt) finish dt then
      (constPlain eps step start finish dt fuel (step x time dt) (n + 1)).map fun r => ((x, time) :: r.1, r.2)
    else some ([(x, time)], x, n)

/-- `integrate_adaptive` for a stepper without step control: equal steps, then one shorter step to the end -/
def adaptivePlain (eps : α) (step : V → α → α → V) (start finish dt : α) (fuel : ℕ) (x : V) : Option (List (V × α) × V) :=
  match constPlain eps step start finish dt fuel x 0 with
  | none => none
  | some (seen, x', n) =>
    let stop := start + dt * (n : α)
    if lessWithSign eps stop finish dt then
      let y := step x' stop (finish - stop)
      some (seen ++ [(y, finish)], y)
    else some (seen, x')

/-- the `do`-`while` of `integrate_adaptive`: steps are tried until one is accepted; `left` more tries are allowed by `failed_step_checker`, which counts each of them -/
def tryUntil (try_ : M → V → α → α → Tried α V M) : ℕ → M → V → α → α → Res (Tried α V M)
  | 0, _, _, _, _ => .error .runtimeError
  | left + 1, m, x, t, dt =>
    let r := try_ m x t dt
    if r.accepted then .ok r else tryUntil try_ left r.mem r.x r.t r.dt

/-- `integrate_adaptive` for a stepper with step control: what the observer sees, the state, the time reached and the step -/
def adaptiveControlled (eps : α) (try_ : M → V → α → α → Tried α V M) (finish : α) : ℕ → M → V → α → α → Option (List (V × α) × Res (V × α × α))
  | 0, _, _, _, _ => none
  | fuel + 1, m, x, t, dt =>
    if lessWithSign eps t finish dt then
      let dt := if lessWithSign eps finish (t + dt) dt then finish - t else dt
      match tryUntil try_ 500 m x t dt with
      | .error e => some ([(x, t)], .error e)
      | .ok r => (adaptiveControlled eps try_ finish fuel r.mem r.x r.t r.dt).map fun s => ((x, t) :: s.1, s.2)
    else some ([(x, t)], .ok (x, t, dt))

/-- `integrate_const` for a stepper with step control: each step of the grid is integrated with `integrate_adaptive`, by a fresh copy of the stepper. `time` is advanced by the inner
integration and then set to `start + n * dt`. -/
def constControlled (eps : α) (c : Controlled α V M) (f : OdeSystem α V) (start finish step : α) (fuel : ℕ) : ℕ → V → ℕ → α → Option (List (V × α) × Res V)
  | 0, _, _, _ => none
  | turns + 1, x, n, dt =>
    let time := start + (n : α) * step
    if lessEqWithSign eps (time + step) finish dt then
      match adaptiveControlled eps (c.tryStep f) (time + step) fuel c.init x time dt with
      | none => none
      | some (_, .error e) => some ([(x, time)], .error e)
      | some (_, .ok (x', _, dt')) => (constControlled eps c f start finish step fuel turns x' (n + 1) dt').map fun r => ((x, time) :: r.1, r.2)
    else some ([(x, time)], .ok x)

end Odeint

/-- `NumericalSolver::StepperType` (NumericalSolver.hpp 38-47) -/
inductive StepperType where
  | rungeKutta4 | rungeKuttaCashKarp54 | rungeKuttaFehlberg78 | rungeKuttaDopri5 | adamsBashforthMoulton5 | adamsBashforthMoulton8 | bulirschStoer
  deriving DecidableEq, Repr

/-- `NumericalSolver::LogType` (NumericalSolver.hpp 49-54) -/
inductive LogType where
  | noLog | logConstant | logAdaptive
  deriving DecidableEq, Repr

/-- `NumericalSolver` (NumericalSolver.hpp 317-321, 326); an undefined `Real` is `none` -/
structure NumSolver (α V : Type) where
  logType : LogType
  stepperType : StepperType
  timeStep : Option α
  relTol : Option α
  absTol : Option α
  observed : List (V × α)

/-- the steppers with step control, as they are made from the absolute and the relative tolerance (NumericalSolver.cpp 64-84, 266, 279, 292, 305, 318, 331); not used for
`RungeKutta4` -/
abbrev Steppers (α V M : Type) := StepperType → α → α → Odeint.Controlled α V M

namespace NumSolver

variable {α V M : Type} [Field α] [LinearOrder α]

/-- the constructor (NumericalSolver.cpp 86-100) -/
def ctor (logType : LogType) (stepperType : StepperType) (timeStep relTol absTol : Option α) : NumSolver α V :=
  ⟨logType, stepperType, timeStep, relTol, absTol, []⟩

/-- `isDefined` (NumericalSolver.cpp 126-129) -/
def isDefined (s : NumSolver α V) : Bool := s.timeStep.isSome && s.relTol.isSome && s.absTol.isSome

/-- `Real::operator ==`: false when either side is undefined -/
def realEq (a b : Option α) : Bool :=
  match a, b with
  | some a, some b => decide (a = b)
  | _, _ => false

/-- `operator ==` (NumericalSolver.cpp 102-112) -/
def eq (s r : NumSolver α V) : Bool :=
  if !s.isDefined || !r.isDefined then false
  else decide (s.logType = r.logType) && decide (s.stepperType = r.stepperType) && realEq s.timeStep r.timeStep && realEq s.relTol r.relTol && realEq s.absTol r.absTol

/-- `operator !=` (NumericalSolver.cpp 114-117) -/
def ne (s r : NumSolver α V) : Bool := !eq s r

/-- `accessObservedStateVectors` and `getObservedStateVectors` (NumericalSolver.cpp 151-159, 211-214) -/
def getObserved (s : NumSolver α V) : Res (List (V × α)) := if !s.isDefined then .error .undefined else .ok s.observed

/-- `getLogType` (NumericalSolver.cpp 161-169) -/
def getLogType (s : NumSolver α V) : Res LogType := if !s.isDefined then .error .undefined else .ok s.logType

/-- `getStepperType` (NumericalSolver.cpp 171-179) -/
def getStepperType (s : NumSolver α V) : Res StepperType := if !s.isDefined then .error .undefined else .ok s.stepperType

/-- `getTimeStep` (NumericalSolver.cpp 181-189) -/
def getTimeStep (s : NumSolver α V) : Res (Option α) := if !s.isDefined then .error .undefined else .ok s.timeStep

/-- `getRelativeTolerance` (NumericalSolver.cpp 191-199) -/
def getRelTol (s : NumSolver α V) : Res (Option α) := if !s.isDefined then .error .undefined else .ok s.relTol

/-- `getAbsoluteTolerance` (NumericalSolver.cpp 201-209) -/
def getAbsTol (s : NumSolver α V) : Res (Option α) := if !s.isDefined then .error .undefined else .ok s.absTol

/-- `Undefined` (NumericalSolver.cpp 698-707) -/
def undefined : NumSolver α V := ctor .noLog .rungeKuttaCashKarp54 none none none

/-- `Default` (NumericalSolver.cpp 709-718) -/
def default_ : NumSolver α V := ctor .noLog .rungeKuttaFehlberg78 (some 5) (some (1 / 10 ^ 12)) (some (1 / 10 ^ 12))

/-- `StringFromLogType` (NumericalSolver.cpp 650-666) -/
def stringFromLogType : LogType → String
  | .noLog => "NoLog"
  | .logConstant => "LogConstant"
  | .logAdaptive => "LogAdaptive"

/-- `StringFromStepperType` (NumericalSolver.cpp 668-696) -/
def stringFromStepperType : StepperType → String
  | .rungeKutta4 => "RungeKutta4"
  | .rungeKuttaCashKarp54 => "RungeKuttaCashKarp54"
  | .rungeKuttaFehlberg78 => "RungeKuttaFehlberg78"
  | .rungeKuttaDopri5 => "RungeKuttaDopri5"
  | .adamsBashforthMoulton8 => "AdamsBashforthMoulton8"
  | .adamsBashforthMoulton5 => "AdamsBashforthMoulton5"
  | .bulirschStoer => "BulirschStoer"

/-- `getSignedTimeStep` (NumericalSolver.cpp 754-758): the time step times the sign of the argument. The comparisons with an undefined argument are false, so its sign is zero. An
undefined product cannot be converted to `double`. -/
def getSignedTimeStep (s : NumSolver α V) (a : Option α) : Res α :=
  let sign : α := match a with
    | some a => (if 0 < a then 1 else 0) - (if a < 0 then 1 else 0)
    | none => 0
  match s.timeStep with
  | some h => .ok (h * sign)
  | none => .error .undefined

/-- the conversion of an array of `Real` to an array of `double` (NumericalSolver.cpp 245-246), which throws at an undefined element -/
def toDoubles : List (Option α) → Res (List α)
  | [] => .ok []
  | none :: _ => .error .undefined
  | some a :: as =>
    match toDoubles as with
    | .ok bs => .ok (a :: bs)
    | .error e => .error e

/-- `integrateTime` to an array of times (NumericalSolver.cpp 216-347): the solver after the call and what the call answers. The observer keeps every pair it sees
(NumericalSolver.cpp 720-752); what it prints is not modelled. -/
def integrateTimes [AddCommGroup V] [Module α V] (eps : α) (lib : Steppers α V M) (fuel : ℕ) (s : NumSolver α V) (x : V) (start : Option α) (times : List (Option α))
    (f : OdeSystem α V) : Option (NumSolver α V × Res (List (V × α))) :=
  let s := { s with observed := [] }
  match times with
  | [] => some (s, .error .runtimeError)
  | first :: rest =>
    if rest.isEmpty && realEq first start then
      match start with
      | some a => some (s, .ok [(x, a)])
      | none => some (s, .error .undefined)
    else
      match s.getSignedTimeStep ((first :: rest).getLast (by simp)) with
      | .error e => some (s, .error e)
      | .ok dt =>
        match toDoubles (first :: rest), start with
        | .error e, _ => some (s, .error e)
        | .ok _, none => some (s, .error .undefined)
        | .ok ts, some a =>
          if s.stepperType = .rungeKutta4 then
            match Odeint.timesPlain eps (Odeint.rk4 f) dt fuel x dt a ts with
            | none => none
            | some seen => some ({ s with observed := seen }, .ok seen.tail)
          else
            match s.absTol, s.relTol with
            | some at_, some rt =>
              let c := lib s.stepperType at_ rt
              match Odeint.timesControlled eps (c.tryStep f) fuel 0 c.init x dt a ts with
              | none => none
              | some (seen, .error e) => some ({ s with observed := seen }, .error e)
              | some (seen, .ok _) => some ({ s with observed := seen }, .ok seen.tail)
            | _, _ => some (s, .error .undefined)

/-- `integrateDuration` (NumericalSolver.cpp 349-629): `RungeKutta4` always uses `integrate_adaptive`; the other steppers use it unless the log type is `LogConstant`, for which they use
`integrate_const` -/
def integrateDuration [AddCommGroup V] [Module α V] (eps : α) (lib : Steppers α V M) (fuel : ℕ) (s : NumSolver α V) (x : V) (duration : Option α) (f : OdeSystem α V) :
    Option (NumSolver α V × Res (V × α)) :=
  let s := { s with observed := [] }
  match duration with
  | none => some (s, .error .undefined)
  | some d =>
    if d = 0 then some (s, .ok (x, 0))
    else
      match s.getSignedTimeStep duration with
      | .error e => some (s, .error e)
      | .ok dt =>
        if s.stepperType = .rungeKutta4 then
          match Odeint.adaptivePlain eps (Odeint.rk4 f) 0 d dt fuel x with
          | none => none
          | some (seen, y) => some ({ s with observed := seen }, .ok (y, d))
        else
          match s.absTol, s.relTol with
          | some at_, some rt =>
            let c := lib s.stepperType at_ rt
            if s.logType = .logConstant then
              match Odeint.constControlled eps c f 0 d dt fuel fuel x 0 dt with
              | none => none
              | some (seen, .error e) => some ({ s with observed := seen }, .error e)
              | some (seen, .ok y) => some ({ s with observed := seen }, .ok (y, d))
            else
              match Odeint.adaptiveControlled eps (c.tryStep f) d fuel c.init x 0 dt with
              | none => none
              | some (seen, .error e) => some ({ s with observed := seen }, .error e)
              | some (seen, .ok (y, _, _)) => some ({ s with observed := seen }, .ok (y, d))
          | _, _ => some (s, .error .undefined)

/-- `integrateTime` to one time (NumericalSolver.cpp 631-639) -/
def integrateTime [AddCommGroup V] [Module α V] (eps : α) (lib : Steppers α V M) (fuel : ℕ) (s : NumSolver α V) (x : V) (start finish : Option α) (f : OdeSystem α V) :
    Option (NumSolver α V × Res (V × α)) :=
  integrateDuration eps lib fuel s x (match finish, start with | some b, some a => some (b - a) | _, _ => none) f

/-- `integrateDuration` for an array of durations (NumericalSolver.cpp 641-648) -/
def integrateDurations [AddCommGroup V] [Module α V] (eps : α) (lib : Steppers α V M) (fuel : ℕ) (s : NumSolver α V) (x : V) (durations : List (Option α)) (f : OdeSystem α V) :
    Option (NumSolver α V × Res (List (V × α))) :=
  integrateTimes eps lib fuel s x (some 0) durations f

end NumSolver

end Verif
