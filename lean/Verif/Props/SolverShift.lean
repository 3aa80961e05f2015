import Verif.Props.SolverHistory

/-!
# Integrating to a time with step control

Property C66, the steppers other than Runge-Kutta 4. Code: `src/OpenSpaceToolkit/Mathematics/Solver/NumericalSolver.cpp` 349-639.
-/

namespace Verif.Props

open Verif Verif.Spec Verif.Odeint

variable {α V M : Type} [Field α] [LinearOrder α] [IsStrictOrderedRing α] [AddCommGroup V] [Module α V]

/-- the system `f` moved by `a` in time -/
def moved (f : OdeSystem α V) (a : α) : OdeSystem α V := fun x t => f x (t - a)

/-- a stepper that uses the time for nothing but evaluating the system: moving both moves what it answers -/
def Shifts (c : Controlled α V M) : Prop :=
  ∀ f a m x t dt, c.tryStep (moved f a) m x (t + a) dt = { c.tryStep f m x t dt with t := (c.tryStep f m x t dt).t + a }

/-- what the observer sees, moved in time -/
def later (a : α) (seen : List (V × α)) : List (V × α) := seen.map fun p => (p.1, p.2 + a)

omit [AddCommGroup V] [Module α V] in
theorem tryUntil_shift {c : Controlled α V M} (hc : Shifts c) (f : OdeSystem α V) (a : α) : ∀ (left : ℕ) (m : M) (x : V) (t dt : α),
    tryUntil (c.tryStep (moved f a)) left m x (t + a) dt = (tryUntil (c.tryStep f) left m x t dt).map fun r => { r with t := r.t + a }
  | 0, _, _, _, _ => rfl
  | left + 1, m, x, t, dt => by
    simp only [tryUntil, hc f a m x t dt]
    split_ifs with h
    · rfl
    · exact tryUntil_shift hc f a left _ _ _ _

theorem less_shift (eps a t1 t2 dt : α) : lessWithSign eps (t1 + a) (t2 + a) dt = lessWithSign eps t1 t2 dt := by
  simp only [lessWithSign, add_sub_add_right_eq_sub]

theorem lessEq_shift (eps a t1 t2 dt : α) : lessEqWithSign eps (t1 + a) (t2 + a) dt = lessEqWithSign eps t1 t2 dt := by
  simp only [lessEqWithSign, add_sub_add_right_eq_sub]

omit [AddCommGroup V] [Module α V] in
theorem adaptive_shift {c : Controlled α V M} (hc : Shifts c) (eps : α) (f : OdeSystem α V) (a finish : α) : ∀ (fuel : ℕ) (m : M) (x : V) (t dt : α),
    adaptiveControlled eps (c.tryStep (moved f a)) (finish + a) fuel m x (t + a) dt =
      (adaptiveControlled eps (c.tryStep f) finish fuel m x t dt).map fun r => (later a r.1, r.2.map fun q => (q.1, q.2.1 + a, q.2.2))
  | 0, _, _, _, _ => rfl
  | fuel + 1, m, x, t, dt => by
    simp only [adaptiveControlled]
    rw [show t + a + dt = t + dt + a by ring]
    simp only [less_shift, add_sub_add_right_eq_sub]
    split_ifs with h h'
    all_goals try rfl
    all_goals
      rw [tryUntil_shift hc f a]
      cases tryUntil (c.tryStep f) 500 m x t _ with
      | error e => rfl
      | ok r =>
        simp only [Except.map]
        rw [adaptive_shift hc eps f a finish fuel]
        cases adaptiveControlled eps (c.tryStep f) finish fuel r.mem r.x r.t r.dt <;> rfl

omit [AddCommGroup V] [Module α V] in
theorem const_shift {c : Controlled α V M} (hc : Shifts c) (eps : α) (f : OdeSystem α V) (a start finish step : α) (fuel : ℕ) : ∀ (turns : ℕ) (x : V) (n : ℕ) (dt : α),
    constControlled eps c (moved f a) (start + a) (finish + a) step fuel turns x n dt =
      (constControlled eps c f start finish step fuel turns x n dt).map fun r => (later a r.1, r.2)
  | 0, _, _, _ => rfl
  | turns + 1, x, n, dt => by
    simp only [constControlled]
    rw [show start + a + (n : α) * step = start + n * step + a by ring, show start + (n : α) * step + a + step = start + n * step + step + a by ring]
    simp only [lessEq_shift]
    split_ifs with h
    · rw [adaptive_shift hc eps f a]
      rcases adaptiveControlled eps (c.tryStep f) (start + n * step + step) fuel c.init x (start + n * step) dt with _ | ⟨seen, e | ⟨y, t, d⟩⟩
      · rfl
      · rfl
      · simp only [Option.map_some, Except.map]
        rw [const_shift hc eps f a start finish step fuel turns]
        cases constControlled eps c f start finish step fuel turns y (n + 1) d <;> rfl
    · rfl

/-- C66: with a stepper that controls its step, `integrateTime` from `a` to `b` runs the integration of odeint for the system `x' = f (x, t - a)` from `a` to `b`: it answers the state that
this integration ends with, and the observer sees its states at times that are earlier by `a`. The time answered is the length of the interval. -/
theorem C66_controlled_partial {eps : α} {lib : Steppers α V M} {fuel : ℕ} {s s' : NumSolver α V} {x y : V} {a b t : α} {f : OdeSystem α V} (hlib : ∀ k p q, Shifts (lib k p q))
    (hk : s.stepperType ≠ .rungeKutta4) (hab : a ≠ b) (h : s.integrateTime eps lib fuel x (some a) (some b) f = some (s', .ok (y, t))) :
    t = b - a ∧ ∃ at_ rt dt, s.absTol = some at_ ∧ s.relTol = some rt ∧ s.getSignedTimeStep (some (b - a)) = .ok dt ∧
      (s.logType ≠ .logConstant → ∃ t' dt', adaptiveControlled eps ((lib s.stepperType at_ rt).tryStep (moved f a)) b fuel (lib s.stepperType at_ rt).init x a dt =
        some (later a s'.observed, .ok (y, t', dt'))) ∧
      (s.logType = .logConstant → constControlled eps (lib s.stepperType at_ rt) (moved f a) a b dt fuel fuel x 0 dt = some (later a s'.observed, .ok y)) := by
  have hne : b - a ≠ 0 := sub_ne_zero.2 hab.symm
  simp only [NumSolver.integrateTime, NumSolver.integrateDuration, if_neg hne] at h
  have e : ∀ l : List (V × α), NumSolver.getSignedTimeStep { s with observed := l } (some (b - a)) = s.getSignedTimeStep (some (b - a)) := fun l => by
    simp only [NumSolver.getSignedTimeStep, NumSolver.isDefined]
  rw [e] at h
  cases hd : s.getSignedTimeStep (some (b - a)) with
  | error e => rw [hd] at h; simp at h
  | ok dt =>
    rw [hd] at h
    simp only [if_neg hk] at h
    cases ha : s.absTol with
    | none => rw [ha] at h; simp at h
    | some at_ =>
      cases hr : s.relTol with
      | none => rw [ha, hr] at h; simp at h
      | some rt =>
        rw [ha, hr] at h
        simp only at h
        by_cases hl : s.logType = .logConstant
        · rw [if_pos hl] at h
          have hs := const_shift (hlib s.stepperType at_ rt) eps f a 0 (b - a) dt fuel fuel x 0 dt
          rw [zero_add, sub_add_cancel] at hs
          rcases hr : constControlled eps (lib s.stepperType at_ rt) f 0 (b - a) dt fuel fuel x 0 dt with _ | ⟨seen, e | y'⟩
          · rw [hr] at h; simp at h
          · rw [hr] at h; simp at h
          · rw [hr] at h hs
            simp only [Option.some.injEq, Prod.mk.injEq, Except.ok.injEq] at h
            obtain ⟨rfl, rfl, rfl⟩ := h
            exact ⟨rfl, at_, rt, dt, rfl, rfl, rfl, fun h => absurd hl h, fun _ => hs⟩
        · rw [if_neg hl] at h
          have hs := adaptive_shift (hlib s.stepperType at_ rt) eps f a (b - a) fuel (lib s.stepperType at_ rt).init x 0 dt
          rw [zero_add, sub_add_cancel] at hs
          rcases hr : adaptiveControlled eps ((lib s.stepperType at_ rt).tryStep f) (b - a) fuel (lib s.stepperType at_ rt).init x 0 dt with _ | ⟨seen, e | ⟨y', t', dt'⟩⟩
          · rw [hr] at h; simp at h
          · rw [hr] at h; simp at h
          · rw [hr] at h hs
            simp only [Option.some.injEq, Prod.mk.injEq, Except.ok.injEq] at h
            obtain ⟨rfl, rfl, rfl⟩ := h
            exact ⟨rfl, at_, rt, dt, rfl, rfl, rfl, fun _ => ⟨_, _, hs⟩, fun h => absurd h hl⟩

/-- C66: so for a system that does not depend on the time, the states are those of odeint's integration of the system itself from `a` to `b` -/
theorem C66_controlled_autonomous_partial {eps : α} {lib : Steppers α V M} {fuel : ℕ} {s s' : NumSolver α V} {x y : V} {a b t : α} {f : OdeSystem α V} (hlib : ∀ k p q, Shifts (lib k p q))
    (hk : s.stepperType ≠ .rungeKutta4) (hab : a ≠ b) (hf : ∀ x t t', f x t = f x t') (h : s.integrateTime eps lib fuel x (some a) (some b) f = some (s', .ok (y, t))) :
    t = b - a ∧ ∃ at_ rt dt, s.absTol = some at_ ∧ s.relTol = some rt ∧ s.getSignedTimeStep (some (b - a)) = .ok dt ∧
      (s.logType ≠ .logConstant → ∃ t' dt', adaptiveControlled eps ((lib s.stepperType at_ rt).tryStep f) b fuel (lib s.stepperType at_ rt).init x a dt =
        some (later a s'.observed, .ok (y, t', dt'))) ∧
      (s.logType = .logConstant → constControlled eps (lib s.stepperType at_ rt) f a b dt fuel fuel x 0 dt = some (later a s'.observed, .ok y)) := by
  have e : moved f a = f := by funext x t; exact hf x _ _
  have := C66_controlled_partial hlib hk hab h
  rwa [e] at this

/-- the stepper of the examples qualifies -/
theorem fussy_shifts : Shifts (fussy α V) := by
  intro f a m x t dt
  by_cases h : |dt| ≤ 1
  · simp only [fussy, h, if_true, moved, add_sub_cancel_right]
    rw [show t + a + dt = t + dt + a by ring]
  · simp only [fussy, h, if_false]

/-- an integration from 1 to 4 with step control -/
example : (∀ k p q, Shifts ((fun _ _ _ => fussy ℚ ℚ : Steppers ℚ ℚ Unit) k p q)) ∧ (exampleSolver .noLog .rungeKuttaDopri5 : NumSolver ℚ ℚ).stepperType ≠ .rungeKutta4 ∧
    ((exampleSolver .noLog .rungeKuttaDopri5).integrateTime 0 (fun _ _ _ => fussy ℚ ℚ) 9 5 (some 1) (some 4) ticking).map (fun r => r.2) = some (.ok (8, 3)) := by
  refine ⟨fun _ _ _ => fussy_shifts, by decide, ?_⟩
  have hi : (fussy ℚ ℚ).init = () := rfl
  have h1 : ¬ (StepperType.rungeKuttaDopri5 = StepperType.rungeKutta4) := by decide
  have h2 : ¬ (LogType.noLog = LogType.logConstant) := by decide
  norm_num [exampleSolver, NumSolver.ctor, NumSolver.integrateTime, NumSolver.integrateDuration, NumSolver.getSignedTimeStep, adaptiveControlled, fussy_short, fussy_long, abs_of_nonneg, hi,
    lessWithSign, ticking, h1, h2]

end Verif.Props
