import Verif.Props.SolverRuns

/-!
# Properties of the numerical solver, continued (C66, C67, C92)
-/

namespace Verif.Props

open Verif Verif.Spec Verif.Odeint

variable {α V M : Type} [Field α] [LinearOrder α] [IsStrictOrderedRing α] [AddCommGroup V] [Module α V]

/-! ## C66: integrating to a time -/

theorem rk4_shift (f : OdeSystem α V) (a : α) : rk4 (fun x t => f x (t - a)) = fun x t c => rk4 f x (t - a) c := by
  funext x t c
  have e1 : t + c / 2 - a = t - a + c / 2 := by ring
  have e2 : t + c - a = t - a + c := by ring
  simp only [rk4, e1, e2]

/-- C66: `integrateTime` to one time integrates the system moved to time zero: with Runge-Kutta 4 it answers the state that integrating `x' = f (x, t - a)` from `a` to `b` gives, and
the length of the interval as time -/
theorem C66_shifted_partial {M' : Type} {lib : Steppers α V M} {lib' : Steppers α V M'} {fuel fuel' : ℕ} {s s₁ s₂ : NumSolver α V} {x y : V} {a b h t : α} {f : OdeSystem α V}
    {r : List (V × α)} (hk : s.stepperType = .rungeKutta4) (hs : s.timeStep = some h) (hh : 0 < h) (hab : (a < b ∧ 0 < b) ∨ (b < a ∧ b < 0))
    (h₁ : s.integrateTime 0 lib fuel x (some a) (some b) f = some (s₁, .ok (y, t)))
    (h₂ : s.integrateTimes 0 lib' fuel' x (some a) [some b] (fun x t => f x (t - a)) = some (s₂, .ok r)) : t = b - a ∧ r = [(y, b)] := by
  obtain ⟨hd, hrun⟩ := NumSolver.integrateDuration_ok h₁
  obtain rfl : t = b - a := (Option.some.inj hd).symm
  refine ⟨rfl, ?_⟩
  have hne : b - a ≠ 0 := by rcases hab with ⟨h1, -⟩ | ⟨h1, -⟩ <;> intro h <;> linarith
  have hb0 : b ≠ 0 := by rcases hab with ⟨-, h1⟩ | ⟨-, h1⟩ <;> intro h <;> linarith
  rcases hrun with ⟨h0, -⟩ | ⟨dt, seen, -, hdt, -, ⟨-, hrun⟩ | ⟨_, _, hk', -⟩⟩
  · exact absurd h0 hne
  swap
  · exact absurd hk hk'
  rcases NumSolver.integrateTimes_ok h₂ with ⟨a', ha, ht, -⟩ | ⟨a', b', ts, dt', ha, ht, hb, hd', -, -, hm, ⟨-, hrun'⟩ | ⟨_, _, hk', -⟩⟩
  · have : b = a := by
      have e1 := Option.some.inj ha
      have e2 : some b = some a' := by simpa using ht
      rw [e1]; exact Option.some.inj e2
    exact absurd (by rw [this, sub_self]) hne
  swap
  · exact absurd hk hk'
  obtain rfl := Option.some.inj ha
  obtain rfl : ts = [b] := by
    have : ([b] : List α).map some = ts.map some := ht
    exact (List.map_injective_iff.mpr (Option.some_injective α) this).symm
  obtain rfl : b = b' := by simpa using hb
  obtain ⟨u, hu, hut, e, hud⟩ := NumSolver.signed_dir hs hh hne hdt
  obtain ⟨v, hv, hvt, e', hvd⟩ := NumSolver.signed_dir hs hh hb0 hd'
  obtain rfl : u = v := by
    rcases hab with ⟨h1, h2⟩ | ⟨h1, h2⟩ <;> rcases hu with rfl | rfl <;> rcases hv with rfl | rfl <;> first | rfl | (exfalso; linarith)
  obtain rfl : dt = dt' := by rw [e, e']
  obtain ⟨n, n1, n2, n3⟩ := adaptivePlain_land hu hud (by simpa using hut.le) hrun
  unfold timesPlain at hrun'
  cases hto : timesPlainTo 0 (rk4 fun x t => f x (t - a)) b dt fuel' x a dt with
  | none => rw [hto] at hrun'; simp at hrun'
  | some p =>
    obtain ⟨y', c'⟩ := p
    rw [hto] at hrun'
    simp only [timesPlain, Option.map_some, Option.some.injEq, List.cons.injEq, true_and] at hrun'
    rw [rk4_shift] at hto
    obtain ⟨m, m1, m2, m3⟩ := timesPlainTo_land hu hud _ _ _ _ _ _ hud hut.le hto
    rw [land_shift, sub_self] at m3
    have em : b - (a + m * dt) = b - a - m * dt := by ring
    rw [em] at m1 m2
    rw [zero_add] at n1 n2
    have hnm := fits_unique hud n1 n2 m1 m2
    subst hnm
    dsimp only at n3
    rw [← hrun', m3, n3]

/-- C66: so for a system that does not depend on the time, it answers the state at `b` -/
theorem C66_autonomous_partial {M' : Type} {lib : Steppers α V M} {lib' : Steppers α V M'} {fuel fuel' : ℕ} {s s₁ s₂ : NumSolver α V} {x y : V} {a b h t : α} {f : OdeSystem α V}
    {r : List (V × α)} (hk : s.stepperType = .rungeKutta4) (hs : s.timeStep = some h) (hh : 0 < h) (hab : (a < b ∧ 0 < b) ∨ (b < a ∧ b < 0)) (hf : ∀ x t t', f x t = f x t')
    (h₁ : s.integrateTime 0 lib fuel x (some a) (some b) f = some (s₁, .ok (y, t)))
    (h₂ : s.integrateTimes 0 lib' fuel' x (some a) [some b] f = some (s₂, .ok r)) : r = [(y, b)] := by
  have e : f = fun x t => f x (t - a) := by funext x t; exact hf x t (t - a)
  rw [e] at h₂
  exact (C66_shifted_partial hk hs hh hab h₁ h₂).2

example : (exampleSolver .noLog .rungeKutta4).integrateTime 0 (fun _ _ _ => fussy ℚ ℚ) 9 5 (some 1) (some 4) ticking =
    some ({ exampleSolver .noLog .rungeKutta4 with observed := [(5, 0), (7, 2), (8, 3)] }, .ok (8, 3)) ∧
    (exampleSolver .noLog .rungeKutta4).integrateTimes 0 (fun _ _ _ => fussy ℚ ℚ) 9 5 (some 1) [some 4] ticking =
    some ({ exampleSolver .noLog .rungeKutta4 with observed := [(5, 1), (8, 4)] }, .ok [(8, 4)]) := by
  constructor
  · norm_num [exampleSolver, NumSolver.ctor, NumSolver.integrateTime, NumSolver.integrateDuration, NumSolver.getSignedTimeStep, adaptivePlain, constPlain, lessWithSign, lessEqWithSign,
      rk4, ticking]
  · norm_num [exampleSolver, NumSolver.ctor, NumSolver.integrateTimes, NumSolver.realEq, NumSolver.getSignedTimeStep, NumSolver.toDoubles, timesPlain, timesPlainTo, lessWithSign, minAbs,
      rk4, ticking]

/-- a system that depends on the time is integrated over other times than asked for: for `x' = t` from `a` to `b`, with Runge-Kutta 4, which integrates this system exactly, the state
answered is not the state at `b`, unless the start is zero or nothing is integrated -/
theorem C66_violated {lib : Steppers α α M} {fuel : ℕ} {s s' : NumSolver α α} {x y : α} {a b h t : α} (hk : s.stepperType = .rungeKutta4) (hs : s.timeStep = some h) (hh : 0 < h)
    (ha : a ≠ 0) (hab : a ≠ b) (hr : s.integrateTime 0 lib fuel x (some a) (some b) (fun _ t => t) = some (s', .ok (y, t))) :
    y = x + (b - a) ^ 2 / 2 ∧ y ≠ x + (b ^ 2 / 2 - a ^ 2 / 2) ∧ t = b - a := by
  have hf : (fun (_ : α) (t : α) => t) = fun (_ : α) t => cubic (V := α) 0 1 0 0 t := by
    funext _ t; simp [cubic]
  unfold NumSolver.integrateTime at hr
  rw [hf] at hr
  obtain ⟨h1, h2⟩ := C90_duration (V := α) 0 1 0 0 hk hs hh hr
  obtain rfl : b - a = t := Option.some.inj h1
  have h3 : y = x + (b - a) ^ 2 / 2 := by rw [h2]; simp [quartic]
  refine ⟨h3, fun h4 => ?_, rfl⟩
  rw [h3] at h4
  have h5 : a * (b - a) = 0 := by linear_combination -h4
  rcases mul_eq_zero.mp h5 with h6 | h6
  · exact ha h6
  · exact hab (by linarith)

example : (exampleSolver .noLog .rungeKutta4).integrateTime 0 (fun _ _ _ => fussy ℚ ℚ) 9 5 (some 1) (some 4) (fun _ t => t) =
    some ({ exampleSolver .noLog .rungeKutta4 with observed := [(5, 0), (7, 2), (19 / 2, 3)] }, .ok (19 / 2, 3)) := by
  norm_num [exampleSolver, NumSolver.ctor, NumSolver.integrateTime, NumSolver.integrateDuration, NumSolver.getSignedTimeStep, adaptivePlain, constPlain, lessWithSign, lessEqWithSign,
    rk4]

/-! ## C67: the states observed -/

omit [IsStrictOrderedRing α] in
/-- C67: a call changes nothing of the solver but the states observed -/
theorem C67_settings {eps : α} {lib : Steppers α V M} {fuel : ℕ} {s s' : NumSolver α V} {c : Call α V} (h : after eps lib fuel s c = some s') :
    ∃ o, s' = { s with observed := o } := by
  have ht : ∀ x a ts f s' r, s.integrateTimes eps lib fuel x a ts f = some (s', r) → ∃ o, s' = { s with observed := o } := by
    intro x a ts f s' r h
    unfold NumSolver.integrateTimes at h
    dsimp only at h
    repeat' (split at h)
    all_goals (simp only [Option.some.injEq, Prod.mk.injEq, reduceCtorEq] at h)
    all_goals (obtain ⟨rfl, -⟩ := h; exact ⟨_, rfl⟩)
  have hd : ∀ x d f s' r, s.integrateDuration eps lib fuel x d f = some (s', r) → ∃ o, s' = { s with observed := o } := by
    intro x d f s' r h
    unfold NumSolver.integrateDuration at h
    dsimp only at h
    repeat' (split at h)
    all_goals (simp only [Option.some.injEq, Prod.mk.injEq, reduceCtorEq] at h)
    all_goals (obtain ⟨rfl, -⟩ := h; exact ⟨_, rfl⟩)
  cases c with
  | times x a ts f => obtain ⟨⟨_, r⟩, h1, rfl⟩ := Option.map_eq_some_iff.mp h; exact ht _ _ _ _ _ _ h1
  | time x a b f => obtain ⟨⟨_, r⟩, h1, rfl⟩ := Option.map_eq_some_iff.mp h; exact hd _ _ _ _ _ h1
  | duration x d f => obtain ⟨⟨_, r⟩, h1, rfl⟩ := Option.map_eq_some_iff.mp h; exact hd _ _ _ _ _ h1
  | durations x ds f => obtain ⟨⟨_, r⟩, h1, rfl⟩ := Option.map_eq_some_iff.mp h; exact ht _ _ _ _ _ _ h1

omit [IsStrictOrderedRing α] in
/-- C67: after any history of calls, some of which may have thrown, the states observed by one more call are those it would have observed on a fresh solver -/
theorem C67_history {eps : α} {lib : Steppers α V M} {fuel : ℕ} {s s' : NumSolver α V} {c : Call α V} :
    ∀ {cs : List (Call α V)}, history eps lib fuel s (cs ++ [c]) = some s' →
      after eps lib fuel (NumSolver.ctor s.logType s.stepperType s.timeStep s.relTol s.absTol) c = some s' := by
  have fresh : ∀ o, after eps lib fuel { s with observed := o } c = after eps lib fuel (NumSolver.ctor s.logType s.stepperType s.timeStep s.relTol s.absTol) c := by
    intro o; cases c <;> rfl
  have main : ∀ (cs : List (Call α V)) o, history eps lib fuel { s with observed := o } (cs ++ [c]) = some s' →
      after eps lib fuel (NumSolver.ctor s.logType s.stepperType s.timeStep s.relTol s.absTol) c = some s' := by
    intro cs
    induction cs with
    | nil =>
      intro o h
      simp only [List.nil_append, history] at h
      rw [fresh] at h
      obtain ⟨s1, h1, h2⟩ := Option.bind_eq_some_iff.mp h
      rw [h1]; exact h2
    | cons d cs ih =>
      intro o h
      simp only [List.cons_append, history] at h
      obtain ⟨s1, h1, h2⟩ := Option.bind_eq_some_iff.mp h
      obtain ⟨o', rfl⟩ := C67_settings h1
      exact ih o' h2
  intro cs h
  exact main cs s.observed h

/-- C67: what `integrateTime` observes is the initial state at the start, then what it answers; when the only time asked for is the start, it observes nothing -/
theorem C67_times {eps : α} {lib : Steppers α V M} {fuel : ℕ} {s s' : NumSolver α V} {x : V} {start : Option α} {times : List (Option α)} {f : OdeSystem α V}
    {r : List (V × α)} (h : s.integrateTimes eps lib fuel x start times f = some (s', .ok r)) :
    (times = [start] ∧ s'.observed = []) ∨ ∃ a, start = some a ∧ s'.observed = (x, a) :: r := by
  rcases NumSolver.integrateTimes_ok h with ⟨a, ha, ht, -, hs'⟩ | ⟨a, b, ts, dt, ha, -, -, -, ho, -⟩
  · exact Or.inl ⟨by rw [ht, ha], by rw [hs']⟩
  · exact Or.inr ⟨a, ha, ho⟩

/-- C67: what `integrateDuration` observes starts with the initial state at time zero and ends with the state answered; a zero duration observes nothing -/
theorem C67_duration {eps : α} {lib : Steppers α V M} {fuel : ℕ} {s s' : NumSolver α V} {x y : V} {d : Option α} {t h : α} {f : OdeSystem α V} (he : 0 ≤ eps)
    (hlib : ∀ k p q, KeepsTime (lib k p q)) (hs : s.timeStep = some h) (hh : 0 < h) (hc : ∃ l : V →ₗ[α] α, Clock f l)
    (hr : s.integrateDuration eps lib fuel x d f = some (s', .ok (y, t))) :
    (t = 0 ∧ y = x ∧ s'.observed = []) ∨ ((∃ rest, s'.observed = (x, 0) :: rest) ∧ ∃ t', s'.observed.getLast? = some (y, t')) := by
  obtain ⟨l, hc⟩ := hc
  obtain ⟨-, ⟨h0, hy, rfl⟩ | ⟨dt, seen, ht, hdt, rfl, hrun⟩⟩ := NumSolver.integrateDuration_ok hr
  · exact Or.inl ⟨h0, hy, rfl⟩
  right
  obtain ⟨u, hu, hut, -, hud⟩ := NumSolver.signed_dir hs hh ht hdt
  rcases hrun with ⟨-, hrun⟩ | ⟨p, q, hk', ⟨-, hrun⟩ | ⟨-, t', dt', hrun⟩⟩
  · obtain ⟨t', -, -, -, h1, h2⟩ := adaptivePlain_inv (fun _ _ => True) hu hud (by simpa using hut.le) (fun _ _ _ _ => trivial) trivial hrun
    exact ⟨h1, t', h2⟩
  all_goals
    have hkt := hlib s.stepperType p q
    have hdir : ∀ m x1 t1 c, 0 < u * c → 0 < u * ((lib s.stepperType p q).tryStep f m x1 t1 c).dt := by
      intro m x1 t1 c hp
      rcases hu with rfl | rfl
      · rw [one_mul] at hp ⊢; exact hkt.forward f m x1 t1 c hp
      · linarith [hkt.backward f m x1 t1 c (by linarith)]
  · obtain ⟨n, -, -, -, -, ⟨rest, h1⟩, h2, -⟩ := constControlled_inv (eps := eps) (start := 0) (finish := t) (step := dt) (c := lib s.stepperType p q) (f := f) (fuel := fuel)
      (fun _ _ => True) (fun _ _ _ _ => True) hu he hud (fun _ _ => trivial) (fun x0 t0 m x1 t1 c _ ha => ⟨(hkt.accepted f l m x1 t1 c hc ha).1, trivial⟩)
      (fun m x1 t1 c ha => hkt.rejected f m x1 t1 c ha) (fun m x1 t1 c ha => hkt.shorter f m x1 t1 c ha) hdir (fun _ _ _ _ _ _ _ _ => trivial) fuel x 0 dt seen y hud trivial hrun
    exact ⟨⟨rest, by simpa using h1⟩, _, h2⟩
  · obtain ⟨-, -, -, -, h1, h2⟩ := adaptiveControlled_inv (fun _ _ => True) hu he (fun m x1 t1 c _ ha => ⟨(hkt.accepted f l m x1 t1 c hc ha).1, trivial⟩)
      (fun m x1 t1 c ha => hkt.rejected f m x1 t1 c ha) (fun m x1 t1 c ha => hkt.shorter f m x1 t1 c ha) hdir fuel _ x 0 dt seen y t' dt' hud trivial
      (by rw [sub_zero]; linarith) hrun
    exact ⟨h1, t', h2⟩

/-- C67: a solver that is not defined does not show what it observed -/
theorem C67_undefined (s : NumSolver α V) : s.getObserved = (if s.timeStep.isSome ∧ s.relTol.isSome ∧ s.absTol.isSome then .ok s.observed else .error .undefined) := by
  unfold NumSolver.getObserved NumSolver.isDefined
  cases s.timeStep <;> cases s.relTol <;> cases s.absTol <;> simp

/-- C67: an empty array of times is refused, and the states observed before are gone -/
theorem C67_empty {eps : α} {lib : Steppers α V M} (fuel : ℕ) (s : NumSolver α V) (x : V) (start : Option α) (f : OdeSystem α V) :
    s.integrateTimes eps lib fuel x start [] f = some ({ s with observed := [] }, .error .runtimeError) := rfl

/-- C67: undefined times are refused -/
theorem C67_undefined_time {eps : α} {lib : Steppers α V M} {fuel : ℕ} {s s' : NumSolver α V} {x : V} {start : Option α} {times : List (Option α)} {f : OdeSystem α V}
    {r : List (V × α)} (h : s.integrateTimes eps lib fuel x start times f = some (s', .ok r)) : start ≠ none ∧ none ∉ times := by
  rcases NumSolver.integrateTimes_ok h with ⟨a, ha, ht, -, -⟩ | ⟨a, b, ts, dt, ha, ht, -⟩
  · rw [ha, ht]; simp
  · rw [ha, ht]; simp

example : history 0 (fun _ _ _ => fussy ℚ ℚ) 9 (exampleSolver .noLog .rungeKutta4) [.times 5 (some 1) [] ticking, .duration 5 (some 3) ticking, .times 5 (some 1) [some 4] ticking] =
    some { exampleSolver .noLog .rungeKutta4 with observed := [(5, 1), (8, 4)] } := by
  norm_num [history, after, exampleSolver, NumSolver.ctor, NumSolver.integrateTimes, NumSolver.integrateDuration, NumSolver.realEq, NumSolver.getSignedTimeStep, NumSolver.toDoubles,
    timesPlain, timesPlainTo, adaptivePlain, constPlain, lessEqWithSign, lessWithSign, minAbs, rk4, ticking]

/-! ## C92: settings of a solver -/

omit [IsStrictOrderedRing α] [AddCommGroup V] [Module α V] in
/-- C92: solvers are equal when both are defined and have the same five settings; what they observed does not matter -/
theorem C92_eq (s r : NumSolver α V) : s.eq r = true ↔ s.isDefined = true ∧ ∃ o, r = { s with observed := o } := by
  obtain ⟨l, k, h, p, q, o⟩ := s
  obtain ⟨l', k', h', p', q', o'⟩ := r
  unfold NumSolver.eq NumSolver.isDefined
  cases h <;> cases p <;> cases q <;> cases h' <;> cases p' <;> cases q' <;> simp [NumSolver.realEq]
  constructor
  · rintro ⟨⟨⟨⟨rfl, rfl⟩, rfl⟩, rfl⟩, rfl⟩; simp
  · rintro ⟨rfl, rfl, rfl, rfl, rfl⟩; simp

omit [IsStrictOrderedRing α] [AddCommGroup V] [Module α V] in
/-- C92: equality is symmetric and transitive, and reflexive for defined solvers; `!=` is its negation -/
theorem C92_equivalence (s r q : NumSolver α V) :
    (s.eq s = true ↔ s.isDefined = true) ∧ (s.eq r = true → r.eq s = true) ∧ (s.eq r = true → r.eq q = true → s.eq q = true) ∧ s.ne r = !s.eq r := by
  refine ⟨?_, ?_, ?_, rfl⟩
  · rw [C92_eq]; exact ⟨fun h => h.1, fun h => ⟨h, s.observed, rfl⟩⟩
  · rw [C92_eq, C92_eq]
    rintro ⟨h, o, rfl⟩
    exact ⟨h, s.observed, rfl⟩
  · rw [C92_eq, C92_eq, C92_eq]
    rintro ⟨h, o, rfl⟩ ⟨-, o', rfl⟩
    exact ⟨h, o', rfl⟩

omit [IsStrictOrderedRing α] in
/-- C92: after any history of calls a solver is equal to what it was before -/
theorem C92_calls {eps : α} {lib : Steppers α V M} {fuel : ℕ} {s s' : NumSolver α V} {cs : List (Call α V)} (hd : s.isDefined = true)
    (h : history eps lib fuel s cs = some s') : s.eq s' = true := by
  have main : ∀ (cs : List (Call α V)) o, history eps lib fuel { s with observed := o } cs = some s' → ∃ o', s' = { s with observed := o' } := by
    intro cs
    induction cs with
    | nil => intro o h; exact ⟨o, (Option.some.inj h).symm⟩
    | cons c cs ih =>
      intro o h
      obtain ⟨s1, h1, h2⟩ := Option.bind_eq_some_iff.mp h
      obtain ⟨o', rfl⟩ := C67_settings h1
      exact ih o' h2
  exact (C92_eq s s').mpr ⟨hd, main cs s.observed h⟩

omit [IsStrictOrderedRing α] [AddCommGroup V] [Module α V] in
/-- C92: the getters of a solver answer the settings it was made with, or throw when one of the three numbers is undefined -/
theorem C92_getters (l : LogType) (k : StepperType) (h p q : Option α) :
    let s : NumSolver α V := NumSolver.ctor l k h p q
    (h.isSome ∧ p.isSome ∧ q.isSome → s.getLogType = .ok l ∧ s.getStepperType = .ok k ∧ s.getTimeStep = .ok h ∧ s.getRelTol = .ok p ∧ s.getAbsTol = .ok q ∧ s.getObserved = .ok []) ∧
      (¬ (h.isSome ∧ p.isSome ∧ q.isSome) → s.getLogType = .error .undefined ∧ s.getStepperType = .error .undefined ∧ s.getTimeStep = .error .undefined ∧
        s.getRelTol = .error .undefined ∧ s.getAbsTol = .error .undefined ∧ s.getObserved = .error .undefined) := by
  cases h <;> cases p <;> cases q <;>
    simp [NumSolver.ctor, NumSolver.getLogType, NumSolver.getStepperType, NumSolver.getTimeStep, NumSolver.getRelTol, NumSolver.getAbsTol, NumSolver.getObserved, NumSolver.isDefined]

/-- C92: different settings have different names -/
theorem C92_names (l l' : LogType) (k k' : StepperType) :
    (NumSolver.stringFromLogType l = NumSolver.stringFromLogType l' → l = l') ∧ (NumSolver.stringFromStepperType k = NumSolver.stringFromStepperType k' → k = k') := by
  cases l <;> cases l' <;> cases k <;> cases k' <;> simp [NumSolver.stringFromLogType, NumSolver.stringFromStepperType]

example : (NumSolver.default_ : NumSolver ℚ ℚ).eq NumSolver.default_ = true ∧ (NumSolver.undefined : NumSolver ℚ ℚ).eq NumSolver.undefined = false := by
  constructor
  · exact (C92_equivalence _ (NumSolver.default_ : NumSolver ℚ ℚ) NumSolver.default_).1.mpr rfl
  · rfl

end Verif.Props
