import Verif.Lemmas.Solver

/-!
# Lemmas about the calls of the numerical solver
-/

namespace Verif

open Odeint Spec

variable {α V M : Type} [Field α] [LinearOrder α] [IsStrictOrderedRing α] [AddCommGroup V] [Module α V]

namespace Odeint

theorem rk4_map {W : Type} [AddCommGroup W] [Module α W] {f : OdeSystem α V} {g : OdeSystem α W} (L : V →ₗ[α] W) (h : ∀ x t, L (f x t) = g (L x) t) (x : V) (t dt : α) :
    L (rk4 f x t dt) = rk4 g (L x) t dt := by
  simp only [rk4, map_add, map_smul, h]

theorem rk4_clock {f : OdeSystem α V} {l : V →ₗ[α] α} (h : Clock f l) (x : V) (t dt : α) : l (rk4 f x t dt) = l x + dt := by
  have h' : ∀ x t, l (f x t) = 1 := h
  simp only [rk4, map_add, map_smul, h', smul_eq_mul]; field_simp; ring

theorem rk4_conserved {f : OdeSystem α V} {l : V →ₗ[α] α} (h : Conserved f l) (x : V) (t dt : α) : l (rk4 f x t dt) = l x := by
  have h' : ∀ x t, l (f x t) = 0 := h
  simp only [rk4, map_add, map_smul, h', smul_eq_mul]; ring

end Odeint

namespace NumSolver

theorem signed_pos {s : NumSolver α V} {h b : α} (hs : s.timeStep = some h) (hb : 0 < b) : s.getSignedTimeStep (some b) = .ok h := by
  simp [getSignedTimeStep, hs, hb, not_lt.mpr hb.le]

theorem signed_neg {s : NumSolver α V} {h b : α} (hs : s.timeStep = some h) (hb : b < 0) : s.getSignedTimeStep (some b) = .ok (-h) := by
  simp [getSignedTimeStep, hs, hb, not_lt.mpr hb.le]

theorem signed_zero {s : NumSolver α V} {h : α} (hs : s.timeStep = some h) : s.getSignedTimeStep (some (0 : α)) = .ok 0 := by
  simp [getSignedTimeStep, hs]

omit [IsStrictOrderedRing α] in
theorem toDoubles_ok : ∀ {l : List (Option α)} {ts : List α}, toDoubles l = .ok ts → l = ts.map some := by
  intro l
  induction l with
  | nil => intro ts h; obtain rfl := Except.ok.inj h; rfl
  | cons a l ih =>
    intro ts h
    cases a with
    | none => simp [toDoubles] at h
    | some a =>
      unfold toDoubles at h
      cases hl : toDoubles l with
      | error e => rw [hl] at h; simp at h
      | ok bs =>
        rw [hl] at h
        obtain rfl := Except.ok.inj h
        rw [ih hl]; rfl

omit [IsStrictOrderedRing α] in
theorem toDoubles_some (ts : List α) : toDoubles (ts.map some) = .ok ts := by
  induction ts with
  | nil => rfl
  | cons a ts ih => simp [toDoubles, ih]

/-- a call of `integrateTime` that answers either had nothing to integrate or ran `integrate_times` -/
theorem integrateTimes_ok {eps : α} {lib : Steppers α V M} {fuel : ℕ} {s s' : NumSolver α V} {x : V} {start : Option α} {times : List (Option α)} {f : OdeSystem α V}
    {r : List (V × α)} (h : s.integrateTimes eps lib fuel x start times f = some (s', .ok r)) :
    (∃ a, start = some a ∧ times = [some a] ∧ r = [(x, a)] ∧ s' = { s with observed := [] }) ∨
      ∃ a b ts dt, start = some a ∧ times = ts.map some ∧ ts.getLast? = some b ∧ s.getSignedTimeStep (some b) = .ok dt ∧ s'.observed = (x, a) :: r ∧ s' = { s with observed := (x, a) :: r } ∧
        r.map Prod.snd = ts ∧
        ((s.stepperType = .rungeKutta4 ∧ timesPlain eps (rk4 f) dt fuel x dt a ts = some ((x, a) :: r)) ∨
          ∃ at_ rt, s.stepperType ≠ .rungeKutta4 ∧
            timesControlled eps ((lib s.stepperType at_ rt).tryStep f) fuel 0 (lib s.stepperType at_ rt).init x dt a ts = some ((x, a) :: r, .ok ())) := by
  unfold integrateTimes at h
  cases times with
  | nil => simp at h
  | cons first rest =>
    dsimp only at h
    by_cases hs : (rest.isEmpty && realEq first start) = true
    · rw [if_pos hs] at h
      rw [Bool.and_eq_true] at hs
      obtain ⟨h1, h2⟩ := hs
      have hr : rest = [] := List.isEmpty_iff.mp h1
      cases start with
      | none => simp at h
      | some a =>
        cases first with
        | none => simp [realEq] at h2
        | some a' =>
          simp only [Option.some.injEq, Prod.mk.injEq, Except.ok.injEq] at h
          have : a' = a := by simpa [realEq] using h2
          subst this hr
          exact Or.inl ⟨a', rfl, rfl, h.2.symm, h.1.symm⟩
    · rw [if_neg hs] at h
      cases hd : getSignedTimeStep { s with observed := [] } ((first :: rest).getLast (by simp)) with
      | error e => rw [hd] at h; simp at h
      | ok dt =>
        rw [hd] at h
        dsimp only at h
        cases ht : toDoubles (first :: rest) with
        | error e => rw [ht] at h; simp at h
        | ok ts =>
          cases start with
          | none => rw [ht] at h; simp at h
          | some a =>
            rw [ht] at h
            dsimp only at h
            have hts := toDoubles_ok ht
            have hne : ts ≠ [] := by rintro rfl; simp at hts
            have hlast : (first :: rest).getLast (by simp) = some (ts.getLast hne) := by
              simp only [hts, List.getLast_map]
            rw [hlast] at hd
            right
            by_cases hk : s.stepperType = .rungeKutta4
            · rw [if_pos hk] at h
              cases hp : timesPlain eps (rk4 f) dt fuel x dt a ts with
              | none => rw [hp] at h; simp at h
              | some seen =>
                rw [hp] at h
                simp only [Option.some.injEq, Prod.mk.injEq, Except.ok.injEq] at h
                obtain ⟨rest', hr', hm'⟩ := timesPlain_times _ _ _ _ _ hp
                obtain ⟨rfl, rfl⟩ := h
                subst hr'
                exact ⟨a, ts.getLast hne, ts, dt, rfl, hts, List.getLast?_eq_some_getLast hne, hd, rfl, rfl, hm', Or.inl ⟨hk, hp⟩⟩
            · rw [if_neg hk] at h
              cases ha : s.absTol with
              | none => rw [ha] at h; simp at h
              | some at_ =>
                cases hr : s.relTol with
                | none => rw [ha, hr] at h; simp at h
                | some rt =>
                  rw [ha, hr] at h
                  dsimp only at h
                  cases hp : timesControlled eps ((lib s.stepperType at_ rt).tryStep f) fuel 0 (lib s.stepperType at_ rt).init x dt a ts with
                  | none => rw [hp] at h; simp at h
                  | some p =>
                    obtain ⟨seen, res⟩ := p
                    rw [hp] at h
                    cases res with
                    | error e => simp at h
                    | ok w =>
                      simp only [Option.some.injEq, Prod.mk.injEq, Except.ok.injEq] at h
                      obtain ⟨rest', hr', hm'⟩ := timesControlled_times _ _ _ _ _ _ _ hp
                      obtain ⟨rfl, rfl⟩ := h
                      dsimp only at hr' hm'
                      subst hr'
                      exact ⟨a, ts.getLast hne, ts, dt, rfl, hts, List.getLast?_eq_some_getLast hne, hd, rfl, rfl, hm' rfl, Or.inr ⟨at_, rt, hk, hp⟩⟩

/-- a call of `integrateDuration` that answers either had nothing to integrate or ran one of the two loops -/
theorem integrateDuration_ok {eps : α} {lib : Steppers α V M} {fuel : ℕ} {s s' : NumSolver α V} {x y : V} {dur : Option α} {t : α} {f : OdeSystem α V}
    (h : s.integrateDuration eps lib fuel x dur f = some (s', .ok (y, t))) :
    dur = some t ∧ ((t = 0 ∧ y = x ∧ s' = { s with observed := [] }) ∨
      ∃ dt seen, t ≠ 0 ∧ s.getSignedTimeStep (some t) = .ok dt ∧ s' = { s with observed := seen } ∧
        ((s.stepperType = .rungeKutta4 ∧ adaptivePlain eps (rk4 f) 0 t dt fuel x = some (seen, y)) ∨
          ∃ at_ rt, s.stepperType ≠ .rungeKutta4 ∧
            ((s.logType = .logConstant ∧ constControlled eps (lib s.stepperType at_ rt) f 0 t dt fuel fuel x 0 dt = some (seen, .ok y)) ∨
              (s.logType ≠ .logConstant ∧
                ∃ t' dt', adaptiveControlled eps ((lib s.stepperType at_ rt).tryStep f) t fuel (lib s.stepperType at_ rt).init x 0 dt = some (seen, .ok (y, t', dt')))))) := by
  unfold integrateDuration at h
  cases dur with
  | none => simp at h
  | some d =>
    dsimp only at h
    by_cases h0 : d = 0
    · rw [if_pos h0] at h
      simp only [Option.some.injEq, Prod.mk.injEq, Except.ok.injEq] at h
      obtain ⟨rfl, rfl, rfl⟩ := h
      exact ⟨by rw [h0], Or.inl ⟨rfl, rfl, rfl⟩⟩
    · rw [if_neg h0] at h
      cases hd : getSignedTimeStep { s with observed := [] } (some d) with
      | error e => rw [hd] at h; simp at h
      | ok dt =>
        rw [hd] at h
        dsimp only at h
        by_cases hk : s.stepperType = .rungeKutta4
        · rw [if_pos hk] at h
          cases hp : adaptivePlain eps (rk4 f) 0 d dt fuel x with
          | none => rw [hp] at h; simp at h
          | some p =>
            obtain ⟨seen, y'⟩ := p
            rw [hp] at h
            simp only [Option.some.injEq, Prod.mk.injEq, Except.ok.injEq] at h
            obtain ⟨rfl, rfl, rfl⟩ := h
            exact ⟨rfl, Or.inr ⟨dt, seen, h0, hd, rfl, Or.inl ⟨hk, hp⟩⟩⟩
        · rw [if_neg hk] at h
          cases ha : s.absTol with
          | none => rw [ha] at h; simp at h
          | some at_ =>
            cases hr : s.relTol with
            | none => rw [ha, hr] at h; simp at h
            | some rt =>
              rw [ha, hr] at h
              dsimp only at h
              by_cases hl : s.logType = .logConstant
              · rw [if_pos hl] at h
                cases hp : constControlled eps (lib s.stepperType at_ rt) f 0 d dt fuel fuel x 0 dt with
                | none => rw [hp] at h; simp at h
                | some p =>
                  obtain ⟨seen, res⟩ := p
                  rw [hp] at h
                  cases res with
                  | error e => simp at h
                  | ok w =>
                    simp only [Option.some.injEq, Prod.mk.injEq, Except.ok.injEq] at h
                    obtain ⟨rfl, rfl, rfl⟩ := h
                    exact ⟨rfl, Or.inr ⟨dt, seen, h0, hd, rfl, Or.inr ⟨at_, rt, hk, Or.inl ⟨hl, hp⟩⟩⟩⟩
              · rw [if_neg hl] at h
                cases hp : adaptiveControlled eps ((lib s.stepperType at_ rt).tryStep f) d fuel (lib s.stepperType at_ rt).init x 0 dt with
                | none => rw [hp] at h; simp at h
                | some p =>
                  obtain ⟨seen, res⟩ := p
                  rw [hp] at h
                  cases res with
                  | error e => simp at h
                  | ok w =>
                    obtain ⟨y', t', dt'⟩ := w
                    simp only [Option.some.injEq, Prod.mk.injEq, Except.ok.injEq] at h
                    obtain ⟨rfl, rfl, rfl⟩ := h
                    exact ⟨rfl, Or.inr ⟨dt, seen, h0, hd, rfl, Or.inr ⟨at_, rt, hk, Or.inr ⟨hl, t', dt', hp⟩⟩⟩⟩

/-- for a time step that is positive, the signed step has the direction of its argument -/
theorem signed_dir {s : NumSolver α V} {h b dt : α} (hs : s.timeStep = some h) (hh : 0 < h) (hb : b ≠ 0) (hd : s.getSignedTimeStep (some b) = .ok dt) :
    ∃ u : α, (u = 1 ∨ u = -1) ∧ 0 < u * b ∧ dt = u * h ∧ 0 < u * dt := by
  rcases lt_or_gt_of_ne hb with h1 | h1
  · rw [signed_neg hs h1] at hd
    obtain rfl := Except.ok.inj hd
    exact ⟨-1, Or.inr rfl, by linarith, by ring, by linarith⟩
  · rw [signed_pos hs h1] at hd
    obtain rfl := Except.ok.inj hd
    exact ⟨1, Or.inl rfl, by linarith, by ring, by linarith⟩

omit [IsStrictOrderedRing α] in
/-- how `integrateTime` runs when there is something to integrate -/
theorem integrateTimes_run {eps : α} {lib : Steppers α V M} {fuel : ℕ} {s : NumSolver α V} {x : V} {a b dt : α} {ts : List α} {f : OdeSystem α V}
    (hb : ts.getLast? = some b) (hne : ts ≠ [a]) (hd : s.getSignedTimeStep (some b) = .ok dt) (hk : s.stepperType = .rungeKutta4) :
    s.integrateTimes eps lib fuel x (some a) (ts.map some) f =
      (timesPlain eps (rk4 f) dt fuel x dt a ts).map fun seen => ({ s with observed := seen }, .ok seen.tail) := by
  cases ts with
  | nil => simp at hb
  | cons t ts =>
    have h1 : ((ts.map some).isEmpty && realEq (some t) (some a)) = false := by
      cases ts with
      | nil => simp only [List.map_nil, List.isEmpty_nil, realEq, Bool.true_and, decide_eq_false_iff_not]
               intro h; exact hne (by rw [h])
      | cons => rfl
    have h2 : (some t :: ts.map some).getLast (by simp) = some b := by
      have : ((t :: ts).map some).getLast (by simp) = some b := by
        rw [List.getLast_map]
        rw [List.getLast?_eq_some_getLast (by simp)] at hb
        exact hb
      simpa using this
    have h3 : toDoubles (some t :: ts.map some) = .ok (t :: ts) := toDoubles_some (t :: ts)
    unfold integrateTimes
    have hd' : getSignedTimeStep ({ s with observed := [] } : NumSolver α V) (some b) = .ok dt := hd
    simp only [List.map_cons, h1, h2, h3, hd', Bool.false_eq_true, if_false]
    rw [if_pos hk]
    cases timesPlain eps (rk4 f) dt fuel x dt a (t :: ts) <;> rfl

end NumSolver

end Verif
