import Verif.Props.SolverRuns

/-! # Properties of the numerical solver, continued (C90: linear systems) -/

namespace Verif.Props

open Verif Verif.Spec Verif.Odeint

variable {α V M : Type} [Field α] [LinearOrder α] [IsStrictOrderedRing α] [AddCommGroup V] [Module α V]

/-- the terms up to order four of the exponential of `t A`, applied to `x` -/
def taylor (A : V →ₗ[α] V) (t : α) (x : V) : V :=
  x + t • A x + (t ^ 2 / 2) • A (A x) + (t ^ 3 / 6) • A (A (A x)) + (t ^ 4 / 24) • A (A (A (A x)))

theorem rk4_linear (A : V →ₗ[α] V) (x : V) (t dt : α) : rk4 (fun x _ => A x) x t dt = taylor A dt x := by
  simp only [rk4, taylor, map_add, map_smul]
  match_scalars <;> field_simp <;> ring

theorem taylor_taylor {A : V →ₗ[α] V} (h5 : ∀ x, A (A (A (A (A x)))) = 0) (s t : α) (x : V) : taylor A s (taylor A t x) = taylor A (t + s) x := by
  simp only [taylor, map_add, map_smul, h5, smul_zero, add_zero]
  match_scalars <;> field_simp <;> ring

/-- C90: one step of Runge-Kutta 4 on a linear system is the exponential series up to order four: a duration of at most one step -/
theorem C90_linear_step {lib : Steppers α V M} {fuel : ℕ} {s s' : NumSolver α V} {x y : V} {t h : α} (A : V →ₗ[α] V)
    (hk : s.stepperType = .rungeKutta4) (hs : s.timeStep = some h) (ht : |t| < h)
    (hr : s.integrateDuration 0 lib fuel x (some t) (fun x _ => A x) = some (s', .ok (y, t))) : y = taylor A t x := by
  obtain ⟨-, hrun⟩ := NumSolver.integrateDuration_ok hr
  have hh : 0 < h := lt_of_le_of_lt (abs_nonneg t) ht
  rcases hrun with ⟨rfl, rfl, -⟩ | ⟨dt, seen, ht0, hdt, -, hrun⟩
  · simp [taylor]
  rcases hrun with ⟨-, hrun⟩ | ⟨p, q, hk', -⟩
  · rw [abs_lt] at ht
    unfold adaptivePlain at hrun
    match fuel, hrun with
    | 0, hrun => simp [constPlain] at hrun
    | fuel + 1, hrun =>
      rcases lt_or_gt_of_ne ht0 with h1 | h1
      · rw [NumSolver.signed_neg hs h1] at hdt
        cases hdt
        have e1 : ¬ (0 : α) < -h := by linarith
        have e2 : ¬ t + h ≤ 0 := by linarith
        simp [constPlain, lessEqWithSign, lessWithSign, e1, e2, h1] at hrun
        rw [← hrun.2, rk4_linear]
      · rw [NumSolver.signed_pos hs h1] at hdt
        cases hdt
        have e2 : ¬ h ≤ t := by linarith
        simp [constPlain, lessEqWithSign, lessWithSign, hh, e2, h1] at hrun
        rw [← hrun.2, rk4_linear]
  · exact absurd hk hk'

/-- C90: a linear system whose fifth power is zero, such as a chain of at most five integrators, is integrated exactly to each requested time -/
theorem C90_nilpotent_times {lib : Steppers α V M} {fuel : ℕ} {s s' : NumSolver α V} {x : V} {a b h : α} {ts : List α} {r : List (V × α)} {A : V →ₗ[α] V}
    (h5 : ∀ x, A (A (A (A (A x)))) = 0)
    (hk : s.stepperType = .rungeKutta4) (hs : s.timeStep = some h) (hh : 0 < h) (hts : ((a :: ts).IsChain (· ≤ ·) ∧ 0 < b) ∨ ((a :: ts).IsChain (· ≥ ·) ∧ b < 0))
    (hb : ts.getLast? = some b) (hr : s.integrateTimes 0 lib fuel x (some a) (ts.map some) (fun x _ => A x) = some (s', .ok r)) (i : ℕ) (y : V) (t : α)
    (hi : r[i]? = some (y, t)) : y = taylor A (t - a) x := by
  rcases NumSolver.integrateTimes_ok hr with ⟨a', ha, -, hr', -⟩ | ⟨a', b', ts', dt, ha, ht, hb', hd, -, -, hm, hrun⟩
  · obtain rfl := Option.some.inj ha
    subst hr'
    cases i with
    | succ i => simp at hi
    | zero =>
      obtain ⟨rfl, rfl⟩ : x = y ∧ a = t := by simpa using hi
      simp [taylor]
  · obtain rfl := Option.some.inj ha
    obtain rfl := List.map_injective_iff.mpr (Option.some_injective α) ht
    obtain rfl := Option.some.inj (hb.symm.trans hb')
    obtain ⟨u, hu, hch, hub⟩ : ∃ u : α, (u = 1 ∨ u = -1) ∧ ((a :: ts).IsChain fun p q => 0 ≤ u * (q - p)) ∧ 0 < u * b := by
      rcases hts with ⟨h1, h2⟩ | ⟨h1, h2⟩
      · exact ⟨1, Or.inl rfl, h1.imp fun p q hpq => by linarith, by linarith⟩
      · exact ⟨-1, Or.inr rfl, h1.imp fun p q hpq => by have : q ≤ p := hpq; linarith, by linarith⟩
    have hne : b ≠ 0 := by rintro rfl; simp at hub
    obtain ⟨v, hv, hvb, hdt, hvd⟩ := NumSolver.signed_dir hs hh hne hd
    have huv : v = u := by
      rcases hu with rfl | rfl <;> rcases hv with rfl | rfl <;> first | rfl | (exfalso; linarith)
    subst huv
    have hv0 : v ≠ 0 := by rcases hv with rfl | rfl <;> norm_num
    rcases hrun with ⟨-, hrun⟩ | ⟨p, q, hk', -⟩
    · exact timesPlain_inv (fun _ y t => y = taylor A (t - a) x)
        (fun x0 t0 y t => y = taylor A (t - t0) x0) hv (le_refl _) hvd (fun _ _ => by simp [taylor])
        (fun x0 t0 x1 t1 c hp => by rw [rk4_linear, hp, taylor_taylor h5]; congr 1; ring)
        (fun n x1 t1 y1 t' T hq hp h1 h2 => by
          have : T = t' := by
            rcases mul_eq_zero.mp (le_antisymm h2 h1) with h | h
            · exact absurd h hv0
            · linarith
          rw [this, hp, hq, taylor_taylor h5]; congr 1; ring)
        ts 0 x dt a _ hvd hch (by simp [taylor]) hrun (i + 1) y t (by simpa using hi)
    · exact absurd hk hk'

/-- C90: and exactly over a duration -/
theorem C90_nilpotent_duration {lib : Steppers α V M} {fuel : ℕ} {s s' : NumSolver α V} {x y : V} {d : Option α} {t h : α} {A : V →ₗ[α] V}
    (h5 : ∀ x, A (A (A (A (A x)))) = 0) (hk : s.stepperType = .rungeKutta4) (hs : s.timeStep = some h) (hh : 0 < h)
    (hr : s.integrateDuration 0 lib fuel x d (fun x _ => A x) = some (s', .ok (y, t))) : d = some t ∧ y = taylor A t x := by
  obtain ⟨hd, hrun⟩ := NumSolver.integrateDuration_ok hr
  refine ⟨hd, ?_⟩
  rcases hrun with ⟨rfl, rfl, -⟩ | ⟨dt, seen, ht, hdt, -, hrun⟩
  · simp [taylor]
  obtain ⟨u, hu, hut, -, hud⟩ := NumSolver.signed_dir hs hh ht hdt
  have hu0 : u ≠ 0 := by rcases hu with rfl | rfl <;> norm_num
  rcases hrun with ⟨-, hrun⟩ | ⟨p, q, hk', -⟩
  · obtain ⟨t', h1, h2, h3, -⟩ := adaptivePlain_inv (fun y t => y = taylor A t x) hu hud (by simpa using hut.le)
      (fun x1 t1 c h1 => by rw [rk4_linear, h1, taylor_taylor h5]) (by simp [taylor]) hrun
    rw [max_self, ] at h2 h3
    have : t = t' := by
      rcases mul_eq_zero.mp (le_antisymm h2 (by linarith)) with h | h
      · exact absurd h hu0
      · linarith
    rw [this]; exact h1
  · exact absurd hk hk'

/-- a mass on a line: the position grows with the speed -/
example : ∃ A : (ℚ × ℚ) →ₗ[ℚ] (ℚ × ℚ), A ≠ 0 ∧ ∀ x, A (A (A (A (A x)))) = 0 := by
  refine ⟨LinearMap.prod (LinearMap.snd ℚ ℚ ℚ) 0, ?_, ?_⟩
  · intro h
    have := congrArg (fun f => (f (0, 1)).1) h
    simp at this
  · intro x
    simp

end Verif.Props
