import Verif.Props.Solver
import Verif.Lemmas.SolverPaths
import Mathlib.Tactic.Module
import Mathlib.LinearAlgebra.Prod
import Mathlib.Data.Sign.Basic

/-!
# Properties of the numerical solver, continued (C66, C67, C89, C90, C91)
-/

namespace Verif.Props

open Verif Verif.Spec Verif.Odeint

variable {α V M : Type} [Field α] [LinearOrder α] [IsStrictOrderedRing α] [AddCommGroup V] [Module α V]

/-! ## C89: an integration over a duration covers the duration -/

/-- C89: `integrateDuration` answers the state after the duration, with the duration as its time. This holds for Runge-Kutta 4, and for the other steppers unless the log type is
`LogConstant`. -/
theorem C89_reaches_partial {eps : α} {lib : Steppers α V M} {fuel : ℕ} {s s' : NumSolver α V} {x y : V} {d : Option α} {t h : α} {f : OdeSystem α V} {l : V →ₗ[α] α}
    (he : 0 ≤ eps) (hlib : ∀ k p q, KeepsTime (lib k p q)) (hs : s.timeStep = some h) (hh : 0 < h) (hc : Clock f l)
    (hk : s.stepperType = .rungeKutta4 ∨ s.logType ≠ .logConstant) (hr : s.integrateDuration eps lib fuel x d f = some (s', .ok (y, t))) :
    d = some t ∧ |l y - (l x + t)| ≤ eps := by
  obtain ⟨hd, hrun⟩ := NumSolver.integrateDuration_ok hr
  refine ⟨hd, ?_⟩
  rcases hrun with ⟨rfl, rfl, -⟩ | ⟨dt, seen, ht, hdt, -, hrun⟩
  · simpa using he
  obtain ⟨u, hu, hut, -, hud⟩ := NumSolver.signed_dir hs hh ht hdt
  have fin : ∀ t', l y = l x + t' → u * (t - t') ≤ eps → -eps ≤ u * (t - t') → |l y - (l x + t)| ≤ eps := by
    intro t' h1 h2 h3
    rw [h1, abs_le]
    rcases hu with rfl | rfl <;> constructor <;> linarith
  rcases hrun with ⟨-, hrun⟩ | ⟨p, q, hk', ⟨hl, -⟩ | ⟨-, t', dt', hrun⟩⟩
  · obtain ⟨t', h1, h2, h3, -⟩ := adaptivePlain_inv (fun y t => l y = l x + t) hu hud (by simpa using hut.le) (fun x1 t1 c h1 => by rw [rk4_clock hc, h1]; ring)
      (by simp) hrun
    rw [max_eq_left he] at h2 h3
    exact fin t' h1 h2 h3
  · exact absurd hl (hk.resolve_left hk')
  · have hkt := hlib s.stepperType p q
    obtain ⟨h1, h2, h3, -⟩ := adaptiveControlled_inv (fun y t => l y = l x + t) hu he
      (fun m x1 t1 c h1 ha => by obtain ⟨k1, k2⟩ := hkt.accepted f l m x1 t1 c hc ha; exact ⟨k1, by rw [k2, h1]; ring⟩)
      (fun m x1 t1 c ha => hkt.rejected f m x1 t1 c ha) (fun m x1 t1 c ha => hkt.shorter f m x1 t1 c ha)
      (fun m x1 t1 c hp => by
        rcases hu with rfl | rfl
        · rw [one_mul] at hp ⊢; exact hkt.forward f m x1 t1 c hp
        · linarith [hkt.backward f m x1 t1 c (by linarith)])
      fuel _ x 0 dt seen y t' dt' hud (by simp) (by rw [sub_zero]; linarith) hrun
    exact fin t' h1 h2 h3

example : (exampleSolver .noLog .rungeKuttaDopri5).integrateDuration (1 / 1000) (fun _ _ _ => fussy ℚ ℚ) 9 5 (some (-3)) ticking =
    some ({ exampleSolver .noLog .rungeKuttaDopri5 with observed := [(5, 0), (4, -1), (3, -2), (2, -3)] }, .ok (2, -3)) := by
  have h1 : ¬ (StepperType.rungeKuttaDopri5 = StepperType.rungeKutta4) := by decide
  have hi : (fussy ℚ ℚ).init = () := rfl
  have h2 : ¬ (LogType.noLog = LogType.logConstant) := by decide
  norm_num [exampleSolver, NumSolver.ctor, NumSolver.integrateDuration, NumSolver.getSignedTimeStep, adaptiveControlled, lessWithSign, fussy_short, fussy_long, abs_of_nonpos, abs_of_nonneg, hi, ticking, h1, h2]

/-- with the log type `LogConstant` a stepper with step control stops at the last multiple of the time step within the duration, and that state is answered with the duration as its time -/
theorem C89_constant_partial {eps : α} {lib : Steppers α V M} {fuel : ℕ} {s s' : NumSolver α V} {x y : V} {d : Option α} {t h : α} {f : OdeSystem α V} {l : V →ₗ[α] α}
    (he : 0 ≤ eps) (hlib : ∀ k p q, KeepsTime (lib k p q)) (hs : s.timeStep = some h) (hh : 0 < h) (hc : Clock f l) (hk : s.stepperType ≠ .rungeKutta4)
    (hl : s.logType = .logConstant) (ht : t ≠ 0) (hr : s.integrateDuration eps lib fuel x d f = some (s', .ok (y, t))) :
    d = some t ∧ ∃ n : ℕ, n * h ≤ |t| + eps ∧ |t| + eps < (n + 1) * h ∧ |l y - (l x + n * (SignType.sign t * h))| ≤ n * eps := by
  obtain ⟨hd, hrun⟩ := NumSolver.integrateDuration_ok hr
  refine ⟨hd, ?_⟩
  rcases hrun with ⟨h0, -⟩ | ⟨dt, seen, -, hdt, -, hrun⟩
  · exact absurd h0 ht
  obtain ⟨u, hu, hut, hdu, hud⟩ := NumSolver.signed_dir hs hh ht hdt
  have hsign : (SignType.sign t : α) = u := by
    rcases hu with rfl | rfl
    · rw [sign_pos (by linarith)]; rfl
    · rw [sign_neg (by linarith)]; rfl
  have habs : |t| = u * t := by
    rcases hu with rfl | rfl
    · rw [one_mul] at hut ⊢; exact abs_of_pos hut
    · rw [neg_one_mul] at hut ⊢; exact abs_of_neg (by linarith)
  have huu : u * u = 1 := by rcases hu with rfl | rfl <;> norm_num
  rcases hrun with ⟨hk', -⟩ | ⟨p, q, -, ⟨-, hrun⟩ | ⟨hl', -⟩⟩
  · exact absurd hk' hk
  · have hkt := hlib s.stepperType p q
    obtain ⟨n, h1, -, h3, h4, -⟩ := constControlled_inv (eps := eps) (start := 0) (finish := t) (step := dt) (c := lib s.stepperType p q) (f := f) (fuel := fuel)
      (fun n y => |l y - (l x + n * dt)| ≤ n * eps) (fun x0 t0 y t => l y - l x0 = t - t0) hu he hud
      (fun _ _ => by simp)
      (fun x0 t0 m x1 t1 c h1 ha => by obtain ⟨k1, k2⟩ := hkt.accepted f l m x1 t1 c hc ha; exact ⟨k1, by rw [k2]; linarith⟩)
      (fun m x1 t1 c ha => hkt.rejected f m x1 t1 c ha) (fun m x1 t1 c ha => hkt.shorter f m x1 t1 c ha)
      (fun m x1 t1 c hp => by
        rcases hu with rfl | rfl
        · rw [one_mul] at hp ⊢; exact hkt.forward f m x1 t1 c hp
        · linarith [hkt.backward f m x1 t1 c (by linarith)])
      (fun n x1 y1 t' hq hp h1 h2 => by
        have e : l y1 - (l x + ((n + 1 : ℕ) : α) * dt) = (l x1 - (l x + n * dt)) - (0 + ((n + 1 : ℕ) : α) * dt - t') := by
          have : l y1 = l x1 + (t' - (0 + n * dt)) := by linarith
          rw [this]; ring
        have e2 : |0 + ((n + 1 : ℕ) : α) * dt - t'| ≤ eps := by
          rw [abs_le]
          rcases hu with rfl | rfl <;> constructor <;> linarith
        rw [e]
        refine le_trans (abs_sub _ _) ?_
        push_cast at e2 ⊢
        linarith)
      fuel x 0 dt seen y hud (by simp) hrun
    refine ⟨n, ?_, ?_, by rw [hsign, ← hdu]; exact h1⟩
    · rw [habs]
      rcases h3 with h3 | h3
      · rw [h3]; simp only [Nat.cast_zero, zero_mul]; linarith
      · have e : u * (0 + (n : α) * dt - t) = n * h - u * t := by rw [hdu]; linear_combination (n * h) * huu
        rw [e] at h3; linarith
    · rw [habs]
      have e : u * (0 + ((n + 1 : ℕ) : α) * dt - t) = (n + 1) * h - u * t := by rw [hdu]; push_cast; linear_combination ((n + 1) * h) * huu
      rw [e] at h4; linarith
  · exact absurd hl hl'

/-- so the state answered is not the state at the time answered: after three seconds by steps of two, `x' = 1` has grown by two -/
theorem C89_constant_violated : KeepsTime (fussy ℚ ℚ) ∧ Clock ticking (LinearMap.id : ℚ →ₗ[ℚ] ℚ) ∧
    (exampleSolver .logConstant .rungeKuttaDopri5).integrateDuration 0 (fun _ _ _ => fussy ℚ ℚ) 9 5 (some 3) ticking =
      some ({ exampleSolver .logConstant .rungeKuttaDopri5 with observed := [(5, 0), (7, 2)] }, .ok (7, 3)) := by
  have h1 : ¬ (StepperType.rungeKuttaDopri5 = StepperType.rungeKutta4) := by decide
  have hi : (fussy ℚ ℚ).init = () := rfl
  refine ⟨fussy_keepsTime, ticking_clock, ?_⟩
  norm_num [exampleSolver, NumSolver.ctor, NumSolver.integrateDuration, NumSolver.getSignedTimeStep, constControlled, adaptiveControlled, lessWithSign, lessEqWithSign,
    fussy_short, fussy_long, abs_of_nonneg, hi, ticking, h1]

/-- C89: with Runge-Kutta 4 the call returns, for every duration -/
theorem C89_returns [Archimedean α] {eps : α} {lib : Steppers α V M} {s : NumSolver α V} {h : α} (x : V) (d : α) (f : OdeSystem α V) (hk : s.stepperType = .rungeKutta4)
    (hs : s.timeStep = some h) (hh : 0 < h) : ∃ fuel s' y, s.integrateDuration eps lib fuel x (some d) f = some (s', .ok (y, d)) := by
  by_cases hd : d = 0
  · subst hd
    exact ⟨0, _, _, by simp [NumSolver.integrateDuration]; exact ⟨rfl, rfl⟩⟩
  obtain ⟨dt, hdt⟩ : ∃ dt, s.getSignedTimeStep (some d) = .ok dt := by
    rcases lt_or_gt_of_ne hd with h1 | h1
    · exact ⟨_, NumSolver.signed_neg hs h1⟩
    · exact ⟨_, NumSolver.signed_pos hs h1⟩
  obtain ⟨u, hu, hut, -, hud⟩ := NumSolver.signed_dir hs hh hd hdt
  obtain ⟨n, hn⟩ := exists_nat_gt ((u * d + eps) / (u * dt))
  rw [div_lt_iff₀ hud] at hn
  obtain ⟨r, hr⟩ := constPlain_ends (eps := eps) (start := 0) (finish := d) (step := rk4 f) hu hud n x 0 (by
    simp only [Nat.cast_zero, zero_mul, add_zero, sub_zero]; linarith)
  have hd' : NumSolver.getSignedTimeStep ({ s with observed := [] } : NumSolver α V) (some d) = .ok dt := hdt
  have hrun : ∃ q, adaptivePlain eps (rk4 f) 0 d dt (n + 1) x = some q := by
    unfold adaptivePlain
    rw [hr]
    dsimp only
    split <;> exact ⟨_, rfl⟩
  obtain ⟨⟨seen, y⟩, hq⟩ := hrun
  refine ⟨n + 1, { s with observed := seen }, y, ?_⟩
  unfold NumSolver.integrateDuration
  simp only [hd, if_false, hd']
  rw [if_pos hk, hq]

omit [IsStrictOrderedRing α] in
/-- C89: a zero duration answers the initial state at time zero -/
theorem C89_zero {eps : α} {lib : Steppers α V M} (fuel : ℕ) (s : NumSolver α V) (x : V) (f : OdeSystem α V) :
    s.integrateDuration eps lib fuel x (some 0) f = some ({ s with observed := [] }, .ok (x, 0)) := by
  simp [NumSolver.integrateDuration]

/-- a negative time step is accepted and then nothing is integrated, though the duration is answered -/
theorem C89_negative_step_violated {eps : α} {lib : Steppers α V M} {s : NumSolver α V} {h d : α} (fuel : ℕ) (x : V) (f : OdeSystem α V) (he : 0 ≤ eps)
    (hk : s.stepperType = .rungeKutta4) (hs : s.timeStep = some h) (hh : h < 0) (hd : eps < d) :
    s.integrateDuration eps lib (fuel + 1) x (some d) f = some ({ s with observed := [(x, 0)] }, .ok (x, d)) := by
  have hd0 : 0 < d := lt_of_le_of_lt he hd
  have h1 : ¬ d - h ≤ eps := by linarith
  have h2 : ¬ eps < -d := by linarith
  have hd' : NumSolver.getSignedTimeStep ({ s with observed := [] } : NumSolver α V) (some d) = .ok h := NumSolver.signed_pos hs hd0
  unfold NumSolver.integrateDuration
  simp only [hd0.ne', if_false, hd']
  rw [if_pos hk]
  simp [adaptivePlain, constPlain, lessEqWithSign, lessWithSign, not_lt.mpr hh.le, h1, h2]

example : (NumSolver.ctor .noLog .rungeKutta4 (some (-2)) (some 1) (some 1) : NumSolver ℚ ℚ).integrateDuration (1 / 1000) (fun _ _ _ => fussy ℚ ℚ) 9 5 (some 3) ticking =
    some ({ (NumSolver.ctor .noLog .rungeKutta4 (some (-2)) (some 1) (some 1) : NumSolver ℚ ℚ) with observed := [(5, 0)] }, .ok (5, 3)) :=
  C89_negative_step_violated 8 5 ticking (by norm_num) rfl rfl (by norm_num) (by norm_num)

/-! ## C90: what Runge-Kutta 4 gets exactly right -/

/-- the polynomial `c0 + t c1 + t² c2 + t³ c3` -/
def cubic (c0 c1 c2 c3 : V) (t : α) : V := c0 + t • c1 + t ^ 2 • c2 + t ^ 3 • c3

/-- and an antiderivative of it -/
def quartic (c0 c1 c2 c3 : V) (t : α) : V := t • c0 + (t ^ 2 / 2) • c1 + (t ^ 3 / 3) • c2 + (t ^ 4 / 4) • c3

theorem rk4_cubic (c0 c1 c2 c3 x : V) (t dt : α) :
    rk4 (fun _ t => cubic c0 c1 c2 c3 t) x t dt = x + (quartic c0 c1 c2 c3 (t + dt) - quartic c0 c1 c2 c3 t) := by
  simp only [rk4, cubic, quartic]
  match_scalars <;> field_simp <;> ring

/-- C90: a system that depends on the time only, as a polynomial of degree at most three, is integrated exactly to each requested time -/
theorem C90_times {lib : Steppers α V M} {fuel : ℕ} {s s' : NumSolver α V} {x : V} {a b h : α} {ts : List α} {r : List (V × α)} (c0 c1 c2 c3 : V)
    (hk : s.stepperType = .rungeKutta4) (hs : s.timeStep = some h) (hh : 0 < h) (hts : ((a :: ts).IsChain (· ≤ ·) ∧ 0 < b) ∨ ((a :: ts).IsChain (· ≥ ·) ∧ b < 0))
    (hb : ts.getLast? = some b) (hr : s.integrateTimes 0 lib fuel x (some a) (ts.map some) (fun _ t => cubic c0 c1 c2 c3 t) = some (s', .ok r)) (i : ℕ) (y : V) (t : α)
    (hi : r[i]? = some (y, t)) : y = x + (quartic c0 c1 c2 c3 t - quartic c0 c1 c2 c3 a) := by
  rcases NumSolver.integrateTimes_ok hr with ⟨a', ha, -, hr', -⟩ | ⟨a', b', ts', dt, ha, ht, hb', hd, -, -, hm, hrun⟩
  · obtain rfl := Option.some.inj ha
    subst hr'
    cases i with
    | succ i => simp at hi
    | zero =>
      obtain ⟨rfl, rfl⟩ : x = y ∧ a = t := by simpa using hi
      simp
  · obtain rfl := Option.some.inj ha
    obtain rfl := List.map_injective_iff.mpr (Option.some_injective α) ht
    obtain rfl := Option.some.inj (hb.symm.trans hb')
    obtain ⟨u, hu, hch, hub⟩ : ∃ u : α, (u = 1 ∨ u = -1) ∧ ((a :: ts).IsChain fun p q => 0 ≤ u * (q - p)) ∧ 0 < u * b := by
      rcases hts with ⟨h1, h2⟩ | ⟨h1, h2⟩
      · exact ⟨1, Or.inl rfl, h1.imp fun p q hpq => by linarith, by linarith⟩
      · exact ⟨-1, Or.inr rfl, h1.imp fun p q hpq => by have : q ≤ p := hpq; linarith, by linarith⟩
    have hne : b ≠ 0 := by rintro rfl; simp at hub
    obtain ⟨v, hv, hvb, hdt, hvd⟩ := NumSolver.signed_dir hs hh hne hd
    have huv : v = u := by
      rcases hu with rfl | rfl <;> rcases hv with rfl | rfl <;> first | rfl | (exfalso; linarith)
    subst huv
    have hv0 : v ≠ 0 := by rcases hv with rfl | rfl <;> norm_num
    rcases hrun with ⟨-, hrun⟩ | ⟨p, q, hk', -⟩
    · exact timesPlain_inv (fun _ y t => y = x + (quartic c0 c1 c2 c3 t - quartic c0 c1 c2 c3 a))
        (fun x0 t0 y t => y = x0 + (quartic c0 c1 c2 c3 t - quartic c0 c1 c2 c3 t0)) hv (le_refl _) hvd (fun _ _ => by simp)
        (fun x0 t0 x1 t1 c hp => by rw [rk4_cubic, hp]; abel)
        (fun n x1 t1 y1 t' T hq hp h1 h2 => by
          have : T = t' := by
            rcases mul_eq_zero.mp (le_antisymm h2 h1) with h | h
            · exact absurd h hv0
            · linarith
          rw [this, hp, hq]; abel)
        ts 0 x dt a _ hvd hch (by simp) hrun (i + 1) y t (by simpa using hi)
    · exact absurd hk hk'

/-- C90: and exactly over a duration -/
theorem C90_duration {lib : Steppers α V M} {fuel : ℕ} {s s' : NumSolver α V} {x y : V} {d : Option α} {t h : α} (c0 c1 c2 c3 : V)
    (hk : s.stepperType = .rungeKutta4) (hs : s.timeStep = some h) (hh : 0 < h)
    (hr : s.integrateDuration 0 lib fuel x d (fun _ t => cubic c0 c1 c2 c3 t) = some (s', .ok (y, t))) : d = some t ∧ y = x + quartic c0 c1 c2 c3 t := by
  obtain ⟨hd, hrun⟩ := NumSolver.integrateDuration_ok hr
  refine ⟨hd, ?_⟩
  rcases hrun with ⟨rfl, rfl, -⟩ | ⟨dt, seen, ht, hdt, -, hrun⟩
  · simp [quartic]
  obtain ⟨u, hu, hut, -, hud⟩ := NumSolver.signed_dir hs hh ht hdt
  have hu0 : u ≠ 0 := by rcases hu with rfl | rfl <;> norm_num
  rcases hrun with ⟨-, hrun⟩ | ⟨p, q, hk', -⟩
  · obtain ⟨t', h1, h2, h3, -⟩ := adaptivePlain_inv (fun y t => y = x + quartic c0 c1 c2 c3 t) hu hud (by simpa using hut.le)
      (fun x1 t1 c h1 => by rw [rk4_cubic, h1]; abel) (by simp [quartic]) hrun
    rw [max_self, ] at h2 h3
    have : t = t' := by
      rcases mul_eq_zero.mp (le_antisymm h2 (by linarith)) with h | h
      · exact absurd h hu0
      · linarith
    rw [this]; exact h1
  · exact absurd hk hk'

/-- C90: a linear quantity that the system conserves has the same value in every state that is observed or answered -/
theorem C90_conserved_times {eps : α} {lib : Steppers α V M} {fuel : ℕ} {s s' : NumSolver α V} {x : V} {start : Option α} {times : List (Option α)} {f : OdeSystem α V}
    {l : V →ₗ[α] α} {r : List (V × α)} (hk : s.stepperType = .rungeKutta4) (hc : Conserved f l)
    (hr : s.integrateTimes eps lib fuel x start times f = some (s', .ok r)) : ∀ p ∈ r, l p.1 = l x := by
  intro p hp
  rcases NumSolver.integrateTimes_ok hr with ⟨a, -, -, hr', -⟩ | ⟨a, b, ts, dt, -, -, -, -, -, -, -, ⟨-, hrun⟩ | ⟨_, _, hk', -⟩⟩
  · subst hr'; obtain rfl := List.mem_singleton.mp hp; rfl
  · exact timesPlain_keep (fun y => l y = l x) (fun x1 t1 c h1 => by rw [rk4_conserved hc, h1]) ts x dt a _ rfl hrun p (by simp [hp])
  · exact absurd hk hk'

theorem C90_conserved_duration {eps : α} {lib : Steppers α V M} {fuel : ℕ} {s s' : NumSolver α V} {x y : V} {d : Option α} {t : α} {f : OdeSystem α V} {l : V →ₗ[α] α}
    (hk : s.stepperType = .rungeKutta4) (hc : Conserved f l) (hr : s.integrateDuration eps lib fuel x d f = some (s', .ok (y, t))) :
    l y = l x ∧ ∀ p ∈ s'.observed, l p.1 = l x := by
  obtain ⟨-, ⟨-, rfl, rfl⟩ | ⟨dt, seen, -, -, rfl, ⟨-, hrun⟩ | ⟨p, q, hk', -⟩⟩⟩ := NumSolver.integrateDuration_ok hr
  · exact ⟨rfl, fun p hp => by simp at hp⟩
  · exact adaptivePlain_keep (fun y => l y = l x) (fun x1 t1 c h1 => by rw [rk4_conserved hc, h1]) rfl hrun
  · exact absurd hk hk'

/-- a rotation in the plane of the first two coordinates conserves the third -/
example : Conserved (fun x _ => (x.2.1, -x.1, 0) : OdeSystem ℚ (ℚ × ℚ × ℚ)) ((LinearMap.snd ℚ ℚ ℚ).comp (LinearMap.snd ℚ ℚ (ℚ × ℚ))) := fun _ _ => rfl

/-! ## C91: Runge-Kutta 4 commutes with linear maps -/

/-- the image of a solver under a map of its states -/
def mapSolver {V W : Type} (L : V → W) (s : NumSolver α V) : NumSolver α W :=
  ⟨s.logType, s.stepperType, s.timeStep, s.relTol, s.absTol, s.observed.map fun p => (L p.1, p.2)⟩

/-- C91: when a linear map carries the system `f` to the system `g`, it carries the states answered and observed for `f` to those for `g` -/
theorem C91_equivariant {W M' : Type} [AddCommGroup W] [Module α W] {eps : α} {lib : Steppers α V M} {lib' : Steppers α W M'} {fuel : ℕ} {s s' : NumSolver α V}
    {x : V} {start : Option α} {times : List (Option α)} {f : OdeSystem α V} {g : OdeSystem α W} {r : List (V × α)} (L : V →ₗ[α] W) (hL : ∀ x t, L (f x t) = g (L x) t)
    (hk : s.stepperType = .rungeKutta4) (hr : s.integrateTimes eps lib fuel x start times f = some (s', .ok r)) :
    (mapSolver L s).integrateTimes eps lib' fuel (L x) start times g = some (mapSolver L s', .ok (r.map fun p => (L p.1, p.2))) := by
  rcases NumSolver.integrateTimes_ok hr with ⟨a, ha, ht, hr', hs'⟩ | ⟨a, b, ts, dt, ha, ht, hb, hd, ho, hs', hm, ⟨-, hrun⟩ | ⟨_, _, hk', -⟩⟩
  · subst ha ht hr' hs'
    simp [NumSolver.integrateTimes, NumSolver.realEq, mapSolver]
  · subst ha ht
    by_cases hne : ts = [a]
    · -- then the call takes the shortcut
      subst hne
      simp only [NumSolver.integrateTimes, NumSolver.realEq, List.map_cons, List.map_nil, List.isEmpty_nil, decide_true, Bool.and_self, if_true, Option.some.injEq, Prod.mk.injEq,
        Except.ok.injEq] at hr
      obtain ⟨rfl, rfl⟩ := hr
      simp [NumSolver.integrateTimes, NumSolver.realEq, mapSolver]
    · have hd' : (mapSolver L s).getSignedTimeStep (some b) = .ok dt := hd
      rw [NumSolver.integrateTimes_run hb hne hd' hk]
      have := timesPlain_map (eps := eps) (dt := dt) (step := rk4 f) (step' := rk4 g) (fuel := fuel) L (fun x t c => rk4_map L hL x t c) ts x dt a
      rw [this, hrun, hs']
      simp [mapSolver]
  · exact absurd hk hk'

/-- C91: the states answered for a linear system depend linearly on the initial state -/
theorem C91_superposition {M₁ M₂ M₃ : Type} {eps : α} {lib₁ : Steppers α V M₁} {lib₂ : Steppers α V M₂} {lib : Steppers α V M₃} {fuel : ℕ} {s s₁ s₂ : NumSolver α V} {x₁ x₂ : V}
    {start : Option α} {times : List (Option α)} {f : OdeSystem α V} {r₁ r₂ : List (V × α)} (c₁ c₂ : α) (hf : ∀ y₁ y₂ t, f (c₁ • y₁ + c₂ • y₂) t = c₁ • f y₁ t + c₂ • f y₂ t)
    (hk : s.stepperType = .rungeKutta4) (h₁ : s.integrateTimes eps lib₁ fuel x₁ start times f = some (s₁, .ok r₁))
    (h₂ : s.integrateTimes eps lib₂ fuel x₂ start times f = some (s₂, .ok r₂)) :
    ∃ s', s.integrateTimes eps lib fuel (c₁ • x₁ + c₂ • x₂) start times f = some (s', .ok (List.zipWith (fun p q => (c₁ • p.1 + c₂ • q.1, p.2)) r₁ r₂)) := by
  have hno : ∀ {V : Type} [AddCommGroup V] [Module α V] {M : Type} (lib : Steppers α V M) (s : NumSolver α V) (o : List (V × α)) (x : V) (f : OdeSystem α V),
      ({ s with observed := o } : NumSolver α V).integrateTimes eps lib fuel x start times f = s.integrateTimes eps lib fuel x start times f := fun _ _ _ _ _ => rfl
  let lib0 : Steppers α (V × V) M₁ := fun _ _ _ => ⟨(lib₁ .bulirschStoer 0 0).init, fun _ m x t dt => ⟨true, m, x, t, dt⟩⟩
  let s2 : NumSolver α (V × V) := ⟨s.logType, s.stepperType, s.timeStep, s.relTol, s.absTol, []⟩
  let F : OdeSystem α (V × V) := fun p t => (f p.1 t, f p.2 t)
  -- the product system answers too
  have hpair : ∃ s' r, s2.integrateTimes eps lib0 fuel (x₁, x₂) start times F = some (s', .ok r) := by
    rcases NumSolver.integrateTimes_ok h₁ with ⟨a, ha, ht, hr', hs'⟩ | ⟨a, b, ts, dt, ha, ht, hb, hd, ho, hs', hm, ⟨-, hrun⟩ | ⟨_, _, hk', -⟩⟩
    · subst ha ht
      exact ⟨_, _, by simp [NumSolver.integrateTimes, NumSolver.realEq]; exact ⟨rfl, rfl⟩⟩
    · subst ha ht
      by_cases hne : ts = [a]
      · subst hne
        exact ⟨_, _, by simp [NumSolver.integrateTimes, NumSolver.realEq]; exact ⟨rfl, rfl⟩⟩
      · have hd' : s2.getSignedTimeStep (some b) = .ok dt := hd
        rw [NumSolver.integrateTimes_run hb hne hd' hk]
        have := timesPlain_map (eps := eps) (dt := dt) (step := rk4 F) (step' := rk4 f) (fuel := fuel) (LinearMap.fst α V V)
          (fun x t c => rk4_map (LinearMap.fst α V V) (fun _ _ => rfl) x t c) ts (x₁, x₂) dt a
        rw [show (LinearMap.fst α V V) (x₁, x₂) = x₁ from rfl, hrun] at this
        cases hq : timesPlain eps (rk4 F) dt fuel (x₁, x₂) dt a ts with
        | none => rw [hq] at this; simp at this
        | some seen => exact ⟨_, _, rfl⟩
    · exact absurd hk hk'
  obtain ⟨s', r, hp⟩ := hpair
  have e₁ := C91_equivariant (lib' := lib₁) (g := f) (LinearMap.fst α V V) (fun _ _ => rfl) hk hp
  have e₂ := C91_equivariant (lib' := lib₂) (g := f) (LinearMap.snd α V V) (fun _ _ => rfl) hk hp
  have e₃ := C91_equivariant (lib' := lib) (g := f) (c₁ • LinearMap.fst α V V + c₂ • LinearMap.snd α V V) (fun p t => by simp [F, hf]) hk hp
  have g₁ : s.integrateTimes eps lib₁ fuel x₁ start times f = _ := (hno lib₁ s [] x₁ f).symm.trans e₁
  have g₂ : s.integrateTimes eps lib₂ fuel x₂ start times f = _ := (hno lib₂ s [] x₂ f).symm.trans e₂
  rw [h₁] at g₁
  rw [h₂] at g₂
  simp only [Option.some.injEq, Prod.mk.injEq, Except.ok.injEq] at g₁ g₂
  refine ⟨mapSolver (c₁ • LinearMap.fst α V V + c₂ • LinearMap.snd α V V) s', ((hno lib s [] _ f).symm.trans e₃).trans ?_⟩
  rw [g₁.2, g₂.2, List.zipWith_map]
  congr 3
  clear * - 
  induction r with
  | nil => rfl
  | cons p r ih => simp

end Verif.Props
