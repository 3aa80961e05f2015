import Verif.Lemmas.SolverEnds
import Verif.Props.SolverRuns

/-!
# Calls with step control return

C65 and C89 for the steppers other than Runge-Kutta 4: with a stepper that makes progress, the loops of odeint end, no exception is thrown for too many rejected steps, and the calls
answer.
-/

namespace Verif.Props

open Verif Verif.Odeint Verif.Spec

variable {α V M : Type} [Field α] [LinearOrder α] [IsStrictOrderedRing α] [AddCommGroup V] [Module α V]

theorem fussy_advances : Advances (fussy α V) 1 (1 / 2) where
  time := by
    intro f m x t dt h
    by_cases hd : |dt| ≤ 1
    · simp [fussy, hd]
    · simp [fussy, hd] at h
  stays := by
    intro f m x t dt h
    by_cases hd : |dt| ≤ 1
    · simp [fussy, hd] at h
    · simp [fussy, hd]
  accepts := by
    intro f m x t dt hd
    simp [fussy, hd]
  shrinks := by
    intro f m x t dt h
    by_cases hd : |dt| ≤ 1
    · simp [fussy, hd] at h
    · simp only [fussy, hd, if_false, abs_div, abs_of_pos (two_pos : (0 : α) < 2)]
      linarith
  floor := by
    intro f m x t dt h
    by_cases hd : |dt| ≤ 1
    · simp [fussy, hd] at h
    · simp only [fussy, hd, if_false, abs_div, abs_of_pos (two_pos : (0 : α) < 2)]
      linarith
  keeps := by
    intro f m x t dt h
    by_cases hd : |dt| ≤ 1
    · simp only [fussy, hd, if_true]
      exact min_le_right _ _
    · simp [fussy, hd] at h
  forward := by intro f m x t dt h; by_cases hd : |dt| ≤ 1 <;> simp [fussy, h, hd]
  backward := by
    intro f m x t dt h
    by_cases hd : |dt| ≤ 1
    · simpa [fussy, hd] using h
    · simp only [fussy, hd, if_false]; linarith

/-- C65: with step control the call returns when the stepper makes progress -/
theorem C65_returns_controlled [Archimedean α] {eps short least : α} {lib : Steppers α V M} {s : NumSolver α V} {a b h p q : α} {ts : List α} (x : V) (f : OdeSystem α V)
    (he : 0 ≤ eps) (hk : s.stepperType ≠ .rungeKutta4) (hs : s.timeStep = some h) (hp : s.absTol = some p) (hq : s.relTol = some q) (hh : 0 < h)
    (hlib : Advances (lib s.stepperType p q) short least) (hl : 0 < least) (hlong : (9 / 10) ^ 500 * |b - a| ≤ short)
    (hts : ((a :: ts).IsChain (· ≤ ·) ∧ 0 < b) ∨ ((a :: ts).IsChain (· ≥ ·) ∧ b < 0)) (hb : ts.getLast? = some b) :
    ∃ fuel s' r, s.integrateTimes eps lib fuel x (some a) (ts.map some) f = some (s', .ok r) := by
  by_cases hne : ts = [a]
  · subst hne
    exact ⟨0, _, _, by simp [NumSolver.integrateTimes, NumSolver.realEq]; exact ⟨rfl, rfl⟩⟩
  obtain ⟨u, dt, hu, hch, hd, hdt⟩ : ∃ u dt : α, (u = 1 ∨ u = -1) ∧ ((a :: ts).IsChain fun p q => 0 ≤ u * (q - p)) ∧ s.getSignedTimeStep (some b) = .ok dt ∧ 0 < u * dt := by
    rcases hts with ⟨h1, h2⟩ | ⟨h1, h2⟩
    · exact ⟨1, h, Or.inl rfl, h1.imp fun p q hpq => by linarith, NumSolver.signed_pos hs h2, by linarith⟩
    · exact ⟨-1, -h, Or.inr rfl, h1.imp fun p q hpq => by have : q ≤ p := hpq; linarith, NumSolver.signed_neg hs h2, by linarith⟩
  have hκ : 0 < min least (u * dt) := lt_min hl hdt
  obtain ⟨n, hn⟩ := exists_nat_ge (|b - a| / min least (u * dt))
  rw [div_le_iff₀ hκ] at hn
  have habs : u * (b - a) ≤ |b - a| := by
    rcases hu with rfl | rfl
    · rw [one_mul]; exact le_abs_self _
    · rw [neg_one_mul]; exact neg_le_abs _
  obtain ⟨seen, hseen⟩ := timesControlled_ends (eps := eps) hlib hu he f hκ (min_le_left _ _) (abs_nonneg (b - a)) hlong n hn a ts 0 (lib s.stepperType p q).init x dt a
    (by omega) (min_le_right _ _) (Or.inl rfl) (by simp) hch (fun T hT => le_trans (chain_last ts a hch T hT b hb) habs)
  exact ⟨501 * n + 500 + 1, _, _, by rw [NumSolver.integrateTimes_run_controlled hb hne hd hk hp hq, hseen]; rfl⟩

/-- three times ahead, with the stepper that halves long steps -/
example (f : OdeSystem ℚ ℚ) : ∃ fuel s' r, (exampleSolver .noLog .bulirschStoer).integrateTimes 0 (fun _ _ _ => fussy ℚ ℚ) fuel 5 (some 1) ([2, 2, 60].map some) f = some (s', .ok r) :=
  C65_returns_controlled (short := 1) (least := 1 / 2) (b := 60) 5 f le_rfl (by decide) rfl rfl rfl (by norm_num) fussy_advances (by norm_num) (by rw [show (500 : ℕ) = 250 * 2 from rfl, pow_mul]; norm_num [abs_of_nonneg])
    (Or.inl (by norm_num)) rfl

/-- C65: integrating over durations answers one state per duration, each as far from the initial state as the duration says, up to the tolerance of the library -/
theorem C65_durations_partial {eps : α} {lib : Steppers α V M} {fuel : ℕ} {s s' : NumSolver α V} {x : V} {b h : α} {ds : List α} {f : OdeSystem α V} {l : V →ₗ[α] α}
    {r : List (V × α)} (he : 0 ≤ eps) (hlib : ∀ k p q, KeepsTime (lib k p q)) (hs : s.timeStep = some h) (hh : 0 < h) (hc : Clock f l)
    (hds : ((0 :: ds).IsChain (· ≤ ·) ∨ (0 :: ds).IsChain (· ≥ ·)) ∧ b ≠ 0) (hb : ds.getLast? = some b)
    (hr : s.integrateDurations eps lib fuel x (ds.map some) f = some (s', .ok r)) :
    r.map Prod.snd = ds ∧ ∀ (i : ℕ) (y : V) (t : α), r[i]? = some (y, t) → |l y - (l x + t)| ≤ (i + 1) * eps := by
  have h1 := C65_times hr
  constructor
  · have h2 : (r.map Prod.snd).map some = ds.map some := by rw [← h1, List.map_map]; rfl
    exact List.map_injective_iff.2 (Option.some_injective α) h2
  · intro i y t hi
    have hmem : b ∈ ds := List.mem_of_getLast? hb
    have hi0 : (0 : α) ≤ (i + 1) * eps := by positivity
    rcases hds with ⟨h2 | h2, hb0⟩
    · have h3 : 0 ≤ b := (List.pairwise_cons.1 h2.pairwise).1 b hmem
      have h4 := C65_forward_partial he hlib hs hh hc h2 hb (lt_of_le_of_ne h3 (Ne.symm hb0)) hr i y t hi
      rw [abs_le]
      constructor <;> linarith [h4.1, h4.2]
    · have h3 : b ≤ 0 := (List.pairwise_cons.1 h2.pairwise).1 b hmem
      have h4 := C65_backward_partial he hlib hs hh hc h2 hb (lt_of_le_of_ne h3 hb0) hr i y t hi
      rw [abs_le]
      constructor <;> linarith [h4.1, h4.2]

example : (exampleSolver .noLog .bulirschStoer).integrateDurations (1 / 1000) (fun _ _ _ => fussy ℚ ℚ) 9 5 [some 1, some 3] ticking =
      some ({ exampleSolver .noLog .bulirschStoer with observed := [(5, 0), (6, 1), (8, 3)] }, .ok [(6, 1), (8, 3)]) := by
  norm_num [exampleSolver, NumSolver.ctor, NumSolver.integrateDurations, NumSolver.integrateTimes, NumSolver.realEq, NumSolver.getSignedTimeStep, NumSolver.toDoubles, timesControlled,
    timesControlledTo, lessWithSign, minAbs, maxAbs, fussy, ticking]
  intro h; cases h

/-- C89: with step control the call returns when the stepper makes progress -/
theorem C89_returns_controlled [Archimedean α] {eps short least : α} {lib : Steppers α V M} {s : NumSolver α V} {h p q : α} (x : V) (d : α) (f : OdeSystem α V)
    (he : 0 ≤ eps) (hk : s.stepperType ≠ .rungeKutta4) (hs : s.timeStep = some h) (hp : s.absTol = some p) (hq : s.relTol = some q) (hh : 0 < h)
    (hlib : Advances (lib s.stepperType p q) short least) (hl : 0 < least) (hlong : (9 / 10) ^ 499 * (max |d| h + eps) ≤ short) :
    ∃ fuel s' y, s.integrateDuration eps lib fuel x (some d) f = some (s', .ok (y, d)) := by
  by_cases hd : d = 0
  · subst hd
    exact ⟨0, _, _, by simp [NumSolver.integrateDuration]; exact ⟨rfl, rfl⟩⟩
  obtain ⟨dt, hdt⟩ : ∃ dt, s.getSignedTimeStep (some d) = .ok dt := by
    rcases lt_or_gt_of_ne hd with h1 | h1
    · exact ⟨_, NumSolver.signed_neg hs h1⟩
    · exact ⟨_, NumSolver.signed_pos hs h1⟩
  obtain ⟨u, hu, hut, hdu, hud⟩ := NumSolver.signed_dir hs hh hd hdt
  have huh : u * dt = h := by rw [hdu]; rcases hu with rfl | rfl <;> ring
  have hud' : u * d = |d| := (abs_dir hu hut).symm
  by_cases hlog : s.logType = .logConstant
  · have hD : (9 / 10) ^ 499 * (u * dt + eps) ≤ short := by
      refine le_trans (mul_le_mul_of_nonneg_left ?_ (by positivity)) hlong
      rw [huh]
      linarith [le_max_right |d| h]
    obtain ⟨n, hn⟩ := exists_nat_gt ((u * d + eps) / (u * dt))
    rw [div_lt_iff₀ hud] at hn
    obtain ⟨fuel, hf⟩ := constControlled_ends (start := 0) (finish := d) hlib hu he f hl hud hD n x 0 dt hud (by
      simp only [Nat.cast_zero, zero_mul, add_zero, sub_zero]; linarith)
    obtain ⟨seen, y, hr⟩ := hf (max fuel (n + 1)) (le_max_left _ _) (max fuel (n + 1)) (le_max_right _ _)
    refine ⟨max fuel (n + 1), { s with observed := seen }, y, ?_⟩
    rw [NumSolver.integrateDuration_run_controlled hd hdt hk hp hq, if_pos hlog, hr]
    rfl
  · have hD : (9 / 10) ^ 499 * (|d| + eps) ≤ short := by
      refine le_trans (mul_le_mul_of_nonneg_left ?_ (by positivity)) hlong
      linarith [le_max_left |d| h]
    have hκ : 0 < min least (u * dt) := lt_min hl hud
    obtain ⟨n, hn⟩ := exists_nat_ge (|d| / min least (u * dt))
    rw [div_le_iff₀ hκ] at hn
    obtain ⟨seen, y, t', dt', hr, -⟩ := adaptiveControlled_ends (finish := d) hlib hu he f hκ (min_le_left _ _) hD n (lib s.stepperType p q).init x 0 dt hud
      (Or.inl (min_le_right _ _)) (by rw [sub_zero, hud']) (by rw [sub_zero, hud']; exact hn)
    refine ⟨n + 1, { s with observed := seen }, y, ?_⟩
    rw [NumSolver.integrateDuration_run_controlled hd hdt hk hp hq, if_neg hlog, hr]
    rfl

/-- backwards over a long time, logging at every step -/
example (f : OdeSystem ℚ ℚ) : ∃ fuel s' y, (exampleSolver .logConstant .bulirschStoer).integrateDuration 0 (fun _ _ _ => fussy ℚ ℚ) fuel 5 (some (-100)) f = some (s', .ok (y, -100)) :=
  C89_returns_controlled (short := 1) (least := 1 / 2) (h := 2) 5 (-100) f le_rfl (by decide) rfl rfl rfl (by norm_num) fussy_advances (by norm_num)
    (by rw [show (499 : ℕ) = 249 + 250 from rfl, pow_add]; norm_num)

omit [IsStrictOrderedRing α] [AddCommGroup V] [Module α V] [Field α] [LinearOrder α] in
theorem tryUntil_refused {try_ : M → V → α → α → Tried α V M} (h : ∀ m x t dt, (try_ m x t dt).accepted = false) : ∀ n m x t dt, tryUntil try_ n m x t dt = .error .runtimeError := by
  intro n
  induction n with
  | zero => intro m x t dt; rfl
  | succ n ih =>
    intro m x t dt
    rw [tryUntil]
    simp only [h, Bool.false_eq_true, if_false]
    exact ih _ _ _ _

/-- C89: when the stepper accepts no step, the call throws after the tries allowed, whatever the system, and has observed the initial state alone -/
theorem C89_stuck {eps : α} {lib : Steppers α V M} {s : NumSolver α V} {h p q d : α} (fuel : ℕ) (x : V) (f : OdeSystem α V) (he : 0 ≤ eps) (hk : s.stepperType ≠ .rungeKutta4)
    (hlog : s.logType ≠ .logConstant) (hs : s.timeStep = some h) (hp : s.absTol = some p) (hq : s.relTol = some q) (hh : 0 < h) (hd : eps < |d|)
    (hlib : ∀ m x t dt, ((lib s.stepperType p q).tryStep f m x t dt).accepted = false) :
    s.integrateDuration eps lib (fuel + 1) x (some d) f = some ({ s with observed := [(x, 0)] }, .error .runtimeError) := by
  have hd0 : d ≠ 0 := by
    rintro rfl
    rw [abs_zero] at hd
    exact absurd hd (not_lt.2 he)
  obtain ⟨dt, hdt⟩ : ∃ dt, s.getSignedTimeStep (some d) = .ok dt := by
    rcases lt_or_gt_of_ne hd0 with h1 | h1
    · exact ⟨_, NumSolver.signed_neg hs h1⟩
    · exact ⟨_, NumSolver.signed_pos hs h1⟩
  obtain ⟨u, hu, hut, hdu, hud⟩ := NumSolver.signed_dir hs hh hd0 hdt
  have hl : lessWithSign eps 0 d dt = true := (lessWithSign_iff hu hud).2 (by rw [sub_zero, ← abs_dir hu hut]; exact hd)
  rw [NumSolver.integrateDuration_run_controlled hd0 hdt hk hp hq, if_neg hlog]
  unfold adaptiveControlled
  simp only [hl, if_true, tryUntil_refused hlib]
  rfl

/-- a stepper that halves every step -/
def stubborn : Controlled ℚ ℚ Unit where
  init := ()
  tryStep := fun _ m x t dt => ⟨false, m, x, t, dt / 2⟩

example (f : OdeSystem ℚ ℚ) : (exampleSolver .logAdaptive .bulirschStoer).integrateDuration 0 (fun _ _ _ => stubborn) 1 5 (some (-3)) f =
    some ({ exampleSolver .logAdaptive .bulirschStoer with observed := [(5, 0)] }, .error .runtimeError) :=
  C89_stuck (h := 2) 0 5 f le_rfl (by decide) (by decide) rfl rfl rfl (by norm_num) (by norm_num) (fun _ _ _ _ => rfl)

end Verif.Props
