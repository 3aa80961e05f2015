import Verif.Lemmas.SolverCalls
import Mathlib.Algebra.Order.Field.Rat
import Mathlib.Algebra.Order.Archimedean.Basic
import Mathlib.Tactic.NormNum
import Mathlib.Tactic.Abel

/-!
# Properties of the numerical solver (C65, C66, C67, C89, C90, C91)

Times are compared by odeint up to `eps`; the statements say by how much the result may be off for that reason. They are exact for `eps = 0`.
-/

namespace Verif.Props

open Verif Verif.Spec Verif.Odeint

variable {α V M : Type} [Field α] [LinearOrder α] [IsStrictOrderedRing α] [AddCommGroup V] [Module α V]

/-- a stepper for the examples: Euler's method, which rejects steps longer than one and proposes half of them -/
def fussy (α V : Type) [Field α] [LinearOrder α] [AddCommGroup V] [Module α V] : Controlled α V Unit where
  init := ()
  tryStep f _ x t dt := if |dt| ≤ 1 then ⟨true, (), x + dt • f x t, t + dt, dt⟩ else ⟨false, (), x, t, dt / 2⟩

theorem fussy_keepsTime : KeepsTime (fussy α V) where
  accepted := by
    intro f l m x t dt hc h
    by_cases hd : |dt| ≤ 1
    · simp [fussy, hd, hc x t]
    · simp [fussy, hd] at h
  rejected := by
    intro f m x t dt h
    by_cases hd : |dt| ≤ 1
    · simp [fussy, hd] at h
    · simp [fussy, hd]
  shorter := by
    intro f m x t dt h
    by_cases hd : |dt| ≤ 1
    · simp [fussy, hd] at h
    · simp only [fussy, hd, if_false, abs_div]
      rw [abs_of_pos (by norm_num : (0 : α) < 2)]
      linarith [abs_nonneg dt]
  forward := by intro f m x t dt h; by_cases hd : |dt| ≤ 1 <;> simp [fussy, h, hd]
  backward := by
    intro f m x t dt h
    by_cases hd : |dt| ≤ 1
    · simpa [fussy, hd] using h
    · simp only [fussy, hd, if_false]; linarith

theorem fussy_short (f : OdeSystem α V) (x : V) (t dt : α) (h : |dt| ≤ 1) :
    tryUntil ((fussy α V).tryStep f) 500 () x t dt = .ok ⟨true, (), x + dt • f x t, t + dt, dt⟩ := by
  rw [show 500 = 499 + 1 from rfl, tryUntil]; simp [fussy, h]

theorem fussy_long (f : OdeSystem α V) (x : V) (t dt : α) (h : 1 < |dt|) (h' : |dt / 2| ≤ 1) :
    tryUntil ((fussy α V).tryStep f) 500 () x t dt = .ok ⟨true, (), x + (dt / 2) • f x t, t + dt / 2, dt / 2⟩ := by
  rw [show 500 = 498 + 1 + 1 from rfl, tryUntil, tryUntil]; simp only [fussy, not_le.mpr h, h', if_false, if_true]; rfl

/-- `x' = 1`, whose solution tells the time -/
def ticking : OdeSystem ℚ ℚ := fun _ _ => 1

theorem ticking_clock : Clock ticking (LinearMap.id : ℚ →ₗ[ℚ] ℚ) := fun _ _ => rfl

def exampleSolver (l : LogType) (k : StepperType) : NumSolver ℚ ℚ := NumSolver.ctor l k (some 2) (some 1) (some 1)

/-! ## C65: the solver integrates towards the requested times -/

/-- C65: the answer has one state for each time asked for, with that time, in that order -/
theorem C65_times {eps : α} {lib : Steppers α V M} {fuel : ℕ} {s s' : NumSolver α V} {x : V} {start : Option α} {times : List (Option α)} {f : OdeSystem α V}
    {r : List (V × α)} (h : s.integrateTimes eps lib fuel x start times f = some (s', .ok r)) : r.map (fun p => some p.2) = times := by
  rcases NumSolver.integrateTimes_ok h with ⟨a, -, ht, hr, -⟩ | ⟨a, b, ts, dt, -, ht, -, -, -, -, hm, -⟩
  · rw [hr, ht]; rfl
  · rw [ht, ← hm, List.map_map]; rfl

example : (exampleSolver .noLog .rungeKutta4).integrateTimes (1 / 1000) (fun _ _ _ => fussy ℚ ℚ) 9 5 (some 1) [some 2, some 6] ticking =
    some ({ exampleSolver .noLog .rungeKutta4 with observed := [(5, 1), (6, 2), (10, 6)] }, .ok [(6, 2), (10, 6)]) := by
  norm_num [exampleSolver, NumSolver.ctor, NumSolver.integrateTimes, NumSolver.realEq, NumSolver.getSignedTimeStep, NumSolver.toDoubles, timesPlain, timesPlainTo, lessWithSign, minAbs,
    rk4, ticking]

private theorem times_clock {eps u : α} {lib : Steppers α V M} {fuel : ℕ} {s s' : NumSolver α V} {x : V} {a b h : α} {ts : List α} {f : OdeSystem α V} {l : V →ₗ[α] α}
    {r : List (V × α)} (hu : u = 1 ∨ u = -1) (he : 0 ≤ eps) (hlib : ∀ k p q, KeepsTime (lib k p q)) (hs : s.timeStep = some h) (hh : 0 < h) (hc : Clock f l)
    (hts : (a :: ts).IsChain fun p q => 0 ≤ u * (q - p)) (hb : ts.getLast? = some b) (hb0 : 0 < u * b)
    (hr : s.integrateTimes eps lib fuel x (some a) (ts.map some) f = some (s', .ok r)) :
    ∀ (i : ℕ) y t, r[i]? = some (y, t) → 0 ≤ u * (l x + (t - a) - l y) ∧ u * (l x + (t - a) - l y) ≤ (i + 1) * eps := by
  intro i y t hi
  rcases NumSolver.integrateTimes_ok hr with ⟨a', ha, -, hr', -⟩ | ⟨a', b', ts', dt, ha, ht, hb', hd, -, -, hm, hrun⟩
  · obtain rfl := Option.some.inj ha
    subst hr'
    cases i with
    | succ i => simp at hi
    | zero =>
      obtain ⟨rfl, rfl⟩ : x = y ∧ a = t := by simpa using hi
      simp [he]
  · obtain rfl := Option.some.inj ha
    obtain rfl := List.map_injective_iff.mpr (Option.some_injective α) ht
    obtain rfl := Option.some.inj (hb.symm.trans hb')
    have hne : b ≠ 0 := by rintro rfl; simp at hb0
    obtain ⟨v, hv, hvb, hdt, hvd⟩ := NumSolver.signed_dir hs hh hne hd
    have huv : v = u := by
      rcases hu with rfl | rfl <;> rcases hv with rfl | rfl <;> first | rfl | (exfalso; linarith)
    subst huv
    let Q : ℕ → V → α → Prop := fun n y t => 0 ≤ v * (l x + (t - a) - l y) ∧ v * (l x + (t - a) - l y) ≤ n * eps
    let P : V → α → V → α → Prop := fun x0 t0 x t => l x - l x0 = t - t0
    have hQ : ∀ n x t y t' T, Q n x t → P x t y t' → 0 ≤ v * (T - t') → v * (T - t') ≤ eps → Q (n + 1) y T := by
      intro n x1 t1 y1 t' T hq hp h1 h2
      have hp' : l y1 = l x1 + (t' - t1) := by linarith [show l y1 - l x1 = t' - t1 from hp]
      have e : v * (l x + (T - a) - l y1) = v * (l x + (t1 - a) - l x1) + v * (T - t') := by rw [hp']; ring
      obtain ⟨q1, q2⟩ := hq
      refine ⟨by rw [e]; linarith, ?_⟩
      rw [e]; push_cast; linarith
    have hQ0 : Q 0 x a := by simp [Q]
    have key : Q (0 + (i + 1)) y t := by
      rcases hrun with ⟨-, hrun⟩ | ⟨p, q, -, hrun⟩
      · exact timesPlain_inv Q P hv he hvd (fun _ _ => by simp [P]) (fun x0 t0 x t c hp => by
          simp only [P, rk4_clock hc] at hp ⊢; linarith) hQ ts 0 x dt a _ hvd hts hQ0 hrun (i + 1) y t (by simpa using hi)
      · have hk := hlib s.stepperType p q
        refine timesControlled_inv Q P hv he (fun _ _ => by simp [P]) (fun x0 t0 m x t c hp ha => ?_) (fun m x t c ha => hk.rejected f m x t c ha) (fun m x t c hp => ?_)
          hQ ts 0 0 _ x dt a _ hvd hts hQ0 hrun (i + 1) y t (by simpa using hi)
        · obtain ⟨k1, k2⟩ := hk.accepted f l m x t c hc ha
          refine ⟨k1, ?_⟩
          simp only [P] at hp ⊢
          rw [k2]; linarith
        · rcases hv with rfl | rfl
          · rw [one_mul] at hp ⊢; exact hk.forward f m x t c hp
          · linarith [hk.backward f m x t c (by linarith)]
    simpa [Q] using key

/-- C65: for times that do not decrease from the start and end after zero, each state answered is the state after integrating from the start to its time, up to `eps` for each time
asked for -/
theorem C65_forward_partial {eps : α} {lib : Steppers α V M} {fuel : ℕ} {s s' : NumSolver α V} {x : V} {a b h : α} {ts : List α} {f : OdeSystem α V} {l : V →ₗ[α] α}
    {r : List (V × α)} (he : 0 ≤ eps) (hlib : ∀ k p q, KeepsTime (lib k p q)) (hs : s.timeStep = some h) (hh : 0 < h) (hc : Clock f l) (hts : (a :: ts).IsChain (· ≤ ·))
    (hb : ts.getLast? = some b) (hb0 : 0 < b) (hr : s.integrateTimes eps lib fuel x (some a) (ts.map some) f = some (s', .ok r)) (i : ℕ) (y : V) (t : α)
    (hi : r[i]? = some (y, t)) : l x + (t - a) - (i + 1) * eps ≤ l y ∧ l y ≤ l x + (t - a) := by
  have := times_clock (u := 1) (Or.inl rfl) he hlib hs hh hc (hts.imp fun p q hpq => by linarith) hb (by linarith) hr i y t hi
  constructor <;> linarith [this.1, this.2]

/-- C65: the same for times that do not increase and end before zero -/
theorem C65_backward_partial {eps : α} {lib : Steppers α V M} {fuel : ℕ} {s s' : NumSolver α V} {x : V} {a b h : α} {ts : List α} {f : OdeSystem α V} {l : V →ₗ[α] α}
    {r : List (V × α)} (he : 0 ≤ eps) (hlib : ∀ k p q, KeepsTime (lib k p q)) (hs : s.timeStep = some h) (hh : 0 < h) (hc : Clock f l) (hts : (a :: ts).IsChain (· ≥ ·))
    (hb : ts.getLast? = some b) (hb0 : b < 0) (hr : s.integrateTimes eps lib fuel x (some a) (ts.map some) f = some (s', .ok r)) (i : ℕ) (y : V) (t : α)
    (hi : r[i]? = some (y, t)) : l x + (t - a) ≤ l y ∧ l y ≤ l x + (t - a) + (i + 1) * eps := by
  have := times_clock (u := -1) (Or.inr rfl) he hlib hs hh hc (hts.imp fun p q hpq => by have : q ≤ p := hpq; linarith) hb (by linarith) hr i y t hi
  constructor <;> linarith [this.1, this.2]

example : KeepsTime (fussy ℚ ℚ) ∧ Clock ticking (LinearMap.id : ℚ →ₗ[ℚ] ℚ) ∧ ([1, 2, 6] : List ℚ).IsChain (· ≤ ·) ∧
    (exampleSolver .noLog .bulirschStoer).integrateTimes (1 / 1000) (fun _ _ _ => fussy ℚ ℚ) 9 5 (some 1) [some 2, some 4] ticking =
      some ({ exampleSolver .noLog .bulirschStoer with observed := [(5, 1), (6, 2), (8, 4)] }, .ok [(6, 2), (8, 4)]) := by
  refine ⟨fussy_keepsTime, ticking_clock, by norm_num, ?_⟩
  norm_num [exampleSolver, NumSolver.ctor, NumSolver.integrateTimes, NumSolver.realEq, NumSolver.getSignedTimeStep, NumSolver.toDoubles, timesControlled, timesControlledTo, lessWithSign,
    minAbs, maxAbs, fussy, ticking]
  intro h; cases h

/-- C65: with Runge-Kutta 4 the call returns -/
theorem C65_returns [Archimedean α] {eps : α} {lib : Steppers α V M} {s : NumSolver α V} {a b h : α} {ts : List α} (x : V) (f : OdeSystem α V) (he : 0 ≤ eps)
    (hk : s.stepperType = .rungeKutta4) (hs : s.timeStep = some h) (hh : 0 < h)
    (hts : ((a :: ts).IsChain (· ≤ ·) ∧ 0 < b) ∨ ((a :: ts).IsChain (· ≥ ·) ∧ b < 0)) (hb : ts.getLast? = some b) :
    ∃ fuel s' r, s.integrateTimes eps lib fuel x (some a) (ts.map some) f = some (s', .ok r) := by
  by_cases hne : ts = [a]
  · subst hne
    exact ⟨0, _, _, by simp [NumSolver.integrateTimes, NumSolver.realEq]; exact ⟨rfl, rfl⟩⟩
  obtain ⟨u, hu, hch, hub⟩ : ∃ u : α, (u = 1 ∨ u = -1) ∧ ((a :: ts).IsChain fun p q => 0 ≤ u * (q - p)) ∧ 0 < u * b := by
    rcases hts with ⟨h1, h2⟩ | ⟨h1, h2⟩
    · exact ⟨1, Or.inl rfl, h1.imp fun p q hpq => by linarith, by linarith⟩
    · exact ⟨-1, Or.inr rfl, h1.imp fun p q hpq => by have : q ≤ p := hpq; linarith, by linarith⟩
  obtain ⟨dt, hd, hdt⟩ : ∃ dt, s.getSignedTimeStep (some b) = .ok dt ∧ 0 < u * dt := by
    rcases hts with ⟨h1, h2⟩ | ⟨h1, h2⟩
    · refine ⟨h, NumSolver.signed_pos hs h2, ?_⟩
      rcases hu with rfl | rfl <;> linarith
    · refine ⟨-h, NumSolver.signed_neg hs h2, ?_⟩
      rcases hu with rfl | rfl <;> linarith
  -- every requested time is at most the last one away from the start
  have hall : ∀ (ts : List α) a, (a :: ts).IsChain (fun p q => 0 ≤ u * (q - p)) → ∀ T ∈ ts, ∀ b, ts.getLast? = some b → u * (T - a) ≤ u * (b - a) := by
    intro ts
    induction ts with
    | nil => intro a _ T hT; simp at hT
    | cons t ts ih =>
      intro a hch T hT b hb
      obtain ⟨h1, h2⟩ := List.isChain_cons_cons.mp hch
      have e : ∀ z, u * (z - a) = u * (z - t) + u * (t - a) := fun z => by ring
      cases ts with
      | nil =>
        obtain rfl : T = t := by simpa using hT
        obtain rfl : T = b := by simpa using hb
        exact le_refl _
      | cons t' ts =>
        have hb' : (t' :: ts).getLast? = some b := by simpa using hb
        rcases List.mem_cons.mp hT with rfl | hT
        · have h0 := ih T h2 t' (by simp) b hb'
          have h3 := (List.isChain_cons_cons.mp h2).1
          rw [e b]; linarith
        · rw [e T, e b]; linarith [ih t h2 T hT b hb']
  obtain ⟨n, hn⟩ := exists_nat_ge (u * (b - a) / (u * dt))
  have hn' : u * (b - a) ≤ n * (u * dt) := by rwa [div_le_iff₀ hdt] at hn
  obtain ⟨seen, hseen⟩ := timesPlain_ends (eps := eps) (step := rk4 f) hu he hdt n a ts x dt a hdt (by simp) hch (fun T hT => le_trans (hall ts a hch T hT b hb) hn')
  exact ⟨n + 1, _, _, by rw [NumSolver.integrateTimes_run hb hne hd hk, hseen]; rfl⟩

example : ((([1, 2, 6] : List ℚ).IsChain (· ≤ ·) ∧ (0 : ℚ) < 6) ∨ (([1, 2, 6] : List ℚ).IsChain (· ≥ ·) ∧ (6 : ℚ) < 0)) ∧ ([2, 6] : List ℚ).getLast? = some 6 := by norm_num

/-- the direction of integration is taken from the sign of the last time instead of its position relative to the start. From a positive time back to an earlier positive time, nothing is
integrated: for every system and every stepper the state answered for `b` is the initial state. -/
theorem C65_positive_backward_violated {eps : α} {lib : Steppers α V M} {s : NumSolver α V} {a b h p q : α} (fuel : ℕ) (x : V) (f : OdeSystem α V) (he : 0 ≤ eps)
    (hs : s.timeStep = some h) (hp : s.absTol = some p) (hq : s.relTol = some q) (hh : 0 < h) (hb : 0 < b) (hab : b < a) :
    s.integrateTimes eps lib (fuel + 1) x (some a) [some b] f = some ({ s with observed := [(x, a), (x, b)] }, .ok [(x, b)]) := by
  have h1 : ¬ b = a := hab.ne
  have h2 : ¬ eps < b - a := by linarith
  simp [NumSolver.integrateTimes, NumSolver.realEq, NumSolver.getSignedTimeStep, NumSolver.toDoubles, hs, hp, hq, h1, hb, not_lt.mpr hb.le, timesPlain, timesPlainTo, timesControlled,
    timesControlledTo, lessWithSign, hh, h2]

example : (exampleSolver .noLog .rungeKutta4).integrateTimes 0 (fun _ _ _ => fussy ℚ ℚ) 9 5 (some 10) [some 4] ticking =
    some ({ exampleSolver .noLog .rungeKutta4 with observed := [(5, 10), (5, 4)] }, .ok [(5, 4)]) :=
  C65_positive_backward_violated 8 5 ticking (le_refl _) rfl rfl rfl (by norm_num : (0 : ℚ) < 2) (by norm_num) (by norm_num)

/-- likewise from a negative time forward to a later negative time -/
theorem C65_negative_forward_violated {eps : α} {lib : Steppers α V M} {s : NumSolver α V} {a b h p q : α} (fuel : ℕ) (x : V) (f : OdeSystem α V) (he : 0 ≤ eps)
    (hs : s.timeStep = some h) (hp : s.absTol = some p) (hq : s.relTol = some q) (hh : 0 < h) (hb : b < 0) (hab : a < b) :
    s.integrateTimes eps lib (fuel + 1) x (some a) [some b] f = some ({ s with observed := [(x, a), (x, b)] }, .ok [(x, b)]) := by
  have h1 : ¬ b = a := hab.ne'
  have h2 : ¬ eps < a - b := by linarith
  simp [NumSolver.integrateTimes, NumSolver.realEq, NumSolver.getSignedTimeStep, NumSolver.toDoubles, hs, hp, hq, h1, hb, not_lt.mpr hb.le, timesPlain, timesPlainTo, timesControlled,
    timesControlledTo, lessWithSign, not_lt.mpr hh.le, h2]

example : (exampleSolver .noLog .bulirschStoer).integrateTimes 0 (fun _ _ _ => fussy ℚ ℚ) 9 5 (some (-10)) [some (-4)] ticking =
    some ({ exampleSolver .noLog .bulirschStoer with observed := [(5, -10), (5, -4)] }, .ok [(5, -4)]) :=
  C65_negative_forward_violated 8 5 ticking (le_refl _) rfl rfl rfl (by norm_num : (0 : ℚ) < 2) (by norm_num) (by norm_num)

/-- likewise from a negative time to zero -/
theorem C65_to_zero_violated {eps : α} {lib : Steppers α V M} {s : NumSolver α V} {a h p q : α} (fuel : ℕ) (x : V) (f : OdeSystem α V) (he : 0 ≤ eps) (hs : s.timeStep = some h)
    (hp : s.absTol = some p) (hq : s.relTol = some q) (ha : a < 0) :
    s.integrateTimes eps lib (fuel + 1) x (some a) [some 0] f = some ({ s with observed := [(x, a), (x, 0)] }, .ok [(x, 0)]) := by
  have h1 : ¬ (0 : α) = a := ha.ne'
  have h2 : ¬ eps < a := by linarith
  simp [NumSolver.integrateTimes, NumSolver.realEq, NumSolver.getSignedTimeStep, NumSolver.toDoubles, hs, hp, hq, h1, timesPlain, timesPlainTo, timesControlled, timesControlledTo,
    lessWithSign, h2]

/-- from a positive time back to zero the step is zero, and with Runge-Kutta 4 the call does not return -/
theorem C65_back_to_zero_violated {eps : α} {lib : Steppers α V M} {s : NumSolver α V} {a h : α} (x : V) (f : OdeSystem α V) (he : 0 ≤ eps)
    (hk : s.stepperType = .rungeKutta4) (hs : s.timeStep = some h) (ha : eps < a) (fuel : ℕ) :
    s.integrateTimes eps lib fuel x (some a) [some 0] f = none := by
  have ha0 : 0 < a := lt_of_le_of_lt he ha
  have loop : ∀ fuel x, timesPlainTo eps (rk4 f) 0 0 fuel x a 0 = none := by
    intro fuel
    induction fuel with
    | zero => intro x; rfl
    | succ fuel ih =>
      intro x
      have hm : minAbs 0 (0 - a) = 0 := by simp [minAbs, ha0.le]
      unfold timesPlainTo
      rw [if_pos (by simp [lessWithSign, ha])]
      simp only [hm, add_zero]
      exact ih _
  have := NumSolver.integrateTimes_run (eps := eps) (lib := lib) (fuel := fuel) (x := x) (f := f) (s := s) (a := a) (ts := [0]) (b := 0) rfl
    (by simp only [ne_eq, List.cons.injEq, and_true]; exact ha0.ne) (NumSolver.signed_zero hs) hk
  simp only [List.map_cons, List.map_nil] at this
  rw [this, timesPlain, loop]; rfl

example : (exampleSolver .noLog .rungeKutta4).integrateTimes (1 / 1000) (fun _ _ _ => fussy ℚ ℚ) 100000 5 (some 10) [some 0] ticking = none :=
  C65_back_to_zero_violated 5 ticking (by norm_num) rfl rfl (by norm_num) _

/-- times out of order: the state answered for a time that lies before the one asked for just before it is the state of that earlier request -/
theorem C65_unsorted_violated : (exampleSolver .noLog .rungeKutta4).integrateTimes 0 (fun _ _ _ => fussy ℚ ℚ) 9 0 (some 0) [some 3, some 1] ticking =
    some ({ exampleSolver .noLog .rungeKutta4 with observed := [(0, 0), (3, 3), (3, 1)] }, .ok [(3, 3), (3, 1)]) := by
  norm_num [exampleSolver, NumSolver.ctor, NumSolver.integrateTimes, NumSolver.realEq, NumSolver.getSignedTimeStep, NumSolver.toDoubles, timesPlain, timesPlainTo, lessWithSign, minAbs,
    rk4, ticking]

end Verif.Props
