import Verif.Spec.SolverSteps
import Verif.Lemmas.Solver
import Verif.Lemmas.SolverCalls

/-! # The loops of odeint end with a stepper that makes progress -/

namespace Verif.Odeint

open Verif.Spec

variable {α V M : Type} [Field α] [LinearOrder α] [IsStrictOrderedRing α]

theorem abs_dir {u x : α} (hu : u = 1 ∨ u = -1) (h : 0 < u * x) : |x| = u * x := by
  rcases hu with rfl | rfl
  · rw [one_mul] at h ⊢
    exact abs_of_pos h
  · rw [neg_one_mul] at h ⊢
    exact abs_of_neg (by linarith)

theorem dir_next {c : Controlled α V M} {short least u : α} (hc : Advances c short least) (hu : u = 1 ∨ u = -1) (f : OdeSystem α V) (m : M) (x : V) (t : α) {dt : α}
    (h : 0 < u * dt) : 0 < u * (c.tryStep f m x t dt).dt := by
  rcases hu with rfl | rfl
  · have := hc.forward f m x t dt (by linarith)
    linarith
  · have := hc.backward f m x t dt (by linarith)
    linarith

/-- steps are tried until one is accepted -/
theorem tryUntil_ends {c : Controlled α V M} {short least u : α} (hc : Advances c short least) (hu : u = 1 ∨ u = -1) (f : OdeSystem α V) :
    ∀ (n : ℕ) m x t dt, 0 < u * dt → (9 / 10) ^ n * (u * dt) ≤ short →
      ∃ r s, tryUntil (c.tryStep f) (n + 1) m x t dt = .ok r ∧ r.t = t + s ∧ 0 < u * s ∧ u * s ≤ u * dt ∧ min least (u * dt) ≤ u * s ∧
        min least (u * s) ≤ u * r.dt ∧ 0 < u * r.dt := by
  intro n
  induction n with
  | zero =>
    intro m x t dt h hs
    rw [pow_zero, one_mul, ← abs_dir hu h] at hs
    have ha := hc.accepts f m x t dt hs
    refine ⟨c.tryStep f m x t dt, dt, ?_, hc.time f m x t dt ha, h, le_rfl, min_le_right _ _, ?_, dir_next hc hu f m x t h⟩
    · simp only [tryUntil, ha, if_true]
    · have := hc.keeps f m x t dt ha
      rwa [abs_dir hu h, abs_dir hu (dir_next hc hu f m x t h)] at this
  | succ n ih =>
    intro m x t dt h hs
    have hp := dir_next hc hu f m x t h
    cases ha : (c.tryStep f m x t dt).accepted with
    | true =>
      refine ⟨c.tryStep f m x t dt, dt, ?_, hc.time f m x t dt ha, h, le_rfl, min_le_right _ _, ?_, hp⟩
      · rw [tryUntil]
        simp only [ha, if_true]
      · have := hc.keeps f m x t dt ha
        rwa [abs_dir hu h, abs_dir hu hp] at this
    | false =>
      have h1 := hc.shrinks f m x t dt ha
      have h2 := hc.floor f m x t dt ha
      rw [abs_dir hu hp] at h1 h2
      rw [abs_dir hu h] at h1
      have h3 : (9 / 10 : α) ^ n * (u * (c.tryStep f m x t dt).dt) ≤ short := by
        refine le_trans ?_ hs
        rw [pow_succ, mul_assoc]
        exact mul_le_mul_of_nonneg_left h1 (by positivity)
      obtain ⟨r, s, e1, e2, e3, e4, e5, e6, e7⟩ := ih (c.tryStep f m x t dt).mem (c.tryStep f m x t dt).x (c.tryStep f m x t dt).t (c.tryStep f m x t dt).dt hp h3
      refine ⟨r, s, ?_, ?_, e3, by linarith, ?_, e6, e7⟩
      · rw [tryUntil]
        simp only [ha, Bool.false_eq_true, if_false]
        exact e1
      · rw [e2, hc.stays f m x t dt ha]
      · rw [min_eq_left h2] at e5
        exact le_trans (min_le_left _ _) e5

/-- `integrate_adaptive` ends -/
theorem adaptiveControlled_ends {c : Controlled α V M} {short least u eps finish κ D : α} (hc : Advances c short least) (hu : u = 1 ∨ u = -1) (he : 0 ≤ eps)
    (f : OdeSystem α V) (hκ : 0 < κ) (hκl : κ ≤ least) (hD : (9 / 10) ^ 499 * (D + eps) ≤ short) :
    ∀ (n : ℕ) m x t dt, 0 < u * dt → (κ ≤ u * dt ∨ u * (finish - t) ≤ 0) → u * (finish - t) ≤ D → u * (finish - t) ≤ n * κ →
      ∃ seen y t' dt', adaptiveControlled eps (c.tryStep f) finish (n + 1) m x t dt = some (seen, .ok (y, t', dt')) ∧ 0 < u * dt' := by
  intro n
  induction n with
  | zero =>
    intro m x t dt h _ _ hn
    refine ⟨[(x, t)], x, t, dt, ?_, h⟩
    unfold adaptiveControlled
    rw [if_neg]
    rw [lessWithSign_iff hu h]
    push_cast at hn
    linarith
  | succ n ih =>
    intro m x t dt h hk hd hn
    unfold adaptiveControlled
    by_cases hl : lessWithSign eps t finish dt = true
    · rw [if_pos hl]
      have hlt := (lessWithSign_iff hu h).mp hl
      have hk' : κ ≤ u * dt := hk.resolve_right (by linarith)
      obtain ⟨dt₁, hdt₁, hp, hle, hge⟩ : ∃ dt₁, (if lessWithSign eps finish (t + dt) dt then finish - t else dt) = dt₁ ∧ 0 < u * dt₁ ∧ u * dt₁ ≤ D + eps ∧
          (κ ≤ u * dt₁ ∨ dt₁ = finish - t) := by
        refine ⟨_, rfl, ?_⟩
        by_cases h2 : lessWithSign eps finish (t + dt) dt = true
        · rw [if_pos h2]
          exact ⟨by linarith, by linarith, Or.inr rfl⟩
        · rw [if_neg h2]
          rw [lessWithSign_iff hu h] at h2
          have e : u * (t + dt - finish) = u * dt - u * (finish - t) := by ring
          rw [e] at h2
          exact ⟨h, by linarith, Or.inl hk'⟩
      dsimp only
      rw [hdt₁]
      obtain ⟨r, s, e1, e2, e3, e4, e5, e6, e7⟩ := tryUntil_ends hc hu f 499 m x t dt₁ hp (le_trans (mul_le_mul_of_nonneg_left hle (by positivity)) hD)
      have e8 : tryUntil (c.tryStep f) 500 m x t dt₁ = .ok r := e1
      rw [e8]
      dsimp only
      have e : u * (finish - r.t) = u * (finish - t) - u * s := by rw [e2]; ring
      have hnext : (κ ≤ u * r.dt ∨ u * (finish - r.t) ≤ 0) ∧ u * (finish - r.t) ≤ n * κ := by
        push_cast at hn
        by_cases hs : κ ≤ u * s
        · refine ⟨Or.inl (le_trans (le_min hκl hs) e6), ?_⟩
          rw [e]
          linarith
        · have h3 : u * dt₁ < κ := by
            by_contra hc'
            exact hs (le_trans (le_min hκl (not_lt.1 hc')) e5)
          have h4 : dt₁ = finish - t := hge.resolve_left (not_le.2 h3)
          rw [min_eq_right (by linarith)] at e5
          rw [h4] at e5
          have : (0 : α) ≤ n * κ := by positivity
          exact ⟨Or.inr (by linarith), by linarith⟩
      obtain ⟨seen, y, t', dt', h5, h6⟩ := ih r.mem r.x r.t r.dt e7 hnext.1 (by rw [e]; linarith) hnext.2
      refine ⟨(x, t) :: seen, y, t', dt', ?_, h6⟩
      rw [h5]
      rfl
    · rw [if_neg hl]
      exact ⟨_, x, t, dt, rfl, h⟩

omit [IsStrictOrderedRing α] in
/-- more turns change nothing -/
theorem adaptiveControlled_mono {eps finish : α} {try_ : M → V → α → α → Tried α V M} :
    ∀ {n : ℕ} {m x t dt r}, adaptiveControlled eps try_ finish n m x t dt = some r → ∀ k, n ≤ k → adaptiveControlled eps try_ finish k m x t dt = some r := by
  intro n
  induction n with
  | zero => intro m x t dt r h; simp [adaptiveControlled] at h
  | succ n ih =>
    intro m x t dt r h k hk
    obtain ⟨k, rfl⟩ : ∃ j, k = j + 1 := ⟨k - 1, by omega⟩
    unfold adaptiveControlled at h ⊢
    by_cases hl : lessWithSign eps t finish dt = true
    · rw [if_pos hl] at h ⊢
      dsimp only at h ⊢
      cases hr : tryUntil try_ 500 m x t (if lessWithSign eps finish (t + dt) dt then finish - t else dt) with
      | error e => rw [hr] at h; exact h
      | ok q =>
        rw [hr] at h
        dsimp only at h ⊢
        cases hq : adaptiveControlled eps try_ finish n q.mem q.x q.t q.dt with
        | none => rw [hq] at h; simp at h
        | some w =>
          rw [hq] at h
          rw [ih hq k (by omega)]
          exact h
    · rw [if_neg hl] at h ⊢
      exact h

/-- `integrate_const` ends -/
theorem constControlled_ends [Archimedean α] {c : Controlled α V M} {short least u eps start finish step : α} (hc : Advances c short least) (hu : u = 1 ∨ u = -1) (he : 0 ≤ eps)
    (f : OdeSystem α V) (hl : 0 < least) (hst : 0 < u * step) (hD : (9 / 10) ^ 499 * (u * step + eps) ≤ short) :
    ∀ (k : ℕ) x (n : ℕ) dt, 0 < u * dt → u * (finish - (start + (n : α) * step)) + eps < (k + 1) * (u * step) →
      ∃ fuel, ∀ fuel' ≥ fuel, ∀ turns ≥ k + 1, ∃ seen y, constControlled eps c f start finish step fuel' turns x n dt = some (seen, .ok y) := by
  intro k
  induction k with
  | zero =>
    intro x n dt h hn
    refine ⟨0, fun fuel' _ turns ht => ?_⟩
    obtain ⟨turns, rfl⟩ : ∃ j, turns = j + 1 := ⟨turns - 1, by omega⟩
    unfold constControlled
    refine ⟨_, x, if_neg ?_⟩
    rw [lessEqWithSign_iff hu h]
    have e : u * (start + (n : α) * step + step - finish) = u * step - u * (finish - (start + (n : α) * step)) := by ring
    rw [e]
    push_cast at hn
    linarith
  | succ k ih =>
    intro x n dt h hn
    by_cases hle : lessEqWithSign eps (start + (n : α) * step + step) finish dt = true
    · obtain ⟨j, hj⟩ := exists_nat_ge (u * step / min least (u * dt))
      have hκ : 0 < min least (u * dt) := lt_min hl h
      rw [div_le_iff₀ hκ] at hj
      have e : u * (start + (n : α) * step + step - (start + (n : α) * step)) = u * step := by ring
      obtain ⟨seen, y, t', dt', h1, h2⟩ := adaptiveControlled_ends (finish := start + (n : α) * step + step) hc hu he f hκ (min_le_left _ _) hD j c.init x
        (start + (n : α) * step) dt h (Or.inl (min_le_right _ _)) (by rw [e]) (by rw [e]; exact hj)
      obtain ⟨fuel, hf⟩ := ih y (n + 1) dt' h2 (by push_cast at hn ⊢; linarith)
      refine ⟨max fuel (j + 1), fun fuel' hfu turns ht => ?_⟩
      obtain ⟨turns, rfl⟩ : ∃ i, turns = i + 1 := ⟨turns - 1, by omega⟩
      obtain ⟨seen', z, h3⟩ := hf fuel' (le_trans (le_max_left _ _) hfu) turns (by omega)
      unfold constControlled
      simp only [hle, if_true, adaptiveControlled_mono h1 fuel' (le_trans (le_max_right _ _) hfu), h3]
      exact ⟨_, z, rfl⟩
    · refine ⟨0, fun fuel' _ turns ht => ?_⟩
      obtain ⟨turns, rfl⟩ : ∃ i, turns = i + 1 := ⟨turns - 1, by omega⟩
      unfold constControlled
      exact ⟨_, x, if_neg hle⟩

/-- the inner loop of `integrate_times` ends -/
theorem timesControlledTo_ends {c : Controlled α V M} {short least u eps T κ D : α} (hc : Advances c short least) (hu : u = 1 ∨ u = -1) (he : 0 ≤ eps)
    (f : OdeSystem α V) (hκ : 0 < κ) (hκl : κ ≤ least) (hD0 : 0 ≤ D) (hD : (9 / 10) ^ 500 * D ≤ short) :
    ∀ (N fails : ℕ) m x t dt (n : ℕ), fails ≤ 500 → κ ≤ u * dt → (fails = 0 ∨ u * dt ≤ (9 / 10) ^ fails * D) → u * (T - t) ≤ D → u * (T - t) ≤ n * κ →
      501 * n + (500 - fails) ≤ N →
      ∃ fails' m' y dt', timesControlledTo eps (c.tryStep f) T (N + 1) fails m x t dt = some (.ok (fails', m', y, dt')) ∧ fails' ≤ 500 ∧ κ ≤ u * dt' ∧
        (fails' = 0 ∨ u * dt' ≤ (9 / 10) ^ fails' * D) := by
  intro N
  induction N with
  | zero =>
    intro fails m x t dt n hf hk hF _ hn hN
    have h : 0 < u * dt := lt_of_lt_of_le hκ hk
    obtain rfl : n = 0 := by omega
    unfold timesControlledTo
    refine ⟨fails, m, x, dt, if_neg ?_, hf, hk, hF⟩
    rw [lessWithSign_iff hu h]
    push_cast at hn
    linarith
  | succ N ih =>
    intro fails m x t dt n hf hk hF hd hn hN
    have h : 0 < u * dt := lt_of_lt_of_le hκ hk
    unfold timesControlledTo
    by_cases hl : lessWithSign eps t T dt = true
    · rw [if_pos hl]
      have hlt := (lessWithSign_iff hu h).mp hl
      obtain ⟨n, rfl⟩ : ∃ j, n = j + 1 := by
        refine ⟨n - 1, ?_⟩
        have : n ≠ 0 := by
          rintro rfl
          push_cast at hn
          linarith
        omega
      have hm := minAbs_sign (g := T - t) hu h
      have hs : 0 < u * minAbs dt (T - t) := by
        rw [hm]
        exact lt_min h (by linarith)
      have hp := dir_next hc hu f m x t hs
      dsimp only
      cases ha : (c.tryStep f m x t (minAbs dt (T - t))).accepted with
      | true =>
        simp only [if_true]
        have hmax := maxAbs_sign (g := (c.tryStep f m x t (minAbs dt (T - t))).dt) hu h
        have e : u * (T - (c.tryStep f m x t (minAbs dt (T - t))).t) = u * (T - t) - u * minAbs dt (T - t) := by
          rw [hc.time f m x t _ ha]
          ring
        refine ih 0 _ _ _ _ n (by omega) ?_ (Or.inl rfl) ?_ ?_ (by omega)
        · rw [hmax]
          exact le_trans hk (le_max_left _ _)
        · rw [e]
          linarith
        · rw [e, hm]
          push_cast at hn
          rcases le_total (u * dt) (u * (T - t)) with h1 | h1
          · rw [min_eq_left h1]
            linarith
          · rw [min_eq_right h1, sub_self]
            positivity
      | false =>
        have hfl : fails < 500 := by
          refine lt_of_le_of_ne hf ?_
          rintro rfl
          have h1 : u * minAbs dt (T - t) ≤ short := by
            rw [hm]
            refine le_trans (min_le_left _ _) ?_
            rcases hF with hF | hF
            · omega
            · exact le_trans hF hD
          rw [← abs_dir hu hs] at h1
          rw [hc.accepts f m x t _ h1] at ha
          cases ha
        simp only [Bool.false_eq_true, if_false]
        rw [if_neg (by omega)]
        have h1 := hc.shrinks f m x t _ ha
        have h2 := hc.floor f m x t _ ha
        rw [abs_dir hu hp] at h1 h2
        rw [abs_dir hu hs] at h1
        have e : u * (T - (c.tryStep f m x t (minAbs dt (T - t))).t) = u * (T - t) := by rw [hc.stays f m x t _ ha]
        refine ih (fails + 1) _ _ _ _ (n + 1) (by omega) (le_trans hκl h2) (Or.inr ?_) (by rw [e]; exact hd) (by rw [e]; exact hn) (by omega)
        refine le_trans h1 ?_
        rw [pow_succ, mul_comm ((9 / 10 : α) ^ fails) (9 / 10), mul_assoc]
        refine mul_le_mul_of_nonneg_left ?_ (by norm_num)
        rw [hm]
        rcases hF with rfl | hF
        · rw [pow_zero, one_mul]
          exact le_trans (min_le_right _ _) hd
        · exact le_trans (min_le_left _ _) hF
    · rw [if_neg hl]
      exact ⟨fails, m, x, dt, rfl, hf, hk, hF⟩

/-- `integrate_times` ends -/
theorem timesControlled_ends {c : Controlled α V M} {short least u eps κ D : α} (hc : Advances c short least) (hu : u = 1 ∨ u = -1) (he : 0 ≤ eps)
    (f : OdeSystem α V) (hκ : 0 < κ) (hκl : κ ≤ least) (hD0 : 0 ≤ D) (hD : (9 / 10) ^ 500 * D ≤ short) (n : ℕ) (hn : D ≤ n * κ) (t0 : α) :
    ∀ (Ts : List α) (fails : ℕ) m x dt t, fails ≤ 500 → κ ≤ u * dt → (fails = 0 ∨ u * dt ≤ (9 / 10) ^ fails * D) → 0 ≤ u * (t - t0) →
      (t :: Ts).IsChain (fun a b => 0 ≤ u * (b - a)) → (∀ T ∈ Ts, u * (T - t0) ≤ D) →
      ∃ seen, timesControlled eps (c.tryStep f) (501 * n + 500 + 1) fails m x dt t Ts = some (seen, .ok ()) := by
  intro Ts
  induction Ts with
  | nil => intro fails m x dt t _ _ _ _ _ _; exact ⟨_, rfl⟩
  | cons T Ts ih =>
    intro fails m x dt t hf hk hF h0 hch hb
    obtain ⟨hTt, hch'⟩ := List.isChain_cons_cons.mp hch
    have hT := hb T (by simp)
    have e : u * (T - t) = u * (T - t0) - u * (t - t0) := by ring
    obtain ⟨fails', m', y, dt', h1, h2, h3, h4⟩ := timesControlledTo_ends (T := T) hc hu he f hκ hκl hD0 hD (501 * n + 500) fails m x t dt n hf hk hF (by linarith)
      (by linarith) (by omega)
    obtain ⟨seen, h5⟩ := ih fails' m' y dt' T h2 h3 h4 (by linarith) hch' (fun T' h' => hb T' (by simp [h']))
    refine ⟨(x, t) :: seen, ?_⟩
    unfold timesControlled
    rw [h1]
    simp [h5]

/-- every requested time is at most the last one away from the start -/
theorem chain_last {u : α} : ∀ (ts : List α) a, (a :: ts).IsChain (fun p q => 0 ≤ u * (q - p)) → ∀ T ∈ ts, ∀ b, ts.getLast? = some b → u * (T - a) ≤ u * (b - a) := by
  intro ts
  induction ts with
  | nil => intro a _ T hT; simp at hT
  | cons t ts ih =>
    intro a hch T hT b hb
    obtain ⟨h1, h2⟩ := List.isChain_cons_cons.mp hch
    have e : ∀ z, u * (z - a) = u * (z - t) + u * (t - a) := fun z => by ring
    cases ts with
    | nil =>
      obtain rfl : T = t := by simpa using hT
      obtain rfl : T = b := by simpa using hb
      exact le_refl _
    | cons t' ts =>
      have hb' : (t' :: ts).getLast? = some b := by simpa using hb
      rcases List.mem_cons.mp hT with rfl | hT
      · have h0 := ih T h2 t' (by simp) b hb'
        have h3 := (List.isChain_cons_cons.mp h2).1
        rw [e b]; linarith
      · rw [e T, e b]; linarith [ih t h2 T hT b hb']

end Verif.Odeint

namespace Verif.NumSolver

open Verif.Odeint

variable {α V M : Type} [Field α] [LinearOrder α] [AddCommGroup V] [Module α V]

/-- how `integrateTime` runs with step control when there is something to integrate -/
theorem integrateTimes_run_controlled {eps : α} {lib : Steppers α V M} {fuel : ℕ} {s : NumSolver α V} {x : V} {a b dt p q : α} {ts : List α} {f : OdeSystem α V}
    (hb : ts.getLast? = some b) (hne : ts ≠ [a]) (hd : s.getSignedTimeStep (some b) = .ok dt) (hk : s.stepperType ≠ .rungeKutta4) (hp : s.absTol = some p) (hq : s.relTol = some q) :
    s.integrateTimes eps lib fuel x (some a) (ts.map some) f =
      (timesControlled eps ((lib s.stepperType p q).tryStep f) fuel 0 (lib s.stepperType p q).init x dt a ts).map fun r =>
        ({ s with observed := r.1 }, r.2.map fun _ => r.1.tail) := by
  cases ts with
  | nil => simp at hb
  | cons t ts =>
    have h1 : ((ts.map some).isEmpty && realEq (some t) (some a)) = false := by
      cases ts with
      | nil => simp only [List.map_nil, List.isEmpty_nil, realEq, Bool.true_and, decide_eq_false_iff_not]
               intro h; exact hne (by rw [h])
      | cons => rfl
    have h2 : (some t :: ts.map some).getLast (by simp) = some b := by
      have : ((t :: ts).map some).getLast (by simp) = some b := by
        rw [List.getLast_map]
        rw [List.getLast?_eq_some_getLast (by simp)] at hb
        exact hb
      simpa using this
    have h3 : toDoubles (some t :: ts.map some) = .ok (t :: ts) := toDoubles_some (t :: ts)
    unfold integrateTimes
    have hd' : getSignedTimeStep ({ s with observed := [] } : NumSolver α V) (some b) = .ok dt := hd
    simp only [List.map_cons, h1, h2, h3, hd', Bool.false_eq_true, if_false]
    rw [if_neg hk]
    obtain ⟨lt, st, h, rt, at_, ob⟩ := s
    dsimp only at hp hq ⊢
    subst hp hq
    dsimp only
    rcases timesControlled eps ((lib st p q).tryStep f) fuel 0 (lib st p q).init x dt a (t :: ts) with _ | ⟨seen, e | r⟩ <;> rfl

/-- how `integrateDuration` runs with step control when there is something to integrate -/
theorem integrateDuration_run_controlled {eps : α} {lib : Steppers α V M} {fuel : ℕ} {s : NumSolver α V} {x : V} {d dt p q : α} {f : OdeSystem α V}
    (h0 : d ≠ 0) (hd : s.getSignedTimeStep (some d) = .ok dt) (hk : s.stepperType ≠ .rungeKutta4) (hp : s.absTol = some p) (hq : s.relTol = some q) :
    s.integrateDuration eps lib fuel x (some d) f =
      if s.logType = .logConstant then
        (constControlled eps (lib s.stepperType p q) f 0 d dt fuel fuel x 0 dt).map fun r => ({ s with observed := r.1 }, r.2.map fun y => (y, d))
      else
        (adaptiveControlled eps ((lib s.stepperType p q).tryStep f) d fuel (lib s.stepperType p q).init x 0 dt).map fun r =>
          ({ s with observed := r.1 }, r.2.map fun y => (y.1, d)) := by
  have hd' : getSignedTimeStep ({ s with observed := [] } : NumSolver α V) (some d) = .ok dt := hd
  unfold integrateDuration
  simp only [h0, if_false, hd']
  rw [if_neg hk]
  obtain ⟨lt, st, h, rt, at_, ob⟩ := s
  dsimp only at hp hq ⊢
  subst hp hq
  dsimp only
  split
  · rcases constControlled eps (lib st p q) f 0 d dt fuel fuel x 0 dt with _ | ⟨seen, e | r⟩ <;> rfl
  · rcases adaptiveControlled eps ((lib st p q).tryStep f) d fuel (lib st p q).init x 0 dt with _ | ⟨seen, e | r⟩ <;> rfl

end Verif.NumSolver
