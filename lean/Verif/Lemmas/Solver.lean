import Verif.Spec.Solver
import Mathlib.Tactic.Linarith
import Mathlib.Tactic.Ring
import Mathlib.Tactic.FieldSimp
import Mathlib.Tactic.Module
import Mathlib.Algebra.Order.Archimedean.Basic

/-!
# Lemmas about the numerical solver

`u` is the direction of an integration, one or minus one.
-/

namespace Verif

open Odeint

variable {α V M : Type} [Field α] [LinearOrder α] [IsStrictOrderedRing α]

namespace Odeint

theorem lessWithSign_iff {eps t T dt u : α} (hu : u = 1 ∨ u = -1) (h : 0 < u * dt) : lessWithSign eps t T dt = true ↔ eps < u * (T - t) := by
  unfold lessWithSign
  rcases hu with rfl | rfl
  · rw [if_pos (by linarith)]; simp
  · rw [if_neg (by linarith)]; simp

theorem lessEqWithSign_iff {eps t T dt u : α} (hu : u = 1 ∨ u = -1) (h : 0 < u * dt) : lessEqWithSign eps t T dt = true ↔ u * (t - T) ≤ eps := by
  unfold lessEqWithSign
  rcases hu with rfl | rfl
  · rw [if_pos (by linarith)]; simp
  · rw [if_neg (by linarith)]; simp

theorem minAbs_sign {dt g u : α} (hu : u = 1 ∨ u = -1) (h : 0 < u * dt) : u * minAbs dt g = min (u * dt) (u * g) := by
  unfold minAbs
  rcases hu with rfl | rfl
  · rw [if_pos (by linarith)]; simp
  · rw [if_neg (by linarith)]; rw [neg_one_mul, neg_one_mul, neg_one_mul]; exact (min_neg_neg _ _).symm

theorem maxAbs_sign {dt g u : α} (hu : u = 1 ∨ u = -1) (h : 0 < u * dt) : u * maxAbs dt g = max (u * dt) (u * g) := by
  unfold maxAbs
  rcases hu with rfl | rfl
  · rw [if_pos (by linarith)]; simp
  · rw [if_neg (by linarith)]; rw [neg_one_mul, neg_one_mul, neg_one_mul]; exact (max_neg_neg _ _).symm

/-- the inner loop of `integrate_times` keeps what the steps keep and stops within `eps` of the next time, which it does not pass -/
theorem timesPlainTo_inv {eps T dt u : α} {step : V → α → α → V} (P : V → α → Prop) (hu : u = 1 ∨ u = -1) (he : 0 ≤ eps) (hdt : 0 < u * dt)
    (hstep : ∀ x t c, P x t → P (step x t c) (t + c)) :
    ∀ fuel x t cur y cur', 0 < u * cur → 0 ≤ u * (T - t) → P x t → timesPlainTo eps step T dt fuel x t cur = some (y, cur') →
      ∃ t', P y t' ∧ 0 ≤ u * (T - t') ∧ u * (T - t') ≤ eps ∧ 0 < u * cur' := by
  intro fuel
  induction fuel with
  | zero => intro x t cur y cur' _ _ _ h; simp [timesPlainTo] at h
  | succ fuel ih =>
    intro x t cur y cur' hc ht hP h
    unfold timesPlainTo at h
    by_cases hl : lessWithSign eps t T cur = true
    · rw [if_pos hl] at h
      have hlt := (lessWithSign_iff hu hc).mp hl
      have hm := minAbs_sign (g := T - t) hu hdt
      refine ih _ _ _ _ _ ?_ ?_ (hstep x t _ hP) h
      · rw [hm]; exact lt_min hdt (lt_of_le_of_lt he hlt)
      · have : u * (T - (t + minAbs dt (T - t))) = u * (T - t) - u * minAbs dt (T - t) := by ring
        rw [this, hm]; linarith [min_le_right (u * dt) (u * (T - t))]
    · rw [if_neg hl] at h
      obtain ⟨rfl, rfl⟩ : x = y ∧ cur = cur' := by simpa using h
      refine ⟨t, hP, ht, ?_, hc⟩
      by_contra hn
      exact hl ((lessWithSign_iff hu hc).mpr (not_le.mp hn))

theorem timesControlledTo_inv {eps T u : α} {try_ : M → V → α → α → Tried α V M} (P : V → α → Prop) (hu : u = 1 ∨ u = -1) (he : 0 ≤ eps)
    (hacc : ∀ m x t c, P x t → (try_ m x t c).accepted = true → (try_ m x t c).t = t + c ∧ P (try_ m x t c).x (t + c))
    (hrej : ∀ m x t c, (try_ m x t c).accepted = false → (try_ m x t c).t = t ∧ (try_ m x t c).x = x)
    (hdir : ∀ m x t c, 0 < u * c → 0 < u * (try_ m x t c).dt) :
    ∀ fuel fails m x t dt r, 0 < u * dt → 0 ≤ u * (T - t) → P x t → timesControlledTo eps try_ T fuel fails m x t dt = some (.ok r) →
      ∃ t', P r.2.2.1 t' ∧ 0 ≤ u * (T - t') ∧ u * (T - t') ≤ eps ∧ 0 < u * r.2.2.2 := by
  intro fuel
  induction fuel with
  | zero => intro fails m x t dt r _ _ _ h; simp [timesControlledTo] at h
  | succ fuel ih =>
    intro fails m x t dt r hdt ht hP h
    unfold timesControlledTo at h
    by_cases hl : lessWithSign eps t T dt = true
    · rw [if_pos hl] at h
      have hlt := (lessWithSign_iff hu hdt).mp hl
      have hm := minAbs_sign (g := T - t) hu hdt
      have hpos : 0 < u * minAbs dt (T - t) := by rw [hm]; exact lt_min hdt (lt_of_le_of_lt he hlt)
      simp only at h
      by_cases ha : (try_ m x t (minAbs dt (T - t))).accepted = true
      · rw [if_pos ha] at h
        obtain ⟨h1, h2⟩ := hacc _ _ _ _ hP ha
        refine ih _ _ _ _ _ _ ?_ ?_ ?_ h
        · rw [maxAbs_sign hu hdt]; exact lt_max_of_lt_left hdt
        · rw [h1]
          have : u * (T - (t + minAbs dt (T - t))) = u * (T - t) - u * minAbs dt (T - t) := by ring
          rw [this, hm]; linarith [min_le_right (u * dt) (u * (T - t))]
        · rw [h1]; exact h2
      · rw [if_neg ha] at h
        have ha' : (try_ m x t (minAbs dt (T - t))).accepted = false := by simpa using ha
        obtain ⟨h1, h2⟩ := hrej _ _ _ _ ha'
        by_cases hf : 500 ≤ fails
        · rw [if_pos hf] at h; simp at h
        · rw [if_neg hf] at h
          refine ih _ _ _ _ _ _ (hdir _ _ _ _ hpos) ?_ ?_ h
          · rw [h1]; exact ht
          · rw [h1, h2]; exact hP
    · rw [if_neg hl] at h
      obtain rfl := Except.ok.inj (Option.some.inj h)
      refine ⟨t, hP, ht, ?_, hdt⟩
      by_contra hn
      exact hl ((lessWithSign_iff hu hdt).mpr (not_le.mp hn))

/-- what `integrate_times` shows to the observer starts with the initial state and has the times that were asked for -/
theorem timesPlain_times {eps dt : α} {step : V → α → α → V} {fuel : ℕ} :
    ∀ (Ts : List α) x cur t seen, timesPlain eps step dt fuel x cur t Ts = some seen → ∃ rest, seen = (x, t) :: rest ∧ rest.map Prod.snd = Ts := by
  intro Ts
  induction Ts with
  | nil => intro x cur t seen h; exact ⟨[], (Option.some.inj h).symm, rfl⟩
  | cons T Ts ih =>
    intro x cur t seen h
    unfold timesPlain at h
    cases hc : timesPlainTo eps step T dt fuel x t cur with
    | none => rw [hc] at h; simp at h
    | some p =>
      rw [hc] at h
      obtain ⟨tl, h1, h2⟩ := Option.map_eq_some_iff.mp h
      obtain ⟨rest, hr, hm⟩ := ih _ _ _ _ h1
      exact ⟨tl, h2.symm, by rw [hr]; simp [hm]⟩

theorem timesControlled_times {eps : α} {try_ : M → V → α → α → Tried α V M} {fuel : ℕ} :
    ∀ (Ts : List α) fails m x dt t r, timesControlled eps try_ fuel fails m x dt t Ts = some r →
      ∃ rest, r.1 = (x, t) :: rest ∧ (r.2 = .ok () → rest.map Prod.snd = Ts) := by
  intro Ts
  induction Ts with
  | nil => intro fails m x dt t r h; obtain rfl := Option.some.inj h; exact ⟨[], rfl, fun _ => rfl⟩
  | cons T Ts ih =>
    intro fails m x dt t r h
    unfold timesControlled at h
    cases hc : timesControlledTo eps try_ T fuel fails m x t dt with
    | none => rw [hc] at h; simp at h
    | some p =>
      rw [hc] at h
      cases p with
      | error e => obtain rfl := Option.some.inj h; exact ⟨[], rfl, fun h => by simp at h⟩
      | ok q =>
        obtain ⟨r', h1, h2⟩ := Option.map_eq_some_iff.mp h
        obtain ⟨rest, hr, hm⟩ := ih _ _ _ _ _ _ h1
        subst h2
        exact ⟨r'.1, rfl, fun he => by rw [hr]; simp [hm he]⟩

/-- states along requested times: `Q n x t` holds of the state `x` kept for the `n`-th time `t` -/
theorem timesPlain_inv {eps dt u : α} {step : V → α → α → V} {fuel : ℕ} (Q : ℕ → V → α → Prop) (P : V → α → V → α → Prop) (hu : u = 1 ∨ u = -1) (he : 0 ≤ eps)
    (hdt : 0 < u * dt) (hP0 : ∀ x t, P x t x t) (hstep : ∀ x0 t0 x t c, P x0 t0 x t → P x0 t0 (step x t c) (t + c))
    (hQ : ∀ n x t y t' T, Q n x t → P x t y t' → 0 ≤ u * (T - t') → u * (T - t') ≤ eps → Q (n + 1) y T) :
    ∀ (Ts : List α) n x cur t seen, 0 < u * cur → (t :: Ts).IsChain (fun a b => 0 ≤ u * (b - a)) → Q n x t → timesPlain eps step dt fuel x cur t Ts = some seen →
      ∀ i y T, seen[i]? = some (y, T) → Q (n + i) y T := by
  intro Ts
  induction Ts with
  | nil =>
    intro n x cur t seen _ _ hq h i y T hi
    obtain rfl := Option.some.inj h
    cases i with
    | zero => obtain ⟨rfl, rfl⟩ : x = y ∧ t = T := by simpa using hi
              exact hq
    | succ i => simp at hi
  | cons T Ts ih =>
    intro n x cur t seen hc hch hq h i y T' hi
    unfold timesPlain at h
    cases hl : timesPlainTo eps step T dt fuel x t cur with
    | none => rw [hl] at h; simp at h
    | some p =>
      obtain ⟨x', cur'⟩ := p
      rw [hl] at h
      obtain ⟨tl, h1, h2⟩ := Option.map_eq_some_iff.mp h
      obtain ⟨hTt, hch'⟩ := List.isChain_cons_cons.mp hch
      obtain ⟨t', p1, p2, p3, p4⟩ := timesPlainTo_inv (P x t) hu he hdt (hstep x t) fuel x t cur x' cur' hc hTt (hP0 x t) hl
      subst h2
      cases i with
      | zero => obtain ⟨rfl, rfl⟩ : x = y ∧ t = T' := by simpa using hi
                exact hq
      | succ i =>
        have := ih (n + 1) x' cur' T tl p4 hch' (hQ n x t x' t' T hq p1 p2 p3) h1 i y T' (by simpa using hi)
        rwa [show n + (i + 1) = n + 1 + i by ring]

theorem timesControlled_inv {eps u : α} {try_ : M → V → α → α → Tried α V M} {fuel : ℕ} (Q : ℕ → V → α → Prop) (P : V → α → V → α → Prop) (hu : u = 1 ∨ u = -1) (he : 0 ≤ eps)
    (hP0 : ∀ x t, P x t x t)
    (hacc : ∀ x0 t0 m x t c, P x0 t0 x t → (try_ m x t c).accepted = true → (try_ m x t c).t = t + c ∧ P x0 t0 (try_ m x t c).x (t + c))
    (hrej : ∀ m x t c, (try_ m x t c).accepted = false → (try_ m x t c).t = t ∧ (try_ m x t c).x = x)
    (hdir : ∀ m x t c, 0 < u * c → 0 < u * (try_ m x t c).dt)
    (hQ : ∀ n x t y t' T, Q n x t → P x t y t' → 0 ≤ u * (T - t') → u * (T - t') ≤ eps → Q (n + 1) y T) :
    ∀ (Ts : List α) n fails m x dt t r, 0 < u * dt → (t :: Ts).IsChain (fun a b => 0 ≤ u * (b - a)) → Q n x t →
      timesControlled eps try_ fuel fails m x dt t Ts = some r → ∀ i y T, r.1[i]? = some (y, T) → Q (n + i) y T := by
  intro Ts
  induction Ts with
  | nil =>
    intro n fails m x dt t r _ _ hq h i y T hi
    obtain rfl := Option.some.inj h
    cases i with
    | zero => obtain ⟨rfl, rfl⟩ : x = y ∧ t = T := by simpa using hi
              exact hq
    | succ i => simp at hi
  | cons T Ts ih =>
    intro n fails m x dt t r hc hch hq h i y T' hi
    unfold timesControlled at h
    cases hl : timesControlledTo eps try_ T fuel fails m x t dt with
    | none => rw [hl] at h; simp at h
    | some p =>
      rw [hl] at h
      cases p with
      | error e =>
        obtain rfl := Option.some.inj h
        cases i with
        | zero => obtain ⟨rfl, rfl⟩ : x = y ∧ t = T' := by simpa using hi
                  exact hq
        | succ i => simp at hi
      | ok q =>
        obtain ⟨fails', m', x', dt'⟩ := q
        obtain ⟨r', h1, h2⟩ := Option.map_eq_some_iff.mp h
        obtain ⟨hTt, hch'⟩ := List.isChain_cons_cons.mp hch
        obtain ⟨t', p1, p2, p3, p4⟩ := timesControlledTo_inv (P x t) hu he (hacc x t) hrej hdir fuel fails m x t dt _ hc hTt (hP0 x t) hl
        subst h2
        cases i with
        | zero => obtain ⟨rfl, rfl⟩ : x = y ∧ t = T' := by simpa using hi
                  exact hq
        | succ i =>
          have := ih (n + 1) fails' m' x' dt' T r' p4 hch' (hQ n x t x' t' T hq p1 p2 p3) h1 i y T' (by simpa using hi)
          rwa [show n + (i + 1) = n + 1 + i by ring]

/-- the inner loop ends -/
theorem timesPlainTo_ends {eps T dt u : α} {step : V → α → α → V} (hu : u = 1 ∨ u = -1) (he : 0 ≤ eps) (hdt : 0 < u * dt) :
    ∀ (n : ℕ) x t cur, 0 < u * cur → u * (T - t) ≤ n * (u * dt) → ∃ y cur', timesPlainTo eps step T dt (n + 1) x t cur = some (y, cur') ∧ 0 < u * cur' := by
  intro n
  induction n with
  | zero =>
    intro x t cur hc h
    refine ⟨x, cur, ?_, hc⟩
    unfold timesPlainTo
    rw [if_neg]
    rw [lessWithSign_iff hu hc]
    push_cast at h
    linarith
  | succ n ih =>
    intro x t cur hc h
    unfold timesPlainTo
    by_cases hl : lessWithSign eps t T cur = true
    · rw [if_pos hl]
      have hlt := (lessWithSign_iff hu hc).mp hl
      have hm := minAbs_sign (g := T - t) hu hdt
      refine ih _ _ _ ?_ ?_
      · rw [hm]; exact lt_min hdt (lt_of_le_of_lt he hlt)
      · have e : u * (T - (t + minAbs dt (T - t))) = u * (T - t) - u * minAbs dt (T - t) := by ring
        rw [e, hm]
        push_cast at h
        rcases le_total (u * dt) (u * (T - t)) with h1 | h1
        · rw [min_eq_left h1]; linarith
        · rw [min_eq_right h1, sub_self]; positivity
    · rw [if_neg hl]; exact ⟨x, cur, rfl, hc⟩

theorem timesPlain_ends {eps dt u : α} {step : V → α → α → V} (hu : u = 1 ∨ u = -1) (he : 0 ≤ eps) (hdt : 0 < u * dt) (n : ℕ) (t0 : α) :
    ∀ (Ts : List α) x cur t, 0 < u * cur → 0 ≤ u * (t - t0) → (t :: Ts).IsChain (fun a b => 0 ≤ u * (b - a)) → (∀ T ∈ Ts, u * (T - t0) ≤ n * (u * dt)) →
      ∃ seen, timesPlain eps step dt (n + 1) x cur t Ts = some seen := by
  intro Ts
  induction Ts with
  | nil => intro x cur t _ _ _ _; exact ⟨_, rfl⟩
  | cons T Ts ih =>
    intro x cur t hc h0 hch hb
    obtain ⟨hTt, hch'⟩ := List.isChain_cons_cons.mp hch
    have hT := hb T (by simp)
    have e : u * (T - t) = u * (T - t0) - u * (t - t0) := by ring
    obtain ⟨y, cur', h1, h2⟩ := timesPlainTo_ends (eps := eps) (step := step) hu he hdt n x t cur hc (by linarith)
    obtain ⟨seen, h3⟩ := ih y cur' T h2 (by linarith) hch' (fun T' h' => hb T' (by simp [h']))
    refine ⟨(x, t) :: seen, ?_⟩
    unfold timesPlain
    rw [h1]
    simp [h3]

theorem range'_split {n m : ℕ} (h : n + 1 ≤ m) : List.range' n (m - n + 1) = n :: List.range' (n + 1) (m - (n + 1) + 1) := by
  rw [show m - n + 1 = (m - (n + 1) + 1) + 1 by omega, List.range'_succ]

/-- `integrate_const` without step control: the states kept are at the multiples of the step, up to the last multiple that does not pass the end -/
theorem constPlain_inv {eps start finish dt u : α} {step : V → α → α → V} (P : V → α → Prop) (hu : u = 1 ∨ u = -1) (hdt : 0 < u * dt)
    (hstep : ∀ x t, P x t → P (step x t dt) (t + dt)) :
    ∀ fuel x (n : ℕ) r, P x (start + (n : α) * dt) → constPlain eps step start finish dt fuel x n = some r →
      P r.2.1 (start + (r.2.2 : α) * dt) ∧ n ≤ r.2.2 ∧ (r.2.2 = n ∨ u * (start + (r.2.2 : α) * dt - finish) ≤ eps) ∧
        eps < u * (start + ((r.2.2 + 1 : ℕ) : α) * dt - finish) ∧ (∃ rest, r.1 = (x, start + (n : α) * dt) :: rest) ∧
        r.1.getLast? = some (r.2.1, start + (r.2.2 : α) * dt) ∧ r.1.map Prod.snd = (List.range' n (r.2.2 - n + 1)).map fun k : ℕ => start + (k : α) * dt := by
  intro fuel
  induction fuel with
  | zero => intro x n r _ h; simp [constPlain] at h
  | succ fuel ih =>
    intro x n r hP h
    unfold constPlain at h
    have e : start + (n : α) * dt + dt = start + ((n + 1 : ℕ) : α) * dt := by push_cast; ring
    by_cases hl : lessEqWithSign eps (start + (n : α) * dt + dt) finish dt = true
    · simp only [hl, if_true] at h
      obtain ⟨r', h1, h2⟩ := Option.map_eq_some_iff.mp h
      have hP' := hstep _ _ hP
      rw [e] at hP'
      obtain ⟨i1, i2, i3, i4, i5, i6, i7⟩ := ih _ _ _ hP' h1
      subst h2
      refine ⟨i1, by dsimp only; omega, Or.inr ?_, i4, ⟨_, rfl⟩, ?_, ?_⟩
      · rcases i3 with i3 | i3
        · dsimp only; rw [i3, ← e]; exact (lessEqWithSign_iff hu hdt).mp hl
        · exact i3
      · obtain ⟨rest, i5⟩ := i5
        dsimp only
        rw [i5] at i6 ⊢
        rw [List.getLast?_cons_cons]; exact i6
      · dsimp only
        rw [List.map_cons, i7, range'_split i2, List.map_cons]
    · simp only [hl] at h
      obtain rfl := Option.some.inj h
      refine ⟨hP, le_refl _, Or.inl rfl, ?_, ⟨_, rfl⟩, by simp, by simp⟩
      by_contra hn
      rw [← e] at hn
      exact hl ((lessEqWithSign_iff hu hdt).mpr (not_lt.mp hn))

theorem constPlain_ends {eps start finish dt u : α} {step : V → α → α → V} (hu : u = 1 ∨ u = -1) (hdt : 0 < u * dt) :
    ∀ (m : ℕ) x (n : ℕ), u * (finish - (start + (n : α) * dt)) + eps < (m + 1) * (u * dt) → ∃ r, constPlain eps step start finish dt (m + 1) x n = some r := by
  intro m
  induction m with
  | zero =>
    intro x n h
    unfold constPlain
    refine ⟨_, if_neg ?_⟩
    rw [lessEqWithSign_iff hu hdt]
    have e : u * (start + (n : α) * dt + dt - finish) = u * dt - u * (finish - (start + (n : α) * dt)) := by ring
    rw [e]; push_cast at h; linarith
  | succ m ih =>
    intro x n h
    unfold constPlain
    by_cases hl : lessEqWithSign eps (start + (n : α) * dt + dt) finish dt = true
    · simp only [hl, if_true]
      obtain ⟨r, hr⟩ := ih (step x (start + (n : α) * dt) dt) (n + 1) (by push_cast at h ⊢; linarith)
      exact ⟨_, by rw [hr]; rfl⟩
    · exact ⟨_, if_neg hl⟩

/-- `integrate_adaptive` without step control ends within `eps` of the end -/
theorem adaptivePlain_inv {eps start finish dt u : α} {step : V → α → α → V} (P : V → α → Prop) (hu : u = 1 ∨ u = -1) (hdt : 0 < u * dt)
    (hse : 0 ≤ u * (finish - start)) (hstep : ∀ x t c, P x t → P (step x t c) (t + c)) {fuel : ℕ} {x : V} {r : List (V × α) × V} (hP : P x start)
    (h : adaptivePlain eps step start finish dt fuel x = some r) :
    ∃ t', P r.2 t' ∧ u * (finish - t') ≤ max eps 0 ∧ -(max eps 0) ≤ u * (finish - t') ∧ (∃ rest, r.1 = (x, start) :: rest) ∧ r.1.getLast? = some (r.2, t') := by
  unfold adaptivePlain at h
  cases hc : constPlain eps step start finish dt fuel x 0 with
  | none => rw [hc] at h; simp at h
  | some q =>
    obtain ⟨seen, y, n⟩ := q
    rw [hc] at h
    obtain ⟨i1, i2, i3, i4, ⟨rest, i5⟩, i6, i7⟩ := constPlain_inv (eps := eps) (start := start) (finish := finish) (step := step) P hu hdt (fun x t hx => hstep x t dt hx)
      fuel x 0 _ (by simpa using hP) hc
    dsimp only at i1 i2 i3 i4 i5 i6 i7 h
    rw [mul_comm dt] at h
    have e5 : seen = (x, start) :: rest := by rw [i5]; simp
    by_cases hl : lessWithSign eps (start + (n : α) * dt) finish dt = true
    · rw [if_pos hl] at h
      obtain rfl := Option.some.inj h
      refine ⟨finish, ?_, by simp, by simp, ⟨rest ++ [(step y (start + n * dt) (finish - (start + n * dt)), finish)], by rw [e5]; rfl⟩, by simp⟩
      have := hstep y (start + n * dt) (finish - (start + n * dt)) i1
      rwa [add_sub_cancel] at this
    · rw [if_neg hl] at h
      obtain rfl := Option.some.inj h
      have h1 : u * (finish - (start + (n : α) * dt)) ≤ eps := by
        by_contra hn
        exact hl ((lessWithSign_iff hu hdt).mpr (not_le.mp hn))
      refine ⟨start + n * dt, i1, le_max_of_le_left h1, ?_, ⟨rest, e5⟩, i6⟩
      rcases i3 with i3 | i3
      · rw [i3]; simp only [Nat.cast_zero, zero_mul, add_zero]
        linarith [le_max_right eps 0]
      · have e : u * (finish - (start + (n : α) * dt)) = -(u * (start + (n : α) * dt - finish)) := by ring
        rw [e]; linarith [le_max_left eps 0]

theorem tryUntil_inv {u : α} {try_ : M → V → α → α → Tried α V M} (P : V → α → Prop) (hu : u = 1 ∨ u = -1)
    (hacc : ∀ m x t c, P x t → (try_ m x t c).accepted = true → (try_ m x t c).t = t + c ∧ P (try_ m x t c).x (t + c))
    (hrej : ∀ m x t c, (try_ m x t c).accepted = false → (try_ m x t c).t = t ∧ (try_ m x t c).x = x)
    (hshort : ∀ m x t c, (try_ m x t c).accepted = false → |(try_ m x t c).dt| ≤ |c|) (hdir : ∀ m x t c, 0 < u * c → 0 < u * (try_ m x t c).dt) :
    ∀ left m x t dt r, 0 < u * dt → P x t → tryUntil try_ left m x t dt = .ok r → ∃ c, 0 < u * c ∧ u * c ≤ u * dt ∧ r.t = t + c ∧ P r.x (t + c) ∧ 0 < u * r.dt := by
  have habs : ∀ c : α, 0 < u * c → |c| = u * c := by
    intro c hc
    rcases hu with rfl | rfl
    · rw [one_mul] at hc ⊢; exact abs_of_pos hc
    · rw [neg_one_mul] at hc ⊢; exact abs_of_neg (by linarith)
  intro left
  induction left with
  | zero => intro m x t dt r _ _ h; simp [tryUntil] at h
  | succ left ih =>
    intro m x t dt r hdt hP h
    unfold tryUntil at h
    dsimp only at h
    by_cases ha : (try_ m x t dt).accepted = true
    · rw [if_pos ha] at h
      obtain rfl := Except.ok.inj h
      obtain ⟨h1, h2⟩ := hacc _ _ _ _ hP ha
      exact ⟨dt, hdt, le_refl _, h1, h2, hdir _ _ _ _ hdt⟩
    · rw [if_neg ha] at h
      have ha' : (try_ m x t dt).accepted = false := by simpa using ha
      obtain ⟨h1, h2⟩ := hrej _ _ _ _ ha'
      have h3 := hdir m x t dt hdt
      have h4 := hshort _ _ _ _ ha'
      rw [habs _ h3, habs _ hdt] at h4
      rw [h1, h2] at h
      obtain ⟨c, k1, k2, k3⟩ := ih _ _ _ _ _ h3 hP h
      exact ⟨c, k1, le_trans k2 h4, k3⟩

/-- `integrate_adaptive` with step control ends within `eps` of the end -/
theorem adaptiveControlled_inv {eps finish u : α} {try_ : M → V → α → α → Tried α V M} (P : V → α → Prop) (hu : u = 1 ∨ u = -1) (he : 0 ≤ eps)
    (hacc : ∀ m x t c, P x t → (try_ m x t c).accepted = true → (try_ m x t c).t = t + c ∧ P (try_ m x t c).x (t + c))
    (hrej : ∀ m x t c, (try_ m x t c).accepted = false → (try_ m x t c).t = t ∧ (try_ m x t c).x = x)
    (hshort : ∀ m x t c, (try_ m x t c).accepted = false → |(try_ m x t c).dt| ≤ |c|) (hdir : ∀ m x t c, 0 < u * c → 0 < u * (try_ m x t c).dt) :
    ∀ fuel m x t dt seen y t' dt', 0 < u * dt → P x t → -eps ≤ u * (finish - t) → adaptiveControlled eps try_ finish fuel m x t dt = some (seen, .ok (y, t', dt')) →
      P y t' ∧ u * (finish - t') ≤ eps ∧ -eps ≤ u * (finish - t') ∧ 0 < u * dt' ∧ (∃ rest, seen = (x, t) :: rest) ∧ seen.getLast? = some (y, t') := by
  intro fuel
  induction fuel with
  | zero => intro m x t dt seen y t' dt' _ _ _ h; simp [adaptiveControlled] at h
  | succ fuel ih =>
    intro m x t dt seen y t' dt' hdt hP hb h
    unfold adaptiveControlled at h
    by_cases hl : lessWithSign eps t finish dt = true
    · rw [if_pos hl] at h
      have hlt := (lessWithSign_iff hu hdt).mp hl
      obtain ⟨d, hd, hd1, hd2⟩ : ∃ d, d = (if lessWithSign eps finish (t + dt) dt then finish - t else dt) ∧ 0 < u * d ∧ u * (t + d - finish) ≤ eps := by
        by_cases h2 : lessWithSign eps finish (t + dt) dt = true
        · refine ⟨finish - t, by rw [if_pos h2], lt_of_le_of_lt he hlt, ?_⟩
          rw [add_sub_cancel, sub_self, mul_zero]; exact he
        · refine ⟨dt, by rw [if_neg h2], hdt, ?_⟩
          by_contra hn
          exact h2 ((lessWithSign_iff hu hdt).mpr (not_le.mp hn))
      dsimp only at h
      rw [← hd] at h
      cases ht : tryUntil try_ 500 m x t d with
      | error e => rw [ht] at h; simp at h
      | ok r =>
        rw [ht] at h
        obtain ⟨s, h1, h2⟩ := Option.map_eq_some_iff.mp h
        obtain ⟨s1, s2⟩ := s
        simp only [Prod.mk.injEq] at h2
        obtain ⟨rfl, rfl⟩ := h2
        obtain ⟨c, k1, k2, k3, k4, k5⟩ := tryUntil_inv P hu hacc hrej hshort hdir 500 m x t d r hd1 hP ht
        rw [k3] at h1
        have e : u * (t + d - finish) = u * d - u * (finish - t) := by ring
        have e' : u * (finish - (t + c)) = u * (finish - t) - u * c := by ring
        obtain ⟨i1, i2, i3, i4, ⟨rest, i5⟩, i6⟩ := ih _ _ _ _ _ _ _ _ k5 k4 (by linarith) h1
        refine ⟨i1, i2, i3, i4, ⟨_, rfl⟩, ?_⟩
        rw [i5] at i6 ⊢
        rw [List.getLast?_cons_cons]; exact i6
    · rw [if_neg hl] at h
      simp only [Option.some.injEq, Prod.mk.injEq, Except.ok.injEq] at h
      obtain ⟨rfl, rfl, rfl, rfl⟩ := h
      refine ⟨hP, ?_, hb, hdt, ⟨_, rfl⟩, by simp⟩
      by_contra hn
      exact hl ((lessWithSign_iff hu hdt).mpr (not_le.mp hn))

/-- `integrate_const` with step control stops at the last multiple of the step that does not pass the end -/
theorem constControlled_inv {eps start finish step u : α} {c : Controlled α V M} {f : OdeSystem α V} {fuel : ℕ} (Q : ℕ → V → Prop) (P : V → α → V → α → Prop)
    (hu : u = 1 ∨ u = -1) (he : 0 ≤ eps) (hs : 0 < u * step) (hP0 : ∀ x t, P x t x t)
    (hacc : ∀ x0 t0 m x t h, P x0 t0 x t → (c.tryStep f m x t h).accepted = true → (c.tryStep f m x t h).t = t + h ∧ P x0 t0 (c.tryStep f m x t h).x (t + h))
    (hrej : ∀ m x t h, (c.tryStep f m x t h).accepted = false → (c.tryStep f m x t h).t = t ∧ (c.tryStep f m x t h).x = x)
    (hshort : ∀ m x t h, (c.tryStep f m x t h).accepted = false → |(c.tryStep f m x t h).dt| ≤ |h|) (hdir : ∀ m x t h, 0 < u * h → 0 < u * (c.tryStep f m x t h).dt)
    (hQ : ∀ (n : ℕ) x y t', Q n x → P x (start + n * step) y t' → u * (start + ((n + 1 : ℕ) : α) * step - t') ≤ eps → -eps ≤ u * (start + ((n + 1 : ℕ) : α) * step - t') →
      Q (n + 1) y) :
    ∀ turns x (n : ℕ) dt seen y, 0 < u * dt → Q n x → constControlled eps c f start finish step fuel turns x n dt = some (seen, .ok y) →
      ∃ n' : ℕ, Q n' y ∧ n ≤ n' ∧ (n' = n ∨ u * (start + (n' : α) * step - finish) ≤ eps) ∧ eps < u * (start + ((n' + 1 : ℕ) : α) * step - finish) ∧
        (∃ rest, seen = (x, start + (n : α) * step) :: rest) ∧ seen.getLast? = some (y, start + (n' : α) * step) ∧
        seen.map Prod.snd = (List.range' n (n' - n + 1)).map fun k : ℕ => start + (k : α) * step := by
  intro turns
  induction turns with
  | zero => intro x n dt seen y _ _ h; simp [constControlled] at h
  | succ turns ih =>
    intro x n dt seen y hdt hq h
    unfold constControlled at h
    have e : start + (n : α) * step + step = start + ((n + 1 : ℕ) : α) * step := by push_cast; ring
    dsimp only at h
    by_cases hl : lessEqWithSign eps (start + (n : α) * step + step) finish dt = true
    · rw [if_pos hl] at h
      have hle := (lessEqWithSign_iff hu hdt).mp hl
      cases ha : adaptiveControlled eps (c.tryStep f) (start + (n : α) * step + step) fuel c.init x (start + (n : α) * step) dt with
      | none => rw [ha] at h; simp at h
      | some p =>
        obtain ⟨seen', res⟩ := p
        rw [ha] at h
        cases res with
        | error e => simp at h
        | ok q =>
          obtain ⟨x', t', dt'⟩ := q
          obtain ⟨s, h1, h2⟩ := Option.map_eq_some_iff.mp h
          obtain ⟨s1, s2⟩ := s
          simp only [Prod.mk.injEq] at h2
          obtain ⟨rfl, rfl⟩ := h2
          obtain ⟨k1, k2, k3, k4, -⟩ := adaptiveControlled_inv (P x (start + (n : α) * step)) hu he (hacc _ _) hrej hshort hdir fuel c.init x _ dt seen' x' t' dt' hdt
            (hP0 _ _) (by rw [add_sub_cancel_left]; linarith) ha
          rw [e] at k2 k3 hle
          obtain ⟨n', i1, i2, i3, i4, ⟨rest, i5⟩, i6, i7⟩ := ih _ _ _ _ _ k4 (hQ n x x' t' hq k1 k2 k3) h1
          refine ⟨n', i1, by omega, Or.inr ?_, i4, ⟨_, rfl⟩, ?_, ?_⟩
          · rcases i3 with i3 | i3
            · rw [i3]; exact hle
            · exact i3
          · rw [i5] at i6 ⊢
            rw [List.getLast?_cons_cons]; exact i6
          · rw [List.map_cons, i7, range'_split i2, List.map_cons]
    · rw [if_neg hl] at h
      simp only [Option.some.injEq, Prod.mk.injEq, Except.ok.injEq] at h
      obtain ⟨rfl, rfl⟩ := h
      refine ⟨n, hq, le_refl _, Or.inl rfl, ?_, ⟨_, rfl⟩, by simp, by simp⟩
      by_contra hn
      rw [← e] at hn
      exact hl ((lessEqWithSign_iff hu hdt).mpr (not_lt.mp hn))

end Odeint

end Verif
