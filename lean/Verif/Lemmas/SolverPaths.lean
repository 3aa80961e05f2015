import Verif.Lemmas.SolverCalls
import Mathlib.Tactic.LinearCombination

/-!
# Lemmas about the states a stepper without step control goes through
-/

namespace Verif

open Odeint Spec

variable {α V W M : Type} [Field α] [LinearOrder α]

namespace Odeint

/-! ## What all steps keep -/

theorem timesPlainTo_keep {eps T dt : α} {step : V → α → α → V} (K : V → Prop) (hK : ∀ x t c, K x → K (step x t c)) :
    ∀ fuel x t cur y cur', K x → timesPlainTo eps step T dt fuel x t cur = some (y, cur') → K y := by
  intro fuel
  induction fuel with
  | zero => intro x t cur y cur' _ h; simp [timesPlainTo] at h
  | succ fuel ih =>
    intro x t cur y cur' hx h
    unfold timesPlainTo at h
    split at h
    · exact ih _ _ _ _ _ (hK _ _ _ hx) h
    · obtain ⟨rfl, -⟩ : x = y ∧ cur = cur' := by simpa using h
      exact hx

theorem timesPlain_keep {eps dt : α} {step : V → α → α → V} {fuel : ℕ} (K : V → Prop) (hK : ∀ x t c, K x → K (step x t c)) :
    ∀ (Ts : List α) x cur t seen, K x → timesPlain eps step dt fuel x cur t Ts = some seen → ∀ p ∈ seen, K p.1 := by
  intro Ts
  induction Ts with
  | nil => intro x cur t seen hx h p hp; obtain rfl := Option.some.inj h; obtain rfl := List.mem_singleton.mp hp; exact hx
  | cons T Ts ih =>
    intro x cur t seen hx h p hp
    unfold timesPlain at h
    cases hl : timesPlainTo eps step T dt fuel x t cur with
    | none => rw [hl] at h; simp at h
    | some q =>
      rw [hl] at h
      obtain ⟨tl, h1, rfl⟩ := Option.map_eq_some_iff.mp h
      rcases List.mem_cons.mp hp with rfl | hp
      · exact hx
      · exact ih _ _ _ _ (timesPlainTo_keep K hK _ _ _ _ _ _ hx hl) h1 p hp

theorem constPlain_keep {eps start finish dt : α} {step : V → α → α → V} (K : V → Prop) (hK : ∀ x t c, K x → K (step x t c)) :
    ∀ fuel x (n : ℕ) r, K x → constPlain eps step start finish dt fuel x n = some r → K r.2.1 ∧ ∀ p ∈ r.1, K p.1 := by
  intro fuel
  induction fuel with
  | zero => intro x n r _ h; simp [constPlain] at h
  | succ fuel ih =>
    intro x n r hx h
    unfold constPlain at h
    dsimp only at h
    split at h
    · obtain ⟨r', h1, rfl⟩ := Option.map_eq_some_iff.mp h
      obtain ⟨i1, i2⟩ := ih _ _ _ (hK _ _ _ hx) h1
      refine ⟨i1, fun p hp => ?_⟩
      rcases List.mem_cons.mp hp with rfl | hp
      · exact hx
      · exact i2 p hp
    · obtain rfl := Option.some.inj h
      exact ⟨hx, fun p hp => by obtain rfl := List.mem_singleton.mp hp; exact hx⟩

theorem adaptivePlain_keep {eps start finish dt : α} {step : V → α → α → V} {fuel : ℕ} {x : V} {r : List (V × α) × V} (K : V → Prop) (hK : ∀ x t c, K x → K (step x t c))
    (hx : K x) (h : adaptivePlain eps step start finish dt fuel x = some r) : K r.2 ∧ ∀ p ∈ r.1, K p.1 := by
  unfold adaptivePlain at h
  cases hc : constPlain eps step start finish dt fuel x 0 with
  | none => rw [hc] at h; simp at h
  | some q =>
    obtain ⟨i1, i2⟩ := constPlain_keep K hK _ _ _ _ hx hc
    rw [hc] at h
    dsimp only at h i1 i2
    split at h
    · obtain rfl := Option.some.inj h
      refine ⟨hK _ _ _ i1, fun p hp => ?_⟩
      rcases List.mem_append.mp hp with hp | hp
      · exact i2 p hp
      · obtain rfl := List.mem_singleton.mp hp; exact hK _ _ _ i1
    · obtain rfl := Option.some.inj h
      exact ⟨i1, i2⟩

/-! ## Images of runs -/

theorem timesPlainTo_map {eps T dt : α} {step : V → α → α → V} {step' : W → α → α → W} (L : V → W) (hL : ∀ x t c, L (step x t c) = step' (L x) t c) :
    ∀ fuel x t cur, timesPlainTo eps step' T dt fuel (L x) t cur = (timesPlainTo eps step T dt fuel x t cur).map fun p => (L p.1, p.2) := by
  intro fuel
  induction fuel with
  | zero => intro x t cur; rfl
  | succ fuel ih =>
    intro x t cur
    unfold timesPlainTo
    split
    · dsimp only; rw [← hL]; exact ih _ _ _
    · rfl

theorem timesPlain_map {eps dt : α} {step : V → α → α → V} {step' : W → α → α → W} {fuel : ℕ} (L : V → W) (hL : ∀ x t c, L (step x t c) = step' (L x) t c) :
    ∀ (Ts : List α) x cur t, timesPlain eps step' dt fuel (L x) cur t Ts = (timesPlain eps step dt fuel x cur t Ts).map (List.map fun p => (L p.1, p.2)) := by
  intro Ts
  induction Ts with
  | nil => intro x cur t; rfl
  | cons T Ts ih =>
    intro x cur t
    unfold timesPlain
    rw [timesPlainTo_map L hL]
    cases timesPlainTo eps step T dt fuel x t cur with
    | none => rfl
    | some p =>
      obtain ⟨y, c⟩ := p
      simp only [Option.map_some, ih, Option.map_map]
      congr 1

theorem constPlain_map {eps start finish dt : α} {step : V → α → α → V} {step' : W → α → α → W} (L : V → W) (hL : ∀ x t c, L (step x t c) = step' (L x) t c) :
    ∀ fuel x (n : ℕ), constPlain eps step' start finish dt fuel (L x) n =
      (constPlain eps step start finish dt fuel x n).map fun r => (r.1.map fun p => (L p.1, p.2), L r.2.1, r.2.2) := by
  intro fuel
  induction fuel with
  | zero => intro x n; rfl
  | succ fuel ih =>
    intro x n
    unfold constPlain
    dsimp only
    split
    · rw [← hL, ih, Option.map_map, Option.map_map]; rfl
    · rfl

theorem adaptivePlain_map {eps start finish dt : α} {step : V → α → α → V} {step' : W → α → α → W} {fuel : ℕ} (L : V → W) (hL : ∀ x t c, L (step x t c) = step' (L x) t c)
    (x : V) : adaptivePlain eps step' start finish dt fuel (L x) =
      (adaptivePlain eps step start finish dt fuel x).map fun r => (r.1.map fun p => (L p.1, p.2), L r.2) := by
  unfold adaptivePlain
  rw [constPlain_map L hL]
  cases constPlain eps step start finish dt fuel x 0 with
  | none => rfl
  | some r =>
    obtain ⟨seen, y, n⟩ := r
    simp only [Option.map_some]
    split
    · simp [hL]
    · rfl

/-! ## Equal steps and a last one -/

/-- `n` equal steps -/
def walk (step : V → α → α → V) (dt : α) : ℕ → V → α → V
  | 0, x, _ => x
  | n + 1, x, t => walk step dt n (step x t dt) (t + dt)

theorem walk_shift {step : V → α → α → V} {dt a : α} : ∀ n x t, walk (fun x t c => step x (t - a) c) dt n x t = walk step dt n x (t - a) := by
  intro n
  induction n with
  | zero => intro x t; rfl
  | succ n ih =>
    intro x t
    simp only [walk]
    rw [ih, sub_add_eq_add_sub]

/-- where the walk from `t` to `T` ends: as many equal steps as fit, then the rest of the way -/
def land (step : V → α → α → V) (dt T : α) (n : ℕ) (x : V) (t : α) : V :=
  if T = t + n * dt then walk step dt n x t else step (walk step dt n x t) (t + n * dt) (T - (t + n * dt))

theorem land_shift {step : V → α → α → V} {dt a T : α} (n : ℕ) (x : V) (t : α) : land (fun x t c => step x (t - a) c) dt T n x t = land step dt (T - a) n x (t - a) := by
  unfold land
  rw [walk_shift]
  have e : T - a = t - a + n * dt ↔ T = t + n * dt := by constructor <;> intro h <;> linear_combination h
  have e1 : t + n * dt - a = t - a + n * dt := by ring
  have e2 : T - (t + n * dt) = T - a - (t - a + n * dt) := by ring
  by_cases h : T = t + n * dt
  · rw [if_pos h, if_pos (e.mpr h)]
  · rw [if_neg h, if_neg (fun h' => h (e.mp h'))]
    dsimp only
    rw [e1, e2]

variable [IsStrictOrderedRing α]

theorem timesPlainTo_land {T dt u : α} {step : V → α → α → V} (hu : u = 1 ∨ u = -1) (hdt : 0 < u * dt) :
    ∀ fuel x t cur y cur', 0 < u * cur → 0 ≤ u * (T - t) → timesPlainTo 0 step T dt fuel x t cur = some (y, cur') →
      ∃ n : ℕ, 0 ≤ u * (T - (t + n * dt)) ∧ u * (T - (t + n * dt)) < u * dt ∧ y = land step dt T n x t := by
  have hu0 : u ≠ 0 := by rcases hu with rfl | rfl <;> norm_num
  intro fuel
  induction fuel with
  | zero => intro x t cur y cur' _ _ h; simp [timesPlainTo] at h
  | succ fuel ih =>
    intro x t cur y cur' hc ht h
    unfold timesPlainTo at h
    by_cases hl : lessWithSign 0 t T cur = true
    · rw [if_pos hl] at h
      have hlt := (lessWithSign_iff hu hc).mp hl
      have hm := minAbs_sign (g := T - t) hu hdt
      dsimp only at h
      rcases le_or_gt (u * dt) (u * (T - t)) with h1 | h1
      · rw [min_eq_left h1] at hm
        have hm' : minAbs dt (T - t) = dt := mul_left_cancel₀ hu0 hm
        rw [hm'] at h
        have e : u * (T - (t + dt)) = u * (T - t) - u * dt := by ring
        obtain ⟨n, n1, n2, n3⟩ := ih _ _ _ _ _ hdt (by linarith) h
        have en : t + dt + n * dt = t + ((n + 1 : ℕ) : α) * dt := by push_cast; ring
        refine ⟨n + 1, by rwa [← en], by rwa [← en], ?_⟩
        rw [n3]
        unfold land
        rw [en]
        rfl
      · rw [min_eq_right h1.le] at hm
        have hm' : minAbs dt (T - t) = T - t := mul_left_cancel₀ hu0 hm
        rw [hm', add_sub_cancel] at h
        have h2 : timesPlainTo 0 step T dt fuel (step x t (T - t)) T (T - t) = some (y, cur') := h
        have h3 : y = step x t (T - t) := by
          cases fuel with
          | zero => simp [timesPlainTo] at h2
          | succ fuel =>
            unfold timesPlainTo at h2
            rw [if_neg] at h2
            · exact (Prod.mk.inj (Option.some.inj h2)).1.symm
            · rw [lessWithSign_iff hu hlt]; simp
        refine ⟨0, by simpa using ht, by simpa using h1, ?_⟩
        have hTt : T ≠ t := by rintro rfl; simp at hlt
        simp [land, h3, walk, hTt]
    · rw [if_neg hl] at h
      obtain ⟨rfl, rfl⟩ : x = y ∧ cur = cur' := by simpa using h
      have h1 : u * (T - t) ≤ 0 := by
        by_contra hn
        exact hl ((lessWithSign_iff hu hc).mpr (not_le.mp hn))
      have h2 : T = t := by
        have : u * (T - t) = 0 := le_antisymm h1 ht
        rcases mul_eq_zero.mp this with h | h
        · exact absurd h hu0
        · linarith
      refine ⟨0, by simp [h2], by simpa [h2] using hdt, by simp [land, h2, walk]⟩

omit [IsStrictOrderedRing α] in
theorem constPlain_walk {eps start finish dt : α} {step : V → α → α → V} :
    ∀ fuel x (n : ℕ) r, constPlain eps step start finish dt fuel x n = some r → n ≤ r.2.2 ∧ r.2.1 = walk step dt (r.2.2 - n) x (start + n * dt) := by
  intro fuel
  induction fuel with
  | zero => intro x n r h; simp [constPlain] at h
  | succ fuel ih =>
    intro x n r h
    unfold constPlain at h
    dsimp only at h
    split at h
    · obtain ⟨r', h1, rfl⟩ := Option.map_eq_some_iff.mp h
      obtain ⟨i1, i2⟩ := ih _ _ _ h1
      refine ⟨by dsimp only; omega, ?_⟩
      dsimp only
      have e : start + (n : α) * dt + dt = start + ((n + 1 : ℕ) : α) * dt := by push_cast; ring
      rw [i2, show r'.2.2 - n = (r'.2.2 - (n + 1)) + 1 by omega, walk, e]
    · obtain rfl := Option.some.inj h
      simp [walk]

theorem adaptivePlain_land {finish start dt u : α} {step : V → α → α → V} (hu : u = 1 ∨ u = -1) (hdt : 0 < u * dt) (hse : 0 ≤ u * (finish - start)) {fuel : ℕ} {x : V}
    {r : List (V × α) × V} (h : adaptivePlain 0 step start finish dt fuel x = some r) :
    ∃ n : ℕ, 0 ≤ u * (finish - (start + n * dt)) ∧ u * (finish - (start + n * dt)) < u * dt ∧ r.2 = land step dt finish n x start := by
  have hu0 : u ≠ 0 := by rcases hu with rfl | rfl <;> norm_num
  unfold adaptivePlain at h
  cases hc : constPlain 0 step start finish dt fuel x 0 with
  | none => rw [hc] at h; simp at h
  | some q =>
    obtain ⟨seen, y, n⟩ := q
    rw [hc] at h
    obtain ⟨-, -, i3, i4, -⟩ := constPlain_inv (eps := 0) (start := start) (finish := finish) (step := step) (fun _ _ => True) hu hdt (fun _ _ _ => trivial) fuel x 0 _ trivial hc
    obtain ⟨-, j2⟩ := constPlain_walk _ _ _ _ hc
    dsimp only at i3 i4 j2 h
    simp only [Nat.cast_zero, zero_mul, add_zero, Nat.sub_zero] at j2
    rw [mul_comm dt] at h
    have e : u * (start + (n : α) * dt - finish) = -(u * (finish - (start + (n : α) * dt))) := by ring
    have h0 : 0 ≤ u * (finish - (start + (n : α) * dt)) := by
      rcases i3 with i3 | i3
      · rw [i3]; simpa using hse
      · rw [e] at i3; linarith
    have e' : u * (start + ((n + 1 : ℕ) : α) * dt - finish) = u * dt - u * (finish - (start + (n : α) * dt)) := by push_cast; ring
    refine ⟨n, h0, by rw [e'] at i4; linarith, ?_⟩
    by_cases hl : lessWithSign 0 (start + (n : α) * dt) finish dt = true
    · rw [if_pos hl] at h
      obtain rfl := Option.some.inj h
      have hlt := (lessWithSign_iff hu hdt).mp hl
      have hne : finish ≠ start + n * dt := by intro hh; rw [hh] at hlt; simp at hlt
      dsimp only
      rw [land, if_neg hne, j2]
    · rw [if_neg hl] at h
      obtain rfl := Option.some.inj h
      have h1 : u * (finish - (start + (n : α) * dt)) ≤ 0 := by
        by_contra hn
        exact hl ((lessWithSign_iff hu hdt).mpr (not_le.mp hn))
      have h2 : finish = start + n * dt := by
        rcases mul_eq_zero.mp (le_antisymm h1 h0) with h | h
        · exact absurd h hu0
        · linarith
      rw [land, if_pos h2, ← j2]

/-- the number of equal steps that fit is unique -/
theorem fits_unique {u d dt : α} (hdt : 0 < u * dt) {n m : ℕ} (hn : 0 ≤ u * (d - n * dt)) (hn' : u * (d - n * dt) < u * dt) (hm : 0 ≤ u * (d - m * dt))
    (hm' : u * (d - m * dt) < u * dt) : n = m := by
  have key : ∀ {n m : ℕ}, 0 ≤ u * (d - n * dt) → u * (d - m * dt) < u * dt → n ≤ m := by
    intro n m h1 h2
    by_contra hc
    have hc' : (m : α) + 1 ≤ n := by exact_mod_cast not_le.mp hc
    have := mul_le_mul_of_nonneg_right hc' hdt.le
    have e1 : u * (d - n * dt) = u * d - n * (u * dt) := by ring
    have e2 : u * (d - m * dt) = u * d - m * (u * dt) := by ring
    rw [e1] at h1; rw [e2] at h2
    linarith
  exact le_antisymm (key hn hm') (key hm hn')

end Odeint

end Verif
