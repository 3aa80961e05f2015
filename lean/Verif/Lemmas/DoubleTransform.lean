import Verif.Model.DoubleTransform
import Verif.Lemmas.DoubleVec

/-! # Lemmas on transformations in double precision -/

namespace Verif.DT3

open Verif Verif.Spec Verif.Double Verif.DQuat

theorem one_mul_fin {x : ℝ} (hx : Representable x) (h : |x| < 2 ^ 1024) : (F64.fin 1).mul (.fin x) = .fin x := by
  rw [F64.mul, one_mul, F64.ofExact_fin (by rwa [rnd_exact hx]), rnd_exact hx]

theorem mul_one_fin {x : ℝ} (hx : Representable x) (h : |x| < 2 ^ 1024) : (F64.fin x).mul (.fin 1) = .fin x := by
  rw [F64.mul, mul_one, F64.ofExact_fin (by rwa [rnd_exact hx]), rnd_exact hx]

theorem zero_fin : F64.ofExact (0 : ℝ) = .fin 0 := by
  rw [F64.ofExact_fin (by rw [rnd_zero, abs_zero]; exact pow_pos two_pos _), rnd_zero]

theorem zero_mul_fin (x : ℝ) : (F64.fin 0).mul (.fin x) = .fin 0 := by rw [F64.mul, zero_mul, zero_fin]

theorem mul_zero_fin (x : ℝ) : (F64.fin x).mul (.fin 0) = .fin 0 := by rw [F64.mul, mul_zero, zero_fin]

theorem add_zero_fin {x : ℝ} (hx : Representable x) (h : |x| < 2 ^ 1024) : (F64.fin x).add (.fin 0) = .fin x := by
  rw [F64.add, add_zero, F64.ofExact_fin (by rwa [rnd_exact hx]), rnd_exact hx]

theorem zero_add_fin {x : ℝ} (hx : Representable x) (h : |x| < 2 ^ 1024) : (F64.fin 0).add (.fin x) = .fin x := by
  rw [F64.add, zero_add, F64.ofExact_fin (by rwa [rnd_exact hx]), rnd_exact hx]

theorem zero_add_zero : (F64.fin (0 : ℝ)).add (.fin 0) = .fin 0 := by rw [F64.add, add_zero, zero_fin]

theorem zero_add_ofExact (x : ℝ) : (F64.fin 0).add (F64.ofExact x) = F64.ofExact x := by
  have h := F64.ofExact_valid x
  generalize F64.ofExact x = y at h ⊢
  cases y with
  | fin y => exact zero_add_fin h.1 h.2
  | inf s => rfl
  | nan => rfl

/-- three of four terms: one of the first three and the last -/
theorem sum_two (o : Order4) {x v : ℝ} (hx : Representable x) (h : |x| < 2 ^ 1024) (hv : Representable v) (h' : |v| < 2 ^ 1024) :
    sum o (.fin x) (.fin 0) (.fin 0) (.fin v) = (F64.fin x).add (.fin v) ∧ sum o (.fin 0) (.fin x) (.fin 0) (.fin v) = (F64.fin x).add (.fin v) ∧
      sum o (.fin 0) (.fin 0) (.fin x) (.fin v) = (F64.fin x).add (.fin v) := by
  have e : (F64.fin 0).add ((F64.fin x).add (.fin v)) = (F64.fin x).add (.fin v) := zero_add_ofExact _
  cases o <;>
    simp only [sum, add_zero_fin hx h, zero_add_fin hx h, zero_add_fin hv h', zero_add_zero, e, and_self]

/-- the rounded sum of two numbers with errors -/
theorem near_add {P Q p q A B c k k' : ℝ} (hP : Representable P) (hQ : Representable Q) (ka : |P - p| ≤ c * A + k) (kb : |Q - q| ≤ c * B + k') (hp : |p| ≤ A)
    (hq : |q| ≤ B) : |rnd (P + Q) - (p + q)| ≤ (c + u * (1 + c)) * (A + B) + (1 + u) * (k + k') := by
  have h := rnd_add_error hP hQ
  rw [DLinear.two_neg53] at h
  change _ ≤ u * _ at h
  have e1 : |P + Q| ≤ (1 + c) * (A + B) + (k + k') := by
    have := abs_add_le P Q
    have h1 := abs_sub_abs_le_abs_sub P p
    have h2 := abs_sub_abs_le_abs_sub Q q
    nlinarith
  have e2 : |rnd (P + Q) - (p + q)| ≤ |rnd (P + Q) - (P + Q)| + |P - p| + |Q - q| := by
    have := abs_add_le (rnd (P + Q) - (P + Q)) ((P - p) + (Q - q))
    rw [show rnd (P + Q) - (P + Q) + ((P - p) + (Q - q)) = rnd (P + Q) - (p + q) by ring] at this
    have := abs_add_le (P - p) (Q - q)
    linarith
  have := mul_le_mul_of_nonneg_left e1 u_pos.le
  nlinarith

/-- the computed sum of four numbers -/
noncomputable def sum4 (o : Order4) (a b c d : ℝ) : ℝ :=
  match o with
  | .left => rnd (rnd (rnd (a + b) + c) + d)
  | .pairs => rnd (rnd (a + b) + rnd (c + d))
  | .packets => rnd (rnd (a + c) + rnd (b + d))

/-- the computed product of a row and a column -/
noncomputable def dot4 (o : Order4) (a b c d x y z w : ℝ) : ℝ := sum4 o (rnd (a * x)) (rnd (b * y)) (rnd (c * z)) (rnd (d * w))

theorem consts : u * (1 + u) ≤ 1001 / 1000 * u ∧ u ≤ 1 / 10 ^ 15 ∧ 0 < u := by
  refine ⟨?_, u_small, u_pos⟩
  nlinarith [u_small, u_pos]

theorem pairs_near {A B C D a b c d : ℝ} (hA : Representable A) (hB : Representable B) (hC : Representable C) (hD : Representable D)
    (ka : |A - a| ≤ u * |a| + t) (kb : |B - b| ≤ u * |b| + t) (kc : |C - c| ≤ u * |c| + t) (kd : |D - d| ≤ u * |d| + t) :
    |rnd (rnd (A + B) + rnd (C + D)) - (a + b + c + d)| ≤ 41 / 10 * u * (|a| + |b| + |c| + |d|) + 5 * t := by
  obtain ⟨-, us, u0⟩ := consts
  have t0 := t_pos
  have h1 := near_add hA hB ka kb le_rfl le_rfl
  have h2 := near_add hC hD kc kd le_rfl le_rfl
  have h3 := near_add (rnd_representable _) (rnd_representable _) h1 h2 (abs_add_le _ _) (abs_add_le _ _)
  rw [show a + b + c + d = a + b + (c + d) by ring, show |a| + |b| + |c| + |d| = |a| + |b| + (|c| + |d|) by ring]
  have s0 : 0 ≤ |a| + |b| + (|c| + |d|) := by positivity
  refine h3.trans (add_le_add (mul_le_mul_of_nonneg_right ?_ s0) ?_)
  · generalize u = v at us u0 ⊢
    nlinarith [mul_pos u0 u0]
  · generalize u = v at us u0 ⊢
    nlinarith [mul_pos u0 t0, mul_pos (mul_pos u0 u0) t0]

theorem left_near {A B C D a b c d : ℝ} (hA : Representable A) (hB : Representable B) (hC : Representable C) (hD : Representable D)
    (ka : |A - a| ≤ u * |a| + t) (kb : |B - b| ≤ u * |b| + t) (kc : |C - c| ≤ u * |c| + t) (kd : |D - d| ≤ u * |d| + t) :
    |rnd (rnd (rnd (A + B) + C) + D) - (a + b + c + d)| ≤ 41 / 10 * u * (|a| + |b| + |c| + |d|) + 5 * t := by
  obtain ⟨-, us, u0⟩ := consts
  have t0 := t_pos
  have h1 := near_add hA hB ka kb le_rfl le_rfl
  have m : ∀ {x c' k : ℝ}, u ≤ c' → k ≤ u * |x| + t → k ≤ c' * |x| + t := fun {x c' k} h h' => by nlinarith [abs_nonneg x]
  have h2 := near_add (rnd_representable _) hC h1 (m (by nlinarith) kc) (abs_add_le _ _) le_rfl
  have h3 := near_add (rnd_representable _) hD h2 (m (by
    have k1 : 0 ≤ u * (1 + (u + u * (1 + u))) := by positivity
    have k2 : 0 ≤ u * (1 + u) := by positivity
    linarith) kd) ((abs_add_le _ _).trans (add_le_add_left (abs_add_le _ _) _)) le_rfl
  have s0 : 0 ≤ |a| + |b| + |c| + |d| := by positivity
  refine h3.trans (add_le_add (mul_le_mul_of_nonneg_right ?_ s0) ?_)
  · generalize u = v at us u0 ⊢
    have v2 : v * v ≤ v / 10 ^ 15 := by nlinarith
    have v3 : v * v * v ≤ v / 10 ^ 15 := by nlinarith [mul_pos u0 u0]
    have v4 : v * v * v * v ≤ v / 10 ^ 15 := by nlinarith [mul_pos u0 u0, mul_pos (mul_pos u0 u0) u0]
    nlinarith [mul_pos u0 u0]
  · generalize u = v at us u0 ⊢
    have v1 : v * t ≤ t / 10 ^ 15 := by nlinarith
    have v2 : v * v * t ≤ t / 10 ^ 15 := by nlinarith [mul_pos u0 t0]
    have v3 : v * v * v * t ≤ t / 10 ^ 15 := by nlinarith [mul_pos u0 t0, mul_pos u0 (mul_pos u0 t0)]
    nlinarith

theorem dot4_near (o : Order4) (a b c d x y z w : ℝ) :
    |dot4 o a b c d x y z w - (a * x + b * y + c * z + d * w)| ≤ 41 / 10 * u * (|a * x| + |b * y| + |c * z| + |d * w|) + 5 * t := by
  have r : ∀ x : ℝ, Representable (rnd x) := rnd_representable
  cases o
  · exact left_near (r _) (r _) (r _) (r _) (DVec.mul_near a x) (DVec.mul_near b y) (DVec.mul_near c z) (DVec.mul_near d w)
  · exact pairs_near (r _) (r _) (r _) (r _) (DVec.mul_near a x) (DVec.mul_near b y) (DVec.mul_near c z) (DVec.mul_near d w)
  · have := pairs_near (r _) (r _) (r _) (r _) (DVec.mul_near a x) (DVec.mul_near c z) (DVec.mul_near b y) (DVec.mul_near d w)
    rw [show a * x + b * y + c * z + d * w = a * x + c * z + b * y + d * w by ring,
      show |a * x| + |b * y| + |c * z| + |d * w| = |a * x| + |c * z| + |b * y| + |d * w| by ring]
    exact this

theorem sum_fin (o : Order4) {a b c d : ℝ} (ha : |a| ≤ 2 ^ 1000) (hb : |b| ≤ 2 ^ 1000) (hc : |c| ≤ 2 ^ 1000) (hd : |d| ≤ 2 ^ 1000) :
    sum o (.fin a) (.fin b) (.fin c) (.fin d) = .fin (sum4 o a b c d) := by
  have p : (2 : ℝ) ^ 1000 ≤ 2 ^ 1001 := pow_le_pow_right₀ one_le_two (by norm_num)
  have p' : (2 : ℝ) ^ 1001 ≤ 2 ^ 1002 := pow_le_pow_right₀ one_le_two (by norm_num)
  cases o
  · obtain ⟨e1, b1⟩ := DVec.add_fin2 (n := 1000) (by norm_num) ha hb
    obtain ⟨e2, b2⟩ := DVec.add_fin2 (n := 1001) (by norm_num) b1 (hc.trans p)
    obtain ⟨e3, -⟩ := DVec.add_fin2 (n := 1002) (by norm_num) b2 (hd.trans (p.trans p'))
    simp only [sum, sum4, e1, e2, e3]
  · obtain ⟨e1, b1⟩ := DVec.add_fin2 (n := 1000) (by norm_num) ha hb
    obtain ⟨e2, b2⟩ := DVec.add_fin2 (n := 1000) (by norm_num) hc hd
    obtain ⟨e3, -⟩ := DVec.add_fin2 (n := 1001) (by norm_num) b1 b2
    simp only [sum, sum4, e1, e2, e3]
  · obtain ⟨e1, b1⟩ := DVec.add_fin2 (n := 1000) (by norm_num) ha hc
    obtain ⟨e2, b2⟩ := DVec.add_fin2 (n := 1000) (by norm_num) hb hd
    obtain ⟨e3, -⟩ := DVec.add_fin2 (n := 1001) (by norm_num) b1 b2
    simp only [sum, sum4, e1, e2, e3]

theorem dot_fin (o : Order4) {a b c d x y z w : ℝ} (ha : |a| ≤ 2 ^ 500) (hb : |b| ≤ 2 ^ 500) (hc : |c| ≤ 2 ^ 500) (hd : |d| ≤ 2 ^ 500) (hx : |x| ≤ 2 ^ 500)
    (hy : |y| ≤ 2 ^ 500) (hz : |z| ≤ 2 ^ 500) (hw : |w| ≤ 2 ^ 500) :
    sum o ((F64.fin a).mul (.fin x)) ((F64.fin b).mul (.fin y)) ((F64.fin c).mul (.fin z)) ((F64.fin d).mul (.fin w)) = .fin (dot4 o a b c d x y z w) := by
  obtain ⟨e1, b1⟩ := DVec.mul_fin2 ha hx
  obtain ⟨e2, b2⟩ := DVec.mul_fin2 hb hy
  obtain ⟨e3, b3⟩ := DVec.mul_fin2 hc hz
  obtain ⟨e4, b4⟩ := DVec.mul_fin2 hd hw
  rw [e1, e2, e3, e4]
  exact sum_fin o b1 b2 b3 b4

end Verif.DT3
