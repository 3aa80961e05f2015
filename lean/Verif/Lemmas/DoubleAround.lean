import Verif.Model.DoubleAround
import Verif.Props.DoubleTransform
import Verif.Props.DoubleLine2
import Verif.Lemmas.DoubleHalfTurn
import Verif.Props.DoubleTurn
import Verif.Lemmas.DoubleShortest
import Verif.Lemmas.DoublePlane
import Verif.Spec.DoubleEuler

/-! # Lemmas on rotations as transformations in double precision -/

namespace Verif.Props

open Verif Verif.Spec Verif.Double

namespace Around

theorem sum_one (q : Order4) {x : ℝ} (hx : Representable x) (h : |x| < 2 ^ 1024) :
    DT3.sum q (.fin x) (.fin 0) (.fin 0) (.fin 0) = .fin x ∧ DT3.sum q (.fin 0) (.fin x) (.fin 0) (.fin 0) = .fin x ∧ DT3.sum q (.fin 0) (.fin 0) (.fin x) (.fin 0) = .fin x ∧
      DT3.sum q (.fin 0) (.fin 0) (.fin 0) (.fin x) = .fin x := by
  cases q <;> simp [DT3.sum, DT3.add_zero_fin hx h, DT3.zero_add_fin hx h, DT3.zero_add_zero]

/-- the rows of a translation times a rotation -/
theorem left_rows (q : Order4) {M : Fin 3 → Fin 3 → ℝ} (hM : ∀ i j, Representable (M i j) ∧ |M i j| < 2 ^ 1024) {p : V3} (hp : FiniteDoubles p) {T : Fin 4 → Fin 4 → F64 ℝ}
    (hT : DT3.Translation (doubles p) = .ok T) :
    DT3.mul q T (DT3.ofMatrix (entries M)) 0 = ![.fin (M 0 0), .fin (M 1 0), .fin (M 2 0), .fin p.x] ∧ DT3.mul q T (DT3.ofMatrix (entries M)) 1 = ![.fin (M 0 1), .fin (M 1 1), .fin (M 2 1), .fin p.y] ∧
      DT3.mul q T (DT3.ofMatrix (entries M)) 2 = ![.fin (M 0 2), .fin (M 1 2), .fin (M 2 2), .fin p.z] := by
  rw [DT3.Translation, doubles_defined] at hT
  obtain rfl := Except.ok.inj hT
  have k1 : ∀ i j, (F64.fin 1).mul (.fin (M i j)) = .fin (M i j) := fun i j => DT3.one_mul_fin (hM i j).1 (hM i j).2
  have s := fun i j => sum_one q (hM i j).1 (hM i j).2
  obtain ⟨⟨x1, x2⟩, ⟨y1, y2⟩, z1, z2⟩ := hp
  refine ⟨?_, ?_, ?_⟩ <;> funext j <;> fin_cases j <;>
    simp [DT3.mul, DT3.ofMatrix, entries, doubles, k1, DT3.zero_mul_fin, DT3.mul_zero_fin, s, DT3.mul_one_fin, x1, x2, y1, y2, z1, z2, sum_one]

/-- a row times a translation back -/
theorem right_row (q : Order4) {a b c d : ℝ} (ha : Representable a ∧ |a| ≤ 2 ^ 500) (hb : Representable b ∧ |b| ≤ 2 ^ 500) (hc : Representable c ∧ |c| ≤ 2 ^ 500) (hd : |d| ≤ 2 ^ 500)
    {p : V3} (hp : Bounded 499 p) {T : Fin 4 → Fin 4 → F64 ℝ} (hT : DT3.Translation ⟨.fin (-p.x), .fin (-p.y), .fin (-p.z)⟩ = .ok T) {m : Fin 4 → Fin 4 → F64 ℝ} {i : Fin 4}
    (hm : m i = ![.fin a, .fin b, .fin c, .fin d]) : DT3.mul q m T i = ![.fin a, .fin b, .fin c, .fin (DT3.dot4 q a b c d (-p.x) (-p.y) (-p.z) 1)] := by
  have df : DVec.isDefined ⟨.fin (-p.x), .fin (-p.y), .fin (-p.z)⟩ = true := by simp [DVec.isDefined]
  rw [DT3.Translation, df] at hT
  obtain rfl := Except.ok.inj hT
  have P : ∀ {x : ℝ}, |x| ≤ 2 ^ 499 → |-x| ≤ 2 ^ 500 := fun {x} h => by rw [abs_neg]; exact h.trans (pow_le_pow_right₀ one_le_two (by norm_num))
  have L : ∀ {x : ℝ}, |x| ≤ 2 ^ 500 → |x| < 2 ^ 1024 := fun {x} h => h.trans_lt (pow_lt_pow_right₀ one_lt_two (by norm_num))
  have w : |(1 : ℝ)| ≤ 2 ^ 500 := by rw [abs_one]; exact one_le_pow₀ one_le_two
  have e := DT3.dot_fin q ha.2 hb.2 hc.2 hd (P hp.1) (P hp.2.1) (P hp.2.2) w
  funext j
  fin_cases j
  · simp [DT3.mul, hm, DT3.mul_one_fin ha.1 (L ha.2), DT3.mul_zero_fin, sum_one q ha.1 (L ha.2)]
  · simp [DT3.mul, hm, DT3.mul_one_fin hb.1 (L hb.2), DT3.mul_zero_fin, sum_one q hb.1 (L hb.2)]
  · simp [DT3.mul, hm, DT3.mul_one_fin hc.1 (L hc.2), DT3.mul_zero_fin, sum_one q hc.1 (L hc.2)]
  · simp only [DT3.mul, hm]
    exact e

/-- what a row of size four does to a point -/
theorem apply_row (q : Order4) {a b c d : ℝ} (ha : |a| ≤ 2 ^ 500) (hb : |b| ≤ 2 ^ 500) (hc : |c| ≤ 2 ^ 500) (hd : |d| ≤ 2 ^ 500) {x : V3} (hx : Bounded 499 x) {w : ℝ} (hw : |w| ≤ 1)
    {m : Fin 4 → Fin 4 → F64 ℝ} {i : Fin 4} (hm : m i = ![.fin a, .fin b, .fin c, .fin d]) : DT3.row q m i (doubles x) (.fin w) = .fin (DT3.dot4 q a b c d x.x x.y x.z w) := by
  have P : ∀ {x : ℝ}, |x| ≤ 2 ^ 499 → |x| ≤ 2 ^ 500 := fun {x} h => h.trans (pow_le_pow_right₀ one_le_two (by norm_num))
  rw [DT3.row, hm]
  exact DT3.dot_fin q ha hb hc hd (P hx.1) (P hx.2.1) (P hx.2.2) (hw.trans (one_le_pow₀ one_le_two))

/-- the error of a row applied to a vector -/
theorem row_error {a b c x y z n : ℝ} (ha : |a| ≤ 1001 / 1000) (hb : |b| ≤ 1001 / 1000) (hc : |c| ≤ 1001 / 1000) (hn : |x| + |y| + |z| ≤ n) :
    |a * x| + |b * y| + |c * z| ≤ 1001 / 1000 * n := by
  rw [abs_mul, abs_mul, abs_mul]
  have h1 := mul_le_mul_of_nonneg_right ha (abs_nonneg x)
  have h2 := mul_le_mul_of_nonneg_right hb (abs_nonneg y)
  have h3 := mul_le_mul_of_nonneg_right hc (abs_nonneg z)
  linarith

theorem abs_sum_le (v : V3) : |v.x| + |v.y| + |v.z| ≤ 1733 / 1000 * ‖pure v‖ := by
  have h := DQuat.norm_hamilton ⟨v.x, v.y, v.z, 0⟩
  have e : hamilton ⟨v.x, v.y, v.z, 0⟩ = pure v := rfl
  rw [e] at h
  refine abs_le_of_sq_le_sq' ?_ (by positivity) |>.2
  have := sq_abs v.x
  have := sq_abs v.y
  have := sq_abs v.z
  nlinarith [sq_nonneg (|v.x| - |v.y|), sq_nonneg (|v.x| - |v.z|), sq_nonneg (|v.y| - |v.z|)]

theorem pure_each {v : V3} {k : ℝ} (h1 : |v.x| ≤ k) (h2 : |v.y| ≤ k) (h3 : |v.z| ≤ k) : ‖pure v‖ ≤ 1733 / 1000 * k := by
  rw [pure_length]; exact norm_le_each h1 h2 h3

/-- a rotation and its error, turned round: what is near a rotation, transposed, is near the opposite rotation -/
theorem turn_transpose {M : Fin 3 → Fin 3 → ℝ} {Q : Quaternion ℝ} (hQ : ‖Q‖ = 1) {g : ℝ} (hg : 0 ≤ g) (h : ∀ v, ‖pure (turn M v) - star Q * (pure v * Q)‖ ≤ g * ‖pure v‖) (v : V3) :
    ‖pure (turn (fun i j => M j i) v) - Q * (pure v * star Q)‖ ≤ g * ‖pure v‖ := by
  obtain ⟨q1, q2⟩ := unit_star hQ
  -- the difference is itself without a real part
  obtain ⟨w, hw⟩ : ∃ w : V3, pure (turn (fun i j => M j i) v) - Q * (pure v * star Q) = pure w := by
    have : (Q * (pure v * star Q)).re = 0 := by
      simp only [Quaternion.re_mul, Quaternion.imI_mul, Quaternion.imJ_mul, Quaternion.imK_mul, Quaternion.re_star, Quaternion.imI_star, Quaternion.imJ_star, Quaternion.imK_star]
      rw [show (pure v).re = 0 from rfl]; ring
    refine ⟨⟨(pure (turn (fun i j => M j i) v) - Q * (pure v * star Q)).imI, (pure (turn (fun i j => M j i) v) - Q * (pure v * star Q)).imJ, (pure (turn (fun i j => M j i) v) - Q * (pure v * star Q)).imK⟩, ?_⟩
    ext
    · rw [Quaternion.re_sub, this]; exact sub_zero _
    · rfl
    · rfl
    · rfl
  rw [hw]
  have key : inner ℝ (pure w) (pure w) = inner ℝ (pure v) (pure (turn M w) - star Q * (pure w * Q)) := by
    have e1 : inner ℝ (pure w) (pure w) = inner ℝ (pure (turn (fun i j => M j i) v)) (pure w) - inner ℝ (Q * (pure v * star Q)) (pure w) := by
      rw [← inner_sub_left, hw]
    have e2 : inner ℝ (pure (turn (fun i j => M j i) v)) (pure w) = inner ℝ (pure v) (pure (turn M w)) := by
      rw [Quaternion.inner_def, Quaternion.inner_def, star_pure, star_pure]
      simp only [Quaternion.re_mul, mul_neg, Quaternion.re_neg]
      simp only [pure, hamilton, turn]
      ring
    have e3 : inner ℝ (Q * (pure v * star Q)) (pure w) = inner ℝ (pure v) (star Q * (pure w * Q)) := by
      rw [Quaternion.inner_def, Quaternion.inner_def]
      simp only [star_mul, star_star, star_pure]
      simp only [Quaternion.re_mul, Quaternion.imI_mul, Quaternion.imJ_mul, Quaternion.imK_mul, Quaternion.re_star, Quaternion.imI_star, Quaternion.imJ_star, Quaternion.imK_star, Quaternion.re_neg, Quaternion.imI_neg, Quaternion.imJ_neg, Quaternion.imK_neg]
      ring
    rw [e1, e2, e3, inner_sub_right]
  have c := real_inner_le_norm (pure v) (pure (turn M w) - star Q * (pure w * Q))
  rw [← key, real_inner_self_eq_norm_sq] at c
  have c' := mul_le_mul_of_nonneg_left (h w) (norm_nonneg (pure v))
  by_cases z : ‖pure w‖ = 0
  · rw [z]; positivity
  · have z0 : 0 < ‖pure w‖ := lt_of_le_of_ne (norm_nonneg _) (Ne.symm z)
    refine le_of_mul_le_mul_right ?_ z0
    nlinarith

/-- the entries of what is near a rotation -/
theorem entry_le {M : Fin 3 → Fin 3 → ℝ} {Q : Quaternion ℝ} (hQ : ‖Q‖ = 1) {g : ℝ} (h : ∀ v, ‖pure (turn M v) - star Q * (pure v * Q)‖ ≤ g * ‖pure v‖) (i j : Fin 3) : |M i j| ≤ 1 + g := by
  have nv : ∀ {v : V3}, ‖pure v‖ = 1 → ‖pure (turn M v)‖ ≤ 1 + g := fun {v} n => by
    have h1 := h v
    have h2 : ‖star Q * (pure v * Q)‖ = 1 := by rw [norm_mul, norm_mul, norm_star, hQ, n]; norm_num
    have h3 := norm_sub_norm_le (pure (turn M v)) (star Q * (pure v * Q))
    rw [n] at h1
    linarith
  have ux : ‖pure ⟨1, 0, 0⟩‖ = 1 := by rw [pure_length]; simp [V3.norm, V3.normSq, V3.dot]
  have uy : ‖pure ⟨0, 1, 0⟩‖ = 1 := by rw [pure_length]; simp [V3.norm, V3.normSq, V3.dot]
  have uz : ‖pure ⟨0, 0, 1⟩‖ = 1 := by rw [pure_length]; simp [V3.norm, V3.normSq, V3.dot]
  have c := fun v => DQuat.component_le ⟨(turn M v).x, (turn M v).y, (turn M v).z, 0⟩
  fin_cases j
  · have := (c ⟨1, 0, 0⟩)
    fin_cases i
    · exact le_trans (by simpa [turn, pure] using this.1) (nv ux)
    · exact le_trans (by simpa [turn, pure] using this.2.1) (nv ux)
    · exact le_trans (by simpa [turn, pure] using this.2.2.1) (nv ux)
  · have := (c ⟨0, 1, 0⟩)
    fin_cases i
    · exact le_trans (by simpa [turn, pure] using this.1) (nv uy)
    · exact le_trans (by simpa [turn, pure] using this.2.1) (nv uy)
    · exact le_trans (by simpa [turn, pure] using this.2.2.1) (nv uy)
  · have := (c ⟨0, 0, 1⟩)
    fin_cases i
    · exact le_trans (by simpa [turn, pure] using this.1) (nv uz)
    · exact le_trans (by simpa [turn, pure] using this.2.1) (nv uz)
    · exact le_trans (by simpa [turn, pure] using this.2.2.1) (nv uz)

theorem add_rep {x y : F64 ℝ} {z : ℝ} (h : x.add y = .fin z) : Representable z := by
  cases x with
  | fin x => cases y with
    | fin y => have := F64.ofExact_valid (x + y); rw [F64.add] at h; rw [h] at this; exact this.1
    | inf s => cases h
    | nan => cases h
  | inf s => cases y with
    | fin y => cases h
    | inf s' => rw [F64.add] at h; split_ifs at h
    | nan => cases h
  | nan => cases h

/-- the coefficients of the matrix of a rotation vector are numbers of the format -/
theorem ofVector_rep {n : DVec} {c s : F64 ℝ} {M : Fin 3 → Fin 3 → ℝ} (h : DRot.ofVector n c s = entries M) (i j : Fin 3) : Representable (M i j) := by
  have e := congrFun (congrFun h i) j
  fin_cases i <;> fin_cases j <;> exact add_rep e

theorem vector_rep (o : Bool) {eps : F64 ℝ} {sin cos : ℝ → ℝ} {r : DRotVec} {M : Fin 3 → Fin 3 → ℝ} (h : DRot.RotationVector o eps sin cos r = .ok (entries M)) (i j : Fin 3) :
    Representable (M i j) := by
  rw [DRot.RotationVector] at h
  split_ifs at h
  obtain ⟨a, -, h2⟩ := ok_of_bind h
  exact ofVector_rep (ctor_returns o eps _ h2).symm i j

/-- the error of a row made for a rotation about a point -/
theorem around_component (q q' : Order4) {a b c x y z p1 p2 p3 v n m : ℝ} (ha : |a| ≤ 1001 / 1000) (hb : |b| ≤ 1001 / 1000) (hc : |c| ≤ 1001 / 1000)
    (hn : |x| + |y| + |z| ≤ n) (hm : |p1| + |p2| + |p3| ≤ m) (hv : |v| ≤ m) :
    |DT3.dot4 q' a b c (DT3.dot4 q a b c v (-p1) (-p2) (-p3) 1) x y z 1 - (v + (a * (x - p1) + b * (y - p2) + c * (z - p3)))| ≤ 42 / 10 * DQuat.u * n + 168 / 10 * DQuat.u * m + 11 * DQuat.t := by
  have u0 := DQuat.u_pos
  have us := DQuat.u_small
  have t0 := DQuat.t_pos
  have k1 := DT3.dot4_near q a b c v (-p1) (-p2) (-p3) 1
  generalize DT3.dot4 q a b c v (-p1) (-p2) (-p3) 1 = k at *
  have k2 := DT3.dot4_near q' a b c k x y z 1
  generalize DT3.dot4 q' a b c k x y z 1 = b' at *
  have r1 := row_error ha hb hc hn
  have r2 := row_error (x := -p1) (y := -p2) (z := -p3) (n := m) ha hb hc (by rwa [abs_neg, abs_neg, abs_neg])
  rw [mul_one] at k1 k2
  have n0 : 0 ≤ n := le_trans (by positivity) hn
  have m0 : 0 ≤ m := le_trans (by positivity) hm
  have s1 : |a * -p1| + |b * -p2| + |c * -p3| + |v| ≤ 2001 / 1000 * m := by linarith
  have k1' : |k - (a * -p1 + b * -p2 + c * -p3 + v)| ≤ 41 / 10 * DQuat.u * (2001 / 1000 * m) + 5 * DQuat.t :=
    k1.trans (add_le_add_left (mul_le_mul_of_nonneg_left s1 (by positivity)) _)
  have ka : |k| ≤ 2002 / 1000 * m + 5 * DQuat.t := by
    have e1 := abs_sub_abs_le_abs_sub k (a * -p1 + b * -p2 + c * -p3 + v)
    have e2 : |a * -p1 + b * -p2 + c * -p3 + v| ≤ 2001 / 1000 * m := ((abs_add_le _ _).trans (add_le_add_left ((abs_add_le _ _).trans (add_le_add_left (abs_add_le _ _) _)) _)).trans s1
    have : DQuat.u * m ≤ 1 / 10 ^ 15 * m := mul_le_mul_of_nonneg_right us m0
    linarith
  have k2' : |b' - (a * x + b * y + c * z + k)| ≤ 41 / 10 * DQuat.u * (1001 / 1000 * n + (2002 / 1000 * m + 5 * DQuat.t)) + 5 * DQuat.t :=
    k2.trans (add_le_add_left (mul_le_mul_of_nonneg_left (by linarith) (by positivity)) _)
  have tri := abs_add_le (b' - (a * x + b * y + c * z + k)) (k - (a * -p1 + b * -p2 + c * -p3 + v))
  rw [show b' - (a * x + b * y + c * z + k) + (k - (a * -p1 + b * -p2 + c * -p3 + v)) = b' - (v + (a * (x - p1) + b * (y - p2) + c * (z - p3))) by ring] at tri
  have tt : DQuat.u * DQuat.t ≤ 1 / 10 ^ 15 * DQuat.t := mul_le_mul_of_nonneg_right us t0.le
  have un := mul_nonneg u0.le n0
  have um := mul_nonneg u0.le m0
  linarith

/-- the last coefficient of a row made for a rotation about a point is not too large -/
theorem k_le (q : Order4) {a b c p1 p2 p3 v : ℝ} (ha : |a| ≤ 1001 / 1000) (hb : |b| ≤ 1001 / 1000) (hc : |c| ≤ 1001 / 1000) (h1 : |p1| ≤ 2 ^ 490) (h2 : |p2| ≤ 2 ^ 490) (h3 : |p3| ≤ 2 ^ 490)
    (hv : |v| ≤ 2 ^ 490) : |DT3.dot4 q a b c v (-p1) (-p2) (-p3) 1| ≤ 2 ^ 500 := by
  have u0 := DQuat.u_pos
  have us := DQuat.u_small
  have t1 : DQuat.t ≤ 1 := by
    have := DRot.t_u
    norm_num at this
    linarith
  have k1 := DT3.dot4_near q a b c v (-p1) (-p2) (-p3) 1
  generalize DT3.dot4 q a b c v (-p1) (-p2) (-p3) 1 = k at *
  have e : (2 : ℝ) ^ 500 = 1024 * 2 ^ 490 := by rw [show (500 : ℕ) = 10 + 490 by norm_num, pow_add]; norm_num
  have w : (1 : ℝ) ≤ 2 ^ 490 := one_le_pow₀ one_le_two
  rw [e]
  clear e
  generalize (2 : ℝ) ^ 490 = N at *
  have r2 := row_error (x := -p1) (y := -p2) (z := -p3) (n := 3 * N) ha hb hc (by rw [abs_neg, abs_neg, abs_neg]; linarith)
  rw [mul_one] at k1
  have e1 := abs_sub_abs_le_abs_sub k (a * -p1 + b * -p2 + c * -p3 + v)
  have e2 : |a * -p1 + b * -p2 + c * -p3 + v| ≤ |a * -p1| + |b * -p2| + |c * -p3| + |v| := (abs_add_le _ _).trans (add_le_add_left ((abs_add_le _ _).trans (add_le_add_left (abs_add_le _ _) _)) _)
  have s : |a * -p1| + |b * -p2| + |c * -p3| + |v| ≤ 5 * N := by linarith
  have : DQuat.u * (|a * -p1| + |b * -p2| + |c * -p3| + |v|) ≤ 1 / 10 ^ 15 * (5 * N) := mul_le_mul us s (by positivity) (by positivity)
  linarith

end Around

end Verif.Props
