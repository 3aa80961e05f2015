import Verif.Model.DoubleShortest
import Verif.Props.DoubleToVector

/-!
# Lemmas on the shortest rotation and on the means of quaternions in double precision
-/

namespace Verif.Props

open Verif Verif.Spec Verif.Double

/-- what `normalize` makes of a quaternion near a multiple of a unit quaternion, also a small multiple -/
theorem normalize_any {w : Quat} (hw : Sized w.x w.y w.z w.s) {p : Quaternion ℝ} (hp : ‖p‖ = 1) {k E e : ℝ} (he : 2 ^ (-100 : ℤ) ≤ e) (hk : 2 * e ≤ k) (hE : E ≤ 1 / 4)
    (h : ‖hamilton w - k • p‖ ≤ E * k) :
    ∃ r, DQuat.normalize (.fin e) (.of w) = .ok (.of r) ∧ Sized r.x r.y r.z r.s ∧ ‖hamilton r - p‖ ≤ 2 * E + 45 / 10 * DQuat.u ∧
      |‖hamilton r‖ - 1| ≤ 45 / 10 * DQuat.u ∧ ∀ tol : ℝ, 8 / 2 ^ 53 ≤ tol → DQuat.isUnitary (.fin tol) (.of r) = .ok true := by
  have u0 := DQuat.u_pos
  have us := DQuat.u_small
  have e0 : 0 < e := lt_of_lt_of_le (two_zpow_pos _) he
  have k0 : 0 < k := by linarith
  have nk : ‖k • p‖ = k := by rw [norm_smul, hp, mul_one, Real.norm_of_nonneg k0.le]
  have d : |‖hamilton w‖ - k| ≤ E * k := by
    have := abs_norm_sub_norm_le (hamilton w) (k • p)
    rw [nk] at this
    exact this.trans h
  have d1 := abs_le.1 d
  have N1 : 3 / 2 * e ≤ ‖hamilton w‖ := by nlinarith
  have N0 : 0 < ‖hamilton w‖ := by linarith
  have S : 2 ^ (-400 : ℤ) ≤ w.x * w.x + w.y * w.y + w.z * w.z + w.s * w.s := by
    rw [norm_sq]
    have e1 : (2 : ℝ) ^ (-200 : ℤ) = 2 ^ (-100 : ℤ) * 2 ^ (-100 : ℤ) := by rw [← zpow_add₀ two_ne_zero]; norm_num
    refine (zpow_le_zpow_right₀ one_le_two (show (-400 : ℤ) ≤ -200 by norm_num)).trans ?_
    rw [e1, sq]
    have e2 : (2 : ℝ) ^ (-100 : ℤ) ≤ ‖hamilton w‖ := he.trans (by linarith)
    exact mul_le_mul e2 e2 (two_zpow_pos _).le N0.le
  have near := DQuat.nrm_near S
  rw [norm_sqrt] at near
  have n1 := abs_le.1 near
  have n2 : e ≤ DQuat.nrm w.x w.y w.z w.s := by nlinarith
  have n0 : 0 < DQuat.nrm w.x w.y w.z w.s := nrm_pos S
  obtain ⟨⟨rx, hx⟩, ⟨ry, hy⟩, ⟨rz, hz⟩, ⟨rs, hs⟩⟩ := hw
  have n3 : 2 ^ (-100 : ℤ) ≤ DQuat.nrm w.x w.y w.z w.s := he.trans n2
  obtain ⟨lx, ly, lz, ls⟩ := DQuat.sumSq_le (x := w.x) (y := w.y) (z := w.z) (s := w.s)
  obtain ⟨ex, bx⟩ := div_fin n0 (component_le rx n3 lx rfl)
  obtain ⟨ey, by'⟩ := div_fin n0 (component_le ry n3 ly rfl)
  obtain ⟨ez, bz⟩ := div_fin n0 (component_le rz n3 lz rfl)
  obtain ⟨es, bs⟩ := div_fin n0 (component_le rs n3 ls rfl)
  have q : DQuat.normalize (.fin e) (.of w) = .ok (.of (unitR w)) := by
    rw [DQuat.normalize, DQuat.of, DQuat.norm_fin hx hy hz hs]
    simp only [bind, Except.bind, F64.abs, F64.lt, abs_of_pos n0, not_lt.2 n2, decide_false, Bool.false_eq_true, if_false, ex, ey, ez, es]
    rfl
  have big : ∀ {a : ℝ}, |a| ≤ 1 → |a| ≤ 2 ^ 500 := fun h => h.trans (one_le_pow₀ one_le_two)
  refine ⟨unitR w, q, ⟨⟨rnd_representable _, big bx⟩, ⟨rnd_representable _, big by'⟩, ⟨rnd_representable _, big bz⟩, ⟨rnd_representable _, big bs⟩⟩, ?_, ?_, ?_⟩
  · have f1 := unitR_near S
    have f2 := dir_near hp k0 (by linarith) h
    have t1 := norm_sub_le_norm_sub_add_norm_sub (hamilton (unitR w)) (‖hamilton w‖⁻¹ • hamilton w) p
    linarith
  · have f1 := unitR_near S
    have f2 := abs_norm_sub_norm_le (hamilton (unitR w)) (‖hamilton w‖⁻¹ • hamilton w)
    rw [norm_smul, norm_inv, norm_norm, inv_mul_cancel₀ N0.ne'] at f2
    linarith
  · obtain ⟨x', y', z', s', e1, -, -, -, -, -, -, -, -, hu⟩ := C113_normalize e he w.x w.y w.z w.s ⟨⟨rx, hx⟩, ⟨ry, hy⟩, ⟨rz, hz⟩, ⟨rs, hs⟩⟩ _ q
    exact hu

/-- `normalized` of a vector that is not very short -/
theorem normalized_any (o : Bool) {v : V3} (hv : Within v) (h : 1 / 2 ^ 40 ≤ ‖pure v‖) :
    ∃ a : V3, DVec.normalized o (doubles v) = doubles a ∧ Representable a.x ∧ Representable a.y ∧ Representable a.z ∧ |a.x| ≤ 1 ∧ |a.y| ≤ 1 ∧ |a.z| ≤ 1 ∧
      ‖pure a - ‖pure v‖⁻¹ • pure v‖ ≤ 45 / 10 * DQuat.u := by
  obtain ⟨x, y, z⟩ := v
  have p : (2 : ℝ) ^ 499 ≤ 2 ^ 500 := pow_le_pow_right₀ one_le_two (by norm_num)
  have hx : Representable x ∧ |x| ≤ 2 ^ 500 := ⟨hv.x.1, hv.x.2.trans p⟩
  have hy : Representable y ∧ |y| ≤ 2 ^ 500 := ⟨hv.y.1, hv.y.2.trans p⟩
  have hz : Representable z ∧ |z| ≤ 2 ^ 500 := ⟨hv.z.1, hv.z.2.trans p⟩
  have u0 := DQuat.u_pos
  have us := DQuat.u_small
  have t0 := DQuat.t_pos
  have tu := DRot.t_u
  have n := pure_sq ⟨x, y, z⟩
  simp only at n
  have S : 1 / 2 ^ 80 ≤ x * x + y * y + z * z := by
    have : (1 / 2 ^ 40 : ℝ) ^ 2 ≤ ‖pure ⟨x, y, z⟩‖ ^ 2 := pow_le_pow_left₀ (by norm_num) h 2
    rw [n] at this
    norm_num at this ⊢
    linarith
  have hd : 2 ^ (-100 : ℤ) ≤ DVec.dot3 o x y z x y z := by
    have k := DVec.dot3_near o x y z x y z
    simp only [abs_mul_self] at k
    have k1 := (abs_le.1 k).1
    have : 301 / 100 * DQuat.u * (x * x + y * y + z * z) ≤ 1 / 100 * (x * x + y * y + z * z) := mul_le_mul_of_nonneg_right (by linarith) (by
      have : (0 : ℝ) < 1 / 2 ^ 80 := by norm_num
      linarith)
    have e : (2 : ℝ) ^ (-100 : ℤ) = 1 / 2 ^ 100 := by rw [zpow_neg]; norm_num
    have t2 : DQuat.t ≤ 1 / 2 ^ 100 := e ▸ DQuat.t_small (k := -100) (by norm_num)
    rw [e]
    norm_num at S t2 ⊢
    linarith
  obtain ⟨a, b, c, e, la, lb, lc, da, db, dc⟩ := DVec.normalized_fin o hx hy hz hd
  obtain ⟨ra, rb, rc⟩ := normalized_representable o hx.1 hy.1 hz.1 e
  refine ⟨⟨a, b, c⟩, e, ra, rb, rc, la, lb, lc, ?_⟩
  have N : Real.sqrt (x * x + y * y + z * z) = ‖pure ⟨x, y, z⟩‖ := by
    rw [← Real.sqrt_sq (norm_nonneg (pure ⟨x, y, z⟩)), n]; simp only [sq]
  have N0 : ‖pure ⟨x, y, z⟩‖ ≠ 0 := by
    have : (0 : ℝ) < 1 / 2 ^ 40 := by norm_num
    linarith
  rw [N] at da db dc
  have e1 : ‖pure ⟨x, y, z⟩‖⁻¹ • pure ⟨x, y, z⟩ = pure ⟨x / ‖pure ⟨x, y, z⟩‖, y / ‖pure ⟨x, y, z⟩‖, z / ‖pure ⟨x, y, z⟩‖⟩ := by
    rw [pure, pure, hamilton_smul]; simp only [div_eq_inv_mul, mul_zero]
  have e2 : ‖pure ⟨x / ‖pure ⟨x, y, z⟩‖, y / ‖pure ⟨x, y, z⟩‖, z / ‖pure ⟨x, y, z⟩‖⟩‖ = 1 := by
    rw [← e1, norm_smul, norm_inv, norm_norm, inv_mul_cancel₀ N0]
  have v := vec_near (by positivity) t0.le da db dc
  rw [e2] at v
  rw [e1]
  linarith

/-- the rounded difference of two products -/
noncomputable def crossR (a b c d : ℝ) : ℝ := rnd (rnd (a * b) - rnd (c * d))

theorem crossR_near {a b c d K : ℝ} (hK : |a * b| + |c * d| ≤ K) (hK1 : K ≤ 1001 / 1000) : |crossR a b c d - (a * b - c * d)| ≤ 202 / 100 * DQuat.u := by
  have u0 := DQuat.u_pos
  have us := DQuat.u_small
  have tu := DRot.t_u
  have t0 := DQuat.t_pos
  have h1 := DVec.mul_near a b
  have h2 := DVec.mul_near c d
  have h3 : |rnd (rnd (a * b) - rnd (c * d)) - (rnd (a * b) - rnd (c * d))| ≤ DQuat.u * |rnd (a * b) - rnd (c * d)| := by
    have := rnd_add_error (rnd_representable (a * b)) (representable_neg (rnd_representable (c * d)))
    rw [← sub_eq_add_neg] at this
    refine this.trans (le_of_eq ?_)
    rw [DQuat.u]; norm_num
  have a1 := abs_nonneg (a * b)
  have a2 := abs_nonneg (c * d)
  have g1 : |rnd (a * b) - rnd (c * d)| ≤ K * (1 + DQuat.u) + 2 * DQuat.t := by
    have i1 := abs_sub_abs_le_abs_sub (rnd (a * b)) (a * b)
    have i2 := abs_sub_abs_le_abs_sub (rnd (c * d)) (c * d)
    have i3 := abs_sub (rnd (a * b)) (rnd (c * d))
    nlinarith
  have g2 : DQuat.u * |rnd (a * b) - rnd (c * d)| ≤ DQuat.u * (1002 / 1000) := mul_le_mul_of_nonneg_left (by nlinarith) u0.le
  have g3 : DQuat.u * |a * b| + DQuat.u * |c * d| ≤ DQuat.u * (1001 / 1000) := by rw [← mul_add]; exact mul_le_mul_of_nonneg_left (hK.trans hK1) u0.le
  unfold crossR
  have i := abs_add_le (rnd (rnd (a * b) - rnd (c * d)) - (rnd (a * b) - rnd (c * d))) ((rnd (a * b) - a * b) - (rnd (c * d) - c * d))
  have j := abs_sub (rnd (a * b) - a * b) (rnd (c * d) - c * d)
  rw [show rnd (rnd (a * b) - rnd (c * d)) - (a * b - c * d) = rnd (rnd (a * b) - rnd (c * d)) - (rnd (a * b) - rnd (c * d)) + ((rnd (a * b) - a * b) - (rnd (c * d) - c * d)) by ring]
  linarith

theorem big_one {a : ℝ} (h : |a| ≤ 1) : |a| ≤ 2 ^ 500 := h.trans (one_le_pow₀ one_le_two)

theorem crossR_fin {a b c d : ℝ} (ha : |a| ≤ 1) (hb : |b| ≤ 1) (hc : |c| ≤ 1) (hd : |d| ≤ 1) :
    ((F64.fin a).mul (.fin b)).sub ((F64.fin c).mul (.fin d)) = .fin (crossR a b c d) ∧ |crossR a b c d| ≤ 2 := by
  obtain ⟨e1, l1⟩ := mul_le1 ha hb
  obtain ⟨e2, l2⟩ := mul_le1 hc hd
  rw [e1, e2]
  have := DVec.sub_fin2 (a := rnd (a * b)) (b := rnd (c * d)) (n := 0) (by norm_num) (by simpa using l1) (by simpa using l2)
  rw [zero_add, pow_one] at this
  exact this

/-- the sum of the sizes of products of components -/
theorem prods_le {a b : V3} {K : ℝ} (ha : a.x ^ 2 + a.y ^ 2 + a.z ^ 2 ≤ K) (hb : b.x ^ 2 + b.y ^ 2 + b.z ^ 2 ≤ K) :
    |b.y * a.z| + |b.z * a.y| ≤ K ∧ |b.z * a.x| + |b.x * a.z| ≤ K ∧ |b.x * a.y| + |b.y * a.x| ≤ K ∧ |a.x * b.x| + |a.y * b.y| + |a.z * b.z| ≤ K := by
  have h : ∀ p q : ℝ, |p * q| ≤ (p ^ 2 + q ^ 2) / 2 := fun p q => abs_le.2 ⟨by nlinarith [sq_nonneg (p + q)], by nlinarith [sq_nonneg (p - q)]⟩
  refine ⟨?_, ?_, ?_, ?_⟩
  · have := h b.y a.z; have := h b.z a.y; nlinarith [sq_nonneg a.x, sq_nonneg b.x]
  · have := h b.z a.x; have := h b.x a.z; nlinarith [sq_nonneg a.y, sq_nonneg b.y]
  · have := h b.x a.y; have := h b.y a.x; nlinarith [sq_nonneg a.z, sq_nonneg b.z]
  · have := h a.x b.x; have := h a.y b.y; have := h a.z b.z; linarith

theorem four_le {x y z s u : ℝ} (hx : |x| ≤ 202 / 100 * u) (hy : |y| ≤ 202 / 100 * u) (hz : |z| ≤ 202 / 100 * u) (hs : |s| ≤ 504 / 100 * u) :
    s ^ 2 + x ^ 2 + y ^ 2 + z ^ 2 ≤ (62 / 10 * u) ^ 2 := by
  have h1 := pow_le_pow_left₀ (abs_nonneg _) hx 2
  have h2 := pow_le_pow_left₀ (abs_nonneg _) hy 2
  have h3 := pow_le_pow_left₀ (abs_nonneg _) hz 2
  have h4 := pow_le_pow_left₀ (abs_nonneg _) hs 2
  rw [sq_abs] at h1 h2 h3 h4
  nlinarith [sq_nonneg u]

theorem cross_dot (a b : V3) : hamilton ⟨b.y * a.z - b.z * a.y, b.z * a.x - b.x * a.z, b.x * a.y - b.y * a.x, 1 + (a.x * b.x + a.y * b.y + a.z * b.z)⟩ =
    1 + pure a * star (pure b) := by
  have p1 : ∀ w, (pure w).re = 0 := fun _ => rfl
  have p2 : ∀ w, (pure w).imI = w.x := fun _ => rfl
  have p3 : ∀ w, (pure w).imJ = w.y := fun _ => rfl
  have p4 : ∀ w, (pure w).imK = w.z := fun _ => rfl
  ext <;> simp only [Quaternion.re_add, Quaternion.imI_add, Quaternion.imJ_add, Quaternion.imK_add, Quaternion.re_one, Quaternion.imI_one, Quaternion.imJ_one, Quaternion.imK_one,
    Quaternion.re_mul, Quaternion.imI_mul, Quaternion.imJ_mul, Quaternion.imK_mul, Quaternion.re_star, Quaternion.imI_star, Quaternion.imJ_star,
    Quaternion.imK_star, p1, p2, p3, p4] <;> simp only [hamilton] <;> ring

/-- the quaternion that `ShortestRotation` normalises, for two vectors whose norms are almost one -/
theorem shortest_raw (o : Bool) {a b : V3} (a1 : |a.x| ≤ 1) (a2 : |a.y| ≤ 1) (a3 : |a.z| ≤ 1) (b1 : |b.x| ≤ 1) (b2 : |b.y| ≤ 1) (b3 : |b.z| ≤ 1)
    (ha : ‖pure a‖ ≤ 1 + 5 * DQuat.u) (hb : ‖pure b‖ ≤ 1 + 5 * DQuat.u) :
    ∃ w : Quat, (⟨((doubles b).cross (doubles a)).x, ((doubles b).cross (doubles a)).y, ((doubles b).cross (doubles a)).z, (F64.fin 1).add ((doubles a).dot o (doubles b))⟩ : DQuat) = .of w ∧
      Sized w.x w.y w.z w.s ∧ ‖hamilton w - (1 + pure a * star (pure b))‖ ≤ 62 / 10 * DQuat.u := by
  have u0 := DQuat.u_pos
  have us := DQuat.u_small
  have tu := DRot.t_u
  have t0 := DQuat.t_pos
  have sq1 : ∀ {v : V3}, ‖pure v‖ ≤ 1 + 5 * DQuat.u → v.x ^ 2 + v.y ^ 2 + v.z ^ 2 ≤ 10001 / 10000 := by
    intro v h
    rw [← pure_sq]
    have := pow_le_pow_left₀ (norm_nonneg _) (h.trans (show 1 + 5 * DQuat.u ≤ 100001 / 100000 by linarith)) 2
    linarith
  obtain ⟨k1, k2, k3, k4⟩ := prods_le (sq1 ha) (sq1 hb)
  obtain ⟨e1, l1⟩ := crossR_fin b2 a3 b3 a2
  obtain ⟨e2, l2⟩ := crossR_fin b3 a1 b1 a3
  obtain ⟨e3, l3⟩ := crossR_fin b1 a2 b2 a1
  have d := DVec.dot3_near o a.x a.y a.z b.x b.y b.z
  have ed := (DVec.dot_fin o (big_one a1) (big_one a2) (big_one a3) (big_one b1) (big_one b2) (big_one b3)).1
  have d1 : |DVec.dot3 o a.x a.y a.z b.x b.y b.z - (a.x * b.x + a.y * b.y + a.z * b.z)| ≤ 302 / 100 * DQuat.u := by
    have : 301 / 100 * DQuat.u * (|a.x * b.x| + |a.y * b.y| + |a.z * b.z|) ≤ 301 / 100 * DQuat.u * (10001 / 10000) := mul_le_mul_of_nonneg_left k4 (by positivity)
    linarith
  have d2 : |a.x * b.x + a.y * b.y + a.z * b.z| ≤ 10001 / 10000 := by
    have i1 := abs_add_le (a.x * b.x + a.y * b.y) (a.z * b.z)
    have i2 := abs_add_le (a.x * b.x) (a.y * b.y)
    linarith
  set D := DVec.dot3 o a.x a.y a.z b.x b.y b.z with hD
  have d3 : |D| ≤ 1001 / 1000 := by have := abs_sub_abs_le_abs_sub D (a.x * b.x + a.y * b.y + a.z * b.z); linarith
  have rD : Representable D := DVec.sum3_representable o _ _ _
  obtain ⟨es, ls⟩ := DVec.add_fin2 (a := 1) (b := D) (n := 1) (by norm_num) (by norm_num) (by norm_num; linarith)
  have s1 : |rnd (1 + D) - (1 + D)| ≤ DQuat.u * |1 + D| := by
    refine (rnd_add_error rep_one rD).trans (le_of_eq ?_)
    rw [DQuat.u]; norm_num
  have s2 : DQuat.u * |1 + D| ≤ DQuat.u * (2001 / 1000) := by
    refine mul_le_mul_of_nonneg_left ?_ u0.le
    have := abs_add_le 1 D
    rw [abs_one] at this
    linarith
  have s3 : |rnd (1 + D) - (1 + (a.x * b.x + a.y * b.y + a.z * b.z))| ≤ 504 / 100 * DQuat.u := by
    have := abs_add_le (rnd (1 + D) - (1 + D)) (D - (a.x * b.x + a.y * b.y + a.z * b.z))
    rw [show rnd (1 + D) - (1 + D) + (D - (a.x * b.x + a.y * b.y + a.z * b.z)) = rnd (1 + D) - (1 + (a.x * b.x + a.y * b.y + a.z * b.z)) by ring] at this
    linarith
  have big : ∀ {x : ℝ}, |x| ≤ 2 ^ (1 + 1) → |x| ≤ 2 ^ 500 := fun h => h.trans (pow_le_pow_right₀ one_le_two (by norm_num))
  refine ⟨⟨crossR b.y a.z b.z a.y, crossR b.z a.x b.x a.z, crossR b.x a.y b.y a.x, rnd (1 + D)⟩, ?_, ⟨⟨rnd_representable _, big ?_⟩, ⟨rnd_representable _, big ?_⟩, ⟨rnd_representable _, big ?_⟩, ⟨rnd_representable _, big ls⟩⟩, ?_⟩
  · have : (doubles a).dot o (doubles b) = .fin D := ed
    rw [this, es]
    simp only [DVec.cross, doubles, e1, e2, e3, DQuat.of]
  · norm_num; linarith
  · norm_num; linarith
  · norm_num; linarith
  · rw [← cross_dot, hamilton_sub]
    refine le_of_sq_le_sq ?_ (by positivity)
    rw [DQuat.norm_hamilton]
    exact four_le (crossR_near k1 (by norm_num)) (crossR_near k2 (by norm_num)) (crossR_near k3 (by norm_num)) s3

/-- the vector divided by its norm -/
noncomputable def direction (v : V3) : V3 := ⟨‖pure v‖⁻¹ * v.x, ‖pure v‖⁻¹ * v.y, ‖pure v‖⁻¹ * v.z⟩

theorem pure_direction (v : V3) : pure (direction v) = ‖pure v‖⁻¹ • pure v := by
  conv_rhs => rw [show pure v = hamilton ⟨v.x, v.y, v.z, 0⟩ from rfl, hamilton_smul, mul_zero]
  rfl

theorem norm_direction {v : V3} (h : ‖pure v‖ ≠ 0) : ‖pure (direction v)‖ = 1 := by
  rw [pure_direction, norm_smul, norm_inv, norm_norm, inv_mul_cancel₀ h]

theorem star_pure (v : V3) : star (pure v) = -pure v := by
  have p1 : ∀ w, (pure w).re = 0 := fun _ => rfl
  ext <;> simp [p1]

theorem unit_star {p : Quaternion ℝ} (h : ‖p‖ = 1) : p * star p = 1 ∧ star p * p = 1 := by
  rw [Quaternion.self_mul_star, Quaternion.star_mul_self, Quaternion.normSq_eq_norm_mul_self, h]
  simp

/-- the quaternion `1 + a b*` turns the unit vector `a` to the unit vector `b` -/
theorem shortest_turns {a b : V3} (ha : ‖pure a‖ = 1) (hb : ‖pure b‖ = 1) : pure a * (1 + pure a * star (pure b)) = (1 + pure a * star (pure b)) * pure b := by
  have h1 := (unit_star ha).1
  have h2 := (unit_star hb).2
  rw [star_pure, mul_neg] at h1
  rw [mul_add, add_mul, ← mul_assoc, neg_eq_iff_eq_neg.1 h1, mul_assoc, h2, star_pure, mul_one]
  simp [add_comm]

/-- its norm is twice the cosine of half the angle -/
theorem shortest_norm {a b : V3} (ha : ‖pure a‖ = 1) (hb : ‖pure b‖ = 1) {t : ℝ} (ht : Real.cos t = a.x * b.x + a.y * b.y + a.z * b.z) (h0 : 0 ≤ Real.cos (t / 2)) :
    ‖1 + pure a * star (pure b)‖ = 2 * Real.cos (t / 2) := by
  rw [← cross_dot]
  refine norm_eq_of (by linarith) ?_
  have e := Real.cos_sq (t / 2)
  rw [mul_div_cancel₀ t two_ne_zero, ht] at e
  have a1 := pure_sq a
  have b1 := pure_sq b
  rw [ha, one_pow] at a1
  rw [hb, one_pow] at b1
  simp only
  rw [mul_pow, e]
  have k : (b.y * a.z - b.z * a.y) ^ 2 + (b.z * a.x - b.x * a.z) ^ 2 + (b.x * a.y - b.y * a.x) ^ 2 =
      (a.x ^ 2 + a.y ^ 2 + a.z ^ 2) * (b.x ^ 2 + b.y ^ 2 + b.z ^ 2) - (a.x * b.x + a.y * b.y + a.z * b.z) ^ 2 := by ring
  rw [← a1, ← b1] at k
  linarith

/-- turning by nearby quaternions -/
theorem conj_near {r p v : Quaternion ℝ} (hp : ‖p‖ = 1) {g d : ℝ} (hd : d ≤ 1 / 1000) (hr : |‖r‖ - 1| ≤ d) (h : ‖r - p‖ ≤ g) :
    ‖r⁻¹ * v * r - p⁻¹ * v * p‖ ≤ 201 / 100 * g * ‖v‖ := by
  have r1 := abs_le.1 hr
  have R : 0 < ‖r‖ := by linarith
  have r0 : r ≠ 0 := norm_pos_iff.1 R
  have p0 : p ≠ 0 := norm_pos_iff.1 (by rw [hp]; norm_num)
  have e : r⁻¹ * v * r - p⁻¹ * v * p = r⁻¹ * (v * (r - p) - (r - p) * (p⁻¹ * v * p)) := by
    rw [sub_mul, mul_sub, mul_sub, mul_sub, mul_sub, ← mul_assoc p, ← mul_assoc p, mul_inv_cancel₀ p0, one_mul, ← mul_assoc r⁻¹ r, inv_mul_cancel₀ r0, one_mul, ← mul_assoc]
    abel
  have n : ‖v * (r - p) - (r - p) * (p⁻¹ * v * p)‖ ≤ 2 * (g * ‖v‖) := by
    refine (norm_sub_le _ _).trans ?_
    rw [norm_mul, norm_mul, norm_mul, norm_mul, norm_inv, hp, inv_one, one_mul, mul_one]
    have := mul_le_mul_of_nonneg_right h (norm_nonneg v)
    linarith
  rw [e, norm_mul, norm_inv, inv_mul_le_iff₀ R]
  refine n.trans ?_
  have g0 : 0 ≤ g * ‖v‖ := mul_nonneg ((norm_nonneg _).trans h) (norm_nonneg v)
  nlinarith

theorem cosine_direction (a b : V3) : cosine a b = (direction a).x * (direction b).x + (direction a).y * (direction b).y + (direction a).z * (direction b).z := by
  have N : ∀ v : V3, Real.sqrt (v.x * v.x + v.y * v.y + v.z * v.z) = ‖pure v‖ := fun v => by
    rw [← Real.sqrt_sq (norm_nonneg (pure v)), pure_sq]; simp only [sq]
  rw [cosine, N, N, div_eq_mul_inv, mul_inv, direction, direction]
  ring

theorem angle_of {a b : V3} (ha : 0 < ‖pure a‖) (hb : 0 < ‖pure b‖) :
    Real.cos (Real.arccos (cosine a b)) = (direction a).x * (direction b).x + (direction a).y * (direction b).y + (direction a).z * (direction b).z ∧ 0 ≤ Real.cos (Real.arccos (cosine a b) / 2) := by
  have s : ∀ {v : V3}, 0 < ‖pure v‖ → 0 < v.x * v.x + v.y * v.y + v.z * v.z := fun {v} h => by
    have := pow_pos h 2
    rw [pure_sq] at this
    nlinarith
  have c := abs_le.1 (cosine_abs a b (s ha) (s hb))
  refine ⟨by rw [Real.cos_arccos c.1 c.2, cosine_direction], Real.cos_nonneg_of_neg_pi_div_two_le_of_le ?_ ?_⟩
  · have := Real.arccos_nonneg (cosine a b); have := Real.pi_pos; linarith
  · have := Real.arccos_le_pi (cosine a b); linarith

theorem star_mul_near {a b A B : Quaternion ℝ} (hA : ‖A‖ = 1) {g : ℝ} (ha : ‖a - A‖ ≤ g) (hb : ‖b - B‖ ≤ g) (hb1 : ‖b‖ ≤ 1 + 1 / 10 ^ 4) :
    ‖(1 + a * star b) - (1 + A * star B)‖ ≤ 201 / 100 * g := by
  have g0 : 0 ≤ g := (norm_nonneg _).trans ha
  have e : (1 + a * star b) - (1 + A * star B) = (a - A) * star b + A * star (b - B) := by
    rw [star_sub, sub_mul, mul_sub]; abel
  rw [e]
  refine (norm_add_le _ _).trans ?_
  rw [norm_mul, norm_mul, Quaternion.norm_star, Quaternion.norm_star, hA, one_mul]
  have : ‖a - A‖ * ‖b‖ ≤ g * (1 + 1 / 10 ^ 4) := mul_le_mul ha hb1 (norm_nonneg _) g0
  linarith

theorem unit_near_norm {a A : Quaternion ℝ} (hA : ‖A‖ = 1) {g : ℝ} (h : ‖a - A‖ ≤ g) : ‖a‖ ≤ 1 + g := by
  have := norm_sub_norm_le a A
  rw [hA] at this
  linarith

/-- a quaternion without vector part becomes the unit quaternion -/
theorem normalize_scalar {s e : ℝ} (hs : Representable s) (h1 : 2 ^ (-500 : ℤ) ≤ s) (h2 : s ≤ 2 ^ 500) (h3 : e ≤ s) :
    DQuat.normalize (.fin e) ⟨.fin 0, .fin 0, .fin 0, .fin s⟩ = .ok ⟨.fin 0, .fin 0, .fin 0, .fin 1⟩ := by
  have s0 : 0 < s := lt_of_lt_of_le (two_zpow_pos _) h1
  have z : |(0 : ℝ)| ≤ 2 ^ 500 := by rw [abs_zero]; positivity
  have n : DQuat.nrm 0 0 0 s = s := by
    rw [DQuat.nrm, DQuat.sumSq]
    simp only [mul_zero, rnd_zero, add_zero, zero_add, rnd_rnd]
    rw [DQuat.sqrt_sq hs (by rwa [abs_of_pos s0]), abs_of_pos s0]
  have d1 : (F64.fin (0 : ℝ)).div (.fin s) = .fin 0 := (div_fin s0 (by simpa using s0.le)).1.trans (by rw [zero_div, rnd_zero])
  have d2 : (F64.fin s).div (.fin s) = .fin 1 := (div_fin s0 (abs_of_pos s0).le).1.trans (by rw [div_self s0.ne', rnd_exact rep_one])
  rw [DQuat.normalize, DQuat.norm_fin z z z (by rwa [abs_of_pos s0]), n]
  simp only [bind, Except.bind, F64.abs, F64.lt, abs_of_pos s0, not_lt.2 h3, decide_false, Bool.false_eq_true, if_false, d1, d2]
  rfl

theorem crossR_self (a b : ℝ) : crossR a b b a = 0 := by rw [crossR, mul_comm b a, sub_self, rnd_zero]

theorem dot3_self (o : Bool) (a b c : ℝ) : 0 ≤ DVec.dot3 o a b c a b c := by
  have h : ∀ x : ℝ, 0 ≤ rnd (x * x) := fun x => le_rnd representable_zero (mul_self_nonneg x)
  have k : ∀ {x y : ℝ}, 0 ≤ x → 0 ≤ y → 0 ≤ rnd (x + y) := fun hx hy => le_rnd representable_zero (add_nonneg hx hy)
  unfold DVec.dot3 DVec.sum3
  split
  · exact k (h _) (k (h _) (h _))
  · exact k (k (h _) (h _)) (h _)

theorem hamilton_mono {d e : Quat} (hx : |d.x| ≤ e.x) (hy : |d.y| ≤ e.y) (hz : |d.z| ≤ e.z) (hs : |d.s| ≤ e.s) : ‖hamilton d‖ ≤ ‖hamilton e‖ := by
  refine le_of_sq_le_sq ?_ (norm_nonneg _)
  rw [DQuat.norm_hamilton, DQuat.norm_hamilton]
  have h : ∀ {x y : ℝ}, |x| ≤ y → x ^ 2 ≤ y ^ 2 := fun h => sq_le_sq.2 (h.trans (le_abs_self _))
  have := h hx; have := h hy; have := h hz; have := h hs
  linarith

theorem hamilton_abs (q : Quat) : ‖hamilton ⟨|q.x|, |q.y|, |q.z|, |q.s|⟩‖ = ‖hamilton q‖ := by
  refine norm_eq_of (norm_nonneg _) ?_
  rw [DQuat.norm_hamilton]
  simp only [sq_abs]

/-- one component of `LERP` -/
noncomputable def lerpR (r p q : ℝ) : ℝ := rnd (rnd (p * rnd (1 - r)) + rnd (q * r))

theorem lerpR_near {r : ℝ} (hr : Representable r) (r0 : 0 ≤ r) (r1 : r ≤ 1) (p q : ℝ) :
    |lerpR r p q - (p * (1 - r) + q * r)| ≤ 302 / 100 * DQuat.u * ((1 - r) * |p| + r * |q|) + 21 / 10 * DQuat.t := by
  have u0 := DQuat.u_pos
  have us := DQuat.u_small
  have t0 := DQuat.t_pos
  have u53 : (2 : ℝ) ^ (-53 : ℤ) = DQuat.u := by rw [DQuat.u]; norm_num
  have h0 : |rnd (1 - r) - (1 - r)| ≤ DQuat.u * (1 - r) := by
    have := rnd_add_error rep_one (representable_neg hr)
    rwa [← sub_eq_add_neg, abs_of_nonneg (show 0 ≤ 1 - r by linarith), u53] at this
  set k := rnd (1 - r) with hk
  have P0 := abs_nonneg p
  have Q0 := abs_nonneg q
  have x0 : 0 ≤ (1 - r) * |p| := mul_nonneg (by linarith) P0
  have y0 : 0 ≤ r * |q| := mul_nonneg r0 Q0
  have pk : |p * k - p * (1 - r)| ≤ DQuat.u * ((1 - r) * |p|) := by
    rw [← mul_sub, abs_mul]; nlinarith
  have pk2 : |p * k| ≤ (1 + DQuat.u) * ((1 - r) * |p|) := by
    have := abs_sub_abs_le_abs_sub (p * k) (p * (1 - r))
    rw [abs_mul p (1 - r), abs_of_nonneg (show 0 ≤ 1 - r by linarith)] at this
    linarith
  have h1 := DVec.mul_near p k
  have h2 := DVec.mul_near q r
  rw [abs_mul q r, abs_of_nonneg r0] at h2
  have h3 : |rnd (rnd (p * k) + rnd (q * r)) - (rnd (p * k) + rnd (q * r))| ≤ DQuat.u * |rnd (p * k) + rnd (q * r)| := by
    have := rnd_add_error (rnd_representable (p * k)) (rnd_representable (q * r))
    rwa [u53] at this
  set A := rnd (p * k) with hA
  set B := rnd (q * r) with hB
  have a1 : |A - p * (1 - r)| ≤ 2001 / 1000 * DQuat.u * ((1 - r) * |p|) + DQuat.t := by
    have := abs_sub_le A (p * k) (p * (1 - r))
    have i1 : DQuat.u * |p * k| ≤ DQuat.u * ((1 + DQuat.u) * ((1 - r) * |p|)) := mul_le_mul_of_nonneg_left pk2 u0.le
    have i2 : DQuat.u * ((1 + DQuat.u) * ((1 - r) * |p|)) ≤ 1001 / 1000 * (DQuat.u * ((1 - r) * |p|)) := by
      rw [mul_left_comm]; exact mul_le_mul_of_nonneg_right (by linarith) (mul_nonneg u0.le x0)
    linarith
  have b1 : |B - q * r| ≤ DQuat.u * (r * |q|) + DQuat.t := by rw [mul_comm r]; exact h2
  have ab : |A + B - (p * (1 - r) + q * r)| ≤ 2001 / 1000 * DQuat.u * ((1 - r) * |p| + r * |q|) + 2 * DQuat.t := by
    have := abs_add_le (A - p * (1 - r)) (B - q * r)
    rw [show A - p * (1 - r) + (B - q * r) = A + B - (p * (1 - r) + q * r) by ring] at this
    nlinarith
  have n1 : |A + B| ≤ 1001 / 1000 * ((1 - r) * |p| + r * |q|) + 2 * DQuat.t := by
    have i := abs_sub_abs_le_abs_sub (A + B) (p * (1 - r) + q * r)
    have j := abs_add_le (p * (1 - r)) (q * r)
    rw [abs_mul p (1 - r), abs_mul q r, abs_of_nonneg r0, abs_of_nonneg (show 0 ≤ 1 - r by linarith)] at j
    nlinarith
  have i := abs_sub_le (rnd (A + B)) (A + B) (p * (1 - r) + q * r)
  have n2 : DQuat.u * |A + B| ≤ DQuat.u * (1001 / 1000 * ((1 - r) * |p| + r * |q|) + 2 * DQuat.t) := mul_le_mul_of_nonneg_left n1 u0.le
  have n3 : DQuat.u * (2 * DQuat.t) ≤ 1 / 100 * DQuat.t := by nlinarith
  unfold lerpR
  nlinarith

theorem lerpR_fin {r p q : ℝ} (r0 : 0 ≤ r) (r1 : r ≤ 1) (hp : |p| ≤ 2 ^ 499) (hq : |q| ≤ 2 ^ 499) :
    ((F64.fin p).mul ((F64.fin 1).sub (.fin r))).add ((F64.fin q).mul (.fin r)) = .fin (lerpR r p q) ∧ |lerpR r p q| ≤ 2 ^ 500 ∧
      (F64.fin p).mul ((F64.fin 1).sub (.fin r)) ≠ .nan ∧ (F64.fin q).mul (.fin r) ≠ .nan := by
  have k1 : |1 - r| ≤ 1 := by rw [abs_of_nonneg (by linarith)]; linarith
  have e0 : (F64.fin 1).sub (.fin r) = .fin (rnd (1 - r)) :=
    (DVec.sub_fin2 (n := 0) (by norm_num) (by norm_num) (by rw [abs_of_nonneg r0]; simpa using r1)).1
  have k2 : |rnd (1 - r)| ≤ 1 := DLinear.rnd_abs_le rep_one k1
  have small : ∀ {a b : ℝ}, |a| ≤ 2 ^ 499 → |b| ≤ 1 → (F64.fin a).mul (.fin b) = .fin (rnd (a * b)) ∧ |rnd (a * b)| ≤ 2 ^ 499 := by
    intro a b ha hb
    have h : |rnd (a * b)| ≤ 2 ^ 499 := by
      refine DLinear.rnd_abs_le (DQuat.rep_two 499) ?_
      rw [abs_mul]
      exact (mul_le_of_le_one_right (abs_nonneg _) hb).trans ha
    exact ⟨F64.ofExact_fin (lt_of_le_of_lt h (pow_lt_pow_right₀ one_lt_two (by norm_num))), h⟩
  obtain ⟨e1, l1⟩ := small hp k2
  obtain ⟨e2, l2⟩ := small hq (show |r| ≤ 1 by rwa [abs_of_nonneg r0])
  rw [e0, e1, e2]
  have := DVec.add_fin2 (a := rnd (p * rnd (1 - r))) (b := rnd (q * r)) (n := 499) (by norm_num) l1 l2
  exact ⟨this.1, this.2, by simp, by simp⟩

theorem t_tiny : 5 * DQuat.t ≤ 1 / 100 * DQuat.u * 2 ^ (-100 : ℤ) := by
  have h : DQuat.t ≤ 2 ^ (-200 : ℤ) := DQuat.t_small (by norm_num)
  have e : (2 : ℝ) ^ (-200 : ℤ) = 2 ^ (-100 : ℤ) * 2 ^ (-100 : ℤ) := by rw [← zpow_add₀ two_ne_zero]; norm_num
  have e1 : (2 : ℝ) ^ (-100 : ℤ) = 1 / 2 ^ 100 := by rw [zpow_neg]; norm_num
  have k : 5 * (2 : ℝ) ^ (-100 : ℤ) ≤ 1 / 100 * DQuat.u := by rw [e1, DQuat.u]; norm_num
  have := mul_le_mul_of_nonneg_right k (two_zpow_pos (α := ℝ) (-100)).le
  rw [e] at h
  clear e e1
  generalize (2 : ℝ) ^ (-100 : ℤ) = z at *
  linarith

theorem ofExact_rep {x : ℝ} (h : Representable x) (h1 : |x| ≤ 2 ^ 500) : F64.ofExact x = .fin x :=
  (F64.ofExact_fin (by rw [rnd_exact h]; exact lt_of_le_of_lt h1 (pow_lt_pow_right₀ one_lt_two (by norm_num)))).trans (by rw [rnd_exact h])

/-- almost opposite vectors: the squared norm of the second rounds to one -/
theorem flat_norm (o : Bool) {y : ℝ} (h : |y| ≤ 1 / 2 ^ 28) : DVec.normalized o (doubles ⟨-1, y, 0⟩) = doubles ⟨-1, rnd y, 0⟩ := by
  have y1 : |y| ≤ 1 := h.trans (by norm_num)
  obtain ⟨e, -⟩ := mul_le1 y1 y1
  have r56 : Representable (1 / 2 ^ 56 : ℝ) := by
    have := F64.representable_pow (α := ℝ) (e := -56) (by norm_num)
    rwa [zpow_neg, show (2 : ℝ) ^ (56 : ℤ) = 2 ^ 56 by norm_num, ← one_div] at this
  have small : |rnd (y * y)| ≤ 1 / 2 ^ 56 := by
    refine DLinear.rnd_abs_le r56 ?_
    rw [abs_mul]
    have := mul_le_mul h h (abs_nonneg _) (by norm_num)
    norm_num at this ⊢
    linarith
  have ab : rnd (1 + rnd (y * y)) = 1 := rnd_absorb rep_one (by rw [abs_one]; norm_num at small ⊢; linarith)
  have o0 : F64.ofExact (0 : ℝ) = .fin 0 := ofExact_rep representable_zero (by simp)
  have o1 : F64.ofExact (1 : ℝ) = .fin 1 := ofExact_rep rep_one (big_one (by simp))
  have oy : F64.ofExact (rnd (y * y)) = .fin (rnd (y * y)) := ofExact_rep (rnd_representable _) (big_one (small.trans (by norm_num)))
  have o2 : F64.ofExact (1 + rnd (y * y)) = .fin 1 := by rw [F64.ofExact_fin] <;> rw [ab]; rw [abs_one]; exact one_lt_pow₀ one_lt_two (by norm_num)
  have m1 : (F64.fin (-1 : ℝ)).mul (.fin (-1)) = .fin 1 := by simp [F64.mul, o1]
  have m3 : (F64.fin (0 : ℝ)).mul (.fin 0) = .fin 0 := by simp [F64.mul, o0]
  have sq : DVec.squaredNorm o (doubles ⟨-1, y, 0⟩) = .fin 1 := by
    simp only [DVec.squaredNorm, DVec.dot, DVec.sum, doubles, e, m1, m3]
    cases o <;> simp [F64.add, oy, o2, o1]
  have root : (F64.fin (1 : ℝ)).sqrt = .fin 1 := by
    simp [F64.sqrt, Real.sqrt_one, rnd_exact rep_one, not_lt.2 (zero_le_one (α := ℝ))]
  rw [DVec.normalized, sq, root]
  have d : ∀ x : ℝ, |x| ≤ 1 → (F64.fin x).div (.fin 1) = .fin (rnd x) := fun x hx => by
    have := (div_fin one_pos hx).1
    rwa [div_one] at this
  have t1 : (F64.fin (0 : ℝ)).lt (.fin 1) = true := by simp [F64.lt]
  rw [if_pos t1]
  simp only [DVec.div, doubles]
  rw [d (-1) (by simp), d y y1, d 0 (by simp), rnd_zero, rnd_exact (representable_neg rep_one)]

theorem unit_x (o : Bool) : DVec.normalized o (doubles ⟨1, 0, 0⟩) = doubles ⟨1, 0, 0⟩ := by
  have o0 : F64.ofExact (0 : ℝ) = .fin 0 := ofExact_rep representable_zero (by simp)
  have o1 : F64.ofExact (1 : ℝ) = .fin 1 := ofExact_rep rep_one (big_one (by simp))
  have sq : DVec.squaredNorm o (doubles ⟨1, 0, 0⟩) = .fin 1 := by
    cases o <;> simp [DVec.squaredNorm, DVec.dot, DVec.sum, doubles, F64.mul, F64.add, o0, o1]
  have root : (F64.fin (1 : ℝ)).sqrt = .fin 1 := by
    simp [F64.sqrt, Real.sqrt_one, rnd_exact rep_one, not_lt.2 (zero_le_one (α := ℝ))]
  have t1 : (F64.fin (0 : ℝ)).lt (.fin 1) = true := by simp [F64.lt]
  rw [DVec.normalized, sq, root, if_pos t1]
  simp [DVec.div, doubles, F64.div, o0, o1]

end Verif.Props
