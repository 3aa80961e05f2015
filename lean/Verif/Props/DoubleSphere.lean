import Verif.Lemmas.DoubleSphere
import Verif.Props.DoubleLine2

/-!
# Spheres, lines, rays and planes in double precision

Property C127. Code: `Sphere.cpp`, `Line.cpp`, `Ray.cpp` and `Plane.cpp` of `src/OpenSpaceToolkit/Mathematics/Geometry/3D/Object`.
-/

namespace Verif.Props

open Verif Verif.Spec Verif.Double

/-- the number that `Sphere::contains` compares with the tolerance -/
noncomputable def sphereR (o : Bool) (c : V3) (r : ℝ) (p : V3) : ℝ := rnd (dotR o (diff3 p c) (diff3 p c) - rnd (r * r))

theorem contains_sphere (o : Bool) (eps : ℝ) {c p : V3} {r : ℝ} (hc : Within c) (hp : Within p) (hr : |r| ≤ 2 ^ 499) :
    DSphere.contains o (.fin eps) (doubles c) (.fin r) (doubles p) = .ok (decide (|sphereR o c r p| < eps)) := by
  obtain ⟨e, b⟩ := sub_doubles (by norm_num) hp.bounded hc.bounded
  have b := b.mono (show 499 + 1 ≤ 500 by norm_num)
  obtain ⟨e1, b1⟩ := DVec.dot_fin o b.1 b.2.1 b.2.2 b.1 b.2.1 b.2.2
  have hr' : |r| ≤ 2 ^ 500 := hr.trans (pow_le_pow_right₀ one_le_two (by norm_num))
  obtain ⟨e2, b2⟩ := DVec.mul_fin2 hr' hr'
  have b2' : |rnd (r * r)| ≤ 2 ^ 1002 := b2.trans (pow_le_pow_right₀ one_le_two (by norm_num))
  obtain ⟨e3, -⟩ := DVec.sub_fin2 (n := 1002) (by norm_num) b1 b2'
  have e1' : (doubles (diff3 p c)).squaredNorm o = .fin (dotR o (diff3 p c) (diff3 p c)) := e1
  have nn : (open Classical in decide (F64.fin r = .nan)) = false := decide_eq_false (by simp)
  rw [DSphere.contains, doubles_defined, doubles_defined, e, e1', e2, nn]
  simp only [Bool.not_true, Bool.or_self, Bool.false_eq_true, if_false]
  rw [show dotR o (diff3 p c) (diff3 p c) = DVec.dot3 o (diff3 p c).x (diff3 p c).y (diff3 p c).z (diff3 p c).x (diff3 p c).y (diff3 p c).z from rfl, e3]
  simp only [F64.abs, F64.lt]
  rfl

theorem sphereR_near (o : Bool) {c p : V3} {r : ℝ} (hc : Within c) (hp : Within p) :
    |sphereR o c r p - ((p - c).normSq - r * r)| ≤ 61 / 10 * DQuat.u * ((p - c).normSq + r * r) + 5 * DQuat.t := by
  have u0 := DQuat.u_pos
  have u1 := DQuat.u_small
  have t0 := DQuat.t_pos
  have h1 := dotR_near o (diff3 p c) (diff3 p c)
  have hx := diff_sq hp.x.1 hc.x.1
  have hy := diff_sq hp.y.1 hc.y.1
  have hz := diff_sq hp.z.1 hc.z.1
  have h2 : |(diff3 p c).dot (diff3 p c) - (p - c).normSq| ≤ 201 / 100 * DQuat.u * (p - c).normSq := by
    have e1 : (diff3 p c).dot (diff3 p c) - (p - c).normSq = (rnd (p.x - c.x) * rnd (p.x - c.x) - (p.x - c.x) ^ 2) +
        (rnd (p.y - c.y) * rnd (p.y - c.y) - (p.y - c.y) ^ 2) + (rnd (p.z - c.z) * rnd (p.z - c.z) - (p.z - c.z) ^ 2) := by
      simp only [V3.normSq, V3.dot, diff3, V3.sub_x, V3.sub_y, V3.sub_z]; ring
    have e2 : (p - c).normSq = (p.x - c.x) ^ 2 + (p.y - c.y) ^ 2 + (p.z - c.z) ^ 2 := by
      simp only [V3.normSq, V3.dot, V3.sub_x, V3.sub_y, V3.sub_z]; ring
    rw [e1, e2]
    refine (abs_add_three _ _ _).trans ?_
    linarith
  have h3 := DVec.mul_near r r
  have hrr : |r * r| = r * r := abs_of_nonneg (mul_self_nonneg r)
  rw [hrr] at h3
  rw [V3.norm_mul_self] at h1
  have h4 := DLine2.sub_near (x := dotR o (diff3 p c) (diff3 p c)) (y := rnd (r * r)) (DVec.sum3_representable _ _ _ _) (rnd_representable _)
  have u1' : DQuat.u ≤ 1 / 1000 := by linarith
  exact DSphere.combine u0.le u1' t0.le (V3.normSq_nonneg _) (mul_self_nonneg r) (DSphere.chain u0.le u1' (V3.normSq_nonneg _) h1 h2) h3 h4

/-- the error of the comparison -/
theorem sphere_error (c p : V3) (r : ℝ) : 61 / 10 * DQuat.u * ((p - c).normSq + r * r) + 5 * DQuat.t ≤ 7 / 2 ^ 53 * ((p - c).norm ^ 2 + r ^ 2) + 2 ^ (-1072 : ℤ) := by
  have u0 := DQuat.u_pos
  have h : 5 * DQuat.t ≤ (2 : ℝ) ^ (-1072 : ℤ) := by
    rw [DQuat.t, show (-1072 : ℤ) = 3 + -1075 by norm_num, zpow_add₀ two_ne_zero]
    exact mul_le_mul_of_nonneg_right (by norm_num) (two_zpow_pos _).le
  rw [V3.norm_sq, show (7 : ℝ) / 2 ^ 53 = 7 * DQuat.u by rw [DQuat.u]; ring, sq r]
  have hN : 0 ≤ (p - c).normSq + r * r := add_nonneg (V3.normSq_nonneg _) (mul_self_nonneg r)
  have := mul_nonneg u0.le hN
  refine add_le_add ?_ h
  nlinarith

/-- C127: a sphere decides by the difference between the square of the distance from the centre and the square of the radius: it accepts no point for which this
difference exceeds the tolerance by more than a stated error, and it accepts every point for which it is smaller than the tolerance by more than that error -/
theorem C127_sphere (o : Bool) (eps : ℝ) {c p : V3} {r : ℝ} (hc : Within c) (hp : Within p) (hr : |r| ≤ 2 ^ 499) :
    ∃ b, DSphere.contains o (.fin eps) (doubles c) (.fin r) (doubles p) = .ok b ∧
      (b = true → |(p - c).norm ^ 2 - r ^ 2| < eps + (7 / 2 ^ 53 * ((p - c).norm ^ 2 + r ^ 2) + 2 ^ (-1072 : ℤ))) ∧
      (|(p - c).norm ^ 2 - r ^ 2| + (7 / 2 ^ 53 * ((p - c).norm ^ 2 + r ^ 2) + 2 ^ (-1072 : ℤ)) < eps → b = true) := by
  have h1 := (sphereR_near o (r := r) hc hp).trans (sphere_error c p r)
  refine ⟨_, contains_sphere o eps hc hp hr, fun h => ?_, fun h => ?_⟩
  · rw [decide_eq_true_eq] at h
    have e := abs_sub_abs_le_abs_sub ((p - c).normSq - r * r) (sphereR o c r p)
    rw [abs_sub_comm _ (sphereR o c r p)] at e
    have e' : (p - c).norm ^ 2 - r ^ 2 = (p - c).normSq - r * r := by rw [V3.norm_sq, sq]
    rw [e']
    generalize 7 / 2 ^ 53 * ((p - c).norm ^ 2 + r ^ 2) + (2 : ℝ) ^ (-1072 : ℤ) = E at *
    linarith
  · rw [decide_eq_true_eq]
    have e := abs_sub_abs_le_abs_sub (sphereR o c r p) ((p - c).normSq - r * r)
    have e' : (p - c).norm ^ 2 - r ^ 2 = (p - c).normSq - r * r := by rw [V3.norm_sq, sq]
    rw [e'] at h
    generalize 7 / 2 ^ 53 * ((p - c).norm ^ 2 + r ^ 2) + (2 : ℝ) ^ (-1072 : ℤ) = E at *
    linarith

/-- the point of a sphere on the half line from the centre through a point -/
theorem nearest_on_sphere (c p : V3) (r : ℝ) : ∃ q ∈ SphereSet c r, (p - q).norm = |(p - c).norm - r| := by
  by_cases h : (p - c).norm = 0
  · refine ⟨c + ⟨r, 0, 0⟩, ?_, ?_⟩
    · show (c + ⟨r, 0, 0⟩ - c).norm = |r|
      rw [show c + ⟨r, 0, 0⟩ - c = (⟨r, 0, 0⟩ : V3) by ext <;> simp, V3.norm, show (⟨r, 0, 0⟩ : V3).normSq = r ^ 2 by simp [V3.normSq, V3.dot, sq], Real.sqrt_sq_eq_abs]
    · have : p = c := by
        have := V3.norm_eq_zero.1 h
        have h1 := congrArg V3.x this; have h2 := congrArg V3.y this; have h3 := congrArg V3.z this
        simp at h1 h2 h3
        ext <;> linarith
      subst this
      rw [h, zero_sub, abs_neg, show p - (p + ⟨r, 0, 0⟩) = (⟨-r, 0, 0⟩ : V3) by ext <;> simp, V3.norm,
        show (⟨-r, 0, 0⟩ : V3).normSq = r ^ 2 by simp [V3.normSq, V3.dot, sq], Real.sqrt_sq_eq_abs]
  · refine ⟨c + (r / (p - c).norm) • (p - c), ?_, ?_⟩
    · show (c + (r / (p - c).norm) • (p - c) - c).norm = |r|
      rw [show c + (r / (p - c).norm) • (p - c) - c = (r / (p - c).norm) • (p - c) by ext <;> simp, V3.norm_smul, abs_div, abs_of_nonneg (V3.norm_nonneg _),
        div_mul_cancel₀ _ h]
    · rw [show p - (c + (r / (p - c).norm) • (p - c)) = (1 - r / (p - c).norm) • (p - c) by ext <;> simp <;> ring, V3.norm_smul]
      have e : (p - c).norm - r = (1 - r / (p - c).norm) * (p - c).norm := by rw [sub_mul, one_mul, div_mul_cancel₀ _ h]
      rw [e, abs_mul, abs_of_nonneg (V3.norm_nonneg (p - c))]

/-- C127: a point that a sphere accepts is near the sphere, with the tolerance divided by the radius -/
theorem C127_near (o : Bool) {eps : ℝ} (he : 0 ≤ eps) {c p : V3} {r : ℝ} (hc : Within c) (hp : Within p) (hr : r ≤ 2 ^ 499) (h0 : 0 < r)
    (h : DSphere.contains o (.fin eps) (doubles c) (.fin r) (doubles p) = .ok true) :
    ∃ q ∈ SphereSet c r, (p - q).norm ≤ (eps + 2 ^ (-1072 : ℤ)) / r + 7 / 2 ^ 53 * ((p - c).norm + r) := by
  obtain ⟨b, e, h1, -⟩ := C127_sphere o eps hc hp (r := r) (by rwa [abs_of_pos h0])
  rw [h, Except.ok.injEq] at e
  have h2 := h1 e.symm
  obtain ⟨q, hq, hd⟩ := nearest_on_sphere c p r
  refine ⟨q, hq, hd.trans_le ?_⟩
  have d0 := V3.norm_nonneg (p - c)
  have t0 : (0 : ℝ) < 2 ^ (-1072 : ℤ) := two_zpow_pos _
  rw [show (p - c).norm ^ 2 - r ^ 2 = ((p - c).norm - r) * ((p - c).norm + r) by ring, abs_mul, abs_of_pos (show 0 < (p - c).norm + r by linarith)] at h2
  generalize (p - c).norm = d at *
  generalize (2 : ℝ) ^ (-1072 : ℤ) = t at *
  have k0 : (0 : ℝ) ≤ 7 / 2 ^ 53 := by positivity
  generalize (7 : ℝ) / 2 ^ 53 = k at *
  have h3 : |d - r| * (d + r) ≤ ((eps + t) / r + k * (d + r)) * (d + r) := by
    have h4 : eps + t ≤ (eps + t) / r * (d + r) := by
      rw [mul_add, div_mul_cancel₀ _ h0.ne']
      have : 0 ≤ (eps + t) / r * d := by positivity
      linarith
    have h5 : k * (d ^ 2 + r ^ 2) ≤ k * ((d + r) * (d + r)) := mul_le_mul_of_nonneg_left (by nlinarith) k0
    calc _ ≤ eps + (k * (d ^ 2 + r ^ 2) + t) := h2.le
      _ ≤ (eps + t) / r * (d + r) + k * ((d + r) * (d + r)) := by linarith
      _ = _ := by ring
  exact le_of_mul_le_mul_right h3 (by linarith)

example : Within ⟨1, 2, 3⟩ ∧ Within ⟨1, 2, 4⟩ ∧ |(1 : ℝ)| ≤ 2 ^ 499 := by
  have h : ∀ n : ℤ, |n| ≤ 2 ^ 53 → Representable (n : ℝ) ∧ |(n : ℝ)| ≤ 2 ^ 499 := fun n hn => ⟨representable_int hn, by
    have h1 : (|(n : ℝ)|) ≤ 2 ^ 53 := by exact_mod_cast hn
    exact h1.trans (pow_le_pow_right₀ one_le_two (by norm_num))⟩
  have h1 := h 1 (by norm_num)
  have h2 := h 2 (by norm_num)
  have h3 := h 3 (by norm_num)
  have h4 := h 4 (by norm_num)
  push_cast at h1 h2 h3 h4
  exact ⟨⟨h1, h2, h3⟩, ⟨h1, h2, h4⟩, h1.2⟩

/-- C127: from radius 4 on, the tolerance of `Real::Epsilon()`, which is less than `2 ^ -49`, has no effect: a point is accepted only if the two rounded squares are
equal in every bit -/
theorem C127_no_tolerance (o : Bool) {eps : ℝ} (he : 0 < eps) (he' : eps ≤ 2 ^ (-49 : ℤ)) {c p : V3} {r : ℝ} (hc : Within c) (hp : Within p) (hr : |r| ≤ 2 ^ 499)
    (h4 : 4 ≤ |r|) : DSphere.contains o (.fin eps) (doubles c) (.fin r) (doubles p) =
      .ok ((((doubles p).sub (doubles c)).squaredNorm o).eq ((F64.fin r).mul (.fin r))) := by
  rw [contains_sphere o eps hc hp hr]
  obtain ⟨e, b⟩ := sub_doubles (by norm_num) hp.bounded hc.bounded
  have b := b.mono (show 499 + 1 ≤ 500 by norm_num)
  have hr' : |r| ≤ 2 ^ 500 := hr.trans (pow_le_pow_right₀ one_le_two (by norm_num))
  rw [e, DVec.squaredNorm, dot_doubles o b b, (DVec.mul_fin2 hr' hr').1, F64.eq]
  congr 1
  rw [decide_eq_decide]
  constructor
  · intro h
    by_contra hne
    have r16 : Representable (16 : ℝ) := by simpa using representable_int (α := ℝ) (m := 16) (by norm_num)
    have hq : 16 ≤ rnd (r * r) := le_rnd r16 (by rw [← abs_mul_abs_self]; nlinarith)
    have ap := DSphere.apart (x := dotR o (diff3 p c) (diff3 p c)) (DVec.sum3_representable _ _ _ _) (rnd_representable _) hq hne
    have rp : Representable ((2 : ℝ) ^ (-49 : ℤ)) := F64.representable_pow (by norm_num)
    have : (2 : ℝ) ^ (-49 : ℤ) ≤ |sphereR o c r p| := by
      rw [sphereR]
      rcases le_abs.1 ap with k | k
      · exact (le_rnd rp k).trans (le_abs_self _)
      · have := le_rnd rp k
        rw [rnd_neg] at this
        exact this.trans (neg_le_abs _)
    exact absurd h (not_lt.2 (he'.trans this))
  · intro h
    rw [sphereR, h, sub_self, rnd_zero, abs_zero]
    exact he

theorem diff3_zero {p : V3} (h : Within p) : diff3 p 0 = p := by
  ext
  · show rnd (p.x - 0) = _; rw [sub_zero, rnd_exact h.x.1]
  · show rnd (p.y - 0) = _; rw [sub_zero, rnd_exact h.y.1]
  · show rnd (p.z - 0) = _; rw [sub_zero, rnd_exact h.z.1]

theorem within_zero : Within 0 := by
  have h : Representable (0 : ℝ) ∧ |(0 : ℝ)| ≤ 2 ^ 499 := ⟨representable_zero, by rw [abs_zero]; positivity⟩
  exact ⟨h, h, h⟩

/-- C127: a sphere about the origin accepts the six points where it meets the axes -/
theorem C127_poles (o : Bool) {eps : ℝ} (he : 0 < eps) {r s : ℝ} (hr : Representable r) (hr' : |r| ≤ 2 ^ 499) (hs : s = r ∨ s = -r) :
    DSphere.contains o (.fin eps) (doubles 0) (.fin r) (doubles ⟨s, 0, 0⟩) = .ok true ∧
    DSphere.contains o (.fin eps) (doubles 0) (.fin r) (doubles ⟨0, s, 0⟩) = .ok true ∧
    DSphere.contains o (.fin eps) (doubles 0) (.fin r) (doubles ⟨0, 0, s⟩) = .ok true := by
  have h0 : Representable (0 : ℝ) ∧ |(0 : ℝ)| ≤ 2 ^ 499 := ⟨representable_zero, by rw [abs_zero]; positivity⟩
  have h1 : Representable s ∧ |s| ≤ 2 ^ 499 := by
    rcases hs with rfl | rfl
    · exact ⟨hr, hr'⟩
    · exact ⟨representable_neg hr, by rwa [abs_neg]⟩
  have e : s * s = r * r := by rcases hs with rfl | rfl <;> ring
  have w1 : Within ⟨s, 0, 0⟩ := ⟨h1, h0, h0⟩
  have w2 : Within ⟨0, s, 0⟩ := ⟨h0, h1, h0⟩
  have w3 : Within ⟨0, 0, s⟩ := ⟨h0, h0, h1⟩
  rw [contains_sphere o eps within_zero w1 hr', contains_sphere o eps within_zero w2 hr', contains_sphere o eps within_zero w3 hr']
  simp only [sphereR, diff3_zero w1, diff3_zero w2, diff3_zero w3]
  refine ⟨?_, ?_, ?_⟩ <;> congr 1 <;> rw [decide_eq_true_eq] <;>
    cases o <;> simp [dotR, DVec.dot3, DVec.sum3, rnd_zero, rnd_rnd, e, he]

/-- C127: the sphere of radius 5 about the origin does not contain the doubles nearest to (5/3, 10/3, 10/3), in either order of summation -/
theorem C127_sphere_violated (o : Bool) {eps : ℝ} (he' : eps ≤ 2 ^ (-49 : ℤ)) :
    DSphere.contains o (.fin eps) (doubles 0) (.fin 5) (doubles ⟨rnd (5 / 3), rnd (10 / 3), rnd (10 / 3)⟩) = .ok false := by
  have ea : rnd ((5 : ℝ) / 3) = 7505999378950827 * 2 ^ (-52 : ℤ) := by
    rw [rnd_eq 7505999378950827 (-52) (by norm_num) (by norm_num) (by norm_num) (by norm_num)]; norm_num
  have eb : rnd ((10 : ℝ) / 3) = 7505999378950827 * 2 ^ (-51 : ℤ) := by
    rw [rnd_eq 7505999378950827 (-51) (by norm_num) (by norm_num) (by norm_num) (by norm_num)]; norm_num
  have eaa : rnd ((7505999378950827 : ℝ) * 2 ^ (-52 : ℤ) * (7505999378950827 * 2 ^ (-52 : ℤ))) = 6254999482459023 * 2 ^ (-51 : ℤ) := by
    rw [rnd_eq 6254999482459023 (-51) (by norm_num) (by norm_num) (by norm_num) (by norm_num)]; norm_num
  have ebb : rnd ((7505999378950827 : ℝ) * 2 ^ (-51 : ℤ) * (7505999378950827 * 2 ^ (-51 : ℤ))) = 6254999482459023 * 2 ^ (-49 : ℤ) := by
    rw [rnd_eq 6254999482459023 (-49) (by norm_num) (by norm_num) (by norm_num) (by norm_num)]; norm_num
  have s1 : rnd ((6254999482459023 : ℝ) * 2 ^ (-51 : ℤ) + 6254999482459023 * 2 ^ (-49 : ℤ)) = 7818749353073779 * 2 ^ (-49 : ℤ) := by
    rw [rnd_eq 7818749353073779 (-49) (by norm_num) (by norm_num) (by norm_num) (by norm_num)]; norm_num
  have s2 : rnd ((7818749353073779 : ℝ) * 2 ^ (-49 : ℤ) + 6254999482459023 * 2 ^ (-49 : ℤ)) = 7036874417766401 * 2 ^ (-48 : ℤ) := by
    rw [rnd_eq 7036874417766401 (-48) (by norm_num) (by norm_num) (by norm_num) (by norm_num)]; norm_num
  have s3 : rnd ((6254999482459023 : ℝ) * 2 ^ (-49 : ℤ) + 6254999482459023 * 2 ^ (-49 : ℤ)) = 6254999482459023 * 2 ^ (-48 : ℤ) := by
    rw [rnd_eq 6254999482459023 (-48) (by norm_num) (by norm_num) (by norm_num) (by norm_num)]; norm_num
  have s4 : rnd ((6254999482459023 : ℝ) * 2 ^ (-51 : ℤ) + 6254999482459023 * 2 ^ (-48 : ℤ)) = 7036874417766401 * 2 ^ (-48 : ℤ) := by
    rw [rnd_eq 7036874417766401 (-48) (by norm_num) (by norm_num) (by norm_num) (by norm_num)]; norm_num
  have r25 : rnd ((5 : ℝ) * 5) = 25 := by
    have : Representable (25 : ℝ) := by simpa using representable_int (α := ℝ) (m := 25) (by norm_num)
    rw [show (5 : ℝ) * 5 = 25 by norm_num, rnd_exact this]
  have rd : rnd ((7036874417766401 : ℝ) * 2 ^ (-48 : ℤ) - 25) = 2 ^ (-48 : ℤ) := by
    rw [show (7036874417766401 : ℝ) * 2 ^ (-48 : ℤ) - 25 = 2 ^ (-48 : ℤ) by norm_num, rnd_exact (F64.representable_pow (by norm_num))]
  have big : ∀ x : ℝ, |x| ≤ 8 → |x| ≤ 2 ^ 499 := fun x hx => hx.trans (by
    calc (8 : ℝ) = 2 ^ 3 := by norm_num
      _ ≤ _ := pow_le_pow_right₀ one_le_two (by norm_num))
  have w : Within ⟨rnd (5 / 3), rnd (10 / 3), rnd (10 / 3)⟩ :=
    ⟨⟨rnd_representable _, big _ (by rw [ea]; norm_num [abs_of_pos])⟩, ⟨rnd_representable _, big _ (by rw [eb]; norm_num [abs_of_pos])⟩,
      ⟨rnd_representable _, big _ (by rw [eb]; norm_num [abs_of_pos])⟩⟩
  rw [contains_sphere o eps within_zero w (big _ (by norm_num)), sphereR, diff3_zero w]
  have : dotR o ⟨rnd (5 / 3), rnd (10 / 3), rnd (10 / 3)⟩ ⟨rnd (5 / 3), rnd (10 / 3), rnd (10 / 3)⟩ = 7036874417766401 * 2 ^ (-48 : ℤ) := by
    simp only [dotR, DVec.dot3, ea, eb, eaa, ebb]
    cases o <;> simp only [DVec.sum3, s1, s2, s3, s4, if_true, Bool.false_eq_true, if_false]
  rw [this, r25, rd]
  congr 1
  rw [decide_eq_false_iff_not, not_lt]
  refine he'.trans ?_
  rw [abs_of_pos (two_zpow_pos _)]
  exact zpow_le_zpow_right₀ one_le_two (by norm_num)

/-- C127: the sphere of radius `2 ^ -25` contains its centre -/
theorem C127_center_violated (o : Bool) {eps : ℝ} (he : 2 ^ (-50 : ℤ) < eps) {c : V3} (hc : Within c) :
    DSphere.contains o (.fin eps) (doubles c) (.fin (2 ^ (-25 : ℤ))) (doubles c) = .ok true := by
  have h : |(2 : ℝ) ^ (-25 : ℤ)| ≤ 2 ^ 499 := by
    rw [abs_of_pos (two_zpow_pos _)]
    exact (zpow_le_one_of_nonpos₀ one_le_two (by norm_num)).trans (one_le_pow₀ one_le_two)
  rw [contains_sphere o eps hc hc h, sphereR, diff3_self, dotR_zero, ← zpow_add₀ two_ne_zero, rnd_exact (F64.representable_pow (by norm_num)), zero_sub, rnd_neg,
    rnd_exact (F64.representable_pow (by norm_num)), abs_neg, abs_of_pos (two_zpow_pos _)]
  simpa using he

example : (2 : ℝ) ^ (-50 : ℤ) < 1 / 10 ^ 15 ∧ (1 : ℝ) / 10 ^ 15 ≤ 2 ^ (-49 : ℤ) := by norm_num

/-! ## Lines, rays and planes -/

theorem sum_zero (o : Bool) {a b c : ℝ} (ra : Representable a) (rb : Representable b) (rc : Representable c) (ha : 0 ≤ a) (hb : 0 ≤ b) (hc : 0 ≤ c) :
    DVec.sum3 o a b c = 0 ↔ a = 0 ∧ b = 0 ∧ c = 0 := by
  constructor
  · intro h
    have key : ∀ x y : ℝ, Representable x → 0 ≤ x → 0 ≤ y → rnd (x + y) = 0 → x = 0 := fun x y rx hx hy h =>
      le_antisymm (by rw [← h]; exact le_rnd rx (by linarith)) hx
    unfold DVec.sum3 at h
    split at h
    · have h1 := key _ _ ra ha (le_rnd representable_zero (by linarith)) h
      rw [add_comm] at h
      have h2 := key _ _ (rnd_representable _) (le_rnd representable_zero (by linarith)) ha h
      have h3 := key _ _ rb hb hc h2
      rw [add_comm] at h2
      exact ⟨h1, h3, key _ _ rc hc hb h2⟩
    · have h2 := key _ _ (rnd_representable _) (le_rnd representable_zero (by linarith)) hc h
      rw [add_comm] at h
      have h1 := key _ _ rc hc (le_rnd representable_zero (by linarith)) h
      have h3 := key _ _ ra ha hb h2
      rw [add_comm] at h2
      exact ⟨h3, key _ _ rb hb ha h2, h1⟩
  · rintro ⟨rfl, rfl, rfl⟩
    cases o <;> simp [DVec.sum3, rnd_zero]

theorem dotR_self_zero (o : Bool) (v : V3) : dotR o v v = 0 ↔ rnd (v.x * v.x) = 0 ∧ rnd (v.y * v.y) = 0 ∧ rnd (v.z * v.z) = 0 :=
  sum_zero o (rnd_representable _) (rnd_representable _) (rnd_representable _) (DQuat.sq_nonneg' _) (DQuat.sq_nonneg' _) (DQuat.sq_nonneg' _)

theorem diff3_exact {a p w : V3} (h : p = a + w) (hx : Representable w.x) (hy : Representable w.y) (hz : Representable w.z) : diff3 p a = w := by
  subst h
  ext
  · show rnd (a.x + w.x - a.x) = _; rw [add_sub_cancel_left, rnd_exact hx]
  · show rnd (a.y + w.y - a.y) = _; rw [add_sub_cancel_left, rnd_exact hy]
  · show rnd (a.z + w.z - a.z) = _; rw [add_sub_cancel_left, rnd_exact hz]

theorem cross3_smul (d : V3) (k : ℝ) : cross3 d (k • d) = 0 := by
  simp only [cross3, V3.smul_x, V3.smul_y, V3.smul_z]
  rw [show d.z * (k * d.y) = d.y * (k * d.z) by ring, show d.x * (k * d.z) = d.z * (k * d.x) by ring, show d.y * (k * d.x) = d.x * (k * d.y) by ring]
  simp only [sub_self, rnd_zero]; rfl

/-- C127: a line accepts every point that differs from the origin by a multiple of the stored direction, and a ray if the multiple is not negative, as long as the
difference is a vector of doubles: products that are equal are rounded to the same number -/
theorem C127_multiples (o : Bool) {a d p : V3} (ha : Small a) (hd : d.norm ≤ 2) (hp : Small p) (k : ℝ) (e : p = a + k • d) (hx : Representable (k * d.x))
    (hy : Representable (k * d.y)) (hz : Representable (k * d.z)) :
    DLine.contains o (doubles a) (doubles d) (doubles p) = .ok true ∧ (0 ≤ k → DRay.contains o (doubles a) (doubles d) (doubles p) = .ok true) := by
  have e1 : diff3 p a = k • d := diff3_exact e hx hy hz
  have e2 : dotR o (cross3 d (diff3 p a)) (cross3 d (diff3 p a)) = 0 := by rw [e1, cross3_smul, dotR_zero]
  refine ⟨?_, fun hk => ?_⟩
  · rw [(contains_line o ha hd hp).1, e2]; simp
  · rw [(contains_line o ha hd hp).2.1, e2, decide_eq_true]
    refine ⟨rfl, ?_⟩
    rw [e1]
    refine DVec.sum3_nonneg o ?_ ?_ ?_ <;> refine le_rnd representable_zero ?_ <;> simp only [V3.smul_x, V3.smul_y, V3.smul_z]
    · nlinarith [mul_self_nonneg d.x, mul_nonneg hk (mul_self_nonneg d.x)]
    · nlinarith [mul_self_nonneg d.y, mul_nonneg hk (mul_self_nonneg d.y)]
    · nlinarith [mul_self_nonneg d.z, mul_nonneg hk (mul_self_nonneg d.z)]

example : ∃ a d p : V3, Small a ∧ d.norm ≤ 2 ∧ Small p ∧ p = a + (3 : ℝ) • d ∧ Representable (3 * d.x) ∧ Representable (3 * d.y) ∧ Representable (3 * d.z) := by
  have h : ∀ n : ℤ, |n| ≤ 2 ^ 53 → Representable (n : ℝ) ∧ |(n : ℝ)| ≤ 2 ^ 248 := fun n hn => ⟨representable_int hn, by
    have h1 : (|(n : ℝ)|) ≤ 2 ^ 53 := by exact_mod_cast hn
    exact h1.trans (pow_le_pow_right₀ one_le_two (by norm_num))⟩
  have h0 := h 0 (by norm_num)
  have h1 := h 1 (by norm_num)
  have h3 := h 3 (by norm_num)
  push_cast at h0 h1 h3
  refine ⟨⟨1, 0, 0⟩, ⟨0, 1, 0⟩, ⟨1, 3, 0⟩, ⟨h1, h0, h0⟩, ?_, ⟨h1, h3, h0⟩, by ext <;> simp, by simpa using h0.1, by simpa using h3.1, by simpa using h0.1⟩
  rw [V3.norm, show (⟨0, 1, 0⟩ : V3).normSq = 1 by simp [V3.normSq, V3.dot], Real.sqrt_one]
  norm_num

/-- the three pairs of directions along the axes -/
def axis (s : ℝ) : Fin 3 → V3
  | 0 => ⟨s, 0, 0⟩
  | 1 => ⟨0, s, 0⟩
  | 2 => ⟨0, 0, s⟩

/-- a coordinate -/
def coord (p : V3) : Fin 3 → ℝ
  | 0 => p.x
  | 1 => p.y
  | 2 => p.z

theorem axisVector_norm {s : ℝ} (hs : s = 1 ∨ s = -1) (i : Fin 3) : (axis s i).norm ≤ 2 := by
  have : (axis s i).normSq = 1 := by fin_cases i <;> rcases hs with rfl | rfl <;> simp [axis, V3.normSq, V3.dot]
  rw [V3.norm, this, Real.sqrt_one]; norm_num

/-- C127: planes orthogonal to an axis accept exactly their points -/
theorem C127_planes (o : Bool) {a p : V3} (ha : Small a) (hp : Small p) {s : ℝ} (hs : s = 1 ∨ s = -1) (i : Fin 3) :
    DPlane.contains o (doubles a) (doubles (axis s i)) (doubles p) = .ok (decide (coord p i = coord a i)) := by
  rw [(contains_line o ha (axisVector_norm hs i) hp).2.2]
  congr 1
  rw [decide_eq_decide]
  have key : ∀ x y : ℝ, Representable x → Representable y → (rnd (x - y) = 0 ↔ x = y) := fun x y hx hy =>
    ⟨fun h => by_contra fun hne => DLine2.sub_ne_zero' hx hy hne h, fun h => by rw [h, sub_self, rnd_zero]⟩
  fin_cases i <;> rcases hs with rfl | rfl <;> cases o <;>
    simp [axis, coord, dotR, DVec.dot3, DVec.sum3, diff3, rnd_zero, rnd_rnd, rnd_neg, key _ _ hp.x.1 ha.x.1, key _ _ hp.y.1 ha.y.1, key _ _ hp.z.1 ha.z.1]

theorem square_zero {x y : ℝ} (h : x = y ∨ 2 ^ (-500 : ℤ) ≤ |x - y|) :
    rnd (rnd (x - y) * rnd (x - y)) = 0 ↔ x = y := by
  constructor
  · intro h0
    rcases h with h | h
    · exact h
    · exfalso
      have h1 := DSegment.small_of_sq h0
      have rp : Representable ((2 : ℝ) ^ (-500 : ℤ)) := F64.representable_pow (by norm_num)
      have h2 : (2 : ℝ) ^ (-500 : ℤ) ≤ |rnd (x - y)| := by
        rcases le_abs.1 h with k | k
        · exact (le_rnd rp k).trans (le_abs_self _)
        · have := le_rnd rp k
          rw [rnd_neg] at this
          exact this.trans (neg_le_abs _)
      exact absurd (h2.trans h1) (not_le.2 (zpow_lt_zpow_right₀ one_lt_two (by norm_num)))
  · rintro rfl
    simp [rnd_zero]

theorem mem_axis {a p : V3} {s : ℝ} (hs : s = 1 ∨ s = -1) (i : Fin 3) : p ∈ LineSet a (axis s i) ↔ ∀ j ≠ i, coord p j = coord a j := by
  constructor
  · rintro ⟨t, rfl⟩ j hj
    fin_cases i <;> fin_cases j <;> simp [axis, coord] at hj ⊢
  · intro h
    refine ⟨s * (coord p i - coord a i), ?_⟩
    have e : s * (coord p i - coord a i) * s = coord p i - coord a i := by rcases hs with rfl | rfl <;> ring
    have h0 := h 0
    have h1 := h 1
    have h2 := h 2
    fin_cases i <;> simp [coord] at h0 h1 h2 e <;> ext <;> simp [axis, coord] <;> first | assumption | linarith

/-- C127: lines parallel to an axis accept exactly their points among those whose other coordinates agree with those of the origin or differ by `2 ^ -500` or more -/
theorem C127_axes (o : Bool) {a p : V3} (ha : Small a) (hp : Small p) {s : ℝ} (hs : s = 1 ∨ s = -1) (i : Fin 3)
    (h : ∀ j ≠ i, coord p j = coord a j ∨ 2 ^ (-500 : ℤ) ≤ |coord p j - coord a j|) :
    (DLine.contains o (doubles a) (doubles (axis s i)) (doubles p) = .ok true ↔ p ∈ LineSet a (axis s i)) := by
  rw [mem_axis hs, (contains_line o ha (axisVector_norm hs i) hp).1, Except.ok.injEq, decide_eq_true_eq, dotR_self_zero]
  have h0 := h 0
  have h1 := h 1
  have h2 := h 2
  have f : (∀ j ≠ i, coord p j = coord a j) ↔ (0 ≠ i → p.x = a.x) ∧ (1 ≠ i → p.y = a.y) ∧ (2 ≠ i → p.z = a.z) := by
    constructor
    · intro k; exact ⟨k 0, k 1, k 2⟩
    · rintro ⟨k0, k1, k2⟩ j hj
      fin_cases j
      · exact k0 hj
      · exact k1 hj
      · exact k2 hj
  rw [f]
  fin_cases i <;> simp [coord] at h0 h1 h2 <;> rcases hs with rfl | rfl <;> simp [axis, cross3, diff3, rnd_zero, rnd_rnd, rnd_neg]
  · rw [square_zero h1, square_zero h2]; tauto
  · rw [square_zero h1, square_zero h2]; tauto
  · rw [square_zero h0, square_zero h2]; tauto
  · rw [square_zero h0, square_zero h2]; tauto
  · rw [square_zero h0, square_zero h1]; tauto
  · rw [square_zero h0, square_zero h1]; tauto

example : Small ⟨1, 2, 3⟩ ∧ Small ⟨1, 7, 3⟩ ∧ (∀ j ≠ (1 : Fin 3), coord (⟨1, 7, 3⟩ : V3) j = coord ⟨1, 2, 3⟩ j ∨ 2 ^ (-500 : ℤ) ≤ |coord (⟨1, 7, 3⟩ : V3) j - coord ⟨1, 2, 3⟩ j|) := by
  have h : ∀ n : ℤ, |n| ≤ 2 ^ 53 → Representable (n : ℝ) ∧ |(n : ℝ)| ≤ 2 ^ 248 := fun n hn => ⟨representable_int hn, by
    rw [← Int.cast_abs]
    exact (Int.cast_le.2 hn).trans (by norm_num)⟩
  have h1 := h 1 (by norm_num)
  have h2 := h 2 (by norm_num)
  have h3 := h 3 (by norm_num)
  have h7 := h 7 (by norm_num)
  push_cast at h1 h2 h3 h7
  refine ⟨⟨h1, h2, h3⟩, ⟨h1, h7, h3⟩, fun j hj => .inl ?_⟩
  fin_cases j <;> simp_all [coord]

/-- the doubles nearest to 3/5 and 4/5 -/
noncomputable def threeFifths : ℝ := 5404319552844595 * 2 ^ (-53 : ℤ)
@[inherit_doc threeFifths]
noncomputable def fourFifths : ℝ := 7205759403792794 * 2 ^ (-53 : ℤ)

theorem fifths : F64.ofExact ((3 : ℝ) / 5) = .fin threeFifths ∧ F64.ofExact ((4 : ℝ) / 5) = .fin fourFifths := by
  constructor
  · rw [ofExact_at 5404319552844595 (-53) (by norm_num) (by norm_num) (by norm_num) (by norm_num) (by norm_num) (by norm_num), threeFifths]; norm_num
  · rw [ofExact_at 7205759403792794 (-53) (by norm_num) (by norm_num) (by norm_num) (by norm_num) (by norm_num) (by norm_num), fourFifths]; norm_num

/-- (3, 4, 0) is normalised to the doubles nearest to (3/5, 4/5, 0) -/
theorem normalized_345 (o : Bool) : (doubles ⟨3, 4, 0⟩).normalized o = doubles ⟨threeFifths, fourFifths, 0⟩ ∧ (doubles ⟨3, 4, 0⟩).squaredNorm o = .fin 25 ∧
    (doubles ⟨threeFifths, fourFifths, 0⟩).squaredNorm o = .fin 1 := by
  have i0 := ofExact_int 0 (by norm_num)
  have i9 := ofExact_int 9 (by norm_num)
  have i16 := ofExact_int 16 (by norm_num)
  have i25 := ofExact_int 25 (by norm_num)
  norm_num at i0 i9 i16 i25
  have r5 : Representable (5 : ℝ) := by simpa using representable_int (α := ℝ) (m := 5) (by norm_num)
  have es : (F64.fin (25 : ℝ)).sqrt = .fin 5 := by
    have : √(25 : ℝ) = 5 := by rw [show (25 : ℝ) = 5 ^ 2 by norm_num]; exact Real.sqrt_sq (by norm_num)
    simp only [F64.sqrt, this, rnd_exact r5]
    rw [if_neg (by norm_num)]
  have q : (doubles ⟨3, 4, 0⟩).squaredNorm o = .fin 25 := by
    simp only [DVec.squaredNorm, DVec.dot, doubles, F64.mul]
    cases o <;> norm_num [i9, i16, F64.add, i25, DVec.sum, i0]
  refine ⟨?_, q, ?_⟩
  · have q' := q
    rw [doubles] at q'
    simp only [DVec.normalized, DVec.div, q', es, F64.lt, doubles, F64.div, fifths.1, fifths.2]
    norm_num [i0]
  · have eA : F64.ofExact (fourFifths * fourFifths) = .fin (5764607523034236 * 2 ^ (-53 : ℤ)) := by
      rw [fourFifths, ofExact_at 5764607523034236 (-53) (by norm_num) (by norm_num) (by norm_num) (by norm_num) (by norm_num) (by norm_num)]; norm_num
    have eB : F64.ofExact (threeFifths * threeFifths) = .fin (6485183463413514 * 2 ^ (-54 : ℤ)) := by
      rw [threeFifths, ofExact_at 6485183463413514 (-54) (by norm_num) (by norm_num) (by norm_num) (by norm_num) (by norm_num) (by norm_num)]; norm_num
    have eS : F64.ofExact ((6485183463413514 : ℝ) * 2 ^ (-54 : ℤ) + 5764607523034236 * 2 ^ (-53 : ℤ)) = .fin 1 := by
      rw [ofExact_at 4503599627370496 (-52) (by norm_num) (by norm_num) (by norm_num) (by norm_num) (by norm_num) (by norm_num)]; norm_num
    have e1 : F64.ofExact ((5764607523034236 : ℝ) * 2 ^ (-53 : ℤ)) = .fin (5764607523034236 * 2 ^ (-53 : ℤ)) := by
      rw [ofExact_at 5764607523034236 (-53) (by norm_num) (by norm_num) (by norm_num) (by norm_num) (by norm_num) (by norm_num)]; norm_num
    have i1 := ofExact_int 1 (by norm_num)
    norm_num at i1
    simp only [DVec.squaredNorm, DVec.dot, doubles, F64.mul, eA, eB, mul_zero, i0]
    cases o <;> simp only [DVec.sum, F64.add, add_zero, eS, e1, i1, if_true, Bool.false_eq_true, if_false]

theorem fifths_products : rnd (threeFifths * 4) = 5404319552844595 * 2 ^ (-51 : ℤ) ∧ rnd (fourFifths * 3) = 5404319552844596 * 2 ^ (-51 : ℤ) := by
  constructor
  · rw [threeFifths, rnd_eq 5404319552844595 (-51) (by norm_num) (by norm_num) (by norm_num) (by norm_num)]; norm_num
  · rw [fourFifths, rnd_eq 5404319552844596 (-51) (by norm_num) (by norm_num) (by norm_num) (by norm_num)]; norm_num

theorem fifths_difference : rnd ((5404319552844595 : ℝ) * 2 ^ (-51 : ℤ) - 5404319552844596 * 2 ^ (-51 : ℤ)) = -2 ^ (-51 : ℤ) := by
  rw [show (5404319552844595 : ℝ) * 2 ^ (-51 : ℤ) - 5404319552844596 * 2 ^ (-51 : ℤ) = -2 ^ (-51 : ℤ) by norm_num, rnd_neg,
    rnd_exact (F64.representable_pow (by norm_num))]

theorem small_of_int (n : ℤ) (hn : |n| ≤ 2 ^ 53) : Representable (n : ℝ) ∧ |(n : ℝ)| ≤ 2 ^ 248 := ⟨representable_int hn, by
    have h1 : (|(n : ℝ)|) ≤ 2 ^ 53 := by exact_mod_cast hn
    exact h1.trans (pow_le_pow_right₀ one_le_two (by norm_num))⟩

theorem fifths_norm : (⟨threeFifths, fourFifths, 0⟩ : V3).norm ≤ 2 := by
  rw [V3.norm, Real.sqrt_le_left (by norm_num)]
  simp only [V3.normSq, V3.dot, threeFifths, fourFifths]
  norm_num

/-- C127: the line through (0, 0, 0) and (3, 4, 0) does not contain (3, 4, 0), and the ray from (0, 0, 0) along (3, 4, 0) does not either -/
theorem C127_second_violated (o : Bool) : ∃ l, DLine.Points o (doubles ⟨0, 0, 0⟩) (doubles ⟨3, 4, 0⟩) = .ok l ∧ DLine.ctor o (doubles ⟨0, 0, 0⟩) (doubles ⟨3, 4, 0⟩) = .ok l ∧
    DLine.contains o l.1 l.2 (doubles ⟨3, 4, 0⟩) = .ok false ∧ DRay.contains o l.1 l.2 (doubles ⟨3, 4, 0⟩) = .ok false := by
  obtain ⟨n, q, q'⟩ := normalized_345 o
  have h0 := small_of_int 0 (by norm_num)
  have h3 := small_of_int 3 (by norm_num)
  have h4 := small_of_int 4 (by norm_num)
  push_cast at h0 h3 h4
  have s0 : Small ⟨0, 0, 0⟩ := ⟨h0, h0, h0⟩
  have s1 : Small ⟨3, 4, 0⟩ := ⟨h3, h4, h0⟩
  have e0 : diff3 ⟨3, 4, 0⟩ ⟨0, 0, 0⟩ = ⟨3, 4, 0⟩ := diff3_zero s1.within
  have sb : (doubles ⟨3, 4, 0⟩).sub (doubles ⟨0, 0, 0⟩) = doubles ⟨3, 4, 0⟩ := by
    rw [(sub_doubles (n := 248) (by norm_num) s1.bounded s0.bounded).1, e0]
  have c1 : DLine.ctor o (doubles ⟨0, 0, 0⟩) (doubles ⟨3, 4, 0⟩) = .ok (doubles ⟨0, 0, 0⟩, doubles ⟨threeFifths, fourFifths, 0⟩) := by
    have e1 : (F64.fin (25 : ℝ)).eq (.fin 1) = false := by simp [F64.eq]
    have e2 : (F64.fin (25 : ℝ)).eq (.fin 0) = false := by simp [F64.eq]
    simp only [DLine.ctor, doubles_defined, q, e1, e2, n, Bool.not_false, Bool.and_true, if_true, Bool.false_eq_true, if_false]
  have c2 : DLine.Points o (doubles ⟨0, 0, 0⟩) (doubles ⟨3, 4, 0⟩) = .ok (doubles ⟨0, 0, 0⟩, doubles ⟨threeFifths, fourFifths, 0⟩) := by
    have e1 : (F64.fin (1 : ℝ)).eq (.fin 1) = true := by simp [F64.eq]
    have e3 : (doubles ⟨0, 0, 0⟩).eq (doubles ⟨3, 4, 0⟩) = false := by rw [doubles_eq]; simp
    simp only [DLine.Points, DLine.ctor, doubles_defined, sb, n, q', e1, e3, Bool.not_true, Bool.and_false, Bool.false_eq_true, if_false]
  have z : dotR o (cross3 ⟨threeFifths, fourFifths, 0⟩ ⟨3, 4, 0⟩) (cross3 ⟨threeFifths, fourFifths, 0⟩ ⟨3, 4, 0⟩) ≠ 0 := by
    rw [Ne, dotR_self_zero]
    rintro ⟨-, -, h⟩
    simp only [cross3] at h
    rw [fifths_products.1, fifths_products.2, fifths_difference, neg_mul_neg, ← zpow_add₀ two_ne_zero, rnd_exact (F64.representable_pow (by norm_num))] at h
    exact absurd h (two_zpow_pos _).ne'
  refine ⟨_, c2, c1, ?_, ?_⟩
  · rw [(contains_line o s0 fifths_norm s1).1, e0, decide_eq_false z]
  · rw [(contains_line o s0 fifths_norm s1).2.1, e0, decide_eq_false fun h => z h.1]

/-- C127: the plane through (0, 0, 0) with the normal (3, 4, 0) does not contain (4, -3, 0) -/
theorem C127_plane_violated (o : Bool) : DPlane.contains o (DPlane.ctor o (doubles ⟨0, 0, 0⟩) (doubles ⟨3, 4, 0⟩)).1
    (DPlane.ctor o (doubles ⟨0, 0, 0⟩) (doubles ⟨3, 4, 0⟩)).2 (doubles ⟨4, -3, 0⟩) = .ok false := by
  obtain ⟨n, -, -⟩ := normalized_345 o
  have h0 := small_of_int 0 (by norm_num)
  have h3 := small_of_int (-3) (by norm_num)
  have h4 := small_of_int 4 (by norm_num)
  push_cast at h0 h3 h4
  have s0 : Small ⟨0, 0, 0⟩ := ⟨h0, h0, h0⟩
  have s1 : Small ⟨4, -3, 0⟩ := ⟨h4, h3, h0⟩
  have e0 : diff3 ⟨4, -3, 0⟩ ⟨0, 0, 0⟩ = ⟨4, -3, 0⟩ := diff3_zero s1.within
  have z : dotR o ⟨4, -3, 0⟩ ⟨threeFifths, fourFifths, 0⟩ = -2 ^ (-51 : ℤ) := by
    have e1 : rnd (4 * threeFifths) = 5404319552844595 * 2 ^ (-51 : ℤ) := by rw [mul_comm, fifths_products.1]
    have e2 : rnd (-3 * fourFifths) = -(5404319552844596 * 2 ^ (-51 : ℤ)) := by rw [neg_mul, rnd_neg, mul_comm, fifths_products.2]
    have e3 : rnd (-(2 : ℝ) ^ (-51 : ℤ)) = -2 ^ (-51 : ℤ) := by rw [rnd_neg, rnd_exact (F64.representable_pow (by norm_num))]
    have e4 : rnd (-((5404319552844596 : ℝ) * 2 ^ (-51 : ℤ))) = -(5404319552844596 * 2 ^ (-51 : ℤ)) := by rw [← fifths_products.2, rnd_neg, rnd_rnd]
    simp only [dotR, DVec.dot3, e1, e2, mul_zero, rnd_zero]
    cases o <;> simp only [DVec.sum3, add_zero, e4, ← sub_eq_add_neg, fifths_difference, e3, if_true, Bool.false_eq_true, if_false]
  simp only [DPlane.ctor]
  rw [n, (contains_line o s0 fifths_norm s1).2.2, e0, z, decide_eq_false]
  exact neg_ne_zero.2 (two_zpow_pos _).ne'

end Verif.Props
