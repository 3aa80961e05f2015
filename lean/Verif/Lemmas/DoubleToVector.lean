import Verif.Props.DoubleMake
import Verif.Props.DoubleBetween

/-!
# Lemmas on rotation vectors made from quaternions in double precision
-/

namespace Verif.Props

open Verif Verif.Spec Verif.Double

/-- the direction of what is near a multiple of a unit vector -/
theorem dir_near {w p : Quaternion ℝ} (hp : ‖p‖ = 1) {k E : ℝ} (k0 : 0 < k) (hE : E < 1) (h : ‖w - k • p‖ ≤ E * k) : ‖‖w‖⁻¹ • w - p‖ ≤ 2 * E := by
  have nk : ‖k • p‖ = k := by rw [norm_smul, hp, mul_one, Real.norm_of_nonneg k0.le]
  have d : |‖w‖ - k| ≤ E * k := by
    have := abs_norm_sub_norm_le w (k • p)
    rw [nk] at this
    exact this.trans h
  have d1 := abs_le.1 d
  have N0 : 0 < ‖w‖ := by nlinarith
  have f2 : ‖‖w‖⁻¹ • w - k⁻¹ • w‖ ≤ E := by
    rw [← sub_smul, norm_smul, Real.norm_eq_abs, show (‖w‖⁻¹ - k⁻¹) = (k - ‖w‖) / (‖w‖ * k) by field_simp, abs_div,
      abs_of_pos (mul_pos N0 k0), abs_sub_comm, div_mul_eq_mul_div, div_le_iff₀ (mul_pos N0 k0)]
    nlinarith
  have f3 : ‖k⁻¹ • w - p‖ ≤ E := by
    rw [show k⁻¹ • w - p = k⁻¹ • (w - k • p) by rw [smul_sub, smul_smul, inv_mul_cancel₀ k0.ne', one_smul], norm_smul, norm_inv,
      Real.norm_of_nonneg k0.le, inv_mul_le_iff₀ k0]
    linarith
  have t2 := norm_sub_le_norm_sub_add_norm_sub (‖w‖⁻¹ • w) (k⁻¹ • w) p
  linarith

/-- errors of the components, as a vector -/
theorem vec_near {a b c A B C ρ τ : ℝ} (hρ : 0 ≤ ρ) (hτ : 0 ≤ τ) (ha : |a - A| ≤ ρ * |A| + τ) (hb : |b - B| ≤ ρ * |B| + τ) (hc : |c - C| ≤ ρ * |C| + τ) :
    ‖pure ⟨a, b, c⟩ - pure ⟨A, B, C⟩‖ ≤ ρ * ‖pure ⟨A, B, C⟩‖ + 2 * τ := by
  have N0 := norm_nonneg (pure ⟨A, B, C⟩)
  refine le_of_sq_le_sq ?_ (by positivity)
  rw [pure_sub, pure_sq]
  have n := pure_sq ⟨A, B, C⟩
  simp only [V3.sub_x, V3.sub_y, V3.sub_z] at n ⊢
  have s : ∀ {x X : ℝ}, |x - X| ≤ ρ * |X| + τ → (x - X) ^ 2 ≤ ρ ^ 2 * X ^ 2 + 2 * (ρ * τ) * |X| + τ ^ 2 := fun {x X} h => by
    rw [← sq_abs]
    refine (pow_le_pow_left₀ (abs_nonneg _) h 2).trans (le_of_eq ?_)
    rw [← sq_abs X]; ring
  have k : |A| + |B| + |C| ≤ 2 * ‖pure ⟨A, B, C⟩‖ := by
    refine le_of_sq_le_sq ?_ (by positivity)
    rw [mul_pow, n, ← sq_abs A, ← sq_abs B, ← sq_abs C]
    nlinarith [sq_nonneg (|A| - |B|), sq_nonneg (|A| - |C|), sq_nonneg (|B| - |C|)]
  have m := mul_le_mul_of_nonneg_left k (mul_nonneg hρ hτ)
  have := s ha
  have := s hb
  have := s hc
  have e : (ρ * ‖pure ⟨A, B, C⟩‖ + 2 * τ) ^ 2 = ρ ^ 2 * (A ^ 2 + B ^ 2 + C ^ 2) + 4 * (ρ * τ) * ‖pure ⟨A, B, C⟩‖ + 4 * τ ^ 2 := by rw [← n]; ring
  rw [e]
  nlinarith [sq_nonneg τ]

theorem div_representable {a b : F64 ℝ} {c : ℝ} (h : a.div b = .fin c) : Representable c := by
  rcases a with x | s | _ <;> rcases b with y | s' | _ <;> simp only [F64.div] at h
  · split_ifs at h
    unfold F64.ofExact at h
    split_ifs at h
    cases h
    exact rnd_representable _
  · cases h; exact representable_zero
  all_goals cases h

/-- the components of a normalised vector are doubles -/
theorem normalized_representable (o : Bool) {x y z a b c : ℝ} (hx : Representable x) (hy : Representable y) (hz : Representable z)
    (h : DVec.normalized o ⟨.fin x, .fin y, .fin z⟩ = ⟨.fin a, .fin b, .fin c⟩) : Representable a ∧ Representable b ∧ Representable c := by
  rw [DVec.normalized] at h
  split_ifs at h
  · rw [DVec.div, DVec.mk.injEq] at h
    exact ⟨div_representable h.1, div_representable h.2.1, div_representable h.2.2⟩
  · cases h
    exact ⟨hx, hy, hz⟩

/-- the computed square of a length that is not small -/
theorem dot3_large (o : Bool) {x y z : ℝ} (S : 1 / 4 ≤ x * x + y * y + z * z) : 2 ^ (-100 : ℤ) ≤ DVec.dot3 o x y z x y z := by
  have us := DQuat.u_small
  have u0 := DQuat.u_pos
  have tu := DRot.t_u
  have k := DVec.dot3_near o x y z x y z
  simp only [abs_mul_self] at k
  refine (show (2 : ℝ) ^ (-100 : ℤ) ≤ 1 / 8 from (zpow_le_zpow_right₀ one_le_two (show (-100 : ℤ) ≤ -3 by norm_num)).trans (by norm_num)).trans ?_
  have k1 := (abs_le.1 k).1
  have : 301 / 100 * DQuat.u * (x * x + y * y + z * z) ≤ 1 / 100 * (x * x + y * y + z * z) := mul_le_mul_of_nonneg_right (by linarith) (by linarith)
  linarith

/-- a vector of moderate length is normalised to near its direction -/
theorem normalized_dir (o : Bool) {x y z : ℝ} (hx : Representable x ∧ |x| ≤ 2 ^ 500) (hy : Representable y ∧ |y| ≤ 2 ^ 500) (hz : Representable z ∧ |z| ≤ 2 ^ 500)
    (h : 1 / 2 ≤ ‖pure ⟨x, y, z⟩‖) :
    ∃ a b c, DVec.normalized o ⟨.fin x, .fin y, .fin z⟩ = ⟨.fin a, .fin b, .fin c⟩ ∧ Representable a ∧ Representable b ∧ Representable c ∧ |a| ≤ 1 ∧ |b| ≤ 1 ∧ |c| ≤ 1 ∧
      ‖pure ⟨a, b, c⟩ - ‖pure ⟨x, y, z⟩‖⁻¹ • pure ⟨x, y, z⟩‖ ≤ 45 / 10 * DQuat.u := by
  have u0 := DQuat.u_pos
  have us := DQuat.u_small
  have t0 := DQuat.t_pos
  have tu := DRot.t_u
  have n := pure_sq ⟨x, y, z⟩
  simp only at n
  have S : 1 / 4 ≤ x * x + y * y + z * z := by nlinarith
  have hd := dot3_large o S
  obtain ⟨a, b, c, e, la, lb, lc, da, db, dc⟩ := DVec.normalized_fin o hx hy hz hd
  obtain ⟨ra, rb, rc⟩ := normalized_representable o hx.1 hy.1 hz.1 e
  refine ⟨a, b, c, e, ra, rb, rc, la, lb, lc, ?_⟩
  have N : Real.sqrt (x * x + y * y + z * z) = ‖pure ⟨x, y, z⟩‖ := by
    rw [← Real.sqrt_sq (norm_nonneg (pure ⟨x, y, z⟩)), n]; simp only [sq]
  have N0 : ‖pure ⟨x, y, z⟩‖ ≠ 0 := by linarith
  rw [N] at da db dc
  have e1 : ‖pure ⟨x, y, z⟩‖⁻¹ • pure ⟨x, y, z⟩ = pure ⟨x / ‖pure ⟨x, y, z⟩‖, y / ‖pure ⟨x, y, z⟩‖, z / ‖pure ⟨x, y, z⟩‖⟩ := by
    rw [pure, pure, hamilton_smul]; simp only [div_eq_inv_mul, mul_zero]
  have e2 : ‖pure ⟨x / ‖pure ⟨x, y, z⟩‖, y / ‖pure ⟨x, y, z⟩‖, z / ‖pure ⟨x, y, z⟩‖⟩‖ = 1 := by
    rw [← e1, norm_smul, norm_inv, norm_norm, inv_mul_cancel₀ N0]
  have v := vec_near (by positivity) t0.le da db dc
  rw [e2] at v
  rw [e1]
  linarith

/-- the constructor accepts what `normalized` returns -/
theorem ctor_accepts (o : Bool) {eps : ℝ} (h9 : 9 / 2 ^ 53 ≤ eps) {a b c : ℝ} (la : |a| ≤ 1) (lb : |b| ≤ 1) (lc : |c| ≤ 1) (h : |‖pure ⟨a, b, c⟩‖ - 1| ≤ 45 / 10 * DQuat.u) (g : DAngle ℝ) :
    DRotVec.ctor o (.fin eps) ⟨.fin a, .fin b, .fin c⟩ g = .ok ⟨DVec.normalized o ⟨.fin a, .fin b, .fin c⟩, g⟩ := by
  have u0 := DQuat.u_pos
  have us := DQuat.u_small
  have big : ∀ {a : ℝ}, |a| ≤ 1 → |a| ≤ 2 ^ 500 := fun h => h.trans (one_le_pow₀ one_le_two)
  have n := pure_sq ⟨a, b, c⟩
  simp only at n
  obtain ⟨n1, n2⟩ := abs_le.1 h
  have S : 1 / 4 ≤ a * a + b * b + c * c := by nlinarith
  have hd := dot3_large o S
  obtain ⟨-, near⟩ := DVec.nrm3_near o hd
  have N : Real.sqrt (a * a + b * b + c * c) = ‖pure ⟨a, b, c⟩‖ := by
    rw [← Real.sqrt_sq (norm_nonneg (pure ⟨a, b, c⟩)), n]; simp only [sq]
  rw [N] at near
  have m : |DVec.nrm3 o a b c - 1| ≤ 1 / 2 ^ 50 := by
    have := abs_sub_le (DVec.nrm3 o a b c) ‖pure ⟨a, b, c⟩‖ 1
    have e : (1 : ℝ) / 2 ^ 50 = 8 * DQuat.u := by unfold DQuat.u; norm_num
    rw [e]
    nlinarith
  have r8 : Representable ((1 : ℝ) / 2 ^ 50) := by
    have := F64.representable_pow (α := ℝ) (e := -50) (by norm_num)
    rwa [show (2 : ℝ) ^ (-50 : ℤ) = 1 / 2 ^ 50 by rw [zpow_neg]; norm_num] at this
  have m' := DLinear.rnd_abs_le r8 m
  have d : DVec.isDefined ⟨.fin a, .fin b, .fin c⟩ = true := by simp [DVec.isDefined]
  rw [DRotVec.ctor, norm_fin3 o (big la) (big lb) (big lc), show rnd (Real.sqrt (DVec.dot3 o a b c a b c)) = DVec.nrm3 o a b c from rfl,
    sub_one2 (nrm3_le o (big la) (big lb) (big lc)), d, Bool.true_and]
  simp only [F64.abs, F64.lt, decide_eq_true_eq, if_true]
  rw [if_neg]
  rw [not_lt]
  exact m'.trans ((by norm_num : (1 : ℝ) / 2 ^ 50 ≤ 9 / 2 ^ 53).trans h9)

/-- the norm of the vector part -/
theorem vector_part_sq (q : Quat) : ‖pure ⟨q.x, q.y, q.z⟩‖ ^ 2 = ‖hamilton q‖ ^ 2 - q.s * q.s := by
  rw [pure_sq, DQuat.norm_hamilton]; ring

/-- the bounds on the divisor -/
theorem divisor_bounds {c2 D d r e : ℝ} (hc : 8 * e + 100 * DQuat.u ≤ c2) (hD : |D - c2| ≤ 22 / 10 * e + 10 * DQuat.u) (e0 : 0 ≤ e)
    (hd : |d - D| ≤ DQuat.u) (hr : r = rnd (Real.sqrt d)) : 0 < d ∧ 0 < r ∧ 64 / 100 * c2 ≤ r ^ 2 ∧ r ^ 2 ≤ 135 / 100 * c2 := by
  have u0 := DQuat.u_pos
  have us := DQuat.u_small
  obtain ⟨a1, a2⟩ := abs_le.1 hD
  obtain ⟨b1, b2⟩ := abs_le.1 hd
  have d1 : 70 / 100 * c2 ≤ d := by linarith
  have d2 : d ≤ 129 / 100 * c2 := by linarith
  have d0 : 0 < d := by linarith
  have dl : 60 * DQuat.u ≤ d := by linarith
  have s0 := Real.sqrt_pos.2 d0
  have s2 := Real.sq_sqrt d0.le
  have sl : 1 / 10 ^ 8 ≤ Real.sqrt d := by
    refine Real.le_sqrt_of_sq_le (le_trans ?_ dl)
    unfold DQuat.u; norm_num
  have n := DRot.near1 (Real.sqrt d)
  rw [← hr, abs_of_pos s0] at n
  have tu := DRot.t_u
  have n' : |r - Real.sqrt d| ≤ 1 / 1000 * Real.sqrt d := by nlinarith
  obtain ⟨r1, r2⟩ := abs_le.1 n'
  refine ⟨d0, by linarith, ?_, ?_⟩
  · have : (999 / 1000 * Real.sqrt d) ^ 2 ≤ r ^ 2 := pow_le_pow_left₀ (by positivity) (by linarith) 2
    nlinarith
  · have : r ^ 2 ≤ (1001 / 1000 * Real.sqrt d) ^ 2 := pow_le_pow_left₀ (by linarith) (by linarith) 2
    nlinarith

/-- the vector part divided by the divisor -/
theorem quotient_near {x r c : ℝ} (r0 : 0 < r) (hx : |x| ≤ c) (hr : 64 / 100 * c ^ 2 ≤ r ^ 2) :
    (F64.fin x).div (.fin r) = .fin (rnd (x / r)) ∧ (Representable (rnd (x / r)) ∧ |rnd (x / r)| ≤ 2 ^ 500) ∧ |rnd (x / r) - x / r| ≤ DQuat.u * |x / r| + DQuat.t := by
  have l : |x / r| ≤ 8 := by
    rw [abs_div, abs_of_pos r0, div_le_iff₀ r0]
    have : (8 / 10 * c) ^ 2 ≤ r ^ 2 := by nlinarith
    have := abs_le_of_sq_le_sq' this r0.le
    linarith
  obtain ⟨e1, r1, l1⟩ := exact_le8 l
  refine ⟨?_, ⟨r1, l1.trans eight_500⟩, DRot.near1 _⟩
  rw [F64.div, if_neg r0.ne', e1]

/-- the sine that belongs to the angle -/
theorem sine_near {acos : ℝ → ℝ} (ha : ArcCosine acos) {s c e : ℝ} (hs : |s| ≤ 1) (c0 : 0 < c) (hD : |1 - s * s - c ^ 2| ≤ e) :
    |Real.cos (acos s) - s| ≤ 4 * DQuat.u ∧ 0 ≤ Real.sin (acos s) ∧ |Real.sin (acos s) - c| ≤ 4 * DQuat.u + e / c := by
  obtain ⟨-, p0, p1, d⟩ := ha s hs
  obtain ⟨s1, s2⟩ := abs_le.1 hs
  have e51 : (2 : ℝ) ^ (-51 : ℤ) = 4 * DQuat.u := by unfold DQuat.u; rw [zpow_neg]; norm_num
  rw [e51] at d
  have k1 := (Real.abs_cos_sub_cos_le (acos s) (Real.arccos s)).trans d
  have k2 := (Real.abs_sin_sub_sin_le (acos s) (Real.arccos s)).trans d
  rw [Real.cos_arccos s1 s2] at k1
  refine ⟨k1, Real.sin_nonneg_of_nonneg_of_le_pi p0 (p1.trans piD_near.2), ?_⟩
  rw [Real.sin_arccos] at k2
  have D0 : 0 ≤ 1 - s ^ 2 := by nlinarith
  have q0 := Real.sqrt_nonneg (1 - s ^ 2)
  have q2 := Real.sq_sqrt D0
  have k3 : |Real.sqrt (1 - s ^ 2) - c| ≤ e / c := by
    rw [le_div_iff₀ c0]
    refine le_trans ?_ hD
    rw [show 1 - s * s - c ^ 2 = (Real.sqrt (1 - s ^ 2) - c) * (Real.sqrt (1 - s ^ 2) + c) by linear_combination -q2, abs_mul,
      abs_of_pos (by linarith : 0 < Real.sqrt (1 - s ^ 2) + c)]
    exact mul_le_mul_of_nonneg_left (by linarith) (abs_nonneg _)
  have := abs_sub_le (Real.sin (acos s)) (Real.sqrt (1 - s ^ 2)) c
  linarith

theorem hamilton_add (p q : Quat) : hamilton p + hamilton q = hamilton ⟨p.x + q.x, p.y + q.y, p.z + q.z, p.s + q.s⟩ := by
  ext <;> rfl

theorem turnAbout_split (a b c t : ℝ) : turnAbout a b c t = hamilton ⟨0, 0, 0, Real.cos (t / 2)⟩ + Real.sin (t / 2) • (‖pure ⟨a, b, c⟩‖⁻¹ • pure ⟨a, b, c⟩) := by
  have N : Real.sqrt (a ^ 2 + b ^ 2 + c ^ 2) = ‖pure ⟨a, b, c⟩‖ := by
    rw [← Real.sqrt_sq (norm_nonneg (pure ⟨a, b, c⟩)), pure_sq]
  rw [smul_smul, pure, hamilton_smul]
  have : turnAbout a b c t = hamilton ⟨a / ‖pure ⟨a, b, c⟩‖ * Real.sin (t / 2), b / ‖pure ⟨a, b, c⟩‖ * Real.sin (t / 2), c / ‖pure ⟨a, b, c⟩‖ * Real.sin (t / 2), Real.cos (t / 2)⟩ := by
    rw [← N]; rfl
  rw [this, hamilton_add]
  congr 1
  simp only [div_eq_mul_inv, zero_add, mul_zero, add_zero, pure]
  ext <;> simp only <;> ring

/-- the axis: divided, normalised, and normalised again by the constructor -/
theorem axis_of (o : Bool) {x y z r : ℝ} (c0 : 0 < ‖pure ⟨x, y, z⟩‖) (r0 : 0 < r) (r1 : 64 / 100 * ‖pure ⟨x, y, z⟩‖ ^ 2 ≤ r ^ 2)
    (r2 : r ^ 2 ≤ 135 / 100 * ‖pure ⟨x, y, z⟩‖ ^ 2) :
    ∃ a1 b1 c1 a2 b2 c2, DVec.normalized o (DVec.div ⟨.fin x, .fin y, .fin z⟩ (.fin r)) = ⟨.fin a1, .fin b1, .fin c1⟩ ∧ |a1| ≤ 1 ∧ |b1| ≤ 1 ∧ |c1| ≤ 1 ∧
      |‖pure ⟨a1, b1, c1⟩‖ - 1| ≤ 45 / 10 * DQuat.u ∧ DVec.normalized o ⟨.fin a1, .fin b1, .fin c1⟩ = ⟨.fin a2, .fin b2, .fin c2⟩ ∧
      |‖pure ⟨a2, b2, c2⟩‖ - 1| ≤ 45 / 10 * DQuat.u ∧ ‖‖pure ⟨a2, b2, c2⟩‖⁻¹ • pure ⟨a2, b2, c2⟩ - ‖pure ⟨x, y, z⟩‖⁻¹ • pure ⟨x, y, z⟩‖ ≤ 201 / 10 * DQuat.u := by
  have u0 := DQuat.u_pos
  have us := DQuat.u_small
  have t0 := DQuat.t_pos
  have tu := DRot.t_u
  have C2 : x ^ 2 + y ^ 2 + z ^ 2 = ‖pure ⟨x, y, z⟩‖ ^ 2 := (pure_sq ⟨x, y, z⟩).symm
  set v : Quaternion ℝ := pure ⟨x, y, z⟩ with hvdef
  have cx : |x| ≤ ‖v‖ := abs_le_of_sq_le_sq (by nlinarith [sq_nonneg y, sq_nonneg z]) c0.le
  have cy : |y| ≤ ‖v‖ := abs_le_of_sq_le_sq (by nlinarith [sq_nonneg x, sq_nonneg z]) c0.le
  have cz : |z| ≤ ‖v‖ := abs_le_of_sq_le_sq (by nlinarith [sq_nonneg y, sq_nonneg x]) c0.le
  obtain ⟨ex, sx, dx⟩ := quotient_near r0 cx r1
  obtain ⟨ey, sy, dy⟩ := quotient_near r0 cy r1
  obtain ⟨ez, sz, dz⟩ := quotient_near r0 cz r1
  have w1 := vec_near u0.le t0.le dx dy dz
  have ew : pure ⟨x / r, y / r, z / r⟩ = (‖v‖ / r) • (‖v‖⁻¹ • v) := by
    rw [smul_smul, show ‖v‖ / r * ‖v‖⁻¹ = r⁻¹ by field_simp, hvdef, pure, pure, hamilton_smul]; simp only [div_eq_inv_mul, mul_zero]
  have nv : ‖‖v‖⁻¹ • v‖ = 1 := by rw [norm_smul, norm_inv, norm_norm, inv_mul_cancel₀ c0.ne']
  have k0 : 0 < ‖v‖ / r := div_pos c0 r0
  have k8 : 8 / 10 ≤ ‖v‖ / r := by
    rw [le_div_iff₀ r0]
    have : r ^ 2 ≤ (12 / 10 * ‖v‖) ^ 2 := by nlinarith
    have := abs_le_of_sq_le_sq' this (by positivity)
    linarith
  rw [ew, norm_smul, nv, mul_one, Real.norm_of_nonneg k0.le] at w1
  have w2 : ‖pure ⟨rnd (x / r), rnd (y / r), rnd (z / r)⟩ - (‖v‖ / r) • (‖v‖⁻¹ • v)‖ ≤ 101 / 100 * DQuat.u * (‖v‖ / r) := by nlinarith
  have D1 := dir_near nv k0 (by linarith) w2
  have W : 1 / 2 ≤ ‖pure ⟨rnd (x / r), rnd (y / r), rnd (z / r)⟩‖ := by
    have := norm_sub_norm_le ((‖v‖ / r) • (‖v‖⁻¹ • v)) (pure ⟨rnd (x / r), rnd (y / r), rnd (z / r)⟩)
    rw [norm_smul, nv, mul_one, Real.norm_of_nonneg k0.le, norm_sub_rev] at this
    nlinarith
  obtain ⟨a1, b1, c1, e1, ra, rb, rc, la, lb, lc, near1⟩ := normalized_dir o sx sy sz W
  set w : Quaternion ℝ := pure ⟨rnd (x / r), rnd (y / r), rnd (z / r)⟩ with hw
  have w0 : ‖w‖ ≠ 0 := by linarith
  have nw : ‖‖w‖⁻¹ • w‖ = 1 := by rw [norm_smul, norm_inv, norm_norm, inv_mul_cancel₀ w0]
  have unit : ∀ {p : Quaternion ℝ} {X : Quaternion ℝ}, ‖p‖ = 1 → ‖X - p‖ ≤ 45 / 10 * DQuat.u → |‖X‖ - 1| ≤ 45 / 10 * DQuat.u ∧ ‖‖X‖⁻¹ • X - p‖ ≤ 9 * DQuat.u := by
    intro p X hp h
    refine ⟨?_, ?_⟩
    · have := abs_norm_sub_norm_le X p
      rw [hp] at this
      linarith
    · have := dir_near hp one_pos (E := 45 / 10 * DQuat.u) (by linarith) (by rw [one_smul, mul_one]; exact h)
      linarith
  obtain ⟨un1, D2⟩ := unit nw near1
  have big : ∀ {a : ℝ}, |a| ≤ 1 → |a| ≤ 2 ^ 500 := fun h => h.trans (one_le_pow₀ one_le_two)
  obtain ⟨a2, b2, c2, e2, -, -, -, -, -, -, near2⟩ := normalized_dir o ⟨ra, big la⟩ ⟨rb, big lb⟩ ⟨rc, big lc⟩ (by linarith [(abs_le.1 un1).1])
  set Y : Quaternion ℝ := pure ⟨a1, b1, c1⟩ with hY
  have y0 : ‖Y‖ ≠ 0 := by linarith [(abs_le.1 un1).1]
  have ny : ‖‖Y‖⁻¹ • Y‖ = 1 := by rw [norm_smul, norm_inv, norm_norm, inv_mul_cancel₀ y0]
  obtain ⟨un2, D3⟩ := unit ny near2
  refine ⟨a1, b1, c1, a2, b2, c2, ?_, la, lb, lc, un1, e2, un2, ?_⟩
  · rw [DVec.div, ex, ey, ez, e1]
  · have g1 := norm_sub_le_norm_sub_add_norm_sub (‖pure ⟨a2, b2, c2⟩‖⁻¹ • pure ⟨a2, b2, c2⟩) (‖Y‖⁻¹ • Y) (‖v‖⁻¹ • v)
    have g2 := norm_sub_le_norm_sub_add_norm_sub (‖Y‖⁻¹ • Y) (‖w‖⁻¹ • w) (‖v‖⁻¹ • v)
    linarith

/-- the error of the rotation, from the errors of the axis, the sine and the cosine -/
theorem rotation_error {q : Quat} (c0 : 0 < ‖pure ⟨q.x, q.y, q.z⟩‖) (c1 : ‖pure ⟨q.x, q.y, q.z⟩‖ ≤ 113 / 100) {a b c σ κ e : ℝ} (hκ : |κ - q.s| ≤ 4 * DQuat.u)
    (σ0 : 0 ≤ σ) (σ1 : σ ≤ 1) (hσ : |σ - ‖pure ⟨q.x, q.y, q.z⟩‖| ≤ 4 * DQuat.u + (22 / 10 * e + 10 * DQuat.u) / ‖pure ⟨q.x, q.y, q.z⟩‖)
    (h : ‖‖pure ⟨a, b, c⟩‖⁻¹ • pure ⟨a, b, c⟩ - ‖pure ⟨q.x, q.y, q.z⟩‖⁻¹ • pure ⟨q.x, q.y, q.z⟩‖ ≤ 201 / 10 * DQuat.u) :
    ‖hamilton ⟨0, 0, 0, κ⟩ + σ • (‖pure ⟨a, b, c⟩‖⁻¹ • pure ⟨a, b, c⟩) - hamilton q‖ ≤ (22 / 10 * e + 50 * DQuat.u) / ‖pure ⟨q.x, q.y, q.z⟩‖ := by
  have u0 := DQuat.u_pos
  set v : Quaternion ℝ := pure ⟨q.x, q.y, q.z⟩ with hvdef
  have nv : ‖‖v‖⁻¹ • v‖ = 1 := by rw [norm_smul, norm_inv, norm_norm, inv_mul_cancel₀ c0.ne']
  have eq : hamilton q = hamilton ⟨0, 0, 0, q.s⟩ + ‖v‖ • (‖v‖⁻¹ • v) := by
    rw [smul_smul, mul_inv_cancel₀ c0.ne', one_smul, hvdef, pure, hamilton_add]; simp
  have split : ∀ (A B X Y : Quaternion ℝ) (σ κ : ℝ), A + σ • X - (B + κ • Y) = (A - B) + (σ • (X - Y) + (σ - κ) • Y) := fun A B X Y σ κ => by
    rw [smul_sub, sub_smul]; abel
  rw [eq, split]
  have f1 : ‖hamilton ⟨0, 0, 0, κ⟩ - hamilton ⟨0, 0, 0, q.s⟩‖ ≤ 4 * DQuat.u := by
    refine le_trans (le_of_sq_le_sq ?_ (abs_nonneg _)) hκ
    rw [hamilton_sub, DQuat.norm_hamilton, sq_abs]
    simp
  have f2 : ‖σ • (‖pure ⟨a, b, c⟩‖⁻¹ • pure ⟨a, b, c⟩ - ‖v‖⁻¹ • v)‖ ≤ 201 / 10 * DQuat.u := by
    rw [norm_smul, Real.norm_of_nonneg σ0]
    exact (mul_le_of_le_one_left (norm_nonneg _) σ1).trans h
  have f3 : ‖(σ - ‖v‖) • (‖v‖⁻¹ • v)‖ ≤ 4 * DQuat.u + (22 / 10 * e + 10 * DQuat.u) / ‖v‖ := by
    rw [norm_smul, nv, mul_one, Real.norm_eq_abs]; exact hσ
  refine (norm_add_le _ _).trans ((add_le_add f1 ((norm_add_le _ _).trans (add_le_add f2 f3))).trans ?_)
  have e' : (22 / 10 * e + 50 * DQuat.u) / ‖v‖ = 40 * DQuat.u / ‖v‖ + (22 / 10 * e + 10 * DQuat.u) / ‖v‖ := by rw [← add_div]; congr 1; ring
  have f4 : 281 / 10 * DQuat.u ≤ 40 * DQuat.u / ‖v‖ := by rw [le_div_iff₀ c0]; nlinarith
  rw [e']
  linarith

theorem norm_eq_of {q : Quat} {n : ℝ} (h : 0 ≤ n) (e : q.s ^ 2 + q.x ^ 2 + q.y ^ 2 + q.z ^ 2 = n ^ 2) : ‖hamilton q‖ = n := by
  rw [← abs_of_nonneg (norm_nonneg (hamilton q)), ← abs_of_nonneg h, ← sq_eq_sq_iff_abs_eq_abs, DQuat.norm_hamilton, ← e]

theorem vector_part_near (p q : Quat) : |‖pure ⟨p.x, p.y, p.z⟩‖ - ‖pure ⟨q.x, q.y, q.z⟩‖| ≤ ‖hamilton p - hamilton q‖ := by
  refine (abs_norm_sub_norm_le _ _).trans (le_of_sq_le_sq ?_ (norm_nonneg _))
  rw [pure_sub, pure_sq, hamilton_sub, DQuat.norm_hamilton]
  simp only [V3.sub_x, V3.sub_y, V3.sub_z]
  nlinarith [sq_nonneg (p.s - q.s)]

/-- the vector part of a rotation is as long as the sine of the half angle -/
theorem vector_part_turn {x y z : ℝ} (h : 0 < x ^ 2 + y ^ 2 + z ^ 2) (t : ℝ) (q : Quat) : |‖pure ⟨q.x, q.y, q.z⟩‖ - (|Real.sin (t / 2)|)| ≤ ‖hamilton q - turnAbout x y z t‖ := by
  have n0 := Real.sqrt_pos.2 h
  have k := vector_part_near q ⟨x / Real.sqrt (x ^ 2 + y ^ 2 + z ^ 2) * Real.sin (t / 2), y / Real.sqrt (x ^ 2 + y ^ 2 + z ^ 2) * Real.sin (t / 2),
    z / Real.sqrt (x ^ 2 + y ^ 2 + z ^ 2) * Real.sin (t / 2), Real.cos (t / 2)⟩
  have e : ‖pure ⟨x / Real.sqrt (x ^ 2 + y ^ 2 + z ^ 2) * Real.sin (t / 2), y / Real.sqrt (x ^ 2 + y ^ 2 + z ^ 2) * Real.sin (t / 2),
      z / Real.sqrt (x ^ 2 + y ^ 2 + z ^ 2) * Real.sin (t / 2)⟩‖ = |Real.sin (t / 2)| := by
    refine norm_eq_of (abs_nonneg _) ?_
    simp only [mul_pow, div_pow, Real.sq_sqrt h.le, sq_abs]
    field_simp
    ring
  rw [e] at k
  exact k

/-- the error of the way there and back -/
theorem back_error {e σ v A B : ℝ} (e1 : 9 * DQuat.u ≤ e) (hσ : 8 * e + 200 * DQuat.u ≤ σ ^ 2) (σ0 : 0 ≤ σ) (σ1 : σ ≤ 1) (hv : |v - σ| ≤ 18 * DQuat.u)
    (hA : A ≤ (22 / 10 * e + 50 * DQuat.u) / v) (hB : B ≤ 18 * DQuat.u) : 0 < v ∧ 8 * e + 100 * DQuat.u ≤ v ^ 2 ∧ A + B ≤ (23 / 10 * e + 75 * DQuat.u) / σ := by
  have u0 := DQuat.u_pos
  have us := DQuat.u_small
  obtain ⟨v1, v2⟩ := abs_le.1 hv
  have σp : 0 < σ := by
    rcases σ0.lt_or_eq with h | h
    · exact h
    · rw [← h] at hσ; nlinarith
  have σu : 10000 * DQuat.u ≤ σ := by
    by_contra hh
    push Not at hh
    nlinarith
  have v0 : 99 / 100 * σ ≤ v := by linarith
  have vp : 0 < v := by linarith
  refine ⟨vp, by nlinarith, ?_⟩
  have k : (22 / 10 * e + 50 * DQuat.u) / v ≤ (23 / 10 * e + 55 * DQuat.u) / σ := by
    rw [div_le_div_iff₀ vp σp]
    nlinarith [mul_pos u0 σp, mul_nonneg (show 0 ≤ e by linarith) σ0]
  have k2 : 20 * DQuat.u ≤ 20 * DQuat.u / σ := by rw [le_div_iff₀ σp]; nlinarith
  have e' : (23 / 10 * e + 75 * DQuat.u) / σ = (23 / 10 * e + 55 * DQuat.u) / σ + 20 * DQuat.u / σ := by rw [← add_div]; congr 1; ring
  rw [e']
  linarith

theorem tempered_scalar {x s : ℝ} (hx : Representable x) (lx : |x| ≤ 8) (hs : Representable s) (ls : |s| ≤ 8) : Tempered ⟨x, 0, 0, s⟩ :=
  have o0 : Representable (0 : ℝ) ∧ |(0 : ℝ)| ≤ 2 ^ 500 := ⟨representable_zero, by rw [abs_zero]; exact pow_nonneg zero_le_two _⟩
  ⟨⟨hx, lx.trans eight_500⟩, o0, o0, ⟨hs, ls.trans eight_500⟩⟩

/-- a quaternion whose scalar part is plus or minus one becomes the rotation by zero, whatever its vector part -/
theorem to_unit (o : Bool) {acos : ℝ → ℝ} {neg : Res (F64 ℝ)} {q : Quat} {eps : ℝ} (h9 : 9 / 2 ^ 53 ≤ eps) (hu : DQuat.isUnitary (.fin eps) (.of q) = .ok true) (hs : |q.s| = 1) :
    DRotVec.Quaternion o (.fin eps) acos neg (.of q) = .ok ⟨⟨.fin 0, .fin 0, .fin 1⟩, ⟨.fin 0, .radian⟩⟩ := by
  have h0 : |(0 : ℝ)| ≤ 1 := by simp
  have h1 : |(1 : ℝ)| ≤ 1 := by simp
  have c : ((DQuat.of q).beq DQuat.Unit || (DQuat.of q).s.abs.eq (.fin 1)) = true := by simp [DQuat.of, F64.eq, F64.abs, hs]
  rw [DRotVec.Quaternion, isDefined_of, hu]
  simp only [Bool.not_true, Bool.false_eq_true, if_false, bind, Except.bind, c, if_true]
  have n1 : ‖pure ⟨0, 0, 1⟩‖ = 1 := norm_eq_of zero_le_one (by norm_num)
  rw [DRotVec.Unit, ctor_accepts o h9 h0 h0 h1 (by rw [n1]; simp; exact DQuat.u_pos.le)]
  have d : DVec.squaredNorm o ⟨.fin 0, .fin 0, .fin 1⟩ = .fin 1 := by
    have := (DVec.dot_fin o (h0.trans (one_le_pow₀ one_le_two)) (h0.trans (one_le_pow₀ one_le_two)) (h1.trans (one_le_pow₀ one_le_two)) (h0.trans (one_le_pow₀ one_le_two))
      (h0.trans (one_le_pow₀ one_le_two)) (h1.trans (one_le_pow₀ one_le_two))).1
    rw [DVec.squaredNorm, this]
    cases o <;> simp [DVec.dot3, DVec.sum3, rnd_zero, rnd_exact rep_one]
  have e0 : F64.ofExact (0 : ℝ) = .fin 0 := by
    have := (exact_le8 (v := 0) (by simp)).1
    rwa [rnd_zero] at this
  have e1 : F64.ofExact (1 : ℝ) = .fin 1 := by
    have := (exact_le8 (v := 1) (by simp)).1
    rwa [rnd_exact rep_one] at this
  have q : (F64.fin (1 : ℝ)).sqrt = .fin 1 := by rw [F64.sqrt, if_neg (by norm_num), Real.sqrt_one, rnd_exact rep_one]
  rw [DVec.normalized, d, q]
  simp [F64.lt, DVec.div, F64.div, e0, e1]

theorem scalar_unitary {s eps : ℝ} (hs : Representable s) (h : |s - 1| ≤ 2 / 2 ^ 53) (h9 : 9 / 2 ^ 53 ≤ eps) (h1 : eps ≤ 1 / 8) (hr : Representable eps) :
    DQuat.isUnitary (.fin eps) (.of ⟨0, 0, 0, s⟩) = .ok true := by
  obtain ⟨a1, a2⟩ := abs_le.1 h
  have e : (2 : ℝ) / 2 ^ 53 ≤ 9 / 2 ^ 53 - 4 / 2 ^ 53 := by norm_num
  have e' : (2 : ℝ) / 2 ^ 53 ≤ 1 := by norm_num
  refine (C120_unitary (tempered_scalar representable_zero (by simp) hs (by rw [abs_le]; constructor <;> linarith)) (by linarith [show (0 : ℝ) < 9 / 2 ^ 53 by norm_num]) h1 hr).1 ?_
  have n : ‖hamilton ⟨0, 0, 0, s⟩‖ = s := norm_eq_of (by linarith) (by ring)
  rw [n]
  linarith

end Verif.Props
