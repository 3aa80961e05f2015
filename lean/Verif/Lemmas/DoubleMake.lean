import Verif.Model.DoubleMake
import Verif.Spec.DoubleMake
import Verif.Props.DoubleMatrix
import Verif.Lemmas.DoubleBetween
import Mathlib.Analysis.SpecialFunctions.Trigonometric.Bounds

/-! # Lemmas on the conversions to quaternions in double precision -/

namespace Verif.Props

open Verif Verif.Spec Verif.Double

/-- the quaternion that `normalize` computes -/
noncomputable def unitR (w : Quat) : Quat :=
  let n := DQuat.nrm w.x w.y w.z w.s
  ⟨rnd (w.x / n), rnd (w.y / n), rnd (w.z / n), rnd (w.s / n)⟩

theorem hamilton_sub (p q : Quat) : hamilton p - hamilton q = hamilton ⟨p.x - q.x, p.y - q.y, p.z - q.z, p.s - q.s⟩ := by
  ext <;> rfl

theorem hamilton_smul (k : ℝ) (q : Quat) : k • hamilton q = hamilton ⟨k * q.x, k * q.y, k * q.z, k * q.s⟩ := by
  ext <;> rfl

/-- the rounding of the four quotients -/
theorem unitR_near {w : Quat} (h : 2 ^ (-400 : ℤ) ≤ w.x * w.x + w.y * w.y + w.z * w.z + w.s * w.s) :
    ‖hamilton (unitR w) - ‖hamilton w‖⁻¹ • hamilton w‖ ≤ 45 / 10 * DQuat.u := by
  have u0 := DQuat.u_pos
  have tu := DRot.t_u
  have t0 := DQuat.t_pos
  have N0 : 0 < ‖hamilton w‖ := by rw [← norm_sqrt]; exact Real.sqrt_pos.2 (lt_of_lt_of_le (two_zpow_pos _) h)
  have near := DQuat.nrm_near h
  rw [norm_sqrt] at near
  have c := fun a => component_near (a := a) N0 near
  have N2 : (w.x / ‖hamilton w‖) ^ 2 + (w.y / ‖hamilton w‖) ^ 2 + (w.z / ‖hamilton w‖) ^ 2 + (w.s / ‖hamilton w‖) ^ 2 = 1 := by
    have e := norm_sq w
    field_simp
    linarith
  have e : hamilton (unitR w) - ‖hamilton w‖⁻¹ • hamilton w = hamilton ⟨(unitR w).x - w.x / ‖hamilton w‖, (unitR w).y - w.y / ‖hamilton w‖,
      (unitR w).z - w.z / ‖hamilton w‖, (unitR w).s - w.s / ‖hamilton w‖⟩ := by
    rw [hamilton_smul, hamilton_sub]; simp only [div_eq_inv_mul]
  rw [e]
  refine le_of_sq_le_sq ?_ (by positivity)
  rw [DQuat.norm_hamilton]
  have key : ∀ a r : ℝ, |r - a| ≤ 44 / 10 * DQuat.u * |a| + DQuat.t → |a| ≤ 1 → (r - a) ^ 2 ≤ (44 / 10 * DQuat.u) ^ 2 * a ^ 2 + 1 / 10 ^ 2 * DQuat.u ^ 2 := by
    intro a r h ha
    rw [← sq_abs (r - a), ← sq_abs a]
    have a0 := abs_nonneg a
    have : |r - a| ^ 2 ≤ (44 / 10 * DQuat.u * |a| + DQuat.t) ^ 2 := pow_le_pow_left₀ (abs_nonneg _) h 2
    refine this.trans ?_
    have e1 : DQuat.u * |a| ≤ DQuat.u := by nlinarith
    have e2 : 0 ≤ DQuat.u * |a| := by positivity
    nlinarith
  have q := fun a => sq_nonneg (a / ‖hamilton w‖)
  have b : ∀ a : ℝ, (a / ‖hamilton w‖) ^ 2 ≤ 1 → |a / ‖hamilton w‖| ≤ 1 := fun a h => abs_le_one_iff_mul_self_le_one.2 (by nlinarith)
  have k1 := key _ _ (c w.x) (b _ (by nlinarith [q w.x, q w.y, q w.z, q w.s]))
  have k2 := key _ _ (c w.y) (b _ (by nlinarith [q w.x, q w.y, q w.z, q w.s]))
  have k3 := key _ _ (c w.z) (b _ (by nlinarith [q w.x, q w.y, q w.z, q w.s]))
  have k4 := key _ _ (c w.s) (b _ (by nlinarith [q w.x, q w.y, q w.z, q w.s]))
  simp only [unitR]
  have s : (44 / 10 * DQuat.u) ^ 2 * (w.x / ‖hamilton w‖) ^ 2 + (44 / 10 * DQuat.u) ^ 2 * (w.y / ‖hamilton w‖) ^ 2 + (44 / 10 * DQuat.u) ^ 2 * (w.z / ‖hamilton w‖) ^ 2 +
      (44 / 10 * DQuat.u) ^ 2 * (w.s / ‖hamilton w‖) ^ 2 = (44 / 10 * DQuat.u) ^ 2 := by
    rw [← mul_add, ← mul_add, ← mul_add, N2, mul_one]
  nlinarith [sq_nonneg DQuat.u]

/-- what `normalize` makes of a quaternion near a multiple of a unit quaternion -/
theorem normalize_near {w : Quat} (hw : Sized w.x w.y w.z w.s) {p : Quaternion ℝ} (hp : ‖p‖ = 1) {k E : ℝ} (hk : 1 / 2 ≤ k) (hE : E ≤ 1 / 4)
    (h : ‖hamilton w - k • p‖ ≤ E * k) {e : ℝ} (he : 2 ^ (-100 : ℤ) ≤ e) (he' : e ≤ 1 / 8) :
    ∃ r, DQuat.normalize (.fin e) (.of w) = .ok (.of r) ∧ Sized r.x r.y r.z r.s ∧ ‖hamilton r - p‖ ≤ 2 * E + 45 / 10 * DQuat.u ∧
      ∀ tol : ℝ, 8 / 2 ^ 53 ≤ tol → DQuat.isUnitary (.fin tol) (.of r) = .ok true := by
  have u0 := DQuat.u_pos
  have us := DQuat.u_small
  have k0 : 0 < k := by linarith
  have nk : ‖k • p‖ = k := by rw [norm_smul, hp, mul_one, Real.norm_of_nonneg k0.le]
  have d : |‖hamilton w‖ - k| ≤ E * k := by
    have := abs_norm_sub_norm_le (hamilton w) (k • p)
    rw [nk] at this
    exact this.trans h
  have d1 := abs_le.1 d
  have N1 : 3 / 8 ≤ ‖hamilton w‖ := by nlinarith
  have N0 : 0 < ‖hamilton w‖ := by linarith
  have S : 2 ^ (-400 : ℤ) ≤ w.x * w.x + w.y * w.y + w.z * w.z + w.s * w.s := by
    rw [norm_sq]
    exact (zpow_le_zpow_right₀ one_le_two (show (-400 : ℤ) ≤ -3 by norm_num)).trans (by
      have : (2 : ℝ) ^ (-3 : ℤ) = 1 / 8 := by norm_num
      rw [this]
      nlinarith)
  have near := DQuat.nrm_near S
  rw [norm_sqrt] at near
  have n1 := abs_le.1 near
  have n2 : e ≤ DQuat.nrm w.x w.y w.z w.s := by nlinarith
  have n0 : 0 < DQuat.nrm w.x w.y w.z w.s := nrm_pos S
  obtain ⟨⟨rx, hx⟩, ⟨ry, hy⟩, ⟨rz, hz⟩, ⟨rs, hs⟩⟩ := hw
  have n3 : 2 ^ (-100 : ℤ) ≤ DQuat.nrm w.x w.y w.z w.s := he.trans n2
  obtain ⟨lx, ly, lz, ls⟩ := DQuat.sumSq_le (x := w.x) (y := w.y) (z := w.z) (s := w.s)
  obtain ⟨ex, bx⟩ := div_fin n0 (component_le rx n3 lx rfl)
  obtain ⟨ey, by'⟩ := div_fin n0 (component_le ry n3 ly rfl)
  obtain ⟨ez, bz⟩ := div_fin n0 (component_le rz n3 lz rfl)
  obtain ⟨es, bs⟩ := div_fin n0 (component_le rs n3 ls rfl)
  have q : DQuat.normalize (.fin e) (.of w) = .ok (.of (unitR w)) := by
    rw [DQuat.normalize, DQuat.of, DQuat.norm_fin hx hy hz hs]
    simp only [bind, Except.bind, F64.abs, F64.lt, abs_of_pos n0, not_lt.2 n2, decide_false, Bool.false_eq_true, if_false, ex, ey, ez, es]
    rfl
  have big : ∀ {a : ℝ}, |a| ≤ 1 → |a| ≤ 2 ^ 500 := fun h => h.trans (one_le_pow₀ one_le_two)
  refine ⟨unitR w, q, ⟨⟨rnd_representable _, big bx⟩, ⟨rnd_representable _, big by'⟩, ⟨rnd_representable _, big bz⟩, ⟨rnd_representable _, big bs⟩⟩, ?_, ?_⟩
  · have f1 := unitR_near S
    have f2 : ‖‖hamilton w‖⁻¹ • hamilton w - k⁻¹ • hamilton w‖ ≤ E := by
      rw [← sub_smul, norm_smul, Real.norm_eq_abs, show (‖hamilton w‖⁻¹ - k⁻¹) = (k - ‖hamilton w‖) / (‖hamilton w‖ * k) by field_simp, abs_div,
        abs_of_pos (mul_pos N0 k0), abs_sub_comm, div_mul_eq_mul_div, div_le_iff₀ (mul_pos N0 k0)]
      nlinarith
    have f3 : ‖k⁻¹ • hamilton w - p‖ ≤ E := by
      rw [show k⁻¹ • hamilton w - p = k⁻¹ • (hamilton w - k • p) by rw [smul_sub, smul_smul, inv_mul_cancel₀ k0.ne', one_smul], norm_smul, norm_inv,
        Real.norm_of_nonneg k0.le, inv_mul_le_iff₀ k0]
      linarith
    have t1 := norm_sub_le_norm_sub_add_norm_sub (hamilton (unitR w)) (‖hamilton w‖⁻¹ • hamilton w) p
    have t2 := norm_sub_le_norm_sub_add_norm_sub (‖hamilton w‖⁻¹ • hamilton w) (k⁻¹ • hamilton w) p
    linarith
  · obtain ⟨x', y', z', s', e1, -, -, -, -, -, -, -, -, hu⟩ := C113_normalize e he w.x w.y w.z w.s ⟨⟨rx, hx⟩, ⟨ry, hy⟩, ⟨rz, hz⟩, ⟨rs, hs⟩⟩ _ q
    exact hu

/-- halving is exact, except for the smallest numbers -/
theorem half_near {x : ℝ} (hx : Representable x) : |rnd (x / 2) - x / 2| ≤ 2 ^ (-1000 : ℤ) := by
  by_cases h : |x / 2| ≤ 2 ^ (-1000 : ℤ)
  · exact (DRot.half (by norm_num) h).trans (zpow_le_zpow_right₀ one_le_two (by norm_num))
  · obtain ⟨m, e, hm, he, rfl⟩ := hx
    have e1 : (m : ℝ) * 2 ^ e / 2 = m * 2 ^ (e - 1) := by rw [zpow_sub_one₀ two_ne_zero]; ring
    have : -1074 ≤ e - 1 := by
      by_contra hc
      apply h
      rw [e1, abs_mul, abs_of_pos (two_zpow_pos (α := ℝ) _)]
      have h1 : |(m : ℝ)| ≤ 2 ^ (53 : ℤ) := by rw [← Int.cast_abs]; exact_mod_cast hm.le
      calc |(m : ℝ)| * 2 ^ (e - 1) ≤ 2 ^ (53 : ℤ) * 2 ^ (e - 1) := mul_le_mul_of_nonneg_right h1 (two_zpow_pos _).le
        _ = 2 ^ (53 + (e - 1)) := (zpow_add₀ two_ne_zero _ _).symm
        _ ≤ _ := zpow_le_zpow_right₀ one_le_two (by omega)
    rw [e1, rnd_exact ⟨m, e - 1, hm, this, rfl⟩, sub_self, abs_zero]
    exact (two_zpow_pos _).le

/-- the half angle, its sine and its cosine -/
theorem half_angle {f g : ℝ → ℝ} (hf : Accurate f g) (hg : ∀ x y, |g x - g y| ≤ |x - y|) {t : ℝ} (ht : Representable t) (ht' : |t| < 2 ^ 1024) :
    ∃ a, libm f ((F64.fin t).div (.fin 2)) = .fin a ∧ Representable a ∧ |a| ≤ 1 ∧ |a - g (t / 2)| ≤ 101 / 100 * DQuat.u := by
  have e : (F64.fin t).div (.fin 2) = .fin (rnd (t / 2)) := by
    simp only [F64.div, OfNat.ofNat_ne_zero, if_false]
    refine F64.ofExact_fin (lt_of_le_of_lt (b := |t|) ?_ ht')
    have : |t / 2| ≤ |t| := by rw [abs_div, abs_two]; linarith [abs_nonneg t]
    refine DLinear.rnd_abs_le ?_ this
    rcases abs_choice t with h | h <;> rw [h]
    · exact ht
    · exact representable_neg ht
  obtain ⟨h1, h2, h3⟩ := hf _ (rnd_representable (t / 2))
  refine ⟨_, by rw [e]; rfl, h1, h2, ?_⟩
  have h4 := (hg (rnd (t / 2)) (t / 2)).trans (half_near ht)
  have h5 : (2 : ℝ) ^ (-1000 : ℤ) ≤ 1 / 100 * DQuat.u := (zpow_le_zpow_right₀ one_le_two (show (-1000 : ℤ) ≤ -63 by norm_num)).trans (by unfold DQuat.u; rw [zpow_neg]; norm_num)
  have h6 := abs_sub_le (f (rnd (t / 2))) (g (rnd (t / 2))) (g (t / 2))
  rw [show (1 : ℝ) / 2 ^ 53 = DQuat.u from rfl] at h3
  linarith

theorem rep_one : Representable (1 : ℝ) := by simpa using F64.representable_pow (α := ℝ) (e := 0) (by norm_num)

/-- the product of two numbers that do not exceed one -/
theorem mul_le1 {a b : ℝ} (ha : |a| ≤ 1) (hb : |b| ≤ 1) : (F64.fin a).mul (.fin b) = .fin (rnd (a * b)) ∧ |rnd (a * b)| ≤ 1 := by
  have h : |rnd (a * b)| ≤ 1 := DLinear.rnd_abs_le rep_one (by rw [abs_mul]; exact mul_le_one₀ ha (abs_nonneg _) hb)
  exact ⟨F64.ofExact_fin (lt_of_le_of_lt h (one_lt_pow₀ one_lt_two (by norm_num))), h⟩

/-- an axis that the constructor accepts is far from zero -/
theorem accepted_axis (o : Bool) {e : ℝ} (he : e ≤ 1 / 8) {x y z : ℝ} (hx : Representable x ∧ |x| ≤ 2 ^ 500) (hy : Representable y ∧ |y| ≤ 2 ^ 500)
    (hz : Representable z ∧ |z| ≤ 2 ^ 500) {a : DAngle ℝ} {r : DRotVec} (h : DRotVec.ctor o (.fin e) ⟨.fin x, .fin y, .fin z⟩ a = .ok r) :
    r = ⟨DVec.normalized o ⟨.fin x, .fin y, .fin z⟩, a⟩ ∧ 2 ^ (-100 : ℤ) ≤ DVec.dot3 o x y z x y z := by
  have d : DVec.isDefined ⟨.fin x, .fin y, .fin z⟩ = true := by simp [DVec.isDefined]
  rw [DRotVec.ctor, norm_fin3 o hx.2 hy.2 hz.2, show rnd (Real.sqrt (DVec.dot3 o x y z x y z)) = DVec.nrm3 o x y z from rfl, sub_one2 (nrm3_le o hx.2 hy.2 hz.2), d, Bool.true_and] at h
  simp only [F64.abs, F64.lt, decide_eq_true_eq, if_true] at h
  split_ifs at h with h1
  refine ⟨(Except.ok.inj h).symm, ?_⟩
  rw [not_lt] at h1
  by_contra hc
  rw [not_le] at hc
  have h2 : DVec.nrm3 o x y z ≤ 1 / 2 := by
    have r2 : Representable ((1 : ℝ) / 2) := by simpa using F64.representable_pow (α := ℝ) (e := -1) (by norm_num)
    have h3 : Real.sqrt (DVec.dot3 o x y z x y z) ≤ 1 / 2 := by
      refine Real.sqrt_le_iff.2 ⟨by norm_num, hc.le.trans ?_⟩
      exact (zpow_le_zpow_right₀ one_le_two (show (-100 : ℤ) ≤ -2 by norm_num)).trans (by norm_num)
    have := DLinear.rnd_abs_le r2 (show |Real.sqrt (DVec.dot3 o x y z x y z)| ≤ 1 / 2 by rwa [abs_of_nonneg (Real.sqrt_nonneg _)])
    exact (le_abs_self _).trans this
  have h4 : rnd (DVec.nrm3 o x y z - 1) ≤ -(1 / 2) := by
    have r2 : Representable (-((1 : ℝ) / 2)) := representable_neg (by simpa using F64.representable_pow (α := ℝ) (e := -1) (by norm_num))
    exact rnd_le r2 (by linarith)
  have h5 := neg_abs_le (rnd (DVec.nrm3 o x y z - 1))
  linarith

/-- one component of the vector part -/
theorem vector_component {n a σ S : ℝ} (h1 : |a - n| ≤ 44 / 10 * DQuat.u * |n| + DQuat.t) (h2 : |σ| ≤ 1) (h3 : |σ - S| ≤ 101 / 100 * DQuat.u) :
    |rnd (σ * a) - n * S| ≤ 645 / 100 * DQuat.u * |n| + 3 * DQuat.t := by
  have u0 := DQuat.u_pos
  have us := DQuat.u_small
  have t0 := DQuat.t_pos
  have n0 := abs_nonneg n
  have a1 : |a| ≤ |n| + (44 / 10 * DQuat.u * |n| + DQuat.t) := by
    have := abs_add_le n (a - n); rw [add_sub_cancel] at this; linarith
  have un : 0 ≤ DQuat.u * |n| := by positivity
  have a2 : DQuat.u * |a| ≤ 1001 / 1000 * (DQuat.u * |n|) + DQuat.u * DQuat.t := by
    calc DQuat.u * |a| ≤ DQuat.u * (|n| + (44 / 10 * DQuat.u * |n| + DQuat.t)) := mul_le_mul_of_nonneg_left a1 u0.le
      _ = DQuat.u * |n| + 44 / 10 * DQuat.u * (DQuat.u * |n|) + DQuat.u * DQuat.t := by ring
      _ ≤ _ := by
        have : 44 / 10 * DQuat.u * (DQuat.u * |n|) ≤ 1 / 1000 * (DQuat.u * |n|) := mul_le_mul_of_nonneg_right (by linarith) un
        linarith
  have ut : DQuat.u * DQuat.t ≤ 1 / 10 * DQuat.t := mul_le_mul_of_nonneg_right (by linarith) t0.le
  have r := DRot.near1 (σ * a)
  have r1 : |σ * a| ≤ |a| := by rw [abs_mul]; exact mul_le_of_le_one_left (abs_nonneg _) h2
  have r2 : DQuat.u * |σ * a| ≤ DQuat.u * |a| := mul_le_mul_of_nonneg_left r1 u0.le
  have e : rnd (σ * a) - n * S = (rnd (σ * a) - σ * a) + (σ * (a - n) + n * (σ - S)) := by ring
  have b1 : |σ * (a - n)| ≤ |a - n| := by rw [abs_mul]; exact mul_le_of_le_one_left (abs_nonneg _) h2
  have b2 : |n * (σ - S)| ≤ 101 / 100 * (DQuat.u * |n|) := by
    rw [abs_mul]; calc _ ≤ |n| * (101 / 100 * DQuat.u) := mul_le_mul_of_nonneg_left h3 n0
      _ = _ := by ring
  rw [e]
  have t1 := abs_add_le (rnd (σ * a) - σ * a) (σ * (a - n) + n * (σ - S))
  have t2 := abs_add_le (σ * (a - n)) (n * (σ - S))
  have : 44 / 10 * DQuat.u * |n| = 44 / 10 * (DQuat.u * |n|) := by ring
  have : 645 / 100 * DQuat.u * |n| = 645 / 100 * (DQuat.u * |n|) := by ring
  linarith

/-- the squares of such errors -/
theorem square_component {a d : ℝ} (ha : |a| ≤ 1) (h : |d| ≤ 645 / 100 * DQuat.u * |a| + 3 * DQuat.t) : d ^ 2 ≤ (645 / 100 * DQuat.u) ^ 2 * a ^ 2 + 1 / 10 ^ 2 * DQuat.u ^ 2 := by
  have u0 := DQuat.u_pos
  have tu := DRot.t_u
  have t0 := DQuat.t_pos
  rw [← sq_abs d, ← sq_abs a]
  have a0 := abs_nonneg a
  have : |d| ^ 2 ≤ (645 / 100 * DQuat.u * |a| + 3 * DQuat.t) ^ 2 := pow_le_pow_left₀ (abs_nonneg _) h 2
  refine this.trans ?_
  have e1 : DQuat.u * |a| ≤ DQuat.u := by nlinarith
  have e2 : 0 ≤ DQuat.u * |a| := by positivity
  nlinarith

theorem vector_sum {a b c d1 d2 d3 d4 : ℝ} (h : a ^ 2 + b ^ 2 + c ^ 2 = 1) (h1 : d1 ^ 2 ≤ (645 / 100 * DQuat.u) ^ 2 * a ^ 2 + 1 / 10 ^ 2 * DQuat.u ^ 2)
    (h2 : d2 ^ 2 ≤ (645 / 100 * DQuat.u) ^ 2 * b ^ 2 + 1 / 10 ^ 2 * DQuat.u ^ 2) (h3 : d3 ^ 2 ≤ (645 / 100 * DQuat.u) ^ 2 * c ^ 2 + 1 / 10 ^ 2 * DQuat.u ^ 2)
    (h4 : d4 ^ 2 ≤ (101 / 100 * DQuat.u) ^ 2) : d1 ^ 2 + d2 ^ 2 + d3 ^ 2 + d4 ^ 2 ≤ (66 / 10 * DQuat.u) ^ 2 := by
  have s : (645 / 100 * DQuat.u) ^ 2 * a ^ 2 + (645 / 100 * DQuat.u) ^ 2 * b ^ 2 + (645 / 100 * DQuat.u) ^ 2 * c ^ 2 = (645 / 100 * DQuat.u) ^ 2 := by
    rw [← mul_add, ← mul_add, h, mul_one]
  have e1 : (645 / 100 * DQuat.u) ^ 2 = (645 / 100) ^ 2 * DQuat.u ^ 2 := by ring
  have e2 : (101 / 100 * DQuat.u) ^ 2 = (101 / 100) ^ 2 * DQuat.u ^ 2 := by ring
  have e3 : (66 / 10 * DQuat.u) ^ 2 = (66 / 10) ^ 2 * DQuat.u ^ 2 := by ring
  have e4 := sq_nonneg DQuat.u
  rw [e1] at s
  rw [e1] at h1 h2 h3
  rw [e2] at h4
  rw [e3]
  linarith

theorem turnAbout_norm {x y z : ℝ} (h : 0 < x ^ 2 + y ^ 2 + z ^ 2) (t : ℝ) : ‖turnAbout x y z t‖ = 1 := by
  have s := Real.sq_sqrt h.le
  have n0 := Real.sqrt_pos.2 h
  have e : turnAbout x y z t = hamilton ⟨x / Real.sqrt (x ^ 2 + y ^ 2 + z ^ 2) * Real.sin (t / 2), y / Real.sqrt (x ^ 2 + y ^ 2 + z ^ 2) * Real.sin (t / 2),
    z / Real.sqrt (x ^ 2 + y ^ 2 + z ^ 2) * Real.sin (t / 2), Real.cos (t / 2)⟩ := rfl
  have k : ‖turnAbout x y z t‖ ^ 2 = 1 := by
    rw [e, DQuat.norm_hamilton]
    have c := Real.sin_sq_add_cos_sq (t / 2)
    have : (x / Real.sqrt (x ^ 2 + y ^ 2 + z ^ 2)) ^ 2 + (y / Real.sqrt (x ^ 2 + y ^ 2 + z ^ 2)) ^ 2 + (z / Real.sqrt (x ^ 2 + y ^ 2 + z ^ 2)) ^ 2 = 1 := by
      rw [div_pow, div_pow, div_pow, s]; field_simp
    simp only [mul_pow]
    linear_combination c + Real.sin (t / 2) ^ 2 * this
  exact (pow_eq_one_iff_of_nonneg (norm_nonneg _) two_ne_zero).1 k

/-- the product of three numbers near numbers that do not exceed one -/
theorem triple_near {a b c A B C : ℝ} (ha : |a| ≤ 1) (hb : |b| ≤ 1) (hc : |c| ≤ 1) (hA : |A| ≤ 1) (hB : |B| ≤ 1)
    (da : |a - A| ≤ 101 / 100 * DQuat.u) (db : |b - B| ≤ 101 / 100 * DQuat.u) (dc : |c - C| ≤ 101 / 100 * DQuat.u) :
    ∃ p, ((F64.fin a).mul (.fin b)).mul (.fin c) = .fin p ∧ |p| ≤ 1 ∧ |p - A * B * C| ≤ 404 / 100 * DQuat.u := by
  obtain ⟨e1, l1⟩ := mul_le1 ha hb
  obtain ⟨e2, l2⟩ := mul_le1 l1 hc
  refine ⟨_, by rw [e1, e2], l2, ?_⟩
  have r1 := DRot.err1 (show |a * b| ≤ 1 by rw [abs_mul]; exact mul_le_one₀ ha (abs_nonneg _) hb)
  have r2 := DRot.err1 (show |rnd (a * b) * c| ≤ 1 by rw [abs_mul]; exact mul_le_one₀ l1 (abs_nonneg _) hc)
  have m : ∀ {x y : ℝ}, |y| ≤ 1 → |x * y| ≤ |x| := fun {x y} h => by rw [abs_mul]; exact mul_le_of_le_one_right (abs_nonneg _) h
  have b1 := (m (x := rnd (a * b) - a * b) hc).trans r1
  have b2 := ((m (x := (a - A) * b) hc).trans (m hb)).trans da
  have b3 := ((m (x := (b - B) * A) hc).trans (m hA)).trans db
  have b4 := ((m (x := (c - C) * A) hB).trans (m hA)).trans dc
  rw [show rnd (rnd (a * b) * c) - A * B * C = (rnd (rnd (a * b) * c) - rnd (a * b) * c) + (rnd (a * b) - a * b) * c + (a - A) * b * c + (b - B) * A * c + (c - C) * A * B by ring]
  have t1 := abs_add_le (rnd (rnd (a * b) * c) - rnd (a * b) * c) ((rnd (a * b) - a * b) * c)
  have t2 := abs_add_le ((rnd (rnd (a * b) * c) - rnd (a * b) * c) + (rnd (a * b) - a * b) * c) ((a - A) * b * c)
  have t3 := abs_add_le ((rnd (rnd (a * b) * c) - rnd (a * b) * c) + (rnd (a * b) - a * b) * c + (a - A) * b * c) ((b - B) * A * c)
  have t4 := abs_add_le ((rnd (rnd (a * b) * c) - rnd (a * b) * c) + (rnd (a * b) - a * b) * c + (a - A) * b * c + (b - B) * A * c) ((c - C) * A * B)
  linarith [DQuat.u_pos]

/-- the sum of two such products -/
theorem two_near {f g : F64 ℝ} {P Q : ℝ} (hf : ∃ p, f = .fin p ∧ |p| ≤ 1 ∧ |p - P| ≤ 404 / 100 * DQuat.u) (hg : ∃ p, g = .fin p ∧ |p| ≤ 1 ∧ |p - Q| ≤ 404 / 100 * DQuat.u) :
    ∃ r, f.add g = .fin r ∧ (Representable r ∧ |r| ≤ 2 ^ 500) ∧ |r - (P + Q)| ≤ 91 / 10 * DQuat.u := by
  obtain ⟨p, rfl, lp, dp⟩ := hf
  obtain ⟨q, rfl, lq, dq⟩ := hg
  have l : |p + q| ≤ 2 := (abs_add_le p q).trans (by linarith)
  have r2 : Representable (2 : ℝ) := by simpa using F64.representable_pow (α := ℝ) (e := 1) (by norm_num)
  have l' : |rnd (p + q)| ≤ 2 := DLinear.rnd_abs_le r2 l
  refine ⟨rnd (p + q), F64.ofExact_fin (lt_of_le_of_lt l' (lt_of_eq_of_lt (pow_one (2 : ℝ)).symm (pow_lt_pow_right₀ one_lt_two (by norm_num)))),
    ⟨rnd_representable _, l'.trans two_500⟩, ?_⟩
  have d := DRot.err2 l
  have t1 := abs_add_le (rnd (p + q) - (p + q)) ((p - P) + (q - Q))
  have t2 := abs_add_le (p - P) (q - Q)
  rw [show rnd (p + q) - (P + Q) = (rnd (p + q) - (p + q)) + ((p - P) + (q - Q)) by ring]
  linarith [DQuat.u_pos]

theorem two_near_sub {f g : F64 ℝ} {P Q : ℝ} (hf : ∃ p, f = .fin p ∧ |p| ≤ 1 ∧ |p - P| ≤ 404 / 100 * DQuat.u) (hg : ∃ p, g = .fin p ∧ |p| ≤ 1 ∧ |p - Q| ≤ 404 / 100 * DQuat.u) :
    ∃ r, f.sub g = .fin r ∧ (Representable r ∧ |r| ≤ 2 ^ 500) ∧ |r - (P - Q)| ≤ 91 / 10 * DQuat.u := by
  obtain ⟨q, rfl, lq, dq⟩ := hg
  rw [sub_eq_add_neg]
  refine two_near hf ⟨-q, rfl, by rwa [abs_neg], ?_⟩
  rw [show -q - -Q = -(q - Q) by ring, abs_neg]
  exact dq

theorem threeTurns_norm (p t s : ℝ) (sq : AxisSequence) : ‖threeTurns p t s sq‖ = 1 := by
  cases sq <;> simp only [threeTurns, norm_mul, norm_one]
  all_goals rw [turnAbout_norm (by norm_num), turnAbout_norm (by norm_num), turnAbout_norm (by norm_num)]; norm_num

/-- four components near those of a unit quaternion -/
theorem four_near {f1 f2 f3 f4 : F64 ℝ} {P : Quat} (hP : ‖hamilton P‖ = 1) {e : ℝ} (he : 2 ^ (-100 : ℤ) ≤ e) (he' : e ≤ 1 / 8)
    (h1 : ∃ r, f1 = .fin r ∧ (Representable r ∧ |r| ≤ 2 ^ 500) ∧ |r - P.x| ≤ 91 / 10 * DQuat.u) (h2 : ∃ r, f2 = .fin r ∧ (Representable r ∧ |r| ≤ 2 ^ 500) ∧ |r - P.y| ≤ 91 / 10 * DQuat.u)
    (h3 : ∃ r, f3 = .fin r ∧ (Representable r ∧ |r| ≤ 2 ^ 500) ∧ |r - P.z| ≤ 91 / 10 * DQuat.u) (h4 : ∃ r, f4 = .fin r ∧ (Representable r ∧ |r| ≤ 2 ^ 500) ∧ |r - P.s| ≤ 91 / 10 * DQuat.u) :
    ∃ q : Quat, DQuat.normalize (.fin e) ⟨f1, f2, f3, f4⟩ = .ok (.of q) ∧ ‖hamilton q - hamilton P‖ ≤ 41 / 2 ^ 53 ∧
      ∀ tol : ℝ, 8 / 2 ^ 53 ≤ tol → DQuat.isUnitary (.fin tol) (.of q) = .ok true := by
  obtain ⟨a, rfl, sa, da⟩ := h1
  obtain ⟨b, rfl, sb, db⟩ := h2
  obtain ⟨c, rfl, sc, dc⟩ := h3
  obtain ⟨d, rfl, sd, dd⟩ := h4
  have us := DQuat.u_small
  have close : ‖hamilton ⟨a, b, c, d⟩ - (1 : ℝ) • hamilton P‖ ≤ 182 / 10 * DQuat.u * 1 := by
    rw [one_smul, mul_one, hamilton_sub]
    have := DQuat.norm_le_two (q := ⟨a - P.x, b - P.y, c - P.z, d - P.s⟩) da db dc dd
    linarith
  obtain ⟨p, e1, -, e2, e3⟩ := normalize_near (w := ⟨a, b, c, d⟩) ⟨sa, sb, sc, sd⟩ hP (k := 1) (by norm_num) (by linarith) close he he'
  refine ⟨p, e1, e2.trans ?_, e3⟩
  rw [e53]
  linarith [DQuat.u_pos]

theorem hamilton_three (p q r : Quat) {w : Quat} (hs : w.s = (p.s * q.s - p.x * q.x - p.y * q.y - p.z * q.z) * r.s - (p.s * q.x + p.x * q.s + p.y * q.z - p.z * q.y) * r.x -
      (p.s * q.y - p.x * q.z + p.y * q.s + p.z * q.x) * r.y - (p.s * q.z + p.x * q.y - p.y * q.x + p.z * q.s) * r.z)
    (hx : w.x = (p.s * q.s - p.x * q.x - p.y * q.y - p.z * q.z) * r.x + (p.s * q.x + p.x * q.s + p.y * q.z - p.z * q.y) * r.s +
      (p.s * q.y - p.x * q.z + p.y * q.s + p.z * q.x) * r.z - (p.s * q.z + p.x * q.y - p.y * q.x + p.z * q.s) * r.y)
    (hy : w.y = (p.s * q.s - p.x * q.x - p.y * q.y - p.z * q.z) * r.y - (p.s * q.x + p.x * q.s + p.y * q.z - p.z * q.y) * r.z +
      (p.s * q.y - p.x * q.z + p.y * q.s + p.z * q.x) * r.s + (p.s * q.z + p.x * q.y - p.y * q.x + p.z * q.s) * r.x)
    (hz : w.z = (p.s * q.s - p.x * q.x - p.y * q.y - p.z * q.z) * r.z + (p.s * q.x + p.x * q.s + p.y * q.z - p.z * q.y) * r.y -
      (p.s * q.y - p.x * q.z + p.y * q.s + p.z * q.x) * r.x + (p.s * q.z + p.x * q.y - p.y * q.x + p.z * q.s) * r.s) :
    hamilton p * hamilton q * hamilton r = hamilton w := by
  have h1 : ∀ q, (hamilton q).re = q.s := fun _ => rfl
  have h2 : ∀ q, (hamilton q).imI = q.x := fun _ => rfl
  have h3 : ∀ q, (hamilton q).imJ = q.y := fun _ => rfl
  have h4 : ∀ q, (hamilton q).imK = q.z := fun _ => rfl
  ext <;> simp only [Quaternion.re_mul, Quaternion.imI_mul, Quaternion.imJ_mul, Quaternion.imK_mul, h1, h2, h3, h4, hs, hx, hy, hz]

theorem turnAbout_axes (t : ℝ) : turnAbout 1 0 0 t = hamilton ⟨Real.sin (t / 2), 0, 0, Real.cos (t / 2)⟩ ∧ turnAbout 0 1 0 t = hamilton ⟨0, Real.sin (t / 2), 0, Real.cos (t / 2)⟩ ∧
    turnAbout 0 0 1 t = hamilton ⟨0, 0, Real.sin (t / 2), Real.cos (t / 2)⟩ := by
  refine ⟨?_, ?_, ?_⟩ <;> ext <;> simp [turnAbout, hamilton]

/-- rounding a number that does not exceed `k` -/
theorem round_le {v k : ℝ} (h : |v| ≤ k) : |rnd v - v| ≤ DQuat.u * k + DQuat.u / 10 ^ 9 :=
  (DRot.near1 v).trans (add_le_add (mul_le_mul_of_nonneg_left h DQuat.u_pos.le) DRot.t_u)

/-- a result that does not exceed eight -/
theorem exact_le8 {v : ℝ} (h : |v| ≤ 8) : F64.ofExact v = .fin (rnd v) ∧ Representable (rnd v) ∧ |rnd v| ≤ 8 := by
  have h' : |rnd v| ≤ 8 := DLinear.rnd_abs_le (by
    have := F64.representable_pow (α := ℝ) (e := 3) (by norm_num)
    rwa [show (2 : ℝ) ^ (3 : ℤ) = 8 by norm_num] at this) h
  exact ⟨F64.ofExact_fin (lt_of_le_of_lt h' (lt_of_eq_of_lt (show (8 : ℝ) = 2 ^ 3 by norm_num) (pow_lt_pow_right₀ one_lt_two (by norm_num)))), rnd_representable _, h'⟩

theorem eight_500 : (8 : ℝ) ≤ 2 ^ 500 := (show (8 : ℝ) = 2 ^ 3 by norm_num).le.trans (pow_le_pow_right₀ one_le_two (by norm_num))

/-- the sum of two coefficients of a matrix near a rotation matrix -/
theorem off_near {a b A B d : ℝ} (hd : d ≤ 1 / 100) (ha : |a - A| ≤ d) (hb : |b - B| ≤ d) (h : |A + B| ≤ 2) :
    ∃ r, (F64.fin a).add (.fin b) = .fin r ∧ (Representable r ∧ |r| ≤ 2 ^ 500) ∧ |r - (A + B)| ≤ 2 * d + 203 / 100 * DQuat.u := by
  have u0 := DQuat.u_pos
  have e : a + b - (A + B) = (a - A) + (b - B) := by ring
  have d1 : |a + b - (A + B)| ≤ 2 * d := by rw [e]; exact (abs_add_le _ _).trans (by linarith)
  have l : |a + b| ≤ 202 / 100 := by
    have := abs_add_le (a + b - (A + B)) (A + B); rw [sub_add_cancel] at this; linarith
  obtain ⟨e1, r1, l1⟩ := exact_le8 (l.trans (by norm_num))
  refine ⟨_, e1, ⟨r1, l1.trans eight_500⟩, ?_⟩
  have k := round_le l
  have := abs_sub_le (rnd (a + b)) (a + b) (A + B)
  linarith

theorem off_near_sub {a b A B d : ℝ} (hd : d ≤ 1 / 100) (ha : |a - A| ≤ d) (hb : |b - B| ≤ d) (h : |A - B| ≤ 2) :
    ∃ r, (F64.fin a).sub (.fin b) = .fin r ∧ (Representable r ∧ |r| ≤ 2 ^ 500) ∧ |r - (A - B)| ≤ 2 * d + 203 / 100 * DQuat.u := by
  rw [sub_eq_add_neg A B]
  refine off_near hd ha ?_ (by rwa [← sub_eq_add_neg])
  rw [show -b - -B = -(b - B) by ring, abs_neg]
  exact hb

/-- the trace -/
theorem trace_near (o : Bool) {a b c : ℝ} (ha : |a| ≤ 101 / 100) (hb : |b| ≤ 101 / 100) (hc : |c| ≤ 101 / 100) :
    ∃ r, DVec.sum o (.fin a) (.fin b) (.fin c) = .fin r ∧ Representable r ∧ |r - (a + b + c)| ≤ 51 / 10 * DQuat.u := by
  have u0 := DQuat.u_pos
  have us := DQuat.u_small
  have key : ∀ {a b c : ℝ}, |a| ≤ 101 / 100 → |b| ≤ 101 / 100 → |c| ≤ 101 / 100 →
      F64.ofExact (a + b) = .fin (rnd (a + b)) ∧ F64.ofExact (rnd (a + b) + c) = .fin (rnd (rnd (a + b) + c)) ∧ |rnd (rnd (a + b) + c) - (a + b + c)| ≤ 51 / 10 * DQuat.u := by
    intro a b c ha hb hc
    have l1 : |a + b| ≤ 202 / 100 := (abs_add_le _ _).trans (by linarith)
    have k1 := round_le l1
    have l2 : |rnd (a + b) + c| ≤ 304 / 100 := by
      have h1 := abs_add_le (rnd (a + b) - (a + b)) (a + b + c)
      have h2 := abs_add_le (a + b) c
      rw [show rnd (a + b) - (a + b) + (a + b + c) = rnd (a + b) + c by ring] at h1
      linarith
    have k2 := round_le l2
    refine ⟨(exact_le8 (l1.trans (by norm_num))).1, (exact_le8 (l2.trans (by norm_num))).1, ?_⟩
    rw [show rnd (rnd (a + b) + c) - (a + b + c) = (rnd (rnd (a + b) + c) - (rnd (a + b) + c)) + (rnd (a + b) - (a + b)) by ring]
    exact (abs_add_le _ _).trans (by linarith)
  cases o
  · obtain ⟨e1, e2, d⟩ := key ha hb hc
    refine ⟨_, ?_, rnd_representable _, d⟩
    simp only [DVec.sum, Bool.false_eq_true, if_false, F64.add, e1, e2]
  · obtain ⟨e1, e2, d⟩ := key hb hc ha
    rw [add_comm (rnd (b + c)) a] at e2 d
    refine ⟨rnd (a + rnd (b + c)), ?_, rnd_representable _, ?_⟩
    · simp only [DVec.sum, if_true, F64.add, e1, e2]
    · rwa [show b + c + a = a + b + c by ring] at d

/-- the large component, from the trace -/
theorem diagonal_trace {r T d : ℝ} (hd : d ≤ 1 / 100) (hT : |1 + T| ≤ 4) (h : |r - T| ≤ 3 * d + 51 / 10 * DQuat.u) :
    ∃ w, (F64.fin 1).add (.fin r) = .fin w ∧ (Representable w ∧ |w| ≤ 2 ^ 500) ∧ |w - (1 + T)| ≤ 3 * d + 122 / 10 * DQuat.u := by
  have u0 := DQuat.u_pos
  have us := DQuat.u_small
  have l : |1 + r| ≤ 405 / 100 := by
    have := abs_add_le (1 + T) (r - T); rw [show 1 + T + (r - T) = 1 + r by ring] at this; linarith
  obtain ⟨e1, r1, l1⟩ := exact_le8 (l.trans (by norm_num))
  refine ⟨_, e1, ⟨r1, l1.trans eight_500⟩, ?_⟩
  have k := round_le l
  rw [show rnd (1 + r) - (1 + T) = (rnd (1 + r) - (1 + r)) + (r - T) by ring]
  exact (abs_add_le _ _).trans (by linarith)

/-- the large component, from a coefficient of the diagonal -/
theorem diagonal_entry {m a b r d V : ℝ} (hd : d ≤ 1 / 100) (hm : Representable m) (lm : |m| ≤ 101 / 100) (h : |r - (m + a + b)| ≤ 51 / 10 * DQuat.u)
    (hV : |V| ≤ 4) (hV' : |1 + m - a - b - V| ≤ 3 * d) :
    ∃ w, ((F64.fin 1).add ((F64.fin 2).mul (.fin m))).sub (.fin r) = .fin w ∧ (Representable w ∧ |w| ≤ 2 ^ 500) ∧ |w - V| ≤ 3 * d + 122 / 10 * DQuat.u := by
  have u0 := DQuat.u_pos
  have us := DQuat.u_small
  have l0 : |2 * m| ≤ 202 / 100 := by rw [abs_mul, abs_two]; linarith
  have e0 : (F64.fin 2).mul (.fin m) = .fin (2 * m) := by
    have := (exact_le8 (l0.trans (by norm_num))).1
    rwa [rnd_exact (DRot.representable_double hm)] at this
  have l1 : |1 + 2 * m| ≤ 302 / 100 := (abs_add_le _ _).trans (by rw [abs_one]; linarith)
  have e1 := (exact_le8 (l1.trans (by norm_num))).1
  have k1 := round_le l1
  have k3 : |rnd (1 + 2 * m) + -r - V| ≤ 3 * d + 813 / 100 * DQuat.u := by
    rw [show rnd (1 + 2 * m) + -r - V = (rnd (1 + 2 * m) - (1 + 2 * m)) + (1 + m - a - b - V) + -(r - (m + a + b)) by ring]
    refine (abs_add_le _ _).trans ((add_le_add (abs_add_le _ _) le_rfl).trans ?_)
    rw [abs_neg]
    linarith
  have l2 : |rnd (1 + 2 * m) + -r| ≤ 405 / 100 := by
    have := abs_add_le (rnd (1 + 2 * m) + -r - V) V; rw [sub_add_cancel] at this; linarith
  obtain ⟨e2, r2, l2'⟩ := exact_le8 (l2.trans (by norm_num))
  have k2 := round_le l2
  refine ⟨rnd (rnd (1 + 2 * m) + -r), ?_, ⟨r2, l2'.trans eight_500⟩, ?_⟩
  · rw [e0, F64.add, e1]; exact e2
  · have := abs_sub_le (rnd (rnd (1 + 2 * m) + -r)) (rnd (1 + 2 * m) + -r) V
    linarith

/-- three small errors and one large one -/
theorem large_one {d a b c e : ℝ} (d0 : 0 ≤ d) (ha : |a| ≤ 2 * d + 203 / 100 * DQuat.u) (hb : |b| ≤ 2 * d + 203 / 100 * DQuat.u)
    (hc : |c| ≤ 2 * d + 203 / 100 * DQuat.u) (he : |e| ≤ 3 * d + 122 / 10 * DQuat.u) : a ^ 2 + b ^ 2 + c ^ 2 + e ^ 2 ≤ (46 / 10 * d + 128 / 10 * DQuat.u) ^ 2 := by
  have u0 := DQuat.u_pos
  have s : ∀ {x k : ℝ}, |x| ≤ k → x ^ 2 ≤ k ^ 2 := fun h => by rw [← sq_abs]; exact pow_le_pow_left₀ (abs_nonneg _) h 2
  have := mul_nonneg d0 u0.le
  nlinarith [s ha, s hb, s hc, s he, sq_nonneg d, sq_nonneg DQuat.u]

/-- what is normalised is near a multiple of the quaternion -/
theorem pick {q w : Quat} (hq : ‖hamilton q‖ = 1) (hw : Sized w.x w.y w.z w.s) {a d : ℝ} (d0 : 0 ≤ d) (hd : d ≤ 1 / 100) (ha : 93 / 100 ≤ 4 * (a * a))
    (h : (w.x - 4 * a * q.x) ^ 2 + (w.y - 4 * a * q.y) ^ 2 + (w.z - 4 * a * q.z) ^ 2 + (w.s - 4 * a * q.s) ^ 2 ≤ (46 / 10 * d + 128 / 10 * DQuat.u) ^ 2)
    {e : ℝ} (he : 2 ^ (-100 : ℤ) ≤ e) (he' : e ≤ 1 / 8) :
    ∃ r : Quat, DQuat.normalize (.fin e) (.of w) = .ok (.of r) ∧ Tempered r ∧
      (‖hamilton r - hamilton q‖ ≤ 5 * d + 18 / 2 ^ 53 ∨ ‖hamilton r + hamilton q‖ ≤ 5 * d + 18 / 2 ^ 53) ∧
      ∀ tol : ℝ, 8 / 2 ^ 53 ≤ tol → DQuat.isUnitary (.fin tol) (.of r) = .ok true := by
  have u0 := DQuat.u_pos
  have us := DQuat.u_small
  have k1 : ‖hamilton w - (4 * a) • hamilton q‖ ≤ 46 / 10 * d + 128 / 10 * DQuat.u := by
    rw [hamilton_smul, hamilton_sub]
    refine le_of_sq_le_sq ?_ (by positivity)
    rw [DQuat.norm_hamilton]
    linarith
  have A : 96 / 100 ≤ 2 * |a| := by
    by_contra hc
    rw [not_le] at hc
    have : |a| * |a| = a * a := abs_mul_abs_self a
    nlinarith [abs_nonneg a]
  have f : 46 / 10 * d + 128 / 10 * DQuat.u ≤ (24 / 10 * d + 667 / 100 * DQuat.u) * (4 * |a|) := by nlinarith
  rcases le_total 0 a with h0 | h0
  · rw [abs_of_nonneg h0] at A f
    obtain ⟨r, e1, e2, e3, e4⟩ := normalize_near hw hq (k := 4 * a) (E := 24 / 10 * d + 667 / 100 * DQuat.u) (by linarith) (by linarith) (k1.trans f) he he'
    refine ⟨r, e1, e2, .inl (e3.trans ?_), e4⟩
    rw [e53]; linarith
  · rw [abs_of_nonpos h0] at A f
    have k2 : ‖hamilton w - (4 * -a) • -hamilton q‖ ≤ (24 / 10 * d + 667 / 100 * DQuat.u) * (4 * -a) := by
      rw [show (4 * -a) • -hamilton q = (4 * a) • hamilton q by rw [mul_neg, neg_smul, smul_neg, neg_neg]]
      exact k1.trans f
    obtain ⟨r, e1, e2, e3, e4⟩ := normalize_near hw (p := -hamilton q) (by rwa [norm_neg]) (k := 4 * -a) (E := 24 / 10 * d + 667 / 100 * DQuat.u) (by linarith) (by linarith)
      k2 he he'
    refine ⟨r, e1, e2, .inr ?_, e4⟩
    rw [← sub_neg_eq_add]
    refine e3.trans ?_
    rw [e53]; linarith

theorem greatest {a b c t : ℝ} (k1 : ¬((a ≤ t ∧ b ≤ t) ∧ c ≤ t)) (k2 : ¬((t ≤ a ∧ b ≤ a) ∧ c ≤ a)) (k3 : ¬((a ≤ b ∧ t ≤ b) ∧ c ≤ b)) : (a ≤ c ∧ b ≤ c) ∧ t ≤ c := by
  grind

/-- the conversion of a matrix whose coefficients are near those of a rotation -/
theorem matrix_core (o : Bool) {M : Fin 3 → Fin 3 → ℝ} (hM : ∀ i j, Representable (M i j)) {q : Quat} (hq : ‖hamilton q‖ = 1) {d : ℝ} (hd : d ≤ 1 / 100)
    (h : ∀ i j, |M i j - DRot.exact q i j| ≤ d) {e : ℝ} (he : 2 ^ (-100 : ℤ) ≤ e) (he' : e ≤ 1 / 8) :
    ∃ r : Quat, DQuat.RotationMatrix o (.fin e) (entries M) = .ok (.of r) ∧ Tempered r ∧
      (‖hamilton r - hamilton q‖ ≤ 5 * d + 18 / 2 ^ 53 ∨ ‖hamilton r + hamilton q‖ ≤ 5 * d + 18 / 2 ^ 53) ∧
      ∀ tol : ℝ, 8 / 2 ^ 53 ≤ tol → DQuat.isUnitary (.fin tol) (.of r) = .ok true := by
  have u0 := DQuat.u_pos
  have us := DQuat.u_small
  have d0 : 0 ≤ d := (abs_nonneg _).trans (h 0 0)
  have S : q.x * q.x + q.y * q.y + q.z * q.z + q.s * q.s = 1 := by rw [norm_sq, hq, one_pow]
  have l : ∀ i j, |M i j| ≤ 101 / 100 := fun i j => by
    have h1 := exact_le q i j
    rw [hq, one_pow] at h1
    have h2 := abs_add_le (M i j - DRot.exact q i j) (DRot.exact q i j)
    rw [sub_add_cancel] at h2
    linarith [h i j]
  obtain ⟨tr, etr, -, dtr⟩ := trace_near o (l 0 0) (l 1 1) (l 2 2)
  have h00 : |M 0 0 - (q.x * q.x + -q.y * q.y + -q.z * q.z + q.s * q.s)| ≤ d := h 0 0
  have h11 : |M 1 1 - (-q.x * q.x + q.y * q.y + -q.z * q.z + q.s * q.s)| ≤ d := h 1 1
  have h22 : |M 2 2 - (-q.x * q.x + -q.y * q.y + q.z * q.z + q.s * q.s)| ≤ d := h 2 2
  have h01 : |M 0 1 - 2 * (q.x * q.y + q.z * q.s)| ≤ d := h 0 1
  have h02 : |M 0 2 - 2 * (q.x * q.z + -q.y * q.s)| ≤ d := h 0 2
  have h10 : |M 1 0 - 2 * (q.y * q.x + -q.z * q.s)| ≤ d := h 1 0
  have h12 : |M 1 2 - 2 * (q.y * q.z + q.x * q.s)| ≤ d := h 1 2
  have h20 : |M 2 0 - 2 * (q.z * q.x + q.y * q.s)| ≤ d := h 2 0
  have h21 : |M 2 1 - 2 * (q.z * q.y + -q.x * q.s)| ≤ d := h 2 1
  have xx := mul_self_nonneg q.x
  have yy := mul_self_nonneg q.y
  have zz := mul_self_nonneg q.z
  have ss := mul_self_nonneg q.s
  have four : ∀ {a b : ℝ}, a * a + b * b ≤ 1 → |4 * (a * b)| ≤ 2 := fun {a b} hab => by
    have := DRot.abs_mul_le a b
    rw [abs_mul, abs_of_pos (by norm_num : (0 : ℝ) < 4)]
    linarith
  have sq4 : ∀ {a : ℝ}, a * a ≤ 1 → |4 * (a * a)| ≤ 4 := fun {a} hab => by
    rw [abs_of_nonneg (by linarith [mul_self_nonneg a])]; linarith
  obtain ⟨t1, t2⟩ := abs_le.1 dtr
  obtain ⟨a1, a2⟩ := abs_le.1 h00
  obtain ⟨b1, b2⟩ := abs_le.1 h11
  obtain ⟨c1, c2⟩ := abs_le.1 h22
  have dT : |tr - (4 * (q.s * q.s) - 1)| ≤ 3 * d + 51 / 10 * DQuat.u := by rw [abs_le]; constructor <;> linarith
  have def' : DRot.isDefined (entries M) = true := entries_defined M
  have E : ∀ i j, entries M i j = .fin (M i j) := fun _ _ => rfl
  have sub' : ∀ {i j k l : Fin 3} {A B V : ℝ}, |M i j - A| ≤ d → |M k l - B| ≤ d → A - B = V → |V| ≤ 2 →
      ∃ r, (F64.fin (M i j)).sub (.fin (M k l)) = .fin r ∧ (Representable r ∧ |r| ≤ 2 ^ 500) ∧ |r - V| ≤ 2 * d + 203 / 100 * DQuat.u := by
    intro i j k l A B V h1 h2 h3 h4
    rw [← h3] at h4 ⊢
    exact off_near_sub hd h1 h2 h4
  have add' : ∀ {i j k l : Fin 3} {A B V : ℝ}, |M i j - A| ≤ d → |M k l - B| ≤ d → A + B = V → |V| ≤ 2 →
      ∃ r, (F64.fin (M i j)).add (.fin (M k l)) = .fin r ∧ (Representable r ∧ |r| ≤ 2 ^ 500) ∧ |r - V| ≤ 2 * d + 203 / 100 * DQuat.u := by
    intro i j k l A B V h1 h2 h3 h4
    rw [← h3] at h4 ⊢
    exact off_near hd h1 h2 h4
  rw [DQuat.RotationMatrix, def']
  simp only [Bool.not_true, Bool.false_eq_true, if_false, E, etr, F64.le, Bool.and_eq_true, decide_eq_true_eq]
  by_cases k1 : (M 0 0 ≤ tr ∧ M 1 1 ≤ tr) ∧ M 2 2 ≤ tr
  · rw [if_pos k1]
    obtain ⟨⟨m1, m2⟩, m3⟩ := k1
    obtain ⟨x, ex, sx, dx⟩ := sub' h12 h21 (V := 4 * (q.s * q.x)) (by ring) (four (by linarith))
    obtain ⟨y, ey, sy, dy⟩ := sub' h20 h02 (V := 4 * (q.s * q.y)) (by ring) (four (by linarith))
    obtain ⟨z, ez, sz, dz⟩ := sub' h01 h10 (V := 4 * (q.s * q.z)) (by ring) (four (by linarith))
    obtain ⟨s, es, sS, ds⟩ := diagonal_trace hd (T := 4 * (q.s * q.s) - 1) (by rw [add_sub_cancel]; exact sq4 (by linarith)) dT
    rw [ex, ey, ez, es]
    rw [add_sub_cancel] at ds
    refine pick (w := ⟨x, y, z, s⟩) hq ⟨sx, sy, sz, sS⟩ (a := q.s) d0 hd (by linarith) ?_ he he'
    have := large_one d0 dx dy dz ds
    simp only [mul_assoc]
    linarith
  rw [if_neg k1]
  by_cases k2 : (tr ≤ M 0 0 ∧ M 1 1 ≤ M 0 0) ∧ M 2 2 ≤ M 0 0
  · rw [if_pos k2]
    obtain ⟨⟨m1, m2⟩, m3⟩ := k2
    obtain ⟨y, ey, sy, dy⟩ := add' h01 h10 (V := 4 * (q.x * q.y)) (by ring) (four (by linarith))
    obtain ⟨z, ez, sz, dz⟩ := add' h02 h20 (V := 4 * (q.x * q.z)) (by ring) (four (by linarith))
    obtain ⟨s, es, sS, ds⟩ := sub' h12 h21 (V := 4 * (q.x * q.s)) (by ring) (four (by linarith))
    obtain ⟨x, ex, sx, dx⟩ := diagonal_entry hd (hM 0 0) (l 0 0) (a := M 1 1) (b := M 2 2) dtr (V := 4 * (q.x * q.x)) (sq4 (by linarith)) (by rw [abs_le]; constructor <;> linarith)
    rw [ex, ey, ez, es]
    refine pick (w := ⟨x, y, z, s⟩) hq ⟨sx, sy, sz, sS⟩ (a := q.x) d0 hd (by linarith) ?_ he he'
    have := large_one d0 ds dy dz dx
    simp only [mul_assoc]
    linarith
  rw [if_neg k2]
  by_cases k3 : (M 0 0 ≤ M 1 1 ∧ tr ≤ M 1 1) ∧ M 2 2 ≤ M 1 1
  · rw [if_pos k3]
    obtain ⟨⟨m1, m2⟩, m3⟩ := k3
    obtain ⟨x, ex, sx, dx⟩ := add' h10 h01 (V := 4 * (q.y * q.x)) (by ring) (four (by linarith))
    obtain ⟨z, ez, sz, dz⟩ := add' h12 h21 (V := 4 * (q.y * q.z)) (by ring) (four (by linarith))
    obtain ⟨s, es, sS, ds⟩ := sub' h20 h02 (V := 4 * (q.y * q.s)) (by ring) (four (by linarith))
    obtain ⟨y, ey, sy, dy⟩ := diagonal_entry hd (hM 1 1) (l 1 1) (a := M 0 0) (b := M 2 2) (by rwa [add_comm (M 1 1)]) (V := 4 * (q.y * q.y)) (sq4 (by linarith)) (by rw [abs_le]; constructor <;> linarith)
    rw [ex, ey, ez, es]
    refine pick (w := ⟨x, y, z, s⟩) hq ⟨sx, sy, sz, sS⟩ (a := q.y) d0 hd (by linarith) ?_ he he'
    have := large_one d0 dx ds dz dy
    simp only [mul_assoc]
    linarith
  rw [if_neg k3]
  have k4 : (M 0 0 ≤ M 2 2 ∧ M 1 1 ≤ M 2 2) ∧ tr ≤ M 2 2 := greatest k1 k2 k3
  rw [if_pos k4]
  obtain ⟨⟨m1, m2⟩, m3⟩ := k4
  obtain ⟨x, ex, sx, dx⟩ := add' h20 h02 (V := 4 * (q.z * q.x)) (by ring) (four (by linarith))
  obtain ⟨y, ey, sy, dy⟩ := add' h21 h12 (V := 4 * (q.z * q.y)) (by ring) (four (by linarith))
  obtain ⟨s, es, sS, ds⟩ := sub' h01 h10 (V := 4 * (q.z * q.s)) (by ring) (four (by linarith))
  obtain ⟨z, ez, sz, dz⟩ := diagonal_entry hd (hM 2 2) (l 2 2) (a := M 0 0) (b := M 1 1) (by rwa [add_rotate (M 2 2)]) (V := 4 * (q.z * q.z)) (sq4 (by linarith)) (by rw [abs_le]; constructor <;> linarith)
  rw [ex, ey, ez, es]
  refine pick (w := ⟨x, y, z, s⟩) hq ⟨sx, sy, sz, sS⟩ (a := q.z) d0 hd (by linarith) ?_ he he'
  have := large_one d0 dx dy ds dz
  simp only [mul_assoc]
  linarith

/-- the coefficients of a matrix that turns every vector nearly as the rotation does -/
theorem entries_near {M : Fin 3 → Fin 3 → ℝ} {q : Quat} (hq : ‖hamilton q‖ = 1) {d : ℝ}
    (h : ∀ v, ‖pure (turn M v) - (hamilton q)⁻¹ * pure v * hamilton q‖ ≤ d * ‖pure v‖) (i j : Fin 3) : |M i j - DRot.exact q i j| ≤ d := by
  have key : ∀ v : V3, ‖pure v‖ = 1 → ‖pure (turn M v - turn (DRot.exact q) v)‖ ≤ d := fun v hv => by
    have := h v
    have hne : hamilton q ≠ 0 := by
      intro hh
      rw [hh, norm_zero] at hq
      exact zero_ne_one hq
    obtain ⟨-, xs⟩ := exact_rotation q v hne
    rw [hq, one_pow, one_smul] at xs
    rwa [← xs, ← turn_exact, pure_sub, hv, mul_one] at this
  have comp : ∀ {v : V3}, ‖pure v‖ ≤ d → |v.x| ≤ d ∧ |v.y| ≤ d ∧ |v.z| ≤ d := fun {v} hv => by
    have n := pure_sq v
    have d0 := (norm_nonneg _).trans hv
    have := pow_le_pow_left₀ (norm_nonneg _) hv 2
    refine ⟨?_, ?_, ?_⟩ <;> refine abs_le_of_sq_le_sq ?_ d0 <;> nlinarith [sq_nonneg v.x, sq_nonneg v.y, sq_nonneg v.z]
  have one : ∀ {v : V3}, v.x ^ 2 + v.y ^ 2 + v.z ^ 2 = 1 → ‖pure v‖ = 1 := fun {v} hv => by
    rw [← pure_sq] at hv
    exact (pow_eq_one_iff_of_nonneg (norm_nonneg _) two_ne_zero).1 hv
  obtain ⟨x0, x1, x2⟩ := comp (key ⟨1, 0, 0⟩ (one (by norm_num)))
  obtain ⟨y0, y1, y2⟩ := comp (key ⟨0, 1, 0⟩ (one (by norm_num)))
  obtain ⟨z0, z1, z2⟩ := comp (key ⟨0, 0, 1⟩ (one (by norm_num)))
  simp only [turn, V3.sub_x, V3.sub_y, V3.sub_z, mul_one, mul_zero, add_zero, zero_add] at x0 x1 x2 y0 y1 y2 z0 z1 z2
  fin_cases i <;> fin_cases j
  exacts [x0, y0, z0, x1, y1, z1, x2, y2, z2]

theorem mat_representable (q : Quat) (i j : Fin 3) : Representable (DRot.mat q i j) := by
  fin_cases i <;> fin_cases j <;> first | exact rnd_representable _ | exact DRot.representable_double (rnd_representable _)

end Verif.Props
