import Mathlib.Analysis.SpecialFunctions.Trigonometric.Inverse
import Mathlib.Geometry.Euclidean.Angle.Unoriented.TriangleInequality
import Mathlib.Analysis.InnerProductSpace.PiL2
import Verif.Lemmas.Linear3
import Verif.Spec.Cone

/-! # Lemmas on cones -/

namespace Verif

open Spec

namespace V3

theorem normSq_add (u v : V3) : (u + v).normSq = u.normSq + 2 * u.dot v + v.normSq := by
  simp only [normSq, dot, add_x, add_y, add_z]; ring
theorem normSq_sub (u v : V3) : (u - v).normSq = u.normSq - 2 * u.dot v + v.normSq := by
  simp only [normSq, dot, sub_x, sub_y, sub_z]; ring

theorem dot_le (u v : V3) : u.dot v ≤ u.norm * v.norm := (le_abs_self _).trans (abs_dot_le u v)

theorem norm_add_le (u v : V3) : (u + v).norm ≤ u.norm + v.norm := by
  refine abs_le_of_sq_le_sq' ?_ (add_nonneg u.norm_nonneg v.norm_nonneg) |>.2
  have := dot_le u v
  rw [norm_sq, normSq_add, ← norm_sq u, ← norm_sq v]
  nlinarith

theorem norm_le_add (u v : V3) : u.norm ≤ (u - v).norm + v.norm := by
  have h := norm_add_le (u - v) v
  have e : u - v + v = u := by ext <;> simp
  rwa [e] at h

theorem normSq_pos_of_ne {u : V3} (h : u ≠ 0) : 0 < u.normSq :=
  lt_of_le_of_ne u.normSq_nonneg fun e => h (normSq_eq_zero.1 e.symm)

theorem norm_pos_of_ne {u : V3} (h : u ≠ 0) : 0 < u.norm := norm_pos (normSq_pos_of_ne h)

theorem exists_perp (k : V3) (hk : k.norm = 1) : ∃ n : V3, n.norm = 1 ∧ n.dot k = 0 := by
  have hs := normSq_of_unit hk
  by_cases h : (k.cross X).normSq = 0
  · have h2 : 0 < (k.cross Y).normSq := by
      simp only [normSq, dot, cross_x, cross_y, cross_z, X, Y] at *
      nlinarith [sq_nonneg k.x, sq_nonneg k.y, sq_nonneg k.z]
    refine ⟨(k.cross Y).normalized, norm_normalized h2, ?_⟩
    rw [normalized_eq h2]
    simp only [dot, smul_x, smul_y, smul_z, cross_x, cross_y, cross_z]; ring
  · have h2 : 0 < (k.cross X).normSq := lt_of_le_of_ne (normSq_nonneg _) (Ne.symm h)
    refine ⟨(k.cross X).normalized, norm_normalized h2, ?_⟩
    rw [normalized_eq h2]
    simp only [dot, smul_x, smul_y, smul_z, cross_x, cross_y, cross_z]; ring

/-- every vector is a combination of the unit vector `k` and a unit vector perpendicular to it -/
theorem exists_decomp (k v : V3) (hk : k.norm = 1) :
    ∃ (n : V3) (ρ : ℝ), n.norm = 1 ∧ n.dot k = 0 ∧ 0 ≤ ρ ∧ v = (v.dot k) • k + ρ • n := by
  have hs := normSq_of_unit hk
  by_cases h : v - (v.dot k) • k = 0
  · obtain ⟨n, h1, h2⟩ := exists_perp k hk
    refine ⟨n, 0, h1, h2, le_rfl, ?_⟩
    rw [sub_eq_zero'] at h
    conv_lhs => rw [h]
    ext <;> simp
  · have h2 := normSq_pos_of_ne h
    refine ⟨(v - (v.dot k) • k).normalized, (v - (v.dot k) • k).norm, norm_normalized h2, ?_, norm_nonneg _, ?_⟩
    · rw [normalized_eq h2]
      have : (v - (v.dot k) • k).dot k = v.dot k - v.dot k * k.normSq := by
        simp only [normSq, dot, sub_x, sub_y, sub_z, smul_x, smul_y, smul_z]; ring
      rw [hs, mul_one, sub_self] at this
      generalize v - (v.dot k) • k = w at this ⊢
      rw [dot_comm, dot_smul, dot_comm, this, mul_zero]
    · rw [norm_smul_normalized]; ext <;> simp

theorem normalized_dot {d : V3} (hd : d ≠ 0) (v : V3) : v.dot d = d.norm * v.dot d.normalized := by
  conv_lhs => rw [← norm_smul_normalized d]
  rw [dot_smul]

/-- a unit vector that makes the angle `t` with the unit vector `k` -/
theorem unit_lean {k n : V3} (hk : k.norm = 1) (hn : n.norm = 1) (h : n.dot k = 0) (t : ℝ) :
    (Real.cos t • k + Real.sin t • n).norm = 1 ∧ (Real.cos t • k + Real.sin t • n).dot k = Real.cos t := by
  have e1 := normSq_of_unit hk
  have e2 := normSq_of_unit hn
  constructor
  · apply norm_of_normSq_one
    rw [normSq_add, normSq_smul, normSq_smul, e1, e2]
    have : (Real.cos t • k).dot (Real.sin t • n) = Real.cos t * Real.sin t * n.dot k := by
      simp only [dot, smul_x, smul_y, smul_z]; ring
    rw [this, h]
    linarith [Real.sin_sq_add_cos_sq t]
  · have : (Real.cos t • k + Real.sin t • n).dot k = Real.cos t * k.normSq + Real.sin t * n.dot k := by
      simp only [normSq, dot, add_x, add_y, add_z, smul_x, smul_y, smul_z]; ring
    rw [this, e1, h]; ring

/-- a unit vector with cosine `cos t` to `k` has a component at most `sin t` along a unit vector perpendicular to `k` -/
theorem side_le {k n g : V3} (hk : k.norm = 1) (hn : n.norm = 1) (h : n.dot k = 0) (hg : g.norm = 1) {t : ℝ} (ht : g.dot k = Real.cos t)
    (h0 : 0 ≤ Real.sin t) : g.dot n ≤ Real.sin t := by
  have e1 := normSq_of_unit hk
  have e2 := normSq_of_unit hn
  have e3 := normSq_of_unit hg
  have hw : (g - Real.cos t • k).normSq = Real.sin t ^ 2 := by
    rw [normSq_sub, normSq_smul, dot_smul, ht, e1, e3]; linarith [Real.sin_sq_add_cos_sq t]
  have hw' : (g - Real.cos t • k).norm = Real.sin t := by rw [norm, hw, Real.sqrt_sq h0]
  have := dot_le (g - Real.cos t • k) n
  rw [hw', hn, mul_one] at this
  have e : (g - Real.cos t • k).dot n = g.dot n - Real.cos t * n.dot k := by
    simp only [dot, sub_x, sub_y, sub_z, smul_x, smul_y, smul_z]; ring
  rw [e, h, mul_zero, sub_zero] at this
  exact this

end V3

theorem isDistance_lipschitz {s : Set V3} {p q : V3} {k l : ℝ} (hp : IsDistance s p k) (hq : IsDistance s q l) : |k - l| ≤ (p - q).norm := by
  obtain ⟨⟨x, hx, hxk⟩, hp2⟩ := hp
  obtain ⟨⟨y, hy, hyl⟩, hq2⟩ := hq
  have h1 := hp2 y hy
  have h2 := hq2 x hx
  have a1 := V3.norm_add_le (y - q) (q - p)
  have a2 := V3.norm_add_le (x - p) (p - q)
  have e1 : y - q + (q - p) = y - p := by ext <;> simp
  have e2 : x - p + (p - q) = x - q := by ext <;> simp
  rw [e1, V3.norm_sub_comm q p] at a1
  rw [e2] at a2
  rw [abs_le]; constructor <;> linarith

/-- The generator on the side of a point is the nearest one. -/
theorem lateral_distance {a d k n : V3} (hd : d ≠ 0) (hk : k = d.normalized) (hn : n.norm = 1) (hnk : n.dot k = 0) {p : V3} {ρ t D : ℝ}
    (hρ : 0 ≤ ρ) (hp : p - a = ((p - a).dot k) • k + ρ • n) (hs : 0 ≤ Real.sin t)
    (hD : IsDistance (RaySet a (Real.cos t • k + Real.sin t • n)) p D) : IsDistance (LateralSet a d t) p D := by
  have hk1 : k.norm = 1 := by rw [hk]; exact V3.norm_normalized (V3.normSq_pos_of_ne hd)
  have hdp := V3.norm_pos_of_ne hd
  obtain ⟨u1, u2⟩ := V3.unit_lean hk1 hn hnk t
  obtain ⟨⟨q, hq, hqD⟩, hmin⟩ := hD
  refine ⟨⟨q, ⟨_, u1, ?_, hq⟩, hqD⟩, ?_⟩
  · rw [V3.normalized_dot hd, ← hk, u2, mul_comm]
  · rintro y ⟨g, g1, g2, s, s0, rfl⟩
    have hgk : g.dot k = Real.cos t := by
      have := V3.normalized_dot hd g
      rw [← hk, g2, mul_comm] at this
      exact (mul_left_cancel₀ hdp.ne' this).symm
    refine (hmin (a + s • (Real.cos t • k + Real.sin t • n)) ⟨s, s0, rfl⟩).trans ?_
    rw [V3.norm_le_norm]
    have key : ∀ u : V3, u.normSq = 1 → (a + s • u - p).normSq = s ^ 2 - 2 * s * u.dot (p - a) + (p - a).normSq := by
      intro u hu
      have : (a + s • u - p).normSq = s ^ 2 * u.normSq - 2 * s * u.dot (p - a) + (p - a).normSq := by
        simp only [V3.normSq, V3.dot, V3.add_x, V3.add_y, V3.add_z, V3.sub_x, V3.sub_y, V3.sub_z, V3.smul_x, V3.smul_y, V3.smul_z]; ring
      rw [this, hu, mul_one]
    rw [key _ (V3.normSq_of_unit u1), key _ (V3.normSq_of_unit g1)]
    have key2 : ∀ u : V3, u.dot (p - a) = (p - a).dot k * u.dot k + ρ * u.dot n := by
      intro u
      conv_lhs => rw [hp]
      rw [V3.dot_add, V3.dot_smul, V3.dot_smul]
    have un : (Real.cos t • k + Real.sin t • n).dot n = Real.sin t := by
      have : (Real.cos t • k + Real.sin t • n).dot n = Real.cos t * n.dot k + Real.sin t * n.normSq := by
        simp only [V3.normSq, V3.dot, V3.add_x, V3.add_y, V3.add_z, V3.smul_x, V3.smul_y, V3.smul_z]; ring
      rw [this, hnk, V3.normSq_of_unit hn]; ring
    rw [key2, key2 g, u2, hgk, un]
    have := V3.side_le hk1 hn hnk g1 hgk hs
    nlinarith [mul_nonneg s0 (mul_nonneg hρ (sub_nonneg.2 this))]

/-- the directions of a cone of half-angle at most a right angle form a convex cone -/
theorem cone_combination {d u v : V3} {c : ℝ} (hc : 0 ≤ c) (hu : c * (u.norm * d.norm) ≤ u.dot d) (hv : c * (v.norm * d.norm) ≤ v.dot d) {s r : ℝ}
    (hs : 0 ≤ s) (hr : 0 ≤ r) : c * ((s • u + r • v).norm * d.norm) ≤ (s • u + r • v).dot d := by
  have h1 := V3.norm_add_le (s • u) (r • v)
  rw [V3.norm_smul, V3.norm_smul, abs_of_nonneg hs, abs_of_nonneg hr] at h1
  have h2 : (s • u + r • v).dot d = s * u.dot d + r * v.dot d := by
    simp only [V3.dot, V3.add_x, V3.add_y, V3.add_z, V3.smul_x, V3.smul_y, V3.smul_z]; ring
  rw [h2]
  have h3 := mul_le_mul_of_nonneg_left h1 (mul_nonneg hc d.norm_nonneg)
  nlinarith [mul_le_mul_of_nonneg_left hu hs, mul_le_mul_of_nonneg_left hv hr]

/-- a ray in a cone runs along a direction of the cone -/
theorem cone_recession {d u v : V3} {c : ℝ} (hc : 0 ≤ c) (h : ∀ s : ℝ, 0 ≤ s → c * ((v + s • u).norm * d.norm) ≤ (v + s • u).dot d) :
    c * (u.norm * d.norm) ≤ u.dot d := by
  by_contra hn
  push Not at hn
  set e := c * (u.norm * d.norm) - u.dot d with he
  have he0 : 0 < e := by linarith
  set b := v.dot d + c * (v.norm * d.norm) with hb
  have hs : 0 ≤ (|b| + 1) / e := by positivity
  have h1 := h _ hs
  set s := (|b| + 1) / e with hse
  have h2 : s * u.norm ≤ (v + s • u).norm + v.norm := by
    have := V3.norm_le_add (s • u) (0 - v)
    have e1 : s • u - (0 - v) = v + s • u := by ext <;> simp <;> ring
    have e2 : ((0 : V3) - v).norm = v.norm := by rw [V3.norm_sub_comm]; congr 1; ext <;> simp
    rwa [e1, e2, V3.norm_smul, abs_of_nonneg hs] at this
  have h3 : (v + s • u).dot d = v.dot d + s * u.dot d := by
    simp only [V3.dot, V3.add_x, V3.add_y, V3.add_z, V3.smul_x, V3.smul_y, V3.smul_z]; ring
  rw [h3] at h1
  have h4 := mul_le_mul_of_nonneg_left h2 (mul_nonneg hc d.norm_nonneg)
  have h5 : s * e = |b| + 1 := by rw [hse]; field_simp
  have h6 := le_abs_self b
  nlinarith

/-- the component of `v` perpendicular to `d` -/
theorem off_axis {d v : V3} (hv : d.cross v ≠ 0) :
    ((d.cross v).cross d).normalized.norm = 1 ∧ ((d.cross v).cross d).normalized.dot d = 0 ∧
    ∃ ρ : ℝ, 0 ≤ ρ ∧ v = (v.dot d.normalized) • d.normalized + ρ • ((d.cross v).cross d).normalized := by
  have hd : d ≠ 0 := by rintro rfl; exact hv (by ext <;> simp)
  have hdp := V3.norm_pos_of_ne hd
  have hc := V3.norm_pos_of_ne hv
  have hcs := V3.normSq_pos_of_ne hv
  have e : ((d.cross v).cross d).normSq = (d.cross v).normSq * d.normSq := by
    rw [V3.lagrange]
    have : (d.cross v).dot d = 0 := by simp only [V3.dot, V3.cross_x, V3.cross_y, V3.cross_z]; ring
    rw [this]; ring
  have hp : 0 < ((d.cross v).cross d).normSq := by rw [e]; exact mul_pos hcs (V3.normSq_pos_of_ne hd)
  have hn : ((d.cross v).cross d).norm = (d.cross v).norm * d.norm := by rw [V3.norm, e, Real.sqrt_mul hcs.le]; rfl
  refine ⟨V3.norm_normalized hp, ?_, (d.cross v).norm / d.norm, by positivity, ?_⟩
  · rw [V3.normalized_eq hp]
    simp only [V3.dot, V3.smul_x, V3.smul_y, V3.smul_z, V3.cross_x, V3.cross_y, V3.cross_z]; ring
  · have h2 := V3.norm_mul_self d
    rw [V3.normalized_eq hp, hn, V3.normalized_eq (V3.normSq_pos_of_ne hd)]
    generalize (d.cross v).norm = b at *
    generalize d.norm = m at *
    simp only [V3.normSq, V3.dot] at h2
    have h3 : m ^ 2 = d.x * d.x + d.y * d.y + d.z * d.z := by rw [← h2]; ring
    ext <;> simp [V3.dot] <;> field_simp <;> rw [h3] <;> ring

theorem mem_lateralSet {a d p : V3} (hd : d ≠ 0) {t : ℝ} : p ∈ LateralSet a d t ↔ (p - a).dot d = Real.cos t * ((p - a).norm * d.norm) := by
  have hdp := V3.norm_pos_of_ne hd
  constructor
  · rintro ⟨g, g1, g2, s, hs, rfl⟩
    rw [V3.add_smul_sub, V3.norm_smul, g1, abs_of_nonneg hs, V3.dot_comm, V3.dot_smul, V3.dot_comm, g2]; ring
  · intro h
    by_cases hp : p - a = 0
    · have hk : d.normalized.norm = 1 := V3.norm_normalized (V3.normSq_pos_of_ne hd)
      obtain ⟨n, n1, n2⟩ := V3.exists_perp _ hk
      obtain ⟨u1, u2⟩ := V3.unit_lean hk n1 n2 t
      refine ⟨_, u1, ?_, 0, le_rfl, ?_⟩
      · rw [V3.normalized_dot hd, u2, mul_comm]
      · rw [V3.sub_eq_zero'.1 hp]; ext <;> simp
    · have hpp := V3.norm_pos_of_ne hp
      refine ⟨(p - a).normalized, V3.norm_normalized (V3.normSq_pos_of_ne hp), ?_, (p - a).norm, V3.norm_nonneg _, ?_⟩
      · rw [V3.normalized_eq (V3.normSq_pos_of_ne hp), V3.dot_comm, V3.dot_smul, V3.dot_comm, h]
        field_simp
      · rw [V3.norm_smul_normalized]; ext <;> simp

theorem apex_mem_lateral {a d : V3} (hd : d ≠ 0) (t : ℝ) : a ∈ LateralSet a d t := by
  rw [mem_lateralSet hd]
  have e : a - a = 0 := by ext <;> simp
  rw [e]; simp [V3.dot]

/-- a segment from the solid cone to a point outside of it crosses the lateral surface before it ends -/
theorem cross_lateral {a d p q : V3} (hd : d ≠ 0) {t : ℝ} (hp : p ∈ ConeSet a d t) (hq : q ∉ ConeSet a d t) :
    ∃ s : ℝ, 0 ≤ s ∧ s < 1 ∧ p + s • (q - p) ∈ LateralSet a d t := by
  let f : ℝ → ℝ := fun s => (p + s • (q - p) - a).dot d - Real.cos t * ((p + s • (q - p) - a).norm * d.norm)
  have hf : Continuous f := by
    simp only [f, V3.norm, V3.normSq, V3.dot, V3.add_x, V3.add_y, V3.add_z, V3.sub_x, V3.sub_y, V3.sub_z, V3.smul_x, V3.smul_y, V3.smul_z]
    fun_prop
  have e0 : p + (0 : ℝ) • (q - p) = p := by ext <;> simp
  have e1 : p + (1 : ℝ) • (q - p) = q := by ext <;> simp
  have h0 : 0 ≤ f 0 := by
    simp only [f, e0]; exact sub_nonneg.2 hp
  have h1 : f 1 < 0 := by
    simp only [f, e1]; exact sub_neg.2 (not_le.1 hq)
  obtain ⟨s, ⟨s0, s1⟩, hs⟩ := intermediate_value_Icc' zero_le_one hf.continuousOn ⟨h1.le, h0⟩
  refine ⟨s, s0, lt_of_le_of_ne s1 ?_, ?_⟩
  · rintro rfl; linarith
  · rw [mem_lateralSet hd]; simp only [f] at hs; linarith

/-- beside every point of the lateral surface there is a point outside of the solid cone -/
theorem outside_near {a d y : V3} (hd : d ≠ 0) {t : ℝ} (h0 : 0 ≤ Real.cos t) (h1 : Real.cos t < 1) (hy : y ∈ LateralSet a d t) {δ : ℝ} (hδ : 0 < δ) :
    ∃ q, q ∉ ConeSet a d t ∧ (q - y).norm ≤ δ := by
  have hdp := V3.norm_pos_of_ne hd
  rw [mem_lateralSet hd] at hy
  refine ⟨y - (δ / d.norm) • d, ?_, ?_⟩
  · simp only [ConeSet, Set.mem_ofPred_eq, not_le]
    have e : y - (δ / d.norm) • d - a = (y - a) - (δ / d.norm) • d := by ext <;> simp <;> ring
    have e2 : ((y - a) - (δ / d.norm) • d).dot d = (y - a).dot d - δ / d.norm * d.normSq := by
      simp only [V3.normSq, V3.dot, V3.sub_x, V3.sub_y, V3.sub_z, V3.smul_x, V3.smul_y, V3.smul_z]; ring
    have e3 := V3.norm_le_add (y - a) ((δ / d.norm) • d)
    rw [V3.norm_smul, abs_of_pos (div_pos hδ hdp), div_mul_cancel₀ _ hdp.ne'] at e3
    rw [e, e2, hy, ← V3.norm_mul_self, ← mul_assoc (δ / d.norm), div_mul_cancel₀ _ hdp.ne']
    have := mul_le_mul_of_nonneg_left e3 (mul_nonneg h0 hdp.le)
    nlinarith [mul_pos hδ hdp]
  · have e : y - (δ / d.norm) • d - y = (-(δ / d.norm)) • d := by ext <;> simp
    rw [e, V3.norm_smul, abs_neg, abs_of_pos (div_pos hδ hdp), div_mul_cancel₀ _ hdp.ne']

theorem cos_le_iff {x y : ℝ} (hx : 0 ≤ x) (hx' : x ≤ Real.pi) (hy : 0 ≤ y) (hy' : y ≤ Real.pi) : x ≤ y ↔ Real.cos y ≤ Real.cos x :=
  (Real.strictAntiOn_cos.le_iff_ge ⟨hy, hy'⟩ ⟨hx, hx'⟩).symm

/-- the vector in Mathlib's Euclidean space -/
noncomputable def toE (v : V3) : EuclideanSpace ℝ (Fin 3) := !₂[v.x, v.y, v.z]

theorem inner_toE (u v : V3) : inner ℝ (toE u) (toE v) = u.dot v := by
  simp [toE, PiLp.inner_apply, Fin.sum_univ_three, V3.dot]; ring

theorem norm_toE (u : V3) : ‖toE u‖ = u.norm := by
  rw [norm_eq_sqrt_real_inner, inner_toE]; rfl

/-- the angle between two vectors -/
noncomputable def ang (u v : V3) : ℝ := Real.arccos (u.dot v / (u.norm * v.norm))

theorem ang_eq (u v : V3) : ang u v = InnerProductGeometry.angle (toE u) (toE v) := by
  rw [InnerProductGeometry.angle, inner_toE, norm_toE, norm_toE]; rfl

theorem ang_triangle (u v w : V3) : ang u w ≤ ang u v + ang v w := by
  rw [ang_eq, ang_eq, ang_eq]; exact InnerProductGeometry.angle_le_angle_add_angle _ _ _

theorem cos_ang (u v : V3) : Real.cos (ang u v) * (u.norm * v.norm) = u.dot v := by
  rw [ang_eq, ← norm_toE, ← norm_toE, ← inner_toE]; exact InnerProductGeometry.cos_angle_mul_norm_mul_norm _ _

end Verif
