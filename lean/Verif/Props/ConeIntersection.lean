import Verif.Lemmas.IntervalGrid
import Verif.Props.Cone
import Verif.Props.EllipsoidIntersection
import Verif.Props.Transformation

/-!
# Intersections of cones
-/

namespace Verif.Props

open Verif Verif.Spec Classical

/-- a solid cone that meets a ball meets its surface -/
theorem cone_ball_sphere {a d c y : V3} {t r : ℝ} (hd : d ≠ 0) (hr : 0 ≤ r) (hy : y ∈ ConeSet a d t) (hb : (y - c).norm ≤ r) :
    (ConeSet a d t ∩ SphereSet c r).Nonempty := by
  have hdp := V3.norm_pos_of_ne hd
  -- a direction in which the cone is left by no ray
  obtain ⟨u, hu, hcone⟩ : ∃ u : V3, u ≠ 0 ∧ ∀ s : ℝ, 0 ≤ s → y + s • u ∈ ConeSet a d t := by
    by_cases hya : y - a = 0
    · refine ⟨d, hd, fun s hs => ?_⟩
      have e : y + s • d - a = s • d := by rw [V3.sub_eq_zero'.1 hya, V3.add_smul_sub]
      simp only [ConeSet, Set.mem_ofPred_eq, e]
      rw [V3.norm_smul, abs_of_nonneg hs, V3.dot_comm, V3.dot_smul, show d.dot d = d.normSq from rfl, ← V3.norm_mul_self]
      have := mul_le_mul_of_nonneg_right (Real.cos_le_one t) (mul_nonneg hs (mul_nonneg hdp.le hdp.le))
      nlinarith
    · refine ⟨y - a, hya, fun s hs => ?_⟩
      have e : y + s • (y - a) - a = (1 + s) • (y - a) := by ext <;> simp <;> ring
      simp only [ConeSet, Set.mem_ofPred_eq, e]
      rw [V3.norm_smul, abs_of_nonneg (by linarith), V3.dot_comm, V3.dot_smul, V3.dot_comm]
      have : Real.cos t * ((y - a).norm * d.norm) ≤ (y - a).dot d := hy
      nlinarith [mul_le_mul_of_nonneg_left this (by linarith : (0 : ℝ) ≤ 1 + s)]
  have hup := V3.norm_pos_of_ne hu
  let f : ℝ → ℝ := fun s => (y + s • u - c).norm
  have hf : Continuous f := by
    simp only [f, V3.norm, V3.normSq, V3.dot, V3.add_x, V3.add_y, V3.add_z, V3.sub_x, V3.sub_y, V3.sub_z, V3.smul_x, V3.smul_y, V3.smul_z]
    fun_prop
  have hS : 0 ≤ (r + (y - c).norm) / u.norm := div_nonneg (add_nonneg hr (V3.norm_nonneg _)) hup.le
  have h0 : f 0 ≤ r := by
    have e0 : y + (0 : ℝ) • u = y := by ext <;> simp
    simp only [f, e0]; exact hb
  have h1 : r ≤ f ((r + (y - c).norm) / u.norm) := by
    have := V3.norm_add_le (y + ((r + (y - c).norm) / u.norm) • u - c) (c - y)
    have e : y + ((r + (y - c).norm) / u.norm) • u - c + (c - y) = ((r + (y - c).norm) / u.norm) • u := by ext <;> simp
    rw [e, V3.norm_smul, abs_of_nonneg hS, div_mul_cancel₀ _ hup.ne', V3.norm_sub_comm c y] at this
    simp only [f]; linarith
  obtain ⟨s, ⟨s0, -⟩, hs⟩ := intermediate_value_Icc hS hf.continuousOn ⟨h0, h1⟩
  exact ⟨_, hcone s s0, by simp only [SphereSet, Set.mem_ofPred_eq]; rw [abs_of_nonneg hr]; exact hs⟩

theorem ang_le_of_mem {u d : V3} (hu : u ≠ 0) (hd : d ≠ 0) {t : ℝ} (h0 : 0 ≤ t) (h1 : t ≤ Real.pi) : ang u d ≤ t ↔ Real.cos t * (u.norm * d.norm) ≤ u.dot d := by
  rw [cos_le_iff (x := ang u d) (Real.arccos_nonneg _) (Real.arccos_le_pi _) h0 h1, ← cos_ang u d,
    mul_le_mul_iff_left₀ (mul_pos (V3.norm_pos_of_ne hu) (V3.norm_pos_of_ne hd))]

/-- **C78.** `intersects (Sphere)` says whether the solid cone meets the sphere, for any half-angle up to a half turn. -/
theorem C78_sphere (a d c : V3) (r : ℝ) (hr : 0 ≤ r) (hd : d ≠ 0) (t : Angle) (x : ℝ) (ht : Measures t x) (h0 : 0 ≤ x) (h1 : x ≤ 1 / 2) :
    ∃ b, Cone3.intersectsSphere ⟨some a, some d, t⟩ ⟨some c, some r⟩ = .ok b ∧
      (b = true ↔ (ConeSet a d (2 * Real.pi * x) ∩ SphereSet c r).Nonempty) := by
  have hpi := Real.pi_pos
  have hτ0 : 0 ≤ 2 * Real.pi * x := by positivity
  have hτ1 : 2 * Real.pi * x ≤ Real.pi := by nlinarith
  have hrad : t.inUnit .radian = .ok (2 * Real.pi * x) := by rw [inRadian ht, mul_comm]
  have hdp := V3.norm_pos_of_ne hd
  simp only [Cone3.intersectsSphere, Verif.need, Cone3.need, defined_of_measures ht, bind, Except.bind, hrad, pure, Except.pure]
  generalize 2 * Real.pi * x = τ at *
  by_cases hin : (c - a).norm ≤ r
  · refine ⟨true, by rw [if_pos hin], ?_⟩
    simp only [true_iff]
    refine cone_ball_sphere (y := a) hd hr ?_ (by rwa [V3.norm_sub_comm])
    have e : a - a = 0 := by ext <;> simp
    simp only [ConeSet, Set.mem_ofPred_eq, e]; simp [V3.dot]
  · have hneg : ¬ r < -(c - a).norm := by linarith [V3.norm_nonneg (c - a)]
    refine ⟨_, by rw [if_neg hin, if_neg hneg], ?_⟩
    rw [decide_eq_true_eq]
    have hW : r < (c - a).norm := not_le.1 hin
    have hw0 : c - a ≠ 0 := by intro h; rw [h, V3.norm_zero] at hW; linarith
    have hWp := V3.norm_pos_of_ne hw0
    have hα0 : 0 ≤ Real.arcsin (r / (c - a).norm) := Real.arcsin_nonneg.2 (by positivity)
    have hα1 := Real.arcsin_le_pi_div_two (r / (c - a).norm)
    have hρ1 : r / (c - a).norm ≤ 1 := by rw [div_le_one hWp]; exact hW.le
    have hθ : Real.arccos (d.normalized.dot (c - a).normalized) = ang (c - a) d := by
      rw [V3.dot_normalized (V3.normSq_pos_of_ne hd) (V3.normSq_pos_of_ne hw0), ang, V3.dot_comm, mul_comm d.norm]
    rw [hθ]
    constructor
    · intro h
      by_cases hle : ang (c - a) d ≤ τ
      · refine cone_ball_sphere (y := c) hd hr ((ang_le_of_mem hw0 hd hτ0 hτ1).1 hle) ?_
        have e : c - c = 0 := by ext <;> simp
        rw [e, V3.norm_zero]; exact hr
      · push Not at hle
        have hθ1 : ang (c - a) d ≤ Real.pi := Real.arccos_le_pi _
        have hcos := cos_ang (c - a) d
        generalize ang (c - a) d = θ at *
        have hk : d.normalized.norm = 1 := V3.norm_normalized (V3.normSq_pos_of_ne hd)
        obtain ⟨n, ρ, n1, n2, hρ, hv⟩ := V3.exists_decomp d.normalized (c - a) hk
        have hh : (c - a).dot d.normalized = (c - a).norm * Real.cos θ := by
          rw [V3.normalized_dot hd] at hcos
          have : d.norm * (c - a).dot d.normalized = d.norm * ((c - a).norm * Real.cos θ) := by rw [← hcos]; ring
          exact mul_left_cancel₀ hdp.ne' this
        have hsq : (c - a).normSq = (c - a).dot d.normalized ^ 2 + ρ ^ 2 := by
          conv_lhs => rw [hv]
          rw [V3.normSq_add, V3.normSq_smul, V3.normSq_smul, V3.normSq_of_unit hk, V3.normSq_of_unit n1, V3.dot_smul,
            V3.dot_comm _ n, V3.dot_smul, n2]; ring
        have hsinθ : 0 ≤ Real.sin θ := Real.sin_nonneg_of_nonneg_of_le_pi (by linarith) hθ1
        have hρs : ρ = (c - a).norm * Real.sin θ := by
          rw [← V3.norm_sq, hh] at hsq
          have h2 : ρ ^ 2 = ((c - a).norm * Real.sin θ) ^ 2 := by nlinarith [Real.sin_sq_add_cos_sq θ]
          exact (pow_left_inj₀ hρ (mul_nonneg hWp.le hsinθ) two_ne_zero).1 h2
        obtain ⟨u1, u2⟩ := V3.unit_lean hk n1 n2 τ
        have hcpos : 0 ≤ Real.cos (θ - τ) := Real.cos_nonneg_of_neg_pi_div_two_le_of_le (by linarith) (by linarith)
        have hwg : (c - a).dot (Real.cos τ • d.normalized + Real.sin τ • n) = (c - a).norm * Real.cos (θ - τ) := by
          rw [V3.dot_add, V3.dot_smul, V3.dot_smul, hh]
          have : (c - a).dot n = ρ := by
            rw [V3.dot_comm]
            conv_lhs => rw [hv]
            rw [V3.dot_add, V3.dot_smul, V3.dot_smul, n2, show n.dot n = n.normSq from rfl, V3.normSq_of_unit n1]; ring
          rw [this, hρs, Real.cos_sub]; ring
        generalize Real.cos τ • d.normalized + Real.sin τ • n = g at *
        have e : a + ((c - a).norm * Real.cos (θ - τ)) • g - a = ((c - a).norm * Real.cos (θ - τ)) • g := V3.add_smul_sub _ _ _
        refine cone_ball_sphere (y := a + ((c - a).norm * Real.cos (θ - τ)) • g) hd hr ?_ ?_
        · simp only [ConeSet, Set.mem_ofPred_eq, e]
          rw [V3.norm_smul, u1, abs_of_nonneg (mul_nonneg hWp.le hcpos), V3.dot_comm, V3.dot_smul, V3.dot_comm, V3.normalized_dot hd, u2]
          apply le_of_eq; ring
        · have e2 : a + ((c - a).norm * Real.cos (θ - τ)) • g - c = ((c - a).norm * Real.cos (θ - τ)) • g - (c - a) := by ext <;> simp <;> ring
          have h3 : (a + ((c - a).norm * Real.cos (θ - τ)) • g - c).normSq = ((c - a).norm * Real.sin (θ - τ)) ^ 2 := by
            rw [e2, V3.normSq_sub, V3.normSq_smul, V3.normSq_of_unit u1, V3.dot_comm, V3.dot_smul, hwg, ← V3.norm_sq]
            nlinarith [Real.sin_sq_add_cos_sq (θ - τ)]
          have hs0 : 0 ≤ Real.sin (θ - τ) := Real.sin_nonneg_of_nonneg_of_le_pi (by linarith) (by linarith)
          rw [V3.norm, h3, Real.sqrt_sq (mul_nonneg hWp.le hs0)]
          have h4 : Real.sin (θ - τ) ≤ Real.sin (Real.arcsin (r / (c - a).norm)) :=
            Real.sin_le_sin_of_le_of_le_pi_div_two (by linarith) hα1 (by linarith)
          rw [Real.sin_arcsin (by have : 0 ≤ r / (c - a).norm := by positivity
                                  linarith) hρ1, le_div_iff₀ hWp] at h4
          linarith
    · rintro ⟨z, hz, hzs⟩
      simp only [SphereSet, Set.mem_ofPred_eq, abs_of_nonneg hr] at hzs
      have hza : z - a ≠ 0 := by
        intro h
        rw [V3.sub_eq_zero'.1 h, V3.norm_sub_comm] at hzs
        linarith
      have h2 := (ang_le_of_mem hza hd hτ0 hτ1).2 hz
      have h3 : ang (c - a) (z - a) ≤ Real.arcsin (r / (c - a).norm) := by
        rw [ang_le_of_mem hw0 hza hα0 (by linarith), Real.cos_arcsin]
        have e : z - c = (z - a) - (c - a) := by ext <;> simp
        have h4 : r ^ 2 = (z - a).norm ^ 2 - 2 * (z - a).dot (c - a) + (c - a).norm ^ 2 := by
          rw [← hzs, V3.norm_sq, V3.norm_sq, V3.norm_sq, e, V3.normSq_sub]
        rw [V3.dot_comm]
        have h5 : (c - a).norm * Real.sqrt (1 - (r / (c - a).norm) ^ 2) = Real.sqrt ((c - a).norm ^ 2 - r ^ 2) := by
          rw [show (c - a).norm ^ 2 - r ^ 2 = (c - a).norm ^ 2 * (1 - (r / (c - a).norm) ^ 2) by field_simp, Real.sqrt_mul (sq_nonneg _),
            Real.sqrt_sq hWp.le]
        have h6 := Real.sq_sqrt (show 0 ≤ (c - a).norm ^ 2 - r ^ 2 by nlinarith)
        have h7 : Real.sqrt (1 - (r / (c - a).norm) ^ 2) * ((c - a).norm * (z - a).norm) = Real.sqrt ((c - a).norm ^ 2 - r ^ 2) * (z - a).norm := by
          rw [← h5]; ring
        rw [h7]
        nlinarith [sq_nonneg (Real.sqrt ((c - a).norm ^ 2 - r ^ 2) - (z - a).norm)]
      have := ang_triangle (c - a) (z - a) d
      linarith

example : (V3.Z : V3) ≠ 0 ∧ Measures ⟨some 45, .degree⟩ (1 / 8) := ⟨by simp [V3.ext_iff, V3.Z], eighth_degrees⟩

/-- the rotation of a vector about a unit axis -/
theorem cone_rotate (eps : ℝ) (h0 : 0 < eps) (h1 : eps ≤ 1) (e : V3) (he : e.norm = 1) (t : Angle) (x : ℝ) (ht : Measures t x) (v : V3) :
    ∃ q, RotVec.mk1 eps (some e) t = .ok ⟨some e, t⟩ ∧ Quat.RotationVector eps ⟨some e, t⟩ = .ok q ∧
      QuatObj.rotateVector (some q.conj) (some v) (some eps) =
        .ok (Real.cos (2 * Real.pi * x) • v + ((1 - Real.cos (2 * Real.pi * x)) * e.dot v) • e + Real.sin (2 * Real.pi * x) • e.cross v) := by
  obtain ⟨q, m, hq, hm, hu, hrot, hqm, -, -, -⟩ := C27_conversions eps h0 h1 e he t x ht
  obtain ⟨-, w, m', g, hw, hm', hw2, -, hturn, -, -, hg⟩ := C75_factories3 eps h0 h1 e he t x ht 0
  have hmm : m' = m := by rw [hm] at hm'; exact (Except.ok.inj hm').symm
  subst hmm
  have hof : RotMat.ofQuat q = m' := by
    rw [rotMat_quaternion_eq h0 hu] at hqm; exact Except.ok.inj hqm
  have hgm : ∀ w', g w' = m'.transpose.mulVec w' := by
    intro w'
    have s := shape_rotation hrot
    have h2 := (shape_moves s).2 w'
    have h3 := hturn w'
    have h4 : w = _ := (Except.ok.inj (hw2.symm.trans rfl))
    rw [h4] at h3
    rw [h2] at h3
    exact (Option.some.inj h3).symm
  refine ⟨q, ?_, hq, ?_⟩
  · have : ¬ |e.norm - 1| > eps := by rw [he]; simpa using h0.le
    simp only [RotVec.mk1, if_neg this, V3.normalized_of_unit (V3.normSq_of_unit he)]
  · rw [rotateVector_unitary h0 v (Quat.unitary_conj hu), RotMat.ofQuat_conj, hof, ← hgm, hg]

/-- the generator of the cone about the unit axis `d` with half-angle `t` that is turned by `φ` from the perpendicular `u` -/
noncomputable def generator (d u : V3) (t φ : ℝ) : V3 := Real.cos t • d + Real.sin t • (Real.cos φ • u + Real.sin φ • d.cross u)

theorem turned_unit {d u : V3} (hd : d.norm = 1) (hu : u.norm = 1) (hud : u.dot d = 0) (φ : ℝ) :
    (Real.cos φ • u + Real.sin φ • d.cross u).norm = 1 ∧ (Real.cos φ • u + Real.sin φ • d.cross u).dot d = 0 := by
  have e1 := V3.normSq_of_unit hd
  have e2 := V3.normSq_of_unit hu
  constructor
  · apply V3.norm_of_normSq_one
    have h : (d.cross u).normSq = 1 := by rw [V3.lagrange, e1, e2, V3.dot_comm, hud]; ring
    rw [V3.normSq_add, V3.normSq_smul, V3.normSq_smul, e2, h]
    have : (Real.cos φ • u).dot (Real.sin φ • d.cross u) = 0 := by
      simp only [V3.dot, V3.smul_x, V3.smul_y, V3.smul_z, V3.cross_x, V3.cross_y, V3.cross_z]; ring
    rw [this]; linarith [Real.sin_sq_add_cos_sq φ]
  · have : (Real.cos φ • u + Real.sin φ • d.cross u).dot d = Real.cos φ * u.dot d := by
      simp only [V3.dot, V3.add_x, V3.add_y, V3.add_z, V3.smul_x, V3.smul_y, V3.smul_z, V3.cross_x, V3.cross_y, V3.cross_z]; ring
    rw [this, hud, mul_zero]

theorem generator_unit {d u : V3} (hd : d.norm = 1) (hu : u.norm = 1) (hud : u.dot d = 0) (t φ : ℝ) :
    (generator d u t φ).norm = 1 ∧ (generator d u t φ).dot d = Real.cos t :=
  V3.unit_lean hd (turned_unit hd hu hud φ).1 (turned_unit hd hu hud φ).2 t

theorem generator_lateral {a d u : V3} (hd : d.norm = 1) (hu : u.norm = 1) (hud : u.dot d = 0) (t φ : ℝ) :
    RaySet a (generator d u t φ) ⊆ LateralSet a d t := fun p hp =>
  ⟨_, (generator_unit hd hu hud t φ).1, by rw [(generator_unit hd hu hud t φ).2, hd, mul_one], hp⟩

theorem fill_eq (s : ℝ) (n : ℕ) (v : ℝ) : Interval.fill s n v = (List.range n).map fun i : ℕ => v + (i : ℝ) * s := by
  apply List.ext_getElem?
  intro i
  by_cases hi : i < n
  · rw [Interval.fill_get s n v i hi, List.getElem?_map, List.getElem?_range hi]; rfl
  · rw [List.getElem?_eq_none (by rw [Interval.fill_length]; omega), List.getElem?_eq_none (by simp; omega)]

theorem rayAngles_eq {n : ℕ} (hn : 1 ≤ n) : Cone3.rayAngles n = .ok ((List.range n).map fun i : ℕ => (i : ℝ) * (360 / n)) := by
  unfold Cone3.rayAngles
  by_cases h : n > 1
  · rw [if_pos h]
    have : ¬ n < 2 := by omega
    simp [Interval.generateArrayWithSize, this, fill_eq]
  · obtain rfl : n = 1 := by omega
    simp

/-- **C78.** For a cone with a unit axis the generators are `n` rays from the apex that make the half-angle with the axis and are spaced by an `n`-th of a turn. -/
theorem C78_rays (eps : ℝ) (h0 : 0 < eps) (h1 : eps ≤ 1) (a d : V3) (hd : d.norm = 1) (t : Angle) (x : ℝ) (ht : Measures t x) (n : ℕ) (hn : 1 ≤ n) :
    ∃ u : V3, u.norm = 1 ∧ u.dot d = 0 ∧ Cone3.getRaysOfLateralSurface eps ⟨some a, some d, t⟩ n =
      .ok ((List.range n).map fun i : ℕ => ⟨some a, some (generator d u (2 * Real.pi * x) (2 * Real.pi * (i / n)))⟩) := by
  have hs := V3.normSq_of_unit hd
  -- the reference direction
  obtain ⟨w, hw, hw1, hwd⟩ : ∃ w, (if |d.dot V3.X| < 1 / 2 then (d.cross V3.X).normalized else (d.cross V3.Y).normalized) = w ∧ w.norm = 1 ∧
      w.dot d = 0 := by
    have perp : ∀ e : V3, 0 < (d.cross e).normSq → (d.cross e).normalized.norm = 1 ∧ (d.cross e).normalized.dot d = 0 := by
      intro e he
      refine ⟨V3.norm_normalized he, ?_⟩
      rw [V3.normalized_eq he]
      simp only [V3.dot, V3.smul_x, V3.smul_y, V3.smul_z, V3.cross_x, V3.cross_y, V3.cross_z]; ring
    have hs' : d.x * d.x + d.y * d.y + d.z * d.z = 1 := hs
    by_cases h : |d.dot V3.X| < 1 / 2
    · rw [if_pos h]
      refine ⟨_, rfl, perp _ ?_⟩
      have h2 := abs_lt.1 h
      simp [V3.dot, V3.X] at h2
      simp only [V3.normSq, V3.dot, V3.cross_x, V3.cross_y, V3.cross_z, V3.X]
      nlinarith
    · rw [if_neg h]
      refine ⟨_, rfl, perp _ ?_⟩
      have h2 : 1 / 2 ≤ |d.x| := by simpa [V3.dot, V3.X] using h
      have h3 : 1 / 4 ≤ d.x * d.x := by nlinarith [abs_mul_abs_self d.x, abs_nonneg d.x]
      simp only [V3.normSq, V3.dot, V3.cross_x, V3.cross_y, V3.cross_z, V3.Y]
      nlinarith [mul_self_nonneg d.z]
  have hud : (w.cross d).dot d = 0 := by simp only [V3.dot, V3.cross_x, V3.cross_y, V3.cross_z]; ring
  have hu : (w.cross d).norm = 1 := by
    apply V3.norm_of_normSq_one
    rw [V3.lagrange, hs, V3.normSq_of_unit hw1, hwd]; ring
  refine ⟨w.cross d, hu, hud, ?_⟩
  obtain ⟨q, hq1, hq2, hq3⟩ := cone_rotate eps h0 h1 w hw1 t x ht d
  have hfirst : Real.cos (2 * Real.pi * x) • d + ((1 - Real.cos (2 * Real.pi * x)) * w.dot d) • w + Real.sin (2 * Real.pi * x) • w.cross d =
      Real.cos (2 * Real.pi * x) • d + Real.sin (2 * Real.pi * x) • w.cross d := by
    rw [hwd]; ext <;> simp
  rw [hfirst] at hq3
  have hctor : ∀ g : V3, g.norm = 1 → Ray3.ctor (some a) (some g) = .ok ⟨some a, some g⟩ := by
    intro g hg; simp [Ray3.ctor, V3.normSq_of_unit hg]
  have hg1 := (V3.unit_lean hd hu hud (2 * Real.pi * x)).1
  have hn0 : n ≠ 0 := by omega
  simp only [Cone3.getRaysOfLateralSurface, if_neg hn0, Verif.need, bind, Except.bind, hw, hq1, hq2, hq3, hctor _ hg1, rayAngles_eq hn, mapRes_map]
  refine mapRes_ok fun i _ => ?_
  have hnp : (0 : ℝ) < n := by positivity
  have hm : Measures ⟨some ((i : ℝ) * (360 / n)), .degree⟩ (i / n) := ⟨_, rfl, by simp, by simp only [perTurn]; field_simp⟩
  obtain ⟨q', e1, e2, e3⟩ := cone_rotate eps h0 h1 d hd _ _ hm (Real.cos (2 * Real.pi * x) • d + Real.sin (2 * Real.pi * x) • w.cross d)
  simp only [e1, e2, e3]
  have hgen : Real.cos (2 * Real.pi * (i / n)) • (Real.cos (2 * Real.pi * x) • d + Real.sin (2 * Real.pi * x) • w.cross d) +
      ((1 - Real.cos (2 * Real.pi * (i / n))) * d.dot (Real.cos (2 * Real.pi * x) • d + Real.sin (2 * Real.pi * x) • w.cross d)) • d +
      Real.sin (2 * Real.pi * (i / n)) • d.cross (Real.cos (2 * Real.pi * x) • d + Real.sin (2 * Real.pi * x) • w.cross d) =
      generator d (w.cross d) (2 * Real.pi * x) (2 * Real.pi * (i / n)) := by
    have hdot : d.dot (Real.cos (2 * Real.pi * x) • d + Real.sin (2 * Real.pi * x) • w.cross d) = Real.cos (2 * Real.pi * x) := by
      rw [V3.dot_comm]; exact (V3.unit_lean hd hu hud _).2
    rw [hdot, generator]
    ext <;> simp <;> ring
  rw [hgen]
  exact hctor _ (generator_unit hd hu hud _ _).1

/-- **C78.** A ray count of zero, or an axis that is not a unit vector (up to the tolerance), is refused. -/
theorem C78_rays_refused (eps : ℝ) (a : Option V3) (d : V3) (t : Angle) (n : ℕ) :
    Cone3.getRaysOfLateralSurface eps ⟨a, some d, t⟩ 0 = .error .wrong ∧
    (eps < |d.norm - 1| → ∃ e, Cone3.getRaysOfLateralSurface eps ⟨a, some d, t⟩ n = .error e) := by
  constructor
  · simp [Cone3.getRaysOfLateralSurface]
  · intro h
    have bind_err : ∀ {α β : Type} (y : Res α) (f : α → Res β), (∀ z, ∃ e, f z = .error e) → ∃ e, (y >>= f) = .error e := by
      intro α β y f hf
      cases y with
      | error e => exact ⟨e, rfl⟩
      | ok z => exact hf z
    unfold Cone3.getRaysOfLateralSurface
    by_cases hn : n = 0
    · exact ⟨.wrong, by rw [if_pos hn]⟩
    · rw [if_neg hn]
      have e0 : ∀ {β : Type} (f : V3 → Res β), (Verif.need (some d) >>= f) = f d := fun _ => rfl
      rw [e0]
      refine bind_err _ _ fun k => bind_err _ _ fun q => bind_err _ _ fun g => bind_err _ _ fun first => ?_
      rw [rayAngles_eq (by omega)]
      obtain ⟨m, rfl⟩ : ∃ m, n = m + 1 := ⟨n - 1, by omega⟩
      exact ⟨.runtimeError, by simp [List.range_succ_eq_map, mapRes, RotVec.mk1, h, bind, Except.bind]⟩

example : (1 / 1000 : ℝ) < |V3.norm ⟨0, 0, 2⟩ - 1| := by
  have : V3.norm ⟨0, 0, 2⟩ = 2 := by
    rw [V3.norm, show V3.normSq ⟨0, 0, 2⟩ = 2 ^ 2 by norm_num [V3.normSq, V3.dot], Real.sqrt_sq (by norm_num)]
  rw [this]; norm_num

theorem ell_defined (p : V3) (a b c : ℝ) (q : Quat) : (ell p a b c q).isDefined = true := rfl

/-- **C78.** `intersects (Ellipsoid)` says whether one of the `n` generators meets the surface of the ellipsoid; if it does, the lateral surface meets it. -/
theorem C78_ellipsoid (eps : ℝ) (h0 : 0 < eps) (h1 : eps ≤ 1) (a d : V3) (hd : d.norm = 1) (t : Angle) (x : ℝ) (ht : Measures t x) (n : ℕ) (hn : 1 ≤ n)
    (p : V3) (k l m : ℝ) (hk : 0 < k) (hl : 0 < l) (hm : 0 < m) (q : Quat) (hq : Unitary q) :
    ∃ (u : V3) (b : Bool), u.norm = 1 ∧ u.dot d = 0 ∧ Cone3.intersectsEllipsoid eps ⟨some a, some d, t⟩ (ell p k l m q) n = .ok b ∧
      (b = true ↔ ∃ i < n, (RaySet a (generator d u (2 * Real.pi * x) (2 * Real.pi * (i / n))) ∩ Surface p k l m q).Nonempty) ∧
      (b = true → (LateralSet a d (2 * Real.pi * x) ∩ Surface p k l m q).Nonempty) := by
  obtain ⟨u, hu, hud, hr⟩ := C78_rays eps h0 h1 a d hd t x ht n hn
  obtain ⟨b, hb, hb2⟩ := anyOf_true (f := (ell p k l m q).intersectsRay eps)
    (l := (List.range n).map fun i : ℕ => (⟨some a, some (generator d u (2 * Real.pi * x) (2 * Real.pi * (i / n)))⟩ : Ray3))
    (g := fun r => ∃ o g, r = ⟨some o, some g⟩ ∧ (RaySet o g ∩ Surface p k l m q).Nonempty) (by
      intro r hr
      obtain ⟨i, -, rfl⟩ := List.mem_map.1 hr
      obtain ⟨-, r, h2, h3⟩ := C76_ray eps h0 p k l m hk hl hm q hq a _ (generator_unit hd hu hud (2 * Real.pi * x) (2 * Real.pi * (i / n))).1
      refine ⟨r, h2, ?_⟩
      rw [h3]
      constructor
      · intro h; exact ⟨_, _, rfl, h⟩
      · rintro ⟨o, g, e, h⟩
        simp only [Ray3.mk.injEq, Option.some.injEq] at e
        obtain ⟨rfl, rfl⟩ := e
        exact h)
  have key : b = true ↔ ∃ i < n, (RaySet a (generator d u (2 * Real.pi * x) (2 * Real.pi * (i / n))) ∩ Surface p k l m q).Nonempty := by
    rw [hb2]
    constructor
    · rintro ⟨r, hr, o, g, rfl, h⟩
      obtain ⟨i, hi, e⟩ := List.mem_map.1 hr
      simp only [Ray3.mk.injEq, Option.some.injEq] at e
      obtain ⟨rfl, rfl⟩ := e
      exact ⟨i, List.mem_range.1 hi, h⟩
    · rintro ⟨i, hi, h⟩
      exact ⟨_, List.mem_map.2 ⟨i, List.mem_range.2 hi, rfl⟩, _, _, rfl, h⟩
  refine ⟨u, b, hu, hud, ?_, key, ?_⟩
  · simp only [Cone3.intersectsEllipsoid, ell_defined, Cone3.isDefined, defined_of_measures ht, Option.isSome_some, Bool.and_self, Bool.not_true,
      Bool.false_eq_true, if_false, hr, bind, Except.bind, hb]
  · intro h
    obtain ⟨i, -, y, hy, hy2⟩ := key.1 h
    exact ⟨y, generator_lateral hd hu hud _ _ hy, hy2⟩

theorem quat_one_unitary : Unitary ⟨0, 0, 0, 1⟩ := by norm_num [Unitary]

example : V3.Z.norm = 1 ∧ Measures ⟨some 45, .degree⟩ (1 / 8) ∧ Unitary ⟨0, 0, 0, 1⟩ :=
  ⟨V3.norm_of_normSq_one (by norm_num [V3.normSq, V3.dot, V3.Z]), eighth_degrees, quat_one_unitary⟩

/-- **C78.** A violation: a ball well inside of the solid cone intersects it when it is given as a sphere but not when it is given as an ellipsoid, for whatever number of
generators. -/
theorem C78_ellipsoid_violated (eps : ℝ) (h0 : 0 < eps) (h1 : eps ≤ 1) (n : ℕ) (hn : 1 ≤ n) :
    Cone3.intersectsEllipsoid eps ⟨some 0, some V3.Z, ⟨some 45, .degree⟩⟩ (ell ⟨0, 0, 10⟩ 1 1 1 ⟨0, 0, 0, 1⟩) n = .ok false ∧
    Cone3.intersectsSphere ⟨some 0, some V3.Z, ⟨some 45, .degree⟩⟩ ⟨some ⟨0, 0, 10⟩, some 1⟩ = .ok true ∧
    Surface ⟨0, 0, 10⟩ 1 1 1 ⟨0, 0, 0, 1⟩ = SphereSet ⟨0, 0, 10⟩ 1 := by
  have hz : V3.Z.norm = 1 := V3.norm_of_normSq_one (by norm_num [V3.normSq, V3.dot, V3.Z])
  have hz0 : V3.Z ≠ 0 := V3.ne_zero_of_unit hz
  have hsurf : Surface ⟨0, 0, 10⟩ 1 1 1 ⟨0, 0, 0, 1⟩ = SphereSet ⟨0, 0, 10⟩ 1 := by
    ext y
    rw [mem_sphereSet]
    simp [Surface, EllipsoidSet, RotMat.ofQuat, M3.row0, M3.row1, M3.row2, V3.normSq, V3.dot]
    constructor <;> intro h <;> nlinarith
  have hcos : Real.cos (2 * Real.pi * (1 / 8)) = Real.sqrt 2 / 2 := by
    rw [show 2 * Real.pi * (1 / 8) = Real.pi / 4 by ring, Real.cos_pi_div_four]
  have h2 : Real.sqrt 2 ^ 2 = 2 := Real.sq_sqrt (by norm_num)
  refine ⟨?_, ?_, hsurf⟩
  · obtain ⟨u, b, -, -, hb, -, hb2⟩ := C78_ellipsoid eps h0 h1 0 V3.Z hz _ _ eighth_degrees n hn ⟨0, 0, 10⟩ 1 1 1 one_pos one_pos one_pos _
      quat_one_unitary
    rw [hb]
    congr 1
    cases b with
    | false => rfl
    | true =>
      exfalso
      obtain ⟨y, hy, hy2⟩ := hb2 rfl
      rw [hsurf, mem_sphereSet] at hy2
      rw [mem_lateralSet hz0, hz, hcos] at hy
      have e0 : y - 0 = y := by ext <;> simp
      rw [e0, mul_one] at hy
      have e1 : y.dot V3.Z = y.z := by simp [V3.dot, V3.Z]
      have e2 := V3.norm_sq y
      have e3 : (y - ⟨0, 0, 10⟩).normSq = y.normSq - 20 * y.z + 100 := by simp only [V3.normSq, V3.dot, V3.sub_x, V3.sub_y, V3.sub_z]; ring
      rw [e3] at hy2
      rw [e1] at hy
      have e4 : y.z ^ 2 = y.norm ^ 2 / 2 := by rw [hy, mul_pow, div_pow, h2]; ring
      nlinarith [sq_nonneg (y.z - 5)]
  · obtain ⟨b, hb, hb2⟩ := C78_sphere 0 V3.Z ⟨0, 0, 10⟩ 1 zero_le_one hz0 _ _ eighth_degrees (by norm_num) (by norm_num)
    rw [hb, hb2.2]
    refine ⟨⟨0, 0, 9⟩, ?_, ?_⟩
    · have e0 : (⟨0, 0, 9⟩ : V3) - 0 = ⟨0, 0, 9⟩ := by ext <;> simp
      have e1 : V3.norm ⟨0, 0, 9⟩ = 9 := by
        rw [V3.norm, show V3.normSq ⟨0, 0, 9⟩ = 9 ^ 2 by norm_num [V3.normSq, V3.dot], Real.sqrt_sq (by norm_num)]
      simp only [ConeSet, Set.mem_ofPred_eq, e0, e1, hz]
      have : V3.dot ⟨0, 0, 9⟩ V3.Z = 9 := by norm_num [V3.dot, V3.Z]
      rw [this]; linarith [Real.cos_le_one (2 * Real.pi * (1 / 8))]
    · rw [mem_sphereSet]; norm_num [V3.normSq, V3.dot]

theorem isect_single (x : V3) : IsectPoints (.PointSet [some x]) = {x} := by
  ext p; simp [IsectPoints, Isect3.PointSet, Composite3.ofObject, ObjPoints]

/-- what the intersection of a ray with a sphere or an ellipsoid may be -/
inductive RayResult (sight : Bool) : Isect3 → Prop where
  | empty : RayResult sight .Empty
  | point (p : V3) : RayResult sight (.Point (some p))
  | single (p : V3) (h : sight = false) : RayResult sight (.PointSet [some p])
  | pair (p q : V3) (h : p ≠ q) (h : sight = false) : RayResult sight (.PointSet [some p, some q])

theorem rayResult_pair {p q o : V3} {sight : Bool} {i : Isect3} (h : (do
      let ps ← PointSet3.ofArray [some p, some q]
      if sight then do
        let x ← PointSet3.getPointClosestTo ps (some o)
        return Isect3.Point x
      else return Isect3.PointSet ps : Res Isect3) = .ok i) : RayResult sight i := by
  obtain ⟨ps, hps, hh⟩ : ∃ ps : List V3, PointSet3.ofArray [some p, some q] = .ok (ps.map some) ∧ (ps = [p] ∨ p ≠ q ∧ ps = [p, q]) := by
    by_cases hpq : p = q
    · subst hpq
      refine ⟨[p], ?_, .inl rfl⟩
      simp [PointSet3.ofArray, Points.insertAll, Points.insert, P3.eq, Verif.need, Functor.map, Except.map]
    · exact ⟨[p, q], ofArray_pair hpq, .inr ⟨hpq, rfl⟩⟩
  rw [hps] at h
  simp only [bind, Except.bind] at h
  cases sight with
  | false =>
    simp only [Bool.false_eq_true, if_false, pure, Except.pure, Except.ok.injEq] at h
    subst h
    rcases hh with rfl | ⟨hpq, rfl⟩
    · exact .single p rfl
    · exact .pair p q hpq rfl
  | true =>
    have hne : ps ≠ [] := by rcases hh with rfl | ⟨-, rfl⟩ <;> simp
    obtain ⟨c, -, hc, -⟩ := C52_closest.1 ps o hne
    simp only [if_true, hc, pure, Except.pure, Except.ok.injEq] at h
    subst h
    exact .point c

theorem sphere_rayResult {eps : ℝ} {c : V3} {r : ℝ} {o d : V3} {sight : Bool} {i : Isect3}
    (h : Sphere3.intersectionWithRay eps ⟨some c, some r⟩ ⟨some o, some d⟩ sight = .ok i) : RayResult sight i := by
  simp only [Sphere3.intersectionWithRay, Verif.need] at h
  change (match Gte.raySphere o d c r with | [] => _ | [t] => _ | [t, u] => _ | _ => _) = _ at h
  split at h
  · cases h; exact .empty
  · split_ifs at h <;> cases h
    · exact .empty
    · exact .point _
  · split at h
    · cases h; exact .point _
    · split at h
      · cases h; exact .point _
      · exact rayResult_pair h
  · cases h

theorem ellipsoid_rayResult {eps : ℝ} {e : Ellipsoid3} {o d : V3} {sight : Bool} {i : Isect3}
    (h : e.intersectionWithRay eps ⟨some o, some d⟩ sight = .ok i) : RayResult sight i := by
  simp only [Ellipsoid3.intersectionWithRay, Verif.need] at h
  change (e.toGte eps >>= fun g => e.contains eps (some o) >>= fun on => _) = _ at h
  cases hg : e.toGte eps with
  | error x => rw [hg] at h; cases h
  | ok g =>
    rw [hg] at h
    change (e.contains eps (some o) >>= fun on => _) = _ at h
    cases hc : e.contains eps (some o) with
    | error x => rw [hc] at h; cases h
    | ok on =>
      rw [hc] at h
      change (match Gte.rayEllipsoid o d g with | [] => _ | [t] => _ | [t, u] => _ | _ => _) = _ at h
      split at h
      · cases h; exact .empty
      · split_ifs at h <;> cases h
        · exact .empty
        · exact .point _
      · split at h
        · cases h; exact .point _
        · split at h
          · cases h; exact .point _
          · split at h
            · cases h; exact .point _
            · exact rayResult_pair h
      · cases h

/-- what a loop over rays collects: the points of all intersections, the second list being empty if only the points in sight are wanted -/
def Collects (sight : Bool) (is : List Isect3) (fs : List (Option V3) × List (Option V3)) : Prop :=
  (∀ p : V3, some p ∈ fs.1 ∨ some p ∈ fs.2 ↔ ∃ i ∈ is, p ∈ IsectPoints i) ∧ none ∉ fs.1 ∧ none ∉ fs.2 ∧ (sight = true → fs.2 = [])

theorem collects_cons {sight : Bool} {i : Isect3} {is : List Isect3} {f s F S : List (Option V3)} (h1 : Collects sight [i] (f, s))
    (h2 : Collects sight is (F, S)) : Collects sight (i :: is) (f ++ F, s ++ S) := by
  obtain ⟨a1, b1, c1, d1⟩ := h1
  obtain ⟨a2, b2, c2, d2⟩ := h2
  refine ⟨fun p => ?_, by simp_all, by simp_all, fun h => by simp_all⟩
  have e1 := a1 p
  have e2 := a2 p
  simp only [List.mem_cons, List.not_mem_nil, or_false, exists_eq_left] at e1
  simp only [List.mem_append, List.mem_cons, exists_eq_or_imp, ← e1, ← e2]
  tauto

theorem sphereLoop_collects {eps : ℝ} {s : Sphere3} {sight : Bool} : ∀ {rays : List Ray3} {f : Ray3 → Isect3}
    (_ : ∀ r ∈ rays, s.intersectionWithRay eps r sight = .ok (f r) ∧ RayResult sight (f r)),
    ∃ fs, Cone3.sphereLoop eps s sight rays = .ok fs ∧ Collects sight (rays.map f) fs
  | [], _, _ => ⟨([], []), rfl, by simp [Collects]⟩
  | r :: rs, f, h => by
    obtain ⟨⟨F, S⟩, h1, h2⟩ := sphereLoop_collects (fun r' hr' => h r' (List.mem_cons_of_mem _ hr'))
    obtain ⟨hi, hs⟩ := h r List.mem_cons_self
    rw [Cone3.sphereLoop, hi, h1, List.map_cons]
    generalize f r = i at hs
    cases hs with
    | empty => exact ⟨_, rfl, collects_cons (f := []) (s := []) (by simp [Collects, isect_empty]) h2⟩
    | point p => exact ⟨_, rfl, collects_cons (f := [some p]) (s := []) (by simp [Collects, isect_point, eq_comm]) h2⟩
    | single p hs => exact ⟨_, rfl, collects_cons (f := []) (s := [some p]) (by simp [Collects, isect_single, eq_comm, hs]) h2⟩
    | pair p q hpq hs =>
      exact ⟨_, rfl, collects_cons (f := [some q]) (s := [some p]) (by simp [Collects, isect_pointSet, eq_comm, hs]; tauto) h2⟩

theorem ellipsoidLoop_collects {eps : ℝ} {a : V3} {s : Ellipsoid3} {sight : Bool} : ∀ {rays : List Ray3} {f : Ray3 → Isect3}
    (_ : ∀ r ∈ rays, s.intersectionWithRay eps r sight = .ok (f r) ∧ RayResult sight (f r)),
    ∃ fs, Cone3.ellipsoidLoop eps (some a) s sight rays = .ok fs ∧ Collects sight (rays.map f) fs
  | [], _, _ => ⟨([], []), rfl, by simp [Collects]⟩
  | r :: rs, f, h => by
    obtain ⟨⟨F, S⟩, h1, h2⟩ := ellipsoidLoop_collects (fun r' hr' => h r' (List.mem_cons_of_mem _ hr'))
    obtain ⟨hi, hs⟩ := h r List.mem_cons_self
    rw [Cone3.ellipsoidLoop, hi, h1, List.map_cons]
    generalize f r = i at hs
    cases hs with
    | empty => exact ⟨_, rfl, collects_cons (f := []) (s := []) (by simp [Collects, isect_empty]) h2⟩
    | point p => exact ⟨_, rfl, collects_cons (f := [some p]) (s := []) (by simp [Collects, isect_point, eq_comm]) h2⟩
    | single p hs =>
      obtain ⟨c, -, hc, -, -, hm, -⟩ := C52_closest.1 [p] a (by simp)
      simp only [List.mem_singleton] at hm
      subst hm
      simp only [List.map_cons, List.map_nil] at hc
      refine ⟨_, ?_, collects_cons (f := [some c]) (s := []) (by simp [Collects, isect_single, eq_comm, hs]) h2⟩
      simp [Isect3.PointSet, Composite3.ofObject, hc, bind, Except.bind, pure, Except.pure, P3.eq]
    | pair p q hpq hs =>
      obtain ⟨c, -, hc, -, -, hm, -⟩ := C52_closest.1 [p, q] a (by simp)
      simp only [List.mem_cons, List.not_mem_nil, or_false] at hm
      simp only [List.map_cons, List.map_nil] at hc
      have hpq' : P3.eq (some p) (some q) = false := by rw [Bool.eq_false_iff]; intro h; exact hpq (P3.eq_iff.1 h)
      have hqp' : P3.eq (some q) (some p) = false := by rw [Bool.eq_false_iff]; intro h; exact hpq (P3.eq_iff.1 h).symm
      have hpp : ∀ x : V3, P3.eq (some x) (some x) = true := fun x => P3.eq_iff.2 rfl
      rcases hm with rfl | rfl
      · refine ⟨_, ?_, collects_cons (f := [some c]) (s := [some q]) (by simp [Collects, isect_pointSet, eq_comm, hs]) h2⟩
        simp [Isect3.PointSet, Composite3.ofObject, hc, bind, Except.bind, pure, Except.pure, hpp, hqp', hpq']
      · refine ⟨_, ?_, collects_cons (f := [some c]) (s := [some p]) (by simp [Collects, isect_pointSet, eq_comm, hs]; tauto) h2⟩
        simp [Isect3.PointSet, Composite3.ofObject, hc, bind, Except.bind, pure, Except.pure, hpp, hqp', hpq']

/-- the points of the line strings of an intersection -/
def StringPoints (i : Isect3) : Set V3 := {p | ∃ ps, Obj3.lineString ps ∈ i.composite.objects ∧ some p ∈ ps}

theorem lineStrings_collects {sight : Bool} {is : List Isect3} {fs : List (Option V3) × List (Option V3)} (h : Collects sight is fs) :
    ∃ i, Cone3.lineStrings sight fs.1 fs.2 = .ok i ∧ StringPoints i = {p | ∃ j ∈ is, p ∈ IsectPoints j} ∧
      (∀ o ∈ i.composite.objects, ∃ ps, o = .lineString ps ∧ ps ≠ [] ∧ none ∉ ps) ∧ (sight = true → i.composite.objects.length ≤ 1) := by
  obtain ⟨F, S⟩ := fs
  obtain ⟨h1, h2, h3, h4⟩ := h
  dsimp only at *
  have hset : {p | ∃ j ∈ is, p ∈ IsectPoints j} = {p | some p ∈ F ∨ some p ∈ S} := by
    ext p; simp only [Set.mem_ofPred_eq]; rw [h1]
  rw [hset]
  cases F with
  | nil =>
    cases S with
    | nil => exact ⟨_, rfl, by ext p; simp [StringPoints, Isect3.Empty, Isect3.ofArray, Composite3.ofArray],
        by simp [Isect3.Empty, Isect3.ofArray, Composite3.ofArray], by simp [Isect3.Empty, Isect3.ofArray, Composite3.ofArray]⟩
    | cons p S => exact ⟨_, rfl, by ext p; simp [StringPoints, Isect3.LineString, Composite3.ofObject],
        by simpa [Isect3.LineString, Composite3.ofObject] using h3, by simp [Isect3.LineString, Composite3.ofObject]⟩
  | cons q F =>
    cases S with
    | nil => exact ⟨_, rfl, by ext p; simp [StringPoints, Isect3.LineString, Composite3.ofObject],
        by simpa [Isect3.LineString, Composite3.ofObject] using h2, by simp [Isect3.LineString, Composite3.ofObject]⟩
    | cons p S =>
      cases sight with
      | true => simp at h4
      | false =>
        refine ⟨_, rfl, ?_, ?_, by simp⟩
        · ext x; simp [StringPoints, Isect3.LineString, Composite3.ofObject, or_and_right, exists_or]
        · simp only [List.mem_append]
          rintro o (ho | ho)
          · simp [Isect3.LineString, Composite3.ofObject] at ho; exact ⟨_, ho, by simp, h2⟩
          · simp [Isect3.LineString, Composite3.ofObject] at ho; exact ⟨_, ho, by simp, h3⟩

/-- The points `S` of the line strings of an intersection and those `T` of the intersection in sight, made from `n` generators, for a surface `E`: all of
them are on the lateral surface and satisfy `On`, every common point of a generator and the surface is in `S` up to `tol`, and `T` has one point of every
generator that meets the surface and no other, which is nearest to the apex, up to `tol`. -/
structure Traced (a : V3) (g : ℕ → V3) (n : ℕ) (lat : Set V3) (On : V3 → Prop) (E : Set V3) (tol : ℝ) (S T : Set V3) : Prop where
  on : ∀ p ∈ S, p ∈ lat ∧ On p ∧ ∃ k < n, p ∈ RaySet a (g k)
  all : ∀ k < n, ∀ p ∈ RaySet a (g k), p ∈ E → ∃ q ∈ S, q ∈ RaySet a (g k) ∧ (q = p ∨ (q - p).norm < tol)
  sub : T ⊆ S
  first : ∀ q ∈ T, ∃ k < n, q ∈ RaySet a (g k) ∧ ∀ p ∈ RaySet a (g k), p ∈ E → (q - a).norm ≤ (p - a).norm + tol
  some : ∀ k < n, ∀ p ∈ RaySet a (g k), p ∈ E → ∃ q ∈ T, q ∈ RaySet a (g k)

theorem traced {a : V3} {g : ℕ → V3} {n : ℕ} {lat : Set V3} {On : V3 → Prop} {E : Set V3} {tol : ℝ} (htol : 0 ≤ tol)
    (hlat : ∀ k < n, RaySet a (g k) ⊆ lat) {fi fj : Ray3 → Isect3}
    (h : ∀ k < n, let i := fi ⟨some a, some (g k)⟩; let j := fj ⟨some a, some (g k)⟩
      (∀ p ∈ IsectPoints i, p ∈ RaySet a (g k) ∧ On p) ∧
      (∀ p ∈ RaySet a (g k), p ∈ E → ∃ q ∈ IsectPoints i, q = p ∨ (q - p).norm < tol) ∧ (IsectPoints i = ∅ → IsectPoints j = ∅) ∧
      (IsectPoints i ≠ ∅ → ∃ q ∈ IsectPoints i, IsectPoints j = {q} ∧ ∀ p ∈ IsectPoints i, (q - a).norm ≤ (p - a).norm)) :
    Traced a g n lat On E tol
      {p | ∃ i ∈ ((List.range n).map fun k : ℕ => (⟨Option.some a, Option.some (g k)⟩ : Ray3)).map fi, p ∈ IsectPoints i}
      {p | ∃ i ∈ ((List.range n).map fun k : ℕ => (⟨Option.some a, Option.some (g k)⟩ : Ray3)).map fj, p ∈ IsectPoints i} := by
  have mem : ∀ (f : Ray3 → Isect3) (p : V3), (∃ i ∈ ((List.range n).map fun k : ℕ => (⟨Option.some a, Option.some (g k)⟩ : Ray3)).map f, p ∈ IsectPoints i) ↔
      ∃ k < n, p ∈ IsectPoints (f ⟨Option.some a, Option.some (g k)⟩) := fun f p => by simp
  simp only [mem]
  dsimp only at h
  have choice : ∀ k < n, ∀ q ∈ IsectPoints (fj ⟨Option.some a, Option.some (g k)⟩), q ∈ IsectPoints (fi ⟨Option.some a, Option.some (g k)⟩) ∧
      ∀ p ∈ IsectPoints (fi ⟨Option.some a, Option.some (g k)⟩), (q - a).norm ≤ (p - a).norm := by
    intro k hk q hq
    obtain ⟨-, -, h3, h4⟩ := h k hk
    by_cases he : IsectPoints (fi ⟨Option.some a, Option.some (g k)⟩) = ∅
    · rw [h3 he] at hq; exact absurd hq (Set.notMem_empty _)
    · obtain ⟨y, hy, hyj, hyn⟩ := h4 he
      rw [hyj] at hq
      cases hq
      exact ⟨hy, hyn⟩
  refine ⟨?_, ?_, ?_, ?_, ?_⟩
  · rintro p ⟨k, hk, hp⟩
    obtain ⟨h1, h2⟩ := (h k hk).1 p hp
    exact ⟨hlat k hk h1, h2, k, hk, h1⟩
  · intro k hk p hp hpE
    obtain ⟨q, hq, hn⟩ := (h k hk).2.1 p hp hpE
    exact ⟨q, ⟨k, hk, hq⟩, ((h k hk).1 q hq).1, hn⟩
  · rintro q ⟨k, hk, hq⟩
    exact ⟨k, hk, (choice k hk q hq).1⟩
  · rintro q ⟨k, hk, hq⟩
    obtain ⟨h1, h2⟩ := choice k hk q hq
    refine ⟨k, hk, ((h k hk).1 q h1).1, fun p hp hpE => ?_⟩
    obtain ⟨y, hy, hn⟩ := (h k hk).2.1 p hp hpE
    have e1 := h2 y hy
    rcases hn with rfl | hn
    · linarith
    · have e2 := V3.norm_add_le (y - p) (p - a)
      rw [show y - p + (p - a) = y - a by ext <;> simp] at e2
      linarith
  · intro k hk p hp hpE
    obtain ⟨y, hy, -⟩ := (h k hk).2.1 p hp hpE
    obtain ⟨q, hq, hqj, -⟩ := (h k hk).2.2.2 (fun e => by rw [e] at hy; exact Set.notMem_empty _ hy)
    exact ⟨q, ⟨k, hk, by rw [hqj]; rfl⟩, ((h k hk).1 q hq).1⟩

/-- an intersection of line strings with at least a point and without undefined points -/
def OfStrings (i : Isect3) : Prop := ∀ o ∈ i.composite.objects, ∃ ps, o = .lineString ps ∧ ps ≠ [] ∧ none ∉ ps

/-- the value of a result, whatever it is for an error -/
def valueOr {α : Type} (x : α) : Res α → α
  | .ok y => y
  | .error _ => x

/-- **C78.** The line strings of `intersectionWith (Sphere)` trace the points where the `n` generators meet the sphere. The apex may be taken for a
point of the sphere if it is that within `eps`. -/
theorem C78_intersection_sphere (eps : ℝ) (h0 : 0 < eps) (h1 : eps ≤ 1) (a d : V3) (hd : d.norm = 1) (t : Angle) (x : ℝ) (ht : Measures t x) (n : ℕ)
    (hn : 1 ≤ n) (c : V3) (r : ℝ) :
    ∃ (u : V3) (i j : Isect3), u.norm = 1 ∧ u.dot d = 0 ∧
      Cone3.intersectionWithSphere eps ⟨some a, some d, t⟩ ⟨some c, some r⟩ false n = .ok i ∧
      Cone3.intersectionWithSphere eps ⟨some a, some d, t⟩ ⟨some c, some r⟩ true n = .ok j ∧ OfStrings i ∧ OfStrings j ∧
      j.composite.objects.length ≤ 1 ∧
      Traced a (fun k : ℕ => generator d u (2 * Real.pi * x) (2 * Real.pi * (k / n))) n (LateralSet a d (2 * Real.pi * x)) (OnOr eps c r {a})
        (SphereSet c r) 0 (StringPoints i) (StringPoints j) := by
  obtain ⟨u, hu, hud, hr⟩ := C78_rays eps h0 h1 a d hd t x ht n hn
  set g := fun k : ℕ => generator d u (2 * Real.pi * x) (2 * Real.pi * (k / n)) with hg
  replace hr : Cone3.getRaysOfLateralSurface eps ⟨some a, some d, t⟩ n = .ok ((List.range n).map fun k : ℕ => ⟨some a, some (g k)⟩) := hr
  have hunit : ∀ k : ℕ, (g k).norm = 1 := fun k => (generator_unit hd hu hud (2 * Real.pi * x) (2 * Real.pi * (k / n))).1
  have facts := fun k : ℕ => (C48_ray eps h0 c r a (g k) (hunit k)).1
  have val : ∀ s k, Sphere3.intersectionWithRay eps ⟨some c, some r⟩ ⟨some a, some (g k)⟩ s =
      .ok (valueOr .Empty (Sphere3.intersectionWithRay eps ⟨some c, some r⟩ ⟨some a, some (g k)⟩ s)) := by
    intro s k
    obtain ⟨i, j, hi, hj, -⟩ := facts k
    cases s
    · rw [hi]; rfl
    · rw [hj]; rfl
  have loop : ∀ s, ∃ fs, Cone3.sphereLoop eps ⟨some c, some r⟩ s ((List.range n).map fun k : ℕ => (⟨some a, some (g k)⟩ : Ray3)) = .ok fs ∧
      Collects s (((List.range n).map fun k : ℕ => (⟨some a, some (g k)⟩ : Ray3)).map
        fun l => valueOr .Empty (Sphere3.intersectionWithRay eps ⟨some c, some r⟩ l s)) fs := by
    intro s
    refine sphereLoop_collects ?_
    intro l hl
    obtain ⟨k, -, rfl⟩ := List.mem_map.1 hl
    exact ⟨val s k, sphere_rayResult (val s k)⟩
  obtain ⟨fs, hf1, hf2⟩ := loop false
  obtain ⟨gs, hg1, hg2⟩ := loop true
  obtain ⟨i, hi1, hi2, hi3, -⟩ := lineStrings_collects hf2
  obtain ⟨j, hj1, hj2, hj3, hj4⟩ := lineStrings_collects hg2
  refine ⟨u, i, j, hu, hud, ?_, ?_, hi3, hj3, hj4 rfl, ?_⟩
  · simp only [Cone3.intersectionWithSphere, Sphere3.isDefined, Cone3.isDefined, defined_of_measures ht, Option.isSome_some, Bool.and_self, Bool.not_true,
      Bool.false_eq_true, if_false, hr, bind, Except.bind, hf1, hi1]
  · simp only [Cone3.intersectionWithSphere, Sphere3.isDefined, Cone3.isDefined, defined_of_measures ht, Option.isSome_some, Bool.and_self, Bool.not_true,
      Bool.false_eq_true, if_false, hr, bind, Except.bind, hg1, hj1]
  · rw [hi2, hj2]
    change Traced a g _ _ _ _ _ _ _
    refine traced (g := g) le_rfl (fun k _ => fun y hy => generator_lateral hd hu hud _ _ hy) ?_
    intro k _
    obtain ⟨i, j, hi, hj, f1, f2, f3, f4⟩ := facts k
    simp only [hi, hj, valueOr]
    exact ⟨f1, fun p hp hpE => ⟨p, f2 p hp hpE, .inl rfl⟩, f3, f4⟩

example : V3.Z.norm = 1 ∧ Measures ⟨some 45, .degree⟩ (1 / 8) ∧ Unitary ⟨0, 0, 0, 1⟩ ∧ (V3.X : V3).norm = 1 :=
  ⟨V3.norm_of_normSq_one (by norm_num [V3.normSq, V3.dot, V3.Z]), eighth_degrees, quat_one_unitary,
    V3.norm_of_normSq_one (by norm_num [V3.normSq, V3.dot, V3.X])⟩

/-- **C78.** The same for `intersectionWith (Ellipsoid)`: of two points of a generator nearer to each other than `eps` only one is kept, and the apex is a
point if `contains` accepts it, not otherwise. -/
theorem C78_intersection_ellipsoid (eps : ℝ) (h0 : 0 < eps) (h1 : eps ≤ 1) (a d : V3) (hd : d.norm = 1) (t : Angle) (x : ℝ) (ht : Measures t x) (n : ℕ)
    (hn : 1 ≤ n) (p : V3) (k l m : ℝ) (hk : 0 < k) (hl : 0 < l) (hm : 0 < m) (q : Quat) (hq : Unitary q) :
    ∃ (u : V3) (i j : Isect3), u.norm = 1 ∧ u.dot d = 0 ∧
      Cone3.intersectionWithEllipsoid eps ⟨some a, some d, t⟩ (ell p k l m q) false n = .ok i ∧
      Cone3.intersectionWithEllipsoid eps ⟨some a, some d, t⟩ (ell p k l m q) true n = .ok j ∧ OfStrings i ∧ OfStrings j ∧
      j.composite.objects.length ≤ 1 ∧
      Traced a (fun k : ℕ => generator d u (2 * Real.pi * x) (2 * Real.pi * (k / n))) n (LateralSet a d (2 * Real.pi * x))
        (fun y => y ∈ Surface p k l m q ∨ y = a ∧ (ell p k l m q).contains eps (some a) = .ok true)
        (Surface p k l m q \ {a}) eps (StringPoints i) (StringPoints j) := by
  obtain ⟨u, hu, hud, hr⟩ := C78_rays eps h0 h1 a d hd t x ht n hn
  set g := fun k : ℕ => generator d u (2 * Real.pi * x) (2 * Real.pi * (k / n)) with hg
  replace hr : Cone3.getRaysOfLateralSurface eps ⟨some a, some d, t⟩ n = .ok ((List.range n).map fun k : ℕ => ⟨some a, some (g k)⟩) := hr
  have hunit : ∀ k : ℕ, (g k).norm = 1 := fun k => (generator_unit hd hu hud (2 * Real.pi * x) (2 * Real.pi * (k / n))).1
  have facts := fun i : ℕ => (C76_ray eps h0 p k l m hk hl hm q hq a (g i) (hunit i)).1
  have val : ∀ s i, (ell p k l m q).intersectionWithRay eps ⟨some a, some (g i)⟩ s =
      .ok (valueOr .Empty ((ell p k l m q).intersectionWithRay eps ⟨some a, some (g i)⟩ s)) := by
    intro s i
    obtain ⟨-, i, j, -, hi, hj, -⟩ := facts i
    cases s
    · rw [hi]; rfl
    · rw [hj]; rfl
  have loop : ∀ s, ∃ fs, Cone3.ellipsoidLoop eps (some a) (ell p k l m q) s ((List.range n).map fun k : ℕ => (⟨some a, some (g k)⟩ : Ray3)) = .ok fs ∧
      Collects s (((List.range n).map fun k : ℕ => (⟨some a, some (g k)⟩ : Ray3)).map
        fun r => valueOr .Empty ((ell p k l m q).intersectionWithRay eps r s)) fs := by
    intro s
    refine ellipsoidLoop_collects ?_
    intro r hr
    obtain ⟨i, -, rfl⟩ := List.mem_map.1 hr
    exact ⟨val s i, ellipsoid_rayResult (val s i)⟩
  obtain ⟨fs, hf1, hf2⟩ := loop false
  obtain ⟨gs, hg1, hg2⟩ := loop true
  obtain ⟨i, hi1, hi2, hi3, -⟩ := lineStrings_collects hf2
  obtain ⟨j, hj1, hj2, hj3, hj4⟩ := lineStrings_collects hg2
  refine ⟨u, i, j, hu, hud, ?_, ?_, hi3, hj3, hj4 rfl, ?_⟩
  · simp only [Cone3.intersectionWithEllipsoid, ell_defined, Cone3.isDefined, defined_of_measures ht, Option.isSome_some, Bool.and_self, Bool.not_true,
      Bool.false_eq_true, if_false, hr, bind, Except.bind, hf1, hi1]
  · simp only [Cone3.intersectionWithEllipsoid, ell_defined, Cone3.isDefined, defined_of_measures ht, Option.isSome_some, Bool.and_self, Bool.not_true,
      Bool.false_eq_true, if_false, hr, bind, Except.bind, hg1, hj1]
  · rw [hi2, hj2]
    change Traced a g _ _ _ _ _ _ _
    refine traced (g := g) h0.le (fun k _ => fun y hy => generator_lateral hd hu hud _ _ hy) ?_
    intro k' _
    obtain ⟨on, i, j, hon, hi, hj, f1, f2, -, f3, f4⟩ := facts k'
    simp only [hi, hj, valueOr, hon]
    refine ⟨?_, ?_, f3, f4⟩
    · intro y hy
      obtain ⟨e1, e2⟩ := f1 y hy
      exact ⟨e1, e2.imp id fun e => ⟨e.1, by rw [e.2]⟩⟩
    · intro y hy hyE
      exact f2 y hy hyE.1 (.inl hyE.2)

/-- **C78.** The operations with an undefined argument are refused. -/
theorem C78_undefined (eps : ℝ) (c : Cone3) (s : Sphere3) (e : Ellipsoid3) (sight : Bool) (n : ℕ) :
    (c.isDefined = false ∨ s.isDefined = false → Cone3.intersectsSphere c s = .error .undefined ∧
      Cone3.intersectionWithSphere eps c s sight n = .error .undefined) ∧
    (c.isDefined = false ∨ e.isDefined = false → Cone3.intersectsEllipsoid eps c e n = .error .undefined ∧
      Cone3.intersectionWithEllipsoid eps c e sight n = .error .undefined) := by
  constructor
  · intro h
    refine ⟨?_, by rcases h with h | h <;> cases hc : s.isDefined <;> simp_all [Cone3.intersectionWithSphere]⟩
    obtain ⟨_ | o, _ | r⟩ := s
    · rfl
    · rfl
    · rfl
    · have h : c.isDefined = false := by simpa [Sphere3.isDefined] using h
      have : Cone3.need c = .error .undefined := by
        obtain ⟨_ | a, _ | d, t⟩ := c <;> first | rfl | (simp only [Cone3.isDefined, Option.isSome_some, Bool.true_and] at h; simp [Cone3.need, h])
      simp only [Cone3.intersectsSphere, Verif.need, bind, Except.bind, this]
  · rintro (h | h) <;> cases hc : e.isDefined <;> simp_all [Cone3.intersectsEllipsoid, Cone3.intersectionWithEllipsoid]

example : Cone3.isDefined Cone3.Undefined = false ∧ Sphere3.isDefined ⟨none, some 1⟩ = false := ⟨rfl, rfl⟩

end Verif.Props
