import Verif.Lemmas.Cone
import Verif.Model.Cone
import Verif.Props.Sphere
import Verif.Props.Rigid

/-!
# Properties of cones
-/

namespace Verif.Props

open Verif Verif.Spec Classical

theorem inDegrees_eq {t : Angle} {x : ℝ} (ht : Measures t x) (h0 : 0 ≤ x) (h1 : x < 1) : t.inDegrees (some 0) (some 360) = .ok (x * 360) := by
  obtain ⟨r, hr, -, -, -, hu⟩ := C17_ranged_conversions.2.1.1 t x 0 360 ht (by norm_num [perTurn])
  rw [hr, hu (x * 360) (by positivity) (by linarith) ⟨0, by norm_num [perTurn]⟩]

/-- the comparison of the angle to the axis with the half-angle -/
theorem cone_angle_test (eps : ℝ) (heps : 0 < eps) (u d : V3) (hu : eps ≤ u.normSq) (hd : eps ≤ d.normSq) (t : Angle) (x : ℝ) (ht : Measures t x)
    (h0 : 0 ≤ x) (h1 : x ≤ 1 / 2) :
    (do let b ← Angle.Between3 eps (some u) (some d)
        let x ← b.inDegrees (some 0) (some 360)
        let y ← t.inDegrees (some 0) (some 360)
        return decide (x ≤ y) : Res Bool) = .ok (decide (Real.cos (2 * Real.pi * x) * (u.norm * d.norm) ≤ u.dot d)) := by
  obtain ⟨θ, hθ, hθ0, hθ1, hc⟩ := (C21_between3 eps heps u d hu hd).1
  have hpi := Real.pi_pos
  have hm : Measures ⟨some θ, .radian⟩ (θ / (2 * Real.pi)) := ⟨θ, rfl, by simp, by simp only [perTurn]; field_simp⟩
  have hθ2 : θ / (2 * Real.pi) ≤ 1 / 2 := by rw [div_le_iff₀ (by positivity)]; linarith
  simp only [hθ, bind, Except.bind, inDegrees_eq hm (by positivity) (by linarith), inDegrees_eq ht h0 (by linarith), pure, Except.pure]
  congr 1
  rw [decide_eq_decide, ← hc, mul_le_mul_iff_left₀ (mul_pos (V3.norm_pos (by linarith)) (V3.norm_pos (by linarith))),
    ← cos_le_iff hθ0 hθ1 (by positivity) (by nlinarith), mul_le_mul_iff_left₀ (by norm_num), div_le_iff₀ (by positivity), mul_comm x]

theorem defined_of_measures {t : Angle} {x : ℝ} (ht : Measures t x) : t.isDefined = true := (Angle.defined_iff t).2 ⟨x, ht⟩

/-- what `contains` returns for a half-angle up to a half turn -/
theorem cone_contains_eq (eps : ℝ) (heps : 0 < eps) (a d p : V3) (t : Angle) (x : ℝ) (ht : Measures t x) (h0 : 0 ≤ x) (h1 : x ≤ 1 / 2)
    (hd : eps ≤ d.normSq) (hp : p = a ∨ eps ≤ (p - a).normSq) :
    Cone3.contains eps ⟨some a, some d, t⟩ (some p) = .ok (decide (0 ≤ (p - a).dot d ∧ p ∈ ConeSet a d (2 * Real.pi * x))) := by
  simp only [Cone3.contains, Verif.need, Cone3.need, defined_of_measures ht, bind, Except.bind]
  by_cases hpa : p = a
  · have e : p - a = 0 := by rw [hpa]; ext <;> simp
    rw [if_pos hpa]
    simp only [ConeSet, Set.mem_ofPred_eq, e, pure, Except.pure]
    simp [V3.dot]
  · rw [if_neg hpa]
    by_cases hn : (p - a).dot d < 0
    · rw [if_pos hn]
      simp [not_le.2 hn, pure, Except.pure]
    · rw [if_neg hn]
      have := cone_angle_test eps heps (p - a) d (hp.resolve_left hpa) hd t x ht h0 h1
      simp only [bind, Except.bind] at this
      rw [this]
      simp [not_lt.1 hn, ConeSet]

/-- **C50.** For a half-angle of at most a quarter turn `contains` decides whether a point is in the solid cone, for the apex and for points far enough
from it (`Angle::Between` refuses vectors with a squared length below `eps`). -/
theorem C50_contains (eps : ℝ) (heps : 0 < eps) (a d p : V3) (t : Angle) (x : ℝ) (ht : Measures t x) (h0 : 0 ≤ x) (h1 : x ≤ 1 / 4)
    (hd : eps ≤ d.normSq) (hp : p = a ∨ eps ≤ (p - a).normSq) :
    ∃ r, Cone3.contains eps ⟨some a, some d, t⟩ (some p) = .ok r ∧ (r = true ↔ p ∈ ConeSet a d (2 * Real.pi * x)) := by
  refine ⟨_, cone_contains_eq eps heps a d p t x ht h0 (by linarith) hd hp, ?_⟩
  rw [decide_eq_true_eq, and_iff_right_iff_imp]
  intro h
  refine le_trans ?_ h
  have := Real.pi_pos
  exact mul_nonneg (Real.cos_nonneg_of_neg_pi_div_two_le_of_le (by nlinarith) (by nlinarith)) (mul_nonneg (V3.norm_nonneg _) (V3.norm_nonneg _))

theorem eighth_degrees : Measures ⟨some 45, .degree⟩ (1 / 8) := ⟨45, rfl, by simp, by norm_num [perTurn]⟩

example : (1 / 1000 : ℝ) ≤ V3.normSq ⟨0, 0, 2⟩ ∧ (1 / 1000 : ℝ) ≤ V3.normSq (⟨1, 2, 6⟩ - ⟨1, 1, 1⟩) := by norm_num [V3.normSq, V3.dot]

/-- **C50.** For a half-angle between a quarter and a half turn `contains` tests the half-space in front of the apex instead of the solid cone. -/
theorem C50_wide (eps : ℝ) (heps : 0 < eps) (a d p : V3) (t : Angle) (x : ℝ) (ht : Measures t x) (h0 : 1 / 4 < x) (h1 : x ≤ 1 / 2)
    (hd : eps ≤ d.normSq) (hp : p = a ∨ eps ≤ (p - a).normSq) :
    ∃ r, Cone3.contains eps ⟨some a, some d, t⟩ (some p) = .ok r ∧ (r = true ↔ 0 ≤ (p - a).dot d) := by
  refine ⟨_, cone_contains_eq eps heps a d p t x ht (by linarith) (by linarith) hd hp, ?_⟩
  rw [decide_eq_true_eq, and_iff_left_iff_imp]
  intro h
  refine le_trans ?_ h
  have := Real.pi_pos
  exact mul_nonpos_of_nonpos_of_nonneg (Real.cos_nonpos_of_pi_div_two_le_of_le (by nlinarith) (by nlinarith))
    (mul_nonneg (V3.norm_nonneg _) (V3.norm_nonneg _))

/-- **C50.** A violation: the point `(1, 0, -1/10)` is in the solid cone of half-angle 120° about the `z` axis but `contains` denies it. -/
theorem C50_wide_violated (eps : ℝ) (heps : 0 < eps) (h1 : eps ≤ 1) :
    Cone3.contains eps ⟨some 0, some V3.Z, ⟨some 120, .degree⟩⟩ (some ⟨1, 0, -1 / 10⟩) = .ok false ∧
    (⟨1, 0, -1 / 10⟩ : V3) ∈ ConeSet 0 V3.Z (2 * Real.pi * (1 / 3)) := by
  constructor
  · obtain ⟨r, hr, hr2⟩ := C50_wide eps heps 0 V3.Z ⟨1, 0, -1 / 10⟩ ⟨some 120, .degree⟩ (1 / 3) ⟨120, rfl, by simp, by norm_num [perTurn]⟩
      (by norm_num) (by norm_num) (by norm_num [V3.normSq, V3.dot, V3.Z]; exact h1)
      (Or.inr (by norm_num [V3.normSq, V3.dot]; linarith))
    rw [hr]
    congr 1
    rw [← Bool.not_eq_true, hr2]
    norm_num [V3.dot, V3.Z]
  · have hc : Real.cos (2 * Real.pi * (1 / 3)) = -(1 / 2) := by
      rw [show 2 * Real.pi * (1 / 3) = Real.pi - Real.pi / 3 by ring, Real.cos_pi_sub, Real.cos_pi_div_three]
    have hn : (1 : ℝ) ≤ ((⟨1, 0, -1 / 10⟩ : V3) - 0).norm := by
      rw [V3.norm, Real.one_le_sqrt]; norm_num [V3.normSq, V3.dot]
    have hz : V3.Z.norm = 1 := V3.norm_of_normSq_one (by norm_num [V3.normSq, V3.dot, V3.Z])
    simp only [ConeSet, Set.mem_ofPred_eq, hc, hz]
    have : ((⟨1, 0, -1 / 10⟩ : V3) - 0).dot V3.Z = -1 / 10 := by norm_num [V3.dot, V3.Z]
    rw [this]
    nlinarith

/-- **C50.** A violation: `contains` throws for points other than the apex that are near it and not behind it. -/
theorem C50_near_apex (eps : ℝ) (a d p : V3) (t : Angle) (ht : t.isDefined = true) (hne : p ≠ a) (hp : (p - a).normSq < eps)
    (hf : 0 ≤ (p - a).dot d) : Cone3.contains eps ⟨some a, some d, t⟩ (some p) = .error .runtimeError := by
  simp only [Cone3.contains, Verif.need, Cone3.need, ht, bind, Except.bind, if_neg hne, if_neg (not_lt.2 hf), Angle.Between3, if_pos (Or.inl hp)]

example : (⟨0, 0, 1 / 1000⟩ : V3) ≠ 0 ∧ ((⟨0, 0, 1 / 1000⟩ : V3) - 0).normSq < 1 / 1000 ∧ 0 ≤ ((⟨0, 0, 1 / 1000⟩ : V3) - 0).dot V3.Z := by
  refine ⟨by simp [V3.ext_iff], ?_, ?_⟩ <;> norm_num [V3.normSq, V3.dot, V3.Z]

theorem cos_quarter {x : ℝ} (h0 : 0 ≤ x) (h1 : x ≤ 1 / 4) : 0 ≤ Real.cos (2 * Real.pi * x) := by
  have := Real.pi_pos
  exact Real.cos_nonneg_of_neg_pi_div_two_le_of_le (by nlinarith) (by nlinarith)

/-- **C50.** `contains (Segment)` decides whether the whole segment is in the solid cone, half-angle at most a quarter turn. -/
theorem C50_segment (eps : ℝ) (heps : 0 < eps) (a d p q : V3) (t : Angle) (x : ℝ) (ht : Measures t x) (h0 : 0 ≤ x) (h1 : x ≤ 1 / 4)
    (hd : eps ≤ d.normSq) (hp : p = a ∨ eps ≤ (p - a).normSq) (hq : q = a ∨ eps ≤ (q - a).normSq) :
    ∃ r, Cone3.containsSegment eps ⟨some a, some d, t⟩ ⟨some p, some q⟩ = .ok r ∧ (r = true ↔ SegSet p q ⊆ ConeSet a d (2 * Real.pi * x)) := by
  obtain ⟨r, hr, hr2⟩ := C50_contains eps heps a d p t x ht h0 h1 hd hp
  obtain ⟨s, hs, hs2⟩ := C50_contains eps heps a d q t x ht h0 h1 hd hq
  have key : SegSet p q ⊆ ConeSet a d (2 * Real.pi * x) ↔ p ∈ ConeSet a d (2 * Real.pi * x) ∧ q ∈ ConeSet a d (2 * Real.pi * x) := by
    constructor
    · intro h
      exact ⟨h ⟨0, le_rfl, zero_le_one, by ext <;> simp⟩, h ⟨1, zero_le_one, le_rfl, by ext <;> simp⟩⟩
    · rintro ⟨h2, h3⟩ y ⟨k, k0, k1, rfl⟩
      have := cone_combination (cos_quarter h0 h1) h2 h3 (sub_nonneg.2 k1) k0
      have e : (1 - k) • (p - a) + k • (q - a) = p + k • (q - p) - a := by ext <;> simp <;> ring
      rwa [e] at this
  simp only [Cone3.containsSegment, Seg3.isDefined, hr, hs, bind, Except.bind, Option.isSome_some, Bool.and_self, Bool.not_true, Bool.false_eq_true, if_false]
  rw [key, ← hr2, ← hs2]
  cases r with
  | false => exact ⟨false, rfl, by simp⟩
  | true => exact ⟨s, rfl, by simp⟩

example : (1 / 1000 : ℝ) ≤ V3.Z.normSq ∧ ((0 : V3) = 0 ∨ (1 / 1000 : ℝ) ≤ ((0 : V3) - 0).normSq) ∧ (1 / 1000 : ℝ) ≤ ((⟨1, 0, 2⟩ : V3) - 0).normSq ∧
    Measures ⟨some 45, .degree⟩ (1 / 8) := ⟨by norm_num [V3.normSq, V3.dot, V3.Z], .inl rfl, by norm_num [V3.normSq, V3.dot], eighth_degrees⟩

/-- **C50.** `contains (PointSet)` decides whether all the points are in the solid cone; it holds for the empty set. -/
theorem C50_set (eps : ℝ) (heps : 0 < eps) (a d : V3) (ps : List V3) (t : Angle) (x : ℝ) (ht : Measures t x) (h0 : 0 ≤ x) (h1 : x ≤ 1 / 4)
    (hd : eps ≤ d.normSq) (hp : ∀ p ∈ ps, p = a ∨ eps ≤ (p - a).normSq) :
    ∃ r, Cone3.containsSet eps ⟨some a, some d, t⟩ (ps.map some) = .ok r ∧ (r = true ↔ ∀ p ∈ ps, p ∈ ConeSet a d (2 * Real.pi * x)) := by
  simp only [Cone3.containsSet, Cone3.isDefined, Option.isSome_some, defined_of_measures ht, Bool.and_self, Bool.not_true, Bool.false_eq_true, if_false]
  induction ps with
  | nil => exact ⟨true, rfl, by simp⟩
  | cons p ps ih =>
    obtain ⟨r, hr, hr2⟩ := C50_contains eps heps a d p t x ht h0 h1 hd (hp p (by simp))
    obtain ⟨s, hs, hs2⟩ := ih fun q hq => hp q (by simp [hq])
    cases r with
    | false => exact ⟨false, by simp [allOf, hr, bind, Except.bind, pure, Except.pure], by simpa using fun h => absurd h (by simpa using hr2)⟩
    | true => exact ⟨s, by simp [allOf, hr, hs, bind, Except.bind], by rw [hs2]; simp [hr2.1 rfl]⟩

example : (1 / 1000 : ℝ) ≤ V3.Z.normSq ∧ (∀ p ∈ [(⟨0, 0, 0⟩ : V3), ⟨1, 0, 2⟩], p = 0 ∨ (1 / 1000 : ℝ) ≤ (p - 0).normSq) ∧ (1 / 1000 : ℝ) ≤ ((⟨1, 0, 2⟩ : V3) - 0).normSq ∧
    Measures ⟨some 45, .degree⟩ (1 / 8) := ⟨by norm_num [V3.normSq, V3.dot, V3.Z], by
      intro p hp
      simp only [List.mem_cons, List.not_mem_nil, or_false] at hp
      rcases hp with rfl | rfl
      · exact .inl rfl
      · exact .inr (by norm_num [V3.normSq, V3.dot]), by norm_num [V3.normSq, V3.dot], eighth_degrees⟩

/-- **C50.** `contains (Ray)` decides whether the whole ray is in the solid cone, half-angle at most a quarter turn. -/
theorem C50_ray (eps : ℝ) (heps : 0 < eps) (he : eps ≤ 1) (a d p u : V3) (hu : u.norm = 1) (t : Angle) (x : ℝ) (ht : Measures t x) (h0 : 0 ≤ x)
    (h1 : x ≤ 1 / 4) (hd : eps ≤ d.normSq) (hp : p = a ∨ eps ≤ (p - a).normSq) :
    ∃ r, Cone3.containsRay eps ⟨some a, some d, t⟩ ⟨some p, some u⟩ = .ok r ∧ (r = true ↔ RaySet p u ⊆ ConeSet a d (2 * Real.pi * x)) := by
  obtain ⟨r, hr, hr2⟩ := C50_contains eps heps a d p t x ht h0 h1 hd hp
  have hs := cone_angle_test eps heps u d (by rw [V3.normSq_of_unit hu]; exact he) hd t x ht h0 (by linarith)
  simp only [bind, Except.bind] at hs
  have key : RaySet p u ⊆ ConeSet a d (2 * Real.pi * x) ↔
      p ∈ ConeSet a d (2 * Real.pi * x) ∧ Real.cos (2 * Real.pi * x) * (u.norm * d.norm) ≤ u.dot d := by
    constructor
    · intro h
      refine ⟨h ⟨0, le_rfl, by ext <;> simp⟩, ?_⟩
      refine cone_recession (v := p - a) (cos_quarter h0 h1) fun s hs => ?_
      have := h (show p + s • u ∈ RaySet p u from ⟨s, hs, rfl⟩)
      have e : p + s • u - a = p - a + s • u := by ext <;> simp <;> ring
      simp only [ConeSet, Set.mem_ofPred_eq, e] at this
      exact this
    · rintro ⟨h2, h3⟩ y ⟨s, hs, rfl⟩
      have := cone_combination (cos_quarter h0 h1) h2 h3 zero_le_one hs
      have e : (1 : ℝ) • (p - a) + s • u = p + s • u - a := by ext <;> simp <;> ring
      rwa [e] at this
  simp only [Cone3.containsRay, Ray3.isDefined, Cone3.need, defined_of_measures ht, hr, bind, Except.bind, Option.isSome_some, Bool.and_self, Bool.not_true,
    Bool.false_eq_true, if_false]
  rw [key, ← hr2]
  cases r with
  | false => exact ⟨false, rfl, by simp⟩
  | true => exact ⟨_, hs, by simp⟩

example : V3.X.norm = 1 ∧ (1 / 1000 : ℝ) ≤ V3.Z.normSq ∧ (1 / 1000 : ℝ) ≤ ((⟨1, 0, 2⟩ : V3) - 0).normSq ∧ Measures ⟨some 45, .degree⟩ (1 / 8) :=
  ⟨V3.norm_of_normSq_one (by norm_num [V3.normSq, V3.dot, V3.X]), by norm_num [V3.normSq, V3.dot, V3.Z], by norm_num [V3.normSq, V3.dot], eighth_degrees⟩

theorem sin_cos_sub_quarter {x : ℝ} (h0 : 0 ≤ x) (h1 : x < 1 / 4) : 0 ≤ Real.sin (2 * Real.pi * x) ∧ 0 < Real.cos (2 * Real.pi * x) := by
  have := Real.pi_pos
  exact ⟨Real.sin_nonneg_of_nonneg_of_le_pi (by positivity) (by nlinarith), Real.cos_pos_of_mem_Ioo ⟨by nlinarith, by nlinarith⟩⟩

/-- the ray that `distanceTo` builds is the generator on the side `n` -/
theorem cone_generator {a d n : V3} (hd : d ≠ 0) (hn : n.norm = 1) (hnd : n.dot d = 0) {t : ℝ} (hc : 0 < Real.cos t) :
    Ray3.ctor (some a) (some (d.normalized + Real.tan t • n).normalized) =
      .ok ⟨some a, some (Real.cos t • d.normalized + Real.sin t • n)⟩ ∧ (Real.cos t • d.normalized + Real.sin t • n).norm = 1 ∧ n.dot d.normalized = 0 := by
  have hk : d.normalized.norm = 1 := V3.norm_normalized (V3.normSq_pos_of_ne hd)
  have hnk : n.dot d.normalized = 0 := by
    have := V3.normalized_dot hd n
    rw [hnd] at this
    exact (mul_eq_zero.1 this.symm).resolve_left (V3.norm_pos_of_ne hd).ne'
  obtain ⟨u1, -⟩ := V3.unit_lean hk hn hnk t
  have us := V3.normSq_of_unit u1
  have e : d.normalized + Real.tan t • n = (1 / Real.cos t) • (Real.cos t • d.normalized + Real.sin t • n) := by
    rw [Real.tan_eq_sin_div_cos]; ext <;> simp <;> field_simp
  refine ⟨?_, u1, hnk⟩
  rw [e, V3.normalized_smul (by positivity) (by rw [us]; norm_num), V3.normalized_of_unit us]
  simp [Ray3.ctor, us]

theorem cone_side {eps : ℝ} {d : V3} (heps : 0 ≤ eps) (hd : eps < d.norm) (v : V3) :
    (Cone3.side eps d v).norm = 1 ∧ (Cone3.side eps d v).dot d = 0 := by
  have pos : ∀ w : V3, eps < w.norm → w ≠ 0 := by rintro w h rfl; rw [V3.norm_zero] at h; linarith
  unfold Cone3.side
  split_ifs with h1 h2
  · exact ⟨(off_axis (pos _ h1)).1, (off_axis (pos _ h1)).2.1⟩
  · exact ⟨(off_axis (pos _ h2)).1, (off_axis (pos _ h2)).2.1⟩
  · have : d.cross V3.Y ≠ 0 := by
      intro h
      apply h2
      have hx := congrArg V3.x h
      have hz := congrArg V3.z h
      simp [V3.Y] at hx hz
      have e : (d.cross V3.X).norm = d.norm := by
        simp [V3.norm, V3.normSq, V3.dot, V3.X, hx, hz]
      rw [e]; exact hd
    exact ⟨(off_axis this).1, (off_axis this).2.1⟩

/-- **C50.** For a half-angle below a quarter turn and a point that is not behind the apex, `distanceTo` is the minimum of the distances to the points of
the lateral surface: exactly for points on the axis and for points not very near the axis, else up to `2 eps / |axis|`. -/
theorem C50_distance (eps : ℝ) (heps : 0 < eps) (a d p : V3) (t : Angle) (x : ℝ) (ht : Measures t x) (h0 : 0 ≤ x) (h1 : x < 1 / 4)
    (hd : eps < d.norm) (hf : 0 ≤ (p - a).dot d) :
    ∃ k l, Cone3.distanceTo eps ⟨some a, some d, t⟩ (some p) = .ok k ∧ IsDistance (LateralSet a d (2 * Real.pi * x)) p l ∧
      |k - l| ≤ 2 * (eps / d.norm) ∧ (eps < (d.cross (p - a)).norm ∨ d.cross (p - a) = 0 → k = l) := by
  obtain ⟨hs, hc⟩ := sin_cos_sub_quarter h0 h1
  have hdp : 0 < d.norm := by linarith
  have hd0 : d ≠ 0 := by rintro rfl; rw [V3.norm_zero] at hdp; exact lt_irrefl _ hdp
  have hk : d.normalized.norm = 1 := V3.norm_normalized (V3.normSq_pos_of_ne hd0)
  obtain ⟨n1, n2⟩ := cone_side heps.le hd (p - a)
  obtain ⟨g1, g2, g3⟩ := cone_generator (a := a) hd0 n1 n2 hc
  have hrad : t.inUnit .radian = .ok (2 * Real.pi * x) := by rw [inRadian ht, mul_comm]
  simp only [Cone3.distanceTo, Verif.need, Cone3.need, defined_of_measures ht, bind, Except.bind, if_neg (not_lt.2 hf), hrad, g1]
  by_cases hpa : p = a
  · refine ⟨0, 0, by rw [if_pos hpa]; rfl, ⟨⟨a, apex_mem_lateral hd0 _, ?_⟩, fun _ _ => V3.norm_nonneg _⟩, ?_, fun _ => rfl⟩
    · rw [hpa]
      have : a - a = 0 := by ext <;> simp
      rw [this, V3.norm_zero]
    · simp only [sub_zero, abs_zero]; positivity
  · rw [if_neg hpa]
    obtain ⟨k, hk1, hk2⟩ := (C44_ray a _ a _ p g2 g2).2.1
    rw [hk1]
    by_cases hoff : eps < (d.cross (p - a)).norm
    · have hne : d.cross (p - a) ≠ 0 := by intro h; rw [h, V3.norm_zero] at hoff; linarith
      obtain ⟨-, -, ρ, hρ, hv⟩ := off_axis hne
      have hside : Cone3.side eps d (p - a) = ((d.cross (p - a)).cross d).normalized := by rw [Cone3.side, if_pos hoff]
      refine ⟨k, k, rfl, lateral_distance hd0 rfl n1 g3 hρ ?_ hs hk2, ?_, fun _ => rfl⟩
      · rw [hside]; exact hv
      · simp only [sub_self, abs_zero]; positivity
    · obtain ⟨m, ρ, m1, m2, hρ, hv⟩ := V3.exists_decomp d.normalized (p - a) hk
      obtain ⟨u1, -⟩ := V3.unit_lean hk m1 m2 (2 * Real.pi * x)
      obtain ⟨l, -, hl⟩ := (C44_ray a _ a _ p u1 u1).2.1
      have hl' := lateral_distance hd0 rfl m1 m2 hρ hv hs hl
      -- the nearest point of the axis
      obtain ⟨j, -, hj⟩ := (C44_ray a _ a _ (a + ((p - a).dot d.normalized) • d.normalized) g2 g2).2.1
      have e0 : a + ((p - a).dot d.normalized) • d.normalized - a = ((p - a).dot d.normalized) • d.normalized := V3.add_smul_sub _ _ _
      have hkk : (((p - a).dot d.normalized) • d.normalized).dot d.normalized = (p - a).dot d.normalized := by
        rw [V3.dot_comm, V3.dot_smul]
        have : d.normalized.dot d.normalized = 1 := V3.normSq_of_unit hk
        rw [this, mul_one]
      have hj' := lateral_distance (ρ := 0) hd0 rfl n1 g3 le_rfl (by rw [e0, hkk]; ext <;> simp) hs hj
      have hgap : (p - (a + ((p - a).dot d.normalized) • d.normalized)).norm = (d.cross (p - a)).norm / d.norm := by
        have e1 : p - (a + ((p - a).dot d.normalized) • d.normalized) = (p - a) - ((p - a).dot d.normalized) • d.normalized := by
          ext <;> simp <;> ring
        rw [e1, eq_div_iff hdp.ne']
        have e2 : (p - a - ((p - a).dot d.normalized) • d.normalized).normSq * d.normSq = (d.cross (p - a)).normSq := by
          rw [V3.normSq_sub, V3.normSq_smul, V3.dot_smul, V3.normSq_of_unit hk, V3.lagrange, V3.dot_comm d, V3.normalized_dot hd0 (p - a),
            ← V3.norm_sq d]; ring
        rw [V3.norm, V3.norm, V3.norm, ← e2, Real.sqrt_mul (V3.normSq_nonneg _)]
      have b1 := isDistance_lipschitz hk2 hj
      have b2 := isDistance_lipschitz hl' hj'
      rw [hgap] at b1 b2
      have b3 : |k - l| ≤ 2 * ((d.cross (p - a)).norm / d.norm) := by
        have := abs_sub_le k j l
        rw [abs_sub_comm j l] at this
        linarith
      refine ⟨k, l, rfl, hl', ?_, ?_⟩
      · have : (d.cross (p - a)).norm / d.norm ≤ eps / d.norm := by gcongr; exact not_lt.1 hoff
        linarith
      · rintro (h | h)
        · exact absurd h hoff
        · rw [h, V3.norm_zero, zero_div, mul_zero] at b3
          linarith [abs_nonpos_iff.1 b3]

example : Measures ⟨some 45, .degree⟩ (1 / 8) ∧ (1 / 1000 : ℝ) < V3.Z.norm ∧ 0 ≤ ((⟨3, 0, 2⟩ : V3) - ⟨0, 0, 1⟩).dot V3.Z ∧
    1 / 1000 < (V3.Z.cross ((⟨3, 0, 2⟩ : V3) - ⟨0, 0, 1⟩)).norm := by
  refine ⟨eighth_degrees, ?_, by norm_num [V3.dot, V3.Z], ?_⟩
  · rw [V3.norm_of_normSq_one (by norm_num [V3.normSq, V3.dot, V3.Z])]; norm_num
  · rw [V3.norm]; apply Real.lt_sqrt_of_sq_lt; norm_num [V3.normSq, V3.dot, V3.Z]

/-- **C50.** Behind the apex `distanceTo` returns the distance to the apex, which is the distance to the lateral surface for points that are at least a
right angle away from all generators. -/
theorem C50_distance_behind (eps : ℝ) (a d p : V3) (t : Angle) (x : ℝ) (ht : Measures t x) (h0 : 0 ≤ x) (h1 : x < 1 / 4) (hd : d ≠ 0)
    (hf : (p - a).dot d < 0) (hfar : (p - a).dot d ≤ -(Real.sin (2 * Real.pi * x) * ((p - a).norm * d.norm))) :
    ∃ k, Cone3.distanceTo eps ⟨some a, some d, t⟩ (some p) = .ok k ∧ IsDistance (LateralSet a d (2 * Real.pi * x)) p k := by
  obtain ⟨hs, hc⟩ := sin_cos_sub_quarter h0 h1
  have hdp := V3.norm_pos_of_ne hd
  have hk : d.normalized.norm = 1 := V3.norm_normalized (V3.normSq_pos_of_ne hd)
  have hpa : p ≠ a := by
    rintro rfl
    have : p - p = 0 := by ext <;> simp
    rw [this] at hf; simp [V3.dot] at hf
  refine ⟨(p - a).norm, by simp only [Cone3.distanceTo, Verif.need, Cone3.need, defined_of_measures ht, bind, Except.bind, if_neg hpa, if_pos hf]; rfl,
    ⟨a, apex_mem_lateral hd _, V3.norm_sub_comm _ _⟩, ?_⟩
  rintro y ⟨g, g1, g2, s, s0, rfl⟩
  rw [V3.norm_le_norm]
  have key : (a + s • g - p).normSq = s ^ 2 * g.normSq - 2 * s * g.dot (p - a) + (p - a).normSq := by
    simp only [V3.normSq, V3.dot, V3.add_x, V3.add_y, V3.add_z, V3.sub_x, V3.sub_y, V3.sub_z, V3.smul_x, V3.smul_y, V3.smul_z]; ring
  rw [key, V3.normSq_of_unit g1]
  suffices h : g.dot (p - a) ≤ 0 by nlinarith [mul_nonneg s0 (neg_nonneg.2 h)]
  obtain ⟨n, ρ, n1, n2, hρ, hv⟩ := V3.exists_decomp d.normalized (p - a) hk
  have hgk : g.dot d.normalized = Real.cos (2 * Real.pi * x) := by
    have := V3.normalized_dot hd g
    rw [g2, mul_comm] at this
    exact (mul_left_cancel₀ hdp.ne' this).symm
  have h2 : (p - a).dot d.normalized ≤ -(Real.sin (2 * Real.pi * x) * (p - a).norm) := by
    rw [V3.normalized_dot hd] at hfar
    by_contra hn
    nlinarith [mul_lt_mul_of_pos_left (not_le.1 hn) hdp]
  have h3 := V3.side_le hk n1 n2 g1 hgk hs
  have h4 : g.dot (p - a) = (p - a).dot d.normalized * Real.cos (2 * Real.pi * x) + ρ * g.dot n := by
    conv_lhs => rw [hv]
    rw [V3.dot_add, V3.dot_smul, V3.dot_smul, hgk]
  have h5 : (p - a).normSq = (p - a).dot d.normalized ^ 2 + ρ ^ 2 := by
    conv_lhs => rw [hv]
    rw [V3.normSq_add, V3.normSq_smul, V3.normSq_smul, V3.normSq_of_unit hk, V3.normSq_of_unit n1, V3.dot_smul,
      V3.dot_comm _ n, V3.dot_smul, n2]; ring
  rw [← V3.norm_sq] at h5
  have h6 := Real.sin_sq_add_cos_sq (2 * Real.pi * x)
  have hN := V3.norm_nonneg (p - a)
  generalize (p - a).norm = N at *
  generalize (p - a).dot d.normalized = h at *
  generalize Real.sin (2 * Real.pi * x) = S at *
  generalize Real.cos (2 * Real.pi * x) = C at *
  have h7 : ρ ≤ C * N := by
    refine abs_le_of_sq_le_sq' ?_ (mul_nonneg hc.le hN) |>.2
    nlinarith [mul_nonneg hs hN]
  rw [h4]
  nlinarith [mul_le_mul_of_nonneg_left h3 hρ, mul_le_mul_of_nonneg_right h7 hs, mul_le_mul_of_nonneg_right h2 hc.le]

example : ((⟨0, 0, -1⟩ : V3) - 0).dot V3.Z < 0 ∧
    ((⟨0, 0, -1⟩ : V3) - 0).dot V3.Z ≤ -(Real.sin (2 * Real.pi * (1 / 8)) * (((⟨0, 0, -1⟩ : V3) - 0).norm * V3.Z.norm)) := by
  have hz : V3.Z.norm = 1 := V3.norm_of_normSq_one (by norm_num [V3.normSq, V3.dot, V3.Z])
  have hz' : ((⟨0, 0, -1⟩ : V3) - 0).norm = 1 := V3.norm_of_normSq_one (by norm_num [V3.normSq, V3.dot])
  rw [hz, hz']
  have : ((⟨0, 0, -1⟩ : V3) - 0).dot V3.Z = -1 := by norm_num [V3.dot, V3.Z]
  rw [this]
  exact ⟨by norm_num, by linarith [Real.sin_le_one (2 * Real.pi * (1 / 8))]⟩

/-- **C50.** A violation: for the cone of half-angle 60° about the `z` axis and the point `(1, 0, -1/10)`, `distanceTo` is larger than the distance to a
point of the lateral surface. -/
theorem C50_distance_violated (eps : ℝ) :
    ∃ k, Cone3.distanceTo eps ⟨some 0, some V3.Z, ⟨some 60, .degree⟩⟩ (some ⟨1, 0, -1 / 10⟩) = .ok k ∧
      ∃ y ∈ LateralSet 0 V3.Z (2 * Real.pi * (1 / 6)), (y - ⟨1, 0, -1 / 10⟩).norm < k := by
  have hne : (⟨1, 0, -1 / 10⟩ : V3) ≠ 0 := by simp [V3.ext_iff]
  have hneg : ((⟨1, 0, -1 / 10⟩ : V3) - 0).dot V3.Z < 0 := by norm_num [V3.dot, V3.Z]
  refine ⟨((⟨1, 0, -1 / 10⟩ : V3) - 0).norm, by
    have hdef : (⟨some 60, .degree⟩ : Angle).isDefined = true := by simp [Angle.isDefined]
    simp only [Cone3.distanceTo, Verif.need, Cone3.need, hdef, bind, Except.bind, if_neg hne, if_pos hneg]; rfl, ?_⟩
  have h3 : Real.sqrt 3 ^ 2 = 3 := Real.sq_sqrt (by norm_num)
  have h4 : Real.sqrt 3 < 2 := by rw [Real.sqrt_lt' (by norm_num)]; norm_num
  have h5 : 1 < Real.sqrt 3 := by rw [Real.lt_sqrt (by norm_num)]; norm_num
  refine ⟨⟨Real.sqrt 3 / 4, 0, 1 / 4⟩, ⟨⟨Real.sqrt 3 / 2, 0, 1 / 2⟩, ?_, ?_, 1 / 2, by norm_num, ?_⟩, ?_⟩
  · apply V3.norm_of_normSq_one; simp only [V3.normSq, V3.dot]; nlinarith
  · rw [show 2 * Real.pi * (1 / 6) = Real.pi / 3 by ring, Real.cos_pi_div_three, V3.norm_of_normSq_one (by norm_num [V3.normSq, V3.dot, V3.Z])]
    norm_num [V3.dot, V3.Z]
  · ext <;> simp <;> ring
  · rw [V3.norm, V3.norm]
    apply Real.sqrt_lt_sqrt (V3.normSq_nonneg _)
    simp only [V3.normSq, V3.dot, V3.sub_x, V3.sub_y, V3.sub_z, V3.zero_x, V3.zero_y, V3.zero_z]
    nlinarith

/-- **C50.** `contains (Sphere)` decides whether the whole ball is in the solid cone, half-angle below a quarter turn; the centre is the apex or far enough from
it, and on the axis or far enough from it. -/
theorem C50_sphere (eps : ℝ) (heps : 0 < eps) (a d p : V3) (r : ℝ) (hr : 0 ≤ r) (t : Angle) (x : ℝ) (ht : Measures t x) (h0 : 0 < x) (h1 : x < 1 / 4)
    (hd : eps < d.norm) (hd' : eps ≤ d.normSq) (hp : p = a ∨ eps ≤ (p - a).normSq) (hoff : eps < (d.cross (p - a)).norm ∨ d.cross (p - a) = 0) :
    ∃ b, Cone3.containsSphere eps ⟨some a, some d, t⟩ ⟨some p, some r⟩ = .ok b ∧ (b = true ↔ BallSet p r ⊆ ConeSet a d (2 * Real.pi * x)) := by
  have hpi := Real.pi_pos
  obtain ⟨hs, hc⟩ := sin_cos_sub_quarter h0.le h1
  have hc1 : Real.cos (2 * Real.pi * x) < 1 := by
    have := Real.cos_lt_cos_of_nonneg_of_le_pi le_rfl (show 2 * Real.pi * x ≤ Real.pi by nlinarith) (by positivity)
    rwa [Real.cos_zero] at this
  have hd0 : d ≠ 0 := by rintro rfl; rw [V3.norm_zero] at hd; linarith
  have hpp : p - p = 0 := by ext <;> simp
  have hpb : p ∈ BallSet p r := by simp only [BallSet, Set.mem_ofPred_eq, hpp, V3.norm_zero]; exact hr
  obtain ⟨b, hb, hb2⟩ := C50_contains eps heps a d p t x ht h0.le h1.le hd' hp
  simp only [Cone3.containsSphere, Verif.need, Cone3.need, defined_of_measures ht, hb, bind, Except.bind]
  cases b with
  | false => exact ⟨false, rfl, by simpa using fun h => absurd (h hpb) (by simpa using hb2)⟩
  | true =>
    have hin := hb2.1 rfl
    have hf : 0 ≤ (p - a).dot d := le_trans (mul_nonneg hc.le (mul_nonneg (V3.norm_nonneg _) (V3.norm_nonneg _))) hin
    obtain ⟨k, l, hk, hl, -, hkl⟩ := C50_distance eps heps a d p t x ht h0.le h1 hd hf
    rw [hkl hoff] at hk
    simp only [if_true, hk, pure, Except.pure]
    refine ⟨_, rfl, ?_⟩
    rw [decide_eq_true_eq]
    constructor
    · intro hrl q hq
      by_contra hout
      obtain ⟨s, s0, s1, hs⟩ := cross_lateral hd0 hin hout
      have h2 := hl.2 _ hs
      have e : p + s • (q - p) - p = s • (q - p) := by ext <;> simp
      rw [e, V3.norm_smul, abs_of_nonneg s0] at h2
      have hq' : (q - p).norm ≤ r := hq
      by_cases hz : (q - p).norm = 0
      · exact hout (by rw [V3.sub_eq_zero'.1 (V3.norm_eq_zero.1 hz)]; exact hin)
      · have := lt_of_le_of_ne (V3.norm_nonneg (q - p)) (Ne.symm hz)
        nlinarith
    · intro hsub
      by_contra hlt
      obtain ⟨y, hy, hyl⟩ := hl.1
      obtain ⟨q, hq, hqy⟩ := outside_near hd0 hc.le hc1 hy (sub_pos.2 (not_le.1 hlt))
      apply hq
      apply hsub
      have := V3.norm_add_le (q - y) (y - p)
      have e : q - y + (y - p) = q - p := by ext <;> simp
      rw [e, hyl] at this
      exact (by linarith : (q - p).norm ≤ r)

example : (1 / 1000 : ℝ) < V3.Z.norm ∧ (1 / 1000 : ℝ) ≤ V3.Z.normSq ∧ (1 / 1000 : ℝ) ≤ ((⟨0, 0, 2⟩ : V3) - 0).normSq ∧
    V3.Z.cross (⟨0, 0, 2⟩ - 0) = 0 ∧ Measures ⟨some 45, .degree⟩ (1 / 8) :=
  ⟨by rw [V3.norm_of_normSq_one (by norm_num [V3.normSq, V3.dot, V3.Z])]; norm_num, by norm_num [V3.normSq, V3.dot, V3.Z],
    by norm_num [V3.normSq, V3.dot], by ext <;> simp [V3.Z], eighth_degrees⟩

theorem cos_sameDirection {x y : ℝ} (h : SameDirection x y) : Real.cos (2 * Real.pi * x) = Real.cos (2 * Real.pi * y) := by
  obtain ⟨k, hk⟩ := h
  rw [show x = y + k by linarith, show 2 * Real.pi * (y + k) = 2 * Real.pi * y + k * (2 * Real.pi) by ring, Real.cos_add_int_mul_two_pi]

/-- **C50.** `==` holds exactly for cones with the same apex and either the same axis and angle or the opposite axis and the supplement of the angle; such cones
have the same lateral surface. -/
theorem C50_eq (a d b f : V3) (t u : Angle) (x y : ℝ) (ht : Measures t x) (hu : Measures u y) :
    ∃ r, Cone3.eq ⟨some a, some d, t⟩ ⟨some b, some f, u⟩ = .ok r ∧
      (r = true ↔ a = b ∧ ((d = f ∧ SameDirection x y) ∨ (d = -f ∧ SameDirection x (1 / 2 - y)))) ∧
      (r = true → LateralSet a d (2 * Real.pi * x) = LateralSet b f (2 * Real.pi * y)) := by
  obtain ⟨r1, e1, f1⟩ := C18_eq_iff t u x y ht hu
  have hh : Measures ⟨some 180, .degree⟩ (1 / 2) := ⟨180, rfl, by simp, by norm_num [perTurn]⟩
  obtain ⟨w, hw, hwm, -⟩ := (C19_arithmetic _ _ _ _ hh hu 0).2.1
  obtain ⟨r2, e2, f2⟩ := C18_eq_iff t w x _ ht hwm
  have main : ∃ r, Cone3.eq ⟨some a, some d, t⟩ ⟨some b, some f, u⟩ = .ok r ∧
      (r = true ↔ a = b ∧ ((d = f ∧ SameDirection x y) ∨ (d = -f ∧ SameDirection x (1 / 2 - y)))) := by
    rw [← f1, ← f2]
    simp only [Cone3.eq, defined_of_measures ht, defined_of_measures hu, e1, hw, bind, Except.bind, pure, Except.pure]
    by_cases h1 : a = b
    · by_cases h2 : d = f
      · cases r1 with
        | true => exact ⟨true, by simp [h1, h2], by simp [h1, h2]⟩
        | false =>
          by_cases h3 : f = -f
          · refine ⟨r2, by simp [h1, h2]; rw [if_pos h3, e2], ?_⟩
            simp only [h1, h2, true_and, Bool.false_eq_true, false_or]; exact ⟨fun h => ⟨h3, h⟩, fun h => h.2⟩
          · refine ⟨false, by simp [h1, h2]; exact fun h => absurd h h3, ?_⟩
            simp only [h1, h2, true_and, Bool.false_eq_true, false_or, false_iff]; exact fun h => h3 h.1
      · by_cases h3 : d = -f
        · refine ⟨r2, by simp only [h1, if_neg h2, if_pos h3, ne_eq, not_true_eq_false, if_false, Bool.false_eq_true, e2], ?_⟩
          simp only [h1, h2, true_and, false_and, false_or]; exact ⟨fun h => ⟨h3, h⟩, fun h => h.2⟩
        · exact ⟨false, by simp [h1, h2, h3], by simp [h2, h3]⟩
    · exact ⟨false, by simp [h1], by simp [h1]⟩
  obtain ⟨r, hr, hr2⟩ := main
  refine ⟨r, hr, hr2, fun h => ?_⟩
  obtain ⟨rfl, ⟨rfl, h3⟩ | ⟨rfl, h3⟩⟩ := hr2.1 h
  · rw [LateralSet, LateralSet, cos_sameDirection h3]
  · have hc : Real.cos (2 * Real.pi * x) = -Real.cos (2 * Real.pi * y) := by
      rw [cos_sameDirection h3, show 2 * Real.pi * (1 / 2 - y) = Real.pi - 2 * Real.pi * y by ring, Real.cos_pi_sub]
    have hn : (-f).norm = f.norm := by simp [V3.norm, V3.normSq, V3.dot]
    have hdot : ∀ g : V3, g.dot (-f) = -g.dot f := by intro g; simp only [V3.dot, V3.neg_x, V3.neg_y, V3.neg_z]; ring
    ext p
    simp only [LateralSet, Set.mem_ofPred_eq, hc, hn, hdot]
    constructor <;> rintro ⟨g, g1, g2, g3⟩ <;> exact ⟨g, g1, by linarith, g3⟩

example : Measures ⟨some 45, .degree⟩ (1 / 8) ∧ Measures ⟨some (1 / 8), .revolution⟩ (1 / 8) := ⟨eighth_degrees, ⟨1 / 8, rfl, by simp [Spec.perTurn]⟩⟩

/-- **C50.** A violation: cones that are `==` can be complementary solids, for which `contains` differs. -/
theorem C50_eq_violated (eps : ℝ) (heps : 0 < eps) (h1 : eps ≤ 1) :
    Cone3.eq ⟨some 0, some V3.Z, ⟨some 60, .degree⟩⟩ ⟨some 0, some (-V3.Z), ⟨some 120, .degree⟩⟩ = .ok true ∧
    Cone3.contains eps ⟨some 0, some V3.Z, ⟨some 60, .degree⟩⟩ (some V3.Z) = .ok true ∧
    Cone3.contains eps ⟨some 0, some (-V3.Z), ⟨some 120, .degree⟩⟩ (some V3.Z) = .ok false := by
  have m1 : Measures ⟨some 60, .degree⟩ (1 / 6) := ⟨60, rfl, by simp, by norm_num [perTurn]⟩
  have m2 : Measures ⟨some 120, .degree⟩ (1 / 3) := ⟨120, rfl, by simp, by norm_num [perTurn]⟩
  have hz : V3.Z.norm = 1 := V3.norm_of_normSq_one (by norm_num [V3.normSq, V3.dot, V3.Z])
  have hz0 : V3.Z - 0 = V3.Z := by ext <;> simp
  refine ⟨?_, ?_, ?_⟩
  · obtain ⟨r, e, h, -⟩ := C50_eq 0 V3.Z 0 (-V3.Z) _ _ _ _ m1 m2
    rw [e, h.2 ⟨rfl, Or.inr ⟨by ext <;> simp, 0, by norm_num⟩⟩]
  · obtain ⟨r, e, h⟩ := C50_contains eps heps 0 V3.Z V3.Z _ _ m1 (by norm_num) (by norm_num) (by norm_num [V3.normSq, V3.dot, V3.Z]; exact h1)
      (Or.inr (by norm_num [V3.normSq, V3.dot, V3.Z]; exact h1))
    rw [e, h.2]
    simp only [ConeSet, Set.mem_ofPred_eq, hz0, hz]
    have : V3.Z.dot V3.Z = 1 := by norm_num [V3.dot, V3.Z]
    rw [this]; linarith [Real.cos_le_one (2 * Real.pi * (1 / 6))]
  · obtain ⟨r, e, h⟩ := C50_wide eps heps 0 (-V3.Z) V3.Z _ _ m2 (by norm_num) (by norm_num) (by norm_num [V3.normSq, V3.dot, V3.Z]; exact h1)
      (Or.inr (by norm_num [V3.normSq, V3.dot, V3.Z]; exact h1))
    rw [e]
    congr 1
    rw [← Bool.not_eq_true, h]
    norm_num [V3.dot, V3.Z]

theorem coneSet_normalized {a d : V3} (hd : d ≠ 0) (t : ℝ) : ConeSet a d.normalized t = ConeSet a d t ∧ LateralSet a d.normalized t = LateralSet a d t := by
  have hdp := V3.norm_pos_of_ne hd
  have hk : d.normalized.norm = 1 := V3.norm_normalized (V3.normSq_pos_of_ne hd)
  constructor
  · ext p
    simp only [ConeSet, Set.mem_ofPred_eq, hk, V3.normalized_dot hd]
    constructor <;> intro h
    · nlinarith [mul_le_mul_of_nonneg_left h hdp.le]
    · by_contra hn
      nlinarith [mul_lt_mul_of_pos_left (not_le.1 hn) hdp]
  · ext p
    simp only [LateralSet, Set.mem_ofPred_eq, hk, V3.normalized_dot hd]
    constructor <;> rintro ⟨g, g1, g2, g3⟩
    · exact ⟨g, g1, by rw [g2]; ring, g3⟩
    · exact ⟨g, g1, by rw [mul_comm] at g2; rw [mul_right_cancel₀ hdp.ne' g2, mul_one], g3⟩

/-- **C50.** A transformation built from the factories moves the solid cone and its lateral surface with the points, and does not change `contains` for a cone with a
unit axis.
What is missing: transformations made from a rotation matrix that is not a rotation (`C38_rigid3_unsound`). -/
theorem C50_moved_partial (eps : ℝ) (heps : 0 < eps) (h1 : eps ≤ 1) (t : T3) (ht : Built3 eps t) (a d : V3) (hd : d ≠ 0) (ang : Angle)
    (hang : ang.isDefined = true) :
    ∃ a' d', Cone3.applyTransformation t ⟨some a, some d, ang⟩ = .ok ⟨some a', some d', ang⟩ ∧ d'.norm = 1 ∧
      ∀ p, ∃ p', P3.applyTransformation t (some p) = .ok (some p') ∧
        (∀ s, (p' ∈ ConeSet a' d' s ↔ p ∈ ConeSet a d s) ∧ (p' ∈ LateralSet a' d' s ↔ p ∈ LateralSet a d s)) ∧
        (d.norm = 1 → Cone3.contains eps ⟨some a', some d', ang⟩ (some p') = Cone3.contains eps ⟨some a, some d, ang⟩ (some p)) := by
  obtain ⟨l, v, s⟩ := built3_shape heps h1 ht
  have hl := s.1
  have hld : l.mulVec d ≠ 0 := fun h => hd (V3.norm_eq_zero.1 (by rw [← M3.mulVec_norm hl, h, V3.norm_zero]))
  have hpt : ∀ q, t.applyTo (some q) = .ok (some (move l v q)) := fun q => (shape_moves s).1 q
  refine ⟨move l v a, (l.mulVec d).normalized, ?_, V3.norm_normalized (V3.normSq_pos_of_ne hld), ?_⟩
  · simp [Cone3.applyTransformation, shape_defined s, Cone3.isDefined, hang, hpt, shape_vector s, bind, Except.bind, pure, Except.pure]
  · intro p
    refine ⟨move l v p, shape_point s p, ?_, ?_⟩
    · intro τ
      rw [(coneSet_normalized hld τ).1, (coneSet_normalized hld τ).2, mem_lateralSet hld, mem_lateralSet hd]
      simp only [ConeSet, Set.mem_ofPred_eq, move_sub, M3.mulVec_norm hl, M3.mulVec_dot hl, and_self]
    · intro hn
      rw [V3.normalized_of_unit (V3.normSq_of_unit (by rw [M3.mulVec_norm hl, hn]))]
      have hiff : move l v p = move l v a ↔ p = a := ⟨move_injective hl, fun h => by rw [h]⟩
      have hb : Angle.Between3 eps (some (l.mulVec (p - a))) (some (l.mulVec d)) = Angle.Between3 eps (some (p - a)) (some d) := by
        by_cases hs : (p - a).normSq < eps ∨ d.normSq < eps
        · have hs' : (l.mulVec (p - a)).normSq < eps ∨ (l.mulVec d).normSq < eps := by rwa [M3.mulVec_normSq hl, M3.mulVec_normSq hl]
          simp only [Angle.Between3, if_pos hs, if_pos hs']
        · push Not at hs
          rw [between3_eq eps heps _ _ hs.1 hs.2, between3_eq eps heps _ _ (by rw [M3.mulVec_normSq hl]; exact hs.1)
            (by rw [M3.mulVec_normSq hl]; exact hs.2), M3.mulVec_norm hl, M3.mulVec_norm hl, M3.mulVec_dot hl]
      simp only [Cone3.contains, Verif.need, Cone3.need, hang, bind, Except.bind, hiff, move_sub, M3.mulVec_dot hl, hb]

example : Built3 1 ⟨.translation, some !![1, 0, 0, 1; 0, 1, 0, 2; 0, 0, 1, 3; 0, 0, 0, 1], true⟩ ∧ (V3.Z : V3) ≠ 0 :=
  ⟨Built3.translation (some ⟨1, 2, 3⟩) _ rfl, fun h => by simpa [V3.Z] using congrArg V3.z h⟩

/-- **C50.** Undefined arguments and cones are refused, and `contains (Ellipsoid)` never answers. -/
theorem C50_undefined (eps : ℝ) :
    (∀ c : Cone3, c.contains eps none = .error .undefined ∧ c.distanceTo eps none = .error .undefined) ∧
    (∀ (c : Cone3) l, Ray3.isDefined l = false → c.containsRay eps l = .error .undefined) ∧
    (∀ (c : Cone3) s, Seg3.isDefined s = false → c.containsSegment eps s = .error .undefined) ∧
    (∀ (c : Cone3) s, Sphere3.isDefined s = false → c.containsSphere eps s = .error .undefined ∧ c.intersectsSphere s = .error .undefined) ∧
    (∀ c : Cone3, c.isDefined = false → (∀ p, c.contains eps p = .error .undefined ∧ c.distanceTo eps p = .error .undefined) ∧
      (∀ ps, c.containsSet eps ps = .error .undefined) ∧ (∀ s, c.containsSegment eps s = .error .undefined) ∧
      (∀ l, c.containsRay eps l = .error .undefined) ∧ (∀ s, c.containsSphere eps s = .error .undefined ∧ c.intersectsSphere s = .error .undefined) ∧
      (∀ c', c.eq c' = .ok false ∧ c'.eq c = .ok false) ∧ c.getApex = .error .undefined ∧ c.getAxis = .error .undefined ∧
      c.getAngle = .error .undefined) ∧
    (∀ (c : Cone3) e, c.containsEllipsoid e = .error (if e.isDefined = true ∧ c.isDefined = true then .toBeImplemented else .undefined)) := by
  have hneed : ∀ c : Cone3, c.isDefined = false → c.need = .error .undefined := by
    rintro ⟨a, d, t⟩ h
    cases a <;> cases d <;> cases ht : t.isDefined <;> simp_all [Cone3.isDefined, Cone3.need]
  refine ⟨fun c => ⟨rfl, rfl⟩, ?_, ?_, ?_, ?_, ?_⟩
  · intro c l h; simp [Cone3.containsRay, h]
  · intro c s h; simp [Cone3.containsSegment, h]
  · rintro c ⟨o, r⟩ h
    cases o <;> cases r <;> simp_all [Sphere3.isDefined, Cone3.containsSphere, Cone3.intersectsSphere, Verif.need, bind, Except.bind]
  · intro c h
    have hn := hneed c h
    refine ⟨fun p => ?_, fun ps => by simp [Cone3.containsSet, h], fun s => ?_, fun l => ?_, fun s => ?_, fun c' => ?_, ?_, ?_, ?_⟩
    · cases p <;> simp [Cone3.contains, Cone3.distanceTo, Verif.need, hn, bind, Except.bind]
    · obtain ⟨p, q⟩ := s
      cases p <;> cases q <;> simp [Cone3.containsSegment, Cone3.contains, Seg3.isDefined, Verif.need, hn, bind, Except.bind]
    · cases hl : l.isDefined <;> simp [Cone3.containsRay, hl, hn, bind, Except.bind]
    · obtain ⟨o, r⟩ := s
      cases o <;> cases r <;> simp [Cone3.containsSphere, Cone3.intersectsSphere, Verif.need, hn, bind, Except.bind]
    · obtain ⟨a, d, t⟩ := c
      obtain ⟨b, f, u⟩ := c'
      cases a <;> cases d <;> cases ht : t.isDefined <;> cases b <;> cases f <;> cases hu : u.isDefined <;> simp_all [Cone3.isDefined, Cone3.eq]
    · simp [Cone3.getApex, hn, bind, Except.bind]
    · simp [Cone3.getAxis, hn, bind, Except.bind]
    · simp [Cone3.getAngle, hn, bind, Except.bind]
  · intro c e
    cases he : e.isDefined <;> cases hc : c.isDefined <;> simp [Cone3.containsEllipsoid, he, hc]

example : Cone3.isDefined Cone3.Undefined = false ∧ Cone3.isDefined ⟨some 0, some V3.Z, ⟨some 1, .radian⟩⟩ = true := by
  simp [Cone3.isDefined, Cone3.Undefined, Angle.isDefined, Angle.Undefined]

end Verif.Props
