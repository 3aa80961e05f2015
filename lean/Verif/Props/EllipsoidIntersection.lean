import Verif.Props.Ellipsoid

/-!
# Intersections of ellipsoids with lines, rays, segments and planes (C76)
-/

namespace Verif.Props

open Verif Verif.Spec Classical

set_option linter.flexible false

/-- the ellipsoid with the axes that `getFirstAxis`, `getSecondAxis`, `getThirdAxis` return (`C49_axes`) -/
def Surface (p : V3) (a b c : ℝ) (q : Quat) : Set V3 :=
  EllipsoidSet p a b c (RotMat.ofQuat q).row0 (RotMat.ofQuat q).row1 (RotMat.ofQuat q).row2

theorem surface_iff {p : V3} {a b c : ℝ} {q : Quat} (o d : V3) (t : ℝ) :
    (gteOf p a b c (RotMat.ofQuat q)).out o d t = 0 ↔ o + t • d ∈ Surface p a b c q := Gte.Ellipsoid.out_zero _ o d t

/-- The intersection of a line with an ellipsoid is exactly the set of the points of the line on the ellipsoid with the returned axes. `intersects`
says whether there are any. -/
theorem C76_line (eps : ℝ) (h0 : 0 < eps) (p : V3) (a b c : ℝ) (ha : 0 < a) (hb : 0 < b) (hc : 0 < c) (q : Quat) (hq : Unitary q) (o d : V3)
    (hd : d ≠ 0) :
    (∃ i, (ell p a b c q).intersectionWithLine eps ⟨some o, some d⟩ = .ok i ∧ IsectPoints i = LineSet o d ∩ Surface p a b c q) ∧
    ∃ r, (ell p a b c q).intersectsLine eps ⟨some o, some d⟩ = .ok r ∧ (r = true ↔ (LineSet o d ∩ Surface p a b c q).Nonempty) := by
  have ho := fun t => surface_iff (p := p) (a := a) (b := b) (c := c) (q := q) o d t
  have h2 := gte_pos (RotMat.ofQuat_isRotation hq) p ha hb hc hd
  have hg := toGte_eq h0 p a b c hq
  have hz : ∀ t, (gteOf p a b c (RotMat.ofQuat q)).out o d t / d.dot ((gteOf p a b c (RotMat.ofQuat q)).getM.mulVec d) = 0 ↔
      o + t • d ∈ Surface p a b c q := fun t => by rw [div_eq_zero_iff, ho]; simp [h2.ne']
  constructor
  · have e : (ell p a b c q).intersectionWithLine eps ⟨some o, some d⟩ = (match Gte.lineEllipsoid o d (gteOf p a b c (RotMat.ofQuat q)) with
      | [] => .ok .Empty
      | [t] => .ok (.Point (some (o + t • d)))
      | [t, u] => do
        let ps ← PointSet3.ofArray [some (o + t • d), some (o + u • d)]
        return .PointSet ps
      | _ => .error .runtimeError) := by
      simp only [Ellipsoid3.intersectionWithLine, hg, need, bind, Except.bind]
      rfl
    rw [e]
    rcases Gte.Ellipsoid.line_spec _ o d h2 with ⟨e, h⟩ | ⟨x, e, h⟩ | ⟨x, y, e, hxy, h⟩ <;> rw [e]
    · refine ⟨_, rfl, ?_⟩
      rw [isect_empty]
      symm
      rw [Set.eq_empty_iff_forall_notMem]
      rintro _ ⟨⟨t, rfl⟩, hx⟩
      exact (h t).ne' ((hz t).2 hx)
    · refine ⟨_, rfl, ?_⟩
      rw [isect_point]
      ext z
      constructor
      · rintro rfl
        exact ⟨⟨x, rfl⟩, (hz x).1 (by rw [h]; ring)⟩
      · rintro ⟨⟨t, rfl⟩, hx⟩
        have := (hz t).2 hx
        rw [h, mul_self_eq_zero, sub_eq_zero] at this
        rw [this]; rfl
    · have hne : o + x • d ≠ o + y • d := fun k => hxy.ne (param_inj hd k)
      refine ⟨.PointSet [some (o + x • d), some (o + y • d)], ?_, ?_⟩
      · simp only [ofArray_pair hne, bind, Except.bind, pure, Except.pure]
      · rw [isect_pointSet]
        ext z
        constructor
        · rintro (rfl | rfl)
          · exact ⟨⟨x, rfl⟩, (hz x).1 (by rw [h]; ring)⟩
          · exact ⟨⟨y, rfl⟩, (hz y).1 (by rw [h]; ring)⟩
        · rintro ⟨⟨t, rfl⟩, hx⟩
          have := (hz t).2 hx
          rw [h, mul_eq_zero, sub_eq_zero, sub_eq_zero] at this
          rcases this with rfl | rfl
          · left; rfl
          · right; rfl
  · refine ⟨Gte.testLineEllipsoid o d (gteOf p a b c (RotMat.ofQuat q)), ?_, ?_⟩
    · simp only [Ellipsoid3.intersectsLine, hg, need, bind, Except.bind]; rfl
    · simp only [Gte.testLineEllipsoid, decide_eq_true_iff]
      have hq' := Gte.Ellipsoid.out_eq (gteOf p a b c (RotMat.ofQuat q)) o d
      have hne : (LineSet o d ∩ Surface p a b c q).Nonempty ↔ ∃ t, (gteOf p a b c (RotMat.ofQuat q)).out o d t = 0 := by
        constructor
        · rintro ⟨_, ⟨t, rfl⟩, hx⟩; exact ⟨t, (ho t).2 hx⟩
        · rintro ⟨t, ht⟩; exact ⟨_, ⟨t, rfl⟩, (ho t).1 ht⟩
      rw [hne]
      simp only [hq']
      clear hne hz ho hq' hg
      generalize gteOf p a b c (RotMat.ofQuat q) = g at *
      generalize d.dot (g.getM.mulVec d) = a2 at *
      generalize d.dot (g.getM.mulVec (o - g.center)) = a1
      generalize (o - g.center).dot (g.getM.mulVec (o - g.center)) - 1 = a0
      constructor
      · intro h
        refine ⟨(-a1 + Real.sqrt (a1 * a1 - a0 * a2)) / a2, ?_⟩
        have := Real.mul_self_sqrt h
        generalize Real.sqrt (a1 * a1 - a0 * a2) = s at *
        field_simp; linear_combination this
      · rintro ⟨t, h⟩
        nlinarith [sq_nonneg (a2 * t + a1)]

example : (0 : ℝ) < 1 ∧ (0 : ℝ) < 2 ∧ Unitary ⟨1 / 2, -1 / 2, 1 / 2, 1 / 2⟩ ∧ (⟨0, 0, 1⟩ : V3) ≠ 0 :=
  ⟨one_pos, two_pos, unitary_example, V3.ne_zero_of_unit unit_example⟩

/-- The quadratic with positive leading coefficient has a non-negative root as the test query for rays says. -/
theorem ray_quadratic {a2 a1 a0 : ℝ} (h2 : 0 < a2) :
    (if 0 ≤ a1 * a1 - a0 * a2 then if a0 ≤ 0 then true else decide (a1 < 0) else false) = true ↔ ∃ t : ℝ, 0 ≤ t ∧ a2 * t ^ 2 + 2 * a1 * t + a0 = 0 := by
  have root : 0 ≤ a1 * a1 - a0 * a2 → 0 ≤ -a1 + Real.sqrt (a1 * a1 - a0 * a2) → ∃ t : ℝ, 0 ≤ t ∧ a2 * t ^ 2 + 2 * a1 * t + a0 = 0 := by
    intro hh hp
    refine ⟨(-a1 + Real.sqrt (a1 * a1 - a0 * a2)) / a2, div_nonneg hp h2.le, ?_⟩
    have := Real.mul_self_sqrt hh
    generalize Real.sqrt (a1 * a1 - a0 * a2) = s at *
    field_simp; linear_combination this
  split_ifs with h1 h3
  · simp only [true_iff]
    refine root h1 ?_
    have : |a1| ≤ Real.sqrt (a1 * a1 - a0 * a2) := by
      apply Real.le_sqrt_of_sq_le
      rw [sq_abs]; nlinarith
    linarith [le_abs_self a1]
  · rw [decide_eq_true_iff]
    constructor
    · intro h
      exact root h1 (by linarith [Real.sqrt_nonneg (a1 * a1 - a0 * a2)])
    · rintro ⟨t, ht, h⟩
      by_contra hn
      push Not at hn h3
      nlinarith [mul_nonneg hn ht, mul_nonneg h2.le (sq_nonneg t)]
  · simp only [Bool.false_eq_true, false_iff, not_exists, not_and]
    intro t _ h
    nlinarith [sq_nonneg (a2 * t + a1)]

/-- The intersection of a ray with an ellipsoid. Its points are on the ray and on the surface, except that the origin of the ray may also be returned
when `contains` accepts it; every common point is returned, up to a point closer than the tolerance, except the origin of the ray when `contains` rejects
it (which it never does for the orientations of `C49_contains_partial`). With `onlyInSight`, the nearest of these points to the origin is returned.
`intersects` says whether the ray meets the surface. -/
theorem C76_ray (eps : ℝ) (h0 : 0 < eps) (p : V3) (a b c : ℝ) (ha : 0 < a) (hb : 0 < b) (hc : 0 < c) (q : Quat) (hq : Unitary q) (o d : V3)
    (hd : d.norm = 1) :
    (∃ on i j, (ell p a b c q).contains eps (some o) = .ok on ∧ (ell p a b c q).intersectionWithRay eps ⟨some o, some d⟩ false = .ok i ∧
      (ell p a b c q).intersectionWithRay eps ⟨some o, some d⟩ true = .ok j ∧
      (∀ x ∈ IsectPoints i, x ∈ RaySet o d ∧ (x ∈ Surface p a b c q ∨ x = o ∧ on = true)) ∧
      (∀ x ∈ RaySet o d, x ∈ Surface p a b c q → x ≠ o ∨ on = true → ∃ y ∈ IsectPoints i, y = x ∨ (y - x).norm < eps) ∧
      (Symmetric a b c q → o ∈ Surface p a b c q → on = true) ∧
      (IsectPoints i = ∅ → IsectPoints j = ∅) ∧
      (IsectPoints i ≠ ∅ → ∃ y ∈ IsectPoints i, IsectPoints j = {y} ∧ ∀ x ∈ IsectPoints i, (y - o).norm ≤ (x - o).norm)) ∧
    ∃ r, (ell p a b c q).intersectsRay eps ⟨some o, some d⟩ = .ok r ∧ (r = true ↔ (RaySet o d ∩ Surface p a b c q).Nonempty) := by
  have hz := V3.ne_zero_of_unit hd
  have ho := fun t => surface_iff (p := p) (a := a) (b := b) (c := c) (q := q) o d t
  have h2 := gte_pos (RotMat.ofQuat_isRotation hq) p ha hb hc hz
  have hg := toGte_eq h0 p a b c hq
  have hf : ∀ t, (gteOf p a b c (RotMat.ofQuat q)).out o d t / d.dot ((gteOf p a b c (RotMat.ofQuat q)).getM.mulVec d) = 0 ↔
      o + t • d ∈ Surface p a b c q := fun t => by rw [div_eq_zero_iff, ho]; simp [h2.ne']
  have wi : ∀ t, Gte.Within 0 none t ↔ 0 ≤ t := fun t => by simp [Gte.Within]
  have z0 : o + (0 : ℝ) • d = o := by ext <;> simp
  have hat0 : ∀ t : ℝ, o + t • d = o ↔ t = 0 := fun t => by
    constructor
    · intro h; exact param_inj hz (h.trans z0.symm)
    · rintro rfl; exact z0
  have norm_at : ∀ t : ℝ, 0 ≤ t → (o + t • d - o).norm = t := fun t ht => by
    rw [V3.add_smul_sub, V3.norm_smul, hd, abs_of_nonneg ht, mul_one]
  constructor
  · obtain ⟨on, hon, hsym⟩ : ∃ on, (ell p a b c q).contains eps (some o) = .ok on ∧ (Symmetric a b c q → o ∈ Surface p a b c q → on = true) := by
      refine ⟨_, contains_eq h0 p a b c hq o, fun hs hm => ?_⟩
      rw [form_symmetric hq hs, decide_eq_true_iff]
      have hm' : ((o - p).dot (RotMat.ofQuat q).row0 / a) ^ 2 + ((o - p).dot (RotMat.ofQuat q).row1 / b) ^ 2 + ((o - p).dot (RotMat.ofQuat q).row2 / c) ^ 2 = 1 := hm
      rw [hm', sub_self, abs_zero]; exact h0
    have e : ∀ s, (ell p a b c q).intersectionWithRay eps ⟨some o, some d⟩ s = (match Gte.rayEllipsoid o d (gteOf p a b c (RotMat.ofQuat q)) with
      | [] => .ok .Empty
      | [t] => if o + t • d = o ∧ !on then .ok .Empty else .ok (.Point (some (o + t • d)))
      | [t, u] =>
        if o + t • d = o ∧ !on then .ok (.Point (some (o + u • d)))
        else if o + u • d = o ∧ !on then .ok (.Point (some (o + t • d)))
        else if (o + t • d - (o + u • d)).norm < eps then .ok (.Point (some (o + t • d)))
        else do
          let ps ← PointSet3.ofArray [some (o + t • d), some (o + u • d)]
          if s then do
            let x ← PointSet3.getPointClosestTo ps (some o)
            return .Point x
          else return .PointSet ps
      | _ => .error .runtimeError) := by
      intro s
      simp only [Ellipsoid3.intersectionWithRay, hg, hon, need, bind, Except.bind]
      rfl
    have single : ∀ (x : V3), x ∈ RaySet o d → (x ∈ Surface p a b c q ∨ x = o ∧ on = true) →
        (∀ y ∈ RaySet o d, y ∈ Surface p a b c q → y ≠ o ∨ on = true → x = y ∨ (x - y).norm < eps) →
        (∀ y ∈ IsectPoints (.Point (some x)), y ∈ RaySet o d ∧ (y ∈ Surface p a b c q ∨ y = o ∧ on = true)) ∧
        (∀ y ∈ RaySet o d, y ∈ Surface p a b c q → y ≠ o ∨ on = true → ∃ z ∈ IsectPoints (.Point (some x)), z = y ∨ (z - y).norm < eps) ∧
        (Symmetric a b c q → o ∈ Surface p a b c q → on = true) ∧
        (IsectPoints (.Point (some x)) = ∅ → IsectPoints (.Point (some x)) = ∅) ∧
        (IsectPoints (.Point (some x)) ≠ ∅ → ∃ y ∈ IsectPoints (.Point (some x)), IsectPoints (.Point (some x)) = {y} ∧
          ∀ z ∈ IsectPoints (.Point (some x)), (y - o).norm ≤ (z - o).norm) := by
      intro x h1 h2 h3
      rw [isect_point]
      exact ⟨fun y hy => hy ▸ ⟨h1, h2⟩, fun y hy hs hn => ⟨x, rfl, h3 y hy hs hn⟩, hsym, fun h => h, fun _ => ⟨x, rfl, rfl, fun y hy => hy ▸ le_rfl⟩⟩
    refine ⟨on, ?_⟩
    rw [e, e]
    have hcut : Gte.Cut _ 0 none (Gte.rayEllipsoid o d (gteOf p a b c (RotMat.ofQuat q))) := Gte.Ellipsoid.cut _ o d h2 0 none (by simp)
    rcases hcut with ⟨e, h⟩ | ⟨s, e, ws, hs, h⟩ | ⟨s, u, e, hsu, ws, wu, hs, hu, h⟩ <;> rw [e]
    · refine ⟨_, _, hon, rfl, rfl, ?_⟩
      rw [isect_empty]
      refine ⟨by simp, ?_, hsym, by simp, by simp⟩
      rintro x ⟨t, ht, rfl⟩ hx
      exact absurd ((hf t).2 hx) (h t ((wi t).2 ht)).ne'
    · have hs' := (hf s).1 (by simpa using hs)
      have uniq : ∀ y ∈ RaySet o d, y ∈ Surface p a b c q → o + s • d = y := by
        rintro y ⟨t, ht, rfl⟩ hy
        rw [h t ((wi t).2 ht) ((hf t).2 hy)]
      by_cases hk : o + s • d = o ∧ (!on) = true
      · simp only [if_pos hk]
        refine ⟨_, _, hon, rfl, rfl, ?_⟩
        rw [isect_empty]
        refine ⟨by simp, ?_, hsym, by simp, by simp⟩
        intro y hy hys hn
        have := uniq y hy hys
        rw [hk.1] at this
        have h1 := hk.2
        rcases hn with hn | hn
        · exact absurd this.symm hn
        · simp [hn] at h1
      · simp only [if_neg hk]
        exact ⟨_, _, hon, rfl, rfl, single _ ⟨s, (wi s).1 ws, rfl⟩ (Or.inl hs') fun y hy hys _ => Or.inl (uniq y hy hys)⟩
    · have ws' := (wi s).1 ws
      have hu' := (hf u).1 (by simpa using hu)
      have hu0 : o + u • d ≠ o := by rw [Ne, hat0]; linarith
      have hne : o + s • d ≠ o + u • d := fun k => hsu.ne (param_inj hz k)
      have two : ∀ y ∈ RaySet o d, y ∈ Surface p a b c q → y = o + s • d ∨ y = o + u • d := by
        rintro y ⟨t, ht, rfl⟩ hy
        rcases h t ((wi t).2 ht) ((hf t).2 hy) with rfl | rfl
        · left; rfl
        · right; rfl
      have first : ¬(o + s • d = o ∧ (!on) = true) → o + s • d ∈ Surface p a b c q ∨ o + s • d = o ∧ on = true := by
        intro hk
        rcases hs with hs | ⟨-, hs⟩
        · exact Or.inl ((hf s).1 hs)
        · right
          have : o + s • d = o := by rw [hs, z0]
          refine ⟨this, ?_⟩
          cases on
          · exact absurd ⟨this, rfl⟩ hk
          · rfl
      by_cases hk : o + s • d = o ∧ (!on) = true
      · simp only [if_pos hk]
        refine ⟨_, _, hon, rfl, rfl, single _ ⟨u, by linarith, rfl⟩ (Or.inl hu') fun y hy hys hn => ?_⟩
        rcases two y hy hys with rfl | rfl
        · exfalso
          have h1 := hk.2
          rcases hn with hn | hn
          · exact hn hk.1
          · simp [hn] at h1
        · left; rfl
      · have hk2 : ¬(o + u • d = o ∧ (!on) = true) := fun k => hu0 k.1
        by_cases hk3 : (o + s • d - (o + u • d)).norm < eps
        · simp only [if_neg hk, if_neg hk2, if_pos hk3]
          refine ⟨_, _, hon, rfl, rfl, single _ ⟨s, ws', rfl⟩ (first hk) fun y hy hys hn => ?_⟩
          rcases two y hy hys with rfl | rfl
          · left; rfl
          · right; exact hk3
        · simp only [if_neg hk, if_neg hk2, if_neg hk3, ofArray_pair hne, bind, Except.bind]
          have cl : PointSet3.getPointClosestTo [some (o + s • d), some (o + u • d)] (some o) = .ok (some (o + s • d)) := by
            obtain ⟨y, dd, h1, -, -, h2, h3, h4⟩ := C52_closest.1 [o + s • d, o + u • d] o (by simp)
            rw [List.map_cons, List.map_cons, List.map_nil] at h1
            rw [h1]
            have ea := norm_at s ws'
            have eb := norm_at u (by linarith)
            simp at h2
            rcases h2 with rfl | rfl
            · rfl
            · have := h4.2 (o + s • d) (by simp)
              linarith
          refine ⟨_, _, hon, rfl, by simp only [cl, if_true]; rfl, ?_⟩
          rw [isect_point]
          have hp : IsectPoints (.PointSet [some (o + s • d), some (o + u • d)]) = {o + s • d, o + u • d} := isect_pointSet _ _
          rw [hp]
          refine ⟨?_, ?_, hsym, ?_, ?_⟩
          · rintro y (rfl | rfl)
            · exact ⟨⟨s, ws', rfl⟩, first hk⟩
            · exact ⟨⟨u, by linarith, rfl⟩, Or.inl hu'⟩
          · intro y hy hys _
            refine ⟨y, ?_, Or.inl rfl⟩
            exact two y hy hys
          · intro k
            exact absurd k (Set.Nonempty.ne_empty ⟨_, Or.inl rfl⟩)
          · intro _
            refine ⟨o + s • d, Or.inl rfl, rfl, ?_⟩
            rintro y (rfl | rfl)
            · exact le_rfl
            · rw [norm_at s ws', norm_at u (by linarith)]; exact hsu.le
  · refine ⟨Gte.testRayEllipsoid o d (gteOf p a b c (RotMat.ofQuat q)), ?_, ?_⟩
    · simp only [Ellipsoid3.intersectsRay, hg, need, bind, Except.bind]; rfl
    · have hq' := Gte.Ellipsoid.out_eq (gteOf p a b c (RotMat.ofQuat q)) o d
      have hne : (RaySet o d ∩ Surface p a b c q).Nonempty ↔ ∃ t, 0 ≤ t ∧ (gteOf p a b c (RotMat.ofQuat q)).out o d t = 0 := by
        constructor
        · rintro ⟨_, ⟨t, h0, rfl⟩, hx⟩; exact ⟨t, h0, (ho t).2 hx⟩
        · rintro ⟨t, h0, ht⟩; exact ⟨_, ⟨t, h0, rfl⟩, (ho t).1 ht⟩
      rw [hne]
      simp only [hq']
      exact ray_quadratic h2

example : (0 : ℝ) < 1 ∧ (0 : ℝ) < 2 ∧ Unitary ⟨1 / 2, -1 / 2, 1 / 2, 1 / 2⟩ ∧ (⟨0, 0, 1⟩ : V3).norm = 1 :=
  ⟨one_pos, two_pos, unitary_example, unit_example⟩

/-- The value of the quadratic form of the ellipsoid at a point: 1 on the surface, less inside, more outside. -/
noncomputable def Form (p : V3) (a b c : ℝ) (q : Quat) (x : V3) : ℝ :=
  ((x - p).dot (RotMat.ofQuat q).row0 / a) ^ 2 + ((x - p).dot (RotMat.ofQuat q).row1 / b) ^ 2 + ((x - p).dot (RotMat.ofQuat q).row2 / c) ^ 2

theorem out_form (p : V3) (a b c : ℝ) (q : Quat) (o d : V3) (t : ℝ) :
    (gteOf p a b c (RotMat.ofQuat q)).out o d t = Form p a b c q (o + t • d) - 1 := by
  rw [Gte.Ellipsoid.out, Gte.Ellipsoid.form_eq]; rfl

/-- The intersection of a segment, possibly degenerate, with an ellipsoid. Its points are on the segment and on the surface, except that the ends of the
segment may also be returned when `contains` accepts them; every common point is returned, except the ends of the segment that `contains` rejects (which
is none for the orientations of `C49_contains_partial`). -/
theorem C76_segment (eps : ℝ) (h0 : 0 < eps) (p : V3) (a b c : ℝ) (ha : 0 < a) (hb : 0 < b) (hc : 0 < c) (q : Quat) (hq : Unitary q) (v w : V3) :
    ∃ onV onW i, (ell p a b c q).contains eps (some v) = .ok onV ∧ (ell p a b c q).contains eps (some w) = .ok onW ∧
      (ell p a b c q).intersectionWithSegment eps ⟨some v, some w⟩ = .ok i ∧
      (∀ x ∈ IsectPoints i, x ∈ SegSet v w ∧ (x ∈ Surface p a b c q ∨ x = v ∧ onV = true ∨ x = w ∧ onW = true)) ∧
      (∀ x ∈ SegSet v w, x ∈ Surface p a b c q → (x = v → onV = true) → (x = w → onW = true) → x ∈ IsectPoints i) ∧
      (Symmetric a b c q → (v ∈ Surface p a b c q → onV = true) ∧ (w ∈ Surface p a b c q → onW = true)) := by
  have hcon : ∀ o, ∃ on, (ell p a b c q).contains eps (some o) = .ok on ∧ (Symmetric a b c q → o ∈ Surface p a b c q → on = true) := by
    intro o
    refine ⟨_, contains_eq h0 p a b c hq o, fun hs hm => ?_⟩
    rw [form_symmetric hq hs, decide_eq_true_iff]
    have hm' : ((o - p).dot (RotMat.ofQuat q).row0 / a) ^ 2 + ((o - p).dot (RotMat.ofQuat q).row1 / b) ^ 2 + ((o - p).dot (RotMat.ofQuat q).row2 / c) ^ 2 = 1 := hm
    rw [hm', sub_self, abs_zero]; exact h0
  obtain ⟨onV, hV, sV⟩ := hcon v
  obtain ⟨onW, hW, sW⟩ := hcon w
  refine ⟨onV, onW, ?_⟩
  simp only [hV, hW, true_and]
  by_cases hvw : v = w
  · subst hvw
    have hsame : onV = onW := by rw [hV] at hW; exact Except.ok.inj hW
    have hset : ∀ x, x ∈ SegSet v v → x = v := by
      intro x hx
      obtain ⟨t, -, -, rfl⟩ := hx
      ext <;> simp
    have hin : v ∈ SegSet v v := ⟨0, le_rfl, zero_le_one, by ext <;> simp⟩
    cases onV
    · refine ⟨.Empty, ?_, ?_⟩
      · simp only [Ellipsoid3.intersectionWithSegment, hV, need, bind, Except.bind, if_true]; rfl
      · rw [isect_empty]
        refine ⟨by simp, fun x hx _ k _ => ?_, fun hs => ⟨sV hs, sW hs⟩⟩
        exact absurd (k (hset x hx)) (by simp)
    · refine ⟨.Point (some v), ?_, ?_⟩
      · simp only [Ellipsoid3.intersectionWithSegment, hV, need, bind, Except.bind, if_true]
      · rw [isect_point]
        refine ⟨?_, fun x hx _ _ _ => hset x hx, fun hs => ⟨sV hs, sW hs⟩⟩
        rintro x rfl
        exact ⟨hin, Or.inr (Or.inl ⟨rfl, rfl⟩)⟩
  · set m := (Gte.centred v w).1 with hm
    set d := (Gte.centred v w).2.1 with hd
    set e := (Gte.centred v w).2.2 with he
    have hlo : m + (-e) • d = v := Gte.centred_lo v w
    have hhi : m + e • d = w := Gte.centred_hi v w
    have hd0 : d ≠ 0 := by
      intro hd0
      apply hvw
      rw [← hlo, ← hhi, hd0]; ext <;> simp
    have h2 := gte_pos (RotMat.ofQuat_isRotation hq) p ha hb hc hd0
    have hg := toGte_eq h0 p a b c hq
    have hf : ∀ t, (gteOf p a b c (RotMat.ofQuat q)).out m d t / d.dot ((gteOf p a b c (RotMat.ofQuat q)).getM.mulVec d) = 0 ↔
        m + t • d ∈ Surface p a b c q := fun t => by rw [div_eq_zero_iff, surface_iff]; simp [h2.ne']
    have hseg : ∀ x, x ∈ SegSet v w ↔ ∃ t, Gte.Within (-e) (some e) t ∧ x = m + t • d := fun x => Gte.mem_centred
    have e0 : 0 ≤ e := mul_nonneg (by norm_num) (w - v).norm_nonneg
    have wi : ∀ t, Gte.Within (-e) (some e) t ↔ -e ≤ t ∧ t ≤ e := fun t => by simp [Gte.Within]
    set on : V3 → Bool := fun x => if x = v then onV else if x = w then onW else true with hon
    have onv : on v = onV := by simp [on]
    have onw : on w = onW := by simp [on, Ne.symm hvw]
    have ono : ∀ x, x ≠ v → x ≠ w → on x = true := fun x h1 h2 => by simp [on, h1, h2]
    have on_iff : ∀ x, on x = true ↔ (x = v → onV = true) ∧ (x = w → onW = true) := by
      intro x
      by_cases h1 : x = v
      · subst h1; simp [onv, hvw]
      · by_cases h2 : x = w
        · subst h2; simp [onw, h1]
        · simp [ono x h1 h2, h1, h2]
    have cv : ∀ x, (x = v ∧ (!onV) = true) ↔ (x = v ∧ (!on x) = true) := fun x =>
      and_congr_right fun h => by rw [h, onv]
    have cw : ∀ x, (x = w ∧ (!onW) = true) ↔ (x = w ∧ (!on x) = true) := fun x =>
      and_congr_right fun h => by rw [h, onw]
    have ee : (ell p a b c q).intersectionWithSegment eps ⟨some v, some w⟩ =
      (match Gte.clip (Gte.lineEllipsoid m d (gteOf p a b c (RotMat.ofQuat q))) (-e) (some e) with
      | [] => .ok .Empty
      | [t] => if (m + t • d = v ∧ !on (m + t • d)) ∨ (m + t • d = w ∧ !on (m + t • d)) then .ok .Empty else .ok (.Point (some (m + t • d)))
      | [t, u] =>
        if m + t • d = v ∧ !on (m + t • d) then
          if m + u • d = w ∧ !on (m + u • d) then .ok .Empty else .ok (.Point (some (m + u • d)))
        else if m + t • d = w ∧ !on (m + t • d) then
          if m + u • d = v ∧ !on (m + u • d) then .ok .Empty else .ok (.Point (some (m + u • d)))
        else if m + u • d = v ∧ !on (m + u • d) then
          if m + t • d = w ∧ !on (m + t • d) then .ok .Empty else .ok (.Point (some (m + t • d)))
        else if m + u • d = w ∧ !on (m + u • d) then
          if m + t • d = v ∧ !on (m + t • d) then .ok .Empty else .ok (.Point (some (m + t • d)))
        else do
          let ps ← PointSet3.ofArray [some (m + t • d), some (m + u • d)]
          return .PointSet ps
      | _ => .error .runtimeError) := by
      simp only [← cv, ← cw]
      simp only [Ellipsoid3.intersectionWithSegment, hV, hW, hg, need, bind, Except.bind, if_neg hvw]
      rfl
    rw [ee]
    rcases Gte.Ellipsoid.cut _ m d h2 (-e) (some e) (by simp; linarith) with ⟨k, h⟩ | ⟨t, k, wt, ht, h⟩ | ⟨t, u, k, htu, wt, wu, ht, hu, h⟩ <;> rw [k]
    · refine ⟨_, rfl, ?_⟩
      rw [isect_empty]
      refine ⟨by simp, ?_, fun hs => ⟨sV hs, sW hs⟩⟩
      intro x hx hs
      obtain ⟨t, ht, rfl⟩ := (hseg x).1 hx
      exact absurd ((hf t).2 hs) (h t ht).ne'
    · have hmem := (hseg _).2 ⟨t, wt, rfl⟩
      have uniq : ∀ x ∈ SegSet v w, x ∈ Surface p a b c q → x = m + t • d := by
        intro x hx hs
        obtain ⟨s, hs', rfl⟩ := (hseg x).1 hx
        rw [h s hs' ((hf s).2 hs)]
      have hP : m + t • d ∈ Surface p a b c q ∨ m + t • d = v := by
        rcases ht with ht | ht
        · exact Or.inl ((hf t).1 ht)
        · right; rw [← hlo, ht.1]
      by_cases hon' : on (m + t • d) = true
      · refine ⟨.Point (some (m + t • d)), by simp [hon'], ?_⟩
        rw [isect_point]
        refine ⟨?_, fun x hx hs _ _ => uniq x hx hs, fun hs => ⟨sV hs, sW hs⟩⟩
        rintro x rfl
        exact ⟨hmem, hP.imp id fun h => Or.inl ⟨h, by rw [h, onv] at hon'; exact hon'⟩⟩
      · have hE : m + t • d = v ∨ m + t • d = w := by
          by_contra hn
          push Not at hn
          exact hon' (ono _ hn.1 hn.2)
        refine ⟨.Empty, ?_, ?_⟩
        · simp only [Bool.not_eq_true] at hon'
          simp [hon', hE]
        rw [isect_empty]
        refine ⟨by simp, fun x hx hs k1 k2 => ?_, fun hs => ⟨sV hs, sW hs⟩⟩
        have := uniq x hx hs
        exact absurd ((on_iff x).2 ⟨k1, k2⟩) (this ▸ hon')
    · have hne : m + t • d ≠ m + u • d := fun k => htu.ne (param_inj hd0 k)
      have memt := (hseg _).2 ⟨t, wt, rfl⟩
      have memu := (hseg _).2 ⟨u, wu, rfl⟩
      have all : ∀ x ∈ SegSet v w, x ∈ Surface p a b c q → x = m + t • d ∨ x = m + u • d := by
        intro x hx hs
        obtain ⟨s, hs', rfl⟩ := (hseg x).1 hx
        rcases h s hs' ((hf s).2 hs) with rfl | rfl
        · exact Or.inl rfl
        · exact Or.inr rfl
      have hP : m + t • d ∈ Surface p a b c q ∨ m + t • d = v := by
        rcases ht with ht | ht
        · exact Or.inl ((hf t).1 ht)
        · right; rw [← hlo, ht.2]
      have hQ : m + u • d ∈ Surface p a b c q ∨ m + u • d = w := by
        rcases hu with hu | hu
        · exact Or.inl ((hf u).1 hu)
        · right; rw [← hhi, ← Option.some.inj hu.2]
      have tw : m + t • d ≠ w := by
        intro k
        have := param_inj hd0 (k.trans hhi.symm)
        have := ((wi u).1 wu).2
        have : t < u := htu
        linarith
      have uv : m + u • d ≠ v := by
        intro k
        have := param_inj hd0 (k.trans hlo.symm)
        have := ((wi t).1 wt).1
        have : t < u := htu
        linarith
      obtain ⟨i, e1, e2⟩ := seg_choice (a := v) (b := w) on hne
        (fun k => by by_contra hn; rw [ono _ hn tw] at k; exact absurd k (by simp))
        (fun k => by by_contra hn; rw [ono _ uv hn] at k; exact absurd k (by simp))
      refine ⟨i, e1, ?_⟩
      rw [e2]
      refine ⟨?_, fun x hx hs k1 k2 => ⟨all x hx hs, (on_iff x).2 ⟨k1, k2⟩⟩, fun hs => ⟨sV hs, sW hs⟩⟩
      rintro x ⟨rfl | rfl, hp⟩
      · exact ⟨memt, hP.imp id fun h => Or.inl ⟨h, ((on_iff _).1 hp).1 h⟩⟩
      · exact ⟨memu, hQ.imp id fun h => Or.inr ⟨h, ((on_iff _).1 hp).2 h⟩⟩

example : (0 : ℝ) < 1 ∧ (0 : ℝ) < 2 ∧ (0 : ℝ) < 3 ∧ Unitary ⟨1 / 2, -1 / 2, 1 / 2, 1 / 2⟩ := ⟨one_pos, two_pos, by norm_num, unitary_example⟩

/-- A line with direction `d` through `o` is near to tangent: the least value of the form along it differs from 1 by no more than the tolerance over the
squared length of `d` for the form. -/
def NearTangent (p : V3) (a b c : ℝ) (q : Quat) (tol : ℝ) (o d : V3) : Prop :=
  ∃ t : ℝ, (∀ s : ℝ, Form p a b c q (o + t • d) ≤ Form p a b c q (o + s • d)) ∧ |Form p a b c q (o + t • d) - 1| * Form p a b c q (p + d) ≤ tol

/-- The decision of `intersects (Segment)` for a quadratic with two roots. -/
theorem seg_quadratic {a2 a1 a0 h : ℝ} (h2 : 0 < a2) (hh : 0 ≤ h) (hd : 0 < a1 * a1 - a0 * a2) :
    (¬((-a1 - Real.sqrt (a1 * a1 - a0 * a2)) * (1 / a2) ≤ -h ∧ h ≤ (-a1 + Real.sqrt (a1 * a1 - a0 * a2)) * (1 / a2)) ∧
      ((-a1 - Real.sqrt (a1 * a1 - a0 * a2)) * (1 / a2) ≤ h ∧ -h ≤ (-a1 + Real.sqrt (a1 * a1 - a0 * a2)) * (1 / a2))) ↔
    (∃ t : ℝ, -h ≤ t ∧ t ≤ h ∧ a2 * t ^ 2 + 2 * a1 * t + a0 ≤ 0) ∧ ∃ t : ℝ, -h ≤ t ∧ t ≤ h ∧ 0 < a2 * t ^ 2 + 2 * a1 * t + a0 := by
  have hs := Real.mul_self_sqrt hd.le
  have hp := Real.sqrt_pos.2 hd
  generalize Real.sqrt (a1 * a1 - a0 * a2) = s at *
  obtain ⟨t0, e0⟩ : ∃ t0, t0 = (-a1 - s) * (1 / a2) := ⟨_, rfl⟩
  obtain ⟨t1, e1⟩ : ∃ t1, t1 = (-a1 + s) * (1 / a2) := ⟨_, rfl⟩
  rw [← e0, ← e1]
  have hlt : t0 < t1 := by
    rw [e0, e1]
    exact mul_lt_mul_of_pos_right (by linarith) (by positivity)
  have hf : ∀ t : ℝ, a2 * t ^ 2 + 2 * a1 * t + a0 = a2 * ((t - t0) * (t - t1)) := by
    intro t
    rw [e0, e1]; field_simp; linear_combination hs
  have hle : ∀ t : ℝ, a2 * t ^ 2 + 2 * a1 * t + a0 ≤ 0 ↔ t0 ≤ t ∧ t ≤ t1 := by
    intro t
    rw [hf, show a2 * ((t - t0) * (t - t1)) ≤ 0 ↔ (t - t0) * (t - t1) ≤ 0 from
      ⟨fun k => by by_contra hn; push Not at hn; nlinarith [mul_pos h2 hn], fun k => mul_nonpos_of_nonneg_of_nonpos h2.le k⟩]
    constructor
    · intro k
      constructor
      · by_contra hn; push Not at hn; nlinarith
      · by_contra hn; push Not at hn; nlinarith
    · rintro ⟨k1, k2⟩; nlinarith
  have hgt : ∀ t : ℝ, 0 < a2 * t ^ 2 + 2 * a1 * t + a0 ↔ ¬(t0 ≤ t ∧ t ≤ t1) := fun t => by rw [← hle, not_le]
  simp only [hle, hgt]
  constructor
  · rintro ⟨k1, k2, k3⟩
    refine ⟨⟨max t0 (-h), le_max_right _ _, max_le k2 (by linarith), le_max_left _ _, max_le hlt.le k3⟩, ?_⟩
    by_cases k : t0 ≤ -h
    · exact ⟨h, by linarith, le_rfl, fun k' => k1 ⟨k, k'.2⟩⟩
    · exact ⟨-h, le_rfl, by linarith, fun k' => k k'.1⟩
  · rintro ⟨⟨t, h1, h2, h3, h4⟩, u, h5, h6, h7⟩
    exact ⟨fun k => h7 ⟨k.1.trans h5, h6.trans k.2⟩, by linarith, by linarith⟩

/-- `intersects (Segment)` unless the line of the segment is near to tangent: true exactly when the segment has a point in the solid ellipsoid and a point
outside it. So a true answer means that the segment meets the surface, but a segment inside that touches the surface with an end is missed.
When the line is exactly tangent, true exactly when the segment meets the surface. For a degenerate segment, the answer is that of `contains`. -/
theorem C76_segment_test (eps tol : ℝ) (h0 : 0 < eps) (ht : 0 ≤ tol) (p : V3) (a b c : ℝ) (ha : 0 < a) (hb : 0 < b) (hc : 0 < c) (q : Quat)
    (hq : Unitary q) (v w : V3) (hvw : v ≠ w) :
    ∃ r, (ell p a b c q).intersectsSegment eps tol ⟨some v, some w⟩ = .ok r ∧
      (¬NearTangent p a b c q tol v (w - v).normalized →
        ((r = true ↔ (∃ x ∈ SegSet v w, Form p a b c q x ≤ 1) ∧ ∃ x ∈ SegSet v w, 1 < Form p a b c q x) ∧
        (r = true → (SegSet v w ∩ Surface p a b c q).Nonempty) ∧
        (r = false → (SegSet v w ∩ Surface p a b c q).Nonempty → ∀ x ∈ SegSet v w, Form p a b c q x ≤ 1))) ∧
      (NearTangent p a b c q 0 v (w - v).normalized → (r = true ↔ (SegSet v w ∩ Surface p a b c q).Nonempty)) ∧
      (ell p a b c q).intersectsSegment eps tol ⟨some v, some v⟩ = (ell p a b c q).contains eps (some v) := by
  set m := (Gte.centred v w).1 with hm
  set d := (Gte.centred v w).2.1 with hd
  set e := (Gte.centred v w).2.2 with he
  have hdn : (w - v).normalized = d := rfl
  rw [hdn]
  have hlo : m + (-e) • d = v := Gte.centred_lo v w
  have hhi : m + e • d = w := Gte.centred_hi v w
  have hd0 : d ≠ 0 := by
    intro hd0
    apply hvw
    rw [← hlo, ← hhi, hd0]; ext <;> simp
  have hg := matrix_eq h0 p a b c hq
  have h2 := gte_pos (RotMat.ofQuat_isRotation hq) p ha hb hc hd0
  have e0 : 0 ≤ e := mul_nonneg (by norm_num) (w - v).norm_nonneg
  have hseg : ∀ x, x ∈ SegSet v w ↔ ∃ t, (-e ≤ t ∧ t ≤ e) ∧ x = m + t • d := fun x => by
    rw [Gte.mem_centred]; simp [Gte.Within, hm, hd, he]
  have shift : ∀ t : ℝ, v + t • d = m + (t - e) • d := by
    intro t; rw [← hlo]; ext <;> simp <;> ring
  have outq := Gte.Ellipsoid.out_eq (gteOf p a b c (RotMat.ofQuat q)) m d
  have outf := out_form p a b c q m d
  have h2f : d.dot ((gteOf p a b c (RotMat.ofQuat q)).getM.mulVec d) = Form p a b c q (p + d) := by
    rw [Gte.Ellipsoid.form_eq, Form]
    have : p + d - p = d := by ext <;> simp
    rw [this]; rfl
  have hcen : (gteOf p a b c (RotMat.ofQuat q)).center = p := rfl
  rw [hcen] at outq
  set a2 := d.dot ((gteOf p a b c (RotMat.ofQuat q)).getM.mulVec d) with ea2
  set a1 := d.dot ((gteOf p a b c (RotMat.ofQuat q)).getM.mulVec (m - p)) with ea1
  set a0 := (m - p).dot ((gteOf p a b c (RotMat.ofQuat q)).getM.mulVec (m - p)) - 1 with ea0
  have form : ∀ t : ℝ, Form p a b c q (m + t • d) = a2 * t ^ 2 + 2 * a1 * t + a0 + 1 := fun t => by
    rw [← outq, outf]; ring
  have fmin : ∀ s : ℝ, Form p a b c q (m + (-a1 / a2) • d) ≤ Form p a b c q (m + s • d) := by
    intro s
    rw [form, form]
    have : a2 * s ^ 2 + 2 * a1 * s + a0 + 1 - (a2 * (-a1 / a2) ^ 2 + 2 * a1 * (-a1 / a2) + a0 + 1) = (a2 * s + a1) ^ 2 / a2 := by field_simp; ring
    have : 0 ≤ (a2 * s + a1) ^ 2 / a2 := by positivity
    linarith
  have fval : (Form p a b c q (m + (-a1 / a2) • d) - 1) * a2 = -(a1 * a1 - a0 * a2) := by
    rw [form]; field_simp; ring
  have near : ∀ k : ℝ, NearTangent p a b c q k v d ↔ |a1 * a1 - a0 * a2| ≤ k := by
    intro k
    have key : |Form p a b c q (m + (-a1 / a2) • d) - 1| * a2 = |a1 * a1 - a0 * a2| := by
      rw [← abs_neg (a1 * a1 - a0 * a2), ← fval, abs_mul, abs_of_pos h2]
    constructor
    · rintro ⟨t, h1, h3⟩
      have e1 : Form p a b c q (v + t • d) = Form p a b c q (m + (-a1 / a2) • d) := by
        apply le_antisymm
        · have := h1 (-a1 / a2 + e)
          rw [shift (-a1 / a2 + e), add_sub_cancel_right] at this
          exact this
        · rw [shift]; exact fmin _
      rw [e1, ← h2f, key] at h3
      exact h3
    · intro h
      refine ⟨-a1 / a2 + e, ?_, ?_⟩
      · intro s
        rw [shift, shift s, add_sub_cancel_right]
        exact fmin _
      · rw [shift, add_sub_cancel_right, ← h2f, key]; exact h
  have surf : ∀ x, x ∈ Surface p a b c q ↔ Form p a b c q x = 1 := fun x => Iff.rfl
  have hcen2 : v + (1 / 2 : ℝ) • (w - v) = m := by
    rw [hm]; simp only [Gte.centred]; ext <;> simp <;> ring
  have hlen : (w - v).norm / 2 = e := by rw [he]; simp only [Gte.centred]; ring
  have heq : P3.eq (some v) (some w) = false := by rw [← Bool.not_eq_true, P3.eq_iff]; exact hvw
  have ee : (ell p a b c q).intersectsSegment eps tol ⟨some v, some w⟩ = .ok (
      if a1 * a1 - a0 * a2 < -tol then false
      else if a1 * a1 - a0 * a2 > tol then
        if ¬((-a1 - Real.sqrt (a1 * a1 - a0 * a2)) * (1 / a2) ≤ -e ∧ e ≤ (-a1 + Real.sqrt (a1 * a1 - a0 * a2)) * (1 / a2)) then
          decide ((-a1 - Real.sqrt (a1 * a1 - a0 * a2)) * (1 / a2) ≤ e ∧ -e ≤ (-a1 + Real.sqrt (a1 * a1 - a0 * a2)) * (1 / a2)) else false
      else decide (|-a1 / a2| ≤ e)) := by
    simp only [Ellipsoid3.intersectsSegment, Ellipsoid3.need, ell, need, heq, Seg3.getDirection, Seg3.getCenter, Seg3.getLength, hdn, bind, Except.bind,
      pure, Except.pure, hcen2, hlen, Bool.false_eq_true, if_false]
    have hg' : Ellipsoid3.getMatrix eps { center := some p, a := some a, b := some b, c := some c, q := some q } =
      .ok (gteOf p a b c (RotMat.ofQuat q)).getM := hg
    rw [hg']
    simp only [← ea2, ← ea1, ← ea0]
    split_ifs <;> rfl
  have sq0 : ∀ t : ℝ, a2 * (a2 * t ^ 2 + 2 * a1 * t + a0) = (a2 * t + a1) ^ 2 - (a1 * a1 - a0 * a2) := fun t => by ring
  refine ⟨_, ee, ?_, ?_, ?_⟩
  · intro hn
    rw [near, not_le] at hn
    have seg_ex : ∀ P : ℝ → Prop, (∃ x ∈ SegSet v w, P (Form p a b c q x)) ↔ ∃ t, -e ≤ t ∧ t ≤ e ∧ P (a2 * t ^ 2 + 2 * a1 * t + a0 + 1) := by
      intro P
      constructor
      · rintro ⟨x, hx, hP⟩
        obtain ⟨t, ht, rfl⟩ := (hseg x).1 hx
        rw [form] at hP
        exact ⟨t, ht.1, ht.2, hP⟩
      · rintro ⟨t, h1, h2, hP⟩
        exact ⟨_, (hseg _).2 ⟨t, ⟨h1, h2⟩, rfl⟩, by rw [form]; exact hP⟩
    have main : (if a1 * a1 - a0 * a2 < -tol then false
      else if a1 * a1 - a0 * a2 > tol then
        if ¬((-a1 - Real.sqrt (a1 * a1 - a0 * a2)) * (1 / a2) ≤ -e ∧ e ≤ (-a1 + Real.sqrt (a1 * a1 - a0 * a2)) * (1 / a2)) then
          decide ((-a1 - Real.sqrt (a1 * a1 - a0 * a2)) * (1 / a2) ≤ e ∧ -e ≤ (-a1 + Real.sqrt (a1 * a1 - a0 * a2)) * (1 / a2)) else false
      else decide (|-a1 / a2| ≤ e)) = true ↔ (∃ x ∈ SegSet v w, Form p a b c q x ≤ 1) ∧ ∃ x ∈ SegSet v w, 1 < Form p a b c q x := by
      rw [seg_ex (fun y => y ≤ 1), seg_ex (fun y => 1 < y)]
      simp only [add_le_iff_nonpos_left, lt_add_iff_pos_left]
      by_cases k1 : a1 * a1 - a0 * a2 < -tol
      · rw [if_pos k1]
        simp only [Bool.false_eq_true, false_iff, not_and]
        rintro ⟨t, -, -, h⟩
        exfalso
        have := sq0 t
        nlinarith [sq_nonneg (a2 * t + a1), mul_nonpos_of_nonneg_of_nonpos h2.le h]
      · have k2 : a1 * a1 - a0 * a2 > tol := by
          rcases lt_abs.1 hn with h | h
          · exact h
          · exact absurd (by linarith) k1
        rw [if_neg k1, if_pos k2, ← seg_quadratic h2 e0 (lt_of_le_of_lt ht k2)]
        split_ifs with k3
        · exact ⟨fun h => absurd h (by simp), fun h => absurd k3 h.1⟩
        · rw [decide_eq_true_iff]; exact ⟨fun h => ⟨k3, h⟩, fun h => h.2⟩
    refine ⟨main, ?_, ?_⟩
    · intro hr
      obtain ⟨⟨x, hx, h1⟩, y, hy, h3⟩ := main.1 hr
      obtain ⟨t, ht1, rfl⟩ := (hseg x).1 hx
      obtain ⟨u, hu1, rfl⟩ := (hseg y).1 hy
      have cont : Continuous fun s : ℝ => a2 * s ^ 2 + 2 * a1 * s + a0 + 1 := by fun_prop
      rw [form] at h1 h3
      have iv := intermediate_value_uIcc (a := t) (b := u) cont.continuousOn
      have hin : (1 : ℝ) ∈ Set.uIcc (a2 * t ^ 2 + 2 * a1 * t + a0 + 1) (a2 * u ^ 2 + 2 * a1 * u + a0 + 1) := by
        rw [Set.mem_uIcc]; left; exact ⟨h1, h3.le⟩
      obtain ⟨s, hs, hs'⟩ := iv hin
      refine ⟨m + s • d, (hseg _).2 ⟨s, ?_, rfl⟩, ?_⟩
      · rw [Set.mem_uIcc] at hs
        rcases hs with hs | hs
        · exact ⟨by linarith, by linarith⟩
        · exact ⟨by linarith, by linarith⟩
      · rw [surf, form]; exact hs'
    · rintro hr ⟨x, hx, hxs⟩ y hy
      by_contra hy'
      push Not at hy'
      have := main.2 ⟨⟨x, hx, ((surf x).1 hxs).le⟩, y, hy, hy'⟩
      rw [hr] at this
      exact absurd this (by simp)
  · intro hn
    rw [near] at hn
    have hz : a1 * a1 - a0 * a2 = 0 := by
      have := abs_nonneg (a1 * a1 - a0 * a2)
      exact abs_eq_zero.1 (le_antisymm hn this)
    rw [hz, if_neg (by linarith), if_neg (by linarith), decide_eq_true_iff, abs_le]
    constructor
    · intro h
      refine ⟨m + (-a1 / a2) • d, (hseg _).2 ⟨_, h, rfl⟩, ?_⟩
      rw [surf]
      rw [hz, neg_zero] at fval
      rcases mul_eq_zero.1 fval with h | h
      · linarith
      · exact absurd h h2.ne'
    · rintro ⟨x, hx, hxs⟩
      obtain ⟨t, ht1, rfl⟩ := (hseg x).1 hx
      rw [surf, form] at hxs
      have := sq0 t
      rw [hz, sub_zero, show a2 * t ^ 2 + 2 * a1 * t + a0 = 0 by linarith, mul_zero] at this
      have h3 : a2 * t + a1 = 0 := pow_eq_zero_iff two_ne_zero |>.1 this.symm
      have h4 : -a1 / a2 = t := by field_simp; linarith
      rw [h4]; exact ht1
  · have hvv : P3.eq (some v) (some v) = true := by rw [P3.eq_iff]
    simp only [Ellipsoid3.intersectsSegment, Ellipsoid3.need, ell, need, hvv, bind, Except.bind, pure, Except.pure, if_true]

example : (0 : ℝ) < 1 ∧ (0 : ℝ) ≤ 1 / 10 ∧ Unitary ⟨1 / 2, -1 / 2, 1 / 2, 1 / 2⟩ ∧ (⟨0, 0, 1⟩ : V3) ≠ 0 :=
  ⟨one_pos, by norm_num, unitary_example, by simp [V3.ext_iff]⟩

/-- Disagreement: the segment from (-1, 0, 0) to (1, 0, 0) has both ends on the unit ellipsoid, and `contains` accepts both, but `intersects` is false while
`intersectionWith` gives the two ends. -/
theorem C76_segment_violated (eps tol : ℝ) (h0 : 0 < eps) (ht : 0 ≤ tol) (h1 : tol < 1) :
    ∃ e : Ellipsoid3, Ellipsoid3.ctor (some 0) (some 1) (some 1) (some 1) (some ⟨0, 0, 0, 1⟩) = .ok e ∧
      e.contains eps (some ⟨-1, 0, 0⟩) = .ok true ∧ e.contains eps (some ⟨1, 0, 0⟩) = .ok true ∧
      e.intersectsSegment eps tol ⟨some ⟨-1, 0, 0⟩, some ⟨1, 0, 0⟩⟩ = .ok false ∧
      ∃ i, e.intersectionWithSegment eps ⟨some ⟨-1, 0, 0⟩, some ⟨1, 0, 0⟩⟩ = .ok i ∧ ⟨-1, 0, 0⟩ ∈ IsectPoints i ∧ ⟨1, 0, 0⟩ ∈ IsectPoints i := by
  have hq : Unitary ⟨0, 0, 0, 1⟩ := by norm_num [Unitary]
  have hne : (⟨-1, 0, 0⟩ : V3) ≠ ⟨1, 0, 0⟩ := by
    intro h; have := congrArg V3.x h; norm_num at this
  have hform : ∀ x : V3, Form 0 1 1 1 ⟨0, 0, 0, 1⟩ x = x.x ^ 2 + x.y ^ 2 + x.z ^ 2 := by
    intro x; simp [Form, RotMat.ofQuat, M3.row0, M3.row1, M3.row2, V3.dot]
  have hs : ∀ x : V3, x ∈ Surface 0 1 1 1 ⟨0, 0, 0, 1⟩ ↔ x.x ^ 2 + x.y ^ 2 + x.z ^ 2 = 1 := fun x => by rw [← hform]; rfl
  have c1 : (ell 0 1 1 1 ⟨0, 0, 0, 1⟩).contains eps (some ⟨-1, 0, 0⟩) = .ok true := by
    rw [contains_eq h0 0 1 1 1 hq]; norm_num [M3.mulVec, V3.dot, RotMat.ofQuat, V3.X, V3.Y, V3.Z, h0]
  have c2 : (ell 0 1 1 1 ⟨0, 0, 0, 1⟩).contains eps (some ⟨1, 0, 0⟩) = .ok true := by
    rw [contains_eq h0 0 1 1 1 hq]; norm_num [M3.mulVec, V3.dot, RotMat.ofQuat, V3.X, V3.Y, V3.Z, h0]
  obtain ⟨r, hr, h3, -⟩ := C76_segment_test eps tol h0 ht 0 1 1 1 one_pos one_pos one_pos ⟨0, 0, 0, 1⟩ hq ⟨-1, 0, 0⟩ ⟨1, 0, 0⟩ hne
  have hnorm : ((⟨1, 0, 0⟩ : V3) - ⟨-1, 0, 0⟩).normalized = ⟨1, 0, 0⟩ := by
    have e : ((⟨1, 0, 0⟩ : V3) - ⟨-1, 0, 0⟩) = ⟨2, 0, 0⟩ := by ext <;> norm_num
    have n : (⟨2, 0, 0⟩ : V3).norm = 2 := by
      rw [V3.norm, show (⟨2, 0, 0⟩ : V3).normSq = 2 ^ 2 by norm_num [V3.normSq, V3.dot], Real.sqrt_sq (by norm_num)]
    rw [e, V3.normalized, if_pos (by norm_num [V3.normSq, V3.dot]), n]
    ext <;> norm_num
  have hnt : ¬NearTangent 0 1 1 1 ⟨0, 0, 0, 1⟩ tol ⟨-1, 0, 0⟩ ⟨1, 0, 0⟩ := by
    rintro ⟨t, k1, k2⟩
    have := k1 1
    rw [hform, hform] at this
    rw [hform, hform] at k2
    norm_num at this k2
    have ht1 : -1 + t = 0 := this
    rw [ht1] at k2
    norm_num at k2
    linarith
  rw [hnorm] at h3
  obtain ⟨h4, -, -⟩ := h3 hnt
  obtain ⟨on1, on2, i, o1, o2, hi, -, hcomp, -⟩ :=
    C76_segment eps h0 0 1 1 1 one_pos one_pos one_pos ⟨0, 0, 0, 1⟩ hq ⟨-1, 0, 0⟩ ⟨1, 0, 0⟩
  have on1' : on1 = true := by rw [c1] at o1; exact (Except.ok.inj o1).symm
  have on2' : on2 = true := by rw [c2] at o2; exact (Except.ok.inj o2).symm
  refine ⟨ell 0 1 1 1 ⟨0, 0, 0, 1⟩, by simp [Ellipsoid3.ctor, ell, not_lt.2 (zero_le_one' ℝ)], c1, c2, ?_, i, hi, ?_, ?_⟩
  · rw [hr]
    have : ¬ r = true := by
      rw [h4]
      rintro ⟨-, x, ⟨t, t0, t1, rfl⟩, hx⟩
      rw [hform] at hx
      simp only [V3.add_x, V3.add_y, V3.add_z, V3.smul_x, V3.smul_y, V3.smul_z, V3.sub_x, V3.sub_y, V3.sub_z] at hx
      nlinarith [mul_nonneg t0 (sub_nonneg.2 t1)]
    simpa using this
  · exact hcomp _ ⟨0, le_rfl, zero_le_one, by ext <;> norm_num⟩ ((hs _).2 (by norm_num)) (fun _ => on1') fun _ => on2'
  · exact hcomp _ ⟨1, zero_le_one, le_rfl, by ext <;> norm_num⟩ ((hs _).2 (by norm_num)) (fun _ => on1') fun _ => on2'

example : (0 : ℝ) < 1 ∧ (0 : ℝ) ≤ 1 / 10 ∧ (1 / 10 : ℝ) < 1 := by norm_num

/-- There is a unit vector with scalar product `s` with a given non-zero vector exactly when `s` is no longer than the vector. -/
theorem unit_dot {N : V3} (hN : N ≠ 0) (s : ℝ) : (∃ y : V3, y.normSq = 1 ∧ N.dot y = s) ↔ s * s ≤ N.normSq := by
  have hk : 0 < N.normSq := lt_of_le_of_ne (V3.normSq_nonneg N) fun h => hN (V3.normSq_eq_zero.1 h.symm)
  constructor
  · rintro ⟨y, h1, rfl⟩
    have : N.normSq * y.normSq - N.dot y * N.dot y = (N.cross y).normSq := by
      simp only [V3.normSq, V3.dot, V3.cross_x, V3.cross_y, V3.cross_z]; ring
    rw [h1] at this
    nlinarith [V3.normSq_nonneg (N.cross y)]
  · intro h
    have hu : N.normalized.norm = 1 := V3.norm_normalized hk
    obtain ⟨w, hw, hwn⟩ := exists_orthogonal hu
    have hw1 := V3.normSq_of_unit hw
    have hNw : N.dot w = 0 := by
      rw [V3.normalized, if_pos hk] at hwn
      have e : ((1 / N.norm) • N).dot w = N.norm⁻¹ * N.dot w := by simp only [V3.dot, V3.smul_x, V3.smul_y, V3.smul_z]; ring
      rw [e] at hwn
      rcases mul_eq_zero.1 hwn with h | h
      · exact absurd (inv_eq_zero.1 h) (fun h => hN (V3.norm_eq_zero.1 h))
      · exact h
    have hr : 0 ≤ 1 - s * s / N.normSq := by
      rw [sub_nonneg, div_le_one hk]; exact h
    refine ⟨(s / N.normSq) • N + Real.sqrt (1 - s * s / N.normSq) • w, ?_, ?_⟩
    · have e : ((s / N.normSq) • N + Real.sqrt (1 - s * s / N.normSq) • w).normSq = (s / N.normSq) ^ 2 * N.normSq +
          2 * (s / N.normSq) * Real.sqrt (1 - s * s / N.normSq) * N.dot w + (Real.sqrt (1 - s * s / N.normSq) * Real.sqrt (1 - s * s / N.normSq)) * w.normSq := by
        generalize Real.sqrt (1 - s * s / N.normSq) = k
        generalize s / N.normSq = j
        simp only [V3.normSq, V3.dot, V3.add_x, V3.add_y, V3.add_z, V3.smul_x, V3.smul_y, V3.smul_z]; ring
      rw [e, hNw, hw1, Real.mul_self_sqrt hr]; field_simp; ring
    · have e : N.dot ((s / N.normSq) • N + Real.sqrt (1 - s * s / N.normSq) • w) = (s / N.normSq) * N.normSq +
          Real.sqrt (1 - s * s / N.normSq) * N.dot w := by
        generalize Real.sqrt (1 - s * s / N.normSq) = k
        generalize s / N.normSq = j
        simp only [V3.normSq, V3.dot, V3.add_x, V3.add_y, V3.add_z, V3.smul_x, V3.smul_y, V3.smul_z]; ring
      rw [e, hNw]; field_simp; ring

/-- `intersects (Plane)` says whether the plane meets the surface of the ellipsoid. -/
theorem C76_plane (eps : ℝ) (h0 : 0 < eps) (p : V3) (a b c : ℝ) (ha : 0 < a) (hb : 0 < b) (hc : 0 < c) (q : Quat) (hq : Unitary q) (o n : V3)
    (hn : n.norm = 1) :
    ∃ r, (ell p a b c q).intersectsPlane eps ⟨some o, some n⟩ = .ok r ∧ (r = true ↔ (PlaneSet o n ∩ Surface p a b c q).Nonempty) := by
  have hg := toGte_eq h0 p a b c hq
  refine ⟨Gte.testPlaneEllipsoid o n (gteOf p a b c (RotMat.ofQuat q)), ?_, ?_⟩
  · simp only [Ellipsoid3.intersectsPlane, hg, need, bind, Except.bind]; rfl
  have hm := RotMat.ofQuat_isRotation hq
  have hmt := M3.isRotation_transpose hm
  have hrow : ∀ v : V3, v.dot (RotMat.ofQuat q).row0 = ((RotMat.ofQuat q).mulVec v).x ∧ v.dot (RotMat.ofQuat q).row1 = ((RotMat.ofQuat q).mulVec v).y ∧
      v.dot (RotMat.ofQuat q).row2 = ((RotMat.ofQuat q).mulVec v).z := by
    intro v
    refine ⟨?_, ?_, ?_⟩ <;> simp only [V3.dot, M3.row0, M3.row1, M3.row2, M3.mulVec] <;> ring
  have hsurf : ∀ x, x ∈ Surface p a b c q ↔ (((RotMat.ofQuat q).mulVec (x - p)).x / a) ^ 2 + (((RotMat.ofQuat q).mulVec (x - p)).y / b) ^ 2 +
      (((RotMat.ofQuat q).mulVec (x - p)).z / c) ^ 2 = 1 := by
    intro x
    rw [← (hrow _).1, ← (hrow _).2.1, ← (hrow _).2.2]; rfl
  have hinv : n.dot ((gteOf p a b c (RotMat.ofQuat q)).getMInverse.mulVec n) = (a * ((RotMat.ofQuat q).mulVec n).x) ^ 2 +
      (b * ((RotMat.ofQuat q).mulVec n).y) ^ 2 + (c * ((RotMat.ofQuat q).mulVec n).z) ^ 2 := by
    rw [← (hrow _).1, ← (hrow _).2.1, ← (hrow _).2.2]
    simp only [Gte.Ellipsoid.getMInverse, Gte.plus, Gte.outer, gteOf, M3.mulVec, V3.dot, V3.smul_x, V3.smul_y, V3.smul_z]
    ring
  have hdot := fun u v => M3.mulVec_dot hm u v
  have hmn0 : (RotMat.ofQuat q).mulVec n ≠ 0 := by
    intro h
    have := M3.mulVec_norm hm n
    rw [h, hn] at this
    rw [V3.norm_eq_zero.2 rfl] at this
    norm_num at this
  generalize RotMat.ofQuat q = m at *
  obtain ⟨N, hN⟩ : ∃ N : V3, N = ⟨a * (m.mulVec n).x, b * (m.mulVec n).y, c * (m.mulVec n).z⟩ := ⟨_, rfl⟩
  have hN0 : N ≠ 0 := by
    intro h
    apply hmn0
    rw [hN, V3.ext_iff] at h
    simp only [V3.zero_x, V3.zero_y, V3.zero_z, mul_eq_zero, ha.ne', hb.ne', hc.ne', false_or] at h
    exact V3.ext h.1 h.2.1 h.2.2
  have hNsq : n.dot ((gteOf p a b c m).getMInverse.mulVec n) = N.normSq := by
    rw [hinv, hN]; simp only [V3.normSq, V3.dot]; ring
  have hcenter : (gteOf p a b c m).center = p := rfl
  rw [Gte.testPlaneEllipsoid, decide_eq_true_iff, hNsq, max_eq_left (V3.normSq_nonneg N), Real.le_sqrt (abs_nonneg _) (V3.normSq_nonneg N), sq_abs, hcenter, sq]
  have hs := unit_dot hN0 (-(n.dot p - n.dot o))
  rw [neg_mul_neg] at hs
  rw [← hs]
  constructor
  · rintro ⟨y, hy, hNy⟩
    obtain ⟨z, hz⟩ : ∃ z : V3, z = ⟨a * y.x, b * y.y, c * y.z⟩ := ⟨_, rfl⟩
    have hmz : m.mulVec (m.transpose.mulVec z) = z := by
      have := M3.transpose_mulVec hmt z
      simpa [M3.transpose] using this
    have hx : p + m.transpose.mulVec z - p = m.transpose.mulVec z := by ext <;> simp
    refine ⟨p + m.transpose.mulVec z, ?_, ?_⟩
    · show n.dot (p + m.transpose.mulVec z - o) = 0
      have e : n.dot (p + m.transpose.mulVec z - o) = n.dot p - n.dot o + n.dot (m.transpose.mulVec z) := by
        simp only [V3.dot, V3.sub_x, V3.sub_y, V3.sub_z, V3.add_x, V3.add_y, V3.add_z]; ring
      have e2 : n.dot (m.transpose.mulVec z) = N.dot y := by
        rw [← hdot, hmz, hz, hN]; simp only [V3.dot]; ring
      rw [e, e2, hNy]; ring
    · rw [hsurf, hx, hmz, hz]
      simp only [V3.normSq, V3.dot] at hy
      field_simp
      linarith
  · rintro ⟨x, hx, hxs⟩
    rw [hsurf] at hxs
    refine ⟨⟨(m.mulVec (x - p)).x / a, (m.mulVec (x - p)).y / b, (m.mulVec (x - p)).z / c⟩, ?_, ?_⟩
    · simp only [V3.normSq, V3.dot]; linarith
    · have e : N.dot ⟨(m.mulVec (x - p)).x / a, (m.mulVec (x - p)).y / b, (m.mulVec (x - p)).z / c⟩ = (m.mulVec n).dot (m.mulVec (x - p)) := by
        rw [hN]; simp only [V3.dot]; field_simp
      rw [e, hdot]
      have hx' : n.dot (x - o) = 0 := hx
      simp only [V3.dot, V3.sub_x, V3.sub_y, V3.sub_z] at hx' ⊢
      linarith

example : (0 : ℝ) < 1 ∧ (0 : ℝ) < 2 ∧ Unitary ⟨1 / 2, -1 / 2, 1 / 2, 1 / 2⟩ ∧ (⟨0, 0, 1⟩ : V3).norm = 1 :=
  ⟨one_pos, two_pos, unitary_example, unit_example⟩

/-- Every query with an undefined operand or an undefined ellipsoid is rejected. -/
theorem C76_undefined (eps tol : ℝ) (e : Ellipsoid3) :
    (∀ l : Line3, e.isDefined = false ∨ l.isDefined = false → e.intersectsLine eps l = .error .undefined ∧ e.intersectionWithLine eps l = .error .undefined) ∧
    (∀ l : Ray3, e.isDefined = false ∨ l.isDefined = false → e.intersectsRay eps l = .error .undefined ∧
      ∀ s, e.intersectionWithRay eps l s = .error .undefined) ∧
    (∀ l : Seg3, e.isDefined = false ∨ l.isDefined = false → e.intersectsSegment eps tol l = .error .undefined ∧
      e.intersectionWithSegment eps l = .error .undefined) ∧
    (∀ l : Plane3, e.isDefined = false ∨ l.isDefined = false → e.intersectsPlane eps l = .error .undefined) := by
  have hn : e.isDefined = false → e.need = .error .undefined := by
    intro he
    obtain ⟨_ | _, _ | _, _ | _, _ | _, _ | _⟩ := e <;> first | rfl | simp [Ellipsoid3.isDefined] at he
  have hg : e.isDefined = false → e.toGte eps = .error .undefined := by
    intro h; simp [Ellipsoid3.toGte, Ellipsoid3.getFirstAxis, hn h, bind, Except.bind]
  have hc : e.isDefined = false → ∀ x, e.contains eps (some x) = .error .undefined := by
    intro h x; simp [Ellipsoid3.contains, hn h, need, bind, Except.bind]
  have needE : ∀ r, e.need = .error r → r = .undefined := by
    intro r hr
    obtain ⟨_ | _, _ | _, _ | _, _ | _, _ | _⟩ := e <;> first | exact (Except.error.inj hr).symm | exact absurd hr (by simp [Ellipsoid3.need, need, bind, Except.bind, pure, Except.pure])
  refine ⟨?_, ?_, ?_, ?_⟩
  · rintro ⟨_ | o, _ | d⟩ h <;> cases he : e.need <;>
      simp_all [Ellipsoid3.intersectsLine, Ellipsoid3.intersectionWithLine, Line3.isDefined, need, bind, Except.bind]
  · rintro ⟨_ | o, _ | d⟩ h <;> cases he : e.need <;>
      simp_all [Ellipsoid3.intersectsRay, Ellipsoid3.intersectionWithRay, Ray3.isDefined, need, bind, Except.bind]
  · rintro ⟨_ | o, _ | d⟩ h <;> cases he : e.need <;>
      simp_all [Ellipsoid3.intersectsSegment, Ellipsoid3.intersectionWithSegment, Seg3.isDefined, need, bind, Except.bind]
  · rintro ⟨_ | o, _ | d⟩ h <;> cases he : e.need <;>
      simp_all [Ellipsoid3.intersectsPlane, Plane3.isDefined, need, bind, Except.bind]

end Verif.Props
