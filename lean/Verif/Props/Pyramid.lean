import Verif.Model.Pyramid
import Verif.Props.ConeIntersection
import Verif.Props.Polygon
import Verif.Props.PolygonIntersection
import Verif.Spec.Pyramid

/-!
# Pyramids (C60)
-/

namespace Verif.Props

open Verif Verif.Spec Classical

set_option linter.flexible false

/-! ## The frame of the base -/

/-- two perpendicular unit vectors -/
structure Frame (x y : V3) : Prop where
  hx : x.norm = 1
  hy : y.norm = 1
  hxy : x.dot y = 0

theorem Frame.unit {x y : V3} (h : Frame x y) : (x.cross y).norm = 1 := by
  apply V3.norm_of_normSq_one
  rw [V3.lagrange, V3.normSq_of_unit h.hx, V3.normSq_of_unit h.hy, h.hxy]; ring

theorem Frame.rotation {x y : V3} (h : Frame x y) :
    IsRotation ⟨x.x, y.x, (x.cross y).x, x.y, y.y, (x.cross y).y, x.z, y.z, (x.cross y).z⟩ := by
  have e1 : x.x * x.x + x.y * x.y + x.z * x.z = 1 := V3.normSq_of_unit h.hx
  have e2 : y.x * y.x + y.y * y.y + y.z * y.z = 1 := V3.normSq_of_unit h.hy
  have e3 : (x.cross y).x * (x.cross y).x + (x.cross y).y * (x.cross y).y + (x.cross y).z * (x.cross y).z = 1 := V3.normSq_of_unit h.unit
  have e4 : x.x * y.x + x.y * y.y + x.z * y.z = 0 := h.hxy
  rw [M3.isRotation_iff']
  constructor
  · simp only [M3.ext_iff, M3.mul, M3.transpose, M3.one]
    refine ⟨e1, e4, ?_, ?_, e2, ?_, ?_, ?_, e3⟩
    · simp only [V3.cross]; ring
    · linarith
    · simp only [V3.cross]; ring
    · simp only [V3.cross]; ring
    · simp only [V3.cross]; ring
  · rw [← e3]
    simp only [M3.det, V3.cross]; ring

/-- a vector in its components -/
theorem Frame.components {x y : V3} (h : Frame x y) (u : V3) : u = (x.dot u) • x + (y.dot u) • y + ((x.cross y).dot u) • x.cross y := by
  have := M3.mulVec_transpose h.rotation u
  conv_lhs => rw [← this]
  ext <;> simp [M3.mulVec, M3.transpose, V3.dot] <;> ring

theorem columns_ok {eps : ℝ} (he : 0 < eps) {x y : V3} (h : Frame x y) :
    RotMat.Columns eps (some x) (some y) (some (x.cross y)) =
      .ok ⟨x.x, y.x, (x.cross y).x, x.y, y.y, (x.cross y).y, x.z, y.z, (x.cross y).z⟩ := by
  have e1 : y.dot (x.cross y) = 0 := by simp only [V3.dot, V3.cross]; ring
  have e2 : (x.cross y).dot x = 0 := by simp only [V3.dot, V3.cross]; ring
  have hc : RotMat.checkTriple eps x y (x.cross y) = .ok ⟨⟩ := by
    have := not_lt.2 he.le
    simp [RotMat.checkTriple, h.hx, h.hy, h.unit, h.hxy, e1, e2, this]
  simp only [RotMat.Columns, need, bind, Except.bind, hc]
  exact RotMat.mk_of_isRotation he h.rotation

theorem base_normal {P : Polygon2} (hP : P.isDefined = true) (o : V3) {x y : V3} (h : Frame x y) :
    Polygon3.getNormalVector ⟨P, some o, some x, some y⟩ = .ok (x.cross y) := by
  simp [Polygon3.getNormalVector, polygon3_defined hP, need, bind, Except.bind, pure, Except.pure,
    V3.normalized_of_unit (V3.normSq_of_unit h.unit)]

theorem inBaseFrame_ok {eps : ℝ} (he : 0 < eps) {P : Polygon2} (hP : P.isDefined = true) (o : V3) {x y : V3} (h : Frame x y) (w : V3) :
    Pyramid3.inBaseFrame eps ⟨P, some o, some x, some y⟩ (some w) = .ok ⟨x.dot (w - o), y.dot (w - o)⟩ := by
  have hd := polygon3_defined hP o x y
  have ho : Polygon3.getOrigin ⟨P, some o, some x, some y⟩ = .ok o := by simp [Polygon3.getOrigin, hd, need]
  have hx : Polygon3.getXAxis ⟨P, some o, some x, some y⟩ = .ok x := by simp [Polygon3.getXAxis, hd, need]
  have hy : Polygon3.getYAxis ⟨P, some o, some x, some y⟩ = .ok y := by simp [Polygon3.getYAxis, hd, need]
  simp only [Pyramid3.inBaseFrame, ho, hx, hy, base_normal hP o h, columns_ok he h, bind, Except.bind]
  simp [T3.Translation, T3.RotationOfMatrix, need, bind, Except.bind, pure, Except.pure, T3.mul, T3.isDefined, T3.applyTo, T3.head,
    Matrix.mulVec, dotProduct, Fin.sum_univ_four, Matrix.mul_apply, V3.dot]
  constructor <;> ring

/-! ## Points -/

theorem raySet_self (a d : V3) : a ∈ RaySet a d := ⟨0, le_rfl, by ext <;> simp⟩

/-- the answer of `contains` for a point that is not the apex -/
theorem pyramid_contains_eq {eps : ℝ} (he : 0 < eps) {B : Boost} {P : Polygon2} (hP : P.isDefined = true) {R : Set V2}
    (hB : ∀ v, ∃ b, B.coveredBy v P = .ok b ∧ (b = true ↔ v ∈ R)) {o x y : V3} (h : Frame x y) {a p : V3} (hpa : p ≠ a) :
    ((x.cross y).dot (o - a) = 0 → (x.cross y).dot (p - a) = 0 →
      Pyramid3.contains eps B ⟨⟨P, some o, some x, some y⟩, some a⟩ (some p) = .error .runtimeError) ∧
    ((x.cross y).dot (o - a) ≠ 0 ∨ (x.cross y).dot (p - a) ≠ 0 → ∃ b, Pyramid3.contains eps B ⟨⟨P, some o, some x, some y⟩, some a⟩ (some p) = .ok b ∧
      (b = true ↔ (RaySet a (p - a) ∩ BaseSet o x y R).Nonempty)) := by
  have hd := polygon3_defined hP o x y
  have hd' : Pyramid3.isDefined ⟨⟨P, some o, some x, some y⟩, some a⟩ = true := by simp [Pyramid3.isDefined, hd]
  have hne : P3.eq (some p) (some a) = false := by
    rw [Bool.eq_false_iff]
    intro hh
    exact hpa (P3.eq_iff.1 hh)
  have ho : Polygon3.getOrigin ⟨P, some o, some x, some y⟩ = .ok o := by simp [Polygon3.getOrigin, hd, need]
  have hpa0 : p - a ≠ 0 := fun e => hpa (V3.sub_eq_zero'.1 e)
  obtain ⟨u, hu, hu1, hu2, -⟩ := (C44_constructor a (p - a)).2 hpa0
  have hk : 0 < (p - a).norm := V3.norm_pos_of_ne hpa0
  have hn := h.unit
  have hplane : Plane3.ctor (some o) (some (x.cross y)) = ⟨some o, some (x.cross y)⟩ := by
    simp [Plane3.ctor, V3.normalized_of_unit (V3.normSq_of_unit hn)]
  have hnp : (x.cross y).dot (p - a) = (p - a).norm * (x.cross y).dot u := by
    conv_lhs => rw [hu2]
    rw [V3.dot_smul]
  have hbase : ∀ q ∈ BaseSet o x y R, (x.cross y).dot (q - o) = 0 := by
    rintro q ⟨v, -, rfl⟩
    simp only [V3.dot, V3.cross, V3.sub_x, V3.sub_y, V3.sub_z, V3.add_x, V3.add_y, V3.add_z, V3.smul_x, V3.smul_y, V3.smul_z]; ring
  have hstep : Pyramid3.contains eps B ⟨⟨P, some o, some x, some y⟩, some a⟩ (some p) =
      (do
        let i ← Ray3.intersectionWith ⟨some a, some u⟩ ⟨some o, some (x.cross y)⟩
        if i.isEmpty then return false
        if !i.isDefined then .error .undefined
        match i.composite.objects with
        | [.point w] => do
          let v ← Pyramid3.inBaseFrame eps ⟨P, some o, some x, some y⟩ w
          let base ← Polygon3.getPolygon2d ⟨P, some o, some x, some y⟩
          base.contains B (some v)
        | _ => .error .runtimeError : Res Bool) := by
    simp only [Pyramid3.contains, Option.isNone_some, Bool.false_eq_true, if_false, hd', Bool.not_true, hne, need, hu, ho, base_normal hP o h, hplane, bind,
      Except.bind]
    rfl
  have hisect : Ray3.intersectionWith ⟨some a, some u⟩ ⟨some o, some (x.cross y)⟩ = .ok (if (x.cross y).dot u = 0 then
      if (x.cross y).dot (o - a) = 0 then .Ray ⟨some a, some u⟩ else .Empty
    else if (x.cross y).dot (o - a) / (x.cross y).dot u < 0 then .Empty
    else .Point (some (a + ((x.cross y).dot (o - a) / (x.cross y).dot u) • u))) := rfl
  rw [hstep, hisect]
  -- a common point of the ray and the base
  have meet : ∀ t : ℝ, a + t • (p - a) ∈ BaseSet o x y R → t * (x.cross y).dot (p - a) = (x.cross y).dot (o - a) := by
    intro t ht
    have := hbase _ ht
    simp only [V3.dot, V3.sub_x, V3.sub_y, V3.sub_z, V3.add_x, V3.add_y, V3.add_z, V3.smul_x, V3.smul_y, V3.smul_z] at this ⊢
    linear_combination this
  constructor
  · intro h1 h2
    have : (x.cross y).dot u = 0 := by
      rw [hnp] at h2
      rcases mul_eq_zero.1 h2 with h2 | h2
      · exact absurd h2 hk.ne'
      · exact h2
    simp [this, h1, bind, Except.bind, Isect3.Ray, Isect3.isEmpty, Isect3.isDefined, Composite3.ofObject]
  · intro hor
    by_cases hz : (x.cross y).dot u = 0
    · have hz' : (x.cross y).dot (p - a) = 0 := by rw [hnp, hz, mul_zero]
      have ho' : (x.cross y).dot (o - a) ≠ 0 := hor.resolve_right (fun hh => hh hz')
      refine ⟨false, by simp [hz, ho', bind, Except.bind, Isect3.Empty, Isect3.ofArray, Isect3.isEmpty, IType3.ofObjects, pure, Except.pure], ?_⟩
      simp only [Bool.false_eq_true, false_iff]
      rintro ⟨q, ⟨t, -, rfl⟩, hq⟩
      have := meet t hq
      rw [hz', mul_zero] at this
      exact ho' this.symm
    · have hz' : (x.cross y).dot (p - a) ≠ 0 := by rw [hnp]; exact mul_ne_zero hk.ne' hz
      by_cases hneg : (x.cross y).dot (o - a) / (x.cross y).dot u < 0
      · refine ⟨false, by simp [hz, hneg, bind, Except.bind, Isect3.Empty, Isect3.ofArray, Isect3.isEmpty, IType3.ofObjects, pure, Except.pure], ?_⟩
        simp only [Bool.false_eq_true, false_iff]
        rintro ⟨q, ⟨t, ht, rfl⟩, hq⟩
        have := meet t hq
        rw [hnp] at this
        rw [← this, ← mul_assoc, mul_div_assoc, div_self hz, mul_one] at hneg
        exact absurd hneg (not_lt.2 (mul_nonneg ht hk.le))
      · set k := (x.cross y).dot (o - a) / (x.cross y).dot u with hkdef
        have hk0 : 0 ≤ k := not_lt.1 hneg
        set w := a + k • u with hw
        obtain ⟨b, hb1, hb2⟩ := hB ⟨x.dot (w - o), y.dot (w - o)⟩
        have hwray : w = a + (k / (p - a).norm) • (p - a) := by
          have e : ∀ (N : ℝ) (d : V3), 0 < N → d = N • u → a + k • u = a + (k / N) • d := by
            rintro N d hN rfl
            ext <;> simp <;> field_simp
          exact e _ _ hk hu2
        refine ⟨b, ?_, ?_⟩
        · simp only [hz, if_false, hneg, bind, Except.bind]
          simp [Isect3.Point, Isect3.isEmpty, Isect3.isDefined, Composite3.ofObject, inBaseFrame_ok he hP o h, Polygon3.getPolygon2d, hd, Polygon2.contains, need,
            hP, bind, Except.bind, rethrow, hb1, pure, Except.pure]
        · rw [hb2]
          have hwn : (x.cross y).dot (w - o) = 0 := by
            have e : (x.cross y).dot (w - o) = k * (x.cross y).dot u - (x.cross y).dot (o - a) := by
              rw [hw]
              simp only [V3.dot, V3.sub_x, V3.sub_y, V3.sub_z, V3.add_x, V3.add_y, V3.add_z, V3.smul_x, V3.smul_y, V3.smul_z]; ring
            rw [e, hkdef, div_mul_cancel₀ _ hz, sub_self]
          constructor
          · intro hR
            refine ⟨w, ⟨k / (p - a).norm, div_nonneg hk0 hk.le, hwray⟩, ⟨x.dot (w - o), y.dot (w - o)⟩, hR, ?_⟩
            have hc := h.components (w - o)
            rw [hwn] at hc
            have e : w = o + (w - o) := by ext <;> simp
            conv_lhs => rw [e, hc]
            ext <;> simp
          · rintro ⟨q, ⟨t, ht, rfl⟩, hq⟩
            have ht' := meet t hq
            have htk : t * (p - a).norm = k := by
              rw [hkdef, eq_div_iff hz, ← ht', hnp]; ring
            have hqw : a + t • (p - a) = w := by
              rw [hwray, ← htk]
              congr 2; field_simp
            rw [hqw] at hq
            obtain ⟨v, hv, e⟩ := hq
            have e1 : x.dot (w - o) = v.x := by
              have a1 := V3.normSq_of_unit h.hx
              have a2 := h.hxy
              rw [e]
              simp only [V3.normSq, V3.dot, V3.sub_x, V3.sub_y, V3.sub_z, V3.add_x, V3.add_y, V3.add_z, V3.smul_x, V3.smul_y, V3.smul_z] at a1 a2 ⊢
              linear_combination v.x * a1 + v.y * a2
            have e2 : y.dot (w - o) = v.y := by
              have a1 := V3.normSq_of_unit h.hy
              have a2 := h.hxy
              rw [e]
              simp only [V3.normSq, V3.dot, V3.sub_x, V3.sub_y, V3.sub_z, V3.add_x, V3.add_y, V3.add_z, V3.smul_x, V3.smul_y, V3.smul_z] at a1 a2 ⊢
              linear_combination v.y * a1 + v.x * a2
            rw [e1, e2]; exact hv

/-- **C60.** A pyramid whose apex is not in the plane of its base contains a point exactly if the point is the apex or the ray from the apex through the
point meets the base. `R` is the region of the base polygon as the geometry library sees it. -/
theorem C60_contains (eps : ℝ) (he : 0 < eps) (B : Boost) (P : Polygon2) (hP : P.isDefined = true) (R : Set V2)
    (hB : ∀ v, ∃ b, B.coveredBy v P = .ok b ∧ (b = true ↔ v ∈ R)) (o x y : V3) (h : Frame x y) (a : V3) (ha : (x.cross y).dot (o - a) ≠ 0) (p : V3) :
    ∃ b, Pyramid3.contains eps B ⟨⟨P, some o, some x, some y⟩, some a⟩ (some p) = .ok b ∧ (b = true ↔ p ∈ PyramidSet a (BaseSet o x y R)) := by
  by_cases hpa : p = a
  · subst hpa
    refine ⟨true, ?_, by simp [PyramidSet]⟩
    simp [Pyramid3.contains, Pyramid3.isDefined, polygon3_defined hP, P3.eq_iff.2 rfl]
  · obtain ⟨b, h1, h2⟩ := (pyramid_contains_eq he hP hB (o := o) h hpa).2 (.inl ha)
    exact ⟨b, h1, by rw [h2]; simp [PyramidSet, hpa]⟩

/-- **C60.** A pyramid with its apex in the plane of the base is answered for the points off that plane only, and it has either none or all of them; the base
need not be contained. -/
theorem C60_flat_partial (eps : ℝ) (he : 0 < eps) (B : Boost) (P : Polygon2) (hP : P.isDefined = true) (R : Set V2)
    (hB : ∀ v, ∃ b, B.coveredBy v P = .ok b ∧ (b = true ↔ v ∈ R)) (o x y : V3) (h : Frame x y) (a : V3) (ha : (x.cross y).dot (o - a) = 0) (p : V3)
    (hp : p ≠ a) :
    ((x.cross y).dot (p - a) = 0 → Pyramid3.contains eps B ⟨⟨P, some o, some x, some y⟩, some a⟩ (some p) = .error .runtimeError) ∧
    ((x.cross y).dot (p - a) ≠ 0 → ∃ b, Pyramid3.contains eps B ⟨⟨P, some o, some x, some y⟩, some a⟩ (some p) = .ok b ∧
      (b = true ↔ a ∈ BaseSet o x y R)) := by
  refine ⟨(pyramid_contains_eq he hP hB h hp).1 ha, fun hn => ?_⟩
  obtain ⟨b, h1, h2⟩ := (pyramid_contains_eq he hP hB (o := o) h hp).2 (.inr hn)
  refine ⟨b, h1, h2.trans ⟨?_, fun hh => ⟨a, raySet_self _ _, hh⟩⟩⟩
  rintro ⟨q, ⟨t, -, rfl⟩, v, hv, e⟩
  have : t * (x.cross y).dot (p - a) = 0 := by
    rw [← ha]
    have e1 := congrArg V3.x e
    have e2 := congrArg V3.y e
    have e3 := congrArg V3.z e
    simp only [V3.add_x, V3.add_y, V3.add_z, V3.smul_x, V3.smul_y, V3.smul_z, V3.sub_x, V3.sub_y, V3.sub_z] at e1 e2 e3
    simp only [V3.dot, V3.cross, V3.sub_x, V3.sub_y, V3.sub_z]
    linear_combination (x.y * y.z - x.z * y.y) * e1 + (x.z * y.x - x.x * y.z) * e2 + (x.x * y.y - x.y * y.x) * e3
  rcases mul_eq_zero.1 this with rfl | h0
  · refine ⟨v, hv, ?_⟩
    rw [← e]; ext <;> simp
  · exact absurd h0 hn

/-- **C60 violated.** A base with a zero axis is accepted by the constructor of polygons, but every point other than the apex is refused as belonging to a
degenerate pyramid. -/
theorem C60_null_violated (eps : ℝ) (B : Boost) (P : Polygon2) (hP : P.isDefined = true) (o y a p : V3) (hp : p ≠ a) :
    Pyramid3.contains eps B ⟨⟨P, some o, some 0, some y⟩, some a⟩ (some p) = .error .runtimeError ∧
    Pyramid3.contains eps B ⟨⟨P, some o, some y, some 0⟩, some a⟩ (some p) = .error .runtimeError := by
  have hne : P3.eq (some p) (some a) = false := by
    rw [Bool.eq_false_iff]
    intro hh
    exact hp (P3.eq_iff.1 hh)
  obtain ⟨u, hu, -, -, -⟩ := (C44_constructor a (p - a)).2 (fun e => hp (V3.sub_eq_zero'.1 e))
  have c1 : V3.cross 0 y = 0 := by ext <;> simp
  have c2 : V3.cross y 0 = 0 := by ext <;> simp
  have c3 : V3.normalized 0 = 0 := by simp [V3.normalized, V3.normSq, V3.dot]
  have c4 : ∀ w : V3, V3.dot 0 w = 0 := fun w => by simp [V3.dot]
  constructor <;>
    simp [Pyramid3.contains, Pyramid3.isDefined, polygon3_defined hP, hne, need, hu, bind, Except.bind, Polygon3.getOrigin, Polygon3.getNormalVector, c1, c2, c3, c4, pure,
      Except.pure, Plane3.ctor, Ray3.intersectionWith, Isect3.isEmpty, Isect3.Ray, Isect3.isDefined, Composite3.ofObject]

theorem pyramid_param {o x y a p : V3} {R : Set V2} (ha : (x.cross y).dot (o - a) ≠ 0) (hp : p ∈ PyramidSet a (BaseSet o x y R)) :
    p = a ∨ ∃ k : ℝ, 0 < k ∧ ∃ v ∈ R, p = a + k • (inFrame o x y v - a) := by
  rcases hp with rfl | ⟨q, ⟨t, ht, rfl⟩, v, hv, e⟩
  · exact .inl rfl
  · have ht0 : t ≠ 0 := by
      rintro rfl
      apply ha
      have e1 := congrArg V3.x e
      have e2 := congrArg V3.y e
      have e3 := congrArg V3.z e
      simp at e1 e2 e3
      simp only [V3.dot, V3.cross, V3.sub_x, V3.sub_y, V3.sub_z]
      linear_combination (-(x.y * y.z - x.z * y.y)) * e1 - (x.z * y.x - x.x * y.z) * e2 - (x.x * y.y - x.y * y.x) * e3
    have htp : 0 < t := lt_of_le_of_ne ht (Ne.symm ht0)
    refine .inr ⟨1 / t, by positivity, v, hv, ?_⟩
    have e' : inFrame o x y v = a + t • (p - a) := e.symm
    rw [e']
    ext <;> simp <;> field_simp <;> ring

theorem param_pyramid {o x y a : V3} {R : Set V2} {k : ℝ} (hk : 0 ≤ k) {v : V2} (hv : v ∈ R) :
    a + k • (inFrame o x y v - a) ∈ PyramidSet a (BaseSet o x y R) := by
  rcases hk.eq_or_lt with rfl | hk
  · left; ext <;> simp
  · right
    refine ⟨inFrame o x y v, ⟨1 / k, by positivity, ?_⟩, v, hv, rfl⟩
    ext <;> simp <;> field_simp <;> ring

theorem pyramid_convex {o x y a : V3} {R : Set V2} (hR : ConvexRegion R) (ha : (x.cross y).dot (o - a) ≠ 0) {p q : V3}
    (hp : p ∈ PyramidSet a (BaseSet o x y R)) (hq : q ∈ PyramidSet a (BaseSet o x y R)) : SegSet p q ⊆ PyramidSet a (BaseSet o x y R) := by
  have main : ∀ (k l : ℝ) (v w : V2), 0 ≤ k → 0 ≤ l → v ∈ R → w ∈ R → p = a + k • (inFrame o x y v - a) → q = a + l • (inFrame o x y w - a) →
      SegSet p q ⊆ PyramidSet a (BaseSet o x y R) := by
    rintro k l v w hk hl hv hw rfl rfl r ⟨s, s0, s1, rfl⟩
    have hs : 0 ≤ 1 - s := by linarith
    have h1 : 0 ≤ (1 - s) * k := mul_nonneg hs hk
    have h2 : 0 ≤ s * l := mul_nonneg s0 hl
    by_cases hm : (1 - s) * k + s * l = 0
    · left
      have e1 : (1 - s) * k = 0 := by linarith
      have e2 : s * l = 0 := by linarith
      ext <;> simp
      · linear_combination ((inFrame o x y v).x - a.x) * e1 + ((inFrame o x y w).x - a.x) * e2
      · linear_combination ((inFrame o x y v).y - a.y) * e1 + ((inFrame o x y w).y - a.y) * e2
      · linear_combination ((inFrame o x y v).z - a.z) * e1 + ((inFrame o x y w).z - a.z) * e2
    · have hm' : 0 < (1 - s) * k + s * l := lt_of_le_of_ne (by linarith) (Ne.symm hm)
      have hc := hR v hv w hw (s * l / ((1 - s) * k + s * l)) (by positivity) (by rw [div_le_one hm']; linarith)
      have := param_pyramid (o := o) (x := x) (y := y) (a := a) hm'.le hc
      convert this using 1
      have e : 1 - s * l / ((1 - s) * k + s * l) = (1 - s) * k / ((1 - s) * k + s * l) := by field_simp; ring
      rw [e]
      generalize hM : (1 - s) * k + s * l = M at *
      ext <;> simp [inFrame] <;> field_simp <;> rw [← hM] <;> ring
  rcases pyramid_param ha hp with hpa | ⟨k, hk, v, hv, e1⟩ <;> rcases pyramid_param ha hq with hqa | ⟨l, hl, w, hw, e2⟩
  · rintro r ⟨s, s0, s1, rfl⟩
    left
    rw [hpa, hqa]; ext <;> simp
  · exact main 0 l w w le_rfl hl.le hw hw (by rw [hpa]; ext <;> simp) e2
  · exact main k 0 v v hk.le le_rfl hv hv e1 (by rw [hqa]; ext <;> simp)
  · exact main k l v w hk.le hl.le hv hw e1 e2

/-- **C60.** The set of contained points is closed under scaling from the apex and contains the base. If the base is convex it is convex, and `contains (Segment)`
is exact. Point sets are contained exactly if all of their points are. -/
theorem C60_solid (eps : ℝ) (he : 0 < eps) (B : Boost) (P : Polygon2) (hP : P.isDefined = true) (R : Set V2)
    (hB : ∀ v, ∃ b, B.coveredBy v P = .ok b ∧ (b = true ↔ v ∈ R)) (o x y : V3) (h : Frame x y) (a : V3) (ha : (x.cross y).dot (o - a) ≠ 0) :
    let c := Pyramid3.contains eps B ⟨⟨P, some o, some x, some y⟩, some a⟩
    (∀ (p : V3) (k : ℝ), 0 ≤ k → c (some p) = .ok true → c (some (a + k • (p - a))) = .ok true) ∧
    (∀ v ∈ R, c (some (o + (v.x • x + v.y • y))) = .ok true) ∧ c (some a) = .ok true ∧
    (ConvexRegion R → ∀ p q : V3,
      (c (some p) = .ok true → c (some q) = .ok true → ∀ r ∈ SegSet p q, c (some r) = .ok true) ∧
      ∃ b, Pyramid3.containsSegment eps B ⟨⟨P, some o, some x, some y⟩, some a⟩ ⟨some p, some q⟩ = .ok b ∧
        (b = true ↔ SegSet p q ⊆ PyramidSet a (BaseSet o x y R))) ∧
    (∀ ps : List V3, ∃ b, Pyramid3.containsSet eps B ⟨⟨P, some o, some x, some y⟩, some a⟩ (ps.map some) = .ok b ∧
      (b = true ↔ ∀ p ∈ ps, p ∈ PyramidSet a (BaseSet o x y R))) := by
  intro c
  have key : ∀ p, c (some p) = .ok true ↔ p ∈ PyramidSet a (BaseSet o x y R) := by
    intro p
    obtain ⟨b, h1, h2⟩ := C60_contains eps he B P hP R hB o x y h a ha p
    rw [show c (some p) = _ from h1, Except.ok.injEq]; exact h2
  refine ⟨?_, ?_, (key a).2 (.inl rfl), ?_, ?_⟩
  · intro p k hk hp
    rw [key] at hp ⊢
    rcases pyramid_param ha hp with rfl | ⟨l, hl, v, hv, rfl⟩
    · left; ext <;> simp
    · have := param_pyramid (o := o) (x := x) (y := y) (a := a) (mul_nonneg hk hl.le) hv
      convert this using 1
      ext <;> simp <;> ring
  · intro v hv
    rw [key]
    have := param_pyramid (o := o) (x := x) (y := y) (a := a) zero_le_one hv
    convert this using 1
    ext <;> simp [inFrame]
  · intro hR p q
    constructor
    · intro hp hq r hr
      rw [key] at hp hq ⊢
      exact pyramid_convex hR ha hp hq hr
    · have hpm : p ∈ SegSet p q := ⟨0, le_rfl, zero_le_one, by ext <;> simp⟩
      have hqm : q ∈ SegSet p q := ⟨1, zero_le_one, le_rfl, by ext <;> simp⟩
      obtain ⟨b, h1, h2⟩ := C60_contains eps he B P hP R hB o x y h a ha p
      obtain ⟨b', h3, h4⟩ := C60_contains eps he B P hP R hB o x y h a ha q
      cases b with
      | false =>
        refine ⟨false, by simp [Pyramid3.containsSegment, Seg3.isDefined, bind, Except.bind, h1, pure, Except.pure], ?_⟩
        simp only [Bool.false_eq_true, false_iff] at h2 ⊢
        exact fun hh => h2 (hh hpm)
      | true =>
        refine ⟨b', by simp [Pyramid3.containsSegment, Seg3.isDefined, bind, Except.bind, h1, h3], ?_⟩
        rw [h4]
        exact ⟨fun hq => pyramid_convex hR ha (h2.1 rfl) hq, fun hh => hh hqm⟩
  · intro ps
    obtain ⟨b, h1, h2⟩ := allOf_true (f := c) (l := ps.map some) (g := fun p => ∃ q, p = some q ∧ q ∈ PyramidSet a (BaseSet o x y R)) (by
      intro p hp
      obtain ⟨q, -, rfl⟩ := List.mem_map.1 hp
      obtain ⟨b, h1, h2⟩ := C60_contains eps he B P hP R hB o x y h a ha q
      exact ⟨b, h1, by rw [h2]; simp⟩)
    refine ⟨b, ?_, ?_⟩
    · simp [Pyramid3.containsSet, Pyramid3.isDefined, polygon3_defined hP]
      exact h1
    · rw [h2]; simp

/-- the pyramid over the unit square of the plane `z = 1` with its apex in the origin -/
example : ∃ (B : Boost) (P : Polygon2) (R : Set V2) (o x y a : V3), P.isDefined = true ∧ (∀ v, ∃ b, B.coveredBy v P = .ok b ∧ (b = true ↔ v ∈ R)) ∧
    Frame x y ∧ (x.cross y).dot (o - a) ≠ 0 ∧ ConvexRegion R ∧ R.Nonempty ∧ R ≠ Set.univ := by
  refine ⟨{ sampleBoost with coveredBy := fun v _ => .ok (decide (0 ≤ v.x ∧ v.x ≤ 1 ∧ 0 ≤ v.y ∧ v.y ≤ 1)) }, ⟨[0, 0, 0, 0], []⟩,
    {v | 0 ≤ v.x ∧ v.x ≤ 1 ∧ 0 ≤ v.y ∧ v.y ≤ 1}, V3.Z, V3.X, V3.Y, 0, rfl, fun v => ⟨_, rfl, by simp⟩, ⟨?_, ?_, ?_⟩, ?_, ?_, ?_, ?_⟩
  · exact V3.norm_of_normSq_one (by norm_num [V3.normSq, V3.dot, V3.X])
  · exact V3.norm_of_normSq_one (by norm_num [V3.normSq, V3.dot, V3.Y])
  · norm_num [V3.dot, V3.X, V3.Y]
  · norm_num [V3.dot, V3.X, V3.Y, V3.Z, V3.cross]
  · rintro v ⟨a1, a2, a3, a4⟩ w ⟨b1, b2, b3, b4⟩ s s0 s1
    have hs : 0 ≤ 1 - s := by linarith
    refine ⟨?_, ?_, ?_, ?_⟩ <;> simp
    · positivity
    · nlinarith
    · positivity
    · nlinarith
  · exact ⟨0, by simp⟩
  · intro e
    have : (⟨2, 0⟩ : V2) ∈ {v : V2 | 0 ≤ v.x ∧ v.x ≤ 1 ∧ 0 ≤ v.y ∧ v.y ≤ 1} := by rw [e]; trivial
    norm_num at this

/-- **C60.** A moved pyramid contains the moved points and no other. -/
theorem C60_moved (eps : ℝ) (h0 : 0 < eps) (h1 : eps ≤ 1) (t : T3) (ht : Built3 eps t) (B : Boost) (P : Polygon2) (hP : P.isDefined = true) (R : Set V2)
    (hB : ∀ v, ∃ b, B.coveredBy v P = .ok b ∧ (b = true ↔ v ∈ R)) (o x y : V3) (h : Frame x y) (a : V3) (ha : (x.cross y).dot (o - a) ≠ 0) :
    ∃ (f : V3 → V3) (p' : Pyramid3), Moves t f ∧ KeepsDistances f ∧
      Pyramid3.applyTransformation t ⟨⟨P, some o, some x, some y⟩, some a⟩ = .ok p' ∧ p'.isDefined = true ∧ p'.getApex = .ok (f a) ∧
      (∀ q b, p'.contains eps B (some (f q)) = .ok b ↔ Pyramid3.contains eps B ⟨⟨P, some o, some x, some y⟩, some a⟩ (some q) = .ok b) ∧
      p'.getLateralFaceCount = Pyramid3.getLateralFaceCount ⟨⟨P, some o, some x, some y⟩, some a⟩ := by
  obtain ⟨l, v, s⟩ := built3_shape h0 h1 ht
  have hl := s.1
  have hd := polygon3_defined hP o x y
  have hd' := polygon3_defined hP (move l v o) (l.mulVec x) (l.mulVec y)
  have hF : Frame (l.mulVec x) (l.mulVec y) := ⟨by rw [M3.mulVec_norm hl, h.hx], by rw [M3.mulVec_norm hl, h.hy], by rw [M3.mulVec_dot hl, h.hxy]⟩
  have ha' : ((l.mulVec x).cross (l.mulVec y)).dot (move l v o - move l v a) ≠ 0 := by
    rw [M3.mulVec_cross hl, move_sub, M3.mulVec_dot hl]; exact ha
  refine ⟨move l v, ⟨⟨P, some (move l v o), some (l.mulVec x), some (l.mulVec y)⟩, some (move l v a)⟩, shape_moves s |>.1, ?_, ?_, ?_, ?_, ?_, ?_⟩
  · intro p q; rw [move_sub, M3.mulVec_norm hl]
  · have hm : ∀ p : V3, t.applyTo (some p) = .ok (some (move l v p)) := (shape_moves s).1
    simp [Pyramid3.applyTransformation, shape_defined s, Pyramid3.isDefined, hd, Polygon3.applyTransformation, hm, shape_vector s, bind, Except.bind, pure,
      Except.pure, P3.applyTransformation]
  · simp [Pyramid3.isDefined, hd']
  · simp [Pyramid3.getApex, Pyramid3.isDefined, hd', need]
  · intro q b
    obtain ⟨b1, e1, e2⟩ := C60_contains eps h0 B P hP R hB o x y h a ha q
    obtain ⟨b2, e3, e4⟩ := C60_contains eps h0 B P hP R hB _ _ _ hF _ ha' (move l v q)
    rw [e1, e3, Except.ok.injEq, Except.ok.injEq]
    have : (move l v q ∈ PyramidSet (move l v a) (BaseSet (move l v o) (l.mulVec x) (l.mulVec y) R)) ↔ q ∈ PyramidSet a (BaseSet o x y R) := by
      constructor
      · intro hq
        rcases pyramid_param ha' hq with e | ⟨k, hk, w, hw, e⟩
        · left; exact move_injective hl e
        · have e' : q = a + k • (inFrame o x y w - a) := by
            apply move_injective hl (v := v)
            rw [e, inFrame_moved, move_sub]
            ext <;> simp [move, M3.mulVec] <;> ring
          rw [e']; exact param_pyramid hk.le hw
      · intro hq
        rcases pyramid_param ha hq with rfl | ⟨k, hk, w, hw, rfl⟩
        · left; rfl
        · have := param_pyramid (o := move l v o) (x := l.mulVec x) (y := l.mulVec y) (a := move l v a) hk.le hw
          convert this using 1
          rw [inFrame_moved, move_sub]
          ext <;> simp [move, M3.mulVec] <;> ring
    have hbb : b1 = b2 := by rw [Bool.eq_iff_iff, e2, e4, this]
    rw [hbb]
  · simp [Pyramid3.getLateralFaceCount, Pyramid3.isDefined, hd, hd', Polygon3.getEdgeCount]

/-- **C60.** Undefined points and pyramids are refused; ellipsoids always are. An empty point set is contained. -/
theorem C60_undefined (eps : ℝ) (B : Boost) (p : Pyramid3) (q : Option V3) (e : Ellipsoid3) (t : T3) :
    (p.isDefined = false ∨ q = none → p.contains eps B q = .error .undefined) ∧
    (p.isDefined = false → p.containsSet eps B [q] = .error .undefined ∧ p.getApex = .error .undefined ∧ p.getBase = .error .undefined ∧
      p.getLateralFaceCount = .error .undefined ∧ p.getLateralFaceAt eps 0 = .error .undefined ∧ p.applyTransformation t = .error .undefined ∧
      p.getRaysOfLateralFaces eps 0 = .error .undefined ∧ p.eq B p = false) ∧
    (∀ b, p.containsEllipsoid e ≠ .ok b) ∧ (p.isDefined = true → p.containsSet eps B [] = .ok true) := by
  refine ⟨?_, ?_, ?_, ?_⟩
  · rintro (h | rfl)
    · cases q <;> simp [Pyramid3.contains, h]
    · simp [Pyramid3.contains]
  · intro h
    refine ⟨by simp [Pyramid3.containsSet, h], by simp [Pyramid3.getApex, h], by simp [Pyramid3.getBase, h], by simp [Pyramid3.getLateralFaceCount, h],
      by simp [Pyramid3.getLateralFaceAt, h], ?_, by simp [Pyramid3.getRaysOfLateralFaces, Pyramid3.getLateralFaceCount, h, bind, Except.bind],
      by simp [Pyramid3.eq, h]⟩
    simp [Pyramid3.applyTransformation, h]
  · intro b
    simp only [Pyramid3.containsEllipsoid]
    split_ifs <;> simp
  · intro h
    simp [Pyramid3.containsSet, h, allOf]

example : Pyramid3.Undefined.isDefined = false := rfl

end Verif.Props
