import Verif.Lemmas.Transformation
import Verif.Props.Angle
import Verif.Props.RotationMatrix

/-!
# The shape of the transformations built from the factories, by induction on how they were built
-/

namespace Verif.Props

open Verif Verif.Spec

set_option linter.flexible false

/-- A transformation obtained from the 3D factories by products and inverses. The axis of a rotation vector is a unit vector (`C27_axis_unit`);
a rotation matrix is assumed to be a proper rotation, which its constructor does not guarantee (`C35_not_proper`). -/
inductive Built3 (eps : ℝ) : T3 → Prop
  | identity : Built3 eps T3.Identity
  | translation (v : Option V3) (t : T3) : T3.Translation v = .ok t → Built3 eps t
  | rotationVector (r : RotVec) (t : T3) : (∀ a, r.axis = some a → a.norm = 1) → T3.Rotation eps r = .ok t → Built3 eps t
  | rotationMatrix (m : M3) (t : T3) : IsRotation m → T3.RotationOfMatrix (some m) = .ok t → Built3 eps t
  | rotationAround (p : Option V3) (r : RotVec) (t : T3) : (∀ a, r.axis = some a → a.norm = 1) → T3.RotationAround eps p r = .ok t →
      Built3 eps t
  | mul (a b t : T3) : Built3 eps a → Built3 eps b → a.mul b = .ok t → Built3 eps t
  | inverse (a t : T3) : Built3 eps a → a.getInverse = .ok t → Built3 eps t

/-- A transformation obtained from the 2D factories by products and inverses. -/
inductive Built2 : T2 → Prop
  | identity : Built2 T2.Identity
  | translation (v : Option V2) (t : T2) : T2.Translation v = .ok t → Built2 t
  | rotation (a : Angle) (t : T2) : T2.Rotation a = .ok t → Built2 t
  | rotationAround (p : Option V2) (a : Angle) (t : T2) : T2.RotationAround p a = .ok t → Built2 t
  | matrix (m : Matrix (Fin 3) (Fin 3) ℝ) (t : T2) : T2.ctor (some m) = .ok t → Built2 t
  | mul (a b t : T2) : Built2 a → Built2 b → a.mul b = .ok t → Built2 t
  | inverse (a t : T2) : Built2 a → a.getInverse = .ok t → Built2 t

/-- What the label of a 3D transformation says about its matrix. -/
def Truthful (t : TType) (l : M3) (v : V3) : Prop :=
  t ≠ .undefined ∧ (t = .identity → l = M3.one ∧ v = 0) ∧ (t = .translation → l = M3.one) ∧ (t = .rotation → v = 0) ∧
    t ≠ .scaling ∧ t ≠ .reflection ∧ t ≠ .shear

theorem truthful_mul {t u : TType} {l k : M3} {v w : V3} (h : Truthful t l v) (h' : Truthful u k w) :
    Truthful (t.compose u) (l.mul k) (l.mulVec w + v) := by
  obtain ⟨a1, a2, a3, a4, a5, a6, a7⟩ := h
  obtain ⟨b1, b2, b3, b4, b5, b6, b7⟩ := h'
  have z : ∀ m : M3, m.mulVec 0 + 0 = 0 := fun m => by ext <;> simp [M3.mulVec]
  have z' : ∀ x : V3, (0 : V3) + x = x := fun m => by ext <;> simp
  have z'' : ∀ m : M3, m.mulVec 0 = 0 := fun m => by ext <;> simp [M3.mulVec]
  cases t <;> cases u <;> simp [Truthful, TType.compose] at * <;>
    simp_all [M3.one_mul', M3.mul_one', M3.one_mulVec]

theorem truthful_inv {t : TType} {l : M3} {v : V3} (h : Truthful t l v) : Truthful t l.transpose (-(l.transpose.mulVec v)) := by
  obtain ⟨a1, a2, a3, a4, a5, a6, a7⟩ := h
  have o : M3.one.transpose = M3.one := rfl
  have z : ∀ m : M3, -(m.mulVec 0) = 0 := fun m => by ext <;> simp [M3.mulVec]
  refine ⟨a1, ?_, ?_, ?_, a5, a6, a7⟩
  · intro h; obtain ⟨rfl, rfl⟩ := a2 h; exact ⟨rfl, z _⟩
  · intro h; rw [a3 h, o]
  · intro h; rw [a4 h, z]

/-- The shape of a transformation built from the factories. -/
def Shape3 (t : T3) (l : M3) (v : V3) : Prop := IsRotation l ∧ t.matrix = some (T3.aff l v) ∧ t.rigid = true ∧ Truthful t.type l v

theorem shape_translation (v : V3) : Shape3 ⟨.translation, some !![1, 0, 0, v.x; 0, 1, 0, v.y; 0, 0, 1, v.z; 0, 0, 0, 1], true⟩ M3.one v :=
  ⟨M3.isRotation_one, rfl, rfl, by simp [Truthful]⟩

theorem shape_rotation {m : M3} (h : IsRotation m) :
    Shape3 ⟨.rotation, some !![m.m00, m.m10, m.m20, 0; m.m01, m.m11, m.m21, 0; m.m02, m.m12, m.m22, 0; 0, 0, 0, 1], true⟩ m.transpose 0 :=
  ⟨M3.isRotation_transpose h, rfl, rfl, by simp [Truthful]⟩

theorem shape_defined {t : T3} {l : M3} {v : V3} (h : Shape3 t l v) : t.isDefined = true := by
  simp [T3.isDefined, h.2.2.2.1]

theorem shape_mul {a b : T3} {l k : M3} {v w : V3} (ha : Shape3 a l v) (hb : Shape3 b k w) :
    ∃ c, a.mul b = .ok c ∧ Shape3 c (l.mul k) (l.mulVec w + v) := by
  refine ⟨⟨a.type.compose b.type, some (T3.aff (l.mul k) (l.mulVec w + v)), true⟩, ?_,
    M3.isRotation_mul ha.1 hb.1, rfl, rfl, truthful_mul ha.2.2.2 hb.2.2.2⟩
  simp [T3.mul, shape_defined ha, shape_defined hb, ha.2.1, hb.2.1, ha.2.2.1, hb.2.2.1, T3.aff_mul]

theorem shape_inverse {a : T3} {l : M3} {v : V3} (ha : Shape3 a l v) :
    ∃ c, a.getInverse = .ok c ∧ Shape3 c l.transpose (-(l.transpose.mulVec v)) := by
  refine ⟨⟨a.type, some (T3.aff l.transpose (-(l.transpose.mulVec v))), true⟩, ?_,
    M3.isRotation_transpose ha.1, rfl, rfl, truthful_inv ha.2.2.2⟩
  simp [T3.getInverse, shape_defined ha, ha.2.1, ha.2.2.1, T3.inverse_aff ha.1]

theorem rotationVector_rotation {eps : ℝ} (h0 : 0 < eps) (h1 : eps ≤ 1) {r : RotVec} (hr : ∀ a, r.axis = some a → a.norm = 1)
    (hd : r.isDefined = true) : ∃ m, RotMat.RotationVector eps r = .ok m ∧ IsRotation m := by
  obtain ⟨a, t⟩ := r
  simp only [RotVec.isDefined, Bool.and_eq_true, Option.isSome_iff_exists] at hd
  obtain ⟨⟨a, rfl⟩, ht⟩ := hd
  obtain ⟨x, hx⟩ := (Angle.defined_iff t).1 ht
  obtain ⟨q, m, -, hm, -, hrot, -⟩ := C27_conversions eps h0 h1 a (hr a rfl) t x hx
  exact ⟨m, hm, hrot⟩

theorem rotation3_eq {eps : ℝ} (h0 : 0 < eps) (h1 : eps ≤ 1) {r : RotVec} (hr : ∀ a, r.axis = some a → a.norm = 1) {t : T3}
    (h : T3.Rotation eps r = .ok t) : ∃ m, RotMat.RotationVector eps r = .ok m ∧ IsRotation m ∧ Shape3 t m.transpose 0 := by
  cases hd : r.isDefined with
  | false => simp [T3.Rotation, hd] at h
  | true =>
    obtain ⟨m, hm, hrot⟩ := rotationVector_rotation h0 h1 hr hd
    simp only [T3.Rotation, hd, hm, Bool.not_true, Bool.false_eq_true, if_false, bind, Except.bind, pure, Except.pure] at h
    cases h
    exact ⟨m, hm, hrot, shape_rotation hrot⟩

theorem rotationAround3_eq {eps : ℝ} (h0 : 0 < eps) (h1 : eps ≤ 1) {r : RotVec} (hr : ∀ a, r.axis = some a → a.norm = 1) {p : Option V3} {t : T3}
    (h : T3.RotationAround eps p r = .ok t) :
    ∃ q m, p = some q ∧ RotMat.RotationVector eps r = .ok m ∧ IsRotation m ∧ Shape3 t m.transpose (m.transpose.mulVec (-q) + q) := by
  cases p with
  | none => simp [T3.RotationAround, need, bind, Except.bind] at h
  | some q =>
    simp only [T3.RotationAround, need, T3.Translation, bind, Except.bind, pure, Except.pure] at h
    cases hR : T3.Rotation eps r with
    | error e => simp [hR] at h
    | ok b =>
      obtain ⟨m, hm, hrot, hb⟩ := rotation3_eq h0 h1 hr hR
      rw [hR] at h
      obtain ⟨ab, hab, sab⟩ := shape_mul (shape_translation q) hb
      simp only [hab] at h
      obtain ⟨c, hc, sc⟩ := shape_mul sab (shape_translation (-q))
      simp only [V3.neg_x, V3.neg_y, V3.neg_z] at hc h
      rw [hc] at h
      cases h
      refine ⟨q, m, rfl, hm, hrot, ?_⟩
      have e1 : (M3.one.mul m.transpose).mul M3.one = m.transpose := by rw [M3.one_mul', M3.mul_one']
      have e2 : (M3.one.mul m.transpose).mulVec (-q) + (M3.one.mulVec 0 + q) = m.transpose.mulVec (-q) + q := by
        rw [M3.one_mul', M3.one_mulVec]; congr 1; ext <;> simp
      rw [e1, e2] at sc
      exact sc

/-- Every transformation built from the factories has the shape of a rigid motion. -/
theorem built3_shape {eps : ℝ} (h0 : 0 < eps) (h1 : eps ≤ 1) {t : T3} (h : Built3 eps t) : ∃ l v, Shape3 t l v := by
  induction h with
  | identity => exact ⟨M3.one, 0, M3.isRotation_one, by rw [T3.aff_one]; rfl, rfl, by simp [Truthful, T3.Identity]⟩
  | translation v t h =>
    cases v with
    | none => cases h
    | some v => cases h; exact ⟨_, _, shape_translation v⟩
  | rotationVector r t hr h => obtain ⟨m, -, -, hs⟩ := rotation3_eq h0 h1 hr h; exact ⟨_, _, hs⟩
  | rotationMatrix m t hm h => cases h; exact ⟨_, _, shape_rotation hm⟩
  | rotationAround p r t hr h => obtain ⟨q, m, -, -, -, hs⟩ := rotationAround3_eq h0 h1 hr h; exact ⟨_, _, hs⟩
  | mul a b t _ _ h ha hb =>
    obtain ⟨l, v, ha⟩ := ha
    obtain ⟨k, w, hb⟩ := hb
    obtain ⟨c, hc, hs⟩ := shape_mul ha hb
    rw [hc] at h; cases h; exact ⟨_, _, hs⟩
  | inverse a t _ h ha =>
    obtain ⟨l, v, ha⟩ := ha
    obtain ⟨c, hc, hs⟩ := shape_inverse ha
    rw [hc] at h; cases h; exact ⟨_, _, hs⟩

theorem shape_moves {t : T3} {l : M3} {v : V3} (h : Shape3 t l v) : Moves t (fun p => l.mulVec p + v) ∧ Turns t l.mulVec := by
  constructor
  · intro p
    simp only [T3.applyTo, need, bind, Except.bind, h.2.1, Option.map_some, T3.head_aff, pure, Except.pure]
    congr 2
    ext <;> simp
  · intro w
    simp only [T3.applyToVector, h.2.1, Option.map₂_some_some, T3.head_aff]
    congr 1
    ext <;> simp

/-! The same in 2D. -/

/-- What the label of a 2D transformation says about its matrix. -/
def Truthful2 (t : TType) (c s : ℝ) (v : V2) : Prop :=
  t ≠ .undefined ∧ (t = .identity → (c = 1 ∧ s = 0) ∧ v = 0) ∧ (t = .translation → c = 1 ∧ s = 0) ∧ (t = .rotation → v = 0) ∧
    t ≠ .scaling ∧ t ≠ .reflection ∧ t ≠ .shear

/-- The shape of a 2D transformation built from the factories. -/
def Shape2 (t : T2) (c s : ℝ) (v : V2) : Prop := c ^ 2 + s ^ 2 = 1 ∧ t.matrix = some (T2.aff c s v) ∧ Truthful2 t.type c s v

theorem shape2_defined {t : T2} {c s : ℝ} {v : V2} (h : Shape2 t c s v) : t.isDefined = true := by
  simp [T2.isDefined, h.2.2.1]

theorem shape2_translation (v : V2) : Shape2 ⟨.translation, some !![1, 0, v.x; 0, 1, v.y; 0, 0, 1]⟩ 1 0 v :=
  ⟨by norm_num, by simp [T2.aff], by simp [Truthful2]⟩

theorem shape2_rotation (t : ℝ) : Shape2 ⟨.rotation, some !![Real.cos t, -Real.sin t, 0; Real.sin t, Real.cos t, 0; 0, 0, 1]⟩ (Real.cos t)
    (Real.sin t) 0 :=
  ⟨Real.cos_sq_add_sin_sq t, rfl, by simp [Truthful2]⟩

theorem turn_one (v : V2) : T2.turn 1 0 v = v := by ext <;> simp [T2.turn]
theorem turn_zero (c s : ℝ) : T2.turn c s 0 = 0 := by ext <;> simp [T2.turn]

theorem shape2_mul {a b : T2} {c s c' s' : ℝ} {v w : V2} (ha : Shape2 a c s v) (hb : Shape2 b c' s' w) :
    ∃ d, a.mul b = .ok d ∧ Shape2 d (c * c' - s * s') (s * c' + c * s') (T2.turn c s w + v) := by
  refine ⟨⟨a.type.compose b.type, some (T2.aff (c * c' - s * s') (s * c' + c * s') (T2.turn c s w + v))⟩, ?_, ?_, rfl, ?_⟩
  · simp [T2.mul, shape2_defined ha, shape2_defined hb, ha.2.1, hb.2.1, T2.aff_mul]
  · have h1 := ha.1
    have h2 := hb.1
    linear_combination h1 * (c' ^ 2 + s' ^ 2) + h2
  · obtain ⟨-, -, a1, a2, a3, a4, a5, a6, a7⟩ := ha
    obtain ⟨-, -, b1, b2, b3, b4, b5, b6, b7⟩ := hb
    have z' : ∀ x : V2, (0 : V2) + x = x := fun m => by ext <;> simp
    cases ht : a.type <;> cases hu : b.type <;> simp [ht, hu, Truthful2, TType.compose] at * <;> simp_all [turn_one, turn_zero]

theorem shape2_inverse {a : T2} {c s : ℝ} {v : V2} (ha : Shape2 a c s v) :
    ∃ d, a.getInverse = .ok d ∧ Shape2 d c (-s) (-(T2.turn c (-s) v)) := by
  refine ⟨⟨a.type, some (T2.aff c (-s) (-(T2.turn c (-s) v)))⟩, ?_, ?_, rfl, ?_⟩
  · simp [T2.getInverse, shape2_defined ha, ha.2.1, T2.inverse_aff ha.1]
  · rw [neg_sq]; exact ha.1
  · obtain ⟨-, -, a1, a2, a3, a4, a5, a6, a7⟩ := ha
    have z : -(0 : V2) = 0 := by ext <;> simp
    refine ⟨a1, ?_, ?_, ?_, a5, a6, a7⟩
    · intro h; obtain ⟨⟨rfl, rfl⟩, rfl⟩ := a2 h; exact ⟨⟨rfl, neg_zero⟩, by rw [turn_zero, z]⟩
    · intro h; obtain ⟨rfl, rfl⟩ := a3 h; exact ⟨rfl, neg_zero⟩
    · intro h; rw [a4 h, turn_zero, z]

theorem rotation2_eq {a : Angle} {t : T2} (h : T2.Rotation a = .ok t) : ∃ x, Measures a x ∧
    Shape2 t (Real.cos (2 * Real.pi * x)) (Real.sin (2 * Real.pi * x)) 0 := by
  cases hd : a.isDefined with
  | false => simp [T2.Rotation, Angle.inUnit_undefined hd, bind, Except.bind] at h
  | true =>
    obtain ⟨x, hx⟩ := (Angle.defined_iff a).1 hd
    simp only [T2.Rotation, inRadian hx, bind, Except.bind, pure, Except.pure] at h
    cases h
    refine ⟨x, hx, ?_⟩
    rw [show 2 * Real.pi * x = x * (2 * Real.pi) by ring]
    exact shape2_rotation _

theorem rotationAround2_eq {p : Option V2} {a : Angle} {t : T2} (h : T2.RotationAround p a = .ok t) : ∃ q x, p = some q ∧ Measures a x ∧
    Shape2 t (Real.cos (2 * Real.pi * x)) (Real.sin (2 * Real.pi * x))
      (T2.turn (Real.cos (2 * Real.pi * x)) (Real.sin (2 * Real.pi * x)) (-q) + q) ∧ t.type = .affine := by
  cases p with
  | none => simp [T2.RotationAround, need, bind, Except.bind] at h
  | some q =>
    simp only [T2.RotationAround, need, T2.Translation, bind, Except.bind, pure, Except.pure] at h
    cases hR : T2.Rotation a with
    | error e => simp [hR] at h
    | ok b =>
      obtain ⟨x, hx, hb⟩ := rotation2_eq hR
      have hbt : b.type = .rotation := by
        simp only [T2.Rotation, inRadian hx, bind, Except.bind, pure, Except.pure] at hR
        cases hR; rfl
      rw [hR] at h
      obtain ⟨ab, hab, sab⟩ := shape2_mul (shape2_translation q) hb
      have habt : ab.type = .affine := by
        simp only [T2.mul, shape2_defined hb, shape2_defined (shape2_translation q), Bool.not_true, Bool.false_eq_true, if_false, hbt] at hab
        cases hab; rfl
      simp only [hab] at h
      obtain ⟨c, hc, sc⟩ := shape2_mul sab (shape2_translation (-q))
      have hct : c.type = .affine := by
        simp only [T2.mul, shape2_defined sab, shape2_defined (shape2_translation (-q)), Bool.not_true, Bool.false_eq_true, if_false, habt] at hc
        cases hc; rfl
      simp only [V2.neg_x, V2.neg_y] at hc h
      rw [hc] at h
      cases h
      refine ⟨q, x, rfl, hx, ?_, hct⟩
      have e0 : ∀ c s : ℝ, T2.turn c s (-q) + (T2.turn 1 0 0 + q) = T2.turn c s (-q) + q := by
        intro c s; rw [turn_zero]; congr 1; ext <;> simp
      simp only [one_mul, zero_mul, sub_zero, zero_add, mul_one, mul_zero, add_zero, e0] at sc
      exact sc

theorem built2_shape {t : T2} (h : Built2 t) : ∃ c s v, Shape2 t c s v := by
  have hid : ∀ m, m = 1 → Shape2 ⟨.identity, some m⟩ 1 0 0 := by
    rintro m rfl
    exact ⟨by norm_num, by rw [T2.aff_one], by simp [Truthful2]⟩
  induction h with
  | identity => exact ⟨1, 0, 0, hid 1 rfl⟩
  | translation v t h =>
    cases v with
    | none => cases h
    | some v => cases h; exact ⟨_, _, _, shape2_translation v⟩
  | rotation a t h => obtain ⟨x, -, hs⟩ := rotation2_eq h; exact ⟨_, _, _, hs⟩
  | rotationAround p a t h => obtain ⟨q, x, -, -, hs, -⟩ := rotationAround2_eq h; exact ⟨_, _, _, hs⟩
  | matrix m t h =>
    simp only [T2.ctor] at h
    split_ifs at h with hm
    cases h; exact ⟨_, _, _, hid m hm⟩
  | mul a b t _ _ h ha hb =>
    obtain ⟨c, s, v, ha⟩ := ha
    obtain ⟨c', s', w, hb⟩ := hb
    obtain ⟨d, hd, hs⟩ := shape2_mul ha hb
    rw [hd] at h; cases h; exact ⟨_, _, _, hs⟩
  | inverse a t _ h ha =>
    obtain ⟨c, s, v, ha⟩ := ha
    obtain ⟨d, hd, hs⟩ := shape2_inverse ha
    rw [hd] at h; cases h; exact ⟨_, _, _, hs⟩

theorem shape2_moves {t : T2} {c s : ℝ} {v : V2} (h : Shape2 t c s v) :
    Moves2 t (fun p => T2.turn c s p + v) ∧ Turns2 t (T2.turn c s) := by
  constructor
  · intro p
    simp only [T2.applyTo, need, bind, Except.bind, h.2.1, Option.map_some, T2.head_aff, pure, Except.pure]
    congr 2
    ext <;> simp
  · intro w
    simp only [T2.applyToVector, h.2.1, Option.map₂_some_some, T2.head_aff]
    congr 1
    ext <;> simp

end Verif.Props
