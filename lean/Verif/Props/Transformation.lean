import Verif.Lemmas.TransformationShape

/-!
# Transformations (C37 - C41, C74, C75)
-/

namespace Verif.Props

open Verif Verif.Spec

set_option linter.flexible false

/-- A quarter turn about the z axis, used in the examples. -/
def quarterZ : RotVec := ⟨some ⟨0, 0, 1⟩, ⟨some 90, .degree⟩⟩

theorem quarterZ_axis : ∀ a, quarterZ.axis = some a → a.norm = 1 := by
  rintro a h
  cases h
  simp [V3.norm, V3.normSq, V3.dot]

theorem quarterZ_built : ∃ t, T3.Rotation (1 / 2) quarterZ = .ok t ∧ Built3 (1 / 2) t := by
  obtain ⟨m, hm, -⟩ := rotationVector_rotation (eps := 1 / 2) (by norm_num) (by norm_num) quarterZ_axis (by simp [quarterZ, RotVec.isDefined, Angle.isDefined])
  have hd : quarterZ.isDefined = true := by simp [quarterZ, RotVec.isDefined, Angle.isDefined]
  have : T3.Rotation (1 / 2) quarterZ =
      .ok ⟨.rotation, some !![m.m00, m.m10, m.m20, 0; m.m01, m.m11, m.m21, 0; m.m02, m.m12, m.m22, 0; 0, 0, 0, 1], true⟩ := by
    simp only [T3.Rotation, hd, hm, Bool.not_true, Bool.false_eq_true, if_false, bind, Except.bind, pure, Except.pure]
  exact ⟨_, this, .rotationVector _ _ quarterZ_axis this⟩

/-! ## C37 -/

/-- The product is the composition of the maps, for any two defined 3D transformations with a finite matrix, provided the last row of the
second one is exactly `0 0 0 1`. The full claim has no such condition; `C37_not_composition` shows that it is then false. -/
theorem C37_composition3_partial (a b : T3) (ha : a.isDefined = true) (hb : b.isDefined = true) (m n : Matrix (Fin 4) (Fin 4) ℝ)
    (hm : a.matrix = some m) (hn : b.matrix = some n) (hl : n 3 = ![0, 0, 0, 1]) :
    ∃ c, a.mul b = .ok c ∧ (∀ p q : V3, b.applyTo (some p) = .ok (some q) → c.applyTo (some p) = a.applyTo (some q)) ∧
      ∀ v w : V3, b.applyToVector (some v) = some w → c.applyToVector (some v) = a.applyToVector (some w) := by
  refine ⟨⟨a.type.compose b.type, some (m * n), a.rigid && b.rigid⟩, by simp [T3.mul, ha, hb, hm, hn], ?_, ?_⟩
  · intro p q h
    simp only [T3.applyTo, need, bind, Except.bind, pure, Except.pure, hn, hm, Option.map_some, Except.ok.injEq, Option.some.injEq] at h ⊢
    subst h
    have l0 := congrFun hl 0
    have l1 := congrFun hl 1
    have l2 := congrFun hl 2
    have l3 := congrFun hl 3
    simp at l0 l1 l2 l3
    ext <;> simp [T3.head, Matrix.mulVec, dotProduct, Fin.sum_univ_four, Matrix.mul_apply, l0, l1, l2, l3] <;> ring
  · intro v w h
    simp only [T3.applyToVector, hn, hm, Option.map₂_some_some, Option.some.injEq] at h ⊢
    subst h
    have l0 := congrFun hl 0
    have l1 := congrFun hl 1
    have l2 := congrFun hl 2
    simp at l0 l1 l2
    ext <;> simp [T3.head, Matrix.mulVec, dotProduct, Fin.sum_univ_four, Matrix.mul_apply, l0, l1, l2] <;> ring

example : T3.Identity.isDefined = true ∧ T3.Identity.matrix = some 1 ∧ (1 : Matrix (Fin 4) (Fin 4) ℝ) 3 = ![0, 0, 0, 1] := by
  refine ⟨rfl, rfl, ?_⟩
  ext i; fin_cases i <;> first | rfl | simp

/-- Every transformation built from the 3D factories: the product never throws and is the composition of the maps, of points and of
vectors; the inverse exists and undoes it on both sides. -/
theorem C37_built3_partial (eps : ℝ) (h0 : 0 < eps) (h1 : eps ≤ 1) (a b : T3) (ha : Built3 eps a) (hb : Built3 eps b) :
    ∃ f g f' g' c i, Moves a f ∧ Turns a g ∧ Moves b f' ∧ Turns b g' ∧ a.mul b = .ok c ∧ Moves c (f ∘ f') ∧ Turns c (g ∘ g') ∧
      a.getInverse = .ok i ∧ ∃ k h, Moves i k ∧ Turns i h ∧ (∀ p, k (f p) = p ∧ f (k p) = p) ∧ ∀ v, h (g v) = v ∧ g (h v) = v := by
  obtain ⟨l, v, sa⟩ := built3_shape h0 h1 ha
  obtain ⟨l', v', sb⟩ := built3_shape h0 h1 hb
  obtain ⟨c, hc, sc⟩ := shape_mul sa sb
  obtain ⟨i, hi, si⟩ := shape_inverse sa
  refine ⟨_, _, _, _, c, i, (shape_moves sa).1, (shape_moves sa).2, (shape_moves sb).1, (shape_moves sb).2, hc, ?_, ?_, hi, _, _,
    (shape_moves si).1, (shape_moves si).2, ?_, ?_⟩
  · intro p
    rw [(shape_moves sc).1 p]
    simp only [Function.comp, M3.mul_mulVec, ← M3.mulVec_add]
    congr 2
    ext <;> simp <;> ring
  · intro p
    rw [(shape_moves sc).2 p]
    simp only [Function.comp, M3.mul_mulVec]
  · intro p
    constructor
    · rw [← M3.mulVec_add, M3.transpose_mulVec sa.1]; ext <;> simp
    · have : -(l.transpose.mulVec v) = l.transpose.mulVec (-v) := by ext <;> simp [M3.mulVec] <;> ring
      rw [this, M3.mulVec_add, M3.mulVec_transpose sa.1]; ext <;> simp
  · intro w
    exact ⟨M3.transpose_mulVec sa.1 w, M3.mulVec_transpose sa.1 w⟩

example : ∃ t, T3.Rotation (1 / 2) quarterZ = .ok t ∧ Built3 (1 / 2) t := quarterZ_built

/-- The same in 2D, where the public API builds nothing else. -/
theorem C37_composition2 (a b : T2) (ha : Built2 a) (hb : Built2 b) :
    ∃ f g f' g' c i, Moves2 a f ∧ Turns2 a g ∧ Moves2 b f' ∧ Turns2 b g' ∧ a.mul b = .ok c ∧ Moves2 c (f ∘ f') ∧ Turns2 c (g ∘ g') ∧
      a.getInverse = .ok i ∧ ∃ k h, Moves2 i k ∧ Turns2 i h ∧ (∀ p, k (f p) = p ∧ f (k p) = p) ∧ ∀ v, h (g v) = v ∧ g (h v) = v := by
  obtain ⟨x, y, v, sa⟩ := built2_shape ha
  obtain ⟨x', y', v', sb⟩ := built2_shape hb
  obtain ⟨c, hc, sc⟩ := shape2_mul sa sb
  obtain ⟨i, hi, si⟩ := shape2_inverse sa
  have hn := sa.1
  have u1 : ∀ w, T2.turn x (-y) (T2.turn x y w) = w := by
    intro w
    ext <;> simp [T2.turn]
    · linear_combination w.x * hn
    · linear_combination w.y * hn
  have u2 : ∀ w, T2.turn x y (T2.turn x (-y) w) = w := by
    intro w
    ext <;> simp [T2.turn]
    · linear_combination w.x * hn
    · linear_combination w.y * hn
  refine ⟨_, _, _, _, c, i, (shape2_moves sa).1, (shape2_moves sa).2, (shape2_moves sb).1, (shape2_moves sb).2, hc, ?_, ?_, hi, _, _,
    (shape2_moves si).1, (shape2_moves si).2, ?_, ?_⟩
  · intro p
    rw [(shape2_moves sc).1 p]
    congr 2
    ext <;> simp [T2.turn] <;> ring
  · intro p
    rw [(shape2_moves sc).2 p]
    congr 1
    ext <;> simp [T2.turn] <;> ring
  · intro p
    constructor
    · have := u1 p
      ext
      · have := congrArg V2.x this; simp [T2.turn] at this ⊢; linarith
      · have := congrArg V2.y this; simp [T2.turn] at this ⊢; linarith
    · have h1 := u2 p
      have h2 := u2 v
      ext
      · have h1 := congrArg V2.x h1; have h2 := congrArg V2.x h2; simp [T2.turn] at h1 h2 ⊢; linarith
      · have h1 := congrArg V2.y h1; have h2 := congrArg V2.y h2; simp [T2.turn] at h1 h2 ⊢; linarith
  · intro w
    exact ⟨u1 w, u2 w⟩

example : ∃ t, T2.Rotation ⟨some 90, .degree⟩ = .ok t ∧ Built2 t := by
  have : ∃ t, T2.Rotation ⟨some 90, .degree⟩ = .ok t := by
    simp [T2.Rotation, inRadian quarter_degrees, bind, Except.bind, pure, Except.pure]
  obtain ⟨t, h⟩ := this
  exact ⟨t, h, .rotation _ _ h⟩

/-- The 3D constructor accepts a matrix whose last row is only nearly `0 0 0 1` (Eigen tolerance), and then the product is not the
composition of the maps. -/
theorem C37_not_composition (prec : ℝ) (hp : 0 < prec) :
    ∃ a b c : T3, T3.Translation (some ⟨1, 0, 0⟩) = .ok a ∧
      T3.ctor prec (some !![1, 0, 0, 0; 0, 1, 0, 0; 0, 0, 1, 0; prec, 0, 0, 1]) = .ok b ∧ a.mul b = .ok c ∧
      ∃ p q : V3, b.applyTo (some p) = .ok (some q) ∧ c.applyTo (some p) ≠ a.applyTo (some q) := by
  have hn : nearIdentity prec !![1, 0, 0, 0; 0, 1, 0, 0; 0, 0, 1, 0; prec, 0, 0, 1] := by
    intro i j
    fin_cases i <;> fin_cases j <;> simp [hp.le, abs_of_pos hp]
  refine ⟨_, _, _, rfl, if_pos hn, rfl, ⟨1, 0, 0⟩, ⟨1, 0, 0⟩, ?_, ?_⟩
  · simp [T3.applyTo, need, bind, Except.bind, pure, Except.pure, T3.head, Matrix.mulVec, dotProduct, Fin.sum_univ_four]
  · simp [T3.applyTo, need, bind, Except.bind, pure, Except.pure, T3.head, Matrix.mulVec, dotProduct, Fin.sum_univ_four, Matrix.mul_apply]
    intro h
    linarith

example : (0 : ℝ) < 1 / 1000000000000 := by norm_num

/-- The product is associative for all transformations, also with an undefined factor (both sides then throw); the identity is neutral; an
undefined factor makes the product throw. In 2D and 3D. -/
theorem C37_monoid :
    (∀ a b c : T3, (a.mul b).bind (·.mul c) = (b.mul c).bind a.mul) ∧ (∀ a b c : T2, (a.mul b).bind (·.mul c) = (b.mul c).bind a.mul) ∧
    (∀ a : T3, a.isDefined = true → T3.Identity.mul a = .ok a ∧ a.mul T3.Identity = .ok a) ∧
    (∀ a : T2, a.isDefined = true → T2.Identity.mul a = .ok a ∧ a.mul T2.Identity = .ok a) ∧
    (∀ a b : T3, a.mul b = .error .undefined ↔ a.isDefined = false ∨ b.isDefined = false) ∧
    (∀ a b : T2, a.mul b = .error .undefined ↔ a.isDefined = false ∨ b.isDefined = false) := by
  refine ⟨?_, ?_, ?_, ?_, ?_, ?_⟩
  · rintro ⟨a, m, r⟩ ⟨b, n, s⟩ ⟨c, o, t⟩
    by_cases ha : a = .undefined
    · subst ha
      by_cases hb : b = .undefined <;> by_cases hc : c = .undefined <;> simp [T3.mul, T3.isDefined, Except.bind, hb, hc]
    · by_cases hb : b = .undefined
      · simp [T3.mul, T3.isDefined, Except.bind, hb]
      · by_cases hc : c = .undefined
        · simp [T3.mul, T3.isDefined, Except.bind, ha, hb, hc]
        · have e : (a.compose b).compose c = a.compose (b.compose c) := by cases a <;> cases b <;> cases c <;> rfl
          have h1 : a.compose b ≠ .undefined := by cases a <;> cases b <;> simp_all [TType.compose]
          have h2 : b.compose c ≠ .undefined := by cases b <;> cases c <;> simp_all [TType.compose]
          have e' : Option.map₂ (· * ·) (Option.map₂ (· * ·) m n) o = Option.map₂ (· * ·) m (Option.map₂ (· * ·) n o) := by
            cases m <;> cases n <;> cases o <;> simp [Matrix.mul_assoc]
          simp [T3.mul, T3.isDefined, Except.bind, ha, hb, hc, h1, h2, e, e', Bool.and_assoc]
  · rintro ⟨a, m⟩ ⟨b, n⟩ ⟨c, o⟩
    by_cases ha : a = .undefined
    · subst ha
      by_cases hb : b = .undefined <;> by_cases hc : c = .undefined <;> simp [T2.mul, T2.isDefined, Except.bind, hb, hc]
    · by_cases hb : b = .undefined
      · simp [T2.mul, T2.isDefined, Except.bind, hb]
      · by_cases hc : c = .undefined
        · simp [T2.mul, T2.isDefined, Except.bind, ha, hb, hc]
        · have e : (a.compose b).compose c = a.compose (b.compose c) := by cases a <;> cases b <;> cases c <;> rfl
          have h1 : a.compose b ≠ .undefined := by cases a <;> cases b <;> simp_all [TType.compose]
          have h2 : b.compose c ≠ .undefined := by cases b <;> cases c <;> simp_all [TType.compose]
          have e' : Option.map₂ (· * ·) (Option.map₂ (· * ·) m n) o = Option.map₂ (· * ·) m (Option.map₂ (· * ·) n o) := by
            cases m <;> cases n <;> cases o <;> simp [Matrix.mul_assoc]
          simp [T2.mul, T2.isDefined, Except.bind, ha, hb, hc, h1, h2, e, e']
  · rintro ⟨a, m, r⟩ h
    cases a <;> cases m <;> simp [T3.mul, T3.isDefined, T3.Identity, TType.compose] at h ⊢
  · rintro ⟨a, m⟩ h
    cases a <;> cases m <;> simp [T2.mul, T2.isDefined, T2.Identity, TType.compose] at h ⊢
  · intro a b
    cases ha : a.isDefined <;> cases hb : b.isDefined <;> simp [T3.mul, ha, hb]
  · intro a b
    cases ha : a.isDefined <;> cases hb : b.isDefined <;> simp [T2.mul, ha, hb]

example : T3.Identity.isDefined = true ∧ T3.Undefined.isDefined = false ∧ T2.Identity.isDefined = true := ⟨rfl, rfl, rfl⟩

/-! ## C38 -/

/-- Every transformation built from the 3D factories with proper rotations is flagged rigid, and keeps all distances. -/
theorem C38_rigid3_partial (eps : ℝ) (h0 : 0 < eps) (h1 : eps ≤ 1) (t : T3) (h : Built3 eps t) :
    t.isRigid = .ok true ∧ ∃ f, Moves t f ∧ KeepsDistances f := by
  obtain ⟨l, v, s⟩ := built3_shape h0 h1 h
  refine ⟨by simp [T3.isRigid, shape_defined s, s.2.2.1], _, (shape_moves s).1, ?_⟩
  intro p q
  rw [show l.mulVec p + v - (l.mulVec q + v) = l.mulVec (p - q) by rw [← M3.mulVec_sub]; ext <;> simp]
  exact M3.mulVec_norm s.1 _

example : Built3 (1 / 2) T3.Identity := .identity

/-- **C38.** A product is flagged as rigid exactly if both factors are. If the flags of the factors are sound and the last row of the second one is
that of an affine map, then the flag of the product is sound, for all transformations and not only for those built from the factories. -/
theorem C38_product (a b c : T3) (h : a.mul b = .ok c) :
    (c.isRigid = .ok true ↔ a.isRigid = .ok true ∧ b.isRigid = .ok true) ∧
    ∀ n, b.matrix = some n → n 3 = ![0, 0, 0, 1] → (a.isRigid = .ok true → ∃ f, Moves a f ∧ KeepsDistances f) →
      (b.isRigid = .ok true → ∃ f, Moves b f ∧ KeepsDistances f) → c.isRigid = .ok true → ∃ f, Moves c f ∧ KeepsDistances f := by
  obtain ⟨ta, ma, ra⟩ := a
  obtain ⟨tb, mb, rb⟩ := b
  have hb : T3.isDefined ⟨tb, mb, rb⟩ = true := by
    by_contra hc; rw [Bool.not_eq_true] at hc; simp [T3.mul, hc] at h
  have ha : T3.isDefined ⟨ta, ma, ra⟩ = true := by
    by_contra hc; rw [Bool.not_eq_true] at hc; simp [T3.mul, hb, hc] at h
  have hcd : c.isDefined = true := by
    simp only [T3.mul, ha, hb, Bool.not_true, Bool.false_eq_true, if_false, Except.ok.injEq] at h
    subst h
    simp only [T3.isDefined, ne_eq, decide_not, Bool.not_eq_true', decide_eq_false_iff_not] at *
    cases ta <;> cases tb <;> simp_all [TType.compose]
  have key : c.isRigid = .ok true ↔ T3.isRigid ⟨ta, ma, ra⟩ = .ok true ∧ T3.isRigid ⟨tb, mb, rb⟩ = .ok true := by
    have hr : c.rigid = (ra && rb) := by
      simp only [T3.mul, ha, hb, Bool.not_true, Bool.false_eq_true, if_false, Except.ok.injEq] at h
      rw [← h]
    simp [T3.isRigid, ha, hb, hcd, hr]
  refine ⟨key, ?_⟩
  intro n hn hl sa sb hc
  obtain ⟨f, mf, kf⟩ := sa (key.1 hc).1
  obtain ⟨g, mg, kg⟩ := sb (key.1 hc).2
  have hm : ∃ m, ma = some m := by
    have := mf 0
    cases ma with
    | none => simp [T3.applyTo, need, bind, Except.bind, pure, Except.pure] at this
    | some m => exact ⟨m, rfl⟩
  obtain ⟨m, rfl⟩ := hm
  obtain ⟨c', hc', hp, -⟩ := C37_composition3_partial _ _ ha hb m n rfl hn hl
  rw [h, Except.ok.injEq] at hc'
  subst hc'
  refine ⟨f ∘ g, fun p => ?_, fun p q => ?_⟩
  · rw [hp p (g p) (mg p), mf (g p)]; rfl
  · rw [Function.comp_apply, Function.comp_apply, kf, kg]

/-- a product of an identity and a transformation which is not flagged as rigid -/
example : ∃ b c : T3, T3.ctor 1 (some !![1, 0, 0, 0; 0, 1, 0, 0; 0, 0, 1, 0; 1, 0, 0, 1]) = .ok b ∧ T3.Identity.mul b = .ok c ∧ c.isRigid = .ok false := by
  have hn : nearIdentity 1 !![1, 0, 0, 0; 0, 1, 0, 0; 0, 0, 1, 0; 1, 0, 0, (1 : ℝ)] := by
    intro i j
    fin_cases i <;> fin_cases j <;> simp
  refine ⟨_, _, if_pos hn, rfl, ?_⟩
  simp [T3.isRigid, T3.isDefined, TType.compose, T3.Identity, T3.IsRigid]

/-- A 3D rotation from a rotation matrix is flagged rigid also when the matrix is not a rotation, and the constructor of rotation matrices
accepts the zero matrix: all points then go to the origin. -/
theorem C38_rigid3_unsound (eps : ℝ) (h0 : 0 < eps) :
    ∃ m t, RotMat.ctor eps (some ⟨0, 0, 0, 0, 0, 0, 0, 0, 0⟩) = .ok m ∧ T3.RotationOfMatrix m = .ok t ∧ t.isRigid = .ok true ∧
      ∃ f, Moves t f ∧ ¬ KeepsDistances f := by
  refine ⟨_, _, (C35_not_proper eps h0).1.1, rfl, rfl, fun _ => 0, ?_, ?_⟩
  · intro p
    simp [T3.applyTo, need, bind, Except.bind, pure, Except.pure, T3.head, Matrix.mulVec, dotProduct, Fin.sum_univ_four]
    rfl
  · intro h
    have := h ⟨1, 0, 0⟩ 0
    simp [V3.norm, V3.normSq, V3.dot] at this

example : (0 : ℝ) < 1 / 2 := by norm_num

/-- In 2D a transformation flagged rigid keeps all distances, as all of them do; the flag is set exactly on those not labelled affine. That all
isometries are flagged is missing: `C38_rigid2_incomplete`. -/
theorem C38_rigid2_partial (t : T2) (h : Built2 t) :
    (∃ f, Moves2 t f ∧ KeepsDistances2 f) ∧ (t.isRigid = true ↔ t.getType ≠ .ok .affine) := by
  obtain ⟨c, s, v, sh⟩ := built2_shape h
  refine ⟨⟨_, (shape2_moves sh).1, ?_⟩, ?_⟩
  · intro p q
    rw [show T2.turn c s p + v - (T2.turn c s q + v) = T2.turn c s (p - q) by rw [← T2.turn_sub]; ext <;> simp]
    exact T2.turn_norm sh.1 _
  · obtain ⟨a1, -, -, -, a5, a6, a7⟩ := sh.2.2
    simp only [T2.getType, shape2_defined sh, Bool.not_true, Bool.false_eq_true, if_false, T2.isRigid]
    cases ht : t.type <;> simp_all

example : Built2 T2.Identity ∧ T2.Identity.isRigid = true := ⟨.identity, rfl⟩

/-- **C38.** In 2D a type is flagged rigid exactly if every map of the kind it names keeps all distances. -/
theorem C38_kind2 (t : T2) (hd : t.isDefined = true) : t.isRigid = true ↔ ∀ f, OfKind2 t.type f → KeepsDistances2 f := by
  obtain ⟨k, m⟩ := t
  have sq : ∀ p q : V2, p.x ^ 2 + p.y ^ 2 = q.x ^ 2 + q.y ^ 2 → p.norm = q.norm := fun p q h => by
    rw [V2.norm, V2.norm, V2.normSq, V2.normSq, V2.dot, V2.dot, ← pow_two, ← pow_two, ← pow_two, ← pow_two, h]
  cases k with
  | undefined => simp [T2.isDefined] at hd
  | identity =>
    simp only [T2.isRigid, OfKind2, true_iff]
    intro f hf p q
    rw [hf, hf]
  | translation =>
    simp only [T2.isRigid, OfKind2, true_iff]
    rintro f ⟨v, hf⟩ p q
    rw [hf, hf]
    congr 1
    ext <;> simp
  | rotation =>
    simp only [T2.isRigid, OfKind2, true_iff]
    rintro f ⟨c, s, h1, hf⟩ p q
    rw [hf, hf]
    apply sq
    simp only [V2.sub_x, V2.sub_y]
    linear_combination ((p.x - q.x) ^ 2 + (p.y - q.y) ^ 2) * h1
  | reflection =>
    simp only [T2.isRigid, OfKind2, true_iff]
    rintro f ⟨c, s, h1, hf⟩ p q
    rw [hf, hf]
    apply sq
    simp only [V2.sub_x, V2.sub_y]
    linear_combination ((p.x - q.x) ^ 2 + (p.y - q.y) ^ 2) * h1
  | scaling =>
    simp only [T2.isRigid, OfKind2, Bool.false_eq_true, false_iff, not_forall]
    refine ⟨fun p => ⟨0 * p.x, 0 * p.y⟩, ⟨0, 0, fun p => rfl⟩, fun h => ?_⟩
    have := h ⟨1, 0⟩ ⟨0, 0⟩
    simp [V2.norm, V2.normSq, V2.dot] at this
  | shear =>
    simp only [T2.isRigid, OfKind2, Bool.false_eq_true, false_iff, not_forall]
    refine ⟨fun p => ⟨p.x + 1 * p.y, 0 * p.x + p.y⟩, ⟨1, 0, .inr rfl, fun p => rfl⟩, fun h => ?_⟩
    have := h ⟨1, 0⟩ ⟨0, 1⟩
    norm_num [V2.norm, V2.normSq, V2.dot] at this
    have h2 := Real.sq_sqrt (show (0 : ℝ) ≤ 2 by norm_num)
    rw [← this] at h2
    norm_num at h2
  | affine =>
    simp only [T2.isRigid, OfKind2, Bool.false_eq_true, false_iff, not_forall]
    refine ⟨fun p => ⟨0 * p.x + 0 * p.y + 0, 0 * p.x + 0 * p.y + 0⟩, ⟨0, 0, 0, 0, 0, 0, fun p => rfl⟩, fun h => ?_⟩
    have := h ⟨1, 0⟩ ⟨0, 0⟩
    simp [V2.norm, V2.normSq, V2.dot] at this

example : T2.Identity.isDefined = true := rfl

theorem kind_compose2 (a b : TType) (f g : V2 → V2) (hf : OfKind2 a f) (hg : OfKind2 b g) : OfKind2 (a.compose b) (f ∘ g) := by
  have aff : ∀ k h, OfKind2 k h → OfKind2 .affine h := by
    intro k h hk
    cases k with
    | undefined => exact hk.elim
    | identity => exact ⟨1, 0, 0, 1, 0, 0, fun p => by rw [hk]; ext <;> simp⟩
    | translation => obtain ⟨v, hk⟩ := hk; exact ⟨1, 0, 0, 1, v.x, v.y, fun p => by rw [hk]; ext <;> simp⟩
    | rotation => obtain ⟨c, s, -, hk⟩ := hk; exact ⟨c, -s, s, c, 0, 0, fun p => by rw [hk]; ext <;> simp; ring⟩
    | scaling => obtain ⟨c, s, hk⟩ := hk; exact ⟨c, 0, 0, s, 0, 0, fun p => by rw [hk]; ext <;> simp⟩
    | reflection => obtain ⟨c, s, -, hk⟩ := hk; exact ⟨c, s, s, -c, 0, 0, fun p => by rw [hk]; ext <;> simp; ring⟩
    | shear => obtain ⟨c, s, -, hk⟩ := hk; exact ⟨1, c, s, 1, 0, 0, fun p => by rw [hk]; ext <;> simp⟩
    | affine => exact hk
  have both : OfKind2 .affine (f ∘ g) := by
    obtain ⟨a, b, c, d, x, y, h1⟩ := aff _ _ hf
    obtain ⟨a', b', c', d', x', y', h2⟩ := aff _ _ hg
    exact ⟨a * a' + b * c', a * b' + b * d', c * a' + d * c', c * b' + d * d', a * x' + b * y' + x, c * x' + d * y' + y, fun p => by
      rw [Function.comp_apply, h2, h1]; ext <;> simp <;> ring⟩
  have idl : a = .identity → f ∘ g = g := by rintro rfl; funext p; exact hf _
  have idr : b = .identity → f ∘ g = f := by rintro rfl; funext p; rw [Function.comp_apply, hg]
  cases a with
  | undefined => exact hf.elim
  | identity => rw [idl rfl]; cases b <;> first | exact hg.elim | exact hg
  | translation =>
    cases b with
    | undefined => exact hg.elim
    | identity => rw [idr rfl]; exact hf
    | translation =>
      obtain ⟨v, h1⟩ := hf
      obtain ⟨w, h2⟩ := hg
      exact ⟨w + v, fun p => by rw [Function.comp_apply, h2, h1]; ext <;> simp <;> ring⟩
    | _ => exact both
  | rotation =>
    cases b with
    | undefined => exact hg.elim
    | identity => rw [idr rfl]; exact hf
    | rotation =>
      obtain ⟨c, s, h, h1⟩ := hf
      obtain ⟨c', s', h', h2⟩ := hg
      refine ⟨c * c' - s * s', s * c' + c * s', by linear_combination (c' ^ 2 + s' ^ 2) * h + h', fun p => ?_⟩
      rw [Function.comp_apply, h2, h1]; ext <;> simp <;> ring
    | _ => exact both
  | scaling =>
    cases b with
    | undefined => exact hg.elim
    | identity => rw [idr rfl]; exact hf
    | scaling =>
      obtain ⟨c, s, h1⟩ := hf
      obtain ⟨c', s', h2⟩ := hg
      refine ⟨c * c', s * s', fun p => ?_⟩
      rw [Function.comp_apply, h2, h1]; ext <;> simp <;> ring
    | _ => exact both
  | reflection =>
    cases b with
    | undefined => exact hg.elim
    | identity => rw [idr rfl]; exact hf
    | _ => exact both
  | shear =>
    cases b with
    | undefined => exact hg.elim
    | identity => rw [idr rfl]; exact hf
    | _ => exact both
  | affine =>
    cases b with
    | undefined => exact hg.elim
    | _ => exact both

/-- **C38.** The type of a product names the composed map whenever the types of the factors name theirs. -/
theorem C38_compose2 (a b c : T2) (h : a.mul b = .ok c) (f g : V2 → V2) (hf : OfKind2 a.type f) (hg : OfKind2 b.type g) :
    OfKind2 c.type (f ∘ g) := by
  have : c.type = a.type.compose b.type := by
    rw [T2.mul] at h
    split at h
    · simp at h
    split at h
    · simp at h
    · rw [Except.ok.injEq] at h
      rw [← h]
  rw [this]
  exact kind_compose2 _ _ _ _ hf hg

example : ∃ c, T2.mul T2.Identity T2.Identity = .ok c ∧ OfKind2 T2.Identity.type (fun p => p) := ⟨_, rfl, fun _ => rfl⟩

/-- In 2D no rotation about a point is flagged rigid, although all of them keep all distances. -/
theorem C38_rigid2_incomplete (p : V2) (a : Angle) (x : ℝ) (ha : Measures a x) :
    ∃ t, T2.RotationAround (some p) a = .ok t ∧ t.isRigid = false ∧ ∃ f, Moves2 t f ∧ KeepsDistances2 f := by
  have hex : ∃ t, T2.RotationAround (some p) a = .ok t := by
    have hR : T2.Rotation a = .ok ⟨.rotation, some !![Real.cos (x * (2 * Real.pi)), -Real.sin (x * (2 * Real.pi)), 0;
        Real.sin (x * (2 * Real.pi)), Real.cos (x * (2 * Real.pi)), 0; 0, 0, 1]⟩ := by
      simp [T2.Rotation, inRadian ha, bind, Except.bind, pure, Except.pure]
    simp [T2.RotationAround, need, T2.Translation, hR, T2.mul, T2.isDefined, TType.compose, bind, Except.bind, pure, Except.pure]
  obtain ⟨t, ht⟩ := hex
  obtain ⟨q, y, -, -, s, hty⟩ := rotationAround2_eq ht
  refine ⟨t, ht, by simp [T2.isRigid, hty], _, (shape2_moves s).1, ?_⟩
  intro u w
  rw [show ∀ (k l r : V2), k + r - (l + r) = k - l from fun k l r => by ext <;> simp, T2.turn_sub]
  exact T2.turn_norm s.1 _

example : Measures ⟨some 90, .degree⟩ (1 / 4) := quarter_degrees

/-! ## C39 -/

/-- Every transformation built from the factories (in 3D: with proper rotations) keeps distances of points, and dot products and handedness
of vectors. -/
theorem C39_isometry_partial :
    (∀ (eps : ℝ) (t : T3), 0 < eps → eps ≤ 1 → Built3 eps t → ∃ f g, Moves t f ∧ Turns t g ∧ KeepsDistances f ∧ KeepsGeometry g ∧
      ∀ p q, f p - f q = g (p - q)) ∧
    ∀ t : T2, Built2 t → ∃ f g, Moves2 t f ∧ Turns2 t g ∧ KeepsDistances2 f ∧ KeepsGeometry2 g ∧ ∀ p q, f p - f q = g (p - q) := by
  constructor
  · intro eps t h0 h1 h
    obtain ⟨l, v, s⟩ := built3_shape h0 h1 h
    have e : ∀ p q : V3, l.mulVec p + v - (l.mulVec q + v) = l.mulVec (p - q) := by
      intro p q; rw [← M3.mulVec_sub]; ext <;> simp
    refine ⟨_, _, (shape_moves s).1, (shape_moves s).2, ?_, ⟨M3.mulVec_dot s.1, M3.mulVec_cross s.1⟩, e⟩
    intro p q
    rw [e]
    exact M3.mulVec_norm s.1 _
  · intro t h
    obtain ⟨c, s, v, sh⟩ := built2_shape h
    have e : ∀ p q : V2, T2.turn c s p + v - (T2.turn c s q + v) = T2.turn c s (p - q) := by
      intro p q; rw [← T2.turn_sub]; ext <;> simp
    refine ⟨_, _, (shape2_moves sh).1, (shape2_moves sh).2, ?_, ⟨T2.turn_dot sh.1, T2.turn_area sh.1⟩, e⟩
    intro p q
    rw [e]
    exact T2.turn_norm sh.1 _

example : Built3 (1 / 2) T3.Identity ∧ Built2 T2.Identity := ⟨.identity, .identity⟩

/-- A 3D rotation built from a rotation matrix that its constructor accepts may reverse handedness. -/
theorem C39_reflection (eps : ℝ) (h0 : 0 < eps) :
    ∃ m t g, RotMat.ctor eps (some ⟨-1, 0, 0, 0, 1, 0, 0, 0, 1⟩) = .ok m ∧ T3.RotationOfMatrix m = .ok t ∧ Turns t g ∧
      ∃ u v, (g u).cross (g v) ≠ g (u.cross v) := by
  refine ⟨_, _, fun v => ⟨-v.x, v.y, v.z⟩, (C35_not_proper eps h0).2.1.1, rfl, ?_, ⟨0, 1, 0⟩, ⟨0, 0, 1⟩, ?_⟩
  · intro v
    simp [T3.applyToVector, T3.head, Matrix.mulVec, dotProduct, Fin.sum_univ_four]
  · simp [V3.cross]
    norm_num

/-! ## C40 -/

/-- The label of a product depends only on the labels of the factors; their composition is associative and commutative, with `Identity`
neutral and `Undefined` absorbing. -/
theorem C40_labels :
    (∀ a b c : T3, a.mul b = .ok c → ∀ a' b' c' : T3, a'.mul b' = .ok c' → a.type = a'.type → b.type = b'.type → c.type = c'.type) ∧
    (∀ (a b c : T3) (a' b' c' : T2), a.mul b = .ok c → a'.mul b' = .ok c' → a.type = a'.type → b.type = b'.type → c.type = c'.type) ∧
    (∀ a b c : T3, a.mul b = .ok c → ∀ c', b.mul a = .ok c' → c.type = c'.type) ∧
    (∀ s t u : TType, (s.compose t).compose u = s.compose (t.compose u)) ∧ (∀ s t : TType, s.compose t = t.compose s) ∧
    (∀ t : TType, TType.identity.compose t = t) ∧ ∀ t : TType, TType.undefined.compose t = .undefined := by
  have key : ∀ a b c : T3, a.mul b = .ok c → c.type = a.type.compose b.type := by
    intro a b c h
    simp only [T3.mul] at h
    split_ifs at h
    cases h; rfl
  have key2 : ∀ a b c : T2, a.mul b = .ok c → c.type = a.type.compose b.type := by
    intro a b c h
    simp only [T2.mul] at h
    split_ifs at h
    cases h; rfl
  have comm : ∀ s t : TType, s.compose t = t.compose s := by intro s t; cases s <;> cases t <;> rfl
  refine ⟨?_, ?_, ?_, ?_, comm, ?_, ?_⟩
  · intro a b c h a' b' c' h' e1 e2
    rw [key _ _ _ h, key _ _ _ h', e1, e2]
  · intro a b c a' b' c' h h' e1 e2
    rw [key _ _ _ h, key2 _ _ _ h', e1, e2]
  · intro a b c h c' h'
    rw [key _ _ _ h, key _ _ _ h', comm]
  · intro s t u; cases s <;> cases t <;> cases u <;> rfl
  · intro t; cases t <;> rfl
  · intro t; cases t <;> rfl

example : T3.Identity.mul T3.Identity = .ok ⟨.identity, some (1 * 1), true⟩ := rfl

/-- The label of a transformation built from the 3D factories tells the truth. Missing: rotation matrices that are not rotations, and the matrix
constructor, whose label `Identity` may be only approximate (`C40_approximate_identity`). -/
theorem C40_truthful3_partial (eps : ℝ) (h0 : 0 < eps) (h1 : eps ≤ 1) (t : T3) (h : Built3 eps t) :
    ∃ k, t.getType = .ok k ∧ (k = .identity → Moves t id ∧ Turns t id) ∧ (k = .translation → (∃ v, Moves t (· + v)) ∧ Turns t id) ∧
      (k = .rotation → ∃ g, Turns t g ∧ Moves t g ∧ g 0 = 0) ∧
      (k = .identity ∨ k = .translation ∨ k = .rotation ∨ k = .affine) := by
  obtain ⟨l, v, s⟩ := built3_shape h0 h1 h
  obtain ⟨m1, m2⟩ := shape_moves s
  obtain ⟨a1, a2, a3, a4, a5, a6, a7⟩ := s.2.2.2
  refine ⟨t.type, by simp [T3.getType, shape_defined s], ?_, ?_, ?_, ?_⟩
  · intro hk
    obtain ⟨rfl, rfl⟩ := a2 hk
    refine ⟨fun p => (m1 p).trans ?_, fun p => (m2 p).trans ?_⟩
    · congr 2; dsimp only; rw [M3.one_mulVec]; ext <;> simp
    · congr 1; rw [M3.one_mulVec]; rfl
  · intro hk
    have := a3 hk; subst this
    refine ⟨⟨v, fun p => (m1 p).trans ?_⟩, fun p => (m2 p).trans ?_⟩
    · congr 2; dsimp only; rw [M3.one_mulVec]
    · congr 1; rw [M3.one_mulVec]; rfl
  · intro hk
    have := a4 hk; subst this
    refine ⟨l.mulVec, m2, fun p => (m1 p).trans ?_, ?_⟩
    · congr 2; ext <;> simp
    · ext <;> simp [M3.mulVec]
  · cases ht : t.type <;> simp_all

example : Built3 (1 / 2) T3.Identity := .identity

/-- The 3D matrix constructor labels `Identity` a matrix that moves points. -/
theorem C40_approximate_identity (prec : ℝ) (hp : 0 < prec) :
    ∃ t f p, T3.ctor prec (some !![1, 0, 0, prec; 0, 1, 0, 0; 0, 0, 1, 0; 0, 0, 0, 1]) = .ok t ∧ t.isIdentity = .ok true ∧ Moves t f ∧ f p ≠ p := by
  have hn : nearIdentity prec !![1, 0, 0, prec; 0, 1, 0, 0; 0, 0, 1, 0; 0, 0, 0, 1] := by
    intro i j
    fin_cases i <;> fin_cases j <;> simp [hp.le, abs_of_pos hp]
  refine ⟨_, fun p => ⟨p.x + prec, p.y, p.z⟩, 0, if_pos hn, rfl, ?_, ?_⟩
  · intro p
    simp [T3.applyTo, need, bind, Except.bind, pure, Except.pure, T3.head, Matrix.mulVec, dotProduct, Fin.sum_univ_four]
  · simp [V3.ext_iff, hp.ne']

example : (0 : ℝ) < 1 / 1000000000000 := by norm_num

/-- The label of a 2D transformation tells the truth. -/
theorem C40_truthful2 (t : T2) (h : Built2 t) :
    ∃ k, t.getType = .ok k ∧ (k = .identity → Moves2 t id ∧ Turns2 t id) ∧ (k = .translation → (∃ v, Moves2 t (· + v)) ∧ Turns2 t id) ∧
      (k = .rotation → ∃ g, Turns2 t g ∧ Moves2 t g ∧ g 0 = 0) ∧
      (k = .identity ∨ k = .translation ∨ k = .rotation ∨ k = .affine) := by
  obtain ⟨c, s, v, sh⟩ := built2_shape h
  obtain ⟨m1, m2⟩ := shape2_moves sh
  obtain ⟨a1, a2, a3, a4, a5, a6, a7⟩ := sh.2.2
  refine ⟨t.type, by simp [T2.getType, shape2_defined sh], ?_, ?_, ?_, ?_⟩
  · intro hk
    obtain ⟨⟨rfl, rfl⟩, rfl⟩ := a2 hk
    refine ⟨fun p => (m1 p).trans ?_, fun p => (m2 p).trans ?_⟩
    · congr 2; dsimp only; rw [turn_one]; ext <;> simp
    · congr 1; rw [turn_one]; rfl
  · intro hk
    obtain ⟨rfl, rfl⟩ := a3 hk
    refine ⟨⟨v, fun p => (m1 p).trans ?_⟩, fun p => (m2 p).trans ?_⟩
    · congr 2; dsimp only; rw [turn_one]
    · congr 1; rw [turn_one]; rfl
  · intro hk
    have := a4 hk; subst this
    refine ⟨T2.turn c s, m2, fun p => (m1 p).trans ?_, turn_zero c s⟩
    congr 2; ext <;> simp
  · cases ht : t.type <;> simp_all

example : Built2 T2.Identity := .identity

/-! ## C41 -/

/-- 3D: the rotation about `p` exists for every defined rotation vector, fixes `p`, keeps distances to `p`, turns vectors as the rotation
does, and about the origin is the same map as the rotation. -/
theorem C41_around3 (eps : ℝ) (h0 : 0 < eps) (h1 : eps ≤ 1) (p : V3) (r : RotVec) (hd : r.isDefined = true)
    (hr : ∀ a, r.axis = some a → a.norm = 1) :
    ∃ t u f g, T3.RotationAround eps (some p) r = .ok t ∧ T3.Rotation eps r = .ok u ∧ Moves t f ∧ Moves u g ∧ f p = p ∧
      (∀ q, (f q - p).norm = (q - p).norm) ∧ (∀ q, f q - p = g (q - p)) ∧ (p = 0 → f = g) := by
  obtain ⟨m, hm, hrot⟩ := rotationVector_rotation h0 h1 hr hd
  have hu : T3.Rotation eps r =
      .ok ⟨.rotation, some !![m.m00, m.m10, m.m20, 0; m.m01, m.m11, m.m21, 0; m.m02, m.m12, m.m22, 0; 0, 0, 0, 1], true⟩ := by
    simp only [T3.Rotation, hd, hm, Bool.not_true, Bool.false_eq_true, if_false, bind, Except.bind, pure, Except.pure]
  have hex : ∃ t, T3.RotationAround eps (some p) r = .ok t := by
    simp [T3.RotationAround, need, T3.Translation, hu, T3.mul, T3.isDefined, TType.compose, bind, Except.bind, pure, Except.pure]
  obtain ⟨t, ht⟩ := hex
  obtain ⟨q, m', hq, hm', -, s⟩ := rotationAround3_eq h0 h1 hr ht
  cases hq
  rw [hm] at hm'; cases hm'
  have su := shape_rotation hrot
  have hT := M3.isRotation_transpose hrot
  have e : ∀ x : V3, m.transpose.mulVec x + (m.transpose.mulVec (-p) + p) - p = m.transpose.mulVec (x - p) + 0 := by
    intro x
    have := M3.mulVec_add m.transpose x (-p)
    rw [show x - p = x + -p by ext <;> simp [sub_eq_add_neg], ← this]
    ext <;> simp <;> ring
  refine ⟨t, _, _, _, ht, hu, (shape_moves s).1, (shape_moves su).1, ?_, ?_, e, ?_⟩
  · have := M3.mulVec_add m.transpose p (-p)
    have z : p + -p = 0 := by ext <;> simp
    rw [z] at this
    have z' : m.transpose.mulVec 0 = 0 := by ext <;> simp [M3.mulVec]
    rw [z'] at this
    have e1 := congrArg V3.x this
    have e2 := congrArg V3.y this
    have e3 := congrArg V3.z this
    simp at e1 e2 e3
    ext <;> simp <;> linarith
  · intro x
    rw [e]
    rw [show ∀ w : V3, w + 0 = w from fun w => by ext <;> simp]
    exact M3.mulVec_norm hT _
  · rintro rfl
    funext x
    ext <;> simp [M3.mulVec]

example : quarterZ.isDefined = true ∧ ∀ a, quarterZ.axis = some a → a.norm = 1 :=
  ⟨by simp [quarterZ, RotVec.isDefined, Angle.isDefined], quarterZ_axis⟩

/-- 2D: likewise. -/
theorem C41_around2 (p : V2) (a : Angle) (x : ℝ) (ha : Measures a x) :
    ∃ t u f g, T2.RotationAround (some p) a = .ok t ∧ T2.Rotation a = .ok u ∧ Moves2 t f ∧ Moves2 u g ∧ f p = p ∧
      (∀ q, (f q - p).norm = (q - p).norm) ∧ (∀ q, f q - p = g (q - p)) ∧ (p = 0 → f = g) := by
  have hR : T2.Rotation a = .ok ⟨.rotation, some !![Real.cos (x * (2 * Real.pi)), -Real.sin (x * (2 * Real.pi)), 0;
      Real.sin (x * (2 * Real.pi)), Real.cos (x * (2 * Real.pi)), 0; 0, 0, 1]⟩ := by
    simp [T2.Rotation, inRadian ha, bind, Except.bind, pure, Except.pure]
  obtain ⟨t, ht, -, -⟩ := C38_rigid2_incomplete p a x ha
  obtain ⟨q, y, hq, hy, s, -⟩ := rotationAround2_eq ht
  cases hq
  have hxy : y * (2 * Real.pi) = x * (2 * Real.pi) := by
    have h1 := inRadian ha
    have h2 := inRadian hy
    rw [h1, Except.ok.injEq] at h2
    exact h2.symm
  have su := shape2_rotation (x * (2 * Real.pi))
  rw [show 2 * Real.pi * y = x * (2 * Real.pi) by rw [← hxy]; ring] at s
  generalize Real.cos (x * (2 * Real.pi)) = c at *
  generalize Real.sin (x * (2 * Real.pi)) = d at *
  have e : ∀ w : V2, T2.turn c d w + (T2.turn c d (-p) + p) - p = T2.turn c d (w - p) + 0 := by
    intro w
    ext <;> simp [T2.turn] <;> ring
  refine ⟨t, _, _, _, ht, hR, (shape2_moves s).1, (shape2_moves su).1, ?_, ?_, e, ?_⟩
  · ext <;> simp [T2.turn] <;> ring
  · intro w
    rw [e, show ∀ w : V2, w + 0 = w from fun w => by ext <;> simp]
    exact T2.turn_norm su.1 _
  · rintro rfl
    funext w
    ext <;> simp [T2.turn]

example : Measures ⟨some 90, .degree⟩ (1 / 4) := quarter_degrees

/-! ## C74 -/

/-- Two transformations built from the factories are equal exactly when they move all points alike, whatever their labels; an undefined
transformation is equal to nothing, not even to itself. Missing in 3D: rotation matrices that are not rotations (an inverse may then not be
finite, and is not equal to itself). -/
theorem C74_equality_partial :
    (∀ (eps : ℝ) (a b : T3), 0 < eps → eps ≤ 1 → Built3 eps a → Built3 eps b → (a.eq b = true ↔ ∃ f, Moves a f ∧ Moves b f)) ∧
    (∀ a b : T2, Built2 a → Built2 b → (a.eq b = true ↔ ∃ f, Moves2 a f ∧ Moves2 b f)) ∧
    (∀ a b : T3, a.isDefined = false → a.eq b = false ∧ b.eq a = false) ∧
    ∀ a b : T2, a.isDefined = false → a.eq b = false ∧ b.eq a = false := by
  refine ⟨?_, ?_, ?_, ?_⟩
  · intro eps a b h0 h1 ha hb
    obtain ⟨l, v, sa⟩ := built3_shape h0 h1 ha
    obtain ⟨k, w, sb⟩ := built3_shape h0 h1 hb
    have he : a.eq b = true ↔ T3.aff l v = T3.aff k w := by
      simp [T3.eq, shape_defined sa, shape_defined sb, sa.2.1, sb.2.1]
    rw [he]
    constructor
    · intro h
      obtain ⟨rfl, rfl⟩ := T3.aff_injective h
      exact ⟨_, (shape_moves sa).1, (shape_moves sb).1⟩
    · rintro ⟨f, fa, fb⟩
      have key : ∀ p, l.mulVec p + v = k.mulVec p + w := by
        intro p
        have h1 := (shape_moves sa).1 p
        have h2 := (shape_moves sb).1 p
        rw [fa p] at h1
        rw [fb p] at h2
        simp only [Except.ok.injEq, Option.some.injEq] at h1 h2
        exact h1.symm.trans h2
      have hv : v = w := by
        have := key 0
        ext
        · simpa [M3.mulVec] using congrArg V3.x this
        · simpa [M3.mulVec] using congrArg V3.y this
        · simpa [M3.mulVec] using congrArg V3.z this
      subst hv
      have hl : l = k := by
        apply M3.ext_mulVec
        intro p
        have := key p
        ext
        · simpa using congrArg V3.x this
        · simpa using congrArg V3.y this
        · simpa using congrArg V3.z this
      rw [hl]
  · intro a b ha hb
    obtain ⟨c, s, v, sa⟩ := built2_shape ha
    obtain ⟨c', s', w, sb⟩ := built2_shape hb
    have he : a.eq b = true ↔ T2.aff c s v = T2.aff c' s' w := by
      simp [T2.eq, shape2_defined sa, shape2_defined sb, sa.2.1, sb.2.1]
    rw [he]
    constructor
    · intro h
      refine ⟨_, (shape2_moves sa).1, fun p => ?_⟩
      have hm : b.matrix = some (T2.aff c s v) := by rw [h]; exact sb.2.1
      simp only [T2.applyTo, need, bind, Except.bind, hm, Option.map_some, T2.head_aff, pure, Except.pure]
      congr 2
      ext <;> simp
    · rintro ⟨f, fa, fb⟩
      have key : ∀ p, T2.turn c s p + v = T2.turn c' s' p + w := by
        intro p
        have h1 := (shape2_moves sa).1 p
        have h2 := (shape2_moves sb).1 p
        rw [fa p] at h1
        rw [fb p] at h2
        simp only [Except.ok.injEq, Option.some.injEq] at h1 h2
        exact h1.symm.trans h2
      have k0 := key 0
      have k1 := key ⟨1, 0⟩
      have x0 := congrArg V2.x k0
      have y0 := congrArg V2.y k0
      have x1 := congrArg V2.x k1
      have y1 := congrArg V2.y k1
      simp [T2.turn] at x0 y0 x1 y1
      have hv : v = w := by ext <;> assumption
      subst hv
      have hc : c = c' := by linarith
      have hs : s = s' := by linarith
      rw [hc, hs]
  · intro a b h
    simp [T3.eq, h]
  · intro a b h
    simp [T2.eq, h]

example : Built3 (1 / 2) T3.Identity ∧ Built2 T2.Identity ∧ T3.Undefined.isDefined = false := ⟨.identity, .identity, rfl⟩

/-! ## C75 -/

/-- `Translation` adds the vector to points and leaves vectors alone. `Rotation` in 3D is the active rotation about the axis by the angle
(Rodrigues' formula with a plus sign), so the inverse of the rotation matrix of the same rotation vector. -/
theorem C75_factories3 (eps : ℝ) (h0 : 0 < eps) (h1 : eps ≤ 1) (a : V3) (ha : a.norm = 1) (t : Angle) (x : ℝ) (ht : Measures t x) (v : V3) :
    (∃ u, T3.Translation (some v) = .ok u ∧ Moves u (· + v) ∧ Turns u id) ∧
    ∃ u m g, T3.Rotation eps ⟨some a, t⟩ = .ok u ∧ RotMat.RotationVector eps ⟨some a, t⟩ = .ok m ∧ T3.RotationOfMatrix (some m) = .ok u ∧
      Moves u g ∧ Turns u g ∧ (∀ w, g (m.mulVec w) = w) ∧ g a = a ∧
      ∀ w, g w = Real.cos (2 * Real.pi * x) • w + ((1 - Real.cos (2 * Real.pi * x)) * a.dot w) • a + Real.sin (2 * Real.pi * x) • a.cross w := by
  constructor
  · refine ⟨_, rfl, fun p => ((shape_moves (shape_translation v)).1 p).trans ?_, fun p => ((shape_moves (shape_translation v)).2 p).trans ?_⟩
    · dsimp only; rw [M3.one_mulVec]
    · rw [M3.one_mulVec]; rfl
  · obtain ⟨q, m, -, hm, -, hrot, -, hax, -, hrod⟩ := C27_conversions eps h0 h1 a ha t x ht
    have hd : (⟨some a, t⟩ : RotVec).isDefined = true := by
      simp [RotVec.isDefined, (Angle.defined_iff t).2 ⟨x, ht⟩]
    have hu : T3.Rotation eps ⟨some a, t⟩ =
        .ok ⟨.rotation, some !![m.m00, m.m10, m.m20, 0; m.m01, m.m11, m.m21, 0; m.m02, m.m12, m.m22, 0; 0, 0, 0, 1], true⟩ := by
      simp only [T3.Rotation, hd, hm, Bool.not_true, Bool.false_eq_true, if_false, bind, Except.bind, pure, Except.pure]
    have sm := shape_moves (shape_rotation hrot)
    refine ⟨_, m, m.transpose.mulVec, hu, hm, rfl, fun p => (sm.1 p).trans ?_, sm.2, M3.transpose_mulVec hrot, ?_, ?_⟩
    · congr 2; ext <;> simp
    · have := M3.transpose_mulVec hrot a
      rwa [hax] at this
    · have ex := hrod ⟨1, 0, 0⟩
      have ey := hrod ⟨0, 1, 0⟩
      have ez := hrod ⟨0, 0, 1⟩
      generalize Real.cos (2 * Real.pi * x) = c at *
      generalize Real.sin (2 * Real.pi * x) = s at *
      intro w
      simp [V3.ext_iff, M3.mulVec, V3.dot, V3.cross] at ex ey ez
      obtain ⟨x1, x2, x3⟩ := ex
      obtain ⟨y1, y2, y3⟩ := ey
      obtain ⟨z1, z2, z3⟩ := ez
      ext <;> simp [M3.mulVec, M3.transpose, V3.dot, V3.cross]
      · rw [x1, x2, x3]; ring
      · rw [y1, y2, y3]; ring
      · rw [z1, z2, z3]; ring

example : (⟨0, 0, 1⟩ : V3).norm = 1 ∧ Measures ⟨some 90, .degree⟩ (1 / 4) :=
  ⟨by simp [V3.norm, V3.normSq, V3.dot], quarter_degrees⟩

/-- 2D: `Translation` adds the vector; `Rotation` is counter-clockwise, and the product of two rotations is the rotation by the sum of the
angles, and the inverse the rotation by the opposite angle. -/
theorem C75_factories2 (v : V2) (a b : Angle) (x y : ℝ) (ha : Measures a x) (hb : Measures b y) :
    (∃ u, T2.Translation (some v) = .ok u ∧ Moves2 u (· + v) ∧ Turns2 u id) ∧
    (∃ u, T2.Rotation a = .ok u ∧ Moves2 u (fun p => ⟨Real.cos (2 * Real.pi * x) * p.x - Real.sin (2 * Real.pi * x) * p.y,
      Real.sin (2 * Real.pi * x) * p.x + Real.cos (2 * Real.pi * x) * p.y⟩)) ∧
    (∃ s r r' c d, a.add b = .ok s ∧ T2.Rotation a = .ok r ∧ T2.Rotation b = .ok r' ∧ r.mul r' = .ok c ∧ T2.Rotation s = .ok d ∧
      c.type = d.type ∧ c.matrix = d.matrix) ∧
    ∃ n r i d, a.neg = .ok n ∧ T2.Rotation a = .ok r ∧ r.getInverse = .ok i ∧ T2.Rotation n = .ok d ∧ i.type = d.type ∧ i.matrix = d.matrix := by
  have hR : ∀ {a : Angle} {x : ℝ}, Measures a x → T2.Rotation a = .ok ⟨.rotation, some (T2.aff (Real.cos (x * (2 * Real.pi)))
      (Real.sin (x * (2 * Real.pi))) 0)⟩ := by
    intro a x ha
    simp [T2.Rotation, inRadian ha, bind, Except.bind, pure, Except.pure, T2.aff]
  obtain ⟨⟨s, hs, ms, -⟩, -, -, -, ⟨n, hn, mn, -⟩, -⟩ := C19_arithmetic a b x y ha hb 1
  refine ⟨⟨_, rfl, fun p => ((shape2_moves (shape2_translation v)).1 p).trans ?_, fun p => ((shape2_moves (shape2_translation v)).2 p).trans ?_⟩,
    ⟨_, hR ha, fun p => ((shape2_moves (shape2_rotation _)).1 p).trans ?_⟩, ⟨s, _, _, _, _, hs, hR ha, hR hb, rfl, hR ms, rfl, ?_⟩,
    ⟨n, _, _, _, hn, hR ha, rfl, hR mn, rfl, ?_⟩⟩
  · dsimp only; rw [turn_one]
  · rw [turn_one]; rfl
  · congr 2
    rw [show x * (2 * Real.pi) = 2 * Real.pi * x by ring]
    ext <;> simp [T2.turn]
  · simp only [Option.map₂_some_some, T2.aff_mul, turn_zero]
    rw [add_mul, Real.cos_add, Real.sin_add]
    congr 2
    ext <;> simp
  · simp only [Option.bind_some, T2.inverse_aff (Real.cos_sq_add_sin_sq _), turn_zero]
    rw [neg_mul, Real.cos_neg, Real.sin_neg]
    congr 2
    ext <;> simp

example : Measures ⟨some 90, .degree⟩ (1 / 4) ∧ Measures ⟨some (-3 * Real.pi / 2), .radian⟩ (-3 / 4) :=
  ⟨quarter_degrees, threeQuarters_radians⟩

/-- An undefined vector, point, angle or rotation makes every factory throw, an undefined transformation cannot be inverted, and an
undefined point cannot be moved. -/
theorem C75_undefined (eps : ℝ) :
    T3.Translation none = .error .undefined ∧ T2.Translation none = .error .undefined ∧ T3.RotationOfMatrix none = .error .undefined ∧
    (∀ r : RotVec, r.isDefined = false → T3.Rotation eps r = .error .undefined ∧ ∀ p, T3.RotationAround eps p r = .error .undefined) ∧
    (∀ a : Angle, a.isDefined = false → T2.Rotation a = .error .undefined ∧ ∀ p, T2.RotationAround p a = .error .undefined) ∧
    (∀ r, T3.RotationAround eps none r = .error .undefined) ∧ (∀ a, T2.RotationAround none a = .error .undefined) ∧
    (∀ t : T3, t.isDefined = false → t.getInverse = .error .undefined ∧ t.isRigid = .error .undefined ∧ t.isIdentity = .error .undefined ∧
      t.getType = .error .undefined ∧ t.getMatrix = .error .undefined ∧ ∀ p, P3.applyTransformation t p = .error .undefined) ∧
    (∀ t : T2, t.isDefined = false → t.getInverse = .error .undefined ∧ t.getType = .error .undefined ∧
      ∀ p, P2.applyTransformation t p = .error .undefined) ∧
    (∀ t : T3, t.applyTo none = .error .undefined) ∧ ∀ t : T2, t.applyTo none = .error .undefined := by
  refine ⟨rfl, rfl, rfl, ?_, ?_, fun _ => rfl, fun _ => rfl, ?_, ?_, fun _ => rfl, fun _ => rfl⟩
  · intro r h
    have e : T3.Rotation eps r = .error .undefined := by simp [T3.Rotation, h]
    refine ⟨e, fun p => ?_⟩
    cases p with
    | none => rfl
    | some p => simp [T3.RotationAround, need, T3.Translation, e, bind, Except.bind, pure, Except.pure]
  · intro a h
    have e : T2.Rotation a = .error .undefined := by simp [T2.Rotation, Angle.inUnit_undefined h, bind, Except.bind]
    refine ⟨e, fun p => ?_⟩
    cases p with
    | none => rfl
    | some p => simp [T2.RotationAround, need, T2.Translation, e, bind, Except.bind, pure, Except.pure]
  · intro t h
    simp [T3.getInverse, T3.isRigid, T3.isIdentity, T3.getType, T3.getMatrix, P3.applyTransformation, h]
  · intro t h
    simp [T2.getInverse, T2.getType, P2.applyTransformation, h]

example : T3.Undefined.isDefined = false ∧ (⟨none, quarterZ.angle⟩ : RotVec).isDefined = false := ⟨rfl, rfl⟩

end Verif.Props
