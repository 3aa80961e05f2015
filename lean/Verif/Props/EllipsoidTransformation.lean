import Verif.Props.EllipsoidIntersection
import Verif.Props.Rigid
import Mathlib.Analysis.Matrix.Spectrum

/-!
# Moving ellipsoids (C77)
-/

namespace Verif.Props

open Verif Spec

/-- What is assumed of the eigen solver: for a symmetric matrix it succeeds with three orthonormal vectors that the matrix multiplies by the three values. -/
def Solves (solve : M3 → Option Eigen3) : Prop :=
  ∀ m : M3, m.transpose = m → ∃ x, solve m = some x ∧ x.v0.normSq = 1 ∧ x.v1.normSq = 1 ∧ x.v2.normSq = 1 ∧ x.v0.dot x.v1 = 0 ∧ x.v1.dot x.v2 = 0 ∧
    x.v2.dot x.v0 = 0 ∧ m.mulVec x.v0 = x.l0 • x.v0 ∧ m.mulVec x.v1 = x.l1 • x.v1 ∧ m.mulVec x.v2 = x.l2 • x.v2

/-- There is such a solver, by the spectral theorem. -/
theorem exists_solver : ∃ solve, Solves solve := by
  have key : ∀ m : M3, m.transpose = m → ∃ x : Eigen3, x.v0.normSq = 1 ∧ x.v1.normSq = 1 ∧ x.v2.normSq = 1 ∧ x.v0.dot x.v1 = 0 ∧ x.v1.dot x.v2 = 0 ∧
      x.v2.dot x.v0 = 0 ∧ m.mulVec x.v0 = x.l0 • x.v0 ∧ m.mulVec x.v1 = x.l1 • x.v1 ∧ m.mulVec x.v2 = x.l2 • x.v2 := by
    intro m hm
    have h1 : m.m10 = m.m01 := congrArg M3.m01 hm
    have h2 : m.m20 = m.m02 := congrArg M3.m02 hm
    have h3 : m.m21 = m.m12 := congrArg M3.m12 hm
    let A : Matrix (Fin 3) (Fin 3) ℝ := !![m.m00, m.m01, m.m02; m.m10, m.m11, m.m12; m.m20, m.m21, m.m22]
    have hA : A.IsHermitian := by
      ext i j
      fin_cases i <;> fin_cases j <;> simp [A, Matrix.conjTranspose, h1, h2, h3]
    let b := hA.eigenvectorBasis
    let w : Fin 3 → V3 := fun i => ⟨b i 0, b i 1, b i 2⟩
    have hb : ∀ i j, (w i).dot (w j) = if i = j then 1 else 0 := by
      intro i j
      have := orthonormal_iff_ite.1 b.orthonormal j i
      simp only [PiLp.inner_apply, Fin.sum_univ_three, RCLike.inner_apply, conj_trivial] at this
      simp only [w, V3.dot]
      rw [this]
      by_cases h : i = j
      · simp [h]
      · simp [h, Ne.symm h]
    have he : ∀ i, m.mulVec (w i) = hA.eigenvalues i • w i := by
      intro i
      have := hA.mulVec_eigenvectorBasis i
      have h0 := congrFun this 0
      have h1 := congrFun this 1
      have h2 := congrFun this 2
      simp [A, Matrix.mulVec, dotProduct, Fin.sum_univ_three] at h0 h1 h2
      rw [V3.ext_iff]
      simp only [M3.mulVec, V3.smul_x, V3.smul_y, V3.smul_z, w, b]
      exact ⟨by linarith, by linarith, by linarith⟩
    refine ⟨⟨hA.eigenvalues 0, hA.eigenvalues 1, hA.eigenvalues 2, w 0, w 1, w 2⟩, ?_⟩
    simp only [V3.normSq, hb, he]
    norm_num; exact ⟨by decide, by decide⟩
  classical
  choose f hf using key
  refine ⟨fun m => if h : m.transpose = m then some (f m h) else none, fun m hm => ⟨f m hm, ?_, hf m hm⟩⟩
  simp [hm]

/-- Two orthogonal unit vectors and their cross product are the columns of a rotation. -/
theorem columns_isRotation {u v : V3} (hu : u.normSq = 1) (hv : v.normSq = 1) (huv : u.dot v = 0) :
    IsRotation ⟨u.x, v.x, (u.cross v).x, u.y, v.y, (u.cross v).y, u.z, v.z, (u.cross v).z⟩ := by
  have hw := V3.lagrange u v
  rw [hu, hv, huv] at hw
  rw [M3.isRotation_iff']
  simp only [V3.normSq, V3.dot, V3.cross] at hu hv huv hw
  constructor
  · ext <;> simp only [M3.mul, M3.transpose, M3.one, V3.cross]
    · linarith
    · linarith
    · ring
    · linarith
    · linarith
    · ring
    · ring
    · ring
    · linarith
  · simp only [M3.det, V3.cross]
    linarith

theorem inverse3_rotation {l : M3} (h : IsRotation l) : Ellipsoid3.inverse3 l = some l.transpose := by
  obtain ⟨c00, c11, c22, c01, c02, c12, r00, r11, r22, r01, r02, r12, f00, f01, f02, f10, f11, f12, f20, f21, f22⟩ := M3.eqs_of_isRotation h
  obtain ⟨-, hd⟩ := M3.isRotation_iff.1 h
  have hd' : l.m00 * (l.m11 * l.m22 - l.m12 * l.m21) - l.m01 * (l.m10 * l.m22 - l.m12 * l.m20) + l.m02 * (l.m10 * l.m21 - l.m11 * l.m20) = 1 := by
    rw [← hd, M3.det]
  simp only [Ellipsoid3.inverse3, hd', one_ne_zero, if_false, div_one, M3.transpose, Option.some.injEq]
  ext <;> simp only <;> linarith

/-- The three orthonormal eigenvectors give the quadratic form of a symmetric matrix. -/
theorem spectral {m : M3} {u v w : V3} {l0 l1 l2 : ℝ} (hu : u.normSq = 1) (hv : v.normSq = 1) (hw : w.normSq = 1) (huv : u.dot v = 0) (hvw : v.dot w = 0)
    (hwu : w.dot u = 0) (e0 : m.mulVec u = l0 • u) (e1 : m.mulVec v = l1 • v) (e2 : m.mulVec w = l2 • w) (y : V3) :
    y.dot (m.mulVec y) = l0 * (y.dot u) ^ 2 + l1 * (y.dot v) ^ 2 + l2 * (y.dot (u.cross v)) ^ 2 ∧
      (0 < w.dot (m.mulVec w) → 0 < l2) := by
  have hrot := columns_isRotation hu hv huv
  have full : ∀ z : V3, z = (z.dot u) • u + (z.dot v) • v + (z.dot (u.cross v)) • (u.cross v) := by
    intro z
    have := M3.mulVec_transpose hrot z
    simp only [M3.mulVec, M3.transpose] at this
    rw [V3.ext_iff] at this ⊢
    simp only [V3.add_x, V3.add_y, V3.add_z, V3.smul_x, V3.smul_y, V3.smul_z, V3.dot] at this ⊢
    exact ⟨by linarith [this.1], by linarith [this.2.1], by linarith [this.2.2]⟩
  have hk : w = (w.dot (u.cross v)) • (u.cross v) := by
    have h := full w
    rw [hwu, V3.dot_comm w v, hvw] at h
    rw [V3.ext_iff] at h ⊢
    simpa using h
  have hn : (u.cross v).normSq = 1 := by rw [V3.lagrange, hu, hv, huv]; norm_num
  obtain ⟨k, ek⟩ : ∃ k, k = w.dot (u.cross v) := ⟨_, rfl⟩
  rw [← ek] at hk
  have hk2 : k * k = 1 := by
    have := hw
    rw [hk, V3.normSq_smul, hn] at this
    linarith
  have e3 : m.mulVec (u.cross v) = l2 • (u.cross v) := by
    have hinv : u.cross v = k • w := by
      rw [hk]
      rw [V3.ext_iff]
      simp only [V3.smul_x, V3.smul_y, V3.smul_z, ← mul_assoc, hk2, one_mul, and_self]
    have ms : m.mulVec (k • w) = k • m.mulVec w := by
      rw [V3.ext_iff]; simp only [M3.mulVec, V3.smul_x, V3.smul_y, V3.smul_z]
      exact ⟨by ring, by ring, by ring⟩
    rw [hinv, ms, e2, V3.ext_iff]
    simp only [V3.smul_x, V3.smul_y, V3.smul_z]
    exact ⟨by ring, by ring, by ring⟩
  refine ⟨?_, fun h => ?_⟩
  · have ex : m.mulVec y = (l0 * y.dot u) • u + (l1 * y.dot v) • v + (l2 * y.dot (u.cross v)) • (u.cross v) := by
      have lin : ∀ a b c : ℝ, m.mulVec (a • u + b • v + c • (u.cross v)) = a • m.mulVec u + b • m.mulVec v + c • m.mulVec (u.cross v) := by
        intro a b c
        rw [V3.ext_iff]
        simp only [M3.mulVec, V3.add_x, V3.add_y, V3.add_z, V3.smul_x, V3.smul_y, V3.smul_z]
        exact ⟨by ring, by ring, by ring⟩
      have h := lin (y.dot u) (y.dot v) (y.dot (u.cross v))
      rw [← full y, e0, e1, e3] at h
      rw [h, V3.ext_iff]
      simp only [V3.add_x, V3.add_y, V3.add_z, V3.smul_x, V3.smul_y, V3.smul_z]
      exact ⟨by ring, by ring, by ring⟩
    rw [ex]
    generalize u.cross v = z
    simp only [V3.dot, V3.add_x, V3.add_y, V3.add_z, V3.smul_x, V3.smul_y, V3.smul_z]
    ring
  · rw [e2] at h
    have : w.dot (l2 • w) = l2 * w.normSq := by simp only [V3.normSq, V3.dot, V3.smul_x, V3.smul_y, V3.smul_z]; ring
    rw [this, hw] at h
    linarith

/-- Moving an ellipsoid by a transformation built from the factories, with any eigen solver that does what it promises: the result is an ellipsoid with
positive semi-axes and a unit orientation, whose quadratic form (the one of `getMatrix` and of all intersections) has the same value at a moved point as
the original one at the point. So the surface moves with the points.
What is missing: `contains` reads the conjugate orientation (`C49_violated`), so it does not follow. -/
theorem C77_moved_partial (eps : ℝ) (h0 : 0 < eps) (h1 : eps ≤ 1) (solve : M3 → Option Eigen3) (hs : Solves solve) (t : T3) (ht : Built3 eps t)
    (p : V3) (a b c : ℝ) (ha : 0 < a) (hb : 0 < b) (hc : 0 < c) (q : Quat) (hq : Unitary q) :
    ∃ p' a' b' c' q' f, Ellipsoid3.applyTransformation eps solve t (ell p a b c q) = .ok (ell p' a' b' c' q') ∧ 0 < a' ∧ 0 < b' ∧ 0 < c' ∧ Unitary q' ∧
      Moves t f ∧ p' = f p ∧ (∀ x, Form p' a' b' c' q' (f x) = Form p a b c q x) ∧ f '' Surface p a b c q = Surface p' a' b' c' q' := by
  obtain ⟨l, v, hsh⟩ := built3_shape h0 h1 ht
  obtain ⟨hl, hmat, -, htr⟩ := id hsh
  have hdef := shape_defined hsh
  have image : ∀ p' a' b' c' q', (∀ x, Form p' a' b' c' q' (move l v x) = Form p a b c q x) → move l v '' Surface p a b c q = Surface p' a' b' c' q' := by
    intro p' a' b' c' q' h
    ext y
    constructor
    · rintro ⟨x, hx, rfl⟩
      show Form p' a' b' c' q' (move l v x) = 1
      rw [h]; exact hx
    · intro hy
      have hy' : Form p' a' b' c' q' y = 1 := hy
      have e : move l v (l.transpose.mulVec (y - v)) = y := by
        rw [move, M3.mulVec_transpose hl]; ext <;> simp
      refine ⟨l.transpose.mulVec (y - v), ?_, e⟩
      show Form p a b c q _ = 1
      rw [← h, e]; exact hy'
  have hdE : (ell p a b c q).isDefined = true := rfl
  by_cases hid : t.type = .identity
  · obtain ⟨rfl, rfl⟩ := htr.2.1 hid
    have hmv : ∀ x, move M3.one 0 x = x := fun x => by rw [move, M3.one_mulVec]; ext <;> simp
    refine ⟨p, a, b, c, q, move M3.one 0, ?_, ha, hb, hc, hq, (shape_moves hsh).1, (hmv p).symm, fun x => by rw [hmv], ?_⟩
    · simp [Ellipsoid3.applyTransformation, hdef, hdE, T3.isIdentity, hid, bind, Except.bind]
    · exact image _ _ _ _ _ fun x => by rw [hmv]
  · set G := (gteOf p a b c (RotMat.ofQuat q)).getM with hG
    have hGm := matrix_eq h0 p a b c hq
    have hblock : Ellipsoid3.block (T3.aff l v) = l := by
      ext <;> simp [Ellipsoid3.block, T3.aff]
    have hGs : G.transpose = G := by
      rw [hG]; ext <;> simp only [M3.transpose, Gte.Ellipsoid.getM, Gte.plus, Gte.outer] <;> ring
    have htt : l.transpose.transpose = l := rfl
    set T := (l.mul G).mul l.transpose with hT
    have hTs : T.transpose = T := by
      have g1 : G.m10 = G.m01 := by have := congrArg M3.m01 hGs; exact this
      have g2 : G.m20 = G.m02 := by have := congrArg M3.m02 hGs; exact this
      have g3 : G.m21 = G.m12 := by have := congrArg M3.m12 hGs; exact this
      rw [hT]; ext <;> simp only [M3.transpose, M3.mul, g1, g2, g3] <;> ring
    have hTl : ∀ y : V3, (l.mulVec y).dot (T.mulVec (l.mulVec y)) = y.dot (G.mulVec y) := by
      intro y
      have e : T.mulVec (l.mulVec y) = l.mulVec (G.mulVec (l.transpose.mulVec (l.mulVec y))) := by
        rw [hT]; ext <;> simp only [M3.mulVec, M3.mul] <;> ring
      rw [e, M3.transpose_mulVec hl, M3.mulVec_dot hl]
    have hTpos : ∀ z : V3, z.normSq = 1 → 0 < z.dot (T.mulVec z) := by
      intro z hz
      have e := M3.mulVec_transpose hl z
      rw [← e, hTl]
      apply gte_pos (RotMat.ofQuat_isRotation hq) p ha hb hc
      intro hzero
      rw [hzero] at e
      have : z = 0 := by rw [← e]; ext <;> simp [M3.mulVec]
      rw [this] at hz
      simp [V3.normSq, V3.dot] at hz
    obtain ⟨x, hx, n0, n1, n2, d01, d12, d20, e0, e1, e2⟩ := hs T hTs
    have hrot := columns_isRotation n0 n1 d01
    have val : ∀ (z : V3) (k : ℝ), z.normSq = 1 → T.mulVec z = k • z → 0 < k := by
      intro z k hz hk
      have := hTpos z hz
      rw [hk] at this
      have e : z.dot (k • z) = k * z.normSq := by simp only [V3.normSq, V3.dot, V3.smul_x, V3.smul_y, V3.smul_z]; ring
      rw [e, hz] at this
      linarith
    have p0 := val _ _ n0 e0
    have p1 := val _ _ n1 e1
    have p2 := val _ _ n2 e2
    obtain ⟨k, hk, hku, hkm⟩ := quat_of_rotation (eps := eps) (by linarith) hrot
    have hnw : (x.v0.cross x.v1).normSq = 1 := by rw [V3.lagrange, n0, n1, d01]; norm_num
    have hcol : RotMat.Columns eps (some x.v0) (some x.v1) (some (x.v0.cross x.v1)) =
        .ok ⟨x.v0.x, x.v1.x, (x.v0.cross x.v1).x, x.v0.y, x.v1.y, (x.v0.cross x.v1).y, x.v0.z, x.v1.z, (x.v0.cross x.v1).z⟩ := by
      have z1 : x.v1.dot (x.v0.cross x.v1) = 0 := by simp only [V3.dot, V3.cross]; ring
      have z2 : (x.v0.cross x.v1).dot x.v0 = 0 := by simp only [V3.dot, V3.cross]; ring
      have hct : RotMat.checkTriple eps x.v0 x.v1 (x.v0.cross x.v1) = .ok ⟨⟩ := by
        simp [RotMat.checkTriple, V3.norm_of_normSq_one n0, V3.norm_of_normSq_one n1, V3.norm_of_normSq_one hnw, d01, z1, z2, not_lt.2 h0.le]
      simp only [RotMat.Columns, need, bind, Except.bind, hct]
      exact RotMat.mk_of_isRotation h0 hrot
    have huc : Unitary k.conj := by
      have : k.x ^ 2 + k.y ^ 2 + k.z ^ 2 + k.s ^ 2 = 1 := by simpa [Unitary] using hku
      simp only [Unitary, Quat.conj]; linarith [this, neg_sq k.x, neg_sq k.y, neg_sq k.z]
    have hform : ∀ y, Form (move l v p) (Real.sqrt (1 / x.l0)) (Real.sqrt (1 / x.l1)) (Real.sqrt (1 / x.l2)) k.conj (move l v y) = Form p a b c q y := by
      intro y
      have hsp := (spectral n0 n1 n2 d01 d12 d20 e0 e1 e2 (l.mulVec (y - p))).1
      rw [hTl, Gte.Ellipsoid.form_eq] at hsp
      have lhs : Form (move l v p) (Real.sqrt (1 / x.l0)) (Real.sqrt (1 / x.l1)) (Real.sqrt (1 / x.l2)) k.conj (move l v y) =
          x.l0 * (l.mulVec (y - p)).dot x.v0 ^ 2 + x.l1 * (l.mulVec (y - p)).dot x.v1 ^ 2 + x.l2 * (l.mulVec (y - p)).dot (x.v0.cross x.v1) ^ 2 := by
        rw [Form, RotMat.ofQuat_conj, hkm, move_sub, div_pow, div_pow, div_pow, Real.sq_sqrt (by positivity), Real.sq_sqrt (by positivity),
          Real.sq_sqrt (by positivity)]
        simp only [M3.transpose, M3.row0, M3.row1, M3.row2]
        field_simp
      rw [lhs, ← hsp]; rfl
    refine ⟨move l v p, Real.sqrt (1 / x.l0), Real.sqrt (1 / x.l1), Real.sqrt (1 / x.l2), k.conj, move l v, ?_, Real.sqrt_pos.2 (by positivity),
      Real.sqrt_pos.2 (by positivity), Real.sqrt_pos.2 (by positivity), huc, (shape_moves hsh).1, rfl, hform, image _ _ _ _ _ hform⟩
    have hp : P3.applyTransformation t (ell p a b c q).center = .ok (some (move l v p)) := shape_point hsh p
    have hGm' : Ellipsoid3.getMatrix eps { ell p a b c q with center := some (move l v p) } = .ok G := matrix_eq h0 (move l v p) a b c hq
    simp only [Ellipsoid3.applyTransformation, hdef, hdE, Bool.not_true, Bool.false_eq_true, if_false, T3.isIdentity, hid, decide_false, bind, Except.bind,
      hp, T3.getMatrix, hmat, hGm', Option.bind_some, hblock, inverse3_rotation hl, htt]
    rw [hx]
    simp only [hcol, hk]
    rfl

example : Built3 1 ⟨.translation, some !![1, 0, 0, 1; 0, 1, 0, 2; 0, 0, 1, 3; 0, 0, 0, 1], true⟩ ∧ Unitary ⟨1 / 2, -1 / 2, 1 / 2, 1 / 2⟩ ∧ (0 : ℝ) < 2 :=
  ⟨Built3.translation (some ⟨1, 2, 3⟩) _ rfl, unitary_example, two_pos⟩

/-- Errors: an undefined transformation or ellipsoid and a failure of the eigen solver are rejected. -/
theorem C77_errors (eps : ℝ) (solve : M3 → Option Eigen3) (t : T3) (e : Ellipsoid3) :
    (t.isDefined = false → e.applyTransformation eps solve t = .error .undefined) ∧
    (e.isDefined = false → e.applyTransformation eps solve t = .error .undefined) ∧
    ((∀ m, solve m = none) → 0 < eps → eps ≤ 1 → Built3 eps t → t.isIdentity = .ok false → ∀ p a b c q, Unitary q → e = ell p a b c q →
      e.applyTransformation eps solve t = .error .runtimeError) := by
  refine ⟨fun h => by simp [Ellipsoid3.applyTransformation, h], fun h => ?_, ?_⟩
  · by_cases ht : t.isDefined = true <;> simp [Ellipsoid3.applyTransformation, h, ht]
  · rintro hn h0 h1 ht hid p a b c q hq rfl
    obtain ⟨l, v, hsh⟩ := built3_shape h0 h1 ht
    obtain ⟨hl, hmat, -, htr⟩ := id hsh
    have hdef := shape_defined hsh
    have hp : P3.applyTransformation t (ell p a b c q).center = .ok (some (move l v p)) := shape_point hsh p
    have hblock : Ellipsoid3.block (T3.aff l v) = l := by
      ext <;> simp [Ellipsoid3.block, T3.aff]
    have hdE : (ell p a b c q).isDefined = true := rfl
    have hGm : Ellipsoid3.getMatrix eps { ell p a b c q with center := some (move l v p) } = .ok (gteOf (move l v p) a b c (RotMat.ofQuat q)).getM :=
      matrix_eq h0 (move l v p) a b c hq
    simp only [Ellipsoid3.applyTransformation, hdef, hdE, Bool.not_true, Bool.false_eq_true, if_false, hid, bind, Except.bind,
      hp, T3.getMatrix, hmat, hGm, Option.bind_some, hblock, inverse3_rotation hl, hn]

example : T3.isIdentity ⟨.translation, some !![1, 0, 0, 1; 0, 1, 0, 2; 0, 0, 1, 3; 0, 0, 0, 1], true⟩ = .ok false := by
  simp [T3.isIdentity, T3.isDefined]

end Verif.Props
