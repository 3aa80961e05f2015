import Mathlib.Analysis.Quaternion
import Verif.Model.DoubleRotate
import Verif.Lemmas.DoubleTransform
import Verif.Spec.Rotation

/-! # Lemmas on products of quaternions in double precision -/

namespace Verif.DQuat

open Verif Verif.Spec Verif.Double

/-- the quaternion with these components -/
def of (q : Quat) : DQuat := ⟨.fin q.x, .fin q.y, .fin q.z, .fin q.s⟩

/-- the computed component `a * x + b * y - (c * z - d * w)` -/
noncomputable def vec4 (a x b y c z d w : ℝ) : ℝ := rnd (rnd (rnd (a * x) + rnd (b * y)) - rnd (rnd (c * z) - rnd (d * w)))

/-- the computed component `a * x - (b * y + c * z + d * w)` -/
noncomputable def sca4 (o : Bool) (a x b y c z d w : ℝ) : ℝ := rnd (rnd (a * x) - DVec.sum3 o (rnd (b * y)) (rnd (c * z)) (rnd (d * w)))

/-- the computed product -/
noncomputable def prod (o : Bool) (p q : Quat) : Quat :=
  ⟨vec4 q.s p.x p.s q.x p.y q.z p.z q.y, vec4 q.s p.y p.s q.y p.z q.x p.x q.z, vec4 q.s p.z p.s q.z p.x q.y p.y q.x, sca4 o p.s q.s p.x q.x p.y q.y p.z q.z⟩

theorem vec4_near (a x b y c z d w : ℝ) :
    |vec4 a x b y c z d w - (a * x + b * y - (c * z - d * w))| ≤ 41 / 10 * u * (|a * x| + |b * y| + |c * z| + |d * w|) + 5 * t := by
  have r : ∀ x : ℝ, Representable (rnd x) := rnd_representable
  have n : ∀ {C c : ℝ}, |C - c| ≤ u * |c| + t → |-C - -c| ≤ u * |-c| + t := fun {C c} h => by
    rw [abs_neg, show -C - -c = -(C - c) by ring, abs_neg]; exact h
  have := DT3.pairs_near (r _) (r _) (representable_neg (r _)) (r _) (DVec.mul_near a x) (DVec.mul_near b y) (n (DVec.mul_near c z)) (DVec.mul_near d w)
  rw [show -rnd (c * z) + rnd (d * w) = -(rnd (c * z) - rnd (d * w)) by ring, rnd_neg, ← sub_eq_add_neg, abs_neg] at this
  rw [show a * x + b * y - (c * z - d * w) = a * x + b * y + -(c * z) + d * w by ring]
  exact this

theorem sca4_near (o : Bool) (a x b y c z d w : ℝ) :
    |sca4 o a x b y c z d w - (a * x - (b * y + c * z + d * w))| ≤ 41 / 10 * u * (|a * x| + |b * y| + |c * z| + |d * w|) + 5 * t := by
  have r : ∀ x : ℝ, Representable (rnd x) := rnd_representable
  have n : ∀ {C c : ℝ}, |C - c| ≤ u * |c| + t → |-C - -c| ≤ u * |-c| + t := fun {C c} h => by
    rw [abs_neg, show -C - -c = -(C - c) by ring, abs_neg]; exact h
  have nr := fun x : ℝ => representable_neg (r x)
  cases o
  · have := DT3.left_near (nr _) (nr _) (nr _) (r _) (n (DVec.mul_near b y)) (n (DVec.mul_near c z)) (n (DVec.mul_near d w)) (DVec.mul_near a x)
    rw [show -rnd (b * y) + -rnd (c * z) = -(rnd (b * y) + rnd (c * z)) by ring, rnd_neg, ← neg_add, rnd_neg, neg_add_eq_sub, abs_neg, abs_neg, abs_neg] at this
    rw [show a * x - (b * y + c * z + d * w) = -(b * y) + -(c * z) + -(d * w) + a * x by ring,
      show |a * x| + |b * y| + |c * z| + |d * w| = |b * y| + |c * z| + |d * w| + |a * x| by ring]
    simpa [sca4, DVec.sum3] using this
  · have := DT3.left_near (nr _) (nr _) (nr _) (r _) (n (DVec.mul_near c z)) (n (DVec.mul_near d w)) (n (DVec.mul_near b y)) (DVec.mul_near a x)
    rw [show -rnd (c * z) + -rnd (d * w) = -(rnd (c * z) + rnd (d * w)) by ring, rnd_neg, ← neg_add, rnd_neg, neg_add_eq_sub, abs_neg, abs_neg, abs_neg,
      add_comm (rnd (rnd (c * z) + rnd (d * w)))] at this
    rw [show a * x - (b * y + c * z + d * w) = -(c * z) + -(d * w) + -(b * y) + a * x by ring,
      show |a * x| + |b * y| + |c * z| + |d * w| = |c * z| + |d * w| + |b * y| + |a * x| by ring]
    simpa [sca4, DVec.sum3] using this

theorem norm_hamilton (q : Quat) : ‖hamilton q‖ ^ 2 = q.s ^ 2 + q.x ^ 2 + q.y ^ 2 + q.z ^ 2 := by
  rw [sq, ← Quaternion.normSq_eq_norm_mul_self, Quaternion.normSq_def']
  rfl

theorem component_le (q : Quat) : |q.x| ≤ ‖hamilton q‖ ∧ |q.y| ≤ ‖hamilton q‖ ∧ |q.z| ≤ ‖hamilton q‖ ∧ |q.s| ≤ ‖hamilton q‖ := by
  have h := norm_hamilton q
  have n := norm_nonneg (hamilton q)
  refine ⟨?_, ?_, ?_, ?_⟩ <;> refine abs_le_of_sq_le_sq ?_ n <;> nlinarith [sq_nonneg q.x, sq_nonneg q.y, sq_nonneg q.z, sq_nonneg q.s]

theorem cauchy (p q : Quat) : |p.x * q.x| + |p.y * q.y| + |p.z * q.z| + |p.s * q.s| ≤ ‖hamilton p‖ * ‖hamilton q‖ := by
  refine le_of_sq_le_sq ?_ (by positivity)
  rw [mul_pow, norm_hamilton, norm_hamilton]
  simp only [abs_mul]
  rw [← sq_abs p.x, ← sq_abs p.y, ← sq_abs p.z, ← sq_abs p.s, ← sq_abs q.x, ← sq_abs q.y, ← sq_abs q.z, ← sq_abs q.s]
  generalize |p.x| = a
  generalize |p.y| = b
  generalize |p.z| = c
  generalize |p.s| = d
  generalize |q.x| = x
  generalize |q.y| = y
  generalize |q.z| = z
  generalize |q.s| = w
  nlinarith [sq_nonneg (a * y - b * x), sq_nonneg (a * z - c * x), sq_nonneg (a * w - d * x), sq_nonneg (b * z - c * y), sq_nonneg (b * w - d * y), sq_nonneg (c * w - d * z)]

/-- the norm of a quaternion with small components -/
theorem norm_le_two {q : Quat} {k : ℝ} (h1 : |q.x| ≤ k) (h2 : |q.y| ≤ k) (h3 : |q.z| ≤ k) (h4 : |q.s| ≤ k) : ‖hamilton q‖ ≤ 2 * k := by
  have k0 : 0 ≤ k := (abs_nonneg _).trans h1
  refine le_of_sq_le_sq ?_ (by positivity)
  rw [norm_hamilton]
  have m : ∀ a : ℝ, |a| ≤ k → a ^ 2 ≤ k ^ 2 := fun a h => by rw [← sq_abs]; exact pow_le_pow_left₀ (abs_nonneg _) h 2
  have := m _ h1
  have := m _ h2
  have := m _ h3
  have := m _ h4
  nlinarith

theorem prod_near (o : Bool) (p q : Quat) :
    ‖hamilton (prod o p q) - hamilton q * hamilton p‖ ≤ 82 / 10 * u * (‖hamilton p‖ * ‖hamilton q‖) + 10 * t := by
  set e : Quat := ⟨(prod o p q).x - (q.s * p.x + p.s * q.x - (p.y * q.z - p.z * q.y)), (prod o p q).y - (q.s * p.y + p.s * q.y - (p.z * q.x - p.x * q.z)),
    (prod o p q).z - (q.s * p.z + p.s * q.z - (p.x * q.y - p.y * q.x)), (prod o p q).s - (p.s * q.s - (p.x * q.x + p.y * q.y + p.z * q.z))⟩ with he
  have e1 : hamilton (prod o p q) - hamilton q * hamilton p = hamilton e := by
    have h0 : ∀ q : Quat, (hamilton q).re = q.s := fun _ => rfl
    have h1 : ∀ q : Quat, (hamilton q).imI = q.x := fun _ => rfl
    have h2 : ∀ q : Quat, (hamilton q).imJ = q.y := fun _ => rfl
    have h3 : ∀ q : Quat, (hamilton q).imK = q.z := fun _ => rfl
    ext <;> simp [h0, h1, h2, h3, he] <;> ring
  rw [e1]
  have u0 := u_pos
  have b : ∀ {x A : ℝ}, A ≤ ‖hamilton p‖ * ‖hamilton q‖ → |x| ≤ 41 / 10 * u * A + 5 * t → |x| ≤ 41 / 10 * u * (‖hamilton p‖ * ‖hamilton q‖) + 5 * t := fun h h' =>
    h'.trans (add_le_add_left (mul_le_mul_of_nonneg_left h (by positivity)) _)
  have sw : ∀ {a b c d : ℝ}, ‖hamilton ⟨a, b, c, d⟩‖ = Real.sqrt (d ^ 2 + a ^ 2 + b ^ 2 + c ^ 2) := fun {a b c d} => by
    rw [← norm_hamilton ⟨a, b, c, d⟩, Real.sqrt_sq (norm_nonneg _)]
  have perm : ∀ {a b c d : ℝ}, d ^ 2 + a ^ 2 + b ^ 2 + c ^ 2 = q.s ^ 2 + q.x ^ 2 + q.y ^ 2 + q.z ^ 2 → ‖hamilton ⟨a, b, c, d⟩‖ = ‖hamilton q‖ := fun {a b c d} h => by
    rw [sw, h, ← norm_hamilton q, Real.sqrt_sq (norm_nonneg _)]
  have c1 := cauchy p ⟨q.s, q.z, q.y, q.x⟩
  have c2 := cauchy p ⟨q.z, q.s, q.x, q.y⟩
  have c3 := cauchy p ⟨q.y, q.x, q.s, q.z⟩
  have c4 := cauchy p q
  rw [perm (a := q.s) (b := q.z) (c := q.y) (d := q.x) (by ring)] at c1
  rw [perm (a := q.z) (b := q.s) (c := q.x) (d := q.y) (by ring)] at c2
  rw [perm (a := q.y) (b := q.x) (c := q.s) (d := q.z) (by ring)] at c3
  dsimp only at c1 c2 c3
  have := norm_le_two (q := e) (k := 41 / 10 * u * (‖hamilton p‖ * ‖hamilton q‖) + 5 * t)
    (b (A := |q.s * p.x| + |p.s * q.x| + |p.y * q.z| + |p.z * q.y|) (by rw [mul_comm q.s]; linarith) (vec4_near _ _ _ _ _ _ _ _))
    (b (A := |q.s * p.y| + |p.s * q.y| + |p.z * q.x| + |p.x * q.z|) (by rw [mul_comm q.s]; linarith) (vec4_near _ _ _ _ _ _ _ _))
    (b (A := |q.s * p.z| + |p.s * q.z| + |p.x * q.y| + |p.y * q.x|) (by rw [mul_comm q.s]; linarith) (vec4_near _ _ _ _ _ _ _ _))
    (b (A := |p.s * q.s| + |p.x * q.x| + |p.y * q.y| + |p.z * q.z|) (by linarith) (sca4_near o _ _ _ _ _ _ _ _))
  linarith

theorem of_defined (q : Quat) : (of q).isDefined = true := by simp [of, isDefined]

theorem product_fin (o : Bool) {p q : Quat} (hp : ‖hamilton p‖ ≤ 2 ^ 500) (hq : ‖hamilton q‖ ≤ 2 ^ 500) : product o (of p) (of q) = .ok (of (prod o p q)) := by
  rw [product, of_defined, of_defined, if_neg (by simp), if_neg (by simp)]
  obtain ⟨p1, p2, p3, p4⟩ := component_le p
  obtain ⟨q1, q2, q3, q4⟩ := component_le q
  replace p1 := p1.trans hp
  replace p2 := p2.trans hp
  replace p3 := p3.trans hp
  replace p4 := p4.trans hp
  replace q1 := q1.trans hq
  replace q2 := q2.trans hq
  replace q3 := q3.trans hq
  replace q4 := q4.trans hq
  have v : ∀ {a x b y c z d w : ℝ}, |a| ≤ 2 ^ 500 → |x| ≤ 2 ^ 500 → |b| ≤ 2 ^ 500 → |y| ≤ 2 ^ 500 → |c| ≤ 2 ^ 500 → |z| ≤ 2 ^ 500 → |d| ≤ 2 ^ 500 → |w| ≤ 2 ^ 500 →
      (((F64.fin a).mul (.fin x)).add ((F64.fin b).mul (.fin y))).sub (((F64.fin c).mul (.fin z)).sub ((F64.fin d).mul (.fin w))) = .fin (vec4 a x b y c z d w) := by
    intro a x b y c z d w ha hx hb hy hc hz hd hw
    obtain ⟨e1, b1⟩ := DVec.mul_fin2 ha hx
    obtain ⟨e2, b2⟩ := DVec.mul_fin2 hb hy
    obtain ⟨e3, b3⟩ := DVec.mul_fin2 hc hz
    obtain ⟨e4, b4⟩ := DVec.mul_fin2 hd hw
    obtain ⟨e5, b5⟩ := DVec.add_fin2 (n := 1000) (by norm_num) b1 b2
    obtain ⟨e6, b6⟩ := DVec.sub_fin2 (n := 1000) (by norm_num) b3 b4
    obtain ⟨e7, -⟩ := DVec.sub_fin2 (n := 1001) (by norm_num) b5 b6
    rw [e1, e2, e3, e4, e5, e6, e7]
    rfl
  have s : (F64.sub ((F64.fin p.s).mul (.fin q.s)) (DVec.sum o ((F64.fin p.x).mul (.fin q.x)) ((F64.fin p.y).mul (.fin q.y)) ((F64.fin p.z).mul (.fin q.z)))) =
      .fin (sca4 o p.s q.s p.x q.x p.y q.y p.z q.z) := by
    obtain ⟨e1, b1⟩ := DVec.mul_fin2 p4 q4
    obtain ⟨e2, b2⟩ := DVec.mul_fin2 p1 q1
    obtain ⟨e3, b3⟩ := DVec.mul_fin2 p2 q2
    obtain ⟨e4, b4⟩ := DVec.mul_fin2 p3 q3
    obtain ⟨e5, b5⟩ := DVec.sum_fin o b2 b3 b4
    obtain ⟨e6, -⟩ := DVec.sub_fin2 (n := 1002) (by norm_num) (b1.trans (pow_le_pow_right₀ one_le_two (by norm_num))) b5
    rw [e1, e2, e3, e4, e5, e6]
    rfl
  simp only [crossMultiply, of, prod, v q4 p1 p4 q1 p2 q3 p3 q2, v q4 p2 p4 q2 p3 q1 p1 q3, v q4 p3 p4 q3 p1 q2 p2 q1]
  congr 2

end Verif.DQuat
