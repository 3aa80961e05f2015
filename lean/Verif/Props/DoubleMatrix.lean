import Verif.Lemmas.DoubleMatrix
import Verif.Props.DoubleRotate

/-!
# Rotation matrices in double precision

Property C122. Code: `src/OpenSpaceToolkit/Mathematics/Geometry/3D/Transformation/Rotation/RotationMatrix.cpp` and `Quaternion.cpp`. The exact rotation of the vector `v` by
the quaternion `h` is `h⁻¹ v h`, with the quaternions of Mathlib and their norm.
-/

namespace Verif.Props

open Verif Verif.Spec Verif.Double

/-- the matrix with these coefficients -/
def entries (M : Fin 3 → Fin 3 → ℝ) : Fin 3 → Fin 3 → F64 ℝ := fun i j => .fin (M i j)

/-- the exact product of a matrix and a vector -/
def turn (M : Fin 3 → Fin 3 → ℝ) (v : V3) : V3 :=
  ⟨M 0 0 * v.x + M 0 1 * v.y + M 0 2 * v.z, M 1 0 * v.x + M 1 1 * v.y + M 1 2 * v.z, M 2 0 * v.x + M 2 1 * v.y + M 2 2 * v.z⟩

theorem sub_one2 {n : ℝ} (h : |n| ≤ 2 ^ 502) : (F64.fin n).sub (.fin 1) = .fin (rnd (n - 1)) :=
  (DVec.sub_fin2 (n := 502) (by norm_num) h (by rw [abs_one]; exact one_le_pow₀ one_le_two)).1

theorem nrm3_le (o : Bool) {a b c : ℝ} (ha : |a| ≤ 2 ^ 500) (hb : |b| ≤ 2 ^ 500) (hc : |c| ≤ 2 ^ 500) : |DVec.nrm3 o a b c| ≤ 2 ^ 502 := by
  refine DLinear.rnd_abs_le (DQuat.rep_two 502) ?_
  rw [abs_of_nonneg (Real.sqrt_nonneg _)]
  refine Real.sqrt_le_iff.2 ⟨by positivity, ?_⟩
  refine (le_abs_self _).trans ((DVec.dot_fin o ha hb hc ha hb hc).2.trans ?_)
  rw [← pow_mul]
  exact pow_le_pow_right₀ one_le_two (by norm_num)

/-- what the constructor tests, in the real numbers -/
def Passes (o : Bool) (eps : ℝ) (M : Fin 3 → Fin 3 → ℝ) : Prop :=
  (∀ j, rnd (DVec.nrm3 o (M 0 j) (M 1 j) (M 2 j) - 1) ≤ eps) ∧ |DVec.dot3 o (M 0 0) (M 1 0) (M 2 0) (M 0 1) (M 1 1) (M 2 1)| ≤ eps ∧
    |DVec.dot3 o (M 0 1) (M 1 1) (M 2 1) (M 0 2) (M 1 2) (M 2 2)| ≤ eps ∧ |DVec.dot3 o (M 0 2) (M 1 2) (M 2 2) (M 0 0) (M 1 0) (M 2 0)| ≤ eps

theorem ctor_fin (o : Bool) (eps : ℝ) {M : Fin 3 → Fin 3 → ℝ} (h : ∀ i j, |M i j| ≤ 2 ^ 500) :
    (Passes o eps M → DRot.ctor o (.fin eps) (entries M) = .ok (entries M)) ∧ (¬ Passes o eps M → DRot.ctor o (.fin eps) (entries M) = .error .runtimeError) := by
  have n : ∀ j, ((DRot.col (entries M) j).norm o).sub (.fin 1) = .fin (rnd (DVec.nrm3 o (M 0 j) (M 1 j) (M 2 j) - 1)) := fun j => by
    have e : DRot.col (entries M) j = ⟨.fin (M 0 j), .fin (M 1 j), .fin (M 2 j)⟩ := rfl
    rw [e, norm_fin3 o (h 0 j) (h 1 j) (h 2 j)]
    exact sub_one2 (nrm3_le o (h 0 j) (h 1 j) (h 2 j))
  have d : ∀ j k, ((DRot.col (entries M) j).dot o (DRot.col (entries M) k)).abs = .fin |DVec.dot3 o (M 0 j) (M 1 j) (M 2 j) (M 0 k) (M 1 k) (M 2 k)| := fun j k => by
    have e : ∀ j, DRot.col (entries M) j = ⟨.fin (M 0 j), .fin (M 1 j), .fin (M 2 j)⟩ := fun _ => rfl
    rw [e, e, (DVec.dot_fin o (h 0 j) (h 1 j) (h 2 j) (h 0 k) (h 1 k) (h 2 k)).1]
    rfl
  have three : (∀ j, rnd (DVec.nrm3 o (M 0 j) (M 1 j) (M 2 j) - 1) ≤ eps) ↔ rnd (DVec.nrm3 o (M 0 0) (M 1 0) (M 2 0) - 1) ≤ eps ∧
      rnd (DVec.nrm3 o (M 0 1) (M 1 1) (M 2 1) - 1) ≤ eps ∧ rnd (DVec.nrm3 o (M 0 2) (M 1 2) (M 2 2) - 1) ≤ eps := by
    rw [Fin.forall_fin_succ, Fin.forall_fin_two]
    rfl
  rw [DRot.ctor, n, n, n, d, d, d, Passes, three]
  simp only [F64.lt, decide_eq_true_eq]
  constructor
  · rintro ⟨⟨a, b, c⟩, e, f, g⟩
    rw [if_neg (not_lt.2 a), if_neg (not_lt.2 b), if_neg (not_lt.2 c), if_neg (not_lt.2 e), if_neg (not_lt.2 f), if_neg (not_lt.2 g)]
  · intro hh
    split_ifs with a b c e f g
    all_goals first | rfl | exact absurd ⟨⟨not_lt.1 a, not_lt.1 b, not_lt.1 c⟩, not_lt.1 e, not_lt.1 f, not_lt.1 g⟩ hh

theorem isDefined_of (q : Quat) : (DQuat.of q).isDefined = true := DQuat.of_defined q

/-- the conversion of a quaternion that passes the test on the norm; the special case of `Unit` gives the same matrix as the formulas -/
theorem convert (o : Bool) {eps : ℝ} {q : Quat} (hq : Tempered q) (hu : DQuat.isUnitary (.fin eps) (.of q) = .ok true) :
    DRot.Quaternion o (.fin eps) (.of q) = DRot.ctor o (.fin eps) (entries (DRot.mat q)) := by
  obtain ⟨⟨-, hx⟩, ⟨-, hy⟩, ⟨-, hz⟩, ⟨-, hs⟩⟩ := hq
  rw [DRot.Quaternion, isDefined_of, hu]
  simp only [Bool.not_true, Bool.false_eq_true, if_false, bind, Except.bind]
  by_cases hb : (DQuat.of q).beq DQuat.Unit = true
  · rw [if_pos hb, DRot.Unit]
    congr 1
    rw [DQuat.beq, isDefined_of] at hb
    simp only [DQuat.of, DQuat.Unit, F64.eq, F64.neg, Bool.true_and, Bool.and_eq_true, Bool.or_eq_true, decide_eq_true_eq, neg_zero] at hb
    have one : rnd (1 : ℝ) = 1 := rnd_exact finite_one'.1
    funext i j
    rcases hb.2 with ⟨⟨⟨a, b⟩, c⟩, d⟩ | ⟨⟨⟨a, b⟩, c⟩, d⟩ <;> fin_cases i <;> fin_cases j <;>
      simp [entries, DRot.mat, DRot.off, DT3.dot4, DT3.sum4, a, b, c, d, rnd_zero, one]
  · rw [if_neg hb, DRot.ofQuat_fin hx hy hz hs]
    rfl

theorem norm_sq (q : Quat) : q.x * q.x + q.y * q.y + q.z * q.z + q.s * q.s = ‖hamilton q‖ ^ 2 := by
  rw [DQuat.norm_hamilton]
  ring

theorem e53 (k : ℝ) : k / 2 ^ 53 = k * DQuat.u := by rw [DQuat.u]; ring

theorem exact_le (q : Quat) (i j : Fin 3) : |DRot.exact q i j| ≤ ‖hamilton q‖ ^ 2 := by
  obtain ⟨c, -, -⟩ := DRot.exact_orthogonal q
  have := c j
  rw [norm_sq] at this
  refine abs_le_of_sq_le_sq ?_ (by positivity)
  fin_cases i
  · exact by simp only [Fin.zero_eta]; nlinarith [sq_nonneg (DRot.exact q 1 j), sq_nonneg (DRot.exact q 2 j)]
  · exact by simp only [Fin.mk_one]; nlinarith [sq_nonneg (DRot.exact q 0 j), sq_nonneg (DRot.exact q 2 j)]
  · exact by simp only [Fin.reduceFinMk]; nlinarith [sq_nonneg (DRot.exact q 1 j), sq_nonneg (DRot.exact q 0 j)]

theorem tight_diagonal (j : Fin 3) : DRot.Diagonal (DRot.tight 0 j) (DRot.tight 1 j) (DRot.tight 2 j) := by
  fin_cases j
  · exact Or.inl ⟨by simp [DRot.tight], by simp [DRot.tight], by simp [DRot.tight]⟩
  · exact Or.inr (Or.inl ⟨by simp [DRot.tight], by simp [DRot.tight], by simp [DRot.tight]⟩)
  · exact Or.inr (Or.inr ⟨by simp [DRot.tight], by simp [DRot.tight], by simp [DRot.tight]⟩)

theorem tight_le (i j : Fin 3) : DRot.tight i j ≤ 411 / 100 := by
  unfold DRot.tight; split <;> norm_num

theorem mat_le {q : Quat} (h : ‖hamilton q‖ ^ 2 ≤ 1 + 201 / 100 * DQuat.u) (i j : Fin 3) : |DRot.mat q i j| ≤ 2 ^ 500 := by
  have us := DQuat.u_small
  have a := (DRot.mat_close (q := q) (by rw [norm_sq]; exact h) i j).le (tight_le i j)
  have b := exact_le q i j
  have c := abs_add_le (DRot.mat q i j - DRot.exact q i j) (DRot.exact q i j)
  rw [sub_add_cancel] at c
  have : (2 : ℝ) ^ 1 ≤ 2 ^ 500 := pow_le_pow_right₀ one_le_two (by norm_num)
  refine le_trans ?_ this
  rw [pow_one]
  linarith

theorem mat_passes (o : Bool) {q : Quat} (h : ‖hamilton q‖ ^ 2 ≤ 1 + 201 / 100 * DQuat.u) {eps : ℝ} (he : 9 * DQuat.u ≤ eps) : Passes o eps (DRot.mat q) := by
  have u0 := DQuat.u_pos
  have h' : q.x * q.x + q.y * q.y + q.z * q.z + q.s * q.s ≤ 1 + 201 / 100 * DQuat.u := by rw [norm_sq]; exact h
  obtain ⟨co, ro, orth⟩ := DRot.exact_orthogonal q
  rw [norm_sq] at co ro
  have cl := fun i j => DRot.mat_close h' i j
  have N0 : 0 ≤ ‖hamilton q‖ ^ 2 := by positivity
  have dots : ∀ j k : Fin 3, j ≠ k → |DVec.dot3 o (DRot.mat q 0 j) (DRot.mat q 1 j) (DRot.mat q 2 j) (DRot.mat q 0 k) (DRot.mat q 1 k) (DRot.mat q 2 k)| ≤ eps := fun j k hjk => by
    have two : ∀ i, DRot.exact q i j ^ 2 + DRot.exact q i k ^ 2 ≤ (‖hamilton q‖ ^ 2) ^ 2 := fun i => by
      have r := ro i
      have s0 := sq_nonneg (DRot.exact q i 0)
      have s1 := sq_nonneg (DRot.exact q i 1)
      have s2 := sq_nonneg (DRot.exact q i 2)
      fin_cases j <;> fin_cases k <;> first | exact absurd rfl hjk | (simp only [Fin.zero_eta, Fin.mk_one, Fin.reduceFinMk]; linarith)
    have two' : ∀ i, DRot.exact q i k ^ 2 + DRot.exact q i j ^ 2 ≤ (‖hamilton q‖ ^ 2) ^ 2 := fun i => by rw [add_comm]; exact two i
    have le := fun i j => (cl i j).le (tight_le i j)
    refine (DRot.dot_small o N0 h (orth j k hjk) (two 0) (two 1) (two 2) (le 0 j) (le 1 j) (le 2 j) (le 0 k) (le 1 k) (le 2 k)
      (DRot.across (tight_diagonal j) N0 h (co k).le (two 0) (two 1) (two 2) (cl 0 j) (cl 1 j) (cl 2 j))
      (DRot.across (tight_diagonal k) N0 h (co j).le (two' 0) (two' 1) (two' 2) (cl 0 k) (cl 1 k) (cl 2 k))).trans ?_
    linarith
  refine ⟨fun j => ?_, dots 0 1 (by decide), dots 1 2 (by decide), dots 2 0 (by decide)⟩
  refine le_trans (rnd_le (f := 9 * DQuat.u) ?_ ?_) he
  · have := representable_of (α := ℝ) (m := 9) (e := -53) (by norm_num) (by norm_num)
    rw [DLinear.two_neg53] at this
    rw [DQuat.u]
    simpa using this
  · have := DRot.norm_small o (tight_diagonal j) N0 h (co j).le (cl 0 j) (cl 1 j) (cl 2 j)
    linarith

/-- C122, part that holds: a quaternion of doubles whose norm is at most one unit of rounding over one, and at most five below it, converts to a matrix, for every
tolerance from 9 · 2⁻⁵³ on, and 1e-15 is such a tolerance -/
theorem C122_accepts_partial (o : Bool) {q : Quat} (hq : Tempered q) {eps : ℝ} (he : 9 / 2 ^ 53 ≤ eps) (he' : eps ≤ 1 / 8) (hr : Representable eps)
    (h1 : 1 - 5 / 2 ^ 53 ≤ ‖hamilton q‖) (h2 : ‖hamilton q‖ ≤ 1 + 1 / 2 ^ 53) :
    ∃ M, DRot.Quaternion o (.fin eps) (.of q) = .ok (entries M) := by
  have u0 := DQuat.u_pos
  have us := DQuat.u_small
  have hu := (C120_unitary hq (by norm_num at he; linarith) he' hr).1 (by rw [e53] at *; exact abs_le.2 ⟨by linarith, by linarith⟩)
  rw [e53] at he h1 h2
  have hN : ‖hamilton q‖ ^ 2 ≤ 1 + 201 / 100 * DQuat.u := by
    have := pow_le_pow_left₀ (norm_nonneg (hamilton q)) h2 2
    nlinarith
  exact ⟨_, (convert o hq hu).trans ((ctor_fin o eps (mat_le hN)).1 (mat_passes o hN he))⟩

theorem pure_sq (v : V3) : ‖pure v‖ ^ 2 = v.x ^ 2 + v.y ^ 2 + v.z ^ 2 := by
  rw [pure, DQuat.norm_hamilton]
  ring

theorem pure_sub (v w : V3) : pure v - pure w = pure (v - w) := by
  ext
  · rw [Quaternion.re_sub]; exact sub_zero _
  · rw [Quaternion.imI_sub]; rfl
  · rw [Quaternion.imJ_sub]; rfl
  · rw [Quaternion.imK_sub]; rfl

/-- the exact matrix turns vectors as the quaternion does -/
theorem turn_exact (q : Quat) (v : V3) : pure (turn (DRot.exact q) v) = star (hamilton q) * (pure v * hamilton q) := by
  have h1 : (hamilton q).re = q.s := rfl
  have h2 : (hamilton q).imI = q.x := rfl
  have h3 : (hamilton q).imJ = q.y := rfl
  have h4 : (hamilton q).imK = q.z := rfl
  have p1 : ∀ w, (pure w).re = 0 := fun _ => rfl
  have p2 : ∀ w, (pure w).imI = w.x := fun _ => rfl
  have p3 : ∀ w, (pure w).imJ = w.y := fun _ => rfl
  have p4 : ∀ w, (pure w).imK = w.z := fun _ => rfl
  ext <;> simp only [Quaternion.re_mul, Quaternion.imI_mul, Quaternion.imJ_mul, Quaternion.imK_mul, Quaternion.re_star, Quaternion.imI_star, Quaternion.imJ_star,
    Quaternion.imK_star, h1, h2, h3, h4, p1, p2, p3, p4] <;> simp [turn, DRot.exact] <;> ring

theorem row_cauchy (a b c x y z : ℝ) : (a * x + b * y + c * z) ^ 2 ≤ (a ^ 2 + b ^ 2 + c ^ 2) * (x ^ 2 + y ^ 2 + z ^ 2) := by
  nlinarith [sq_nonneg (a * y - b * x), sq_nonneg (a * z - c * x), sq_nonneg (b * z - c * y)]

/-- matrices whose coefficients are near turn vectors to nearby vectors -/
theorem turn_near {M R : Fin 3 → Fin 3 → ℝ} {f : ℝ} (hf : 0 ≤ f)
    (h : ((M 0 0 - R 0 0) ^ 2 + (M 0 1 - R 0 1) ^ 2 + (M 0 2 - R 0 2) ^ 2) + ((M 1 0 - R 1 0) ^ 2 + (M 1 1 - R 1 1) ^ 2 + (M 1 2 - R 1 2) ^ 2) +
      ((M 2 0 - R 2 0) ^ 2 + (M 2 1 - R 2 1) ^ 2 + (M 2 2 - R 2 2) ^ 2) ≤ f ^ 2) (v : V3) :
    ‖pure (turn M v) - pure (turn R v)‖ ≤ f * ‖pure v‖ := by
  rw [pure_sub]
  refine le_of_sq_le_sq ?_ (by positivity)
  rw [mul_pow, pure_sq, pure_sq]
  have x := row_cauchy (M 0 0 - R 0 0) (M 0 1 - R 0 1) (M 0 2 - R 0 2) v.x v.y v.z
  have y := row_cauchy (M 1 0 - R 1 0) (M 1 1 - R 1 1) (M 1 2 - R 1 2) v.x v.y v.z
  have z := row_cauchy (M 2 0 - R 2 0) (M 2 1 - R 2 1) (M 2 2 - R 2 2) v.x v.y v.z
  have t := mul_le_mul_of_nonneg_right h (by positivity : 0 ≤ v.x ^ 2 + v.y ^ 2 + v.z ^ 2)
  have ex : (turn M v - turn R v).x = (M 0 0 - R 0 0) * v.x + (M 0 1 - R 0 1) * v.y + (M 0 2 - R 0 2) * v.z := by rw [V3.sub_x, turn, turn]; ring
  have ey : (turn M v - turn R v).y = (M 1 0 - R 1 0) * v.x + (M 1 1 - R 1 1) * v.y + (M 1 2 - R 1 2) * v.z := by rw [V3.sub_y, turn, turn]; ring
  have ez : (turn M v - turn R v).z = (M 2 0 - R 2 0) * v.x + (M 2 1 - R 2 1) * v.y + (M 2 2 - R 2 2) * v.z := by rw [V3.sub_z, turn, turn]; ring
  rw [ex, ey, ez]
  rw [add_mul, add_mul] at t
  linarith

/-- the coefficients of the computed matrix are near the exact ones -/
theorem matrix_close (q : Quat) (i j : Fin 3) :
    |DRot.mat q i j - DRot.exact q i j| ≤ (if i = j then 41 / 10 else 202 / 100) * DQuat.u * ‖hamilton q‖ ^ 2 + 5 * DQuat.t := by
  have u0 := DQuat.u_pos
  have us := DQuat.u_small
  have t0 := DQuat.t_pos
  rw [← norm_sq]
  have sq : ∀ a : ℝ, |a * a| = a * a := fun a => abs_mul_self a
  have ng : ∀ a : ℝ, |-a * a| = a * a := fun a => by rw [neg_mul, abs_neg, abs_mul_self]
  have o : ∀ (a b c d : ℝ), |DRot.off a b c d - 2 * (a * b + c * d)| ≤ 202 / 100 * DQuat.u * (a * a + b * b + c * c + d * d) + 5 * DQuat.t := fun a b c d => by
    have h := DT3.near_add (rnd_representable (a * b)) (rnd_representable (c * d)) (DVec.mul_near a b) (DVec.mul_near c d) le_rfl le_rfl
    have p := DRot.abs_mul_le a b
    have r := DRot.abs_mul_le c d
    rw [DRot.off, ← mul_sub, abs_mul, abs_two]
    have k1 : DQuat.u + DQuat.u * (1 + DQuat.u) ≤ 202 / 100 * DQuat.u := by nlinarith
    have k2 := mul_le_mul_of_nonneg_right k1 (by positivity : 0 ≤ 2 * |a * b| + 2 * |c * d|)
    have k3 := mul_le_mul_of_nonneg_left (add_le_add p r) (by positivity : 0 ≤ 202 / 100 * DQuat.u)
    nlinarith
  have d : ∀ (a b c d : ℝ), |DT3.dot4 .left a b c d q.x q.y q.z q.s - (a * q.x + b * q.y + c * q.z + d * q.s)| ≤
      41 / 10 * DQuat.u * (|a * q.x| + |b * q.y| + |c * q.z| + |d * q.s|) + 5 * DQuat.t := fun a b c d => DT3.dot4_near .left a b c d q.x q.y q.z q.s
  have n : ∀ a : ℝ, -a * -a = a * a := fun a => neg_mul_neg a a
  fin_cases i <;> fin_cases j
  · have := d q.x (-q.y) (-q.z) q.s; rw [sq, ng, ng, sq] at this; exact this
  · exact (o q.x q.y q.z q.s).trans (by simp)
  · exact (o q.x q.z (-q.y) q.s).trans (by rw [n]; simp; apply le_of_eq; ring)
  · exact (o q.y q.x (-q.z) q.s).trans (by rw [n]; simp; apply le_of_eq; ring)
  · have := d (-q.x) q.y (-q.z) q.s; rw [sq, ng, ng, sq] at this; exact this
  · exact (o q.y q.z q.x q.s).trans (by simp; apply le_of_eq; ring)
  · exact (o q.z q.x q.y q.s).trans (by simp; apply le_of_eq; ring)
  · exact (o q.z q.y (-q.x) q.s).trans (by rw [n]; simp; apply le_of_eq; ring)
  · have := d (-q.x) (-q.y) q.z q.s; rw [sq, ng, ng, sq] at this; exact this

theorem frobenius {v a b c d e f g h k : ℝ} (v0 : 0 ≤ v) (ha : |a| ≤ 411 / 100 * v) (hb : |b| ≤ 203 / 100 * v) (hc : |c| ≤ 203 / 100 * v) (hd : |d| ≤ 203 / 100 * v)
    (he : |e| ≤ 411 / 100 * v) (hf : |f| ≤ 203 / 100 * v) (hg : |g| ≤ 203 / 100 * v) (hh : |h| ≤ 203 / 100 * v) (hk : |k| ≤ 411 / 100 * v) :
    (a ^ 2 + b ^ 2 + c ^ 2) + (d ^ 2 + e ^ 2 + f ^ 2) + (g ^ 2 + h ^ 2 + k ^ 2) ≤ (87 / 10 * v) ^ 2 := by
  have s : ∀ {x m : ℝ}, |x| ≤ m → x ^ 2 ≤ m ^ 2 := fun {x m} hx => by rw [← sq_abs]; exact pow_le_pow_left₀ (abs_nonneg x) hx 2
  nlinarith [s ha, s hb, s hc, s hd, s he, s hf, s hg, s hh, s hk, sq_nonneg v]

/-- the computed matrix turns vectors as the quaternion does, up to rounding -/
theorem mat_turn {q : Quat} (h : 1 / 2 ≤ ‖hamilton q‖ ^ 2) (v : V3) :
    ‖pure (turn (DRot.mat q) v) - star (hamilton q) * (pure v * hamilton q)‖ ≤ 87 / 10 * (DQuat.u * ‖hamilton q‖ ^ 2) * ‖pure v‖ := by
  have u0 := DQuat.u_pos
  have tu := DRot.t_u
  rw [← turn_exact]
  have e := matrix_close q
  set N := ‖hamilton q‖ ^ 2
  have v0 : 0 ≤ DQuat.u * N := by positivity
  have tn : 5 * DQuat.t ≤ 1 / 100 * (DQuat.u * N) := by
    have := mul_le_mul_of_nonneg_left h u0.le
    linarith
  have dg : ∀ i, |DRot.mat q i i - DRot.exact q i i| ≤ 411 / 100 * (DQuat.u * N) := fun i => by
    have := e i i
    rw [if_pos rfl] at this
    linarith
  have of : ∀ i j, i ≠ j → |DRot.mat q i j - DRot.exact q i j| ≤ 203 / 100 * (DQuat.u * N) := fun i j hij => by
    have := e i j
    rw [if_neg hij] at this
    linarith
  refine turn_near (by positivity) (frobenius v0 (dg 0) (of 0 1 ?_) (of 0 2 ?_) (of 1 0 ?_) (dg 1) (of 1 2 ?_) (of 2 0 ?_) (of 2 1 ?_) (dg 2)) v <;> decide

theorem unitary_of_returns (o : Bool) {q : Quat} (hq : Tempered q) {eps : ℝ} (h0 : 0 < eps) {m} (h : DRot.Quaternion o (.fin eps) (.of q) = .ok m) :
    DQuat.isUnitary (.fin eps) (.of q) = .ok true := by
  rw [DRot.Quaternion, isDefined_of] at h
  rw [unitary_iff hq h0] at h ⊢
  by_contra hh
  have : decide (|rnd (DQuat.nrm q.x q.y q.z q.s - 1)| ≤ eps) = false := by simpa using hh
  rw [this] at h
  cases h

theorem mat_le2 {q : Quat} (h : ‖hamilton q‖ ^ 2 ≤ 13 / 10) (i j : Fin 3) : |DRot.mat q i j| ≤ 2 := by
  have us := DQuat.u_small
  have u0 := DQuat.u_pos
  have tu := DRot.t_u
  have a := matrix_close q i j
  have b := exact_le q i j
  have c := abs_add_le (DRot.mat q i j - DRot.exact q i j) (DRot.exact q i j)
  rw [sub_add_cancel] at c
  have k : (if i = j then 41 / 10 else 202 / 100 : ℝ) ≤ 41 / 10 := by split <;> norm_num
  have m := mul_le_mul (mul_le_mul_of_nonneg_right k u0.le) h (by positivity) (by positivity)
  linarith

theorem two_500 : (2 : ℝ) ≤ 2 ^ 500 := (pow_one (2 : ℝ)).symm.le.trans (pow_le_pow_right₀ one_le_two (by norm_num))

/-- what the conversion returns -/
theorem returned (o : Bool) {q : Quat} (hq : Tempered q) {eps : ℝ} (h0 : 0 < eps) (h1 : eps ≤ 1 / 8) (hr : Representable eps) {m}
    (h : DRot.Quaternion o (.fin eps) (.of q) = .ok m) : m = entries (DRot.mat q) ∧ |‖hamilton q‖ - 1| ≤ eps + 4 * DQuat.u := by
  have us := DQuat.u_small
  have hu := unitary_of_returns o hq h0 h
  have near := (C120_unitary hq h0 h1 hr).2 hu
  rw [e53] at near
  refine ⟨?_, near⟩
  have n := (abs_le.1 near).2
  have hN : ‖hamilton q‖ ^ 2 ≤ 13 / 10 := by
    have := pow_le_pow_left₀ (norm_nonneg (hamilton q)) (by linarith : ‖hamilton q‖ ≤ 1126 / 1000) 2
    norm_num at this ⊢
    linarith
  rw [convert o hq hu] at h
  obtain ⟨a, b⟩ := ctor_fin o eps (M := DRot.mat q) (fun i j => (mat_le2 hN i j).trans two_500)
  by_cases hp : Passes o eps (DRot.mat q)
  · rw [a hp] at h; cases h; rfl
  · rw [b hp] at h; cases h

theorem near_rotation {q : Quat} {eps : ℝ} (h1 : eps ≤ 1 / 8) (near : |‖hamilton q‖ - 1| ≤ eps + 4 * DQuat.u) (v : V3) :
    ‖pure (turn (DRot.mat q) v) - (hamilton q)⁻¹ * pure v * hamilton q‖ ≤ (22 / 10 * eps + 22 * DQuat.u) * ‖pure v‖ := by
  have u0 := DQuat.u_pos
  have us := DQuat.u_small
  obtain ⟨n1, n2⟩ := abs_le.1 near
  have mt := mat_turn (q := q)
  have hne : hamilton q ≠ 0 := by
    intro hh
    rw [hh, norm_zero] at n1
    linarith
  obtain ⟨-, xs⟩ := exact_rotation q v hne
  set Q := ‖hamilton q‖ with hQ
  have hN : Q ^ 2 ≤ 127 / 100 := by nlinarith
  have hN' : 1 / 2 ≤ Q ^ 2 := by nlinarith
  have X1 : ‖(hamilton q)⁻¹ * pure v * hamilton q‖ = ‖pure v‖ := by
    rw [norm_mul, norm_mul, norm_inv]
    field_simp
  have s1 : ‖star (hamilton q) * (pure v * hamilton q) - (hamilton q)⁻¹ * pure v * hamilton q‖ = |Q ^ 2 - 1| * ‖pure v‖ := by
    rw [xs, show ∀ (k : ℝ) (X : Quaternion ℝ), k • X - X = (k - 1) • X from fun k X => by rw [sub_smul, one_smul], norm_smul, X1, Real.norm_eq_abs]
  have s4 : |Q ^ 2 - 1| ≤ 22 / 10 * eps + 10 * DQuat.u := by
    rw [show Q ^ 2 - 1 = (Q - 1) * (Q + 1) by ring, abs_mul, abs_of_pos (by linarith : 0 < Q + 1)]
    calc |Q - 1| * (Q + 1) ≤ (eps + 4 * DQuat.u) * (2126 / 1000) := mul_le_mul near (by linarith) (by linarith) (by linarith [abs_nonneg (Q - 1)])
      _ ≤ _ := by linarith [abs_nonneg (Q - 1)]
  have s2 := mt hN' v
  have s3 := norm_add_le (pure (turn (DRot.mat q) v) - star (hamilton q) * (pure v * hamilton q))
    (star (hamilton q) * (pure v * hamilton q) - (hamilton q)⁻¹ * pure v * hamilton q)
  rw [sub_add_sub_cancel, s1] at s3
  have V0 := norm_nonneg (pure v)
  have m1 := mul_le_mul_of_nonneg_right s4 V0
  have m2 : 87 / 10 * (DQuat.u * Q ^ 2) * ‖pure v‖ ≤ 12 * DQuat.u * ‖pure v‖ := by
    refine mul_le_mul_of_nonneg_right ?_ V0
    have := mul_le_mul_of_nonneg_left hN u0.le
    linarith
  linarith

/-- C122: the matrix that the conversion of a quaternion returns is the rotation by the quaternion, up to the tolerance and rounding -/
theorem C122_rotation (o : Bool) {q : Quat} (hq : Tempered q) {eps : ℝ} (h0 : 0 < eps) (h1 : eps ≤ 1 / 8) (hr : Representable eps) {m}
    (h : DRot.Quaternion o (.fin eps) (.of q) = .ok m) :
    ∃ M, m = entries M ∧ ∀ v, ‖pure (turn M v) - (hamilton q)⁻¹ * pure v * hamilton q‖ ≤ (22 / 10 * eps + 22 / 2 ^ 53) * ‖pure v‖ := by
  obtain ⟨e, near⟩ := returned o hq h0 h1 hr h
  refine ⟨_, e, fun v => ?_⟩
  rw [e53]
  exact near_rotation h1 near v

theorem entries_defined (M : Fin 3 → Fin 3 → ℝ) : DRot.isDefined (entries M) = true := by simp [DRot.isDefined, entries]

/-- the exact row norms are those of the quaternion squared, and the computed ones are near -/
theorem mat_row {q : Quat} (h : 1 / 2 ≤ ‖hamilton q‖ ^ 2) (h' : ‖hamilton q‖ ^ 2 ≤ 127 / 100) (i : Fin 3) :
    DRot.mat q i 0 ^ 2 + DRot.mat q i 1 ^ 2 + DRot.mat q i 2 ^ 2 ≤ (128 / 100) ^ 2 := by
  have u0 := DQuat.u_pos
  have us := DQuat.u_small
  have tu := DRot.t_u
  obtain ⟨-, ro, -⟩ := DRot.exact_orthogonal q
  have r := ro i
  rw [norm_sq] at r
  have e : ∀ j, DRot.mat q i j ^ 2 ≤ DRot.exact q i j ^ 2 + 1 / 1000 := fun j => by
    have a := matrix_close q i j
    have b := exact_le q i j
    have k : (if i = j then 41 / 10 else 202 / 100 : ℝ) ≤ 41 / 10 := by split <;> norm_num
    have m := mul_le_mul (mul_le_mul_of_nonneg_right k u0.le) h' (by positivity) (by positivity)
    have c : |DRot.mat q i j - DRot.exact q i j| ≤ 1 / 10000 := by linarith
    have b' : |DRot.exact q i j| ≤ 127 / 100 := b.trans h'
    obtain ⟨c1, c2⟩ := abs_le.1 c
    obtain ⟨b1, b2⟩ := abs_le.1 b'
    have d : DRot.mat q i j ^ 2 = DRot.exact q i j ^ 2 + 2 * (DRot.exact q i j * (DRot.mat q i j - DRot.exact q i j)) + (DRot.mat q i j - DRot.exact q i j) ^ 2 := by ring
    have f : DRot.exact q i j * (DRot.mat q i j - DRot.exact q i j) ≤ 127 / 100 * (1 / 10000) := by
      refine (le_abs_self _).trans ?_
      rw [abs_mul]
      exact mul_le_mul b' c (abs_nonneg _) (by norm_num)
    have g : (DRot.mat q i j - DRot.exact q i j) ^ 2 ≤ (1 / 10000) ^ 2 := sq_le_sq' (by linarith) c2
    rw [d]
    norm_num at g
    linarith
  have N2 : (‖hamilton q‖ ^ 2) ^ 2 ≤ (127 / 100) ^ 2 := pow_le_pow_left₀ (by positivity) h' 2
  have := e 0
  have := e 1
  have := e 2
  norm_num at N2 ⊢
  linarith

/-- a computed coordinate of the product of a matrix and a vector -/
theorem coordinate_near (o : Bool) {a b c x y z V : ℝ} (V0 : 0 ≤ V) (hV : x ^ 2 + y ^ 2 + z ^ 2 ≤ V ^ 2) (h : a ^ 2 + b ^ 2 + c ^ 2 ≤ (128 / 100) ^ 2) :
    |DVec.dot3 o a b c x y z - (a * x + b * y + c * z)| ≤ 386 / 100 * DQuat.u * V + 31 / 10 * DQuat.t := by
  have u0 := DQuat.u_pos
  refine (DVec.dot3_near o a b c x y z).trans (add_le_add_left ?_ _)
  have k : |a * x| + |b * y| + |c * z| ≤ 128 / 100 * V := by
    refine abs_le_of_sq_le_sq' ?_ (by positivity) |>.2
    rw [abs_mul, abs_mul, abs_mul, mul_pow]
    refine (row_cauchy |a| |b| |c| |x| |y| |z|).trans ?_
    simp only [sq_abs]
    exact mul_le_mul h hV (by positivity) (by positivity)
  have := mul_le_mul_of_nonneg_left k (by positivity : 0 ≤ 301 / 100 * DQuat.u)
  have : 0 ≤ DQuat.u * V := by positivity
  linarith

theorem three_near {e V a b c : ℝ} (e0 : 0 ≤ e) (hV : V = 174 / 100 * e) (ha : |a| ≤ e) (hb : |b| ≤ e) (hc : |c| ≤ e) : a ^ 2 + b ^ 2 + c ^ 2 ≤ V ^ 2 := by
  have s : ∀ {x : ℝ}, |x| ≤ e → x ^ 2 ≤ e ^ 2 := fun {x} hx => by rw [← sq_abs]; exact pow_le_pow_left₀ (abs_nonneg x) hx 2
  rw [hV]
  nlinarith [s ha, s hb, s hc, sq_nonneg e]

/-- the product of the computed matrix and a vector -/
theorem product_vector (o : Bool) {q : Quat} (h : 1 / 2 ≤ ‖hamilton q‖ ^ 2) (h' : ‖hamilton q‖ ^ 2 ≤ 127 / 100) {v : V3} (hv : ‖pure v‖ ≤ 2 ^ 490) :
    ∃ w, DRot.mulVec o (entries (DRot.mat q)) (doubles v) = .ok (doubles w) ∧ ‖pure w - pure (turn (DRot.mat q) v)‖ ≤ 7 * DQuat.u * ‖pure v‖ + 6 * DQuat.t := by
  have u0 := DQuat.u_pos
  have t0 := DQuat.t_pos
  have V0 := norm_nonneg (pure v)
  obtain ⟨cx, cy, cz, -⟩ := DQuat.component_le ⟨v.x, v.y, v.z, 0⟩
  have big : ∀ {x : ℝ}, x ≤ ‖pure v‖ → x ≤ 2 ^ 500 := fun hx => hx.trans (hv.trans (pow_le_pow_right₀ one_le_two (by norm_num)))
  have m := fun i j => (mat_le2 (h'.trans (by norm_num)) i j : |DRot.mat q i j| ≤ 2).trans two_500
  have f := fun i => (DVec.dot_fin o (m i 0) (m i 1) (m i 2) (big cx) (big cy) (big cz)).1
  have n := fun i => coordinate_near o V0 (pure_sq v).symm.le (mat_row h h' i)
  refine ⟨⟨DVec.dot3 o (DRot.mat q 0 0) (DRot.mat q 0 1) (DRot.mat q 0 2) v.x v.y v.z, DVec.dot3 o (DRot.mat q 1 0) (DRot.mat q 1 1) (DRot.mat q 1 2) v.x v.y v.z,
    DVec.dot3 o (DRot.mat q 2 0) (DRot.mat q 2 1) (DRot.mat q 2 2) v.x v.y v.z⟩, ?_, ?_⟩
  · rw [DRot.mulVec, doubles_defined, entries_defined, if_neg (by simp), if_neg (by simp)]
    simp only [DVec.dot] at f
    simp only [entries, doubles]
    rw [f 0, f 1, f 2]
  · rw [pure_sub]
    refine le_of_sq_le_sq ?_ (by positivity)
    rw [pure_sq]
    refine (three_near (e := 386 / 100 * DQuat.u * ‖pure v‖ + 31 / 10 * DQuat.t) (by positivity) rfl (n 0) (n 1) (n 2)).trans ?_
    refine pow_le_pow_left₀ (by positivity) ?_ 2
    have : 0 ≤ DQuat.u * ‖pure v‖ := by positivity
    linarith

/-- C122: when the conversion returns a matrix, multiplying a vector by the matrix and turning it by the quaternion agree, up to the tolerance and rounding -/
theorem C122_alike (o : Bool) {q : Quat} (hq : Tempered q) {eps : ℝ} (h0 : 0 < eps) (h1 : eps ≤ 1 / 8) (hr : Representable eps) {m}
    (h : DRot.Quaternion o (.fin eps) (.of q) = .ok m) {v : V3} (hv : ‖pure v‖ ≤ 2 ^ 490) {w' : DVec} (hw : DQuat.rotateVector o (.fin eps) (.of q) (doubles v) = .ok w') :
    ∃ a b, DRot.mulVec o m (doubles v) = .ok (doubles a) ∧ w' = doubles b ∧
      ‖pure a - pure b‖ ≤ (44 / 10 * eps + 61 / 2 ^ 53) * ‖pure v‖ + 29 * 2 ^ (-1075 : ℤ) := by
  obtain ⟨rfl, near⟩ := returned o hq h0 h1 hr h
  have us := DQuat.u_small
  have u0 := DQuat.u_pos
  obtain ⟨n1, n2⟩ := abs_le.1 near
  have hN : ‖hamilton q‖ ^ 2 ≤ 127 / 100 := by nlinarith
  have hN' : 1 / 2 ≤ ‖hamilton q‖ ^ 2 := by nlinarith
  obtain ⟨a, ea, ha⟩ := product_vector o hN' hN hv
  obtain ⟨b, eb, hb⟩ := C120_rotate o hq h0 h1 hr hv hw
  refine ⟨a, b, ea, eb, ?_⟩
  have c := near_rotation h1 near v
  have e : pure a - pure b = (pure a - pure (turn (DRot.mat q) v)) + ((pure (turn (DRot.mat q) v) - (hamilton q)⁻¹ * pure v * hamilton q) -
      (pure b - (hamilton q)⁻¹ * pure v * hamilton q)) := by abel
  rw [e]
  refine (norm_add_le _ _).trans ((add_le_add_right (norm_sub_le _ _) _).trans ?_)
  rw [e53] at hb ⊢
  have t : (2 : ℝ) ^ (-1075 : ℤ) = DQuat.t := rfl
  rw [t] at hb ⊢
  generalize ‖pure v‖ = V at *
  linarith

/-- C122, part that holds: from any unit quaternion, rounding its components to doubles gives a quaternion that converts, for every tolerance from 9 · 2⁻⁵³ on, to a matrix
which turns vectors as the unit quaternion does, up to eleven units of rounding -/
theorem C122_nearest_partial (o : Bool) {p : Quat} (hp : ‖hamilton p‖ = 1) {eps : ℝ} (he : 9 / 2 ^ 53 ≤ eps) (he' : eps ≤ 1 / 8) (hr : Representable eps) :
    ∃ M, DRot.Quaternion o (.fin eps) (.of ⟨rnd p.x, rnd p.y, rnd p.z, rnd p.s⟩) = .ok (entries M) ∧
      ∀ v, ‖pure (turn M v) - (hamilton p)⁻¹ * pure v * hamilton p‖ ≤ 11 / 2 ^ 53 * ‖pure v‖ := by
  have u0 := DQuat.u_pos
  have us := DQuat.u_small
  obtain ⟨cx, cy, cz, cs⟩ := DQuat.component_le p
  rw [hp] at cx cy cz cs
  set q : Quat := ⟨rnd p.x, rnd p.y, rnd p.z, rnd p.s⟩ with hq
  have one : ∀ {x : ℝ}, |x| ≤ 1 → Representable (rnd x) ∧ |rnd x| ≤ 2 ^ 500 := fun hx =>
    ⟨rnd_representable _, (DLinear.rnd_abs_le finite_one'.1 hx).trans (one_le_pow₀ one_le_two)⟩
  have tq : Tempered q := ⟨one cx, one cy, one cz, one cs⟩
  have d : ‖hamilton q - hamilton p‖ ≤ DQuat.u := by
    have e : hamilton q - hamilton p = hamilton ⟨rnd p.x - p.x, rnd p.y - p.y, rnd p.z - p.z, rnd p.s - p.s⟩ := by
      ext
      · rw [Quaternion.re_sub]; rfl
      · rw [Quaternion.imI_sub]; rfl
      · rw [Quaternion.imJ_sub]; rfl
      · rw [Quaternion.imK_sub]; rfl
    rw [e]
    refine le_of_sq_le_sq ?_ u0.le
    rw [DQuat.norm_hamilton]
    have s : ∀ {x : ℝ}, |x| ≤ 1 → (rnd x - x) ^ 2 ≤ (DQuat.u / 2) ^ 2 := fun {x} hx => by rw [← sq_abs]; exact pow_le_pow_left₀ (abs_nonneg _) (DRot.err1 hx) 2
    have := s cx
    have := s cy
    have := s cz
    have := s cs
    have e4 : (DQuat.u / 2) ^ 2 = DQuat.u ^ 2 / 4 := by ring
    rw [e4] at *
    linarith
  have n := abs_norm_sub_norm_le (hamilton q) (hamilton p)
  rw [hp] at n
  obtain ⟨n1, n2⟩ := abs_le.1 (n.trans d)
  have hN : ‖hamilton q‖ ^ 2 ≤ 1 + 201 / 100 * DQuat.u := by
    have := pow_le_pow_left₀ (norm_nonneg (hamilton q)) (by linarith : ‖hamilton q‖ ≤ 1 + DQuat.u) 2
    nlinarith
  have hN' : 1 / 2 ≤ ‖hamilton q‖ ^ 2 := by nlinarith
  rw [e53] at he
  have hu := (C120_unitary tq (by linarith) he' hr).1 (by rw [e53]; exact abs_le.2 ⟨by linarith, by linarith⟩)
  refine ⟨_, (convert o tq hu).trans ((ctor_fin o eps (mat_le hN)).1 (mat_passes o hN he)), fun v => ?_⟩
  have hne : hamilton p ≠ 0 := by
    intro hh
    rw [hh, norm_zero] at hp
    linarith
  obtain ⟨-, xs⟩ := exact_rotation p v hne
  rw [hp, one_pow, one_smul] at xs
  rw [← xs, e53]
  have s := mat_turn hN' v
  have e : pure (turn (DRot.mat q) v) - star (hamilton p) * (pure v * hamilton p) =
      (pure (turn (DRot.mat q) v) - star (hamilton q) * (pure v * hamilton q)) +
        (star (hamilton q - hamilton p) * (pure v * hamilton q) + star (hamilton p) * (pure v * (hamilton q - hamilton p))) := by
    rw [star_sub, sub_mul, mul_sub, mul_sub]
    abel
  rw [e]
  refine (norm_add_le _ _).trans ((add_le_add s (norm_add_le _ _)).trans ?_)
  rw [norm_mul, norm_mul, norm_mul, norm_mul, norm_star, norm_star, hp]
  have V0 := norm_nonneg (pure v)
  have k1 : ‖hamilton q - hamilton p‖ * (‖pure v‖ * ‖hamilton q‖) ≤ DQuat.u * (‖pure v‖ * (1001 / 1000)) :=
    mul_le_mul d (mul_le_mul_of_nonneg_left (by linarith) V0) (by positivity) u0.le
  have k2 : ‖pure v‖ * ‖hamilton q - hamilton p‖ ≤ ‖pure v‖ * DQuat.u := mul_le_mul_of_nonneg_left d V0
  have k3 : 87 / 10 * (DQuat.u * ‖hamilton q‖ ^ 2) * ‖pure v‖ ≤ 88 / 10 * DQuat.u * ‖pure v‖ := by
    refine mul_le_mul_of_nonneg_right ?_ V0
    have := mul_le_mul_of_nonneg_left (by linarith : ‖hamilton q‖ ^ 2 ≤ 1001 / 1000) u0.le
    linarith
  have : 0 ≤ DQuat.u * ‖pure v‖ := by positivity
  linarith

theorem rep50 (k : ℤ) (hk : |k| ≤ 2 ^ 50) : Representable ((1 : ℝ) + k / 2 ^ 50) := by
  have := representable_of (α := ℝ) (m := 2 ^ 50 + k) (e := -50) (by have := abs_le.1 hk; exact abs_le.2 ⟨by omega, by omega⟩) (by norm_num)
  rw [zpow_neg] at this
  convert this using 1
  push_cast
  norm_num
  ring

theorem square50 : rnd ((1 + 1 / 2 ^ 50) * (1 + 1 / 2 ^ 50) : ℝ) = 1 + 2 / 2 ^ 50 := by
  have := rnd_eq (x := ((1 + 1 / 2 ^ 50) * (1 + 1 / 2 ^ 50) : ℝ)) (2 ^ 52 + 2 ^ 3) (-52) (by norm_num) (by norm_num) (by norm_num) (Or.inl (by norm_num))
  rw [this]
  norm_num

theorem large50 {x : ℝ} (h : 1 ≤ x) : (2 : ℝ) ^ (-500 : ℤ) ≤ |x| := by
  rw [abs_of_nonneg (by linarith)]
  exact (zpow_le_one_of_nonpos₀ one_le_two (by norm_num)).trans h

theorem axis_norm (o : Bool) {x : ℝ} (hx : Representable x) (h : 1 ≤ x) :
    DVec.nrm3 o x 0 0 = x ∧ DVec.nrm3 o 0 x 0 = x ∧ DVec.nrm3 o 0 0 x = x := by
  have r := DQuat.sqrt_sq hx (large50 h)
  rw [abs_of_nonneg (by linarith)] at r
  refine ⟨?_, ?_, ?_⟩ <;> cases o <;> simp [DVec.nrm3, DVec.dot3, DVec.sum3, rnd_zero, rnd_rnd, r]

/-- C122 fails: a quaternion that `isUnitary` accepts, and which does not convert to a rotation matrix, for every tolerance from 2⁻⁵⁰ to 2⁻⁴⁹, such as 1e-15 -/
theorem C122_quaternion_violated (o : Bool) {eps : ℝ} (h1 : 1 / 2 ^ 50 ≤ eps) (h2 : eps < 2 / 2 ^ 50) :
    DQuat.isUnitary (.fin eps) (.of ⟨0, 0, 0, 1 + 1 / 2 ^ 50⟩) = .ok true ∧
      DRot.Quaternion o (.fin eps) (.of ⟨0, 0, 0, 1 + 1 / 2 ^ 50⟩) = .error .runtimeError := by
  have r1 : Representable ((1 : ℝ) + 1 / 2 ^ 50) := by simpa using rep50 1 (by norm_num)
  have r2 : Representable ((1 : ℝ) + 2 / 2 ^ 50) := by simpa using rep50 2 (by norm_num)
  have o0 : Representable (0 : ℝ) ∧ |(0 : ℝ)| ≤ 2 ^ 500 := ⟨representable_zero, by rw [abs_zero]; exact pow_nonneg zero_le_two _⟩
  have tq : Tempered ⟨0, 0, 0, 1 + 1 / 2 ^ 50⟩ := by
    refine ⟨o0, o0, o0, r1, le_trans ?_ two_500⟩
    rw [abs_of_nonneg (by norm_num)]
    norm_num
  have p : (0 : ℝ) < 1 / 2 ^ 50 := by norm_num
  have sq := DQuat.sqrt_sq r1 (large50 (by norm_num))
  rw [square50, abs_of_nonneg (by norm_num)] at sq
  have n : DQuat.nrm 0 0 0 (1 + 1 / 2 ^ 50) = 1 + 1 / 2 ^ 50 := by
    rw [DQuat.nrm, DQuat.sumSq, square50]
    simp only [mul_zero, rnd_zero, add_zero, zero_add]
    rw [rnd_exact r2, sq]
  have hu : DQuat.isUnitary (.fin eps) (.of ⟨0, 0, 0, 1 + 1 / 2 ^ 50⟩) = .ok true := by
    rw [unitary_iff tq (p.trans_le h1), n, add_sub_cancel_left, rnd_exact, abs_of_pos p, decide_eq_true h1]
    have := F64.representable_pow (α := ℝ) (e := -50) (by norm_num)
    rwa [zpow_neg, ← one_div] at this
  refine ⟨hu, ?_⟩
  rw [convert o tq hu]
  refine (ctor_fin o eps ?_).2 ?_
  · intro i j
    refine (mat_le2 ?_ i j).trans two_500
    rw [← norm_sq]
    norm_num
  · rintro ⟨h, -⟩
    have h := h 0
    have m0 : DRot.mat ⟨0, 0, 0, 1 + 1 / 2 ^ 50⟩ 0 0 = 1 + 2 / 2 ^ 50 := by
      simp only [DRot.mat, Matrix.cons_val_zero, DT3.dot4, DT3.sum4, neg_zero, mul_zero, rnd_zero, add_zero, zero_add]
      rw [square50, rnd_exact r2]
    have m1 : DRot.mat ⟨0, 0, 0, 1 + 1 / 2 ^ 50⟩ 1 0 = 0 := by simp [DRot.mat, DRot.off, rnd_zero]
    have m2 : DRot.mat ⟨0, 0, 0, 1 + 1 / 2 ^ 50⟩ 2 0 = 0 := by simp [DRot.mat, DRot.off, rnd_zero]
    rw [m0, m1, m2, (axis_norm o r2 (by norm_num)).1, add_sub_cancel_left, rnd_exact] at h
    · linarith
    · have := representable_of (α := ℝ) (m := 2) (e := -50) (by norm_num) (by norm_num)
      rw [zpow_neg] at this
      simpa [div_eq_mul_inv] using this

/-- the matrix with these numbers on the diagonal -/
def diagonal (a b c : ℝ) : Fin 3 → Fin 3 → ℝ := ![![a, 0, 0], ![0, b, 0], ![0, 0, c]]

theorem diagonal_dot (o : Bool) (a b c x y z : ℝ) : DVec.dot3 o a 0 0 0 y 0 = 0 ∧ DVec.dot3 o 0 b 0 0 0 z = 0 ∧ DVec.dot3 o 0 0 c x 0 0 = 0 := by
  refine ⟨?_, ?_, ?_⟩ <;> cases o <;> simp [DVec.dot3, DVec.sum3, rnd_zero]

theorem diagonal_le {a : ℝ} (h : |a| ≤ 2 ^ 500) (i j : Fin 3) : |diagonal a 1 1 i j| ≤ 2 ^ 500 := by
  have z : |(0 : ℝ)| ≤ 2 ^ 500 := by rw [abs_zero]; positivity
  have one : |(1 : ℝ)| ≤ 2 ^ 500 := by rw [abs_one]; exact one_le_pow₀ one_le_two
  fin_cases i <;> fin_cases j <;> first | exact h | exact one | exact z

/-- C122 fails: a matrix that the constructor accepts as a rotation matrix, and whose product with itself throws -/
theorem C122_product_violated (o : Bool) {eps : ℝ} (h1 : 1 / 2 ^ 50 ≤ eps) (h2 : eps < 2 / 2 ^ 50) :
    DRot.ctor o (.fin eps) (entries (diagonal (1 + 1 / 2 ^ 50) 1 1)) = .ok (entries (diagonal (1 + 1 / 2 ^ 50) 1 1)) ∧
      DRot.mul o (.fin eps) (entries (diagonal (1 + 1 / 2 ^ 50) 1 1)) (entries (diagonal (1 + 1 / 2 ^ 50) 1 1)) = .error .runtimeError := by
  have r1 : Representable ((1 : ℝ) + 1 / 2 ^ 50) := by simpa using rep50 1 (by norm_num)
  have r2 : Representable ((1 : ℝ) + 2 / 2 ^ 50) := by simpa using rep50 2 (by norm_num)
  have q1 : Representable ((1 : ℝ) / 2 ^ 50) := by
    have := F64.representable_pow (α := ℝ) (e := -50) (by norm_num)
    rwa [zpow_neg, ← one_div] at this
  have q2 : Representable ((2 : ℝ) / 2 ^ 50) := by
    have := representable_of (α := ℝ) (m := 2) (e := -50) (by norm_num) (by norm_num)
    rw [zpow_neg] at this
    simpa [div_eq_mul_inv] using this
  have p : (0 : ℝ) < 1 / 2 ^ 50 := by norm_num
  have e0 : 0 ≤ eps := p.le.trans h1
  have b1 : |(1 : ℝ) + 1 / 2 ^ 50| ≤ 2 ^ 500 := le_trans (by rw [abs_of_nonneg (by norm_num)]; norm_num) two_500
  have b2 : |(1 : ℝ) + 2 / 2 ^ 50| ≤ 2 ^ 500 := le_trans (by rw [abs_of_nonneg (by norm_num)]; norm_num) two_500
  have n1 := axis_norm o r1 (by norm_num)
  have n2 := axis_norm o r2 (by norm_num)
  have n0 := axis_norm o finite_one'.1 le_rfl
  constructor
  · refine (ctor_fin o eps (diagonal_le b1)).1 ⟨fun j => ?_, ?_, ?_, ?_⟩
    · fin_cases j
      · show rnd (DVec.nrm3 o (1 + 1 / 2 ^ 50) 0 0 - 1) ≤ eps
        rw [n1.1, add_sub_cancel_left, rnd_exact q1]; exact h1
      · show rnd (DVec.nrm3 o 0 1 0 - 1) ≤ eps
        rw [n0.2.1, sub_self, rnd_zero]; exact e0
      · show rnd (DVec.nrm3 o 0 0 1 - 1) ≤ eps
        rw [n0.2.2, sub_self, rnd_zero]; exact e0
    · show |DVec.dot3 o (1 + 1 / 2 ^ 50) 0 0 0 1 0| ≤ eps
      rw [(diagonal_dot o (1 + 1 / 2 ^ 50) 0 0 0 1 0).1, abs_zero]; exact e0
    · show |DVec.dot3 o 0 1 0 0 0 1| ≤ eps
      rw [(diagonal_dot o 0 1 0 0 0 1).2.1, abs_zero]; exact e0
    · show |DVec.dot3 o 0 0 1 (1 + 1 / 2 ^ 50) 0 0| ≤ eps
      rw [(diagonal_dot o 0 0 1 (1 + 1 / 2 ^ 50) 0 0).2.2, abs_zero]; exact e0
  · rw [DRot.mul, entries_defined, if_neg (by simp)]
    have m : (fun i j => DVec.sum o ((entries (diagonal (1 + 1 / 2 ^ 50) 1 1) i 0).mul (entries (diagonal (1 + 1 / 2 ^ 50) 1 1) 0 j))
        ((entries (diagonal (1 + 1 / 2 ^ 50) 1 1) i 1).mul (entries (diagonal (1 + 1 / 2 ^ 50) 1 1) 1 j))
        ((entries (diagonal (1 + 1 / 2 ^ 50) 1 1) i 2).mul (entries (diagonal (1 + 1 / 2 ^ 50) 1 1) 2 j))) = entries (diagonal (1 + 2 / 2 ^ 50) 1 1) := by
      have one : rnd (1 : ℝ) = 1 := rnd_exact finite_one'.1
      have d := diagonal_le b1
      funext i j
      have := (DVec.dot_fin o (d i 0) (d i 1) (d i 2) (d 0 j) (d 1 j) (d 2 j)).1
      rw [DVec.dot] at this
      simp only [entries]
      rw [this]
      congr 1
      fin_cases i <;> fin_cases j <;> cases o <;> simp [diagonal, DVec.dot3, DVec.sum3, rnd_zero, one] <;>
        first | (rw [show ((1 : ℝ) + (2 ^ 50)⁻¹) = 1 + 1 / 2 ^ 50 by rw [one_div], square50]; simp only [rnd_exact r2]) | skip
    rw [m]
    refine (ctor_fin o eps (diagonal_le b2)).2 ?_
    rintro ⟨h, -⟩
    have h : rnd (DVec.nrm3 o (1 + 2 / 2 ^ 50) 0 0 - 1) ≤ eps := h 0
    rw [n2.1, add_sub_cancel_left, rnd_exact q2] at h
    linarith

/-- C122: a coefficient of the product of two matrices is the exact one up to rounding -/
theorem C122_product (o : Bool) {eps : ℝ} {A B : Fin 3 → Fin 3 → ℝ} (hA : ∀ i j, |A i j| ≤ 2 ^ 240) (hB : ∀ i j, |B i j| ≤ 2 ^ 240) {m}
    (h : DRot.mul o (.fin eps) (entries A) (entries B) = .ok m) :
    ∃ M, m = entries M ∧ ∀ i j, |M i j - (A i 0 * B 0 j + A i 1 * B 1 j + A i 2 * B 2 j)| ≤
      301 / 100 / 2 ^ 53 * (|A i 0 * B 0 j| + |A i 1 * B 1 j| + |A i 2 * B 2 j|) + 31 / 10 * 2 ^ (-1075 : ℤ) := by
  have p : ∀ {x : ℝ}, x ≤ 2 ^ 240 → x ≤ 2 ^ 500 := fun hx => hx.trans (pow_le_pow_right₀ one_le_two (by norm_num))
  refine ⟨fun i j => DVec.dot3 o (A i 0) (A i 1) (A i 2) (B 0 j) (B 1 j) (B 2 j), ?_, fun i j => ?_⟩
  · rw [DRot.mul, entries_defined, entries_defined, if_neg (by simp)] at h
    have e : (fun i j => DVec.sum o ((entries A i 0).mul (entries B 0 j)) ((entries A i 1).mul (entries B 1 j)) ((entries A i 2).mul (entries B 2 j))) =
        entries (fun i j => DVec.dot3 o (A i 0) (A i 1) (A i 2) (B 0 j) (B 1 j) (B 2 j)) := by
      funext i j
      exact (DVec.dot_fin o (p (hA i 0)) (p (hA i 1)) (p (hA i 2)) (p (hB 0 j)) (p (hB 1 j)) (p (hB 2 j))).1
    rw [e] at h
    have r : ∀ {c : Prop} [Decidable c] {x y : Res (Fin 3 → Fin 3 → F64 ℝ)}, (if c then .error .runtimeError else x) = y → (∃ z, y = .ok z) → x = y := by
      intro c _ x y h1 ⟨z, h2⟩
      split at h1
      · rw [h2] at h1; cases h1
      · exact h1
    rw [DRot.ctor] at h
    have g : ∃ z, (Except.ok m : Res (Fin 3 → Fin 3 → F64 ℝ)) = .ok z := ⟨m, rfl⟩
    have h := r (r (r (r (r (r h g) g) g) g) g) g
    exact (Except.ok.inj h).symm
  · have := DVec.dot3_near o (A i 0) (A i 1) (A i 2) (B 0 j) (B 1 j) (B 2 j)
    rw [e53]
    exact this

/-- 9 · 2⁻⁵³ is a tolerance that meets the hypotheses, and the quaternion (3, 0, 0, 4) / 5 is of norm one -/
example : Representable ((9 : ℝ) / 2 ^ 53) ∧ (9 : ℝ) / 2 ^ 53 ≤ 1 / 8 ∧ (9 : ℝ) / 2 ^ 53 < 1 / 10 ^ 15 ∧ ‖hamilton ⟨3 / 5, 0, 0, 4 / 5⟩‖ = 1 := by
  refine ⟨?_, by norm_num, by norm_num, ?_⟩
  · have := representable_of (α := ℝ) (m := 9) (e := -53) (by norm_num) (by norm_num)
    rw [DLinear.two_neg53] at this
    rw [div_eq_mul_one_div]
    simpa using this
  · rw [← norm_sqrt]; norm_num

/-- the quaternion of a half turn meets the hypotheses on components and norm, and its conversion returns -/
example (o : Bool) : ∃ m, DRot.Quaternion o (.fin (9 / 2 ^ 53)) (.of ⟨1, 0, 0, 0⟩) = .ok m := by
  have o1 : Representable (1 : ℝ) ∧ |(1 : ℝ)| ≤ 2 ^ 500 := ⟨finite_one'.1, by rw [abs_one]; exact one_le_pow₀ one_le_two⟩
  have o0 : Representable (0 : ℝ) ∧ |(0 : ℝ)| ≤ 2 ^ 500 := ⟨representable_zero, by rw [abs_zero]; exact pow_nonneg zero_le_two _⟩
  have n : ‖hamilton ⟨1, 0, 0, 0⟩‖ = 1 := by rw [← norm_sqrt]; norm_num
  have r : Representable ((9 : ℝ) / 2 ^ 53) := by
    have := representable_of (α := ℝ) (m := 9) (e := -53) (by norm_num) (by norm_num)
    rw [DLinear.two_neg53] at this
    rw [div_eq_mul_one_div]
    simpa using this
  obtain ⟨M, h⟩ := C122_accepts_partial o (q := ⟨1, 0, 0, 0⟩) ⟨o1, o0, o0, o0⟩ le_rfl (by norm_num) r (by rw [n]; norm_num) (by rw [n]; norm_num)
  exact ⟨_, h⟩

end Verif.Props
