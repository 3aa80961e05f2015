import Verif.Lemmas.DoubleBasis
import Verif.Props.DoubleFlat

/-!
# C143: rotation matrices made from vectors in double precision
-/

namespace Verif.Props

open Verif Verif.Spec Verif.Double

/-- the exact basis made from two unit vectors -/
theorem exact_basis {e f : V3} (he : e.norm = 1) (hc : 0 < (e.cross f).norm) :
    RotMat.basis e f = M3.rows e ((unitAlong (e.cross f)).cross e) (unitAlong (e.cross f)) ∧ IsRotation (RotMat.basis e f) ∧ (RotMat.basis e f).mulVec e = ⟨1, 0, 0⟩ ∧
      (RotMat.basis e f).mulVec (unitAlong (e.cross f)) = ⟨0, 0, 1⟩ := by
  have he' : e.normSq = 1 := by rw [← V3.norm_sq, he, one_pow]
  have hc' : 0 < (e.cross f).normSq := by rw [← V3.norm_sq]; positivity
  have ea : (e.cross f).normalized = unitAlong (e.cross f) := by rw [V3.normalized_eq hc', unitAlong, one_div]
  obtain ⟨b1, b2⟩ := basis_mulVec he' hc'
  rw [ea] at b2
  exact ⟨by rw [RotMat.basis, ea], basis_isRotation he' hc', b1, b2⟩

/-- the normal of two vectors is that of the unit vectors along them -/
theorem along_cross {v w : V3} (hv : 0 < v.norm) (hw : 0 < w.norm) : unitAlong ((unitAlong v).cross (unitAlong w)) = unitAlong (v.cross w) ∧ ((unitAlong v).cross (unitAlong w)).norm = (v.cross w).norm / (v.norm * w.norm) := by
  have e : (unitAlong v).cross (unitAlong w) = (v.norm⁻¹ * w.norm⁻¹) • v.cross w := by ext <;> simp [unitAlong, V3.cross] <;> ring
  have p : 0 < v.norm⁻¹ * w.norm⁻¹ := by positivity
  rw [e]
  refine ⟨unitAlong_smul p _, ?_⟩
  rw [V3.norm_smul, abs_of_pos p]
  field_simp

/-- the columns of a rotation -/
theorem rotation_columns {R : M3} (h : IsRotation R) : (∀ j, toMatrix R 0 j ^ 2 + toMatrix R 1 j ^ 2 + toMatrix R 2 j ^ 2 = 1) ∧
    ∀ j k, j ≠ k → toMatrix R 0 j * toMatrix R 0 k + toMatrix R 1 j * toMatrix R 1 k + toMatrix R 2 j * toMatrix R 2 k = 0 := by
  obtain ⟨h1, -⟩ := M3.isRotation_iff'.1 h
  rw [M3.ext_iff] at h1
  simp only [M3.mul, M3.transpose, M3.one] at h1
  obtain ⟨a1, a2, a3, a4, a5, a6, a7, a8, a9⟩ := h1
  constructor
  · intro j; fin_cases j <;> simp [toMatrix] <;> linarith
  · intro j k jk
    fin_cases j <;> fin_cases k <;> first | exact absurd rfl jk | (simp [toMatrix]; linarith)

theorem turn_toMatrix (R : M3) (v : V3) : turn (toMatrix R) v = R.mulVec v := by
  ext <;> simp [turn, toMatrix, M3.mulVec]

/-- the computed product of the transpose of one matrix and another -/
noncomputable def madeProduct (o : Bool) (D S : Fin 3 → Fin 3 → ℝ) : Fin 3 → Fin 3 → ℝ := fun i j => dotR o ⟨D 0 i, D 1 i, D 2 i⟩ ⟨S 0 j, S 1 j, S 2 j⟩

theorem product_entries (o : Bool) {D S : Fin 3 → Fin 3 → ℝ} (hD : ∀ i j, |D i j| ≤ 2 ^ 500) (hS : ∀ i j, |S i j| ≤ 2 ^ 500) :
    (fun i j => DVec.sum o ((entries D 0 i).mul (entries S 0 j)) ((entries D 1 i).mul (entries S 1 j)) ((entries D 2 i).mul (entries S 2 j))) = entries (madeProduct o D S) := by
  funext i j
  exact dot_doubles o (v := ⟨D 0 i, D 1 i, D 2 i⟩) (w := ⟨S 0 j, S 1 j, S 2 j⟩) ⟨hD 0 i, hD 1 i, hD 2 i⟩ ⟨hS 0 j, hS 1 j, hS 2 j⟩

/-- a term of the product -/
theorem basis_term_near {D S F E d : ℝ} (hF : |F| ≤ 1) (hE : |E| ≤ 1) (h1 : |D - F| ≤ d) (h2 : |S - E| ≤ d) (hd : d ≤ 1 / 1000) : |D * S - F * E| ≤ 2001 / 1000 * d ∧ |D * S| ≤ 101 / 100 := by
  have d0 := (abs_nonneg _).trans h1
  have e : D * S - F * E = (D - F) * E + F * (S - E) + (D - F) * (S - E) := by ring
  have b1 : |(D - F) * E| ≤ d := by rw [abs_mul]; nlinarith [abs_nonneg (D - F), abs_nonneg E]
  have b2 : |F * (S - E)| ≤ d := by rw [abs_mul]; nlinarith [abs_nonneg (S - E), abs_nonneg F]
  have b3 : |(D - F) * (S - E)| ≤ 1 / 1000 * d := by
    rw [abs_mul]; nlinarith [mul_le_mul h1 h2 (abs_nonneg _) d0, mul_le_mul_of_nonneg_right hd d0]
  have b4 : |F * E| ≤ 1 := by rw [abs_mul]; nlinarith [abs_nonneg F, abs_nonneg E]
  have b5 : |D * S - F * E| ≤ 2001 / 1000 * d := by
    rw [e]
    have := abs_add_le ((D - F) * E + F * (S - E)) ((D - F) * (S - E))
    have := abs_add_le ((D - F) * E) (F * (S - E))
    linarith
  refine ⟨b5, ?_⟩
  have := abs_sub_abs_le_abs_sub (D * S) (F * E)
  linarith

theorem transposed_near (o : Bool) {D S F E : Fin 3 → Fin 3 → ℝ} (hF : ∀ i j, |F i j| ≤ 1) (hE : ∀ i j, |E i j| ≤ 1) {d : Fin 3 → ℝ} (hd : ∀ i, d i ≤ 1 / 1000) (h1 : ∀ i j, |D i j - F i j| ≤ d i)
    (h2 : ∀ i j, |S i j - E i j| ≤ d i) (i j : Fin 3) : |madeProduct o D S i j - (F 0 i * E 0 j + F 1 i * E 1 j + F 2 i * E 2 j)| ≤ 2001 / 1000 * (d 0 + d 1 + d 2) + 10 * DQuat.u := by
  have u0 := DQuat.u_pos
  have t0 := DQuat.t_pos
  have tu := DRot.t_u
  norm_num at tu
  have h := DVec.dot3_near o (D 0 i) (D 1 i) (D 2 i) (S 0 j) (S 1 j) (S 2 j)
  have t := fun k => basis_term_near (hF k i) (hE k j) (h1 k i) (h2 k j) (hd k)
  have ab := mul_le_mul_of_nonneg_left (show |D 0 i * S 0 j| + |D 1 i * S 1 j| + |D 2 i * S 2 j| ≤ 303 / 100 by linarith [(t 0).2, (t 1).2, (t 2).2]) u0.le
  have e : madeProduct o D S i j = DVec.dot3 o (D 0 i) (D 1 i) (D 2 i) (S 0 j) (S 1 j) (S 2 j) := rfl
  rw [e]
  rw [abs_le] at h ⊢
  constructor <;> linarith [h.1, h.2, (abs_le.1 (t 0).1).1, (abs_le.1 (t 1).1).1, (abs_le.1 (t 2).1).1, (abs_le.1 (t 0).1).2, (abs_le.1 (t 1).1).2, (abs_le.1 (t 2).1).2]

theorem rows_near {a b c e f g : V3} {x y z : ℝ} (h1 : (a - e).norm ≤ x) (h2 : (b - f).norm ≤ y) (h3 : (c - g).norm ≤ z) (i j : Fin 3) : |rowsR a b c i j - rowsR e f g i j| ≤ ![x, y, z] i := by
  obtain ⟨p1, p2, p3⟩ := within_length (a - e)
  obtain ⟨q1, q2, q3⟩ := within_length (b - f)
  obtain ⟨r1, r2, r3⟩ := within_length (c - g)
  fin_cases i <;> fin_cases j <;> simp [rowsR]
  exacts [p1.trans h1, p2.trans h1, p3.trans h1, q1.trans h2, q2.trans h2, q3.trans h2, r1.trans h3, r2.trans h3, r3.trans h3]

theorem rows_le {e n : V3} (hn : 0 < n.norm) (he : e.norm = 1) (i j : Fin 3) : |rowsR e ((unitAlong n).cross e) (unitAlong n) i j| ≤ 1 := by
  have nn := norm_along hn
  have nc := cross_le (unitAlong n) e
  rw [nn, he, one_mul] at nc
  obtain ⟨p1, p2, p3⟩ := within_length e
  obtain ⟨q1, q2, q3⟩ := within_length ((unitAlong n).cross e)
  obtain ⟨r1, r2, r3⟩ := within_length (unitAlong n)
  rw [he] at p1 p2 p3
  rw [nn] at r1 r2 r3
  fin_cases i <;> fin_cases j <;> simp [rowsR]
  exacts [p1, p2, p3, q1.trans nc, q2.trans nc, q3.trans nc, r1, r2, r3]

theorem rows_bounded {D F : Fin 3 → Fin 3 → ℝ} (hF : ∀ i j, |F i j| ≤ 1) {d : Fin 3 → ℝ} (h : ∀ i j, |D i j - F i j| ≤ d i) (hd : ∀ i, d i ≤ 1 / 1000) (i j : Fin 3) : |D i j| ≤ 2 ^ 500 := by
  have := abs_sub_abs_le_abs_sub (D i j) (F i j)
  refine le_trans ?_ two_500
  linarith [hF i j, h i j, hd i]

/-- two vectors whose angle has a sine of at least `k` are not taken to be parallel -/
theorem not_parallel (o : Bool) {a b e f : V3} (he : e.norm = 1) (hf : f.norm = 1) (ha : (a - e).norm ≤ 45 / 10 * DQuat.u) (hb : (b - f).norm ≤ 45 / 10 * DQuat.u) {k : ℝ} (hk : 1 / 2 ^ 20 ≤ k)
    (hs : k ≤ (e.cross f).norm) {eps : ℝ} (h : eps ≤ k ^ 2 / 4) : DRot.parallel o (.fin eps) (doubles a) (doubles b) = false := by
  have u0 := DQuat.u_pos
  have us := DQuat.u_small
  have t0 := DQuat.t_pos
  have tu := DRot.t_u
  norm_num at tu
  have k0 : 0 < k := lt_of_lt_of_le (by norm_num) hk
  have na := near_length ha
  have nb := near_length hb
  rw [he] at na
  rw [hf] at nb
  have an := V3.norm_nonneg a
  have bn := V3.norm_nonneg b
  have dn := dotR_near o a b
  have ab : a.norm * b.norm ≤ 101 / 100 := by nlinarith
  have uab := mul_le_mul_of_nonneg_left ab u0.le
  have e1 : a.dot b - e.dot f = (a - e).dot b + e.dot (b - f) := by simp [V3.dot]; ring
  have c1 := V3.abs_dot_le (a - e) b
  have c2 := V3.abs_dot_le e (b - f)
  rw [he, one_mul] at c2
  have c3 : |a.dot b - e.dot f| ≤ 91 / 10 * DQuat.u := by
    rw [e1]
    refine (abs_add_le _ _).trans ?_
    have := mul_le_mul ha (show b.norm ≤ 101 / 100 by linarith) bn (by positivity)
    linarith
  have lag := V3.lagrange e f
  rw [← V3.norm_sq, ← V3.norm_sq e, ← V3.norm_sq f, he, hf] at lag
  have ks : k ^ 2 ≤ (e.cross f).norm ^ 2 := by gcongr
  have x1 : |e.dot f| ≤ 1 - k ^ 2 / 2 := by
    refine abs_le_of_sq_le_sq ?_ ?_
    · nlinarith [sq_nonneg (k ^ 2)]
    · nlinarith [sq_nonneg (e.dot f)]
  have kk : 1 / 2 ^ 40 ≤ k ^ 2 := by
    refine le_trans (by norm_num) (pow_le_pow_left₀ (by norm_num) hk 2)
  have x2 : |dotR o a b| ≤ 1 - k ^ 2 / 2 + 13 * DQuat.u := by
    have y1 := abs_sub_abs_le_abs_sub (dotR o a b) (a.dot b)
    have y2 := abs_sub_abs_le_abs_sub (a.dot b) (e.dot f)
    linarith
  have x3 : k ^ 2 / 3 ≤ -(|dotR o a b| - 1) := by
    norm_num at kk; linarith
  have dd := dot_of_direction o (n := a) (d := b) (by linarith) (by linarith)
  have l1 : |(|dotR o a b|)| ≤ 2 ^ 502 := by
    rw [abs_abs]
    refine le_trans ?_ (one_le_pow₀ (one_le_two : (1 : ℝ) ≤ 2) (n := 502))
    linarith [abs_nonneg (dotR o a b)]
  have n1 := DRot.near1 (|dotR o a b| - 1)
  have neg : |(|dotR o a b| - 1)| = -(|dotR o a b| - 1) := abs_of_nonpos (by nlinarith)
  rw [neg] at n1
  have fin : k ^ 2 / 4 ≤ |rnd (|dotR o a b| - 1)| := by
    have := mul_le_mul_of_nonneg_right us (show 0 ≤ -(|dotR o a b| - 1) by nlinarith)
    have y := abs_sub_abs_le_abs_sub (|dotR o a b| - 1) (rnd (|dotR o a b| - 1))
    rw [neg, abs_sub_comm] at y
    norm_num at kk this
    linarith
  rw [DRot.parallel, dd, F64.abs, sub_one2 l1, F64.abs, F64.lt]
  simp only [decide_eq_false_iff_not, not_lt]
  linarith

/-- a vector that is not short is not taken to be zero -/
theorem not_short (o : Bool) {v : V3} (hv : Within v) (h : 1 / 2 ^ 40 ≤ v.norm) {eps : ℝ} (he : eps ≤ 1 / 2 ^ 41) : ((doubles v).norm o).lt (.fin eps) = false := by
  have us := DQuat.u_small
  have n := normR_near o v
  have small : (2 : ℝ) ^ (-535 : ℤ) ≤ 1 / 2 ^ 50 := by
    rw [show (1 : ℝ) / 2 ^ 50 = 2 ^ (-50 : ℤ) by norm_num]; exact zpow_le_zpow_right₀ one_le_two (by norm_num)
  generalize (2 : ℝ) ^ (-535 : ℤ) = s at *
  have := mul_le_mul_of_nonneg_right us (V3.norm_nonneg v)
  rw [norm_doubles o (hv.bounded.mono (by norm_num)), F64.lt]
  simp only [decide_eq_false_iff_not, not_lt]
  have n1 := (abs_le.1 n).1
  norm_num at h he small this
  linarith

/-- the matrix that is given to the constructor -/
noncomputable def made (o : Bool) (s1 s2 d1 d2 : DVec) : Fin 3 → Fin 3 → F64 ℝ := fun i j =>
  DVec.sum o ((DRot.basis o (d1.normalized o) (d2.normalized o) 0 i).mul (DRot.basis o (s1.normalized o) (s2.normalized o) 0 j))
    ((DRot.basis o (d1.normalized o) (d2.normalized o) 1 i).mul (DRot.basis o (s1.normalized o) (s2.normalized o) 1 j))
    ((DRot.basis o (d1.normalized o) (d2.normalized o) 2 i).mul (DRot.basis o (s1.normalized o) (s2.normalized o) 2 j))

theorem made_returned (o : Bool) {eps : F64 ℝ} {s1 s2 d1 d2 : DVec} {m : Fin 3 → Fin 3 → F64 ℝ} (h : DRot.VectorBasis o eps s1 s2 d1 d2 = .ok m) : m = made o s1 s2 d1 d2 := by
  rw [DRot.VectorBasis] at h
  split_ifs at h
  exact ctor_returns o eps _ h

theorem made_of_tests (o : Bool) {eps : F64 ℝ} {s1 s2 d1 d2 : DVec} (h1 : s1.isDefined = true) (h2 : s2.isDefined = true) (h3 : d1.isDefined = true) (h4 : d2.isDefined = true)
    (n1 : (s1.norm o).lt eps = false) (n2 : (s2.norm o).lt eps = false) (n3 : (d1.norm o).lt eps = false) (n4 : (d2.norm o).lt eps = false)
    (p1 : DRot.parallel o eps (s1.normalized o) (s2.normalized o) = false) (p2 : DRot.parallel o eps (d1.normalized o) (d2.normalized o) = false) :
    DRot.VectorBasis o eps s1 s2 d1 d2 = DRot.ctor o eps (made o s1 s2 d1 d2) := by
  rw [DRot.VectorBasis, h1, h2, h3, h4, n1, n2, n3, n4, p1, p2]
  rfl

/-- **C143, matrices made from two pairs of vectors, in part.** For pairs of vectors between `2^-40` and about `2^499` long whose angles have sines of at least `k`, there is one rotation that takes the first
direction to the first direction and the normal to the normal, and one matrix of doubles that turns every vector to within `460 / (2^53 k)` times its length of what the rotation gives, such that `VectorBasis`
returns no other matrix, whatever the tolerance, and returns it at every tolerance between `540 / (2^53 k)` and the least of `k^2 / 4` and `2^-41`. Not covered: other vectors, and whether it returns at the
tolerance of the library. -/
theorem C143_basis_partial (o : Bool) {s1 s2 d1 d2 : V3} (hs1 : Within s1) (hs2 : Within s2) (hd1 : Within d1) (hd2 : Within d2) (ls1 : 1 / 2 ^ 40 ≤ s1.norm) (ls2 : 1 / 2 ^ 40 ≤ s2.norm)
    (ld1 : 1 / 2 ^ 40 ≤ d1.norm) (ld2 : 1 / 2 ^ 40 ≤ d2.norm) {k : ℝ} (hk : 1 / 2 ^ 20 ≤ k) (ks : k * (s1.norm * s2.norm) ≤ (s1.cross s2).norm) (kd : k * (d1.norm * d2.norm) ≤ (d1.cross d2).norm) :
    ∃ R : M3, IsRotation R ∧ R.mulVec (s1.norm⁻¹ • s1) = d1.norm⁻¹ • d1 ∧ R.mulVec ((s1.cross s2).norm⁻¹ • s1.cross s2) = (d1.cross d2).norm⁻¹ • d1.cross d2 ∧
      ∃ M : Fin 3 → Fin 3 → ℝ, (∀ eps m, DRot.VectorBasis o eps (doubles s1) (doubles s2) (doubles d1) (doubles d2) = .ok m → m = entries M) ∧
        (∀ eps, 540 / k / 2 ^ 53 ≤ eps → eps ≤ k ^ 2 / 4 → eps ≤ 1 / 2 ^ 41 → DRot.VectorBasis o (.fin eps) (doubles s1) (doubles s2) (doubles d1) (doubles d2) = .ok (entries M)) ∧
        ∀ v : V3, (turn M v - R.mulVec v).norm ≤ 460 / k / 2 ^ 53 * v.norm := by
  have u0 := DQuat.u_pos
  have us := DQuat.u_small
  have k0 : 0 < k := lt_of_lt_of_le (by norm_num) hk
  have z : (0 : ℝ) < 1 / 2 ^ 40 := by norm_num
  have ps1 := z.trans_le ls1
  have ps2 := z.trans_le ls2
  have pd1 := z.trans_le ld1
  have pd2 := z.trans_le ld2
  obtain ⟨a, ha, na⟩ := normalized_along o hs1 ls1
  obtain ⟨b, hb, nb⟩ := normalized_along o hs2 ls2
  obtain ⟨c, hc, nc⟩ := normalized_along o hd1 ld1
  obtain ⟨d, hd, nd⟩ := normalized_along o hd2 ld2
  have ea := norm_along ps1
  have eb := norm_along ps2
  have ec := norm_along pd1
  have ed := norm_along pd2
  obtain ⟨as, cs⟩ := along_cross ps1 ps2
  obtain ⟨ad, cd⟩ := along_cross pd1 pd2
  have ks' : k ≤ ((unitAlong s1).cross (unitAlong s2)).norm := by rw [cs, le_div_iff₀ (by positivity)]; exact ks
  have kd' : k ≤ ((unitAlong d1).cross (unitAlong d2)).norm := by rw [cd, le_div_iff₀ (by positivity)]; exact kd
  obtain ⟨m, n, hS, hn, hm⟩ := basis_near o ea eb na nb hk ks'
  obtain ⟨m', n', hD, hn', hm'⟩ := basis_near o ec ed nc nd hk kd'
  obtain ⟨eS, iS, S1, S2⟩ := exact_basis ea (k0.trans_le ks')
  obtain ⟨eD, iD, D1, D2⟩ := exact_basis ec (k0.trans_le kd')
  have k1 : k ≤ 1 := by
    have := cross_le (unitAlong s1) (unitAlong s2)
    rw [ea, eb, one_mul] at this; linarith
  have uk : DQuat.u ≤ DQuat.u / k := by rw [le_div_iff₀ k0]; nlinarith
  have uks : DQuat.u / k ≤ 1 / 10 ^ 8 := by
    rw [div_le_iff₀ k0]; norm_num at hk ⊢; linarith
  set R := (RotMat.basis (unitAlong d1) (unitAlong d2)).transpose.mul (RotMat.basis (unitAlong s1) (unitAlong s2)) with hR
  have iR : IsRotation R := M3.isRotation_mul (M3.isRotation_transpose iD) iS
  have near : ∀ i j, |madeProduct o (rowsR c m' n') (rowsR a m n) i j - toMatrix R i j| ≤ 152 * (DQuat.u / k) := fun i j => by
    have e : toMatrix R i j = rowsR (unitAlong d1) ((unitAlong ((unitAlong d1).cross (unitAlong d2))).cross (unitAlong d1)) (unitAlong ((unitAlong d1).cross (unitAlong d2))) 0 i *
        rowsR (unitAlong s1) ((unitAlong ((unitAlong s1).cross (unitAlong s2))).cross (unitAlong s1)) (unitAlong ((unitAlong s1).cross (unitAlong s2))) 0 j +
        rowsR (unitAlong d1) ((unitAlong ((unitAlong d1).cross (unitAlong d2))).cross (unitAlong d1)) (unitAlong ((unitAlong d1).cross (unitAlong d2))) 1 i *
        rowsR (unitAlong s1) ((unitAlong ((unitAlong s1).cross (unitAlong s2))).cross (unitAlong s1)) (unitAlong ((unitAlong s1).cross (unitAlong s2))) 1 j +
        rowsR (unitAlong d1) ((unitAlong ((unitAlong d1).cross (unitAlong d2))).cross (unitAlong d1)) (unitAlong ((unitAlong d1).cross (unitAlong d2))) 2 i *
        rowsR (unitAlong s1) ((unitAlong ((unitAlong s1).cross (unitAlong s2))).cross (unitAlong s1)) (unitAlong ((unitAlong s1).cross (unitAlong s2))) 2 j := by
      rw [hR, eS, eD]
      fin_cases i <;> fin_cases j <;> rfl
    rw [e]
    refine (transposed_near o (rows_le (k0.trans_le kd') ec) (rows_le (k0.trans_le ks') ea) (d := ![45 / 10 * DQuat.u, 37 * DQuat.u / k, 29 * DQuat.u / k]) ?_ (rows_near nc hm' hn') (rows_near na hm hn) i j).trans ?_
    · intro i
      fin_cases i <;> simp [mul_div_assoc] <;> linarith
    · simp [mul_div_assoc]; linarith
  have bD : ∀ i j, |rowsR c m' n' i j| ≤ 2 ^ 500 := rows_bounded (rows_le (k0.trans_le kd') ec) (rows_near nc hm' hn') (by intro i; fin_cases i <;> simp [mul_div_assoc] <;> linarith)
  have bS : ∀ i j, |rowsR a m n i j| ≤ 2 ^ 500 := rows_bounded (rows_le (k0.trans_le ks') ea) (rows_near na hm hn) (by intro i; fin_cases i <;> simp [mul_div_assoc] <;> linarith)
  have mk : made o (doubles s1) (doubles s2) (doubles d1) (doubles d2) = entries (madeProduct o (rowsR c m' n') (rowsR a m n)) := by
    rw [← product_entries o bD bS]
    funext i j
    rw [made, ha, hb, hc, hd, hS, hD]
  clear_value R
  refine ⟨R, iR, ?_, ?_, madeProduct o (rowsR c m' n') (rowsR a m n), ?_, ?_, ?_⟩
  · change R.mulVec (unitAlong s1) = unitAlong d1
    rw [hR, M3.mul_mulVec, S1, ← D1, M3.transpose_mulVec_mulVec iD]
  · change R.mulVec (unitAlong (s1.cross s2)) = unitAlong (d1.cross d2)
    rw [← as, ← ad, hR, M3.mul_mulVec, S2, ← D2, M3.transpose_mulVec_mulVec iD]
  · intro eps mm h
    rw [made_returned o h, mk]
  · intro eps e1 e2 e3
    rw [made_of_tests o (doubles_defined _) (doubles_defined _) (doubles_defined _) (doubles_defined _) (not_short o hs1 ls1 e3) (not_short o hs2 ls2 e3) (not_short o hd1 ld1 e3) (not_short o hd2 ld2 e3)
      (by rw [ha, hb]; exact not_parallel o ea eb na nb hk ks' e2) (by rw [hc, hd]; exact not_parallel o ec ed nc nd hk kd' e2), mk]
    obtain ⟨oc, oo⟩ := rotation_columns iR
    have pc := passes_columns o oc oo (by positivity) (by linarith) near (eps := eps) (by
      refine le_trans ?_ e1
      have : 540 / k / 2 ^ 53 = 540 * (DQuat.u / k) := by rw [DQuat.u]; ring
      rw [this]; linarith)
    exact (ctor_fin o eps pc.2).1 pc.1
  · intro v
    have s : ∀ i j, (madeProduct o (rowsR c m' n') (rowsR a m n) i j - toMatrix R i j) ^ 2 ≤ (152 * (DQuat.u / k)) ^ 2 := fun i j => sq_le_sq' (abs_le.1 (near i j)).1 (abs_le.1 (near i j)).2
    have t := turn_near (M := madeProduct o (rowsR c m' n') (rowsR a m n)) (R := toMatrix R) (f := 3 * (152 * (DQuat.u / k))) (by positivity)
      (by rw [mul_pow]; linarith [s 0 0, s 0 1, s 0 2, s 1 0, s 1 1, s 1 2, s 2 0, s 2 1, s 2 2]) v
    rw [pure_sub, pure_length, pure_length, turn_toMatrix] at t
    refine t.trans (mul_le_mul_of_nonneg_right ?_ (V3.norm_nonneg v))
    have : 460 / k / 2 ^ 53 = 460 * (DQuat.u / k) := by rw [DQuat.u]; ring
    rw [this]; linarith [div_pos u0 k0]

/-- 30, 45 and 46 divided by 71, and 32, 48 and 51 divided by 77 -/
noncomputable def unit71 : V3 := ⟨7611717680062810 * 2 ^ (-54 : ℤ), 5708788260047108 * 2 ^ (-53 : ℤ), 5835650221381488 * 2 ^ (-53 : ℤ)⟩
@[inherit_doc unit71]
noncomputable def unit77 : V3 := ⟨7486503276667838 * 2 ^ (-54 : ℤ), 5614877457500878 * 2 ^ (-53 : ℤ), 5965807298594683 * 2 ^ (-53 : ℤ)⟩

theorem normalized_int (o : Bool) {x y z : ℤ} {n : ℕ} (hx : |x| ≤ 2 ^ 20) (hy : |y| ≤ 2 ^ 20) (hz : |z| ≤ 2 ^ 20) (hn : (n : ℤ) ^ 2 = x ^ 2 + y ^ 2 + z ^ 2) (n0 : 0 < n) (n1 : n ≤ 2 ^ 50) :
    (doubles ⟨x, y, z⟩).normalized o = ⟨F64.ofExact (x / n : ℝ), F64.ofExact (y / n : ℝ), F64.ofExact (z / n : ℝ)⟩ := by
  have sq : ∀ {m : ℤ}, |m| ≤ 2 ^ 20 → 0 ≤ m * m ∧ m * m ≤ 2 ^ 40 := fun {m} h => by
    obtain ⟨h1, h2⟩ := abs_le.1 h
    constructor <;> nlinarith
  obtain ⟨x0, x1⟩ := sq hx
  obtain ⟨y0, y1⟩ := sq hy
  obtain ⟨z0, z1⟩ := sq hz
  have small : ∀ m : ℤ, 0 ≤ m → m ≤ 2 ^ 43 → F64.ofExact (m : ℝ) = .fin (m : ℝ) := fun m m0 m1 => ofExact_int m (by rw [abs_of_nonneg m0]; linarith)
  have q : (doubles ⟨x, y, z⟩).squaredNorm o = .fin ((x * x + y * y + z * z : ℤ) : ℝ) := by
    simp only [DVec.squaredNorm, DVec.dot, doubles, F64.mul, ← Int.cast_mul]
    rw [small _ x0 (by linarith), small _ y0 (by linarith), small _ z0 (by linarith)]
    cases o
    · simp only [DVec.sum, F64.add, ← Int.cast_add, Bool.false_eq_true, if_false]
      rw [small _ (by positivity) (by linarith)]
      simp only [← Int.cast_add]
      rw [small _ (by positivity) (by linarith)]
    · simp only [DVec.sum, F64.add, ← Int.cast_add, if_true]
      rw [small _ (by positivity) (by linarith)]
      simp only [← Int.cast_add]
      rw [small _ (by positivity) (by linarith)]
      congr 2; ring
  have e : ((x * x + y * y + z * z : ℤ) : ℝ) = (n : ℝ) ^ 2 := by
    have : x * x + y * y + z * z = (n : ℤ) ^ 2 := by rw [hn]; ring
    rw [this]; push_cast; ring
  have np : (0 : ℝ) < n := by exact_mod_cast n0
  have rn : Representable (n : ℝ) := by
    have : |(n : ℤ)| ≤ 2 ^ 53 := by rw [abs_of_nonneg (by positivity)]; exact_mod_cast n1.trans (by norm_num)
    simpa using representable_int (α := ℝ) (m := n) this
  have es : (F64.fin ((n : ℝ) ^ 2)).sqrt = .fin n := by
    simp only [F64.sqrt, Real.sqrt_sq np.le, rnd_exact rn]
    rw [if_neg (by nlinarith)]
  rw [DVec.normalized, q, e, es]
  simp only [F64.lt, DVec.div, doubles, F64.div, np.ne', if_false]
  rw [if_pos (by simp; positivity)]

theorem normalized_71 (o : Bool) : (doubles ⟨30, 45, 46⟩).normalized o = doubles unit71 ∧ (doubles ⟨32, 48, 51⟩).normalized o = doubles unit77 := by
  have h1 := normalized_int o (x := 30) (y := 45) (z := 46) (n := 71) (by norm_num) (by norm_num) (by norm_num) (by norm_num) (by norm_num) (by norm_num)
  have h2 := normalized_int o (x := 32) (y := 48) (z := 51) (n := 77) (by norm_num) (by norm_num) (by norm_num) (by norm_num) (by norm_num) (by norm_num)
  push_cast at h1 h2
  rw [h1, h2]
  rw [ofExact_at 7611717680062810 (-54) (by norm_num) (by norm_num) (by norm_num) (by norm_num) (by norm_num) (by norm_num),
    ofExact_at 5708788260047108 (-53) (by norm_num) (by norm_num) (by norm_num) (by norm_num) (by norm_num) (by norm_num),
    ofExact_at 5835650221381488 (-53) (by norm_num) (by norm_num) (by norm_num) (by norm_num) (by norm_num) (by norm_num),
    ofExact_at 7486503276667838 (-54) (by norm_num) (by norm_num) (by norm_num) (by norm_num) (by norm_num) (by norm_num),
    ofExact_at 5614877457500878 (-53) (by norm_num) (by norm_num) (by norm_num) (by norm_num) (by norm_num) (by norm_num),
    ofExact_at 5965807298594683 (-53) (by norm_num) (by norm_num) (by norm_num) (by norm_num) (by norm_num) (by norm_num)]
  constructor <;> rw [doubles] <;> simp only [unit71, unit77] <;> norm_num

theorem cross_7177 : cross3 unit71 unit77 = ⟨4586801303310592 * 2 ^ (-58 : ℤ), -(6115735071080736 * 2 ^ (-59 : ℤ)), 0⟩ := by
  have p1 : rnd (unit71.y * unit77.z) = 7562290941880585 * 2 ^ (-54 : ℤ) := by
    rw [rnd_eq 7562290941880585 (-54) (by norm_num) (by norm_num [unit71, unit77]) (by norm_num [unit71, unit77]) (by norm_num [unit71, unit77])]; norm_num
  have p2 : rnd (unit71.z * unit77.y) = 7275615860423673 * 2 ^ (-54 : ℤ) := by
    rw [rnd_eq 7275615860423673 (-54) (by norm_num) (by norm_num [unit71, unit77]) (by norm_num [unit71, unit77]) (by norm_num [unit71, unit77])]; norm_num
  have p3 : rnd (unit71.z * unit77.x) = 4850410573615783 * 2 ^ (-54 : ℤ) := by
    rw [rnd_eq 4850410573615783 (-54) (by norm_num) (by norm_num [unit71, unit77]) (by norm_num [unit71, unit77]) (by norm_num [unit71, unit77])]; norm_num
  have p4 : rnd (unit71.x * unit77.z) = 5041527294587056 * 2 ^ (-54 : ℤ) := by
    rw [rnd_eq 5041527294587056 (-54) (by norm_num) (by norm_num [unit71, unit77]) (by norm_num [unit71, unit77]) (by norm_num [unit71, unit77])]; norm_num
  have p5 : rnd (unit71.x * unit77.y) = 4744966865493700 * 2 ^ (-54 : ℤ) := by
    rw [rnd_eq 4744966865493700 (-54) (by norm_num) (by norm_num [unit71, unit77]) (by norm_num [unit71, unit77]) (by norm_num [unit71, unit77])]; norm_num
  have p6 : rnd (unit71.y * unit77.x) = 4744966865493700 * 2 ^ (-54 : ℤ) := by
    rw [rnd_eq 4744966865493700 (-54) (by norm_num) (by norm_num [unit71, unit77]) (by norm_num [unit71, unit77]) (by norm_num [unit71, unit77])]; norm_num
  rw [cross3, p1, p2, p3, p4, p5, p6]
  ext
  · simp only
    rw [rnd_eq 4586801303310592 (-58) (by norm_num) (by norm_num) (by norm_num) (by norm_num)]; norm_num
  · simp only
    rw [rnd_eq (-6115735071080736) (-59) (by norm_num) (by norm_num) (by norm_num) (by norm_num)]; norm_num
  · simp only [sub_self, rnd_zero]

/-- a unit vector with whole coordinates -/
def WholeUnit (a : V3) : Prop := ∃ x y z : ℤ, x ^ 2 + y ^ 2 + z ^ 2 = 1 ∧ a = ⟨x, y, z⟩

theorem whole_le {x y z : ℤ} (h : x ^ 2 + y ^ 2 + z ^ 2 = 1) : |x| ≤ 1 ∧ |y| ≤ 1 ∧ |z| ≤ 1 := by
  refine ⟨?_, ?_, ?_⟩ <;> refine abs_le_of_sq_le_sq ?_ (by norm_num) <;> nlinarith [sq_nonneg x, sq_nonneg y, sq_nonneg z]

theorem AlongAxis.whole {a : V3} (h : AlongAxis a) : WholeUnit a := by
  rcases h with rfl | rfl | rfl | rfl | rfl | rfl
  exacts [⟨1, 0, 0, by norm_num, by ext <;> simp [V3.X]⟩, ⟨0, 1, 0, by norm_num, by ext <;> simp [V3.Y]⟩, ⟨0, 0, 1, by norm_num, by ext <;> simp [V3.Z]⟩, ⟨-1, 0, 0, by norm_num, by ext <;> simp [V3.X]⟩,
    ⟨0, -1, 0, by norm_num, by ext <;> simp [V3.Y]⟩, ⟨0, 0, -1, by norm_num, by ext <;> simp [V3.Z]⟩]

theorem WholeUnit.norm {a : V3} (h : WholeUnit a) : a.norm = 1 := by
  obtain ⟨x, y, z, h, rfl⟩ := h
  refine V3.norm_of_normSq_one ?_
  have : ((x ^ 2 + y ^ 2 + z ^ 2 : ℤ) : ℝ) = 1 := by rw [h]; norm_num
  push_cast at this
  simp only [V3.normSq, V3.dot]; linarith

theorem WholeUnit.cross {a b : V3} (ha : WholeUnit a) (hb : WholeUnit b) (h : a.dot b = 0) : WholeUnit (a.cross b) := by
  obtain ⟨x, y, z, h1, rfl⟩ := ha
  obtain ⟨x', y', z', h2, rfl⟩ := hb
  have d : x * x' + y * y' + z * z' = 0 := by
    simp only [V3.dot] at h
    exact_mod_cast h
  refine ⟨y * z' - z * y', z * x' - x * z', x * y' - y * x', ?_, by ext <;> simp [V3.cross]⟩
  linear_combination (x' ^ 2 + y' ^ 2 + z' ^ 2) * h1 + h2 - (x * x' + y * y' + z * z') * d

theorem rnd_small_int {m : ℤ} (h : |m| ≤ 100) : rnd (m : ℝ) = m := rnd_exact (representable_int (h.trans (by norm_num)))

theorem whole_mul {x y : ℤ} (hx : |x| ≤ 1) (hy : |y| ≤ 1) : |x * y| ≤ 1 := by
  rw [abs_mul]; nlinarith [abs_nonneg x, abs_nonneg y]

theorem cross3_whole {a b : V3} (ha : WholeUnit a) (hb : WholeUnit b) : cross3 a b = a.cross b := by
  obtain ⟨x, y, z, h1, rfl⟩ := ha
  obtain ⟨x', y', z', h2, rfl⟩ := hb
  obtain ⟨a1, a2, a3⟩ := whole_le h1
  obtain ⟨b1, b2, b3⟩ := whole_le h2
  have k : ∀ {p q r s : ℤ}, |p| ≤ 1 → |q| ≤ 1 → |r| ≤ 1 → |s| ≤ 1 → rnd (rnd ((p : ℝ) * q) - rnd ((r : ℝ) * s)) = p * q - r * s := fun {p q r s} hp hq hr hs => by
    have m1 := whole_mul hp hq
    have m2 := whole_mul hr hs
    have m3 := (abs_sub (p * q) (r * s)).trans (add_le_add m1 m2)
    have e1 := rnd_small_int (m1.trans (by norm_num))
    have e2 := rnd_small_int (m2.trans (by norm_num))
    have e3 := rnd_small_int (m3.trans (by norm_num))
    push_cast at e1 e2 e3
    rw [e1, e2, e3]
  ext <;> simp only [cross3, V3.cross]
  exacts [k a2 b3 a3 b2, k a3 b1 a1 b3, k a1 b2 a2 b1]

theorem normalized_whole (o : Bool) {a : V3} (ha : WholeUnit a) : (doubles a).normalized o = doubles a := by
  obtain ⟨x, y, z, h, rfl⟩ := ha
  obtain ⟨a1, a2, a3⟩ := whole_le h
  rw [normalized_int o (n := 1) (a1.trans (by norm_num)) (a2.trans (by norm_num)) (a3.trans (by norm_num)) (by rw [h]; norm_num) (by norm_num) (by norm_num)]
  simp only [Nat.cast_one, div_one]
  rw [ofExact_int x (a1.trans (by norm_num)), ofExact_int y (a2.trans (by norm_num)), ofExact_int z (a3.trans (by norm_num))]
  rfl

theorem WholeUnit.within {a : V3} (ha : WholeUnit a) : Within a := by
  obtain ⟨x, y, z, h, rfl⟩ := ha
  obtain ⟨a1, a2, a3⟩ := whole_le h
  have k : ∀ {m : ℤ}, |m| ≤ 1 → Representable (m : ℝ) ∧ |(m : ℝ)| ≤ 2 ^ 499 := fun {m} hm => by
    refine ⟨representable_int (hm.trans (by norm_num)), ?_⟩
    have : |(m : ℝ)| ≤ 1 := by exact_mod_cast hm
    exact this.trans (one_le_pow₀ one_le_two)
  exact ⟨k a1, k a2, k a3⟩

theorem triple_back {a b : V3} (h1 : a.norm = 1) (h : a.dot b = 0) : (a.cross b).cross a = b := by
  have h2 : a.normSq = 1 := by rw [← V3.norm_sq, h1, one_pow]
  simp only [V3.normSq, V3.dot] at h h2
  ext <;> simp only [V3.cross]
  · linear_combination b.x * h2 - a.x * h
  · linear_combination b.y * h2 - a.y * h
  · linear_combination b.z * h2 - a.z * h

theorem basis_whole (o : Bool) {a b : V3} (ha : WholeUnit a) (hb : WholeUnit b) (h : a.dot b = 0) : DRot.basis o (doubles a) (doubles b) = entries (rowsR a b (a.cross b)) := by
  have bd : ∀ {v : V3}, WholeUnit v → Bounded 249 v := fun {v} hv => norm_le_two_bounded (by rw [hv.norm]; norm_num)
  have hc := ha.cross hb h
  rw [← rows_entries]
  simp only [DRot.basis, (cross_doubles (by norm_num) (bd ha) (bd hb)).1, cross3_whole ha hb, normalized_whole o hc, (cross_doubles (by norm_num) (bd hc) (bd ha)).1, cross3_whole hc ha, triple_back ha.norm h]

theorem dotR_whole (o : Bool) {a b c x y z : ℤ} (ha : |a| ≤ 1) (hb : |b| ≤ 1) (hc : |c| ≤ 1) (hx : |x| ≤ 1) (hy : |y| ≤ 1) (hz : |z| ≤ 1) : dotR o ⟨a, b, c⟩ ⟨x, y, z⟩ = a * x + b * y + c * z := by
  have m1 := whole_mul ha hx
  have m2 := whole_mul hb hy
  have m3 := whole_mul hc hz
  have n1 := (abs_add_le (a * x) (b * y)).trans (add_le_add m1 m2)
  have n2 := (abs_add_le (b * y) (c * z)).trans (add_le_add m2 m3)
  have n3 := (abs_add_le (a * x + b * y) (c * z)).trans (add_le_add n1 m3)
  have n4 := (abs_add_le (a * x) (b * y + c * z)).trans (add_le_add m1 n2)
  have e1 := rnd_small_int (m1.trans (by norm_num))
  have e2 := rnd_small_int (m2.trans (by norm_num))
  have e3 := rnd_small_int (m3.trans (by norm_num))
  have e4 := rnd_small_int (n1.trans (by norm_num))
  have e5 := rnd_small_int (n2.trans (by norm_num))
  have e6 := rnd_small_int (n3.trans (by norm_num))
  have e7 := rnd_small_int (n4.trans (by norm_num))
  push_cast at e1 e2 e3 e4 e5 e6 e7
  cases o
  · simp [dotR, DVec.dot3, DVec.sum3, e1, e2, e3, e4, e6]
  · simp [dotR, DVec.dot3, DVec.sum3, e1, e2, e3, e5, e7]; ring

theorem rows_whole {a b c : V3} (ha : WholeUnit a) (hb : WholeUnit b) (hc : WholeUnit c) : ∃ N : Fin 3 → Fin 3 → ℤ, (∀ i j, |N i j| ≤ 1) ∧ rowsR a b c = fun i j => (N i j : ℝ) := by
  obtain ⟨x, y, z, h1, rfl⟩ := ha
  obtain ⟨x', y', z', h2, rfl⟩ := hb
  obtain ⟨x'', y'', z'', h3, rfl⟩ := hc
  obtain ⟨a1, a2, a3⟩ := whole_le h1
  obtain ⟨b1, b2, b3⟩ := whole_le h2
  obtain ⟨c1, c2, c3⟩ := whole_le h3
  refine ⟨![![x, y, z], ![x', y', z'], ![x'', y'', z'']], ?_, ?_⟩
  · intro i j
    fin_cases i <;> fin_cases j <;> simp <;> assumption
  · funext i j
    fin_cases i <;> fin_cases j <;> rfl

/-- **C143.** Pairs of perpendicular axes: at the tolerance of the library the matrix is returned, and it is exactly the rotation that takes the first pair to the second. -/
theorem C143_axes (o : Bool) {s1 s2 d1 d2 : V3} (hs1 : AlongAxis s1) (hs2 : AlongAxis s2) (hd1 : AlongAxis d1) (hd2 : AlongAxis d2) (hs : s1.dot s2 = 0) (hd : d1.dot d2 = 0) {eps : ℝ} (e1 : 5 / 2 ^ 53 ≤ eps)
    (e2 : eps ≤ 1 / 2 ^ 41) : ∃ R : M3, IsRotation R ∧ R.mulVec s1 = d1 ∧ R.mulVec s2 = d2 ∧
      DRot.VectorBasis o (.fin eps) (doubles s1) (doubles s2) (doubles d1) (doubles d2) = .ok (entries (toMatrix R)) := by
  have u0 := DQuat.u_pos
  replace hs1 := hs1.whole
  replace hs2 := hs2.whole
  replace hd1 := hd1.whole
  replace hd2 := hd2.whole
  have cs := hs1.cross hs2 hs
  have cd := hd1.cross hd2 hd
  have al : ∀ {v : V3}, v.norm = 1 → unitAlong v = v := fun {v} h => by ext <;> simp [unitAlong, h]
  obtain ⟨eS, iS, S1, -⟩ := exact_basis hs1.norm (f := s2) (by rw [cs.norm]; norm_num)
  obtain ⟨eD, iD, D1, -⟩ := exact_basis hd1.norm (f := d2) (by rw [cd.norm]; norm_num)
  have S2 : (RotMat.basis s1 s2).mulVec s2 = ⟨0, 1, 0⟩ := by
    have := V3.norm_sq s2
    rw [hs2.norm] at this
    rw [eS, al cs.norm, triple_back hs1.norm hs]
    simp only [V3.dot, V3.normSq] at hs this
    ext <;> simp only [M3.mulVec, M3.rows, V3.cross] <;> linarith
  have D2 : (RotMat.basis d1 d2).mulVec d2 = ⟨0, 1, 0⟩ := by
    have := V3.norm_sq d2
    rw [hd2.norm] at this
    rw [eD, al cd.norm, triple_back hd1.norm hd]
    simp only [V3.dot, V3.normSq] at hd this
    ext <;> simp only [M3.mulVec, M3.rows, V3.cross] <;> linarith
  have iR := M3.isRotation_mul (M3.isRotation_transpose iD) iS
  refine ⟨_, iR, ?_, ?_, ?_⟩
  · rw [M3.mul_mulVec, S1, ← D1, M3.transpose_mulVec_mulVec iD]
  · rw [M3.mul_mulVec, S2, ← D2, M3.transpose_mulVec_mulVec iD]
  · have sh : ∀ {v : V3}, WholeUnit v → ((doubles v).norm o).lt (.fin eps) = false := fun {v} hv => not_short o hv.within (by rw [hv.norm]; norm_num) e2
    have pa : ∀ {v w : V3}, WholeUnit v → WholeUnit w → v.dot w = 0 → DRot.parallel o (.fin eps) ((doubles v).normalized o) ((doubles w).normalized o) = false := fun {v w} hv hw h => by
      rw [normalized_whole o hv, normalized_whole o hw]
      refine not_parallel o hv.norm hw.norm ?_ ?_ (k := 1) (by norm_num) (by rw [(hv.cross hw h).norm]) (e2.trans (by norm_num))
      · rw [show v - v = 0 by ext <;> simp, V3.norm_zero]; positivity
      · rw [show w - w = 0 by ext <;> simp, V3.norm_zero]; positivity
    rw [made_of_tests o (doubles_defined _) (doubles_defined _) (doubles_defined _) (doubles_defined _) (sh hs1) (sh hs2) (sh hd1) (sh hd2) (pa hs1 hs2 hs) (pa hd1 hd2 hd)]
    obtain ⟨S, bS, rS⟩ := rows_whole hs1 hs2 cs
    obtain ⟨D, bD, rD⟩ := rows_whole hd1 hd2 cd
    have le : ∀ {N : Fin 3 → Fin 3 → ℤ}, (∀ i j, |N i j| ≤ 1) → ∀ i j, |(fun i j => (N i j : ℝ)) i j| ≤ 2 ^ 500 := fun {N} h i j => by
      have : |(N i j : ℝ)| ≤ 1 := by exact_mod_cast h i j
      exact this.trans (one_le_pow₀ one_le_two)
    have mk : made o (doubles s1) (doubles s2) (doubles d1) (doubles d2) = entries (toMatrix ((RotMat.basis d1 d2).transpose.mul (RotMat.basis s1 s2))) := by
      have e : toMatrix ((RotMat.basis d1 d2).transpose.mul (RotMat.basis s1 s2)) = madeProduct o (fun i j => (D i j : ℝ)) (fun i j => (S i j : ℝ)) := by
        funext i j
        rw [madeProduct, dotR_whole o (bD 0 i) (bD 1 i) (bD 2 i) (bS 0 j) (bS 1 j) (bS 2 j), eS, eD, al cs.norm, al cd.norm, triple_back hs1.norm hs, triple_back hd1.norm hd]
        have q1 : ∀ k, rowsR d1 d2 (d1.cross d2) k i = D k i := fun k => by rw [rD]
        have q2 : ∀ k, rowsR s1 s2 (s1.cross s2) k j = S k j := fun k => by rw [rS]
        rw [← q1 0, ← q1 1, ← q1 2, ← q2 0, ← q2 1, ← q2 2]
        fin_cases i <;> fin_cases j <;> rfl
      rw [e, ← product_entries o (le bD) (le bS), ← rS, ← rD]
      funext i j
      rw [made, normalized_whole o hs1, normalized_whole o hs2, normalized_whole o hd1, normalized_whole o hd2, basis_whole o hs1 hs2 hs, basis_whole o hd1 hd2 hd]
    rw [mk]
    obtain ⟨oc, oo⟩ := rotation_columns iR
    have pc := passes_columns o (M := toMatrix ((RotMat.basis d1 d2).transpose.mul (RotMat.basis s1 s2))) oc oo le_rfl (by norm_num) (fun i j => by rw [sub_self, abs_zero]) (eps := eps) (by
      have : (5 : ℝ) / 2 ^ 53 = 5 * DQuat.u := by rw [DQuat.u]; ring
      rw [this] at e1; linarith)
    exact (ctor_fin o eps pc.2).1 pc.1

theorem dotR_X (o : Bool) {a b c : ℝ} (ha : Representable a) : dotR o ⟨a, b, c⟩ V3.X = a := by
  cases o <;> simp [dotR, DVec.dot3, DVec.sum3, V3.X, rnd_zero, rnd_exact ha]

theorem dotR_Z (o : Bool) {a b c : ℝ} (hc : Representable c) : dotR o ⟨a, b, c⟩ V3.Z = c := by
  cases o <;> simp [dotR, DVec.dot3, DVec.sum3, V3.Z, rnd_zero, rnd_exact hc]

theorem unit71_rep : Representable unit71.x ∧ Representable unit71.y ∧ Representable unit71.z :=
  ⟨⟨7611717680062810, -54, by norm_num, by norm_num, by norm_num [unit71]⟩, ⟨5708788260047108, -53, by norm_num, by norm_num, by norm_num [unit71]⟩, ⟨5835650221381488, -53, by norm_num, by norm_num, by norm_num [unit71]⟩⟩

theorem unit71_norms : unit71.norm ≤ 1 + 1 / 10 ^ 10 ∧ unit77.norm ≤ 2 := by
  constructor <;> refine Real.sqrt_le_iff.2 ⟨by norm_num, ?_⟩ <;> norm_num [V3.normSq, V3.dot, unit71, unit77]

theorem cross_7177_norm : 1 / 2 ^ 40 ≤ (cross3 unit71 unit77).norm ∧ (cross3 unit71 unit77).norm ≤ 1913 / 100000 := by
  rw [cross_7177]
  constructor
  · refine Real.le_sqrt_of_sq_le ?_
    norm_num [V3.normSq, V3.dot]
  · refine Real.sqrt_le_iff.2 ⟨by norm_num, ?_⟩
    norm_num [V3.normSq, V3.dot]

/-- the computed third row is not at a right angle to the first -/
theorem third_row (o : Bool) : ∃ n : V3, (doubles (cross3 unit71 unit77)).normalized o = doubles n ∧ Representable n.x ∧ Representable n.y ∧ Representable n.z ∧ n.norm ≤ 2 ∧ 2 / 10 ^ 15 < |dotR o n unit71| := by
  have t0 := DQuat.t_pos
  have u0 := DQuat.u_pos
  have us := DQuat.u_small
  have tu := DRot.t_u
  norm_num at tu
  obtain ⟨l, h⟩ := cross_7177_norm
  obtain ⟨na, -⟩ := unit71_norms
  have wi : Within (cross3 unit71 unit77) := by
    obtain ⟨b1, b2, b3⟩ := within_length (cross3 unit71 unit77)
    have p : (1913 / 100000 : ℝ) ≤ 2 ^ 499 := le_trans (by norm_num) (one_le_pow₀ (one_le_two : (1 : ℝ) ≤ 2) (n := 499))
    exact ⟨⟨rnd_representable _, (b1.trans h).trans p⟩, ⟨rnd_representable _, (b2.trans h).trans p⟩, ⟨rnd_representable _, (b3.trans h).trans p⟩⟩
  obtain ⟨n, hn, r1, r2, r3, -, -, -, -⟩ := normalized_any o wi (by rwa [pure_length])
  obtain ⟨n', hn', near⟩ := normalized_along o wi l
  have : n' = n := by
    rw [hn] at hn'
    simp only [doubles, DVec.mk.injEq, F64.fin.injEq] at hn'
    ext
    exacts [hn'.1.symm, hn'.2.1.symm, hn'.2.2.symm]
  subst this
  have p0 : 0 < (cross3 unit71 unit77).norm := lt_of_lt_of_le (by norm_num) l
  have nn := near_length near
  rw [norm_along p0] at nn
  refine ⟨n', hn, r1, r2, r3, by linarith, ?_⟩
  have big : 3 / 10 ^ 15 ≤ (unitAlong (cross3 unit71 unit77)).dot unit71 := by
    have e : (unitAlong (cross3 unit71 unit77)).dot unit71 = (cross3 unit71 unit77).dot unit71 / (cross3 unit71 unit77).norm := by
      simp only [unitAlong, V3.dot, V3.smul_x, V3.smul_y, V3.smul_z]; field_simp
    rw [e, le_div_iff₀ p0]
    have : 5739 / 10 ^ 20 ≤ (cross3 unit71 unit77).dot unit71 := by
      rw [cross_7177]
      norm_num [V3.dot, unit71]
    refine le_trans ?_ this
    refine (mul_le_mul_of_nonneg_left h (by norm_num)).trans (by norm_num)
  have c1 := V3.abs_dot_le (n' - unitAlong (cross3 unit71 unit77)) unit71
  rw [show (n' - unitAlong (cross3 unit71 unit77)).dot unit71 = n'.dot unit71 - (unitAlong (cross3 unit71 unit77)).dot unit71 by simp [V3.dot]; ring] at c1
  have c2 := mul_le_mul near na (V3.norm_nonneg _) (by positivity)
  have c3 := dotR_near o n' unit71
  have c4 : n'.norm * unit71.norm ≤ 101 / 100 := by
    refine (mul_le_mul (show n'.norm ≤ 1 + 1 / 10 ^ 10 by linarith) na (V3.norm_nonneg _) (by norm_num)).trans (by norm_num)
  have c5 := mul_le_mul_of_nonneg_left c4 u0.le
  have uv : DQuat.u ≤ 1112 / 10 ^ 19 := by rw [DQuat.u]; norm_num
  have d1 := (abs_le.1 c1).1
  have d2 := (abs_le.1 c3).1
  refine lt_of_lt_of_le ?_ (le_abs_self _)
  norm_num at c2
  linarith

theorem product_bounded (o : Bool) {D S : Fin 3 → Fin 3 → ℝ} (hD : ∀ i j, |D i j| ≤ 8) (hS : ∀ i j, |S i j| ≤ 1) (i j : Fin 3) : |madeProduct o D S i j| ≤ 2 ^ 500 := by
  have u0 := DQuat.u_pos
  have us := DQuat.u_small
  have tu := DRot.t_u
  norm_num at tu
  have h := DVec.dot3_near o (D 0 i) (D 1 i) (D 2 i) (S 0 j) (S 1 j) (S 2 j)
  have t : ∀ k, |D k i * S k j| ≤ 8 := fun k => by
    rw [abs_mul]; nlinarith [hD k i, hS k j, abs_nonneg (D k i), abs_nonneg (S k j)]
  have ab := mul_le_mul_of_nonneg_left (show |D 0 i * S 0 j| + |D 1 i * S 1 j| + |D 2 i * S 2 j| ≤ 24 by linarith [t 0, t 1, t 2]) u0.le
  have e : madeProduct o D S i j = DVec.dot3 o (D 0 i) (D 1 i) (D 2 i) (S 0 j) (S 1 j) (S 2 j) := rfl
  have p : (32 : ℝ) ≤ 2 ^ 500 := by
    rw [show (32 : ℝ) = 2 ^ 5 by norm_num]; exact pow_le_pow_right₀ one_le_two (by norm_num)
  refine le_trans ?_ p
  rw [e]
  rw [abs_le] at h ⊢
  constructor <;> linarith [h.1, h.2, (abs_le.1 (t 0)).1, (abs_le.1 (t 1)).1, (abs_le.1 (t 2)).1, (abs_le.1 (t 0)).2, (abs_le.1 (t 1)).2, (abs_le.1 (t 2)).2]

/-- **C143, violated.** The pair of `(30, 45, 46)` and `(32, 48, 51)`, whose directions are more than one degree apart, is refused as destination for the first two axes at the tolerance of the library
(`1 / 10 ^ 15`) and at twice it, though there is a rotation as asked for. The first and third columns of the computed matrix have a scalar product above `2 / 10 ^ 15`. -/
theorem C143_rejected_violated (o : Bool) {eps : ℝ} (he : eps ≤ 2 / 10 ^ 15) : DRot.VectorBasis o (.fin eps) (doubles V3.X) (doubles V3.Y) (doubles ⟨30, 45, 46⟩) (doubles ⟨32, 48, 51⟩) = .error .runtimeError ∧
    (⟨30, 45, 46⟩ : V3).dot ⟨32, 48, 51⟩ ≤ 9999 / 10000 * (V3.norm ⟨30, 45, 46⟩ * V3.norm ⟨32, 48, 51⟩) ∧
    ∃ R : M3, IsRotation R ∧ R.mulVec V3.X = (V3.norm ⟨30, 45, 46⟩)⁻¹ • ⟨30, 45, 46⟩ ∧ R.mulVec V3.Z = ((⟨30, 45, 46⟩ : V3).cross ⟨32, 48, 51⟩).norm⁻¹ • (⟨30, 45, 46⟩ : V3).cross ⟨32, 48, 51⟩ := by
  obtain ⟨hA, hB⟩ := normalized_71 o
  obtain ⟨n, hn, r1, r2, r3, n2, far⟩ := third_row o
  obtain ⟨na, nb⟩ := unit71_norms
  have sa : Bounded 249 unit71 := norm_le_two_bounded (by linarith)
  have sb : Bounded 249 unit77 := norm_le_two_bounded nb
  have sn : Bounded 249 n := norm_le_two_bounded n2
  obtain ⟨em, -⟩ := cross_doubles (by norm_num) sn sa
  have wX : WholeUnit V3.X := AlongAxis.whole (.inl rfl)
  have wY : WholeUnit V3.Y := AlongAxis.whole (.inr (.inl rfl))
  have xy : V3.X.dot V3.Y = 0 := by simp [V3.dot, V3.X, V3.Y]
  have xz : V3.X.cross V3.Y = V3.Z := by ext <;> simp [V3.cross, V3.X, V3.Y, V3.Z]
  have n71 : V3.norm ⟨30, 45, 46⟩ = 71 := by
    rw [V3.norm, show V3.normSq ⟨30, 45, 46⟩ = 71 ^ 2 by norm_num [V3.normSq, V3.dot], Real.sqrt_sq (by norm_num)]
  have n77 : V3.norm ⟨32, 48, 51⟩ = 77 := by
    rw [V3.norm, show V3.normSq ⟨32, 48, 51⟩ = 77 ^ 2 by norm_num [V3.normSq, V3.dot], Real.sqrt_sq (by norm_num)]
  refine ⟨?_, ?_, ?_⟩
  · have bD' : ∀ i j, |rowsR unit71 (cross3 n unit71) n i j| ≤ 8 := by
      have u0 := DQuat.u_pos
      have us := DQuat.u_small
      have tu := DRot.t_u
      norm_num at tu
      have c1 := cross3_near n unit71
      have c2 := cross_le n unit71
      have c3 := near_length c1
      have c4 : n.norm * unit71.norm ≤ 5 / 2 := (mul_le_mul n2 na (V3.norm_nonneg _) (by norm_num)).trans (by norm_num)
      have c5 := mul_le_mul_of_nonneg_left c4 u0.le
      obtain ⟨a1, a2, a3⟩ := within_length unit71
      obtain ⟨m1, m2, m3⟩ := within_length (cross3 n unit71)
      obtain ⟨q1, q2, q3⟩ := within_length n
      intro i j
      fin_cases i <;> fin_cases j <;> simp [rowsR] <;> linarith
    have bS' : ∀ i j, |rowsR V3.X V3.Y V3.Z i j| ≤ 1 := by
      intro i j
      fin_cases i <;> fin_cases j <;> simp [rowsR, V3.X, V3.Y, V3.Z]
    have p8 : (8 : ℝ) ≤ 2 ^ 500 := by
      rw [show (8 : ℝ) = 2 ^ 3 by norm_num]; exact pow_le_pow_right₀ one_le_two (by norm_num)
    have bD : ∀ i j, |rowsR unit71 (cross3 n unit71) n i j| ≤ 2 ^ 500 := fun i j => (bD' i j).trans p8
    have bS : ∀ i j, |rowsR V3.X V3.Y V3.Z i j| ≤ 2 ^ 500 := fun i j => (bS' i j).trans (one_le_pow₀ one_le_two)
    have mk : made o (doubles V3.X) (doubles V3.Y) (doubles ⟨30, 45, 46⟩) (doubles ⟨32, 48, 51⟩) = entries (madeProduct o (rowsR unit71 (cross3 n unit71) n) (rowsR V3.X V3.Y V3.Z)) := by
      rw [← product_entries o bD bS]
      have eD : DRot.basis o (doubles unit71) (doubles unit77) = entries (rowsR unit71 (cross3 n unit71) n) := by
        rw [← rows_entries]
        simp only [DRot.basis, (cross_doubles (by norm_num) sa sb).1, hn, em]
      funext i j
      rw [made, hA, hB, normalized_whole o wX, normalized_whole o wY, basis_whole o wX wY xy, xz, eD]
    have np : ¬ Passes o eps (madeProduct o (rowsR unit71 (cross3 n unit71) n) (rowsR V3.X V3.Y V3.Z)) := by
      rintro ⟨-, -, -, h⟩
      obtain ⟨a1, a2, a3⟩ := unit71_rep
      have c0 : ∀ i, Representable (rowsR unit71 (cross3 n unit71) n 0 i) := fun i => by fin_cases i; exacts [a1, a2, a3]
      have c2 : ∀ i, Representable (rowsR unit71 (cross3 n unit71) n 2 i) := fun i => by fin_cases i; exacts [r1, r2, r3]
      have e0 : ∀ i, madeProduct o (rowsR unit71 (cross3 n unit71) n) (rowsR V3.X V3.Y V3.Z) i 0 = rowsR unit71 (cross3 n unit71) n 0 i := fun i => by
        rw [madeProduct]
        have : (⟨rowsR V3.X V3.Y V3.Z 0 0, rowsR V3.X V3.Y V3.Z 1 0, rowsR V3.X V3.Y V3.Z 2 0⟩ : V3) = V3.X := by ext <;> simp [rowsR, V3.X, V3.Y, V3.Z]
        rw [this, dotR_X o (c0 i)]
      have e2 : ∀ i, madeProduct o (rowsR unit71 (cross3 n unit71) n) (rowsR V3.X V3.Y V3.Z) i 2 = rowsR unit71 (cross3 n unit71) n 2 i := fun i => by
        rw [madeProduct]
        have : (⟨rowsR V3.X V3.Y V3.Z 0 2, rowsR V3.X V3.Y V3.Z 1 2, rowsR V3.X V3.Y V3.Z 2 2⟩ : V3) = V3.Z := by ext <;> simp [rowsR, V3.X, V3.Y, V3.Z]
        rw [this, dotR_Z o (c2 i)]
      rw [e0, e0, e0, e2, e2, e2] at h
      exact absurd (h.trans he) (not_le.2 far)
    have ct := (ctor_fin o eps (product_bounded o bD' bS')).2 np
    rw [← mk] at ct
    rw [DRot.VectorBasis]
    simp only [doubles_defined, Bool.not_true, Bool.false_eq_true, if_false]
    split_ifs <;> first | rfl | exact ct
  · rw [n71, n77]; norm_num [V3.dot]
  · have pc : 0 < ((⟨30, 45, 46⟩ : V3).cross ⟨32, 48, 51⟩).norm := Real.sqrt_pos.2 (by norm_num [V3.normSq, V3.dot, V3.cross])
    obtain ⟨ac, -⟩ := along_cross (v := ⟨30, 45, 46⟩) (w := ⟨32, 48, 51⟩) (by rw [n71]; norm_num) (by rw [n77]; norm_num)
    have pc' : 0 < ((unitAlong ⟨30, 45, 46⟩).cross (unitAlong ⟨32, 48, 51⟩)).norm := by
      rw [(along_cross (by rw [n71]; norm_num) (by rw [n77]; norm_num)).2]; rw [n71, n77]; positivity
    obtain ⟨-, iD, D1, D2⟩ := exact_basis (e := unitAlong ⟨30, 45, 46⟩) (norm_along (by rw [n71]; norm_num)) pc'
    refine ⟨_, M3.isRotation_transpose iD, ?_, ?_⟩
    · change _ = unitAlong ⟨30, 45, 46⟩
      rw [show V3.X = ⟨1, 0, 0⟩ from rfl, ← D1, M3.transpose_mulVec_mulVec iD]
    · change _ = unitAlong _
      rw [← ac, show V3.Z = ⟨0, 0, 1⟩ from rfl, ← D2, M3.transpose_mulVec_mulVec iD]

/-- the transposed matrix -/
def flipped (M : Fin 3 → Fin 3 → ℝ) : Fin 3 → Fin 3 → ℝ := fun i j => M j i

theorem columns_entries (a b c : V3) : (![![(doubles a).x, (doubles b).x, (doubles c).x], ![(doubles a).y, (doubles b).y, (doubles c).y], ![(doubles a).z, (doubles b).z, (doubles c).z]] : Fin 3 → Fin 3 → F64 ℝ) =
    entries (flipped (rowsR a b c)) := by
  funext i j; fin_cases i <;> fin_cases j <;> rfl

/-- the tests on three columns are those of the constructor -/
theorem checked_eq (o : Bool) (eps : F64 ℝ) (a b c : V3) :
    (DRot.checked o eps (doubles a) (doubles b) (doubles c) = .ok ⟨⟩ ∧ DRot.ctor o eps (entries (flipped (rowsR a b c))) = .ok (entries (flipped (rowsR a b c)))) ∨
    (DRot.checked o eps (doubles a) (doubles b) (doubles c) = .error .runtimeError ∧ DRot.ctor o eps (entries (flipped (rowsR a b c))) = .error .runtimeError) := by
  have c0 : DRot.col (entries (flipped (rowsR a b c))) 0 = doubles a := rfl
  have c1 : DRot.col (entries (flipped (rowsR a b c))) 1 = doubles b := rfl
  have c2 : DRot.col (entries (flipped (rowsR a b c))) 2 = doubles c := rfl
  simp only [DRot.checked, DRot.ctor, c0, c1, c2, doubles_defined, Bool.not_true, Bool.false_eq_true, if_false]
  split_ifs <;> simp

theorem columns_ctor (o : Bool) (eps : F64 ℝ) (a b c : V3) : DRot.Columns o eps (doubles a) (doubles b) (doubles c) = DRot.ctor o eps (entries (flipped (rowsR a b c))) := by
  rw [DRot.Columns, columns_entries]
  rcases checked_eq o eps a b c with ⟨h, -⟩ | ⟨h, h'⟩
  · rw [h]; rfl
  · rw [h, h']; rfl

theorem bounded_rows {a b c : V3} (ha : Bounded 500 a) (hb : Bounded 500 b) (hc : Bounded 500 c) (i j : Fin 3) : |rowsR a b c i j| ≤ 2 ^ 500 := by
  obtain ⟨a1, a2, a3⟩ := ha
  obtain ⟨b1, b2, b3⟩ := hb
  obtain ⟨c1, c2, c3⟩ := hc
  fin_cases i <;> fin_cases j <;> assumption

/-- what the computed tests say of one vector and of two -/
theorem test_length (o : Bool) {v : V3} {eps : ℝ} (e0 : 0 ≤ eps) (e1 : eps ≤ 1 / 10) (h : rnd (normR o v - 1) ≤ eps) : v.norm ≤ 1 + eps + 4 / 2 ^ 53 := by
  have u0 := DQuat.u_pos
  have us := DQuat.u_small
  have t0 := DQuat.t_pos
  have tu := DRot.t_u
  norm_num at tu
  have n := normR_near o v
  have small : (2 : ℝ) ^ (-535 : ℤ) ≤ 1 / 1000 * DQuat.u := by
    rw [DQuat.u]
    refine le_trans (zpow_le_zpow_right₀ one_le_two (show (-535 : ℤ) ≤ -100 by norm_num)) (by norm_num)
  have e : (4 : ℝ) / 2 ^ 53 = 4 * DQuat.u := by rw [DQuat.u]; ring
  rw [e]
  have nn := V3.norm_nonneg v
  generalize (2 : ℝ) ^ (-535 : ℤ) = s at *
  have r := DRot.near1 (normR o v - 1)
  generalize normR o v = N at *
  generalize v.norm = L at *
  have n1 := (abs_le.1 n).1
  have up : N - 1 ≤ eps + 12 / 100 * DQuat.u := by
    by_contra hh
    push Not at hh
    rw [abs_of_nonneg (by linarith [mul_nonneg u0.le e0] : 0 ≤ N - 1)] at r
    have r1 := (abs_le.1 r).1
    have r2 : (1 - DQuat.u) * (N - 1) ≤ eps + DQuat.t := by linarith
    have r3 : (1 - DQuat.u) * (eps + 12 / 100 * DQuat.u) < (1 - DQuat.u) * (N - 1) := mul_lt_mul_of_pos_left hh (by linarith)
    have ue : DQuat.u * eps ≤ DQuat.u * (1 / 10) := mul_le_mul_of_nonneg_left e1 u0.le
    have uu : DQuat.u * DQuat.u ≤ 1 / 1000 * DQuat.u := mul_le_mul_of_nonneg_right (by linarith) u0.le
    nlinarith
  have L2 : L ≤ 12 / 10 := by nlinarith
  have uL : DQuat.u * L ≤ DQuat.u * (12 / 10) := mul_le_mul_of_nonneg_left L2 u0.le
  linarith

theorem test_angle (o : Bool) {v w : V3} {eps : ℝ} (h : |dotR o v w| ≤ eps) (hv : v.norm ≤ 11 / 10 + 1 / 1000) (hw : w.norm ≤ 11 / 10 + 1 / 1000) : |v.dot w| ≤ eps + 4 / 2 ^ 53 := by
  have u0 := DQuat.u_pos
  have tu := DRot.t_u
  norm_num at tu
  have n := dotR_near o v w
  have vw : v.norm * w.norm ≤ 123 / 100 := (mul_le_mul hv hw (V3.norm_nonneg _) (by norm_num)).trans (by norm_num)
  have := mul_le_mul_of_nonneg_left vw u0.le
  have e : (4 : ℝ) / 2 ^ 53 = 4 * DQuat.u := by rw [DQuat.u]; ring
  rw [e]
  have y := abs_sub_abs_le_abs_sub (v.dot w) (dotR o v w)
  rw [abs_sub_comm] at y
  linarith

/-- **C143, rows and columns.** Three vectors near three that are orthonormal are taken as rows and as columns, and the matrix has them as its rows or columns to the last bit. -/
theorem C143_rows (o : Bool) {a b c e f g : V3} (h : Spec.Orthonormal e f g) {d eps : ℝ} (ha : (a - e).norm ≤ d) (hb : (b - f).norm ≤ d) (hc : (c - g).norm ≤ d) (hd : d ≤ 1 / 1000) (he : 35 / 10 * d + 5 / 2 ^ 53 ≤ eps) :
    DRot.Rows o (.fin eps) (doubles a) (doubles b) (doubles c) = .ok ![![.fin a.x, .fin a.y, .fin a.z], ![.fin b.x, .fin b.y, .fin b.z], ![.fin c.x, .fin c.y, .fin c.z]] ∧
    DRot.Columns o (.fin eps) (doubles a) (doubles b) (doubles c) = .ok ![![.fin a.x, .fin b.x, .fin c.x], ![.fin a.y, .fin b.y, .fin c.y], ![.fin a.z, .fin b.z, .fin c.z]] := by
  obtain ⟨h1, h2, h3, h4, h5, h6⟩ := h
  have d0 : 0 ≤ d := (V3.norm_nonneg _).trans ha
  have e5 : (5 : ℝ) / 2 ^ 53 = 5 * DQuat.u := by rw [DQuat.u]; ring
  rw [e5] at he
  have near : ∀ i j, |rowsR a b c i j - rowsR e f g i j| ≤ d := fun i j => by
    have := rows_near ha hb hc i j
    fin_cases i <;> exact this
  have s1 : e.normSq = 1 := by rw [← V3.norm_sq, h1, one_pow]
  have s2 : f.normSq = 1 := by rw [← V3.norm_sq, h2, one_pow]
  have s3 : g.normSq = 1 := by rw [← V3.norm_sq, h3, one_pow]
  simp only [V3.normSq, V3.dot] at s1 s2 s3 h4 h5 h6
  -- the rows are orthonormal, so the columns are
  have mm : (!![e.x, e.y, e.z; f.x, f.y, f.z; g.x, g.y, g.z] : Matrix (Fin 3) (Fin 3) ℝ) * !![e.x, f.x, g.x; e.y, f.y, g.y; e.z, f.z, g.z] = 1 := by
    ext i j
    fin_cases i <;> fin_cases j <;> simp [Matrix.mul_apply, Fin.sum_univ_three] <;> linarith
  have mm' := mul_eq_one_comm.1 mm
  have ent : ∀ i j, ((!![e.x, f.x, g.x; e.y, f.y, g.y; e.z, f.z, g.z] : Matrix (Fin 3) (Fin 3) ℝ) * !![e.x, e.y, e.z; f.x, f.y, f.z; g.x, g.y, g.z]) i j = (1 : Matrix (Fin 3) (Fin 3) ℝ) i j := fun i j => by rw [mm']
  have q := fun i j => ent i j
  simp only [Matrix.mul_apply, Fin.sum_univ_three] at q
  have oc : ∀ j, rowsR e f g 0 j ^ 2 + rowsR e f g 1 j ^ 2 + rowsR e f g 2 j ^ 2 = 1 := fun j => by
    have := q j j
    fin_cases j <;> simp [rowsR] at this ⊢ <;> linarith
  have oo : ∀ j k, j ≠ k → rowsR e f g 0 j * rowsR e f g 0 k + rowsR e f g 1 j * rowsR e f g 1 k + rowsR e f g 2 j * rowsR e f g 2 k = 0 := fun j k jk => by
    have := q j k
    rw [Matrix.one_apply_ne jk] at this
    fin_cases j <;> fin_cases k <;> simp [rowsR] at this jk ⊢ <;> linarith
  have oc' : ∀ j, flipped (rowsR e f g) 0 j ^ 2 + flipped (rowsR e f g) 1 j ^ 2 + flipped (rowsR e f g) 2 j ^ 2 = 1 := fun j => by
    fin_cases j <;> simp [flipped, rowsR] <;> linarith
  have oo' : ∀ j k, j ≠ k → flipped (rowsR e f g) 0 j * flipped (rowsR e f g) 0 k + flipped (rowsR e f g) 1 j * flipped (rowsR e f g) 1 k + flipped (rowsR e f g) 2 j * flipped (rowsR e f g) 2 k = 0 := fun j k jk => by
    fin_cases j <;> fin_cases k <;> simp [flipped, rowsR] at jk ⊢ <;> linarith
  have p1 := passes_columns o oc oo d0 hd near he
  have p2 := passes_columns o oc' oo' d0 hd (M := flipped (rowsR a b c)) (fun i j => near j i) he
  have r1 := (ctor_fin o eps p1.2).1 p1.1
  have r2 := (ctor_fin o eps p2.2).1 p2.1
  constructor
  · rw [DRot.Rows, rows_entries]
    rcases checked_eq o (.fin eps) a b c with ⟨h, -⟩ | ⟨-, h'⟩
    · rw [h]
      refine r1.trans ?_
      rw [← rows_entries]; rfl
    · rw [r2] at h'; cases h'
  · rw [columns_ctor, r2, ← columns_entries]; rfl

/-- **C143, rows and columns refused.** Three vectors of which one is longer than `1` by more than the tolerance and four units of rounding, or of which two have a scalar product farther from zero than that, are refused with a
"runtime error", as rows and as columns. -/
theorem C143_rows_refused (o : Bool) {a b c : V3} (ha : Bounded 500 a) (hb : Bounded 500 b) (hc : Bounded 500 c) {eps : ℝ} (e0 : 0 ≤ eps) (e1 : eps ≤ 1 / 10)
    (h : 1 + eps + 4 / 2 ^ 53 < a.norm ∨ 1 + eps + 4 / 2 ^ 53 < b.norm ∨ 1 + eps + 4 / 2 ^ 53 < c.norm ∨ eps + 4 / 2 ^ 53 < |a.dot b| ∨ eps + 4 / 2 ^ 53 < |b.dot c| ∨ eps + 4 / 2 ^ 53 < |c.dot a|) :
    DRot.Rows o (.fin eps) (doubles a) (doubles b) (doubles c) = .error .runtimeError ∧ DRot.Columns o (.fin eps) (doubles a) (doubles b) (doubles c) = .error .runtimeError := by
  have np : ¬ Passes o eps (flipped (rowsR a b c)) := by
    rintro ⟨n, d1, d2, d3⟩
    have na := test_length o (v := a) e0 e1 (n 0)
    have nb := test_length o (v := b) e0 e1 (n 1)
    have nc := test_length o (v := c) e0 e1 (n 2)
    have le : ∀ {v : V3}, v.norm ≤ 1 + eps + 4 / 2 ^ 53 → v.norm ≤ 11 / 10 + 1 / 1000 := fun {v} hv => by norm_num at hv ⊢; linarith
    have x1 := test_angle o (v := a) (w := b) d1 (le na) (le nb)
    have x2 := test_angle o (v := b) (w := c) d2 (le nb) (le nc)
    have x3 := test_angle o (v := c) (w := a) d3 (le nc) (le na)
    rcases h with h | h | h | h | h | h <;> linarith
  have r := (ctor_fin o eps (M := flipped (rowsR a b c)) (fun i j => bounded_rows ha hb hc j i)).2 np
  refine ⟨?_, by rw [columns_ctor, r]⟩
  rcases checked_eq o (.fin eps) a b c with ⟨-, h'⟩ | ⟨h, -⟩
  · rw [r] at h'; cases h'
  · rw [DRot.Rows, h]; rfl

/-- C143: short rows and columns, and a reflection, are taken for rotations: the zero matrix and the mirror image in the plane of the first two axes are returned. -/
theorem C143_rows_violated (o : Bool) {eps : ℝ} (he : 5 / 2 ^ 53 ≤ eps) : DRot.Rows o (.fin eps) (doubles 0) (doubles 0) (doubles 0) = .ok (fun _ _ => .fin 0) ∧
    DRot.Columns o (.fin eps) (doubles 0) (doubles 0) (doubles 0) = .ok (fun _ _ => .fin 0) ∧
    DRot.Rows o (.fin eps) (doubles V3.X) (doubles V3.Y) (doubles (-V3.Z)) = .ok (entries (toMatrix ⟨1, 0, 0, 0, 1, 0, 0, 0, -1⟩)) ∧ ¬ IsRotation ⟨1, 0, 0, 0, 1, 0, 0, 0, -1⟩ ∧ ¬ IsRotation ⟨0, 0, 0, 0, 0, 0, 0, 0, 0⟩ := by
  have e0 : 0 ≤ eps := le_trans (by norm_num) he
  have z0 : (entries fun _ _ => 0) = fun _ _ => (F64.fin (0 : ℝ)) := rfl
  have rz : flipped (rowsR 0 0 0) = fun _ _ => 0 := by funext i j; fin_cases i <;> fin_cases j <;> rfl
  have rz' : rowsR 0 0 0 = fun _ _ => 0 := by funext i j; fin_cases i <;> fin_cases j <;> rfl
  have d0 : DVec.dot3 o 0 0 0 0 0 0 = 0 := by cases o <;> simp [DVec.dot3, DVec.sum3, rnd_zero]
  have pz : Passes o eps (fun _ _ => 0) := by
    have m1 : rnd (-1 : ℝ) = -1 := by rw [rnd_neg, rnd_exact rep_one]
    refine ⟨fun j => ?_, ?_, ?_, ?_⟩
    · simp only [DVec.nrm3, d0, Real.sqrt_zero, rnd_zero, zero_sub, m1]; linarith
    all_goals simp only [d0, abs_zero]; exact e0
  have cz := (ctor_fin o eps (M := fun _ _ => 0) (fun i j => by simp)).1 pz
  have ck : DRot.checked o (.fin eps) (doubles 0) (doubles 0) (doubles 0) = .ok ⟨⟩ := by
    rcases checked_eq o (.fin eps) 0 0 0 with ⟨h, -⟩ | ⟨-, h'⟩
    · exact h
    · rw [rz, cz] at h'; cases h'
  refine ⟨?_, ?_, ?_, ?_, ?_⟩
  · rw [DRot.Rows, rows_entries, ck, rz', ← z0]; exact cz
  · rw [columns_ctor, rz, cz, z0]
  · have on : Spec.Orthonormal V3.X V3.Y (-V3.Z) := by
      refine ⟨?_, ?_, ?_, ?_, ?_, ?_⟩ <;> simp [V3.norm, V3.normSq, V3.dot, V3.X, V3.Y, V3.Z]
    have zz : ∀ v : V3, (v - v).norm ≤ 0 := fun v => by rw [show v - v = 0 by ext <;> simp, V3.norm_zero]
    have := (C143_rows o on (zz _) (zz _) (zz _) (by norm_num) (eps := eps) (by linarith)).1
    rw [this]
    congr 1
    funext i j
    fin_cases i <;> fin_cases j <;> simp [entries, toMatrix, V3.X, V3.Y, V3.Z]
  · intro h
    have := (M3.isRotation_iff.1 h).2
    norm_num [M3.det] at this
  · intro h
    have := (M3.isRotation_iff.1 h).2
    norm_num [M3.det] at this

/-- **C143, undefined vectors.** A vector with a coordinate that is not a number is refused with "undefined" by all three functions, whatever the others are. -/
theorem C143_undefined (o : Bool) (eps : F64 ℝ) {a b c d : DVec} :
    ((a.isDefined = false ∨ b.isDefined = false ∨ c.isDefined = false) → DRot.Rows o eps a b c = .error .undefined ∧ DRot.Columns o eps a b c = .error .undefined) ∧
    ((a.isDefined = false ∨ b.isDefined = false ∨ c.isDefined = false ∨ d.isDefined = false) → DRot.VectorBasis o eps a b c d = .error .undefined) := by
  constructor
  · intro h
    have : DRot.checked o eps a b c = .error .undefined := by
      rw [DRot.checked]
      rcases h with h | h | h <;> rw [h] <;> split_ifs <;> simp_all
    rw [DRot.Rows, DRot.Columns, this]
    exact ⟨rfl, rfl⟩
  · intro h
    rw [DRot.VectorBasis]
    generalize a.isDefined = p at h ⊢
    generalize b.isDefined = q at h ⊢
    generalize c.isDefined = r at h ⊢
    generalize d.isDefined = s at h ⊢
    cases p <;> cases q <;> cases r <;> cases s <;> first | rfl | (exfalso; revert h; decide)

/-- Vectors as in `C143_basis_partial`: two pairs at an angle whose sine is 1, and a tolerance. -/
example (o : Bool) : ∃ M, DRot.VectorBasis o (.fin (1 / 2 ^ 42)) (doubles ⟨2, 0, 0⟩) (doubles ⟨0, 3, 0⟩) (doubles ⟨3, 4, 0⟩) (doubles ⟨-4, 3, 0⟩) = .ok (entries M) := by
  have w : ∀ m : ℤ, |m| ≤ 10 → Representable (m : ℝ) ∧ |(m : ℝ)| ≤ 2 ^ 499 := fun m hm => by
    refine ⟨representable_int (hm.trans (by norm_num)), ?_⟩
    have : |(m : ℝ)| ≤ 10 := by exact_mod_cast hm
    refine this.trans (le_trans (show (10 : ℝ) ≤ 2 ^ 4 by norm_num) (pow_le_pow_right₀ one_le_two (by norm_num)))
  have w0 := w 0 (by norm_num)
  have w2 := w 2 (by norm_num)
  have w3 := w 3 (by norm_num)
  have w4 := w 4 (by norm_num)
  have w5 := w (-4) (by norm_num)
  push_cast at w0 w2 w3 w4 w5
  have n1 : V3.norm ⟨2, 0, 0⟩ = 2 := by rw [V3.norm, show V3.normSq ⟨2, 0, 0⟩ = 2 ^ 2 by norm_num [V3.normSq, V3.dot], Real.sqrt_sq (by norm_num)]
  have n2 : V3.norm ⟨0, 3, 0⟩ = 3 := by rw [V3.norm, show V3.normSq ⟨0, 3, 0⟩ = 3 ^ 2 by norm_num [V3.normSq, V3.dot], Real.sqrt_sq (by norm_num)]
  have n3 : V3.norm ⟨3, 4, 0⟩ = 5 := by rw [V3.norm, show V3.normSq ⟨3, 4, 0⟩ = 5 ^ 2 by norm_num [V3.normSq, V3.dot], Real.sqrt_sq (by norm_num)]
  have n4 : V3.norm ⟨-4, 3, 0⟩ = 5 := by rw [V3.norm, show V3.normSq ⟨-4, 3, 0⟩ = 5 ^ 2 by norm_num [V3.normSq, V3.dot], Real.sqrt_sq (by norm_num)]
  have c1 : ((⟨2, 0, 0⟩ : V3).cross ⟨0, 3, 0⟩).norm = 6 := by
    rw [V3.norm, show ((⟨2, 0, 0⟩ : V3).cross ⟨0, 3, 0⟩).normSq = 6 ^ 2 by norm_num [V3.normSq, V3.dot, V3.cross], Real.sqrt_sq (by norm_num)]
  have c2 : ((⟨3, 4, 0⟩ : V3).cross ⟨-4, 3, 0⟩).norm = 25 := by
    rw [V3.norm, show ((⟨3, 4, 0⟩ : V3).cross ⟨-4, 3, 0⟩).normSq = 25 ^ 2 by norm_num [V3.normSq, V3.dot, V3.cross], Real.sqrt_sq (by norm_num)]
  obtain ⟨-, -, -, -, M, -, h, -⟩ := C143_basis_partial o (s1 := ⟨2, 0, 0⟩) (s2 := ⟨0, 3, 0⟩) (d1 := ⟨3, 4, 0⟩) (d2 := ⟨-4, 3, 0⟩) ⟨w2, w0, w0⟩ ⟨w0, w3, w0⟩ ⟨w3, w4, w0⟩ ⟨w5, w3, w0⟩
    (by rw [n1]; norm_num) (by rw [n2]; norm_num) (by rw [n3]; norm_num) (by rw [n4]; norm_num) (k := 1) (by norm_num) (by rw [n1, n2, c1]; norm_num) (by rw [n3, n4, c2]; norm_num)
  exact ⟨M, h _ (by norm_num) (by norm_num) (by norm_num)⟩

/-- Two pairs of perpendicular axes, as in `C143_axes`. -/
example (o : Bool) : ∃ m, DRot.VectorBasis o (.fin (1 / 10 ^ 15)) (doubles V3.X) (doubles V3.Y) (doubles V3.Y) (doubles (-V3.Z)) = .ok m := by
  obtain ⟨R, -, -, -, h⟩ := C143_axes o (s1 := V3.X) (s2 := V3.Y) (d1 := V3.Y) (d2 := -V3.Z) (.inl rfl) (.inr (.inl rfl)) (.inr (.inl rfl)) (.inr (.inr (.inr (.inr (.inr rfl)))))
    (by simp [V3.dot, V3.X, V3.Y]) (by simp [V3.dot, V3.Y, V3.Z]) (eps := 1 / 10 ^ 15) (by norm_num) (by norm_num)
  exact ⟨_, h⟩

/-- Rows refused as in `C143_rows_refused`: the first is too long. -/
example (o : Bool) : DRot.Rows o (.fin (1 / 10 ^ 15)) (doubles ⟨2, 0, 0⟩) (doubles ⟨0, 1, 0⟩) (doubles ⟨0, 0, 1⟩) = .error .runtimeError := by
  have n1 : V3.norm ⟨2, 0, 0⟩ = 2 := by rw [V3.norm, show V3.normSq ⟨2, 0, 0⟩ = 2 ^ 2 by norm_num [V3.normSq, V3.dot], Real.sqrt_sq (by norm_num)]
  have p1 : (1 : ℝ) ≤ 2 ^ 500 := one_le_pow₀ one_le_two
  exact (C143_rows_refused o (a := ⟨2, 0, 0⟩) (b := ⟨0, 1, 0⟩) (c := ⟨0, 0, 1⟩) ⟨by simpa using two_500, by simp, by simp⟩ ⟨by simp, by simpa using p1, by simp⟩
    ⟨by simp, by simp, by simpa using p1⟩ (by norm_num) (by norm_num) (.inl (by rw [n1]; norm_num))).1

end Verif.Props
