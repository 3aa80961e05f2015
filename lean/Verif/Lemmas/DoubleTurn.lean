import Verif.Model.DoubleTurn
import Verif.Model.DoubleEuler
import Verif.Props.DoubleMake
import Verif.Props.DoubleDifference

/-!
# Lemmas on rotation matrices made from angles in double precision
-/

namespace Verif.Props

open Verif Verif.Spec Verif.Double

/-- the coefficients of `M` are within `d` of those of the rotation -/
def NearTurn (d : ℝ) (M : Fin 3 → Fin 3 → ℝ) (q : Quat) : Prop := ∀ i j, |M i j - DRot.exact q i j| ≤ d

theorem three_small {a b c x y z d : ℝ} (h : a ^ 2 + b ^ 2 + c ^ 2 = 1) (d0 : 0 ≤ d) (hx : |x| ≤ d) (hy : |y| ≤ d) (hz : |z| ≤ d) : |a * x + b * y + c * z| ≤ 1733 / 1000 * d := by
  refine abs_le_of_sq_le_sq ?_ (by positivity)
  have := row_cauchy a b c x y z
  have sx := sq_le_sq' (abs_le.1 hx).1 (abs_le.1 hx).2
  have sy := sq_le_sq' (abs_le.1 hy).1 (abs_le.1 hy).2
  have sz := sq_le_sq' (abs_le.1 hz).1 (abs_le.1 hz).2
  rw [h, one_mul] at this
  nlinarith [sq_nonneg d]

theorem exact_unit {q : Quat} (hq : ‖hamilton q‖ = 1) : q.x * q.x + q.y * q.y + q.z * q.z + q.s * q.s = 1 := by rw [norm_sq, hq, one_pow]

/-- a matrix near a rotation passes the tests of the constructor -/
theorem passes_near (o : Bool) {M : Fin 3 → Fin 3 → ℝ} {q : Quat} (hq : ‖hamilton q‖ = 1) {d : ℝ} (d0 : 0 ≤ d) (hd : d ≤ 1 / 1000) (h : NearTurn d M q) {eps : ℝ} (he : 35 / 10 * d + 5 * DQuat.u ≤ eps) :
    Passes o eps M ∧ ∀ i j, |M i j| ≤ 2 ^ 500 := by
  have u0 := DQuat.u_pos
  have us := DQuat.u_small
  have t0 := DQuat.t_pos
  have tu := DRot.t_u
  norm_num at tu
  obtain ⟨oc, or, oo⟩ := DRot.exact_orthogonal q
  rw [exact_unit hq] at oc or
  norm_num at oc or
  have le1 : ∀ i j, |DRot.exact q i j| ≤ 1 := fun i j => by
    refine abs_le_one_iff_mul_self_le_one.2 ?_
    have := or i
    fin_cases j <;> simp <;> nlinarith [sq_nonneg (DRot.exact q i 0), sq_nonneg (DRot.exact q i 1), sq_nonneg (DRot.exact q i 2)]
  have le2 : ∀ i j, |M i j| ≤ 1001 / 1000 := fun i j => by
    have := abs_sub_abs_le_abs_sub (M i j) (DRot.exact q i j)
    linarith [le1 i j, h i j]
  have sq1 : ∀ j, |(M 0 j * M 0 j + M 1 j * M 1 j + M 2 j * M 2 j) - 1| ≤ 3467 / 1000 * d + 3 * d ^ 2 := fun j => by
    have k := three_small (oc j) d0 (h 0 j) (h 1 j) (h 2 j)
    have s : ∀ i, (M i j - DRot.exact q i j) ^ 2 ≤ d ^ 2 := fun i => sq_le_sq' (abs_le.1 (h i j)).1 (abs_le.1 (h i j)).2
    have e : (M 0 j * M 0 j + M 1 j * M 1 j + M 2 j * M 2 j) - 1 = 2 * (DRot.exact q 0 j * (M 0 j - DRot.exact q 0 j) + DRot.exact q 1 j * (M 1 j - DRot.exact q 1 j) + DRot.exact q 2 j * (M 2 j - DRot.exact q 2 j)) +
        ((M 0 j - DRot.exact q 0 j) ^ 2 + (M 1 j - DRot.exact q 1 j) ^ 2 + (M 2 j - DRot.exact q 2 j) ^ 2) := by linear_combination oc j
    have k1 := (abs_le.1 k).1
    have k2 := (abs_le.1 k).2
    have p := fun i => sq_nonneg (M i j - DRot.exact q i j)
    rw [e, abs_le]
    constructor <;> linarith [s 0, s 1, s 2, p 0, p 1, p 2]
  have dd : d ^ 2 ≤ 1 / 1000 * d := by rw [sq]; exact mul_le_mul_of_nonneg_right hd d0
  have nr : ∀ j, rnd (DVec.nrm3 o (M 0 j) (M 1 j) (M 2 j) - 1) ≤ eps := fun j => by
    have sj := sq1 j
    have S := DVec.dot3_near o (M 0 j) (M 1 j) (M 2 j) (M 0 j) (M 1 j) (M 2 j)
    simp only [abs_mul_self] at S
    generalize hS : M 0 j * M 0 j + M 1 j * M 1 j + M 2 j * M 2 j = X at *
    obtain ⟨s1, s2⟩ := abs_le.1 sj
    have uX : DQuat.u * X ≤ 1 / 1000 * X := mul_le_mul_of_nonneg_right (by linarith) (by linarith)
    have big : (2 : ℝ) ^ (-100 : ℤ) ≤ DVec.dot3 o (M 0 j) (M 1 j) (M 2 j) (M 0 j) (M 1 j) (M 2 j) := by
      refine le_trans (by norm_num : (2 : ℝ) ^ (-100 : ℤ) ≤ 1 / 2) ?_
      linarith [(abs_le.1 S).1]
    obtain ⟨-, nn⟩ := DVec.nrm3_near o big
    rw [hS] at nn
    have rX : Real.sqrt X ≤ 1 + 1735 / 1000 * d := Real.sqrt_le_iff.2 ⟨by positivity, by nlinarith⟩
    have n2 := (abs_le.1 nn).2
    generalize Real.sqrt X = R at *
    have uR : DQuat.u * R ≤ DQuat.u * (1 + 1735 / 1000 * d) := mul_le_mul_of_nonneg_left rX u0.le
    have ud : DQuat.u * d ≤ 1 / 1000 * DQuat.u := by rw [mul_comm]; exact mul_le_mul_of_nonneg_right hd u0.le
    have up : DVec.nrm3 o (M 0 j) (M 1 j) (M 2 j) - 1 ≤ 1735 / 1000 * d + 33 / 10 * DQuat.u := by linarith
    generalize DVec.nrm3 o (M 0 j) (M 1 j) (M 2 j) = N at *
    have mono := rnd_mono up
    have r := (abs_le.1 (DRot.near1 (1735 / 1000 * d + 33 / 10 * DQuat.u))).2
    rw [abs_of_nonneg (by positivity : 0 ≤ 1735 / 1000 * d + 33 / 10 * DQuat.u)] at r
    have uu : DQuat.u * DQuat.u ≤ 1 / 1000 * DQuat.u := mul_le_mul_of_nonneg_right (by linarith) u0.le
    nlinarith
  have dt : ∀ j k, j ≠ k → |DVec.dot3 o (M 0 j) (M 1 j) (M 2 j) (M 0 k) (M 1 k) (M 2 k)| ≤ eps := fun j k jk => by
    have S := DVec.dot3_near o (M 0 j) (M 1 j) (M 2 j) (M 0 k) (M 1 k) (M 2 k)
    have a1 := three_small (oc j) d0 (h 0 k) (h 1 k) (h 2 k)
    have a2 := three_small (oc k) d0 (h 0 j) (h 1 j) (h 2 j)
    have s : ∀ i, |(M i j - DRot.exact q i j) * (M i k - DRot.exact q i k)| ≤ d ^ 2 := fun i => by
      rw [abs_mul, sq]; exact mul_le_mul (h i j) (h i k) (abs_nonneg _) d0
    have e : M 0 j * M 0 k + M 1 j * M 1 k + M 2 j * M 2 k = (DRot.exact q 0 j * (M 0 k - DRot.exact q 0 k) + DRot.exact q 1 j * (M 1 k - DRot.exact q 1 k) + DRot.exact q 2 j * (M 2 k - DRot.exact q 2 k)) +
        (DRot.exact q 0 k * (M 0 j - DRot.exact q 0 j) + DRot.exact q 1 k * (M 1 j - DRot.exact q 1 j) + DRot.exact q 2 k * (M 2 j - DRot.exact q 2 j)) + ((M 0 j - DRot.exact q 0 j) * (M 0 k - DRot.exact q 0 k) +
        (M 1 j - DRot.exact q 1 j) * (M 1 k - DRot.exact q 1 k) + (M 2 j - DRot.exact q 2 j) * (M 2 k - DRot.exact q 2 k)) := by linear_combination oo j k jk
    have ex : |M 0 j * M 0 k + M 1 j * M 1 k + M 2 j * M 2 k| ≤ 347 / 100 * d := by
      rw [e, abs_le]
      constructor <;> linarith [abs_le.1 a1, abs_le.1 a2, abs_le.1 (s 0), abs_le.1 (s 1), abs_le.1 (s 2), (abs_le.1 a1).1, (abs_le.1 a2).1, (abs_le.1 (s 0)).1, (abs_le.1 (s 1)).1, (abs_le.1 (s 2)).1,
        (abs_le.1 a1).2, (abs_le.1 a2).2, (abs_le.1 (s 0)).2, (abs_le.1 (s 1)).2, (abs_le.1 (s 2)).2]
    have ab : |M 0 j * M 0 k| + |M 1 j * M 1 k| + |M 2 j * M 2 k| ≤ 11 / 10 := by
      have y := fun i => DRot.abs_mul_le (M i j) (M i k)
      have := abs_le.1 (sq1 j)
      have := abs_le.1 (sq1 k)
      linarith [y 0, y 1, y 2, (abs_le.1 (sq1 j)).2, (abs_le.1 (sq1 k)).2]
    have ua : DQuat.u * (|M 0 j * M 0 k| + |M 1 j * M 1 k| + |M 2 j * M 2 k|) ≤ DQuat.u * (11 / 10) := mul_le_mul_of_nonneg_left ab u0.le
    rw [abs_le] at S ex ⊢
    constructor <;> linarith [S.1, S.2, ex.1, ex.2]
  refine ⟨⟨nr, dt 0 1 (by decide), dt 1 2 (by decide), dt 2 0 (by decide)⟩, fun i j => (le2 i j).trans ?_⟩
  exact le_trans (by norm_num) two_500

/-- a matrix near a rotation turns vectors to nearby vectors -/
theorem turn_of_near {M : Fin 3 → Fin 3 → ℝ} {q : Quat} {d : ℝ} (d0 : 0 ≤ d) (h : NearTurn d M q) (v : V3) : ‖pure (turn M v) - star (hamilton q) * (pure v * hamilton q)‖ ≤ 3 * d * ‖pure v‖ := by
  rw [← turn_exact]
  refine turn_near (by positivity) ?_ v
  have s : ∀ i j, (M i j - DRot.exact q i j) ^ 2 ≤ d ^ 2 := fun i j => sq_le_sq' (abs_le.1 (h i j)).1 (abs_le.1 (h i j)).2
  nlinarith [s 0 0, s 0 1, s 0 2, s 1 0, s 1 1, s 1 2, s 2 0, s 2 1, s 2 2]

/-- the constructor returns its argument or throws -/
theorem ctor_returns (o : Bool) (eps : F64 ℝ) (m : Fin 3 → Fin 3 → F64 ℝ) {m' : Fin 3 → Fin 3 → F64 ℝ} (h : DRot.ctor o eps m = .ok m') : m' = m := by
  rw [DRot.ctor] at h
  split_ifs at h
  exact (Except.ok.inj h).symm

/-- the constructor keeps a matrix near a rotation -/
theorem ctor_near (o : Bool) {M : Fin 3 → Fin 3 → ℝ} {q : Quat} (hq : ‖hamilton q‖ = 1) {d : ℝ} (d0 : 0 ≤ d) (hd : d ≤ 1 / 1000) (h : NearTurn d M q) {eps : ℝ} (he : 35 / 10 * d + 5 * DQuat.u ≤ eps) :
    DRot.ctor o (.fin eps) (entries M) = .ok (entries M) :=
  (ctor_fin o eps (passes_near o hq d0 hd h he).2).1 (passes_near o hq d0 hd h he).1

/-- the product of quaternions -/
def Quat.times (p q : Quat) : Quat :=
  ⟨p.s * q.x + p.x * q.s + p.y * q.z - p.z * q.y, p.s * q.y - p.x * q.z + p.y * q.s + p.z * q.x, p.s * q.z + p.x * q.y - p.y * q.x + p.z * q.s, p.s * q.s - p.x * q.x - p.y * q.y - p.z * q.z⟩

theorem hamilton_times (p q : Quat) : hamilton (Quat.times p q) = hamilton p * hamilton q := by
  ext <;> simp only [Quaternion.re_mul, Quaternion.imI_mul, Quaternion.imJ_mul, Quaternion.imK_mul] <;> rfl

theorem exact_times (p q : Quat) (i j : Fin 3) : DRot.exact p i 0 * DRot.exact q 0 j + DRot.exact p i 1 * DRot.exact q 1 j + DRot.exact p i 2 * DRot.exact q 2 j = DRot.exact (Quat.times q p) i j := by
  fin_cases i <;> fin_cases j <;> simp [DRot.exact, Quat.times] <;> ring

/-- the computed product of matrices near rotations -/
theorem matrix_product_near (o : Bool) {A B : Fin 3 → Fin 3 → ℝ} {p q : Quat} (hp : ‖hamilton p‖ = 1) (hq : ‖hamilton q‖ = 1) {a b : ℝ} (a0 : 0 ≤ a) (b0 : 0 ≤ b) (a1 : a ≤ 1 / 1000) (b1 : b ≤ 1 / 1000) (hA : NearTurn a A p) (hB : NearTurn b B q) :
    NearTurn (174 / 100 * (a + b) + 31 / 10 * DQuat.u) (fun i j => DVec.dot3 o (A i 0) (A i 1) (A i 2) (B 0 j) (B 1 j) (B 2 j)) (Quat.times q p) := by
  intro i j
  have u0 := DQuat.u_pos
  have us := DQuat.u_small
  have t0 := DQuat.t_pos
  have tu := DRot.t_u
  norm_num at tu
  have orA := (DRot.exact_orthogonal p).2.1 i
  have ocB := (DRot.exact_orthogonal q).1 j
  rw [exact_unit hp] at orA
  rw [exact_unit hq] at ocB
  norm_num at orA ocB
  have S := DVec.dot3_near o (A i 0) (A i 1) (A i 2) (B 0 j) (B 1 j) (B 2 j)
  have x1 := three_small orA b0 (hB 0 j) (hB 1 j) (hB 2 j)
  have x2 := three_small ocB a0 (hA i 0) (hA i 1) (hA i 2)
  have s : ∀ k, |(A i k - DRot.exact p i k) * (B k j - DRot.exact q k j)| ≤ 1 / 1000 * b := fun k => by
    rw [abs_mul]; exact mul_le_mul ((hA i k).trans a1) (hB k j) (abs_nonneg _) (by norm_num)
  have e := exact_times p q i j
  have main : |A i 0 * B 0 j + A i 1 * B 1 j + A i 2 * B 2 j - DRot.exact (Quat.times q p) i j| ≤ 1737 / 1000 * (a + b) := by
    have e2 : A i 0 * B 0 j + A i 1 * B 1 j + A i 2 * B 2 j - DRot.exact (Quat.times q p) i j =
        (DRot.exact p i 0 * (B 0 j - DRot.exact q 0 j) + DRot.exact p i 1 * (B 1 j - DRot.exact q 1 j) + DRot.exact p i 2 * (B 2 j - DRot.exact q 2 j)) +
        (DRot.exact q 0 j * (A i 0 - DRot.exact p i 0) + DRot.exact q 1 j * (A i 1 - DRot.exact p i 1) + DRot.exact q 2 j * (A i 2 - DRot.exact p i 2)) +
        ((A i 0 - DRot.exact p i 0) * (B 0 j - DRot.exact q 0 j) + (A i 1 - DRot.exact p i 1) * (B 1 j - DRot.exact q 1 j) + (A i 2 - DRot.exact p i 2) * (B 2 j - DRot.exact q 2 j)) := by
      linear_combination e
    rw [e2, abs_le]
    constructor <;> linarith [(abs_le.1 x1).1, (abs_le.1 x2).1, (abs_le.1 (s 0)).1, (abs_le.1 (s 1)).1, (abs_le.1 (s 2)).1, (abs_le.1 x1).2, (abs_le.1 x2).2, (abs_le.1 (s 0)).2, (abs_le.1 (s 1)).2, (abs_le.1 (s 2)).2]
  have rowA : A i 0 * A i 0 + A i 1 * A i 1 + A i 2 * A i 2 ≤ 1 + 35 / 10 * a := by
    have k := three_small orA a0 (hA i 0) (hA i 1) (hA i 2)
    have sq : ∀ k, (A i k - DRot.exact p i k) ^ 2 ≤ 1 / 1000 * a := fun k => by
      rw [← sq_abs, sq]; exact mul_le_mul ((hA i k).trans a1) (hA i k) (abs_nonneg _) (by norm_num)
    have e3 : A i 0 * A i 0 + A i 1 * A i 1 + A i 2 * A i 2 = 1 + 2 * (DRot.exact p i 0 * (A i 0 - DRot.exact p i 0) + DRot.exact p i 1 * (A i 1 - DRot.exact p i 1) + DRot.exact p i 2 * (A i 2 - DRot.exact p i 2)) +
      ((A i 0 - DRot.exact p i 0) ^ 2 + (A i 1 - DRot.exact p i 1) ^ 2 + (A i 2 - DRot.exact p i 2) ^ 2) := by linear_combination orA
    rw [e3]
    linarith [(abs_le.1 k).2, sq 0, sq 1, sq 2]
  have colB : B 0 j * B 0 j + B 1 j * B 1 j + B 2 j * B 2 j ≤ 1 + 35 / 10 * b := by
    have k := three_small ocB b0 (hB 0 j) (hB 1 j) (hB 2 j)
    have sq : ∀ k, (B k j - DRot.exact q k j) ^ 2 ≤ 1 / 1000 * b := fun k => by
      rw [← sq_abs, sq]; exact mul_le_mul ((hB k j).trans b1) (hB k j) (abs_nonneg _) (by norm_num)
    have e3 : B 0 j * B 0 j + B 1 j * B 1 j + B 2 j * B 2 j = 1 + 2 * (DRot.exact q 0 j * (B 0 j - DRot.exact q 0 j) + DRot.exact q 1 j * (B 1 j - DRot.exact q 1 j) + DRot.exact q 2 j * (B 2 j - DRot.exact q 2 j)) +
      ((B 0 j - DRot.exact q 0 j) ^ 2 + (B 1 j - DRot.exact q 1 j) ^ 2 + (B 2 j - DRot.exact q 2 j) ^ 2) := by linear_combination ocB
    rw [e3]
    linarith [(abs_le.1 k).2, sq 0, sq 1, sq 2]
  have ab : |A i 0 * B 0 j| + |A i 1 * B 1 j| + |A i 2 * B 2 j| ≤ 1005 / 1000 := by
    linarith [DRot.abs_mul_le (A i 0) (B 0 j), DRot.abs_mul_le (A i 1) (B 1 j), DRot.abs_mul_le (A i 2) (B 2 j)]
  have ua : DQuat.u * (|A i 0 * B 0 j| + |A i 1 * B 1 j| + |A i 2 * B 2 j|) ≤ DQuat.u * (1005 / 1000) := mul_le_mul_of_nonneg_left ab u0.le
  have fin := (abs_sub_le (DVec.dot3 o (A i 0) (A i 1) (A i 2) (B 0 j) (B 1 j) (B 2 j)) (A i 0 * B 0 j + A i 1 * B 1 j + A i 2 * B 2 j) (DRot.exact (Quat.times q p) i j)).trans (add_le_add S main)
  refine fin.trans ?_
  linarith

theorem mul_near_turn (o : Bool) {A B : Fin 3 → Fin 3 → ℝ} {p q : Quat} (hp : ‖hamilton p‖ = 1) (hq : ‖hamilton q‖ = 1) {a b : ℝ} (a0 : 0 ≤ a) (b0 : 0 ≤ b) (a1 : a ≤ 1 / 10000) (b1 : b ≤ 1 / 10000) (hA : NearTurn a A p) (hB : NearTurn b B q) :
    ∃ M, (∀ E m, DRot.mul o E (entries A) (entries B) = .ok m → m = entries M) ∧ (∀ eps : ℝ, 61 / 10 * (a + b) + 16 * DQuat.u ≤ eps → DRot.mul o (.fin eps) (entries A) (entries B) = .ok (entries M)) ∧
      NearTurn (174 / 100 * (a + b) + 31 / 10 * DQuat.u) M (Quat.times q p) ∧ ‖hamilton (Quat.times q p)‖ = 1 := by
  have u0 := DQuat.u_pos
  have us := DQuat.u_small
  have n := matrix_product_near o hp hq a0 b0 (a1.trans (by norm_num)) (b1.trans (by norm_num)) hA hB
  have hn : ‖hamilton (Quat.times q p)‖ = 1 := by rw [hamilton_times, norm_mul, hp, hq, one_mul]
  have bA := (passes_near o hp a0 (a1.trans (by norm_num)) hA le_rfl).2
  have bB := (passes_near o hq b0 (b1.trans (by norm_num)) hB le_rfl).2
  have e : (fun i j => DVec.sum o ((entries A i 0).mul (entries B 0 j)) ((entries A i 1).mul (entries B 1 j)) ((entries A i 2).mul (entries B 2 j))) =
      entries (fun i j => DVec.dot3 o (A i 0) (A i 1) (A i 2) (B 0 j) (B 1 j) (B 2 j)) := by
    funext i j
    exact (DVec.dot_fin o (bA i 0) (bA i 1) (bA i 2) (bB 0 j) (bB 1 j) (bB 2 j)).1
  have eq : ∀ E, DRot.mul o E (entries A) (entries B) = DRot.ctor o E (entries (fun i j => DVec.dot3 o (A i 0) (A i 1) (A i 2) (B 0 j) (B 1 j) (B 2 j))) := fun E => by
    rw [DRot.mul, entries_defined, entries_defined, if_neg (by simp), e]
  exact ⟨_, fun E m h => ctor_returns o E _ ((eq E).symm.trans h), fun eps he => (eq _).trans (ctor_near o hn (by positivity) (by linarith) n (by linarith)), n, hn⟩

theorem trig_half (t : ℝ) : Real.cos t = 2 * Real.cos (t / 2) ^ 2 - 1 ∧ Real.sin t = 2 * Real.sin (t / 2) * Real.cos (t / 2) ∧ Real.sin (t / 2) ^ 2 + Real.cos (t / 2) ^ 2 = 1 := by
  refine ⟨?_, ?_, Real.sin_sq_add_cos_sq _⟩
  · rw [← Real.cos_two_mul]; congr 1; ring
  · rw [← Real.sin_two_mul]; congr 1; ring

/-- what the library answers for the sine and cosine of a finite number -/
theorem lib_near {f g : ℝ → ℝ} (hf : Accurate f g) {t : ℝ} (ht : Representable t) : libm f (.fin t) = .fin (f t) ∧ |f t| ≤ 1 ∧ |f t - g t| ≤ DQuat.u :=
  ⟨rfl, (hf t ht).2.1, (hf t ht).2.2⟩

/-- the matrices of the three axes -/
def matX (c s : ℝ) : Fin 3 → Fin 3 → ℝ := ![![1, 0, 0], ![0, c, s], ![0, -s, c]]
def matY (c s : ℝ) : Fin 3 → Fin 3 → ℝ := ![![c, 0, -s], ![0, 1, 0], ![s, 0, c]]
def matZ (c s : ℝ) : Fin 3 → Fin 3 → ℝ := ![![c, s, 0], ![-s, c, 0], ![0, 0, 1]]

/-- their quaternions -/
noncomputable def quatX (t : ℝ) : Quat := ⟨Real.sin (t / 2), 0, 0, Real.cos (t / 2)⟩
noncomputable def quatY (t : ℝ) : Quat := ⟨0, Real.sin (t / 2), 0, Real.cos (t / 2)⟩
noncomputable def quatZ (t : ℝ) : Quat := ⟨0, 0, Real.sin (t / 2), Real.cos (t / 2)⟩

theorem quat_unit (t : ℝ) : ‖hamilton (quatX t)‖ = 1 ∧ ‖hamilton (quatY t)‖ = 1 ∧ ‖hamilton (quatZ t)‖ = 1 := by
  have h := Real.sin_sq_add_cos_sq (t / 2)
  refine ⟨?_, ?_, ?_⟩ <;> refine norm_eq_of zero_le_one ?_ <;> simp only [quatX, quatY, quatZ] <;> nlinarith

theorem axes_near {c s t d : ℝ} (d0 : 0 ≤ d) (hc : |c - Real.cos t| ≤ d) (hs : |s - Real.sin t| ≤ d) : NearTurn d (matX c s) (quatX t) ∧ NearTurn d (matY c s) (quatY t) ∧ NearTurn d (matZ c s) (quatZ t) := by
  obtain ⟨t1, t2, t3⟩ := trig_half t
  have h1 : Real.cos (t / 2) * Real.cos (t / 2) - Real.sin (t / 2) * Real.sin (t / 2) = Real.cos t := by linear_combination -t1 - t3
  have h2 : 2 * (Real.sin (t / 2) * Real.cos (t / 2)) = Real.sin t := by linear_combination -t2
  have h3 : Real.sin (t / 2) * Real.sin (t / 2) + Real.cos (t / 2) * Real.cos (t / 2) = 1 := by linear_combination t3
  have zero : |(0 : ℝ)| ≤ d := by rwa [abs_zero]
  have hs' : |-s - -Real.sin t| ≤ d := by rw [← abs_neg]; convert hs using 2; ring
  refine ⟨?_, ?_, ?_⟩ <;> intro i j <;> fin_cases i <;> fin_cases j <;> simp only [matX, matY, matZ, quatX, quatY, quatZ, DRot.exact] <;>
    first
    | (convert hc using 2; simp; linarith)
    | (convert hs using 2; simp; linarith)
    | (convert hs' using 2; simp; linarith)
    | (convert zero using 2; simp; done)
    | (convert zero using 2; simp; linarith)

/-- one coefficient of the matrix of a rotation vector: the product of three factors -/
theorem kxy_near {k x y K X Y : ℝ} (hk : |k - K| ≤ 2 * DQuat.u) (hk2 : |k| ≤ 2) (hx : |x - X| ≤ 441 / 100 * DQuat.u) (hy : |y - Y| ≤ 441 / 100 * DQuat.u) (x1 : |x| ≤ 1) (X1 : |X| ≤ 1) (y1 : |y| ≤ 1) (Y1 : |Y| ≤ 1) :
    (F64.fin k).mul (.fin x) = .fin (rnd (k * x)) ∧ (F64.fin (rnd (k * x))).mul (.fin y) = .fin (rnd (rnd (k * x) * y)) ∧ |rnd (rnd (k * x) * y)| ≤ 2 ∧ |rnd (rnd (k * x) * y) - K * X * Y| ≤ 217 / 10 * DQuat.u := by
  have u0 := DQuat.u_pos
  have us := DQuat.u_small
  have r2 : Representable (2 : ℝ) := by simpa using DQuat.rep_two 1
  have p2 : |k * x| ≤ 2 := by rw [abs_mul]; exact (mul_le_mul hk2 x1 (abs_nonneg _) (by norm_num)).trans (by norm_num)
  have q2 := DLinear.rnd_abs_le r2 p2
  have e1 : |k * x - K * X| ≤ 1082 / 100 * DQuat.u := by
    rw [show k * x - K * X = k * (x - X) + X * (k - K) by ring]
    refine (abs_add_le _ _).trans ?_
    rw [abs_mul, abs_mul]
    have := mul_le_mul hk2 hx (abs_nonneg _) (by norm_num)
    have := mul_le_mul X1 hk (abs_nonneg _) (by norm_num)
    linarith
  have b : ∀ {a : ℝ}, |a| ≤ 2 → |a| ≤ 2 ^ 500 := fun h => h.trans two_500
  have f1 := (DVec.mul_fin2 (b hk2) (b (x1.trans (by norm_num)))).1
  have e2 := DRot.err2 p2
  generalize rnd (k * x) = p at *
  have p3 : |p * y| ≤ 2 := by rw [abs_mul]; exact (mul_le_mul q2 y1 (abs_nonneg _) (by norm_num)).trans (by norm_num)
  have e3 := DRot.err2 p3
  have e4 : |p * y - K * X * Y| ≤ 2065 / 100 * DQuat.u := by
    rw [show p * y - K * X * Y = p * (y - Y) + Y * (p - k * x) + Y * (k * x - K * X) by ring]
    refine (abs_add_le _ _).trans ((add_le_add (abs_add_le _ _) le_rfl).trans ?_)
    rw [abs_mul, abs_mul, abs_mul]
    have := mul_le_mul q2 hy (abs_nonneg _) (by norm_num)
    have := mul_le_mul Y1 e2 (abs_nonneg _) (by norm_num)
    have := mul_le_mul Y1 e1 (abs_nonneg _) (by norm_num)
    linarith
  refine ⟨f1, (DVec.mul_fin2 (b q2) (b (y1.trans (by norm_num)))).1, DLinear.rnd_abs_le r2 p3, ?_⟩
  refine (abs_sub_le _ (p * y) _).trans ?_
  linarith

/-- a product of two numbers of size one -/
theorem sz_near {s z S Z : ℝ} (hs : |s - S| ≤ DQuat.u) (hz : |z - Z| ≤ 441 / 100 * DQuat.u) (s1 : |s| ≤ 1) (z1 : |z| ≤ 1) (Z1 : |Z| ≤ 1) :
    (F64.fin s).mul (.fin z) = .fin (rnd (s * z)) ∧ |rnd (s * z)| ≤ 1 ∧ |rnd (s * z) - S * Z| ≤ 592 / 100 * DQuat.u := by
  have u0 := DQuat.u_pos
  obtain ⟨m, l⟩ := mul_le1 s1 z1
  refine ⟨m, l, ?_⟩
  have p1 : |s * z| ≤ 1 := by rw [abs_mul]; exact (mul_le_mul s1 z1 (abs_nonneg _) (by norm_num)).trans (by norm_num)
  have e1 : |s * z - S * Z| ≤ 541 / 100 * DQuat.u := by
    rw [show s * z - S * Z = s * (z - Z) + Z * (s - S) by ring]
    refine (abs_add_le _ _).trans ?_
    rw [abs_mul, abs_mul]
    have := mul_le_mul s1 hz (abs_nonneg _) (by norm_num)
    have := mul_le_mul Z1 hs (abs_nonneg _) (by norm_num)
    linarith
  refine (abs_sub_le _ (s * z) _).trans ?_
  linarith [DRot.err1 p1]

/-- a sum of two numbers near `P` and `Q`, the sum of which is at most one -/
theorem sum_two_near {p q P Q a b : ℝ} (hp : |p - P| ≤ a * DQuat.u) (hq : |q - Q| ≤ b * DQuat.u) (p2 : |p| ≤ 2) (q1 : |q| ≤ 2) (h : |P + Q| ≤ 1) (ab : a + b ≤ 30) :
    (F64.fin p).add (.fin q) = .fin (rnd (p + q)) ∧ |rnd (p + q) - (P + Q)| ≤ (a + b + 1) * DQuat.u := by
  have u0 := DQuat.u_pos
  have us := DQuat.u_small
  have e : |p + q - (P + Q)| ≤ (a + b) * DQuat.u := by
    rw [show p + q - (P + Q) = (p - P) + (q - Q) by ring, add_mul]
    exact (abs_add_le _ _).trans (add_le_add hp hq)
  have : (a + b) * DQuat.u ≤ 30 * DQuat.u := mul_le_mul_of_nonneg_right ab u0.le
  have l : |p + q| ≤ 2 := by
    have := abs_sub_abs_le_abs_sub (p + q) (P + Q)
    linarith
  have b : ∀ {a : ℝ}, |a| ≤ 2 → |a| ≤ 2 ^ 500 := fun h => h.trans two_500
  refine ⟨(DVec.add_fin2 (by norm_num) (b p2) (b q1)).1, (abs_sub_le _ (p + q) _).trans ?_⟩
  linarith [DRot.err2 l]

/-- the computed coefficients of the matrix of a rotation vector -/
noncomputable def vecMat (x y z c s : ℝ) : Fin 3 → Fin 3 → ℝ :=
  let k := rnd (1 - c)
  ![![rnd (c + rnd (rnd (k * x) * x)), rnd (rnd (rnd (k * x) * y) + rnd (s * z)), rnd (rnd (rnd (k * x) * z) + rnd (-s * y))],
    ![rnd (rnd (rnd (k * y) * x) + rnd (-s * z)), rnd (c + rnd (rnd (k * y) * y)), rnd (rnd (rnd (k * y) * z) + rnd (s * x))],
    ![rnd (rnd (rnd (k * z) * x) + rnd (s * y)), rnd (rnd (rnd (k * z) * y) + rnd (-s * x)), rnd (c + rnd (rnd (k * z) * z))]]

/-- the quaternion of the rotation about the unit vector `(X, Y, Z)` -/
noncomputable def aboutQ (X Y Z t : ℝ) : Quat := ⟨X * Real.sin (t / 2), Y * Real.sin (t / 2), Z * Real.sin (t / 2), Real.cos (t / 2)⟩

theorem aboutQ_unit {X Y Z : ℝ} (h : X ^ 2 + Y ^ 2 + Z ^ 2 = 1) (t : ℝ) : ‖hamilton (aboutQ X Y Z t)‖ = 1 := by
  refine norm_eq_of zero_le_one ?_
  simp only [aboutQ]
  linear_combination Real.sin (t / 2) ^ 2 * h + Real.sin_sq_add_cos_sq (t / 2)

theorem exact_le_one {q : Quat} (hq : ‖hamilton q‖ = 1) (i j : Fin 3) : |DRot.exact q i j| ≤ 1 := by
  have := exact_le q i j
  rwa [hq, one_pow] at this

theorem exact_diag {X Y Z : ℝ} (h : X ^ 2 + Y ^ 2 + Z ^ 2 = 1) (t : ℝ) : DRot.exact (aboutQ X Y Z t) 0 0 = Real.cos t + (1 - Real.cos t) * X * X ∧
    DRot.exact (aboutQ X Y Z t) 1 1 = Real.cos t + (1 - Real.cos t) * Y * Y ∧ DRot.exact (aboutQ X Y Z t) 2 2 = Real.cos t + (1 - Real.cos t) * Z * Z := by
  obtain ⟨t1, t2, t3⟩ := trig_half t
  refine ⟨?_, ?_, ?_⟩ <;> simp [DRot.exact, aboutQ] <;> rw [t1]
  · linear_combination (2 * X ^ 2 - 1) * t3 - Real.sin (t / 2) ^ 2 * h
  · linear_combination (2 * Y ^ 2 - 1) * t3 - Real.sin (t / 2) ^ 2 * h
  · linear_combination (2 * Z ^ 2 - 1) * t3 - Real.sin (t / 2) ^ 2 * h

theorem exact_off (X Y Z t : ℝ) : DRot.exact (aboutQ X Y Z t) 0 1 = (1 - Real.cos t) * X * Y + Real.sin t * Z ∧ DRot.exact (aboutQ X Y Z t) 0 2 = (1 - Real.cos t) * X * Z + -Real.sin t * Y ∧
    DRot.exact (aboutQ X Y Z t) 1 0 = (1 - Real.cos t) * Y * X + -Real.sin t * Z ∧ DRot.exact (aboutQ X Y Z t) 1 2 = (1 - Real.cos t) * Y * Z + Real.sin t * X ∧
    DRot.exact (aboutQ X Y Z t) 2 0 = (1 - Real.cos t) * Z * X + Real.sin t * Y ∧ DRot.exact (aboutQ X Y Z t) 2 1 = (1 - Real.cos t) * Z * Y + -Real.sin t * X := by
  obtain ⟨t1, t2, t3⟩ := trig_half t
  refine ⟨?_, ?_, ?_, ?_, ?_, ?_⟩ <;> simp [DRot.exact, aboutQ] <;> rw [t1, t2]
  · linear_combination 2 * X * Y * t3
  · linear_combination 2 * X * Z * t3
  · linear_combination 2 * X * Y * t3
  · linear_combination 2 * Y * Z * t3
  · linear_combination 2 * X * Z * t3
  · linear_combination 2 * Y * Z * t3

/-- a diagonal coefficient -/
theorem diag_entry {k x c X C r : ℝ} (hx : |x - X| ≤ 441 / 100 * DQuat.u) (x1 : |x| ≤ 1) (X1 : |X| ≤ 1) (hk : |k - (1 - C)| ≤ 2 * DQuat.u) (kr : |k| ≤ 2) (hc : |c - C| ≤ DQuat.u) (c1 : |c| ≤ 1)
    (e : r = C + (1 - C) * X * X) (h : |r| ≤ 1) :
    (F64.fin c).add (((F64.fin k).mul (.fin x)).mul (.fin x)) = .fin (rnd (c + rnd (rnd (k * x) * x))) ∧ |rnd (c + rnd (rnd (k * x) * x)) - r| ≤ 29 * DQuat.u := by
  have u0 := DQuat.u_pos
  obtain ⟨f1, f2, a1, a2⟩ := kxy_near hk kr hx hx x1 X1 x1 X1
  obtain ⟨g1, g2⟩ := sum_two_near (a := 1) (by rwa [one_mul]) a2 (c1.trans (by norm_num)) a1 (by rwa [← e]) (by norm_num)
  rw [f1, f2, g1, e]
  exact ⟨rfl, g2.trans (mul_le_mul_of_nonneg_right (by norm_num) u0.le)⟩

/-- a coefficient beside the diagonal -/
theorem off_entry {k x y z s X Y Z C S r : ℝ} (hx : |x - X| ≤ 441 / 100 * DQuat.u) (hy : |y - Y| ≤ 441 / 100 * DQuat.u) (hz : |z - Z| ≤ 441 / 100 * DQuat.u) (x1 : |x| ≤ 1) (y1 : |y| ≤ 1) (z1 : |z| ≤ 1)
    (X1 : |X| ≤ 1) (Y1 : |Y| ≤ 1) (Z1 : |Z| ≤ 1) (hk : |k - (1 - C)| ≤ 2 * DQuat.u) (kr : |k| ≤ 2) (hs : |s - S| ≤ DQuat.u) (s1 : |s| ≤ 1) (e : r = (1 - C) * X * Y + S * Z) (h : |r| ≤ 1) :
    (((F64.fin k).mul (.fin x)).mul (.fin y)).add ((F64.fin s).mul (.fin z)) = .fin (rnd (rnd (rnd (k * x) * y) + rnd (s * z))) ∧ |rnd (rnd (rnd (k * x) * y) + rnd (s * z)) - r| ≤ 29 * DQuat.u := by
  have u0 := DQuat.u_pos
  obtain ⟨f1, f2, a1, a2⟩ := kxy_near hk kr hx hy x1 X1 y1 Y1
  obtain ⟨f3, b1, b2⟩ := sz_near hs hz s1 z1 Z1
  obtain ⟨g1, g2⟩ := sum_two_near a2 b2 a1 (b1.trans (by norm_num)) (by rwa [← e]) (by norm_num)
  rw [f1, f2, f3, g1, e]
  exact ⟨rfl, g2.trans (mul_le_mul_of_nonneg_right (by norm_num) u0.le)⟩

theorem vecMat_near {x y z c s X Y Z t : ℝ} (hx : |x - X| ≤ 441 / 100 * DQuat.u) (hy : |y - Y| ≤ 441 / 100 * DQuat.u) (hz : |z - Z| ≤ 441 / 100 * DQuat.u) (x1 : |x| ≤ 1) (y1 : |y| ≤ 1) (z1 : |z| ≤ 1)
    (h : X ^ 2 + Y ^ 2 + Z ^ 2 = 1) (hc : |c - Real.cos t| ≤ DQuat.u) (hs : |s - Real.sin t| ≤ DQuat.u) (c1 : |c| ≤ 1) (s1 : |s| ≤ 1) :
    DRot.ofVector ⟨.fin x, .fin y, .fin z⟩ (.fin c) (.fin s) = entries (vecMat x y z c s) ∧ NearTurn (29 * DQuat.u) (vecMat x y z c s) (aboutQ X Y Z t) := by
  have X1 : |X| ≤ 1 := abs_le_one_iff_mul_self_le_one.2 (by nlinarith [sq_nonneg Y, sq_nonneg Z])
  have Y1 : |Y| ≤ 1 := abs_le_one_iff_mul_self_le_one.2 (by nlinarith [sq_nonneg X, sq_nonneg Z])
  have Z1 : |Z| ≤ 1 := abs_le_one_iff_mul_self_le_one.2 (by nlinarith [sq_nonneg X, sq_nonneg Y])
  have k2 : |1 - c| ≤ 2 := by rw [abs_le] at c1 ⊢; constructor <;> linarith [c1.1, c1.2]
  have b : ∀ {a : ℝ}, |a| ≤ 2 → |a| ≤ 2 ^ 500 := fun h => h.trans two_500
  have ek : (F64.fin (1 : ℝ)).sub (.fin c) = .fin (rnd (1 - c)) := (DVec.sub_fin2 (n := 500) (by norm_num) (b (by norm_num)) (b (c1.trans (by norm_num)))).1
  have kr := DLinear.rnd_abs_le (by simpa using DQuat.rep_two 1 : Representable (2 : ℝ)) k2
  have hk : |rnd (1 - c) - (1 - Real.cos t)| ≤ 2 * DQuat.u := by
    refine (abs_sub_le _ (1 - c) _).trans ?_
    have := DRot.err2 k2
    have : |1 - c - (1 - Real.cos t)| = |c - Real.cos t| := by rw [← abs_neg]; congr 1; ring
    linarith
  have hs' : |-s - -Real.sin t| ≤ DQuat.u := by rw [← abs_neg]; convert hs using 2; ring
  have s1' : |-s| ≤ 1 := by rwa [abs_neg]
  have L := exact_le_one (aboutQ_unit h t)
  obtain ⟨d0, d1, d2⟩ := exact_diag h t
  obtain ⟨o1, o2, o3, o4, o5, o6⟩ := exact_off X Y Z t
  have m00 := diag_entry hx x1 X1 hk kr hc c1 d0 (L 0 0)
  have m11 := diag_entry hy y1 Y1 hk kr hc c1 d1 (L 1 1)
  have m22 := diag_entry hz z1 Z1 hk kr hc c1 d2 (L 2 2)
  have m01 := off_entry hx hy hz x1 y1 z1 X1 Y1 Z1 hk kr hs s1 o1 (L 0 1)
  have m02 := off_entry hx hz hy x1 z1 y1 X1 Z1 Y1 hk kr hs' s1' o2 (L 0 2)
  have m10 := off_entry hy hx hz y1 x1 z1 Y1 X1 Z1 hk kr hs' s1' o3 (L 1 0)
  have m12 := off_entry hy hz hx y1 z1 x1 Y1 Z1 X1 hk kr hs s1 o4 (L 1 2)
  have m20 := off_entry hz hx hy z1 x1 y1 Z1 X1 Y1 hk kr hs s1 o5 (L 2 0)
  have m21 := off_entry hz hy hx z1 y1 x1 Z1 Y1 X1 hk kr hs' s1' o6 (L 2 1)
  constructor
  · funext i j
    simp only [DRot.ofVector, ek, DRot.sub_mul_fin]
    fin_cases i <;> fin_cases j
    · exact m00.1
    · exact m01.1
    · exact m02.1
    · exact m10.1
    · exact m11.1
    · exact m12.1
    · exact m20.1
    · exact m21.1
    · exact m22.1
  · intro i j
    fin_cases i <;> fin_cases j
    · exact m00.2
    · exact m01.2
    · exact m02.2
    · exact m10.2
    · exact m11.2
    · exact m12.2
    · exact m20.2
    · exact m21.2
    · exact m22.2

end Verif.Props
