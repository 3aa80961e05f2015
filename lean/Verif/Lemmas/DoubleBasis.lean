import Verif.Model.DoubleBasis
import Verif.Lemmas.DoubleTurn
import Verif.Lemmas.DoublePlane
import Verif.Props.RotationMatrix

/-!
# Lemmas on rotation matrices made from vectors in double precision
-/

namespace Verif.Props

open Verif Verif.Spec Verif.Double

/-- a matrix near one with orthonormal columns passes the tests of the constructor -/
theorem passes_columns (o : Bool) {M R : Fin 3 → Fin 3 → ℝ} (oc : ∀ j, R 0 j ^ 2 + R 1 j ^ 2 + R 2 j ^ 2 = 1) (oo : ∀ j k, j ≠ k → R 0 j * R 0 k + R 1 j * R 1 k + R 2 j * R 2 k = 0) {d : ℝ} (d0 : 0 ≤ d)
    (hd : d ≤ 1 / 1000) (h : ∀ i j, |M i j - R i j| ≤ d) {eps : ℝ} (he : 35 / 10 * d + 5 * DQuat.u ≤ eps) : Passes o eps M ∧ ∀ i j, |M i j| ≤ 2 ^ 500 := by
  have u0 := DQuat.u_pos
  have us := DQuat.u_small
  have t0 := DQuat.t_pos
  have tu := DRot.t_u
  norm_num at tu
  have le1 : ∀ i j, |R i j| ≤ 1 := fun i j => by
    refine abs_le_one_iff_mul_self_le_one.2 ?_
    have := oc j
    fin_cases i <;> simp <;> nlinarith [sq_nonneg (R 0 j), sq_nonneg (R 1 j), sq_nonneg (R 2 j)]
  have le2 : ∀ i j, |M i j| ≤ 1001 / 1000 := fun i j => by
    have := abs_sub_abs_le_abs_sub (M i j) (R i j)
    linarith [le1 i j, h i j]
  have sq1 : ∀ j, |(M 0 j * M 0 j + M 1 j * M 1 j + M 2 j * M 2 j) - 1| ≤ 3467 / 1000 * d + 3 * d ^ 2 := fun j => by
    have k := three_small (oc j) d0 (h 0 j) (h 1 j) (h 2 j)
    have s : ∀ i, (M i j - R i j) ^ 2 ≤ d ^ 2 := fun i => sq_le_sq' (abs_le.1 (h i j)).1 (abs_le.1 (h i j)).2
    have e : (M 0 j * M 0 j + M 1 j * M 1 j + M 2 j * M 2 j) - 1 = 2 * (R 0 j * (M 0 j - R 0 j) + R 1 j * (M 1 j - R 1 j) + R 2 j * (M 2 j - R 2 j)) +
        ((M 0 j - R 0 j) ^ 2 + (M 1 j - R 1 j) ^ 2 + (M 2 j - R 2 j) ^ 2) := by linear_combination oc j
    have k1 := (abs_le.1 k).1
    have k2 := (abs_le.1 k).2
    have p := fun i => sq_nonneg (M i j - R i j)
    rw [e, abs_le]
    constructor <;> linarith [s 0, s 1, s 2, p 0, p 1, p 2]
  have dd : d ^ 2 ≤ 1 / 1000 * d := by rw [sq]; exact mul_le_mul_of_nonneg_right hd d0
  have nr : ∀ j, rnd (DVec.nrm3 o (M 0 j) (M 1 j) (M 2 j) - 1) ≤ eps := fun j => by
    have sj := sq1 j
    have S := DVec.dot3_near o (M 0 j) (M 1 j) (M 2 j) (M 0 j) (M 1 j) (M 2 j)
    simp only [abs_mul_self] at S
    generalize hS : M 0 j * M 0 j + M 1 j * M 1 j + M 2 j * M 2 j = X at *
    obtain ⟨s1, s2⟩ := abs_le.1 sj
    have uX : DQuat.u * X ≤ 1 / 1000 * X := mul_le_mul_of_nonneg_right (by linarith) (by linarith)
    have big : (2 : ℝ) ^ (-100 : ℤ) ≤ DVec.dot3 o (M 0 j) (M 1 j) (M 2 j) (M 0 j) (M 1 j) (M 2 j) := by
      refine le_trans (by norm_num : (2 : ℝ) ^ (-100 : ℤ) ≤ 1 / 2) ?_
      linarith [(abs_le.1 S).1]
    obtain ⟨-, nn⟩ := DVec.nrm3_near o big
    rw [hS] at nn
    have rX : Real.sqrt X ≤ 1 + 1735 / 1000 * d := Real.sqrt_le_iff.2 ⟨by positivity, by nlinarith⟩
    have n2 := (abs_le.1 nn).2
    generalize Real.sqrt X = Q at *
    have uR : DQuat.u * Q ≤ DQuat.u * (1 + 1735 / 1000 * d) := mul_le_mul_of_nonneg_left rX u0.le
    have ud : DQuat.u * d ≤ 1 / 1000 * DQuat.u := by rw [mul_comm]; exact mul_le_mul_of_nonneg_right hd u0.le
    have up : DVec.nrm3 o (M 0 j) (M 1 j) (M 2 j) - 1 ≤ 1735 / 1000 * d + 33 / 10 * DQuat.u := by linarith
    generalize DVec.nrm3 o (M 0 j) (M 1 j) (M 2 j) = N at *
    have mono := rnd_mono up
    have r := (abs_le.1 (DRot.near1 (1735 / 1000 * d + 33 / 10 * DQuat.u))).2
    rw [abs_of_nonneg (by positivity : 0 ≤ 1735 / 1000 * d + 33 / 10 * DQuat.u)] at r
    have uu : DQuat.u * DQuat.u ≤ 1 / 1000 * DQuat.u := mul_le_mul_of_nonneg_right (by linarith) u0.le
    nlinarith
  have dt : ∀ j k, j ≠ k → |DVec.dot3 o (M 0 j) (M 1 j) (M 2 j) (M 0 k) (M 1 k) (M 2 k)| ≤ eps := fun j k jk => by
    have S := DVec.dot3_near o (M 0 j) (M 1 j) (M 2 j) (M 0 k) (M 1 k) (M 2 k)
    have a1 := three_small (oc j) d0 (h 0 k) (h 1 k) (h 2 k)
    have a2 := three_small (oc k) d0 (h 0 j) (h 1 j) (h 2 j)
    have s : ∀ i, |(M i j - R i j) * (M i k - R i k)| ≤ d ^ 2 := fun i => by
      rw [abs_mul, sq]; exact mul_le_mul (h i j) (h i k) (abs_nonneg _) d0
    have e : M 0 j * M 0 k + M 1 j * M 1 k + M 2 j * M 2 k = (R 0 j * (M 0 k - R 0 k) + R 1 j * (M 1 k - R 1 k) + R 2 j * (M 2 k - R 2 k)) +
        (R 0 k * (M 0 j - R 0 j) + R 1 k * (M 1 j - R 1 j) + R 2 k * (M 2 j - R 2 j)) + ((M 0 j - R 0 j) * (M 0 k - R 0 k) +
        (M 1 j - R 1 j) * (M 1 k - R 1 k) + (M 2 j - R 2 j) * (M 2 k - R 2 k)) := by linear_combination oo j k jk
    have ex : |M 0 j * M 0 k + M 1 j * M 1 k + M 2 j * M 2 k| ≤ 347 / 100 * d := by
      rw [e, abs_le]
      constructor <;> linarith [(abs_le.1 a1).1, (abs_le.1 a2).1, (abs_le.1 (s 0)).1, (abs_le.1 (s 1)).1, (abs_le.1 (s 2)).1,
        (abs_le.1 a1).2, (abs_le.1 a2).2, (abs_le.1 (s 0)).2, (abs_le.1 (s 1)).2, (abs_le.1 (s 2)).2]
    have ab : |M 0 j * M 0 k| + |M 1 j * M 1 k| + |M 2 j * M 2 k| ≤ 11 / 10 := by
      have y := fun i => DRot.abs_mul_le (M i j) (M i k)
      linarith [y 0, y 1, y 2, (abs_le.1 (sq1 j)).2, (abs_le.1 (sq1 k)).2]
    have ua : DQuat.u * (|M 0 j * M 0 k| + |M 1 j * M 1 k| + |M 2 j * M 2 k|) ≤ DQuat.u * (11 / 10) := mul_le_mul_of_nonneg_left ab u0.le
    rw [abs_le] at S ex ⊢
    constructor <;> linarith [S.1, S.2, ex.1, ex.2]
  refine ⟨⟨nr, dt 0 1 (by decide), dt 1 2 (by decide), dt 2 0 (by decide)⟩, fun i j => (le2 i j).trans ?_⟩
  exact le_trans (by norm_num) two_500

/-- the unit vector along a vector -/
noncomputable def unitAlong (v : V3) : V3 := v.norm⁻¹ • v

theorem norm_along {v : V3} (h : 0 < v.norm) : (unitAlong v).norm = 1 := by rw [unitAlong, V3.norm_smul, abs_of_pos (inv_pos.2 h), inv_mul_cancel₀ h.ne']

theorem unitAlong_smul {k : ℝ} (hk : 0 < k) (v : V3) : unitAlong (k • v) = unitAlong v := by
  have : (k • v).norm⁻¹ * k = v.norm⁻¹ := by
    rw [V3.norm_smul, abs_of_pos hk, mul_inv, mul_comm k⁻¹, mul_assoc, inv_mul_cancel₀ hk.ne', mul_one]
  ext <;> simp only [unitAlong, V3.smul_x, V3.smul_y, V3.smul_z] <;> rw [← mul_assoc, this]

/-- a vector that is normalized is near the unit vector along it -/
theorem normalized_along (o : Bool) {v : V3} (hv : Within v) (h : 1 / 2 ^ 40 ≤ v.norm) : ∃ a : V3, (doubles v).normalized o = doubles a ∧ (a - unitAlong v).norm ≤ 45 / 10 * DQuat.u := by
  have np := pure_length v
  obtain ⟨d, hd, -, -, -, -, -, -, nd⟩ := normalized_any o hv (by rwa [np])
  refine ⟨d, hd, ?_⟩
  have e : v.norm⁻¹ • pure v = pure (unitAlong v) := by
    ext <;> simp only [Quaternion.re_smul, Quaternion.imI_smul, Quaternion.imJ_smul, Quaternion.imK_smul] <;> simp [pure, unitAlong, hamilton]
  rw [np, e, pure_sub, pure_length] at nd
  exact nd

theorem norm_sub_swap (v w : V3) : (v - w).norm = (w - v).norm := by
  have : v - w = (-1 : ℝ) • (w - v) := by ext <;> simp
  rw [this, V3.norm_smul]; norm_num

/-- the unit vectors along two near vectors are near -/
theorem unit_along_near {c n : V3} (hn : 0 < n.norm) (hc : 0 < c.norm) : (unitAlong c - unitAlong n).norm ≤ 2 * ((c - n).norm / n.norm) := by
  have e : unitAlong c - unitAlong n = (n.norm⁻¹) • (c - n) + (c.norm⁻¹ - n.norm⁻¹) • c := by ext <;> simp [unitAlong] <;> ring
  have h := V3.norm_add_le ((n.norm⁻¹) • (c - n)) ((c.norm⁻¹ - n.norm⁻¹) • c)
  rw [← e, V3.norm_smul, V3.norm_smul, abs_of_pos (inv_pos.2 hn)] at h
  have e2 : |c.norm⁻¹ - n.norm⁻¹| * c.norm = |n.norm - c.norm| / n.norm := by
    rw [inv_sub_inv hc.ne' hn.ne', abs_div, abs_of_pos (mul_pos hc hn)]; field_simp
  have t1 := V3.norm_add_le (c - n) n
  have t2 := V3.norm_add_le (n - c) c
  rw [show c - n + n = c by ext <;> simp] at t1
  rw [show n - c + c = n by ext <;> simp, norm_sub_swap] at t2
  have e3 : |n.norm - c.norm| ≤ (c - n).norm := abs_le.2 ⟨by linarith, by linarith⟩
  have := div_le_div_of_nonneg_right e3 hn.le
  rw [e2] at h
  have e4 : (n.norm⁻¹) * (c - n).norm = (c - n).norm / n.norm := by rw [div_eq_inv_mul]
  linarith

/-- the components of a vector are not longer than it -/
theorem within_length (v : V3) : |v.x| ≤ v.norm ∧ |v.y| ≤ v.norm ∧ |v.z| ≤ v.norm := by
  have h := V3.norm_sq v
  have n := V3.norm_nonneg v
  simp only [V3.normSq, V3.dot] at h
  refine ⟨?_, ?_, ?_⟩ <;> refine abs_le_of_sq_le_sq ?_ n <;> nlinarith [sq_nonneg v.x, sq_nonneg v.y, sq_nonneg v.z]

theorem near_length {a e : V3} {d : ℝ} (h : (a - e).norm ≤ d) : a.norm ≤ e.norm + d := by
  have t1 := V3.norm_add_le (a - e) e
  rw [show a - e + e = a by ext <;> simp] at t1
  linarith

theorem cross_change {a b e f : V3} {x y : ℝ} (he : e.norm = 1) (h1 : (a - e).norm ≤ x) (h2 : (b - f).norm ≤ y) : (a.cross b - e.cross f).norm ≤ x * b.norm + y := by
  have e1 : a.cross b - e.cross f = (a - e).cross b + e.cross (b - f) := by ext <;> simp [V3.cross] <;> ring
  have h := V3.norm_add_le ((a - e).cross b) (e.cross (b - f))
  have c1 := cross_le (a - e) b
  have c2 := cross_le e (b - f)
  have := mul_le_mul_of_nonneg_right h1 (V3.norm_nonneg b)
  rw [he, one_mul] at c2
  rw [e1]
  linarith

/-- the matrix with given rows -/
def rowsR (a b c : V3) : Fin 3 → Fin 3 → ℝ := ![![a.x, a.y, a.z], ![b.x, b.y, b.z], ![c.x, c.y, c.z]]

theorem rows_entries (a b c : V3) : DRot.rows (doubles a) (doubles b) (doubles c) = entries (rowsR a b c) := by
  funext i j; fin_cases i <;> fin_cases j <;> rfl

/-- the rows of the basis matrix are near the exact ones -/
theorem basis_near (o : Bool) {a b e f : V3} (he : e.norm = 1) (hf : f.norm = 1) (ha : (a - e).norm ≤ 45 / 10 * DQuat.u) (hb : (b - f).norm ≤ 45 / 10 * DQuat.u) {k : ℝ} (hk : 1 / 2 ^ 20 ≤ k)
    (hs : k ≤ (e.cross f).norm) : ∃ m n : V3, DRot.basis o (doubles a) (doubles b) = entries (rowsR a m n) ∧ (n - unitAlong (e.cross f)).norm ≤ 29 * DQuat.u / k ∧
      (m - (unitAlong (e.cross f)).cross e).norm ≤ 37 * DQuat.u / k := by
  have u0 := DQuat.u_pos
  have us := DQuat.u_small
  have t0 := DQuat.t_pos
  have tu := DRot.t_u
  norm_num at tu
  have k0 : 0 < k := lt_of_lt_of_le (by norm_num) hk
  have k1 : k ≤ 1 := by
    have := cross_le e f
    rw [he, hf, one_mul] at this; linarith
  have na := near_length ha
  have nb := near_length hb
  rw [he] at na
  rw [hf] at nb
  have an := V3.norm_nonneg a
  have bn := V3.norm_nonneg b
  have sa : Bounded 249 a := norm_le_two_bounded (by linarith)
  have sb : Bounded 249 b := norm_le_two_bounded (by linarith)
  have ec : (doubles a).cross (doubles b) = doubles (cross3 a b) := (cross_doubles (by norm_num) sa sb).1
  have c1 := cross3_near a b
  have c2 := cross_change he ha hb
  have c3 := V3.norm_add_le (cross3 a b - a.cross b) (a.cross b - e.cross f)
  rw [show cross3 a b - a.cross b + (a.cross b - e.cross f) = cross3 a b - e.cross f by ext <;> simp] at c3
  have ab : a.norm * b.norm ≤ 101 / 100 := by nlinarith
  have uab := mul_le_mul_of_nonneg_left ab u0.le
  have ub := mul_le_mul_of_nonneg_left (show b.norm ≤ 101 / 100 by linarith) u0.le
  have c4 : (cross3 a b - e.cross f).norm ≤ 12 * DQuat.u := by linarith
  have p0 : 0 < (e.cross f).norm := k0.trans_le hs
  have low : 1 / 2 ^ 40 ≤ (cross3 a b).norm := by
    have := near_length (a := e.cross f) (e := cross3 a b) (d := 12 * DQuat.u) (by rw [norm_sub_swap]; exact c4)
    norm_num at hk ⊢; linarith
  have up : (cross3 a b).norm ≤ 2 := by
    have := near_length c4
    have := cross_le e f
    rw [he, hf, one_mul] at this; linarith
  have wi : Within (cross3 a b) := by
    obtain ⟨b1, b2, b3⟩ := within_length (cross3 a b)
    have p : (2 : ℝ) ≤ 2 ^ 499 := by simpa using pow_le_pow_right₀ (one_le_two : (1 : ℝ) ≤ 2) (by norm_num : 1 ≤ 499)
    exact ⟨⟨rnd_representable _, (b1.trans up).trans p⟩, ⟨rnd_representable _, (b2.trans up).trans p⟩, ⟨rnd_representable _, (b3.trans up).trans p⟩⟩
  obtain ⟨n, hn, n1⟩ := normalized_along o wi low
  have q0 : 0 < (cross3 a b).norm := lt_of_lt_of_le (by norm_num) low
  have l1 := unit_along_near p0 q0
  have l2 : (cross3 a b - e.cross f).norm / (e.cross f).norm ≤ 12 * DQuat.u / k := div_le_div₀ (by positivity) c4 k0 hs
  have n2 := V3.norm_add_le (n - unitAlong (cross3 a b)) (unitAlong (cross3 a b) - unitAlong (e.cross f))
  rw [show n - unitAlong (cross3 a b) + (unitAlong (cross3 a b) - unitAlong (e.cross f)) = n - unitAlong (e.cross f) by ext <;> simp] at n2
  have uk : DQuat.u ≤ DQuat.u / k := by rw [le_div_iff₀ k0]; nlinarith
  have n3 : (n - unitAlong (e.cross f)).norm ≤ 285 / 10 * (DQuat.u / k) := by
    rw [mul_div_assoc] at l2; linarith
  have uks : DQuat.u / k ≤ 1 / 10 ^ 8 := by
    rw [div_le_iff₀ k0]; norm_num at hk ⊢; linarith
  have nn := near_length n3
  have nN := norm_along p0
  rw [nN] at nn
  have sn : Bounded 249 n := norm_le_two_bounded (by linarith)
  have em : (doubles n).cross (doubles a) = doubles (cross3 n a) := (cross_doubles (by norm_num) sn sa).1
  refine ⟨cross3 n a, n, ?_, ?_, ?_⟩
  · rw [← rows_entries]
    simp only [DRot.basis, ec, hn, em]
  · rw [mul_div_assoc]; linarith [div_pos u0 k0]
  · have m1 := cross3_near n a
    have m2 := cross_change (e := unitAlong (e.cross f)) nN n3 ha
    have m3 := V3.norm_add_le (cross3 n a - n.cross a) (n.cross a - (unitAlong (e.cross f)).cross e)
    rw [show cross3 n a - n.cross a + (n.cross a - (unitAlong (e.cross f)).cross e) = cross3 n a - (unitAlong (e.cross f)).cross e by ext <;> simp] at m3
    have nnn := V3.norm_nonneg n
    have na' : n.norm * a.norm ≤ 101 / 100 := by
      refine (mul_le_mul (show n.norm ≤ 1 + 1 / 10 ^ 3 by linarith) (show a.norm ≤ 1 + 1 / 10 ^ 3 by linarith) an (by norm_num)).trans (by norm_num)
    have una := mul_le_mul_of_nonneg_left na' u0.le
    have ua := mul_le_mul_of_nonneg_left (show a.norm ≤ 1 + 1 / 10 ^ 10 by linarith) (div_pos u0 k0).le
    rw [mul_div_assoc]
    linarith

end Verif.Props
