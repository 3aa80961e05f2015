import Verif.Model.DoubleEuler
import Verif.Spec.DoubleEuler

/-! Lemmas for `Props/DoubleEuler.lean` -/

namespace Verif.Props

open Verif Verif.Spec Verif.Double

theorem e51 : (2 : ℝ) ^ (-51 : ℤ) = 4 * DQuat.u := by unfold DQuat.u; rw [zpow_neg]; norm_num
theorem e52 : (2 : ℝ) ^ (-52 : ℤ) = 2 * DQuat.u := by unfold DQuat.u; rw [zpow_neg]; norm_num

/-- adding the π of the format to an angle -/
theorem flip_near {r k : ℝ} (h : |r| ≤ k) (hk : k ≤ piD) : |rnd (r + piD) - (r + Real.pi)| ≤ 6 * DQuat.u := by
  have p : |piD - Real.pi| ≤ 2 ^ (-52 : ℤ) ∧ piD ≤ Real.pi := piD_near
  have pl := Real.pi_lt_d2
  have h8 : |r + piD| ≤ 2 ^ (3 : ℤ) := by
    have a := abs_le.1 (h.trans hk)
    have : (2 : ℝ) ^ (3 : ℤ) = 8 := by norm_num
    rw [this]
    exact abs_le.2 ⟨by linarith, by linarith [p.2]⟩
  have e := DRot.half (by norm_num) h8
  rw [show (3 : ℤ) - 54 = -51 by norm_num, e51] at e
  have f := p.1
  rw [e52] at f
  have := abs_sub_le (rnd (r + piD)) (r + piD) (r + Real.pi)
  rw [show r + piD - (r + Real.pi) = piD - Real.pi by ring] at this
  linarith

theorem cos_flip {r r' e : ℝ} (h : |r' - (r + Real.pi)| ≤ e) : |Real.cos r' + Real.cos r| ≤ e ∧ |Real.sin r' + Real.sin r| ≤ e := by
  have c := (Real.abs_cos_sub_cos_le r' (r + Real.pi)).trans h
  have s := (Real.abs_sin_sub_sin_le r' (r + Real.pi)).trans h
  rw [Real.cos_add_pi, sub_neg_eq_add] at c
  rw [Real.sin_add_pi, sub_neg_eq_add] at s
  exact ⟨c, s⟩

theorem add_pi_fin {r : ℝ} (h : |r| ≤ piD) : (F64.fin r).add DAngle.pi = .fin (rnd (r + piD)) := by
  have b : (8 : ℝ) ≤ 2 ^ 500 := (by norm_num : (8 : ℝ) ≤ 2 ^ 3).trans (pow_le_pow_right₀ one_le_two (by norm_num))
  have p : |piD - Real.pi| ≤ 2 ^ (-52 : ℤ) ∧ piD ≤ Real.pi := piD_near
  have pl := Real.pi_lt_d2
  have p0 : (0 : ℝ) ≤ piD := by unfold piD; positivity
  exact (DVec.add_fin2 (n := 500) (by norm_num) (h.trans (le_trans (by linarith [p.2]) b)) (by show |piD| ≤ _; rw [abs_of_nonneg p0]; exact le_trans (by linarith [p.2]) b)).1

theorem half_turn_one {h x c c' k : ℝ} (h0 : 0 ≤ h) (h1 : |x - h * c| ≤ 4 * DQuat.u * h) (h2 : |c' + c| ≤ k * DQuat.u) : |x - -1 * h * c'| ≤ (4 + k) * DQuat.u * h := by
  have e : x - -1 * h * c' = (x - h * c) + h * (c' + c) := by ring
  rw [e]
  refine (abs_add_le _ _).trans ?_
  rw [abs_mul, abs_of_nonneg h0]
  have := mul_le_mul_of_nonneg_left h2 h0
  linarith

/-- the angles that are returned -/
theorem adjusted_near {asin : ℝ → ℝ} (hs : ArcSine asin) {atan2 : F64 ℝ → F64 ℝ → F64 ℝ} (ha : ArcTangent atan2) {a b t c d : ℝ} (ht : |t| ≤ 1) (hab : √(a ^ 2 + b ^ 2) ≤ 3 / 2)
    (hcd : √(c ^ 2 + d ^ 2) ≤ 3 / 2) :
    ∃ φ θ ψ, DEuler.adjusted (atan2 (.fin a) (.fin b)) (arcSin asin (.fin t)) (atan2 (.fin c) (.fin d)) = ⟨⟨.fin φ, .radian⟩, ⟨.fin θ, .radian⟩, ⟨.fin ψ, .radian⟩, .zyx⟩ ∧ 0 ≤ φ ∧ φ ≤ piD ∧
      Tells (15 / 2 ^ 53) φ θ ψ a b t c d := by
  have u0 := DQuat.u_pos
  have us := DQuat.u_small
  obtain ⟨r, er, rr, rb, rc, rs⟩ := ha a b
  obtain ⟨p, ep, rp, pb, pc, ps⟩ := ha c d
  obtain ⟨-, sb, sn⟩ := hs t ht
  have pi : |piD - Real.pi| ≤ 2 ^ (-52 : ℤ) ∧ piD ≤ Real.pi := piD_near
  rw [e51] at rc rs pc ps
  rw [e52] at sn
  have et : arcSin asin (.fin t) = .fin (asin t) := by simp [arcSin, F64.abs, F64.le, ht, libm]
  have st : |t - Real.sin (asin t)| ≤ 2 * DQuat.u := by
    have := (Real.abs_sin_sub_sin_le (asin t) (Real.arcsin t)).trans sn
    rw [Real.sin_arcsin (abs_le.1 ht).1 (abs_le.1 ht).2] at this
    rwa [abs_sub_comm]
  have ct : 0 ≤ Real.cos (asin t) := by
    refine Real.cos_nonneg_of_neg_pi_div_two_le_of_le ?_ ?_ <;> linarith [(abs_le.1 sb).1, (abs_le.1 sb).2, pi.2]
  have h0 := Real.sqrt_nonneg (a ^ 2 + b ^ 2)
  have k0 := Real.sqrt_nonneg (c ^ 2 + d ^ 2)
  rw [e53 15]
  have p0 : (0 : ℝ) ≤ piD := by unfold piD; positivity
  rw [er, ep, et, DEuler.adjusted]
  by_cases neg : r < 0
  · have sb' : |(-asin t)| ≤ piD := by rw [abs_neg]; linarith
    have lt : (F64.fin r).lt (.fin 0) = true := decide_eq_true neg
    have es : (DAngle.pi : F64 ℝ).sub (.fin (asin t)) = .fin (rnd (-asin t + piD)) := by
      rw [← add_pi_fin sb']
      simp only [F64.sub, F64.neg, DAngle.pi, F64.add]
      congr 1
      ring
    rw [if_pos lt, add_pi_fin rb, add_pi_fin pb, es]
    obtain ⟨c1, s1⟩ := cos_flip (flip_near rb le_rfl)
    obtain ⟨c2, s2⟩ := cos_flip (flip_near sb' le_rfl)
    obtain ⟨c3, s3⟩ := cos_flip (flip_near pb le_rfl)
    rw [Real.cos_neg] at c2
    rw [Real.sin_neg] at s2
    refine ⟨_, _, _, rfl, le_rnd representable_zero (by linarith [(abs_le.1 rb).1]), rnd_le piD_representable (by linarith), -1, Or.inr rfl, ?_, ?_, ?_, ?_, ?_, ?_⟩
    · exact (half_turn_one h0 rc c1).trans (by nlinarith)
    · exact (half_turn_one h0 rs s1).trans (by nlinarith)
    · have := abs_sub_le t (Real.sin (asin t)) (Real.sin (rnd (-asin t + piD)))
      rw [abs_sub_comm (Real.sin (asin t))] at this
      have s2' : |Real.sin (rnd (-asin t + piD)) - Real.sin (asin t)| ≤ 6 * DQuat.u := by rwa [sub_eq_add_neg]
      linarith
    · have := (abs_le.1 c2).2
      linarith
    · exact (half_turn_one k0 pc c3).trans (by nlinarith)
    · exact (half_turn_one k0 ps s3).trans (by nlinarith)
  · have lt : (F64.fin r).lt (.fin 0) = false := decide_eq_false neg
    rw [lt, if_neg Bool.false_ne_true]
    refine ⟨_, _, _, rfl, not_lt.1 neg, (abs_le.1 rb).2, 1, Or.inl rfl, ?_, ?_, ?_, ?_, ?_, ?_⟩
    · rw [one_mul]; exact rc.trans (by nlinarith)
    · rw [one_mul]; exact rs.trans (by nlinarith)
    · linarith
    · linarith
    · rw [one_mul]; exact pc.trans (by nlinarith)
    · rw [one_mul]; exact ps.trans (by nlinarith)

/-- outside of -1 to 1 there is no second angle -/
theorem adjusted_nan {asin : ℝ → ℝ} (x y : F64 ℝ) {t : ℝ} (ht : 1 < |t|) : (DEuler.adjusted x (arcSin asin (.fin t)) y).theta.value = .nan ∧
    (DEuler.adjusted x (arcSin asin (.fin t)) y).isDefined = false := by
  have et : arcSin asin (.fin t) = .nan := by
    have : ¬ |t| ≤ 1 := not_le.2 ht
    simp [arcSin, F64.abs, F64.le, this]
  have v : (DEuler.adjusted x (arcSin asin (.fin t)) y).theta.value = .nan := by
    rw [et, DEuler.adjusted]
    split <;> rfl
  refine ⟨v, ?_⟩
  have : (DEuler.adjusted x (arcSin asin (.fin t)) y).theta.isDefined = false := by simp [DAngle.isDefined, v]
  simp [DEuler.isDefined, this]

/-- a signed sum of four products, computed from the left -/
theorem sum4_rel {a b c d N : ℝ} (h : |a| + |b| + |c| + |d| ≤ N) (hN : 1 / 2 ≤ N) :
    |DT3.sum4 .left (rnd a) (rnd b) (rnd c) (rnd d) - (a + b + c + d)| ≤ 41 / 10 * DQuat.u * N := by
  have u0 := DQuat.u_pos
  have us := DQuat.u_small
  have t0 := DQuat.t_pos
  have tu := DRot.t_u
  have na := DRot.near1 a
  have nb := DRot.near1 b
  have nc := DRot.near1 c
  have nd := DRot.near1 d
  set A := rnd a
  set B := rnd b
  set C := rnd c
  set D := rnd d
  have n1 := DRot.near1 (A + B)
  set E := rnd (A + B)
  have n2 := DRot.near1 (E + C)
  set F := rnd (E + C)
  have n3 := DRot.near1 (F + D)
  have tw : ∀ {x y k : ℝ}, |x - y| ≤ k → |x| ≤ |y| + k := fun {x y k} h => by
    have := abs_sub_abs_le_abs_sub x y
    linarith
  have la := tw na
  have lb := tw nb
  have lc := tw nc
  have ld := tw nd
  have l1 := abs_add_le A B
  have l1' := tw n1
  have l2 := abs_add_le E C
  have l2' := tw n2
  have l3 := abs_add_le F D
  have a0 := abs_nonneg a
  have b0 := abs_nonneg b
  have c0 := abs_nonneg c
  have d0 := abs_nonneg d
  set a' := |a|
  set b' := |b|
  set c' := |c|
  set d' := |d|
  have ut : DQuat.u * DQuat.t ≤ DQuat.t := by nlinarith
  have uu : DQuat.u * DQuat.u ≤ DQuat.u / 10 ^ 15 := by nlinarith
  have g1 : |A + B| ≤ 1001 / 1000 * N := by nlinarith
  have g2 : |E + C| ≤ 1001 / 1000 * N := by nlinarith
  have g3 : |F + D| ≤ 1001 / 1000 * N := by nlinarith
  have m1 := mul_le_mul_of_nonneg_left g1 u0.le
  have m2 := mul_le_mul_of_nonneg_left g2 u0.le
  have m3 := mul_le_mul_of_nonneg_left g3 u0.le
  have m0 := mul_le_mul_of_nonneg_left h u0.le
  have mN := mul_le_mul_of_nonneg_left hN u0.le
  show |rnd (F + D) - _| ≤ _
  have e : rnd (F + D) - (a + b + c + d) = (rnd (F + D) - (F + D)) + (F - (E + C)) + (E - (A + B)) + ((A - a) + (B - b) + (C - c) + (D - d)) := by ring
  rw [e]
  have q1 := abs_le.1 na
  have q2 := abs_le.1 nb
  have q3 := abs_le.1 nc
  have q4 := abs_le.1 nd
  have q5 := abs_le.1 n1
  have q6 := abs_le.1 n2
  have q7 := abs_le.1 n3
  norm_num at tu
  refine abs_le.2 ⟨?_, ?_⟩ <;> linarith [q1.1, q1.2, q2.1, q2.2, q3.1, q3.2, q4.1, q4.2, q5.1, q5.2, q6.1, q6.2, q7.1, q7.2]

/-- twice a signed sum of two products -/
theorem off_rel {a b c d N : ℝ} (h : 2 * |a * b| + 2 * |c * d| ≤ N) (hN : 1 / 2 ≤ N) : |DRot.off a b c d - 2 * (a * b + c * d)| ≤ 41 / 10 * DQuat.u * N := by
  have u0 := DQuat.u_pos
  have us := DQuat.u_small
  have t0 := DQuat.t_pos
  have tu := DRot.t_u
  have na := DRot.near1 (a * b)
  have nc := DRot.near1 (c * d)
  rw [DRot.off]
  set A := rnd (a * b)
  set C := rnd (c * d)
  have n1 := DRot.near1 (A + C)
  have tw : ∀ {x y k : ℝ}, |x - y| ≤ k → |x| ≤ |y| + k := fun {x y k} h => by
    have := abs_sub_abs_le_abs_sub x y
    linarith
  have la := tw na
  have lc := tw nc
  have l1 := abs_add_le A C
  have a0 := abs_nonneg (a * b)
  have c0 := abs_nonneg (c * d)
  set a' := |a * b|
  set c' := |c * d|
  have ut : DQuat.u * DQuat.t ≤ DQuat.t := by nlinarith
  have uu : DQuat.u * DQuat.u ≤ DQuat.u / 10 ^ 15 := by nlinarith
  have g1 : |A + C| ≤ 1001 / 1000 * (N / 2) := by nlinarith
  have m1 := mul_le_mul_of_nonneg_left g1 u0.le
  have m0 := mul_le_mul_of_nonneg_left h u0.le
  have mN := mul_le_mul_of_nonneg_left hN u0.le
  have q1 := abs_le.1 na
  have q3 := abs_le.1 nc
  have q5 := abs_le.1 n1
  norm_num at tu
  refine abs_le.2 ⟨?_, ?_⟩ <;> linarith [q1.1, q1.2, q3.1, q3.2, q5.1, q5.2]

theorem hypot_near {a b A B δ : ℝ} (ha : |a - A| ≤ δ) (hb : |b - B| ≤ δ) : |√(a ^ 2 + b ^ 2) - √(A ^ 2 + B ^ 2)| ≤ 2 * δ := by
  have na : ‖(⟨b, a⟩ : ℂ)‖ = √(a ^ 2 + b ^ 2) := by rw [Complex.norm_def, Complex.normSq_mk]; congr 1; ring
  have nA : ‖(⟨B, A⟩ : ℂ)‖ = √(A ^ 2 + B ^ 2) := by rw [Complex.norm_def, Complex.normSq_mk]; congr 1; ring
  rw [← na, ← nA]
  refine (abs_norm_sub_norm_le _ _).trans ?_
  refine (Complex.norm_le_abs_re_add_abs_im _).trans ?_
  simp only [Complex.sub_re, Complex.sub_im]
  linarith

theorem tells_shift {e δ φ θ ψ a b t c d A B T C D : ℝ} (h : Tells e φ θ ψ a b t c d) (d0 : 0 ≤ δ) (ha : |a - A| ≤ δ) (hb : |b - B| ≤ δ) (ht : |t - T| ≤ δ) (hc : |c - C| ≤ δ) (hd : |d - D| ≤ δ) :
    Tells (e + 3 * δ) φ θ ψ A B T C D := by
  obtain ⟨σ, hσ, h1, h2, h3, h4, h5, h6⟩ := h
  have sσ : |σ| = 1 := by rcases hσ with h | h <;> simp [h]
  have n1 := hypot_near ha hb
  have n2 := hypot_near hc hd
  have key : ∀ {x X h H w : ℝ}, |x - X| ≤ δ → |x - σ * h * w| ≤ e → |h - H| ≤ 2 * δ → |w| ≤ 1 → |X - σ * H * w| ≤ e + 3 * δ := fun {x X h H w} p1 p2 p3 p4 => by
    have e : X - σ * H * w = (x - σ * h * w) + -(x - X) + σ * (h - H) * w := by ring
    rw [e]
    have l1 := abs_add_le ((x - σ * h * w) + -(x - X)) (σ * (h - H) * w)
    have l2 := abs_add_le (x - σ * h * w) (-(x - X))
    have l3 : |σ * (h - H) * w| ≤ 2 * δ := by
      rw [abs_mul, abs_mul, sσ, one_mul]
      have := mul_le_mul p3 p4 (abs_nonneg _) (by linarith)
      linarith
    rw [abs_neg] at l2
    linarith
  refine ⟨σ, hσ, key hb h1 n1 (Real.abs_cos_le_one _), key ha h2 n1 (Real.abs_sin_le_one _), ?_, by linarith, key hd h5 n2 (Real.abs_cos_le_one _), key hc h6 n2 (Real.abs_sin_le_one _)⟩
  have := abs_sub_le T t (Real.sin θ)
  rw [abs_sub_comm T t] at this
  linarith

theorem clamp_near {g r : ℝ} (hg : |g| ≤ Real.pi) (hr : r = max (-piD) (min piD (rnd g))) : Representable r ∧ |r| ≤ piD ∧ |r - g| ≤ 2 ^ (-51 : ℤ) := by
  have pi : |piD - Real.pi| ≤ 2 ^ (-52 : ℤ) ∧ piD ≤ Real.pi := piD_near
  have rp : Representable piD := piD_representable
  have p0 : (0 : ℝ) ≤ piD := by unfold piD; positivity
  have u0 := DQuat.u_pos
  have b : |g| ≤ 2 ^ (2 : ℤ) := hg.trans (Real.pi_le_four.trans (by norm_num))
  have e := DRot.half (by norm_num) b
  rw [show (2 : ℤ) - 54 = -52 by norm_num, e52] at e
  have p1 := pi.1
  rw [e52] at p1
  rw [e51]
  obtain ⟨e1, e2⟩ := abs_le.1 e
  obtain ⟨g1, g2⟩ := abs_le.1 hg
  obtain ⟨f1, f2⟩ := abs_le.1 p1
  rcases le_total (rnd g) piD with h1 | h1
  · rw [min_eq_right h1] at hr
    rcases le_total (-piD) (rnd g) with h2 | h2
    · rw [max_eq_right h2] at hr
      rw [hr]
      exact ⟨rnd_representable _, abs_le.2 ⟨h2, h1⟩, by linarith⟩
    · rw [max_eq_left h2] at hr
      rw [hr]
      exact ⟨representable_neg rp, by rw [abs_neg, abs_of_nonneg p0], abs_le.2 ⟨by linarith, by linarith⟩⟩
  · rw [min_eq_left h1, max_eq_right (by linarith)] at hr
    rw [hr]
    exact ⟨rp, by rw [abs_of_nonneg p0], abs_le.2 ⟨by linarith, by linarith⟩⟩

theorem exists_arcTangent : ∃ atan2, ArcTangent atan2 := by
  refine ⟨fun x y => match x, y with
    | .fin a, .fin b => .fin (max (-piD) (min piD (rnd (Complex.arg ⟨b, a⟩))))
    | _, _ => .nan, fun a b => ⟨_, rfl, ?_⟩⟩
  obtain ⟨h1, h2, h3⟩ := clamp_near (g := Complex.arg ⟨b, a⟩) (Complex.abs_arg_le_pi _) rfl
  set r := max (-piD) (min piD (rnd (Complex.arg ⟨b, a⟩)))
  have n : ‖(⟨b, a⟩ : ℂ)‖ = √(a ^ 2 + b ^ 2) := by rw [Complex.norm_def, Complex.normSq_mk]; congr 1; ring
  have c := Complex.norm_mul_cos_arg ⟨b, a⟩
  have s := Complex.norm_mul_sin_arg ⟨b, a⟩
  rw [n] at c s
  simp only at c s
  have h0 := Real.sqrt_nonneg (a ^ 2 + b ^ 2)
  refine ⟨h1, h2, ?_, ?_⟩
  · nth_rewrite 1 [← c]
    rw [← mul_sub, abs_mul, abs_of_nonneg h0, mul_comm, abs_sub_comm]
    exact mul_le_mul_of_nonneg_right ((Real.abs_cos_sub_cos_le _ _).trans h3) h0
  · nth_rewrite 1 [← s]
    rw [← mul_sub, abs_mul, abs_of_nonneg h0, mul_comm, abs_sub_comm]
    exact mul_le_mul_of_nonneg_right ((Real.abs_sin_sub_sin_le _ _).trans h3) h0

theorem exists_arcSine : ∃ asin, ArcSine asin := by
  have rp : Representable (piD / 2) := by
    refine ⟨7074237752028440, -52, by norm_num, by norm_num, ?_⟩
    unfold piD
    norm_num
  have pi : |piD - Real.pi| ≤ 2 ^ (-52 : ℤ) ∧ piD ≤ Real.pi := piD_near
  have p0 : (0 : ℝ) ≤ piD := by unfold piD; positivity
  have u0 := DQuat.u_pos
  have p1 := pi.1
  rw [e52] at p1
  obtain ⟨f1, f2⟩ := abs_le.1 p1
  refine ⟨fun x => max (-(piD / 2)) (min (piD / 2) (rnd (Real.arcsin x))), fun x _ => ?_⟩
  have g1 := Real.neg_pi_div_two_le_arcsin x
  have g2 := Real.arcsin_le_pi_div_two x
  have pl := Real.pi_lt_d2
  have b : |Real.arcsin x| ≤ 2 ^ (1 : ℤ) := by rw [zpow_one]; exact abs_le.2 ⟨by linarith, by linarith⟩
  have e := DRot.half (by norm_num) b
  rw [show (1 : ℤ) - 54 = 0 - 53 by norm_num, DRot.u_zpow, zpow_zero, mul_one] at e
  rw [e52]
  obtain ⟨e1, e2⟩ := abs_le.1 e
  beta_reduce
  rcases le_total (rnd (Real.arcsin x)) (piD / 2) with h1 | h1
  · rw [min_eq_right h1]
    rcases le_total (-(piD / 2)) (rnd (Real.arcsin x)) with h2 | h2
    · rw [max_eq_right h2]
      exact ⟨rnd_representable _, abs_le.2 ⟨h2, h1⟩, by linarith⟩
    · rw [max_eq_left h2]
      exact ⟨representable_neg rp, by rw [abs_neg, abs_of_nonneg (by linarith)], abs_le.2 ⟨by linarith, by linarith⟩⟩
  · rw [min_eq_left h1, max_eq_right (by linarith)]
    exact ⟨rp, by rw [abs_of_nonneg (by linarith)], abs_le.2 ⟨by linarith, by linarith⟩⟩

/-- what the code computes of a quaternion of finite numbers -/
theorem zyx_fin (o : Bool) {eps : F64 ℝ} (asin : ℝ → ℝ) (atan2 : F64 ℝ → F64 ℝ → F64 ℝ) {q : Quat} (hq : Tempered q) (uq : DQuat.isUnitary eps (.of q) = .ok true) :
    DEuler.Quaternion o eps asin atan2 (.of q) .zyx = .ok (DEuler.adjusted
      (atan2 (.fin (DRot.off q.x q.y q.s q.z)) (.fin (DT3.sum4 .left (rnd (q.s * q.s)) (rnd (-q.z * q.z)) (rnd (-q.y * q.y)) (rnd (q.x * q.x)))))
      (arcSin asin (.fin (-DRot.off q.x q.z (-q.y) q.s)))
      (atan2 (.fin (DRot.off q.y q.z q.x q.s)) (.fin (DT3.sum4 .left (rnd (q.s * q.s)) (rnd (q.z * q.z)) (rnd (-q.y * q.y)) (rnd (-q.x * q.x)))))) := by
  obtain ⟨⟨-, hx⟩, ⟨-, hy⟩, ⟨-, hz⟩, ⟨-, hs⟩⟩ := hq
  have nx : |-q.x| ≤ 2 ^ 500 := by rwa [abs_neg]
  have ny : |-q.y| ≤ 2 ^ 500 := by rwa [abs_neg]
  have nz : |-q.z| ≤ 2 ^ 500 := by rwa [abs_neg]
  have s4 : ∀ {a b c d e f g h : ℝ}, |a| ≤ 2 ^ 500 → |b| ≤ 2 ^ 500 → |c| ≤ 2 ^ 500 → |d| ≤ 2 ^ 500 → |e| ≤ 2 ^ 500 → |f| ≤ 2 ^ 500 → |g| ≤ 2 ^ 500 → |h| ≤ 2 ^ 500 →
      ((((F64.fin a).mul (.fin b)).add ((F64.fin c).mul (.fin d))).add ((F64.fin e).mul (.fin f))).add ((F64.fin g).mul (.fin h)) =
        .fin (DT3.sum4 .left (rnd (a * b)) (rnd (c * d)) (rnd (e * f)) (rnd (g * h))) := fun {a b c d e f g h} k1 k2 k3 k4 k5 k6 k7 k8 => by
    obtain ⟨e1, b1⟩ := DVec.mul_fin2 k1 k2
    obtain ⟨e2, b2⟩ := DVec.mul_fin2 k3 k4
    obtain ⟨e3, b3⟩ := DVec.mul_fin2 k5 k6
    obtain ⟨e4, b4⟩ := DVec.mul_fin2 k7 k8
    obtain ⟨e5, b5⟩ := DVec.add_fin2 (n := 1000) (by norm_num) b1 b2
    obtain ⟨e6, b6⟩ := DVec.add_fin2 (n := 1001) (by norm_num) b5 (b3.trans (pow_le_pow_right₀ one_le_two (by norm_num)))
    obtain ⟨e7, -⟩ := DVec.add_fin2 (n := 1002) (by norm_num) b6 (b4.trans (pow_le_pow_right₀ one_le_two (by norm_num)))
    rw [e1, e2, e3, e4, e5, e6, e7]
    rfl
  have m2 : (F64.fin (-2)).mul (((F64.fin q.x).mul (.fin q.z)).sub ((F64.fin q.y).mul (.fin q.s))) = .fin (-DRot.off q.x q.z (-q.y) q.s) := by
    have := DRot.off_fin hx hz ny hs
    rw [DRot.sub_mul_fin]
    obtain ⟨e1, b1⟩ := DVec.mul_fin2 hx hz
    obtain ⟨e2, b2⟩ := DVec.mul_fin2 ny hs
    obtain ⟨e3, b3⟩ := DVec.add_fin2 (n := 1000) (by norm_num) b1 b2
    rw [e1, e2, e3] at this ⊢
    rw [show (F64.fin (-2) : F64 ℝ).mul (.fin (rnd (rnd (q.x * q.z) + rnd (-q.y * q.s)))) = ((F64.fin 2).mul (.fin (rnd (rnd (q.x * q.z) + rnd (-q.y * q.s))))).neg from (DRot.mul_neg_fin 2 _).symm, this]
    rfl
  rw [DEuler.Quaternion, DQuat.of_defined, uq]
  simp only [Bool.not_true, Bool.false_eq_true, if_false, bind, Except.bind]
  simp only [DQuat.of]
  rw [m2, DRot.off_fin hx hy hs hz, DRot.off_fin hy hz hx hs, DRot.sub_mul_fin, DRot.sub_mul_fin, DRot.sub_mul_fin, DRot.sub_mul_fin, s4 hs hs nz hz ny hy hx hx, s4 hs hs hz hz ny hy nx hx]

/-- the computed cosine -/
noncomputable def traceR (o : Bool) (m : Fin 3 → Fin 3 → ℝ) : ℝ := rnd (rnd (DVec.sum3 o (m 0 0) (m 1 1) (m 2 2) - 1) / 2)

theorem trace_fin (o : Bool) {m : Fin 3 → Fin 3 → ℝ} (h : ∀ i j, |m i j| ≤ 5 / 4) :
    ((DVec.sum o (entries m 0 0) (entries m 1 1) (entries m 2 2)).sub (.fin 1)).div (.fin 2) = .fin (traceR o m) ∧ |traceR o m - traceCosine m| ≤ 7 * DQuat.u := by
  have u0 := DQuat.u_pos
  have us := DQuat.u_small
  have tu := DRot.t_u
  have t0 := DQuat.t_pos
  have b : ∀ i j, |m i j| ≤ 2 ^ 1000 := fun i j => ((h i j).trans (by norm_num : (5 : ℝ) / 4 ≤ 2)).trans (le_self_pow₀ one_le_two (by norm_num))
  obtain ⟨p1, p2⟩ := abs_le.1 (h 0 0)
  obtain ⟨q1, q2⟩ := abs_le.1 (h 1 1)
  obtain ⟨r1, r2⟩ := abs_le.1 (h 2 2)
  have s : |DVec.sum3 o (m 0 0) (m 1 1) (m 2 2) - (m 0 0 + m 1 1 + m 2 2)| ≤ 4 * DQuat.u := by
    have hf : ∀ {x : ℝ}, |x| ≤ 4 → |rnd x - x| ≤ 2 * DQuat.u := fun {x} hx => by
      have := DRot.half (by norm_num) (show |x| ≤ 2 ^ (2 : ℤ) by norm_num; exact hx)
      rwa [show (2 : ℤ) - 54 = -52 by norm_num, e52] at this
    cases o
    · have e1 := hf (x := m 0 0 + m 1 1) (abs_le.2 ⟨by linarith, by linarith⟩)
      obtain ⟨f1, f2⟩ := abs_le.1 e1
      have e2 := hf (x := rnd (m 0 0 + m 1 1) + m 2 2) (abs_le.2 ⟨by linarith, by linarith⟩)
      obtain ⟨g1, g2⟩ := abs_le.1 e2
      exact abs_le.2 ⟨by simp only [DVec.sum3, Bool.false_eq_true, if_false]; linarith, by simp only [DVec.sum3, Bool.false_eq_true, if_false]; linarith⟩
    · have e1 := hf (x := m 1 1 + m 2 2) (abs_le.2 ⟨by linarith, by linarith⟩)
      obtain ⟨f1, f2⟩ := abs_le.1 e1
      have e2 := hf (x := m 0 0 + rnd (m 1 1 + m 2 2)) (abs_le.2 ⟨by linarith, by linarith⟩)
      obtain ⟨g1, g2⟩ := abs_le.1 e2
      exact abs_le.2 ⟨by simp only [DVec.sum3, if_true]; linarith, by simp only [DVec.sum3, if_true]; linarith⟩
  obtain ⟨s1, s2⟩ := abs_le.1 s
  obtain ⟨e, -⟩ := DVec.sum_fin o (b 0 0) (b 1 1) (b 2 2)
  have h8 : |DVec.sum3 o (m 0 0) (m 1 1) (m 2 2) - 1| ≤ 5 := abs_le.2 ⟨by linarith, by linarith⟩
  obtain ⟨e1, -, b1⟩ := exact_le8 (h8.trans (by norm_num))
  have n1 := DRot.half (by norm_num) (show |DVec.sum3 o (m 0 0) (m 1 1) (m 2 2) - 1| ≤ 2 ^ (3 : ℤ) by norm_num; linarith)
  rw [show (3 : ℤ) - 54 = -51 by norm_num, e51] at n1
  obtain ⟨d1, d2⟩ := abs_le.1 n1
  obtain ⟨c1, c2⟩ := abs_le.1 h8
  have h4 : |rnd (DVec.sum3 o (m 0 0) (m 1 1) (m 2 2) - 1) / 2| ≤ 26 / 10 := abs_le.2 ⟨by linarith, by linarith⟩
  obtain ⟨e2, -, -⟩ := exact_le8 (h4.trans (by norm_num))
  have n2 := DRot.near1 (rnd (DVec.sum3 o (m 0 0) (m 1 1) (m 2 2) - 1) / 2)
  have n3 : DQuat.u * |rnd (DVec.sum3 o (m 0 0) (m 1 1) (m 2 2) - 1) / 2| ≤ DQuat.u * (26 / 10) := mul_le_mul_of_nonneg_left h4 u0.le
  obtain ⟨g1, g2⟩ := abs_le.1 n2
  constructor
  · simp only [entries]
    rw [e]
    have : (F64.fin (DVec.sum3 o (m 0 0) (m 1 1) (m 2 2))).sub (.fin 1) = .fin (rnd (DVec.sum3 o (m 0 0) (m 1 1) (m 2 2) - 1)) := by
      rw [← e1, sub_eq_add_neg]; rfl
    rw [this]
    simp only [F64.div, two_ne_zero, if_false]
    exact e2
  · rw [traceR, traceCosine]
    exact abs_le.2 ⟨by linarith, by linarith⟩

/-- what the code does once the arc cosine is a number -/
theorem vector_fin (o : Bool) {eps : ℝ} (acos : ℝ → ℝ) {m : Fin 3 → Fin 3 → ℝ} (h : ∀ i j, |m i j| ≤ 5 / 4) (hc : |traceR o m| ≤ 1) :
    DRotVec.RotationMatrix o (.fin eps) acos (entries m) =
      if |acos (traceR o m)| < eps then DRotVec.ctor o (.fin eps) (doubles ⟨1, 0, 0⟩) ⟨.fin (acos (traceR o m)), .radian⟩
      else DRotVec.ctor o (.fin eps) (DVec.normalized o (doubles ⟨rnd (m 1 2 - m 2 1), rnd (m 2 0 - m 0 2), rnd (m 0 1 - m 1 0)⟩)) ⟨.fin (acos (traceR o m)), .radian⟩ := by
  have hd : DRot.isDefined (entries m) = true := entries_defined m
  have b : ∀ i j, |m i j| ≤ 2 ^ 1 := fun i j => (h i j).trans (by norm_num)
  have sb : ∀ i j k l, (entries m i j).sub (entries m k l) = .fin (rnd (m i j - m k l)) := fun i j k l => (DVec.sub_fin2 (by norm_num) (b i j) (b k l)).1
  have ac : arcCos acos (.fin (traceR o m)) = .fin (acos (traceR o m)) := by simp [arcCos, F64.abs, F64.le, libm, hc]
  rw [DRotVec.RotationMatrix, hd, (trace_fin o h).1, ac, sb, sb, sb]
  simp only [Bool.not_true, Bool.false_eq_true, if_false, bind, Except.bind, DAngle.inUnit, DAngle.isDefined, F64.abs, F64.lt]
  by_cases k : |acos (traceR o m)| < eps <;> simp [k, doubles]

/-- a cosine above one, however little, is refused -/
theorem vector_nan (o : Bool) {eps : F64 ℝ} (acos : ℝ → ℝ) {m : Fin 3 → Fin 3 → ℝ} (h : ∀ i j, |m i j| ≤ 5 / 4) (hc : 1 < |traceR o m|) :
    DRotVec.RotationMatrix o eps acos (entries m) = .error .undefined := by
  have hd : DRot.isDefined (entries m) = true := entries_defined m
  have ac : arcCos acos (.fin (traceR o m)) = .nan := by
    have : ¬ |traceR o m| ≤ 1 := not_le.2 hc
    simp [arcCos, F64.abs, F64.le, this]
  rw [DRotVec.RotationMatrix, hd, (trace_fin o h).1, ac]
  simp [DAngle.inUnit, DAngle.isDefined, bind, Except.bind]

theorem dot3_one (o : Bool) (a x : ℝ) : DVec.dot3 o a 0 0 x 0 0 = rnd (a * x) ∧ DVec.dot3 o 0 a 0 0 x 0 = rnd (a * x) ∧ DVec.dot3 o 0 0 a 0 0 x = rnd (a * x) := by
  have e := rnd_exact (rnd_representable (a * x))
  cases o <;> simp [DVec.dot3, DVec.sum3, rnd_zero, e]

end Verif.Props
