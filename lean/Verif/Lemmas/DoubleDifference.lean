import Verif.Model.DoubleDifference
import Verif.Props.DoubleShortest

/-! Lemmas for `Props/DoubleDifference.lean` -/

namespace Verif.Props

open Verif Verif.Spec Verif.Double

theorem normSq_fin {x y z s : ℝ} (hx : |x| ≤ 2 ^ 500) (hy : |y| ≤ 2 ^ 500) (hz : |z| ≤ 2 ^ 500) (hs : |s| ≤ 2 ^ 500) :
    DQuat.normSq ⟨.fin x, .fin y, .fin z, .fin s⟩ = .fin (DQuat.sumSq x y z s) := by
  obtain ⟨e1, b1⟩ := DVec.mul_fin2 hx hx
  obtain ⟨e2, b2⟩ := DVec.mul_fin2 hy hy
  obtain ⟨e3, b3⟩ := DVec.mul_fin2 hz hz
  obtain ⟨e4, b4⟩ := DVec.mul_fin2 hs hs
  obtain ⟨a1, c1⟩ := DVec.add_fin2 (n := 1000) (by norm_num) b1 b2
  obtain ⟨a2, c2⟩ := DVec.add_fin2 (n := 1001) (by norm_num) c1 (b3.trans (pow_le_pow_right₀ one_le_two (by norm_num)))
  obtain ⟨a3, -⟩ := DVec.add_fin2 (n := 1002) (by norm_num) c2 (b4.trans (pow_le_pow_right₀ one_le_two (by norm_num)))
  simp only [DQuat.normSq, e1, e2, e3, e4, a1, a2, a3]
  rfl

/-- the rounded quotient of a component by the sum of squares -/
theorem quotient_by {c n S : ℝ} (S1 : 1 / 4 ≤ S) (h : |n - S| ≤ 42 / 10 * DQuat.u * S) : |rnd (c / n) - c / S| ≤ 53 / 10 * DQuat.u * |c / S| + DQuat.t := by
  have u0 := DQuat.u_pos
  have us := DQuat.u_small
  have h1 := abs_le.1 h
  have n0 : 0 < n := by nlinarith
  have S0 : 0 < S := by linarith
  obtain ⟨d, g, hd, hg, e⟩ := DLinear.rnd_split (c / n)
  have r : |S / n - 1| ≤ 421 / 100 * DQuat.u := by
    rw [div_sub_one n0.ne', abs_div, abs_of_pos n0, div_le_iff₀ n0, abs_sub_comm]
    refine h.trans ?_
    nlinarith
  have e2 : rnd (c / n) - c / S = c / S * ((S / n - 1) + S / n * d) + g := by
    rw [e]; field_simp; ring
  have r2 : |S / n| ≤ 1001 / 1000 := by
    have := abs_sub_abs_le_abs_sub (S / n) 1
    rw [abs_one] at this
    linarith
  have hd' : |d| ≤ DQuat.u := hd
  have hg' : |g| ≤ DQuat.t := hg
  rw [e2]
  refine (abs_add_le _ _).trans (add_le_add ?_ hg')
  rw [abs_mul, mul_comm]
  refine mul_le_mul_of_nonneg_right ?_ (abs_nonneg _)
  refine (abs_add_le _ _).trans ?_
  rw [abs_mul]
  have : |S / n| * |d| ≤ 1001 / 1000 * DQuat.u := mul_le_mul r2 hd' (abs_nonneg _) (by norm_num)
  linarith

theorem hamilton_inv (q : Quat) {S : ℝ} (hS : S = q.x * q.x + q.y * q.y + q.z * q.z + q.s * q.s) :
    (hamilton q)⁻¹ = hamilton ⟨-q.x / S, -q.y / S, -q.z / S, q.s / S⟩ := by
  have n : Quaternion.normSq (hamilton q) = S := by
    rw [Quaternion.normSq_def', hS]
    simp only [hamilton]; ring
  have e : (hamilton q)⁻¹ = S⁻¹ • hamilton ⟨-q.x, -q.y, -q.z, q.s⟩ := by
    rw [← n]
    show (Quaternion.normSq (hamilton q))⁻¹ • star (hamilton q) = _
    congr 1
    ext <;> simp only [Quaternion.re_star, Quaternion.imI_star, Quaternion.imJ_star, Quaternion.imK_star] <;> rfl
  rw [e, hamilton_smul]
  simp only [div_eq_inv_mul]

theorem four_rel_near {a b : Quat} {k τ : ℝ} (k0 : 0 ≤ k) (t0 : 0 ≤ τ) (hx : |a.x - b.x| ≤ k * |b.x| + τ) (hy : |a.y - b.y| ≤ k * |b.y| + τ) (hz : |a.z - b.z| ≤ k * |b.z| + τ)
    (hs : |a.s - b.s| ≤ k * |b.s| + τ) : ‖hamilton a - hamilton b‖ ≤ k * ‖hamilton b‖ + 2 * τ := by
  rw [hamilton_sub]
  refine (hamilton_mono (e := ⟨k * |b.x| + τ, k * |b.y| + τ, k * |b.z| + τ, k * |b.s| + τ⟩) hx hy hz hs).trans ?_
  have e : hamilton ⟨k * |b.x| + τ, k * |b.y| + τ, k * |b.z| + τ, k * |b.s| + τ⟩ = k • hamilton ⟨|b.x|, |b.y|, |b.z|, |b.s|⟩ + hamilton ⟨τ, τ, τ, τ⟩ := by
    rw [hamilton_smul, hamilton_add]
  have e3 : ‖hamilton ⟨τ, τ, τ, τ⟩‖ = 2 * τ := norm_eq_of (by positivity) (by ring)
  rw [e]
  refine (norm_add_le _ _).trans ?_
  rw [e3, norm_smul, Real.norm_of_nonneg k0, hamilton_abs]

theorem inverse_near {q : Quat} (hq : Tempered q) (h1 : 1 / 2 ≤ ‖hamilton q‖) (h2 : ‖hamilton q‖ ≤ 2) {e : ℝ} (he : e ≤ 1 / 5) :
    ∃ r, DQuat.toInverse (.fin e) (.of q) = .ok (.of r) ∧ ‖hamilton r - (hamilton q)⁻¹‖ ≤ 53 / 10 * DQuat.u * ‖(hamilton q)⁻¹‖ + 2 * DQuat.t := by
  have u0 := DQuat.u_pos
  have us := DQuat.u_small
  have t0 := DQuat.t_pos
  have tu := DRot.t_u
  obtain ⟨⟨-, hx⟩, ⟨-, hy⟩, ⟨-, hz⟩, ⟨-, hs⟩⟩ := hq
  set S := q.x * q.x + q.y * q.y + q.z * q.z + q.s * q.s with hS
  have S1 : 1 / 4 ≤ S := by rw [hS, norm_sq]; nlinarith
  have S2 : S ≤ 4 := by rw [hS, norm_sq]; nlinarith [norm_nonneg (hamilton q)]
  have near := DQuat.sumSq_near q.x q.y q.z q.s
  rw [← hS] at near
  have near' : |DQuat.sumSq q.x q.y q.z q.s - S| ≤ 42 / 10 * DQuat.u * S := by nlinarith
  set n := DQuat.sumSq q.x q.y q.z q.s with hn
  have n1 := abs_le.1 near'
  have n2 : 6 / 25 ≤ n := by nlinarith
  have n0 : 0 < n := by linarith
  have fin : DQuat.normSq (.of q) = .fin n := normSq_fin hx hy hz hs
  have comp := DQuat.component_le q
  have big : ∀ {c : ℝ}, |c| ≤ ‖hamilton q‖ → (F64.fin c).div (.fin n) = .fin (rnd (c / n)) := by
    intro c hc
    have k : |c / n| ≤ 2 ^ 500 := by
      rw [abs_div, abs_of_pos n0, div_le_iff₀ n0]
      have : (100 : ℝ) ≤ 2 ^ 500 := (show (100 : ℝ) ≤ 2 ^ 7 by norm_num).trans (pow_le_pow_right₀ one_le_two (by norm_num))
      have : 100 * (6 / 25) ≤ 2 ^ 500 * n := mul_le_mul this n2 (by norm_num) (by positivity)
      exact (hc.trans h2).trans ((by norm_num : (2 : ℝ) ≤ 100 * (6 / 25)).trans this)
    have k2 : |rnd (c / n)| ≤ 2 ^ 500 := DLinear.rnd_abs_le (DQuat.rep_two 500) k
    rw [F64.div, if_neg n0.ne']
    exact F64.ofExact_fin (lt_of_le_of_lt k2 (pow_lt_pow_right₀ one_lt_two (by norm_num)))
  refine ⟨⟨rnd (-q.x / n), rnd (-q.y / n), rnd (-q.z / n), rnd (q.s / n)⟩, ?_, ?_⟩
  · rw [DQuat.toInverse, DQuat.of_defined, fin]
    have : ¬ n < e := by linarith
    simp only [Bool.not_true, Bool.false_eq_true, if_false, F64.abs, F64.lt, abs_of_pos n0, this, decide_false]
    simp only [DQuat.of, F64.neg]
    rw [big (by rw [abs_neg]; exact comp.1), big (by rw [abs_neg]; exact comp.2.1), big (by rw [abs_neg]; exact comp.2.2.1), big comp.2.2.2]
  · rw [hamilton_inv q hS]
    exact four_rel_near (by positivity) t0.le (quotient_by S1 near') (quotient_by S1 near') (quotient_by S1 near') (quotient_by S1 near')

theorem divide_near (o : Bool) {p q : Quat} (hq : Tempered q) (p1 : 1 / 2 ≤ ‖hamilton p‖) (p2 : ‖hamilton p‖ ≤ 2) (q1 : 1 / 2 ≤ ‖hamilton q‖) (q2 : ‖hamilton q‖ ≤ 2)
    {e : ℝ} (he : e ≤ 1 / 5) :
    ∃ w, DQuat.divide o (.fin e) (.of p) (.of q) = .ok (.of w) ∧ Tempered w ∧ ‖hamilton w - (hamilton q)⁻¹ * hamilton p‖ ≤ 136 / 10 * DQuat.u * (‖hamilton p‖ / ‖hamilton q‖) := by
  have u0 := DQuat.u_pos
  have us := DQuat.u_small
  have t0 := DQuat.t_pos
  have tu := DRot.t_u
  obtain ⟨r, er, dr⟩ := inverse_near hq q1 q2 he
  have Q0 : 0 < ‖hamilton q‖ := by linarith
  have ni : ‖(hamilton q)⁻¹‖ = 1 / ‖hamilton q‖ := by rw [norm_inv, one_div]
  have i1 : 1 / 2 ≤ 1 / ‖hamilton q‖ := one_div_le_one_div_of_le Q0 q2
  have i2 : 1 / ‖hamilton q‖ ≤ 2 := by rw [div_le_iff₀ Q0]; linarith
  rw [ni] at dr
  set I := 1 / ‖hamilton q‖ with hI
  have nr : ‖hamilton r‖ ≤ 1001 / 1000 * I := by
    have := norm_sub_norm_le (hamilton r) (hamilton q)⁻¹
    rw [ni] at this
    nlinarith
  have one5 : (100 : ℝ) ≤ 2 ^ 500 := (show (100 : ℝ) ≤ 2 ^ 7 by norm_num).trans (pow_le_pow_right₀ one_le_two (by norm_num))
  have pf := DQuat.product_fin o (p := p) (q := r) ((by linarith : _ ≤ (100 : ℝ)).trans one5) ((by linarith : _ ≤ (100 : ℝ)).trans one5)
  have pn := DQuat.prod_near o p r
  have P0 : 0 < ‖hamilton p‖ := by linarith
  have PI : ‖hamilton p‖ / ‖hamilton q‖ = ‖hamilton p‖ * I := by rw [hI, mul_one_div]
  have near : ‖hamilton (DQuat.prod o p r) - (hamilton q)⁻¹ * hamilton p‖ ≤ 136 / 10 * DQuat.u * (‖hamilton p‖ / ‖hamilton q‖) := by
    have i := norm_sub_le_norm_sub_add_norm_sub (hamilton (DQuat.prod o p r)) (hamilton r * hamilton p) ((hamilton q)⁻¹ * hamilton p)
    rw [← sub_mul, norm_mul] at i
    have j : ‖hamilton r - (hamilton q)⁻¹‖ * ‖hamilton p‖ ≤ (53 / 10 * DQuat.u * I + 2 * DQuat.t) * ‖hamilton p‖ := mul_le_mul_of_nonneg_right dr P0.le
    have k : 82 / 10 * DQuat.u * (‖hamilton p‖ * ‖hamilton r‖) ≤ 82 / 10 * DQuat.u * (‖hamilton p‖ * (1001 / 1000 * I)) :=
      mul_le_mul_of_nonneg_left (mul_le_mul_of_nonneg_left nr P0.le) (by positivity)
    have m : DQuat.t * ‖hamilton p‖ ≤ DQuat.t * 2 := mul_le_mul_of_nonneg_left p2 t0.le
    have l : 1 / 4 ≤ ‖hamilton p‖ * I := by nlinarith
    have l2 : DQuat.u * (1 / 4) ≤ DQuat.u * (‖hamilton p‖ * I) := mul_le_mul_of_nonneg_left l u0.le
    rw [PI]
    norm_num at tu
    linarith
  refine ⟨DQuat.prod o p r, ?_, ?_, near⟩
  · obtain ⟨⟨rx, hx⟩, ⟨ry, hy⟩, ⟨rz, hz⟩, ⟨rs, hs⟩⟩ := hq
    have nn : DQuat.norm (.of q) = .ok (.fin (DQuat.nrm q.x q.y q.z q.s)) := DQuat.norm_fin hx hy hz hs
    have S : 2 ^ (-400 : ℤ) ≤ q.x * q.x + q.y * q.y + q.z * q.z + q.s * q.s := by
      rw [norm_sq]
      refine (zpow_le_zpow_right₀ one_le_two (show (-400 : ℤ) ≤ -2 by norm_num)).trans ?_
      norm_num
      nlinarith
    have nq := DQuat.nrm_near S
    rw [norm_sqrt] at nq
    have nq1 := abs_le.1 nq
    have nlt : ¬ DQuat.nrm q.x q.y q.z q.s < e := by nlinarith
    rw [DQuat.divide, nn]
    simp only [bind, Except.bind, F64.lt, nlt, decide_false, Bool.false_eq_true, if_false, er]
    exact pf
  · have nw : ‖hamilton (DQuat.prod o p r)‖ ≤ 100 := by
      have := norm_sub_norm_le (hamilton (DQuat.prod o p r)) ((hamilton q)⁻¹ * hamilton p)
      rw [norm_mul, ni] at this
      rw [PI] at near
      have : I * ‖hamilton p‖ ≤ 2 * 2 := mul_le_mul i2 p2 P0.le (by norm_num)
      nlinarith
    obtain ⟨c1, c2, c3, c4⟩ := DQuat.component_le (DQuat.prod o p r)
    exact ⟨⟨rnd_representable _, (c1.trans nw).trans one5⟩, ⟨rnd_representable _, (c2.trans nw).trans one5⟩, ⟨rnd_representable _, (c3.trans nw).trans one5⟩, ⟨rnd_representable _, (c4.trans nw).trans one5⟩⟩

/-- cosines that are near belong to angles that are near -/
theorem angle_of_cos {a b d : ℝ} (ha : 0 ≤ a) (ha' : a ≤ Real.pi) (hb : 0 ≤ b) (hb' : b ≤ Real.pi) (h : |Real.cos a - Real.cos b| ≤ d) : (a - b) ^ 2 ≤ 8 * d := by
  wlog hab : b ≤ a generalizing a b
  · rw [show (a - b) ^ 2 = (b - a) ^ 2 by ring]; exact this hb hb' ha ha' (by rwa [abs_sub_comm]) (not_le.1 hab).le
  have d0 : 0 ≤ a - b := by linarith
  have e : Real.cos b - Real.cos a = 2 * Real.sin ((a + b) / 2) * Real.sin ((a - b) / 2) := by
    have := Real.cos_sub_cos b a
    rw [this, show (b - a) / 2 = -((a - b) / 2) by ring, Real.sin_neg, show (b + a) / 2 = (a + b) / 2 by ring]; ring
  have pi0 := Real.pi_pos
  have s1 : 2 / Real.pi * ((a - b) / 2) ≤ Real.sin ((a - b) / 2) := Real.mul_le_sin (by linarith) (by linarith)
  have s2 : Real.sin ((a - b) / 2) ≤ Real.sin ((a + b) / 2) := by
    rcases le_total ((a + b) / 2) (Real.pi / 2) with hc | hc
    · exact Real.sin_le_sin_of_le_of_le_pi_div_two (by linarith) hc (by linarith)
    · rw [← Real.sin_pi_sub ((a + b) / 2)]
      exact Real.sin_le_sin_of_le_of_le_pi_div_two (by linarith) (by linarith) (by linarith)
  have h1 := (abs_le.1 h).1
  have s3 : (a - b) / 4 ≤ 2 / Real.pi * ((a - b) / 2) := by
    have : (1 : ℝ) / 4 ≤ 1 / Real.pi := one_div_le_one_div_of_le pi0 Real.pi_le_four
    have := mul_le_mul_of_nonneg_right this d0
    calc (a - b) / 4 = 1 / 4 * (a - b) := by ring
      _ ≤ _ := this
      _ = _ := by ring
  have s4 : (a - b) / 4 ≤ Real.sin ((a - b) / 2) := s3.trans s1
  have : (a - b) / 4 * ((a - b) / 4) ≤ Real.sin ((a + b) / 2) * Real.sin ((a - b) / 2) := mul_le_mul (s4.trans s2) s4 (by linarith) (by linarith)
  nlinarith

/-- a quaternion whose vector part is far below its scalar part becomes the unit quaternion or its opposite: the scalar part of what `normalize` gives is exactly one in size -/
theorem normalize_flat {w : Quat} (hw : Tempered w) (hx : |w.x| ≤ 1 / 2 ^ 30) (hy : |w.y| ≤ 1 / 2 ^ 30) (hz : |w.z| ≤ 1 / 2 ^ 30) (hs : 1 / 2 ≤ |w.s|) {e : ℝ} (he : e ≤ 1 / 2) :
    ∃ r : Quat, DQuat.normalize (.fin e) (.of w) = .ok (.of r) ∧ |r.s| = 1 := by
  obtain ⟨⟨rx, bx⟩, ⟨ry, by'⟩, ⟨rz, bz⟩, ⟨rs, bs⟩⟩ := hw
  have rep : ∀ k : ℕ, k ≤ 100 → Representable (1 / 2 ^ k : ℝ) := fun k hk => by
    have := F64.representable_pow (α := ℝ) (e := -k) (by omega)
    rwa [zpow_neg, zpow_natCast, ← one_div] at this
  have sq : ∀ {x : ℝ}, |x| ≤ 1 / 2 ^ 30 → 0 ≤ rnd (x * x) ∧ rnd (x * x) ≤ 1 / 2 ^ 60 := fun {x} h => by
    refine ⟨le_rnd representable_zero (mul_self_nonneg x), rnd_le (rep 60 (by norm_num)) ?_⟩
    rw [← abs_mul_abs_self]
    have := mul_le_mul h h (abs_nonneg _) (by norm_num)
    norm_num at this ⊢
    linarith
  obtain ⟨x0, x1⟩ := sq hx
  obtain ⟨y0, y1⟩ := sq hy
  obtain ⟨z0, z1⟩ := sq hz
  have a0 : 0 ≤ rnd (rnd (w.x * w.x) + rnd (w.y * w.y)) := le_rnd representable_zero (by linarith)
  have a1 : rnd (rnd (w.x * w.x) + rnd (w.y * w.y)) ≤ 1 / 2 ^ 59 := rnd_le (rep 59 (by norm_num)) (by norm_num at x1 y1 ⊢; linarith)
  have b0 : 0 ≤ rnd (rnd (rnd (w.x * w.x) + rnd (w.y * w.y)) + rnd (w.z * w.z)) := le_rnd representable_zero (by linarith)
  have b1 : rnd (rnd (rnd (w.x * w.x) + rnd (w.y * w.y)) + rnd (w.z * w.z)) ≤ 1 / 2 ^ 58 := rnd_le (rep 58 (by norm_num)) (by norm_num at a1 z1 ⊢; linarith)
  have s1 : 1 / 2 ^ 2 ≤ rnd (w.s * w.s) := le_rnd (rep 2 (by norm_num)) (by
    rw [← abs_mul_abs_self]
    have := mul_le_mul hs hs (by norm_num) (abs_nonneg _)
    norm_num at this ⊢
    linarith)
  have hn : DQuat.nrm w.x w.y w.z w.s = |w.s| := by
    rw [DQuat.nrm, DQuat.sumSq, add_comm, rnd_absorb (rnd_representable _) (by
      rw [abs_of_nonneg b0, abs_of_nonneg (by norm_num at s1 ⊢; linarith)]
      norm_num at b1 s1 ⊢
      linarith)]
    refine DQuat.sqrt_sq rs (le_trans ?_ hs)
    exact (zpow_le_zpow_right₀ one_le_two (show (-500 : ℤ) ≤ -1 by norm_num)).trans (by norm_num)
  have s0 : 0 < |w.s| := by linarith
  have lt : ¬ |w.s| < e := by linarith
  have l : ∀ {x : ℝ}, |x| ≤ 1 / 2 ^ 30 → |x| ≤ |w.s| := fun h => h.trans ((by norm_num : (1 / 2 ^ 30 : ℝ) ≤ 1 / 2).trans hs)
  refine ⟨⟨rnd (w.x / |w.s|), rnd (w.y / |w.s|), rnd (w.z / |w.s|), rnd (w.s / |w.s|)⟩, ?_, ?_⟩
  · rw [DQuat.normalize, DQuat.of, DQuat.norm_fin bx by' bz bs, hn]
    simp only [bind, Except.bind, F64.abs, F64.lt, abs_abs, lt, decide_false, Bool.false_eq_true, if_false, (div_fin s0 (l hx)).1, (div_fin s0 (l hy)).1, (div_fin s0 (l hz)).1,
      (div_fin s0 le_rfl).1]
    rfl
  · rcases abs_choice w.s with h | h
    · simp only [h, div_self (by rw [← h]; exact s0.ne' : w.s ≠ 0), rnd_exact rep_one, abs_one]
    · have : w.s / |w.s| = -1 := by rw [h, div_neg, div_self (by intro h0; rw [h0] at s0; simp at s0)]
      simp only [this, rnd_exact (representable_neg rep_one), abs_neg, abs_one]

theorem re_le (a : Quaternion ℝ) : |a.re| ≤ ‖a‖ := (DQuat.component_le ⟨a.imI, a.imJ, a.imK, a.re⟩).2.2.2

theorem quotient_re (p q : Quat) : ((hamilton q)⁻¹ * hamilton p).re = (p.x * q.x + p.y * q.y + p.z * q.z + p.s * q.s) / ‖hamilton q‖ ^ 2 := by
  rw [hamilton_inv q rfl, Quaternion.re_mul, norm_sq]
  show q.s / _ * p.s - -q.x / _ * p.x - -q.y / _ * p.y - -q.z / _ * p.z = _
  rw [← norm_sq]
  ring

theorem accepted_range {q : Quat} (hq : Tempered q) {eps : ℝ} (e0 : 0 < eps) (he : eps ≤ 1 / 8) (er : Representable eps) (h : DQuat.isUnitary (.fin eps) (.of q) = .ok true) :
    87 / 100 ≤ ‖hamilton q‖ ∧ ‖hamilton q‖ ≤ 113 / 100 := by
  have u := abs_le.1 ((C120_unitary hq e0 he er).2 h)
  norm_num at u
  constructor <;> linarith

theorem difference_steps (o : Bool) {eps : ℝ} (acos : ℝ → ℝ) {p q w r : Quat} (up : DQuat.isUnitary (.fin eps) (.of p) = .ok true) (uq : DQuat.isUnitary (.fin eps) (.of q) = .ok true)
    (dw : DQuat.divide o (.fin eps) (.of p) (.of q) = .ok (.of w)) (dr : DQuat.normalize (.fin eps) (.of w) = .ok (.of r)) (hr : |r.s| ≤ 1) (ha : Representable (acos |r.s|))
    (hb : |acos (|r.s|)| ≤ 4) : DQuat.angularDifferenceWith o (.fin eps) acos (.of p) (.of q) = .ok ⟨.fin (2 * acos |r.s|), .radian⟩ := by
  rw [DQuat.angularDifferenceWith, up, uq]
  simp only [bind, Except.bind, Bool.not_true, Bool.false_eq_true, if_false, dw, dr]
  have l : |2 * acos (|r.s|)| ≤ 8 := by rw [abs_mul, abs_of_pos (by norm_num : (0 : ℝ) < 2)]; linarith
  have e : (F64.fin 2).mul (.fin (acos |r.s|)) = .fin (2 * acos |r.s|) := by
    have := ofExact_rep (DRot.representable_double ha) (l.trans (show (8 : ℝ) ≤ 2 ^ 500 from (by norm_num : (8 : ℝ) ≤ 2 ^ 3).trans (pow_le_pow_right₀ one_le_two (by norm_num))))
    exact this
  simp only [DQuat.of, F64.abs, arcCos, F64.le, abs_abs, hr, decide_true, if_true, libm, e]
  rfl

theorem twoPi_sub : (DAngle.twoPi : F64 ℝ).sub (.fin 0) = DAngle.twoPi := by
  have b : |(7074237752028440 * 2 ^ (-50 : ℤ) : ℝ)| ≤ 2 ^ 500 := by
    refine le_trans ?_ (pow_le_pow_right₀ one_le_two (show 4 ≤ 500 by norm_num))
    rw [abs_of_pos (by positivity)]; norm_num
  rw [DAngle.twoPi, DAngle.sub_fin, sub_zero]
  refine ofExact_rep ?_ b
  have := DRot.representable_double piD_representable
  rwa [show (2 : ℝ) * (7074237752028440 * 2 ^ (-51 : ℤ)) = 7074237752028440 * 2 ^ (-50 : ℤ) by norm_num] at this

theorem in_turn (n : ℕ) {v : ℝ} (h0 : 0 ≤ v) (h1 : v < 7074237752028440 * 2 ^ (-50 : ℤ)) : DAngle.inRange n .radian ⟨.fin v, .radian⟩ (.fin 0) DAngle.twoPi = some (.ok (.fin v)) := by
  have t := twoPi_sub
  rw [DAngle.inRange, t]
  have e : (DAngle.twoPi : F64 ℝ).eq (DAngle.turn .radian) = true := by simp [DAngle.turn, DAngle.twoPi, F64.eq]
  rw [if_neg (by simp), if_neg (by simp [DAngle.twoPi]), e]
  have g : (F64.le (.fin 0) (.fin v) && (F64.fin v).lt DAngle.twoPi) = true := by
    rw [Bool.and_eq_true]
    exact ⟨decide_eq_true h0, decide_eq_true h1⟩
  have i : DAngle.inUnit (⟨.fin v, .radian⟩ : DAngle ℝ) .radian = .ok (.fin v) := by simp [DAngle.inUnit, DAngle.isDefined]
  rw [i]
  simp only [Bool.not_true, Bool.false_eq_true, if_false, DAngle.reduceRange, g, if_true, Option.map_some]

theorem sized_le {x : ℝ} (hr : Representable x) (h : |x| ≤ 1) : Representable x ∧ |x| ≤ 2 ^ 500 := ⟨hr, h.trans (one_le_pow₀ one_le_two)⟩

theorem accepted_one {q : Quat} (hq : Tempered q) (n : ‖hamilton q‖ = 1) {eps : ℝ} (e0 : 9 / 2 ^ 53 ≤ eps) (he : eps ≤ 1 / 8) (er : Representable eps) :
    DQuat.isUnitary (.fin eps) (.of q) = .ok true :=
  (C120_unitary hq (lt_of_lt_of_le (by norm_num) e0) he er).1 (by rw [n, sub_self, abs_zero]; norm_num at e0 ⊢; linarith)

theorem tempered_unit : Tempered ⟨0, 0, 0, 1⟩ :=
  ⟨sized_le representable_zero (by simp), sized_le representable_zero (by simp), sized_le representable_zero (by simp), sized_le rep_one (by simp)⟩

theorem tempered_flip : Tempered ⟨1, 0, 0, 0⟩ :=
  ⟨sized_le rep_one (by simp), sized_le representable_zero (by simp), sized_le representable_zero (by simp), sized_le representable_zero (by simp)⟩

end Verif.Props
