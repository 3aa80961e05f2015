import Verif.Lemmas.DoubleBetween
import Verif.Lemmas.DoubleConvert
import Verif.Props.DoublePoint

/-!
# The angle between two vectors in double precision

Property C115. Code: `src/OpenSpaceToolkit/Mathematics/Geometry/Angle.cpp`, `Angle::Between`.
-/

namespace Verif.Props

open Verif Verif.Spec Verif.Double

/-- what is assumed of `std::acos`: between -1 and 1 it gives a double between zero and `Real::Pi`, within `2 ^ -51` of the arc cosine -/
def ArcCosine (acos : ℝ → ℝ) : Prop :=
  ∀ x, |x| ≤ 1 → Representable (acos x) ∧ 0 ≤ acos x ∧ acos x ≤ 7074237752028440 * 2 ^ (-51 : ℤ) ∧ |acos x - Real.arccos x| ≤ 2 ^ (-51 : ℤ)

/-- the cosine of the angle between two vectors -/
noncomputable def cosine (a b : V3) : ℝ :=
  (a.x * b.x + a.y * b.y + a.z * b.z) / (Real.sqrt (a.x * a.x + a.y * a.y + a.z * a.z) * Real.sqrt (b.x * b.x + b.y * b.y + b.z * b.z))

theorem piD_near : |(7074237752028440 : ℝ) * 2 ^ (-51 : ℤ) - Real.pi| ≤ 2 ^ (-52 : ℤ) ∧ (7074237752028440 : ℝ) * 2 ^ (-51 : ℤ) ≤ Real.pi := by
  have h1 := Real.pi_gt_d20
  have h2 := Real.pi_lt_d20
  norm_num at h1 h2 ⊢
  refine ⟨abs_le.2 ⟨?_, ?_⟩, ?_⟩ <;> linarith

theorem piD_representable : Representable ((7074237752028440 : ℝ) * 2 ^ (-51 : ℤ)) :=
  ⟨7074237752028440, -51, by norm_num, by norm_num, by norm_num⟩

/-- such a function exists -/
theorem exists_arcCosine : ∃ acos, ArcCosine acos := by
  refine ⟨fun x => min (rnd (Real.arccos x)) (7074237752028440 * 2 ^ (-51 : ℤ)), fun x _ => ?_⟩
  obtain ⟨p1, p2⟩ := piD_near
  have p3 := piD_representable
  have a0 := Real.arccos_nonneg x
  have a1 := Real.arccos_le_pi x
  have e52 : (2 : ℝ) ^ (-52 : ℤ) ≤ 2 ^ (-51 : ℤ) := zpow_le_zpow_right₀ one_le_two (by norm_num)
  have k0 : (0 : ℝ) ≤ 7074237752028440 * 2 ^ (-51 : ℤ) := mul_nonneg (by norm_num) (two_zpow_pos _).le
  obtain ⟨d, h, hd, hh, e⟩ := DLinear.rnd_split (Real.arccos x)
  have near : |rnd (Real.arccos x) - Real.arccos x| ≤ 2 ^ (-51 : ℤ) := by
    rw [e, show Real.arccos x * (1 + d) + h - Real.arccos x = Real.arccos x * d + h by ring]
    refine (abs_add_le _ _).trans ?_
    rw [abs_mul, abs_of_nonneg a0]
    have h1 : Real.arccos x * |d| ≤ Real.pi * (1 / 2 ^ 53) := mul_le_mul a1 hd (abs_nonneg _) Real.pi_pos.le
    have h2 : |h| ≤ 2 ^ (-60 : ℤ) := hh.trans (zpow_le_zpow_right₀ one_le_two (by norm_num))
    have := Real.pi_lt_d2
    norm_num at h2 ⊢
    norm_num at h1
    linarith
  refine ⟨?_, le_min (le_rnd representable_zero a0) k0, min_le_right _ _, ?_⟩
  · rcases min_choice (rnd (Real.arccos x)) (7074237752028440 * 2 ^ (-51 : ℤ)) with h | h <;> simp only [h]
    · exact rnd_representable _
    · exact p3
  · rcases le_total (rnd (Real.arccos x)) (7074237752028440 * 2 ^ (-51 : ℤ)) with h | h
    · simp only [min_eq_left h]; exact near
    · simp only [min_eq_right h]
      rcases le_total (Real.arccos x) (7074237752028440 * 2 ^ (-51 : ℤ)) with h' | h'
      · rw [← le_antisymm (rnd_le p3 h') h]; exact near
      · have := (abs_le.1 p1).1
        rw [abs_sub_comm, abs_of_nonneg (by linarith)]
        linarith

theorem unit_components {x y z : ℝ} (h : 0 < x * x + y * y + z * z) :
    x / Real.sqrt (x * x + y * y + z * z) * (x / Real.sqrt (x * x + y * y + z * z)) + y / Real.sqrt (x * x + y * y + z * z) * (y / Real.sqrt (x * x + y * y + z * z)) +
      z / Real.sqrt (x * x + y * y + z * z) * (z / Real.sqrt (x * x + y * y + z * z)) = 1 := by
  have NN := Real.mul_self_sqrt h.le
  have N0 := (Real.sqrt_pos.2 h).ne'
  set N := Real.sqrt (x * x + y * y + z * z)
  have : x / N * (x / N) + y / N * (y / N) + z / N * (z / N) = (x * x + y * y + z * z) / (N * N) := by field_simp
  rw [this, NN, div_self h.ne']

theorem cosine_abs (a b : V3) (ha : 0 < a.x * a.x + a.y * a.y + a.z * a.z) (hb : 0 < b.x * b.x + b.y * b.y + b.z * b.z) : |cosine a b| ≤ 1 := by
  have A := Real.sqrt_pos.2 ha
  have B := Real.sqrt_pos.2 hb
  rw [cosine, abs_div, abs_of_pos (mul_pos A B), div_le_one (mul_pos A B)]
  refine abs_le_of_sq_le_sq ?_ (mul_pos A B).le
  rw [mul_pow, Real.sq_sqrt ha.le, Real.sq_sqrt hb.le]
  nlinarith [sq_nonneg (a.x * b.y - a.y * b.x), sq_nonneg (a.y * b.z - a.z * b.y), sq_nonneg (a.z * b.x - a.x * b.z)]

theorem cos_near_pi : |Real.cos (7074237752028440 * 2 ^ (-51 : ℤ)) - -1| ≤ 2 ^ (-52 : ℤ) := by
  have := Real.abs_cos_sub_cos_le (7074237752028440 * 2 ^ (-51 : ℤ)) Real.pi
  rw [Real.cos_pi] at this
  exact this.trans piD_near.1

theorem between_cases (o : Bool) (eps : ℝ) (acos : ℝ → ℝ) {a b : V3} (ha : Within a) (hb : Within b) :
    DVec.between o (.fin eps) acos (doubles a) (doubles b) =
      if DVec.dot3 o a.x a.y a.z a.x a.y a.z < eps ∨ DVec.dot3 o b.x b.y b.z b.x b.y b.z < eps then .error .runtimeError
      else if a.x = b.x ∧ a.y = b.y ∧ a.z = b.z then .ok (.fin 0) else if a.x = -b.x ∧ a.y = -b.y ∧ a.z = -b.z then .ok DAngle.pi
      else
        let d := DVec.dot o ((doubles a).normalized o) ((doubles b).normalized o)
        if (F64.fin 1).le d then .ok (.fin 0) else if d.le (.fin (-1)) then .ok DAngle.pi
        else match d with
          | .fin x => .ok (.fin (acos x))
          | _ => .ok .nan := by
  have p : (2 : ℝ) ^ 499 ≤ 2 ^ 500 := pow_le_pow_right₀ one_le_two (by norm_num)
  have e1 := (DVec.dot_fin o (ha.x.2.trans p) (ha.y.2.trans p) (ha.z.2.trans p) (ha.x.2.trans p) (ha.y.2.trans p) (ha.z.2.trans p)).1
  have e2 := (DVec.dot_fin o (hb.x.2.trans p) (hb.y.2.trans p) (hb.z.2.trans p) (hb.x.2.trans p) (hb.y.2.trans p) (hb.z.2.trans p)).1
  rw [DVec.between, doubles_defined, doubles_defined]
  have c1 : ((DVec.squaredNorm o (doubles a)).lt (.fin eps) || (DVec.squaredNorm o (doubles b)).lt (.fin eps)) =
      decide (DVec.dot3 o a.x a.y a.z a.x a.y a.z < eps ∨ DVec.dot3 o b.x b.y b.z b.x b.y b.z < eps) := by
    rw [DVec.squaredNorm, DVec.squaredNorm]
    simp only [doubles, e1, e2, F64.lt, Bool.decide_or]
  have c2 : (doubles a).eq (doubles b) = decide (a.x = b.x ∧ a.y = b.y ∧ a.z = b.z) := by
    simp [DVec.eq, doubles, F64.eq, Bool.and_assoc]
  have c3 : (doubles a).eq (doubles b).neg = decide (a.x = -b.x ∧ a.y = -b.y ∧ a.z = -b.z) := by
    simp [DVec.eq, DVec.neg, doubles, F64.eq, F64.neg, Bool.and_assoc]
  rw [c1, c2, c3]
  simp only [Bool.not_true, Bool.or_self, Bool.false_eq_true, if_false, decide_eq_true_eq]
  rfl

/-- **C115.** The angle between two vectors that `Angle::Between` accepts is a double between zero and `Real::Pi` whose cosine is within 16 units of rounding of the exact
cosine, so that it is within `2 ^ -23` radians of the exact angle. -/
theorem C115_angle (o : Bool) (eps : ℝ) (he : 2 ^ (-100 : ℤ) ≤ eps) (acos : ℝ → ℝ) (hacos : ArcCosine acos) {a b : V3} (ha : Within a) (hb : Within b)
    (ok : DVec.between o (.fin eps) acos (doubles a) (doubles b) ≠ .error .runtimeError) :
    ∃ r, DVec.between o (.fin eps) acos (doubles a) (doubles b) = .ok (.fin r) ∧ Representable r ∧ 0 ≤ r ∧ r ≤ 7074237752028440 * 2 ^ (-51 : ℤ) ∧
      |Real.cos r - cosine a b| ≤ 16 / 2 ^ 53 ∧ |r - Real.arccos (cosine a b)| ≤ 2 ^ (-23 : ℤ) := by
  have p : (2 : ℝ) ^ 499 ≤ 2 ^ 500 := pow_le_pow_right₀ one_le_two (by norm_num)
  rw [between_cases o eps acos ha hb] at ok ⊢
  by_cases hs : DVec.dot3 o a.x a.y a.z a.x a.y a.z < eps ∨ DVec.dot3 o b.x b.y b.z b.x b.y b.z < eps
  · rw [if_pos hs] at ok; exact absurd rfl ok
  rw [if_neg hs]
  push Not at hs
  obtain ⟨x1, x2, x3, ea, bx1, bx2, bx3, na1, na2, na3⟩ :=
    DVec.normalized_fin o ⟨ha.x.1, ha.x.2.trans p⟩ ⟨ha.y.1, ha.y.2.trans p⟩ ⟨ha.z.1, ha.z.2.trans p⟩ (he.trans hs.1)
  obtain ⟨y1, y2, y3, eb, by1, by2, by3, nb1, nb2, nb3⟩ :=
    DVec.normalized_fin o ⟨hb.x.1, hb.x.2.trans p⟩ ⟨hb.y.1, hb.y.2.trans p⟩ ⟨hb.z.1, hb.z.2.trans p⟩ (he.trans hs.2)
  have A0 := (DVec.nrm3_near o (he.trans hs.1)).1
  have B0 := (DVec.nrm3_near o (he.trans hs.2)).1
  have one : (1 : ℝ) ≤ 2 ^ 500 := one_le_pow₀ one_le_two
  have near := DVec.cosine_near o (unit_components A0) (unit_components B0) na1 na2 na3 nb1 nb2 nb3
  have ec : a.x / Real.sqrt (a.x * a.x + a.y * a.y + a.z * a.z) * (b.x / Real.sqrt (b.x * b.x + b.y * b.y + b.z * b.z)) +
      a.y / Real.sqrt (a.x * a.x + a.y * a.y + a.z * a.z) * (b.y / Real.sqrt (b.x * b.x + b.y * b.y + b.z * b.z)) +
      a.z / Real.sqrt (a.x * a.x + a.y * a.y + a.z * a.z) * (b.z / Real.sqrt (b.x * b.x + b.y * b.y + b.z * b.z)) = cosine a b := by
    have := (Real.sqrt_pos.2 A0).ne'
    have := (Real.sqrt_pos.2 B0).ne'
    rw [cosine]; field_simp
  rw [ec] at near
  have ed := (DVec.dot_fin o (bx1.trans one) (bx2.trans one) (bx3.trans one) (by1.trans one) (by2.trans one) (by3.trans one)).1
  have hc1 := cosine_abs a b A0 B0
  have eu : DQuat.u = 1 / 2 ^ 53 := rfl
  have rep0 : Representable (0 : ℝ) := representable_zero
  have pi0 : (0 : ℝ) ≤ 7074237752028440 * 2 ^ (-51 : ℤ) := mul_nonneg (by norm_num) (two_zpow_pos _).le
  have hpi := cos_near_pi
  -- the angle follows from the cosine
  have fin : ∀ r, Representable r → 0 ≤ r → r ≤ 7074237752028440 * 2 ^ (-51 : ℤ) → |Real.cos r - cosine a b| ≤ 16 / 2 ^ 53 →
      ∃ s, (Except.ok (F64.fin r) : Res (F64 ℝ)) = .ok (.fin s) ∧ Representable s ∧ 0 ≤ s ∧ s ≤ 7074237752028440 * 2 ^ (-51 : ℤ) ∧
        |Real.cos s - cosine a b| ≤ 16 / 2 ^ 53 ∧ |s - Real.arccos (cosine a b)| ≤ 2 ^ (-23 : ℤ) := by
    intro r h1 h2 h3 h4
    refine ⟨r, rfl, h1, h2, h3, h4, DVec.angle_near h2 (h3.trans piD_near.2) (Real.arccos_nonneg _) (Real.arccos_le_pi _) ?_⟩
    rwa [Real.cos_arccos (abs_le.1 hc1).1 (abs_le.1 hc1).2]
  by_cases h1 : a.x = b.x ∧ a.y = b.y ∧ a.z = b.z
  · rw [if_pos h1]
    refine fin 0 rep0 le_rfl pi0 ?_
    rw [cosine, ← h1.1, ← h1.2.1, ← h1.2.2, Real.cos_zero, Real.mul_self_sqrt A0.le, div_self A0.ne']
    norm_num
  rw [if_neg h1]
  by_cases h2 : a.x = -b.x ∧ a.y = -b.y ∧ a.z = -b.z
  · rw [if_pos h2]
    refine fin _ piD_representable pi0 le_rfl ?_
    have : cosine a b = -1 := by
      rw [cosine, h2.1, h2.2.1, h2.2.2, neg_mul_neg, neg_mul_neg, neg_mul_neg, Real.mul_self_sqrt B0.le, div_eq_iff B0.ne']; ring
    rw [this]
    exact hpi.trans (by norm_num)
  rw [if_neg h2]
  simp only [doubles, ea, eb, ed, F64.le]
  generalize DVec.dot3 o x1 x2 x3 y1 y2 y3 = d at *
  generalize cosine a b = c at *
  obtain ⟨c1, c2⟩ := abs_le.1 hc1
  obtain ⟨n1, n2⟩ := abs_le.1 near
  rw [eu] at n1 n2
  by_cases h3 : 1 ≤ d
  · simp only [h3, decide_true, if_true]
    refine fin 0 rep0 le_rfl pi0 ?_
    rw [Real.cos_zero, abs_of_nonneg (by linarith)]
    linarith
  simp only [h3, decide_false, Bool.false_eq_true, if_false]
  by_cases h4 : d ≤ -1
  · simp only [h4, decide_true, if_true]
    refine fin _ piD_representable pi0 le_rfl ?_
    obtain ⟨q1, q2⟩ := abs_le.1 hpi
    norm_num at q1 q2
    norm_num at n1 n2
    norm_num
    refine abs_le.2 ⟨?_, ?_⟩ <;> linarith
  simp only [h4, decide_false, Bool.false_eq_true, if_false]
  push Not at h3 h4
  obtain ⟨r1, r2, r3, r4⟩ := hacos d (abs_le.2 ⟨h4.le, h3.le⟩)
  refine fin _ r1 r2 r3 ?_
  have := (Real.abs_cos_sub_cos_le (acos d) (Real.arccos d)).trans r4
  rw [Real.cos_arccos h4.le h3.le] at this
  obtain ⟨q1, q2⟩ := abs_le.1 this
  norm_num at q1 q2 n1 n2 ⊢
  refine abs_le.2 ⟨?_, ?_⟩ <;> linarith

/-- **C115.** Vectors are refused for a squared norm of at most half of the limit and are accepted from twice the limit on. -/
theorem C115_refused (o : Bool) (eps : ℝ) (he : 2 ^ (-100 : ℤ) ≤ eps) (acos : ℝ → ℝ) {a b : V3} (ha : Within a) (hb : Within b) :
    (a.x * a.x + a.y * a.y + a.z * a.z ≤ eps / 2 ∨ b.x * b.x + b.y * b.y + b.z * b.z ≤ eps / 2 →
      DVec.between o (.fin eps) acos (doubles a) (doubles b) = .error .runtimeError) ∧
    (2 * eps ≤ a.x * a.x + a.y * a.y + a.z * a.z → 2 * eps ≤ b.x * b.x + b.y * b.y + b.z * b.z →
      ∃ r, DVec.between o (.fin eps) acos (doubles a) (doubles b) = .ok r) := by
  have key : ∀ x y z : ℝ, (x * x + y * y + z * z ≤ eps / 2 → DVec.dot3 o x y z x y z < eps) ∧ (2 * eps ≤ x * x + y * y + z * z → eps ≤ DVec.dot3 o x y z x y z) := by
    intro x y z
    have k := DVec.dot3_near o x y z x y z
    simp only [abs_mul_self] at k
    have u0 := DQuat.u_pos
    have u1 := DQuat.u_small
    have t0 := DQuat.t_pos
    have hS : 0 ≤ x * x + y * y + z * z := add_nonneg (add_nonneg (mul_self_nonneg _) (mul_self_nonneg _)) (mul_self_nonneg _)
    have p0 : (0 : ℝ) < 2 ^ (-100 : ℤ) := two_zpow_pos _
    have ht : DQuat.t ≤ 1 / 100 * 2 ^ (-100 : ℤ) := by
      refine (DQuat.t_small (k := -10 + -100) (by norm_num)).trans ?_
      rw [zpow_add₀ two_ne_zero]
      exact mul_le_mul_of_nonneg_right (by norm_num) p0.le
    generalize (2 : ℝ) ^ (-100 : ℤ) = q at *
    generalize x * x + y * y + z * z = S at *
    have : 301 / 100 * DQuat.u * S ≤ 1 / 100 * S := mul_le_mul_of_nonneg_right (by linarith) hS
    obtain ⟨k1, k2⟩ := abs_le.1 k
    exact ⟨fun h => by linarith, fun h => by linarith⟩
  rw [between_cases o eps acos ha hb]
  refine ⟨fun h => if_pos (h.imp (key _ _ _).1 (key _ _ _).1), fun h1 h2 => ?_⟩
  rw [if_neg (by push Not; exact ⟨(key _ _ _).2 h1, (key _ _ _).2 h2⟩)]
  split
  · exact ⟨_, rfl⟩
  · split
    · exact ⟨_, rfl⟩
    · simp only
      split
      · exact ⟨_, rfl⟩
      · split
        · exact ⟨_, rfl⟩
        · split <;> exact ⟨_, rfl⟩

/-- vectors and a limit that meet the hypotheses -/
example : (2 : ℝ) ^ (-100 : ℤ) ≤ 2 ^ (-49 : ℤ) ∧ Within ⟨1, 2, 0⟩ ∧ Within ⟨3, 1, 0⟩ ∧ (2 : ℝ) * 2 ^ (-49 : ℤ) ≤ 1 * 1 + 2 * 2 + 0 * 0 := by
  have h : ∀ n : ℤ, |n| ≤ 2 ^ 53 → Representable (n : ℝ) ∧ |(n : ℝ)| ≤ 2 ^ 499 := fun n hn => ⟨representable_int hn, by
    have h1 : (|(n : ℝ)|) ≤ 2 ^ 53 := by exact_mod_cast hn
    exact h1.trans (pow_le_pow_right₀ one_le_two (by norm_num))⟩
  have h0 := h 0 (by norm_num)
  have h1 := h 1 (by norm_num)
  have h2 := h 2 (by norm_num)
  have h3 := h 3 (by norm_num)
  push_cast at h0 h1 h2 h3
  exact ⟨zpow_le_zpow_right₀ one_le_two (by norm_num), ⟨h1, h2, h0⟩, ⟨h3, h1, h0⟩, by norm_num⟩

theorem mul_comm' (a b : F64 ℝ) : a.mul b = b.mul a := by
  cases a <;> cases b <;> simp [F64.mul, mul_comm, Bool.xor_comm, bne_comm]

theorem eq_comm' (a b : F64 ℝ) : a.eq b = b.eq a := by
  cases a <;> cases b <;> simp [F64.eq, eq_comm]

theorem eq_neg_comm (a b : F64 ℝ) : a.eq b.neg = b.eq a.neg := by
  cases a with
  | fin x => cases b with
    | fin y => simp only [F64.eq, F64.neg]; exact decide_eq_decide.2 ⟨fun h => by rw [h, neg_neg], fun h => by rw [h, neg_neg]⟩
    | inf s => rfl
    | nan => rfl
  | inf s => cases b with
    | fin y => rfl
    | inf s' => cases s <;> cases s' <;> rfl
    | nan => rfl
  | nan => cases b <;> rfl

/-- **C115.** The order of the two vectors does not matter, whatever they are. -/
theorem C115_symmetric (o : Bool) (eps : F64 ℝ) (acos : ℝ → ℝ) (a b : DVec) : DVec.between o eps acos a b = DVec.between o eps acos b a := by
  have h1 : (!a.isDefined || !b.isDefined) = (!b.isDefined || !a.isDefined) := Bool.or_comm _ _
  have h2 : ((a.squaredNorm o).lt eps || (b.squaredNorm o).lt eps) = ((b.squaredNorm o).lt eps || (a.squaredNorm o).lt eps) := Bool.or_comm _ _
  have h3 : a.eq b = b.eq a := by rw [DVec.eq, DVec.eq, eq_comm' a.x, eq_comm' a.y, eq_comm' a.z]
  have h4 : a.eq b.neg = b.eq a.neg := by
    simp only [DVec.eq, DVec.neg]; rw [eq_neg_comm a.x, eq_neg_comm a.y, eq_neg_comm a.z]
  have h5 : ∀ p q : DVec, DVec.dot o p q = DVec.dot o q p := fun p q => by
    rw [DVec.dot, DVec.dot, mul_comm' p.x, mul_comm' p.y, mul_comm' p.z]
  rw [DVec.between, DVec.between, h1, h2, h3, h4, h5]

theorem mul_overflow {m n : ℕ} (h : 1024 ≤ m + n) : (F64.fin ((2 : ℝ) ^ m)).mul (.fin (2 ^ n)) = .inf false := by
  have e : (2 : ℝ) ^ m * 2 ^ n = 2 ^ (m + n) := by rw [← pow_add]
  simp only [F64.mul, F64.ofExact, e]
  rw [rnd_exact (DQuat.rep_two _), abs_of_pos (by positivity), if_pos (pow_le_pow_right₀ one_le_two h)]
  congr 1
  simp [not_lt.2 (show (0 : ℝ) ≤ 2 ^ (m + n) by positivity)]

theorem zero_mul_zero : (F64.fin (0 : ℝ)).mul (.fin 0) = .fin 0 := by
  have := (DVec.mul_fin2 (x := 0) (y := 0) (by simp) (by simp)).1
  rwa [mul_zero, rnd_zero] at this

theorem zero_add_zero : (F64.fin (0 : ℝ)).add (.fin 0) = .fin 0 := by
  have := (DVec.add_fin2 (a := 0) (b := 0) (n := 0) (by norm_num) (by simp) (by simp)).1
  rwa [add_zero, rnd_zero] at this

theorem dot3_two (o : Bool) (a b x y : ℝ) : DVec.dot3 o a b 0 x y 0 = rnd (rnd (a * x) + rnd (b * y)) := by
  cases o <;> simp [DVec.dot3, DVec.sum3, rnd_zero, rnd_rnd]

/-- Disagreement: vectors of different directions may be given the angle zero, though the angle is far above the precision of the format: `(1, 0, 0)` and
`(1, 2 ^ -27, 0)`, whose sine is larger than `2 ^ -28`. -/
theorem C115_small_violated (o : Bool) (eps : ℝ) (he : eps ≤ 1) (acos : ℝ → ℝ) :
    DVec.between o (.fin eps) acos (doubles ⟨1, 0, 0⟩) (doubles ⟨1, 2 ^ (-27 : ℤ), 0⟩) = .ok (.fin 0) ∧
    2 ^ (-28 : ℤ) < Real.arccos (cosine ⟨1, 0, 0⟩ ⟨1, 2 ^ (-27 : ℤ), 0⟩) := by
  have r1 : Representable (1 : ℝ) := by simpa using representable_int (α := ℝ) (m := 1) (by norm_num)
  have q1 : rnd (1 : ℝ) = 1 := rnd_exact r1
  have r27 : rnd ((2 : ℝ) ^ (-27 : ℤ)) = 2 ^ (-27 : ℤ) := rnd_exact (F64.representable_pow (by norm_num))
  have r54 : rnd ((2 : ℝ) ^ (-27 : ℤ) * 2 ^ (-27 : ℤ)) = 2 ^ (-54 : ℤ) := by
    rw [← zpow_add₀ two_ne_zero]; exact rnd_exact (F64.representable_pow (by norm_num))
  have rs : rnd ((1 : ℝ) + 2 ^ (-54 : ℤ)) = 1 := by
    rw [rnd_eq (4503599627370496 : ℤ) (-52) (by norm_num) (by norm_num) (by norm_num) (by norm_num)]
    norm_num
  have f2 : ∀ x : ℝ, |x| ≤ 1 → |x| ≤ 2 ^ 499 := fun x hx => hx.trans (one_le_pow₀ one_le_two)
  have w1 : Within ⟨1, 0, 0⟩ := ⟨⟨r1, f2 _ (by simp)⟩, ⟨representable_zero, f2 _ (by simp)⟩, ⟨representable_zero, f2 _ (by simp)⟩⟩
  have w2 : Within ⟨1, 2 ^ (-27 : ℤ), 0⟩ := ⟨⟨r1, f2 _ (by simp)⟩, ⟨F64.representable_pow (by norm_num), f2 _ (by norm_num)⟩, ⟨representable_zero, f2 _ (by simp)⟩⟩
  have d1 : DVec.dot3 o 1 0 0 1 0 0 = 1 := by rw [dot3_two]; simp [rnd_zero, q1]
  have d2 : DVec.dot3 o 1 (2 ^ (-27 : ℤ)) 0 1 (2 ^ (-27 : ℤ)) 0 = 1 := by rw [dot3_two, mul_one, q1, r54, rs]
  have d3 : DVec.dot3 o 1 0 0 1 (2 ^ (-27 : ℤ)) 0 = 1 := by rw [dot3_two]; simp [rnd_zero, q1]
  have p500 : ∀ x : ℝ, |x| ≤ 2 ^ 499 → |x| ≤ 2 ^ 500 := fun x hx => hx.trans (pow_le_pow_right₀ one_le_two (by norm_num))
  have n1 : DVec.normalized o (doubles ⟨1, 0, 0⟩) = ⟨.fin 1, .fin 0, .fin 0⟩ := by
    have e := (DVec.dot_fin o (p500 _ w1.x.2) (p500 _ w1.y.2) (p500 _ w1.z.2) (p500 _ w1.x.2) (p500 _ w1.y.2) (p500 _ w1.z.2)).1
    simp only [d1] at e
    have t1 := (div_fin (a := 1) (n := 1) one_pos (by simp)).1
    have t0 := (div_fin (a := 0) (n := 1) one_pos (by simp)).1
    simp only [DVec.normalized, DVec.squaredNorm, doubles, e, F64.lt, zero_lt_one, decide_true, if_true, F64.sqrt, if_neg (not_lt.2 zero_le_one), Real.sqrt_one, q1,
      DVec.div, t1, t0, div_one, rnd_zero]
  have n2 : DVec.normalized o (doubles ⟨1, 2 ^ (-27 : ℤ), 0⟩) = ⟨.fin 1, .fin (2 ^ (-27 : ℤ)), .fin 0⟩ := by
    have e := (DVec.dot_fin o (p500 _ w2.x.2) (p500 _ w2.y.2) (p500 _ w2.z.2) (p500 _ w2.x.2) (p500 _ w2.y.2) (p500 _ w2.z.2)).1
    simp only [d2] at e
    have t1 := (div_fin (a := 1) (n := 1) one_pos (by simp)).1
    have t0 := (div_fin (a := 0) (n := 1) one_pos (by simp)).1
    have t2 := (div_fin (a := 2 ^ (-27 : ℤ)) (n := 1) one_pos (by norm_num)).1
    simp only [DVec.normalized, DVec.squaredNorm, doubles, e, F64.lt, zero_lt_one, decide_true, if_true, F64.sqrt, if_neg (not_lt.2 zero_le_one), Real.sqrt_one, q1,
      DVec.div, t1, t0, t2, div_one, rnd_zero, r27]
  constructor
  · rw [between_cases o eps acos w1 w2]
    simp only [d1, d2]
    rw [if_neg (by push Not; exact ⟨he, he⟩), if_neg (fun h => (two_zpow_pos (α := ℝ) (-27)).ne h.2.1), if_neg (by norm_num), n1, n2,
      (DVec.dot_fin o (p500 _ w1.x.2) (p500 _ w1.y.2) (p500 _ w1.z.2) (p500 _ w2.x.2) (p500 _ w2.y.2) (p500 _ w2.z.2)).1]
    simp only [d3, F64.le, le_refl, decide_true, if_true]
  · by_contra hle
    push Not at hle
    set c := cosine ⟨1, 0, 0⟩ ⟨1, 2 ^ (-27 : ℤ), 0⟩ with hc
    have hs : 1 + 2 ^ (-56 : ℤ) ≤ Real.sqrt (1 * 1 + 2 ^ (-27 : ℤ) * 2 ^ (-27 : ℤ) + 0 * 0) := Real.le_sqrt_of_sq_le (by norm_num)
    have hc1 : c ≤ 1 - 2 ^ (-57 : ℤ) := by
      rw [hc, cosine]
      simp only [mul_one, mul_zero, zero_mul, add_zero, Real.sqrt_one, one_mul] at hs ⊢
      rw [div_le_iff₀ (lt_of_lt_of_le (by positivity) hs)]
      have := mul_le_mul_of_nonneg_left hs (show (0 : ℝ) ≤ 1 - 2 ^ (-57 : ℤ) by norm_num)
      refine le_trans ?_ this
      norm_num
    have hc0 : -1 ≤ c := by
      rw [hc, cosine]
      simp only [mul_one, mul_zero, zero_mul, add_zero]
      exact le_trans (by norm_num) (div_nonneg zero_le_one (mul_nonneg (Real.sqrt_nonneg _) (Real.sqrt_nonneg _)))
    have h1 : Real.cos (2 ^ (-28 : ℤ)) ≤ c := by
      have := Real.cos_le_cos_of_nonneg_of_le_pi (Real.arccos_nonneg c) (by have := Real.pi_gt_three; norm_num; linarith) hle
      rwa [Real.cos_arccos hc0 (hc1.trans (by norm_num))] at this
    have h2 := Real.one_sub_sq_div_two_lt_cos (x := 2 ^ (-28 : ℤ)) (by norm_num)
    have h3 : (1 : ℝ) - 2 ^ (-57 : ℤ) = 1 - (2 ^ (-28 : ℤ)) ^ 2 / 2 := by norm_num
    exact absurd (h1.trans (hc1.trans h3.le)) (not_le.2 h2)

/-- Disagreement: the squared norms overflow. Two vectors of one direction, `(2 ^ 600, 0, 0)` and `(2 ^ 601, 0, 0)`, are normalised to zero, and the angle between them
is the arc cosine of zero. -/
theorem C115_overflow_violated (o : Bool) (eps : ℝ) (acos : ℝ → ℝ) (hacos : ArcCosine acos) :
    ∃ r, DVec.between o (.fin eps) acos (doubles ⟨2 ^ 600, 0, 0⟩) (doubles ⟨2 ^ 601, 0, 0⟩) = .ok (.fin r) ∧ 3 / 2 < r ∧
      cosine ⟨2 ^ 600, 0, 0⟩ ⟨2 ^ 601, 0, 0⟩ = 1 := by
  obtain ⟨-, -, -, near⟩ := hacos 0 (by simp)
  refine ⟨acos 0, ?_, ?_, ?_⟩
  · have sq : ∀ n : ℕ, 600 ≤ n → DVec.squaredNorm o ⟨.fin (2 ^ n), .fin 0, .fin 0⟩ = .inf false := fun n hn => by
      simp only [DVec.squaredNorm, DVec.dot, mul_overflow (show 1024 ≤ n + n by omega), zero_mul_zero, DVec.sum]
      cases o <;> simp only [Bool.false_eq_true, if_false, if_true, zero_add_zero] <;> rfl
    have nm : ∀ n : ℕ, 600 ≤ n → DVec.normalized o ⟨.fin (2 ^ n), .fin 0, .fin 0⟩ = ⟨.fin 0, .fin 0, .fin 0⟩ := fun n hn => by
      rw [DVec.normalized, sq n hn]
      rfl
    have hd : DVec.dot o ⟨.fin 0, .fin 0, .fin 0⟩ ⟨.fin 0, .fin 0, .fin 0⟩ = .fin 0 := by
      simp only [DVec.dot, zero_mul_zero, DVec.sum]
      cases o <;> simp only [Bool.false_eq_true, if_false, if_true, zero_add_zero]
    have hne : (2 : ℝ) ^ 600 ≠ 2 ^ 601 := fun h => by
      have := pow_right_injective₀ (a := (2 : ℝ)) two_pos (by norm_num) h
      omega
    have hne2 : (2 : ℝ) ^ 600 ≠ -2 ^ 601 := fun h => by
      have h1 : (0 : ℝ) < 2 ^ 600 := by positivity
      have h2 : (0 : ℝ) < 2 ^ 601 := by positivity
      generalize (2 : ℝ) ^ 601 = q at *
      generalize (2 : ℝ) ^ 600 = p at *
      linarith
    rw [DVec.between, doubles_defined, doubles_defined]
    simp only [doubles, sq 600 le_rfl, sq 601 (by norm_num), nm 600 le_rfl, nm 601 (by norm_num), hd, DVec.eq, DVec.neg, F64.neg, F64.eq, hne, hne2, decide_false,
      Bool.false_and, F64.lt, Bool.or_self, Bool.not_true, Bool.false_eq_true, if_false, F64.le]
    norm_num
  · rw [Real.arccos_zero] at near
    have h1 := (abs_le.1 near).1
    have h2 := Real.pi_gt_d6
    have h3 : (2 : ℝ) ^ (-51 : ℤ) ≤ 1 / 1000 := by norm_num
    linarith
  · rw [cosine]
    simp only [mul_zero, add_zero]
    rw [Real.sqrt_mul_self (by positivity), Real.sqrt_mul_self (by positivity), div_self (by positivity)]

end Verif.Props
