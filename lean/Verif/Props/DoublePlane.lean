import Verif.Lemmas.DoublePlane

/-!
# C139: planes met by lines, rays and segments, and distances to lines and rays, in double precision
-/

namespace Verif.Props

open Verif Verif.Spec Verif.Double

/-- the error in deciding on which side of a plane the ends of a segment are -/
noncomputable def sideError (a b q n : V3) : ℝ := 2 ^ (-50 : ℤ) * (n.norm * ((q - a).norm + (b - a).norm)) + 2 ^ (-1072 : ℤ)

/-- **C139.** A segment and a plane in double precision: if the ends are on the two sides of the plane, each by more than `sideError` (a few units of rounding of the distances involved), the segment
intersects the plane; if they are on the same side by more than that, it does not. -/
theorem C139_segment (o : Bool) {a b q n : V3} (ha : Small a) (hb : Small b) (hq : Small q) (hn : n.norm ≤ 2) :
    ((n.dot (a - q) < -sideError a b q n ∧ sideError a b q n < n.dot (b - q) ∨ n.dot (b - q) < -sideError a b q n ∧ sideError a b q n < n.dot (a - q)) →
        DSegment.intersectsPlane o (doubles a) (doubles b) (doubles q) (doubles n) = .ok true) ∧
      ((sideError a b q n < n.dot (a - q) ∧ sideError a b q n < n.dot (b - q) ∨ n.dot (a - q) < -sideError a b q n ∧ n.dot (b - q) < -sideError a b q n) →
        DSegment.intersectsPlane o (doubles a) (doubles b) (doubles q) (doubles n) = .ok false) := by
  have u0 := DQuat.u_pos
  have us := DQuat.u_small
  have t0 := DQuat.t_pos
  have eE : sideError a b q n = 8 * DQuat.u * (n.norm * ((q - a).norm + (b - a).norm)) + 8 * DQuat.t := by
    have e1 : (2 : ℝ) ^ (-50 : ℤ) = 8 * DQuat.u := by rw [DQuat.u]; norm_num
    have e2 : (2 : ℝ) ^ (-1072 : ℤ) = 8 * DQuat.t := by rw [DQuat.t, show (-1072 : ℤ) = 3 + -1075 by norm_num, zpow_add₀ two_ne_zero]; norm_num
    rw [sideError, e1, e2]
  rw [segment_plane o ha hb hq hn, eE]
  have hA := form_near o n ha.within hq.within
  have hB := form_near o n ha.within hb.within
  have eA : n.dot (q - a) = -n.dot (a - q) := by simp only [V3.dot, V3.sub_x, V3.sub_y, V3.sub_z]; ring
  have eB : n.dot (b - a) = n.dot (b - q) - n.dot (a - q) := by simp only [V3.dot, V3.sub_x, V3.sub_y, V3.sub_z]; ring
  have n0 := V3.norm_nonneg n
  have z1 := mul_nonneg n0 (V3.norm_nonneg (q - a))
  have z2 := mul_nonneg n0 (V3.norm_nonneg (b - a))
  have big : |dotR o n (diff3 b a)| ≤ n.norm * (b - a).norm + (402 / 100 * DQuat.u * (n.norm * (b - a).norm) + 31 / 10 * DQuat.t) := by
    have := V3.abs_dot_le n (b - a)
    have := abs_sub_abs_le_abs_sub (dotR o n (diff3 b a)) (n.dot (b - a))
    linarith
  have fb := far_bounds u0 us t0 z1 z2 big
  rw [eA, sub_neg_eq_add] at hA
  rw [eB] at hB
  have E0 : 0 ≤ 402 / 100 * DQuat.u * (n.norm * (q - a).norm) + 31 / 10 * DQuat.t := by positivity
  have F0 : 0 ≤ 402 / 100 * DQuat.u * (n.norm * (b - a).norm) + 31 / 10 * DQuat.t := by positivity
  have m0 : 0 ≤ 3 * DQuat.u * |dotR o n (diff3 b a)| := by positivity
  generalize 402 / 100 * DQuat.u * (n.norm * (q - a).norm) + 31 / 10 * DQuat.t = E at *
  generalize 402 / 100 * DQuat.u * (n.norm * (b - a).norm) + 31 / 10 * DQuat.t = F at *
  generalize 8 * DQuat.u * (n.norm * ((q - a).norm + (b - a).norm)) + 8 * DQuat.t = S at *
  generalize dotR o n (diff3 b a) = B at *
  generalize dotR o n (diff3 q a) = A at *
  generalize n.dot (a - q) = x at *
  generalize n.dot (b - q) = y at *
  have hA' : |-A + -x| ≤ E := by rw [← neg_add, abs_neg]; exact hA
  have hB' : |-B - (-y - -x)| ≤ F := by rw [show -B - (-y - -x) = -(B - (y - x)) by ring, abs_neg]; exact hB
  refine ⟨fun h => congrArg _ ?_, fun h => congrArg _ ?_⟩
  · rcases h with ⟨h1, h2⟩ | ⟨h1, h2⟩
    · exact decides_across hA hB (by linarith) (by linarith) E0 F0
    · rw [← decides_neg]
      exact decides_across hA' hB' (by linarith) (by linarith) E0 F0
  · rcases h with ⟨h1, h2⟩ | ⟨h1, h2⟩
    · exact decides_apart hA hB (by linarith) (by linarith) F0
    · rw [← decides_neg]
      exact decides_apart hA' hB' (by rw [abs_neg]; linarith) (by rw [abs_neg]; linarith) F0

/-- **C139.** In double precision `intersects` answers yes exactly if `intersectionWith` returns something, for lines, rays and segments with coordinates up to `2 ^ 248`. -/
theorem C139_agree (o : Bool) {a b d q n : V3} (ha : Small a) (hb : Small b) (hq : Small q) (hn : n.norm ≤ 2) (hd : d.norm ≤ 2) :
    (∃ m, DLine.intersectionWithPlane o (doubles a) (doubles d) (doubles q) (doubles n) = .ok m ∧ DLine.intersectsPlane o (doubles a) (doubles d) (doubles q) (doubles n) = .ok m.nonempty) ∧
      (∃ m, DRay.intersectionWithPlane o (doubles a) (doubles d) (doubles q) (doubles n) = .ok m ∧ DRay.intersectsPlane o (doubles a) (doubles d) (doubles q) (doubles n) = .ok m.nonempty) ∧
      ∃ m, DSegment.intersectionWithPlane o (doubles a) (doubles b) (doubles q) (doubles n) = .ok m ∧ DSegment.intersectsPlane o (doubles a) (doubles b) (doubles q) (doubles n) = .ok m.nonempty := by
  refine ⟨?_, ?_, ?_⟩
  · simp only [DLine.intersectionWithPlane, DLine.intersectsPlane, doubles_defined, dot_of_diff o hn ha hq, dot_of_direction o hn hd, eq_zero, Bool.not_true, Bool.or_self, Bool.false_eq_true, if_false, decide_eq_true_eq]
    split_ifs with h1 h2
    · exact ⟨_, rfl, by simp [h2, DMeet.nonempty]⟩
    · exact ⟨_, rfl, by simp [h2, DMeet.nonempty]⟩
    · exact ⟨_, rfl, rfl⟩
  · simp only [DRay.intersectionWithPlane, DRay.intersectsPlane, doubles_defined, dot_of_diff o hn ha hq, dot_of_direction o hn hd, eq_zero, Bool.not_true, Bool.or_self, Bool.false_eq_true, if_false, decide_eq_true_eq]
    by_cases h1 : dotR o n d = 0
    · rw [if_pos h1, if_pos h1]
      split_ifs with h2
      · exact ⟨_, rfl, by simp [h2, DMeet.nonempty]⟩
      · exact ⟨_, rfl, by simp [h2, DMeet.nonempty]⟩
    · rw [if_neg h1, if_neg h1, quotient_exact h1, (quotient_order zero_lt_big).1, (quotient_order zero_lt_big).2.2.1]
      by_cases h2 : rnd (dotR o n (diff3 q a) / dotR o n d) < 0
      · exact ⟨_, if_pos (decide_eq_true h2), by simp [DMeet.nonempty, h2]⟩
      · exact ⟨_, if_neg (by simpa using h2), by simpa [DMeet.nonempty] using h2⟩
  · simp only [DSegment.intersectionWithPlane, DSegment.intersectsPlane, doubles_defined, dot_of_diff o hn ha hq, dot_of_diff o hn ha hb, eq_zero, Bool.not_true, Bool.or_self, Bool.false_eq_true, if_false, decide_eq_true_eq]
    by_cases h1 : dotR o n (diff3 b a) = 0
    · rw [if_pos h1, if_pos h1]
      split_ifs with h2
      · exact ⟨_, rfl, by simp [h2, DMeet.nonempty]⟩
      · exact ⟨_, rfl, by simp [h2, DMeet.nonempty]⟩
    · rw [if_neg h1, if_neg h1, quotient_exact h1, (quotient_order zero_lt_big).1, (quotient_order zero_lt_big).2.2.1, (quotient_order one_lt_big).2.1, (quotient_order one_lt_big).2.2.2]
      generalize rnd (dotR o n (diff3 q a) / dotR o n (diff3 b a)) = k
      by_cases h2 : k < 0
      · exact ⟨_, if_pos (by simp [h2]), by simp [DMeet.nonempty, h2]⟩
      · by_cases h3 : 1 < k
        · exact ⟨_, if_pos (by simp [h3]), by simp [DMeet.nonempty, h3]⟩
        · exact ⟨_, if_neg (by simp [h2, h3]), by simp [DMeet.nonempty, not_lt.1 h2, not_lt.1 h3]⟩

/-- **C139.** The point in which a segment meets a plane, in double precision: finite, near a point of the segment, and near the plane, within a few units of rounding of the distances involved. -/
theorem C139_segment_point (o : Bool) {a b q n : V3} (ha : Small a) (hb : Small b) (hq : Small q) (hn : n.norm ≤ 2) {r : DVec}
    (h : DSegment.intersectionWithPlane o (doubles a) (doubles b) (doubles q) (doubles n) = .ok (.point r)) :
    ∃ R S, r = doubles R ∧ S ∈ SegSet a b ∧ (R - S).norm ≤ (a.norm + 4 * (b - a).norm) / 2 ^ 53 + 2 ^ (-1073 : ℤ) ∧
      |n.dot (R - q)| ≤ n.norm * (a.norm + 8 * ((q - a).norm + (b - a).norm)) / 2 ^ 53 + 2 ^ (-1071 : ℤ) := by
  have u0 := DQuat.u_pos
  have us := DQuat.u_small
  have t0 := DQuat.t_pos
  have tu := DRot.t_u
  simp only [DSegment.intersectionWithPlane, doubles_defined, dot_of_diff o hn ha hq, dot_of_diff o hn ha hb, eq_zero, Bool.not_true, Bool.or_self, Bool.false_eq_true, if_false, decide_eq_true_eq] at h
  by_cases h1 : dotR o n (diff3 b a) = 0
  · rw [if_pos h1] at h; split_ifs at h <;> cases h
  rw [if_neg h1, quotient_exact h1, (quotient_order zero_lt_big).2.2.1, (quotient_order one_lt_big).2.2.2] at h
  by_cases hk : (decide (rnd (dotR o n (diff3 q a) / dotR o n (diff3 b a)) < 0) || decide (1 < rnd (dotR o n (diff3 q a) / dotR o n (diff3 b a)))) = true
  · rw [if_pos hk] at h; cases h
  rw [if_neg hk] at h
  simp only [Bool.or_eq_true, decide_eq_true_eq, not_or, not_lt] at hk
  obtain ⟨k0, k1⟩ := hk
  have ef : F64.ofExact (dotR o n (diff3 q a) / dotR o n (diff3 b a)) = .fin (rnd (dotR o n (diff3 q a) / dotR o n (diff3 b a))) := by
    refine F64.ofExact_fin ?_
    rw [abs_of_nonneg k0]
    exact lt_of_le_of_lt k1 (by simpa using one_lt_big)
  obtain ⟨es, bs⟩ := sub_doubles (by norm_num) hb.bounded ha.bounded
  rw [ef, es, at_finite ha.bounded bs k0 k1] at h
  cases h
  have ar : Rep3 a := ⟨ha.x.1, ha.y.1, ha.z.1⟩
  have D := at_near ar (rnd (dotR o n (diff3 q a) / dotR o n (diff3 b a))) (diff3_near hb.within ha.within)
  have hA := form_near o n ha.within hq.within
  have hB := form_near o n ha.within hb.within
  have eA : n.dot (q - a) = -n.dot (a - q) := by simp only [V3.dot, V3.sub_x, V3.sub_y, V3.sub_z]; ring
  have bA : |dotR o n (diff3 q a)| ≤ n.norm * (q - a).norm + (402 / 100 * DQuat.u * (n.norm * (q - a).norm) + 31 / 10 * DQuat.t) := by
    have := V3.abs_dot_le n (q - a)
    have := abs_sub_abs_le_abs_sub (dotR o n (diff3 q a)) (n.dot (q - a))
    linarith
  have bB : |dotR o n (diff3 b a)| ≤ n.norm * (b - a).norm + (402 / 100 * DQuat.u * (n.norm * (b - a).norm) + 31 / 10 * DQuat.t) := by
    have := V3.abs_dot_le n (b - a)
    have := abs_sub_abs_le_abs_sub (dotR o n (diff3 b a)) (n.dot (b - a))
    linarith
  rw [eA, sub_neg_eq_add] at hA
  have val := value_near h1 hA hB
  have at' := value_at (n := n) (q := q) (R := sum3' a (scale3 (rnd (dotR o n (diff3 q a) / dotR o n (diff3 b a))) (diff3 b a))) (S := a + rnd (dotR o n (diff3 q a) / dotR o n (diff3 b a)) • (b - a))
  have kk : |rnd (dotR o n (diff3 q a) / dotR o n (diff3 b a))| ≤ 1 := by rwa [abs_of_nonneg k0]
  have fin := segment_sum u0 us t0 tu (V3.norm_nonneg n) hn (V3.norm_nonneg (q - a)) (V3.norm_nonneg (b - a)) rfl rfl bA bB kk D
  refine ⟨_, _, rfl, ⟨_, k0, k1, rfl⟩, ?_, ?_⟩
  · rw [t_4, div_53]
    refine D.trans ?_
    have m := mul_le_of_le_one_left (V3.norm_nonneg (b - a)) kk
    have m' := mul_le_mul_of_nonneg_left m u0.le
    have z := mul_nonneg u0.le (V3.norm_nonneg (b - a))
    linarith
  · rw [t_16, div_53]
    linarith

/-- the error in deciding on which side of a plane the origin of a line or ray is -/
noncomputable def originError (a q n : V3) : ℝ := 2 ^ (-50 : ℤ) * (n.norm * (q - a).norm) + 2 ^ (-1071 : ℤ)

/-- the error in deciding whether a direction goes to one side of a plane or to the other -/
noncomputable def directionError (d n : V3) : ℝ := 2 ^ (-51 : ℤ) * (n.norm * d.norm) + 2 ^ (-1073 : ℤ)

/-- the signs of the two inner products decide for a ray -/
theorem ray_signs {A B : ℝ} (B4 : |B| ≤ 5) : (0 < A → 0 < B → 0 ≤ rnd (A / B)) ∧ (10 * DQuat.t ≤ A → B < 0 → rnd (A / B) < 0) := by
  have t0 := DQuat.t_pos
  refine ⟨fun a b => ?_, fun a b => ?_⟩
  · have := rnd_mono (div_pos a b).le; rwa [rnd_zero] at this
  · rw [abs_of_neg b] at B4
    have q : A / B ≤ -(2 * DQuat.t) := by
      rw [div_le_iff_of_neg b]
      have := mul_le_mul_of_nonneg_left B4 t0.le
      linarith
    have e : 2 * DQuat.t = 2 ^ (-1074 : ℤ) := by rw [DQuat.t, show (-1074 : ℤ) = 1 + -1075 by norm_num, zpow_add₀ two_ne_zero]; norm_num
    have := rnd_mono q
    rw [e, rnd_neg, rnd_exact (F64.representable_pow (by norm_num)), ← e] at this
    linarith

theorem ray_plane (o : Bool) {a d q n : V3} (ha : Small a) (hq : Small q) (hn : n.norm ≤ 2) (hd : d.norm ≤ 2) (hB : dotR o n d ≠ 0) :
    DRay.intersectsPlane o (doubles a) (doubles d) (doubles q) (doubles n) = .ok (decide (0 ≤ rnd (dotR o n (diff3 q a) / dotR o n d))) := by
  simp only [DRay.intersectsPlane, doubles_defined, dot_of_diff o hn ha hq, dot_of_direction o hn hd, eq_zero, Bool.not_true, Bool.or_self, Bool.false_eq_true, if_false, decide_eq_true_eq]
  rw [if_neg hB, quotient_exact hB, (quotient_order zero_lt_big).1]

/-- the numbers -/
theorem ray_numbers {U t N L1 L2 A B x y : ℝ} (u0 : 0 < U) (us : U ≤ 1 / 10 ^ 15) (t0 : 0 < t) (ts : t ≤ 1 / 10 ^ 15) (h1 : 0 ≤ N * L1) (h2 : 0 ≤ N * L2) (h4 : N * L2 ≤ 4) (hA : |A - x| ≤ 402 / 100 * U * (N * L1) + 31 / 10 * t)
    (hB : |B - y| ≤ 301 / 100 * U * (N * L2) + 31 / 10 * t) (hy : |y| ≤ N * L2) :
    |B| ≤ 5 ∧ (8 * U * (N * L1) + 16 * t < x → 10 * t ≤ A) ∧ (4 * U * (N * L2) + 4 * t < y → 0 < B) ∧ (x < -(8 * U * (N * L1) + 16 * t) → A ≤ -(10 * t)) ∧ (y < -(4 * U * (N * L2) + 4 * t) → B < 0) := by
  have z1 := mul_nonneg u0.le h1
  have z2 := mul_nonneg u0.le h2
  have z3 := mul_le_mul_of_nonneg_right us h2
  obtain ⟨a1, a2⟩ := abs_le.1 hA
  have := abs_sub_abs_le_abs_sub B y
  obtain ⟨b1, b2⟩ := abs_le.1 hB
  refine ⟨?_, fun h => ?_, fun h => ?_, fun h => ?_, fun h => ?_⟩ <;> nlinarith

/-- **C139.** A line or ray and a plane in double precision: a direction that goes clearly to one side makes the line meet the plane; a ray meets it if its origin is clearly on one side and the
direction clearly goes to the other, and does not if the direction goes clearly away. -/
theorem C139_ray (o : Bool) {a d q n : V3} (ha : Small a) (hq : Small q) (hn : n.norm ≤ 2) (hd : d.norm ≤ 2) :
    (directionError d n < |n.dot d| → DLine.intersectsPlane o (doubles a) (doubles d) (doubles q) (doubles n) = .ok true) ∧
      ((n.dot (a - q) < -originError a q n ∧ directionError d n < n.dot d ∨ originError a q n < n.dot (a - q) ∧ n.dot d < -directionError d n) →
        DRay.intersectsPlane o (doubles a) (doubles d) (doubles q) (doubles n) = .ok true) ∧
      ((n.dot (a - q) < -originError a q n ∧ n.dot d < -directionError d n ∨ originError a q n < n.dot (a - q) ∧ directionError d n < n.dot d) →
        DRay.intersectsPlane o (doubles a) (doubles d) (doubles q) (doubles n) = .ok false) := by
  have u0 := DQuat.u_pos
  have us := DQuat.u_small
  have t0 := DQuat.t_pos
  have tu := DRot.t_u
  norm_num at tu
  have e1 : originError a q n = 8 * DQuat.u * (n.norm * (q - a).norm) + 16 * DQuat.t := by rw [originError, t_16, show (2 : ℝ) ^ (-50 : ℤ) = 8 * DQuat.u by rw [DQuat.u]; norm_num]
  have e2 : directionError d n = 4 * DQuat.u * (n.norm * d.norm) + 4 * DQuat.t := by rw [directionError, t_4, show (2 : ℝ) ^ (-51 : ℤ) = 4 * DQuat.u by rw [DQuat.u]; norm_num]
  rw [e1, e2]
  have hA := form_near o n ha.within hq.within
  have hB := dotR_near o n d
  have n0 := V3.norm_nonneg n
  have z1 := mul_nonneg n0 (V3.norm_nonneg (q - a))
  have z2 := mul_nonneg n0 (V3.norm_nonneg d)
  have h4 : n.norm * d.norm ≤ 4 := by have := mul_le_mul hn hd (V3.norm_nonneg d) (by norm_num); linarith
  obtain ⟨B5, s1, s2, s3, s4⟩ := ray_numbers u0 us t0 (by linarith) z1 z2 h4 hA hB (V3.abs_dot_le n d)
  have eA : n.dot (a - q) = -n.dot (q - a) := by simp only [V3.dot, V3.sub_x, V3.sub_y, V3.sub_z]; ring
  rw [eA]
  have sn := ray_signs (A := -dotR o n (diff3 q a)) (B := -dotR o n d) (by rwa [abs_neg])
  rw [neg_div_neg_eq] at sn
  have sp := ray_signs (A := dotR o n (diff3 q a)) B5
  refine ⟨fun h => ?_, fun h => ?_, fun h => ?_⟩
  · have hB0 : dotR o n d ≠ 0 := by
      rcases lt_abs.1 h with h | h
      · exact (s2 h).ne'
      · exact (s4 (by linarith)).ne
    simp only [DLine.intersectsPlane, doubles_defined, dot_of_direction o hn hd, eq_zero, Bool.not_true, Bool.or_self, Bool.false_eq_true, if_false, decide_eq_true_eq]
    rw [if_neg hB0]
  · rcases h with ⟨h1, h2⟩ | ⟨h1, h2⟩
    · have A0 := s1 (by linarith)
      have B0 := s2 h2
      rw [ray_plane o ha hq hn hd B0.ne', decide_eq_true (sp.1 (by linarith) B0)]
    · have A0 := s3 (by linarith)
      have B0 := s4 h2
      rw [ray_plane o ha hq hn hd B0.ne, decide_eq_true (sn.1 (by linarith) (by linarith))]
  · rcases h with ⟨h1, h2⟩ | ⟨h1, h2⟩
    · have A0 := s1 (by linarith)
      have B0 := s4 h2
      rw [ray_plane o ha hq hn hd B0.ne, decide_eq_false (not_le.2 (sp.2 A0 B0))]
    · have A0 := s3 (by linarith)
      have B0 := s2 h2
      rw [ray_plane o ha hq hn hd B0.ne', decide_eq_false (not_le.2 (sn.2 (by linarith) (by linarith)))]

/-- the numbers in the bound on the value, for a line or ray -/
theorem ray_sum {U t N L1 M D E F A B k a DD : ℝ} (u0 : 0 < U) (us : U ≤ 1 / 10 ^ 15) (t0 : 0 < t) (tu : t ≤ U / 10 ^ 9) (N0 : 1 / 2 ≤ N) (N2 : N ≤ 2) (h1 : 0 ≤ L1) (D0 : 1 / 2 ≤ D) (D2 : D ≤ 2) (k0 : 0 ≤ k) (hM : M = k * D)
    (hE : E = 402 / 100 * U * (N * L1) + 31 / 10 * t) (hF : F = 301 / 100 * U * (N * D) + 31 / 10 * t) (hA : A ≤ N * L1 + E) (hB : B ≤ N * D + F) (hD : DD ≤ U * (a + 301 / 100 * M) + 201 / 100 * t) :
    N * DD + (E + k * F + U * A + t * B) ≤ U * (N * (a + 8 * (L1 + M))) + 16 * t := by
  have z1 : 0 ≤ N * L1 := mul_nonneg (by linarith) h1
  have M0 : 0 ≤ M := by rw [hM]; exact mul_nonneg k0 (by linarith)
  have z2 : 0 ≤ N * M := mul_nonneg (by linarith) M0
  have k2 : k ≤ 2 * M := by rw [hM]; nlinarith
  have k3 : M / 2 ≤ N * M := by nlinarith
  have d4 : N * D ≤ 4 := by nlinarith
  have d0 : 0 ≤ N * D := mul_nonneg (by linarith) (by linarith)
  have B6 : B ≤ 5 := by
    rw [hF] at hB
    have := mul_le_mul_of_nonneg_right us d0
    have t1 : t ≤ 1 / 10 ^ 15 := by norm_num at us tu ⊢; linarith
    norm_num at this t1
    linarith
  have m1 := mul_le_mul_of_nonneg_left hD (show 0 ≤ N by linarith)
  have m2 := mul_le_mul_of_nonneg_left hA u0.le
  have m3 := mul_le_mul_of_nonneg_left B6 t0.le
  have m4 : N * t ≤ 2 * t := mul_le_mul_of_nonneg_right N2 t0.le
  have m5 : k * F = 301 / 100 * (U * (N * M)) + 31 / 10 * (k * t) := by rw [hF, hM]; ring
  have m6 : k * t ≤ 2 * M * t := mul_le_mul_of_nonneg_right k2 t0.le
  have m7 : M * t ≤ M * (U / 10 ^ 9) := mul_le_mul_of_nonneg_left tu M0
  have m8 := mul_le_mul_of_nonneg_left k3 u0.le
  have s1 := mul_nonneg u0.le z1
  have s2 := mul_nonneg u0.le z2
  have s3 := mul_le_mul_of_nonneg_right us s1
  have s5 := mul_le_mul_of_nonneg_right us t0.le
  have e : N * (U * (a + 301 / 100 * M) + 201 / 100 * t) = U * (N * a) + 301 / 100 * (U * (N * M)) + 201 / 100 * (N * t) := by ring
  rw [e] at m1
  rw [show U * (N * (a + 8 * (L1 + M))) = U * (N * a) + 8 * (U * (N * L1)) + 8 * (U * (N * M)) by ring, m5]
  subst hE
  rw [show U * (N * L1 + (402 / 100 * U * (N * L1) + 31 / 10 * t)) = U * (N * L1) + 402 / 100 * (U * (U * (N * L1))) + 31 / 10 * (U * t) by ring] at m2
  rw [show (402 : ℝ) / 100 * U * (N * L1) = 402 / 100 * (U * (N * L1)) by ring]
  rw [show M * (U / 10 ^ 9) = U * M / 10 ^ 9 by ring] at m7
  rw [show U * (M / 2) = U * M / 2 by ring] at m8
  rw [show 2 * M * t = 2 * (M * t) by ring] at m6
  generalize U * (N * a) = x0 at *
  generalize U * (N * L1) = x1 at *
  generalize U * (N * M) = x2 at *
  generalize U * x1 = x3 at *
  generalize U * t = x4 at *
  generalize U * M = x5 at *
  generalize M * t = x6 at *
  generalize k * t = x7 at *
  norm_num at *
  linarith

/-- the bounds on a computed point of a line -/
theorem point_bounds (o : Bool) {a d q n : V3} (ha : Small a) (hq : Small q) (hn : n.norm ≤ 2) (hn' : 1 / 2 ≤ n.norm) (hd : d.norm ≤ 2) (hd' : 1 / 2 ≤ d.norm) (h1 : dotR o n d ≠ 0) {k : ℝ} (ek : k = rnd (dotR o n (diff3 q a) / dotR o n d)) :
    (sum3' a (scale3 k d) - (a + k • d)).norm ≤ (a.norm + 4 * ((a + k • d) - a).norm) / 2 ^ 53 + 2 ^ (-1073 : ℤ) ∧
      |n.dot (sum3' a (scale3 k d) - q)| ≤ n.norm * (a.norm + 8 * ((q - a).norm + ((a + k • d) - a).norm)) / 2 ^ 53 + 2 ^ (-1071 : ℤ) := by
  have u0 := DQuat.u_pos
  have us := DQuat.u_small
  have t0 := DQuat.t_pos
  have tu := DRot.t_u
  have eS : ((a + k • d) - a).norm = |k| * d.norm := by rw [← V3.norm_smul]; congr 1; ext <;> simp
  have ar : Rep3 a := ⟨ha.x.1, ha.y.1, ha.z.1⟩
  have D := at_near (v := d) (V := d) ar k (by rw [show d - d = 0 by ext <;> simp, V3.norm_zero]; exact mul_nonneg u0.le (V3.norm_nonneg d))
  have hA := form_near o n ha.within hq.within
  have hB := dotR_near o n d
  have eA : n.dot (q - a) = -n.dot (a - q) := by simp only [V3.dot, V3.sub_x, V3.sub_y, V3.sub_z]; ring
  have bA : |dotR o n (diff3 q a)| ≤ n.norm * (q - a).norm + (402 / 100 * DQuat.u * (n.norm * (q - a).norm) + 31 / 10 * DQuat.t) := by
    have := V3.abs_dot_le n (q - a)
    have := abs_sub_abs_le_abs_sub (dotR o n (diff3 q a)) (n.dot (q - a))
    linarith
  have bB : |dotR o n d| ≤ n.norm * d.norm + (301 / 100 * DQuat.u * (n.norm * d.norm) + 31 / 10 * DQuat.t) := by
    have := V3.abs_dot_le n d
    have := abs_sub_abs_le_abs_sub (dotR o n d) (n.dot d)
    linarith
  rw [eA, sub_neg_eq_add] at hA
  have val := value_near h1 hA hB
  rw [← ek] at val
  have at' := value_at (n := n) (q := q) (R := sum3' a (scale3 k d)) (S := a + k • d)
  have fin := ray_sum u0 us t0 tu hn' hn (V3.norm_nonneg (q - a)) hd' hd (abs_nonneg k) rfl rfl rfl bA bB D
  rw [eS, t_4, t_16, div_53, div_53]
  refine ⟨?_, by linarith⟩
  have z := mul_nonneg u0.le (mul_nonneg (abs_nonneg k) (V3.norm_nonneg d))
  linarith

/-- **C139.** The point in which a line meets a plane, in double precision: if its coordinates are finite it is near a point `S` of the line and near the plane, within a few units of rounding of the
distances involved. -/
theorem C139_line_point (o : Bool) {a d q n R : V3} (ha : Small a) (hq : Small q) (hn : n.norm ≤ 2) (hn' : 1 / 2 ≤ n.norm) (hd : d.norm ≤ 2) (hd' : 1 / 2 ≤ d.norm)
    (h : DLine.intersectionWithPlane o (doubles a) (doubles d) (doubles q) (doubles n) = .ok (.point (doubles R))) :
    ∃ S ∈ LineSet a d, (R - S).norm ≤ (a.norm + 4 * (S - a).norm) / 2 ^ 53 + 2 ^ (-1073 : ℤ) ∧
      |n.dot (R - q)| ≤ n.norm * (a.norm + 8 * ((q - a).norm + (S - a).norm)) / 2 ^ 53 + 2 ^ (-1071 : ℤ) := by
  simp only [DLine.intersectionWithPlane, doubles_defined, dot_of_diff o hn ha hq, dot_of_direction o hn hd, eq_zero, Bool.not_true, Bool.or_self, Bool.false_eq_true, if_false, decide_eq_true_eq] at h
  by_cases h1 : dotR o n d = 0
  · rw [if_pos h1] at h; split_ifs at h <;> cases h
  rw [if_neg h1, quotient_exact h1] at h
  injection h with h; injection h with h
  obtain ⟨k, e, rfl⟩ := finite_at h
  exact ⟨a + k • d, ⟨k, rfl⟩, point_bounds o ha hq hn hn' hd hd' h1 (ofExact_finite e)⟩

/-- **C139.** The same for a ray, with a point `S` of the ray. -/
theorem C139_ray_point (o : Bool) {a d q n R : V3} (ha : Small a) (hq : Small q) (hn : n.norm ≤ 2) (hn' : 1 / 2 ≤ n.norm) (hd : d.norm ≤ 2) (hd' : 1 / 2 ≤ d.norm)
    (h : DRay.intersectionWithPlane o (doubles a) (doubles d) (doubles q) (doubles n) = .ok (.point (doubles R))) :
    ∃ S ∈ RaySet a d, (R - S).norm ≤ (a.norm + 4 * (S - a).norm) / 2 ^ 53 + 2 ^ (-1073 : ℤ) ∧
      |n.dot (R - q)| ≤ n.norm * (a.norm + 8 * ((q - a).norm + (S - a).norm)) / 2 ^ 53 + 2 ^ (-1071 : ℤ) := by
  simp only [DRay.intersectionWithPlane, doubles_defined, dot_of_diff o hn ha hq, dot_of_direction o hn hd, eq_zero, Bool.not_true, Bool.or_self, Bool.false_eq_true, if_false, decide_eq_true_eq] at h
  by_cases h1 : dotR o n d = 0
  · rw [if_pos h1] at h; split_ifs at h <;> cases h
  rw [if_neg h1, quotient_exact h1, (quotient_order zero_lt_big).2.2.1] at h
  by_cases hk : rnd (dotR o n (diff3 q a) / dotR o n d) < 0
  · rw [if_pos (decide_eq_true hk)] at h; cases h
  rw [if_neg (by simpa using hk)] at h
  injection h with h; injection h with h
  obtain ⟨k, e, rfl⟩ := finite_at h
  have ek := ofExact_finite e
  rw [← ek] at hk
  exact ⟨a + k • d, ⟨k, not_lt.1 hk, rfl⟩, point_bounds o ha hq hn hn' hd hd' h1 ek⟩

/-- the sign of the computed projection and of the exact one, and what a wrong sign costs -/
theorem ray_cost {a p e : V3} (he : e.norm = 1) : (p - a).norm ≤ (e.cross (p - a)).norm + |(p - a).dot e| ∧ (e.cross (p - a)).norm ≤ (p - a).norm := by
  have h := V3.lagrange e (p - a)
  rw [← V3.norm_sq, ← V3.norm_sq, ← V3.norm_sq, he, V3.dot_comm, one_pow, one_mul] at h
  have c0 := V3.norm_nonneg (e.cross (p - a))
  have w0 := V3.norm_nonneg (p - a)
  have d0 := abs_nonneg ((p - a).dot e)
  rw [← sq_abs ((p - a).dot e)] at h
  constructor <;> nlinarith

theorem projection_near (o : Bool) {a p d e : V3} (ha : Small a) (hp : Small p) (he : e.norm = 1) (hd : (d - e).norm ≤ 5 * DQuat.u) :
    |dotR o (diff3 p a) d - (p - a).dot e| ≤ 91 / 10 * DQuat.u * (p - a).norm + 31 / 10 * DQuat.t := by
  have u0 := DQuat.u_pos
  have us := DQuat.u_small
  have h1 := dotR_near o (diff3 p a) d
  have h3 := diff3_near hp.within ha.within
  have h4 := norm_mul_near h3
  have d1 : d.norm ≤ 1 + 5 * DQuat.u := by have := V3.norm_le_add d e; linarith
  have e1 : (diff3 p a).dot d - (p - a).dot e = (diff3 p a - (p - a)).dot d + (p - a).dot (d - e) := by simp only [V3.dot, V3.sub_x, V3.sub_y, V3.sub_z]; ring
  have h5 := V3.abs_dot_le (diff3 p a - (p - a)) d
  have h6 := V3.abs_dot_le (p - a) (d - e)
  have h7 := abs_add_le ((diff3 p a - (p - a)).dot d) ((p - a).dot (d - e))
  rw [← e1] at h7
  have h8 := abs_sub_le (dotR o (diff3 p a) d) ((diff3 p a).dot d) ((p - a).dot e)
  have W0 := V3.norm_nonneg (p - a)
  have m1 : (diff3 p a).norm * d.norm ≤ (1 + DQuat.u) * (p - a).norm * (1 + 5 * DQuat.u) := mul_le_mul h4 d1 (V3.norm_nonneg d) (by positivity)
  have m2 : (diff3 p a - (p - a)).norm * d.norm ≤ DQuat.u * (p - a).norm * (1 + 5 * DQuat.u) := mul_le_mul h3 d1 (V3.norm_nonneg d) (by positivity)
  have m3 := mul_le_mul_of_nonneg_left hd W0
  generalize (diff3 p a).norm * d.norm = s at *
  generalize (diff3 p a - (p - a)).norm * d.norm = s2 at *
  generalize (p - a).norm * (d - e).norm = s3 at *
  generalize (p - a).norm = W at *
  have z1 := mul_nonneg u0.le W0
  have z2 := mul_le_mul_of_nonneg_right us z1
  have z5 : DQuat.u * s ≤ DQuat.u * ((1 + DQuat.u) * W * (1 + 5 * DQuat.u)) := mul_le_mul_of_nonneg_left m1 u0.le
  have z7 : DQuat.u * (DQuat.u * (DQuat.u * W)) ≤ 1 / 10 ^ 15 * (DQuat.u * W) := by
    have z6 : DQuat.u * (DQuat.u * (DQuat.u * W)) ≤ DQuat.u * (1 / 10 ^ 15 * (DQuat.u * W)) := mul_le_mul_of_nonneg_left z2 u0.le
    nlinarith
  nlinarith

theorem r_534 : (2 : ℝ) ^ (-534 : ℤ) = 2 * 2 ^ (-535 : ℤ) ∧ 100 * DQuat.t ≤ 2 ^ (-535 : ℤ) := by
  refine ⟨by rw [show (-534 : ℤ) = 1 + -535 by norm_num, zpow_add₀ two_ne_zero]; norm_num, ?_⟩
  have := DQuat.t_small (k := -545) (by norm_num)
  rw [show (-535 : ℤ) = 10 + -545 by norm_num, zpow_add₀ two_ne_zero]
  have := two_zpow_pos (α := ℝ) (-545)
  generalize (2 : ℝ) ^ (-545 : ℤ) = x at *
  norm_num
  linarith

/-- **C139.** The distance from a point to a line or ray made in double precision from a vector `v` that is not very short: finite, not negative, and within a few units of rounding of the distance from
the origin of the exact distance to the line or ray along `v`. -/
theorem C139_distance (o : Bool) {a p v : V3} (ha : Small a) (hp : Small p) (hv : Within v) (h : 1 / 2 ^ 40 ≤ v.norm) :
    ∃ d, DLine.ctor o (doubles a) (doubles v) = .ok (doubles a, doubles d) ∧
      (∃ r k, DLine.distanceTo o (doubles a) (doubles d) (doubles p) = .ok (.fin r) ∧ IsDistance (LineSet a v) p k ∧ 0 ≤ r ∧ |r - k| ≤ 12 / 2 ^ 53 * (p - a).norm + 2 ^ (-534 : ℤ)) ∧
      ∃ r k, DRay.distanceTo o (doubles a) (doubles d) (doubles p) = .ok (.fin r) ∧ IsDistance (RaySet a v) p k ∧ 0 ≤ r ∧ |r - k| ≤ 21 / 2 ^ 53 * (p - a).norm + 2 ^ (-534 : ℤ) := by
  obtain ⟨d, e, hc, he, hve, hd⟩ := made_direction (a := a) o hv h
  have u0 := DQuat.u_pos
  have us := DQuat.u_small
  have t0 := DQuat.t_pos
  have p0 : 0 < v.norm := lt_of_lt_of_le (by norm_num) h
  obtain ⟨s1, s2⟩ := unit_set p0 hve a
  have d2 : d.norm ≤ 2 := by have := V3.norm_le_add d e; linarith
  obtain ⟨es, bs⟩ := sub_doubles (by norm_num) hp.bounded ha.bounded
  obtain ⟨ec, bc⟩ := cross_doubles (n := 249) (by norm_num) ((norm_le_two_bounded d2).mono (by norm_num)) bs
  have en := norm_doubles o (bc.mono (by norm_num))
  have near := cross_length_near o ha hp he hd
  have nn : ∀ w, 0 ≤ normR o w := fun w => by have := rnd_mono (Real.sqrt_nonneg (dotR o w w)); rwa [rnd_zero] at this
  obtain ⟨r1, r2⟩ := r_534
  have W0 := mul_nonneg u0.le (V3.norm_nonneg (p - a))
  have q1 : ∀ c : ℝ, c / 2 ^ 53 * (p - a).norm = c * (DQuat.u * (p - a).norm) := fun c => by rw [DQuat.u]; ring
  refine ⟨d, hc, ⟨_, (e.cross (p - a)).norm, ?_, ?_, nn (cross3 d (diff3 p a)), ?_⟩, ?_⟩
  · rw [DLine.distanceTo, doubles_defined, doubles_defined, doubles_defined, es, ec, en]; rfl
  · rw [s1]; exact line_distance he p
  · rw [q1, r1]
    refine near.trans ?_
    linarith
  · have proj := projection_near o ha hp he hd
    obtain ⟨c1, c2⟩ := ray_cost (p := p) (a := a) he
    have nw := normR_near o (diff3 p a)
    have h3 := diff3_near hp.within ha.within
    have h4 := V3.norm_le_add (diff3 p a) (p - a)
    have h5 := V3.norm_le_add (p - a) (diff3 p a)
    rw [V3.norm_sub_comm (p - a)] at h5
    have ed := dot_doubles o (bs.mono (show 248 + 1 ≤ 500 by norm_num)) (normal_bounded d2)
    have enw := norm_doubles o (bs.mono (show 248 + 1 ≤ 500 by norm_num))
    have hk := ray_distance he (a := a) p
    rw [← s2] at hk
    have nwb : |normR o (diff3 p a) - (p - a).norm| ≤ 37 / 10 * (DQuat.u * (p - a).norm) + 2 ^ (-535 : ℤ) := by
      rw [abs_le] at nw ⊢
      have z2 := mul_le_mul_of_nonneg_right us W0
      have z3 : DQuat.u * (diff3 p a).norm ≤ DQuat.u * (p - a).norm + DQuat.u * (DQuat.u * (p - a).norm) := by
        have := mul_le_mul_of_nonneg_left (h4.trans (add_le_add h3 le_rfl)) u0.le
        linarith
      norm_num at z2
      constructor <;> linarith
    by_cases hpa : p = a
    · subst hpa
      refine ⟨0, _, ?_, hk, le_rfl, ?_⟩
      · rw [DRay.distanceTo, doubles_defined, doubles_defined, sub_point_eq.2 rfl]; rfl
      · have e0 : p - p = 0 := V3.sub_eq_zero'.2 rfl
        have : ¬ (p - p).dot e < 0 := by rw [e0]; simp [V3.dot]
        rw [if_neg this, e0, show e.cross 0 = 0 by ext <;> simp, V3.norm_zero, sub_zero, abs_zero]
        have := two_zpow_pos (α := ℝ) (-534)
        linarith
    · have hne : (doubles p).eq (doubles a) = false := by
        by_contra hx
        exact hpa (sub_point_eq.1 (by simpa using hx))
      have cases' : DRay.distanceTo o (doubles a) (doubles d) (doubles p) = .ok (.fin (if dotR o (diff3 p a) d < 0 then normR o (diff3 p a) else normR o (cross3 d (diff3 p a)))) := by
        rw [DRay.distanceTo, doubles_defined, doubles_defined, doubles_defined, hne, es, ec, en, ed, enw]
        by_cases hs : dotR o (diff3 p a) d < 0
        · simp [F64.lt, hs]
        · simp [F64.lt, hs]
      refine ⟨_, _, cases', hk, ?_, ?_⟩
      · split_ifs
        · exact nn _
        · exact nn _
      · rw [q1, r1]
        have r0 := two_zpow_pos (α := ℝ) (-535)
        generalize (2 : ℝ) ^ (-535 : ℤ) = r at *
        rw [mul_assoc] at near proj
        rw [abs_le] at near nwb proj ⊢
        generalize normR o (diff3 p a) = n1 at *
        generalize normR o (cross3 d (diff3 p a)) = n2 at *
        generalize dotR o (diff3 p a) d = x at *
        generalize (p - a).dot e = y at *
        generalize (e.cross (p - a)).norm = z at *
        generalize (p - a).norm = W at *
        generalize DQuat.u * W = U at *
        by_cases hx : x < 0
        · rw [if_pos hx]
          by_cases hy : y < 0
          · rw [if_pos hy]; constructor <;> linarith
          · rw [if_neg hy]
            rw [abs_of_nonneg (not_lt.1 hy)] at c1
            constructor <;> linarith
        · rw [if_neg hx]
          by_cases hy : y < 0
          · rw [if_pos hy]
            rw [abs_of_neg hy] at c1
            constructor <;> linarith
          · rw [if_neg hy]; constructor <;> linarith

theorem fifths_dot (o : Bool) : dotR o ⟨threeFifths, fourFifths, 0⟩ ⟨4, -3, 0⟩ = -2 ^ (-51 : ℤ) := by
  have e2 : rnd (fourFifths * -3) = -(5404319552844596 * 2 ^ (-51 : ℤ)) := by rw [mul_neg, rnd_neg, fifths_products.2]
  have e3 : rnd (-(2 : ℝ) ^ (-51 : ℤ)) = -2 ^ (-51 : ℤ) := by rw [rnd_neg, rnd_exact (F64.representable_pow (by norm_num))]
  have e4 : rnd (-((5404319552844596 : ℝ) * 2 ^ (-51 : ℤ))) = -(5404319552844596 * 2 ^ (-51 : ℤ)) := by rw [← fifths_products.2, rnd_neg, rnd_rnd]
  simp only [dotR, DVec.dot3, fifths_products.1, e2, mul_zero, rnd_zero]
  cases o <;> simp only [DVec.sum3, add_zero, e4, ← sub_eq_add_neg, fifths_difference, e3, if_true, Bool.false_eq_true, if_false]

/-- C139: the segment from (0, 0, 0) to (4, -3, 0) lies in the plane through (0, 0, 0) with the normal (3, 4, 0), but only the point (0, 0, 0) is returned -/
theorem C139_inside_violated (o : Bool) : SegSet ⟨0, 0, 0⟩ ⟨4, -3, 0⟩ ⊆ PlaneSet ⟨0, 0, 0⟩ ⟨3, 4, 0⟩ ∧
    DSegment.intersectionWithPlane o (doubles ⟨0, 0, 0⟩) (doubles ⟨4, -3, 0⟩) (DPlane.ctor o (doubles ⟨0, 0, 0⟩) (doubles ⟨3, 4, 0⟩)).1
      (DPlane.ctor o (doubles ⟨0, 0, 0⟩) (doubles ⟨3, 4, 0⟩)).2 = .ok (.point (doubles ⟨0, 0, 0⟩)) := by
  constructor
  · rintro p ⟨t, -, -, rfl⟩
    simp only [PlaneSet, Set.mem_ofPred_eq, V3.dot, V3.sub_x, V3.sub_y, V3.sub_z, V3.add_x, V3.add_y, V3.add_z, V3.smul_x, V3.smul_y, V3.smul_z]; ring
  · obtain ⟨n, -, -⟩ := normalized_345 o
    have h0 := small_of_int 0 (by norm_num)
    have h3 := small_of_int (-3) (by norm_num)
    have h4 := small_of_int 4 (by norm_num)
    push_cast at h0 h3 h4
    have s0 : Small ⟨0, 0, 0⟩ := ⟨h0, h0, h0⟩
    have s1 : Small ⟨4, -3, 0⟩ := ⟨h4, h3, h0⟩
    have e0 : diff3 ⟨4, -3, 0⟩ ⟨0, 0, 0⟩ = ⟨4, -3, 0⟩ := diff3_zero s1.within
    have e1 : diff3 ⟨0, 0, 0⟩ ⟨0, 0, 0⟩ = ⟨0, 0, 0⟩ := diff3_zero s0.within
    have z : dotR o ⟨threeFifths, fourFifths, 0⟩ ⟨0, 0, 0⟩ = 0 := by cases o <;> simp [dotR, DVec.dot3, DVec.sum3, rnd_zero]
    have w : (-2 ^ (-51 : ℤ) : ℝ) ≠ 0 := neg_ne_zero.2 (two_zpow_pos _).ne'
    have x0 : F64.ofExact (0 / -2 ^ (-51 : ℤ) : ℝ) = .fin 0 := by rw [zero_div, F64.ofExact_fin] <;> rw [rnd_zero]; rw [abs_zero]; positivity
    simp only [DPlane.ctor]
    simp only [DSegment.intersectionWithPlane, n, doubles_defined, dot_of_diff o fifths_norm s0 s0, dot_of_diff o fifths_norm s0 s1, e0, e1, z, fifths_dot, eq_zero, Bool.not_true, Bool.or_self, Bool.false_eq_true, if_false,
      decide_eq_true_eq, w]
    rw [quotient_exact w, x0]
    obtain ⟨es, bs⟩ := sub_doubles (by norm_num) s1.bounded s0.bounded
    rw [e0] at es bs
    rw [es, if_neg (by simp [F64.lt]), at_finite s0.bounded bs le_rfl zero_le_one]
    congr 2
    simp [sum3', scale3, rnd_zero]

/-- the doubles nearest to 2/7, 3/7 and 6/7 -/
noncomputable def twoSevenths : ℝ := 5146971002709138 * 2 ^ (-54 : ℤ)
@[inherit_doc twoSevenths]
noncomputable def threeSevenths : ℝ := 7720456504063707 * 2 ^ (-54 : ℤ)
@[inherit_doc twoSevenths]
noncomputable def sixSevenths : ℝ := 7720456504063707 * 2 ^ (-53 : ℤ)

theorem sevenths : F64.ofExact ((2 : ℝ) / 7) = .fin twoSevenths ∧ F64.ofExact ((3 : ℝ) / 7) = .fin threeSevenths ∧ F64.ofExact ((6 : ℝ) / 7) = .fin sixSevenths ∧ F64.ofExact ((-6 : ℝ) / 7) = .fin (-sixSevenths) := by
  refine ⟨?_, ?_, ?_, ?_⟩
  · rw [ofExact_at 5146971002709138 (-54) (by norm_num) (by norm_num) (by norm_num) (by norm_num) (by norm_num) (by norm_num), twoSevenths]; norm_num
  · rw [ofExact_at 7720456504063707 (-54) (by norm_num) (by norm_num) (by norm_num) (by norm_num) (by norm_num) (by norm_num), threeSevenths]; norm_num
  · rw [ofExact_at 7720456504063707 (-53) (by norm_num) (by norm_num) (by norm_num) (by norm_num) (by norm_num) (by norm_num), sixSevenths]; norm_num
  · rw [ofExact_at (-7720456504063707) (-53) (by norm_num) (by norm_num) (by norm_num) (by norm_num) (by norm_num) (by norm_num), sixSevenths]; norm_num

theorem normalized_236 (o : Bool) : (doubles ⟨2, 3, 6⟩).squaredNorm o = .fin 49 ∧ (doubles ⟨2, 3, 6⟩).normalized o = doubles ⟨twoSevenths, threeSevenths, sixSevenths⟩ ∧
    (doubles ⟨3, -6, 2⟩).normalized o = doubles ⟨threeSevenths, -sixSevenths, twoSevenths⟩ := by
  have i4 := ofExact_int 4 (by norm_num)
  have i9 := ofExact_int 9 (by norm_num)
  have i13 := ofExact_int 13 (by norm_num)
  have i36 := ofExact_int 36 (by norm_num)
  have i40 := ofExact_int 40 (by norm_num)
  have i45 := ofExact_int 45 (by norm_num)
  have i49 := ofExact_int 49 (by norm_num)
  norm_num at i4 i9 i13 i36 i40 i45 i49
  have r7 : Representable (7 : ℝ) := by simpa using representable_int (α := ℝ) (m := 7) (by norm_num)
  have es : (F64.fin (49 : ℝ)).sqrt = .fin 7 := by
    have : √(49 : ℝ) = 7 := by rw [show (49 : ℝ) = 7 ^ 2 by norm_num]; exact Real.sqrt_sq (by norm_num)
    simp only [F64.sqrt, this, rnd_exact r7]
    rw [if_neg (by norm_num)]
  have q1 : (doubles ⟨2, 3, 6⟩).squaredNorm o = .fin 49 := by
    simp only [DVec.squaredNorm, DVec.dot, doubles, F64.mul]
    cases o <;> norm_num [i4, i9, i36, F64.add, i13, i45, i49, DVec.sum]
  have q2 : (doubles ⟨3, -6, 2⟩).squaredNorm o = .fin 49 := by
    simp only [DVec.squaredNorm, DVec.dot, doubles, F64.mul]
    cases o <;> norm_num [i4, i9, i36, F64.add, i40, i45, i49, DVec.sum]
  obtain ⟨v1, v2, v3, v4⟩ := sevenths
  refine ⟨q1, ?_, ?_⟩
  · rw [doubles] at q1
    simp only [DVec.normalized, DVec.div, q1, es, F64.lt, doubles, F64.div, v1, v2, v3]
    norm_num
  · rw [doubles] at q2
    simp only [DVec.normalized, DVec.div, q2, es, F64.lt, doubles, F64.div, v1, v2, v4]
    norm_num

theorem sevenths_dot (o : Bool) : dotR o ⟨threeSevenths, -sixSevenths, twoSevenths⟩ ⟨twoSevenths, threeSevenths, sixSevenths⟩ = if o then -2 ^ (-56 : ℤ) else -2 ^ (-55 : ℤ) := by
  have e1 : rnd (threeSevenths * twoSevenths) = 8823378861787093 * 2 ^ (-56 : ℤ) := by
    rw [threeSevenths, twoSevenths, rnd_eq 8823378861787093 (-56) (by norm_num) (by norm_num) (by norm_num) (by norm_num)]; norm_num
  have e2 : rnd (-sixSevenths * threeSevenths) = -6617534146340320 * 2 ^ (-54 : ℤ) := by
    rw [threeSevenths, sixSevenths, rnd_eq (-6617534146340320) (-54) (by norm_num) (by norm_num) (by norm_num) (by norm_num)]; norm_num
  have e3 : rnd (twoSevenths * sixSevenths) = 8823378861787093 * 2 ^ (-55 : ℤ) := by
    rw [twoSevenths, sixSevenths, rnd_eq 8823378861787093 (-55) (by norm_num) (by norm_num) (by norm_num) (by norm_num)]; norm_num
  have e4 : rnd ((8823378861787093 : ℝ) * 2 ^ (-56 : ℤ) + -6617534146340320 * 2 ^ (-54 : ℤ)) = -8823378861787094 * 2 ^ (-55 : ℤ) := by
    rw [rnd_eq (-8823378861787094) (-55) (by norm_num) (by norm_num) (by norm_num) (by norm_num)]; norm_num
  have e5 : rnd ((-6617534146340320 : ℝ) * 2 ^ (-54 : ℤ) + 8823378861787093 * 2 ^ (-55 : ℤ)) = -8823378861787094 * 2 ^ (-56 : ℤ) := by
    rw [rnd_eq (-8823378861787094) (-56) (by norm_num) (by norm_num) (by norm_num) (by norm_num)]; norm_num
  have e6 : rnd ((-8823378861787094 : ℝ) * 2 ^ (-55 : ℤ) + 8823378861787093 * 2 ^ (-55 : ℤ)) = -2 ^ (-55 : ℤ) := by
    rw [show (-8823378861787094 : ℝ) * 2 ^ (-55 : ℤ) + 8823378861787093 * 2 ^ (-55 : ℤ) = -2 ^ (-55 : ℤ) by norm_num, rnd_neg, rnd_exact (F64.representable_pow (by norm_num))]
  have e7 : rnd ((8823378861787093 : ℝ) * 2 ^ (-56 : ℤ) + -8823378861787094 * 2 ^ (-56 : ℤ)) = -2 ^ (-56 : ℤ) := by
    rw [show (8823378861787093 : ℝ) * 2 ^ (-56 : ℤ) + -8823378861787094 * 2 ^ (-56 : ℤ) = -2 ^ (-56 : ℤ) by norm_num, rnd_neg, rnd_exact (F64.representable_pow (by norm_num))]
  cases o
  · simp only [dotR, DVec.dot3, DVec.sum3, e1, e2, e3, e4, e6, Bool.false_eq_true, if_false]
  · simp only [dotR, DVec.dot3, DVec.sum3, e1, e2, e3, e5, e7, if_true]

/-- C139: the line from (0, 0, 0) along (2, 3, 6) is parallel to the plane through (3, -6, 2) with the normal (3, -6, 2) and has no point in common with it, but is said to intersect it -/
theorem C139_parallel_violated (o : Bool) : LineSet ⟨0, 0, 0⟩ ⟨2, 3, 6⟩ ∩ PlaneSet ⟨3, -6, 2⟩ ⟨3, -6, 2⟩ = ∅ ∧
    ∃ l r, DLine.ctor o (doubles ⟨0, 0, 0⟩) (doubles ⟨2, 3, 6⟩) = .ok l ∧
      DLine.intersectsPlane o l.1 l.2 (DPlane.ctor o (doubles ⟨3, -6, 2⟩) (doubles ⟨3, -6, 2⟩)).1 (DPlane.ctor o (doubles ⟨3, -6, 2⟩) (doubles ⟨3, -6, 2⟩)).2 = .ok true ∧
      DLine.intersectionWithPlane o l.1 l.2 (DPlane.ctor o (doubles ⟨3, -6, 2⟩) (doubles ⟨3, -6, 2⟩)).1 (DPlane.ctor o (doubles ⟨3, -6, 2⟩) (doubles ⟨3, -6, 2⟩)).2 = .ok (.point r) := by
  constructor
  · ext p
    simp only [LineSet, PlaneSet, Set.mem_inter_iff, Set.mem_ofPred_eq, Set.mem_empty_iff_false, iff_false, not_and]
    rintro ⟨t, rfl⟩ h
    simp only [V3.dot, V3.sub_x, V3.sub_y, V3.sub_z, V3.add_x, V3.add_y, V3.add_z, V3.smul_x, V3.smul_y, V3.smul_z] at h
    linarith
  · obtain ⟨q, n1, n2⟩ := normalized_236 o
    have hd : (⟨twoSevenths, threeSevenths, sixSevenths⟩ : V3).norm ≤ 2 := by
      rw [V3.norm, Real.sqrt_le_left (by norm_num)]
      simp only [V3.normSq, V3.dot, twoSevenths, threeSevenths, sixSevenths]; norm_num
    have hn : (⟨threeSevenths, -sixSevenths, twoSevenths⟩ : V3).norm ≤ 2 := by
      rw [V3.norm, Real.sqrt_le_left (by norm_num)]
      simp only [V3.normSq, V3.dot, twoSevenths, threeSevenths, sixSevenths]; norm_num
    have w : dotR o ⟨threeSevenths, -sixSevenths, twoSevenths⟩ ⟨twoSevenths, threeSevenths, sixSevenths⟩ ≠ 0 := by
      rw [sevenths_dot]
      split_ifs
      · exact neg_ne_zero.2 (two_zpow_pos _).ne'
      · exact neg_ne_zero.2 (two_zpow_pos _).ne'
    have e1 : (F64.fin (49 : ℝ)).eq (.fin 1) = false := by simp [F64.eq]
    have e2 : (F64.fin (49 : ℝ)).eq (.fin 0) = false := by simp [F64.eq]
    have hp : ∃ r, DLine.intersectionWithPlane o (doubles ⟨0, 0, 0⟩) (doubles ⟨twoSevenths, threeSevenths, sixSevenths⟩) (doubles ⟨3, -6, 2⟩) (doubles ⟨threeSevenths, -sixSevenths, twoSevenths⟩) = .ok (.point r) := by
      simp only [DLine.intersectionWithPlane, doubles_defined, dot_of_direction o hn hd, eq_zero, w, decide_false, Bool.not_true, Bool.or_self, Bool.false_eq_true, if_false]
      exact ⟨_, rfl⟩
    obtain ⟨r, hr⟩ := hp
    refine ⟨(doubles ⟨0, 0, 0⟩, doubles ⟨twoSevenths, threeSevenths, sixSevenths⟩), r, ?_, ?_, by simp only [DPlane.ctor, n2, hr]⟩
    · simp only [DLine.ctor, doubles_defined, q, e1, e2, n1, Bool.not_false, Bool.and_true, if_true, Bool.false_eq_true, if_false]
    · simp only [DPlane.ctor, DLine.intersectsPlane, doubles_defined, n2, dot_of_direction o hn hd, eq_zero, w, decide_false, Bool.not_true, Bool.or_self, Bool.false_eq_true, if_false]

theorem sub_huge : (F64.fin ((2 : ℝ) ^ 1023)).sub (.fin (-2 ^ 1023)) = .inf false ∧ (F64.fin (-(2 : ℝ) ^ 1023)).sub (.fin (2 ^ 1023)) = .inf true := by
  have p : (0 : ℝ) < 2 ^ 1023 := by positivity
  have e : (2 : ℝ) ^ 1024 = 2 * 2 ^ 1023 := by rw [show (1024 : ℕ) = 1023 + 1 from rfl, pow_succ, mul_comm]
  have r : rnd ((2 : ℝ) ^ 1024) = 2 ^ 1024 := rnd_exact (DQuat.rep_two 1024)
  constructor
  · rw [DAngle.sub_fin, show (2 : ℝ) ^ 1023 - -2 ^ 1023 = 2 ^ 1024 by rw [e]; ring, F64.ofExact, r, if_pos (le_abs_self _), decide_eq_false]
    exact not_lt.2 (by positivity)
  · rw [DAngle.sub_fin, show -(2 : ℝ) ^ 1023 - 2 ^ 1023 = -2 ^ 1024 by rw [e]; ring, F64.ofExact, rnd_neg, r, abs_neg, if_pos (le_abs_self _), decide_eq_true]
    exact neg_lt_zero.2 (by positivity)

/-- C139: with coordinates near the largest double the parameter is not a number; a ray or segment that meets the plane is said not to intersect it, and a point that is not a number is returned -/
theorem C139_agree_violated (o : Bool) :
    DRay.intersectsPlane o (doubles ⟨-2 ^ 1023, 2 ^ 1023, 0⟩) (doubles ⟨-1, 0, 0⟩) (DPlane.ctor o (doubles ⟨2 ^ 1023, -2 ^ 1023, 0⟩) (doubles ⟨3, 4, 0⟩)).1 (DPlane.ctor o (doubles ⟨2 ^ 1023, -2 ^ 1023, 0⟩) (doubles ⟨3, 4, 0⟩)).2 = .ok false ∧
      DRay.intersectionWithPlane o (doubles ⟨-2 ^ 1023, 2 ^ 1023, 0⟩) (doubles ⟨-1, 0, 0⟩) (DPlane.ctor o (doubles ⟨2 ^ 1023, -2 ^ 1023, 0⟩) (doubles ⟨3, 4, 0⟩)).1 (DPlane.ctor o (doubles ⟨2 ^ 1023, -2 ^ 1023, 0⟩) (doubles ⟨3, 4, 0⟩)).2 = .ok (.point ⟨.nan, .nan, .nan⟩) ∧
      (RaySet ⟨-2 ^ 1023, 2 ^ 1023, 0⟩ ⟨-1, 0, 0⟩ ∩ PlaneSet ⟨2 ^ 1023, -2 ^ 1023, 0⟩ ⟨3, 4, 0⟩).Nonempty := by
  obtain ⟨n, -, -⟩ := normalized_345 o
  have p3 : 0 < threeFifths := by rw [threeFifths]; positivity
  have p4 : 0 < fourFifths := by rw [fourFifths]; positivity
  have z0 : F64.ofExact (0 : ℝ) = .fin 0 := by simpa using ofExact_int 0 (by norm_num)
  have r3 : rnd threeFifths = threeFifths := by rw [threeFifths, rnd_eq 5404319552844595 (-53) (by norm_num) (by norm_num) (by norm_num) (by norm_num)]; norm_num
  have b3 : |threeFifths| < 2 ^ 1024 := by
    refine lt_of_le_of_lt (b := 1) ?_ (one_lt_pow₀ one_lt_two (by norm_num))
    rw [threeFifths, abs_of_nonneg (by positivity)]; norm_num
  have x3 : F64.ofExact (-threeFifths) = .fin (-threeFifths) := by rw [F64.ofExact_fin] <;> rw [rnd_neg, r3]; rwa [abs_neg]
  have nd : (doubles ⟨threeFifths, fourFifths, 0⟩).dot o (doubles ⟨-1, 0, 0⟩) = .fin (-threeFifths) := by
    cases o <;> simp [DVec.dot, doubles, F64.mul, DVec.sum, F64.add, z0, x3]
  have w : -threeFifths ≠ 0 := neg_ne_zero.2 p3.ne'
  have nq : (doubles ⟨threeFifths, fourFifths, 0⟩).dot o ((doubles ⟨2 ^ 1023, -2 ^ 1023, 0⟩).sub (doubles ⟨-2 ^ 1023, 2 ^ 1023, 0⟩)) = .nan := by
    simp only [DVec.sub, doubles, sub_huge.1, sub_huge.2]
    rw [DAngle.sub_self_fin]
    cases o <;> simp [DVec.dot, F64.mul, DVec.sum, F64.add, z0, p3.ne', p4.ne', not_lt.2 p3.le, not_lt.2 p4.le]
  refine ⟨?_, ?_, ⟨-(5 / 3) * 2 ^ 1023, 2 ^ 1023, 0⟩, ⟨2 / 3 * 2 ^ 1023, by positivity, ?_⟩, ?_⟩
  · simp only [DPlane.ctor, DRay.intersectsPlane, n, doubles_defined, nd, nq, eq_zero, w, decide_false, Bool.not_true, Bool.or_self, Bool.false_eq_true, if_false]
    rfl
  · simp only [DPlane.ctor, DRay.intersectionWithPlane, n, doubles_defined, nd, nq, eq_zero, w, decide_false, Bool.not_true, Bool.or_self, Bool.false_eq_true, if_false]
    rfl
  · generalize (2 : ℝ) ^ 1023 = M
    ext <;> simp; ring
  · generalize (2 : ℝ) ^ 1023 = M
    simp only [PlaneSet, Set.mem_ofPred_eq, V3.dot, V3.sub_x, V3.sub_y, V3.sub_z]; ring

/-- a result is returned if `D` holds, and otherwise the failure is "undefined" -/
def RefusedUnless {α : Type} (D : Prop) (x : Res α) : Prop := (D → ∃ r, x = .ok r) ∧ (¬ D → x = .error .undefined)

/-- **C139.** Each of the functions fails with "undefined" exactly if one of its arguments has a coordinate that is not a number, and otherwise returns a result. -/
theorem C139_undefined (o : Bool) (a b q n : DVec) :
    RefusedUnless (a.isDefined = true ∧ b.isDefined = true ∧ q.isDefined = true ∧ n.isDefined = true) (DLine.intersectsPlane o a b q n) ∧
      RefusedUnless (a.isDefined = true ∧ b.isDefined = true ∧ q.isDefined = true ∧ n.isDefined = true) (DLine.intersectionWithPlane o a b q n) ∧
      RefusedUnless (a.isDefined = true ∧ b.isDefined = true ∧ q.isDefined = true ∧ n.isDefined = true) (DRay.intersectsPlane o a b q n) ∧
      RefusedUnless (a.isDefined = true ∧ b.isDefined = true ∧ q.isDefined = true ∧ n.isDefined = true) (DRay.intersectionWithPlane o a b q n) ∧
      RefusedUnless (a.isDefined = true ∧ b.isDefined = true ∧ q.isDefined = true ∧ n.isDefined = true) (DSegment.intersectsPlane o a b q n) ∧
      RefusedUnless (a.isDefined = true ∧ b.isDefined = true ∧ q.isDefined = true ∧ n.isDefined = true) (DSegment.intersectionWithPlane o a b q n) ∧
      RefusedUnless (a.isDefined = true ∧ b.isDefined = true ∧ q.isDefined = true) (DLine.distanceTo o a b q) ∧
      RefusedUnless (a.isDefined = true ∧ b.isDefined = true ∧ q.isDefined = true) (DRay.distanceTo o a b q) := by
  cases ha : a.isDefined <;> cases hb : b.isDefined <;> cases hq : q.isDefined <;> cases hn : n.isDefined <;>
    simp only [RefusedUnless, DLine.intersectsPlane, DLine.intersectionWithPlane, DRay.intersectsPlane, DRay.intersectionWithPlane, DSegment.intersectsPlane, DSegment.intersectionWithPlane, DLine.distanceTo, DRay.distanceTo, ha, hb, hq, hn] <;>
    refine ⟨⟨fun h => ?_, fun h => ?_⟩, ⟨fun h => ?_, fun h => ?_⟩, ⟨fun h => ?_, fun h => ?_⟩, ⟨fun h => ?_, fun h => ?_⟩, ⟨fun h => ?_, fun h => ?_⟩, ⟨fun h => ?_, fun h => ?_⟩, ⟨fun h => ?_, fun h => ?_⟩, ⟨fun h => ?_, fun h => ?_⟩⟩ <;>
    first | rfl | (exfalso; simp at h; done) | (simp only [Bool.not_true, Bool.or_self, Bool.false_eq_true, if_false]; first | exact ⟨_, rfl⟩ | (split_ifs <;> exact ⟨_, rfl⟩))

/-- the hypotheses of the C139 theorems hold for points such as (1, 2, 3), (4, 5, 6), for the normal (3/5, 4/5, 0) in doubles and the direction (0, 0, 1) -/
example : Small ⟨1, 2, 3⟩ ∧ Small ⟨4, 5, 6⟩ ∧ (⟨threeFifths, fourFifths, 0⟩ : V3).norm ≤ 2 ∧ 1 / 2 ≤ (⟨threeFifths, fourFifths, 0⟩ : V3).norm ∧ (⟨0, 0, 1⟩ : V3).norm = 1 := by
  have k : ∀ m : ℤ, |m| ≤ 2 ^ 53 → Representable (m : ℝ) ∧ |(m : ℝ)| ≤ 2 ^ 248 := fun m h => small_of_int m h
  have h1 := k 1 (by norm_num)
  have h2 := k 2 (by norm_num)
  have h3 := k 3 (by norm_num)
  have h4 := k 4 (by norm_num)
  have h5 := k 5 (by norm_num)
  have h6 := k 6 (by norm_num)
  push_cast at h1 h2 h3 h4 h5 h6
  refine ⟨⟨h1, h2, h3⟩, ⟨h4, h5, h6⟩, fifths_norm, ?_, by simp [V3.norm, V3.normSq, V3.dot]⟩
  rw [V3.norm]
  refine Real.le_sqrt_of_sq_le ?_
  simp only [V3.normSq, V3.dot, threeFifths, fourFifths]
  norm_num

/-- a segment with its ends clearly on the two sides of the plane of points whose third coordinate is 1 -/
example : (⟨0, 0, 1⟩ : V3).dot (⟨0, 0, 0⟩ - ⟨0, 0, 1⟩) < -sideError ⟨0, 0, 0⟩ ⟨0, 0, 4⟩ ⟨0, 0, 1⟩ ⟨0, 0, 1⟩ ∧ sideError ⟨0, 0, 0⟩ ⟨0, 0, 4⟩ ⟨0, 0, 1⟩ ⟨0, 0, 1⟩ < (⟨0, 0, 1⟩ : V3).dot (⟨0, 0, 4⟩ - ⟨0, 0, 1⟩) := by
  have n1 : (⟨0, 0, 1⟩ : V3).norm = 1 := by simp [V3.norm, V3.normSq, V3.dot]
  have n2 : (⟨0, 0, 1⟩ - ⟨0, 0, 0⟩ : V3).norm = 1 := by simp [V3.norm, V3.normSq, V3.dot]
  have n3 : (⟨0, 0, 4⟩ - ⟨0, 0, 0⟩ : V3).norm = 4 := by
    rw [V3.norm, show (⟨0, 0, 4⟩ - ⟨0, 0, 0⟩ : V3).normSq = 4 ^ 2 by simp [V3.normSq, V3.dot]; norm_num]; exact Real.sqrt_sq (by norm_num)
  have p : (2 : ℝ) ^ (-1072 : ℤ) ≤ 2 ^ (-50 : ℤ) := zpow_le_zpow_right₀ one_le_two (by norm_num)
  rw [sideError, n1, n2, n3]
  generalize (2 : ℝ) ^ (-1072 : ℤ) = x at *
  norm_num [V3.dot] at p ⊢
  constructor <;> linarith

end Verif.Props
