import Verif.Model.DoublePlane
import Verif.Props.DoubleDistance
import Verif.Props.DoubleSphere
import Verif.Props.Linear3
import Verif.Lemmas.DoubleCuboid
import Verif.Lemmas.DoubleShortest

/-!
# Lemmas on planes met by lines, rays and segments in double precision
-/

namespace Verif.Props

open Verif Verif.Spec Verif.Double

/-- a quotient compared with a finite number: as if it did not overflow -/
theorem quotient_order {x c : ℝ} (hc : |c| < 2 ^ 1024) : (F64.fin c).le (F64.ofExact x) = decide (c ≤ rnd x) ∧ (F64.ofExact x).le (.fin c) = decide (rnd x ≤ c) ∧
    (F64.ofExact x).lt (.fin c) = decide (rnd x < c) ∧ (F64.fin c).lt (F64.ofExact x) = decide (c < rnd x) := by
  by_cases h : 2 ^ 1024 ≤ |rnd x|
  · have e : F64.ofExact x = .inf (decide (x < 0)) := by rw [F64.ofExact, if_pos h]
    obtain ⟨c1, c2⟩ := abs_lt.1 hc
    have p : (0 : ℝ) < 2 ^ 1024 := by positivity
    rw [e]
    generalize (2 : ℝ) ^ 1024 = B at *
    by_cases hx : x < 0
    · have r0 : rnd x ≤ 0 := by have := rnd_mono hx.le; rwa [rnd_zero] at this
      rw [abs_of_nonpos r0] at h
      have k1 : ¬ c ≤ rnd x := by linarith
      have k2 : rnd x ≤ c := by linarith
      have k3 : rnd x < c := by linarith
      have k4 : ¬ c < rnd x := by linarith
      simp [F64.le, F64.lt, hx, k1, k2, k3, k4]
    · have r0 : 0 ≤ rnd x := by have := rnd_mono (not_lt.1 hx); rwa [rnd_zero] at this
      rw [abs_of_nonneg r0] at h
      have k1 : c ≤ rnd x := by linarith
      have k2 : ¬ rnd x ≤ c := by linarith
      have k3 : ¬ rnd x < c := by linarith
      have k4 : c < rnd x := by linarith
      simp [F64.le, F64.lt, hx, k1, k2, k3, k4]
  · rw [F64.ofExact, if_neg h]
    exact ⟨rfl, rfl, rfl, rfl⟩

theorem quotient_exact {x y : ℝ} (h : y ≠ 0) : (F64.fin x).div (.fin y) = F64.ofExact (x / y) := by rw [F64.div, if_neg h]

theorem zero_lt_big : |(0 : ℝ)| < 2 ^ 1024 := by rw [abs_zero]; positivity
theorem one_lt_big : |(1 : ℝ)| < 2 ^ 1024 := by rw [abs_one]; exact one_lt_pow₀ one_lt_two (by norm_num)

/-- the computed inner product of a vector and a difference of points -/
theorem form_near (o : Bool) (n : V3) {a b : V3} (ha : Within a) (hb : Within b) :
    |dotR o n (diff3 b a) - n.dot (b - a)| ≤ 402 / 100 * DQuat.u * (n.norm * (b - a).norm) + 31 / 10 * DQuat.t := by
  have u0 := DQuat.u_pos
  have us := DQuat.u_small
  have h1 := dotR_near o n (diff3 b a)
  have h2 := diff3_near hb ha
  have h3 := norm_mul_near h2
  have h4 := V3.abs_dot_le n (diff3 b a - (b - a))
  have e : n.dot (diff3 b a - (b - a)) = n.dot (diff3 b a) - n.dot (b - a) := by simp only [V3.dot, V3.sub_x, V3.sub_y, V3.sub_z]; ring
  rw [e] at h4
  have n0 := V3.norm_nonneg n
  have w0 := V3.norm_nonneg (b - a)
  have h5 := mul_le_mul_of_nonneg_left h2 n0
  have h6 := mul_le_mul_of_nonneg_left h3 n0
  have h7 : 301 / 100 * DQuat.u * (n.norm * (diff3 b a).norm) ≤ 301 / 100 * DQuat.u * (n.norm * ((1 + DQuat.u) * (b - a).norm)) := mul_le_mul_of_nonneg_left h6 (by positivity)
  have h8 := abs_sub_le (dotR o n (diff3 b a)) (n.dot (diff3 b a)) (n.dot (b - a))
  have z : 0 ≤ n.norm * (b - a).norm := mul_nonneg n0 w0
  rw [show n.norm * (DQuat.u * (b - a).norm) = DQuat.u * (n.norm * (b - a).norm) by ring] at h5
  rw [show n.norm * ((1 + DQuat.u) * (b - a).norm) = (1 + DQuat.u) * (n.norm * (b - a).norm) by ring] at h7
  generalize n.norm * (b - a).norm = z at *
  have z1 := mul_nonneg u0.le z
  have z2 := mul_le_mul_of_nonneg_right us z1
  linarith

/-- what the code decides from the two inner products -/
noncomputable def decides (A B : ℝ) : Bool := if B = 0 then decide (A = 0) else decide (0 ≤ rnd (A / B)) && decide (rnd (A / B) ≤ 1)

theorem decides_neg (A B : ℝ) : decides (-A) (-B) = decides A B := by simp [decides, neg_div_neg_eq]

theorem rep_one' : Representable (1 + 2 * DQuat.u) := ⟨2 ^ 52 + 1, -52, by norm_num, by norm_num, by rw [DQuat.u]; norm_num⟩

/-- the ends are on the two sides -/
theorem decides_across {A B x y E F : ℝ} (hA : |A + x| ≤ E) (hB : |B - (y - x)| ≤ F) (hx : x < -(E + F)) (hy : E + F < y) (hE : 0 ≤ E) (hF : 0 ≤ F) : decides A B = true := by
  obtain ⟨a1, a2⟩ := abs_le.1 hA
  obtain ⟨b1, b2⟩ := abs_le.1 hB
  have A0 : 0 < A := by linarith
  have AB : A ≤ B := by linarith
  have B0 : 0 < B := by linarith
  have q1 : 0 ≤ rnd (A / B) := by have := rnd_mono (div_pos A0 B0).le; rwa [rnd_zero] at this
  have q2 : rnd (A / B) ≤ 1 := by have := rnd_mono ((div_le_one B0).2 AB); rwa [rnd_exact rep_one] at this
  simp [decides, B0.ne', q1, q2]

/-- both ends are on the positive side -/
theorem decides_apart {A B x y E F : ℝ} (hA : |A + x| ≤ E) (hB : |B - (y - x)| ≤ F) (h : 3 * DQuat.u * |B| + E + F < x) (h' : 3 * DQuat.u * |B| + E + F < y) (hF : 0 ≤ F) : decides A B = false := by
  have u0 := DQuat.u_pos
  have us := DQuat.u_small
  obtain ⟨a1, a2⟩ := abs_le.1 hA
  obtain ⟨b1, b2⟩ := abs_le.1 hB
  have m0 : 0 ≤ 3 * DQuat.u * |B| := by positivity
  have A0 : A < 0 := by linarith
  rw [decides]
  split_ifs with hB0
  · simp [A0.ne]
  · rcases lt_or_gt_of_ne hB0 with hB1 | hB1
    · rw [abs_of_neg hB1] at h h' m0
      have q : 1 + 2 * DQuat.u ≤ A / B := by rw [le_div_iff_of_neg hB1]; linarith
      have := rnd_mono q
      rw [rnd_exact rep_one'] at this
      have k : ¬ rnd (A / B) ≤ 1 := not_le.2 (by linarith)
      simp [k]
    · rw [abs_of_pos hB1] at h h' m0
      have q : A / B ≤ -2 ^ (-60 : ℤ) := by
        rw [div_le_iff₀ hB1]
        have : (2 : ℝ) ^ (-60 : ℤ) ≤ 3 * DQuat.u := by rw [DQuat.u]; norm_num
        have := mul_le_mul_of_nonneg_right this hB1.le
        linarith
      have := rnd_mono q
      rw [rnd_neg, rnd_exact (F64.representable_pow (by norm_num))] at this
      have p := two_zpow_pos (α := ℝ) (-60)
      have k : ¬ 0 ≤ rnd (A / B) := not_le.2 (by linarith)
      simp [k]

/-- a vector of norm at most two has bounded components -/
theorem normal_bounded {n : V3} (h : n.norm ≤ 2) : Bounded 500 n := (norm_le_two_bounded h).mono (by norm_num)

theorem dot_of_diff (o : Bool) {n a b : V3} (hn : n.norm ≤ 2) (ha : Small a) (hb : Small b) : (doubles n).dot o ((doubles b).sub (doubles a)) = .fin (dotR o n (diff3 b a)) := by
  obtain ⟨e, k⟩ := sub_doubles (by norm_num) hb.bounded ha.bounded
  rw [e, dot_doubles o (normal_bounded hn) (k.mono (by norm_num))]

theorem eq_zero (x : ℝ) : (F64.fin x).eq (.fin 0) = decide (x = 0) := rfl

/-- what a segment and a plane decide -/
theorem segment_plane (o : Bool) {a b q n : V3} (ha : Small a) (hb : Small b) (hq : Small q) (hn : n.norm ≤ 2) :
    DSegment.intersectsPlane o (doubles a) (doubles b) (doubles q) (doubles n) = .ok (decides (dotR o n (diff3 q a)) (dotR o n (diff3 b a))) := by
  simp only [DSegment.intersectsPlane, doubles_defined, dot_of_diff o hn ha hb, dot_of_diff o hn ha hq, eq_zero, decides, Bool.not_true, Bool.or_self, Bool.false_eq_true, if_false, decide_eq_true_eq]
  split_ifs with h
  · rfl
  · rw [quotient_exact h, (quotient_order zero_lt_big).1, (quotient_order one_lt_big).2.1]

theorem far_bounds {U V N L1 L2 t : ℝ} (u0 : 0 < U) (us : U ≤ 1 / 10 ^ 15) (t0 : 0 < t) (hN : 0 ≤ N * L1) (hN' : 0 ≤ N * L2) (hB : V ≤ N * L2 + (402 / 100 * U * (N * L2) + 31 / 10 * t)) :
    3 * U * V + (402 / 100 * U * (N * L1) + 31 / 10 * t) + (402 / 100 * U * (N * L2) + 31 / 10 * t) ≤ 8 * U * (N * (L1 + L2)) + 8 * t := by
  have h := mul_le_mul_of_nonneg_left hB (show 0 ≤ 3 * U by positivity)
  have z2 := mul_nonneg u0.le hN'
  have z1 := mul_nonneg u0.le hN
  have z3 := mul_le_mul_of_nonneg_right us z2
  have z4 := mul_le_mul_of_nonneg_right us t0.le
  rw [mul_add N]
  nlinarith

/-- three coordinates are numbers of the format -/
structure Rep3 (a : V3) : Prop where
  x : Representable a.x
  y : Representable a.y
  z : Representable a.z

theorem scale3_rep (k : ℝ) (v : V3) : Rep3 (scale3 k v) := ⟨rnd_representable _, rnd_representable _, rnd_representable _⟩

theorem sum3_rep_near {a v : V3} (ha : Rep3 a) (hv : Rep3 v) : (sum3' a v - (a + v)).norm ≤ DQuat.u * (a + v).norm := by
  have key : ∀ x y : ℝ, Representable x → Representable y → |rnd (x + y) - (x + y)| ≤ DQuat.u * |x + y| := fun x y hx hy => by
    obtain ⟨d, kd, e⟩ := DLinear.rnd_sum hx hy
    rw [e, show (x + y) * (1 + d) - (x + y) = d * (x + y) by ring, abs_mul]
    exact mul_le_mul_of_nonneg_right kd (abs_nonneg _)
  exact norm_le_mul DQuat.u_pos.le (key _ _ ha.x hv.x) (key _ _ ha.y hv.y) (key _ _ ha.z hv.z)

/-- the point computed from a parameter is near the point of the line with that parameter -/
theorem at_near {a v V : V3} (ha : Rep3 a) (k : ℝ) (dv : (v - V).norm ≤ DQuat.u * V.norm) :
    (sum3' a (scale3 k v) - (a + k • V)).norm ≤ DQuat.u * (a.norm + 301 / 100 * (|k| * V.norm)) + 201 / 100 * DQuat.t := by
  have u0 := DQuat.u_pos
  have us := DQuat.u_small
  have t0 := DQuat.t_pos
  have h1 := sum3_rep_near ha (scale3_rep k v)
  have h2 := scale3_near k v
  have h3 := norm_mul_near dv
  have h4 : (k • v - k • V).norm = |k| * (v - V).norm := by rw [← V3.norm_smul]; congr 1; ext <;> simp <;> ring
  have h5 := V3.norm_add_le a (scale3 k v)
  have h6 := V3.norm_le_add (scale3 k v) (k • v)
  rw [V3.norm_smul] at h6
  have e : sum3' a (scale3 k v) - (a + k • V) = (sum3' a (scale3 k v) - (a + scale3 k v)) + ((scale3 k v - k • v) + (k • v - k • V)) := by ext <;> simp <;> ring
  have h7 := V3.norm_add_le (sum3' a (scale3 k v) - (a + scale3 k v)) ((scale3 k v - k • v) + (k • v - k • V))
  have h8 := V3.norm_add_le (scale3 k v - k • v) (k • v - k • V)
  rw [← e] at h7
  have k0 := abs_nonneg k
  have m1 := mul_le_mul_of_nonneg_left h3 k0
  have m2 := mul_le_mul_of_nonneg_left dv k0
  have m3 := mul_le_mul_of_nonneg_left h5 u0.le
  have m4 := mul_le_mul_of_nonneg_left h6 u0.le
  have m5 := mul_le_mul_of_nonneg_left h2 u0.le
  rw [show |k| * ((1 + DQuat.u) * V.norm) = (1 + DQuat.u) * (|k| * V.norm) by ring] at m1
  rw [show |k| * (DQuat.u * V.norm) = DQuat.u * (|k| * V.norm) by ring] at m2
  have z0 : 0 ≤ |k| * V.norm := mul_nonneg k0 (V3.norm_nonneg _)
  have m6 := mul_le_mul_of_nonneg_left m1 u0.le
  have w0 : 0 ≤ |k| * v.norm := mul_nonneg k0 (V3.norm_nonneg _)
  generalize |k| * V.norm = Z at *
  generalize |k| * v.norm = W at *
  have z1 := mul_nonneg u0.le z0
  have z2 := mul_le_mul_of_nonneg_right us z1
  have z3 := mul_le_mul_of_nonneg_right us t0.le
  have z4 := mul_le_mul_of_nonneg_left m6 u0.le
  have z5 := mul_le_mul_of_nonneg_right us (mul_nonneg u0.le z1)
  nlinarith

/-- the value at the point with the computed parameter -/
theorem value_near {a V n q : V3} {A B E F : ℝ} (hB0 : B ≠ 0) (hA : |A + n.dot (a - q)| ≤ E) (hB : |B - n.dot V| ≤ F) :
    |n.dot (a + rnd (A / B) • V - q)| ≤ E + |rnd (A / B)| * F + DQuat.u * |A| + DQuat.t * |B| := by
  obtain ⟨d, h, kd, kh, e⟩ := DLinear.rnd_split (A / B)
  have e1 : rnd (A / B) * B - A = A * d + h * B := by rw [e]; field_simp; ring
  generalize rnd (A / B) = k at *
  have e2 : n.dot (a + k • V - q) = (A + n.dot (a - q)) - k * (B - n.dot V) + (k * B - A) := by
    simp only [V3.dot, V3.sub_x, V3.sub_y, V3.sub_z, V3.add_x, V3.add_y, V3.add_z, V3.smul_x, V3.smul_y, V3.smul_z]; ring
  rw [e2, e1]
  have m1 : |A * d| ≤ DQuat.u * |A| := by rw [abs_mul, mul_comm]; exact mul_le_mul_of_nonneg_right kd (abs_nonneg _)
  have m2 : |h * B| ≤ DQuat.t * |B| := by rw [abs_mul]; exact mul_le_mul_of_nonneg_right kh (abs_nonneg _)
  have m3 : |k * (B - n.dot V)| ≤ |k| * F := by rw [abs_mul]; exact mul_le_mul_of_nonneg_left hB (abs_nonneg _)
  have a1 := abs_add_le ((A + n.dot (a - q)) - k * (B - n.dot V)) (A * d + h * B)
  have a2 := abs_sub (A + n.dot (a - q)) (k * (B - n.dot V))
  have a3 := abs_add_le (A * d) (h * B)
  linarith

/-- the value at the computed point -/
theorem value_at {n q R S : V3} : |n.dot (R - q)| ≤ n.norm * (R - S).norm + |n.dot (S - q)| := by
  have e : n.dot (R - q) = n.dot (R - S) + n.dot (S - q) := by simp only [V3.dot, V3.sub_x, V3.sub_y, V3.sub_z]; ring
  rw [e]
  exact (abs_add_le _ _).trans (add_le_add (V3.abs_dot_le _ _) le_rfl)

/-- a finite sum has finite terms -/
theorem fin_of_add_mul {T : F64 ℝ} {a d r : ℝ} (h : (F64.fin a).add (T.mul (.fin d)) = .fin r) : ∃ k, T = .fin k ∧ r = rnd (a + rnd (k * d)) := by
  have ex : ∀ {x y : ℝ}, F64.ofExact x = .fin y → y = rnd x := fun {x y} h => by
    rw [F64.ofExact] at h
    split_ifs at h
    exact (F64.fin.inj h).symm
  cases T with
  | nan => simp [F64.mul, F64.add] at h
  | inf s =>
    by_cases hd : d = 0
    · simp [F64.mul, F64.add, hd] at h
    · simp [F64.mul, F64.add, hd] at h
  | fin k =>
    refine ⟨k, rfl, ?_⟩
    simp only [F64.mul] at h
    by_cases hk : 2 ^ 1024 ≤ |rnd (k * d)|
    · rw [F64.ofExact, if_pos hk] at h; simp [F64.add] at h
    · rw [show F64.ofExact (k * d) = .fin (rnd (k * d)) by rw [F64.ofExact, if_neg hk], F64.add] at h
      exact ex h

theorem finite_at {T : F64 ℝ} {a d R : V3} (h : (doubles a).add (DVec.scale T (doubles d)) = doubles R) : ∃ k, T = .fin k ∧ R = sum3' a (scale3 k d) := by
  simp only [doubles, DVec.add, DVec.scale, DVec.mk.injEq] at h
  obtain ⟨k, e, h1⟩ := fin_of_add_mul h.1
  obtain ⟨k2, e2, h2⟩ := fin_of_add_mul h.2.1
  obtain ⟨k3, e3, h3⟩ := fin_of_add_mul h.2.2
  rw [e] at e2 e3
  cases e2; cases e3
  exact ⟨k, e, by ext <;> assumption⟩

/-- with a parameter from 0 to 1 nothing overflows -/
theorem at_finite {a v : V3} {k : ℝ} (ha : Bounded 248 a) (hv : Bounded 249 v) (h0 : 0 ≤ k) (h1 : k ≤ 1) :
    (doubles a).add (DVec.scale (.fin k) (doubles v)) = doubles (sum3' a (scale3 k v)) := by
  have key : ∀ {x y : ℝ}, |x| ≤ 2 ^ 248 → |y| ≤ 2 ^ 249 → (F64.fin x).add ((F64.fin k).mul (.fin y)) = .fin (rnd (x + rnd (k * y))) := fun {x y} hx hy => by
    have m : |k * y| ≤ 2 ^ 249 := by
      rw [abs_mul, abs_of_nonneg h0]
      exact (mul_le_of_le_one_left (abs_nonneg _) h1).trans hy
    have r : |rnd (k * y)| ≤ 2 ^ 249 := DLinear.rnd_abs_le (DQuat.rep_two 249) m
    rw [F64.mul, F64.ofExact_fin (lt_of_le_of_lt r (DQuat.two_lt (by norm_num)))]
    exact (DVec.add_fin2 (n := 249) (by norm_num) (hx.trans (pow_le_pow_right₀ one_le_two (by norm_num))) r).1
  simp only [doubles, DVec.add, DVec.scale, sum3', scale3, key ha.1 hv.1, key ha.2.1 hv.2.1, key ha.2.2 hv.2.2]

theorem ofExact_finite {x k : ℝ} (h : F64.ofExact x = .fin k) : k = rnd x := by
  rw [F64.ofExact] at h
  split_ifs at h
  exact (F64.fin.inj h).symm

/-- the numbers in the bound on the value, for a segment -/
theorem segment_sum {U t N L1 L2 a E F A B k D : ℝ} (u0 : 0 < U) (us : U ≤ 1 / 10 ^ 15) (t0 : 0 < t) (tu : t ≤ U / 10 ^ 9) (N0 : 0 ≤ N) (N2 : N ≤ 2) (h1 : 0 ≤ L1) (h2 : 0 ≤ L2)
    (hE : E = 402 / 100 * U * (N * L1) + 31 / 10 * t) (hF : F = 402 / 100 * U * (N * L2) + 31 / 10 * t) (hA : A ≤ N * L1 + E) (hB : B ≤ N * L2 + F) (k1 : k ≤ 1) (hD : D ≤ U * (a + 301 / 100 * (k * L2)) + 201 / 100 * t) :
    N * D + (E + k * F + U * A + t * B) ≤ U * (N * (a + 8 * (L1 + L2))) + 16 * t := by
  have z1 := mul_nonneg N0 h1
  have z2 := mul_nonneg N0 h2
  have F0 : 0 ≤ F := by rw [hF]; positivity
  have m1 : k * F ≤ F := mul_le_of_le_one_left F0 k1
  have m2 : k * L2 ≤ L2 := mul_le_of_le_one_left h2 k1
  have m3 : D ≤ U * (a + 301 / 100 * L2) + 201 / 100 * t := hD.trans (by nlinarith)
  have m4 := mul_le_mul_of_nonneg_left m3 N0
  have m5 := mul_le_mul_of_nonneg_left hA u0.le
  have m6 := mul_le_mul_of_nonneg_left hB t0.le
  have m7 : N * t ≤ 2 * t := mul_le_mul_of_nonneg_right N2 t0.le
  subst hE; subst hF
  have s1 := mul_nonneg u0.le z1
  have s2 := mul_nonneg u0.le z2
  have s3 := mul_le_mul_of_nonneg_right us s1
  have s4 := mul_le_mul_of_nonneg_right us s2
  have s5 := mul_le_mul_of_nonneg_right us t0.le
  have s6 := mul_le_mul_of_nonneg_right tu z2
  have s7 := mul_le_mul_of_nonneg_right tu s2
  have s8 := mul_le_mul_of_nonneg_right tu t0.le
  have e : N * (U * (a + 301 / 100 * L2) + 201 / 100 * t) = U * (N * a) + 301 / 100 * (U * (N * L2)) + 201 / 100 * (N * t) := by ring
  rw [e] at m4
  have e' : U * (N * (a + 8 * (L1 + L2))) = U * (N * a) + 8 * (U * (N * L1)) + 8 * (U * (N * L2)) := by ring
  rw [e']
  generalize U * (N * a) = x0 at *
  nlinarith

/-- the last place of the smallest numbers, in the bounds -/
theorem t_16 : (2 : ℝ) ^ (-1071 : ℤ) = 16 * DQuat.t := by rw [DQuat.t, show (-1071 : ℤ) = 4 + -1075 by norm_num, zpow_add₀ two_ne_zero]; norm_num
theorem t_4 : (2 : ℝ) ^ (-1073 : ℤ) = 4 * DQuat.t := by rw [DQuat.t, show (-1073 : ℤ) = 2 + -1075 by norm_num, zpow_add₀ two_ne_zero]; norm_num

theorem div_53 (x : ℝ) : x / 2 ^ 53 = DQuat.u * x := by rw [DQuat.u]; ring

theorem dot_of_direction (o : Bool) {n d : V3} (hn : n.norm ≤ 2) (hd : d.norm ≤ 2) : (doubles n).dot o (doubles d) = .fin (dotR o n d) :=
  dot_doubles o (normal_bounded hn) (normal_bounded hd)

/-- the computed norm -/
noncomputable def normR (o : Bool) (v : V3) : ℝ := rnd (Real.sqrt (dotR o v v))

theorem dotR_self_nonneg (o : Bool) (v : V3) : 0 ≤ dotR o v v := dot3_self o v.x v.y v.z

theorem norm_doubles (o : Bool) {v : V3} (hv : Bounded 500 v) : (doubles v).norm o = .fin (normR o v) := by
  obtain ⟨e, k⟩ := dot_both o hv hv
  rw [DVec.norm, DVec.squaredNorm, e, F64.sqrt, if_neg (not_lt.2 (dotR_self_nonneg o v))]
  rfl

theorem normR_near (o : Bool) (v : V3) : |normR o v - v.norm| ≤ 262 / 100 * DQuat.u * v.norm + 2 ^ (-535 : ℤ) := by
  have u0 := DQuat.u_pos
  have us := DQuat.u_small
  have h := dotR_near o v v
  have e : v.dot v = v.normSq := rfl
  rw [V3.norm_mul_self, e] at h
  have s0 := V3.normSq_nonneg v
  have k := DVec.root_near (c := 16 / 10 * DQuat.u) (dotR_self_nonneg o v) s0 (by positivity) (by linarith) (h.trans (by
    have := mul_le_mul_of_nonneg_right us (mul_nonneg u0.le s0)
    have := DQuat.t_pos
    nlinarith))
  have := mul_nonneg u0.le (V3.norm_nonneg v)
  refine k.trans (add_le_add ?_ le_rfl)
  change _ * v.norm ≤ _
  linarith

theorem plus_le (v w : V3) : (⟨|v.y * w.z| + |v.z * w.y|, |v.z * w.x| + |v.x * w.z|, |v.x * w.y| + |v.y * w.x|⟩ : V3).norm ≤ 1415 / 1000 * (v.norm * w.norm) := by
  have h1 := V3.norm_mul_self v
  have h2 := V3.norm_mul_self w
  have z : 0 ≤ 1415 / 1000 * (v.norm * w.norm) := by have := mul_nonneg (V3.norm_nonneg v) (V3.norm_nonneg w); positivity
  rw [V3.norm]
  refine Real.sqrt_le_iff.2 ⟨z, ?_⟩
  have e : (1415 / 1000 * (v.norm * w.norm)) ^ 2 = (1415 / 1000) ^ 2 * (v.normSq * w.normSq) := by rw [← h1, ← h2]; ring
  rw [e]
  simp only [V3.normSq, V3.dot, abs_mul]
  rw [← abs_mul_abs_self v.x, ← abs_mul_abs_self v.y, ← abs_mul_abs_self v.z, ← abs_mul_abs_self w.x, ← abs_mul_abs_self w.y, ← abs_mul_abs_self w.z]
  generalize |v.x| = a
  generalize |v.y| = b
  generalize |v.z| = c
  generalize |w.x| = x
  generalize |w.y| = y
  generalize |w.z| = w
  nlinarith [sq_nonneg (b * y - c * w), sq_nonneg (c * w - a * x), sq_nonneg (a * x - b * y), sq_nonneg (a * x), sq_nonneg (b * y), sq_nonneg (c * w), sq_nonneg (b * w), sq_nonneg (c * y), sq_nonneg (c * x), sq_nonneg (a * w), sq_nonneg (a * y), sq_nonneg (b * x)]

theorem norm_mono {v w : V3} (hx : |v.x| ≤ w.x) (hy : |v.y| ≤ w.y) (hz : |v.z| ≤ w.z) : v.norm ≤ w.norm := by
  rw [V3.norm_le_norm]
  simp only [V3.normSq, V3.dot]
  have k : ∀ {a b : ℝ}, |a| ≤ b → a * a ≤ b * b := fun {a b} h => by rw [← abs_mul_abs_self a]; exact mul_self_le_mul_self (abs_nonneg _) h
  linarith [k hx, k hy, k hz]

theorem cross3_near (v w : V3) : (cross3 v w - v.cross w).norm ≤ 285 / 100 * DQuat.u * (v.norm * w.norm) + 6 * DQuat.t := by
  have u0 := DQuat.u_pos
  have t0 := DQuat.t_pos
  set m : V3 := ⟨|v.y * w.z| + |v.z * w.y|, |v.z * w.x| + |v.x * w.z|, |v.x * w.y| + |v.y * w.x|⟩ with hm
  have h : (cross3 v w - v.cross w).norm ≤ ((201 / 100 * DQuat.u) • m + (3 * DQuat.t) • (⟨1, 1, 1⟩ : V3)).norm := by
    refine norm_mono ?_ ?_ ?_
    · have := DSegment.det_near (a := v.y) (b := w.z) (c := v.z) (d := w.y); simpa [cross3, hm] using this
    · have := DSegment.det_near (a := v.z) (b := w.x) (c := v.x) (d := w.z); simpa [cross3, hm] using this
    · have := DSegment.det_near (a := v.x) (b := w.y) (c := v.y) (d := w.x); simpa [cross3, hm] using this
  have h2 := V3.norm_add_le ((201 / 100 * DQuat.u) • m) ((3 * DQuat.t) • (⟨1, 1, 1⟩ : V3))
  rw [V3.norm_smul, V3.norm_smul, abs_of_pos (by positivity), abs_of_pos (by positivity)] at h2
  have h3 : (⟨1, 1, 1⟩ : V3).norm ≤ 2 := by
    rw [V3.norm]; refine Real.sqrt_le_iff.2 ⟨by norm_num, ?_⟩
    simp only [V3.normSq, V3.dot]; norm_num
  have h4 := mul_le_mul_of_nonneg_left (plus_le v w) (show 0 ≤ 201 / 100 * DQuat.u by positivity)
  have h5 := mul_le_mul_of_nonneg_left h3 (show 0 ≤ 3 * DQuat.t by positivity)
  have z := mul_nonneg u0.le (mul_nonneg (V3.norm_nonneg v) (V3.norm_nonneg w))
  rw [← hm] at h4
  linarith

theorem cross_le (v w : V3) : (v.cross w).norm ≤ v.norm * w.norm := by
  rw [V3.norm]
  refine Real.sqrt_le_iff.2 ⟨mul_nonneg (V3.norm_nonneg v) (V3.norm_nonneg w), ?_⟩
  rw [V3.lagrange, mul_pow, V3.norm_sq, V3.norm_sq]
  nlinarith [sq_nonneg (v.dot w)]

/-- the distance to a line with a unit direction -/
theorem line_distance {a e : V3} (he : e.norm = 1) (p : V3) : IsDistance (LineSet a e) p (e.cross (p - a)).norm := by
  obtain ⟨-, ⟨k, h, hk⟩, -⟩ := C43_line3 a e a e p he he
  have : Line3.distanceTo ⟨some a, some e⟩ (some p) = .ok (e.cross (p - a)).norm := rfl
  rw [this] at h
  cases h
  exact hk

/-- the distance to a ray with a unit direction -/
theorem ray_distance {a e : V3} (he : e.norm = 1) (p : V3) : IsDistance (RaySet a e) p (if (p - a).dot e < 0 then (p - a).norm else (e.cross (p - a)).norm) := by
  obtain ⟨-, ⟨k, h, hk⟩, -⟩ := C44_ray a e a e p he he
  have : Ray3.distanceTo ⟨some a, some e⟩ (some p) = .ok (if P3.eq (some p) (some a) then 0 else if (p - a).dot e < 0 then (p - a).norm else (e.cross (p - a)).norm) := by
    simp only [Ray3.distanceTo]; rfl
  rw [this] at h
  cases h
  by_cases hp : p = a
  · subst hp
    rw [if_pos (P3.eq_iff.2 rfl)] at hk
    have e0 : p - p = 0 := V3.sub_eq_zero'.2 rfl
    have : ¬ (p - p).dot e < 0 := by rw [e0]; simp [V3.dot]
    rw [if_neg this, e0, show e.cross 0 = 0 by ext <;> simp, V3.norm_zero]
    exact hk
  · rwa [if_neg (fun e => hp (P3.eq_iff.1 e))] at hk

/-- the computed length of the product of a nearly unit vector with a difference of points -/
theorem cross_length_near (o : Bool) {a p d e : V3} (ha : Small a) (hp : Small p) (he : e.norm = 1) (hd : (d - e).norm ≤ 5 * DQuat.u) :
    |normR o (cross3 d (diff3 p a)) - (e.cross (p - a)).norm| ≤ 115 / 10 * DQuat.u * (p - a).norm + 2 ^ (-535 : ℤ) + 7 * DQuat.t := by
  have u0 := DQuat.u_pos
  have us := DQuat.u_small
  have t0 := DQuat.t_pos
  have h1 := normR_near o (cross3 d (diff3 p a))
  have h2 := cross3_near d (diff3 p a)
  have h3 := diff3_near hp.within ha.within
  have h4 := norm_mul_near h3
  have d1 : d.norm ≤ 1 + 5 * DQuat.u := by have := V3.norm_le_add d e; linarith
  have e1 : d.cross (diff3 p a) - e.cross (p - a) = d.cross (diff3 p a - (p - a)) + (d - e).cross (p - a) := by ext <;> simp <;> ring
  have h5 : (d.cross (diff3 p a) - e.cross (p - a)).norm ≤ d.norm * (diff3 p a - (p - a)).norm + (d - e).norm * (p - a).norm := by
    rw [e1]; exact (V3.norm_add_le _ _).trans (add_le_add (cross_le _ _) (cross_le _ _))
  have e2 : cross3 d (diff3 p a) - e.cross (p - a) = (cross3 d (diff3 p a) - d.cross (diff3 p a)) + (d.cross (diff3 p a) - e.cross (p - a)) := by ext <;> simp
  have h6 := (V3.norm_add_le _ _).trans (add_le_add h2 h5)
  rw [← e2] at h6
  have h7 := V3.norm_le_add (cross3 d (diff3 p a)) (e.cross (p - a))
  have h8 := V3.norm_le_add (e.cross (p - a)) (cross3 d (diff3 p a))
  rw [V3.norm_sub_comm] at h8
  have h9 := cross_le e (p - a)
  rw [he, one_mul] at h9
  have W0 := V3.norm_nonneg (p - a)
  have x0 := V3.norm_nonneg (diff3 p a)
  have d0 := V3.norm_nonneg d
  have y0 := V3.norm_nonneg (diff3 p a - (p - a))
  have m1 : d.norm * (diff3 p a).norm ≤ (1 + 5 * DQuat.u) * ((1 + DQuat.u) * (p - a).norm) := mul_le_mul d1 h4 x0 (by positivity)
  have m2 : d.norm * (diff3 p a - (p - a)).norm ≤ (1 + 5 * DQuat.u) * (DQuat.u * (p - a).norm) := mul_le_mul d1 h3 y0 (by positivity)
  have m3 : (d - e).norm * (p - a).norm ≤ 5 * DQuat.u * (p - a).norm := mul_le_mul_of_nonneg_right hd W0
  have r0 : (0 : ℝ) < 2 ^ (-535 : ℤ) := two_zpow_pos _
  generalize (2 : ℝ) ^ (-535 : ℤ) = r at *
  rw [abs_le] at h1 ⊢
  generalize normR o (cross3 d (diff3 p a)) = n at *
  generalize (cross3 d (diff3 p a) - e.cross (p - a)).norm = g at *
  generalize (cross3 d (diff3 p a)).norm = c at *
  generalize (e.cross (p - a)).norm = q at *
  generalize d.norm * (diff3 p a).norm = s at *
  generalize d.norm * (diff3 p a - (p - a)).norm = s2 at *
  generalize (d - e).norm * (p - a).norm = s3 at *
  generalize (p - a).norm = W at *
  have z1 := mul_nonneg u0.le W0
  have z2 := mul_le_mul_of_nonneg_right us z1
  have z3 := mul_le_mul_of_nonneg_right us t0.le
  have z5 : DQuat.u * s ≤ DQuat.u * ((1 + 5 * DQuat.u) * ((1 + DQuat.u) * W)) := mul_le_mul_of_nonneg_left m1 u0.le
  have z6 : DQuat.u * (DQuat.u * (DQuat.u * W)) ≤ DQuat.u * (1 / 10 ^ 15 * (DQuat.u * W)) := mul_le_mul_of_nonneg_left z2 u0.le
  have z7 : DQuat.u * (DQuat.u * (DQuat.u * W)) ≤ 1 / 10 ^ 15 * (DQuat.u * W) := by nlinarith
  have gb : g ≤ 886 / 100 * (DQuat.u * W) + 6 * DQuat.t := by nlinarith
  have cb : c ≤ 101 / 100 * W + 6 * DQuat.t := by nlinarith
  have ub := mul_le_mul_of_nonneg_left cb u0.le
  constructor <;> nlinarith

theorem unit_set {v e : V3} {k : ℝ} (hk : 0 < k) (h : v = k • e) (a : V3) : LineSet a v = LineSet a e ∧ RaySet a v = RaySet a e := by
  subst h
  constructor
  · ext q; constructor
    · rintro ⟨t, rfl⟩; exact ⟨t * k, by ext <;> simp <;> ring⟩
    · rintro ⟨t, rfl⟩; exact ⟨t / k, by ext <;> simp <;> field_simp⟩
  · ext q; constructor
    · rintro ⟨t, t0, rfl⟩; exact ⟨t * k, by positivity, by ext <;> simp <;> ring⟩
    · rintro ⟨t, t0, rfl⟩; exact ⟨t / k, by positivity, by ext <;> simp <;> field_simp⟩

theorem pure_length (v : V3) : ‖pure v‖ = v.norm := by
  have := DQuat.norm_hamilton ⟨v.x, v.y, v.z, 0⟩
  have e2 := V3.norm_sq v
  rw [← abs_of_nonneg (norm_nonneg (pure v)), ← abs_of_nonneg (V3.norm_nonneg v)]
  refine (sq_eq_sq_iff_abs_eq_abs _ _).1 ?_
  rw [e2, pure, this]
  simp only [V3.normSq, V3.dot]; ring

/-- a unit vector near the stored direction, along the vector given to the constructor -/
theorem made_direction (o : Bool) {a v : V3} (hv : Within v) (h : 1 / 2 ^ 40 ≤ v.norm) :
    ∃ d e, DLine.ctor o (doubles a) (doubles v) = .ok (doubles a, doubles d) ∧ e.norm = 1 ∧ v = v.norm • e ∧ (d - e).norm ≤ 5 * DQuat.u := by
  have u0 := DQuat.u_pos
  have us := DQuat.u_small
  have t0 := DQuat.t_pos
  have tu := DRot.t_u
  norm_num at tu
  have p0 : 0 < v.norm := lt_of_lt_of_le (by norm_num) h
  have np := pure_length v
  have en : ((v.norm)⁻¹ • v).norm = 1 := by rw [V3.norm_smul, abs_of_pos (inv_pos.2 p0), inv_mul_cancel₀ p0.ne']
  have ev : v = v.norm • ((v.norm)⁻¹ • v) := by ext <;> simp <;> field_simp
  have bd : Bounded 500 v := by
    have p : (2 : ℝ) ^ 499 ≤ 2 ^ 500 := pow_le_pow_right₀ one_le_two (by norm_num)
    exact ⟨hv.x.2.trans p, hv.y.2.trans p, hv.z.2.trans p⟩
  have sq : (doubles v).squaredNorm o = .fin (dotR o v v) := dot_doubles o bd bd
  have near := dotR_near o v v
  rw [V3.norm_mul_self, show v.dot v = v.normSq from rfl] at near
  have nsq := V3.norm_sq v
  have s0 : 1 / 2 ^ 80 ≤ v.normSq := by
    have := mul_le_mul h h (by norm_num) p0.le
    rw [← nsq, pow_two]; norm_num at this ⊢; linarith
  by_cases h1 : dotR o v v = 1
  · refine ⟨v, _, ?_, en, ev, ?_⟩
    · simp [DLine.ctor, sq, h1, F64.eq]
    · have e3 : v - (v.norm)⁻¹ • v = (1 - (v.norm)⁻¹) • v := by ext <;> simp <;> ring
      rw [e3, V3.norm_smul]
      have e4 : |1 - (v.norm)⁻¹| * v.norm = |v.norm - 1| := by
        rw [← abs_of_pos p0, ← abs_mul, abs_of_pos p0, sub_mul, inv_mul_cancel₀ p0.ne', one_mul]
      rw [e4]
      rw [h1, abs_sub_comm] at near
      rw [← nsq] at near s0
      obtain ⟨n1, n2⟩ := abs_le.1 near
      have le2 : v.norm ^ 2 ≤ 2 := by
        have := mul_le_mul_of_nonneg_right us (show 0 ≤ v.norm ^ 2 by positivity)
        norm_num at this
        nlinarith
      have n3 : DQuat.u * v.norm ^ 2 ≤ DQuat.u * 2 := mul_le_mul_of_nonneg_left le2 u0.le
      rw [abs_le]
      constructor <;> nlinarith
  · obtain ⟨d, hd, -, -, -, -, -, -, nd⟩ := normalized_any o hv (by rwa [np])
    refine ⟨d, _, ?_, en, ev, ?_⟩
    · have h0 : dotR o v v ≠ 0 := by
        intro e
        rw [e, zero_sub, abs_neg, abs_of_nonneg (V3.normSq_nonneg v)] at near
        have ts : DQuat.t ≤ 1 / 100 * (1 / 2 ^ 80) := by
          have := DQuat.t_small (k := -100) (by norm_num)
          refine this.trans ?_
          norm_num
        have := mul_le_mul_of_nonneg_right us (V3.normSq_nonneg v)
        norm_num at this s0 ts near
        linarith
      simp [DLine.ctor, sq, h1, h0, F64.eq, doubles_defined, hd]
    · rw [np] at nd
      have e3 : pure d - (v.norm)⁻¹ • pure v = pure (d - (v.norm)⁻¹ • v) := by
        have p0 : ∀ w, (pure w).re = 0 := fun _ => rfl
        have p1 : ∀ w, (pure w).imI = w.x := fun _ => rfl
        have p2 : ∀ w, (pure w).imJ = w.y := fun _ => rfl
        have p3 : ∀ w, (pure w).imK = w.z := fun _ => rfl
        ext <;> simp [p0, p1, p2, p3]
      rw [e3, pure_length] at nd
      linarith

end Verif.Props
