import Verif.Lemmas.DoubleTransform
import Verif.Props.DoubleDistance

/-!
# Transformations in double precision

Property C119. Code: `src/OpenSpaceToolkit/Mathematics/Geometry/3D/Transformation.cpp` and `2D/Transformation.cpp`. The order in which Eigen adds the terms of a
product is an argument of each theorem.
-/

namespace Verif.Props

open Verif Verif.Spec Verif.Double

/-- three finite doubles -/
structure FiniteDoubles (a : V3) : Prop where
  x : Representable a.x ∧ |a.x| < 2 ^ 1024
  y : Representable a.y ∧ |a.y| < 2 ^ 1024
  z : Representable a.z ∧ |a.z| < 2 ^ 1024

theorem finite_one : Representable (1 : ℝ) ∧ |(1 : ℝ)| < 2 ^ 1024 :=
  ⟨by simpa using representable_int (α := ℝ) (m := 1) (by norm_num), by rw [abs_one]; exact one_lt_pow₀ one_lt_two (by norm_num)⟩

theorem finite_zero : Representable (0 : ℝ) ∧ |(0 : ℝ)| < 2 ^ 1024 := ⟨representable_zero, by rw [abs_zero]; exact pow_pos two_pos _⟩

theorem translation_head (o : Order4) {a v : V3} (ha : FiniteDoubles a) (hv : FiniteDoubles v) {m : Fin 4 → Fin 4 → F64 ℝ} (hm : DT3.Translation (doubles v) = .ok m) :
    DT3.head o m (doubles a) (.fin 1) = (doubles a).add (doubles v) ∧ DT3.head o m (doubles a) (.fin 0) = doubles a := by
  rw [DT3.Translation, doubles_defined, if_neg (by simp)] at hm
  cases hm
  have z := finite_zero
  have k1 : ∀ x : ℝ, Representable x ∧ |x| < 2 ^ 1024 → (F64.fin 1).mul (.fin x) = .fin x := fun x h => DT3.one_mul_fin h.1 h.2
  have k2 : ∀ x : ℝ, Representable x ∧ |x| < 2 ^ 1024 → (F64.fin x).mul (.fin 1) = .fin x := fun x h => DT3.mul_one_fin h.1 h.2
  constructor
  · ext1 <;> simp [DT3.head, DT3.row, doubles, DVec.add, DT3.zero_mul_fin, k1 _ ha.x, k1 _ ha.y, k1 _ ha.z, k2 _ hv.x, k2 _ hv.y, k2 _ hv.z]
    · exact (DT3.sum_two o ha.x.1 ha.x.2 hv.x.1 hv.x.2).1
    · exact (DT3.sum_two o ha.y.1 ha.y.2 hv.y.1 hv.y.2).2.1
    · exact (DT3.sum_two o ha.z.1 ha.z.2 hv.z.1 hv.z.2).2.2
  · ext1 <;> simp [DT3.head, DT3.row, doubles, DT3.zero_mul_fin, DT3.mul_zero_fin, k1 _ ha.x, k1 _ ha.y, k1 _ ha.z]
    · rw [(DT3.sum_two o ha.x.1 ha.x.2 z.1 z.2).1, DT3.add_zero_fin ha.x.1 ha.x.2]
    · rw [(DT3.sum_two o ha.y.1 ha.y.2 z.1 z.2).2.1, DT3.add_zero_fin ha.y.1 ha.y.2]
    · rw [(DT3.sum_two o ha.z.1 ha.z.2 z.1 z.2).2.2, DT3.add_zero_fin ha.z.1 ha.z.2]

theorem identity_translation : DT3.Translation (doubles ⟨0, 0, 0⟩) = .ok DT3.Identity := by
  rw [DT3.Translation, doubles_defined, if_neg (by simp)]
  congr 1
  funext i j
  fin_cases i <;> fin_cases j <;> simp [DT3.Identity, doubles]

/-- C119: the identity leaves every point and every vector of finite doubles exactly as it is -/
theorem C119_identity (o : Order4) {a : V3} (ha : FiniteDoubles a) :
    DT3.applyTo o DT3.Identity (doubles a) = .ok (doubles a) ∧ DT3.applyToVector o DT3.Identity (doubles a) = doubles a := by
  have h := translation_head o ha ⟨finite_zero, finite_zero, finite_zero⟩ identity_translation
  refine ⟨?_, h.2⟩
  rw [DT3.applyTo, doubles_defined, if_neg (by simp), h.1]
  congr 1
  simp only [DVec.add, doubles, DT3.add_zero_fin ha.x.1 ha.x.2, DT3.add_zero_fin ha.y.1 ha.y.2, DT3.add_zero_fin ha.z.1 ha.z.2]

/-- C119: a translation adds its vector to every point of finite doubles, each coordinate rounded once, and leaves vectors exactly as they are -/
theorem C119_translation (o : Order4) {a v : V3} (ha : FiniteDoubles a) (hv : FiniteDoubles v) :
    ∃ m, DT3.Translation (doubles v) = .ok m ∧ DT3.applyTo o m (doubles a) = .ok ((doubles a).add (doubles v)) ∧ DT3.applyToVector o m (doubles a) = doubles a ∧
      (|a.x + v.x| ≤ 2 ^ 1023 → |a.y + v.y| ≤ 2 ^ 1023 → |a.z + v.z| ≤ 2 ^ 1023 →
        ∃ b : V3, DT3.applyTo o m (doubles a) = .ok (doubles b) ∧ NearestDouble (a.x + v.x) b.x ∧ NearestDouble (a.y + v.y) b.y ∧ NearestDouble (a.z + v.z) b.z) := by
  obtain ⟨m, hm⟩ : ∃ m, DT3.Translation (doubles v) = .ok m := by rw [DT3.Translation, doubles_defined]; exact ⟨_, rfl⟩
  have h := translation_head o ha hv hm
  have e : DT3.applyTo o m (doubles a) = .ok ((doubles a).add (doubles v)) := by rw [DT3.applyTo, doubles_defined, if_neg (by simp), h.1]
  refine ⟨m, hm, e, h.2, fun h1 h2 h3 => ⟨⟨rnd (a.x + v.x), rnd (a.y + v.y), rnd (a.z + v.z)⟩, ?_, rnd_nearest _, rnd_nearest _, rnd_nearest _⟩⟩
  rw [e]
  have k : ∀ x : ℝ, |x| ≤ 2 ^ 1023 → F64.ofExact x = .fin (rnd x) := fun x hx =>
    F64.ofExact_fin (lt_of_le_of_lt (DLinear.rnd_abs_le (DQuat.rep_two 1023) hx) (DQuat.two_lt (by norm_num)))
  simp only [DVec.add, doubles, F64.add, k _ h1, k _ h2, k _ h3]

/-- C119: the product of two translations is the translation by the sum of the vectors, each coordinate rounded once -/
theorem C119_composition (o : Order4) {v w : V3} (hv : FiniteDoubles v) (hw : FiniteDoubles w) :
    ∃ m n r, DT3.Translation (doubles v) = .ok m ∧ DT3.Translation (doubles w) = .ok n ∧ DT3.Translation ((doubles w).add (doubles v)) = .ok r ∧ DT3.mul o m n = r := by
  have d : ((doubles w).add (doubles v)).isDefined = true := by
    have k : ∀ x y : ℝ, (F64.fin x).add (.fin y) ≠ .nan := fun x y => by
      rw [F64.add, F64.ofExact]; split <;> simp
    simp [DVec.isDefined, DVec.add, doubles, k]
  refine ⟨_, _, _, by rw [DT3.Translation, doubles_defined, if_neg (by simp)], by rw [DT3.Translation, doubles_defined, if_neg (by simp)],
    by rw [DT3.Translation, d, if_neg (by simp)], ?_⟩
  have z := finite_zero
  have o1 := finite_one
  have k1 : ∀ x : ℝ, Representable x ∧ |x| < 2 ^ 1024 → (F64.fin 1).mul (.fin x) = .fin x := fun x h => DT3.one_mul_fin h.1 h.2
  have k2 : ∀ x : ℝ, Representable x ∧ |x| < 2 ^ 1024 → (F64.fin x).mul (.fin 1) = .fin x := fun x h => DT3.mul_one_fin h.1 h.2
  have s0 : DT3.sum o (.fin 0) (.fin 0) (.fin 0) (.fin 0) = .fin 0 := by cases o <;> simp only [DT3.sum, DT3.zero_add_zero]
  have s1 : DT3.sum o (.fin 1) (.fin 0) (.fin 0) (.fin 0) = .fin 1 := by rw [(DT3.sum_two o o1.1 o1.2 z.1 z.2).1, DT3.add_zero_fin o1.1 o1.2]
  have s2 : DT3.sum o (.fin 0) (.fin 1) (.fin 0) (.fin 0) = .fin 1 := by rw [(DT3.sum_two o o1.1 o1.2 z.1 z.2).2.1, DT3.add_zero_fin o1.1 o1.2]
  have s3 : DT3.sum o (.fin 0) (.fin 0) (.fin 1) (.fin 0) = .fin 1 := by rw [(DT3.sum_two o o1.1 o1.2 z.1 z.2).2.2, DT3.add_zero_fin o1.1 o1.2]
  have s4 : DT3.sum o (.fin 0) (.fin 0) (.fin 0) (.fin 1) = .fin 1 := by rw [(DT3.sum_two o z.1 z.2 o1.1 o1.2).1, DT3.zero_add_fin o1.1 o1.2]
  funext i j
  fin_cases i <;> fin_cases j <;>
    simp [DT3.mul, doubles, DVec.add, DT3.zero_mul_fin, DT3.mul_zero_fin, k1 _ o1, k1 _ hw.x, k1 _ hw.y, k1 _ hw.z, k2 _ hv.x, k2 _ hv.y, k2 _ hv.z, s0, s1, s2, s3, s4]
  · exact (DT3.sum_two o hw.x.1 hw.x.2 hv.x.1 hv.x.2).1
  · exact (DT3.sum_two o hw.y.1 hw.y.2 hv.y.1 hv.y.2).2.1
  · exact (DT3.sum_two o hw.z.1 hw.z.2 hv.z.1 hv.z.2).2.2

/-- C119: a matrix of finite doubles maps a point of finite doubles to a point each of whose coordinates is close to the exact one -/
theorem C119_accuracy (o : Order4) {M : Fin 4 → Fin 4 → ℝ} {a : V3} (hM : ∀ i j, |M i j| ≤ 2 ^ 500) (hx : |a.x| ≤ 2 ^ 500) (hy : |a.y| ≤ 2 ^ 500)
    (hz : |a.z| ≤ 2 ^ 500) : ∃ b : V3, DT3.applyTo o (fun i j => .fin (M i j)) (doubles a) = .ok (doubles b) ∧
      ∀ i c, (i, c) ∈ [((0 : Fin 4), b.x), (1, b.y), (2, b.z)] →
        |c - (M i 0 * a.x + M i 1 * a.y + M i 2 * a.z + M i 3)| ≤
          41 / 10 / 2 ^ 53 * (|M i 0 * a.x| + |M i 1 * a.y| + |M i 2 * a.z| + |M i 3|) + 5 * 2 ^ (-1075 : ℤ) := by
  have o1 : |(1 : ℝ)| ≤ 2 ^ 500 := by rw [abs_one]; exact one_le_pow₀ one_le_two
  have e : ∀ i, DT3.row o (fun i j => .fin (M i j)) i (doubles a) (.fin 1) = .fin (DT3.dot4 o (M i 0) (M i 1) (M i 2) (M i 3) a.x a.y a.z 1) := fun i =>
    DT3.dot_fin o (hM i 0) (hM i 1) (hM i 2) (hM i 3) hx hy hz o1
  have n : ∀ i, |DT3.dot4 o (M i 0) (M i 1) (M i 2) (M i 3) a.x a.y a.z 1 - (M i 0 * a.x + M i 1 * a.y + M i 2 * a.z + M i 3)| ≤
      41 / 10 / 2 ^ 53 * (|M i 0 * a.x| + |M i 1 * a.y| + |M i 2 * a.z| + |M i 3|) + 5 * 2 ^ (-1075 : ℤ) := fun i => by
    have h := DT3.dot4_near o (M i 0) (M i 1) (M i 2) (M i 3) a.x a.y a.z 1
    rw [mul_one] at h
    rw [div_eq_mul_one_div (41 / 10 : ℝ)]
    exact h
  refine ⟨⟨_, _, _⟩, by rw [DT3.applyTo, doubles_defined, if_neg (by simp), DT3.head, e, e, e]; rfl, ?_⟩
  intro i c hc
  simp only [List.mem_cons, Prod.mk.injEq, List.not_mem_nil, or_false] at hc
  rcases hc with ⟨rfl, rfl⟩ | ⟨rfl, rfl⟩ | ⟨rfl, rfl⟩ <;> exact n _

theorem back_near {x v : ℝ} (hx : Representable x) (hv : Representable v) :
    |rnd (rnd (x + v) - v) - x| ≤ 101 / 100 / 2 ^ 53 * (|x + v| + |x|) ∧ (Representable (x + v) → rnd (rnd (x + v) - v) = x) := by
  constructor
  · have h1 := rnd_add_error hx hv
    have h2 := rnd_add_error (rnd_representable (x + v)) (representable_neg hv)
    rw [DLinear.two_neg53] at h1 h2
    rw [← sub_eq_add_neg] at h2
    have e1 : |rnd (x + v) - v| ≤ |x| + 1 / 2 ^ 53 * |x + v| := by
      have := abs_add_le x (rnd (x + v) - (x + v))
      rw [show x + (rnd (x + v) - (x + v)) = rnd (x + v) - v by ring] at this
      linarith
    have e2 := abs_add_le (rnd (rnd (x + v) - v) - (rnd (x + v) - v)) (rnd (x + v) - (x + v))
    rw [show rnd (rnd (x + v) - v) - (rnd (x + v) - v) + (rnd (x + v) - (x + v)) = rnd (rnd (x + v) - v) - x by ring] at e2
    have a1 := abs_nonneg (x + v)
    have a2 := abs_nonneg x
    generalize |x + v| = A at *
    generalize |x| = B at *
    rw [show (101 / 100 / 2 ^ 53 : ℝ) = 101 / 100 * (1 / 2 ^ 53) by ring]
    have us : (1 / 2 ^ 53 : ℝ) ≤ 1 / 1000 := by norm_num
    have u0 : (0 : ℝ) < 1 / 2 ^ 53 := by norm_num
    generalize (1 / 2 ^ 53 : ℝ) = w at *
    have m1 := mul_le_mul_of_nonneg_left e1 u0.le
    nlinarith [mul_nonneg u0.le a1, mul_nonneg u0.le a2]
  · intro h
    rw [rnd_exact h, add_sub_cancel_right, rnd_exact hx]

/-- C119: a translation followed by the opposite one gives back each coordinate up to the rounding of the sum, and exactly where the sums are exact -/
theorem C119_back (o o' : Order4) {a v : V3} (ha : Within a) (hv : Within v) :
    ∃ m n, DT3.Translation (doubles v) = .ok m ∧ DT3.Translation (doubles ⟨-v.x, -v.y, -v.z⟩) = .ok n ∧ ∃ b c : V3, DT3.applyTo o m (doubles a) = .ok (doubles b) ∧
      DT3.applyTo o' n (doubles b) = .ok (doubles c) ∧
      ∀ x y z, (x, y, z) ∈ [(a.x, v.x, c.x), (a.y, v.y, c.y), (a.z, v.z, c.z)] →
        |z - x| ≤ 101 / 100 / 2 ^ 53 * (|x + y| + |x|) ∧ (Representable (x + y) → z = x) := by
  have lt : ∀ n : ℕ, n < 1024 → ∀ x : ℝ, |x| ≤ 2 ^ n → |x| < 2 ^ 1024 := fun n hn x h => lt_of_le_of_lt h (DQuat.two_lt hn)
  have fa : FiniteDoubles a := ⟨⟨ha.x.1, lt 499 (by norm_num) _ ha.x.2⟩, ⟨ha.y.1, lt 499 (by norm_num) _ ha.y.2⟩, ⟨ha.z.1, lt 499 (by norm_num) _ ha.z.2⟩⟩
  have fv : FiniteDoubles v := ⟨⟨hv.x.1, lt 499 (by norm_num) _ hv.x.2⟩, ⟨hv.y.1, lt 499 (by norm_num) _ hv.y.2⟩, ⟨hv.z.1, lt 499 (by norm_num) _ hv.z.2⟩⟩
  have fn : FiniteDoubles ⟨-v.x, -v.y, -v.z⟩ :=
    ⟨⟨representable_neg fv.x.1, by simpa using fv.x.2⟩, ⟨representable_neg fv.y.1, by simpa using fv.y.2⟩, ⟨representable_neg fv.z.1, by simpa using fv.z.2⟩⟩
  obtain ⟨m, hm, e, -⟩ := C119_translation o fa fv
  obtain ⟨s1, b1⟩ := DVec.add_fin2 (n := 499) (by norm_num) ha.x.2 hv.x.2
  obtain ⟨s2, b2⟩ := DVec.add_fin2 (n := 499) (by norm_num) ha.y.2 hv.y.2
  obtain ⟨s3, b3⟩ := DVec.add_fin2 (n := 499) (by norm_num) ha.z.2 hv.z.2
  have fb : FiniteDoubles ⟨rnd (a.x + v.x), rnd (a.y + v.y), rnd (a.z + v.z)⟩ :=
    ⟨⟨rnd_representable _, lt 500 (by norm_num) _ b1⟩, ⟨rnd_representable _, lt 500 (by norm_num) _ b2⟩, ⟨rnd_representable _, lt 500 (by norm_num) _ b3⟩⟩
  obtain ⟨n, hn, e', -⟩ := C119_translation o' fb fn
  have up : ∀ x : ℝ, |x| ≤ 2 ^ 499 → |-x| ≤ 2 ^ 500 := fun x h => by
    rw [abs_neg]; exact h.trans (pow_le_pow_right₀ one_le_two (by norm_num))
  obtain ⟨t1, -⟩ := DVec.add_fin2 (n := 500) (by norm_num) b1 (up _ hv.x.2)
  obtain ⟨t2, -⟩ := DVec.add_fin2 (n := 500) (by norm_num) b2 (up _ hv.y.2)
  obtain ⟨t3, -⟩ := DVec.add_fin2 (n := 500) (by norm_num) b3 (up _ hv.z.2)
  refine ⟨m, n, hm, hn, _, ⟨rnd (rnd (a.x + v.x) - v.x), rnd (rnd (a.y + v.y) - v.y), rnd (rnd (a.z + v.z) - v.z)⟩, ?_, e'.trans ?_, ?_⟩
  · rw [e]
    simp only [DVec.add, doubles, s1, s2, s3]
  · simp only [DVec.add, doubles, t1, t2, t3, sub_eq_add_neg]
  · intro x y z h
    simp only [List.mem_cons, Prod.mk.injEq, List.not_mem_nil, or_false] at h
    rcases h with ⟨rfl, rfl, rfl⟩ | ⟨rfl, rfl, rfl⟩ | ⟨rfl, rfl, rfl⟩
    exacts [back_near ha.x.1 hv.x.1, back_near ha.y.1 hv.y.1, back_near ha.z.1 hv.z.1]

example : Within ⟨1, 2, 3⟩ := by
  have k : ∀ n : ℤ, |n| ≤ 4 → Representable (n : ℝ) ∧ |(n : ℝ)| ≤ 2 ^ 499 := fun n hn => by
    refine ⟨representable_int (hn.trans (by norm_num)), ?_⟩
    have h1 : |(n : ℝ)| ≤ 2 ^ 2 := by exact_mod_cast hn
    exact h1.trans (pow_le_pow_right₀ one_le_two (by norm_num))
  exact ⟨by simpa using k 1 (by norm_num), by simpa using k 2 (by norm_num), by simpa using k 3 (by norm_num)⟩

theorem big_rep : Representable ((2 : ℝ) ^ 60) ∧ |(2 : ℝ) ^ 60| < 2 ^ 1024 :=
  ⟨DQuat.rep_two 60, by rw [abs_of_pos (pow_pos two_pos _)]; exact DQuat.two_lt (by norm_num)⟩

theorem absorb_one : rnd ((1 : ℝ) + 2 ^ 60) = 2 ^ 60 := by
  rw [add_comm]
  exact rnd_absorb (DQuat.rep_two 60) (by rw [abs_one, abs_of_pos (by positivity)]; norm_num)

/-- C119: the claim that a translation and its opposite give back the point fails: far away the coordinate is lost. Nor is applying the product of two translations
the same as applying one after the other. -/
theorem C119_back_violated (o o' : Order4) :
    ∃ a v : V3, ∃ m n, FiniteDoubles a ∧ FiniteDoubles v ∧ DT3.Translation (doubles v) = .ok m ∧ DT3.Translation (doubles ⟨-v.x, -v.y, -v.z⟩) = .ok n ∧
      (DT3.applyTo o m (doubles a) >>= DT3.applyTo o' n) = .ok (doubles ⟨0, 0, 0⟩) ∧ a.x = 1 ∧ DT3.applyTo o (DT3.mul o' n m) (doubles a) = .ok (doubles a) := by
  have z := finite_zero
  have fa : FiniteDoubles ⟨1, 0, 0⟩ := ⟨finite_one, z, z⟩
  have fv : FiniteDoubles ⟨2 ^ 60, 0, 0⟩ := ⟨big_rep, z, z⟩
  have fn : FiniteDoubles ⟨-2 ^ 60, -0, -0⟩ := ⟨⟨representable_neg big_rep.1, by rw [abs_neg]; exact big_rep.2⟩, by simpa using z, by simpa using z⟩
  obtain ⟨m, hm, e, -⟩ := C119_translation o fa fv
  obtain ⟨n, hn, e', -⟩ := C119_translation o' fv fn
  have s1 : (F64.fin (1 : ℝ)).add (.fin (2 ^ 60)) = .fin (2 ^ 60) := by
    rw [F64.add, F64.ofExact_fin] <;> rw [absorb_one]
    exact big_rep.2
  have s2 : (F64.fin ((2 : ℝ) ^ 60)).add (.fin (-2 ^ 60)) = .fin 0 := by rw [F64.add, add_neg_cancel, DT3.zero_fin]
  have e1 : (doubles ⟨1, 0, 0⟩).add (doubles ⟨2 ^ 60, 0, 0⟩) = doubles ⟨2 ^ 60, 0, 0⟩ := by simp only [DVec.add, doubles, s1, DT3.zero_add_zero]
  have e2 : (doubles ⟨2 ^ 60, 0, 0⟩).add (doubles ⟨-2 ^ 60, -0, -0⟩) = doubles ⟨0, 0, 0⟩ := by simp only [DVec.add, doubles, s2, neg_zero, DT3.zero_add_zero]
  obtain ⟨n', m', r, hn', hm', hr, hmul⟩ := C119_composition o' fn fv
  refine ⟨_, _, m, n, fa, fv, hm, hn, ?_, rfl, ?_⟩
  · rw [e, e1]
    exact e'.trans (by rw [e2])
  · rw [hn] at hn'
    rw [hm] at hm'
    cases hn'
    cases hm'
    rw [e2, identity_translation] at hr
    cases hr
    rw [hmul]
    exact (C119_identity o fa).1

/-- C119: the claim that the identity leaves a defined point as it is fails for a point with an infinite coordinate, which is defined -/
theorem C119_infinite_violated (o : Order4) (s : Bool) : ∃ p : DVec, p.isDefined = true ∧ p.x = .inf s ∧
    ∃ q, DT3.applyTo o DT3.Identity p = .ok q ∧ q.isDefined = false ∧ q.y = .nan ∧ q.z = .nan := by
  have d : (⟨.inf s, .fin 0, .fin 0⟩ : DVec).isDefined = true := by simp [DVec.isDefined]
  have k1 : ∀ x : F64 ℝ, F64.add .nan x = .nan := fun x => rfl
  have k2 : ∀ x : F64 ℝ, x.add .nan = .nan := fun x => by cases x <;> rfl
  have m : (F64.fin (0 : ℝ)).mul (.inf s) = .nan := by simp [F64.mul]
  have n : ∀ a b c : F64 ℝ, DT3.sum o .nan a b c = .nan := fun a b c => by cases o <;> simp only [DT3.sum, k1]
  have ny : (DT3.head o DT3.Identity ⟨.inf s, .fin 0, .fin 0⟩ (.fin 1)).y = .nan := by simp [DT3.head, DT3.row, DT3.Identity, m, n]
  have nz : (DT3.head o DT3.Identity ⟨.inf s, .fin 0, .fin 0⟩ (.fin 1)).z = .nan := by simp [DT3.head, DT3.row, DT3.Identity, m, n]
  refine ⟨_, d, rfl, _, by rw [DT3.applyTo, d, if_neg (by simp)], ?_, ny, nz⟩
  simp [DVec.isDefined, ny]

/-- the image of a point under a matrix, computed exactly -/
def image (M : Fin 4 → Fin 4 → ℝ) (a : V3) : V3 :=
  ⟨M 0 0 * a.x + M 0 1 * a.y + M 0 2 * a.z + M 0 3, M 1 0 * a.x + M 1 1 * a.y + M 1 2 * a.z + M 1 3, M 2 0 * a.x + M 2 1 * a.y + M 2 2 * a.z + M 2 3⟩

/-- how far the columns of the rotation part of a matrix are from being orthonormal -/
def AlmostRigid (e : ℝ) (M : Fin 4 → Fin 4 → ℝ) : Prop :=
  ∀ i j : Fin 3, |M 0 i.castSucc * M 0 j.castSucc + M 1 i.castSucc * M 1 j.castSucc + M 2 i.castSucc * M 2 j.castSucc - (if i = j then 1 else 0)| ≤ e

theorem quad {x y z e p q r s t w : ℝ} (hp : |p| ≤ e) (hq : |q| ≤ e) (hr : |r| ≤ e) (hs : |s| ≤ e) (ht : |t| ≤ e) (hw : |w| ≤ e) :
    |p * (x * x) + q * (y * y) + r * (z * z) + s * (2 * (x * y)) + t * (2 * (x * z)) + w * (2 * (y * z))| ≤ 3 * e * (x * x + y * y + z * z) := by
  have e0 : 0 ≤ e := (abs_nonneg _).trans hp
  have k : ∀ {s a b : ℝ}, |s| ≤ e → |a| ≤ b → |s * a| ≤ e * b := fun hs ha => by
    rw [abs_mul]; exact mul_le_mul hs ha (abs_nonneg _) e0
  have m : ∀ a b : ℝ, |2 * (a * b)| ≤ a * a + b * b := fun a b =>
    abs_le.2 ⟨by nlinarith [mul_self_nonneg (a + b)], by nlinarith [mul_self_nonneg (a - b)]⟩
  have i : ∀ a : ℝ, |a * a| ≤ a * a := fun a => by rw [abs_of_nonneg (mul_self_nonneg a)]
  have h1 := abs_le.1 (k hp (i x))
  have h2 := abs_le.1 (k hq (i y))
  have h3 := abs_le.1 (k hr (i z))
  have h4 := abs_le.1 (k hs (m x y))
  have h5 := abs_le.1 (k ht (m x z))
  have h6 := abs_le.1 (k hw (m y z))
  exact abs_le.2 ⟨by linarith, by linarith⟩

theorem image_distance {M : Fin 4 → Fin 4 → ℝ} {e : ℝ} (h : AlmostRigid e M) (a b : V3) : |(image M a - image M b).norm - (a - b).norm| ≤ 3 * e * (a - b).norm := by
  have e0 : 0 ≤ e := (abs_nonneg _).trans (h 0 0)
  set d := a - b with hd
  have sq : |(image M a - image M b).norm ^ 2 - d.norm ^ 2| ≤ 3 * e * d.norm ^ 2 := by
    rw [V3.norm_sq, V3.norm_sq]
    have g := fun i j => h i j
    have g00 := g 0 0
    have g11 := g 1 1
    have g22 := g 2 2
    have g01 := g 0 1
    have g02 := g 0 2
    have g12 := g 1 2
    simp at g00 g11 g22 g01 g02 g12
    have f := quad (x := d.x) (y := d.y) (z := d.z) g00 g11 g22 g01 g02 g12
    convert f using 1
    · congr 1
      simp only [V3.normSq, V3.dot, image, hd, V3.sub_x, V3.sub_y, V3.sub_z]
      ring
    · simp only [V3.normSq, V3.dot]
  have n0 := V3.norm_nonneg d
  have n1 := V3.norm_nonneg (image M a - image M b)
  rcases n0.eq_or_lt with hz | hp
  · rw [← hz] at sq ⊢
    have : (image M a - image M b).norm = 0 := by
      have : (image M a - image M b).norm ^ 2 ≤ 0 := by
        have := (abs_le.1 sq).2
        linarith
      exact pow_eq_zero_iff (two_ne_zero) |>.1 (le_antisymm this (sq_nonneg _))
    rw [this]; simp
  · have f : (image M a - image M b).norm ^ 2 - d.norm ^ 2 = ((image M a - image M b).norm - d.norm) * ((image M a - image M b).norm + d.norm) := by ring
    rw [f, abs_mul, abs_of_pos (by linarith : 0 < (image M a - image M b).norm + d.norm)] at sq
    have : |(image M a - image M b).norm - d.norm| * d.norm ≤ 3 * e * d.norm * d.norm := by
      have := mul_le_mul_of_nonneg_left (by linarith : d.norm ≤ (image M a - image M b).norm + d.norm) (abs_nonneg ((image M a - image M b).norm - d.norm))
      nlinarith
    exact le_of_mul_le_mul_right this hp

/-- a point near another in each coordinate -/
theorem norm_le_each {v : V3} {k : ℝ} (h1 : |v.x| ≤ k) (h2 : |v.y| ≤ k) (h3 : |v.z| ≤ k) : v.norm ≤ 1733 / 1000 * k := by
  have k0 : 0 ≤ k := (abs_nonneg _).trans h1
  refine Real.sqrt_le_iff.2 ⟨by positivity, ?_⟩
  have m : ∀ a : ℝ, |a| ≤ k → a * a ≤ k * k := fun a h => by rw [← abs_mul_abs_self]; exact mul_self_le_mul_self (abs_nonneg _) h
  have := m _ h1
  have := m _ h2
  have := m _ h3
  simp only [V3.normSq, V3.dot]
  nlinarith

theorem column_le {M : Fin 4 → Fin 4 → ℝ} {e : ℝ} (h : AlmostRigid e M) (he : e ≤ 1) (i : Fin 3) (j : Fin 3) : |M i.castSucc j.castSucc| ≤ 3 / 2 := by
  have g := (abs_le.1 (h j j)).2
  simp only [if_true] at g
  have : M i.castSucc j.castSucc * M i.castSucc j.castSucc ≤ 2 := by
    have s0 := mul_self_nonneg (M 0 j.castSucc)
    have s1 := mul_self_nonneg (M 1 j.castSucc)
    have s2 := mul_self_nonneg (M 2 j.castSucc)
    fin_cases i
    · change M 0 _ * M 0 _ ≤ 2
      linarith
    · change M 1 _ * M 1 _ ≤ 2
      linarith
    · change M 2 _ * M 2 _ ≤ 2
      linarith
  rw [← abs_mul_abs_self] at this
  by_contra hh
  push Not at hh
  nlinarith

/-- C119: a matrix of doubles whose rotation part is almost orthogonal keeps distances up to that defect and to the rounding of coordinates -/
theorem C119_distances (o : Order4) {M : Fin 4 → Fin 4 → ℝ} {e B : ℝ} {a b : V3} (hM : AlmostRigid e M) (he : e ≤ 1) (hB : B ≤ 2 ^ 500)
    (hl : ∀ j, |M 3 j| ≤ 2 ^ 500) (hc : ∀ i : Fin 3, |M i.castSucc 3| ≤ B) (ha : |a.x| ≤ B ∧ |a.y| ≤ B ∧ |a.z| ≤ B) (hb : |b.x| ≤ B ∧ |b.y| ≤ B ∧ |b.z| ≤ B) :
    ∃ a' b' : V3, DT3.applyTo o (fun i j => .fin (M i j)) (doubles a) = .ok (doubles a') ∧ DT3.applyTo o (fun i j => .fin (M i j)) (doubles b) = .ok (doubles b') ∧
      |euclid a' b' - euclid a b| ≤ 3 * e * euclid a b + 80 / 2 ^ 53 * B + 18 * 2 ^ (-1075 : ℤ) := by
  have col := column_le hM he
  have all : ∀ i j, |M i j| ≤ 2 ^ 500 := by
    have p : (3 / 2 : ℝ) ≤ 2 ^ 500 := le_trans (by norm_num) (pow_le_pow_right₀ one_le_two (by norm_num : 1 ≤ 500))
    have c : ∀ i j : Fin 3, |M i.castSucc j.castSucc| ≤ 2 ^ 500 := fun i j => (col i j).trans p
    have c3 : ∀ i : Fin 3, |M i.castSucc 3| ≤ 2 ^ 500 := fun i => (hc i).trans hB
    intro i j
    refine Fin.lastCases (hl j) (fun i => ?_) i
    exact Fin.lastCases (c3 i) (fun j => c i j) j
  have near : ∀ v : V3, |v.x| ≤ B ∧ |v.y| ≤ B ∧ |v.z| ≤ B → ∃ w : V3, DT3.applyTo o (fun i j => .fin (M i j)) (doubles v) = .ok (doubles w) ∧
      (w - image M v).norm ≤ 1733 / 1000 * (41 / 10 / 2 ^ 53 * (11 / 2 * B) + 5 * 2 ^ (-1075 : ℤ)) := by
    rintro v ⟨h1, h2, h3⟩
    obtain ⟨w, hw, n⟩ := C119_accuracy o all (h1.trans hB) (h2.trans hB) (h3.trans hB)
    refine ⟨w, hw, ?_⟩
    have s : ∀ i : Fin 3, |M i.castSucc 0 * v.x| + |M i.castSucc 1 * v.y| + |M i.castSucc 2 * v.z| + |M i.castSucc 3| ≤ 11 / 2 * B := fun i => by
      have k : ∀ {m x : ℝ}, |m| ≤ 3 / 2 → |x| ≤ B → |m * x| ≤ 3 / 2 * B := fun hm hx => by
        rw [abs_mul]; exact mul_le_mul hm hx (abs_nonneg _) (by norm_num)
      have k1 := k (col i 0) h1
      have k2 := k (col i 1) h2
      have k3 := k (col i 2) h3
      have k4 := hc i
      simp only [Fin.castSucc_zero, Fin.castSucc_one] at k1 k2
      change |M i.castSucc 2 * v.z| ≤ _ at k3
      linarith only [k1, k2, k3, k4]
    have g : ∀ {x A : ℝ}, A ≤ 11 / 2 * B → |x| ≤ 41 / 10 / 2 ^ 53 * A + 5 * 2 ^ (-1075 : ℤ) → |x| ≤ 41 / 10 / 2 ^ 53 * (11 / 2 * B) + 5 * 2 ^ (-1075 : ℤ) := fun h h' =>
      h'.trans (add_le_add_left (mul_le_mul_of_nonneg_left h (by norm_num)) _)
    apply norm_le_each
    · exact g (s 0) (n 0 w.x (by simp))
    · exact g (s 1) (n 1 w.y (by simp))
    · exact g (s 2) (n 2 w.z (by simp))
  obtain ⟨a', ea, na⟩ := near a ha
  obtain ⟨b', eb, nb⟩ := near b hb
  refine ⟨a', b', ea, eb, ?_⟩
  rw [euclid_norm, euclid_norm]
  have id := image_distance hM a b
  have t1 := V3.norm_add_le (a' - image M a) (image M a - image M b)
  have t2 := V3.norm_add_le (a' - image M a + (image M a - image M b)) (image M b - b')
  have t3 := V3.norm_add_le (image M a - a') (a' - b')
  have t4 := V3.norm_add_le (image M a - a' + (a' - b')) (b' - image M b)
  rw [show a' - image M a + (image M a - image M b) + (image M b - b') = a' - b' by ext <;> simp] at t2
  rw [show image M a - a' + (a' - b') + (b' - image M b) = image M a - image M b by ext <;> simp] at t4
  rw [V3.norm_sub_comm (image M b) b'] at t2
  rw [V3.norm_sub_comm (image M a) a'] at t3
  have B0 : 0 ≤ B := (abs_nonneg _).trans ha.1
  have tp : (0 : ℝ) < 2 ^ (-1075 : ℤ) := two_zpow_pos _
  generalize (2 : ℝ) ^ (-1075 : ℤ) = τ at *
  rw [abs_le] at id ⊢
  have c1 : 2 * (1733 / 1000 * (41 / 10 / 2 ^ 53 * (11 / 2 * B) + 5 * τ)) ≤ 80 / 2 ^ 53 * B + 18 * τ := by
    generalize hw : (1 / 2 ^ 53 : ℝ) = w
    have w0 : 0 < w := by rw [← hw]; norm_num
    rw [show (41 / 10 / 2 ^ 53 : ℝ) = 41 / 10 * w by rw [← hw]; norm_num, show (80 / 2 ^ 53 : ℝ) = 80 * w by rw [← hw]; norm_num]
    nlinarith [mul_nonneg w0.le B0]
  clear hl hc all hB ea eb
  constructor <;> linarith [id.1, id.2]

/-- a quarter turn about the third axis after a translation meets the hypothesis exactly -/
example : AlmostRigid 0 ![![0, -1, 0, 5], ![1, 0, 0, 6], ![0, 0, 1, 7], ![0, 0, 0, 1]] := by
  intro i j
  fin_cases i <;> fin_cases j <;> simp

/-- C119 in the plane: the identity leaves every point of finite doubles exactly as it is and a translation adds its vector, each coordinate rounded once -/
theorem C119_plane (o : Bool) {x y v w : ℝ} (hx : Representable x ∧ |x| < 2 ^ 1024) (hy : Representable y ∧ |y| < 2 ^ 1024) (hv : Representable v ∧ |v| < 2 ^ 1024)
    (hw : Representable w ∧ |w| < 2 ^ 1024) :
    DT2.applyTo o DT2.Identity ⟨.fin x, .fin y⟩ = .ok ⟨.fin x, .fin y⟩ ∧
      ∃ m, DT2.Translation ⟨.fin v, .fin w⟩ = .ok m ∧ DT2.applyTo o m ⟨.fin x, .fin y⟩ = .ok ⟨(F64.fin x).add (.fin v), (F64.fin y).add (.fin w)⟩ := by
  have k1 : ∀ x : ℝ, Representable x ∧ |x| < 2 ^ 1024 → (F64.fin 1).mul (.fin x) = .fin x := fun x h => DT3.one_mul_fin h.1 h.2
  have k2 : ∀ x : ℝ, Representable x ∧ |x| < 2 ^ 1024 → (F64.fin x).mul (.fin 1) = .fin x := fun x h => DT3.mul_one_fin h.1 h.2
  have e : ∀ x v : ℝ, (F64.fin 0).add ((F64.fin x).add (.fin v)) = (F64.fin x).add (.fin v) := fun x v => DT3.zero_add_ofExact _
  have s : ∀ x v : ℝ, Representable x ∧ |x| < 2 ^ 1024 → Representable v ∧ |v| < 2 ^ 1024 → DVec.sum o (.fin x) (.fin 0) (.fin v) = (F64.fin x).add (.fin v) ∧
      DVec.sum o (.fin 0) (.fin x) (.fin v) = (F64.fin x).add (.fin v) := fun x v hx hv => by
    cases o <;> simp [DVec.sum, DT3.zero_add_fin hx.1 hx.2, DT3.add_zero_fin hx.1 hx.2, DT3.zero_add_fin hv.1 hv.2, e]
  have z := finite_zero
  have a0 : ∀ x : ℝ, Representable x ∧ |x| < 2 ^ 1024 → (F64.fin x).add (.fin 0) = .fin x := fun x h => DT3.add_zero_fin h.1 h.2
  constructor
  · simp [DT2.applyTo, DT2.row, DT2.Identity, DT3.zero_mul_fin, k1 _ hx, k1 _ hy, (s x 0 hx z).1, (s y 0 hy z).2, a0 _ hx, a0 _ hy]
  · exact ⟨_, by rw [DT2.Translation, if_neg (by simp)], by
      simp [DT2.applyTo, DT2.row, DT3.zero_mul_fin, k1 _ hx, k1 _ hy, k2 _ hv, k2 _ hw, (s x v hx hv).1, (s y w hy hw).2]⟩

end Verif.Props
