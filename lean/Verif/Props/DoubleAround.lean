import Verif.Lemmas.DoubleAround

/-!
# C141: rotations, and rotations about a point, as transformations in double precision

`q` is the order in which the four terms of a coefficient are added in a product of two matrices, `q'` the one in a product of a matrix and a point, `o` that of three terms.
-/

namespace Verif.Props

open Verif Verif.Spec Verif.Double

/-- the matrix inside a rotation made from a rotation vector -/
theorem rotation_matrix (o : Bool) {sin cos : ℝ → ℝ} (hs : Accurate sin Real.sin) (hc : Accurate cos Real.cos) {e : ℝ} (he : e ≤ 1 / 8)
    {x y z : ℝ} (hx : Representable x ∧ |x| ≤ 2 ^ 500) (hy : Representable y ∧ |y| ≤ 2 ^ 500) (hz : Representable z ∧ |z| ≤ 2 ^ 500)
    {a : DAngle ℝ} {t : ℝ} (ha : a.inUnit .radian = .ok (.fin t)) (ht : Representable t) {r : DRotVec} (h : DRotVec.ctor o (.fin e) ⟨.fin x, .fin y, .fin z⟩ a = .ok r) {eps : F64 ℝ}
    {T : Fin 4 → Fin 4 → F64 ℝ} (hT : DT3.Rotation o eps sin cos r = .ok T) :
    ∃ M, T = DT3.ofMatrix (entries M) ∧ (∀ i j, Representable (M i j) ∧ |M i j| ≤ 1001 / 1000) ∧
      ∀ v, ‖pure (turn (fun i j => M j i) v) - turnAbout x y z t * (pure v * star (turnAbout x y z t))‖ ≤ 2 ^ (-46 : ℤ) * ‖pure v‖ := by
  obtain ⟨-, hd⟩ := accepted_axis o he hx hy hz h
  obtain ⟨hS0, -⟩ := DVec.nrm3_near o hd
  have hS : 0 < x ^ 2 + y ^ 2 + z ^ 2 := by simpa only [sq] using hS0
  obtain ⟨M, h1, -, h3⟩ := C138_vector_partial o hs hc he hx hy hz ha ht h
  rw [DT3.Rotation] at hT
  split_ifs at hT
  obtain ⟨m, e1, e2⟩ := ok_of_bind hT
  have em := h1 eps m e1
  rw [em] at e1 e2
  have n := turnAbout_norm hS t
  refine ⟨M, (Except.ok.inj e2).symm, fun i j => ⟨Around.vector_rep o e1 i j, (Around.entry_le n h3 i j).trans (by norm_num)⟩, Around.turn_transpose n (by positivity) h3⟩

theorem e45 : (2 : ℝ) ^ (-45 : ℤ) = 256 * DQuat.u ∧ (2 : ℝ) ^ (-46 : ℤ) = 128 * DQuat.u ∧ (2 : ℝ) ^ (-47 : ℤ) = 64 * DQuat.u ∧ (2 : ℝ) ^ (-49 : ℤ) = 16 * DQuat.u := by
  refine ⟨?_, ?_, ?_, ?_⟩ <;> rw [DQuat.u] <;> norm_num

theorem e1070 : (2 : ℝ) ^ (-1070 : ℤ) = 32 * DQuat.t := by
  rw [DQuat.t, show (-1070 : ℤ) = 5 + -1075 by norm_num, zpow_add₀ two_ne_zero]; norm_num

theorem small_entry {a : ℝ} (h : |a| ≤ 1001 / 1000) : |a| ≤ 2 ^ 500 := h.trans (le_trans (by norm_num) two_500)

/-- **C141.** The transformation made from a rotation vector in double precision turns points and vectors of finite doubles alike, as the rotation does, within `2 ^ -45` of their length. -/
theorem C141_rotation (o : Bool) (q : Order4) {sin cos : ℝ → ℝ} (hs : Accurate sin Real.sin) (hc : Accurate cos Real.cos) {e : ℝ} (he : e ≤ 1 / 8)
    {x y z : ℝ} (hx : Representable x ∧ |x| ≤ 2 ^ 500) (hy : Representable y ∧ |y| ≤ 2 ^ 500) (hz : Representable z ∧ |z| ≤ 2 ^ 500)
    {a : DAngle ℝ} {t : ℝ} (ha : a.inUnit .radian = .ok (.fin t)) (ht : Representable t) {r : DRotVec} (h : DRotVec.ctor o (.fin e) ⟨.fin x, .fin y, .fin z⟩ a = .ok r) :
    (∀ eps : ℝ, 2 ^ (-46 : ℤ) ≤ eps → ∃ T, DT3.Rotation o (.fin eps) sin cos r = .ok T) ∧
      ∀ eps T, DT3.Rotation o eps sin cos r = .ok T → ∀ v : V3, Within v → ∃ b : V3, DT3.applyTo q T (doubles v) = .ok (doubles b) ∧ DT3.applyToVector q T (doubles v) = doubles b ∧
        ‖pure b - turnAbout x y z t * (pure v * star (turnAbout x y z t))‖ ≤ 2 ^ (-45 : ℤ) * ‖pure v‖ + 2 ^ (-1070 : ℤ) := by
  constructor
  · intro eps hh
    obtain ⟨M, -, h2, -⟩ := C138_vector_partial o hs hc he hx hy hz ha ht h
    obtain ⟨h', -⟩ := accepted_axis o he hx hy hz h
    rw [DT3.Rotation]
    have d : r.isDefined = true := by
      by_contra hh'
      have := h2 eps hh
      rw [DRot.RotationVector, Bool.eq_false_iff.2 hh'] at this
      cases this
    rw [d, h2 eps hh]
    exact ⟨_, rfl⟩
  · intro eps T hT v hv
    obtain ⟨M, rfl, hM, hn⟩ := rotation_matrix o hs hc he hx hy hz ha ht h hT
    have S := fun i j => small_entry (hM i j).2
    have z0 : |(0 : ℝ)| ≤ 2 ^ 500 := by rw [abs_zero]; positivity
    have R : ∀ w : ℝ, |w| ≤ 1 → DT3.head q (DT3.ofMatrix (entries M)) (doubles v) (.fin w) = doubles ⟨DT3.dot4 q (M 0 0) (M 1 0) (M 2 0) 0 v.x v.y v.z w, DT3.dot4 q (M 0 1) (M 1 1) (M 2 1) 0 v.x v.y v.z w, DT3.dot4 q (M 0 2) (M 1 2) (M 2 2) 0 v.x v.y v.z w⟩ := fun w hw => by
      rw [DT3.head, Around.apply_row q (S 0 0) (S 1 0) (S 2 0) z0 hv.bounded hw (i := 0) rfl, Around.apply_row q (S 0 1) (S 1 1) (S 2 1) z0 hv.bounded hw (i := 1) rfl,
        Around.apply_row q (S 0 2) (S 1 2) (S 2 2) z0 hv.bounded hw (i := 2) rfl]
      rfl
    have Z : ∀ a b c : ℝ, DT3.dot4 q a b c 0 v.x v.y v.z 0 = DT3.dot4 q a b c 0 v.x v.y v.z 1 := fun a b c => by rw [DT3.dot4, DT3.dot4, zero_mul, zero_mul]
    refine ⟨_, by rw [DT3.applyTo, doubles_defined, R 1 (by norm_num)]; rfl, by rw [DT3.applyToVector, R 0 (by norm_num), Z, Z, Z], ?_⟩
    have u0 := DQuat.u_pos
    have t0 := DQuat.t_pos
    obtain ⟨f1, f2, -, -⟩ := e45
    have L := Around.abs_sum_le v
    have c : ∀ j, |DT3.dot4 q (M 0 j) (M 1 j) (M 2 j) 0 v.x v.y v.z 1 - (M 0 j * v.x + M 1 j * v.y + M 2 j * v.z)| ≤ 72 / 10 * DQuat.u * ‖pure v‖ + 5 * DQuat.t := fun j => by
      have k := DT3.dot4_near q (M 0 j) (M 1 j) (M 2 j) 0 v.x v.y v.z 1
      rw [zero_mul, add_zero, abs_zero, add_zero] at k
      have s := Around.row_error (hM 0 j).2 (hM 1 j).2 (hM 2 j).2 L
      have := mul_le_mul_of_nonneg_left s u0.le
      have : 0 ≤ DQuat.u * ‖pure v‖ := by positivity
      linarith
    have d := Around.pure_each (v := (⟨DT3.dot4 q (M 0 0) (M 1 0) (M 2 0) 0 v.x v.y v.z 1, DT3.dot4 q (M 0 1) (M 1 1) (M 2 1) 0 v.x v.y v.z 1, DT3.dot4 q (M 0 2) (M 1 2) (M 2 2) 0 v.x v.y v.z 1⟩ : V3) - turn (fun i j => M j i) v) (c 0) (c 1) (c 2)
    rw [← pure_sub] at d
    have tri := norm_sub_le_norm_sub_add_norm_sub (pure ⟨DT3.dot4 q (M 0 0) (M 1 0) (M 2 0) 0 v.x v.y v.z 1, DT3.dot4 q (M 0 1) (M 1 1) (M 2 1) 0 v.x v.y v.z 1, DT3.dot4 q (M 0 2) (M 1 2) (M 2 2) 0 v.x v.y v.z 1⟩) (pure (turn (fun i j => M j i) v)) (turnAbout x y z t * (pure v * star (turnAbout x y z t)))
    refine tri.trans ((add_le_add d (hn v)).trans ?_)
    rw [f1, f2, e1070]
    have : 0 ≤ DQuat.u * ‖pure v‖ := by positivity
    linarith

/-- what a rotation about a point returns, and does to a point -/
theorem around_returns (o : Bool) (q q' : Order4) {eps : F64 ℝ} {sin cos : ℝ → ℝ} {r : DRotVec} {M : Fin 3 → Fin 3 → ℝ} (hM : ∀ i j, Representable (M i j) ∧ |M i j| ≤ 1001 / 1000)
    (hR : DT3.Rotation o eps sin cos r = .ok (DT3.ofMatrix (entries M))) {p : V3} (hp : Within p) (hp' : Bounded 490 p) {v : V3} (hv : Within v) :
    ∃ T, DT3.RotationAround o q eps sin cos (doubles p) r = .ok T ∧ DT3.applyTo q' T (doubles v) = .ok (doubles
      ⟨DT3.dot4 q' (M 0 0) (M 1 0) (M 2 0) (DT3.dot4 q (M 0 0) (M 1 0) (M 2 0) p.x (-p.x) (-p.y) (-p.z) 1) v.x v.y v.z 1,
        DT3.dot4 q' (M 0 1) (M 1 1) (M 2 1) (DT3.dot4 q (M 0 1) (M 1 1) (M 2 1) p.y (-p.x) (-p.y) (-p.z) 1) v.x v.y v.z 1,
        DT3.dot4 q' (M 0 2) (M 1 2) (M 2 2) (DT3.dot4 q (M 0 2) (M 1 2) (M 2 2) p.z (-p.x) (-p.y) (-p.z) 1) v.x v.y v.z 1⟩) := by
  have P : ∀ {x : ℝ}, |x| ≤ 2 ^ 499 → |x| < 2 ^ 1024 := fun {x} h => h.trans_lt (pow_lt_pow_right₀ one_lt_two (by norm_num))
  have P' : ∀ {x : ℝ}, |x| ≤ 2 ^ 499 → |x| ≤ 2 ^ 500 := fun {x} h => h.trans (pow_le_pow_right₀ one_le_two (by norm_num))
  have S := fun i j => small_entry (hM i j).2
  have S' : ∀ i j, Representable (M i j) ∧ |M i j| ≤ 2 ^ 500 := fun i j => ⟨(hM i j).1, S i j⟩
  have F : FiniteDoubles p := ⟨⟨hp.x.1, P hp.x.2⟩, ⟨hp.y.1, P hp.y.2⟩, hp.z.1, P hp.z.2⟩
  obtain ⟨A, hA⟩ : ∃ A, DT3.Translation (doubles p) = .ok A := ⟨_, by rw [DT3.Translation, doubles_defined]; rfl⟩
  obtain ⟨B, hB⟩ : ∃ B, DT3.Translation ⟨.fin (-p.x), .fin (-p.y), .fin (-p.z)⟩ = .ok B := ⟨_, by simp [DT3.Translation, DVec.isDefined]; rfl⟩
  obtain ⟨l0, l1, l2⟩ := Around.left_rows q (fun i j => ⟨(hM i j).1, (S i j).trans_lt (pow_lt_pow_right₀ one_lt_two (by norm_num))⟩) F hA
  have r0 := Around.right_row q (S' 0 0) (S' 1 0) (S' 2 0) (P' hp.x.2) hp.bounded hB l0
  have r1 := Around.right_row q (S' 0 1) (S' 1 1) (S' 2 1) (P' hp.y.2) hp.bounded hB l1
  have r2 := Around.right_row q (S' 0 2) (S' 1 2) (S' 2 2) (P' hp.z.2) hp.bounded hB l2
  refine ⟨DT3.mul q (DT3.mul q A (DT3.ofMatrix (entries M))) B, ?_, ?_⟩
  · have hB' : DT3.Translation ⟨(doubles p).x.neg, (doubles p).y.neg, (doubles p).z.neg⟩ = .ok B := hB
    simp only [DT3.RotationAround, DT3.asVector, doubles_defined, Bool.not_true, Bool.false_eq_true, if_false, bind, Except.bind, hA, hR, hB']
    rfl
  · have k : ∀ j {w : ℝ}, |w| ≤ 2 ^ 490 → |DT3.dot4 q (M 0 j) (M 1 j) (M 2 j) w (-p.x) (-p.y) (-p.z) 1| ≤ 2 ^ 500 := fun j {w} hw => Around.k_le q (hM 0 j).2 (hM 1 j).2 (hM 2 j).2 hp'.1 hp'.2.1 hp'.2.2 hw
    rw [DT3.applyTo, doubles_defined, DT3.head, Around.apply_row q' (S 0 0) (S 1 0) (S 2 0) (k 0 hp'.1) hv.bounded (by norm_num) r0, Around.apply_row q' (S 0 1) (S 1 1) (S 2 1) (k 1 hp'.2.1) hv.bounded (by norm_num) r1,
      Around.apply_row q' (S 0 2) (S 1 2) (S 2 2) (k 2 hp'.2.2) hv.bounded (by norm_num) r2]
    rfl

/-- what it does to a point is near what the exact matrix does -/
theorem around_near (q q' : Order4) {M : Fin 3 → Fin 3 → ℝ} (hM : ∀ i j, Representable (M i j) ∧ |M i j| ≤ 1001 / 1000) (p v : V3) :
    ‖pure ⟨DT3.dot4 q' (M 0 0) (M 1 0) (M 2 0) (DT3.dot4 q (M 0 0) (M 1 0) (M 2 0) p.x (-p.x) (-p.y) (-p.z) 1) v.x v.y v.z 1,
        DT3.dot4 q' (M 0 1) (M 1 1) (M 2 1) (DT3.dot4 q (M 0 1) (M 1 1) (M 2 1) p.y (-p.x) (-p.y) (-p.z) 1) v.x v.y v.z 1,
        DT3.dot4 q' (M 0 2) (M 1 2) (M 2 2) (DT3.dot4 q (M 0 2) (M 1 2) (M 2 2) p.z (-p.x) (-p.y) (-p.z) 1) v.x v.y v.z 1⟩ - pure (p + turn (fun i j => M j i) (v - p))‖ ≤
      13 * DQuat.u * ‖pure v‖ + 51 * DQuat.u * ‖pure p‖ + 20 * DQuat.t := by
  have u0 := DQuat.u_pos
  have t0 := DQuat.t_pos
  have Lv := Around.abs_sum_le v
  have Lp := Around.abs_sum_le p
  have hx : |p.x| ≤ 1733 / 1000 * ‖pure p‖ := by linarith [abs_nonneg p.y, abs_nonneg p.z]
  have hy : |p.y| ≤ 1733 / 1000 * ‖pure p‖ := by linarith [abs_nonneg p.x, abs_nonneg p.z]
  have hz : |p.z| ≤ 1733 / 1000 * ‖pure p‖ := by linarith [abs_nonneg p.y, abs_nonneg p.x]
  have c := fun j {w : ℝ} (hw : |w| ≤ 1733 / 1000 * ‖pure p‖) => Around.around_component q q' (v := w) (hM 0 j).2 (hM 1 j).2 (hM 2 j).2 Lv Lp hw
  rw [pure_sub]
  refine (Around.pure_each (c 0 hx) (c 1 hy) (c 2 hz)).trans ?_
  have : 0 ≤ DQuat.u * ‖pure v‖ := by positivity
  have : 0 ≤ DQuat.u * ‖pure p‖ := by positivity
  linarith

theorem pure_plus (v w : V3) : pure (v + w) = pure v + pure w := by
  have := pure_sub (v + w) w
  rw [show v + w - w = v by ext <;> simp] at this
  rw [← this]; simp

/-- **C141.** The rotation about a point in double precision moves every point as the exact one, within `2 ^ -45` of the lengths of the two, and the point it is made about by at most `2 ^ -47` of its length
(however far the matrix is from a rotation). -/
theorem C141_around_partial (o : Bool) (q q' : Order4) {sin cos : ℝ → ℝ} (hs : Accurate sin Real.sin) (hc : Accurate cos Real.cos) {e : ℝ} (he : e ≤ 1 / 8)
    {x y z : ℝ} (hx : Representable x ∧ |x| ≤ 2 ^ 500) (hy : Representable y ∧ |y| ≤ 2 ^ 500) (hz : Representable z ∧ |z| ≤ 2 ^ 500)
    {a : DAngle ℝ} {t : ℝ} (ha : a.inUnit .radian = .ok (.fin t)) (ht : Representable t) {r : DRotVec} (h : DRotVec.ctor o (.fin e) ⟨.fin x, .fin y, .fin z⟩ a = .ok r)
    {p : V3} (hp : Within p) (hp' : Bounded 490 p) :
    (∀ eps : ℝ, 2 ^ (-46 : ℤ) ≤ eps → ∃ T, DT3.RotationAround o q (.fin eps) sin cos (doubles p) r = .ok T) ∧
      ∀ eps T, DT3.RotationAround o q eps sin cos (doubles p) r = .ok T → ∀ v : V3, Within v → ∃ b : V3, DT3.applyTo q' T (doubles v) = .ok (doubles b) ∧
        ‖pure b - (pure p + turnAbout x y z t * (pure (v - p) * star (turnAbout x y z t)))‖ ≤ 2 ^ (-45 : ℤ) * (‖pure v‖ + ‖pure p‖) + 2 ^ (-1070 : ℤ) ∧
        (v = p → ‖pure b - pure p‖ ≤ 2 ^ (-47 : ℤ) * ‖pure p‖ + 2 ^ (-1070 : ℤ)) := by
  constructor
  · intro eps hh
    obtain ⟨R, hR⟩ := (C141_rotation o q hs hc he hx hy hz ha ht h).1 eps hh
    obtain ⟨M, rfl, hM, -⟩ := rotation_matrix o hs hc he hx hy hz ha ht h hR
    obtain ⟨T, hT, -⟩ := around_returns o q q' hM hR hp hp' hp
    exact ⟨T, hT⟩
  · intro eps T hT v hv
    obtain ⟨R, hR⟩ : ∃ R, DT3.Rotation o eps sin cos r = .ok R := by
      rw [DT3.RotationAround] at hT
      obtain ⟨_, -, hT⟩ := ok_of_bind hT
      obtain ⟨_, -, hT⟩ := ok_of_bind hT
      obtain ⟨R, hR, -⟩ := ok_of_bind hT
      exact ⟨R, hR⟩
    obtain ⟨M, rfl, hM, hn⟩ := rotation_matrix o hs hc he hx hy hz ha ht h hR
    obtain ⟨T', hT', hb⟩ := around_returns o q q' hM hR hp hp' hv
    obtain rfl := Except.ok.inj (hT.symm.trans hT')
    have nb := around_near q q' hM p v
    refine ⟨_, hb, ?_, ?_⟩
    · generalize pure ⟨DT3.dot4 q' (M 0 0) _ _ _ _ _ _ _, _, _⟩ = b at nb ⊢
      have h1 := hn (v - p)
      have u0 := DQuat.u_pos
      have t0 := DQuat.t_pos
      obtain ⟨f1, f2, -, -⟩ := e45
      rw [pure_plus] at nb
      have h2 : ‖pure (v - p)‖ ≤ ‖pure v‖ + ‖pure p‖ := by rw [← pure_sub]; exact norm_sub_le _ _
      have tri := norm_sub_le_norm_sub_add_norm_sub b (pure p + pure (turn (fun i j => M j i) (v - p))) (pure p + turnAbout x y z t * (pure (v - p) * star (turnAbout x y z t)))
      rw [add_sub_add_left_eq_sub] at tri
      rw [f2] at h1
      rw [f1, e1070]
      have := mul_le_mul_of_nonneg_left h2 u0.le
      have : 0 ≤ DQuat.u * ‖pure v‖ := by positivity
      have : 0 ≤ DQuat.u * ‖pure p‖ := by positivity
      linarith
    · rintro rfl
      have u0 := DQuat.u_pos
      have t0 := DQuat.t_pos
      obtain ⟨-, -, f3, -⟩ := e45
      have ez : v + turn (fun i j => M j i) (v - v) = v := by ext <;> simp [turn]
      rw [ez] at nb
      rw [f3, e1070]
      linarith

/-! ## The plane -/

/-- the two rows of a rotation of the plane about a point, and what they do to a point -/
theorem plane_row (o : Bool) {a b d : ℝ} (ha : |a| ≤ 1) (hb : |b| ≤ 1) (hd : |d| ≤ 2 ^ 500) {v : V2} (hv : Sized2 490 v) {w : ℝ} (hw : |w| ≤ 1) {m : Fin 3 → Fin 3 → F64 ℝ} {i : Fin 3}
    (hm : m i = ![.fin a, .fin b, .fin d]) : DT2.row o m i (doubles2 v) (.fin w) = .fin (DVec.dot3 o a b d v.x v.y w) := by
  have P : ∀ {x : ℝ}, |x| ≤ 2 ^ 490 → |x| ≤ 2 ^ 500 := fun {x} h => h.trans (pow_le_pow_right₀ one_le_two (by norm_num))
  have W : ∀ {x : ℝ}, |x| ≤ 1 → |x| ≤ 2 ^ 500 := fun {x} h => h.trans (one_le_pow₀ one_le_two)
  rw [DT2.row, hm]
  exact (DVec.dot_fin o (W ha) (W hb) hd (P hv.x.2) (P hv.y.2) (W hw)).1

theorem plane_rotation {sin cos : ℝ → ℝ} {a : DAngle ℝ} {t : ℝ} (ha : a.inUnit .radian = .ok (.fin t)) :
    DT2.Rotation sin cos a = .ok ![![.fin (cos t), .fin (-sin t), .fin 0], ![.fin (sin t), .fin (cos t), .fin 0], ![.fin 0, .fin 0, .fin 1]] := by
  rw [DT2.Rotation, defined_of_inUnit ha, ha]
  rfl

theorem sum3_one (o : Bool) {x : ℝ} (hx : Representable x) (h : |x| < 2 ^ 1024) :
    DVec.sum o (.fin x) (.fin 0) (.fin 0) = .fin x ∧ DVec.sum o (.fin 0) (.fin x) (.fin 0) = .fin x ∧ DVec.sum o (.fin 0) (.fin 0) (.fin x) = .fin x := by
  cases o <;> simp [DVec.sum, DT3.add_zero_fin hx h, DT3.zero_add_fin hx h, DT3.zero_add_zero]

theorem plane_around (o o' : Bool) {sin cos : ℝ → ℝ} (hs : Accurate sin Real.sin) (hc : Accurate cos Real.cos) {a : DAngle ℝ} {t : ℝ} (ha : a.inUnit .radian = .ok (.fin t)) (ht : Representable t)
    {p : V2} (hp : Sized2 490 p) {v : V2} (hv : Sized2 490 v) :
    ∃ T, DT2.RotationAround o sin cos (doubles2 p) a = .ok T ∧ DT2.applyTo o' T (doubles2 v) = .ok (doubles2
      ⟨DVec.dot3 o' (cos t) (-sin t) (DVec.dot3 o (cos t) (-sin t) p.x (-p.x) (-p.y) 1) v.x v.y 1, DVec.dot3 o' (sin t) (cos t) (DVec.dot3 o (sin t) (cos t) p.y (-p.x) (-p.y) 1) v.x v.y 1⟩) := by
  have P : ∀ {x : ℝ}, |x| ≤ 2 ^ 490 → |x| < 2 ^ 1024 := fun {x} h => h.trans_lt (pow_lt_pow_right₀ one_lt_two (by norm_num))
  have P' : ∀ {x : ℝ}, |x| ≤ 2 ^ 490 → |x| ≤ 2 ^ 500 := fun {x} h => h.trans (pow_le_pow_right₀ one_le_two (by norm_num))
  have W : ∀ {x : ℝ}, |x| ≤ 1 → |x| ≤ 2 ^ 500 := fun {x} h => h.trans (one_le_pow₀ one_le_two)
  have W' : ∀ {x : ℝ}, |x| ≤ 1 → |x| < 2 ^ 1024 := fun {x} h => h.trans_lt (one_lt_pow₀ one_lt_two (by norm_num))
  obtain ⟨rs, ls, -⟩ := hs t ht
  obtain ⟨rc, lc, -⟩ := hc t ht
  have hR := plane_rotation (sin := sin) (cos := cos) ha
  generalize sin t = s at *
  generalize cos t = c at *
  have rs' : Representable (-s) := by simpa using representable_neg rs
  have ls' : |-s| ≤ 1 := by rwa [abs_neg]
  have k1 : ∀ {x : ℝ}, Representable x → |x| ≤ 1 → (F64.fin 1).mul (.fin x) = .fin x ∧ (F64.fin x).mul (.fin 1) = .fin x := fun {x} r l => ⟨DT3.one_mul_fin r (W' l), DT3.mul_one_fin r (W' l)⟩
  have k2 : ∀ {x : ℝ}, Representable x ∧ |x| ≤ 2 ^ 490 → (F64.fin x).mul (.fin 1) = .fin x := fun {x} r => DT3.mul_one_fin r.1 (P r.2)
  have one : ∀ {x : ℝ}, Representable x → |x| ≤ 1 → _ := fun {x} r l => sum3_one o r (W' l)
  have px := sum3_one o hp.x.1 (P hp.x.2)
  have py := sum3_one o hp.y.1 (P hp.y.2)
  have dot : ∀ {a b w : ℝ}, |a| ≤ 1 → |b| ≤ 1 → |w| ≤ 2 ^ 490 → DVec.sum o ((F64.fin a).mul (.fin (-p.x))) ((F64.fin b).mul (.fin (-p.y))) ((F64.fin w).mul (.fin 1)) = .fin (DVec.dot3 o a b w (-p.x) (-p.y) 1) := fun {a b w} h1 h2 h3 =>
    (DVec.dot_fin o (W h1) (W h2) (P' h3) (x := -p.x) (y := -p.y) (z := 1) (by rw [abs_neg]; exact P' hp.x.2) (by rw [abs_neg]; exact P' hp.y.2) (W (by norm_num))).1
  have bound : ∀ {a b w : ℝ}, |a| ≤ 1 → |b| ≤ 1 → |w| ≤ 2 ^ 490 → |DVec.dot3 o a b w (-p.x) (-p.y) 1| ≤ 2 ^ 500 := fun {a b w} h1 h2 h3 => by
    have n := DVec.dot3_near o a b w (-p.x) (-p.y) 1
    have u0 := DQuat.u_pos
    have us := DQuat.u_small
    have t1 : DQuat.t ≤ 1 := by
      have := DRot.t_u
      norm_num at this
      linarith
    have hx := hp.x.2
    have hy := hp.y.2
    have e : (2 : ℝ) ^ 500 = 1024 * 2 ^ 490 := by rw [show (500 : ℕ) = 10 + 490 by norm_num, pow_add]; norm_num
    have w1 : (1 : ℝ) ≤ 2 ^ 490 := one_le_pow₀ one_le_two
    rw [e]
    clear e P P' k2 px py dot hR
    generalize (2 : ℝ) ^ 490 = N at h3 hx hy w1 ⊢
    have e1 := abs_sub_abs_le_abs_sub (DVec.dot3 o a b w (-p.x) (-p.y) 1) (a * -p.x + b * -p.y + w * 1)
    have e2 : |a * -p.x + b * -p.y + w * 1| ≤ |a * -p.x| + |b * -p.y| + |w * 1| := (abs_add_le _ _).trans (add_le_add_left (abs_add_le _ _) _)
    have s : |a * -p.x| + |b * -p.y| + |w * 1| ≤ 3 * N := by
      rw [abs_mul, abs_mul, mul_one, abs_neg, abs_neg]
      have := mul_le_mul h1 hx (abs_nonneg _) zero_le_one
      have := mul_le_mul h2 hy (abs_nonneg _) zero_le_one
      linarith
    have : DQuat.u * (|a * -p.x| + |b * -p.y| + |w * 1|) ≤ 1 / 10 ^ 15 * (3 * N) := mul_le_mul us s (by positivity) (by positivity)
    linarith
  have dx := dot lc ls' hp.x.2
  rw [k2 hp.x] at dx
  have dy := dot ls lc hp.y.2
  rw [k2 hp.y] at dy
  refine ⟨DT2.mul o (DT2.mul o ![![.fin 1, .fin 0, .fin p.x], ![.fin 0, .fin 1, .fin p.y], ![.fin 0, .fin 0, .fin 1]] ![![.fin c, .fin (-s), .fin 0], ![.fin s, .fin c, .fin 0], ![.fin 0, .fin 0, .fin 1]])
      ![![.fin 1, .fin 0, .fin (-p.x)], ![.fin 0, .fin 1, .fin (-p.y)], ![.fin 0, .fin 0, .fin 1]], ?_, ?_⟩
  · have hA : DT2.Translation (doubles2 p) = .ok ![![.fin 1, .fin 0, .fin p.x], ![.fin 0, .fin 1, .fin p.y], ![.fin 0, .fin 0, .fin 1]] := by
      rw [DT2.Translation, if_neg (by simp [doubles2])]; rfl
    have hB : DT2.Translation ⟨(doubles2 p).x.neg, (doubles2 p).y.neg⟩ = .ok ![![.fin 1, .fin 0, .fin (-p.x)], ![.fin 0, .fin 1, .fin (-p.y)], ![.fin 0, .fin 0, .fin 1]] := by
      rw [DT2.Translation, if_neg (by simp [doubles2, F64.neg])]; rfl
    have hV : DT2.asVector (doubles2 p) = .ok (doubles2 p) := by rw [DT2.asVector, if_neg (by simp [doubles2])]
    simp only [DT2.RotationAround, bind, Except.bind, hV, hA, hR, hB]
    rfl
  · have r0 : DT2.mul o (DT2.mul o ![![.fin 1, .fin 0, .fin p.x], ![.fin 0, .fin 1, .fin p.y], ![.fin 0, .fin 0, .fin 1]] ![![.fin c, .fin (-s), .fin 0], ![.fin s, .fin c, .fin 0], ![.fin 0, .fin 0, .fin 1]])
      ![![.fin 1, .fin 0, .fin (-p.x)], ![.fin 0, .fin 1, .fin (-p.y)], ![.fin 0, .fin 0, .fin 1]] 0 = ![.fin c, .fin (-s), .fin (DVec.dot3 o c (-s) p.x (-p.x) (-p.y) 1)] := by
      funext j
      fin_cases j <;> simp [DT2.mul, k1 rc lc, k1 rs' ls', DT3.zero_mul_fin, DT3.mul_zero_fin, one rc lc, one rs' ls', k2 hp.x, px, dx]
    have r1 : DT2.mul o (DT2.mul o ![![.fin 1, .fin 0, .fin p.x], ![.fin 0, .fin 1, .fin p.y], ![.fin 0, .fin 0, .fin 1]] ![![.fin c, .fin (-s), .fin 0], ![.fin s, .fin c, .fin 0], ![.fin 0, .fin 0, .fin 1]])
      ![![.fin 1, .fin 0, .fin (-p.x)], ![.fin 0, .fin 1, .fin (-p.y)], ![.fin 0, .fin 0, .fin 1]] 1 = ![.fin s, .fin c, .fin (DVec.dot3 o s c p.y (-p.x) (-p.y) 1)] := by
      funext j
      fin_cases j <;> simp [DT2.mul, k1 rc lc, k1 rs ls, DT3.zero_mul_fin, DT3.mul_zero_fin, one rc lc, one rs ls, k2 hp.y, py, dy]
    rw [DT2.applyTo, if_neg (by simp [doubles2]), plane_row o' lc ls' (bound lc ls' hp.x.2) hv (by norm_num) r0, plane_row o' ls lc (bound ls lc hp.y.2) hv (by norm_num) r1]
    rfl

/-- the error of one coordinate -/
theorem plane_component (o o' : Bool) {a b A B x y p1 p2 w : ℝ} (ha : |a| ≤ 1) (hb : |b| ≤ 1) (na : |a - A| ≤ DQuat.u) (nb : |b - B| ≤ DQuat.u) (hw : |w| ≤ |p1| + |p2|) :
    |DVec.dot3 o' a b (DVec.dot3 o a b w (-p1) (-p2) 1) x y 1 - (w + (A * (x - p1) + B * (y - p2)))| ≤ 41 / 10 * DQuat.u * (|x| + |y|) + 132 / 10 * DQuat.u * (|p1| + |p2|) + 7 * DQuat.t ∧
      |DVec.dot3 o' a b (DVec.dot3 o a b w (-p1) (-p2) 1) x y 1 - (w + (a * (x - p1) + b * (y - p2)))| ≤ 31 / 10 * DQuat.u * (|x| + |y|) + 122 / 10 * DQuat.u * (|p1| + |p2|) + 7 * DQuat.t := by
  have u0 := DQuat.u_pos
  have us := DQuat.u_small
  have t0 := DQuat.t_pos
  have k1 := DVec.dot3_near o a b w (-p1) (-p2) 1
  generalize DVec.dot3 o a b w (-p1) (-p2) 1 = k at *
  have k2 := DVec.dot3_near o' a b k x y 1
  generalize DVec.dot3 o' a b k x y 1 = b' at *
  rw [mul_one] at k1 k2
  have m1 : ∀ {c z : ℝ}, |c| ≤ 1 → |c * z| ≤ |z| := fun {c z} h => by rw [abs_mul]; exact mul_le_of_le_one_left (abs_nonneg _) h
  have s1 : |a * -p1| + |b * -p2| + |w| ≤ 2 * (|p1| + |p2|) := by
    have h1 := m1 (z := -p1) ha
    have h2 := m1 (z := -p2) hb
    rw [abs_neg] at h1 h2
    linarith
  have s2 : |a * x| + |b * y| ≤ |x| + |y| := add_le_add (m1 ha) (m1 hb)
  have dA : |(a - A) * (x - p1) + (b - B) * (y - p2)| ≤ DQuat.u * (|x| + |y| + (|p1| + |p2|)) := by
    have e1 := abs_add_le ((a - A) * (x - p1)) ((b - B) * (y - p2))
    rw [abs_mul, abs_mul] at e1
    have := mul_le_mul na (abs_sub x p1) (abs_nonneg _) u0.le
    have := mul_le_mul nb (abs_sub y p2) (abs_nonneg _) u0.le
    linarith
  have X0 : 0 ≤ |x| + |y| := by positivity
  have P0 : 0 ≤ |p1| + |p2| := by positivity
  have eA : w + (a * (x - p1) + b * (y - p2)) - (w + (A * (x - p1) + B * (y - p2))) = (a - A) * (x - p1) + (b - B) * (y - p2) := by ring
  have eK : a * x + b * y + (a * -p1 + b * -p2 + w) = w + (a * (x - p1) + b * (y - p2)) := by ring
  have e2 : |a * -p1 + b * -p2 + w| ≤ |a * -p1| + |b * -p2| + |w| := (abs_add_le _ _).trans (add_le_add_left (abs_add_le _ _) _)
  generalize |x| + |y| = n at *
  generalize |p1| + |p2| = m at *
  have k1' : |k - (a * -p1 + b * -p2 + w)| ≤ 301 / 100 * DQuat.u * (2 * m) + 31 / 10 * DQuat.t := k1.trans (add_le_add_left (mul_le_mul_of_nonneg_left s1 (by positivity)) _)
  have ka : |k| ≤ 2001 / 1000 * m + 31 / 10 * DQuat.t := by
    have e1 := abs_sub_abs_le_abs_sub k (a * -p1 + b * -p2 + w)
    have : DQuat.u * m ≤ 1 / 10 ^ 15 * m := mul_le_mul_of_nonneg_right us P0
    linarith
  have k2' : |b' - (a * x + b * y + k)| ≤ 301 / 100 * DQuat.u * (n + (2001 / 1000 * m + 31 / 10 * DQuat.t)) + 31 / 10 * DQuat.t :=
    k2.trans (add_le_add_left (mul_le_mul_of_nonneg_left (by linarith) (by positivity)) _)
  have tri := abs_add_le (b' - (a * x + b * y + k)) (k - (a * -p1 + b * -p2 + w))
  rw [show b' - (a * x + b * y + k) + (k - (a * -p1 + b * -p2 + w)) = b' - (a * x + b * y + (a * -p1 + b * -p2 + w)) by ring, eK] at tri
  have tt : DQuat.u * DQuat.t ≤ 1 / 10 ^ 15 * DQuat.t := mul_le_mul_of_nonneg_right us t0.le
  have un := mul_nonneg u0.le X0
  have um := mul_nonneg u0.le P0
  have main : |b' - (w + (a * (x - p1) + b * (y - p2)))| ≤ 31 / 10 * DQuat.u * n + 122 / 10 * DQuat.u * m + 7 * DQuat.t := by linarith
  refine ⟨?_, main⟩
  have tri2 := abs_add_le (b' - (w + (a * (x - p1) + b * (y - p2)))) (w + (a * (x - p1) + b * (y - p2)) - (w + (A * (x - p1) + B * (y - p2))))
  rw [sub_add_sub_cancel, eA] at tri2
  linarith

/-- the error of one coordinate of a rotation of the plane -/
theorem rotate_component (o : Bool) {a b A B : ℝ} (ha : |a| ≤ 1) (hb : |b| ≤ 1) (na : |a - A| ≤ DQuat.u) (nb : |b - B| ≤ DQuat.u) (x y : ℝ) :
    |DVec.dot3 o a b 0 x y 1 - (A * x + B * y)| ≤ 41 / 10 * DQuat.u * (|x| + |y|) + 31 / 10 * DQuat.t := by
  have u0 := DQuat.u_pos
  have k := DVec.dot3_near o a b 0 x y 1
  rw [zero_mul, add_zero, abs_zero, add_zero] at k
  have m1 : ∀ {c z : ℝ}, |c| ≤ 1 → |c * z| ≤ |z| := fun {c z} h => by rw [abs_mul]; exact mul_le_of_le_one_left (abs_nonneg _) h
  have s := mul_le_mul_of_nonneg_left (add_le_add (m1 (z := x) ha) (m1 (z := y) hb)) u0.le
  have e1 := abs_add_le ((a - A) * x) ((b - B) * y)
  rw [abs_mul, abs_mul] at e1
  have := mul_le_mul_of_nonneg_right na (abs_nonneg x)
  have := mul_le_mul_of_nonneg_right nb (abs_nonneg y)
  have tri := abs_add_le (DVec.dot3 o a b 0 x y 1 - (a * x + b * y)) ((a - A) * x + (b - B) * y)
  rw [show DVec.dot3 o a b 0 x y 1 - (a * x + b * y) + ((a - A) * x + (b - B) * y) = DVec.dot3 o a b 0 x y 1 - (A * x + B * y) by ring] at tri
  have : 0 ≤ DQuat.u * (|x| + |y|) := by positivity
  linarith

/-- **C141.** In the plane: the transformation made from an angle turns points and vectors alike, each coordinate within 5 units of rounding of those of the point; the rotation about a point
moves points as the exact one within `2 ^ -49`, and its own point by at most as much. -/
theorem C141_plane_partial (o o' : Bool) {sin cos : ℝ → ℝ} (hs : Accurate sin Real.sin) (hc : Accurate cos Real.cos) {a : DAngle ℝ} {t : ℝ} (ha : a.inUnit .radian = .ok (.fin t)) (ht : Representable t)
    {p v : V2} (hp : Sized2 490 p) (hv : Sized2 490 v) :
    (∃ T b, DT2.Rotation sin cos a = .ok T ∧ DT2.applyTo o' T (doubles2 v) = .ok (doubles2 b) ∧ DT2.applyToVector o' T (doubles2 v) = doubles2 b ∧
        |b.x - (Real.cos t * v.x - Real.sin t * v.y)| ≤ 5 / 2 ^ 53 * (|v.x| + |v.y|) + 2 ^ (-1070 : ℤ) ∧ |b.y - (Real.sin t * v.x + Real.cos t * v.y)| ≤ 5 / 2 ^ 53 * (|v.x| + |v.y|) + 2 ^ (-1070 : ℤ)) ∧
      ∃ T b, DT2.RotationAround o sin cos (doubles2 p) a = .ok T ∧ DT2.applyTo o' T (doubles2 v) = .ok (doubles2 b) ∧
        |b.x - (p.x + (Real.cos t * (v.x - p.x) - Real.sin t * (v.y - p.y)))| ≤ 2 ^ (-49 : ℤ) * (|v.x| + |v.y| + |p.x| + |p.y|) + 2 ^ (-1070 : ℤ) ∧
        |b.y - (p.y + (Real.sin t * (v.x - p.x) + Real.cos t * (v.y - p.y)))| ≤ 2 ^ (-49 : ℤ) * (|v.x| + |v.y| + |p.x| + |p.y|) + 2 ^ (-1070 : ℤ) ∧
        (v = p → |b.x - p.x| ≤ 2 ^ (-49 : ℤ) * (|p.x| + |p.y|) + 2 ^ (-1070 : ℤ) ∧ |b.y - p.y| ≤ 2 ^ (-49 : ℤ) * (|p.x| + |p.y|) + 2 ^ (-1070 : ℤ)) := by
  obtain ⟨-, ls, ns⟩ := lib_near hs ht
  obtain ⟨-, lc, nc⟩ := lib_near hc ht
  have ls' : |-sin t| ≤ 1 := by rwa [abs_neg]
  have ns' : |-sin t - -Real.sin t| ≤ DQuat.u := by rw [neg_sub_neg, abs_sub_comm]; exact ns
  have u0 := DQuat.u_pos
  have us := DQuat.u_small
  have t0 := DQuat.t_pos
  obtain ⟨-, -, -, f4⟩ := e45
  rw [f4, e1070]
  constructor
  · have z0 : |(0 : ℝ)| ≤ 2 ^ 500 := by rw [abs_zero]; positivity
    refine ⟨_, ⟨DVec.dot3 o' (cos t) (-sin t) 0 v.x v.y 1, DVec.dot3 o' (sin t) (cos t) 0 v.x v.y 1⟩, plane_rotation ha, ?_, ?_, ?_, ?_⟩
    · rw [DT2.applyTo, if_neg (by simp [doubles2]), plane_row o' lc ls' z0 hv (by norm_num) rfl, plane_row o' ls lc z0 hv (by norm_num) rfl]
      rfl
    · rw [DT2.applyToVector, plane_row o' lc ls' z0 hv (by norm_num) rfl, plane_row o' ls lc z0 hv (by norm_num) rfl]
      simp [doubles2, DVec.dot3]
    all_goals
      have X0 : 0 ≤ DQuat.u * (|v.x| + |v.y|) := by positivity
      have e53' : (5 : ℝ) / 2 ^ 53 = 5 * DQuat.u := by rw [DQuat.u]; norm_num
      rw [e53']
    · have := rotate_component o' lc ls' nc ns' v.x v.y
      rw [show Real.cos t * v.x - Real.sin t * v.y = Real.cos t * v.x + -Real.sin t * v.y by ring]
      refine this.trans ?_
      linarith
    · have := rotate_component o' ls lc ns nc v.x v.y
      refine this.trans ?_
      linarith
  · obtain ⟨T, hT, hb⟩ := plane_around o o' hs hc ha ht hp hv
    have c1 := plane_component o o' (x := v.x) (y := v.y) (p1 := p.x) (p2 := p.y) (w := p.x) lc ls' nc ns' (by linarith [abs_nonneg p.y])
    have c2 := plane_component o o' (x := v.x) (y := v.y) (p1 := p.x) (p2 := p.y) (w := p.y) ls lc ns nc (by linarith [abs_nonneg p.x])
    have X0 : 0 ≤ DQuat.u * (|v.x| + |v.y|) := by positivity
    have P0 : 0 ≤ DQuat.u * (|p.x| + |p.y|) := by positivity
    refine ⟨T, _, hT, hb, ?_, ?_, ?_⟩
    · rw [show Real.cos t * (v.x - p.x) - Real.sin t * (v.y - p.y) = Real.cos t * (v.x - p.x) + -Real.sin t * (v.y - p.y) by ring]
      linarith [c1.1]
    · linarith [c2.1]
    · rintro rfl
      have d1 := c1.2
      have d2 := c2.2
      rw [sub_self, sub_self, mul_zero, mul_zero, add_zero, add_zero] at d1 d2
      exact ⟨by linarith, by linarith⟩

/-! ## The point does not stay -/

/-- numbers near one and two -/
theorem half_turn_sums {s : ℝ} (h1 : 12 / 10 ^ 17 ≤ s) (h2 : s ≤ 13 / 10 ^ 17) :
    rnd (1 + 2 * s) = 1 + 1 / 2 ^ 52 ∧ rnd (2 - 2 * s) = 2 - 1 / 2 ^ 52 ∧ rnd (1 + 1 / 2 ^ 52 + 1 : ℝ) = 2 ∧ rnd (-(1 + 1 / 2 ^ 52) + 2 : ℝ) = 1 - 1 / 2 ^ 52 ∧ rnd (-1 + (2 - 1 / 2 ^ 52) : ℝ) = 1 - 1 / 2 ^ 52 := by
  have p52 : (2 : ℝ) ^ (-52 : ℤ) = 1 / 2 ^ 52 := by norm_num
  have a1 : |1 + 2 * s| = 1 + 2 * s := abs_of_pos (by norm_num at h1; linarith)
  have a2 : |2 - 2 * s| = 2 - 2 * s := abs_of_pos (by norm_num at h2; linarith)
  norm_num at h1 h2
  refine ⟨?_, ?_, ?_, ?_, ?_⟩
  · rw [rnd_eq (2 ^ 52 + 1) (-52) (by norm_num)]
    · norm_num
    · rw [a1]; norm_num; linarith
    · rw [a1]; norm_num; linarith
    · left; rw [abs_lt]; norm_num; constructor <;> linarith
  · rw [rnd_eq (2 ^ 53 - 1) (-52) (by norm_num)]
    · norm_num
    · rw [a2]; norm_num; linarith
    · rw [a2]; norm_num; linarith
    · left; rw [abs_lt]; norm_num; constructor <;> linarith
  · rw [rnd_eq (2 ^ 52) (-51) (by norm_num)]
    · norm_num
    · rw [abs_of_pos (by norm_num)]; norm_num
    · rw [abs_of_pos (by norm_num)]; norm_num
    · right; rw [abs_of_neg (by norm_num)]; norm_num
  all_goals
    have r : Representable (1 - 1 / 2 ^ 52 : ℝ) := by
      have := HalfTurn.rep_lit (2 ^ 52 - 1) 52 (by norm_num) (by norm_num)
      rw [show (1 - 1 / 2 ^ 52 : ℝ) = ((2 ^ 52 - 1 : ℤ) : ℝ) / 2 ^ 52 by norm_num]
      exact this
  · rw [show (-(1 + 1 / 2 ^ 52) + 2 : ℝ) = 1 - 1 / 2 ^ 52 by ring, rnd_exact r]
  · rw [show (-1 + (2 - 1 / 2 ^ 52) : ℝ) = 1 - 1 / 2 ^ 52 by ring, rnd_exact r]

theorem rep_two' : Representable (2 : ℝ) := by simpa using DQuat.rep_two 1

theorem half_turn_double {s : ℝ} (hs : Representable s) : rnd (s * 2) = 2 * s ∧ rnd (-s * 2) = -(2 * s) := by
  have r := rnd_exact (DRot.representable_double hs)
  rw [neg_mul, rnd_neg, mul_comm, r]; exact ⟨rfl, rfl⟩

/-- the first coordinate of (1, 2), turned half round about itself -/
theorem half_turn_row (o o' : Bool) {s : ℝ} (hs : Representable s) (h1 : 12 / 10 ^ 17 ≤ s) (h2 : s ≤ 13 / 10 ^ 17) :
    DVec.dot3 o' (-1) (-s) (DVec.dot3 o (-1) (-s) 1 (-1) (-2) 1) 1 2 1 = 1 - 1 / 2 ^ 52 := by
  obtain ⟨e1, e2, e3, e4, e5⟩ := half_turn_sums h1 h2
  obtain ⟨d1, d2⟩ := half_turn_double hs
  have k : DVec.dot3 o (-1) (-s) 1 (-1) (-2) 1 = 2 := by
    have o1 : rnd (1 : ℝ) = 1 := rnd_exact rep_one
    cases o <;> simp only [DVec.dot3, DVec.sum3, Bool.false_eq_true, if_false, if_true, mul_one, neg_mul_neg, o1, d1, e1, e3]
    rw [add_comm (2 * s), e1, add_comm, e3]
  have o1 : rnd (-1 : ℝ) = -1 := by rw [rnd_neg, rnd_exact rep_one]
  have o2 : rnd (2 : ℝ) = 2 := rnd_exact rep_two'
  rw [k]
  cases o' <;> simp only [DVec.dot3, DVec.sum3, Bool.false_eq_true, if_false, if_true, mul_one, o1, o2, d2]
  · rw [show (-1 + -(2 * s)) = -(1 + 2 * s) by ring, rnd_neg, e1, e4]
  · rw [show (-(2 * s) + 2) = 2 - 2 * s by ring, e2, e5]

/-- **C141 is violated**, the point about which one turns does not stay: a half turn of the plane about (1, 2) moves (1, 2) to the left, by a unit in the last place of one. The sine and the cosine
are accurate, and correctly rounded at this angle, the double nearest to π. -/
theorem C141_fixed_violated (o o' : Bool) {sin cos : ℝ → ℝ} (hs : Accurate sin Real.sin) (hc : Accurate cos Real.cos) (es : sin piD = rnd (Real.sin piD)) (ec : cos piD = rnd (Real.cos piD)) :
    ∃ T b, DT2.RotationAround o sin cos (doubles2 ⟨1, 2⟩) ⟨.fin piD, .radian⟩ = .ok T ∧ DT2.applyTo o' T (doubles2 ⟨1, 2⟩) = .ok (doubles2 b) ∧ b.x = 1 - 1 / 2 ^ 52 := by
  obtain ⟨c1, s1, s2⟩ := HalfTurnVec.trig_piD
  have ha : (⟨.fin piD, .radian⟩ : DAngle ℝ).inUnit .radian = .ok (.fin piD) := by simp [DAngle.inUnit, DAngle.isDefined]
  have hp : Sized2 490 ⟨1, 2⟩ := by
    have w : (2 : ℝ) ≤ 2 ^ 490 := (pow_one (2 : ℝ)).symm.le.trans (pow_le_pow_right₀ one_le_two (by norm_num))
    refine ⟨⟨rep_one, ?_⟩, rep_two', ?_⟩ <;> simp only <;> rw [abs_of_pos (by norm_num)]
    · exact le_trans (by norm_num) w
    · exact w
  obtain ⟨T, hT, hb⟩ := plane_around o o' hs hc ha piD_representable hp hp
  refine ⟨T, _, hT, hb, ?_⟩
  simp only [es, ec, c1]
  exact half_turn_row o o' (rnd_representable _) s1 s2

/-- the first coordinate of (1, 2, 0), turned half round about the axis through it -/
theorem half_turn_row4 (q q' : Order4) {s : ℝ} (hs : Representable s) (h1 : 12 / 10 ^ 17 ≤ s) (h2 : s ≤ 13 / 10 ^ 17) :
    DT3.dot4 q' (-1) (-s) 0 (DT3.dot4 q (-1) (-s) 0 1 (-1) (-2) (-0) 1) 1 2 0 1 = 1 - 1 / 2 ^ 52 := by
  obtain ⟨e1, e2, e3, e4, e5⟩ := half_turn_sums h1 h2
  obtain ⟨d1, d2⟩ := half_turn_double hs
  have n0 : rnd (1 + 1 / 2 ^ 52 : ℝ) = 1 + 1 / 2 ^ 52 := by rw [← e1, rnd_rnd]
  have o1 : rnd (1 : ℝ) = 1 := rnd_exact rep_one
  have o1' : rnd (-1 : ℝ) = -1 := by rw [rnd_neg, o1]
  have o2 : rnd (2 : ℝ) = 2 := rnd_exact rep_two'
  have k : DT3.dot4 q (-1) (-s) 0 1 (-1) (-2) (-0) 1 = 2 := by
    cases q <;> simp only [DT3.dot4, DT3.sum4, mul_one, neg_mul_neg, neg_zero, mul_zero, rnd_zero, add_zero, zero_add, o1, d1, e1, n0, e3]
    rw [add_comm (2 * s), e1, add_comm, e3]
  rw [k]
  cases q' <;> simp only [DT3.dot4, DT3.sum4, mul_one, mul_zero, rnd_zero, add_zero, zero_add, o1', o2, d2]
  · rw [show (-1 + -(2 * s)) = -(1 + 2 * s) by ring, rnd_neg, e1, rnd_neg, n0, e4]
  · rw [show (-1 + -(2 * s)) = -(1 + 2 * s) by ring, rnd_neg, e1, e4]
  · rw [show (-(2 * s) + 2) = 2 - 2 * s by ring, e2, e5]

theorem normalized_third (o : Bool) : DVec.normalized o ⟨.fin 0, .fin 0, .fin 1⟩ = ⟨.fin 0, .fin 0, .fin 1⟩ := by
  have z : |(0 : ℝ)| ≤ 2 ^ 500 := by rw [abs_zero]; positivity
  have w : |(1 : ℝ)| ≤ 2 ^ 500 := by rw [abs_one]; exact one_le_pow₀ one_le_two
  have o1 : rnd (1 : ℝ) = 1 := rnd_exact rep_one
  have d : DVec.dot3 o 0 0 1 0 0 1 = 1 := by cases o <;> simp [DVec.dot3, DVec.sum3, rnd_zero, o1]
  have dv : ∀ {p : ℝ}, Representable p → |p| ≤ 1 → (F64.fin p).div (.fin 1) = .fin p := fun {p} h h' => by
    rw [F64.div, if_neg (by norm_num), div_one, F64.ofExact_fin, rnd_exact h]
    rw [rnd_exact h]; exact h'.trans_lt (one_lt_pow₀ one_lt_two (by norm_num))
  simp only [DVec.normalized, DVec.squaredNorm, (DVec.dot_fin o z z w z z w).1, d, F64.lt, F64.sqrt, DVec.div]
  rw [if_pos (by norm_num), if_neg (by norm_num), Real.sqrt_one, o1, dv representable_zero (by norm_num), dv rep_one (by norm_num)]

/-- **C141 is violated** in space: the half turn about the axis through (1, 2, 0) parallel to the third one is made, at the tolerance of the library too, and moves (1, 2, 0). -/
theorem C141_space_violated (o : Bool) (q q' : Order4) {sin cos : ℝ → ℝ} (hs : Accurate sin Real.sin) (hc : Accurate cos Real.cos) (es : sin piD = rnd (Real.sin piD)) (ec : cos piD = rnd (Real.cos piD))
    {eps : ℝ} (he : 9 / 2 ^ 53 ≤ eps) :
    ∃ r T b, DRotVec.ctor o (.fin eps) ⟨.fin 0, .fin 0, .fin 1⟩ ⟨.fin piD, .radian⟩ = .ok r ∧ DT3.RotationAround o q (.fin eps) sin cos (doubles ⟨1, 2, 0⟩) r = .ok T ∧
      DT3.applyTo q' T (doubles ⟨1, 2, 0⟩) = .ok (doubles b) ∧ b.x = 1 - 1 / 2 ^ 52 := by
  have rp : Representable piD := piD_representable
  obtain ⟨c1, s1, s2⟩ := HalfTurnVec.trig_piD
  have ha : (⟨.fin piD, .radian⟩ : DAngle ℝ).inUnit .radian = .ok (.fin piD) := by simp [DAngle.inUnit, DAngle.isDefined]
  have z : |(0 : ℝ)| ≤ 2 ^ 500 := by rw [abs_zero]; positivity
  have w : |(1 : ℝ)| ≤ 2 ^ 500 := by rw [abs_one]; exact one_le_pow₀ one_le_two
  have hr : DRotVec.ctor o (.fin eps) ⟨.fin 0, .fin 0, .fin 1⟩ ⟨.fin piD, .radian⟩ = .ok ⟨⟨.fin 0, .fin 0, .fin 1⟩, ⟨.fin piD, .radian⟩⟩ := by
    rw [DRotVec.ctor, norm_fin3 o z z w, show rnd (Real.sqrt (DVec.dot3 o 0 0 1 0 0 1)) = DVec.nrm3 o 0 0 1 from rfl, sub_one2 (nrm3_le o z z w), (axis_norm o rep_one le_rfl).2.2,
      sub_self, rnd_zero, normalized_third, if_neg, if_pos (by simp [DVec.isDefined])]
    simp only [F64.abs, F64.lt, abs_zero, Bool.and_eq_true, decide_eq_true_eq, not_and, not_lt]
    exact fun _ => le_trans (by positivity) he
  have hm : DRot.RotationVector o (.fin eps) sin cos ⟨⟨.fin 0, .fin 0, .fin 1⟩, ⟨.fin piD, .radian⟩⟩ = .ok (entries (matZ (cos piD) (sin piD))) := by
    have u0 := DQuat.u_pos
    have us := DQuat.u_small
    rw [e53] at he
    obtain ⟨-, -, nz⟩ := axes_near u0.le (lib_near hc rp).2.2 (lib_near hs rp).2.2
    obtain ⟨-, -, uz⟩ := quat_unit piD
    have acc := ctor_near o uz u0.le (by linarith) nz (by linarith : 35 / 10 * DQuat.u + 5 * DQuat.u ≤ eps)
    have eq : DRot.ofVector ⟨.fin 0, .fin 0, .fin 1⟩ (.fin (cos piD)) (.fin (sin piD)) = entries (matZ (cos piD) (sin piD)) := by
      rw [ec, c1]
      obtain ⟨rs, ls, -⟩ := hs piD rp
      generalize sin piD = s at rs ls ⊢
      have L : ∀ {x : ℝ}, |x| ≤ 2 → |x| < 2 ^ 1024 := fun h => (h.trans two_500).trans_lt (pow_lt_pow_right₀ one_lt_two (by norm_num))
      have k : (F64.fin (1 : ℝ)).add (.fin 1) = .fin 2 := by
        rw [F64.add, show (1 : ℝ) + 1 = 2 by norm_num, F64.ofExact_fin (by rw [rnd_exact rep_two']; exact L (by norm_num)), rnd_exact rep_two']
      have k' : (F64.fin (-1 : ℝ)).add (.fin 2) = .fin 1 := by
        rw [F64.add, show (-1 : ℝ) + 2 = 1 by norm_num, F64.ofExact_fin (by rw [rnd_exact rep_one]; exact L (by norm_num)), rnd_exact rep_one]
      have n1 : Representable (-1 : ℝ) := representable_neg rep_one
      have ls2 : |s| < 2 ^ 1024 := L (ls.trans (by norm_num))
      have nl : |-s| < 2 ^ 1024 := by rwa [abs_neg]
      funext i j
      fin_cases i <;> fin_cases j <;>
        simp [DRot.ofVector, entries, matZ, k, k', DT3.mul_zero_fin, DT3.zero_mul_fin, DT3.mul_one_fin rep_two' (L (by norm_num)), DT3.mul_one_fin rs ls2, DT3.add_zero_fin n1 (L (by norm_num)), F64.sub, F64.neg,
          DT3.zero_add_fin rs ls2, DT3.zero_add_fin (representable_neg rs) nl, DT3.zero_add_zero]
    rw [DRot.RotationVector]
    simp only [DRotVec.isDefined, DVec.isDefined, defined_of_inUnit ha, ha, bind, Except.bind]
    rw [← acc, ← eq]
    simp [libm]
  have hR : DT3.Rotation o (.fin eps) sin cos ⟨⟨.fin 0, .fin 0, .fin 1⟩, ⟨.fin piD, .radian⟩⟩ = .ok (DT3.ofMatrix (entries (matZ (cos piD) (sin piD)))) := by
    rw [DT3.Rotation, hm]
    simp only [DRotVec.isDefined, DVec.isDefined, defined_of_inUnit ha]
    rfl
  obtain ⟨rs, ls, -⟩ := hs piD rp
  obtain ⟨rc, lc, -⟩ := hc piD rp
  have hM : ∀ i j, Representable (matZ (cos piD) (sin piD) i j) ∧ |matZ (cos piD) (sin piD) i j| ≤ 1001 / 1000 := by
    have e1 : ∀ {x : ℝ}, |x| ≤ 1 → |x| ≤ 1001 / 1000 := fun h => h.trans (by norm_num)
    intro i j
    fin_cases i <;> fin_cases j
    · exact ⟨rc, e1 lc⟩
    · exact ⟨rs, e1 ls⟩
    · exact ⟨representable_zero, e1 (by simp [matZ])⟩
    · exact ⟨representable_neg rs, e1 (by simpa [matZ] using ls)⟩
    · exact ⟨rc, e1 lc⟩
    · exact ⟨representable_zero, e1 (by simp [matZ])⟩
    · exact ⟨representable_zero, e1 (by simp [matZ])⟩
    · exact ⟨representable_zero, e1 (by simp [matZ])⟩
    · exact ⟨rep_one, e1 (by simp [matZ])⟩
  have big : ∀ {n : ℕ}, 1 ≤ n → Bounded n ⟨1, 2, 0⟩ := fun {n} hn => by
    have : (2 : ℝ) ≤ 2 ^ n := (pow_one (2 : ℝ)).symm.le.trans (pow_le_pow_right₀ one_le_two hn)
    refine ⟨?_, ?_, ?_⟩ <;> simp only <;> norm_num <;> linarith
  have hp : Within ⟨1, 2, 0⟩ := ⟨⟨rep_one, (big (by norm_num)).1⟩, ⟨rep_two', (big (by norm_num)).2.1⟩, representable_zero, (big (by norm_num)).2.2⟩
  obtain ⟨T, hT, hb⟩ := around_returns o q q' hM hR hp (big (by norm_num)) hp
  refine ⟨_, T, _, hr, hT, hb, ?_⟩
  have := half_turn_row4 q q' (s := sin piD) rs (by rw [es]; exact s1) (by rw [es]; exact s2)
  rw [ec, c1] 
  exact this

/-- **C141.** What is undefined is refused. -/
theorem C141_undefined (o : Bool) (q : Order4) (e : F64 ℝ) (sin cos : ℝ → ℝ) :
    (∀ r : DRotVec, (r.axis.x = .nan ∨ r.axis.y = .nan ∨ r.axis.z = .nan ∨ r.angle.value = .nan ∨ r.angle.unit = .undefined) →
      DT3.Rotation o e sin cos r = .error .undefined ∧ ∀ p, DT3.RotationAround o q e sin cos p r = .error .undefined) ∧
      (∀ p : DVec, (p.x = .nan ∨ p.y = .nan ∨ p.z = .nan) → ∀ r, DT3.RotationAround o q e sin cos p r = .error .undefined) ∧
      (∀ m : Fin 3 → Fin 3 → F64 ℝ, (∃ i j, m i j = .nan) → DT3.RotationOf m = .error .undefined) ∧
      (∀ a : DAngle ℝ, (a.value = .nan ∨ a.unit = .undefined) → DT2.Rotation sin cos a = .error .undefined ∧ ∀ p, DT2.RotationAround o sin cos p a = .error .undefined) ∧
      ∀ p : DVec2, (p.x = .nan ∨ p.y = .nan) → ∀ a, DT2.RotationAround o sin cos p a = .error .undefined := by
  have R : ∀ r : DRotVec, (r.axis.x = .nan ∨ r.axis.y = .nan ∨ r.axis.z = .nan ∨ r.angle.value = .nan ∨ r.angle.unit = .undefined) → DT3.Rotation o e sin cos r = .error .undefined := fun r h => by
    have : r.isDefined = false := by
      rcases h with h | h | h | h | h <;> simp [DRotVec.isDefined, DVec.isDefined, DAngle.isDefined, h]
    rw [DT3.Rotation, this]; rfl
  have P : ∀ p : DVec, (p.x = .nan ∨ p.y = .nan ∨ p.z = .nan) → ∀ r, DT3.RotationAround o q e sin cos p r = .error .undefined := fun p h r => by
    have : p.isDefined = false := by rcases h with h | h | h <;> simp [DVec.isDefined, h]
    rw [DT3.RotationAround, DT3.asVector, this]; rfl
  have A : ∀ a : DAngle ℝ, (a.value = .nan ∨ a.unit = .undefined) → DT2.Rotation sin cos a = .error .undefined := fun a h => by
    have : a.isDefined = false := by rcases h with h | h <;> simp [DAngle.isDefined, h]
    rw [DT2.Rotation, this]; rfl
  have P2 : ∀ p : DVec2, (p.x = .nan ∨ p.y = .nan) → ∀ a, DT2.RotationAround o sin cos p a = .error .undefined := fun p h a => by
    rw [DT2.RotationAround, DT2.asVector, if_pos h]; rfl
  refine ⟨fun r h => ⟨R r h, fun p => ?_⟩, P, fun m ⟨i, j, h⟩ => ?_, fun a h => ⟨A a h, fun p => ?_⟩, P2⟩
  · by_cases hp : p.isDefined = true
    · simp [DT3.RotationAround, DT3.asVector, DT3.Translation, hp, R r h, bind, Except.bind]
    · rw [DT3.RotationAround, DT3.asVector, Bool.eq_false_iff.2 hp]; rfl
  · have : DRot.isDefined m = false := by
      rw [DRot.isDefined, decide_eq_false]
      exact fun hh => hh i j h
    rw [DT3.RotationOf, this]; rfl
  · by_cases hp : p.x = .nan ∨ p.y = .nan
    · exact P2 p hp a
    · simp only [DT2.RotationAround, DT2.asVector, DT2.Translation, if_neg hp, A a h, bind, Except.bind]

/-! ## Examples -/

/-- the rotation vector of `C141_rotation` and `C141_around_partial`: one radian about the third axis; a tolerance of `1 / 10 ^ 13` is large enough for both; the point (3, -4, 5) may be turned, and turned about -/
example (o : Bool) : (⟨.fin 1, .radian⟩ : DAngle ℝ).inUnit .radian = .ok (.fin 1) ∧ Representable (1 : ℝ) ∧ (2 : ℝ) ^ (-46 : ℤ) ≤ 1 / 10 ^ 13 ∧
    (∃ r, DRotVec.ctor o (.fin (9 / 2 ^ 53)) ⟨.fin 0, .fin 0, .fin 1⟩ ⟨.fin 1, .radian⟩ = .ok r) ∧ Within ⟨3, -4, 5⟩ ∧ Bounded 490 ⟨3, -4, 5⟩ := by
  have z : |(0 : ℝ)| ≤ 2 ^ 500 := by rw [abs_zero]; positivity
  have w : |(1 : ℝ)| ≤ 2 ^ 500 := by rw [abs_one]; exact one_le_pow₀ one_le_two
  have big : ∀ {n : ℕ}, 3 ≤ n → Bounded n ⟨3, -4, 5⟩ := fun {n} hn => by
    have : (2 : ℝ) ^ 3 ≤ 2 ^ n := pow_le_pow_right₀ one_le_two hn
    norm_num at this
    refine ⟨?_, ?_, ?_⟩ <;> simp only <;> norm_num <;> linarith
  have r3 : Representable (3 : ℝ) := by simpa using HalfTurn.rep_lit 3 0 (by norm_num) (by norm_num)
  have r4 : Representable (-4 : ℝ) := by simpa using HalfTurn.rep_lit (-4) 0 (by norm_num) (by norm_num)
  have r5 : Representable (5 : ℝ) := by simpa using HalfTurn.rep_lit 5 0 (by norm_num) (by norm_num)
  refine ⟨by simp [DAngle.inUnit, DAngle.isDefined], rep_one, by norm_num, ?_, ⟨⟨r3, (big (by norm_num)).1⟩, ⟨r4, (big (by norm_num)).2.1⟩, r5, (big (by norm_num)).2.2⟩, big (by norm_num)⟩
  rw [DRotVec.ctor, norm_fin3 o z z w, show rnd (Real.sqrt (DVec.dot3 o 0 0 1 0 0 1)) = DVec.nrm3 o 0 0 1 from rfl, sub_one2 (nrm3_le o z z w), (axis_norm o rep_one le_rfl).2.2,
    sub_self, rnd_zero]
  refine ⟨_, if_neg ?_⟩
  simp only [F64.abs, F64.lt, abs_zero, Bool.and_eq_true, decide_eq_true_eq, not_and, not_lt]
  exact fun _ => by positivity

/-- the library functions of `C141_fixed_violated` and `C141_space_violated`: the correctly rounded ones are accurate; the points of `C141_plane_partial` may be (3, -4) -/
example : Accurate (fun x => rnd (Real.sin x)) Real.sin ∧ Accurate (fun x => rnd (Real.cos x)) Real.cos ∧ (9 : ℝ) / 2 ^ 53 ≤ 1 / 10 ^ 15 ∧ Sized2 490 ⟨3, -4⟩ := by
  have e : (1 : ℝ) / 2 ^ 53 = DQuat.u := rfl
  have big : (4 : ℝ) ≤ 2 ^ 490 := by
    have : (2 : ℝ) ^ 2 ≤ 2 ^ 490 := pow_le_pow_right₀ one_le_two (by norm_num)
    exact le_trans (by norm_num) this
  refine ⟨fun x _ => ⟨rnd_representable _, DLinear.rnd_abs_le rep_one (Real.abs_sin_le_one _), ?_⟩, fun x _ => ⟨rnd_representable _, DLinear.rnd_abs_le rep_one (Real.abs_cos_le_one _), ?_⟩, by norm_num,
    ⟨by simpa using HalfTurn.rep_lit 3 0 (by norm_num) (by norm_num), ?_⟩, by simpa using HalfTurn.rep_lit (-4) 0 (by norm_num) (by norm_num), ?_⟩
  · rw [e]; exact HalfTurnVec.rounded_near (Real.abs_sin_le_one _)
  · rw [e]; exact HalfTurnVec.rounded_near (Real.abs_cos_le_one _)
  · simp only; rw [abs_of_pos (by norm_num)]; exact le_trans (by norm_num) big
  · simp only; rw [abs_neg, abs_of_pos (by norm_num)]; exact big

end Verif.Props
