import Verif.Lemmas.DoubleHalfTurn
import Verif.Spec.DoubleEuler

/-!
# C138: rotation matrices made from angles in double precision
-/

namespace Verif.Props

open Verif Verif.Spec Verif.Double

theorem defined_of_inUnit {a : DAngle ℝ} {v} (ha : a.inUnit .radian = .ok v) : a.isDefined = true := by
  by_contra hh
  rw [DAngle.inUnit, Bool.eq_false_iff.2 hh] at ha
  simp at ha

/-- a sequence of computations that returns: the first returns, and the rest returns for its value -/
theorem ok_of_bind {α β : Type} {x : Res α} {f : α → Res β} {b : β} (h : (x >>= f) = .ok b) : ∃ a, x = .ok a ∧ f a = .ok b := by
  cases x with
  | error e => cases h
  | ok a => exact ⟨a, rfl, h⟩

theorem axis_matrices (o : Bool) {sin cos : ℝ → ℝ} {a : DAngle ℝ} {t : ℝ} (ha : a.inUnit .radian = .ok (.fin t)) (eps : F64 ℝ) :
    DRot.RX o eps sin cos a = DRot.ctor o eps (entries (matX (cos t) (sin t))) ∧ DRot.RY o eps sin cos a = DRot.ctor o eps (entries (matY (cos t) (sin t))) ∧
      DRot.RZ o eps sin cos a = DRot.ctor o eps (entries (matZ (cos t) (sin t))) := by
  have d := defined_of_inUnit ha
  refine ⟨?_, ?_, ?_⟩
  · rw [DRot.RX, d, ha]
    simp only [bind, Except.bind, Bool.not_true, Bool.false_eq_true, if_false]
    congr 1
    funext i j
    fin_cases i <;> fin_cases j <;> rfl
  · rw [DRot.RY, d, ha]
    simp only [bind, Except.bind, Bool.not_true, Bool.false_eq_true, if_false]
    congr 1
    funext i j
    fin_cases i <;> fin_cases j <;> rfl
  · rw [DRot.RZ, d, ha]
    simp only [bind, Except.bind, Bool.not_true, Bool.false_eq_true, if_false]
    congr 1
    funext i j
    fin_cases i <;> fin_cases j <;> rfl

/-- **C138.** The rotations about the three axes in double precision: with a tolerance from 9 units of rounding on, the matrix of any angle is accepted, and turns every vector
as the rotation by that angle about the axis, within three units of rounding. -/
theorem C138_axes (o : Bool) {sin cos : ℝ → ℝ} (hs : Accurate sin Real.sin) (hc : Accurate cos Real.cos) {eps : ℝ} (he : 9 / 2 ^ 53 ≤ eps) {a : DAngle ℝ} {t : ℝ} (ha : a.inUnit .radian = .ok (.fin t)) (ht : Representable t) :
    ∃ X Y Z, DRot.RX o (.fin eps) sin cos a = .ok (entries X) ∧ DRot.RY o (.fin eps) sin cos a = .ok (entries Y) ∧ DRot.RZ o (.fin eps) sin cos a = .ok (entries Z) ∧
      ∀ v, ‖pure (turn X v) - star (turnAbout 1 0 0 t) * (pure v * turnAbout 1 0 0 t)‖ ≤ 3 / 2 ^ 53 * ‖pure v‖ ∧ ‖pure (turn Y v) - star (turnAbout 0 1 0 t) * (pure v * turnAbout 0 1 0 t)‖ ≤ 3 / 2 ^ 53 * ‖pure v‖ ∧
        ‖pure (turn Z v) - star (turnAbout 0 0 1 t) * (pure v * turnAbout 0 0 1 t)‖ ≤ 3 / 2 ^ 53 * ‖pure v‖ := by
  have u0 := DQuat.u_pos
  have us := DQuat.u_small
  rw [e53] at he
  rw [e53]
  obtain ⟨nx, ny, nz⟩ := axes_near u0.le (lib_near hc ht).2.2 (lib_near hs ht).2.2
  obtain ⟨ux, uy, uz⟩ := quat_unit t
  obtain ⟨ex, ey, ez⟩ := axis_matrices o (sin := sin) (cos := cos) ha (.fin eps)
  obtain ⟨tx, ty, tz⟩ := turnAbout_axes t
  refine ⟨_, _, _, ex.trans (ctor_near o ux u0.le (by linarith) nx (by linarith)), ey.trans (ctor_near o uy u0.le (by linarith) ny (by linarith)), ez.trans (ctor_near o uz u0.le (by linarith) nz (by linarith)), fun v => ?_⟩
  rw [tx, ty, tz]
  exact ⟨turn_of_near u0.le nx v, turn_of_near u0.le ny v, turn_of_near u0.le nz v⟩

/-- **C138.** The matrix of a rotation vector in double precision, when the constructor accepts it, turns every vector as the rotation does, within `2 ^ -46`; it is accepted if the tolerance
is at least `2 ^ -46`. -/
theorem C138_vector_partial (o : Bool) {sin cos : ℝ → ℝ} (hs : Accurate sin Real.sin) (hc : Accurate cos Real.cos) {e : ℝ} (he : e ≤ 1 / 8)
    {x y z : ℝ} (hx : Representable x ∧ |x| ≤ 2 ^ 500) (hy : Representable y ∧ |y| ≤ 2 ^ 500) (hz : Representable z ∧ |z| ≤ 2 ^ 500)
    {a : DAngle ℝ} {t : ℝ} (ha : a.inUnit .radian = .ok (.fin t)) (ht : Representable t) {r : DRotVec} (h : DRotVec.ctor o (.fin e) ⟨.fin x, .fin y, .fin z⟩ a = .ok r) :
    ∃ M, (∀ eps m, DRot.RotationVector o eps sin cos r = .ok m → m = entries M) ∧ (∀ eps : ℝ, 2 ^ (-46 : ℤ) ≤ eps → DRot.RotationVector o (.fin eps) sin cos r = .ok (entries M)) ∧
      ∀ v, ‖pure (turn M v) - star (turnAbout x y z t) * (pure v * turnAbout x y z t)‖ ≤ 2 ^ (-46 : ℤ) * ‖pure v‖ := by
  obtain ⟨rfl, hd⟩ := accepted_axis o he hx hy hz h
  have u0 := DQuat.u_pos
  have us := DQuat.u_small
  have t0 := DQuat.t_pos
  have tu := DRot.t_u
  norm_num at tu
  have e46 : (2 : ℝ) ^ (-46 : ℤ) = 128 * DQuat.u := by rw [DQuat.u]; norm_num
  obtain ⟨hS0, -⟩ := DVec.nrm3_near o hd
  obtain ⟨a1, a2, a3, en, b1, b2, b3, c1, c2, c3⟩ := DVec.normalized_fin o hx hy hz hd
  have hS : 0 < x ^ 2 + y ^ 2 + z ^ 2 := by simpa only [sq] using hS0
  have sq' : Real.sqrt (x * x + y * y + z * z) = Real.sqrt (x ^ 2 + y ^ 2 + z ^ 2) := by simp only [sq]
  rw [sq'] at c1 c2 c3
  have tq : turnAbout x y z t = hamilton (aboutQ (x / Real.sqrt (x ^ 2 + y ^ 2 + z ^ 2)) (y / Real.sqrt (x ^ 2 + y ^ 2 + z ^ 2)) (z / Real.sqrt (x ^ 2 + y ^ 2 + z ^ 2)) t) := rfl
  rw [tq]
  have N2 : (x / Real.sqrt (x ^ 2 + y ^ 2 + z ^ 2)) ^ 2 + (y / Real.sqrt (x ^ 2 + y ^ 2 + z ^ 2)) ^ 2 + (z / Real.sqrt (x ^ 2 + y ^ 2 + z ^ 2)) ^ 2 = 1 := by
    have n0 := Real.sqrt_pos.2 hS
    rw [div_pow, div_pow, div_pow, Real.sq_sqrt hS.le]; field_simp
  generalize x / Real.sqrt (x ^ 2 + y ^ 2 + z ^ 2) = X at *
  generalize y / Real.sqrt (x ^ 2 + y ^ 2 + z ^ 2) = Y at *
  generalize z / Real.sqrt (x ^ 2 + y ^ 2 + z ^ 2) = Z at *
  have X1 : |X| ≤ 1 := abs_le_one_iff_mul_self_le_one.2 (by nlinarith [sq_nonneg Y, sq_nonneg Z])
  have Y1 : |Y| ≤ 1 := abs_le_one_iff_mul_self_le_one.2 (by nlinarith [sq_nonneg X, sq_nonneg Z])
  have Z1 : |Z| ≤ 1 := abs_le_one_iff_mul_self_le_one.2 (by nlinarith [sq_nonneg X, sq_nonneg Y])
  have cl : ∀ {a X : ℝ}, |X| ≤ 1 → |a - X| ≤ 44 / 10 * DQuat.u * |X| + DQuat.t → |a - X| ≤ 441 / 100 * DQuat.u := fun {a X} h1 h2 => by
    have : DQuat.u * |X| ≤ DQuat.u * 1 := mul_le_mul_of_nonneg_left h1 u0.le
    linarith
  obtain ⟨-, lc, nc⟩ := lib_near hc ht
  obtain ⟨-, ls, ns⟩ := lib_near hs ht
  obtain ⟨ev, nv⟩ := vecMat_near (cl X1 c1) (cl Y1 c2) (cl Z1 c3) b1 b2 b3 N2 nc ns lc ls
  have eq : ∀ eps, DRot.RotationVector o eps sin cos ⟨DVec.normalized o ⟨.fin x, .fin y, .fin z⟩, a⟩ = DRot.ctor o eps (entries (vecMat a1 a2 a3 (cos t) (sin t))) := fun eps => by
    rw [DRot.RotationVector, en]
    simp only [DRotVec.isDefined, DVec.isDefined, defined_of_inUnit ha, ha, bind, Except.bind]
    rw [← ev]
    simp [libm]
  refine ⟨_, fun eps m hm => ctor_returns o eps _ ((eq eps).symm.trans hm), fun eps hh => (eq _).trans (ctor_near o (aboutQ_unit N2 t) (by positivity) (by linarith) nv (by linarith)), fun v => ?_⟩
  refine (turn_of_near (by positivity) nv v).trans (mul_le_mul_of_nonneg_right ?_ (norm_nonneg _))
  linarith

/-- **C138.** The matrix of Euler angles in double precision, when it is returned, turns every vector by the rotation about z, then y, then x, within `2 ^ -47`: for the sequence ZYX these are the three
rotations of the sequence (`C138_agree`), for the others they are not (`C138_sequence_violated`). It is returned if the tolerance is at least `2 ^ -47`. -/
theorem C138_euler_partial (o : Bool) {sin cos : ℝ → ℝ} (hs : Accurate sin Real.sin) (hc : Accurate cos Real.cos) {E : DEuler} {p t s : ℝ}
    (hp : E.phi.inUnit .radian = .ok (.fin p) ∧ Representable p) (ht : E.theta.inUnit .radian = .ok (.fin t) ∧ Representable t) (hps : E.psi.inUnit .radian = .ok (.fin s) ∧ Representable s) (hq : E.sequence ≠ .undefined) :
    ∃ M, (∀ eps m, DRot.EulerAngle o eps sin cos E = .ok m → m = entries M) ∧ (∀ eps : ℝ, 2 ^ (-47 : ℤ) ≤ eps → DRot.EulerAngle o (.fin eps) sin cos E = .ok (entries M)) ∧
      ∀ v, let w := axisAngles p t s E.sequence
        let q := turnAbout 0 0 1 w.2.2 * turnAbout 0 1 0 w.2.1 * turnAbout 1 0 0 w.1
        ‖pure (turn M v) - star q * (pure v * q)‖ ≤ 2 ^ (-47 : ℤ) * ‖pure v‖ := by
  have u0 := DQuat.u_pos
  have us := DQuat.u_small
  have e47 : (2 : ℝ) ^ (-47 : ℤ) = 64 * DQuat.u := by rw [DQuat.u]; norm_num
  have d : E.isDefined = true := by
    rw [DEuler.isDefined, defined_of_inUnit hp.1, defined_of_inUnit ht.1, defined_of_inUnit hps.1]
    simp [hq]
  have key : ∀ {A B C : DAngle ℝ} {a b c : ℝ}, A.inUnit .radian = .ok (.fin a) ∧ Representable a → B.inUnit .radian = .ok (.fin b) ∧ Representable b → C.inUnit .radian = .ok (.fin c) ∧ Representable c →
      ∃ M, (∀ eps m, (do let x ← DRot.RX o eps sin cos A; let y ← DRot.RY o eps sin cos B; let z ← DRot.RZ o eps sin cos C; let xy ← DRot.mul o eps x y; DRot.mul o eps xy z) = .ok m → m = entries M) ∧
        (∀ eps : ℝ, 2 ^ (-47 : ℤ) ≤ eps → (do let x ← DRot.RX o (.fin eps) sin cos A; let y ← DRot.RY o (.fin eps) sin cos B; let z ← DRot.RZ o (.fin eps) sin cos C; let xy ← DRot.mul o (.fin eps) x y; DRot.mul o (.fin eps) xy z) = .ok (entries M)) ∧
        NearTurn (163 / 10 * DQuat.u) M (Quat.times (quatZ c) (Quat.times (quatY b) (quatX a))) := by
    rintro A B C a b c ⟨hA, ra⟩ ⟨hB, rb⟩ ⟨hC, rc⟩
    have eA := fun eps => (axis_matrices o (sin := sin) (cos := cos) hA eps).1
    have eB := fun eps => (axis_matrices o (sin := sin) (cos := cos) hB eps).2.1
    have eC := fun eps => (axis_matrices o (sin := sin) (cos := cos) hC eps).2.2
    have nA := (axes_near u0.le (lib_near hc ra).2.2 (lib_near hs ra).2.2).1
    have nB := (axes_near u0.le (lib_near hc rb).2.2 (lib_near hs rb).2.2).2.1
    have nC := (axes_near u0.le (lib_near hc rc).2.2 (lib_near hs rc).2.2).2.2
    have uA := (quat_unit a).1
    have uB := (quat_unit b).2.1
    have uC := (quat_unit c).2.2
    obtain ⟨M, m0, m1, m2, m3⟩ := mul_near_turn o uA uB u0.le u0.le (by linarith) (by linarith) nA nB
    obtain ⟨N, n0, n1, n2, n3⟩ := mul_near_turn o m3 uC (by positivity) u0.le (by linarith) (by linarith) m2 nC
    refine ⟨N, fun eps m h => ?_, fun eps h => ?_, fun i j => (n2 i j).trans (by linarith)⟩
    · rw [eA, eB, eC] at h
      obtain ⟨x, hx, h⟩ := ok_of_bind h
      obtain ⟨y, hy, h⟩ := ok_of_bind h
      obtain ⟨z, hz, h⟩ := ok_of_bind h
      obtain ⟨w, hw, h⟩ := ok_of_bind h
      rw [ctor_returns o eps _ hx, ctor_returns o eps _ hy] at hw
      rw [m0 _ _ hw, ctor_returns o eps _ hz] at h
      exact n0 _ _ h
    · rw [e47] at h
      rw [eA, eB, eC, ctor_near o uA u0.le (by linarith) nA (by linarith), ctor_near o uB u0.le (by linarith) nB (by linarith), ctor_near o uC u0.le (by linarith) nC (by linarith)]
      simp only [bind, Except.bind]
      rw [m1 eps (by linarith)]
      exact n1 eps (by linarith)
  have fin : ∀ {M : Fin 3 → Fin 3 → ℝ} {a b c : ℝ}, NearTurn (163 / 10 * DQuat.u) M (Quat.times (quatZ c) (Quat.times (quatY b) (quatX a))) →
      ∀ v, ‖pure (turn M v) - star (turnAbout 0 0 1 c * turnAbout 0 1 0 b * turnAbout 1 0 0 a) * (pure v * (turnAbout 0 0 1 c * turnAbout 0 1 0 b * turnAbout 1 0 0 a))‖ ≤ 2 ^ (-47 : ℤ) * ‖pure v‖ := fun {M a b c} n v => by
    rw [(turnAbout_axes a).1, (turnAbout_axes b).2.1, (turnAbout_axes c).2.2, mul_assoc (hamilton _)]
    have h := turn_of_near (by positivity) n v
    rw [hamilton_times, hamilton_times] at h
    refine h.trans (mul_le_mul_of_nonneg_right ?_ (norm_nonneg _))
    rw [e47]; linarith
  have d' : (!E.isDefined) = false := by rw [d]; rfl
  cases hE : E.sequence with
  | undefined => exact absurd hE hq
  | xyz =>
    obtain ⟨M, h1, h2, h3⟩ := key hp ht hps
    refine ⟨M, fun eps m hm => h1 eps m ?_, fun eps he => ?_, fin h3⟩
    · simpa only [DRot.EulerAngle, d', hE, Bool.false_eq_true, if_false] using hm
    · simpa only [DRot.EulerAngle, d', hE, Bool.false_eq_true, if_false] using h2 eps he
  | zxy =>
    obtain ⟨M, h1, h2, h3⟩ := key hps hp ht
    refine ⟨M, fun eps m hm => h1 eps m ?_, fun eps he => ?_, fin h3⟩
    · simpa only [DRot.EulerAngle, d', hE, Bool.false_eq_true, if_false] using hm
    · simpa only [DRot.EulerAngle, d', hE, Bool.false_eq_true, if_false] using h2 eps he
  | zyx =>
    obtain ⟨M, h1, h2, h3⟩ := key hps ht hp
    refine ⟨M, fun eps m hm => h1 eps m ?_, fun eps he => ?_, fin h3⟩
    · simpa only [DRot.EulerAngle, d', hE, Bool.false_eq_true, if_false] using hm
    · simpa only [DRot.EulerAngle, d', hE, Bool.false_eq_true, if_false] using h2 eps he

/-- the rotations by two quaternions near one another -/
theorem turns_near (p q v : Quaternion ℝ) : ‖star p * (v * p) - star q * (v * q)‖ ≤ ‖p - q‖ * (‖p‖ + ‖q‖) * ‖v‖ := by
  have e : star p * (v * p) - star q * (v * q) = star (p - q) * (v * p) + star q * (v * (p - q)) := by rw [star_sub]; noncomm_ring
  rw [e]
  refine (norm_add_le _ _).trans (le_of_eq ?_)
  rw [norm_mul, norm_mul, norm_mul, norm_mul, norm_star, norm_star]
  ring

/-- **C138.** For the sequence ZYX, the matrix and the quaternion of the same Euler angles in double precision turn every vector alike, within `2 ^ -45`. -/
theorem C138_agree (o : Bool) {sin cos : ℝ → ℝ} (hs : Accurate sin Real.sin) (hc : Accurate cos Real.cos) {eps : ℝ} (he : 2 ^ (-47 : ℤ) ≤ eps) (he' : eps ≤ 1 / 8) {E : DEuler} {p t s : ℝ}
    (hp : E.phi.inUnit .radian = .ok (.fin p) ∧ Representable p ∧ |p| < 2 ^ 1024) (ht : E.theta.inUnit .radian = .ok (.fin t) ∧ Representable t ∧ |t| < 2 ^ 1024)
    (hps : E.psi.inUnit .radian = .ok (.fin s) ∧ Representable s ∧ |s| < 2 ^ 1024) (hq : E.sequence = .zyx) :
    ∃ M q, DRot.EulerAngle o (.fin eps) sin cos E = .ok (entries M) ∧ DQuat.EulerAngle (.fin eps) sin cos E = .ok (.of q) ∧
      ∀ v, ‖pure (turn M v) - star (hamilton q) * (pure v * hamilton q)‖ ≤ 2 ^ (-45 : ℤ) * ‖pure v‖ := by
  have hq' : E.sequence ≠ .undefined := by rw [hq]; exact AxisSequence.noConfusion
  obtain ⟨M, -, m2, m3⟩ := C138_euler_partial o hs hc ⟨hp.1, hp.2.1⟩ ⟨ht.1, ht.2.1⟩ ⟨hps.1, hps.2.1⟩ hq'
  have e100 : (2 : ℝ) ^ (-100 : ℤ) ≤ eps := (zpow_le_zpow_right₀ one_le_two (by norm_num)).trans he
  obtain ⟨q, q1, q2, -⟩ := C129_euler hs hc e100 he' hp ht hps hq'
  have N := threeTurns_norm p t s .zyx
  rw [hq] at q2 m3
  refine ⟨M, q, m2 eps he, q1, fun v => ?_⟩
  have m := m3 v
  simp only [axisAngles] at m
  rw [show turnAbout 0 0 1 p * turnAbout 0 1 0 t * turnAbout 1 0 0 s = threeTurns p t s .zyx from rfl] at m
  generalize threeTurns p t s .zyx = Q at *
  have n := turns_near Q (hamilton q) (pure v)
  have nq : ‖hamilton q‖ ≤ 1 + 41 / 2 ^ 53 := by
    have := norm_sub_norm_le (hamilton q) Q
    linarith
  rw [norm_sub_rev] at q2
  have k : ‖Q - hamilton q‖ * (‖Q‖ + ‖hamilton q‖) ≤ 41 / 2 ^ 53 * (1 + (1 + 41 / 2 ^ 53)) := mul_le_mul q2 (by rw [N]; linarith) (by positivity) (by positivity)
  have k' := k.trans (show (41 : ℝ) / 2 ^ 53 * (1 + (1 + 41 / 2 ^ 53)) ≤ 2 ^ (-45 : ℤ) - 2 ^ (-47 : ℤ) by norm_num)
  have tr := norm_sub_le_norm_sub_add_norm_sub (pure (turn M v)) (star Q * (pure v * Q)) (star (hamilton q) * (pure v * hamilton q))
  have kv := mul_le_mul_of_nonneg_right k' (norm_nonneg (pure v))
  rw [sub_mul] at kv
  linarith

/-- the rotations about the axes, exactly -/
theorem axes_exact (t : ℝ) : DRot.exact (quatX t) = matX (Real.cos t) (Real.sin t) ∧ DRot.exact (quatY t) = matY (Real.cos t) (Real.sin t) ∧ DRot.exact (quatZ t) = matZ (Real.cos t) (Real.sin t) := by
  obtain ⟨x, y, z⟩ := axes_near (t := t) le_rfl (by simp : |Real.cos t - Real.cos t| ≤ 0) (by simp : |Real.sin t - Real.sin t| ≤ 0)
  have k : ∀ {M : Fin 3 → Fin 3 → ℝ} {q : Quat}, NearTurn 0 M q → DRot.exact q = M := fun {M q} h => by
    funext i j
    exact (sub_eq_zero.1 (abs_nonpos_iff.1 (h i j))).symm
  exact ⟨k x, k y, k z⟩

/-- **C138, violated.** For the sequence XYZ the matrix and the quaternion made from the same Euler angles are different rotations: for one radian about x and one about y they turn the first axis
to vectors more than one half apart, whatever the (accurate) sine and cosine. -/
theorem C138_sequence_violated (o : Bool) {sin cos : ℝ → ℝ} (hs : Accurate sin Real.sin) (hc : Accurate cos Real.cos) : ∃ E : DEuler, E.sequence = .xyz ∧ ∀ eps : ℝ, 2 ^ (-47 : ℤ) ≤ eps → eps ≤ 1 / 8 →
    ∃ M q, DRot.EulerAngle o (.fin eps) sin cos E = .ok (entries M) ∧ DQuat.EulerAngle (.fin eps) sin cos E = .ok (.of q) ∧
      1 / 2 ≤ ‖pure (turn M ⟨1, 0, 0⟩) - star (hamilton q) * (pure ⟨1, 0, 0⟩ * hamilton q)‖ := by
  refine ⟨⟨⟨.fin 1, .radian⟩, ⟨.fin 1, .radian⟩, ⟨.fin 0, .radian⟩, .xyz⟩, rfl, fun eps he he' => ?_⟩
  have iu : ∀ x : ℝ, (⟨.fin x, .radian⟩ : DAngle ℝ).inUnit .radian = .ok (.fin x) := fun x => by simp [DAngle.inUnit, DAngle.isDefined]
  have b0 : |(0 : ℝ)| < 2 ^ 1024 := by rw [abs_zero]; exact pow_pos two_pos _
  have b1 : |(1 : ℝ)| < 2 ^ 1024 := by rw [abs_one]; exact one_lt_pow₀ one_lt_two (by norm_num)
  obtain ⟨M, -, m2, m3⟩ := C138_euler_partial (E := ⟨⟨.fin 1, .radian⟩, ⟨.fin 1, .radian⟩, ⟨.fin 0, .radian⟩, .xyz⟩) o hs hc ⟨iu 1, rep_one⟩ ⟨iu 1, rep_one⟩ ⟨iu 0, representable_zero⟩ AxisSequence.noConfusion
  have e100 : (2 : ℝ) ^ (-100 : ℤ) ≤ eps := (zpow_le_zpow_right₀ one_le_two (by norm_num)).trans he
  obtain ⟨q, q1, q2, -⟩ := C129_euler (E := ⟨⟨.fin 1, .radian⟩, ⟨.fin 1, .radian⟩, ⟨.fin 0, .radian⟩, .xyz⟩) hs hc e100 he' ⟨iu 1, rep_one, b1⟩ ⟨iu 1, rep_one, b1⟩ ⟨iu 0, representable_zero, b0⟩ AxisSequence.noConfusion
  refine ⟨M, q, m2 eps he, q1, ?_⟩
  have m := m3 ⟨1, 0, 0⟩
  simp only [axisAngles] at m
  have N := threeTurns_norm 1 1 0 .xyz
  have e1 : threeTurns 1 1 0 .xyz = hamilton (Quat.times (Quat.times (quatX 1) (quatY 1)) (quatZ 0)) := by
    rw [threeTurns, (turnAbout_axes 1).1, (turnAbout_axes 1).2.1, (turnAbout_axes 0).2.2, hamilton_times, hamilton_times]; rfl
  have e2 : turnAbout 0 0 1 0 * turnAbout 0 1 0 1 * turnAbout 1 0 0 1 = hamilton (Quat.times (quatZ 0) (Quat.times (quatY 1) (quatX 1))) := by
    rw [(turnAbout_axes 1).1, (turnAbout_axes 1).2.1, (turnAbout_axes 0).2.2, hamilton_times, hamilton_times, mul_assoc]; rfl
  have nv : ‖pure ⟨1, 0, 0⟩‖ = 1 := norm_eq_of zero_le_one (by simp)
  rw [nv, mul_one, e2, ← turn_exact] at m
  have n := turns_near (threeTurns 1 1 0 .xyz) (hamilton q) (pure ⟨1, 0, 0⟩)
  have nq : ‖hamilton q‖ ≤ 1 + 41 / 2 ^ 53 := by
    have := norm_sub_norm_le (hamilton q) (threeTurns 1 1 0 .xyz)
    linarith
  rw [norm_sub_rev] at q2
  have k : ‖threeTurns 1 1 0 .xyz - hamilton q‖ * (‖threeTurns 1 1 0 .xyz‖ + ‖hamilton q‖) ≤ 41 / 2 ^ 53 * (1 + (1 + 41 / 2 ^ 53)) := mul_le_mul q2 (by rw [N]; linarith) (by positivity) (by positivity)
  rw [nv, mul_one] at n
  rw [e1, ← turn_exact, ← e1] at n
  have k' := n.trans (k.trans (show (41 : ℝ) / 2 ^ 53 * (1 + (1 + 41 / 2 ^ 53)) ≤ 1 / 100 by norm_num))
  have m' := m.trans (show (2 : ℝ) ^ (-47 : ℤ) ≤ 1 / 100 by norm_num)
  obtain ⟨x1, y1, -⟩ := axes_exact 1
  obtain ⟨-, -, z0⟩ := axes_exact 0
  have y3 : (turn (DRot.exact (Quat.times (quatZ 0) (Quat.times (quatY 1) (quatX 1)))) ⟨1, 0, 0⟩).y = Real.sin 1 * Real.sin 1 := by
    simp only [turn, ← exact_times, x1, y1, z0]
    simp [matX, matY, matZ]
  have y4 : (turn (DRot.exact (Quat.times (Quat.times (quatX 1) (quatY 1)) (quatZ 0))) ⟨1, 0, 0⟩).y = 0 := by
    simp only [turn, ← exact_times, x1, y1, z0]
    simp [matX, matY, matZ]
  generalize turn (DRot.exact (Quat.times (quatZ 0) (Quat.times (quatY 1) (quatX 1)))) ⟨1, 0, 0⟩ = A at *
  generalize turn (DRot.exact (Quat.times (Quat.times (quatX 1) (quatY 1)) (quatZ 0))) ⟨1, 0, 0⟩ = B at *
  have s1 : 3 / 4 < Real.sin 1 := by have := Real.sin_gt_sub_cube one_pos; linarith
  have ab : 9 / 16 ≤ ‖pure A - pure B‖ := by
    rw [pure, pure, hamilton_sub]
    refine le_of_sq_le_sq ?_ (norm_nonneg _)
    rw [DQuat.norm_hamilton]
    simp only [y3, y4]
    have : (9 : ℝ) / 16 ≤ Real.sin 1 * Real.sin 1 := by nlinarith
    nlinarith [sq_nonneg (A.x - B.x), sq_nonneg (A.z - B.z)]
  have t1 := norm_sub_le_norm_sub_add_norm_sub (pure A) (pure (turn M ⟨1, 0, 0⟩)) (pure B)
  have t2 := norm_sub_le_norm_sub_add_norm_sub (pure (turn M ⟨1, 0, 0⟩)) (star (hamilton q) * (pure ⟨1, 0, 0⟩ * hamilton q)) (pure B)
  rw [norm_sub_rev] at m' k'
  linarith

/-- **C138 is violated** at the tolerance of the library (`1 / 10 ^ 15`): the half turn about an axis of length one (to the last place) is accepted as a rotation vector, and is a rotation, but making its matrix throws.
The columns of the computed matrix are `1.02 / 10 ^ 15` off a right angle. The sine and the cosine are only assumed to be correctly rounded at this angle, the double nearest to π. -/
theorem C138_rejected_violated (o : Bool) {sin cos : ℝ → ℝ} (hs : sin piD = rnd (Real.sin piD)) (hc : cos piD = rnd (Real.cos piD)) {eps : ℝ} (h1 : 1 / 2 ^ 52 ≤ eps) (h2 : eps ≤ 1 / 10 ^ 15) :
    ∃ r, DRotVec.ctor o (.fin eps) ⟨.fin (6281518382681305 / 2 ^ 53 : ℝ), .fin (-5660654950169467 / 2 ^ 57 : ℝ), .fin (-6445696021174917 / 2 ^ 53 : ℝ)⟩ ⟨.fin piD, .radian⟩ = .ok r ∧ DRot.RotationVector o (.fin eps) sin cos r = .error .runtimeError := by
  obtain ⟨c1, s1, s2⟩ := HalfTurnVec.trig_piD
  rw [← hs] at s1 s2
  rw [← hc] at c1
  have hx : Representable (6281518382681305 / 2 ^ 53 : ℝ) ∧ |(6281518382681305 / 2 ^ 53 : ℝ)| ≤ 2 ^ 500 := ⟨by simpa using HalfTurn.rep_lit 6281518382681305 53 (by norm_num) (by norm_num), le_trans (by rw [abs_le]; constructor <;> norm_num) two_500⟩
  have hy : Representable (-5660654950169467 / 2 ^ 57 : ℝ) ∧ |(-5660654950169467 / 2 ^ 57 : ℝ)| ≤ 2 ^ 500 := ⟨by simpa using HalfTurn.rep_lit (-5660654950169467) 57 (by norm_num) (by norm_num), le_trans (by rw [abs_le]; constructor <;> norm_num) two_500⟩
  have hz : Representable (-6445696021174917 / 2 ^ 53 : ℝ) ∧ |(-6445696021174917 / 2 ^ 53 : ℝ)| ≤ 2 ^ 500 := ⟨by simpa using HalfTurn.rep_lit (-6445696021174917) 53 (by norm_num) (by norm_num), le_trans (by rw [abs_le]; constructor <;> norm_num) two_500⟩
  have n := HalfTurnVec.norm_axis o
  have hd : (2 : ℝ) ^ (-100 : ℤ) ≤ DVec.dot3 o (6281518382681305 / 2 ^ 53 : ℝ) (-5660654950169467 / 2 ^ 57 : ℝ) (-6445696021174917 / 2 ^ 53 : ℝ) (6281518382681305 / 2 ^ 53 : ℝ) (-5660654950169467 / 2 ^ 57 : ℝ) (-6445696021174917 / 2 ^ 53 : ℝ) := by rw [n]; norm_num
  have nr : DVec.nrm3 o (6281518382681305 / 2 ^ 53 : ℝ) (-5660654950169467 / 2 ^ 57 : ℝ) (-6445696021174917 / 2 ^ 53 : ℝ) = (4503599627370497 / 2 ^ 52 : ℝ) := by rw [DVec.nrm3, n]; exact HalfTurn.r1
  refine ⟨⟨DVec.normalized o ⟨.fin (6281518382681305 / 2 ^ 53 : ℝ), .fin (-5660654950169467 / 2 ^ 57 : ℝ), .fin (-6445696021174917 / 2 ^ 53 : ℝ)⟩, ⟨.fin piD, .radian⟩⟩, ?_, ?_⟩
  · have r1 : rnd ((4503599627370497 / 2 ^ 52 : ℝ) - 1) = 1 / 2 ^ 52 := by
      rw [show ((4503599627370497 / 2 ^ 52 : ℝ) - 1) = 1 / 2 ^ 52 by norm_num]
      exact rnd_exact (by simpa using HalfTurn.rep_lit 1 52 (by norm_num) (by norm_num))
    rw [DRotVec.ctor, norm_fin3 o hx.2 hy.2 hz.2, show rnd (Real.sqrt (DVec.dot3 o (6281518382681305 / 2 ^ 53 : ℝ) (-5660654950169467 / 2 ^ 57 : ℝ) (-6445696021174917 / 2 ^ 53 : ℝ) (6281518382681305 / 2 ^ 53 : ℝ) (-5660654950169467 / 2 ^ 57 : ℝ) (-6445696021174917 / 2 ^ 53 : ℝ))) = DVec.nrm3 o (6281518382681305 / 2 ^ 53 : ℝ) (-5660654950169467 / 2 ^ 57 : ℝ) (-6445696021174917 / 2 ^ 53 : ℝ) from rfl, sub_one2 (nrm3_le o hx.2 hy.2 hz.2), nr, r1]
    have d : DVec.isDefined ⟨.fin (6281518382681305 / 2 ^ 53 : ℝ), .fin (-5660654950169467 / 2 ^ 57 : ℝ), .fin (-6445696021174917 / 2 ^ 53 : ℝ)⟩ = true := by simp [DVec.isDefined]
    rw [d, if_neg, if_pos rfl]
    simp only [F64.abs, F64.lt, Bool.true_and, decide_eq_true_eq, not_lt]
    rwa [abs_of_pos (by norm_num)]
  · obtain ⟨a, b, c, en, b1, b2, b3, c1', c2', c3'⟩ := DVec.normalized_fin o hx hy hz hd
    have en' : DVec.normalized o ⟨.fin (6281518382681305 / 2 ^ 53 : ℝ), .fin (-5660654950169467 / 2 ^ 57 : ℝ), .fin (-6445696021174917 / 2 ^ 53 : ℝ)⟩ = ⟨.fin (6281518382681304 / 2 ^ 53 : ℝ), .fin (-5660654950169466 / 2 ^ 57 : ℝ), .fin (-6445696021174916 / 2 ^ 53 : ℝ)⟩ := by
      have dv : ∀ {p q : ℝ}, rnd (p / (4503599627370497 / 2 ^ 52 : ℝ)) = q → |q| ≤ 1 → (F64.fin p).div (.fin (4503599627370497 / 2 ^ 52 : ℝ)) = .fin q := fun {p q} h hq => by
        rw [F64.div, if_neg (by norm_num), F64.ofExact_fin, h]
        rw [h]; exact hq.trans_lt (one_lt_pow₀ one_lt_two (by norm_num))
      simp only [DVec.normalized, DVec.squaredNorm, (DVec.dot_fin o hx.2 hy.2 hz.2 hx.2 hy.2 hz.2).1, n, F64.lt, F64.sqrt, DVec.div]
      rw [if_pos (by norm_num), if_neg (by norm_num), HalfTurn.r1, dv HalfTurn.nx (by rw [abs_le]; constructor <;> norm_num), dv HalfTurn.ny (by rw [abs_le]; constructor <;> norm_num),
        dv HalfTurn.nz (by rw [abs_le]; constructor <;> norm_num)]
    have ee := en.symm.trans en'
    injection ee with ea eb ec
    injection ea with ea
    injection eb with eb
    injection ec with ec
    subst ea eb ec
    have N0 : 0 < (6281518382681305 / 2 ^ 53 : ℝ) * (6281518382681305 / 2 ^ 53 : ℝ) + (-5660654950169467 / 2 ^ 57 : ℝ) * (-5660654950169467 / 2 ^ 57 : ℝ) + (-6445696021174917 / 2 ^ 53 : ℝ) * (-6445696021174917 / 2 ^ 53 : ℝ) := by norm_num
    have sq := Real.sqrt_pos.2 N0
    have N2 : ((6281518382681305 / 2 ^ 53 : ℝ) / Real.sqrt ((6281518382681305 / 2 ^ 53 : ℝ) * (6281518382681305 / 2 ^ 53 : ℝ) + (-5660654950169467 / 2 ^ 57 : ℝ) * (-5660654950169467 / 2 ^ 57 : ℝ) + (-6445696021174917 / 2 ^ 53 : ℝ) * (-6445696021174917 / 2 ^ 53 : ℝ))) ^ 2 + ((-5660654950169467 / 2 ^ 57 : ℝ) / Real.sqrt ((6281518382681305 / 2 ^ 53 : ℝ) * (6281518382681305 / 2 ^ 53 : ℝ) + (-5660654950169467 / 2 ^ 57 : ℝ) * (-5660654950169467 / 2 ^ 57 : ℝ) + (-6445696021174917 / 2 ^ 53 : ℝ) * (-6445696021174917 / 2 ^ 53 : ℝ))) ^ 2 + ((-6445696021174917 / 2 ^ 53 : ℝ) / Real.sqrt ((6281518382681305 / 2 ^ 53 : ℝ) * (6281518382681305 / 2 ^ 53 : ℝ) + (-5660654950169467 / 2 ^ 57 : ℝ) * (-5660654950169467 / 2 ^ 57 : ℝ) + (-6445696021174917 / 2 ^ 53 : ℝ) * (-6445696021174917 / 2 ^ 53 : ℝ))) ^ 2 = 1 := HalfTurnVec.unit_sum N0
    have lc : |cos piD - Real.cos piD| ≤ DQuat.u := by rw [hc]; exact HalfTurnVec.rounded_near (Real.abs_cos_le_one _)
    have ls : |sin piD - Real.sin piD| ≤ DQuat.u := by rw [hs]; exact HalfTurnVec.rounded_near (Real.abs_sin_le_one _)
    have kc : |cos piD| ≤ 1 := by rw [hc]; exact DLinear.rnd_abs_le rep_one (Real.abs_cos_le_one _)
    have ks : |sin piD| ≤ 1 := by rw [hs]; exact DLinear.rnd_abs_le rep_one (Real.abs_sin_le_one _)
    generalize (6281518382681305 / 2 ^ 53 : ℝ) / Real.sqrt ((6281518382681305 / 2 ^ 53 : ℝ) * (6281518382681305 / 2 ^ 53 : ℝ) + (-5660654950169467 / 2 ^ 57 : ℝ) * (-5660654950169467 / 2 ^ 57 : ℝ) + (-6445696021174917 / 2 ^ 53 : ℝ) * (-6445696021174917 / 2 ^ 53 : ℝ)) = X at *
    generalize (-5660654950169467 / 2 ^ 57 : ℝ) / Real.sqrt ((6281518382681305 / 2 ^ 53 : ℝ) * (6281518382681305 / 2 ^ 53 : ℝ) + (-5660654950169467 / 2 ^ 57 : ℝ) * (-5660654950169467 / 2 ^ 57 : ℝ) + (-6445696021174917 / 2 ^ 53 : ℝ) * (-6445696021174917 / 2 ^ 53 : ℝ)) = Y at *
    generalize (-6445696021174917 / 2 ^ 53 : ℝ) / Real.sqrt ((6281518382681305 / 2 ^ 53 : ℝ) * (6281518382681305 / 2 ^ 53 : ℝ) + (-5660654950169467 / 2 ^ 57 : ℝ) * (-5660654950169467 / 2 ^ 57 : ℝ) + (-6445696021174917 / 2 ^ 53 : ℝ) * (-6445696021174917 / 2 ^ 53 : ℝ)) = Z at *
    obtain ⟨ev, nv⟩ := vecMat_near (HalfTurnVec.close (X := X) (by nlinarith [sq_nonneg Y, sq_nonneg Z]) c1') (HalfTurnVec.close (X := Y) (by nlinarith [sq_nonneg X, sq_nonneg Z]) c2')
      (HalfTurnVec.close (X := Z) (by nlinarith [sq_nonneg X, sq_nonneg Y]) c3') b1 b2 b3 N2 lc ls kc ks
    have ha : (⟨.fin piD, .radian⟩ : DAngle ℝ).inUnit .radian = .ok (.fin piD) := by simp [DAngle.inUnit, DAngle.isDefined]
    have eq : DRot.RotationVector o (.fin eps) sin cos ⟨DVec.normalized o ⟨.fin (6281518382681305 / 2 ^ 53 : ℝ), .fin (-5660654950169467 / 2 ^ 57 : ℝ), .fin (-6445696021174917 / 2 ^ 53 : ℝ)⟩, ⟨.fin piD, .radian⟩⟩ = DRot.ctor o (.fin eps) (entries (vecMat (6281518382681304 / 2 ^ 53 : ℝ) (-5660654950169466 / 2 ^ 57 : ℝ) (-6445696021174916 / 2 ^ 53 : ℝ) (cos piD) (sin piD))) := by
      rw [DRot.RotationVector, en']
      simp only [DRotVec.isDefined, DVec.isDefined, defined_of_inUnit ha, ha, bind, Except.bind]
      rw [← ev]
      rfl
    rw [eq]
    refine (ctor_fin o eps fun i j => ?_).2 fun hp => ?_
    · have := nv i j
      have := exact_le_one (aboutQ_unit N2 piD) i j
      have us := DQuat.u_small
      refine le_trans ?_ two_500
      have := abs_sub_abs_le_abs_sub (vecMat (6281518382681304 / 2 ^ 53 : ℝ) (-5660654950169466 / 2 ^ 57 : ℝ) (-6445696021174916 / 2 ^ 53 : ℝ) (cos piD) (sin piD) i j) (DRot.exact (aboutQ X Y Z piD) i j)
      linarith
    · have := HalfTurnVec.dot_big o s1 s2 (M := vecMat (6281518382681304 / 2 ^ 53 : ℝ) (-5660654950169466 / 2 ^ 57 : ℝ) (-6445696021174916 / 2 ^ 53 : ℝ) (cos piD) (sin piD)) (by rw [c1])
      exact absurd (hp.2.2.2.trans h2) (not_le.2 this)

/-- **C138.** What is undefined is refused. -/
theorem C138_undefined (o : Bool) (e : F64 ℝ) (sin cos : ℝ → ℝ) :
    (∀ a : DAngle ℝ, (a.value = .nan ∨ a.unit = .undefined) → DRot.RX o e sin cos a = .error .undefined ∧ DRot.RY o e sin cos a = .error .undefined ∧ DRot.RZ o e sin cos a = .error .undefined) ∧
      (∀ r : DRotVec, (r.axis.x = .nan ∨ r.axis.y = .nan ∨ r.axis.z = .nan ∨ r.angle.value = .nan ∨ r.angle.unit = .undefined) → DRot.RotationVector o e sin cos r = .error .undefined) ∧
      ∀ E : DEuler, (E.phi.value = .nan ∨ E.theta.value = .nan ∨ E.psi.value = .nan ∨ E.sequence = .undefined) → DRot.EulerAngle o e sin cos E = .error .undefined := by
  refine ⟨fun a h => ?_, fun r h => ?_, fun E h => ?_⟩
  · have : a.isDefined = false := by rcases h with h | h <;> simp [DAngle.isDefined, h]
    rw [DRot.RX, DRot.RY, DRot.RZ, this]; exact ⟨rfl, rfl, rfl⟩
  · have : r.isDefined = false := by
      rcases h with h | h | h | h | h <;> simp [DRotVec.isDefined, DVec.isDefined, DAngle.isDefined, h]
    rw [DRot.RotationVector, this]; rfl
  · have : E.isDefined = false := by
      rcases h with h | h | h | h <;> simp [DEuler.isDefined, DAngle.isDefined, h]
    rw [DRot.EulerAngle, this]; rfl

/-! ## Examples -/

/-- the angles of `C138_axes`, `C138_euler_partial` and `C138_agree` may be any finite doubles, in radians; a tolerance of `1 / 10 ^ 15` is large enough for the first, one of `1 / 10 ^ 14` for the others -/
example : (⟨⟨.fin 1, .radian⟩, ⟨.fin 2, .radian⟩, ⟨.fin (-3), .radian⟩, .zyx⟩ : DEuler).psi.inUnit .radian = .ok (.fin (-3)) ∧ (9 : ℝ) / 2 ^ 53 ≤ 1 / 10 ^ 15 ∧ (2 : ℝ) ^ (-47 : ℤ) ≤ 1 / 10 ^ 14 := by
  refine ⟨by simp [DAngle.inUnit, DAngle.isDefined], by norm_num, by norm_num⟩

/-- the rotation vector of `C138_vector_partial`: one radian about the third axis -/
example (o : Bool) : (9 : ℝ) / 2 ^ 53 ≤ 1 / 8 ∧ (⟨.fin 1, .radian⟩ : DAngle ℝ).inUnit .radian = .ok (.fin 1) ∧
    ∃ r, DRotVec.ctor o (.fin (9 / 2 ^ 53)) ⟨.fin 0, .fin 0, .fin 1⟩ ⟨.fin 1, .radian⟩ = .ok r := by
  refine ⟨by norm_num, by simp [DAngle.inUnit, DAngle.isDefined], ?_⟩
  have z : |(0 : ℝ)| ≤ 2 ^ 500 := by rw [abs_zero]; exact pow_nonneg zero_le_two _
  have w : |(1 : ℝ)| ≤ 2 ^ 500 := by rw [abs_one]; exact one_le_pow₀ one_le_two
  rw [DRotVec.ctor, norm_fin3 o z z w, show rnd (Real.sqrt (DVec.dot3 o 0 0 1 0 0 1)) = DVec.nrm3 o 0 0 1 from rfl, sub_one2 (nrm3_le o z z w), (axis_norm o rep_one le_rfl).2.2,
    sub_self, rnd_zero]
  refine ⟨_, if_neg ?_⟩
  simp only [F64.abs, F64.lt, abs_zero, Bool.and_eq_true, decide_eq_true_eq, not_and, not_lt]
  exact fun _ => by positivity

/-- the library functions of `C138_rejected_violated`: the correctly rounded ones, which are accurate in the sense of the other theorems -/
example : Accurate (fun x => rnd (Real.sin x)) Real.sin ∧ Accurate (fun x => rnd (Real.cos x)) Real.cos ∧ (1 : ℝ) / 2 ^ 52 ≤ 1 / 10 ^ 15 := by
  have e : (1 : ℝ) / 2 ^ 53 = DQuat.u := rfl
  refine ⟨fun x _ => ⟨rnd_representable _, DLinear.rnd_abs_le rep_one (Real.abs_sin_le_one _), ?_⟩, fun x _ => ⟨rnd_representable _, DLinear.rnd_abs_le rep_one (Real.abs_cos_le_one _), ?_⟩, by norm_num⟩
  · rw [e]; exact HalfTurnVec.rounded_near (Real.abs_sin_le_one _)
  · rw [e]; exact HalfTurnVec.rounded_near (Real.abs_cos_le_one _)

end Verif.Props
