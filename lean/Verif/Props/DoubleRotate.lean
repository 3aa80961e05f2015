import Verif.Lemmas.DoubleRotate
import Verif.Props.DoublePoint
import Verif.Props.DoubleQuat

/-!
# Products of quaternions and rotation of vectors in double precision

Property C120. Code: `src/OpenSpaceToolkit/Mathematics/Geometry/3D/Transformation/Rotation/Quaternion.cpp`. The exact product is the one of Mathlib, with its norm.
-/

namespace Verif.Props

open Verif Verif.Spec Verif.Double

theorem product_near (o : Bool) {p q : Quat} (hp : ‖hamilton p‖ ≤ 2 ^ 500) (hq : ‖hamilton q‖ ≤ 2 ^ 500) :
    ∃ r : Quat, DQuat.product o (.of p) (.of q) = .ok (.of r) ∧
      ‖hamilton r - hamilton q * hamilton p‖ ≤ 82 / 10 * DQuat.u * (‖hamilton p‖ * ‖hamilton q‖) + 10 * DQuat.t :=
  ⟨_, DQuat.product_fin o hp hq, DQuat.prod_near o p q⟩

/-- C120: the product is within 8.2 units of rounding of the exact one, and so is its norm of the product of the norms -/
theorem C120_product (o : Bool) {p q : Quat} (hp : ‖hamilton p‖ ≤ 2 ^ 500) (hq : ‖hamilton q‖ ≤ 2 ^ 500) :
    ∃ r : Quat, DQuat.product o (.of p) (.of q) = .ok (.of r) ∧
      ‖hamilton r - hamilton q * hamilton p‖ ≤ 82 / 10 / 2 ^ 53 * (‖hamilton p‖ * ‖hamilton q‖) + 10 * 2 ^ (-1075 : ℤ) ∧
      |‖hamilton r‖ - ‖hamilton p‖ * ‖hamilton q‖| ≤ 82 / 10 / 2 ^ 53 * (‖hamilton p‖ * ‖hamilton q‖) + 10 * 2 ^ (-1075 : ℤ) := by
  obtain ⟨r, e, h⟩ := product_near o hp hq
  have h' : ‖hamilton r - hamilton q * hamilton p‖ ≤ 82 / 10 / 2 ^ 53 * (‖hamilton p‖ * ‖hamilton q‖) + 10 * 2 ^ (-1075 : ℤ) := by
    rw [div_eq_mul_one_div (82 / 10 : ℝ)]; exact h
  refine ⟨r, e, h', le_trans ?_ h'⟩
  rw [mul_comm ‖hamilton p‖, ← norm_mul]
  exact abs_norm_sub_norm_le _ _

theorem chain_step {R Q N : ℝ} {E : ℝ} (hR : |R - 1| ≤ E) (hE : E ≤ 1 / 1000) (hQ : |Q - 1| ≤ 10 * DQuat.u)
    (h : |N - R * Q| ≤ 82 / 10 * DQuat.u * (R * Q) + 10 * DQuat.t) : |N - 1| ≤ E + 20 * DQuat.u := by
  have u0 := DQuat.u_pos
  have us := DQuat.u_small
  have tu : DQuat.t ≤ DQuat.u / 100 := by
    refine (DQuat.t_small (k := -60) (by norm_num)).trans ?_
    rw [DQuat.u, zpow_neg]; norm_num
  generalize DQuat.u = u at *
  generalize DQuat.t = t at *
  obtain ⟨r1, r2⟩ := abs_le.1 hR
  obtain ⟨q1, q2⟩ := abs_le.1 hQ
  obtain ⟨n1, n2⟩ := abs_le.1 h
  have R1 : R ≤ 1001 / 1000 := by linarith
  have R0 : 0 ≤ R := by linarith
  have Q1 : Q ≤ 1001 / 1000 := by linarith
  have a1 : |R * Q - R| ≤ 1001 / 1000 * (10 * u) := by
    rw [show R * Q - R = R * (Q - 1) by ring, abs_mul, abs_of_nonneg R0]
    exact mul_le_mul R1 hQ (abs_nonneg _) (by norm_num)
  obtain ⟨a2, a3⟩ := abs_le.1 a1
  have Q0 : 0 ≤ Q := by linarith
  have b1 : u * (R * Q) ≤ u * (1003 / 1000) := mul_le_mul_of_nonneg_left (by nlinarith) u0.le
  exact abs_le.2 ⟨by linarith, by linarith⟩

/-- C120: the product of a chain of quaternions whose norms are within ten units of rounding of one, as `normalize` makes them (`C113_normalize`), has a norm within
twenty such units of one for each factor, and is never undefined -/
theorem C120_chain (o : Bool) (q : Quat) (l : List Quat) (hl : l.length ≤ 2 ^ 38) (hq : |‖hamilton q‖ - 1| ≤ 10 / 2 ^ 53)
    (h : ∀ p ∈ l, |‖hamilton p‖ - 1| ≤ 10 / 2 ^ 53) :
    ∃ r : Quat, (l.map DQuat.of).foldlM (DQuat.product o) (.of q) = .ok (.of r) ∧ |‖hamilton r‖ - 1| ≤ 20 * (l.length + 1) / 2 ^ 53 := by
  have key : ∀ (l : List Quat) (q : Quat) (k : ℕ), k + l.length ≤ 2 ^ 38 → |‖hamilton q‖ - 1| ≤ 20 * (k + 1) * DQuat.u →
      (∀ p ∈ l, |‖hamilton p‖ - 1| ≤ 10 * DQuat.u) →
      ∃ r : Quat, (l.map DQuat.of).foldlM (DQuat.product o) (.of q) = .ok (.of r) ∧ |‖hamilton r‖ - 1| ≤ 20 * (k + l.length + 1) * DQuat.u := by
    have one : ∀ x : ℝ, |x - 1| ≤ 1 → x ≤ 2 ^ 500 := fun x h => by
      have h2 := (abs_le.1 h).2
      exact (by rw [pow_one]; linarith : x ≤ 2 ^ 1).trans (pow_le_pow_right₀ one_le_two (by norm_num))
    intro l
    induction l with
    | nil => intro q k _ hq _; exact ⟨q, rfl, by simpa using hq⟩
    | cons p l ih =>
      intro q k hk hq h
      have hp := h p (by simp)
      have k1 : 20 * ((k : ℝ) + 1) * DQuat.u ≤ 1 / 1000 := by
        have : (k : ℝ) + 1 ≤ 2 ^ 38 := by
          have : k + 1 ≤ 2 ^ 38 := by simp only [List.length_cons] at hk; omega
          exact_mod_cast this
        rw [DQuat.u]
        have u0 : (0 : ℝ) < 1 / 2 ^ 53 := by norm_num
        calc 20 * ((k : ℝ) + 1) * (1 / 2 ^ 53) ≤ 20 * 2 ^ 38 * (1 / 2 ^ 53) := by gcongr
          _ ≤ 1 / 1000 := by norm_num
      have u1 : 10 * DQuat.u ≤ 1 := by have := DQuat.u_small; linarith
      obtain ⟨r, e, hr⟩ := product_near o (one _ (hq.trans (k1.trans (by norm_num)))) (one _ (hp.trans u1))
      have hN : |‖hamilton r‖ - ‖hamilton q‖ * ‖hamilton p‖| ≤ 82 / 10 * DQuat.u * (‖hamilton q‖ * ‖hamilton p‖) + 10 * DQuat.t := by
        refine le_trans ?_ hr
        rw [mul_comm ‖hamilton q‖, ← norm_mul]
        exact abs_norm_sub_norm_le _ _
      have s := chain_step hq k1 hp hN
      obtain ⟨r', e', hr'⟩ := ih r (k + 1) (by simp only [List.length_cons] at hk; omega) (by push_cast; linarith) (fun p hp => h p (by simp [hp]))
      refine ⟨r', ?_, ?_⟩
      · rw [List.map_cons, List.foldlM_cons, e]
        exact e'
      · push_cast [List.length_cons] at hr' ⊢
        rw [show (k : ℝ) + (l.length + 1) + 1 = k + 1 + l.length + 1 by ring]
        exact hr'
  have u0 : (10 : ℝ) / 2 ^ 53 = 10 * DQuat.u := by rw [DQuat.u]; ring
  rw [u0] at hq h
  obtain ⟨r, e, hr⟩ := key l q 0 (by simpa using hl) (by have := DQuat.u_pos; push_cast; linarith) h
  refine ⟨r, e, hr.trans (le_of_eq ?_)⟩
  rw [DQuat.u]
  push_cast
  ring

theorem finite_one' : Representable (1 : ℝ) ∧ |(1 : ℝ)| < 2 ^ 1024 :=
  ⟨by simpa using representable_int (α := ℝ) (m := 1) (by norm_num), by rw [abs_one]; exact one_lt_pow₀ one_lt_two (by norm_num)⟩

/-- the quaternion of a vector -/
def pure (v : V3) : Quaternion ℝ := hamilton ⟨v.x, v.y, v.z, 0⟩

/-- the components of a quaternion are doubles of moderate size -/
def Tempered (q : Quat) : Prop := Sized q.x q.y q.z q.s

theorem norm_sqrt (q : Quat) : Real.sqrt (q.x * q.x + q.y * q.y + q.z * q.z + q.s * q.s) = ‖hamilton q‖ := by
  rw [← Real.sqrt_sq (norm_nonneg (hamilton q)), DQuat.norm_hamilton]
  congr 1
  ring

theorem sub_one {n : ℝ} (h : |n| ≤ 2 ^ 502) : ((F64.fin n).sub (.fin 1)).abs = .fin (|rnd (n - 1)|) := by
  rw [(DVec.sub_fin2 (n := 502) (by norm_num) h (by rw [abs_one]; exact one_le_pow₀ one_le_two)).1]
  rfl

theorem nrm_le {q : Quat} (h : Tempered q) : |DQuat.nrm q.x q.y q.z q.s| ≤ 2 ^ 502 := by
  obtain ⟨⟨-, hx⟩, ⟨-, hy⟩, ⟨-, hz⟩, ⟨-, hs⟩⟩ := h
  refine DLinear.rnd_abs_le (DQuat.rep_two 502) ?_
  rw [abs_of_nonneg (Real.sqrt_nonneg _)]
  refine Real.sqrt_le_iff.2 ⟨pow_nonneg zero_le_two _, ?_⟩
  rw [← pow_mul, DQuat.sumSq]
  have m : ∀ {x : ℝ}, |x| ≤ 2 ^ 500 → 0 ≤ rnd (x * x) ∧ rnd (x * x) ≤ 2 ^ 1000 := fun h => ⟨DQuat.sq_nonneg' _, (DQuat.mul_fin h).2⟩
  have a : ∀ {x y : ℝ} {n : ℕ}, n < 1022 → 0 ≤ x ∧ x ≤ 2 ^ n → 0 ≤ y ∧ y ≤ 2 ^ n → 0 ≤ rnd (x + y) ∧ rnd (x + y) ≤ 2 ^ (n + 1) := fun hn hx hy =>
    ⟨le_rnd representable_zero (add_nonneg hx.1 hy.1), rnd_le (DQuat.rep_two _) (by rw [pow_succ]; linarith [hx.2, hy.2])⟩
  have p1 : (2 : ℝ) ^ 1000 ≤ 2 ^ 1001 := pow_le_pow_right₀ one_le_two (by norm_num)
  have p2 : (2 : ℝ) ^ 1001 ≤ 2 ^ 1002 := pow_le_pow_right₀ one_le_two (by norm_num)
  have a1 := a (n := 1000) (by norm_num) (m hx) (m hy)
  have a2 := a (n := 1001) (by norm_num) a1 ⟨(m hz).1, (m hz).2.trans p1⟩
  have a3 := a (n := 1002) (by norm_num) a2 ⟨(m hs).1, (m hs).2.trans (p1.trans p2)⟩
  exact a3.2.trans (pow_le_pow_right₀ one_le_two (by norm_num))

theorem unit_small {q : Quat} (hn : q.x * q.x + q.y * q.y + q.z * q.z + q.s * q.s < 2 ^ (-400 : ℤ)) : 1 / 8 < |rnd (DQuat.nrm q.x q.y q.z q.s - 1)| := by
  have h := (abs_le.1 (DQuat.sumSq_near q.x q.y q.z q.s)).2
  have N0 : 0 ≤ q.x * q.x + q.y * q.y + q.z * q.z + q.s * q.s := by
    nlinarith [mul_self_nonneg q.x, mul_self_nonneg q.y, mul_self_nonneg q.z, mul_self_nonneg q.s]
  have h1 : q.x * q.x + q.y * q.y + q.z * q.z + q.s * q.s ≤ 1 / 100 := by
    refine hn.le.trans ((zpow_le_zpow_right₀ (one_le_two (α := ℝ)) (by norm_num : (-400 : ℤ) ≤ -7)).trans ?_)
    rw [zpow_neg]; norm_num
  have h2 : DQuat.t ≤ 1 / 100 := by
    refine (DQuat.t_small (k := -7) (by norm_num)).trans ?_
    rw [zpow_neg]; norm_num
  have u1 := DQuat.u_small
  have u0 := DQuat.u_pos
  clear hn
  generalize q.x * q.x + q.y * q.y + q.z * q.z + q.s * q.s = N at *
  have h3 : DQuat.sumSq q.x q.y q.z q.s ≤ 1 / 4 := by
    have : 41 / 10 * DQuat.u * N ≤ 1 / 100 := by nlinarith
    linarith
  have half : Representable (1 / 2 : ℝ) := ⟨1, -1, by norm_num, by norm_num, by rw [zpow_neg]; norm_num⟩
  have h4 : DQuat.nrm q.x q.y q.z q.s ≤ 1 / 2 := rnd_le half (Real.sqrt_le_iff.2 ⟨by norm_num, by linarith⟩)
  have h5 : rnd (DQuat.nrm q.x q.y q.z q.s - 1) ≤ -(1 / 2) := rnd_le (representable_neg half) (by linarith)
  rw [abs_of_nonpos (by linarith)]
  linarith

theorem unitary_iff {q : Quat} (hq : Tempered q) {tol : ℝ} (ht : 0 < tol) :
    DQuat.isUnitary (.fin tol) (.of q) = .ok (decide (|rnd (DQuat.nrm q.x q.y q.z q.s - 1)| ≤ tol)) := by
  have b := nrm_le hq
  obtain ⟨⟨-, hx⟩, ⟨-, hy⟩, ⟨-, hz⟩, ⟨-, hs⟩⟩ := hq
  have n := DQuat.norm_fin hx hy hz hs
  rw [DQuat.isUnitary, DQuat.of_defined, if_neg (by simp), if_neg (by simp [F64.le, ht]), DQuat.of, n]
  change Except.ok ((F64.sub _ _).abs.le _) = _
  rw [sub_one b]
  rfl

/-- the exact norm and the computed difference to one -/
theorem unit_near {q : Quat} (hn : ¬ q.x * q.x + q.y * q.y + q.z * q.z + q.s * q.s < 2 ^ (-400 : ℤ)) :
    |DQuat.nrm q.x q.y q.z q.s - ‖hamilton q‖| ≤ 32 / 10 * DQuat.u * ‖hamilton q‖ := by
  rw [← norm_sqrt]
  exact DQuat.nrm_near (not_lt.1 hn)

/-- C120: up to four units of rounding, `isUnitary` accepts the quaternions whose exact norm is within the tolerance of one, and no others -/
theorem C120_unitary {q : Quat} (hq : Tempered q) {tol : ℝ} (ht : 0 < tol) (ht' : tol ≤ 1 / 8) (hr : Representable tol) :
    (|‖hamilton q‖ - 1| ≤ tol - 4 / 2 ^ 53 → DQuat.isUnitary (.fin tol) (.of q) = .ok true) ∧
      (DQuat.isUnitary (.fin tol) (.of q) = .ok true → |‖hamilton q‖ - 1| ≤ tol + 4 / 2 ^ 53) := by
  rw [unitary_iff hq ht]
  simp only [Except.ok.injEq, decide_eq_true_eq]
  have u0 := DQuat.u_pos
  have u1 := DQuat.u_small
  have e4 : (4 / 2 ^ 53 : ℝ) = 4 * DQuat.u := by rw [DQuat.u]; ring
  rw [e4]
  by_cases hn : q.x * q.x + q.y * q.y + q.z * q.z + q.s * q.s < 2 ^ (-400 : ℤ)
  · have k := unit_small hn
    have small : ‖hamilton q‖ ≤ 1 / 2 := by
      rw [← norm_sqrt]
      refine Real.sqrt_le_iff.2 ⟨by norm_num, hn.le.trans ((zpow_le_zpow_right₀ (one_le_two (α := ℝ)) (by norm_num : (-400 : ℤ) ≤ -2)).trans ?_)⟩
      rw [zpow_neg]; norm_num
    refine ⟨fun h => ?_, fun h => absurd h (by linarith)⟩
    have := (abs_le.1 h).1
    linarith
  · have n := abs_le.1 (unit_near hn)
    have r1 : Representable (DQuat.nrm q.x q.y q.z q.s) := rnd_representable _
    have e := rnd_add_error r1 (representable_neg finite_one'.1)
    rw [DLinear.two_neg53, ← sub_eq_add_neg] at e
    change _ ≤ DQuat.u * _ at e
    generalize DQuat.nrm q.x q.y q.z q.s = m at *
    generalize ‖hamilton q‖ = N at *
    generalize DQuat.u = u at *
    constructor
    · intro h
      have h' := abs_le.1 h
      refine DLinear.rnd_abs_le hr (abs_le.2 ⟨?_, ?_⟩)
      · nlinarith
      · nlinarith
    · intro h
      have h1 := abs_sub_abs_le_abs_sub (m - 1) (rnd (m - 1))
      rw [abs_sub_comm] at e
      have h2 : |m - 1| ≤ tol + u / 7 := by nlinarith [abs_nonneg (m - 1)]
      have h3 := abs_le.1 h2
      exact abs_le.2 ⟨by nlinarith, by nlinarith⟩

theorem exact_rotation (q : Quat) (v : V3) (hq : hamilton q ≠ 0) :
    (star (hamilton q) * (pure v * hamilton q)).re = 0 ∧
      star (hamilton q) * (pure v * hamilton q) = ‖hamilton q‖ ^ 2 • ((hamilton q)⁻¹ * pure v * hamilton q) := by
  constructor
  · have h0 : ∀ q : Quat, (hamilton q).re = q.s := fun _ => rfl
    have h1 : ∀ q : Quat, (hamilton q).imI = q.x := fun _ => rfl
    have h2 : ∀ q : Quat, (hamilton q).imJ = q.y := fun _ => rfl
    have h3 : ∀ q : Quat, (hamilton q).imK = q.z := fun _ => rfl
    simp [pure, h0, h1, h2, h3]
    ring
  · rw [Quaternion.inv_def, Quaternion.normSq_eq_norm_mul_self, ← sq, smul_mul_assoc, smul_mul_assoc, smul_smul, mul_inv_cancel₀, one_smul, mul_assoc]
    exact pow_ne_zero 2 (norm_ne_zero_iff.2 hq)

theorem drop_scalar {r X : Quaternion ℝ} {w : V3} (h1 : r.imI = w.x) (h2 : r.imJ = w.y) (h3 : r.imK = w.z) (hX : X.re = 0) : ‖pure w - X‖ ≤ ‖r - X‖ := by
  refine le_of_sq_le_sq ?_ (norm_nonneg _)
  rw [sq, sq, ← Quaternion.normSq_eq_norm_mul_self, ← Quaternion.normSq_eq_norm_mul_self, Quaternion.normSq_def', Quaternion.normSq_def']
  have e0 : (pure w).re = 0 := rfl
  have e1 : (pure w).imI = w.x := rfl
  have e2 : (pure w).imJ = w.y := rfl
  have e3 : (pure w).imK = w.z := rfl
  simp only [Quaternion.re_sub, Quaternion.imI_sub, Quaternion.imJ_sub, Quaternion.imK_sub, e0, e1, e2, e3, h1, h2, h3, hX]
  nlinarith [sq_nonneg r.re]

theorem rotate_value (o : Bool) {tol : ℝ} {q r w : Quat} {v : V3} (hu : DQuat.isUnitary (.fin tol) (.of q) = .ok true)
    (er : DQuat.product o (.of q) (.of ⟨v.x, v.y, v.z, 0⟩) = .ok (.of r)) (ew : DQuat.product o (.of r) (.of ⟨-q.x, -q.y, -q.z, q.s⟩) = .ok (.of w)) :
    DQuat.rotateVector o (.fin tol) (.of q) (doubles v) = .ok ⟨.fin w.x, .fin w.y, .fin w.z⟩ := by
  rw [DQuat.rotateVector, doubles_defined, if_neg (by simp), hu]
  change (do
    let r ← DQuat.product o (.of q) (.of ⟨v.x, v.y, v.z, 0⟩)
    let c ← DQuat.toConjugate (.of q)
    let w ← r.product o c
    w.getVectorPart) = _
  rw [er]
  change (do
    let c ← DQuat.toConjugate (.of q)
    let w ← DQuat.product o (.of r) c
    w.getVectorPart) = _
  rw [DQuat.toConjugate, DQuat.of_defined, if_neg (by simp)]
  change (do
    let w ← DQuat.product o (.of r) (.of ⟨-q.x, -q.y, -q.z, q.s⟩)
    w.getVectorPart) = _
  rw [ew]
  change DQuat.getVectorPart (.of w) = _
  rw [DQuat.getVectorPart, DQuat.of_defined, if_neg (by simp)]
  rfl

theorem rotate_sum {u t V Q R tol D F G : ℝ} (u0 : 0 < u) (us : u ≤ 1 / 10 ^ 15) (t0 : 0 < t) (V0 : 0 ≤ V) (Q0 : 1 / 2 ≤ Q) (Q1 : Q ≤ 1126 / 1000)
    (rn : R ≤ 1127 / 1000 * V + 10 * t) (s4 : D ≤ 22 / 10 * tol + 10 * u) (s2 : F ≤ 82 / 10 * u * (R * Q) + 10 * t + Q * (82 / 10 * u * (Q * V) + 10 * t))
    (s3 : G ≤ F + D * V) : G ≤ (22 / 10 * tol + 32 * u) * V + 23 * t := by
  have s5 := mul_le_mul_of_nonneg_right s4 V0
  have uV := mul_nonneg u0.le V0
  have tt : u * t ≤ t / 1000 := by
    have := mul_le_mul_of_nonneg_right us t0.le
    linarith
  have s6 : 82 / 10 * u * (R * Q) ≤ 11 * (u * V) + t / 10 := by
    have m1 : R * Q ≤ (1127 / 1000 * V + 10 * t) * Q := mul_le_mul_of_nonneg_right rn (by linarith)
    have m2 : (1127 / 1000 * V + 10 * t) * Q ≤ (1127 / 1000 * V + 10 * t) * (1126 / 1000) := mul_le_mul_of_nonneg_left Q1 (by linarith)
    have m' := mul_le_mul_of_nonneg_left (m1.trans m2) (by linarith : 0 ≤ 82 / 10 * u)
    linarith
  have s7 : Q * (82 / 10 * u * (Q * V) + 10 * t) ≤ 11 * (u * V) + 12 * t := by
    have q2 : Q * Q ≤ 1268 / 1000 := by nlinarith only [Q0, Q1]
    have h1 := mul_le_mul_of_nonneg_right q2 uV
    have h2 := mul_le_mul_of_nonneg_right Q1 t0.le
    linarith
  linarith

/-- C120: what `rotateVector` returns is the rotated vector up to the tolerance and rounding: `q⁻¹ v q` is the exact rotation, which does not depend on the norm of `q` -/
theorem C120_rotate (o : Bool) {q : Quat} (hq : Tempered q) {tol : ℝ} (ht : 0 < tol) (ht' : tol ≤ 1 / 8) (hr : Representable tol) {v : V3} (hv : ‖pure v‖ ≤ 2 ^ 490)
    {w : DVec} (h : DQuat.rotateVector o (.fin tol) (.of q) (doubles v) = .ok w) :
    ∃ w' : V3, w = doubles w' ∧
      ‖pure w' - (hamilton q)⁻¹ * pure v * hamilton q‖ ≤ (22 / 10 * tol + 32 / 2 ^ 53) * ‖pure v‖ + 23 * 2 ^ (-1075 : ℤ) := by
  have u0 := DQuat.u_pos
  have us := DQuat.u_small
  have t0 := DQuat.t_pos
  have t1 : DQuat.t ≤ 1 := (DQuat.t_small (k := 0) (by norm_num)).trans (by norm_num)
  have hu : DQuat.isUnitary (.fin tol) (.of q) = .ok true := by
    rw [DQuat.rotateVector, doubles_defined, if_neg (by simp)] at h
    rw [unitary_iff hq ht] at h ⊢
    by_contra hh
    have : decide (|rnd (DQuat.nrm q.x q.y q.z q.s - 1)| ≤ tol) = false := by simpa using hh
    rw [this] at h
    cases h
  have near := (C120_unitary hq ht ht' hr).2 hu
  have e4 : (4 / 2 ^ 53 : ℝ) = 4 * DQuat.u := by rw [DQuat.u]; ring
  rw [e4] at near
  have nb := abs_le.1 near
  set Q := ‖hamilton q‖ with hQ
  have Q1 : Q ≤ 1126 / 1000 := by linarith
  have Q0 : 1 / 2 ≤ Q := by linarith
  have big : ∀ {x : ℝ} (n : ℕ), n ≤ 500 → x ≤ 2 ^ n → x ≤ 2 ^ 500 := fun n hn hx => hx.trans (pow_le_pow_right₀ one_le_two hn)
  have hq500 : ‖hamilton q‖ ≤ 2 ^ 500 := big 1 (by norm_num) (by rw [← hQ, pow_one]; linarith)
  obtain ⟨r, er, hr1⟩ := product_near o (p := q) (q := ⟨v.x, v.y, v.z, 0⟩) hq500 (big 490 (by norm_num) hv)
  change ‖hamilton r - pure v * hamilton q‖ ≤ 82 / 10 * DQuat.u * (Q * ‖pure v‖) + 10 * DQuat.t at hr1
  have V0 := norm_nonneg (pure v)
  have qv : ‖pure v * hamilton q‖ = ‖pure v‖ * Q := norm_mul _ _
  have rn : ‖hamilton r‖ ≤ 1127 / 1000 * ‖pure v‖ + 10 * DQuat.t := by
    have := norm_sub_norm_le (hamilton r) (pure v * hamilton q)
    rw [qv] at this
    have m1 : Q * ‖pure v‖ ≤ 1126 / 1000 * ‖pure v‖ := mul_le_mul_of_nonneg_right Q1 V0
    have m2 : 82 / 10 * DQuat.u * (Q * ‖pure v‖) ≤ 1 / 1000 * ‖pure v‖ := by
      have : 82 / 10 * DQuat.u ≤ 1 / 2000 := by linarith
      calc 82 / 10 * DQuat.u * (Q * ‖pure v‖) ≤ 1 / 2000 * (1126 / 1000 * ‖pure v‖) := mul_le_mul this m1 (by positivity) (by norm_num)
        _ ≤ 1 / 1000 * ‖pure v‖ := by linarith
    linarith
  have r500 : ‖hamilton r‖ ≤ 2 ^ 500 := by
    have g : (2 : ℝ) ^ 490 * 2 ^ 10 = 2 ^ 500 := by rw [← pow_add]
    have one : (1 : ℝ) ≤ 2 ^ 490 := one_le_pow₀ one_le_two
    rw [← g]
    generalize (2 : ℝ) ^ 490 = G at *
    rw [show (2 : ℝ) ^ 10 = 1024 by norm_num]
    linarith only [rn, hv, one, t1, V0]
  set c : Quat := ⟨-q.x, -q.y, -q.z, q.s⟩ with hc
  have cs : hamilton c = star (hamilton q) := by
    ext
    · rw [Quaternion.re_star]; rfl
    · rw [Quaternion.imI_star]; rfl
    · rw [Quaternion.imJ_star]; rfl
    · rw [Quaternion.imK_star]; rfl
  have cn : ‖hamilton c‖ = Q := by rw [cs, norm_star]
  obtain ⟨w2, ew, hw⟩ := product_near o (p := r) (q := c) r500 (by rw [cn]; exact hq500)
  rw [cn, cs] at hw
  have eq : DQuat.rotateVector o (.fin tol) (.of q) (doubles v) = .ok ⟨.fin w2.x, .fin w2.y, .fin w2.z⟩ := rotate_value o hu er ew
  rw [eq] at h
  cases h
  have hne : hamilton q ≠ 0 := by
    intro hh
    rw [hh, norm_zero] at hQ
    linarith
  obtain ⟨x0, xs⟩ := exact_rotation q v hne
  refine ⟨⟨w2.x, w2.y, w2.z⟩, rfl, ?_⟩
  have d := drop_scalar (r := hamilton w2) (X := star (hamilton q) * (pure v * hamilton q)) (w := ⟨w2.x, w2.y, w2.z⟩) rfl rfl rfl x0
  have X1 : ‖(hamilton q)⁻¹ * pure v * hamilton q‖ = ‖pure v‖ := by
    rw [norm_mul, norm_mul, norm_inv]
    field_simp
  -- the exact rotation by `q` as it is
  have s1 : ‖star (hamilton q) * (pure v * hamilton q) - (hamilton q)⁻¹ * pure v * hamilton q‖ = |Q ^ 2 - 1| * ‖pure v‖ := by
    rw [xs, show ∀ (k : ℝ) (X : Quaternion ℝ), k • X - X = (k - 1) • X from fun k X => by rw [sub_smul, one_smul], norm_smul, X1, Real.norm_eq_abs]
  -- the two products
  have s2 : ‖hamilton w2 - star (hamilton q) * (pure v * hamilton q)‖ ≤ 82 / 10 * DQuat.u * (‖hamilton r‖ * Q) + 10 * DQuat.t +
      Q * (82 / 10 * DQuat.u * (Q * ‖pure v‖) + 10 * DQuat.t) := by
    have e : hamilton w2 - star (hamilton q) * (pure v * hamilton q) =
        (hamilton w2 - star (hamilton q) * hamilton r) + star (hamilton q) * (hamilton r - pure v * hamilton q) := by
      rw [mul_sub]; abel
    rw [e]
    refine (norm_add_le _ _).trans (add_le_add hw ?_)
    rw [norm_mul, norm_star]
    exact mul_le_mul_of_nonneg_left hr1 (norm_nonneg _)
  have s3 := norm_add_le (pure ⟨w2.x, w2.y, w2.z⟩ - star (hamilton q) * (pure v * hamilton q))
    (star (hamilton q) * (pure v * hamilton q) - (hamilton q)⁻¹ * pure v * hamilton q)
  rw [sub_add_sub_cancel, s1] at s3
  have s4 : |Q ^ 2 - 1| ≤ 22 / 10 * tol + 10 * DQuat.u := by
    rw [show Q ^ 2 - 1 = (Q - 1) * (Q + 1) by ring, abs_mul, abs_of_pos (by linarith : 0 < Q + 1)]
    calc |Q - 1| * (Q + 1) ≤ (tol + 4 * DQuat.u) * (2126 / 1000) := mul_le_mul near (by linarith) (by linarith) (by linarith)
      _ ≤ _ := by linarith
  have e32 : (32 / 2 ^ 53 : ℝ) = 32 * DQuat.u := by rw [DQuat.u]; ring
  rw [e32]
  exact rotate_sum u0 us t0 V0 Q0 Q1 rn s4 (d.trans s2) s3

/-- C120: `rotateVector` returns when the exact norm is within the tolerance of one, up to four units of rounding -/
theorem C120_returns (o : Bool) {q : Quat} (hq : Tempered q) {tol : ℝ} (ht : 0 < tol) (ht' : tol ≤ 1 / 8) (hr : Representable tol) {v : V3} (hv : ‖pure v‖ ≤ 2 ^ 490)
    (h : |‖hamilton q‖ - 1| ≤ tol - 4 / 2 ^ 53) : ∃ w, DQuat.rotateVector o (.fin tol) (.of q) (doubles v) = .ok w := by
  have hu := (C120_unitary hq ht ht' hr).1 h
  have hn : ‖hamilton q‖ ≤ 2 := by
    have := (abs_le.1 h).2
    have : (0 : ℝ) < 4 / 2 ^ 53 := by norm_num
    linarith
  have hq500 : ‖hamilton q‖ ≤ 2 ^ 500 := hn.trans ((pow_one (2 : ℝ)).symm.le.trans (pow_le_pow_right₀ one_le_two (by norm_num)))
  obtain ⟨r, er, -, hr'⟩ := C120_product o (p := q) (q := ⟨v.x, v.y, v.z, 0⟩) hq500 (hv.trans (pow_le_pow_right₀ one_le_two (by norm_num)))
  have r500 : ‖hamilton r‖ ≤ 2 ^ 500 := by
    have g : (2 : ℝ) ^ 490 * 2 ^ 10 = 2 ^ 500 := by rw [← pow_add]
    have one : (1 : ℝ) ≤ 2 ^ 490 := one_le_pow₀ one_le_two
    have tz : (2 : ℝ) ^ (-1075 : ℤ) ≤ 1 := zpow_le_one_of_nonpos₀ one_le_two (by norm_num)
    have a := (abs_le.1 hr').2
    change _ ≤ 82 / 10 / 2 ^ 53 * (‖hamilton q‖ * ‖pure v‖) + _ at a
    change _ - ‖hamilton q‖ * ‖pure v‖ ≤ _ at a
    have b : ‖hamilton q‖ * ‖pure v‖ ≤ 2 * 2 ^ 490 := mul_le_mul hn hv (norm_nonneg _) (by norm_num)
    have c : 82 / 10 / 2 ^ 53 * (‖hamilton q‖ * ‖pure v‖) ≤ 1 * (‖hamilton q‖ * ‖pure v‖) :=
      mul_le_mul_of_nonneg_right (by norm_num) (mul_nonneg (norm_nonneg _) (norm_nonneg _))
    rw [← g, show (2 : ℝ) ^ 10 = 1024 by norm_num]
    generalize (2 : ℝ) ^ 490 = G at *
    generalize (2 : ℝ) ^ (-1075 : ℤ) = T at *
    linarith only [a, b, c, tz, one]
  have cn : ‖hamilton ⟨-q.x, -q.y, -q.z, q.s⟩‖ = ‖hamilton q‖ := by
    rw [← norm_sqrt, ← norm_sqrt]
    simp
  exact ⟨_, rotate_value o hu er (DQuat.product_fin o r500 (by rw [cn]; exact hq500))⟩

/-- the quaternion of a half turn and the tolerance 2⁻⁵⁰, which is less than 1e-15, meet the hypotheses -/
example : Tempered ⟨1, 0, 0, 0⟩ ∧ |‖hamilton ⟨1, 0, 0, 0⟩‖ - 1| ≤ 1 / 2 ^ 50 - 4 / 2 ^ 53 ∧ ‖pure ⟨1, 2, 3⟩‖ ≤ 2 ^ 490 := by
  have o1 : Representable (1 : ℝ) ∧ |(1 : ℝ)| ≤ 2 ^ 500 := ⟨finite_one'.1, by rw [abs_one]; exact one_le_pow₀ one_le_two⟩
  have o0 : Representable (0 : ℝ) ∧ |(0 : ℝ)| ≤ 2 ^ 500 := ⟨representable_zero, by rw [abs_zero]; exact pow_nonneg zero_le_two _⟩
  refine ⟨⟨o1, o0, o0, o0⟩, ?_, ?_⟩
  · rw [← norm_sqrt]; norm_num
  · rw [pure, ← norm_sqrt]
    refine (Real.sqrt_le_iff.2 ⟨by norm_num, ?_⟩ : _ ≤ (2 : ℝ) ^ 2).trans (pow_le_pow_right₀ one_le_two (by norm_num))
    norm_num

end Verif.Props
