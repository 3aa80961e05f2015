import Verif.Lemmas.DoublePlaneMove
import Verif.Lemmas.DoubleProduct
import Verif.Model.DoublePlaneProduct

/-!
# Lemmas for C149: products of transformations of the plane in double precision
-/

namespace Verif.Props

open Verif Verif.Spec Verif.Double

/-- the transformation is a product, bracketed in some way, of transformations made from angles, translation vectors, or points and angles; it stands for these motions, the first of which is that of the
rightmost factor -/
inductive Composed2 (o : Bool) (sin cos : ℝ → ℝ) : DTrans2 → List PlaneMotion → Prop where
  | one {T : DTrans2} {m : PlaneMotion} (h : Makes2 o sin cos T m) : Composed2 o sin cos T [m]
  | mul {A B T : DTrans2} {ms ns : List PlaneMotion} (hA : Composed2 o sin cos A ms) (hB : Composed2 o sin cos B ns) (h : DTrans2.mul o A B = .ok T) : Composed2 o sin cos T (ns ++ ms)

namespace Product2

open Product (err err_bounds grow least least_pos least_t least_small compose_type entry_500 zero_500 one_500)

/-- the matrix of size three with this block and this column -/
noncomputable def affine (R : Fin 2 → Fin 2 → ℝ) (t : Fin 2 → ℝ) : Fin 3 → Fin 3 → F64 ℝ :=
  ![![.fin (R 0 0), .fin (R 0 1), .fin (t 0)], ![.fin (R 1 0), .fin (R 1 1), .fin (t 1)], ![.fin 0, .fin 0, .fin 1]]

/-- a column as a complex number -/
def column (t : Fin 2 → ℝ) : ℂ := ⟨t 0, t 1⟩

/-- what the block makes of a complex number -/
def block (R : Fin 2 → Fin 2 → ℝ) (z : ℂ) : ℂ := ⟨R 0 0 * z.re + R 0 1 * z.im, R 1 0 * z.re + R 1 1 * z.im⟩

theorem mul_affine (o : Bool) {A B : Fin 2 → Fin 2 → ℝ} {a b : Fin 2 → ℝ} (hA : ∀ i j, |A i j| ≤ 2 ^ 500) (hB : ∀ i j, |B i j| ≤ 2 ^ 500) (ha : ∀ i, |a i| ≤ 2 ^ 500) (hb : ∀ i, |b i| ≤ 2 ^ 500) :
    DT2.mul o (affine A a) (affine B b) = affine (fun i j => DVec.dot3 o (A i 0) (A i 1) (a i) (B 0 j) (B 1 j) 0) (fun i => DVec.dot3 o (A i 0) (A i 1) (a i) (b 0) (b 1) 1) := by
  have k := fun i j => (DVec.dot_fin o (hA i 0) (hA i 1) (ha i) (hB 0 j) (hB 1 j) zero_500).1
  have k' := fun i => (DVec.dot_fin o (hA i 0) (hA i 1) (ha i) (hb 0) (hb 1) one_500).1
  have s := (sum3_one o finite_one.1 finite_one.2).2.2
  have s0 := (sum3_one o finite_zero.1 finite_zero.2).2.2
  funext i j
  fin_cases i <;> fin_cases j
  · exact k 0 0
  · exact k 0 1
  · exact k' 0
  · exact k 1 0
  · exact k 1 1
  · exact k' 1
  · simp [DT2.mul, affine, DT3.zero_mul_fin, DT3.mul_zero_fin, s0]
  · simp [DT2.mul, affine, DT3.zero_mul_fin, DT3.mul_zero_fin, s0]
  · simp [DT2.mul, affine, DT3.zero_mul_fin, s, DT3.one_mul_fin finite_one.1 finite_one.2]

theorem norm_each {z : ℂ} {e : ℝ} (h1 : |z.re| ≤ e) (h2 : |z.im| ≤ e) : ‖z‖ ≤ 2 * e := by
  have := Complex.norm_le_abs_re_add_abs_im z
  linarith

theorem small_t : DQuat.t ≤ DQuat.u / 1000 := by
  rw [DQuat.t, DQuat.u]
  have : (2 : ℝ) ^ (-1075 : ℤ) ≤ 2 ^ (-70 : ℤ) := zpow_le_zpow_right₀ one_le_two (by norm_num)
  refine this.trans ?_
  norm_num

/-- the block of a computed product -/
theorem block_near (o : Bool) {A B : Fin 2 → Fin 2 → ℝ} (a : Fin 2 → ℝ) (hA : ∀ i j, |A i j| ≤ 41 / 40) (hB : ∀ i j, |B i j| ≤ 41 / 40) (z : ℂ) :
    ‖block (fun i j => DVec.dot3 o (A i 0) (A i 1) (a i) (B 0 j) (B 1 j) 0) z - block A (block B z)‖ ≤ 40 * DQuat.u * ‖z‖ := by
  have u0 := DQuat.u_pos
  have t0 := DQuat.t_pos
  have tu := small_t
  have c : ∀ i j, |DVec.dot3 o (A i 0) (A i 1) (a i) (B 0 j) (B 1 j) 0 - (A i 0 * B 0 j + A i 1 * B 1 j)| ≤ 7 * DQuat.u := fun i j => by
    have k := DVec.dot3_near o (A i 0) (A i 1) (a i) (B 0 j) (B 1 j) 0
    rw [mul_zero, add_zero, abs_zero, add_zero] at k
    have m : ∀ l, |A i l * B l j| ≤ 41 / 40 * (41 / 40) := fun l => by
      rw [abs_mul]; exact mul_le_mul (hA i l) (hB l j) (abs_nonneg _) (by norm_num)
    have := mul_le_mul_of_nonneg_left (show |A i 0 * B 0 j| + |A i 1 * B 1 j| ≤ 2 * (41 / 40 * (41 / 40)) by have := m 0; have := m 1; linarith) u0.le
    linarith
  have L1 := Complex.abs_re_le_norm z
  have L2 := Complex.abs_im_le_norm z
  have d : ∀ i, |(DVec.dot3 o (A i 0) (A i 1) (a i) (B 0 0) (B 1 0) 0 * z.re + DVec.dot3 o (A i 0) (A i 1) (a i) (B 0 1) (B 1 1) 0 * z.im) - (A i 0 * (B 0 0 * z.re + B 0 1 * z.im) + A i 1 * (B 1 0 * z.re + B 1 1 * z.im))| ≤
      14 * DQuat.u * ‖z‖ := fun i => by
    have e : ∀ x y : ℝ, x * z.re + y * z.im - (A i 0 * (B 0 0 * z.re + B 0 1 * z.im) + A i 1 * (B 1 0 * z.re + B 1 1 * z.im)) =
        (x - (A i 0 * B 0 0 + A i 1 * B 1 0)) * z.re + (y - (A i 0 * B 0 1 + A i 1 * B 1 1)) * z.im := fun x y => by ring
    rw [e]
    refine (abs_add_le _ _).trans ?_
    rw [abs_mul, abs_mul]
    have h1 := mul_le_mul (c i 0) L1 (abs_nonneg _) (by linarith)
    have h2 := mul_le_mul (c i 1) L2 (abs_nonneg _) (by linarith)
    linarith
  have := norm_each (z := block (fun i j => DVec.dot3 o (A i 0) (A i 1) (a i) (B 0 j) (B 1 j) 0) z - block A (block B z)) (d 0) (d 1)
  refine this.trans ?_
  have : 0 ≤ DQuat.u * ‖z‖ := by positivity
  linarith

/-- a computed row applied to a point -/
theorem act_near (o : Bool) {R : Fin 2 → Fin 2 → ℝ} (hR : ∀ i j, |R i j| ≤ 41 / 40) (t : Fin 2 → ℝ) (x y : ℝ) {w : ℝ} (hw : w = 0 ∨ w = 1) :
    ‖column (fun i => DVec.dot3 o (R i 0) (R i 1) (t i) x y w) - (block R ⟨x, y⟩ + w * column t)‖ ≤ 13 * DQuat.u * ‖(⟨x, y⟩ : ℂ)‖ + 8 * DQuat.u * (w * ‖column t‖) + 9 * DQuat.t := by
  have u0 := DQuat.u_pos
  have t0 := DQuat.t_pos
  have w0 : 0 ≤ w := by rcases hw with rfl | rfl <;> norm_num
  have L1 := Complex.abs_re_le_norm (⟨x, y⟩ : ℂ)
  have L2 := Complex.abs_im_le_norm (⟨x, y⟩ : ℂ)
  have c : ∀ i, |t i| ≤ ‖column t‖ → |DVec.dot3 o (R i 0) (R i 1) (t i) x y w - (R i 0 * x + R i 1 * y + w * t i)| ≤
      301 / 100 * DQuat.u * (41 / 20 * ‖(⟨x, y⟩ : ℂ)‖ + w * ‖column t‖) + 31 / 10 * DQuat.t := fun i hd => by
    have k := DVec.dot3_near o (R i 0) (R i 1) (t i) x y w
    rw [mul_comm (t i) w] at k
    refine k.trans (add_le_add (mul_le_mul_of_nonneg_left ?_ (by linarith)) le_rfl)
    rw [abs_mul, abs_mul, abs_mul, abs_of_nonneg w0]
    have h1 := mul_le_mul (hR i 0) L1 (abs_nonneg _) (by norm_num)
    have h2 := mul_le_mul (hR i 1) L2 (abs_nonneg _) (by norm_num)
    have h4 := mul_le_mul_of_nonneg_left hd w0
    dsimp only at h1 h2
    linarith
  have t1 := Complex.abs_re_le_norm (column t)
  have t2 := Complex.abs_im_le_norm (column t)
  have e : column (fun i => DVec.dot3 o (R i 0) (R i 1) (t i) x y w) - (block R ⟨x, y⟩ + w * column t) =
      ⟨DVec.dot3 o (R 0 0) (R 0 1) (t 0) x y w - (R 0 0 * x + R 0 1 * y + w * t 0), DVec.dot3 o (R 1 0) (R 1 1) (t 1) x y w - (R 1 0 * x + R 1 1 * y + w * t 1)⟩ := by
    apply Complex.ext <;> simp [column, block]
  rw [e]
  refine (norm_each (c 0 t1) (c 1 t2)).trans ?_
  have p1 : 0 ≤ DQuat.u * ‖(⟨x, y⟩ : ℂ)‖ := by positivity
  have p2 : 0 ≤ DQuat.u * (w * ‖column t‖) := by positivity
  linarith

/-- the transformation is near these motions -/
def Comes (T : DTrans2) (ms : List PlaneMotion) : Prop :=
  T.isDefined = true ∧ T.type ≠ .identity ∧ ∃ (R : Fin 2 → Fin 2 → ℝ) (t : Fin 2 → ℝ) (w s : ℂ), T.matrix = affine R t ∧ ((∀ i j, Representable (R i j)) ∧ ∀ i, Representable (t i)) ∧ ‖w‖ = 1 ∧
    (∀ x, PlaneMotion.points ms x = w * x + s) ∧ (∀ x, PlaneMotion.directions ms x = w * x) ∧ ‖s‖ ≤ PlaneMotion.path ms ∧
    (∀ z, ‖block R z - w * z‖ ≤ err ms.length * ‖z‖) ∧ ‖column t - s‖ ≤ err ms.length * (PlaneMotion.path ms + least)

theorem entry {R : Fin 2 → Fin 2 → ℝ} {w : ℂ} (hw : ‖w‖ = 1) {g : ℝ} (hg : g ≤ 1 / 40) (h : ∀ z, ‖block R z - w * z‖ ≤ g * ‖z‖) (i j : Fin 2) : |R i j| ≤ 41 / 40 := by
  have k : ∀ z : ℂ, ‖z‖ = 1 → |(block R z).re| ≤ 41 / 40 ∧ |(block R z).im| ≤ 41 / 40 := fun z hz => by
    have h1 := h z
    have h2 := norm_le_norm_add_norm_sub' (block R z) (w * z)
    rw [norm_mul, hw, hz] at h2
    rw [hz] at h1
    exact ⟨(Complex.abs_re_le_norm _).trans (by linarith), (Complex.abs_im_le_norm _).trans (by linarith)⟩
  obtain ⟨a1, a2⟩ := k 1 norm_one
  obtain ⟨b1, b2⟩ := k Complex.I Complex.norm_I
  simp [block] at a1 a2 b1 b2
  fin_cases i <;> fin_cases j <;> simpa

theorem one_comes {o : Bool} {sin cos : ℝ → ℝ} (hs : Accurate sin Real.sin) (hc : Accurate cos Real.cos) {T : DTrans2} {m : PlaneMotion} (h : Makes2 o sin cos T m) : Comes T [m] := by
  have u0 := DQuat.u_pos
  have t0 := DQuat.t_pos
  obtain ⟨b1, -, -⟩ := err_bounds (n := 1) le_rfl (by norm_num)
  have l0 := least_pos
  have lt := least_t
  have ty : T.type ≠ .identity := by
    cases h with
    | turn _ _ hT =>
      obtain ⟨M, -, e⟩ := ok_of_bind hT
      obtain rfl := Except.ok.inj e
      simp
    | shift _ hT =>
      obtain ⟨M, -, e⟩ := ok_of_bind hT
      obtain rfl := Except.ok.inj e
      simp
    | around _ _ _ hT =>
      obtain ⟨M, -, e⟩ := ok_of_bind hT
      obtain rfl := Except.ok.inj e
      simp [TType.compose]
  obtain ⟨d1, d2, A, B, D, E, r, ⟨X⟩, ⟨Y⟩, hr, k⟩ := Move2.rows hs hc h
  have kp : ∀ z : ℂ, m.point z = ⟨A, B⟩ * z + ⟨D, E⟩ := fun z => by
    rw [(k z).1]; apply Complex.ext <;> simp <;> ring
  have kd : ∀ z : ℂ, m.direction z = ⟨A, B⟩ * z := fun z => by
    rw [(k z).2]; apply Complex.ext <;> simp <;> ring
  have p : PlaneMotion.path [m] = m.reach := by simp [PlaneMotion.path]
  have r0 := (Move2.keeps m 0 0).2.2.2.2
  refine ⟨d1, ty, ![![X.a, X.b], ![Y.a, Y.b]], ![X.d, Y.d], ⟨A, B⟩, ⟨D, E⟩, ?_, ?_, ?_, kp, kd, ?_, fun z => ?_, ?_⟩
  · funext i
    fin_cases i
    · exact X.eq
    · exact Y.eq
    · exact d2
  · constructor
    · intro i j
      fin_cases i <;> fin_cases j
      · exact X.ra
      · exact X.rb
      · exact Y.ra
      · exact Y.rb
    · intro i
      fin_cases i
      · exact X.rd
      · exact Y.rd
  · have := (Move2.keeps m 1 1).2.2.2.1
    rwa [kd, mul_one, norm_one] at this
  · have := (Move2.keeps m 0 0).2.2.1
    rwa [kp, mul_zero, zero_add, norm_zero, zero_add, ← p] at this
  · have e : block ![![X.a, X.b], ![Y.a, Y.b]] z - ⟨A, B⟩ * z = ⟨(X.a - A) * z.re + (X.b - -B) * z.im, (Y.a - B) * z.re + (Y.b - A) * z.im⟩ := by
      apply Complex.ext <;> simp [block] <;> ring
    have L1 := Complex.abs_re_le_norm z
    have L2 := Complex.abs_im_le_norm z
    have q : ∀ {a b : ℝ}, |a| ≤ DQuat.u → |b| ≤ DQuat.u → |a * z.re + b * z.im| ≤ 2 * DQuat.u * ‖z‖ := fun {a b} ha hb => by
      refine (abs_add_le _ _).trans ?_
      rw [abs_mul, abs_mul]
      have h1 := mul_le_mul ha L1 (abs_nonneg _) u0.le
      have h2 := mul_le_mul hb L2 (abs_nonneg _) u0.le
      linarith
    rw [e]
    refine (norm_each (q X.na X.nb) (q Y.na Y.nb)).trans ?_
    have := mul_le_mul_of_nonneg_right b1 (norm_nonneg z)
    have z0 : 0 ≤ DQuat.u * ‖z‖ := by positivity
    rw [List.length_singleton]
    linarith
  · have e : column ![X.d, Y.d] - ⟨D, E⟩ = ⟨X.d - D, Y.d - E⟩ := rfl
    rw [e]
    refine (norm_each X.nd Y.nd).trans ?_
    rw [p, List.length_singleton]
    have h1 := mul_le_mul_of_nonneg_right b1 (show 0 ≤ m.reach + least by linarith)
    have h2 := mul_le_mul_of_nonneg_left hr u0.le
    have h3 := mul_nonneg u0.le r0
    refine le_trans ?_ h1
    linarith

theorem path_append (ms ns : List PlaneMotion) : PlaneMotion.path (ns ++ ms) = PlaneMotion.path ns + PlaneMotion.path ms := by simp [PlaneMotion.path]

theorem column_at {t : Fin 2 → ℝ} {k : ℝ} (h : ‖column t‖ ≤ k) (i : Fin 2) : |t i| ≤ k := by
  fin_cases i
  · exact (Complex.abs_re_le_norm (column t)).trans h
  · exact (Complex.abs_im_le_norm (column t)).trans h

/-- the column of a transformation near motions -/
theorem column_le {t s : ℂ} {S g : ℝ} (hs : ‖s‖ ≤ S) (hg : g ≤ 1 / 40) (h : ‖t - s‖ ≤ g * (S + least)) : ‖t‖ ≤ S + g * (S + least) ∧ ‖t‖ ≤ 2 * S + least := by
  have h1 := norm_le_norm_add_norm_sub' t s
  have l0 := least_pos
  have S0 := (norm_nonneg s).trans hs
  have := mul_le_mul_of_nonneg_right hg (show 0 ≤ S + least by linarith)
  constructor <;> linarith

theorem column_500 {t : ℂ} {S : ℝ} (hS : S ≤ 2 ^ 490) (h : ‖t‖ ≤ 2 * S + least) : ‖t‖ ≤ 2 ^ 500 := by
  have l := least_small
  have e : (2 : ℝ) ^ 500 = 1024 * 2 ^ 490 := by rw [show (500 : ℕ) = 10 + 490 by norm_num, pow_add]; norm_num
  have p : (1 : ℝ) ≤ 2 ^ 490 := one_le_pow₀ one_le_two
  rw [e]
  clear e
  generalize (2 : ℝ) ^ 490 = B at *
  linarith

theorem path_nonneg {T : DTrans2} {ms : List PlaneMotion} (h : Comes T ms) : 0 ≤ PlaneMotion.path ms := by
  obtain ⟨-, -, R, t, w, s, -, -, -, -, -, h, -⟩ := h
  exact (norm_nonneg s).trans h

/-- the product of two transformations near motions is near their sequence -/
theorem mul_comes (o : Bool) {A B : DTrans2} {ms ns : List PlaneMotion} (hA : Comes A ms) (hB : Comes B ns) (hm : 1 ≤ ms.length) (hn : 1 ≤ ns.length) (h : (ns ++ ms).length ≤ 2 ^ 40)
    (hp : PlaneMotion.path (ns ++ ms) ≤ 2 ^ 490) : ∃ T, DTrans2.mul o A B = .ok T ∧ Comes T (ns ++ ms) := by
  have pA := path_nonneg hA
  have pB := path_nonneg hB
  rw [path_append] at hp
  obtain ⟨a1, a2, R, t, w, s, a4, a0, a5, a6, a7, a8, a9, a10⟩ := hA
  obtain ⟨b1, b2, R', t', w', s', b4, b0, b5, b6, b7, b8, b9, b10⟩ := hB
  rw [List.length_append] at h
  obtain ⟨e1, e2, -⟩ := err_bounds hm (by omega)
  obtain ⟨f1, f2, -⟩ := err_bounds hn (by omega)
  have g := grow hm hn h
  have u0 := DQuat.u_pos
  have u1 := DQuat.u_small
  have l0 := least_pos
  have lt := least_t
  have k := entry a5 e2 a9
  have k' := entry b5 f2 b9
  obtain ⟨c1, c2⟩ := column_le a8 e2 a10
  obtain ⟨d1, d2⟩ := column_le b8 f2 b10
  have hm' := mul_affine o (fun i j => entry_500 (k i j)) (fun i j => entry_500 (k' i j)) (column_at (column_500 ((le_add_of_nonneg_left pB).trans hp) c2)) (column_at (column_500 ((le_add_of_nonneg_right pA).trans hp) d2))
  clear hp
  refine ⟨⟨A.type.compose B.type, DT2.mul o A.matrix B.matrix⟩, by simp [DTrans2.mul, a1, b1], ?_, ?_, _, _, w * w', w * s' + s, by rw [a4, b4]; exact hm', ⟨fun i j => Move2.dot3_rep _ _ _ _ _ _ _, fun i => Move2.dot3_rep _ _ _ _ _ _ _⟩, ?_, fun x => ?_, fun x => ?_, ?_, fun v => ?_, ?_⟩
  · exact decide_eq_true (compose_type (of_decide_eq_true a1) a2 (of_decide_eq_true b1) b2).1
  · exact (compose_type (of_decide_eq_true a1) a2 (of_decide_eq_true b1) b2).2
  · rw [norm_mul, a5, b5, one_mul]
  · rw [show PlaneMotion.points (ns ++ ms) x = PlaneMotion.points ms (PlaneMotion.points ns x) by simp [PlaneMotion.points, List.foldl_append], a6, b6]
    ring
  · rw [show PlaneMotion.directions (ns ++ ms) x = PlaneMotion.directions ms (PlaneMotion.directions ns x) by simp [PlaneMotion.directions, List.foldl_append], a7, b7]
    ring
  · rw [path_append]
    refine (norm_add_le _ _).trans ?_
    rw [norm_mul, a5, one_mul]
    exact add_le_add b8 a8
  · have h1 := block_near o t k k' v
    have h2 := a9 (block R' v)
    have h3 := b9 v
    have h4 : ‖w * block R' v - w * w' * v‖ = ‖block R' v - w' * v‖ := by rw [mul_assoc, ← mul_sub, norm_mul, a5, one_mul]
    have h6 := norm_le_norm_add_norm_sub' (block R' v) (w' * v)
    rw [norm_mul, b5, one_mul] at h6
    have h7 := norm_sub_le_norm_sub_add_norm_sub (block (fun i j => DVec.dot3 o (R i 0) (R i 1) (t i) (R' 0 j) (R' 1 j) 0) v) (block R (block R' v)) (w * w' * v)
    have h8 := norm_sub_le_norm_sub_add_norm_sub (block R (block R' v)) (w * block R' v) (w * w' * v)
    have h9 : err ms.length * ‖block R' v‖ ≤ err ms.length * ((1 + err ns.length) * ‖v‖) := mul_le_mul_of_nonneg_left (by linarith) (by linarith)
    have h10 := mul_le_mul_of_nonneg_right g (norm_nonneg v)
    have h11 : 0 ≤ DQuat.u * ‖v‖ := by positivity
    rw [List.length_append]
    refine le_trans ?_ h10
    linarith
  · have h1 := act_near o k t (t' 0) (t' 1) (w := 1) (Or.inr rfl)
    rw [Complex.ofReal_one, one_mul, one_mul, show (⟨t' 0, t' 1⟩ : ℂ) = column t' from rfl] at h1
    have h2 := a9 (column t')
    have h4 : ‖w * column t' - w * s'‖ = ‖column t' - s'‖ := by rw [← mul_sub, norm_mul, a5, one_mul]
    rw [List.length_append, path_append]
    have h10 := mul_le_mul_of_nonneg_right g (show 0 ≤ PlaneMotion.path ns + PlaneMotion.path ms + least by linarith)
    refine le_trans ?_ h10
    generalize column (fun i => DVec.dot3 o (R i 0) (R i 1) (t i) (t' 0) (t' 1) 1) = y at *
    have e : y - (w * s' + s) = (y - (block R (column t') + column t)) + (block R (column t') - w * column t') + (w * column t' - w * s') + (column t - s) := by abel
    rw [e]
    have n1 := norm_add_le ((y - (block R (column t') + column t)) + (block R (column t') - w * column t') + (w * column t' - w * s')) (column t - s)
    have n2 := norm_add_le ((y - (block R (column t') + column t)) + (block R (column t') - w * column t')) (w * column t' - w * s')
    have n3 := norm_add_le (y - (block R (column t') + column t)) (block R (column t') - w * column t')
    have m1 : err ms.length * ‖column t'‖ ≤ err ms.length * (PlaneMotion.path ns + err ns.length * (PlaneMotion.path ns + least)) := mul_le_mul_of_nonneg_left d1 (by linarith)
    have m2 : DQuat.u * ‖column t'‖ ≤ DQuat.u * (2 * PlaneMotion.path ns + least) := mul_le_mul_of_nonneg_left d2 u0.le
    have m3 : DQuat.u * ‖column t‖ ≤ DQuat.u * (2 * PlaneMotion.path ms + least) := mul_le_mul_of_nonneg_left c2 u0.le
    have m4 : 0 ≤ err ms.length * err ns.length * PlaneMotion.path ms := by
      have : 0 ≤ err ms.length := by linarith
      have : 0 ≤ err ns.length := by linarith
      positivity
    have m5 : 0 ≤ err ns.length * PlaneMotion.path ms := mul_nonneg (by linarith) pA
    have m6 : 0 ≤ DQuat.u * PlaneMotion.path ms := by positivity
    have m7 : 0 ≤ DQuat.u * PlaneMotion.path ns := by positivity
    have m8 : 0 < DQuat.t := DQuat.t_pos
    rw [mul_add, ← mul_assoc (DQuat.u) 2] at m2 m3
    linarith

/-- a row of such a matrix -/
theorem apply_row (o : Bool) {a b d x y w : ℝ} (ha : |a| ≤ 2 ^ 500) (hb : |b| ≤ 2 ^ 500) (hd : |d| ≤ 2 ^ 500) (hx : |x| ≤ 2 ^ 490) (hy : |y| ≤ 2 ^ 490) (hw : |w| ≤ 1) {m : Fin 3 → Fin 3 → F64 ℝ} {i : Fin 3}
    (hm : m i = ![.fin a, .fin b, .fin d]) : DT2.row o m i (doubles2 ⟨x, y⟩) (.fin w) = .fin (DVec.dot3 o a b d x y w) := by
  have P : ∀ {x : ℝ}, |x| ≤ 2 ^ 490 → |x| ≤ 2 ^ 500 := fun {x} h => h.trans (pow_le_pow_right₀ one_le_two (by norm_num))
  rw [DT2.row, hm]
  exact (DVec.dot_fin o ha hb hd (P hx) (P hy) (hw.trans (one_le_pow₀ one_le_two))).1

/-- what a matrix near a motion does -/
theorem acts (o : Bool) {M : Fin 3 → Fin 3 → F64 ℝ} {R : Fin 2 → Fin 2 → ℝ} {t : Fin 2 → ℝ} {w s : ℂ} {g S : ℝ} (hM0 : M 0 = ![.fin (R 0 0), .fin (R 0 1), .fin (t 0)])
    (hM1 : M 1 = ![.fin (R 1 0), .fin (R 1 1), .fin (t 1)]) (ht : ∀ i, Representable (t i)) (hw : ‖w‖ = 1) (hs : ‖s‖ ≤ S) (hS : S ≤ 2 ^ 490) (g0 : 0 ≤ g) (hg : g ≤ 1 / 40)
    (hR : ∀ z, ‖block R z - w * z‖ ≤ g * ‖z‖) (hc : ‖column t - s‖ ≤ g * (S + least)) {x : V2} (hx : Sized2 490 x) :
    (∃ b, DT2.applyTo o M (doubles2 x) = .ok (doubles2 b) ∧ (Representable b.x ∧ Representable b.y) ∧ ‖asComplex b - (w * asComplex x + s)‖ ≤ (g + 16 * DQuat.u) * (‖asComplex x‖ + S + least)) ∧
    (∃ b, DTrans2.boostPoint M (doubles2 x) = doubles2 b ∧ (Representable b.x ∧ Representable b.y) ∧ ‖asComplex b - (w * asComplex x + s)‖ ≤ (g + 16 * DQuat.u) * (‖asComplex x‖ + S + least)) ∧
      ∃ b, DT2.applyToVector o M (doubles2 x) = doubles2 b ∧ (Representable b.x ∧ Representable b.y) ∧ ‖asComplex b - w * asComplex x‖ ≤ (g + 16 * DQuat.u) * (‖asComplex x‖ + least) := by
  have pA : 0 ≤ S := (norm_nonneg s).trans hs
  have u0 := DQuat.u_pos
  have t0 := DQuat.t_pos
  have l0 := least_pos
  have lt := least_t
  have k := entry hw hg hR
  obtain ⟨c1, c2⟩ := column_le hs hg hc
  have k5 := fun i j => entry_500 (k i j)
  have c5 := column_at (column_500 hS c2)
  clear hS
  have r0 : ∀ o (v : ℝ), |v| ≤ 1 → DT2.row o M 0 (doubles2 x) (.fin v) = .fin (DVec.dot3 o (R 0 0) (R 0 1) (t 0) x.x x.y v) := fun o v hv =>
    apply_row o (k5 0 0) (k5 0 1) (c5 0) hx.x.2 hx.y.2 hv hM0
  have r1 : ∀ o (v : ℝ), |v| ≤ 1 → DT2.row o M 1 (doubles2 x) (.fin v) = .fin (DVec.dot3 o (R 1 0) (R 1 1) (t 1) x.x x.y v) := fun o v hv =>
    apply_row o (k5 1 0) (k5 1 1) (c5 1) hx.x.2 hx.y.2 hv hM1
  have x0 := norm_nonneg (asComplex x)
  have P : ∀ o, ‖asComplex ⟨DVec.dot3 o (R 0 0) (R 0 1) (t 0) x.x x.y 1, DVec.dot3 o (R 1 0) (R 1 1) (t 1) x.x x.y 1⟩ - (w * asComplex x + s)‖ ≤ (g + 16 * DQuat.u) * (‖asComplex x‖ + S + least) := fun o => by
    have h1 := act_near o k t x.x x.y (w := 1) (Or.inr rfl)
    rw [Complex.ofReal_one, one_mul, one_mul, show (⟨x.x, x.y⟩ : ℂ) = asComplex x from rfl] at h1
    have h2 := hR (asComplex x)
    rw [show asComplex ⟨DVec.dot3 o (R 0 0) (R 0 1) (t 0) x.x x.y 1, DVec.dot3 o (R 1 0) (R 1 1) (t 1) x.x x.y 1⟩ = column (fun i => DVec.dot3 o (R i 0) (R i 1) (t i) x.x x.y 1) from rfl]
    generalize column (fun i => DVec.dot3 o (R i 0) (R i 1) (t i) x.x x.y 1) = y at *
    have e : y - (w * asComplex x + s) = (y - (block R (asComplex x) + column t)) + (block R (asComplex x) - w * asComplex x) + (column t - s) := by abel
    rw [e]
    have n1 := norm_add_le ((y - (block R (asComplex x) + column t)) + (block R (asComplex x) - w * asComplex x)) (column t - s)
    have n2 := norm_add_le (y - (block R (asComplex x) + column t)) (block R (asComplex x) - w * asComplex x)
    have c3 : ‖column t‖ ≤ 41 / 40 * (S + least) := by
      have := mul_le_mul_of_nonneg_right hg (show 0 ≤ S + least by linarith)
      linarith
    have m3 := mul_le_mul_of_nonneg_left c3 u0.le
    have m6 : 0 ≤ DQuat.u * S := by positivity
    have m7 : 0 ≤ DQuat.u * ‖asComplex x‖ := by positivity
    linarith
  have Q : ∀ o v, Representable (DVec.dot3 o (R 0 0) (R 0 1) (t 0) x.x x.y v) ∧ Representable (DVec.dot3 o (R 1 0) (R 1 1) (t 1) x.x x.y v) := fun o v => ⟨Move2.dot3_rep _ _ _ _ _ _ _, Move2.dot3_rep _ _ _ _ _ _ _⟩
  refine ⟨⟨_, ?_, Q o 1, P o⟩, ⟨_, ?_, Q false 1, P false⟩, ⟨DVec.dot3 o (R 0 0) (R 0 1) (t 0) x.x x.y 0, DVec.dot3 o (R 1 0) (R 1 1) (t 1) x.x x.y 0⟩, ?_, Q o 0, ?_⟩
  · rw [DT2.applyTo, if_neg (by simp [doubles2]), r0 o 1 (by norm_num), r1 o 1 (by norm_num)]; rfl
  · have f0 := r0 false 1 (by norm_num)
    have f1 := r1 false 1 (by norm_num)
    have big : ∀ i, |t i| < 2 ^ 1024 := fun i => (c5 i).trans_lt (pow_lt_pow_right₀ one_lt_two (by norm_num))
    rw [DT2.row, DVec.sum, if_neg (by simp)] at f0 f1
    rw [hM0] at f0
    rw [hM1] at f1
    simp only [Matrix.cons_val_zero, Matrix.cons_val_one, Matrix.cons_val, DT3.mul_one_fin (ht _) (big _)] at f0 f1
    rw [DTrans2.boostPoint, hM0, hM1]
    simp only [Matrix.cons_val_zero, Matrix.cons_val_one, Matrix.cons_val]
    rw [f0, f1]; rfl
  · rw [DT2.applyToVector, r0 o 0 (by norm_num), r1 o 0 (by norm_num)]; rfl
  · have h1 := act_near o k t x.x x.y (w := 0) (Or.inl rfl)
    rw [Complex.ofReal_zero, zero_mul, zero_mul, add_zero, mul_zero, add_zero, show (⟨x.x, x.y⟩ : ℂ) = asComplex x from rfl] at h1
    have h2 := hR (asComplex x)
    refine (norm_sub_le_norm_sub_add_norm_sub _ (block R (asComplex x)) _).trans ?_
    have m7 : 0 ≤ DQuat.u * ‖asComplex x‖ := by positivity
    have m8 : 0 ≤ g * least := mul_nonneg g0 l0.le
    rw [show asComplex ⟨DVec.dot3 o (R 0 0) (R 0 1) (t 0) x.x x.y 0, DVec.dot3 o (R 1 0) (R 1 1) (t 1) x.x x.y 0⟩ = column (fun i => DVec.dot3 o (R i 0) (R i 1) (t i) x.x x.y 0) from rfl]
    linarith

/-- what a transformation near motions does -/
theorem comes_acts (o : Bool) {T : DTrans2} {ms : List PlaneMotion} (h : Comes T ms) (hm : 1 ≤ ms.length) (hm' : ms.length ≤ 2 ^ 40) (hp : PlaneMotion.path ms ≤ 2 ^ 490) {x : V2} (hx : Sized2 490 x) :
    (∃ b, DT2.applyTo o T.matrix (doubles2 x) = .ok (doubles2 b) ∧ (Representable b.x ∧ Representable b.y) ∧ ‖asComplex b - PlaneMotion.points ms (asComplex x)‖ ≤ ms.length * 2 ^ (-45 : ℤ) * (‖asComplex x‖ + PlaneMotion.path ms + 2 ^ (-1020 : ℤ))) ∧
    (∃ b, DTrans2.boostPoint T.matrix (doubles2 x) = doubles2 b ∧ ‖asComplex b - PlaneMotion.points ms (asComplex x)‖ ≤ ms.length * 2 ^ (-45 : ℤ) * (‖asComplex x‖ + PlaneMotion.path ms + 2 ^ (-1020 : ℤ))) ∧
      ∃ b, DT2.applyToVector o T.matrix (doubles2 x) = doubles2 b ∧ ‖asComplex b - PlaneMotion.directions ms (asComplex x)‖ ≤ ms.length * 2 ^ (-45 : ℤ) * (‖asComplex x‖ + 2 ^ (-1020 : ℤ)) := by
  have pA := path_nonneg h
  obtain ⟨a1, a2, R, t, w, s, a4, a0, a5, a6, a7, a8, a9, a10⟩ := h
  obtain ⟨e1, e2, e3⟩ := err_bounds hm hm'
  have u0 := DQuat.u_pos
  have l0 := least_pos
  have x0 := norm_nonneg (asComplex x)
  obtain ⟨⟨b, h1, h1', h2⟩, ⟨c, h3, -, h4⟩, d, h5, -, h6⟩ := acts o (M := T.matrix) (by rw [a4]; rfl) (by rw [a4]; rfl) a0.2 a5 a8 hp (by linarith) e2 a9 a10 hx
  rw [show (2 : ℝ) ^ (-1020 : ℤ) = least from rfl]
  simp only [a6, a7]
  clear hp
  have f1 := mul_le_mul_of_nonneg_right e3 (show 0 ≤ ‖asComplex x‖ + PlaneMotion.path ms + least by linarith)
  have f2 := mul_le_mul_of_nonneg_right e3 (show 0 ≤ ‖asComplex x‖ + least by linarith)
  exact ⟨⟨b, h1, h1', h2.trans f1⟩, ⟨c, h3, h4.trans f1⟩, d, h5, h6.trans f2⟩

theorem composed_comes {o : Bool} {sin cos : ℝ → ℝ} (hs : Accurate sin Real.sin) (hc : Accurate cos Real.cos) {T : DTrans2} {ms : List PlaneMotion} (h : Composed2 o sin cos T ms) :
    0 ≤ PlaneMotion.path ms ∧ 1 ≤ ms.length ∧ (ms.length ≤ 2 ^ 40 → PlaneMotion.path ms ≤ 2 ^ 490 → Comes T ms) := by
  induction h with
  | one h => exact ⟨path_nonneg (one_comes hs hc h), le_rfl, fun _ _ => one_comes hs hc h⟩
  | mul hA hB h ihA ihB =>
    obtain ⟨a1, a2, a3⟩ := ihA
    obtain ⟨b1, b2, b3⟩ := ihB
    rw [path_append, List.length_append]
    refine ⟨add_nonneg b1 a1, by omega, fun n p => ?_⟩
    obtain ⟨T, e, hT⟩ := mul_comes o (a3 (by omega) ((le_add_of_nonneg_left b1).trans p)) (b3 (by omega) ((le_add_of_nonneg_right a1).trans p)) a2 b2 (by rwa [List.length_append]) (by rwa [path_append])
    rw [h] at e
    exact Except.ok.inj e ▸ hT

/-- a rotation about the origin -/
def isTurn : PlaneMotion → Bool
  | .turn _ => true
  | _ => false

/-- a translation -/
def isShift : PlaneMotion → Bool
  | .shift _ => true
  | _ => false

end Product2

end Verif.Props
