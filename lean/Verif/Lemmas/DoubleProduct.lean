import Verif.Lemmas.DoubleMove
import Verif.Model.DoubleProduct

/-!
# Lemmas for C145: products of transformations in double precision
-/

namespace Verif.Props

open Verif Verif.Spec Verif.Double

/-- the transformation is a product, bracketed in some way, of transformations made from rotation vectors and translation vectors; it stands for these motions, the first of which is that of the rightmost
factor -/
inductive Composed (o : Bool) (sin cos : ℝ → ℝ) : DTrans → List Motion → Prop where
  | one {T : DTrans} {m : Motion} (h : Makes o sin cos T m) : Composed o sin cos T [m]
  | mul (q : Order4) {A B T : DTrans} {ms ns : List Motion} (hA : Composed o sin cos A ms) (hB : Composed o sin cos B ns) (h : DTrans.mul q A B = .ok T) : Composed o sin cos T (ns ++ ms)

namespace Product

/-- the matrix of size four with this block and this column -/
noncomputable def affine (R : Fin 3 → Fin 3 → ℝ) (t : V3) : Fin 4 → Fin 4 → F64 ℝ :=
  ![![.fin (R 0 0), .fin (R 0 1), .fin (R 0 2), .fin t.x], ![.fin (R 1 0), .fin (R 1 1), .fin (R 1 2), .fin t.y], ![.fin (R 2 0), .fin (R 2 1), .fin (R 2 2), .fin t.z], ![.fin 0, .fin 0, .fin 0, .fin 1]]

/-- a coordinate by its number -/
def at3 (t : V3) : Fin 3 → ℝ := ![t.x, t.y, t.z]

theorem zero_500 : |(0 : ℝ)| ≤ 2 ^ 500 := by rw [abs_zero]; positivity

theorem one_500 : |(1 : ℝ)| ≤ 2 ^ 500 := by rw [abs_one]; exact one_le_pow₀ one_le_two

theorem mul_affine (q : Order4) {A B : Fin 3 → Fin 3 → ℝ} {a b : V3} (hA : ∀ i j, |A i j| ≤ 2 ^ 500) (hB : ∀ i j, |B i j| ≤ 2 ^ 500) (ha : ∀ i, |at3 a i| ≤ 2 ^ 500) (hb : ∀ i, |at3 b i| ≤ 2 ^ 500) :
    DT3.mul q (affine A a) (affine B b) = affine (fun i j => DT3.dot4 q (A i 0) (A i 1) (A i 2) (at3 a i) (B 0 j) (B 1 j) (B 2 j) 0)
      ⟨DT3.dot4 q (A 0 0) (A 0 1) (A 0 2) a.x b.x b.y b.z 1, DT3.dot4 q (A 1 0) (A 1 1) (A 1 2) a.y b.x b.y b.z 1, DT3.dot4 q (A 2 0) (A 2 1) (A 2 2) a.z b.x b.y b.z 1⟩ := by
  have r1 : (1 : ℝ) < 2 ^ 1024 := one_lt_pow₀ one_lt_two (by norm_num)
  have k := fun i j => DT3.dot_fin q (hA i 0) (hA i 1) (hA i 2) (ha i) (hB 0 j) (hB 1 j) (hB 2 j) zero_500
  have k' := fun i => DT3.dot_fin q (hA i 0) (hA i 1) (hA i 2) (ha i) (hb 0) (hb 1) (hb 2) one_500
  have s := (Around.sum_one q rep_one (by rw [abs_one]; exact r1)).2.2.2
  have s0 := (Around.sum_one q representable_zero (by rw [abs_zero]; positivity)).2.2.2
  funext i j
  fin_cases i <;> fin_cases j
  · exact k 0 0
  · exact k 0 1
  · exact k 0 2
  · exact k' 0
  · exact k 1 0
  · exact k 1 1
  · exact k 1 2
  · exact k' 1
  · exact k 2 0
  · exact k 2 1
  · exact k 2 2
  · exact k' 2
  · simp [DT3.mul, affine, DT3.zero_mul_fin, DT3.mul_zero_fin, s0]
  · simp [DT3.mul, affine, DT3.zero_mul_fin, DT3.mul_zero_fin, s0]
  · simp [DT3.mul, affine, DT3.zero_mul_fin, DT3.mul_zero_fin, s0]
  · simp [DT3.mul, affine, DT3.zero_mul_fin, s, DT3.one_mul_fin rep_one (show |(1 : ℝ)| < 2 ^ 1024 by rw [abs_one]; exact r1)]

/-- the error of a product of `n` factors -/
noncomputable def err (n : ℕ) : ℝ := n * (192 * DQuat.u) - 64 * DQuat.u + (n * (192 * DQuat.u)) ^ 2

/-- what is added to lengths for the sake of numbers too small -/
noncomputable def least : ℝ := 2 ^ (-1020 : ℤ)

theorem least_pos : 0 < least := two_zpow_pos _

theorem least_t : DQuat.u * least = 4 * DQuat.t := by
  rw [DQuat.u, least, DQuat.t, show (-1020 : ℤ) = 55 + -1075 by norm_num, zpow_add₀ two_ne_zero]
  generalize (2 : ℝ) ^ (-1075 : ℤ) = r
  rw [← mul_assoc]
  norm_num

theorem share {n : ℕ} (h : n ≤ 2 ^ 40) : (n : ℝ) * (192 * DQuat.u) ≤ 3 / 128 := by
  have : (n : ℝ) ≤ 2 ^ 40 := by exact_mod_cast h
  have := mul_le_mul_of_nonneg_right this (show 0 ≤ 192 * DQuat.u by have := DQuat.u_pos; linarith)
  refine this.trans ?_
  rw [DQuat.u]; norm_num

theorem err_bounds {n : ℕ} (h0 : 1 ≤ n) (h : n ≤ 2 ^ 40) : 128 * DQuat.u ≤ err n ∧ err n ≤ 1 / 40 ∧ err n + 16 * DQuat.u ≤ n * 2 ^ (-45 : ℤ) := by
  have u0 := DQuat.u_pos
  have s := share h
  have n1 : (1 : ℝ) ≤ n := by exact_mod_cast h0
  have p : 192 * DQuat.u ≤ n * (192 * DQuat.u) := le_mul_of_one_le_left (by linarith) n1
  have q := mul_le_mul_of_nonneg_right s (show 0 ≤ (n : ℝ) * (192 * DQuat.u) by linarith)
  rw [err, e45.1]
  refine ⟨?_, ?_, ?_⟩ <;> nlinarith

theorem grow {m n : ℕ} (hm : 1 ≤ m) (hn : 1 ≤ n) (h : n + m ≤ 2 ^ 40) : err m + err n + err m * err n + 64 * DQuat.u ≤ err (n + m) := by
  have u0 := DQuat.u_pos
  have u1 := DQuat.u_small
  obtain ⟨a1, a2, -⟩ := err_bounds hm (by omega)
  obtain ⟨b1, b2, -⟩ := err_bounds hn (by omega)
  have s := share h
  have e1 : err m ≤ m * (192 * DQuat.u) * (1 + 3 / 128) := by
    have s := share (show m ≤ 2 ^ 40 by omega)
    have p : 0 ≤ (m : ℝ) * (192 * DQuat.u) := by positivity
    have := mul_le_mul_of_nonneg_right s p
    rw [err]; nlinarith
  have e2 : err n ≤ n * (192 * DQuat.u) * (1 + 3 / 128) := by
    have s := share (show n ≤ 2 ^ 40 by omega)
    have p : 0 ≤ (n : ℝ) * (192 * DQuat.u) := by positivity
    have := mul_le_mul_of_nonneg_right s p
    rw [err]; nlinarith
  have e3 : err m * err n ≤ 2 * (m * (192 * DQuat.u)) * (n * (192 * DQuat.u)) := by
    have p : 0 ≤ (m : ℝ) * (192 * DQuat.u) := by positivity
    have p' : 0 ≤ (n : ℝ) * (192 * DQuat.u) := by positivity
    refine (mul_le_mul e1 e2 (by linarith) (by positivity)).trans ?_
    nlinarith [mul_nonneg p p']
  clear e1 e2
  rw [show err (n + m) = ((n : ℝ) + m) * (192 * DQuat.u) - 64 * DQuat.u + (((n : ℝ) + m) * (192 * DQuat.u)) ^ 2 by rw [err]; push_cast; ring]
  have e4 : err m = m * (192 * DQuat.u) - 64 * DQuat.u + (m * (192 * DQuat.u)) ^ 2 := rfl
  have e5 : err n = n * (192 * DQuat.u) - 64 * DQuat.u + (n * (192 * DQuat.u)) ^ 2 := rfl
  nlinarith

/-- the block of a computed product -/
theorem block_near (q : Order4) {A B : Fin 3 → Fin 3 → ℝ} (a : V3) (hA : ∀ i j, |A i j| ≤ 41 / 40) (hB : ∀ i j, |B i j| ≤ 41 / 40) (v : V3) :
    ‖pure (turn (fun i j => DT3.dot4 q (A i 0) (A i 1) (A i 2) (at3 a i) (B 0 j) (B 1 j) (B 2 j) 0) v) - pure (turn A (turn B v))‖ ≤ 40 * DQuat.u * ‖pure v‖ := by
  have u0 := DQuat.u_pos
  have t0 := DQuat.t_pos
  have tu : DQuat.t ≤ DQuat.u / 1000 := by
    rw [DQuat.t, DQuat.u]
    have : (2 : ℝ) ^ (-1075 : ℤ) ≤ 2 ^ (-70 : ℤ) := zpow_le_zpow_right₀ one_le_two (by norm_num)
    refine this.trans ?_
    norm_num
  have c : ∀ i j, |DT3.dot4 q (A i 0) (A i 1) (A i 2) (at3 a i) (B 0 j) (B 1 j) (B 2 j) 0 - (A i 0 * B 0 j + A i 1 * B 1 j + A i 2 * B 2 j)| ≤ 13 * DQuat.u := fun i j => by
    have k := DT3.dot4_near q (A i 0) (A i 1) (A i 2) (at3 a i) (B 0 j) (B 1 j) (B 2 j) 0
    rw [mul_zero, add_zero, abs_zero, add_zero] at k
    have m : ∀ l, |A i l * B l j| ≤ 41 / 40 * (41 / 40) := fun l => by
      rw [abs_mul]; exact mul_le_mul (hA i l) (hB l j) (abs_nonneg _) (by norm_num)
    have := mul_le_mul_of_nonneg_left (show |A i 0 * B 0 j| + |A i 1 * B 1 j| + |A i 2 * B 2 j| ≤ 3 * (41 / 40 * (41 / 40)) by have := m 0; have := m 1; have := m 2; linarith) (show 0 ≤ 41 / 10 * DQuat.u by linarith)
    linarith
  have L := Around.abs_sum_le v
  rw [pure_sub]
  have d : ∀ i, |(fun j => DT3.dot4 q (A i 0) (A i 1) (A i 2) (at3 a i) (B 0 j) (B 1 j) (B 2 j) 0) 0 * v.x + (fun j => DT3.dot4 q (A i 0) (A i 1) (A i 2) (at3 a i) (B 0 j) (B 1 j) (B 2 j) 0) 1 * v.y +
      (fun j => DT3.dot4 q (A i 0) (A i 1) (A i 2) (at3 a i) (B 0 j) (B 1 j) (B 2 j) 0) 2 * v.z - (A i 0 * (turn B v).x + A i 1 * (turn B v).y + A i 2 * (turn B v).z)| ≤ 13 * DQuat.u * (1733 / 1000 * ‖pure v‖) := fun i => by
    have e : ∀ x y z : ℝ, x * v.x + y * v.y + z * v.z - (A i 0 * (turn B v).x + A i 1 * (turn B v).y + A i 2 * (turn B v).z) = (x - (A i 0 * B 0 0 + A i 1 * B 1 0 + A i 2 * B 2 0)) * v.x +
        (y - (A i 0 * B 0 1 + A i 1 * B 1 1 + A i 2 * B 2 1)) * v.y + (z - (A i 0 * B 0 2 + A i 1 * B 1 2 + A i 2 * B 2 2)) * v.z := fun x y z => by simp only [turn]; ring
    rw [e]
    refine (abs_add_three _ _ _).trans ?_
    rw [abs_mul, abs_mul, abs_mul]
    have h1 := mul_le_mul_of_nonneg_right (c i 0) (abs_nonneg v.x)
    have h2 := mul_le_mul_of_nonneg_right (c i 1) (abs_nonneg v.y)
    have h3 := mul_le_mul_of_nonneg_right (c i 2) (abs_nonneg v.z)
    have := mul_le_mul_of_nonneg_left L (show 0 ≤ 13 * DQuat.u by linarith)
    dsimp only
    linarith
  have := Around.pure_each (v := turn (fun i j => DT3.dot4 q (A i 0) (A i 1) (A i 2) (at3 a i) (B 0 j) (B 1 j) (B 2 j) 0) v - turn A (turn B v)) (d 0) (d 1) (d 2)
  refine this.trans ?_
  have : 0 ≤ DQuat.u * ‖pure v‖ := by positivity
  linarith

/-- a computed row applied to a point -/
theorem act_near (q : Order4) {R : Fin 3 → Fin 3 → ℝ} (hR : ∀ i j, |R i j| ≤ 41 / 40) (t x : V3) {w : ℝ} (hw : w = 0 ∨ w = 1) :
    ‖pure ⟨DT3.dot4 q (R 0 0) (R 0 1) (R 0 2) t.x x.x x.y x.z w, DT3.dot4 q (R 1 0) (R 1 1) (R 1 2) t.y x.x x.y x.z w, DT3.dot4 q (R 2 0) (R 2 1) (R 2 2) t.z x.x x.y x.z w⟩ -
      (pure (turn R x) + w • pure t)‖ ≤ 13 * DQuat.u * ‖pure x‖ + 8 * DQuat.u * (w * ‖pure t‖) + 9 * DQuat.t := by
  have u0 := DQuat.u_pos
  have t0 := DQuat.t_pos
  have w0 : 0 ≤ w := by rcases hw with rfl | rfl <;> norm_num
  have L := Around.abs_sum_le x
  have c : ∀ a b c d : ℝ, |a| ≤ 41 / 40 → |b| ≤ 41 / 40 → |c| ≤ 41 / 40 → |d| ≤ ‖pure t‖ → |DT3.dot4 q a b c d x.x x.y x.z w - (a * x.x + b * x.y + c * x.z + d * w)| ≤
      41 / 10 * DQuat.u * (41 / 40 * (1733 / 1000 * ‖pure x‖) + w * ‖pure t‖) + 5 * DQuat.t := fun a b c d ha hb hc hd => by
    refine (DT3.dot4_near q a b c d x.x x.y x.z w).trans (add_le_add (mul_le_mul_of_nonneg_left ?_ (by linarith)) le_rfl)
    rw [abs_mul, abs_mul, abs_mul, abs_mul, abs_of_nonneg w0]
    have h1 := mul_le_mul_of_nonneg_right ha (abs_nonneg x.x)
    have h2 := mul_le_mul_of_nonneg_right hb (abs_nonneg x.y)
    have h3 := mul_le_mul_of_nonneg_right hc (abs_nonneg x.z)
    have h4 := mul_le_mul_of_nonneg_right hd w0
    linarith
  have e : pure (turn R x) + w • pure t = pure ⟨R 0 0 * x.x + R 0 1 * x.y + R 0 2 * x.z + t.x * w, R 1 0 * x.x + R 1 1 * x.y + R 1 2 * x.z + t.y * w, R 2 0 * x.x + R 2 1 * x.y + R 2 2 * x.z + t.z * w⟩ := by
    rcases hw with rfl | rfl
    · rw [zero_smul, add_zero]; simp [turn]
    · rw [one_smul, ← pure_plus]; simp [turn]; rfl
  obtain ⟨t1, t2, t3⟩ := within_length t
  rw [← pure_length] at t1 t2 t3
  rw [e, pure_sub]
  refine (Around.pure_each (c _ _ _ _ (hR 0 0) (hR 0 1) (hR 0 2) t1) (c _ _ _ _ (hR 1 0) (hR 1 1) (hR 1 2) t2) (c _ _ _ _ (hR 2 0) (hR 2 1) (hR 2 2) t3)).trans ?_
  have p1 : 0 ≤ DQuat.u * ‖pure x‖ := by positivity
  have p2 : 0 ≤ DQuat.u * (w * ‖pure t‖) := by positivity
  linarith

/-- the transformation is near these motions -/
def Comes (T : DTrans) (ms : List Motion) : Prop :=
  T.isDefined = true ∧ T.type ≠ .identity ∧ T.rigid = true ∧ ∃ (R : Fin 3 → Fin 3 → ℝ) (t : V3) (w s : Quaternion ℝ), T.matrix = affine R t ∧ ‖w‖ = 1 ∧
    (∀ x, Motion.points ms x = w * (x * star w) + s) ∧ (∀ x, Motion.directions ms x = w * (x * star w)) ∧ ‖s‖ ≤ Motion.path ms ∧
    (∀ v, ‖pure (turn R v) - w * (pure v * star w)‖ ≤ err ms.length * ‖pure v‖) ∧ ‖pure t - s‖ ≤ err ms.length * (Motion.path ms + least)

theorem turned {w : Quaternion ℝ} (h : ‖w‖ = 1) (x : Quaternion ℝ) : ‖w * (x * star w)‖ = ‖x‖ := by rw [norm_mul, norm_mul, norm_star, h]; ring

theorem entry {R : Fin 3 → Fin 3 → ℝ} {w : Quaternion ℝ} (hw : ‖w‖ = 1) {g : ℝ} (hg : g ≤ 1 / 40) (h : ∀ v, ‖pure (turn R v) - w * (pure v * star w)‖ ≤ g * ‖pure v‖) (i j : Fin 3) : |R i j| ≤ 41 / 40 := by
  have := Around.entry_le (Q := star w) (by rw [norm_star, hw]) (fun v => by rw [star_star]; exact h v) i j
  linarith

theorem one_comes {o : Bool} {sin cos : ℝ → ℝ} (hs : Accurate sin Real.sin) (hc : Accurate cos Real.cos) {T : DTrans} {m : Motion} (h : Makes o sin cos T m) : Comes T [m] := by
  have u0 := DQuat.u_pos
  obtain ⟨d1, d2, d3, -⟩ := Move.one_step o .left hs hc h
  obtain ⟨b1, -, -⟩ := err_bounds (n := 1) le_rfl (by norm_num)
  have l0 := least_pos
  refine ⟨d1, d2, d3, ?_⟩
  cases m with
  | turn w =>
    have nw := (Move.turn_step o .left hs hc h).1
    cases h with
    | turn he hx hy hz ha ht h hT =>
      obtain ⟨M, hM, e⟩ := ok_of_bind hT
      obtain rfl := Except.ok.inj e
      obtain ⟨M, rfl, -, hn⟩ := rotation_matrix o hs hc he hx hy hz ha ht h hM
      refine ⟨fun i j => M j i, ⟨0, 0, 0⟩, _, 0, rfl, nw, fun x => by simp [Motion.points, Motion.point], fun x => by simp [Motion.directions, Motion.direction], by simp [Motion.path, Motion.reach], fun v => (hn v).trans ?_, ?_⟩
      · rw [e45.2.1]; exact mul_le_mul_of_nonneg_right b1 (norm_nonneg _)
      · have : pure ⟨0, 0, 0⟩ = 0 := by ext <;> rfl
        rw [this, sub_zero, norm_zero]
        exact mul_nonneg (le_trans (by linarith) b1) (by simp [Motion.path, Motion.reach, l0.le])
  | shift s =>
    cases h with
    | @shift v _ hv hT =>
      obtain ⟨M, hM, e⟩ := ok_of_bind hT
      obtain rfl := Except.ok.inj e
      rw [DT3.Translation, doubles_defined] at hM
      obtain rfl := Except.ok.inj hM
      have p : Motion.path [Motion.shift (pure v)] = ‖pure v‖ := by simp [Motion.path, Motion.reach]
      refine ⟨fun i j => if i = j then 1 else 0, v, 1, pure v, ?_, norm_one, fun x => by simp [Motion.points, Motion.point], fun x => by simp [Motion.directions, Motion.direction], p.ge, fun x => ?_, ?_⟩
      · funext i j
        fin_cases i <;> fin_cases j <;> rfl
      · have : turn (fun i j => if i = j then 1 else 0) x = x := by ext <;> simp [turn]
        rw [this, star_one, mul_one, one_mul, sub_self, norm_zero]
        exact mul_nonneg (le_trans (by linarith) b1) (norm_nonneg _)
      · rw [sub_self, norm_zero, p]
        exact mul_nonneg (le_trans (by linarith) b1) (by positivity)

theorem path_append (ms ns : List Motion) : Motion.path (ns ++ ms) = Motion.path ns + Motion.path ms := by simp [Motion.path]

theorem at3_le {t : V3} {k : ℝ} (h : ‖pure t‖ ≤ k) (i : Fin 3) : |at3 t i| ≤ k := by
  rw [pure_length] at h
  obtain ⟨h1, h2, h3⟩ := within_length t
  fin_cases i
  · exact h1.trans h
  · exact h2.trans h
  · exact h3.trans h

/-- the column of a transformation near motions -/
theorem column_le {t : V3} {s : Quaternion ℝ} {S g : ℝ} (hs : ‖s‖ ≤ S) (hg : g ≤ 1 / 40) (h : ‖pure t - s‖ ≤ g * (S + least)) : ‖pure t‖ ≤ S + g * (S + least) ∧ ‖pure t‖ ≤ 2 * S + least := by
  have h1 := norm_le_norm_add_norm_sub' (pure t) s
  have l0 := least_pos
  have S0 := (norm_nonneg s).trans hs
  have := mul_le_mul_of_nonneg_right hg (show 0 ≤ S + least by linarith)
  constructor <;> linarith

theorem least_small : least ≤ 1 := by
  rw [least]
  calc (2 : ℝ) ^ (-1020 : ℤ) ≤ 2 ^ (0 : ℤ) := zpow_le_zpow_right₀ one_le_two (by norm_num)
    _ = 1 := zpow_zero _

theorem column_500 {t : V3} {S : ℝ} (hS : S ≤ 2 ^ 490) (h : ‖pure t‖ ≤ 2 * S + least) : ‖pure t‖ ≤ 2 ^ 500 := by
  have l := least_small
  have e : (2 : ℝ) ^ 500 = 1024 * 2 ^ 490 := by rw [show (500 : ℕ) = 10 + 490 by norm_num, pow_add]; norm_num
  have p : (1 : ℝ) ≤ 2 ^ 490 := one_le_pow₀ one_le_two
  rw [e]
  clear e
  generalize (2 : ℝ) ^ 490 = B at *
  linarith

theorem entry_500 {a : ℝ} (h : |a| ≤ 41 / 40) : |a| ≤ 2 ^ 500 := h.trans (le_trans (by norm_num) two_500)

theorem path_nonneg {T : DTrans} {ms : List Motion} (h : Comes T ms) : 0 ≤ Motion.path ms := by
  obtain ⟨-, -, -, R, t, w, s, -, -, -, -, h, -⟩ := h
  exact (norm_nonneg s).trans h

theorem compose_type {a b : TType} (ha : a ≠ .undefined) (ha' : a ≠ .identity) (hb : b ≠ .undefined) (hb' : b ≠ .identity) : a.compose b ≠ .undefined ∧ a.compose b ≠ .identity := by
  cases a <;> cases b <;> simp_all [TType.compose]

/-- the product of two transformations near motions is near their sequence -/
theorem mul_comes (q : Order4) {A B : DTrans} {ms ns : List Motion} (hA : Comes A ms) (hB : Comes B ns) (hm : 1 ≤ ms.length) (hn : 1 ≤ ns.length) (h : (ns ++ ms).length ≤ 2 ^ 40)
    (hp : Motion.path (ns ++ ms) ≤ 2 ^ 490) : ∃ T, DTrans.mul q A B = .ok T ∧ Comes T (ns ++ ms) := by
  have pA := path_nonneg hA
  have pB := path_nonneg hB
  rw [path_append] at hp
  obtain ⟨a1, a2, a3, R, t, w, s, a4, a5, a6, a7, a8, a9, a10⟩ := hA
  obtain ⟨b1, b2, b3, R', t', w', s', b4, b5, b6, b7, b8, b9, b10⟩ := hB
  rw [List.length_append] at h
  obtain ⟨e1, e2, -⟩ := err_bounds hm (by omega)
  obtain ⟨f1, f2, -⟩ := err_bounds hn (by omega)
  have g := grow hm hn h
  have u0 := DQuat.u_pos
  have u1 := DQuat.u_small
  have l0 := least_pos
  have lt := least_t
  have k := entry a5 e2 a9
  have k' := entry b5 f2 b9
  obtain ⟨c1, c2⟩ := column_le a8 e2 a10
  obtain ⟨d1, d2⟩ := column_le b8 f2 b10
  have hm' := mul_affine q (fun i j => entry_500 (k i j)) (fun i j => entry_500 (k' i j)) (at3_le (column_500 ((le_add_of_nonneg_left pB).trans hp) c2)) (at3_le (column_500 ((le_add_of_nonneg_right pA).trans hp) d2))
  clear hp
  refine ⟨⟨A.type.compose B.type, DT3.mul q A.matrix B.matrix, true⟩, by simp [DTrans.mul, a1, b1, a3, b3], ?_, ?_, rfl, _, _, w * w', w * (s' * star w) + s, by rw [a4, b4]; exact hm', ?_, fun x => ?_, fun x => ?_, ?_, fun v => ?_, ?_⟩
  · exact decide_eq_true (compose_type (of_decide_eq_true a1) a2 (of_decide_eq_true b1) b2).1
  · exact (compose_type (of_decide_eq_true a1) a2 (of_decide_eq_true b1) b2).2
  · rw [norm_mul, a5, b5, one_mul]
  · have := a6 (Motion.points ns x)
    rw [b6 x] at this
    rw [show Motion.points (ns ++ ms) x = Motion.points ms (Motion.points ns x) by simp [Motion.points, List.foldl_append], b6 x, this, star_mul]
    noncomm_ring
  · have := a7 (Motion.directions ns x)
    rw [b7 x] at this
    rw [show Motion.directions (ns ++ ms) x = Motion.directions ms (Motion.directions ns x) by simp [Motion.directions, List.foldl_append], b7 x, this, star_mul]
    noncomm_ring
  · rw [path_append]
    refine (norm_add_le _ _).trans ?_
    rw [turned a5]
    exact add_le_add b8 a8
  · have h1 := block_near q t k k' v
    have h2 := a9 (turn R' v)
    have h3 := b9 v
    have h4 := turned a5 (pure (turn R' v) - w' * (pure v * star w'))
    have h5 : w * ((pure (turn R' v) - w' * (pure v * star w')) * star w) = w * (pure (turn R' v) * star w) - w * w' * (pure v * star (w * w')) := by rw [star_mul]; noncomm_ring
    rw [h5] at h4
    have h6 := norm_le_norm_add_norm_sub' (pure (turn R' v)) (w' * (pure v * star w'))
    rw [turned b5] at h6
    have h7 := norm_sub_le_norm_sub_add_norm_sub (pure (turn (fun i j => DT3.dot4 q (R i 0) (R i 1) (R i 2) (at3 t i) (R' 0 j) (R' 1 j) (R' 2 j) 0) v)) (pure (turn R (turn R' v))) (w * w' * (pure v * star (w * w')))
    have h8 := norm_sub_le_norm_sub_add_norm_sub (pure (turn R (turn R' v))) (w * (pure (turn R' v) * star w)) (w * w' * (pure v * star (w * w')))
    have h9 : err ms.length * ‖pure (turn R' v)‖ ≤ err ms.length * ((1 + err ns.length) * ‖pure v‖) := mul_le_mul_of_nonneg_left (by linarith) (by linarith)
    have h10 := mul_le_mul_of_nonneg_right g (norm_nonneg (pure v))
    have h11 : 0 ≤ DQuat.u * ‖pure v‖ := by positivity
    rw [List.length_append]
    refine le_trans ?_ h10
    linarith
  · have h1 := act_near q k t t' (w := 1) (Or.inr rfl)
    rw [one_smul, one_mul] at h1
    have h2 := a9 t'
    have h4 := turned a5 (pure t' - s')
    have h5 : w * ((pure t' - s') * star w) = w * (pure t' * star w) - w * (s' * star w) := by noncomm_ring
    rw [h5] at h4
    rw [List.length_append, path_append]
    have h10 := mul_le_mul_of_nonneg_right g (show 0 ≤ Motion.path ns + Motion.path ms + least by linarith)
    refine le_trans ?_ h10
    generalize pure ⟨DT3.dot4 q (R 0 0) (R 0 1) (R 0 2) t.x t'.x t'.y t'.z 1, DT3.dot4 q (R 1 0) (R 1 1) (R 1 2) t.y t'.x t'.y t'.z 1, DT3.dot4 q (R 2 0) (R 2 1) (R 2 2) t.z t'.x t'.y t'.z 1⟩ = y at *
    have e : y - (w * (s' * star w) + s) = (y - (pure (turn R t') + pure t)) + (pure (turn R t') - w * (pure t' * star w)) + (w * (pure t' * star w) - w * (s' * star w)) + (pure t - s) := by abel
    rw [e]
    have n1 := norm_add_le ((y - (pure (turn R t') + pure t)) + (pure (turn R t') - w * (pure t' * star w)) + (w * (pure t' * star w) - w * (s' * star w))) (pure t - s)
    have n2 := norm_add_le ((y - (pure (turn R t') + pure t)) + (pure (turn R t') - w * (pure t' * star w))) (w * (pure t' * star w) - w * (s' * star w))
    have n3 := norm_add_le (y - (pure (turn R t') + pure t)) (pure (turn R t') - w * (pure t' * star w))
    have m1 : err ms.length * ‖pure t'‖ ≤ err ms.length * (Motion.path ns + err ns.length * (Motion.path ns + least)) := mul_le_mul_of_nonneg_left d1 (by linarith)
    have m2 : DQuat.u * ‖pure t'‖ ≤ DQuat.u * (2 * Motion.path ns + least) := mul_le_mul_of_nonneg_left d2 u0.le
    have m3 : DQuat.u * ‖pure t‖ ≤ DQuat.u * (2 * Motion.path ms + least) := mul_le_mul_of_nonneg_left c2 u0.le
    have m4 : 0 ≤ err ms.length * err ns.length * Motion.path ms := by
      have : 0 ≤ err ms.length := by linarith
      have : 0 ≤ err ns.length := by linarith
      positivity
    have m5 : 0 ≤ err ns.length * Motion.path ms := mul_nonneg (by linarith) pA
    have m6 : 0 ≤ DQuat.u * Motion.path ms := by positivity
    have m7 : 0 ≤ DQuat.u * Motion.path ns := by positivity
    have m8 : 0 < DQuat.t := DQuat.t_pos
    rw [mul_add, ← mul_assoc (DQuat.u) 2] at m2 m3
    linarith

/-- what a transformation near motions does -/
theorem comes_acts (q : Order4) {T : DTrans} {ms : List Motion} (h : Comes T ms) (hm : 1 ≤ ms.length) (hm' : ms.length ≤ 2 ^ 40) (hp : Motion.path ms ≤ 2 ^ 490) {x : V3} (hx : Within x) :
    (∃ b, DT3.applyTo q T.matrix (doubles x) = .ok (doubles b) ∧ ‖pure b - Motion.points ms (pure x)‖ ≤ ms.length * 2 ^ (-45 : ℤ) * (‖pure x‖ + Motion.path ms + 2 ^ (-1020 : ℤ))) ∧
      ∃ b, DT3.applyToVector q T.matrix (doubles x) = doubles b ∧ ‖pure b - Motion.directions ms (pure x)‖ ≤ ms.length * 2 ^ (-45 : ℤ) * (‖pure x‖ + 2 ^ (-1020 : ℤ)) := by
  have pA := path_nonneg h
  obtain ⟨a1, a2, a3, R, t, w, s, a4, a5, a6, a7, a8, a9, a10⟩ := h
  obtain ⟨e1, e2, e3⟩ := err_bounds hm hm'
  have u0 := DQuat.u_pos
  have t0 := DQuat.t_pos
  have l0 := least_pos
  have lt := least_t
  have k := entry a5 e2 a9
  obtain ⟨c1, c2⟩ := column_le a8 e2 a10
  have k5 := fun i j => entry_500 (k i j)
  have c5 := at3_le (column_500 hp c2)
  have H : ∀ v : ℝ, |v| ≤ 1 → DT3.head q T.matrix (doubles x) (.fin v) = doubles ⟨DT3.dot4 q (R 0 0) (R 0 1) (R 0 2) t.x x.x x.y x.z v, DT3.dot4 q (R 1 0) (R 1 1) (R 1 2) t.y x.x x.y x.z v, DT3.dot4 q (R 2 0) (R 2 1) (R 2 2) t.z x.x x.y x.z v⟩ := fun v hv => by
    rw [a4, DT3.head, Around.apply_row q (k5 0 0) (k5 0 1) (k5 0 2) (c5 0) hx.bounded hv (i := 0) rfl, Around.apply_row q (k5 1 0) (k5 1 1) (k5 1 2) (c5 1) hx.bounded hv (i := 1) rfl,
      Around.apply_row q (k5 2 0) (k5 2 1) (k5 2 2) (c5 2) hx.bounded hv (i := 2) rfl]
    rfl
  have x0 := norm_nonneg (pure x)
  rw [show (2 : ℝ) ^ (-1020 : ℤ) = least from rfl]
  refine ⟨⟨_, by rw [DT3.applyTo, doubles_defined, H 1 (by norm_num)]; rfl, ?_⟩, _, by rw [DT3.applyToVector, H 0 (by norm_num)], ?_⟩
  · have h1 := act_near q k t x (w := 1) (Or.inr rfl)
    rw [one_smul, one_mul] at h1
    have h2 := a9 x
    have h3 := mul_le_mul_of_nonneg_right e3 (show 0 ≤ ‖pure x‖ + Motion.path ms + least by linarith)
    refine le_trans ?_ h3
    rw [a6]
    generalize pure ⟨DT3.dot4 q (R 0 0) (R 0 1) (R 0 2) t.x x.x x.y x.z 1, DT3.dot4 q (R 1 0) (R 1 1) (R 1 2) t.y x.x x.y x.z 1, DT3.dot4 q (R 2 0) (R 2 1) (R 2 2) t.z x.x x.y x.z 1⟩ = y at *
    have e : y - (w * (pure x * star w) + s) = (y - (pure (turn R x) + pure t)) + (pure (turn R x) - w * (pure x * star w)) + (pure t - s) := by abel
    rw [e]
    have n1 := norm_add_le ((y - (pure (turn R x) + pure t)) + (pure (turn R x) - w * (pure x * star w))) (pure t - s)
    have n2 := norm_add_le (y - (pure (turn R x) + pure t)) (pure (turn R x) - w * (pure x * star w))
    have c3 : ‖pure t‖ ≤ 41 / 40 * (Motion.path ms + least) := by
      have := mul_le_mul_of_nonneg_right e2 (show 0 ≤ Motion.path ms + least by linarith)
      linarith
    have m3 := mul_le_mul_of_nonneg_left c3 u0.le
    have m6 : 0 ≤ DQuat.u * Motion.path ms := by positivity
    have m7 : 0 ≤ DQuat.u * ‖pure x‖ := by positivity
    linarith
  · have h1 := act_near q k t x (w := 0) (Or.inl rfl)
    rw [zero_smul, add_zero, zero_mul, mul_zero, add_zero] at h1
    have h2 := a9 x
    have h3 := mul_le_mul_of_nonneg_right e3 (show 0 ≤ ‖pure x‖ + least by linarith)
    refine le_trans ?_ h3
    rw [a7]
    refine (norm_sub_le_norm_sub_add_norm_sub _ (pure (turn R x)) _).trans ?_
    have m7 : 0 ≤ DQuat.u * ‖pure x‖ := by positivity
    have m8 : 0 ≤ err ms.length * least := mul_nonneg (by linarith) l0.le
    linarith

end Product

end Verif.Props
