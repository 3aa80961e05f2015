import Verif.Model.DoublePlaneMove
import Verif.Spec.DoublePlaneMove
import Verif.Props.DoubleAround

/-!
# Lemmas for C148: objects of the plane moved several times in double precision
-/

namespace Verif.Props

open Verif Verif.Spec Verif.Double

/-- a point or a vector of the plane as a complex number -/
def asComplex (v : V2) : ℂ := ⟨v.x, v.y⟩

/-- the transformation is made from an angle, a translation vector, or a point and an angle, and stands for this motion -/
inductive Makes2 (o : Bool) (sin cos : ℝ → ℝ) : DTrans2 → PlaneMotion → Prop where
  | turn {t : ℝ} {a : DAngle ℝ} {T : DTrans2} (ha : a.inUnit .radian = .ok (.fin t)) (ht : Representable t) (hT : DTrans2.Rotation sin cos a = .ok T) : Makes2 o sin cos T (.turn t)
  | shift {v : V2} {T : DTrans2} (hv : Sized2 490 v) (hT : DTrans2.Translation (doubles2 v) = .ok T) : Makes2 o sin cos T (.shift (asComplex v))
  | around {t : ℝ} {a : DAngle ℝ} {p : V2} {T : DTrans2} (ha : a.inUnit .radian = .ok (.fin t)) (ht : Representable t) (hp : Sized2 490 p)
      (hT : DTrans2.RotationAround o sin cos (doubles2 p) a = .ok T) : Makes2 o sin cos T (.around (asComplex p) t)

namespace Move2

/-- the rows of the matrix of a rotation about a point -/
theorem around_rows (o : Bool) {sin cos : ℝ → ℝ} (hs : Accurate sin Real.sin) (hc : Accurate cos Real.cos) {a : DAngle ℝ} {t : ℝ} (ha : a.inUnit .radian = .ok (.fin t)) (ht : Representable t)
    {p : V2} (hp : Sized2 490 p) :
    ∃ T, DT2.RotationAround o sin cos (doubles2 p) a = .ok T ∧ T 0 = ![.fin (cos t), .fin (-sin t), .fin (DVec.dot3 o (cos t) (-sin t) p.x (-p.x) (-p.y) 1)] ∧
      T 1 = ![.fin (sin t), .fin (cos t), .fin (DVec.dot3 o (sin t) (cos t) p.y (-p.x) (-p.y) 1)] ∧ T 2 = ![.fin 0, .fin 0, .fin 1] := by
  have P : ∀ {x : ℝ}, |x| ≤ 2 ^ 490 → |x| < 2 ^ 1024 := fun {x} h => h.trans_lt (pow_lt_pow_right₀ one_lt_two (by norm_num))
  have P' : ∀ {x : ℝ}, |x| ≤ 2 ^ 490 → |x| ≤ 2 ^ 500 := fun {x} h => h.trans (pow_le_pow_right₀ one_le_two (by norm_num))
  have W : ∀ {x : ℝ}, |x| ≤ 1 → |x| ≤ 2 ^ 500 := fun {x} h => h.trans (one_le_pow₀ one_le_two)
  have W' : ∀ {x : ℝ}, |x| ≤ 1 → |x| < 2 ^ 1024 := fun {x} h => h.trans_lt (one_lt_pow₀ one_lt_two (by norm_num))
  obtain ⟨rs, ls, -⟩ := hs t ht
  obtain ⟨rc, lc, -⟩ := hc t ht
  have hR := plane_rotation (sin := sin) (cos := cos) ha
  generalize sin t = s at *
  generalize cos t = c at *
  have rs' : Representable (-s) := by simpa using representable_neg rs
  have ls' : |-s| ≤ 1 := by rwa [abs_neg]
  have k1 : ∀ {x : ℝ}, Representable x → |x| ≤ 1 → (F64.fin 1).mul (.fin x) = .fin x ∧ (F64.fin x).mul (.fin 1) = .fin x := fun {x} r l => ⟨DT3.one_mul_fin r (W' l), DT3.mul_one_fin r (W' l)⟩
  have k2 : ∀ {x : ℝ}, Representable x ∧ |x| ≤ 2 ^ 490 → (F64.fin x).mul (.fin 1) = .fin x := fun {x} r => DT3.mul_one_fin r.1 (P r.2)
  have one : ∀ {x : ℝ}, Representable x → |x| ≤ 1 → _ := fun {x} r l => sum3_one o r (W' l)
  have px := sum3_one o hp.x.1 (P hp.x.2)
  have py := sum3_one o hp.y.1 (P hp.y.2)
  have dot : ∀ {a b w : ℝ}, |a| ≤ 1 → |b| ≤ 1 → |w| ≤ 2 ^ 490 → DVec.sum o ((F64.fin a).mul (.fin (-p.x))) ((F64.fin b).mul (.fin (-p.y))) ((F64.fin w).mul (.fin 1)) = .fin (DVec.dot3 o a b w (-p.x) (-p.y) 1) := fun {a b w} h1 h2 h3 =>
    (DVec.dot_fin o (W h1) (W h2) (P' h3) (x := -p.x) (y := -p.y) (z := 1) (by rw [abs_neg]; exact P' hp.x.2) (by rw [abs_neg]; exact P' hp.y.2) (W (by norm_num))).1
  have dx := dot lc ls' hp.x.2
  rw [k2 hp.x] at dx
  have dy := dot ls lc hp.y.2
  rw [k2 hp.y] at dy
  refine ⟨DT2.mul o (DT2.mul o ![![.fin 1, .fin 0, .fin p.x], ![.fin 0, .fin 1, .fin p.y], ![.fin 0, .fin 0, .fin 1]] ![![.fin c, .fin (-s), .fin 0], ![.fin s, .fin c, .fin 0], ![.fin 0, .fin 0, .fin 1]])
      ![![.fin 1, .fin 0, .fin (-p.x)], ![.fin 0, .fin 1, .fin (-p.y)], ![.fin 0, .fin 0, .fin 1]], ?_, ?_, ?_, ?_⟩
  · have hA : DT2.Translation (doubles2 p) = .ok ![![.fin 1, .fin 0, .fin p.x], ![.fin 0, .fin 1, .fin p.y], ![.fin 0, .fin 0, .fin 1]] := by
      rw [DT2.Translation, if_neg (by simp [doubles2])]; rfl
    have hB : DT2.Translation ⟨(doubles2 p).x.neg, (doubles2 p).y.neg⟩ = .ok ![![.fin 1, .fin 0, .fin (-p.x)], ![.fin 0, .fin 1, .fin (-p.y)], ![.fin 0, .fin 0, .fin 1]] := by
      rw [DT2.Translation, if_neg (by simp [doubles2, F64.neg])]; rfl
    have hV : DT2.asVector (doubles2 p) = .ok (doubles2 p) := by rw [DT2.asVector, if_neg (by simp [doubles2])]
    simp only [DT2.RotationAround, bind, Except.bind, hV, hA, hR, hB]
    rfl
  · funext j
    fin_cases j <;> simp [DT2.mul, k1 rc lc, k1 rs' ls', DT3.zero_mul_fin, DT3.mul_zero_fin, one rc lc, one rs' ls', k2 hp.x, px, dx]
  · funext j
    fin_cases j <;> simp [DT2.mul, k1 rc lc, k1 rs ls, DT3.zero_mul_fin, DT3.mul_zero_fin, one rc lc, one rs ls, k2 hp.y, py, dy]
  · have o1 := sum3_one o (x := 1) finite_one.1 finite_one.2
    have z1 := sum3_one o (x := 0) finite_zero.1 finite_zero.2
    funext j
    fin_cases j <;> simp [DT2.mul, DT3.zero_mul_fin, DT3.one_mul_fin finite_one.1 finite_one.2, DT3.one_mul_fin finite_zero.1 finite_zero.2, o1, z1]

/-- two numbers of the format -/
def Rep (b : V2) : Prop := Representable b.x ∧ Representable b.y

theorem complex_le (v : V2) : ‖asComplex v‖ ≤ |v.x| + |v.y| := Complex.norm_le_abs_re_add_abs_im _

theorem parts_le (v : V2) : |v.x| ≤ ‖asComplex v‖ ∧ |v.y| ≤ ‖asComplex v‖ := ⟨Complex.abs_re_le_norm (asComplex v), Complex.abs_im_le_norm (asComplex v)⟩

theorem sized_of {b : V2} (h : Rep b) (hn : ‖asComplex b‖ ≤ 2 ^ 490) : Sized2 490 b := ⟨⟨h.1, (parts_le b).1.trans hn⟩, ⟨h.2, (parts_le b).2.trans hn⟩⟩

theorem dot3_rep (o : Bool) (a b c x y z : ℝ) : Representable (DVec.dot3 o a b c x y z) := by
  rw [DVec.dot3, DVec.sum3]
  split <;> exact rnd_representable _

/-- the error of one coordinate, when the entries of a row have errors -/
theorem row_near (o : Bool) {a b d A B D δ : ℝ} (ha : |a| ≤ 1) (hb : |b| ≤ 1) (na : |a - A| ≤ DQuat.u) (nb : |b - B| ≤ DQuat.u) (nd : |d - D| ≤ δ) (x y : ℝ) :
    |DVec.dot3 o a b d x y 1 - (A * x + B * y + D)| ≤ 41 / 10 * DQuat.u * (|x| + |y|) + 301 / 100 * DQuat.u * |d| + δ + 31 / 10 * DQuat.t ∧
      |DVec.dot3 o a b d x y 0 - (A * x + B * y)| ≤ 41 / 10 * DQuat.u * (|x| + |y|) + 31 / 10 * DQuat.t := by
  have u0 := DQuat.u_pos
  have k := DVec.dot3_near o a b d x y 1
  have k' := DVec.dot3_near o a b d x y 0
  rw [mul_one] at k
  rw [mul_zero, add_zero, abs_zero, add_zero] at k'
  have m1 : ∀ {c z : ℝ}, |c| ≤ 1 → |c * z| ≤ |z| := fun {c z} h => by rw [abs_mul]; exact mul_le_of_le_one_left (abs_nonneg _) h
  have s := mul_le_mul_of_nonneg_left (add_le_add (m1 (z := x) ha) (m1 (z := y) hb)) u0.le
  have e1 := abs_add_le ((a - A) * x) ((b - B) * y)
  rw [abs_mul, abs_mul] at e1
  have h1 := mul_le_mul_of_nonneg_right na (abs_nonneg x)
  have h2 := mul_le_mul_of_nonneg_right nb (abs_nonneg y)
  have p : 0 ≤ DQuat.u * (|x| + |y|) := by positivity
  have e2 := abs_add_le ((a - A) * x + (b - B) * y) (d - D)
  have tri := abs_add_le (DVec.dot3 o a b d x y 1 - (a * x + b * y + d)) ((a - A) * x + (b - B) * y + (d - D))
  rw [show DVec.dot3 o a b d x y 1 - (a * x + b * y + d) + ((a - A) * x + (b - B) * y + (d - D)) = DVec.dot3 o a b d x y 1 - (A * x + B * y + D) by ring] at tri
  have tri' := abs_add_le (DVec.dot3 o a b d x y 0 - (a * x + b * y)) ((a - A) * x + (b - B) * y)
  rw [show DVec.dot3 o a b d x y 0 - (a * x + b * y) + ((a - A) * x + (b - B) * y) = DVec.dot3 o a b d x y 0 - (A * x + B * y) by ring] at tri'
  constructor <;> linarith

/-- a row of a matrix, with the exact entries it stands for -/
structure Row (m : Fin 3 → F64 ℝ) (A B D r : ℝ) where
  a : ℝ
  b : ℝ
  d : ℝ
  eq : m = ![.fin a, .fin b, .fin d]
  ha : |a| ≤ 1
  hb : |b| ≤ 1
  na : |a - A| ≤ DQuat.u
  nb : |b - B| ≤ DQuat.u
  ra : Representable a
  rb : Representable b
  rd : Representable d
  hd : |d| ≤ 21 / 10 * r + 4 * DQuat.t
  nd : |d - D| ≤ 72 / 10 * DQuat.u * r + 4 * DQuat.t
  r0 : 0 ≤ r
  r1 : r ≤ 2 * 2 ^ 490

theorem Row.d_le {m : Fin 3 → F64 ℝ} {A B D r : ℝ} (R : Row m A B D r) : |R.d| ≤ 2 ^ 500 := by
  have h1 := R.hd
  have h2 := R.r1
  have t1 : DQuat.t ≤ 1 := by
    have := DRot.t_u
    have := DQuat.u_small
    norm_num at *
    linarith
  have e : (2 : ℝ) ^ 500 = 1024 * 2 ^ 490 := by rw [show (500 : ℕ) = 10 + 490 by norm_num, pow_add]; norm_num
  have w1 : (1 : ℝ) ≤ 2 ^ 490 := one_le_pow₀ one_le_two
  rw [e]
  clear e
  generalize (2 : ℝ) ^ 490 = N at *
  linarith

/-- one coordinate of a moved point and of a moved vector -/
theorem row_step (o : Bool) {m : Fin 3 → Fin 3 → F64 ℝ} {i : Fin 3} {A B D r : ℝ} (R : Row (m i) A B D r) {v : V2} (hv : Sized2 490 v) :
    (∃ x, Representable x ∧ DT2.row o m i (doubles2 v) (.fin 1) = .fin x ∧ |x - (A * v.x + B * v.y + D)| ≤ 16 * DQuat.u * (|v.x| + |v.y| + r) + 2 ^ (-1070 : ℤ)) ∧
    (∃ x, Representable x ∧ (((m i 0).mul (.fin v.x)).add ((m i 1).mul (.fin v.y))).add (m i 2) = .fin x ∧ |x - (A * v.x + B * v.y + D)| ≤ 16 * DQuat.u * (|v.x| + |v.y| + r) + 2 ^ (-1070 : ℤ)) ∧
    ∃ x, Representable x ∧ DT2.row o m i (doubles2 v) (.fin 0) = .fin x ∧ |x - (A * v.x + B * v.y)| ≤ 16 * DQuat.u * (|v.x| + |v.y|) + 2 ^ (-1070 : ℤ) := by
  have u0 := DQuat.u_pos
  have us := DQuat.u_small
  have t0 := DQuat.t_pos
  have X0 : 0 ≤ DQuat.u * (|v.x| + |v.y|) := by positivity
  have R0 : 0 ≤ DQuat.u * r := mul_nonneg u0.le R.r0
  have tt : DQuat.u * DQuat.t ≤ 1 / 10 ^ 15 * DQuat.t := mul_le_mul_of_nonneg_right us t0.le
  have hd := mul_le_mul_of_nonneg_left R.hd u0.le
  have one : ∀ o, |DVec.dot3 o R.a R.b R.d v.x v.y 1 - (A * v.x + B * v.y + D)| ≤ 16 * DQuat.u * (|v.x| + |v.y| + r) + 2 ^ (-1070 : ℤ) := fun o => by
    have := (row_near o R.ha R.hb R.na R.nb R.nd v.x v.y).1
    rw [e1070]
    norm_num at tt
    linarith
  refine ⟨⟨_, dot3_rep _ _ _ _ _ _ _, plane_row o R.ha R.hb R.d_le hv (by norm_num) R.eq, one o⟩, ⟨_, dot3_rep false R.a R.b R.d v.x v.y 1, ?_, one false⟩,
    _, dot3_rep _ _ _ _ _ _ _, plane_row o R.ha R.hb R.d_le hv (by norm_num) R.eq, ?_⟩
  · have := plane_row false R.ha R.hb R.d_le hv (w := 1) (by norm_num) R.eq
    rw [← this, DT2.row, DVec.sum, if_neg (by simp), R.eq]
    have big : |R.d| < 2 ^ 1024 := R.d_le.trans_lt (pow_lt_pow_right₀ one_lt_two (by norm_num))
    simp [doubles2, DT3.mul_one_fin R.rd big]
  · have := (row_near o R.ha R.hb R.na R.nb R.nd v.x v.y).2
    rw [e1070]
    linarith

/-- every transformation is defined and has two such rows -/
theorem rows {o : Bool} {sin cos : ℝ → ℝ} (hs : Accurate sin Real.sin) (hc : Accurate cos Real.cos) {T : DTrans2} {m : PlaneMotion} (h : Makes2 o sin cos T m) :
    T.isDefined = true ∧ T.matrix 2 = ![.fin 0, .fin 0, .fin 1] ∧ ∃ A B D E r : ℝ, Nonempty (Row (T.matrix 0) A (-B) D r) ∧ Nonempty (Row (T.matrix 1) B A E r) ∧ r ≤ 2 * m.reach ∧
      ∀ z : ℂ, m.point z = ⟨A * z.re + -B * z.im + D, B * z.re + A * z.im + E⟩ ∧ m.direction z = ⟨A * z.re + -B * z.im, B * z.re + A * z.im⟩ := by
  have u0 := DQuat.u_pos
  have us := DQuat.u_small
  have t0 := DQuat.t_pos
  have n0 : (0 : ℝ) ≤ 2 * 2 ^ 490 := by positivity
  cases h with
  | @turn t a _ ha ht hT =>
    obtain ⟨-, ls, ns⟩ := lib_near hs ht
    obtain ⟨-, lc, nc⟩ := lib_near hc ht
    have ls' : |-sin t| ≤ 1 := by rwa [abs_neg]
    have rs := (hs t ht).1
    have rc := (hc t ht).1
    have rs' : Representable (-sin t) := by simpa using representable_neg rs
    have ns' : |-sin t - -Real.sin t| ≤ DQuat.u := by rw [neg_sub_neg, abs_sub_comm]; exact ns
    rw [DTrans2.Rotation, plane_rotation ha] at hT
    obtain rfl := Except.ok.inj hT
    have d0 : |(0 : ℝ)| ≤ 21 / 10 * 0 + 4 * DQuat.t := by rw [abs_zero]; linarith
    have d1 : |(0 : ℝ) - 0| ≤ 72 / 10 * DQuat.u * 0 + 4 * DQuat.t := by rw [sub_zero, abs_zero]; linarith
    refine ⟨rfl, rfl, Real.cos t, Real.sin t, 0, 0, 0, ⟨⟨_, _, _, rfl, lc, ls', nc, ns', rc, rs', finite_zero.1, d0, d1, le_refl _, n0⟩⟩, ⟨⟨_, _, _, rfl, ls, lc, ns, nc, rs, rc, finite_zero.1, d0, d1, le_refl _, n0⟩⟩, by simp [PlaneMotion.reach],
      fun z => ?_⟩
    constructor <;> apply Complex.ext <;> simp [PlaneMotion.point, PlaneMotion.direction, Complex.mul_re, Complex.mul_im] <;> ring
  | @shift v _ hv hT =>
    rw [DTrans2.Translation, DT2.Translation, if_neg (by simp [doubles2])] at hT
    obtain rfl := Except.ok.inj hT
    have one : |(1 : ℝ)| ≤ 1 := by norm_num
    have nul : |(0 : ℝ)| ≤ 1 := by norm_num
    have e1 : |(1 : ℝ) - 1| ≤ DQuat.u := by rw [sub_self, abs_zero]; exact u0.le
    have e0 : |(0 : ℝ) - 0| ≤ DQuat.u := by rw [sub_self, abs_zero]; exact u0.le
    have e0' : |(0 : ℝ) - -0| ≤ DQuat.u := by rw [neg_zero, sub_self, abs_zero]; exact u0.le
    have p0 : 0 ≤ |v.x| + |v.y| := by positivity
    have up := mul_nonneg u0.le p0
    have k : ∀ x : ℝ, |x - x| ≤ 72 / 10 * DQuat.u * (|v.x| + |v.y|) + 4 * DQuat.t := fun x => by rw [sub_self, abs_zero]; linarith
    have r1 : |v.x| + |v.y| ≤ 2 * 2 ^ 490 := by rw [two_mul]; exact add_le_add hv.x.2 hv.y.2
    refine ⟨rfl, rfl, 1, 0, v.x, v.y, |v.x| + |v.y|, ⟨⟨1, 0, v.x, rfl, one, nul, e1, e0', finite_one.1, finite_zero.1, hv.x.1, by linarith [abs_nonneg v.x, abs_nonneg v.y], k _, p0, r1⟩⟩,
      ⟨⟨0, 1, v.y, rfl, nul, one, e0, e1, finite_zero.1, finite_one.1, hv.y.1, by linarith [abs_nonneg v.x, abs_nonneg v.y], k _, p0, r1⟩⟩, ?_, fun z => ?_⟩
    · obtain ⟨h1, h2⟩ := parts_le v
      rw [PlaneMotion.reach]
      linarith
    · constructor <;> apply Complex.ext <;> simp [PlaneMotion.point, PlaneMotion.direction, asComplex]
  | @around t a p _ ha ht hp hT =>
    obtain ⟨-, ls, ns⟩ := lib_near hs ht
    obtain ⟨-, lc, nc⟩ := lib_near hc ht
    have ls' : |-sin t| ≤ 1 := by rwa [abs_neg]
    have rs := (hs t ht).1
    have rc := (hc t ht).1
    have rs' : Representable (-sin t) := by simpa using representable_neg rs
    have ns' : |-sin t - -Real.sin t| ≤ DQuat.u := by rw [neg_sub_neg, abs_sub_comm]; exact ns
    obtain ⟨M, hM, h0, h1, h2⟩ := around_rows o hs hc ha ht hp
    rw [DTrans2.RotationAround, hM] at hT
    obtain rfl := Except.ok.inj hT
    have p0 : 0 ≤ |p.x| + |p.y| := by positivity
    have up := mul_nonneg u0.le p0
    have up' : DQuat.u * (|p.x| + |p.y|) ≤ 1 / 10 ^ 15 * (|p.x| + |p.y|) := mul_le_mul_of_nonneg_right us p0
    have r1 : |p.x| + |p.y| ≤ 2 * 2 ^ 490 := by rw [two_mul]; exact add_le_add hp.x.2 hp.y.2
    have key : ∀ {a b A B w : ℝ}, |a| ≤ 1 → |b| ≤ 1 → |a - A| ≤ DQuat.u → |b - B| ≤ DQuat.u → |w| ≤ |p.x| + |p.y| →
        |DVec.dot3 o a b w (-p.x) (-p.y) 1| ≤ 21 / 10 * (|p.x| + |p.y|) + 4 * DQuat.t ∧ |DVec.dot3 o a b w (-p.x) (-p.y) 1 - (w - (A * p.x + B * p.y))| ≤ 72 / 10 * DQuat.u * (|p.x| + |p.y|) + 4 * DQuat.t := by
      intro a b A B w ha hb na nb hw
      have k := (row_near o ha hb na nb (d := w) (D := w) (δ := 0) (by simp) (-p.x) (-p.y)).1
      rw [abs_neg, abs_neg, show A * -p.x + B * -p.y + w = w - (A * p.x + B * p.y) by ring] at k
      have uw := mul_le_mul_of_nonneg_left hw u0.le
      have n1 : |DVec.dot3 o a b w (-p.x) (-p.y) 1 - (w - (A * p.x + B * p.y))| ≤ 72 / 10 * DQuat.u * (|p.x| + |p.y|) + 4 * DQuat.t := by linarith
      have k2 := DVec.dot3_near o a b w (-p.x) (-p.y) 1
      rw [mul_one] at k2
      have m1 : ∀ {c z : ℝ}, |c| ≤ 1 → |c * z| ≤ |z| := fun {c z} h => by rw [abs_mul]; exact mul_le_of_le_one_left (abs_nonneg _) h
      have q1 := m1 (z := -p.x) ha
      have q2 := m1 (z := -p.y) hb
      rw [abs_neg] at q1 q2
      have s := mul_le_mul_of_nonneg_left (add_le_add (add_le_add q1 q2) hw) u0.le
      have e1 := abs_add_le (a * -p.x) (b * -p.y)
      have e2 := abs_add_le (a * -p.x + b * -p.y) w
      have e3 := abs_sub_abs_le_abs_sub (DVec.dot3 o a b w (-p.x) (-p.y) 1) (a * -p.x + b * -p.y + w)
      exact ⟨by norm_num at up'; linarith, n1⟩
    obtain ⟨k1, k2⟩ := key (w := p.x) lc ls' nc ns' (by linarith [abs_nonneg p.y])
    obtain ⟨k3, k4⟩ := key (w := p.y) ls lc ns nc (by linarith [abs_nonneg p.x])
    refine ⟨rfl, h2, Real.cos t, Real.sin t, p.x - (Real.cos t * p.x + -Real.sin t * p.y), p.y - (Real.sin t * p.x + Real.cos t * p.y), |p.x| + |p.y|,
      ⟨⟨_, _, _, h0, lc, ls', nc, ns', rc, rs', dot3_rep _ _ _ _ _ _ _, k1, k2, p0, r1⟩⟩, ⟨⟨_, _, _, h1, ls, lc, ns, nc, rs, rc, dot3_rep _ _ _ _ _ _ _, k3, k4, p0, r1⟩⟩, ?_, fun z => ?_⟩
    · obtain ⟨h1, h2⟩ := parts_le p
      rw [PlaneMotion.reach]
      linarith [norm_nonneg (asComplex p)]
    · constructor <;> apply Complex.ext <;> simp [PlaneMotion.point, PlaneMotion.direction, asComplex, Complex.mul_re, Complex.mul_im] <;> ring

theorem sum_near {b : V2} {z : ℂ} {e : ℝ} (h1 : |b.x - z.re| ≤ e) (h2 : |b.y - z.im| ≤ e) : ‖asComplex b - z‖ ≤ 2 * e := by
  have := Complex.norm_le_abs_re_add_abs_im (asComplex b - z)
  rw [Complex.sub_re, Complex.sub_im] at this
  change _ ≤ |b.x - z.re| + |b.y - z.im| at this
  linarith

/-- one motion of a point, of a point of a polygon, and of a direction -/
theorem one_step {o : Bool} (o' : Bool) {sin cos : ℝ → ℝ} (hs : Accurate sin Real.sin) (hc : Accurate cos Real.cos) {T : DTrans2} {m : PlaneMotion} (h : Makes2 o sin cos T m) {a : V2} (ha : Sized2 490 a) :
    (∃ b, Rep b ∧ DT2.applyTo o' T.matrix (doubles2 a) = .ok (doubles2 b) ∧ ‖asComplex b - m.point (asComplex a)‖ ≤ 2 ^ (-47 : ℤ) * (‖asComplex a‖ + m.reach) + 2 ^ (-1069 : ℤ)) ∧
    (∃ b, Rep b ∧ DTrans2.boostPoint T.matrix (doubles2 a) = doubles2 b ∧ ‖asComplex b - m.point (asComplex a)‖ ≤ 2 ^ (-47 : ℤ) * (‖asComplex a‖ + m.reach) + 2 ^ (-1069 : ℤ)) ∧
    ∃ b, Rep b ∧ DT2.applyToVector o' T.matrix (doubles2 a) = doubles2 b ∧ ‖asComplex b - m.direction (asComplex a)‖ ≤ 2 ^ (-47 : ℤ) * ‖asComplex a‖ + 2 ^ (-1069 : ℤ) := by
  obtain ⟨-, -, A, B, D, E, r, ⟨R⟩, ⟨R'⟩, hr, k⟩ := rows hs hc h
  obtain ⟨k1, k2⟩ := k (asComplex a)
  have u0 := DQuat.u_pos
  have e47 : (2 : ℝ) ^ (-47 : ℤ) = 64 * DQuat.u := by rw [DQuat.u]; norm_num
  have e69 : (2 : ℝ) ^ (-1069 : ℤ) = 2 * 2 ^ (-1070 : ℤ) := by rw [← zpow_one_add₀ two_ne_zero]; norm_num
  obtain ⟨p1, p2⟩ := parts_le a
  have q : 16 * DQuat.u * (|a.x| + |a.y| + r) ≤ 32 * DQuat.u * (‖asComplex a‖ + m.reach) := by
    have := mul_le_mul_of_nonneg_left (show |a.x| + |a.y| + r ≤ 2 * (‖asComplex a‖ + m.reach) by linarith) u0.le
    linarith
  have q' : 16 * DQuat.u * (|a.x| + |a.y|) ≤ 32 * DQuat.u * ‖asComplex a‖ := by
    have := mul_le_mul_of_nonneg_left (show |a.x| + |a.y| ≤ 2 * ‖asComplex a‖ by linarith) u0.le
    linarith
  obtain ⟨⟨x1, r1, f1, n1⟩, ⟨x2, r2, f2, n2⟩, x3, r3, f3, n3⟩ := row_step o' R ha
  obtain ⟨⟨y1, s1, g1, l1⟩, ⟨y2, s2, g2, l2⟩, y3, s3, g3, l3⟩ := row_step o' R' ha
  rw [e47, e69, k1, k2]
  refine ⟨⟨⟨x1, y1⟩, ⟨r1, s1⟩, ?_, ?_⟩, ⟨⟨x2, y2⟩, ⟨r2, s2⟩, ?_, ?_⟩, ⟨x3, y3⟩, ⟨r3, s3⟩, ?_, ?_⟩
  · rw [DT2.applyTo, if_neg (by simp [doubles2]), f1, g1]; rfl
  · refine (sum_near (b := ⟨x1, y1⟩) (n1.trans (add_le_add_left q _)) (l1.trans (add_le_add_left q _))).trans (le_of_eq (by ring))
  · rw [DTrans2.boostPoint]
    simp only [doubles2]
    rw [f2, g2]
  · refine (sum_near (b := ⟨x2, y2⟩) (n2.trans (add_le_add_left q _)) (l2.trans (add_le_add_left q _))).trans (le_of_eq (by ring))
  · rw [DT2.applyToVector, f3, g3]; rfl
  · refine (sum_near (b := ⟨x3, y3⟩) (n3.trans (add_le_add_left q' _)) (l3.trans (add_le_add_left q' _))).trans (le_of_eq (by ring))

/-- exact motions keep distances -/
theorem keeps (m : PlaneMotion) (x y : ℂ) :
    ‖m.point x - m.point y‖ = ‖x - y‖ ∧ ‖m.direction x - m.direction y‖ = ‖x - y‖ ∧ ‖m.point x‖ ≤ ‖x‖ + m.reach ∧ ‖m.direction x‖ = ‖x‖ ∧ 0 ≤ m.reach := by
  have n := Complex.norm_exp_ofReal_mul_I
  have d : ∀ t : ℝ, ‖Complex.exp (t * Complex.I) * x - Complex.exp (t * Complex.I) * y‖ = ‖x - y‖ := fun t => by rw [← mul_sub, norm_mul, n, one_mul]
  have d' : ∀ (t : ℝ) (x : ℂ), ‖Complex.exp (t * Complex.I) * x‖ = ‖x‖ := fun t x => by rw [norm_mul, n, one_mul]
  cases m with
  | turn t => exact ⟨d t, d t, by rw [PlaneMotion.reach, add_zero]; exact (d' t x).le, d' t x, le_refl _⟩
  | shift v => exact ⟨by simp [PlaneMotion.point], rfl, norm_add_le _ _, rfl, norm_nonneg _⟩
  | around p t =>
    refine ⟨?_, d t, ?_, d' t x, mul_nonneg zero_le_two (norm_nonneg _)⟩
    · rw [PlaneMotion.point, PlaneMotion.point, add_sub_add_left_eq_sub, ← mul_sub, sub_sub_sub_cancel_right]
      exact d' t _
    · have h1 := norm_add_le p (Complex.exp (t * Complex.I) * (x - p))
      rw [d'] at h1
      have h2 := norm_sub_le x p
      rw [PlaneMotion.point, PlaneMotion.reach]
      linarith

/-- the reach of several motions -/
noncomputable def reaches (r : PlaneMotion → ℝ) (ms : List PlaneMotion) : ℝ := (ms.map r).sum

theorem reaches_zero (ms : List PlaneMotion) : reaches (fun _ => 0) ms = 0 := by simp [reaches]

/-- the errors of several motions add up -/
theorem drift {o : Bool} {sin cos : ℝ → ℝ} (F : DTrans2 → DVec2 → Res DVec2) (g : PlaneMotion → ℂ → ℂ) (r : PlaneMotion → ℝ)
    (step : ∀ T m a, Makes2 o sin cos T m → Sized2 490 a → ∃ b, Rep b ∧ F T (doubles2 a) = .ok (doubles2 b) ∧ ‖asComplex b - g m (asComplex a)‖ ≤ 2 ^ (-47 : ℤ) * (‖asComplex a‖ + r m) + 2 ^ (-1069 : ℤ))
    (exact_step : ∀ m x y, ‖g m x - g m y‖ = ‖x - y‖ ∧ ‖g m x‖ ≤ ‖x‖ + r m ∧ 0 ≤ r m)
    {S : ℝ} (hS : S ≤ 2 ^ 480) {ts : List DTrans2} {ms : List PlaneMotion} (h : List.Forall₂ (Makes2 o sin cos) ts ms) :
    ∀ (n : ℕ) (a : V2) (x : ℂ), n + ms.length ≤ 2 ^ 40 → Rep a → ‖asComplex a - x‖ ≤ planeDrift n S →
      ‖x‖ + reaches r ms ≤ S → ∃ b, Rep b ∧ DTrans2.many F ts (doubles2 a) = .ok (doubles2 b) ∧ ‖asComplex b - ms.foldl (fun x m => g m x) x‖ ≤ planeDrift (n + ms.length) S := by
  have e46 : (2 : ℝ) ^ (-46 : ℤ) = 2 * 2 ^ (-47 : ℤ) := by norm_num
  have e68 : (2 : ℝ) ^ (-1068 : ℤ) = 2 * 2 ^ (-1069 : ℤ) := by rw [← zpow_one_add₀ two_ne_zero]; norm_num
  have τ0 : (0 : ℝ) ≤ 2 ^ (-1069 : ℤ) := (two_zpow_pos _).le
  have τ1 : (2 : ℝ) ^ (-1069 : ℤ) ≤ 1 := by
    have : (2 : ℝ) ^ (-1069 : ℤ) ≤ 2 ^ (0 : ℤ) := zpow_le_zpow_right₀ one_le_two (by norm_num)
    simpa using this
  simp only [planeDrift, e46, e68]
  generalize (2 : ℝ) ^ (-1069 : ℤ) = τ at *
  have k0 : (0 : ℝ) ≤ 2 ^ (-47 : ℤ) := (two_zpow_pos _).le
  have k1 : (2 : ℝ) ^ (-47 : ℤ) * 2 ^ 40 ≤ 1 / 8 := by norm_num
  clear e46 e68
  generalize (2 : ℝ) ^ (-47 : ℤ) = k at *
  induction h with
  | nil => exact fun n a x hn ha hx _ => ⟨a, ha, rfl, by simpa using hx⟩
  | @cons T m ts ms hm hms ih =>
    intro n a x hn ha hx hr
    rw [List.length_cons] at hn
    have rs : 0 ≤ reaches r ms := List.sum_nonneg (by
      intro y hy
      obtain ⟨m', -, rfl⟩ := List.mem_map.1 hy
      exact (exact_step m' 0 0).2.2)
    rw [show reaches r (m :: ms) = r m + reaches r ms by simp [reaches]] at hr
    have rm := (exact_step m 0 0).2.2
    have xs : ‖x‖ ≤ S := by linarith
    have S0 : 0 ≤ S := (norm_nonneg _).trans xs
    have hn' : (n : ℝ) ≤ 2 ^ 40 := by
      have : n ≤ 2 ^ 40 := by omega
      exact_mod_cast this
    have kn : k * n ≤ 1 / 8 := (mul_le_mul_of_nonneg_left hn' k0).trans k1
    have kS := mul_nonneg k0 S0
    have c0 : 0 ≤ 2 * k * S + 2 * τ := by linarith
    have d0 : (n : ℝ) * (2 * k * S + 2 * τ) ≤ S / 4 + 2 ^ 41 := by
      have h1 : (n : ℝ) * (2 * k * S + 2 * τ) = 2 * (k * n) * S + 2 * n * τ := by ring
      have h2 := mul_le_mul_of_nonneg_right kn S0
      have h3 : (n : ℝ) * τ ≤ 2 ^ 40 * 1 := mul_le_mul hn' τ1 τ0 (by positivity)
      rw [h1]
      linarith
    have tri := norm_le_norm_add_norm_sub' (asComplex a) x
    have W : Sized2 490 a := sized_of ha (by
      have h4 : (2 : ℝ) ^ 480 + 2 ^ 480 / 4 + 2 ^ 41 ≤ 2 ^ 490 := by
        have : (2 : ℝ) ^ 41 ≤ 2 ^ 480 := pow_le_pow_right₀ one_le_two (by norm_num)
        have e : (2 : ℝ) ^ 490 = 1024 * 2 ^ 480 := by rw [show (490 : ℕ) = 10 + 480 by norm_num, pow_add]; norm_num
        have p := pow_pos (two_pos (α := ℝ)) 480
        rw [e]
        clear e
        generalize (2 : ℝ) ^ 480 = B at *
        linarith
      generalize (2 : ℝ) ^ 480 = B at *
      generalize (2 : ℝ) ^ 490 = C at *
      linarith)
    obtain ⟨b, hb, hF, he⟩ := step T m a hm W
    obtain ⟨c, hc, hG, hd⟩ := ih (n + 1) b (g m x) (by omega) hb (by
      have h2 := (exact_step m (asComplex a) x).1
      have h3 := norm_sub_le_norm_sub_add_norm_sub (asComplex b) (g m (asComplex a)) (g m x)
      have h7 : k * (‖asComplex a‖ + r m) ≤ k * (S + n * (2 * k * S + 2 * τ)) := mul_le_mul_of_nonneg_left (by linarith) k0
      have h8 := mul_le_mul_of_nonneg_right kn c0
      have h9 : k * (S + n * (2 * k * S + 2 * τ)) = k * S + k * n * (2 * k * S + 2 * τ) := by ring
      push_cast
      linarith) (by
      have h1 := (exact_step m x 0).2.1
      linarith)
    refine ⟨c, hc, ?_, ?_⟩
    · rw [DTrans2.many, hF]; exact hG
    · rw [List.foldl_cons, List.length_cons, show n + (ms.length + 1) = n + 1 + ms.length by omega]
      exact hd

/-- the exact motions keep distances, however many they are -/
theorem points_keep (ms : List PlaneMotion) : ∀ x y : ℂ, ‖PlaneMotion.points ms x - PlaneMotion.points ms y‖ = ‖x - y‖ := by
  induction ms with
  | nil => exact fun x y => rfl
  | cons m ms ih => exact fun x y => (ih _ _).trans (keeps m x y).1

/-- a point that is moved as a point, and as a point of a polygon -/
theorem moved_point {o : Bool} (o' : Bool) {sin cos : ℝ → ℝ} (hs : Accurate sin Real.sin) (hc : Accurate cos Real.cos) {ts : List DTrans2} {ms : List PlaneMotion}
    (h : List.Forall₂ (Makes2 o sin cos) ts ms) (hn : ms.length ≤ 2 ^ 40) {p : V2} (hp : Rep p) (sp : ‖asComplex p‖ + PlaneMotion.path ms ≤ 2 ^ 480) :
    (∃ b, DTrans2.many (DTrans2.movePoint o') ts (doubles2 p) = .ok (doubles2 b) ∧ ‖asComplex b - PlaneMotion.points ms (asComplex p)‖ ≤ planeDrift ms.length (‖asComplex p‖ + PlaneMotion.path ms)) ∧
    ∃ b, DTrans2.many (fun T q => .ok (DTrans2.boostPoint T.matrix q)) ts (doubles2 p) = .ok (doubles2 b) ∧
      ‖asComplex b - PlaneMotion.points ms (asComplex p)‖ ≤ planeDrift ms.length (‖asComplex p‖ + PlaneMotion.path ms) := by
  have ex : ∀ (m : PlaneMotion) (x y : ℂ), ‖m.point x - m.point y‖ = ‖x - y‖ ∧ ‖m.point x‖ ≤ ‖x‖ + m.reach ∧ 0 ≤ m.reach := fun m x y => by
    obtain ⟨k1, k2, k3, k4, k5⟩ := keeps m x y
    exact ⟨k1, k3, k5⟩
  constructor
  · obtain ⟨b, -, e, n⟩ := drift (DTrans2.movePoint o') PlaneMotion.point PlaneMotion.reach (fun T m a hm ha => by
      obtain ⟨b, hb, e, n⟩ := (one_step o' hs hc hm ha).1
      exact ⟨b, hb, by rw [DTrans2.movePoint, (rows hs hc hm).1, defined_doubles2, e]; rfl, n⟩) ex sp h 0 p (asComplex p) (by omega) hp (by simp [planeDrift]) (le_refl _)
    rw [zero_add] at n
    exact ⟨b, e, n⟩
  · obtain ⟨b, -, e, n⟩ := drift (fun T q => .ok (DTrans2.boostPoint T.matrix q)) PlaneMotion.point PlaneMotion.reach (fun T m a hm ha => by
      obtain ⟨b, hb, e, n⟩ := (one_step o' hs hc hm ha).2.1
      exact ⟨b, hb, by rw [e], n⟩) ex sp h 0 p (asComplex p) (by omega) hp (by simp [planeDrift]) (le_refl _)
    rw [zero_add] at n
    exact ⟨b, e, n⟩

/-- the direction of a line, which has to be defined -/
noncomputable def turned (o : Bool) (T : DTrans2) (v : DVec2) : Res DVec2 := if !v.isDefined then .error .undefined else .ok (DT2.applyToVector o T.matrix v)

theorem moved_direction {o : Bool} (o' : Bool) {sin cos : ℝ → ℝ} (hs : Accurate sin Real.sin) (hc : Accurate cos Real.cos) {ts : List DTrans2} {ms : List PlaneMotion}
    (h : List.Forall₂ (Makes2 o sin cos) ts ms) (hn : ms.length ≤ 2 ^ 40) {d : V2} (hd : Rep d) (sd : ‖asComplex d‖ ≤ 2 ^ 480) :
    ∃ b, DTrans2.many (turned o') ts (doubles2 d) = .ok (doubles2 b) ∧ ‖asComplex b - PlaneMotion.directions ms (asComplex d)‖ ≤ planeDrift ms.length ‖asComplex d‖ := by
  obtain ⟨b, -, e, n⟩ := drift (turned o') PlaneMotion.direction (fun _ => 0) (fun T m a hm ha => by
      obtain ⟨b, hb, e, n⟩ := (one_step o' hs hc hm ha).2.2
      exact ⟨b, hb, by rw [turned, defined_doubles2, e]; rfl, by simpa using n⟩) (fun m x y => by
      obtain ⟨k1, k2, k3, k4, k5⟩ := keeps m x y
      exact ⟨k2, by simpa using k4.le, le_refl _⟩) sd h 0 d (asComplex d) (by omega) hd (by simp [planeDrift]) (by simp [reaches_zero])
  rw [zero_add] at n
  exact ⟨b, e, n⟩

/-- moving several points one after the other and each of them several times is the same -/
theorem many_list {F : DTrans2 → DVec2 → Res DVec2} {L : DTrans2 → List DVec2 → Res (List DVec2)}
    (hL : ∀ T ps cs, ps ≠ [] → List.Forall₂ (fun p c => F T p = .ok c) ps cs → L T ps = .ok cs) :
    ∀ (ts : List DTrans2) (ps bs : List DVec2), ps ≠ [] → List.Forall₂ (fun p b => DTrans2.many F ts p = .ok b) ps bs → DTrans2.many L ts ps = .ok bs := by
  intro ts
  induction ts with
  | nil =>
    intro ps bs _ h
    have : ps = bs := by
      rw [← List.forall₂_eq_eq_eq]
      exact h.imp fun a b e => Except.ok.inj e
    rw [this]; rfl
  | cons T ts ih =>
    intro ps bs hp h
    obtain ⟨cs, h1, h2⟩ : ∃ cs, List.Forall₂ (fun p c => F T p = .ok c) ps cs ∧ List.Forall₂ (fun c b => DTrans2.many F ts c = .ok b) cs bs := by
      clear hp
      induction h with
      | nil => exact ⟨[], .nil, .nil⟩
      | cons h _ ih' =>
        obtain ⟨cs, h1, h2⟩ := ih'
        obtain ⟨c, e1, e2⟩ := ok_of_bind h
        exact ⟨c :: cs, .cons e1 h1, .cons e2 h2⟩
    rw [DTrans2.many, hL T ps cs hp h1]
    refine ih cs bs ?_ h2
    rintro rfl
    cases h1
    exact hp rfl

/-- the same for two parts -/
theorem many_pair {F G : DTrans2 → DVec2 → Res DVec2} {L : DTrans2 → DVec2 × DVec2 → Res (DVec2 × DVec2)} (hL : ∀ T p q a b, F T p = .ok a → G T q = .ok b → L T (p, q) = .ok (a, b)) :
    ∀ (ts : List DTrans2) (p q a b : DVec2), DTrans2.many F ts p = .ok a → DTrans2.many G ts q = .ok b → DTrans2.many L ts (p, q) = .ok (a, b) := by
  intro ts
  induction ts with
  | nil =>
    intro p q a b h1 h2
    obtain rfl := Except.ok.inj h1
    obtain rfl := Except.ok.inj h2
    rfl
  | cons T ts ih =>
    intro p q a b h1 h2
    obtain ⟨c, e1, f1⟩ := ok_of_bind h1
    obtain ⟨d, e2, f2⟩ := ok_of_bind h2
    rw [DTrans2.many, hL T p q c d e1 e2]
    exact ih c d a b f1 f2

/-- what a moved point tells -/
theorem point_ok {o : Bool} {T : DTrans2} {p a : DVec2} (h : DTrans2.movePoint o T p = .ok a) : T.isDefined = true ∧ p.isDefined = true ∧ DT2.applyTo o T.matrix p = .ok a := by
  rw [DTrans2.movePoint] at h
  cases h1 : T.isDefined <;> cases h2 : p.isDefined <;> simp_all

theorem turned_ok {o : Bool} {T : DTrans2} {p a : DVec2} (h : turned o T p = .ok a) : p.isDefined = true ∧ DT2.applyToVector o T.matrix p = a := by
  rw [turned] at h
  cases h2 : p.isDefined <;> simp_all

/-- distances after the motions -/
theorem distances_near (ms : List PlaneMotion) {p q a b : V2} {e f : ℝ} (h1 : ‖asComplex a - PlaneMotion.points ms (asComplex p)‖ ≤ e) (h2 : ‖asComplex b - PlaneMotion.points ms (asComplex q)‖ ≤ f) :
    |‖asComplex a - asComplex b‖ - ‖asComplex p - asComplex q‖| ≤ e + f := by
  rw [← points_keep ms (asComplex p) (asComplex q)]
  generalize PlaneMotion.points ms (asComplex p) = x at *
  generalize PlaneMotion.points ms (asComplex q) = y at *
  have := abs_norm_sub_norm_le (asComplex a - asComplex b) (x - y)
  rw [show asComplex a - asComplex b - (x - y) = (asComplex a - x) - (asComplex b - y) by ring] at this
  have := norm_sub_le (asComplex a - x) (asComplex b - y)
  linarith

theorem many_total {σ : Type} (f : DTrans2 → σ → σ) : ∀ (ts : List DTrans2) (s : σ), DTrans2.many (fun T s => .ok (f T s)) ts s = .ok (ts.foldl (fun s T => f T s) s) := by
  intro ts
  induction ts with
  | nil => exact fun s => rfl
  | cons T ts ih => exact fun s => ih (f T s)

theorem all_defined {o : Bool} {sin cos : ℝ → ℝ} (hs : Accurate sin Real.sin) (hc : Accurate cos Real.cos) {ts : List DTrans2} {ms : List PlaneMotion} (h : List.Forall₂ (Makes2 o sin cos) ts ms) {T : DTrans2}
    (hT : T ∈ ts) : T.isDefined = true := by
  induction h with
  | nil => cases hT
  | cons k _ ih =>
    rcases List.mem_cons.1 hT with rfl | hT
    · exact (rows hs hc k).1
    · exact ih hT

/-- every point of a polygon is moved by itself -/
theorem many_polygon {ts : List DTrans2} (h : ∀ T ∈ ts, T.isDefined = true) {ps : List DVec2} {rs : List (List DVec2)} (h3 : 3 ≤ ps.length) :
    DTrans2.many DTrans2.movePolygon ts (ps, rs) = .ok (ps.map fun p => ts.foldl (fun q T => DTrans2.boostPoint T.matrix q) p, rs.map fun r => r.map fun p => ts.foldl (fun q T => DTrans2.boostPoint T.matrix q) p) := by
  induction ts generalizing ps rs with
  | nil => simp [DTrans2.many]
  | cons T ts ih =>
    rw [DTrans2.many, DTrans2.movePolygon, h T (by simp), if_neg (by simp), if_neg (by simpa using h3)]
    change DTrans2.many DTrans2.movePolygon ts _ = _
    rw [ih (fun T hT => h T (by simp [hT])) (by simpa using h3)]
    simp [List.map_map, Function.comp_def]

end Move2

end Verif.Props
