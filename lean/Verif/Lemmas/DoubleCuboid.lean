import Verif.Model.DoubleCuboid
import Verif.Props.DoubleSphere
import Verif.Props.DoubleBetween
import Verif.Props.DoubleDifference
import Verif.Props.DoubleAngle
import Verif.Props.Cuboid
import Verif.Props.Cone

/-!
# Lemmas on cuboids and cones in double precision
-/

namespace Verif.Props

open Verif Verif.Spec Verif.Double

/-- the computed coordinate along an axis -/
noncomputable def alongAxis (o : Bool) (p c a : V3) : ℝ := |dotR o (diff3 p c) a|

theorem along_rep (o : Bool) (p c a : V3) : Representable (alongAxis o p c a) := by
  rcases abs_choice (dotR o (diff3 p c) a) with h | h
  · rw [alongAxis, h]; exact DVec.sum3_representable _ _ _ _
  · rw [alongAxis, h]; exact representable_neg (DVec.sum3_representable _ _ _ _)

/-- the error of a coordinate along an axis -/
noncomputable def alongError (p c a : V3) : ℝ := 5 / 2 ^ 53 * ((p - c).norm * a.norm) + 2 ^ (-1073 : ℤ)

theorem abs_dot_le_norms (v w : V3) : |v.dot w| ≤ v.norm * w.norm := by
  refine abs_le_of_sq_le_sq ?_ (mul_nonneg (V3.norm_nonneg _) (V3.norm_nonneg _))
  rw [mul_pow, V3.norm_sq, V3.norm_sq]
  simp only [V3.normSq, V3.dot]
  nlinarith [sq_nonneg (v.x * w.y - v.y * w.x), sq_nonneg (v.y * w.z - v.z * w.y), sq_nonneg (v.z * w.x - v.x * w.z)]

theorem dot_near (o : Bool) {p c : V3} (hp : Within p) (hc : Within c) (a : V3) : |dotR o (diff3 p c) a - (p - c).dot a| ≤ alongError p c a := by
  have u0 := DQuat.u_pos
  have us := DQuat.u_small
  have h1 := dotR_near o (diff3 p c) a
  have h2 := diff3_near hp hc
  have h3 : |(diff3 p c).dot a - (p - c).dot a| ≤ DQuat.u * (p - c).norm * a.norm := by
    have e : (diff3 p c).dot a - (p - c).dot a = (diff3 p c - (p - c)).dot a := by
      simp only [V3.dot, V3.sub_x, V3.sub_y, V3.sub_z]; ring
    rw [e]
    exact (abs_dot_le_norms _ _).trans (mul_le_mul_of_nonneg_right h2 (V3.norm_nonneg a))
  have h4 : (diff3 p c).norm ≤ (1 + DQuat.u) * (p - c).norm := by
    have := V3.norm_add_le (diff3 p c - (p - c)) (p - c)
    rw [show diff3 p c - (p - c) + (p - c) = diff3 p c by ext <;> simp] at this
    linarith
  have h5 : (diff3 p c).norm * a.norm ≤ (1 + DQuat.u) * ((p - c).norm * a.norm) := by
    rw [← mul_assoc]; exact mul_le_mul_of_nonneg_right h4 (V3.norm_nonneg a)
  have ht : 31 / 10 * DQuat.t ≤ (2 : ℝ) ^ (-1073 : ℤ) := by
    rw [DQuat.t, show (-1073 : ℤ) = 2 + -1075 by norm_num, zpow_add₀ two_ne_zero]
    exact mul_le_mul_of_nonneg_right (by norm_num) (two_zpow_pos _).le
  have hM : 0 ≤ (p - c).norm * a.norm := mul_nonneg (V3.norm_nonneg _) (V3.norm_nonneg _)
  have h6 : 301 / 100 * DQuat.u * ((diff3 p c).norm * a.norm) ≤ 302 / 100 * DQuat.u * ((p - c).norm * a.norm) := by
    refine (mul_le_mul_of_nonneg_left h5 (by positivity)).trans ?_
    rw [← mul_assoc]
    exact mul_le_mul_of_nonneg_right (by nlinarith) hM
  rw [alongError, e53 5]
  have := abs_sub_le (dotR o (diff3 p c) a) ((diff3 p c).dot a) ((p - c).dot a)
  nlinarith [mul_nonneg u0.le hM]

theorem along_near (o : Bool) {p c : V3} (hp : Within p) (hc : Within c) (a : V3) : |alongAxis o p c a - abs ((p - c).dot a)| ≤ alongError p c a :=
  (abs_abs_sub_abs_le _ _).trans (dot_near o hp hc a)

/-- the computed test of a face -/
noncomputable def faceTest (o : Bool) (eps : ℝ) (p c a : V3) (e : ℝ) : Prop := |rnd (alongAxis o p c a - e)| < eps

theorem dot_both (o : Bool) {v a : V3} (hv : Bounded 500 v) (ha : Bounded 500 a) : (doubles v).dot o (doubles a) = .fin (dotR o v a) ∧ |dotR o v a| ≤ 2 ^ 1002 :=
  DVec.dot_fin o hv.1 hv.2.1 hv.2.2 ha.1 ha.2.1 ha.2.2

/-- a cuboid of doubles -/
noncomputable def cuboidD (c a1 a2 a3 : V3) (e1 e2 e3 : ℝ) : DCuboid := ⟨doubles c, doubles a1, doubles a2, doubles a3, .fin e1, .fin e2, .fin e3⟩

theorem cuboidD_defined (c a1 a2 a3 : V3) (e1 e2 e3 : ℝ) : (cuboidD c a1 a2 a3 e1 e2 e3).isDefined = true := by
  simp [cuboidD, DCuboid.isDefined, doubles_defined]

theorem cuboid_cases (o : Bool) (eps : ℝ) {c p a1 a2 a3 : V3} {e1 e2 e3 : ℝ} (hc : Within c) (hp : Within p) (h1 : Within a1) (h2 : Within a2) (h3 : Within a3)
    (k1 : |e1| ≤ 2 ^ 1000) (k2 : |e2| ≤ 2 ^ 1000) (k3 : |e3| ≤ 2 ^ 1000) :
    ∃ r, (cuboidD c a1 a2 a3 e1 e2 e3).contains o (.fin eps) (doubles p) = .ok r ∧ (r = true ↔
      (faceTest o eps p c a1 e1 ∧ alongAxis o p c a2 ≤ e2 ∧ alongAxis o p c a3 ≤ e3) ∨ (¬faceTest o eps p c a1 e1 ∧ faceTest o eps p c a2 e2 ∧ alongAxis o p c a1 ≤ e1 ∧ alongAxis o p c a3 ≤ e3) ∨
      (¬faceTest o eps p c a1 e1 ∧ ¬faceTest o eps p c a2 e2 ∧ faceTest o eps p c a3 e3 ∧ alongAxis o p c a1 ≤ e1 ∧ alongAxis o p c a2 ≤ e2)) := by
  obtain ⟨e, b⟩ := sub_doubles (by norm_num) hp.bounded hc.bounded
  have b := b.mono (show 499 + 1 ≤ 500 by norm_num)
  have m : ∀ {a : V3}, Within a → Bounded 500 a := fun h => h.bounded.mono (by norm_num)
  have s : ∀ {a : V3} {e : ℝ}, Within a → |e| ≤ 2 ^ 1000 → (F64.fin (alongAxis o p c a)).sub (.fin e) = .fin (rnd (alongAxis o p c a - e)) := fun {a e} ha he => by
    have hb := (dot_both o b (m ha)).2
    exact (DVec.sub_fin2 (n := 1002) (by norm_num) (by rwa [alongAxis, abs_abs]) (he.trans (pow_le_pow_right₀ one_le_two (by norm_num)))).1
  rw [DCuboid.contains, doubles_defined, cuboidD_defined]
  simp only [Bool.not_true, Bool.false_eq_true, if_false, cuboidD, e, (dot_both o b (m h1)).1, (dot_both o b (m h2)).1, (dot_both o b (m h3)).1, F64.abs]
  rw [show |dotR o (diff3 p c) a1| = alongAxis o p c a1 from rfl, show |dotR o (diff3 p c) a2| = alongAxis o p c a2 from rfl, show |dotR o (diff3 p c) a3| = alongAxis o p c a3 from rfl,
    s h1 k1, s h2 k2, s h3 k3]
  simp only [F64.lt, F64.le, decide_eq_true_eq]
  refine ⟨_, rfl, ?_⟩
  unfold faceTest
  split_ifs with t1 t2 t3 <;> simp only [Bool.and_eq_true, decide_eq_true_eq, not_true_eq_false, not_false_eq_true, true_and, false_and, or_false, false_or, *]

/-- what the test of a face says -/
theorem faceTest_sound {o : Bool} {eps : ℝ} {p c a : V3} {e : ℝ} (he : Representable e) (h : faceTest o eps p c a e) : |alongAxis o p c a - e| < (1 + 2 / 2 ^ 53) * eps := by
  have u0 := DQuat.u_pos
  have us := DQuat.u_small
  have n := DLine2.sub_near (along_rep o p c a) he
  have h' : |rnd (alongAxis o p c a - e)| < eps := h
  have k := abs_sub_abs_le_abs_sub (alongAxis o p c a - e) (rnd (alongAxis o p c a - e))
  rw [abs_sub_comm _ (rnd _)] at k
  rw [e53 2]
  generalize |alongAxis o p c a - e| = x at *
  have : (1 - DQuat.u) * x < eps := by linarith
  have e0 : 0 < eps := lt_of_le_of_lt (abs_nonneg _) h'
  by_contra hh
  push Not at hh
  have := mul_le_mul_of_nonneg_left hh (show 0 ≤ 1 - DQuat.u by linarith)
  nlinarith [mul_pos u0 e0]

theorem faceTest_complete {o : Bool} {eps : ℝ} {p c a : V3} {e : ℝ} (e0 : 0 < eps) (he : Representable e) (h : |alongAxis o p c a - e| ≤ (1 - 2 / 2 ^ 53) * eps) : faceTest o eps p c a e := by
  have u0 := DQuat.u_pos
  have us := DQuat.u_small
  have n := DLine2.sub_near (along_rep o p c a) he
  have k := abs_sub_abs_le_abs_sub (rnd (alongAxis o p c a - e)) (alongAxis o p c a - e)
  rw [e53 2] at h
  unfold faceTest
  generalize |alongAxis o p c a - e| = x at *
  have : |rnd (alongAxis o p c a - e)| ≤ (1 + DQuat.u) * x := by linarith
  have := mul_le_mul_of_nonneg_left h (show 0 ≤ 1 + DQuat.u by linarith)
  nlinarith [mul_pos u0 e0]

end Verif.Props

namespace Verif.Props

open Verif Verif.Spec Verif.Double

theorem ratio_degree : (DAngle.pi (α := ℝ)).div (.fin 180) = .fin (5030569068109113 * 2 ^ (-58 : ℤ)) := by
  have r1 : rnd ((7074237752028440 : ℝ) * 2 ^ (-51 : ℤ) / 180) = 5030569068109113 * 2 ^ (-58 : ℤ) := by
    rw [rnd_eq 5030569068109113 (-58) (by norm_num) (by norm_num) (by norm_num) (by norm_num)]; norm_num
  rw [DAngle.pi, (div_fin (by norm_num) (by norm_num)).1, r1]

theorem full_turn : (F64.fin (360 : ℝ)).sub (.fin 0) = .fin 360 := by
  have r : Representable (360 : ℝ) := by simpa using representable_int (α := ℝ) (m := 360) (by norm_num)
  rw [DAngle.sub_fin, sub_zero, F64.ofExact_fin] <;> rw [rnd_exact r]
  rw [abs_of_pos (by norm_num)]
  exact lt_of_lt_of_le (by norm_num : (360 : ℝ) < 2 ^ 9) (pow_le_pow_right₀ one_le_two (by norm_num))

/-- an angle in degrees that is in the range is left alone -/
theorem in_range_degree (n : ℕ) {t : ℝ} (h0 : 0 ≤ t) (h1 : t < 360) : DAngle.inRange n .degree ⟨.fin t, .degree⟩ (.fin 0) (.fin 360) = some (.ok (.fin t)) := by
  simp [DAngle.inRange, full_turn, DAngle.turn, F64.eq, DAngle.inUnit, DAngle.isDefined, DAngle.reduceRange, F64.le, F64.lt, h0, h1]

/-- the degrees of an angle between zero and a half turn -/
theorem in_range_radian (n : ℕ) {r : ℝ} (hr : Representable r) (h0 : 0 ≤ r) (h1 : r ≤ 7074237752028440 * 2 ^ (-51 : ℤ)) :
    ∃ x, DAngle.inRange n .degree ⟨.fin r, .radian⟩ (.fin 0) (.fin 360) = some (.ok (.fin x)) ∧ |x * (Real.pi / 180) - r| ≤ 2 ^ (-48 : ℤ) := by
  set q : ℝ := 5030569068109113 * 2 ^ (-58 : ℤ) with hq
  have q0 : 0 < q := by rw [hq]; norm_num
  have s1 : (F64.fin r).mul (.fin 1) = .fin r := by
    rw [F64.mul, mul_one, F64.ofExact_fin] <;> rw [rnd_exact hr]
    rw [abs_of_nonneg h0]
    exact lt_of_le_of_lt (h1.trans (by norm_num : _ ≤ (2 : ℝ) ^ 2)) (pow_lt_pow_right₀ one_lt_two (by norm_num))
  have w0 : 0 ≤ r / q := div_nonneg h0 q0.le
  have w1 : r / q ≤ 181 := by rw [div_le_iff₀ q0]; exact h1.trans (by rw [hq]; norm_num)
  have wn : |rnd (r / q) - r / q| ≤ 2 ^ (-46 : ℤ) := DRot.half (k := 8) (by norm_num) (by rw [abs_of_nonneg w0]; exact w1.trans (by norm_num))
  have x0 : 0 ≤ rnd (r / q) := by simpa [rnd_zero] using rnd_mono w0
  have x1 : rnd (r / q) < 360 := by
    have k := (abs_le.1 wn).2
    have z : (2 : ℝ) ^ (-46 : ℤ) ≤ 1 := by norm_num
    linarith
  have s2 : (F64.fin r).div (.fin q) = .fin (rnd (r / q)) := by
    simp only [F64.div, if_neg q0.ne']
    rw [F64.ofExact_fin]
    rw [abs_of_nonneg x0]
    exact lt_of_lt_of_le (x1.trans (by norm_num : (360 : ℝ) < 2 ^ 9)) (pow_le_pow_right₀ one_le_two (by norm_num))
  refine ⟨rnd (r / q), ?_, ?_⟩
  · have e : DAngle.inUnit (⟨.fin r, .radian⟩ : DAngle ℝ) .degree = .ok (.fin (rnd (r / q))) := by
      simp only [DAngle.inUnit, DAngle.isDefined, DAngle.SIRatio, ratio_degree]
      rw [← hq]
      simp [bind, Except.bind, s1, s2]
      rfl
    simp [DAngle.inRange, full_turn, DAngle.turn, F64.eq, e, DAngle.reduceRange, F64.le, F64.lt, x0, x1]
  · have p1 := Real.pi_gt_d20
    have p2 := Real.pi_lt_d20
    have a1 : |(rnd (r / q) - r / q) * (Real.pi / 180)| ≤ 2 ^ (-46 : ℤ) * (1 / 50) := by
      rw [abs_mul]
      exact mul_le_mul wn (by rw [abs_of_pos (by positivity)]; linarith) (abs_nonneg _) (two_zpow_pos _).le
    have a2 : |r / q * (Real.pi / 180 - q)| ≤ 181 * 2 ^ (-57 : ℤ) := by
      rw [abs_mul, abs_of_nonneg w0]
      refine mul_le_mul w1 ?_ (abs_nonneg _) (by norm_num)
      rw [hq]
      refine abs_le.2 ⟨?_, ?_⟩ <;> norm_num <;> linarith
    have e : rnd (r / q) * (Real.pi / 180) - r = (rnd (r / q) - r / q) * (Real.pi / 180) + r / q * (Real.pi / 180 - q) := by
      field_simp; ring
    rw [e]
    refine (abs_add_le _ _).trans ((add_le_add a1 a2).trans ?_)
    norm_num

theorem cosine_eq (a b : V3) : cosine a b = a.dot b / (a.norm * b.norm) := rfl

theorem cosine_le_one (a b : V3) : |cosine a b| ≤ 1 := by
  rw [cosine_eq, abs_div, abs_of_nonneg (mul_nonneg (V3.norm_nonneg a) (V3.norm_nonneg b))]
  exact div_le_one_of_le₀ (abs_dot_le_norms a b) (mul_nonneg (V3.norm_nonneg a) (V3.norm_nonneg b))

theorem cosine_move {v w d : V3} (hv : 0 < v.norm) (hw : 0 < w.norm) (hd : 0 < d.norm) {k : ℝ} (h : (w - v).norm ≤ k * v.norm) : |cosine w d - cosine v d| ≤ 2 * k := by
  have e1 : |(w - v).dot d| ≤ k * v.norm * d.norm := (abs_dot_le_norms _ _).trans (mul_le_mul_of_nonneg_right h hd.le)
  have e2 := abs_dot_le_norms w d
  have e3 : |v.norm - w.norm| ≤ k * v.norm := by
    have a := V3.norm_add_le (w - v) v
    have b := V3.norm_add_le (v - w) w
    rw [show w - v + v = w by ext <;> simp] at a
    rw [show v - w + w = v by ext <;> simp, V3.norm_sub_comm v w] at b
    exact abs_le.2 ⟨by linarith, by linarith⟩
  have id : cosine w d - cosine v d = (w - v).dot d / (v.norm * d.norm) + w.dot d * (v.norm - w.norm) / (w.norm * (v.norm * d.norm)) := by
    have : (w - v).dot d = w.dot d - v.dot d := by simp only [V3.dot, V3.sub_x, V3.sub_y, V3.sub_z]; ring
    rw [this, cosine_eq, cosine_eq]
    field_simp
    ring
  rw [id]
  have c1 : |(w - v).dot d / (v.norm * d.norm)| ≤ k := by
    rw [abs_div, abs_of_pos (mul_pos hv hd), div_le_iff₀ (mul_pos hv hd)]; linarith
  have c2 : |w.dot d * (v.norm - w.norm) / (w.norm * (v.norm * d.norm))| ≤ k := by
    rw [abs_div, abs_of_pos (by positivity : 0 < w.norm * (v.norm * d.norm)), div_le_iff₀ (by positivity), abs_mul]
    calc _ ≤ (w.norm * d.norm) * (k * v.norm) := mul_le_mul e2 e3 (abs_nonneg _) (by positivity)
      _ = _ := by ring
  linarith [abs_add_le ((w - v).dot d / (v.norm * d.norm)) (w.dot d * (v.norm - w.norm) / (w.norm * (v.norm * d.norm)))]

/-- the solid cone by the angle -/
theorem mem_cone {a d p : V3} (hv : 0 < (p - a).norm) (hd : 0 < d.norm) {t : ℝ} (t0 : 0 ≤ t) (t1 : t ≤ Real.pi) : p ∈ ConeSet a d t ↔ Real.arccos (cosine (p - a) d) ≤ t := by
  have hb := abs_le.1 (cosine_le_one (p - a) d)
  have : p ∈ ConeSet a d t ↔ Real.cos t ≤ cosine (p - a) d := by
    rw [cosine_eq, le_div_iff₀ (mul_pos hv hd)]; rfl
  rw [this]
  constructor
  · intro h
    have := Real.arccos_le_arccos h
    rwa [Real.arccos_cos t0 t1] at this
  · intro h
    have := Real.cos_le_cos_of_nonneg_of_le_pi (Real.arccos_nonneg _) t1 h
    rwa [Real.cos_arccos hb.1 hb.2] at this

/-- a cone of doubles with the angle in degrees -/
noncomputable def coneD (a d : V3) (t : ℝ) : DCone := ⟨doubles a, doubles d, ⟨.fin t, .degree⟩⟩

theorem coneD_defined (a d : V3) (t : ℝ) : (coneD a d t).isDefined = true := by simp [coneD, DCone.isDefined, doubles_defined, DAngle.isDefined]

theorem diff3_within {p a : V3} (hp : Small p) (ha : Small a) : Within (diff3 p a) := by
  obtain ⟨-, b⟩ := sub_doubles (n := 248) (by norm_num) hp.bounded ha.bounded
  have b := b.mono (show 248 + 1 ≤ 499 by norm_num)
  exact ⟨⟨rnd_representable _, b.1⟩, ⟨rnd_representable _, b.2.1⟩, ⟨rnd_representable _, b.2.2⟩⟩

theorem diff3_normSq {p a : V3} (hp : Within p) (ha : Within a) : (p - a).normSq / 2 ≤ (diff3 p a).normSq ∧ (diff3 p a).normSq ≤ 2 * (p - a).normSq := by
  have u0 := DQuat.u_pos
  have us := DQuat.u_small
  have h := diff3_near hp ha
  have a1 := V3.norm_add_le (diff3 p a - (p - a)) (p - a)
  have a2 := V3.norm_add_le ((p - a) - diff3 p a) (diff3 p a)
  rw [show diff3 p a - (p - a) + (p - a) = diff3 p a by ext <;> simp] at a1
  rw [show (p - a) - diff3 p a + diff3 p a = p - a by ext <;> simp, V3.norm_sub_comm (p - a) (diff3 p a)] at a2
  have n1 := V3.norm_nonneg (p - a)
  have n2 := V3.norm_nonneg (diff3 p a)
  rw [← V3.norm_sq, ← V3.norm_sq]
  generalize (p - a).norm = x at *
  generalize (diff3 p a).norm = y at *
  have b1 : y ≤ 11 / 10 * x := by nlinarith
  have b2 : 9 / 10 * x ≤ y := by nlinarith
  constructor <;> nlinarith

theorem sub_point_eq {p a : V3} : (doubles p).eq (doubles a) = true ↔ p = a := by
  simp [DVec.eq, doubles, F64.eq, V3.ext_iff, and_assoc]

/-- the test of the side and the angle -/
theorem cone_cases (n : ℕ) (o : Bool) (eps : ℝ) (acos : ℝ → ℝ) {a d p : V3} (t : ℝ) (ha : Small a) (hp : Small p) (hd : Within d) (hne : p ≠ a) :
    (coneD a d t).contains n o (.fin eps) acos (doubles p) =
      if dotR o (diff3 p a) d < 0 then some (.ok false)
      else match DVec.between o (.fin eps) acos (doubles (diff3 p a)) (doubles d) with
        | .error e => some (.error e)
        | .ok r =>
          match DAngle.inRange n .degree ⟨r, .radian⟩ (.fin 0) (.fin 360) with
          | none => none
          | some (.error e) => some (.error e)
          | some (.ok x) =>
            match DAngle.inRange n .degree ⟨.fin t, .degree⟩ (.fin 0) (.fin 360) with
            | none => none
            | some (.error e) => some (.error e)
            | some (.ok y) => some (.ok (x.le y)) := by
  have e := (sub_doubles (n := 248) (by norm_num) hp.bounded ha.bounded).1
  have ed := (dot_both o ((diff3_within hp ha).bounded.mono (by norm_num)) (hd.bounded.mono (show 499 ≤ 500 by norm_num))).1
  rw [DCone.contains, doubles_defined, coneD_defined]
  have e0 : (doubles p).eq (doubles a) = false := by rw [Bool.eq_false_iff, ne_eq, sub_point_eq]; exact hne
  simp only [Bool.not_true, Bool.false_eq_true, if_false, coneD, e0, e, ed, F64.lt, decide_eq_true_eq]
  rfl

end Verif.Props
