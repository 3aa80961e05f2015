import Verif.Lemmas.DoubleLine2
import Verif.Props.DoubleSegment

/-!
# Lines of the plane in double precision

Property C125. Code: `src/OpenSpaceToolkit/Mathematics/Geometry/2D/Object/Line.cpp`.
-/

namespace Verif.Props

open Verif Verif.Spec Verif.Double

/-- the vector of two finite doubles -/
def doubles2 (a : V2) : DVec2 := ⟨.fin a.x, .fin a.y⟩

/-- two finite doubles, at most `2 ^ n` in size -/
structure Sized2 (n : ℕ) (a : V2) : Prop where
  x : Representable a.x ∧ |a.x| ≤ 2 ^ n
  y : Representable a.y ∧ |a.y| ≤ 2 ^ n

theorem defined_doubles2 (a : V2) : (doubles2 a).isDefined = true := by simp [DVec2.isDefined, doubles2]

theorem eq_self_of_defined {x : F64 ℝ} (h : x ≠ .nan) : x.eq x = true := by cases x <;> simp_all [F64.eq]

/-- C125: a line contains its origin and equals itself -/
theorem C125_origin (l : DLine2) (h : l.isDefined = true) : l.contains l.origin = .ok true ∧ l.eq l = .ok true := by
  have h' := h
  simp only [DLine2.isDefined, DVec2.isDefined, Bool.and_eq_true, decide_eq_true_eq] at h
  have e : l.origin.eq l.origin = true := by simp [DVec2.eq, eq_self_of_defined h.1.1, eq_self_of_defined h.1.2]
  have e2 : l.direction.eq l.direction = true := by simp [DVec2.eq, eq_self_of_defined h.2.1, eq_self_of_defined h.2.2]
  have c : l.contains l.origin = .ok true := by
    have : l.origin.isDefined = true := by simp [DVec2.isDefined, h.1.1, h.1.2]
    simp [DLine2.contains, this, h', e]
  exact ⟨c, by simp [DLine2.eq, h', e2, c]⟩

example : (⟨doubles2 ⟨1, 2⟩, doubles2 ⟨3, 4⟩⟩ : DLine2).isDefined = true := by simp [DLine2.isDefined, defined_doubles2]

open Classical in
theorem eq_doubles2 (a b : V2) : (doubles2 a).eq (doubles2 b) = decide (a = b) := by
  rw [Bool.eq_iff_iff]
  simp only [DVec2.eq, doubles2, F64.eq, Bool.and_eq_true, decide_eq_true_eq]
  constructor
  · intro h; exact V2.ext h.1 h.2
  · rintro rfl; exact ⟨rfl, rfl⟩

theorem neg_eq_of_defined {x : F64 ℝ} (h : x ≠ .nan) : x.eq x.neg.neg = true := by cases x <;> simp_all [F64.eq, F64.neg]

/-- C125: a line equals the line reversed, whatever its origin and direction; lines whose directions are neither equal nor opposite are not equal, whatever their origins -/
theorem C125_reversed (l : DLine2) (h : l.isDefined = true) :
    l.eq ⟨l.origin, l.direction.neg⟩ = .ok true ∧ ∀ o d o' d' : V2, d ≠ d' → d ≠ ⟨-d'.x, -d'.y⟩ → DLine2.eq ⟨doubles2 o, doubles2 d⟩ ⟨doubles2 o', doubles2 d'⟩ = .ok false := by
  refine ⟨?_, fun o d o' d' h1 h2 => ?_⟩
  · have c := (C125_origin l h).1
    have h' := h
    simp only [DLine2.isDefined, DVec2.isDefined, Bool.and_eq_true, decide_eq_true_eq] at h
    have e : l.direction.eq l.direction.neg.neg = true := by simp [DVec2.eq, DVec2.neg, neg_eq_of_defined h.2.1, neg_eq_of_defined h.2.2]
    have n : ∀ x : F64 ℝ, x ≠ .nan → x.neg ≠ .nan := fun x hx => by cases x <;> simp_all [F64.neg]
    have k : DLine2.isDefined ⟨l.origin, l.direction.neg⟩ = true := by
      simp [DLine2.isDefined, DVec2.isDefined, DVec2.neg, h.1.1, h.1.2, n _ h.2.1, n _ h.2.2]
    simp [DLine2.eq, h', k, e, c]
  · have n : (doubles2 d').neg = doubles2 ⟨-d'.x, -d'.y⟩ := rfl
    simp [DLine2.eq, DLine2.isDefined, defined_doubles2, n, eq_doubles2, h1, h2]

example : DLine2.eq ⟨doubles2 ⟨1, 2⟩, doubles2 ⟨0, 1⟩⟩ ⟨doubles2 ⟨1, 2⟩, doubles2 ⟨0, -1⟩⟩ = .ok true := by
  have := (C125_reversed ⟨doubles2 ⟨1, 2⟩, doubles2 ⟨0, 1⟩⟩ (by simp [DLine2.isDefined, defined_doubles2])).1
  have n : (doubles2 ⟨0, 1⟩).neg = doubles2 ⟨0, -1⟩ := by simp [DVec2.neg, doubles2, F64.neg]
  rwa [n] at this

theorem ofExact_cases (x : ℝ) : (∃ s, F64.ofExact x = .inf s) ∨ F64.ofExact x = .fin (rnd x) := by
  unfold F64.ofExact; split
  · exact .inl ⟨_, rfl⟩
  · exact .inr rfl

open Classical in
/-- the test for finite numbers -/
theorem contains_doubles2 {n : ℕ} (hn : n < 1020) {o d p : V2} (ho : Sized2 n o) (hd : Sized2 n d) (hp : Sized2 n p) :
    DLine2.contains ⟨doubles2 o, doubles2 d⟩ (doubles2 p) = .ok (
      if p = o then true
      else if rnd (o.x + d.x) = o.x then decide (p.x = o.x)
      else (F64.fin p.y).eq ((((F64.fin (rnd (rnd (o.y + d.y) - o.y))).div (.fin (rnd (rnd (o.x + d.x) - o.x)))).mul (.fin (rnd (p.x - o.x)))).add (.fin o.y))) := by
  obtain ⟨e1, b1⟩ := DVec.add_fin2 (by omega) ho.x.2 hd.x.2
  obtain ⟨e2, b2⟩ := DVec.add_fin2 (by omega) ho.y.2 hd.y.2
  have p1 : (2 : ℝ) ^ n ≤ 2 ^ (n + 1) := pow_le_pow_right₀ one_le_two (by omega)
  obtain ⟨e3, -⟩ := DVec.sub_fin2 (n := n + 1) (by omega) b1 (ho.x.2.trans p1)
  obtain ⟨e4, -⟩ := DVec.sub_fin2 (n := n + 1) (by omega) b2 (ho.y.2.trans p1)
  obtain ⟨e5, -⟩ := DVec.sub_fin2 (by omega) hp.x.2 ho.x.2
  have hdef : (⟨doubles2 o, doubles2 d⟩ : DLine2).isDefined = true := by simp [DLine2.isDefined, defined_doubles2]
  have hadd : (doubles2 o).add (doubles2 d) = doubles2 ⟨rnd (o.x + d.x), rnd (o.y + d.y)⟩ := by simp [DVec2.add, doubles2, e1, e2]
  simp only [DLine2.contains, defined_doubles2, hdef, eq_doubles2, hadd, Bool.not_true, Bool.false_eq_true, if_false, decide_eq_true_eq]
  simp only [doubles2, e3, e4, e5, F64.eq, decide_eq_true_eq]
  split
  · rfl
  · split <;> rfl

/-- the cross product of what was accepted is small -/
theorem accepted_cross {o d p : V2} (ho : Sized2 50 o) (hd : Sized2 1 d) (hp : Sized2 500 p)
    (h : DLine2.contains ⟨doubles2 o, doubles2 d⟩ (doubles2 p) = .ok true) :
    |(p.x - o.x) * d.y - (p.y - o.y) * d.x| ≤ 20 * DQuat.u * ((1 + |o.x| + |o.y|) * (|p.x - o.x| + |p.y - o.y|)) + 6 * DQuat.u * |o.y| + 3 * DQuat.t := by
  have ho' : Sized2 500 o := ⟨⟨ho.x.1, ho.x.2.trans (pow_le_pow_right₀ one_le_two (by norm_num))⟩, ⟨ho.y.1, ho.y.2.trans (pow_le_pow_right₀ one_le_two (by norm_num))⟩⟩
  have hd' : Sized2 500 d := ⟨⟨hd.x.1, hd.x.2.trans (pow_le_pow_right₀ one_le_two (by norm_num))⟩, ⟨hd.y.1, hd.y.2.trans (pow_le_pow_right₀ one_le_two (by norm_num))⟩⟩
  rw [contains_doubles2 (by norm_num) ho' hd' hp, Except.ok.injEq] at h
  have u0 := DQuat.u_pos
  have u1 := DQuat.u_small
  have t0 := DQuat.t_pos
  have ox0 := abs_nonneg o.x
  have oy0 := abs_nonneg o.y
  have X0 := abs_nonneg (p.x - o.x)
  have Y0 := abs_nonneg (p.y - o.y)
  have dx2 : |d.x| ≤ 2 := by simpa using hd.x.2
  have dy2 : |d.y| ≤ 2 := by simpa using hd.y.2
  have uox : DQuat.u * |o.x| ≤ 1 / 8 := by
    have := mul_le_mul_of_nonneg_left ho.x.2 u0.le
    rw [DQuat.u] at this ⊢; norm_num at this ⊢; linarith
  have uoy : DQuat.u * |o.y| ≤ 1 / 8 := by
    have := mul_le_mul_of_nonneg_left ho.y.2 u0.le
    rw [DQuat.u] at this ⊢; norm_num at this ⊢; linarith
  have tot : 0 ≤ 20 * DQuat.u * ((1 + |o.x| + |o.y|) * (|p.x - o.x| + |p.y - o.y|)) + 6 * DQuat.u * |o.y| + 3 * DQuat.t := by positivity
  have xo : 0 ≤ DQuat.u * (|o.x| * |p.x - o.x|) := by positivity
  have xo' : 0 ≤ DQuat.u * (|o.x| * |p.y - o.y|) := by positivity
  have yo : 0 ≤ DQuat.u * (|o.y| * |p.x - o.x|) := by positivity
  have yo' : 0 ≤ DQuat.u * (|o.y| * |p.y - o.y|) := by positivity
  have uX : 0 ≤ DQuat.u * |p.x - o.x| := by positivity
  have uY : 0 ≤ DQuat.u * |p.y - o.y| := by positivity
  have uO : 0 ≤ DQuat.u * |o.y| := by positivity
  split at h
  · rename_i e; subst e
    simpa using tot
  split at h
  · rename_i e
    have ex : p.x = o.x := of_decide_eq_true h
    have k := DLine2.add_near ho.x.1 hd.x.1
    rw [e, show o.x - (o.x + d.x) = -d.x by ring, abs_neg] at k
    have s : |o.x + d.x| ≤ |o.x| + 2 := (abs_add_le _ _).trans (by linarith)
    have k2 := mul_le_mul_of_nonneg_left s u0.le
    rw [ex, sub_self, zero_mul, zero_sub, abs_neg, abs_mul]
    have k3 := mul_le_mul_of_nonneg_left (k.trans k2) Y0
    rw [abs_zero, zero_add]
    linarith
  · rename_i hne
    have hex := DLine2.sub_ne_zero' (rnd_representable (o.x + d.x)) ho.x.1 hne
    have nx := DLine2.back_near ho.x.1 hd.x.1
    have ny := DLine2.back_near ho.y.1 hd.y.1
    have hw := DLine2.sub_near hp.x.1 ho.x.1
    generalize rnd (rnd (o.x + d.x) - o.x) = ex at *
    generalize rnd (rnd (o.y + d.y) - o.y) = ey at *
    generalize rnd (p.x - o.x) = w at *
    have hpy : p.y = rnd (rnd (rnd (ey / ex) * w) + o.y) := by
      rw [F64.div, if_neg hex] at h
      rcases ofExact_cases (ey / ex) with ⟨s, hs⟩ | hs <;> rw [hs] at h
      · rw [F64.mul] at h
        split at h <;> simp [F64.add, F64.eq] at h
      · rw [F64.mul] at h
        rcases ofExact_cases (rnd (ey / ex) * w) with ⟨s, hs⟩ | hs <;> rw [hs] at h
        · simp [F64.add, F64.eq] at h
        · rw [F64.add] at h
          rcases ofExact_cases (rnd (rnd (ey / ex) * w) + o.y) with ⟨s, hs⟩ | hs <;> rw [hs] at h
          · simp [F64.eq] at h
          · exact of_decide_eq_true h
    have k := DLine2.slope_near hex ho.y.1 hw hpy
    have E : |ex| ≤ 3 := by
      have := abs_add_le d.x (ex - d.x); rw [show d.x + (ex - d.x) = ex by ring] at this
      nlinarith
    have F : |ey| ≤ 3 := by
      have := abs_add_le d.y (ey - d.y); rw [show d.y + (ey - d.y) = ey by ring] at this
      nlinarith
    have PY : |p.y| ≤ |p.y - o.y| + |o.y| := by
      have := abs_add_le (p.y - o.y) o.y; rwa [sub_add_cancel] at this
    have c1 : |ex| * |p.y| ≤ 3 * (|p.y - o.y| + |o.y|) := mul_le_mul E PY (abs_nonneg _) (by norm_num)
    have c2 : |ey| * |p.x - o.x| ≤ 3 * |p.x - o.x| := mul_le_mul_of_nonneg_right F X0
    have c3 : |ex| * |p.x - o.x| ≤ 3 * |p.x - o.x| := mul_le_mul_of_nonneg_right E X0
    have c1' := mul_le_mul_of_nonneg_left c1 u0.le
    have c2' := mul_le_mul_of_nonneg_left c2 u0.le
    have c3' := mul_le_mul_of_nonneg_left c3 t0.le
    have c4 := mul_le_mul_of_nonneg_left E t0.le
    have tu : DQuat.t ≤ DQuat.u / 6 := by
      have h1 : DQuat.t ≤ 2 ^ (-60 : ℤ) := DQuat.t_small (by norm_num)
      have h2 : (2 : ℝ) ^ (-60 : ℤ) ≤ DQuat.u / 6 := by rw [DQuat.u]; norm_num
      exact h1.trans h2
    have c5 := mul_le_mul_of_nonneg_right tu X0
    have d1 : |(p.x - o.x) * (d.y - ey)| ≤ |p.x - o.x| * (2 * DQuat.u * |o.y| + 6 * DQuat.u) := by
      rw [abs_mul, abs_sub_comm d.y]
      refine mul_le_mul_of_nonneg_left (ny.trans ?_) X0
      have := mul_le_mul_of_nonneg_left dy2 u0.le
      nlinarith
    have d2 : |(p.y - o.y) * (d.x - ex)| ≤ |p.y - o.y| * (2 * DQuat.u * |o.x| + 6 * DQuat.u) := by
      rw [abs_mul, abs_sub_comm d.x]
      refine mul_le_mul_of_nonneg_left (nx.trans ?_) Y0
      have := mul_le_mul_of_nonneg_left dx2 u0.le
      nlinarith
    have e : (p.x - o.x) * d.y - (p.y - o.y) * d.x = -(ex * (p.y - o.y) - ey * (p.x - o.x)) + (p.x - o.x) * (d.y - ey) - (p.y - o.y) * (d.x - ex) := by ring
    rw [e]
    have f := (abs_sub (-(ex * (p.y - o.y) - ey * (p.x - o.x)) + (p.x - o.x) * (d.y - ey)) ((p.y - o.y) * (d.x - ex)))
    have g := abs_add_le (-(ex * (p.y - o.y) - ey * (p.x - o.x))) ((p.x - o.x) * (d.y - ey))
    rw [abs_neg] at g
    linarith

/-- C125: a point that a line accepts is near a point of the line. The distance allowed grows with that of the origin of the line from the origin of the plane, since the
slope is computed from two points next to it. -/
theorem C125_accepts (o d p : V2) (ho : Sized2 50 o) (hd : Sized2 1 d) (hp : Sized2 500 p) (hn : 1 / 2 ≤ d.norm)
    (h : DLine2.contains ⟨doubles2 o, doubles2 d⟩ (doubles2 p) = .ok true) :
    ∃ s : ℝ, (p - (o + s • d)).norm ≤ (40 * ((1 + |o.x| + |o.y|) * (|p.x - o.x| + |p.y - o.y|)) + 12 * |o.y|) / 2 ^ 53 + 2 ^ (-1072 : ℤ) := by
  have k := accepted_cross ho hd hp h
  have n2 : 1 / 4 ≤ d.x * d.x + d.y * d.y := by
    have h0 : 0 ≤ d.x * d.x + d.y * d.y := add_nonneg (mul_self_nonneg _) (mul_self_nonneg _)
    have := Real.sq_sqrt h0
    have e : d.norm = Real.sqrt (d.x * d.x + d.y * d.y) := rfl
    rw [e] at hn
    nlinarith
  have n0 : d.x * d.x + d.y * d.y ≠ 0 := by linarith
  set c := (p.x - o.x) * d.y - (p.y - o.y) * d.x with hc
  obtain ⟨s, hs⟩ : ∃ s : ℝ, s * (d.x * d.x + d.y * d.y) = (p.x - o.x) * d.x + (p.y - o.y) * d.y := ⟨_, div_mul_cancel₀ _ n0⟩
  refine ⟨s, ?_⟩
  have e1 : (p.x - (o.x + s * d.x)) * (d.x * d.x + d.y * d.y) = d.y * c := by linear_combination -d.x * hs
  have e2 : (p.y - (o.y + s * d.y)) * (d.x * d.x + d.y * d.y) = -d.x * c := by linear_combination -d.y * hs
  have e : (p - (o + s • d)).normSq = c * c / (d.x * d.x + d.y * d.y) := by
    simp only [V2.normSq, V2.dot, V2.sub_x, V2.sub_y, V2.add_x, V2.add_y, V2.smul_x, V2.smul_y]
    rw [eq_div_iff n0]
    refine mul_right_cancel₀ n0 ?_
    linear_combination (p.x - (o.x + s * d.x)) * (d.x * d.x + d.y * d.y) * e1 + d.y * c * e1 + (p.y - (o.y + s * d.y)) * (d.x * d.x + d.y * d.y) * e2 - d.x * c * e2
  have b : (p - (o + s • d)).norm ≤ 2 * |c| := by
    rw [V2.norm, e]
    refine Real.sqrt_le_iff.2 ⟨by positivity, ?_⟩
    rw [div_le_iff₀ (by linarith), mul_pow, sq_abs]
    nlinarith [mul_self_nonneg c]
  refine b.trans ?_
  have et : (2 : ℝ) ^ (-1072 : ℤ) = 8 * DQuat.t := by
    rw [DQuat.t, show (-1072 : ℤ) = 3 + -1075 by norm_num, zpow_add₀ two_ne_zero]; norm_num
  have eu : ∀ x : ℝ, x / 2 ^ 53 = DQuat.u * x := fun x => by rw [DQuat.u]; ring
  rw [et, eu]
  have t0 := DQuat.t_pos
  linarith

/-- numbers that meet the hypotheses: the line with slope one through `(3, 0)` accepts `(4, 1)` -/
example : Sized2 50 ⟨3, 0⟩ ∧ Sized2 1 ⟨1, 1⟩ ∧ (1 : ℝ) / 2 ≤ (⟨1, 1⟩ : V2).norm ∧ Sized2 500 ⟨4, 1⟩ ∧
    DLine2.contains ⟨doubles2 ⟨3, 0⟩, doubles2 ⟨1, 1⟩⟩ (doubles2 ⟨4, 1⟩) = .ok true := by
  have r : ∀ n : ℤ, |n| ≤ 2 ^ 53 → Representable (n : ℝ) := fun n h => representable_int h
  have r0 := r 0 (by norm_num)
  have r1 := r 1 (by norm_num)
  have r3 := r 3 (by norm_num)
  have r4 := r 4 (by norm_num)
  norm_num at r0 r1 r3 r4
  have big : ∀ x : ℝ, |x| ≤ 4 → |x| ≤ 2 ^ 500 := fun x hx => hx.trans (by
    calc (4 : ℝ) = 2 ^ 2 := by norm_num
      _ ≤ _ := pow_le_pow_right₀ one_le_two (by norm_num))
  have s1 : Sized2 500 ⟨3, 0⟩ := ⟨⟨r3, big _ (by norm_num)⟩, ⟨r0, big _ (by norm_num)⟩⟩
  have s2 : Sized2 500 ⟨1, 1⟩ := ⟨⟨r1, big _ (by norm_num)⟩, ⟨r1, big _ (by norm_num)⟩⟩
  have s3 : Sized2 500 ⟨4, 1⟩ := ⟨⟨r4, big _ (by norm_num)⟩, ⟨r1, big _ (by norm_num)⟩⟩
  refine ⟨⟨⟨r3, by norm_num⟩, ⟨r0, by norm_num⟩⟩, ⟨⟨r1, by norm_num⟩, ⟨r1, by norm_num⟩⟩, ?_, s3, ?_⟩
  · rw [V2.norm, show (⟨1, 1⟩ : V2).normSq = 2 by norm_num [V2.normSq, V2.dot]]
    exact Real.le_sqrt_of_sq_le (by norm_num)
  · rw [contains_doubles2 (by norm_num) s1 s2 s3]
    have e4 : rnd ((3 : ℝ) + 1) = 4 := by norm_num; exact rnd_exact r4
    have e1 : rnd ((0 : ℝ) + 1) = 1 := by norm_num; exact rnd_exact r1
    have e2 : rnd ((4 : ℝ) - 3) = 1 := by norm_num; exact rnd_exact r1
    have e3 : rnd ((1 : ℝ) - 0) = 1 := by norm_num; exact rnd_exact r1
    have x1 : F64.ofExact (1 : ℝ) = .fin 1 := by rw [F64.ofExact_fin, rnd_exact r1]; rw [rnd_exact r1]; exact_mod_cast DQuat.two_lt (n := 0) (by norm_num)
    simp only [e1, e2, e3, e4, F64.div, F64.mul, F64.add, F64.eq]
    norm_num [x1, F64.mul, F64.add, F64.eq]

/-! ## Lines parallel to the axes -/

/-- C125: a line whose direction is vertical contains exactly the points with its first coordinate -/
theorem C125_vertical (o d p : V2) (ho : Sized2 1000 o) (hd : Sized2 1000 d) (hp : Sized2 1000 p) (h : d.x = 0) :
    DLine2.contains ⟨doubles2 o, doubles2 d⟩ (doubles2 p) = .ok (open Classical in decide (p.x = o.x)) := by
  rw [contains_doubles2 (by norm_num) ho hd hp, h, add_zero, rnd_exact ho.x.1, if_pos rfl]
  split
  · rename_i e; simp [e]
  · rfl

/-- C125: a line whose direction is horizontal contains exactly the points with its second coordinate, if the direction is not lost when it is added to the origin -/
theorem C125_horizontal (o d p : V2) (ho : Sized2 500 o) (hd : Sized2 500 d) (hp : Sized2 500 p) (h : d.y = 0) (hx : |o.x + d.x| < 2 ^ 53 * |d.x|) :
    DLine2.contains ⟨doubles2 o, doubles2 d⟩ (doubles2 p) = .ok (open Classical in decide (p.y = o.y)) := by
  rw [contains_doubles2 (by norm_num) ho hd hp, h, add_zero, rnd_exact ho.y.1, sub_self, rnd_zero]
  have ne : rnd (o.x + d.x) ≠ o.x := fun e => by
    have n := DLine2.add_near ho.x.1 hd.x.1
    rw [e, sub_add_cancel_left, abs_neg, DQuat.u] at n
    have : (1 : ℝ) / 2 ^ 53 * |o.x + d.x| < |d.x| := by
      rw [one_div, inv_mul_lt_iff₀ (by positivity)]; exact hx
    linarith
  have ne2 := DLine2.sub_ne_zero' (rnd_representable _) ho.x.1 ne
  have z : F64.ofExact (0 : ℝ) = .fin 0 := by
    rw [F64.ofExact_fin, rnd_zero]; rw [rnd_zero, abs_zero]; positivity
  have y : F64.ofExact o.y = .fin o.y := by
    rw [F64.ofExact_fin, rnd_exact ho.y.1]
    rw [rnd_exact ho.y.1]
    exact ho.y.2.trans_lt (DQuat.two_lt (by norm_num))
  rw [if_neg ne]
  simp only [F64.div, F64.mul, F64.add, F64.eq, if_neg ne2, zero_div, zero_mul, zero_add, z, y]
  split
  · rename_i e; simp [e]
  · rfl

/-- a horizontal line that keeps its direction -/
example : |(⟨5, 2⟩ : V2).x + (⟨1, 0⟩ : V2).x| < 2 ^ 53 * |(⟨1, 0⟩ : V2).x| := by norm_num

/-! ## What goes wrong -/

theorem ofExact_at {x : ℝ} (m e : ℤ) (he : -1074 ≤ e) (he' : e ≤ 900) (hm : |m| ≤ 2 ^ 53) (h1 : 2 ^ (e + 52) ≤ |x|) (h2 : |x| < 2 ^ (e + 53))
    (h : |(m : ℝ) * 2 ^ e - x| < 2 ^ e / 2 ∨ |(m : ℝ) * 2 ^ e - x| = 2 ^ e / 2 ∧ m % 2 = 0) : F64.ofExact x = .fin (m * 2 ^ e) := by
  have r := rnd_eq m e he h1 h2 h
  rw [F64.ofExact_fin, r]
  rw [r, abs_mul, abs_of_pos (by positivity : (0 : ℝ) < 2 ^ e)]
  have hm' : |(m : ℝ)| ≤ 2 ^ 53 := by exact_mod_cast hm
  calc |(m : ℝ)| * 2 ^ e ≤ 2 ^ (53 : ℤ) * 2 ^ (900 : ℤ) := mul_le_mul (by exact_mod_cast hm') (zpow_le_zpow_right₀ one_le_two he') (by positivity) (by positivity)
    _ = 2 ^ ((953 : ℕ) : ℤ) := by rw [← zpow_add₀ two_ne_zero]; norm_num only
    _ = 2 ^ 953 := zpow_natCast _ _
    _ < 2 ^ 1024 := DQuat.two_lt (by norm_num)

theorem ofExact_int (n : ℤ) (hn : |n| ≤ 2 ^ 53) : F64.ofExact (n : ℝ) = .fin (n : ℝ) := by
  have r := rnd_exact (representable_int (α := ℝ) hn)
  have hm' : |(n : ℝ)| ≤ 2 ^ 53 := by exact_mod_cast hn
  rw [F64.ofExact_fin, r]
  rw [r]
  exact hm'.trans_lt (DQuat.two_lt (by norm_num))

/-- C125 fails of the code: the line through two points need not contain the second. -/
theorem C125_second_violated : ∃ l, DLine2.Points (doubles2 ⟨0, 0⟩) (doubles2 ⟨4, 3⟩) = .ok l ∧ l.contains (doubles2 ⟨4, 3⟩) = .ok false := by
  have i0 := ofExact_int 0 (by norm_num)
  have i1 := ofExact_int 1 (by norm_num)
  have i3 := ofExact_int 3 (by norm_num)
  have i4 := ofExact_int 4 (by norm_num)
  have i9 := ofExact_int 9 (by norm_num)
  have i16 := ofExact_int 16 (by norm_num)
  have i25 := ofExact_int 25 (by norm_num)
  have i5 := ofExact_int 5 (by norm_num)
  norm_num at i0 i1 i3 i4 i5 i9 i16 i25
  obtain ⟨A, hA⟩ : ∃ A : ℝ, A = 7205759403792794 * 2 ^ (-53 : ℤ) := ⟨_, rfl⟩
  obtain ⟨B, hB⟩ : ∃ B : ℝ, B = 5404319552844595 * 2 ^ (-53 : ℤ) := ⟨_, rfl⟩
  have eA : F64.ofExact ((4 : ℝ) / 5) = .fin A := by
    rw [ofExact_at 7205759403792794 (-53) (by norm_num) (by norm_num) (by norm_num) (by norm_num) (by norm_num) (by norm_num), hA]; norm_num
  have eB : F64.ofExact ((3 : ℝ) / 5) = .fin B := by
    rw [ofExact_at 5404319552844595 (-53) (by norm_num) (by norm_num) (by norm_num) (by norm_num) (by norm_num) (by norm_num), hB]; norm_num
  have eAA : F64.ofExact (A * A) = .fin (5764607523034236 * 2 ^ (-53 : ℤ)) := by
    rw [hA, ofExact_at 5764607523034236 (-53) (by norm_num) (by norm_num) (by norm_num) (by norm_num) (by norm_num) (by norm_num)]; norm_num
  have eBB : F64.ofExact (B * B) = .fin (6485183463413514 * 2 ^ (-54 : ℤ)) := by
    rw [hB, ofExact_at 6485183463413514 (-54) (by norm_num) (by norm_num) (by norm_num) (by norm_num) (by norm_num) (by norm_num)]; norm_num
  have eS : F64.ofExact ((5764607523034236 : ℝ) * 2 ^ (-53 : ℤ) + 6485183463413514 * 2 ^ (-54 : ℤ)) = .fin 1 := by
    rw [ofExact_at 4503599627370496 (-52) (by norm_num) (by norm_num) (by norm_num) (by norm_num) (by norm_num) (by norm_num)]; norm_num
  have rA : Representable A := ⟨7205759403792794, -53, by norm_num, by norm_num, by rw [hA]; norm_num⟩
  have rB : Representable B := ⟨5404319552844595, -53, by norm_num, by norm_num, by rw [hB]; norm_num⟩
  have nA : A ≠ 0 := by rw [hA]; positivity
  have fin1 : ∀ x : ℝ, Representable x → |x| ≤ 4 → F64.ofExact x = .fin x := fun x r h => by
    rw [F64.ofExact_fin, rnd_exact r]
    rw [rnd_exact r]
    exact (h.trans (by norm_num : (4 : ℝ) ≤ 2 ^ 3)).trans_lt (DQuat.two_lt (by norm_num))
  have fA := fin1 A rA (by rw [hA]; norm_num [abs_of_pos])
  have fB := fin1 B rB (by rw [hB]; norm_num [abs_of_pos])
  have em : F64.ofExact (B / A) = .fin (6755399441055743 * 2 ^ (-53 : ℤ)) := by
    rw [hA, hB, ofExact_at 6755399441055743 (-53) (by norm_num) (by norm_num) (by norm_num) (by norm_num) (by norm_num) (by norm_num)]; norm_num
  have en : F64.ofExact ((6755399441055743 : ℝ) * 2 ^ (-53 : ℤ) * 4) = .fin (6755399441055743 * 2 ^ (-51 : ℤ)) := by
    rw [ofExact_at 6755399441055743 (-51) (by norm_num) (by norm_num) (by norm_num) (by norm_num) (by norm_num) (by norm_num)]; norm_num
  have en' : F64.ofExact ((6755399441055743 : ℝ) * 2 ^ (-51 : ℤ)) = .fin (6755399441055743 * 2 ^ (-51 : ℤ)) := by
    rw [ofExact_at 6755399441055743 (-51) (by norm_num) (by norm_num) (by norm_num) (by norm_num) (by norm_num) (by norm_num)]; norm_num
  have es : (F64.fin (25 : ℝ)).sqrt = .fin 5 := by
    have : √(25 : ℝ) = 5 := by rw [show (25 : ℝ) = 5 ^ 2 by norm_num]; exact Real.sqrt_sq (by norm_num)
    have r5 : Representable (5 : ℝ) := by simpa using representable_int (α := ℝ) (m := 5) (by norm_num)
    simp only [F64.sqrt, this, rnd_exact r5]
    rw [if_neg (by norm_num)]
  have sq : (doubles2 ⟨A, B⟩).squaredNorm = .fin 1 := by
    simp only [DVec2.squaredNorm, doubles2, F64.mul, eAA, eBB, F64.add, eS]
  have nm : (doubles2 ⟨4, 3⟩).normalized = doubles2 ⟨A, B⟩ := by
    have q : (doubles2 ⟨4, 3⟩).squaredNorm = .fin 25 := by
      simp only [DVec2.squaredNorm, doubles2, F64.mul]
      norm_num [i9, i16, F64.add, i25]
    have q' := q
    rw [doubles2] at q'
    simp only [DVec2.normalized, q', es, F64.lt, doubles2, F64.div, eA, eB]
    norm_num
  have big : ∀ x : ℝ, |x| ≤ 4 → |x| ≤ 2 ^ 500 := fun x hx => hx.trans (by
    calc (4 : ℝ) = 2 ^ 2 := by norm_num
      _ ≤ _ := pow_le_pow_right₀ one_le_two (by norm_num))
  have r3 : Representable (3 : ℝ) := by simpa using representable_int (α := ℝ) (m := 3) (by norm_num)
  have r4 : Representable (4 : ℝ) := by simpa using representable_int (α := ℝ) (m := 4) (by norm_num)
  have sA : Sized2 500 ⟨A, B⟩ := ⟨⟨rA, big _ (by rw [hA]; norm_num [abs_of_pos])⟩, ⟨rB, big _ (by rw [hB]; norm_num [abs_of_pos])⟩⟩
  have s0 : Sized2 500 ⟨0, 0⟩ := ⟨⟨representable_zero, big _ (by norm_num)⟩, ⟨representable_zero, big _ (by norm_num)⟩⟩
  have s4 : Sized2 500 ⟨4, 3⟩ := ⟨⟨r4, big _ (by norm_num)⟩, ⟨r3, big _ (by norm_num)⟩⟩
  have nz : ¬((⟨0, 0⟩ : V2) = ⟨4, 3⟩) := fun h => by injection h with h1; norm_num at h1
  refine ⟨⟨doubles2 ⟨0, 0⟩, doubles2 ⟨A, B⟩⟩, ?_, ?_⟩
  · have sb : (doubles2 ⟨4, 3⟩).sub (doubles2 ⟨0, 0⟩) = doubles2 ⟨4, 3⟩ := by
      simp only [DVec2.sub, doubles2, F64.sub, F64.neg, F64.add, neg_zero, add_zero, i3, i4]
    have e1 : (F64.fin (1 : ℝ)).eq (.fin 1) = true := by simp [F64.eq]
    simp only [DLine2.Points, defined_doubles2, eq_doubles2, nz, decide_false, Bool.not_true, Bool.false_eq_true, if_false, sb, nm, DLine2.ctor, sq, e1, Bool.and_false]
  · have nz' : ¬((⟨4, 3⟩ : V2) = ⟨0, 0⟩) := fun h => nz h.symm
    rw [contains_doubles2 (by norm_num) s0 sA s4, if_neg nz']
    simp only [zero_add, sub_zero, rnd_exact rA, rnd_exact rB, rnd_exact r4, if_neg nA, F64.div, em, F64.mul, en, F64.add, add_zero, en', F64.eq]
    rw [decide_eq_false (by norm_num)]

/-- C125 fails of the code: equality of lines is not symmetric. The two lines are parallel to `(3, 4)`. -/
theorem C125_symmetric_violated : ∃ a b, DLine2.ctor (doubles2 ⟨-3, 0⟩) (doubles2 ⟨3, 4⟩) = .ok a ∧ DLine2.ctor (doubles2 ⟨0, 4⟩) (doubles2 ⟨3, 4⟩) = .ok b ∧
    a.eq b = .ok true ∧ b.eq a = .ok false := by
  have i0 := ofExact_int 0 (by norm_num)
  have i4 := ofExact_int 4 (by norm_num)
  have i9 := ofExact_int 9 (by norm_num)
  have i16 := ofExact_int 16 (by norm_num)
  have i25 := ofExact_int 25 (by norm_num)
  norm_num at i0 i4 i9 i16 i25
  obtain ⟨A, hA⟩ : ∃ A : ℝ, A = 7205759403792794 * 2 ^ (-53 : ℤ) := ⟨_, rfl⟩
  obtain ⟨B, hB⟩ : ∃ B : ℝ, B = 5404319552844595 * 2 ^ (-53 : ℤ) := ⟨_, rfl⟩
  have eA : F64.ofExact ((4 : ℝ) / 5) = .fin A := by
    rw [ofExact_at 7205759403792794 (-53) (by norm_num) (by norm_num) (by norm_num) (by norm_num) (by norm_num) (by norm_num), hA]; norm_num
  have eB : F64.ofExact ((3 : ℝ) / 5) = .fin B := by
    rw [ofExact_at 5404319552844595 (-53) (by norm_num) (by norm_num) (by norm_num) (by norm_num) (by norm_num) (by norm_num), hB]; norm_num
  have rA : Representable A := ⟨7205759403792794, -53, by norm_num, by norm_num, by rw [hA]; norm_num⟩
  have rB : Representable B := ⟨5404319552844595, -53, by norm_num, by norm_num, by rw [hB]; norm_num⟩
  have r3 : Representable (3 : ℝ) := by simpa using representable_int (α := ℝ) (m := 3) (by norm_num)
  have r3' : Representable (-3 : ℝ) := by simpa using representable_int (α := ℝ) (m := -3) (by norm_num)
  have r4 : Representable (4 : ℝ) := by simpa using representable_int (α := ℝ) (m := 4) (by norm_num)
  have r5 : Representable (5 : ℝ) := by simpa using representable_int (α := ℝ) (m := 5) (by norm_num)
  have es : (F64.fin (25 : ℝ)).sqrt = .fin 5 := by
    have : √(25 : ℝ) = 5 := by rw [show (25 : ℝ) = 5 ^ 2 by norm_num]; exact Real.sqrt_sq (by norm_num)
    simp only [F64.sqrt, this, rnd_exact r5]
    rw [if_neg (by norm_num)]
  have q : (doubles2 ⟨3, 4⟩).squaredNorm = .fin 25 := by
    simp only [DVec2.squaredNorm, doubles2, F64.mul]
    norm_num [i9, i16, F64.add, i25]
  have nm : (doubles2 ⟨3, 4⟩).normalized = doubles2 ⟨B, A⟩ := by
    have q' := q
    rw [doubles2] at q'
    simp only [DVec2.normalized, q', es, F64.lt, doubles2, F64.div, eA, eB]
    norm_num
  have ct : ∀ o, DLine2.ctor o (doubles2 ⟨3, 4⟩) = .ok ⟨o, doubles2 ⟨B, A⟩⟩ := fun o => by
    have e1 : (F64.fin (25 : ℝ)).eq (.fin 1) = false := by simp [F64.eq]
    have e2 : (F64.fin (25 : ℝ)).eq (.fin 0) = false := by simp [F64.eq]
    simp only [DLine2.ctor, defined_doubles2, q, e1, e2, nm, Bool.not_false, Bool.and_true, if_true, Bool.false_eq_true, if_false]
  have big : ∀ x : ℝ, |x| ≤ 4 → |x| ≤ 2 ^ 500 := fun x hx => hx.trans (by
    calc (4 : ℝ) = 2 ^ 2 := by norm_num
      _ ≤ _ := pow_le_pow_right₀ one_le_two (by norm_num))
  have sd : Sized2 500 ⟨B, A⟩ := ⟨⟨rB, big _ (by rw [hB]; norm_num [abs_of_pos])⟩, ⟨rA, big _ (by rw [hA]; norm_num [abs_of_pos])⟩⟩
  have s1 : Sized2 500 ⟨-3, 0⟩ := ⟨⟨r3', big _ (by norm_num)⟩, ⟨representable_zero, big _ (by norm_num)⟩⟩
  have s2 : Sized2 500 ⟨0, 4⟩ := ⟨⟨representable_zero, big _ (by norm_num)⟩, ⟨r4, big _ (by norm_num)⟩⟩
  have n12 : ¬((⟨-3, 0⟩ : V2) = ⟨0, 4⟩) := fun h => by injection h with h1; norm_num at h1
  have n21 : ¬((⟨0, 4⟩ : V2) = ⟨-3, 0⟩) := fun h => n12 h.symm
  refine ⟨_, _, ct _, ct _, ?_, ?_⟩
  · simp only [DLine2.eq, DLine2.isDefined, defined_doubles2, eq_doubles2, decide_true, Bool.true_or, Bool.not_true, Bool.or_false, Bool.and_true, Bool.false_eq_true, if_false, if_true]
    rw [contains_doubles2 (by norm_num) s1 sd s2, if_neg n21]
    have a1 : rnd (-3 + B) = -5404319552844595 * 2 ^ (-51 : ℤ) := by
      rw [hB, rnd_eq (-5404319552844595) (-51) (by norm_num) (by norm_num [abs_of_neg]) (by norm_num [abs_of_neg]) (by norm_num)]; norm_num
    have a2 : rnd (-5404319552844595 * 2 ^ (-51 : ℤ) - -3 : ℝ) = 5404319552844596 * 2 ^ (-53 : ℤ) := by
      rw [rnd_eq 5404319552844596 (-53) (by norm_num) (by norm_num) (by norm_num) (by norm_num)]; norm_num
    have a3 : rnd ((0 : ℝ) - -3) = 3 := by rw [zero_sub, neg_neg, rnd_exact r3]
    have a4 : F64.ofExact (A / (5404319552844596 * 2 ^ (-53 : ℤ))) = .fin (6004799503160661 * 2 ^ (-52 : ℤ)) := by
      rw [hA, ofExact_at 6004799503160661 (-52) (by norm_num) (by norm_num) (by norm_num) (by norm_num) (by norm_num) (by norm_num)]; norm_num
    have a5 : F64.ofExact ((6004799503160661 : ℝ) * 2 ^ (-52 : ℤ) * 3) = .fin 4 := by
      rw [ofExact_at 9007199254740992 (-51) (by norm_num) (by norm_num) (by norm_num) (by norm_num) (by norm_num) (by norm_num)]; norm_num
    have n1 : ¬((-5404319552844595 : ℝ) * 2 ^ (-51 : ℤ) = -3) := by norm_num
    have n2 : ¬((5404319552844596 : ℝ) * 2 ^ (-53 : ℤ) = 0) := by norm_num
    simp only [a1, a2, a3, if_neg n1, zero_add, sub_zero, rnd_exact rA, F64.div, if_neg n2, a4, F64.mul, a5, F64.add, add_zero, i4, F64.eq, decide_true]
  · simp only [DLine2.eq, DLine2.isDefined, defined_doubles2, eq_doubles2, decide_true, Bool.true_or, Bool.not_true, Bool.or_false, Bool.and_true, Bool.false_eq_true, if_false, if_true]
    rw [contains_doubles2 (by norm_num) s2 sd s1, if_neg n12]
    have a1 : rnd (4 + A) = 5404319552844595 * 2 ^ (-50 : ℤ) := by
      rw [hA, rnd_eq 5404319552844595 (-50) (by norm_num) (by norm_num) (by norm_num) (by norm_num)]; norm_num
    have a2 : rnd (5404319552844595 * 2 ^ (-50 : ℤ) - 4 : ℝ) = 7205759403792792 * 2 ^ (-53 : ℤ) := by
      rw [rnd_eq 7205759403792792 (-53) (by norm_num) (by norm_num) (by norm_num) (by norm_num)]; norm_num
    have nB : B ≠ 0 := by rw [hB]; positivity
    have a4 : F64.ofExact ((7205759403792792 * 2 ^ (-53 : ℤ)) / B) = .fin (6004799503160660 * 2 ^ (-52 : ℤ)) := by
      rw [hB, ofExact_at 6004799503160660 (-52) (by norm_num) (by norm_num) (by norm_num) (by norm_num) (by norm_num) (by norm_num)]; norm_num
    have a5 : F64.ofExact ((6004799503160660 : ℝ) * 2 ^ (-52 : ℤ) * -3) = .fin (-9007199254740990 * 2 ^ (-51 : ℤ)) := by
      rw [ofExact_at (-9007199254740990) (-51) (by norm_num) (by norm_num) (by norm_num) (by norm_num) (by norm_num) (by norm_num)]; norm_num
    have a6 : F64.ofExact ((-9007199254740990 : ℝ) * 2 ^ (-51 : ℤ) + 4) = .fin (4503599627370496 * 2 ^ (-102 : ℤ)) := by
      rw [ofExact_at 4503599627370496 (-102) (by norm_num) (by norm_num) (by norm_num) (by norm_num) (by norm_num) (by norm_num)]; norm_num
    simp only [a1, a2, zero_add, sub_zero, rnd_exact rB, rnd_exact r3', if_neg nB, F64.div, a4, F64.mul, a5, F64.add, a6, F64.eq]
    rw [decide_eq_false (by norm_num)]

/-- C125 fails of the code: far from the origin of the frame a line forgets its direction. The horizontal line through `(2 ^ 54, 0)` contains the point five above and not the point four to the right. -/
theorem C125_far_violated : DLine2.contains ⟨doubles2 ⟨2 ^ 54, 0⟩, doubles2 ⟨1, 0⟩⟩ (doubles2 ⟨2 ^ 54, 5⟩) = .ok true ∧
    DLine2.contains ⟨doubles2 ⟨2 ^ 54, 0⟩, doubles2 ⟨1, 0⟩⟩ (doubles2 ⟨2 ^ 54 + 4, 0⟩) = .ok false := by
  have big : ∀ x : ℝ, |x| ≤ 2 ^ 55 → |x| ≤ 2 ^ 500 := fun x hx => hx.trans (pow_le_pow_right₀ one_le_two (by norm_num))
  have r1 : Representable (1 : ℝ) := by simpa using representable_int (α := ℝ) (m := 1) (by norm_num)
  have r5 : Representable (5 : ℝ) := by simpa using representable_int (α := ℝ) (m := 5) (by norm_num)
  have rB : Representable ((2 : ℝ) ^ 54) := ⟨1, 54, by norm_num, by norm_num, by norm_num⟩
  have rC : Representable ((2 : ℝ) ^ 54 + 4) := ⟨2 ^ 52 + 1, 2, by norm_num, by norm_num, by norm_num⟩
  have so : Sized2 500 ⟨2 ^ 54, 0⟩ := ⟨⟨rB, big _ (by norm_num)⟩, ⟨representable_zero, big _ (by norm_num)⟩⟩
  have sd : Sized2 500 ⟨1, 0⟩ := ⟨⟨r1, big _ (by norm_num)⟩, ⟨representable_zero, big _ (by norm_num)⟩⟩
  have sp : Sized2 500 ⟨2 ^ 54, 5⟩ := ⟨⟨rB, big _ (by norm_num)⟩, ⟨r5, big _ (by norm_num)⟩⟩
  have sq : Sized2 500 ⟨2 ^ 54 + 4, 0⟩ := ⟨⟨rC, big _ (by norm_num)⟩, ⟨representable_zero, big _ (by norm_num)⟩⟩
  have e : rnd ((2 : ℝ) ^ 54 + 1) = 2 ^ 54 := by
    rw [rnd_eq (2 ^ 52) 2 (by norm_num) (by norm_num) (by norm_num) (by norm_num)]; norm_num
  have n1 : ¬((⟨2 ^ 54, 5⟩ : V2) = ⟨2 ^ 54, 0⟩) := fun h => by injection h with h1 h2; norm_num at h2
  have n2 : ¬((⟨2 ^ 54 + 4, 0⟩ : V2) = ⟨2 ^ 54, 0⟩) := fun h => by injection h with h1 h2; norm_num at h1
  rw [contains_doubles2 (by norm_num) so sd sp, contains_doubles2 (by norm_num) so sd sq, if_neg n1, if_neg n2]
  constructor
  · simp only [e, if_true, decide_true]
  · simp only [e, if_true]
    rw [decide_eq_false (by norm_num)]

end Verif.Props
