import Verif.Lemmas.DoubleSegment
import Verif.Props.DoubleBetween

/-!
# Containment in double precision

Property C117. Code: `Segment.cpp`, `Line.cpp`, `Ray.cpp` and `Plane.cpp` of `src/OpenSpaceToolkit/Mathematics/Geometry/3D/Object`.
-/

namespace Verif.Props

open Verif Verif.Spec Verif.Double

/-- three finite doubles, at most `2 ^ 248` in size -/
structure Small (a : V3) : Prop where
  x : Representable a.x ∧ |a.x| ≤ 2 ^ 248
  y : Representable a.y ∧ |a.y| ≤ 2 ^ 248
  z : Representable a.z ∧ |a.z| ≤ 2 ^ 248

/-- the computed difference -/
noncomputable def diff3 (a b : V3) : V3 := ⟨rnd (a.x - b.x), rnd (a.y - b.y), rnd (a.z - b.z)⟩

/-- the computed cross product -/
noncomputable def cross3 (v w : V3) : V3 :=
  ⟨rnd (rnd (v.y * w.z) - rnd (v.z * w.y)), rnd (rnd (v.z * w.x) - rnd (v.x * w.z)), rnd (rnd (v.x * w.y) - rnd (v.y * w.x))⟩

/-- the computed scalar product -/
noncomputable def dotR (o : Bool) (v w : V3) : ℝ := DVec.dot3 o v.x v.y v.z w.x w.y w.z

/-- bounded components -/
def Bounded (n : ℕ) (v : V3) : Prop := |v.x| ≤ 2 ^ n ∧ |v.y| ≤ 2 ^ n ∧ |v.z| ≤ 2 ^ n

theorem Bounded.mono {m n : ℕ} (h : m ≤ n) {v : V3} (hv : Bounded m v) : Bounded n v := by
  have p : (2 : ℝ) ^ m ≤ 2 ^ n := pow_le_pow_right₀ one_le_two h
  exact ⟨hv.1.trans p, hv.2.1.trans p, hv.2.2.trans p⟩

theorem Within.bounded {a : V3} (h : Within a) : Bounded 499 a := ⟨h.x.2, h.y.2, h.z.2⟩
theorem Small.bounded {a : V3} (h : Small a) : Bounded 248 a := ⟨h.x.2, h.y.2, h.z.2⟩
theorem Small.within {a : V3} (h : Small a) : Within a := by
  obtain ⟨b1, b2, b3⟩ := h.bounded.mono (show 248 ≤ 499 by norm_num)
  exact ⟨⟨h.x.1, b1⟩, ⟨h.y.1, b2⟩, ⟨h.z.1, b3⟩⟩

theorem sub_doubles {n : ℕ} (hn : n < 1022) {a b : V3} (ha : Bounded n a) (hb : Bounded n b) :
    (doubles a).sub (doubles b) = doubles (diff3 a b) ∧ Bounded (n + 1) (diff3 a b) := by
  obtain ⟨e1, b1⟩ := DVec.sub_fin2 hn ha.1 hb.1
  obtain ⟨e2, b2⟩ := DVec.sub_fin2 hn ha.2.1 hb.2.1
  obtain ⟨e3, b3⟩ := DVec.sub_fin2 hn ha.2.2 hb.2.2
  exact ⟨by simp only [doubles, DVec.sub, e1, e2, e3, diff3], b1, b2, b3⟩

theorem mul_finN {x y : ℝ} {n : ℕ} (hn : 2 * n < 1022) (hx : |x| ≤ 2 ^ n) (hy : |y| ≤ 2 ^ n) :
    (F64.fin x).mul (.fin y) = .fin (rnd (x * y)) ∧ |rnd (x * y)| ≤ 2 ^ (2 * n) := by
  have h1 : |x * y| ≤ 2 ^ (2 * n) := by
    rw [two_mul, pow_add, abs_mul]
    exact mul_le_mul hx hy (abs_nonneg _) (by positivity)
  have h2 : |rnd (x * y)| ≤ 2 ^ (2 * n) := DLinear.rnd_abs_le (DQuat.rep_two _) h1
  exact ⟨F64.ofExact_fin (lt_of_le_of_lt h2 (DQuat.two_lt (by omega))), h2⟩

theorem cross_doubles {n : ℕ} (hn : 2 * n < 1021) {v w : V3} (hv : Bounded n v) (hw : Bounded n w) :
    (doubles v).cross (doubles w) = doubles (cross3 v w) ∧ Bounded (2 * n + 1) (cross3 v w) := by
  have hm : 2 * n < 1022 := by omega
  have key : ∀ a b c d : ℝ, |a| ≤ 2 ^ n → |b| ≤ 2 ^ n → |c| ≤ 2 ^ n → |d| ≤ 2 ^ n →
      ((F64.fin a).mul (.fin b)).sub ((F64.fin c).mul (.fin d)) = .fin (rnd (rnd (a * b) - rnd (c * d))) ∧ |rnd (rnd (a * b) - rnd (c * d))| ≤ 2 ^ (2 * n + 1) := by
    intro a b c d ha hb hc hd
    obtain ⟨e1, b1⟩ := mul_finN hm ha hb
    obtain ⟨e2, b2⟩ := mul_finN hm hc hd
    rw [e1, e2]
    exact DVec.sub_fin2 hm b1 b2
  obtain ⟨e1, b1⟩ := key _ _ _ _ hv.2.1 hw.2.2 hv.2.2 hw.2.1
  obtain ⟨e2, b2⟩ := key _ _ _ _ hv.2.2 hw.1 hv.1 hw.2.2
  obtain ⟨e3, b3⟩ := key _ _ _ _ hv.1 hw.2.1 hv.2.1 hw.1
  exact ⟨by simp only [doubles, DVec.cross, e1, e2, e3, cross3], b1, b2, b3⟩

theorem dot_doubles (o : Bool) {v w : V3} (hv : Bounded 500 v) (hw : Bounded 500 w) : DVec.dot o (doubles v) (doubles w) = .fin (dotR o v w) :=
  (DVec.dot_fin o hv.1 hv.2.1 hv.2.2 hw.1 hw.2.1 hw.2.2).1

theorem doubles_eq (a b : V3) : (doubles a).eq (doubles b) = decide (a.x = b.x ∧ a.y = b.y ∧ a.z = b.z) := by
  simp [DVec.eq, doubles, F64.eq, Bool.and_assoc]

/-- the two ways in which a segment contains a point -/
theorem contains_segment (o : Bool) {a b p : V3} (ha : Small a) (hb : Small b) (hp : Small p) :
    DSegment.contains o (doubles a) (doubles b) (doubles p) = .ok (if a.x = b.x ∧ a.y = b.y ∧ a.z = b.z then decide (a.x = p.x ∧ a.y = p.y ∧ a.z = p.z)
      else decide (dotR o (cross3 (diff3 b a) (diff3 p a)) (cross3 (diff3 b a) (diff3 p a)) = 0 ∧ 0 ≤ dotR o (diff3 b a) (diff3 p a) ∧
        dotR o (diff3 b a) (diff3 p a) ≤ dotR o (diff3 b a) (diff3 b a))) := by
  obtain ⟨e1, b1⟩ := sub_doubles (by norm_num) hb.bounded ha.bounded
  obtain ⟨e2, b2⟩ := sub_doubles (by norm_num) hp.bounded ha.bounded
  obtain ⟨e3, b3⟩ := cross_doubles (by norm_num) b1 b2
  have c1 := b1.mono (show 249 ≤ 500 by norm_num)
  have c2 := b2.mono (show 249 ≤ 500 by norm_num)
  have c3 := b3.mono (show 499 ≤ 500 by norm_num)
  rw [DSegment.contains, doubles_defined, doubles_defined, doubles_defined, doubles_eq, doubles_eq]
  simp only [e1, e2, e3, DVec.squaredNorm, dot_doubles o c1 c2, dot_doubles o c1 c1, dot_doubles o c3 c3, F64.eq, F64.le, Bool.not_true, Bool.or_self,
    Bool.false_eq_true, if_false, decide_eq_true_eq]
  split
  · rfl
  · by_cases h : dotR o (cross3 (diff3 b a) (diff3 p a)) (cross3 (diff3 b a) (diff3 p a)) = 0
    · simp [h]
    · simp [h]

theorem diff3_self (a : V3) : diff3 a a = 0 := by
  simp [diff3, rnd_zero]; rfl

theorem dotR_zero (o : Bool) (v : V3) : dotR o v 0 = 0 := by
  cases o <;> simp [dotR, DVec.dot3, DVec.sum3, rnd_zero]

theorem cross3_zero (v : V3) : cross3 v 0 = 0 := by
  simp [cross3, rnd_zero]; rfl

theorem cross3_self (v : V3) : cross3 v v = 0 := by
  simp only [cross3, mul_comm v.z v.y, mul_comm v.x v.z, mul_comm v.y v.x, sub_self, rnd_zero]; rfl

/-- **C117.** A segment contains its ends. -/
theorem C117_ends (o : Bool) {a b : V3} (ha : Small a) (hb : Small b) :
    DSegment.contains o (doubles a) (doubles b) (doubles a) = .ok true ∧ DSegment.contains o (doubles a) (doubles b) (doubles b) = .ok true := by
  have h0 : 0 ≤ dotR o (diff3 b a) (diff3 b a) := square_nonneg o _ _ _
  rw [contains_segment o ha hb ha, contains_segment o ha hb hb, diff3_self, cross3_zero, cross3_self, dotR_zero, dotR_zero]
  simp [h0]
  by_cases h : a.x = b.x ∧ a.y = b.y ∧ a.z = b.z
  · exact .inr h
  · left; by_contra hh; push Not at hh; exact h hh

/-- the size of a computed difference -/
theorem diff3_near {a b : V3} (ha : Within a) (hb : Within b) : (diff3 a b - (a - b)).norm ≤ DQuat.u * (a - b).norm := by
  have u0 := DQuat.u_pos
  have key : ∀ x y : ℝ, Representable x → Representable y → (rnd (x - y) - (x - y)) ^ 2 ≤ DQuat.u ^ 2 * (x - y) ^ 2 := by
    intro x y hx hy
    obtain ⟨d, kd, e⟩ := DLinear.rnd_sum hx (representable_neg hy)
    have kd' : |d| ≤ DQuat.u := kd
    rw [← sub_eq_add_neg] at e
    rw [e, show ((x - y) * (1 + d) - (x - y)) ^ 2 = d ^ 2 * (x - y) ^ 2 by ring]
    refine mul_le_mul_of_nonneg_right ?_ (sq_nonneg _)
    rw [← sq_abs d]
    exact pow_le_pow_left₀ (abs_nonneg _) kd' 2
  refine Real.sqrt_le_iff.2 ⟨mul_nonneg u0.le (V3.norm_nonneg _), ?_⟩
  rw [mul_pow, V3.norm_sq]
  have k1 := key _ _ ha.x.1 hb.x.1
  have k2 := key _ _ ha.y.1 hb.y.1
  have k3 := key _ _ ha.z.1 hb.z.1
  simp only [V3.normSq, V3.dot, V3.sub_x, V3.sub_y, V3.sub_z, diff3]
  nlinarith

/-- the cross product of computed differences whose computed square is zero -/
theorem cross_zero (o : Bool) {v w : V3} (h : dotR o (cross3 v w) (cross3 v w) = 0) :
    (v.cross w).normSq ≤ 4 * (201 / 100 * DQuat.u) ^ 2 * (v.normSq * w.normSq) + 6 * ((2 : ℝ) ^ (-536 : ℤ)) ^ 2 := by
  obtain ⟨g1, g2, g3⟩ := DVec.sum3_ge o (rnd_representable ((cross3 v w).x * (cross3 v w).x)) (rnd_representable ((cross3 v w).y * (cross3 v w).y))
    (rnd_representable ((cross3 v w).z * (cross3 v w).z)) (DQuat.sq_nonneg' _) (DQuat.sq_nonneg' _) (DQuat.sq_nonneg' _)
  have h' : DVec.sum3 o (rnd ((cross3 v w).x * (cross3 v w).x)) (rnd ((cross3 v w).y * (cross3 v w).y)) (rnd ((cross3 v w).z * (cross3 v w).z)) = 0 := h
  rw [h'] at g1 g2 g3
  exact DSegment.cross_small (DSegment.det_small (le_antisymm g1 (DQuat.sq_nonneg' _))) (DSegment.det_small (le_antisymm g2 (DQuat.sq_nonneg' _)))
    (DSegment.det_small (le_antisymm g3 (DQuat.sq_nonneg' _)))

theorem dotR_near (o : Bool) (v w : V3) : |dotR o v w - v.dot w| ≤ 301 / 100 * DQuat.u * (v.norm * w.norm) + 31 / 10 * DQuat.t := by
  refine (DVec.dot3_near o v.x v.y v.z w.x w.y w.z).trans ?_
  have := mul_le_mul_of_nonneg_left (DSegment.abs_sum_le v w) (show 0 ≤ 301 / 100 * DQuat.u by have := DQuat.u_pos; positivity)
  linarith

/-- **C117.** A point that a segment contains is near a point of the segment: within 13 units of rounding of the length. -/
theorem C117_segment (o : Bool) {a b p : V3} (ha : Small a) (hb : Small b) (hp : Small p) (hab : 2 ^ (-200 : ℤ) ≤ (b - a).norm)
    (h : DSegment.contains o (doubles a) (doubles b) (doubles p) = .ok true) : ∃ q ∈ SegSet a b, (p - q).norm ≤ 13 / 2 ^ 53 * (b - a).norm := by
  have u0 := DQuat.u_pos
  have u1 := DQuat.u_small
  have t0 := DQuat.t_pos
  rw [contains_segment o ha hb hp, if_neg, Except.ok.injEq, decide_eq_true_eq] at h
  swap
  · rintro ⟨h1, h2, h3⟩
    have : (b - a).norm = 0 := by rw [V3.norm_eq_zero]; ext <;> simp [h1, h2, h3]
    rw [this] at hab
    exact absurd hab (not_le.2 (two_zpow_pos _))
  obtain ⟨hc, hk1, hk2⟩ := h
  have dv := diff3_near hb.within ha.within
  have dw := diff3_near hp.within ha.within
  set v := diff3 b a with hv
  set w := diff3 p a with hw
  set V := b - a with hV
  set W := p - a with hW
  have q200 : (0 : ℝ) < 2 ^ (-200 : ℤ) := two_zpow_pos _
  have V0 : 0 < V.norm := lt_of_lt_of_le q200 hab
  have n1 : V.norm ≤ DQuat.u * V.norm + v.norm := by
    have := V3.norm_le_add V v
    rw [V3.norm_sub_comm V v] at this
    linarith only [this, dv]
  have n2 : v.norm ≤ DQuat.u * V.norm + V.norm := (V3.norm_le_add v V).trans (by linarith)
  have n3 : W.norm ≤ DQuat.u * W.norm + w.norm := by
    have := V3.norm_le_add W w
    rw [V3.norm_sub_comm W w] at this
    linarith only [this, dw]
  have uV : DQuat.u * V.norm ≤ 1 / 1000000 * V.norm := mul_le_mul_of_nonneg_right (by linarith) V0.le
  have uW : DQuat.u * W.norm ≤ 1 / 1000000 * W.norm := mul_le_mul_of_nonneg_right (by linarith) (V3.norm_nonneg _)
  have hvn : 1 / 2 * 2 ^ (-200 : ℤ) ≤ v.norm :=
    (mul_le_mul_of_nonneg_left hab (by norm_num)).trans (by linarith only [n1, uV, V0])
  have v0 : 0 < v.norm := lt_of_lt_of_le (mul_pos (by norm_num) q200) hvn
  have hv0 : 0 < v.normSq := by rw [← V3.norm_mul_self]; exact mul_pos v0 v0
  -- the small constants
  set d := 1 / 100 * DQuat.u with hd
  have hd0 : 0 ≤ d := by positivity
  have c1 : 3 * ((2 : ℝ) ^ (-536 : ℤ) / v.norm) ≤ d * v.norm := by
    rw [mul_div_assoc', div_le_iff₀ v0]
    have e1 : 3 * (2 : ℝ) ^ (-536 : ℤ) ≤ d * (1 / 2 * 2 ^ (-200 : ℤ)) * (1 / 2 * 2 ^ (-200 : ℤ)) := by
      rw [show d * (1 / 2 * (2 : ℝ) ^ (-200 : ℤ)) * (1 / 2 * 2 ^ (-200 : ℤ)) = d / 4 * (2 ^ (-200 : ℤ) * 2 ^ (-200 : ℤ)) by ring, ← zpow_add₀ two_ne_zero,
        show (-536 : ℤ) = -136 + (-200 + -200) by norm_num, zpow_add₀ two_ne_zero, ← mul_assoc]
      refine mul_le_mul_of_nonneg_right ?_ (two_zpow_pos _).le
      rw [hd, DQuat.u]
      norm_num
    refine e1.trans ?_
    exact mul_le_mul (mul_le_mul_of_nonneg_left hvn hd0) hvn (by linarith) (mul_nonneg hd0 v0.le)
  have c2 : 7 * DQuat.t ≤ d * v.normSq := by
    rw [← V3.norm_mul_self]
    have e1 : 7 * DQuat.t ≤ d * ((1 / 2 * 2 ^ (-200 : ℤ)) * (1 / 2 * 2 ^ (-200 : ℤ))) := by
      rw [show d * (1 / 2 * (2 : ℝ) ^ (-200 : ℤ) * (1 / 2 * 2 ^ (-200 : ℤ))) = d / 4 * (2 ^ (-200 : ℤ) * 2 ^ (-200 : ℤ)) by ring, ← zpow_add₀ two_ne_zero]
      have : DQuat.t ≤ 2 ^ (-200 + (-200 + -200) : ℤ) := DQuat.t_small (by norm_num)
      rw [zpow_add₀ two_ne_zero] at this
      refine (mul_le_mul_of_nonneg_left this (by norm_num)).trans ?_
      rw [← mul_assoc]
      refine mul_le_mul_of_nonneg_right ?_ (two_zpow_pos _).le
      rw [hd, DQuat.u]
      norm_num
    refine e1.trans (mul_le_mul_of_nonneg_left ?_ hd0)
    exact mul_le_mul hvn hvn (by linarith) v0.le
  have line := DSegment.to_line (by positivity) (two_zpow_pos _).le hv0 (cross_zero o hc)
  have k1 := dotR_near o v w
  have k2 := dotR_near o v v
  rw [V3.norm_mul_self] at k2
  have ed : v.dot v = v.normSq := rfl
  rw [ed] at k2
  obtain ⟨k11, k12⟩ := abs_le.1 k1
  obtain ⟨k21, k22⟩ := abs_le.1 k2
  clear hab hvn q200
  obtain ⟨s, s0, s1, hs, hM⟩ := DSegment.near_multiple (k := 402 / 100 * DQuat.u) (l := 301 / 100 * DQuat.u) (d := d) hv0 hd0 (by
    refine line.trans ?_
    generalize (2 : ℝ) ^ (-536 : ℤ) / v.norm = r at *
    have : 2 * (201 / 100 * DQuat.u) * w.norm = 402 / 100 * DQuat.u * w.norm := by ring
    linarith) (by positivity) (by linarith) (by positivity) (by linarith) (by linarith) (by linarith) (by linarith)
  refine ⟨a + s • V, ⟨s, s0, s1, rfl⟩, ?_⟩
  have e : p - (a + s • V) = (w - s • v) + (s • (v - V) - (w - W)) := by rw [hW]; ext <;> simp <;> ring
  have tri : (s • (v - V) - (w - W)).norm ≤ s * (v - V).norm + (w - W).norm := by
    have := V3.norm_add_le (s • (v - V)) (W - w)
    rw [V3.norm_smul, abs_of_nonneg s0, V3.norm_sub_comm W w] at this
    rwa [show s • (v - V) + (W - w) = s • (v - V) - (w - W) by ext <;> simp <;> ring] at this
  have sv : s * (v - V).norm ≤ DQuat.u * V.norm := (mul_le_of_le_one_left (V3.norm_nonneg _) s1).trans dv
  have m1 : v.norm ≤ 1000001 / 1000000 * V.norm := by linarith
  have m2 : W.norm ≤ 1002 / 1000 * V.norm := by linarith
  have m3 : DQuat.u * W.norm ≤ DQuat.u * (1002 / 1000 * V.norm) := mul_le_mul_of_nonneg_left m2 u0.le
  have m4 : (1001 / 1000 * (402 / 100 * DQuat.u) + 2001 / 1000 * (301 / 100 * DQuat.u) + 2 * d) * v.norm ≤
      (1001 / 1000 * (402 / 100 * DQuat.u) + 2001 / 1000 * (301 / 100 * DQuat.u) + 2 * d) * (1000001 / 1000000 * V.norm) :=
    mul_le_mul_of_nonneg_left m1 (by positivity)
  have eu : (13 : ℝ) / 2 ^ 53 = 13 * DQuat.u := by rw [DQuat.u]; ring
  have z0 : 0 ≤ DQuat.u * V.norm := mul_nonneg u0.le V0.le
  rw [e, eu]
  refine (V3.norm_add_le _ _).trans ?_
  have m5 : (1001 / 1000 * (402 / 100 * DQuat.u) + 2001 / 1000 * (301 / 100 * DQuat.u) + 2 * d) * (1000001 / 1000000 * V.norm) ≤ 108 / 10 * (DQuat.u * V.norm) := by
    rw [hd]; nlinarith
  nlinarith

/-- points that meet the hypotheses, the second of which is near the segment without being on it -/
example : Small ⟨0, 0, 0⟩ ∧ Small ⟨4, 0, 0⟩ ∧ Small ⟨1, 0, 0⟩ ∧ (2 : ℝ) ^ (-200 : ℤ) ≤ ((⟨4, 0, 0⟩ : V3) - ⟨0, 0, 0⟩).norm := by
  have h : ∀ n : ℤ, |n| ≤ 2 ^ 53 → Representable (n : ℝ) ∧ |(n : ℝ)| ≤ 2 ^ 248 := fun n hn => ⟨representable_int hn, by
    have h1 : (|(n : ℝ)|) ≤ 2 ^ 53 := by exact_mod_cast hn
    exact h1.trans (pow_le_pow_right₀ one_le_two (by norm_num))⟩
  have h0 := h 0 (by norm_num)
  have h4 := h 4 (by norm_num)
  have h1 := h 1 (by norm_num)
  push_cast at h0 h4 h1
  refine ⟨⟨h0, h0, h0⟩, ⟨h4, h0, h0⟩, ⟨h1, h0, h0⟩, ?_⟩
  have e : ((⟨4, 0, 0⟩ : V3) - ⟨0, 0, 0⟩).norm = 4 := by
    rw [V3.norm, show ((⟨4, 0, 0⟩ : V3) - ⟨0, 0, 0⟩).normSq = 4 ^ 2 by norm_num [V3.normSq, V3.dot], Real.sqrt_sq (by norm_num)]
  rw [e]
  exact (zpow_le_one_of_nonpos₀ one_le_two (by norm_num)).trans (by norm_num)

theorem norm_le_two_bounded {d : V3} (hd : d.norm ≤ 2) : Bounded 249 d := by
  have h2 : (2 : ℝ) ≤ 2 ^ 249 := by
    calc (2 : ℝ) = 2 ^ 1 := (pow_one _).symm
      _ ≤ _ := pow_le_pow_right₀ one_le_two (by norm_num)
  have h : d.normSq ≤ 4 := by
    rw [← V3.norm_sq]; nlinarith [V3.norm_nonneg d]
  rw [V3.normSq, V3.dot] at h
  have key : ∀ x : ℝ, x * x ≤ 4 → |x| ≤ 2 ^ 249 := fun x hx => (abs_le_of_sq_le_sq (by rw [sq]; linarith) (by norm_num : (0 : ℝ) ≤ 2)).trans h2
  exact ⟨key _ (by nlinarith [mul_self_nonneg d.y, mul_self_nonneg d.z]), key _ (by nlinarith [mul_self_nonneg d.x, mul_self_nonneg d.z]),
    key _ (by nlinarith [mul_self_nonneg d.x, mul_self_nonneg d.y])⟩

theorem contains_line (o : Bool) {a d p : V3} (ha : Small a) (hd : d.norm ≤ 2) (hp : Small p) :
    DLine.contains o (doubles a) (doubles d) (doubles p) = .ok (decide (dotR o (cross3 d (diff3 p a)) (cross3 d (diff3 p a)) = 0)) ∧
    DRay.contains o (doubles a) (doubles d) (doubles p) =
      .ok (decide (dotR o (cross3 d (diff3 p a)) (cross3 d (diff3 p a)) = 0 ∧ 0 ≤ dotR o d (diff3 p a))) ∧
    DPlane.contains o (doubles a) (doubles d) (doubles p) = .ok (decide (dotR o (diff3 p a) d = 0)) := by
  have b1 := norm_le_two_bounded hd
  obtain ⟨e2, b2⟩ := sub_doubles (by norm_num) hp.bounded ha.bounded
  obtain ⟨e3, b3⟩ := cross_doubles (by norm_num) b1 b2
  have c1 := b1.mono (show 249 ≤ 500 by norm_num)
  have c2 := b2.mono (show 249 ≤ 500 by norm_num)
  have c3 := b3.mono (show 499 ≤ 500 by norm_num)
  rw [DLine.contains, DRay.contains, DPlane.contains, doubles_defined, doubles_defined, doubles_defined]
  simp only [e2, e3, DVec.squaredNorm, dot_doubles o c1 c2, dot_doubles o c2 c1, dot_doubles o c3 c3, F64.eq, F64.le, Bool.not_true, Bool.or_self,
    Bool.false_eq_true, if_false, Bool.decide_and, and_self]

theorem line_near (o : Bool) {a d p : V3} (ha : Small a) (hd : 1 / 2 ≤ d.norm) (hp : Small p)
    (h : dotR o (cross3 d (diff3 p a)) (cross3 d (diff3 p a)) = 0) :
    (diff3 p a - (d.dot (diff3 p a) / d.normSq) • d).norm ≤ 403 / 100 * DQuat.u * (p - a).norm + 2 ^ (-533 : ℤ) ∧
      (diff3 p a).norm ≤ 1001 / 1000 * (p - a).norm := by
  have u0 := DQuat.u_pos
  have u1 := DQuat.u_small
  have hd0 : 0 < d.norm := by linarith
  have hdn : 0 < d.normSq := by rw [← V3.norm_mul_self]; exact mul_pos hd0 hd0
  have line := DSegment.to_line (by positivity) (two_zpow_pos _).le hdn (cross_zero o h)
  have dw := diff3_near hp.within ha.within
  have n2 := V3.norm_le_add (diff3 p a) (p - a)
  have W0 := V3.norm_nonneg (p - a)
  have uW : DQuat.u * (p - a).norm ≤ 1 / 100000 * (p - a).norm := mul_le_mul_of_nonneg_right (by linarith) W0
  have e : 3 * ((2 : ℝ) ^ (-536 : ℤ) / d.norm) ≤ 2 ^ (-533 : ℤ) := by
    rw [mul_div_assoc', div_le_iff₀ hd0, show (-533 : ℤ) = 3 + -536 by norm_num, zpow_add₀ two_ne_zero]
    have p0 := two_zpow_pos (α := ℝ) (-536)
    have : (2 : ℝ) ^ (3 : ℤ) = 8 := by norm_num
    rw [this]
    generalize (2 : ℝ) ^ (-536 : ℤ) = r at *
    nlinarith
  refine ⟨line.trans ?_, by linarith⟩
  have m : (diff3 p a).norm ≤ 100001 / 100000 * (p - a).norm := by linarith
  have m2 := mul_le_mul_of_nonneg_left m (show 0 ≤ 2 * (201 / 100 * DQuat.u) by positivity)
  have z0 : 0 ≤ DQuat.u * (p - a).norm := mul_nonneg u0.le W0
  clear line
  generalize (2 : ℝ) ^ (-533 : ℤ) = r at *
  generalize (2 : ℝ) ^ (-536 : ℤ) / d.norm = r' at *
  nlinarith

/-- **C117.** A line contains its origin, and a point that it contains is near a point of the line. -/
theorem C117_line (o : Bool) {a d p : V3} (ha : Small a) (hd1 : 1 / 2 ≤ d.norm) (hd2 : d.norm ≤ 2) (hp : Small p) :
    DLine.contains o (doubles a) (doubles d) (doubles a) = .ok true ∧
    (DLine.contains o (doubles a) (doubles d) (doubles p) = .ok true → ∃ q ∈ LineSet a d, (p - q).norm ≤ 6 / 2 ^ 53 * (p - a).norm + 2 ^ (-533 : ℤ)) := by
  refine ⟨?_, fun h => ?_⟩
  · rw [(contains_line o ha hd2 ha).1, diff3_self, cross3_zero, dotR_zero]; simp
  · rw [(contains_line o ha hd2 hp).1, Except.ok.injEq, decide_eq_true_eq] at h
    obtain ⟨h1, -⟩ := line_near o ha hd1 hp h
    refine ⟨a + (d.dot (diff3 p a) / d.normSq) • d, ⟨_, rfl⟩, ?_⟩
    have dw := diff3_near hp.within ha.within
    have e : p - (a + (d.dot (diff3 p a) / d.normSq) • d) = (diff3 p a - (d.dot (diff3 p a) / d.normSq) • d) + ((p - a) - diff3 p a) := by ext <;> simp <;> ring
    have z0 : 0 ≤ DQuat.u * (p - a).norm := mul_nonneg DQuat.u_pos.le (V3.norm_nonneg _)
    have eu : (6 : ℝ) / 2 ^ 53 = 6 * DQuat.u := by rw [DQuat.u]; ring
    rw [e, eu]
    refine (V3.norm_add_le _ _).trans ?_
    rw [V3.norm_sub_comm (p - a)]
    generalize (2 : ℝ) ^ (-533 : ℤ) = r at *
    linarith

/-- **C117.** A ray contains its origin, and a point that it contains is near a point of the ray. -/
theorem C117_ray (o : Bool) {a d p : V3} (ha : Small a) (hd1 : 1 / 2 ≤ d.norm) (hd2 : d.norm ≤ 2) (hp : Small p) :
    DRay.contains o (doubles a) (doubles d) (doubles a) = .ok true ∧
    (DRay.contains o (doubles a) (doubles d) (doubles p) = .ok true → ∃ q ∈ RaySet a d, (p - q).norm ≤ 9 / 2 ^ 53 * (p - a).norm + 2 ^ (-532 : ℤ)) := by
  have hd0 : 0 < d.norm := by linarith
  have hdn : 0 < d.normSq := by rw [← V3.norm_mul_self]; exact mul_pos hd0 hd0
  refine ⟨?_, fun h => ?_⟩
  · rw [(contains_line o ha hd2 ha).2.1, diff3_self, cross3_zero, dotR_zero, dotR_zero]; simp
  · rw [(contains_line o ha hd2 hp).2.1, Except.ok.injEq, decide_eq_true_eq] at h
    obtain ⟨h1, hw⟩ := line_near o ha hd1 hp h.1
    have u0 := DQuat.u_pos
    have t0 := DQuat.t_pos
    have dw := diff3_near hp.within ha.within
    have k := (abs_le.1 (dotR_near o d (diff3 p a))).2
    have W0 := V3.norm_nonneg (p - a)
    have z0 : 0 ≤ DQuat.u * (p - a).norm := mul_nonneg u0.le W0
    set s := d.dot (diff3 p a) / d.normSq with hs
    have hsn : d.dot (diff3 p a) = s * d.norm * d.norm := by rw [hs, mul_assoc, V3.norm_mul_self, div_mul_cancel₀ _ hdn.ne']
    have g : -(302 / 100 * DQuat.u * (p - a).norm) - 7 * DQuat.t ≤ s * d.norm := by
      by_contra hh
      push Not at hh
      have := mul_lt_mul_of_pos_right hh hd0
      have m := mul_le_mul_of_nonneg_left hw (show 0 ≤ 301 / 100 * DQuat.u * d.norm by positivity)
      have z1 : 0 ≤ DQuat.u * (p - a).norm * d.norm := mul_nonneg z0 hd0.le
      nlinarith
    have ht : 7 * DQuat.t ≤ 2 ^ (-533 : ℤ) := by
      rw [DQuat.t, show (-1075 : ℤ) = -542 + -533 by norm_num, zpow_add₀ two_ne_zero, ← mul_assoc]
      refine mul_le_of_le_one_left (two_zpow_pos _).le ?_
      have h1 : (2 : ℝ) ^ (-542 : ℤ) ≤ 2 ^ (-3 : ℤ) := zpow_le_zpow_right₀ one_le_two (by norm_num)
      have e2 : (2 : ℝ) ^ (-3 : ℤ) = 1 / 8 := by norm_num
      rw [e2] at h1
      generalize (2 : ℝ) ^ (-542 : ℤ) = r at *
      linarith
    have e533 : (2 : ℝ) ^ (-532 : ℤ) = 2 * 2 ^ (-533 : ℤ) := by
      rw [show (-532 : ℤ) = 1 + -533 by norm_num, zpow_add₀ two_ne_zero, zpow_one]
    have p0 := two_zpow_pos (α := ℝ) (-533)
    have eu : (9 : ℝ) / 2 ^ 53 = 9 * DQuat.u := by rw [DQuat.u]; ring
    rw [eu, e533]
    generalize (2 : ℝ) ^ (-533 : ℤ) = r at *
    have fin : ∀ k : ℝ, |s - k| * d.norm ≤ 302 / 100 * DQuat.u * (p - a).norm + r → (p - (a + k • d)).norm ≤ 9 * DQuat.u * (p - a).norm + 2 * r := fun k hk => by
      have e : p - (a + k • d) = (diff3 p a - s • d) + ((s - k) • d + ((p - a) - diff3 p a)) := by ext <;> simp <;> ring
      rw [e]
      refine (V3.norm_add_le _ _).trans ?_
      have := V3.norm_add_le ((s - k) • d) ((p - a) - diff3 p a)
      rw [V3.norm_smul, V3.norm_sub_comm (p - a)] at this
      linarith
    rcases lt_or_ge s 0 with hneg | hpos
    · refine ⟨a + (0 : ℝ) • d, ⟨0, le_rfl, rfl⟩, fin 0 ?_⟩
      rw [sub_zero, abs_of_neg hneg]
      linarith
    · refine ⟨a + s • d, ⟨s, hpos, rfl⟩, fin s ?_⟩
      rw [sub_self, abs_zero, zero_mul]
      linarith

/-- **C117.** A plane contains its point, and a point that it contains is near the plane. -/
theorem C117_plane (o : Bool) {a n p : V3} (ha : Small a) (hn : n.norm ≤ 2) (hp : Small p) :
    DPlane.contains o (doubles a) (doubles n) (doubles a) = .ok true ∧
    (DPlane.contains o (doubles a) (doubles n) (doubles p) = .ok true → |n.dot (p - a)| ≤ 5 / 2 ^ 53 * ((p - a).norm * n.norm) + 2 ^ (-1073 : ℤ)) := by
  refine ⟨?_, fun h => ?_⟩
  · rw [(contains_line o ha hn ha).2.2, diff3_self]
    have : dotR o 0 n = 0 := by cases o <;> simp [dotR, DVec.dot3, DVec.sum3, rnd_zero]
    rw [this]; simp
  · rw [(contains_line o ha hn hp).2.2, Except.ok.injEq, decide_eq_true_eq] at h
    have u0 := DQuat.u_pos
    have u1 := DQuat.u_small
    have k := dotR_near o (diff3 p a) n
    rw [h, zero_sub, abs_neg] at k
    have dw := diff3_near hp.within ha.within
    have n0 := V3.norm_nonneg n
    have W0 := V3.norm_nonneg (p - a)
    have e : n.dot (p - a) = (diff3 p a).dot n - (diff3 p a - (p - a)).dot n := by simp only [V3.dot, V3.sub_x, V3.sub_y, V3.sub_z]; ring
    have c := V3.abs_dot_le (diff3 p a - (p - a)) n
    have c2 := mul_le_mul_of_nonneg_right dw n0
    have n2 := V3.norm_le_add (diff3 p a) (p - a)
    have uW : DQuat.u * (p - a).norm ≤ 1 / 100000 * (p - a).norm := mul_le_mul_of_nonneg_right (by linarith) W0
    have m : (diff3 p a).norm ≤ 100001 / 100000 * (p - a).norm := by linarith
    have m2 := mul_le_mul_of_nonneg_right m n0
    have m3 := mul_le_mul_of_nonneg_left m2 (show 0 ≤ 301 / 100 * DQuat.u by positivity)
    have z0 : 0 ≤ DQuat.u * ((p - a).norm * n.norm) := mul_nonneg u0.le (mul_nonneg W0 n0)
    have et : (2 : ℝ) ^ (-1073 : ℤ) = 4 * DQuat.t := by
      rw [DQuat.t, show (-1073 : ℤ) = 2 + -1075 by norm_num, zpow_add₀ two_ne_zero]; norm_num
    have t0 := DQuat.t_pos
    have eu : (5 : ℝ) / 2 ^ 53 = 5 * DQuat.u := by rw [DQuat.u]; ring
    rw [e, eu, et]
    refine (abs_sub _ _).trans ?_
    nlinarith

/-- directions that meet the hypotheses -/
example : (1 : ℝ) / 2 ≤ (⟨0, 1, 0⟩ : V3).norm ∧ (⟨0, 1, 0⟩ : V3).norm ≤ 2 := by
  have : (⟨0, 1, 0⟩ : V3).norm = 1 := V3.norm_of_normSq_one (by norm_num [V3.normSq, V3.dot])
  rw [this]; norm_num

/-- Disagreement: a segment need not contain its centre. The centre of the segment from `(1, 0, 0)` to `(1 + 2 ^ -52, 1, 0)` is rounded to `(1, 1 / 2, 0)`. -/
theorem C117_center_violated (o : Bool) : ∃ c, DSegment.getCenter (doubles ⟨1, 0, 0⟩) (doubles ⟨1 + 2 ^ (-52 : ℤ), 1, 0⟩) = .ok c ∧
    DSegment.contains o (doubles ⟨1, 0, 0⟩) (doubles ⟨1 + 2 ^ (-52 : ℤ), 1, 0⟩) c = .ok false := by
  have r1 : Representable (1 : ℝ) := by simpa using representable_int (α := ℝ) (m := 1) (by norm_num)
  have q1 : rnd (1 : ℝ) = 1 := rnd_exact r1
  have r2 : Representable (1 + 2 ^ (-52 : ℤ) : ℝ) := ⟨2 ^ 52 + 1, -52, by norm_num, by norm_num, by norm_num⟩
  have rh : Representable (1 / 2 : ℝ) := ⟨1, -1, by norm_num, by norm_num, by norm_num⟩
  have r52 : rnd ((2 : ℝ) ^ (-52 : ℤ)) = 2 ^ (-52 : ℤ) := rnd_exact (F64.representable_pow (by norm_num))
  have f : ∀ x : ℝ, |x| ≤ 2 → |x| ≤ 2 ^ 248 := fun x hx => hx.trans (by
    calc (2 : ℝ) = 2 ^ 1 := (pow_one _).symm
      _ ≤ _ := pow_le_pow_right₀ one_le_two (by norm_num))
  have w1 : Small ⟨1, 0, 0⟩ := ⟨⟨r1, f _ (by norm_num)⟩, ⟨representable_zero, f _ (by norm_num)⟩, ⟨representable_zero, f _ (by norm_num)⟩⟩
  have w2 : Small ⟨1 + 2 ^ (-52 : ℤ), 1, 0⟩ := ⟨⟨r2, f _ (by norm_num [abs_of_pos])⟩, ⟨r1, f _ (by norm_num)⟩, ⟨representable_zero, f _ (by norm_num)⟩⟩
  have w3 : Small ⟨1, 1 / 2, 0⟩ := ⟨⟨r1, f _ (by norm_num)⟩, ⟨rh, f _ (by norm_num [abs_of_pos])⟩, ⟨representable_zero, f _ (by norm_num)⟩⟩
  have d1 : diff3 ⟨1 + 2 ^ (-52 : ℤ), 1, 0⟩ ⟨1, 0, 0⟩ = ⟨2 ^ (-52 : ℤ), 1, 0⟩ := by
    simp only [diff3, add_sub_cancel_left, r52, sub_zero, q1, rnd_zero]
  have d2 : diff3 ⟨1, 1 / 2, 0⟩ ⟨1, 0, 0⟩ = ⟨0, 1 / 2, 0⟩ := by
    simp only [diff3, sub_self, rnd_zero, sub_zero, rnd_exact rh]
  refine ⟨doubles ⟨1, 1 / 2, 0⟩, ?_, ?_⟩
  · obtain ⟨e, -⟩ := sub_doubles (by norm_num) w2.bounded w1.bounded
    have h53 : rnd ((2 : ℝ) ^ (-52 : ℤ) / 2) = 2 ^ (-53 : ℤ) := by
      rw [show (2 : ℝ) ^ (-52 : ℤ) / 2 = 2 ^ (-53 : ℤ) by norm_num]
      exact rnd_exact (F64.representable_pow (by norm_num))
    have hs : rnd ((1 : ℝ) + 2 ^ (-53 : ℤ)) = 1 := by
      rw [rnd_eq (4503599627370496 : ℤ) (-52) (by norm_num) (by norm_num) (by norm_num) (by norm_num)]
      norm_num
    have v1 := (div_fin (a := 2 ^ (-52 : ℤ)) (n := 2) two_pos (by norm_num)).1
    have v2 := (div_fin (a := 1) (n := 2) two_pos (by norm_num)).1
    have v3 := (div_fin (a := 0) (n := 2) two_pos (by norm_num)).1
    rw [h53] at v1
    rw [rnd_exact rh] at v2
    rw [zero_div, rnd_zero] at v3
    have a1 := (DVec.add_fin2 (a := 1) (b := 2 ^ (-53 : ℤ)) (n := 0) (by norm_num) (by norm_num) (by norm_num)).1
    have a2 := (DVec.add_fin2 (a := 0) (b := 1 / 2) (n := 0) (by norm_num) (by norm_num) (by norm_num [abs_of_pos])).1
    rw [hs] at a1
    rw [zero_add, rnd_exact rh] at a2
    rw [DSegment.getCenter, doubles_defined, doubles_defined, e, d1]
    simp only [doubles, DVec.div, v1, v2, v3, DVec.add, a1, a2, zero_add_zero]
    simp [DVec.isDefined]
  · rw [contains_segment o w1 w2 w3, d1, d2, if_neg (by simp)]
    have c : cross3 ⟨2 ^ (-52 : ℤ), 1, 0⟩ ⟨0, 1 / 2, 0⟩ = ⟨0, 0, 2 ^ (-53 : ℤ)⟩ := by
      simp only [cross3, mul_zero, zero_mul, rnd_zero, sub_zero]
      rw [show (2 : ℝ) ^ (-52 : ℤ) * (1 / 2) = 2 ^ (-53 : ℤ) by norm_num, rnd_rnd, rnd_exact (F64.representable_pow (by norm_num))]
    have k : dotR o ⟨0, 0, 2 ^ (-53 : ℤ)⟩ ⟨0, 0, 2 ^ (-53 : ℤ)⟩ ≠ 0 := by
      have e : rnd ((2 : ℝ) ^ (-53 : ℤ) * 2 ^ (-53 : ℤ)) = 2 ^ (-106 : ℤ) := by
        rw [← zpow_add₀ two_ne_zero]; exact rnd_exact (F64.representable_pow (by norm_num))
      have e2 : rnd ((2 : ℝ) ^ (-106 : ℤ)) = 2 ^ (-106 : ℤ) := rnd_exact (F64.representable_pow (by norm_num))
      rw [dotR, DVec.dot3]
      simp only [mul_zero, rnd_zero, e]
      cases o
      · simp only [DVec.sum3, Bool.false_eq_true, if_false, zero_add, rnd_zero, e2]; exact (two_zpow_pos _).ne'
      · simp only [DVec.sum3, if_true, zero_add, e2]; exact (two_zpow_pos _).ne'
    rw [c, Except.ok.injEq]
    exact decide_eq_false fun h => k h.1

/-- Disagreement: the products overflow. A segment with an end of `2 ^ 600` does not contain that end. -/
theorem C117_overflow_violated (o : Bool) : DSegment.contains o (doubles ⟨0, 0, 0⟩) (doubles ⟨2 ^ 600, 2 ^ 600, 0⟩) (doubles ⟨2 ^ 600, 2 ^ 600, 0⟩) = .ok false := by
  have e1 : (F64.fin ((2 : ℝ) ^ 600)).sub (.fin 0) = .fin (2 ^ 600) := by
    rw [DAngle.sub_fin, sub_zero, F64.ofExact_fin] <;> rw [rnd_exact (DQuat.rep_two 600)]
    rw [abs_of_pos (by positivity)]
    exact DQuat.two_lt (by norm_num)
  have e2 : (F64.fin (0 : ℝ)).sub (.fin 0) = .fin 0 := DAngle.sub_self_fin 0
  have e3 := mul_overflow (m := 600) (n := 600) (by norm_num)
  have e4 : (F64.fin ((2 : ℝ) ^ 600)).mul (.fin 0) = .fin 0 := by
    simp only [F64.mul, F64.ofExact, mul_zero, rnd_zero, abs_zero]
    rw [if_neg (not_le.2 (by positivity))]
  have e5 : (F64.fin (0 : ℝ)).mul (.fin (2 ^ 600)) = .fin 0 := by rw [mul_comm', e4]
  rw [DSegment.contains, doubles_defined, doubles_defined, doubles_eq]
  simp only [doubles, DVec.sub, e1, e2, DVec.cross, e3, e4, e5, DVec.squaredNorm, DVec.dot, zero_mul_zero]
  have hne : ¬((0 : ℝ) = 2 ^ 600 ∧ (0 : ℝ) = 2 ^ 600 ∧ (0 : ℝ) = 0) := fun h => absurd h.1 (by positivity : (2 : ℝ) ^ 600 ≠ 0).symm
  rw [if_neg (by simp), if_neg (by simp), if_neg (by simpa using hne)]
  have k : (F64.inf false : F64 ℝ).sub (.inf false) = .nan := rfl
  have k2 : ∀ x : F64 ℝ, x.add .nan = .nan := fun x => by cases x <;> rfl
  have k3 : (F64.nan : F64 ℝ).mul .nan = .nan := rfl
  rw [k, k3]
  cases o <;> simp only [DVec.sum, k2, Bool.false_eq_true, if_false, if_true, F64.eq]

end Verif.Props
