import Verif.Model.DoublePyramid
import Verif.Props.DoublePolygon
import Verif.Lemmas.DoubleBasis

/-!
# Lemmas for C147: lateral faces of pyramids in double precision
-/

namespace Verif.Props

open Verif Verif.Spec Verif.Double

namespace Face

theorem diff_rep (a b : V3) : Move.Rep (diff3 a b) := ⟨rnd_representable _, rnd_representable _, rnd_representable _⟩

theorem cross_rep (a b : V3) : Move.Rep (cross3 a b) := ⟨rnd_representable _, rnd_representable _, rnd_representable _⟩

theorem within_bounded {a : V3} {n : ℕ} (hn : n ≤ 499) (h : Move.Rep a) (hb : Bounded n a) : Within a := by
  have p : (2 : ℝ) ^ n ≤ 2 ^ 499 := pow_le_pow_right₀ one_le_two hn
  exact ⟨⟨h.1, hb.1.trans p⟩, ⟨h.2.1, hb.2.1.trans p⟩, ⟨h.2.2, hb.2.2.trans p⟩⟩

theorem sub_small {a f : V3} (ha : Small a) (hf : Small f) : (doubles f).sub (doubles a) = doubles (diff3 f a) ∧ Bounded 249 (diff3 f a) ∧ Within (diff3 f a) := by
  obtain ⟨e, b⟩ := sub_doubles (n := 248) (by norm_num) hf.bounded ha.bounded
  exact ⟨e, b, within_bounded (by norm_num) (diff_rep _ _) b⟩

theorem norm_sub_comm (a b : V3) : (a - b).norm = (b - a).norm := by
  have e : a - b = (-1 : ℝ) • (b - a) := by ext <;> simp
  rw [e, V3.norm_smul]; simp

theorem norm_near {a e : V3} {d : ℝ} (h : (a - e).norm ≤ d) : e.norm - d ≤ a.norm ∧ a.norm ≤ e.norm + d := by
  refine ⟨?_, near_length h⟩
  rw [norm_sub_comm] at h
  linarith [near_length h]

/-- the computed direction from one point to another -/
theorem direction (o : Bool) {a f : V3} (ha : Small a) (hf : Small f) (h : 1 / 2 ^ 30 ≤ (f - a).norm) :
    ∃ d, ((doubles f).sub (doubles a)).normalized o = doubles d ∧ Move.Rep d ∧ Bounded 0 d ∧ (d - unitAlong (f - a)).norm ≤ 65 / 10 * DQuat.u := by
  have u0 := DQuat.u_pos
  have u1 := DQuat.u_small
  obtain ⟨e, -, w⟩ := sub_small ha hf
  have k := diff3_near hf.within ha.within
  have z : (0 : ℝ) < 1 / 2 ^ 30 := by norm_num
  have v0 : 0 < (f - a).norm := lt_of_lt_of_le z h
  have ku : DQuat.u * (f - a).norm ≤ 1 / 2 * (f - a).norm := mul_le_mul_of_nonneg_right (u1.trans (by norm_num)) v0.le
  have l := (norm_near k).1
  have l' : 1 / 2 ^ 40 ≤ ‖pure (diff3 f a)‖ := by
    rw [pure_length]
    have : (1 / 2 ^ 40 : ℝ) ≤ 1 / 2 * (1 / 2 ^ 30) := by norm_num
    linarith
  obtain ⟨d, e1, r1, r2, r3, l1, l2, l3, near⟩ := normalized_any o w l'
  refine ⟨d, by rw [e, e1], ⟨r1, r2, r3⟩, ⟨by simpa using l1, by simpa using l2, by simpa using l3⟩, ?_⟩
  rw [← Flat3.pure_scaled, pure_sub, pure_length, pure_length] at near
  have c0 : 0 < (diff3 f a).norm := by linarith
  have m := unit_along_near v0 c0
  have m2 : (diff3 f a - (f - a)).norm / (f - a).norm ≤ DQuat.u := by rw [div_le_iff₀ v0]; exact k
  have t := V3.norm_add_le (d - (diff3 f a).norm⁻¹ • diff3 f a) (unitAlong (diff3 f a) - unitAlong (f - a))
  have e3 : d - (diff3 f a).norm⁻¹ • diff3 f a + (unitAlong (diff3 f a) - unitAlong (f - a)) = d - unitAlong (f - a) := by
    rw [unitAlong]; ext <;> simp
  rw [e3] at t
  linarith

/-- the computed normal of the face -/
theorem normal_near {f g e e' : V3} (he : e.norm = 1) (he' : e'.norm = 1) (hf : (f - e).norm ≤ 65 / 10 * DQuat.u) (hg : (g - e').norm ≤ 65 / 10 * DQuat.u) :
    (cross3 f g - f.cross g).norm ≤ 287 / 100 * DQuat.u ∧ (cross3 f g - e.cross e').norm ≤ 16 * DQuat.u := by
  have u0 := DQuat.u_pos
  have u1 := DQuat.u_small
  have tu := DRot.t_u
  have c := cross3_near f g
  have ch := cross_change he hf hg
  have nf := near_length hf
  have ng := near_length hg
  have f0 := V3.norm_nonneg f
  have g0 := V3.norm_nonneg g
  rw [he] at nf
  rw [he'] at ng
  have nf' : f.norm ≤ 1001 / 1000 := by linarith
  have ng' : g.norm ≤ 1001 / 1000 := by linarith
  have p : f.norm * g.norm ≤ 1001 / 1000 * (1001 / 1000) := mul_le_mul nf' ng' g0 (by norm_num)
  have p1 : DQuat.u * (f.norm * g.norm) ≤ DQuat.u * (1001 / 1000 * (1001 / 1000)) := mul_le_mul_of_nonneg_left p u0.le
  have p2 : DQuat.u * g.norm ≤ DQuat.u * (1001 / 1000) := mul_le_mul_of_nonneg_left ng' u0.le
  have k1 : (cross3 f g - f.cross g).norm ≤ 287 / 100 * DQuat.u := by linarith
  have t := V3.norm_add_le (cross3 f g - f.cross g) (f.cross g - e.cross e')
  have e3 : cross3 f g - f.cross g + (f.cross g - e.cross e') = cross3 f g - e.cross e' := by ext <;> simp
  rw [e3] at t
  exact ⟨k1, by linarith⟩

/-- the computed second direction is almost perpendicular to the first one -/
theorem second {f g e e' : V3} (he : e.norm = 1) (he' : e'.norm = 1) (hf : (f - e).norm ≤ 65 / 10 * DQuat.u) (hg : (g - e').norm ≤ 65 / 10 * DQuat.u)
    (h : 1 / 2 ^ 20 ≤ (e.cross e').norm) :
    |(cross3 (cross3 f g) f).dot f| ≤ 288 / 100 * DQuat.u * ((cross3 (cross3 f g) f).norm * f.norm) ∧ 1 / 2 ^ 22 ≤ (cross3 (cross3 f g) f).norm ∧
      (cross3 (cross3 f g) f - (e.cross e').cross e).norm ≤ 26 * DQuat.u := by
  have u0 := DQuat.u_pos
  have u1 := DQuat.u_small
  have t0 := DQuat.t_pos
  have tu := DRot.t_u
  obtain ⟨k1, k2⟩ := normal_near he he' hf hg
  have nf := norm_near hf
  rw [he] at nf
  have K1 : (e.cross e').norm ≤ 1 := by have := cross_le e e'; rw [he, he', one_mul] at this; exact this
  have nk := norm_near k2
  generalize hk : cross3 f g = k at *
  have nf1 : 999 / 1000 ≤ f.norm := by linarith
  have nf2 : f.norm ≤ 1001 / 1000 := by linarith
  have nk1 : 1 / 2 ^ 21 ≤ k.norm := by
    have : (16 : ℝ) * (1 / 10 ^ 15) + 1 / 2 ^ 21 ≤ 1 / 2 ^ 20 := by norm_num
    linarith
  have nk2 : k.norm ≤ 1001 / 1000 := by linarith
  have kz : (0 : ℝ) < 1 / 2 ^ 21 := by norm_num
  have k0 : 0 < k.norm := lt_of_lt_of_le kz nk1
  -- the normal is almost perpendicular to the first direction
  have d0 : (f.cross g).dot f = 0 := by simp only [V3.cross, V3.dot]; ring
  have kf : k.dot f = (k - f.cross g).dot f := by
    have : (k - f.cross g).dot f = k.dot f - (f.cross g).dot f := by simp only [V3.dot, V3.sub_x, V3.sub_y, V3.sub_z]; ring
    rw [this, d0, sub_zero]
  have q1 : |k.dot f| ≤ 3 * DQuat.u := by
    rw [kf]
    have c := V3.abs_dot_le (k - f.cross g) f
    have m : (k - f.cross g).norm * f.norm ≤ 287 / 100 * DQuat.u * (1001 / 1000) := mul_le_mul k1 nf2 (by linarith) (by positivity)
    linarith
  have kk : 4 / 10 ^ 7 ≤ k.norm * f.norm := by
    have : (1 / 2 ^ 21 : ℝ) * (999 / 1000) ≤ k.norm * f.norm := mul_le_mul nk1 nf1 (by norm_num) k0.le
    exact le_trans (by norm_num) this
  have lag := V3.lagrange k f
  rw [← V3.norm_sq, ← V3.norm_sq, ← V3.norm_sq] at lag
  have q2 : (k.dot f) ^ 2 ≤ (3 * DQuat.u) ^ 2 := by rw [← sq_abs]; exact pow_le_pow_left₀ (abs_nonneg _) q1 2
  have q3 : (3 * DQuat.u) ^ 2 ≤ (1 / 10 ^ 5 * (4 / 10 ^ 7)) ^ 2 := pow_le_pow_left₀ (by positivity) (by linarith) 2
  have q4 : (1 / 10 ^ 5 * (4 / 10 ^ 7 : ℝ)) ^ 2 ≤ (1 / 10 ^ 5 * (k.norm * f.norm)) ^ 2 := pow_le_pow_left₀ (by norm_num) (mul_le_mul_of_nonneg_left kk (by norm_num)) 2
  have low : 9999 / 10000 * (k.norm * f.norm) ≤ (k.cross f).norm := by
    refine le_of_sq_le_sq ?_ (V3.norm_nonneg _)
    have s0 : 0 ≤ (k.norm * f.norm) ^ 2 := sq_nonneg _
    have e1 : (k.norm * f.norm) ^ 2 = k.norm ^ 2 * f.norm ^ 2 := mul_pow _ _ _
    have e2 : (9999 / 10000 * (k.norm * f.norm)) ^ 2 = (9999 / 10000) ^ 2 * (k.norm * f.norm) ^ 2 := mul_pow _ _ _
    have e3 : (1 / 10 ^ 5 * (k.norm * f.norm)) ^ 2 = (1 / 10 ^ 5) ^ 2 * (k.norm * f.norm) ^ 2 := mul_pow _ _ _
    rw [e2, lag]
    rw [e3] at q4
    linarith
  have c := cross3_near k f
  have tk : 6 * DQuat.t ≤ 2 / 100 * DQuat.u * (k.norm * f.norm) := by
    have : DQuat.u * (4 / 10 ^ 7) ≤ DQuat.u * (k.norm * f.norm) := mul_le_mul_of_nonneg_left kk u0.le
    linarith
  have c' : (cross3 k f - k.cross f).norm ≤ 287 / 100 * DQuat.u * (k.norm * f.norm) := by linarith
  have ns := norm_near c'
  have us : DQuat.u * (k.norm * f.norm) ≤ 1 / 10 ^ 15 * (k.norm * f.norm) := mul_le_mul_of_nonneg_right u1 (by positivity)
  have ls : 9998 / 10000 * (k.norm * f.norm) ≤ (cross3 k f).norm := by linarith
  refine ⟨?_, ?_, ?_⟩
  · have d1 : (k.cross f).dot f = 0 := by simp only [V3.cross, V3.dot]; ring
    have sf : (cross3 k f).dot f = (cross3 k f - k.cross f).dot f := by
      have : (cross3 k f - k.cross f).dot f = (cross3 k f).dot f - (k.cross f).dot f := by simp only [V3.dot, V3.sub_x, V3.sub_y, V3.sub_z]; ring
      rw [this, d1, sub_zero]
    rw [sf]
    refine (V3.abs_dot_le _ f).trans ?_
    have m1 := mul_le_mul_of_nonneg_right c' (show 0 ≤ f.norm by linarith)
    have m2 : DQuat.u * f.norm * (9998 / 10000 * (k.norm * f.norm)) ≤ DQuat.u * f.norm * (cross3 k f).norm := mul_le_mul_of_nonneg_left ls (mul_nonneg u0.le (by linarith))
    have m3 : 0 ≤ DQuat.u * f.norm * (k.norm * f.norm) := by have : 0 ≤ f.norm := by linarith
                                                             positivity
    linarith
  · have : (1 / 2 ^ 22 : ℝ) ≤ 9998 / 10000 * (1 / 2 ^ 21 * (999 / 1000)) := by norm_num
    have m : (1 / 2 ^ 21 : ℝ) * (999 / 1000) ≤ k.norm * f.norm := mul_le_mul nk1 nf1 (by norm_num) k0.le
    linarith
  · have e4 : cross3 k f - (e.cross e').cross e = (cross3 k f - k.cross f) + ((k - e.cross e').cross f + (e.cross e').cross (f - e)) := by ext <;> simp [V3.cross] <;> ring
    rw [e4]
    have t1 := V3.norm_add_le (cross3 k f - k.cross f) ((k - e.cross e').cross f + (e.cross e').cross (f - e))
    have t2 := V3.norm_add_le ((k - e.cross e').cross f) ((e.cross e').cross (f - e))
    have t3 := cross_le (k - e.cross e') f
    have t4 := cross_le (e.cross e') (f - e)
    have m1 : (k - e.cross e').norm * f.norm ≤ 16 * DQuat.u * (1001 / 1000) := mul_le_mul k2 nf2 (by linarith) (by positivity)
    have m2 : (e.cross e').norm * (f - e).norm ≤ 1 * (65 / 10 * DQuat.u) := mul_le_mul K1 hf (V3.norm_nonneg _) zero_le_one
    have m3 : k.norm * f.norm ≤ 1001 / 1000 * (1001 / 1000) := mul_le_mul nk2 nf2 (by linarith) (by norm_num)
    have m4 : DQuat.u * (k.norm * f.norm) ≤ DQuat.u * (1001 / 1000 * (1001 / 1000)) := mul_le_mul_of_nonneg_left m3 u0.le
    linarith

/-- what normalizing does to the cosine -/
theorem tilt {f s b : V3} {n : ℝ} (f0 : 0 < f.norm) (s0 : 0 < s.norm) (h : |s.dot f| ≤ 288 / 100 * DQuat.u * (s.norm * f.norm)) (n0 : 0 < n)
    (hn : |n - s.norm| ≤ 32 / 10 * DQuat.u * s.norm) (b1 : |b.x - s.x / n| ≤ DQuat.u * |s.x / n| + DQuat.t) (b2 : |b.y - s.y / n| ≤ DQuat.u * |s.y / n| + DQuat.t)
    (b3 : |b.z - s.z / n| ≤ DQuat.u * |s.z / n| + DQuat.t) (hb : 99999 / 100000 ≤ b.norm) : |Flat3.cosine f b| ≤ 3889 / 1000 * DQuat.u := by
  have u0 := DQuat.u_pos
  have u1 := DQuat.u_small
  have t0 := DQuat.t_pos
  have tu := DRot.t_u
  have b0 : 0 < b.norm := by linarith
  rw [Flat3.cosine, pure_length, pure_length, abs_div, abs_of_pos (mul_pos f0 b0), div_le_iff₀ (mul_pos f0 b0)]
  -- the quotient of the lengths
  have r : s.norm / n ≤ 100001 / 100000 := by
    rw [div_le_iff₀ n0]
    have k := (abs_le.1 hn).1
    have : DQuat.u * s.norm ≤ 1 / 10 ^ 15 * s.norm := mul_le_mul_of_nonneg_right u1 s0.le
    nlinarith
  have r0 : 0 ≤ s.norm / n := by positivity
  have e : f.dot b = s.dot f / n + ((b.x - s.x / n) * f.x + (b.y - s.y / n) * f.y + (b.z - s.z / n) * f.z) := by simp only [V3.dot]; ring
  have p1 : |s.dot f / n| ≤ 288 / 100 * DQuat.u * (s.norm / n) * f.norm := by
    rw [abs_div, abs_of_pos n0, div_le_iff₀ n0]
    have : 288 / 100 * DQuat.u * (s.norm / n) * f.norm * n = 288 / 100 * DQuat.u * (s.norm * f.norm) := by field_simp
    rw [this]; exact h
  have part : ∀ {x y z : ℝ}, |x - y / n| ≤ DQuat.u * |y / n| + DQuat.t → |z| ≤ f.norm → |(x - y / n) * z| ≤ DQuat.u / n * |y * z| + DQuat.t * f.norm := fun {x y z} h hz => by
    rw [abs_mul]
    have m := mul_le_mul_of_nonneg_right h (abs_nonneg z)
    have m2 := mul_le_mul_of_nonneg_left hz t0.le
    have e : DQuat.u / n * |y * z| = DQuat.u * |y / n| * |z| := by rw [abs_mul, abs_div, abs_of_pos n0]; ring
    rw [e]; linarith
  obtain ⟨f1, f2, f3⟩ := within_length f
  have c3 := Flat3.cauchy3 s f
  rw [pure_length, pure_length] at c3
  have c4 : DQuat.u / n * (|s.x * f.x| + |s.y * f.y| + |s.z * f.z|) ≤ DQuat.u * (s.norm / n) * f.norm := by
    have := mul_le_mul_of_nonneg_left c3 (show 0 ≤ DQuat.u / n by positivity)
    have e : DQuat.u / n * (s.norm * f.norm) = DQuat.u * (s.norm / n) * f.norm := by ring
    rw [← e]; exact this
  have g1 := part b1 f1
  have g2 := part b2 f2
  have g3 := part b3 f3
  have tri := abs_add_le (s.dot f / n) ((b.x - s.x / n) * f.x + (b.y - s.y / n) * f.y + (b.z - s.z / n) * f.z)
  have tri2 := abs_add_three ((b.x - s.x / n) * f.x) ((b.y - s.y / n) * f.y) ((b.z - s.z / n) * f.z)
  rw [e]
  have uf : 0 < DQuat.u * f.norm := mul_pos u0 f0
  have m1 : DQuat.u * f.norm * (s.norm / n) ≤ DQuat.u * f.norm * (100001 / 100000) := mul_le_mul_of_nonneg_left r uf.le
  have m2 : DQuat.u * f.norm * (99999 / 100000) ≤ DQuat.u * f.norm * b.norm := mul_le_mul_of_nonneg_left hb uf.le
  have m3 : DQuat.t * f.norm ≤ DQuat.u / 10 ^ 9 * f.norm := mul_le_mul_of_nonneg_right tu f0.le
  linarith

/-- the sine of the angle between two vectors -/
noncomputable def sine (v w : V3) : ℝ := (v.cross w).norm / (v.norm * w.norm)

/-- the vector of length one in the plane of two vectors that is perpendicular to the first one, on the side of the second one -/
noncomputable def across (v w : V3) : V3 := unitAlong (((unitAlong v).cross (unitAlong w)).cross (unitAlong v))

theorem sine_units {v w : V3} (hv : 0 < v.norm) (hw : 0 < w.norm) : ((unitAlong v).cross (unitAlong w)).norm = sine v w := by
  have e : (unitAlong v).cross (unitAlong w) = (v.norm⁻¹ * w.norm⁻¹) • v.cross w := by ext <;> simp [unitAlong, V3.cross] <;> ring
  rw [e, V3.norm_smul, abs_of_pos (mul_pos (inv_pos.2 hv) (inv_pos.2 hw)), sine]
  field_simp

/-- a vector perpendicular to a unit vector keeps its length -/
theorem cross_perp {k e : V3} (he : e.norm = 1) (h : k.dot e = 0) : (k.cross e).norm = k.norm := by
  have := V3.lagrange k e
  rw [h, ← V3.norm_sq e, he] at this
  rw [V3.norm, V3.norm, this]; congr 1; ring

theorem sine_le_one {v w : V3} (hv : 0 < v.norm) (hw : 0 < w.norm) : sine v w ≤ 1 := by
  rw [sine, div_le_one (mul_pos hv hw)]; exact cross_le v w

/-- the computed axes of a face -/
theorem axes_near (o : Bool) {a f s : V3} (ha : Small a) (hf : Small f) (hs : Small s) (lf : 1 / 2 ^ 30 ≤ (f - a).norm) (ls : 1 / 2 ^ 30 ≤ (s - a).norm) (h : 1 / 2 ^ 20 ≤ sine (f - a) (s - a)) :
    ∃ x y : V3, DPyramid.axes o (doubles a) (doubles f) (doubles s) = (doubles x, doubles y) ∧ Move.Rep x ∧ Bounded 0 x ∧ Move.Rep y ∧ Bounded 0 y ∧
      (x - unitAlong (f - a)).norm ≤ 65 / 10 * DQuat.u ∧ (y - across (f - a) (s - a)).norm ≤ 57 * (DQuat.u / sine (f - a) (s - a)) ∧ |Flat3.cosine x y| ≤ 3889 / 1000 * DQuat.u := by
  have u0 := DQuat.u_pos
  have u1 := DQuat.u_small
  have z : (0 : ℝ) < 1 / 2 ^ 30 := by norm_num
  have v0 := lt_of_lt_of_le z lf
  have w0 := lt_of_lt_of_le z ls
  obtain ⟨x, ex, rx, bx, nx⟩ := direction o ha hf lf
  obtain ⟨g, eg, rg, bg, ng⟩ := direction o ha hs ls
  have he := norm_along v0
  have he' := norm_along w0
  have hσ := sine_units v0 w0
  have σ1 := sine_le_one v0 w0
  have perp : ((unitAlong (f - a)).cross (unitAlong (s - a))).dot (unitAlong (f - a)) = 0 := by simp only [V3.cross, V3.dot]; ring
  have len := cross_perp he perp
  rw [across]
  obtain ⟨c1, b1⟩ := cross_doubles (n := 0) (by norm_num) bx bg
  obtain ⟨c2, b2⟩ := cross_doubles (n := 1) (by norm_num) (v := cross3 x g) (w := x) b1 (bx.mono (by norm_num))
  obtain ⟨q1, q2, q3⟩ := second he he' nx ng (by rw [hσ]; exact h)
  have wS : Within (cross3 (cross3 x g) x) := within_bounded (by norm_num) (cross_rep _ _) b2
  have nS : 1 / 2 ^ 40 ≤ ‖pure (cross3 (cross3 x g) x)‖ := by rw [pure_length]; exact le_trans (by norm_num) q2
  obtain ⟨y, n, ey, ry, y1, y2, y3, near, n0, nn, p1, p2, p3⟩ := Flat3.scaled o wS nS
  have ax : DPyramid.axes o (doubles a) (doubles f) (doubles s) = (doubles x, doubles y) := by
    simp only [DPyramid.axes, ex, eg, c1, c2, ey]
  have S0 : 0 < (cross3 (cross3 x g) x).norm := lt_of_lt_of_le (by norm_num) q2
  have nx' := norm_near nx
  rw [he] at nx'
  rw [pure_length] at nn
  rw [← Flat3.pure_scaled, pure_sub, pure_length, pure_length] at near
  have near' : (y - unitAlong (cross3 (cross3 x g) x)).norm ≤ 45 / 10 * DQuat.u := near
  have ny := norm_near near'
  rw [norm_along S0] at ny
  refine ⟨x, y, ax, rx, bx, ry, ⟨by simpa using y1, by simpa using y2, by simpa using y3⟩, nx, ?_, ?_⟩
  · rw [hσ] at len
    generalize sine (f - a) (s - a) = σ at *
    have σ0 : 0 < σ := lt_of_lt_of_le (by norm_num) h
    have m := unit_along_near (c := cross3 (cross3 x g) x) (n := ((unitAlong (f - a)).cross (unitAlong (s - a))).cross (unitAlong (f - a))) (by rw [len]; exact σ0) S0
    rw [len] at m
    have m2 : (cross3 (cross3 x g) x - ((unitAlong (f - a)).cross (unitAlong (s - a))).cross (unitAlong (f - a))).norm / σ ≤ 26 * DQuat.u / σ := div_le_div_of_nonneg_right q3 σ0.le
    have m3 : DQuat.u ≤ DQuat.u / σ := by rw [le_div_iff₀ σ0]; nlinarith
    have e : 26 * DQuat.u / σ = 26 * (DQuat.u / σ) := by ring
    rw [e] at m2
    generalize unitAlong (((unitAlong (f - a)).cross (unitAlong (s - a))).cross (unitAlong (f - a))) = q at *
    have t := V3.norm_add_le (y - unitAlong (cross3 (cross3 x g) x)) (unitAlong (cross3 (cross3 x g) x) - q)
    rw [show y - unitAlong (cross3 (cross3 x g) x) + (unitAlong (cross3 (cross3 x g) x) - q) = y - q by ext <;> simp] at t
    linarith
  · exact tilt (by linarith) S0 q1 n0 nn p1 p2 p3 (by linarith)

theorem norm_bounded {v : V3} {n : ℕ} (h : Bounded n v) : v.norm ≤ 2 * 2 ^ n := by
  obtain ⟨h1, h2, h3⟩ := h
  have p : (0 : ℝ) ≤ 2 ^ n := by positivity
  refine le_of_sq_le_sq ?_ (by positivity)
  rw [V3.norm_sq, V3.normSq, V3.dot]
  generalize (2 : ℝ) ^ n = N at *
  have k : ∀ {x : ℝ}, |x| ≤ N → x * x ≤ N ^ 2 := fun {x} h => by rw [← sq, ← sq_abs]; exact pow_le_pow_left₀ (abs_nonneg _) h 2
  have := k h1; have := k h2; have := k h3
  have : 0 ≤ N ^ 2 := sq_nonneg _
  nlinarith

/-- the second vertex in the plane -/
theorem length_near (o : Bool) {a f : V3} (ha : Small a) (hf : Small f) :
    ∃ d, ((doubles f).sub (doubles a)).norm o = .fin d ∧ Representable d ∧ |d - (f - a).norm| ≤ 37 / 10 * DQuat.u * (f - a).norm + 2 ^ (-535 : ℤ) := by
  have u0 := DQuat.u_pos
  have u1 := DQuat.u_small
  obtain ⟨e, b, -⟩ := sub_small ha hf
  refine ⟨normR o (diff3 f a), by rw [e, norm_doubles o (b.mono (by norm_num))], rnd_representable _, ?_⟩
  have k := normR_near o (diff3 f a)
  have l := norm_near (diff3_near hf.within ha.within)
  have v0 := V3.norm_nonneg (f - a)
  generalize (2 : ℝ) ^ (-535 : ℤ) = T at *
  generalize (f - a).norm = V at *
  generalize (diff3 f a).norm = W at *
  have uV : DQuat.u * V ≤ 1 / 10 ^ 15 * V := mul_le_mul_of_nonneg_right u1 v0
  have uW : DQuat.u * W ≤ DQuat.u * (1001 / 1000 * V) := mul_le_mul_of_nonneg_left (by linarith) u0.le
  have uV0 : 0 ≤ DQuat.u * V := mul_nonneg u0.le v0
  rw [abs_le] at k ⊢
  constructor <;> linarith [k.1, k.2, l.1, l.2]

/-- a computed scalar product with an axis -/
theorem along_near (o : Bool) {s f x e : V3} {δ : ℝ} (hs : Small s) (hf : Small f) (bx : Bounded 0 x) (he : e.norm = 1) (hδ : δ ≤ 1 / 1000) (hx : (x - e).norm ≤ δ) :
    ∃ g, ((doubles s).sub (doubles f)).dot o (doubles x) = .fin g ∧ Representable g ∧ |g - (s - f).dot e| ≤ (41 / 10 * DQuat.u + δ) * (s - f).norm + 31 / 10 * DQuat.t := by
  have u0 := DQuat.u_pos
  have u1 := DQuat.u_small
  obtain ⟨eq, b, -⟩ := sub_small hf hs
  refine ⟨dotR o (diff3 s f) x, by rw [eq, dot_doubles o (b.mono (by norm_num)) (bx.mono (by norm_num))], ?_, ?_⟩
  · cases o <;> exact rnd_representable _
  · have k := dotR_near o (diff3 s f) x
    have dn := diff3_near hs.within hf.within
    have l := norm_near dn
    have lx := norm_near hx
    rw [he] at lx
    have e1 : (diff3 s f).dot x - (s - f).dot e = (diff3 s f - (s - f)).dot x + (s - f).dot (x - e) := by simp only [V3.dot, V3.sub_x, V3.sub_y, V3.sub_z]; ring
    have c1 := V3.abs_dot_le (diff3 s f - (s - f)) x
    have c2 := V3.abs_dot_le (s - f) (x - e)
    have v0 := V3.norm_nonneg (s - f)
    have x0 := V3.norm_nonneg x
    have w0 := V3.norm_nonneg (diff3 s f)
    have m1 : (diff3 s f - (s - f)).norm * x.norm ≤ DQuat.u * (s - f).norm * (1001 / 1000) := mul_le_mul dn (by linarith) x0 (by positivity)
    have m2 := mul_le_mul_of_nonneg_left hx v0
    have uV : DQuat.u * (s - f).norm ≤ 1 / 10 ^ 15 * (s - f).norm := mul_le_mul_of_nonneg_right u1 v0
    have uV0 : 0 ≤ DQuat.u * (s - f).norm := mul_nonneg u0.le v0
    have m3 : (diff3 s f).norm * x.norm ≤ 1001 / 1000 * (s - f).norm * (1001 / 1000) := mul_le_mul (by linarith) (by linarith) x0 (by positivity)
    have m4 : DQuat.u * ((diff3 s f).norm * x.norm) ≤ DQuat.u * (1001 / 1000 * (s - f).norm * (1001 / 1000)) := mul_le_mul_of_nonneg_left m3 u0.le
    have tri := abs_add_le ((diff3 s f - (s - f)).dot x) ((s - f).dot (x - e))
    rw [← e1] at tri
    have tri2 := abs_sub_le (dotR o (diff3 s f) x) ((diff3 s f).dot x) ((s - f).dot e)
    linarith

/-- a vector in the plane of two vectors -/
theorem in_plane {v w : V3} (hv : 0 < v.norm) (hw : 0 < w.norm) (hσ : 0 < sine v w) : (across v w).norm = 1 ∧ (unitAlong v).dot (across v w) = 0 ∧
    (w.dot (unitAlong v)) • unitAlong v + (w.dot (across v w)) • across v w = w := by
  have he := norm_along hv
  have he' := norm_along hw
  have hs := sine_units hv hw
  have perp : ((unitAlong v).cross (unitAlong w)).dot (unitAlong v) = 0 := by simp only [V3.cross, V3.dot]; ring
  have len := cross_perp he perp
  rw [hs] at len
  have ew : w = w.norm • unitAlong w := by ext <;> simp [unitAlong] <;> field_simp
  set e := unitAlong v with hE
  set g := unitAlong w with hG
  have q : across v w = (sine v w)⁻¹ • ((e.cross g).cross e) := by rw [across, ← hE, ← hG, unitAlong, len]
  have e2 : e.x * e.x + e.y * e.y + e.z * e.z = 1 := by have := V3.norm_sq e; rw [he] at this; simp only [V3.normSq, V3.dot] at this; linarith
  have s2 : sine v w ^ 2 = ((e.cross g).cross e).normSq := by rw [← len, V3.norm_sq]
  -- the double product
  have dp : (e.cross g).cross e = g - (g.dot e) • e := by
    ext <;> simp only [V3.cross, V3.dot, V3.sub_x, V3.sub_y, V3.sub_z, V3.smul_x, V3.smul_y, V3.smul_z]
    · linear_combination g.x * e2
    · linear_combination g.y * e2
    · linear_combination g.z * e2
  have gd : g.dot ((e.cross g).cross e) = sine v w ^ 2 := by
    rw [s2, dp]
    simp only [V3.normSq, V3.dot, V3.sub_x, V3.sub_y, V3.sub_z, V3.smul_x, V3.smul_y, V3.smul_z]
    linear_combination (-(g.x * e.x + g.y * e.y + g.z * e.z) ^ 2) * e2
  refine ⟨by rw [q, V3.norm_smul, len, abs_of_pos (inv_pos.2 hσ), inv_mul_cancel₀ hσ.ne'], ?_, ?_⟩
  · rw [q]
    simp only [V3.cross, V3.dot, V3.smul_x, V3.smul_y, V3.smul_z]; ring
  · have wd : ∀ x : V3, w.dot x = w.norm * g.dot x := fun x => by
      have : (w.norm • g).dot x = w.norm * g.dot x := by simp only [V3.dot, V3.smul_x, V3.smul_y, V3.smul_z]; ring
      rw [← ew] at this; exact this
    have w1 : w.dot e = w.norm * g.dot e := wd e
    have w2 : w.dot (across v w) = w.norm * sine v w := by
      have : g.dot ((sine v w)⁻¹ • ((e.cross g).cross e)) = (sine v w)⁻¹ * g.dot ((e.cross g).cross e) := by
        simp only [V3.dot, V3.smul_x, V3.smul_y, V3.smul_z]; ring
      rw [wd, q, this, gd]; field_simp
    have e3 : (w.norm * sine v w) • across v w = w.norm • ((e.cross g).cross e) := by
      rw [q]; ext <;> simp only [V3.smul_x, V3.smul_y, V3.smul_z] <;> field_simp
    rw [w1, w2, e3, dp]
    refine Eq.trans ?_ ew.symm
    ext <;> simp only [V3.add_x, V3.add_y, V3.add_z, V3.sub_x, V3.sub_y, V3.sub_z, V3.smul_x, V3.smul_y, V3.smul_z] <;> ring

end Face

end Verif.Props
