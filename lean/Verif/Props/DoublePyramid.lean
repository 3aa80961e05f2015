import Verif.Lemmas.DoublePyramid

/-!
# C147: lateral faces of pyramids in double precision

A lateral face is the triangle of the apex `a` and of the points `f` and `s` of an edge of the base. It is made as a polygon of the plane of the first direction and of a second one, perpendicular to it,
which is a double cross product. `Face.sine` is the sine of the angle at the apex. `o` is the order in which Eigen adds three terms.
-/

namespace Verif.Props

open Verif Verif.Spec Verif.Double

namespace Face

theorem two_points {p q : V2} : ∃ P, Polygon2.ofPoints [some ⟨0, 0⟩, some p, some q] = .ok P ∧ P.isDefined = true ∧
    (q ≠ ⟨0, 0⟩ → P.getVertices = .ok [⟨0, 0⟩, p, q] ∨ P.getVertices = .ok [⟨0, 0⟩, q, p]) := by
  have l : 3 ≤ [(⟨0, 0⟩ : V2), p, q].length := by simp
  have k : Polygon2.ctor ([(⟨0, 0⟩ : V2), p, q].map some) (([] : List (List V2)).map (·.map some)) = Polygon2.ofPoints [some ⟨0, 0⟩, some p, some q] := by
    simp only [Polygon2.ctor, List.map_cons, List.map_nil]
    cases Polygon2.ofPoints [some ⟨0, 0⟩, some p, some q] <;> rfl
  have e := Polygon2.ctor_ok (ps := [⟨0, 0⟩, p, q]) (is := []) l (by simp)
  refine ⟨_, k ▸ e, ?_, fun hq => ?_⟩
  · simpa [Polygon2.isDefined] using (Ring.correctOuter_closed l).length
  · obtain ⟨P, h1, -, h3⟩ := C58_vertices [⟨0, 0⟩, p, q] [⟨0, 0⟩, p, q] [] [] l (by simp) (.inl ⟨rfl, by simpa using fun h => hq h.symm⟩) .nil
    rw [e] at h1
    rw [Except.ok.inj h1, h3]
    split_ifs
    · right; simp [turnedRing]
    · left; simp

end Face

/-- **C147.** A lateral face is never refused: its axes pass the test of the constructor of polygons when the tolerance is nine units of rounding or more, as `Real::Epsilon()` is, though they are computed.
What is assumed is that the edges at the apex are not shorter than `2 ^ -30` and that the sine of their angle is not below `2 ^ -20`. -/
theorem C147_accepted (o : Bool) {a f s : V3} (ha : Small a) (hf : Small f) (hs : Small s) (lf : 1 / 2 ^ 30 ≤ (f - a).norm) (ls : 1 / 2 ^ 30 ≤ (s - a).norm)
    (h : 1 / 2 ^ 20 ≤ Face.sine (f - a) (s - a)) {eps : ℝ} (he : 9 / 2 ^ 53 ≤ eps) (P : Polygon2) :
    ∃ D, DPolygon.ctor o (.fin eps) P (doubles a) (DPyramid.axes o (doubles a) (doubles f) (doubles s)).1 (DPyramid.axes o (doubles a) (doubles f) (doubles s)).2 = .ok D := by
  have u0 := DQuat.u_pos
  have u1 := DQuat.u_small
  have uv : ∀ k : ℝ, k / 2 ^ 53 = k * DQuat.u := fun k => by rw [DQuat.u]; ring
  have z : (0 : ℝ) < 1 / 2 ^ 30 := by norm_num
  have v0 := lt_of_lt_of_le z lf
  have w0 := lt_of_lt_of_le z ls
  obtain ⟨x, y, e, rx, bx, ry, by', nx, ny, c⟩ := Face.axes_near o ha hf hs lf ls h
  have lx := (Face.norm_near nx).1
  have ly := (Face.norm_near ny).1
  have σ0 : 0 < Face.sine (f - a) (s - a) := lt_of_lt_of_le (by norm_num) h
  rw [norm_along v0] at lx
  rw [(Face.in_plane v0 w0 σ0).1] at ly
  have σu : DQuat.u / Face.sine (f - a) (s - a) ≤ 2 ^ 20 / 10 ^ 15 := by
    rw [div_le_iff₀ σ0]
    have : (2 ^ 20 / 10 ^ 15 : ℝ) * (1 / 2 ^ 20) ≤ 2 ^ 20 / 10 ^ 15 * Face.sine (f - a) (s - a) := mul_le_mul_of_nonneg_left h (by norm_num)
    linarith
  rw [e]
  refine (C146_axes o P (doubles a) (Face.within_bounded (by norm_num) rx bx) (Face.within_bounded (by norm_num) ry by') ?_ ?_ eps).1 ?_
  · rw [pure_length]; linarith
  · rw [pure_length]; linarith
  · rw [uv] at he
    rw [uv, uv]
    have := mul_le_mul_of_nonneg_left c (show 0 ≤ 1 + 7 * DQuat.u by positivity)
    have m : DQuat.u * DQuat.u ≤ 1 / 10 ^ 15 * DQuat.u := mul_le_mul_of_nonneg_right u1 u0.le
    linarith

namespace Face

theorem diff_norm {a f : V3} (ha : Small a) (hf : Small f) : (f - a).norm ≤ 2 ^ 250 := by
  have k : ∀ {x y : ℝ}, |x| ≤ 2 ^ 248 → |y| ≤ 2 ^ 248 → |x - y| ≤ 2 ^ 249 := fun {x y} h1 h2 => by
    have e : (2 : ℝ) ^ 249 = 2 ^ 248 + 2 ^ 248 := by rw [← two_mul, ← pow_succ']
    rw [e]; exact (abs_sub _ _).trans (add_le_add h1 h2)
  have b : Bounded 249 (f - a) := ⟨k hf.x.2 ha.x.2, k hf.y.2 ha.y.2, k hf.z.2 ha.z.2⟩
  have e : (2 : ℝ) ^ 250 = 2 * 2 ^ 249 := by rw [← pow_succ']
  rw [e]; exact norm_bounded b

/-- the numbers of the proof, apart from the powers of two -/
theorem tiny : ∃ T : ℝ, T = 2 ^ (-535 : ℤ) ∧ 0 < T ∧ DQuat.t ≤ T ∧ T ≤ 1 / 10 ^ 30 ∧ (2 : ℝ) ^ (-530 : ℤ) = 32 * T := by
  refine ⟨_, rfl, by positivity, DQuat.t_small (by norm_num), ?_, ?_⟩
  · calc (2 : ℝ) ^ (-535 : ℤ) ≤ 2 ^ (-100 : ℤ) := zpow_le_zpow_right₀ one_le_two (by norm_num)
      _ ≤ 1 / 10 ^ 30 := by norm_num
  · rw [show (-530 : ℤ) = 5 + -535 by norm_num, zpow_add₀ two_ne_zero]; norm_num

theorem quotient {σ : ℝ} (h : 1 / 2 ^ 20 ≤ σ) (σ1 : σ ≤ 1) : DQuat.u / σ ≤ 11 / 10 ^ 10 ∧ DQuat.u ≤ DQuat.u / σ ∧ 0 < DQuat.u / σ := by
  have u0 := DQuat.u_pos
  have u1 := DQuat.u_small
  have σ0 : 0 < σ := lt_of_lt_of_le (by norm_num) h
  refine ⟨?_, ?_, div_pos u0 σ0⟩
  · rw [div_le_iff₀ σ0]
    have : (11 / 10 ^ 10 : ℝ) * (1 / 2 ^ 20) ≤ 11 / 10 ^ 10 * σ := mul_le_mul_of_nonneg_left h (by norm_num)
    have : (1 / 10 ^ 15 : ℝ) ≤ 11 / 10 ^ 10 * (1 / 2 ^ 20) := by norm_num
    linarith
  · rw [le_div_iff₀ σ0]; nlinarith

/-- the points of the face in its plane -/
theorem points_near (o : Bool) {a f s : V3} (ha : Small a) (hf : Small f) (hs : Small s) (lf : 1 / 2 ^ 30 ≤ (f - a).norm) (ls : 1 / 2 ^ 30 ≤ (s - a).norm) (h : 1 / 2 ^ 20 ≤ sine (f - a) (s - a)) :
    ∃ (d : ℝ) (q : V2), DPyramid.points o (doubles a) (doubles f) (doubles s) = [some ⟨0, 0⟩, some ⟨d, 0⟩, some q] ∧ Sized2 490 ⟨d, 0⟩ ∧ Sized2 490 q ∧
      |d - (f - a).norm| ≤ 37 / 10 * DQuat.u * (f - a).norm + 2 ^ (-535 : ℤ) ∧
      |q.x - (s - a).dot (unitAlong (f - a))| ≤ 12 * DQuat.u * ((f - a).norm + (s - f).norm) + 5 * 2 ^ (-535 : ℤ) ∧
      |q.y - (s - a).dot (across (f - a) (s - a))| ≤ 62 * (DQuat.u / sine (f - a) (s - a)) * (s - f).norm + 4 * 2 ^ (-535 : ℤ) := by
  have u0 := DQuat.u_pos
  have u1 := DQuat.u_small
  have z : (0 : ℝ) < 1 / 2 ^ 30 := by norm_num
  have v0 := lt_of_lt_of_le z lf
  have w0 := lt_of_lt_of_le z ls
  have σ0 : 0 < sine (f - a) (s - a) := lt_of_lt_of_le (by norm_num) h
  obtain ⟨j1, j2, j3⟩ := quotient h (sine_le_one v0 w0)
  obtain ⟨x, y, e, rx, bx, ry, by', nx, ny, c⟩ := axes_near o ha hf hs lf ls h
  obtain ⟨i1, i2, i3⟩ := in_plane v0 w0 σ0
  obtain ⟨d, ed, rd, nd⟩ := length_near o ha hf
  obtain ⟨g, eg, rg, ng⟩ := along_near o hs hf bx (norm_along v0) (by linarith) nx
  obtain ⟨k, ek, rk, nk⟩ := along_near o hs hf by' i1 (by linarith) ny
  have V1 := diff_norm ha hf
  have E1 := diff_norm hf hs
  have p0 : (1 : ℝ) ≤ 2 ^ 250 := one_le_pow₀ one_le_two
  have p1 : (2 : ℝ) ^ 490 = 2 ^ 239 * (2 * 2 ^ 250) := by rw [← pow_succ', ← pow_add]
  have p2 : (2 : ℝ) ^ 251 = 2 * 2 ^ 250 := by rw [← pow_succ']
  have p3 : (2 : ℝ) ^ 252 = 4 * 2 ^ 250 := by rw [show (252 : ℕ) = 250 + 2 by norm_num, pow_add]; ring
  have p4 : (2 : ℝ) ^ 252 ≤ 2 ^ 490 := pow_le_pow_right₀ one_le_two (by norm_num)
  have p5 : (2 : ℝ) ^ 252 < 2 ^ 1024 := pow_lt_pow_right₀ one_lt_two (by norm_num)
  -- what is exact
  have de : (s - a).dot (unitAlong (f - a)) = (f - a).norm + (s - f).dot (unitAlong (f - a)) := by
    have k1 : (f - a).dot (unitAlong (f - a)) = (f - a).norm := by
      have : (f - a).dot (unitAlong (f - a)) = (f - a).norm⁻¹ * (f - a).normSq := by simp only [unitAlong, V3.normSq, V3.dot, V3.smul_x, V3.smul_y, V3.smul_z]; ring
      rw [this, ← V3.norm_mul_self, ← mul_assoc, inv_mul_cancel₀ v0.ne', one_mul]
    rw [← k1]
    simp only [V3.dot, V3.sub_x, V3.sub_y, V3.sub_z]; ring
  have dq : (s - a).dot (across (f - a) (s - a)) = (s - f).dot (across (f - a) (s - a)) := by
    have k1 : (f - a).dot (across (f - a) (s - a)) = 0 := by
      have e1 : f - a = (f - a).norm • unitAlong (f - a) := by ext <;> simp only [unitAlong, V3.smul_x, V3.smul_y, V3.smul_z] <;> field_simp
      have : ((f - a).norm • unitAlong (f - a)).dot (across (f - a) (s - a)) = (f - a).norm * (unitAlong (f - a)).dot (across (f - a) (s - a)) := by
        simp only [V3.dot, V3.smul_x, V3.smul_y, V3.smul_z]; ring
      rw [i2, mul_zero, ← e1] at this
      exact this
    have : (s - a).dot (across (f - a) (s - a)) = (f - a).dot (across (f - a) (s - a)) + (s - f).dot (across (f - a) (s - a)) := by
      simp only [V3.dot, V3.sub_x, V3.sub_y, V3.sub_z]; ring
    rw [this, k1, zero_add]
  have E0 := V3.norm_nonneg (s - f)
  have ab := V3.abs_dot_le (s - f) (unitAlong (f - a))
  have ab' := V3.abs_dot_le (s - f) (across (f - a) (s - a))
  rw [norm_along v0, mul_one] at ab
  rw [i1, mul_one] at ab'
  rw [de, dq]
  obtain ⟨T, hT, T0, tT, T1, -⟩ := tiny
  rw [← hT] at nd ⊢
  generalize (s - f).dot (unitAlong (f - a)) = α at *
  generalize (s - f).dot (across (f - a) (s - a)) = β at *
  generalize hη : DQuat.u / sine (f - a) (s - a) = η at *
  clear hT de dq i2 i3 nx ny c h
  have M0 : 0 < (2 : ℝ) ^ 250 := by linarith
  have uV : DQuat.u * (f - a).norm ≤ 1 / 10 ^ 15 * (f - a).norm := mul_le_mul_of_nonneg_right u1 v0.le
  have uE : DQuat.u * (s - f).norm ≤ 1 / 10 ^ 15 * (s - f).norm := mul_le_mul_of_nonneg_right u1 E0
  have ηE : η * (s - f).norm ≤ 11 / 10 ^ 10 * (s - f).norm := mul_le_mul_of_nonneg_right j1 E0
  have uηE : DQuat.u * (s - f).norm ≤ η * (s - f).norm := mul_le_mul_of_nonneg_right j2 E0
  have uV0 : 0 ≤ DQuat.u * (f - a).norm := mul_nonneg u0.le v0.le
  have uE0 : 0 ≤ DQuat.u * (s - f).norm := mul_nonneg u0.le E0
  generalize hV : (f - a).norm = V at *
  generalize hE : (s - f).norm = E at *
  have ng' : |g - α| ≤ 106 / 10 * (DQuat.u * E) + 31 / 10 * T := by linarith
  have nk' : |k - β| ≤ 611 / 10 * (η * E) + 31 / 10 * T := by linarith
  have da : |d| ≤ 1001 / 1000 * V + T := by
    have := abs_sub_abs_le_abs_sub d V; rw [abs_of_pos v0] at this; linarith
  have ga : |g| ≤ 1001 / 1000 * E + 4 * T := by
    have := abs_sub_abs_le_abs_sub g α; linarith
  have ka : |k| ≤ 1001 / 1000 * E + 4 * T := by
    have := abs_sub_abs_le_abs_sub k β; linarith
  have d251 : |d| ≤ 2 ^ 251 := by rw [p2]; linarith
  have g251 : |g| ≤ 2 ^ 251 := by rw [p2]; linarith
  have k252 : |k| ≤ 2 ^ 252 := by rw [p3]; linarith
  obtain ⟨es, bs⟩ := DVec.add_fin2 (n := 251) (by norm_num) d251 g251
  have an := DLine2.add_near rd rg
  have zk : (F64.fin 0).add (.fin k) = .fin k := DT3.zero_add_fin rk (lt_of_le_of_lt k252 p5)
  have z490 : |(0 : ℝ)| ≤ 2 ^ 490 := by rw [abs_zero]; positivity
  refine ⟨d, ⟨rnd (d + g), k⟩, ?_, ⟨⟨rd, d251.trans ?_⟩, representable_zero, z490⟩, ⟨⟨rnd_representable _, bs.trans p4⟩, rk, k252.trans p4⟩, nd, ?_, ?_⟩
  · simp only [DPyramid.points, e, ed, eg, ek, es, zk, DPyramid.planePoint]
  · exact pow_le_pow_right₀ one_le_two (by norm_num)
  · have s1 := abs_add_le d g
    have s2 : DQuat.u * |d + g| ≤ DQuat.u * (1001 / 1000 * V + 1001 / 1000 * E + 5 * T) := mul_le_mul_of_nonneg_left (by linarith) u0.le
    have s3 : DQuat.u * T ≤ 1 / 10 ^ 15 * T := mul_le_mul_of_nonneg_right u1 T0.le
    have s4 := abs_add_three (rnd (d + g) - (d + g)) (d - V) (g - α)
    rw [show rnd (d + g) - (d + g) + (d - V) + (g - α) = rnd (d + g) - (V + α) by ring] at s4
    have an' : |rnd (d + g) - (d + g)| ≤ DQuat.u * |d + g| := an
    show |rnd (d + g) - (V + α)| ≤ _
    linarith
  · show |k - β| ≤ _
    linarith

/-- the change of a frame and of a point in it -/
theorem frame_near {a x y e q : V3} {p P : V2} {δ ε α β : ℝ} (he : e.norm = 1) (hq : q.norm = 1) (hx : (x - e).norm ≤ δ) (hy : (y - q).norm ≤ ε) (h1 : |p.x - P.x| ≤ α) (h2 : |p.y - P.y| ≤ β) :
    (inFrame a x y p - inFrame a e q P).norm ≤ |p.x| * δ + |p.y| * ε + α + β := by
  have e1 : inFrame a x y p - inFrame a e q P = (p.x • (x - e) + p.y • (y - q)) + ((p.x - P.x) • e + (p.y - P.y) • q) := by ext <;> simp [inFrame] <;> ring
  rw [e1]
  have t1 := V3.norm_add_le (p.x • (x - e) + p.y • (y - q)) ((p.x - P.x) • e + (p.y - P.y) • q)
  have t2 := V3.norm_add_le (p.x • (x - e)) (p.y • (y - q))
  have t3 := V3.norm_add_le ((p.x - P.x) • e) ((p.y - P.y) • q)
  rw [V3.norm_smul, V3.norm_smul] at t2
  rw [V3.norm_smul, V3.norm_smul, he, hq, mul_one, mul_one] at t3
  have m1 := mul_le_mul_of_nonneg_left hx (abs_nonneg p.x)
  have m2 := mul_le_mul_of_nonneg_left hy (abs_nonneg p.y)
  linarith

end Face

/-- **C147.** The vertices of a lateral face: the apex is exact, the first point of the edge is within 26 units of rounding, and the second one within 250 units divided by the sine of the angle at the apex,
of the distances involved. The polygon of the plane is made of three points, and has them as its vertices when the first edge at the apex is at most `2 ^ 10` times as long as the second one. -/
theorem C147_vertices_partial (o : Bool) {a f s : V3} (ha : Small a) (hf : Small f) (hs : Small s) (lf : 1 / 2 ^ 30 ≤ (f - a).norm) (ls : 1 / 2 ^ 30 ≤ (s - a).norm)
    (h : 1 / 2 ^ 20 ≤ Face.sine (f - a) (s - a)) {eps : ℝ} (he : 9 / 2 ^ 53 ≤ eps) :
    ∃ (D : DPolygon) (p q : V2) (F S : V3), DPyramid.lateralFace o (.fin eps) (doubles a) (doubles f) (doubles s) = .ok D ∧ D.isDefined = true ∧
      Polygon2.ofPoints [some ⟨0, 0⟩, some p, some q] = .ok D.polygon ∧
      D.place ⟨0, 0⟩ = .ok (doubles a) ∧ D.place p = .ok (doubles F) ∧ D.place q = .ok (doubles S) ∧
      (F - f).norm ≤ 26 / 2 ^ 53 * (a.norm + (f - a).norm) + 2 ^ (-530 : ℤ) ∧
      (S - s).norm ≤ 250 / 2 ^ 53 / Face.sine (f - a) (s - a) * (a.norm + (f - a).norm + (s - f).norm) + 2 ^ (-530 : ℤ) ∧
      ((f - a).norm ≤ 2 ^ 10 * (s - a).norm → D.getVertices = .ok [doubles a, doubles F, doubles S] ∨ D.getVertices = .ok [doubles a, doubles S, doubles F]) := by
  have u0 := DQuat.u_pos
  have u1 := DQuat.u_small
  have uv : ∀ k : ℝ, k / 2 ^ 53 = k * DQuat.u := fun k => by rw [DQuat.u]; ring
  have z : (0 : ℝ) < 1 / 2 ^ 30 := by norm_num
  have v0 := lt_of_lt_of_le z lf
  have w0 := lt_of_lt_of_le z ls
  have σ0 : 0 < Face.sine (f - a) (s - a) := lt_of_lt_of_le (by norm_num) h
  obtain ⟨j1, j2, j3⟩ := Face.quotient h (Face.sine_le_one v0 w0)
  obtain ⟨d, q, ep, sp, sq, nd, nqx, nqy⟩ := Face.points_near o ha hf hs lf ls h
  obtain ⟨P, eP, dP, vP⟩ := Face.two_points (p := ⟨d, 0⟩) (q := q)
  obtain ⟨D, hD⟩ := C147_accepted o ha hf hs lf ls h he P
  obtain ⟨x, y, e, rx, bx, ry, by', nx, ny, c⟩ := Face.axes_near o ha hf hs lf ls h
  obtain ⟨i1, i2, i3⟩ := Face.in_plane v0 w0 σ0
  have he1 := norm_along v0
  have lx := Face.norm_near nx
  have ly := Face.norm_near ny
  rw [he1] at lx
  rw [i1] at ly
  have face : DPyramid.lateralFace o (.fin eps) (doubles a) (doubles f) (doubles s) = .ok D := by
    simp only [DPyramid.lateralFace, doubles_defined, Bool.not_true, Bool.or_self, Bool.false_eq_true, if_false, ep, eP, bind, Except.bind]
    exact hD
  rw [e] at hD
  have x40 : 1 / 2 ^ 40 ≤ ‖pure x‖ := by rw [pure_length]; linarith
  have y40 : 1 / 2 ^ 40 ≤ ‖pure y‖ := by rw [pure_length]; linarith
  obtain ⟨X, Y, rfl, wX, wY, nX, nY⟩ := (C146_axes o P (doubles a) (Face.within_bounded (by norm_num) rx bx) (Face.within_bounded (by norm_num) ry by') x40 y40 eps).2.2 D hD
  rw [pure_sub, pure_length, uv, Flat3.unit, pure_length] at nX nY
  -- the axes that are kept
  have unit_self : ∀ {v : V3}, v.norm = 1 → unitAlong v = v := fun {v} hv => by rw [unitAlong, hv]; ext <;> simp
  have hX : (X - unitAlong (f - a)).norm ≤ 176 / 10 * DQuat.u := by
    have m := unit_along_near (c := x) (n := unitAlong (f - a)) (by rw [he1]; exact one_pos) (by linarith)
    rw [he1, div_one, unit_self he1] at m
    have t := V3.norm_add_le (X - x.norm⁻¹ • x) (unitAlong x - unitAlong (f - a))
    rw [show X - x.norm⁻¹ • x + (unitAlong x - unitAlong (f - a)) = X - unitAlong (f - a) by rw [unitAlong]; ext <;> simp] at t
    linarith
  have hY : (Y - Face.across (f - a) (s - a)).norm ≤ 119 * (DQuat.u / Face.sine (f - a) (s - a)) := by
    have m := unit_along_near (c := y) (n := Face.across (f - a) (s - a)) (by rw [i1]; exact one_pos) (by linarith)
    rw [i1, div_one, unit_self i1] at m
    have t := V3.norm_add_le (Y - y.norm⁻¹ • y) (unitAlong y - Face.across (f - a) (s - a))
    rw [show Y - y.norm⁻¹ • y + (unitAlong y - Face.across (f - a) (s - a)) = Y - Face.across (f - a) (s - a) by rw [unitAlong]; ext <;> simp] at t
    linarith
  have lX := (Face.norm_near hX).2
  have lY := (Face.norm_near hY).2
  rw [he1] at lX
  rw [i1] at lY
  obtain ⟨F, -, eF, nF⟩ := Flat3.place_near P ha.within (a := X) (b := Y) (by rw [pure_length]; linarith) (by rw [pure_length]; linarith) sp
  obtain ⟨S, -, eS, nS⟩ := Flat3.place_near P ha.within (a := X) (b := Y) (by rw [pure_length]; linarith) (by rw [pure_length]; linarith) sq
  have eA : DPolygon.place ⟨P, doubles a, doubles X, doubles Y⟩ ⟨0, 0⟩ = .ok (doubles a) := by
    have p5 : (2 : ℝ) ^ 248 < 2 ^ 1024 := pow_lt_pow_right₀ one_lt_two (by norm_num)
    have k1 := DT3.add_zero_fin ha.x.1 (lt_of_le_of_lt ha.x.2 p5)
    have k2 := DT3.add_zero_fin ha.y.1 (lt_of_le_of_lt ha.y.2 p5)
    have k3 := DT3.add_zero_fin ha.z.1 (lt_of_le_of_lt ha.z.2 p5)
    simp [DPolygon.place, doubles, DVec.scale, DVec.add, DVec.isDefined, DT3.zero_mul_fin, DT3.zero_add_zero, k1, k2, k3]
  rw [pure_sub, pure_length, pure_length] at nF nS
  -- the places in the exact frame
  have pf : inFrame a (unitAlong (f - a)) (Face.across (f - a) (s - a)) ⟨(f - a).norm, 0⟩ = f := by
    ext <;> simp only [inFrame, unitAlong, V3.add_x, V3.add_y, V3.add_z, V3.sub_x, V3.sub_y, V3.sub_z, V3.smul_x, V3.smul_y, V3.smul_z] <;> field_simp <;> ring
  have ps : inFrame a (unitAlong (f - a)) (Face.across (f - a) (s - a)) ⟨(s - a).dot (unitAlong (f - a)), (s - a).dot (Face.across (f - a) (s - a))⟩ = s := by
    show a + (_ + _) = s
    rw [i3]; ext <;> simp
  have fF := Face.frame_near (a := a) (p := ⟨d, 0⟩) (P := ⟨(f - a).norm, 0⟩) he1 i1 hX hY nd (show |(0 : ℝ) - 0| ≤ 0 by simp)
  have fS := Face.frame_near (a := a) (p := q) (P := ⟨(s - a).dot (unitAlong (f - a)), (s - a).dot (Face.across (f - a) (s - a))⟩) he1 i1 hX hY nqx nqy
  rw [pf] at fF
  rw [ps] at fS
  have tF := V3.norm_add_le (F - inFrame a X Y ⟨d, 0⟩) (inFrame a X Y ⟨d, 0⟩ - f)
  have tS := V3.norm_add_le (S - inFrame a X Y q) (inFrame a X Y q - s)
  rw [show F - inFrame a X Y ⟨d, 0⟩ + (inFrame a X Y ⟨d, 0⟩ - f) = F - f by ext <;> simp] at tF
  rw [show S - inFrame a X Y q + (inFrame a X Y q - s) = S - s by ext <;> simp] at tS
  have ac := V3.abs_dot_le (s - a) (unitAlong (f - a))
  have bc := V3.abs_dot_le (s - a) (Face.across (f - a) (s - a))
  rw [he1, mul_one] at ac
  rw [i1, mul_one] at bc
  have A0 := V3.norm_nonneg a
  have E0 := V3.norm_nonneg (s - f)
  have W1 : (s - a).norm ≤ (f - a).norm + (s - f).norm := by
    have := V3.norm_add_le (f - a) (s - f)
    rwa [show f - a + (s - f) = s - a by ext <;> simp] at this
  have E1 : (s - f).norm ≤ (s - a).norm + (f - a).norm := by
    have := V3.norm_add_le (s - a) (a - f)
    rw [show s - a + (a - f) = s - f by ext <;> simp, Face.norm_sub_comm a f] at this
    exact this
  have W2 : (s - a).norm ≤ |(s - a).dot (unitAlong (f - a))| + |(s - a).dot (Face.across (f - a) (s - a))| := by
    have := V3.norm_add_le ((s - a).dot (unitAlong (f - a)) • unitAlong (f - a)) ((s - a).dot (Face.across (f - a) (s - a)) • Face.across (f - a) (s - a))
    rw [i3, V3.norm_smul, V3.norm_smul, he1, i1, mul_one, mul_one] at this
    exact this
  have dd : DPolygon.isDefined ⟨P, doubles a, doubles X, doubles Y⟩ = true := by simp [DPolygon.isDefined, dP, doubles_defined]
  refine ⟨⟨P, doubles a, doubles X, doubles Y⟩, ⟨d, 0⟩, q, F, S, face, dd, eP, eA, eF, eS, ?_, ?_, fun hr => ?_⟩
  · clear tS fS nS nqx nqy eS eF ep sp sq vP eP face hD
    obtain ⟨T, hT, T0, tT, T1, e30⟩ := Face.tiny
    rw [uv, e30]
    rw [← hT] at nd fF
    simp only [abs_zero, add_zero, zero_mul] at fF nF
    generalize (f - a).norm = V at *
    generalize a.norm = A at *
    have uV : DQuat.u * V ≤ 1 / 10 ^ 15 * V := mul_le_mul_of_nonneg_right u1 v0.le
    have uV0 : 0 ≤ DQuat.u * V := mul_nonneg u0.le v0.le
    have uA0 : 0 ≤ DQuat.u * A := mul_nonneg u0.le A0
    have da : |d| ≤ 1001 / 1000 * V + T := by
      have := abs_sub_abs_le_abs_sub d V; rw [abs_of_pos v0] at this; linarith
    have m1 : DQuat.u * |d| ≤ DQuat.u * (1001 / 1000 * V + T) := mul_le_mul_of_nonneg_left da u0.le
    have m2 : DQuat.u * T ≤ 1 / 10 ^ 15 * T := mul_le_mul_of_nonneg_right u1 T0.le
    linarith
  · clear tF fF nF nd eS eF ep sp sq vP eP face hD
    obtain ⟨T, hT, T0, tT, T1, e30⟩ := Face.tiny
    rw [uv, e30, show 250 * DQuat.u / Face.sine (f - a) (s - a) = 250 * (DQuat.u / Face.sine (f - a) (s - a)) by ring]
    rw [← hT] at nqx nqy fS
    generalize DQuat.u / Face.sine (f - a) (s - a) = η at *
    generalize (s - a).dot (unitAlong (f - a)) = α at *
    generalize (s - a).dot (Face.across (f - a) (s - a)) = β at *
    generalize (f - a).norm = V at *
    generalize (s - f).norm = E at *
    generalize a.norm = A at *
    have L0 : 0 ≤ V + E := by linarith
    have uL : DQuat.u * (V + E) ≤ 1 / 10 ^ 15 * (V + E) := mul_le_mul_of_nonneg_right u1 L0
    have ηL : η * (V + E) ≤ 11 / 10 ^ 10 * (V + E) := mul_le_mul_of_nonneg_right j1 L0
    have uηL : DQuat.u * (V + E) ≤ η * (V + E) := mul_le_mul_of_nonneg_right j2 L0
    have uηA : DQuat.u * A ≤ η * A := mul_le_mul_of_nonneg_right j2 A0
    have ηE : η * E ≤ η * (V + E) := mul_le_mul_of_nonneg_left (by linarith) j3.le
    have ηA0 : 0 ≤ η * A := mul_nonneg j3.le A0
    have ηL0 : 0 ≤ η * (V + E) := mul_nonneg j3.le L0
    have qx : |q.x| ≤ 1001 / 1000 * (V + E) + 5 * T := by have := abs_sub_abs_le_abs_sub q.x α; linarith
    have qy : |q.y| ≤ 1001 / 1000 * (V + E) + 4 * T := by have := abs_sub_abs_le_abs_sub q.y β; linarith
    have m1 : DQuat.u * |q.x| ≤ DQuat.u * (1001 / 1000 * (V + E) + 5 * T) := mul_le_mul_of_nonneg_left qx u0.le
    have m2 : DQuat.u * |q.y| ≤ DQuat.u * (1001 / 1000 * (V + E) + 4 * T) := mul_le_mul_of_nonneg_left qy u0.le
    have m3 : η * |q.y| ≤ η * (1001 / 1000 * (V + E) + 4 * T) := mul_le_mul_of_nonneg_left qy j3.le
    have m4 : DQuat.u * T ≤ 1 / 10 ^ 15 * T := mul_le_mul_of_nonneg_right u1 T0.le
    have m5 : η * T ≤ 11 / 10 ^ 10 * T := mul_le_mul_of_nonneg_right j1 T0.le
    have e2 : 250 * η * (A + V + E) = 250 * (η * A) + 250 * (η * (V + E)) := by ring
    rw [e2]
    linarith
  · have q0 : q ≠ ⟨0, 0⟩ := by
      rintro rfl
      clear tF fF nF nd eS eF ep sp sq vP eP face hD tS fS nS
      obtain ⟨T, hT, T0, tT, T1, e30⟩ := Face.tiny
      rw [← hT] at nqx nqy
      simp only [zero_sub, abs_neg] at nqx nqy
      generalize DQuat.u / Face.sine (f - a) (s - a) = η at *
      generalize (f - a).norm = V at *
      generalize (s - f).norm = E at *
      generalize (s - a).norm = W at *
      have L0 : 0 ≤ V + E := by linarith
      have uL : DQuat.u * (V + E) ≤ 1 / 10 ^ 15 * (V + E) := mul_le_mul_of_nonneg_right u1 L0
      have ηE : η * E ≤ 11 / 10 ^ 10 * E := mul_le_mul_of_nonneg_right j1 E0
      have T2 : T ≤ 1 / 10 ^ 3 * W := by
        have : (1 / 10 ^ 30 : ℝ) ≤ 1 / 10 ^ 3 * (1 / 2 ^ 30) := by norm_num
        linarith
      linarith
    have m : ∀ u v w : V2, P.getVertices = .ok [u, v, w] → ∀ U V W : DVec, DPolygon.place ⟨P, doubles a, doubles X, doubles Y⟩ u = .ok U →
        DPolygon.place ⟨P, doubles a, doubles X, doubles Y⟩ v = .ok V → DPolygon.place ⟨P, doubles a, doubles X, doubles Y⟩ w = .ok W →
        DPolygon.getVertices ⟨P, doubles a, doubles X, doubles Y⟩ = .ok [U, V, W] := fun u v w hv U V W h1 h2 h3 => by
      simp [DPolygon.getVertices, hv, mapRes, h1, h2, h3, bind, Except.bind]
    rcases vP q0 with hv | hv
    · exact .inl (m _ _ _ hv _ _ _ eA eF eS)
    · exact .inr (m _ _ _ hv _ _ _ eA eS eF)

/-- **C147.** A face with an undefined point does not exist. -/
theorem C147_undefined (o : Bool) (eps : F64 ℝ) (a f s : DVec) (h : a.isDefined = false ∨ f.isDefined = false ∨ s.isDefined = false) : DPyramid.lateralFace o eps a f s = .error .undefined := by
  rcases h with h | h | h <;> simp [DPyramid.lateralFace, h]

/-- the hypotheses are met: the apex `(0, 0, 1)` and the edge from `(1, 0, 0)` to `(0, 1, 0)` -/
example : Small ⟨0, 0, 1⟩ ∧ Small ⟨1, 0, 0⟩ ∧ Small ⟨0, 1, 0⟩ ∧ 1 / 2 ^ 30 ≤ ((⟨1, 0, 0⟩ : V3) - ⟨0, 0, 1⟩).norm ∧ 1 / 2 ^ 30 ≤ ((⟨0, 1, 0⟩ : V3) - ⟨0, 0, 1⟩).norm ∧
    1 / 2 ^ 20 ≤ Face.sine ((⟨1, 0, 0⟩ : V3) - ⟨0, 0, 1⟩) (⟨0, 1, 0⟩ - ⟨0, 0, 1⟩) ∧ ((⟨1, 0, 0⟩ : V3) - ⟨0, 0, 1⟩).norm ≤ 2 ^ 10 * ((⟨0, 1, 0⟩ : V3) - ⟨0, 0, 1⟩).norm := by
  have z : Representable (0 : ℝ) ∧ |(0 : ℝ)| ≤ 2 ^ 248 := ⟨representable_zero, by rw [abs_zero]; positivity⟩
  have i : Representable (1 : ℝ) ∧ |(1 : ℝ)| ≤ 2 ^ 248 := ⟨finite_one.1, by rw [abs_one]; exact one_le_pow₀ one_le_two⟩
  have n1 : ((⟨1, 0, 0⟩ : V3) - ⟨0, 0, 1⟩).norm = Real.sqrt 2 := by rw [V3.norm]; congr 1; simp [V3.normSq, V3.dot]; norm_num
  have n2 : ((⟨0, 1, 0⟩ : V3) - ⟨0, 0, 1⟩).norm = Real.sqrt 2 := by rw [V3.norm]; congr 1; simp [V3.normSq, V3.dot]; norm_num
  have n3 : (((⟨1, 0, 0⟩ : V3) - ⟨0, 0, 1⟩).cross (⟨0, 1, 0⟩ - ⟨0, 0, 1⟩)).norm = Real.sqrt 3 := by rw [V3.norm]; congr 1; simp [V3.normSq, V3.dot, V3.cross]; norm_num
  have s2 : 1 ≤ Real.sqrt 2 := Real.one_le_sqrt.2 (by norm_num)
  have s3 : 1 ≤ Real.sqrt 3 := Real.one_le_sqrt.2 (by norm_num)
  refine ⟨⟨z, z, i⟩, ⟨i, z, z⟩, ⟨z, i, z⟩, ?_, ?_, ?_, ?_⟩
  · rw [n1]; linarith
  · rw [n2]; linarith
  · rw [Face.sine, n1, n2, n3, Real.mul_self_sqrt (by norm_num)]; linarith
  · rw [n1, n2]; linarith

end Verif.Props
