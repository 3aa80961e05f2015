import Verif.Lemmas.DoublePolygon

/-!
# C146: polygons of space in double precision

A polygon of space is one of the plane with an origin and two axes, which the constructor normalizes. `o` and `q` are the orders in which Eigen adds three and four terms. Points and vectors of space are
quaternions without a real part (`pure`) where lengths are compared.
-/

namespace Verif.Props

open Verif Verif.Spec Verif.Double

namespace Flat3

/-- the vector of length one in the direction of a vector -/
noncomputable def unit (x : V3) : V3 := ‖pure x‖⁻¹ • x

theorem pure_scaled (k : ℝ) (v : V3) : pure (k • v) = k • pure v := by
  rw [pure_smul]; rfl

theorem unit_norm {x : V3} (h : 1 / 2 ^ 40 ≤ ‖pure x‖) : ‖pure (unit x)‖ = 1 := by
  have : (0 : ℝ) < 1 / 2 ^ 40 := by norm_num
  rw [unit, pure_scaled, norm_smul, norm_inv, norm_norm, inv_mul_cancel₀ (by linarith)]

theorem pure_frame (c a b : V3) (w : V2) : pure (inFrame c a b w) = pure c + (w.x • pure a + w.y • pure b) := by
  rw [inFrame, pure_plus, pure_plus, pure_scaled, pure_scaled]

theorem near_norm {a e : V3} {d : ℝ} (he : ‖pure e‖ = 1) (h : ‖pure a - pure e‖ ≤ d) : ‖pure a‖ ≤ 1 + d := by
  have := norm_add_le (pure a - pure e) (pure e)
  rw [sub_add_cancel] at this
  linarith

theorem frame_change {c a b a' b' : V3} {d : ℝ} (h1 : ‖pure a - pure a'‖ ≤ d) (h2 : ‖pure b - pure b'‖ ≤ d) (w : V2) : ‖pure (inFrame c a b w) - pure (inFrame c a' b' w)‖ ≤ d * (|w.x| + |w.y|) := by
  rw [pure_frame, pure_frame, show pure c + (w.x • pure a + w.y • pure b) - (pure c + (w.x • pure a' + w.y • pure b')) = w.x • (pure a - pure a') + w.y • (pure b - pure b') by
    rw [smul_sub, smul_sub]; abel]
  refine (norm_add_le _ _).trans ?_
  rw [norm_smul, norm_smul, Real.norm_eq_abs, Real.norm_eq_abs]
  have k1 := mul_le_mul_of_nonneg_left h1 (abs_nonneg w.x)
  have k2 := mul_le_mul_of_nonneg_left h2 (abs_nonneg w.y)
  linarith

/-- vertices placed one by one -/
theorem places {f : V2 → Res DVec} {R : V3 → V2 → Prop} : ∀ {ws : List V2}, (∀ w ∈ ws, ∃ v, f w = .ok (doubles v) ∧ R v w) → ∃ vs : List V3, mapRes f ws = .ok (vs.map doubles) ∧ List.Forall₂ R vs ws
  | [], _ => ⟨[], rfl, .nil⟩
  | w :: ws, h => by
    obtain ⟨v, e, r⟩ := h w (by simp)
    obtain ⟨vs, es, rs⟩ := places (ws := ws) fun w hw => h w (by simp [hw])
    exact ⟨v :: vs, by simp [mapRes, e, es], .cons r rs⟩

end Flat3

/-- **C146.** Two axes are accepted when the cosine of their angle is below the tolerance and refused when it is above it, apart from a few units of rounding, and what is kept of each is within 4.5 units
of rounding of the vector of length one in its direction. -/
theorem C146_axes (o : Bool) (P : Polygon2) (c : DVec) {x y : V3} (hx : Within x) (hy : Within y) (lx : 1 / 2 ^ 40 ≤ ‖pure x‖) (ly : 1 / 2 ^ 40 ≤ ‖pure y‖) (eps : ℝ) :
    ((1 + 7 / 2 ^ 53) * |Flat3.cosine x y| + 51 / 10 / 2 ^ 53 ≤ eps → ∃ D, DPolygon.ctor o (.fin eps) P c (doubles x) (doubles y) = .ok D) ∧
    (eps + 51 / 10 / 2 ^ 53 < (1 - 7 / 2 ^ 53) * |Flat3.cosine x y| → DPolygon.ctor o (.fin eps) P c (doubles x) (doubles y) = .error .runtimeError) ∧
    ∀ D, DPolygon.ctor o (.fin eps) P c (doubles x) (doubles y) = .ok D → ∃ a b, D = ⟨P, c, doubles a, doubles b⟩ ∧ Within a ∧ Within b ∧
      ‖pure a - pure (Flat3.unit x)‖ ≤ 45 / 10 / 2 ^ 53 ∧ ‖pure b - pure (Flat3.unit y)‖ ≤ 45 / 10 / 2 ^ 53 := by
  have u0 := DQuat.u_pos
  have uv : ∀ k : ℝ, k / 2 ^ 53 = k * DQuat.u := fun k => by rw [DQuat.u]; ring
  obtain ⟨a, n, ea, ra, a1, a2, a3, na, n0, nn, p1, p2, p3⟩ := Flat3.scaled o hx lx
  obtain ⟨b, m, eb, rb, b1, b2, b3, nb, m0, nm, q1, q2, q3⟩ := Flat3.scaled o hy ly
  have z : (0 : ℝ) < 1 / 2 ^ 40 := by norm_num
  have cn := Flat3.cosine_near o (lt_of_lt_of_le z lx) (lt_of_lt_of_le z ly) n0 m0 nn nm p1 p2 p3 q1 q2 q3
  have one : (1 : ℝ) ≤ 2 ^ 500 := one_le_pow₀ one_le_two
  have one' : (1 : ℝ) ≤ 2 ^ 499 := one_le_pow₀ one_le_two
  have wa : Within a := ⟨⟨ra.1, a1.trans one'⟩, ⟨ra.2.1, a2.trans one'⟩, ⟨ra.2.2, a3.trans one'⟩⟩
  have wb : Within b := ⟨⟨rb.1, b1.trans one'⟩, ⟨rb.2.1, b2.trans one'⟩, ⟨rb.2.2, b3.trans one'⟩⟩
  have dot := (DVec.dot_fin o (a1.trans one) (a2.trans one) (a3.trans one) (b1.trans one) (b2.trans one) (b3.trans one)).1
  have e : DPolygon.ctor o (.fin eps) P c (doubles x) (doubles y) =
      if eps < |DVec.dot3 o a.x a.y a.z b.x b.y b.z| then .error .runtimeError else .ok ⟨P, c, doubles a, doubles b⟩ := by
    simp only [DPolygon.ctor, doubles_defined, if_true, ea, eb, Bool.and_self]
    rw [show (doubles a).dot o (doubles b) = .fin (DVec.dot3 o a.x a.y a.z b.x b.y b.z) from dot]
    simp only [F64.abs, F64.lt, decide_eq_true_eq]
  have s1 := abs_sub_abs_le_abs_sub (DVec.dot3 o a.x a.y a.z b.x b.y b.z) (Flat3.cosine x y)
  have s2 := abs_sub_abs_le_abs_sub (Flat3.cosine x y) (DVec.dot3 o a.x a.y a.z b.x b.y b.z)
  rw [abs_sub_comm] at s2
  have c0 : 0 ≤ DQuat.u * |Flat3.cosine x y| := mul_nonneg u0.le (abs_nonneg _)
  rw [e, uv, uv, uv]
  refine ⟨fun h => ⟨_, if_neg (not_lt.2 ?_)⟩, fun h => if_pos ?_, fun D hD => ?_⟩
  · linarith
  · linarith
  · split_ifs at hD
    refine ⟨a, b, (Except.ok.inj hD).symm, wa, wb, ?_, ?_⟩
    · rw [Flat3.unit, Flat3.pure_scaled]; exact na
    · rw [Flat3.unit, Flat3.pure_scaled]; exact nb

/-- **C146.** Axes that are exactly perpendicular are always accepted with a tolerance of six units of rounding or more; that of the library, `Real::Epsilon()`, is nine. -/
theorem C146_perpendicular (o : Bool) (P : Polygon2) (c : DVec) {x y : V3} (hx : Within x) (hy : Within y) (lx : 1 / 2 ^ 40 ≤ ‖pure x‖) (ly : 1 / 2 ^ 40 ≤ ‖pure y‖) (h : x.dot y = 0) {eps : ℝ}
    (he : 6 / 2 ^ 53 ≤ eps) : ∃ D, DPolygon.ctor o (.fin eps) P c (doubles x) (doubles y) = .ok D := by
  refine (C146_axes o P c hx hy lx ly eps).1 ?_
  rw [Flat3.cosine, h, zero_div, abs_zero, mul_zero, zero_add]
  exact le_trans (by norm_num) he

/-- **C146.** There are as many vertices as in the plane, in the same order, and each is within nine units of rounding of its exact place. -/
theorem C146_vertices_partial (o : Bool) {P : Polygon2} (hP : P.isDefined = true) {c x y : V3} (hc : Within c) (hx : Within x) (hy : Within y) (lx : 1 / 2 ^ 40 ≤ ‖pure x‖) (ly : 1 / 2 ^ 40 ≤ ‖pure y‖)
    {eps : ℝ} {D : DPolygon} (h : DPolygon.ctor o (.fin eps) P (doubles c) (doubles x) (doubles y) = .ok D) :
    (∀ ws, P.getVertices = .ok ws → (∀ w ∈ ws, Sized2 490 w) → ∃ vs : List V3, D.getVertices = .ok (vs.map doubles) ∧
      List.Forall₂ (fun v w => ‖pure v - pure (inFrame c (Flat3.unit x) (Flat3.unit y) w)‖ ≤ 9 / 2 ^ 53 * (‖pure c‖ + |w.x| + |w.y|) + 2 ^ (-1072 : ℤ)) vs ws) ∧
    ∀ i w, P.getVertexAt i = .ok w → Sized2 490 w → ∃ v, D.getVertexAt i = .ok (doubles v) ∧
      ‖pure v - pure (inFrame c (Flat3.unit x) (Flat3.unit y) w)‖ ≤ 9 / 2 ^ 53 * (‖pure c‖ + |w.x| + |w.y|) + 2 ^ (-1072 : ℤ) := by
  obtain ⟨a, b, rfl, wa, wb, na, nb⟩ := (C146_axes o P _ hx hy lx ly eps).2.2 D h
  have u0 := DQuat.u_pos
  have us := DQuat.u_small
  have uv : ∀ k : ℝ, k / 2 ^ 53 = k * DQuat.u := fun k => by rw [DQuat.u]; ring
  have tv : (2 : ℝ) ^ (-1072 : ℤ) = 8 * DQuat.t := by
    rw [DQuat.t, show (-1072 : ℤ) = 3 + -1075 by norm_num, zpow_add₀ two_ne_zero]; norm_num
  rw [uv] at na nb
  have la := Flat3.near_norm (Flat3.unit_norm lx) na
  have lb := Flat3.near_norm (Flat3.unit_norm ly) nb
  have key : ∀ w, Sized2 490 w → ∃ v, DPolygon.place ⟨P, doubles c, doubles a, doubles b⟩ w = .ok (doubles v) ∧
      ‖pure v - pure (inFrame c (Flat3.unit x) (Flat3.unit y) w)‖ ≤ 9 / 2 ^ 53 * (‖pure c‖ + |w.x| + |w.y|) + 2 ^ (-1072 : ℤ) := fun w hw => by
    obtain ⟨v, -, e, k⟩ := Flat3.place_near P hc (a := a) (b := b) (by linarith) (by linarith) hw
    refine ⟨v, e, ?_⟩
    have f := Flat3.frame_change (c := c) na nb w
    have t := norm_sub_le_norm_sub_add_norm_sub (pure v) (pure (inFrame c a b w)) (pure (inFrame c (Flat3.unit x) (Flat3.unit y) w))
    rw [uv, tv]
    have c0 : 0 ≤ DQuat.u * ‖pure c‖ := mul_nonneg u0.le (norm_nonneg _)
    have x0 : 0 ≤ DQuat.u * |w.x| := mul_nonneg u0.le (abs_nonneg _)
    have y0 : 0 ≤ DQuat.u * |w.y| := mul_nonneg u0.le (abs_nonneg _)
    linarith
  refine ⟨fun ws hv hw => ?_, fun i w hv hw => ?_⟩
  · obtain ⟨vs, e, r⟩ := Flat3.places fun w m => key w (hw w m)
    exact ⟨vs, by simp only [DPolygon.getVertices, hv, bind, Except.bind]; exact e, r⟩
  · obtain ⟨v, e, k⟩ := key w hw
    refine ⟨v, ?_, k⟩
    have d : DPolygon.isDefined ⟨P, doubles c, doubles a, doubles b⟩ = true := by simp [DPolygon.isDefined, hP, doubles_defined]
    simp only [DPolygon.getVertexAt, d, Bool.not_true, Bool.false_eq_true, if_false, hv, bind, Except.bind]
    exact e

/-- **C146.** With perpendicular axes the distances of the vertices are those in the plane, apart from the errors of their places. -/
theorem C146_distances_partial (o : Bool) {P : Polygon2} (hP : P.isDefined = true) {c x y : V3} (hc : Within c) (hx : Within x) (hy : Within y) (lx : 1 / 2 ^ 40 ≤ ‖pure x‖)
    (ly : 1 / 2 ^ 40 ≤ ‖pure y‖) (h0 : x.dot y = 0) {eps : ℝ} {D : DPolygon} (h : DPolygon.ctor o (.fin eps) P (doubles c) (doubles x) (doubles y) = .ok D) {i j : ℕ} {w w' : V2}
    (hi : P.getVertexAt i = .ok w) (hj : P.getVertexAt j = .ok w') (hw : Sized2 490 w) (hw' : Sized2 490 w') :
    ∃ v v', D.getVertexAt i = .ok (doubles v) ∧ D.getVertexAt j = .ok (doubles v') ∧
      |‖pure v - pure v'‖ - Real.sqrt ((w.x - w'.x) ^ 2 + (w.y - w'.y) ^ 2)| ≤ 9 / 2 ^ 53 * (2 * ‖pure c‖ + |w.x| + |w.y| + |w'.x| + |w'.y|) + 2 ^ (-1071 : ℤ) := by
  obtain ⟨v, e, k⟩ := (C146_vertices_partial o hP hc hx hy lx ly h).2 i w hi hw
  obtain ⟨v', e', k'⟩ := (C146_vertices_partial o hP hc hx hy lx ly h).2 j w' hj hw'
  refine ⟨v, v', e, e', ?_⟩
  have iso : ‖pure (inFrame c (Flat3.unit x) (Flat3.unit y) w) - pure (inFrame c (Flat3.unit x) (Flat3.unit y) w')‖ = Real.sqrt ((w.x - w'.x) ^ 2 + (w.y - w'.y) ^ 2) := by
    have ux := Flat3.unit_norm lx
    have uy := Flat3.unit_norm ly
    have d : (Flat3.unit x).dot (Flat3.unit y) = 0 := by
      have : (Flat3.unit x).dot (Flat3.unit y) = ‖pure x‖⁻¹ * ‖pure y‖⁻¹ * x.dot y := by simp only [Flat3.unit, V3.dot, V3.smul_x, V3.smul_y, V3.smul_z]; ring
      rw [this, h0, mul_zero]
    have sx := pure_sq (Flat3.unit x)
    have sy := pure_sq (Flat3.unit y)
    rw [ux] at sx
    rw [uy] at sy
    generalize Flat3.unit x = X at *
    generalize Flat3.unit y = Y at *
    symm
    rw [Real.sqrt_eq_iff_mul_self_eq (by positivity) (norm_nonneg _), ← sq, pure_sub, pure_sq]
    simp only [inFrame, V3.sub_x, V3.sub_y, V3.sub_z, V3.add_x, V3.add_y, V3.add_z, V3.smul_x, V3.smul_y, V3.smul_z]
    simp only [V3.dot] at d
    linear_combination (w.x - w'.x) ^ 2 * sx + (w.y - w'.y) ^ 2 * sy - 2 * (w.x - w'.x) * (w.y - w'.y) * d
  rw [← iso]
  have t := abs_norm_sub_norm_le (pure v - pure v') (pure (inFrame c (Flat3.unit x) (Flat3.unit y) w) - pure (inFrame c (Flat3.unit x) (Flat3.unit y) w'))
  have t2 := norm_sub_le (pure v - pure (inFrame c (Flat3.unit x) (Flat3.unit y) w)) (pure v' - pure (inFrame c (Flat3.unit x) (Flat3.unit y) w'))
  rw [show pure v - pure (inFrame c (Flat3.unit x) (Flat3.unit y) w) - (pure v' - pure (inFrame c (Flat3.unit x) (Flat3.unit y) w')) =
    pure v - pure v' - (pure (inFrame c (Flat3.unit x) (Flat3.unit y) w) - pure (inFrame c (Flat3.unit x) (Flat3.unit y) w')) by abel] at t2
  have tv : (2 : ℝ) ^ (-1071 : ℤ) = 2 * 2 ^ (-1072 : ℤ) := by rw [← zpow_one_add₀ two_ne_zero]; norm_num
  rw [tv]
  generalize (2 : ℝ) ^ (-1072 : ℤ) = τ at *
  linarith

/-- **C146.** With perpendicular axes the normal vector is within 30 units of rounding of the exact one. -/
theorem C146_normal (o : Bool) {P : Polygon2} (hP : P.isDefined = true) {c x y : V3} (hx : Within x) (hy : Within y) (lx : 1 / 2 ^ 40 ≤ ‖pure x‖) (ly : 1 / 2 ^ 40 ≤ ‖pure y‖) (h0 : x.dot y = 0)
    {eps : ℝ} {D : DPolygon} (h : DPolygon.ctor o (.fin eps) P (doubles c) (doubles x) (doubles y) = .ok D) :
    ∃ m, D.getNormalVector o = .ok (doubles m) ∧ ‖pure m - pure ((Flat3.unit x).cross (Flat3.unit y))‖ ≤ 30 / 2 ^ 53 := by
  obtain ⟨a, b, rfl, wa, wb, na, nb⟩ := (C146_axes o P _ hx hy lx ly eps).2.2 D h
  have u0 := DQuat.u_pos
  have us := DQuat.u_small
  have t0 := DQuat.t_pos
  have tu := DRot.t_u
  have uv : ∀ k : ℝ, k / 2 ^ 53 = k * DQuat.u := fun k => by rw [DQuat.u]; ring
  rw [uv] at na nb ⊢
  have la := Flat3.near_norm (Flat3.unit_norm lx) na
  have lb := Flat3.near_norm (Flat3.unit_norm ly) nb
  have ux := Flat3.unit_norm lx
  have uy := Flat3.unit_norm ly
  have d : (Flat3.unit x).dot (Flat3.unit y) = 0 := by
    have : (Flat3.unit x).dot (Flat3.unit y) = ‖pure x‖⁻¹ * ‖pure y‖⁻¹ * x.dot y := by simp only [Flat3.unit, V3.dot, V3.smul_x, V3.smul_y, V3.smul_z]; ring
    rw [this, h0, mul_zero]
  have nc : ‖pure ((Flat3.unit x).cross (Flat3.unit y))‖ = 1 := by
    have sx := pure_sq (Flat3.unit x)
    have sy := pure_sq (Flat3.unit y)
    rw [ux] at sx
    rw [uy] at sy
    have s : ‖pure ((Flat3.unit x).cross (Flat3.unit y))‖ ^ 2 = 1 := by
      rw [pure_sq]
      generalize Flat3.unit x = X at *
      generalize Flat3.unit y = Y at *
      simp only [V3.dot] at d
      simp only [V3.cross]
      have L : (X.y * Y.z - X.z * Y.y) ^ 2 + (X.z * Y.x - X.x * Y.z) ^ 2 + (X.x * Y.y - X.y * Y.x) ^ 2 =
          (X.x ^ 2 + X.y ^ 2 + X.z ^ 2) * (Y.x ^ 2 + Y.y ^ 2 + Y.z ^ 2) - (X.x * Y.x + X.y * Y.y + X.z * Y.z) ^ 2 := by ring
      rw [L, ← sx, ← sy, d]; norm_num
    exact (pow_eq_one_iff_of_nonneg (norm_nonneg _) two_ne_zero).1 s
  have ba : Bounded 1 a := by
    obtain ⟨h1, h2, h3⟩ := within_length a
    rw [← pure_length] at h1 h2 h3
    exact ⟨h1.trans (by linarith), h2.trans (by linarith), h3.trans (by linarith)⟩
  have bb : Bounded 1 b := by
    obtain ⟨h1, h2, h3⟩ := within_length b
    rw [← pure_length] at h1 h2 h3
    exact ⟨h1.trans (by linarith), h2.trans (by linarith), h3.trans (by linarith)⟩
  obtain ⟨ek, bk⟩ := cross_doubles (n := 1) (by norm_num) ba bb
  set k := cross3 a b with hk
  have rk : Move.Rep k := ⟨rnd_representable _, rnd_representable _, rnd_representable _⟩
  have wk : Within k := by
    have p : (2 : ℝ) ^ (2 * 1 + 1) ≤ 2 ^ 499 := pow_le_pow_right₀ one_le_two (by norm_num)
    exact ⟨⟨rk.1, bk.1.trans p⟩, ⟨rk.2.1, bk.2.1.trans p⟩, ⟨rk.2.2, bk.2.2.trans p⟩⟩
  have c1 := cross3_near a b
  rw [← hk] at c1
  have c2 := cross_change (a := a) (b := b) (e := Flat3.unit x) (f := Flat3.unit y) (x := 45 / 10 * DQuat.u) (y := 45 / 10 * DQuat.u) (by rw [← pure_length]; exact ux)
    (by rw [← pure_length, ← pure_sub]; exact na) (by rw [← pure_length, ← pure_sub]; exact nb)
  rw [← pure_length, ← pure_sub] at c1 c2
  simp only [← pure_length] at c1 c2
  have ab : ‖pure a‖ * ‖pure b‖ ≤ (1 + 45 / 10 * DQuat.u) * (1 + 45 / 10 * DQuat.u) := mul_le_mul la lb (norm_nonneg _) (by positivity)
  have ab' : ‖pure a‖ * ‖pure b‖ ≤ 101 / 100 := by nlinarith
  have ab2 := mul_le_mul_of_nonneg_left ab' u0.le
  have lb2 := mul_le_mul_of_nonneg_left (show ‖pure b‖ ≤ 101 / 100 by linarith) u0.le
  have near : ‖pure k - pure ((Flat3.unit x).cross (Flat3.unit y))‖ ≤ 125 / 10 * DQuat.u := by
    have := norm_sub_le_norm_sub_add_norm_sub (pure k) (pure (a.cross b)) (pure ((Flat3.unit x).cross (Flat3.unit y)))
    linarith
  have len := abs_norm_sub_norm_le (pure k) (pure ((Flat3.unit x).cross (Flat3.unit y)))
  rw [nc] at len
  have lk : 1 / 2 ^ 40 ≤ ‖pure k‖ := by
    have := (abs_le.1 (len.trans near)).1
    norm_num
    linarith
  obtain ⟨m, em, -, -, -, -, -, -, nm⟩ := normalized_any o wk lk
  refine ⟨m, ?_, ?_⟩
  · have d : DPolygon.isDefined ⟨P, doubles c, doubles a, doubles b⟩ = true := by simp [DPolygon.isDefined, hP, doubles_defined]
    simp only [DPolygon.getNormalVector, d, Bool.not_true, Bool.false_eq_true, if_false, ek]
    rw [em]
  · have k0 : ‖pure k‖ ≠ 0 := by
      have : (0 : ℝ) < 1 / 2 ^ 40 := by norm_num
      linarith
    have s : ‖‖pure k‖⁻¹ • pure k - pure k‖ = |1 - ‖pure k‖| := by
      rw [show ‖pure k‖⁻¹ • pure k - pure k = (‖pure k‖⁻¹ - 1) • pure k by rw [sub_smul, one_smul], norm_smul, Real.norm_eq_abs]
      rw [← abs_of_nonneg (norm_nonneg (pure k)), ← abs_mul, abs_of_nonneg (norm_nonneg (pure k)), sub_mul, inv_mul_cancel₀ k0, one_mul]
    rw [abs_sub_comm] at s
    have t1 := norm_sub_le_norm_sub_add_norm_sub (pure m) (‖pure k‖⁻¹ • pure k) (pure ((Flat3.unit x).cross (Flat3.unit y)))
    have t2 := norm_sub_le_norm_sub_add_norm_sub (‖pure k‖⁻¹ • pure k) (pure k) (pure ((Flat3.unit x).cross (Flat3.unit y)))
    linarith

namespace Flat3

theorem points_frame (ms : List Motion) : ∀ c a b : Quaternion ℝ, ∀ s t : ℝ, Motion.points ms (c + (s • a + t • b)) = Motion.points ms c + (s • Motion.directions ms a + t • Motion.directions ms b) := by
  induction ms with
  | nil => intros; rfl
  | cons m ms ih =>
    intro c a b s t
    have e : m.point (c + (s • a + t • b)) = m.point c + (s • m.direction a + t • m.direction b) := by
      cases m with
      | turn w => simp only [Motion.point, Motion.direction, mul_add, add_mul, mul_smul_comm, smul_mul_assoc]
      | shift v => simp only [Motion.point, Motion.direction]; abel
    show Motion.points ms (m.point _) = Motion.points ms (m.point c) + (s • Motion.directions ms (m.direction a) + t • Motion.directions ms (m.direction b))
    rw [e, ih]

theorem directions_change {o : Bool} {sin cos : ℝ → ℝ} (hs : Accurate sin Real.sin) (hc : Accurate cos Real.cos) {ts : List DTrans} {ms : List Motion} (h : List.Forall₂ (Makes o sin cos) ts ms) :
    ∀ x y, ‖Motion.directions ms x - Motion.directions ms y‖ = ‖x - y‖ ∧ ‖Motion.directions ms x‖ = ‖x‖ ∧ ‖Motion.points ms x‖ ≤ ‖x‖ + Motion.path ms ∧ 0 ≤ Motion.path ms := by
  induction h with
  | nil => intro x y; exact ⟨rfl, rfl, by simp [Motion.points, Motion.path], by simp [Motion.path]⟩
  | @cons T m ts ms hm h ih =>
    intro x y
    obtain ⟨-, k2, k3, k4, k5⟩ := Move.keeps hs hc hm x y
    obtain ⟨i1, i2, -, -⟩ := ih (m.direction x) (m.direction y)
    obtain ⟨-, -, i3, i4⟩ := ih (m.point x) 0
    have p : Motion.path (m :: ms) = m.reach + Motion.path ms := by simp [Motion.path]
    refine ⟨i1.trans k2, i2.trans k4, ?_, by rw [p]; exact add_nonneg k5 i4⟩
    rw [p]
    show ‖Motion.points ms (m.point x)‖ ≤ _
    linarith

/-- what the errors of the parts add up to -/
theorem budget {u N s X Y d τ e t c : ℝ} (u0 : 0 < u) (N0 : 0 ≤ N) (N1 : N * u ≤ 1 / 8192) (s0 : 0 ≤ s) (X0 : 0 ≤ X) (Y0 : 0 ≤ Y) (τ0 : 0 ≤ τ)
    (t1 : 8 * t ≤ τ / 8) (Nτ : N * τ ≤ u) (hc : c ≤ s + N * (512 * u * s + τ)) (hd : d ≤ N * (512 * u * (1001 / 1000) + τ) + 45 / 10 * u) (he : e ≤ N * (512 * u * s + τ)) :
    4 * u * (c + X + Y) + 8 * t + (e + d * (X + Y)) ≤ (N + 1) * (1024 * u * (s + X + Y) + τ) := by
  have us0 : 0 ≤ u * s := by positivity
  have uX : 0 ≤ u * X := by positivity
  have uY : 0 ≤ u * Y := by positivity
  have a1 : 4 * u * c ≤ 4 * u * (s + N * (512 * u * s + τ)) := mul_le_mul_of_nonneg_left hc (by positivity)
  have a2 : (N * u) * (u * s) ≤ 1 / 8192 * (u * s) := mul_le_mul_of_nonneg_right N1 us0
  have a3 : (N * u) * τ ≤ 1 / 8192 * τ := mul_le_mul_of_nonneg_right N1 τ0
  have a4 : d * (X + Y) ≤ (N * (512 * u * (1001 / 1000) + τ) + 45 / 10 * u) * (X + Y) := mul_le_mul_of_nonneg_right hd (by positivity)
  have a5 : N * τ * (X + Y) ≤ u * (X + Y) := mul_le_mul_of_nonneg_right Nτ (by positivity)
  have a6 : 0 ≤ N * (u * s) := by positivity
  have a7 : 0 ≤ N * (u * X) := by positivity
  have a8 : 0 ≤ N * (u * Y) := by positivity
  linarith

end Flat3

/-- **C146.** A polygon that is moved several times: each vertex is near the exact place moved exactly, and the error grows by `2 ^ -43` of the distances involved with each motion. The polygon of the plane
is left as it is. -/
theorem C146_moved_partial (o : Bool) (q : Order4) {sin cos : ℝ → ℝ} (hs : Accurate sin Real.sin) (hc : Accurate cos Real.cos) {ts : List DTrans} {ms : List Motion}
    (hT : List.Forall₂ (Makes o sin cos) ts ms) (hn : ms.length ≤ 2 ^ 40) {P : Polygon2} (hP : P.isDefined = true) {c x y : V3} (wc : Within c) (hx : Within x) (hy : Within y)
    (lx : 1 / 2 ^ 40 ≤ ‖pure x‖) (ly : 1 / 2 ^ 40 ≤ ‖pure y‖) (sc : ‖pure c‖ + Motion.path ms ≤ 2 ^ 490) {eps : ℝ} {D : DPolygon}
    (h : DPolygon.ctor o (.fin eps) P (doubles c) (doubles x) (doubles y) = .ok D) {ws : List V2} (hv : P.getVertices = .ok ws) (hw : ∀ w ∈ ws, Sized2 490 w) :
    ∃ D', DTrans.many (DPolygon.move q) ts D = .ok D' ∧ D'.polygon = P ∧ ∃ vs : List V3, D'.getVertices = .ok (vs.map doubles) ∧
      List.Forall₂ (fun v w => ‖pure v - Motion.points ms (pure (inFrame c (Flat3.unit x) (Flat3.unit y) w))‖ ≤ driftOf (-43) (ms.length + 1) (‖pure c‖ + Motion.path ms + |w.x| + |w.y|)) vs ws := by
  obtain ⟨a, b, rfl, wa, wb, na, nb⟩ := (C146_axes o P _ hx hy lx ly eps).2.2 D h
  have u0 := DQuat.u_pos
  have us := DQuat.u_small
  have uv : ∀ k : ℝ, k / 2 ^ 53 = k * DQuat.u := fun k => by rw [DQuat.u]; ring
  rw [uv] at na nb
  have la := Flat3.near_norm (Flat3.unit_norm lx) na
  have lb := Flat3.near_norm (Flat3.unit_norm ly) nb
  have two : (2 : ℝ) ≤ 2 ^ 490 := by
    calc (2 : ℝ) = 2 ^ 1 := by norm_num
      _ ≤ 2 ^ 490 := pow_le_pow_right₀ one_le_two (by norm_num)
  obtain ⟨d, rd, -, ed, nd⟩ := Move.drift (ι := Option Bool) (fun f => (⟨P, doubles (f none), doubles (f (some false)), doubles (f (some true))⟩ : DPolygon)) (DPolygon.move q)
    (fun i => match i with
      | none => Motion.point
      | some _ => Motion.direction)
    (fun i => match i with
      | none => Motion.reach
      | some _ => fun _ => 0) (fun _ => True) Move.k43.1 Move.k43.2.1 Move.tau.1 Move.tau.2
    (fun T m f hm hf _ => by
      obtain ⟨c', hc', e, -, n⟩ := Move.moved_point o q hs hc hm (hf none)
      obtain ⟨h1, -, -, h2⟩ := Move.one_step o q hs hc hm
      have A := fun i => (h2 (f (some i)) (hf (some i))).2
      choose g g1 g2 g3 using A
      refine ⟨fun i => match i with
        | none => c'
        | some i => g i, fun i => ?_, trivial, ?_, fun i => ?_⟩
      · match i with
        | none => exact hc'
        | some i => exact g1 i
      · have df : DPolygon.isDefined ⟨P, doubles (f none), doubles (f (some false)), doubles (f (some true))⟩ = true := by simp [DPolygon.isDefined, hP, doubles_defined]
        simp only [DPolygon.move, h1, df, e, g2, bind, Except.bind]
        rfl
      · match i with
        | none => exact n
        | some i =>
          have := g3 i
          simpa using this)
    (fun T m hm i x y => by
      obtain ⟨k1, k2, k3, k4, k5⟩ := Move.keeps hs hc hm x y
      match i with
      | none => exact ⟨k1, k3, k5⟩
      | some i => exact ⟨k2, by simpa using k4.le, le_refl _⟩)
    (S := fun i => match i with
      | none => ‖pure c‖ + Motion.path ms
      | some false => ‖pure a‖
      | some true => ‖pure b‖) (fun i => by
      match i with
      | none => exact sc
      | some false => exact le_trans (by linarith) two
      | some true => exact le_trans (by linarith) two) hT 0 (fun i => match i with
      | none => c
      | some false => a
      | some true => b) (fun i => match i with
      | none => pure c
      | some false => pure a
      | some true => pure b) (by omega)
    (fun i => by
      match i with
      | none => exact ⟨wc.x.1, wc.y.1, wc.z.1⟩
      | some false => exact ⟨wa.x.1, wa.y.1, wa.z.1⟩
      | some true => exact ⟨wb.x.1, wb.y.1, wb.z.1⟩) trivial
    (fun i => by match i with
      | none => simp
      | some false => simp
      | some true => simp) (fun i => by
      match i with
      | none => exact le_refl _
      | some false => simp [Move.reaches_zero]
      | some true => simp [Move.reaches_zero])
  have n0 := nd none
  have n1 := nd (some false)
  have n2 := nd (some true)
  simp only [Move.drift_eq] at n0 n1 n2
  obtain ⟨-, -, pc, path0⟩ := Flat3.directions_change hs hc hT (pure c) 0
  -- the sizes
  set N : ℝ := (ms.length : ℝ) with hN
  set s := ‖pure c‖ + Motion.path ms with hS
  have s0 : 0 ≤ s := add_nonneg (norm_nonneg _) path0
  have N0 : 0 ≤ N := Nat.cast_nonneg _
  have NN : N ≤ 2 ^ 40 := by rw [hN]; exact_mod_cast hn
  have f44 : (2 : ℝ) ^ (-44 : ℤ) = 512 * DQuat.u := by rw [DQuat.u]; norm_num
  have f43 : (2 : ℝ) ^ (-43 : ℤ) = 1024 * DQuat.u := by rw [DQuat.u]; norm_num
  have Nu : N * DQuat.u ≤ 1 / 8192 := by
    refine (mul_le_mul_of_nonneg_right NN u0.le).trans ?_
    rw [DQuat.u]; norm_num
  set τ : ℝ := 2 ^ (-1069 : ℤ) with hτ
  have τ0 : 0 ≤ τ := (two_zpow_pos _).le
  have tτ : 8 * DQuat.t ≤ τ / 8 := by
    have : τ = 64 * DQuat.t := by
      rw [hτ, DQuat.t, show (-1069 : ℤ) = 6 + -1075 by norm_num, zpow_add₀ two_ne_zero]; norm_num
    rw [this]; linarith
  have Nτ : N * τ ≤ DQuat.u := by
    have h1 : τ ≤ 2 ^ (-93 : ℤ) := zpow_le_zpow_right₀ one_le_two (by norm_num)
    have h2 : N * τ ≤ 2 ^ 40 * 2 ^ (-93 : ℤ) := mul_le_mul NN h1 τ0 (by positivity)
    refine h2.trans ?_
    rw [DQuat.u]; norm_num
  have D0 : ‖pure (d none) - Motion.points ms (pure c)‖ ≤ N * (512 * DQuat.u * s + τ) := by
    have := n0
    rw [driftOf, show (-45 + 1 : ℤ) = -44 by norm_num, f44] at this
    exact this
  have D1 : ‖pure (d (some false)) - Motion.directions ms (pure a)‖ ≤ N * (512 * DQuat.u * (1001 / 1000) + τ) := by
    have := n1
    rw [driftOf, show (-45 + 1 : ℤ) = -44 by norm_num, f44] at this
    refine this.trans (mul_le_mul_of_nonneg_left (add_le_add_left (mul_le_mul_of_nonneg_left ?_ (by positivity)) _) N0)
    linarith
  have D2 : ‖pure (d (some true)) - Motion.directions ms (pure b)‖ ≤ N * (512 * DQuat.u * (1001 / 1000) + τ) := by
    have := n2
    rw [driftOf, show (-45 + 1 : ℤ) = -44 by norm_num, f44] at this
    refine this.trans (mul_le_mul_of_nonneg_left (add_le_add_left (mul_le_mul_of_nonneg_left ?_ (by positivity)) _) N0)
    linarith
  obtain ⟨ca, da, -, -⟩ := Flat3.directions_change hs hc hT (pure a) (pure (Flat3.unit x))
  obtain ⟨cb, db, -, -⟩ := Flat3.directions_change hs hc hT (pure b) (pure (Flat3.unit y))
  have L1 : ‖pure (d (some false))‖ ≤ 11 / 10 := by
    have := norm_add_le (pure (d (some false)) - Motion.directions ms (pure a)) (Motion.directions ms (pure a))
    rw [sub_add_cancel, da] at this
    linarith
  have L2 : ‖pure (d (some true))‖ ≤ 11 / 10 := by
    have := norm_add_le (pure (d (some true)) - Motion.directions ms (pure b)) (Motion.directions ms (pure b))
    rw [sub_add_cancel, db] at this
    linarith
  have L0 : ‖pure (d none)‖ ≤ s + N * (512 * DQuat.u * s + τ) := by
    have := norm_add_le (pure (d none) - Motion.points ms (pure c)) (Motion.points ms (pure c))
    rw [sub_add_cancel] at this
    linarith
  have W0 : Within (d none) := by
    refine Move.within_of (rd none) (L0.trans ?_)
    have e1 : N * (512 * DQuat.u * s + τ) ≤ s + 1 := by
      have := mul_le_mul_of_nonneg_right Nu s0
      linarith
    have e2 : (2 : ℝ) ^ 499 = 512 * 2 ^ 490 := by rw [show (499 : ℕ) = 9 + 490 by norm_num, pow_add]; norm_num
    rw [e2]
    clear e2 hτ τ0 tτ Nτ
    generalize (2 : ℝ) ^ 490 = B at *
    linarith
  have U1 : ‖pure (d (some false)) - Motion.directions ms (pure (Flat3.unit x))‖ ≤ N * (512 * DQuat.u * (1001 / 1000) + τ) + 45 / 10 * DQuat.u := by
    have := norm_sub_le_norm_sub_add_norm_sub (pure (d (some false))) (Motion.directions ms (pure a)) (Motion.directions ms (pure (Flat3.unit x)))
    rw [ca] at this
    linarith
  have U2 : ‖pure (d (some true)) - Motion.directions ms (pure (Flat3.unit y))‖ ≤ N * (512 * DQuat.u * (1001 / 1000) + τ) + 45 / 10 * DQuat.u := by
    have := norm_sub_le_norm_sub_add_norm_sub (pure (d (some true))) (Motion.directions ms (pure b)) (Motion.directions ms (pure (Flat3.unit y)))
    rw [cb] at this
    linarith
  refine ⟨_, ed, rfl, ?_⟩
  obtain ⟨vs, ev, rv⟩ := Flat3.places (f := DPolygon.place ⟨P, doubles (d none), doubles (d (some false)), doubles (d (some true))⟩)
    (R := fun v w => ‖pure v - Motion.points ms (pure (inFrame c (Flat3.unit x) (Flat3.unit y) w))‖ ≤ driftOf (-43) (ms.length + 1) (s + |w.x| + |w.y|)) (ws := ws) (fun w mw => by
      obtain ⟨v, -, e, k⟩ := Flat3.place_near P W0 L1 L2 (hw w mw)
      refine ⟨v, e, ?_⟩
      rw [Flat3.pure_frame, Flat3.points_frame]
      rw [Flat3.pure_frame] at k
      have t := norm_sub_le_norm_sub_add_norm_sub (pure v) (pure (d none) + (w.x • pure (d (some false)) + w.y • pure (d (some true))))
        (Motion.points ms (pure c) + (w.x • Motion.directions ms (pure (Flat3.unit x)) + w.y • Motion.directions ms (pure (Flat3.unit y))))
      have t2 : ‖pure (d none) + (w.x • pure (d (some false)) + w.y • pure (d (some true))) -
          (Motion.points ms (pure c) + (w.x • Motion.directions ms (pure (Flat3.unit x)) + w.y • Motion.directions ms (pure (Flat3.unit y))))‖ ≤
          N * (512 * DQuat.u * s + τ) + (N * (512 * DQuat.u * (1001 / 1000) + τ) + 45 / 10 * DQuat.u) * (|w.x| + |w.y|) := by
        rw [show pure (d none) + (w.x • pure (d (some false)) + w.y • pure (d (some true))) -
          (Motion.points ms (pure c) + (w.x • Motion.directions ms (pure (Flat3.unit x)) + w.y • Motion.directions ms (pure (Flat3.unit y)))) =
          (pure (d none) - Motion.points ms (pure c)) + (w.x • (pure (d (some false)) - Motion.directions ms (pure (Flat3.unit x))) + w.y • (pure (d (some true)) - Motion.directions ms (pure (Flat3.unit y)))) by
          rw [smul_sub, smul_sub]; abel]
        refine (norm_add_le _ _).trans (add_le_add D0 ((norm_add_le _ _).trans ?_))
        rw [norm_smul, norm_smul, Real.norm_eq_abs, Real.norm_eq_abs]
        have k1 := mul_le_mul_of_nonneg_left U1 (abs_nonneg w.x)
        have k2 := mul_le_mul_of_nonneg_left U2 (abs_nonneg w.y)
        linarith
      have B := Flat3.budget u0 N0 Nu s0 (abs_nonneg w.x) (abs_nonneg w.y) τ0 tτ Nτ L0 (le_refl _) (le_refl _)
      rw [driftOf, f43, Nat.cast_add, Nat.cast_one, ← hN]
      linarith)
  exact ⟨vs, by simp only [DPolygon.getVertices, hv, bind, Except.bind]; exact ev, rv⟩

/-- **C146 is violated**, a polygon made again from the origin and the axes of another one is not equal to it: its axes are normalized again, which changes them. -/
theorem C146_again_violated (o : Bool) (B : Boost) (P : Polygon2) {eps : ℝ} (he : 0 ≤ eps) :
    ∃ D D', DPolygon.ctor o (.fin eps) P (doubles ⟨0, 0, 0⟩) (doubles ⟨1, 1, 0⟩) (doubles ⟨0, 0, 1⟩) = .ok D ∧ DPolygon.ctor o (.fin eps) D.polygon D.origin D.xAxis D.yAxis = .ok D' ∧
      DPolygon.eq B D D' = false := by
  have lh : Move.low ≠ Move.high := by norm_num [Move.low, Move.high]
  obtain ⟨-, -, a2⟩ := Move.diagonal_norm o (Or.inl rfl)
  rw [one_mul, one_mul] at a2
  have n3 : (doubles ⟨0, 0, 1⟩).normalized o = doubles ⟨0, 0, 1⟩ := normalized_third o
  have z : ∀ l : ℝ, DVec.dot o (doubles ⟨l, l, 0⟩) (doubles ⟨0, 0, 1⟩) = .fin 0 := fun l => by
    cases o <;> simp [DVec.dot, DVec.sum, doubles, F64.mul, F64.add, DT3.zero_fin]
  have c : ∀ {v : V3} {l : ℝ}, (doubles v).normalized o = doubles ⟨l, l, 0⟩ → DPolygon.ctor o (.fin eps) P (doubles ⟨0, 0, 0⟩) (doubles v) (doubles ⟨0, 0, 1⟩) =
      .ok ⟨P, doubles ⟨0, 0, 0⟩, doubles ⟨l, l, 0⟩, doubles ⟨0, 0, 1⟩⟩ := fun {v l} hv => by
    simp only [DPolygon.ctor, doubles_defined, hv, n3, if_true, z, F64.abs, F64.lt, abs_zero, Bool.and_self]
    rw [if_neg (by simpa using he)]
  refine ⟨_, _, c (Move.diagonal o), c a2, ?_⟩
  have f : DVec.eq (doubles ⟨Move.low, Move.low, 0⟩) (doubles ⟨Move.high, Move.high, 0⟩) = false := by simp [DVec.eq, doubles, F64.eq, lh]
  simp only [DPolygon.eq, f, Bool.and_false, Bool.false_and, ite_self]

/-- **C146 is violated**, long axes are accepted though they are parallel: the square of their length is infinite, they become zero, and with them every vertex becomes the origin. -/
theorem C146_overflow_violated (o : Bool) (P : Polygon2) {c : V3} (hc : FiniteDoubles c) {eps : ℝ} (he : 0 ≤ eps) :
    ∃ D, DPolygon.ctor o (.fin eps) P (doubles c) (doubles ⟨2 ^ 600, 0, 0⟩) (doubles ⟨2 ^ 600, 0, 0⟩) = .ok D ∧ ∀ w : V2, D.place w = .ok (doubles c) := by
  have big : F64.ofExact ((2 : ℝ) ^ 600 * 2 ^ 600) = .inf false := by
    have r : Representable ((2 : ℝ) ^ 600 * 2 ^ 600) := by
      have := F64.representable_pow (α := ℝ) (e := ((600 + 600 : ℕ) : ℤ)) (by norm_num)
      rwa [zpow_natCast, pow_add] at this
    rw [F64.ofExact, rnd_exact r, if_pos, decide_eq_false]
    · exact not_lt.2 (by positivity)
    · rw [← pow_add, abs_of_nonneg (by positivity)]; exact pow_le_pow_right₀ one_le_two (by norm_num)
  have sq : (doubles ⟨2 ^ 600, 0, 0⟩).squaredNorm o = .inf false := by
    cases o <;> simp only [DVec.squaredNorm, DVec.dot, DVec.sum, doubles, F64.mul, big, mul_zero, DT3.zero_fin, F64.add, add_zero] <;> simp
  have nz : (doubles ⟨2 ^ 600, 0, 0⟩).normalized o = doubles ⟨0, 0, 0⟩ := by
    rw [DVec.normalized, sq]
    simp [F64.lt, F64.sqrt, DVec.div, doubles, F64.div]
  have z : DVec.dot o (doubles ⟨0, 0, 0⟩) (doubles ⟨0, 0, 0⟩) = .fin 0 := by
    cases o <;> simp [DVec.dot, DVec.sum, doubles, F64.mul, F64.add, DT3.zero_fin]
  refine ⟨⟨P, doubles c, doubles ⟨0, 0, 0⟩, doubles ⟨0, 0, 0⟩⟩, ?_, fun w => ?_⟩
  · simp only [DPolygon.ctor, doubles_defined, nz, if_true, z, F64.abs, F64.lt, abs_zero, Bool.and_self]
    rw [if_neg (by simpa using he)]
  · have e : ((doubles ⟨0, 0, 0⟩).scale (.fin w.x)).add ((doubles ⟨0, 0, 0⟩).scale (.fin w.y)) = doubles ⟨0, 0, 0⟩ := by
      simp [DVec.scale, DVec.add, doubles, F64.mul, F64.add, DT3.zero_fin]
    simp only [DPolygon.place, e, doubles_defined]
    simp [doubles, DVec.add, DT3.add_zero_fin hc.x.1 hc.x.2, DT3.add_zero_fin hc.y.1 hc.y.2, DT3.add_zero_fin hc.z.1 hc.z.2]

/-- **C146.** A polygon with an undefined part has no vertices, no normal vector, cannot be moved and equals no polygon. -/
theorem C146_undefined (o : Bool) (q : Order4) (B : Boost) (D E : DPolygon) (h : D.isDefined = false) (i : ℕ) (t : DTrans) :
    D.getVertexAt i = .error .undefined ∧ D.getVertices = .error .undefined ∧ D.getNormalVector o = .error .undefined ∧ DPolygon.move q t D = .error .undefined ∧ DPolygon.eq B D E = false ∧
      DPolygon.eq B E D = false ∧ DPolygon.move q DTrans.Undefined E = .error .undefined := by
  refine ⟨by simp [DPolygon.getVertexAt, h], ?_, by simp [DPolygon.getNormalVector, h], by simp [DPolygon.move, h], by simp [DPolygon.eq, h], by simp [DPolygon.eq, h],
    by simp [DPolygon.move, DTrans.isDefined, DTrans.Undefined]⟩
  by_cases hp : D.polygon.isDefined = true
  · simp only [DPolygon.getVertices, getVertices_eq hp, bind, Except.bind]
    have l : 3 ≤ D.polygon.outer.length := by simpa [Polygon2.isDefined] using hp
    obtain ⟨w, ws, e⟩ : ∃ w ws, D.polygon.outer.dropLast = w :: ws := by
      cases k : D.polygon.outer.dropLast with
      | nil => have := congrArg List.length k; simp at this; omega
      | cons w ws => exact ⟨w, ws, rfl⟩
    rw [e, List.cons_append, mapRes]
    have u : D.place w = .error .undefined := by
      simp only [DPolygon.isDefined, hp, Bool.true_and, Bool.and_eq_false_iff] at h
      have nn : ∀ (k : ℝ) (f : F64 ℝ), f = .nan → (F64.fin k).mul f = .nan := fun k f hf => by rw [hf]; rfl
      have na : ∀ f : F64 ℝ, F64.add .nan f = .nan := fun f => by cases f <;> rfl
      have na' : ∀ f : F64 ℝ, f.add .nan = .nan := fun f => by cases f <;> rfl
      rcases h with (h | h) | h
      · simp [DPolygon.place, h]
      · have : (((D.xAxis.scale (.fin w.x)).add (D.yAxis.scale (.fin w.y))).isDefined) = false := by
          simp only [DVec.isDefined, decide_eq_false_iff_not, not_and_or, not_not] at h
          rcases h with h | h | h <;> simp [DVec.isDefined, DVec.add, DVec.scale, nn _ _ h, na]
        simp [DPolygon.place, this]
      · have : (((D.xAxis.scale (.fin w.x)).add (D.yAxis.scale (.fin w.y))).isDefined) = false := by
          simp only [DVec.isDefined, decide_eq_false_iff_not, not_and_or, not_not] at h
          rcases h with h | h | h <;> simp [DVec.isDefined, DVec.add, DVec.scale, nn _ _ h, na']
        simp [DPolygon.place, this]
    rw [u]
  · simp [DPolygon.getVertices, Polygon2.getVertices, hp, bind, Except.bind]

/-- a square with the axes (1, 1, 0) and (-1, 1, 0) -/
example (o : Bool) : ∃ (P : Polygon2) (ws : List V2), P.isDefined = true ∧ P.getVertices = .ok ws ∧ ws.length = 4 ∧ (∀ w ∈ ws, Sized2 490 w) ∧ Within ⟨1, 1, 0⟩ ∧ Within ⟨-1, 1, 0⟩ ∧
    1 / 2 ^ 40 ≤ ‖pure ⟨1, 1, 0⟩‖ ∧ 1 / 2 ^ 40 ≤ ‖pure ⟨-1, 1, 0⟩‖ ∧ V3.dot ⟨1, 1, 0⟩ ⟨-1, 1, 0⟩ = 0 ∧
    ∃ D, DPolygon.ctor o (.fin (9 / 2 ^ 53)) P (doubles ⟨1, 1, 0⟩) (doubles ⟨1, 1, 0⟩) (doubles ⟨-1, 1, 0⟩) = .ok D := by
  have b : ∀ n : ℕ, |(1 : ℝ)| ≤ 2 ^ n := fun n => by rw [abs_one]; exact one_le_pow₀ one_le_two
  have z : ∀ n : ℕ, |(0 : ℝ)| ≤ 2 ^ n := fun n => by rw [abs_zero]; positivity
  have w1 : Within ⟨1, 1, 0⟩ := ⟨⟨rep_one, b _⟩, ⟨rep_one, b _⟩, ⟨representable_zero, z _⟩⟩
  have w2 : Within ⟨-1, 1, 0⟩ := ⟨⟨representable_neg rep_one, by rw [abs_neg]; exact b _⟩, ⟨rep_one, b _⟩, ⟨representable_zero, z _⟩⟩
  have l1 : 1 / 2 ^ 40 ≤ ‖pure ⟨1, 1, 0⟩‖ := by
    have := (within_length ⟨1, 1, 0⟩).1
    rw [← pure_length, abs_one] at this
    exact le_trans (by norm_num) this
  have l2 : 1 / 2 ^ 40 ≤ ‖pure ⟨-1, 1, 0⟩‖ := by
    have := (within_length ⟨-1, 1, 0⟩).2.1
    rw [← pure_length, abs_one] at this
    exact le_trans (by norm_num) this
  have d : V3.dot ⟨1, 1, 0⟩ ⟨-1, 1, 0⟩ = 0 := by simp [V3.dot]
  refine ⟨⟨[⟨0, 0⟩, ⟨0, 1⟩, ⟨1, 1⟩, ⟨1, 0⟩, ⟨0, 0⟩], []⟩, [⟨0, 0⟩, ⟨0, 1⟩, ⟨1, 1⟩, ⟨1, 0⟩], rfl, ?_, rfl, ?_, w1, w2, l1, l2, d, C146_perpendicular o _ _ w1 w2 l1 l2 d (by norm_num)⟩
  · rw [getVertices_eq (by rfl)]; simp
  · have s0 : Representable (0 : ℝ) ∧ |(0 : ℝ)| ≤ 2 ^ 490 := ⟨representable_zero, z _⟩
    have s1 : Representable (1 : ℝ) ∧ |(1 : ℝ)| ≤ 2 ^ 490 := ⟨rep_one, b _⟩
    intro w hw
    simp only [List.mem_cons, List.not_mem_nil, or_false] at hw
    rcases hw with rfl | rfl | rfl | rfl
    · exact ⟨s0, s0⟩
    · exact ⟨s0, s1⟩
    · exact ⟨s1, s1⟩
    · exact ⟨s1, s0⟩

end Verif.Props
