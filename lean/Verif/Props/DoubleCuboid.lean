import Verif.Lemmas.DoubleCuboid

/-!
# C136: cuboids and cones in double precision

The specification is `FaceSet` (`Spec/Cuboid.lean`) and `ConeSet` (`Spec/Cone.lean`), over the real numbers. `ArcCosine` is what is assumed of the arc cosine of the library.
-/

namespace Verif.Props

open Verif Verif.Spec Verif.Double

/-- **C136.** A cuboid accepts no point whose coordinates along the axes leave the extents by more than the tolerance and a stated error, or that is inside by more than these; it
accepts every point inside or on it, by a margin of the error, that is nearer to a face than the tolerance less the error. -/
theorem C136_cuboid (o : Bool) {eps : ℝ} (he : 0 < eps) {c p a1 a2 a3 : V3} {e1 e2 e3 : ℝ} (hc : Within c) (hp : Within p) (h1 : Within a1) (h2 : Within a2) (h3 : Within a3)
    (r1 : Representable e1) (r2 : Representable e2) (r3 : Representable e3) (k1 : |e1| ≤ 2 ^ 1000) (k2 : |e2| ≤ 2 ^ 1000) (k3 : |e3| ≤ 2 ^ 1000) :
    ∃ r, (cuboidD c a1 a2 a3 e1 e2 e3).contains o (.fin eps) (doubles p) = .ok r ∧
      (r = true → (|abs ((p - c).dot a1) - e1| < (1 + 2 / 2 ^ 53) * eps + alongError p c a1 ∨ |abs ((p - c).dot a2) - e2| < (1 + 2 / 2 ^ 53) * eps + alongError p c a2 ∨
          |abs ((p - c).dot a3) - e3| < (1 + 2 / 2 ^ 53) * eps + alongError p c a3) ∧
        |(p - c).dot a1| < e1 + (1 + 2 / 2 ^ 53) * eps + alongError p c a1 ∧ |(p - c).dot a2| < e2 + (1 + 2 / 2 ^ 53) * eps + alongError p c a2 ∧
        |(p - c).dot a3| < e3 + (1 + 2 / 2 ^ 53) * eps + alongError p c a3) ∧
      (|(p - c).dot a1| + alongError p c a1 ≤ e1 → |(p - c).dot a2| + alongError p c a2 ≤ e2 → |(p - c).dot a3| + alongError p c a3 ≤ e3 →
        (e1 - |(p - c).dot a1| + alongError p c a1 ≤ (1 - 2 / 2 ^ 53) * eps ∨ e2 - |(p - c).dot a2| + alongError p c a2 ≤ (1 - 2 / 2 ^ 53) * eps ∨
          e3 - |(p - c).dot a3| + alongError p c a3 ≤ (1 - 2 / 2 ^ 53) * eps) → r = true) := by
  obtain ⟨r, er, hr⟩ := cuboid_cases o eps hc hp h1 h2 h3 k1 k2 k3
  refine ⟨r, er, ?_, ?_⟩
  · have kpos : 0 < (1 + 2 / 2 ^ 53) * eps := mul_pos (by norm_num) he
    have near : ∀ {a : V3} {e : ℝ}, Representable e → faceTest o eps p c a e →
        |abs ((p - c).dot a) - e| < (1 + 2 / 2 ^ 53) * eps + alongError p c a ∧ |(p - c).dot a| < e + (1 + 2 / 2 ^ 53) * eps + alongError p c a := fun {a e} hr h => by
      obtain ⟨t1, t2⟩ := abs_lt.1 (faceTest_sound hr h)
      obtain ⟨n1, n2⟩ := abs_le.1 (along_near o hp hc a)
      exact ⟨abs_lt.2 ⟨by linarith, by linarith⟩, by linarith⟩
    have below : ∀ {a : V3} {e : ℝ}, alongAxis o p c a ≤ e → |(p - c).dot a| < e + (1 + 2 / 2 ^ 53) * eps + alongError p c a := fun {a e} h => by
      obtain ⟨n1, n2⟩ := abs_le.1 (along_near o hp hc a)
      linarith
    intro h
    rcases hr.1 h with ⟨t, s1, s2⟩ | ⟨-, t, s1, s2⟩ | ⟨-, -, t, s1, s2⟩
    · exact ⟨Or.inl (near r1 t).1, (near r1 t).2, below s1, below s2⟩
    · exact ⟨Or.inr (Or.inl (near r2 t).1), below s1, (near r2 t).2, below s2⟩
    · exact ⟨Or.inr (Or.inr (near r3 t).1), below s1, below s2, (near r3 t).2⟩
  · intro i1 i2 i3 hf
    have inside : ∀ {a : V3} {e : ℝ}, |(p - c).dot a| + alongError p c a ≤ e → alongAxis o p c a ≤ e := fun {a e} h => by
      have := (abs_le.1 (along_near o hp hc a)).2
      linarith
    have face : ∀ {a : V3} {e : ℝ}, Representable e → |(p - c).dot a| + alongError p c a ≤ e → e - |(p - c).dot a| + alongError p c a ≤ (1 - 2 / 2 ^ 53) * eps → faceTest o eps p c a e :=
      fun {a e} hr hi h => by
        refine faceTest_complete he hr ?_
        rw [abs_sub_comm, abs_of_nonneg (by linarith [inside hi])]
        have := (abs_le.1 (along_near o hp hc a)).1
        linarith
    have j1 := inside i1
    have j2 := inside i2
    have j3 := inside i3
    rw [hr]
    by_cases t1 : faceTest o eps p c a1 e1
    · exact Or.inl ⟨t1, j2, j3⟩
    by_cases t2 : faceTest o eps p c a2 e2
    · exact Or.inr (Or.inl ⟨t1, t2, j1, j3⟩)
    rcases hf with h | h | h
    · exact absurd (face r1 i1 h) t1
    · exact absurd (face r2 i2 h) t2
    · exact Or.inr (Or.inr ⟨t1, t2, face r3 i3 h, j1, j2⟩)

/-- **C136.** A point that a cuboid with orthonormal axes accepts is near a point of a face. -/
theorem C136_near (o : Bool) {eps : ℝ} (he : 0 < eps) {c p a1 a2 a3 : V3} {e1 e2 e3 : ℝ} (hc : Within c) (hp : Within p) (h1 : Within a1) (h2 : Within a2) (h3 : Within a3)
    (r1 : Representable e1) (r2 : Representable e2) (r3 : Representable e3) (k1 : |e1| ≤ 2 ^ 1000) (k2 : |e2| ≤ 2 ^ 1000) (k3 : |e3| ≤ 2 ^ 1000)
    (h : Orthonormal a1 a2 a3) (z1 : 0 ≤ e1) (z2 : 0 ≤ e2) (z3 : 0 ≤ e3)
    (ok : (cuboidD c a1 a2 a3 e1 e2 e3).contains o (.fin eps) (doubles p) = .ok true) :
    ∃ q ∈ FaceSet c a1 a2 a3 e1 e2 e3, (q - p).norm < 2 * (eps + 6 / 2 ^ 53 * ((p - c).norm + eps) + 2 ^ (-1073 : ℤ)) := by
  obtain ⟨r, e, hs, -⟩ := C136_cuboid o he hc hp h1 h2 h3 r1 r2 r3 k1 k2 k3
  rw [ok, Except.ok.injEq] at e
  obtain ⟨hf, l1, l2, l3⟩ := hs e.symm
  simp only [alongError, h.1, h.2.1, h.2.2.1, mul_one] at hf l1 l2 l3
  set E := (1 + 2 / 2 ^ 53) * eps + (5 / 2 ^ 53 * (p - c).norm + 2 ^ (-1073 : ℤ)) with hE
  have E0 : 0 < E := by
    have := V3.norm_nonneg (p - c)
    have := two_zpow_pos (α := ℝ) (-1073)
    positivity
  have hle : E ≤ eps + 6 / 2 ^ 53 * ((p - c).norm + eps) + 2 ^ (-1073 : ℤ) := by
    have n0 := V3.norm_nonneg (p - c)
    rw [hE]
    generalize (2 : ℝ) ^ (-1073 : ℤ) = τ
    norm_num
    linarith
  obtain ⟨f1, f2, f3, n12, n13, n23⟩ := h
  -- the nearest point of the box, moved to the face
  have clamp : ∀ (x m : ℝ), 0 ≤ m → |x| < m + E → ∃ y, |y| ≤ m ∧ |y - x| < E ∧ (|abs x - m| < E → ∃ z, |z| = m ∧ |z - x| < E) := by
    intro x m hm hx
    have sgn : |abs x - m| < E → ∃ z, |z| = m ∧ |z - x| < E := fun hh => by
      rcases le_total 0 x with h0 | h0
      · exact ⟨m, abs_of_nonneg hm, by rwa [abs_sub_comm, ← abs_of_nonneg h0]⟩
      · refine ⟨-m, by rw [abs_neg, abs_of_nonneg hm], ?_⟩
        rw [abs_of_nonpos h0] at hh
        rwa [show -m - x = -x - m by ring]
    by_cases hxm : |x| ≤ m
    · exact ⟨x, hxm, by simpa using E0, sgn⟩
    · push Not at hxm
      have : |abs x - m| < E := by rw [abs_of_pos (by linarith)]; linarith
      obtain ⟨z, hz, hz'⟩ := sgn this
      exact ⟨z, hz.le, hz', sgn⟩
  obtain ⟨y1, b1, d1, g1⟩ := clamp ((p - c).dot a1) e1 z1 (by rw [hE, ← add_assoc]; exact l1)
  obtain ⟨y2, b2, d2, g2⟩ := clamp ((p - c).dot a2) e2 z2 (by rw [hE, ← add_assoc]; exact l2)
  obtain ⟨y3, b3, d3, g3⟩ := clamp ((p - c).dot a3) e3 z3 (by rw [hE, ← add_assoc]; exact l3)
  have dist : ∀ w1 w2 w3 : ℝ, |w1 - (p - c).dot a1| < E → |w2 - (p - c).dot a2| < E → |w3 - (p - c).dot a3| < E →
      (c + w1 • a1 + w2 • a2 + w3 • a3 - p).norm < 2 * (eps + 6 / 2 ^ 53 * ((p - c).norm + eps) + 2 ^ (-1073 : ℤ)) := by
    intro w1 w2 w3 q1 q2 q3
    have ex := Orthonormal.expand ⟨f1, f2, f3, n12, n13, n23⟩ (p - c)
    have eq : c + w1 • a1 + w2 • a2 + w3 • a3 - p = (w1 - (p - c).dot a1) • a1 + (w2 - (p - c).dot a2) • a2 + (w3 - (p - c).dot a3) • a3 := by
      rw [V3.ext_iff] at ex
      obtain ⟨x1, x2, x3⟩ := ex
      simp only [V3.add_x, V3.add_y, V3.add_z, V3.sub_x, V3.sub_y, V3.sub_z, V3.smul_x, V3.smul_y, V3.smul_z] at x1 x2 x3
      ext
      · simp only [V3.add_x, V3.sub_x, V3.smul_x]; linarith
      · simp only [V3.add_y, V3.sub_y, V3.smul_y]; linarith
      · simp only [V3.add_z, V3.sub_z, V3.smul_z]; linarith
    rw [eq]
    refine lt_of_lt_of_le ?_ (mul_le_mul_of_nonneg_left hle zero_le_two)
    generalize w1 - (p - c).dot a1 = x at *
    generalize w2 - (p - c).dot a2 = y at *
    generalize w3 - (p - c).dot a3 = z at *
    have ns : (x • a1 + y • a2 + z • a3).normSq = x ^ 2 + y ^ 2 + z ^ 2 := by
      have s1 : a1.normSq = 1 := V3.normSq_of_unit f1
      have s2 : a2.normSq = 1 := V3.normSq_of_unit f2
      have s3 : a3.normSq = 1 := V3.normSq_of_unit f3
      simp only [V3.normSq, V3.dot, V3.add_x, V3.add_y, V3.add_z, V3.smul_x, V3.smul_y, V3.smul_z] at *
      linear_combination x ^ 2 * s1 + y ^ 2 * s2 + z ^ 2 * s3 + 2 * x * y * n12 + 2 * x * z * n13 + 2 * y * z * n23
    rw [V3.norm, ns, Real.sqrt_lt' (by linarith)]
    have sq : ∀ v : ℝ, |v| < E → v ^ 2 < E ^ 2 := fun v hv => sq_lt_sq.2 (by rwa [abs_of_pos E0])
    nlinarith [sq x q1, sq y q2, sq z q3]
  rcases hf with hf | hf | hf
  · obtain ⟨z, hz, hz'⟩ := g1 hf
    exact ⟨_, ⟨z, y2, y3, rfl, hz.le, b2, b3, Or.inl hz⟩, dist _ _ _ hz' d2 d3⟩
  · obtain ⟨z, hz, hz'⟩ := g2 hf
    exact ⟨_, ⟨y1, z, y3, rfl, b1, hz.le, b3, Or.inr (Or.inl hz)⟩, dist _ _ _ d1 hz' d3⟩
  · obtain ⟨z, hz, hz'⟩ := g3 hf
    exact ⟨_, ⟨y1, y2, z, rfl, b1, b2, hz.le, Or.inr (Or.inr hz)⟩, dist _ _ _ d1 d2 hz'⟩

theorem dotR_axes (o : Bool) {v : V3} (hx : Representable v.x) (hy : Representable v.y) (hz : Representable v.z) :
    dotR o v V3.X = v.x ∧ dotR o v V3.Y = v.y ∧ dotR o v V3.Z = v.z := by
  refine ⟨?_, ?_, ?_⟩ <;> cases o <;> simp [dotR, DVec.dot3, DVec.sum3, V3.X, V3.Y, V3.Z, rnd_zero, rnd_exact hx, rnd_exact hy, rnd_exact hz]

theorem within_axes : Within V3.X ∧ Within V3.Y ∧ Within V3.Z := by
  have o : Representable (1 : ℝ) ∧ |(1 : ℝ)| ≤ 2 ^ 499 := ⟨rep_one, by rw [abs_one]; exact one_le_pow₀ one_le_two⟩
  have z : Representable (0 : ℝ) ∧ |(0 : ℝ)| ≤ 2 ^ 499 := ⟨representable_zero, by rw [abs_zero]; positivity⟩
  exact ⟨⟨o, z, z⟩, ⟨z, o, z⟩, ⟨z, z, o⟩⟩

theorem along_axes (o : Bool) (p c : V3) : alongAxis o p c V3.X = |rnd (p.x - c.x)| ∧ alongAxis o p c V3.Y = |rnd (p.y - c.y)| ∧ alongAxis o p c V3.Z = |rnd (p.z - c.z)| := by
  obtain ⟨h1, h2, h3⟩ := dotR_axes o (v := diff3 p c) (rnd_representable _) (rnd_representable _) (rnd_representable _)
  exact ⟨by rw [alongAxis, h1]; rfl, by rw [alongAxis, h2]; rfl, by rw [alongAxis, h3]; rfl⟩

/-- **C136.** A cuboid along the axes of coordinates accepts every point of its faces whose offsets from the centre are doubles, whatever the tolerance; for instance every point of a face
if the centre is the origin. -/
theorem C136_faces (o : Bool) {eps : ℝ} (he : 0 < eps) {c p : V3} {e1 e2 e3 : ℝ} (hc : Within c) (hp : Within p) (k1 : |e1| ≤ 2 ^ 1000) (k2 : |e2| ≤ 2 ^ 1000) (k3 : |e3| ≤ 2 ^ 1000)
    (hx : Representable (p.x - c.x)) (hy : Representable (p.y - c.y)) (hz : Representable (p.z - c.z)) (h : p ∈ FaceSet c V3.X V3.Y V3.Z e1 e2 e3) :
    (cuboidD c V3.X V3.Y V3.Z e1 e2 e3).contains o (.fin eps) (doubles p) = .ok true := by
  obtain ⟨w1, w2, w3⟩ := within_axes
  obtain ⟨l1, l2, l3⟩ := along_axes o p c
  rw [rnd_exact hx] at l1
  rw [rnd_exact hy] at l2
  rw [rnd_exact hz] at l3
  obtain ⟨x, y, z, rfl, b1, b2, b3, hf⟩ := h
  simp only [V3.X, V3.Y, V3.Z, V3.add_x, V3.add_y, V3.add_z, V3.smul_x, V3.smul_y, V3.smul_z, mul_one, mul_zero, add_zero, add_sub_cancel_left] at l1 l2 l3
  obtain ⟨r, er, hr⟩ := cuboid_cases o eps hc hp w1 w2 w3 k1 k2 k3
  rw [er, hr.2]
  unfold faceTest
  simp only [V3.X, V3.Y, V3.Z] at l1 l2 l3 ⊢
  rw [l1, l2, l3]
  by_cases t1 : |rnd (|x| - e1)| < eps
  · exact Or.inl ⟨t1, b2, b3⟩
  by_cases t2 : |rnd (|y| - e2)| < eps
  · exact Or.inr (Or.inl ⟨t1, t2, b1, b3⟩)
  rcases hf with h | h | h
  · rw [h, sub_self, rnd_zero, abs_zero] at t1; exact absurd he t1
  · rw [h, sub_self, rnd_zero, abs_zero] at t2; exact absurd he t2
  · refine Or.inr (Or.inr ⟨t1, t2, ?_, b1, b2⟩)
    rw [h, sub_self, rnd_zero, abs_zero]; exact he

/-- **C136, violated.** A corner of the cube about (1, 1, 1) with extents 0.3, as it is computed by adding the extents to the centre, is refused whatever the tolerance. -/
theorem C136_corner_violated (o : Bool) (eps : ℝ) :
    (cuboidD ⟨1, 1, 1⟩ V3.X V3.Y V3.Z (rnd (3 / 10)) (rnd (3 / 10)) (rnd (3 / 10))).contains o (.fin eps) (doubles ⟨rnd (1 + rnd (3 / 10)), rnd (1 + rnd (3 / 10)), rnd (1 + rnd (3 / 10))⟩) =
      .ok false := by
  have e1 : rnd ((3 : ℝ) / 10) = 5404319552844595 * 2 ^ (-54 : ℤ) := by
    rw [rnd_eq 5404319552844595 (-54) (by norm_num) (by norm_num) (by norm_num) (by norm_num)]; norm_num
  have e2 : rnd (1 + rnd ((3 : ℝ) / 10)) = 5854679515581645 * 2 ^ (-52 : ℤ) := by
    rw [e1, rnd_eq 5854679515581645 (-52) (by norm_num) (by norm_num) (by norm_num) (by norm_num)]; norm_num
  have e3 : rnd (rnd (1 + rnd ((3 : ℝ) / 10)) - 1) = 5404319552844596 * 2 ^ (-54 : ℤ) := by
    rw [e2, rnd_eq 5404319552844596 (-54) (by norm_num) (by norm_num) (by norm_num) (by norm_num)]; norm_num
  have big : ∀ x : ℝ, |x| ≤ 2 → |x| ≤ 2 ^ 499 := fun x hx => hx.trans (le_self_pow₀ one_le_two (by norm_num))
  have w : Within ⟨rnd (1 + rnd (3 / 10)), rnd (1 + rnd (3 / 10)), rnd (1 + rnd (3 / 10))⟩ := by
    have : Representable (rnd (1 + rnd ((3 : ℝ) / 10))) ∧ |rnd (1 + rnd ((3 : ℝ) / 10))| ≤ 2 ^ 499 := ⟨rnd_representable _, big _ (by rw [e2]; norm_num)⟩
    exact ⟨this, this, this⟩
  have w1 : Within ⟨1, 1, 1⟩ := by
    have : Representable (1 : ℝ) ∧ |(1 : ℝ)| ≤ 2 ^ 499 := ⟨rep_one, big _ (by norm_num)⟩
    exact ⟨this, this, this⟩
  have k : |rnd ((3 : ℝ) / 10)| ≤ 2 ^ 1000 := by
    rw [e1]
    exact le_trans (by norm_num) (one_le_pow₀ one_le_two : (1 : ℝ) ≤ 2 ^ 1000)
  obtain ⟨wx, wy, wz⟩ := within_axes
  obtain ⟨l1, l2, l3⟩ := along_axes o ⟨rnd (1 + rnd (3 / 10)), rnd (1 + rnd (3 / 10)), rnd (1 + rnd (3 / 10))⟩ ⟨1, 1, 1⟩
  obtain ⟨r, er, hr⟩ := cuboid_cases o eps w1 w wx wy wz k k k
  rw [l1, l2, l3] at hr
  dsimp only at hr
  rw [e3] at hr
  have hlt : ¬ |(5404319552844596 : ℝ) * 2 ^ (-54 : ℤ)| ≤ rnd (3 / 10) := by rw [e1]; norm_num
  rw [er]
  congr 1
  rw [← Bool.not_eq_true, hr]
  tauto

/-- **C136, violated.** Cuboids that are equal for `operator ==` do not contain the same points: exchanging two axes with equal extents changes the answer near an edge. -/
theorem C136_order_violated (o : Bool) {eps : ℝ} (he : 2 ^ (-62 : ℤ) < eps) : ∃ c d : DCuboid, ∃ p : V3, c.eq d = true ∧ d.eq c = true ∧
    c.contains o (.fin eps) (doubles p) = .ok true ∧ d.contains o (.fin eps) (doubles p) = .ok false := by
  have big : ∀ x : ℝ, |x| ≤ 2 → |x| ≤ 2 ^ 499 := fun x hx => hx.trans (le_self_pow₀ one_le_two (by norm_num))
  have big' : ∀ x : ℝ, |x| ≤ 1 → |x| ≤ 2 ^ 1000 := fun x hx => hx.trans (one_le_pow₀ one_le_two)
  have ra : Representable ((2 : ℝ) ^ (-10 : ℤ)) := F64.representable_pow (by norm_num)
  have rb : Representable ((2 : ℝ) ^ (-10 : ℤ) + 2 ^ (-62 : ℤ)) := ⟨4503599627370497, -62, by norm_num, by norm_num, by norm_num⟩
  have rc : Representable ((2 : ℝ) ^ (-62 : ℤ)) := F64.representable_pow (by norm_num)
  have w : Within ⟨2 ^ (-10 : ℤ) + 2 ^ (-62 : ℤ), 2 ^ (-10 : ℤ), 0⟩ := ⟨⟨rb, big _ (by norm_num)⟩, ⟨ra, big _ (by norm_num)⟩, ⟨representable_zero, big _ (by norm_num)⟩⟩
  have k : |(2 : ℝ) ^ (-10 : ℤ)| ≤ 2 ^ 1000 := big' _ (by norm_num)
  obtain ⟨wx, wy, wz⟩ := within_axes
  obtain ⟨l1, l2, l3⟩ := along_axes o ⟨2 ^ (-10 : ℤ) + 2 ^ (-62 : ℤ), 2 ^ (-10 : ℤ), 0⟩ 0
  simp only [V3.zero_x, V3.zero_y, V3.zero_z, sub_zero, rnd_exact ra, rnd_exact rb, rnd_zero, abs_zero] at l1 l2 l3
  rw [abs_of_pos (by positivity)] at l1 l2
  have pos : (0 : ℝ) < 2 ^ (-62 : ℤ) := two_zpow_pos _
  have pos' : (0 : ℝ) < 2 ^ (-10 : ℤ) := two_zpow_pos _
  have e0 : 0 < eps := pos.trans he
  refine ⟨cuboidD 0 V3.X V3.Y V3.Z (2 ^ (-10 : ℤ)) (2 ^ (-10 : ℤ)) (2 ^ (-10 : ℤ)), cuboidD 0 V3.Y V3.X V3.Z (2 ^ (-10 : ℤ)) (2 ^ (-10 : ℤ)) (2 ^ (-10 : ℤ)),
    ⟨2 ^ (-10 : ℤ) + 2 ^ (-62 : ℤ), 2 ^ (-10 : ℤ), 0⟩, ?_, ?_, ?_, ?_⟩
  · rw [DCuboid.eq, cuboidD_defined, cuboidD_defined]
    simp [cuboidD, DCuboid.sameAxis, DVec.eq, DVec.neg, doubles, F64.eq, F64.neg, V3.X, V3.Y, V3.Z]
  · rw [DCuboid.eq, cuboidD_defined, cuboidD_defined]
    simp [cuboidD, DCuboid.sameAxis, DVec.eq, DVec.neg, doubles, F64.eq, F64.neg, V3.X, V3.Y, V3.Z]
  · obtain ⟨r, er, hr⟩ := cuboid_cases o eps within_zero w wx wy wz k k k
    rw [er, hr.2]
    unfold faceTest
    rw [l1, l2, l3, add_sub_cancel_left, rnd_exact rc, abs_of_pos pos]
    exact Or.inl ⟨he, le_rfl, pos'.le⟩
  · obtain ⟨r, er, hr⟩ := cuboid_cases o eps within_zero w wy wx wz k k k
    rw [er]
    congr 1
    rw [← Bool.not_eq_true, hr]
    unfold faceTest
    rw [l1, l2, l3, sub_self, rnd_zero, abs_zero]
    rintro (⟨-, hh, -⟩ | ⟨hh, -⟩ | ⟨hh, -⟩)
    · linarith
    · exact hh e0
    · exact hh e0

end Verif.Props

namespace Verif.Props

open Verif Verif.Spec Verif.Double

theorem tiny_norm {v : V3} {eps : ℝ} (he : 2 ^ (-100 : ℤ) ≤ eps) (h : eps ≤ v.normSq) : (2 : ℝ) ^ (-50 : ℤ) ≤ v.norm := by
  refine Real.le_sqrt_of_sq_le ?_
  rw [← zpow_natCast, ← zpow_mul]
  exact he.trans h

/-- the angle of the rounded offset -/
theorem between_offset (o : Bool) {eps : ℝ} (he : 2 ^ (-100 : ℤ) ≤ eps) (acos : ℝ → ℝ) (hacos : ArcCosine acos) {a d p : V3} (ha : Small a) (hp : Small p) (hd : Within d)
    (h1 : 4 * eps ≤ (p - a).normSq) (h2 : 2 * eps ≤ d.normSq) :
    ∃ r, DVec.between o (.fin eps) acos (doubles (diff3 p a)) (doubles d) = .ok (.fin r) ∧ Representable r ∧ 0 ≤ r ∧ r ≤ 7074237752028440 * 2 ^ (-51 : ℤ) ∧
      |r - Real.arccos (cosine (p - a) d)| ≤ 2 ^ (-22 : ℤ) := by
  have u0 := DQuat.u_pos
  have e0 : 0 < eps := lt_of_lt_of_le (two_zpow_pos _) he
  have ns := diff3_normSq hp.within ha.within
  have w := diff3_within hp ha
  have g1 : 2 * eps ≤ (diff3 p a).normSq := by linarith [ns.1]
  obtain ⟨s, hs⟩ := (C115_refused o eps he acos w hd).2 g1 h2
  obtain ⟨r, e, hr, r0, r1, -, rn⟩ := C115_angle o eps he acos hacos w hd (by rw [hs]; simp)
  refine ⟨r, e, hr, r0, r1, ?_⟩
  have v0 : 0 < (p - a).norm := V3.norm_pos (by linarith)
  have w0 : 0 < (diff3 p a).norm := V3.norm_pos (by linarith)
  have d0 : 0 < d.norm := V3.norm_pos (by linarith)
  have k := cosine_move v0 w0 d0 (diff3_near hp.within ha.within)
  have c1 := abs_le.1 (cosine_le_one (p - a) d)
  have c2 := abs_le.1 (cosine_le_one (diff3 p a) d)
  have m : |Real.arccos (cosine (diff3 p a) d) - Real.arccos (cosine (p - a) d)| ≤ 2 ^ (-23 : ℤ) := by
    refine DVec.angle_near (Real.arccos_nonneg _) (Real.arccos_le_pi _) (Real.arccos_nonneg _) (Real.arccos_le_pi _) ?_
    rw [Real.cos_arccos c1.1 c1.2, Real.cos_arccos c2.1 c2.2]
    refine k.trans ?_
    rw [DQuat.u]; norm_num
  have := abs_sub_le r (Real.arccos (cosine (diff3 p a) d)) (Real.arccos (cosine (p - a) d))
  have z : (2 : ℝ) ^ (-23 : ℤ) + 2 ^ (-23 : ℤ) = 2 ^ (-22 : ℤ) := by norm_num
  linarith

/-- **C136.** A cone accepts only points of the cone with a half-angle larger by `2 ^ -21` radians, and all points of the cones with a half-angle smaller by `2 ^ -21`; for a half-angle in
degrees below a full turn, and points that are not too near the apex. -/
theorem C136_cone (n : ℕ) (o : Bool) {eps : ℝ} (he : 2 ^ (-100 : ℤ) ≤ eps) (acos : ℝ → ℝ) (hacos : ArcCosine acos) {a d p : V3} {t : ℝ} (ha : Small a) (hp : Small p) (hd : Within d)
    (t0 : 0 ≤ t) (t1 : t < 360) (h1 : 4 * eps ≤ (p - a).normSq) (h2 : 2 * eps ≤ d.normSq) :
    ∃ r, (coneD a d t).contains n o (.fin eps) acos (doubles p) = some (.ok r) ∧
      (r = true → ∀ s, t * (Real.pi / 180) + 2 ^ (-21 : ℤ) ≤ s → s ≤ Real.pi → p ∈ ConeSet a d s) ∧
      (∀ s, 0 ≤ s → s + 2 ^ (-21 : ℤ) ≤ t * (Real.pi / 180) → s + 2 ^ (-21 : ℤ) ≤ Real.pi / 2 → p ∈ ConeSet a d s → r = true) := by
  have u0 := DQuat.u_pos
  have e0 : 0 < eps := lt_of_lt_of_le (two_zpow_pos _) he
  have v0 : 0 < (p - a).norm := V3.norm_pos (by linarith)
  have d0 : 0 < d.norm := V3.norm_pos (by linarith)
  have hne : p ≠ a := by
    rintro rfl
    rw [show p - p = 0 by ext <;> simp, V3.norm_zero] at v0
    exact lt_irrefl _ v0
  obtain ⟨r, e, hr, r0, r1, rn⟩ := between_offset o he acos hacos ha hp hd h1 h2
  obtain ⟨x, ex, hx⟩ := in_range_radian n hr r0 r1
  have pp := Real.pi_pos
  obtain ⟨n1, n2⟩ := abs_le.1 rn
  obtain ⟨x1, x2⟩ := abs_le.1 hx
  have z : (2 : ℝ) ^ (-22 : ℤ) + 2 ^ (-48 : ℤ) ≤ 2 ^ (-21 : ℤ) := by norm_num
  have z0 : (0 : ℝ) < 2 ^ (-21 : ℤ) := two_zpow_pos _
  rw [cone_cases n o eps acos t ha hp hd hne, e]
  simp only [ex, in_range_degree n t0 t1, F64.le]
  by_cases hs : dotR o (diff3 p a) d < 0
  · rw [if_pos hs]
    refine ⟨false, rfl, by simp, fun s s0 s1 s2 hm => ?_⟩
    exfalso
    rw [mem_cone v0 d0 s0 (by linarith)] at hm
    have hb := abs_le.1 (cosine_le_one (p - a) d)
    -- the cosine is well above zero
    have hc : (2 : ℝ) ^ (-22 : ℤ) ≤ cosine (p - a) d := by
      have k : Real.cos (Real.pi / 2 - 2 ^ (-21 : ℤ)) ≤ cosine (p - a) d := by
        have := Real.cos_le_cos_of_nonneg_of_le_pi (Real.arccos_nonneg (cosine (p - a) d)) (show Real.pi / 2 - 2 ^ (-21 : ℤ) ≤ Real.pi by linarith) (by linarith)
        rwa [Real.cos_arccos hb.1 hb.2] at this
      rw [Real.cos_pi_div_two_sub] at k
      refine le_trans ?_ k
      have := Real.mul_le_sin (x := 2 ^ (-21 : ℤ)) z0.le (by have := Real.pi_gt_three; norm_num; linarith)
      refine le_trans ?_ this
      have : 2 / Real.pi ≥ 1 / 2 := by
        rw [ge_iff_le, div_le_div_iff₀ (by norm_num) pp]
        linarith [Real.pi_le_four]
      calc (2 : ℝ) ^ (-22 : ℤ) = 1 / 2 * 2 ^ (-21 : ℤ) := by norm_num
        _ ≤ _ := mul_le_mul_of_nonneg_right this z0.le
    rw [cosine_eq, le_div_iff₀ (mul_pos v0 d0)] at hc
    have nr := (abs_le.1 (dot_near o hp.within ha.within d)).1
    rw [alongError] at nr
    have f1 := tiny_norm (v := p - a) he (by linarith)
    have f2 := tiny_norm (v := d) he (by linarith)
    have f3 : (2 : ℝ) ^ (-100 : ℤ) ≤ (p - a).norm * d.norm := by
      rw [show (-100 : ℤ) = -50 + -50 by norm_num, zpow_add₀ two_ne_zero]
      exact mul_le_mul f1 f2 (two_zpow_pos _).le v0.le
    have f4 : (2 : ℝ) ^ (-1073 : ℤ) ≤ 2 ^ (-53 : ℤ) * 2 ^ (-100 : ℤ) := by
      rw [← zpow_add₀ two_ne_zero]
      exact zpow_le_zpow_right₀ one_le_two (by norm_num)
    have f5 := mul_le_mul_of_nonneg_left f3 (two_zpow_pos (α := ℝ) (-53)).le
    have g0 := mul_pos v0 d0
    generalize (p - a).norm * d.norm = M at *
    have f6 := f4.trans f5
    generalize (2 : ℝ) ^ (-1073 : ℤ) = τ at *
    have : 5 / 2 ^ 53 * M + 2 ^ (-53 : ℤ) * M < 2 ^ (-22 : ℤ) * M := by
      rw [← add_mul]
      exact mul_lt_mul_of_pos_right (by norm_num) g0
    clear f3 f4 f5 z z0 n1 n2 x1 x2 s1 s2
    generalize 5 / 2 ^ 53 * M = m1 at *
    generalize (2 : ℝ) ^ (-53 : ℤ) * M = m2 at *
    generalize (2 : ℝ) ^ (-22 : ℤ) * M = m3 at *
    linarith
  · rw [if_neg hs]
    refine ⟨_, rfl, fun hh s s1 s2 => ?_, fun s s0 s1 s2 hm => ?_⟩
    · rw [decide_eq_true_eq] at hh
      have : x * (Real.pi / 180) ≤ t * (Real.pi / 180) := mul_le_mul_of_nonneg_right hh (by positivity)
      rw [mem_cone v0 d0 (le_trans (by positivity) s1) s2]
      generalize x * (Real.pi / 180) = X at *
      generalize t * (Real.pi / 180) = T at *
      generalize (2 : ℝ) ^ (-21 : ℤ) = z1 at *
      generalize (2 : ℝ) ^ (-22 : ℤ) = z2 at *
      generalize (2 : ℝ) ^ (-48 : ℤ) = z3 at *
      linarith
    · rw [decide_eq_true_eq]
      rw [mem_cone v0 d0 s0 (by linarith)] at hm
      have : x * (Real.pi / 180) ≤ t * (Real.pi / 180) := by
        generalize x * (Real.pi / 180) = X at *
        generalize t * (Real.pi / 180) = T at *
        generalize (2 : ℝ) ^ (-21 : ℤ) = z1 at *
        generalize (2 : ℝ) ^ (-22 : ℤ) = z2 at *
        generalize (2 : ℝ) ^ (-48 : ℤ) = z3 at *
        linarith
      exact le_of_mul_le_mul_right this (by positivity)

/-- **C136.** The apex is accepted, with any axis and any angle. -/
theorem C136_apex (n : ℕ) (o : Bool) (eps : F64 ℝ) (acos : ℝ → ℝ) (a d : V3) (t : DAngle ℝ) (ht : t.isDefined = true) :
    DCone.contains n o eps acos ⟨doubles a, doubles d, t⟩ (doubles a) = some (.ok true) := by
  simp [DCone.contains, DCone.isDefined, doubles_defined, ht, sub_point_eq.2 rfl]

/-- **C136, violated.** The point (2, 2, 0) is on the axis of the cone with the apex at the origin and the axis (1, 1, 0), and it is refused for half-angles up to `2 ^ -21` degrees. -/
theorem C136_axis_violated (n : ℕ) (o : Bool) {eps : ℝ} (he : eps ≤ 1) (acos : ℝ → ℝ) (hacos : ArcCosine acos) {t : ℝ} (t0 : 0 ≤ t) (t1 : t ≤ 2 ^ (-21 : ℤ)) :
    (coneD ⟨0, 0, 0⟩ ⟨1, 1, 0⟩ t).contains n o (.fin eps) acos (doubles ⟨2, 2, 0⟩) = some (.ok false) ∧ (⟨2, 2, 0⟩ : V3) ∈ ConeSet ⟨0, 0, 0⟩ ⟨1, 1, 0⟩ (t * (Real.pi / 180)) := by
  have R : ∀ m : ℤ, |m| ≤ 2 ^ 53 → Representable (m : ℝ) := fun m hm => representable_int hm
  have r1 : Representable (1 : ℝ) := rep_one
  have r2 : Representable (2 : ℝ) := by simpa using R 2 (by norm_num)
  have r4 : Representable (4 : ℝ) := by simpa using R 4 (by norm_num)
  have r8 : Representable (8 : ℝ) := by simpa using R 8 (by norm_num)
  have b : ∀ x : ℝ, |x| ≤ 2 → |x| ≤ 2 ^ 248 := fun x hx => hx.trans (le_self_pow₀ one_le_two (by norm_num))
  have b' : ∀ x : ℝ, |x| ≤ 2 → |x| ≤ 2 ^ 500 := fun x hx => hx.trans (le_self_pow₀ one_le_two (by norm_num))
  have z : Representable (0 : ℝ) ∧ |(0 : ℝ)| ≤ 2 ^ 248 := ⟨representable_zero, b _ (by norm_num)⟩
  have so : Small ⟨0, 0, 0⟩ := ⟨z, z, z⟩
  have sp : Small ⟨2, 2, 0⟩ := ⟨⟨r2, b _ (by norm_num)⟩, ⟨r2, b _ (by norm_num)⟩, z⟩
  have sd : Small ⟨1, 1, 0⟩ := ⟨⟨r1, b _ (by norm_num)⟩, ⟨r1, b _ (by norm_num)⟩, z⟩
  have df : diff3 ⟨2, 2, 0⟩ ⟨0, 0, 0⟩ = ⟨2, 2, 0⟩ := by simp [diff3, rnd_exact r2, rnd_zero]
  set k : ℝ := 6369051672525772 * 2 ^ (-53 : ℤ) with hk
  -- the square roots
  have l2 : (63690516725257725 : ℝ) / 10 * 2 ^ (-52 : ℤ) < Real.sqrt 2 := Real.lt_sqrt_of_sq_lt (by norm_num)
  have h2 : Real.sqrt 2 < (63690516725257735 : ℝ) / 10 * 2 ^ (-52 : ℤ) := (Real.sqrt_lt' (by norm_num)).2 (by norm_num)
  have l8 : (63690516725257725 : ℝ) / 10 * 2 ^ (-51 : ℤ) < Real.sqrt 8 := Real.lt_sqrt_of_sq_lt (by norm_num)
  have h8 : Real.sqrt 8 < (63690516725257735 : ℝ) / 10 * 2 ^ (-51 : ℤ) := (Real.sqrt_lt' (by norm_num)).2 (by norm_num)
  have q2 : rnd (Real.sqrt 2) = 6369051672525773 * 2 ^ (-52 : ℤ) := by
    have := rnd_eq (x := Real.sqrt 2) (6369051672525773 : ℤ) (-52) (by norm_num) (by rw [abs_of_nonneg (Real.sqrt_nonneg _)]; refine le_trans ?_ l2.le; norm_num)
      (by rw [abs_of_nonneg (Real.sqrt_nonneg _)]; refine h2.trans ?_; norm_num) (Or.inl (by
        rw [abs_lt]; norm_num at l2 h2 ⊢; constructor <;> linarith))
    rw [this]; norm_num
  have q8 : rnd (Real.sqrt 8) = 6369051672525773 * 2 ^ (-51 : ℤ) := by
    have := rnd_eq (x := Real.sqrt 8) (6369051672525773 : ℤ) (-51) (by norm_num) (by rw [abs_of_nonneg (Real.sqrt_nonneg _)]; refine le_trans ?_ l8.le; norm_num)
      (by rw [abs_of_nonneg (Real.sqrt_nonneg _)]; refine h8.trans ?_; norm_num) (Or.inl (by
        rw [abs_lt]; norm_num at l8 h8 ⊢; constructor <;> linarith))
    rw [this]; norm_num
  have k2 : rnd ((1 : ℝ) / (6369051672525773 * 2 ^ (-52 : ℤ))) = k := by
    rw [rnd_eq (6369051672525772 : ℤ) (-53) (by norm_num) (by norm_num) (by norm_num) (by norm_num)]
    rw [hk]; norm_num
  have k8 : rnd ((2 : ℝ) / (6369051672525773 * 2 ^ (-51 : ℤ))) = k := by
    rw [rnd_eq (6369051672525772 : ℤ) (-53) (by norm_num) (by norm_num) (by norm_num) (by norm_num)]
    rw [hk]; norm_num
  have kk : rnd (k * k) = 9007199254740990 * 2 ^ (-54 : ℤ) := by
    rw [hk, rnd_eq (9007199254740990 : ℤ) (-54) (by norm_num) (by norm_num) (by norm_num) (by norm_num)]
    norm_num
  have ks : rnd ((9007199254740990 : ℝ) * 2 ^ (-54 : ℤ) + 9007199254740990 * 2 ^ (-54 : ℤ)) = 1 - 2 ^ (-52 : ℤ) := by
    rw [rnd_eq (9007199254740990 : ℤ) (-53) (by norm_num) (by norm_num) (by norm_num) (by norm_num)]
    norm_num
  have d1 : DVec.dot3 o 1 1 0 1 1 0 = 2 := by rw [dot3_two, mul_one, rnd_exact r1, show (1 : ℝ) + 1 = 2 by norm_num, rnd_exact r2]
  have d2 : DVec.dot3 o 2 2 0 2 2 0 = 8 := by rw [dot3_two, show (2 : ℝ) * 2 = 4 by norm_num, rnd_exact r4, show (4 : ℝ) + 4 = 8 by norm_num, rnd_exact r8]
  have d3 : DVec.dot3 o 2 2 0 1 1 0 = 4 := by rw [dot3_two, mul_one, rnd_exact r2, show (2 : ℝ) + 2 = 4 by norm_num, rnd_exact r4]
  have d4 : DVec.dot3 o k k 0 k k 0 = 1 - 2 ^ (-52 : ℤ) := by rw [dot3_two, kk, ks]
  have zero : (0 : ℝ) ≤ 2 := zero_le_two
  have n1 : DVec.normalized o (doubles ⟨1, 1, 0⟩) = ⟨.fin k, .fin k, .fin 0⟩ := by
    have e := (DVec.dot_fin o (b' 1 (by norm_num)) (b' 1 (by norm_num)) (b' 0 (by norm_num)) (b' 1 (by norm_num)) (b' 1 (by norm_num)) (b' 0 (by norm_num))).1
    rw [d1] at e
    have t1 := (div_fin (a := 1) (n := 6369051672525773 * 2 ^ (-52 : ℤ)) (by norm_num) (by norm_num)).1
    have t0 := (div_fin (a := 0) (n := 6369051672525773 * 2 ^ (-52 : ℤ)) (by norm_num) (by norm_num)).1
    rw [k2] at t1
    simp only [DVec.normalized, DVec.squaredNorm, doubles, e, F64.lt, zero_lt_two, decide_true, if_true, F64.sqrt, if_neg (not_lt.2 zero), q2, DVec.div, t1, t0, zero_div, rnd_zero]
  have n2 : DVec.normalized o (doubles ⟨2, 2, 0⟩) = ⟨.fin k, .fin k, .fin 0⟩ := by
    have e := (DVec.dot_fin o (b' 2 (by norm_num)) (b' 2 (by norm_num)) (b' 0 (by norm_num)) (b' 2 (by norm_num)) (b' 2 (by norm_num)) (b' 0 (by norm_num))).1
    rw [d2] at e
    have t1 := (div_fin (a := 2) (n := 6369051672525773 * 2 ^ (-51 : ℤ)) (by norm_num) (by norm_num)).1
    have t0 := (div_fin (a := 0) (n := 6369051672525773 * 2 ^ (-51 : ℤ)) (by norm_num) (by norm_num)).1
    rw [k8] at t1
    have p8 : (0 : ℝ) < 8 := by norm_num
    simp only [DVec.normalized, DVec.squaredNorm, doubles, e, F64.lt, p8, decide_true, if_true, F64.sqrt, if_neg (not_lt.2 p8.le), q8, DVec.div, t1, t0, zero_div, rnd_zero]
  -- the angle found
  set c : ℝ := 1 - 2 ^ (-52 : ℤ) with hc
  have hcl : c ≤ 1 ∧ -1 < c ∧ c < 1 := by rw [hc]; norm_num
  have kb : |k| ≤ 2 := by rw [hk]; norm_num
  have bt : DVec.between o (.fin eps) acos (doubles ⟨2, 2, 0⟩) (doubles ⟨1, 1, 0⟩) = .ok (.fin (acos c)) := by
    rw [between_cases o eps acos sp.within sd.within]
    simp only [d1, d2]
    rw [if_neg (by push Not; constructor <;> linarith), if_neg (by norm_num), if_neg (by norm_num), n1, n2,
      (DVec.dot_fin o (b' _ kb) (b' _ kb) (b' 0 (by norm_num)) (b' _ kb) (b' _ kb) (b' 0 (by norm_num))).1, d4]
    simp only [F64.le, decide_eq_true_eq, if_neg (not_le.2 hcl.2.2), if_neg (not_le.2 hcl.2.1)]
  obtain ⟨hr, a0, a1, an⟩ := hacos c (abs_le.2 ⟨hcl.2.1.le, hcl.1⟩)
  have big : (2 : ℝ) ^ (-26 : ℤ) < Real.arccos c := by
    by_contra hle
    push Not at hle
    have h1 : Real.cos (2 ^ (-26 : ℤ)) ≤ c := by
      have := Real.cos_le_cos_of_nonneg_of_le_pi (Real.arccos_nonneg c) (by have := Real.pi_gt_three; norm_num; linarith) hle
      rwa [Real.cos_arccos hcl.2.1.le hcl.1] at this
    have h2 := Real.one_sub_sq_div_two_lt_cos (x := 2 ^ (-26 : ℤ)) (by norm_num)
    have h3 : c ≤ 1 - (2 ^ (-26 : ℤ)) ^ 2 / 2 := by rw [hc]; norm_num
    exact absurd (h1.trans h3) (not_le.2 h2)
  obtain ⟨x, ex, hx⟩ := in_range_radian n hr a0 a1
  constructor
  · rw [cone_cases n o eps acos t so sp sd.within (by intro h; have := congrArg V3.x h; norm_num at this), df]
    have dd : dotR o ⟨2, 2, 0⟩ ⟨1, 1, 0⟩ = 4 := d3
    rw [dd, if_neg (by norm_num), bt]
    simp only [ex, in_range_degree n t0 (lt_of_le_of_lt t1 (by norm_num)), F64.le]
    rw [decide_eq_false]
    intro hle
    have y1 := (abs_le.1 an).1
    have y2 := (abs_le.1 hx).1
    have pl := Real.pi_le_four
    have pp := Real.pi_pos
    have y3 : x * (Real.pi / 180) ≤ 2 ^ (-21 : ℤ) * (4 / 180) :=
      mul_le_mul (hle.trans t1) (by linarith) (by positivity) (by positivity)
    have y4 : (2 : ℝ) ^ (-21 : ℤ) * (4 / 180) + 2 ^ (-48 : ℤ) + 2 ^ (-51 : ℤ) ≤ 2 ^ (-26 : ℤ) := by norm_num
    clear_value c
    clear hc he k2 k8 kk ks d4 n1 n2 l2 h2 l8 h8
    generalize x * (Real.pi / 180) = X at *
    generalize (2 : ℝ) ^ (-21 : ℤ) * (4 / 180) = z1 at *
    generalize (2 : ℝ) ^ (-26 : ℤ) = z2 at *
    generalize (2 : ℝ) ^ (-48 : ℤ) = z3 at *
    generalize (2 : ℝ) ^ (-51 : ℤ) = z4 at *
    linarith
  · show Real.cos (t * (Real.pi / 180)) * (((⟨2, 2, 0⟩ : V3) - ⟨0, 0, 0⟩).norm * (⟨1, 1, 0⟩ : V3).norm) ≤ ((⟨2, 2, 0⟩ : V3) - ⟨0, 0, 0⟩).dot ⟨1, 1, 0⟩
    have m : ((⟨2, 2, 0⟩ : V3) - ⟨0, 0, 0⟩).norm * (⟨1, 1, 0⟩ : V3).norm = 4 := by
      rw [V3.norm, V3.norm, ← Real.sqrt_mul (V3.normSq_nonneg _)]
      have : ((⟨2, 2, 0⟩ : V3) - ⟨0, 0, 0⟩).normSq * (⟨1, 1, 0⟩ : V3).normSq = 4 ^ 2 := by simp [V3.normSq, V3.dot]; norm_num
      rw [this, Real.sqrt_sq (by norm_num)]
    have m2 : ((⟨2, 2, 0⟩ : V3) - ⟨0, 0, 0⟩).dot ⟨1, 1, 0⟩ = 4 := by simp [V3.dot]; norm_num
    rw [m, m2]
    linarith [Real.cos_le_one (t * (Real.pi / 180))]

/-- **C136.** A point on the axis side that differs from the apex and is so near to it that the squared distance is at most a quarter of `Real::Epsilon()` ends in an
error. -/
theorem C136_near_apex (n : ℕ) (o : Bool) {eps : ℝ} (he : 2 ^ (-100 : ℤ) ≤ eps) (acos : ℝ → ℝ) (t : ℝ) {a d p : V3} (ha : Small a) (hp : Small p) (hd : Within d) (hne : p ≠ a)
    (h1 : (p - a).normSq ≤ eps / 4) (h2 : alongError p a d ≤ (p - a).dot d) :
    (coneD a d t).contains n o (.fin eps) acos (doubles p) = some (.error .runtimeError) := by
  have w := diff3_within hp ha
  have ns := (diff3_normSq hp.within ha.within).2
  have e0 : 0 < eps := lt_of_lt_of_le (two_zpow_pos _) he
  have g := (C115_refused o eps he acos w hd).1 (Or.inl (show (diff3 p a).normSq ≤ eps / 2 by linarith))
  have nr := (abs_le.1 (dot_near o hp.within ha.within d)).1
  rw [cone_cases n o eps acos t ha hp hd hne, if_neg (not_lt.2 (by linarith)), g]

/-- **C136, violated.** With a half-angle of `2 ^ 55` turns or more the loops of the reduction do not end, for every point that is tested. -/
theorem C136_stuck_violated (n : ℕ) (o : Bool) {eps : ℝ} (he : 2 ^ (-100 : ℤ) ≤ eps) (acos : ℝ → ℝ) (hacos : ArcCosine acos) {a d p : V3} {t : ℝ} (ha : Small a) (hp : Small p) (hd : Within d)
    (ht : Representable t) (t1 : 2 ^ 55 * 360 ≤ t) (t2 : t < 2 ^ 1024) (h1 : 4 * eps ≤ (p - a).normSq) (h2 : 2 * eps ≤ d.normSq) (h3 : alongError p a d ≤ (p - a).dot d) :
    (coneD a d t).contains n o (.fin eps) acos (doubles p) = none := by
  have e0 : 0 < eps := lt_of_lt_of_le (two_zpow_pos _) he
  have v0 : 0 < (p - a).norm := V3.norm_pos (by linarith)
  have hne : p ≠ a := by
    rintro rfl
    rw [show p - p = 0 by ext <;> simp, V3.norm_zero] at v0
    exact lt_irrefl _ v0
  obtain ⟨r, e, hr, r0, r1, -⟩ := between_offset o he acos hacos ha hp hd h1 h2
  obtain ⟨x, ex, -⟩ := in_range_radian n hr r0 r1
  have nr := (abs_le.1 (dot_near o hp.within ha.within d)).1
  have r360 : Representable (360 : ℝ) := ⟨360, 0, by norm_num, by norm_num, by norm_num⟩
  have b360 : |(360 : ℝ)| < 2 ^ 1024 := lt_of_le_of_lt (b := 2 ^ 10) (by rw [abs_of_pos] <;> norm_num) (pow_lt_pow_right₀ one_lt_two (by norm_num))
  have hR : (F64.fin (360 : ℝ)).sub (.fin 0) = .fin 360 := by
    rw [DAngle.sub_fin, sub_zero, F64.ofExact_fin (by rwa [rnd_exact r360]), rnd_exact r360]
  have p0 : (0 : ℝ) ≤ t := le_trans (by norm_num) t1
  have st := C107_stuck_violated ht (by rwa [abs_of_nonneg p0]) hR (by norm_num) (Or.inr (le_trans (by norm_num) t1))
    (by rw [abs_of_pos (by norm_num : (0 : ℝ) < 360)]; exact t1.trans (le_abs_self t)) n
  rw [cone_cases n o eps acos t ha hp hd hne, if_neg (not_lt.2 (by linarith)), e]
  simp only [ex]
  simp [DAngle.inRange, full_turn, DAngle.turn, F64.eq, DAngle.inUnit, DAngle.isDefined, st]

/-- **C136.** An undefined point, cuboid or cone is refused. -/
theorem C136_undefined (n : ℕ) (o : Bool) (eps : F64 ℝ) (acos : ℝ → ℝ) (b : DCuboid) (c : DCone) (p : DVec) :
    (p.isDefined = false ∨ b.isDefined = false → b.contains o eps p = .error .undefined) ∧
    (p.isDefined = false ∨ c.isDefined = false → c.contains n o eps acos p = some (.error .undefined)) := by
  constructor
  · rintro (h | h) <;> rw [DCuboid.contains] <;> simp [h]
  · rintro (h | h) <;> rw [DCone.contains] <;> simp [h]

end Verif.Props

namespace Verif.Props

open Verif Verif.Spec Verif.Double

theorem within_face : Within ⟨1, 2⁻¹, 2 ^ (-2 : ℤ)⟩ := by
  have b : ∀ x : ℝ, |x| ≤ 1 → |x| ≤ 2 ^ 499 := fun x hx => hx.trans (one_le_pow₀ one_le_two)
  exact ⟨⟨rep_one, b _ (by norm_num)⟩, ⟨by simpa using F64.representable_pow (α := ℝ) (e := -1) (by norm_num), b _ (by norm_num)⟩,
    ⟨F64.representable_pow (by norm_num), b _ (by norm_num)⟩⟩

/-- a point of a face of the cube about the origin is accepted -/
theorem face_accepted (o : Bool) {eps : ℝ} (he : 0 < eps) : (cuboidD 0 V3.X V3.Y V3.Z 1 1 1).contains o (.fin eps) (doubles ⟨1, 2⁻¹, 2 ^ (-2 : ℤ)⟩) = .ok true := by
  have k : |(1 : ℝ)| ≤ 2 ^ 1000 := by rw [abs_one]; exact one_le_pow₀ one_le_two
  have w := within_face
  refine C136_faces o he within_zero w k k k (by simpa using w.x.1) (by simpa using w.y.1) (by simpa using w.z.1) ?_
  refine ⟨1, 2⁻¹, 2 ^ (-2 : ℤ), ?_, ?_, ?_, ?_, ?_⟩ <;> first | (left; norm_num) | norm_num [V3.ext_iff, V3.X, V3.Y, V3.Z]

example (o : Bool) : ∃ r, (cuboidD 0 V3.X V3.Y V3.Z 1 1 1).contains o (.fin (2 ^ (-52 : ℤ))) (doubles ⟨1, 2⁻¹, 2 ^ (-2 : ℤ)⟩) = .ok r ∧ r = true :=
  ⟨true, face_accepted o (two_zpow_pos _), rfl⟩

example (o : Bool) : ∃ q ∈ FaceSet 0 V3.X V3.Y V3.Z 1 1 1, (q - ⟨1, 2⁻¹, 2 ^ (-2 : ℤ)⟩).norm <
    2 * (2 ^ (-52 : ℤ) + 6 / 2 ^ 53 * (((⟨1, 2⁻¹, 2 ^ (-2 : ℤ)⟩ : V3) - 0).norm + 2 ^ (-52 : ℤ)) + 2 ^ (-1073 : ℤ)) :=
  C136_near o (two_zpow_pos _) within_zero within_face within_axes.1 within_axes.2.1 within_axes.2.2 rep_one rep_one rep_one
    (by rw [abs_one]; exact one_le_pow₀ one_le_two) (by rw [abs_one]; exact one_le_pow₀ one_le_two) (by rw [abs_one]; exact one_le_pow₀ one_le_two)
    (by refine ⟨?_, ?_, ?_, ?_, ?_, ?_⟩ <;> simp [V3.norm, V3.normSq, V3.dot, V3.X, V3.Y, V3.Z]) zero_le_one zero_le_one zero_le_one (face_accepted o (two_zpow_pos _))

theorem small_examples : Small 0 ∧ Small ⟨1, 0, 1⟩ ∧ Small ⟨2 ^ (-27 : ℤ), 0, 0⟩ := by
  have b : ∀ x : ℝ, |x| ≤ 1 → |x| ≤ 2 ^ 248 := fun x hx => hx.trans (one_le_pow₀ one_le_two)
  have z : Representable (0 : ℝ) ∧ |(0 : ℝ)| ≤ 2 ^ 248 := ⟨representable_zero, b _ (by norm_num)⟩
  have i : Representable (1 : ℝ) ∧ |(1 : ℝ)| ≤ 2 ^ 248 := ⟨rep_one, b _ (by norm_num)⟩
  exact ⟨⟨z, z, z⟩, ⟨i, z, i⟩, ⟨⟨F64.representable_pow (by norm_num), b _ (by norm_num)⟩, z, z⟩⟩

example (n : ℕ) (o : Bool) (acos : ℝ → ℝ) (hacos : ArcCosine acos) :
    ∃ r, (coneD 0 V3.X 60).contains n o (.fin (2 ^ (-52 : ℤ))) acos (doubles ⟨1, 0, 1⟩) = some (.ok r) ∧
      (r = true → ∀ s, 60 * (Real.pi / 180) + 2 ^ (-21 : ℤ) ≤ s → s ≤ Real.pi → (⟨1, 0, 1⟩ : V3) ∈ ConeSet 0 V3.X s) ∧
      (∀ s, 0 ≤ s → s + 2 ^ (-21 : ℤ) ≤ 60 * (Real.pi / 180) → s + 2 ^ (-21 : ℤ) ≤ Real.pi / 2 → (⟨1, 0, 1⟩ : V3) ∈ ConeSet 0 V3.X s → r = true) :=
  C136_cone n o (by norm_num) acos hacos small_examples.1 small_examples.2.1 within_axes.1 (by norm_num) (by norm_num) (by norm_num [V3.normSq, V3.dot]) (by norm_num [V3.normSq, V3.dot, V3.X])

example (n : ℕ) (o : Bool) (acos : ℝ → ℝ) : DCone.contains n o (.fin 0) acos ⟨doubles ⟨1, 0, 1⟩, doubles V3.X, ⟨.fin 30, .degree⟩⟩ (doubles ⟨1, 0, 1⟩) = some (.ok true) :=
  C136_apex n o _ acos _ _ _ (by simp [DAngle.isDefined])

/-- the points near the apex are points of the axis -/
theorem near_apex_example : alongError ⟨2 ^ (-27 : ℤ), 0, 0⟩ 0 V3.X ≤ ((⟨2 ^ (-27 : ℤ), 0, 0⟩ : V3) - 0).dot V3.X := by
  have e : ((⟨2 ^ (-27 : ℤ), 0, 0⟩ : V3) - 0).norm = 2 ^ (-27 : ℤ) := by
    rw [V3.norm, show ((⟨2 ^ (-27 : ℤ), 0, 0⟩ : V3) - 0).normSq = (2 ^ (-27 : ℤ)) ^ 2 by norm_num [V3.normSq, V3.dot], Real.sqrt_sq (by norm_num)]
  have f : V3.X.norm = 1 := by rw [V3.norm, show V3.X.normSq = 1 by norm_num [V3.normSq, V3.dot, V3.X], Real.sqrt_one]
  rw [alongError, e, f]
  have : (2 : ℝ) ^ (-1073 : ℤ) ≤ 2 ^ (-80 : ℤ) := zpow_le_zpow_right₀ one_le_two (by norm_num)
  have : ((⟨2 ^ (-27 : ℤ), 0, 0⟩ : V3) - 0).dot V3.X = 2 ^ (-27 : ℤ) := by norm_num [V3.dot, V3.X]
  rw [this]
  refine (add_le_add_right ‹(2 : ℝ) ^ (-1073 : ℤ) ≤ _› _).trans ?_
  norm_num

/-- **C136, violated.** A point of the axis at the distance `2 ^ -27` from the apex ends in an error. -/
theorem C136_apex_violated (n : ℕ) (o : Bool) (acos : ℝ → ℝ) : (coneD 0 V3.X 60).contains n o (.fin (2 ^ (-52 : ℤ))) acos (doubles ⟨2 ^ (-27 : ℤ), 0, 0⟩) = some (.error .runtimeError) ∧
    (⟨2 ^ (-27 : ℤ), 0, 0⟩ : V3) ∈ ConeSet 0 V3.X (60 * (Real.pi / 180)) := by
  refine ⟨C136_near_apex n o (by norm_num) acos 60 small_examples.1 small_examples.2.2 within_axes.1 ?_ ?_ near_apex_example, ?_⟩
  · intro h; have := congrArg V3.x h; norm_num at this
  · norm_num [V3.normSq, V3.dot]
  · show Real.cos _ * (((⟨2 ^ (-27 : ℤ), 0, 0⟩ : V3) - 0).norm * V3.X.norm) ≤ ((⟨2 ^ (-27 : ℤ), 0, 0⟩ : V3) - 0).dot V3.X
    have e : ((⟨2 ^ (-27 : ℤ), 0, 0⟩ : V3) - 0).norm = 2 ^ (-27 : ℤ) := by
      rw [V3.norm, show ((⟨2 ^ (-27 : ℤ), 0, 0⟩ : V3) - 0).normSq = (2 ^ (-27 : ℤ)) ^ 2 by norm_num [V3.normSq, V3.dot], Real.sqrt_sq (by norm_num)]
    have f : V3.X.norm = 1 := by rw [V3.norm, show V3.X.normSq = 1 by norm_num [V3.normSq, V3.dot, V3.X], Real.sqrt_one]
    have g : ((⟨2 ^ (-27 : ℤ), 0, 0⟩ : V3) - 0).dot V3.X = 2 ^ (-27 : ℤ) := by norm_num [V3.dot, V3.X]
    rw [e, f, g, mul_one]
    exact mul_le_of_le_one_left (two_zpow_pos _).le (Real.cos_le_one _)

end Verif.Props

namespace Verif.Props

open Verif Verif.Spec Verif.Double

/-- the hypotheses of `C136_stuck_violated` are met -/
example (n : ℕ) (o : Bool) (acos : ℝ → ℝ) (hacos : ArcCosine acos) : (coneD 0 V3.X (2 ^ 70)).contains n o (.fin (2 ^ (-60 : ℤ))) acos (doubles ⟨2 ^ (-27 : ℤ), 0, 0⟩) = none := by
  refine C136_stuck_violated n o (by norm_num) acos hacos small_examples.1 small_examples.2.2 within_axes.1 ?_ (by norm_num) (pow_lt_pow_right₀ one_lt_two (by norm_num)) ?_ ?_ near_apex_example
  · exact_mod_cast F64.representable_pow (α := ℝ) (e := 70) (by norm_num)
  · norm_num [V3.normSq, V3.dot]
  · norm_num [V3.normSq, V3.dot, V3.X]

open Classical in
/-- the equality of cuboids with finite doubles is that of the exact numbers -/
theorem cuboidD_eq (c a1 a2 a3 c' b1 b2 b3 : V3) (e1 e2 e3 f1 f2 f3 : ℝ) :
    (cuboidD c a1 a2 a3 e1 e2 e3).eq (cuboidD c' b1 b2 b3 f1 f2 f3) = (cub c a1 a2 a3 e1 e2 e3).eq (cub c' b1 b2 b3 f1 f2 f3) := by
  have v : ∀ a b : V3, (doubles a).eq (doubles b) = decide (a = b) := fun a b => by
    rw [Bool.eq_iff_iff]
    simp [DVec.eq, doubles, F64.eq, V3.ext_iff, and_assoc]
  have n : ∀ a : V3, (doubles a).neg = doubles (-a) := fun a => rfl
  have s : ∀ (a b : V3) (e f : ℝ), DCuboid.sameAxis (doubles a) (doubles b) (.fin e) (.fin f) = Cuboid3.sameAxis a b e f := fun a b e f => by
    rw [Bool.eq_iff_iff]
    simp [DCuboid.sameAxis, Cuboid3.sameAxis, v, n, F64.eq]
  rw [DCuboid.eq, cuboidD_defined, cuboidD_defined]
  simp only [cuboidD, v, s, Cuboid3.eq, cub, Cuboid3.need, Bool.not_true, Bool.or_self, Bool.false_eq_true, if_false, decide_eq_true_eq]

/-- equal axes with equal extents give the same multiples -/
theorem same_multiple {a b : V3} {e f x : ℝ} (h : Same a e b f) (hx : |x| ≤ e) : ∃ y : ℝ, |y| ≤ f ∧ x • a = y • b := by
  obtain ⟨r | r, rfl⟩ := h
  · exact ⟨x, hx, by rw [r]⟩
  · exact ⟨-x, by rwa [abs_neg], by rw [r]; ext <;> simp⟩

theorem same_symm {a b : V3} {e f : ℝ} (h : Same a e b f) : Same b f a e :=
  ⟨h.1.imp Eq.symm fun r => by rw [r]; ext <;> simp, h.2.symm⟩

/-- boxes whose axes are the same up to order and sign are the same -/
theorem sameAxes_sub {o a b c a' b' c' : V3} {e f g e' f' g' : ℝ} (h : SameAxes a b c e f g a' b' c' e' f' g') :
    BoxSet o a b c e f g ⊆ BoxSet o a' b' c' e' f' g' := by
  rintro p ⟨x, y, z, rfl, hx, hy, hz⟩
  rcases h with ⟨k1, k2, k3⟩ | ⟨k1, k2, k3⟩ | ⟨k1, k2, k3⟩ | ⟨k1, k2, k3⟩ | ⟨k1, k2, k3⟩ | ⟨k1, k2, k3⟩ <;>
    obtain ⟨x', hx', ex⟩ := same_multiple k1 hx <;> obtain ⟨y', hy', ey⟩ := same_multiple k2 hy <;> obtain ⟨z', hz', ez⟩ := same_multiple k3 hz <;>
    rw [ex, ey, ez]
  · exact ⟨x', y', z', rfl, hx', hy', hz'⟩
  · exact ⟨x', z', y', by ext <;> simp <;> ring, hx', hz', hy'⟩
  · exact ⟨y', x', z', by ext <;> simp <;> ring, hy', hx', hz'⟩
  · exact ⟨z', x', y', by ext <;> simp <;> ring, hz', hx', hy'⟩
  · exact ⟨y', z', x', by ext <;> simp <;> ring, hy', hz', hx'⟩
  · exact ⟨z', y', x', by ext <;> simp <;> ring, hz', hy', hx'⟩

theorem sameAxes_symm {a b c a' b' c' : V3} {e f g e' f' g' : ℝ} (h : SameAxes a b c e f g a' b' c' e' f' g') :
    SameAxes a' b' c' e' f' g' a b c e f g := by
  rcases h with ⟨k1, k2, k3⟩ | ⟨k1, k2, k3⟩ | ⟨k1, k2, k3⟩ | ⟨k1, k2, k3⟩ | ⟨k1, k2, k3⟩ | ⟨k1, k2, k3⟩ <;>
    have l1 := same_symm k1 <;> have l2 := same_symm k2 <;> have l3 := same_symm k3 <;> unfold SameAxes <;> tauto

/-- equal cuboids have the same axes up to order and sign, whatever the axes are -/
theorem eq_axes {o a b c o' a' b' c' : V3} {e f g e' f' g' : ℝ} (h : (cub o a b c e f g).eq (cub o' a' b' c' e' f' g') = true) :
    o = o' ∧ SameAxes a b c e f g a' b' c' e' f' g' := by
  simp only [Cuboid3.eq, cub, Cuboid3.need] at h
  split_ifs at h with h0 h1 h2 h3 h4 h5 h6 h7 h8 h9 <;> refine ⟨h0, ?_⟩ <;> simp only [← sameAxis_iff, SameAxes] <;> tauto

/-- **C136.** Equal cuboids are the same set of points, whatever their axes. With orthonormal axes and positive extents the converse holds. A
cuboid that is not defined is not equal to any. -/
theorem C136_equal :
    (∀ (c a1 a2 a3 c' b1 b2 b3 : V3) (e1 e2 e3 f1 f2 f3 : ℝ), (cuboidD c a1 a2 a3 e1 e2 e3).eq (cuboidD c' b1 b2 b3 f1 f2 f3) = true →
      BoxSet c a1 a2 a3 e1 e2 e3 = BoxSet c' b1 b2 b3 f1 f2 f3) ∧
      (∀ (c a1 a2 a3 c' b1 b2 b3 : V3) (e1 e2 e3 f1 f2 f3 : ℝ), Spec.Orthonormal a1 a2 a3 → Spec.Orthonormal b1 b2 b3 →
        0 < e1 → 0 < e2 → 0 < e3 → 0 < f1 → 0 < f2 → 0 < f3 → BoxSet c a1 a2 a3 e1 e2 e3 = BoxSet c' b1 b2 b3 f1 f2 f3 →
        (cuboidD c a1 a2 a3 e1 e2 e3).eq (cuboidD c' b1 b2 b3 f1 f2 f3) = true) ∧
      ∀ x y : DCuboid, x.isDefined = false ∨ y.isDefined = false → x.eq y = false := by
  refine ⟨fun c a1 a2 a3 c' b1 b2 b3 e1 e2 e3 f1 f2 f3 h => ?_,
    fun c a1 a2 a3 c' b1 b2 b3 e1 e2 e3 f1 f2 f3 h h' p1 p2 p3 q1 q2 q3 hb => by rw [cuboidD_eq]; exact (C51_eq h h' p1 p2 p3 q1 q2 q3).2 hb, fun x y h => ?_⟩
  · rw [cuboidD_eq] at h
    obtain ⟨rfl, k⟩ := eq_axes h
    exact Set.Subset.antisymm (sameAxes_sub k) (sameAxes_sub (sameAxes_symm k))
  · rcases h with h | h <;> simp [DCuboid.eq, h]

/-- a cuboid equal to itself with its first two axes exchanged and one of them turned round, and one not equal to itself with a longer extent -/
example : (cuboidD 0 V3.X V3.Y V3.Z 1 2 3).eq (cuboidD 0 V3.Y (-V3.X) V3.Z 2 1 3) = true ∧
    (cuboidD 0 V3.X V3.Y V3.Z 1 2 3).eq (cuboidD 0 V3.X V3.Y V3.Z 1 2 4) = false := by
  constructor <;> rw [DCuboid.eq, cuboidD_defined, cuboidD_defined] <;>
    simp [cuboidD, DCuboid.sameAxis, DVec.eq, DVec.neg, doubles, F64.eq, F64.neg, V3.X, V3.Y, V3.Z]

end Verif.Props
