import Verif.Props.Pyramid

/-!
# The lateral faces of a pyramid, their rays and their intersections (C81, C82)
-/

namespace Verif.Props

open Verif Verif.Spec Classical

set_option linter.flexible false

/-- two unit vectors that are not parallel, the unit normal of the two, and the unit vector perpendicular to the first on the side of the second -/
theorem fan_frame {u v : V3} (hu : u.norm = 1) (hv : v.norm = 1) (huv : u.cross v ≠ 0) :
    ∃ e w : V3, (u.cross v).normalized = e ∧ e.norm = 1 ∧ e.dot u = 0 ∧ e.cross u = w ∧ w.norm = 1 ∧ w.dot u = 0 ∧ 0 < Real.arccos (u.dot v) ∧
      Real.arccos (u.dot v) < Real.pi ∧ v = Real.cos (Real.arccos (u.dot v)) • u + Real.sin (Real.arccos (u.dot v)) • w := by
  have e1 := V3.normSq_of_unit hu
  have e2 := V3.normSq_of_unit hv
  have hc : 0 < (u.cross v).normSq := V3.normSq_pos_of_ne huv
  have hl : (u.cross v).normSq = 1 - u.dot v ^ 2 := by rw [V3.lagrange, e1, e2]; ring
  have hn := V3.norm_pos hc
  have hlo : -1 < u.dot v := by nlinarith
  have hhi : u.dot v < 1 := by nlinarith
  have hcos : Real.cos (Real.arccos (u.dot v)) = u.dot v := Real.cos_arccos hlo.le hhi.le
  have hsin : Real.sin (Real.arccos (u.dot v)) = (u.cross v).norm := by
    rw [Real.sin_arccos, V3.norm, hl]
  have he1 : (u.cross v).normalized.norm = 1 := V3.norm_normalized hc
  have he2 : (u.cross v).normalized.dot u = 0 := by
    rw [V3.normalized_eq hc]; simp [V3.dot]; ring
  have hw1 : ((u.cross v).normalized.cross u).norm = 1 := by
    apply V3.norm_of_normSq_one
    rw [V3.lagrange, V3.normSq_of_unit he1, e1, he2]; ring
  refine ⟨_, _, rfl, he1, he2, rfl, hw1, ?_, Real.arccos_pos.2 hhi, Real.arccos_lt_pi.2 hlo, ?_⟩
  · simp [V3.dot]; ring
  · rw [hcos, hsin, V3.normalized_eq hc]
    have hE : ∀ N : ℝ, 0 < N → (u.dot v) • u + N • ((1 / N) • u.cross v).cross u = (u.dot v) • u + (u.cross v).cross u := by
      intro N hN
      congr 1
      ext <;> simp <;> field_simp
    rw [hE _ hn]
    have e1' : u.x * u.x + u.y * u.y + u.z * u.z = 1 := e1
    ext <;> simp [V3.dot]
    · linear_combination -v.x * e1'
    · linear_combination -v.y * e1'
    · linear_combination -v.z * e1'

/-- the direction at the angle `θ` from `u` -/
noncomputable def leaned (u w : V3) (θ : ℝ) : V3 := Real.cos θ • u + Real.sin θ • w

theorem leaned_dot {u w : V3} (hu : u.norm = 1) (hw : w.norm = 1) (h : w.dot u = 0) (s t : ℝ) : (leaned u w s).dot (leaned u w t) = Real.cos (t - s) := by
  have e1 : u.x * u.x + u.y * u.y + u.z * u.z = 1 := V3.normSq_of_unit hu
  have e2 : w.x * w.x + w.y * w.y + w.z * w.z = 1 := V3.normSq_of_unit hw
  have e3 : w.x * u.x + w.y * u.y + w.z * u.z = 0 := h
  rw [Real.cos_sub]
  simp only [leaned, V3.dot, V3.add_x, V3.add_y, V3.add_z, V3.smul_x, V3.smul_y, V3.smul_z]
  linear_combination (Real.cos s * Real.cos t) * e1 + (Real.sin s * Real.sin t) * e2 + (Real.cos s * Real.sin t + Real.sin s * Real.cos t) * e3

theorem leaned_between {u w v : V3} {x : ℝ} (hx0 : 0 < x) (hx1 : x < Real.pi) (hv : v = leaned u w x) {θ : ℝ} (h0 : 0 ≤ θ) (h1 : θ ≤ x) :
    ∃ s t : ℝ, 0 ≤ s ∧ 0 ≤ t ∧ leaned u w θ = s • u + t • v := by
  have hs := Real.sin_pos_of_pos_of_lt_pi hx0 hx1
  refine ⟨Real.sin (x - θ) / Real.sin x, Real.sin θ / Real.sin x,
    div_nonneg (Real.sin_nonneg_of_nonneg_of_le_pi (by linarith) (by linarith)) hs.le,
    div_nonneg (Real.sin_nonneg_of_nonneg_of_le_pi h0 (by linarith)) hs.le, ?_⟩
  rw [hv, leaned, leaned, Real.sin_sub]
  ext <;> simp <;> field_simp <;> ring

/-- the angles of the rays of a face -/
theorem faceAngles_eq (x : ℝ) {n : ℕ} (hn : 1 ≤ n) :
    Pyramid3.rayAngles x n = .ok ((List.range n).map fun i : ℕ => (i : ℝ) * (x / ((n - 1 : ℕ) : ℝ))) := by
  unfold Pyramid3.rayAngles
  by_cases h : n > 1
  · rw [if_pos h]
    have : ¬ n < 2 := by omega
    simp [Interval.generateArrayWithSize, this, fill_eq, Nat.cast_sub hn]
  · obtain rfl : n = 1 := by omega
    simp

/-- the directions of a face -/
noncomputable def faceRay (u v : V3) (m j : ℕ) : V3 :=
  leaned u ((u.cross v).normalized.cross u) ((j : ℝ) * (Real.arccos (u.dot v) / ((m - 1 : ℕ) : ℝ)))

theorem faceRay_fan {u v : V3} (hu : u.norm = 1) (hv : v.norm = 1) (huv : u.cross v ≠ 0) {m : ℕ} (hm : 1 ≤ m) : Fan u v m (faceRay u v m) := by
  obtain ⟨e, w, he, he1, he2, hw, hw1, hw2, hx0, hx1, hvw⟩ := fan_frame hu hv huv
  have hf : ∀ j, faceRay u v m j = leaned u w ((j : ℝ) * (Real.arccos (u.dot v) / ((m - 1 : ℕ) : ℝ))) := fun j => by rw [faceRay, he, hw]
  refine ⟨fun j _ => ?_, ?_, fun h2 => ?_, fun j hj => ?_, fun j hj => ?_⟩
  · rw [hf]; exact (V3.unit_lean hu hw1 hw2 _).1
  · rw [hf]; ext <;> simp [leaned]
  · rw [hf, mul_div_cancel₀ _ (by simp; omega)]; exact hvw.symm
  · rw [hf]
    by_cases h1 : m = 1
    · obtain rfl : j = 0 := by omega
      exact ⟨1, 0, by norm_num, le_rfl, by ext <;> simp [leaned]⟩
    · have hmp : (0 : ℝ) < ((m - 1 : ℕ) : ℝ) := by exact_mod_cast (by omega : 0 < m - 1)
      have hjm : (j : ℝ) ≤ ((m - 1 : ℕ) : ℝ) := by exact_mod_cast (by omega : j ≤ m - 1)
      refine leaned_between hx0 hx1 hvw (by positivity) ?_
      rw [mul_div_assoc', div_le_iff₀ hmp]
      nlinarith
  · rw [hf, hf, leaned_dot hu hw1 hw2]
    congr 1
    push_cast; ring

theorem faceRays_eq {eps : ℝ} (h0 : 0 < eps) (h1 : eps ≤ 1) {p : Pyramid3} {i : ℕ} {a f s : V3} (hp : p.apex = some a)
    (hE : p.base.getEdgeAt i = .ok ⟨some f, some s⟩) (hfs : (f - a).cross (s - a) ≠ 0) {n : ℕ} (hn : 1 ≤ n) :
    ((f - a).normalized.norm = 1 ∧ (s - a).normalized.norm = 1 ∧ (f - a).normalized.cross (s - a).normalized ≠ 0) ∧
    p.getRaysOfLateralFaceAt eps i n =
      .ok ((List.range n).map fun j => ⟨some a, some (faceRay (f - a).normalized (s - a).normalized n j)⟩) := by
  have hf : f - a ≠ 0 := by rintro e; apply hfs; rw [e]; ext <;> simp
  have hs : s - a ≠ 0 := by rintro e; apply hfs; rw [e]; ext <;> simp
  have hf' := V3.normSq_pos_of_ne hf
  have hs' := V3.normSq_pos_of_ne hs
  have hu : (f - a).normalized.norm = 1 := V3.norm_normalized hf'
  have hv : (s - a).normalized.norm = 1 := V3.norm_normalized hs'
  have huv : (f - a).normalized.cross (s - a).normalized ≠ 0 := by
    intro e
    apply hfs
    rw [V3.normalized_eq hf', V3.normalized_eq hs'] at e
    have n1 := (V3.norm_pos hf').ne'
    have n2 := (V3.norm_pos hs').ne'
    generalize (f - a).norm = N at *
    generalize (s - a).norm = M at *
    have e' : (f - a).cross (s - a) = (N * M) • ((1 / N) • (f - a)).cross ((1 / M) • (s - a)) := by
      ext <;> simp <;> field_simp
    rw [e', e]; ext <;> simp
  refine ⟨⟨hu, hv, huv⟩, ?_⟩
  set u := (f - a).normalized with hud
  set v := (s - a).normalized with hvd
  obtain ⟨e, w, he, he1, he2, hw, hw1, hw2, hx0, hx1, hvw⟩ := fan_frame hu hv huv
  have hne : u ≠ v := by rintro e; apply huv; rw [e]; ext <;> simp <;> ring
  have hb := between3_eq eps h0 u v (by rw [V3.normSq_of_unit hu]; exact h1) (by rw [V3.normSq_of_unit hv]; exact h1)
  rw [hu, hv, mul_one, div_one] at hb
  have hrad : (⟨some (Real.arccos (u.dot v)), .radian⟩ : Angle).inUnit .radian = .ok (Real.arccos (u.dot v)) := by
    rw [inRadian (measures_radian _)]
    congr 1
    have := Real.pi_ne_zero
    field_simp
  unfold Pyramid3.getRaysOfLateralFaceAt
  simp only [hE, hp, Verif.need, bind, Except.bind, ← hud, ← hvd, if_neg hne, hb, hrad, faceAngles_eq _ hn, mapRes_map, he]
  refine mapRes_ok fun j _ => ?_
  obtain ⟨q, k1, k2, k3⟩ := cone_rotate eps h0 h1 e he1 _ _ (measures_radian ((j : ℝ) * (Real.arccos (u.dot v) / ((n - 1 : ℕ) : ℝ)))) u
  simp only [k1, k2, k3]
  have hg : ∀ θ : ℝ, Real.cos (2 * Real.pi * (θ / (2 * Real.pi))) • u + ((1 - Real.cos (2 * Real.pi * (θ / (2 * Real.pi)))) * e.dot u) • e +
      Real.sin (2 * Real.pi * (θ / (2 * Real.pi))) • e.cross u = leaned u w θ := by
    intro θ
    have := Real.pi_ne_zero
    rw [show 2 * Real.pi * (θ / (2 * Real.pi)) = θ by field_simp, he2, hw, leaned]
    ext <;> simp
  rw [hg, faceRay, he, hw]
  have := (V3.unit_lean hu hw1 hw2 ((j : ℝ) * (Real.arccos (u.dot v) / ((n - 1 : ℕ) : ℝ)))).1
  simp [Ray3.ctor, leaned, V3.normSq_of_unit this]

/-- **C81.** The rays of a lateral face whose edge does not run through the apex: `n` of them, from the apex, fanned out evenly from the first end of the edge to the
second one, and all in the face. -/
theorem C81_rays (eps : ℝ) (h0 : 0 < eps) (h1 : eps ≤ 1) (p : Pyramid3) (i n : ℕ) (hn : 1 ≤ n) (a f s : V3) (hp : p.apex = some a)
    (hE : p.base.getEdgeAt i = .ok ⟨some f, some s⟩) (hfs : (f - a).cross (s - a) ≠ 0) :
    ∃ g : ℕ → V3, p.getRaysOfLateralFaceAt eps i n = .ok ((List.range n).map fun j => ⟨some a, some (g j)⟩) ∧
      Fan (f - a).normalized (s - a).normalized n g ∧ (∀ j < n, RaySet a (g j) ⊆ PyramidSet a (SegSet f s)) ∧
      f ∈ RaySet a (g 0) ∧ (2 ≤ n → s ∈ RaySet a (g (n - 1))) := by
  obtain ⟨⟨hu, hv, huv⟩, hr⟩ := faceRays_eq h0 h1 hp hE hfs hn
  have hfan := faceRay_fan hu hv huv hn
  have hf : f - a ≠ 0 := by rintro e; apply hfs; rw [e]; ext <;> simp
  have hs : s - a ≠ 0 := by rintro e; apply hfs; rw [e]; ext <;> simp
  have hf' := V3.norm_pos_of_ne hf
  have hs' := V3.norm_pos_of_ne hs
  have ends : ∀ q : V3, q - a ≠ 0 → q ∈ RaySet a (q - a).normalized := by
    intro q hq
    have hn := V3.norm_pos_of_ne hq
    refine ⟨(q - a).norm, hn.le, ?_⟩
    rw [V3.normalized_eq (V3.normSq_pos_of_ne hq)]
    generalize (q - a).norm = N at *
    ext <;> simp <;> field_simp <;> ring
  refine ⟨_, hr, hfan, fun j hj => ?_, ?_, fun h2 => ?_⟩
  · obtain ⟨k, l, hk, hl, e⟩ := hfan.between j hj
    have hunit := hfan.unit j hj
    generalize faceRay (f - a).normalized (s - a).normalized n j = g at *
    rw [V3.normalized_eq (V3.normSq_pos_of_ne hf), V3.normalized_eq (V3.normSq_pos_of_ne hs)] at e
    rintro q ⟨t, ht, rfl⟩
    by_cases hqa : t = 0
    · left; subst hqa; ext <;> simp
    right
    have ht' : 0 < t := lt_of_le_of_ne ht (Ne.symm hqa)
    set K := k / (f - a).norm with hK
    set L := l / (s - a).norm with hL
    have hK0 : 0 ≤ K := div_nonneg hk hf'.le
    have hL0 : 0 ≤ L := div_nonneg hl hs'.le
    have hKL : 0 < K + L := by
      rcases hK0.lt_or_eq with h | h
      · linarith
      rcases hL0.lt_or_eq with h' | h'
      · linarith
      exfalso
      rw [eq_comm, hK, div_eq_zero_iff] at h
      rw [eq_comm, hL, div_eq_zero_iff] at h'
      have ek := h.resolve_right hf'.ne'
      have el := h'.resolve_right hs'.ne'
      rw [e, ek, el] at hunit
      have : ((0 : ℝ) • (1 / (f - a).norm) • (f - a) + (0 : ℝ) • (1 / (s - a).norm) • (s - a)) = 0 := by ext <;> simp
      rw [this, V3.norm_zero] at hunit
      norm_num at hunit
    have e2 : g = K • (f - a) + L • (s - a) := by
      rw [e, hK, hL]
      ext <;> simp <;> ring
    rw [e2]
    refine ⟨a + (1 / (K + L)) • (K • (f - a) + L • (s - a)), ⟨1 / (t * (K + L)), by positivity, ?_⟩, ⟨L / (K + L), by positivity, ?_, ?_⟩⟩
    · ext <;> simp <;> field_simp
    · rw [div_le_one hKL]; linarith
    · ext <;> simp <;> field_simp <;> ring
  · rw [hfan.first]; exact ends f hf
  · rw [hfan.last h2]; exact ends s hs

example : let f : V3 := ⟨1, 1, 1⟩; let s : V3 := ⟨-1, 1, 1⟩; let a : V3 := 0; (f - a).cross (s - a) ≠ 0 := by
  intro f s a e
  have := congrArg V3.y e
  norm_num [f, s, a] at this

/-- **C81.** If the two ends of the edge are seen from the apex in the same direction the face has a single ray whatever the count; if the edge runs through the
apex the rays are refused; and so they are if there is no such edge. -/
theorem C81_degenerate (eps : ℝ) (h0 : 0 < eps) (h1 : eps < 1) (p : Pyramid3) (i n : ℕ) (a : V3) (hp : p.apex = some a) :
    (∀ f s : V3, p.base.getEdgeAt i = .ok ⟨some f, some s⟩ → f ≠ a → (∃ k : ℝ, 0 < k ∧ s - a = k • (f - a)) →
      ∃ u : V3, u.norm = 1 ∧ f ∈ RaySet a u ∧ s ∈ RaySet a u ∧ p.getRaysOfLateralFaceAt eps i n = .ok [⟨some a, some u⟩]) ∧
    (∀ f s : V3, p.base.getEdgeAt i = .ok ⟨some f, some s⟩ → a ∈ SegSet f s → ∃ r, p.getRaysOfLateralFaceAt eps i n = .error r) ∧
    (∀ r, p.base.getEdgeAt i = .error r → p.getRaysOfLateralFaceAt eps i n = .error r ∧ (p.isDefined = true → p.getLateralFaceAt eps i = .error r)) := by
  refine ⟨?_, ?_, ?_⟩
  · rintro f s hE hf ⟨k, hk, hs⟩
    have hf0 : f - a ≠ 0 := fun e => hf (V3.sub_eq_zero'.1 e)
    have hfp := V3.normSq_pos_of_ne hf0
    have hn := V3.norm_pos hfp
    have hu : (f - a).normalized.norm = 1 := V3.norm_normalized hfp
    have e : f - a = (f - a).norm • (f - a).normalized := by
      rw [V3.normalized_eq hfp]
      generalize (f - a).norm = N at *
      ext <;> simp <;> field_simp
    refine ⟨(f - a).normalized, hu, ⟨(f - a).norm, hn.le, ?_⟩, ⟨k * (f - a).norm, by positivity, ?_⟩, ?_⟩
    · rw [← e]; ext <;> simp
    · have : (k * (f - a).norm) • (f - a).normalized = k • (f - a) := by
        conv_rhs => rw [e]
        ext <;> simp <;> ring
      rw [this, ← hs]; ext <;> simp
    · have hv : (s - a).normalized = (f - a).normalized := by rw [hs, V3.normalized_smul hk hfp]
      simp [Pyramid3.getRaysOfLateralFaceAt, hE, hp, Verif.need, bind, Except.bind, hv, pure, Except.pure, Ray3.ctor, V3.normSq_of_unit hu]
  · rintro f s hE ⟨t, ht0, ht1, ht⟩
    have n0 : V3.normalized 0 = 0 := by simp [V3.normalized, V3.normSq, V3.dot]
    have q0 : V3.normSq 0 = 0 := by simp [V3.normSq, V3.dot]
    simp only [Pyramid3.getRaysOfLateralFaceAt, hE, hp, Verif.need, bind, Except.bind, pure, Except.pure]
    by_cases hfa : f - a = 0
    · rw [hfa, n0]
      by_cases hsa : s - a = 0
      · rw [hsa, n0]
        exact ⟨.wrong, by simp [Ray3.ctor, q0]⟩
      · have hv := V3.norm_normalized (V3.normSq_pos_of_ne hsa)
        have hne : (0 : V3) ≠ (s - a).normalized := (V3.ne_zero_of_unit hv).symm
        exact ⟨.runtimeError, by simp [hne, Angle.Between3, q0, h0]⟩
    by_cases hsa : s - a = 0
    · rw [hsa, n0]
      have hv := V3.norm_normalized (V3.normSq_pos_of_ne hfa)
      have hne : (f - a).normalized ≠ 0 := V3.ne_zero_of_unit hv
      exact ⟨.runtimeError, by simp [hne, Angle.Between3, q0, h0]⟩
    have hfp := V3.normSq_pos_of_ne hfa
    have hu := V3.norm_normalized hfp
    -- the two directions are opposite
    have ht0' : 0 < t := by
      refine lt_of_le_of_ne ht0 fun e => hfa ?_
      rw [ht, ← e]; ext <;> simp
    have ht1' : t < 1 := by
      refine lt_of_le_of_ne ht1 fun e => hsa ?_
      rw [ht, e]; ext <;> simp
    have hopp : s - a = ((1 - t) / t) • -(f - a) := by
      have hx := congrArg V3.x ht
      have hy := congrArg V3.y ht
      have hz := congrArg V3.z ht
      simp at hx hy hz
      ext <;> simp <;> field_simp
      · linear_combination -hx
      · linear_combination -hy
      · linear_combination -hz
    have hneg : 0 < (-(f - a)).normSq := by
      have : (-(f - a)).normSq = (f - a).normSq := by simp [V3.normSq, V3.dot]; ring
      rw [this]; exact hfp
    have hv : (s - a).normalized = -(f - a).normalized := by
      rw [hopp, V3.normalized_smul (div_pos (by linarith) ht0') hneg, V3.normalized_eq hneg, V3.normalized_eq hfp]
      have : (-(f - a)).norm = (f - a).norm := by rw [V3.norm, V3.norm]; congr 1; simp [V3.normSq, V3.dot]; ring
      rw [this]
      ext <;> simp <;> ring
    rw [hv]
    generalize (f - a).normalized = u at *
    have hu2 := V3.normSq_of_unit hu
    have hu2' : (-u).normSq = 1 := by rw [← hu2]; simp [V3.normSq, V3.dot]
    have hne : u ≠ -u := by
      intro e
      apply V3.ne_zero_of_unit hu
      have hx := congrArg V3.x e
      have hy := congrArg V3.y e
      have hz := congrArg V3.z e
      simp only [V3.neg_x, V3.neg_y, V3.neg_z] at hx hy hz
      ext <;> simp <;> linarith
    have hb : Angle.Between3 eps (some u) (some (-u)) = .ok Angle.Pi := by
      have h2 : u = - -u := by ext <;> simp
      have h3 : ¬ (1 : ℝ) < eps := not_lt.2 h1.le
      simp only [Angle.Between3, hu2, hu2', h3, or_self, if_false, if_neg hne]
      rw [if_pos h2]
    obtain ⟨x, hx⟩ : ∃ x, Angle.Pi.inUnit .radian = .ok x := ⟨_, by rfl⟩
    have hax : (u.cross (-u)).normalized = 0 := by
      have : u.cross (-u) = 0 := by ext <;> simp <;> ring
      rw [this, n0]
    have hmk : ∀ t, RotVec.mk1 eps (some 0) t = .error .runtimeError := by
      intro t; simp [RotVec.mk1, h1]
    have hang : ∃ y l, Pyramid3.rayAngles x n = .ok (y :: l) := by
      unfold Pyramid3.rayAngles
      by_cases hn : n > 1
      · have hn2 : ¬ n < 2 := by omega
        obtain ⟨m, rfl⟩ : ∃ m, n = m + 1 := ⟨n - 1, by omega⟩
        simp only [hn, if_true, Interval.generateArrayWithSize, hn2, if_false, fill_eq, List.range_succ_eq_map, List.map_cons]
        exact ⟨_, _, rfl⟩
      · rw [if_neg hn]; exact ⟨_, _, rfl⟩
    obtain ⟨y, l, hang⟩ := hang
    refine ⟨.runtimeError, ?_⟩
    simp only [if_neg hne, hb, hx, hang, hax, mapRes, hmk, bind, Except.bind]
  · intro r hr
    refine ⟨?_, fun hd => ?_⟩
    · simp only [Pyramid3.getRaysOfLateralFaceAt, hr, bind, Except.bind]
    · simp [Pyramid3.getLateralFaceAt, hd, hr, bind, Except.bind]

/-- **C81.** An apex off the plane of an edge of positive length is not in line with the edge. -/
theorem C81_apart (n o a f s : V3) (hf : n.dot (f - o) = 0) (hs : n.dot (s - o) = 0) (ha : n.dot (a - o) ≠ 0) (hne : f ≠ s) : (f - a).cross (s - a) ≠ 0 := by
  intro hc
  have hx := congrArg V3.x hc
  have hy := congrArg V3.y hc
  have hz := congrArg V3.z hc
  simp only [V3.cross_x, V3.cross_y, V3.cross_z, V3.sub_x, V3.sub_y, V3.sub_z, V3.zero_x, V3.zero_y, V3.zero_z] at hx hy hz
  simp only [V3.dot, V3.sub_x, V3.sub_y, V3.sub_z] at hf hs ha
  apply hne
  have key : ∀ d, d * (n.x * (a.x - o.x) + n.y * (a.y - o.y) + n.z * (a.z - o.z)) = 0 → d = 0 := fun d h => (mul_eq_zero.1 h).resolve_right ha
  ext <;> rw [← sub_eq_zero] <;> apply key
  · linear_combination (f.x - a.x) * hs - (s.x - a.x) * hf - n.y * hz + n.z * hy
  · linear_combination (f.y - a.y) * hs - (s.y - a.y) * hf - n.z * hx + n.x * hz
  · linear_combination (f.z - a.z) * hs - (s.z - a.z) * hf - n.x * hy + n.y * hx

/-- **C81.** The lateral face over an edge that is not in line with the apex is the triangle of the apex and the two ends; its normal is oriented from the first end to
the second one. -/
theorem C81_face (eps : ℝ) (h0 : 0 < eps) (h1 : eps < 1) (p : Pyramid3) (i : ℕ) (a f s : V3) (hd : p.isDefined = true) (hp : p.apex = some a)
    (hE : p.base.getEdgeAt i = .ok ⟨some f, some s⟩) (hfs : (f - a).cross (s - a) ≠ 0) :
    ∃ (q : Polygon3) (n : V3), p.getLateralFaceAt eps i = .ok q ∧ q.isDefined = true ∧ q.getVertices = .ok [a, s, f] ∧
      q.getNormalVector = .ok n ∧ n.norm = 1 ∧ n.dot (f - a) = 0 ∧ n.dot (s - a) = 0 ∧ 0 < n.dot ((f - a).cross (s - a)) := by
  obtain ⟨⟨hu, hv, huv⟩, -⟩ := faceRays_eq h0 h1.le hp hE hfs (n := 1) le_rfl
  have hf : f - a ≠ 0 := by rintro e; apply hfs; rw [e]; ext <;> simp
  have hs : s - a ≠ 0 := by rintro e; apply hfs; rw [e]; ext <;> simp
  have hf' := V3.norm_pos_of_ne hf
  have hs' := V3.norm_pos_of_ne hs
  have ef : ∀ {y : V3}, y ≠ 0 → y = y.norm • y.normalized := by
    intro y hy
    have hn := V3.norm_pos_of_ne hy
    rw [V3.normalized_eq (V3.normSq_pos_of_ne hy)]
    generalize y.norm = N at *
    ext <;> simp <;> field_simp
  have e1 := ef hf
  have e2 := ef hs
  obtain ⟨e, w, he, he1, he2, hw, hw1, hw2, hx0, hx1, hvw⟩ := fan_frame hu hv huv
  have hww : (((f - a).normalized.cross (s - a).normalized).cross (f - a).normalized).normalized = w := by
    have := ef huv
    rw [he] at this
    rw [this]
    have : ∀ k : ℝ, (k • e).cross (f - a).normalized = k • w := by intro k; rw [← hw]; ext <;> simp <;> ring
    rw [this, V3.normalized_smul (V3.norm_pos_of_ne huv) (by rw [V3.normSq_of_unit hw1]; norm_num), V3.normalized_of_unit (V3.normSq_of_unit hw1)]
  unfold Pyramid3.getLateralFaceAt
  simp only [hd, hE, hp, Verif.need, bind, Except.bind, Bool.not_true, Bool.false_eq_true, if_false, hww]
  have hes : s - f = (s - a) - (f - a) := by ext <;> simp
  have hcr : (f - a).cross (s - a) = ((f - a).norm * (s - a).norm * Real.sin (Real.arccos ((f - a).normalized.dot (s - a).normalized))) •
      (f - a).normalized.cross w := by
    conv_lhs => rw [e1, e2, hvw]
    ext <;> simp <;> ring
  rw [hes]
  have hsin := Real.sin_pos_of_pos_of_lt_pi hx0 hx1
  have hsp : s = a + (s - a) := by ext <;> simp
  have hfp : f = a + (f - a) := by ext <;> simp
  rw [hsp, hfp]
  have ha' : ∀ z : V3, a + z - a = z := fun z => by ext <;> simp
  simp only [ha'] at *
  generalize s - a = S at *
  generalize f - a = F at *
  generalize F.normalized = u at *
  generalize S.normalized = v at *
  generalize F.norm = N at *
  generalize S.norm = M at *
  generalize Real.arccos (u.dot v) = x at *
  have u1 := V3.normSq_of_unit hu
  have w1 := V3.normSq_of_unit hw1
  have su : (S - F).dot u = M * Real.cos x - N := by
    rw [e2, e1, hvw]
    have u1' : u.x * u.x + u.y * u.y + u.z * u.z = 1 := u1
    have w2' : w.x * u.x + w.y * u.y + w.z * u.z = 0 := hw2
    simp [V3.dot]
    linear_combination (M * Real.cos x - N) * u1' + M * Real.sin x * w2'
  have sw : (S - F).dot w = M * Real.sin x := by
    rw [e2, e1, hvw]
    have w1' : w.x * w.x + w.y * w.y + w.z * w.z = 1 := w1
    have w2' : w.x * u.x + w.y * u.y + w.z * u.z = 0 := hw2
    simp [V3.dot]
    linear_combination (M * Real.sin x) * w1' + (M * Real.cos x - N) * w2'
  rw [su, sw]
  obtain ⟨P, hP1, hP2, hP3⟩ := C58_vertices [0, ⟨N, 0⟩, ⟨N + (M * Real.cos x - N), M * Real.sin x⟩] [0, ⟨N, 0⟩, ⟨N + (M * Real.cos x - N), M * Real.sin x⟩] [] []
    (by simp) (by simp) (by
      left
      refine ⟨rfl, ?_⟩
      simp [V2.ext_iff]
      intro _
      exact ⟨hs'.ne', hsin.ne'⟩) .nil
  have hof : Polygon2.ofPoints [some 0, some ⟨N, 0⟩, some ⟨N + (M * Real.cos x - N), M * Real.sin x⟩] = .ok P := by
    rw [← hP1, Polygon2.ctor]
    simp only [List.map_cons, List.map_nil, bind, Except.bind]
    cases Polygon2.ofPoints [some 0, some ⟨N, 0⟩, some ⟨N + (M * Real.cos x - N), M * Real.sin x⟩] <;> rfl
  rw [hof]
  have harea : ringArea [0, ⟨N, 0⟩, ⟨N + (M * Real.cos x - N), M * Real.sin x⟩] < 0 := by
    simp [ringArea]
    positivity
  rw [if_pos harea] at hP3
  have hu0 := V3.ne_zero_of_unit hu
  have hw0 := V3.ne_zero_of_unit hw1
  have huw : u.dot w = 0 := by rw [V3.dot_comm]; exact hw2
  obtain ⟨q, hq⟩ : ∃ q, Polygon3.ctor eps P (some a) (some u) (some w) = .ok q := by
    have : ¬ |u.dot w| > eps := by rw [huw, abs_zero]; exact not_lt.2 h0.le
    simp only [Polygon3.ctor, Option.map_some, V3.normalized_of_unit u1, V3.normalized_of_unit w1, if_neg this]
    exact ⟨_, rfl⟩
  obtain ⟨E, n, c1, c2, c3, -, -, c4, c5, c6, c7, c8, -, c9, -⟩ := C59_placed eps h1 P hP2 a u w hu0 hw0 q hq
  refine ⟨q, n, hq, c1, ?_, c4, c5, ?_, ?_, ?_⟩
  · rw [c9 _ hP3]
    simp only [turnedRing, List.reverse_cons, List.reverse_nil, List.nil_append, List.flatten_nil, List.append_nil, List.map_cons, List.map_nil, List.cons_append,
      c3, hu, hw1]
    congr 2
    · ext <;> simp
    congr 1
    · conv_rhs => rw [e2, hvw]
      ext <;> simp <;> ring
    congr 1
    conv_rhs => rw [e1]
    ext <;> simp
  · rw [e1, V3.dot_smul, c6]; ring
  · rw [e2, hvw]
    have c6' : n.x * u.x + n.y * u.y + n.z * u.z = 0 := c6
    have c7' : n.x * w.x + n.y * w.y + n.z * w.z = 0 := c7
    simp [V3.dot]
    linear_combination M * Real.cos x * c6' + M * Real.sin x * c7'
  · rw [hcr, V3.dot_smul]
    positivity

/-! ## All the faces -/

theorem flat_range {α : Type} (F : ℕ → ℕ → α) {m : ℕ} (hm : 0 < m) (k : ℕ) :
    ((List.range k).map fun i => (List.range m).map (F i)).flatten = (List.range (k * m)).map fun t => F (t / m) (t % m) := by
  induction k with
  | zero => simp
  | succ k ih =>
    rw [List.range_succ, List.map_append, List.flatten_append, ih, Nat.succ_mul, List.range_add, List.map_append]
    congr 1
    simp only [List.map_cons, List.map_nil, List.flatten_cons, List.flatten_nil, List.append_nil, List.map_map]
    apply List.map_congr_left
    intro j hj
    have hj := List.mem_range.1 hj
    simp only [Function.comp]
    rw [show k * m + j = j + k * m by ring, Nat.add_mul_div_right _ _ hm, Nat.add_mul_mod_self_right, Nat.div_eq_of_lt hj, Nat.mod_eq_of_lt hj, Nat.zero_add]

/-- the rays of the lateral faces over the edges of a list -/
theorem allRays_eq {eps : ℝ} (h0 : 0 < eps) (h1 : eps < 1) {p : Pyramid3} {a : V3} (hd : p.isDefined = true) (hp : p.apex = some a) {es : List (V3 × V3)}
    (hne : es ≠ []) (hc : p.base.getEdgeCount = .ok es.length)
    (hE : ∀ i (hi : i < es.length), p.base.getEdgeAt i = .ok ⟨some es[i].1, some es[i].2⟩)
    (hoff : ∀ e ∈ es, (e.1 - a).cross (e.2 - a) ≠ 0) (n : ℕ) :
    (n < es.length → p.getRaysOfLateralFaces eps n = .error .runtimeError) ∧
    (es.length ≤ n → ∃ g : ℕ → ℕ → V3,
      p.getRaysOfLateralFaces eps n = .ok ((List.range (es.length * (n / es.length))).map fun t => ⟨some a, some (g (t / (n / es.length)) (t % (n / es.length)))⟩) ∧
      ∀ i (hi : i < es.length), Fan (es[i].1 - a).normalized (es[i].2 - a).normalized (n / es.length) (g i) ∧
        ∀ j < n / es.length, RaySet a (g i j) ⊆ PyramidSet a (SegSet es[i].1 es[i].2)) := by
  have hcnt : p.getLateralFaceCount = .ok es.length := by simp [Pyramid3.getLateralFaceCount, hd, hc]
  have hpos : 0 < es.length := List.length_pos_iff.2 hne
  constructor
  · intro h
    simp [Pyramid3.getRaysOfLateralFaces, hcnt, bind, Except.bind, h]
  · intro h
    have hm : 1 ≤ n / es.length := (Nat.one_le_div_iff hpos).2 h
    have hex : ∀ i : ℕ, ∃ g : ℕ → V3, ∀ hi : i < es.length,
        p.getRaysOfLateralFaceAt eps i (n / es.length) = .ok ((List.range (n / es.length)).map fun j => ⟨some a, some (g j)⟩) ∧
        Fan (es[i].1 - a).normalized (es[i].2 - a).normalized (n / es.length) g ∧
        ∀ j < n / es.length, RaySet a (g j) ⊆ PyramidSet a (SegSet es[i].1 es[i].2) := by
      intro i
      by_cases hi : i < es.length
      · obtain ⟨g, r1, r2, r3, -⟩ := C81_rays eps h0 h1.le p i (n / es.length) hm a _ _ hp (hE i hi) (hoff _ (List.getElem_mem hi))
        exact ⟨g, fun _ => ⟨r1, r2, r3⟩⟩
      · exact ⟨fun _ => 0, fun h => absurd h hi⟩
    choose g hg using hex
    refine ⟨g, ?_, fun i hi => (hg i hi).2⟩
    have hmap : mapRes (fun i => p.getRaysOfLateralFaceAt eps i (n / es.length)) (List.range es.length) =
        .ok ((List.range es.length).map fun i => (List.range (n / es.length)).map fun j => (⟨some a, some (g i j)⟩ : Ray3)) :=
      mapRes_ok fun i hi => (hg i (List.mem_range.1 hi)).1
    simp only [Pyramid3.getRaysOfLateralFaces, hcnt, bind, Except.bind, if_neg (not_lt.2 h), hmap, pure, Except.pure]
    rw [flat_range (fun i j => (⟨some a, some (g i j)⟩ : Ray3)) hm]

/-- the edges of a ring of vertices -/
def ringEdges (vs : List V3) : List (V3 × V3) := vs.zip (vs.rotate 1)

/-- the base of a pyramid built without holes: its vertices and its edges -/
theorem base_edges {eps : ℝ} (h1 : eps < 1) {os : List (Option V2)} {P : Polygon2} (hP : Polygon2.ctor os [] = .ok P) (hd : P.isDefined = true) {o x y : V3}
    (hx : x ≠ 0) (hy : y ≠ 0) {b : Polygon3} (hb : Polygon3.ctor eps P (some o) (some x) (some y) = .ok b) :
    ∃ (vs : List V3) (n : V3), b.isDefined = true ∧ 2 ≤ vs.length ∧ b.getVertices = .ok vs ∧ b.getEdgeCount = .ok (ringEdges vs).length ∧
      (ringEdges vs).length = vs.length ∧ (∀ i (hi : i < (ringEdges vs).length), b.getEdgeAt i = .ok ⟨some (ringEdges vs)[i].1, some (ringEdges vs)[i].2⟩) ∧
      b.getNormalVector = .ok n ∧ ∀ v ∈ vs, n.dot (v - o) = 0 := by
  obtain ⟨ws, wss, hl, hv, -, hec, -, -, hwl, -, -, hidx, -⟩ := C58_indices os [] P hP hd
  obtain rfl : wss = [] := List.length_eq_zero_iff.1 (by simpa using hwl)
  simp only [List.flatten_nil, List.append_nil] at hv hec
  obtain ⟨e, n, k1, -, -, -, -, k4, -, -, -, -, k8, k9, -, -, k12, -, -, -, -, k17⟩ := C59_placed eps h1 P hd o x y hx hy b hb
  have hlen : (ringEdges (ws.map e)).length = ws.length := by simp [ringEdges]
  refine ⟨ws.map e, n, k1, by simpa using hl, k9 _ hv, by rw [k17, hec, hlen], by simp [hlen], ?_, k4, ?_⟩
  · intro i hi
    rw [hlen] at hi
    rw [k12 i _ _ (hidx i hi).2]
    simp [ringEdges, List.getElem_rotate]
  · intro v hv
    obtain ⟨w, -, rfl⟩ := List.mem_map.1 hv
    exact k8 w

/-- **C81.** A pyramid over a polygon without holes whose edges are not in line with the apex: it has as many lateral faces as the base has vertices; fewer rays
than that are refused; otherwise the rays are shared evenly between the faces and fan out over each of them. -/
theorem C81_all (eps : ℝ) (h0 : 0 < eps) (h1 : eps < 1) (os : List (Option V2)) (P : Polygon2) (hP : Polygon2.ctor os [] = .ok P) (hd : P.isDefined = true)
    (o x y : V3) (hx : x ≠ 0) (hy : y ≠ 0) (b : Polygon3) (hb : Polygon3.ctor eps P (some o) (some x) (some y) = .ok b) (a : V3) (n : ℕ) :
    ∃ vs : List V3, 2 ≤ vs.length ∧ b.getVertices = .ok vs ∧ (⟨b, some a⟩ : Pyramid3).getLateralFaceCount = .ok vs.length ∧
      ((∀ e ∈ ringEdges vs, (e.1 - a).cross (e.2 - a) ≠ 0) →
        (n < vs.length → (⟨b, some a⟩ : Pyramid3).getRaysOfLateralFaces eps n = .error .runtimeError) ∧
        (vs.length ≤ n → ∃ g : ℕ → ℕ → V3, (⟨b, some a⟩ : Pyramid3).getRaysOfLateralFaces eps n =
            .ok ((List.range (vs.length * (n / vs.length))).map fun t => ⟨some a, some (g (t / (n / vs.length)) (t % (n / vs.length)))⟩) ∧
          ∀ i (hi : i < vs.length), Fan (vs[i] - a).normalized (vs[(i + 1) % vs.length]'(Nat.mod_lt _ (by omega)) - a).normalized (n / vs.length) (g i) ∧
            ∀ j < n / vs.length, RaySet a (g i j) ⊆ LateralFaces a (ringEdges vs))) := by
  obtain ⟨vs, -, k1, k2, k3, k4, k5, k6, -⟩ := base_edges h1 hP hd hx hy hb
  have hpd : (⟨b, some a⟩ : Pyramid3).isDefined = true := by simp [Pyramid3.isDefined, k1]
  refine ⟨vs, k2, k3, by simp [Pyramid3.getLateralFaceCount, hpd, k4, k5], fun hoff => ?_⟩
  have hne : ringEdges vs ≠ [] := by
    intro e; rw [e] at k5; simp at k5; omega
  obtain ⟨r1, r2⟩ := allRays_eq h0 h1 hpd rfl hne k4 k6 hoff n
  rw [k5] at r1
  refine ⟨r1, fun h => ?_⟩
  obtain ⟨g, g1, g2⟩ := r2 (by rw [k5]; exact h)
  rw [k5] at g1
  refine ⟨g, g1, fun i hi => ?_⟩
  have hi' : i < (ringEdges vs).length := by rw [k5]; exact hi
  obtain ⟨f1, f2⟩ := g2 i hi'
  rw [k5] at f1 f2
  refine ⟨?_, fun j hj => fun q hq => ⟨_, List.getElem_mem hi', f2 j hj hq⟩⟩
  simpa [ringEdges, List.getElem_rotate] using f1

/-- **C81, violated.** A base with a hole: the edges of the hole are counted, but they have no lateral faces and no rays, and the rays of all the faces are refused
for every count. -/
theorem C81_holes_violated (eps : ℝ) (h1 : eps < 1) (os : List (Option V2)) (rs : List (List (Option V2))) (hrs : rs ≠ []) (P : Polygon2)
    (hP : Polygon2.ctor os rs = .ok P) (hd : P.isDefined = true) (o x y : V3) (hx : x ≠ 0) (hy : y ≠ 0) (b : Polygon3)
    (hb : Polygon3.ctor eps P (some o) (some x) (some y) = .ok b) (a : V3) (n : ℕ) :
    ∃ k m, (⟨b, some a⟩ : Pyramid3).getLateralFaceCount = .ok m ∧ k < m ∧
      (∀ i, k ≤ i → i < m → (⟨b, some a⟩ : Pyramid3).getLateralFaceAt eps i = .error .toBeImplemented) ∧
      ∃ e, (⟨b, some a⟩ : Pyramid3).getRaysOfLateralFaces eps n = .error e := by
  obtain ⟨-, k, m, -, hm, hkm, hat⟩ := C58_holes_violated os rs P hP hd hrs
  obtain ⟨e, nv, k1, -, -, -, -, k4, -, -, -, -, k8, k9, -, -, k12, -, k14, -, -, k17⟩ := C59_placed eps h1 P hd o x y hx hy b hb
  have hpd : (⟨b, some a⟩ : Pyramid3).isDefined = true := by simp [Pyramid3.isDefined, k1]
  have hcnt : (⟨b, some a⟩ : Pyramid3).getLateralFaceCount = .ok m := by simp [Pyramid3.getLateralFaceCount, hpd, k17, hm]
  have hbe : ∀ i, k ≤ i → i < m → b.getEdgeAt i = .error .toBeImplemented := fun i h2 h3 => k14 i _ (hat i h2 h3).1
  refine ⟨k, m, hcnt, hkm, fun i h2 h3 => ?_, ?_⟩
  · simp [Pyramid3.getLateralFaceAt, hpd, hbe i h2 h3, bind, Except.bind]
  · simp only [Pyramid3.getRaysOfLateralFaces, hcnt, bind, Except.bind]
    by_cases hn : n < m
    · exact ⟨_, by rw [if_pos hn]⟩
    · rw [if_neg hn]
      have : ∃ e, mapRes (fun i => (⟨b, some a⟩ : Pyramid3).getRaysOfLateralFaceAt eps i (n / m)) (List.range m) = .error e := by
        have gen : ∀ (l : List ℕ) (F : ℕ → Res (List Ray3)), (∃ i ∈ l, ∃ e, F i = .error e) → ∃ e, mapRes F l = .error e := by
          intro l F
          induction l with
          | nil => rintro ⟨i, hi, -⟩; simp at hi
          | cons c l ih =>
            rintro ⟨i, hi, e, he⟩
            rw [mapRes]
            cases hc : F c with
            | error e' => exact ⟨e', rfl⟩
            | ok z =>
              rcases List.mem_cons.1 hi with rfl | hi
              · rw [he] at hc; cases hc
              · obtain ⟨e', h'⟩ := ih ⟨i, hi, e, he⟩
                exact ⟨e', by simp [h', bind, Except.bind]⟩
        refine gen _ _ ⟨k, List.mem_range.2 hkm, .toBeImplemented, ?_⟩
        simp [Pyramid3.getRaysOfLateralFaceAt, hbe k le_rfl hkm, bind, Except.bind]
      obtain ⟨e, he⟩ := this
      exact ⟨e, by rw [he]⟩

/-- a square with a square hole -/
example : ∃ (P : Polygon2) (b : Polygon3), Polygon2.ctor [some ⟨0, 0⟩, some ⟨4, 0⟩, some ⟨4, 4⟩, some ⟨0, 4⟩] [[some ⟨1, 1⟩, some ⟨2, 1⟩, some ⟨2, 2⟩]] = .ok P ∧
    P.isDefined = true ∧ Polygon3.ctor (1 / 2) P (some 0) (some V3.X) (some V3.Y) = .ok b := by
  obtain ⟨P, h1, h2, -⟩ := C58_vertices [⟨0, 0⟩, ⟨4, 0⟩, ⟨4, 4⟩, ⟨0, 4⟩] [⟨0, 0⟩, ⟨4, 0⟩, ⟨4, 4⟩, ⟨0, 4⟩] [[⟨1, 1⟩, ⟨2, 1⟩, ⟨2, 2⟩]] [[⟨1, 1⟩, ⟨2, 1⟩, ⟨2, 2⟩]]
    (by simp) (by simp) (.inl ⟨rfl, by simp⟩) (.cons (.inl ⟨rfl, by simp⟩) .nil)
  refine ⟨P, ⟨P, some 0, some V3.X, some V3.Y⟩, h1, h2, ?_⟩
  have n1 : V3.X.normalized = V3.X := V3.normalized_of_unit (by norm_num [V3.normSq, V3.dot, V3.X])
  have n2 : V3.Y.normalized = V3.Y := V3.normalized_of_unit (by norm_num [V3.normSq, V3.dot, V3.Y])
  simp only [Polygon3.ctor, Option.map_some, n1, n2]
  rw [if_neg (by norm_num [V3.dot, V3.X, V3.Y])]

/-! ## Intersections -/

/-- rays of a pyramid as in `C81_all`, in one sequence -/
def RaysOf (eps : ℝ) (p : Pyramid3) (a : V3) (n : ℕ) (lat : Set V3) (N : ℕ) (g : ℕ → V3) : Prop :=
  p.getRaysOfLateralFaces eps n = .ok ((List.range N).map fun t => ⟨some a, some (g t)⟩) ∧ (∀ t < N, (g t).norm = 1) ∧ ∀ t < N, RaySet a (g t) ⊆ lat

theorem raysOf_base {eps : ℝ} (h0 : 0 < eps) (h1 : eps < 1) {os : List (Option V2)} {P : Polygon2} (hP : Polygon2.ctor os [] = .ok P) (hd : P.isDefined = true)
    {o x y : V3} (hx : x ≠ 0) (hy : y ≠ 0) {b : Polygon3} (hb : Polygon3.ctor eps P (some o) (some x) (some y) = .ok b) {a : V3} {n : ℕ} {vs : List V3}
    (hvs : b.getVertices = .ok vs) (hn : vs.length ≤ n) (hoff : ∀ e ∈ ringEdges vs, (e.1 - a).cross (e.2 - a) ≠ 0) :
    (⟨b, some a⟩ : Pyramid3).isDefined = true ∧ 0 < vs.length * (n / vs.length) ∧
    ∃ g, RaysOf eps ⟨b, some a⟩ a n (LateralFaces a (ringEdges vs)) (vs.length * (n / vs.length)) g := by
  obtain ⟨vs', k1, k2, k3, k4⟩ := C81_all eps h0 h1 os P hP hd o x y hx hy b hb a n
  obtain ⟨-, -, j1, -⟩ := base_edges h1 hP hd hx hy hb
  obtain rfl : vs = vs' := by rw [hvs] at k2; exact Except.ok.inj k2
  have hpd : (⟨b, some a⟩ : Pyramid3).isDefined = true := by simp [Pyramid3.isDefined, j1]
  have hm : 0 < n / vs.length := Nat.div_pos hn (by omega)
  obtain ⟨g, g1, g2⟩ := (k4 hoff).2 hn
  have hdiv : ∀ {t}, t < vs.length * (n / vs.length) → t / (n / vs.length) < vs.length := fun ht => by rwa [Nat.div_lt_iff_lt_mul hm]
  refine ⟨hpd, Nat.mul_pos (by omega) hm, fun t => g (t / (n / vs.length)) (t % (n / vs.length)), g1, fun t ht => ?_, fun t ht => ?_⟩
  · exact (g2 _ (hdiv ht)).1.unit _ (Nat.mod_lt _ hm)
  · exact (g2 _ (hdiv ht)).2 _ (Nat.mod_lt _ hm)

/-- the rays of a ray loop that meet a solid -/
theorem anyRay {f : Ray3 → Res Bool} {a : V3} {N : ℕ} {g : ℕ → V3} {E : Set V3}
    (h : ∀ t < N, ∃ b, f ⟨some a, some (g t)⟩ = .ok b ∧ (b = true ↔ (RaySet a (g t) ∩ E).Nonempty)) :
    ∃ b, anyOf f ((List.range N).map fun t => (⟨some a, some (g t)⟩ : Ray3)) = .ok b ∧ (b = true ↔ ∃ t < N, (RaySet a (g t) ∩ E).Nonempty) := by
  obtain ⟨b, h1, h2⟩ := anyOf_true (f := f) (l := (List.range N).map fun t => (⟨some a, some (g t)⟩ : Ray3))
    (g := fun r => ∃ d, r = ⟨some a, some d⟩ ∧ (RaySet a d ∩ E).Nonempty) (by
      intro r hr
      obtain ⟨t, ht, rfl⟩ := List.mem_map.1 hr
      obtain ⟨b, h1, h2⟩ := h t (List.mem_range.1 ht)
      exact ⟨b, h1, by rw [h2]; simp⟩)
  refine ⟨b, h1, ?_⟩
  rw [h2]
  constructor
  · rintro ⟨r, hr, d, rfl, hh⟩
    obtain ⟨t, ht, e⟩ := List.mem_map.1 hr
    cases e
    exact ⟨t, List.mem_range.1 ht, hh⟩
  · rintro ⟨t, ht, hh⟩
    exact ⟨_, List.mem_map.2 ⟨t, List.mem_range.2 ht, rfl⟩, _, rfl, hh⟩

/-- **C82.** `intersects` answers whether one of the rays of the lateral faces meets the sphere (the surface of the ellipsoid); a positive answer is right. -/
theorem C82_intersects (eps : ℝ) (h0 : 0 < eps) (h1 : eps < 1) (os : List (Option V2)) (P : Polygon2) (hP : Polygon2.ctor os [] = .ok P) (hd : P.isDefined = true)
    (o x y : V3) (hx : x ≠ 0) (hy : y ≠ 0) (b : Polygon3) (hb : Polygon3.ctor eps P (some o) (some x) (some y) = .ok b) (a : V3) (n : ℕ) (vs : List V3)
    (hvs : b.getVertices = .ok vs) (hn : vs.length ≤ n) (hoff : ∀ e ∈ ringEdges vs, (e.1 - a).cross (e.2 - a) ≠ 0)
    (c : V3) (r : ℝ) (k l m : ℝ) (hk : 0 < k) (hl : 0 < l) (hm : 0 < m) (q : Quat) (hq : Unitary q) :
    ∃ (N : ℕ) (g : ℕ → V3) (bs be : Bool), RaysOf eps ⟨b, some a⟩ a n (LateralFaces a (ringEdges vs)) N g ∧ 0 < N ∧
      Pyramid3.intersectsSphere eps ⟨b, some a⟩ ⟨some c, some r⟩ n = .ok bs ∧ (bs = true ↔ ∃ t < N, (RaySet a (g t) ∩ SphereSet c r).Nonempty) ∧
      (bs = true → (LateralFaces a (ringEdges vs) ∩ SphereSet c r).Nonempty) ∧
      Pyramid3.intersectsEllipsoid eps ⟨b, some a⟩ (ell c k l m q) n = .ok be ∧ (be = true ↔ ∃ t < N, (RaySet a (g t) ∩ Surface c k l m q).Nonempty) ∧
      (be = true → (LateralFaces a (ringEdges vs) ∩ Surface c k l m q).Nonempty) := by
  obtain ⟨hpd, hN, g, hg1, hg2, hg3⟩ := raysOf_base h0 h1 hP hd hx hy hb hvs hn hoff
  obtain ⟨bs, s1, s2⟩ := anyRay (f := Sphere3.intersectsRay ⟨some c, some r⟩) (a := a) (g := g) (E := SphereSet c r)
    (fun t ht => (C48_ray eps h0 c r a (g t) (hg2 t ht)).2)
  obtain ⟨be, e1, e2⟩ := anyRay (f := (ell c k l m q).intersectsRay eps) (a := a) (g := g) (E := Surface c k l m q)
    (fun t ht => (C76_ray eps h0 c k l m hk hl hm q hq a (g t) (hg2 t ht)).2)
  have sound : ∀ E : Set V3, (∃ t < vs.length * (n / vs.length), (RaySet a (g t) ∩ E).Nonempty) → (LateralFaces a (ringEdges vs) ∩ E).Nonempty := by
    rintro E ⟨t, ht, z, z1, z2⟩
    exact ⟨z, hg3 t ht z1, z2⟩
  refine ⟨_, g, bs, be, ⟨hg1, hg2, hg3⟩, hN, ?_, s2, fun h => sound _ (s2.1 h), ?_, e2, fun h => sound _ (e2.1 h)⟩
  · simp only [Pyramid3.intersectsSphere, Sphere3.isDefined, hpd, Option.isSome_some, Bool.and_self, Bool.not_true, Bool.false_eq_true, if_false, hg1, bind,
      Except.bind, s1]
  · simp only [Pyramid3.intersectsEllipsoid, ell_defined, hpd, Bool.not_true, Bool.false_eq_true, if_false, hg1, bind, Except.bind, e1]

/-- **C82.** The line strings of `intersectionWith (Sphere)` trace the points where the rays of the lateral faces meet the sphere. -/
theorem C82_intersection_sphere (eps : ℝ) (h0 : 0 < eps) (h1 : eps < 1) (os : List (Option V2)) (P : Polygon2) (hP : Polygon2.ctor os [] = .ok P)
    (hd : P.isDefined = true) (o x y : V3) (hx : x ≠ 0) (hy : y ≠ 0) (b : Polygon3) (hb : Polygon3.ctor eps P (some o) (some x) (some y) = .ok b) (a : V3)
    (n : ℕ) (vs : List V3) (hvs : b.getVertices = .ok vs) (hn : vs.length ≤ n) (hoff : ∀ e ∈ ringEdges vs, (e.1 - a).cross (e.2 - a) ≠ 0) (c : V3) (r : ℝ) :
    ∃ (N : ℕ) (g : ℕ → V3) (i j : Isect3), RaysOf eps ⟨b, some a⟩ a n (LateralFaces a (ringEdges vs)) N g ∧ 0 < N ∧
      Pyramid3.intersectionWithSphere eps ⟨b, some a⟩ ⟨some c, some r⟩ false n = .ok i ∧
      Pyramid3.intersectionWithSphere eps ⟨b, some a⟩ ⟨some c, some r⟩ true n = .ok j ∧ OfStrings i ∧ OfStrings j ∧ j.composite.objects.length ≤ 1 ∧
      Traced a g N (LateralFaces a (ringEdges vs)) (OnOr eps c r {a}) (SphereSet c r) 0 (StringPoints i) (StringPoints j) := by
  obtain ⟨hpd, hN, g, hr, hunit, hlat⟩ := raysOf_base h0 h1 hP hd hx hy hb hvs hn hoff
  set N := vs.length * (n / vs.length) with hNd
  have facts := fun (k : ℕ) (hk : k < N) => (C48_ray eps h0 c r a (g k) (hunit k hk)).1
  have val : ∀ s k, k < N → Sphere3.intersectionWithRay eps ⟨some c, some r⟩ ⟨some a, some (g k)⟩ s =
      .ok (valueOr .Empty (Sphere3.intersectionWithRay eps ⟨some c, some r⟩ ⟨some a, some (g k)⟩ s)) := by
    intro s k hk
    obtain ⟨i, j, hi, hj, -⟩ := facts k hk
    cases s
    · rw [hi]; rfl
    · rw [hj]; rfl
  have loop : ∀ s, ∃ fs, Cone3.sphereLoop eps ⟨some c, some r⟩ s ((List.range N).map fun k : ℕ => (⟨some a, some (g k)⟩ : Ray3)) = .ok fs ∧
      Collects s (((List.range N).map fun k : ℕ => (⟨some a, some (g k)⟩ : Ray3)).map
        fun l => valueOr .Empty (Sphere3.intersectionWithRay eps ⟨some c, some r⟩ l s)) fs := by
    intro s
    refine sphereLoop_collects ?_
    intro l hl
    obtain ⟨k, hk, rfl⟩ := List.mem_map.1 hl
    have hk := List.mem_range.1 hk
    exact ⟨val s k hk, sphere_rayResult (val s k hk)⟩
  obtain ⟨fs, hf1, hf2⟩ := loop false
  obtain ⟨gs, hg1, hg2⟩ := loop true
  obtain ⟨i, hi1, hi2, hi3, -⟩ := lineStrings_collects hf2
  obtain ⟨j, hj1, hj2, hj3, hj4⟩ := lineStrings_collects hg2
  refine ⟨N, g, i, j, ⟨hr, hunit, hlat⟩, hN, ?_, ?_, hi3, hj3, hj4 rfl, ?_⟩
  · simp only [Pyramid3.intersectionWithSphere, Sphere3.isDefined, hpd, Option.isSome_some, Bool.and_self, Bool.not_true,
      Bool.false_eq_true, if_false, hr, bind, Except.bind, hf1, hi1]
  · simp only [Pyramid3.intersectionWithSphere, Sphere3.isDefined, hpd, Option.isSome_some, Bool.and_self, Bool.not_true,
      Bool.false_eq_true, if_false, hr, bind, Except.bind, hg1, hj1]
  · rw [hi2, hj2]
    refine traced (g := g) le_rfl hlat ?_
    intro k hk
    obtain ⟨i, j, hi, hj, f1, f2, f3, f4⟩ := facts k hk
    simp only [hi, hj, valueOr]
    exact ⟨f1, fun p hp hpE => ⟨p, f2 p hp hpE, .inl rfl⟩, f3, f4⟩

/-- **C82.** The same for `intersectionWith (Ellipsoid)`: of two points of a ray nearer to each other than `eps` only one is kept, and the apex is a
point of the result only if the ellipsoid is found to contain it. -/
theorem C82_intersection_ellipsoid (eps : ℝ) (h0 : 0 < eps) (h1 : eps < 1) (os : List (Option V2)) (P : Polygon2) (hP : Polygon2.ctor os [] = .ok P)
    (hd : P.isDefined = true) (o x y : V3) (hx : x ≠ 0) (hy : y ≠ 0) (b : Polygon3) (hb : Polygon3.ctor eps P (some o) (some x) (some y) = .ok b) (a : V3)
    (n : ℕ) (vs : List V3) (hvs : b.getVertices = .ok vs) (hn : vs.length ≤ n) (hoff : ∀ e ∈ ringEdges vs, (e.1 - a).cross (e.2 - a) ≠ 0)
    (p : V3) (k l m : ℝ) (hk : 0 < k) (hl : 0 < l) (hm : 0 < m) (q : Quat) (hq : Unitary q) :
    ∃ (N : ℕ) (g : ℕ → V3) (i j : Isect3), RaysOf eps ⟨b, some a⟩ a n (LateralFaces a (ringEdges vs)) N g ∧ 0 < N ∧
      Pyramid3.intersectionWithEllipsoid eps ⟨b, some a⟩ (ell p k l m q) false n = .ok i ∧
      Pyramid3.intersectionWithEllipsoid eps ⟨b, some a⟩ (ell p k l m q) true n = .ok j ∧ OfStrings i ∧ OfStrings j ∧ j.composite.objects.length ≤ 1 ∧
      Traced a g N (LateralFaces a (ringEdges vs)) (fun y => y ∈ Surface p k l m q ∨ y = a ∧ (ell p k l m q).contains eps (some a) = .ok true)
        (Surface p k l m q \ {a}) eps (StringPoints i) (StringPoints j) := by
  obtain ⟨hpd, hN, g, hr, hunit, hlat⟩ := raysOf_base h0 h1 hP hd hx hy hb hvs hn hoff
  set N := vs.length * (n / vs.length) with hNd
  have facts := fun (i : ℕ) (hi : i < N) => (C76_ray eps h0 p k l m hk hl hm q hq a (g i) (hunit i hi)).1
  have val : ∀ s i, i < N → (ell p k l m q).intersectionWithRay eps ⟨some a, some (g i)⟩ s =
      .ok (valueOr .Empty ((ell p k l m q).intersectionWithRay eps ⟨some a, some (g i)⟩ s)) := by
    intro s i hi
    obtain ⟨-, i, j, -, hi, hj, -⟩ := facts i hi
    cases s
    · rw [hi]; rfl
    · rw [hj]; rfl
  have loop : ∀ s, ∃ fs, Cone3.ellipsoidLoop eps (some a) (ell p k l m q) s ((List.range N).map fun k : ℕ => (⟨some a, some (g k)⟩ : Ray3)) = .ok fs ∧
      Collects s (((List.range N).map fun k : ℕ => (⟨some a, some (g k)⟩ : Ray3)).map
        fun r => valueOr .Empty ((ell p k l m q).intersectionWithRay eps r s)) fs := by
    intro s
    refine ellipsoidLoop_collects ?_
    intro r hr
    obtain ⟨i, hi, rfl⟩ := List.mem_map.1 hr
    have hi := List.mem_range.1 hi
    exact ⟨val s i hi, ellipsoid_rayResult (val s i hi)⟩
  obtain ⟨fs, hf1, hf2⟩ := loop false
  obtain ⟨gs, hg1, hg2⟩ := loop true
  obtain ⟨i, hi1, hi2, hi3, -⟩ := lineStrings_collects hf2
  obtain ⟨j, hj1, hj2, hj3, hj4⟩ := lineStrings_collects hg2
  refine ⟨N, g, i, j, ⟨hr, hunit, hlat⟩, hN, ?_, ?_, hi3, hj3, hj4 rfl, ?_⟩
  · simp only [Pyramid3.intersectionWithEllipsoid, ell_defined, hpd, Bool.not_true, Bool.false_eq_true, if_false, hr, bind, Except.bind, hf1, hi1]
  · simp only [Pyramid3.intersectionWithEllipsoid, ell_defined, hpd, Bool.not_true, Bool.false_eq_true, if_false, hr, bind, Except.bind, hg1, hj1]
  · rw [hi2, hj2]
    refine traced (g := g) h0.le hlat ?_
    intro k' hk'
    obtain ⟨on, i, j, hon, hi, hj, f1, f2, -, f3, f4⟩ := facts k' hk'
    simp only [hi, hj, valueOr, hon]
    refine ⟨?_, ?_, f3, f4⟩
    · intro y hy
      obtain ⟨e1, e2⟩ := f1 y hy
      exact ⟨e1, e2.imp id fun e => ⟨e.1, by rw [e.2]⟩⟩
    · intro y hy hyE
      exact f2 y hy hyE.1 (.inl hyE.2)

/-- the square pyramid with apex in the origin over the square of side two in the plane `z = 1` -/
theorem square_pyramid (eps : ℝ) (h0 : 0 < eps) : ∃ (P : Polygon2) (b : Polygon3),
    Polygon2.ctor [some ⟨-1, -1⟩, some ⟨-1, 1⟩, some ⟨1, 1⟩, some ⟨1, -1⟩] [] = .ok P ∧ P.isDefined = true ∧
    Polygon3.ctor eps P (some V3.Z) (some V3.X) (some V3.Y) = .ok b ∧ b = ⟨P, some V3.Z, some V3.X, some V3.Y⟩ ∧
    b.getVertices = .ok [⟨-1, -1, 1⟩, ⟨-1, 1, 1⟩, ⟨1, 1, 1⟩, ⟨1, -1, 1⟩] ∧
    ∀ e ∈ ringEdges [⟨-1, -1, 1⟩, ⟨-1, 1, 1⟩, ⟨1, 1, 1⟩, ⟨1, -1, 1⟩], (e.1 - 0).cross (e.2 - 0) ≠ 0 := by
  obtain ⟨P, h1, h2, h3⟩ := C58_vertices [⟨-1, -1⟩, ⟨-1, 1⟩, ⟨1, 1⟩, ⟨1, -1⟩] [⟨-1, -1⟩, ⟨-1, 1⟩, ⟨1, 1⟩, ⟨1, -1⟩] [] []
    (by simp) (by simp) (.inl ⟨rfl, by norm_num⟩) .nil
  have harea : ¬ ringArea [⟨-1, -1⟩, ⟨-1, 1⟩, ⟨1, 1⟩, ⟨1, -1⟩] < 0 := by norm_num [ringArea]
  rw [if_neg harea] at h3
  have n1 : V3.X.normalized = V3.X := V3.normalized_of_unit (by norm_num [V3.normSq, V3.dot, V3.X])
  have n2 : V3.Y.normalized = V3.Y := V3.normalized_of_unit (by norm_num [V3.normSq, V3.dot, V3.Y])
  have hnot : ¬ |V3.X.dot V3.Y| > eps := by
    have : V3.X.dot V3.Y = 0 := by norm_num [V3.dot, V3.X, V3.Y]
    rw [this, abs_zero]; exact not_lt.2 h0.le
  refine ⟨P, ⟨P, some V3.Z, some V3.X, some V3.Y⟩, h1, h2, ?_, rfl, ?_, ?_⟩
  · simp only [Polygon3.ctor, Option.map_some, n1, n2]
    rw [if_neg hnot]
  · simp only [Polygon3.getVertices, polygon3_defined h2, h3, bind, Except.bind]
    simp [mapRes, place_ok, inFrame, V3.X, V3.Y, V3.Z, V3.ext_iff, bind, Except.bind, pure, Except.pure]
  · intro e he
    simp only [ringEdges, List.rotate, List.length_cons, List.length_nil] at he
    simp at he
    rcases he with rfl | rfl | rfl | rfl <;> intro h
    · have := congrArg V3.x h; norm_num at this
    · have := congrArg V3.y h; norm_num at this
    · have := congrArg V3.x h; norm_num at this
    · have := congrArg V3.y h; norm_num at this

/-- **C82, violated.** A sphere inside a pyramid is not found to intersect it, however many rays are used, although the solid contains its centre and its points. -/
theorem C82_violated (eps : ℝ) (h0 : 0 < eps) (h1 : eps < 1) (n : ℕ) (hn : 4 ≤ n) :
    ∃ b : Polygon3, b.getVertices = .ok [⟨-1, -1, 1⟩, ⟨-1, 1, 1⟩, ⟨1, 1, 1⟩, ⟨1, -1, 1⟩] ∧
      Pyramid3.intersectsSphere eps ⟨b, some 0⟩ ⟨some ⟨0, 0, 10⟩, some 1⟩ n = .ok false ∧
      SphereSet ⟨0, 0, 10⟩ 1 ⊆ PyramidSet 0 (BaseSet V3.Z V3.X V3.Y {v | -1 ≤ v.x ∧ v.x ≤ 1 ∧ -1 ≤ v.y ∧ v.y ≤ 1}) := by
  obtain ⟨P, b, p1, p2, p3, -, p4, p5⟩ := square_pyramid eps h0
  have hx : V3.X ≠ 0 := V3.ne_zero_of_unit (V3.norm_of_normSq_one (by norm_num [V3.normSq, V3.dot, V3.X]))
  have hy : V3.Y ≠ 0 := V3.ne_zero_of_unit (V3.norm_of_normSq_one (by norm_num [V3.normSq, V3.dot, V3.Y]))
  refine ⟨b, p4, ?_, ?_⟩
  · obtain ⟨N, g, bs, be, -, -, q1, -, q2, -⟩ := C82_intersects eps h0 h1 _ P p1 p2 _ _ _ hx hy b p3 0 n _ p4 (by simpa using hn) p5 ⟨0, 0, 10⟩ 1 1 1 1
      one_pos one_pos one_pos _ quat_one_unitary
    cases bs with
    | false => exact q1
    | true =>
      exfalso
      obtain ⟨z, ⟨e, he, hz⟩, hs⟩ := q2 rfl
      rw [mem_sphereSet] at hs
      have hz' : ∃ t : ℝ, (z.x = -z.z ∨ z.x = z.z ∨ z.y = -z.z ∨ z.y = z.z) := by
        refine ⟨0, ?_⟩
        rcases hz with rfl | ⟨w, ⟨t, ht, hw⟩, u, hu0, hu1, hw2⟩
        · simp
        have hwx := congrArg V3.x hw
        have hwy := congrArg V3.y hw
        have hwz := congrArg V3.z hw
        simp only [ringEdges, List.rotate, List.length_cons, List.length_nil] at he
        simp at he
        rcases he with rfl | rfl | rfl | rfl <;> (subst hw2; simp at hwx hwy hwz)
        all_goals
          have ht0 : t ≠ 0 := by rintro rfl; norm_num at hwz
        · left; apply mul_left_cancel₀ ht0; linarith
        · right; right; right; apply mul_left_cancel₀ ht0; linarith
        · right; left; apply mul_left_cancel₀ ht0; linarith
        · right; right; left; apply mul_left_cancel₀ ht0; linarith
      obtain ⟨-, hz'⟩ := hz'
      simp only [V3.normSq, V3.dot, V3.sub_x, V3.sub_y, V3.sub_z] at hs
      rcases hz' with h | h | h | h <;> rw [h] at hs <;> nlinarith [sq_nonneg (z.z - 5), sq_nonneg z.x, sq_nonneg z.y]
  · intro z hs
    rw [mem_sphereSet] at hs
    simp only [V3.normSq, V3.dot, V3.sub_x, V3.sub_y, V3.sub_z] at hs
    have hz : 9 ≤ z.z := by nlinarith [sq_nonneg z.x, sq_nonneg z.y]
    have hx1 : z.x ^ 2 ≤ 1 := by nlinarith [sq_nonneg (z.z - 10), sq_nonneg z.y]
    have hy1 : z.y ^ 2 ≤ 1 := by nlinarith [sq_nonneg (z.z - 10), sq_nonneg z.x]
    obtain ⟨a1, a2⟩ := abs_le.1 ((sq_le_one_iff_abs_le_one _).1 hx1)
    obtain ⟨b1, b2⟩ := abs_le.1 ((sq_le_one_iff_abs_le_one _).1 hy1)
    have hzp : 0 < z.z := by linarith
    right
    refine ⟨(1 / z.z) • z, ⟨1 / z.z, by positivity, by ext <;> simp⟩, ⟨z.x / z.z, z.y / z.z⟩, ?_, ?_⟩
    · refine ⟨?_, ?_, ?_, ?_⟩
      · rw [le_div_iff₀ hzp]; linarith
      · rw [div_le_iff₀ hzp]; linarith
      · rw [le_div_iff₀ hzp]; linarith
      · rw [div_le_iff₀ hzp]; linarith
    · ext <;> simp [V3.X, V3.Y, V3.Z] <;> field_simp

/-- **C82.** An undefined pyramid, sphere or ellipsoid is refused. -/
theorem C82_undefined (eps : ℝ) (p : Pyramid3) (s : Sphere3) (e : Ellipsoid3) (sight : Bool) (n : ℕ) :
    (p.isDefined = false ∨ s.isDefined = false → p.intersectsSphere eps s n = .error .undefined ∧ p.intersectionWithSphere eps s sight n = .error .undefined) ∧
    (p.isDefined = false ∨ e.isDefined = false →
      p.intersectsEllipsoid eps e n = .error .undefined ∧ p.intersectionWithEllipsoid eps e sight n = .error .undefined) := by
  constructor
  · rintro (h | h) <;> cases hs : s.isDefined <;>
      simp_all [Pyramid3.intersectsSphere, Pyramid3.intersectionWithSphere]
  · rintro (h | h) <;> cases hs : e.isDefined <;>
      simp_all [Pyramid3.intersectsEllipsoid, Pyramid3.intersectionWithEllipsoid]

end Verif.Props
