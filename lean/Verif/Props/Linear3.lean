import Verif.Lemmas.Linear3
import Verif.Spec.Objects3

/-!
# Segments, lines, rays and planes in 3D (C42 - C46)
-/

namespace Verif.Props

open Verif Verif.Spec

set_option linter.flexible false

/-! ## C42 -/

/-- the minimiser of a parabola on the unit interval -/
theorem clamp_spec {m n : ℝ} (hn : 0 < n) : 0 ≤ max 0 (min 1 (m / n)) ∧ max 0 (min 1 (m / n)) ≤ 1 ∧
    ∀ t : ℝ, 0 ≤ t → t ≤ 1 → -2 * max 0 (min 1 (m / n)) * m + (max 0 (min 1 (m / n))) ^ 2 * n ≤ -2 * t * m + t ^ 2 * n := by
  refine ⟨le_max_left _ _, max_le zero_le_one (min_le_left _ _), fun t h0 h1 => ?_⟩
  rcases le_total (m / n) 0 with h | h
  · have hm : m ≤ 0 := by
      by_contra hc
      push Not at hc
      exact absurd (div_pos hc hn) (not_lt.2 h)
    rw [min_eq_right (h.trans zero_le_one), max_eq_left h]
    nlinarith [mul_nonneg h0 (neg_nonneg.2 hm), mul_nonneg (sq_nonneg t) hn.le]
  · rw [max_eq_right (le_min zero_le_one h)]
    rcases le_total (m / n) 1 with h' | h'
    · rw [min_eq_right h']
      have e : m = m / n * n := (div_mul_cancel₀ m hn.ne').symm
      generalize m / n = s at *
      subst e
      nlinarith [mul_nonneg hn.le (sq_nonneg (t - s))]
    · rw [min_eq_left h']
      have e : n ≤ m := by rwa [one_le_div hn] at h'
      nlinarith [mul_nonneg (sub_nonneg.2 h1) (sub_nonneg.2 e), mul_nonneg hn.le (sq_nonneg (1 - t))]

/-- 3D segments, degenerate or not: `contains` decides membership, `distanceTo` is the attained minimum of the distances, zero exactly on the
segment, and neither depends on the order of the end points. -/
theorem C42_segment3 (a b p : V3) :
    (∃ r, Seg3.contains ⟨some a, some b⟩ (some p) = .ok r ∧ (r = true ↔ p ∈ SegSet a b)) ∧
    (∃ d, Seg3.distanceTo ⟨some a, some b⟩ (some p) = .ok d ∧ IsDistance (SegSet a b) p d ∧
      (d = 0 ↔ Seg3.contains ⟨some a, some b⟩ (some p) = .ok true)) ∧
    Seg3.contains ⟨some b, some a⟩ (some p) = Seg3.contains ⟨some a, some b⟩ (some p) ∧
    Seg3.distanceTo ⟨some b, some a⟩ (some p) = Seg3.distanceTo ⟨some a, some b⟩ (some p) := by
  have hc : ∀ a b : V3, ∃ r, Seg3.contains ⟨some a, some b⟩ (some p) = .ok r ∧ (r = true ↔ p ∈ SegSet a b) := by
    intro a b
    refine ⟨_, rfl, ?_⟩
    by_cases h : a = b
    · subst h
      rw [if_pos (P3.eq_iff.2 rfl), P3.eq_iff, segSet_self]
      exact eq_comm
    · rw [if_neg (fun e => h (P3.eq_iff.1 e)), mem_segSet h]
      by_cases h' : ((b - a).cross (p - a)).normSq = 0
      · simp [h']
      · simp [h']
  have hd : ∀ a b : V3, ∃ d, Seg3.distanceTo ⟨some a, some b⟩ (some p) = .ok d ∧ IsDistance (SegSet a b) p d := by
    intro a b
    refine ⟨_, rfl, ?_⟩
    by_cases h : a = b
    · subst h
      rw [if_pos (P3.eq_iff.2 rfl), segSet_self]
      exact ⟨⟨a, rfl, rfl⟩, fun q hq => by rw [Set.mem_singleton_iff.1 hq]⟩
    · rw [if_neg (fun e => h (P3.eq_iff.1 e))]
      have hn : 0 < (b - a).normSq :=
        lt_of_le_of_ne (b - a).normSq_nonneg (fun e => h (V3.sub_eq_zero'.1 (V3.normSq_eq_zero.1 e.symm)).symm)
      rw [V3.dot_comm (p - a) (b - a)]
      obtain ⟨c0, c1, c2⟩ := clamp_spec (m := (b - a).dot (p - a)) hn
      refine ⟨⟨_, ⟨_, c0, c1, rfl⟩, rfl⟩, ?_⟩
      rintro q ⟨t, t0, t1, rfl⟩
      rw [V3.norm_le_norm, normSq_param, normSq_param]
      have := c2 t t0 t1
      linarith
  obtain ⟨d, hd1, hd2⟩ := hd a b
  obtain ⟨d', hd1', hd2'⟩ := hd b a
  obtain ⟨r, hr, hr'⟩ := hc a b
  obtain ⟨s, hs, hs'⟩ := hc b a
  rw [segSet_comm] at hd2' hs'
  refine ⟨⟨r, hr, hr'⟩, ⟨d, hd1, hd2, ?_⟩, ?_, ?_⟩
  · rw [hr, isDistance_zero hd2, ← hr', Except.ok.injEq]
  · rw [hr, hs, Except.ok.injEq, Bool.eq_iff_iff, hr', hs']
  · rw [hd1, hd1', isDistance_unique hd2 hd2']

example : (⟨1, 0, 0⟩ : V3) ∈ SegSet ⟨0, 0, 0⟩ ⟨2, 0, 0⟩ := ⟨1 / 2, by norm_num, by norm_num, by ext <;> norm_num⟩

/-- The centre of a 3D segment is on it, at half its length from both ends; the length is the distance of the ends and the direction is the unit
vector from the first to the second. -/
theorem C42_center3 (a b : V3) :
    ∃ c l, Seg3.getCenter ⟨some a, some b⟩ = .ok c ∧ Seg3.getLength ⟨some a, some b⟩ = .ok l ∧ l = (b - a).norm ∧ c ∈ SegSet a b ∧
      (c - a).norm = l / 2 ∧ (c - b).norm = l / 2 ∧
      (a ≠ b → ∃ u, Seg3.getDirection ⟨some a, some b⟩ = .ok u ∧ u.norm = 1 ∧ b = a + l • u) ∧
      (a = b → Seg3.getDirection ⟨some a, some b⟩ = .error .runtimeError) := by
  refine ⟨_, _, rfl, rfl, rfl, ⟨1 / 2, by norm_num, by norm_num, rfl⟩, ?_, ?_, ?_, ?_⟩
  · rw [show a + (1 / 2 : ℝ) • (b - a) - a = (1 / 2 : ℝ) • (b - a) by ext <;> simp, V3.norm_smul, abs_of_pos (by norm_num)]; ring
  · rw [show a + (1 / 2 : ℝ) • (b - a) - b = (-1 / 2 : ℝ) • (b - a) by ext <;> simp <;> ring, V3.norm_smul, abs_of_neg (by norm_num)]; ring
  · intro h
    have hn : 0 < (b - a).normSq :=
      lt_of_le_of_ne (b - a).normSq_nonneg (fun e => h (V3.sub_eq_zero'.1 (V3.normSq_eq_zero.1 e.symm)).symm)
    refine ⟨(b - a).normalized, ?_, V3.norm_normalized hn, ?_⟩
    · simp [Seg3.getDirection, need, bind, Except.bind, mt P3.eq_iff.1 h]
    · rw [V3.norm_smul_normalized]; ext <;> simp
  · rintro rfl
    simp [Seg3.getDirection, need, bind, Except.bind, P3.eq_iff.2 rfl]

example : (⟨0, 0, 0⟩ : V3) ≠ ⟨2, 0, 0⟩ := by simp [V3.ext_iff]

/-! ## C43 -/

/-- The constructor of a 3D line accepts exactly the non-zero directions, normalises them, and keeps the line. -/
theorem C43_constructor3 (o d : V3) :
    (d = 0 → Line3.ctor (some o) (some d) = .error .wrong) ∧
    (d ≠ 0 → ∃ u, Line3.ctor (some o) (some d) = .ok ⟨some o, some u⟩ ∧ u.norm = 1 ∧ d = d.norm • u ∧ LineSet o u = LineSet o d) := by
  constructor
  · rintro rfl
    simp [Line3.ctor, V3.normSq, V3.dot]
  · intro h
    have hn : 0 < d.normSq := lt_of_le_of_ne d.normSq_nonneg (fun e => h (V3.normSq_eq_zero.1 e.symm))
    have hc : Line3.ctor (some o) (some d) = .ok ⟨some o, some d.normalized⟩ := by
      by_cases h1 : d.normSq = 1
      · simp [Line3.ctor, h1, V3.normalized_of_unit h1]
      · simp [Line3.ctor, h1, hn.ne']
    have hp := V3.norm_pos hn
    refine ⟨_, hc, V3.norm_normalized hn, (V3.norm_smul_normalized d).symm, ?_⟩
    ext p
    constructor
    · rintro ⟨t, rfl⟩
      refine ⟨t / d.norm, ?_⟩
      rw [V3.normalized_eq hn]
      ext <;> simp <;> field_simp
    · rintro ⟨t, rfl⟩
      refine ⟨t * d.norm, ?_⟩
      rw [V3.normalized_eq hn]
      ext <;> simp <;> field_simp

example : (⟨0, 3, 4⟩ : V3) ≠ 0 := by simp [V3.ext_iff]

theorem line_sub {o d o' d' : V3} (h : LineSet o d = LineSet o' d') : ∃ s t : ℝ, o' = o + s • d ∧ d' = t • d := by
  have h1 : o' ∈ LineSet o d := by rw [h]; exact ⟨0, by ext <;> simp⟩
  have h2 : o' + d' ∈ LineSet o d := by rw [h]; exact ⟨1, by ext <;> simp⟩
  obtain ⟨s, hs⟩ := h1
  obtain ⟨u, hu⟩ := h2
  refine ⟨s, u - s, hs, ?_⟩
  have hx := congrArg V3.x hu
  have hy := congrArg V3.y hu
  have hz := congrArg V3.z hu
  have hx' := congrArg V3.x hs
  have hy' := congrArg V3.y hs
  have hz' := congrArg V3.z hs
  simp at hx hy hz hx' hy' hz'
  ext <;> simp <;> linarith

theorem unit_smul {d d' : V3} (hd : d.norm = 1) (hd' : d'.norm = 1) {t : ℝ} (h : d' = t • d) : t = 1 ∨ t = -1 := by
  rw [h, V3.norm_smul, hd, mul_one] at hd'
  rcases abs_eq (zero_le_one (α := ℝ)) |>.1 hd' with h | h <;> simp [h]

/-- 3D lines (with a unit direction, as all lines have by `C43_constructor3`): `contains` decides membership, `distanceTo` is the attained
minimum of the distances, and `==` holds exactly for lines with the same points. -/
theorem C43_line3 (o d o' d' p : V3) (hd : d.norm = 1) (hd' : d'.norm = 1) :
    (∃ r, Line3.contains ⟨some o, some d⟩ (some p) = .ok r ∧ (r = true ↔ p ∈ LineSet o d)) ∧
    (∃ k, Line3.distanceTo ⟨some o, some d⟩ (some p) = .ok k ∧ IsDistance (LineSet o d) p k) ∧
    (Line3.eq ⟨some o, some d⟩ ⟨some o', some d'⟩ = true ↔ LineSet o d = LineSet o' d') := by
  have hc : ∀ p, ∃ r, Line3.contains ⟨some o, some d⟩ (some p) = .ok r ∧ (r = true ↔ p ∈ LineSet o d) := by
    intro p
    refine ⟨_, rfl, ?_⟩
    rw [mem_lineSet (V3.ne_zero_of_unit hd), decide_eq_true_eq]
  refine ⟨hc p, ⟨_, rfl, ?_⟩, ?_⟩
  · have hs : d.normSq = 1 := V3.normSq_of_unit hd
    have e : (o + (d.dot (p - o)) • d - p).normSq = (d.cross (p - o)).normSq := by
      rw [normSq_param, V3.lagrange, hs]; ring
    refine ⟨⟨_, ⟨_, rfl⟩, by rw [V3.norm, e]; rfl⟩, ?_⟩
    rintro q ⟨t, rfl⟩
    rw [V3.norm_le_norm, ← e, normSq_param, normSq_param, hs]
    nlinarith [sq_nonneg (t - d.dot (p - o))]
  · obtain ⟨r, hr, hr'⟩ := hc o'
    have he : Line3.eq ⟨some o, some d⟩ ⟨some o', some d'⟩ = true ↔ (d = d' ∨ d = -d') ∧ o' ∈ LineSet o d := by
      rw [← hr']
      simp only [Line3.eq, hr]
      by_cases h : d = d' ∨ d = -d' <;> simp [h]
    rw [he]
    constructor
    · rintro ⟨h, s, rfl⟩
      ext q
      rcases h with rfl | h
      · constructor
        · rintro ⟨t, rfl⟩; exact ⟨t - s, by ext <;> simp <;> ring⟩
        · rintro ⟨t, rfl⟩; exact ⟨s + t, by ext <;> simp <;> ring⟩
      · subst h
        constructor
        · rintro ⟨t, rfl⟩; exact ⟨s - t, by ext <;> simp <;> ring⟩
        · rintro ⟨t, rfl⟩; exact ⟨s - t, by ext <;> simp <;> ring⟩
    · intro h
      obtain ⟨s, t, h1, h2⟩ := line_sub h
      refine ⟨?_, s, h1⟩
      rcases unit_smul hd hd' h2 with rfl | rfl
      · left; rw [h2]; ext <;> simp
      · right; rw [h2]; ext <;> simp

example : (⟨0, 3 / 5, 4 / 5⟩ : V3).norm = 1 := by
  rw [V3.norm, show (⟨0, 3 / 5, 4 / 5⟩ : V3).normSq = 1 by norm_num [V3.normSq, V3.dot], Real.sqrt_one]

/-- The 3D line through two points contains both; identical points are rejected. `toLine` of a segment is a line that contains the segment. -/
theorem C43_points3 (a b : V3) :
    (a = b → Line3.Points (some a) (some b) = .error .runtimeError) ∧
    (a ≠ b → ∃ u, Line3.Points (some a) (some b) = .ok ⟨some a, some u⟩ ∧ Seg3.toLine ⟨some a, some b⟩ = .ok ⟨some a, some u⟩ ∧ u.norm = 1 ∧
      a ∈ LineSet a u ∧ b ∈ LineSet a u ∧ SegSet a b ⊆ LineSet a u) := by
  constructor
  · rintro rfl
    simp [Line3.Points, need, bind, Except.bind, P3.eq_iff.2 rfl]
  · intro h
    have hn : 0 < (b - a).normSq :=
      lt_of_le_of_ne (b - a).normSq_nonneg (fun e => h (V3.sub_eq_zero'.1 (V3.normSq_eq_zero.1 e.symm)).symm)
    have h1 := V3.normSq_normalized hn
    have hp := V3.norm_pos hn
    have hP : Line3.Points (some a) (some b) = .ok ⟨some a, some (b - a).normalized⟩ := by
      simp [Line3.Points, need, bind, Except.bind, mt P3.eq_iff.1 h, Line3.ctor, h1]
    have hs : SegSet a b ⊆ LineSet a (b - a).normalized := by
      rintro p ⟨t, -, -, rfl⟩
      refine ⟨t * (b - a).norm, ?_⟩
      rw [show (t * (b - a).norm) • (b - a).normalized = t • ((b - a).norm • (b - a).normalized) by ext <;> simp <;> ring,
        V3.norm_smul_normalized]
    refine ⟨_, hP, hP, V3.norm_normalized hn, ⟨0, by ext <;> simp⟩, hs ⟨1, by norm_num, le_refl _, by ext <;> simp⟩, hs⟩

example : (⟨0, 0, 0⟩ : V3) ≠ ⟨2, 0, 0⟩ := by simp [V3.ext_iff]

/-! ## C44 -/

/-- Rays (with a unit direction): `contains` decides membership, `distanceTo` is the attained minimum of the distances, and `==` holds exactly
for rays with the same points. -/
theorem C44_ray (o d o' d' p : V3) (hd : d.norm = 1) (hd' : d'.norm = 1) :
    (∃ r, Ray3.contains ⟨some o, some d⟩ (some p) = .ok r ∧ (r = true ↔ p ∈ RaySet o d)) ∧
    (∃ k, Ray3.distanceTo ⟨some o, some d⟩ (some p) = .ok k ∧ IsDistance (RaySet o d) p k) ∧
    (Ray3.eq ⟨some o, some d⟩ ⟨some o', some d'⟩ = true ↔ RaySet o d = RaySet o' d') := by
  have hs : d.normSq = 1 := V3.normSq_of_unit hd
  refine ⟨⟨_, rfl, ?_⟩, ⟨_, rfl, ?_⟩, ?_⟩
  · rw [mem_raySet (V3.ne_zero_of_unit hd), Bool.and_eq_true, decide_eq_true_eq, decide_eq_true_eq]
  · rw [V3.dot_comm (p - o) d]
    by_cases hpo : p = o
    · subst hpo
      rw [if_pos (P3.eq_iff.2 rfl)]
      refine ⟨⟨p, ⟨0, le_refl _, by ext <;> simp⟩, ?_⟩, fun q _ => V3.norm_nonneg _⟩
      rw [V3.sub_eq_zero'.2 rfl, V3.norm_zero]
    rw [if_neg (fun e => hpo (P3.eq_iff.1 e))]
    by_cases hneg : d.dot (p - o) < 0
    · rw [if_pos hneg, V3.norm_sub_comm]
      refine ⟨⟨o, ⟨0, le_refl _, by ext <;> simp⟩, rfl⟩, ?_⟩
      rintro q ⟨t, t0, rfl⟩
      rw [V3.norm_sub_comm o p, V3.norm_le_norm, normSq_param, hs]
      nlinarith [mul_nonneg t0 (neg_nonneg.2 hneg.le), sq_nonneg t]
    · rw [if_neg hneg]
      push Not at hneg
      have e : (o + (d.dot (p - o)) • d - p).normSq = (d.cross (p - o)).normSq := by
        rw [normSq_param, V3.lagrange, hs]; ring
      refine ⟨⟨_, ⟨_, hneg, rfl⟩, by rw [V3.norm, e]; rfl⟩, ?_⟩
      rintro q ⟨t, -, rfl⟩
      rw [V3.norm_le_norm, ← e, normSq_param, normSq_param, hs]
      nlinarith [sq_nonneg (t - d.dot (p - o))]
  · have he : Ray3.eq ⟨some o, some d⟩ ⟨some o', some d'⟩ = true ↔ o = o' ∧ d = d' := by
      simp only [Ray3.eq, Bool.and_eq_true, decide_eq_true_eq, P3.eq_iff]
    rw [he]
    constructor
    · rintro ⟨rfl, rfl⟩; rfl
    · intro h
      have m1 : o' ∈ RaySet o d := by rw [h]; exact ⟨0, le_refl _, by ext <;> simp⟩
      have m2 : o' + d' ∈ RaySet o d := by rw [h]; exact ⟨1, zero_le_one, by ext <;> simp⟩
      have m3 : o ∈ RaySet o' d' := by rw [← h]; exact ⟨0, le_refl _, by ext <;> simp⟩
      obtain ⟨s, s0, hs1⟩ := m1
      obtain ⟨u, u0, hu⟩ := m2
      obtain ⟨w, w0, hw⟩ := m3
      have hdd : d' = (u - s) • d := by
        have hx := congrArg V3.x hu
        have hy := congrArg V3.y hu
        have hz := congrArg V3.z hu
        have hx' := congrArg V3.x hs1
        have hy' := congrArg V3.y hs1
        have hz' := congrArg V3.z hs1
        simp at hx hy hz hx' hy' hz'
        ext <;> simp <;> linarith
      have key : ∀ k : ℝ, k • d = 0 → k = 0 := by
        intro k hk
        have := congrArg V3.norm hk
        rw [V3.norm_smul, hd, mul_one, V3.norm_zero] at this
        exact abs_eq_zero.1 this
      rcases unit_smul hd hd' hdd with e | e
      · have hd2 : d' = d := by rw [hdd, e]; ext <;> simp
        have : (s + w) • d = 0 := by
          have hx := congrArg V3.x hw
          have hy := congrArg V3.y hw
          have hz := congrArg V3.z hw
          rw [hs1, hd2] at hx hy hz
          simp only [V3.add_x, V3.add_y, V3.add_z, V3.smul_x, V3.smul_y, V3.smul_z] at hx hy hz
          ext
          · show (s + w) * d.x = 0; linarith
          · show (s + w) * d.y = 0; linarith
          · show (s + w) * d.z = 0; linarith
        have h0 := key _ this
        have hs0 : s = 0 := by linarith
        refine ⟨?_, hd2.symm⟩
        rw [hs1, hs0]; ext <;> simp
      · exfalso
        have hd2 : d' = -d := by rw [hdd, e]; ext <;> simp
        have m4 : o + (s + 1) • d ∈ RaySet o' d' := by rw [← h]; exact ⟨s + 1, by linarith, rfl⟩
        obtain ⟨v, v0, hv⟩ := m4
        have : (1 + v) • d = 0 := by
          have hx := congrArg V3.x hv
          have hy := congrArg V3.y hv
          have hz := congrArg V3.z hv
          rw [hs1, hd2] at hx hy hz
          simp only [V3.add_x, V3.add_y, V3.add_z, V3.smul_x, V3.smul_y, V3.smul_z, V3.neg_x, V3.neg_y, V3.neg_z] at hx hy hz
          ext
          · show (1 + v) * d.x = 0; linarith
          · show (1 + v) * d.y = 0; linarith
          · show (1 + v) * d.z = 0; linarith
        have := key _ this
        linarith

example : (⟨0, 3 / 5, 4 / 5⟩ : V3).norm = 1 := by
  rw [V3.norm, show (⟨0, 3 / 5, 4 / 5⟩ : V3).normSq = 1 by norm_num [V3.normSq, V3.dot], Real.sqrt_one]

/-- The constructor of a ray accepts exactly the non-zero directions, normalises them, and keeps the ray. -/
theorem C44_constructor (o d : V3) :
    (d = 0 → Ray3.ctor (some o) (some d) = .error .wrong) ∧
    (d ≠ 0 → ∃ u, Ray3.ctor (some o) (some d) = .ok ⟨some o, some u⟩ ∧ u.norm = 1 ∧ d = d.norm • u ∧ RaySet o u = RaySet o d) := by
  constructor
  · rintro rfl
    simp [Ray3.ctor, V3.normSq, V3.dot]
  · intro h
    have hn : 0 < d.normSq := lt_of_le_of_ne d.normSq_nonneg (fun e => h (V3.normSq_eq_zero.1 e.symm))
    have hc : Ray3.ctor (some o) (some d) = .ok ⟨some o, some d.normalized⟩ := by
      by_cases h1 : d.normSq = 1
      · simp [Ray3.ctor, h1, V3.normalized_of_unit h1]
      · simp [Ray3.ctor, h1, hn.ne']
    have hp := V3.norm_pos hn
    refine ⟨_, hc, V3.norm_normalized hn, (V3.norm_smul_normalized d).symm, ?_⟩
    ext p
    constructor
    · rintro ⟨t, t0, rfl⟩
      refine ⟨t / d.norm, div_nonneg t0 hp.le, ?_⟩
      rw [V3.normalized_eq hn]
      ext <;> simp <;> field_simp
    · rintro ⟨t, t0, rfl⟩
      refine ⟨t * d.norm, mul_nonneg t0 hp.le, ?_⟩
      rw [V3.normalized_eq hn]
      ext <;> simp <;> field_simp

example : (⟨0, 3, 4⟩ : V3) ≠ 0 := by simp [V3.ext_iff]

/-! ## C45 -/

theorem allOf_true {α : Type} {f : α → Res Bool} {g : α → Prop} {l : List α} (h : ∀ a ∈ l, ∃ r, f a = .ok r ∧ (r = true ↔ g a)) :
    ∃ r, allOf f l = .ok r ∧ (r = true ↔ ∀ a ∈ l, g a) := by
  induction l with
  | nil => exact ⟨true, rfl, by simp⟩
  | cons a l ih =>
    obtain ⟨r, hr, hr'⟩ := h a (by simp)
    obtain ⟨s, hs, hs'⟩ := ih (fun b hb => h b (by simp [hb]))
    cases r with
    | false => exact ⟨false, by simp [allOf, hr], by simp at hr' ⊢; exact fun hg => absurd hg hr'⟩
    | true => exact ⟨s, by simp [allOf, hr, hs], by simp at hr'; simp [hs', hr']⟩

theorem anyOf_true {α : Type} {f : α → Res Bool} {g : α → Prop} {l : List α} (h : ∀ a ∈ l, ∃ r, f a = .ok r ∧ (r = true ↔ g a)) :
    ∃ r, anyOf f l = .ok r ∧ (r = true ↔ ∃ a ∈ l, g a) := by
  induction l with
  | nil => exact ⟨false, rfl, by simp⟩
  | cons a l ih =>
    obtain ⟨r, hr, hr'⟩ := h a (by simp)
    obtain ⟨s, hs, hs'⟩ := ih (fun b hb => h b (by simp [hb]))
    cases r with
    | true => exact ⟨true, by simp [anyOf, hr], by simp at hr'; simp [hr']⟩
    | false => exact ⟨s, by simp [anyOf, hr, hs], by simp at hr'; simp [hs', hr']⟩

theorem plane_contains (q n p : V3) : ∃ r, Plane3.contains ⟨some q, some n⟩ (some p) = .ok r ∧ (r = true ↔ p ∈ PlaneSet q n) := by
  refine ⟨_, rfl, ?_⟩
  rw [decide_eq_true_eq, V3.dot_comm]
  rfl

/-- Planes: `contains` of a point, of a line, of a ray, of a segment and of a non-empty set of points means that all points of the object are in
the plane; `intersects` of a set of points means that one is. -/
theorem C45_contains (q n : V3) :
    (∀ p, ∃ r, Plane3.contains ⟨some q, some n⟩ (some p) = .ok r ∧ (r = true ↔ p ∈ PlaneSet q n)) ∧
    (∀ o d, ∃ r, Plane3.containsLine ⟨some q, some n⟩ ⟨some o, some d⟩ = .ok r ∧ (r = true ↔ LineSet o d ⊆ PlaneSet q n)) ∧
    (∀ o d, ∃ r, Plane3.containsRay ⟨some q, some n⟩ ⟨some o, some d⟩ = .ok r ∧ (r = true ↔ RaySet o d ⊆ PlaneSet q n)) ∧
    (∀ a b, ∃ r, Plane3.containsSegment ⟨some q, some n⟩ ⟨some a, some b⟩ = .ok r ∧ (r = true ↔ SegSet a b ⊆ PlaneSet q n)) ∧
    (∀ ps : List V3, ps ≠ [] → ∃ r, Plane3.containsSet ⟨some q, some n⟩ (ps.map some) = .ok r ∧ (r = true ↔ ∀ p ∈ ps, p ∈ PlaneSet q n)) ∧
    (∀ ps : List V3, ps ≠ [] → ∃ r, Plane3.intersectsSet ⟨some q, some n⟩ (ps.map some) = .ok r ∧ (r = true ↔ ∃ p ∈ ps, p ∈ PlaneSet q n)) := by
  refine ⟨plane_contains q n, ?_, ?_, ?_, ?_, ?_⟩
  · intro o d
    obtain ⟨r, hr, hr'⟩ := plane_contains q n o
    refine ⟨r && decide (n.dot d = 0), by simp [Plane3.containsLine, need, hr, bind, Except.bind, pure, Except.pure], ?_⟩
    rw [Bool.and_eq_true, hr', decide_eq_true_eq]
    constructor
    · rintro ⟨h1, h2⟩ p ⟨t, rfl⟩
      show n.dot _ = 0
      have h1 : n.dot (o - q) = 0 := h1
      rw [show o + t • d - q = (o - q) + t • d by ext <;> simp <;> ring, V3.dot_add, V3.dot_smul, h1, h2]; ring
    · intro h
      have h1 : n.dot (o - q) = 0 := h ⟨0, by ext <;> simp⟩
      have h2 : n.dot (o + d - q) = 0 := h (⟨1, by ext <;> simp⟩ : o + d ∈ LineSet o d)
      refine ⟨h1, ?_⟩
      rw [show o + d - q = (o - q) + d by ext <;> simp <;> ring, V3.dot_add, h1] at h2
      linarith
  · intro o d
    obtain ⟨r, hr, hr'⟩ := plane_contains q n o
    refine ⟨r && decide (n.dot d = 0), by simp [Plane3.containsRay, need, hr, bind, Except.bind, pure, Except.pure], ?_⟩
    rw [Bool.and_eq_true, hr', decide_eq_true_eq]
    constructor
    · rintro ⟨h1, h2⟩ p ⟨t, -, rfl⟩
      show n.dot _ = 0
      have h1 : n.dot (o - q) = 0 := h1
      rw [show o + t • d - q = (o - q) + t • d by ext <;> simp <;> ring, V3.dot_add, V3.dot_smul, h1, h2]; ring
    · intro h
      have h1 : n.dot (o - q) = 0 := h ⟨0, le_refl _, by ext <;> simp⟩
      have h2 : n.dot (o + d - q) = 0 := h (⟨1, zero_le_one, by ext <;> simp⟩ : o + d ∈ RaySet o d)
      refine ⟨h1, ?_⟩
      rw [show o + d - q = (o - q) + d by ext <;> simp <;> ring, V3.dot_add, h1] at h2
      linarith
  · intro a b
    obtain ⟨r, hr, hr'⟩ := plane_contains q n a
    obtain ⟨s, hs, hs'⟩ := plane_contains q n b
    refine ⟨r && s, by cases r <;> simp [Plane3.containsSegment, Seg3.isDefined, Plane3.isDefined, hr, hs], ?_⟩
    rw [Bool.and_eq_true, hr', hs']
    constructor
    · rintro ⟨h1, h2⟩ p ⟨t, -, -, rfl⟩
      show n.dot _ = 0
      have h1 : n.dot (a - q) = 0 := h1
      have h2 : n.dot (b - q) = 0 := h2
      rw [show a + t • (b - a) - q = (a - q) + t • ((b - q) - (a - q)) by ext <;> simp <;> ring, V3.dot_add, V3.dot_smul, h1, V3.dot_sub n (b - q), h1, h2]
      ring
    · intro h
      exact ⟨h ⟨0, le_refl _, zero_le_one, by ext <;> simp⟩, h ⟨1, zero_le_one, le_refl _, by ext <;> simp⟩⟩
  · intro ps hps
    obtain ⟨r, hr, hr'⟩ := allOf_true (f := Plane3.contains ⟨some q, some n⟩) (g := fun p => ∀ x, p = some x → x ∈ PlaneSet q n)
      (l := ps.map some) (by
        intro p hp
        obtain ⟨x, -, rfl⟩ := List.mem_map.1 hp
        obtain ⟨r, hr, hr'⟩ := plane_contains q n x
        exact ⟨r, hr, hr'.trans ⟨fun h y hy => (Option.some.inj hy) ▸ h, fun h => h x rfl⟩⟩)
    refine ⟨r, by simp [Plane3.containsSet, Plane3.isDefined, hps, hr], hr'.trans ?_⟩
    simp
  · intro ps hps
    obtain ⟨r, hr, hr'⟩ := anyOf_true (f := Plane3.contains ⟨some q, some n⟩) (g := fun p => ∀ x, p = some x → x ∈ PlaneSet q n)
      (l := ps.map some) (by
        intro p hp
        obtain ⟨x, -, rfl⟩ := List.mem_map.1 hp
        obtain ⟨r, hr, hr'⟩ := plane_contains q n x
        exact ⟨r, hr, hr'.trans ⟨fun h y hy => (Option.some.inj hy) ▸ h, fun h => h x rfl⟩⟩)
    refine ⟨r, by simp [Plane3.intersectsSet, Plane3.isDefined, hps, hr], hr'.trans ?_⟩
    simp

example : [(⟨1, 0, 0⟩ : V3)] ≠ [] := by simp

theorem plane_normal {q n q' n' : V3} (hn : n.norm = 1) (hn' : n'.norm = 1) (h : PlaneSet q n = PlaneSet q' n') : n = n' ∨ n = -n' := by
  have h1 := V3.normSq_of_unit hn
  have h1' := V3.normSq_of_unit hn'
  have hq : n'.dot (q - q') = 0 := by
    have : q ∈ PlaneSet q n := by show n.dot (q - q) = 0; rw [V3.sub_eq_zero'.2 rfl]; simp [V3.dot]
    rw [h] at this; exact this
  let v := n' - (n.dot n') • n
  have hv : n.dot v = 0 := by
    show n.dot (n' - (n.dot n') • n) = 0
    rw [V3.dot_sub, V3.dot_smul, show n.dot n = n.normSq from rfl, h1]; ring
  have hv' : n'.dot v = 0 := by
    have m : q + v ∈ PlaneSet q n := by
      show n.dot (q + v - q) = 0
      rw [show q + v - q = v by ext <;> simp]; exact hv
    rw [h] at m
    have m : n'.dot (q + v - q') = 0 := m
    rw [show q + v - q' = (q - q') + v by ext <;> simp <;> ring, V3.dot_add, hq] at m
    linarith
  have hv0 : v.normSq = 0 := by
    show v.dot v = 0
    have : v.dot v = n'.dot v - (n.dot n') * n.dot v := by
      show (n' - (n.dot n') • n).dot v = _
      rw [V3.dot_comm, V3.dot_sub, V3.dot_smul, V3.dot_comm v n', V3.dot_comm v n]
    rw [this, hv, hv']; ring
  have e : n' = (n.dot n') • n := V3.sub_eq_zero'.1 (V3.normSq_eq_zero.1 hv0)
  rcases unit_smul hn hn' e with k | k
  · left; rw [e, k]; ext <;> simp
  · right; rw [e, k]; ext <;> simp

/-- Two planes with a unit normal (as the constructor gives for a non-zero normal) are equal exactly when they have the same points. -/
theorem C45_equality (q n q' n' : V3) (hn : n.norm = 1) (hn' : n'.norm = 1) :
    Plane3.eq ⟨some q, some n⟩ ⟨some q', some n'⟩ = true ↔ PlaneSet q n = PlaneSet q' n' := by
  obtain ⟨r, hr, hr'⟩ := plane_contains q n q'
  have hself : ∀ q n : V3, q ∈ PlaneSet q n := by
    intro q n; show n.dot (q - q) = 0; rw [V3.sub_eq_zero'.2 rfl]; simp [V3.dot]
  have he : Plane3.eq ⟨some q, some n⟩ ⟨some q', some n'⟩ = true ↔ (n = n' ∨ n = -n') ∧ q' ∈ PlaneSet q n := by
    rw [← hr']
    simp only [Plane3.eq, hr]
    by_cases h : n = n' ∨ n = -n'
    · by_cases h' : q = q'
      · have : r = true := hr'.2 (h' ▸ hself q n)
        simp [h, this]
      · simp [h, Bool.eq_false_iff.2 (mt P3.eq_iff.1 h')]
    · simp [h]
  rw [he]
  constructor
  · rintro ⟨h, hq⟩
    have hq : n.dot (q' - q) = 0 := hq
    ext p
    show n.dot (p - q) = 0 ↔ n'.dot (p - q') = 0
    have e : n.dot (p - q) = n.dot (p - q') := by
      rw [show p - q = (p - q') + (q' - q) by ext <;> simp, V3.dot_add, hq, add_zero]
    rw [e]
    rcases h with rfl | rfl
    · rfl
    · constructor
      · intro k; simp [V3.dot] at k ⊢; linarith
      · intro k; simp [V3.dot] at k ⊢; linarith
  · intro h
    exact ⟨plane_normal hn hn' h, by rw [h]; exact hself q' n'⟩

example : (⟨0, 3 / 5, 4 / 5⟩ : V3).norm = 1 := by
  rw [V3.norm, show (⟨0, 3 / 5, 4 / 5⟩ : V3).normSq = 1 by norm_num [V3.normSq, V3.dot], Real.sqrt_one]

/-- The constructor of a plane normalises a non-zero normal and keeps the plane. A zero normal is accepted: such a plane contains every point. -/
theorem C45_constructor (q n : V3) :
    (n ≠ 0 → ∃ u, Plane3.ctor (some q) (some n) = ⟨some q, some u⟩ ∧ u.norm = 1 ∧ PlaneSet q u = PlaneSet q n) ∧
    (n = 0 → ∀ p, Plane3.contains (Plane3.ctor (some q) (some n)) (some p) = .ok true) := by
  constructor
  · intro h
    have hn : 0 < n.normSq := lt_of_le_of_ne n.normSq_nonneg (fun e => h (V3.normSq_eq_zero.1 e.symm))
    refine ⟨_, rfl, V3.norm_normalized hn, ?_⟩
    have hp := V3.norm_pos hn
    ext p
    show n.normalized.dot (p - q) = 0 ↔ n.dot (p - q) = 0
    rw [V3.normalized_eq hn, V3.dot_comm, V3.dot_smul, V3.dot_comm]
    constructor
    · intro k
      rcases mul_eq_zero.1 k with k | k
      · exact absurd k (by positivity)
      · exact k
    · intro k; rw [k, mul_zero]
  · rintro rfl p
    simp [Plane3.ctor, Plane3.contains, need, bind, Except.bind, pure, Except.pure, V3.dot]

example : (⟨0, 3, 4⟩ : V3) ≠ 0 := by simp [V3.ext_iff]

/-! ## C46 -/

theorem isect_empty : IsectPoints .Empty = ∅ := by
  ext p; simp [IsectPoints, Isect3.Empty, Isect3.ofArray, Composite3.ofArray]

theorem isect_point (x : V3) : IsectPoints (.Point (some x)) = {x} := by
  ext p; simp [IsectPoints, Isect3.Point, Composite3.ofObject, ObjPoints]

/-- the point with parameter `t` of a line is in the plane exactly for one `t`, if the line is not parallel -/
theorem param_mem {q n o d : V3} (h : n.dot d ≠ 0) (t : ℝ) : o + t • d ∈ PlaneSet q n ↔ t = n.dot (q - o) / n.dot d := by
  show n.dot (o + t • d - q) = 0 ↔ _
  rw [show o + t • d - q = t • d - (q - o) by ext <;> simp <;> ring, V3.dot_sub, V3.dot_smul, eq_div_iff h, sub_eq_zero]

/-- for a parallel line all points are in the plane, or none -/
theorem param_mem_parallel {q n o d : V3} (h : n.dot d = 0) (t : ℝ) : o + t • d ∈ PlaneSet q n ↔ n.dot (q - o) = 0 := by
  show n.dot (o + t • d - q) = 0 ↔ _
  rw [show o + t • d - q = t • d - (q - o) by ext <;> simp <;> ring, V3.dot_sub, V3.dot_smul, h]
  constructor <;> intro k <;> linarith

/-- Plane and line: `intersects` means a common point; `intersectionWith` has exactly the common points, and is `Empty` exactly when there are
none. Any normal and direction, even zero. -/
theorem C46_line (q n o d : V3) :
    (∃ r, Line3.intersects ⟨some o, some d⟩ ⟨some q, some n⟩ = .ok r ∧ (r = true ↔ (LineSet o d ∩ PlaneSet q n).Nonempty)) ∧
    ∃ i, Line3.intersectionWith ⟨some o, some d⟩ ⟨some q, some n⟩ = .ok i ∧ i.isDefined = true ∧
      IsectPoints i = LineSet o d ∩ PlaneSet q n ∧ (i.isEmpty = true ↔ LineSet o d ∩ PlaneSet q n = ∅) := by
  have o_mem : o ∈ LineSet o d := ⟨0, by ext <;> simp⟩
  have o_eq : o + (0 : ℝ) • d = o := by ext <;> simp
  by_cases h : n.dot d = 0
  · by_cases h' : n.dot (q - o) = 0
    · have e : LineSet o d ∩ PlaneSet q n = LineSet o d :=
        Set.inter_eq_left.2 (by rintro p ⟨t, rfl⟩; exact (param_mem_parallel h t).2 h')
      refine ⟨⟨true, by simp [Line3.intersects, need, bind, Except.bind, pure, Except.pure, h, h'], ?_⟩,
        .Line ⟨some o, some d⟩, by simp [Line3.intersectionWith, need, bind, Except.bind, pure, Except.pure, h, h'], rfl, ?_, ?_⟩
      · simp [e, Set.nonempty_of_mem o_mem]
      · rw [e]; ext p; simp [IsectPoints, Isect3.Line, Composite3.ofObject, ObjPoints]
      · rw [e]
        constructor
        · intro k; simp [Isect3.isEmpty, Isect3.Line] at k
        · intro k; rw [k] at o_mem; exact absurd o_mem (Set.notMem_empty o)
    · have e : LineSet o d ∩ PlaneSet q n = ∅ :=
        Set.eq_empty_iff_forall_notMem.2 (by rintro p ⟨⟨t, rfl⟩, hp⟩; exact h' ((param_mem_parallel h t).1 hp))
      refine ⟨⟨false, by simp [Line3.intersects, need, bind, Except.bind, pure, Except.pure, h, h'], by simp [e]⟩,
        .Empty, by simp [Line3.intersectionWith, need, bind, Except.bind, pure, Except.pure, h, h'], rfl, by rw [e, isect_empty], by simp [e]; rfl⟩
  · have e : LineSet o d ∩ PlaneSet q n = {o + (n.dot (q - o) / n.dot d) • d} := by
      ext p
      constructor
      · rintro ⟨⟨t, rfl⟩, hp⟩
        rw [(param_mem h t).1 hp]; rfl
      · rintro rfl
        exact ⟨⟨_, rfl⟩, (param_mem h _).2 rfl⟩
    refine ⟨⟨true, by simp [Line3.intersects, need, bind, Except.bind, pure, Except.pure, h], by simp [e]⟩,
      .Point (some (o + (n.dot (q - o) / n.dot d) • d)), by simp [Line3.intersectionWith, need, bind, Except.bind, pure, Except.pure, h], rfl,
      by rw [e, isect_point], ?_⟩
    rw [e]; simp [Isect3.isEmpty, Isect3.Point]

/-- Plane and ray: likewise. -/
theorem C46_ray (q n o d : V3) :
    (∃ r, Ray3.intersects ⟨some o, some d⟩ ⟨some q, some n⟩ = .ok r ∧ (r = true ↔ (RaySet o d ∩ PlaneSet q n).Nonempty)) ∧
    ∃ i, Ray3.intersectionWith ⟨some o, some d⟩ ⟨some q, some n⟩ = .ok i ∧ i.isDefined = true ∧
      IsectPoints i = RaySet o d ∩ PlaneSet q n ∧ (i.isEmpty = true ↔ RaySet o d ∩ PlaneSet q n = ∅) := by
  have o_mem : o ∈ RaySet o d := ⟨0, le_refl _, by ext <;> simp⟩
  by_cases h : n.dot d = 0
  · by_cases h' : n.dot (q - o) = 0
    · have e : RaySet o d ∩ PlaneSet q n = RaySet o d :=
        Set.inter_eq_left.2 (by rintro p ⟨t, -, rfl⟩; exact (param_mem_parallel h t).2 h')
      refine ⟨⟨true, by simp [Ray3.intersects, need, bind, Except.bind, pure, Except.pure, h, h'], ?_⟩,
        .Ray ⟨some o, some d⟩, by simp [Ray3.intersectionWith, need, bind, Except.bind, pure, Except.pure, h, h'], rfl, ?_, ?_⟩
      · simp [e, Set.nonempty_of_mem o_mem]
      · rw [e]; ext p; simp [IsectPoints, Isect3.Ray, Composite3.ofObject, ObjPoints]
      · rw [e]
        constructor
        · intro k; simp [Isect3.isEmpty, Isect3.Ray] at k
        · intro k; rw [k] at o_mem; exact absurd o_mem (Set.notMem_empty o)
    · have e : RaySet o d ∩ PlaneSet q n = ∅ :=
        Set.eq_empty_iff_forall_notMem.2 (by rintro p ⟨⟨t, -, rfl⟩, hp⟩; exact h' ((param_mem_parallel h t).1 hp))
      refine ⟨⟨false, by simp [Ray3.intersects, need, bind, Except.bind, pure, Except.pure, h, h'], by simp [e]⟩,
        .Empty, by simp [Ray3.intersectionWith, need, bind, Except.bind, pure, Except.pure, h, h'], rfl, by rw [e, isect_empty], by simp [e]; rfl⟩
  · by_cases h' : n.dot (q - o) / n.dot d < 0
    · have e : RaySet o d ∩ PlaneSet q n = ∅ :=
        Set.eq_empty_iff_forall_notMem.2 (by
          rintro p ⟨⟨t, t0, rfl⟩, hp⟩
          rw [(param_mem h t).1 hp] at t0
          exact absurd t0 (not_le.2 h'))
      refine ⟨⟨false, by simp [Ray3.intersects, need, bind, Except.bind, pure, Except.pure, h, h'], by simp [e]⟩,
        .Empty, by simp [Ray3.intersectionWith, need, bind, Except.bind, pure, Except.pure, h, h'], rfl, by rw [e, isect_empty], by simp [e]; rfl⟩
    · have e : RaySet o d ∩ PlaneSet q n = {o + (n.dot (q - o) / n.dot d) • d} := by
        ext p
        constructor
        · rintro ⟨⟨t, -, rfl⟩, hp⟩
          rw [(param_mem h t).1 hp]; rfl
        · rintro rfl
          exact ⟨⟨_, not_lt.1 h', rfl⟩, (param_mem h _).2 rfl⟩
      refine ⟨⟨true, by simp [Ray3.intersects, need, bind, Except.bind, pure, Except.pure, h, not_lt.1 h'], by simp [e]⟩,
        .Point (some (o + (n.dot (q - o) / n.dot d) • d)),
        by simp [Ray3.intersectionWith, need, bind, Except.bind, pure, Except.pure, h, h'], rfl, by rw [e, isect_point], ?_⟩
      rw [e]; simp [Isect3.isEmpty, Isect3.Point]

/-- Plane and segment, degenerate or not: likewise. -/
theorem C46_segment (q n a b : V3) :
    (∃ r, Seg3.intersects ⟨some a, some b⟩ ⟨some q, some n⟩ = .ok r ∧ (r = true ↔ (SegSet a b ∩ PlaneSet q n).Nonempty)) ∧
    ∃ i, Seg3.intersectionWith ⟨some a, some b⟩ ⟨some q, some n⟩ = .ok i ∧ i.isDefined = true ∧
      IsectPoints i = SegSet a b ∩ PlaneSet q n ∧ (i.isEmpty = true ↔ SegSet a b ∩ PlaneSet q n = ∅) := by
  have o_mem : a ∈ SegSet a b := ⟨0, le_refl _, zero_le_one, by ext <;> simp⟩
  by_cases h : n.dot (b - a) = 0
  · by_cases h' : n.dot (q - a) = 0
    · have e : SegSet a b ∩ PlaneSet q n = SegSet a b :=
        Set.inter_eq_left.2 (by rintro p ⟨t, -, -, rfl⟩; exact (param_mem_parallel h t).2 h')
      refine ⟨⟨true, by simp [Seg3.intersects, need, bind, Except.bind, pure, Except.pure, h, h'], ?_⟩,
        .Segment ⟨some a, some b⟩, by simp [Seg3.intersectionWith, need, bind, Except.bind, pure, Except.pure, h, h'], rfl, ?_, ?_⟩
      · simp [e, Set.nonempty_of_mem o_mem]
      · rw [e]; ext p; simp [IsectPoints, Isect3.Segment, Composite3.ofObject, ObjPoints]
      · rw [e]
        constructor
        · intro k; simp [Isect3.isEmpty, Isect3.Segment] at k
        · intro k; rw [k] at o_mem; exact absurd o_mem (Set.notMem_empty a)
    · have e : SegSet a b ∩ PlaneSet q n = ∅ :=
        Set.eq_empty_iff_forall_notMem.2 (by rintro p ⟨⟨t, -, -, rfl⟩, hp⟩; exact h' ((param_mem_parallel h t).1 hp))
      refine ⟨⟨false, by simp [Seg3.intersects, need, bind, Except.bind, pure, Except.pure, h, h'], by simp [e]⟩,
        .Empty, by simp [Seg3.intersectionWith, need, bind, Except.bind, pure, Except.pure, h, h'], rfl, by rw [e, isect_empty], by simp [e]; rfl⟩
  · by_cases h' : n.dot (q - a) / n.dot (b - a) < 0 ∨ 1 < n.dot (q - a) / n.dot (b - a)
    · have e : SegSet a b ∩ PlaneSet q n = ∅ :=
        Set.eq_empty_iff_forall_notMem.2 (by
          rintro p ⟨⟨t, t0, t1, rfl⟩, hp⟩
          rw [(param_mem h t).1 hp] at t0 t1
          rcases h' with k | k
          · exact absurd t0 (not_le.2 k)
          · exact absurd t1 (not_le.2 k))
      refine ⟨⟨false, ?_, by simp [e]⟩,
        .Empty, by simp [Seg3.intersectionWith, need, bind, Except.bind, pure, Except.pure, h, h'], rfl, by rw [e, isect_empty], by simp [e]; rfl⟩
      simp only [Seg3.intersects, need, bind, Except.bind, pure, Except.pure, h, if_false]
      rcases h' with k | k
      · simp [not_le.2 k]
      · simp [not_le.2 k]
    · have e : SegSet a b ∩ PlaneSet q n = {a + (n.dot (q - a) / n.dot (b - a)) • (b - a)} := by
        push Not at h'
        ext p
        constructor
        · rintro ⟨⟨t, -, -, rfl⟩, hp⟩
          rw [(param_mem h t).1 hp]; rfl
        · rintro rfl
          exact ⟨⟨_, h'.1, h'.2, rfl⟩, (param_mem h _).2 rfl⟩
      refine ⟨⟨true, ?_, by simp [e]⟩, .Point (some (a + (n.dot (q - a) / n.dot (b - a)) • (b - a))),
        by simp [Seg3.intersectionWith, need, bind, Except.bind, pure, Except.pure, h, h'], rfl, by rw [e, isect_point], ?_⟩
      · push Not at h'
        simp [Seg3.intersects, need, bind, Except.bind, pure, Except.pure, h, h'.1, h'.2]
      · rw [e]; simp [Isect3.isEmpty, Isect3.Point]

example : (⟨0, 0, 1⟩ : V3).dot ⟨0, 3, 4⟩ ≠ 0 := by norm_num [V3.dot]

/-- Plane and points: `intersectionWith` has exactly the points that are in the plane. -/
theorem C46_points (q n : V3) :
    (∀ p : V3, ∃ i, Plane3.intersectionWithPoint ⟨some q, some n⟩ (some p) = .ok i ∧ IsectPoints i = {p} ∩ PlaneSet q n) ∧
    ∀ ps : List V3, ∃ i, Plane3.intersectionWithSet ⟨some q, some n⟩ (ps.map some) = .ok i ∧ i.isDefined = true ∧
      IsectPoints i = {p | p ∈ ps} ∩ PlaneSet q n ∧ (i.isEmpty = true ↔ ∀ p ∈ ps, p ∉ PlaneSet q n) := by
  constructor
  · intro p
    obtain ⟨r, hr, hr'⟩ := plane_contains q n p
    refine ⟨if r then .Point (some p) else .Empty, by simp [Plane3.intersectionWithPoint, hr], ?_⟩
    cases r with
    | true =>
      rw [if_pos rfl, isect_point]
      exact (Set.inter_eq_left.2 (Set.singleton_subset_iff.2 (hr'.1 rfl))).symm
    | false =>
      rw [if_neg Bool.false_ne_true, isect_empty]
      symm
      rw [Set.singleton_inter_eq_empty]
      intro h; exact absurd (hr'.2 h) Bool.false_ne_true
  · intro ps
    have key : ∃ r : List V3, Plane3.keepContained ⟨some q, some n⟩ (ps.map some) = .ok (r.map some) ∧
        ∀ p, p ∈ r ↔ p ∈ ps ∧ p ∈ PlaneSet q n := by
      induction ps with
      | nil => exact ⟨[], rfl, by simp⟩
      | cons a ps ih =>
        obtain ⟨r, hr, hm⟩ := ih
        obtain ⟨s, hs, hs'⟩ := plane_contains q n a
        cases s with
        | true =>
          refine ⟨a :: r, by simp [Plane3.keepContained, hs, hr], fun p => ?_⟩
          rw [List.mem_cons, List.mem_cons, hm]
          constructor
          · rintro (rfl | h)
            · exact ⟨.inl rfl, hs'.1 rfl⟩
            · exact ⟨.inr h.1, h.2⟩
          · rintro ⟨rfl | h, h'⟩
            · exact .inl rfl
            · exact .inr ⟨h, h'⟩
        | false =>
          refine ⟨r, by simp [Plane3.keepContained, hs, hr], fun p => ?_⟩
          rw [List.mem_cons, hm]
          constructor
          · rintro h; exact ⟨.inr h.1, h.2⟩
          · rintro ⟨rfl | h, h'⟩
            · exact absurd (hs'.2 h') Bool.false_ne_true
            · exact ⟨h, h'⟩
    obtain ⟨r, hr, hm⟩ := key
    match r, hr, hm with
    | [], hr, hm =>
      refine ⟨.Empty, by simp [Plane3.intersectionWithSet, Plane3.isDefined, hr], rfl, ?_, ?_⟩
      · rw [isect_empty]
        symm
        rw [Set.eq_empty_iff_forall_notMem]
        rintro p ⟨h1, h2⟩
        exact absurd ((hm p).2 ⟨h1, h2⟩) (by simp)
      · constructor
        · intro _ p h1 h2
          exact absurd ((hm p).2 ⟨h1, h2⟩) (by simp)
        · intro _; rfl
    | [x], hr, hm =>
      refine ⟨.Point (some x), by simp [Plane3.intersectionWithSet, Plane3.isDefined, hr], rfl, ?_, ?_⟩
      · rw [isect_point]; ext p; rw [Set.mem_singleton_iff, ← List.mem_singleton, hm]; rfl
      · constructor
        · intro h; simp [Isect3.isEmpty, Isect3.Point] at h
        · intro h
          have := (hm x).1 (by simp)
          exact absurd this.2 (h x this.1)
    | x :: y :: r, hr, hm =>
      refine ⟨.PointSet ((x :: y :: r).map some), by simp [Plane3.intersectionWithSet, Plane3.isDefined, hr], rfl, ?_, ?_⟩
      · ext p
        simp only [IsectPoints, Isect3.PointSet, Composite3.ofObject, ObjPoints]
        simp only [List.mem_singleton, exists_eq_left]
        have := hm p
        simp at this ⊢
        rw [this]
      · constructor
        · intro h; simp [Isect3.isEmpty, Isect3.PointSet] at h
        · intro h
          have := (hm x).1 (by simp)
          exact absurd this.2 (h x this.1)

example : (⟨1, 2, 0⟩ : V3) ∈ PlaneSet 0 ⟨0, 0, 1⟩ := by show (⟨0, 0, 1⟩ : V3).dot _ = 0; simp [V3.dot]

/-- Every function of C42 - C46 throws when an argument or the object is undefined. -/
theorem C45_undefined (s : Seg3) (l : Line3) (r : Ray3) (pl : Plane3) (hs : s.isDefined = false) (hl : l.isDefined = false)
    (hr : r.isDefined = false) (hp : pl.isDefined = false) :
    (∀ p, s.contains p = .error .undefined ∧ s.distanceTo p = .error .undefined ∧ l.contains p = .error .undefined ∧
      l.distanceTo p = .error .undefined ∧ r.contains p = .error .undefined ∧ r.distanceTo p = .error .undefined ∧
      pl.contains p = .error .undefined) ∧
    (∀ (s : Seg3) (l : Line3) (r : Ray3) (pl : Plane3), s.contains none = .error .undefined ∧ s.distanceTo none = .error .undefined ∧
      l.contains none = .error .undefined ∧ l.distanceTo none = .error .undefined ∧ r.contains none = .error .undefined ∧
      r.distanceTo none = .error .undefined ∧ pl.contains none = .error .undefined) ∧
    (∀ pl : Plane3, s.intersects pl = .error .undefined ∧ s.intersectionWith pl = .error .undefined ∧ l.intersects pl = .error .undefined ∧
      l.intersectionWith pl = .error .undefined ∧ r.intersects pl = .error .undefined ∧ r.intersectionWith pl = .error .undefined) ∧
    (∀ (s : Seg3) (l : Line3) (r : Ray3), s.intersects pl = .error .undefined ∧ s.intersectionWith pl = .error .undefined ∧
      l.intersects pl = .error .undefined ∧ l.intersectionWith pl = .error .undefined ∧ r.intersects pl = .error .undefined ∧
      r.intersectionWith pl = .error .undefined ∧ pl.containsLine l = .error .undefined ∧ pl.containsRay r = .error .undefined ∧
      pl.containsSegment s = .error .undefined) ∧
    (∀ pl : Plane3, pl.containsSet [] = .error .undefined ∧ pl.intersectsSet [] = .error .undefined) := by
  obtain ⟨a, b⟩ := s
  obtain ⟨o, d⟩ := l
  obtain ⟨o', d'⟩ := r
  obtain ⟨q, n⟩ := pl
  simp only [Seg3.isDefined, Line3.isDefined, Ray3.isDefined, Plane3.isDefined, Bool.and_eq_false_iff, Option.isSome_eq_false_iff,
    Option.isNone_iff_eq_none] at hs hl hr hp
  refine ⟨?_, ?_, ?_, ?_, ?_⟩
  · intro p
    refine ⟨?_, ?_, ?_, ?_, ?_, ?_, ?_⟩
    · rcases hs with rfl | rfl <;> cases p <;> first | rfl | (cases a <;> rfl)
    · rcases hs with rfl | rfl <;> cases p <;> first | rfl | (cases a <;> rfl)
    · rcases hl with rfl | rfl <;> cases p <;> first | rfl | (cases o <;> rfl)
    · rcases hl with rfl | rfl <;> cases p <;> first | rfl | (cases o <;> rfl)
    · rcases hr with rfl | rfl <;> cases p <;> first | rfl | (cases o' <;> rfl)
    · rcases hr with rfl | rfl <;> cases p <;> first | rfl | (cases o' <;> rfl)
    · rcases hp with rfl | rfl <;> cases p <;> first | rfl | (cases q <;> rfl)
  · rintro ⟨a, b⟩ ⟨o, d⟩ r pl
    refine ⟨rfl, rfl, rfl, ?_, rfl, rfl, rfl⟩
    cases o <;> cases d <;> rfl
  · rintro ⟨q, n⟩
    refine ⟨?_, ?_, ?_, ?_, ?_, ?_⟩
    · rcases hs with rfl | rfl <;> first | rfl | (cases a <;> rfl)
    · rcases hs with rfl | rfl <;> first | rfl | (cases a <;> rfl)
    · rcases hl with rfl | rfl <;> first | rfl | (cases o <;> rfl)
    · rcases hl with rfl | rfl <;> first | rfl | (cases o <;> rfl)
    · rcases hr with rfl | rfl <;> first | rfl | (cases o' <;> rfl)
    · rcases hr with rfl | rfl <;> first | rfl | (cases o' <;> rfl)
  · rintro ⟨a, b⟩ ⟨o, d⟩ ⟨o', d'⟩
    rcases hp with rfl | rfl
    · refine ⟨?_, ?_, ?_, ?_, ?_, ?_, ?_, ?_, ?_⟩
      iterate 2 (cases a <;> cases b <;> rfl)
      iterate 2 (cases o <;> cases d <;> rfl)
      iterate 2 (cases o' <;> cases d' <;> rfl)
      · cases o <;> cases d <;> rfl
      · cases o' <;> cases d' <;> rfl
      · cases a <;> cases b <;> rfl
    · refine ⟨?_, ?_, ?_, ?_, ?_, ?_, ?_, ?_, ?_⟩
      iterate 2 (cases a <;> cases b <;> cases q <;> rfl)
      iterate 2 (cases o <;> cases d <;> cases q <;> rfl)
      iterate 2 (cases o' <;> cases d' <;> cases q <;> rfl)
      · cases o <;> cases d <;> cases q <;> rfl
      · cases o' <;> cases d' <;> cases q <;> rfl
      · cases a <;> cases b <;> cases q <;> rfl
  · intro pl; exact ⟨rfl, rfl⟩

example : (⟨none, some 0⟩ : Seg3).isDefined = false ∧ (⟨some 0, none⟩ : Line3).isDefined = false ∧ (⟨none, none⟩ : Ray3).isDefined = false ∧
    (⟨none, some 0⟩ : Plane3).isDefined = false := ⟨rfl, rfl, rfl, rfl⟩

end Verif.Props
