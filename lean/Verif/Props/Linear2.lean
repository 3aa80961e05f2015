import Verif.Lemmas.Linear2
import Verif.Props.Linear3

/-!
# Lines, segments and line strings in 2D (C42, C43, C53), and their distance to point sets
-/

namespace Verif.Props

open Verif Verif.Spec

set_option linter.flexible false

/-! ## C42 -/

/-- 2D segments, degenerate or not: `contains` decides membership, `distanceTo` is the attained minimum of the distances, zero exactly on the
segment, and neither depends on the order of the end points. -/
theorem C42_segment2 (a b p : V2) :
    (∃ r, Seg2.contains ⟨some a, some b⟩ (some p) = .ok r ∧ (r = true ↔ p ∈ SegSet2 a b)) ∧
    (∃ d, Seg2.distanceTo ⟨some a, some b⟩ (some p) = .ok d ∧ IsDistance2 (SegSet2 a b) p d ∧
      (d = 0 ↔ Seg2.contains ⟨some a, some b⟩ (some p) = .ok true)) ∧
    Seg2.contains ⟨some b, some a⟩ (some p) = Seg2.contains ⟨some a, some b⟩ (some p) ∧
    Seg2.distanceTo ⟨some b, some a⟩ (some p) = Seg2.distanceTo ⟨some a, some b⟩ (some p) := by
  obtain ⟨⟨r, h1, h2⟩, ⟨d, h3, h4, h5⟩, h6, h7⟩ := C42_segment3 a.lift b.lift p.lift
  rw [seg2_contains, seg2_contains, seg2_distanceTo, seg2_distanceTo]
  refine ⟨⟨r, h1, by rw [h2, mem_segSet2]⟩, ⟨d, h3, ?_, h5⟩, h6, h7⟩
  exact isDistance2_of (fun _ => mem_segSet2.1) (fun _ => segSet_lift) h4

example : (⟨1, 1⟩ : V2) ∈ SegSet2 ⟨0, 0⟩ ⟨2, 2⟩ := ⟨1 / 2, by norm_num, by norm_num, by ext <;> norm_num⟩

/-- The centre of a 2D segment is on it, at half its length from both ends; the length is the distance of the ends and the direction is the unit
vector from the first to the second. -/
theorem C42_center2 (a b : V2) :
    ∃ c l, Seg2.getCenter ⟨some a, some b⟩ = .ok c ∧ Seg2.getLength ⟨some a, some b⟩ = .ok l ∧ l = (b - a).norm ∧ c ∈ SegSet2 a b ∧
      (c - a).norm = l / 2 ∧ (c - b).norm = l / 2 ∧
      (a ≠ b → ∃ u, Seg2.getDirection ⟨some a, some b⟩ = .ok u ∧ u.norm = 1 ∧ b = a + l • u) ∧
      (a = b → Seg2.getDirection ⟨some a, some b⟩ = .error .runtimeError) := by
  obtain ⟨c, l, h1, h2, h3, h4, h5, h6, h7, h8⟩ := C42_center3 a.lift b.lift
  cases h1
  cases h2
  have e : a.lift + (1 / 2 : ℝ) • (b.lift - a.lift) = (a + (1 / 2 : ℝ) • (b - a)).lift := by rw [V2.lift_add, V2.lift_smul, V2.lift_sub]
  rw [e, ← V2.lift_sub, ← V2.lift_sub, V2.lift_norm, V2.lift_norm] at h5
  rw [e, ← V2.lift_sub, ← V2.lift_sub, V2.lift_norm, V2.lift_norm] at h6
  rw [e] at h4
  refine ⟨_, _, rfl, rfl, rfl, mem_segSet2.2 h4, h5, h6, ?_, ?_⟩
  · intro h
    obtain ⟨u, k1, k2, k3⟩ := h7 (fun e => h (V2.lift_injective e))
    have hn : P2.eq (some a) (some b) = false := Bool.eq_false_iff.2 (fun e => h (P2.eq_iff.1 e))
    have hu : u = (b - a).normalized.lift := by
      have : Seg3.getDirection ⟨some a.lift, some b.lift⟩ = .ok (b.lift - a.lift).normalized := by
        simp [Seg3.getDirection, need, bind, Except.bind, lift_eq, hn]
      rw [k1, Except.ok.injEq] at this
      rw [this, V2.lift_normalized, V2.lift_sub]
    subst hu
    refine ⟨(b - a).normalized, by simp [Seg2.getDirection, need, bind, Except.bind, hn], by rw [← V2.lift_norm, k2], V2.lift_injective ?_⟩
    rw [k3, V2.lift_add, V2.lift_smul, ← V2.lift_norm, V2.lift_sub]
  · rintro rfl
    simp [Seg2.getDirection, need, bind, Except.bind, P2.eq_iff.2 rfl]

example : (⟨0, 0⟩ : V2) ≠ ⟨2, 0⟩ := by simp [V2.ext_iff]

/-- The distance of a segment to a non-empty set of points is the least distance to one of them, attained, whatever the order of the points. -/
theorem C42_distance_set :
    (∀ (a b : V3) (ps : List V3), ps ≠ [] → ∃ d, Seg3.distanceToSet ⟨some a, some b⟩ (ps.map some) = .ok d ∧
      (∃ p ∈ ps, Seg3.distanceTo ⟨some a, some b⟩ (some p) = .ok d) ∧
      ∀ p ∈ ps, ∀ k, Seg3.distanceTo ⟨some a, some b⟩ (some p) = .ok k → d ≤ k) ∧
    (∀ (a b : V2) (ps : List V2), ps ≠ [] → ∃ d, Seg2.distanceToSet ⟨some a, some b⟩ (ps.map some) = .ok d ∧
      (∃ p ∈ ps, Seg2.distanceTo ⟨some a, some b⟩ (some p) = .ok d) ∧
      ∀ p ∈ ps, ∀ k, Seg2.distanceTo ⟨some a, some b⟩ (some p) = .ok k → d ≤ k) ∧
    (∀ s : Seg3, s.distanceToSet [] = .error .undefined) ∧ ∀ s : Seg2, s.distanceToSet [] = .error .undefined := by
  refine ⟨?_, ?_, fun _ => rfl, fun _ => rfl⟩
  · intro a b ps hps
    choose g hg using fun p => (C42_segment3 a b p).2.1
    have hm : mapRes (Seg3.distanceTo ⟨some a, some b⟩) (ps.map some) = .ok (ps.map g) := by
      rw [mapRes_map]; exact mapRes_ok (fun p _ => (hg p).1)
    obtain ⟨m, h1, h2, h3⟩ := minElement_spec (l := ps.map g) (by simpa using hps)
    refine ⟨m, by simp [Seg3.distanceToSet, Seg3.isDefined, hps, hm, h1, bind, Except.bind], ?_, ?_⟩
    · obtain ⟨p, hp, rfl⟩ := List.mem_map.1 h2
      exact ⟨p, hp, (hg p).1⟩
    · intro p hp k hk
      rw [(hg p).1, Except.ok.injEq] at hk
      exact hk ▸ h3 _ (List.mem_map_of_mem hp)
  · intro a b ps hps
    choose g hg using fun p => (C42_segment2 a b p).2.1
    have hm : mapRes (Seg2.distanceTo ⟨some a, some b⟩) (ps.map some) = .ok (ps.map g) := by
      rw [mapRes_map]; exact mapRes_ok (fun p _ => (hg p).1)
    obtain ⟨m, h1, h2, h3⟩ := minElement_spec (l := ps.map g) (by simpa using hps)
    refine ⟨m, by simp [Seg2.distanceToSet, Seg2.isDefined, hps, hm, h1, bind, Except.bind], ?_, ?_⟩
    · obtain ⟨p, hp, rfl⟩ := List.mem_map.1 h2
      exact ⟨p, hp, (hg p).1⟩
    · intro p hp k hk
      rw [(hg p).1, Except.ok.injEq] at hk
      exact hk ▸ h3 _ (List.mem_map_of_mem hp)

example : [(⟨1, 2, 3⟩ : V3), ⟨0, 0, 1⟩] ≠ [] := by simp

/-- A 2D segment contains a set of points when it contains all of them; it does not contain the empty set. -/
theorem C42_contains_set2 (a b : V2) (ps : List V2) :
    ∃ r, Seg2.containsSet ⟨some a, some b⟩ (ps.map some) = .ok r ∧ (r = true ↔ ps ≠ [] ∧ ∀ p ∈ ps, p ∈ SegSet2 a b) := by
  by_cases hps : ps = []
  · subst hps; exact ⟨false, rfl, by simp⟩
  · obtain ⟨r, hr, hr'⟩ := allOf_true (f := Seg2.contains ⟨some a, some b⟩) (g := fun p => ∀ x, p = some x → x ∈ SegSet2 a b)
      (l := ps.map some) (by
        intro p hp
        obtain ⟨x, -, rfl⟩ := List.mem_map.1 hp
        obtain ⟨r, hr, hr'⟩ := (C42_segment2 a b x).1
        exact ⟨r, hr, hr'.trans ⟨fun h y hy => (Option.some.inj hy) ▸ h, fun h => h x rfl⟩⟩)
    exact ⟨r, by simp [Seg2.containsSet, hps, hr], hr'.trans (by simp [hps])⟩

example : [(⟨1, 2⟩ : V2)] ≠ [] ∧ ∀ p ∈ [(⟨1, 2⟩ : V2)], p ∈ SegSet2 ⟨0, 0⟩ ⟨2, 4⟩ := by
  refine ⟨by simp, fun p hp => ?_⟩
  rw [List.mem_singleton.1 hp]
  exact ⟨1 / 2, by norm_num, by norm_num, by ext <;> norm_num⟩

/-! ## C43 -/

/-- The constructor of a 2D line accepts exactly the non-zero directions, normalises them, and keeps the line. -/
theorem C43_constructor2 (o d : V2) :
    (d = 0 → Line2.ctor (some o) (some d) = .error .wrong) ∧
    (d ≠ 0 → ∃ u, Line2.ctor (some o) (some d) = .ok ⟨some o, some u⟩ ∧ u.norm = 1 ∧ d = d.norm • u ∧ LineSet2 o u = LineSet2 o d) := by
  constructor
  · rintro rfl
    simp [Line2.ctor, V2.normSq, V2.dot]
  · intro h
    have hz : d.lift ≠ 0 := fun e => h (V2.lift_injective (e.trans (by ext <;> simp [V2.lift])))
    obtain ⟨u, h1, h2, h3, h4⟩ := (C43_constructor3 o.lift d.lift).2 hz
    have hn : 0 < d.normSq := lt_of_le_of_ne d.normSq_nonneg (fun e => h (V2.normSq_eq_zero.1 e.symm))
    have hd : d.normSq = 1 → d.normalized = d := by
      intro e; rw [V2.normalized, if_pos hn, V2.norm, e, Real.sqrt_one]; ext <;> simp
    have hu : u = d.normalized.lift := by
      have hc : Line3.ctor (some o.lift) (some d.lift) = .ok ⟨some o.lift, some d.lift.normalized⟩ := by
        by_cases k : d.normSq = 1
        · have k' : d.lift.normSq = 1 := by rw [V2.lift_normSq, k]
          simp [Line3.ctor, k', V3.normalized_of_unit k']
        · simp [Line3.ctor, V2.lift_normSq, k, hn.ne']
      rw [h1, Except.ok.injEq, Line3.mk.injEq, Option.some.injEq] at hc
      rw [Option.some.inj hc.2, V2.lift_normalized]
    subst hu
    refine ⟨d.normalized, ?_, by rw [← V2.lift_norm, h2], V2.lift_injective ?_, lineSet2_eq.2 h4⟩
    · by_cases k : d.normSq = 1
      · simp [Line2.ctor, k, hd k]
      · simp [Line2.ctor, k, hn.ne']
    · conv_lhs => rw [h3]
      rw [V2.lift_smul, V2.lift_norm]

example : (⟨3, 4⟩ : V2) ≠ 0 := by simp [V2.ext_iff]

theorem line2_contains (o d p : V2) (hd : d ≠ 0) :
    ∃ r, Line2.contains ⟨some o, some d⟩ (some p) = .ok r ∧ (r = true ↔ p ∈ LineSet2 o d) := by
  refine ⟨_, rfl, ?_⟩
  by_cases hp : p = o
  · subst hp
    rw [if_pos (P2.eq_iff.2 rfl)]
    exact ⟨fun _ => ⟨0, by ext <;> simp⟩, fun _ => rfl⟩
  · rw [if_neg (fun e => hp (P2.eq_iff.1 e))]
    dsimp only
    by_cases hx : (o + d).x = o.x
    · have hx0 : d.x = 0 := by simpa using hx
      have hy0 : d.y ≠ 0 := fun e => hd (by ext; exacts [hx0, e])
      rw [if_pos hx, decide_eq_true_eq]
      constructor
      · intro e
        refine ⟨(p.y - o.y) / d.y, ?_⟩
        ext
        · simp [hx0, e]
        · simp; field_simp; ring
      · rintro ⟨t, rfl⟩; simp [hx0]
    · have hx0 : d.x ≠ 0 := by simpa using hx
      rw [if_neg hx, decide_eq_true_eq]
      constructor
      · intro e
        simp at e
        refine ⟨(p.x - o.x) / d.x, ?_⟩
        ext
        · simp; field_simp; ring
        · simp [e]; field_simp; ring
      · rintro ⟨t, rfl⟩
        simp
        field_simp
        ring

/-- 2D lines (with a unit direction, as all lines have by `C43_constructor2`): `contains` decides membership, `distanceTo` is the attained
minimum of the distances, and `==` holds exactly for lines with the same points. -/
theorem C43_line2 (o d o' d' p : V2) (hd : d.norm = 1) (hd' : d'.norm = 1) :
    (∃ r, Line2.contains ⟨some o, some d⟩ (some p) = .ok r ∧ (r = true ↔ p ∈ LineSet2 o d)) ∧
    (∃ k, Line2.distanceTo ⟨some o, some d⟩ (some p) = .ok k ∧ IsDistance2 (LineSet2 o d) p k) ∧
    (Line2.eq ⟨some o, some d⟩ ⟨some o', some d'⟩ = true ↔ LineSet2 o d = LineSet2 o' d') := by
  have h0 : d ≠ 0 := by rintro rfl; simp [V2.norm, V2.normSq, V2.dot] at hd
  have hl : d.lift.norm = 1 := by rw [V2.lift_norm, hd]
  have hl' : d'.lift.norm = 1 := by rw [V2.lift_norm, hd']
  have hs : d.normSq = 1 := by rw [← V2.norm_sq, hd, one_pow]
  refine ⟨line2_contains o d p h0, ⟨_, rfl, ?_⟩, ?_⟩
  · obtain ⟨k, hk, hk'⟩ := (C43_line3 o.lift d.lift o'.lift d'.lift p.lift hl hl').2.1
    have e : (p - o - ((p - o).dot d) • d).norm = k := by
      have : k = (d.lift.cross (p.lift - o.lift)).norm := by
        rw [show Line3.distanceTo ⟨some o.lift, some d.lift⟩ (some p.lift) = .ok (d.lift.cross (p.lift - o.lift)).norm from rfl, Except.ok.injEq] at hk
        exact hk.symm
      rw [this, V2.norm, V3.norm, V3.lagrange, ← V2.lift_sub, V2.lift_normSq, V2.lift_normSq, V2.lift_dot, hs]
      congr 1
      simp only [V2.normSq, V2.dot, V2.sub_x, V2.sub_y, V2.smul_x, V2.smul_y] at hs ⊢
      linear_combination ((p.x - o.x) * d.x + (p.y - o.y) * d.y) ^ 2 * hs
    rw [e]
    exact isDistance2_of (fun _ => mem_lineSet2.1) (fun _ => lineSet_lift) hk'
  · obtain ⟨r, hr, hr'⟩ := line2_contains o d o' h0
    have he : Line2.eq ⟨some o, some d⟩ ⟨some o', some d'⟩ = true ↔ (d = d' ∨ d = -d') ∧ o' ∈ LineSet2 o d := by
      rw [← hr']
      simp only [Line2.eq, hr]
      by_cases h : d = d' ∨ d = -d' <;> simp [h]
    have he3 : Line3.eq ⟨some o.lift, some d.lift⟩ ⟨some o'.lift, some d'.lift⟩ = true ↔ (d = d' ∨ d = -d') ∧ o' ∈ LineSet2 o d := by
      obtain ⟨s, hs, hs'⟩ := (C43_line3 o.lift d.lift o'.lift d'.lift o'.lift hl hl').1
      rw [mem_lineSet2, ← hs', ← V2.lift_inj, ← V2.lift_inj, V2.lift_neg]
      simp only [Line3.eq, hs]
      by_cases h : d.lift = d'.lift ∨ d.lift = -d'.lift <;> simp [h]
    rw [he, ← he3, (C43_line3 o.lift d.lift o'.lift d'.lift p.lift hl hl').2.2, lineSet2_eq]

example : (⟨3 / 5, 4 / 5⟩ : V2).norm = 1 := by
  rw [V2.norm, show (⟨3 / 5, 4 / 5⟩ : V2).normSq = 1 by norm_num [V2.normSq, V2.dot], Real.sqrt_one]

/-- The 2D line through two points contains both; identical points are rejected. `toLine` of a segment is a line that contains the segment. -/
theorem C43_points2 (a b : V2) :
    (a = b → Line2.Points (some a) (some b) = .error .runtimeError) ∧
    (a ≠ b → ∃ u, Line2.Points (some a) (some b) = .ok ⟨some a, some u⟩ ∧ Seg2.toLine ⟨some a, some b⟩ = .ok ⟨some a, some u⟩ ∧ u.norm = 1 ∧
      a ∈ LineSet2 a u ∧ b ∈ LineSet2 a u ∧ SegSet2 a b ⊆ LineSet2 a u) := by
  constructor
  · rintro rfl
    simp [Line2.Points, need, bind, Except.bind, P2.eq_iff.2 rfl]
  · intro h
    have hz : b - a ≠ 0 := by
      intro e
      have hx := congrArg V2.x e
      have hy := congrArg V2.y e
      simp at hx hy
      exact h (by ext <;> linarith)
    obtain ⟨u, h1, h2, h3, h4⟩ := (C43_constructor2 a (b - a)).2 hz
    have hn : 0 < (b - a).normSq := lt_of_le_of_ne (b - a).normSq_nonneg (fun e => hz (V2.normSq_eq_zero.1 e.symm))
    have h5 : (b - a).normalized.normSq = 1 := by
      rw [← V2.lift_normSq, V2.lift_normalized, V3.normSq_normalized (by rw [V2.lift_normSq]; exact hn)]
    have hu : u = (b - a).normalized := by
      by_cases k : (b - a).normSq = 1
      · have : (b - a).normalized = b - a := by rw [V2.normalized, if_pos hn, V2.norm, k, Real.sqrt_one]; ext <;> simp
        simp [Line2.ctor, k] at h1
        rw [this, ← h1]
      · simp [Line2.ctor, k, hn.ne'] at h1
        exact h1.symm
    have hP : Line2.Points (some a) (some b) = .ok ⟨some a, some u⟩ := by
      rw [hu]
      simp [Line2.Points, need, bind, Except.bind, Bool.eq_false_iff.2 (mt P2.eq_iff.1 h), Line2.ctor, h5]
    have hs : SegSet2 a b ⊆ LineSet2 a u := by
      rw [h4]
      rintro p ⟨t, -, -, rfl⟩
      exact ⟨t, rfl⟩
    exact ⟨u, hP, hP, h2, ⟨0, by ext <;> simp⟩, hs ⟨1, by norm_num, le_refl _, by ext <;> simp⟩, hs⟩

example : (⟨0, 0⟩ : V2) ≠ ⟨2, 0⟩ := by simp [V2.ext_iff]

/-- A line or a ray contains a non-empty set of points exactly when it contains all of them. -/
theorem C43_contains_set :
    (∀ (o d : V3) (ps : List V3), d.norm = 1 → ps ≠ [] →
      ∃ r, Line3.containsSet ⟨some o, some d⟩ (ps.map some) = .ok r ∧ (r = true ↔ ∀ p ∈ ps, p ∈ LineSet o d)) ∧
    (∀ (o d : V3) (ps : List V3), d.norm = 1 → ps ≠ [] →
      ∃ r, Ray3.containsSet ⟨some o, some d⟩ (ps.map some) = .ok r ∧ (r = true ↔ ∀ p ∈ ps, p ∈ RaySet o d)) ∧
    (∀ (o d : V2) (ps : List V2), d.norm = 1 → ps ≠ [] →
      ∃ r, Line2.containsSet ⟨some o, some d⟩ (ps.map some) = .ok r ∧ (r = true ↔ ∀ p ∈ ps, p ∈ LineSet2 o d)) ∧
    (∀ l : Line3, l.containsSet [] = .error .undefined) ∧ (∀ l : Ray3, l.containsSet [] = .error .undefined) ∧
    ∀ l : Line2, l.containsSet [] = .error .undefined := by
  refine ⟨?_, ?_, ?_, ?_, fun _ => rfl, ?_⟩
  · intro o d ps hd hps
    obtain ⟨r, hr, hr'⟩ := allOf_true (f := Line3.contains ⟨some o, some d⟩) (g := fun p => ∀ x, p = some x → x ∈ LineSet o d)
      (l := ps.map some) (by
        intro p hp
        obtain ⟨x, -, rfl⟩ := List.mem_map.1 hp
        obtain ⟨r, hr, hr'⟩ := (C43_line3 o d o d x hd hd).1
        exact ⟨r, hr, hr'.trans ⟨fun h y hy => (Option.some.inj hy) ▸ h, fun h => h x rfl⟩⟩)
    exact ⟨r, by simp [Line3.containsSet, Line3.isDefined, hps, hr], hr'.trans (by simp)⟩
  · intro o d ps hd hps
    obtain ⟨r, hr, hr'⟩ := allOf_true (f := Ray3.contains ⟨some o, some d⟩) (g := fun p => ∀ x, p = some x → x ∈ RaySet o d)
      (l := ps.map some) (by
        intro p hp
        obtain ⟨x, -, rfl⟩ := List.mem_map.1 hp
        obtain ⟨r, hr, hr'⟩ := (C44_ray o d o d x hd hd).1
        exact ⟨r, hr, hr'.trans ⟨fun h y hy => (Option.some.inj hy) ▸ h, fun h => h x rfl⟩⟩)
    exact ⟨r, by simp [Ray3.containsSet, Ray3.isDefined, hps, hr], hr'.trans (by simp)⟩
  · intro o d ps hd hps
    obtain ⟨r, hr, hr'⟩ := allOf_true (f := Line2.contains ⟨some o, some d⟩) (g := fun p => ∀ x, p = some x → x ∈ LineSet2 o d)
      (l := ps.map some) (by
        intro p hp
        obtain ⟨x, -, rfl⟩ := List.mem_map.1 hp
        obtain ⟨r, hr, hr'⟩ := (C43_line2 o d o d x hd hd).1
        exact ⟨r, hr, hr'.trans ⟨fun h y hy => (Option.some.inj hy) ▸ h, fun h => h x rfl⟩⟩)
    exact ⟨r, by simp [Line2.containsSet, Line2.isDefined, hps, hr], hr'.trans (by simp)⟩
  · intro l; simp [Line3.containsSet]
  · intro l; simp [Line2.containsSet]

example : (⟨0, 3 / 5, 4 / 5⟩ : V3).norm = 1 ∧ [(⟨0, 3, 4⟩ : V3)] ≠ [] := by
  refine ⟨?_, by simp⟩
  rw [V3.norm, show (⟨0, 3 / 5, 4 / 5⟩ : V3).normSq = 1 by norm_num [V3.normSq, V3.dot], Real.sqrt_one]

/-! ## C53 -/

/-- The points of a line string: its consecutive segments, or its only point. -/
def LineStringSet (ps : List V2) : Set V2 :=
  {p | ps = [p] ∨ ∃ l a b r, ps = l ++ a :: b :: r ∧ p ∈ SegSet2 a b}

theorem containsLoop_spec (p : V2) (ps : List V2) :
    ∃ r, LineString2.containsLoop (some p) (ps.map some) = .ok r ∧ (r = true ↔ ∃ l a b r, ps = l ++ a :: b :: r ∧ p ∈ SegSet2 a b) := by
  induction ps with
  | nil => exact ⟨false, rfl, by simp⟩
  | cons a ps ih =>
    cases ps with
    | nil =>
      refine ⟨false, rfl, ?_⟩
      constructor
      · intro h; cases h
      · rintro ⟨l, x, y, r, h, -⟩
        have := congrArg List.length h
        simp at this
        omega
    | cons b ps =>
      obtain ⟨r, hr, hr'⟩ := ih
      obtain ⟨s, hs, hs'⟩ := (C42_segment2 a b p).1
      cases s with
      | true =>
        refine ⟨true, by simp [LineString2.containsLoop, hs], ?_⟩
        exact ⟨fun _ => ⟨[], a, b, ps, rfl, hs'.1 rfl⟩, fun _ => rfl⟩
      | false =>
        refine ⟨r, ?_, ?_⟩
        · rw [List.map_cons, List.map_cons, LineString2.containsLoop, hs]; exact hr
        · rw [hr']
          constructor
          · rintro ⟨l, x, y, r, h, hp⟩
            exact ⟨a :: l, x, y, r, by rw [h]; rfl, hp⟩
          · rintro ⟨l, x, y, r, h, hp⟩
            cases l with
            | nil =>
              simp at h
              obtain ⟨rfl, rfl, rfl⟩ := h
              exact absurd (hs'.2 hp) (by simp)
            | cons c l =>
              simp at h
              exact ⟨l, x, y, r, h.2, hp⟩

/-- `contains` of a line string decides whether the point is on one of its consecutive segments, or is its only point; the answer does not change
when the points are reversed; an empty line string and an undefined point throw. -/
theorem C53_contains (ps : List V2) (p : V2) (h : ps ≠ []) :
    (∃ r, LineString2.contains (ps.map some) (some p) = .ok r ∧ (r = true ↔ p ∈ LineStringSet ps)) ∧
    LineString2.contains (ps.reverse.map some) (some p) = LineString2.contains (ps.map some) (some p) ∧
    LineString2.contains [] (some p) = .error .undefined ∧ LineString2.contains (ps.map some) none = .error .undefined := by
  have key : ∀ ps : List V2, ps ≠ [] → ∃ r, LineString2.contains (ps.map some) (some p) = .ok r ∧ (r = true ↔ p ∈ LineStringSet ps) := by
    intro ps h
    match ps, h with
    | [a], _ =>
      refine ⟨_, rfl, ?_⟩
      rw [P2.eq_iff]
      constructor
      · rintro rfl; exact .inl rfl
      · rintro (h | ⟨l, x, y, r, h, -⟩)
        · simpa using h
        · have := congrArg List.length h
          simp at this
          omega
    | a :: b :: ps, _ =>
      obtain ⟨r, hr, hr'⟩ := containsLoop_spec p (a :: b :: ps)
      refine ⟨r, hr, hr'.trans ?_⟩
      constructor
      · exact .inr
      · rintro (h | h)
        · simp at h
        · exact h
  have rev : ∀ ps : List V2, p ∈ LineStringSet ps → p ∈ LineStringSet ps.reverse := by
    rintro ps (rfl | ⟨l, a, b, r, rfl, hp⟩)
    · exact .inl rfl
    · right
      refine ⟨r.reverse, b, a, l.reverse, by simp, ?_⟩
      rw [mem_segSet2, segSet_comm, ← mem_segSet2]; exact hp
  refine ⟨key ps h, ?_, rfl, ?_⟩
  · obtain ⟨r, hr, hr'⟩ := key ps h
    obtain ⟨s, hs, hs'⟩ := key ps.reverse (by simpa using h)
    rw [hr, hs, Except.ok.injEq, Bool.eq_iff_iff, hr', hs']
    refine ⟨fun k => ?_, rev ps⟩
    have := rev _ k
    rwa [List.reverse_reverse] at this
  · cases ps <;> rfl

example : [(⟨0, 0⟩ : V2), ⟨1, 0⟩, ⟨1, 1⟩] ≠ [] ∧ (⟨1, 1 / 2⟩ : V2) ∈ LineStringSet [⟨0, 0⟩, ⟨1, 0⟩, ⟨1, 1⟩] := by
  refine ⟨by simp, .inr ⟨[⟨0, 0⟩], ⟨1, 0⟩, ⟨1, 1⟩, [], rfl, 1 / 2, by norm_num, by norm_num, ?_⟩⟩
  ext <;> norm_num

/-- The line string of a segment has the points of the segment. -/
theorem C53_segment (a b p : V2) :
    ∃ l, LineString2.Segment ⟨some a, some b⟩ = .ok l ∧ LineString2.contains l (some p) = Seg2.contains ⟨some a, some b⟩ (some p) := by
  refine ⟨[some a, some b], rfl, ?_⟩
  obtain ⟨r, hr, -⟩ := (C42_segment2 a b p).1
  rw [hr]
  cases r <;> simp [LineString2.contains, LineString2.containsLoop, need, bind, Except.bind, hr]

/-- `isNear` of line strings compares them point by point; `==` means the same points in the same order; `accessPointAt` gives every point and
throws beyond the last. -/
theorem C53_points :
    (∀ (ps qs : List V3) (tol : ℝ), ps ≠ [] → qs ≠ [] → ∃ r, LineString3.isNear (ps.map some) (qs.map some) (some tol) = .ok r ∧
      (r = true ↔ List.Forall₂ (fun p q => (p - q).norm ≤ tol) ps qs)) ∧
    (∀ (ps qs : List V2) (tol : ℝ), ps ≠ [] → qs ≠ [] → ∃ r, LineString2.isNear (ps.map some) (qs.map some) (some tol) = .ok r ∧
      (r = true ↔ List.Forall₂ (fun p q => (p - q).norm ≤ tol) ps qs)) ∧
    (∀ ps qs : List V3, LineString3.eq (ps.map some) (qs.map some) = true ↔ ps = qs) ∧
    (∀ ps qs : List V2, LineString2.eq (ps.map some) (qs.map some) = true ↔ ps = qs) ∧
    (∀ (V : Type) (ps : List (Option V)) (i : ℕ) (h : i < ps.length), Points.accessPointAt ps i = .ok ps[i]) ∧
    (∀ (V : Type) (ps : List (Option V)) (i : ℕ), ps.length ≤ i → Points.accessPointAt ps i = .error .runtimeError) := by
  refine ⟨?_, ?_, Points.sameArray_spec (fun p q => P3.eq_iff), Points.sameArray_spec (fun p q => P2.eq_iff), ?_, ?_⟩
  · intro ps qs tol h1 h2
    by_cases hl : ps.length = qs.length
    · obtain ⟨r, hr, hr'⟩ := Points.zipNear_spec (near := fun p q => P3.isNear p q (some tol)) (fun p q => P3.isNear_ok p q tol) ps qs hl
      exact ⟨r, by simp [LineString3.isNear, h1, h2, hl, hr], hr'⟩
    · exact ⟨false, by simp [LineString3.isNear, h1, h2, hl], by simp; exact fun h => hl h.length_eq⟩
  · intro ps qs tol h1 h2
    by_cases hl : ps.length = qs.length
    · obtain ⟨r, hr, hr'⟩ := Points.zipNear_spec (near := fun p q => P2.isNear p q (some tol)) (fun p q => P2.isNear_ok p q tol) ps qs hl
      exact ⟨r, by simp [LineString2.isNear, h1, h2, hl, hr], hr'⟩
    · exact ⟨false, by simp [LineString2.isNear, h1, h2, hl], by simp; exact fun h => hl h.length_eq⟩
  · intro V ps i h
    simp [Points.accessPointAt, h]
  · intro V ps i h
    simp [Points.accessPointAt, h]

example : [(⟨1, 2, 3⟩ : V3)] ≠ [] ∧ (1 : ℕ) < [some (⟨1, 2, 3⟩ : V3), none].length ∧ [some (⟨1, 2, 3⟩ : V3)].length ≤ 1 := by simp

end Verif.Props
