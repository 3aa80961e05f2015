import Verif.Model.Sphere
import Verif.Lemmas.Gte
import Verif.Props.Linear3
import Verif.Props.Points
import Verif.Props.Rigid

/-!
# Spheres (C48, and C47 for spheres)
-/

namespace Verif.Props

open Verif Verif.Spec Classical

set_option linter.flexible false

/-- A sphere contains the points whose squared distance to the centre is the squared radius within the tolerance; so it contains its surface, a
point at the centre only if the radius is about zero. A set is contained when it is not empty and all its points are. -/
theorem C48_contains (eps : ℝ) (h0 : 0 < eps) (c : V3) (r : ℝ) (p : V3) (ps : List V3) :
    (∃ b, Sphere3.contains eps ⟨some c, some r⟩ (some p) = .ok b ∧ (b = true ↔ |(p - c).norm ^ 2 - r ^ 2| < eps) ∧
      (p ∈ SphereSet c r → b = true)) ∧
    (∃ b, Sphere3.containsSet eps ⟨some c, some r⟩ (ps.map some) = .ok b ∧
      (b = true ↔ ps ≠ [] ∧ ∀ q ∈ ps, |(q - c).norm ^ 2 - r ^ 2| < eps)) ∧
    (∃ b, Sphere3.intersectsSet eps ⟨some c, some r⟩ (ps.map some) = .ok b ∧ (b = true ↔ ∃ q ∈ ps, |(q - c).norm ^ 2 - r ^ 2| < eps)) := by
  have hc : ∀ q : V3, ∃ b, Sphere3.contains eps ⟨some c, some r⟩ (some q) = .ok b ∧ (b = true ↔ |(q - c).norm ^ 2 - r ^ 2| < eps) := by
    intro q
    refine ⟨_, rfl, ?_⟩
    rw [decide_eq_true_iff, V3.norm_sq, sq]
  have hc' : ∀ a ∈ ps.map some, ∃ b, Sphere3.contains eps ⟨some c, some r⟩ a = .ok b ∧
      (b = true ↔ ∀ q, a = some q → |(q - c).norm ^ 2 - r ^ 2| < eps) := by
    intro a ha
    obtain ⟨q, -, rfl⟩ := List.mem_map.1 ha
    obtain ⟨b, h1, h2⟩ := hc q
    exact ⟨b, h1, by simpa using h2⟩
  refine ⟨?_, ?_, ?_⟩
  · obtain ⟨b, h1, h2⟩ := hc p
    refine ⟨b, h1, h2, fun h => h2.2 ?_⟩
    rw [mem_sphereSet] at h
    rw [V3.norm_sq, sq r, h, abs_zero]; exact h0
  · by_cases he : ps = []
    · subst he; exact ⟨false, rfl, by simp⟩
    · obtain ⟨b, h1, h2⟩ := allOf_true hc'
      refine ⟨b, ?_, ?_⟩
      · simpa [Sphere3.containsSet, Sphere3.isDefined, he] using h1
      · rw [h2]; simp [he]
  · by_cases he : ps = []
    · subst he; exact ⟨false, rfl, by simp⟩
    · obtain ⟨b, h1, h2⟩ := anyOf_true hc'
      refine ⟨b, ?_, ?_⟩
      · simpa [Sphere3.intersectsSet, Sphere3.isDefined, he] using h1
      · rw [h2]; simp

example : (0 : ℝ) < 1 ∧ (⟨1, 0, 0⟩ : V3) ∈ SphereSet 0 1 := ⟨one_pos, by rw [mem_sphereSet]; norm_num [V3.normSq, V3.dot]⟩

theorem isect_pointSet (x y : V3) : IsectPoints (.PointSet [some x, some y]) = {x, y} := by
  ext p; simp [IsectPoints, Isect3.PointSet, Composite3.ofObject, ObjPoints]

theorem ofArray_pair {x y : V3} (h : x ≠ y) : PointSet3.ofArray [some x, some y] = .ok [some x, some y] :=
  Points.insertAll_nodup (eq := P3.eq) (fun _ _ => P3.eq_iff) [x, y] [] (by simpa using h)

theorem param_inj {o d : V3} (hd : d ≠ 0) {t u : ℝ} (h : o + t • d = o + u • d) : t = u := by
  have e : (t - u) • d = 0 := by
    have hx := congrArg V3.x h
    have hy := congrArg V3.y h
    have hz := congrArg V3.z h
    simp at hx hy hz
    ext <;> simp <;> [rcases hx with k | k; rcases hy with k | k; rcases hz with k | k] <;> simp [k]
  by_contra hne
  apply hd
  have k : t - u ≠ 0 := sub_ne_zero.2 hne
  have hx := congrArg V3.x e
  have hy := congrArg V3.y e
  have hz := congrArg V3.z e
  simp [k] at hx hy hz
  ext <;> assumption

theorem normSq_pos_of_unit {d : V3} (h : d.norm = 1) : d.normSq = 1 := V3.normSq_of_unit h

/-- The intersection of a line with a sphere is exactly the set of their common points: none, one (returned as a point) or two. `intersects` says
whether there are any. -/
theorem C48_line (c : V3) (r : ℝ) (o d : V3) (hd : d.norm = 1) :
    (∃ i, Sphere3.intersectionWithLine ⟨some c, some r⟩ ⟨some o, some d⟩ = .ok i ∧ IsectPoints i = LineSet o d ∩ SphereSet c r) ∧
    ∃ b, Sphere3.intersectsLine ⟨some c, some r⟩ ⟨some o, some d⟩ = .ok b ∧ (b = true ↔ (LineSet o d ∩ SphereSet c r).Nonempty) := by
  have hn := normSq_pos_of_unit hd
  have ho : ∀ t, Gte.out o d c r t = 0 ↔ o + t • d ∈ SphereSet c r := fun t => by rw [mem_sphereSet]; rfl
  have hz := V3.ne_zero_of_unit hd
  have e : Sphere3.intersectionWithLine ⟨some c, some r⟩ ⟨some o, some d⟩ = (match Gte.lineSphere o d c r with
    | [] => .ok .Empty
    | [t] => .ok (.Point (some (o + t • d)))
    | [t, u] => do
      let ps ← PointSet3.ofArray [some (o + t • d), some (o + u • d)]
      return .PointSet ps
    | _ => .error .runtimeError) := rfl
  constructor
  · rw [e]
    rcases Gte.lineSphere_spec o d c r hn with ⟨e, h⟩ | ⟨a, e, h⟩ | ⟨a, b, e, hab, h⟩ <;> rw [e]
    · refine ⟨_, rfl, ?_⟩
      rw [isect_empty]
      symm
      rw [Set.eq_empty_iff_forall_notMem]
      rintro x ⟨⟨t, rfl⟩, hx⟩
      exact (h t).ne' ((ho t).2 hx)
    · refine ⟨_, rfl, ?_⟩
      rw [isect_point]
      ext x
      constructor
      · rintro rfl
        exact ⟨⟨a, rfl⟩, (ho a).1 (by rw [h]; ring)⟩
      · rintro ⟨⟨t, rfl⟩, hx⟩
        have := (ho t).2 hx
        rw [h, mul_self_eq_zero, sub_eq_zero] at this
        rw [this]; rfl
    · have hne : o + a • d ≠ o + b • d := fun k => hab.ne (param_inj hz k)
      refine ⟨.PointSet [some (o + a • d), some (o + b • d)], ?_, ?_⟩
      · simp only [ofArray_pair hne, bind, Except.bind, pure, Except.pure]
      · rw [isect_pointSet]
        ext x
        constructor
        · rintro (rfl | rfl)
          · exact ⟨⟨a, rfl⟩, (ho a).1 (by rw [h]; ring)⟩
          · exact ⟨⟨b, rfl⟩, (ho b).1 (by rw [h]; ring)⟩
        · rintro ⟨⟨t, rfl⟩, hx⟩
          have := (ho t).2 hx
          rw [h, mul_eq_zero, sub_eq_zero, sub_eq_zero] at this
          rcases this with rfl | rfl
          · left; rfl
          · right; rfl
  · refine ⟨_, rfl, ?_⟩
    show Gte.testLineSphere o d c r = true ↔ _
    simp only [Gte.testLineSphere, decide_eq_true_iff]
    constructor
    · intro h
      refine ⟨o + (-d.dot (o - c) + Real.sqrt (d.dot (o - c) * d.dot (o - c) - ((o - c).dot (o - c) - r * r))) • d, ⟨_, rfl⟩, (ho _).1 ?_⟩
      rw [Gte.out_eq o d c r _ hn]
      have := Real.mul_self_sqrt h
      linear_combination this
    · rintro ⟨x, ⟨t, rfl⟩, hx⟩
      have := (ho t).2 hx
      rw [Gte.out_eq o d c r _ hn] at this
      nlinarith [sq_nonneg (t + d.dot (o - c))]

/-- the point is on the sphere, or it is the point `o` and within the tolerance -/
def OnOr (eps : ℝ) (c : V3) (r : ℝ) (s : Set V3) (p : V3) : Prop := p ∈ SphereSet c r ∨ p ∈ s ∧ |(p - c).norm ^ 2 - r ^ 2| < eps

theorem unit_example : (⟨0, 0, 1⟩ : V3).norm = 1 := by rw [V3.norm_of_normSq_one]; norm_num [V3.normSq, V3.dot]

example : (⟨0, 0, 1⟩ : V3).norm = 1 := unit_example

theorem ray_root {eps : ℝ} {o d c : V3} {r a : ℝ} (hz : d ≠ 0) (h0 : 0 < eps) (wa : 0 ≤ a) (ha : Gte.out o d c r a = 0 ∨ a = 0)
    (hk : ¬(o + a • d = o ∧ (!decide (|(o + a • d - c).normSq - r * r| < eps)) = true)) :
    o + a • d ∈ RaySet o d ∧ OnOr eps c r {o} (o + a • d) := by
  refine ⟨⟨a, wa, rfl⟩, ?_⟩
  rcases ha with ha | rfl
  · left; rw [mem_sphereSet]; exact ha
  · right
    have e : o + (0 : ℝ) • d = o := by ext <;> simp
    refine ⟨e, ?_⟩
    rw [e] at hk ⊢
    simp at hk
    rw [V3.norm_sq, sq r]; exact hk

/-- The intersection of a ray with a sphere: its points are on the ray and on the sphere (only the origin of the ray may be on the sphere just
within the tolerance), and no common point is missing. With `onlyInSight`, the nearest of these points to the origin of the ray is returned, if
there is any. `intersects` says whether the ray and the sphere meet. -/
theorem C48_ray (eps : ℝ) (h0 : 0 < eps) (c : V3) (r : ℝ) (o d : V3) (hd : d.norm = 1) :
    (∃ i j, Sphere3.intersectionWithRay eps ⟨some c, some r⟩ ⟨some o, some d⟩ false = .ok i ∧
      Sphere3.intersectionWithRay eps ⟨some c, some r⟩ ⟨some o, some d⟩ true = .ok j ∧
      (∀ p ∈ IsectPoints i, p ∈ RaySet o d ∧ OnOr eps c r {o} p) ∧ (∀ p ∈ RaySet o d, p ∈ SphereSet c r → p ∈ IsectPoints i) ∧
      (IsectPoints i = ∅ → IsectPoints j = ∅) ∧
      (IsectPoints i ≠ ∅ → ∃ q ∈ IsectPoints i, IsectPoints j = {q} ∧ ∀ p ∈ IsectPoints i, (q - o).norm ≤ (p - o).norm)) ∧
    ∃ b, Sphere3.intersectsRay ⟨some c, some r⟩ ⟨some o, some d⟩ = .ok b ∧ (b = true ↔ (RaySet o d ∩ SphereSet c r).Nonempty) := by
  have hn := normSq_pos_of_unit hd
  have ho : ∀ t, Gte.out o d c r t = 0 ↔ o + t • d ∈ SphereSet c r := fun t => by rw [mem_sphereSet]; rfl
  have hz := V3.ne_zero_of_unit hd
  have wi : ∀ t, Gte.Within 0 none t ↔ 0 ≤ t := fun t => by simp [Gte.Within]
  have hat0 : ∀ t : ℝ, o + t • d = o ↔ t = 0 := fun t => by
    constructor
    · intro h; exact param_inj hz (h.trans (by ext <;> simp : o = o + (0 : ℝ) • d))
    · rintro rfl; ext <;> simp
  constructor
  · set on : V3 → Bool := fun p => decide (|(p - c).normSq - r * r| < eps) with hon
    have e : ∀ s, Sphere3.intersectionWithRay eps ⟨some c, some r⟩ ⟨some o, some d⟩ s = (match Gte.raySphere o d c r with
      | [] => .ok .Empty
      | [t] => if o + t • d = o ∧ !on (o + t • d) then .ok .Empty else .ok (.Point (some (o + t • d)))
      | [t, u] =>
        if o + t • d = o ∧ !on (o + t • d) then .ok (.Point (some (o + u • d)))
        else if o + u • d = o ∧ !on (o + u • d) then .ok (.Point (some (o + t • d)))
        else do
          let ps ← PointSet3.ofArray [some (o + t • d), some (o + u • d)]
          if s then do
            let x ← PointSet3.getPointClosestTo ps (some o)
            return .Point x
          else return .PointSet ps
      | _ => .error .runtimeError) := fun s => rfl
    have single : ∀ (x : V3), x ∈ RaySet o d → OnOr eps c r {o} x → (∀ p ∈ RaySet o d, p ∈ SphereSet c r → p = x) →
        (∀ p ∈ IsectPoints (.Point (some x)), p ∈ RaySet o d ∧ OnOr eps c r {o} p) ∧
        (∀ p ∈ RaySet o d, p ∈ SphereSet c r → p ∈ IsectPoints (.Point (some x))) ∧
        (IsectPoints (.Point (some x)) = ∅ → IsectPoints (.Point (some x)) = ∅) ∧
        (IsectPoints (.Point (some x)) ≠ ∅ → ∃ q ∈ IsectPoints (.Point (some x)), IsectPoints (.Point (some x)) = {q} ∧
          ∀ p ∈ IsectPoints (.Point (some x)), (q - o).norm ≤ (p - o).norm) := by
      intro x h1 h2 h3
      rw [isect_point]
      refine ⟨fun p hp => hp ▸ ⟨h1, h2⟩, fun p hp hs => h3 p hp hs, fun h => h, fun _ => ⟨x, rfl, rfl, fun p hp => hp ▸ le_rfl⟩⟩
    rw [e, e]
    rcases Gte.raySphere_cut o d c r hn with ⟨e, h⟩ | ⟨a, e, wa, ha, h⟩ | ⟨a, b, e, hab, wa, wb, ha, hb, h⟩ <;> rw [e]
    · refine ⟨_, _, rfl, rfl, ?_⟩
      rw [isect_empty]
      refine ⟨by simp, ?_, by simp, by simp⟩
      rintro p ⟨t, ht, rfl⟩ hp
      exact absurd ((ho t).2 hp) (h t ((wi t).2 ht)).ne'
    · have ha' : Gte.out o d c r a = 0 := by simpa using ha
      have hs := (ho a).1 ha'
      have hk : ¬(o + a • d = o ∧ (!on (o + a • d)) = true) := by
        rintro ⟨-, k⟩
        rw [mem_sphereSet] at hs
        simp [on, hs, h0] at k
      simp only [if_neg hk]
      refine ⟨_, _, rfl, rfl, single _ ⟨a, (wi a).1 wa, rfl⟩ (Or.inl hs) ?_⟩
      rintro p ⟨t, ht, rfl⟩ hp
      rw [h t ((wi t).2 ht) ((ho t).2 hp)]
    · have wa' := (wi a).1 wa
      have hb' : Gte.out o d c r b = 0 := by simpa using hb
      have hbs := (ho b).1 hb'
      have hb0 : o + b • d ≠ o := by rw [Ne, hat0]; linarith
      have hne : o + a • d ≠ o + b • d := fun k => hab.ne (param_inj hz k)
      by_cases hk : o + a • d = o ∧ (!on (o + a • d)) = true
      · simp only [if_pos hk]
        refine ⟨_, _, rfl, rfl, single _ ⟨b, by linarith, rfl⟩ (Or.inl hbs) ?_⟩
        rintro p ⟨t, ht, rfl⟩ hp
        rcases h t ((wi t).2 ht) ((ho t).2 hp) with rfl | rfl
        · exfalso
          rw [mem_sphereSet] at hp
          have := hk.2
          simp [on, hp] at this
          linarith
        · rfl
      · have hk2 : ¬(o + b • d = o ∧ (!on (o + b • d)) = true) := fun k => hb0 k.1
        simp only [if_neg hk, if_neg hk2, ofArray_pair hne, bind, Except.bind]
        have cl : PointSet3.getPointClosestTo [some (o + a • d), some (o + b • d)] (some o) = .ok (some (o + a • d)) := by
          obtain ⟨q, dd, h1, -, -, h2, h3, h4⟩ := C52_closest.1 [o + a • d, o + b • d] o (by simp)
          rw [List.map_cons, List.map_cons, List.map_nil] at h1
          rw [h1]
          have ea : (o + a • d - o).norm = a := by
            rw [V3.add_smul_sub, V3.norm_smul, hd, abs_of_nonneg wa', mul_one]
          have eb : (o + b • d - o).norm = b := by
            rw [V3.add_smul_sub, V3.norm_smul, hd, abs_of_nonneg (by linarith), mul_one]
          simp at h2
          rcases h2 with rfl | rfl
          · rfl
          · have := h4.2 (o + a • d) (by simp)
            linarith
        refine ⟨_, _, rfl, by simp only [cl, if_true]; rfl, ?_⟩
        rw [isect_point]
        have hp : IsectPoints (.PointSet [some (o + a • d), some (o + b • d)]) = {o + a • d, o + b • d} := isect_pointSet _ _
        rw [hp]
        refine ⟨?_, ?_, ?_, ?_⟩
        · rintro p (rfl | rfl)
          · exact ray_root hz h0 wa' (ha.imp id fun k => k.2) hk
          · exact ⟨⟨b, by linarith, rfl⟩, Or.inl hbs⟩
        · rintro p ⟨t, ht, rfl⟩ hp
          rcases h t ((wi t).2 ht) ((ho t).2 hp) with rfl | rfl
          · left; rfl
          · right; rfl
        · intro k
          exact absurd k (Set.Nonempty.ne_empty ⟨_, Or.inl rfl⟩)
        · intro _
          refine ⟨o + a • d, Or.inl rfl, rfl, ?_⟩
          rintro p (rfl | rfl)
          · exact le_rfl
          · rw [V3.add_smul_sub, V3.add_smul_sub, V3.norm_smul, V3.norm_smul, hd, abs_of_nonneg wa', abs_of_nonneg (by linarith)]
            linarith
  · refine ⟨_, rfl, ?_⟩
    show Gte.testRaySphere o d c r = true ↔ _
    simp only [Gte.testRaySphere]
    set a1 := d.dot (o - c)
    set a0 := (o - c).dot (o - c) - r * r
    have hq : ∀ t, Gte.out o d c r t = t ^ 2 + 2 * a1 * t + a0 := fun t => Gte.out_eq o d c r t hn
    have root : a0 ≤ a1 * a1 → 0 ≤ -a1 + Real.sqrt (a1 * a1 - a0) → (RaySet o d ∩ SphereSet c r).Nonempty := by
      intro hh hp
      refine ⟨o + (-a1 + Real.sqrt (a1 * a1 - a0)) • d, ⟨_, hp, rfl⟩, (ho _).1 ?_⟩
      rw [hq]
      have := Real.mul_self_sqrt (sub_nonneg.2 hh)
      linear_combination this
    split_ifs with h1 h2
    · simp only [true_iff]
      have hh : a0 ≤ a1 * a1 := by nlinarith [mul_self_nonneg a1]
      refine root hh ?_
      have : |a1| ≤ Real.sqrt (a1 * a1 - a0) := by
        apply Real.le_sqrt_of_sq_le
        rw [sq_abs]; linarith [sq a1]
      linarith [le_abs_self a1]
    · simp only [false_iff, Set.not_nonempty_iff_eq_empty, Set.eq_empty_iff_forall_notMem]
      rintro x ⟨⟨t, ht, rfl⟩, hx⟩
      have := (ho t).2 hx
      rw [hq] at this
      nlinarith [mul_nonneg h2 ht, sq_nonneg t]
    · rw [decide_eq_true_iff]
      constructor
      · intro hh
        exact root hh (by linarith [Real.sqrt_nonneg (a1 * a1 - a0)])
      · rintro ⟨x, ⟨t, ht, rfl⟩, hx⟩
        have := (ho t).2 hx
        rw [hq] at this
        nlinarith [sq_nonneg (t + a1)]

example : (0 : ℝ) < 1 ∧ (⟨0, 0, 1⟩ : V3).norm = 1 := ⟨one_pos, unit_example⟩

theorem seg_choice {a b P Q : V3} (on : V3 → Bool) (hne : P ≠ Q) (hP : on P = false → P = a) (hQ : on Q = false → Q = b) :
    ∃ i, (if P = a ∧ (!on P) = true then if Q = b ∧ (!on Q) = true then Except.ok Isect3.Empty else .ok (.Point (some Q))
      else if P = b ∧ (!on P) = true then if Q = a ∧ (!on Q) = true then .ok .Empty else .ok (.Point (some Q))
      else if Q = a ∧ (!on Q) = true then if P = b ∧ (!on P) = true then .ok .Empty else .ok (.Point (some P))
      else if Q = b ∧ (!on Q) = true then if P = a ∧ (!on P) = true then .ok .Empty else .ok (.Point (some P))
      else do
        let ps ← PointSet3.ofArray [some P, some Q]
        return .PointSet ps : Res Isect3) = .ok i ∧ IsectPoints i = {x | (x = P ∨ x = Q) ∧ on x = true} := by
  cases oP : on P <;> cases oQ : on Q
  · obtain rfl := hP oP
    obtain rfl := hQ oQ
    refine ⟨.Empty, by simp, ?_⟩
    rw [isect_empty]; ext x
    simp only [Set.mem_empty_iff_false, Set.mem_ofPred_eq, false_iff]
    rintro ⟨rfl | rfl, h⟩ <;> simp_all
  · obtain rfl := hP oP
    refine ⟨.Point (some Q), by simp, ?_⟩
    rw [isect_point]; ext x
    simp only [Set.mem_singleton_iff, Set.mem_ofPred_eq]
    constructor
    · rintro rfl; exact ⟨Or.inr rfl, oQ⟩
    · rintro ⟨rfl | rfl, h⟩
      · rw [oP] at h; exact absurd h (by simp)
      · rfl
  · obtain rfl := hQ oQ
    refine ⟨.Point (some P), by by_cases h : Q = a <;> simp [h], ?_⟩
    rw [isect_point]; ext x
    simp only [Set.mem_singleton_iff, Set.mem_ofPred_eq]
    constructor
    · rintro rfl; exact ⟨Or.inl rfl, oP⟩
    · rintro ⟨rfl | rfl, h⟩
      · rfl
      · rw [oQ] at h; exact absurd h (by simp)
  · refine ⟨.PointSet [some P, some Q], by simp [ofArray_pair hne, bind, Except.bind, pure, Except.pure], ?_⟩
    rw [isect_pointSet]; ext x
    simp only [Set.mem_insert_iff, Set.mem_singleton_iff, Set.mem_ofPred_eq]
    constructor
    · rintro (rfl | rfl)
      · exact ⟨Or.inl rfl, oP⟩
      · exact ⟨Or.inr rfl, oQ⟩
    · exact fun h => h.1

/-- The intersection of a segment with a sphere: its points are on the segment and on the sphere (only an end of the segment may be on the sphere
just within the tolerance), and no common point is missing. `intersects` says whether the segment meets the surface. -/
theorem C48_segment (eps : ℝ) (h0 : 0 < eps) (c : V3) (r : ℝ) (a b : V3) :
    (∃ i, Sphere3.intersectionWithSegment eps ⟨some c, some r⟩ ⟨some a, some b⟩ = .ok i ∧
      (∀ p ∈ IsectPoints i, p ∈ SegSet a b ∧ OnOr eps c r {a, b} p) ∧ ∀ p ∈ SegSet a b, p ∈ SphereSet c r → p ∈ IsectPoints i) ∧
    ∃ z, Sphere3.intersectsSegment ⟨some c, some r⟩ ⟨some a, some b⟩ = .ok z ∧ (z = true ↔ (SegSet a b ∩ SphereSet c r).Nonempty) := by
  set m := (Gte.centred a b).1 with hm
  set d := (Gte.centred a b).2.1 with hd
  set e := (Gte.centred a b).2.2 with he
  have ho : ∀ t, Gte.out m d c r t = 0 ↔ m + t • d ∈ SphereSet c r := fun t => by rw [mem_sphereSet]; rfl
  have hseg : ∀ p, p ∈ SegSet a b ↔ ∃ t, Gte.Within (-e) (some e) t ∧ p = m + t • d := fun p => Gte.mem_centred
  have hlo : m + (-e) • d = a := Gte.centred_lo a b
  have hhi : m + e • d = b := Gte.centred_hi a b
  constructor
  · set on : V3 → Bool := fun p => decide (|(p - c).normSq - r * r| < eps) with hon
    have onS : ∀ p, p ∈ SphereSet c r → on p = true := by
      intro p hp
      rw [mem_sphereSet] at hp
      simp [on, hp, h0]
    have onN : ∀ p, on p = true → |(p - c).norm ^ 2 - r ^ 2| < eps := by
      intro p hp
      rw [V3.norm_sq, sq r]; simpa [on] using hp
    have ee : Sphere3.intersectionWithSegment eps ⟨some c, some r⟩ ⟨some a, some b⟩ = (match Gte.segmentSphere a b c r with
      | [] => .ok .Empty
      | [t] => if (m + t • d = a ∨ m + t • d = b) ∧ !on (m + t • d) then .ok .Empty else .ok (.Point (some (m + t • d)))
      | [t, u] =>
        if m + t • d = a ∧ !on (m + t • d) then
          if m + u • d = b ∧ !on (m + u • d) then .ok .Empty else .ok (.Point (some (m + u • d)))
        else if m + t • d = b ∧ !on (m + t • d) then
          if m + u • d = a ∧ !on (m + u • d) then .ok .Empty else .ok (.Point (some (m + u • d)))
        else if m + u • d = a ∧ !on (m + u • d) then
          if m + t • d = b ∧ !on (m + t • d) then .ok .Empty else .ok (.Point (some (m + t • d)))
        else if m + u • d = b ∧ !on (m + u • d) then
          if m + t • d = a ∧ !on (m + t • d) then .ok .Empty else .ok (.Point (some (m + t • d)))
        else do
          let ps ← PointSet3.ofArray [some (m + t • d), some (m + u • d)]
          return .PointSet ps
      | _ => .error .runtimeError) := rfl
    rw [ee]
    rcases Gte.segmentSphere_cut a b c r with ⟨k, h⟩ | ⟨t, k, wt, ht, h⟩ | ⟨t, u, k, htu, wt, wu, ht, hu, h⟩ <;> rw [k]
    · refine ⟨_, rfl, ?_⟩
      rw [isect_empty]
      refine ⟨by simp, ?_⟩
      intro p hp hs
      obtain ⟨t, ht, rfl⟩ := (hseg p).1 hp
      exact absurd ((ho t).2 hs) (h t ht).ne'
    · have hmem := (hseg _).2 ⟨t, wt, rfl⟩
      have uniq : ∀ p ∈ SegSet a b, p ∈ SphereSet c r → p = m + t • d := by
        intro p hp hs
        obtain ⟨s, hs', rfl⟩ := (hseg p).1 hp
        rw [h s hs' ((ho s).2 hs)]
      have hP : m + t • d ∈ SphereSet c r ∨ m + t • d = a := by
        rcases ht with ht | ht
        · exact Or.inl ((ho t).1 ht)
        · right; rw [← hlo, ht.1]
      by_cases hon' : on (m + t • d) = true
      · refine ⟨.Point (some (m + t • d)), by simp [hon'], ?_⟩
        rw [isect_point]
        refine ⟨?_, uniq⟩
        rintro p rfl
        exact ⟨hmem, hP.imp id fun h => ⟨Or.inl h, onN _ hon'⟩⟩
      · have hA : m + t • d = a := hP.resolve_left fun h => hon' (onS _ h)
        refine ⟨.Empty, by simp only [hon']; simp [hA], ?_⟩
        rw [isect_empty]
        refine ⟨by simp, fun p hp hs => ?_⟩
        exact absurd (onS _ (uniq p hp hs ▸ hs)) hon'
    · have hd0 : d ≠ 0 := by
        intro hd0
        have hab : a = b := by rw [← hlo, ← hhi, hd0]; ext <;> simp
        have e0 : e = 0 := by
          show 1 / 2 * (b - a).norm = 0
          have : (b - a).norm = 0 := by rw [V3.norm_eq_zero]; exact V3.sub_eq_zero'.2 hab.symm
          rw [this, mul_zero]
        have w1 := wt.1
        have w2 := wu.2 _ rfl
        have : t < u := htu
        have w1' : -e ≤ t := w1
        have w2' : u ≤ e := w2
        linarith
      have hne : m + t • d ≠ m + u • d := fun k => htu.ne (param_inj hd0 k)
      have memt := (hseg _).2 ⟨t, wt, rfl⟩
      have memu := (hseg _).2 ⟨u, wu, rfl⟩
      have all : ∀ p ∈ SegSet a b, p ∈ SphereSet c r → p = m + t • d ∨ p = m + u • d := by
        intro p hp hs
        obtain ⟨s, hs', rfl⟩ := (hseg p).1 hp
        rcases h s hs' ((ho s).2 hs) with rfl | rfl
        · exact Or.inl rfl
        · exact Or.inr rfl
      have hP : m + t • d ∈ SphereSet c r ∨ m + t • d = a := by
        rcases ht with ht | ht
        · exact Or.inl ((ho t).1 ht)
        · right; rw [← hlo, ht.2]
      have hQ : m + u • d ∈ SphereSet c r ∨ m + u • d = b := by
        rcases hu with hu | hu
        · exact Or.inl ((ho u).1 hu)
        · right; rw [← hhi, ← Option.some.inj hu.2]
      obtain ⟨i, e1, e2⟩ := seg_choice (a := a) (b := b) on hne
        (fun k => hP.resolve_left fun h => by rw [onS _ h] at k; exact absurd k (by simp))
        (fun k => hQ.resolve_left fun h => by rw [onS _ h] at k; exact absurd k (by simp))
      refine ⟨i, e1, ?_⟩
      rw [e2]
      constructor
      · rintro p ⟨rfl | rfl, hp⟩
        · exact ⟨memt, hP.imp id fun h => ⟨Or.inl h, onN _ hp⟩⟩
        · exact ⟨memu, hQ.imp id fun h => ⟨Or.inr h, onN _ hp⟩⟩
      · exact fun p hp hs => ⟨all p hp hs, onS p hs⟩
  · refine ⟨_, rfl, ?_⟩
    show Gte.testSegmentSphere a b c r = true ↔ _
    have e0 : 0 ≤ e := mul_nonneg (by norm_num) (b - a).norm_nonneg
    have wi : ∀ t, Gte.Within (-e) (some e) t ↔ -e ≤ t ∧ t ≤ e := fun t => by simp [Gte.Within]
    have hmeet : (SegSet a b ∩ SphereSet c r).Nonempty ↔ ∃ t, -e ≤ t ∧ t ≤ e ∧ Gte.out m d c r t = 0 := by
      constructor
      · rintro ⟨p, hp, hs⟩
        obtain ⟨t, ht, rfl⟩ := (hseg p).1 hp
        exact ⟨t, ((wi t).1 ht).1, ((wi t).1 ht).2, (ho t).2 hs⟩
      · rintro ⟨t, h1, h2, h3⟩
        exact ⟨_, (hseg _).2 ⟨t, (wi t).2 ⟨h1, h2⟩, rfl⟩, (ho t).1 h3⟩
    rw [hmeet]
    have et : Gte.testSegmentSphere a b c r = (if d.dot (m - c) * d.dot (m - c) - ((m - c).dot (m - c) - r * r) < 0 then false
      else if (e * e + ((m - c).dot (m - c) - r * r) - 2 * d.dot (m - c) * e) * (e * e + ((m - c).dot (m - c) - r * r) + 2 * d.dot (m - c) * e) ≤ 0
        then true else decide (0 < e * e + ((m - c).dot (m - c) - r * r) - 2 * d.dot (m - c) * e ∧ |d.dot (m - c)| < e)) := rfl
    rw [et]
    by_cases hab : a = b
    · have en : e = 0 := by
        show 1 / 2 * (b - a).norm = 0
        have : (b - a).norm = 0 := by rw [V3.norm_eq_zero]; exact V3.sub_eq_zero'.2 hab.symm
        rw [this, mul_zero]
      have hd0 : d = 0 := by
        show (b - a).normalized = 0
        have z : (b - a).normSq = 0 := by rw [V3.normSq_eq_zero]; exact V3.sub_eq_zero'.2 hab.symm
        rw [V3.normalized, if_neg (by simp [z])]; exact V3.sub_eq_zero'.2 hab.symm
      have z : d.dot (m - c) = 0 := by rw [hd0]; simp [V3.dot]
      have hout : ∀ t, Gte.out m d c r t = (m - c).dot (m - c) - r * r := by
        intro t
        have : m + t • d - c = m - c := by rw [hd0]; ext <;> simp
        rw [Gte.out, this]; rfl
      rw [z, en]
      simp only [hout]
      generalize (m - c).dot (m - c) - r * r = k
      constructor
      · intro hh
        refine ⟨0, by simp, by simp, ?_⟩
        split_ifs at hh with h1 h2
        · simp at h1 h2
          nlinarith
        · simp at hh
      · rintro ⟨-, -, -, rfl⟩
        simp
    · have hn : d.normSq = 1 := V3.normSq_normalized (lt_of_le_of_ne (V3.normSq_nonneg _) fun k =>
        hab (V3.sub_eq_zero'.1 (V3.normSq_eq_zero.1 k.symm)).symm)
      have hq := fun t => Gte.out_eq m d c r t hn
      simp only [hq]
      generalize (m - c).dot (m - c) - r * r = a0
      generalize d.dot (m - c) = a1
      have hc : Continuous fun t : ℝ => t ^ 2 + 2 * a1 * t + a0 := by fun_prop
      split_ifs with h1 h2
      · simp only [false_iff, not_exists]
        rintro t ⟨-, -, h⟩
        nlinarith [sq_nonneg (t + a1)]
      · simp only [true_iff]
        rcases mul_nonpos_iff.1 h2 with ⟨k1, k2⟩ | ⟨k1, k2⟩
        · have : (0 : ℝ) ∈ Set.Icc (e ^ 2 + 2 * a1 * e + a0) ((-e) ^ 2 + 2 * a1 * (-e) + a0) := ⟨by nlinarith, by nlinarith⟩
          obtain ⟨t, ht, h⟩ := intermediate_value_Icc' (by linarith : -e ≤ e) hc.continuousOn this
          exact ⟨t, ht.1, ht.2, h⟩
        · have : (0 : ℝ) ∈ Set.Icc ((-e) ^ 2 + 2 * a1 * (-e) + a0) (e ^ 2 + 2 * a1 * e + a0) := ⟨by nlinarith, by nlinarith⟩
          obtain ⟨t, ht, h⟩ := intermediate_value_Icc (by linarith : -e ≤ e) hc.continuousOn this
          exact ⟨t, ht.1, ht.2, h⟩
      · rw [decide_eq_true_iff]
        constructor
        · rintro ⟨k1, k2⟩
          rw [abs_lt] at k2
          have : (0 : ℝ) ∈ Set.Icc ((-a1) ^ 2 + 2 * a1 * (-a1) + a0) ((-e) ^ 2 + 2 * a1 * (-e) + a0) := ⟨by nlinarith, by nlinarith⟩
          obtain ⟨t, ht, h⟩ := intermediate_value_Icc' (by linarith : -e ≤ -a1) hc.continuousOn this
          exact ⟨t, ht.1, by linarith [ht.2], h⟩
        · rintro ⟨t, t1, t2, h⟩
          push Not at h2
          have pos : 0 < e * e + a0 - 2 * a1 * e := by
            by_contra hneg
            push Not at hneg
            have q1 : e * e + a0 - 2 * a1 * e < 0 := by
              rcases hneg.eq_or_lt with k | k
              · rw [k, zero_mul] at h2; exact absurd h2 (lt_irrefl _)
              · exact k
            have q2 : e * e + a0 + 2 * a1 * e < 0 := by
              by_contra k
              push Not at k
              nlinarith [mul_nonneg (neg_nonneg.2 q1.le) k]
            have u1 : 0 ≤ t + e := by linarith
            have u2 : 0 ≤ e - t := by linarith
            rcases e0.eq_or_lt with k | k
            · have : t = 0 := by linarith
              subst this
              rw [← k] at q1
              nlinarith
            · nlinarith [mul_nonneg u1 u2, mul_nonneg u1 (neg_nonneg.2 q2.le), mul_nonneg u2 (neg_nonneg.2 q1.le)]
          have pos2 : 0 < e * e + a0 + 2 * a1 * e := by
            by_contra k
            push Not at k
            nlinarith [mul_nonneg pos.le (neg_nonneg.2 k)]
          refine ⟨pos, ?_⟩
          rw [abs_lt]
          constructor
          · by_contra k
            push Not at k
            have : (t - e) * (t + e + 2 * a1) = -(e * e + a0 + 2 * a1 * e) := by linear_combination h
            nlinarith [mul_nonneg (by linarith : 0 ≤ e - t) (by linarith : 0 ≤ -(t + e + 2 * a1))]
          · by_contra k
            push Not at k
            have : (t + e) * (t - e + 2 * a1) = -(e * e + a0 - 2 * a1 * e) := by linear_combination h
            nlinarith [mul_nonneg (by linarith : 0 ≤ t + e) (by linarith : 0 ≤ t - e + 2 * a1)]

/-- some unit vector orthogonal to a given one -/
theorem exists_orthogonal {n : V3} (hn : n.norm = 1) : ∃ w : V3, w.norm = 1 ∧ n.dot w = 0 := by
  have key : ∃ w : V3, w ≠ 0 ∧ n.dot w = 0 := by
    by_cases h : n.x = 0 ∧ n.y = 0
    · exact ⟨⟨1, 0, 0⟩, by simp [V3.ext_iff], by simp [V3.dot, h.1]⟩
    · refine ⟨⟨-n.y, n.x, 0⟩, ?_, by simp [V3.dot]; ring⟩
      intro k
      simp [V3.ext_iff] at k
      exact h ⟨k.2, k.1⟩
  obtain ⟨w, h1, h2⟩ := key
  have hp : 0 < w.normSq := lt_of_le_of_ne w.normSq_nonneg fun k => h1 (V3.normSq_eq_zero.1 k.symm)
  refine ⟨w.normalized, V3.norm_normalized hp, ?_⟩
  have hs : w.norm • w.normalized = w := V3.norm_smul_normalized w
  have : n.dot (w.norm • w.normalized) = 0 := by rw [hs, h2]
  rw [V3.dot_smul] at this
  rcases mul_eq_zero.1 this with k | k
  · exact absurd (V3.norm_eq_zero.1 k) h1
  · exact k

/-- A sphere of non-negative radius intersects a plane exactly when they have a common point. -/
theorem C48_plane (c : V3) (r : ℝ) (hr : 0 ≤ r) (q n : V3) (hn : n.norm = 1) :
    ∃ b, Sphere3.intersectsPlane ⟨some c, some r⟩ ⟨some q, some n⟩ = .ok b ∧ (b = true ↔ (PlaneSet q n ∩ SphereSet c r).Nonempty) := by
  refine ⟨_, rfl, ?_⟩
  show Gte.testPlaneSphere q n c r = true ↔ _
  rw [Gte.testPlaneSphere, decide_eq_true_iff]
  have hn1 := V3.normSq_of_unit hn
  constructor
  · intro h
    obtain ⟨w, hw, hwn⟩ := exists_orthogonal hn
    have hw1 := V3.normSq_of_unit hw
    set s := n.dot c - n.dot q
    have hs : 0 ≤ r * r - s * s := by
      nlinarith [abs_nonneg s, sq_abs s, abs_mul_abs_self s]
    refine ⟨c + (-s) • n + Real.sqrt (r * r - s * s) • w, ?_, ?_⟩
    · show n.dot (_ - q) = 0
      have e : n.dot (c + (-s) • n + Real.sqrt (r * r - s * s) • w - q) =
          n.dot c - n.dot q - s * n.normSq + Real.sqrt (r * r - s * s) * n.dot w := by
        simp only [V3.dot, V3.normSq, V3.add_x, V3.add_y, V3.add_z, V3.sub_x, V3.sub_y, V3.sub_z, V3.smul_x, V3.smul_y, V3.smul_z]; ring
      rw [e, hn1, hwn]; ring
    · rw [mem_sphereSet]
      have e : (c + (-s) • n + Real.sqrt (r * r - s * s) • w - c).normSq = s * s * n.normSq - 2 * s * Real.sqrt (r * r - s * s) * n.dot w +
          Real.sqrt (r * r - s * s) * Real.sqrt (r * r - s * s) * w.normSq := by
        simp only [V3.dot, V3.normSq, V3.add_x, V3.add_y, V3.add_z, V3.sub_x, V3.sub_y, V3.sub_z, V3.smul_x, V3.smul_y, V3.smul_z]; ring
      rw [e, hn1, hwn, hw1, Real.mul_self_sqrt hs]; ring
  · rintro ⟨p, hp, hs⟩
    have e : n.dot c - n.dot q = -(n.dot (p - c)) := by
      have : n.dot (p - q) = 0 := hp
      rw [V3.dot_sub] at this ⊢; linarith
    have hle := V3.abs_dot_le n (p - c)
    have hs' : (p - c).norm = |r| := hs
    rw [hn, hs', one_mul, abs_of_nonneg hr] at hle
    rw [e, abs_neg]; exact hle

example : (0 : ℝ) ≤ 1 ∧ (⟨0, 0, 1⟩ : V3).norm = 1 := ⟨zero_le_one, unit_example⟩

/-- Undefined operands throw. -/
theorem C48_undefined (eps : ℝ) :
    (∀ s, Sphere3.contains eps s none = .error .undefined) ∧
    (∀ s : Sphere3, s.isDefined = false → (∀ p, s.contains eps p = .error .undefined) ∧ (∀ ps, s.containsSet eps ps = .error .undefined) ∧
      (∀ ps, s.intersectsSet eps ps = .error .undefined) ∧
      (∀ l, s.intersectsLine l = .error .undefined ∧ s.intersectionWithLine l = .error .undefined) ∧
      (∀ l b, s.intersectsRay l = .error .undefined ∧ s.intersectionWithRay eps l b = .error .undefined) ∧
      (∀ l, s.intersectsSegment l = .error .undefined ∧ s.intersectionWithSegment eps l = .error .undefined) ∧
      (∀ l, s.intersectsPlane l = .error .undefined) ∧ s.isUnitary = .error .undefined ∧ s.getCenter = .error .undefined ∧
      s.getRadius = .error .undefined) := by
  refine ⟨fun _ => rfl, fun s h => ?_⟩
  obtain ⟨c, r⟩ := s
  have hcr : c = none ∨ ∃ c', c = some c' ∧ r = none := by
    cases c with
    | none => exact Or.inl rfl
    | some c' =>
      cases r with
      | none => exact Or.inr ⟨c', rfl, rfl⟩
      | some r => simp [Sphere3.isDefined] at h
  refine ⟨fun p => ?_, fun ps => ?_, fun ps => ?_, fun l => ⟨?_, ?_⟩, fun l b => ⟨?_, ?_⟩, fun l => ⟨?_, ?_⟩, fun l => ?_, ?_, ?_, ?_⟩
  · rcases hcr with rfl | ⟨c', rfl, rfl⟩ <;> cases p <;> rfl
  · simp [Sphere3.containsSet, h]
  · simp [Sphere3.intersectsSet, h]
  · rcases hcr with rfl | ⟨c', rfl, rfl⟩ <;> rfl
  · rcases hcr with rfl | ⟨c', rfl, rfl⟩ <;> obtain ⟨_ | _, _ | _⟩ := l <;> rfl
  · rcases hcr with rfl | ⟨c', rfl, rfl⟩ <;> rfl
  · rcases hcr with rfl | ⟨c', rfl, rfl⟩ <;> obtain ⟨_ | _, _ | _⟩ := l <;> rfl
  · rcases hcr with rfl | ⟨c', rfl, rfl⟩ <;> rfl
  · rcases hcr with rfl | ⟨c', rfl, rfl⟩ <;> obtain ⟨_ | _, _ | _⟩ := l <;> rfl
  · rcases hcr with rfl | ⟨c', rfl, rfl⟩ <;> obtain ⟨_ | _, _ | _⟩ := l <;> rfl
  · rcases hcr with rfl | ⟨c', rfl, rfl⟩ <;> rfl
  · rcases hcr with rfl | ⟨c', rfl, rfl⟩ <;> rfl
  · rcases hcr with rfl | ⟨c', rfl, rfl⟩ <;> rfl

example : (⟨some 0, none⟩ : Sphere3).isDefined = false := rfl

/-- A sphere moved by a transformation built from the factories contains the moved points of the sphere; the restriction is that of
`C47_linear3_partial`. -/
theorem C47_sphere_partial (eps : ℝ) (h0 : 0 < eps) (h1 : eps ≤ 1) (t : T3) (ht : Built3 eps t) (c : V3) (r : ℝ) (p : V3) :
    ∃ s' p', Sphere3.applyTransformation t ⟨some c, some r⟩ = .ok s' ∧ P3.applyTransformation t (some p) = .ok p' ∧
      s'.contains eps p' = Sphere3.contains eps ⟨some c, some r⟩ (some p) ∧ s'.radius = some r := by
  obtain ⟨l, v, s⟩ := built3_shape h0 h1 ht
  have hd := shape_defined s
  have hr : t.isRigid = .ok true := by simp [T3.isRigid, hd, s.2.2.1]
  refine ⟨⟨some (move l v c), some r⟩, some (move l v p), ?_, shape_point s p, ?_, rfl⟩
  · simp [Sphere3.applyTransformation, hd, Sphere3.isDefined, hr, shape_point s, bind, Except.bind, pure, Except.pure]
  · simp only [Sphere3.contains, need, bind, Except.bind, pure, Except.pure, move_sub, M3.mulVec_normSq s.1]

example : ∃ t, T3.Translation (some ⟨1, 2, 3⟩) = .ok t ∧ Built3 1 t := ⟨_, rfl, .translation (some ⟨1, 2, 3⟩) _ rfl⟩

/-- A sphere is not moved by a transformation that is not marked rigid: it throws. -/
theorem C47_sphere_rigid (t : T3) (s : Sphere3) :
    (∀ s', s.applyTransformation t = .ok s' → t.isDefined = true ∧ s.isDefined = true ∧ t.rigid = true) ∧
    (t.isDefined = true → s.isDefined = true → t.rigid = false → s.applyTransformation t = .error .runtimeError) ∧
    (t.isDefined = false ∨ s.isDefined = false → s.applyTransformation t = .error .undefined) := by
  refine ⟨fun s' h => ?_, fun hd hs hr => ?_, fun h => ?_⟩
  · rw [Sphere3.applyTransformation] at h
    by_cases hd : t.isDefined = true
    · by_cases hs : s.isDefined = true
      · refine ⟨hd, hs, ?_⟩
        by_contra hr
        rw [Bool.not_eq_true] at hr
        simp [hd, hs, T3.isRigid, hr, bind, Except.bind] at h
      · simp [hd, hs] at h
    · simp [hd] at h
  · simp [Sphere3.applyTransformation, hd, hs, T3.isRigid, hr, bind, Except.bind]
  · rcases h with h | h
    · simp [Sphere3.applyTransformation, h]
    · simp [Sphere3.applyTransformation, h]

example : T3.Undefined.isDefined = false ∧ (⟨some 0, some 1⟩ : Sphere3).isDefined = true := ⟨rfl, rfl⟩

end Verif.Props
