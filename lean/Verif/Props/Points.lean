import Verif.Lemmas.Linear2

/-!
# Point sets (C52)
-/

namespace Verif.Props

open Verif Verif.Spec Verif.Points

set_option linter.flexible false

/-- The constructor of a point set keeps every point once and adds none; an undefined point throws. Two sets are equal exactly when they have the
same points, in whatever order. -/
theorem C52_set :
    (∀ ps : List V3, ∃ s : List V3, PointSet3.ofArray (ps.map some) = .ok (s.map some) ∧ s.Nodup ∧ ∀ x, x ∈ s ↔ x ∈ ps) ∧
    (∀ ps : List V2, ∃ s : List V2, PointSet2.ofArray (ps.map some) = .ok (s.map some) ∧ s.Nodup ∧ ∀ x, x ∈ s ↔ x ∈ ps) ∧
    (∀ ps : List (Option V3), none ∈ ps → PointSet3.ofArray ps = .error .undefined) ∧
    (∀ ps : List (Option V2), none ∈ ps → PointSet2.ofArray ps = .error .undefined) ∧
    (∀ s t : List V3, s.Nodup → t.Nodup → (PointSet3.eq (s.map some) (t.map some) = true ↔ ∀ x, x ∈ s ↔ x ∈ t)) ∧
    (∀ s t : List V2, s.Nodup → t.Nodup → (PointSet2.eq (s.map some) (t.map some) = true ↔ ∀ x, x ∈ s ↔ x ∈ t)) := by
  refine ⟨?_, ?_, fun ps h => insertAll_undefined ps h [], fun ps h => insertAll_undefined ps h [],
    fun s t hs ht => sameSet_spec (fun p q => P3.eq_iff) hs ht, fun s t hs ht => sameSet_spec (fun p q => P2.eq_iff) hs ht⟩
  · intro ps
    obtain ⟨r, h1, h2, h3⟩ := insertAll_spec (eq := P3.eq) (fun p q => P3.eq_iff) ps [] List.nodup_nil
    exact ⟨r, h1, h2, fun x => by rw [h3]; simp⟩
  · intro ps
    obtain ⟨r, h1, h2, h3⟩ := insertAll_spec (eq := P2.eq) (fun p q => P2.eq_iff) ps [] List.nodup_nil
    exact ⟨r, h1, h2, fun x => by rw [h3]; simp⟩

example : none ∈ [some (⟨1, 2, 3⟩ : V3), none] ∧ [(⟨1, 2, 3⟩ : V3), ⟨0, 0, 0⟩].Nodup := by
  constructor
  · simp
  · simp [V3.ext_iff]

/-- `getPointClosestTo` returns a point of the set at the least distance, and `distanceTo` is that distance; for line strings too. Whatever the
order of the points. -/
theorem C52_closest :
    (∀ (ps : List V3) (p : V3), ps ≠ [] → ∃ c d, PointSet3.getPointClosestTo (ps.map some) (some p) = .ok (some c) ∧
      LineString3.getPointClosestTo (ps.map some) (some p) = .ok (some c) ∧
      PointSet3.distanceTo (ps.map some) (some p) = .ok d ∧ c ∈ ps ∧ (c - p).norm = d ∧ IsDistance {x | x ∈ ps} p d) ∧
    (∀ (ps : List V2) (p : V2), ps ≠ [] → ∃ c d, PointSet2.getPointClosestTo (ps.map some) (some p) = .ok (some c) ∧
      LineString2.getPointClosestTo (ps.map some) (some p) = .ok (some c) ∧
      PointSet2.distanceTo (ps.map some) (some p) = .ok d ∧ c ∈ ps ∧ (c - p).norm = d ∧ IsDistance2 {x | x ∈ ps} p d) := by
  constructor
  · intro ps p hps
    obtain ⟨c, h1, h2, h3⟩ := closest_spec (dist := fun q => do return (← P3.sub q (some p)).normSq) (g := fun q => (q - p).normSq)
      (fun q => rfl) hps
    have hm : mapRes (fun q => P3.distanceTo (some p) q) (ps.map some) = .ok (ps.map fun q => (p - q).norm) := by
      rw [mapRes_map]; exact mapRes_ok (fun q _ => rfl)
    obtain ⟨m, k1, k2, k3⟩ := minElement_spec (l := ps.map fun q => (p - q).norm) (by simpa using hps)
    have hc : IsDistance {x | x ∈ ps} p (c - p).norm := ⟨⟨c, h2, rfl⟩, fun q hq => V3.norm_le_norm.2 (h3 q hq)⟩
    have hd : IsDistance {x | x ∈ ps} p m := by
      obtain ⟨q, hq, rfl⟩ := List.mem_map.1 k2
      refine ⟨⟨q, hq, V3.norm_sub_comm q p⟩, fun x hx => ?_⟩
      rw [V3.norm_sub_comm x p]
      exact k3 _ (List.mem_map_of_mem hx)
    have e := isDistance_unique hc hd
    refine ⟨c, m, ?_, ?_, ?_, h2, e, hd⟩
    · simpa [PointSet3.getPointClosestTo, need, bind, Except.bind, hps] using h1
    · simpa [LineString3.getPointClosestTo, need, bind, Except.bind, hps] using h1
    · simp [PointSet3.distanceTo, need, bind, Except.bind, hps, hm, k1]
  · intro ps p hps
    obtain ⟨c, h1, h2, h3⟩ := closest_spec (dist := fun q => do return (← P2.sub q (some p)).normSq) (g := fun q => (q - p).normSq)
      (fun q => rfl) hps
    have hm : mapRes (fun q => P2.distanceTo (some p) q) (ps.map some) = .ok (ps.map fun q => (p - q).norm) := by
      rw [mapRes_map]; exact mapRes_ok (fun q _ => rfl)
    obtain ⟨m, k1, k2, k3⟩ := minElement_spec (l := ps.map fun q => (p - q).norm) (by simpa using hps)
    have comm : ∀ u v : V2, (u - v).norm = (v - u).norm := fun u v => by
      rw [← V2.lift_norm, ← V2.lift_norm, V2.lift_sub, V2.lift_sub, V3.norm_sub_comm]
    have hc : IsDistance2 {x | x ∈ ps} p (c - p).norm := ⟨⟨c, h2, rfl⟩, fun q hq => Real.sqrt_le_sqrt (h3 q hq)⟩
    have hd : IsDistance2 {x | x ∈ ps} p m := by
      obtain ⟨q, hq, rfl⟩ := List.mem_map.1 k2
      refine ⟨⟨q, hq, comm q p⟩, fun x hx => ?_⟩
      rw [comm x p]
      exact k3 _ (List.mem_map_of_mem hx)
    have e := isDistance2_unique hc hd
    refine ⟨c, m, ?_, ?_, ?_, h2, e, hd⟩
    · simpa [PointSet2.getPointClosestTo, need, bind, Except.bind, hps] using h1
    · simpa [LineString2.getPointClosestTo, need, bind, Except.bind, hps] using h1
    · simp [PointSet2.distanceTo, need, bind, Except.bind, hps, hm, k1]

example : [(⟨1, 2, 3⟩ : V3), ⟨0, 0, 0⟩] ≠ [] := by simp

/-- An empty set or line string and an undefined point throw, in `distanceTo` and `getPointClosestTo`. -/
theorem C52_undefined :
    (∀ p, PointSet3.distanceTo [] p = .error .undefined ∧ PointSet3.getPointClosestTo [] p = .error .undefined ∧
      LineString3.getPointClosestTo [] p = .error .undefined) ∧
    (∀ p, PointSet2.distanceTo [] p = .error .undefined ∧ PointSet2.getPointClosestTo [] p = .error .undefined ∧
      LineString2.getPointClosestTo [] p = .error .undefined) ∧
    (∀ ps, PointSet3.distanceTo ps none = .error .undefined ∧ PointSet3.getPointClosestTo ps none = .error .undefined ∧
      LineString3.getPointClosestTo ps none = .error .undefined) ∧
    (∀ ps, PointSet2.distanceTo ps none = .error .undefined ∧ PointSet2.getPointClosestTo ps none = .error .undefined ∧
      LineString2.getPointClosestTo ps none = .error .undefined) := by
  refine ⟨?_, ?_, fun _ => ⟨rfl, rfl, rfl⟩, fun _ => ⟨rfl, rfl, rfl⟩⟩
  · intro p; cases p <;> exact ⟨rfl, rfl, rfl⟩
  · intro p; cases p <;> exact ⟨rfl, rfl, rfl⟩


theorem norm_triangle (u v : V3) : (u + v).norm ≤ u.norm + v.norm := by
  have h := V3.abs_dot_le u v
  have h1 := (abs_le.1 h).2
  refine abs_le_of_sq_le_sq' ?_ (add_nonneg u.norm_nonneg v.norm_nonneg) |>.2
  have e : (u + v).normSq = u.normSq + 2 * u.dot v + v.normSq := by
    simp only [V3.normSq, V3.dot, V3.add_x, V3.add_y, V3.add_z]; ring
  rw [V3.norm_sq, e, add_sq, V3.norm_sq, V3.norm_sq]
  linarith

/-- `isNear` of point sets: an answer `true` comes with a one-to-one matching of near points. If the points of the other set are more than twice the
tolerance apart, the answer is `true` exactly when there is such a matching, so does not depend on the order of iteration.
What is missing: without that separation a matching may exist and the answer be `false`, see `C52_order`. -/
theorem C52_isNear3_partial (ps qs : List V3) (tol : ℝ) (hp : ps ≠ []) (hq : qs ≠ []) (hn : qs.Nodup) :
    ∃ r, PointSet3.isNear (ps.map some) (qs.map some) (some tol) = .ok r ∧
      (r = true → Matching (fun p q => (p - q).norm ≤ tol) ps qs) ∧
      ((∀ q ∈ qs, ∀ q' ∈ qs, q ≠ q' → 2 * tol < (q - q').norm) → (r = true ↔ Matching (fun p q => (p - q).norm ≤ tol) ps qs)) := by
  classical
  by_cases hl : ps.length = qs.length
  · obtain ⟨r, h1, h2, h3⟩ := matchNear_spec (near := fun p q => P3.isNear p q (some tol)) (N := fun p q => (p - q).norm ≤ tol)
      (fun p q => by
        obtain ⟨r, hr, hr'⟩ := P3.isNear_ok p q tol
        rw [hr, Except.ok.injEq, Bool.eq_iff_iff, hr', decide_eq_true_eq]) ps qs hl
    refine ⟨r, by simp [PointSet3.isNear, hp, hq, hl, h1], h2, fun hs => ⟨h2, h3 hn ?_⟩⟩
    intro p _ q hq q' hq' n n'
    by_contra hne
    have k := hs q hq q' hq' hne
    have t := norm_triangle (q - p) (p - q')
    rw [show q - p + (p - q') = q - q' by ext <;> simp, V3.norm_sub_comm q p] at t
    linarith
  · refine ⟨false, by simp [PointSet3.isNear, hp, hq, hl], by simp, fun _ => ?_⟩
    constructor
    · intro h; cases h
    · rintro ⟨qs', h1, h2⟩
      exact absurd (h2.length_eq.trans h1.length_eq) hl

example : [(⟨0, 0, 0⟩ : V3)] ≠ [] ∧ [(⟨0, 0, 0⟩ : V3), ⟨9, 0, 0⟩].Nodup := by
  constructor
  · simp
  · simp [V3.ext_iff]

/-- The same in 2D. -/
theorem C52_isNear2_partial (ps qs : List V2) (tol : ℝ) (hp : ps ≠ []) (hq : qs ≠ []) (hn : qs.Nodup) :
    ∃ r, PointSet2.isNear (ps.map some) (qs.map some) (some tol) = .ok r ∧
      (r = true → Matching (fun p q => (p - q).norm ≤ tol) ps qs) ∧
      ((∀ q ∈ qs, ∀ q' ∈ qs, q ≠ q' → 2 * tol < (q - q').norm) → (r = true ↔ Matching (fun p q => (p - q).norm ≤ tol) ps qs)) := by
  classical
  by_cases hl : ps.length = qs.length
  · obtain ⟨r, h1, h2, h3⟩ := matchNear_spec (near := fun p q => P2.isNear p q (some tol)) (N := fun p q => (p - q).norm ≤ tol)
      (fun p q => by
        obtain ⟨r, hr, hr'⟩ := P2.isNear_ok p q tol
        rw [hr, Except.ok.injEq, Bool.eq_iff_iff, hr', decide_eq_true_eq]) ps qs hl
    refine ⟨r, by simp [PointSet2.isNear, hp, hq, hl, h1], h2, fun hs => ⟨h2, h3 hn ?_⟩⟩
    intro p _ q hq q' hq' n n'
    by_contra hne
    have k := hs q hq q' hq' hne
    have t := norm_triangle (q.lift - p.lift) (p.lift - q'.lift)
    rw [show q.lift - p.lift + (p.lift - q'.lift) = q.lift - q'.lift by ext <;> simp, V3.norm_sub_comm q.lift p.lift, ← V2.lift_sub,
      ← V2.lift_sub, ← V2.lift_sub, V2.lift_norm, V2.lift_norm, V2.lift_norm] at t
    linarith
  · refine ⟨false, by simp [PointSet2.isNear, hp, hq, hl], by simp, fun _ => ?_⟩
    constructor
    · intro h; cases h
    · rintro ⟨qs', h1, h2⟩
      exact absurd (h2.length_eq.trans h1.length_eq) hl

example : [(⟨0, 0⟩ : V2)] ≠ [] ∧ [(⟨0, 0⟩ : V2), ⟨9, 0⟩].Nodup := by
  constructor
  · simp
  · simp [V2.ext_iff]

theorem norm_x (x : ℝ) : (⟨x, 0, 0⟩ : V3).norm = |x| := by
  rw [V3.norm, show (⟨x, 0, 0⟩ : V3).normSq = x ^ 2 by simp [V3.normSq, V3.dot]; ring, Real.sqrt_sq_eq_abs]

theorem near_x (x y tol : ℝ) : P3.isNear (some ⟨x, 0, 0⟩) (some ⟨y, 0, 0⟩) (some tol) = .ok (decide (|x - y| ≤ tol)) := by
  obtain ⟨r, hr, hr'⟩ := P3.isNear_ok ⟨x, 0, 0⟩ ⟨y, 0, 0⟩ tol
  rw [hr, Except.ok.injEq, Bool.eq_iff_iff, hr', decide_eq_true_eq,
    show (⟨x, 0, 0⟩ : V3) - ⟨y, 0, 0⟩ = ⟨x - y, 0, 0⟩ by ext <;> simp, norm_x]

/-- The code disagrees with C52: the answer depends on the order of iteration, and is `false` though there is a matching. For the sets `{0, 3/2}` and
`{1, -1}` on the x axis and tolerance 1. -/
theorem C52_order :
    PointSet3.isNear [some ⟨0, 0, 0⟩, some ⟨3 / 2, 0, 0⟩] [some ⟨1, 0, 0⟩, some ⟨-1, 0, 0⟩] (some 1) = .ok false ∧
    PointSet3.isNear [some ⟨0, 0, 0⟩, some ⟨3 / 2, 0, 0⟩] [some ⟨-1, 0, 0⟩, some ⟨1, 0, 0⟩] (some 1) = .ok true ∧
    Matching (fun p q : V3 => (p - q).norm ≤ 1) [⟨0, 0, 0⟩, ⟨3 / 2, 0, 0⟩] [⟨1, 0, 0⟩, ⟨-1, 0, 0⟩] := by
  have n1 : (|(0 : ℝ) - 1| ≤ 1) := by norm_num
  have n2 : (|(0 : ℝ) - -1| ≤ 1) := by norm_num
  have n3 : ¬ (|(3 / 2 : ℝ) - -1| ≤ 1) := by norm_num
  have n4 : (|(3 / 2 : ℝ) - 1| ≤ 1) := by norm_num [abs_le]
  refine ⟨?_, ?_, [⟨-1, 0, 0⟩, ⟨1, 0, 0⟩], List.Perm.swap _ _ _, .cons ?_ (.cons ?_ .nil)⟩
  · simp only [PointSet3.isNear, matchNear, takeNear, near_x, n1, n3, decide_true, decide_false]
    simp
  · simp only [PointSet3.isNear, matchNear, takeNear, near_x, n2, n4, decide_true, decide_false]
    simp
  · rw [show (⟨0, 0, 0⟩ : V3) - ⟨-1, 0, 0⟩ = ⟨0 - -1, 0, 0⟩ by ext <;> simp, norm_x]; exact n2
  · rw [show (⟨3 / 2, 0, 0⟩ : V3) - ⟨1, 0, 0⟩ = ⟨3 / 2 - 1, 0, 0⟩ by ext <;> simp, norm_x]; exact n4

/-- `isNear` is `false` for empty sets, even for two of them, and throws for an undefined tolerance. -/
theorem C52_isNear_empty :
    (∀ ps tol, PointSet3.isNear [] ps tol = .ok false ∧ PointSet3.isNear ps [] tol = .ok false) ∧
    (∀ ps tol, PointSet2.isNear [] ps tol = .ok false ∧ PointSet2.isNear ps [] tol = .ok false) ∧
    (∀ (p q : V3) (ps qs : List (Option V3)), ps.length = qs.length → PointSet3.isNear (some p :: ps) (some q :: qs) none = .error .undefined) ∧
    (∀ (p q : V2) (ps qs : List (Option V2)), ps.length = qs.length → PointSet2.isNear (some p :: ps) (some q :: qs) none = .error .undefined) := by
  refine ⟨?_, ?_, ?_, ?_⟩
  · intro ps tol; simp [PointSet3.isNear]
  · intro ps tol; simp [PointSet2.isNear]
  · intro p q ps qs h; simp [PointSet3.isNear, matchNear, takeNear, h, P3.isNear, need, bind, Except.bind]
  · intro p q ps qs h; simp [PointSet2.isNear, matchNear, takeNear, h, P2.isNear, need, bind, Except.bind]

example : [some (⟨1, 2, 3⟩ : V3)].length = [some (⟨1, 2, 4⟩ : V3)].length := rfl

end Verif.Props
