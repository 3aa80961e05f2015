import Verif.Props.Linear2
import Verif.Lemmas.TransformationShape

/-!
# Moving objects by a rigid transformation (C47)
-/

namespace Verif.Props

open Verif Verif.Spec

set_option linter.flexible false

/-- the motion of a transformation of this shape -/
def move (l : M3) (v p : V3) : V3 := l.mulVec p + v

theorem move_sub (l : M3) (v p q : V3) : move l v p - move l v q = l.mulVec (p - q) := by
  rw [← M3.mulVec_sub]; ext <;> simp [move]

theorem move_eq {l : M3} (h : IsRotation l) (v p q : V3) : P3.eq (some (move l v p)) (some (move l v q)) = P3.eq (some p) (some q) := by
  rw [Bool.eq_iff_iff, P3.eq_iff, P3.eq_iff]
  constructor
  · intro e
    refine M3.mulVec_injective h ?_
    have hx := congrArg V3.x e
    have hy := congrArg V3.y e
    have hz := congrArg V3.z e
    simp [move] at hx hy hz
    ext <;> assumption
  · rintro rfl; rfl

theorem move_injective {l : M3} (h : IsRotation l) {v p q : V3} (e : move l v p = move l v q) : p = q := by
  have := move_eq h v p q
  rw [P3.eq_iff.2 e] at this
  exact P3.eq_iff.1 this.symm

theorem shape_point {t : T3} {l : M3} {v : V3} (h : Shape3 t l v) (p : V3) : P3.applyTransformation t (some p) = .ok (some (move l v p)) := by
  rw [P3.applyTransformation, shape_defined h]
  exact (shape_moves h).1 p

theorem shape_vector {t : T3} {l : M3} {v : V3} (h : Shape3 t l v) (d : V3) : t.applyToVector (some d) = some (l.mulVec d) := (shape_moves h).2 d

/-- Moving a segment, a line, a ray or a plane and a point by the same transformation built from the factories (so rigid: `C38_rigid3_partial`)
changes neither `contains` nor `distanceTo`.
What is missing: transformations made from a rotation matrix that is not a rotation are not rigid (`C38_rigid3_unsound`). -/
theorem C47_linear3_partial (eps : ℝ) (h0 : 0 < eps) (h1 : eps ≤ 1) (t : T3) (ht : Built3 eps t) (a b p : V3) :
    ∃ p' s' l' r' n', P3.applyTransformation t (some p) = .ok p' ∧
      Seg3.applyTransformation t ⟨some a, some b⟩ = .ok s' ∧ s'.contains p' = Seg3.contains ⟨some a, some b⟩ (some p) ∧
        s'.distanceTo p' = Seg3.distanceTo ⟨some a, some b⟩ (some p) ∧ s'.getLength = Seg3.getLength ⟨some a, some b⟩ ∧
      Line3.applyTransformation t ⟨some a, some b⟩ = .ok l' ∧ l'.contains p' = Line3.contains ⟨some a, some b⟩ (some p) ∧
        l'.distanceTo p' = Line3.distanceTo ⟨some a, some b⟩ (some p) ∧
      Ray3.applyTransformation t ⟨some a, some b⟩ = .ok r' ∧ r'.contains p' = Ray3.contains ⟨some a, some b⟩ (some p) ∧
        r'.distanceTo p' = Ray3.distanceTo ⟨some a, some b⟩ (some p) ∧
      Plane3.applyTransformation t ⟨some a, some b⟩ = .ok n' ∧ n'.contains p' = Plane3.contains ⟨some a, some b⟩ (some p) := by
  obtain ⟨l, v, s⟩ := built3_shape h0 h1 ht
  have hd := shape_defined s
  refine ⟨some (move l v p), ⟨some (move l v a), some (move l v b)⟩, ⟨some (move l v a), some (l.mulVec b)⟩,
    ⟨some (move l v a), some (l.mulVec b)⟩, ⟨some (move l v a), some (l.mulVec b)⟩, shape_point s p, ?_, ?_, ?_, ?_, ?_, ?_, ?_, ?_, ?_, ?_, ?_, ?_⟩
  · simp [Seg3.applyTransformation, hd, Seg3.isDefined, shape_point s, bind, Except.bind, pure, Except.pure]
  · simp only [Seg3.contains, need, bind, Except.bind, pure, Except.pure, move_eq s.1, move_sub, M3.mulVec_cross s.1, M3.mulVec_normSq s.1,
      M3.mulVec_dot s.1]
  · have e : ∀ k : ℝ, move l v a + k • l.mulVec (b - a) - move l v p = l.mulVec (a + k • (b - a) - p) := by
      intro k
      rw [← M3.mulVec_smul, ← move_sub l v (a + k • (b - a)) p]
      congr 1
      rw [move, move, ← M3.mulVec_add]; ext <;> simp <;> ring
    simp only [Seg3.distanceTo, need, bind, Except.bind, pure, Except.pure, move_eq s.1, move_sub, M3.mulVec_normSq s.1, M3.mulVec_dot s.1,
      M3.mulVec_norm s.1, e]
  · simp only [Seg3.getLength, need, bind, Except.bind, pure, Except.pure, move_sub, M3.mulVec_norm s.1]
  · simp [Line3.applyTransformation, hd, Line3.isDefined, shape_point s, shape_vector s, bind, Except.bind, pure, Except.pure]
  · simp only [Line3.contains, need, bind, Except.bind, pure, Except.pure, move_sub, M3.mulVec_cross s.1, M3.mulVec_normSq s.1]
  · simp only [Line3.distanceTo, need, bind, Except.bind, pure, Except.pure, P3.sub, move_sub, M3.mulVec_cross s.1, M3.mulVec_norm s.1]
  · simp [Ray3.applyTransformation, hd, Ray3.isDefined, shape_point s, shape_vector s, bind, Except.bind, pure, Except.pure]
  · simp only [Ray3.contains, need, bind, Except.bind, pure, Except.pure, move_sub, M3.mulVec_cross s.1, M3.mulVec_normSq s.1, M3.mulVec_dot s.1]
  · simp only [Ray3.distanceTo, need, bind, Except.bind, pure, Except.pure, move_eq s.1, move_sub, M3.mulVec_cross s.1, M3.mulVec_norm s.1,
      M3.mulVec_dot s.1]
  · simp [Plane3.applyTransformation, hd, Plane3.isDefined, shape_point s, shape_vector s, bind, Except.bind, pure, Except.pure]
  · simp only [Plane3.contains, need, bind, Except.bind, pure, Except.pure, move_sub, M3.mulVec_dot s.1]

example : ∃ t, T3.Translation (some ⟨1, 2, 3⟩) = .ok t ∧ Built3 1 t := ⟨_, rfl, .translation (some ⟨1, 2, 3⟩) _ rfl⟩

/-- Moving a set of points or a line string: the moved points, each once and in the same order in the model; the distance to a moved point is
unchanged, and the closest point of the moved set is the moved closest point. The same restriction. -/
theorem C47_points3_partial (eps : ℝ) (h0 : 0 < eps) (h1 : eps ≤ 1) (t : T3) (ht : Built3 eps t) (ps : List V3) (hp : ps ≠ []) (hn : ps.Nodup)
    (p : V3) :
    ∃ f : V3 → V3, (∀ x, P3.applyTransformation t (some x) = .ok (some (f x))) ∧
      PointSet3.applyTransformation t (ps.map some) = .ok ((ps.map f).map some) ∧
      LineString3.applyTransformation t (ps.map some) = .ok ((ps.map f).map some) ∧
      PointSet3.distanceTo ((ps.map f).map some) (some (f p)) = PointSet3.distanceTo (ps.map some) (some p) ∧
      ∀ c, PointSet3.getPointClosestTo (ps.map some) (some p) = .ok (some c) →
        PointSet3.getPointClosestTo ((ps.map f).map some) (some (f p)) = .ok (some (f c)) := by
  obtain ⟨l, v, s⟩ := built3_shape h0 h1 ht
  have hd := shape_defined s
  have hap : ∀ q, t.applyTo (some q) = .ok (some (move l v q)) := fun q => (shape_moves s).1 q
  have hm : mapRes t.applyTo (ps.map some) = .ok ((ps.map (move l v)).map some) := by
    rw [mapRes_map, List.map_map]; exact mapRes_ok (fun q _ => hap q)
  have hm' : mapRes (P3.applyTransformation t) (ps.map some) = .ok ((ps.map (move l v)).map some) := by
    rw [mapRes_map, List.map_map]; exact mapRes_ok (fun q _ => shape_point s q)
  refine ⟨move l v, shape_point s, ?_, ?_, ?_, ?_⟩
  · have := Points.insertAll_nodup (eq := P3.eq) (fun p q => P3.eq_iff) (ps.map (move l v)) []
      (by simpa using hn.map (fun a b => move_injective s.1))
    simp only [PointSet3.applyTransformation, hd, List.isEmpty_iff, List.map_eq_nil_iff, hp, bind, Except.bind, hm]
    simpa using this
  · simp [LineString3.applyTransformation, hd, hp, hm']
  · have e1 : mapRes (fun q => P3.distanceTo (some (move l v p)) q) ((ps.map (move l v)).map some) = .ok (ps.map fun q => (p - q).norm) := by
      rw [mapRes_map, mapRes_map]
      refine mapRes_ok (fun q _ => ?_)
      show Except.ok (move l v p - move l v q).norm = _
      rw [move_sub, M3.mulVec_norm s.1]
    have e2 : mapRes (fun q => P3.distanceTo (some p) q) (ps.map some) = .ok (ps.map fun q => (p - q).norm) := by
      rw [mapRes_map]; exact mapRes_ok (fun q _ => rfl)
    simp only [PointSet3.distanceTo, need, bind, Except.bind, e1, e2]
    simp
  · intro c hc
    have key : ∀ (qs : List V3) (b : Option V3) (m : ℝ) (b' : Option V3) (m' : ℝ),
        Points.closestLoop (fun q => do return (← P3.sub q (some p)).normSq) (some (b, m)) (qs.map some) = .ok (some (b', m')) →
        Points.closestLoop (fun q => do return (← P3.sub q (some (move l v p))).normSq) (some (b.map (move l v), m)) ((qs.map (move l v)).map some) =
          .ok (some (b'.map (move l v), m')) := by
      intro qs
      induction qs with
      | nil => intro b m b' m' h; simp [Points.closestLoop] at h ⊢; exact ⟨by rw [h.1], h.2⟩
      | cons q qs ih =>
        intro b m b' m' h
        have e : (move l v q - move l v p).normSq = (q - p).normSq := by rw [move_sub, M3.mulVec_normSq s.1]
        simp only [List.map_cons, Points.closestLoop, P3.sub, need, bind, Except.bind, pure, Except.pure, e] at h ⊢
        by_cases hlt : (q - p).normSq < m
        · rw [if_pos hlt] at h ⊢; exact ih (some q) _ _ _ h
        · rw [if_neg hlt] at h ⊢; exact ih _ _ _ _ h
    cases ps with
    | nil => exact absurd rfl hp
    | cons x xs =>
      have e : (move l v x - move l v p).normSq = (x - p).normSq := by rw [move_sub, M3.mulVec_normSq s.1]
      have h2 : Points.closest (fun q => do return (← P3.sub q (some p)).normSq) ((x :: xs).map some) = .ok (some c) := by
        simpa [PointSet3.getPointClosestTo, need, bind, Except.bind] using hc
      have h3 : Points.closest (fun q => do return (← P3.sub q (some (move l v p))).normSq) (((x :: xs).map (move l v)).map some) =
          .ok (some (move l v c)) := by
        simp only [Points.closest, List.map_cons, Points.closestLoop, P3.sub, need, bind, Except.bind, pure, Except.pure, e] at h2 ⊢
        revert h2
        generalize hh : Points.closestLoop _ (some (some x, _)) (xs.map some) = w
        intro h2
        match w, hh, h2 with
        | .ok (some (b', m')), hh, h2 =>
          have := key xs (some x) _ b' m' hh
          simp only [P3.sub, need, bind, Except.bind, pure, Except.pure, Option.map_some] at this
          rw [this]
          simp at h2 ⊢
          exact ⟨c, h2, rfl⟩
        | .ok none, _, h2 => simp at h2
        | .error _, _, h2 => simp at h2
      simpa [PointSet3.getPointClosestTo, need, bind, Except.bind] using h3

example : [(⟨1, 2, 3⟩ : V3), ⟨0, 0, 0⟩] ≠ [] ∧ [(⟨1, 2, 3⟩ : V3), ⟨0, 0, 0⟩].Nodup := by
  constructor
  · simp
  · simp [V3.ext_iff]

/-! ## 2D -/

/-- the motion of a 2D transformation of this shape -/
def move2 (c s : ℝ) (v p : V2) : V2 := T2.turn c s p + v

theorem move2_sub (c s : ℝ) (v p q : V2) : move2 c s v p - move2 c s v q = T2.turn c s (p - q) := by
  rw [← T2.turn_sub]; ext <;> simp [move2]

theorem shape2_point {t : T2} {c s : ℝ} {v : V2} (h : Shape2 t c s v) (p : V2) :
    P2.applyTransformation t (some p) = .ok (some (move2 c s v p)) := by
  rw [P2.applyTransformation, shape2_defined h]
  exact (shape2_moves h).1 p

theorem shape2_vector {t : T2} {c s : ℝ} {v : V2} (h : Shape2 t c s v) (d : V2) : t.applyToVector (some d) = some (T2.turn c s d) :=
  (shape2_moves h).2 d

theorem turn_ne {c s : ℝ} (h : c ^ 2 + s ^ 2 = 1) {d : V2} (hd : d ≠ 0) : T2.turn c s d ≠ 0 := by
  intro e
  apply hd
  rw [← V2.norm_eq_zero, ← T2.turn_norm h, e]
  simp [V2.norm, V2.normSq, V2.dot]

theorem move2_injective {c s : ℝ} (h : c ^ 2 + s ^ 2 = 1) {v p q : V2} (e : move2 c s v p = move2 c s v q) : p = q := by
  by_contra hne
  have hd : p - q ≠ 0 := by
    intro k
    have hx := congrArg V2.x k
    have hy := congrArg V2.y k
    simp at hx hy
    exact hne (by ext <;> linarith)
  apply turn_ne h hd
  rw [← move2_sub c s v, e]
  ext <;> simp

theorem move2_eq {c s : ℝ} (h : c ^ 2 + s ^ 2 = 1) (v p q : V2) :
    P2.eq (some (move2 c s v p)) (some (move2 c s v q)) = P2.eq (some p) (some q) := by
  rw [Bool.eq_iff_iff, P2.eq_iff, P2.eq_iff]
  exact ⟨move2_injective h, fun e => e ▸ rfl⟩

theorem move2_add_smul (c s : ℝ) (v a d : V2) (k : ℝ) : move2 c s v (a + k • d) = move2 c s v a + k • T2.turn c s d := by
  ext <;> simp [move2, T2.turn] <;> ring

/-- Moving a 2D segment or line (of non-zero direction) and a point by the same transformation built from the factories changes neither
`contains` nor `distanceTo`. -/
theorem C47_linear2 (t : T2) (ht : Built2 t) (a b p : V2) :
    ∃ p' s', P2.applyTransformation t (some p) = .ok p' ∧
      Seg2.applyTransformation t ⟨some a, some b⟩ = .ok s' ∧ s'.contains p' = Seg2.contains ⟨some a, some b⟩ (some p) ∧
        s'.distanceTo p' = Seg2.distanceTo ⟨some a, some b⟩ (some p) ∧ s'.getLength = Seg2.getLength ⟨some a, some b⟩ ∧
      (b ≠ 0 → ∃ l', Line2.applyTransformation t ⟨some a, some b⟩ = .ok l' ∧ l'.contains p' = Line2.contains ⟨some a, some b⟩ (some p) ∧
        l'.distanceTo p' = Line2.distanceTo ⟨some a, some b⟩ (some p)) := by
  obtain ⟨c, s, v, sh⟩ := built2_shape ht
  have hc := sh.1
  have hd := shape2_defined sh
  refine ⟨some (move2 c s v p), ⟨some (move2 c s v a), some (move2 c s v b)⟩, shape2_point sh p, ?_, ?_, ?_, ?_, ?_⟩
  · simp [Seg2.applyTransformation, hd, Seg2.isDefined, shape2_point sh, bind, Except.bind, pure, Except.pure]
  · have mem : ∀ x, move2 c s v x ∈ SegSet2 (move2 c s v a) (move2 c s v b) ↔ x ∈ SegSet2 a b := by
      intro x
      constructor
      · rintro ⟨k, k0, k1, e⟩
        rw [move2_sub, ← move2_add_smul] at e
        exact ⟨k, k0, k1, move2_injective hc e⟩
      · rintro ⟨k, k0, k1, rfl⟩
        exact ⟨k, k0, k1, by rw [move2_sub, ← move2_add_smul]⟩
    obtain ⟨r, hr, hr'⟩ := (C42_segment2 a b p).1
    obtain ⟨r2, hr2, hr2'⟩ := (C42_segment2 (move2 c s v a) (move2 c s v b) (move2 c s v p)).1
    rw [hr, hr2, Except.ok.injEq, Bool.eq_iff_iff, hr', hr2', mem]
  · have e : ∀ k : ℝ, move2 c s v a + k • T2.turn c s (b - a) - move2 c s v p = T2.turn c s (a + k • (b - a) - p) := by
      intro k; rw [← move2_add_smul, move2_sub]
    have nsq : ∀ u : V2, (T2.turn c s u).normSq = u.normSq := fun u => T2.turn_dot hc u u
    simp only [Seg2.distanceTo, need, bind, Except.bind, pure, Except.pure, move2_eq hc, move2_sub, nsq, T2.turn_dot hc, T2.turn_norm hc, e]
  · simp only [Seg2.getLength, need, bind, Except.bind, pure, Except.pure, move2_sub, T2.turn_norm hc]
  · intro hb
    refine ⟨⟨some (move2 c s v a), some (T2.turn c s b)⟩, ?_, ?_, ?_⟩
    · simp [Line2.applyTransformation, hd, Line2.isDefined, shape2_point sh, shape2_vector sh, bind, Except.bind, pure, Except.pure]
    · have mem : ∀ x, move2 c s v x ∈ LineSet2 (move2 c s v a) (T2.turn c s b) ↔ x ∈ LineSet2 a b := by
        intro x
        constructor
        · rintro ⟨k, e⟩
          rw [← move2_add_smul] at e
          exact ⟨k, move2_injective hc e⟩
        · rintro ⟨k, rfl⟩
          exact ⟨k, by rw [← move2_add_smul]⟩
      obtain ⟨r, hr, hr'⟩ := line2_contains a b p hb
      obtain ⟨r2, hr2, hr2'⟩ := line2_contains (move2 c s v a) (T2.turn c s b) (move2 c s v p) (turn_ne hc hb)
      rw [hr, hr2, Except.ok.injEq, Bool.eq_iff_iff, hr', hr2', mem]
    · have e : ∀ w : V2, T2.turn c s w - ((T2.turn c s w).dot (T2.turn c s b)) • T2.turn c s b = T2.turn c s (w - (w.dot b) • b) := by
        intro w; rw [T2.turn_dot hc]; ext <;> simp [T2.turn] <;> ring
      simp only [Line2.distanceTo, need, bind, Except.bind, pure, Except.pure, P2.sub, move2_sub, e, T2.turn_norm hc]

example : (∃ t, T2.Translation (some ⟨1, 2⟩) = .ok t ∧ Built2 t) ∧ (⟨1, 0⟩ : V2) ≠ 0 :=
  ⟨⟨_, rfl, .translation (some ⟨1, 2⟩) _ rfl⟩, by simp [V2.ext_iff]⟩

/-- Moving a 2D set of points or a line string gives the moved points; the distance to a moved point is unchanged, and a line string contains the
moved point exactly when it contained the point. -/
theorem C47_points2 (t : T2) (ht : Built2 t) (ps : List V2) (hp : ps ≠ []) (hn : ps.Nodup) (p : V2) :
    ∃ f : V2 → V2, (∀ x, P2.applyTransformation t (some x) = .ok (some (f x))) ∧
      PointSet2.applyTransformation t (ps.map some) = .ok ((ps.map f).map some) ∧
      LineString2.applyTransformation t (ps.map some) = .ok ((ps.map f).map some) ∧
      PointSet2.distanceTo ((ps.map f).map some) (some (f p)) = PointSet2.distanceTo (ps.map some) (some p) ∧
      LineString2.contains ((ps.map f).map some) (some (f p)) = LineString2.contains (ps.map some) (some p) := by
  obtain ⟨c, s, v, sh⟩ := built2_shape ht
  have hc := sh.1
  have hd := shape2_defined sh
  have hap : ∀ q, t.applyTo (some q) = .ok (some (move2 c s v q)) := fun q => (shape2_moves sh).1 q
  have hm : mapRes t.applyTo (ps.map some) = .ok ((ps.map (move2 c s v)).map some) := by
    rw [mapRes_map, List.map_map]; exact mapRes_ok (fun q _ => hap q)
  refine ⟨move2 c s v, shape2_point sh, ?_, ?_, ?_, ?_⟩
  · have := Points.insertAll_nodup (eq := P2.eq) (fun p q => P2.eq_iff) (ps.map (move2 c s v)) []
      (by simpa using hn.map (fun a b => move2_injective hc))
    simp only [PointSet2.applyTransformation, hd, List.isEmpty_iff, List.map_eq_nil_iff, hp, bind, Except.bind, hm]
    simpa using this
  · simp [LineString2.applyTransformation, hd, hp, hm]
  · have e1 : mapRes (fun q => P2.distanceTo (some (move2 c s v p)) q) ((ps.map (move2 c s v)).map some) = .ok (ps.map fun q => (p - q).norm) := by
      rw [mapRes_map, mapRes_map]
      refine mapRes_ok (fun q _ => ?_)
      show Except.ok (move2 c s v p - move2 c s v q).norm = _
      rw [move2_sub, T2.turn_norm hc]
    have e2 : mapRes (fun q => P2.distanceTo (some p) q) (ps.map some) = .ok (ps.map fun q => (p - q).norm) := by
      rw [mapRes_map]; exact mapRes_ok (fun q _ => rfl)
    simp only [PointSet2.distanceTo, need, bind, Except.bind, e1, e2]
    simp
  · have seg : ∀ a b, Seg2.contains ⟨some (move2 c s v a), some (move2 c s v b)⟩ (some (move2 c s v p)) = Seg2.contains ⟨some a, some b⟩ (some p) := by
      intro a b
      obtain ⟨p', s', h1, h2, h3, -⟩ := C47_linear2 t ht a b p
      rw [shape2_point sh] at h1
      cases h1
      have : Seg2.applyTransformation t ⟨some a, some b⟩ = .ok ⟨some (move2 c s v a), some (move2 c s v b)⟩ := by
        simp [Seg2.applyTransformation, hd, Seg2.isDefined, shape2_point sh, bind, Except.bind, pure, Except.pure]
      rw [this] at h2
      cases h2
      exact h3
    have loop : ∀ qs : List V2, LineString2.containsLoop (some (move2 c s v p)) ((qs.map (move2 c s v)).map some) =
        LineString2.containsLoop (some p) (qs.map some) := by
      intro qs
      induction qs with
      | nil => rfl
      | cons a qs ih =>
        cases qs with
        | nil => rfl
        | cons b qs =>
          simp only [List.map_cons, LineString2.containsLoop, seg] at ih ⊢
          rw [ih]
    match ps, hp with
    | [a], _ => simp [LineString2.contains, need, bind, Except.bind, move2_eq hc]
    | a :: b :: qs, _ => exact loop (a :: b :: qs)

example : [(⟨1, 2⟩ : V2), ⟨0, 0⟩] ≠ [] ∧ [(⟨1, 2⟩ : V2), ⟨0, 0⟩].Nodup := by
  constructor
  · simp
  · simp [V2.ext_iff]

/-- An undefined transformation or object throws. -/
theorem C47_undefined :
    (∀ s, Seg3.applyTransformation T3.Undefined s = .error .undefined) ∧ (∀ l, Line3.applyTransformation T3.Undefined l = .error .undefined) ∧
    (∀ r, Ray3.applyTransformation T3.Undefined r = .error .undefined) ∧ (∀ n, Plane3.applyTransformation T3.Undefined n = .error .undefined) ∧
    (∀ ps, PointSet3.applyTransformation T3.Undefined ps = .error .undefined) ∧
    (∀ ps, LineString3.applyTransformation T3.Undefined ps = .error .undefined) ∧
    (∀ s, Seg2.applyTransformation T2.Undefined s = .error .undefined) ∧ (∀ l, Line2.applyTransformation T2.Undefined l = .error .undefined) ∧
    (∀ ps, PointSet2.applyTransformation T2.Undefined ps = .error .undefined) ∧
    (∀ ps, LineString2.applyTransformation T2.Undefined ps = .error .undefined) ∧
    (∀ (t : T3) (s : Seg3), s.isDefined = false → s.applyTransformation t = .error .undefined) ∧
    (∀ (t : T3) (s : Line3), s.isDefined = false → s.applyTransformation t = .error .undefined) ∧
    (∀ (t : T3) (s : Ray3), s.isDefined = false → s.applyTransformation t = .error .undefined) ∧
    (∀ (t : T3) (s : Plane3), s.isDefined = false → s.applyTransformation t = .error .undefined) ∧
    (∀ (t : T2) (s : Seg2), s.isDefined = false → s.applyTransformation t = .error .undefined) ∧
    (∀ (t : T2) (s : Line2), s.isDefined = false → s.applyTransformation t = .error .undefined) := by
  refine ⟨fun _ => rfl, fun _ => rfl, fun _ => rfl, fun _ => rfl, fun _ => rfl, fun _ => rfl, fun _ => rfl, fun _ => rfl, fun _ => rfl,
    fun _ => rfl, ?_, ?_, ?_, ?_, ?_, ?_⟩
  · intro t s h; simp [Seg3.applyTransformation, h]
  · intro t s h; simp [Line3.applyTransformation, h]
  · intro t s h; simp [Ray3.applyTransformation, h]
  · intro t s h; simp [Plane3.applyTransformation, h]
  · intro t s h; simp [Seg2.applyTransformation, h]
  · intro t s h; simp [Line2.applyTransformation, h]

example : (⟨none, some 0⟩ : Seg3).isDefined = false ∧ (⟨some 0, none⟩ : Line2).isDefined = false := ⟨rfl, rfl⟩

end Verif.Props
