import Verif.Model.DoubleFlat
import Verif.Props.DoublePlane
import Verif.Props.Linear3

/-!
# Equality of lines and planes, and what a plane contains, in double precision

Property C142. Code: `Plane.cpp` and `Line.cpp` of `src/OpenSpaceToolkit/Mathematics/Geometry/3D/Object`.
-/

namespace Verif.Props

open Verif Verif.Spec Verif.Double

theorem neg_eq_doubles {a b : V3} : (doubles a).eq (doubles b).neg = true ↔ a = -b := by
  simp [DVec.eq, DVec.neg, doubles, F64.eq, F64.neg, V3.ext_iff, and_assoc]

theorem diff3_swap (a b : V3) : diff3 a b = -diff3 b a := by
  ext <;> simp only [diff3, V3.neg_x, V3.neg_y, V3.neg_z] <;> rw [← rnd_neg, neg_sub]

theorem dotR_neg (o : Bool) (v w : V3) : dotR o (-v) w = -dotR o v w ∧ dotR o v (-w) = -dotR o v w := by
  constructor <;> cases o <;> simp only [dotR, DVec.dot3, DVec.sum3, V3.neg_x, V3.neg_y, V3.neg_z, neg_mul, mul_neg, rnd_neg, if_true, Bool.false_eq_true, if_false] <;>
    simp only [← neg_add, rnd_neg]

theorem dotR_comm (o : Bool) (v w : V3) : dotR o v w = dotR o w v := by
  simp only [dotR, DVec.dot3, mul_comm]

theorem cross3_neg (v w : V3) : cross3 (-v) w = -cross3 v w ∧ cross3 v (-w) = -cross3 v w := by
  have e : ∀ x y : ℝ, rnd (-x - -y) = -rnd (x - y) := fun x y => by rw [← rnd_neg]; congr 1; ring
  constructor <;> ext <;> simp only [cross3, V3.neg_x, V3.neg_y, V3.neg_z, neg_mul, mul_neg, rnd_neg, e]

/-- the equality of planes with finite doubles -/
theorem plane_eq (o : Bool) {a b n m : V3} (ha : Small a) (hb : Small b) (hn : n.norm ≤ 2) :
    DPlane.eq o (doubles a) (doubles n) (doubles b) (doubles m) = true ↔ (n = m ∨ n = -m) ∧ (a = b ∨ dotR o (diff3 b a) n = 0) := by
  rw [DPlane.eq, (contains_line o ha hn hb).2.2]
  simp only [DPlane.isDefined, doubles_defined, Bool.and_self, Bool.not_true, Bool.or_self, Bool.false_eq_true, if_false]
  by_cases h : n = m ∨ n = -m
  · rw [if_pos (by simpa [sub_point_eq, neg_eq_doubles] using h)]
    simp [sub_point_eq, h]
  · rw [if_neg (by simpa [sub_point_eq, neg_eq_doubles] using h)]
    simp [h]

/-- the equality of lines with finite doubles -/
theorem line_eq (o : Bool) {a b d e : V3} (ha : Small a) (hb : Small b) (hd : d.norm ≤ 2) :
    DLine.eq o (doubles a) (doubles d) (doubles b) (doubles e) = true ↔ (d = e ∨ d = -e) ∧ dotR o (cross3 d (diff3 b a)) (cross3 d (diff3 b a)) = 0 := by
  rw [DLine.eq, (contains_line o ha hd hb).1]
  simp only [doubles_defined, Bool.and_self, Bool.not_true, Bool.or_self, Bool.false_eq_true, if_false]
  by_cases h : d = e ∨ d = -e
  · rw [if_pos (by simpa [sub_point_eq, neg_eq_doubles] using h)]
    simp [h]
  · rw [if_neg (by simpa [sub_point_eq, neg_eq_doubles] using h)]
    simp [h]

/-- **C142.** Equality of planes in double precision: a plane is equal to itself, equality is symmetric, and equal planes have the same normal up to sign and the point of one is within a few units of
rounding of the other. -/
theorem C142_plane (o : Bool) {a b n m : V3} (ha : Small a) (hb : Small b) (hn : n.norm ≤ 2) (hm : m.norm ≤ 2) :
    DPlane.eq o (doubles a) (doubles n) (doubles a) (doubles n) = true ∧
      DPlane.eq o (doubles a) (doubles n) (doubles b) (doubles m) = DPlane.eq o (doubles b) (doubles m) (doubles a) (doubles n) ∧
      (DPlane.eq o (doubles a) (doubles n) (doubles b) (doubles m) = true →
        (n = m ∨ n = -m) ∧ |n.dot (b - a)| ≤ 5 / 2 ^ 53 * ((b - a).norm * n.norm) + 2 ^ (-1073 : ℤ)) := by
  refine ⟨(plane_eq o ha ha hn).2 ⟨.inl rfl, .inl rfl⟩, ?_, fun h => ?_⟩
  · rw [Bool.eq_iff_iff, plane_eq o ha hb hn, plane_eq o hb ha hm, diff3_swap a b]
    have k : ∀ {n m : V3}, n = -m → m = -n := fun {n m} h => by rw [h]; ext <;> simp
    constructor
    · rintro ⟨h | h, h'⟩
      · subst h; exact ⟨.inl rfl, h'.imp Eq.symm fun e => by rw [(dotR_neg o _ _).1, e, neg_zero]⟩
      · refine ⟨.inr (k h), h'.imp Eq.symm fun e => ?_⟩
        rw [k h, (dotR_neg o _ _).1, (dotR_neg o _ _).2, e, neg_zero, neg_zero]
    · rintro ⟨h | h, h'⟩
      · subst h; exact ⟨.inl rfl, h'.imp Eq.symm fun e => by rwa [(dotR_neg o _ _).1, neg_eq_zero] at e⟩
      · refine ⟨.inr (k h), h'.imp Eq.symm fun e => ?_⟩
        rwa [h, (dotR_neg o _ _).1, (dotR_neg o _ _).2, neg_eq_zero, neg_eq_zero] at e
  · obtain ⟨h1, h2⟩ := (plane_eq o ha hb hn).1 h
    refine ⟨h1, ?_⟩
    refine (C117_plane o ha hn hb).2 ?_
    rw [(contains_line o ha hn hb).2.2, Except.ok.injEq, decide_eq_true_eq]
    rcases h2 with rfl | h2
    · rw [diff3_self, dotR_comm, dotR_zero]
    · exact h2

/-- **C142.** Equality of lines in double precision: a line is equal to itself, equality is symmetric, and equal lines have the same direction up to sign and the origin of one is within a few units of
rounding of the other. -/
theorem C142_line (o : Bool) {a b d e : V3} (ha : Small a) (hb : Small b) (hd1 : 1 / 2 ≤ d.norm) (hd : d.norm ≤ 2) (he : e.norm ≤ 2) :
    DLine.eq o (doubles a) (doubles d) (doubles a) (doubles d) = true ∧
      DLine.eq o (doubles a) (doubles d) (doubles b) (doubles e) = DLine.eq o (doubles b) (doubles e) (doubles a) (doubles d) ∧
      (DLine.eq o (doubles a) (doubles d) (doubles b) (doubles e) = true →
        (d = e ∨ d = -e) ∧ ∃ q ∈ LineSet a d, (b - q).norm ≤ 6 / 2 ^ 53 * (b - a).norm + 2 ^ (-533 : ℤ)) := by
  refine ⟨(line_eq o ha ha hd).2 ⟨.inl rfl, by rw [diff3_self, cross3_zero, dotR_zero]⟩, ?_, fun h => ?_⟩
  · rw [Bool.eq_iff_iff, line_eq o ha hb hd, line_eq o hb ha he, diff3_swap a b, (cross3_neg _ _).2, (dotR_neg o _ _).1, (dotR_neg o _ _).2, neg_neg]
    have k : ∀ {n m : V3}, n = -m → m = -n := fun {n m} h => by rw [h]; ext <;> simp
    constructor
    · rintro ⟨h | h, h'⟩
      · subst h; exact ⟨.inl rfl, h'⟩
      · rw [h, (cross3_neg _ _).1, (dotR_neg o _ _).1, (dotR_neg o _ _).2, neg_neg] at h'
        exact ⟨.inr (k h), h'⟩
    · rintro ⟨h | h, h'⟩
      · subst h; exact ⟨.inl rfl, h'⟩
      · rw [h, (cross3_neg _ _).1, (dotR_neg o _ _).1, (dotR_neg o _ _).2, neg_neg] at h'
        exact ⟨.inr (k h), h'⟩
  · obtain ⟨h1, h2⟩ := (line_eq o ha hb hd).1 h
    exact ⟨h1, (C117_line o ha hd1 hd hb).2 (by rw [(contains_line o ha hd hb).1, h2]; simp)⟩

/-- the six directions of the axes -/
def AlongAxis (n : V3) : Prop := n = V3.X ∨ n = V3.Y ∨ n = V3.Z ∨ n = -V3.X ∨ n = -V3.Y ∨ n = -V3.Z

theorem AlongAxis.norm {n : V3} (h : AlongAxis n) : n.norm ≤ 2 := by
  have : n.norm = 1 := by
    rcases h with rfl | rfl | rfl | rfl | rfl | rfl <;> simp [V3.norm, V3.normSq, V3.dot, V3.X, V3.Y, V3.Z]
  rw [this]; norm_num

/-- a difference of two doubles is rounded to zero only if it is zero -/
theorem rnd_sub_zero {x y : ℝ} (hx : Representable x) (hy : Representable y) : rnd (x - y) = 0 ↔ x - y = 0 := by
  refine ⟨fun h => ?_, fun h => by rw [h, rnd_zero]⟩
  obtain ⟨d, kd, e⟩ := DLinear.rnd_sum hx (representable_neg hy)
  have kd' : |d| ≤ DQuat.u := kd
  have us := DQuat.u_small
  rw [← sub_eq_add_neg, h] at e
  have d1 : 1 + d ≠ 0 := by
    have := neg_abs_le d
    have : (1 : ℝ) / 10 ^ 15 < 1 / 2 := by norm_num
    linarith
  exact (mul_eq_zero.1 e.symm).resolve_right d1

theorem axis_exact (o : Bool) {a p n : V3} (ha : Small a) (hp : Small p) (hn : AlongAxis n) : dotR o (diff3 p a) n = 0 ↔ n.dot (p - a) = 0 := by
  have rx := rnd_sub_zero hp.x.1 ha.x.1
  have ry := rnd_sub_zero hp.y.1 ha.y.1
  have rz := rnd_sub_zero hp.z.1 ha.z.1
  have e : ∀ x y : ℝ, (x - y = 0 ↔ y - x = 0) := fun x y => ⟨fun h => by linarith, fun h => by linarith⟩
  rcases hn with rfl | rfl | rfl | rfl | rfl | rfl <;> cases o <;>
    simp [dotR, DVec.dot3, DVec.sum3, V3.X, V3.Y, V3.Z, rnd_zero, diff3, rnd_neg, rnd_rnd, rx, ry, rz, V3.dot] <;> exact e _ _

/-- planes at right angles to an axis are the same only if the normals are the same up to sign -/
theorem axis_normal {a b n m : V3} (hn : AlongAxis n) (hm : AlongAxis m) (h : PlaneSet a n = PlaneSet b m) : n = m ∨ n = -m := by
  have key : ∀ v : V3, n.dot v = 0 → m.dot v = 0 := by
    intro v hv
    have h1 : a ∈ PlaneSet b m := by rw [← h]; simp [PlaneSet, V3.dot]
    have h2 : a + v ∈ PlaneSet b m := by
      rw [← h, PlaneSet, Set.mem_ofPred_eq, show a + v - a = v by ext <;> simp]; exact hv
    simp only [PlaneSet, Set.mem_ofPred_eq] at h1 h2
    have : m.dot (a + v - b) = m.dot (a - b) + m.dot v := by simp [V3.dot]; ring
    linarith
  have k1 := key V3.X
  have k2 := key V3.Y
  have k3 := key V3.Z
  rcases hn with rfl | rfl | rfl | rfl | rfl | rfl <;> rcases hm with rfl | rfl | rfl | rfl | rfl | rfl <;>
    simp [V3.dot, V3.X, V3.Y, V3.Z, V3.ext_iff] at k1 k2 k3 ⊢

/-- **C142.** For planes at right angles to an axis the answers are exact: a point is contained exactly if it is a point of the plane, and two such planes are equal exactly if they are the same set of
points. -/
theorem C142_axis (o : Bool) {a b p n m : V3} (ha : Small a) (hb : Small b) (hp : Small p) (hn : AlongAxis n) (hm : AlongAxis m) :
    (DPlane.contains o (doubles a) (doubles n) (doubles p) = .ok true ↔ p ∈ PlaneSet a n) ∧
      (DPlane.eq o (doubles a) (doubles n) (doubles b) (doubles m) = true ↔ PlaneSet a n = PlaneSet b m) := by
  refine ⟨?_, ?_⟩
  · rw [(contains_line o ha hn.norm hp).2.2, Except.ok.injEq, decide_eq_true_eq, axis_exact o ha hp hn]; rfl
  · rw [plane_eq o ha hb hn.norm, axis_exact o ha hb hn]
    constructor
    · rintro ⟨h, h'⟩
      have h0 : n.dot (b - a) = 0 := by
        rcases h' with rfl | h'
        · simp [V3.dot]
        · exact h'
      ext q
      simp only [PlaneSet, Set.mem_ofPred_eq]
      have e : n.dot (q - a) = n.dot (q - b) + n.dot (b - a) := by simp [V3.dot]; ring
      rw [e, h0, add_zero]
      rcases h with rfl | rfl
      · exact Iff.rfl
      · rw [show (-m).dot (q - b) = -(m.dot (q - b)) by simp [V3.dot]; ring, neg_eq_zero]
    · intro h
      refine ⟨axis_normal hn hm h, .inr ?_⟩
      have h1 : b ∈ PlaneSet a n := by rw [h]; simp [PlaneSet, V3.dot]
      exact h1

/-- **C142.** If a plane contains a line or a ray in double precision, the point at the parameter `s` is within a few units of rounding of the plane, in proportion to its distance. -/
theorem C142_contains_line (o : Bool) {a n q d : V3} (ha : Small a) (hq : Small q) (hn : n.norm ≤ 2) (hd : d.norm ≤ 2)
    (h : DPlane.containsLine o (doubles a) (doubles n) (doubles q) (doubles d) = .ok true) (s : ℝ) :
    |n.dot (q + s • d - a)| ≤ 5 / 2 ^ 53 * (((q - a).norm + |s| * d.norm) * n.norm) + (1 + |s|) * 2 ^ (-1073 : ℤ) := by
  have h1 : DPlane.contains o (doubles a) (doubles n) (doubles q) = .ok true ∧ dotR o n d = 0 := by
    simp only [DPlane.containsLine, DPlane.isDefined, doubles_defined, (contains_line o ha hn hq).2.2, dot_of_direction o hn hd, eq_zero, bind, Except.bind, Pure.pure, Except.pure, Bool.and_self, Bool.not_true,
      Bool.false_eq_true, if_false, Except.ok.injEq, Bool.and_eq_true, decide_eq_true_eq] at h ⊢
    exact h
  have k1 := (C117_plane o ha hn hq).2 h1.1
  have k2 := dotR_near o n d
  rw [h1.2, zero_sub, abs_neg] at k2
  have e : n.dot (q + s • d - a) = n.dot (q - a) + s * n.dot d := by simp [V3.dot]; ring
  have u0 := DQuat.u_pos
  have t0 := DQuat.t_pos
  have s0 := abs_nonneg s
  have p0 : 0 ≤ DQuat.u * (n.norm * d.norm) := mul_nonneg u0.le (mul_nonneg (V3.norm_nonneg _) (V3.norm_nonneg _))
  have k3 : |n.dot d| ≤ 5 * (DQuat.u * (n.norm * d.norm)) + 4 * DQuat.t := by linarith
  have k4 := mul_le_mul_of_nonneg_left k3 s0
  rw [e, t_4, show (5 : ℝ) / 2 ^ 53 = 5 * DQuat.u by rw [DQuat.u]; ring]
  rw [t_4, show (5 : ℝ) / 2 ^ 53 = 5 * DQuat.u by rw [DQuat.u]; ring] at k1
  have := abs_add_le (n.dot (q - a)) (s * n.dot d)
  rw [abs_mul] at this
  linarith

/-- **C142.** If a plane contains a segment in double precision, each point of the segment is within a few units of rounding of the plane. A segment with an end farther from the plane than that is not
contained. -/
theorem C142_contains_segment (o : Bool) {a n p q : V3} (ha : Small a) (hp : Small p) (hq : Small q) (hn : n.norm ≤ 2) :
    (DPlane.containsSegment o (doubles a) (doubles n) (doubles p) (doubles q) = .ok true ↔
        DPlane.contains o (doubles a) (doubles n) (doubles p) = .ok true ∧ DPlane.contains o (doubles a) (doubles n) (doubles q) = .ok true) ∧
      (DPlane.containsSegment o (doubles a) (doubles n) (doubles p) (doubles q) = .ok true → ∀ r ∈ SegSet p q,
        |n.dot (r - a)| ≤ 5 / 2 ^ 53 * (((p - a).norm + (q - a).norm) * n.norm) + 2 ^ (-1073 : ℤ)) := by
  have key : DPlane.containsSegment o (doubles a) (doubles n) (doubles p) (doubles q) = .ok true ↔
      DPlane.contains o (doubles a) (doubles n) (doubles p) = .ok true ∧ DPlane.contains o (doubles a) (doubles n) (doubles q) = .ok true := by
    simp only [DPlane.containsSegment, DPlane.isDefined, doubles_defined, (contains_line o ha hn hp).2.2, (contains_line o ha hn hq).2.2, bind, Except.bind, Pure.pure, Except.pure, Bool.and_self, Bool.not_true,
      Bool.false_eq_true, if_false, decide_eq_true_eq]
    by_cases h : dotR o (diff3 p a) n = 0 <;> simp [h]
  refine ⟨key, fun h => ?_⟩
  rintro r ⟨s, h0, h1, rfl⟩
  obtain ⟨g1, g2⟩ := key.1 h
  have k1 := (C117_plane o ha hn hp).2 g1
  have k2 := (C117_plane o ha hn hq).2 g2
  have u0 := DQuat.u_pos
  rw [show (5 : ℝ) / 2 ^ 53 = 5 * DQuat.u by rw [DQuat.u]; ring] at k1 k2 ⊢
  generalize (2 : ℝ) ^ (-1073 : ℤ) = T at *
  have e : n.dot (p + s • (q - p) - a) = (1 - s) * n.dot (p - a) + s * n.dot (q - a) := by simp [V3.dot]; ring
  have p1 : 0 ≤ DQuat.u * ((p - a).norm * n.norm) := mul_nonneg u0.le (mul_nonneg (V3.norm_nonneg _) (V3.norm_nonneg _))
  have p2 : 0 ≤ DQuat.u * ((q - a).norm * n.norm) := mul_nonneg u0.le (mul_nonneg (V3.norm_nonneg _) (V3.norm_nonneg _))
  have b1 : |n.dot (p - a)| ≤ 5 * (DQuat.u * ((p - a).norm * n.norm)) + 5 * (DQuat.u * ((q - a).norm * n.norm)) + T := by linarith
  have b2 : |n.dot (q - a)| ≤ 5 * (DQuat.u * ((p - a).norm * n.norm)) + 5 * (DQuat.u * ((q - a).norm * n.norm)) + T := by linarith
  have c1 := mul_le_mul_of_nonneg_left b1 (sub_nonneg.2 h1)
  have c2 := mul_le_mul_of_nonneg_left b2 h0
  have := abs_add_le ((1 - s) * n.dot (p - a)) (s * n.dot (q - a))
  rw [abs_mul, abs_mul, abs_of_nonneg h0, abs_of_nonneg (sub_nonneg.2 h1)] at this
  rw [e]
  linarith

/-- **C142.** Point sets in double precision: a plane contains a set if it contains each of its points, intersects it if it contains one of them, and the intersection is the points that it contains, in
their order. -/
theorem C142_sets (o : Bool) {a n : V3} (ha : Small a) (hn : n.norm ≤ 2) {ps : List V3} (hps : ∀ p ∈ ps, Small p) (h0 : ps ≠ []) :
    (∃ r, DPlane.containsSet o (doubles a) (doubles n) (ps.map doubles) = .ok r ∧ (r = true ↔ ∀ p ∈ ps, DPlane.contains o (doubles a) (doubles n) (doubles p) = .ok true)) ∧
      (∃ r, DPlane.intersectsSet o (doubles a) (doubles n) (ps.map doubles) = .ok r ∧ (r = true ↔ ∃ p ∈ ps, DPlane.contains o (doubles a) (doubles n) (doubles p) = .ok true)) ∧
      ∃ rs : List V3, DPlane.intersectionWithSet o (doubles a) (doubles n) (ps.map doubles) = .ok (rs.map doubles) ∧ rs.Sublist ps ∧
        ∀ p, p ∈ rs ↔ p ∈ ps ∧ DPlane.contains o (doubles a) (doubles n) (doubles p) = .ok true := by
  have ne : (ps.map doubles).isEmpty = false := by cases ps <;> simp at h0 ⊢
  have each : ∀ v ∈ ps.map doubles, ∃ r, DPlane.contains o (doubles a) (doubles n) v = .ok r ∧ (r = true ↔ DPlane.contains o (doubles a) (doubles n) v = .ok true) := by
    intro v hv
    obtain ⟨p, hp, rfl⟩ := List.mem_map.1 hv
    exact ⟨_, (contains_line o ha hn (hps p hp)).2.2, by rw [(contains_line o ha hn (hps p hp)).2.2]; simp⟩
  refine ⟨?_, ?_, ?_⟩
  · obtain ⟨r, e, hr⟩ := allOf_true each
    refine ⟨r, ?_, by rw [hr]; simp⟩
    rw [DPlane.containsSet, ne, DPlane.isDefined, doubles_defined, doubles_defined]; exact e
  · obtain ⟨r, e, hr⟩ := anyOf_true each
    refine ⟨r, ?_, by rw [hr]; simp⟩
    rw [DPlane.intersectsSet, ne, DPlane.isDefined, doubles_defined, doubles_defined]; exact e
  · have key : ∀ l : List V3, (∀ p ∈ l, Small p) → DPlane.keepContained o (doubles a) (doubles n) (l.map doubles) =
        .ok ((l.filter fun p => open Classical in decide (dotR o (diff3 p a) n = 0)).map doubles) := by
      intro l
      induction l with
      | nil => intro _; rfl
      | cons p l ih =>
        intro hl
        simp only [List.map_cons, DPlane.keepContained, (contains_line o ha hn (hl p (by simp))).2.2, ih fun q hq => hl q (by simp [hq]), bind, Except.bind, Pure.pure, Except.pure]
        by_cases h : dotR o (diff3 p a) n = 0 <;> simp [h]
    refine ⟨ps.filter fun p => open Classical in decide (dotR o (diff3 p a) n = 0), ?_, List.filter_sublist, ?_⟩
    · rw [DPlane.intersectionWithSet, DPlane.isDefined, doubles_defined, doubles_defined]; exact key ps hps
    · intro p
      rw [List.mem_filter]
      refine and_congr_right fun hp => ?_
      rw [(contains_line o ha hn (hps p hp)).2.2]; simp

/-- `(4, -3, 0)` made a unit vector -/
theorem normalized_43 (o : Bool) : (doubles ⟨4, -3, 0⟩).normalized o = doubles ⟨fourFifths, -threeFifths, 0⟩ ∧ (doubles ⟨4, -3, 0⟩).squaredNorm o = .fin 25 := by
  have i0 := ofExact_int 0 (by norm_num)
  have i9 := ofExact_int 9 (by norm_num)
  have i16 := ofExact_int 16 (by norm_num)
  have i25 := ofExact_int 25 (by norm_num)
  norm_num at i0 i9 i16 i25
  have r5 : Representable (5 : ℝ) := by simpa using representable_int (α := ℝ) (m := 5) (by norm_num)
  have es : (F64.fin (25 : ℝ)).sqrt = .fin 5 := by
    have : √(25 : ℝ) = 5 := by rw [show (25 : ℝ) = 5 ^ 2 by norm_num]; exact Real.sqrt_sq (by norm_num)
    simp only [F64.sqrt, this, rnd_exact r5]
    rw [if_neg (by norm_num)]
  have q : (doubles ⟨4, -3, 0⟩).squaredNorm o = .fin 25 := by
    simp only [DVec.squaredNorm, DVec.dot, doubles, F64.mul]
    cases o <;> norm_num [i9, i16, F64.add, i25, DVec.sum, i0]
  refine ⟨?_, q⟩
  have q' := q
  rw [doubles] at q'
  have e3 : F64.ofExact (-3 / 5 : ℝ) = .fin (-threeFifths) := by
    rw [neg_div, F64.ofExact_neg, fifths.1]; rfl
  simp only [DVec.normalized, DVec.div, q', es, F64.lt, doubles, F64.div, fifths.2, e3]
  norm_num [i0]

theorem fifths_norms : V3.norm ⟨threeFifths, fourFifths, 0⟩ ≤ 2 ∧ V3.norm ⟨fourFifths, -threeFifths, 0⟩ ≤ 2 := by
  constructor <;> refine Real.sqrt_le_iff.2 ⟨by norm_num, ?_⟩ <;> rw [threeFifths, fourFifths] <;> norm_num [V3.normSq, V3.dot]

/-- `(1, 1, 0)` made a unit vector -/
theorem normalized_diagonal (o : Bool) : ∃ s : ℝ, 1 / 2 ≤ s ∧ s ≤ 1 ∧ (doubles ⟨1, 1, 0⟩).normalized o = doubles ⟨s, s, 0⟩ := by
  have i0 := ofExact_int 0 (by norm_num)
  have i1 := ofExact_int 1 (by norm_num)
  have i2 := ofExact_int 2 (by norm_num)
  norm_num at i0 i1 i2
  have q : (doubles ⟨1, 1, 0⟩).squaredNorm o = .fin 2 := by
    simp only [DVec.squaredNorm, DVec.dot, doubles, F64.mul]
    cases o <;> norm_num [i1, i2, F64.add, DVec.sum, i0]
  have r1 : Representable (1 : ℝ) := rep_one
  have r2 : Representable (2 : ℝ) := by simpa using representable_int (α := ℝ) (m := 2) (by norm_num)
  have rh : Representable (1 / 2 : ℝ) := ⟨1, -1, by norm_num, by norm_num, by norm_num⟩
  have w1 : 1 ≤ rnd √2 := le_rnd r1 (Real.one_le_sqrt.2 (by norm_num))
  have w2 : rnd √2 ≤ 2 := rnd_le r2 (Real.sqrt_le_iff.2 ⟨by norm_num, by norm_num⟩)
  have v1 : 1 / 2 ≤ rnd (1 / rnd √2) := le_rnd rh (one_div_le_one_div_of_le (by linarith) w2)
  have v2 : rnd (1 / rnd √2) ≤ 1 := rnd_le r1 (by rw [div_le_one (by linarith)]; exact w1)
  refine ⟨rnd (1 / rnd √2), v1, v2, ?_⟩
  have q' := q
  rw [doubles] at q'
  have e1 : F64.ofExact (1 / rnd √2) = .fin (rnd (1 / rnd √2)) := F64.ofExact_fin (by
    rw [abs_of_nonneg (by linarith)]; exact lt_of_le_of_lt v2 (one_lt_pow₀ one_lt_two (by norm_num)))
  have w0 : rnd √2 ≠ 0 := by linarith
  simp only [DVec.normalized, DVec.div, q', F64.sqrt, F64.lt, doubles, F64.div]
  rw [if_pos (by norm_num), if_neg (by norm_num)]
  simp only [if_neg w0, e1, zero_div, i0]

/-- C142: the plane through `(0, 0, 0)` with the normal `(3, 4, 0)` contains the line from there along `(4, -3, 0)`, as it should, but not the segment from there to `(4, -3, 0)`, nor the point
`(4, -3, 0)`, though both are parts of that line -/
theorem C142_segment_violated (o : Bool) : SegSet ⟨0, 0, 0⟩ ⟨4, -3, 0⟩ ⊆ LineSet ⟨0, 0, 0⟩ ⟨4, -3, 0⟩ ∧ LineSet ⟨0, 0, 0⟩ ⟨4, -3, 0⟩ ⊆ PlaneSet ⟨0, 0, 0⟩ ⟨3, 4, 0⟩ ∧
    ∃ n d, DPlane.ctor o (doubles ⟨0, 0, 0⟩) (doubles ⟨3, 4, 0⟩) = (doubles ⟨0, 0, 0⟩, n) ∧ DLine.ctor o (doubles ⟨0, 0, 0⟩) (doubles ⟨4, -3, 0⟩) = .ok (doubles ⟨0, 0, 0⟩, d) ∧
      DPlane.containsLine o (doubles ⟨0, 0, 0⟩) n (doubles ⟨0, 0, 0⟩) d = .ok true ∧
      DPlane.containsSegment o (doubles ⟨0, 0, 0⟩) n (doubles ⟨0, 0, 0⟩) (doubles ⟨4, -3, 0⟩) = .ok false ∧
      DPlane.contains o (doubles ⟨0, 0, 0⟩) n (doubles ⟨4, -3, 0⟩) = .ok false := by
  obtain ⟨h1, -, -⟩ := normalized_345 o
  obtain ⟨h2, q2⟩ := normalized_43 o
  have h0 := small_of_int 0 (by norm_num)
  have h3 := small_of_int (-3) (by norm_num)
  have h4 := small_of_int 4 (by norm_num)
  push_cast at h0 h3 h4
  have sa : Small ⟨0, 0, 0⟩ := ⟨h0, h0, h0⟩
  have sp : Small ⟨4, -3, 0⟩ := ⟨h4, h3, h0⟩
  obtain ⟨n1, n2⟩ := fifths_norms
  have z : dotR o ⟨threeFifths, fourFifths, 0⟩ ⟨fourFifths, -threeFifths, 0⟩ = 0 := by
    have e : rnd (fourFifths * -threeFifths) = -rnd (threeFifths * fourFifths) := by rw [mul_neg, rnd_neg, mul_comm]
    cases o <;> simp only [dotR, DVec.dot3, DVec.sum3, e, mul_zero, add_zero, rnd_zero, rnd_neg, rnd_rnd, add_neg_cancel, if_true, Bool.false_eq_true, if_false]
  have c0 := (C117_plane o sa n1 sa).1
  have c1 : DPlane.contains o (doubles ⟨0, 0, 0⟩) (doubles ⟨threeFifths, fourFifths, 0⟩) (doubles ⟨4, -3, 0⟩) = .ok false := by
    rw [(contains_line o sa n1 sp).2.2]
    have e : diff3 ⟨4, -3, 0⟩ ⟨0, 0, 0⟩ = ⟨4, -3, 0⟩ := by
      ext <;> simp only [diff3, sub_zero]
      · exact rnd_exact h4.1
      · exact rnd_exact h3.1
      · exact rnd_zero
    rw [e, dotR_comm, fifths_dot]
    have : -(2 : ℝ) ^ (-51 : ℤ) ≠ 0 := neg_ne_zero.2 (two_zpow_pos _).ne'
    simp only [this, decide_false]
  refine ⟨?_, ?_, doubles ⟨threeFifths, fourFifths, 0⟩, doubles ⟨fourFifths, -threeFifths, 0⟩, by rw [DPlane.ctor, h1], ?_, ?_, ?_, c1⟩
  · rintro p ⟨t, -, -, rfl⟩
    exact ⟨t, by ext <;> simp⟩
  · rintro p ⟨t, rfl⟩
    simp [PlaneSet, V3.dot]; ring
  · rw [DLine.ctor, doubles_defined, q2, h2]
    simp [F64.eq]
  · simp only [DPlane.containsLine, DPlane.isDefined, doubles_defined, c0, dot_of_direction o n1 n2, z, bind, Except.bind, Pure.pure, Except.pure, Bool.and_self, Bool.not_true, Bool.false_eq_true, if_false, eq_zero,
      decide_true]
  · simp only [DPlane.containsSegment, DPlane.isDefined, doubles_defined, c0, c1, bind, Except.bind, Pure.pure, Except.pure, Bool.and_self, Bool.not_true, Bool.false_eq_true, if_false, if_true]

/-- C142: equality of planes is not transitive, and equal planes do not contain the same points. With the normal `(1, 1, 0)` the planes through `(2 ^ -60, 0, 0)` and `(1, -1, 0)` are equal, and the planes
through `(1, -1, 0)` and `(0, 0, 0)` are; but those through `(2 ^ -60, 0, 0)` and `(0, 0, 0)` are not. -/
theorem C142_transitive_violated (o : Bool) : ∃ n, DPlane.ctor o (doubles ⟨0, 0, 0⟩) (doubles ⟨1, 1, 0⟩) = (doubles ⟨0, 0, 0⟩, n) ∧
    DPlane.eq o (doubles ⟨2 ^ (-60 : ℤ), 0, 0⟩) n (doubles ⟨1, -1, 0⟩) n = true ∧ DPlane.eq o (doubles ⟨1, -1, 0⟩) n (doubles ⟨0, 0, 0⟩) n = true ∧
    DPlane.eq o (doubles ⟨2 ^ (-60 : ℤ), 0, 0⟩) n (doubles ⟨0, 0, 0⟩) n = false ∧
    DPlane.contains o (doubles ⟨1, -1, 0⟩) n (doubles ⟨0, 0, 0⟩) = .ok true ∧ DPlane.contains o (doubles ⟨2 ^ (-60 : ℤ), 0, 0⟩) n (doubles ⟨0, 0, 0⟩) = .ok false ∧
    PlaneSet ⟨2 ^ (-60 : ℤ), 0, 0⟩ ⟨1, 1, 0⟩ ∩ PlaneSet ⟨1, -1, 0⟩ ⟨1, 1, 0⟩ = ∅ := by
  obtain ⟨s, s1, s2, hs⟩ := normalized_diagonal o
  have sn : V3.norm ⟨s, s, 0⟩ ≤ 2 := by
    refine Real.sqrt_le_iff.2 ⟨by norm_num, ?_⟩
    simp only [V3.normSq, V3.dot]; nlinarith
  have h0 := small_of_int 0 (by norm_num)
  have h1 := small_of_int 1 (by norm_num)
  have h1' := small_of_int (-1) (by norm_num)
  push_cast at h0 h1 h1'
  have r60 : Representable ((2 : ℝ) ^ (-60 : ℤ)) := F64.representable_pow (by norm_num)
  have p60 : (0 : ℝ) < 2 ^ (-60 : ℤ) := two_zpow_pos _
  have h60 : Representable ((2 : ℝ) ^ (-60 : ℤ)) ∧ |(2 : ℝ) ^ (-60 : ℤ)| ≤ 2 ^ 248 := ⟨r60, by
    rw [abs_of_pos p60]; exact le_trans (by norm_num) (one_le_pow₀ one_le_two : (1 : ℝ) ≤ 2 ^ 248)⟩
  have sO : Small ⟨0, 0, 0⟩ := ⟨h0, h0, h0⟩
  have sA : Small ⟨2 ^ (-60 : ℤ), 0, 0⟩ := ⟨h60, h0, h0⟩
  have sB : Small ⟨1, -1, 0⟩ := ⟨h1, h1', h0⟩
  have dAB : diff3 ⟨1, -1, 0⟩ ⟨2 ^ (-60 : ℤ), 0, 0⟩ = ⟨1, -1, 0⟩ := by
    have e : rnd ((1 : ℝ) - 2 ^ (-60 : ℤ)) = 1 := by
      rw [rnd_eq (x := (1 : ℝ) - 2 ^ (-60 : ℤ)) (2 ^ 53) (-53) (by norm_num) (by norm_num) (by norm_num) (by norm_num)]; norm_num
    ext <;> simp only [diff3, sub_zero, rnd_zero, e]
    exact rnd_exact h1'.1
  have dBO : diff3 ⟨0, 0, 0⟩ ⟨1, -1, 0⟩ = ⟨-1, 1, 0⟩ := by
    ext <;> simp only [diff3, sub_zero, rnd_zero, zero_sub, neg_neg]
    · exact rnd_exact h1'.1
    · exact rnd_exact h1.1
  have dAO : diff3 ⟨0, 0, 0⟩ ⟨2 ^ (-60 : ℤ), 0, 0⟩ = ⟨-2 ^ (-60 : ℤ), 0, 0⟩ := by
    ext <;> simp only [diff3, sub_zero, rnd_zero, zero_sub, rnd_neg, rnd_exact r60]
  have z1 : dotR o ⟨1, -1, 0⟩ ⟨s, s, 0⟩ = 0 := by
    cases o <;> simp [dotR, DVec.dot3, DVec.sum3, rnd_zero, rnd_neg, rnd_rnd]
  have z2 : dotR o ⟨-1, 1, 0⟩ ⟨s, s, 0⟩ = 0 := by
    cases o <;> simp [dotR, DVec.dot3, DVec.sum3, rnd_zero, rnd_neg, rnd_rnd]
  have z3 : dotR o ⟨-2 ^ (-60 : ℤ), 0, 0⟩ ⟨s, s, 0⟩ ≠ 0 := by
    have k : (2 : ℝ) ^ (-61 : ℤ) ≤ rnd ((2 : ℝ) ^ (-60 : ℤ) * s) := by
      refine le_rnd (F64.representable_pow (by norm_num)) ?_
      rw [show (2 : ℝ) ^ (-61 : ℤ) = 2 ^ (-60 : ℤ) * (1 / 2) by rw [show (-61 : ℤ) = -60 + -1 by norm_num, zpow_add₀ two_ne_zero]; norm_num]
      exact mul_le_mul_of_nonneg_left s1 p60.le
    have p61 : (0 : ℝ) < 2 ^ (-61 : ℤ) := two_zpow_pos _
    have : dotR o ⟨-2 ^ (-60 : ℤ), 0, 0⟩ ⟨s, s, 0⟩ = -rnd ((2 : ℝ) ^ (-60 : ℤ) * s) := by
      cases o <;> simp only [dotR, DVec.dot3, DVec.sum3, neg_mul, zero_mul, mul_zero, rnd_zero, add_zero, rnd_neg, rnd_rnd, if_true, Bool.false_eq_true, if_false]
    rw [this, neg_ne_zero]
    exact (p61.trans_le k).ne'
  refine ⟨_, by rw [DPlane.ctor, hs], ?_, ?_, ?_, ?_, ?_, ?_⟩
  · exact (plane_eq o sA sB sn).2 ⟨.inl rfl, .inr (by rw [dAB, z1])⟩
  · exact (plane_eq o sB sO sn).2 ⟨.inl rfl, .inr (by rw [dBO, z2])⟩
  · rw [← Bool.not_eq_true, plane_eq o sA sO sn, dAO]
    rintro ⟨-, h | h⟩
    · exact p60.ne' (congrArg V3.x h)
    · exact z3 h
  · rw [(contains_line o sB sn sO).2.2, dBO, z2]; simp
  · rw [(contains_line o sA sn sO).2.2, dAO]; simp only [z3, decide_false]
  · ext p
    simp only [PlaneSet, Set.mem_inter_iff, Set.mem_ofPred_eq, Set.mem_empty_iff_false, iff_false, not_and, V3.dot, V3.sub_x, V3.sub_y, V3.sub_z]
    intro e1 e2
    linarith

/-- **C142.** The functions on lines, rays, segments and points fail with "undefined" exactly if one of the arguments has a coordinate that is not a number; the functions on point sets fail for an empty set.
Lines and planes that are not defined are not equal to any. -/
theorem C142_undefined (o : Bool) (q n a b : DVec) :
    RefusedUnless (q.isDefined = true ∧ n.isDefined = true ∧ a.isDefined = true ∧ b.isDefined = true) (DPlane.containsLine o q n a b) ∧
      RefusedUnless (q.isDefined = true ∧ n.isDefined = true ∧ a.isDefined = true ∧ b.isDefined = true) (DPlane.containsSegment o q n a b) ∧
      RefusedUnless (q.isDefined = true ∧ n.isDefined = true ∧ a.isDefined = true) (DPlane.intersectionWithPoint o q n a) ∧
      DPlane.containsSet o q n [] = .error .undefined ∧ DPlane.intersectsSet o q n [] = .error .undefined ∧
      (¬ (q.isDefined = true ∧ n.isDefined = true ∧ a.isDefined = true ∧ b.isDefined = true) → DPlane.eq o q n a b = false ∧ DLine.eq o q n a b = false) ∧
      (¬ (q.isDefined = true ∧ n.isDefined = true) → ∀ ps, DPlane.containsSet o q n ps = .error .undefined ∧ DPlane.intersectsSet o q n ps = .error .undefined ∧
        DPlane.intersectionWithSet o q n ps = .error .undefined) := by
  refine ⟨?_, ?_, ?_, rfl, rfl, ?_, ?_⟩
  · cases hq : q.isDefined <;> cases hn : n.isDefined <;> cases ha : a.isDefined <;> cases hb : b.isDefined <;>
      simp [RefusedUnless, DPlane.containsLine, DPlane.isDefined, DPlane.contains, hq, hn, ha, hb, bind, Except.bind, Pure.pure, Except.pure]
  · cases hq : q.isDefined <;> cases hn : n.isDefined <;> cases ha : a.isDefined <;> cases hb : b.isDefined <;>
      simp [RefusedUnless, DPlane.containsSegment, DPlane.isDefined, DPlane.contains, hq, hn, ha, hb, bind, Except.bind, Pure.pure, Except.pure]
    cases (DVec.dot o (a.sub q) n).eq (.fin 0) <;> cases (DVec.dot o (b.sub q) n).eq (.fin 0) <;> simp
  · cases hq : q.isDefined <;> cases hn : n.isDefined <;> cases ha : a.isDefined <;>
      simp [RefusedUnless, DPlane.intersectionWithPoint, DPlane.contains, hq, hn, ha, bind, Except.bind, Pure.pure, Except.pure]
  · cases hq : q.isDefined <;> cases hn : n.isDefined <;> cases ha : a.isDefined <;> cases hb : b.isDefined <;>
      simp [DPlane.eq, DLine.eq, DPlane.isDefined, hq, hn, ha, hb]
  · intro h ps
    have hd : DPlane.isDefined q n = false := by
      rw [DPlane.isDefined]
      cases hq : q.isDefined <;> cases hn : n.isDefined <;> simp [hq, hn] at h ⊢
    refine ⟨?_, ?_, ?_⟩
    · rw [DPlane.containsSet, hd]; cases ps <;> rfl
    · rw [DPlane.intersectsSet, hd]; cases ps <;> rfl
    · rw [DPlane.intersectionWithSet, hd]; rfl

/-- the hypotheses of the theorems on planes and lines, for a plane and a line of slanted normal and direction -/
example : Small ⟨1, -1, 0⟩ ∧ Small ⟨0, 0, 0⟩ ∧ V3.norm ⟨3 / 4, 1 / 2, 0⟩ ≤ 2 ∧ 1 / 2 ≤ V3.norm ⟨3 / 4, 1 / 2, 0⟩ ∧ AlongAxis (-V3.Y) := by
  have h0 := small_of_int 0 (by norm_num)
  have h1 := small_of_int 1 (by norm_num)
  have h1' := small_of_int (-1) (by norm_num)
  push_cast at h0 h1 h1'
  refine ⟨⟨h1, h1', h0⟩, ⟨h0, h0, h0⟩, ?_, ?_, ?_⟩
  · exact Real.sqrt_le_iff.2 ⟨by norm_num, by norm_num [V3.normSq, V3.dot]⟩
  · exact Real.le_sqrt_of_sq_le (by norm_num [V3.normSq, V3.dot])
  · simp [AlongAxis]

/-- two descriptions of the plane `y = -1` are equal, and another plane is not -/
example (o : Bool) : DPlane.eq o (doubles ⟨1, -1, 0⟩) (doubles V3.Y) (doubles ⟨0, -1, 1⟩) (doubles (-V3.Y)) = true ∧
    DPlane.eq o (doubles ⟨1, -1, 0⟩) (doubles V3.Y) (doubles ⟨0, 0, 0⟩) (doubles (-V3.Y)) = false := by
  have h0 := small_of_int 0 (by norm_num)
  have h1 := small_of_int 1 (by norm_num)
  have h1' := small_of_int (-1) (by norm_num)
  push_cast at h0 h1 h1'
  have sA : Small ⟨1, -1, 0⟩ := ⟨h1, h1', h0⟩
  have sB : Small ⟨0, -1, 1⟩ := ⟨h0, h1', h1⟩
  have sO : Small ⟨0, 0, 0⟩ := ⟨h0, h0, h0⟩
  have ay : AlongAxis V3.Y := by simp [AlongAxis]
  constructor
  · refine (plane_eq o sA sB ay.norm).2 ⟨.inr (by ext <;> simp), .inr ((axis_exact o sA sB ay).2 ?_)⟩
    simp [V3.dot, V3.Y]
  · rw [← Bool.not_eq_true, plane_eq o sA sO ay.norm, axis_exact o sA sO ay]
    rintro ⟨-, h | h⟩
    · simp [V3.ext_iff] at h
    · simp [V3.dot, V3.Y] at h

end Verif.Props
