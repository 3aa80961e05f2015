import Verif.Lemmas.Gte
import Verif.Lemmas.Cuboid
import Verif.Props.Rigid
import Verif.Props.Linear3

/-!
# Properties of cuboids

Over exact reals; `eps` is `Real::Epsilon()`. A cuboid made with extents `e`, `f`, `g` is the box with those *half* extents for `contains` and
`intersects`, but `getVertices` returns the corners of the box of half that size.
-/

namespace Verif.Props

open Verif Verif.Spec Classical

/-- a defined cuboid -/
def cub (o a b c : V3) (e f g : ℝ) : Cuboid3 := ⟨some o, some a, some b, some c, some e, some f, some g⟩

theorem cub_contains (eps : ℝ) (o a b c p : V3) (e f g : ℝ) : (cub o a b c e f g).contains eps (some p) = .ok
    (if |(|(p - o).dot a| - e)| < eps then decide (|(p - o).dot b| ≤ f) && decide (|(p - o).dot c| ≤ g)
    else if |(|(p - o).dot b| - f)| < eps then decide (|(p - o).dot a| ≤ e) && decide (|(p - o).dot c| ≤ g)
    else if |(|(p - o).dot c| - g)| < eps then decide (|(p - o).dot a| ≤ e) && decide (|(p - o).dot b| ≤ f)
    else false) := rfl

/-- the box with orthonormal axes of the examples -/
theorem orthonormal_example : Orthonormal ⟨3 / 5, 4 / 5, 0⟩ ⟨-4 / 5, 3 / 5, 0⟩ ⟨0, 0, 1⟩ := by
  refine ⟨V3.norm_of_normSq_one ?_, V3.norm_of_normSq_one ?_, V3.norm_of_normSq_one ?_, ?_, ?_, ?_⟩ <;> norm_num [V3.normSq, V3.dot]

/-- **C51.** `contains (Point)` accepts every point of the faces of the box, and only points nearer than `eps` to a point of the faces. -/
theorem C51_contains (eps : ℝ) (h0 : 0 < eps) (o a b c : V3) (h : Orthonormal a b c) (e f g : ℝ) (he : 0 ≤ e) (hf : 0 ≤ f) (hg : 0 ≤ g) (p : V3) :
    ∃ r, (cub o a b c e f g).contains eps (some p) = .ok r ∧ (p ∈ FaceSet o a b c e f g → r = true) ∧
      (r = true → ∃ q ∈ FaceSet o a b c e f g, (q - p).norm < eps) := by
  refine ⟨_, cub_contains eps o a b c p e f g, ?_, ?_⟩
  · intro hp
    rw [mem_faceSet h, mem_boxSet h] at hp
    obtain ⟨⟨h1, h2, h3⟩, hh⟩ := hp
    split_ifs with c1 c2 c3
    · simp [h2, h3]
    · simp [h1, h3]
    · simp [h1, h2]
    · rcases hh with hh | hh | hh
      · rw [hh] at c1; simp at c1; linarith
      · rw [hh] at c2; simp at c2; linarith
      · rw [hh] at c3; simp at c3; linarith
  · have hpt := Orthonormal.point h o p
    set x := (p - o).dot a
    set y := (p - o).dot b
    set z := (p - o).dot c
    have near : ∀ v : V3, v.norm = 1 → ∀ (s w : ℝ) (q : V3), q - p = (s - w) • v → |s - w| = |(|w| - |s|)| → |(|w| - |s|)| < eps → (q - p).norm < eps := by
      intro v hv s w q hq hs hlt
      rw [hq, V3.norm_smul, hv, mul_one, hs]; exact hlt
    split_ifs with c1 c2 c3
    · intro hr
      simp only [Bool.and_eq_true, decide_eq_true_eq] at hr
      obtain ⟨s, hs1, hs2⟩ := abs_push x e he
      refine ⟨o + s • a + y • b + z • c, ⟨s, y, z, rfl, hs1.le, hr.1, hr.2, .inl hs1⟩, ?_⟩
      refine near a h.1 s x _ ?_ (by rw [hs1]; exact hs2) (by rw [hs1]; exact c1)
      conv_lhs => rw [hpt]
      ext <;> simp <;> ring
    · intro hr
      simp only [Bool.and_eq_true, decide_eq_true_eq] at hr
      obtain ⟨s, hs1, hs2⟩ := abs_push y f hf
      refine ⟨o + x • a + s • b + z • c, ⟨x, s, z, rfl, hr.1, hs1.le, hr.2, .inr (.inl hs1)⟩, ?_⟩
      refine near b h.2.1 s y _ ?_ (by rw [hs1]; exact hs2) (by rw [hs1]; exact c2)
      conv_lhs => rw [hpt]
      ext <;> simp <;> ring
    · intro hr
      simp only [Bool.and_eq_true, decide_eq_true_eq] at hr
      obtain ⟨s, hs1, hs2⟩ := abs_push z g hg
      refine ⟨o + x • a + y • b + s • c, ⟨x, y, s, rfl, hr.1, hr.2, hs1.le, .inr (.inr hs1)⟩, ?_⟩
      refine near c h.2.2.1 s z _ ?_ (by rw [hs1]; exact hs2) (by rw [hs1]; exact c3)
      conv_lhs => rw [hpt]
      ext <;> simp <;> ring
    · intro hr; exact absurd hr (by simp)

example : Orthonormal ⟨3 / 5, 4 / 5, 0⟩ ⟨-4 / 5, 3 / 5, 0⟩ ⟨0, 0, 1⟩ ∧ (0 : ℝ) ≤ 2 := ⟨orthonormal_example, by norm_num⟩

/-- **C51.** A point strictly inside of the box, at least `eps` from every face, is not contained, nor is a point at least `eps` outside. -/
theorem C51_not_contained (eps : ℝ) (h0 : 0 < eps) (o a b c : V3) (h : Orthonormal a b c) (e f g : ℝ) (p : V3)
    (hp : (|(p - o).dot a| ≤ e - eps ∧ |(p - o).dot b| ≤ f - eps ∧ |(p - o).dot c| ≤ g - eps) ∨
      e + eps ≤ |(p - o).dot a| ∨ f + eps ≤ |(p - o).dot b| ∨ g + eps ≤ |(p - o).dot c|) :
    (cub o a b c e f g).contains eps (some p) = .ok false := by
  rw [cub_contains]
  congr 1
  generalize |(p - o).dot a| = x at *
  generalize |(p - o).dot b| = y at *
  generalize |(p - o).dot c| = z at *
  simp only [abs_lt]
  split_ifs with c1 c2 c3
  · rcases hp with hp | hp | hp | hp
    · linarith [hp.1, c1.1]
    · linarith [c1.2]
    · have : ¬ y ≤ f := by linarith
      simp [this]
    · have : ¬ z ≤ g := by linarith
      simp [this]
  · rcases hp with hp | hp | hp | hp
    · linarith [hp.2.1, c2.1]
    · have : ¬ x ≤ e := by linarith
      simp [this]
    · linarith [c2.2]
    · have : ¬ z ≤ g := by linarith
      simp [this]
  · rcases hp with hp | hp | hp | hp
    · linarith [hp.2.2, c3.1]
    · have : ¬ x ≤ e := by linarith
      simp [this]
    · have : ¬ y ≤ f := by linarith
      simp [this]
    · linarith [c3.2]
  · rfl

example : Orthonormal ⟨3 / 5, 4 / 5, 0⟩ ⟨-4 / 5, 3 / 5, 0⟩ ⟨0, 0, 1⟩ ∧ |(((0 : V3) - 0).dot ⟨3 / 5, 4 / 5, 0⟩)| ≤ 2 - (1 / 1000 : ℝ) :=
  ⟨orthonormal_example, by norm_num [V3.dot]⟩

/-- **C51.** The vertices are the eight corners of the box of half the size. -/
theorem C51_vertices (o a b c : V3) (h : Orthonormal a b c) (e f g : ℝ) (he : 0 < e) (hf : 0 < f) (hg : 0 < g) :
    ∃ vs, (cub o a b c e f g).getVertices = .ok vs ∧ vs.length = 8 ∧ vs.Nodup ∧ ∀ v, v ∈ vs ↔ v ∈ CornerSet o a b c (e / 2) (f / 2) (g / 2) := by
  set pt := fun x y z : ℝ => o + x • a + y • b + z • c with hpt
  have inj : ∀ x y z x' y' z', pt x y z = pt x' y' z' → x = x' ∧ y = y' ∧ z = z' := by
    intro x y z x' y' z' hh
    obtain ⟨e1, e2, e3⟩ := Orthonormal.point_coords h o x y z
    obtain ⟨f1, f2, f3⟩ := Orthonormal.point_coords h o x' y' z'
    change o + x • a + y • b + z • c = o + x' • a + y' • b + z' • c at hh
    rw [hh] at e1 e2 e3
    exact ⟨e1.symm.trans f1, e2.symm.trans f2, e3.symm.trans f3⟩
  have hv : (cub o a b c e f g).getVertices = .ok [pt (e / 2) (f / 2) (g / 2), pt (e / 2) (f / 2) (-(g / 2)), pt (e / 2) (-(f / 2)) (-(g / 2)),
      pt (e / 2) (-(f / 2)) (g / 2), pt (-(e / 2)) (f / 2) (g / 2), pt (-(e / 2)) (f / 2) (-(g / 2)), pt (-(e / 2)) (-(f / 2)) (-(g / 2)),
      pt (-(e / 2)) (-(f / 2)) (g / 2)] := by
    simp only [Cuboid3.getVertices, cub, Cuboid3.need, bind, Except.bind, pure, Except.pure, hpt, Except.ok.injEq, List.cons.injEq, and_true]
    refine ⟨trivial, ?_, ?_, ?_, ?_, ?_, ?_, ?_⟩ <;> ext <;> simp <;> ring
  refine ⟨_, hv, rfl, ?_, ?_⟩
  · have n1 : e / 2 ≠ -(e / 2) := by intro h; linarith
    have n2 : f / 2 ≠ -(f / 2) := by intro h; linarith
    have n3 : g / 2 ≠ -(g / 2) := by intro h; linarith
    have m' : ∀ {x y z x' y' z'}, pt x y z = pt x' y' z' ↔ (x = x' ∧ y = y' ∧ z = z') :=
      fun {x y z x' y' z'} => ⟨inj _ _ _ _ _ _, fun ⟨h1, h2, h3⟩ => by rw [h1, h2, h3]⟩
    simp [m', n1, n2, n3, n1.symm, n2.symm, n3.symm]
  · intro v
    constructor
    · intro hm
      simp only [List.mem_cons, List.not_mem_nil, or_false] at hm
      have p1 : |e / 2| = e / 2 := abs_of_pos (by linarith)
      have p2 : |f / 2| = f / 2 := abs_of_pos (by linarith)
      have p3 : |g / 2| = g / 2 := abs_of_pos (by linarith)
      have q1 : |-(e / 2)| = e / 2 := by rw [abs_neg, p1]
      have q2 : |-(f / 2)| = f / 2 := by rw [abs_neg, p2]
      have q3 : |-(g / 2)| = g / 2 := by rw [abs_neg, p3]
      rcases hm with rfl | rfl | rfl | rfl | rfl | rfl | rfl | rfl
      all_goals exact ⟨_, _, _, rfl, by assumption, by assumption, by assumption⟩
    · rintro ⟨x, y, z, rfl, hx, hy, hz⟩
      change pt x y z ∈ _
      have sg : ∀ {x e : ℝ}, |x| = e → x = e ∨ x = -e := fun {x e} h => by rcases abs_choice x with h' | h' <;> rw [h'] at h <;> [left; right] <;> linarith
      rcases sg hx with rfl | rfl <;> rcases sg hy with rfl | rfl <;> rcases sg hz with rfl | rfl <;> simp

example : Orthonormal ⟨3 / 5, 4 / 5, 0⟩ ⟨-4 / 5, 3 / 5, 0⟩ ⟨0, 0, 1⟩ ∧ (0 : ℝ) < 2 := ⟨orthonormal_example, by norm_num⟩

/-- **C51.** A violation: no vertex of a cuboid is contained in it, if its extents are at least twice `eps`. -/
theorem C51_vertices_violated (eps : ℝ) (h0 : 0 < eps) (o a b c : V3) (h : Orthonormal a b c) (e f g : ℝ) (he : 2 * eps ≤ e) (hf : 2 * eps ≤ f)
    (hg : 2 * eps ≤ g) : ∃ vs, (cub o a b c e f g).getVertices = .ok vs ∧ vs.length = 8 ∧
      ∀ v ∈ vs, (cub o a b c e f g).contains eps (some v) = .ok false := by
  obtain ⟨vs, h1, h2, -, h3⟩ := C51_vertices o a b c h e f g (by linarith) (by linarith) (by linarith)
  refine ⟨vs, h1, h2, fun v hv => ?_⟩
  have := (h3 v).1 hv
  rw [mem_cornerSet h] at this
  refine C51_not_contained eps h0 o a b c h e f g v (.inl ?_)
  rw [this.1, this.2.1, this.2.2]
  exact ⟨by linarith, by linarith, by linarith⟩

example : Orthonormal ⟨3 / 5, 4 / 5, 0⟩ ⟨-4 / 5, 3 / 5, 0⟩ ⟨0, 0, 1⟩ ∧ 2 * (1 / 1000 : ℝ) ≤ 2 := ⟨orthonormal_example, by norm_num⟩

/-- `contains` for a set and a segment test the points, and the ends -/
theorem cub_points (eps : ℝ) (o a b c : V3) (e f g : ℝ) (ps : List V3) (P : V3 → Prop)
    (h : ∀ p, ∃ r, (cub o a b c e f g).contains eps (some p) = .ok r ∧ (r = true ↔ P p)) :
    (∃ r, (cub o a b c e f g).containsSet eps (ps.map some) = .ok r ∧ (r = true ↔ ps ≠ [] ∧ ∀ p ∈ ps, P p)) ∧
    (∃ r, (cub o a b c e f g).intersectsSet eps (ps.map some) = .ok r ∧ (r = true ↔ ∃ p ∈ ps, P p)) := by
  have hd : (cub o a b c e f g).isDefined = true := rfl
  cases ps with
  | nil => exact ⟨⟨false, rfl, by simp⟩, ⟨false, rfl, by simp⟩⟩
  | cons q ps =>
    have h' : ∀ x ∈ (q :: ps).map some, ∃ r, (cub o a b c e f g).contains eps x = .ok r ∧ (r = true ↔ ∃ p, x = some p ∧ P p) := by
      intro x hx
      obtain ⟨p, -, rfl⟩ := List.mem_map.1 hx
      obtain ⟨r, h1, h2⟩ := h p
      exact ⟨r, h1, by simp [h2]⟩
    obtain ⟨r, h1, h2⟩ := allOf_true h'
    obtain ⟨s, h3, h4⟩ := anyOf_true h'
    refine ⟨⟨r, ?_, ?_⟩, ⟨s, ?_, ?_⟩⟩
    · simpa [Cuboid3.containsSet, hd] using h1
    · rw [h2]; simp
    · simpa [Cuboid3.intersectsSet, hd] using h3
    · rw [h4]; simp

/-- **C51.** A set of points of the faces is contained; a contained set is not empty and all its points are nearer than `eps` to the faces; a set with
a point of the faces intersects the cuboid, and one that does has a point nearer than `eps` to the faces. -/
theorem C51_set (eps : ℝ) (h0 : 0 < eps) (o a b c : V3) (h : Orthonormal a b c) (e f g : ℝ) (he : 0 ≤ e) (hf : 0 ≤ f) (hg : 0 ≤ g) (ps : List V3) :
    ∃ r s, (cub o a b c e f g).containsSet eps (ps.map some) = .ok r ∧ (cub o a b c e f g).intersectsSet eps (ps.map some) = .ok s ∧
      (ps ≠ [] → (∀ p ∈ ps, p ∈ FaceSet o a b c e f g) → r = true) ∧
      (r = true → ps ≠ [] ∧ ∀ p ∈ ps, ∃ q ∈ FaceSet o a b c e f g, (q - p).norm < eps) ∧
      ((∃ p ∈ ps, p ∈ FaceSet o a b c e f g) → s = true) ∧
      (s = true → ∃ p ∈ ps, ∃ q ∈ FaceSet o a b c e f g, (q - p).norm < eps) := by
  have hc := fun p => C51_contains eps h0 o a b c h e f g he hf hg p
  obtain ⟨⟨r, h1, h2⟩, ⟨s, h3, h4⟩⟩ := cub_points eps o a b c e f g ps (fun p => (cub o a b c e f g).contains eps (some p) = .ok true)
    (fun p => by obtain ⟨r, hr, -⟩ := hc p; exact ⟨r, hr, by rw [hr]; simp⟩)
  have face : ∀ p, p ∈ FaceSet o a b c e f g → (cub o a b c e f g).contains eps (some p) = .ok true := fun p hp => by
    obtain ⟨r, hr, hr1, -⟩ := hc p
    rw [hr, hr1 hp]
  have near : ∀ p, (cub o a b c e f g).contains eps (some p) = .ok true → ∃ q ∈ FaceSet o a b c e f g, (q - p).norm < eps := fun p hp => by
    obtain ⟨r, hr, -, hr2⟩ := hc p
    rw [hr] at hp
    cases hp
    exact hr2 rfl
  refine ⟨r, s, h1, h3, ?_, ?_, ?_, ?_⟩
  · intro hn hp; exact h2.2 ⟨hn, fun p hp' => face p (hp p hp')⟩
  · intro hr; exact ⟨(h2.1 hr).1, fun p hp => near p ((h2.1 hr).2 p hp)⟩
  · rintro ⟨p, hp, hf⟩; exact h4.2 ⟨p, hp, face p hf⟩
  · intro hs; obtain ⟨p, hp, hq⟩ := h4.1 hs; exact ⟨p, hp, near p hq⟩

example : Orthonormal ⟨3 / 5, 4 / 5, 0⟩ ⟨-4 / 5, 3 / 5, 0⟩ ⟨0, 0, 1⟩ ∧ (0 : ℝ) ≤ 2 := ⟨orthonormal_example, by norm_num⟩

/-- **C51.** `contains (Segment)` tests the ends only: a violation is every segment between opposite faces through the centre, which is contained though its
middle, the centre, is not. -/
theorem C51_segment_violated (eps : ℝ) (h0 : 0 < eps) (o a b c : V3) (h : Orthonormal a b c) (e f g : ℝ) (he : eps ≤ e) (hf : eps ≤ f) (hg : eps ≤ g) :
    (cub o a b c e f g).containsSegment eps ⟨some (o + e • a), some (o - e • a)⟩ = .ok true ∧ o ∈ SegSet (o + e • a) (o - e • a) ∧
    (cub o a b c e f g).contains eps (some o) = .ok false := by
  refine ⟨?_, ⟨1 / 2, by norm_num, by norm_num, by ext <;> simp <;> ring⟩, ?_⟩
  · have hm : ∀ s : ℝ, |s| = 1 → (cub o a b c e f g).contains eps (some (o + (s * e) • a)) = .ok true := by
      intro s hs
      obtain ⟨r, hr, hr1, -⟩ := C51_contains eps h0 o a b c h e f g (by linarith) (by linarith) (by linarith) (o + (s * e) • a)
      rw [hr, hr1 ⟨s * e, 0, 0, by ext <;> simp, ?_, ?_, ?_, .inl ?_⟩]
      · rw [abs_mul, hs, one_mul, abs_of_nonneg (by linarith)]
      · simp; linarith
      · simp; linarith
      · rw [abs_mul, hs, one_mul, abs_of_nonneg (by linarith)]
    have e1 : o + e • a = o + (1 * e) • a := by ext <;> simp
    have e2 : o - e • a = o + (-1 * e) • a := by ext <;> simp <;> ring
    have h1 := hm 1 (by simp)
    have h2 := hm (-1) (by simp)
    simp only [Cuboid3.containsSegment, Seg3.isDefined, Option.isSome_some, Bool.and_self, Bool.not_true, Bool.false_eq_true, if_false, allOf, e1, e2,
      h1, h2]
  · refine C51_not_contained eps h0 o a b c h e f g o (.inl ?_)
    simp [V3.dot]
    exact ⟨he, hf, hg⟩

example : Orthonormal ⟨3 / 5, 4 / 5, 0⟩ ⟨-4 / 5, 3 / 5, 0⟩ ⟨0, 0, 1⟩ ∧ (1 / 1000 : ℝ) ≤ 2 := ⟨orthonormal_example, by norm_num⟩

/-- **C51.** A contained segment lies in the box, up to `eps`. -/
theorem C51_segment (eps : ℝ) (h0 : 0 < eps) (o a b c : V3) (h : Orthonormal a b c) (e f g : ℝ) (p q : V3)
    (hs : (cub o a b c e f g).containsSegment eps ⟨some p, some q⟩ = .ok true) : SegSet p q ⊆ BoxSet o a b c (e + eps) (f + eps) (g + eps) := by
  have hc : ∀ x, (cub o a b c e f g).contains eps (some x) = .ok true → |(x - o).dot a| ≤ e + eps ∧ |(x - o).dot b| ≤ f + eps ∧ |(x - o).dot c| ≤ g + eps := by
    intro x hx
    rw [cub_contains] at hx
    simp only [Except.ok.injEq, abs_lt] at hx
    split_ifs at hx with c1 c2 c3
    · simp only [Bool.and_eq_true, decide_eq_true_eq] at hx
      exact ⟨by linarith [c1.2], by linarith [hx.1], by linarith [hx.2]⟩
    · simp only [Bool.and_eq_true, decide_eq_true_eq] at hx
      exact ⟨by linarith [hx.1], by linarith [c2.2], by linarith [hx.2]⟩
    · simp only [Bool.and_eq_true, decide_eq_true_eq] at hx
      exact ⟨by linarith [hx.1], by linarith [hx.2], by linarith [c3.2]⟩
  have hpq : (cub o a b c e f g).contains eps (some p) = .ok true ∧ (cub o a b c e f g).contains eps (some q) = .ok true := by
    rw [cub_contains] at *
    simp only [Cuboid3.containsSegment, Seg3.isDefined, Option.isSome_some, Bool.and_self, Bool.not_true, Bool.false_eq_true, if_false, allOf,
      cub_contains] at hs
    split at hs
    · cases hs
    · cases hs
    · rename_i h1
      refine ⟨h1, ?_⟩
      split at hs
      · cases hs
      · cases hs
      · assumption
  obtain ⟨p1, p2, p3⟩ := hc p hpq.1
  obtain ⟨q1, q2, q3⟩ := hc q hpq.2
  rintro x ⟨s, s0, s1, rfl⟩
  rw [mem_boxSet h]
  have lin : ∀ v : V3, (p + s • (q - p) - o).dot v = (1 - s) * (p - o).dot v + s * (q - o).dot v := fun v => by
    simp only [V3.dot, V3.add_x, V3.add_y, V3.add_z, V3.sub_x, V3.sub_y, V3.sub_z, V3.smul_x, V3.smul_y, V3.smul_z]; ring
  have conv : ∀ x y m : ℝ, |x| ≤ m → |y| ≤ m → |(1 - s) * x + s * y| ≤ m := by
    intro x y m hx hy
    rw [abs_le] at *
    constructor <;> nlinarith
  rw [lin, lin, lin]
  exact ⟨conv _ _ _ p1 q1, conv _ _ _ p2 q2, conv _ _ _ p3 q3⟩

example : (cub 0 V3.X V3.Y V3.Z 1 1 1).containsSegment 1 ⟨some (0 + (1 : ℝ) • V3.X), some (0 - (1 : ℝ) • V3.X)⟩ = .ok true := by
  refine (C51_segment_violated 1 one_pos 0 V3.X V3.Y V3.Z ⟨?_, ?_, ?_, ?_, ?_, ?_⟩ 1 1 1 le_rfl le_rfl le_rfl).1
  · exact V3.norm_of_normSq_one (by norm_num [V3.normSq, V3.dot, V3.X])
  · exact V3.norm_of_normSq_one (by norm_num [V3.normSq, V3.dot, V3.Y])
  · exact V3.norm_of_normSq_one (by norm_num [V3.normSq, V3.dot, V3.Z])
  all_goals norm_num [V3.dot, V3.X, V3.Y, V3.Z]

/-- **C51.** `intersects (Line)` says whether the line meets the box, its inside included. -/
theorem C51_line (o a b c : V3) (h : Orthonormal a b c) (e f g : ℝ) (he : 0 ≤ e) (hf : 0 ≤ f) (hg : 0 ≤ g) (p d : V3) (hd : d ≠ 0) :
    ∃ r, (cub o a b c e f g).intersectsLine ⟨some p, some d⟩ = .ok r ∧ (r = true ↔ (LineSet p d ∩ BoxSet o a b c e f g).Nonempty) := by
  refine ⟨_, rfl, ?_⟩
  have hne : (⟨d.dot a, d.dot b, d.dot c⟩ : V3) ≠ 0 := by
    intro h0
    rw [V3.ext_iff] at h0
    simp only [V3.zero_x, V3.zero_y, V3.zero_z] at h0
    apply hd
    rw [Orthonormal.expand h d, h0.1, h0.2.1, h0.2.2]
    ext <;> simp
  rw [Gte.testLineBox_iff hne he hf hg]
  dsimp only
  have lin : ∀ (t : ℝ) (v : V3), (p + t • d - o).dot v = (p - o).dot v + t * d.dot v := fun t v => by
    simp only [V3.dot, V3.add_x, V3.add_y, V3.add_z, V3.sub_x, V3.sub_y, V3.sub_z, V3.smul_x, V3.smul_y, V3.smul_z]; ring
  constructor
  · rintro ⟨t, h1, h2, h3⟩
    refine ⟨p + t • d, ⟨t, rfl⟩, ?_⟩
    rw [mem_boxSet h, lin, lin, lin]; exact ⟨h1, h2, h3⟩
  · rintro ⟨x, ⟨t, rfl⟩, hx⟩
    rw [mem_boxSet h, lin, lin, lin] at hx
    exact ⟨t, hx⟩

example : Orthonormal ⟨3 / 5, 4 / 5, 0⟩ ⟨-4 / 5, 3 / 5, 0⟩ ⟨0, 0, 1⟩ ∧ (0 : ℝ) ≤ 2 ∧ (⟨1, 0, 0⟩ : V3) ≠ 0 :=
  ⟨orthonormal_example, by norm_num, fun h => by simpa using congrArg V3.x h⟩

/-- **C51.** `intersects (Cuboid)` says whether the two boxes have a common point: the fifteen axes tried suffice. -/
theorem C51_cuboid (o a b c : V3) (h : Orthonormal a b c) (e f g : ℝ) (he : 0 ≤ e) (hf : 0 ≤ f) (hg : 0 ≤ g)
    (o' a' b' c' : V3) (h' : Orthonormal a' b' c') (e' f' g' : ℝ) (he' : 0 ≤ e') (hf' : 0 ≤ f') (hg' : 0 ≤ g') :
    ∃ r, (cub o a b c e f g).intersectsCuboid (cub o' a' b' c' e' f' g') = .ok r ∧
      (r = true ↔ (BoxSet o a b c e f g ∩ BoxSet o' a' b' c' e' f' g').Nonempty) := by
  refine ⟨_, rfl, ?_⟩
  set n := ![a, b, c, a', b', c'] with hn
  set x := ![e, f, g, e', f', g'] with hx
  have hx0 : ∀ k, 0 ≤ x k := by intro k; fin_cases k <;> simpa [hx]
  have hsep : ∀ l, Gte.separates l (o' - o) [e • a, f • b, g • c] [e' • a', f' • b', g' • c'] = true ↔
      0 < beyond n x (o' - o) l ∨ 0 < beyond n x (o' - o) (-l) := by
    intro l
    have hneg : ∀ v : V3, (-l).dot v = -(l.dot v) := fun v => by simp only [V3.dot, V3.neg_x, V3.neg_y, V3.neg_z]; ring
    have hsum : ∀ u : V3, ∑ k, x k * |u.dot (n k)| = e * |u.dot a| + f * |u.dot b| + g * |u.dot c| + e' * |u.dot a'| + f' * |u.dot b'| + g' * |u.dot c'| :=
      fun u => by simp [Fin.sum_univ_six, hx, hn]
    simp only [Gte.separates, beyond, hsum, hneg, abs_neg, List.map_cons, List.map_nil, List.sum_cons, List.sum_nil, V3.dot_smul, abs_mul,
      abs_of_nonneg he, abs_of_nonneg hf, abs_of_nonneg hg, abs_of_nonneg he', abs_of_nonneg hf', abs_of_nonneg hg', decide_eq_true_eq]
    rw [gt_iff_lt, lt_abs]
    constructor
    · rintro (h | h)
      · left; linarith
      · right; linarith
    · rintro (h | h)
      · left; linarith
      · right; linarith
  have hmem : (BoxSet o a b c e f g ∩ BoxSet o' a' b' c' e' f' g').Nonempty ↔ ∃ s : Fin 6 → ℝ, (∀ k, |s k| ≤ x k) ∧ o' - o = V3.comb s n := by
    constructor
    · rintro ⟨p, ⟨x1, x2, x3, hp, b1, b2, b3⟩, y1, y2, y3, hp', d1, d2, d3⟩
      refine ⟨![x1, x2, x3, -y1, -y2, -y3], ?_, ?_⟩
      · intro k; fin_cases k <;> simpa [hx]
      · rw [hp, V3.ext_iff] at hp'
        simp only [V3.add_x, V3.add_y, V3.add_z, V3.smul_x, V3.smul_y, V3.smul_z] at hp'
        ext
        · simp [V3.comb, Fin.sum_univ_six, hn]; linarith [hp'.1]
        · simp [V3.comb, Fin.sum_univ_six, hn]; linarith [hp'.2.1]
        · simp [V3.comb, Fin.sum_univ_six, hn]; linarith [hp'.2.2]
    · rintro ⟨s, hs, hd⟩
      refine ⟨o + s 0 • a + s 1 • b + s 2 • c, ⟨s 0, s 1, s 2, rfl, hs 0, hs 1, hs 2⟩, -s 3, -s 4, -s 5, ?_, by rw [abs_neg]; exact hs 3,
        by rw [abs_neg]; exact hs 4, by rw [abs_neg]; exact hs 5⟩
      rw [V3.ext_iff] at hd
      simp [V3.comb, Fin.sum_univ_six, hn] at hd
      ext
      · simp; linarith [hd.1]
      · simp; linarith [hd.2.1]
      · simp; linarith [hd.2.2]
  rw [hmem]
  have htest : Gte.testBoxBox (o' - o) [a, b, c] [a', b', c'] [e • a, f • b, g • c] [e' • a', f' • b', g' • c'] = true ↔
      ∀ l ∈ boxAxes a b c a' b' c', ¬(0 < beyond n x (o' - o) l ∨ 0 < beyond n x (o' - o) (-l)) := by
    rw [Gte.testBoxBox, Bool.not_eq_true', List.any_eq_false]
    refine forall_congr' fun l => ?_
    rw [hsep]; rfl
  rw [htest]
  constructor
  · intro hall
    rcases mem_or_beyond n x hx0 (o' - o) with hm | ⟨u, hu⟩
    · exact hm
    · obtain ⟨l, hl, hb⟩ := boxAxes_beyond h h' x (o' - o) u hu
      exact absurd hb (hall l hl)
  · rintro ⟨s, hs, hd⟩ l - hb
    rcases hb with hb | hb
    · exact beyond_not_mem n x _ _ hb s hs hd
    · exact beyond_not_mem n x _ _ hb s hs hd

example : Orthonormal ⟨3 / 5, 4 / 5, 0⟩ ⟨-4 / 5, 3 / 5, 0⟩ ⟨0, 0, 1⟩ ∧ Orthonormal ⟨0, 0, 1⟩ ⟨3 / 5, 4 / 5, 0⟩ ⟨-4 / 5, 3 / 5, 0⟩ ∧ (0 : ℝ) ≤ 2 := by
  refine ⟨orthonormal_example, ⟨?_, ?_, ?_, ?_, ?_, ?_⟩, by norm_num⟩
  · exact orthonormal_example.2.2.1
  · exact orthonormal_example.1
  · exact orthonormal_example.2.1
  all_goals norm_num [V3.dot]

/-- the set of points determines the centre of a box -/
theorem box_center {o a b c o' a' b' c' : V3} {e f g e' f' g' : ℝ} (h : Orthonormal a b c) (h' : Orthonormal a' b' c') (he : 0 ≤ e) (hf : 0 ≤ f)
    (hg : 0 ≤ g) (hs : BoxSet o a b c e f g = BoxSet o' a' b' c' e' f' g') : o = o' := by
  -- the box is moved onto itself by twice the difference of the centres
  have hmove : ∀ p ∈ BoxSet o a b c e f g, p + (2 : ℝ) • (o' - o) ∈ BoxSet o a b c e f g := by
    intro p hp
    have h1 : (2 : ℝ) • o - p ∈ BoxSet o a b c e f g := by
      obtain ⟨x, y, z, rfl, h1, h2, h3⟩ := hp
      exact ⟨-x, -y, -z, by ext <;> simp <;> ring, by rwa [abs_neg], by rwa [abs_neg], by rwa [abs_neg]⟩
    rw [hs] at h1 ⊢
    obtain ⟨x, y, z, hp, h1, h2, h3⟩ := h1
    refine ⟨-x, -y, -z, ?_, by rwa [abs_neg], by rwa [abs_neg], by rwa [abs_neg]⟩
    rw [V3.ext_iff] at hp ⊢
    simp only [V3.add_x, V3.add_y, V3.add_z, V3.smul_x, V3.smul_y, V3.smul_z, V3.sub_x, V3.sub_y, V3.sub_z] at hp ⊢
    exact ⟨by linarith [hp.1], by linarith [hp.2.1], by linarith [hp.2.2]⟩
  -- so no coordinate of the difference is other than zero
  have hsgn : ∀ (x : ℝ), ∃ s : ℝ, |s| = 1 ∧ s * x = |x| := fun x => by
    rcases le_total 0 x with hx | hx
    · exact ⟨1, by simp, by rw [one_mul, abs_of_nonneg hx]⟩
    · exact ⟨-1, by simp, by rw [neg_one_mul, abs_of_nonpos hx]⟩
  have hcoord : ∀ x y z : ℝ, |x| ≤ e → |y| ≤ f → |z| ≤ g → |x + 2 * (o' - o).dot a| ≤ e ∧ |y + 2 * (o' - o).dot b| ≤ f ∧ |z + 2 * (o' - o).dot c| ≤ g := by
    intro x y z hx hy hz
    have := hmove _ ⟨x, y, z, rfl, hx, hy, hz⟩
    rw [mem_boxSet h] at this
    have lin : ∀ v : V3, (o + x • a + y • b + z • c + (2 : ℝ) • (o' - o) - o).dot v = (o + x • a + y • b + z • c - o).dot v + 2 * (o' - o).dot v := fun v => by
      simp only [V3.dot, V3.add_x, V3.add_y, V3.add_z, V3.sub_x, V3.sub_y, V3.sub_z, V3.smul_x, V3.smul_y, V3.smul_z]; ring
    obtain ⟨e1, e2, e3⟩ := Orthonormal.point_coords h o x y z
    rwa [lin, lin, lin, e1, e2, e3] at this
  have zero : ∀ (m t : ℝ), 0 ≤ m → (∀ x, |x| ≤ m → |x + 2 * t| ≤ m) → t = 0 := by
    intro m t hm hh
    obtain ⟨s, hs1, hs2⟩ := hsgn t
    have h1 := hh (s * m) (by rw [abs_mul, hs1, one_mul, abs_of_nonneg hm])
    have h2 : |s * (s * m + 2 * t)| = |s * m + 2 * t| := by rw [abs_mul, hs1, one_mul]
    have h3 : s * (s * m + 2 * t) = m + 2 * |t| := by
      have : s * s = 1 := by rw [← abs_mul_abs_self, hs1, one_mul]
      rw [← hs2]; linear_combination m * this
    rw [← h2, h3, abs_of_nonneg (by positivity)] at h1
    exact abs_eq_zero.1 (le_antisymm (by linarith) (abs_nonneg t))
  have z1 := zero e _ he fun x hx => (hcoord x 0 0 hx (by simpa) (by simpa)).1
  have z2 := zero f _ hf fun x hx => (hcoord 0 x 0 (by simpa) hx (by simpa)).2.1
  have z3 := zero g _ hg fun x hx => (hcoord 0 0 x (by simpa) (by simpa) hx).2.2
  have := Orthonormal.expand h (o' - o)
  rw [z1, z2, z3, V3.ext_iff] at this
  simp only [V3.add_x, V3.add_y, V3.add_z, V3.smul_x, V3.smul_y, V3.smul_z, V3.sub_x, V3.sub_y, V3.sub_z, zero_mul, add_zero] at this
  ext <;> [linarith [this.1]; linarith [this.2.1]; linarith [this.2.2]]

/-- the distance of the points of a box from its centre -/
theorem box_normSq {a b c : V3} (h : Orthonormal a b c) (o : V3) (x y z : ℝ) : (o + x • a + y • b + z • c - o).normSq = x ^ 2 + y ^ 2 + z ^ 2 := by
  obtain ⟨h1, h2, h3⟩ := Orthonormal.norms h
  obtain ⟨-, -, -, h4, h5, h6⟩ := h
  simp only [V3.normSq, V3.dot, V3.add_x, V3.add_y, V3.add_z, V3.sub_x, V3.sub_y, V3.sub_z, V3.smul_x, V3.smul_y, V3.smul_z] at *
  linear_combination x ^ 2 * h1 + y ^ 2 * h2 + z ^ 2 * h3 + 2 * x * y * h4 + 2 * x * z * h5 + 2 * y * z * h6

/-- the set of points of a box determines its corners: they are the points farthest from the centre -/
theorem box_corners {o a b c a' b' c' : V3} {e f g e' f' g' : ℝ} (h : Orthonormal a b c) (h' : Orthonormal a' b' c') (he : 0 ≤ e) (hf : 0 ≤ f)
    (hg : 0 ≤ g) (he' : 0 ≤ e') (hf' : 0 ≤ f') (hg' : 0 ≤ g')
    (hs : BoxSet o a b c e f g = BoxSet o a' b' c' e' f' g') : CornerSet o a b c e f g = CornerSet o a' b' c' e' f' g' := by
  have key : ∀ {a b c : V3} {e f g : ℝ}, Orthonormal a b c → 0 ≤ e → 0 ≤ f → 0 ≤ g →
      CornerSet o a b c e f g = {p ∈ BoxSet o a b c e f g | ∀ q ∈ BoxSet o a b c e f g, (q - o).normSq ≤ (p - o).normSq} := by
    intro a b c e f g h he hf hg
    have sq_le : ∀ {x m : ℝ}, |x| ≤ m → x ^ 2 ≤ m ^ 2 := fun {x m} hx => sq_le_sq' (by linarith [(abs_le.1 hx).1]) (abs_le.1 hx).2
    have sq_of : ∀ {x m : ℝ}, |x| = m → x ^ 2 = m ^ 2 := fun {x m} hx => by rw [← hx, sq_abs]
    ext p
    constructor
    · rintro ⟨x, y, z, rfl, hx, hy, hz⟩
      refine ⟨⟨x, y, z, rfl, hx.le, hy.le, hz.le⟩, ?_⟩
      rintro q ⟨x', y', z', rfl, hx', hy', hz'⟩
      rw [box_normSq h, box_normSq h, sq_of hx, sq_of hy, sq_of hz]
      linarith [sq_le hx', sq_le hy', sq_le hz']
    · rintro ⟨⟨x, y, z, rfl, hx, hy, hz⟩, hmax⟩
      have := hmax _ ⟨e, f, g, rfl, by rw [abs_of_nonneg he], by rw [abs_of_nonneg hf], by rw [abs_of_nonneg hg]⟩
      rw [box_normSq h, box_normSq h] at this
      have h1 := sq_le hx
      have h2 := sq_le hy
      have h3 := sq_le hz
      refine ⟨x, y, z, rfl, ?_, ?_, ?_⟩
      · rw [← abs_of_nonneg he]; exact (sq_eq_sq_iff_abs_eq_abs _ _).1 (by linarith)
      · rw [← abs_of_nonneg hf]; exact (sq_eq_sq_iff_abs_eq_abs _ _).1 (by linarith)
      · rw [← abs_of_nonneg hg]; exact (sq_eq_sq_iff_abs_eq_abs _ _).1 (by linarith)
  rw [key h he hf hg, key h' he' hf' hg', hs]

/-- the same axis up to sign, with the same extent -/
def Same (a : V3) (e : ℝ) (a' : V3) (e' : ℝ) : Prop := (a = a' ∨ a = -a') ∧ e = e'

/-- the axes and extents of the first box are those of the second in some order -/
def SameAxes (a b c : V3) (e f g : ℝ) (a' b' c' : V3) (e' f' g' : ℝ) : Prop :=
      (Same a e a' e' ∧ Same b f b' f' ∧ Same c g c' g') ∨
      (Same a e a' e' ∧ Same b f c' g' ∧ Same c g b' f') ∨
      (Same a e b' f' ∧ Same b f a' e' ∧ Same c g c' g') ∨
      (Same a e b' f' ∧ Same b f c' g' ∧ Same c g a' e') ∨
      (Same a e c' g' ∧ Same b f a' e' ∧ Same c g b' f') ∨
      (Same a e c' g' ∧ Same b f b' f' ∧ Same c g a' e')

theorem same_of_smul {a a' : V3} (h : a.norm = 1) (h' : a'.norm = 1) {e e' s : ℝ} (he : 0 < e) (hs : |s| = e') (hv : e • a = s • a') : Same a e a' e' := by
  have h1 : e = e' := by
    have := congrArg V3.norm hv
    rwa [V3.norm_smul, V3.norm_smul, h, h', mul_one, mul_one, abs_of_pos he, hs] at this
  refine ⟨?_, h1⟩
  subst h1
  rw [V3.ext_iff] at hv
  simp only [V3.smul_x, V3.smul_y, V3.smul_z] at hv
  rcases abs_choice s with h2 | h2
  · left
    rw [h2] at hs; subst hs
    ext
    · exact mul_left_cancel₀ he.ne' hv.1
    · exact mul_left_cancel₀ he.ne' hv.2.1
    · exact mul_left_cancel₀ he.ne' hv.2.2
  · right
    rw [h2] at hs
    have h3 : s = -e := by linarith
    subst h3
    ext
    · simp only [V3.neg_x]; exact mul_left_cancel₀ he.ne' (by linarith [hv.1])
    · simp only [V3.neg_y]; exact mul_left_cancel₀ he.ne' (by linarith [hv.2.1])
    · simp only [V3.neg_z]; exact mul_left_cancel₀ he.ne' (by linarith [hv.2.2])

/-- the set of points of a box determines its axes and extents -/
theorem box_axes {o a b c a' b' c' : V3} {e f g e' f' g' : ℝ} (h : Orthonormal a b c) (h' : Orthonormal a' b' c') (he : 0 < e) (hf : 0 < f)
    (hg : 0 < g) (he' : 0 < e') (hf' : 0 < f') (hg' : 0 < g')
    (hs : BoxSet o a b c e f g = BoxSet o a' b' c' e' f' g') : SameAxes a b c e f g a' b' c' e' f' g' := by
  have hc := box_corners h h' he.le hf.le hg.le he'.le hf'.le hg'.le hs
  have corner : ∀ x y z : ℝ, |x| = e → |y| = f → |z| = g → |x * a.dot a' + y * b.dot a' + z * c.dot a'| = e' ∧
      |x * a.dot b' + y * b.dot b' + z * c.dot b'| = f' ∧ |x * a.dot c' + y * b.dot c' + z * c.dot c'| = g' := by
    intro x y z hx hy hz
    have hm : o + x • a + y • b + z • c ∈ CornerSet o a b c e f g := ⟨x, y, z, rfl, hx, hy, hz⟩
    rw [hc, mem_cornerSet h'] at hm
    have lin : ∀ v : V3, (o + x • a + y • b + z • c - o).dot v = x * a.dot v + y * b.dot v + z * c.dot v := fun v => by
      simp only [V3.dot, V3.add_x, V3.add_y, V3.add_z, V3.sub_x, V3.sub_y, V3.sub_z, V3.smul_x, V3.smul_y, V3.smul_z]; ring
    rwa [lin, lin, lin] at hm
  have c0 := corner e f g (abs_of_pos he) (abs_of_pos hf) (abs_of_pos hg)
  have c1 := corner (-e) f g (by rw [abs_neg, abs_of_pos he]) (abs_of_pos hf) (abs_of_pos hg)
  have c2 := corner e (-f) g (abs_of_pos he) (by rw [abs_neg, abs_of_pos hf]) (abs_of_pos hg)
  have c3 := corner e f (-g) (abs_of_pos he) (abs_of_pos hf) (by rw [abs_neg, abs_of_pos hg])
  -- of the three terms of a coordinate just one is not zero
  have col : ∀ p q r m : ℝ, 0 < m → |p + q + r| = m → |-p + q + r| = m → |p + -q + r| = m → |p + q + -r| = m →
      (|p| = m ∧ q = 0 ∧ r = 0) ∨ (p = 0 ∧ |q| = m ∧ r = 0) ∨ (p = 0 ∧ q = 0 ∧ |r| = m) := by
    intro p q r m hm h0 h1 h2 h3
    have sq : ∀ x : ℝ, |x| = m → x ^ 2 = m ^ 2 := fun x hx => by rw [← hx, sq_abs]
    have s0 := sq _ h0
    have s1 := sq _ h1
    have s2 := sq _ h2
    have s3 := sq _ h3
    have e1 : p * (q + r) = 0 := by linarith
    have e2 : q * (p + r) = 0 := by linarith
    have e3 : r * (p + q) = 0 := by linarith
    have f1 : p * q = 0 := by linarith
    have f2 : p * r = 0 := by linarith
    have f3 : q * r = 0 := by linarith
    rcases mul_eq_zero.1 f1 with hp | hq
    · rcases mul_eq_zero.1 f3 with hq | hr
      · exact .inr (.inr ⟨hp, hq, by simpa [hp, hq] using h0⟩)
      · exact .inr (.inl ⟨hp, by simpa [hp, hr] using h0, hr⟩)
    · rcases mul_eq_zero.1 f2 with hp | hr
      · exact .inr (.inr ⟨hp, hq, by simpa [hp, hq] using h0⟩)
      · exact .inl ⟨by simpa [hq, hr] using h0, hq, hr⟩
  have k1 := col (e * a.dot a') (f * b.dot a') (g * c.dot a') e' he' c0.1 (by simpa using c1.1) (by simpa using c2.1) (by simpa using c3.1)
  have k2 := col (e * a.dot b') (f * b.dot b') (g * c.dot b') f' hf' c0.2.1 (by simpa using c1.2.1) (by simpa using c2.2.1) (by simpa using c3.2.1)
  have k3 := col (e * a.dot c') (f * b.dot c') (g * c.dot c') g' hg' c0.2.2 (by simpa using c1.2.2) (by simpa using c2.2.2) (by simpa using c3.2.2)
  -- an axis in terms of the others
  have ex : ∀ (v : V3) (x : ℝ), x • v = (x * v.dot a') • a' + (x * v.dot b') • b' + (x * v.dot c') • c' := by
    intro v x
    have := Orthonormal.expand h' v
    conv_lhs => rw [this]
    ext <;> simp <;> ring
  have none : ∀ (v : V3) (x : ℝ), v.norm = 1 → 0 < x → x * v.dot a' = 0 → x * v.dot b' = 0 → x * v.dot c' = 0 → False := by
    intro v x hv hx h1 h2 h3
    have h4 := congrArg V3.norm (ex v x)
    rw [h1, h2, h3, V3.norm_smul, hv, mul_one, abs_of_pos hx, show (0 : ℝ) • a' + (0 : ℝ) • b' + (0 : ℝ) • c' = 0 by ext <;> simp, V3.norm_zero] at h4
    exact hx.ne' h4
  have first : ∀ (v : V3) (x : ℝ), v.norm = 1 → 0 < x → |x * v.dot a'| = e' → x * v.dot b' = 0 → x * v.dot c' = 0 → Same v x a' e' := by
    intro v x hv hx h1 h2 h3
    refine same_of_smul hv h'.1 hx h1 ?_
    conv_lhs => rw [ex v x, h2, h3]
    ext <;> simp
  have second : ∀ (v : V3) (x : ℝ), v.norm = 1 → 0 < x → x * v.dot a' = 0 → |x * v.dot b'| = f' → x * v.dot c' = 0 → Same v x b' f' := by
    intro v x hv hx h1 h2 h3
    refine same_of_smul hv h'.2.1 hx h2 ?_
    conv_lhs => rw [ex v x, h1, h3]
    ext <;> simp
  have third : ∀ (v : V3) (x : ℝ), v.norm = 1 → 0 < x → x * v.dot a' = 0 → x * v.dot b' = 0 → |x * v.dot c'| = g' → Same v x c' g' := by
    intro v x hv hx h1 h2 h3
    refine same_of_smul hv h'.2.2.1 hx h3 ?_
    conv_lhs => rw [ex v x, h1, h2]
    ext <;> simp
  have ha := h.1
  have hb := h.2.1
  have hc := h.2.2.1
  rcases k1 with ⟨p1, q1, r1⟩ | ⟨p1, q1, r1⟩ | ⟨p1, q1, r1⟩ <;> rcases k2 with ⟨p2, q2, r2⟩ | ⟨p2, q2, r2⟩ | ⟨p2, q2, r2⟩ <;>
    rcases k3 with ⟨p3, q3, r3⟩ | ⟨p3, q3, r3⟩ | ⟨p3, q3, r3⟩ <;> first
      | exact (none a e ha he p1 p2 p3).elim
      | exact (none b f hb hf q1 q2 q3).elim
      | exact (none c g hc hg r1 r2 r3).elim
      | exact .inl ⟨first a e ha he p1 p2 p3, second b f hb hf q1 q2 q3, third c g hc hg r1 r2 r3⟩
      | exact .inr (.inl ⟨first a e ha he p1 p2 p3, third b f hb hf q1 q2 q3, second c g hc hg r1 r2 r3⟩)
      | exact .inr (.inr (.inl ⟨second a e ha he p1 p2 p3, first b f hb hf q1 q2 q3, third c g hc hg r1 r2 r3⟩))
      | exact .inr (.inr (.inr (.inl ⟨second a e ha he p1 p2 p3, third b f hb hf q1 q2 q3, first c g hc hg r1 r2 r3⟩)))
      | exact .inr (.inr (.inr (.inr (.inl ⟨third a e ha he p1 p2 p3, first b f hb hf q1 q2 q3, second c g hc hg r1 r2 r3⟩))))
      | exact .inr (.inr (.inr (.inr (.inr (⟨third a e ha he p1 p2 p3, second b f hb hf q1 q2 q3, first c g hc hg r1 r2 r3⟩)))))

theorem sameAxis_iff {a b : V3} {e f : ℝ} : Cuboid3.sameAxis a b e f = true ↔ Same a e b f := by simp [Cuboid3.sameAxis, Same]

/-- an axis is not the same as two different orthonormal ones -/
theorem same_unique {a b c : V3} {e f g : ℝ} (hb : b.norm = 1) (hbc : b.dot c = 0) (h1 : Same a e b f) (h2 : Same a e c g) : False := by
  have e1 : b.dot b = 1 := by have := V3.norm_sq b; rw [hb] at this; simpa [V3.normSq] using this.symm
  have key : b = c ∨ b = -c := by
    rcases h1.1 with r | r <;> rcases h2.1 with r' | r'
    · left; rw [← r, r']
    · right; rw [← r, r']
    · right
      rw [V3.ext_iff] at r r' ⊢
      simp only [V3.neg_x, V3.neg_y, V3.neg_z] at *
      exact ⟨by linarith [r.1, r'.1], by linarith [r.2.1, r'.2.1], by linarith [r.2.2, r'.2.2]⟩
    · left
      rw [V3.ext_iff] at r r' ⊢
      simp only [V3.neg_x, V3.neg_y, V3.neg_z] at *
      exact ⟨by linarith [r.1, r'.1], by linarith [r.2.1, r'.2.1], by linarith [r.2.2, r'.2.2]⟩
  rcases key with k | k
  · rw [← k, e1] at hbc; exact one_ne_zero hbc
  · have : b.dot b = -(b.dot c) := by
      conv_lhs => rw [k]
      rw [k]; simp only [V3.dot, V3.neg_x, V3.neg_y, V3.neg_z]; ring
    rw [e1, hbc] at this; norm_num at this

theorem same_box {a a' : V3} {e e' : ℝ} (h : Same a e a' e') (v : V3) : |v.dot a| ≤ e ↔ |v.dot a'| ≤ e' := by
  obtain ⟨r | r, h2⟩ := h
  · rw [r, h2]
  · rw [r, h2, show v.dot (-a') = -(v.dot a') by simp only [V3.dot, V3.neg_x, V3.neg_y, V3.neg_z]; ring, abs_neg]

theorem eq_sameAxes {o a b c o' a' b' c' : V3} {e f g e' f' g' : ℝ} (h' : Orthonormal a' b' c') :
    (cub o a b c e f g).eq (cub o' a' b' c' e' f' g') = true ↔ o = o' ∧ SameAxes a b c e f g a' b' c' e' f' g' := by
  have eqn : (cub o a b c e f g).eq (cub o' a' b' c' e' f' g') =
      if o = o' then
        if Cuboid3.sameAxis a a' e e' then
          if Cuboid3.sameAxis b b' f f' then Cuboid3.sameAxis c c' g g'
          else if Cuboid3.sameAxis b c' f g' then Cuboid3.sameAxis c b' g f'
          else false
        else if Cuboid3.sameAxis a b' e f' then
          if Cuboid3.sameAxis b a' f e' then Cuboid3.sameAxis c c' g g'
          else if Cuboid3.sameAxis b c' f g' then Cuboid3.sameAxis c a' g e'
          else false
        else if Cuboid3.sameAxis a c' e g' then
          if Cuboid3.sameAxis b a' f e' then Cuboid3.sameAxis c b' g f'
          else if Cuboid3.sameAxis b b' f f' then Cuboid3.sameAxis c a' g e'
          else false
        else false
      else false := by
    simp only [Cuboid3.eq, cub, Cuboid3.need]
  rw [eqn]
  obtain ⟨n1, n2, n3, o1, o2, o3⟩ := h'
  have u1 : ∀ (v : V3) (x : ℝ), Same v x a' e' → ¬ Same v x b' f' := fun v x k k' => same_unique n1 o1 k k'
  have u2 : ∀ (v : V3) (x : ℝ), Same v x a' e' → ¬ Same v x c' g' := fun v x k k' => same_unique n1 o2 k k'
  have u3 : ∀ (v : V3) (x : ℝ), Same v x b' f' → ¬ Same v x c' g' := fun v x k k' => same_unique n2 o3 k k'
  have ha1 := u1 a e
  have ha2 := u2 a e
  have ha3 := u3 a e
  have hb1 := u1 b f
  have hb2 := u2 b f
  have hb3 := u3 b f
  clear u1 u2 u3 eqn
  simp only [← sameAxis_iff, SameAxes] at *
  by_cases ho : o = o'
  · simp only [ho, if_true, true_and]
    cases h1 : Cuboid3.sameAxis a a' e e' <;> cases h2 : Cuboid3.sameAxis a b' e f' <;> cases h3 : Cuboid3.sameAxis a c' e g' <;>
      simp [h1, h2, h3] at ha1 ha2 ha3 ⊢ <;>
      cases h4 : Cuboid3.sameAxis b a' f e' <;> cases h5 : Cuboid3.sameAxis b b' f f' <;> cases h6 : Cuboid3.sameAxis b c' f g' <;>
      simp [h4, h5, h6] at hb1 hb2 hb3 ⊢
  · simp [ho]

/-- **C51.** Two cuboids with orthonormal axes and positive extents are equal exactly if they have the same points, whatever the order and the
signs of their axes. -/
theorem C51_eq {o a b c o' a' b' c' : V3} {e f g e' f' g' : ℝ} (h : Orthonormal a b c) (h' : Orthonormal a' b' c') (he : 0 < e) (hf : 0 < f)
    (hg : 0 < g) (he' : 0 < e') (hf' : 0 < f') (hg' : 0 < g') :
    (cub o a b c e f g).eq (cub o' a' b' c' e' f' g') = true ↔ BoxSet o a b c e f g = BoxSet o' a' b' c' e' f' g' := by
  rw [eq_sameAxes h']
  constructor
  · rintro ⟨rfl, hs⟩
    ext p
    rw [mem_boxSet h, mem_boxSet h']
    rcases hs with ⟨k1, k2, k3⟩ | ⟨k1, k2, k3⟩ | ⟨k1, k2, k3⟩ | ⟨k1, k2, k3⟩ | ⟨k1, k2, k3⟩ | ⟨k1, k2, k3⟩ <;>
      rw [same_box k1, same_box k2, same_box k3] <;> tauto
  · intro hs
    have ho := box_center h h' he.le hf.le hg.le hs
    subst ho
    exact ⟨rfl, box_axes h h' he hf hg he' hf' hg' hs⟩

/-- a box given by its axes in another order and with other signs -/
example : (cub 0 V3.X V3.Y V3.Z 1 2 3).eq (cub 0 (-V3.Y) V3.Z V3.X 2 3 1) = true := by
  have h0 : Orthonormal V3.X V3.Y V3.Z := by
    refine ⟨?_, ?_, ?_, ?_, ?_, ?_⟩ <;> simp [V3.norm, V3.normSq, V3.dot, V3.X, V3.Y, V3.Z]
  have h : Orthonormal (-V3.Y) V3.Z V3.X := by
    refine ⟨?_, ?_, ?_, ?_, ?_, ?_⟩ <;> simp [V3.norm, V3.normSq, V3.dot, V3.X, V3.Y, V3.Z]
  rw [C51_eq h0 h (by norm_num) (by norm_num) (by norm_num) (by norm_num) (by norm_num) (by norm_num)]
  ext p
  rw [mem_boxSet h0, mem_boxSet h]
  have : (p - 0).dot (-V3.Y) = -((p - 0).dot V3.Y) := by simp only [V3.dot, V3.neg_x, V3.neg_y, V3.neg_z]; ring
  rw [this, abs_neg]; tauto

/-- **C51.** A violation: cuboids that are equal for `operator ==` need not contain the same points. Beside an edge, at half the tolerance from a face, the order of the axes decides. -/
theorem C51_order_violated (eps : ℝ) (h0 : 0 < eps) : (cub 0 V3.X V3.Y V3.Z 1 1 1).eq (cub 0 V3.Y V3.X V3.Z 1 1 1) = true ∧
    (cub 0 V3.X V3.Y V3.Z 1 1 1).contains eps (some ⟨1 + eps / 2, 1, 0⟩) = .ok true ∧ (cub 0 V3.Y V3.X V3.Z 1 1 1).contains eps (some ⟨1 + eps / 2, 1, 0⟩) = .ok false := by
  have x : |1 + eps / 2| = 1 + eps / 2 := abs_of_pos (by linarith)
  have h : |eps / 2| = eps / 2 := abs_of_pos (by linarith)
  have k : Orthonormal V3.X V3.Y V3.Z := by refine ⟨?_, ?_, ?_, ?_, ?_, ?_⟩ <;> simp [V3.norm, V3.normSq, V3.dot, V3.X, V3.Y, V3.Z]
  have k' : Orthonormal V3.Y V3.X V3.Z := by refine ⟨?_, ?_, ?_, ?_, ?_, ?_⟩ <;> simp [V3.norm, V3.normSq, V3.dot, V3.X, V3.Y, V3.Z]
  refine ⟨?_, ?_, ?_⟩
  · rw [C51_eq k k' zero_lt_one zero_lt_one zero_lt_one zero_lt_one zero_lt_one zero_lt_one]
    ext p
    rw [mem_boxSet k, mem_boxSet k']
    tauto
  · rw [cub_contains]
    simp [V3.dot, V3.X, V3.Y, V3.Z, x, h, h0]
  · rw [cub_contains]
    simp [V3.dot, V3.X, V3.Y, V3.Z, x, h0]

/-- **C51.** A transformation built from the factories moves the box with its points, and `contains` with them. -/
theorem C51_moved (eps : ℝ) (h0 : 0 < eps) (h1 : eps ≤ 1) (t : T3) (ht : Built3 eps t) (o a b c : V3) (h : Orthonormal a b c) (e f g : ℝ) :
    ∃ o' a' b' c', (cub o a b c e f g).applyTransformation t = .ok (cub o' a' b' c' e f g) ∧ Orthonormal a' b' c' ∧
      ∀ p, ∃ p', P3.applyTransformation t (some p) = .ok (some p') ∧ (p' ∈ BoxSet o' a' b' c' e f g ↔ p ∈ BoxSet o a b c e f g) ∧
        (p' ∈ FaceSet o' a' b' c' e f g ↔ p ∈ FaceSet o a b c e f g) ∧
        (cub o' a' b' c' e f g).contains eps (some p') = (cub o a b c e f g).contains eps (some p) := by
  obtain ⟨l, v, s⟩ := built3_shape h0 h1 ht
  have hl := s.1
  have hpt : ∀ q, t.applyTo (some q) = .ok (some (move l v q)) := fun q => (shape_moves s).1 q
  have ho : Orthonormal (l.mulVec a) (l.mulVec b) (l.mulVec c) := by
    obtain ⟨h1, h2, h3, h4, h5, h6⟩ := h
    refine ⟨?_, ?_, ?_, ?_, ?_, ?_⟩ <;> simp only [M3.mulVec_norm hl, M3.mulVec_dot hl] <;> assumption
  have hu : ∀ w : V3, w.norm = 1 → (l.mulVec w).normalized = l.mulVec w := fun w hw =>
    V3.normalized_of_unit (V3.normSq_of_unit (by rw [M3.mulVec_norm hl, hw]))
  refine ⟨move l v o, l.mulVec a, l.mulVec b, l.mulVec c, ?_, ho, ?_⟩
  · by_cases hi : t.type = .identity
    · obtain ⟨rfl, rfl⟩ := s.2.2.2.2.1 hi
      have e1 : ∀ w : V3, M3.one.mulVec w = w := fun w => by ext <;> simp [M3.one, M3.mulVec]
      have e2 : ∀ w : V3, move M3.one 0 w = w := fun w => by simp [move, e1]; ext <;> simp
      simp only [e1, e2]
      simp [Cuboid3.applyTransformation, shape_defined s, cub, Cuboid3.need, T3.isIdentity, hi, bind, Except.bind, pure, Except.pure]
    · simp only [Cuboid3.applyTransformation, shape_defined s, cub, Cuboid3.need, T3.isIdentity, hi, bind, Except.bind, pure, Except.pure, hpt,
        shape_vector s, Bool.not_true, Bool.false_eq_true, if_false, decide_false, Option.map_some, hu a h.1, hu b h.2.1, hu c h.2.2.1,
        M3.mulVec_norm hl, h.1, h.2.1, h.2.2.1, mul_one]
  · intro p
    refine ⟨move l v p, shape_point s p, ?_, ?_, ?_⟩
    · rw [mem_boxSet ho, mem_boxSet h, move_sub, M3.mulVec_dot hl, M3.mulVec_dot hl, M3.mulVec_dot hl]
    · rw [mem_faceSet ho, mem_faceSet h, mem_boxSet ho, mem_boxSet h, move_sub, M3.mulVec_dot hl, M3.mulVec_dot hl, M3.mulVec_dot hl]
    · rw [cub_contains, cub_contains, move_sub, M3.mulVec_dot hl, M3.mulVec_dot hl, M3.mulVec_dot hl]

example : Built3 1 ⟨.translation, some !![1, 0, 0, 1; 0, 1, 0, 2; 0, 0, 1, 3; 0, 0, 0, 1], true⟩ ∧
    Orthonormal ⟨3 / 5, 4 / 5, 0⟩ ⟨-4 / 5, 3 / 5, 0⟩ ⟨0, 0, 1⟩ := ⟨Built3.translation (some ⟨1, 2, 3⟩) _ rfl, orthonormal_example⟩

/-- **C51.** A cube has the unit axes and its extent as half extents; an undefined centre or extent is refused. -/
theorem C51_cube :
    (∀ (o : V3) (e : ℝ), ∃ q, Cuboid3.Cube (some o) (some e) = .ok q ∧ q = cub o V3.X V3.Y V3.Z e e e ∧
      BoxSet o V3.X V3.Y V3.Z e e e = {p | |p.x - o.x| ≤ e ∧ |p.y - o.y| ≤ e ∧ |p.z - o.z| ≤ e}) ∧
    (∀ o e, o = none ∨ e = none → Cuboid3.Cube o e = .error .undefined) := by
  constructor
  · intro o e
    refine ⟨_, rfl, rfl, ?_⟩
    ext p
    rw [mem_boxSet ⟨V3.norm_of_normSq_one (by norm_num [V3.normSq, V3.dot, V3.X]), V3.norm_of_normSq_one (by norm_num [V3.normSq, V3.dot, V3.Y]),
      V3.norm_of_normSq_one (by norm_num [V3.normSq, V3.dot, V3.Z]), by norm_num [V3.dot, V3.X, V3.Y], by norm_num [V3.dot, V3.X, V3.Z],
      by norm_num [V3.dot, V3.Y, V3.Z]⟩]
    simp [V3.dot, V3.X, V3.Y, V3.Z]
  · rintro (_ | o) (_ | e) h
    · rfl
    · rfl
    · rfl
    · simp at h

example : (none : Option V3) = none ∨ (some (1 : ℝ)) = none := .inl rfl

theorem cuboid_need_undefined {c : Cuboid3} (h : c.isDefined = false) : c.need = .error .undefined := by
  obtain ⟨_ | o, _ | a, _ | b, _ | c, _ | e, _ | f, _ | g⟩ := c <;> first | rfl | (simp [Cuboid3.isDefined] at h)

/-- **C51.** Undefined cuboids are refused, and equal to nothing. -/
theorem C51_undefined (eps : ℝ) (c : Cuboid3) (h : c.isDefined = false) (d : Cuboid3) (p : Option V3) (ps : List (Option V3)) (l : Line3) (s : Seg3) (t : T3)
    (tol : Option ℝ) :
    c.eq d = false ∧ d.eq c = false ∧ c.isNear d tol = .error .undefined ∧ d.isNear c tol = .error .undefined ∧
    c.contains eps p = .error .undefined ∧ c.intersectsPoint eps p = .error .undefined ∧ c.containsSet eps ps = .error .undefined ∧
    c.intersectsSet eps ps = .error .undefined ∧ c.intersectsLine l = .error .undefined ∧ c.intersectsCuboid d = .error .undefined ∧
    d.intersectsCuboid c = .error .undefined ∧ c.containsSegment eps s = .error .undefined ∧ c.getVertices = .error .undefined ∧
    c.applyTransformation t = .error .undefined ∧ c.getCenter = .error .undefined ∧ c.getFirstAxis = .error .undefined ∧
    c.getSecondAxis = .error .undefined ∧ c.getThirdAxis = .error .undefined ∧ c.getFirstExtent = .error .undefined ∧
    c.getSecondExtent = .error .undefined ∧ c.getThirdExtent = .error .undefined := by
  have hn := cuboid_need_undefined h
  have hc : ∀ p, c.contains eps p = .error .undefined := fun p => by cases p <;> simp [Cuboid3.contains, Verif.need, hn, bind, Except.bind]
  have hv : c.getVertices = .error .undefined := by simp [Cuboid3.getVertices, hn, bind, Except.bind]
  refine ⟨by simp [Cuboid3.eq, hn], by simp [Cuboid3.eq, hn], ?_, by simp [Cuboid3.isNear, h], hc p, hc p, by simp [Cuboid3.containsSet, h],
    by simp [Cuboid3.intersectsSet, h], by simp [Cuboid3.intersectsLine, hn, bind, Except.bind], by simp [Cuboid3.intersectsCuboid, hn, bind, Except.bind],
    ?_, ?_, hv, ?_, ?_, ?_, ?_, ?_, ?_, ?_, ?_⟩
  · cases hd : d.isDefined <;> cases tol <;> simp [Cuboid3.isNear, hd, hv, bind, Except.bind]
  · cases hd : d.need with
    | error x => cases hdd : d.isDefined with
      | false => rw [cuboid_need_undefined hdd] at hd; cases hd; simp [Cuboid3.intersectsCuboid, cuboid_need_undefined hdd, bind, Except.bind]
      | true =>
        obtain ⟨_ | o, _ | a, _ | b, _ | c, _ | e, _ | f, _ | g⟩ := d <;> first | (simp [Cuboid3.isDefined] at hdd; done) | (simp [Cuboid3.need] at hd)
    | ok q => simp [Cuboid3.intersectsCuboid, hn, hd, bind, Except.bind]
  · cases hs : s.isDefined <;> simp [Cuboid3.containsSegment, hs, allOf, hc]
  · cases htd : t.isDefined <;> simp [Cuboid3.applyTransformation, htd, hn, bind, Except.bind]
  all_goals simp [Cuboid3.getCenter, Cuboid3.getFirstAxis, Cuboid3.getSecondAxis, Cuboid3.getThirdAxis, Cuboid3.getFirstExtent, Cuboid3.getSecondExtent,
    Cuboid3.getThirdExtent, hn, bind, Except.bind]

example : Cuboid3.isDefined Cuboid3.Undefined = false ∧ Cuboid3.isDefined ⟨some 0, some V3.X, some V3.Y, some V3.Z, some 1, none, some 1⟩ = false := ⟨rfl, rfl⟩

theorem head_affine (m : Matrix (Fin 4) (Fin 4) ℝ) (o a b c : V3) (x y z : ℝ) :
    T3.head m (o + x • a + y • b + z • c) 1 = T3.head m o 1 + x • T3.head m a 0 + y • T3.head m b 0 + z • T3.head m c 0 := by
  ext <;> simp [T3.head, Matrix.mulVec, dotProduct, Fin.sum_univ_succ] <;> ring

theorem dot_normalized_zero {u v : V3} (h : u.dot v = 0) : u.normalized.dot v.normalized = 0 := by
  have key : ∀ v : V3, ∃ k : ℝ, v.normalized = k • v := fun v => by
    unfold V3.normalized; split
    · exact ⟨_, rfl⟩
    · exact ⟨1, by ext <;> simp⟩
  obtain ⟨k, hk⟩ := key u; obtain ⟨l, hl⟩ := key v
  have : (k • u).dot (l • v) = k * l * u.dot v := by simp [V3.dot]; ring
  rw [hk, hl, this, h, mul_zero]

/-- **C51.** A transformation that keeps the axes of a cuboid at right angles, whatever its stretching, makes the cuboid whose solid is the image of the solid:
the extents are stretched with the axes. -/
theorem C51_stretched (t : T3) (hd : t.isDefined = true) (hi : t.type ≠ .identity) (m : Matrix (Fin 4) (Fin 4) ℝ) (hm : t.matrix = some m)
    (o a b c : V3) (e f g : ℝ) (ha : T3.head m a 0 ≠ 0) (hb : T3.head m b 0 ≠ 0) (hc : T3.head m c 0 ≠ 0)
    (hab : (T3.head m a 0).dot (T3.head m b 0) = 0) (hac : (T3.head m a 0).dot (T3.head m c 0) = 0) (hbc : (T3.head m b 0).dot (T3.head m c 0) = 0) :
    ∃ o' a' b' c' e' f' g', (cub o a b c e f g).applyTransformation t = .ok (cub o' a' b' c' e' f' g') ∧ Orthonormal a' b' c' ∧
      ∀ q, q ∈ BoxSet o' a' b' c' e' f' g' ↔ ∃ p ∈ BoxSet o a b c e f g, t.applyTo (some p) = .ok (some q) := by
  have pos : ∀ {v : V3}, v ≠ 0 → 0 < v.norm := fun h => V3.norm_pos (V3.normSq_pos_of_ne h)
  refine ⟨T3.head m o 1, (T3.head m a 0).normalized, (T3.head m b 0).normalized, (T3.head m c 0).normalized,
    e * (T3.head m a 0).norm, f * (T3.head m b 0).norm, g * (T3.head m c 0).norm, ?_, ?_, ?_⟩
  · simp [Cuboid3.applyTransformation, hd, cub, Cuboid3.need, T3.isIdentity, hi, bind, Except.bind, pure, Except.pure, T3.applyTo, T3.applyToVector, hm, Verif.need]
  · exact ⟨V3.norm_normalized (V3.normSq_pos_of_ne ha), V3.norm_normalized (V3.normSq_pos_of_ne hb), V3.norm_normalized (V3.normSq_pos_of_ne hc),
      dot_normalized_zero hab, dot_normalized_zero hac, dot_normalized_zero hbc⟩
  · intro q
    have key : ∀ p, t.applyTo (some p) = .ok (some (T3.head m p 1)) := fun p => by
      simp [T3.applyTo, hm, Verif.need, bind, Except.bind, pure, Except.pure]
    constructor
    · rintro ⟨x, y, z, rfl, hx, hy, hz⟩
      refine ⟨o + (x / (T3.head m a 0).norm) • a + (y / (T3.head m b 0).norm) • b + (z / (T3.head m c 0).norm) • c, ⟨_, _, _, rfl, ?_, ?_, ?_⟩, ?_⟩
      · rw [abs_div, abs_of_pos (pos ha)]; exact (div_le_iff₀ (pos ha)).2 hx
      · rw [abs_div, abs_of_pos (pos hb)]; exact (div_le_iff₀ (pos hb)).2 hy
      · rw [abs_div, abs_of_pos (pos hc)]; exact (div_le_iff₀ (pos hc)).2 hz
      · rw [key, head_affine, ← Gte.smul_norm _ (T3.head m a 0), ← Gte.smul_norm _ (T3.head m b 0), ← Gte.smul_norm _ (T3.head m c 0),
          div_mul_cancel₀ _ (pos ha).ne', div_mul_cancel₀ _ (pos hb).ne', div_mul_cancel₀ _ (pos hc).ne']
    · rintro ⟨p, ⟨x, y, z, rfl, hx, hy, hz⟩, h⟩
      rw [key, Except.ok.injEq, Option.some.injEq, head_affine] at h
      refine ⟨x * (T3.head m a 0).norm, y * (T3.head m b 0).norm, z * (T3.head m c 0).norm, ?_, ?_, ?_, ?_⟩
      · rw [Gte.smul_norm, Gte.smul_norm, Gte.smul_norm, h]
      · rw [abs_mul, abs_of_pos (pos ha)]; exact mul_le_mul_of_nonneg_right hx (pos ha).le
      · rw [abs_mul, abs_of_pos (pos hb)]; exact mul_le_mul_of_nonneg_right hy (pos hb).le
      · rw [abs_mul, abs_of_pos (pos hc)]; exact mul_le_mul_of_nonneg_right hz (pos hc).le

/-- Such transformations can be made: a matrix within the precision of the identity is accepted, and then composed with a translation. -/
example (prec : ℝ) (hp : 0 < prec) : ∃ (s r t : T3) (m : Matrix (Fin 4) (Fin 4) ℝ), T3.ctor prec (some (Matrix.diagonal ![1 + prec, 1, 1, 1])) = .ok s ∧
    T3.Translation (some ⟨1, 2, 3⟩) = .ok r ∧ s.mul r = .ok t ∧ t.isDefined = true ∧ t.type ≠ .identity ∧ t.matrix = some m ∧
    T3.head m V3.X 0 = ⟨1 + prec, 0, 0⟩ ∧ T3.head m V3.Y 0 = V3.Y ∧ T3.head m V3.Z 0 = V3.Z := by
  have h : nearIdentity prec (Matrix.diagonal ![1 + prec, 1, 1, 1]) := by
    intro i j
    have h1 : (1 : ℝ) ≤ |1 + prec| := by rw [abs_of_pos (by linarith)]; linarith
    fin_cases i <;> fin_cases j <;> simp [Matrix.diagonal, hp.le, abs_of_pos hp, min_eq_right h1]
  refine ⟨⟨.identity, some (Matrix.diagonal ![1 + prec, 1, 1, 1]), T3.IsRigid prec (some (Matrix.diagonal ![1 + prec, 1, 1, 1]))⟩, _, _, _,
    by simp only [T3.ctor, if_pos h], rfl, rfl, rfl, by simp [TType.compose], rfl, ?_, ?_, ?_⟩ <;>
    ext <;> simp [T3.head, Matrix.mulVec, dotProduct, Fin.sum_univ_succ, Matrix.mul_apply, Matrix.diagonal, V3.X, V3.Y, V3.Z]

end Verif.Props
