import Verif.Lemmas.DoublePoints

/-!
# C135: Point sets and line strings in double precision
-/

namespace Verif.Props

open Verif Verif.Spec Verif.Double

/-- **C135.** The distance of a point to a set of points is that of Euclid, up to rounding. -/
theorem C135_distance (o : Bool) {p : V3} (hp : Within p) {qs : List V3} (h : qs ≠ []) (hq : ∀ q ∈ qs, Within q) :
    ∃ r d, DPoints.distanceTo o (qs.map doubles) (doubles p) = .ok (.fin r) ∧ IsDistance {q | q ∈ qs} p d ∧ |r - d| ≤ 36 / 10 / 2 ^ 53 * d + 2 ^ (-535 : ℤ) := by
  have u0 := DQuat.u_pos
  have us := DQuat.u_small
  obtain ⟨r, e, m, l⟩ := distance_set_fin o hp h hq
  obtain ⟨d, hd⟩ := exact_distance p h
  refine ⟨r, d, e, hd, ?_⟩
  rw [e53 (36 / 10)]
  obtain ⟨⟨x, hx, ex⟩, hl⟩ := hd
  obtain ⟨y, hy, ey⟩ := List.mem_map.1 m
  have n1 := (abs_le.1 (dist_near o hp (hq x hx))).2
  have n2 := (abs_le.1 (dist_near o hp (hq y hy))).1
  rw [ex] at n1
  rw [ey] at n2
  have l1 := l x hx
  have l2 := hl y hy
  have k : (1 - 36 / 10 * DQuat.u) * d ≤ (1 - 36 / 10 * DQuat.u) * (y - p).norm := mul_le_mul_of_nonneg_left l2 (by linarith)
  exact abs_le.2 ⟨by linarith, by linarith⟩

/-- **C135.** The closest point of a set, or of a line string, is a point of it, and no other one is closer by more than rounding. -/
theorem C135_closest (o : Bool) {p : V3} (hp : Within p) {qs : List V3} (h : qs ≠ []) (hq : ∀ q ∈ qs, Within q) :
    ∃ r ∈ qs, DPoints.getPointClosestTo o (qs.map doubles) (doubles p) = .ok (doubles r) ∧ ∀ x ∈ qs, (r - p).norm ≤ (1 + 8 / 2 ^ 53) * (x - p).norm + 2 ^ (-533 : ℤ) := by
  have u0 := DQuat.u_pos
  have us := DQuat.u_small
  obtain ⟨r, hr, e, l⟩ := closest_fin o hp h hq
  refine ⟨r, hr, e, fun x hx => ?_⟩
  have k : dist3 o r p ≤ dist3 o x p := rnd_mono (Real.sqrt_le_sqrt (l x hx))
  rw [dist3_comm o r, dist3_comm o x] at k
  have n1 := (abs_le.1 (dist_near o hp (hq r hr))).1
  have n2 := (abs_le.1 (dist_near o hp (hq x hx))).2
  rw [e53 8]
  have z : (2 : ℝ) ^ (-533 : ℤ) = 4 * 2 ^ (-535 : ℤ) := by
    rw [show (-533 : ℤ) = -535 + 2 by norm_num, zpow_add₀ two_ne_zero]
    norm_num [mul_comm]
  have z0 := two_zpow_pos (α := ℝ) (-535)
  rw [z]
  generalize (2 : ℝ) ^ (-535 : ℤ) = τ at *
  have r0 := V3.norm_nonneg (r - p)
  have x0 := V3.norm_nonneg (x - p)
  generalize (r - p).norm = R at *
  generalize (x - p).norm = X at *
  have s : (1 - 36 / 10 * DQuat.u) * R ≤ (1 + 36 / 10 * DQuat.u) * X + 2 * τ := by linarith
  by_contra hh
  push Not at hh
  have s2 : (1 - 36 / 10 * DQuat.u) * ((1 + 8 * DQuat.u) * X + 4 * τ) < (1 - 36 / 10 * DQuat.u) * R := mul_lt_mul_of_pos_left hh (by linarith)
  have s3 : 0 ≤ (8 / 10 * DQuat.u - 36 / 10 * 8 * DQuat.u * DQuat.u) * X := mul_nonneg (by nlinarith) x0
  have s4 : 0 ≤ (2 - 4 * 36 / 10 * DQuat.u) * τ := mul_nonneg (by linarith) z0.le
  nlinarith

/-- **C135.** The distance of a point to a set is exactly the computed distance of the point to the closest point. -/
theorem C135_agree (o : Bool) {p : V3} (hp : Within p) {qs : List V3} (h : qs ≠ []) (hq : ∀ q ∈ qs, Within q) :
    ∃ r q, DPoints.distanceTo o (qs.map doubles) (doubles p) = .ok r ∧ DPoints.getPointClosestTo o (qs.map doubles) (doubles p) = .ok q ∧ DPoint.distanceTo o (doubles p) q = .ok r := by
  obtain ⟨r, e, m, l⟩ := distance_set_fin o hp h hq
  obtain ⟨q, hr, e', l'⟩ := closest_fin o hp h hq
  refine ⟨_, _, e, e', ?_⟩
  rw [distance_fin o hp (hq q hr)]
  congr 2
  refine le_antisymm ?_ (l q hr)
  obtain ⟨y, hy, rfl⟩ := List.mem_map.1 m
  have k : dist3 o q p ≤ dist3 o y p := rnd_mono (Real.sqrt_le_sqrt (l' y hy))
  rwa [dist3_comm o q, dist3_comm o y] at k

/-- **C135.** A point of the set is at distance zero, exactly. -/
theorem C135_member (o : Bool) {p : V3} {qs : List V3} (hq : ∀ q ∈ qs, Within q) (h : p ∈ qs) : DPoints.distanceTo o (qs.map doubles) (doubles p) = .ok (.fin 0) := by
  obtain ⟨r, e, m, l⟩ := distance_set_fin o (hq p h) (List.ne_nil_of_mem h) hq
  have := l p h
  rw [dist3_self] at this
  obtain ⟨y, hy, rfl⟩ := List.mem_map.1 m
  rw [e, le_antisymm this (dist3_nonneg o p y)]

/-- **C135.** The distance of a segment to a set of points is the least of the computed distances of its points, each as accurate as C118 says. -/
theorem C135_segment (o : Bool) {a b : V3} (ha : Small a) (hb : Small b) {qs : List V3} (h : qs ≠ []) (hq : ∀ q ∈ qs, Small q) :
    ∃ (r : ℝ) (d : V3 → ℝ), DPoints.segmentDistanceTo o (doubles a) (doubles b) (qs.map doubles) = .ok (.fin r) ∧ (∀ q ∈ qs, IsDistance (SegSet a b) q (d q)) ∧
      (∀ q ∈ qs, r ≤ d q + ((2 * a.norm + 4 * (b - a).norm + 18 * (q - a).norm) / 2 ^ 53 + 2 ^ (-199 : ℤ))) ∧
      ∃ q ∈ qs, |r - d q| ≤ (2 * a.norm + 4 * (b - a).norm + 18 * (q - a).norm) / 2 ^ 53 + 2 ^ (-199 : ℤ) := by
  have key : ∀ q : V3, ∃ f : ℝ × ℝ, q ∈ qs → DSegment.distanceTo o (doubles a) (doubles b) (doubles q) = .ok (.fin f.1) ∧ IsDistance (SegSet a b) q f.2 ∧
      |f.1 - f.2| ≤ (2 * a.norm + 4 * (b - a).norm + 18 * (q - a).norm) / 2 ^ 53 + 2 ^ (-199 : ℤ) := fun q => by
    by_cases hqq : q ∈ qs
    · obtain ⟨r, d, h1, h2, -, h4⟩ := C118_short o ha hb (hq q hqq)
      exact ⟨(r, d), fun _ => ⟨h1, h2, h4⟩⟩
    · exact ⟨(0, 0), fun k => absurd k hqq⟩
  choose f hf using key
  obtain ⟨r, e, m, l⟩ := least_fin (ds := qs.map (fun q => (f q).1)) (by simpa using h)
  have mm : mapRes (fun q => DSegment.distanceTo o (doubles a) (doubles b) q) (qs.map doubles) = .ok ((qs.map (fun q => (f q).1)).map .fin) := by
    rw [mapRes_map, mapRes_ok (g := fun q => F64.fin (f q).1) (fun q h => (hf q h).1), List.map_map]
    rfl
  have ne : (qs.map doubles).isEmpty = false := by cases qs <;> simp at h ⊢
  refine ⟨r, fun q => (f q).2, ?_, fun q h => (hf q h).2.1, fun q h => ?_, ?_⟩
  · rw [DPoints.segmentDistanceTo, doubles_defined, doubles_defined, ne, mm]
    exact e
  · have := l _ (List.mem_map_of_mem (f := fun q => (f q).1) h)
    linarith [(abs_le.1 (hf q h).2.2).2]
  · obtain ⟨q, hqq, rfl⟩ := List.mem_map.1 m
    exact ⟨q, hqq, (hf q hqq).2.2⟩

/-- **C135.** A transformation moves a set of points to the set of the images, each once. -/
theorem C135_move (o : Order4) (m : Fin 4 → Fin 4 → F64 ℝ) {ps qs : List DVec} (h : ps ≠ []) (hm : List.Forall₂ (fun p q => DT3.applyTo o m p = .ok q) ps qs) (hd : ∀ q ∈ qs, q.isDefined = true) :
    ∃ rs, DPoints.applyTransformation o m ps = .ok rs ∧ rs.Nodup ∧ (∀ q, q ∈ rs ↔ ∃ p ∈ ps, DT3.applyTo o m p = .ok q) ∧ rs.length ≤ ps.length ∧ (qs.Nodup → rs.length = ps.length) := by
  have e : mapRes (DT3.applyTo o m) ps = .ok qs := by
    clear h hd
    induction hm with
    | nil => rfl
    | cons h _ ih => simp [mapRes, h, ih]
  obtain ⟨rs, er, n, hr⟩ := insert_all qs [] hd List.nodup_nil
  have ne : ps.isEmpty = false := by cases ps <;> simp at h ⊢
  have hr' : ∀ q, q ∈ rs ↔ q ∈ qs := fun q => by rw [hr]; simp
  refine ⟨rs, ?_, n, fun q => ?_, ?_, fun nq => ?_⟩
  · rw [DPoints.applyTransformation, ne, e]
    exact er
  · rw [hr']
    clear h hd e er n hr hr' ne
    induction hm with
    | nil => simp
    | cons k _ ih =>
      rw [List.mem_cons, ih]
      constructor
      · rintro (rfl | ⟨p, hp, hq⟩)
        · exact ⟨_, by simp, k⟩
        · exact ⟨p, by simp [hp], hq⟩
      · rintro ⟨p, hp, hq⟩
        rcases List.mem_cons.1 hp with rfl | hp
        · rw [k] at hq
          exact Or.inl (Except.ok.inj hq).symm
        · exact Or.inr ⟨p, hp, hq⟩
  · rw [hm.length_eq]
    exact (List.subperm_of_subset n (fun q hq => (hr' q).1 hq)).length_le
  · rw [hm.length_eq]
    exact le_antisymm (List.subperm_of_subset n (fun q hq => (hr' q).1 hq)).length_le (List.subperm_of_subset nq (fun q hq => (hr' q).2 hq)).length_le

/-- **C135, violated.** A translation is not one to one in doubles: a set of two points has one point after it. -/
theorem C135_collapse_violated (o : Order4) : ∃ v : V3, ∃ m, DT3.Translation (doubles v) = .ok m ∧
    DPoints.applyTransformation o m [doubles ⟨0, 0, 0⟩, doubles ⟨1, 0, 0⟩] = .ok [doubles ⟨2 ^ 60, 0, 0⟩] := by
  have z := finite_zero
  have fa : FiniteDoubles ⟨1, 0, 0⟩ := ⟨finite_one, z, z⟩
  have f0 : FiniteDoubles ⟨0, 0, 0⟩ := ⟨z, z, z⟩
  have fv : FiniteDoubles ⟨2 ^ 60, 0, 0⟩ := ⟨big_rep, z, z⟩
  obtain ⟨m, hm, e, -⟩ := C119_translation o fa fv
  obtain ⟨m', hm', e', -⟩ := C119_translation o f0 fv
  obtain rfl : m = m' := Except.ok.inj (hm.symm.trans hm')
  have s1 : (F64.fin (1 : ℝ)).add (.fin (2 ^ 60)) = .fin (2 ^ 60) := by
    rw [F64.add, F64.ofExact_fin] <;> rw [absorb_one]
    exact big_rep.2
  have s0 : (F64.fin (0 : ℝ)).add (.fin (2 ^ 60)) = .fin (2 ^ 60) := by
    rw [F64.add, zero_add, F64.ofExact_fin] <;> rw [rnd_exact big_rep.1]
    exact big_rep.2
  have e1 : (doubles ⟨1, 0, 0⟩).add (doubles ⟨2 ^ 60, 0, 0⟩) = doubles ⟨2 ^ 60, 0, 0⟩ := by simp only [DVec.add, doubles, s1, DT3.zero_add_zero]
  have e0 : (doubles ⟨0, 0, 0⟩).add (doubles ⟨2 ^ 60, 0, 0⟩) = doubles ⟨2 ^ 60, 0, 0⟩ := by simp only [DVec.add, doubles, s0, DT3.zero_add_zero]
  rw [e1] at e
  rw [e0] at e'
  refine ⟨_, m, hm, ?_⟩
  have q : (doubles ⟨2 ^ 60, 0, 0⟩).eq (doubles ⟨2 ^ 60, 0, 0⟩) = true := (eq_iff (doubles_defined _)).2 rfl
  simp [DPoints.applyTransformation, mapRes, e, e', bind, Except.bind, DPoints.insertAll, doubles_defined, q]

/-- **C135, violated.** Below 2⁻⁵⁴⁰ the squares underflow: the closest point of a set to one of its own points is another one. -/
theorem C135_underflow_violated (o : Bool) {a b : V3} (ha : Within a) (hb : Within b) (hx : |a.x - b.x| ≤ 2 ^ (-540 : ℤ)) (hy : |a.y - b.y| ≤ 2 ^ (-540 : ℤ)) (hz : |a.z - b.z| ≤ 2 ^ (-540 : ℤ)) :
    DPoints.getPointClosestTo o [doubles a, doubles b] (doubles b) = .ok (doubles a) := by
  have key := underflow_sq
  have s : sq3 o a b = 0 := by simp [sq3, DVec.dot3, key _ hx, key _ hy, key _ hz, DVec.sum3, rnd_zero]
  have s' : sq3 o b b = 0 := by simp [sq3, DVec.dot3, DVec.sum3, rnd_zero]
  simp [DPoints.getPointClosestTo, DPoints.closestLoop, doubles_defined, sq3_fin o ha hb, sq3_fin o hb hb, s, s', F64.lt, bind, Except.bind]

/-- **C135, violated.** From 2⁶⁰⁰ on the squares overflow: the first point in the order of iteration is taken though another one is at half the distance. -/
theorem C135_overflow_violated (o : Bool) : DPoints.getPointClosestTo o [doubles ⟨2 ^ 601, 0, 0⟩, doubles ⟨2 ^ 600, 0, 0⟩] (doubles ⟨0, 0, 0⟩) = .ok (doubles ⟨2 ^ 601, 0, 0⟩) := by
  have sub0 : ∀ n : ℕ, n ≤ 900 → (F64.fin ((2 : ℝ) ^ n)).sub (.fin 0) = .fin (2 ^ n) := fun n hn => by
    rw [DAngle.sub_fin, sub_zero, F64.ofExact_fin] <;> rw [rnd_exact (DQuat.rep_two n)]
    rw [abs_of_nonneg (by positivity)]
    exact pow_lt_pow_right₀ one_lt_two (by omega)
  have z : (F64.fin (0 : ℝ)).sub (.fin 0) = .fin 0 := by rw [DAngle.sub_fin, sub_self, DT3.zero_fin]
  have sq : ∀ n : ℕ, 600 ≤ n → n ≤ 900 → ((doubles ⟨2 ^ n, 0, 0⟩).sub (doubles ⟨0, 0, 0⟩)).squaredNorm o = .inf false := fun n hn hn' => by
    simp only [doubles, DVec.sub, sub0 n hn', z, DVec.squaredNorm, DVec.dot, mul_overflow (show 1024 ≤ n + n by omega), zero_mul_zero, DVec.sum]
    cases o <;> simp only [Bool.false_eq_true, if_false, if_true, zero_add_zero] <;> rfl
  simp [DPoints.getPointClosestTo, DPoints.closestLoop, doubles_defined, sq, F64.lt, bind, Except.bind]

/-- **C135.** Empty sets and undefined points, on either side, are refused. -/
theorem C135_throws (o : Bool) (a b p : DVec) (ps : List DVec) :
    (ps = [] ∨ p.isDefined = false → DPoints.distanceTo o ps p = .error .undefined ∧ DPoints.getPointClosestTo o ps p = .error .undefined) ∧
      ((∃ q ∈ ps, q.isDefined = false) → DPoints.distanceTo o ps p = .error .undefined ∧ DPoints.getPointClosestTo o ps p = .error .undefined) ∧
      (ps = [] ∨ a.isDefined = false ∨ b.isDefined = false ∨ (∃ q ∈ ps, q.isDefined = false) → DPoints.segmentDistanceTo o a b ps = .error .undefined) := by
  have some_bad : ∀ {f : DVec → Res (F64 ℝ)} {ps : List DVec}, (∀ q ∈ ps, f q = .error .undefined ∨ ∃ d, f q = .ok d) → (∃ q ∈ ps, f q = .error .undefined) → mapRes f ps = .error .undefined := by
    intro f ps
    induction ps with
    | nil => rintro - ⟨q, hq, -⟩; simp at hq
    | cons a ps ih =>
      rintro h ⟨q, hq, e⟩
      rcases h a (by simp) with k | ⟨d, k⟩
      · simp [mapRes, k]
      · rcases List.mem_cons.1 hq with rfl | hq
        · rw [k] at e; cases e
        · simp [mapRes, k, ih (fun q h' => h q (by simp [h'])) ⟨q, hq, e⟩]
  have loop_bad : ∀ (ps : List DVec) (b : Option DVec) (m : F64 ℝ), (∃ q ∈ ps, q.isDefined = false) → DPoints.closestLoop o p b m ps = .error .undefined := by
    intro ps
    induction ps with
    | nil => rintro - - ⟨q, hq, -⟩; simp at hq
    | cons a ps ih =>
      rintro b m ⟨q, hq, e⟩
      rw [DPoints.closestLoop]
      by_cases ha : a.isDefined = true
      · have : ∃ q ∈ ps, q.isDefined = false := by
          rcases List.mem_cons.1 hq with rfl | hq
          · rw [ha] at e; cases e
          · exact ⟨q, hq, e⟩
        simp only [ih _ _ this, ite_self]
      · simp [ha]
  have dist : ∀ q, DPoint.distanceTo o p q = .error .undefined ∨ ∃ d, DPoint.distanceTo o p q = .ok d := fun q => by
    rw [DPoint.distanceTo]
    split_ifs <;> simp
  have dist' : ∀ x y : DVec, DPoint.distanceTo o x y = .error .undefined ∨ ∃ d, DPoint.distanceTo o x y = .ok d := fun x y => by
    rw [DPoint.distanceTo]
    split_ifs <;> simp
  have seg : ∀ q, DSegment.distanceTo o a b q = .error .undefined ∨ ∃ d, DSegment.distanceTo o a b q = .ok d := fun q => by
    rw [DSegment.distanceTo]
    split_ifs <;> first | exact Or.inl rfl | exact dist' _ _ | skip
    dsimp only
    split_ifs <;> first | exact Or.inl rfl | exact dist' _ _
  refine ⟨?_, ?_, ?_⟩
  · rintro (rfl | h)
    · simp [DPoints.distanceTo, DPoints.getPointClosestTo]
    · simp [DPoints.distanceTo, DPoints.getPointClosestTo, h]
  · rintro ⟨q, hq, e⟩
    have m := some_bad (f := fun q => DPoint.distanceTo o p q) (ps := ps) (fun q _ => dist q) ⟨q, hq, by simp [DPoint.distanceTo, e]⟩
    constructor
    · rw [DPoints.distanceTo, m]
      split_ifs <;> rfl
    · rw [DPoints.getPointClosestTo, loop_bad ps none .nan ⟨q, hq, e⟩]
      split_ifs <;> rfl
  · rintro (rfl | h | h | ⟨q, hq, e⟩)
    · simp [DPoints.segmentDistanceTo]
    · simp [DPoints.segmentDistanceTo, h]
    · simp [DPoints.segmentDistanceTo, h]
    · have m := some_bad (f := fun q => DSegment.distanceTo o a b q) (ps := ps) (fun q _ => seg q) ⟨q, hq, by simp [DSegment.distanceTo, e]⟩
      rw [DPoints.segmentDistanceTo, m]
      split_ifs <;> rfl

/-- a unit point and the origin -/
theorem within_one : Within ⟨1, 0, 0⟩ := ⟨⟨rep_one, by rw [abs_one]; exact one_le_pow₀ one_le_two⟩, ⟨representable_zero, by simp⟩, ⟨representable_zero, by simp⟩⟩

theorem within_origin : Within ⟨0, 0, 0⟩ := ⟨⟨representable_zero, by simp⟩, ⟨representable_zero, by simp⟩, ⟨representable_zero, by simp⟩⟩

example (o : Bool) : ∃ r d, DPoints.distanceTo o ([⟨1, 0, 0⟩, ⟨0, 0, 0⟩].map doubles) (doubles ⟨1, 0, 0⟩) = .ok (.fin r) ∧ IsDistance {q | q ∈ [(⟨1, 0, 0⟩ : V3), ⟨0, 0, 0⟩]} ⟨1, 0, 0⟩ d ∧
    |r - d| ≤ 36 / 10 / 2 ^ 53 * d + 2 ^ (-535 : ℤ) :=
  C135_distance o within_one (by simp) (by simp [within_one, within_origin])

example (o : Bool) : ∃ r ∈ [(⟨1, 0, 0⟩ : V3), ⟨0, 0, 0⟩], DPoints.getPointClosestTo o ([⟨1, 0, 0⟩, ⟨0, 0, 0⟩].map doubles) (doubles ⟨0, 0, 0⟩) = .ok (doubles r) ∧ r.norm ≤ 2 ^ (-533 : ℤ) := by
  obtain ⟨r, hr, e, h⟩ := C135_closest o within_origin (qs := [⟨1, 0, 0⟩, ⟨0, 0, 0⟩]) (by simp) (by simp [within_one, within_origin])
  refine ⟨r, hr, e, ?_⟩
  have := h ⟨0, 0, 0⟩ (by simp)
  simpa [V3.norm, V3.normSq, V3.dot] using this

example (o : Order4) : ∃ rs, DPoints.applyTransformation o DT3.Identity [doubles ⟨1, 0, 0⟩, doubles ⟨0, 0, 0⟩] = .ok rs ∧ rs.Nodup := by
  have f1 : FiniteDoubles ⟨1, 0, 0⟩ := ⟨finite_one, finite_zero, finite_zero⟩
  have f0 : FiniteDoubles ⟨0, 0, 0⟩ := ⟨finite_zero, finite_zero, finite_zero⟩
  obtain ⟨rs, h, n, -⟩ := C135_move o DT3.Identity (ps := [doubles ⟨1, 0, 0⟩, doubles ⟨0, 0, 0⟩]) (by simp)
    (.cons (C119_identity o f1).1 (.cons (C119_identity o f0).1 .nil)) (by simp [doubles_defined])
  exact ⟨rs, h, n⟩

end Verif.Props
