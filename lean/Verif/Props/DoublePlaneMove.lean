import Verif.Lemmas.DoublePlaneMove
import Verif.Lemmas.Points

/-!
# C148: objects of the plane moved several times in double precision

`ts` are transformations made from angles, translation vectors, or points and angles, `ms` the exact motions they stand for (`Makes2`). `o` is the order in which Eigen adds three terms in a product of
matrices, `o'` the one in a product of a matrix and a vector.
-/

namespace Verif.Props

open Verif Verif.Spec Verif.Double

/-- **C148.** A line of the plane that is moved by any sequence of rotations about the origin or about points and of translations in double precision is moved as by the exact motions: the error of its
origin grows by at most `2 ^ -46` of the distances involved with each motion, that of its direction by `2 ^ -46` of its length. Coordinates are not above `2 ^ 480`, motions not more than `2 ^ 40`. -/
theorem C148_line_partial (o o' : Bool) {sin cos : ℝ → ℝ} (hs : Accurate sin Real.sin) (hc : Accurate cos Real.cos) {ts : List DTrans2} {ms : List PlaneMotion}
    (h : List.Forall₂ (Makes2 o sin cos) ts ms) (hn : ms.length ≤ 2 ^ 40) {p d : V2} (hp : Sized2 490 p) (hd : Sized2 490 d) (sp : ‖asComplex p‖ + PlaneMotion.path ms ≤ 2 ^ 480) (sd : ‖asComplex d‖ ≤ 2 ^ 480) :
    ∃ p' d', DTrans2.many (DTrans2.moveLine o') ts (doubles2 p, doubles2 d) = .ok (doubles2 p', doubles2 d') ∧
      ‖asComplex p' - PlaneMotion.points ms (asComplex p)‖ ≤ planeDrift ms.length (‖asComplex p‖ + PlaneMotion.path ms) ∧
      ‖asComplex d' - PlaneMotion.directions ms (asComplex d)‖ ≤ planeDrift ms.length ‖asComplex d‖ := by
  obtain ⟨b, e, n⟩ := (Move2.moved_point o' hs hc h hn ⟨hp.x.1, hp.y.1⟩ sp).1
  obtain ⟨c, f, k⟩ := Move2.moved_direction o' hs hc h hn ⟨hd.x.1, hd.y.1⟩ sd
  refine ⟨b, c, Move2.many_pair (fun T p q a b h1 h2 => ?_) ts _ _ _ _ e f, n, k⟩
  obtain ⟨t1, p1, -⟩ := Move2.point_ok h1
  obtain ⟨q1, rfl⟩ := Move2.turned_ok h2
  simp only [DTrans2.moveLine, t1, p1, q1, h1, bind, Except.bind]; rfl

/-- **C148.** Points, the ends of segments and the points of line strings are each moved with the same error, so that the distances of the points of an object change by no more than the errors of two. -/
theorem C148_points_partial (o o' : Bool) {sin cos : ℝ → ℝ} (hs : Accurate sin Real.sin) (hc : Accurate cos Real.cos) {ts : List DTrans2} {ms : List PlaneMotion}
    (h : List.Forall₂ (Makes2 o sin cos) ts ms) (hn : ms.length ≤ 2 ^ 40) {ps : List V2} (hp : ∀ p ∈ ps, Sized2 490 p ∧ ‖asComplex p‖ + PlaneMotion.path ms ≤ 2 ^ 480) :
    ∃ G : V2 → V2, (∀ p ∈ ps, DTrans2.many (DTrans2.movePoint o') ts (doubles2 p) = .ok (doubles2 (G p)) ∧
        ‖asComplex (G p) - PlaneMotion.points ms (asComplex p)‖ ≤ planeDrift ms.length (‖asComplex p‖ + PlaneMotion.path ms)) ∧
      (∀ p ∈ ps, ∀ q ∈ ps, DTrans2.many (DTrans2.moveSegment o') ts (doubles2 p, doubles2 q) = .ok (doubles2 (G p), doubles2 (G q)) ∧
        |‖asComplex (G p) - asComplex (G q)‖ - ‖asComplex p - asComplex q‖| ≤ planeDrift ms.length (‖asComplex p‖ + PlaneMotion.path ms) + planeDrift ms.length (‖asComplex q‖ + PlaneMotion.path ms)) ∧
      (ps ≠ [] → DTrans2.many (DTrans2.moveLineString o') ts (ps.map doubles2) = .ok (ps.map fun p => doubles2 (G p))) := by
  have ex : ∀ p, ∃ b, p ∈ ps → DTrans2.many (DTrans2.movePoint o') ts (doubles2 p) = .ok (doubles2 b) ∧
      ‖asComplex b - PlaneMotion.points ms (asComplex p)‖ ≤ planeDrift ms.length (‖asComplex p‖ + PlaneMotion.path ms) := fun p => by
    by_cases m : p ∈ ps
    · obtain ⟨b, hb⟩ := (Move2.moved_point o' hs hc h hn ⟨(hp p m).1.x.1, (hp p m).1.y.1⟩ (hp p m).2).1
      exact ⟨b, fun _ => hb⟩
    · exact ⟨p, fun k => absurd k m⟩
  choose G hG using ex
  refine ⟨G, hG, fun p m q m' => ⟨?_, ?_⟩, fun ne => ?_⟩
  · refine Move2.many_pair (fun T p q a b h1 h2 => ?_) ts _ _ _ _ (hG p m).1 (hG q m').1
    obtain ⟨t1, p1, -⟩ := Move2.point_ok h1
    obtain ⟨-, q1, -⟩ := Move2.point_ok h2
    simp only [DTrans2.moveSegment, t1, p1, q1, h1, h2, bind, Except.bind]; rfl
  · exact Move2.distances_near ms (hG p m).2 (hG q m').2
  · refine Move2.many_list (F := DTrans2.movePoint o') (fun T ps cs np hf => ?_) ts _ _ (by simpa using ne) ?_
    · have t1 : T.isDefined = true := by
        cases hf with
        | nil => exact absurd rfl np
        | cons k _ => exact (Move2.point_ok k).1
      rw [DTrans2.moveLineString, t1, if_neg (by simp), if_neg (by simpa using np)]
      clear np
      induction hf with
      | nil => rfl
      | cons k _ ih => simp [mapRes, (Move2.point_ok k).2.2, ih]
    · rw [List.forall₂_map_left_iff, List.forall₂_map_right_iff, List.forall₂_same]
      exact fun p m => (hG p m).1

/-- **C148.** So are the points of the rings of a polygon, all of them in the same way, and distances within a polygon are nearly kept. -/
theorem C148_polygon_partial (o : Bool) {sin cos : ℝ → ℝ} (hs : Accurate sin Real.sin) (hc : Accurate cos Real.cos) {ts : List DTrans2} {ms : List PlaneMotion}
    (h : List.Forall₂ (Makes2 o sin cos) ts ms) (hn : ms.length ≤ 2 ^ 40) {ps : List V2} {rs : List (List V2)} (h3 : 3 ≤ ps.length)
    (hp : ∀ p ∈ ps ++ rs.flatten, Sized2 490 p ∧ ‖asComplex p‖ + PlaneMotion.path ms ≤ 2 ^ 480) :
    ∃ G : V2 → V2, DTrans2.many DTrans2.movePolygon ts (ps.map doubles2, rs.map fun r => r.map doubles2) = .ok (ps.map fun p => doubles2 (G p), rs.map fun r => r.map fun p => doubles2 (G p)) ∧
      (∀ p ∈ ps ++ rs.flatten, ‖asComplex (G p) - PlaneMotion.points ms (asComplex p)‖ ≤ planeDrift ms.length (‖asComplex p‖ + PlaneMotion.path ms)) ∧
      ∀ p ∈ ps ++ rs.flatten, ∀ q ∈ ps ++ rs.flatten,
        |‖asComplex (G p) - asComplex (G q)‖ - ‖asComplex p - asComplex q‖| ≤ planeDrift ms.length (‖asComplex p‖ + PlaneMotion.path ms) + planeDrift ms.length (‖asComplex q‖ + PlaneMotion.path ms) := by
  have ex : ∀ p, ∃ b, p ∈ ps ++ rs.flatten → ts.foldl (fun q T => DTrans2.boostPoint T.matrix q) (doubles2 p) = doubles2 b ∧
      ‖asComplex b - PlaneMotion.points ms (asComplex p)‖ ≤ planeDrift ms.length (‖asComplex p‖ + PlaneMotion.path ms) := fun p => by
    by_cases m : p ∈ ps ++ rs.flatten
    · obtain ⟨b, hb, n⟩ := (Move2.moved_point false hs hc h hn ⟨(hp p m).1.x.1, (hp p m).1.y.1⟩ (hp p m).2).2
      rw [Move2.many_total] at hb
      exact ⟨b, fun _ => ⟨Except.ok.inj hb, n⟩⟩
    · exact ⟨p, fun k => absurd k m⟩
  choose G hG using ex
  refine ⟨G, ?_, fun p m => (hG p m).2, fun p m q m' => Move2.distances_near ms (hG p m).2 (hG q m').2⟩
  rw [Move2.many_polygon (fun T hT => Move2.all_defined hs hc h hT) (by simpa using h3)]
  refine congrArg Except.ok (Prod.ext ?_ ?_)
  · simp only [List.map_map]
    exact List.map_congr_left fun p m => (hG p (List.mem_append_left _ m)).1
  · simp only [List.map_map]
    refine List.map_congr_left fun r m => ?_
    simp only [Function.comp, List.map_map]
    exact List.map_congr_left fun p m' => (hG p (List.mem_append_right _ (List.mem_flatten.2 ⟨r, m, m'⟩))).1

namespace Move2

theorem finite_sized {n : ℕ} (hn : n < 1024) {p : V2} (h : Sized2 n p) : (Representable p.x ∧ |p.x| < 2 ^ 1024) ∧ Representable p.y ∧ |p.y| < 2 ^ 1024 :=
  ⟨⟨h.x.1, h.x.2.trans_lt (pow_lt_pow_right₀ one_lt_two hn)⟩, h.y.1, h.y.2.trans_lt (pow_lt_pow_right₀ one_lt_two hn)⟩

/-- the matrix of a translation, and of the identity if the vector is zero -/
theorem shift_exact (o : Bool) {m : Fin 3 → Fin 3 → F64 ℝ} {p v : V2} (hp : Sized2 1022 p) (hv : Sized2 1022 v) (m0 : m 0 = ![.fin 1, .fin 0, .fin v.x]) (m1 : m 1 = ![.fin 0, .fin 1, .fin v.y]) :
    DT2.applyTo o m (doubles2 p) = .ok (doubles2 ⟨rnd (p.x + v.x), rnd (p.y + v.y)⟩) ∧ DTrans2.boostPoint m (doubles2 p) = doubles2 ⟨rnd (p.x + v.x), rnd (p.y + v.y)⟩ ∧
      DT2.applyToVector o m (doubles2 p) = doubles2 p := by
  obtain ⟨px, py⟩ := finite_sized (by norm_num) hp
  obtain ⟨vx, vy⟩ := finite_sized (by norm_num) hv
  have k : ∀ {x y : ℝ}, |x| ≤ 2 ^ 1022 → |y| ≤ 2 ^ 1022 → (F64.fin x).add (.fin y) = .fin (rnd (x + y)) := fun {x y} hx hy => by
    rw [F64.add]
    refine F64.ofExact_fin (lt_of_le_of_lt (DLinear.rnd_abs_le (DQuat.rep_two 1023) ?_) (DQuat.two_lt (by norm_num)))
    rw [pow_succ, mul_two]
    exact (abs_add_le x y).trans (add_le_add hx hy)
  have kx := k hp.x.2 hv.x.2
  have ky := k hp.y.2 hv.y.2
  have r : ∀ {x y : ℝ}, (F64.fin x).add (.fin y) = .fin (rnd (x + y)) → (F64.fin 0).add (.fin (rnd (x + y))) = .fin (rnd (x + y)) := fun {x y} h => by rw [← h]; exact DT3.zero_add_ofExact _
  refine ⟨?_, ?_, ?_⟩
  · rw [DT2.applyTo, if_neg (by simp [doubles2]), DT2.row, DT2.row, m0, m1]
    cases o <;> simp [DVec.sum, doubles2, DT3.one_mul_fin px.1 px.2, DT3.one_mul_fin py.1 py.2, DT3.zero_mul_fin, DT3.mul_one_fin vx.1 vx.2, DT3.mul_one_fin vy.1 vy.2, DT3.add_zero_fin px.1 px.2,
      DT3.zero_add_fin py.1 py.2, DT3.zero_add_fin vx.1 vx.2, kx, ky, r ky]
  · rw [DTrans2.boostPoint, m0, m1]
    simp [doubles2, DT3.one_mul_fin px.1 px.2, DT3.one_mul_fin py.1 py.2, DT3.zero_mul_fin, DT3.add_zero_fin px.1 px.2, DT3.zero_add_fin py.1 py.2, kx, ky]
  · rw [DT2.applyToVector, DT2.row, DT2.row, m0, m1]
    cases o <;> simp [DVec.sum, doubles2, DT3.one_mul_fin px.1 px.2, DT3.one_mul_fin py.1 py.2, DT3.zero_mul_fin, DT3.mul_zero_fin, DT3.add_zero_fin px.1 px.2, DT3.add_zero_fin py.1 py.2,
      DT3.zero_add_fin py.1 py.2, DT3.zero_add_zero]

/-- what each object becomes -/
theorem shift_objects (o : Bool) {T : DTrans2} (hT : T.isDefined = true) {G : V2 → V2} {ps : List V2} {rs : List (List V2)} {p q : V2}
    (h : ∀ a, a = p ∨ a = q ∨ a ∈ ps ++ rs.flatten → DT2.applyTo o T.matrix (doubles2 a) = .ok (doubles2 (G a)) ∧ DTrans2.boostPoint T.matrix (doubles2 a) = doubles2 (G a) ∧ DT2.applyToVector o T.matrix (doubles2 a) = doubles2 a) :
    DTrans2.moveLine o T (doubles2 p, doubles2 q) = .ok (doubles2 (G p), doubles2 q) ∧ DTrans2.moveSegment o T (doubles2 p, doubles2 q) = .ok (doubles2 (G p), doubles2 (G q)) ∧
    (ps ≠ [] → DTrans2.moveLineString o T (ps.map doubles2) = .ok (ps.map fun a => doubles2 (G a))) ∧
    (3 ≤ ps.length → DTrans2.movePolygon T (ps.map doubles2, rs.map fun r => r.map doubles2) = .ok (ps.map fun a => doubles2 (G a), rs.map fun r => r.map fun a => doubles2 (G a))) := by
  have m1 : ∀ a, a = p ∨ a = q ∨ a ∈ ps ++ rs.flatten → DTrans2.movePoint o T (doubles2 a) = .ok (doubles2 (G a)) := fun a ha => by rw [DTrans2.movePoint, hT, defined_doubles2]; exact (h a ha).1
  refine ⟨?_, ?_, fun ne => ?_, fun h3 => ?_⟩
  · simp only [DTrans2.moveLine, hT, defined_doubles2, m1 p (.inl rfl), bind, Except.bind, (h q (.inr (.inl rfl))).2.2]; rfl
  · simp only [DTrans2.moveSegment, hT, defined_doubles2, m1 p (.inl rfl), m1 q (.inr (.inl rfl)), bind, Except.bind]; rfl
  · rw [DTrans2.moveLineString, hT, if_neg (by simp), if_neg (by simpa using ne), mapRes_map]
    exact mapRes_ok fun a ha => (h a (.inr (.inr (List.mem_append_left _ ha)))).1
  · rw [DTrans2.movePolygon, hT, if_neg (by simp), if_neg (by simpa using h3)]
    refine congrArg Except.ok (Prod.ext ?_ ?_)
    · simp only [List.map_map]
      exact List.map_congr_left fun a m => (h a (.inr (.inr (List.mem_append_left _ m)))).2.1
    · simp only [List.map_map]
      refine List.map_congr_left fun r m => ?_
      simp only [Function.comp, List.map_map]
      exact List.map_congr_left fun a m' => (h a (.inr (.inr (List.mem_append_right _ (List.mem_flatten.2 ⟨r, m, m'⟩))))).2.1

end Move2

/-- **C148.** The identity leaves lines, segments, line strings and polygons as they are. A translation moves each coordinate of a point to the double nearest to the exact sum and leaves directions. -/
theorem C148_exact (o : Bool) {p q v : V2} {ps : List V2} {rs : List (List V2)} (hp : ∀ a, a = p ∨ a = q ∨ a ∈ ps ++ rs.flatten → Sized2 1022 a) (hv : Sized2 1022 v) :
    (DTrans2.moveLine o DTrans2.Identity (doubles2 p, doubles2 q) = .ok (doubles2 p, doubles2 q) ∧ DTrans2.moveSegment o DTrans2.Identity (doubles2 p, doubles2 q) = .ok (doubles2 p, doubles2 q) ∧
      (ps ≠ [] → DTrans2.moveLineString o DTrans2.Identity (ps.map doubles2) = .ok (ps.map doubles2)) ∧
      (3 ≤ ps.length → DTrans2.movePolygon DTrans2.Identity (ps.map doubles2, rs.map fun r => r.map doubles2) = .ok (ps.map doubles2, rs.map fun r => r.map doubles2))) ∧
    ∃ T, DTrans2.Translation (doubles2 v) = .ok T ∧ ∃ G : V2 → V2, (∀ a, NearestDouble (a.x + v.x) (G a).x ∧ NearestDouble (a.y + v.y) (G a).y) ∧
      DTrans2.moveLine o T (doubles2 p, doubles2 q) = .ok (doubles2 (G p), doubles2 q) ∧ DTrans2.moveSegment o T (doubles2 p, doubles2 q) = .ok (doubles2 (G p), doubles2 (G q)) ∧
      (ps ≠ [] → DTrans2.moveLineString o T (ps.map doubles2) = .ok (ps.map fun a => doubles2 (G a))) ∧
      (3 ≤ ps.length → DTrans2.movePolygon T (ps.map doubles2, rs.map fun r => r.map doubles2) = .ok (ps.map fun a => doubles2 (G a), rs.map fun r => r.map fun a => doubles2 (G a))) := by
  constructor
  · refine Move2.shift_objects (G := fun a => a) o (T := DTrans2.Identity) rfl fun a ha => ?_
    have z : Sized2 1022 (⟨0, 0⟩ : V2) := ⟨⟨representable_zero, by rw [abs_zero]; positivity⟩, representable_zero, by rw [abs_zero]; positivity⟩
    have := Move2.shift_exact o (hp a ha) z (m := DT2.Identity) (by funext j; fin_cases j <;> rfl) (by funext j; fin_cases j <;> rfl)
    simp only [add_zero, rnd_exact (hp a ha).x.1, rnd_exact (hp a ha).y.1] at this
    exact this
  · refine ⟨⟨.translation, ![![.fin 1, .fin 0, .fin v.x], ![.fin 0, .fin 1, .fin v.y], ![.fin 0, .fin 0, .fin 1]]⟩, by rw [DTrans2.Translation, DT2.Translation, if_neg (by simp [doubles2])]; rfl,
      fun a => ⟨rnd (a.x + v.x), rnd (a.y + v.y)⟩, fun a => ⟨rnd_nearest _, rnd_nearest _⟩, ?_⟩
    exact Move2.shift_objects o (T := ⟨.translation, _⟩) rfl fun a ha => Move2.shift_exact o (hp a ha) hv rfl rfl

/-- **C148 is violated**, motions do not keep the distances within an object: a triangle moved by a translation far away has three vertices at the same place, and the translation back leaves it so. -/
theorem C148_collapse_violated (o : Bool) : ∃ v : V2, ∃ T T', DTrans2.Translation (doubles2 v) = .ok T ∧ DTrans2.Translation (doubles2 ⟨-v.x, -v.y⟩) = .ok T' ∧
    DTrans2.many DTrans2.movePolygon [T] ([doubles2 ⟨0, 0⟩, doubles2 ⟨1, 0⟩, doubles2 ⟨0, 1⟩], []) = .ok ([doubles2 v, doubles2 v, doubles2 v], []) ∧
    DTrans2.many DTrans2.movePolygon [T, T'] ([doubles2 ⟨0, 0⟩, doubles2 ⟨1, 0⟩, doubles2 ⟨0, 1⟩], []) = .ok ([doubles2 ⟨0, 0⟩, doubles2 ⟨0, 0⟩, doubles2 ⟨0, 0⟩], []) ∧
    DTrans2.many (DTrans2.moveSegment o) [T, T'] (doubles2 ⟨0, 0⟩, doubles2 ⟨1, 0⟩) = .ok (doubles2 ⟨0, 0⟩, doubles2 ⟨0, 0⟩) := by
  have r60 : Representable ((2 : ℝ) ^ 60) := DQuat.rep_two 60
  have l60 : (2 : ℝ) ^ 60 ≤ 2 ^ 1022 := pow_le_pow_right₀ one_le_two (by norm_num)
  have p60 : (0 : ℝ) < 2 ^ 60 := by positivity
  have hv : Sized2 1022 (⟨2 ^ 60, 2 ^ 60⟩ : V2) := ⟨⟨r60, by rw [abs_of_pos p60]; exact l60⟩, r60, by rw [abs_of_pos p60]; exact l60⟩
  have rn : Representable (-(2 : ℝ) ^ 60) := by simpa using representable_neg r60
  have hv' : Sized2 1022 (⟨-2 ^ 60, -2 ^ 60⟩ : V2) := ⟨⟨rn, by rw [abs_neg, abs_of_pos p60]; exact l60⟩, rn, by rw [abs_neg, abs_of_pos p60]; exact l60⟩
  have w : (1 : ℝ) ≤ 2 ^ 1022 := one_le_pow₀ one_le_two
  have n0 : (0 : ℝ) ≤ 2 ^ 1022 := by positivity
  have one : Representable (1 : ℝ) ∧ |(1 : ℝ)| ≤ 2 ^ 1022 := ⟨rep_one, by rw [abs_one]; exact w⟩
  have nul : Representable (0 : ℝ) ∧ |(0 : ℝ)| ≤ 2 ^ 1022 := ⟨representable_zero, by rw [abs_zero]; exact n0⟩
  have e1 : rnd ((1 : ℝ) + 2 ^ 60) = 2 ^ 60 := by
    rw [rnd_eq (2 ^ 52) 8 (by norm_num)]
    · norm_num
    · rw [abs_of_pos (by positivity)]; norm_num
    · rw [abs_of_pos (by positivity)]; norm_num
    · left; norm_num
  have e0 : rnd ((0 : ℝ) + 2 ^ 60) = 2 ^ 60 := by rw [zero_add, rnd_exact r60]
  have e2 : rnd ((2 : ℝ) ^ 60 + -2 ^ 60) = 0 := by rw [add_neg_cancel, rnd_zero]
  generalize (2 : ℝ) ^ 60 = N at *
  clear w n0 l60
  have s := fun {p : V2} (hp : Sized2 1022 p) => Move2.shift_exact o (m := ![![.fin 1, .fin 0, .fin N], ![.fin 0, .fin 1, .fin N], ![.fin 0, .fin 0, .fin 1]]) hp hv rfl rfl
  have s' := Move2.shift_exact o (m := ![![.fin 1, .fin 0, .fin (-N)], ![.fin 0, .fin 1, .fin (-N)], ![.fin 0, .fin 0, .fin 1]]) hv hv' rfl rfl
  have a1 := s (p := ⟨0, 0⟩) ⟨nul, nul⟩
  have a2 := s (p := ⟨1, 0⟩) ⟨one, nul⟩
  have a3 := s (p := ⟨0, 1⟩) ⟨nul, one⟩
  simp only [e0, e1] at a1 a2 a3
  simp only [e2] at s'
  have d : ∀ m, (⟨.translation, m⟩ : DTrans2).isDefined = true := fun m => rfl
  refine ⟨⟨N, N⟩, ⟨.translation, ![![.fin 1, .fin 0, .fin N], ![.fin 0, .fin 1, .fin N], ![.fin 0, .fin 0, .fin 1]]⟩, ⟨.translation, ![![.fin 1, .fin 0, .fin (-N)], ![.fin 0, .fin 1, .fin (-N)], ![.fin 0, .fin 0, .fin 1]]⟩,
    by rw [DTrans2.Translation, DT2.Translation, if_neg (by simp [doubles2])]; rfl, by rw [DTrans2.Translation, DT2.Translation, if_neg (by simp [doubles2])]; rfl, ?_, ?_, ?_⟩
  · rw [Move2.many_polygon (by simp [d]) (by simp)]
    simp only [List.map_cons, List.map_nil, List.foldl_cons, List.foldl_nil, a1.2.1, a2.2.1, a3.2.1]
  · rw [Move2.many_polygon (by simp [d]) (by simp)]
    simp only [List.map_cons, List.map_nil, List.foldl_cons, List.foldl_nil, a1.2.1, a2.2.1, a3.2.1, s'.2.1]
  · simp only [DTrans2.many, DTrans2.moveSegment, DTrans2.movePoint, d, defined_doubles2, a1.1, a2.1, s'.1, Bool.not_true, Bool.or_self, Bool.false_eq_true, if_false, bind, Except.bind, Pure.pure, Except.pure]

/-- **C148.** Undefined transformations and undefined objects are refused. -/
theorem C148_undefined (o : Bool) (t : DTrans2) (p d : DVec2) (ps : List DVec2) (g : List DVec2 × List (List DVec2)) :
    DTrans2.Undefined.isDefined = false ∧
    (t.isDefined = false → DTrans2.movePoint o t p = .error .undefined ∧ DTrans2.moveLine o t (p, d) = .error .undefined ∧ DTrans2.moveSegment o t (p, d) = .error .undefined ∧
      DTrans2.moveLineString o t ps = .error .undefined ∧ DTrans2.movePolygon t g = .error .undefined) ∧
    (p.isDefined = false → DTrans2.movePoint o t p = .error .undefined) ∧
    (p.isDefined = false ∨ d.isDefined = false → DTrans2.moveLine o t (p, d) = .error .undefined ∧ DTrans2.moveSegment o t (p, d) = .error .undefined) ∧
    DTrans2.moveLineString o t [] = .error .undefined ∧ (p.isDefined = false → p ∈ ps → DTrans2.moveLineString o t ps = .error .undefined) ∧ (g.1.length < 3 → DTrans2.movePolygon t g = .error .undefined) := by
  refine ⟨rfl, fun h => ?_, fun h => ?_, fun h => ?_, ?_, fun h m => ?_, fun h => ?_⟩
  · simp [DTrans2.movePoint, DTrans2.moveLine, DTrans2.moveSegment, DTrans2.moveLineString, DTrans2.movePolygon, h]
  · simp [DTrans2.movePoint, h]
  · rcases h with h | h <;> cases t.isDefined <;> simp [DTrans2.moveLine, DTrans2.moveSegment, h]
  · simp [DTrans2.moveLineString]
  · have ne : ps ≠ [] := by rintro rfl; simp at m
    rw [DTrans2.moveLineString]
    cases t.isDefined
    · rfl
    rw [if_neg (by simp), if_neg (by simpa using ne)]
    have hp : p.x = .nan ∨ p.y = .nan := by
      simp only [DVec2.isDefined, decide_eq_false_iff_not] at h
      tauto
    clear ne
    induction ps with
    | nil => simp at m
    | cons q ps ih =>
      by_cases hq : q.x = .nan ∨ q.y = .nan
      · simp [mapRes, DT2.applyTo, hq]
      · rcases List.mem_cons.1 m with rfl | m
        · exact absurd hp hq
        · simp [mapRes, DT2.applyTo, hq] at ih ⊢
          rw [ih m]
  · simp [DTrans2.movePolygon, h]

/-- a turn, a translation and a turn about a point, and a triangle with a hole -/
example (o : Bool) {sin cos : ℝ → ℝ} (hs : Accurate sin Real.sin) (hc : Accurate cos Real.cos) :
    (∃ ts, List.Forall₂ (Makes2 o sin cos) ts [.turn 1, .shift (asComplex ⟨3, 4⟩), .around (asComplex ⟨3, 4⟩) 1]) ∧
      ([.turn 1, .shift (asComplex ⟨3, 4⟩), .around (asComplex ⟨3, 4⟩) 1] : List PlaneMotion).length ≤ 2 ^ 40 ∧
      ∀ p ∈ [⟨0, 0⟩, ⟨3, 4⟩, ⟨4, 3⟩] ++ List.flatten [[⟨3, 4⟩, ⟨4, 4⟩, (⟨4, 3⟩ : V2)]], Sized2 490 p ∧ ‖asComplex p‖ + PlaneMotion.path [.turn 1, .shift (asComplex ⟨3, 4⟩), .around (asComplex ⟨3, 4⟩) 1] ≤ 2 ^ 480 := by
  have r3 : Representable (3 : ℝ) := by simpa using HalfTurn.rep_lit 3 0 (by norm_num) (by norm_num)
  have r4 : Representable (4 : ℝ) := by simpa using HalfTurn.rep_lit 4 0 (by norm_num) (by norm_num)
  have big : ∀ {n : ℕ}, 6 ≤ n → (64 : ℝ) ≤ 2 ^ n := fun {n} hn => by
    have : (2 : ℝ) ^ 6 ≤ 2 ^ n := pow_le_pow_right₀ one_le_two hn
    norm_num at this
    exact this
  have b := big (n := 490) (by norm_num)
  have b' := big (n := 480) (by norm_num)
  have q3 : Representable (3 : ℝ) ∧ |(3 : ℝ)| ≤ 2 ^ 490 := ⟨r3, le_trans (by norm_num) b⟩
  have q4 : Representable (4 : ℝ) ∧ |(4 : ℝ)| ≤ 2 ^ 490 := ⟨r4, le_trans (by norm_num) b⟩
  have q0 : Representable (0 : ℝ) ∧ |(0 : ℝ)| ≤ 2 ^ 490 := ⟨representable_zero, le_trans (by norm_num) b⟩
  have W : Sized2 490 ⟨3, 4⟩ := ⟨q3, q4⟩
  have c := Move2.complex_le ⟨3, 4⟩
  norm_num at c
  refine ⟨?_, by norm_num, ?_⟩
  · have ha : (⟨.fin 1, .radian⟩ : DAngle ℝ).inUnit .radian = .ok (.fin 1) := by simp [DAngle.inUnit, DAngle.isDefined]
    obtain ⟨M, hM, -⟩ := Move2.around_rows o hs hc ha rep_one W
    exact ⟨[_, _, _], .cons (.turn ha rep_one (by rw [DTrans2.Rotation, plane_rotation ha]; rfl))
      (.cons (.shift W (by rw [DTrans2.Translation, DT2.Translation, if_neg (by simp [doubles2])]; rfl)) (.cons (.around ha rep_one W (by rw [DTrans2.RotationAround, hM]; rfl)) .nil))⟩
  · intro p m
    have e : PlaneMotion.path [.turn 1, .shift (asComplex ⟨3, 4⟩), .around (asComplex ⟨3, 4⟩) 1] ≤ 21 := by
      simp only [PlaneMotion.path, PlaneMotion.reach, List.map_cons, List.map_nil, List.sum_cons, List.sum_nil]
      linarith
    simp only [List.flatten_cons, List.flatten_nil, List.cons_append, List.nil_append, List.append_nil, List.mem_cons, List.not_mem_nil, or_false] at m
    have k : ‖asComplex p‖ ≤ 8 := by
      refine (Move2.complex_le p).trans ?_
      rcases m with rfl | rfl | rfl | rfl | rfl | rfl <;> norm_num
    rcases m with rfl | rfl | rfl | rfl | rfl | rfl <;> exact ⟨⟨by assumption, by assumption⟩, by generalize (2 : ℝ) ^ 480 = B at *; generalize (2 : ℝ) ^ 490 = C at *; linarith⟩

end Verif.Props
