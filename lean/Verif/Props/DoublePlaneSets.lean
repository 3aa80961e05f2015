import Verif.Props.DoublePlaneMove
import Verif.Lemmas.DoublePlaneSets

/-!
# C151: point sets, multi-polygons and composites of the plane moved several times in double precision

`ts` are transformations made from angles, translation vectors, or points and angles, `ms` the exact motions they stand for (`Makes2`). `o` is the order in which Eigen adds three terms in a product of
matrices, `o'` the one in a product of a matrix and a vector.
-/

namespace Verif.Props

open Verif Verif.Spec Verif.Double

/-- **C151.** A point set can be moved several times exactly if it is not empty and each of its points can, with no undefined coordinate at the end. The result has no point twice and consists of the moved
points, for any doubles and any matrices. There are not more points than before. -/
theorem C151_points (o : Bool) {ts : List DTrans2} (hts : ts ≠ []) (ps : List DVec2) :
    ((∃ rs, DTrans2.many (DTrans2.movePointSet o) ts ps = .ok rs) ↔ ps ≠ [] ∧ ∀ p ∈ ps, ∃ q, DTrans2.many (DTrans2.movePoint o) ts p = .ok q ∧ q.isDefined = true) ∧
    ∀ rs, DTrans2.many (DTrans2.movePointSet o) ts ps = .ok rs → rs.Nodup ∧ (∀ q, q ∈ rs ↔ ∃ p ∈ ps, DTrans2.many (DTrans2.movePoint o) ts p = .ok q) ∧ rs.length ≤ ps.length := by
  obtain ⟨h1, h2⟩ := Sets2.set_many (o := o) ts (ps := ps) hts
  refine ⟨h1, fun rs h => ⟨(h2 rs h).1, (h2 rs h).2, ?_⟩⟩
  obtain ⟨n, m⟩ := h2 rs h
  have ex : ∀ p, ∃ q, p ∈ ps → DTrans2.many (DTrans2.movePoint o) ts p = .ok q := fun p => by
    by_cases hp : p ∈ ps
    · obtain ⟨q, hq, -⟩ := (h1.1 ⟨rs, h⟩).2 p hp
      exact ⟨q, fun _ => hq⟩
    · exact ⟨p, fun k => absurd k hp⟩
  choose f hf using ex
  have sub : rs ⊆ ps.map f := fun q hq => by
    obtain ⟨p, hp, e⟩ := (m q).1 hq
    rw [hf p hp] at e
    exact List.mem_map.2 ⟨p, hp, Except.ok.inj e⟩
  simpa using (n.subperm sub).length_le

/-- **C151.** A point set that is moved by rotations and translations in double precision consists of points as near to the exact images as those of C148. No point is lost if each two points were further apart
than the sum of their errors. -/
theorem C151_near_partial (o o' : Bool) {sin cos : ℝ → ℝ} (hs : Accurate sin Real.sin) (hc : Accurate cos Real.cos) {ts : List DTrans2} {ms : List PlaneMotion}
    (h : List.Forall₂ (Makes2 o sin cos) ts ms) (hn : ms.length ≤ 2 ^ 40) (hm : ms ≠ []) {ps : List V2} (ne : ps ≠ []) (nd : ps.Nodup)
    (hp : ∀ p ∈ ps, Sized2 490 p ∧ ‖asComplex p‖ + PlaneMotion.path ms ≤ 2 ^ 480) :
    ∃ (G : V2 → V2) (rs : List DVec2), DTrans2.many (DTrans2.movePointSet o') ts (ps.map doubles2) = .ok rs ∧ rs.Nodup ∧ (∀ d, d ∈ rs ↔ ∃ p ∈ ps, d = doubles2 (G p)) ∧
      (∀ p ∈ ps, ‖asComplex (G p) - PlaneMotion.points ms (asComplex p)‖ ≤ planeDrift ms.length (‖asComplex p‖ + PlaneMotion.path ms)) ∧
      ((∀ p ∈ ps, ∀ q ∈ ps, p ≠ q → planeDrift ms.length (‖asComplex p‖ + PlaneMotion.path ms) + planeDrift ms.length (‖asComplex q‖ + PlaneMotion.path ms) < ‖asComplex p - asComplex q‖) →
        rs.length = ps.length) := by
  obtain ⟨G, hG, hd, -⟩ := C148_points_partial o o' hs hc h hn hp
  have hts : ts ≠ [] := by rintro rfl; cases h; exact hm rfl
  obtain ⟨h1, h2⟩ := C151_points o' hts (ps.map doubles2)
  obtain ⟨rs, hr⟩ := h1.2 ⟨by simpa using ne, fun d hd => by
    obtain ⟨p, m, rfl⟩ := List.mem_map.1 hd
    exact ⟨_, (hG p m).1, defined_doubles2 _⟩⟩
  obtain ⟨n, m, -⟩ := h2 rs hr
  have M : ∀ d, d ∈ rs ↔ ∃ p ∈ ps, d = doubles2 (G p) := fun d => by
    rw [m]
    constructor
    · rintro ⟨x, hx, e⟩
      obtain ⟨p, hp, rfl⟩ := List.mem_map.1 hx
      rw [(hG p hp).1] at e
      exact ⟨p, hp, (Except.ok.inj e).symm⟩
    · rintro ⟨p, hp, rfl⟩
      exact ⟨_, List.mem_map.2 ⟨p, hp, rfl⟩, (hG p hp).1⟩
  refine ⟨G, rs, hr, n, M, fun p hp => (hG p hp).2, fun far => ?_⟩
  have nd' : (ps.map fun p => doubles2 (G p)).Nodup := by
    refine List.Nodup.map_on (fun p hp q hq e => ?_) nd
    by_contra k
    have e' : G p = G q := by
      simp only [doubles2, DVec2.mk.injEq, F64.fin.injEq] at e
      exact V2.ext e.1 e.2
    have a := (hd p hp q hq).2
    have b := far p hp q hq k
    rw [e', sub_self, norm_zero, zero_sub, abs_neg, abs_of_nonneg (norm_nonneg _)] at a
    linarith
  have perm : rs.Perm (ps.map fun p => doubles2 (G p)) := (List.perm_ext_iff_of_nodup n nd').2 fun d => by
    rw [M, List.mem_map]
    exact ⟨fun ⟨p, hp, e⟩ => ⟨p, hp, e.symm⟩, fun ⟨p, hp, e⟩ => ⟨p, hp, e.symm⟩⟩
  simpa using perm.length_eq

/-- **C151.** A multi-polygon that is moved by rotations and translations in double precision keeps its polygons and rings, each point as near to its exact image as that of a polygon (C148). -/
theorem C151_multiPolygon_partial (o : Bool) {sin cos : ℝ → ℝ} (hs : Accurate sin Real.sin) (hc : Accurate cos Real.cos) {ts : List DTrans2} {ms : List PlaneMotion}
    (h : List.Forall₂ (Makes2 o sin cos) ts ms) (hn : ms.length ≤ 2 ^ 40) {gs : List (List V2 × List (List V2))} (ne : gs ≠ [])
    (hp : ∀ g ∈ gs, ∀ p ∈ g.1 ++ g.2.flatten, Sized2 490 p ∧ ‖asComplex p‖ + PlaneMotion.path ms ≤ 2 ^ 480) :
    ∃ G : V2 → V2, DTrans2.many DTrans2.moveMultiPolygon ts (gs.map fun g => (g.1.map doubles2, g.2.map fun r => r.map doubles2)) =
        .ok (gs.map fun g => (g.1.map fun p => doubles2 (G p), g.2.map fun r => r.map fun p => doubles2 (G p))) ∧
      ∀ g ∈ gs, ∀ p ∈ g.1 ++ g.2.flatten, ‖asComplex (G p) - PlaneMotion.points ms (asComplex p)‖ ≤ planeDrift ms.length (‖asComplex p‖ + PlaneMotion.path ms) := by
  have ex : ∀ p, ∃ b, (∃ g ∈ gs, p ∈ g.1 ++ g.2.flatten) → ts.foldl (fun q T => DTrans2.boostPoint T.matrix q) (doubles2 p) = doubles2 b ∧
      ‖asComplex b - PlaneMotion.points ms (asComplex p)‖ ≤ planeDrift ms.length (‖asComplex p‖ + PlaneMotion.path ms) := fun p => by
    by_cases m : ∃ g ∈ gs, p ∈ g.1 ++ g.2.flatten
    · obtain ⟨g, hg, m⟩ := m
      have k := hp g hg p m
      obtain ⟨b, hb, n⟩ := (Move2.moved_point false hs hc h hn ⟨k.1.x.1, k.1.y.1⟩ k.2).2
      rw [Move2.many_total] at hb
      exact ⟨b, fun _ => ⟨Except.ok.inj hb, n⟩⟩
    · exact ⟨p, fun k => absurd k m⟩
  choose G hG using ex
  refine ⟨G, ?_, fun g hg p m => (hG p ⟨g, hg, m⟩).2⟩
  rw [Sets2.many_multi (fun T hT => Move2.all_defined hs hc h hT) (by simpa using ne)]
  refine congrArg Except.ok ?_
  rw [List.map_map]
  refine List.map_congr_left fun g hg => Prod.ext ?_ ?_
  · simp only [Function.comp, List.map_map]
    exact List.map_congr_left fun p m => (hG p ⟨g, hg, List.mem_append_left _ m⟩).1
  · simp only [Function.comp, List.map_map]
    refine List.map_congr_left fun r m => ?_
    simp only [Function.comp, List.map_map]
    exact List.map_congr_left fun p m' => (hG p ⟨g, hg, List.mem_append_right _ (List.mem_flatten.2 ⟨r, m, m'⟩)⟩).1

/-- **C151.** A composite moved several times is the composite of its members moved several times, in their order, for any defined transformations that are not called the identity. -/
theorem C151_composite (o : Bool) {ts : List DTrans2} (h : ∀ t ∈ ts, t.isDefined = true ∧ t.type ≠ .identity) (cs ds : List DShape2) :
    DTrans2.many (DShape2.moveComposite o) ts (true, cs) = .ok (true, ds) ↔ List.Forall₂ (fun c d => DTrans2.many (DShape2.move o) ts c = .ok d) cs ds := by
  induction ts generalizing cs with
  | nil => simp [DTrans2.many, List.forall₂_eq_eq_eq]
  | cons t ts ih =>
    have bnd : ∀ {σ : Type} (F : DTrans2 → σ → Res σ) (s r : σ), DTrans2.many F (t :: ts) s = .ok r ↔ ∃ s', F t s = .ok s' ∧ DTrans2.many F ts s' = .ok r := fun F s r => by
      rw [DTrans2.many]
      cases F t s with
      | error e => exact ⟨fun h => (by cases h), fun ⟨_, h, _⟩ => (by cases h)⟩
      | ok s' => exact ⟨fun h => ⟨s', rfl, h⟩, fun ⟨_, h, k⟩ => by obtain rfl := Except.ok.inj h; exact k⟩
    simp only [bnd]
    rw [← Sets2.forall₂_comp]
    obtain ⟨ht, hi⟩ := h t (by simp)
    have ih := ih (fun t m => h t (by simp [m]))
    constructor
    · rintro ⟨⟨b, es⟩, h1, h2⟩
      obtain ⟨e, f⟩ := (Sets2.composite_step hi ht).1 h1
      obtain rfl : b = true := e
      exact ⟨es, f, (ih es).1 h2⟩
    · rintro ⟨es, f, h2⟩
      exact ⟨(true, es), (Sets2.composite_step hi ht).2 ⟨rfl, f⟩, (ih es).2 h2⟩

/-- **C151.** A member of a composite is moved several times as the object of its kind is. -/
theorem C151_members (o : Bool) (ts : List DTrans2) :
    (∀ x, DTrans2.many (DShape2.move o) ts (.point x) = (DTrans2.many (DTrans2.movePoint o) ts x).map .point) ∧
    (∀ x, DTrans2.many (DShape2.move o) ts (.pointSet x) = (DTrans2.many (DTrans2.movePointSet o) ts x).map .pointSet) ∧
    (∀ x, DTrans2.many (DShape2.move o) ts (.line x) = (DTrans2.many (DTrans2.moveLine o) ts x).map .line) ∧
    (∀ x, DTrans2.many (DShape2.move o) ts (.segment x) = (DTrans2.many (DTrans2.moveSegment o) ts x).map .segment) ∧
    (∀ x, DTrans2.many (DShape2.move o) ts (.lineString x) = (DTrans2.many (DTrans2.moveLineString o) ts x).map .lineString) ∧
    (∀ x, DTrans2.many (DShape2.move o) ts (.polygon x) = (DTrans2.many DTrans2.movePolygon ts x).map .polygon) ∧
    (∀ x, DTrans2.many (DShape2.move o) ts (.multiPolygon x) = (DTrans2.many DTrans2.moveMultiPolygon ts x).map .multiPolygon) := by
  have k : ∀ {α : Type} {F : DTrans2 → α → Res α} {f : α → DShape2}, (∀ t a, DShape2.move o t (f a) = (F t a).map f) → ∀ a, DTrans2.many (DShape2.move o) ts (f a) = (DTrans2.many F ts a).map f := fun {α F f} h => by
    induction ts with
    | nil => exact fun a => rfl
    | cons t ts ih =>
      intro a
      rw [DTrans2.many, DTrans2.many, h]
      cases F t a with
      | error e => rfl
      | ok b => exact ih b
  exact ⟨k fun _ _ => rfl, k fun _ _ => rfl, k fun _ _ => rfl, k fun _ _ => rfl, k fun _ _ => rfl, k fun _ _ => rfl, k fun _ _ => rfl⟩

/-- an object with no coordinate, radius, extent or angle that is not a number, and with as many points as it needs -/
def Whole2 : DShape2 → Prop
  | .point x => x.x ≠ .nan ∧ x.y ≠ .nan
  | .pointSet x => x ≠ []
  | .line x => (x.1.x ≠ .nan ∧ x.1.y ≠ .nan) ∧ x.2.x ≠ .nan ∧ x.2.y ≠ .nan
  | .segment x => (x.1.x ≠ .nan ∧ x.1.y ≠ .nan) ∧ x.2.x ≠ .nan ∧ x.2.y ≠ .nan
  | .lineString x => x ≠ []
  | .polygon x => 3 ≤ x.1.length
  | .multiPolygon x => x ≠ []

/-- **C151.** The identity takes exactly the composites all of whose members are whole, and leaves them as they are. -/
theorem C151_whole (o : Bool) (cs : List DShape2) (r : Bool × List DShape2) : DShape2.moveComposite o DTrans2.Identity (true, cs) = .ok r ↔ (∀ c ∈ cs, Whole2 c) ∧ r = (true, cs) := by
  have e : ∀ c : DShape2, c.isDefined = true ↔ Whole2 c := fun c => by
    cases c <;> simp [DShape2.isDefined, Whole2, DVec2.isDefined]
  have a : cs.all DShape2.isDefined = true ↔ ∀ c ∈ cs, Whole2 c := by
    rw [List.all_eq_true]
    exact forall₂_congr fun c _ => e c
  have i : DTrans2.Identity.isDefined = true := rfl
  have t : DTrans2.Identity.type = .identity := rfl
  rw [DShape2.moveComposite, i, t]
  constructor
  · intro h
    simp only [Bool.not_true, Bool.false_eq_true, if_false, Bool.true_and, if_true] at h
    split_ifs at h with h1
    exact ⟨a.1 (by simpa using h1), (Except.ok.inj h).symm⟩
  · rintro ⟨h, rfl⟩
    rw [a.2 h]
    rfl

/-- **C151.** The identity leaves every defined composite as it is, bit for bit, whatever its members. -/
theorem C151_identity (o : Bool) {cs : List DShape2} (h : ∀ c ∈ cs, c.isDefined = true) : DShape2.moveComposite o DTrans2.Identity (true, cs) = .ok (true, cs) := by
  have a : cs.all DShape2.isDefined = true := by rw [List.all_eq_true]; exact h
  rw [DShape2.moveComposite, a]
  rfl

/-- **C151, fails.** The identity does not leave a member as it is when it is not in a composite: it makes the coordinate zero of a defined point with an infinite coordinate undefined. -/
theorem C151_identity_violated (o : Bool) : ∃ p : DVec2, p.isDefined = true ∧ DShape2.moveComposite o DTrans2.Identity (true, [.point p]) = .ok (true, [.point p]) ∧
    ∃ q, DShape2.move o DTrans2.Identity (.point p) = .ok (.point q) ∧ q.isDefined = false := by
  have d : (⟨.inf false, .fin 0⟩ : DVec2).isDefined = true := by simp [DVec2.isDefined]
  refine ⟨⟨.inf false, .fin 0⟩, d, C151_identity o (by simp [DShape2.isDefined, d]), ?_⟩
  have D : DTrans2.Identity.isDefined = true := rfl
  refine ⟨⟨DT2.row o DT2.Identity 0 ⟨.inf false, .fin 0⟩ (.fin 1), DT2.row o DT2.Identity 1 ⟨.inf false, .fin 0⟩ (.fin 1)⟩, ?_, ?_⟩
  · rw [DShape2.move, DTrans2.movePoint, D, d, DT2.applyTo]
    simp [DTrans2.Identity, Except.map]
  · cases o <;> simp [DT2.row, DT2.Identity, DVec2.isDefined, F64.mul, F64.add, DVec.sum, F64.ofExact, rnd_zero]

/-- **C151, fails.** A point set can lose points: the two points `(0, 0)` and `(1, 0)` become one when they are moved by a translation by `2 ^ 60`, and stay one when they are moved back. -/
theorem C151_collapse_violated (o : Bool) : ∃ v : V2, ∃ T T', DTrans2.Translation (doubles2 v) = .ok T ∧ DTrans2.Translation (doubles2 ⟨-v.x, -v.y⟩) = .ok T' ∧
    DTrans2.many (DTrans2.movePointSet o) [T, T'] [doubles2 ⟨0, 0⟩, doubles2 ⟨1, 0⟩] = .ok [doubles2 ⟨0, 0⟩] := by
  obtain ⟨v, T, T', hT, hT', -, -, h⟩ := C148_collapse_violated o
  refine ⟨v, T, T', hT, hT', ?_⟩
  have seg : ∀ t a b c d, DTrans2.moveSegment o t (a, b) = .ok (c, d) → DTrans2.movePoint o t a = .ok c ∧ DTrans2.movePoint o t b = .ok d := fun t a b c d h => by
    rw [DTrans2.moveSegment] at h
    split_ifs at h
    obtain ⟨x, hx, h⟩ := ok_of_bind h
    obtain ⟨y, hy, h⟩ := ok_of_bind h
    obtain ⟨rfl, rfl⟩ := Prod.mk.inj (Except.ok.inj h)
    exact ⟨hx, hy⟩
  rw [DTrans2.many] at h
  obtain ⟨⟨a, b⟩, h1, h⟩ := ok_of_bind h
  rw [DTrans2.many] at h
  obtain ⟨⟨c, d⟩, h2, h⟩ := ok_of_bind h
  obtain ⟨rfl, rfl⟩ := Prod.mk.inj (Except.ok.inj h)
  obtain ⟨a1, b1⟩ := seg _ _ _ _ _ h1
  obtain ⟨a2, b2⟩ := seg _ _ _ _ _ h2
  have p1 : DTrans2.many (DTrans2.movePoint o) [T, T'] (doubles2 ⟨0, 0⟩) = .ok (doubles2 ⟨0, 0⟩) := by simp only [DTrans2.many, a1, a2, bind, Except.bind]
  have p2 : DTrans2.many (DTrans2.movePoint o) [T, T'] (doubles2 ⟨1, 0⟩) = .ok (doubles2 ⟨0, 0⟩) := by simp only [DTrans2.many, b1, b2, bind, Except.bind]
  obtain ⟨k1, k2⟩ := C151_points o (ts := [T, T']) (by simp) [doubles2 ⟨0, 0⟩, doubles2 ⟨1, 0⟩]
  obtain ⟨rs, hr⟩ := k1.2 ⟨by simp, by simp [p1, p2, defined_doubles2]⟩
  obtain ⟨n, m, -⟩ := k2 rs hr
  rw [hr]
  have m' : ∀ q, q ∈ rs ↔ q = doubles2 ⟨0, 0⟩ := fun q => by simp [m, p1, p2, eq_comm]
  have perm : rs.Perm [doubles2 ⟨0, 0⟩] := (List.perm_ext_iff_of_nodup n (by simp)).2 fun q => by simp [m']
  rw [List.perm_singleton.1 perm]

/-- **C151.** Undefined transformations, empty point sets and multi-polygons, and composites with an undefined member are refused. -/
theorem C151_undefined (o : Bool) (t : DTrans2) (ps : List DVec2) (gs : List (List DVec2 × List (List DVec2))) (c : Bool × List DShape2) :
    (t.isDefined = false → DTrans2.movePointSet o t ps = .error .undefined ∧ DTrans2.moveMultiPolygon t gs = .error .undefined ∧ DShape2.moveComposite o t c = .error .undefined) ∧
    DTrans2.movePointSet o t [] = .error .undefined ∧ DTrans2.moveMultiPolygon t [] = .error .undefined ∧
    (c.1 = false ∨ (∃ s ∈ c.2, s.isDefined = false) → DShape2.moveComposite o t c = .error .undefined) := by
  refine ⟨fun h => ?_, ?_, ?_, fun h => ?_⟩
  · simp [DTrans2.movePointSet, DTrans2.moveMultiPolygon, DShape2.moveComposite, h]
  · simp [DTrans2.movePointSet]
  · simp [DTrans2.moveMultiPolygon]
  · have : (c.1 && c.2.all DShape2.isDefined) = false := by
      rcases h with h | ⟨s, hs, h⟩
      · simp [h]
      · rw [Bool.and_eq_false_iff]
        right
        rw [List.all_eq_false]
        exact ⟨s, hs, by simp [h]⟩
    rw [DShape2.moveComposite, this]
    cases t.isDefined <;> rfl

/-- two points that are further apart than their errors, and a translation -/
example (o : Bool) (sin cos : ℝ → ℝ) : (∃ ts, List.Forall₂ (Makes2 o sin cos) ts [.shift (asComplex ⟨3, 4⟩)]) ∧ ([⟨0, 0⟩, ⟨3, 4⟩] : List V2).Nodup ∧
    (∀ p ∈ ([⟨0, 0⟩, ⟨3, 4⟩] : List V2), Sized2 490 p ∧ ‖asComplex p‖ + PlaneMotion.path [.shift (asComplex ⟨3, 4⟩)] ≤ 2 ^ 480) ∧
    ∀ p ∈ ([⟨0, 0⟩, ⟨3, 4⟩] : List V2), ∀ q ∈ ([⟨0, 0⟩, ⟨3, 4⟩] : List V2), p ≠ q →
      planeDrift 1 (‖asComplex p‖ + PlaneMotion.path [.shift (asComplex ⟨3, 4⟩)]) + planeDrift 1 (‖asComplex q‖ + PlaneMotion.path [.shift (asComplex ⟨3, 4⟩)]) < ‖asComplex p - asComplex q‖ := by
  have r3 : Representable (3 : ℝ) := by simpa using HalfTurn.rep_lit 3 0 (by norm_num) (by norm_num)
  have r4 : Representable (4 : ℝ) := by simpa using HalfTurn.rep_lit 4 0 (by norm_num) (by norm_num)
  have big : ∀ {n : ℕ}, 6 ≤ n → (64 : ℝ) ≤ 2 ^ n := fun {n} hn => by
    have : (2 : ℝ) ^ 6 ≤ 2 ^ n := pow_le_pow_right₀ one_le_two hn
    norm_num at this
    exact this
  have b := big (n := 490) (by norm_num)
  have b' := big (n := 480) (by norm_num)
  have W : Sized2 490 ⟨3, 4⟩ := ⟨⟨r3, le_trans (by norm_num) b⟩, r4, le_trans (by norm_num) b⟩
  have Z : Sized2 490 ⟨0, 0⟩ := ⟨⟨representable_zero, le_trans (by norm_num) b⟩, representable_zero, le_trans (by norm_num) b⟩
  have n5 : ‖asComplex ⟨3, 4⟩‖ = 5 := by
    rw [asComplex, Complex.norm_def, Complex.normSq_mk, show (3 : ℝ) * 3 + 4 * 4 = 5 ^ 2 by norm_num, Real.sqrt_sq (by norm_num)]
  have z : asComplex ⟨0, 0⟩ = 0 := rfl
  have path : PlaneMotion.path [.shift (asComplex ⟨3, 4⟩)] = 5 := by simp [PlaneMotion.path, PlaneMotion.reach, n5]
  have s : (2 : ℝ) ^ (-1068 : ℤ) ≤ 1 := zpow_le_one_of_nonpos₀ one_le_two (by norm_num)
  have s' : (2 : ℝ) ^ (-46 : ℤ) ≤ 2 ^ (-10 : ℤ) := zpow_le_zpow_right₀ one_le_two (by norm_num)
  rw [show (2 : ℝ) ^ (-10 : ℤ) = 1 / 1024 by norm_num] at s'
  have ne : (⟨0, 0⟩ : V2) ≠ ⟨3, 4⟩ := fun h => by injection h with h _; norm_num at h
  refine ⟨⟨[_], .cons (.shift W (by rw [DTrans2.Translation, DT2.Translation, if_neg (by simp [doubles2])]; rfl)) .nil⟩, by simp [ne], ?_, ?_⟩
  · intro p hp
    rw [path]
    simp only [List.mem_cons, List.not_mem_nil, or_false] at hp
    rcases hp with rfl | rfl
    · exact ⟨Z, by rw [z, norm_zero]; exact le_trans (by norm_num) b'⟩
    · exact ⟨W, by rw [n5]; exact le_trans (by norm_num) b'⟩
  · intro p hp q hq k
    rw [path]
    simp only [List.mem_cons, List.not_mem_nil, or_false] at hp hq
    unfold planeDrift
    rcases hp with rfl | rfl <;> rcases hq with rfl | rfl
    · exact absurd rfl k
    · rw [z, zero_sub, norm_neg, n5, norm_zero]
      clear b b'
      generalize (2 : ℝ) ^ (-1068 : ℤ) = A at *
      generalize (2 : ℝ) ^ (-46 : ℤ) = B at *
      push_cast
      linarith
    · rw [z, sub_zero, n5, norm_zero]
      clear b b'
      generalize (2 : ℝ) ^ (-1068 : ℤ) = A at *
      generalize (2 : ℝ) ^ (-46 : ℤ) = B at *
      push_cast
      linarith
    · exact absurd rfl k

/-- a composite of a point and a segment moved by a translation, with infinite coordinates -/
example : ∃ t : DTrans2, (t.isDefined = true ∧ t.type ≠ .identity) ∧ DTrans2.Translation ⟨.inf false, .fin 0⟩ = .ok t ∧
    (DShape2.point ⟨.fin 0, .fin 0⟩).isDefined = true ∧ (DShape2.segment (⟨.inf true, .fin 0⟩, ⟨.fin 0, .fin 0⟩)).isDefined = true := by
  refine ⟨_, ⟨?_, ?_⟩, by rw [DTrans2.Translation, DT2.Translation, if_neg (by simp)]; rfl, by simp [DShape2.isDefined, DVec2.isDefined], by simp [DShape2.isDefined, DVec2.isDefined]⟩ <;> simp [DTrans2.isDefined]

end Verif.Props
