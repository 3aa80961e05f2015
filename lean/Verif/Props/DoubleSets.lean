import Verif.Props.DoubleMove
import Verif.Props.DoublePoints
import Verif.Lemmas.DoubleSets

/-!
# C152: point sets, line strings, pyramids and composites of space moved several times in double precision

`ts` are transformations made from rotation vectors and translation vectors, `ms` the exact motions they stand for (`Makes`). `o` and `q` are the orders in which Eigen adds three and four terms.
-/

namespace Verif.Props

open Verif Verif.Spec Verif.Double

/-- **C152.** A point set can be moved several times exactly if it is not empty and each of its points can, with no undefined coordinate at the end. The result has no point twice and consists of the moved
points, for any doubles and any matrices. There are not more points than before. -/
theorem C152_points (o : Order4) {ts : List DTrans} (hts : ts ≠ []) (ps : List DVec) :
    ((∃ rs, DTrans.many (DTrans.movePointSet o) ts ps = .ok rs) ↔ ps ≠ [] ∧ ∀ p ∈ ps, ∃ q, DTrans.many (DTrans.movePoint o) ts p = .ok q ∧ q.isDefined = true) ∧
    ∀ rs, DTrans.many (DTrans.movePointSet o) ts ps = .ok rs → rs.Nodup ∧ (∀ q, q ∈ rs ↔ ∃ p ∈ ps, DTrans.many (DTrans.movePoint o) ts p = .ok q) ∧ rs.length ≤ ps.length := by
  obtain ⟨h1, h2⟩ := Sets3.set_many (o := o) ts (ps := ps) hts
  refine ⟨h1, fun rs h => ⟨(h2 rs h).1, (h2 rs h).2, ?_⟩⟩
  obtain ⟨n, m⟩ := h2 rs h
  have ex : ∀ p, ∃ q, p ∈ ps → DTrans.many (DTrans.movePoint o) ts p = .ok q := fun p => by
    by_cases hp : p ∈ ps
    · obtain ⟨q, hq, -⟩ := (h1.1 ⟨rs, h⟩).2 p hp
      exact ⟨q, fun _ => hq⟩
    · exact ⟨p, fun k => absurd k hp⟩
  choose f hf using ex
  have sub : rs ⊆ ps.map f := fun q hq => by
    obtain ⟨p, hp, e⟩ := (m q).1 hq
    rw [hf p hp] at e
    exact List.mem_map.2 ⟨p, hp, Except.ok.inj e⟩
  simpa using (n.subperm sub).length_le

/-- **C152.** A line string can be moved several times exactly if each of its points can, and keeps their number and order, for any doubles and any matrices. -/
theorem C152_lineString (q : Order4) (ts : List DTrans) {ps : List DVec} (ne : ps ≠ []) (rs : List DVec) :
    DTrans.many (DTrans.moveLineString q) ts ps = .ok rs ↔ List.Forall₂ (fun p r => DTrans.many (DTrans.movePoint q) ts p = .ok r) ps rs := by
  induction ts generalizing ps with
  | nil => simp [DTrans.many, List.forall₂_eq_eq_eq]
  | cons t ts ih =>
    simp only [Sets3.many_cons]
    rw [← Sets2.forall₂_comp]
    refine exists_congr fun s => ?_
    rw [Sets3.string_step ne]
    refine and_congr_right fun f => ih fun e => ?_
    subst e
    cases f
    exact ne rfl

/-- **C152.** A pyramid can be moved several times exactly if its base and its apex can, and the result has the moved base and the moved apex, for any doubles and any matrices. -/
theorem C152_pyramid (q : Order4) (ts : List DTrans) (b b' : DPolygon) (a a' : DVec) : DTrans.many (DTrans.movePyramid q) ts (b, a) = .ok (b', a') ↔
    DTrans.many (DPolygon.move q) ts b = .ok b' ∧ DTrans.many (DTrans.movePoint q) ts a = .ok a' := Sets3.pyramid_many ts

/-- **C152.** Point sets and line strings that are moved by rotations and translations in double precision consist of points as near to the exact images as those of C144. No point of a set is lost if each two
points were further apart than the sum of their errors. -/
theorem C152_near_partial (o : Bool) (q : Order4) {sin cos : ℝ → ℝ} (hs : Accurate sin Real.sin) (hc : Accurate cos Real.cos) {ts : List DTrans} {ms : List Motion}
    (h : List.Forall₂ (Makes o sin cos) ts ms) (hn : ms.length ≤ 2 ^ 40) (hm : ms ≠ []) {ps : List V3} (ne : ps ≠ []) (nd : ps.Nodup) (hp : ∀ p ∈ ps, Within p ∧ ‖pure p‖ + Motion.path ms ≤ 2 ^ 490) :
    ∃ (G : V3 → V3) (rs : List DVec), DTrans.many (DTrans.moveLineString q) ts (ps.map doubles) = .ok (ps.map fun p => doubles (G p)) ∧
      DTrans.many (DTrans.movePointSet q) ts (ps.map doubles) = .ok rs ∧ rs.Nodup ∧ (∀ d, d ∈ rs ↔ ∃ p ∈ ps, d = doubles (G p)) ∧
      (∀ p ∈ ps, ‖pure (G p) - Motion.points ms (pure p)‖ ≤ driftOf (-44) ms.length (‖pure p‖ + Motion.path ms)) ∧
      (∀ p ∈ ps, ∀ r ∈ ps, |‖pure (G p) - pure (G r)‖ - ‖pure p - pure r‖| ≤ driftOf (-44) ms.length (‖pure p‖ + Motion.path ms) + driftOf (-44) ms.length (‖pure r‖ + Motion.path ms)) ∧
      ((∀ p ∈ ps, ∀ r ∈ ps, p ≠ r → driftOf (-44) ms.length (‖pure p‖ + Motion.path ms) + driftOf (-44) ms.length (‖pure r‖ + Motion.path ms) < ‖pure p - pure r‖) → rs.length = ps.length) := by
  have ex : ∀ p, ∃ b, p ∈ ps → DTrans.many (DTrans.movePoint q) ts (doubles p) = .ok (doubles b) ∧
      ‖pure b - Motion.points ms (pure p)‖ ≤ driftOf (-44) ms.length (‖pure p‖ + Motion.path ms) := fun p => by
    by_cases m : p ∈ ps
    · obtain ⟨b, c, e, -, n, -⟩ := C144_points_partial o q hs hc h hn (hp p m).1 (hp p m).1 (hp p m).2 (hp p m).2 (r := .fin 0) (by simp)
      exact ⟨b, fun _ => ⟨(Sets3.segment_many ts e).1, n⟩⟩
    · exact ⟨p, fun k => absurd k m⟩
  choose G hG using ex
  have hts : ts ≠ [] := by rintro rfl; cases h; exact hm rfl
  obtain ⟨h1, h2⟩ := C152_points q hts (ps.map doubles)
  obtain ⟨rs, hr⟩ := h1.2 ⟨by simpa using ne, fun d hd => by
    obtain ⟨p, m, rfl⟩ := List.mem_map.1 hd
    exact ⟨_, (hG p m).1, doubles_defined _⟩⟩
  obtain ⟨n, m, -⟩ := h2 rs hr
  have M : ∀ d, d ∈ rs ↔ ∃ p ∈ ps, d = doubles (G p) := fun d => by
    rw [m]
    constructor
    · rintro ⟨x, hx, e⟩
      obtain ⟨p, hp, rfl⟩ := List.mem_map.1 hx
      rw [(hG p hp).1] at e
      exact ⟨p, hp, (Except.ok.inj e).symm⟩
    · rintro ⟨p, hp, rfl⟩
      exact ⟨_, List.mem_map.2 ⟨p, hp, rfl⟩, (hG p hp).1⟩
  have dist : ∀ p ∈ ps, ∀ r ∈ ps, |‖pure (G p) - pure (G r)‖ - ‖pure p - pure r‖| ≤ driftOf (-44) ms.length (‖pure p‖ + Motion.path ms) + driftOf (-44) ms.length (‖pure r‖ + Motion.path ms) :=
    fun p m r m' => by
    rw [← Sets3.points_keep hs hc h (pure p) (pure r)]
    refine (abs_norm_sub_norm_le _ _).trans ?_
    rw [show pure (G p) - pure (G r) - (Motion.points ms (pure p) - Motion.points ms (pure r)) = (pure (G p) - Motion.points ms (pure p)) - (pure (G r) - Motion.points ms (pure r)) by abel]
    exact (norm_sub_le _ _).trans (add_le_add (hG p m).2 (hG r m').2)
  refine ⟨G, rs, ?_, hr, n, M, fun p hp => (hG p hp).2, dist, fun far => ?_⟩
  · rw [C152_lineString q ts (by simpa using ne), List.forall₂_map_left_iff, List.forall₂_map_right_iff, List.forall₂_same]
    exact fun p m => (hG p m).1
  have nd' : (ps.map fun p => doubles (G p)).Nodup := by
    refine List.Nodup.map_on (fun p hp r hr e => ?_) nd
    by_contra k
    have e' : G p = G r := by
      simp only [doubles, DVec.mk.injEq, F64.fin.injEq] at e
      exact V3.ext e.1 e.2.1 e.2.2
    have a := dist p hp r hr
    have b := far p hp r hr k
    rw [e', sub_self, norm_zero, zero_sub, abs_neg, abs_of_nonneg (norm_nonneg _)] at a
    linarith
  have perm : rs.Perm (ps.map fun p => doubles (G p)) := (List.perm_ext_iff_of_nodup n nd').2 fun d => by
    rw [M, List.mem_map]
    exact ⟨fun ⟨p, hp, e⟩ => ⟨p, hp, e.symm⟩, fun ⟨p, hp, e⟩ => ⟨p, hp, e.symm⟩⟩
  simpa using perm.length_eq

/-- **C152.** A composite moved several times is the composite of its members moved several times, in their order, for any defined transformations that are not called the identity. -/
theorem C152_composite (o : Bool) (q : Order4) {ts : List DTrans} (h : ∀ t ∈ ts, t.isDefined = true ∧ t.type ≠ .identity) (cs ds : List DShape3) :
    DTrans.many (DShape3.moveComposite o q) ts (true, cs) = .ok (true, ds) ↔ List.Forall₂ (fun c d => DTrans.many (DShape3.move o q) ts c = .ok d) cs ds := by
  induction ts generalizing cs with
  | nil => simp [DTrans.many, List.forall₂_eq_eq_eq]
  | cons t ts ih =>
    simp only [Sets3.many_cons]
    rw [← Sets2.forall₂_comp]
    obtain ⟨ht, hi⟩ := h t (by simp)
    have ih := ih (fun t m => h t (by simp [m]))
    constructor
    · rintro ⟨⟨b, es⟩, h1, h2⟩
      obtain ⟨e, f⟩ := (Sets3.composite_step hi ht).1 h1
      obtain rfl : b = true := e
      exact ⟨es, f, (ih es).1 h2⟩
    · rintro ⟨es, f, h2⟩
      exact ⟨(true, es), (Sets3.composite_step hi ht).2 ⟨rfl, f⟩, (ih es).2 h2⟩

/-- **C152.** A member of a composite is moved several times as the object of its kind is. -/
theorem C152_members (o : Bool) (q : Order4) (ts : List DTrans) :
    (∀ x, DTrans.many (DShape3.move o q) ts (.point x) = (DTrans.many (DTrans.movePoint q) ts x).map .point) ∧
    (∀ x, DTrans.many (DShape3.move o q) ts (.pointSet x) = (DTrans.many (DTrans.movePointSet q) ts x).map .pointSet) ∧
    (∀ x, DTrans.many (DShape3.move o q) ts (.line x) = (DTrans.many (DTrans.moveLine q) ts x).map .line) ∧
    (∀ x, DTrans.many (DShape3.move o q) ts (.ray x) = (DTrans.many (DTrans.moveLine q) ts x).map .ray) ∧
    (∀ x, DTrans.many (DShape3.move o q) ts (.segment x) = (DTrans.many (DTrans.moveSegment q) ts x).map .segment) ∧
    (∀ x, DTrans.many (DShape3.move o q) ts (.lineString x) = (DTrans.many (DTrans.moveLineString q) ts x).map .lineString) ∧
    (∀ x, DTrans.many (DShape3.move o q) ts (.plane x) = (DTrans.many (DTrans.moveLine q) ts x).map .plane) ∧
    (∀ x, DTrans.many (DShape3.move o q) ts (.polygon x) = (DTrans.many (DPolygon.move q) ts x).map .polygon) ∧
    (∀ x, DTrans.many (DShape3.move o q) ts (.pyramid x) = (DTrans.many (DTrans.movePyramid q) ts x).map .pyramid) ∧
    (∀ x, DTrans.many (DShape3.move o q) ts (.sphere x) = (DTrans.many (DTrans.moveSphere q) ts x).map .sphere) ∧
    (∀ x, DTrans.many (DShape3.move o q) ts (.cone x) = (DTrans.many (DTrans.moveCone o q) ts x).map .cone) ∧
    (∀ x, DTrans.many (DShape3.move o q) ts (.cuboid x) = (DTrans.many (DTrans.moveCuboid o q) ts x).map .cuboid) := by
  have k : ∀ {α : Type} {F : DTrans → α → Res α} {f : α → DShape3}, (∀ t a, DShape3.move o q t (f a) = (F t a).map f) → ∀ a, DTrans.many (DShape3.move o q) ts (f a) = (DTrans.many F ts a).map f := fun {α F f} h => by
    induction ts with
    | nil => exact fun a => rfl
    | cons t ts ih =>
      intro a
      rw [DTrans.many, DTrans.many, h]
      cases F t a with
      | error e => rfl
      | ok b => exact ih b
  exact ⟨k fun _ _ => rfl, k fun _ _ => rfl, k fun _ _ => rfl, k fun _ _ => rfl, k fun _ _ => rfl, k fun _ _ => rfl, k fun _ _ => rfl, k fun _ _ => rfl, k fun _ _ => rfl, k fun _ _ => rfl, k fun _ _ => rfl, k fun _ _ => rfl⟩

/-- an object with no coordinate, radius, extent or angle that is not a number, and with as many points as it needs -/
def Whole3 : DShape3 → Prop
  | .point x => (x.x ≠ .nan ∧ x.y ≠ .nan ∧ x.z ≠ .nan)
  | .pointSet x => x ≠ []
  | .line x => (x.1.x ≠ .nan ∧ x.1.y ≠ .nan ∧ x.1.z ≠ .nan) ∧ (x.2.x ≠ .nan ∧ x.2.y ≠ .nan ∧ x.2.z ≠ .nan)
  | .ray x => (x.1.x ≠ .nan ∧ x.1.y ≠ .nan ∧ x.1.z ≠ .nan) ∧ (x.2.x ≠ .nan ∧ x.2.y ≠ .nan ∧ x.2.z ≠ .nan)
  | .segment x => (x.1.x ≠ .nan ∧ x.1.y ≠ .nan ∧ x.1.z ≠ .nan) ∧ (x.2.x ≠ .nan ∧ x.2.y ≠ .nan ∧ x.2.z ≠ .nan)
  | .lineString x => x ≠ []
  | .plane x => (x.1.x ≠ .nan ∧ x.1.y ≠ .nan ∧ x.1.z ≠ .nan) ∧ (x.2.x ≠ .nan ∧ x.2.y ≠ .nan ∧ x.2.z ≠ .nan)
  | .polygon x => (x.polygon.isDefined = true ∧ (x.origin.x ≠ .nan ∧ x.origin.y ≠ .nan ∧ x.origin.z ≠ .nan) ∧ (x.xAxis.x ≠ .nan ∧ x.xAxis.y ≠ .nan ∧ x.xAxis.z ≠ .nan) ∧ (x.yAxis.x ≠ .nan ∧ x.yAxis.y ≠ .nan ∧ x.yAxis.z ≠ .nan))
  | .pyramid x => (x.1.polygon.isDefined = true ∧ (x.1.origin.x ≠ .nan ∧ x.1.origin.y ≠ .nan ∧ x.1.origin.z ≠ .nan) ∧ (x.1.xAxis.x ≠ .nan ∧ x.1.xAxis.y ≠ .nan ∧ x.1.xAxis.z ≠ .nan) ∧ (x.1.yAxis.x ≠ .nan ∧ x.1.yAxis.y ≠ .nan ∧ x.1.yAxis.z ≠ .nan)) ∧ (x.2.x ≠ .nan ∧ x.2.y ≠ .nan ∧ x.2.z ≠ .nan)
  | .sphere x => (x.1.x ≠ .nan ∧ x.1.y ≠ .nan ∧ x.1.z ≠ .nan) ∧ x.2 ≠ .nan
  | .cone x => (x.apex.x ≠ .nan ∧ x.apex.y ≠ .nan ∧ x.apex.z ≠ .nan) ∧ (x.axis.x ≠ .nan ∧ x.axis.y ≠ .nan ∧ x.axis.z ≠ .nan) ∧ x.angle.isDefined = true
  | .cuboid x => (x.center.x ≠ .nan ∧ x.center.y ≠ .nan ∧ x.center.z ≠ .nan) ∧ (x.ax.x ≠ .nan ∧ x.ax.y ≠ .nan ∧ x.ax.z ≠ .nan) ∧ (x.ay.x ≠ .nan ∧ x.ay.y ≠ .nan ∧ x.ay.z ≠ .nan) ∧ (x.az.x ≠ .nan ∧ x.az.y ≠ .nan ∧ x.az.z ≠ .nan) ∧ x.ex ≠ .nan ∧ x.ey ≠ .nan ∧ x.ez ≠ .nan

/-- **C152.** The identity takes exactly the composites all of whose members are whole, and leaves them as they are. -/
theorem C152_whole (o : Bool) (q : Order4) (cs : List DShape3) (r : Bool × List DShape3) : DShape3.moveComposite o q DTrans.Identity (true, cs) = .ok r ↔ (∀ c ∈ cs, Whole3 c) ∧ r = (true, cs) := by
  have e : ∀ c : DShape3, c.isDefined = true ↔ Whole3 c := fun c => by
    cases c <;> simp [DShape3.isDefined, Whole3, DVec.isDefined, DPolygon.isDefined, DCone.isDefined, DCuboid.isDefined, and_assoc]
  have a : cs.all DShape3.isDefined = true ↔ ∀ c ∈ cs, Whole3 c := by
    rw [List.all_eq_true]
    exact forall₂_congr fun c _ => e c
  have i : DTrans.Identity.isDefined = true := rfl
  have t : DTrans.Identity.type = .identity := rfl
  rw [DShape3.moveComposite, i, t]
  constructor
  · intro h
    simp only [Bool.not_true, Bool.false_eq_true, if_false, Bool.true_and, if_true] at h
    split_ifs at h with h1
    exact ⟨a.1 (by simpa using h1), (Except.ok.inj h).symm⟩
  · rintro ⟨h, rfl⟩
    rw [a.2 h]
    rfl

/-- **C152.** The identity leaves every defined composite as it is, bit for bit, whatever its members. -/
theorem C152_identity (o : Bool) (q : Order4) {cs : List DShape3} (h : ∀ c ∈ cs, c.isDefined = true) : DShape3.moveComposite o q DTrans.Identity (true, cs) = .ok (true, cs) := by
  have a : cs.all DShape3.isDefined = true := by rw [List.all_eq_true]; exact h
  rw [DShape3.moveComposite, a]
  rfl

/-- **C152, fails.** The identity does not leave a member as it is when it is not in a composite: it makes the zero coordinates of a defined point with an infinite coordinate undefined. -/
theorem C152_identity_violated (o : Bool) (q : Order4) : ∃ p : DVec, p.isDefined = true ∧ DShape3.moveComposite o q DTrans.Identity (true, [.point p]) = .ok (true, [.point p]) ∧
    ∃ r, DShape3.move o q DTrans.Identity (.point p) = .ok (.point r) ∧ r.isDefined = false := by
  have d : (⟨.inf false, .fin 0, .fin 0⟩ : DVec).isDefined = true := by simp [DVec.isDefined]
  refine ⟨⟨.inf false, .fin 0, .fin 0⟩, d, C152_identity o q (by simp [DShape3.isDefined, d]), ?_⟩
  have D : DTrans.Identity.isDefined = true := rfl
  refine ⟨DT3.head q DT3.Identity ⟨.inf false, .fin 0, .fin 0⟩ (.fin 1), ?_, ?_⟩
  · rw [DShape3.move, DTrans.movePoint, D, d, DT3.applyTo, d]
    simp [DTrans.Identity, Except.map]
  · cases q <;> simp [DT3.head, DT3.row, DT3.Identity, DVec.isDefined, F64.mul, F64.add, DT3.sum, F64.ofExact, rnd_zero]

/-- **C152, fails.** A point set can lose points: the two points `(0, 0, 0)` and `(1, 0, 0)` become one when they are moved by a translation by `2 ^ 60`. -/
theorem C152_collapse_violated (q : Order4) : ∃ v : V3, ∃ T, DTrans.Translation (doubles v) = .ok T ∧ DTrans.movePointSet q T [doubles ⟨0, 0, 0⟩, doubles ⟨1, 0, 0⟩] = .ok [doubles ⟨2 ^ 60, 0, 0⟩] := by
  obtain ⟨v, m, hm, e⟩ := C135_collapse_violated q
  exact ⟨v, ⟨.translation, m, true⟩, by rw [DTrans.Translation, hm]; rfl, e⟩

/-- **C152.** Undefined transformations, empty point sets and line strings, pyramids with an undefined base or apex and composites with an undefined member are refused. A composite with a sphere as its first
member that is moved by a transformation not called rigid throws as the sphere does. -/
theorem C152_undefined (o : Bool) (q : Order4) (t : DTrans) (ps : List DVec) (g : DPolygon × DVec) (c : Bool × List DShape3) :
    (t.isDefined = false → DTrans.movePointSet q t ps = .error .undefined ∧ DTrans.moveLineString q t ps = .error .undefined ∧ DTrans.movePyramid q t g = .error .undefined ∧
      DShape3.moveComposite o q t c = .error .undefined) ∧
    DTrans.movePointSet q t [] = .error .undefined ∧ DTrans.moveLineString q t [] = .error .undefined ∧
    (g.1.isDefined = false ∨ g.2.isDefined = false → DTrans.movePyramid q t g = .error .undefined) ∧
    (c.1 = false ∨ (∃ s ∈ c.2, s.isDefined = false) → DShape3.moveComposite o q t c = .error .undefined) ∧
    (∀ (s : DVec × F64 ℝ) (cs : List DShape3), t.isDefined = true → t.type ≠ .identity → t.rigid = false → (∀ d ∈ DShape3.sphere s :: cs, d.isDefined = true) →
      DShape3.moveComposite o q t (true, .sphere s :: cs) = .error .runtimeError) := by
  refine ⟨fun h => ?_, ?_, ?_, fun h => ?_, fun h => ?_, fun s cs h1 h2 h3 h4 => ?_⟩
  · simp [DTrans.movePointSet, DTrans.moveLineString, DTrans.movePyramid, DShape3.moveComposite, h]
  · simp [DTrans.movePointSet, DPoints.applyTransformation]
  · simp [DTrans.moveLineString]
  · rcases h with h | h <;> cases t.isDefined <;> simp [DTrans.movePyramid, h]
  · have : (c.1 && c.2.all DShape3.isDefined) = false := by
      rcases h with h | ⟨s, hs, h⟩
      · simp [h]
      · rw [Bool.and_eq_false_iff]
        right
        rw [List.all_eq_false]
        exact ⟨s, hs, by simp [h]⟩
    rw [DShape3.moveComposite, this]
    cases t.isDefined <;> rfl
  · have a : (DShape3.sphere s :: cs).all DShape3.isDefined = true := by rw [List.all_eq_true]; exact h4
    have d := h4 (.sphere s) (by simp)
    have e : DTrans.moveSphere q t s = .error .runtimeError := by
      simp only [DShape3.isDefined, Bool.and_eq_true, Bool.not_eq_true', decide_eq_false_iff_not] at d
      simp [DTrans.moveSphere, h1, h3, d.1, d.2]
    rw [DShape3.moveComposite, a, h1]
    simp only [Bool.not_true, Bool.false_eq_true, if_false, Bool.true_and, if_neg h2, mapRes, DShape3.move, e, Except.map, bind, Except.bind]

/-- two points that are further apart than their errors, and a translation -/
example (o : Bool) (sin cos : ℝ → ℝ) : (∃ ts, List.Forall₂ (Makes o sin cos) ts [.shift (pure ⟨3, 4, 0⟩)]) ∧ ([⟨0, 0, 0⟩, ⟨3, 4, 0⟩] : List V3).Nodup ∧
    (∀ p ∈ ([⟨0, 0, 0⟩, ⟨3, 4, 0⟩] : List V3), Within p ∧ ‖pure p‖ + Motion.path [.shift (pure ⟨3, 4, 0⟩)] ≤ 2 ^ 490) ∧
    ∀ p ∈ ([⟨0, 0, 0⟩, ⟨3, 4, 0⟩] : List V3), ∀ r ∈ ([⟨0, 0, 0⟩, ⟨3, 4, 0⟩] : List V3), p ≠ r →
      driftOf (-44) 1 (‖pure p‖ + Motion.path [.shift (pure ⟨3, 4, 0⟩)]) + driftOf (-44) 1 (‖pure r‖ + Motion.path [.shift (pure ⟨3, 4, 0⟩)]) < ‖pure p - pure r‖ := by
  have r3 : Representable (3 : ℝ) := by simpa using HalfTurn.rep_lit 3 0 (by norm_num) (by norm_num)
  have r4 : Representable (4 : ℝ) := by simpa using HalfTurn.rep_lit 4 0 (by norm_num) (by norm_num)
  have big : ∀ {n : ℕ}, 4 ≤ n → (16 : ℝ) ≤ 2 ^ n := fun {n} hn => by
    have : (2 : ℝ) ^ 4 ≤ 2 ^ n := pow_le_pow_right₀ one_le_two hn
    norm_num at this
    exact this
  have b := big (n := 499) (by norm_num)
  have b' := big (n := 490) (by norm_num)
  have W : Within ⟨3, 4, 0⟩ := ⟨⟨r3, le_trans (by norm_num) b⟩, ⟨r4, le_trans (by norm_num) b⟩, ⟨representable_zero, le_trans (by norm_num) b⟩⟩
  have five : ‖pure ⟨3, 4, 0⟩‖ = 5 := by
    rw [pure_length, V3.norm, show V3.normSq ⟨3, 4, 0⟩ = 5 ^ 2 by norm_num [V3.normSq, V3.dot]]
    exact Real.sqrt_sq (by norm_num)
  have z : pure ⟨0, 0, 0⟩ = 0 := rfl
  have path : Motion.path [.shift (pure ⟨3, 4, 0⟩)] = 5 := by simp [Motion.path, Motion.reach, five]
  have s : (2 : ℝ) ^ (-1069 : ℤ) ≤ 1 := zpow_le_one_of_nonpos₀ one_le_two (by norm_num)
  have s' : (2 : ℝ) ^ (-44 : ℤ) ≤ 2 ^ (-10 : ℤ) := zpow_le_zpow_right₀ one_le_two (by norm_num)
  rw [show (2 : ℝ) ^ (-10 : ℤ) = 1 / 1024 by norm_num] at s'
  have ne : (⟨0, 0, 0⟩ : V3) ≠ ⟨3, 4, 0⟩ := fun h => by injection h with h _; norm_num at h
  obtain ⟨m, hm⟩ : ∃ m, DT3.Translation (doubles ⟨3, 4, 0⟩) = .ok m := by rw [DT3.Translation, doubles_defined]; exact ⟨_, rfl⟩
  refine ⟨⟨[⟨.translation, m, true⟩], .cons (.shift W (by rw [DTrans.Translation, hm]; rfl)) .nil⟩, by simp [ne], ?_, ?_⟩
  · intro p hp
    rw [path]
    simp only [List.mem_cons, List.not_mem_nil, or_false] at hp
    rcases hp with rfl | rfl
    · exact ⟨within_origin, by rw [z, norm_zero]; exact le_trans (by norm_num) b'⟩
    · exact ⟨W, by rw [five]; exact le_trans (by norm_num) b'⟩
  · intro p hp r hr k
    rw [path]
    simp only [List.mem_cons, List.not_mem_nil, or_false] at hp hr
    unfold driftOf
    rcases hp with rfl | rfl <;> rcases hr with rfl | rfl
    · exact absurd rfl k
    · rw [z, zero_sub, norm_neg, five, norm_zero]
      clear b b'
      generalize (2 : ℝ) ^ (-1069 : ℤ) = A at *
      generalize (2 : ℝ) ^ (-44 : ℤ) = B at *
      push_cast
      linarith
    · rw [z, sub_zero, five, norm_zero]
      clear b b'
      generalize (2 : ℝ) ^ (-1069 : ℤ) = A at *
      generalize (2 : ℝ) ^ (-44 : ℤ) = B at *
      push_cast
      linarith
    · exact absurd rfl k

/-- a composite of a sphere and a ray, and a transformation that is not called rigid -/
example : (∀ d ∈ [DShape3.sphere (⟨.fin 0, .fin 0, .fin 0⟩, .fin 1), .ray (⟨.inf true, .fin 0, .fin 0⟩, ⟨.fin 0, .fin 0, .fin 1⟩)], d.isDefined = true) ∧
    (⟨.affine, DT3.Identity, false⟩ : DTrans).isDefined = true ∧ (⟨.affine, DT3.Identity, false⟩ : DTrans).type ≠ .identity := by
  refine ⟨?_, by simp [DTrans.isDefined], by simp⟩
  intro d hd
  simp only [List.mem_cons, List.not_mem_nil, or_false] at hd
  rcases hd with rfl | rfl <;> simp [DShape3.isDefined, DVec.isDefined]

end Verif.Props
