import Verif.Lemmas.DoubleMove
import Verif.Lemmas.DoublePoints
import Verif.Lemmas.DoublePlaneSets
import Verif.Model.DoubleSets

/-!
# Lemmas for C152: point sets, line strings, pyramids and composites of space moved in double precision
-/

namespace Verif.Props

open Verif Verif.Spec Verif.Double

namespace Sets3

theorem insert_ok : ∀ (qs s : List DVec) {r : List DVec}, DPoints.insertAll s qs = .ok r → ∀ q ∈ qs, q.isDefined = true := by
  intro qs
  induction qs with
  | nil => intro s r _ q hq; simp at hq
  | cons a qs ih =>
    intro s r h q hq
    rw [DPoints.insertAll] at h
    cases ha : a.isDefined
    · simp [ha] at h
    · rw [ha] at h
      simp only [Bool.not_true, Bool.false_eq_true, if_false] at h
      rcases List.mem_cons.1 hq with rfl | hq
      · exact ha
      · exact ih _ h q hq

theorem point_eq {q : Order4} {t : DTrans} (h : t.isDefined = true) (p : DVec) : t.movePoint q p = DT3.applyTo q t.matrix p := by
  rw [DTrans.movePoint, h, DT3.applyTo]
  cases p.isDefined <;> simp

theorem point_ok {q : Order4} {t : DTrans} {p a : DVec} (h : t.movePoint q p = .ok a) : t.isDefined = true ∧ p.isDefined = true := by
  rw [DTrans.movePoint] at h
  cases h1 : t.isDefined <;> cases h2 : p.isDefined <;> simp_all

theorem many_cons {σ : Type} (F : DTrans → σ → Res σ) (t : DTrans) (ts : List DTrans) (s r : σ) : DTrans.many F (t :: ts) s = .ok r ↔ ∃ s', F t s = .ok s' ∧ DTrans.many F ts s' = .ok r := by
  rw [DTrans.many]
  cases F t s with
  | error e => exact ⟨fun h => (by cases h), fun ⟨_, h, _⟩ => (by cases h)⟩
  | ok s' => exact ⟨fun h => ⟨s', rfl, h⟩, fun ⟨_, h, k⟩ => by obtain rfl := Except.ok.inj h; exact k⟩

/-- a point set moved once -/
theorem set_step {o : Order4} {t : DTrans} {ps : List DVec} : (∃ rs, t.movePointSet o ps = .ok rs) ↔ ps ≠ [] ∧ ∀ p ∈ ps, ∃ q, t.movePoint o p = .ok q ∧ q.isDefined = true := by
  constructor
  · rintro ⟨rs, h⟩
    rw [DTrans.movePointSet, DPoints.applyTransformation] at h
    split_ifs at h with h1 h2
    have ht : t.isDefined = true := by simpa using h1
    obtain ⟨qs, hq, h'⟩ := ok_of_bind h
    have d := insert_ok _ _ h'
    have f := Sets2.mapRes_iff.1 hq
    refine ⟨by rintro rfl; simp at h2, fun p hp => ?_⟩
    clear h h' hq h2
    induction f with
    | nil => simp at hp
    | @cons a b l l' h1 h2 ih =>
      rcases List.mem_cons.1 hp with rfl | hp
      · exact ⟨b, by rw [point_eq ht]; exact h1, d b (by simp)⟩
      · exact ih (fun q hq => d q (by simp [hq])) hp
  · rintro ⟨ne, h⟩
    obtain ⟨p, hp⟩ := List.exists_mem_of_ne_nil _ ne
    have ht : t.isDefined = true := by
      obtain ⟨q, hq, -⟩ := h p hp
      exact (point_ok hq).1
    have ex : ∃ qs, mapRes (DT3.applyTo o t.matrix) ps = .ok qs ∧ ∀ q ∈ qs, q.isDefined = true := by
      clear hp ne
      induction ps with
      | nil => exact ⟨[], rfl, by simp⟩
      | cons a l ih =>
        obtain ⟨q, hq, d⟩ := h a (by simp)
        obtain ⟨qs, e, d'⟩ := ih (fun p hp => h p (by simp [hp]))
        rw [point_eq ht] at hq
        refine ⟨q :: qs, by simp [mapRes, hq, e], ?_⟩
        intro x hx
        rcases List.mem_cons.1 hx with rfl | hx
        · exact d
        · exact d' x hx
    obtain ⟨qs, e, d⟩ := ex
    obtain ⟨r, hr, -⟩ := insert_all qs [] d List.nodup_nil
    have ne' : ps.isEmpty = false := by cases ps <;> simp at ne ⊢
    refine ⟨r, ?_⟩
    rw [DTrans.movePointSet, DPoints.applyTransformation, ht, ne']
    simp only [Bool.not_true, Bool.false_eq_true, if_false, e, bind, Except.bind]
    exact hr

/-- the points of a point set moved once -/
theorem set_mem {o : Order4} {t : DTrans} {ps rs : List DVec} (h : t.movePointSet o ps = .ok rs) : rs.Nodup ∧ rs ≠ [] ∧ ∀ q, q ∈ rs ↔ ∃ p ∈ ps, t.movePoint o p = .ok q := by
  obtain ⟨ne, hk⟩ := set_step.1 ⟨rs, h⟩
  rw [DTrans.movePointSet, DPoints.applyTransformation] at h
  split_ifs at h with h1 h2
  have ht : t.isDefined = true := by simpa using h1
  obtain ⟨qs, hq, h'⟩ := ok_of_bind h
  obtain ⟨r, hr, n, m⟩ := insert_all qs [] (insert_ok _ _ h') List.nodup_nil
  rw [h'] at hr
  obtain rfl := Except.ok.inj hr
  have M : ∀ q, q ∈ rs ↔ ∃ p ∈ ps, t.movePoint o p = .ok q := fun q => by
    rw [m]
    have f := Sets2.mapRes_iff.1 hq
    clear m n hk ne h h' h2 hq hr h1
    simp only [point_eq ht, List.not_mem_nil, false_or]
    induction f with
    | nil => simp
    | @cons a b l l' h1 h2 ih =>
      have ih' : q ∈ l' ↔ ∃ p ∈ l, DT3.applyTo o t.matrix p = .ok q := ih
      rw [List.mem_cons, ih']
      simp only [List.mem_cons, exists_eq_or_imp, h1, Except.ok.injEq]
      rw [eq_comm]
  refine ⟨n, ?_, M⟩
  obtain ⟨p, hp⟩ := List.exists_mem_of_ne_nil _ ne
  obtain ⟨q, hq, -⟩ := hk p hp
  exact List.ne_nil_of_mem ((M q).2 ⟨p, hp, hq⟩)

/-- a point set moved several times -/
theorem set_many {o : Order4} : ∀ (ts : List DTrans) {ps : List DVec}, ts ≠ [] → ((∃ rs, DTrans.many (DTrans.movePointSet o) ts ps = .ok rs) ↔
    ps ≠ [] ∧ ∀ p ∈ ps, ∃ q, DTrans.many (DTrans.movePoint o) ts p = .ok q ∧ q.isDefined = true) ∧
    ∀ rs, DTrans.many (DTrans.movePointSet o) ts ps = .ok rs → rs.Nodup ∧ ∀ q, q ∈ rs ↔ ∃ p ∈ ps, DTrans.many (DTrans.movePoint o) ts p = .ok q := by
  intro ts
  induction ts with
  | nil => exact fun h => absurd rfl h
  | cons t ts ih =>
    intro ps _
    simp only [many_cons]
    by_cases hts : ts = []
    · subst hts
      simp only [DTrans.many, Except.ok.injEq, exists_eq_right]
      exact ⟨⟨fun ⟨rs, h⟩ => set_step.1 ⟨rs, h⟩, set_step.2⟩, fun rs h => ⟨(set_mem h).1, (set_mem h).2.2⟩⟩
    · refine ⟨⟨?_, ?_⟩, ?_⟩
      · rintro ⟨rs, s, h1, h2⟩
        obtain ⟨-, -, m⟩ := set_mem h1
        obtain ⟨ne, d⟩ := set_step.1 ⟨s, h1⟩
        obtain ⟨-, d'⟩ := (ih hts).1.1 ⟨rs, h2⟩
        refine ⟨ne, fun p hp => ?_⟩
        obtain ⟨q, hq, -⟩ := d p hp
        obtain ⟨r, hr, k⟩ := d' q ((m q).2 ⟨p, hp, hq⟩)
        exact ⟨r, ⟨q, hq, hr⟩, k⟩
      · rintro ⟨ne, d⟩
        have st : ∀ p ∈ ps, ∃ q, t.movePoint o p = .ok q ∧ q.isDefined = true := fun p hp => by
          obtain ⟨r, ⟨q, hq, hr⟩, -⟩ := d p hp
          refine ⟨q, hq, ?_⟩
          cases ts with
          | nil => exact absurd rfl hts
          | cons t' ts =>
            obtain ⟨q', h', -⟩ := (many_cons _ _ _ _ _).1 hr
            exact (point_ok h').2
        obtain ⟨s, hs⟩ := set_step.2 ⟨ne, st⟩
        obtain ⟨-, ne', m⟩ := set_mem hs
        obtain ⟨rs, hr⟩ := (ih (ps := s) hts).1.2 ⟨ne', fun q hq => by
          obtain ⟨p, hp, e⟩ := (m q).1 hq
          obtain ⟨r, ⟨q', h1, h2⟩, k⟩ := d p hp
          rw [e] at h1
          obtain rfl := Except.ok.inj h1
          exact ⟨r, h2, k⟩⟩
        exact ⟨rs, s, hs, hr⟩
      · rintro rs ⟨s, h1, h2⟩
        obtain ⟨-, -, m⟩ := set_mem h1
        obtain ⟨n, m'⟩ := (ih hts).2 rs h2
        refine ⟨n, fun r => ?_⟩
        rw [m']
        constructor
        · rintro ⟨q, hq, e⟩
          obtain ⟨p, hp, e'⟩ := (m q).1 hq
          exact ⟨p, hp, q, e', e⟩
        · rintro ⟨p, hp, q, e', e⟩
          exact ⟨q, (m q).2 ⟨p, hp, e'⟩, e⟩

/-- a line string moved once -/
theorem string_step {q : Order4} {t : DTrans} {ps rs : List DVec} (ne : ps ≠ []) : t.moveLineString q ps = .ok rs ↔ List.Forall₂ (fun p r => t.movePoint q p = .ok r) ps rs := by
  rw [← Sets2.mapRes_iff, DTrans.moveLineString]
  cases ht : t.isDefined
  · refine ⟨fun h => (by simp at h), fun h => ?_⟩
    have := Sets2.mapRes_iff.1 h
    cases this with
    | nil => exact absurd rfl ne
    | cons k _ =>
      rw [(point_ok k).1] at ht
      cases ht
  · simp [ne]

theorem move_defined {o : Bool} {q : Order4} {t : DTrans} {s r : DShape3} (h : s.move o q t = .ok r) : t.isDefined = true ∧ s.isDefined = true := by
  have k : ∀ {α : Type} {f : α → DShape3} {x : Res α}, x.map f = .ok r → ∃ a, x = .ok a := fun {α f x} h => by
    cases x with
    | error e => cases h
    | ok a => exact ⟨a, rfl⟩
  cases s <;> obtain ⟨a, h⟩ := k h
  · exact point_ok h
  · rw [DTrans.movePointSet, DPoints.applyTransformation] at h
    split_ifs at h
    simp_all [DShape3.isDefined]
  · rw [DTrans.moveLine] at h
    split_ifs at h
    simp_all [DShape3.isDefined]
  · rw [DTrans.moveLine] at h
    split_ifs at h
    simp_all [DShape3.isDefined]
  · rw [DTrans.moveSegment] at h
    split_ifs at h
    simp_all [DShape3.isDefined]
  · rw [DTrans.moveLineString] at h
    split_ifs at h
    simp_all [DShape3.isDefined]
  · rw [DTrans.moveLine] at h
    split_ifs at h
    simp_all [DShape3.isDefined]
  · rw [DPolygon.move] at h
    split_ifs at h
    simp_all [DShape3.isDefined]
  · rw [DTrans.movePyramid] at h
    split_ifs at h
    simp_all [DShape3.isDefined]
  · rw [DTrans.moveSphere] at h
    split_ifs at h
    simp_all [DShape3.isDefined]
  · rw [DTrans.moveCone] at h
    split_ifs at h
    simp_all [DShape3.isDefined]
  · rw [DTrans.moveCuboid] at h
    split_ifs at h <;> simp_all [DShape3.isDefined]

/-- a composite moved once -/
theorem composite_step {o : Bool} {q : Order4} {t : DTrans} (hi : t.type ≠ .identity) (ht : t.isDefined = true) {cs : List DShape3} {r : Bool × List DShape3} :
    DShape3.moveComposite o q t (true, cs) = .ok r ↔ r.1 = true ∧ List.Forall₂ (fun c d => DShape3.move o q t c = .ok d) cs r.2 := by
  rw [DShape3.moveComposite, ht]
  simp only [Bool.not_true, Bool.false_eq_true, if_false, Bool.true_and, if_neg hi]
  constructor
  · intro h
    split_ifs at h
    obtain ⟨ds, hd, h⟩ := ok_of_bind h
    obtain rfl := Except.ok.inj h
    exact ⟨rfl, Sets2.mapRes_iff.1 hd⟩
  · rintro ⟨e, f⟩
    have d : cs.all DShape3.isDefined = true := by
      rw [List.all_eq_true]
      intro c hc
      clear e
      obtain ⟨b, ds⟩ := r
      change List.Forall₂ _ cs ds at f
      induction f with
      | nil => simp at hc
      | cons h1 _ ih =>
        rcases List.mem_cons.1 hc with rfl | hc
        · exact (move_defined h1).2
        · exact ih hc
    rw [d, Sets2.mapRes_iff.2 f]
    obtain ⟨b, ds⟩ := r
    obtain rfl : b = true := e
    rfl

/-- the ends of a segment are moved by themselves -/
theorem segment_many {q : Order4} : ∀ (ts : List DTrans) {a b c d : DVec}, DTrans.many (DTrans.moveSegment q) ts (a, b) = .ok (c, d) →
    DTrans.many (DTrans.movePoint q) ts a = .ok c ∧ DTrans.many (DTrans.movePoint q) ts b = .ok d := by
  intro ts
  induction ts with
  | nil =>
    intro a b c d h
    obtain ⟨rfl, rfl⟩ := Prod.mk.inj (Except.ok.inj h)
    exact ⟨rfl, rfl⟩
  | cons t ts ih =>
    intro a b c d h
    obtain ⟨⟨x, y⟩, h1, h2⟩ := (many_cons _ _ _ _ _).1 h
    obtain ⟨k1, k2⟩ := ih h2
    rw [DTrans.moveSegment] at h1
    split_ifs at h1
    obtain ⟨x', hx, h1⟩ := ok_of_bind h1
    obtain ⟨y', hy, h1⟩ := ok_of_bind h1
    obtain ⟨rfl, rfl⟩ := Prod.mk.inj (Except.ok.inj h1)
    exact ⟨(many_cons _ _ _ _ _).2 ⟨_, hx, k1⟩, (many_cons _ _ _ _ _).2 ⟨_, hy, k2⟩⟩

/-- a pyramid is moved with its base and its apex -/
theorem pyramid_many {q : Order4} : ∀ (ts : List DTrans) {g h : DPolygon × DVec}, DTrans.many (DTrans.movePyramid q) ts g = .ok h ↔
    DTrans.many (DPolygon.move q) ts g.1 = .ok h.1 ∧ DTrans.many (DTrans.movePoint q) ts g.2 = .ok h.2 := by
  intro ts
  induction ts with
  | nil =>
    rintro ⟨a, b⟩ ⟨c, d⟩
    simp [DTrans.many]
  | cons t ts ih =>
    rintro ⟨a, b⟩ ⟨c, d⟩
    simp only [many_cons]
    constructor
    · rintro ⟨⟨x, y⟩, h1, h2⟩
      obtain ⟨k1, k2⟩ := ih.1 h2
      rw [DTrans.movePyramid] at h1
      split_ifs at h1
      obtain ⟨x', hx, h1⟩ := ok_of_bind h1
      obtain ⟨y', hy, h1⟩ := ok_of_bind h1
      obtain ⟨rfl, rfl⟩ := Prod.mk.inj (Except.ok.inj h1)
      exact ⟨⟨_, hx, k1⟩, ⟨_, hy, k2⟩⟩
    · rintro ⟨⟨x, hx, k1⟩, ⟨y, hy, k2⟩⟩
      refine ⟨(x, y), ?_, ih.2 ⟨k1, k2⟩⟩
      obtain ⟨t1, d2⟩ := point_ok hy
      have d1 : a.isDefined = true := by
        rw [DPolygon.move] at hx
        split_ifs at hx
        simp_all
      simp only [DTrans.movePyramid, t1, d1, d2, hx, hy, bind, Except.bind]
      rfl

theorem points_keep {o : Bool} {sin cos : ℝ → ℝ} (hs : Accurate sin Real.sin) (hc : Accurate cos Real.cos) {ts : List DTrans} {ms : List Motion} (h : List.Forall₂ (Makes o sin cos) ts ms) :
    ∀ x y : Quaternion ℝ, ‖Motion.points ms x - Motion.points ms y‖ = ‖x - y‖ := by
  induction h with
  | nil => exact fun x y => rfl
  | cons k _ ih => exact fun x y => (ih _ _).trans (Move.keeps hs hc k x y).1

end Sets3

end Verif.Props
