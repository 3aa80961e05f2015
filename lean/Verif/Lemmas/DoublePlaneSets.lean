import Verif.Lemmas.DoublePlaneMove
import Verif.Lemmas.DoublePoints
import Verif.Model.DoublePlaneSets

/-!
# Lemmas for C151: point sets, multi-polygons and composites of the plane moved in double precision
-/

namespace Verif.Props

open Verif Verif.Spec Verif.Double

namespace Sets2

theorem eq_iff {a b : DVec2} (h : a.isDefined = true) : a.eq b = true ↔ a = b := by
  obtain ⟨x, y⟩ := a
  obtain ⟨x', y'⟩ := b
  simp only [DVec2.isDefined, decide_eq_true_eq] at h
  have k : ∀ {s t : F64 ℝ}, s ≠ .nan → (s.eq t = true ↔ s = t) := fun {s t} hs => by
    cases s <;> cases t <;> simp [F64.eq] at hs ⊢
  simp only [DVec2.eq, Bool.and_eq_true, k h.1, k h.2, DVec2.mk.injEq]

theorem insert_all : ∀ (qs s : List DVec2), (∀ q ∈ qs, q.isDefined = true) → s.Nodup → ∃ r, DTrans2.insertAll s qs = .ok r ∧ r.Nodup ∧ (∀ q, q ∈ r ↔ q ∈ s ∨ q ∈ qs) := by
  intro qs
  induction qs with
  | nil => exact fun s _ hs => ⟨s, rfl, hs, by simp⟩
  | cons a qs ih =>
    intro s hd hs
    have ha := hd a (by simp)
    rw [DTrans2.insertAll, ha]
    simp only [Bool.not_true, Bool.false_eq_true, if_false]
    have any : s.any (DVec2.eq a) = true ↔ a ∈ s := by
      rw [List.any_eq_true]
      constructor
      · rintro ⟨x, hx, e⟩
        rwa [(eq_iff ha).1 e]
      · exact fun h => ⟨a, h, (eq_iff ha).2 rfl⟩
    by_cases h : a ∈ s
    · rw [if_pos (any.2 h)]
      obtain ⟨r, e, n, m⟩ := ih s (fun q h => hd q (by simp [h])) hs
      refine ⟨r, e, n, fun q => ?_⟩
      rw [m, List.mem_cons]
      constructor
      · rintro (k | k) <;> simp [k]
      · rintro (k | rfl | k)
        · exact Or.inl k
        · exact Or.inl h
        · exact Or.inr k
    · rw [if_neg (fun k => h (any.1 k))]
      obtain ⟨r, e, n, m⟩ := ih (s ++ [a]) (fun q h => hd q (by simp [h])) (by
        rw [List.nodup_append]
        refine ⟨hs, by simp, ?_⟩
        rintro x hx y hy rfl
        simp at hy
        exact h (hy ▸ hx))
      refine ⟨r, e, n, fun q => ?_⟩
      rw [m]
      simp [or_assoc]

theorem insert_ok : ∀ (qs s : List DVec2) {r : List DVec2}, DTrans2.insertAll s qs = .ok r → ∀ q ∈ qs, q.isDefined = true := by
  intro qs
  induction qs with
  | nil => intro s r _ q hq; simp at hq
  | cons a qs ih =>
    intro s r h q hq
    rw [DTrans2.insertAll] at h
    cases ha : a.isDefined
    · simp [ha] at h
    · rw [ha] at h
      simp only [Bool.not_true, Bool.false_eq_true, if_false] at h
      rcases List.mem_cons.1 hq with rfl | hq
      · exact ha
      · exact ih _ h q hq

theorem mapRes_iff {α β : Type} {f : α → Res β} : ∀ {l : List α} {m : List β}, mapRes f l = .ok m ↔ List.Forall₂ (fun a b => f a = .ok b) l m := by
  intro l
  induction l with
  | nil =>
    intro m
    cases m <;> simp [mapRes]
  | cons a l ih =>
    intro m
    rw [mapRes]
    cases ha : f a with
    | error e =>
      refine ⟨fun h => (by cases h), fun h => ?_⟩
      cases h with
      | cons h _ => rw [ha] at h; cases h
    | ok b =>
      cases hl : mapRes f l with
      | error e =>
        refine ⟨fun h => (by cases h), fun h => ?_⟩
        cases h with
        | cons _ h => rw [ih.2 h] at hl; cases hl
      | ok k =>
        constructor
        · intro h
          obtain rfl := Except.ok.inj h
          exact .cons ha (ih.1 hl)
        · intro h
          cases h with
          | cons h1 h2 =>
            rw [ha] at h1
            obtain rfl := Except.ok.inj h1
            have := ih.2 h2
            rw [hl] at this
            obtain rfl := Except.ok.inj this
            rfl

theorem point_eq {o : Bool} {t : DTrans2} (h : t.isDefined = true) (p : DVec2) : t.movePoint o p = DT2.applyTo o t.matrix p := by
  rw [DTrans2.movePoint, h]
  by_cases hp : p.isDefined = true
  · simp [hp]
  · have : p.x = .nan ∨ p.y = .nan := by
      simp only [DVec2.isDefined, decide_eq_true_eq] at hp
      tauto
    simp [hp, DT2.applyTo, this]

/-- a point set moved once -/
theorem set_step {o : Bool} {t : DTrans2} {ps : List DVec2} : (∃ rs, t.movePointSet o ps = .ok rs) ↔ ps ≠ [] ∧ ∀ p ∈ ps, ∃ q, t.movePoint o p = .ok q ∧ q.isDefined = true := by
  constructor
  · rintro ⟨rs, h⟩
    rw [DTrans2.movePointSet] at h
    split_ifs at h with h1 h2
    have ht : t.isDefined = true := by simpa using h1
    obtain ⟨qs, hq, h'⟩ := ok_of_bind h
    have d := insert_ok _ _ h'
    have f := mapRes_iff.1 hq
    refine ⟨by rintro rfl; simp at h2, fun p hp => ?_⟩
    clear h h' hq h2
    induction f with
    | nil => simp at hp
    | @cons a b l l' h1 h2 ih =>
      rcases List.mem_cons.1 hp with rfl | hp
      · exact ⟨b, by rw [point_eq ht]; exact h1, d b (by simp)⟩
      · exact ih (fun q hq => d q (by simp [hq])) hp
  · rintro ⟨ne, h⟩
    obtain ⟨p, hp⟩ := List.exists_mem_of_ne_nil _ ne
    have ht : t.isDefined = true := by
      obtain ⟨q, hq, -⟩ := h p hp
      exact (Move2.point_ok hq).1
    have ex : ∃ qs, mapRes (DT2.applyTo o t.matrix) ps = .ok qs ∧ ∀ q ∈ qs, q.isDefined = true := by
      clear hp ne
      induction ps with
      | nil => exact ⟨[], rfl, by simp⟩
      | cons a l ih =>
        obtain ⟨q, hq, d⟩ := h a (by simp)
        obtain ⟨qs, e, d'⟩ := ih (fun p hp => h p (by simp [hp]))
        rw [point_eq ht] at hq
        refine ⟨q :: qs, by simp [mapRes, hq, e], ?_⟩
        intro x hx
        rcases List.mem_cons.1 hx with rfl | hx
        · exact d
        · exact d' x hx
    obtain ⟨qs, e, d⟩ := ex
    obtain ⟨r, hr, -⟩ := insert_all qs [] d List.nodup_nil
    have ne' : ps.isEmpty = false := by cases ps <;> simp at ne ⊢
    refine ⟨r, ?_⟩
    rw [DTrans2.movePointSet, ht, ne']
    simp only [Bool.not_true, Bool.false_eq_true, if_false, e, bind, Except.bind]
    exact hr

/-- the points of a point set moved once -/
theorem set_mem {o : Bool} {t : DTrans2} {ps rs : List DVec2} (h : t.movePointSet o ps = .ok rs) : rs.Nodup ∧ rs ≠ [] ∧ ∀ q, q ∈ rs ↔ ∃ p ∈ ps, t.movePoint o p = .ok q := by
  obtain ⟨ne, hk⟩ := set_step.1 ⟨rs, h⟩
  rw [DTrans2.movePointSet] at h
  split_ifs at h with h1 h2
  have ht : t.isDefined = true := by simpa using h1
  obtain ⟨qs, hq, h'⟩ := ok_of_bind h
  obtain ⟨r, hr, n, m⟩ := insert_all qs [] (insert_ok _ _ h') List.nodup_nil
  rw [h'] at hr
  obtain rfl := Except.ok.inj hr
  have M : ∀ q, q ∈ rs ↔ ∃ p ∈ ps, t.movePoint o p = .ok q := fun q => by
    rw [m]
    have f := mapRes_iff.1 hq
    clear m n hk ne h h' h2 hq hr h1
    simp only [point_eq ht, List.not_mem_nil, false_or]
    induction f with
    | nil => simp
    | @cons a b l l' h1 h2 ih =>
      have ih' : q ∈ l' ↔ ∃ p ∈ l, DT2.applyTo o t.matrix p = .ok q := ih
      rw [List.mem_cons, ih']
      simp only [List.mem_cons, exists_eq_or_imp, h1, Except.ok.injEq]
      rw [eq_comm]
  refine ⟨n, ?_, M⟩
  obtain ⟨p, hp⟩ := List.exists_mem_of_ne_nil _ ne
  obtain ⟨q, hq, -⟩ := hk p hp
  exact List.ne_nil_of_mem ((M q).2 ⟨p, hp, hq⟩)

/-- a point set moved several times -/
theorem set_many {o : Bool} : ∀ (ts : List DTrans2) {ps : List DVec2}, ts ≠ [] → ((∃ rs, DTrans2.many (DTrans2.movePointSet o) ts ps = .ok rs) ↔
    ps ≠ [] ∧ ∀ p ∈ ps, ∃ q, DTrans2.many (DTrans2.movePoint o) ts p = .ok q ∧ q.isDefined = true) ∧
    ∀ rs, DTrans2.many (DTrans2.movePointSet o) ts ps = .ok rs → rs.Nodup ∧ ∀ q, q ∈ rs ↔ ∃ p ∈ ps, DTrans2.many (DTrans2.movePoint o) ts p = .ok q := by
  have bnd : ∀ {σ : Type} (F : DTrans2 → σ → Res σ) (t : DTrans2) (ts : List DTrans2) (s r : σ), DTrans2.many F (t :: ts) s = .ok r ↔ ∃ s', F t s = .ok s' ∧ DTrans2.many F ts s' = .ok r := fun F t ts s r => by
    rw [DTrans2.many]
    cases F t s with
    | error e => exact ⟨fun h => (by cases h), fun ⟨_, h, _⟩ => (by cases h)⟩
    | ok s' => exact ⟨fun h => ⟨s', rfl, h⟩, fun ⟨_, h, k⟩ => by obtain rfl := Except.ok.inj h; exact k⟩
  intro ts
  induction ts with
  | nil => exact fun h => absurd rfl h
  | cons t ts ih =>
    intro ps _
    simp only [bnd]
    by_cases hts : ts = []
    · subst hts
      simp only [DTrans2.many, Except.ok.injEq, exists_eq_right]
      exact ⟨⟨fun ⟨rs, h⟩ => set_step.1 ⟨rs, h⟩, set_step.2⟩, fun rs h => ⟨(set_mem h).1, (set_mem h).2.2⟩⟩
    · refine ⟨⟨?_, ?_⟩, ?_⟩
      · rintro ⟨rs, s, h1, h2⟩
        obtain ⟨-, -, m⟩ := set_mem h1
        obtain ⟨ne, d⟩ := set_step.1 ⟨s, h1⟩
        obtain ⟨-, d'⟩ := (ih hts).1.1 ⟨rs, h2⟩
        refine ⟨ne, fun p hp => ?_⟩
        obtain ⟨q, hq, -⟩ := d p hp
        obtain ⟨r, hr, k⟩ := d' q ((m q).2 ⟨p, hp, hq⟩)
        exact ⟨r, ⟨q, hq, hr⟩, k⟩
      · rintro ⟨ne, d⟩
        have st : ∀ p ∈ ps, ∃ q, t.movePoint o p = .ok q ∧ q.isDefined = true := fun p hp => by
          obtain ⟨r, ⟨q, hq, hr⟩, -⟩ := d p hp
          refine ⟨q, hq, ?_⟩
          cases ts with
          | nil => exact absurd rfl hts
          | cons t' ts =>
            obtain ⟨q', h', -⟩ := (bnd _ _ _ _ _).1 hr
            exact (Move2.point_ok h').2.1
        obtain ⟨s, hs⟩ := set_step.2 ⟨ne, st⟩
        obtain ⟨-, ne', m⟩ := set_mem hs
        obtain ⟨rs, hr⟩ := (ih (ps := s) hts).1.2 ⟨ne', fun q hq => by
          obtain ⟨p, hp, e⟩ := (m q).1 hq
          obtain ⟨r, ⟨q', h1, h2⟩, k⟩ := d p hp
          rw [e] at h1
          obtain rfl := Except.ok.inj h1
          exact ⟨r, h2, k⟩⟩
        exact ⟨rs, s, hs, hr⟩
      · rintro rs ⟨s, h1, h2⟩
        obtain ⟨-, -, m⟩ := set_mem h1
        obtain ⟨n, m'⟩ := (ih hts).2 rs h2
        refine ⟨n, fun r => ?_⟩
        rw [m']
        constructor
        · rintro ⟨q, hq, e⟩
          obtain ⟨p, hp, e'⟩ := (m q).1 hq
          exact ⟨p, hp, q, e', e⟩
        · rintro ⟨p, hp, q, e', e⟩
          exact ⟨q, (m q).2 ⟨p, hp, e'⟩, e⟩

theorem many_multi {ts : List DTrans2} (h : ∀ T ∈ ts, T.isDefined = true) {gs : List (List DVec2 × List (List DVec2))} (ne : gs ≠ []) :
    DTrans2.many DTrans2.moveMultiPolygon ts gs =
      .ok (gs.map fun g => (g.1.map fun p => ts.foldl (fun q T => DTrans2.boostPoint T.matrix q) p, g.2.map fun r => r.map fun p => ts.foldl (fun q T => DTrans2.boostPoint T.matrix q) p)) := by
  induction ts generalizing gs with
  | nil => simp [DTrans2.many]
  | cons T ts ih =>
    rw [DTrans2.many, DTrans2.moveMultiPolygon, h T (by simp), if_neg (by simp), if_neg (by simpa using ne)]
    change DTrans2.many DTrans2.moveMultiPolygon ts _ = _
    rw [ih (fun T hT => h T (by simp [hT])) (by simpa using ne)]
    simp [List.map_map, Function.comp_def]

theorem move_defined {o : Bool} {t : DTrans2} {s r : DShape2} (h : s.move o t = .ok r) : t.isDefined = true ∧ s.isDefined = true := by
  have k : ∀ {α : Type} {f : α → DShape2} {x : Res α}, x.map f = .ok r → ∃ a, x = .ok a := fun {α f x} h => by
    cases x with
    | error e => cases h
    | ok a => exact ⟨a, rfl⟩
  cases s <;> obtain ⟨a, h⟩ := k h
  · obtain ⟨h1, h2, -⟩ := Move2.point_ok h
    exact ⟨h1, h2⟩
  · rw [DTrans2.movePointSet] at h
    split_ifs at h
    simp_all [DShape2.isDefined]
  · rw [DTrans2.moveLine] at h
    split_ifs at h
    simp_all [DShape2.isDefined]
  · rw [DTrans2.moveSegment] at h
    split_ifs at h
    simp_all [DShape2.isDefined]
  · rw [DTrans2.moveLineString] at h
    split_ifs at h
    simp_all [DShape2.isDefined]
  · rw [DTrans2.movePolygon] at h
    split_ifs at h
    simp_all [DShape2.isDefined]
  · rw [DTrans2.moveMultiPolygon] at h
    split_ifs at h
    simp_all [DShape2.isDefined]

/-- a composite moved once -/
theorem composite_step {o : Bool} {t : DTrans2} (hi : t.type ≠ .identity) (ht : t.isDefined = true) {cs : List DShape2} {r : Bool × List DShape2} :
    DShape2.moveComposite o t (true, cs) = .ok r ↔ r.1 = true ∧ List.Forall₂ (fun c d => DShape2.move o t c = .ok d) cs r.2 := by
  rw [DShape2.moveComposite, ht]
  simp only [Bool.not_true, Bool.false_eq_true, if_false, Bool.true_and, if_neg hi]
  constructor
  · intro h
    split_ifs at h
    obtain ⟨ds, hd, h⟩ := ok_of_bind h
    obtain rfl := Except.ok.inj h
    exact ⟨rfl, mapRes_iff.1 hd⟩
  · rintro ⟨e, f⟩
    have d : cs.all DShape2.isDefined = true := by
      rw [List.all_eq_true]
      intro c hc
      clear e
      obtain ⟨b, ds⟩ := r
      change List.Forall₂ _ cs ds at f
      induction f with
      | nil => simp at hc
      | cons h1 _ ih =>
        rcases List.mem_cons.1 hc with rfl | hc
        · exact (move_defined h1).2
        · exact ih hc
    rw [d, mapRes_iff.2 f]
    obtain ⟨b, ds⟩ := r
    obtain rfl : b = true := e
    rfl

theorem forall₂_comp {α β γ : Type} {R : α → β → Prop} {S : β → γ → Prop} : ∀ {l : List α} {n : List γ}, (∃ m, List.Forall₂ R l m ∧ List.Forall₂ S m n) ↔ List.Forall₂ (fun a c => ∃ b, R a b ∧ S b c) l n := by
  intro l
  induction l with
  | nil => intro n; cases n <;> simp
  | cons a l ih =>
    intro n
    constructor
    · rintro ⟨m, h1, h2⟩
      cases h1 with
      | cons r h1 =>
        cases h2 with
        | cons s h2 => exact .cons ⟨_, r, s⟩ (ih.1 ⟨_, h1, h2⟩)
    · intro h
      cases h with
      | cons h1 h2 =>
        obtain ⟨b, r, s⟩ := h1
        obtain ⟨m, h3, h4⟩ := ih.2 h2
        exact ⟨b :: m, .cons r h3, .cons s h4⟩

end Sets2

end Verif.Props
