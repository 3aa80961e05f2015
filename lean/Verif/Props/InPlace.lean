import Verif.Lemmas.InPlace
import Verif.Lemmas.Points
import Verif.Props.EllipsoidTransformation

/-!
# Transforming an object in place, all of it or nothing (C123)
-/

namespace Verif.Props

open Verif Spec Doing

/-! ## Space -/

mutual
/-- no member of a set or a string of points is undefined; ellipsoids have positive semi-axes and a unitary orientation; also inside composites -/
def Sound3 : Obj3 → Prop
  | .pointSet ps => none ∉ ps
  | .lineString ps => none ∉ ps
  | .ellipsoid e => ∀ p a b c q, e = ell p a b c q → 0 < a ∧ 0 < b ∧ 0 < c ∧ Unitary q
  | .composite _ os => SoundAll3 os
  | _ => True
/-- `Sound3` for all of a list -/
def SoundAll3 : List Obj3 → Prop
  | [] => True
  | o :: os => Sound3 o ∧ SoundAll3 os
end

/-- objects that change all at once: neither line strings nor ellipsoids nor composites -/
def Single3 : Obj3 → Prop
  | .lineString _ | .ellipsoid _ | .composite _ _ => False
  | _ => True

theorem settle_same {σ : Type} (r : Res σ) (s : σ) : (settle r s).1 = r.map (fun _ => ()) ∧ ∀ s', r = .ok s' → (settle r s).2 = s' := by
  cases r <;> simp [settle, Except.map]

theorem map_same {σ τ : Type} {x : Res Unit × σ} {r : Res σ} (f : σ → τ) (h : x.1 = r.map (fun _ => ()) ∧ ∀ s', r = .ok s' → x.2 = s') :
    (x.map id f).1 = (r.map f).map (fun _ => ()) ∧ ∀ s', r.map f = .ok s' → (x.map id f).2 = s' := by
  cases r with
  | error e => exact ⟨h.1, fun s' h => by simp [Except.map] at h⟩
  | ok s =>
    refine ⟨h.1, fun s' h' => ?_⟩
    have := h.2 s rfl
    simp only [Except.map, Except.ok.injEq] at h'
    simp [this, h']

mutual
theorem move_same (E : Env3) (t : T3) : ∀ o : Obj3, (o.move E t).1 = (o.applyTransformation E t).map (fun _ => ()) ∧
    ∀ o', o.applyTransformation E t = .ok o' → (o.move E t).2 = o'
  | .point p => by unfold Obj3.move Obj3.applyTransformation; rw [P3.move_eq]; exact map_same _ (settle_same _ _)
  | .pointSet ps => by unfold Obj3.move Obj3.applyTransformation; rw [PointSet3.move_eq]; exact map_same _ (settle_same _ _)
  | .line l => by unfold Obj3.move Obj3.applyTransformation; rw [Line3.move_eq]; exact map_same _ (settle_same _ _)
  | .ray l => by unfold Obj3.move Obj3.applyTransformation; rw [Ray3.move_eq]; exact map_same _ (settle_same _ _)
  | .segment l => by unfold Obj3.move Obj3.applyTransformation; rw [Seg3.move_eq]; exact map_same _ (settle_same _ _)
  | .lineString ps => by unfold Obj3.move Obj3.applyTransformation; exact map_same _ (LineString3.move_same t ps)
  | .polygon l => by unfold Obj3.move Obj3.applyTransformation; rw [Polygon3.move_eq]; exact map_same _ (settle_same _ _)
  | .plane l => by unfold Obj3.move Obj3.applyTransformation; rw [Plane3.move_eq]; exact map_same _ (settle_same _ _)
  | .cuboid l => by unfold Obj3.move Obj3.applyTransformation; rw [Cuboid3.move_eq]; exact map_same _ (settle_same _ _)
  | .sphere l => by unfold Obj3.move Obj3.applyTransformation; rw [Sphere3.move_eq]; exact map_same _ (settle_same _ _)
  | .ellipsoid e => by unfold Obj3.move Obj3.applyTransformation; exact map_same _ (Ellipsoid3.move_same _ _ t e)
  | .pyramid l => by unfold Obj3.move Obj3.applyTransformation; rw [Pyramid3.move_eq]; exact map_same _ (settle_same _ _)
  | .cone l => by unfold Obj3.move Obj3.applyTransformation; rw [Cone3.move_eq]; exact map_same _ (settle_same _ _)
  | .composite d os => by
    have ih := moveAll_same E t os
    unfold Obj3.move Obj3.applyTransformation
    split
    · exact ⟨rfl, fun o' h => by simp at h⟩
    split
    · exact ⟨rfl, fun o' h => by simp at h⟩
    cases hi : t.isIdentity with
    | error e => exact ⟨rfl, fun o' h => by simp at h⟩
    | ok b =>
      cases b with
      | true => exact ⟨rfl, fun o' h => by simpa using h⟩
      | false =>
        dsimp only
        cases ha : Obj3.transformAll E t os with
        | error e => rw [ha] at ih; exact ⟨ih.1, fun o' h => by simp at h⟩
        | ok ps =>
          rw [ha] at ih
          refine ⟨ih.1, fun o' h => ?_⟩
          rw [ih.2 ps rfl]
          simpa using h
theorem moveAll_same (E : Env3) (t : T3) : ∀ os : List Obj3, (Obj3.moveAll E t os).1 = (Obj3.transformAll E t os).map (fun _ => ()) ∧
    ∀ ps, Obj3.transformAll E t os = .ok ps → (Obj3.moveAll E t os).2 = ps
  | [] => by
    unfold Obj3.moveAll Obj3.transformAll
    exact ⟨rfl, fun ps h => by simpa using h⟩
  | o :: os => by
    have h1 := move_same E t o
    have h2 := moveAll_same E t os
    unfold Obj3.moveAll Obj3.transformAll
    rcases hm : Obj3.move E t o with ⟨r, o1⟩
    rw [hm] at h1
    cases ha : Obj3.applyTransformation E t o with
    | error e =>
      rw [ha] at h1
      obtain rfl : r = .error e := h1.1
      exact ⟨rfl, fun ps h => by simp at h⟩
    | ok p =>
      rw [ha] at h1
      obtain rfl : r = .ok () := h1.1
      obtain rfl : o1 = p := h1.2 p rfl
      dsimp only
      cases hb : Obj3.transformAll E t os with
      | error e => rw [hb] at h2; exact ⟨h2.1, fun ps h => by simp at h⟩
      | ok qs =>
        rw [hb] at h2
        refine ⟨h2.1, fun ps h => ?_⟩
        rw [h2.2 qs rfl]
        simpa using h
end

/-- C123: run statement by statement, the transformation of an object in place ends like the function that returns the changed object: it throws when that
returns an error, with the same error, and otherwise leaves the object that it returns -/
theorem C123_same (E : Env3) (t : T3) (o : Obj3) : (o.move E t).1 = (o.applyTransformation E t).map (fun _ => ()) ∧
    ∀ o', o.applyTransformation E t = .ok o' → (o.move E t).2 = o' := move_same E t o

/-- C123: when the transformation of a point, point set, line, ray, segment, polygon, plane, cuboid, sphere, pyramid or cone throws, the object is as it was -/
theorem C123_kept (E : Env3) (t : T3) (o : Obj3) (h : Single3 o) (e : Err) (he : (o.move E t).1 = .error e) : (o.move E t).2 = o := by
  have key : ∀ {σ : Type} (r : Res σ) (s : σ) (f : σ → Obj3), ((settle r s).map id f).1 = .error e → ((settle r s).map id f).2 = f s := by
    intro σ r s f h
    cases r <;> simp_all [settle]
  cases o with
  | lineString ps => exact h.elim
  | ellipsoid x => exact h.elim
  | composite d os => exact h.elim
  | point p => simp only [Obj3.move, P3.move_eq] at he ⊢; exact key _ _ _ he
  | pointSet p => simp only [Obj3.move, PointSet3.move_eq] at he ⊢; exact key _ _ _ he
  | line p => simp only [Obj3.move, Line3.move_eq] at he ⊢; exact key _ _ _ he
  | ray p => simp only [Obj3.move, Ray3.move_eq] at he ⊢; exact key _ _ _ he
  | segment p => simp only [Obj3.move, Seg3.move_eq] at he ⊢; exact key _ _ _ he
  | polygon p => simp only [Obj3.move, Polygon3.move_eq] at he ⊢; exact key _ _ _ he
  | plane p => simp only [Obj3.move, Plane3.move_eq] at he ⊢; exact key _ _ _ he
  | cuboid p => simp only [Obj3.move, Cuboid3.move_eq] at he ⊢; exact key _ _ _ he
  | sphere p => simp only [Obj3.move, Sphere3.move_eq] at he ⊢; exact key _ _ _ he
  | pyramid p => simp only [Obj3.move, Pyramid3.move_eq] at he ⊢; exact key _ _ _ he
  | cone p => simp only [Obj3.move, Cone3.move_eq] at he ⊢; exact key _ _ _ he

example (E : Env3) : Single3 (.sphere ⟨some 0, some 1⟩) ∧ ((Obj3.sphere ⟨some 0, some 1⟩).move E ⟨.scaling, some 1, false⟩).1 = .error .runtimeError := by
  refine ⟨trivial, ?_⟩
  simp [Obj3.move, Sphere3.move_eq, Sphere3.applyTransformation, settle, T3.isDefined, T3.isRigid, Sphere3.isDefined, bind, Except.bind]

/-- C123: with an undefined transformation, or on an undefined object, the call throws and the object is as it was, whatever the object -/
theorem C123_refused (E : Env3) (t : T3) (o : Obj3) (h : t.isDefined = false ∨ o.isDefined = false) : o.move E t = (.error .undefined, o) := by
  have key : ∀ {σ : Type} {r : Res σ} (s : σ) (f : σ → Obj3), r = .error .undefined → ((settle r s).map id f) = (.error .undefined, f s) := by
    rintro σ r s f rfl; rfl
  have two : ∀ {σ : Type} {d : Bool} {x y : Res σ}, (t.isDefined = false ∨ d = false) → x = .error .undefined →
      (if !t.isDefined then x else if !d then x else y) = .error .undefined := by
    rintro σ d x y (h | h) rfl <;> simp [h]
  cases o with
  | point p =>
    simp only [Obj3.move, P3.move_eq]
    refine key _ _ ?_
    rcases h with h | h
    · simp [P3.applyTransformation, h]
    · cases p with
      | none => unfold P3.applyTransformation; split <;> rfl
      | some p => simp [Obj3.isDefined] at h
  | pointSet ps =>
    simp only [Obj3.move, PointSet3.move_eq]
    refine key _ _ ?_
    rcases h with h | h
    · simp [PointSet3.applyTransformation, h]
    · simp only [Obj3.isDefined, Bool.not_eq_false'] at h
      simp only [PointSet3.applyTransformation, h]; split <;> rfl
  | line p => simp only [Obj3.move, Line3.move_eq]; exact key _ _ (two h rfl)
  | ray p => simp only [Obj3.move, Ray3.move_eq]; exact key _ _ (two h rfl)
  | segment p => simp only [Obj3.move, Seg3.move_eq]; exact key _ _ (two h rfl)
  | lineString ps =>
    simp only [Obj3.move]
    have : (LineString3.move t).of ps = (.error .undefined, ps) := by
      unfold LineString3.move
      run_statements
      rcases h with h | h
      · simp [h]
      · simp only [Obj3.isDefined, Bool.not_eq_false'] at h
        simp [h]
    rw [this]; rfl
  | polygon p => simp only [Obj3.move, Polygon3.move_eq]; exact key _ _ (two h rfl)
  | plane p => simp only [Obj3.move, Plane3.move_eq]; exact key _ _ (two h rfl)
  | cuboid c =>
    simp only [Obj3.move, Cuboid3.move_eq]
    refine key _ _ ?_
    rcases h with h | h
    · simp [Cuboid3.applyTransformation, h]
    · unfold Cuboid3.applyTransformation
      split
      · rfl
      · rcases c with ⟨_ | a, _ | b, _ | c, _ | d, _ | e, _ | f, _ | g⟩ <;> first | rfl | simp [Obj3.isDefined, Cuboid3.isDefined] at h
  | sphere p => simp only [Obj3.move, Sphere3.move_eq]; exact key _ _ (two h rfl)
  | ellipsoid e =>
    simp only [Obj3.move]
    have : (Ellipsoid3.move E.eps E.solve t).of e = (.error .undefined, e) := by
      unfold Ellipsoid3.move
      run_statements
      rcases h with h | h
      · simp [h]
      · simp only [Obj3.isDefined] at h
        simp [h]
    rw [this]; rfl
  | pyramid p => simp only [Obj3.move, Pyramid3.move_eq]; exact key _ _ (two h rfl)
  | cone p => simp only [Obj3.move, Cone3.move_eq]; exact key _ _ (two h rfl)
  | composite d os =>
    unfold Obj3.move
    rcases h with h | h
    · simp [h]
    · simp only [Obj3.isDefined] at h
      simp [h]

example : T3.Undefined.isDefined = false ∧ (Obj3.composite true [.point (some 0), .point none]).isDefined = false := ⟨rfl, rfl⟩

theorem all_some {α : Type} : ∀ {ps : List (Option α)}, none ∉ ps → ∃ qs : List α, ps = qs.map some
  | [], _ => ⟨[], rfl⟩
  | none :: ps, h => by simp at h
  | some p :: ps, h => by
    obtain ⟨qs, rfl⟩ := all_some (ps := ps) (fun h' => h (by simp [h']))
    exact ⟨p :: qs, rfl⟩

theorem shape_applyTo {t : T3} {l : M3} {v : V3} (h : Shape3 t l v) (p : V3) : t.applyTo (some p) = .ok (some (move l v p)) := (shape_moves h).1 p

mutual
theorem transforms (E : Env3) (h0 : 0 < E.eps) (h1 : E.eps ≤ 1) (hs : Solves E.solve) {t : T3} (ht : Built3 E.eps t) : ∀ o : Obj3, Sound3 o → o.isDefined = true →
    ∃ o', o.applyTransformation E t = .ok o'
  | .point p, _, hd => by
    obtain ⟨l, v, hsh⟩ := built3_shape h0 h1 ht
    cases p with
    | none => simp [Obj3.isDefined] at hd
    | some p => exact ⟨_, by rw [Obj3.applyTransformation, shape_point hsh]; rfl⟩
  | .pointSet ps, hp, hd => by
    obtain ⟨l, v, hsh⟩ := built3_shape h0 h1 ht
    obtain ⟨qs, rfl⟩ := all_some hp
    have hm : mapRes t.applyTo (qs.map some) = .ok ((qs.map (Verif.Props.move l v)).map some) := by
      rw [mapRes_map, mapRes_ok (g := fun x => some (Verif.Props.move l v x)) fun a _ => shape_applyTo hsh a, List.map_map]; rfl
    obtain ⟨r, hr, -⟩ := Points.insertAll_spec (eq := P3.eq) (fun p q => P3.eq_iff) (qs.map (Verif.Props.move l v)) [] List.nodup_nil
    have hr' : Points.insertAll P3.eq [] ((qs.map (Verif.Props.move l v)).map some) = .ok (r.map some) := hr
    have he : (qs.map some).isEmpty = false := by simpa [Obj3.isDefined] using hd
    refine ⟨.pointSet (r.map some), ?_⟩
    simp only [Obj3.applyTransformation, PointSet3.applyTransformation, shape_defined hsh, he, hm, bind, Except.bind, hr', Except.map, Bool.not_true,
      Bool.false_eq_true, if_false]
  | .line x, _, hd => by
    obtain ⟨l, v, hsh⟩ := built3_shape h0 h1 ht
    rcases x with ⟨_ | a, _ | b⟩ <;> simp [Obj3.isDefined, Line3.isDefined] at hd
    simp [Obj3.applyTransformation, Line3.applyTransformation, Line3.isDefined, shape_defined hsh, shape_point hsh, Except.map, bind, Except.bind, pure, Except.pure]
  | .ray x, _, hd => by
    obtain ⟨l, v, hsh⟩ := built3_shape h0 h1 ht
    rcases x with ⟨_ | a, _ | b⟩ <;> simp [Obj3.isDefined, Ray3.isDefined] at hd
    simp [Obj3.applyTransformation, Ray3.applyTransformation, Ray3.isDefined, shape_defined hsh, shape_point hsh, Except.map, bind, Except.bind, pure, Except.pure]
  | .segment x, _, hd => by
    obtain ⟨l, v, hsh⟩ := built3_shape h0 h1 ht
    rcases x with ⟨_ | a, _ | b⟩ <;> simp [Obj3.isDefined, Seg3.isDefined] at hd
    simp [Obj3.applyTransformation, Seg3.applyTransformation, Seg3.isDefined, shape_defined hsh, shape_point hsh, Except.map, bind, Except.bind, pure, Except.pure]
  | .lineString ps, hp, hd => by
    obtain ⟨l, v, hsh⟩ := built3_shape h0 h1 ht
    obtain ⟨qs, rfl⟩ := all_some hp
    have hm : mapRes (P3.applyTransformation t) (qs.map some) = .ok (qs.map fun x => some (Verif.Props.move l v x)) := by
      rw [mapRes_map, mapRes_ok (g := fun x => some (Verif.Props.move l v x)) fun a _ => shape_point hsh a]
    have he : (qs.map some).isEmpty = false := by simpa [Obj3.isDefined] using hd
    refine ⟨.lineString (qs.map fun x => some (Verif.Props.move l v x)), ?_⟩
    simp only [Obj3.applyTransformation, LineString3.applyTransformation, shape_defined hsh, he, hm, Except.map, Bool.not_true, Bool.false_eq_true, if_false]
  | .polygon x, _, hd => by
    obtain ⟨l, v, hsh⟩ := built3_shape h0 h1 ht
    rcases x with ⟨q, _ | a, _ | b, _ | c⟩ <;> simp [Obj3.isDefined, Polygon3.isDefined] at hd
    simp [Obj3.applyTransformation, Polygon3.applyTransformation, Polygon3.isDefined, hd, shape_defined hsh, shape_applyTo hsh, Except.map, bind, Except.bind,
      pure, Except.pure]
  | .plane x, _, hd => by
    obtain ⟨l, v, hsh⟩ := built3_shape h0 h1 ht
    rcases x with ⟨_ | a, _ | b⟩ <;> simp [Obj3.isDefined, Plane3.isDefined] at hd
    simp [Obj3.applyTransformation, Plane3.applyTransformation, Plane3.isDefined, shape_defined hsh, shape_point hsh, Except.map, bind, Except.bind, pure, Except.pure]
  | .cuboid x, _, hd => by
    obtain ⟨l, v, hsh⟩ := built3_shape h0 h1 ht
    rcases x with ⟨_ | a, _ | b, _ | c, _ | d, _ | e, _ | f, _ | g⟩ <;> simp [Obj3.isDefined, Cuboid3.isDefined] at hd
    by_cases hi : t.type = .identity <;>
      simp [Obj3.applyTransformation, Cuboid3.applyTransformation, Cuboid3.need, Verif.need, T3.isIdentity, hi, shape_defined hsh, shape_applyTo hsh, Except.map, bind,
        Except.bind, pure, Except.pure]
  | .sphere x, _, hd => by
    obtain ⟨l, v, hsh⟩ := built3_shape h0 h1 ht
    rcases x with ⟨_ | a, _ | b⟩ <;> simp [Obj3.isDefined, Sphere3.isDefined] at hd
    simp [Obj3.applyTransformation, Sphere3.applyTransformation, Sphere3.isDefined, T3.isRigid, hsh.2.2.1, shape_defined hsh, shape_point hsh, Except.map, bind,
      Except.bind, pure, Except.pure]
  | .ellipsoid x, hp, hd => by
    rcases x with ⟨_ | p, _ | a, _ | b, _ | c, _ | q⟩ <;> simp [Obj3.isDefined, Ellipsoid3.isDefined] at hd
    obtain ⟨ha, hb, hc, hq⟩ := hp p a b c q rfl
    obtain ⟨p', a', b', c', q', f, he, -⟩ := C77_moved_partial E.eps h0 h1 E.solve hs t ht p a b c ha hb hc q hq
    exact ⟨_, by rw [Obj3.applyTransformation]; exact congrArg (Except.map Obj3.ellipsoid) he⟩
  | .pyramid x, _, hd => by
    obtain ⟨l, v, hsh⟩ := built3_shape h0 h1 ht
    rcases x with ⟨⟨q, _ | a, _ | b, _ | c⟩, _ | d⟩ <;> simp [Obj3.isDefined, Pyramid3.isDefined, Polygon3.isDefined] at hd
    simp [Obj3.applyTransformation, Pyramid3.applyTransformation, Pyramid3.isDefined, Polygon3.applyTransformation, Polygon3.isDefined, hd, shape_defined hsh,
      shape_applyTo hsh, shape_point hsh, Except.map, bind, Except.bind, pure, Except.pure]
  | .cone x, _, hd => by
    obtain ⟨l, v, hsh⟩ := built3_shape h0 h1 ht
    rcases x with ⟨_ | a, _ | b, c⟩ <;> simp [Obj3.isDefined, Cone3.isDefined] at hd
    simp [Obj3.applyTransformation, Cone3.applyTransformation, Cone3.isDefined, hd, shape_defined hsh, shape_applyTo hsh, Except.map, bind, Except.bind, pure,
      Except.pure]
  | .composite d os, hp, hd => by
    obtain ⟨l, v, hsh⟩ := built3_shape h0 h1 ht
    simp only [Obj3.isDefined, Bool.and_eq_true] at hd
    obtain ⟨ps, hps⟩ := transformsAll E h0 h1 hs ht os hp hd.2
    unfold Obj3.applyTransformation
    by_cases hi : t.type = .identity <;> simp [T3.isIdentity, hi, shape_defined hsh, hd, hps]
theorem transformsAll (E : Env3) (h0 : 0 < E.eps) (h1 : E.eps ≤ 1) (hs : Solves E.solve) {t : T3} (ht : Built3 E.eps t) : ∀ os : List Obj3, SoundAll3 os →
    Obj3.allDefined os = true → ∃ ps, Obj3.transformAll E t os = .ok ps
  | [], _, _ => ⟨[], by rw [Obj3.transformAll]⟩
  | o :: os, hp, hd => by
    simp only [Obj3.allDefined, Bool.and_eq_true] at hd
    obtain ⟨p, h2⟩ := transforms E h0 h1 hs ht o hp.1 hd.1
    obtain ⟨ps, h3⟩ := transformsAll E h0 h1 hs ht os hp.2 hd.2
    exact ⟨p :: ps, by rw [Obj3.transformAll, h2]; dsimp only; rw [h3]⟩
end

/-- C123: with a transformation built from the factories, a defined object whose members are in order (`Sound3`) is transformed as a whole, and an undefined one
is refused and left as it was: nothing in between, also for composites of composites.
What is missing: line strings with an undefined point (`C123_line_string_violated`) and ellipsoids whose orientation is not unitary (`C123_ellipsoid_violated`). -/
theorem C123_whole_partial (E : Env3) (h0 : 0 < E.eps) (h1 : E.eps ≤ 1) (hs : Solves E.solve) (t : T3) (ht : Built3 E.eps t) (o : Obj3) (hp : Sound3 o) :
    (o.isDefined = true → ∃ o', o.applyTransformation E t = .ok o' ∧ o.move E t = (.ok (), o')) ∧
    (o.isDefined = false → o.move E t = (.error .undefined, o)) := by
  refine ⟨fun hd => ?_, fun hd => C123_refused E t o (.inr hd)⟩
  obtain ⟨o', h⟩ := transforms E h0 h1 hs ht o hp hd
  have hm := C123_same E t o
  rw [h] at hm
  exact ⟨o', h, Prod.ext hm.1 (hm.2 o' rfl)⟩

/-- a composite with a line string, an ellipsoid and another composite inside -/
noncomputable def mixed3 : Obj3 := .composite true [.lineString [some ⟨0, 0, 0⟩, some ⟨1, 0, 0⟩], .ellipsoid (ell 0 1 2 3 ⟨1 / 2, -1 / 2, 1 / 2, 1 / 2⟩),
  .composite true [.point (some ⟨1, 2, 3⟩)]]

example (B : Boost) : ∃ solve, 0 < (Env3.mk 1 1 B solve).eps ∧ (Env3.mk 1 1 B solve).eps ≤ 1 ∧ Solves (Env3.mk 1 1 B solve).solve ∧ Sound3 mixed3 ∧
    mixed3.isDefined = true ∧ Built3 (Env3.mk 1 1 B solve).eps ⟨.translation, some !![1, 0, 0, 1; 0, 1, 0, 2; 0, 0, 1, 3; 0, 0, 0, 1], true⟩ := by
  obtain ⟨solve, hs⟩ := exists_solver
  refine ⟨solve, one_pos, le_rfl, hs, ⟨by simp [Sound3], ?_, ⟨trivial, trivial⟩, trivial⟩, rfl, Built3.translation (some ⟨1, 2, 3⟩) _ rfl⟩
  intro p a b c q h
  simp only [ell, Ellipsoid3.mk.injEq, Option.some.injEq] at h
  obtain ⟨-, rfl, rfl, rfl, rfl⟩ := h
  exact ⟨one_pos, two_pos, three_pos, unitary_example⟩

theorem loop_stops {t : T3} {l : M3} {v : V3} (h : Shape3 t l v) (bs : List (Option V3)) : ∀ as : List V3,
    LineString3.loop t (as.map some ++ none :: bs) = (.error .undefined, (as.map (Verif.Props.move l v)).map some ++ none :: bs)
  | [] => by
    have : (P3.move t).of none = (.error .undefined, none) := by
      rw [P3.move_eq, P3.applyTransformation, shape_defined h]; rfl
    simp [LineString3.loop, this]
  | a :: as => by
    have ih := loop_stops h bs as
    have : (P3.move t).of (some a) = (.ok (), some (Verif.Props.move l v a)) := by
      rw [P3.move_eq, shape_point h]; rfl
    simp only [List.map_cons, List.cons_append, LineString3.loop, this, ih]

theorem one_shift : M3.one.mulVec ⟨0, 0, 0⟩ + (⟨1, 2, 3⟩ : V3) = ⟨1, 2, 3⟩ := by
  rw [M3.one_mulVec]; ext <;> simp

/-- C123 is violated for line strings with an undefined point: the string counts as defined, the call throws at that point, and the points before it have moved
while those after it have not -/
theorem C123_line_string_violated :
    (∀ (E : Env3) (eps : ℝ) (t : T3) (f : V3 → V3), 0 < eps → eps ≤ 1 → Built3 eps t → Moves t f → ∀ (as : List V3) (bs : List (Option V3)),
      (Obj3.lineString (as.map some ++ none :: bs)).isDefined = true ∧
      (Obj3.lineString (as.map some ++ none :: bs)).move E t = (.error .undefined, .lineString ((as.map f).map some ++ none :: bs))) ∧
    ∃ (t : T3) (f : V3 → V3), Built3 1 t ∧ Moves t f ∧ ∀ E : Env3,
      (Obj3.lineString [some ⟨0, 0, 0⟩, none, some ⟨5, 0, 0⟩]).move E t = (.error .undefined, .lineString [some ⟨1, 2, 3⟩, none, some ⟨5, 0, 0⟩]) := by
  have main : ∀ (E : Env3) (eps : ℝ) (t : T3) (f : V3 → V3), 0 < eps → eps ≤ 1 → Built3 eps t → Moves t f → ∀ (as : List V3) (bs : List (Option V3)),
      (Obj3.lineString (as.map some ++ none :: bs)).isDefined = true ∧
      (Obj3.lineString (as.map some ++ none :: bs)).move E t = (.error .undefined, .lineString ((as.map f).map some ++ none :: bs)) := by
    intro E eps t f h0 h1 ht hf as bs
    obtain ⟨l, v, hsh⟩ := built3_shape h0 h1 ht
    have hfe : f = Verif.Props.move l v := by
      funext x
      have h := (hf x).symm.trans (shape_applyTo hsh x)
      simpa using h
    refine ⟨by cases as <;> rfl, ?_⟩
    have he : (as.map some ++ none :: bs).isEmpty = false := by cases as <;> rfl
    have : (LineString3.move t).of (as.map some ++ none :: bs) = (.error .undefined, (as.map f).map some ++ none :: bs) := by
      unfold LineString3.move
      run_statements
      rw [hfe, ← loop_stops hsh]
      simp [shape_defined hsh, he]
    rw [Obj3.move, this]; rfl
  refine ⟨main, ⟨.translation, some !![1, 0, 0, 1; 0, 1, 0, 2; 0, 0, 1, 3; 0, 0, 0, 1], true⟩, _, Built3.translation (some ⟨1, 2, 3⟩) _ rfl,
    (shape_moves (shape_translation ⟨1, 2, 3⟩)).1, fun E => ?_⟩
  have := (main E 1 _ _ one_pos le_rfl (Built3.translation (some ⟨1, 2, 3⟩) _ rfl) (shape_moves (shape_translation ⟨1, 2, 3⟩)).1 [⟨0, 0, 0⟩] [some ⟨5, 0, 0⟩]).2
  rw [List.map_singleton, List.map_singleton, List.map_singleton, List.singleton_append, List.singleton_append] at this
  rw [this, one_shift]

/-- C123 is violated for ellipsoids whose orientation is not unitary, which the constructor accepts: the call throws after the centre has moved, and the semi-axes
and the orientation have not -/
theorem C123_ellipsoid_violated :
    (∀ (E : Env3) (t : T3) (f : V3 → V3), 0 < E.eps → E.eps ≤ 1 → Built3 E.eps t → Moves t f → t.isIdentity = .ok false → ∀ (p : V3) (a b c : ℝ) (q : Quat),
      E.eps < |q.norm - 1| → (Obj3.ellipsoid (ell p a b c q)).isDefined = true ∧
        (Obj3.ellipsoid (ell p a b c q)).move E t = (.error .runtimeError, .ellipsoid (ell (f p) a b c q))) ∧
    ∃ (t : T3) (q : Quat), ∀ E : Env3, 0 < E.eps → E.eps < 1 → Built3 E.eps t ∧
      (Obj3.ellipsoid (ell 0 1 2 3 q)).move E t = (.error .runtimeError, .ellipsoid (ell ⟨1, 2, 3⟩ 1 2 3 q)) := by
  have main : ∀ (E : Env3) (t : T3) (f : V3 → V3), 0 < E.eps → E.eps ≤ 1 → Built3 E.eps t → Moves t f → t.isIdentity = .ok false →
      ∀ (p : V3) (a b c : ℝ) (q : Quat), E.eps < |q.norm - 1| → (Obj3.ellipsoid (ell p a b c q)).isDefined = true ∧
        (Obj3.ellipsoid (ell p a b c q)).move E t = (.error .runtimeError, .ellipsoid (ell (f p) a b c q)) := by
    intro E t f h0 h1 ht hf hi p a b c q hq
    obtain ⟨l, v, hsh⟩ := built3_shape h0 h1 ht
    have hm : t.getMatrix = .ok t.matrix := by simp [T3.getMatrix, shape_defined hsh]
    have hP : (P3.move t).of (some p) = (.ok (), some (f p)) := by
      rw [P3.move_eq, P3.applyTransformation, shape_defined hsh]
      rw [hf p]; rfl
    have hg : (ell (f p) a b c q).getMatrix E.eps = .error .runtimeError := by
      have hn : q.conj.norm = q.norm := by simp [Quat.norm, Quat.normSq, Quat.conj]
      have hu : q.conj.isUnitary E.eps = .ok false := by
        rw [Quat.isUnitary, if_neg (not_le.2 h0), hn, decide_eq_false (not_le.2 hq)]
      simp [Ellipsoid3.getMatrix, Ellipsoid3.need, Ellipsoid3.getFirstAxis, ell, Verif.need, QuatObj.rotateVector, Quat.rotate, hu, bind, Except.bind, pure,
        Except.pure]
    refine ⟨rfl, ?_⟩
    have : (Ellipsoid3.move E.eps E.solve t).of (ell p a b c q) = (.error .runtimeError, ell (f p) a b c q) := by
      unfold Ellipsoid3.move
      run_statements
      have hd : (ell p a b c q).isDefined = true := rfl
      have hc : (ell p a b c q).center = some p := rfl
      have hw : { ell p a b c q with center := some (f p) } = ell (f p) a b c q := rfl
      simp [shape_defined hsh, hd, hi, hc, hP, hm, hw, hg]
    rw [Obj3.move, this]; rfl
  refine ⟨main, ⟨.translation, some !![1, 0, 0, 1; 0, 1, 0, 2; 0, 0, 1, 3; 0, 0, 0, 1], true⟩, ⟨1, 1, 1, 1⟩, fun E h0 h1 => ?_⟩
  have hb : Built3 E.eps ⟨.translation, some !![1, 0, 0, 1; 0, 1, 0, 2; 0, 0, 1, 3; 0, 0, 0, 1], true⟩ := Built3.translation (some ⟨1, 2, 3⟩) _ rfl
  refine ⟨hb, ?_⟩
  have := (main E _ _ h0 h1.le hb (shape_moves (shape_translation ⟨1, 2, 3⟩)).1 (by simp [T3.isIdentity, T3.isDefined]) 0 1 2 3 ⟨1, 1, 1, 1⟩ ?_).2
  · rw [this, show (0 : V3) = ⟨0, 0, 0⟩ from rfl, one_shift]
  · have : (⟨1, 1, 1, 1⟩ : Quat).norm = 2 := by
      rw [Quat.norm, Quat.normSq, show (1 : ℝ) * 1 + 1 * 1 + 1 * 1 + 1 * 1 = 2 ^ 2 by norm_num, Real.sqrt_sq (by norm_num)]
    rw [this]
    norm_num
    exact h1

/-! ## The plane -/

mutual
/-- no member of a set or a string of points is undefined, also inside composites -/
def Sound2 : Obj2 → Prop
  | .pointSet ps => none ∉ ps
  | .lineString ps => none ∉ ps
  | .composite _ os => SoundAll2 os
  | _ => True
/-- `Sound2` for all of a list -/
def SoundAll2 : List Obj2 → Prop
  | [] => True
  | o :: os => Sound2 o ∧ SoundAll2 os
end

/-- objects that change all at once: neither line strings nor composites -/
def Single2 : Obj2 → Prop
  | .lineString _ | .composite _ _ => False
  | _ => True

mutual
theorem move_same2 (t : T2) : ∀ o : Obj2, (o.move t).1 = (o.applyTransformation t).map (fun _ => ()) ∧
    ∀ o', o.applyTransformation t = .ok o' → (o.move t).2 = o'
  | .point p => by unfold Obj2.move Obj2.applyTransformation; rw [P2.move_eq]; exact map_same _ (settle_same _ _)
  | .pointSet p => by unfold Obj2.move Obj2.applyTransformation; rw [PointSet2.move_eq]; exact map_same _ (settle_same _ _)
  | .line p => by unfold Obj2.move Obj2.applyTransformation; rw [Line2.move_eq]; exact map_same _ (settle_same _ _)
  | .segment p => by unfold Obj2.move Obj2.applyTransformation; rw [Seg2.move_eq]; exact map_same _ (settle_same _ _)
  | .polygon p => by unfold Obj2.move Obj2.applyTransformation; rw [Polygon2.move_eq]; exact map_same _ (settle_same _ _)
  | .multiPolygon p => by unfold Obj2.move Obj2.applyTransformation; rw [MultiPolygon2.move_eq]; exact map_same _ (settle_same _ _)
  | .lineString ps => by unfold Obj2.move Obj2.applyTransformation; exact map_same _ (LineString2.move_same t ps)
  | .composite d os => by
    have ih := moveAll_same2 t os
    unfold Obj2.move Obj2.applyTransformation
    split
    · exact ⟨rfl, fun o' h => by simp at h⟩
    split
    · exact ⟨rfl, fun o' h => by simp at h⟩
    split
    · exact ⟨rfl, fun o' h => by simpa using h⟩
    cases ha : Obj2.applyAll t os with
    | error e => rw [ha] at ih; exact ⟨ih.1, fun o' h => by simp [Except.map] at h⟩
    | ok ps =>
      rw [ha] at ih
      refine ⟨ih.1, fun o' h => ?_⟩
      rw [ih.2 ps rfl]
      simpa [Except.map] using h
theorem moveAll_same2 (t : T2) : ∀ os : List Obj2, (Obj2.moveAll t os).1 = (Obj2.applyAll t os).map (fun _ => ()) ∧
    ∀ ps, Obj2.applyAll t os = .ok ps → (Obj2.moveAll t os).2 = ps
  | [] => by
    unfold Obj2.moveAll Obj2.applyAll
    exact ⟨rfl, fun ps h => by simpa using h⟩
  | o :: os => by
    have h1 := move_same2 t o
    have h2 := moveAll_same2 t os
    unfold Obj2.moveAll Obj2.applyAll
    rcases hm : Obj2.move t o with ⟨r, o1⟩
    rw [hm] at h1
    cases ha : Obj2.applyTransformation t o with
    | error e =>
      rw [ha] at h1
      obtain rfl : r = .error e := h1.1
      exact ⟨rfl, fun ps h => by simp at h⟩
    | ok p =>
      rw [ha] at h1
      obtain rfl : r = .ok () := h1.1
      obtain rfl : o1 = p := h1.2 p rfl
      dsimp only
      cases hb : Obj2.applyAll t os with
      | error e => rw [hb] at h2; exact ⟨h2.1, fun ps h => by simp at h⟩
      | ok qs =>
        rw [hb] at h2
        refine ⟨h2.1, fun ps h => ?_⟩
        rw [h2.2 qs rfl]
        simpa using h
end

/-- C123 in the plane: run statement by statement, the transformation in place ends like the function that returns the changed object -/
theorem C123_same2 (t : T2) (o : Obj2) : (o.move t).1 = (o.applyTransformation t).map (fun _ => ()) ∧
    ∀ o', o.applyTransformation t = .ok o' → (o.move t).2 = o' := move_same2 t o

/-- C123 in the plane: when the transformation of a point, point set, line, segment, polygon or multipolygon throws, the object is as it was -/
theorem C123_kept2 (t : T2) (o : Obj2) (h : Single2 o) (e : Err) (he : (o.move t).1 = .error e) : (o.move t).2 = o := by
  have key : ∀ {σ : Type} (r : Res σ) (s : σ) (f : σ → Obj2), ((settle r s).map id f).1 = .error e → ((settle r s).map id f).2 = f s := by
    intro σ r s f h
    cases r <;> simp_all [settle]
  cases o with
  | lineString ps => exact h.elim
  | composite d os => exact h.elim
  | point p => simp only [Obj2.move, P2.move_eq] at he ⊢; exact key _ _ _ he
  | pointSet p => simp only [Obj2.move, PointSet2.move_eq] at he ⊢; exact key _ _ _ he
  | line p => simp only [Obj2.move, Line2.move_eq] at he ⊢; exact key _ _ _ he
  | segment p => simp only [Obj2.move, Seg2.move_eq] at he ⊢; exact key _ _ _ he
  | polygon p => simp only [Obj2.move, Polygon2.move_eq] at he ⊢; exact key _ _ _ he
  | multiPolygon p => simp only [Obj2.move, MultiPolygon2.move_eq] at he ⊢; exact key _ _ _ he

example : Single2 (.point none) ∧ ((Obj2.point none).move T2.Identity).1 = .error .undefined := by
  refine ⟨trivial, ?_⟩
  simp [Obj2.move, P2.move_eq, P2.applyTransformation, settle, T2.Identity, T2.isDefined, T2.applyTo, Verif.need, bind, Except.bind]

/-- C123 in the plane: with an undefined transformation, or on an undefined object, the call throws and the object is as it was -/
theorem C123_refused2 (t : T2) (o : Obj2) (h : t.isDefined = false ∨ o.isDefined = false) : o.move t = (.error .undefined, o) := by
  have key : ∀ {σ : Type} {r : Res σ} (s : σ) (f : σ → Obj2), r = .error .undefined → ((settle r s).map id f) = (.error .undefined, f s) := by
    rintro σ r s f rfl; rfl
  have two : ∀ {σ : Type} {d : Bool} {x y : Res σ}, (t.isDefined = false ∨ d = false) → x = .error .undefined →
      (if !t.isDefined then x else if !d then x else y) = .error .undefined := by
    rintro σ d x y (h | h) rfl <;> simp [h]
  cases o with
  | point p =>
    simp only [Obj2.move, P2.move_eq]
    refine key _ _ ?_
    rcases h with h | h
    · simp [P2.applyTransformation, h]
    · cases p with
      | none => unfold P2.applyTransformation; split <;> rfl
      | some p => simp [Obj2.isDefined] at h
  | pointSet ps =>
    simp only [Obj2.move, PointSet2.move_eq]
    refine key _ _ ?_
    rcases h with h | h
    · simp [PointSet2.applyTransformation, h]
    · simp only [Obj2.isDefined, Bool.not_eq_false'] at h
      simp only [PointSet2.applyTransformation, h]; split <;> rfl
  | line p => simp only [Obj2.move, Line2.move_eq]; exact key _ _ (two h rfl)
  | segment p => simp only [Obj2.move, Seg2.move_eq]; exact key _ _ (two h rfl)
  | lineString ps =>
    simp only [Obj2.move]
    have : (LineString2.move t).of ps = (.error .undefined, ps) := by
      unfold LineString2.move
      run_statements
      rcases h with h | h
      · simp [h]
      · simp only [Obj2.isDefined, Bool.not_eq_false'] at h
        simp [h]
    rw [this]; rfl
  | polygon p => simp only [Obj2.move, Polygon2.move_eq]; exact key _ _ (two h rfl)
  | multiPolygon p => simp only [Obj2.move, MultiPolygon2.move_eq]; exact key _ _ (two h rfl)
  | composite d os =>
    unfold Obj2.move
    rcases h with h | h
    · simp [h]
    · simp only [Obj2.isDefined] at h
      simp [h]

theorem shape2_applyTo {t : T2} {c s : ℝ} {v : V2} (h : Shape2 t c s v) (p : V2) : t.applyTo (some p) = .ok (some (move2 c s v p)) := (shape2_moves h).1 p

mutual
theorem transforms2 {t : T2} (ht : Built2 t) : ∀ o : Obj2, Sound2 o → o.isDefined = true → ∃ o', o.applyTransformation t = .ok o'
  | .point p, _, hd => by
    obtain ⟨c, s, v, hsh⟩ := built2_shape ht
    cases p with
    | none => simp [Obj2.isDefined] at hd
    | some p => exact ⟨_, by rw [Obj2.applyTransformation, shape2_point hsh]; rfl⟩
  | .pointSet ps, hp, hd => by
    obtain ⟨c, s, v, hsh⟩ := built2_shape ht
    obtain ⟨qs, rfl⟩ := all_some hp
    have hm : mapRes t.applyTo (qs.map some) = .ok ((qs.map (move2 c s v)).map some) := by
      rw [mapRes_map, mapRes_ok (g := fun x => some (move2 c s v x)) fun a _ => shape2_applyTo hsh a, List.map_map]; rfl
    obtain ⟨r, hr, -⟩ := Points.insertAll_spec (eq := P2.eq) (fun p q => P2.eq_iff) (qs.map (move2 c s v)) [] List.nodup_nil
    have hr' : Points.insertAll P2.eq [] ((qs.map (move2 c s v)).map some) = .ok (r.map some) := hr
    have he : (qs.map some).isEmpty = false := by simpa [Obj2.isDefined] using hd
    refine ⟨.pointSet (r.map some), ?_⟩
    simp only [Obj2.applyTransformation, PointSet2.applyTransformation, shape2_defined hsh, he, hm, bind, Except.bind, hr', Except.map, Bool.not_true,
      Bool.false_eq_true, if_false]
  | .line x, _, hd => by
    obtain ⟨c, s, v, hsh⟩ := built2_shape ht
    rcases x with ⟨_ | a, _ | b⟩ <;> simp [Obj2.isDefined, Line2.isDefined] at hd
    simp [Obj2.applyTransformation, Line2.applyTransformation, Line2.isDefined, shape2_defined hsh, shape2_point hsh, Except.map, bind, Except.bind, pure, Except.pure]
  | .segment x, _, hd => by
    obtain ⟨c, s, v, hsh⟩ := built2_shape ht
    rcases x with ⟨_ | a, _ | b⟩ <;> simp [Obj2.isDefined, Seg2.isDefined] at hd
    simp [Obj2.applyTransformation, Seg2.applyTransformation, Seg2.isDefined, shape2_defined hsh, shape2_point hsh, Except.map, bind, Except.bind, pure, Except.pure]
  | .lineString ps, hp, hd => by
    obtain ⟨c, s, v, hsh⟩ := built2_shape ht
    obtain ⟨qs, rfl⟩ := all_some hp
    have hm : mapRes t.applyTo (qs.map some) = .ok (qs.map fun x => some (move2 c s v x)) := by
      rw [mapRes_map, mapRes_ok (g := fun x => some (move2 c s v x)) fun a _ => shape2_applyTo hsh a]
    have he : (qs.map some).isEmpty = false := by simpa [Obj2.isDefined] using hd
    refine ⟨.lineString (qs.map fun x => some (move2 c s v x)), ?_⟩
    simp only [Obj2.applyTransformation, LineString2.applyTransformation, shape2_defined hsh, he, hm, Except.map, Bool.not_true, Bool.false_eq_true, if_false]
  | .polygon p, _, hd => by
    obtain ⟨c, s, v, hsh⟩ := built2_shape ht
    simp only [Obj2.isDefined] at hd
    simp [Obj2.applyTransformation, Polygon2.applyTransformation, shape2_defined hsh, hd, hsh.2.1, Verif.need, Except.map, bind, Except.bind, pure, Except.pure]
  | .multiPolygon p, _, hd => by
    obtain ⟨c, s, v, hsh⟩ := built2_shape ht
    simp only [Obj2.isDefined] at hd
    simp [Obj2.applyTransformation, MultiPolygon2.applyTransformation, shape2_defined hsh, hd, hsh.2.1, Verif.need, Except.map, bind, Except.bind, pure, Except.pure]
  | .composite d os, hp, hd => by
    obtain ⟨c, s, v, hsh⟩ := built2_shape ht
    simp only [Obj2.isDefined, Bool.and_eq_true] at hd
    obtain ⟨ps, hps⟩ := transformsAll2 ht os hp hd.2
    unfold Obj2.applyTransformation
    cases hi : t.isIdentity <;> simp [shape2_defined hsh, hd, hps, Except.map]
theorem transformsAll2 {t : T2} (ht : Built2 t) : ∀ os : List Obj2, SoundAll2 os → Obj2.allDefined os = true → ∃ ps, Obj2.applyAll t os = .ok ps
  | [], _, _ => ⟨[], by rw [Obj2.applyAll]⟩
  | o :: os, hp, hd => by
    simp only [Obj2.allDefined, Bool.and_eq_true] at hd
    obtain ⟨p, h2⟩ := transforms2 ht o hp.1 hd.1
    obtain ⟨ps, h3⟩ := transformsAll2 ht os hp.2 hd.2
    exact ⟨p :: ps, by rw [Obj2.applyAll, h2]; dsimp only; rw [h3]⟩
end

/-- C123 in the plane: a defined object whose members are in order (`Sound2`) is transformed as a whole, and an undefined one is refused and left as it was.
What is missing: line strings with an undefined point (`C123_line_string2_violated`). -/
theorem C123_whole2_partial (t : T2) (ht : Built2 t) (o : Obj2) (hp : Sound2 o) :
    (o.isDefined = true → ∃ o', o.applyTransformation t = .ok o' ∧ o.move t = (.ok (), o')) ∧ (o.isDefined = false → o.move t = (.error .undefined, o)) := by
  refine ⟨fun hd => ?_, fun hd => C123_refused2 t o (.inr hd)⟩
  obtain ⟨o', h⟩ := transforms2 ht o hp hd
  have hm := C123_same2 t o
  rw [h] at hm
  exact ⟨o', h, Prod.ext hm.1 (hm.2 o' rfl)⟩

example : Built2 ⟨.translation, some !![1, 0, 1; 0, 1, 2; 0, 0, 1]⟩ ∧
    Sound2 (.composite true [.lineString [some ⟨0, 0⟩, some ⟨1, 0⟩], .composite true [.point (some ⟨1, 2⟩)]]) ∧
    (Obj2.composite true [.lineString [some ⟨0, 0⟩, some ⟨1, 0⟩], .composite true [.point (some ⟨1, 2⟩)]]).isDefined = true :=
  ⟨Built2.translation (some ⟨1, 2⟩) _ rfl, ⟨by simp [Sound2], ⟨trivial, trivial⟩, trivial⟩, rfl⟩

theorem loop_stops2 {t : T2} {c s : ℝ} {v : V2} (h : Shape2 t c s v) (bs : List (Option V2)) : ∀ as : List V2,
    LineString2.loop t (as.map some ++ none :: bs) = (.error .undefined, (as.map (move2 c s v)).map some ++ none :: bs)
  | [] => by simp [LineString2.loop, T2.applyTo, Verif.need, bind, Except.bind]
  | a :: as => by
    have ih := loop_stops2 h bs as
    simp only [List.map_cons, List.cons_append, LineString2.loop, shape2_applyTo h, ih]

/-- C123 is violated for line strings with an undefined point in the plane too: the points before it have moved and those after it have not -/
theorem C123_line_string2_violated :
    (∀ (t : T2) (f : V2 → V2), Built2 t → Moves2 t f → ∀ (as : List V2) (bs : List (Option V2)), (Obj2.lineString (as.map some ++ none :: bs)).isDefined = true ∧
      (Obj2.lineString (as.map some ++ none :: bs)).move t = (.error .undefined, .lineString ((as.map f).map some ++ none :: bs))) ∧
    ∃ t : T2, Built2 t ∧ (Obj2.lineString [some ⟨0, 0⟩, none, some ⟨5, 0⟩]).move t = (.error .undefined, .lineString [some ⟨1, 2⟩, none, some ⟨5, 0⟩]) := by
  have main : ∀ (t : T2) (f : V2 → V2), Built2 t → Moves2 t f → ∀ (as : List V2) (bs : List (Option V2)),
      (Obj2.lineString (as.map some ++ none :: bs)).isDefined = true ∧
      (Obj2.lineString (as.map some ++ none :: bs)).move t = (.error .undefined, .lineString ((as.map f).map some ++ none :: bs)) := by
    intro t f ht hf as bs
    obtain ⟨c, s, v, hsh⟩ := built2_shape ht
    have hfe : f = move2 c s v := by
      funext x
      have h := (hf x).symm.trans (shape2_applyTo hsh x)
      simpa using h
    refine ⟨by cases as <;> rfl, ?_⟩
    have he : (as.map some ++ none :: bs).isEmpty = false := by cases as <;> rfl
    have : (LineString2.move t).of (as.map some ++ none :: bs) = (.error .undefined, (as.map f).map some ++ none :: bs) := by
      unfold LineString2.move
      run_statements
      rw [hfe, ← loop_stops2 hsh]
      simp [shape2_defined hsh, he]
    rw [Obj2.move, this]; rfl
  refine ⟨main, ⟨.translation, some !![1, 0, 1; 0, 1, 2; 0, 0, 1]⟩, Built2.translation (some ⟨1, 2⟩) _ rfl, ?_⟩
  have := (main _ _ (Built2.translation (some ⟨1, 2⟩) _ rfl) (shape2_moves (shape2_translation ⟨1, 2⟩)).1 [⟨0, 0⟩] [some ⟨5, 0⟩]).2
  have h2 : T2.turn 1 0 ⟨0, 0⟩ + (⟨1, 2⟩ : V2) = ⟨1, 2⟩ := by ext <;> simp [T2.turn]
  rw [List.map_singleton, List.map_singleton, List.map_singleton, List.singleton_append, List.singleton_append] at this
  rw [this, h2]

end Verif.Props
