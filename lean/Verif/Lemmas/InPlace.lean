import Verif.Model.InPlace

/-!
# Lemmas on transformations in place
-/

namespace Verif

open Doing

/-- all or nothing: the new object, or the error and the object as it was -/
def settle {σ : Type} (r : Res σ) (s : σ) : Res Unit × σ :=
  match r with
  | .ok s' => (.ok (), s')
  | .error e => (.error e, s)

namespace Doing

variable {σ τ α β : Type}

theorem eval_bind (r : Res α) (f : α → Doing σ β) (s : σ) : of (eval r >>= f) s = match r with
    | .ok a => of (f a) s
    | .error e => (.error e, s) := by cases r <;> rfl

theorem get_bind (f : σ → Doing σ β) (s : σ) : of ((get : Doing σ σ) >>= f) s = of (f s) s := rfl

theorem modify_bind (g : σ → σ) (f : PUnit → Doing σ β) (s : σ) : of ((modify g : Doing σ PUnit) >>= f) s = of (f ⟨⟩) (g s) := rfl

theorem modify_last (g : σ → σ) (s : σ) : of (modify g : Doing σ PUnit) s = (.ok ⟨⟩, g s) := rfl

theorem set_last (x s : σ) : of (set x : Doing σ PUnit) s = (.ok ⟨⟩, x) := rfl

theorem pure_last (x : α) (s : σ) : of (pure x : Doing σ α) s = (.ok x, s) := rfl

theorem throw_bind (e : Err) (f : α → Doing σ β) (s : σ) : of ((throw e : Doing σ α) >>= f) s = (.error e, s) := rfl

theorem throw_last (e : Err) (s : σ) : of (throw e : Doing σ α) s = (.error e, s) := rfl

theorem mk_last (f : σ → Res α × σ) (s : σ) : of (ExceptT.mk f : Doing σ α) s = f s := rfl

theorem on_bind (part : σ → τ) (put : σ → τ → σ) (x : Doing τ α) (f : α → Doing σ β) (s : σ) : of (on part put x >>= f) s = match (x.of (part s)).1 with
    | .ok a => of (f a) (put s (x.of (part s)).2)
    | .error e => (.error e, put s (x.of (part s)).2) := by
  show (ExceptT.bindCont f (x.of (part s)).1) _ = _
  cases (x.of (part s)).1 <;> rfl

theorem on_last (part : σ → τ) (put : σ → τ → σ) (x : Doing τ α) (s : σ) : of (on part put x) s = ((x.of (part s)).1, put s (x.of (part s)).2) := rfl

theorem ite_of (c : Prop) [Decidable c] (x y : Doing σ α) (s : σ) : of (if c then x else y) s = if c then of x s else of y s := by split <;> rfl

end Doing

/-- runs the statements of a function on an object -/
macro "run_statements" : tactic => `(tactic| simp only [ite_of, eval_bind, get_bind, modify_bind, modify_last, set_last, pure_last, throw_bind, throw_last, mk_last,
  on_bind, on_last])

theorem P3.move_eq (t : T3) (p : Option V3) : (P3.move t).of p = settle (P3.applyTransformation t p) p := by
  unfold P3.move P3.applyTransformation settle
  run_statements
  by_cases h : t.isDefined <;> cases p <;> simp [h, T3.applyTo, need, bind, Except.bind, pure, Except.pure]

theorem PointSet3.move_eq (t : T3) (ps : List (Option V3)) : (PointSet3.move t).of ps = settle (PointSet3.applyTransformation t ps) ps := by
  unfold PointSet3.move PointSet3.applyTransformation settle
  run_statements
  by_cases h : t.isDefined <;> cases ps <;> simp [h]
  rename_i p ps
  cases h1 : mapRes t.applyTo (p :: ps) with
  | error e => simp [bind, Except.bind]
  | ok qs => cases h2 : Points.insertAll P3.eq [] qs <;> simp [bind, Except.bind, h2]

theorem Line3.move_eq (t : T3) (p : Line3) : (Line3.move t).of p = settle (p.applyTransformation t) p := by
  unfold Line3.move Line3.applyTransformation settle
  run_statements
  rcases p with ⟨_ | a, _ | b⟩ <;> by_cases h : t.isDefined <;>
    simp [h, Line3.isDefined, P3.move_eq, P3.applyTransformation, T3.applyTo, need, bind, Except.bind, pure, Except.pure, settle]

theorem Ray3.move_eq (t : T3) (p : Ray3) : (Ray3.move t).of p = settle (p.applyTransformation t) p := by
  unfold Ray3.move Ray3.applyTransformation settle
  run_statements
  rcases p with ⟨_ | a, _ | b⟩ <;> by_cases h : t.isDefined <;>
    simp [h, Ray3.isDefined, P3.move_eq, P3.applyTransformation, T3.applyTo, need, bind, Except.bind, pure, Except.pure, settle]

theorem Seg3.move_eq (t : T3) (p : Seg3) : (Seg3.move t).of p = settle (p.applyTransformation t) p := by
  unfold Seg3.move Seg3.applyTransformation settle
  run_statements
  rcases p with ⟨_ | a, _ | b⟩ <;> by_cases h : t.isDefined <;>
    simp [h, Seg3.isDefined, P3.move_eq, P3.applyTransformation, T3.applyTo, need, bind, Except.bind, pure, Except.pure, settle]

theorem Plane3.move_eq (t : T3) (p : Plane3) : (Plane3.move t).of p = settle (p.applyTransformation t) p := by
  unfold Plane3.move Plane3.applyTransformation settle
  run_statements
  rcases p with ⟨_ | a, _ | b⟩ <;> by_cases h : t.isDefined <;>
    simp [h, Plane3.isDefined, P3.move_eq, P3.applyTransformation, T3.applyTo, need, bind, Except.bind, pure, Except.pure, settle]

theorem Polygon3.move_eq (t : T3) (p : Polygon3) : (Polygon3.move t).of p = settle (p.applyTransformation t) p := by
  unfold Polygon3.move Polygon3.applyTransformation settle
  run_statements
  by_cases h : t.isDefined <;> by_cases hp : p.isDefined <;> simp [h, hp]
  rcases p with ⟨q, _ | a, _ | b, _ | c⟩ <;> simp [Polygon3.isDefined] at hp ⊢ <;> rfl

theorem Cuboid3.move_eq (t : T3) (p : Cuboid3) : (Cuboid3.move t).of p = settle (p.applyTransformation t) p := by
  unfold Cuboid3.move Cuboid3.applyTransformation settle
  run_statements
  by_cases h : t.isDefined <;> simp [h]
  rcases p with ⟨_ | a, _ | b, _ | c, _ | d, _ | e, _ | f, _ | g⟩ <;>
    simp [Cuboid3.isDefined, Cuboid3.need, Verif.need, bind, Except.bind]
  cases hi : decide (t.type = .identity) <;>
    simp [T3.isIdentity, h, hi, P3.move_eq, P3.applyTransformation, T3.applyTo, need, bind, Except.bind, pure, Except.pure, settle, T3.applyToVector] <;>
    cases t.matrix <;> rfl

theorem Sphere3.move_eq (t : T3) (p : Sphere3) : (Sphere3.move t).of p = settle (p.applyTransformation t) p := by
  unfold Sphere3.move Sphere3.applyTransformation settle
  run_statements
  by_cases h : t.isDefined <;> simp [h]
  rcases p with ⟨_ | a, _ | b⟩ <;> cases hr : t.rigid <;>
    simp [Sphere3.isDefined, T3.isRigid, h, hr, P3.move_eq, P3.applyTransformation, T3.applyTo, need, bind, Except.bind, pure, Except.pure, settle]

theorem Pyramid3.move_eq (t : T3) (p : Pyramid3) : (Pyramid3.move t).of p = settle (p.applyTransformation t) p := by
  unfold Pyramid3.move Pyramid3.applyTransformation settle
  run_statements
  by_cases h : t.isDefined <;> simp [h]
  rcases p with ⟨⟨q, _ | a, _ | b, _ | c⟩, _ | d⟩ <;> cases hq : q.isDefined <;>
    simp [Pyramid3.isDefined, Polygon3.isDefined, hq, h, Polygon3.move_eq, Polygon3.applyTransformation, P3.move_eq, P3.applyTransformation, T3.applyTo, need, bind,
      Except.bind, pure, Except.pure, settle]

theorem Cone3.move_eq (t : T3) (p : Cone3) : (Cone3.move t).of p = settle (p.applyTransformation t) p := by
  unfold Cone3.move Cone3.applyTransformation settle
  run_statements
  by_cases h : t.isDefined <;> by_cases hp : p.isDefined <;> simp [h, hp]
  rcases p with ⟨_ | a, _ | b, c⟩ <;> simp [Cone3.isDefined] at hp ⊢ <;> rfl

/-! ## Line strings and ellipsoids -/

theorem LineString3.loop_same (t : T3) (ps : List (Option V3)) :
    (LineString3.loop t ps).1 = (mapRes (P3.applyTransformation t) ps).map (fun _ => ()) ∧
      ∀ qs, mapRes (P3.applyTransformation t) ps = .ok qs → (LineString3.loop t ps).2 = qs := by
  induction ps with
  | nil => exact ⟨rfl, fun qs h => by simpa [mapRes, LineString3.loop] using h⟩
  | cons p ps ih =>
    unfold LineString3.loop mapRes
    rw [P3.move_eq]
    cases h : P3.applyTransformation t p with
    | error e => exact ⟨rfl, fun qs h => by simp at h⟩
    | ok q =>
      simp only [settle]
      cases h' : mapRes (P3.applyTransformation t) ps with
      | error e => rw [h'] at ih; exact ⟨ih.1, fun qs h => by simp at h⟩
      | ok qs =>
        rw [h'] at ih
        refine ⟨ih.1, fun rs hr => ?_⟩
        rw [ih.2 qs rfl]
        simpa using hr

theorem LineString3.move_same (t : T3) (ps : List (Option V3)) :
    ((LineString3.move t).of ps).1 = (LineString3.applyTransformation t ps).map (fun _ => ()) ∧
      ∀ qs, LineString3.applyTransformation t ps = .ok qs → ((LineString3.move t).of ps).2 = qs := by
  unfold LineString3.move LineString3.applyTransformation
  run_statements
  by_cases h : t.isDefined
  · by_cases he : ps.isEmpty
    · simp [h, he, Except.map]
    · simpa [h, he] using LineString3.loop_same t ps
  · simp [h, Except.map]

theorem res_ok {α β : Type} (a : α) (f : α → Res β) : ((.ok a : Res α) >>= f) = f a := rfl

theorem res_error {α β : Type} (e : Err) (f : α → Res β) : ((.error e : Res α) >>= f) = .error e := rfl

theorem Ellipsoid3.move_same (eps : ℝ) (solve : M3 → Option Eigen3) (t : T3) (e : Ellipsoid3) :
    ((Ellipsoid3.move eps solve t).of e).1 = (e.applyTransformation eps solve t).map (fun _ => ()) ∧
      ∀ f, e.applyTransformation eps solve t = .ok f → ((Ellipsoid3.move eps solve t).of e).2 = f := by
  unfold Ellipsoid3.move Ellipsoid3.applyTransformation
  run_statements
  by_cases h : t.isDefined
  · by_cases he : e.isDefined
    · obtain ⟨p, hp⟩ : ∃ p, e.center = some p := by
        simp only [Ellipsoid3.isDefined, Bool.and_eq_true] at he
        exact Option.isSome_iff_exists.1 he.1.1.1.1
      have hm : P3.applyTransformation t e.center = .ok (t.matrix.map fun m => T3.head m p 1) := by
        simp [P3.applyTransformation, h, hp, T3.applyTo, Verif.need, bind, Except.bind, pure, Except.pure]
      cases hi : decide (t.type = .identity)
      · simp only [h, he, Bool.not_true, Bool.false_eq_true, if_false, T3.isIdentity, hi, P3.move_eq, hm, settle, T3.getMatrix, res_ok]
        cases Ellipsoid3.getMatrix eps { e with center := t.matrix.map fun m => T3.head m p 1 } with
        | error x => simp [Except.map, res_error]
        | ok g =>
          simp only [res_ok]
          cases Option.bind t.matrix fun m => inverse3 (block m) with
          | none => simp [Doing.throw_last, Except.map]
          | some r =>
            dsimp only
            cases solve ((r.transpose.mul g).mul r) with
            | none => simp [Doing.throw_last, Except.map]
            | some x =>
              dsimp only
              simp only [modify_bind, eval_bind]
              cases RotMat.Columns eps (some x.v0) (some x.v1) (some (x.v0.cross x.v1)) with
              | error y => simp [Except.map, res_error]
              | ok k =>
                simp only [modify_bind, eval_bind, res_ok]
                cases Quat.RotationMatrix eps (some k) with
                | error y => simp [Except.map, res_error]
                | ok q => simp [Except.map, pure, Except.pure, modify_last, res_ok]
      · simp [h, he, T3.isIdentity, hi, Except.map, pure_last, res_ok]
    · simp [h, he, Except.map]
  · simp [h, Except.map]

/-! ## The plane -/

theorem P2.move_eq (t : T2) (p : Option V2) : (P2.move t).of p = settle (P2.applyTransformation t p) p := by
  unfold P2.move P2.applyTransformation settle
  run_statements
  by_cases h : t.isDefined <;> cases p <;> simp [h, T2.applyTo, need, bind, Except.bind, pure, Except.pure]

theorem PointSet2.move_eq (t : T2) (ps : List (Option V2)) : (PointSet2.move t).of ps = settle (PointSet2.applyTransformation t ps) ps := by
  unfold PointSet2.move PointSet2.applyTransformation settle
  run_statements
  by_cases h : t.isDefined <;> cases ps <;> simp [h]
  rename_i p ps
  cases h1 : mapRes t.applyTo (p :: ps) with
  | error e => simp [bind, Except.bind]
  | ok qs => cases h2 : Points.insertAll P2.eq [] qs <;> simp [bind, Except.bind, h2]

theorem Line2.move_eq (t : T2) (p : Line2) : (Line2.move t).of p = settle (p.applyTransformation t) p := by
  unfold Line2.move Line2.applyTransformation settle
  run_statements
  rcases p with ⟨_ | a, _ | b⟩ <;> by_cases h : t.isDefined <;>
    simp [h, Line2.isDefined, P2.move_eq, P2.applyTransformation, T2.applyTo, need, bind, Except.bind, pure, Except.pure, settle]

theorem Seg2.move_eq (t : T2) (p : Seg2) : (Seg2.move t).of p = settle (p.applyTransformation t) p := by
  unfold Seg2.move Seg2.applyTransformation settle
  run_statements
  rcases p with ⟨_ | a, _ | b⟩ <;> by_cases h : t.isDefined <;>
    simp [h, Seg2.isDefined, P2.move_eq, P2.applyTransformation, T2.applyTo, need, bind, Except.bind, pure, Except.pure, settle]

theorem Polygon2.move_eq (t : T2) (p : Polygon2) : (Polygon2.move t).of p = settle (Polygon2.applyTransformation t p) p := by
  unfold Polygon2.move settle
  run_statements

theorem MultiPolygon2.move_eq (t : T2) (p : List Polygon2) : (MultiPolygon2.move t).of p = settle (MultiPolygon2.applyTransformation t p) p := by
  unfold MultiPolygon2.move settle
  run_statements

theorem LineString2.loop_same (t : T2) (ps : List (Option V2)) :
    (LineString2.loop t ps).1 = (mapRes t.applyTo ps).map (fun _ => ()) ∧ ∀ qs, mapRes t.applyTo ps = .ok qs → (LineString2.loop t ps).2 = qs := by
  induction ps with
  | nil => exact ⟨rfl, fun qs h => by simpa [mapRes, LineString2.loop] using h⟩
  | cons p ps ih =>
    unfold LineString2.loop mapRes
    cases h : t.applyTo p with
    | error e => exact ⟨rfl, fun qs h => by simp at h⟩
    | ok q =>
      dsimp only
      cases h' : mapRes t.applyTo ps with
      | error e => rw [h'] at ih; exact ⟨ih.1, fun qs h => by simp at h⟩
      | ok qs =>
        rw [h'] at ih
        refine ⟨ih.1, fun rs hr => ?_⟩
        rw [ih.2 qs rfl]
        simpa using hr

theorem LineString2.move_same (t : T2) (ps : List (Option V2)) :
    ((LineString2.move t).of ps).1 = (LineString2.applyTransformation t ps).map (fun _ => ()) ∧
      ∀ qs, LineString2.applyTransformation t ps = .ok qs → ((LineString2.move t).of ps).2 = qs := by
  unfold LineString2.move LineString2.applyTransformation
  run_statements
  by_cases h : t.isDefined
  · by_cases he : ps.isEmpty
    · simp [h, he, Except.map]
    · simpa [h, he] using LineString2.loop_same t ps
  · simp [h, Except.map]

end Verif
