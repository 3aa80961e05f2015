import Verif.Lemmas.Print
import Verif.Props.Ellipsoid
import Verif.Props.Polygon

/-!
# Printing (C124)
-/

namespace Verif.Props

open Verif Spec Print

/-! ## Space -/

mutual
/-- an ellipsoid has no orientation, or it is all defined and its orientation is unitary up to the tolerance; also inside composites -/
def Printable3 (eps : ℝ) : Obj3 → Prop
  | .ellipsoid e => e.q = none ∨ ∃ p a b c q, e = ell p a b c q ∧ |q.norm - 1| ≤ eps
  | .composite _ os => PrintableAll3 eps os
  | _ => True
/-- `Printable3` for all of a list -/
def PrintableAll3 (eps : ℝ) : List Obj3 → Prop
  | [] => True
  | o :: os => Printable3 eps o ∧ PrintableAll3 eps os
end

theorem axes_of {eps : ℝ} (h0 : 0 < eps) (p : V3) (a b c : ℝ) (q : Quat) :
    (|q.norm - 1| ≤ eps → (∃ u, (ell p a b c q).getFirstAxis eps = .ok u) ∧ (∃ u, (ell p a b c q).getSecondAxis eps = .ok u) ∧
      ∃ u, (ell p a b c q).getThirdAxis eps = .ok u) ∧
    (¬ |q.norm - 1| ≤ eps → (ell p a b c q).getFirstAxis eps = .error .runtimeError) := by
  have hn : q.conj.norm = q.norm := by simp [Quat.norm, Quat.normSq, Quat.conj]
  constructor
  · intro h
    have hu : q.conj.isUnitary eps = .ok true := by
      rw [Quat.isUnitary, if_neg (not_le.2 h0), hn, decide_eq_true h]
    simp [Ellipsoid3.getFirstAxis, Ellipsoid3.getSecondAxis, Ellipsoid3.getThirdAxis, Ellipsoid3.need, ell, Verif.need, QuatObj.rotateVector, Quat.rotate, hu, bind,
      Except.bind, pure, Except.pure]
  · intro h
    have hu : q.conj.isUnitary eps = .ok false := by
      rw [Quat.isUnitary, if_neg (not_le.2 h0), hn, decide_eq_false h]
    simp [Ellipsoid3.getFirstAxis, Ellipsoid3.need, ell, Verif.need, QuatObj.rotateVector, Quat.rotate, hu, bind, Except.bind, pure, Except.pure]

theorem ellipsoid_prints (T : Texts) {eps : ℝ} (h0 : 0 < eps) (e : Ellipsoid3) : (∃ s, e.print T eps = .ok s) ↔ Printable3 eps (.ellipsoid e) := by
  obtain ⟨p, a, b, c, q⟩ := e
  cases q with
  | none => simp [Ellipsoid3.print, axis, Printable3, bind, Except.bind, pure, Except.pure]
  | some q =>
    by_cases hd : Ellipsoid3.isDefined ⟨p, a, b, c, some q⟩ = true
    · obtain ⟨p, rfl⟩ : ∃ x, p = some x := by cases p <;> simp_all [Ellipsoid3.isDefined]
      obtain ⟨a, rfl⟩ : ∃ x, a = some x := by cases a <;> simp_all [Ellipsoid3.isDefined]
      obtain ⟨b, rfl⟩ : ∃ x, b = some x := by cases b <;> simp_all [Ellipsoid3.isDefined]
      obtain ⟨c, rfl⟩ : ∃ x, c = some x := by cases c <;> simp_all [Ellipsoid3.isDefined]
      have hx := axes_of h0 p a b c q
      by_cases hq : |q.norm - 1| ≤ eps
      · obtain ⟨⟨u, hu⟩, ⟨v, hv⟩, w, hw⟩ := hx.1 hq
        simp only [ell] at hu hv hw
        simp only [Ellipsoid3.print, axis, hu, hv, hw, Except.map, bind, Except.bind, pure, Except.pure, Printable3, ell]
        exact ⟨fun _ => .inr ⟨p, a, b, c, q, rfl, hq⟩, fun _ => ⟨_, rfl⟩⟩
      · have hu := hx.2 hq
        simp only [ell] at hu
        simp only [Ellipsoid3.print, axis, hu, Except.map, bind, Except.bind, Printable3, ell]
        constructor
        · rintro ⟨s, h⟩; cases h
        · rintro (h | ⟨p', a', b', c', q', h, hq'⟩)
          · cases h
          · cases h; exact (hq hq').elim
    · have hu : Ellipsoid3.getFirstAxis eps ⟨p, a, b, c, some q⟩ = .error .undefined := by
        cases p <;> cases a <;> cases b <;> cases c <;> first | rfl | exact (hd rfl).elim
      simp only [Ellipsoid3.print, axis, hu, Except.map, bind, Except.bind, Printable3]
      constructor
      · rintro ⟨s, h⟩; cases h
      · rintro (h | ⟨p', a', b', c', q', h, hq'⟩)
        · cases h
        · rw [h] at hd; exact (hd rfl).elim

theorem map_prints {T : Texts} {r : Res (List (Piece T.Text))} {f : List (Piece T.Text) → List (Piece T.Text)} : (∃ s, r.map f = .ok s) ↔ ∃ s, r = .ok s := by
  cases r <;> simp [Except.map]

mutual
theorem prints3 (T : Texts) {eps : ℝ} (h0 : 0 < eps) (d : Bool) : ∀ o : Obj3, (∃ s, o.print T eps d = .ok s) ↔ Printable3 eps o
  | .ellipsoid e => by rw [Obj3.print, map_prints, ellipsoid_prints T h0]
  | .composite b os => by
    have ih := printsAll3 T h0 os
    cases os with
    | nil => simp [Obj3.print, Printable3, PrintableAll3]
    | cons o os => rw [Obj3.print, map_prints, ih, Printable3]; simp
  | .point p => by simp [Obj3.print, Printable3]
  | .pointSet p => by simp [Obj3.print, Printable3]
  | .line p => by simp [Obj3.print, Printable3]
  | .ray p => by simp [Obj3.print, Printable3]
  | .segment p => by simp [Obj3.print, Printable3]
  | .lineString p => by simp [Obj3.print, Printable3]
  | .polygon p => by simp [Obj3.print, Printable3]
  | .plane p => by simp [Obj3.print, Printable3]
  | .cuboid p => by simp [Obj3.print, Printable3]
  | .sphere p => by simp [Obj3.print, Printable3]
  | .pyramid p => by simp [Obj3.print, Printable3]
  | .cone p => by simp [Obj3.print, Printable3]
theorem printsAll3 (T : Texts) {eps : ℝ} (h0 : 0 < eps) : ∀ os : List Obj3, (∃ s, Obj3.printAll T eps os = .ok s) ↔ PrintableAll3 eps os
  | [] => by simp [Obj3.printAll, PrintableAll3]
  | o :: os => by
    rw [Obj3.printAll, PrintableAll3, ← prints3 T h0 true o, ← printsAll3 T h0 os]
    cases h : Obj3.print T eps true o with
    | error e => simp
    | ok s => simp only [map_prints]; simp
end

/-- C124: an object of space can be printed exactly when the ellipsoids in it have no orientation, or are all defined with a unitary orientation -/
theorem C124_prints_partial (T : Texts) (eps : ℝ) (h0 : 0 < eps) (d : Bool) (o : Obj3) : (∃ s, o.print T eps d = .ok s) ↔ Printable3 eps o := prints3 T h0 d o

example : Printable3 1 (.composite true [.ellipsoid (ell 0 1 2 3 ⟨0, 0, 0, 1⟩), .ellipsoid ⟨none, none, none, none, none⟩, .point none]) := by
  refine ⟨.inr ⟨0, 1, 2, 3, ⟨0, 0, 0, 1⟩, rfl, ?_⟩, .inl rfl, trivial, trivial⟩
  simp [Quat.norm, Quat.normSq]

/-- C124 is violated for ellipsoids: one whose constructor was given an orientation but no centre cannot be printed, though the lines for undefined members are
there, and neither can one whose orientation is not unitary -/
theorem C124_ellipsoid_violated (T : Texts) (eps : ℝ) (h0 : 0 < eps) (h1 : eps < 1) (d : Bool) :
    (∃ e, Ellipsoid3.ctor none (some 1) (some 2) (some 3) (some ⟨0, 0, 0, 1⟩) = .ok e ∧ (Obj3.ellipsoid e).print T eps d = .error .undefined) ∧
    (∃ e, Ellipsoid3.ctor (some 0) (some 1) (some 2) (some 3) (some ⟨0, 0, 0, 2⟩) = .ok e ∧ (Obj3.ellipsoid e).print T eps d = .error .runtimeError) := by
  constructor
  · refine ⟨⟨none, some 1, some 2, some 3, some ⟨0, 0, 0, 1⟩⟩, ?_, ?_⟩
    · norm_num [Ellipsoid3.ctor]
    · simp [Obj3.print, Ellipsoid3.print, axis, Ellipsoid3.getFirstAxis, Ellipsoid3.need, Verif.need, Except.map, bind, Except.bind]
  · refine ⟨ell 0 1 2 3 ⟨0, 0, 0, 2⟩, ?_, ?_⟩
    · norm_num [Ellipsoid3.ctor, ell]
    · have hn : (⟨0, 0, 0, 2⟩ : Quat).norm = 2 := by
        rw [Quat.norm, Quat.normSq, show (0 : ℝ) * 0 + 0 * 0 + 0 * 0 + 2 * 2 = 2 ^ 2 by norm_num, Real.sqrt_sq (by norm_num)]
      have hu := (axes_of h0 0 1 2 3 ⟨0, 0, 0, 2⟩).2 (by rw [hn]; norm_num; exact h1)
      simp only [Obj3.print, Ellipsoid3.print, hu, bind, Except.bind]
      simp [ell, axis, Except.map]

/-- C124 is violated for intersections: one that is a cuboid cannot be printed -/
theorem C124_intersection_violated (T : Texts) (eps : ℝ) (c : Cuboid3) : (Isect3.ofArray [.cuboid c]).print T eps = .error .wrong := by
  simp [Isect3.print, Isect3.ofArray, IType3.ofObjects, IType3.loop, IType3.ofObject, Names.intersection3, bind, Except.bind]

/-- different members have different texts, which are not the word for an undefined one -/
structure Legible (T : Texts) : Prop where
  cat : ∀ s a b, T.cat s a = T.cat s b → a = b
  real : Function.Injective T.real ∧ ∀ x, T.real x ≠ T.lit "Undefined"
  point3 : Function.Injective T.point3 ∧ ∀ x, T.point3 x ≠ T.lit "Undefined"
  vector3 : Function.Injective T.vector3 ∧ ∀ x, T.vector3 x ≠ T.lit "Undefined"
  point2 : Function.Injective T.point2 ∧ ∀ x, T.point2 x ≠ T.lit "Undefined"
  vector2 : Function.Injective T.vector2 ∧ ∀ x, T.vector2 x ≠ T.lit "Undefined"
  quaternion : Function.Injective T.quaternion ∧ ∀ x, T.quaternion x ≠ T.lit "Undefined"
  angle : Function.Injective T.angle ∧ ∀ x, T.angle x ≠ T.lit "Undefined"

/-- the letters of texts that tell everything apart -/
inductive Letter where
  | lit (s : String)
  | real (x : ℝ)
  | vec (v : V3)
  | vec2 (v : V2)
  | quat (q : Quat)
  | angle (a : Angle)

/-- there are such texts -/
example : Legible ⟨List Letter, fun s => [.lit s], fun a b => a ++ b, fun x => [.real x], fun x => [.vec x], fun x => [.vec x], fun x => [.vec2 x], fun x => [.vec2 x],
    fun x => [.quat x], fun x => [.angle x], fun _ => ""⟩ := by
  refine ⟨fun s a b h => List.append_cancel_left h, ?_, ?_, ?_, ?_, ?_, ?_, ?_⟩ <;> exact ⟨fun a b h => by simpa using h, fun x h => by simp at h⟩

mutual
/-- the object with everything forgotten that is not printed: whether a composite is defined, and the unit of an undefined angle -/
def forget3 : Obj3 → Obj3
  | .composite _ os => .composite true (forgetAll3 os)
  | .cone c => .cone { c with angle := if c.angle.isDefined then c.angle else ⟨none, .undefined⟩ }
  | o => o
/-- `forget3` for all of a list -/
def forgetAll3 : List Obj3 → List Obj3
  | [] => []
  | o :: os => forget3 o :: forgetAll3 os
end

mutual
/-- the polygons in the object are as the constructor leaves them -/
def Tidy3 : Obj3 → Prop
  | .polygon p => Tidy p.polygon
  | .pyramid p => Tidy p.base.polygon
  | .composite _ os => TidyAll3 os
  | _ => True
/-- `Tidy3` for all of a list -/
def TidyAll3 : List Obj3 → Prop
  | [] => True
  | o :: os => Tidy3 o ∧ TidyAll3 os
end

/-- the title of the frame of an object -/
def title3 : Obj3 → String
  | .point _ => "Point"
  | .pointSet _ => "Point Set"
  | .line _ => "Line"
  | .ray _ => "Ray"
  | .segment _ => "Segment"
  | .lineString _ => "Line String"
  | .polygon _ => "Polygon"
  | .plane _ => "Plane"
  | .cuboid _ => "Cuboid"
  | .sphere _ => "Sphere"
  | .ellipsoid _ => "Ellipsoid"
  | .pyramid _ => "Pyramid"
  | .cone _ => "Cone"
  | .composite _ _ => "Composite"

theorem map_ok {T : Texts} {r : Res (List (Piece T.Text))} {f : List (Piece T.Text) → List (Piece T.Text)} {s : List (Piece T.Text)} (h : r.map f = .ok s) : ∃ u, r = .ok u ∧ s = f u := by
  cases r with
  | error e => simp [Except.map] at h
  | ok u => exact ⟨u, rfl, by simpa [Except.map] using h.symm⟩

theorem print_frame {T : Texts} {eps : ℝ} : ∀ {o : Obj3} {s : List (Piece T.Text)}, o.print T eps true = .ok s → ∃ u, s = .header (title3 o) :: (u ++ [.footer]) := by
  intro o s h
  cases o with
  | ellipsoid e => obtain ⟨u, -, rfl⟩ := map_ok (by rw [Obj3.print] at h; exact h); exact ⟨u, rfl⟩
  | composite b os =>
    cases os with
    | nil => rw [Obj3.print, Except.ok.injEq] at h; exact ⟨_, h.symm⟩
    | cons o os =>
      rw [Obj3.print] at h
      · obtain ⟨u, -, rfl⟩ := map_ok h; exact ⟨_, rfl⟩
      · simp
  | _ => rw [Obj3.print, Except.ok.injEq] at h; exact ⟨_, h.symm⟩

theorem ellipsoid_shape {T : Texts} {eps : ℝ} {e : Ellipsoid3} {s : List (Piece T.Text)} (h : e.print T eps = .ok s) : ∃ u v w,
    s = [member T "Center:" T.point3 e.center, member T "First principal semi-axis:" T.real e.a, member T "Second principal semi-axis:" T.real e.b,
      member T "Third principal semi-axis:" T.real e.c, .line [T.lit "First axis:", u], .line [T.lit "Second axis:", v], .line [T.lit "Third axis:", w],
      member T "Orientation:" T.quaternion e.q] := by
  simp only [Ellipsoid3.print, bind, Except.bind] at h
  split at h
  · simp at h
  split at h
  · simp at h
  split at h
  · simp at h
  simp only [pure, Except.pure, Except.ok.injEq] at h
  exact ⟨_, _, _, h.symm⟩

theorem print_nil3 (T : Texts) (eps : ℝ) (d b : Bool) : Obj3.print T eps d (.composite b []) = .ok (frame d "Composite" [.line [T.lit "Empty"]]) := by rw [Obj3.print]

theorem print_cons3 (T : Texts) (eps : ℝ) (d b : Bool) (o : Obj3) (os : List Obj3) : Obj3.print T eps d (.composite b (o :: os)) =
    (Obj3.printAll T eps (o :: os)).map fun s => frame d "Composite" (.separator "Objects" :: s) := by
  rw [Obj3.print]; simp

theorem same_title3 {T : Texts} {eps : ℝ} {o o' : Obj3} {s s' xs ys : List (Piece T.Text)} (h : o.print T eps true = .ok s) (h' : o'.print T eps true = .ok s')
    (he : s ++ xs = s' ++ ys) : title3 o = title3 o' := by
  obtain ⟨u, rfl⟩ := print_frame h
  obtain ⟨u', rfl⟩ := print_frame h'
  simp only [List.cons_append, List.cons.injEq, Piece.header.injEq] at he
  exact he.1

section
variable {T : Texts} (hT : Legible T)
include hT
theorem Legible.r {x y : Option ℝ} (h : word T T.real x = word T T.real y) : x = y := word_inj hT.real.1 hT.real.2 h
theorem Legible.p {x y : Option V3} (h : word T T.point3 x = word T T.point3 y) : x = y := word_inj hT.point3.1 hT.point3.2 h
theorem Legible.v {x y : Option V3} (h : word T T.vector3 x = word T T.vector3 y) : x = y := word_inj hT.vector3.1 hT.vector3.2 h
theorem Legible.p2 {x y : Option V2} (h : word T T.point2 x = word T T.point2 y) : x = y := word_inj hT.point2.1 hT.point2.2 h
theorem Legible.v2 {x y : Option V2} (h : word T T.vector2 x = word T T.vector2 y) : x = y := word_inj hT.vector2.1 hT.vector2.2 h
theorem Legible.q {x y : Option Quat} (h : word T T.quaternion x = word T T.quaternion y) : x = y := word_inj hT.quaternion.1 hT.quaternion.2 h
theorem Legible.a {x y : Option Angle} (h : word T T.angle x = word T T.angle y) : x = y := word_inj hT.angle.1 hT.angle.2 h
theorem Legible.l {x y : List (Option V3)} {xs ys : List (Piece T.Text)} (h : (x.map fun p => Piece.line [word T T.point3 p]) ++ .footer :: xs =
    (y.map fun p => Piece.line [word T T.point3 p]) ++ .footer :: ys) : x = y ∧ xs = ys := by
  have hl : Function.Injective fun p : Option V3 => [word T T.point3 p] := fun x y h => hT.p (List.cons.inj h).1
  obtain ⟨h1, -, h3⟩ := lines_cancel hl (c := .footer) (d := .footer) trivial trivial h
  exact ⟨h1, h3⟩
theorem Legible.l2 {x y : List (Option V2)} {xs ys : List (Piece T.Text)} (h : (x.map fun p => Piece.line [word T T.point2 p]) ++ .footer :: xs =
    (y.map fun p => Piece.line [word T T.point2 p]) ++ .footer :: ys) : x = y ∧ xs = ys := by
  have hl : Function.Injective fun p : Option V2 => [word T T.point2 p] := fun x y h => hT.p2 (List.cons.inj h).1
  obtain ⟨h1, -, h3⟩ := lines_cancel hl (c := .footer) (d := .footer) trivial trivial h
  exact ⟨h1, h3⟩
end

mutual
theorem apart3 {T : Texts} (hT : Legible T) {eps : ℝ} : ∀ (o o' : Obj3), Tidy3 o → Tidy3 o' → ∀ {s s' xs ys : List (Piece T.Text)}, o.print T eps true = .ok s →
    o'.print T eps true = .ok s' → s ++ xs = s' ++ ys → forget3 o = forget3 o' ∧ xs = ys
  | .point x, o', ht, ht', s, s', xs, ys, h, h', he => by
    have htitle := same_title3 h h' he
    cases o' with
    | point x' =>
      rw [Obj3.print, Except.ok.injEq] at h h'
      subst h h'
      simp [frame, member] at he
      obtain ⟨h1, h2, h3, h4⟩ := he
      refine ⟨?_, h4⟩
      have h1 := hT.r h1
      have h2 := hT.r h2
      have h3 := hT.r h3
      congr 2
      cases x <;> cases x' <;> simp_all
      exact V3.ext h1 h2 h3
    | _ => simp [title3] at htitle
  | .pointSet x, o', ht, ht', s, s', xs, ys, h, h', he => by
    have htitle := same_title3 h h' he
    cases o' with
    | pointSet x' =>
      rw [Obj3.print, Except.ok.injEq] at h h'
      subst h h'
      simp only [frame, if_true, List.cons_append, List.append_assoc, List.cons.injEq, true_and, List.nil_append] at he
      obtain ⟨rfl, h3⟩ := hT.l he
      exact ⟨rfl, h3⟩
    | _ => simp [title3] at htitle
  | .lineString x, o', ht, ht', s, s', xs, ys, h, h', he => by
    have htitle := same_title3 h h' he
    cases o' with
    | lineString x' =>
      rw [Obj3.print, Except.ok.injEq] at h h'
      subst h h'
      simp only [frame, if_true, List.cons_append, List.append_assoc, List.cons.injEq, true_and, List.nil_append] at he
      obtain ⟨rfl, h3⟩ := hT.l he
      exact ⟨rfl, h3⟩
    | _ => simp [title3] at htitle
  | .line x, o', ht, ht', s, s', xs, ys, h, h', he => by
    have htitle := same_title3 h h' he
    cases o' with
    | line x' =>
      rw [Obj3.print, Except.ok.injEq] at h h'
      subst h h'
      obtain ⟨a, b⟩ := x
      obtain ⟨a', b'⟩ := x'
      simp [frame, member] at he
      rw [hT.p he.1, hT.v he.2.1]; exact ⟨rfl, he.2.2⟩
    | _ => simp [title3] at htitle
  | .ray x, o', ht, ht', s, s', xs, ys, h, h', he => by
    have htitle := same_title3 h h' he
    cases o' with
    | ray x' =>
      rw [Obj3.print, Except.ok.injEq] at h h'
      subst h h'
      obtain ⟨a, b⟩ := x
      obtain ⟨a', b'⟩ := x'
      simp [frame, member] at he
      rw [hT.p he.1, hT.v he.2.1]; exact ⟨rfl, he.2.2⟩
    | _ => simp [title3] at htitle
  | .segment x, o', ht, ht', s, s', xs, ys, h, h', he => by
    have htitle := same_title3 h h' he
    cases o' with
    | segment x' =>
      rw [Obj3.print, Except.ok.injEq] at h h'
      subst h h'
      obtain ⟨a, b⟩ := x
      obtain ⟨a', b'⟩ := x'
      simp [frame, member] at he
      rw [hT.p he.1, hT.p he.2.1]; exact ⟨rfl, he.2.2⟩
    | _ => simp [title3] at htitle
  | .plane x, o', ht, ht', s, s', xs, ys, h, h', he => by
    have htitle := same_title3 h h' he
    cases o' with
    | plane x' =>
      rw [Obj3.print, Except.ok.injEq] at h h'
      subst h h'
      obtain ⟨a, b⟩ := x
      obtain ⟨a', b'⟩ := x'
      simp [frame, member] at he
      rw [hT.p he.1, hT.v he.2.1]; exact ⟨rfl, he.2.2⟩
    | _ => simp [title3] at htitle
  | .sphere x, o', ht, ht', s, s', xs, ys, h, h', he => by
    have htitle := same_title3 h h' he
    cases o' with
    | sphere x' =>
      rw [Obj3.print, Except.ok.injEq] at h h'
      subst h h'
      obtain ⟨a, b⟩ := x
      obtain ⟨a', b'⟩ := x'
      simp [frame, member] at he
      rw [hT.p he.1, hT.r he.2.1]; exact ⟨rfl, he.2.2⟩
    | _ => simp [title3] at htitle
  | .cuboid x, o', ht, ht', s, s', xs, ys, h, h', he => by
    have htitle := same_title3 h h' he
    cases o' with
    | cuboid x' =>
      rw [Obj3.print, Except.ok.injEq] at h h'
      subst h h'
      obtain ⟨a, b, c, d, e, f, g⟩ := x
      obtain ⟨a', b', c', d', e', f', g'⟩ := x'
      simp [frame, member] at he
      obtain ⟨h1, h2, h3, h4, h5, h6, h7, h8⟩ := he
      rw [hT.p h1, hT.v h2, hT.v h3, hT.v h4, hT.r h5, hT.r h6, hT.r h7]; exact ⟨rfl, h8⟩
    | _ => simp [title3] at htitle
  | .cone x, o', ht, ht', s, s', xs, ys, h, h', he => by
    have htitle := same_title3 h h' he
    cases o' with
    | cone x' =>
      rw [Obj3.print, Except.ok.injEq] at h h'
      subst h h'
      obtain ⟨a, b, c⟩ := x
      obtain ⟨a', b', c'⟩ := x'
      simp [frame, member] at he
      obtain ⟨h1, h2, h3, h4⟩ := he
      refine ⟨?_, h4⟩
      have h3 := hT.a h3
      rw [forget3, forget3, hT.p h1, hT.v h2]
      congr 2
      simp only [defined] at h3
      dsimp only
      split at h3 <;> split at h3 <;> simp_all
    | _ => simp [title3] at htitle
  | .polygon x, o', ht, ht', s, s', xs, ys, h, h', he => by
    have htitle := same_title3 h h' he
    cases o' with
    | polygon x' =>
      rw [Obj3.print, Except.ok.injEq] at h h'
      subst h h'
      obtain ⟨p, a, b, c⟩ := x
      obtain ⟨p', a', b', c'⟩ := x'
      simp [frame, member, Polygon3.print] at he
      obtain ⟨h1, h2, h3, h4⟩ := he
      obtain ⟨h5, -, h6⟩ := polygon_cancel hT.cat hT.point2.1 ht ht' ends_footer ends_footer h4
      simp only at h5
      rw [hT.p h1, hT.v h2, hT.v h3, h5]
      exact ⟨rfl, h6⟩
    | _ => simp [title3] at htitle
  | .pyramid x, o', ht, ht', s, s', xs, ys, h, h', he => by
    have htitle := same_title3 h h' he
    cases o' with
    | pyramid x' =>
      rw [Obj3.print, Except.ok.injEq] at h h'
      subst h h'
      obtain ⟨⟨p, a, b, c⟩, d⟩ := x
      obtain ⟨⟨p', a', b', c'⟩, d'⟩ := x'
      simp [frame, member, Polygon3.print] at he
      obtain ⟨h0, h1, h2, h3, h4⟩ := he
      obtain ⟨h5, -, h6⟩ := polygon_cancel hT.cat hT.point2.1 ht ht' ends_footer ends_footer h4
      simp only at h5
      rw [hT.p h0, hT.p h1, hT.v h2, hT.v h3, h5]
      exact ⟨rfl, h6⟩
    | _ => simp [title3] at htitle
  | .ellipsoid e, o', ht, ht', s, s', xs, ys, h, h', he => by
    have htitle := same_title3 h h' he
    cases o' with
    | ellipsoid e' =>
      rw [Obj3.print] at h h'
      obtain ⟨t, h1, rfl⟩ := map_ok h
      obtain ⟨t', h1', rfl⟩ := map_ok h'
      obtain ⟨u, v, w, rfl⟩ := ellipsoid_shape h1
      obtain ⟨u', v', w', rfl⟩ := ellipsoid_shape h1'
      obtain ⟨p, a, b, c, q⟩ := e
      obtain ⟨p', a', b', c', q'⟩ := e'
      simp [frame, member] at he
      obtain ⟨h1, h2, h3, h4, -, -, -, h5, h6⟩ := he
      rw [hT.p h1, hT.r h2, hT.r h3, hT.r h4, hT.q h5]
      exact ⟨rfl, h6⟩
    | _ => simp [title3] at htitle
  | .composite b os, o', ht, ht', s, s', xs, ys, h, h', he => by
    have htitle := same_title3 h h' he
    cases o' with
    | composite b' os' =>
      have ih := fun {s s' xs ys} => apartAll3 hT os os' ht ht' (s := s) (s' := s') (xs := xs) (ys := ys) (eps := eps)
      cases os with
      | nil =>
        rw [print_nil3, Except.ok.injEq] at h
        subst h
        cases os' with
        | nil =>
          rw [print_nil3, Except.ok.injEq] at h'
          subst h'
          simp [frame] at he
          exact ⟨rfl, he⟩
        | cons o' os' =>
          rw [print_cons3] at h'
          obtain ⟨t', h1', rfl⟩ := map_ok h'
          simp [frame] at he
      | cons o os =>
        rw [print_cons3] at h
        obtain ⟨t, h1, rfl⟩ := map_ok h
        cases os' with
        | nil =>
          rw [print_nil3, Except.ok.injEq] at h'
          subst h'
          simp [frame] at he
        | cons o' os' =>
          rw [print_cons3] at h'
          obtain ⟨t', h1', rfl⟩ := map_ok h'
          simp only [frame, if_true, List.cons_append, List.append_assoc, List.cons.injEq, true_and, List.nil_append] at he
          obtain ⟨h3, h4⟩ := ih h1 h1' he
          rw [forget3, forget3, h3]
          exact ⟨rfl, h4⟩
    | _ => simp [title3] at htitle
theorem apartAll3 {T : Texts} (hT : Legible T) {eps : ℝ} : ∀ (os os' : List Obj3), TidyAll3 os → TidyAll3 os' → ∀ {s s' xs ys : List (Piece T.Text)},
    Obj3.printAll T eps os = .ok s → Obj3.printAll T eps os' = .ok s' → s ++ .footer :: xs = s' ++ .footer :: ys → forgetAll3 os = forgetAll3 os' ∧ xs = ys
  | [], [], _, _, s, s', xs, ys, h, h', he => by
    rw [Obj3.printAll, Except.ok.injEq] at h h'
    subst h h'
    simp at he
    exact ⟨rfl, he⟩
  | [], o' :: os', _, _, s, s', xs, ys, h, h', he => by
    rw [Obj3.printAll, Except.ok.injEq] at h
    subst h
    rw [Obj3.printAll] at h'
    split at h'
    · simp at h'
    · rename_i u hu
      obtain ⟨w, -, rfl⟩ := map_ok h'
      obtain ⟨v, rfl⟩ := print_frame hu
      simp at he
  | o :: os, [], _, _, s, s', xs, ys, h, h', he => by
    rw [Obj3.printAll, Except.ok.injEq] at h'
    subst h'
    rw [Obj3.printAll] at h
    split at h
    · simp at h
    · rename_i u hu
      obtain ⟨w, -, rfl⟩ := map_ok h
      obtain ⟨v, rfl⟩ := print_frame hu
      simp at he
  | o :: os, o' :: os', ht, ht', s, s', xs, ys, h, h', he => by
    rw [Obj3.printAll] at h h'
    split at h
    · simp at h
    split at h'
    · simp at h'
    rename_i u hu _ u' hu'
    obtain ⟨w, hw, rfl⟩ := map_ok h
    obtain ⟨w', hw', rfl⟩ := map_ok h'
    rw [List.append_assoc, List.append_assoc] at he
    obtain ⟨h1, h2⟩ := apart3 hT o o' ht.1 ht'.1 hu hu' he
    obtain ⟨h3, h4⟩ := apartAll3 hT os os' ht.2 ht'.2 hw hw' h2
    rw [forgetAll3, forgetAll3, h1, h3]
    exact ⟨rfl, h4⟩
end

/-- C124: what is printed of an object of space tells the object: two objects with the same text are the same, up to what is not printed at all (`forget3`), also
inside composites of composites, whenever the texts of the members do.
What is missing: whether a composite is defined is not printed (`C124_composite_violated`). -/
theorem C124_tells_partial (T : Texts) (hT : Legible T) (eps : ℝ) (o o' : Obj3) (ht : Tidy3 o) (ht' : Tidy3 o') (s : List (Piece T.Text)) (h : o.print T eps true = .ok s)
    (h' : o'.print T eps true = .ok s) : forget3 o = forget3 o' := (apart3 hT o o' ht ht' (xs := []) (ys := []) h h' rfl).1

/-- a member that is printed is found at the end of its line in the text, behind its label; here for a ray -/
example (T : Texts) (r : Ray3) : ∃ s, (Obj3.ray r).print T 1 true = .ok s ∧ Piece.line [T.lit "Origin:", word T T.point3 r.origin] ∈ s := by
  refine ⟨_, by rw [Obj3.print], ?_⟩
  simp [frame, member]

example : Tidy3 (.composite true [.point none, .polygon ⟨⟨[⟨0, 0⟩, ⟨0, 1⟩, ⟨1, 0⟩, ⟨0, 0⟩], []⟩, none, none, none⟩, .composite false []]) :=
  ⟨trivial, ⟨.inr ⟨⟨0, 0⟩, [⟨0, 1⟩, ⟨1, 0⟩], rfl, by simp⟩, by simp⟩, trivial, trivial⟩

/-- C124 is violated for composites: an undefined composite is printed like a defined one, and with nothing in it as empty -/
theorem C124_composite_violated (T : Texts) (eps : ℝ) (d : Bool) : (∀ os, (Obj3.composite false os).print T eps d = (Obj3.composite true os).print T eps d) ∧
    (Obj3.composite false []).print T eps d = .ok (frame d "Composite" [.line [T.lit "Empty"]]) ∧ (Obj3.composite false []).isDefined = false := by
  refine ⟨fun os => ?_, print_nil3 T eps d false, rfl⟩
  cases os with
  | nil => rw [print_nil3, print_nil3]
  | cons o os => rw [print_cons3, print_cons3]

/-! ## The plane -/

mutual
/-- a multi-polygon has a polygon, and its polygons have distinct vertices; also inside composites -/
def Printable2 : Obj2 → Prop
  | .multiPolygon ps => ps ≠ [] ∧ ∀ p ∈ ps, DistinctRings p
  | .composite _ os => PrintableAll2 os
  | _ => True
/-- `Printable2` for all of a list -/
def PrintableAll2 : List Obj2 → Prop
  | [] => True
  | o :: os => Printable2 o ∧ PrintableAll2 os
end

theorem print_nil2 (T : Texts) (d b : Bool) : Obj2.print T d (.composite b []) = .ok (frame d "Composite" [.line [T.lit "Empty"]]) := by rw [Obj2.print]

theorem print_cons2 (T : Texts) (d b : Bool) (o : Obj2) (os : List Obj2) : Obj2.print T d (.composite b (o :: os)) =
    (Obj2.printAll T (o :: os)).map fun s => frame d "Composite" (.separator "Objects" :: s) := by
  rw [Obj2.print]; simp

theorem multi_print (T : Texts) {ps : List Polygon2} (hne : ps ≠ []) (h : ∀ p ∈ ps, DistinctRings p) :
    MultiPolygon2.print T ps = .ok (ps.flatMap (Polygon2.print T)) := by
  rw [MultiPolygon2.print, (C58_roundtrip ps hne h).2.1]; rfl

mutual
theorem prints2 (T : Texts) (d : Bool) : ∀ o : Obj2, Printable2 o → ∃ s, o.print T d = .ok s
  | .multiPolygon ps, h => by rw [Obj2.print, map_prints, multi_print T h.1 h.2]; exact ⟨_, rfl⟩
  | .composite b os, h => by
    have ih := printsAll2 T os h
    cases os with
    | nil => exact ⟨_, print_nil2 T d b⟩
    | cons o os => rw [print_cons2, map_prints]; exact ih
  | .point p, _ => ⟨_, by rw [Obj2.print]⟩
  | .pointSet p, _ => ⟨_, by rw [Obj2.print]⟩
  | .line p, _ => ⟨_, by rw [Obj2.print]⟩
  | .segment p, _ => ⟨_, by rw [Obj2.print]⟩
  | .lineString p, _ => ⟨_, by rw [Obj2.print]⟩
  | .polygon p, _ => ⟨_, by rw [Obj2.print]⟩
theorem printsAll2 (T : Texts) : ∀ os : List Obj2, PrintableAll2 os → ∃ s, Obj2.printAll T os = .ok s
  | [], _ => ⟨_, by rw [Obj2.printAll]⟩
  | o :: os, h => by
    obtain ⟨s, h1⟩ := prints2 T true o h.1
    obtain ⟨u, h2⟩ := printsAll2 T os h.2
    exact ⟨s ++ u, by rw [Obj2.printAll, h1, h2]; rfl⟩
end

/-- C124: an object of the plane is printed without an exception.
What is missing: multi-polygons without polygons (`C124_multi_polygon_violated`) and with polygons of equal vertices (`C58_two_vertices_violated`). -/
theorem C124_prints2_partial (T : Texts) (d : Bool) (o : Obj2) (h : Printable2 o) : ∃ s, o.print T d = .ok s := prints2 T d o h

example : ∃ p, Printable2 (.composite true [.multiPolygon [p], .point none]) := by
  obtain ⟨p, h1, -⟩ := C58_vertices [⟨0, 0⟩, ⟨0, 1⟩, ⟨1, 0⟩] [⟨0, 0⟩, ⟨0, 1⟩, ⟨1, 0⟩] [] [] (by simp) (by simp) (.inl ⟨rfl, by simp⟩) .nil
  refine ⟨p, ⟨by simp, ?_⟩, trivial, trivial⟩
  intro q hq
  obtain rfl := List.mem_singleton.1 hq
  exact ⟨_, [], by simp, by simp, by simp, h1⟩

/-- C124 is violated for the undefined multi-polygon: printing it throws, and with it everything that contains it; the branch that prints it as undefined is never
taken -/
theorem C124_multi_polygon_violated (T : Texts) (d : Bool) :
    (MultiPolygon2.ctor [] = .ok [] ∧ (Obj2.multiPolygon []).isDefined = false ∧ (Obj2.multiPolygon []).print T d = .error .undefined) ∧
    ∀ (b : Bool) (os ps : List Obj2), PrintableAll2 os → (Obj2.composite b (os ++ .multiPolygon [] :: ps)).print T d = .error .undefined := by
  have h0 : ∀ d, (Obj2.multiPolygon []).print T d = .error .undefined := by
    intro d
    simp [Obj2.print, MultiPolygon2.print, MultiPolygon2.getPolygons, MultiPolygon2.isDefined, bind, Except.bind, Except.map]
  refine ⟨⟨by simp [MultiPolygon2.ctor, mapRes, bind, Except.bind, pure, Except.pure], rfl, h0 d⟩, ?_⟩
  intro b os ps h
  have key : Obj2.printAll T (os ++ .multiPolygon [] :: ps) = .error .undefined := by
    induction os with
    | nil => rw [List.nil_append, Obj2.printAll, h0]
    | cons o os ih =>
      obtain ⟨s, hs⟩ := prints2 T true o h.1
      rw [List.cons_append, Obj2.printAll, hs, ih h.2]; rfl
  cases os with
  | nil => rw [List.nil_append] at key ⊢; rw [print_cons2, key]; rfl
  | cons o os => rw [List.cons_append] at key ⊢; rw [print_cons2, key]; rfl

mutual
/-- the object with everything forgotten that is not printed: whether a composite is defined -/
def forget2 : Obj2 → Obj2
  | .composite _ os => .composite true (forgetAll2 os)
  | o => o
/-- `forget2` for all of a list -/
def forgetAll2 : List Obj2 → List Obj2
  | [] => []
  | o :: os => forget2 o :: forgetAll2 os
end

mutual
/-- the polygons in the object are as the constructor leaves them, those of multi-polygons have distinct vertices -/
def Tidy2 : Obj2 → Prop
  | .polygon p => Tidy p
  | .multiPolygon ps => ∀ p ∈ ps, DistinctRings p
  | .composite _ os => TidyAll2 os
  | _ => True
/-- `Tidy2` for all of a list -/
def TidyAll2 : List Obj2 → Prop
  | [] => True
  | o :: os => Tidy2 o ∧ TidyAll2 os
end

/-- the title of the frame of an object -/
def title2 : Obj2 → String
  | .point _ => "Point"
  | .pointSet _ => "Point Set"
  | .line _ => "Line"
  | .segment _ => "Segment"
  | .lineString _ => "Line string"
  | .polygon _ => "Polygon"
  | .multiPolygon _ => "Multi-polygon"
  | .composite _ _ => "Composite"

theorem print_frame2 {T : Texts} {o : Obj2} {s : List (Piece T.Text)} (h : o.print T true = .ok s) : ∃ u, s = .header (title2 o) :: (u ++ [.footer]) := by
  cases o with
  | multiPolygon e => obtain ⟨u, -, rfl⟩ := map_ok (by rw [Obj2.print] at h; exact h); exact ⟨u, rfl⟩
  | composite b os =>
    cases os with
    | nil => rw [print_nil2, Except.ok.injEq] at h; exact ⟨_, h.symm⟩
    | cons o os => rw [print_cons2] at h; obtain ⟨u, -, rfl⟩ := map_ok h; exact ⟨_, rfl⟩
  | _ => rw [Obj2.print, Except.ok.injEq] at h; exact ⟨_, h.symm⟩

theorem same_title2 {T : Texts} {o o' : Obj2} {s s' xs ys : List (Piece T.Text)} (h : o.print T true = .ok s) (h' : o'.print T true = .ok s')
    (he : s ++ xs = s' ++ ys) : title2 o = title2 o' := by
  obtain ⟨u, rfl⟩ := print_frame2 h
  obtain ⟨u', rfl⟩ := print_frame2 h'
  simp only [List.cons_append, List.cons.injEq, Piece.header.injEq] at he
  exact he.1

theorem ctor_tidy {o : List (Option V2)} {rs : List (List (Option V2))} {p : Polygon2} (h : Polygon2.ctor o rs = .ok p) (hd : p.isDefined = true) : Tidy p :=
  ⟨.inr (closedRings_of_ctor h hd).1, (closedRings_of_ctor h hd).2⟩

theorem distinct_tidy {p : Polygon2} (h : DistinctRings p) : Tidy p := by
  obtain ⟨ps, is, h3, -, hi, hc⟩ := h
  have his : ∀ r ∈ is, 3 ≤ r.length := fun r hr => (hi r hr).1
  refine ctor_tidy hc ?_
  rw [Polygon2.ctor_ok h3 his, Except.ok.injEq] at hc
  subst hc
  simpa [Polygon2.isDefined] using (Ring.correctOuter_closed h3).length

theorem multi_cancel {T : Texts} (hT : Legible T) : ∀ {ps qs : List Polygon2} {xs ys : List (Piece T.Text)}, (∀ p ∈ ps, DistinctRings p) → (∀ p ∈ qs, DistinctRings p) →
    ps.flatMap (Polygon2.print T) ++ .footer :: xs = qs.flatMap (Polygon2.print T) ++ .footer :: ys → ps = qs ∧ xs = ys
  | [], [], xs, ys, _, _, h => by simpa using h
  | [], q :: qs, xs, ys, _, _, h => by simp [Polygon2.print] at h
  | p :: ps, [], xs, ys, _, _, h => by simp [Polygon2.print] at h
  | p :: ps, q :: qs, xs, ys, hp, hq, h => by
    rw [List.flatMap_cons, List.flatMap_cons, List.append_assoc, List.append_assoc] at h
    have next : ∀ (rs : List Polygon2) (zs : List (Piece T.Text)), ∃ e zs', Ends e ∧ rs.flatMap (Polygon2.print T) ++ Piece.footer :: zs = e :: zs' := by
      intro rs zs
      cases rs with
      | nil => exact ⟨_, _, ends_footer, rfl⟩
      | cons r rs => exact ⟨_, _, ends_outer, rfl⟩
    obtain ⟨c, xs', hc, ex⟩ := next ps xs
    obtain ⟨d, ys', hd, ey⟩ := next qs ys
    rw [ex, ey] at h
    obtain ⟨e1, e2, e3⟩ := polygon_cancel hT.cat hT.point2.1 (distinct_tidy (hp p (by simp))) (distinct_tidy (hq q (by simp))) hc hd h
    obtain ⟨f1, f2⟩ := multi_cancel hT (ps := ps) (qs := qs) (fun r hr => hp r (by simp [hr])) (fun r hr => hq r (by simp [hr])) (by rw [ex, ey, e2, e3])
    exact ⟨by rw [e1, f1], f2⟩

mutual
theorem apart2 {T : Texts} (hT : Legible T) : ∀ (o o' : Obj2), Tidy2 o → Tidy2 o' → ∀ {s s' xs ys : List (Piece T.Text)}, o.print T true = .ok s →
    o'.print T true = .ok s' → s ++ xs = s' ++ ys → forget2 o = forget2 o' ∧ xs = ys
  | .point x, o', ht, ht', s, s', xs, ys, h, h', he => by
    have htitle := same_title2 h h' he
    cases o' with
    | point x' =>
      rw [Obj2.print, Except.ok.injEq] at h h'
      subst h h'
      simp [frame, member] at he
      obtain ⟨h1, h2, h4⟩ := he
      refine ⟨?_, h4⟩
      have h1 := hT.r h1
      have h2 := hT.r h2
      congr 2
      cases x <;> cases x' <;> simp_all
      exact V2.ext h1 h2
    | _ => simp [title2] at htitle
  | .pointSet x, o', ht, ht', s, s', xs, ys, h, h', he => by
    have htitle := same_title2 h h' he
    cases o' with
    | pointSet x' =>
      rw [Obj2.print, Except.ok.injEq] at h h'
      subst h h'
      simp only [frame, if_true, List.cons_append, List.append_assoc, List.cons.injEq, true_and, List.nil_append] at he
      obtain ⟨rfl, h3⟩ := hT.l2 he
      exact ⟨rfl, h3⟩
    | _ => simp [title2] at htitle
  | .lineString x, o', ht, ht', s, s', xs, ys, h, h', he => by
    have htitle := same_title2 h h' he
    cases o' with
    | lineString x' =>
      rw [Obj2.print, Except.ok.injEq] at h h'
      subst h h'
      simp only [frame, if_true, List.cons_append, List.append_assoc, List.cons.injEq, true_and, List.nil_append] at he
      obtain ⟨rfl, h3⟩ := hT.l2 he
      exact ⟨rfl, h3⟩
    | _ => simp [title2] at htitle
  | .line x, o', ht, ht', s, s', xs, ys, h, h', he => by
    have htitle := same_title2 h h' he
    cases o' with
    | line x' =>
      rw [Obj2.print, Except.ok.injEq] at h h'
      subst h h'
      obtain ⟨a, b⟩ := x
      obtain ⟨a', b'⟩ := x'
      simp [frame, member] at he
      rw [hT.p2 he.1, hT.v2 he.2.1]; exact ⟨rfl, he.2.2⟩
    | _ => simp [title2] at htitle
  | .segment x, o', ht, ht', s, s', xs, ys, h, h', he => by
    have htitle := same_title2 h h' he
    cases o' with
    | segment x' =>
      rw [Obj2.print, Except.ok.injEq] at h h'
      subst h h'
      obtain ⟨a, b⟩ := x
      obtain ⟨a', b'⟩ := x'
      simp [frame, member] at he
      rw [hT.p2 he.1, hT.p2 he.2.1]; exact ⟨rfl, he.2.2⟩
    | _ => simp [title2] at htitle
  | .polygon x, o', ht, ht', s, s', xs, ys, h, h', he => by
    have htitle := same_title2 h h' he
    cases o' with
    | polygon x' =>
      rw [Obj2.print, Except.ok.injEq] at h h'
      subst h h'
      simp only [frame, if_true, List.cons_append, List.append_assoc, List.cons.injEq, true_and, List.nil_append] at he
      obtain ⟨h5, -, h6⟩ := polygon_cancel hT.cat hT.point2.1 ht ht' ends_footer ends_footer he
      exact ⟨by rw [h5], h6⟩
    | _ => simp [title2] at htitle
  | .multiPolygon x, o', ht, ht', s, s', xs, ys, h, h', he => by
    have htitle := same_title2 h h' he
    cases o' with
    | multiPolygon x' =>
      rw [Obj2.print] at h h'
      obtain ⟨t, h1, rfl⟩ := map_ok h
      obtain ⟨t', h1', rfl⟩ := map_ok h'
      have hne : ∀ {ps : List Polygon2} {t : List (Piece T.Text)}, MultiPolygon2.print T ps = .ok t → ps ≠ [] := by
        rintro ps t h rfl
        simp [MultiPolygon2.print, MultiPolygon2.getPolygons, MultiPolygon2.isDefined, bind, Except.bind] at h
      have e1 := multi_print T (hne h1) ht
      have e1' := multi_print T (hne h1') ht'
      rw [h1, Except.ok.injEq] at e1
      rw [h1', Except.ok.injEq] at e1'
      subst e1 e1'
      simp only [frame, if_true, List.cons_append, List.append_assoc, List.cons.injEq, true_and, List.nil_append] at he
      obtain ⟨h5, h6⟩ := multi_cancel hT ht ht' he
      exact ⟨by rw [h5], h6⟩
    | _ => simp [title2] at htitle
  | .composite b os, o', ht, ht', s, s', xs, ys, h, h', he => by
    have htitle := same_title2 h h' he
    cases o' with
    | composite b' os' =>
      have ih := fun {s s' xs ys} => apartAll2 hT os os' ht ht' (s := s) (s' := s') (xs := xs) (ys := ys)
      cases os with
      | nil =>
        rw [print_nil2, Except.ok.injEq] at h
        subst h
        cases os' with
        | nil =>
          rw [print_nil2, Except.ok.injEq] at h'
          subst h'
          simp [frame] at he
          exact ⟨rfl, he⟩
        | cons o' os' =>
          rw [print_cons2] at h'
          obtain ⟨t', h1', rfl⟩ := map_ok h'
          simp [frame] at he
      | cons o os =>
        rw [print_cons2] at h
        obtain ⟨t, h1, rfl⟩ := map_ok h
        cases os' with
        | nil =>
          rw [print_nil2, Except.ok.injEq] at h'
          subst h'
          simp [frame] at he
        | cons o' os' =>
          rw [print_cons2] at h'
          obtain ⟨t', h1', rfl⟩ := map_ok h'
          simp only [frame, if_true, List.cons_append, List.append_assoc, List.cons.injEq, true_and, List.nil_append] at he
          obtain ⟨h3, h4⟩ := ih h1 h1' he
          rw [forget2, forget2, h3]
          exact ⟨rfl, h4⟩
    | _ => simp [title2] at htitle
theorem apartAll2 {T : Texts} (hT : Legible T) : ∀ (os os' : List Obj2), TidyAll2 os → TidyAll2 os' → ∀ {s s' xs ys : List (Piece T.Text)},
    Obj2.printAll T os = .ok s → Obj2.printAll T os' = .ok s' → s ++ .footer :: xs = s' ++ .footer :: ys → forgetAll2 os = forgetAll2 os' ∧ xs = ys
  | [], [], _, _, s, s', xs, ys, h, h', he => by
    rw [Obj2.printAll, Except.ok.injEq] at h h'
    subst h h'
    simp at he
    exact ⟨rfl, he⟩
  | [], o' :: os', _, _, s, s', xs, ys, h, h', he => by
    rw [Obj2.printAll, Except.ok.injEq] at h
    subst h
    rw [Obj2.printAll] at h'
    split at h'
    · simp at h'
    · rename_i u hu
      obtain ⟨w, -, rfl⟩ := map_ok h'
      obtain ⟨v, rfl⟩ := print_frame2 hu
      simp at he
  | o :: os, [], _, _, s, s', xs, ys, h, h', he => by
    rw [Obj2.printAll, Except.ok.injEq] at h'
    subst h'
    rw [Obj2.printAll] at h
    split at h
    · simp at h
    · rename_i u hu
      obtain ⟨w, -, rfl⟩ := map_ok h
      obtain ⟨v, rfl⟩ := print_frame2 hu
      simp at he
  | o :: os, o' :: os', ht, ht', s, s', xs, ys, h, h', he => by
    rw [Obj2.printAll] at h h'
    split at h
    · simp at h
    split at h'
    · simp at h'
    rename_i u hu _ u' hu'
    obtain ⟨w, hw, rfl⟩ := map_ok h
    obtain ⟨w', hw', rfl⟩ := map_ok h'
    rw [List.append_assoc, List.append_assoc] at he
    obtain ⟨h1, h2⟩ := apart2 hT o o' ht.1 ht'.1 hu hu' he
    obtain ⟨h3, h4⟩ := apartAll2 hT os os' ht.2 ht'.2 hw hw' h2
    rw [forgetAll2, forgetAll2, h1, h3]
    exact ⟨rfl, h4⟩
end

/-- C124: what is printed of an object of the plane tells the object, up to whether composites are defined -/
theorem C124_tells2_partial (T : Texts) (hT : Legible T) (o o' : Obj2) (ht : Tidy2 o) (ht' : Tidy2 o') (s : List (Piece T.Text)) (h : o.print T true = .ok s)
    (h' : o'.print T true = .ok s) : forget2 o = forget2 o' := (apart2 hT o o' ht ht' (xs := []) (ys := []) h h' rfl).1

example : Tidy2 (.composite true [.point none, .polygon ⟨[⟨0, 0⟩, ⟨0, 1⟩, ⟨1, 0⟩, ⟨0, 0⟩], []⟩, .composite false []]) :=
  ⟨trivial, ⟨.inr ⟨⟨0, 0⟩, [⟨0, 1⟩, ⟨1, 0⟩], rfl, by simp⟩, by simp⟩, trivial, trivial⟩

end Verif.Props
