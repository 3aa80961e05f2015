import Verif.Model.DoubleVec

/-!
# Cuboids and cones in double precision

Source: `src/OpenSpaceToolkit/Mathematics/Geometry/3D/Object/Cuboid.cpp` and `Cone.cpp`, with the arithmetic of `Model/Double.lean`, the vectors of `Model/DoubleVec.lean` and the
angles of `Model/DoubleAngle.lean`.
-/

namespace Verif

/-- `Cuboid` (members `center_`, `axes_` and `extent_`) -/
structure DCuboid where
  center : DVec
  ax : DVec
  ay : DVec
  az : DVec
  ex : F64 ℝ
  ey : F64 ℝ
  ez : F64 ℝ

namespace DCuboid

/-- `isDefined` (`3D/Object/Cuboid.cpp` 151-155) -/
noncomputable def isDefined (c : DCuboid) : Bool :=
  c.center.isDefined && c.ax.isDefined && c.ay.isDefined && c.az.isDefined && (open Classical in decide (c.ex ≠ .nan ∧ c.ey ≠ .nan ∧ c.ez ≠ .nan))

/-- `((axes_[i] == aCuboid.axes_[j]) || (axes_[i] == -aCuboid.axes_[j])) && (extent_[i] == aCuboid.extent_[j])`, as in `operator ==` -/
noncomputable def sameAxis (a b : DVec) (e f : F64 ℝ) : Bool := (a.eq b || a.eq b.neg) && e.eq f

/-- `operator ==` (`3D/Object/Cuboid.cpp` 67-144) -/
noncomputable def eq (p q : DCuboid) : Bool :=
  if !p.isDefined || !q.isDefined then false
  else if p.center.eq q.center then
    if sameAxis p.ax q.ax p.ex q.ex then
      if sameAxis p.ay q.ay p.ey q.ey then sameAxis p.az q.az p.ez q.ez
      else if sameAxis p.ay q.az p.ey q.ez then sameAxis p.az q.ay p.ez q.ey
      else false
    else if sameAxis p.ax q.ay p.ex q.ey then
      if sameAxis p.ay q.ax p.ey q.ex then sameAxis p.az q.az p.ez q.ez
      else if sameAxis p.ay q.az p.ey q.ez then sameAxis p.az q.ax p.ez q.ex
      else false
    else if sameAxis p.ax q.az p.ex q.ez then
      if sameAxis p.ay q.ax p.ey q.ex then sameAxis p.az q.ay p.ez q.ey
      else if sameAxis p.ay q.ay p.ey q.ey then sameAxis p.az q.ax p.ez q.ex
      else false
    else false
  else false

/-- `contains (Point)` (`3D/Object/Cuboid.cpp` 283-317); `eps` is `Real::Epsilon()` -/
noncomputable def contains (o : Bool) (eps : F64 ℝ) (c : DCuboid) (p : DVec) : Res Bool :=
  if !p.isDefined then .error .undefined
  else if !c.isDefined then .error .undefined
  else
    let dx := p.sub c.center
    let a := (dx.dot o c.ax).abs
    let b := (dx.dot o c.ay).abs
    let d := (dx.dot o c.az).abs
    .ok (if (a.sub c.ex).abs.lt eps then b.le c.ey && d.le c.ez
      else if (b.sub c.ey).abs.lt eps then a.le c.ex && d.le c.ez
      else if (d.sub c.ez).abs.lt eps then a.le c.ex && b.le c.ey
      else false)

end DCuboid

/-- `Cone` (members `apex_`, `axis_` and `angle_`) -/
structure DCone where
  apex : DVec
  axis : DVec
  angle : DAngle ℝ

namespace DCone

/-- `isDefined` (`3D/Object/Cone.cpp` 58-61) -/
noncomputable def isDefined (c : DCone) : Bool := c.apex.isDefined && c.axis.isDefined && c.angle.isDefined

/-- `contains (Point)` (`3D/Object/Cone.cpp` 117-142); `n` bounds the rounds of the loops of `Angle::ReduceRange`, `none` says that they have not ended by then -/
noncomputable def contains (n : ℕ) (o : Bool) (eps : F64 ℝ) (acos : ℝ → ℝ) (c : DCone) (p : DVec) : Option (Res Bool) :=
  if !p.isDefined then some (.error .undefined)
  else if !c.isDefined then some (.error .undefined)
  else if p.eq c.apex then some (.ok true)
  else
    let v := p.sub c.apex
    if (v.dot o c.axis).lt (.fin 0) then some (.ok false)
    else
      match DVec.between o eps acos v c.axis with
      | .error e => some (.error e)
      | .ok r =>
        match DAngle.inRange n .degree ⟨r, .radian⟩ (.fin 0) (.fin 360) with
        | none => none
        | some (.error e) => some (.error e)
        | some (.ok x) =>
          match DAngle.inRange n .degree c.angle (.fin 0) (.fin 360) with
          | none => none
          | some (.error e) => some (.error e)
          | some (.ok y) => some (.ok (x.le y))

end DCone

end Verif
