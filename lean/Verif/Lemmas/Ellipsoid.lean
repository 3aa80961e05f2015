import Verif.Model.Ellipsoid
import Verif.Lemmas.Gte
import Verif.Lemmas.Rotation
import Verif.Lemmas.Transformation

/-!
# The quadratic form of an ellipsoid, and what the assumed library queries compute
-/

namespace Verif

open Spec

set_option linter.flexible false

namespace Gte.Ellipsoid

/-- the value of the quadratic form on a vector, minus one -/
noncomputable def out (e : Ellipsoid) (o d : V3) (t : ℝ) : ℝ :=
  (o + t • d - e.center).dot (e.getM.mulVec (o + t • d - e.center)) - 1

theorem form_eq (e : Ellipsoid) (v : V3) : v.dot (e.getM.mulVec v) =
    (v.dot e.axis0 / e.extent0) ^ 2 + (v.dot e.axis1 / e.extent1) ^ 2 + (v.dot e.axis2 / e.extent2) ^ 2 := by
  simp only [getM, plus, outer, M3.mulVec, V3.dot, V3.smul_x, V3.smul_y, V3.smul_z]
  ring

theorem out_zero (e : Ellipsoid) (o d : V3) (t : ℝ) :
    e.out o d t = 0 ↔ o + t • d ∈ EllipsoidSet e.center e.extent0 e.extent1 e.extent2 e.axis0 e.axis1 e.axis2 := by
  rw [out, form_eq]
  exact sub_eq_zero

theorem out_eq (e : Ellipsoid) (o d : V3) (t : ℝ) : e.out o d t = d.dot (e.getM.mulVec d) * t ^ 2 +
    2 * d.dot (e.getM.mulVec (o - e.center)) * t + ((o - e.center).dot (e.getM.mulVec (o - e.center)) - 1) := by
  simp only [out, getM, plus, outer, M3.mulVec, V3.dot, V3.smul_x, V3.smul_y, V3.smul_z, V3.sub_x, V3.sub_y, V3.sub_z, V3.add_x, V3.add_y, V3.add_z]
  ring

theorem line_spec (e : Ellipsoid) (o d : V3) (h2 : 0 < d.dot (e.getM.mulVec d)) :
    (lineEllipsoid o d e = [] ∧ ∀ t, 0 < e.out o d t / d.dot (e.getM.mulVec d)) ∨
    (∃ a, lineEllipsoid o d e = [a] ∧ ∀ t, e.out o d t / d.dot (e.getM.mulVec d) = (t - a) * (t - a)) ∨
    (∃ a b, lineEllipsoid o d e = [a, b] ∧ a < b ∧ ∀ t, e.out o d t / d.dot (e.getM.mulVec d) = (t - a) * (t - b)) := by
  have e0 := out_eq e o d
  have el : lineEllipsoid o d e = if d.dot (e.getM.mulVec (o - e.center)) * d.dot (e.getM.mulVec (o - e.center)) -
      ((o - e.center).dot (e.getM.mulVec (o - e.center)) - 1) * d.dot (e.getM.mulVec d) > 0 then
        [(-d.dot (e.getM.mulVec (o - e.center)) - Real.sqrt (d.dot (e.getM.mulVec (o - e.center)) * d.dot (e.getM.mulVec (o - e.center)) -
          ((o - e.center).dot (e.getM.mulVec (o - e.center)) - 1) * d.dot (e.getM.mulVec d))) / d.dot (e.getM.mulVec d),
        (-d.dot (e.getM.mulVec (o - e.center)) + Real.sqrt (d.dot (e.getM.mulVec (o - e.center)) * d.dot (e.getM.mulVec (o - e.center)) -
          ((o - e.center).dot (e.getM.mulVec (o - e.center)) - 1) * d.dot (e.getM.mulVec d))) / d.dot (e.getM.mulVec d)]
      else if d.dot (e.getM.mulVec (o - e.center)) * d.dot (e.getM.mulVec (o - e.center)) -
        ((o - e.center).dot (e.getM.mulVec (o - e.center)) - 1) * d.dot (e.getM.mulVec d) < 0 then []
      else [-d.dot (e.getM.mulVec (o - e.center)) / d.dot (e.getM.mulVec d)] := rfl
  rw [el]
  clear el
  revert e0
  generalize e.out o d = f
  generalize d.dot (e.getM.mulVec d) = a2 at *
  generalize d.dot (e.getM.mulVec (o - e.center)) = a1
  generalize (o - e.center).dot (e.getM.mulVec (o - e.center)) - 1 = a0
  intro e0
  rcases lt_trichotomy (a1 * a1 - a0 * a2) 0 with h | h | h
  · left
    refine ⟨by rw [if_neg (by linarith), if_pos h], fun t => ?_⟩
    apply div_pos _ h2
    have : 0 < a2 * f t := by rw [e0]; nlinarith [sq_nonneg (a2 * t + a1)]
    exact (mul_pos_iff_of_pos_left h2).1 this
  · right; left
    refine ⟨-a1 / a2, by rw [if_neg (by linarith), if_neg (by linarith)], fun t => ?_⟩
    rw [e0]; field_simp; linear_combination -h
  · right; right
    have hs := Real.sqrt_pos.2 h
    have := Real.mul_self_sqrt h.le
    refine ⟨_, _, by rw [if_pos h], ?_, fun t => ?_⟩
    · rw [div_lt_div_iff_of_pos_right h2]; linarith
    · generalize Real.sqrt (a1 * a1 - a0 * a2) = s at *
      rw [e0]; field_simp; linear_combination this

theorem cut (e : Ellipsoid) (o d : V3) (h2 : 0 < d.dot (e.getM.mulVec d)) (lo : ℝ) (hi : Option ℝ) (hl : ∀ h, hi = some h → lo ≤ h) :
    Cut (fun t => e.out o d t / d.dot (e.getM.mulVec d)) lo hi (clip (lineEllipsoid o d e) lo hi) := by
  rcases line_spec e o d h2 with ⟨k, h⟩ | ⟨a, k, h⟩ | ⟨a, b, k, hab, h⟩ <;> rw [k]
  · exact Or.inl ⟨rfl, fun t _ => h t⟩
  · exact overlap_cut le_rfl h lo hi hl
  · exact overlap_cut hab.le h lo hi hl

end Gte.Ellipsoid

/-- the ellipsoid of the geometry library with the rows of a matrix as axes -/
def gteOf (c : V3) (k l n : ℝ) (m : M3) : Gte.Ellipsoid := ⟨c, m.row0, m.row1, m.row2, k, l, n⟩

theorem mulVec_rows (m : M3) (v : V3) : m.mulVec v = ⟨v.dot m.row0, v.dot m.row1, v.dot m.row2⟩ := by
  simp only [M3.mulVec, V3.dot, M3.row0, M3.row1, M3.row2, V3.mk.injEq]
  refine ⟨?_, ?_, ?_⟩ <;> ring

theorem gte_pos {m : M3} (hm : IsRotation m) (c : V3) {k l n : ℝ} (hk : 0 < k) (hl : 0 < l) (hn : 0 < n) {d : V3} (hd : d ≠ 0) :
    0 < d.dot ((gteOf c k l n m).getM.mulVec d) := by
  rw [Gte.Ellipsoid.form_eq]
  show 0 < (d.dot m.row0 / k) ^ 2 + (d.dot m.row1 / l) ^ 2 + (d.dot m.row2 / n) ^ 2
  by_contra hh
  apply hd
  have s0 := sq_nonneg (d.dot m.row0 / k)
  have s1 := sq_nonneg (d.dot m.row1 / l)
  have s2 := sq_nonneg (d.dot m.row2 / n)
  have z0 : (d.dot m.row0 / k) ^ 2 = 0 := by linarith
  have z1 : (d.dot m.row1 / l) ^ 2 = 0 := by linarith
  have z2 : (d.dot m.row2 / n) ^ 2 = 0 := by linarith
  simp [hk.ne'] at z0
  simp [hl.ne'] at z1
  simp [hn.ne'] at z2
  have z : m.mulVec d = m.mulVec 0 := by
    rw [mulVec_rows, z0, z1, z2]; ext <;> simp [M3.mulVec]
  exact M3.mulVec_injective hm z

end Verif
