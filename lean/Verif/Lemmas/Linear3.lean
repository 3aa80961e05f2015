import Verif.Lemmas.Vec
import Verif.Lemmas.Transformation
import Verif.Spec.Linear
import Verif.Model.Linear3

/-! # Lemmas on lines, rays, segments and planes -/

namespace Verif

open Spec

namespace V3

theorem cross_eq_zero_iff {d v : V3} (hd : d ≠ 0) : (d.cross v).normSq = 0 ↔ v = (d.dot v / d.normSq) • d := by
  have hn : d.normSq ≠ 0 := fun h => hd (normSq_eq_zero.1 h)
  constructor
  · intro h
    have hc := normSq_eq_zero.1 h
    have hx := congrArg V3.x hc
    have hy := congrArg V3.y hc
    have hz := congrArg V3.z hc
    simp only [cross_x, cross_y, cross_z, zero_x, zero_y, zero_z] at hx hy hz
    have hn' : d.normSq = d.x * d.x + d.y * d.y + d.z * d.z := rfl
    ext
    · simp only [smul_x]; rw [div_mul_eq_mul_div, eq_div_iff hn, hn', dot]; linear_combination d.y * (-hz) + d.z * hy
    · simp only [smul_y]; rw [div_mul_eq_mul_div, eq_div_iff hn, hn', dot]; linear_combination d.z * (-hx) + d.x * hz
    · simp only [smul_z]; rw [div_mul_eq_mul_div, eq_div_iff hn, hn', dot]; linear_combination d.x * (-hy) + d.y * hx
  · intro h
    rw [normSq_eq_zero, h]
    ext <;> simp <;> ring

theorem sub_eq_zero' {a b : V3} : a - b = 0 ↔ a = b := by
  constructor
  · intro h
    have hx := congrArg V3.x h
    have hy := congrArg V3.y h
    have hz := congrArg V3.z h
    simp at hx hy hz
    ext <;> linarith
  · rintro rfl; ext <;> simp

theorem eq_add_iff {p o v : V3} : p = o + v ↔ p - o = v := by
  constructor
  · rintro rfl; ext <;> simp
  · rintro rfl; ext <;> simp

theorem add_smul_sub (o d : V3) (t : ℝ) : o + t • d - o = t • d := by ext <;> simp

theorem dot_smul (k : ℝ) (u v : V3) : u.dot (k • v) = k * u.dot v := by simp only [dot, smul_x, smul_y, smul_z]; ring
theorem dot_sub (u v w : V3) : u.dot (v - w) = u.dot v - u.dot w := by simp only [dot, sub_x, sub_y, sub_z]; ring
theorem dot_add (u v w : V3) : u.dot (v + w) = u.dot v + u.dot w := by simp only [dot, add_x, add_y, add_z]; ring

theorem norm_le_norm {u v : V3} : u.norm ≤ v.norm ↔ u.normSq ≤ v.normSq := Real.sqrt_le_sqrt_iff v.normSq_nonneg

theorem norm_sub_comm (u v : V3) : (u - v).norm = (v - u).norm := by
  simp only [norm, normSq, dot, sub_x, sub_y, sub_z]; congr 1; ring

theorem ne_zero_of_unit {d : V3} (h : d.norm = 1) : d ≠ 0 := by
  rintro rfl; simp at h

theorem normSq_of_unit {d : V3} (h : d.norm = 1) : d.normSq = 1 := by rw [← norm_sq, h, one_pow]

end V3

theorem P3.eq_iff {p q : V3} : P3.eq (some p) (some q) = true ↔ p = q := by
  simp [P3.eq, V3.ext_iff, and_assoc]

theorem mem_lineSet {o d p : V3} (hd : d ≠ 0) : p ∈ LineSet o d ↔ (d.cross (p - o)).normSq = 0 := by
  rw [V3.cross_eq_zero_iff hd]
  constructor
  · rintro ⟨t, h⟩
    have hn : d.normSq ≠ 0 := fun h => hd (V3.normSq_eq_zero.1 h)
    rw [V3.eq_add_iff] at h
    rw [h, V3.dot_smul, show d.dot d = d.normSq from rfl, mul_div_cancel_right₀ _ hn]
  · intro h
    exact ⟨_, V3.eq_add_iff.2 h⟩

theorem mem_raySet {o d p : V3} (hd : d ≠ 0) : p ∈ RaySet o d ↔ (d.cross (p - o)).normSq = 0 ∧ 0 ≤ d.dot (p - o) := by
  have hn : 0 < d.normSq := lt_of_le_of_ne d.normSq_nonneg (fun h => hd (V3.normSq_eq_zero.1 h.symm))
  rw [V3.cross_eq_zero_iff hd]
  constructor
  · rintro ⟨t, ht, h⟩
    rw [V3.eq_add_iff] at h
    rw [h, V3.dot_smul, show d.dot d = d.normSq from rfl, mul_div_cancel_right₀ _ hn.ne']
    exact ⟨rfl, mul_nonneg ht hn.le⟩
  · rintro ⟨h, h'⟩
    exact ⟨_, div_nonneg h' hn.le, V3.eq_add_iff.2 h⟩

theorem mem_segSet {a b p : V3} (hd : a ≠ b) : p ∈ SegSet a b ↔
    ((b - a).cross (p - a)).normSq = 0 ∧ 0 ≤ (b - a).dot (p - a) ∧ (b - a).dot (p - a) ≤ (b - a).dot (b - a) := by
  have hd' : b - a ≠ 0 := fun h => hd (V3.sub_eq_zero'.1 h).symm
  have hn : 0 < (b - a).normSq := lt_of_le_of_ne (b - a).normSq_nonneg (fun h => hd' (V3.normSq_eq_zero.1 h.symm))
  rw [V3.cross_eq_zero_iff hd', show (b - a).dot (b - a) = (b - a).normSq from rfl]
  constructor
  · rintro ⟨t, ht, ht', h⟩
    rw [V3.eq_add_iff] at h
    rw [h, V3.dot_smul, show (b - a).dot (b - a) = (b - a).normSq from rfl, mul_div_cancel_right₀ _ hn.ne']
    exact ⟨rfl, mul_nonneg ht hn.le, mul_le_of_le_one_left hn.le ht'⟩
  · rintro ⟨h, h', h''⟩
    exact ⟨_, div_nonneg h' hn.le, (div_le_one hn).2 h'', V3.eq_add_iff.2 h⟩

theorem segSet_self (a : V3) : SegSet a a = {a} := by
  ext p
  constructor
  · rintro ⟨t, -, -, rfl⟩
    show _ = _
    ext <;> simp
  · rintro rfl
    exact ⟨0, le_refl _, zero_le_one, by ext <;> simp⟩

theorem segSet_comm (a b : V3) : SegSet a b = SegSet b a := by
  have : ∀ a b : V3, SegSet a b ⊆ SegSet b a := by
    rintro a b p ⟨t, h0, h1, rfl⟩
    exact ⟨1 - t, by linarith, by linarith, by ext <;> simp <;> ring⟩
  exact Set.Subset.antisymm (this a b) (this b a)

/-- The distance of a point to the point with parameter `t`, minimised: the square is a parabola in `t`. -/
theorem normSq_param (o d p : V3) (t : ℝ) :
    (o + t • d - p).normSq = (p - o).normSq - 2 * t * d.dot (p - o) + t ^ 2 * d.normSq := by
  simp only [V3.normSq, V3.dot, V3.sub_x, V3.sub_y, V3.sub_z, V3.add_x, V3.add_y, V3.add_z, V3.smul_x, V3.smul_y, V3.smul_z]; ring

theorem isDistance_unique {s : Set V3} {p : V3} {d d' : ℝ} (h : IsDistance s p d) (h' : IsDistance s p d') : d = d' := by
  obtain ⟨⟨q, hq, e⟩, m⟩ := h
  obtain ⟨⟨q', hq', e'⟩, m'⟩ := h'
  exact le_antisymm (e' ▸ m q' hq') (e ▸ m' q hq)

theorem isDistance_zero {s : Set V3} {p : V3} {d : ℝ} (h : IsDistance s p d) : d = 0 ↔ p ∈ s := by
  obtain ⟨⟨q, hq, e⟩, m⟩ := h
  constructor
  · rintro rfl
    rw [V3.norm_eq_zero, V3.sub_eq_zero'] at e
    exact e ▸ hq
  · intro hp
    have := m p hp
    rw [V3.sub_eq_zero'.2 rfl, V3.norm_zero] at this
    exact le_antisymm this (e ▸ V3.norm_nonneg _)

end Verif
