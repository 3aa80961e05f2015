import Verif.Model.DoubleSphere
import Verif.Lemmas.DoubleLine2

/-!
# Rounding errors of spheres
-/

namespace Verif

open Double Spec

/-- doubles that are 8 or more are multiples of `2 ^ -49` -/
theorem DSphere.grid {x : ℝ} (hx : Representable x) (h : 8 ≤ x) : ∃ k : ℤ, x = k * 2 ^ (-49 : ℤ) := by
  obtain ⟨m, e, hm, he, rfl⟩ := hx
  have : -49 ≤ e := by
    by_contra hc
    push Not at hc
    have h1 : |(m : ℝ)| ≤ 2 ^ 53 - 1 := by
      have : |m| ≤ 2 ^ 53 - 1 := by omega
      exact_mod_cast this
    have h2 : (2 : ℝ) ^ e ≤ 2 ^ (-50 : ℤ) := zpow_le_zpow_right₀ one_le_two (by omega)
    have h3 : (0 : ℝ) < 2 ^ e := by positivity
    have h4 : (m : ℝ) * 2 ^ e ≤ (2 ^ 53 - 1) * 2 ^ (-50 : ℤ) :=
      mul_le_mul ((le_abs_self _).trans h1) h2 h3.le (by norm_num)
    norm_num at h4
    linarith
  exact grid_of_le rfl this

/-- from 16 on, two different doubles differ by `2 ^ -49` or more -/
theorem DSphere.apart {x y : ℝ} (hx : Representable x) (hy : Representable y) (h : 16 ≤ y) (hne : x ≠ y) : (2 : ℝ) ^ (-49 : ℤ) ≤ |x - y| := by
  rcases le_total 8 x with h8 | h8
  · obtain ⟨k, rfl⟩ := DSphere.grid hx h8
    obtain ⟨l, rfl⟩ := DSphere.grid hy (by linarith)
    have hkl : k ≠ l := fun e => hne (by rw [e])
    rw [← sub_mul, abs_mul, abs_of_pos (by positivity : (0 : ℝ) < 2 ^ (-49 : ℤ))]
    have : (1 : ℝ) ≤ |(k : ℝ) - l| := by
      have := Int.one_le_abs (sub_ne_zero.2 hkl)
      exact_mod_cast this
    nlinarith [(by positivity : (0 : ℝ) < 2 ^ (-49 : ℤ))]
  · rw [abs_of_neg (by linarith)]
    norm_num
    linarith

theorem DSphere.combine {u t N R S Q F : ℝ} (u0 : 0 ≤ u) (u1 : u ≤ 1 / 1000) (t0 : 0 ≤ t) (hN : 0 ≤ N) (hR : 0 ≤ R)
    (hS : |S - N| ≤ 505 / 100 * u * N + 31 / 10 * t) (hQ : |Q - R| ≤ u * R + t) (hF : |F - (S - Q)| ≤ u * |S - Q|) :
    |F - (N - R)| ≤ 61 / 10 * u * (N + R) + 5 * t := by
  have p1 : 0 ≤ u * N := mul_nonneg u0 hN
  have p2 : 0 ≤ u * R := mul_nonneg u0 hR
  have p3 : u * (u * N) ≤ 1 / 1000 * (u * N) := mul_le_mul_of_nonneg_right u1 p1
  have p4 : u * (u * R) ≤ 1 / 1000 * (u * R) := mul_le_mul_of_nonneg_right u1 p2
  have p5 : u * t ≤ 1 / 1000 * t := mul_le_mul_of_nonneg_right u1 t0
  have h1 := abs_add_le (S - N) (R - Q)
  rw [abs_sub_comm R Q, show S - N + (R - Q) = S - Q - (N - R) by ring] at h1
  have h2 : |N - R| ≤ N + R := by rw [abs_le]; constructor <;> linarith
  have h3 := abs_add_le (S - Q - (N - R)) (N - R)
  rw [sub_add_cancel] at h3
  have h4 := abs_add_le (F - (S - Q)) (S - Q - (N - R))
  rw [show F - (S - Q) + (S - Q - (N - R)) = F - (N - R) by ring] at h4
  have h5 : u * |S - Q| ≤ u * (N + R + (505 / 100 * u * N + u * R + 41 / 10 * t)) := mul_le_mul_of_nonneg_left (by linarith) u0
  have e : u * (N + R + (505 / 100 * u * N + u * R + 41 / 10 * t)) = u * N + u * R + 505 / 100 * (u * (u * N)) + u * (u * R) + 41 / 10 * (u * t) := by ring
  linarith

theorem DSphere.chain {u t N D S : ℝ} (u0 : 0 ≤ u) (u1 : u ≤ 1 / 1000) (hN : 0 ≤ N) (hS : |S - D| ≤ 301 / 100 * u * D + 31 / 10 * t)
    (hD : |D - N| ≤ 201 / 100 * u * N) : |S - N| ≤ 505 / 100 * u * N + 31 / 10 * t := by
  have p1 : 0 ≤ u * N := mul_nonneg u0 hN
  have p3 : u * (u * N) ≤ 1 / 1000 * (u * N) := mul_le_mul_of_nonneg_right u1 p1
  have h1 := abs_add_le (S - D) (D - N)
  rw [show S - D + (D - N) = S - N by ring] at h1
  have h2 : u * D ≤ u * (N + 201 / 100 * u * N) := mul_le_mul_of_nonneg_left (by have := (abs_le.1 hD).2; linarith) u0
  have e : u * (N + 201 / 100 * u * N) = u * N + 201 / 100 * (u * (u * N)) := by ring
  linarith

end Verif
