import Verif.Lemmas.Linear3
import Mathlib.Topology.Order.Compact
import Mathlib.Topology.Instances.Real.Lemmas

/-!
# Sums of segments, and axes that separate points from them

A point that is not in the sum of the segments from `-e k • n k` to `e k • n k` is separated from it along some axis, and if the vectors `n k` are the
axes of two boxes the axis can be chosen among the `n k` and their cross products.
-/

namespace Verif

/-- linear combination of vectors -/
noncomputable def V3.comb {m : ℕ} (s : Fin m → ℝ) (n : Fin m → V3) : V3 := ⟨∑ k, s k * (n k).x, ∑ k, s k * (n k).y, ∑ k, s k * (n k).z⟩

theorem V3.dot_comb {m : ℕ} (s : Fin m → ℝ) (n : Fin m → V3) (u : V3) : u.dot (V3.comb s n) = ∑ k, s k * u.dot (n k) := by
  simp only [V3.dot, V3.comb, Finset.mul_sum, ← Finset.sum_add_distrib]
  exact Finset.sum_congr rfl fun k _ => by ring

theorem V3.comb_update {m : ℕ} (s : Fin m → ℝ) (n : Fin m → V3) (k : Fin m) (t : ℝ) :
    V3.comb (Function.update s k t) n = V3.comb s n + (t - s k) • n k := by
  have h : ∀ f : V3 → ℝ, ∑ i, Function.update s k t i * f (n i) = ∑ i, s i * f (n i) + (t - s k) * f (n k) := by
    intro f
    rw [← Finset.add_sum_erase _ _ (Finset.mem_univ k), ← Finset.add_sum_erase Finset.univ (fun i => s i * f (n i)) (Finset.mem_univ k)]
    have : ∑ i ∈ Finset.univ.erase k, Function.update s k t i * f (n i) = ∑ i ∈ Finset.univ.erase k, s i * f (n i) :=
      Finset.sum_congr rfl fun i hi => by rw [Function.update_of_ne (Finset.ne_of_mem_erase hi)]
    rw [this, Function.update_self]; ring
  ext
  · simpa [V3.comb] using h V3.x
  · simpa [V3.comb] using h V3.y
  · simpa [V3.comb] using h V3.z

/-- how far a point `d` is beyond the sum of the segments, along `u` -/
noncomputable def beyond {m : ℕ} (n : Fin m → V3) (e : Fin m → ℝ) (d u : V3) : ℝ := u.dot d - ∑ k, e k * |u.dot (n k)|

/-- a point is in the sum of segments or separated from it -/
theorem mem_or_beyond {m : ℕ} (n : Fin m → V3) (e : Fin m → ℝ) (he : ∀ k, 0 ≤ e k) (d : V3) :
    (∃ s : Fin m → ℝ, (∀ k, |s k| ≤ e k) ∧ d = V3.comb s n) ∨ ∃ u, 0 < beyond n e d u := by
  obtain ⟨s, hs, hmin⟩ := (isCompact_univ_pi fun k : Fin m => isCompact_Icc (a := -e k) (b := e k)).exists_isMinOn
    (f := fun s : Fin m → ℝ => (d - V3.comb s n).normSq) ⟨0, fun k _ => ⟨by simpa using he k, by simpa using he k⟩⟩ (by
      apply Continuous.continuousOn
      simp only [V3.normSq, V3.dot, V3.sub_x, V3.sub_y, V3.sub_z, V3.comb]
      fun_prop)
  have hb : ∀ k, -e k ≤ s k ∧ s k ≤ e k := fun k => by simpa [Set.mem_pi] using hs k (Set.mem_univ k)
  set u := d - V3.comb s n with hu
  by_cases h0 : u.normSq = 0
  · left
    refine ⟨s, fun k => abs_le.2 (hb k), ?_⟩
    have h0 := V3.normSq_eq_zero.1 h0
    rw [V3.ext_iff] at h0 ⊢
    simp only [hu, V3.sub_x, V3.sub_y, V3.sub_z, V3.zero_x, V3.zero_y, V3.zero_z, sub_eq_zero] at h0
    exact h0
  · right
    have hpos : 0 < u.normSq := lt_of_le_of_ne (V3.normSq_nonneg u) (Ne.symm h0)
    have key : ∀ k t, -e k ≤ t → t ≤ e k → (t - s k) * u.dot (n k) ≤ 0 := by
      intro k t h1 h2
      by_contra hc
      push Not at hc
      have hq : ∀ τ : ℝ, 0 < τ → τ ≤ 1 → 2 * ((t - s k) * u.dot (n k)) ≤ τ * ((t - s k) ^ 2 * (n k).normSq) := by
        intro τ h3 h4
        have hm := hmin (a := Function.update s k (s k + τ * (t - s k))) (by
          intro i _
          by_cases hi : i = k
          · subst hi
            rw [Function.update_self]
            obtain ⟨b1, b2⟩ := hb i
            constructor <;> nlinarith
          · rw [Function.update_of_ne hi]; exact hb i)
        simp only [Set.mem_ofPred_eq] at hm
        rw [V3.comb_update] at hm
        have e1 : (d - (V3.comb s n + (s k + τ * (t - s k) - s k) • n k)).normSq =
            u.normSq - 2 * (τ * (t - s k)) * u.dot (n k) + (τ * (t - s k)) ^ 2 * (n k).normSq := by
          rw [hu]
          simp only [V3.normSq, V3.dot, V3.sub_x, V3.sub_y, V3.sub_z, V3.add_x, V3.add_y, V3.add_z, V3.smul_x, V3.smul_y, V3.smul_z]
          ring
        rw [e1] at hm
        have : τ * (2 * ((t - s k) * u.dot (n k))) ≤ τ * (τ * ((t - s k) ^ 2 * (n k).normSq)) := by nlinarith
        exact le_of_mul_le_mul_left this h3
      have hA := hq 1 one_pos le_rfl
      set A := (t - s k) ^ 2 * (n k).normSq
      set B := (t - s k) * u.dot (n k)
      have hAp : 0 < A := by linarith
      have := hq (min 1 (B / A)) (lt_min one_pos (div_pos hc hAp)) (min_le_left _ _)
      have h5 : min 1 (B / A) * A ≤ B / A * A := mul_le_mul_of_nonneg_right (min_le_right _ _) hAp.le
      rw [div_mul_cancel₀ _ hAp.ne'] at h5
      linarith
    have key2 : ∀ k, e k * |u.dot (n k)| ≤ s k * u.dot (n k) := by
      intro k
      have h1 := key k (e k) (by linarith [he k]) le_rfl
      have h2 := key k (-e k) le_rfl (by linarith [he k])
      rcases abs_cases (u.dot (n k)) with ⟨h, -⟩ | ⟨h, -⟩ <;> rw [h] <;> linarith
    refine ⟨u, ?_⟩
    have e1 : u.dot d = u.normSq + ∑ k, s k * u.dot (n k) := by
      rw [← V3.dot_comb]
      simp only [hu, V3.normSq, V3.dot, V3.sub_x, V3.sub_y, V3.sub_z]
      ring
    have e2 : ∑ k, e k * |u.dot (n k)| ≤ ∑ k, s k * u.dot (n k) := Finset.sum_le_sum fun k _ => key2 k
    rw [beyond, e1]
    linarith

theorem beyond_not_mem {m : ℕ} (n : Fin m → V3) (e : Fin m → ℝ) (d u : V3) (h : 0 < beyond n e d u) (s : Fin m → ℝ) (hs : ∀ k, |s k| ≤ e k) :
    d ≠ V3.comb s n := by
  rintro rfl
  rw [beyond, V3.dot_comb] at h
  have : ∑ k, s k * u.dot (n k) ≤ ∑ k, e k * |u.dot (n k)| := Finset.sum_le_sum fun k _ => by
    refine (le_abs_self _).trans ?_
    rw [abs_mul]
    exact mul_le_mul_of_nonneg_right (hs k) (abs_nonneg _)
  linarith

/-- `beyond` is additive for vectors on the same side of all the planes -/
theorem beyond_add {m : ℕ} (n : Fin m → V3) (e : Fin m → ℝ) (d x y : V3) (a b : ℝ) (ha : 0 ≤ a) (hb : 0 ≤ b)
    (h : ∀ k, 0 ≤ x.dot (n k) * y.dot (n k)) : beyond n e d (a • x + b • y) = a * beyond n e d x + b * beyond n e d y := by
  have h1 : ∀ v : V3, (a • x + b • y).dot v = a * x.dot v + b * y.dot v := fun v => by
    simp only [V3.dot, V3.add_x, V3.add_y, V3.add_z, V3.smul_x, V3.smul_y, V3.smul_z]; ring
  have h2 : ∀ k, e k * |(a • x + b • y).dot (n k)| = a * (e k * |x.dot (n k)|) + b * (e k * |y.dot (n k)|) := by
    intro k
    rw [h1]
    have hk := h k
    generalize x.dot (n k) = p at *
    generalize y.dot (n k) = q at *
    have : |a * p + b * q| = a * |p| + b * |q| := by
      have : 0 ≤ (a * p) * (b * q) := by
        have := mul_nonneg (mul_nonneg ha hb) hk; nlinarith
      rw [(abs_add_eq_add_abs_iff _ _).2 (mul_nonneg_iff.1 this), abs_mul, abs_mul, abs_of_nonneg ha, abs_of_nonneg hb]
    rw [this]; ring
  rw [beyond, Finset.sum_congr rfl fun k _ => h2 k, h1, Finset.sum_add_distrib, ← Finset.mul_sum, ← Finset.mul_sum, beyond, beyond]
  ring

theorem beyond_smul {m : ℕ} (n : Fin m → V3) (e : Fin m → ℝ) (d x : V3) (a : ℝ) (ha : 0 ≤ a) : beyond n e d (a • x) = a * beyond n e d x := by
  have h := beyond_add n e d x x a 0 ha le_rfl fun k => mul_self_nonneg _
  rw [zero_mul, add_zero] at h
  rw [← h]
  congr 1
  ext <;> simp

/-- A separating axis can be moved along `w` until it is orthogonal to one of the vectors that `w` is not orthogonal to, unless `w` or `-w` separates. -/
theorem beyond_step {m : ℕ} (n : Fin m → V3) (e : Fin m → ℝ) (d u w : V3) (hu : 0 < beyond n e d u) (hw : ∃ k, w.dot (n k) ≠ 0) :
    0 < beyond n e d w ∨ 0 < beyond n e d (-w) ∨ ∃ (s : ℝ) (k : Fin m), 0 < beyond n e d (u + s • w) ∧ w.dot (n k) ≠ 0 ∧ (u + s • w).dot (n k) = 0 := by
  by_contra hc
  push Not at hc
  obtain ⟨h1, h2, h3⟩ := hc
  -- the parameter at which the moved axis is orthogonal to the vector
  set z : Fin m → ℝ := fun k => -(u.dot (n k)) / w.dot (n k) with hz
  have lin : ∀ (s : ℝ) k, w.dot (n k) ≠ 0 → (u + s • w).dot (n k) = w.dot (n k) * (s - z k) := by
    intro s k hk
    have : (u + s • w).dot (n k) = u.dot (n k) + s * w.dot (n k) := by
      simp only [V3.dot, V3.add_x, V3.add_y, V3.add_z, V3.smul_x, V3.smul_y, V3.smul_z]; ring
    rw [this, hz]
    dsimp only
    generalize w.dot (n k) = b at *
    field_simp
    ring
  have lin0 : ∀ (s : ℝ) k, w.dot (n k) = 0 → (u + s • w).dot (n k) = u.dot (n k) := by
    intro s k hk
    have : (u + s • w).dot (n k) = u.dot (n k) + s * w.dot (n k) := by
      simp only [V3.dot, V3.add_x, V3.add_y, V3.add_z, V3.smul_x, V3.smul_y, V3.smul_z]; ring
    rw [this, hk]; ring
  have hle : ∀ k, w.dot (n k) ≠ 0 → beyond n e d (u + z k • w) ≤ 0 := by
    intro k hk
    by_contra hcc
    exact h3 (z k) k (not_le.1 hcc) hk (by rw [lin _ _ hk]; ring)
  have hz0 : ∀ k, w.dot (n k) ≠ 0 → z k ≠ 0 := by
    intro k hk h0
    have := hle k hk
    rw [h0, show u + (0 : ℝ) • w = u by ext <;> simp] at this
    linarith
  have neg_dot : ∀ v : V3, (-w).dot v = -(w.dot v) := fun v => by simp only [V3.dot, V3.neg_x, V3.neg_y, V3.neg_z]; ring
  set P := Finset.univ.filter fun k => w.dot (n k) ≠ 0 ∧ 0 < z k with hP
  set N := Finset.univ.filter fun k => w.dot (n k) ≠ 0 ∧ z k < 0 with hN
  -- the side without any zero
  by_cases hPe : P.Nonempty
  · obtain ⟨p, hp, hpmin⟩ := P.exists_min_image z hPe
    simp only [hP, Finset.mem_filter, Finset.mem_univ, true_and] at hp hpmin
    by_cases hNe : N.Nonempty
    · obtain ⟨q, hq, hqmax⟩ := N.exists_max_image z hNe
      simp only [hN, Finset.mem_filter, Finset.mem_univ, true_and] at hq hqmax
      have hpq : 0 < z p - z q := by linarith [hp.2, hq.2]
      have e1 : u = (-z q / (z p - z q)) • (u + z p • w) + (z p / (z p - z q)) • (u + z q • w) := by
        ext <;> simp <;> field_simp <;> ring
      have e2 := beyond_add n e d (u + z p • w) (u + z q • w) (-z q / (z p - z q)) (z p / (z p - z q)) (div_nonneg (by linarith [hq.2]) hpq.le)
        (div_nonneg hp.2.le hpq.le) (by
          intro k
          by_cases hk : w.dot (n k) = 0
          · rw [lin0 _ _ hk, lin0 _ _ hk]; exact mul_self_nonneg _
          · rw [lin _ _ hk, lin _ _ hk]
            have : 0 ≤ (z p - z k) * (z q - z k) := by
              rcases lt_or_gt_of_ne (hz0 k hk) with h | h
              · have := hqmax k ⟨hk, h⟩
                exact mul_nonneg (by linarith [hp.2]) (by linarith)
              · have := hpmin k ⟨hk, h⟩
                exact mul_nonneg_of_nonpos_of_nonpos (by linarith) (by linarith [hq.2])
            nlinarith [mul_nonneg (mul_self_nonneg (w.dot (n k))) this])
      rw [← e1] at e2
      have f1 := mul_nonneg (div_nonneg (by linarith [hq.2] : 0 ≤ -z q) hpq.le) (neg_nonneg.2 (hle p hp.1))
      have f2 := mul_nonneg (div_nonneg hp.2.le hpq.le) (neg_nonneg.2 (hle q hq.1))
      linarith
    · have hall : ∀ k, w.dot (n k) ≠ 0 → z p ≤ z k := by
        intro k hk
        rcases lt_or_gt_of_ne (hz0 k hk) with h | h
        · exact absurd ⟨k, by simp [hN, hk, h]⟩ hNe
        · exact hpmin k ⟨hk, h⟩
      have e1 : u = (1 : ℝ) • (u + z p • w) + z p • (-w) := by ext <;> simp
      have e2 := beyond_add n e d (u + z p • w) (-w) 1 (z p) zero_le_one hp.2.le (by
        intro k
        rw [neg_dot]
        by_cases hk : w.dot (n k) = 0
        · rw [hk]; simp
        · rw [lin _ _ hk]
          have := hall k hk
          nlinarith [mul_nonneg (mul_self_nonneg (w.dot (n k))) (sub_nonneg.2 this)])
      rw [← e1] at e2
      have f1 := hle p hp.1
      have f2 := mul_nonneg hp.2.le (neg_nonneg.2 h2)
      linarith
  · obtain ⟨k0, hk0⟩ := hw
    have hNe : N.Nonempty := by
      rcases lt_or_gt_of_ne (hz0 k0 hk0) with h | h
      · exact ⟨k0, by simp [hN, hk0, h]⟩
      · exact absurd ⟨k0, by simp [hP, hk0, h]⟩ hPe
    obtain ⟨q, hq, hqmax⟩ := N.exists_max_image z hNe
    simp only [hN, Finset.mem_filter, Finset.mem_univ, true_and] at hq hqmax
    have hall : ∀ k, w.dot (n k) ≠ 0 → z k ≤ z q := by
      intro k hk
      rcases lt_or_gt_of_ne (hz0 k hk) with h | h
      · exact hqmax k ⟨hk, h⟩
      · exact absurd ⟨k, by simp [hP, hk, h]⟩ hPe
    have e1 : u = (1 : ℝ) • (u + z q • w) + (-z q) • w := by ext <;> simp
    have e2 := beyond_add n e d (u + z q • w) w 1 (-z q) zero_le_one (by linarith [hq.2]) (by
      intro k
      by_cases hk : w.dot (n k) = 0
      · rw [hk]; simp
      · rw [lin _ _ hk]
        have := hall k hk
        nlinarith [mul_nonneg (mul_self_nonneg (w.dot (n k))) (sub_nonneg.2 this)])
    rw [← e1] at e2
    have f1 := hle q hq.1
    have f2 := mul_nonneg (by linarith [hq.2] : 0 ≤ -z q) (neg_nonneg.2 h1)
    linarith

end Verif
