import Verif.Lemmas.BarycentricDerivative
import Verif.Props.Barycentric
import Verif.Props.Interpolator
import Mathlib.Topology.Order.DenselyOrdered

/-!
# C87: the derivatives answered are the derivatives of the interpolants

Over the real numbers, with the derivative of analysis.
-/

namespace Verif.Props

open Verif Finset

/-- the derivative answered by barycentric rational interpolation is the derivative of its interpolant, at every abscissa, nodes included -/
theorem C87_barycentric {x y : List ℝ} {b : BaryI ℝ} (h : BaryI.ctor x y = .ok b) (hx : x.Pairwise (· < ·)) :
    ∃ f : ℝ → ℝ, (∀ q, b.evaluate q = some (f q)) ∧ ∀ q, ∃ d, b.computeDerivative q = some d ∧ HasDerivAt f d q := by
  choose f hf using C86_defined h hx
  refine ⟨f, hf, fun q => ?_⟩
  obtain ⟨h4, hl, -, -, he⟩ := BaryI.ctor_ok h
  have hinc := getD_increasing hx
  have hoff : ∀ t, t ∉ x → f t = baryQ (fun k => x.getD k 0) (fun k => y.getD k 0) (BaryI.weight (fun i => x.getD i 0) x.length) x.length t := by
    intro t ht
    have h1 := hf t
    rw [BaryI.evaluate_off h ht, BaryI.quotient, if_neg (denominator_ne_zero h4 hinc (getD_ne ht))] at h1
    exact (Option.some.inj h1).symm
  -- the nodes are finitely many, so isolated
  have hiso : ∀ᶠ t in nhdsWithin q {q}ᶜ, t ∉ x := by
    have hfin : {t : ℝ | t ∈ x ∧ t ≠ q}.Finite := (List.finite_toSet x).subset fun t ht => ht.1
    have hmem : {t : ℝ | t ∈ x ∧ t ≠ q}ᶜ ∈ nhds q := hfin.isClosed.isOpen_compl.mem_nhds (by simp)
    rw [eventually_nhdsWithin_iff]
    filter_upwards [hmem] with t ht hne hx'
    exact ht ⟨hx', hne⟩
  by_cases hq : q ∈ x
  · obtain ⟨m, hm⟩ := List.mem_iff_getElem?.mp hq
    have hmn := at_lt hm
    obtain ⟨v, hv⟩ := exists_at (v := y) (i := m) (by omega)
    have hXm : x.getD m 0 = q := by simp [List.getD_eq_getElem?_getD, hm]
    have hYm : y.getD m 0 = v := by simp [List.getD_eq_getElem?_getD, hv]
    have hw := weight_ne_zero h4 hinc hmn
    have hfm : f q = v := by
      have h1 := hf q
      rw [C86_nodes h (nodup_of_increasing hx) hm hv] at h1
      exact (Option.some.inj h1).symm
    have hdist : ∀ k < x.length, k ≠ m → x.getD m 0 ≠ x.getD k 0 := fun k hk hkm hkk => hkm (injective_of_increasing hinc m k hmn hk hkk).symm
    refine ⟨-(∑ k ∈ range x.length, if k = m then 0 else BaryI.weight (fun i => x.getD i 0) x.length k * (v - y.getD k 0) / (q - x.getD k 0)) /
      BaryI.weight (fun i => x.getD i 0) x.length m, ?_, ?_⟩
    · unfold BaryI.computeDerivative
      rw [hf q]
      simp only []
      rw [he, BaryI.primeLoop_at (k := m) (y := v) (w := BaryI.weight (fun i => x.getD i 0) x.length m)]
      · rw [BaryI.others_range, BaryI.quotient, if_neg hw, Nat.zero_add]
      · simp only [List.getElem?_map, List.getElem?_range hmn, Option.map_some, hXm, hYm]
      · intro i e hi hie
        have hi' : i < x.length := by omega
        simp only [List.getElem?_map, List.getElem?_range hi', Option.map_some, Option.some.injEq] at hie
        rw [← hie, ← hXm]
        exact hdist i hi' (by omega)
    · have := baryQ_deriv_node (X := fun k => x.getD k 0) (Y := fun k => y.getD k 0) (W := BaryI.weight (fun i => x.getD i 0) x.length) (n := x.length) (m := m) hmn hdist hw
        (f := f) (by simp only [hXm, hYm, hfm]) (by simp only [hXm]; exact hiso.mono hoff)
      simp only [hXm, hYm] at this
      exact this
  · have hne := getD_ne hq
    have hd := denominator_ne_zero h4 hinc hne
    refine ⟨_, ?_, (baryQ_deriv (X := fun k => x.getD k 0) (Y := fun k => y.getD k 0) (W := BaryI.weight (fun i => x.getD i 0) x.length) (n := x.length) hne
      hd).congr_of_eventuallyEq ?_⟩
    · unfold BaryI.computeDerivative
      rw [hf q]
      simp only []
      rw [he, BaryI.primeLoop_off]
      · simp only [List.map_map, zero_add]
        rw [BaryI.quotient]
        simp only [Function.comp_def, sum_map_range]
        rw [if_neg hd, hoff q hq]
      · intro e hm
        simp only [List.mem_map, List.mem_range] at hm
        obtain ⟨k, hk, rfl⟩ := hm
        exact hne k hk
    · have : ∀ᶠ t in nhds q, t ∉ x := by
        have hmem : {t : ℝ | t ∈ x}ᶜ ∈ nhds q := (List.finite_toSet x).isClosed.isOpen_compl.mem_nhds hq
        filter_upwards [hmem] with t ht
        exact ht
      exact this.mono hoff

example : ∃ b : BaryI ℝ, BaryI.ctor [0, 1, 3, 4, 7] [2, 5, 1, 1, 0] = .ok b ∧ ([0, 1, 3, 4, 7] : List ℝ).Pairwise (· < ·) := by
  have hx : ([0, 1, 3, 4, 7] : List ℝ).Pairwise (· < ·) := by simp; norm_num
  obtain ⟨b, hb⟩ := BaryI.ctor_increasing hx (y := [2, 5, 1, 1, 0]) (by simp) (by simp)
  exact ⟨b, hb, hx⟩

/-- the derivative answered by linear interpolation is the derivative of its interpolant everywhere but at the nodes; at a node after the first it is the derivative on the left -/
theorem C87_linear {x y : List ℝ} {l : LinearI ℝ} (h : LinearI.ctor x y = .ok l) (hx : x.Pairwise (· < ·)) :
    ∃ f : ℝ → ℝ, (∀ q, l.evaluate q = .ok (f q)) ∧
      (∀ q, q ∉ x → ∃ d, l.computeDerivative q = .ok d ∧ HasDerivAt f d q) ∧
      ∀ q, q ∈ x → x[0]? ≠ some q → ∃ d, l.computeDerivative q = .ok d ∧ HasDerivWithinAt f d (Set.Iic q) q := by
  have hex : ∀ q, ∃ v, l.evaluate q = .ok v := fun q => by
    rcases C61_total h q with ⟨a, b, -, -, -, he, -⟩ | ⟨a, b, -, -, -, he, -⟩ | ⟨j, a0, a1, b0, b1, -, -, -, -, -, -, he, -⟩ <;> exact ⟨_, he⟩
  choose f hf using hex
  have hline : ∀ (i : ℕ) (x0 x1 y0 y1 : ℝ), x[i]? = some x0 → x[i + 1]? = some x1 → y[i]? = some y0 → y[i + 1]? = some y1 → ∀ t, x0 ≤ t → t ≤ x1 →
      f t = y0 + (t - x0) / (x1 - x0) * (y1 - y0) := by
    intro i x0 x1 y0 y1 h1 h2 h3 h4 t h5 h6
    have := C61_line h hx h1 h2 h3 h4 h5 h6
    rw [hf t] at this
    exact Except.ok.inj this
  have hder : ∀ x0 x1 y0 y1 q : ℝ, HasDerivAt (fun t => y0 + (t - x0) / (x1 - x0) * (y1 - y0)) ((y1 - y0) / (x1 - x0)) q := by
    intro x0 x1 y0 y1 q
    have := ((((hasDerivAt_id q).sub_const x0).div_const (x1 - x0)).mul_const (y1 - y0)).const_add y0
    refine this.congr_deriv ?_
    ring
  obtain ⟨-, h2, hl⟩ := LinearI.ctor_ok h
  obtain ⟨first, hfirst⟩ := exists_at (v := x) (i := 0) (by omega)
  obtain ⟨last, hlast⟩ := exists_at (v := x) (i := x.length - 1) (by omega)
  obtain ⟨fv, hfv⟩ := exists_at (v := y) (i := 0) (by omega)
  obtain ⟨lv, hlv⟩ := exists_at (v := y) (i := x.length - 1) (by omega)
  have hout := C61_outside h hx hfirst hlast hfv hlv
  refine ⟨f, hf, fun q hq => ?_, fun q hq hq0 => ?_⟩
  · rcases C61_total h q with ⟨a, b, ha, hb, haq, he, hd⟩ | ⟨a, b, ha, hb, haq, he, hd⟩ | ⟨j, a0, a1, b0, b1, ha0, ha1, hb0, hb1, hq0, hq1, he, hd⟩
    · refine ⟨0, hd, (hasDerivAt_const q fv).congr_of_eventuallyEq ?_⟩
      rw [hfirst] at ha
      cases ha
      have hlt : q < first := lt_of_le_of_ne haq (fun h => hq (h ▸ List.mem_of_getElem? hfirst))
      filter_upwards [Iio_mem_nhds hlt] with t ht
      have := (hout t).1 (le_of_lt ht)
      rw [hf t] at this
      exact Except.ok.inj this
    · refine ⟨0, hd, (hasDerivAt_const q lv).congr_of_eventuallyEq ?_⟩
      rw [hlast] at ha
      cases ha
      filter_upwards [Ioi_mem_nhds haq] with t ht
      have := (hout t).2 (le_of_lt ht)
      rw [hf t] at this
      exact Except.ok.inj this
    · refine ⟨_, hd, (hder a0 a1 b0 b1 q).congr_of_eventuallyEq ?_⟩
      have hlt : q < a1 := lt_of_le_of_ne hq1 (fun h => hq (h ▸ List.mem_of_getElem? ha1))
      filter_upwards [Ioo_mem_nhds hq0 hlt] with t ht
      exact hline j a0 a1 b0 b1 ha0 ha1 hb0 hb1 t ht.1.le ht.2.le
  · rcases C61_total h q with ⟨a, b, ha, hb, haq, he, hd⟩ | ⟨a, b, ha, hb, haq, he, hd⟩ | ⟨j, a0, a1, b0, b1, ha0, ha1, hb0, hb1, hq0', hq1, he, hd⟩
    · exfalso
      obtain ⟨k, hk⟩ := List.mem_iff_getElem?.mp hq
      by_cases hk0 : k = 0
      · subst hk0; exact hq0 hk
      · exact absurd haq (not_le.mpr (pairwise_at hx (Nat.pos_of_ne_zero hk0) ha hk))
    · exfalso
      obtain ⟨k, hk⟩ := List.mem_iff_getElem?.mp hq
      have hkn := at_lt hk
      by_cases hk0 : k = x.length - 1
      · subst hk0; rw [ha] at hk; cases hk; exact lt_irrefl _ haq
      · exact absurd haq (not_lt.mpr (pairwise_at hx (by omega) hk ha).le)
    · refine ⟨_, hd, (hder a0 a1 b0 b1 q).hasDerivWithinAt.congr_of_eventuallyEq ?_ (hline j a0 a1 b0 b1 ha0 ha1 hb0 hb1 q hq0'.le hq1)⟩
      filter_upwards [mem_nhdsWithin_of_mem_nhds (Ioi_mem_nhds hq0'), self_mem_nhdsWithin] with t ht ht'
      exact hline j a0 a1 b0 b1 ha0 ha1 hb0 hb1 t (le_of_lt ht) (le_trans ht' hq1)

example : ∃ l : LinearI ℝ, LinearI.ctor [1, 2, 4] [5, 7, 3] = .ok l ∧ ([1, 2, 4] : List ℝ).Pairwise (· < ·) :=
  ⟨⟨[1, 2, 4], [5, 7, 3]⟩, by simp [LinearI.ctor], by simp; norm_num⟩

/-- the arrays answered by barycentric rational interpolation hold at each place the value of the interpolant and its derivative
at the abscissa there -/
theorem C87_barycentric_array {x y : List ℝ} {b : BaryI ℝ} (h : BaryI.ctor x y = .ok b) (hx : x.Pairwise (· < ·)) (qs : List ℝ) :
    ∃ f : ℝ → ℝ, (∀ (k : ℕ) (a v : ℝ), x[k]? = some a → y[k]? = some v → f a = v) ∧ b.evaluateAll qs = qs.map (some ∘ f) ∧
      (b.computeDerivativeAll qs).length = qs.length ∧
      ∀ (i : ℕ) (q : ℝ), qs[i]? = some q → ∃ d, (b.computeDerivativeAll qs)[i]? = some (some d) ∧ HasDerivAt f d q := by
  obtain ⟨f, hf, hd⟩ := C87_barycentric h hx
  refine ⟨f, fun k a v ha hv => ?_, ?_, by simp [BaryI.computeDerivativeAll], fun i q hq => ?_⟩
  · have := C86_nodes h (hx.imp fun h => ne_of_lt h) ha hv
    rw [hf a] at this
    exact Option.some.inj this
  · simp [BaryI.evaluateAll, hf]
  · obtain ⟨d, h1, h2⟩ := hd q
    exact ⟨d, by simp [BaryI.computeDerivativeAll, hq, h1], h2⟩

end Verif.Props
