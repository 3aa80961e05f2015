import Verif.Lemmas.DoubleLinear
import Verif.Lemmas.DoubleGrid
import Verif.Props.Interpolator
import Mathlib.Data.Rat.Floor

/-!
# Properties of linear interpolation in double precision

Property C112. Code: `src/OpenSpaceToolkit/Mathematics/CurveFitting/Interpolator/Linear.cpp`.
-/

namespace Verif.Props

open Verif Verif.Spec

variable {α : Type} [Field α] [LinearOrder α] [IsStrictOrderedRing α] [FloorRing α]

/-- a number of the format, at most `2 ^ 1022` in size -/
def Moderate (x : α) : Prop := Representable x ∧ |x| ≤ 2 ^ 1022

theorem evaluate_between {X Y : List α} (hX : X.Pairwise (· < ·)) (hl : X.length = Y.length) {i : ℕ} {x0 x1 y0 y1 q : α} (hx0 : X[i]? = some x0)
    (hx1 : X[i + 1]? = some x1) (hy0 : Y[i]? = some y0) (hy1 : Y[i + 1]? = some y1) (h0 : x0 < q) (h1 : q ≤ x1) :
    DLinear.evaluate (X.map F64.fin) (Y.map F64.fin) (.fin q) = .ok (DLinear.formula (.fin x0) (.fin x1) (.fin y0) (.fin y1) (.fin q)) := by
  have hb : lowerBound X q = i + 1 := lowerBound_eq (hX.imp le_of_lt) (at_lt hx1).le
    (fun a _ ha => by simp only [Nat.add_sub_cancel] at ha; rw [hx0] at ha; cases ha; exact h0) (fun a ha => by rw [hx1] at ha; cases ha; exact h1)
  have hlt := at_lt hx1
  have hf : DLinear.findIndexRange (X.map F64.fin) (.fin q) = (i, i + 1) := by
    rw [DLinear.findIndexRange_fin, LinearI.findIndexRange, hb, if_neg (by omega), if_neg (by simp; omega)]; rfl
  simp [DLinear.evaluate, hf, vecAt, List.getElem?_map, hx0, hx1, hy0, hy1, bind, Except.bind, pure, Except.pure]

/-- **C112.** Between two data points the value is finite and between the first of their values and the sum of it and the rounded difference; if the difference of the
values is itself a double, it is between the two values, and at the second point it is the second value. -/
theorem C112_between_partial {X Y : List α} (hX : X.Pairwise (· < ·)) (hl : X.length = Y.length) {i : ℕ} {x0 x1 y0 y1 q : α} (hx0 : X[i]? = some x0)
    (hx1 : X[i + 1]? = some x1) (hy0 : Y[i]? = some y0) (hy1 : Y[i + 1]? = some y1) (mx0 : Moderate x0) (mx1 : Moderate x1) (my0 : Moderate y0) (my1 : Moderate y1)
    (hq : Representable q) (h0 : x0 < q) (h1 : q ≤ x1) :
    ∃ v e, DLinear.evaluate (X.map F64.fin) (Y.map F64.fin) (.fin q) = .ok (.fin v) ∧ Representable v ∧
      (∃ d, NearestDouble (y1 - y0) d ∧ NearestDouble (y0 + d) e) ∧ (y0 ≤ y1 → y0 ≤ v ∧ v ≤ e) ∧ (y1 ≤ y0 → e ≤ v ∧ v ≤ y0) ∧
      (q = x1 → v = e) ∧ (Representable (y1 - y0) → e = y1) := by
  obtain ⟨r0, r1, hv⟩ := DLinear.formula_fin mx0.1 mx1.1 hq my0.1 mx0.2 mx1.2 my0.2 my1.2 h0 h1
  rw [evaluate_between hX hl hx0 hx1 hy0 hy1 h0 h1, hv]
  set r := Double.rnd (Double.rnd (q - x0) / Double.rnd (x1 - x0)) with hr
  set d := Double.rnd (y1 - y0) with hd
  have rd : Representable d := Double.rnd_representable _
  refine ⟨_, Double.rnd (y0 + d), rfl, Double.rnd_representable _, ⟨d, Double.rnd_nearest _, Double.rnd_nearest _⟩, ?_, ?_, ?_, ?_⟩
  · intro h
    have d0 : 0 ≤ d := Double.le_rnd representable_zero (sub_nonneg.2 h)
    refine ⟨Double.le_rnd my0.1 ?_, Double.rnd_mono ?_⟩
    · have : 0 ≤ Double.rnd (r * d) := Double.le_rnd representable_zero (mul_nonneg r0 d0)
      linarith
    · have : Double.rnd (r * d) ≤ d := Double.rnd_le rd (mul_le_of_le_one_left d0 r1)
      linarith
  · intro h
    have d0 : d ≤ 0 := Double.rnd_le representable_zero (sub_nonpos.2 h)
    refine ⟨Double.rnd_mono ?_, Double.rnd_le my0.1 ?_⟩
    · have : d ≤ Double.rnd (r * d) := Double.le_rnd rd (by nlinarith)
      linarith
    · have : Double.rnd (r * d) ≤ 0 := Double.rnd_le representable_zero (mul_nonpos_of_nonneg_of_nonpos r0 d0)
      linarith
  · rintro rfl
    have hp := DLinear.rnd_sub_pos mx1.1 mx0.1 h0
    have : r = 1 := by
      rw [hr, div_self hp.ne']
      exact Double.rnd_exact (by simpa using representable_int (α := α) (m := 1) (by norm_num))
    rw [this, one_mul, Double.rnd_exact rd]
  · intro h
    rw [hd, Double.rnd_exact h, add_sub_cancel, Double.rnd_exact my1.1]

/-- **C112.** Within one step of the data the values follow the order of the queries. -/
theorem C112_monotone {X Y : List α} (hX : X.Pairwise (· < ·)) (hl : X.length = Y.length) {i : ℕ} {x0 x1 y0 y1 q s : α} (hx0 : X[i]? = some x0)
    (hx1 : X[i + 1]? = some x1) (hy0 : Y[i]? = some y0) (hy1 : Y[i + 1]? = some y1) (mx0 : Moderate x0) (mx1 : Moderate x1) (my0 : Moderate y0) (my1 : Moderate y1)
    (hq : Representable q) (hs : Representable s) (h0 : x0 < q) (hqs : q ≤ s) (h1 : s ≤ x1) :
    ∃ v w, DLinear.evaluate (X.map F64.fin) (Y.map F64.fin) (.fin q) = .ok (.fin v) ∧ DLinear.evaluate (X.map F64.fin) (Y.map F64.fin) (.fin s) = .ok (.fin w) ∧
      (y0 ≤ y1 → v ≤ w) ∧ (y1 ≤ y0 → w ≤ v) := by
  obtain ⟨r0, -, hv⟩ := DLinear.formula_fin mx0.1 mx1.1 hq my0.1 mx0.2 mx1.2 my0.2 my1.2 h0 (hqs.trans h1)
  obtain ⟨s0, -, hw⟩ := DLinear.formula_fin mx0.1 mx1.1 hs my0.1 mx0.2 mx1.2 my0.2 my1.2 (lt_of_lt_of_le h0 hqs) h1
  rw [evaluate_between hX hl hx0 hx1 hy0 hy1 h0 (hqs.trans h1), hv, evaluate_between hX hl hx0 hx1 hy0 hy1 (lt_of_lt_of_le h0 hqs) h1, hw]
  have hp := DLinear.rnd_sub_pos mx1.1 mx0.1 (lt_of_lt_of_le h0 (hqs.trans h1))
  have hr : Double.rnd (Double.rnd (q - x0) / Double.rnd (x1 - x0)) ≤ Double.rnd (Double.rnd (s - x0) / Double.rnd (x1 - x0)) :=
    Double.rnd_mono (by gcongr; exact Double.rnd_mono (by linarith))
  refine ⟨_, _, rfl, rfl, fun h => Double.rnd_mono ?_, fun h => Double.rnd_mono ?_⟩
  · have d0 : 0 ≤ Double.rnd (y1 - y0) := Double.le_rnd representable_zero (sub_nonneg.2 h)
    have := Double.rnd_mono (mul_le_mul_of_nonneg_right hr d0)
    linarith
  · have d0 : Double.rnd (y1 - y0) ≤ 0 := Double.rnd_le representable_zero (sub_nonpos.2 h)
    have := Double.rnd_mono (mul_le_mul_of_nonpos_right hr d0)
    linarith

/-- **C112.** The value is within twelve units of rounding, measured at the larger of the two data values, of the exact interpolation, the smallest positive double aside. -/
theorem C112_accuracy {X Y : List α} (hX : X.Pairwise (· < ·)) (hl : X.length = Y.length) {i : ℕ} {x0 x1 y0 y1 q : α} (hx0 : X[i]? = some x0)
    (hx1 : X[i + 1]? = some x1) (hy0 : Y[i]? = some y0) (hy1 : Y[i + 1]? = some y1) (mx0 : Moderate x0) (mx1 : Moderate x1) (my0 : Moderate y0) (my1 : Moderate y1)
    (hq : Representable q) (h0 : x0 < q) (h1 : q ≤ x1) :
    ∃ v, DLinear.evaluate (X.map F64.fin) (Y.map F64.fin) (.fin q) = .ok (.fin v) ∧
      |v - (y0 + (q - x0) / (x1 - x0) * (y1 - y0))| ≤ 12 / 2 ^ 53 * max |y0| |y1| + 2 ^ (-1074 : ℤ) := by
  obtain ⟨-, -, hv⟩ := DLinear.formula_fin mx0.1 mx1.1 hq my0.1 mx0.2 mx1.2 my0.2 my1.2 h0 h1
  rw [evaluate_between hX hl hx0 hx1 hy0 hy1 h0 h1, hv]
  exact ⟨_, rfl, DLinear.formula_accurate mx0.1 mx1.1 hq my0.1 my1.1 (le_max_left _ _) (le_max_right _ _) h0 h1⟩

/-- **C112.** The derivative between two data points is within four units of rounding of the exact slope, half the smallest positive double aside. -/
theorem C112_derivative {X Y : List α} (hX : X.Pairwise (· < ·)) {i : ℕ} {x0 x1 y0 y1 q : α} (hx0 : X[i]? = some x0)
    (hx1 : X[i + 1]? = some x1) (hy0 : Y[i]? = some y0) (hy1 : Y[i + 1]? = some y1) (mx0 : Moderate x0) (mx1 : Moderate x1) (my0 : Moderate y0) (my1 : Moderate y1)
    (h0 : x0 < q) (h1 : q ≤ x1) (hs : |(y1 - y0) / (x1 - x0)| ≤ 2 ^ 1022) :
    ∃ v, DLinear.computeDerivative (X.map F64.fin) (Y.map F64.fin) (.fin q) = .ok (.fin v) ∧
      |v - (y1 - y0) / (x1 - x0)| ≤ 4 / 2 ^ 53 * |(y1 - y0) / (x1 - x0)| + 2 ^ (-1075 : ℤ) := by
  have hb : lowerBound X q = i + 1 := lowerBound_eq (hX.imp le_of_lt) (at_lt hx1).le
    (fun a _ ha => by simp only [Nat.add_sub_cancel] at ha; rw [hx0] at ha; cases ha; exact h0) (fun a ha => by rw [hx1] at ha; cases ha; exact h1)
  have hlt := at_lt hx1
  have hf : DLinear.findIndexRange (X.map F64.fin) (.fin q) = (i, i + 1) := by
    rw [DLinear.findIndexRange_fin, LinearI.findIndexRange, hb, if_neg (by omega), if_neg (by simp; omega)]; rfl
  obtain ⟨ey, -⟩ := DLinear.sub_small my1.2 my0.2
  obtain ⟨ed, -⟩ := DLinear.sub_small mx1.2 mx0.2
  have hx : x0 < x1 := lt_of_lt_of_le h0 h1
  have pd := DLinear.rnd_sub_pos mx1.1 mx0.1 hx
  obtain ⟨dd, kd, rd⟩ := DLinear.rnd_sum mx1.1 (representable_neg mx0.1)
  obtain ⟨dy, ky, ry⟩ := DLinear.rnd_sum my1.1 (representable_neg my0.1)
  rw [← sub_eq_add_neg] at rd ry
  have hd : x1 - x0 ≠ 0 := (sub_pos.2 hx).ne'
  have hdd : 1 + dd ≠ 0 := by
    have := (abs_le.1 kd).1
    have h2 : (1 : α) / 2 ^ 53 < 1 := by norm_num
    linarith
  have hz : Double.rnd (y1 - y0) / Double.rnd (x1 - x0) = (y1 - y0) / (x1 - x0) * ((1 + dy) * (1 / (1 + dd))) := by rw [ry, rd]; field_simp
  obtain ⟨dr, hr, kr, kr', er⟩ := DLinear.rnd_split (Double.rnd (y1 - y0) / Double.rnd (x1 - x0))
  have u1 : (1 : α) / 2 ^ 53 ≤ 1 / 1000 := by norm_num
  have n1 : |(1 + dy) - 1| ≤ 1 / 2 ^ 53 := by simpa using ky
  have n2 : |(1 + dr) - 1| ≤ 1 / 2 ^ 53 := by simpa using kr
  have c1 := DLinear.near_mul n1 (DLinear.near_inv kd u1)
  have c2 := DLinear.near_mul c1 n2
  have c3 : |(1 + dy) * (1 / (1 + dd))| ≤ 2 := by
    have h := abs_le.1 (c1.trans (by norm_num : _ ≤ (1 : α)))
    clear hs kr'
    exact abs_le.2 ⟨by linarith [h.1], by linarith [h.2]⟩
  have small : |Double.rnd (Double.rnd (y1 - y0) / Double.rnd (x1 - x0))| < 2 ^ 1024 := by
    refine lt_of_le_of_lt (DLinear.rnd_abs_le DLinear.rep1023 ?_) DLinear.p1024
    rw [hz, abs_mul, pow_succ]
    exact mul_le_mul hs c3 (abs_nonneg _) (by positivity)
  refine ⟨Double.rnd (Double.rnd (y1 - y0) / Double.rnd (x1 - x0)), ?_, ?_⟩
  · simp only [DLinear.computeDerivative, hf, Nat.left_eq_add, one_ne_zero, if_false, vecAt, List.getElem?_map, hx0, hx1, hy0, hy1, Option.map_some, bind, Except.bind, pure,
      Except.pure, ey, ed, F64.div, if_neg pd.ne', F64.ofExact_fin small]
  · rw [er, hz]
    clear small hs
    have e : (y1 - y0) / (x1 - x0) * ((1 + dy) * (1 / (1 + dd))) * (1 + dr) + hr - (y1 - y0) / (x1 - x0) =
      (y1 - y0) / (x1 - x0) * ((1 + dy) * (1 / (1 + dd)) * (1 + dr) - 1) + hr := by ring
    rw [e]
    refine (abs_add_le _ _).trans (add_le_add ?_ kr')
    rw [abs_mul, mul_comm]
    refine mul_le_mul_of_nonneg_right (c2.trans ?_) (abs_nonneg _)
    norm_num

example : ([1, 2, 4] : List ℚ).Pairwise (· < ·) ∧ |((-7 : ℚ) - 5) / (4 - 2)| ≤ 2 ^ 1022 :=
  ⟨by simp; norm_num, (by norm_num [abs_of_neg] : |((-7 : ℚ) - 5) / (4 - 2)| ≤ 2 ^ 3).trans (pow_le_pow_right₀ one_le_two (by norm_num))⟩

theorem moderate_int {m : ℤ} (h : |m| ≤ 2 ^ 53) : Moderate (m : α) := by
  refine ⟨representable_int h, ?_⟩
  have : |(m : α)| ≤ 2 ^ 53 := by exact_mod_cast h
  exact this.trans (pow_le_pow_right₀ one_le_two (by norm_num))

example : ([1, 2, 4] : List ℚ).Pairwise (· < ·) ∧ ([1, 2, 4] : List ℚ)[1]? = some 2 ∧ Moderate (2 : ℚ) ∧ Moderate (-7 : ℚ) ∧ Representable (3 : ℚ) ∧ (2 : ℚ) < 3 ∧ (3 : ℚ) ≤ 4 :=
  ⟨by simp; norm_num, rfl, by simpa using moderate_int (α := ℚ) (m := 2) (by norm_num), by simpa using moderate_int (α := ℚ) (m := -7) (by norm_num),
    by simpa using representable_int (α := ℚ) (m := 3) (by norm_num), by norm_num, by norm_num⟩

/-- **C112.** Queries up to the first point give the first value, queries beyond the last point the last value, both unchanged. So does any query that is not a number:
it gives the first value. -/
theorem C112_outside {X : List α} {Y : List (F64 α)} (hX : X.Pairwise (· < ·)) (hl : X.length = Y.length) (q : α) :
    (∀ y, Y[0]? = some y → (∀ x, X[0]? = some x → q ≤ x) → DLinear.evaluate (X.map F64.fin) Y (.fin q) = .ok y) ∧
    (∀ y, Y[Y.length - 1]? = some y → (∀ x ∈ X, x < q) → DLinear.evaluate (X.map F64.fin) Y (.fin q) = .ok y) ∧
    (∀ y, Y[0]? = some y → DLinear.evaluate (X.map F64.fin) Y .nan = .ok y) := by
  refine ⟨fun y hy h => ?_, fun y hy h => ?_, fun y hy => ?_⟩
  · have hb : lowerBound X q = 0 := lowerBound_eq (hX.imp le_of_lt) (Nat.zero_le _) (fun a h _ => absurd h (lt_irrefl _)) h
    have hf : DLinear.findIndexRange (X.map F64.fin) (.fin q) = (0, 0) := by
      rw [DLinear.findIndexRange_fin, LinearI.findIndexRange, hb, if_pos rfl]
    simp [DLinear.evaluate, hf, vecAt, hy]
  · have hb : lowerBound X q = X.length := lowerBound_eq (hX.imp le_of_lt) le_rfl (fun a _ ha => h a (List.mem_of_getElem? ha)) (fun a ha => by simp at ha)
    have hne : X.length ≠ 0 := by have := at_lt hy; omega
    have hf : DLinear.findIndexRange (X.map F64.fin) (.fin q) = (X.length - 1, X.length - 1) := by
      rw [DLinear.findIndexRange_fin, LinearI.findIndexRange, hb, if_neg hne, if_pos rfl]
    simp [DLinear.evaluate, hf, vecAt, hl, hy]
  · have hb : boundLoop (fun a : F64 α => a.lt .nan) (X.map F64.fin) 0 (X.map F64.fin).length = 0 := by
      have h := boundLoop_spec (fun a : F64 α => a.lt .nan) (X.map F64.fin) (X.map F64.fin).length 0 (X.map F64.fin).length le_rfl (by simp) (fun a h => absurd h (lt_irrefl _)) (fun a ha => by simp at ha)
      by_contra hne
      have hpos := Nat.pos_of_ne_zero hne
      obtain ⟨a, ha⟩ := exists_at (v := X.map F64.fin) (i := boundLoop (fun a : F64 α => a.lt .nan) (X.map F64.fin) 0 (X.map F64.fin).length - 1) (by omega)
      have := h.2.1 a hpos ha
      cases a <;> simp [F64.lt] at this
    have hf : DLinear.findIndexRange (X.map F64.fin) .nan = (0, 0) := by simp only [DLinear.findIndexRange, hb]; simp
    simp [DLinear.evaluate, hf, vecAt, hy]

example : ([1, 2, 4] : List ℚ).Pairwise (· < ·) ∧ (∀ x, ([1, 2, 4] : List ℚ)[0]? = some x → (0 : ℚ) ≤ x) ∧ ∀ x ∈ ([1, 2, 4] : List ℚ), x < 5 := by
  refine ⟨by simp; norm_num, by simp, by simp; norm_num⟩

theorem node_value {X Y : List α} (hX : X.Pairwise (· < ·)) (hl : X.length = Y.length) {i : ℕ} {x0 x1 y0 y1 : α} (hx0 : X[i]? = some x0)
    (hx1 : X[i + 1]? = some x1) (hy0 : Y[i]? = some y0) (hy1 : Y[i + 1]? = some y1) (mx0 : Moderate x0) (mx1 : Moderate x1) (my0 : Moderate y0) (my1 : Moderate y1)
    (h0 : x0 < x1) : DLinear.evaluate (X.map F64.fin) (Y.map F64.fin) (.fin x1) = .ok (.fin (Double.rnd (y0 + Double.rnd (y1 - y0)))) := by
  obtain ⟨-, -, hv⟩ := DLinear.formula_fin mx0.1 mx1.1 mx1.1 my0.1 mx0.2 mx1.2 my0.2 my1.2 h0 le_rfl
  have hp := DLinear.rnd_sub_pos mx1.1 mx0.1 h0
  rw [evaluate_between hX hl hx0 hx1 hy0 hy1 h0 le_rfl, hv, div_self hp.ne', Double.rnd_exact (x := (1 : α)) (by simpa using representable_int (α := α) (m := 1) (by norm_num)),
    one_mul, Double.rnd_rnd]

/-- **C112, violated.** The interpolation does not go through its data, nor stay in its range, nor keep its order: at the middle point of the data `(0, -1e16)`,
`(1, 3)`, `(2, 3)` the value is four. At the last point of `(0, 1e16)`, `(1, 1)` it is zero. -/
theorem C112_nodes_violated :
    DLinear.evaluate [.fin (0 : α), .fin 1, .fin 2] [.fin (-10 ^ 16), .fin 3, .fin 3] (.fin 1) = .ok (.fin 4) ∧
    DLinear.evaluate [.fin (0 : α), .fin 1, .fin 2] [.fin (-10 ^ 16), .fin 3, .fin 3] (.fin 2) = .ok (.fin 3) ∧
    DLinear.evaluate [.fin (0 : α), .fin 1] [.fin (10 ^ 16), .fin 1] (.fin 1) = .ok (.fin 0) := by
  have m : ∀ k : ℤ, |k| ≤ 2 ^ 53 → Moderate (k : α) := fun k => moderate_int
  have m0 : Moderate (0 : α) := by simpa using m 0 (by norm_num)
  have m1 : Moderate (1 : α) := by simpa using m 1 (by norm_num)
  have m2 : Moderate (2 : α) := by simpa using m 2 (by norm_num)
  have m3 : Moderate (3 : α) := by simpa using m 3 (by norm_num)
  have mt : Moderate (10 ^ 16 : α) := by
    refine ⟨⟨5 ^ 16, 16, by norm_num, by norm_num, by norm_num⟩, ?_⟩
    rw [abs_of_pos (by positivity)]
    exact le_trans (by norm_num : (10 : α) ^ 16 ≤ 2 ^ 54) (pow_le_pow_right₀ one_le_two (by norm_num))
  have mt' : Moderate (-10 ^ 16 : α) := ⟨representable_neg mt.1, by rw [abs_neg]; exact mt.2⟩
  have e1 : Double.rnd (3 - -10 ^ 16 : α) = 10 ^ 16 + 4 := by
    have := Double.rnd_eq (x := (3 - -10 ^ 16 : α)) 5000000000000002 1 (by norm_num) (by rw [abs_of_pos (by norm_num)]; norm_num)
      (by rw [abs_of_pos (by norm_num)]; norm_num) (by right; constructor <;> norm_num [abs_of_pos, abs_of_neg])
    rw [this]; norm_num
  have e2 : Double.rnd (1 - 10 ^ 16 : α) = -10 ^ 16 := by
    have := Double.rnd_eq (x := (1 - 10 ^ 16 : α)) (-5000000000000000) 1 (by norm_num) (by rw [abs_of_neg (by norm_num)]; norm_num)
      (by rw [abs_of_neg (by norm_num)]; norm_num) (by right; constructor <;> norm_num [abs_of_pos, abs_of_neg])
    rw [this]; norm_num
  have r4 : Double.rnd (4 : α) = 4 := Double.rnd_exact (by simpa using representable_int (α := α) (m := 4) (by norm_num))
  have r3 : Double.rnd (3 : α) = 3 := Double.rnd_exact m3.1
  have p3 : ([0, 1, 2] : List α).Pairwise (· < ·) := by simp
  have p2 : ([0, 1] : List α).Pairwise (· < ·) := by simp
  have a := node_value (X := [0, 1, 2]) (Y := [-10 ^ 16, 3, 3]) p3 rfl (i := 0) rfl rfl rfl rfl m0 m1 mt' m3 zero_lt_one
  have b := node_value (X := [0, 1, 2]) (Y := [-10 ^ 16, 3, 3]) p3 rfl (i := 1) rfl rfl rfl rfl m1 m2 m3 m3 one_lt_two
  have c := node_value (X := [0, 1]) (Y := [10 ^ 16, 1]) p2 rfl (i := 0) rfl rfl rfl rfl m0 m1 mt m1 zero_lt_one
  refine ⟨?_, ?_, ?_⟩
  · rw [e1, show (-10 ^ 16 + (10 ^ 16 + 4) : α) = 4 by ring, r4] at a; exact a
  · rw [sub_self, Double.rnd_zero, add_zero, r3] at b; exact b
  · rw [e2, show (10 ^ 16 + -10 ^ 16 : α) = 0 by ring, Double.rnd_zero] at c; exact c

/-- **C112, violated.** Where the difference of two abscissae overflows, the value stays at the first data value, or is not a number. -/
theorem C112_overflow_violated :
    DLinear.evaluate [.fin (-2 ^ 1023 : α), .fin (2 ^ 1023)] [.fin 0, .fin 1] (.fin 0) = .ok (.fin 0) ∧
    DLinear.evaluate [.fin (-2 ^ 1023 : α), .fin (2 ^ 1023)] [.fin 0, .fin 1] (.fin (2 ^ 1023)) = .ok .nan := by
  have pp : (0 : α) < 2 ^ 1023 := by positivity
  have hp : ([-2 ^ 1023, 2 ^ 1023] : List α).Pairwise (· < ·) := by
    simp only [List.pairwise_cons, List.mem_singleton, forall_eq]
    exact ⟨(neg_lt_zero.2 pp).trans pp, by simp⟩
  have hi : (F64.fin (2 ^ 1023 : α)).sub (.fin (-2 ^ 1023)) = .inf false := by
    show F64.ofExact ((2 : α) ^ 1023 + - -2 ^ 1023) = _
    rw [_root_.neg_neg, ← two_mul, ← pow_succ']
    have r : Double.rnd ((2 : α) ^ (1023 + 1)) = 2 ^ 1024 := Double.rnd_exact (by
      have := F64.representable_pow (α := α) (e := 1024) (by norm_num)
      exact_mod_cast this)
    unfold F64.ofExact
    rw [r, if_pos (le_abs_self _)]
    simp
  have hn : (F64.fin (0 : α)).sub (.fin (-2 ^ 1023)) = .fin (2 ^ 1023) := by
    show F64.ofExact ((0 : α) + - -2 ^ 1023) = _
    rw [_root_.neg_neg, zero_add, F64.ofExact_fin, Double.rnd_exact DLinear.rep1023]
    rw [Double.rnd_exact DLinear.rep1023, abs_of_pos pp]; exact DLinear.p1024
  have small : (0 : α) < 2 ^ 1024 ∧ (1 : α) < 2 ^ 1024 := ⟨by positivity, one_lt_pow₀ one_lt_two (by norm_num)⟩
  have h1 : (F64.fin (1 : α)).sub (.fin 0) = .fin 1 := by
    have r : Double.rnd (1 : α) = 1 := Double.rnd_exact (by simpa using representable_int (α := α) (m := 1) (by norm_num))
    show F64.ofExact ((1 : α) + -0) = _
    rw [neg_zero, add_zero, F64.ofExact_fin, r]
    rw [r, abs_one]; exact small.2
  have z : F64.ofExact (0 : α) = .fin 0 := by
    rw [F64.ofExact_fin, Double.rnd_zero]
    rw [Double.rnd_zero, abs_zero]; exact small.1
  have a := evaluate_between (Y := [0, 1]) hp rfl (i := 0) (q := 0) rfl rfl rfl rfl (neg_lt_zero.2 pp) pp.le
  have b := evaluate_between (Y := [0, 1]) hp rfl (i := 0) (q := 2 ^ 1023) rfl rfl rfl rfl ((neg_lt_zero.2 pp).trans pp) le_rfl
  constructor
  · rw [show DLinear.evaluate [.fin (-2 ^ 1023 : α), .fin (2 ^ 1023)] [.fin 0, .fin 1] (.fin 0) = _ from a]
    simp [DLinear.formula, hi, hn, h1, F64.div, F64.mul, z, F64.add]
  · rw [show DLinear.evaluate [.fin (-2 ^ 1023 : α), .fin (2 ^ 1023)] [.fin 0, .fin 1] (.fin (2 ^ 1023)) = _ from b]
    simp only [DLinear.formula, hi, h1, F64.div, F64.mul, F64.add]

end Verif.Props
