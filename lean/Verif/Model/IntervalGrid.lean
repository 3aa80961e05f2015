import Mathlib.Algebra.Order.Floor.Semiring
import Mathlib.Algebra.Order.Floor.Ring
import Mathlib.Algebra.Order.Field.Basic
import Mathlib.Tactic.Linarith
import Mathlib.Tactic.Ring
import Mathlib.Tactic.FieldSimp
import Verif.Model.Interval

/-!
# `Interval<T>::generateArrayWithStep` and `generateArrayWithSize`

Source: `src/OpenSpaceToolkit/Mathematics/Object/Interval.tpp` 371-490. The value type is an Archimedean ordered field
(`ℝ` for `Interval<Real>`, without rounding).
-/

namespace Verif.Interval

set_option linter.unusedVariables false

variable {K : Type} [Field K] [LinearOrder K]

/-- The loop `while (value < ub) { grid.add(value); value += step; }` (`Interval.tpp` 404-409) for a positive step. The loop of
the code terminates because `ub - value` decreases by the fixed positive amount `step`. -/
def upLoop [IsStrictOrderedRing K] [FloorRing K] (step ub : K) (h : 0 < step) (v : K) : List K :=
  if hv : v < ub then v :: upLoop step ub h (v + step) else []
termination_by ⌈(ub - v) / step⌉₊
decreasing_by
  have h1 : (ub - (v + step)) / step = (ub - v) / step - 1 := by field_simp; ring
  have h2 : 0 < (ub - v) / step := div_pos (sub_pos.2 hv) h
  rw [h1, Nat.ceil_sub_one]
  exact Nat.sub_lt (Nat.ceil_pos.2 h2) Nat.one_pos

/-- The loop `while (value > lb) { grid.add(value); value += step; }` (`Interval.tpp` 425-430) for a negative step. -/
def downLoop [IsStrictOrderedRing K] [FloorRing K] (step lb : K) (h : step < 0) (v : K) : List K :=
  if hv : lb < v then v :: downLoop step lb h (v + step) else []
termination_by ⌈(lb - v) / step⌉₊
decreasing_by
  have h1 : (lb - (v + step)) / step = (lb - v) / step - 1 := by
    have := h.ne
    field_simp
    ring
  have h2 : 0 < (lb - v) / step := div_pos_of_neg_of_neg (sub_neg.2 hv) h
  rw [h1, Nat.ceil_sub_one]
  exact Nat.sub_lt (Nat.ceil_pos.2 h2) Nat.one_pos

/-- `Interval<T>::generateArrayWithStep` (`Interval.tpp` 371-440). `none` is the undefined step. -/
def generateArrayWithStep [IsStrictOrderedRing K] [FloorRing K] (I : Interval K) (step : Option K) : Res (List K) :=
  if !I.isDefined then .error .undefined
  else match step with
  | none => .error .undefined
  | some s =>
    match I.lb, I.ub with
    | some a, some b =>
      if hp : 0 < s then
        let v := if I.type = .opened ∨ I.type = .halfOpenLeft then a + s else a
        .ok (upLoop s b hp v ++ if I.type = .closed ∨ I.type = .halfOpenLeft then [b] else [])
      else if hn : s < 0 then
        let v := if I.type = .opened ∨ I.type = .halfOpenRight then b + s else b
        .ok (downLoop s a hn v ++ if I.type = .closed ∨ I.type = .halfOpenRight then [a] else [])
      else .error .runtimeError
    | _, _ => .error .undefined

/-- The filling loop of `generateArrayWithSize` (`Interval.tpp` 484-487). -/
def fill (step : K) : ℕ → K → List K
  | 0, _ => []
  | n + 1, v => v :: fill step n (v + step)

/-- `Interval<T>::generateArrayWithSize` (`Interval.tpp` 442-490). The accessors `accessLowerBound`/`accessUpperBound` throw
`Undefined` on an undefined interval. -/
def generateArrayWithSize (I : Interval K) (n : ℕ) : Res (List K) :=
  if n < 2 then .error .wrong
  else if I.type = .undefined then .error .wrong
  else match I.lb, I.ub with
  | some a, some b =>
    match I.type with
    | .undefined => .error .wrong
    | .closed => let s := (b - a) / ((n - 1 : ℕ) : K); .ok (fill s n a)
    | .opened => let s := (b - a) / ((n + 1 : ℕ) : K); .ok (fill s n (a + s))
    | .halfOpenLeft => let s := (b - a) / (n : K); .ok (fill s n (a + s))
    | .halfOpenRight => let s := (b - a) / (n : K); .ok (fill s n a)
  | _, _ => .error .undefined

end Verif.Interval
