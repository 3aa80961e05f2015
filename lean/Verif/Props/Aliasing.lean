import Verif.Lemmas.Aliasing
import Verif.Props.Quaternion
import Mathlib.Analysis.Quaternion

/-!
# Operations in place, when both sides may be the same variable

Property C126. Code: `src/OpenSpaceToolkit/Mathematics/Geometry/3D/Transformation/Rotation/Quaternion.cpp` and
`src/OpenSpaceToolkit/Mathematics/Geometry/3D/Transformation.cpp`.
-/

namespace Verif.Props

open Verif Verif.Spec Verif.Doing

/-! ## Quaternions: the specification, with the quaternions of Mathlib -/

/-- variables that hold quaternions or nothing -/
abbrev Vars := ℕ → Option (Quaternion ℝ)

open Classical in
/-- what a statement should do to the variables, whether or not both sides are the same variable; `eps` is the threshold of the code for quaternions that are too
small to be inverted -/
noncomputable def should (eps : ℝ) (s : Vars) : QMem.Stmt → Except Err Vars
  | .set v q => .ok (Function.update s v (q.map hamilton))
  | .copy v w => .ok (Function.update s v (s w))
  | .plus v w => match s v, s w with
    | some a, some b => .ok (Function.update s v (some (a + b)))
    | _, _ => .error .undefined
  | .times v w => match s v, s w with
    | some a, some b => .ok (Function.update s v (some (b * a)))
    | _, _ => .error .undefined
  | .over v w => match s w with
    | none => .error .undefined
    | some b => if ‖b‖ < eps ∨ ‖b‖ ^ 2 < eps then .error .runtimeError
      else match s v with
      | none => .error .undefined
      | some a => .ok (Function.update s v (some (b⁻¹ * a)))
  | .normalize v => match s v with
    | none => .error .undefined
    | some a => if ‖a‖ < eps then .error .runtimeError else .ok (Function.update s v (some (‖a‖⁻¹ • a)))
  | .conjugate v => match s v with
    | none => .error .undefined
    | some a => .ok (Function.update s v (some (star a)))
  | .inverse v => match s v with
    | none => .error .undefined
    | some a => if ‖a‖ ^ 2 < eps then .error .runtimeError else .ok (Function.update s v (some a⁻¹))
  | .rectify v => match s v with
    | none => .error .undefined
    | some a => .ok (Function.update s v (some (if a.re < 0 then -a else a)))

/-- a program stops at the first statement that fails, which changes nothing -/
noncomputable def shouldRun (eps : ℝ) : List QMem.Stmt → Vars → Except Err Unit × Vars
  | [], s => (.ok ⟨⟩, s)
  | a :: as, s => match should eps s a with
    | .error e => (.error e, s)
    | .ok t => shouldRun eps as t

/-- the quaternions in memory; one with an undefined component is undefined -/
noncomputable def vars (m : QMem.Mem) : Vars := fun n => (QMem.val m (some n)).map hamilton

theorem vars_put (m : QMem.Mem) (v : ℕ) (q : Quat) : vars (QMem.put (some v) q m) = Function.update (vars m) v (some (hamilton q)) := by
  funext n
  by_cases h : n = v
  · subst h; simp [vars, QMem.val_put]
  · simp [vars, QMem.val_put, h]

theorem norm_ham (q : Quat) : ‖hamilton q‖ = q.norm := by
  have h := (C22_hamilton q q 1).2.2.2.1
  rw [Quaternion.normSq_eq_norm_mul_self, ← pow_two] at h
  exact (pow_left_inj₀ (norm_nonneg _) (Real.sqrt_nonneg _) two_ne_zero).1 h.symm

theorem normSq_ham (q : Quat) : ‖hamilton q‖ ^ 2 = q.normSq := by
  rw [norm_ham]; exact Real.sq_sqrt q.normSq_nonneg

theorem inv_ham (q : Quat) : hamilton ⟨-q.x / q.normSq, -q.y / q.normSq, -q.z / q.normSq, q.s / q.normSq⟩ = (hamilton q)⁻¹ := by
  have e : Quaternion.normSq (hamilton q) = q.normSq := by rw [Quaternion.normSq_eq_norm_mul_self, ← pow_two, normSq_ham]
  rw [Quaternion.inv_def, e]
  ext <;> simp [div_eq_inv_mul]

/-- one statement -/
theorem step_ok (eps : ℝ) (m : QMem.Mem) (a : QMem.Stmt) : ∃ m', of (QMem.exec eps a) m = (match should eps (vars m) a with
    | .ok _ => .ok ⟨⟩
    | .error e => .error e, m') ∧ (match should eps (vars m) a with
    | .ok s => vars m' = s
    | .error _ => QMem.Same m m') := by
  cases a with
  | set v q =>
    cases q with
    | some q => exact ⟨_, QMem.assign_of _ _ _, vars_put _ _ _⟩
    | none =>
      refine ⟨_, rfl, ?_⟩
      funext n
      by_cases h : n = v
      · subst h; simp [vars, QMem.val]
      · simp [vars, QMem.val, h]
  | copy v w =>
    refine ⟨_, rfl, ?_⟩
    funext n
    by_cases h : n = v
    · subst h; simp [vars, QMem.val]
    · simp [vars, QMem.val, h]
  | plus v w =>
    simp only [should, QMem.exec, QMem.add_of]
    cases hv : QMem.val m (some v) with
    | none => exact ⟨m, by simp [vars, hv], by simp [vars, hv, QMem.Same]⟩
    | some q =>
      cases hw : QMem.val m (some w) with
      | none => exact ⟨m, by simp [vars, hv, hw], by simp [vars, hv, hw, QMem.Same]⟩
      | some p => exact ⟨_, by (simp only [vars, hv, hw, Option.map_some]; rfl), by
          simp only [vars, hv, hw, Option.map_some]
          rw [← (C22_hamilton q p 1).2.2.2.2.2.1]
          exact vars_put _ _ _⟩
  | times v w =>
    simp only [should, QMem.exec, QMem.mul_of]
    cases hv : QMem.val m (some v) with
    | none => exact ⟨m, by simp [vars, hv], by simp [vars, hv, QMem.Same]⟩
    | some q =>
      cases hw : QMem.val m (some w) with
      | none => exact ⟨m, by simp [vars, hv, hw], by simp [vars, hv, hw, QMem.Same]⟩
      | some p => exact ⟨_, by (simp only [vars, hv, hw, Option.map_some]; rfl), by
          simp only [vars, hv, hw, Option.map_some]
          rw [← (C22_hamilton q p 1).1]
          exact vars_put _ _ _⟩
  | over v w =>
    obtain ⟨m', hs, e⟩ := QMem.div_of eps m v w
    simp only [should, QMem.exec, e]
    cases hw : QMem.val m (some w) with
    | none => exact ⟨m', by simp [vars, hw], by simpa [vars, hw] using hs⟩
    | some p =>
      have c : (p.norm < eps ∨ |p.normSq| < eps) ↔ (‖hamilton p‖ < eps ∨ ‖hamilton p‖ ^ 2 < eps) := by
        rw [norm_ham, ← norm_ham, normSq_ham, norm_ham, abs_of_nonneg p.normSq_nonneg]
      have vw : vars m w = some (hamilton p) := by simp [vars, hw]
      simp only [vw, c]
      by_cases k : ‖hamilton p‖ < eps ∨ ‖hamilton p‖ ^ 2 < eps
      · exact ⟨m', by simp only [k, if_true], by simp only [k, if_true]; exact hs⟩
      · simp only [k, if_false]
        cases hv : QMem.val m (some v) with
        | none => exact ⟨m', by simp [vars, hv], by simpa [vars, hv] using hs⟩
        | some q =>
          have vv : vars m v = some (hamilton q) := by simp [vars, hv]
          refine ⟨_, by (simp only [vv]; rfl), ?_⟩
          simp only [vv]
          rw [vars_put, (C22_hamilton _ _ 1).1, inv_ham]
          congr 1
          funext n
          simp [vars, hs.val]
  | normalize v =>
    simp only [should, QMem.exec, QMem.normalize_of]
    cases hv : QMem.val m (some v) with
    | none => exact ⟨m, by simp [vars, hv], by simp [vars, hv, QMem.Same]⟩
    | some q =>
      have vv : vars m v = some (hamilton q) := by simp [vars, hv]
      have a : |q.norm| = ‖hamilton q‖ := by rw [norm_ham]; exact abs_of_nonneg (Real.sqrt_nonneg _)
      simp only [vv, a]
      by_cases k : ‖hamilton q‖ < eps
      · exact ⟨m, by simp only [k, if_true], by simp only [k, if_true]; exact fun _ => rfl⟩
      · refine ⟨_, by (simp only [k, if_false]; rfl), ?_⟩
        simp only [k, if_false]
        rw [vars_put]
        congr 2
        rw [norm_ham]
        ext <;> simp [div_eq_inv_mul]
  | conjugate v =>
    simp only [should, QMem.exec, QMem.conjugate_of]
    cases hv : QMem.val m (some v) with
    | none => exact ⟨m, by simp [vars, hv], by simp [vars, hv, QMem.Same]⟩
    | some q => exact ⟨_, by (simp only [vars, hv, Option.map_some]; rfl), by
        simp only [vars, hv, Option.map_some]
        rw [← (C22_hamilton q q 1).2.2.1]
        exact vars_put _ _ _⟩
  | inverse v =>
    simp only [should, QMem.exec, QMem.inverse_of]
    cases hv : QMem.val m (some v) with
    | none => exact ⟨m, by simp [vars, hv], by simp [vars, hv, QMem.Same]⟩
    | some q =>
      have vv : vars m v = some (hamilton q) := by simp [vars, hv]
      have a : |q.normSq| = ‖hamilton q‖ ^ 2 := by rw [normSq_ham, abs_of_nonneg q.normSq_nonneg]
      simp only [vv, a]
      by_cases k : ‖hamilton q‖ ^ 2 < eps
      · exact ⟨m, by simp only [k, if_true], by simp only [k, if_true]; exact fun _ => rfl⟩
      · refine ⟨_, by (simp only [k, if_false]; rfl), ?_⟩
        simp only [k, if_false]
        rw [vars_put, inv_ham]
  | rectify v =>
    simp only [should, QMem.exec, QMem.rectify_of]
    cases hv : QMem.val m (some v) with
    | none => exact ⟨m, by simp [vars, hv], by simp [vars, hv, QMem.Same]⟩
    | some q =>
      have vv : vars m v = some (hamilton q) := by simp [vars, hv]
      refine ⟨_, by (simp only [vv]; rfl), ?_⟩
      simp only [vv]
      rw [vars_put]
      congr 2
      by_cases k : q.s < 0
      · rw [Quat.rectify, if_pos k, if_pos (show (hamilton q).re < 0 from k)]; ext <;> simp
      · rw [Quat.rectify, if_neg k, if_neg (show ¬(hamilton q).re < 0 from k)]

theorem vars_same {m m' : QMem.Mem} (h : QMem.Same m m') : vars m' = vars m := by funext n; simp [vars, h.val]

/-- C126: every program of statements on quaternions, with any of them on both sides, does to memory what the same program does to quaternions of Mathlib: the same
outcome, and the same quaternions in the variables, also after an exception -/
theorem C126_refines (eps : ℝ) (p : List QMem.Stmt) (m : QMem.Mem) :
    (of (QMem.run eps p) m).1 = (shouldRun eps p (vars m)).1 ∧ vars (of (QMem.run eps p) m).2 = (shouldRun eps p (vars m)).2 := by
  induction p generalizing m with
  | nil => exact ⟨rfl, rfl⟩
  | cons a as ih =>
    obtain ⟨m', e, h⟩ := step_ok eps m a
    rw [QMem.run, bind_of, e]
    unfold shouldRun
    cases k : should eps (vars m) a with
    | error er => simp only [k] at h ⊢; exact ⟨trivial, vars_same h⟩
    | ok s => simp only [k] at h ⊢; subst h; exact ih m'

/-- C126: a statement that throws has changed no member of any variable -/
theorem C126_atomic (eps : ℝ) (a : QMem.Stmt) (m : QMem.Mem) (e : Err) (h : (of (QMem.exec eps a) m).1 = .error e) (n : ℕ) (k : QMem.Member) :
    (of (QMem.exec eps a) m).2 (some n) k = m (some n) k := by
  obtain ⟨m', e', h'⟩ := step_ok eps m a
  rw [e'] at h ⊢
  cases c : should eps (vars m) a with
  | error er => rw [c] at h'; exact congrFun (h' n) k
  | ok s => rw [c] at h; cases h

/-- the variable that a statement changes -/
def receiver : QMem.Stmt → ℕ
  | .set v _ | .copy v _ | .plus v _ | .times v _ | .over v _ | .normalize v | .conjugate v | .inverse v | .rectify v => v

theorem put_other {v n : ℕ} (h : n ≠ v) (q : Quat) (m : QMem.Mem) : QMem.put (some v) q m (some n) = m (some n) := by
  funext l; simp [QMem.put, h]

theorem step_frame (eps : ℝ) (a : QMem.Stmt) (m : QMem.Mem) {n : ℕ} (h : n ≠ receiver a) : (of (QMem.exec eps a) m).2 (some n) = m (some n) := by
  cases a with
  | set v q => cases q with
    | some q => rw [QMem.exec, QMem.assign_of]; exact put_other h q m
    | none => funext l; show (if (some n : Option ℕ) = some v then none else m (some n) l) = _; exact if_neg fun c => h (Option.some.inj c)
  | copy v w => funext l; show (if (some n : Option ℕ) = some v then m (some w) l else m (some n) l) = _; exact if_neg fun c => h (Option.some.inj c)
  | plus v w => rw [QMem.exec, QMem.add_of]; split <;> first | rfl | exact put_other h _ _
  | times v w => rw [QMem.exec, QMem.mul_of]; split <;> first | rfl | exact put_other h _ _
  | over v w =>
    obtain ⟨m', hs, e⟩ := QMem.div_of eps m v w
    rw [QMem.exec, e]
    split
    · exact hs n
    · split
      · exact hs n
      · split
        · exact hs n
        · exact (put_other h _ _).trans (hs n)
  | normalize v => rw [QMem.exec, QMem.normalize_of]; split; · split <;> first | rfl | exact put_other h _ _
                   rfl
  | conjugate v => rw [QMem.exec, QMem.conjugate_of]; split <;> first | rfl | exact put_other h _ _
  | inverse v => rw [QMem.exec, QMem.inverse_of]; split; · split <;> first | rfl | exact put_other h _ _
                 rfl
  | rectify v => rw [QMem.exec, QMem.rectify_of]; split <;> first | rfl | exact put_other h _ _

/-- C126: a program leaves alone every variable that is not the receiver of one of its statements, member by member -/
theorem C126_frame (eps : ℝ) (p : List QMem.Stmt) (m : QMem.Mem) (n : ℕ) (h : ∀ a ∈ p, receiver a ≠ n) (k : QMem.Member) :
    (of (QMem.run eps p) m).2 (some n) k = m (some n) k := by
  induction p generalizing m with
  | nil => rfl
  | cons a as ih =>
    have f := step_frame eps a m (h a (by simp)).symm
    rw [QMem.run, bind_of]
    rcases e : of (QMem.exec eps a) m with ⟨_ | _, m'⟩ <;> rw [e] at f
    · exact congrFun f k
    · exact (ih m' fun b hb => h b (by simp [hb])).trans (congrFun f k)

/-- C126: a quaternion may be added to itself, multiplied by itself and divided by itself -/
theorem C126_self (eps : ℝ) (he : 0 < eps) (m : QMem.Mem) (v : ℕ) (q : Quaternion ℝ) (hq : vars m v = some q) (h1 : eps ≤ ‖q‖) (h2 : eps ≤ ‖q‖ ^ 2) :
    vars (of (QMem.run eps [.plus v v]) m).2 v = some (2 • q) ∧ vars (of (QMem.run eps [.times v v]) m).2 v = some (q ^ 2) ∧
    vars (of (QMem.run eps [.over v v]) m).2 v = some 1 := by
  have h0 : q ≠ 0 := fun h => by rw [h, norm_zero] at h1; linarith
  refine ⟨?_, ?_, ?_⟩ <;> rw [(C126_refines eps _ m).2] <;> simp only [shouldRun, should, hq]
  · simp [two_smul]
  · simp [pow_two]
  · rw [if_neg (by push Not; exact ⟨h1, h2⟩)]
    simp [inv_mul_cancel₀ h0]

/-- a memory with a quaternion that meets the hypotheses -/
example : ∃ (m : QMem.Mem) (q : Quaternion ℝ), vars m 0 = some q ∧ (1 / 10 : ℝ) ≤ ‖q‖ ∧ (1 / 10 : ℝ) ≤ ‖q‖ ^ 2 := by
  refine ⟨QMem.put (some 0) Quat.Unit fun _ _ => none, 1, ?_, by norm_num, by norm_num⟩
  rw [vars_put, (C22_hamilton Quat.Unit Quat.Unit 1).2.2.2.2.1]
  simp

/-! ## Transformations -/

/-- what a program of assignments `v *= w` should do: the outcome and the transformations -/
noncomputable def shouldMultiply : List (ℕ × ℕ) → (ℕ → T3) → Except Err Unit × (ℕ → T3)
  | [], s => (.ok ⟨⟩, s)
  | (v, w) :: as, s => match (s v).mul (s w) with
    | .error e => (.error e, s)
    | .ok t => shouldMultiply as (Function.update s v t)

/-- C126: so does every program of assignments `v *= w` on transformations, whose matrices are multiplied, whose types are composed and which are rigid if both were -/
theorem C126_transformations (p : List (ℕ × ℕ)) (m : TMem.Mem) : of (TMem.run p) m = shouldMultiply p m := by
  induction p generalizing m with
  | nil => rfl
  | cons a as ih =>
    obtain ⟨v, w⟩ := a
    rw [TMem.run, bind_of, TMem.mulAssign, shouldMultiply, T3.mul]
    run_statements
    cases hw : (m w).isDefined
    · rfl
    · cases hv : (m v).isDefined
      · rfl
      · simp only [Bool.not_true, Bool.false_eq_true, if_false, ih]
        congr 1
        by_cases e : w = v
        · subst e; simp
        · simp [e]

end Verif.Props
