import Verif.Model.Aliasing
import Verif.Lemmas.InPlace

/-!
# Lemmas on operations in place, when both sides may be the same variable
-/

namespace Verif

open Doing

theorem Doing.bind_of {σ α β : Type} (x : Doing σ α) (f : α → Doing σ β) (s : σ) : of (x >>= f) s = match of x s with
    | (.ok a, t) => of (f a) t
    | (.error e, t) => (.error e, t) := by
  show ExceptT.bindCont f (x.of s).1 (x.of s).2 = _
  rcases x.of s with ⟨_ | _, _⟩ <;> rfl

namespace QMem

/-- the quaternion in a variable, if it is defined -/
def val (m : Mem) (v : Option ℕ) : Option Quat :=
  match m v .x, m v .y, m v .z, m v .s with
  | some x, some y, some z, some s => some ⟨x, y, z, s⟩
  | _, _, _, _ => none

/-- a member of a quaternion -/
def part (q : Quat) : Member → ℝ
  | .x => q.x
  | .y => q.y
  | .z => q.z
  | .s => q.s

/-- memory in which a variable has been given a quaternion -/
def put (v : Option ℕ) (q : Quat) (m : Mem) : Mem := fun w l => if w = v then some (part q l) else m w l

theorem val_some {m : Mem} {v : Option ℕ} {q : Quat} : val m v = some q ↔ m v = fun l => some (part q l) := by
  constructor
  · intro h
    funext l
    unfold val at h
    split at h
    · rename_i hx hy hz hs
      injection h with h
      subst h
      cases l <;> simp [part, *]
    · cases h
  · intro h
    simp [val, h, part]

theorem defined_val (m : Mem) (v : Option ℕ) : isDefined m v = (val m v).isSome := by
  unfold isDefined val
  cases m v .x <;> cases m v .y <;> cases m v .z <;> cases m v .s <;> rfl

theorem val_put (v w : Option ℕ) (q : Quat) (m : Mem) : val (put v q m) w = if w = v then some q else val m w := by
  by_cases h : w = v <;> simp [val, put, h, part]

theorem read_of {m : Mem} {v : Option ℕ} {q : Quat} (h : val m v = some q) (k : Member) : of (read v k) m = (.ok (part q k), m) := by
  rw [val_some] at h
  unfold read
  rw [get_bind]
  simp [h, need, eval, of, ExceptT.mk]

theorem read_part {m : Mem} {v : Option ℕ} {k : Member} {r : ℝ} (h : m v k = some r) : of (read v k) m = (.ok r, m) := by
  unfold read
  rw [get_bind]
  simp [h, need, eval, of, ExceptT.mk]

theorem write_of (m : Mem) (v : Option ℕ) (k : Member) (r : ℝ) : of (write v k r) m = (.ok ⟨⟩, fun w l => if w = v ∧ l = k then some r else m w l) := rfl

theorem assign_of (m : Mem) (v : Option ℕ) (q : Quat) : of (assign v q) m = (.ok ⟨⟩, put v q m) := by
  unfold assign
  simp only [bind_of, write_of]
  congr 1
  funext w l
  by_cases h : w = v <;> cases l <;> simp [put, h, part]

theorem norm_of (m : Mem) (v : Option ℕ) : of (norm v) m = match val m v with
    | some q => (.ok q.norm, m)
    | none => (.error .undefined, m) := by
  unfold norm
  rw [get_bind, ite_of, defined_val]
  cases h : val m v with
  | none => rfl
  | some q => simp only [bind_of, read_of h, pure_last, part, Quat.norm, Quat.normSq, Option.isSome_some, Bool.not_true, Bool.false_eq_true, if_false]

theorem vector_of (m : Mem) (v : Option ℕ) : of (getVectorPart v) m = match val m v with
    | some q => (.ok q.vec, m)
    | none => (.error .undefined, m) := by
  unfold getVectorPart
  rw [get_bind, ite_of, defined_val]
  cases h : val m v with
  | none => rfl
  | some q => simp only [bind_of, read_of h, pure_last, part, Quat.vec, Option.isSome_some, Bool.not_true, Bool.false_eq_true, if_false]

theorem cross_of (m : Mem) (v w : Option ℕ) : of (crossMultiply v w) m = match val m v, val m w with
    | some q, some p => (.ok (q.cross p), m)
    | _, _ => (.error .undefined, m) := by
  unfold crossMultiply
  rw [bind_of, vector_of]
  cases h : val m v with
  | none => rfl
  | some q =>
    simp only [bind_of, vector_of]
    cases h' : val m w with
    | none => rfl
    | some p => simp only [read_of h, read_of h', pure_last, part, Quat.cross]

theorem copy_of (m : Mem) (v w : Option ℕ) : of (copy v w) m = (.ok ⟨⟩, fun a l => if a = v then m w l else m a l) := rfl

theorem read_eq (m : Mem) (v : Option ℕ) (k : Member) : of (read v k) m = match m v k with
    | some r => (.ok r, m)
    | none => (.error .undefined, m) := by
  unfold read
  rw [get_bind]
  cases m v k <;> rfl

theorem add_of (m : Mem) (v w : Option ℕ) : of (addAssign v w) m = match val m v, val m w with
    | some q, some p => (.ok ⟨⟩, put v (q.plus p) m)
    | _, _ => (.error .undefined, m) := by
  unfold addAssign
  rw [get_bind, get_bind, ite_of, defined_val, defined_val]
  cases h : val m v with
  | none => rfl
  | some q =>
    cases h' : val m w with
    | none => rfl
    | some p =>
      rw [val_some] at h h'
      simp only [Option.isSome_some, Bool.not_true, Bool.or_self, Bool.false_eq_true, if_false]
      by_cases e : w = v
      · subst e
        have : q = p := by
          have := h.symm.trans h'
          have k := fun l => Option.some.inj (congrFun this l)
          obtain ⟨x, y, z, s⟩ := q
          obtain ⟨x', y', z', s'⟩ := p
          simp only [Quat.mk.injEq]
          exact ⟨k .x, k .y, k .z, k .s⟩
        subst this
        simp [bind_of, read_eq, write_of, h]
        funext a l
        by_cases ha : a = w <;> cases l <;> simp [put, ha, part, Quat.plus, Quat.mk', Quat.vec]
      · simp [bind_of, read_eq, write_of, h, h', e]
        funext a l
        by_cases ha : a = v <;> cases l <;> simp [put, ha, part, Quat.plus, Quat.mk', Quat.vec]

theorem mul_of (m : Mem) (v w : Option ℕ) : of (mulAssign v w) m = match val m v, val m w with
    | some q, some p => (.ok ⟨⟩, put v (q.cross p) m)
    | _, _ => (.error .undefined, m) := by
  unfold mulAssign
  rw [bind_of, cross_of]
  cases val m v with
  | none => rfl
  | some q =>
    cases val m w with
    | none => rfl
    | some p => simp only [assign_of]

theorem normalize_of (eps : ℝ) (m : Mem) (v : Option ℕ) : of (normalize eps v) m = match val m v with
    | some q => if |q.norm| < eps then (.error .runtimeError, m) else (.ok ⟨⟩, put v ⟨q.x / q.norm, q.y / q.norm, q.z / q.norm, q.s / q.norm⟩ m)
    | none => (.error .undefined, m) := by
  unfold normalize
  rw [bind_of, norm_of]
  cases h : val m v with
  | none => rfl
  | some q =>
    rw [val_some] at h
    simp only [ite_of, throw_bind]
    split
    · rfl
    · simp [bind_of, read_eq, write_of, h]
      funext a l
      by_cases ha : a = v <;> cases l <;> simp [put, ha, part]

theorem conjugate_of (m : Mem) (v : Option ℕ) : of (conjugate v) m = match val m v with
    | some q => (.ok ⟨⟩, put v q.conj m)
    | none => (.error .undefined, m) := by
  unfold conjugate
  rw [get_bind, ite_of, defined_val]
  cases h : val m v with
  | none => rfl
  | some q =>
    rw [val_some] at h
    simp [bind_of, read_eq, write_of, h]
    funext a l
    by_cases ha : a = v <;> cases l <;> simp [put, ha, part, Quat.conj, h]

theorem inverse_of (eps : ℝ) (m : Mem) (v : Option ℕ) : of (inverse eps v) m = match val m v with
    | some q => if |q.normSq| < eps then (.error .runtimeError, m)
      else (.ok ⟨⟩, put v ⟨-q.x / q.normSq, -q.y / q.normSq, -q.z / q.normSq, q.s / q.normSq⟩ m)
    | none => (.error .undefined, m) := by
  unfold inverse
  rw [get_bind, ite_of, defined_val]
  cases h : val m v with
  | none => rfl
  | some q =>
    have h0 := h
    rw [val_some] at h
    simp only [Option.isSome_some, Bool.not_true, Bool.false_eq_true, if_false, bind_of, read_of h0, ite_of, throw_last, part,
      show q.x * q.x + q.y * q.y + q.z * q.z + q.s * q.s = q.normSq from rfl]
    by_cases c : |q.normSq| < eps
    · simp only [if_pos c]
    · simp [read_eq, write_of, h, if_neg c]
      funext a l
      by_cases ha : a = v <;> cases l <;> simp [put, ha, part]

theorem rectify_of (m : Mem) (v : Option ℕ) : of (rectify v) m = match val m v with
    | some q => (.ok ⟨⟩, put v q.rectify m)
    | none => (.error .undefined, m) := by
  unfold rectify
  rw [get_bind, ite_of, defined_val]
  cases h : val m v with
  | none => rfl
  | some q =>
    have h0 := h
    rw [val_some] at h
    simp only [Option.isSome_some, Bool.not_true, Bool.false_eq_true, if_false, bind_of, read_of h0, ite_of, part, Quat.rectify]
    by_cases c : q.s < 0
    · simp [read_eq, write_of, h, if_pos c]
      funext a l
      by_cases ha : a = v <;> cases l <;> simp [put, ha, part]
    · simp only [if_neg c, pure_last]
      congr 1
      funext a l
      by_cases ha : a = v <;> simp [put, ha, h]

/-- memory with the same variables, whatever the temporary holds -/
def Same (m m' : Mem) : Prop := ∀ n : ℕ, m' (some n) = m (some n)

theorem Same.val {m m' : Mem} (h : Same m m') (n : ℕ) : QMem.val m' (some n) = QMem.val m (some n) := by simp [QMem.val, h n]

theorem div_of (eps : ℝ) (m : Mem) (v w : ℕ) : ∃ m', Same m m' ∧ of (divAssign eps (some v) (some w)) m = match val m (some w) with
    | none => (.error .undefined, m')
    | some p => if p.norm < eps ∨ |p.normSq| < eps then (.error .runtimeError, m')
      else match val m (some v) with
      | none => (.error .undefined, m')
      | some q => (.ok ⟨⟩, put (some v) (q.cross ⟨-p.x / p.normSq, -p.y / p.normSq, -p.z / p.normSq, p.s / p.normSq⟩) m') := by
  unfold divAssign
  rw [bind_of, norm_of]
  cases h : val m (some w) with
  | none => exact ⟨m, fun _ => rfl, rfl⟩
  | some p =>
    simp only [ite_of, throw_bind]
    by_cases c : p.norm < eps
    · exact ⟨m, fun _ => rfl, by simp only [c, true_or, if_true]⟩
    · simp only [c, false_or, if_false, bind_of, copy_of, inverse_of]
      have h' : val (fun a l => if a = none then m (some w) l else m a l) none = some p := by
        simpa [val] using h
      rw [h']
      by_cases c' : |p.normSq| < eps
      · exact ⟨fun a l => if a = none then m (some w) l else m a l, fun n => by simp, by simp only [c', if_true]⟩
      · refine ⟨put none ⟨-p.x / p.normSq, -p.y / p.normSq, -p.z / p.normSq, p.s / p.normSq⟩ (fun a l => if a = none then m (some w) l else m a l), fun n => by funext l; simp [put], ?_⟩
        simp only [c', if_false, cross_of, val_put, if_true]
        have e : val (fun a l => if a = none then m (some w) l else m a l) (some v) = val m (some v) := by simp [val]
        simp only [reduceCtorEq, if_false, e]
        cases val m (some v) with
        | none => rfl
        | some q => simp only [assign_of]

end QMem

end Verif
