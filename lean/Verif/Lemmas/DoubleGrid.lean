import Mathlib.Tactic.Linarith
import Mathlib.Tactic.Ring
import Mathlib.Data.List.Chain
import Verif.Model.DoubleGrid
import Verif.Lemmas.Double

/-! Lemmas about the loops of the grids in double precision. -/

namespace Verif.DGrid

open Verif Verif.Spec Verif.Double

variable {α : Type} [Field α] [LinearOrder α] [IsStrictOrderedRing α] [FloorRing α]

theorem up_stuck {s b v : F64 α} (h1 : v.lt b = true) (h2 : v.add s = v) : ∀ n, up s b n v = none := by
  intro n
  induction n with
  | zero => rfl
  | succ n ih => rw [up, if_pos h1, h2, ih]; rfl

theorem down_stuck {s a v : F64 α} (h1 : a.lt v = true) (h2 : v.add s = v) : ∀ n, down s a n v = none := by
  intro n
  induction n with
  | zero => rfl
  | succ n ih => rw [down, if_pos h1, h2, ih]; rfl

theorem up_more {s b : F64 α} : ∀ {n m : ℕ} {v : F64 α} {l : List (F64 α)}, n ≤ m → up s b n v = some l → up s b m v = some l := by
  intro n
  induction n with
  | zero => intro m v l _ h; cases h
  | succ n ih =>
    intro m v l hm h
    obtain ⟨m, rfl⟩ : ∃ k, m = k + 1 := ⟨m - 1, by omega⟩
    rw [up] at h ⊢
    split at h
    · rw [if_pos (by assumption)]
      obtain ⟨l', h', rfl⟩ := Option.map_eq_some_iff.mp h
      rw [ih (by omega) h']; rfl
    · rw [if_neg (by assumption)]; exact h

theorem down_more {s a : F64 α} : ∀ {n m : ℕ} {v : F64 α} {l : List (F64 α)}, n ≤ m → down s a n v = some l → down s a m v = some l := by
  intro n
  induction n with
  | zero => intro m v l _ h; cases h
  | succ n ih =>
    intro m v l hm h
    obtain ⟨m, rfl⟩ : ∃ k, m = k + 1 := ⟨m - 1, by omega⟩
    rw [down] at h ⊢
    split at h
    · rw [if_pos (by assumption)]
      obtain ⟨l', h', rfl⟩ := Option.map_eq_some_iff.mp h
      rw [ih (by omega) h']; rfl
    · rw [if_neg (by assumption)]; exact h

/-- the sum of finite numbers, when it is finite -/
theorem add_fin_eq {x y z : α} (h : (F64.fin x).add (.fin y) = .fin z) : z = rnd (x + y) := by
  rw [F64.add, F64.ofExact] at h
  split at h
  · cases h
  · exact (F64.fin.inj h).symm

/-- the sum of finite numbers is finite or infinite, on the side of the second -/
theorem add_fin_cases (x y : α) : (F64.fin x).add (.fin y) = .fin (rnd (x + y)) ∨ (F64.fin x).add (.fin y) = .inf (decide (x + y < 0)) := by
  rw [F64.add, F64.ofExact]
  split
  · right; rfl
  · left; rfl

theorem add_fin_small {x y : α} (h : (F64.fin x).add (.fin y) = .fin (rnd (x + y))) : |rnd (x + y)| < 2 ^ 1024 := by
  rw [F64.add, F64.ofExact] at h
  split at h
  · cases h
  · rename_i hx; exact not_le.mp hx

/-- what the loop upwards collects: finite numbers from the first value on, strictly increasing, below the bound -/
theorem up_spec {s b : α} (hs : 0 < s) : ∀ {n : ℕ} {v : α} {l : List (F64 α)}, Representable v → |v| < 2 ^ 1024 → up (.fin s) (.fin b) n (.fin v) = some l →
    ∃ r : List α, l = r.map .fin ∧ r.Pairwise (· < ·) ∧ ∀ x ∈ r, Representable x ∧ v ≤ x ∧ x < b := by
  intro n
  induction n with
  | zero => intro v l _ _ h; cases h
  | succ n ih =>
    intro v l hv hv' h
    have h0 := h
    rw [up] at h
    simp only [F64.lt, decide_eq_true_eq] at h
    split at h
    · rename_i hlt
      obtain ⟨l', h', rfl⟩ := Option.map_eq_some_iff.mp h
      have hle : v ≤ rnd (v + s) := le_rnd hv (by linarith)
      rcases add_fin_cases v s with he | he
      · have hne : rnd (v + s) ≠ v := by
          intro hc
          rw [hc] at he
          rw [up_stuck (by simpa [F64.lt] using hlt) he] at h0
          cases h0
        have hbd : |rnd (v + s)| < 2 ^ 1024 := by
          rw [F64.add, F64.ofExact] at he
          split at he
          · cases he
          · rename_i hx; exact not_le.mp hx
        rw [he] at h'
        obtain ⟨r, rfl, hr, hm⟩ := ih (rnd_representable _) hbd h'
        refine ⟨v :: r, rfl, List.pairwise_cons.mpr ⟨fun x hx => lt_of_lt_of_le (lt_of_le_of_ne hle hne.symm) (hm x hx).2.1, hr⟩, ?_⟩
        intro x hx
        rcases List.mem_cons.mp hx with rfl | hx
        · exact ⟨hv, le_refl _, hlt⟩
        · exact ⟨(hm x hx).1, hle.trans (hm x hx).2.1, (hm x hx).2.2⟩
      · have hneg : ¬ v + s < 0 := by
          intro hc
          rw [F64.add, F64.ofExact] at he
          split at he
          · rename_i hx
            have h1 : |rnd (v + s)| ≤ |v| := by
              have h2 : rnd (v + s) ≤ 0 := rnd_le representable_zero hc.le
              rw [abs_of_nonpos h2, abs_of_nonpos (by linarith)]
              linarith
            exact absurd (lt_of_le_of_lt h1 hv') (not_lt.mpr hx)
          · cases he
        rw [decide_eq_false hneg] at he
        rw [he] at h'
        cases n with
        | zero => cases h'
        | succ n =>
          rw [up, if_neg (by simp [F64.lt])] at h'
          cases h'
          exact ⟨[v], rfl, by simp, fun x hx => by rw [List.mem_singleton.mp hx]; exact ⟨hv, le_refl _, hlt⟩⟩
    · cases h
      exact ⟨[], rfl, List.Pairwise.nil, fun x hx => by cases hx⟩

/-- what the loop downwards collects -/
theorem down_spec {s a : α} (hs : s < 0) : ∀ {n : ℕ} {v : α} {l : List (F64 α)}, Representable v → |v| < 2 ^ 1024 → down (.fin s) (.fin a) n (.fin v) = some l →
    ∃ r : List α, l = r.map .fin ∧ r.Pairwise (· > ·) ∧ ∀ x ∈ r, Representable x ∧ x ≤ v ∧ a < x := by
  intro n
  induction n with
  | zero => intro v l _ _ h; cases h
  | succ n ih =>
    intro v l hv hv' h
    have h0 := h
    rw [down] at h
    simp only [F64.lt, decide_eq_true_eq] at h
    split at h
    · rename_i hlt
      obtain ⟨l', h', rfl⟩ := Option.map_eq_some_iff.mp h
      have hle : rnd (v + s) ≤ v := rnd_le hv (by linarith)
      rcases add_fin_cases v s with he | he
      · have hne : rnd (v + s) ≠ v := by
          intro hc
          rw [hc] at he
          rw [down_stuck (by simpa [F64.lt] using hlt) he] at h0
          cases h0
        have hbd : |rnd (v + s)| < 2 ^ 1024 := by
          rw [F64.add, F64.ofExact] at he
          split at he
          · cases he
          · rename_i hx; exact not_le.mp hx
        rw [he] at h'
        obtain ⟨r, rfl, hr, hm⟩ := ih (rnd_representable _) hbd h'
        refine ⟨v :: r, rfl, List.pairwise_cons.mpr ⟨fun x hx => lt_of_le_of_lt (hm x hx).2.1 (lt_of_le_of_ne hle hne), hr⟩, ?_⟩
        intro x hx
        rcases List.mem_cons.mp hx with rfl | hx
        · exact ⟨hv, le_refl _, hlt⟩
        · exact ⟨(hm x hx).1, (hm x hx).2.1.trans hle, (hm x hx).2.2⟩
      · have hneg : v + s < 0 := by
          by_contra hc
          push Not at hc
          rw [F64.add, F64.ofExact] at he
          split at he
          · rename_i hx
            have h1 : |rnd (v + s)| ≤ |v| := by
              have h2 : 0 ≤ rnd (v + s) := le_rnd representable_zero hc
              rw [abs_of_nonneg h2, abs_of_nonneg (by linarith)]
              exact hle
            exact absurd (lt_of_le_of_lt h1 hv') (not_lt.mpr hx)
          · cases he
        rw [decide_eq_true hneg] at he
        rw [he] at h'
        cases n with
        | zero => cases h'
        | succ n =>
          rw [down, if_neg (by simp [F64.lt])] at h'
          cases h'
          exact ⟨[v], rfl, by simp, fun x hx => by rw [List.mem_singleton.mp hx]; exact ⟨hv, le_refl _, hlt⟩⟩
    · cases h
      exact ⟨[], rfl, List.Pairwise.nil, fun x hx => by cases hx⟩

theorem half_step {s B : α} (hB : B ≤ 2 ^ 52 * s) : 2 ^ (-53 : ℤ) * B ≤ s / 2 := by
  have e : (2 : α) ^ (-53 : ℤ) = 1 / 2 ^ 53 := by rw [zpow_neg, one_div]; norm_cast
  rw [e]
  norm_num at hB ⊢
  linarith

/-- the loop upwards ends when the step is not lost, and the values are off the exact ones by one rounding error for each step -/
theorem up_run {s b B : α} (hs : 0 < s) (hsr : Representable s) (hB : B ≤ 2 ^ 52 * s) (hbB : b + s ≤ B) (hb : |b| < 2 ^ 1024) :
    ∀ (k : ℕ) (v : α), Representable v → |v| < 2 ^ 1024 → -B ≤ v + s → b ≤ v + k * (s / 2) →
      ∃ r : List α, up (.fin s) (.fin b) (k + 2) (.fin v) = some (r.map .fin) ∧
        (∀ (i : ℕ) (x : α), r[i]? = some x → |x - (v + i * s)| ≤ i * (2 ^ (-53 : ℤ) * B)) ∧ b ≤ v + r.length * s + r.length * (2 ^ (-53 : ℤ) * B) := by
  intro k
  induction k with
  | zero =>
    intro v hv hv' hvB hk
    refine ⟨[], ?_, fun i x hx => by simp at hx, by simpa using hk⟩
    rw [up]
    simp only [F64.lt, decide_eq_true_eq]
    rw [if_neg (not_lt.mpr (by simpa using hk))]; rfl
  | succ k ih =>
    intro v hv hv' hvB hk
    by_cases hlt : v < b
    · have hz : |v + s| ≤ B := abs_le.mpr ⟨hvB, by linarith⟩
      have herr : |rnd (v + s) - (v + s)| ≤ 2 ^ (-53 : ℤ) * B := by
        refine (rnd_add_error hv hsr).trans ?_
        have := two_zpow_pos (α := α) (-53)
        gcongr
      have h1 := abs_le.mp (herr.trans (half_step hB))
      rcases add_fin_cases v s with he | he
      · obtain ⟨r, hrun, hacc, hcov⟩ := ih (rnd (v + s)) (rnd_representable _) (add_fin_small he) (by linarith) (by push_cast at hk; linarith)
        refine ⟨v :: r, ?_, ?_, ?_⟩
        · rw [up]
          simp only [F64.lt, decide_eq_true_eq]
          rw [if_pos hlt, he, hrun]; rfl
        · intro i x hx
          cases i with
          | zero => simp at hx; subst hx; simp
          | succ i =>
            have := hacc i x (by simpa using hx)
            have e : x - (v + ((i + 1 : ℕ) : α) * s) = (x - (rnd (v + s) + i * s)) + (rnd (v + s) - (v + s)) := by push_cast; ring
            rw [e]
            refine (abs_add_le _ _).trans ?_
            push_cast
            linarith
        · have := abs_le.mp herr
          rw [List.length_cons]; push_cast
          linarith
      · by_cases hneg : v + s < 0
        · rw [decide_eq_true hneg] at he
          exfalso
          rw [F64.add, F64.ofExact] at he
          split at he
          · rename_i hx
            have h2 : |rnd (v + s)| ≤ |v| := by
              have h3 : rnd (v + s) ≤ 0 := rnd_le representable_zero hneg.le
              have h4 : v ≤ rnd (v + s) := le_rnd hv (by linarith)
              rw [abs_of_nonpos h3, abs_of_nonpos (by linarith)]
              linarith
            exact absurd (lt_of_le_of_lt h2 hv') (not_lt.mpr hx)
          · cases he
        · rw [decide_eq_false hneg] at he
          refine ⟨[v], ?_, ?_, ?_⟩
          · rw [up]
            simp only [F64.lt, decide_eq_true_eq]
            rw [if_pos hlt, he, up, if_neg (by simp [F64.lt])]; rfl
          · intro i x hx
            cases i with
            | zero => simp at hx; subst hx; simp
            | succ i => simp at hx
          · rw [F64.add, F64.ofExact] at he
            split at he
            · rename_i hx
              have h2 : 0 ≤ rnd (v + s) := le_rnd representable_zero (not_lt.mp hneg)
              rw [abs_of_nonneg h2] at hx
              have h3 : b ≤ rnd (v + s) := (le_abs_self b).trans (hb.le.trans hx)
              have := abs_le.mp herr
              simp only [List.length_singleton, Nat.cast_one, one_mul]
              linarith
            · cases he
    · refine ⟨[], ?_, fun i x hx => by simp at hx, by simpa using hlt⟩
      rw [up]
      simp only [F64.lt, decide_eq_true_eq]
      rw [if_neg hlt]; rfl

theorem lt_neg (x y : F64 α) : x.neg.lt y.neg = y.lt x := by
  cases x <;> cases y <;> simp [F64.neg, F64.lt, Bool.and_comm]

/-- the loop downwards is the loop upwards seen in a mirror -/
theorem down_mirror (s a : F64 α) : ∀ (n : ℕ) (v : F64 α), down s a n v = (up s.neg a.neg n v.neg).map (List.map F64.neg) := by
  intro n
  induction n with
  | zero => intro v; rfl
  | succ n ih =>
    intro v
    rw [down, up, lt_neg, F64.add_neg, ih]
    split
    · cases up s.neg a.neg n (v.add s).neg with
      | none => rfl
      | some l => simp [F64.neg_neg]
    · rfl

/-- the loop downwards ends when the step is not lost -/
theorem down_run {s a B : α} (hs : s < 0) (hsr : Representable s) (hB : B ≤ 2 ^ 52 * -s) (haB : -B ≤ a + s) (ha : |a| < 2 ^ 1024) (k : ℕ) (v : α)
    (hv : Representable v) (hv' : |v| < 2 ^ 1024) (hvB : v + s ≤ B) (hk : v + k * (s / 2) ≤ a) :
    ∃ r : List α, down (.fin s) (.fin a) (k + 2) (.fin v) = some (r.map .fin) ∧
      (∀ (i : ℕ) (x : α), r[i]? = some x → |x - (v + i * s)| ≤ i * (2 ^ (-53 : ℤ) * B)) ∧ v + r.length * s - r.length * (2 ^ (-53 : ℤ) * B) ≤ a := by
  obtain ⟨r, hr, hacc, hcov⟩ := up_run (s := -s) (b := -a) (B := B) (by linarith) (representable_neg hsr) hB (by linarith) (by rwa [abs_neg]) k (-v)
    (representable_neg hv) (by rwa [abs_neg]) (by linarith) (by linarith)
  refine ⟨r.map (fun x => -x), ?_, ?_, ?_⟩
  · rw [down_mirror]
    simp only [F64.neg]
    rw [hr]
    simp [F64.neg, Function.comp_def]
  · intro i x hx
    rw [List.getElem?_map] at hx
    obtain ⟨y, hy, rfl⟩ := Option.map_eq_some_iff.mp hx
    have := hacc i y hy
    rw [← abs_neg]
    rw [show -(-y - (v + i * s)) = y - (-v + i * -s) by ring]
    exact this
  · rw [List.length_map]; linarith

/-- a sum with a positive number does not overflow downwards -/
theorem add_inf_up {v s : α} {g : Bool} (hs : 0 < s) (hv : Representable v) (hv' : |v| < 2 ^ 1024) (he : (F64.fin v).add (.fin s) = .inf g) : g = false := by
  rw [F64.add, F64.ofExact] at he
  split at he
  · rename_i hx
    have hg := F64.inf.inj he
    by_contra hc
    have hneg : v + s < 0 := of_decide_eq_true (hg.trans (by simpa using hc))
    have h2 : |rnd (v + s)| ≤ |v| := by
      have h3 : rnd (v + s) ≤ 0 := rnd_le representable_zero hneg.le
      have h4 : v ≤ rnd (v + s) := le_rnd hv (by linarith)
      rw [abs_of_nonpos h3, abs_of_nonpos (by linarith)]
      linarith
    exact absurd (lt_of_le_of_lt h2 hv') (not_lt.mpr hx)
  · cases he

/-- the loop upwards from the first value after an excluded lower bound -/
theorem up_from {s a b : α} (hs : 0 < s) (hab : a < b) (ha : Representable a) (ha' : |a| < 2 ^ 1024) {n : ℕ} {l : List (F64 α)}
    (h : up (.fin s) (.fin b) n ((F64.fin a).add (.fin s)) = some l) :
    ∃ r : List α, l = r.map .fin ∧ r.Pairwise (· < ·) ∧ ∀ x ∈ r, a < x ∧ x < b := by
  rcases add_fin_cases a s with he | he
  · have hle : a ≤ rnd (a + s) := le_rnd ha (by linarith)
    rcases hle.eq_or_lt with hc | hlt
    · rw [he, ← hc, up_stuck (by simpa [F64.lt] using hab) (by rw [he, ← hc])] at h
      cases h
    · rw [he] at h
      obtain ⟨r, hr, hp, hm⟩ := up_spec hs (rnd_representable _) (add_fin_small he) h
      exact ⟨r, hr, hp, fun x hx => ⟨lt_of_lt_of_le hlt (hm x hx).2.1, (hm x hx).2.2⟩⟩
  · rw [he, add_inf_up hs ha ha' he] at h
    cases n with
    | zero => cases h
    | succ n =>
      rw [up, if_neg (by simp [F64.lt])] at h
      cases h
      exact ⟨[], rfl, List.Pairwise.nil, fun x hx => by cases hx⟩

/-- the loop downwards from the first value before an excluded upper bound -/
theorem down_from {s a b : α} (hs : s < 0) (hab : a < b) (hb : Representable b) (hb' : |b| < 2 ^ 1024) {n : ℕ} {l : List (F64 α)}
    (h : down (.fin s) (.fin a) n ((F64.fin b).add (.fin s)) = some l) :
    ∃ r : List α, l = r.map .fin ∧ r.Pairwise (· > ·) ∧ ∀ x ∈ r, a < x ∧ x < b := by
  rw [down_mirror, ← F64.add_neg] at h
  obtain ⟨l', h', rfl⟩ := Option.map_eq_some_iff.mp h
  obtain ⟨r, rfl, hp, hm⟩ := up_from (a := -b) (b := -a) (s := -s) (by linarith) (by linarith) (representable_neg hb) (by rwa [abs_neg]) h'
  refine ⟨r.map (fun x => -x), ?_, ?_, ?_⟩
  · simp [F64.neg, Function.comp_def]
  · rw [List.pairwise_map]
    exact hp.imp fun h => by simpa using h
  · intro x hx
    obtain ⟨y, hy, rfl⟩ := List.mem_map.mp hx
    have := hm y hy
    constructor <;> linarith

/-- a sum worked out: the number `m * 2 ^ e` is the nearest one -/
theorem add_eq {x y z : α} (m e : ℤ) (hz : z = m * 2 ^ e) (he : -1074 ≤ e) (h1 : 2 ^ (e + 52) ≤ |x + y|) (h2 : |x + y| < 2 ^ (e + 53))
    (h3 : |(m : α) * 2 ^ e - (x + y)| < 2 ^ e / 2 ∨ |(m : α) * 2 ^ e - (x + y)| = 2 ^ e / 2 ∧ m % 2 = 0) (h4 : |z| ≤ 2 ^ 100) :
    (F64.fin x).add (.fin y) = .fin z := by
  have h := rnd_eq m e he h1 h2 h3
  rw [← hz] at h
  rw [F64.add, F64.ofExact_fin (by rw [h]; exact lt_of_le_of_lt h4 (pow_lt_pow_right₀ one_lt_two (by norm_num))), h]

theorem up_step {s b v w : F64 α} {n : ℕ} {l : List (F64 α)} (h1 : v.lt b = true) (h2 : v.add s = w) (h3 : up s b n w = some l) :
    up s b (n + 1) v = some (v :: l) := by
  rw [up, if_pos h1, h2, h3]; rfl

theorem fill_length (s : F64 α) : ∀ (n : ℕ) (v : F64 α), (fill s n v).length = n := by
  intro n
  induction n with
  | zero => intro v; rfl
  | succ n ih => intro v; rw [fill, List.length_cons, ih]

/-- a step that does not go down -/
def Up : F64 α → Prop
  | .fin s => 0 ≤ s
  | .inf g => g = false
  | .nan => False

/-- neither minus infinity nor undefined -/
def low : F64 α → Bool
  | .fin _ => true
  | .inf g => !g
  | .nan => false

theorem ofExact_up {x : α} (h : 0 ≤ x) : Up (F64.ofExact x) := by
  unfold F64.ofExact
  split
  · exact decide_eq_false (not_lt.mpr h)
  · exact le_rnd representable_zero h

/-- the step of `generateArrayWithSize` does not go down -/
theorem up_step_size {a b k : α} (hab : a ≤ b) (hk : 1 ≤ k) (hk' : k ≤ 2 ^ 100) : Up (((F64.fin b).sub (.fin a)).div (.ofExact k)) := by
  have r1 : (1 : α) ≤ rnd k := le_rnd ⟨1, 0, by norm_num, by norm_num, by norm_num⟩ hk
  have r2 : rnd k ≤ 2 ^ 100 := rnd_le ⟨1, 100, by norm_num, by norm_num, by norm_num⟩ hk'
  have hk2 : F64.ofExact k = .fin (rnd k) :=
    F64.ofExact_fin (lt_of_le_of_lt (b := 2 ^ 100) (by rwa [abs_of_nonneg (by linarith)]) (pow_lt_pow_right₀ one_lt_two (by norm_num)))
  have h : Up ((F64.fin b).sub (.fin a)) := by
    rw [F64.sub, F64.neg, F64.add]
    exact ofExact_up (by linarith)
  rw [hk2]
  cases hd : (F64.fin b).sub (.fin a) with
  | nan => rw [hd] at h; exact h.elim
  | inf g =>
    rw [hd] at h
    cases (show g = false from h)
    rw [F64.div, decide_eq_false (by linarith)]
    rfl
  | fin d =>
    rw [hd] at h
    have h : 0 ≤ d := h
    rw [F64.div, if_neg (by linarith)]
    exact ofExact_up (div_nonneg h (by linarith))

theorem add_up {s v : F64 α} (hs : Up s) (hv : v.Valid) (hl : low v = true) : (v.add s).Valid ∧ low (v.add s) = true ∧ v.le (v.add s) = true := by
  cases s with
  | nan => exact hs.elim
  | inf g =>
    cases (show g = false from hs)
    cases v with
    | nan => simp [low] at hl
    | inf g' => cases g' <;> simp_all [low, F64.add, F64.Valid, F64.le]
    | fin x => exact ⟨trivial, rfl, rfl⟩
  | fin s =>
    cases v with
    | nan => simp [low] at hl
    | inf g' => cases g' <;> simp_all [low, F64.add, F64.Valid, F64.le]
    | fin x =>
      obtain ⟨hx, hx'⟩ := hv
      have hs : 0 ≤ s := hs
      refine ⟨F64.ofExact_valid _, ?_⟩
      rcases add_fin_cases x s with he | he
      · rw [he]
        exact ⟨rfl, by rw [F64.le]; exact decide_eq_true (le_rnd hx (by linarith))⟩
      · rcases hs.eq_or_lt with h0 | h0
        · rw [F64.add, ← h0, add_zero, F64.ofExact_fin (by rwa [rnd_exact hx])] at he
          cases he
        · rw [he, add_inf_up h0 hx hx' he]
          exact ⟨rfl, rfl⟩

theorem le_trans_fin {a : α} {x y : F64 α} (h1 : (F64.fin a).le x = true) (h2 : x.le y = true) : (F64.fin a).le y = true := by
  cases x with
  | nan => simp [F64.le] at h1
  | inf g => cases y <;> simp_all [F64.le]
  | fin x =>
    cases y with
    | nan => simp [F64.le] at h2
    | inf g => simpa [F64.le] using h2
    | fin y => simp only [F64.le, decide_eq_true_eq] at *; exact h1.trans h2

theorem le_trans {x y z : F64 α} (h1 : x.le y = true) (h2 : y.le z = true) : x.le z = true := by
  cases x with
  | fin x => exact le_trans_fin h1 h2
  | nan => simp [F64.le] at h1
  | inf g =>
    cases y with
    | nan => simp [F64.le] at h1
    | fin y => cases z <;> simp_all [F64.le]
    | inf g' => cases z <;> cases g <;> cases g' <;> simp_all [F64.le]

theorem le_self {x : F64 α} (h : low x = true) : x.le x = true := by
  cases x with
  | nan => simp [low] at h
  | inf g => cases g <;> simp [F64.le]
  | fin x => simp [F64.le]

theorem fill_above {s : F64 α} (hs : Up s) : ∀ (n : ℕ) {v : F64 α}, v.Valid → low v = true → ∀ x ∈ fill s n v, v.le x = true := by
  intro n
  induction n with
  | zero => intro v _ _ x hx; cases hx
  | succ n ih =>
    intro v hv hl x hx
    obtain ⟨h1, h2, h3⟩ := add_up hs hv hl
    rcases List.mem_cons.mp hx with rfl | hx
    · exact le_self hl
    · exact le_trans h3 (ih h1 h2 x hx)

theorem fill_chain {s : F64 α} (hs : Up s) : ∀ (n : ℕ) {v : F64 α}, v.Valid → low v = true → (fill s n v).IsChain (fun x y => x.le y = true) := by
  intro n
  induction n with
  | zero => intro v _ _; exact List.IsChain.nil
  | succ n ih =>
    intro v hv hl
    obtain ⟨h1, h2, h3⟩ := add_up hs hv hl
    cases n with
    | zero => exact List.IsChain.singleton _
    | succ n => exact List.IsChain.cons_cons h3 (ih h1 h2)

/-- the step of `generateArrayWithSize` is off the exact one by about two roundings -/
theorem size_step {a b M h : α} {k : ℕ} (ha : Representable a) (hb : Representable b) (hk : 1 ≤ k) (hk' : k ≤ 2 ^ 47) (hab : 2 ^ (-960 : ℤ) ≤ b - a)
    (haM : |a| ≤ M) (hbM : |b| ≤ M) (hM : 16 * M < 2 ^ 1024) (hh : h * k = b - a) :
    ∃ s, ((F64.fin b).sub (.fin a)).div (.ofExact (k : α)) = .fin s ∧ Representable s ∧ |s - h| ≤ 3 * 2 ^ (-53 : ℤ) * h := by
  have u0 := two_zpow_pos (α := α) (-53)
  have u1 : (2 : α) ^ (-53 : ℤ) ≤ 1 / 8 := by rw [zpow_neg]; norm_num
  have hpos : 0 < b - a := lt_of_lt_of_le (two_zpow_pos _) hab
  have hkr : Representable (k : α) := by
    have := representable_int (α := α) (m := k) (by rw [abs_of_nonneg (by omega)]; omega)
    simpa using this
  have hkc : (1 : α) ≤ k := by exact_mod_cast hk
  have hkc' : (k : α) ≤ 2 ^ 47 := by exact_mod_cast hk'
  have k0 : (0 : α) < k := by linarith
  have hkf : F64.ofExact (k : α) = .fin k := by
    rw [F64.ofExact_fin] <;> rw [rnd_exact hkr]
    rw [abs_of_pos k0]
    exact lt_of_le_of_lt hkc' (pow_lt_pow_right₀ one_lt_two (by norm_num))
  have hd := rnd_add_error hb (representable_neg ha)
  rw [← sub_eq_add_neg, abs_of_pos hpos] at hd
  have hM' : b - a ≤ 2 * M := by
    have h1 := abs_le.mp haM
    have h2 := abs_le.mp hbM
    clear hM hab
    linarith
  generalize hu : (2 : α) ^ (-53 : ℤ) = u at *
  have hd' := abs_le.mp hd
  have dpos : 2 ^ (-960 : ℤ) ≤ rnd (b - a) := le_rnd (F64.representable_pow (by norm_num)) hab
  have d0 : 0 < rnd (b - a) := lt_of_lt_of_le (two_zpow_pos _) dpos
  have dle : rnd (b - a) ≤ 4 * M := by
    clear hM hab dpos
    nlinarith
  have dfin : (F64.fin b).sub (.fin a) = .fin (rnd (b - a)) := by
    rw [F64.sub, F64.neg, F64.add, ← sub_eq_add_neg, F64.ofExact_fin]
    rw [abs_of_pos d0]
    refine lt_of_le_of_lt dle (lt_of_le_of_lt ?_ hM)
    clear hM hab dpos
    linarith
  have q0 : 0 < rnd (b - a) / k := div_pos d0 k0
  have qn : 2 ^ (-1022 : ℤ) ≤ |rnd (b - a) / k| := by
    rw [abs_of_pos q0, le_div_iff₀ k0]
    calc (2 : α) ^ (-1022 : ℤ) * k ≤ 2 ^ (-1022 : ℤ) * 2 ^ (62 : ℤ) := by
          have : (k : α) ≤ 2 ^ (62 : ℤ) := hkc'.trans (by norm_num)
          have := two_zpow_pos (α := α) (-1022)
          gcongr
      _ = 2 ^ (-960 : ℤ) := by rw [← zpow_add₀ two_ne_zero]; rfl
      _ ≤ _ := dpos
  have hq := rnd_relative qn
  rw [abs_of_pos q0, hu] at hq
  have hq' := abs_le.mp hq
  have qle : rnd (b - a) / k ≤ rnd (b - a) := div_le_self d0.le hkc
  have sle : |rnd (rnd (b - a) / k)| ≤ 8 * M := by
    rw [abs_of_nonneg (le_rnd representable_zero q0.le)]
    clear hM hab dpos qn
    nlinarith
  refine ⟨rnd (rnd (b - a) / k), ?_, rnd_representable _, ?_⟩
  · rw [dfin, hkf, F64.div, if_neg k0.ne', F64.ofExact_fin]
    refine lt_of_le_of_lt sle (lt_of_le_of_lt ?_ hM)
    have : 0 ≤ M := (abs_nonneg a).trans haM
    clear hM hab dpos qn
    linarith
  · have hh' : h = (b - a) / k := by rw [← hh, mul_div_assoc, div_self k0.ne', mul_one]
    have h0 : 0 < h := hh' ▸ div_pos hpos k0
    have e1 : |rnd (b - a) / k - h| ≤ u * h := by
      rw [hh', ← sub_div, abs_div, abs_of_pos k0, ← mul_div_assoc]
      gcongr
    have e2 := abs_le.mp e1
    rw [show rnd (rnd (b - a) / k) - h = (rnd (rnd (b - a) / k) - rnd (b - a) / k) + (rnd (b - a) / k - h) by ring]
    refine (abs_add_le _ _).trans ?_
    have e3 : u * (rnd (b - a) / k) ≤ u * (2 * h) := by
      have : rnd (b - a) / k ≤ 2 * h := by
        clear hM hab dpos qn
        nlinarith
      gcongr
    clear hM hab dpos qn
    linarith

/-- the values of `generateArrayWithSize` stay close to the exact ones -/
theorem fill_run {a M h s : α} (hsr : Representable s) (hsh : |s - h| ≤ 3 * 2 ^ (-53 : ℤ) * h) (h0 : 0 < h) (haM : |a| ≤ M) (hh2 : h ≤ 2 * M)
    (hM : 16 * M < 2 ^ 1024) : ∀ (n j : ℕ) (v : α), Representable v → |v - (a + j * h)| ≤ j * (12 * 2 ^ (-53 : ℤ) * M) → ((j + n : ℕ) : α) * h ≤ 4 * M →
      j + n ≤ 2 ^ 48 → ∃ r : List α, fill (.fin s) n (.fin v) = r.map .fin ∧ r.length = n ∧
        ∀ (i : ℕ) (x : α), r[i]? = some x → |x - (a + (i + j : ℕ) * h)| ≤ (i + j : ℕ) * (12 * 2 ^ (-53 : ℤ) * M) := by
  have M0 : 0 ≤ M := (abs_nonneg a).trans haM
  intro n
  induction n with
  | zero => intro j v _ _ _ _; exact ⟨[], rfl, rfl, fun i x hx => by simp at hx⟩
  | succ n ih =>
    intro j v hv hvj hjn hj
    have u0 := two_zpow_pos (α := α) (-53)
    have u1 : (j : α) * (12 * 2 ^ (-53 : ℤ) * M) ≤ M / 2 := by
      have : (j : α) ≤ 2 ^ 48 := by
        have : j ≤ 2 ^ 48 := by omega
        exact_mod_cast this
      have e : (12 : α) * 2 ^ (-53 : ℤ) * M * 2 ^ 48 ≤ M / 2 := by
        have : (12 : α) * 2 ^ (-53 : ℤ) * 2 ^ 48 ≤ 1 / 2 := by norm_num
        nlinarith
      have : (j : α) * (12 * 2 ^ (-53 : ℤ) * M) ≤ 2 ^ 48 * (12 * 2 ^ (-53 : ℤ) * M) := by gcongr
      exact this.trans ((mul_comm _ _).le.trans e)
    have hj1 : ((j + 1 : ℕ) : α) * h ≤ 4 * M := by
      refine _root_.le_trans ?_ hjn
      have : ((j + 1 : ℕ) : α) ≤ ((j + (n + 1) : ℕ) : α) := by exact_mod_cast (by omega)
      gcongr
    have u2 : 3 * (2 : α) ^ (-53 : ℤ) * h ≤ M / 2 := by
      have : 3 * (2 : α) ^ (-53 : ℤ) ≤ 1 / 4 := by norm_num
      clear hM
      nlinarith
    have herr := rnd_add_error hv hsr
    have hsum : |v + s - (a + (j + 1 : ℕ) * h)| ≤ M := by
      rw [show v + s - (a + (j + 1 : ℕ) * h) = (v - (a + j * h)) + (s - h) by push_cast; ring]
      exact (abs_add_le _ _).trans ((add_le_add (hvj.trans u1) (hsh.trans u2)).trans (add_halves M).le)
    have hvs : |v + s| ≤ 6 * M := by
      have h1 := abs_le.mp hsum
      have h2 := abs_le.mp haM
      have h3 : 0 ≤ ((j + 1 : ℕ) : α) * h := by positivity
      clear hM herr
      exact abs_le.mpr ⟨by linarith, by linarith⟩
    have hre : |rnd (v + s) - (v + s)| ≤ 2 ^ (-53 : ℤ) * (6 * M) := herr.trans (by gcongr)
    have hfin : (F64.fin v).add (.fin s) = .fin (rnd (v + s)) := by
      rw [F64.add, F64.ofExact_fin]
      have : |rnd (v + s)| ≤ 12 * M := by
        have h1 := abs_sub_abs_le_abs_sub (rnd (v + s)) (v + s)
        have h2 : (2 : α) ^ (-53 : ℤ) ≤ 1 := by norm_num
        clear hM
        nlinarith
      refine lt_of_le_of_lt this (lt_of_le_of_lt ?_ hM)
      clear hM
      linarith
    have hnext : |rnd (v + s) - (a + (j + 1 : ℕ) * h)| ≤ (j + 1 : ℕ) * (12 * 2 ^ (-53 : ℤ) * M) := by
      rw [show rnd (v + s) - (a + (j + 1 : ℕ) * h) = (rnd (v + s) - (v + s)) + ((v - (a + j * h)) + (s - h)) by push_cast; ring]
      refine (abs_add_le _ _).trans ((add_le_add hre (abs_add_le _ _)).trans ?_)
      have : 3 * (2 : α) ^ (-53 : ℤ) * h ≤ 3 * 2 ^ (-53 : ℤ) * (2 * M) := by gcongr
      push_cast
      generalize (2 : α) ^ (-53 : ℤ) = u at *
      clear hM
      nlinarith
    obtain ⟨r, hr, hl, hacc⟩ := ih (j + 1) _ (rnd_representable _) hnext (by rwa [show j + 1 + n = j + (n + 1) by omega]) (by omega)
    refine ⟨v :: r, ?_, by rw [List.length_cons, hl], ?_⟩
    · rw [fill, hfin, hr]; rfl
    · intro i x hx
      cases i with
      | zero => simp at hx; subst hx; simpa using hvj
      | succ i =>
        have := hacc i x (by simpa using hx)
        rwa [show i + 1 + j = i + (j + 1) by omega]

end Verif.DGrid
