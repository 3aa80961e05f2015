import Mathlib.Tactic.NormNum
import Mathlib.Tactic.Positivity
import Mathlib.Data.Rat.Floor
import Verif.Spec.Interval
import Verif.Spec.Double
import Verif.Lemmas.DoubleGrid

/-!
# C110 and C111: the grids of an interval in double precision

The values of a grid are sums of the step that are rounded at each turn of the loop, so a grid can have one value more than the exact one, can leave the
interval, or can fail to end.
-/

namespace Verif.Props

open Verif Verif.Spec Verif.Double

variable {α : Type} [Field α] [LinearOrder α] [IsStrictOrderedRing α] [FloorRing α]

/-- whenever `generateArrayWithStep` returns for an interval with finite bounds and a step that is not zero, it gives an array of finite numbers of the interval,
in the strict order of the step -/
theorem C110_inside_partial {t : IType} {a b s : α} {n : ℕ} {res : Res (List (F64 α))} (hI : Valid ⟨t, some a, some b⟩) (ha : Representable a) (ha' : |a| < 2 ^ 1024)
    (hb : Representable b) (hb' : |b| < 2 ^ 1024) (hs : s ≠ 0) (h : DGrid.withStep n t (.fin a) (.fin b) (.fin s) = some res) :
    ∃ r : List α, res = .ok (r.map .fin) ∧ r.Pairwise (fun x y => 0 < (y - x) * s) ∧ ∀ x ∈ r, x ∈ pts ⟨t, some a, some b⟩ := by
  obtain ⟨a', b', e1, e2, hI⟩ := hI
  cases e1; cases e2
  have mono : ∀ {r : List α}, 0 < s → r.Pairwise (· < ·) → r.Pairwise (fun x y => 0 < (y - x) * s) :=
    fun h1 h2 => h2.imp fun h3 => mul_pos (sub_pos.mpr h3) h1
  have anti : ∀ {r : List α}, s < 0 → r.Pairwise (· > ·) → r.Pairwise (fun x y => 0 < (y - x) * s) :=
    fun h1 h2 => h2.imp fun h3 => mul_pos_of_neg_of_neg (sub_neg.mpr h3) h1
  have snocU : ∀ {r : List α}, r.Pairwise (· < ·) → (∀ x ∈ r, x < b) → (r ++ [b]).Pairwise (· < ·) := fun h1 h2 =>
    List.pairwise_append.mpr ⟨h1, List.pairwise_singleton _ _, fun x hx y hy => by rw [List.mem_singleton.mp hy]; exact h2 x hx⟩
  have snocD : ∀ {r : List α}, r.Pairwise (· > ·) → (∀ x ∈ r, a < x) → (r ++ [a]).Pairwise (· > ·) := fun h1 h2 =>
    List.pairwise_append.mpr ⟨h1, List.pairwise_singleton _ _, fun x hx y hy => by rw [List.mem_singleton.mp hy]; exact h2 x hx⟩
  have ht : t ≠ .undefined := by rcases hI with h | h <;> simp_all
  unfold DGrid.withStep at h
  rw [if_neg (by simp [ht]), if_neg (by simp), if_neg (by simpa [F64.eq] using hs)] at h
  rcases lt_or_gt_of_ne hs with hneg | hpos
  · rw [if_neg (by simpa [F64.lt] using hneg.le)] at h
    obtain ⟨l, hl, rfl⟩ := Option.map_eq_some_iff.mp h
    cases t with
    | undefined => exact absurd rfl ht
    | closed =>
      have hab : a ≤ b := by rcases hI with h | h <;> simp_all
      obtain ⟨r, rfl, hp, hm⟩ := DGrid.down_spec hneg hb hb' (by simpa using hl)
      refine ⟨r ++ [a], by simp, anti hneg (snocD hp fun x hx => (hm x hx).2.2), fun x hx => ?_⟩
      rcases List.mem_append.mp hx with hx | hx
      · exact ⟨(hm x hx).2.2.le, (hm x hx).2.1⟩
      · rw [List.mem_singleton.mp hx]; exact ⟨le_refl _, hab⟩
    | opened =>
      have hab : a < b := by rcases hI with h | h <;> simp_all
      obtain ⟨r, rfl, hp, hm⟩ := DGrid.down_from hneg hab hb hb' (by simpa using hl)
      exact ⟨r, by simp, anti hneg hp, hm⟩
    | halfOpenLeft =>
      have hab : a < b := by rcases hI with h | h <;> simp_all
      obtain ⟨r, rfl, hp, hm⟩ := DGrid.down_spec hneg hb hb' (by simpa using hl)
      exact ⟨r, by simp, anti hneg hp, fun x hx => ⟨(hm x hx).2.2, (hm x hx).2.1⟩⟩
    | halfOpenRight =>
      have hab : a < b := by rcases hI with h | h <;> simp_all
      obtain ⟨r, rfl, hp, hm⟩ := DGrid.down_from hneg hab hb hb' (by simpa using hl)
      refine ⟨r ++ [a], by simp, anti hneg (snocD hp fun x hx => (hm x hx).1), fun x hx => ?_⟩
      rcases List.mem_append.mp hx with hx | hx
      · exact ⟨(hm x hx).1.le, (hm x hx).2⟩
      · rw [List.mem_singleton.mp hx]; exact ⟨le_refl _, hab⟩
  · rw [if_pos (by simpa [F64.lt] using hpos)] at h
    obtain ⟨l, hl, rfl⟩ := Option.map_eq_some_iff.mp h
    cases t with
    | undefined => exact absurd rfl ht
    | closed =>
      have hab : a ≤ b := by rcases hI with h | h <;> simp_all
      obtain ⟨r, rfl, hp, hm⟩ := DGrid.up_spec hpos ha ha' (by simpa using hl)
      refine ⟨r ++ [b], by simp, mono hpos (snocU hp fun x hx => (hm x hx).2.2), fun x hx => ?_⟩
      rcases List.mem_append.mp hx with hx | hx
      · exact ⟨(hm x hx).2.1, (hm x hx).2.2.le⟩
      · rw [List.mem_singleton.mp hx]; exact ⟨hab, le_refl _⟩
    | opened =>
      have hab : a < b := by rcases hI with h | h <;> simp_all
      obtain ⟨r, rfl, hp, hm⟩ := DGrid.up_from hpos hab ha ha' (by simpa using hl)
      exact ⟨r, by simp, mono hpos hp, hm⟩
    | halfOpenRight =>
      have hab : a < b := by rcases hI with h | h <;> simp_all
      obtain ⟨r, rfl, hp, hm⟩ := DGrid.up_spec hpos ha ha' (by simpa using hl)
      exact ⟨r, by simp, mono hpos hp, fun x hx => ⟨(hm x hx).2.1, (hm x hx).2.2⟩⟩
    | halfOpenLeft =>
      have hab : a < b := by rcases hI with h | h <;> simp_all
      obtain ⟨r, rfl, hp, hm⟩ := DGrid.up_from hpos hab ha ha' (by simpa using hl)
      refine ⟨r ++ [b], by simp, mono hpos (snocU hp fun x hx => (hm x hx).2), fun x hx => ?_⟩
      rcases List.mem_append.mp hx with hx | hx
      · exact ⟨(hm x hx).1, (hm x hx).2.le⟩
      · rw [List.mem_singleton.mp hx]; exact ⟨hab, le_refl _⟩

/-- the values from 0 to 3 and back by steps of 2 -/
example : ∃ r : List ℚ, DGrid.withStep 3 .closed (.fin 0) (.fin 3) (.fin (2 : ℚ)) = some (.ok (r.map .fin)) ∧ r = [0, 2, 3] := by
  have a : (F64.fin (0 : ℚ)).add (.fin 2) = .fin 2 := DGrid.add_eq (2 ^ 52) (-51) (by norm_num) (by norm_num) (by norm_num) (by norm_num) (by left; norm_num) (by norm_num)
  have b : (F64.fin (2 : ℚ)).add (.fin 2) = .fin 4 := DGrid.add_eq (2 ^ 52) (-50) (by norm_num) (by norm_num) (by norm_num) (by norm_num) (by left; norm_num) (by norm_num)
  exact ⟨[0, 2, 3], by
    have h1 : (2 : ℚ) < 3 := by norm_num
    have h2 : ¬ (4 : ℚ) < 3 := by norm_num
    simp [DGrid.withStep, DGrid.up, F64.lt, F64.eq, a, b, h1, h2, -not_lt], rfl⟩

example : Valid (⟨.closed, some 0, some 3⟩ : Interval ℚ) ∧ Representable (0 : ℚ) ∧ Representable (3 : ℚ) :=
  ⟨⟨0, 3, rfl, rfl, Or.inl ⟨rfl, by norm_num⟩⟩, representable_zero, ⟨3, 0, by norm_num, by norm_num, by norm_num⟩⟩

/-- a positive step of at least about `2 ^ -52` of the bounds is never lost: the array is built; its values are off the exact ones by at most one rounding error
for each step, and they go up to the upper bound -/
theorem C110_returns_partial {t : IType} {a b s B : α} (ht : t ≠ .undefined) (ha : Representable a) (ha' : |a| < 2 ^ 1024) (hb' : |b| < 2 ^ 1024)
    (hs : 0 < s) (hsr : Representable s) (hB : B ≤ 2 ^ 52 * s) (haB : -B ≤ a) (hbB : b + s ≤ B) (hB0 : a + s ≤ B) :
    ∃ (n : ℕ) (r : List α) (o : ℕ), (o = if t = .opened ∨ t = .halfOpenLeft then 1 else 0) ∧
      DGrid.withStep n t (.fin a) (.fin b) (.fin s) = some (.ok (r.map .fin ++ if t = .closed ∨ t = .halfOpenLeft then [.fin b] else [])) ∧
      (∀ (i : ℕ) (x : α), r[i]? = some x → |x - (a + (i + o : ℕ) * s)| ≤ (i + o : ℕ) * (2 ^ (-53 : ℤ) * B)) ∧
      b ≤ a + (r.length + o : ℕ) * s + (r.length + o : ℕ) * (2 ^ (-53 : ℤ) * B) := by
  have unf : ∀ n, DGrid.withStep n t (.fin a) (.fin b) (.fin s) =
      (DGrid.up (.fin s) (.fin b) n (if t = .opened ∨ t = .halfOpenLeft then (F64.fin a).add (.fin s) else .fin a)).map
        fun l => .ok (l ++ if t = .closed ∨ t = .halfOpenLeft then [.fin b] else []) := by
    intro n
    unfold DGrid.withStep
    rw [if_neg (by simp [ht]), if_neg (by simp), if_neg (by simpa [F64.eq] using hs.ne'), if_pos (by simpa [F64.lt] using hs)]
  have rounds : ∀ v : α, ∃ k : ℕ, b ≤ v + k * (s / 2) := fun v => by
    have hk := Nat.le_ceil ((b - v) / (s / 2))
    rw [div_le_iff₀ (by positivity)] at hk
    exact ⟨_, sub_le_iff_le_add'.mp hk⟩
  by_cases ho : t = .opened ∨ t = .halfOpenLeft
  · simp only [if_pos ho] at unf ⊢
    have herr : |rnd (a + s) - (a + s)| ≤ 2 ^ (-53 : ℤ) * B := by
      refine (rnd_add_error ha hsr).trans ?_
      have := two_zpow_pos (α := α) (-53)
      have : |a + s| ≤ B := abs_le.mpr ⟨by linarith, hB0⟩
      gcongr
    have h1 := abs_le.mp herr
    have h2 := DGrid.half_step hB
    rcases DGrid.add_fin_cases a s with he | he
    · obtain ⟨k, hk⟩ := rounds (rnd (a + s))
      obtain ⟨r, hr, hacc, hcov⟩ := DGrid.up_run hs hsr hB hbB hb' k _ (rnd_representable _) (DGrid.add_fin_small he)
        (by have h5 := (abs_le.mp (herr.trans h2)).1; clear h1 h2 herr ha' hb' hB hk; linarith) hk
      refine ⟨k + 2, r, 1, rfl, ?_, ?_, ?_⟩
      · rw [unf, he, hr]; rfl
      · intro i x hx
        have := hacc i x hx
        rw [show x - (a + ((i + 1 : ℕ) : α) * s) = (x - (rnd (a + s) + i * s)) + (rnd (a + s) - (a + s)) by push_cast; ring]
        refine (abs_add_le _ _).trans ?_
        push_cast; linarith
      · push_cast; linarith
    · have hg := DGrid.add_inf_up hs ha ha' he
      rw [hg] at he
      refine ⟨1, [], 1, rfl, ?_, fun i x hx => by simp at hx, ?_⟩
      · rw [unf, he, DGrid.up, if_neg (c := (F64.inf false).lt (F64.fin b) = true) (by simp [F64.lt])]; rfl
      · rw [F64.add, F64.ofExact] at he
        split at he
        · rename_i hx
          have hnn : 0 ≤ a + s := not_lt.mp (of_decide_eq_false (F64.inf.inj he))
          rw [abs_of_nonneg (le_rnd representable_zero hnn)] at hx
          have h3 : b ≤ rnd (a + s) := (le_abs_self b).trans (hb'.le.trans hx)
          simp only [List.length_nil, zero_add, Nat.cast_one, one_mul]
          linarith
        · cases he
  · simp only [if_neg ho] at unf ⊢
    obtain ⟨k, hk⟩ := rounds a
    obtain ⟨r, hr, hacc, hcov⟩ := DGrid.up_run hs hsr hB hbB hb' k a ha ha' (by linarith) hk
    refine ⟨k + 2, r, 0, rfl, ?_, ?_, ?_⟩
    · rw [unf, hr]; rfl
    · simpa using hacc
    · simpa using hcov

example : ∃ s B : ℚ, 0 < s ∧ Representable s ∧ B ≤ 2 ^ 52 * s ∧ -B ≤ 1 ∧ 1000 + s ≤ B ∧ 1 + s ≤ B :=
  ⟨7205759403792794 * 2 ^ (-56 : ℤ), 1001, by norm_num, ⟨7205759403792794, -56, by norm_num, by norm_num, by norm_num⟩, by norm_num, by norm_num, by norm_num, by norm_num⟩

/-- the array for a negative step is the array for the opposite step in the interval turned around, turned around -/
theorem withStep_mirror {t t' : IType} {a b s : α} (ht : t ≠ .undefined)
    (ht' : t' = match t with | .halfOpenLeft => .halfOpenRight | .halfOpenRight => .halfOpenLeft | t => t) (hs : s < 0) (n : ℕ) :
    DGrid.withStep n t (.fin a) (.fin b) (.fin s) =
      (DGrid.withStep n t' (.fin (-b)) (.fin (-a)) (.fin (-s))).map (Except.map (List.map F64.neg)) := by
  have h1 : (F64.fin (0 : α)).lt (.fin s) = false := by simpa [F64.lt] using hs.le
  have h2 : (F64.fin (0 : α)).lt (.fin (-s)) = true := by simpa [F64.lt] using hs
  have h3 : (F64.fin s).eq (.fin 0) = false := by simpa [F64.eq] using hs.ne
  have h4 : (F64.fin (-s)).eq (.fin 0) = false := by simpa [F64.eq] using hs.ne
  have e1 : ∀ x : α, (F64.fin x).neg = .fin (-x) := fun x => rfl
  have e2 : ((F64.fin b).add (.fin s)).neg = (F64.fin (-b)).add (.fin (-s)) := by rw [← e1, ← e1, F64.add_neg]
  unfold DGrid.withStep
  cases t <;> simp only [ne_eq, not_true_eq_false, reduceCtorEq] at ht <;> subst ht' <;>
    simp [h1, h2, h3, h4, DGrid.down_mirror, e1, e2, Option.map_map, Function.comp_def, Except.map]

/-- a negative step of at least about `2 ^ -52` of the bounds is never lost either: the array is built from the upper bound down; its values are off the exact ones
by at most one rounding error for each step, and they go down to the lower bound -/
theorem C110_returns_down_partial {t : IType} {a b s B : α} (ht : t ≠ .undefined) (hb : Representable b) (ha' : |a| < 2 ^ 1024) (hb' : |b| < 2 ^ 1024)
    (hs : s < 0) (hsr : Representable s) (hB : B ≤ 2 ^ 52 * -s) (hbB : b ≤ B) (haB : -B ≤ a + s) (hB0 : -B ≤ b + s) :
    ∃ (n : ℕ) (r : List α) (o : ℕ), (o = if t = .opened ∨ t = .halfOpenRight then 1 else 0) ∧
      DGrid.withStep n t (.fin a) (.fin b) (.fin s) = some (.ok (r.map .fin ++ if t = .closed ∨ t = .halfOpenRight then [.fin a] else [])) ∧
      (∀ (i : ℕ) (x : α), r[i]? = some x → |x - (b + (i + o : ℕ) * s)| ≤ (i + o : ℕ) * (2 ^ (-53 : ℤ) * B)) ∧
      b + (r.length + o : ℕ) * s - (r.length + o : ℕ) * (2 ^ (-53 : ℤ) * B) ≤ a := by
  obtain ⟨t', ht'⟩ : ∃ t' : IType, t' = match t with | .halfOpenLeft => .halfOpenRight | .halfOpenRight => .halfOpenLeft | t => t := ⟨_, rfl⟩
  have hu : t' ≠ .undefined := by subst ht'; cases t <;> first | exact absurd rfl ht | simp
  have c1 : (t' = .opened ∨ t' = .halfOpenLeft) ↔ (t = .opened ∨ t = .halfOpenRight) := by subst ht'; cases t <;> simp
  have c2 : (t' = .closed ∨ t' = .halfOpenLeft) ↔ (t = .closed ∨ t = .halfOpenRight) := by subst ht'; cases t <;> simp
  obtain ⟨n, r, o, ho, hr, hacc, hcov⟩ := C110_returns_partial (t := t') (a := -b) (b := -a) (s := -s) (B := B) hu (representable_neg hb)
    (by rwa [abs_neg]) (by rwa [abs_neg]) (by linarith) (representable_neg hsr) hB (by linarith) (by linarith) (by linarith)
  simp only [c1, c2] at ho hr
  refine ⟨n, r.map (fun x => -x), o, ho, ?_, ?_, ?_⟩
  · rw [withStep_mirror ht ht' hs, hr]
    simp only [Option.map_some, Except.map, List.map_append, List.map_map]
    split_ifs <;> simp [Function.comp_def, F64.neg]
  · intro i x hx
    rw [List.getElem?_map, Option.map_eq_some_iff] at hx
    obtain ⟨y, hy, rfl⟩ := hx
    have := hacc i y hy
    rw [show -y - (b + ((i + o : ℕ) : α) * s) = -(y - (-b + ((i + o : ℕ) : α) * -s)) by ring, abs_neg]
    exact this
  · rw [List.length_map]
    linarith

example : ∃ s B : ℚ, s < 0 ∧ Representable s ∧ B ≤ 2 ^ 52 * -s ∧ 1000 ≤ B ∧ -B ≤ 1 + s ∧ -B ≤ 1000 + s :=
  ⟨-(7205759403792794 * 2 ^ (-56 : ℤ)), 1001, by norm_num, representable_neg ⟨7205759403792794, -56, by norm_num, by norm_num, by norm_num⟩,
    by norm_num, by norm_num, by norm_num, by norm_num⟩

/-- the step is lost: from a lower bound that is `2 ^ 55` times the step or more the loop never ends -/
theorem C110_stuck_violated {t : IType} {a b s : α} (ht : t ≠ .undefined) (hab : a < b) (ha : Representable a) (ha' : |a| < 2 ^ 1024)
    (hs : 0 < s) (h : 2 ^ 55 * s ≤ |a|) (n : ℕ) : DGrid.withStep n t (.fin a) (.fin b) (.fin s) = none := by
  have h1 := rnd_absorb ha (d := s) (by rwa [abs_of_pos hs])
  have h2 : (F64.fin a).add (.fin s) = .fin a := by rw [F64.add, F64.ofExact_fin (by rwa [h1]), h1]
  unfold DGrid.withStep
  rw [if_neg (by simpa using ht), if_neg (by simp), if_neg (by simpa [F64.eq] using hs.ne'), if_pos (by simpa [F64.lt] using hs)]
  rw [h2, ite_self, DGrid.up_stuck (by simpa [F64.lt] using hab) h2]
  rfl

/-- a step of one from `2 ^ 60` -/
example (n : ℕ) : DGrid.withStep n .closed (.fin (2 ^ 60 : ℚ)) (.fin (2 ^ 60 + 2 ^ 10)) (.fin 1) = none :=
  C110_stuck_violated (by simp) (by norm_num) ⟨1, 60, by norm_num, by norm_num, by norm_num⟩
    (by rw [abs_of_pos (by positivity)]; exact pow_lt_pow_right₀ one_lt_two (by norm_num)) (by norm_num) (by norm_num) n

/-- with a lower bound of minus infinity and a positive step the loop never ends -/
theorem C110_infinite_violated {t : IType} {b s : α} (ht : t ≠ .undefined) (hs : 0 < s) (n : ℕ) :
    DGrid.withStep n t (.inf true) (.fin b) (.fin s) = none := by
  unfold DGrid.withStep
  rw [if_neg (by simpa using ht), if_neg (by simp), if_neg (by simpa [F64.eq] using hs.ne'), if_pos (by simpa [F64.lt] using hs)]
  have : (if t = .opened ∨ t = .halfOpenLeft then (F64.inf true : F64 α).add (.fin s) else .inf true) = .inf true := by split <;> rfl
  rw [this, DGrid.up_stuck rfl rfl]
  rfl

/-- the closed interval from 0 to 1 with the step that is the double nearest to 0.1 gives twelve values instead of eleven: the sum of ten steps is less than 1 -/
theorem C110_extra_violated : ∃ (s y : α) (l : List (F64 α)), s = 7205759403792794 * 2 ^ (-56 : ℤ) ∧ (1 : α) < 10 * s ∧ y < 1 ∧
    (∀ n, DGrid.withStep (n + 12) .closed (.fin 0) (.fin 1) (.fin s) = some (.ok l)) ∧ l.length = 12 ∧ l[10]? = some (.fin y) ∧ l[11]? = some (.fin 1) := by
  have a0 : (F64.fin (0 : α)).add (.fin (7205759403792794 * 2 ^ (-56 : ℤ))) = .fin (7205759403792794 * 2 ^ (-56 : ℤ)) :=
    DGrid.add_eq 7205759403792794 (-56) (by norm_num) (by norm_num) (by rw [abs_of_pos] <;> norm_num) (by rw [abs_of_pos] <;> norm_num)
      (by left; rw [abs_lt]; constructor <;> norm_num) (by rw [abs_of_pos] <;> norm_num)
  have a1 : (F64.fin ((7205759403792794 * 2 ^ (-56 : ℤ) : α))).add (.fin (7205759403792794 * 2 ^ (-56 : ℤ))) = .fin (7205759403792794 * 2 ^ (-55 : ℤ)) :=
    DGrid.add_eq 7205759403792794 (-55) (by norm_num) (by norm_num) (by rw [abs_of_pos] <;> norm_num) (by rw [abs_of_pos] <;> norm_num)
      (by left; rw [abs_lt]; constructor <;> norm_num) (by rw [abs_of_pos] <;> norm_num)
  have a2 : (F64.fin ((7205759403792794 * 2 ^ (-55 : ℤ) : α))).add (.fin (7205759403792794 * 2 ^ (-56 : ℤ))) = .fin (5404319552844596 * 2 ^ (-54 : ℤ)) :=
    DGrid.add_eq 5404319552844596 (-54) (by norm_num) (by norm_num) (by rw [abs_of_pos] <;> norm_num) (by rw [abs_of_pos] <;> norm_num)
      (by right; constructor <;> norm_num [abs_of_pos, abs_of_neg]) (by rw [abs_of_pos] <;> norm_num)
  have a3 : (F64.fin ((5404319552844596 * 2 ^ (-54 : ℤ) : α))).add (.fin (7205759403792794 * 2 ^ (-56 : ℤ))) = .fin (7205759403792794 * 2 ^ (-54 : ℤ)) :=
    DGrid.add_eq 7205759403792794 (-54) (by norm_num) (by norm_num) (by rw [abs_of_pos] <;> norm_num) (by rw [abs_of_pos] <;> norm_num)
      (by right; constructor <;> norm_num [abs_of_pos, abs_of_neg]) (by rw [abs_of_pos] <;> norm_num)
  have a4 : (F64.fin ((7205759403792794 * 2 ^ (-54 : ℤ) : α))).add (.fin (7205759403792794 * 2 ^ (-56 : ℤ))) = .fin (4503599627370496 * 2 ^ (-53 : ℤ)) :=
    DGrid.add_eq 4503599627370496 (-53) (by norm_num) (by norm_num) (by rw [abs_of_pos] <;> norm_num) (by rw [abs_of_pos] <;> norm_num)
      (by left; rw [abs_lt]; constructor <;> norm_num) (by rw [abs_of_pos] <;> norm_num)
  have a5 : (F64.fin ((4503599627370496 * 2 ^ (-53 : ℤ) : α))).add (.fin (7205759403792794 * 2 ^ (-56 : ℤ))) = .fin (5404319552844595 * 2 ^ (-53 : ℤ)) :=
    DGrid.add_eq 5404319552844595 (-53) (by norm_num) (by norm_num) (by rw [abs_of_pos] <;> norm_num) (by rw [abs_of_pos] <;> norm_num)
      (by left; rw [abs_lt]; constructor <;> norm_num) (by rw [abs_of_pos] <;> norm_num)
  have a6 : (F64.fin ((5404319552844595 * 2 ^ (-53 : ℤ) : α))).add (.fin (7205759403792794 * 2 ^ (-56 : ℤ))) = .fin (6305039478318694 * 2 ^ (-53 : ℤ)) :=
    DGrid.add_eq 6305039478318694 (-53) (by norm_num) (by norm_num) (by rw [abs_of_pos] <;> norm_num) (by rw [abs_of_pos] <;> norm_num)
      (by left; rw [abs_lt]; constructor <;> norm_num) (by rw [abs_of_pos] <;> norm_num)
  have a7 : (F64.fin ((6305039478318694 * 2 ^ (-53 : ℤ) : α))).add (.fin (7205759403792794 * 2 ^ (-56 : ℤ))) = .fin (7205759403792793 * 2 ^ (-53 : ℤ)) :=
    DGrid.add_eq 7205759403792793 (-53) (by norm_num) (by norm_num) (by rw [abs_of_pos] <;> norm_num) (by rw [abs_of_pos] <;> norm_num)
      (by left; rw [abs_lt]; constructor <;> norm_num) (by rw [abs_of_pos] <;> norm_num)
  have a8 : (F64.fin ((7205759403792793 * 2 ^ (-53 : ℤ) : α))).add (.fin (7205759403792794 * 2 ^ (-56 : ℤ))) = .fin (8106479329266892 * 2 ^ (-53 : ℤ)) :=
    DGrid.add_eq 8106479329266892 (-53) (by norm_num) (by norm_num) (by rw [abs_of_pos] <;> norm_num) (by rw [abs_of_pos] <;> norm_num)
      (by left; rw [abs_lt]; constructor <;> norm_num) (by rw [abs_of_pos] <;> norm_num)
  have a9 : (F64.fin ((8106479329266892 * 2 ^ (-53 : ℤ) : α))).add (.fin (7205759403792794 * 2 ^ (-56 : ℤ))) = .fin (9007199254740991 * 2 ^ (-53 : ℤ)) :=
    DGrid.add_eq 9007199254740991 (-53) (by norm_num) (by norm_num) (by rw [abs_of_pos] <;> norm_num) (by rw [abs_of_pos] <;> norm_num)
      (by left; rw [abs_lt]; constructor <;> norm_num) (by rw [abs_of_pos] <;> norm_num)
  have a10 : (F64.fin ((9007199254740991 * 2 ^ (-53 : ℤ) : α))).add (.fin (7205759403792794 * 2 ^ (-56 : ℤ))) = .fin (4953959590107545 * 2 ^ (-52 : ℤ)) :=
    DGrid.add_eq 4953959590107545 (-52) (by norm_num) (by norm_num) (by rw [abs_of_pos] <;> norm_num) (by rw [abs_of_pos] <;> norm_num)
      (by left; rw [abs_lt]; constructor <;> norm_num) (by rw [abs_of_pos] <;> norm_num)
  have t0 : (F64.fin (0 : α)).lt (.fin 1) = true := by rw [F64.lt]; exact decide_eq_true (by norm_num)
  have t1 : (F64.fin (7205759403792794 * 2 ^ (-56 : ℤ) : α)).lt (.fin 1) = true := by rw [F64.lt]; exact decide_eq_true (by norm_num)
  have t2 : (F64.fin (7205759403792794 * 2 ^ (-55 : ℤ) : α)).lt (.fin 1) = true := by rw [F64.lt]; exact decide_eq_true (by norm_num)
  have t3 : (F64.fin (5404319552844596 * 2 ^ (-54 : ℤ) : α)).lt (.fin 1) = true := by rw [F64.lt]; exact decide_eq_true (by norm_num)
  have t4 : (F64.fin (7205759403792794 * 2 ^ (-54 : ℤ) : α)).lt (.fin 1) = true := by rw [F64.lt]; exact decide_eq_true (by norm_num)
  have t5 : (F64.fin (4503599627370496 * 2 ^ (-53 : ℤ) : α)).lt (.fin 1) = true := by rw [F64.lt]; exact decide_eq_true (by norm_num)
  have t6 : (F64.fin (5404319552844595 * 2 ^ (-53 : ℤ) : α)).lt (.fin 1) = true := by rw [F64.lt]; exact decide_eq_true (by norm_num)
  have t7 : (F64.fin (6305039478318694 * 2 ^ (-53 : ℤ) : α)).lt (.fin 1) = true := by rw [F64.lt]; exact decide_eq_true (by norm_num)
  have t8 : (F64.fin (7205759403792793 * 2 ^ (-53 : ℤ) : α)).lt (.fin 1) = true := by rw [F64.lt]; exact decide_eq_true (by norm_num)
  have t9 : (F64.fin (8106479329266892 * 2 ^ (-53 : ℤ) : α)).lt (.fin 1) = true := by rw [F64.lt]; exact decide_eq_true (by norm_num)
  have t10 : (F64.fin (9007199254740991 * 2 ^ (-53 : ℤ) : α)).lt (.fin 1) = true := by rw [F64.lt]; exact decide_eq_true (by norm_num)
  have t11 : ¬ (F64.fin (4953959590107545 * 2 ^ (-52 : ℤ) : α)).lt (.fin 1) = true := by rw [F64.lt, decide_eq_true_eq]; norm_num
  have e12 : ∀ n, DGrid.up (.fin (7205759403792794 * 2 ^ (-56 : ℤ) : α)) (.fin 1) (n + 1) (.fin (4953959590107545 * 2 ^ (-52 : ℤ))) = some [] := fun n => by rw [DGrid.up, if_neg t11]
  refine ⟨_, 9007199254740991 * 2 ^ (-53 : ℤ), [.fin 0, .fin (7205759403792794 * 2 ^ (-56 : ℤ)), .fin (7205759403792794 * 2 ^ (-55 : ℤ)), .fin (5404319552844596 * 2 ^ (-54 : ℤ)), .fin (7205759403792794 * 2 ^ (-54 : ℤ)), .fin (4503599627370496 * 2 ^ (-53 : ℤ)),
    .fin (5404319552844595 * 2 ^ (-53 : ℤ)), .fin (6305039478318694 * 2 ^ (-53 : ℤ)), .fin (7205759403792793 * 2 ^ (-53 : ℤ)), .fin (8106479329266892 * 2 ^ (-53 : ℤ)), .fin (9007199254740991 * 2 ^ (-53 : ℤ)), .fin 1],
    rfl, by norm_num, by norm_num, fun n => ?_, ?_⟩
  · unfold DGrid.withStep
    rw [if_neg (by simp), if_neg (by simp), if_neg (by simp [F64.eq]), if_pos (by rw [F64.lt]; exact decide_eq_true (by norm_num)),
      if_neg (c := IType.closed = .opened ∨ IType.closed = .halfOpenLeft) (by simp), show n + 12 = n + 1 + 1 + 1 + 1 + 1 + 1 + 1 + 1 + 1 + 1 + 1 + 1 from rfl]
    rw [(DGrid.up_step (t0) a0 (DGrid.up_step (t1) a1 (DGrid.up_step (t2) a2 (DGrid.up_step (t3) a3 (DGrid.up_step (t4) a4 (DGrid.up_step (t5) a5 (DGrid.up_step (t6) a6 (DGrid.up_step (t7) a7 (DGrid.up_step (t8) a8 (DGrid.up_step (t9) a9 (DGrid.up_step (t10) a10 (e12 n))))))))))))]
    rfl
  · exact ⟨rfl, rfl, rfl⟩

/-- `generateArrayWithSize` always gives as many values as asked for, and they never go back; when the lower bound is included it is the first one -/
theorem C111_shape {t : IType} {a b : α} {n : ℕ} (ht : t ≠ .undefined) (hn : 2 ≤ n) (hn' : n < 2 ^ 64) (hab : a ≤ b) (ha : Representable a) (ha' : |a| < 2 ^ 1024) :
    ∃ l, DGrid.withSize t (.fin a) (.fin b) n = .ok l ∧ l.length = n ∧ l.IsChain (fun x y => x.le y = true) ∧ (∀ x ∈ l, (F64.fin a).le x = true) ∧
      (t = .closed ∨ t = .halfOpenRight → l.head? = some (.fin a)) := by
  have step : ∀ k : ℕ, 0 < k → k ≤ n + 1 → DGrid.Up (((F64.fin b).sub (.fin a)).div (.ofExact (k : α))) := fun k hk hk' =>
    DGrid.up_step_size hab (by exact_mod_cast hk) (by
      have : k ≤ 2 ^ 100 := by omega
      exact_mod_cast this)
  have val : (F64.fin a).Valid := ⟨ha, ha'⟩
  unfold DGrid.withSize
  rw [if_neg (by omega), if_neg ht, if_neg (by simp)]
  have at_a : ∀ s, DGrid.Up s → (DGrid.fill s n (F64.fin a)).length = n ∧ (DGrid.fill s n (F64.fin a)).IsChain (fun x y => x.le y = true) ∧
      (∀ x ∈ DGrid.fill s n (F64.fin a), (F64.fin a).le x = true) ∧ (DGrid.fill s n (F64.fin a)).head? = some (.fin a) := fun s hs =>
    ⟨DGrid.fill_length _ _ _, DGrid.fill_chain hs n val rfl, DGrid.fill_above hs n val rfl, by
      obtain ⟨m, rfl⟩ : ∃ m, n = m + 1 := ⟨n - 1, by omega⟩
      rfl⟩
  have after_a : ∀ s, DGrid.Up s → (DGrid.fill s n ((F64.fin a).add s)).length = n ∧
      (DGrid.fill s n ((F64.fin a).add s)).IsChain (fun x y => x.le y = true) ∧
      (∀ x ∈ DGrid.fill s n ((F64.fin a).add s), (F64.fin a).le x = true) := fun s hs => by
    obtain ⟨h1, h2, h3⟩ := DGrid.add_up hs val rfl
    exact ⟨DGrid.fill_length _ _ _, DGrid.fill_chain hs n h1 h2, fun x hx => DGrid.le_trans_fin h3 (DGrid.fill_above hs n h1 h2 x hx)⟩
  cases t with
  | undefined => exact absurd rfl ht
  | closed =>
    obtain ⟨h1, h2, h3, h4⟩ := at_a _ (step (n - 1) (by omega) (by omega))
    exact ⟨_, rfl, h1, h2, h3, fun _ => h4⟩
  | opened =>
    obtain ⟨h1, h2, h3⟩ := after_a _ (step (n + 1) (by omega) (by omega))
    exact ⟨_, rfl, h1, h2, h3, fun h => by simp at h⟩
  | halfOpenLeft =>
    obtain ⟨h1, h2, h3⟩ := after_a _ (step n (by omega) (by omega))
    exact ⟨_, rfl, h1, h2, h3, fun h => by simp at h⟩
  | halfOpenRight =>
    obtain ⟨h1, h2, h3, h4⟩ := at_a _ (step n (by omega) (by omega))
    exact ⟨_, rfl, h1, h2, h3, fun _ => h4⟩

/-- the values are off the exact ones by at most twelve roundings of the greater bound for each step, so none of them is far out of the interval -/
theorem C111_accuracy_partial {t : IType} {a b M h : α} {n k o : ℕ} (hn : 2 ≤ n) (hn' : n < 2 ^ 47) (ha : Representable a) (haM : |a| ≤ M) (hbM : |b| ≤ M)
    (hM : 16 * M < 2 ^ 1024) (hb : Representable b) (hab : 2 ^ (-960 : ℤ) ≤ b - a)
    (hk : (t, k, o) = (.closed, n - 1, 0) ∨ (t, k, o) = (.opened, n + 1, 1) ∨ (t, k, o) = (.halfOpenLeft, n, 1) ∨ (t, k, o) = (.halfOpenRight, n, 0))
    (hh : h * k = b - a) :
    ∃ r : List α, DGrid.withSize t (.fin a) (.fin b) n = .ok (r.map .fin) ∧ r.length = n ∧
      ∀ (i : ℕ) (x : α), r[i]? = some x → |x - (a + (i + o : ℕ) * h)| ≤ (i + o : ℕ) * (12 * 2 ^ (-53 : ℤ) * M) := by
  have hk1 : 1 ≤ k ∧ k ≤ n + 1 ∧ n ≤ 2 * k ∧ n + o ≤ 2 * k := by
    rcases hk with h | h | h | h <;> (obtain ⟨-, h1, h2⟩ := (by simpa using h : _ ∧ k = _ ∧ o = _); omega)
  have hsize : ∃ s, ((F64.fin b).sub (.fin a)).div (.ofExact (k : α)) = .fin s ∧ Representable s ∧ |s - h| ≤ 3 * 2 ^ (-53 : ℤ) * h := by
    exact DGrid.size_step ha hb (by omega) (by omega) hab haM hbM hM hh
  obtain ⟨s, hs, hsr, hsh⟩ := hsize
  have hkc : (1 : α) ≤ (k : α) := by exact_mod_cast hk1.1
  have hpos : 0 < b - a := lt_of_lt_of_le (two_zpow_pos _) hab
  have h0 : 0 < h := by
    by_contra hc
    have := mul_nonpos_of_nonpos_of_nonneg (not_lt.mp hc) (by linarith : (0 : α) ≤ k)
    exact absurd hpos (not_lt.mpr (hh ▸ this))
  have hM' : (b - a) ≤ 2 * M := by
    have h1 := abs_le.mp haM
    have h2 := abs_le.mp hbM
    clear hM hab
    linarith
  have htot : ((n + o : ℕ) : α) * h ≤ 4 * M := by
    have h1 : ((n + o : ℕ) : α) ≤ 2 * k := by exact_mod_cast hk1.2.2.2
    have h2 : ((n + o : ℕ) : α) * h ≤ 2 * k * h := mul_le_mul_of_nonneg_right h1 h0.le
    clear hM hab
    linarith
  have hh2 : h ≤ 2 * M := by
    have : h ≤ h * k := by
      have := mul_le_mul_of_nonneg_left hkc h0.le
      simpa using this
    clear hM hab
    linarith
  have unf : DGrid.withSize t (.fin a) (.fin b) n = .ok (DGrid.fill (.fin s) n (if o = 1 then (F64.fin a).add (.fin s) else .fin a)) := by
    unfold DGrid.withSize
    rw [if_neg (by omega), if_neg (by rcases hk with h | h | h | h <;> (cases h; simp)), if_neg (by simp)]
    rcases hk with h | h | h | h <;> cases h <;> dsimp only <;> rw [hs] <;> rfl
  rw [unf]
  by_cases ho : o = 1
  · subst ho
    rw [if_pos rfl]
    -- the first value after an excluded bound is the second of the sequence that starts at the bound
    obtain ⟨r, hr, hl, hacc⟩ := DGrid.fill_run hsr hsh h0 haM hh2 hM (n + 1) 0 a ha (by simp) (by rwa [zero_add]) (by omega)
    rw [DGrid.fill] at hr
    cases r with
    | nil => simp at hr
    | cons y r =>
      simp only [List.map_cons, List.cons.injEq] at hr
      refine ⟨r, by rw [hr.2], by simpa using hl, fun i x hx => ?_⟩
      have := hacc (i + 1) x (by simpa using hx)
      simpa using this
  · have ho : o = 0 := by rcases hk with h | h | h | h <;> (cases h; first | rfl | exact absurd rfl ho)
    subst ho
    rw [if_neg (by simp)]
    obtain ⟨r, hr, hl, hacc⟩ := DGrid.fill_run hsr hsh h0 haM hh2 hM n 0 a ha (by simp) (by rwa [zero_add]) (by omega)
    exact ⟨r, by rw [hr], hl, hacc⟩

example : ∃ h : ℚ, (2 : ℚ) ^ (-960 : ℤ) ≤ 3 - 1 ∧ 16 * (3 : ℚ) < 2 ^ 1024 ∧ h * ((5 - 1 : ℕ) : ℚ) = 3 - 1 :=
  ⟨1 / 2, (zpow_le_one_of_nonpos₀ (by norm_num) (by norm_num)).trans (by norm_num),
    lt_of_lt_of_le (b := 2 ^ 100) (by norm_num) (pow_le_pow_right₀ (by norm_num) (by norm_num)), by norm_num⟩

/-- the closed interval from 0 to the double nearest to 3.1 divided with four values: the last one is greater than the upper bound -/
theorem C111_beyond_violated : ∃ (b y : α) (l : List (F64 α)), b = 6980579422424269 * 2 ^ (-51 : ℤ) ∧ DGrid.withSize .closed (.fin 0) (.fin b) 4 = .ok l ∧ l[3]? = some (.fin y) ∧ b < y := by
  have a0 : (F64.fin (6980579422424269 * 2 ^ (-51 : ℤ) : α)).sub (.fin 0) = .fin (6980579422424269 * 2 ^ (-51 : ℤ)) := by
    rw [F64.sub, F64.neg, neg_zero]
    exact DGrid.add_eq 6980579422424269 (-51) (by norm_num) (by norm_num) (by rw [abs_of_pos] <;> norm_num) (by rw [abs_of_pos] <;> norm_num)
      (by left; rw [abs_lt]; constructor <;> norm_num) (by rw [abs_of_pos] <;> norm_num)
  have a1 : (F64.ofExact ((4 - 1 : ℕ) : α)) = .fin 3 := by
    rw [show 4 - 1 = 3 from rfl]
    have h : rnd (3 : α) = 3 := rnd_exact ⟨3, 0, by norm_num, by norm_num, by norm_num⟩
    rw [Nat.cast_ofNat]
    rw [F64.ofExact_fin] <;> rw [h]
    exact lt_of_le_of_lt (b := 2 ^ 100) (by rw [abs_of_pos] <;> norm_num) (pow_lt_pow_right₀ one_lt_two (by norm_num))
  have a2 : (F64.fin (6980579422424269 * 2 ^ (-51 : ℤ) : α)).div (.fin 3) = .fin (4653719614949513 * 2 ^ (-52 : ℤ)) := by
    rw [F64.div, if_neg (by norm_num)]
    have h := DGrid.add_eq (x := (6980579422424269 * 2 ^ (-51 : ℤ) : α) / 3) (y := 0) (z := 4653719614949513 * 2 ^ (-52 : ℤ)) 4653719614949513 (-52) (by norm_num) (by norm_num) (by rw [abs_of_pos] <;> norm_num) (by rw [abs_of_pos] <;> norm_num)
      (by left; rw [abs_lt]; constructor <;> norm_num) (by rw [abs_of_pos] <;> norm_num)
    rwa [F64.add, add_zero] at h
  have b0 : (F64.fin (0 : α)).add (.fin (4653719614949513 * 2 ^ (-52 : ℤ))) = .fin (4653719614949513 * 2 ^ (-52 : ℤ)) :=
    DGrid.add_eq 4653719614949513 (-52) (by norm_num) (by norm_num) (by rw [abs_of_pos] <;> norm_num) (by rw [abs_of_pos] <;> norm_num)
      (by left; rw [abs_lt]; constructor <;> norm_num) (by rw [abs_of_pos] <;> norm_num)
  have b1 : (F64.fin (4653719614949513 * 2 ^ (-52 : ℤ) : α)).add (.fin (4653719614949513 * 2 ^ (-52 : ℤ))) = .fin (4653719614949513 * 2 ^ (-51 : ℤ)) :=
    DGrid.add_eq 4653719614949513 (-51) (by norm_num) (by norm_num) (by rw [abs_of_pos] <;> norm_num) (by rw [abs_of_pos] <;> norm_num)
      (by left; rw [abs_lt]; constructor <;> norm_num) (by rw [abs_of_pos] <;> norm_num)
  have b2 : (F64.fin (4653719614949513 * 2 ^ (-51 : ℤ) : α)).add (.fin (4653719614949513 * 2 ^ (-52 : ℤ))) = .fin (6980579422424270 * 2 ^ (-51 : ℤ)) :=
    DGrid.add_eq 6980579422424270 (-51) (by norm_num) (by norm_num) (by rw [abs_of_pos] <;> norm_num) (by rw [abs_of_pos] <;> norm_num)
      (by right; constructor <;> norm_num [abs_of_pos, abs_of_neg]) (by rw [abs_of_pos] <;> norm_num)
  refine ⟨6980579422424269 * 2 ^ (-51 : ℤ), 6980579422424270 * 2 ^ (-51 : ℤ), [.fin 0, .fin (4653719614949513 * 2 ^ (-52 : ℤ)), .fin (4653719614949513 * 2 ^ (-51 : ℤ)), .fin (6980579422424270 * 2 ^ (-51 : ℤ))], rfl, ?_, rfl, by norm_num⟩
  unfold DGrid.withSize
  rw [if_neg (by omega), if_neg (by simp), if_neg (by simp)]
  dsimp only
  rw [a0, a1, a2, DGrid.fill, b0, DGrid.fill, b1, DGrid.fill, b2]
  rfl

/-- the width of an interval can overflow: every value after the first is infinite -/
theorem C111_overflow_violated : DGrid.withSize .closed (.fin (-(2 ^ 1023) : α)) (.fin (2 ^ 1023)) 3 = .ok [.fin (-(2 ^ 1023)), .inf false, .inf false] := by
  have e : (2 ^ 1023 : α) + 2 ^ 1023 = 2 ^ 1024 := by rw [← two_mul, ← pow_succ']
  have h : rnd (2 ^ 1024 : α) = 2 ^ 1024 := by
    refine rnd_exact ?_
    have := F64.representable_pow (α := α) (e := 1024) (by norm_num)
    rwa [show ((1024 : ℤ)) = ((1024 : ℕ) : ℤ) from rfl, zpow_natCast] at this
  have p : (0 : α) < 2 ^ 1024 := pow_pos two_pos _
  have s : (F64.fin (2 ^ 1023 : α)).sub (.fin (-(2 ^ 1023))) = .inf false := by
    rw [F64.sub, F64.neg, neg_neg, F64.add, e, F64.ofExact, if_pos (by rw [h, abs_of_pos p]), decide_eq_false (not_lt.mpr p.le)]
  have a1 : (F64.ofExact ((3 - 1 : ℕ) : α)) = .fin 2 := by
    rw [show 3 - 1 = 2 from rfl]
    have h : rnd (2 : α) = 2 := rnd_exact ⟨2, 0, by norm_num, by norm_num, by norm_num⟩
    rw [Nat.cast_ofNat]
    rw [F64.ofExact_fin] <;> rw [h]
    exact lt_of_le_of_lt (b := 2 ^ 100) (by rw [abs_of_pos] <;> norm_num) (pow_lt_pow_right₀ one_lt_two (by norm_num))
  unfold DGrid.withSize
  rw [if_neg (by omega), if_neg (by simp), if_neg (by simp)]
  dsimp only
  rw [s, a1]
  have d : (F64.inf false : F64 α).div (.fin 2) = .inf false := by
    rw [F64.div, decide_eq_false (by norm_num)]; rfl
  rw [d]
  rfl

end Verif.Props
