import Mathlib.Data.List.Chain
import Verif.Model.IntervalGrid

/-! # Lemmas on the grid loops of `Interval` -/

namespace Verif.Interval

set_option linter.unusedSectionVars false

variable {K : Type} [Field K] [LinearOrder K] [IsStrictOrderedRing K] [FloorRing K]

theorem mem_upLoop (s b : K) (h : 0 < s) (v x : K) :
    x ∈ upLoop s b h v ↔ x < b ∧ ∃ k : ℕ, x = v + k * s := by
  induction v using upLoop.induct s b h with
  | case1 v hv ih =>
    rw [upLoop, dif_pos hv, List.mem_cons, ih]
    constructor
    · rintro (rfl | ⟨h1, k, rfl⟩)
      · exact ⟨hv, 0, by simp⟩
      · exact ⟨h1, k + 1, by push_cast; ring⟩
    · rintro ⟨h1, k, rfl⟩
      cases k with
      | zero => left; simp
      | succ k => exact Or.inr ⟨h1, k, by push_cast; ring⟩
  | case2 v hv =>
    rw [upLoop, dif_neg hv]
    simp only [List.not_mem_nil, false_iff, not_and, not_exists]
    rintro h1 k rfl
    have : 0 ≤ (k : K) * s := by positivity
    exact hv (by linarith)

theorem upLoop_chain (s b : K) (h : 0 < s) (v : K) : (upLoop s b h v).IsChain (fun x y => y = x + s) := by
  induction v using upLoop.induct s b h with
  | case1 v hv ih =>
    rw [upLoop, dif_pos hv]
    rw [upLoop] at ih ⊢
    split_ifs at ih ⊢
    · exact List.isChain_cons_cons.2 ⟨rfl, ih⟩
    · exact List.IsChain.singleton _
  | case2 v hv =>
    rw [upLoop, dif_neg hv]
    exact List.IsChain.nil

theorem upLoop_pairwise (s b : K) (h : 0 < s) (v : K) : (upLoop s b h v).Pairwise (· < ·) := by
  induction v using upLoop.induct s b h with
  | case1 v hv ih =>
    rw [upLoop, dif_pos hv, List.pairwise_cons]
    refine ⟨fun y hy => ?_, ih⟩
    obtain ⟨-, k, rfl⟩ := (mem_upLoop _ _ _ _ _).1 hy
    have : 0 ≤ (k : K) * s := by positivity
    linarith
  | case2 v hv =>
    rw [upLoop, dif_neg hv]
    exact List.Pairwise.nil

/-- the last element plus one step is past the end -/
theorem upLoop_last (s b : K) (h : 0 < s) (v x : K) (hx : (upLoop s b h v).getLast? = some x) : b ≤ x + s := by
  have hm := List.mem_of_getLast? hx
  obtain ⟨h1, k, rfl⟩ := (mem_upLoop _ _ _ _ _).1 hm
  by_contra hlt
  rw [not_le] at hlt
  have h2 : v + k * s + s ∈ upLoop s b h v := (mem_upLoop _ _ _ _ _).2 ⟨hlt, k + 1, by push_cast; ring⟩
  have hp := upLoop_pairwise s b h v
  obtain ⟨ys, hys⟩ := List.getLast?_eq_some_iff.1 hx
  rw [hys] at h2 hp
  rw [List.pairwise_append] at hp
  rcases List.mem_append.1 h2 with h3 | h3
  · have := hp.2.2 _ h3 _ (List.mem_singleton.2 rfl)
    linarith
  · rw [List.mem_singleton] at h3
    linarith

theorem downLoop_eq (s a : K) (h : s < 0) (v : K) :
    downLoop s a h v = (upLoop (-s) (-a) (neg_pos.2 h) (-v)).map (fun x => -x) := by
  induction v using downLoop.induct s a h with
  | case1 v hv ih =>
    rw [downLoop, dif_pos hv, upLoop, dif_pos (neg_lt_neg hv), ih, List.map_cons, neg_neg, neg_add]
  | case2 v hv =>
    rw [downLoop, dif_neg hv, upLoop, dif_neg (by rwa [neg_lt_neg_iff]), List.map_nil]

theorem mem_downLoop (s a : K) (h : s < 0) (v x : K) :
    x ∈ downLoop s a h v ↔ a < x ∧ ∃ k : ℕ, x = v + k * s := by
  rw [downLoop_eq, List.mem_map]
  constructor
  · rintro ⟨y, hy, rfl⟩
    obtain ⟨h1, k, rfl⟩ := (mem_upLoop _ _ _ _ _).1 hy
    exact ⟨by linarith, k, by ring⟩
  · rintro ⟨h1, k, rfl⟩
    exact ⟨-(v + k * s), (mem_upLoop _ _ _ _ _).2 ⟨by linarith, k, by ring⟩, by ring⟩

theorem downLoop_chain (s a : K) (h : s < 0) (v : K) : (downLoop s a h v).IsChain (fun x y => y = x + s) := by
  rw [downLoop_eq, List.isChain_map]
  refine (upLoop_chain _ _ _ _).imp ?_
  intro x y hxy
  rw [hxy]; ring

theorem downLoop_pairwise (s a : K) (h : s < 0) (v : K) : (downLoop s a h v).Pairwise (· > ·) := by
  rw [downLoop_eq, List.pairwise_map]
  exact (upLoop_pairwise _ _ _ _).imp (fun h => neg_lt_neg h)

theorem downLoop_last (s a : K) (h : s < 0) (v x : K) (hx : (downLoop s a h v).getLast? = some x) : x + s ≤ a := by
  rw [downLoop_eq, List.getLast?_map, Option.map_eq_some_iff] at hx
  obtain ⟨y, hy, rfl⟩ := hx
  have := upLoop_last _ _ _ _ _ hy
  linarith

theorem fill_length (s : K) (n : ℕ) (v : K) : (fill s n v).length = n := by
  induction n generalizing v with
  | zero => rfl
  | succ n ih => rw [fill, List.length_cons, ih]

theorem fill_get (s : K) (n : ℕ) (v : K) (i : ℕ) (hi : i < n) : (fill s n v)[i]? = some (v + i * s) := by
  induction n generalizing v i with
  | zero => omega
  | succ n ih =>
    rw [fill]
    cases i with
    | zero => simp
    | succ i => rw [List.getElem?_cons_succ, ih _ _ (by omega)]; push_cast; congr 1; ring

end Verif.Interval
