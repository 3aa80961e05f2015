import Verif.Model.DoublePoints
import Verif.Props.DoubleDistance
import Verif.Props.DoubleDifference
import Verif.Props.DoubleTransform
import Verif.Lemmas.Points

/-! Lemmas for `Props/DoublePoints.lean` -/

namespace Verif.Props

open Verif Verif.Spec Verif.Double

theorem least_fold : ∀ (ds : List ℝ) (d : ℝ), ∃ r, (ds.map F64.fin).foldl (fun m x => if x.lt m then x else m) (.fin d) = .fin r ∧ r ∈ d :: ds ∧ ∀ x ∈ d :: ds, r ≤ x := by
  intro ds
  induction ds with
  | nil => exact fun d => ⟨d, rfl, by simp, by simp⟩
  | cons a ds ih =>
    intro d
    simp only [List.map_cons, List.foldl_cons, F64.lt, decide_eq_true_eq]
    by_cases h : a < d
    · rw [if_pos h]
      obtain ⟨r, e, hr, hl⟩ := ih a
      refine ⟨r, e, List.mem_cons_of_mem _ hr, fun x hx => ?_⟩
      rcases List.mem_cons.1 hx with rfl | hx
      · exact (hl a (by simp)).trans h.le
      · exact hl x hx
    · rw [if_neg h]
      obtain ⟨r, e, hr, hl⟩ := ih d
      refine ⟨r, e, ?_, fun x hx => ?_⟩
      · rcases List.mem_cons.1 hr with rfl | hr
        · simp
        · simp [hr]
      · rcases List.mem_cons.1 hx with rfl | hx
        · exact hl x (by simp)
        · rcases List.mem_cons.1 hx with rfl | hx
          · exact (hl d (by simp)).trans (not_lt.1 h)
          · exact hl x (by simp [hx])

theorem least_fin {ds : List ℝ} (h : ds ≠ []) : ∃ r, DPoints.minElement (ds.map .fin) = .ok (.fin r) ∧ r ∈ ds ∧ ∀ x ∈ ds, r ≤ x := by
  cases ds with
  | nil => exact absurd rfl h
  | cons d ds =>
    obtain ⟨r, e, h1, h2⟩ := least_fold ds d
    exact ⟨r, by rw [List.map_cons, DPoints.minElement, e], h1, h2⟩

/-- the computed square of the distance -/
noncomputable def sq3 (o : Bool) (q p : V3) : ℝ := DVec.dot3 o (rnd (q.x - p.x)) (rnd (q.y - p.y)) (rnd (q.z - p.z)) (rnd (q.x - p.x)) (rnd (q.y - p.y)) (rnd (q.z - p.z))

theorem sq3_fin (o : Bool) {q p : V3} (hq : Within q) (hp : Within p) : ((doubles q).sub (doubles p)).squaredNorm o = .fin (sq3 o q p) := by
  obtain ⟨e, b1, b2, b3⟩ := doubles_sub hq hp
  rw [e, DVec.squaredNorm, (DVec.dot_fin o b1 b2 b3 b1 b2 b3).1]
  rfl

theorem dist3_sq3 (o : Bool) (q p : V3) : dist3 o q p = rnd (Real.sqrt (sq3 o q p)) := rfl

theorem closest_loop (o : Bool) {p : V3} (hp : Within p) : ∀ (qs : List V3) (b : V3), (∀ q ∈ qs, Within q) → ∃ r ∈ b :: qs,
    DPoints.closestLoop o (doubles p) (some (doubles b)) (.fin (sq3 o b p)) (qs.map doubles) = .ok (some (doubles r)) ∧ ∀ x ∈ b :: qs, sq3 o r p ≤ sq3 o x p := by
  intro qs
  induction qs with
  | nil => exact fun b _ => ⟨b, by simp, rfl, by simp⟩
  | cons a qs ih =>
    intro b hq
    have hqs : ∀ q ∈ qs, Within q := fun q h => hq q (by simp [h])
    rw [List.map_cons, DPoints.closestLoop]
    simp only [doubles_defined, Bool.not_true, Bool.or_self, Bool.false_eq_true, if_false, sq3_fin o (hq a (by simp)) hp, F64.lt, decide_eq_true_eq, reduceCtorEq, false_or]
    by_cases h : sq3 o a p < sq3 o b p
    · rw [if_pos h]
      obtain ⟨r, hr, e, hl⟩ := ih a hqs
      refine ⟨r, List.mem_cons_of_mem _ hr, e, fun x hx => ?_⟩
      rcases List.mem_cons.1 hx with rfl | hx
      · exact (hl a (by simp)).trans h.le
      · exact hl x hx
    · rw [if_neg h]
      obtain ⟨r, hr, e, hl⟩ := ih b hqs
      refine ⟨r, ?_, e, fun x hx => ?_⟩
      · rcases List.mem_cons.1 hr with rfl | hr
        · simp
        · simp [hr]
      · rcases List.mem_cons.1 hx with rfl | hx
        · exact hl x (by simp)
        · rcases List.mem_cons.1 hx with rfl | hx
          · exact (hl b (by simp)).trans (not_lt.1 h)
          · exact hl x (by simp [hx])

theorem closest_fin (o : Bool) {p : V3} (hp : Within p) {qs : List V3} (h : qs ≠ []) (hq : ∀ q ∈ qs, Within q) :
    ∃ r ∈ qs, DPoints.getPointClosestTo o (qs.map doubles) (doubles p) = .ok (doubles r) ∧ ∀ x ∈ qs, sq3 o r p ≤ sq3 o x p := by
  cases qs with
  | nil => exact absurd rfl h
  | cons a qs =>
    obtain ⟨r, hr, e, hl⟩ := closest_loop o hp qs a (fun q h => hq q (by simp [h]))
    refine ⟨r, hr, ?_, hl⟩
    rw [DPoints.getPointClosestTo, List.map_cons, DPoints.closestLoop]
    simp only [doubles_defined, Bool.not_true, Bool.or_self, Bool.false_eq_true, if_false, sq3_fin o (hq a (by simp)) hp, true_or, if_true, List.isEmpty_cons]
    rw [e]
    rfl

theorem distance_set_fin (o : Bool) {p : V3} (hp : Within p) {qs : List V3} (h : qs ≠ []) (hq : ∀ q ∈ qs, Within q) :
    ∃ r, DPoints.distanceTo o (qs.map doubles) (doubles p) = .ok (.fin r) ∧ r ∈ qs.map (dist3 o p) ∧ ∀ x ∈ qs, r ≤ dist3 o p x := by
  obtain ⟨r, e, h1, h2⟩ := least_fin (ds := qs.map (dist3 o p)) (by simpa using h)
  refine ⟨r, ?_, h1, fun x hx => h2 _ (List.mem_map_of_mem hx)⟩
  have m : mapRes (fun q => DPoint.distanceTo o (doubles p) q) (qs.map doubles) = .ok ((qs.map (dist3 o p)).map .fin) := by
    rw [mapRes_map, mapRes_ok (g := fun q => F64.fin (dist3 o p q)) (fun q h => distance_fin o hp (hq q h)), List.map_map]
    rfl
  have ne : (qs.map doubles).isEmpty = false := by cases qs <;> simp at h ⊢
  rw [DPoints.distanceTo, doubles_defined, ne, m]
  exact e

/-- the exact distance of a finite set -/
theorem exact_distance (p : V3) : ∀ {qs : List V3}, qs ≠ [] → ∃ d, IsDistance {q | q ∈ qs} p d := by
  intro qs
  induction qs with
  | nil => exact fun h => absurd rfl h
  | cons a qs ih =>
    intro _
    by_cases h : qs = []
    · subst h
      exact ⟨_, ⟨a, by simp, rfl⟩, by simp⟩
    · obtain ⟨d, ⟨q, hq, e⟩, hl⟩ := ih h
      rcases le_total (a - p).norm d with k | k
      · refine ⟨_, ⟨a, by simp, rfl⟩, fun x hx => ?_⟩
        rcases List.mem_cons.1 hx with rfl | hx
        · exact le_rfl
        · exact k.trans (hl x hx)
      · refine ⟨d, ⟨q, List.mem_cons_of_mem _ hq, e⟩, fun x hx => ?_⟩
        rcases List.mem_cons.1 hx with rfl | hx
        · exact k
        · exact hl x hx

theorem dist_near (o : Bool) {p q : V3} (hp : Within p) (hq : Within q) : |dist3 o p q - (q - p).norm| ≤ 36 / 10 * DQuat.u * (q - p).norm + 2 ^ (-535 : ℤ) := by
  have := dist3_near o hp hq
  rwa [euclid_norm, V3.norm_sub_comm] at this

theorem eq_iff {a b : DVec} (h : a.isDefined = true) : a.eq b = true ↔ a = b := by
  obtain ⟨x, y, z⟩ := a
  obtain ⟨x', y', z'⟩ := b
  simp only [DVec.isDefined, decide_eq_true_eq] at h
  have k : ∀ {s t : F64 ℝ}, s ≠ .nan → (s.eq t = true ↔ s = t) := fun {s t} hs => by
    cases s <;> cases t <;> simp [F64.eq] at hs ⊢
  simp only [DVec.eq, Bool.and_eq_true, k h.1, k h.2.1, k h.2.2, DVec.mk.injEq, and_assoc]

theorem insert_all : ∀ (qs s : List DVec), (∀ q ∈ qs, q.isDefined = true) → s.Nodup → ∃ r, DPoints.insertAll s qs = .ok r ∧ r.Nodup ∧ (∀ q, q ∈ r ↔ q ∈ s ∨ q ∈ qs) := by
  intro qs
  induction qs with
  | nil => exact fun s _ hs => ⟨s, rfl, hs, by simp⟩
  | cons a qs ih =>
    intro s hd hs
    have ha := hd a (by simp)
    rw [DPoints.insertAll, ha]
    simp only [Bool.not_true, Bool.false_eq_true, if_false]
    have any : s.any (DVec.eq a) = true ↔ a ∈ s := by
      rw [List.any_eq_true]
      constructor
      · rintro ⟨x, hx, e⟩
        rwa [(eq_iff ha).1 e]
      · exact fun h => ⟨a, h, (eq_iff ha).2 rfl⟩
    by_cases h : a ∈ s
    · rw [if_pos (any.2 h)]
      obtain ⟨r, e, n, m⟩ := ih s (fun q h => hd q (by simp [h])) hs
      refine ⟨r, e, n, fun q => ?_⟩
      rw [m, List.mem_cons]
      constructor
      · rintro (k | k) <;> simp [k]
      · rintro (k | rfl | k)
        · exact Or.inl k
        · exact Or.inl h
        · exact Or.inr k
    · rw [if_neg (fun k => h (any.1 k))]
      obtain ⟨r, e, n, m⟩ := ih (s ++ [a]) (fun q h => hd q (by simp [h])) (by
        rw [List.nodup_append]
        refine ⟨hs, by simp, fun x hx y hy => ?_⟩
        rw [List.mem_singleton] at hy
        rintro rfl
        exact h (hy ▸ hx))
      refine ⟨r, e, n, fun q => ?_⟩
      rw [m, List.mem_append, List.mem_singleton, List.mem_cons, or_assoc]

theorem underflow_sq (w : ℝ) (hw : |w| ≤ 2 ^ (-540 : ℤ)) : rnd (rnd w * rnd w) = 0 := by
  have hr : Representable ((2 : ℝ) ^ (-540 : ℤ)) := F64.representable_pow (by norm_num)
  have h1 := DLinear.rnd_abs_le hr hw
  have h2 : rnd w * rnd w ≤ 2 ^ (-1080 : ℤ) := by
    rw [← abs_mul_abs_self, show (-1080 : ℤ) = -540 + -540 by norm_num, zpow_add₀ two_ne_zero]
    exact mul_le_mul h1 h1 (abs_nonneg _) (two_zpow_pos _).le
  have h3 := (rnd_nearest (rnd w * rnd w)).2 0 representable_zero
  have h0 := mul_self_nonneg (rnd w)
  have hn := DQuat.sq_nonneg' (rnd w)
  rw [zero_sub, abs_neg, abs_of_nonneg h0] at h3
  have h4 : rnd (rnd w * rnd w) ≤ 2 ^ (-1079 : ℤ) := by
    rw [show (-1079 : ℤ) = 1 + -1080 by norm_num, zpow_add₀ two_ne_zero, zpow_one]
    have := (abs_le.1 h3).2
    generalize (2 : ℝ) ^ (-1080 : ℤ) = r at *
    linarith
  obtain ⟨m, e, hm, he, hme⟩ := rnd_representable (rnd w * rnd w)
  by_contra hne
  have hm1 : 1 ≤ m := by
    by_contra hc
    have hm0 : (m : ℝ) ≤ 0 := by exact_mod_cast (by omega : m ≤ 0)
    rw [hme] at hn hne
    exact hne (le_antisymm (mul_nonpos_of_nonpos_of_nonneg hm0 (two_zpow_pos _).le) hn)
  have h5 : (2 : ℝ) ^ (-1074 : ℤ) ≤ rnd (rnd w * rnd w) := by
    rw [hme]
    have a1 : (2 : ℝ) ^ (-1074 : ℤ) ≤ 2 ^ e := zpow_le_zpow_right₀ one_le_two he
    have a2 : (1 : ℝ) ≤ m := by exact_mod_cast hm1
    exact a1.trans (le_mul_of_one_le_left (two_zpow_pos _).le a2)
  exact absurd (h5.trans h4) (not_le.2 (zpow_lt_zpow_right₀ one_lt_two (by norm_num)))

end Verif.Props
