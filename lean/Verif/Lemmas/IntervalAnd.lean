import Verif.Lemmas.IntervalGaps

/-!
# `LogicalAnd` on pairs of cuts
-/

namespace Verif.Cut

open Verif Verif.Spec

set_option linter.unusedSectionVars false
set_option linter.dupNamespace false

variable {α : Type} [LinearOrder α]

/-- `x` is the least value of `A ∪ B`, not the only one, and isolated from above in `A ∩ B`. -/
def AndLostLow (A B : α → Prop) (x : α) : Prop :=
  (∀ z, A z ∨ B z → x ≤ z) ∧ (∃ z, (A z ∨ B z) ∧ x < z) ∧ ∃ y, x < y ∧ ∀ w, x < w → w < y → ¬ (A w ∧ B w)
/-- `x` is the greatest value of `A ∪ B`, not the only one, and isolated from below in `A ∩ B`. -/
def AndLostHigh (A B : α → Prop) (x : α) : Prop :=
  (∀ z, A z ∨ B z → z ≤ x) ∧ (∃ z, (A z ∨ B z) ∧ z < x) ∧ ∃ y, y < x ∧ ∀ w, y < w → w < x → ¬ (A w ∧ B w)

/-- Gaps of a disjoint list never throw. -/
theorem gaps_disj [DenselyOrdered α] (S : Sorter (Interval α)) (l : List (CP α)) (hl : Ok l) (hd : Disj l) (k : CP α)
    (hk : k.1 < k.2) :
    ∃ g : List (CP α), Interval.GetGaps S (l.map ivp) (ivp k) = .ok (g.map ivp) ∧ Ok g ∧ Sep g ∧
      ∀ x, Cov g x ↔ (k.1 ≤ before x ∧ before x < k.2 ∧ ¬ Cov l x) ∧ ¬ LostLow k (Cov l) x ∧ ¬ LostHigh k (Cov l) x := by
  obtain ⟨m, h1, h2, h3, h4, -⟩ := merge_ivp_disj S l hl hd
  refine ⟨gapsC k (clipC k m), ?_, gapsC_ok k _ hk (clipC_sep k h3), gapsC_sep k _ (clipC_ok k m) (clipC_sep k h3), ?_⟩
  · rw [getGaps_ivp S _ m k h1, if_pos (clipC_sep k h3).chain]
  · intro x
    have : Cov m = Cov l := funext fun x => propext (h4 x)
    rw [gaps_clip_cov k m h3, this]

theorem spanLow_eq_before {c d : Cut α} {x : α} (h : spanLow c d ≤ before x) (hv : val (spanLow c d) = x) :
    (c = before x ∧ (d = before x ∨ x < val d)) ∨ (d = before x ∧ (c = before x ∨ x < val c)) := by
  have he : spanLow c d = before x := le_antisymm h (before_le_iff.2 hv.ge)
  rw [spanLow] at he
  split_ifs at he with h1 h2
  · subst he; exact Or.inl ⟨rfl, Or.inr h1⟩
  · subst he; exact Or.inr ⟨rfl, Or.inr h2⟩
  · have hcd : val c = val d := le_antisymm (not_lt.1 h2) (not_lt.1 h1)
    rcases max_choice c d with hm | hm
    · rw [hm] at he
      have h3 : d ≤ before x := by rw [← he, ← hm]; exact le_max_right _ _
      have h4 : before x ≤ d := by rw [before_le_iff, ← hcd, he]; exact le_rfl
      exact Or.inl ⟨he, Or.inl (le_antisymm h3 h4)⟩
    · rw [hm] at he
      have h3 : c ≤ before x := by rw [← he, ← hm]; exact le_max_left _ _
      have h4 : before x ≤ c := by rw [before_le_iff, hcd, he]; exact le_rfl
      exact Or.inr ⟨he, Or.inl (le_antisymm h3 h4)⟩

theorem le_after_iff {q : Cut α} {x : α} : q ≤ after x ↔ val q ≤ x := by
  obtain ⟨⟨b, j⟩, rfl⟩ := toLex.surjective q
  simp only [after, cut_le, val, ofLex_toLex]
  simp [le_iff_lt_or_eq]

theorem spanHigh_eq_after {e f : Cut α} {x : α} (h : before x < spanHigh e f) (hv : val (spanHigh e f) = x) :
    (e = after x ∧ (f = after x ∨ val f < x)) ∨ (f = after x ∧ (e = after x ∨ val e < x)) := by
  have he : spanHigh e f = after x := le_antisymm (le_after_iff.2 hv.le) (after_le_iff.2 h)
  rw [spanHigh] at he
  split_ifs at he with h1 h2
  · subst he; exact Or.inl ⟨rfl, Or.inr h1⟩
  · subst he; exact Or.inr ⟨rfl, Or.inr h2⟩
  · have hcd : val e = val f := le_antisymm (not_lt.1 h1) (not_lt.1 h2)
    rcases min_choice e f with hm | hm
    · rw [hm] at he
      have h3 : after x ≤ f := by rw [← he, ← hm]; exact min_le_right _ _
      have h4 : f ≤ after x := by rw [le_after_iff, ← hcd, he]; exact le_rfl
      exact Or.inl ⟨he, Or.inl (le_antisymm h4 h3)⟩
    · rw [hm] at he
      have h3 : after x ≤ e := by rw [← he, ← hm]; exact min_le_left _ _
      have h4 : e ≤ after x := by rw [le_after_iff, hcd, he]; exact le_rfl
      exact Or.inr ⟨he, Or.inl (le_antisymm h4 h3)⟩

/-- No end point is lost when taking the gaps of one of the two lists in the span. -/
theorem no_lostLow [DenselyOrdered α] {A : α → Prop} {c d : Cut α} {k : CP α} {x : α} (hk : k.1 = spanLow c d)
    (hA : ∀ z, A z → c ≤ before z) (hAx : c = before x → A x) (hx : k.1 ≤ before x) (hn : ¬ A x) :
    ¬ LostLow k A x := by
  rintro ⟨hv, y, hy, hw⟩
  rw [hk] at hx hv
  rcases spanLow_eq_before hx hv with ⟨h, -⟩ | ⟨-, h | h⟩
  · exact hn (hAx h)
  · exact hn (hAx h)
  · obtain ⟨w, h1, h2⟩ := exists_between (lt_min hy h)
    rw [lt_min_iff] at h2
    exact absurd h2.2 (not_lt.2 (val_le_val (hA w (hw w h1 h2.1).1)))

theorem no_lostHigh [DenselyOrdered α] {A : α → Prop} {e f : Cut α} {k : CP α} {x : α} (hk : k.2 = spanHigh e f)
    (hA : ∀ z, A z → before z < e) (hAx : e = after x → A x) (hx : before x < k.2) (hn : ¬ A x) :
    ¬ LostHigh k A x := by
  rintro ⟨hv, y, hy, hw⟩
  rw [hk] at hx hv
  rcases spanHigh_eq_after hx hv with ⟨h, -⟩ | ⟨-, h | h⟩
  · exact hn (hAx h)
  · exact hn (hAx h)
  · obtain ⟨w, h1, h2⟩ := exists_between (max_lt hy h)
    rw [max_lt_iff] at h1
    exact absurd h1.2 (not_lt.2 (val_le_val (hA w (hw w h1.1 h2).1).le))

theorem spanLow_comm (c d : Cut α) : spanLow c d = spanLow d c := by
  rw [spanLow, spanLow]
  split_ifs with h1 h2
  · order
  · rfl
  · rfl
  · exact max_comm _ _

theorem spanHigh_comm (c d : Cut α) : spanHigh c d = spanHigh d c := by
  rw [spanHigh, spanHigh]
  split_ifs with h1 h2
  · order
  · rfl
  · rfl
  · exact min_comm _ _

theorem spanLow_le {c d : Cut α} : spanLow c d ≤ max c d := by
  rw [spanLow]; split_ifs
  · exact le_max_left _ _
  · exact le_max_right _ _
  · exact le_rfl

theorem le_spanHigh {e f : Cut α} : min e f ≤ spanHigh e f := by
  rw [spanHigh]; split_ifs
  · exact min_le_left _ _
  · exact min_le_right _ _
  · exact le_rfl

/-- The two notions of a lost lower end point agree. -/
theorem lostLow_iff [DenselyOrdered α] {A B : α → Prop} {c d e f : Cut α} {x : α}
    (hA : ∀ z, A z → c ≤ before z ∧ before z < e) (hB : ∀ z, B z → d ≤ before z ∧ before z < f)
    (hA' : ∀ q, c < q → ∃ z, A z ∧ before z < q) (hB' : ∀ q, d < q → ∃ z, B z ∧ before z < q)
    (hA'' : ∀ q, q < e → ∃ z, A z ∧ q ≤ before z) (hB'' : ∀ q, q < f → ∃ z, B z ∧ q ≤ before z)
    (hx : A x ∧ B x) :
    LostLow (spanLow c d, spanHigh e f)
      (fun w => (spanLow c d ≤ before w ∧ before w < spanHigh e f) ∧ ¬ (A w ∧ B w)) x ↔ AndLostLow A B x := by
  have hAx := hA x hx.1
  have hBx := hB x hx.2
  have hvc : val c ≤ x := val_le_val hAx.1
  have hvd : val d ≤ x := val_le_val hBx.1
  have hve : x ≤ val e := val_le_val hAx.2.le
  have hvf : x ≤ val f := val_le_val hBx.2.le
  constructor
  · rintro ⟨hv, y, hy, hw⟩
    simp only at hv hw
    rw [spanLow_val] at hv
    have h1 : val c = x := le_antisymm hvc (by rw [← hv]; exact min_le_left _ _)
    have h2 : val d = x := le_antisymm hvd (by rw [← hv]; exact min_le_right _ _)
    refine ⟨?_, ?_, y, hy, fun w h3 h4 => (hw w h3 h4).1.2⟩
    · rintro z (hz | hz)
      · rw [← h1]; exact val_le_val (hA z hz).1
      · rw [← h2]; exact val_le_val (hB z hz).1
    · obtain ⟨w, h3, h4⟩ := exists_between hy
      have h5 := (hw w h3 h4).2.2
      rw [spanHigh] at h5
      split_ifs at h5
      · obtain ⟨z, hz, h6⟩ := hA'' _ h5
        exact ⟨z, Or.inl hz, h3.trans_le (before_le_before.1 h6)⟩
      · obtain ⟨z, hz, h6⟩ := hB'' _ h5
        exact ⟨z, Or.inr hz, h3.trans_le (before_le_before.1 h6)⟩
      · obtain ⟨z, hz, h6⟩ := hA'' _ (h5.trans_le (min_le_left _ _))
        exact ⟨z, Or.inl hz, h3.trans_le (before_le_before.1 h6)⟩
  · rintro ⟨hmin, ⟨z, hz, hxz⟩, y, hy, hw⟩
    have h1 : val c = x := by
      refine le_antisymm hvc (not_lt.1 fun hlt => ?_)
      obtain ⟨z, hz, h⟩ := hA' _ (lt_before_iff.2 hlt)
      exact absurd (hmin z (Or.inl hz)) (not_le.2 (before_lt_before.1 h))
    have h2 : val d = x := by
      refine le_antisymm hvd (not_lt.1 fun hlt => ?_)
      obtain ⟨z, hz, h⟩ := hB' _ (lt_before_iff.2 hlt)
      exact absurd (hmin z (Or.inr hz)) (not_le.2 (before_lt_before.1 h))
    have hzK : x < val (spanHigh e f) := by
      rw [spanHigh_val, lt_max_iff]
      rcases hz with hz | hz
      · exact Or.inl (hxz.trans_le (val_le_val (hA z hz).2.le))
      · exact Or.inr (hxz.trans_le (val_le_val (hB z hz).2.le))
    refine ⟨by simp only; rw [spanLow_val, h1, h2, min_self], min y (val (spanHigh e f)), lt_min hy hzK, ?_⟩
    intro w h3 h4
    rw [lt_min_iff] at h4
    have h5 : spanLow c d ≤ before w := by
      refine (lt_before_iff.2 ?_).le
      rw [spanLow_val, h1, h2, min_self]; exact h3
    have h6 : before w < spanHigh e f := (before_lt_before.2 h4.2).trans_le (before_le _)
    exact ⟨⟨⟨h5, h6⟩, hw w h3 h4.1⟩, h5, h6⟩

theorem lostHigh_iff [DenselyOrdered α] {A B : α → Prop} {c d e f : Cut α} {x : α}
    (hA : ∀ z, A z → c ≤ before z ∧ before z < e) (hB : ∀ z, B z → d ≤ before z ∧ before z < f)
    (hA' : ∀ q, c < q → ∃ z, A z ∧ before z < q) (hB' : ∀ q, d < q → ∃ z, B z ∧ before z < q)
    (hA'' : ∀ q, q < e → ∃ z, A z ∧ q ≤ before z) (hB'' : ∀ q, q < f → ∃ z, B z ∧ q ≤ before z)
    (hx : A x ∧ B x) :
    LostHigh (spanLow c d, spanHigh e f)
      (fun w => (spanLow c d ≤ before w ∧ before w < spanHigh e f) ∧ ¬ (A w ∧ B w)) x ↔ AndLostHigh A B x := by
  have hAx := hA x hx.1
  have hBx := hB x hx.2
  have hve : x ≤ val e := val_le_val hAx.2.le
  have hvf : x ≤ val f := val_le_val hBx.2.le
  constructor
  · rintro ⟨hv, y, hy, hw⟩
    simp only at hv hw
    rw [spanHigh_val] at hv
    have h1 : val e = x := le_antisymm (by rw [← hv]; exact le_max_left _ _) hve
    have h2 : val f = x := le_antisymm (by rw [← hv]; exact le_max_right _ _) hvf
    refine ⟨?_, ?_, y, hy, fun w h3 h4 => (hw w h3 h4).1.2⟩
    · rintro z (hz | hz)
      · rw [← h1]; exact val_le_val (hA z hz).2.le
      · rw [← h2]; exact val_le_val (hB z hz).2.le
    · obtain ⟨w, h3, h4⟩ := exists_between hy
      have h5 := (hw w h3 h4).2.1
      have h5' : spanLow c d < before x := lt_of_le_of_lt h5 (before_lt_before.2 h4)
      rw [spanLow] at h5'
      split_ifs at h5'
      · obtain ⟨z, hz, h6⟩ := hA' _ h5'
        exact ⟨z, Or.inl hz, before_lt_before.1 h6⟩
      · obtain ⟨z, hz, h6⟩ := hB' _ h5'
        exact ⟨z, Or.inr hz, before_lt_before.1 h6⟩
      · obtain ⟨z, hz, h6⟩ := hA' _ (lt_of_le_of_lt (le_max_left _ _) h5')
        exact ⟨z, Or.inl hz, before_lt_before.1 h6⟩
  · rintro ⟨hmax, ⟨z, hz, hxz⟩, y, hy, hw⟩
    have h1 : val e = x := by
      refine le_antisymm (not_lt.1 fun hlt => ?_) hve
      obtain ⟨u, hu1, hu2⟩ := exists_between hlt
      obtain ⟨z, hz, h⟩ := hA'' (before u) ((before_lt_before.2 hu2).trans_le (before_le _))
      exact absurd (hmax z (Or.inl hz)) (not_le.2 (hu1.trans_le (before_le_before.1 h)))
    have h2 : val f = x := by
      refine le_antisymm (not_lt.1 fun hlt => ?_) hvf
      obtain ⟨u, hu1, hu2⟩ := exists_between hlt
      obtain ⟨z, hz, h⟩ := hB'' (before u) ((before_lt_before.2 hu2).trans_le (before_le _))
      exact absurd (hmax z (Or.inr hz)) (not_le.2 (hu1.trans_le (before_le_before.1 h)))
    have hzK : val (spanLow c d) < x := by
      rw [spanLow_val, min_lt_iff]
      rcases hz with hz | hz
      · exact Or.inl (lt_of_le_of_lt (val_le_val (hA z hz).1) hxz)
      · exact Or.inr (lt_of_le_of_lt (val_le_val (hB z hz).1) hxz)
    refine ⟨by simp only; rw [spanHigh_val, h1, h2, max_self], max y (val (spanLow c d)), max_lt hy hzK, ?_⟩
    intro w h3 h4
    rw [max_lt_iff] at h3
    have h5 : spanLow c d ≤ before w := (lt_before_iff.2 h3.2).le
    have h6 : before w < spanHigh e f := by
      refine (before_lt_before.2 ?_).trans_le (before_le _)
      change w < val (spanHigh e f)
      rw [spanHigh_val, h1, h2, max_self]; exact h4
    exact ⟨⟨⟨h5, h6⟩, hw w h3.1 h4⟩, h5, h6⟩

theorem and_ivp [DenselyOrdered α] (S : Sorter (Interval α)) (l m : List (CP α)) (hl : Ok l) (hm : Ok m) :
    ∃ r : List (CP α), Interval.LogicalAnd S (l.map ivp) (m.map ivp) = .ok (r.map ivp) ∧ Ok r ∧ Sep r ∧
      ∀ x, Cov r x ↔ (Cov l x ∧ Cov m x) ∧ ¬ AndLostLow (Cov l) (Cov m) x ∧ ¬ AndLostHigh (Cov l) (Cov m) x := by
  obtain ⟨la, a1, a2, a3, a4, -, a5⟩ := merge_ivp S l hl
  obtain ⟨lb, b1, b2, b3, b4, -, b5⟩ := merge_ivp S m hm
  have ea : Cov la = Cov l := funext fun x => propext (a4 x)
  have eb : Cov lb = Cov m := funext fun x => propext (b4 x)
  rcases la with _ | ⟨c, la⟩
  · refine ⟨[], ?_, by simp [Ok], by simp [Sep], ?_⟩
    · simp only [Interval.LogicalAnd, a1, b1, bind, Except.bind, List.map_nil]; rfl
    · intro x
      rw [← ea]
      simp [Cov]
  rcases lb with _ | ⟨d, lb⟩
  · refine ⟨[], ?_, by simp [Ok], by simp [Sep], ?_⟩
    · simp only [Interval.LogicalAnd, a1, b1, bind, Except.bind, List.map_nil]; rfl
    · intro x
      rw [← eb]
      simp [Cov]
  have hcl := first_le a2 a3.wsep
  have hce := le_lastC a2 a3.wsep
  have hdl := first_le b2 b3.wsep
  have hde := le_lastC b2 b3.wsep
  have hc := a2 c (by simp)
  have hd := b2 d (by simp)
  have he := a2 _ (lastC_mem c la)
  have hf := b2 _ (lastC_mem d lb)
  have h1 : c.1 < (lastC c la).2 := hc.trans_le (hce c (by simp))
  have h2 : d.1 < (lastC d lb).2 := hd.trans_le (hde d (by simp))
  have hspan := span_ivp c (lastC c la) d (lastC d lb) h1 h2
  have hk := span_lt h1 h2
  obtain ⟨ga, ga1, ga2, ga3, ga4⟩ := gaps_disj S (c :: la) a2 a3 (spanLow c.1 d.1, spanHigh (lastC c la).2 (lastC d lb).2) hk
  obtain ⟨gb, gb1, gb2, gb3, gb4⟩ := gaps_disj S (d :: lb) b2 b3 (spanLow c.1 d.1, spanHigh (lastC c la).2 (lastC d lb).2) hk
  obtain ⟨o, o1, o2, o3, o4, -, -⟩ := merge_ivp S (ga ++ gb) (by
    intro x hx
    rcases List.mem_append.1 hx with h | h
    exacts [ga2 x h, gb2 x h])
  obtain ⟨r, r1, r2, r3, r4⟩ := gaps_disj S o o2 o3 (spanLow c.1 d.1, spanHigh (lastC c la).2 (lastC d lb).2) hk
  refine ⟨r, ?_, r2, r3, ?_⟩
  · simp only [Interval.LogicalAnd, a1, b1, bind, Except.bind, List.map_cons, getLast_map_ivp, hspan]
    rw [← List.map_cons, ← List.map_cons, ga1]
    simp only [gb1, Interval.LogicalOr]
    rw [← List.map_append, o1]
    exact r1
  · -- coverage
    have hA : ∀ z, Cov (c :: la) z → c.1 ≤ before z ∧ before z < (lastC c la).2 := by
      rintro z ⟨g, hg, h3, h4⟩
      exact ⟨(hcl g hg).trans h3, h4.trans_le (hce g hg)⟩
    have hB : ∀ z, Cov (d :: lb) z → d.1 ≤ before z ∧ before z < (lastC d lb).2 := by
      rintro z ⟨g, hg, h3, h4⟩
      exact ⟨(hdl g hg).trans h3, h4.trans_le (hde g hg)⟩
    have hA' : ∀ q, c.1 < q → ∃ z, Cov (c :: la) z ∧ before z < q := by
      intro q hq
      obtain ⟨z, h3, h4⟩ := exists_before (lt_min hc hq)
      rw [lt_min_iff] at h4
      exact ⟨z, ⟨c, by simp, h3, h4.1⟩, h4.2⟩
    have hB' : ∀ q, d.1 < q → ∃ z, Cov (d :: lb) z ∧ before z < q := by
      intro q hq
      obtain ⟨z, h3, h4⟩ := exists_before (lt_min hd hq)
      rw [lt_min_iff] at h4
      exact ⟨z, ⟨d, by simp, h3, h4.1⟩, h4.2⟩
    have hA'' : ∀ q, q < (lastC c la).2 → ∃ z, Cov (c :: la) z ∧ q ≤ before z := by
      intro q hq
      obtain ⟨z, h3, h4⟩ := exists_before (max_lt he hq)
      rw [max_le_iff] at h3
      exact ⟨z, ⟨_, lastC_mem c la, h3.1, h4⟩, h3.2⟩
    have hB'' : ∀ q, q < (lastC d lb).2 → ∃ z, Cov (d :: lb) z ∧ q ≤ before z := by
      intro q hq
      obtain ⟨z, h3, h4⟩ := exists_before (max_lt hf hq)
      rw [max_le_iff] at h3
      exact ⟨z, ⟨_, lastC_mem d lb, h3.1, h4⟩, h3.2⟩
    have hgo : Cov o = fun w => (spanLow c.1 d.1 ≤ before w ∧ before w < spanHigh (lastC c la).2 (lastC d lb).2) ∧
        ¬ (Cov (c :: la) w ∧ Cov (d :: lb) w) := by
      funext w
      apply propext
      rw [o4, Cov_append, ga4, gb4]
      constructor
      · rintro (⟨⟨h3, h4, h5⟩, -⟩ | ⟨⟨h3, h4, h5⟩, -⟩)
        · exact ⟨⟨h3, h4⟩, fun h => h5 h.1⟩
        · exact ⟨⟨h3, h4⟩, fun h => h5 h.2⟩
      · rintro ⟨⟨h3, h4⟩, h5⟩
        by_cases hw : Cov (c :: la) w
        · have hw' : ¬ Cov (d :: lb) w := fun h => h5 ⟨hw, h⟩
          right
          refine ⟨⟨h3, h4, hw'⟩, ?_, ?_⟩
          · refine no_lostLow (c := d.1) (d := c.1) ?_ (fun z hz => (hB z hz).1) ?_ h3 hw'
            · exact spanLow_comm _ _
            · intro h; exact ⟨d, by simp, h.le, h ▸ hd⟩
          · refine no_lostHigh (e := (lastC d lb).2) (f := (lastC c la).2) ?_ (fun z hz => (hB z hz).2) ?_ h4 hw'
            · exact spanHigh_comm _ _
            · intro h
              refine ⟨_, lastC_mem d lb, ?_, ?_⟩
              · have := h ▸ hf
                exact not_lt.1 fun hlt => absurd (after_le_iff.2 hlt) (not_le.2 this)
              · rw [h]; exact after_le_iff.1 le_rfl
        · left
          refine ⟨⟨h3, h4, hw⟩, ?_, ?_⟩
          · refine no_lostLow (c := c.1) (d := d.1) rfl (fun z hz => (hA z hz).1) ?_ h3 hw
            intro h; exact ⟨c, by simp, h.le, h ▸ hc⟩
          · refine no_lostHigh (e := (lastC c la).2) (f := (lastC d lb).2) rfl (fun z hz => (hA z hz).2) ?_ h4 hw
            intro h
            refine ⟨_, lastC_mem c la, ?_, ?_⟩
            · have := h ▸ he
              exact not_lt.1 fun hlt => absurd (after_le_iff.2 hlt) (not_le.2 this)
            · rw [h]; exact after_le_iff.1 le_rfl
    intro x
    rw [r4, hgo, ← ea, ← eb]
    constructor
    · rintro ⟨⟨h3, h4, h5⟩, h6, h7⟩
      have h8 : Cov (c :: la) x ∧ Cov (d :: lb) x := by
        by_contra h9; exact h5 ⟨⟨h3, h4⟩, h9⟩
      rw [lostLow_iff hA hB hA' hB' hA'' hB'' h8] at h6
      rw [lostHigh_iff hA hB hA' hB' hA'' hB'' h8] at h7
      exact ⟨h8, h6, h7⟩
    · rintro ⟨h8, h6, h7⟩
      rw [← lostLow_iff hA hB hA' hB' hA'' hB'' h8] at h6
      rw [← lostHigh_iff hA hB hA' hB' hA'' hB'' h8] at h7
      refine ⟨⟨?_, ?_, fun h => h.2 h8⟩, h6, h7⟩
      · exact spanLow_le.trans (max_le (hA x h8.1).1 (hB x h8.2).1)
      · exact (lt_min (hA x h8.1).2 (hB x h8.2).2).trans_le le_spanHigh

end Verif.Cut
