import Verif.Lemmas.IntervalList

/-!
# `Clip`, `GetGaps`, `LogicalAnd` on pairs of cuts
-/

namespace Verif.Cut

open Verif Verif.Spec

set_option linter.unusedSectionVars false
set_option linter.dupNamespace false
set_option linter.unusedSimpArgs false

variable {α : Type} [LinearOrder α]

/-! ### Clip -/

def clipC (k : CP α) : List (CP α) → List (CP α)
  | [] => []
  | c :: l => if max c.1 k.1 < min c.2 k.2 then (max c.1 k.1, min c.2 k.2) :: clipC k l else clipC k l

theorem clipLoop_ivp (k : CP α) (l : List (CP α)) :
    Interval.clipLoop (ivp k) (l.map ivp) = .ok ((clipC k l).map ivp) := by
  induction l with
  | nil => rfl
  | cons c l ih =>
    simp only [List.map_cons, Interval.clipLoop, ih]
    change (Interval.getIntersectionWith (iv c.1 c.2) (iv k.1 k.2) >>= _) = _
    rw [inter_iv]
    simp only [bind, Except.bind, clipC]
    split_ifs with h <;> simp [isDefined_iv, isDefined_undef, pure, Except.pure, ivp] at *

theorem clip_ivp (k : CP α) (l : List (CP α)) :
    Interval.Clip (l.map ivp) (ivp k) = .ok ((clipC k l).map ivp) := by
  rw [Interval.Clip, ivp, isDefined_iv]
  exact clipLoop_ivp k l

theorem mem_clipC {k d : CP α} {l : List (CP α)} :
    d ∈ clipC k l ↔ ∃ c ∈ l, max c.1 k.1 < min c.2 k.2 ∧ d = (max c.1 k.1, min c.2 k.2) := by
  induction l with
  | nil => simp [clipC]
  | cons c l ih =>
    rw [clipC]
    split_ifs with h
    · rw [List.mem_cons, ih]
      simp only [List.mem_cons]
      constructor
      · rintro (h1 | ⟨e, h1, h2⟩)
        · exact ⟨c, Or.inl rfl, h, h1⟩
        · exact ⟨e, Or.inr h1, h2⟩
      · rintro ⟨e, rfl | h1, h2, h3⟩
        · exact Or.inl h3
        · exact Or.inr ⟨e, h1, h2, h3⟩
    · rw [ih]
      simp only [List.mem_cons]
      constructor
      · rintro ⟨e, h1, h2⟩
        exact ⟨e, Or.inr h1, h2⟩
      · rintro ⟨e, rfl | h1, h2, h3⟩
        · exact absurd h2 h
        · exact ⟨e, h1, h2, h3⟩

theorem clipC_ok (k : CP α) (l : List (CP α)) : Ok (clipC k l) := by
  intro d hd
  obtain ⟨c, -, h, rfl⟩ := mem_clipC.1 hd
  exact h

theorem clipC_cov (k : CP α) (l : List (CP α)) (x : α) :
    Cov (clipC k l) x ↔ Cov l x ∧ k.1 ≤ before x ∧ before x < k.2 := by
  simp only [Cov, mem_clipC]
  constructor
  · rintro ⟨d, ⟨c, hc, h, rfl⟩, h1, h2⟩
    simp only [max_le_iff, lt_min_iff] at h1 h2
    exact ⟨⟨c, hc, h1.1, h2.1⟩, h1.2, h2.2⟩
  · rintro ⟨⟨c, hc, h1, h2⟩, h3, h4⟩
    have h5 : max c.1 k.1 ≤ before x := max_le h1 h3
    have h6 : before x < min c.2 k.2 := lt_min h2 h4
    exact ⟨_, ⟨c, hc, h5.trans_lt h6, rfl⟩, h5, h6⟩

theorem clipC_pairwise {R R' : CP α → CP α → Prop} (k : CP α) {l : List (CP α)} (h : l.Pairwise R)
    (hR : ∀ c d, R c d → max c.1 k.1 < min c.2 k.2 → max d.1 k.1 < min d.2 k.2 →
      R' (max c.1 k.1, min c.2 k.2) (max d.1 k.1, min d.2 k.2)) : (clipC k l).Pairwise R' := by
  induction l with
  | nil => simp [clipC]
  | cons c l ih =>
    rw [List.pairwise_cons] at h
    rw [clipC]
    split_ifs with ht
    · rw [List.pairwise_cons]
      refine ⟨?_, ih h.2⟩
      intro d hd
      obtain ⟨e, he, h1, rfl⟩ := mem_clipC.1 hd
      exact hR c e (h.1 e he) ht h1
    · exact ih h.2

theorem clipC_sep (k : CP α) {l : List (CP α)} (h : Sep l) : Sep (clipC k l) := by
  refine clipC_pairwise k h ?_
  intro c d hcd h1 h2
  exact (min_le_left _ _).trans_lt (hcd.trans_le (le_max_left _ _))

/-- weakly separated -/
def WSep (l : List (CP α)) : Prop := l.Pairwise (fun c d => c.2 ≤ d.1)

theorem clipC_wsep (k : CP α) {l : List (CP α)} (h : WSep l) : WSep (clipC k l) := by
  refine clipC_pairwise k h ?_
  intro c d hcd h1 h2
  exact (min_le_left _ _).trans (hcd.trans (le_max_left _ _))

theorem clipC_bound {k d : CP α} {l : List (CP α)} (h : d ∈ clipC k l) : k.1 ≤ d.1 ∧ d.2 ≤ k.2 := by
  obtain ⟨c, -, -, rfl⟩ := mem_clipC.1 h
  exact ⟨le_max_right _ _, min_le_right _ _⟩

/-! ### Gaps -/

def innerC : List (CP α) → List (CP α)
  | c :: d :: l => (c.2, d.1) :: innerC (d :: l)
  | _ => []

theorem innerGap_ivp (c d : CP α) :
    Interval.innerGap (ivp c) (ivp d) = if c.2 < d.1 then .ok (iv c.2 d.1) else .error .runtimeError := by
  simp only [Interval.innerGap, ivp, get_iv, bind, Except.bind, lowerClosed_typeOf, upperClosed_typeOf, build_eq,
    Bool.not_not]
  rfl

theorem innerGaps_ivp (l : List (CP α)) :
    Interval.innerGaps (l.map ivp) =
      if l.IsChain (fun c d => c.2 < d.1) then .ok ((innerC l).map ivp) else .error .runtimeError := by
  induction l with
  | nil => rfl
  | cons c l ih =>
    cases l with
    | nil => simp [Interval.innerGaps, innerC, pure, Except.pure]
    | cons d l =>
      simp only [List.map_cons] at ih ⊢
      rw [Interval.innerGaps, ih, innerGap_ivp]
      simp only [List.isChain_cons_cons, innerC]
      by_cases h1 : c.2 < d.1
      · by_cases h2 : (d :: l).IsChain (fun c d => c.2 < d.1)
        · simp [h1, h2, bind, Except.bind, pure, Except.pure]; rfl
        · simp [h1, h2, bind, Except.bind]
      · simp [h1, bind, Except.bind]

theorem sep_of_chain {l : List (CP α)} (hok : Ok l) (h : l.IsChain (fun c d => c.2 < d.1)) : Sep l := by
  induction l with
  | nil => simp [Sep]
  | cons c l ih =>
    cases l with
    | nil => simp [Sep]
    | cons d l =>
      rw [List.isChain_cons_cons] at h
      have hl : Ok (d :: l) := fun e he => hok e (List.mem_cons_of_mem _ he)
      have hs := ih hl h.2
      rw [Sep, List.pairwise_cons]
      refine ⟨?_, hs⟩
      intro e he
      rcases List.mem_cons.1 he with rfl | he
      · exact h.1
      · rw [Sep, List.pairwise_cons] at hs
        exact h.1.trans ((hl d (by simp)).trans (hs.1 e he))

theorem Sep.chain {l : List (CP α)} (h : Sep l) : l.IsChain (fun c d => c.2 < d.1) := List.Pairwise.isChain h

def lastC (c : CP α) (l : List (CP α)) : CP α := (c :: l).getLast (List.cons_ne_nil c l)

theorem lastC_mem (c : CP α) (l : List (CP α)) : lastC c l ∈ c :: l := List.getLast_mem _

theorem lastC_cons (c d : CP α) (l : List (CP α)) : lastC c (d :: l) = lastC d l := by
  simp [lastC]

theorem le_lastC {c : CP α} {l : List (CP α)} (hok : Ok (c :: l)) (hw : WSep (c :: l)) :
    ∀ d ∈ c :: l, d.2 ≤ (lastC c l).2 := by
  induction l generalizing c with
  | nil => simp [lastC]
  | cons e l ih =>
    rw [lastC_cons]
    have hl : Ok (e :: l) := fun f hf => hok f (List.mem_cons_of_mem _ hf)
    rw [WSep, List.pairwise_cons] at hw
    have := ih hl hw.2
    intro d hd
    rcases List.mem_cons.1 hd with rfl | hd
    · exact ((hw.1 e (by simp)).trans (hl e (by simp)).le).trans (this e (by simp))
    · exact this d hd

theorem first_le {c : CP α} {l : List (CP α)} (hok : Ok (c :: l)) (hw : WSep (c :: l)) :
    ∀ d ∈ c :: l, c.1 ≤ d.1 := by
  intro d hd
  rcases List.mem_cons.1 hd with rfl | hd
  · exact le_rfl
  · rw [WSep, List.pairwise_cons] at hw
    exact (hok c (by simp)).le.trans (hw.1 d hd)

theorem Sep.wsep {l : List (CP α)} (h : Sep l) : WSep l := List.Pairwise.imp (fun h => le_of_lt h) h

theorem Disj.wsep {l : List (CP α)} (h : Disj l) : WSep l := List.Pairwise.imp (fun h => h.1) h

theorem innerC_cov {c : CP α} {l : List (CP α)} (hok : Ok (c :: l)) (hs : Sep (c :: l)) (x : α) :
    Cov (innerC (c :: l)) x ↔ c.1 ≤ before x ∧ before x < (lastC c l).2 ∧ ¬ Cov (c :: l) x := by
  induction l generalizing c with
  | nil =>
    simp only [innerC, lastC, List.getLast_singleton, Cov_cons]
    constructor
    · intro h; exact absurd h Cov_nil
    · rintro ⟨h1, h2, h3⟩; exact absurd (Or.inl ⟨h1, h2⟩) h3
  | cons d l ih =>
    have hl : Ok (d :: l) := fun f hf => hok f (List.mem_cons_of_mem _ hf)
    have hc := hok c (by simp)
    have hd := hl d (by simp)
    have hs' := hs
    rw [Sep, List.pairwise_cons] at hs
    have hlast := le_lastC hl (Sep.wsep hs.2) d (by simp)
    have hcd := hs.1 d (by simp)
    rw [innerC, lastC_cons, Cov_cons, ih hl hs.2, Cov_cons (c := c)]
    simp only
    constructor
    · rintro (⟨h1, h2⟩ | ⟨h1, h2, h3⟩)
      · refine ⟨by order, by order, ?_⟩
        rintro (⟨h4, h5⟩ | ⟨e, he, h4, h5⟩)
        · order
        · have := first_le hl (Sep.wsep hs.2) e he
          order
      · refine ⟨by order, h2, ?_⟩
        rintro (⟨h4, h5⟩ | h4)
        · order
        · exact h3 h4
    · rintro ⟨h1, h2, h3⟩
      rw [not_or] at h3
      rcases lt_or_ge (before x) d.1 with h | h
      · left
        refine ⟨?_, h⟩
        by_contra hlt
        exact h3.1 ⟨h1, not_le.1 hlt⟩
      · exact Or.inr ⟨h, h2, h3.2⟩

theorem innerC_ok {l : List (CP α)} (hs : Sep l) : Ok (innerC l) := by
  induction l with
  | nil => simp [innerC, Ok]
  | cons c l ih =>
    cases l with
    | nil => simp [innerC, Ok]
    | cons d l =>
      rw [Sep, List.pairwise_cons] at hs
      rw [innerC]
      intro e he
      rcases List.mem_cons.1 he with rfl | he
      · exact hs.1 d (by simp)
      · exact ih hs.2 e he

theorem innerC_ge {c : CP α} {l : List (CP α)} (hok : Ok (c :: l)) (hs : Sep (c :: l)) :
    ∀ d ∈ innerC (c :: l), c.2 ≤ d.1 ∧ d.2 ≤ (lastC c l).1 := by
  induction l generalizing c with
  | nil => simp [innerC]
  | cons d l ih =>
    have hl : Ok (d :: l) := fun f hf => hok f (List.mem_cons_of_mem _ hf)
    have hd := hl d (by simp)
    rw [Sep, List.pairwise_cons] at hs
    have hcd := hs.1 d (by simp)
    rw [lastC_cons, innerC]
    intro e he
    rcases List.mem_cons.1 he with rfl | he
    · refine ⟨le_rfl, first_le hl (Sep.wsep hs.2) _ (lastC_mem _ _)⟩
    · obtain ⟨h1, h2⟩ := ih hl hs.2 e he
      exact ⟨by order, h2⟩

theorem innerC_sep {l : List (CP α)} (hok : Ok l) (hs : Sep l) : Sep (innerC l) := by
  induction l with
  | nil => simp [innerC, Sep]
  | cons c l ih =>
    cases l with
    | nil => simp [innerC, Sep]
    | cons d l =>
      have hl : Ok (d :: l) := fun f hf => hok f (List.mem_cons_of_mem _ hf)
      rw [Sep, List.pairwise_cons] at hs
      rw [innerC, Sep, List.pairwise_cons]
      refine ⟨?_, ih hl hs.2⟩
      intro e he
      exact (hl d (by simp)).trans_le (innerC_ge hl hs.2 e he).1

def leadC (k c : CP α) : List (CP α) := if val k.1 < val c.1 then [(k.1, c.1)] else []
def trailC (k c : CP α) : List (CP α) := if val c.2 < val k.2 then [(c.2, k.2)] else []

theorem lt_of_val_lt {p q : Cut α} (h : val p < val q) : p < q :=
  (lt_before_iff.2 h).trans_le (before_le _)

theorem leading_ivp (k c : CP α) : Interval.leadingGap (ivp k) (ivp c) = .ok ((leadC k c).map ivp) := by
  simp only [Interval.leadingGap, ivp, isDefined_iv, get_iv, bind, Except.bind, lowerClosed_typeOf,
    upperClosed_typeOf, build_eq, Bool.not_not, leadC, Bool.not_true, Bool.false_eq_true, if_false]
  by_cases h : val k.1 < val c.1
  · simp only [h, if_true]
    have h' : (toLex ((ofLex k.1).1, (ofLex k.1).2) : Cut α) < toLex ((ofLex c.1).1, (ofLex c.1).2) := lt_of_val_lt h
    rw [if_pos h']
    rfl
  · simp only [h, if_false]; rfl

theorem trailing_ivp (k c : CP α) : Interval.trailingGap (ivp k) (ivp c) = .ok ((trailC k c).map ivp) := by
  simp only [Interval.trailingGap, ivp, isDefined_iv, get_iv, bind, Except.bind, lowerClosed_typeOf,
    upperClosed_typeOf, build_eq, Bool.not_not, trailC, Bool.not_true, Bool.false_eq_true, if_false]
  by_cases h : val c.2 < val k.2
  · simp only [h, if_true]
    have h' : (toLex ((ofLex c.2).1, (ofLex c.2).2) : Cut α) < toLex ((ofLex k.2).1, (ofLex k.2).2) := lt_of_val_lt h
    rw [if_pos h']
    rfl
  · simp only [h, if_false]; rfl

theorem leading_undef {K : Interval α} (h : K.isDefined = false) (I : Interval α) :
    Interval.leadingGap K I = .ok [] := by simp [Interval.leadingGap, h, pure, Except.pure]

theorem trailing_undef {K : Interval α} (h : K.isDefined = false) (I : Interval α) :
    Interval.trailingGap K I = .ok [] := by simp [Interval.trailingGap, h, pure, Except.pure]

def gapsC (k : CP α) : List (CP α) → List (CP α)
  | [] => [k]
  | c :: l => leadC k c ++ innerC (c :: l) ++ trailC k (lastC c l)

theorem getLast_map_ivp (c : CP α) (l : List (CP α)) :
    (ivp c :: l.map ivp).getLast (List.cons_ne_nil _ _) = ivp (lastC c l) := by
  have := List.getLast_map (f := ivp) (l := c :: l) (by simp)
  simpa [lastC] using this

/-- `GetGaps` with a defined reference interval, when the merged list is `m`. -/
theorem getGaps_ivp (S : Sorter (Interval α)) (L : List (Interval α)) (m : List (CP α)) (k : CP α)
    (hm : Interval.Merge S L = .ok (m.map ivp)) :
    Interval.GetGaps S L (ivp k) =
      if (clipC k m).IsChain (fun c d => c.2 < d.1) then .ok ((gapsC k (clipC k m)).map ivp)
      else .error .runtimeError := by
  have hd : (ivp k).isDefined = true := isDefined_iv _ _
  simp only [Interval.GetGaps, hm, bind, Except.bind, hd, if_true, clip_ivp]
  cases hc : clipC k m with
  | nil => simp [gapsC, pure, Except.pure]
  | cons c l =>
    simp only [List.map_cons, leading_ivp, getLast_map_ivp, trailing_ivp]
    rw [← List.map_cons, innerGaps_ivp]
    by_cases h : (c :: l).IsChain (fun c d => c.2 < d.1)
    · simp [h, gapsC, pure, Except.pure]
    · simp [h]

/-- `GetGaps` without reference interval. -/
theorem getGaps_undef (S : Sorter (Interval α)) (L : List (Interval α)) (m : List (CP α)) (K : Interval α)
    (hK : K.isDefined = false) (hm : Interval.Merge S L = .ok (m.map ivp)) :
    Interval.GetGaps S L K =
      if m.IsChain (fun c d => c.2 < d.1) then .ok ((innerC m).map ivp) else .error .runtimeError := by
  simp only [Interval.GetGaps, hm, bind, Except.bind, hK]
  cases m with
  | nil => simp [innerC, pure, Except.pure]
  | cons c l =>
    simp only [List.map_cons, leading_undef hK, trailing_undef hK, pure, Except.pure, Bool.false_eq_true, if_false]
    rw [← List.map_cons, innerGaps_ivp]
    by_cases h : (c :: l).IsChain (fun c d => c.2 < d.1)
    · simp [h]
    · simp [h]

theorem leadC_cov (k c : CP α) (x : α) :
    Cov (leadC k c) x ↔ val k.1 < val c.1 ∧ k.1 ≤ before x ∧ before x < c.1 := by
  rw [leadC]
  split_ifs with h
  · simp [Cov, h]
  · simp [Cov, h]

theorem trailC_cov (k c : CP α) (x : α) :
    Cov (trailC k c) x ↔ val c.2 < val k.2 ∧ c.2 ≤ before x ∧ before x < k.2 := by
  rw [trailC]
  split_ifs with h
  · simp [Cov, h]
  · simp [Cov, h]

theorem gapsC_ok (k : CP α) (l : List (CP α)) (hk : k.1 < k.2) (hs : Sep l) : Ok (gapsC k l) := by
  cases l with
  | nil => simpa [gapsC, Ok] using hk
  | cons c l =>
    intro d hd
    simp only [gapsC, List.mem_append, leadC, trailC] at hd
    rcases hd with (hd | hd) | hd
    · split_ifs at hd with h
      · rw [List.mem_singleton] at hd; subst hd; exact lt_of_val_lt h
      · simp at hd
    · exact innerC_ok hs d hd
    · split_ifs at hd with h
      · rw [List.mem_singleton] at hd; subst hd; exact lt_of_val_lt h
      · simp at hd

theorem gapsC_sep (k : CP α) (l : List (CP α)) (hok : Ok l) (hs : Sep l) : Sep (gapsC k l) := by
  cases l with
  | nil => simp [gapsC, Sep]
  | cons c l =>
    have hc := hok c (by simp)
    have hlast := hok _ (lastC_mem c l)
    have hcl := first_le hok hs.wsep _ (lastC_mem c l)
    rw [Sep, gapsC, List.append_assoc, List.pairwise_append, List.pairwise_append]
    refine ⟨?_, ⟨innerC_sep hok hs, ?_, ?_⟩, ?_⟩
    · rw [leadC]; split_ifs <;> simp
    · rw [trailC]; split_ifs <;> simp
    · intro d hd e he
      have h1 := (innerC_ge hok hs d hd).2
      rw [trailC] at he
      split_ifs at he with h
      · rw [List.mem_singleton] at he; subst he; simp only; order
      · simp at he
    · intro d hd e he
      rw [leadC] at hd
      split_ifs at hd with h
      · rw [List.mem_singleton] at hd; subst hd
        rcases List.mem_append.1 he with he | he
        · have := (innerC_ge hok hs e he).1
          simp only; order
        · rw [trailC] at he
          split_ifs at he with h
          · rw [List.mem_singleton] at he; subst he; simp only; order
          · simp at he
      · simp at hd

/-- Exactly which values the gaps cover. -/
theorem gapsC_cov (k c : CP α) (l : List (CP α)) (hok : Ok (c :: l)) (hs : Sep (c :: l))
    (hb : ∀ d ∈ c :: l, k.1 ≤ d.1 ∧ d.2 ≤ k.2) (x : α) :
    Cov (gapsC k (c :: l)) x ↔ (k.1 ≤ before x ∧ before x < k.2 ∧ ¬ Cov (c :: l) x) ∧
      ¬ (before x < c.1 ∧ val k.1 = val c.1) ∧ ¬ ((lastC c l).2 ≤ before x ∧ val (lastC c l).2 = val k.2) := by
  have hc := hok c (by simp)
  have hlast := hok _ (lastC_mem c l)
  have hcl := first_le hok hs.wsep
  have hll := le_lastC hok hs.wsep
  have hb1 := hb c (by simp)
  have hb2 := hb _ (lastC_mem c l)
  have h1 := hcl _ (lastC_mem c l)
  have h2 := hll c (by simp)
  rw [gapsC, Cov_append, Cov_append, leadC_cov, trailC_cov, innerC_cov hok hs]
  have hv1 : val k.1 ≤ val c.1 := val_le_val hb1.1
  have hv2 : val (lastC c l).2 ≤ val k.2 := val_le_val hb2.2
  constructor
  · rintro ((⟨h3, h4, h5⟩ | ⟨h3, h4, h5⟩) | ⟨h3, h4, h5⟩)
    · refine ⟨⟨h4, by order, ?_⟩, ?_, ?_⟩
      · rintro ⟨e, he, h6, h7⟩
        have := hcl e he; order
      · rintro ⟨-, h6⟩; exact h3.ne h6
      · rintro ⟨h6, -⟩; order
    · refine ⟨⟨by order, by order, h5⟩, ?_, ?_⟩
      · rintro ⟨h6, -⟩; order
      · rintro ⟨h6, -⟩; order
    · refine ⟨⟨by order, h5, ?_⟩, ?_, ?_⟩
      · rintro ⟨e, he, h6, h7⟩
        have := hll e he; order
      · rintro ⟨h6, -⟩; order
      · rintro ⟨-, h6⟩; exact h3.ne h6
  · rintro ⟨⟨h3, h4, h5⟩, h6, h7⟩
    rcases lt_or_ge (before x) c.1 with h | h
    · exact Or.inl (Or.inl ⟨lt_of_le_of_ne hv1 (fun he => h6 ⟨h, he⟩), h3, h⟩)
    · rcases lt_or_ge (before x) (lastC c l).2 with h' | h'
      · exact Or.inl (Or.inr ⟨h, h', h5⟩)
      · exact Or.inr ⟨lt_of_le_of_ne hv2 (fun he => h7 ⟨h', he⟩), h', h4⟩

/-- The value `x` is the lower end of `k` and the list covers everything just above it. -/
def LostLow (k : CP α) (P : α → Prop) (x : α) : Prop :=
  val k.1 = x ∧ ∃ y, x < y ∧ ∀ w, x < w → w < y → P w ∧ k.1 ≤ before w ∧ before w < k.2
def LostHigh (k : CP α) (P : α → Prop) (x : α) : Prop :=
  val k.2 = x ∧ ∃ y, y < x ∧ ∀ w, y < w → w < x → P w ∧ k.1 ≤ before w ∧ before w < k.2

theorem val_after_lt {v : α} {q : Cut α} (h : after v < q) : v < val q := by
  obtain ⟨⟨b, j⟩, rfl⟩ := toLex.surjective q
  simpa [after, cut_lt, val] using h

theorem gaps_clip_cov [DenselyOrdered α] (k : CP α) (m : List (CP α)) (hs : Sep m) (x : α) :
    Cov (gapsC k (clipC k m)) x ↔ (k.1 ≤ before x ∧ before x < k.2 ∧ ¬ Cov m x) ∧
      ¬ LostLow k (Cov m) x ∧ ¬ LostHigh k (Cov m) x := by
  have hcov := clipC_cov k m
  have hs' := clipC_sep k hs
  have hok' := clipC_ok k m
  have hb' : ∀ d ∈ clipC k m, k.1 ≤ d.1 ∧ d.2 ≤ k.2 := fun d hd => clipC_bound hd
  generalize clipC k m = l at *
  cases l with
  | nil =>
    have hno : ∀ w, ¬ (Cov m w ∧ k.1 ≤ before w ∧ before w < k.2) := fun w hw => Cov_nil ((hcov w).2 hw)
    simp only [gapsC, Cov_cons]
    constructor
    · rintro (h | h)
      · refine ⟨⟨h.1, h.2, fun hx => hno x ⟨hx, h⟩⟩, ?_, ?_⟩
        · rintro ⟨-, y, hy, hw⟩
          obtain ⟨w, h1, h2⟩ := exists_between hy
          exact hno w (hw w h1 h2)
        · rintro ⟨-, y, hy, hw⟩
          obtain ⟨w, h1, h2⟩ := exists_between hy
          exact hno w (hw w h1 h2)
      · exact absurd h Cov_nil
    · rintro ⟨⟨h1, h2, -⟩, -⟩
      exact Or.inl ⟨h1, h2⟩
  | cons c l =>
    rw [gapsC_cov k c l hok' hs' hb']
    have hc := hok' c (by simp)
    have hlast := hok' _ (lastC_mem c l)
    have hcl := first_le hok' hs'.wsep
    have hll := le_lastC hok' hs'.wsep
    have hb1 := hb' c (by simp)
    have hb2 := hb' _ (lastC_mem c l)
    have hcov' : (k.1 ≤ before x ∧ before x < k.2 ∧ ¬ Cov (c :: l) x) ↔
        (k.1 ≤ before x ∧ before x < k.2 ∧ ¬ Cov m x) := by
      rw [hcov]; tauto
    rw [hcov']
    refine and_congr_right ?_
    rintro ⟨h1, h2, h3⟩
    have h3' : ¬ Cov (c :: l) x := by rw [hcov]; tauto
    refine and_congr (not_congr ?_) (not_congr ?_)
    · constructor
      · rintro ⟨h4, h5⟩
        have e1 : val k.1 = x := by
          apply le_antisymm
          · exact val_le_val h1
          · rw [h5]; exact val_le_val h4.le
        refine ⟨e1, val c.2, ?_, ?_⟩
        · have : after x ≤ c.1 := after_le_iff.2 h4
          exact val_after_lt (lt_of_le_of_lt this hc)
        · intro w hw1 hw2
          apply (hcov w).1
          refine ⟨c, by simp, ?_, ?_⟩
          · have : val c.1 < w := by rw [← h5, e1]; exact hw1
            exact (lt_before_iff.2 this).le
          · exact (before_lt_before.2 hw2).trans_le (before_le _)
      · rintro ⟨e1, y, hy, hw⟩
        have h4 : before x < c.1 := by
          by_contra hge
          rw [not_lt] at hge
          have h5 : c.2 ≤ before x := by
            by_contra hlt
            exact h3' ⟨c, by simp, hge, not_le.1 hlt⟩
          have : k.1 < before x := by order
          rw [lt_before_iff] at this
          exact this.ne e1
        refine ⟨h4, le_antisymm (val_le_val hb1.1) ?_⟩
        by_contra hlt
        rw [not_le] at hlt
        rw [e1] at hlt
        obtain ⟨w, hw1, hw2⟩ := exists_between (lt_min hy hlt)
        rw [lt_min_iff] at hw2
        obtain ⟨e, he, h5, h6⟩ := (hcov w).2 (hw w hw1 hw2.1)
        have h7 := val_le_val ((hcl e he).trans h5)
        exact absurd hw2.2 (not_lt.2 h7)
    · constructor
      · rintro ⟨h4, h5⟩
        have e1 : val k.2 = x := by
          apply le_antisymm
          · rw [← h5]; exact val_le_val h4
          · exact val_le_val h2.le
        refine ⟨e1, val (lastC c l).1, ?_, ?_⟩
        · have : (lastC c l).1 < before x := lt_of_lt_of_le hlast h4
          exact lt_before_iff.1 this
        · intro w hw1 hw2
          apply (hcov w).1
          refine ⟨lastC c l, lastC_mem _ _, (lt_before_iff.2 hw1).le, ?_⟩
          have : w < val (lastC c l).2 := by rw [h5, e1]; exact hw2
          exact (before_lt_before.2 this).trans_le (before_le _)
      · rintro ⟨e1, y, hy, hw⟩
        have h4 : (lastC c l).2 ≤ before x := by
          by_contra hlt
          rw [not_le] at hlt
          have h5 : before x < (lastC c l).1 := by
            by_contra hge
            exact h3' ⟨_, lastC_mem c l, not_lt.1 hge, hlt⟩
          have h6 : after x < k.2 := by
            have := after_le_iff.2 h5
            order
          exact (val_after_lt h6).ne' e1
        refine ⟨h4, le_antisymm (val_le_val hb2.2) ?_⟩
        by_contra hlt
        rw [not_le] at hlt
        rw [e1] at hlt
        obtain ⟨w, hw1, hw2⟩ := exists_between (max_lt hy hlt)
        rw [max_lt_iff] at hw1
        obtain ⟨e, he, h5, h6⟩ := (hcov w).2 (hw w hw1.1 hw2)
        have h7 := val_le_val (h6.le.trans (hll e he))
        exact absurd hw1.2 (not_lt.2 h7)

/-! ### LogicalAnd -/

def spanLow (c d : Cut α) : Cut α := if val c < val d then c else if val d < val c then d else max c d
def spanHigh (e f : Cut α) : Cut α := if val f < val e then e else if val e < val f then f else min e f

theorem spanLow_val (c d : Cut α) : val (spanLow c d) = min (val c) (val d) := by
  rw [spanLow]; split_ifs with h1 h2
  · rw [min_eq_left h1.le]
  · rw [min_eq_right h2.le]
  · have : val c = val d := le_antisymm (not_lt.1 h2) (not_lt.1 h1)
    rcases max_choice c d with h | h <;> rw [h] <;> simp [this]

theorem spanHigh_val (e f : Cut α) : val (spanHigh e f) = max (val e) (val f) := by
  rw [spanHigh]; split_ifs with h1 h2
  · rw [max_eq_left h1.le]
  · rw [max_eq_right h2.le]
  · have : val e = val f := le_antisymm (not_lt.1 h1) (not_lt.1 h2)
    rcases min_choice e f with h | h <;> rw [h] <;> simp [this]

theorem eq_of_val_eq {p q : Cut α} (h : p < q) (hv : val q ≤ val p) :
    p = before (val p) ∧ q = after (val p) := by
  obtain ⟨⟨a, i⟩, rfl⟩ := toLex.surjective p
  obtain ⟨⟨b, j⟩, rfl⟩ := toLex.surjective q
  rw [cut_lt] at h
  simp only [val, ofLex_toLex] at hv
  rcases h with h | ⟨rfl, rfl, rfl⟩
  · exact absurd h (not_lt.2 hv)
  · exact ⟨rfl, rfl⟩

theorem span_lt {c d e f : Cut α} (h1 : c < e) (h2 : d < f) : spanLow c d < spanHigh e f := by
  rcases lt_or_ge (val (spanLow c d)) (val (spanHigh e f)) with h | h
  · exact lt_of_val_lt h
  · rw [spanLow_val, spanHigh_val, max_le_iff, le_min_iff, le_min_iff] at h
    obtain ⟨⟨h3, h4⟩, h5, h6⟩ := h
    obtain ⟨a1, a2⟩ := eq_of_val_eq h1 h3
    obtain ⟨b1, b2⟩ := eq_of_val_eq h2 h6
    have v1 := val_le_val h1.le
    have v2 := val_le_val h2.le
    have v : val c = val d := le_antisymm (by order) (by order)
    have e1 : c = d := by rw [a1, b1, v]
    have e2 : e = f := by rw [a2, b2, v]
    subst e1 e2
    simpa [spanLow, spanHigh] using h1

theorem span_ivp (c e d f : CP α) (h1 : c.1 < e.2) (h2 : d.1 < f.2) :
    Interval.span (ivp c) (ivp e) (ivp d) (ivp f) = .ok (ivp (spanLow c.1 d.1, spanHigh e.2 f.2)) := by
  have hlt := span_lt h1 h2
  simp only [Interval.span, ivp, get_iv, bind, Except.bind, lowerClosed_typeOf, upperClosed_typeOf, build_eq,
    Bool.not_not]
  have e1 : (toLex ((if val c.1 < val d.1 then (val c.1, (ofLex c.1).2)
      else if val d.1 < val c.1 then (val d.1, (ofLex d.1).2)
      else (val c.1, !(!(ofLex c.1).2 && !(ofLex d.1).2)))) : Cut α) = spanLow c.1 d.1 := by
    rw [spanLow]
    split_ifs with h1 h2
    · rfl
    · rfl
    · have : val c.1 = val d.1 := le_antisymm (not_lt.1 h2) (not_lt.1 h1)
      have hm := max_cut (val c.1) (val d.1) (ofLex c.1).2 (ofLex d.1).2
      change _ = max c.1 d.1 at hm
      rw [← hm, this]
      simp
  have e2 : (toLex ((if val f.2 < val e.2 then (val e.2, !(ofLex e.2).2)
      else if val e.2 < val f.2 then (val f.2, !(ofLex f.2).2)
      else (val e.2, !((ofLex e.2).2 && (ofLex f.2).2))).1,
      !(if val f.2 < val e.2 then (val e.2, !(ofLex e.2).2)
      else if val e.2 < val f.2 then (val f.2, !(ofLex f.2).2)
      else (val e.2, !((ofLex e.2).2 && (ofLex f.2).2))).2) : Cut α) = spanHigh e.2 f.2 := by
    rw [spanHigh]
    split_ifs with h1 h2
    · simp only [Bool.not_not]; rfl
    · simp only [Bool.not_not]; rfl
    · have : val e.2 = val f.2 := le_antisymm (not_lt.1 h1) (not_lt.1 h2)
      have hm := min_cut (val e.2) (val f.2) (ofLex e.2).2 (ofLex f.2).2
      change _ = min e.2 f.2 at hm
      rw [← hm, this]
      simp
  rw [Prod.mk.eta, e1, e2, if_pos hlt]

end Verif.Cut
