import Verif.Lemmas.IntervalCut
import Mathlib.Data.List.Pairwise

/-!
# Lists of intervals as lists of pairs of cuts
-/

namespace Verif.Cut

open Verif Verif.Spec

set_option linter.unusedSectionVars false
set_option linter.dupNamespace false
set_option linter.unusedSimpArgs false

variable {α : Type} [LinearOrder α]

/-- the value of a cut -/
abbrev val (p : Cut α) : α := (ofLex p).1

theorem after_le_iff {x : α} {q : Cut α} : after x ≤ q ↔ before x < q := by
  obtain ⟨⟨b, j⟩, rfl⟩ := toLex.surjective q
  simp only [before, after, cut_le, cut_lt]; simp

theorem mem_pts' (p q : Cut α) (x : α) : x ∈ pts (iv p q) ↔ p ≤ before x ∧ before x < q := by
  rw [mem_pts, after_le_iff]

theorem before_lt_before {x y : α} : before x < before y ↔ x < y := by
  simp [before, cut_lt]

theorem before_le_before {x y : α} : before x ≤ before y ↔ x ≤ y := by
  rw [← not_lt, before_lt_before, not_lt]

theorem lt_before_iff {p : Cut α} {v : α} : p < before v ↔ val p < v := by
  obtain ⟨⟨b, j⟩, rfl⟩ := toLex.surjective p
  simp [before, cut_lt, val]

theorem before_le_iff {p : Cut α} {v : α} : before v ≤ p ↔ v ≤ val p := by
  rw [← not_lt, lt_before_iff, not_lt]

theorem val_le_val {p q : Cut α} (h : p ≤ q) : val p ≤ val q :=
  before_le_iff.1 ((before_le p).trans h)

theorem exists_before [DenselyOrdered α] {p q : Cut α} (h : p < q) : ∃ x, p ≤ before x ∧ before x < q := by
  obtain ⟨⟨a, i⟩, rfl⟩ := toLex.surjective p
  obtain ⟨⟨b, j⟩, rfl⟩ := toLex.surjective q
  rw [cut_lt] at h
  rcases h with h | ⟨rfl, rfl, rfl⟩
  · obtain ⟨x, h1, h2⟩ := exists_between h
    exact ⟨x, cut_le.2 (Or.inl h1), cut_lt.2 (Or.inl h2)⟩
  · exact ⟨a, le_rfl, cut_lt.2 (by simp)⟩

/-- A pair of cuts. -/
abbrev CP (α : Type) := Cut α × Cut α

def ivp (c : CP α) : Interval α := iv c.1 c.2

/-- all pairs are in order -/
def Ok (l : List (CP α)) : Prop := ∀ c ∈ l, c.1 < c.2

/-- `x` is covered -/
def Cov (l : List (CP α)) (x : α) : Prop := ∃ c ∈ l, c.1 ≤ before x ∧ before x < c.2

theorem valid_list {l : List (Interval α)} : (∀ I ∈ l, Valid I) ↔ ∃ m : List (CP α), Ok m ∧ l = m.map ivp := by
  constructor
  · intro h
    induction l with
    | nil => exact ⟨[], by simp [Ok], rfl⟩
    | cons I l ih =>
      obtain ⟨m, hm, rfl⟩ := ih (fun J hJ => h J (by simp [hJ]))
      obtain ⟨p, q, hpq, rfl⟩ := (valid_iff I).1 (h I (by simp))
      exact ⟨(p, q) :: m, List.forall_mem_cons.2 ⟨hpq, hm⟩, rfl⟩
  · rintro ⟨m, hm, rfl⟩ I hI
    obtain ⟨c, hc, rfl⟩ := List.mem_map.1 hI
    exact (valid_iff _).2 ⟨c.1, c.2, hm c hc, rfl⟩

theorem mem_cover {l : List (CP α)} {x : α} : x ∈ cover (l.map ivp) ↔ Cov l x := by
  simp only [cover, Set.mem_ofPred_eq, List.mem_map, Cov]
  constructor
  · rintro ⟨I, ⟨c, hc, rfl⟩, hx⟩
    exact ⟨c, hc, (mem_pts' _ _ _).1 hx⟩
  · rintro ⟨c, hc, hx⟩
    exact ⟨_, ⟨c, hc, rfl⟩, (mem_pts' _ _ _).2 hx⟩

theorem Cov_cons {c : CP α} {l : List (CP α)} {x : α} :
    Cov (c :: l) x ↔ (c.1 ≤ before x ∧ before x < c.2) ∨ Cov l x := by
  simp [Cov]

theorem Cov_append {l m : List (CP α)} {x : α} : Cov (l ++ m) x ↔ Cov l x ∨ Cov m x := by
  simp [Cov, or_and_right, exists_or]

theorem Cov_nil {x : α} : ¬ Cov [] x := by simp [Cov]

theorem Cov_perm {l m : List (CP α)} (h : l.Perm m) {x : α} : Cov l x ↔ Cov m x := by
  simp [Cov, h.mem_iff]

/-! ### Merge -/

def mergeC (c : CP α) : List (CP α) → List (CP α)
  | [] => [c]
  | d :: l => if max c.1 d.1 ≤ min c.2 d.2 then mergeC (min c.1 d.1, max c.2 d.2) l else c :: mergeC d l

theorem mergeLoop_ivp (c : CP α) (l : List (CP α)) (hc : c.1 < c.2) (hl : Ok l) :
    Interval.mergeLoop (ivp c) (l.map ivp) = .ok ((mergeC c l).map ivp) := by
  induction l generalizing c with
  | nil => rfl
  | cons d l ih =>
    have hd := hl d (by simp)
    have hl' : Ok l := fun e he => hl e (by simp [he])
    have hu := union_iv hc hd
    simp only [List.map_cons, Interval.mergeLoop, mergeC]
    change (Interval.getUnionWith (iv c.1 c.2) (iv d.1 d.2) >>= _) = _
    rw [hu]
    by_cases ht : max c.1 d.1 ≤ min c.2 d.2
    · simp only [ht, if_true, bind, Except.bind, isDefined_iv]
      exact ih (min c.1 d.1, max c.2 d.2) ((min_le_left _ _).trans_lt (hc.trans_le (le_max_left _ _))) hl'
    · simp only [ht, if_false, bind, Except.bind, isDefined_undef, Bool.false_eq_true]
      rw [ih d hd hl']
      rfl

theorem mergeC_ok (c : CP α) (l : List (CP α)) (hc : c.1 < c.2) (hl : Ok l) : Ok (mergeC c l) := by
  induction l generalizing c with
  | nil => simpa [mergeC, Ok] using hc
  | cons d l ih =>
    have hd := hl d (by simp)
    have hl' : Ok l := fun e he => hl e (by simp [he])
    rw [mergeC]
    split_ifs
    · exact ih _ ((min_le_left _ _).trans_lt (hc.trans_le (le_max_left _ _))) hl'
    · intro e he
      rcases List.mem_cons.1 he with rfl | he
      · exact hc
      · exact ih d hd hl' e he

theorem union_mem {p q r s b : Cut α} (ht : max p r ≤ min q s) :
    (min p r ≤ b ∧ b < max q s) ↔ (p ≤ b ∧ b < q) ∨ (r ≤ b ∧ b < s) := by
  rw [max_le_iff, le_min_iff, le_min_iff] at ht
  rw [min_le_iff, lt_max_iff]
  constructor
  · rintro ⟨h1 | h1, h2 | h2⟩
    · exact Or.inl ⟨h1, h2⟩
    · rcases le_total r b with h | h
      · exact Or.inr ⟨h, h2⟩
      · rcases lt_or_ge b q with h3 | h3
        · exact Or.inl ⟨h1, h3⟩
        · exact Or.inr ⟨by order, h2⟩
    · rcases le_total p b with h | h
      · exact Or.inl ⟨h, h2⟩
      · rcases lt_or_ge b s with h3 | h3
        · exact Or.inr ⟨h1, h3⟩
        · exact Or.inl ⟨by order, h2⟩
    · exact Or.inr ⟨h1, h2⟩
  · rintro (⟨h1, h2⟩ | ⟨h1, h2⟩)
    · exact ⟨Or.inl h1, Or.inl h2⟩
    · exact ⟨Or.inr h1, Or.inr h2⟩

theorem mergeC_cov (c : CP α) (l : List (CP α)) (x : α) : Cov (mergeC c l) x ↔ Cov (c :: l) x := by
  induction l generalizing c with
  | nil => rfl
  | cons d l ih =>
    rw [mergeC]
    split_ifs with ht
    · rw [ih, Cov_cons, Cov_cons, Cov_cons, union_mem ht, or_assoc]
    · rw [Cov_cons, ih, ← Cov_cons]

theorem mergeC_ge {b : Cut α} (c : CP α) (l : List (CP α)) (hc : b ≤ c.1) (hl : ∀ d ∈ l, b ≤ d.1) :
    ∀ d ∈ mergeC c l, b ≤ d.1 := by
  induction l generalizing c with
  | nil => simpa [mergeC] using hc
  | cons d l ih =>
    have hl' : ∀ d ∈ l, b ≤ d.1 := fun e he => hl e (by simp [he])
    rw [mergeC]
    split_ifs with ht
    · exact ih _ (le_min hc (hl d (by simp))) hl'
    · intro e he
      rcases List.mem_cons.1 he with rfl | he
      · exact hc
      · exact ih d (hl d (by simp)) hl' e he

/-- lower values sorted -/
def SortedV (l : List (CP α)) : Prop := l.Pairwise (fun c d => val c.1 ≤ val d.1)
/-- lower cuts sorted -/
def SortedC (l : List (CP α)) : Prop := l.Pairwise (fun c d => c.1 ≤ d.1)
/-- disjoint, increasing -/
def Disj (l : List (CP α)) : Prop := l.Pairwise (fun c d => c.2 ≤ d.1 ∧ val c.1 < val d.1)
/-- separated, increasing -/
def Sep (l : List (CP α)) : Prop := l.Pairwise (fun c d => c.2 < d.1)

/-- in the loop, if the two do not touch then the next one is above -/
theorem lt_of_not_touch {c d : CP α} (hc : c.1 < c.2) (hd : d.1 < d.2) (hv : val c.1 ≤ val d.1)
    (ht : ¬ max c.1 d.1 ≤ min c.2 d.2) : c.2 < d.1 := by
  by_contra h
  apply ht
  rw [not_lt] at h
  rw [max_le_iff, le_min_iff, le_min_iff]
  refine ⟨⟨hc.le, ?_⟩, h, hd.le⟩
  calc c.1 ≤ after (val c.1) := le_after _
    _ ≤ after (val d.1) := by
        rw [after_le_iff]; exact (before_le_before.2 hv).trans_lt (by simp [before, after, cut_lt])
    _ ≤ d.2 := after_le_of_lt hd

theorem mergeC_disj (c : CP α) (l : List (CP α)) (hc : c.1 < c.2) (hl : Ok l) (hs : SortedV (c :: l)) :
    Disj (mergeC c l) := by
  induction l generalizing c with
  | nil => simp [mergeC, Disj]
  | cons d l ih =>
    have hd := hl d (by simp)
    have hl' : Ok l := fun e he => hl e (by simp [he])
    rw [SortedV, List.pairwise_cons] at hs
    obtain ⟨hs1, hs2⟩ := hs
    have hs3 := hs2
    rw [List.pairwise_cons] at hs2
    have hcd := hs1 d (by simp)
    rw [mergeC]
    split_ifs with ht
    · refine ih _ ((min_le_left _ _).trans_lt (hc.trans_le (le_max_left _ _))) hl' ?_
      rw [SortedV, List.pairwise_cons]
      exact ⟨fun e he => (val_le_val (min_le_left _ _)).trans (hs1 e (by simp [he])), hs2.2⟩
    · have hq := lt_of_not_touch hc hd hcd ht
      rw [Disj, List.pairwise_cons]
      refine ⟨?_, ih d hd hl' hs3⟩
      intro e he
      have hge := mergeC_ge (b := before (val d.1)) d l (before_le _)
        (fun f hf => before_le_iff.2 (hs2.1 f hf)) e he
      refine ⟨(le_before_of_lt hq).trans hge, ?_⟩
      rw [← lt_before_iff] 
      refine lt_of_lt_of_le (hc.trans_le (le_before_of_lt hq)) ?_
      exact before_le_before.2 (before_le_iff.1 hge)

theorem mergeC_sep (c : CP α) (l : List (CP α)) (hc : c.1 < c.2) (hl : Ok l) (hs : SortedC (c :: l)) :
    Sep (mergeC c l) := by
  induction l generalizing c with
  | nil => simp [mergeC, Sep]
  | cons d l ih =>
    have hd := hl d (by simp)
    have hl' : Ok l := fun e he => hl e (by simp [he])
    rw [SortedC, List.pairwise_cons] at hs
    obtain ⟨hs1, hs2⟩ := hs
    have hs3 := hs2
    rw [List.pairwise_cons] at hs2
    have hcd := hs1 d (by simp)
    rw [mergeC]
    split_ifs with ht
    · refine ih _ ((min_le_left _ _).trans_lt (hc.trans_le (le_max_left _ _))) hl' ?_
      rw [SortedC, List.pairwise_cons]
      exact ⟨fun e he => (min_le_left _ _).trans (hs1 e (by simp [he])), hs2.2⟩
    · have hq := lt_of_not_touch hc hd (val_le_val hcd) ht
      rw [Sep, List.pairwise_cons]
      refine ⟨?_, ih d hd hl' hs3⟩
      intro e he
      exact hq.trans_le (mergeC_ge (b := d.1) d l le_rfl hs2.1 e he)

theorem mergeC_of_sep (c : CP α) (l : List (CP α)) (hs : Sep (c :: l)) : mergeC c l = c :: l := by
  induction l generalizing c with
  | nil => rfl
  | cons d l ih =>
    rw [Sep, List.pairwise_cons] at hs
    rw [mergeC, if_neg, ih d hs.2]
    have := hs.1 d (by simp)
    rw [max_le_iff, le_min_iff, le_min_iff]
    rintro ⟨-, h, -⟩
    order

/-! ### Sort -/

def cmpC (byLower ascending : Bool) (c d : CP α) : Bool :=
  if byLower then
    (if ascending then decide (val c.1 < val d.1) else decide (val d.1 < val c.1))
  else
    (if ascending then decide (val c.2 < val d.2) else decide (val d.2 < val c.2))

theorem comparator_ivp (b a : Bool) (c d : CP α) : Interval.comparator b a (ivp c) (ivp d) = cmpC b a c d := by
  cases b <;> cases a <;> rfl

theorem defined_valid {I : Interval α} (h : Valid I) : I.isDefined = true := by
  obtain ⟨p, q, -, rfl⟩ := (valid_iff I).1 h
  exact isDefined_iv p q

/-- A defined interval has both bounds. -/
theorem bounds_of_defined {I : Interval α} (h : I.isDefined = true) :
    I.type ≠ .undefined ∧ ∃ a b, I.lb = some a ∧ I.ub = some b := by
  obtain ⟨t, l, u⟩ := I
  simp only [Interval.isDefined, Bool.and_eq_true, bne_iff_ne] at h
  obtain ⟨⟨h1, h2⟩, h3⟩ := h
  obtain ⟨a, rfl⟩ := Option.isSome_iff_exists.1 h2
  obtain ⟨b, rfl⟩ := Option.isSome_iff_exists.1 h3
  exact ⟨h1, a, b, rfl, rfl⟩

theorem strictWeak_of_key {β γ : Type} [LinearOrder γ] (key : β → γ) (l : List β) (lt : β → β → Bool)
    (h : ∀ x ∈ l, ∀ y ∈ l, lt x y = decide (key x < key y)) : StrictWeakOn lt l where
  irrefl x hx := by simp [h x hx x hx]
  trans x hx y hy z hz := by
    rw [h x hx y hy, h y hy z hz, h x hx z hz]; simp only [decide_eq_true_eq]; exact lt_trans
  incomp x hx y hy z hz := by
    rw [h x hx y hy, h y hy z hz, h x hx z hz, h y hy x hx, h z hz y hy, h z hz x hx]
    simp only [decide_eq_false_iff_not, not_lt]
    intro h1 h2 h3 h4
    exact ⟨h3.trans h1, h2.trans h4⟩

theorem comparator_strictWeak (b a : Bool) (l : List (Interval α)) (hl : ∀ I ∈ l, I.isDefined = true) :
    StrictWeakOn (Interval.comparator b a) l := by
  rcases l with _ | ⟨I0, l⟩
  · exact ⟨by simp, by simp, by simp⟩
  · obtain ⟨-, a0, b0, -, -⟩ := bounds_of_defined (hl I0 (by simp))
    have hb : ∀ I ∈ I0 :: l, ∃ a b, I.lb = some a ∧ I.ub = some b := fun I hI => (bounds_of_defined (hl I hI)).2
    cases b <;> cases a
    · refine strictWeak_of_key (γ := αᵒᵈ) (fun I => OrderDual.toDual (I.ub.getD b0)) _ _ ?_
      intro x hx y hy
      obtain ⟨_, _, h1, h2⟩ := hb x hx
      obtain ⟨_, _, h3, h4⟩ := hb y hy
      simp [Interval.comparator, Interval.boundLt, h2, h4]
    · refine strictWeak_of_key (γ := α) (fun I => (I.ub.getD b0)) _ _ ?_
      intro x hx y hy
      obtain ⟨_, _, h1, h2⟩ := hb x hx
      obtain ⟨_, _, h3, h4⟩ := hb y hy
      simp [Interval.comparator, Interval.boundLt, h2, h4]
    · refine strictWeak_of_key (γ := αᵒᵈ) (fun I => OrderDual.toDual (I.lb.getD b0)) _ _ ?_
      intro x hx y hy
      obtain ⟨_, _, h1, h2⟩ := hb x hx
      obtain ⟨_, _, h3, h4⟩ := hb y hy
      simp [Interval.comparator, Interval.boundLt, h1, h3]
    · refine strictWeak_of_key (γ := α) (fun I => (I.lb.getD b0)) _ _ ?_
      intro x hx y hy
      obtain ⟨_, _, h1, h2⟩ := hb x hx
      obtain ⟨_, _, h3, h4⟩ := hb y hy
      simp [Interval.comparator, Interval.boundLt, h1, h3]

theorem map_ivp_inj {l m : List (CP α)} (h : l.map ivp = m.map ivp) : l = m := by
  refine List.map_injective_iff.2 ?_ h
  intro c d hcd
  obtain ⟨h1, h2⟩ := iv_inj hcd
  exact Prod.ext h1 h2

/-- The sort of a list of valid intervals, on cut pairs. -/
theorem sort_ivp (S : Sorter (Interval α)) (l : List (CP α)) :
    ∃ m : List (CP α), Interval.SortBy S (l.map ivp) true true = .ok (m.map ivp) ∧ m.Perm l ∧ SortedV m := by
  have hdef : ∀ I ∈ l.map ivp, I.isDefined = true := by
    intro I hI
    obtain ⟨c, -, rfl⟩ := List.mem_map.1 hI
    exact isDefined_iv _ _
  have hw := comparator_strictWeak true true _ hdef
  have hp := S.perm _ _ hw
  have hs := S.sorted _ _ hw
  have hany : (l.map ivp).any (fun I => !I.isDefined) = false := by
    rw [List.any_eq_false]
    intro I hI; simp [hdef I hI]
  obtain ⟨m, hm⟩ : ∃ m : List (CP α), S.sort (Interval.comparator true true) (l.map ivp) = m.map ivp := by
    have : ∀ k : List (Interval α), (∀ I ∈ k, I ∈ l.map ivp) → ∃ m : List (CP α), k = m.map ivp := by
      intro k hk
      induction k with
      | nil => exact ⟨[], rfl⟩
      | cons I k ih =>
        obtain ⟨m, rfl⟩ := ih (fun J hJ => hk J (by simp [hJ]))
        obtain ⟨c, -, rfl⟩ := List.mem_map.1 (hk I (by simp))
        exact ⟨c :: m, rfl⟩
    exact this _ (fun I hI => hp.mem_iff.1 hI)
  refine ⟨m, ?_, ?_, ?_⟩
  · rw [Interval.SortBy, hany]; simp [hm]
  · rw [hm] at hp
    exact (List.map_perm_map_iff (fun c d hcd => by
      obtain ⟨h1, h2⟩ := iv_inj hcd
      exact Prod.ext h1 h2)).1 hp
  · rw [hm, List.pairwise_map] at hs
    refine hs.imp ?_
    intro c d h
    rw [comparator_ivp] at h
    simpa [cmpC] using h

/-- Merge on cut pairs. -/
theorem merge_ivp (S : Sorter (Interval α)) (l : List (CP α)) (hl : Ok l) :
    ∃ m : List (CP α), Interval.Merge S (l.map ivp) = .ok (m.map ivp) ∧ Ok m ∧ Disj m ∧ (∀ x, Cov m x ↔ Cov l x) ∧
      ((∀ c ∈ l, ∀ d ∈ l, val c.1 = val d.1 → c.1 = d.1) → Sep m) ∧ (l ≠ [] → m ≠ []) := by
  rcases l with _ | ⟨c0, l0⟩
  · exact ⟨[], rfl, by simp [Ok], by simp [Disj], fun x => Iff.rfl, fun _ => by simp [Sep], by simp⟩
  · obtain ⟨s, hs, hp, hv⟩ := sort_ivp S (c0 :: l0)
    have hok : Ok s := fun c hc => hl c (hp.mem_iff.1 hc)
    rcases s with _ | ⟨d, s⟩
    · simp at hp
    · have hd := hok d (by simp)
      have hok' : Ok s := fun e he => hok e (by simp [he])
      refine ⟨mergeC d s, ?_, mergeC_ok d s hd hok', mergeC_disj d s hd hok' hv, ?_, ?_, ?_⟩
      · rw [Interval.Merge, hs]
        exact mergeLoop_ivp d s hd hok'
      · intro x
        rw [mergeC_cov, Cov_perm hp]
      · intro ht
        refine mergeC_sep d s hd hok' ?_
        refine hv.imp_of_mem ?_
        intro a b ha hb hab
        rcases hab.lt_or_eq with h | h
        · exact (lt_before_iff.2 h).le.trans (before_le _)
        · exact (ht a (hp.mem_iff.1 ha) b (hp.mem_iff.1 hb) h).le
      · intro _
        cases s with
        | nil => simp [mergeC]
        | cons e s =>
          intro h0
          have : Cov (mergeC d (e :: s)) = Cov [] := by rw [h0]
          clear this
          have key : ∀ (c : CP α) (l : List (CP α)), mergeC c l ≠ [] := by
            intro c l
            induction l generalizing c with
            | nil => simp [mergeC]
            | cons d l ih => rw [mergeC]; split_ifs; exacts [ih _, by simp]
          exact key _ _ h0

/-- Distinct elements of a disjoint list have distinct lower values. -/
theorem Disj.noTie {l : List (CP α)} (h : Disj l) : ∀ c ∈ l, ∀ d ∈ l, val c.1 = val d.1 → c.1 = d.1 := by
  have hpw : l.Pairwise (fun c d => val c.1 = val d.1 → c.1 = d.1) := by
    refine h.imp ?_
    intro a b hab he
    exact absurd he hab.2.ne
  have : Std.Symm (fun c d : CP α => val c.1 = val d.1 → c.1 = d.1) := ⟨fun a b hab he => (hab he.symm).symm⟩
  intro c hc d hd
  exact List.Pairwise.forall_of_forall (R := fun c d : CP α => val c.1 = val d.1 → c.1 = d.1)
    (fun _ _ _ => rfl) hpw hc hd

theorem Sep.disj {l : List (CP α)} (hok : Ok l) (h : Sep l) : Disj l := by
  refine List.Pairwise.imp_of_mem ?_ h
  intro a b ha hb hab
  refine ⟨hab.le, ?_⟩
  have h1 := hok a ha
  by_contra hle
  rw [not_lt] at hle
  have h2 := after_le_of_lt h1
  have h3 := le_after b.1
  have h4 : after (val b.1) ≤ after (val a.1) := by
    rw [after_le_iff]; exact (before_le_before.2 hle).trans_lt (by simp [before, after, cut_lt])
  have : a.2 < a.2 := by
    calc a.2 < b.1 := hab
      _ ≤ after (val b.1) := h3
      _ ≤ after (val a.1) := h4
      _ ≤ a.2 := h2
  exact lt_irrefl _ this

/-- Merging an already merged list gives separated intervals. -/
theorem merge_ivp_disj (S : Sorter (Interval α)) (l : List (CP α)) (hl : Ok l) (hd : Disj l) :
    ∃ m : List (CP α), Interval.Merge S (l.map ivp) = .ok (m.map ivp) ∧ Ok m ∧ Sep m ∧ (∀ x, Cov m x ↔ Cov l x) ∧
      (l ≠ [] → m ≠ []) := by
  obtain ⟨m, h1, h2, h3, h4, h5, h6⟩ := merge_ivp S l hl
  exact ⟨m, h1, h2, h5 hd.noTie, h4, h6⟩

/-- Separated lists with the same cover are equal. -/
theorem sep_unique [DenselyOrdered α] {l m : List (CP α)} (hl : Ok l) (hm : Ok m) (sl : Sep l) (sm : Sep m)
    (h : ∀ x, Cov l x ↔ Cov m x) : l = m := by
  induction l generalizing m with
  | nil =>
    cases m with
    | nil => rfl
    | cons d m =>
      obtain ⟨x, h1, h2⟩ := exists_before (hm d (by simp))
      exact absurd ((h x).2 (Cov_cons.2 (Or.inl ⟨h1, h2⟩))) Cov_nil
  | cons c l ih =>
    cases m with
    | nil =>
      obtain ⟨x, h1, h2⟩ := exists_before (hl c (by simp))
      exact absurd ((h x).1 (Cov_cons.2 (Or.inl ⟨h1, h2⟩))) Cov_nil
    | cons d m =>
      have hc := hl c (by simp)
      have hd := hm d (by simp)
      rw [Sep, List.pairwise_cons] at sl sm
      have key1 : ∀ (c d : CP α) (m : List (CP α)), c.1 < c.2 → d.1 < d.2 → (∀ e ∈ m, d.2 < e.1) →
          (∀ x, (c.1 ≤ before x ∧ before x < c.2) → Cov (d :: m) x) → d.1 ≤ c.1 := by
        intro c d m hc hd hm hx
        by_contra hlt
        rw [not_le] at hlt
        obtain ⟨x, h1, h2⟩ := exists_before (lt_min hc hlt)
        rw [lt_min_iff] at h2
        obtain ⟨e, he, h3, h4⟩ := hx x ⟨h1, h2.1⟩
        rcases List.mem_cons.1 he with rfl | he
        · order
        · have := hm e he
          order
      have key2 : ∀ (c d : CP α) (l : List (CP α)), c.1 = d.1 → c.1 < c.2 → (∀ e ∈ l, c.2 < e.1) → Sep l → Ok l →
          (∀ x, (d.1 ≤ before x ∧ before x < d.2) → Cov (c :: l) x) → d.2 ≤ c.2 := by
        intro c d l hcd hc hcl sl okl hx
        by_contra hlt
        rw [not_le] at hlt
        obtain ⟨b, hb1, hb2⟩ : ∃ b, c.2 < b ∧ ∀ e ∈ l, b ≤ e.1 := by
          cases l with
          | nil => exact ⟨d.2, hlt, by simp⟩
          | cons e l =>
            refine ⟨e.1, hcl e (by simp), ?_⟩
            intro f hf
            rcases List.mem_cons.1 hf with rfl | hf
            · exact le_rfl
            · rw [Sep, List.pairwise_cons] at sl
              exact ((okl e (by simp)).trans (sl.1 f hf)).le
        obtain ⟨x, h1, h2⟩ := exists_before (lt_min hlt hb1)
        rw [lt_min_iff] at h2
        obtain ⟨e, he, h3, h4⟩ := hx x ⟨by order, h2.1⟩
        rcases List.mem_cons.1 he with rfl | he
        · order
        · have := hb2 e he
          order
      have e1 : c.1 = d.1 := le_antisymm
        (key1 d c l hd hc sl.1 (fun x hx => (h x).2 (Cov_cons.2 (Or.inl hx))))
        (key1 c d m hc hd sm.1 (fun x hx => (h x).1 (Cov_cons.2 (Or.inl hx))))
      have e2 : c.2 = d.2 := le_antisymm
        (key2 d c m e1.symm hd sm.1 sm.2 (fun e he => hm e (by simp [he])) (fun x hx => (h x).1 (Cov_cons.2 (Or.inl hx))))
        (key2 c d l e1 hc sl.1 sl.2 (fun e he => hl e (by simp [he])) (fun x hx => (h x).2 (Cov_cons.2 (Or.inl hx))))
      have e : c = d := Prod.ext e1 e2
      subst e
      congr 1
      refine ih (fun e he => hl e (by simp [he])) (fun e he => hm e (by simp [he])) sl.2 sm.2 ?_
      intro x
      have hx := h x
      rw [Cov_cons, Cov_cons] at hx
      constructor
      · rintro ⟨e, he, h1, h2⟩
        rcases hx.1 (Or.inr ⟨e, he, h1, h2⟩) with h3 | h3
        · have := sl.1 e he; order
        · exact h3
      · rintro ⟨e, he, h1, h2⟩
        rcases hx.2 (Or.inr ⟨e, he, h1, h2⟩) with h3 | h3
        · have := sm.1 e he; order
        · exact h3

end Verif.Cut
