import Verif.Props.Interval

/-!
# When GetGaps throws

Property C09, the exception. Code: `src/OpenSpaceToolkit/Mathematics/Object/Interval.tpp`.
-/

namespace Verif.Props

open Verif Verif.Spec Verif.Cut _root_.Verif.Interval

variable {α : Type} [LinearOrder α]

/-- `I` ends where `J` begins, and exactly one of them contains that value -/
def Touching (I J : Interval α) : Prop := ∃ x, I.ub = some x ∧ J.lb = some x ∧ (x ∈ pts I ↔ x ∉ pts J)

theorem touching_iff {c d : CP α} (hc : c.1 < c.2) (hd : d.1 < d.2) : Touching (ivp c) (ivp d) ↔ c.2 = d.1 := by
  have key : ∀ x, val c.2 = x → val d.1 = x → ((x ∈ pts (ivp c) ↔ x ∉ pts (ivp d)) ↔ c.2 = d.1) := by
    intro x h1 h2
    have hne : (before x : Cut α) < after x := by simp only [before, after, cut_lt]; simp
    have e1 : x ∈ pts (ivp c) ↔ c.2 = after x := by
      rw [ivp, mem_pts']
      rcases eq_before_or_after c.2 with h | h <;> rw [show (ofLex c.2).1 = x from h1] at h
      · rw [h]; simp [hne.ne]
      · rw [h]
        refine iff_of_true ⟨?_, hne⟩ rfl
        have := le_before_of_lt hc
        rwa [show (ofLex c.2).1 = x from h1] at this
    have e2 : x ∈ pts (ivp d) ↔ d.1 = before x := by
      rw [ivp, mem_pts']
      rcases eq_before_or_after d.1 with h | h <;> rw [show (ofLex d.1).1 = x from h2] at h
      · rw [h]; exact iff_of_true ⟨le_rfl, h ▸ hd⟩ rfl
      · rw [h]; exact iff_of_false (fun k => absurd k.1 (not_le.2 hne)) hne.ne'
    rw [e1, e2]
    rcases eq_before_or_after c.2 with h | h <;> rcases eq_before_or_after d.1 with k | k <;>
      rw [show (ofLex c.2).1 = x from h1] at h <;> rw [show (ofLex d.1).1 = x from h2] at k <;> rw [h, k] <;> simp [hne.ne, hne.ne']
  constructor
  · rintro ⟨x, h1, h2, h3⟩
    simp only [ivp, iv, Option.some.injEq] at h1 h2
    exact (key x h1 h2).1 h3
  · intro h
    exact ⟨val c.2, rfl, by rw [h]; rfl, (key _ rfl (by rw [h])).2 h⟩

theorem chain_iff {l : List (CP α)} (hok : Ok l) (hw : WSep l) : l.IsChain (fun c d => c.2 < d.1) ↔ ∀ c ∈ l, ∀ d ∈ l, c.2 ≠ d.1 := by
  constructor
  · intro h
    have hs := sep_of_chain hok h
    clear h hw
    induction l with
    | nil => simp
    | cons e l ih =>
      rw [Cut.Sep, List.pairwise_cons] at hs
      have ho : Ok l := fun c hc => hok c (by simp [hc])
      have := ih ho hs.2
      intro c hc d hd
      have h2 := hok c hc
      have h3 := hok d hd
      rcases List.mem_cons.1 hc with e1 | hc <;> rcases List.mem_cons.1 hd with e2 | hd
      · rw [e2, ← e1]; exact h2.ne'
      · rw [e1]; exact (hs.1 d hd).ne
      · intro h
        have h1 := hs.1 c hc
        rw [← e2] at h1
        order
      · exact this c hc d hd
  · intro h
    refine List.Pairwise.isChain ?_
    exact List.Pairwise.imp_of_mem (fun {c d} hc hd hle => lt_of_le_of_ne hle (h c hc d hd)) hw

theorem meets_iff [DenselyOrdered α] (c k : CP α) : (pts (ivp c) ∩ pts (ivp k)).Nonempty ↔ max c.1 k.1 < min c.2 k.2 := by
  constructor
  · rintro ⟨x, h1, h2⟩
    obtain ⟨a, b⟩ := (mem_pts' c.1 c.2 x).1 h1
    obtain ⟨a', b'⟩ := (mem_pts' k.1 k.2 x).1 h2
    exact lt_of_le_of_lt (max_le a a') (lt_min b b')
  · intro h
    obtain ⟨x, h1, h2⟩ := exists_before h
    obtain ⟨a, a'⟩ := max_le_iff.1 h1
    obtain ⟨b, b'⟩ := lt_min_iff.1 h2
    exact ⟨x, (mem_pts' _ _ x).2 ⟨a, b⟩, (mem_pts' _ _ x).2 ⟨a', b'⟩⟩

/-- **C09.** With a reference interval, `GetGaps` throws exactly if `Merge` leaves two touching intervals that both meet the reference interval. -/
theorem C09_throws [DenselyOrdered α] (S : Sorter (Interval α)) (l : List (Interval α)) (K : Interval α) (hl : ∀ I ∈ l, Valid I) (hK : Valid K) :
    GetGaps S l K = .error .runtimeError ↔
      ∃ r, Merge S l = .ok r ∧ ∃ I ∈ r, ∃ J ∈ r, Touching I J ∧ (pts I ∩ pts K).Nonempty ∧ (pts J ∩ pts K).Nonempty := by
  obtain ⟨m, hm, rfl⟩ := valid_list.1 hl
  obtain ⟨p, q, hpq, rfl⟩ := (valid_iff K).1 hK
  obtain ⟨r, h1, h2, h3, -, -⟩ := merge_ivp S m hm
  have hg := getGaps_ivp S (m.map ivp) r (p, q) h1
  change GetGaps S (m.map ivp) (ivp (p, q)) = _ ↔ _
  rw [hg]
  have hch := chain_iff (clipC_ok (p, q) r) (clipC_wsep (p, q) h3.wsep)
  have e : (∃ r', Merge S (m.map ivp) = .ok r' ∧ ∃ I ∈ r', ∃ J ∈ r', Touching I J ∧ (pts I ∩ pts (iv p q)).Nonempty ∧ (pts J ∩ pts (iv p q)).Nonempty) ↔
      ∃ c ∈ r, ∃ d ∈ r, c.2 = d.1 ∧ max c.1 p < min c.2 q ∧ max d.1 p < min d.2 q := by
    constructor
    · rintro ⟨r', e1, I, hI, J, hJ, ht, hi, hj⟩
      rw [h1] at e1
      cases e1
      obtain ⟨c, hc, rfl⟩ := List.mem_map.1 hI
      obtain ⟨d, hd, rfl⟩ := List.mem_map.1 hJ
      exact ⟨c, hc, d, hd, (touching_iff (h2 c hc) (h2 d hd)).1 ht, (meets_iff c (p, q)).1 hi, (meets_iff d (p, q)).1 hj⟩
    · rintro ⟨c, hc, d, hd, ht, hi, hj⟩
      exact ⟨_, h1, _, List.mem_map_of_mem hc, _, List.mem_map_of_mem hd, (touching_iff (h2 c hc) (h2 d hd)).2 ht, (meets_iff c (p, q)).2 hi, (meets_iff d (p, q)).2 hj⟩
  rw [e]
  have f : (¬ ∀ c ∈ clipC (p, q) r, ∀ d ∈ clipC (p, q) r, c.2 ≠ d.1) ↔ ∃ c ∈ r, ∃ d ∈ r, c.2 = d.1 ∧ max c.1 p < min c.2 q ∧ max d.1 p < min d.2 q := by
    push Not
    constructor
    · rintro ⟨c', hc', d', hd', h⟩
      obtain ⟨c, hc, a, rfl⟩ := mem_clipC.1 hc'
      obtain ⟨d, hd, b, rfl⟩ := mem_clipC.1 hd'
      refine ⟨c, hc, d, hd, ?_, a, b⟩
      simp only at h a b
      have u1 : min c.2 q < q := by rw [h]; exact b.trans_le (min_le_right _ _)
      have u2 : p < max d.1 p := by rw [← h]; exact (le_max_right _ _).trans_lt a
      have v1 : min c.2 q = c.2 := min_eq_left (by rcases min_lt_iff.1 u1 with k | k; exacts [k.le, absurd k (lt_irrefl _)])
      have v2 : max d.1 p = d.1 := max_eq_left (by rcases lt_max_iff.1 u2 with k | k; exacts [k.le, absurd k (lt_irrefl _)])
      rw [← v1, h, v2]
    · rintro ⟨c, hc, d, hd, h, a, b⟩
      refine ⟨_, mem_clipC.2 ⟨c, hc, a, rfl⟩, _, mem_clipC.2 ⟨d, hd, b, rfl⟩, ?_⟩
      have u1 : c.2 ≤ q := by rw [h]; exact ((le_max_left _ _).trans_lt (b.trans_le (min_le_right _ _))).le
      have u2 : p ≤ d.1 := by rw [← h]; exact ((le_max_right _ _).trans_lt (a.trans_le (min_le_left _ _))).le
      show min c.2 q = max d.1 p
      rw [min_eq_left u1, max_eq_left u2, h]
  rw [← f]
  by_cases k : ∀ c ∈ clipC (p, q) r, ∀ d ∈ clipC (p, q) r, c.2 ≠ d.1
  · rw [if_pos (hch.2 k)]; exact iff_of_false (by simp) (not_not.2 k)
  · rw [if_neg (fun h => k (hch.1 h))]; exact iff_of_true rfl k

/-- **C09.** Without a reference interval, `GetGaps` throws exactly if `Merge` leaves two touching intervals. -/
theorem C09_throws_no_reference (S : Sorter (Interval α)) (l : List (Interval α)) (K : Interval α) (hl : ∀ I ∈ l, Valid I) (hK : K.isDefined = false) :
    GetGaps S l K = .error .runtimeError ↔ ∃ r, Merge S l = .ok r ∧ ∃ I ∈ r, ∃ J ∈ r, Touching I J := by
  obtain ⟨m, hm, rfl⟩ := valid_list.1 hl
  obtain ⟨r, h1, h2, h3, -, -⟩ := merge_ivp S m hm
  rw [getGaps_undef S (m.map ivp) r K hK h1]
  have hch := chain_iff h2 h3.wsep
  have e : (∃ r', Merge S (m.map ivp) = .ok r' ∧ ∃ I ∈ r', ∃ J ∈ r', Touching I J) ↔ ¬ ∀ c ∈ r, ∀ d ∈ r, c.2 ≠ d.1 := by
    push Not
    constructor
    · rintro ⟨r', e1, I, hI, J, hJ, ht⟩
      rw [h1] at e1
      cases e1
      obtain ⟨c, hc, rfl⟩ := List.mem_map.1 hI
      obtain ⟨d, hd, rfl⟩ := List.mem_map.1 hJ
      exact ⟨c, hc, d, hd, (touching_iff (h2 c hc) (h2 d hd)).1 ht⟩
    · rintro ⟨c, hc, d, hd, ht⟩
      exact ⟨_, h1, _, List.mem_map_of_mem hc, _, List.mem_map_of_mem hd, (touching_iff (h2 c hc) (h2 d hd)).2 ht⟩
  rw [e]
  by_cases k : ∀ c ∈ r, ∀ d ∈ r, c.2 ≠ d.1
  · rw [if_pos (hch.2 k)]; exact iff_of_false (by simp) (not_not.2 k)
  · rw [if_neg (fun h => k (hch.1 h))]; exact iff_of_true rfl k

/-- both directions of `C09_throws` are met: by `C09_gaps_throws` there is a call that throws, and there are calls that do not -/
example : ∃ (S : Sorter (Interval ℚ)) (l : List (Interval ℚ)) (K : Interval ℚ), (∀ I ∈ l, Valid I) ∧ Valid K ∧
    ∃ r, Merge S l = .ok r ∧ ∃ I ∈ r, ∃ J ∈ r, Touching I J ∧ (pts I ∩ pts K).Nonempty ∧ (pts J ∩ pts K).Nonempty := by
  obtain ⟨S, l, K, h1, h2, h3⟩ := C09_gaps_throws
  exact ⟨S, l, K, h1, h2, (C09_throws S l K h1 h2).1 h3⟩

/-- two intervals that touch -/
example : Touching (⟨.halfOpenRight, some 0, some 1⟩ : Interval ℚ) ⟨.closed, some 1, some 2⟩ ∧ (undef : Interval ℚ).isDefined = false :=
  ⟨⟨1, rfl, rfl, by simp [pts]⟩, rfl⟩

end Verif.Props
