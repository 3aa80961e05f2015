import Verif.Lemmas.Programs
import Mathlib.Tactic.NormNum

/-!
# Programs over composites and polygons

C121: whatever operations are done, in whatever order, variables behave as values and no memory is lost.
-/

namespace Verif.Props

open Verif Verif.Heap Verif.Spec

variable {L V : Type}

/-! ## C121: composites and polygons are values in every program -/

theorem caught_ok (s : State L) {β : Type} (f : β → State L) (r : β) : caught s f (some (.ok r)) = some (.ok (f r, none)) := rfl

theorem caught_undefined (s : State L) {β : Type} (f : β → State L) : caught s f (some (.error .undefined)) = some (.ok (s, some .undefined)) := rfl

/-- how deep a variable is -/
def depthAt (s : Store L) (x : ℕ) : ℕ :=
  match s x with
  | none => 0
  | some v => v.2.depth

/-- the turns that an operation needs -/
def turns (s : Store L) : Command L → ℕ
  | .empty _ => 0
  | .undefined _ => 0
  | .make _ _ => 0
  | .wrap _ y => depthAt s y + 1
  | .copy _ y => depthAt s y + 1
  | .assign x y => max (depthAt s x) (depthAt s y)
  | .add _ x y => max (depthAt s x) (depthAt s y) + 1
  | .append x y => max (depthAt s x) (depthAt s y) + 1
  | .transform x _ => depthAt s x + 1
  | .destroy x => depthAt s x + 1

/-- one operation -/
theorem step_represents {ok : L → Bool} {st : State L} {s s' : Store L} {c : Command L} {e : Option Err} {n : ℕ} (hn : turns s c ≤ n) (hR : Represents st s) (ht : Tame c)
    (hv : valueStep ok s c = some (s', e)) : ∃ st', step ok n st c = some (.ok (st', e)) ∧ Represents st' s' := by
  have hR' := hR
  obtain ⟨F, h1, h2, h3, h4, h5⟩ := hR
  have halloc : ∀ (h : Heap L) c y, y < h.next → (alloc h c).1.cell y = h.cell y := fun h c y hy => by
    simp only [alloc]
    rw [Function.update_of_ne (by omega)]
  cases c with
  | empty x =>
    rcases hx : s x with _ | v
    · simp [valueStep, hx] at hv
      obtain ⟨rfl, rfl⟩ := hv
      refine ⟨_, by simp only [step, (h1 x hx).1]; rfl, ?_⟩
      refine represents_bind hR' hx (G := insert st.heap.next ∅) (node_holds (as := []) (by simp [alloc]) ⟨rfl, rfl⟩ (by simp)) ?_ (halloc _ _) (fresh_alloc h4 _) ?_
      · rintro y (rfl | hy)
        · exact le_rfl
        · exact absurd hy (by simp)
      · intro y hy hc
        by_cases hyn : y = st.heap.next
        · exact Or.inl hyn
        · simp only [alloc] at hc
          rw [Function.update_of_ne hyn] at hc
          exact absurd (h4 y hy) hc
    · simp [valueStep, hx] at hv
  | undefined x =>
    rcases hx : s x with _ | v
    · simp [valueStep, hx] at hv
      obtain ⟨rfl, rfl⟩ := hv
      refine ⟨_, by simp only [step, (h1 x hx).1]; rfl, ?_⟩
      refine represents_bind hR' hx (G := insert st.heap.next ∅) (node_holds (as := []) (by simp [alloc]) ⟨rfl, rfl⟩ (by simp)) ?_ (halloc _ _) (fresh_alloc h4 _) ?_
      · rintro y (rfl | hy)
        · exact le_rfl
        · exact absurd hy (by simp)
      · intro y hy hc
        by_cases hyn : y = st.heap.next
        · exact Or.inl hyn
        · simp only [alloc] at hc
          rw [Function.update_of_ne hyn] at hc
          exact absurd (h4 y hy) hc
    · simp [valueStep, hx] at hv
  | make x v =>
    rcases hx : s x with _ | w
    · simp [valueStep, hx] at hv
      obtain ⟨rfl, rfl⟩ := hv
      refine ⟨_, by simp only [step, (h1 x hx).1]; rfl, ?_⟩
      refine represents_bind hR' hx (G := insert (st.heap.next + 1) {st.heap.next}) (node_holds (as := [st.heap.next]) (by simp [alloc])
        ⟨st.heap.next, [], ∅, rfl, ?_, ⟨rfl, rfl⟩, by simp, by simp⟩ (by simp [alloc])) ?_ ?_ (fresh_alloc (fresh_alloc h4 _) _) ?_
      · simp only [alloc]
        rw [Function.update_of_ne (by omega), Function.update_self]
      · rintro y (rfl | rfl)
        · omega
        · exact le_rfl
      · intro y hy
        simp only [alloc]
        rw [Function.update_of_ne (by omega), Function.update_of_ne (by omega)]
      · intro y hy hc
        by_cases hyn : y = st.heap.next
        · exact Or.inr hyn
        · by_cases hyn' : y = st.heap.next + 1
          · exact Or.inl hyn'
          · simp only [alloc] at hc
            rw [Function.update_of_ne hyn', Function.update_of_ne hyn] at hc
            exact absurd (h4 y hy) hc
    · simp [valueStep, hx] at hv
  | wrap x y =>
    rcases hx : s x with _ | w
    · rcases hy : s y with _ | ⟨d, m⟩
      · simp [valueStep, hx, hy] at hv
      · simp [valueStep, hx, hy] at hv
        obtain ⟨rfl, rfl⟩ := hv
        obtain ⟨b, hb, hH⟩ := h2 y d m hy
        simp only [turns, depthAt, hy] at hn
        obtain ⟨h', k, G, e1, e2, -, -, e5, e6, e7, e8⟩ := C105_copy (n := n) (by simp only [Forest.depth]; omega) h4 hH
        have hk := e2.below e6
        have hnl : st.heap.next ≤ h'.next := by
          obtain ⟨as, K, -, -, -, rfl⟩ := holds_node e2
          have := e7 k (Set.mem_insert _ _)
          have := hk k (Set.mem_insert _ _)
          omega
        have hne : h'.next ∉ G := fun h => by have := hk _ h; omega
        refine ⟨_, by simp only [step, (h1 x hx).1, hb, e1, caught_ok]; rfl, ?_⟩
        refine represents_bind hR' hx (G := insert h'.next G) (node_holds (as := [k]) (by simp [alloc]) ?_ hne) ?_ ?_ (fresh_alloc e6 _) ?_
        · refine e2.frame fun z hz => halloc _ _ z (hk z hz)
        · rintro z (rfl | hz)
          · exact hnl
          · exact e7 z hz
        · intro z hz
          simp only
          rw [Function.update_of_ne (by omega), e5 z hz]
        · intro z hz hc
          by_cases hzn : z = h'.next
          · exact Or.inl hzn
          · simp only [alloc] at hc
            rw [Function.update_of_ne hzn] at hc
            exact Or.inr (e8 z hz hc)
    · simp [valueStep, hx] at hv
  | copy x y =>
    rcases hx : s x with _ | w
    · rcases hy : s y with _ | ⟨d, m⟩
      · simp [valueStep, hx, hy] at hv
      · simp [valueStep, hx, hy] at hv
        obtain ⟨rfl, rfl⟩ := hv
        obtain ⟨b, hb, hH⟩ := h2 y d m hy
        simp only [turns, depthAt, hy] at hn
        obtain ⟨h', k, G, e1, e2, -, -, e5, e6, e7, e8⟩ := C105_copy (n := n) (by simp only [Forest.depth]; omega) h4 hH
        exact ⟨_, by simp only [step, (h1 x hx).1, hb, e1, caught_ok]; rfl, represents_bind hR' hx e2 e7 e5 e6 e8⟩
    · simp [valueStep, hx] at hv
  | assign x y =>
    rcases hx : s x with _ | ⟨d, m⟩
    · simp [valueStep, hx] at hv
    · rcases hy : s y with _ | ⟨d', m'⟩
      · simp [valueStep, hx, hy] at hv
      · simp [valueStep, hx, hy] at hv
        obtain ⟨rfl, rfl⟩ := hv
        obtain ⟨a, ha, hHa⟩ := h2 x d m hx
        obtain ⟨b, hb, hHb⟩ := h2 y d' m' hy
        by_cases hxy : x = y
        · subst hxy
          rw [hx] at hy
          obtain rfl : a = b := by rw [ha] at hb; exact Option.some.inj hb
          refine ⟨st, by simp only [step, ha, C105_assign_self, caught_ok], ?_⟩
          rwa [← hy, ← hx, Function.update_eq_self]
        · simp only [turns, depthAt, hx, hy] at hn
          obtain ⟨h', F', e1, e2, -, -, e5, e6, e7, e8, e9⟩ := C105_assign_partial (n := n) (by omega) (by omega) h4 hHa hHb (h3 x y hxy)
          refine ⟨_, by simp only [step, ha, hb, e1, caught_ok], represents_change h1 h2 h3 h4 h5 ha e2 ?_ e6 e7 ?_⟩
          · intro z hz
            rcases e8 z hz with rfl | h
            · obtain ⟨as, K, -, -, -, hF⟩ := holds_node hHa
              exact Or.inl (by rw [hF]; exact Set.mem_insert _ _)
            · exact Or.inr h
          · rintro z hz (h | h)
            · by_cases hza : z = a
              · obtain ⟨as, K, -, -, -, rfl⟩ := holds_node e2
                exact Or.inl hza
              · exact absurd (e5 z h hza) hz
            · exact e9 z h hz
  | add z x y =>
    rcases hz : s z with _ | w
    · rcases hx : s x with _ | ⟨d, m⟩
      · simp [valueStep, hz, hx] at hv
      · rcases hy : s y with _ | ⟨d', m'⟩
        · simp [valueStep, hz, hx, hy] at hv
        · obtain ⟨a, ha, hHa⟩ := h2 x d m hx
          obtain ⟨b, hb, hHb⟩ := h2 y d' m' hy
          cases hd : ((d && m.allOk ok) && (d' && m'.allOk ok)) with
          | true =>
            simp only [valueStep, hz, hx, hy, hd, if_true, Option.isSome_none, Bool.false_eq_true, if_false, Option.some.injEq, Prod.mk.injEq] at hv
            obtain ⟨rfl, rfl⟩ := hv
            simp only [Bool.and_eq_true] at hd
            obtain ⟨⟨rfl, hm⟩, rfl, hm'⟩ := hd
            simp only [turns, depthAt, hx, hy] at hn
            obtain ⟨h', c, K, e1, e2, e3, e4, e5, e6⟩ := plus_ends (n := n) ok (by omega) (by omega) h4 hHa hHb hm hm'
            exact ⟨_, by simp only [step, (h1 z hz).1, ha, hb, e1, caught_ok]; rfl, represents_bind hR' hz e2 e3 e4 e5 e6⟩
          | false =>
            simp only [valueStep, hz, hx, hy, hd, Option.isSome_none, Bool.false_eq_true, if_false, Option.some.injEq, Prod.mk.injEq] at hv
            obtain ⟨rfl, rfl⟩ := hv
            rw [Bool.and_eq_false_iff] at hd
            simp only [turns, depthAt, hx, hy] at hn
            refine ⟨st, ?_, hR'⟩
            simp only [step, (h1 z hz).1, ha, hb, plus_undefined (n := n) ok (by omega) (by omega) hHa hHb hd, caught_undefined]
            rfl
    · simp [valueStep, hz] at hv
  | append x y =>
    rcases hx : s x with _ | ⟨d, m⟩
    · simp [valueStep, hx] at hv
    · rcases hy : s y with _ | ⟨d', m'⟩
      · simp [valueStep, hx, hy] at hv
      · obtain ⟨a, ha, hHa⟩ := h2 x d m hx
        obtain ⟨b, hb, hHb⟩ := h2 y d' m' hy
        cases hd : ((d && m.allOk ok) && (d' && m'.allOk ok)) with
        | true =>
          simp only [valueStep, hx, hy, hd, if_true, Option.some.injEq, Prod.mk.injEq] at hv
          obtain ⟨rfl, rfl⟩ := hv
          simp only [Bool.and_eq_true] at hd
          obtain ⟨⟨rfl, hm⟩, rfl, hm'⟩ := hd
          simp only [turns, depthAt, hx, hy] at hn
          obtain ⟨h', F', e1, e2, e3, e4, e5, e6, e7⟩ := C105_append (n := n) ok (by omega) (by omega) h4 hHa hHb ⟨rfl, hm⟩ ⟨rfl, hm'⟩
          refine ⟨_, by simp only [step, ha, hb, e1, caught_ok], represents_change h1 h2 h3 h4 h5 ha e2 e4 ?_ e6 ?_⟩
          · intro z hz hzF
            refine e5 z hz ?_
            rintro rfl
            obtain ⟨as, K, -, -, -, hF⟩ := holds_node hHa
            exact hzF (by rw [hF]; exact Set.mem_insert _ _)
          · rintro z hz (h | h)
            · exact e3 h
            · exact e7 z h hz
        | false =>
          simp only [valueStep, hx, hy, hd, Bool.false_eq_true, if_false, Option.some.injEq, Prod.mk.injEq] at hv
          obtain ⟨rfl, rfl⟩ := hv
          rw [Bool.and_eq_false_iff] at hd
          simp only [turns, depthAt, hx, hy] at hn
          refine ⟨st, ?_, hR'⟩
          simp only [step, ha, hb, C105_append_undefined (n := n) ok (by omega) (by omega) hHa hHb hd, caught_undefined]
  | transform x g =>
    rcases hx : s x with _ | ⟨d, m⟩
    · simp [valueStep, hx] at hv
    · obtain ⟨a, ha, hHa⟩ := h2 x d m hx
      cases hd : (d && m.allOk ok) with
      | true =>
        have hg : ∀ v, g v ≠ .error .ub := ht
        have htame := transform_tame (ok := ok) hg m
        simp only [turns, depthAt, hx] at hn
        obtain ⟨h', e1, e2, e3, e4⟩ := transformAll_ends ok g n _ st.heap [a] (F x) (by simp only [Forest.depth]; omega) hHa
        have e1 := transform_of_list e1
        have hf' : Fresh h' := by
          intro z hz
          rw [e4] at hz
          rw [e3 z fun h => by have := hHa.below h4 z h; omega]
          exact h4 z hz
        have hd' : d = true := by simp only [Bool.and_eq_true] at hd; exact hd.1
        subst hd'
        have key : ∀ m' : Forest L, Holds h' (.node true m' .nil) [a] (F x) → Represents ⟨h', st.var⟩ (Function.update s x (some (true, m'))) := fun m' hm' =>
          represents_change h1 h2 h3 h4 h5 ha hm' (fun _ h => Or.inl h) (fun z _ hz => e3 z hz) hf' (by
            rintro z hz (h | h)
            · exact h
            · exact absurd (hf' z (by rw [e4]; exact h)) hz)
        rcases hq : m.transform ok g with ⟨m', e' | u⟩
        · simp only [valueStep, hx, hd, hq, if_true, Option.some.injEq, Prod.mk.injEq] at hv
          obtain ⟨rfl, rfl⟩ := hv
          have htr : (Forest.node true m .nil).transform ok g = (.node true m' .nil, .error e') := by simp only [Forest.transform, hd, hq, if_true]
          rw [htr] at e1 e2
          rw [hq] at htame
          have hne : e' ≠ .ub := fun h => htame (by rw [h])
          refine ⟨_, ?_, key m' e2⟩
          simp only [step, ha, e1]
        · simp only [valueStep, hx, hd, hq, if_true, Option.some.injEq, Prod.mk.injEq] at hv
          obtain ⟨rfl, rfl⟩ := hv
          have htr : (Forest.node true m .nil).transform ok g = (.node true m' .nil, .ok ()) := by simp only [Forest.transform, hd, hq, if_true]
          rw [htr] at e1 e2
          exact ⟨_, by simp only [step, ha, e1], key m' e2⟩
      | false =>
        simp only [valueStep, hx, hd, Bool.false_eq_true, if_false, Option.some.injEq, Prod.mk.injEq] at hv
        obtain ⟨rfl, rfl⟩ := hv
        simp only [turns, depthAt, hx] at hn
        refine ⟨st, ?_, hR'⟩
        simp only [step, ha, C106_undefined ok g (n := n) (by omega) hHa hd]
  | destroy x =>
    rcases hx : s x with _ | ⟨d, m⟩
    · simp [valueStep, hx] at hv
    · simp [valueStep, hx] at hv
      obtain ⟨rfl, rfl⟩ := hv
      obtain ⟨a, ha, hHa⟩ := h2 x d m hx
      simp only [turns, depthAt, hx] at hn
      obtain ⟨h', e1, e2, e3, e4⟩ := destroyAll_ends n _ st.heap [a] (F x) (by simp only [Forest.depth]; omega) hHa
      have e1 := destroy_of_list e1
      refine ⟨_, by simp only [step, ha, e1, caught_ok]; rfl, Function.update F x ∅, ?_, ?_, ?_, ?_, ?_⟩
      · intro y hy
        by_cases e : y = x
        · subst e; simp
        · rw [Function.update_of_ne e] at hy
          simp only
          rw [Function.update_of_ne e, Function.update_of_ne e]
          exact h1 y hy
      · intro y d' m' hy
        by_cases e : y = x
        · subst e; simp at hy
        · rw [Function.update_of_ne e] at hy
          obtain ⟨b, hb, hH⟩ := h2 y d' m' hy
          rw [Function.update_of_ne e]
          refine ⟨b, ?_, hH.frame fun z hz => e3 z (Set.disjoint_left.1 (h3 y x e) hz)⟩
          simp only
          rw [Function.update_of_ne e]
          exact hb
      · intro y z hyz
        by_cases e : y = x
        · subst e; simp
        · by_cases e' : z = x
          · subst e'; simp
          · rw [Function.update_of_ne e, Function.update_of_ne e']
            exact h3 y z hyz
      · intro z hz
        simp only at hz ⊢
        rw [e4] at hz
        by_cases hzF : z ∈ F x
        · exact e2 z hzF
        · rw [e3 z hzF]; exact h4 z hz
      · intro b hb
        simp only at hb
        by_cases hbF : b ∈ F x
        · exact absurd (e2 b hbF) hb
        · rw [e3 b hbF] at hb
          obtain ⟨y, hy⟩ := h5 b hb
          have e : y ≠ x := by rintro rfl; exact hbF hy
          exact ⟨y, by rwa [Function.update_of_ne e]⟩

theorem run_represents {ok : L → Bool} : ∀ (p : List (Command L)) {s s' : Store L} {es : List (Option Err)}, (∀ c ∈ p, Tame c) →
    valueRun ok s p = some (s', es) → ∃ N, ∀ st, Represents st s → ∀ n ≥ N, ∃ st', run ok n st p = some (.ok (st', es)) ∧ Represents st' s'
  | [], s, s', es, _, hv => by
    simp only [valueRun, Option.some.injEq, Prod.mk.injEq] at hv
    obtain ⟨rfl, rfl⟩ := hv
    exact ⟨0, fun st hR n _ => ⟨st, rfl, hR⟩⟩
  | c :: p, s, s', es, ht, hv => by
    rcases hc : valueStep ok s c with _ | ⟨s₁, e⟩
    · simp [valueRun, hc] at hv
    · rcases hp : valueRun ok s₁ p with _ | ⟨s₂, es'⟩
      · simp [valueRun, hc, hp] at hv
      · simp only [valueRun, hc, hp, Option.some.injEq, Prod.mk.injEq] at hv
        obtain ⟨rfl, rfl⟩ := hv
        obtain ⟨N, hN⟩ := run_represents p (fun c h => ht c (List.mem_cons_of_mem _ h)) hp
        refine ⟨max (turns s c) N, fun st hR n hn => ?_⟩
        obtain ⟨st₁, e1, hR₁⟩ := step_represents (n := n) (by omega) hR (ht c (by simp)) hc
        obtain ⟨st₂, e2, hR₂⟩ := hN st₁ hR₁ n (by omega)
        exact ⟨st₂, by simp only [run, e1, e2], hR₂⟩

/-- **C121.** Any program over composites, whatever it makes, copies, assigns, adds, transforms and destroys and whatever throws on the way, never reaches undefined behaviour, throws what the
program over values throws, and ends with variables that are worth what they are in the program over values, that share no storage, and that own all the memory in use. -/
theorem C121_composites (ok : L → Bool) (p : List (Command L)) (ht : ∀ c ∈ p, Tame c) (s : Store L) (es : List (Option Err)) (hv : valueRun ok (fun _ => none) p = some (s, es)) :
    ∃ N, ∀ n ≥ N, ∃ st, run ok n State.start p = some (.ok (st, es)) ∧ Represents st s := by
  obtain ⟨N, hN⟩ := run_represents p ht hv
  exact ⟨N, hN _ ⟨fun _ => ∅, fun _ _ => ⟨rfl, rfl⟩, fun _ _ _ h => by simp at h, fun _ _ _ => by simp, fun _ _ => rfl, fun _ h => absurd rfl h⟩⟩

/-- **C121.** When all the variables are destroyed at the end, the memory is empty. -/
theorem C121_no_leak (ok : L → Bool) (p : List (Command L)) (ht : ∀ c ∈ p, Tame c) (s : Store L) (es : List (Option Err)) (hv : valueRun ok (fun _ => none) p = some (s, es))
    (hs : ∀ x, s x = none) : ∃ N, ∀ n ≥ N, ∃ st, run ok n State.start p = some (.ok (st, es)) ∧ ∀ a, st.heap.cell a = none := by
  obtain ⟨N, hN⟩ := C121_composites ok p ht s es hv
  refine ⟨N, fun n hn => ?_⟩
  obtain ⟨st, e, F, h1, -, -, -, h5⟩ := hN n hn
  refine ⟨st, e, fun a => ?_⟩
  by_contra hc
  obtain ⟨x, hx⟩ := h5 a hc
  rw [(h1 x (hs x)).2] at hx
  exact absurd hx (by simp)

/-! polygons -/

theorem polygon_step {st : Pimpl.State V} {s s' : ℕ → Option V} {c : Pimpl.Command V} {e : Option Err} (hR : Owns st s) (hv : polygonStep s c = some (s', e)) :
    ∃ st', Pimpl.step st c = .ok (st', e) ∧ Owns st' s' := by
  obtain ⟨h1, h2, h3, h4, h5⟩ := hR
  have hlt : ∀ a, st.impl a ≠ none → a < st.next := fun a ha => by
    by_contra hc
    exact ha (h4 a (not_lt.1 hc))
  have hadd : ∀ x v, s x = none → Owns ⟨Function.update st.var x (some (some st.next)), Function.update st.impl st.next (some v), st.next + 1⟩ (Function.update s x (some v)) := by
    intro x v hx
    have hold : ∀ y a, st.var y = some (some a) → a ≠ st.next := by
      rintro y a ha rfl
      rcases hy : s y with _ | w
      · rw [h1 y hy] at ha; cases ha
      · obtain ⟨b, hb, hb'⟩ := h2 y w hy
        rw [hb] at ha
        have := Option.some.inj (Option.some.inj ha)
        rw [this, h4 _ le_rfl] at hb'
        cases hb'
    refine ⟨?_, ?_, ?_, ?_, ?_⟩
    · intro y hy
      by_cases e : y = x
      · subst e; simp at hy
      · rw [Function.update_of_ne e] at hy
        simp only
        rw [Function.update_of_ne e]
        exact h1 y hy
    · intro y w hy
      by_cases e : y = x
      · subst e
        rw [Function.update_self] at hy
        exact ⟨st.next, by simp, by simp only; rw [Function.update_self]; exact hy⟩
      · rw [Function.update_of_ne e] at hy
        obtain ⟨a, ha, ha'⟩ := h2 y w hy
        refine ⟨a, by simp only; rw [Function.update_of_ne e]; exact ha, ?_⟩
        simp only
        rw [Function.update_of_ne (hold y a ha)]
        exact ha'
    · intro y z a hy hz
      simp only at hy hz
      by_cases e : y = x
      · by_cases e' : z = x
        · rw [e, e']
        · rw [e, Function.update_self] at hy
          rw [Function.update_of_ne e'] at hz
          exact absurd (Option.some.inj (Option.some.inj hy)).symm (hold z a hz)
      · rw [Function.update_of_ne e] at hy
        by_cases e' : z = x
        · rw [e', Function.update_self] at hz
          exact absurd (Option.some.inj (Option.some.inj hz)).symm (hold y a hy)
        · rw [Function.update_of_ne e'] at hz
          exact h3 y z a hy hz
    · intro a ha
      simp only at ha ⊢
      rw [Function.update_of_ne (by omega)]
      exact h4 a (by omega)
    · intro a ha
      simp only at ha
      by_cases e : a = st.next
      · exact ⟨x, by simp [e]⟩
      · rw [Function.update_of_ne e] at ha
        obtain ⟨y, hy⟩ := h5 a ha
        have e' : y ≠ x := by
          rintro rfl
          rw [h1 y hx] at hy
          cases hy
        exact ⟨y, by simp only; rw [Function.update_of_ne e']; exact hy⟩
  have hput : ∀ x a w, st.var x = some (some a) → (s x).isSome → Owns ⟨st.var, Function.update st.impl a (some w), st.next⟩ (Function.update s x (some w)) := by
    intro x a w ha hs
    have halive : st.impl a ≠ none := by
      rcases hx : s x with _ | v
      · rw [hx] at hs; cases hs
      · obtain ⟨b, hb, hb'⟩ := h2 x v hx
        rw [ha] at hb
        rw [Option.some.inj (Option.some.inj hb), hb']
        simp
    refine ⟨?_, ?_, h3, ?_, ?_⟩
    · intro y hy
      by_cases e : y = x
      · subst e; simp at hy
      · rw [Function.update_of_ne e] at hy
        exact h1 y hy
    · intro y v hy
      by_cases e : y = x
      · subst e
        rw [Function.update_self] at hy
        exact ⟨a, ha, by simp only; rw [Function.update_self]; exact hy⟩
      · rw [Function.update_of_ne e] at hy
        obtain ⟨b, hb, hb'⟩ := h2 y v hy
        refine ⟨b, hb, ?_⟩
        simp only
        rw [Function.update_of_ne]
        · exact hb'
        · rintro rfl
          exact e (h3 y x b hb ha)
    · intro b hb
      simp only at hb ⊢
      have := hlt a halive
      rw [Function.update_of_ne (by omega)]
      exact h4 b hb
    · intro b hb
      by_cases e : b = a
      · exact ⟨x, by rw [e]; exact ha⟩
      · simp only at hb
        rw [Function.update_of_ne e] at hb
        exact h5 b hb
  cases c with
  | make x v =>
    rcases hx : s x with _ | w
    · simp [polygonStep, hx] at hv
      obtain ⟨rfl, rfl⟩ := hv
      exact ⟨_, by simp only [Pimpl.step, h1 x hx]; rfl, hadd x v hx⟩
    · simp [polygonStep, hx] at hv
  | copy x y =>
    rcases hx : s x with _ | w
    · rcases hy : s y with _ | v
      · simp [polygonStep, hx, hy] at hv
      · simp [polygonStep, hx, hy] at hv
        obtain ⟨rfl, rfl⟩ := hv
        obtain ⟨b, hb, hb'⟩ := h2 y v hy
        exact ⟨_, by simp only [Pimpl.step, h1 x hx, hb, Pimpl.copyOf, hb']; rfl, hadd x v hx⟩
    · simp [polygonStep, hx] at hv
  | assign x y =>
    rcases hx : s x with _ | u
    · simp [polygonStep, hx] at hv
    · rcases hy : s y with _ | v
      · simp [polygonStep, hx, hy] at hv
      · simp [polygonStep, hx, hy] at hv
        obtain ⟨rfl, rfl⟩ := hv
        obtain ⟨a, ha, ha'⟩ := h2 x u hx
        obtain ⟨b, hb, hb'⟩ := h2 y v hy
        by_cases hxy : x = y
        · subst hxy
          refine ⟨st, by simp only [Pimpl.step, ha]; rfl, ?_⟩
          rw [← hy, Function.update_eq_self]
          exact ⟨h1, h2, h3, h4, h5⟩
        · have han := hlt a (by rw [ha']; simp)
          refine ⟨⟨Function.update st.var x (some (some st.next)), Function.update (Function.update st.impl st.next (some v)) a none, st.next + 1⟩, ?_, ?_⟩
          · have : Function.update st.impl st.next (some v) a = some u := by rw [Function.update_of_ne (by omega), ha']
            simp only [Pimpl.step, hxy, if_false, ha, hb, Pimpl.copyOf, hb', Pimpl.delete, bind, Except.bind, this, pure, Except.pure]
          · refine ⟨?_, ?_, ?_, ?_, ?_⟩
            · intro z hz
              have e : z ≠ x := by rintro rfl; simp at hz
              rw [Function.update_of_ne e] at hz
              simp only
              rw [Function.update_of_ne e]
              exact h1 z hz
            · intro z w hz
              by_cases e : z = x
              · subst e
                rw [Function.update_self] at hz
                refine ⟨st.next, by simp, ?_⟩
                simp only
                rw [Function.update_of_ne (by omega), Function.update_self]
                exact hz
              · rw [Function.update_of_ne e] at hz
                obtain ⟨k, hk, hk'⟩ := h2 z w hz
                have hkn := hlt k (by rw [hk']; simp)
                refine ⟨k, by simp only; rw [Function.update_of_ne e]; exact hk, ?_⟩
                simp only
                rw [Function.update_of_ne, Function.update_of_ne (by omega)]
                · exact hk'
                · rintro rfl
                  exact e (h3 z x k hk ha)
            · have hold : ∀ z k, st.var z = some (some k) → k ≠ st.next := by
                rintro z k hk rfl
                rcases hz : s z with _ | w
                · rw [h1 z hz] at hk; cases hk
                · obtain ⟨b, hb, hb'⟩ := h2 z w hz
                  rw [hb] at hk
                  rw [Option.some.inj (Option.some.inj hk), h4 _ le_rfl] at hb'
                  cases hb'
              intro z w k hz hw
              simp only at hz hw
              by_cases e : z = x
              · by_cases e' : w = x
                · rw [e, e']
                · rw [e, Function.update_self] at hz
                  rw [Function.update_of_ne e'] at hw
                  exact absurd (Option.some.inj (Option.some.inj hz)).symm (hold w k hw)
              · rw [Function.update_of_ne e] at hz
                by_cases e' : w = x
                · rw [e', Function.update_self] at hw
                  exact absurd (Option.some.inj (Option.some.inj hw)).symm (hold z k hz)
                · rw [Function.update_of_ne e'] at hw
                  exact h3 z w k hz hw
            · intro k hk
              simp only at hk ⊢
              rw [Function.update_of_ne (by omega), Function.update_of_ne (by omega)]
              exact h4 k (by omega)
            · intro k hk
              simp only at hk
              have hka : k ≠ a := by rintro rfl; simp at hk
              rw [Function.update_of_ne hka] at hk
              by_cases e : k = st.next
              · exact ⟨x, by simp [e]⟩
              · rw [Function.update_of_ne e] at hk
                obtain ⟨z, hz⟩ := h5 k hk
                have e' : z ≠ x := by
                  rintro rfl
                  rw [ha] at hz
                  exact hka (Option.some.inj (Option.some.inj hz)).symm
                exact ⟨z, by simp only; rw [Function.update_of_ne e']; exact hz⟩
  | change x g =>
    rcases hx : s x with _ | v
    · simp [polygonStep, hx] at hv
    · obtain ⟨a, ha, ha'⟩ := h2 x v hx
      rcases hg : g v with e' | w
      · simp [polygonStep, hx, hg] at hv
        obtain ⟨rfl, rfl⟩ := hv
        exact ⟨st, by simp only [Pimpl.step, ha, ha', hg], h1, h2, h3, h4, h5⟩
      · simp [polygonStep, hx, hg] at hv
        obtain ⟨rfl, rfl⟩ := hv
        exact ⟨_, by simp only [Pimpl.step, ha, ha', hg], hput x a w ha (by rw [hx]; rfl)⟩
  | destroy x =>
    rcases hx : s x with _ | v
    · simp [polygonStep, hx] at hv
    · simp [polygonStep, hx] at hv
      obtain ⟨rfl, rfl⟩ := hv
      obtain ⟨a, ha, ha'⟩ := h2 x v hx
      refine ⟨⟨Function.update st.var x none, Function.update st.impl a none, st.next⟩, ?_, ?_, ?_, ?_, ?_, ?_⟩
      · simp only [Pimpl.step, ha, Pimpl.delete, ha', bind, Except.bind, pure, Except.pure]
      · intro z hz
        simp only
        by_cases e : z = x
        · rw [e, Function.update_self]
        · rw [Function.update_of_ne e] at hz ⊢
          exact h1 z hz
      · intro z w hz
        have e : z ≠ x := by rintro rfl; simp at hz
        rw [Function.update_of_ne e] at hz
        obtain ⟨k, hk, hk'⟩ := h2 z w hz
        refine ⟨k, by simp only; rw [Function.update_of_ne e]; exact hk, ?_⟩
        simp only
        rw [Function.update_of_ne]
        · exact hk'
        · rintro rfl
          exact e (h3 z x k hk ha)
      · intro z w k hz hw
        simp only at hz hw
        have e : z ≠ x := by rintro rfl; simp at hz
        have e' : w ≠ x := by rintro rfl; simp at hw
        rw [Function.update_of_ne e] at hz
        rw [Function.update_of_ne e'] at hw
        exact h3 z w k hz hw
      · intro k hk
        simp only at hk ⊢
        by_cases e : k = a
        · rw [e, Function.update_self]
        · rw [Function.update_of_ne e]
          exact h4 k hk
      · intro k hk
        simp only at hk
        have hka : k ≠ a := by rintro rfl; simp at hk
        rw [Function.update_of_ne hka] at hk
        obtain ⟨z, hz⟩ := h5 k hk
        have e' : z ≠ x := by
          rintro rfl
          rw [ha] at hz
          exact hka (Option.some.inj (Option.some.inj hz)).symm
        exact ⟨z, by simp only; rw [Function.update_of_ne e']; exact hz⟩

theorem polygon_run : ∀ (p : List (Pimpl.Command V)) {st : Pimpl.State V} {s s' : ℕ → Option V} {es : List (Option Err)}, Owns st s → polygonRun s p = some (s', es) →
    ∃ st', Pimpl.run st p = .ok (st', es) ∧ Owns st' s'
  | [], st, s, s', es, hR, hv => by
    simp only [polygonRun, Option.some.injEq, Prod.mk.injEq] at hv
    obtain ⟨rfl, rfl⟩ := hv
    exact ⟨st, rfl, hR⟩
  | c :: p, st, s, s', es, hR, hv => by
    rcases hc : polygonStep s c with _ | ⟨s₁, e⟩
    · simp [polygonRun, hc] at hv
    · rcases hp : polygonRun s₁ p with _ | ⟨s₂, es'⟩
      · simp [polygonRun, hc, hp] at hv
      · simp only [polygonRun, hc, hp, Option.some.injEq, Prod.mk.injEq] at hv
        obtain ⟨rfl, rfl⟩ := hv
        obtain ⟨st₁, e1, hR₁⟩ := polygon_step hR hc
        obtain ⟨st₂, e2, hR₂⟩ := polygon_run p hR₁ hp
        exact ⟨st₂, by simp only [Pimpl.run, e1, bind, Except.bind, e2, pure, Except.pure], hR₂⟩

/-- **C121.** Any program over polygons, or over multi-polygons, whatever it makes, copies, assigns, transforms and destroys, never reaches undefined behaviour, throws what the program over values
throws, and ends with variables that each own one polygon worth what it is in the program over values; nothing else is in memory, and no pointer is null. -/
theorem C121_polygons (p : List (Pimpl.Command V)) (s : ℕ → Option V) (es : List (Option Err)) (hv : polygonRun (fun _ => none) p = some (s, es)) :
    ∃ st, Pimpl.run Pimpl.State.start p = .ok (st, es) ∧ Owns st s :=
  polygon_run p ⟨fun _ _ => rfl, fun _ _ h => by simp at h, fun _ _ _ h => by simp [Pimpl.State.start] at h, fun _ _ => rfl, fun _ h => absurd rfl h⟩ hv

/-- a composite is made, put into another one, changed afterwards, appended to itself, assigned; a transformation throws half-way; and all are destroyed: the copy inside keeps its worth -/
example : ∃ s es, valueRun (L := ℕ) (fun v => v != 0) (fun _ => none)
    [.make 0 7, .wrap 1 0, .transform 0 (fun v => .ok (v + 1)), .append 0 0, .append 1 0, .transform 1 (fun v => if v = 7 then .ok 9 else .error .wrong), .undefined 2, .add 3 1 2, .assign 2 1,
      .destroy 1, .destroy 0] = some (s, es) ∧
    s 2 = some (true, .node true (.leaf 9 .nil) (.leaf 8 (.leaf 8 .nil))) ∧ s 0 = none ∧ s 1 = none ∧ s 3 = none ∧
    es = [none, none, none, none, none, some .wrong, none, some .undefined, none, none, none] :=
  ⟨_, _, rfl, rfl, rfl, rfl, rfl, rfl⟩

/-- a polygon is copied and the copy is changed; a change that throws leaves it -/
example : ∃ s, polygonRun (V := ℕ) (fun _ => none) [.make 0 5, .copy 1 0, .change 1 (fun v => .ok (v + 1)), .change 0 (fun _ => .error .wrong), .assign 0 0] =
    some (s, [none, none, none, some .wrong, none]) ∧ s 0 = some 5 ∧ s 1 = some 6 :=
  ⟨_, rfl, rfl, rfl⟩

end Verif.Props
