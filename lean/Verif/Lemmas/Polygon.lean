import Verif.Model.Polygon
import Verif.Spec.Polygon
import Verif.Lemmas.Points
import Mathlib.Tactic.Ring
import Mathlib.Tactic.Linarith
import Mathlib.Algebra.BigOperators.Group.List.Basic

/-!
# Rings
-/

namespace Verif

open Verif.Spec

theorem mapRes_need {α : Type} (l : List α) : mapRes need (l.map some) = .ok l := by
  induction l with
  | nil => rfl
  | cons a l ih => simp [mapRes, need, ih]

theorem mapRes_need_inv {α : Type} {l : List (Option α)} {m : List α} (h : mapRes need l = .ok m) : l = m.map some := by
  induction l generalizing m with
  | nil => simp only [mapRes, Except.ok.injEq] at h; subst h; rfl
  | cons a l ih =>
    cases a with
    | none => simp [mapRes, need] at h
    | some a =>
      simp only [mapRes, need] at h
      cases h' : mapRes need l with
      | error e => simp [h'] at h
      | ok k =>
        simp only [h', Except.ok.injEq] at h
        subst h
        rw [ih h']; rfl

namespace Ring

/-- a ring with a last point equal to the first one -/
def Closed (r : List V2) : Prop := ∃ v vs, r = v :: vs ++ [v] ∧ 0 < vs.length

theorem Closed.length {r : List V2} (h : Closed r) : 3 ≤ r.length := by
  obtain ⟨v, vs, rfl, hl⟩ := h
  simp; omega

theorem Closed.reverse {r : List V2} (h : Closed r) : Closed r.reverse := by
  obtain ⟨v, vs, rfl, hl⟩ := h
  exact ⟨v, vs.reverse, by simp, by simpa using hl⟩

theorem close_closed {r : List V2} (h : 3 ≤ r.length) : Closed (close r) := by
  obtain ⟨v, vs, rfl⟩ : ∃ v vs, r = v :: vs := by
    cases r with
    | nil => simp at h
    | cons v vs => exact ⟨v, vs, rfl⟩
  simp only [List.length_cons] at h
  rw [close]
  split
  · exact ⟨v, vs, by simp, by omega⟩
  · rename_i hn
    have he : (v :: vs).head? = (v :: vs).getLast? := by
      by_contra hc; exact hn ⟨by simp; omega, hc⟩
    have hne : vs ≠ [] := by rintro rfl; simp at h
    rw [List.head?_cons, List.getLast?_cons_of_ne_nil hne] at he
    have hl : vs.getLast hne = v := by
      rw [List.getLast?_eq_some_getLast hne] at he
      exact (Option.some.inj he).symm
    refine ⟨v, vs.dropLast, ?_, ?_⟩
    · conv_lhs => rw [← List.dropLast_append_getLast hne, hl]
      rfl
    · rw [List.length_dropLast]; omega

theorem close_of_closed {r : List V2} (h : Closed r) : close r = r := by
  obtain ⟨v, vs, rfl, -⟩ := h
  rw [close, if_neg]
  rintro ⟨-, h⟩
  rw [List.getLast?_concat] at h
  simp at h

theorem correctOuter_closed {r : List V2} (h : 3 ≤ r.length) : Closed (correctOuter r) := by
  rw [correctOuter]; split
  · exact (close_closed h).reverse
  · exact close_closed h

theorem correctInner_closed {r : List V2} (h : 3 ≤ r.length) : Closed (correctInner r) := by
  rw [correctInner]; split
  · exact (close_closed h).reverse
  · exact close_closed h

theorem area2_append (l : List V2) (p q : V2) : area2 (l ++ [p, q]) = area2 (l ++ [p]) + (p.x + q.x) * (p.y - q.y) := by
  induction l with
  | nil => simp [area2]
  | cons a l ih =>
    cases l with
    | nil => simp [area2]
    | cons b l =>
      simp only [List.cons_append] at ih ⊢
      rw [area2, ih, area2]; ring

theorem area2_reverse (r : List V2) : area2 r.reverse = -area2 r := by
  induction r with
  | nil => simp [area2]
  | cons p r ih =>
    cases r with
    | nil => simp [area2]
    | cons q r =>
      simp only [List.reverse_cons, List.append_assoc, List.cons_append, List.nil_append] at ih ⊢
      rw [area2_append, ih, area2]; ring

theorem signedArea_reverse (r : List V2) : signedArea r.reverse = -signedArea r := by
  rw [signedArea, signedArea, List.length_reverse, area2_reverse]; split <;> simp

/-- the trapezoids and the shoelace formula -/
theorem area2_path (v : V2) (vs : List V2) (e : V2) :
    area2 (v :: vs ++ [e]) = (List.zipWith (fun p q : V2 => q.x * p.y - p.x * q.y) (v :: vs) (vs ++ [e])).sum + v.x * v.y - e.x * e.y := by
  induction vs generalizing v with
  | nil => simp [area2]; ring
  | cons w vs ih =>
    have := ih w
    simp only [List.cons_append, List.zipWith_cons_cons, List.sum_cons] at this ⊢
    rw [area2, this]; ring

theorem area2_ring (v : V2) (vs : List V2) : area2 (v :: vs ++ [v]) = ringArea (v :: vs) := by
  rw [area2_path, ringArea, List.rotate_cons_succ, List.rotate_zero]; ring

theorem ringArea_pair (v w : V2) : ringArea [v, w] = 0 := by
  simp [ringArea]

theorem signedArea_ring (v : V2) (vs : List V2) (h : 0 < vs.length) : signedArea (v :: vs ++ [v]) = ringArea (v :: vs) := by
  rw [signedArea]
  split
  · rename_i hl
    simp only [List.cons_append, List.length_cons, List.length_append, List.length_nil] at hl
    obtain ⟨w, rfl⟩ : ∃ w, vs = [w] := List.length_eq_one_iff.1 (by omega)
    rw [ringArea_pair]
  · exact area2_ring v vs

theorem turned_eq (v : V2) (vs : List V2) : (v :: vs ++ [v]).reverse = turnedRing (v :: vs) ++ [v] := by
  simp [turnedRing]

theorem ringArea_turned (vs : List V2) : ringArea (turnedRing vs) = -ringArea vs := by
  cases vs with
  | nil => simp [turnedRing, ringArea]
  | cons v vs =>
    rw [turnedRing, ← area2_ring, ← area2_ring, ← area2_reverse]
    simp

/-- the closed ring of a list of points -/
theorem close_vertices {ps vs : List V2} (h : 3 ≤ ps.length) (hv : RingVertices ps vs) : ∃ v ws, vs = v :: ws ∧ 0 < ws.length ∧ close ps = v :: ws ++ [v] := by
  rcases hv with ⟨rfl, hne⟩ | ⟨v, rfl, hh⟩
  · cases ps with
    | nil => simp at h
    | cons v ws =>
      simp only [List.length_cons] at h
      refine ⟨v, ws, rfl, by omega, ?_⟩
      rw [close, if_pos ⟨by simp; omega, hne⟩]; simp
  · cases vs with
    | nil => simp at h
    | cons w ws =>
      simp only [List.length_append, List.length_cons, List.length_nil] at h
      simp only [List.cons_append, List.head?_cons, Option.some.injEq] at hh
      subst hh
      exact ⟨w, ws, rfl, by omega, close_of_closed ⟨w, ws, rfl, by omega⟩⟩

theorem ringVertices_exists {ps : List V2} (h : 3 ≤ ps.length) : ∃ vs, RingVertices ps vs := by
  by_cases hne : ps.head? = ps.getLast?
  · have hn : ps ≠ [] := by rintro rfl; simp at h
    refine ⟨ps.dropLast, .inr ⟨ps.getLast hn, (List.dropLast_append_getLast hn).symm, ?_⟩⟩
    rw [hne, List.getLast?_eq_some_getLast hn]
  · exact ⟨ps, .inl ⟨rfl, hne⟩⟩

theorem correctOuter_vertices {ps vs : List V2} (h : 3 ≤ ps.length) (hv : RingVertices ps vs) :
    (correctOuter ps).dropLast = if ringArea vs < 0 then turnedRing vs else vs := by
  obtain ⟨v, ws, rfl, hl, hc⟩ := close_vertices h hv
  rw [correctOuter, hc, signedArea_ring v ws hl]
  split
  · rw [turned_eq, List.dropLast_concat]
  · rw [List.dropLast_concat]

theorem correctInner_vertices {ps vs : List V2} (h : 3 ≤ ps.length) (hv : RingVertices ps vs) :
    (correctInner ps).dropLast = if 0 < ringArea vs then turnedRing vs else vs := by
  obtain ⟨v, ws, rfl, hl, hc⟩ := close_vertices h hv
  rw [correctInner, hc, signedArea_ring v ws hl]
  split
  · rw [turned_eq, List.dropLast_concat]
  · rw [List.dropLast_concat]

theorem correctOuter_idem {r : List V2} (h : 3 ≤ r.length) : correctOuter (correctOuter r) = correctOuter r := by
  have hc := correctOuter_closed h
  conv_lhs => rw [correctOuter, close_of_closed hc]
  rw [if_neg]
  rw [correctOuter]
  split
  · rename_i h1; rw [signedArea_reverse]; linarith
  · assumption

theorem correctInner_idem {r : List V2} (h : 3 ≤ r.length) : correctInner (correctInner r) = correctInner r := by
  have hc := correctInner_closed h
  conv_lhs => rw [correctInner, close_of_closed hc]
  rw [if_neg]
  rw [correctInner]
  split
  · rename_i h1; rw [signedArea_reverse]; linarith
  · assumption

end Ring

namespace Polygon2

/-- what the constructor makes of its rings -/
theorem ctor_ok {ps : List V2} {is : List (List V2)} (h : 3 ≤ ps.length) (hi : ∀ r ∈ is, 3 ≤ r.length) :
    ctor (ps.map some) (is.map (·.map some)) = .ok ⟨Ring.correctOuter ps, is.map Ring.correctInner⟩ := by
  have add : ∀ (o : List V2) (js is : List (List V2)), Ring.correctOuter o = o → (∀ r ∈ js, Ring.correctInner r = r) → (∀ r ∈ is, 3 ≤ r.length) →
      addRings ⟨o, js⟩ (is.map (·.map some)) = .ok ⟨o, js ++ is.map Ring.correctInner⟩ := by
    intro o js is ho
    induction is generalizing js with
    | nil => intro _ _; simp [addRings]
    | cons r is ih =>
      intro hj hl
      have hr := hl r (by simp)
      rw [List.map_cons, addRings, if_neg (by simp; omega), mapRes_need]
      simp only [bind, Except.bind, correct, ho, List.map_append, List.map_cons, List.map_nil]
      rw [show js.map Ring.correctInner = js from (List.map_congr_left hj).trans (List.map_id' js)]
      rw [ih _ (by
        intro s hs
        rcases List.mem_append.1 hs with hs | hs
        · exact hj s hs
        · rw [List.mem_singleton.1 hs]; exact Ring.correctInner_idem hr) (fun s hs => hl s (by simp [hs]))]
      simp
  rw [ctor, ofPoints, if_neg (by simp; omega), mapRes_need]
  simp only [bind, Except.bind, pure, Except.pure, correct, List.map_nil]
  rw [add _ [] is (Ring.correctOuter_idem h) (by simp) hi]
  simp

theorem addRings_inv {p q : Polygon2} {rs : List (List (Option V2))} (h : addRings p rs = .ok q) :
    ∃ is : List (List V2), rs = is.map (·.map some) ∧ ∀ r ∈ is, 3 ≤ r.length := by
  induction rs generalizing p with
  | nil => exact ⟨[], rfl, by simp⟩
  | cons r rs ih =>
    rw [addRings] at h
    split at h
    · simp at h
    · rename_i hl
      cases hm : mapRes need r with
      | error e => simp [hm, bind, Except.bind] at h
      | ok vs =>
        simp only [hm, bind, Except.bind] at h
        obtain ⟨is, rfl, his⟩ := ih h
        have := mapRes_need_inv hm
        subst this
        refine ⟨vs :: is, rfl, ?_⟩
        simp only [List.length_map] at hl
        intro s hs
        rcases List.mem_cons.1 hs with rfl | hs
        · omega
        · exact his s hs

/-- what a defined polygon was built from -/
theorem ctor_inv {o : List (Option V2)} {rs : List (List (Option V2))} {p : Polygon2} (h : ctor o rs = .ok p) (hd : p.isDefined = true) :
    ∃ (ps : List V2) (is : List (List V2)), o = ps.map some ∧ rs = is.map (·.map some) ∧ 3 ≤ ps.length ∧ ∀ r ∈ is, 3 ≤ r.length := by
  rw [ctor, ofPoints] at h
  split at h
  · simp [bind, Except.bind] at h
  · rename_i hl
    cases hm : mapRes need o with
    | error e => simp [hm, bind, Except.bind] at h
    | ok vs =>
      simp only [hm, bind, Except.bind, pure, Except.pure] at h
      obtain ⟨is, rfl, his⟩ := addRings_inv h
      have := mapRes_need_inv hm
      subst this
      refine ⟨vs, is, rfl, rfl, ?_, his⟩
      cases vs with
      | cons v vs => simp at hl ⊢; omega
      | nil =>
        exfalso
        -- without outer points the outer ring stays empty
        have key : ∀ (is : List (List V2)) (q r : Polygon2), q.outer = [] → addRings q (is.map (·.map some)) = .ok r → r.outer = [] := by
          intro is
          induction is with
          | nil => intro q r hq hr; simp only [List.map_nil, addRings, Except.ok.injEq] at hr; rwa [← hr]
          | cons i is ih =>
            intro q r hq hr
            rw [List.map_cons, addRings] at hr
            split at hr
            · simp at hr
            · rw [mapRes_need] at hr
              simp only [bind, Except.bind] at hr
              refine ih _ _ ?_ hr
              simp [correct, hq, Ring.correctOuter, Ring.close]
        have := key is _ p (by simp [correct, Ring.correctOuter, Ring.close]) h
        simp [isDefined, this] at hd

end Polygon2

end Verif
