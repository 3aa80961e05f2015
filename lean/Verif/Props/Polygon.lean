import Verif.Lemmas.Cone
import Verif.Lemmas.Polygon
import Verif.Lemmas.TransformationShape
import Verif.Props.Rigid
import Verif.Props.Transformation

/-!
# Polygons: C58 and C59
-/

namespace Verif.Props

open Verif Verif.Spec Classical

/-! ## The rings of a polygon -/

theorem inner_vertices (p : Polygon2) : mapRes p.innerVerticesAt (List.range p.inners.length) = .ok (p.inners.map List.dropLast) := by
  rw [mapRes_ok (g := fun i => (p.inners[i]?.getD []).dropLast)]
  · congr 1
    apply List.ext_getElem
    · simp
    · intro i h1 h2
      simp only [List.length_map, List.length_range] at h1
      simp [h1]
  · intro i hi
    rw [List.mem_range] at hi
    rw [Polygon2.innerVerticesAt, List.getElem?_eq_getElem hi]; rfl

/-- **C58.** The polygon with a given outer ring and given inner rings has the vertices of these rings, the outer ring clockwise and the inner rings
counterclockwise. A ring starts at its first point. A repeated last point is dropped. -/
theorem C58_vertices (ps vs : List V2) (is wss : List (List V2)) (h : 3 ≤ ps.length) (hi : ∀ r ∈ is, 3 ≤ r.length) (hv : RingVertices ps vs)
    (hw : List.Forall₂ RingVertices is wss) :
    ∃ p, Polygon2.ctor (ps.map some) (is.map (·.map some)) = .ok p ∧ p.isDefined = true ∧
      p.getVertices = .ok ((if ringArea vs < 0 then turnedRing vs else vs) ++
        (wss.map fun ws => if 0 < ringArea ws then turnedRing ws else ws).flatten) := by
  refine ⟨_, Polygon2.ctor_ok h hi, ?_, ?_⟩
  · simpa [Polygon2.isDefined] using (Ring.correctOuter_closed h).length
  · have hd : 3 ≤ (Ring.correctOuter ps).length := (Ring.correctOuter_closed h).length
    rw [Polygon2.getVertices, if_neg (by simp [Polygon2.isDefined, hd])]
    have hm := inner_vertices ⟨Ring.correctOuter ps, is.map Ring.correctInner⟩
    simp only [hm, bind, Except.bind, pure, Except.pure, Polygon2.outerVertices, Ring.correctOuter_vertices h hv, Except.ok.injEq]
    congr 2
    clear hm hd
    induction hw with
    | nil => rfl
    | cons h1 h2 ih =>
      simp only [List.map_cons, List.cons.injEq]
      exact ⟨Ring.correctInner_vertices (hi _ (by simp)) h1, ih (fun r hr => hi r (by simp [hr]))⟩

/-- the orientation of the rings -/
theorem C58_orientation (vs : List V2) : 0 ≤ ringArea (if ringArea vs < 0 then turnedRing vs else vs) ∧
    ringArea (if 0 < ringArea vs then turnedRing vs else vs) ≤ 0 := by
  constructor
  · split
    · rw [Ring.ringArea_turned]; linarith
    · linarith
  · split
    · rw [Ring.ringArea_turned]; linarith
    · linarith

/-- a counterclockwise square with its first point repeated becomes clockwise -/
example : ∃ p, Polygon2.ctor (([⟨0, 0⟩, ⟨1, 0⟩, ⟨1, 1⟩, ⟨0, 1⟩, ⟨0, 0⟩] : List V2).map some) [] = .ok p ∧ p.isDefined = true ∧
    p.getVertices = .ok [⟨0, 0⟩, ⟨0, 1⟩, ⟨1, 1⟩, ⟨1, 0⟩] := by
  obtain ⟨p, h1, h2, h3⟩ := C58_vertices [⟨0, 0⟩, ⟨1, 0⟩, ⟨1, 1⟩, ⟨0, 1⟩, ⟨0, 0⟩] [⟨0, 0⟩, ⟨1, 0⟩, ⟨1, 1⟩, ⟨0, 1⟩] [] [] (by simp) (by simp)
    (.inr ⟨⟨0, 0⟩, rfl, rfl⟩) .nil
  refine ⟨p, h1, h2, h3.trans ?_⟩
  norm_num [ringArea, turnedRing]

/-- **C58.** One or two points, or an inner ring of less than three points, or an undefined point are refused. Without outer points the polygon is
undefined. -/
theorem C58_refused (o : List (Option V2)) (rs : List (List (Option V2))) :
    (0 < o.length → o.length < 3 → Polygon2.ctor o rs = .error .runtimeError) ∧
    (∀ r ∈ rs, r.length < 3 → ∃ e, Polygon2.ctor o rs = .error e) ∧ (none ∈ o → ∃ e, Polygon2.ctor o rs = .error e) ∧
    (∀ r ∈ rs, none ∈ r → ∃ e, Polygon2.ctor o rs = .error e) ∧
    ∀ p, Polygon2.ctor o rs = .ok p → (p.isDefined = true ↔ o ≠ []) := by
  have inv : ∀ p, Polygon2.ctor o rs = .ok p → ∃ (ps : List V2) (is : List (List V2)), o = ps.map some ∧ rs = is.map (·.map some) ∧
      (ps ≠ [] → 3 ≤ ps.length) ∧ ∀ r ∈ is, 3 ≤ r.length := by
    intro p h
    rw [Polygon2.ctor, Polygon2.ofPoints] at h
    split at h
    · simp [bind, Except.bind] at h
    · rename_i hl
      cases hm : mapRes need o with
      | error e => simp [hm, bind, Except.bind] at h
      | ok vs =>
        simp only [hm, bind, Except.bind, pure, Except.pure] at h
        obtain ⟨is, rfl, his⟩ := Polygon2.addRings_inv h
        have := mapRes_need_inv hm
        subst this
        refine ⟨vs, is, rfl, rfl, ?_, his⟩
        intro hne
        cases vs with
        | cons v vs => simp at hl ⊢; omega
        | nil => simp at hne
  have total : (∀ p, Polygon2.ctor o rs ≠ .ok p) → ∃ e, Polygon2.ctor o rs = .error e := by
    intro h
    cases hc : Polygon2.ctor o rs with
    | error e => exact ⟨e, rfl⟩
    | ok p => exact (h p hc).elim
  refine ⟨?_, ?_, ?_, ?_, ?_⟩
  · intro h1 h2
    rw [Polygon2.ctor, Polygon2.ofPoints, if_pos]
    · rfl
    · cases o with
      | nil => simp at h1
      | cons a o => simpa using h2
  · intro r hr hl
    refine total fun p hp => ?_
    obtain ⟨ps, is, -, rfl, -, his⟩ := inv p hp
    obtain ⟨s, hs, rfl⟩ := List.mem_map.1 hr
    have := his s hs
    simp at hl; omega
  · intro hn
    refine total fun p hp => ?_
    obtain ⟨ps, is, rfl, -⟩ := inv p hp
    simp at hn
  · intro r hr hn
    refine total fun p hp => ?_
    obtain ⟨ps, is, -, rfl, -, his⟩ := inv p hp
    obtain ⟨s, hs, rfl⟩ := List.mem_map.1 hr
    simp at hn
  · intro p hp
    constructor
    · intro hd
      obtain ⟨ps, is, rfl, -, hl, -⟩ := Polygon2.ctor_inv hp hd
      intro hc
      simp only [List.map_eq_nil_iff] at hc
      subst hc; simp at hl
    · intro hne
      obtain ⟨ps, is, rfl, rfl, hl, his⟩ := inv p hp
      have h3 := hl (by rintro rfl; simp at hne)
      rw [Polygon2.ctor_ok h3 his, Except.ok.injEq] at hp
      subst hp
      simpa [Polygon2.isDefined] using (Ring.correctOuter_closed h3).length

example : Polygon2.ctor [some ⟨0, 0⟩, some ⟨1, 0⟩] [] = .error .runtimeError := (C58_refused _ _).1 (by simp) (by simp)

/-! ## Edges and vertices by index -/

/-- the rings of a polygon are closed -/
def ClosedRings (p : Polygon2) : Prop := Ring.Closed p.outer ∧ ∀ r ∈ p.inners, Ring.Closed r

theorem closedRings_of_ctor {o : List (Option V2)} {rs : List (List (Option V2))} {p : Polygon2} (h : Polygon2.ctor o rs = .ok p)
    (hd : p.isDefined = true) : ClosedRings p := by
  obtain ⟨ps, is, rfl, rfl, h3, his⟩ := Polygon2.ctor_inv h hd
  rw [Polygon2.ctor_ok h3 his, Except.ok.injEq] at h
  subst h
  refine ⟨Ring.correctOuter_closed h3, ?_⟩
  intro r hr
  obtain ⟨s, hs, rfl⟩ := List.mem_map.1 hr
  exact Ring.correctInner_closed (his s hs)

theorem closedRings_defined {p : Polygon2} (h : ClosedRings p) : p.isDefined = true := by
  simpa [Polygon2.isDefined] using h.1.length

theorem closed_dropLast {r : List V2} (h : Ring.Closed r) : r.length = r.dropLast.length + 1 ∧ 2 ≤ r.dropLast.length ∧
    r.dropLast ++ r.dropLast.head?.toList = r := by
  obtain ⟨v, vs, rfl, hl⟩ := h
  rw [List.dropLast_concat]
  simp; omega

theorem edgeCount_eq {p : Polygon2} (h : ClosedRings p) :
    p.edgeCount = p.outer.dropLast.length + ((p.inners.map List.dropLast).flatten).length := by
  have fold : ∀ (rs : List (List V2)) (n : ℕ), rs.foldl (fun n r => n + (r.length - 1)) n = n + ((rs.map List.dropLast).flatten).length := by
    intro rs
    induction rs with
    | nil => simp
    | cons r rs ih =>
      intro n
      rw [List.foldl_cons, ih]
      simp; omega
  rw [Polygon2.edgeCount, fold, List.length_dropLast]

theorem vertexCount_eq {p : Polygon2} (h : ClosedRings p) :
    p.numPoints - (1 + p.inners.length) = p.outer.dropLast.length + ((p.inners.map List.dropLast).flatten).length := by
  have sum : ∀ rs : List (List V2), (∀ r ∈ rs, Ring.Closed r) → (rs.map List.length).sum = rs.length + ((rs.map List.dropLast).flatten).length := by
    intro rs
    induction rs with
    | nil => simp
    | cons r rs ih =>
      intro hr
      have h1 := (closed_dropLast (hr r (by simp))).1
      have h2 := ih (fun s hs => hr s (by simp [hs]))
      simp only [List.map_cons, List.sum_cons, List.length_cons, List.flatten_cons, List.length_append] at h2 ⊢
      omega
  have h1 := (closed_dropLast h.1).1
  have h2 := sum p.inners h.2
  rw [Polygon2.numPoints]; omega

/-- **C58.** The counts, the sequences and the indexed accesses of a defined polygon agree: the vertices are those of the outer ring followed by those
of the inner rings, there are as many edges as vertices, and edge `i` of the outer ring joins vertex `i` to the next one, the last edge returning
to the first vertex. -/
theorem C58_indices (o : List (Option V2)) (rs : List (List (Option V2))) (p : Polygon2) (h : Polygon2.ctor o rs = .ok p) (hd : p.isDefined = true) :
    ∃ (vs : List V2) (wss : List (List V2)), 2 ≤ vs.length ∧ p.getVertices = .ok (vs ++ wss.flatten) ∧
      p.getVertexCount = .ok (vs ++ wss.flatten).length ∧ p.getEdgeCount = .ok (vs ++ wss.flatten).length ∧
      p.getOuterRing = .ok ((vs ++ vs.head?.toList).map some) ∧ p.getInnerRingCount = .ok wss.length ∧ wss.length = rs.length ∧
      (∀ i (hi : i < wss.length), p.getInnerRingAt i = .ok ((wss[i] ++ wss[i].head?.toList).map some)) ∧
      (∀ i, wss.length ≤ i → p.getInnerRingAt i = .error .runtimeError) ∧
      (∀ i (hi : i < vs.length), p.getVertexAt i = .ok vs[i] ∧
        p.getEdgeAt i = .ok ⟨some vs[i], some (vs[(i + 1) % vs.length]'(Nat.mod_lt _ (by omega)))⟩) ∧
      (∀ i, vs.length ≤ i → (∃ e, p.getVertexAt i = .error e) ∧ ∃ e, p.getEdgeAt i = .error e) ∧
      (rs = [] → p.getEdges = .ok (List.ofFn fun i : Fin vs.length => ⟨some vs[i], some (vs[(i.1 + 1) % vs.length]'(Nat.mod_lt _ (Nat.zero_lt_of_lt i.2)))⟩) ∧
        ∀ i, vs.length ≤ i → p.getVertexAt i = .error .wrong ∧ p.getEdgeAt i = .error .wrong) := by
  have hc := closedRings_of_ctor h hd
  have hrs : p.inners.length = rs.length := by
    obtain ⟨ps, is, rfl, rfl, h3, his⟩ := Polygon2.ctor_inv h hd
    rw [Polygon2.ctor_ok h3 his, Except.ok.injEq] at h
    subst h; simp
  obtain ⟨o1, o2, o3⟩ := closed_dropLast hc.1
  have hE := edgeCount_eq hc
  have hV := vertexCount_eq hc
  have nd : ¬ (!p.isDefined) = true := by simp [hd]
  have get : ∀ i (hi : i < p.outer.dropLast.length), p.outer[i]? = some (p.outer.dropLast[i]) := by
    intro i hi
    rw [List.getElem_dropLast, List.getElem?_eq_getElem]
  have vert : ∀ i (hi : i < p.outer.dropLast.length), p.vertexAt i = .ok p.outer.dropLast[i] := by
    intro i hi
    have : p.outer.length ≤ p.numPoints := by rw [Polygon2.numPoints]; omega
    rw [Polygon2.vertexAt, if_neg (by omega), if_neg (by omega), get i hi]
  have edge : ∀ i (hi : i < p.outer.dropLast.length), p.edgeAt i =
      .ok ⟨some p.outer.dropLast[i], some (p.outer.dropLast[(i + 1) % p.outer.dropLast.length]'(Nat.mod_lt _ (by omega)))⟩ := by
    intro i hi
    rw [Polygon2.edgeAt, if_neg (by omega), if_neg (by rw [Polygon2.outerEdgeCount]; omega), vert i hi]
    have hn : (if i ≠ p.outerEdgeCount - 1 then i + 1 else 0) = (i + 1) % p.outer.dropLast.length := by
      rw [Polygon2.outerEdgeCount]
      split
      · rw [Nat.mod_eq_of_lt (by omega)]
      · rw [show i + 1 = p.outer.dropLast.length by omega, Nat.mod_self]
    simp only [bind, Except.bind, pure, Except.pure, hn]
    rw [vert _ (Nat.mod_lt _ (by omega))]
  refine ⟨p.outer.dropLast, p.inners.map List.dropLast, o2, ?_, ?_, ?_, ?_, ?_, ?_, ?_, ?_, ?_, ?_, ?_⟩
  · rw [Polygon2.getVertices, if_neg nd, inner_vertices]; rfl
  · rw [Polygon2.getVertexCount, if_neg nd, hV, List.length_append]
  · rw [Polygon2.getEdgeCount, if_neg nd, hE, List.length_append]
  · rw [Polygon2.getOuterRing, if_neg nd]; rfl
  · rw [Polygon2.getInnerRingCount, if_neg nd, List.length_map]
  · rw [List.length_map, hrs]
  · intro i hi
    rw [Polygon2.getInnerRingAt, if_neg nd]
    simp only [List.length_map] at hi
    simp [Polygon2.innerVerticesAt, List.getElem?_eq_getElem, hi, bind, Except.bind, pure, Except.pure, Polygon2.ringOf]
  · intro i hi
    rw [Polygon2.getInnerRingAt, if_neg nd]
    simp only [List.length_map] at hi
    rw [Polygon2.innerVerticesAt, List.getElem?_eq_none hi]; rfl
  · intro i hi
    rw [Polygon2.getVertexAt, if_neg nd, Polygon2.getEdgeAt, if_neg nd, vert i hi, edge i hi]
    exact ⟨rfl, rfl⟩
  · intro i hi
    rw [Polygon2.getVertexAt, if_neg nd, Polygon2.getEdgeAt, if_neg nd]
    constructor
    · rw [Polygon2.vertexAt]
      split
      · exact ⟨_, rfl⟩
      · rw [if_pos (by omega)]; exact ⟨_, rfl⟩
    · rw [Polygon2.edgeAt]
      split
      · exact ⟨_, rfl⟩
      · rw [if_pos (by rw [Polygon2.outerEdgeCount]; omega)]; exact ⟨_, rfl⟩
  · intro hr
    have hin : p.inners = [] := by rw [hr] at hrs; simpa using hrs
    have hE' : p.edgeCount = p.outer.dropLast.length := by rw [hE, hin]; simp
    constructor
    · rw [Polygon2.getEdges, if_neg nd, hE']
      rw [mapRes_ok (g := fun i => if hi : i < p.outer.dropLast.length then
        (⟨some p.outer.dropLast[i], some (p.outer.dropLast[(i + 1) % p.outer.dropLast.length]'(Nat.mod_lt _ (by omega)))⟩ : Seg2) else ⟨none, none⟩)]
      · congr 1
        apply List.ext_getElem
        · simp
        · intro i h1 h2
          simp only [List.length_map, List.length_range] at h1
          rw [List.getElem_map, List.getElem_range, dif_pos h1, List.getElem_ofFn]; rfl
      · intro i hi
        rw [List.mem_range] at hi
        rw [edge i hi, dif_pos hi]
    · intro i hi
      rw [Polygon2.getVertexAt, if_neg nd, Polygon2.getEdgeAt, if_neg nd, Polygon2.vertexAt, Polygon2.edgeAt, Polygon2.numPoints, hin, if_pos (by simp; omega),
        if_pos (by omega)]
      exact ⟨rfl, rfl⟩

/-- a triangle -/
example : ∃ p, Polygon2.ctor (([⟨0, 0⟩, ⟨0, 1⟩, ⟨1, 0⟩] : List V2).map some) [] = .ok p ∧ p.isDefined = true := by
  obtain ⟨p, h1, h2, -⟩ := C58_vertices [⟨0, 0⟩, ⟨0, 1⟩, ⟨1, 0⟩] [⟨0, 0⟩, ⟨0, 1⟩, ⟨1, 0⟩] [] [] (by simp) (by simp) (.inl ⟨rfl, by simp⟩) .nil
  exact ⟨p, h1, h2⟩

/-- **C58 violated.** A polygon with a hole has edges and vertices which cannot be accessed: `getEdges` throws, and so do `getEdgeAt` and
`getVertexAt` for each index that belongs to a hole. -/
theorem C58_holes_violated (o : List (Option V2)) (rs : List (List (Option V2))) (p : Polygon2) (h : Polygon2.ctor o rs = .ok p)
    (hd : p.isDefined = true) (hr : rs ≠ []) :
    p.getEdges = .error .toBeImplemented ∧ ∃ n m, p.getVertexCount = .ok m ∧ p.getEdgeCount = .ok m ∧ n < m ∧
      ∀ i, n ≤ i → i < m → p.getEdgeAt i = .error .toBeImplemented ∧ p.getVertexAt i = .error .toBeImplemented := by
  have hc := closedRings_of_ctor h hd
  have hrs : p.inners.length = rs.length := by
    obtain ⟨ps, is, rfl, rfl, h3, his⟩ := Polygon2.ctor_inv h hd
    rw [Polygon2.ctor_ok h3 his, Except.ok.injEq] at h
    subst h; simp
  obtain ⟨o1, o2, o3⟩ := closed_dropLast hc.1
  have hE := edgeCount_eq hc
  have hV := vertexCount_eq hc
  have nd : ¬ (!p.isDefined) = true := by simp [hd]
  have pos : 0 < ((p.inners.map List.dropLast).flatten).length := by
    cases hin : p.inners with
    | nil => rw [hin] at hrs; exact (hr (List.length_eq_zero_iff.1 hrs.symm)).elim
    | cons r is =>
      have := (closed_dropLast (hc.2 r (by simp [hin]))).2.1
      simp only [List.map_cons, List.flatten_cons, List.length_append]; omega
  have edge : ∀ i, p.outer.dropLast.length ≤ i → i < p.edgeCount → p.edgeAt i = .error .toBeImplemented := by
    intro i h1 h2
    rw [Polygon2.edgeAt, if_neg (by omega), if_pos (by rw [Polygon2.outerEdgeCount]; omega)]
  constructor
  · rw [Polygon2.getEdges, if_neg nd]
    have stop : ∀ (f : ℕ → Res Seg2) (l : List ℕ), (∃ i ∈ l, f i = .error .toBeImplemented) → (∀ i ∈ l, (∃ a, f i = .ok a) ∨ f i = .error .toBeImplemented) →
        mapRes f l = .error .toBeImplemented := by
      intro f l
      induction l with
      | nil => rintro ⟨i, hi, -⟩; simp at hi
      | cons a l ih =>
        rintro ⟨i, hi, he⟩ hall
        rcases hall a (by simp) with ⟨x, hx⟩ | hx
        · rw [mapRes, hx]
          have : i ∈ l := by
            rcases List.mem_cons.1 hi with rfl | hi
            · rw [hx] at he; simp at he
            · exact hi
          rw [ih ⟨i, this, he⟩ (fun j hj => hall j (by simp [hj]))]
        · rw [mapRes, hx]
    refine stop _ _ ⟨p.outer.dropLast.length, by rw [List.mem_range]; omega, edge _ le_rfl (by omega)⟩ ?_
    intro i hi
    rw [List.mem_range] at hi
    by_cases hl : i < p.outer.dropLast.length
    · left
      obtain ⟨vs, wss, -, -, -, -, e1, -, -, -, -, e2, -⟩ := C58_indices o rs p h hd
      have e3 : vs = p.outer.dropLast := by
        rw [Polygon2.getOuterRing, if_neg nd, Except.ok.injEq, Polygon2.ringOf] at e1
        have e4 := List.map_injective_iff.2 (Option.some_injective V2) e1
        rw [Polygon2.outerVertices] at e4
        have : ∀ a b : List V2, a ++ a.head?.toList = b ++ b.head?.toList → a = b := by
          intro a b hab
          cases a <;> cases b
          · rfl
          · simp at hab
          · simp at hab
          · simp only [List.head?_cons, Option.toList_some, List.cons_append, List.cons.injEq] at hab
            obtain ⟨rfl, hab⟩ := hab
            rw [List.append_cancel_right hab]
        exact (this _ _ e4).symm
      subst e3
      have := (e2 i hl).2
      rw [Polygon2.getEdgeAt, if_neg nd] at this
      exact ⟨_, this⟩
    · right; exact edge i (by omega) hi
  · refine ⟨p.outer.dropLast.length, p.edgeCount, ?_, ?_, by omega, ?_⟩
    · rw [Polygon2.getVertexCount, if_neg nd, hV, hE]
    · rw [Polygon2.getEdgeCount, if_neg nd]
    · intro i h1 h2
      rw [Polygon2.getEdgeAt, if_neg nd, Polygon2.getVertexAt, if_neg nd, edge i h1 h2, Polygon2.vertexAt, if_neg, if_pos (by omega)]
      · exact ⟨rfl, rfl⟩
      · have : 0 < p.inners.length := by rw [hrs]; exact List.length_pos_of_ne_nil hr
        omega

/-- a square with a square hole -/
example : ∃ p, Polygon2.ctor (([⟨0, 0⟩, ⟨0, 3⟩, ⟨3, 3⟩, ⟨3, 0⟩] : List V2).map some) [([⟨1, 1⟩, ⟨2, 1⟩, ⟨2, 2⟩] : List V2).map some] = .ok p ∧
    p.isDefined = true := by
  obtain ⟨p, h1, h2, -⟩ := C58_vertices [⟨0, 0⟩, ⟨0, 3⟩, ⟨3, 3⟩, ⟨3, 0⟩] [⟨0, 0⟩, ⟨0, 3⟩, ⟨3, 3⟩, ⟨3, 0⟩] [[⟨1, 1⟩, ⟨2, 1⟩, ⟨2, 2⟩]] [[⟨1, 1⟩, ⟨2, 1⟩, ⟨2, 2⟩]]
    (by simp) (by simp) (.inl ⟨rfl, by simp⟩) (.cons (.inl ⟨rfl, by simp⟩) .nil)
  exact ⟨p, h1, h2⟩

/-! ## Conversions between polygons and sets of polygons -/

/-- the rings of a polygon with distinct vertices -/
def DistinctRings (p : Polygon2) : Prop := ∃ (ps : List V2) (is : List (List V2)), 3 ≤ ps.length ∧ ps.Nodup ∧ (∀ r ∈ is, 3 ≤ r.length ∧ r.Nodup) ∧
  Polygon2.ctor (ps.map some) (is.map (·.map some)) = .ok p

theorem nodup_ends {ps : List V2} (h : 2 ≤ ps.length) (hn : ps.Nodup) : ps.head? ≠ ps.getLast? := by
  cases ps with
  | nil => simp at h
  | cons a l =>
    have hl : l ≠ [] := by rintro rfl; simp at h
    rw [List.head?_cons, List.getLast?_cons_of_ne_nil hl, List.getLast?_eq_some_getLast hl]
    intro hc
    have := Option.some.inj hc
    rw [List.nodup_cons] at hn
    exact hn.1 (this ▸ List.getLast_mem hl)

theorem nodup_turned {ps : List V2} (hn : ps.Nodup) : (turnedRing ps).Nodup := by
  cases ps with
  | nil => simp [turnedRing]
  | cons a l => rw [turnedRing]; simpa using hn

theorem length_turned (ps : List V2) : (turnedRing ps).length = ps.length := by cases ps <;> simp [turnedRing]

/-- a ring is restored from its vertices -/
theorem close_dropLast {r : List V2} (hc : Ring.Closed r) (h3 : 3 ≤ r.dropLast.length) (hn : r.dropLast.Nodup) : Ring.close r.dropLast = r := by
  rw [Ring.close, if_pos ⟨by omega, nodup_ends (by omega) hn⟩]
  exact (closed_dropLast hc).2.2

theorem outer_back {ps : List V2} (h : 3 ≤ ps.length) (hn : ps.Nodup) : Ring.correctOuter (Ring.correctOuter ps).dropLast = Ring.correctOuter ps ∧
    3 ≤ (Ring.correctOuter ps).dropLast.length := by
  have hv : RingVertices ps ps := .inl ⟨rfl, nodup_ends (by omega) hn⟩
  have e := Ring.correctOuter_vertices h hv
  have hl : 3 ≤ (Ring.correctOuter ps).dropLast.length := by rw [e]; split <;> simp [length_turned, h]
  have hd : (Ring.correctOuter ps).dropLast.Nodup := by
    rw [e]; split
    · exact nodup_turned hn
    · exact hn
  refine ⟨?_, hl⟩
  conv_lhs => rw [Ring.correctOuter, close_dropLast (Ring.correctOuter_closed h) hl hd]
  rw [if_neg]
  rw [Ring.correctOuter]
  split
  · rename_i h1; rw [Ring.signedArea_reverse]; linarith
  · assumption

theorem inner_back {ps : List V2} (h : 3 ≤ ps.length) (hn : ps.Nodup) : Ring.correctInner (Ring.correctInner ps).dropLast = Ring.correctInner ps ∧
    3 ≤ (Ring.correctInner ps).dropLast.length := by
  have hv : RingVertices ps ps := .inl ⟨rfl, nodup_ends (by omega) hn⟩
  have e := Ring.correctInner_vertices h hv
  have hl : 3 ≤ (Ring.correctInner ps).dropLast.length := by rw [e]; split <;> simp [length_turned, h]
  have hd : (Ring.correctInner ps).dropLast.Nodup := by
    rw [e]; split
    · exact nodup_turned hn
    · exact hn
  refine ⟨?_, hl⟩
  conv_lhs => rw [Ring.correctInner, close_dropLast (Ring.correctInner_closed h) hl hd]
  rw [if_neg]
  rw [Ring.correctInner]
  split
  · rename_i h1; rw [Ring.signedArea_reverse]; linarith
  · assumption

theorem ofBoost_distinct {p : Polygon2} (h : DistinctRings p) : Polygon2.ofBoost p = .ok p := by
  obtain ⟨ps, is, h3, hn, hi, hp⟩ := h
  rw [Polygon2.ctor_ok h3 (fun r hr => (hi r hr).1), Except.ok.injEq] at hp
  subst hp
  have ne : (Ring.correctOuter ps).isEmpty = false := by
    have := (Ring.correctOuter_closed h3).length
    cases hc : Ring.correctOuter ps with
    | nil => rw [hc] at this; simp at this
    | cons a l => rfl
  have hm : mapRes Polygon2.open' (is.map Ring.correctInner) = .ok ((is.map Ring.correctInner).map List.dropLast) := by
    apply mapRes_ok
    intro r hr
    obtain ⟨s, hs, rfl⟩ := List.mem_map.1 hr
    have := (Ring.correctInner_closed (hi s hs).1).length
    rw [Polygon2.open', if_neg]
    cases hc : Ring.correctInner s with
    | nil => rw [hc] at this; simp at this
    | cons a l => simp
  simp only [Polygon2.ofBoost, Polygon2.open', ne, hm, bind, Except.bind, Bool.false_eq_true, if_false]
  rw [Polygon2.ctor_ok (outer_back h3 hn).2]
  · rw [(outer_back h3 hn).1]
    congr 2
    rw [List.map_map, List.map_map]
    exact List.map_congr_left fun r hr => (inner_back (hi r hr).1 (hi r hr).2).1
  · intro r hr
    simp only [List.map_map, List.mem_map, Function.comp_apply] at hr
    obtain ⟨s, hs, rfl⟩ := hr
    exact (inner_back (hi s hs).1 (hi s hs).2).2

theorem inner_outer {r : List V2} (hc : Ring.Closed r) (ha : Ring.signedArea r ≤ 0) : Ring.correctInner (Ring.correctOuter r) = r := by
  rw [Ring.correctOuter, Ring.close_of_closed hc]
  split
  · rename_i h
    rw [Ring.correctInner, Ring.close_of_closed hc.reverse, Ring.signedArea_reverse, if_pos (by linarith), List.reverse_reverse]
  · rw [Ring.correctInner, Ring.close_of_closed hc, if_neg (by linarith)]

theorem multi_distinct {p : Polygon2} (h : DistinctRings p) : ∃ q, MultiPolygon2.ringsOf p = .ok q ∧ q.correct = p := by
  obtain ⟨ps, is, h3, hn, hi, hp⟩ := h
  have hi' : ∀ r ∈ is, 3 ≤ r.length := fun r hr => (hi r hr).1
  have hd : p.isDefined = true := by
    rw [Polygon2.ctor_ok h3 hi', Except.ok.injEq] at hp
    subst hp
    simpa [Polygon2.isDefined] using (Ring.correctOuter_closed h3).length
  have hc := closedRings_of_ctor hp hd
  rw [Polygon2.ctor_ok h3 hi', Except.ok.injEq] at hp
  have nd : ¬ (!p.isDefined) = true := by simp [hd]
  have hm : mapRes (fun i => do
      let r ← p.getInnerRingAt i
      let ws ← mapRes need r
      return Ring.correctOuter ws) (List.range p.inners.length) = .ok (p.inners.map Ring.correctOuter) := by
    rw [mapRes_ok (g := fun i => Ring.correctOuter (p.inners[i]?.getD []))]
    · congr 1
      apply List.ext_getElem
      · simp
      · intro i h1 h2
        simp only [List.length_map, List.length_range] at h1
        simp [h1]
    · intro i hi
      rw [List.mem_range] at hi
      rw [Polygon2.getInnerRingAt, if_neg nd, Polygon2.innerVerticesAt, List.getElem?_eq_getElem hi]
      simp only [bind, Except.bind, pure, Except.pure, Polygon2.ringOf, mapRes_need, Option.getD_some]
      rw [(closed_dropLast (hc.2 _ (List.getElem_mem hi))).2.2]
  refine ⟨⟨p.outer, p.inners.map Ring.correctOuter⟩, ?_, ?_⟩
  · rw [MultiPolygon2.ringsOf, Polygon2.getOuterRing, if_neg nd, Polygon2.getInnerRingCount, if_neg nd]
    have e : Polygon2.ringOf p.outerVertices = p.outer.map some := by
      rw [Polygon2.ringOf, Polygon2.outerVertices, (closed_dropLast hc.1).2.2]
    simp only [bind, Except.bind, pure, Except.pure, e, mapRes_need] at hm ⊢
    rw [hm]
  · subst hp
    rw [Polygon2.correct]
    simp only [Polygon2.mk.injEq]
    refine ⟨Ring.correctOuter_idem h3, ?_⟩
    rw [List.map_map, List.map_map]
    refine List.map_congr_left fun r hr => ?_
    refine inner_outer (Ring.correctInner_closed (hi' r hr)) ?_
    rw [Ring.correctInner]
    split
    · rename_i h1; rw [Ring.signedArea_reverse]; linarith
    · linarith

/-- **C58.** Polygons with distinct vertices survive the conversion to a set of polygons and back, with the order of their vertices. -/
theorem C58_roundtrip (ps : List Polygon2) (hne : ps ≠ []) (h : ∀ p ∈ ps, DistinctRings p) :
    MultiPolygon2.ctor ps = .ok ps ∧ MultiPolygon2.getPolygons ps = .ok ps ∧ MultiPolygon2.getPolygonCount ps = .ok ps.length := by
  have hd : MultiPolygon2.isDefined ps = true := by cases ps <;> simp_all [MultiPolygon2.isDefined]
  refine ⟨?_, ?_, ?_⟩
  · rw [MultiPolygon2.ctor]
    have : ∃ qs, mapRes MultiPolygon2.ringsOf ps = .ok qs ∧ qs.map Polygon2.correct = ps := by
      clear hd hne
      induction ps with
      | nil => exact ⟨[], rfl, rfl⟩
      | cons p ps ih =>
        obtain ⟨q, h1, h2⟩ := multi_distinct (h p (by simp))
        obtain ⟨qs, h3, h4⟩ := ih (fun r hr => h r (by simp [hr]))
        exact ⟨q :: qs, by simp [mapRes, h1, h3], by simp [h2, h4]⟩
    obtain ⟨qs, h1, h2⟩ := this
    simp only [h1, bind, Except.bind, pure, Except.pure, h2]
  · rw [MultiPolygon2.getPolygons, if_neg (by simp [hd])]
    rw [mapRes_ok (f := Polygon2.ofBoost) (g := fun p => p) (fun p hp => ofBoost_distinct (h p hp)), List.map_id']
  · rw [MultiPolygon2.getPolygonCount, if_neg (by simp [hd])]

example : ∃ p, DistinctRings p := by
  obtain ⟨p, h1, -⟩ := C58_vertices [⟨0, 0⟩, ⟨0, 1⟩, ⟨1, 0⟩] [⟨0, 0⟩, ⟨0, 1⟩, ⟨1, 0⟩] [] [] (by simp) (by simp) (.inl ⟨rfl, by simp⟩) .nil
  exact ⟨p, _, [], by simp, by simp, by simp, h1⟩

/-- **C58 violated.** A ring of three points with equal ends is accepted, but the polygon has two vertices and cannot be rebuilt from them. -/
theorem C58_two_vertices_violated (a b : V2) : ∃ p, Polygon2.ctor [some a, some b, some a] [] = .ok p ∧ p.isDefined = true ∧ p.getVertices = .ok [a, b] ∧
    MultiPolygon2.ctor [p] = .ok [p] ∧ MultiPolygon2.getPolygons [p] = .error .runtimeError := by
  obtain ⟨p, h1, h2, h3⟩ := C58_vertices [a, b, a] [a, b] [] [] (by simp) (by simp) (.inr ⟨a, rfl, rfl⟩) .nil
  rw [Ring.ringArea_pair] at h3
  have hp : p = ⟨[a, b, a], []⟩ := by
    have := h1
    rw [Polygon2.ctor_ok (by simp) (by simp), Except.ok.injEq] at this
    rw [← this]
    simp [Ring.correctOuter, Ring.close, Ring.signedArea]
  refine ⟨p, h1, h2, by simpa using h3, ?_, ?_⟩
  · subst hp
    simp [MultiPolygon2.ctor, mapRes, MultiPolygon2.ringsOf, Polygon2.getOuterRing, Polygon2.isDefined, Polygon2.ringOf, Polygon2.outerVertices, need,
      Polygon2.getInnerRingCount, bind, Except.bind, pure, Except.pure, Polygon2.correct, Ring.correctOuter, Ring.close, Ring.signedArea]
  · subst hp
    simp [MultiPolygon2.getPolygons, MultiPolygon2.isDefined, mapRes, Polygon2.ofBoost, Polygon2.open', bind, Except.bind, Polygon2.ctor, Polygon2.ofPoints]

/-! ## Moving a polygon, comparing the vertices of two polygons -/

theorem getVertices_eq {p : Polygon2} (hd : p.isDefined = true) : p.getVertices = .ok (p.outer.dropLast ++ (p.inners.map List.dropLast).flatten) := by
  rw [Polygon2.getVertices, if_neg (by simp [hd]), inner_vertices]; rfl

theorem zipWith_telescope (c : V2 → V2 → ℝ) (g : V2 → ℝ) (l : List V2) : ∀ m : List V2, l.length = m.length →
    (List.zipWith (fun p q => c p q + (g q - g p)) l m).sum = (List.zipWith c l m).sum + (m.map g).sum - (l.map g).sum := by
  induction l with
  | nil => intro m hm; cases m <;> simp_all
  | cons a l ih =>
    intro m hm
    cases m with
    | nil => simp at hm
    | cons b m =>
      simp only [List.zipWith_cons_cons, List.sum_cons, List.map_cons]
      rw [ih m (by simpa using hm)]
      ring

/-- a rigid motion keeps the oriented area of a ring -/
theorem ringArea_moved {c s : ℝ} (h : c ^ 2 + s ^ 2 = 1) (v : V2) (vs : List V2) : ringArea (vs.map fun p => T2.turn c s p + v) = ringArea vs := by
  rw [ringArea, ← List.map_rotate, List.zipWith_map]
  have e : (fun p q : V2 => (T2.turn c s q + v).x * (T2.turn c s p + v).y - (T2.turn c s p + v).x * (T2.turn c s q + v).y) =
      fun p q => (q.x * p.y - p.x * q.y) + ((v.y * (T2.turn c s q).x - v.x * (T2.turn c s q).y) - (v.y * (T2.turn c s p).x - v.x * (T2.turn c s p).y)) := by
    funext p q
    simp only [V2.add_x, V2.add_y, T2.turn]
    linear_combination (q.x * p.y - p.x * q.y) * h
  rw [e, zipWith_telescope (fun p q => q.x * p.y - p.x * q.y) (fun q => v.y * (T2.turn c s q).x - v.x * (T2.turn c s q).y) vs _ (by simp)]
  rw [((List.rotate_perm vs 1).map _).sum_eq, ringArea]
  ring

theorem ringOf_map (f : V2 → V2) (vs : List V2) : Polygon2.ringOf (vs.map f) = ((vs ++ vs.head?.toList).map f).map some := by
  rw [Polygon2.ringOf]
  cases vs <;> simp

/-- **C58.** Moving a polygon by a transformation built from the factories moves its vertices, hole by hole and in order, and keeps the oriented
area of each ring. -/
theorem C58_moved (t : T2) (ht : Built2 t) (o : List (Option V2)) (rs : List (List (Option V2))) (p : Polygon2) (h : Polygon2.ctor o rs = .ok p)
    (hd : p.isDefined = true) :
    ∃ (f : V2 → V2) (p' : Polygon2) (vs : List V2) (wss : List (List V2)), Moves2 t f ∧ KeepsDistances2 f ∧ (∀ us, ringArea (us.map f) = ringArea us) ∧ Polygon2.applyTransformation t p = .ok p' ∧
      p.getVertices = .ok (vs ++ wss.flatten) ∧ p'.getVertices = .ok (vs.map f ++ (wss.map (·.map f)).flatten) ∧
      p.getOuterRing = .ok ((vs ++ vs.head?.toList).map some) ∧ p'.getOuterRing = .ok (((vs ++ vs.head?.toList).map f).map some) ∧
      p.getInnerRingCount = .ok wss.length ∧ p'.getInnerRingCount = .ok wss.length ∧
      (∀ i ws, wss[i]? = some ws → p.getInnerRingAt i = .ok ((ws ++ ws.head?.toList).map some) ∧
        p'.getInnerRingAt i = .ok (((ws ++ ws.head?.toList).map f).map some)) := by
  obtain ⟨c, s, v, sh⟩ := built2_shape ht
  have hm := (shape2_moves sh).1
  have hc := closedRings_of_ctor h hd
  have e : ∀ q, T2.head (T2.aff c s v) q 1 = T2.turn c s q + v := by
    intro q
    have := hm q
    simpa [T2.applyTo, need, bind, Except.bind, pure, Except.pure, sh.2.1] using this
  have hd' : Polygon2.isDefined ⟨p.outer.map fun q => T2.turn c s q + v, p.inners.map (·.map fun q => T2.turn c s q + v)⟩ = true := by
    have := closedRings_defined hc
    simpa [Polygon2.isDefined] using this
  refine ⟨fun q => T2.turn c s q + v, ⟨p.outer.map fun q => T2.turn c s q + v, p.inners.map (·.map fun q => T2.turn c s q + v)⟩, p.outer.dropLast,
    p.inners.map List.dropLast, hm, ?_, ringArea_moved sh.1 v, ?_, getVertices_eq hd, ?_, ?_, ?_, ?_, ?_, ?_⟩
  · intro q r
    rw [show T2.turn c s q + v - (T2.turn c s r + v) = T2.turn c s (q - r) by rw [← T2.turn_sub]; ext <;> simp]
    exact T2.turn_norm sh.1 _
  · simp [Polygon2.applyTransformation, shape2_defined sh, hd, sh.2.1, need, bind, Except.bind, pure, Except.pure, e]
  · rw [getVertices_eq hd']
    simp [List.map_dropLast, Function.comp_def]
  · rw [Polygon2.getOuterRing, if_neg (by simp [hd])]; rfl
  · rw [Polygon2.getOuterRing, if_neg (by simp [hd'])]
    rw [Polygon2.outerVertices, ← List.map_dropLast, ringOf_map]
  · rw [Polygon2.getInnerRingCount, if_neg (by simp [hd]), List.length_map]
  · rw [Polygon2.getInnerRingCount, if_neg (by simp [hd'])]; simp
  · intro i ws hw
    rw [List.getElem?_map, Option.map_eq_some_iff] at hw
    obtain ⟨r, hr, rfl⟩ := hw
    rw [Polygon2.getInnerRingAt, if_neg (by simp [hd]), Polygon2.innerVerticesAt, hr, Polygon2.getInnerRingAt, if_neg (by simp [hd']),
      Polygon2.innerVerticesAt, List.getElem?_map, hr]
    refine ⟨rfl, ?_⟩
    simp only [Option.map_some, bind, Except.bind, pure, Except.pure]
    rw [← List.map_dropLast, ringOf_map]

/-- **C58.** Two polygons are near exactly if they have equally many vertices, each within the tolerance of the other polygon's in the same place. -/
theorem C58_near (p q : Polygon2) (hp : p.isDefined = true) (hq : q.isDefined = true) (vs ws : List V2) (hv : p.getVertices = .ok vs)
    (hw : q.getVertices = .ok ws) (hpc : ∃ o rs, Polygon2.ctor o rs = .ok p) (hqc : ∃ o rs, Polygon2.ctor o rs = .ok q) (tol : ℝ) :
    ∃ r, p.isNear q (some tol) = .ok r ∧ (r = true ↔ List.Forall₂ (fun a b : V2 => (a - b).norm ≤ tol) vs ws) := by
  obtain ⟨o, rs, hpc⟩ := hpc
  obtain ⟨o', rs', hqc⟩ := hqc
  have ep := vertexCount_eq (closedRings_of_ctor hpc hp)
  have eq := vertexCount_eq (closedRings_of_ctor hqc hq)
  have hv' := hv
  have hw' := hw
  rw [getVertices_eq hp, Except.ok.injEq] at hv'
  rw [getVertices_eq hq, Except.ok.injEq] at hw'
  rw [← List.length_append, hv'] at ep
  rw [← List.length_append, hw'] at eq
  simp only [Polygon2.isNear, hp, hq, Polygon2.getVertexCount, bind, Except.bind, pure, Except.pure, ep, eq, hv, hw, Bool.not_true, Bool.false_eq_true,
    if_false, Option.isNone_some]
  by_cases hl : vs.length = ws.length
  · rw [if_neg (by simpa using hl)]
    exact Points.zipNear_spec (fun a b => P2.isNear_ok a b tol) vs ws hl
  · rw [if_pos hl]
    refine ⟨_, rfl, ?_⟩
    simp only [Bool.false_eq_true, false_iff]
    exact fun hf => hl hf.length_eq

example : ∃ p vs o rs, Polygon2.ctor o rs = .ok p ∧ p.isDefined = true ∧ p.getVertices = .ok vs := by
  obtain ⟨p, h1, h2, h3⟩ := C58_vertices [⟨0, 0⟩, ⟨0, 1⟩, ⟨1, 0⟩] [⟨0, 0⟩, ⟨0, 1⟩, ⟨1, 0⟩] [] [] (by simp) (by simp) (.inl ⟨rfl, by simp⟩) .nil
  exact ⟨p, _, _, _, h1, h2, h3⟩

/-- **C58.** The operations on an undefined polygon, or with an undefined argument, fail; an undefined polygon equals nothing. -/
theorem C58_undefined (B : Boost) (p q : Polygon2) (hp : p.isDefined = false) (t : T2) (x : Option V2) (xs : List (Option V2)) (tol : Option ℝ) (i : ℕ) :
    p.eq B q = false ∧ q.eq B p = false ∧ p.intersects B q = .error .undefined ∧ q.intersects B p = .error .undefined ∧
    p.contains B x = .error .undefined ∧ p.containsSet B xs = .error .undefined ∧ p.containsLine B xs = .error .undefined ∧
    p.getInnerRingCount = .error .undefined ∧ p.getEdgeCount = .error .undefined ∧ p.getVertexCount = .error .undefined ∧
    p.getOuterRing = .error .undefined ∧ p.getInnerRingAt i = .error .undefined ∧ p.getVertexAt i = .error .undefined ∧
    p.getEdgeAt i = .error .undefined ∧ p.getEdges = .error .undefined ∧ p.getVertices = .error .undefined ∧ p.isNear q tol = .error .undefined ∧
    q.isNear p tol = .error .undefined ∧ q.isNear q none = .error .undefined ∧ p.getConvexHull B = .error .undefined ∧
    p.unionWith B q = .error .undefined ∧ q.unionWith B p = .error .undefined ∧ p.applyTransformation t = .error .undefined ∧
    (t.isDefined = false → q.applyTransformation t = .error .undefined) := by
  have n : (!p.isDefined) = true := by simp [hp]
  refine ⟨?_, ?_, ?_, ?_, ?_, ?_, ?_, ?_, ?_, ?_, ?_, ?_, ?_, ?_, ?_, ?_, ?_, ?_, ?_, ?_, ?_, ?_, ?_, ?_⟩
  · simp [Polygon2.eq, hp]
  · simp [Polygon2.eq, hp]
  · rw [Polygon2.intersects]; split <;> simp [hp]
  · simp [Polygon2.intersects, hp]
  · cases x <;> simp [Polygon2.contains, need, hp, bind, Except.bind]
  · rw [Polygon2.containsSet]; split <;> simp [hp]
  · rw [Polygon2.containsLine]; split <;> simp [hp]
  · simp [Polygon2.getInnerRingCount, hp]
  · simp [Polygon2.getEdgeCount, hp]
  · simp [Polygon2.getVertexCount, hp]
  · simp [Polygon2.getOuterRing, hp]
  · simp [Polygon2.getInnerRingAt, hp]
  · simp [Polygon2.getVertexAt, hp]
  · simp [Polygon2.getEdgeAt, hp]
  · simp [Polygon2.getEdges, hp]
  · simp [Polygon2.getVertices, hp]
  · rw [Polygon2.isNear]; split
    · rfl
    split <;> simp [hp]
  · simp [Polygon2.isNear, hp]
  · rw [Polygon2.isNear]; split <;> simp
  · simp [Polygon2.getConvexHull, hp]
  · simp [Polygon2.unionWith, hp]
  · simp [Polygon2.unionWith, hp]
  · rw [Polygon2.applyTransformation]; split <;> simp [hp]
  · intro ht; simp [Polygon2.applyTransformation, ht]

example : ∃ p, Polygon2.Undefined = .ok p ∧ p.isDefined = false :=
  ⟨_, rfl, by simp [Polygon2.correct, Polygon2.isDefined, Ring.correctOuter, Ring.close, Ring.signedArea]⟩

/-! ## Polygons in space (C59) -/

/-- the point of space with the given coordinates in a frame -/
def inFrame (o x y : V3) (v : V2) : V3 := o + (v.x • x + v.y • y)

theorem place_ok (P : Polygon2) (o x y : V3) (v : V2) : Polygon3.place ⟨P, some o, some x, some y⟩ v = .ok (inFrame o x y v) := by
  simp [Polygon3.place, P3.add, need, bind, Except.bind, pure, Except.pure, inFrame]

theorem polygon3_defined {P : Polygon2} (h : P.isDefined = true) (o x y : V3) : Polygon3.isDefined ⟨P, some o, some x, some y⟩ = true := by
  simp [Polygon3.isDefined, h]

theorem mapRes_edges {P : Polygon2} {o x y : V3} (es : List (V2 × V2)) :
    mapRes (Polygon3.placeEdge ⟨P, some o, some x, some y⟩) (es.map fun e => ⟨some e.1, some e.2⟩) =
      .ok (es.map fun e => ⟨some (inFrame o x y e.1), some (inFrame o x y e.2)⟩) := by
  induction es with
  | nil => rfl
  | cons e es ih => simp [mapRes, Polygon3.placeEdge, need, place_ok, ih, bind, Except.bind, pure, Except.pure]

theorem edge_some {P : Polygon2} {i : ℕ} {s : Seg2} (h : P.getEdgeAt i = .ok s) : ∃ a b, s = ⟨some a, some b⟩ := by
  rw [Polygon2.getEdgeAt] at h
  split at h
  · simp at h
  rw [Polygon2.edgeAt] at h
  split at h
  · simp at h
  split at h
  · simp at h
  simp only [bind, Except.bind, pure, Except.pure] at h
  split at h
  · simp at h
  split at h
  · simp at h
  rw [Except.ok.injEq] at h
  exact ⟨_, _, h.symm⟩

theorem mapRes_inv {α β : Type} {f : α → Res β} : ∀ {l : List α} {m : List β}, mapRes f l = .ok m → List.Forall₂ (fun a b => f a = .ok b) l m := by
  intro l
  induction l with
  | nil => intro m h; simp only [mapRes, Except.ok.injEq] at h; subst h; exact .nil
  | cons a l ih =>
    intro m h
    rw [mapRes] at h
    cases ha : f a with
    | error e => simp [ha] at h
    | ok b =>
      cases hl : mapRes f l with
      | error e => simp [ha, hl] at h
      | ok bs =>
        simp only [ha, hl, Except.ok.injEq] at h
        subst h
        exact .cons ha (ih hl)

theorem edges_some {P : Polygon2} {ss : List Seg2} (h : P.getEdges = .ok ss) : ∃ es : List (V2 × V2), ss = es.map fun e => ⟨some e.1, some e.2⟩ := by
  by_cases hd : P.isDefined = true
  · rw [Polygon2.getEdges, if_neg (by simp [hd])] at h
    have := mapRes_inv h
    clear h
    generalize List.range P.edgeCount = l at this
    induction this with
    | nil => exact ⟨[], rfl⟩
    | cons ha _ ih =>
      obtain ⟨es, rfl⟩ := ih
      obtain ⟨a, b, rfl⟩ := edge_some ((if_neg (by simp [hd])).trans ha)
      exact ⟨(a, b) :: es, rfl⟩
  · simp [Polygon2.getEdges, hd] at h

theorem inFrame_sub (o x y : V3) (v w : V2) : inFrame o x y v - inFrame o x y w = (v.x - w.x) • x + (v.y - w.y) • y := by
  ext <;> simp [inFrame] <;> ring

theorem inFrame_normSq {x y : V3} (hx : x.normSq = 1) (hy : y.normSq = 1) (o : V3) (v w : V2) :
    (inFrame o x y v - inFrame o x y w).norm ^ 2 = (v - w).norm ^ 2 + 2 * (v.x - w.x) * (v.y - w.y) * x.dot y := by
  rw [inFrame_sub, V3.norm_sq, V2.norm_sq]
  simp only [V3.normSq, V3.dot, V2.normSq, V2.dot, V3.add_x, V3.add_y, V3.add_z, V3.smul_x, V3.smul_y, V3.smul_z, V2.sub_x, V2.sub_y] at hx hy ⊢
  linear_combination (v.x - w.x) ^ 2 * hx + (v.y - w.y) ^ 2 * hy

/-- **C59.** A polygon in space is placed with the unit vectors along the given axes: its vertices and edges are those of the plane polygon placed by
one map, which takes the origin of the plane to the given origin, keeps squared distances up to the tolerance of the constructor (exactly, for
perpendicular axes), and whose points all lie in the plane through the origin with the normal of the polygon. -/
theorem C59_placed (eps : ℝ) (he : eps < 1) (P : Polygon2) (hd : P.isDefined = true) (o x y : V3) (hx : x ≠ 0) (hy : y ≠ 0) (p : Polygon3)
    (h : Polygon3.ctor eps P (some o) (some x) (some y) = .ok p) :
    ∃ (e : V2 → V3) (n : V3), p.isDefined = true ∧ e 0 = o ∧ (∀ v, e v = o + ((v.x / x.norm) • x + (v.y / y.norm) • y)) ∧
      (∀ v w, |(e v - e w).norm ^ 2 - (v - w).norm ^ 2| ≤ eps * (v - w).norm ^ 2) ∧ (x.dot y = 0 → ∀ v w, (e v - e w).norm = (v - w).norm) ∧
      p.getNormalVector = .ok n ∧ n.norm = 1 ∧ n.dot x = 0 ∧ n.dot y = 0 ∧ 0 < n.dot (x.cross y) ∧ (∀ v, n.dot (e v - o) = 0) ∧
      (∀ vs, P.getVertices = .ok vs → p.getVertices = .ok (vs.map e)) ∧
      (∀ es : List (V2 × V2), P.getEdges = .ok (es.map fun e => ⟨some e.1, some e.2⟩) → p.getEdges = .ok (es.map fun s => ⟨some (e s.1), some (e s.2)⟩)) ∧
      (∀ i v, P.getVertexAt i = .ok v → p.getVertexAt i = .ok (e v)) ∧
      (∀ i a b, P.getEdgeAt i = .ok ⟨some a, some b⟩ → p.getEdgeAt i = .ok ⟨some (e a), some (e b)⟩) ∧
      (∀ i r, P.getVertexAt i = .error r → p.getVertexAt i = .error r) ∧ (∀ i r, P.getEdgeAt i = .error r → p.getEdgeAt i = .error r) ∧
      (∀ r, P.getEdges = .error r → p.getEdges = .error r) ∧ p.getVertexCount = P.getVertexCount ∧ p.getEdgeCount = P.getEdgeCount := by
  have px := V3.normSq_pos_of_ne hx
  have py := V3.normSq_pos_of_ne hy
  have ux := V3.normSq_normalized px
  have uy := V3.normSq_normalized py
  have nx : 0 < x.norm := V3.norm_pos px
  have ny : 0 < y.norm := V3.norm_pos py
  have ex : ∀ k : ℝ, k • x.normalized = (k / x.norm) • x := fun k => by rw [V3.normalized_eq px]; ext <;> simp <;> ring
  have ey : ∀ k : ℝ, k • y.normalized = (k / y.norm) • y := fun k => by rw [V3.normalized_eq py]; ext <;> simp <;> ring
  simp only [Polygon3.ctor, Option.map_some] at h
  split at h
  · simp at h
  rename_i hdot
  rw [not_lt] at hdot
  rw [Except.ok.injEq] at h
  subst h
  have hd3 := polygon3_defined hd o x.normalized y.normalized
  have nd : ¬ (!Polygon3.isDefined ⟨P, some o, some x.normalized, some y.normalized⟩) = true := by simp [hd3]
  have hc : 0 < (x.normalized.cross y.normalized).normSq := by
    rw [V3.lagrange, ux, uy]
    have : x.normalized.dot y.normalized ^ 2 < 1 := by
      rw [← sq_abs]
      have := abs_nonneg (x.normalized.dot y.normalized)
      nlinarith
    linarith
  have hcn := V3.norm_pos hc
  refine ⟨inFrame o x.normalized y.normalized, (x.normalized.cross y.normalized).normalized, hd3, ?_, ?_, ?_, ?_, ?_, V3.norm_normalized hc, ?_, ?_, ?_, ?_,
    ?_, ?_, ?_, ?_, ?_, ?_, ?_, ?_, ?_⟩
  · ext <;> simp [inFrame]
  · intro v; rw [inFrame, ex, ey]
  · intro v w
    rw [inFrame_normSq ux uy, add_sub_cancel_left, abs_mul, V2.norm_sq, V2.normSq, V2.dot, V2.sub_x, V2.sub_y]
    have h1 : |2 * (v.x - w.x) * (v.y - w.y)| ≤ (v.x - w.x) * (v.x - w.x) + (v.y - w.y) * (v.y - w.y) := by
      rw [abs_le]; constructor <;> nlinarith [sq_nonneg (v.x - w.x + (v.y - w.y)), sq_nonneg (v.x - w.x - (v.y - w.y))]
    calc _ ≤ ((v.x - w.x) * (v.x - w.x) + (v.y - w.y) * (v.y - w.y)) * eps := mul_le_mul h1 hdot (abs_nonneg _) ((abs_nonneg _).trans h1)
      _ = _ := by ring
  · intro hxy v w
    have hz : x.normalized.dot y.normalized = 0 := by
      rw [V3.normalized_eq px, V3.normalized_eq py]
      simp only [V3.dot, V3.smul_x, V3.smul_y, V3.smul_z] at hxy ⊢
      linear_combination (x.norm⁻¹ * y.norm⁻¹) * hxy
    have := inFrame_normSq ux uy o v w
    rw [hz, mul_zero, add_zero] at this
    exact (pow_left_inj₀ (V3.norm_nonneg _) (V2.norm_nonneg _) two_ne_zero).1 this
  · rw [Polygon3.getNormalVector, if_neg nd]
    rfl
  · rw [V3.normalized_eq hc]
    rw [V3.normalized_eq px]
    simp only [V3.dot, V3.cross, V3.smul_x, V3.smul_y, V3.smul_z]; ring
  · rw [V3.normalized_eq hc]
    rw [V3.normalized_eq py]
    simp only [V3.dot, V3.cross, V3.smul_x, V3.smul_y, V3.smul_z]; ring
  · have e1 : x.cross y = (x.norm * y.norm) • (x.normalized.cross y.normalized) := by
      rw [V3.normalized_eq px, V3.normalized_eq py]
      have := nx.ne'
      have := ny.ne'
      ext <;> simp [V3.cross] <;> field_simp
    rw [e1, V3.normalized_eq hc, one_div]
    have : ((x.normalized.cross y.normalized).norm⁻¹ • x.normalized.cross y.normalized).dot ((x.norm * y.norm) • x.normalized.cross y.normalized) =
        (x.normalized.cross y.normalized).norm⁻¹ * (x.norm * y.norm) * (x.normalized.cross y.normalized).normSq := by
      simp only [V3.dot, V3.normSq, V3.smul_x, V3.smul_y, V3.smul_z]; ring
    rw [this]
    positivity
  · intro v
    rw [V3.normalized_eq hc]
    simp only [V3.dot, V3.cross, V3.smul_x, V3.smul_y, V3.smul_z, inFrame, V3.sub_x, V3.sub_y, V3.sub_z, V3.add_x, V3.add_y, V3.add_z]; ring
  · intro vs hvs
    simp only [Polygon3.getVertices, hvs, bind, Except.bind]
    exact mapRes_ok fun v _ => place_ok _ _ _ _ v
  · intro es hes
    simp only [Polygon3.getEdges, hes, bind, Except.bind]
    exact mapRes_edges es
  · intro i v hv
    rw [Polygon3.getVertexAt, if_neg nd]
    simp only [hv, bind, Except.bind, place_ok]
  · intro i a b hv
    rw [Polygon3.getEdgeAt, if_neg nd]
    simp only [hv, bind, Except.bind, place_ok, Polygon3.placeEdge, need, pure, Except.pure]
  · intro i r hr
    rw [Polygon3.getVertexAt, if_neg nd]
    simp only [hr, bind, Except.bind]
  · intro i r hr
    rw [Polygon3.getEdgeAt, if_neg nd]
    simp only [hr, bind, Except.bind]
  · intro r hr
    simp only [Polygon3.getEdges, hr, bind, Except.bind]
  · rw [Polygon3.getVertexCount, if_neg nd]
  · rw [Polygon3.getEdgeCount, if_neg nd]

theorem ctor_perp (eps : ℝ) (he : 0 ≤ eps) (P : Polygon2) (o x y : V3) (h : x.dot y = 0) :
    Polygon3.ctor eps P (some o) (some x) (some y) = .ok ⟨P, some o, some x.normalized, some y.normalized⟩ := by
  have hz : x.normalized.dot y.normalized = 0 := by
    obtain ⟨a, ha⟩ : ∃ a : ℝ, x.normalized = a • x := by
      rw [V3.normalized]; split
      · exact ⟨_, rfl⟩
      · exact ⟨1, by ext <;> simp⟩
    obtain ⟨b, hb⟩ : ∃ b : ℝ, y.normalized = b • y := by
      rw [V3.normalized]; split
      · exact ⟨_, rfl⟩
      · exact ⟨1, by ext <;> simp⟩
    rw [ha, hb]
    simp only [V3.dot, V3.smul_x, V3.smul_y, V3.smul_z] at h ⊢
    linear_combination a * b * h
  simp [Polygon3.ctor, hz, he]

example : ∃ (P : Polygon2) (p : Polygon3), P.isDefined = true ∧ Polygon3.ctor (1 / 2) P (some 0) (some ⟨2, 0, 0⟩) (some ⟨0, 3, 0⟩) = .ok p := by
  obtain ⟨P, h1, h2, -⟩ := C58_vertices [⟨0, 0⟩, ⟨0, 1⟩, ⟨1, 0⟩] [⟨0, 0⟩, ⟨0, 1⟩, ⟨1, 0⟩] [] [] (by simp) (by simp) (.inl ⟨rfl, by simp⟩) .nil
  exact ⟨P, _, h2, ctor_perp _ (by norm_num) _ _ _ _ (by simp [V3.dot])⟩

/-- **C59.** Axes are refused exactly if the cosine of the angle between them is larger than the tolerance in absolute value. -/
theorem C59_refused (eps : ℝ) (P : Polygon2) (o : Option V3) (x y : V3) (hx : x ≠ 0) (hy : y ≠ 0) :
    ((∃ e, Polygon3.ctor eps P o (some x) (some y) = .error e) ↔ eps * (x.norm * y.norm) < |x.dot y|) ∧
    ∀ e, Polygon3.ctor eps P o (some x) (some y) = .error e → e = .runtimeError := by
  have px := V3.normSq_pos_of_ne hx
  have py := V3.normSq_pos_of_ne hy
  have hp : 0 < x.norm * y.norm := mul_pos (V3.norm_pos px) (V3.norm_pos py)
  have e : |x.normalized.dot y.normalized| > eps ↔ eps * (x.norm * y.norm) < |x.dot y| := by
    rw [V3.dot_normalized px py, abs_div, abs_of_pos hp, gt_iff_lt, lt_div_iff₀ hp]
  simp only [Polygon3.ctor, Option.map_some]
  by_cases h : |x.normalized.dot y.normalized| > eps
  · rw [if_pos h]
    exact ⟨⟨fun _ => e.1 h, fun _ => ⟨_, rfl⟩⟩, fun r hr => by simpa using hr.symm⟩
  · rw [if_neg h]
    refine ⟨⟨?_, fun hc => absurd (e.2 hc) h⟩, ?_⟩
    · rintro ⟨r, hr⟩; simp at hr
    · intro r hr; simp at hr

example : (⟨1, 0, 0⟩ : V3) ≠ 0 ∧ (1 / 2 : ℝ) * ((⟨1, 0, 0⟩ : V3).norm * (⟨1, 0, 0⟩ : V3).norm) < |(⟨1, 0, 0⟩ : V3).dot ⟨1, 0, 0⟩| := by
  refine ⟨fun h => by simpa using congrArg V3.x h, ?_⟩
  norm_num [V3.norm, V3.normSq, V3.dot]

/-- **C59 violated.** Null axes are accepted, and then every vertex is at the origin. -/
theorem C59_null_violated (eps : ℝ) (he : 0 ≤ eps) (P : Polygon2) (hd : P.isDefined = true) (o : V3) (vs : List V2) (hv : P.getVertices = .ok vs) :
    ∃ p, Polygon3.ctor eps P (some o) (some 0) (some 0) = .ok p ∧ p.isDefined = true ∧ p.getVertices = .ok (vs.map fun _ => o) ∧
      p.getNormalVector = .ok 0 := by
  have z : V3.normalized 0 = 0 := by simp [V3.normalized, V3.normSq, V3.dot]
  refine ⟨_, ctor_perp eps he P o 0 0 (by simp [V3.dot]), polygon3_defined hd _ _ _, ?_, ?_⟩
  · simp only [Polygon3.getVertices, hv, bind, Except.bind]
    refine mapRes_ok fun v _ => ?_
    rw [place_ok, z]
    congr 1
    ext <;> simp [inFrame]
  · rw [Polygon3.getNormalVector, if_neg (by simp [polygon3_defined hd])]
    simp only [need, bind, Except.bind, pure, Except.pure, z]
    congr 1
    have : (0 : V3).cross 0 = 0 := by ext <;> simp
    rw [this, z]

example : ∃ P vs, Polygon2.isDefined P = true ∧ P.getVertices = .ok vs ∧ vs.length = 3 := by
  obtain ⟨P, h1, h2, h3⟩ := C58_vertices [⟨0, 0⟩, ⟨0, 1⟩, ⟨1, 0⟩] [⟨0, 0⟩, ⟨0, 1⟩, ⟨1, 0⟩] [] [] (by simp) (by simp) (.inl ⟨rfl, by simp⟩) .nil
  exact ⟨P, _, h2, h3, by simp; split <;> simp [turnedRing]⟩

theorem normalized_mulVec {l : M3} (h : IsRotation l) (u : V3) : (l.mulVec u).normalized = l.mulVec u.normalized := by
  rw [V3.normalized, V3.normalized, V3.norm, M3.mulVec_normSq h]
  split
  · rw [← M3.mulVec_smul]; rfl
  · rfl

theorem inFrame_moved (l : M3) (v o x y : V3) (w : V2) : inFrame (move l v o) (l.mulVec x) (l.mulVec y) w = move l v (inFrame o x y w) := by
  ext <;> simp [inFrame, move, M3.mulVec] <;> ring

/-- **C59.** Moving a polygon in space by a transformation built from the factories moves its vertices and edges, turns its normal and keeps the plane
polygon. -/
theorem C59_moved (eps : ℝ) (h0 : 0 < eps) (h1 : eps ≤ 1) (t : T3) (ht : Built3 eps t) (p : Polygon3) (hd : p.isDefined = true) :
    ∃ (f g : V3 → V3) (p' : Polygon3), Moves t f ∧ Turns t g ∧ KeepsDistances f ∧ p.applyTransformation t = .ok p' ∧ p'.isDefined = true ∧
      p'.getPolygon2d = p.getPolygon2d ∧ (∀ o, p.getOrigin = .ok o → p'.getOrigin = .ok (f o)) ∧ (∀ x, p.getXAxis = .ok x → p'.getXAxis = .ok (g x)) ∧
      (∀ y, p.getYAxis = .ok y → p'.getYAxis = .ok (g y)) ∧ (∀ n, p.getNormalVector = .ok n → p'.getNormalVector = .ok (g n)) ∧
      (∀ vs, p.getVertices = .ok vs → p'.getVertices = .ok (vs.map f)) ∧
      (∀ es : List (V3 × V3), p.getEdges = .ok (es.map fun e => ⟨some e.1, some e.2⟩) → p'.getEdges = .ok (es.map fun s => ⟨some (f s.1), some (f s.2)⟩)) ∧
      (∀ i v, p.getVertexAt i = .ok v → p'.getVertexAt i = .ok (f v)) ∧
      (∀ i a b, p.getEdgeAt i = .ok ⟨some a, some b⟩ → p'.getEdgeAt i = .ok ⟨some (f a), some (f b)⟩) := by
  obtain ⟨l, v, s⟩ := built3_shape h0 h1 ht
  obtain ⟨P, o, x, y⟩ := p
  have hP : P.isDefined = true := by simp [Polygon3.isDefined] at hd; tauto
  obtain ⟨o, rfl⟩ : ∃ a, o = some a := by cases o <;> simp_all [Polygon3.isDefined]
  obtain ⟨x, rfl⟩ : ∃ a, x = some a := by cases x <;> simp_all [Polygon3.isDefined]
  obtain ⟨y, rfl⟩ : ∃ a, y = some a := by cases y <;> simp_all [Polygon3.isDefined]
  have hd' := polygon3_defined hP (move l v o) (l.mulVec x) (l.mulVec y)
  have nd : ¬ (!Polygon3.isDefined ⟨P, some o, some x, some y⟩) = true := by simp [hd]
  have nd' : ¬ (!Polygon3.isDefined ⟨P, some (move l v o), some (l.mulVec x), some (l.mulVec y)⟩) = true := by simp [hd']
  have hm := shape_moves s
  refine ⟨move l v, l.mulVec, ⟨P, some (move l v o), some (l.mulVec x), some (l.mulVec y)⟩, hm.1, hm.2, ?_, ?_, hd', ?_, ?_, ?_, ?_, ?_, ?_, ?_, ?_, ?_⟩
  · intro a b
    rw [move_sub]; exact M3.mulVec_norm s.1 _
  · have e1 : t.applyTo (some o) = .ok (some (move l v o)) := hm.1 o
    simp [Polygon3.applyTransformation, shape_defined s, hd, e1, shape_vector s, bind, Except.bind, pure, Except.pure]
  · rw [Polygon3.getPolygon2d, Polygon3.getPolygon2d, if_neg nd, if_neg nd']
  · intro a ha
    rw [Polygon3.getOrigin, if_neg nd] at ha
    rw [Polygon3.getOrigin, if_neg nd']
    simp only [need, Except.ok.injEq] at ha ⊢
    rw [ha]
  · intro a ha
    rw [Polygon3.getXAxis, if_neg nd] at ha
    rw [Polygon3.getXAxis, if_neg nd']
    simp only [need, Except.ok.injEq] at ha ⊢
    rw [ha]
  · intro a ha
    rw [Polygon3.getYAxis, if_neg nd] at ha
    rw [Polygon3.getYAxis, if_neg nd']
    simp only [need, Except.ok.injEq] at ha ⊢
    rw [ha]
  · intro a ha
    rw [Polygon3.getNormalVector, if_neg nd] at ha
    rw [Polygon3.getNormalVector, if_neg nd']
    simp only [need, bind, Except.bind, pure, Except.pure, Except.ok.injEq] at ha ⊢
    rw [← ha, M3.mulVec_cross s.1, normalized_mulVec s.1]
  · intro vs hvs
    simp only [Polygon3.getVertices, bind, Except.bind] at hvs ⊢
    cases hP' : P.getVertices with
    | error e => simp [hP'] at hvs
    | ok ws =>
      simp only [hP'] at hvs ⊢
      rw [mapRes_ok (fun w _ => place_ok P o x y w), Except.ok.injEq] at hvs
      rw [mapRes_ok (fun w _ => place_ok P _ _ _ w), ← hvs, List.map_map]
      simp only [inFrame_moved, Function.comp_def]
  · intro es hes
    simp only [Polygon3.getEdges, bind, Except.bind] at hes ⊢
    cases hP' : P.getEdges with
    | error e => simp [hP'] at hes
    | ok ss =>
      obtain ⟨ds, rfl⟩ := edges_some hP'
      simp only [hP', mapRes_edges, Except.ok.injEq] at hes ⊢
      have : es = ds.map fun e => (inFrame o x y e.1, inFrame o x y e.2) := by
        have := congrArg (List.map fun s : Seg3 => (s.first.getD 0, s.second.getD 0)) hes
        simpa [Function.comp_def] using this.symm
      rw [this, List.map_map]
      simp only [inFrame_moved, Function.comp_def]
  · intro i w hw
    rw [Polygon3.getVertexAt, if_neg nd] at hw
    rw [Polygon3.getVertexAt, if_neg nd']
    simp only [bind, Except.bind, place_ok] at hw ⊢
    split at hw
    · simp at hw
    · rw [Except.ok.injEq] at hw
      rw [← hw, inFrame_moved]
  · intro i a b hw
    rw [Polygon3.getEdgeAt, if_neg nd] at hw
    rw [Polygon3.getEdgeAt, if_neg nd']
    simp only [bind, Except.bind] at hw ⊢
    split at hw
    · simp at hw
    · rename_i e he
      obtain ⟨c, d, rfl⟩ := edge_some he
      simp only [Polygon3.placeEdge, need, bind, Except.bind, place_ok, pure, Except.pure, Except.ok.injEq, Seg3.mk.injEq, Option.some.injEq] at hw ⊢
      rw [← hw.1, ← hw.2, inFrame_moved, inFrame_moved]
      exact ⟨rfl, rfl⟩

/-- **C59.** Two polygons in space are near exactly if they have equally many vertices, each within the tolerance of the one in the same place. -/
theorem C59_near (p q : Polygon3) (hp : p.isDefined = true) (hq : q.isDefined = true) (vs ws : List V3) (hv : p.getVertices = .ok vs)
    (hw : q.getVertices = .ok ws) (hpc : ∃ o rs, Polygon2.ctor o rs = .ok p.polygon) (hqc : ∃ o rs, Polygon2.ctor o rs = .ok q.polygon) (tol : ℝ) :
    ∃ r, p.isNear q (some tol) = .ok r ∧ (r = true ↔ List.Forall₂ (fun a b : V3 => (a - b).norm ≤ tol) vs ws) := by
  have count : ∀ (p : Polygon3) (vs : List V3), p.isDefined = true → p.getVertices = .ok vs → (∃ o rs, Polygon2.ctor o rs = .ok p.polygon) →
      p.getVertexCount = .ok vs.length := by
    intro p vs hp hv ⟨o, rs, hc⟩
    have h2 : p.polygon.isDefined = true := by simp [Polygon3.isDefined] at hp; tauto
    have e := vertexCount_eq (closedRings_of_ctor hc h2)
    simp only [Polygon3.getVertices, getVertices_eq h2, bind, Except.bind] at hv
    rw [Polygon3.getVertexCount, if_neg (by simp [hp]), Polygon2.getVertexCount, if_neg (by simp [h2]), e, ← List.length_append, (mapRes_inv hv).length_eq]
  simp only [Polygon3.isNear, hp, hq, count p vs hp hv hpc, count q ws hq hw hqc, bind, Except.bind, pure, Except.pure, hv, hw, Bool.not_true,
    Bool.false_eq_true, if_false, Option.isNone_some]
  by_cases hl : vs.length = ws.length
  · rw [if_neg (by simpa using hl)]
    exact Points.zipNear_spec (fun a b => P3.isNear_ok a b tol) vs ws hl
  · rw [if_pos hl]
    refine ⟨_, rfl, ?_⟩
    simp only [Bool.false_eq_true, false_iff]
    exact fun hf => hl hf.length_eq

/-- **C59.** The operations on an undefined polygon in space fail; an undefined polygon equals nothing. -/
theorem C59_undefined (B : Boost) (p q : Polygon3) (hp : p.isDefined = false) (t : T3) (tol : Option ℝ) (i : ℕ) :
    p.eq B q = false ∧ q.eq B p = false ∧ p.getPolygon2d = .error .undefined ∧ p.getOrigin = .error .undefined ∧ p.getXAxis = .error .undefined ∧
    p.getYAxis = .error .undefined ∧ p.getNormalVector = .error .undefined ∧ p.getEdgeCount = .error .undefined ∧
    p.getVertexCount = .error .undefined ∧ p.getVertexAt i = .error .undefined ∧ p.getEdgeAt i = .error .undefined ∧
    p.isNear q tol = .error .undefined ∧ q.isNear p tol = .error .undefined ∧ q.isNear q none = .error .undefined ∧
    p.applyTransformation t = .error .undefined ∧ (t.isDefined = false → q.applyTransformation t = .error .undefined) := by
  refine ⟨?_, ?_, ?_, ?_, ?_, ?_, ?_, ?_, ?_, ?_, ?_, ?_, ?_, ?_, ?_, ?_⟩
  · simp [Polygon3.eq, hp]
  · simp [Polygon3.eq, hp]
  · simp [Polygon3.getPolygon2d, hp]
  · simp [Polygon3.getOrigin, hp]
  · simp [Polygon3.getXAxis, hp]
  · simp [Polygon3.getYAxis, hp]
  · simp [Polygon3.getNormalVector, hp]
  · simp [Polygon3.getEdgeCount, hp]
  · simp [Polygon3.getVertexCount, hp]
  · simp [Polygon3.getVertexAt, hp]
  · simp [Polygon3.getEdgeAt, hp]
  · rw [Polygon3.isNear]; split
    · rfl
    split <;> simp [hp]
  · simp [Polygon3.isNear, hp]
  · rw [Polygon3.isNear]; split <;> simp
  · rw [Polygon3.applyTransformation]; split <;> simp [hp]
  · intro ht; simp [Polygon3.applyTransformation, ht]

example : Polygon3.Undefined.isDefined = false := rfl

end Verif.Props
