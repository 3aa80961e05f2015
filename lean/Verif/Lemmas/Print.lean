import Verif.Lemmas.Polygon
import Verif.Model.Print

/-!
# Texts that can be taken apart
-/

namespace Verif.Print

open Verif

variable {T : Texts}

theorem word_inj {α : Type} {f : α → T.Text} (hf : Function.Injective f) (hu : ∀ a, f a ≠ T.lit "Undefined") {x y : Option α} (h : word T f x = word T f y) : x = y := by
  cases x <;> cases y <;> simp only [word] at h
  · rfl
  · exact (hu _ h.symm).elim
  · exact (hu _ h).elim
  · rw [hf h]

/-- a piece that is not a line -/
def NotLine {W : Type} : Piece W → Prop
  | .line _ => False
  | _ => True

theorem lines_cancel {α W : Type} {f : α → List W} (hf : Function.Injective f) : ∀ {as bs : List α} {c d : Piece W} {xs ys : List (Piece W)}, NotLine c → NotLine d →
    (as.map fun a => Piece.line (f a)) ++ c :: xs = (bs.map fun a => Piece.line (f a)) ++ d :: ys → as = bs ∧ c = d ∧ xs = ys
  | [], [], c, d, xs, ys, _, _, h => by simpa using h
  | [], b :: bs, c, d, xs, ys, hc, _, h => by
    simp only [List.map_nil, List.nil_append, List.map_cons, List.cons_append, List.cons.injEq] at h
    rw [h.1] at hc
    exact hc.elim
  | a :: as, [], c, d, xs, ys, _, hd, h => by
    simp only [List.map_nil, List.nil_append, List.map_cons, List.cons_append, List.cons.injEq] at h
    rw [← h.1] at hd
    exact hd.elim
  | a :: as, b :: bs, c, d, xs, ys, hc, hd, h => by
    simp only [List.map_cons, List.cons_append, List.cons.injEq, Piece.line.injEq] at h
    obtain ⟨rfl, h'⟩ := lines_cancel hf hc hd h.2
    exact ⟨by rw [hf h.1], h'⟩

/-- a piece that ends the list of the inner rings -/
def Ends {W : Type} (c : Piece W) : Prop := NotLine c ∧ ∀ s, c ≠ .separator ("Inner Ring @ " ++ s)

theorem ends_footer {W : Type} : Ends (.footer : Piece W) := ⟨trivial, fun s h => by cases h⟩

theorem ends_outer {W : Type} : Ends (.separator "Outer Ring" : Piece W) := by
  refine ⟨trivial, fun s h => ?_⟩
  have := congrArg String.toList (Piece.separator.inj h)
  simp at this

theorem vertex_inj (hc : ∀ s a b, T.cat s a = T.cat s b → a = b) (h2 : Function.Injective T.point2) :
    Function.Injective fun v : V2 => [T.cat (T.lit "- ") (T.point2 v)] := by
  intro a b h
  simp only [List.cons.injEq, and_true] at h
  exact h2 (hc _ _ _ h)

theorem inners_cancel (hcat : ∀ s a b, T.cat s a = T.cat s b → a = b) (h2 : Function.Injective T.point2) : ∀ {rs ss : List (List V2)} {i : ℕ} {c d : Piece T.Text} {xs ys : List (Piece T.Text)}, Ends c → Ends d →
    inners T i rs ++ c :: xs = inners T i ss ++ d :: ys → rs.map List.dropLast = ss.map List.dropLast ∧ c = d ∧ xs = ys
  | [], [], i, c, d, xs, ys, _, _, h => by simpa [inners] using h
  | [], s :: ss, i, c, d, xs, ys, hc, _, h => by
    simp only [inners, List.nil_append, List.cons_append, List.cons.injEq] at h
    exact (hc.2 _ h.1).elim
  | r :: rs, [], i, c, d, xs, ys, _, hd, h => by
    simp only [inners, List.nil_append, List.cons_append, List.cons.injEq] at h
    exact (hd.2 _ h.1.symm).elim
  | r :: rs, s :: ss, i, c, d, xs, ys, hc, hd, h => by
    simp only [inners, List.cons_append, List.append_assoc, List.cons.injEq, true_and] at h
    -- what follows the vertices is never a line
    have next : ∀ (ts : List (List V2)) (e : Piece T.Text) (zs : List (Piece T.Text)), Ends e → ∃ e' zs', NotLine e' ∧ inners T (i + 1) ts ++ e :: zs = e' :: zs' := by
      intro ts e zs he
      cases ts with
      | nil => exact ⟨e, zs, he.1, rfl⟩
      | cons t ts => exact ⟨.separator _, _, trivial, rfl⟩
    obtain ⟨c', xs', hc', ex⟩ := next rs c xs hc
    obtain ⟨d', ys', hd', ey⟩ := next ss d ys hd
    rw [ex, ey] at h
    obtain ⟨e1, e2, e3⟩ := lines_cancel (vertex_inj hcat h2) hc' hd' h
    have e4 : inners T (i + 1) rs ++ c :: xs = inners T (i + 1) ss ++ d :: ys := by rw [ex, ey, e2, e3]
    obtain ⟨f1, f2⟩ := inners_cancel hcat h2 hc hd e4
    exact ⟨by simp [e1, f1], f2⟩

/-- a polygon as its constructor leaves it: nothing, or closed rings -/
def Tidy (p : Polygon2) : Prop := (p.outer = [] ∨ Ring.Closed p.outer) ∧ ∀ r ∈ p.inners, Ring.Closed r

theorem closed_inj {r s : List V2} (hr : Ring.Closed r) (hs : Ring.Closed s) (h : r.dropLast = s.dropLast) : r = s := by
  obtain ⟨v, vs, rfl, -⟩ := hr
  obtain ⟨w, ws, rfl, -⟩ := hs
  rw [List.dropLast_concat, List.dropLast_concat, List.cons.injEq] at h
  rw [h.1, h.2]

theorem polygon_cancel (hcat : ∀ s a b, T.cat s a = T.cat s b → a = b) (h2 : Function.Injective T.point2) {p q : Polygon2} (hp : Tidy p) (hq : Tidy q) {c d : Piece T.Text} {xs ys : List (Piece T.Text)} (hc : Ends c) (hd : Ends d)
    (h : p.print T ++ c :: xs = q.print T ++ d :: ys) : p = q ∧ c = d ∧ xs = ys := by
  simp only [Polygon2.print, vertices, List.cons_append, List.append_assoc, List.cons.injEq, true_and] at h
  obtain ⟨e1, -, e3⟩ := lines_cancel (vertex_inj hcat h2) (c := .separator "Inner Rings") (d := .separator "Inner Rings") trivial trivial h
  obtain ⟨f1, f2⟩ := inners_cancel hcat h2 hc hd e3
  refine ⟨?_, f2⟩
  obtain ⟨o, is⟩ := p
  obtain ⟨o', is'⟩ := q
  obtain ⟨ho, hi⟩ := hp
  obtain ⟨ho', hi'⟩ := hq
  have empty : ∀ {r : List V2}, Ring.Closed r → r.dropLast ≠ [] := by
    rintro r ⟨v, vs, rfl, -⟩
    rw [List.dropLast_concat]; simp
  have e4 : o = o' := by
    have e5 : o.dropLast = o'.dropLast := e1
    simp only at ho ho'
    rcases ho with rfl | ho <;> rcases ho' with rfl | ho'
    · rfl
    · exact (empty ho' e5.symm).elim
    · exact (empty ho e5).elim
    · exact closed_inj ho ho' e5
  have e6 : ∀ {rs ss : List (List V2)}, (∀ r ∈ rs, Ring.Closed r) → (∀ r ∈ ss, Ring.Closed r) → rs.map List.dropLast = ss.map List.dropLast → rs = ss := by
    intro rs
    induction rs with
    | nil => intro ss _ _ h; cases ss <;> simp_all
    | cons r rs ih =>
      intro ss h1 h2 h
      cases ss with
      | nil => simp at h
      | cons s ss =>
        simp only [List.map_cons, List.cons.injEq] at h
        rw [closed_inj (h1 r (by simp)) (h2 s (by simp)) h.1, ih (fun r hr => h1 r (by simp [hr])) (fun r hr => h2 r (by simp [hr])) h.2]
  have e7 : is = is' := e6 hi hi' f1
  rw [e4, e7]

end Verif.Print
