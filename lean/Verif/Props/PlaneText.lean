import Verif.Lemmas.PlaneText
import Verif.Lemmas.Text

/-! # C102: the text of the objects of the plane -/

namespace Verif.Props

open Verif Verif.Spec Verif.PlaneText

variable {α : Type}

/-- decimal numbers are printed without the characters that separate them -/
theorem bare_fixedText (p : ℕ) : Bare (Text.fixedText p) := by
  intro k c hc
  have hd : ∀ c : Char, c.isDigit = true → c ∉ [' ', ',', '(', ')', '[', ']', '>'] := by
    intro c h hm
    simp only [List.mem_cons, List.not_mem_nil, or_false] at hm
    rcases hm with rfl | rfl | rfl | rfl | rfl | rfl | rfl <;> exact absurd h (by decide)
  simp only [Text.fixedText, List.mem_append] at hc
  rcases hc with (hc | hc) | hc
  · split_ifs at hc
    · rw [List.mem_singleton] at hc
      subst hc
      decide
    · simp at hc
  · exact hd c (Text.digits_isDigit _ c hc)
  · split_ifs at hc
    · simp at hc
    · rcases List.mem_cons.1 hc with rfl | hc
      · decide
      · exact hd c (Text.padded_isDigit _ _ c hc)

example : Bare (Text.fixedText 3) := bare_fixedText 3

/-- **C102.** The text of a point tells its format and the text of its coordinates. -/
theorem C102_point {num : α → List Char} (hb : Bare num) {f g : Format} {p q : Option (α × α)} {s : List Char}
    (hp : pointToString num f p = .ok s) (hq : pointToString num g q = .ok s) : f = g ∧ SameText num p q := by
  match p, q, f, g with
  | none, _, _, _ => simp [pointToString] at hp
  | some _, none, _, _ => simp [pointToString] at hq
  | some _, some _, .undefined, _ => simp [pointToString] at hp
  | some _, some _, .standard, .undefined => simp [pointToString] at hq
  | some _, some _, .wkt, .undefined => simp [pointToString] at hq
  | some (x, y), some (x', y'), .standard, .standard =>
    simp only [pointToString, Except.ok.injEq] at hp hq
    rw [← hq] at hp
    refine ⟨rfl, _, _, rfl, rfl, pair_inj (c := ',') (v := [' ']) (fun x => bare_not hb x (by decide)) (s := [']']) (t := [']']) ?_ rfl⟩
    simpa using hp
  | some (x, y), some (x', y'), .wkt, .wkt =>
    simp only [pointToString, Except.ok.injEq] at hp hq
    rw [← hq] at hp
    refine ⟨rfl, _, _, rfl, rfl, pair_inj (c := ' ') (v := []) (fun x => bare_not hb x (by decide)) (s := [')']) (t := [')']) ?_ rfl⟩
    simpa using hp
  | some (x, y), some (x', y'), .standard, .wkt =>
    simp only [pointToString, Except.ok.injEq] at hp hq
    rw [← hq] at hp
    simp at hp
  | some (x, y), some (x', y'), .wkt, .standard =>
    simp only [pointToString, Except.ok.injEq] at hp hq
    rw [← hq] at hp
    simp at hp

theorem bracket_point {num : α → List Char} {p : Option (α × α)} {s : List Char} (h : pointToString num .standard p = .ok s) :
    ∃ x y, p = some (x, y) ∧ s = '[' :: num x ++ ", ".toList ++ num y ++ [']'] := by
  match p with
  | none => simp [pointToString] at h
  | some (x, y) =>
    simp only [pointToString, Except.ok.injEq] at h
    exact ⟨x, y, rfl, by rw [← h]; simp⟩

theorem coordinates_point {num : α → List Char} {p : Option (α × α)} {s : List Char} (h : coordinates num p = .ok s) :
    ∃ x y, p = some (x, y) ∧ s = num x ++ " ".toList ++ num y := by
  match p with
  | none => simp [coordinates] at h
  | some (x, y) =>
    simp only [coordinates, Except.ok.injEq] at h
    exact ⟨x, y, rfl, h.symm⟩

theorem sameText_of_texts {num : α → List Char} {t : Option (α × α) → Res (List Char)}
    (ht : ∀ p q s, t p = .ok s → t q = .ok s → SameText num p q) {l m : List (Option (α × α))} {s : List (List Char)}
    (hl : texts t l = .ok s) (hm : texts t m = .ok s) : List.Forall₂ (SameText num) l m := by
  have h1 := texts_ok hl
  have h2 := texts_ok hm
  clear hl hm
  induction h1 generalizing m with
  | nil =>
    cases h2
    exact .nil
  | cons ha _ ih =>
    cases h2 with
    | cons hb h2 => exact .cons (ht _ _ _ ha hb) (ih h2)

theorem standard_mem {num : α → List Char} (hb : Bare num) {l : List (Option (α × α))} {s : List (List Char)}
    (hl : texts (pointToString num .standard) l = .ok s) :
    (∀ a ∈ s, '>' ∉ a ∧ a ≠ []) ∧ ∃ r : List (List Char), s = r.map (· ++ [']']) ∧ ∀ a ∈ r, ']' ∉ a := by
  have h := texts_ok hl
  clear hl
  induction h with
  | nil => exact ⟨by simp, [], rfl, by simp⟩
  | cons ha _ ih =>
    obtain ⟨x, y, -, rfl⟩ := bracket_point ha
    obtain ⟨i1, r, rfl, i2⟩ := ih
    have n : ∀ c ∈ [' ', ',', '(', ')', '[', ']', '>'], ∀ x, c ∉ num x := fun c hc x => bare_not hb x hc
    constructor
    · intro a ha
      rcases List.mem_cons.1 ha with rfl | ha
      · refine ⟨?_, by simp⟩
        simp [n '>' (by decide)]
      · exact i1 a ha
    · refine ⟨('[' :: num x ++ ", ".toList ++ num y) :: r, rfl, ?_⟩
      intro a ha
      rcases List.mem_cons.1 ha with rfl | ha
      · simp [n ']' (by decide)]
      · exact i2 a ha

theorem wkt_mem {num : α → List Char} (hb : Bare num) {l : List (Option (α × α))} {s : List (List Char)}
    (hl : texts (coordinates num) l = .ok s) : ∀ a ∈ s, ',' ∉ a ∧ a ≠ [] := by
  have h := texts_ok hl
  clear hl
  induction h with
  | nil => simp
  | cons ha _ ih =>
    obtain ⟨x, y, -, rfl⟩ := coordinates_point ha
    intro a ha
    rcases List.mem_cons.1 ha with rfl | ha
    · refine ⟨?_, by simp⟩
      simp [bare_not hb _ (show ',' ∈ [' ', ',', '(', ')', '[', ']', '>'] by decide)]
    · exact ih a ha

theorem coordinates_inj {num : α → List Char} (hb : Bare num) (p q : Option (α × α)) (s : List Char) (hp : coordinates num p = .ok s)
    (hq : coordinates num q = .ok s) : SameText num p q := by
  obtain ⟨x, y, rfl, h⟩ := coordinates_point hp
  obtain ⟨x', y', rfl, h'⟩ := coordinates_point hq
  refine ⟨_, _, rfl, rfl, pair_inj (c := ' ') (v := []) (fun x => bare_not hb x (by decide)) (s := []) (t := []) ?_ rfl⟩
  rw [h] at h'
  simpa using h'

/-- **C102.** The text of a line string tells its format, the number of its points and the text of all their coordinates. -/
theorem C102_lineString {num : α → List Char} (hb : Bare num) {f g : Format} {l m : List (Option (α × α))} {s : List Char}
    (hl : lineStringToString num f l = .ok s) (hm : lineStringToString num g m = .ok s) : f = g ∧ List.Forall₂ (SameText num) l m := by
  have bound : ∀ {t : Option (α × α) → Res (List Char)} {k : List (Option (α × α))} {F : List (List Char) → List Char} {s : List Char},
      (do let s ← texts t k; (.ok (F s) : Res (List Char))) = .ok s → ∃ r, texts t k = .ok r ∧ F r = s := by
    intro t k F s h
    cases hk : texts t k with
    | error e => simp [hk, bind, Except.bind] at h
    | ok r =>
      simp only [hk, bind, Except.bind, Except.ok.injEq] at h
      exact ⟨r, rfl, h⟩
  match f, g with
  | .undefined, _ => simp [lineStringToString] at hl
  | .standard, .undefined => simp [lineStringToString] at hm
  | .wkt, .undefined => simp [lineStringToString] at hm
  | .standard, .standard =>
    obtain ⟨r, hr, h1⟩ := bound hl
    obtain ⟨r', hr', h2⟩ := bound hm
    rw [← h2] at h1
    have h3 := List.append_cancel_left (List.append_cancel_right h1)
    have h4 : r = r' := join_inj (c := '>') (u := [' ', '-']) (v := [' ']) (by decide) (standard_mem hb hr).1 (standard_mem hb hr').1 h3
    subst h4
    exact ⟨rfl, sameText_of_texts (fun p q s hp hq => (C102_point hb hp hq).2) hr hr'⟩
  | .wkt, .wkt =>
    obtain ⟨r, hr, h1⟩ := bound hl
    obtain ⟨r', hr', h2⟩ := bound hm
    rw [← h2] at h1
    have h3 := List.append_cancel_left (List.append_cancel_right h1)
    have h4 : r = r' := join_inj (c := ',') (u := []) (v := [' ']) (by decide) (wkt_mem hb hr) (wkt_mem hb hr') h3
    subst h4
    exact ⟨rfl, sameText_of_texts (coordinates_inj hb) hr hr'⟩
  | .standard, .wkt =>
    obtain ⟨r, hr, h1⟩ := bound hl
    obtain ⟨r', hr', h2⟩ := bound hm
    rw [← h2] at h1
    simp at h1
  | .wkt, .standard =>
    obtain ⟨r, hr, h1⟩ := bound hl
    obtain ⟨r', hr', h2⟩ := bound hm
    rw [← h2] at h1
    simp at h1

example : lineStringToString (Text.fixedText 0) .wkt [some (1, 2), some (3, 4)] = .ok "LINESTRING(1 2, 3 4)".toList := by
  have d : ∀ k ∈ [1, 2, 3, 4], Text.digits k = [Text.digitChar k] := by
    intro k hk
    rw [Text.digits, dif_pos]
    simp at hk
    omega
  have e : ∀ k : ℕ, k ∈ [1, 2, 3, 4] → Text.fixedText 0 (k : ℤ) = [Text.digitChar k] := by
    intro k hk
    simp [Text.fixedText, d k hk]
  have e1 := e 1 (by decide)
  have e2 := e 2 (by decide)
  have e3 := e 3 (by decide)
  have e4 := e 4 (by decide)
  simp only [Nat.cast_one, Nat.cast_ofNat] at e1 e2 e3 e4
  simp [lineStringToString, texts, coordinates, join, bind, Except.bind, e1, e2, e3, e4]
  decide

/-- **C102.** The text of a point set tells the number of its points and the text of all their coordinates. -/
theorem C102_pointSet {num : α → List Char} (hb : Bare num) {f g : Format} {l m : List (Option (α × α))} {s : List Char}
    (hl : pointSetToString num f l = .ok s) (hm : pointSetToString num g m = .ok s) :
    f = .standard ∧ g = .standard ∧ List.Forall₂ (SameText num) l m := by
  match f, g with
  | .undefined, _ => simp [pointSetToString] at hl
  | .wkt, _ => simp [pointSetToString] at hl
  | .standard, .undefined => simp [pointSetToString] at hm
  | .standard, .wkt => simp [pointSetToString] at hm
  | .standard, .standard =>
    refine ⟨rfl, rfl, ?_⟩
    simp only [pointSetToString] at hl hm
    cases hr : texts (pointToString num .standard) l with
    | error e => simp [hr, bind, Except.bind] at hl
    | ok r =>
      cases hr' : texts (pointToString num .standard) m with
      | error e => simp [hr', bind, Except.bind] at hm
      | ok r' =>
        simp only [hr, bind, Except.bind, Except.ok.injEq] at hl
        simp only [hr', bind, Except.bind, Except.ok.injEq] at hm
        rw [← hm] at hl
        have h3 := List.append_cancel_left (List.append_cancel_right hl)
        obtain ⟨-, a, rfl, ha⟩ := standard_mem hb hr
        obtain ⟨-, a', rfl, ha'⟩ := standard_mem hb hr'
        have h4 : a = a' := join_closed_inj (by decide) ha ha' h3
        subst h4
        exact sameText_of_texts (fun p q s hp hq => (C102_point hb hp hq).2) hr hr'

/-- **C102.** A line string or a point set has a text exactly when all its points are defined and it knows the format. -/
theorem C102_errors (num : α → List Char) (f : Format) (l : List (Option (α × α))) :
    ((∃ s, lineStringToString num f l = .ok s) ↔ f ≠ .undefined ∧ none ∉ l) ∧
    ((∃ s, pointSetToString num f l = .ok s) ↔ f = .standard ∧ none ∉ l) ∧
    (none ∈ l → f ≠ .undefined → lineStringToString num f l = .error .undefined) ∧
    (none ∈ l → pointSetToString num .standard l = .error .undefined) ∧
    lineStringToString num .undefined l = .error .wrong ∧ pointSetToString num .undefined l = .error .wrong ∧
    pointSetToString num .wkt l = .error .runtimeError := by
  have e1 := texts_error (t := pointToString num .standard) (e := .undefined) (by
    rintro ⟨⟩ e' h
    · simpa [pointToString] using h.symm
    · simp [pointToString] at h) l
  have e2 := texts_error (t := coordinates num) (e := .undefined) (by
    rintro ⟨⟩ e' h
    · simpa [coordinates] using h.symm
    · simp [coordinates] at h) l
  have f1 : none ∈ l → texts (pointToString num .standard) l = .error .undefined := fun h => e1.1 ⟨none, h, _, rfl⟩
  have f2 : none ∈ l → texts (coordinates num) l = .error .undefined := fun h => e2.1 ⟨none, h, _, rfl⟩
  have g1 : none ∉ l → ∃ s, texts (pointToString num .standard) l = .ok s := fun h => e1.2 (by
    rintro ⟨⟩ ha
    · exact absurd ha h
    · exact ⟨_, rfl⟩)
  have g2 : none ∉ l → ∃ s, texts (coordinates num) l = .ok s := fun h => e2.2 (by
    rintro ⟨⟩ ha
    · exact absurd ha h
    · exact ⟨_, rfl⟩)
  by_cases h : none ∈ l
  · cases f <;> simp [lineStringToString, pointSetToString, h, f1 h, f2 h, bind, Except.bind]
  · obtain ⟨s1, h1⟩ := g1 h
    obtain ⟨s2, h2⟩ := g2 h
    cases f <;> simp [lineStringToString, pointSetToString, h, h1, h2, bind, Except.bind]

/-- **C102.** A segment prints like the line string of its two points in both formats, and a line like the segment from its origin to
the end of its direction: the text does not tell the kind of the object. -/
theorem C102_kind_violated (num : α → List Char) (p q : α × α) :
    (∀ f, segmentToString num f (some p) (some q) = lineStringToString num f [some p, some q]) ∧
    lineToString num .standard (some p) (some q) = segmentToString num .standard (some p) (some q) ∧
    ∃ s, segmentToString num .standard (some p) (some q) = .ok s := by
  refine ⟨?_, rfl, ?_⟩
  · intro f
    cases f <;> simp [segmentToString, lineStringOfSegment, lineStringToString, arrow, texts, join, pointToString, bind, Except.bind]
  · simp [segmentToString, arrow, pointToString, bind, Except.bind]

/-- **C102.** The text of a segment tells its format and the text of the coordinates of its two points, in order; segments and lines with an undefined point have no text,
and lines have no well-known text. -/
theorem C102_segment {num : α → List Char} (hb : Bare num) (f g : Format) (p q p' q' : Option (α × α)) (s : List Char) :
    (segmentToString num f p q = .ok s → segmentToString num g p' q' = .ok s → f = g ∧ SameText num p p' ∧ SameText num q q') ∧
    (lineToString num f p q = .ok s → lineToString num g p' q' = .ok s → f = .standard ∧ g = .standard ∧ SameText num p p' ∧ SameText num q q') ∧
    (f ≠ .undefined → (p = none ∨ q = none) → segmentToString num f p q = .error .undefined) ∧
    ((p = none ∨ q = none) → lineToString num .standard p q = .error .undefined) ∧
    segmentToString num .undefined p q = .error .wrong ∧ lineToString num .wkt p q = .error .wrong ∧ lineToString num .undefined p q = .error .wrong := by
  have hs : ∀ f g : Format, segmentToString num f p q = .ok s → segmentToString num g p' q' = .ok s → f = g ∧ SameText num p p' ∧ SameText num q q' := by
    intro f g h1 h2
    have some_of : ∀ {f p q}, segmentToString num f p q = .ok s → ∃ a b, p = some a ∧ q = some b := by
      intro f p q h
      cases f <;> cases p <;> cases q <;> simp [segmentToString, arrow, lineStringOfSegment, pointToString, bind, Except.bind] at h ⊢
    obtain ⟨a, b, rfl, rfl⟩ := some_of h1
    obtain ⟨a', b', rfl, rfl⟩ := some_of h2
    rw [(C102_kind_violated num a b).1] at h1
    rw [(C102_kind_violated num a' b').1] at h2
    obtain ⟨hf, h3⟩ := C102_lineString hb h1 h2
    cases h3 with
    | cons h4 h5 =>
      cases h5 with
      | cons h6 _ => exact ⟨hf, h4, h6⟩
  refine ⟨hs f g, ?_, ?_, ?_, rfl, rfl, rfl⟩
  · intro h1 h2
    cases f <;> cases g <;> simp [lineToString] at h1 h2
    exact ⟨rfl, rfl, (hs .standard .standard h1 h2).2⟩
  · intro hf h
    cases f <;> cases p <;> cases q <;> simp [segmentToString, arrow, lineStringOfSegment, pointToString, bind, Except.bind] at hf h ⊢
  · intro h
    cases p <;> cases q <;> simp [lineToString, arrow, pointToString, bind, Except.bind] at h ⊢

/-- **C102.** The text of a polygon tells the number of its rings, the number of points of each and the text of all their coordinates. -/
theorem C102_polygon {num : α → List Char} (hb : Bare num) {f g : Format} {P Q : Option (List (List (α × α)))} {s : List Char}
    (hP : polygonToString num f P = .ok s) (hQ : polygonToString num g Q = .ok s) :
    ∃ p q, P = some p ∧ Q = some q ∧ List.Forall₂ (List.Forall₂ (SamePoint num)) p q := by
  have body : ∀ {f} {P : Option (List (List (α × α)))}, polygonToString num f P = .ok s →
      ∃ p, P = some p ∧ "POLYGON(".toList ++ join ",".toList (p.map (ringText num)) ++ ")".toList = s := by
    intro f P h
    cases P with
    | none => simp [polygonToString] at h
    | some p =>
      cases f with
      | undefined => simp [polygonToString] at h
      | _ =>
        simp only [polygonToString, Except.ok.injEq] at h
        exact ⟨p, rfl, h⟩
  obtain ⟨p, rfl, h1⟩ := body hP
  obtain ⟨q, rfl, h2⟩ := body hQ
  refine ⟨p, q, rfl, rfl, ?_⟩
  rw [← h2] at h1
  have h3 := List.append_cancel_left (List.append_cancel_right h1)
  let pair : α × α → List Char := fun p => num p.1 ++ " ".toList ++ num p.2
  let inner : List (α × α) → List Char := fun r => '(' :: join ",".toList (r.map pair)
  have hi : ringText num = (· ++ [')']) ∘ inner := by
    funext r
    simp [ringText, inner, pair]
  have np : ∀ c ∈ [',', ')'], ∀ a : α × α, c ∉ pair a := by
    intro c hc a
    have hc' : c ∈ [' ', ',', '(', ')', '[', ']', '>'] := by
      simp only [List.mem_cons, List.not_mem_nil, or_false] at hc ⊢
      rcases hc with rfl | rfl <;> simp
    have hs : c ≠ ' ' := by
      rintro rfl
      exact absurd hc (by decide)
    simp [pair, bare_not hb _ hc', hs]
  have nj : ∀ l : List (α × α), ')' ∉ join ",".toList (l.map pair) := by
    intro l
    induction l with
    | nil => simp [join]
    | cons a l ih =>
      cases l with
      | nil => exact np ')' (by simp) a
      | cons b l =>
        simp only [List.map_cons, join, List.mem_append, not_or]
        exact ⟨⟨np ')' (by simp) a, by decide⟩, by simpa using ih⟩
  have ni : ∀ l : List (List (α × α)), ∀ a ∈ l.map inner, ')' ∉ a := by
    intro l a ha
    obtain ⟨r, -, rfl⟩ := List.mem_map.1 ha
    have := nj r
    simp only [inner, List.mem_cons, not_or]
    exact ⟨by decide, this⟩
  rw [hi, ← List.map_map, ← List.map_map] at h3
  have h4 := join_closed_inj (by decide) (ni p) (ni q) h3
  have hinj : ∀ r r' : List (α × α), inner r = inner r' → List.Forall₂ (SamePoint num) r r' := by
    intro r r' h
    have h5 := (List.cons.inj h).2
    have nr : ∀ l : List (α × α), ∀ a ∈ l.map pair, ',' ∉ a ∧ a ≠ [] := by
      intro l a ha
      obtain ⟨b, -, rfl⟩ := List.mem_map.1 ha
      exact ⟨np ',' (by simp) b, by simp [pair]⟩
    have h6 : r.map pair = r'.map pair := join_inj (c := ',') (u := []) (v := []) (by decide) (nr r) (nr r') h5
    have h7 : List.Forall₂ (fun a b => pair a = pair b) r r' := by
      rw [← List.forall₂_map_left_iff (f := pair) (R := fun x b => x = pair b), ← List.forall₂_map_right_iff (f := pair) (R := fun x y => x = y), h6]
      exact List.forall₂_refl _
    refine h7.imp fun a b h => ?_
    refine pair_inj (c := ' ') (v := []) (fun x => bare_not hb x (by decide)) (s := []) (t := []) ?_ rfl
    simpa [pair] using h
  have h8 : List.Forall₂ (fun a b => inner a = inner b) p q := by
    rw [← List.forall₂_map_left_iff (f := inner) (R := fun x b => x = inner b), ← List.forall₂_map_right_iff (f := inner) (R := fun x y => x = y), h4]
    exact List.forall₂_refl _
  exact h8.imp hinj

example : ∃ s, polygonToString (Text.fixedText 3) .wkt (some [[(0, 0), (0, 5), (5, 0), (0, 0)]]) = .ok s := ⟨_, rfl⟩

/-- **C102.** All composites have the same text. -/
theorem C102_composite_violated {β : Type} (a b : List β) : compositeToString .standard a = compositeToString .standard b := rfl

end Verif.Props
