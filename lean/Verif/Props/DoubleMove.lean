import Verif.Lemmas.DoubleMove
import Verif.Model.DoubleFlat
import Verif.Props.DoubleFlat

/-!
# C144: objects of space moved several times in double precision

`ts` are transformations made from rotation vectors and translation vectors, `ms` the exact motions they stand for (`Makes`). `o` and `q` are the orders in which Eigen adds three and four terms.
-/

namespace Verif.Props

open Verif Verif.Spec Verif.Double

namespace Move

theorem tau : (0 : ℝ) ≤ 2 ^ (-1070 : ℤ) ∧ (2 : ℝ) ^ (-1070 : ℤ) ≤ 1 :=
  ⟨(two_zpow_pos _).le, by
    have : (2 : ℝ) ^ (-1070 : ℤ) ≤ 2 ^ (0 : ℤ) := zpow_le_zpow_right₀ one_le_two (by norm_num)
    simpa using this⟩

theorem drift_eq (k : ℤ) (n : ℕ) (s : ℝ) : (0 + n : ℕ) * (2 * 2 ^ k * s + 2 * 2 ^ (-1070 : ℤ)) = driftOf (k + 1) n s := by
  have e1 : (2 : ℝ) * 2 ^ k = 2 ^ (k + 1) := by rw [zpow_add_one₀ two_ne_zero, mul_comm]
  have e2 : (2 : ℝ) * 2 ^ (-1070 : ℤ) = 2 ^ (-1069 : ℤ) := by rw [← zpow_one_add₀ two_ne_zero]; norm_num
  rw [driftOf, e1, e2, zero_add]

theorem path_reaches (ms : List Motion) : reaches Motion.reach ms = Motion.path ms := rfl

theorem k43 : (0 : ℝ) ≤ 2 ^ (-45 : ℤ) ∧ (2 : ℝ) ^ (-45 : ℤ) ≤ 2 ^ (-43 : ℤ) ∧ (0 : ℝ) ≤ 2 ^ (-43 : ℤ) :=
  ⟨(two_zpow_pos _).le, zpow_le_zpow_right₀ one_le_two (by norm_num), (two_zpow_pos _).le⟩

/-- what a point and a direction become -/
theorem moved_point (o : Bool) (q : Order4) {sin cos : ℝ → ℝ} (hs : Accurate sin Real.sin) (hc : Accurate cos Real.cos) {T : DTrans} {m : Motion} (h : Makes o sin cos T m) {a : V3} (ha : Within a) :
    ∃ b, Rep b ∧ DTrans.movePoint q T (doubles a) = .ok (doubles b) ∧ DT3.applyTo q T.matrix (doubles a) = .ok (doubles b) ∧
      ‖pure b - m.point (pure a)‖ ≤ 2 ^ (-45 : ℤ) * (‖pure a‖ + m.reach) + 2 ^ (-1070 : ℤ) := by
  obtain ⟨h1, -, -, h2⟩ := one_step o q hs hc h
  obtain ⟨b, hb, e, n⟩ := (h2 a ha).1
  exact ⟨b, hb, by rw [DTrans.movePoint, h1, doubles_defined, e]; rfl, e, n⟩

end Move

/-- **C144.** A line, a ray or a plane that is moved by any sequence of rotations about axes through the origin and of translations in double precision is moved as by the exact motions: the error of its
origin grows by at most `2 ^ -44` of the distances involved with each motion, that of its direction by `2 ^ -44` of its length. Coordinates are not above `2 ^ 490`, motions not more than `2 ^ 40`. -/
theorem C144_lines_partial (o : Bool) (q : Order4) {sin cos : ℝ → ℝ} (hs : Accurate sin Real.sin) (hc : Accurate cos Real.cos) {ts : List DTrans} {ms : List Motion}
    (h : List.Forall₂ (Makes o sin cos) ts ms) (hn : ms.length ≤ 2 ^ 40) {p d : V3} (hp : Within p) (hd : Within d) (sp : ‖pure p‖ + Motion.path ms ≤ 2 ^ 490) (sd : ‖pure d‖ ≤ 2 ^ 490) :
    ∃ p' d', DTrans.many (DTrans.moveLine q) ts (doubles p, doubles d) = .ok (doubles p', doubles d') ∧
      ‖pure p' - Motion.points ms (pure p)‖ ≤ driftOf (-44) ms.length (‖pure p‖ + Motion.path ms) ∧
      ‖pure d' - Motion.directions ms (pure d)‖ ≤ driftOf (-44) ms.length ‖pure d‖ := by
  obtain ⟨b, -, -, e, n⟩ := Move.drift (ι := Bool) (fun a => (doubles (a false), doubles (a true))) (DTrans.moveLine q) (fun i => bif i then Motion.direction else Motion.point)
    (fun i => bif i then fun _ => 0 else Motion.reach) (fun _ => True) Move.k43.1 Move.k43.2.1 Move.tau.1 Move.tau.2
    (fun T m a hm ha _ => by
      obtain ⟨b, hb, e, -, n⟩ := Move.moved_point o q hs hc hm (ha false)
      obtain ⟨h1, -, -, h2⟩ := Move.one_step o q hs hc hm
      obtain ⟨c, hc', e', n'⟩ := (h2 _ (ha true)).2
      refine ⟨fun i => bif i then c else b, fun i => by cases i <;> assumption, trivial, ?_, fun i => ?_⟩
      · simp only [DTrans.moveLine, h1, doubles_defined, e, e', bind, Except.bind]; rfl
      · cases i
        · exact n
        · simpa using n')
    (fun T m hm i x y => by
      obtain ⟨k1, k2, k3, k4, k5⟩ := Move.keeps hs hc hm x y
      cases i
      · exact ⟨k1, k3, k5⟩
      · exact ⟨k2, by simpa using k4.le, le_refl _⟩)
    (S := fun i => bif i then ‖pure d‖ else ‖pure p‖ + Motion.path ms) (fun i => by cases i <;> assumption) h 0 (fun i => bif i then d else p) (fun i => bif i then pure d else pure p) (by omega)
    (fun i => by cases i <;> exact ⟨by first | exact hp.x.1 | exact hd.x.1, by first | exact hp.y.1 | exact hd.y.1, by first | exact hp.z.1 | exact hd.z.1⟩) trivial
    (fun i => by cases i <;> simp) (fun i => by
      cases i
      · exact le_refl _
      · simp [Move.reaches_zero])
  refine ⟨b false, b true, e, ?_, ?_⟩
  · have := n false
    rw [Move.drift_eq] at this
    exact this
  · have := n true
    rw [Move.drift_eq] at this
    exact this

/-- **C144.** The ends of a segment and the centre of a sphere are moved with the same error, and the radius of a sphere is kept exactly. -/
theorem C144_points_partial (o : Bool) (q : Order4) {sin cos : ℝ → ℝ} (hs : Accurate sin Real.sin) (hc : Accurate cos Real.cos) {ts : List DTrans} {ms : List Motion}
    (h : List.Forall₂ (Makes o sin cos) ts ms) (hn : ms.length ≤ 2 ^ 40) {p d : V3} (hp : Within p) (hd : Within d) (sp : ‖pure p‖ + Motion.path ms ≤ 2 ^ 490) (sd : ‖pure d‖ + Motion.path ms ≤ 2 ^ 490)
    {r : F64 ℝ} (hr : r ≠ .nan) :
    ∃ p' d', DTrans.many (DTrans.moveSegment q) ts (doubles p, doubles d) = .ok (doubles p', doubles d') ∧ DTrans.many (DTrans.moveSphere q) ts (doubles p, r) = .ok (doubles p', r) ∧
      ‖pure p' - Motion.points ms (pure p)‖ ≤ driftOf (-44) ms.length (‖pure p‖ + Motion.path ms) ∧
      ‖pure d' - Motion.points ms (pure d)‖ ≤ driftOf (-44) ms.length (‖pure d‖ + Motion.path ms) := by
  obtain ⟨b, -, -, e, n⟩ := Move.drift (ι := Bool) (fun a => (((doubles (a false), doubles (a true)) : DVec × DVec), ((doubles (a false), r) : DVec × F64 ℝ)))
    (fun T s => do
      let x ← DTrans.moveSegment q T s.1
      let y ← DTrans.moveSphere q T s.2
      return (x, y)) (fun _ => Motion.point)
    (fun _ => Motion.reach) (fun _ => True) Move.k43.1 Move.k43.2.1 Move.tau.1 Move.tau.2
    (fun T m a hm ha _ => by
      obtain ⟨b, hb, e, -, n⟩ := Move.moved_point o q hs hc hm (ha false)
      obtain ⟨c, hc', e', -, n'⟩ := Move.moved_point o q hs hc hm (ha true)
      obtain ⟨h1, -, h3, -⟩ := Move.one_step o q hs hc hm
      refine ⟨fun i => bif i then c else b, fun i => by cases i <;> assumption, trivial, ?_, fun i => ?_⟩
      · simp only [DTrans.moveSegment, DTrans.moveSphere, h1, h3, doubles_defined, e, e', hr, decide_false, bind, Except.bind]; rfl
      · cases i
        · exact n
        · exact n')
    (fun T m hm i x y => by
      obtain ⟨k1, k2, k3, k4, k5⟩ := Move.keeps hs hc hm x y
      exact ⟨k1, k3, k5⟩)
    (S := fun i => ‖pure (bif i then d else p)‖ + Motion.path ms) (fun i => by cases i <;> assumption) h 0 (fun i => bif i then d else p) (fun i => pure (bif i then d else p)) (by omega)
    (fun i => by cases i <;> exact ⟨by first | exact hp.x.1 | exact hd.x.1, by first | exact hp.y.1 | exact hd.y.1, by first | exact hp.z.1 | exact hd.z.1⟩) trivial
    (fun i => by simp) (fun i => le_refl _)
  have split : ∀ (ts : List DTrans) (x y : (DVec × DVec) × (DVec × F64 ℝ)), DTrans.many (fun T s => do
      let x ← DTrans.moveSegment q T s.1
      let y ← DTrans.moveSphere q T s.2
      return (x, y)) ts x = .ok y → DTrans.many (DTrans.moveSegment q) ts x.1 = .ok y.1 ∧ DTrans.many (DTrans.moveSphere q) ts x.2 = .ok y.2 := by
    intro ts
    induction ts with
    | nil => intro x y hx; obtain rfl := Except.ok.inj hx; exact ⟨rfl, rfl⟩
    | cons T ts ih =>
      intro x y hx
      obtain ⟨z, h1, h2⟩ := ok_of_bind hx
      obtain ⟨z1, h3, h4⟩ := ok_of_bind h1
      obtain ⟨z2, h5, h6⟩ := ok_of_bind h4
      obtain rfl := Except.ok.inj h6
      obtain ⟨h7, h8⟩ := ih _ _ h2
      exact ⟨by rw [DTrans.many, h3]; exact h7, by rw [DTrans.many, h5]; exact h8⟩
  obtain ⟨e1, e2⟩ := split _ _ _ e
  refine ⟨b false, b true, e1, e2, ?_, ?_⟩
  · have := n false
    rw [Move.drift_eq] at this
    exact this
  · have := n true
    rw [Move.drift_eq] at this
    exact this

/-- **C144.** The axis of a cone is normalized with each motion: it has length one within 16 units of rounding after any number of them, and its error grows by `2 ^ -42` with each. -/
theorem C144_cone_partial (o : Bool) (q : Order4) {sin cos : ℝ → ℝ} (hs : Accurate sin Real.sin) (hc : Accurate cos Real.cos) {ts : List DTrans} {ms : List Motion}
    (h : List.Forall₂ (Makes o sin cos) ts ms) (hn : ms.length ≤ 2 ^ 40) {p d : V3} (hp : Within p) (hd : Within d) (sp : ‖pure p‖ + Motion.path ms ≤ 2 ^ 490) (nd : |‖pure d‖ - 1| ≤ 16 / 2 ^ 53)
    {w : DAngle ℝ} (hw : w.isDefined = true) :
    ∃ p' d', DTrans.many (DTrans.moveCone o q) ts ⟨doubles p, doubles d, w⟩ = .ok ⟨doubles p', doubles d', w⟩ ∧ |‖pure d'‖ - 1| ≤ 16 / 2 ^ 53 ∧
      ‖pure p' - Motion.points ms (pure p)‖ ≤ driftOf (-42) ms.length (‖pure p‖ + Motion.path ms) ∧
      ‖pure d' - Motion.directions ms (pure d)‖ ≤ driftOf (-42) ms.length ‖pure d‖ := by
  have u16 : (16 : ℝ) / 2 ^ 53 = 16 * DQuat.u := by rw [DQuat.u]; ring
  rw [u16] at nd ⊢
  have b2 : ‖pure d‖ ≤ 2 ^ 490 := by
    obtain ⟨-, h2⟩ := abs_le.1 nd
    have := DQuat.u_small
    norm_num at this
    have h3 : ‖pure d‖ ≤ 2 := by linarith
    exact h3.trans (by
      calc (2 : ℝ) = 2 ^ 1 := by norm_num
        _ ≤ 2 ^ 490 := pow_le_pow_right₀ one_le_two (by norm_num))
  obtain ⟨b, -, I, e, n⟩ := Move.drift (ι := Bool) (fun a => (⟨doubles (a false), doubles (a true), w⟩ : DCone)) (DTrans.moveCone o q) (fun i => bif i then Motion.direction else Motion.point)
    (fun i => bif i then fun _ => 0 else Motion.reach) (fun a => |‖pure (a true)‖ - 1| ≤ 16 * DQuat.u) Move.k43.2.2 (le_refl _) Move.tau.1 Move.tau.2
    (fun T m a hm ha I => by
      obtain ⟨b, hb, -, e, n⟩ := Move.moved_point o q hs hc hm (ha false)
      obtain ⟨h1, -, -, -⟩ := Move.one_step o q hs hc hm
      obtain ⟨v, c, hc', e1, e2, -, -, n1, n'⟩ := Move.unit_step o q hs hc hm (ha true) I
      refine ⟨fun i => bif i then c else b, fun i => by cases i <;> assumption, n1, ?_, fun i => ?_⟩
      · simp only [DTrans.moveCone, DCone.isDefined, h1, doubles_defined, hw, e, e1, e2, bind, Except.bind]; rfl
      · cases i
        · refine n.trans (add_le_add_left (mul_le_mul_of_nonneg_right Move.k43.2.1 ?_) _)
          exact add_nonneg (norm_nonneg _) (Move.keeps hs hc hm 0 0).2.2.2.2
        · refine n'.trans ?_
          simp)
    (fun T m hm i x y => by
      obtain ⟨k1, k2, k3, k4, k5⟩ := Move.keeps hs hc hm x y
      cases i
      · exact ⟨k1, k3, k5⟩
      · exact ⟨k2, by simpa using k4.le, le_refl _⟩)
    (S := fun i => bif i then ‖pure d‖ else ‖pure p‖ + Motion.path ms) (fun i => by cases i <;> assumption) h 0 (fun i => bif i then d else p) (fun i => bif i then pure d else pure p) (by omega)
    (fun i => by cases i <;> exact ⟨by first | exact hp.x.1 | exact hd.x.1, by first | exact hp.y.1 | exact hd.y.1, by first | exact hp.z.1 | exact hd.z.1⟩) nd
    (fun i => by cases i <;> simp) (fun i => by
      cases i
      · exact le_refl _
      · simp [Move.reaches_zero])
  refine ⟨b false, b true, e, I, ?_, ?_⟩
  · have := n false
    rw [Move.drift_eq] at this
    exact this
  · have := n true
    rw [Move.drift_eq] at this
    exact this

/-- **C144.** A cuboid: its axes have length one within 16 units of rounding after any number of motions, and their errors and those of the half lengths grow by `2 ^ -42` of their lengths with each. -/
theorem C144_cuboid_partial (o : Bool) (q : Order4) {sin cos : ℝ → ℝ} (hs : Accurate sin Real.sin) (hc : Accurate cos Real.cos) {ts : List DTrans} {ms : List Motion}
    (h : List.Forall₂ (Makes o sin cos) ts ms) (hn : ms.length ≤ 2 ^ 40) {p : V3} (hp : Within p) (sp : ‖pure p‖ + Motion.path ms ≤ 2 ^ 490) {x : Fin 3 → V3} (hx : ∀ i, Within (x i))
    (nx : ∀ i, |‖pure (x i)‖ - 1| ≤ 16 / 2 ^ 53) {e : Fin 3 → ℝ} (he : ∀ i, Representable (e i) ∧ |e i| ≤ 2 ^ 490) :
    ∃ (p' : V3) (x' : Fin 3 → V3) (e' : Fin 3 → ℝ), DTrans.many (DTrans.moveCuboid o q) ts ⟨doubles p, doubles (x 0), doubles (x 1), doubles (x 2), .fin (e 0), .fin (e 1), .fin (e 2)⟩ =
        .ok ⟨doubles p', doubles (x' 0), doubles (x' 1), doubles (x' 2), .fin (e' 0), .fin (e' 1), .fin (e' 2)⟩ ∧
      ‖pure p' - Motion.points ms (pure p)‖ ≤ driftOf (-42) ms.length (‖pure p‖ + Motion.path ms) ∧
      ∀ i, |‖pure (x' i)‖ - 1| ≤ 16 / 2 ^ 53 ∧ ‖pure (x' i) - Motion.directions ms (pure (x i))‖ ≤ driftOf (-42) ms.length ‖pure (x i)‖ ∧ |e' i - e i| ≤ driftOf (-42) ms.length |e i| := by
  have u16 : (16 : ℝ) / 2 ^ 53 = 16 * DQuat.u := by rw [DQuat.u]; ring
  rw [u16] at nx ⊢
  have b2 : ∀ i, ‖pure (x i)‖ ≤ 2 ^ 490 := fun i => by
    obtain ⟨-, h2⟩ := abs_le.1 (nx i)
    have := DQuat.u_small
    norm_num at this
    have h3 : ‖pure (x i)‖ ≤ 2 := by linarith
    exact h3.trans (by
      calc (2 : ℝ) = 2 ^ 1 := by norm_num
        _ ≤ 2 ^ 490 := pow_le_pow_right₀ one_le_two (by norm_num))
  obtain ⟨b, -, I, e1, n⟩ := Move.drift (ι := Option (Fin 3 × Bool))
    (fun a => (⟨doubles (a none), doubles (a (some (0, false))), doubles (a (some (1, false))), doubles (a (some (2, false))), .fin (a (some (0, true))).x, .fin (a (some (1, true))).x,
      .fin (a (some (2, true))).x⟩ : DCuboid)) (DTrans.moveCuboid o q)
    (fun i => match i with
      | none => Motion.point
      | some (_, false) => Motion.direction
      | some (_, true) => fun _ x => x)
    (fun i => match i with
      | none => Motion.reach
      | some _ => fun _ => 0)
    (fun a => ∀ i, |‖pure (a (some (i, false)))‖ - 1| ≤ 16 * DQuat.u ∧ (a (some (i, true))).y = 0 ∧ (a (some (i, true))).z = 0) Move.k43.2.2 (le_refl _) Move.tau.1 Move.tau.2
    (fun T m a hm ha I => by
      obtain ⟨b, hb, e, -, n⟩ := Move.moved_point o q hs hc hm (ha none)
      obtain ⟨h1, h2, -, -⟩ := Move.one_step o q hs hc hm
      have U := fun i => Move.unit_step o q hs hc hm (ha (some (i, false))) (I i).1
      choose v c hc' k1 k2 hv k3 k4 k5 using U
      have E := fun i => Move.extent_step o (hv i) (k3 i) (ha (some (i, true))).x.2
      choose f f1 f2 f3 using E
      refine ⟨fun i => match i with
        | none => b
        | some (i, false) => c i
        | some (i, true) => ⟨f i, 0, 0⟩, fun i => ?_, fun i => ⟨k4 i, rfl, rfl⟩, ?_, fun i => ?_⟩
      · match i with
        | none => exact hb
        | some (i, false) => exact hc' i
        | some (i, true) => exact ⟨f1 i, representable_zero, representable_zero⟩
      · have d : DCuboid.isDefined ⟨doubles (a none), doubles (a (some (0, false))), doubles (a (some (1, false))), doubles (a (some (2, false))), .fin (a (some (0, true))).x, .fin (a (some (1, true))).x,
            .fin (a (some (2, true))).x⟩ = true := by simp [DCuboid.isDefined, doubles_defined]
        rw [DTrans.moveCuboid, h1, d, if_neg (by simp), if_neg (by simp), if_neg h2, e]
        simp only [k1, k2, f2, bind, Except.bind]
        rfl
      · match i with
        | none =>
          refine n.trans (add_le_add_left (mul_le_mul_of_nonneg_right Move.k43.2.1 ?_) _)
          exact add_nonneg (norm_nonneg _) (Move.keeps hs hc hm 0 0).2.2.2.2
        | some (i, false) =>
          refine (k5 i).trans ?_
          simp
        | some (i, true) =>
          obtain ⟨-, z1, z2⟩ := I i
          have z : a (some (i, true)) = ⟨(a (some (i, true))).x, 0, 0⟩ := by ext; exacts [rfl, z1, z2]
          have := f3 i
          rw [z]
          rw [Move.pure_axis_sub, Move.pure_axis, add_zero]
          exact this)
    (fun T m hm i x y => by
      obtain ⟨k1, k2, k3, k4, k5⟩ := Move.keeps hs hc hm x y
      match i with
      | none => exact ⟨k1, k3, k5⟩
      | some (i, false) => exact ⟨k2, by simpa using k4.le, le_refl _⟩
      | some (i, true) => exact ⟨rfl, by simp, le_refl _⟩)
    (S := fun i => match i with
      | none => ‖pure p‖ + Motion.path ms
      | some (i, false) => ‖pure (x i)‖
      | some (i, true) => |e i|) (fun i => by
      match i with
      | none => exact sp
      | some (i, false) => exact b2 i
      | some (i, true) => exact (he i).2) h 0 (fun i => match i with
      | none => p
      | some (i, false) => x i
      | some (i, true) => ⟨e i, 0, 0⟩) (fun i => match i with
      | none => pure p
      | some (i, false) => pure (x i)
      | some (i, true) => pure ⟨e i, 0, 0⟩) (by omega)
    (fun i => by
      match i with
      | none => exact ⟨hp.x.1, hp.y.1, hp.z.1⟩
      | some (i, false) => exact ⟨(hx i).x.1, (hx i).y.1, (hx i).z.1⟩
      | some (i, true) => exact ⟨(he i).1, representable_zero, representable_zero⟩) (fun i => ⟨nx i, rfl, rfl⟩)
    (fun i => by
      match i with
      | none => simp
      | some (i, false) => simp
      | some (i, true) => simp) (fun i => by
      match i with
      | none => exact le_refl _
      | some (i, false) => simp [Move.reaches_zero]
      | some (i, true) => simp [Move.reaches_zero, Move.pure_axis])
  refine ⟨b none, fun i => b (some (i, false)), fun i => (b (some (i, true))).x, e1, ?_, fun i => ⟨(I i).1, ?_, ?_⟩⟩
  · have := n none
    rw [Move.drift_eq] at this
    exact this
  · have := n (some (i, false))
    rw [Move.drift_eq] at this
    exact this
  · have := n (some (i, true))
    rw [Move.drift_eq] at this
    obtain ⟨-, z1, z2⟩ := I i
    have z : b (some (i, true)) = ⟨(b (some (i, true))).x, 0, 0⟩ := by ext; exacts [rfl, z1, z2]
    have fix : ∀ (ms : List Motion) (y : Quaternion ℝ), ms.foldl (fun x _ => x) y = y := fun ms => by
      induction ms with
      | nil => exact fun _ => rfl
      | cons m ms ih => exact fun y => ih y
    rw [z] at this
    simp only [fix, Move.pure_axis_sub] at this
    exact this

/-- **C144.** A translation leaves the direction of a line, a ray or a plane exactly as it is and moves each coordinate of a point to the nearest double; the radius of a sphere is kept exactly. The identity
leaves lines, segments, spheres and cuboids exactly as they are. -/
theorem C144_translation (o : Bool) (q : Order4) {p d v : V3} (hp : FiniteDoubles p) (hd : FiniteDoubles d) (hv : FiniteDoubles v) {r : F64 ℝ} (hr : r ≠ .nan) {c : DCuboid} (hc : c.isDefined = true) :
    (∃ T, DTrans.Translation (doubles v) = .ok T ∧ (|p.x + v.x| ≤ 2 ^ 1023 → |p.y + v.y| ≤ 2 ^ 1023 → |p.z + v.z| ≤ 2 ^ 1023 →
      ∃ b : V3, NearestDouble (p.x + v.x) b.x ∧ NearestDouble (p.y + v.y) b.y ∧ NearestDouble (p.z + v.z) b.z ∧ DTrans.moveLine q T (doubles p, doubles d) = .ok (doubles b, doubles d) ∧
        DTrans.moveSphere q T (doubles p, r) = .ok (doubles b, r))) ∧
      DTrans.moveLine q DTrans.Identity (doubles p, doubles d) = .ok (doubles p, doubles d) ∧ DTrans.moveSegment q DTrans.Identity (doubles p, doubles d) = .ok (doubles p, doubles d) ∧
      DTrans.moveSphere q DTrans.Identity (doubles p, r) = .ok (doubles p, r) ∧ DTrans.moveCuboid o q DTrans.Identity c = .ok c := by
  have idd : DTrans.Identity.isDefined = true := rfl
  have idr : DTrans.Identity.rigid = true := rfl
  obtain ⟨i1, i2⟩ := C119_identity q hp
  obtain ⟨j1, j2⟩ := C119_identity q hd
  have m1 : DTrans.movePoint q DTrans.Identity (doubles p) = .ok (doubles p) := by rw [DTrans.movePoint, idd, doubles_defined]; exact i1
  have m2 : DTrans.movePoint q DTrans.Identity (doubles d) = .ok (doubles d) := by rw [DTrans.movePoint, idd, doubles_defined]; exact j1
  refine ⟨?_, ?_, ?_, ?_, ?_⟩
  · obtain ⟨m, hm, -, h2, h3⟩ := C119_translation q hp hv
    obtain ⟨m', hm', -, h2', -⟩ := C119_translation q hd hv
    rw [hm] at hm'
    obtain rfl := Except.ok.inj hm'
    refine ⟨⟨.translation, m, true⟩, by rw [DTrans.Translation, hm]; rfl, fun s1 s2 s3 => ?_⟩
    obtain ⟨b, hb, n1, n2, n3⟩ := h3 s1 s2 s3
    have d1 : (⟨.translation, m, true⟩ : DTrans).isDefined = true := rfl
    refine ⟨b, n1, n2, n3, ?_, ?_⟩
    · simp only [DTrans.moveLine, DTrans.movePoint, d1, doubles_defined, hb, h2', Bool.not_true, Bool.or_self, Bool.false_eq_true, if_false, bind, Except.bind]; rfl
    · simp only [DTrans.moveSphere, DTrans.movePoint, d1, doubles_defined, hb, hr, decide_false, Bool.not_true, Bool.or_self, Bool.false_eq_true, if_false, bind, Except.bind]; rfl
  · simp only [DTrans.moveLine, idd, doubles_defined, m1, bind, Except.bind, show DTrans.Identity.matrix = DT3.Identity from rfl, j2]; rfl
  · simp only [DTrans.moveSegment, idd, doubles_defined, m1, m2, bind, Except.bind]; rfl
  · simp only [DTrans.moveSphere, idd, idr, doubles_defined, m1, hr, decide_false, bind, Except.bind]; rfl
  · rw [DTrans.moveCuboid, idd, hc, if_neg (by simp), if_neg (by simp), if_pos (show DTrans.Identity.type = .identity from rfl)]

namespace Move

/-- the double nearest to the square root of one half from below -/
noncomputable def low : ℝ := 6369051672525772 * 2 ^ (-53 : ℤ)

/-- the next double -/
noncomputable def high : ℝ := 6369051672525773 * 2 ^ (-53 : ℤ)

/-- the unit vector along (1, 1, 0), as it is computed -/
theorem diagonal (o : Bool) : (doubles ⟨1, 1, 0⟩).normalized o = doubles ⟨low, low, 0⟩ := by
  have q : (doubles ⟨1, 1, 0⟩).squaredNorm o = .fin 2 := by
    have e1 : F64.ofExact (1 : ℝ) = .fin 1 := by simpa using ofExact_int 1 (by norm_num)
    have e2 : F64.ofExact (2 : ℝ) = .fin 2 := by simpa using ofExact_int 2 (by norm_num)
    cases o <;> norm_num [DVec.squaredNorm, DVec.dot, DVec.sum, doubles, F64.mul, F64.add, e1, e2, DT3.zero_fin]
  have r : (F64.fin (2 : ℝ)).sqrt = .fin (6369051672525773 * 2 ^ (-52 : ℤ)) := by
    rw [F64.sqrt, if_neg (by norm_num), rnd_eq 6369051672525773 (-52) (by norm_num)]
    · norm_num
    · rw [abs_of_nonneg (Real.sqrt_nonneg _)]
      exact Real.le_sqrt_of_sq_le (by norm_num)
    · rw [abs_of_nonneg (Real.sqrt_nonneg _), Real.sqrt_lt' (by positivity)]
      norm_num
    · left
      rw [abs_lt]
      constructor
      · have : √(2 : ℝ) < 6369051672525773 * 2 ^ (-52 : ℤ) + 2 ^ (-52 : ℤ) / 2 := by rw [Real.sqrt_lt' (by positivity)]; norm_num
        push_cast
        linarith
      · have : 6369051672525773 * 2 ^ (-52 : ℤ) - 2 ^ (-52 : ℤ) / 2 < √(2 : ℝ) := Real.lt_sqrt_of_sq_lt (by norm_num)
        push_cast
        linarith
  have d : F64.ofExact (1 / (6369051672525773 * 2 ^ (-52 : ℤ)) : ℝ) = .fin low := by
    rw [ofExact_at 6369051672525772 (-53) (by norm_num) (by norm_num) (by norm_num) (by norm_num [abs_of_pos]) (by norm_num [abs_of_pos]) (by left; rw [abs_lt]; constructor <;> norm_num), low]
    norm_num
  have z : ((6369051672525773 : ℝ) * 2 ^ (-52 : ℤ)) ≠ 0 := by positivity
  rw [DVec.normalized, q, r, if_pos (by norm_num [F64.lt])]
  simp only [doubles, DVec.div, F64.div, if_neg z, d, zero_div, DT3.zero_fin]

/-- its computed length is less than one -/
theorem diagonal_norm (o : Bool) {s : ℝ} (hs : s = 1 ∨ s = -1) : (doubles ⟨s * low, low, 0⟩).squaredNorm o = .fin (9007199254740990 * 2 ^ (-53 : ℤ)) ∧
    (doubles ⟨s * low, low, 0⟩).norm o = .fin (9007199254740991 * 2 ^ (-53 : ℤ)) ∧ (doubles ⟨s * low, low, 0⟩).normalized o = doubles ⟨s * high, high, 0⟩ := by
  have sq : F64.ofExact (low * low) = .fin (9007199254740990 * 2 ^ (-54 : ℤ)) := by
    rw [low, ofExact_at 9007199254740990 (-54) (by norm_num) (by norm_num) (by norm_num) (by norm_num [abs_of_pos]) (by norm_num [abs_of_pos]) (by left; rw [abs_lt]; constructor <;> norm_num)]
    norm_num
  have su : F64.ofExact (9007199254740990 * 2 ^ (-54 : ℤ) + 9007199254740990 * 2 ^ (-54 : ℤ) : ℝ) = .fin (9007199254740990 * 2 ^ (-53 : ℤ)) := by
    rw [ofExact_at 9007199254740990 (-53) (by norm_num) (by norm_num) (by norm_num) (by norm_num [abs_of_pos]) (by norm_num [abs_of_pos]) (by left; norm_num)]
    norm_num
  have x0 : F64.ofExact (9007199254740990 * 2 ^ (-54 : ℤ) : ℝ) = .fin (9007199254740990 * 2 ^ (-54 : ℤ)) := by
    rw [ofExact_at 9007199254740990 (-54) (by norm_num) (by norm_num) (by norm_num) (by norm_num [abs_of_pos]) (by norm_num [abs_of_pos]) (by left; norm_num)]
    norm_num
  have y0 : F64.ofExact (9007199254740990 * 2 ^ (-53 : ℤ) : ℝ) = .fin (9007199254740990 * 2 ^ (-53 : ℤ)) := by
    rw [ofExact_at 9007199254740990 (-53) (by norm_num) (by norm_num) (by norm_num) (by norm_num [abs_of_pos]) (by norm_num [abs_of_pos]) (by left; norm_num)]
    norm_num
  have q : (doubles ⟨s * low, low, 0⟩).squaredNorm o = .fin (9007199254740990 * 2 ^ (-53 : ℤ)) := by
    have e : s * low * (s * low) = low * low := by rcases hs with rfl | rfl <;> ring
    cases o <;> simp only [DVec.squaredNorm, DVec.dot, DVec.sum, doubles, F64.mul, e, sq, mul_zero, DT3.zero_fin, if_true, Bool.false_eq_true, if_false, F64.add, su, add_zero, x0, y0]
  have r : (F64.fin (9007199254740990 * 2 ^ (-53 : ℤ) : ℝ)).sqrt = .fin (9007199254740991 * 2 ^ (-53 : ℤ)) := by
    rw [F64.sqrt, if_neg (by norm_num), rnd_eq 9007199254740991 (-53) (by norm_num)]
    · norm_num
    · rw [abs_of_nonneg (Real.sqrt_nonneg _)]
      exact Real.le_sqrt_of_sq_le (by norm_num)
    · rw [abs_of_nonneg (Real.sqrt_nonneg _), Real.sqrt_lt' (by positivity)]
      norm_num
    · left
      rw [abs_lt]
      constructor
      · have : √(9007199254740990 * 2 ^ (-53 : ℤ) : ℝ) < 9007199254740991 * 2 ^ (-53 : ℤ) + 2 ^ (-53 : ℤ) / 2 := by rw [Real.sqrt_lt' (by positivity)]; norm_num
        push_cast
        linarith
      · have : 9007199254740991 * 2 ^ (-53 : ℤ) - 2 ^ (-53 : ℤ) / 2 < √(9007199254740990 * 2 ^ (-53 : ℤ) : ℝ) := Real.lt_sqrt_of_sq_lt (by norm_num)
        push_cast
        linarith
  refine ⟨q, by rw [DVec.norm, q, r], ?_⟩
  have d : F64.ofExact (low / (9007199254740991 * 2 ^ (-53 : ℤ)) : ℝ) = .fin high := by
    rw [low, ofExact_at 6369051672525773 (-53) (by norm_num) (by norm_num) (by norm_num) (by norm_num [abs_of_pos]) (by norm_num [abs_of_pos]) (by left; rw [abs_lt]; constructor <;> norm_num), high]
    norm_num
  have d' : F64.ofExact (s * low / (9007199254740991 * 2 ^ (-53 : ℤ)) : ℝ) = .fin (s * high) := by
    rcases hs with rfl | rfl
    · rw [one_mul, one_mul, d]
    · rw [low, ofExact_at (-6369051672525773) (-53) (by norm_num) (by norm_num) (by norm_num) (by norm_num [abs_of_neg]) (by norm_num [abs_of_neg]) (by left; rw [abs_lt]; constructor <;> norm_num), high]
      norm_num
  have z : ((9007199254740991 : ℝ) * 2 ^ (-53 : ℤ)) ≠ 0 := by positivity
  rw [DVec.normalized, q, r, if_pos (by norm_num [F64.lt])]
  simp only [doubles, DVec.div, F64.div, if_neg z, d, d', zero_div, DT3.zero_fin]

end Move

/-- **C144 is violated**, the identity does not leave a cone as it is: the axis of a cone along (1, 1, 0) changes, as it is normalized once more. -/
theorem C144_cone_violated (o : Bool) (q : Order4) {p : V3} (hp : FiniteDoubles p) {w : DAngle ℝ} (hw : w.isDefined = true) :
    ∃ d d' : V3, (doubles ⟨1, 1, 0⟩).normalized o = doubles d ∧ DTrans.moveCone o q DTrans.Identity ⟨doubles p, doubles d, w⟩ = .ok ⟨doubles p, doubles d', w⟩ ∧ d.x < d'.x ∧
      (doubles d').eq (doubles d) = false ∧ (doubles d').eq (doubles d).neg = false := by
  have lh : Move.low < Move.high := by norm_num [Move.low, Move.high]
  have l0 : 0 < Move.low := by norm_num [Move.low]
  have big : (2 : ℝ) ^ 0 < 2 ^ 1024 := pow_lt_pow_right₀ one_lt_two (by norm_num)
  have fl : Representable Move.low ∧ |Move.low| < 2 ^ 1024 := by
    refine ⟨⟨6369051672525772, -53, by norm_num, by norm_num, by norm_num [Move.low]⟩, lt_trans ?_ big⟩
    rw [abs_of_pos l0]; norm_num [Move.low]
  have fd : FiniteDoubles ⟨Move.low, Move.low, 0⟩ := ⟨fl, fl, finite_zero⟩
  have n := (Move.diagonal_norm o (Or.inl rfl)).2.2
  rw [one_mul, one_mul] at n
  refine ⟨⟨Move.low, Move.low, 0⟩, ⟨Move.high, Move.high, 0⟩, Move.diagonal o, ?_, lh, ?_, ?_⟩
  rotate_left
  · simp [DVec.eq, doubles, F64.eq, lh.ne']
  · have : Move.high ≠ -Move.low := by linarith
    simp [DVec.eq, DVec.neg, doubles, F64.eq, F64.neg, this]
  · simp only [DTrans.moveCone, DCone.isDefined, show DTrans.Identity.isDefined = true from rfl, show DTrans.Identity.matrix = DT3.Identity from rfl, doubles_defined, hw, (C119_identity q hp).1,
      (C119_identity q fd).2, n, bind, Except.bind]
    rfl

/-- **C144 is violated**, a translation does not leave the shape of a cuboid as it is: that of half lengths one along (1, 1, 0), (-1, 1, 0) and the third axis, moved by one along the first axis, becomes
smaller, and is not equal to the one made there. -/
theorem C144_cuboid_violated (o : Bool) (q : Order4) :
    ∃ (x y x' y' : V3) (T : DTrans) (e : ℝ), (doubles ⟨1, 1, 0⟩).normalized o = doubles x ∧ y = ⟨-x.x, x.y, 0⟩ ∧ DTrans.Translation (doubles ⟨1, 0, 0⟩) = .ok T ∧ e < 1 ∧
      DTrans.moveCuboid o q T ⟨doubles ⟨0, 0, 0⟩, doubles x, doubles y, doubles ⟨0, 0, 1⟩, .fin 1, .fin 1, .fin 1⟩ =
        .ok ⟨doubles ⟨1, 0, 0⟩, doubles x', doubles y', doubles ⟨0, 0, 1⟩, .fin e, .fin e, .fin 1⟩ ∧
      DCuboid.eq ⟨doubles ⟨1, 0, 0⟩, doubles x', doubles y', doubles ⟨0, 0, 1⟩, .fin e, .fin e, .fin 1⟩ ⟨doubles ⟨1, 0, 0⟩, doubles x, doubles y, doubles ⟨0, 0, 1⟩, .fin 1, .fin 1, .fin 1⟩ = false := by
  have lh : Move.low < Move.high := by norm_num [Move.low, Move.high]
  have l0 : 0 < Move.low := by norm_num [Move.low]
  have h0 : 0 < Move.high := by norm_num [Move.high]
  have big : (2 : ℝ) ^ 0 < 2 ^ 1024 := pow_lt_pow_right₀ one_lt_two (by norm_num)
  have fl : Representable Move.low ∧ |Move.low| < 2 ^ 1024 := by
    refine ⟨⟨6369051672525772, -53, by norm_num, by norm_num, by norm_num [Move.low]⟩, lt_trans ?_ big⟩
    rw [abs_of_pos l0]; norm_num [Move.low]
  have fx : FiniteDoubles ⟨Move.low, Move.low, 0⟩ := ⟨fl, fl, finite_zero⟩
  have fy : FiniteDoubles ⟨-Move.low, Move.low, 0⟩ := ⟨⟨representable_neg fl.1, by rw [abs_neg]; exact fl.2⟩, fl, finite_zero⟩
  have fz : FiniteDoubles ⟨0, 0, 1⟩ := ⟨finite_zero, finite_zero, finite_one⟩
  have f1 : FiniteDoubles ⟨1, 0, 0⟩ := ⟨finite_one, finite_zero, finite_zero⟩
  have f0 : FiniteDoubles ⟨0, 0, 0⟩ := ⟨finite_zero, finite_zero, finite_zero⟩
  obtain ⟨T, hT, t1, -⟩ := C119_translation q f0 f1
  have tv : ∀ {v : V3}, FiniteDoubles v → DT3.applyToVector q T (doubles v) = doubles v := fun hv => by
    obtain ⟨T', hT', -, t2, -⟩ := C119_translation q hv f1
    rw [hT] at hT'
    obtain rfl := Except.ok.inj hT'
    exact t2
  have ad : (doubles ⟨0, 0, 0⟩).add (doubles ⟨1, 0, 0⟩) = doubles ⟨1, 0, 0⟩ := by
    simp only [DVec.add, doubles, DT3.zero_add_zero, DT3.zero_add_fin finite_one.1 finite_one.2]
  rw [ad] at t1
  obtain ⟨-, a1, a2⟩ := Move.diagonal_norm o (Or.inl rfl)
  obtain ⟨-, b1, b2⟩ := Move.diagonal_norm o (Or.inr rfl)
  rw [one_mul] at a1 a2
  rw [neg_one_mul] at b1 b2
  rw [one_mul] at a2
  rw [neg_one_mul] at b2
  have n3 := normalized_third o
  have m3 : (doubles ⟨0, 0, 1⟩).norm o = .fin 1 := by
    have e1 : F64.ofExact (1 : ℝ) = .fin 1 := by simpa using ofExact_int 1 (by norm_num)
    cases o <;> simp [DVec.norm, DVec.squaredNorm, DVec.dot, DVec.sum, doubles, F64.mul, F64.add, e1, DT3.zero_fin, F64.sqrt, rnd_exact finite_one.1]
  have eh : (0 : ℝ) < 9007199254740991 * 2 ^ (-53 : ℤ) ∧ (9007199254740991 : ℝ) * 2 ^ (-53 : ℤ) < 1 := by constructor <;> norm_num
  have fe : (F64.fin (1 : ℝ)).mul (.fin (9007199254740991 * 2 ^ (-53 : ℤ))) = .fin (9007199254740991 * 2 ^ (-53 : ℤ)) :=
    DT3.one_mul_fin ⟨9007199254740991, -53, by norm_num, by norm_num, by norm_num⟩ (by rw [abs_of_pos eh.1]; exact eh.2.trans (by simpa using big))
  have f11 : (F64.fin (1 : ℝ)).mul (.fin 1) = .fin 1 := DT3.one_mul_fin finite_one.1 finite_one.2
  refine ⟨⟨Move.low, Move.low, 0⟩, ⟨-Move.low, Move.low, 0⟩, ⟨Move.high, Move.high, 0⟩, ⟨-Move.high, Move.high, 0⟩, ⟨.translation, T, true⟩, _, Move.diagonal o, rfl, by rw [DTrans.Translation, hT]; rfl, eh.2, ?_, ?_⟩
  · have d : ∀ a b c : V3, ∀ x y z : ℝ, DCuboid.isDefined ⟨doubles ⟨0, 0, 0⟩, doubles a, doubles b, doubles c, .fin x, .fin y, .fin z⟩ = true := fun a b c x y z => by simp [DCuboid.isDefined, doubles_defined]
    have td : (⟨.translation, T, true⟩ : DTrans).isDefined = true := rfl
    rw [DTrans.moveCuboid, td, d, if_neg (by simp), if_neg (by simp), if_neg (by simp), DTrans.movePoint, td, doubles_defined, if_neg (by simp), if_neg (by simp)]
    simp only [t1, tv fx, tv fy, tv fz, a1, a2, b1, b2, fe, f11, m3, show (doubles ⟨0, 0, 1⟩).normalized o = doubles ⟨0, 0, 1⟩ from n3, bind, Except.bind]
    rfl
  · have k : ∀ a b : DVec, DCuboid.sameAxis a b (.fin (9007199254740991 * 2 ^ (-53 : ℤ))) (.fin 1) = false := fun a b => by
      simp only [DCuboid.sameAxis, F64.eq, eh.2.ne, decide_false, Bool.and_false]
    simp only [DCuboid.eq, k, Bool.false_eq_true, if_false, ite_self]

/-- **C144 is violated**, a plane moved by a translation and back is not equal to itself: far away its place is lost. -/
theorem C144_back_violated (o : Bool) (q : Order4) :
    ∃ (p n v : V3) (T T' : DTrans), DTrans.Translation (doubles v) = .ok T ∧ DTrans.Translation (doubles ⟨-v.x, -v.y, -v.z⟩) = .ok T' ∧ Small p ∧ AlongAxis n ∧
      ∃ p', DTrans.many (DTrans.moveLine q) [T, T'] (doubles p, doubles n) = .ok (doubles p', doubles n) ∧ DPlane.eq o (doubles p') (doubles n) (doubles p) (doubles n) = false := by
  have z := finite_zero
  have fa : FiniteDoubles ⟨1, 0, 0⟩ := ⟨finite_one, z, z⟩
  have fv : FiniteDoubles ⟨2 ^ 60, 0, 0⟩ := ⟨big_rep, z, z⟩
  have fn : FiniteDoubles ⟨-2 ^ 60, -0, -0⟩ := ⟨⟨representable_neg big_rep.1, by rw [abs_neg]; exact big_rep.2⟩, by simpa using z, by simpa using z⟩
  obtain ⟨m, hm, e, d1, -⟩ := C119_translation q fa fv
  obtain ⟨m', hm', e', -⟩ := C119_translation q fv fn
  obtain ⟨m'', hm'', -, d2, -⟩ := C119_translation q fa fn
  rw [hm'] at hm''
  obtain rfl := Except.ok.inj hm''
  have s1 : (F64.fin (1 : ℝ)).add (.fin (2 ^ 60)) = .fin (2 ^ 60) := by
    rw [F64.add, F64.ofExact_fin] <;> rw [absorb_one]
    exact big_rep.2
  have s2 : (F64.fin ((2 : ℝ) ^ 60)).add (.fin (-2 ^ 60)) = .fin 0 := by rw [F64.add, add_neg_cancel, DT3.zero_fin]
  have e1 : (doubles ⟨1, 0, 0⟩).add (doubles ⟨2 ^ 60, 0, 0⟩) = doubles ⟨2 ^ 60, 0, 0⟩ := by simp only [DVec.add, doubles, s1, DT3.zero_add_zero]
  have e2 : (doubles ⟨2 ^ 60, 0, 0⟩).add (doubles ⟨-2 ^ 60, -0, -0⟩) = doubles ⟨0, 0, 0⟩ := by simp only [DVec.add, doubles, s2, neg_zero, DT3.zero_add_zero]
  rw [e1] at e
  rw [e2] at e'
  have k0 : (0 : ℝ) < 2 ^ 248 := by positivity
  have k1 : (1 : ℝ) ≤ 2 ^ 248 := one_le_pow₀ (by norm_num)
  have sm : ∀ x : ℝ, x = 0 ∨ x = 1 → Representable x ∧ |x| ≤ 2 ^ 248 := fun x hx => by
    rcases hx with rfl | rfl
    · exact ⟨representable_zero, by rw [abs_zero]; exact k0.le⟩
    · exact ⟨finite_one.1, by rw [abs_one]; exact k1⟩
  have S1 : Small ⟨1, 0, 0⟩ := ⟨sm _ (.inr rfl), sm _ (.inl rfl), sm _ (.inl rfl)⟩
  have S0 : Small ⟨0, 0, 0⟩ := ⟨sm _ (.inl rfl), sm _ (.inl rfl), sm _ (.inl rfl)⟩
  have X : AlongAxis ⟨1, 0, 0⟩ := .inl rfl
  refine ⟨⟨1, 0, 0⟩, ⟨1, 0, 0⟩, ⟨2 ^ 60, 0, 0⟩, ⟨.translation, m, true⟩, ⟨.translation, m', true⟩, by rw [DTrans.Translation, hm]; rfl, by rw [DTrans.Translation, hm']; rfl, S1, X, ⟨0, 0, 0⟩, ?_, ?_⟩
  · have td : ∀ m, (⟨.translation, m, true⟩ : DTrans).isDefined = true := fun _ => rfl
    simp only [DTrans.many, DTrans.moveLine, DTrans.movePoint, td, doubles_defined, e, e', d1, d2, Bool.not_true, Bool.or_self, Bool.false_eq_true, if_false, bind, Except.bind, Pure.pure, Except.pure]
  · rw [Bool.eq_false_iff]
    intro h
    have h' := ((C142_axis o S0 S1 S1 X X).2.1 h)
    have : (⟨0, 0, 0⟩ : V3) ∈ PlaneSet ⟨1, 0, 0⟩ ⟨1, 0, 0⟩ := h' ▸ (show (⟨0, 0, 0⟩ : V3) ∈ PlaneSet ⟨0, 0, 0⟩ ⟨1, 0, 0⟩ by simp [PlaneSet, V3.dot])
    simp [PlaneSet, V3.dot] at this

/-- **C144.** What is undefined is refused, and so is a transformation not flagged rigid by a sphere. -/
theorem C144_undefined (o : Bool) (q : Order4) (t : DTrans) (p d : DVec) (r : F64 ℝ) (c : DCone) (b : DCuboid) :
    (t.isDefined = false → DTrans.moveLine q t (p, d) = .error .undefined ∧ DTrans.moveSegment q t (p, d) = .error .undefined ∧ DTrans.moveSphere q t (p, r) = .error .undefined ∧
      DTrans.moveCone o q t c = .error .undefined ∧ DTrans.moveCuboid o q t b = .error .undefined) ∧
    (p.isDefined = false ∨ d.isDefined = false → DTrans.moveLine q t (p, d) = .error .undefined ∧ DTrans.moveSegment q t (p, d) = .error .undefined) ∧
    (p.isDefined = false ∨ r = .nan → DTrans.moveSphere q t (p, r) = .error .undefined) ∧ (c.isDefined = false → DTrans.moveCone o q t c = .error .undefined) ∧
    (b.isDefined = false → DTrans.moveCuboid o q t b = .error .undefined) ∧
    (t.isDefined = true → p.isDefined = true → r ≠ .nan → t.rigid = false → DTrans.moveSphere q t (p, r) = .error .runtimeError) := by
  refine ⟨fun h => ?_, fun h => ?_, fun h => ?_, fun h => ?_, fun h => ?_, fun h1 h2 h3 h4 => ?_⟩
  · simp [DTrans.moveLine, DTrans.moveSegment, DTrans.moveSphere, DTrans.moveCone, DTrans.moveCuboid, h]
  · rcases h with h | h <;> cases t.isDefined <;> simp [DTrans.moveLine, DTrans.moveSegment, h]
  · rcases h with h | h <;> simp [DTrans.moveSphere, h]
  · simp [DTrans.moveCone, h]
  · simp [DTrans.moveCuboid, h]
  · simp [DTrans.moveSphere, h1, h2, h3, h4]

/-- the transformations of `C144_lines_partial`, `C144_points_partial`, `C144_cone_partial` and `C144_cuboid_partial`: a turn by one radian about the third axis, then a translation by (3, 4, 0), of the point
(3, 4, 0); the first axis may be a direction, an axis of a cone and of a cuboid -/
example (o : Bool) {sin cos : ℝ → ℝ} (hs : Accurate sin Real.sin) (hc : Accurate cos Real.cos) :
    (∃ ts, List.Forall₂ (Makes o sin cos) ts [.turn (turnAbout 0 0 1 1), .shift (pure ⟨3, 4, 0⟩)]) ∧ ([.turn (turnAbout 0 0 1 1), .shift (pure ⟨3, 4, 0⟩)] : List Motion).length ≤ 2 ^ 40 ∧
      Within ⟨3, 4, 0⟩ ∧ ‖pure ⟨3, 4, 0⟩‖ + Motion.path [.turn (turnAbout 0 0 1 1), .shift (pure ⟨3, 4, 0⟩)] ≤ 2 ^ 490 ∧ |‖pure ⟨1, 0, 0⟩‖ - 1| ≤ 16 / 2 ^ 53 := by
  have z : |(0 : ℝ)| ≤ 2 ^ 500 := by rw [abs_zero]; positivity
  have w : |(1 : ℝ)| ≤ 2 ^ 500 := by rw [abs_one]; exact one_le_pow₀ one_le_two
  have r3 : Representable (3 : ℝ) := by simpa using HalfTurn.rep_lit 3 0 (by norm_num) (by norm_num)
  have r4 : Representable (4 : ℝ) := by simpa using HalfTurn.rep_lit 4 0 (by norm_num) (by norm_num)
  have big : ∀ {n : ℕ}, 4 ≤ n → (16 : ℝ) ≤ 2 ^ n := fun {n} hn => by
    have : (2 : ℝ) ^ 4 ≤ 2 ^ n := pow_le_pow_right₀ one_le_two hn
    norm_num at this
    exact this
  have b := big (n := 499) (by norm_num)
  have W : Within ⟨3, 4, 0⟩ := ⟨⟨r3, le_trans (by norm_num) b⟩, ⟨r4, le_trans (by norm_num) b⟩, ⟨representable_zero, le_trans (by norm_num) b⟩⟩
  have five : ‖pure ⟨3, 4, 0⟩‖ = 5 := by
    rw [pure_length, V3.norm, show V3.normSq ⟨3, 4, 0⟩ = 5 ^ 2 by norm_num [V3.normSq, V3.dot]]
    exact Real.sqrt_sq (by norm_num)
  refine ⟨?_, by norm_num, W, ?_, ?_⟩
  · obtain ⟨r, hr⟩ : ∃ r, DRotVec.ctor o (.fin (9 / 2 ^ 53)) ⟨.fin 0, .fin 0, .fin 1⟩ ⟨.fin 1, .radian⟩ = .ok r := by
      rw [DRotVec.ctor, norm_fin3 o z z w, show rnd (Real.sqrt (DVec.dot3 o 0 0 1 0 0 1)) = DVec.nrm3 o 0 0 1 from rfl, sub_one2 (nrm3_le o z z w), (axis_norm o rep_one le_rfl).2.2,
        sub_self, rnd_zero]
      refine ⟨_, if_neg ?_⟩
      simp only [F64.abs, F64.lt, abs_zero, Bool.and_eq_true, decide_eq_true_eq, not_and, not_lt]
      exact fun _ => by positivity
    have ha : (⟨.fin 1, .radian⟩ : DAngle ℝ).inUnit .radian = .ok (.fin 1) := by simp [DAngle.inUnit, DAngle.isDefined]
    obtain ⟨T, hT⟩ := (C141_rotation o .left hs hc (e := 9 / 2 ^ 53) (by norm_num) ⟨representable_zero, z⟩ ⟨representable_zero, z⟩ ⟨rep_one, w⟩ ha rep_one hr).1 (1 / 10 ^ 13) (by norm_num)
    obtain ⟨m, hm⟩ : ∃ m, DT3.Translation (doubles ⟨3, 4, 0⟩) = .ok m := by rw [DT3.Translation, doubles_defined]; exact ⟨_, rfl⟩
    exact ⟨[⟨.rotation, T, true⟩, ⟨.translation, m, true⟩],
      .cons (.turn (by norm_num) ⟨representable_zero, z⟩ ⟨representable_zero, z⟩ ⟨rep_one, w⟩ ha rep_one hr (by rw [DTrans.Rotation, hT]; rfl)) (.cons (.shift W (by rw [DTrans.Translation, hm]; rfl)) .nil)⟩
  · simp only [Motion.path, Motion.reach, List.map_cons, List.map_nil, List.sum_cons, List.sum_nil, five]
    have := big (n := 490) (by norm_num)
    generalize (2 : ℝ) ^ 490 = B at *
    norm_num
    linarith
  · rw [Move.pure_axis, abs_one, sub_self, abs_zero]; positivity

end Verif.Props
