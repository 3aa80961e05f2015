import Verif.Lemmas.DoublePlaneProduct
import Verif.Props.DoublePlaneMove

/-!
# C149: products of transformations of the plane in double precision

`Composed2 T ms` says that `T` is a product, bracketed in some way, of transformations made from angles, translation vectors, or points and angles, and `ms` are the exact motions of the factors, that of the
rightmost factor first.
-/

namespace Verif.Props

open Verif Verif.Spec Verif.Double

/-- **C149.** A product of any number of rotations about the origin or about points and of translations, bracketed in any way, moves points, lines and polygons of the plane in double precision as the exact
motions of its factors do, one after the other from the right: the error grows by at most `2 ^ -45` of the distances involved with each factor. Paths are not above `2 ^ 490`, factors not more than `2 ^ 40`. -/
theorem C149_product_partial (o' : Bool) {o : Bool} {sin cos : ℝ → ℝ} (hs : Accurate sin Real.sin) (hc : Accurate cos Real.cos) {T : DTrans2} {ms : List PlaneMotion} (h : Composed2 o sin cos T ms)
    (hn : ms.length ≤ 2 ^ 40) (hp : PlaneMotion.path ms ≤ 2 ^ 490) {p d : V2} (hw : Sized2 490 p) (hd : Sized2 490 d) {ps : List V2} {rs : List (List V2)} (h3 : 3 ≤ ps.length)
    (hr : ∀ a ∈ ps ++ rs.flatten, Sized2 490 a) :
    (∃ p' d' : V2, DTrans2.movePoint o' T (doubles2 p) = .ok (doubles2 p') ∧ DTrans2.moveLine o' T (doubles2 p, doubles2 d) = .ok (doubles2 p', doubles2 d') ∧
      ‖asComplex p' - PlaneMotion.points ms (asComplex p)‖ ≤ ms.length * 2 ^ (-45 : ℤ) * (‖asComplex p‖ + PlaneMotion.path ms + 2 ^ (-1020 : ℤ)) ∧
      ‖asComplex d' - PlaneMotion.directions ms (asComplex d)‖ ≤ ms.length * 2 ^ (-45 : ℤ) * (‖asComplex d‖ + 2 ^ (-1020 : ℤ))) ∧
    ∃ G : V2 → V2, DTrans2.movePolygon T (ps.map doubles2, rs.map fun r => r.map doubles2) = .ok (ps.map fun a => doubles2 (G a), rs.map fun r => r.map fun a => doubles2 (G a)) ∧
      ∀ a ∈ ps ++ rs.flatten, ‖asComplex (G a) - PlaneMotion.points ms (asComplex a)‖ ≤ ms.length * 2 ^ (-45 : ℤ) * (‖asComplex a‖ + PlaneMotion.path ms + 2 ^ (-1020 : ℤ)) := by
  obtain ⟨-, h1, h2⟩ := Product2.composed_comes hs hc h
  have c := h2 hn hp
  constructor
  · obtain ⟨⟨p', e1, -, n1⟩, -, -⟩ := Product2.comes_acts o' c h1 hn hp hw
    obtain ⟨-, -, d', e2, n2⟩ := Product2.comes_acts o' c h1 hn hp hd
    have m : DTrans2.movePoint o' T (doubles2 p) = .ok (doubles2 p') := by simp [DTrans2.movePoint, c.1, defined_doubles2, e1]
    refine ⟨p', d', m, ?_, n1, n2⟩
    simp only [DTrans2.moveLine, c.1, defined_doubles2, m, e2, bind, Except.bind]; rfl
  · have ex : ∀ a, ∃ b, a ∈ ps ++ rs.flatten → DTrans2.boostPoint T.matrix (doubles2 a) = doubles2 b ∧
        ‖asComplex b - PlaneMotion.points ms (asComplex a)‖ ≤ ms.length * 2 ^ (-45 : ℤ) * (‖asComplex a‖ + PlaneMotion.path ms + 2 ^ (-1020 : ℤ)) := fun a => by
      by_cases m : a ∈ ps ++ rs.flatten
      · obtain ⟨-, ⟨b, hb⟩, -⟩ := Product2.comes_acts false c h1 hn hp (hr a m)
        exact ⟨b, fun _ => hb⟩
      · exact ⟨a, fun k => absurd k m⟩
    choose G hG using ex
    refine ⟨G, ?_, fun a m => (hG a m).2⟩
    rw [DTrans2.movePolygon, c.1, if_neg (by simp), if_neg (by simpa using h3)]
    refine congrArg Except.ok (Prod.ext ?_ ?_)
    · simp only [List.map_map]
      exact List.map_congr_left fun a m => (hG a (List.mem_append_left _ m)).1
    · simp only [List.map_map]
      refine List.map_congr_left fun r m => ?_
      simp only [Function.comp, List.map_map]
      exact List.map_congr_left fun a m' => (hG a (List.mem_append_right _ (List.mem_flatten.2 ⟨r, m, m'⟩))).1

/-- **C149.** Products are always returned. The type is that of the factors when all are rotations about the origin or all are translations, and affine otherwise. -/
theorem C149_type {o : Bool} {sin cos : ℝ → ℝ} {A B : DTrans2} {ms ns : List PlaneMotion} (hA : Composed2 o sin cos A ms) (hB : Composed2 o sin cos B ns) :
    (∃ T, DTrans2.mul o A B = .ok T ∧ Composed2 o sin cos T (ns ++ ms)) ∧ A.type = if ms.all Product2.isTurn then .rotation else if ms.all Product2.isShift then .translation else .affine := by
  have k : ∀ {T : DTrans2} {ms : List PlaneMotion}, Composed2 o sin cos T ms → ms ≠ [] ∧
      T.type = if ms.all Product2.isTurn then .rotation else if ms.all Product2.isShift then .translation else .affine := fun h => by
    induction h with
    | one h =>
      cases h with
      | turn _ _ hT =>
        obtain ⟨M, -, e⟩ := ok_of_bind hT
        obtain rfl := Except.ok.inj e
        simp [Product2.isTurn]
      | shift _ hT =>
        obtain ⟨M, -, e⟩ := ok_of_bind hT
        obtain rfl := Except.ok.inj e
        simp [Product2.isTurn, Product2.isShift]
      | around _ _ _ hT =>
        obtain ⟨M, -, e⟩ := ok_of_bind hT
        obtain rfl := Except.ok.inj e
        simp [Product2.isTurn, Product2.isShift, TType.compose]
    | @mul A B T ms ns hA hB h ihA ihB =>
      obtain ⟨a2, a3⟩ := ihA
      obtain ⟨b2, b3⟩ := ihB
      rw [DTrans2.mul] at h
      split_ifs at h
      obtain rfl := Except.ok.inj h
      obtain ⟨m, ms, rfl⟩ := List.exists_cons_of_ne_nil a2
      obtain ⟨n, ns, rfl⟩ := List.exists_cons_of_ne_nil b2
      refine ⟨by simp, ?_⟩
      rw [a3, b3, List.all_append, List.all_append]
      rw [List.all_cons, List.all_cons, List.all_cons, List.all_cons]
      generalize (List.all ms Product2.isTurn) = x
      generalize (List.all ns Product2.isTurn) = y
      generalize (List.all ms Product2.isShift) = x'
      generalize (List.all ns Product2.isShift) = y'
      cases m <;> cases n <;> cases x <;> cases y <;> cases x' <;> cases y' <;> rfl
  have d : ∀ {T : DTrans2} {ms : List PlaneMotion}, Composed2 o sin cos T ms → T.isDefined = true := fun h => by
    obtain ⟨-, e⟩ := k h
    rw [DTrans2.isDefined, e]
    split_ifs <;> rfl
  have e : DTrans2.mul o A B = .ok ⟨A.type.compose B.type, DT2.mul o A.matrix B.matrix⟩ := by simp [DTrans2.mul, d hA, d hB]
  exact ⟨⟨_, e, .mul hA hB e⟩, (k hA).2⟩

/-- **C149.** Two products of the same factors in the same sequence, bracketed differently, move points nearly alike. -/
theorem C149_brackets_partial (o' : Bool) {o : Bool} {sin cos : ℝ → ℝ} (hs : Accurate sin Real.sin) (hc : Accurate cos Real.cos) {T T' : DTrans2} {ms : List PlaneMotion} (h : Composed2 o sin cos T ms)
    (h' : Composed2 o sin cos T' ms) (hn : ms.length ≤ 2 ^ 40) (hp : PlaneMotion.path ms ≤ 2 ^ 490) {p : V2} (hw : Sized2 490 p) :
    ∃ a b : V2, DTrans2.movePoint o' T (doubles2 p) = .ok (doubles2 a) ∧ DTrans2.movePoint o' T' (doubles2 p) = .ok (doubles2 b) ∧
      ‖asComplex a - asComplex b‖ ≤ ms.length * 2 ^ (-44 : ℤ) * (‖asComplex p‖ + PlaneMotion.path ms + 2 ^ (-1020 : ℤ)) := by
  have l : ∀ a ∈ [p, p, p] ++ List.flatten [], Sized2 490 a := by
    intro a m
    simp at m
    rw [m]; exact hw
  obtain ⟨a, -, e1, -, n1, -⟩ := (C149_product_partial o' hs hc h hn hp hw hw (ps := [p, p, p]) (rs := []) (by simp) l).1
  obtain ⟨b, -, e2, -, n2, -⟩ := (C149_product_partial o' hs hc h' hn hp hw hw (ps := [p, p, p]) (rs := []) (by simp) l).1
  refine ⟨a, b, e1, e2, ?_⟩
  have := norm_sub_le_norm_sub_add_norm_sub (asComplex a) (PlaneMotion.points ms (asComplex p)) (asComplex b)
  rw [norm_sub_rev (PlaneMotion.points ms (asComplex p))] at this
  rw [show (2 : ℝ) ^ (-44 : ℤ) = 2 * 2 ^ (-45 : ℤ) by norm_num]
  generalize (2 : ℝ) ^ (-1020 : ℤ) = r at *
  clear hp
  linarith

/-- **C149.** Moving a polygon by the product, or by its factors in turn from the right, is nearly the same for each of its points. -/
theorem C149_in_turn_partial {o : Bool} {sin cos : ℝ → ℝ} (hs : Accurate sin Real.sin) (hc : Accurate cos Real.cos) {T : DTrans2} {ts : List DTrans2} {ms : List PlaneMotion} (h : Composed2 o sin cos T ms)
    (h' : List.Forall₂ (Makes2 o sin cos) ts ms) (hn : ms.length ≤ 2 ^ 40) {ps : List V2} {rs : List (List V2)} (h3 : 3 ≤ ps.length)
    (hp : ∀ p ∈ ps ++ rs.flatten, Sized2 490 p ∧ ‖asComplex p‖ + PlaneMotion.path ms ≤ 2 ^ 480) :
    ∃ G G' : V2 → V2, DTrans2.movePolygon T (ps.map doubles2, rs.map fun r => r.map doubles2) = .ok (ps.map fun a => doubles2 (G a), rs.map fun r => r.map fun a => doubles2 (G a)) ∧
      DTrans2.many DTrans2.movePolygon ts (ps.map doubles2, rs.map fun r => r.map doubles2) = .ok (ps.map fun a => doubles2 (G' a), rs.map fun r => r.map fun a => doubles2 (G' a)) ∧
      ∀ p ∈ ps ++ rs.flatten, ‖asComplex (G p) - asComplex (G' p)‖ ≤ ms.length * 2 ^ (-44 : ℤ) * (‖asComplex p‖ + PlaneMotion.path ms + 2 ^ (-1020 : ℤ)) := by
  obtain ⟨p, mp⟩ : ∃ p, p ∈ ps := List.exists_mem_of_length_pos (by omega)
  have m := List.mem_append_left rs.flatten mp
  have hp' : PlaneMotion.path ms ≤ 2 ^ 490 := ((le_add_of_nonneg_left (norm_nonneg _)).trans (hp p m).2).trans (pow_le_pow_right₀ one_le_two (by norm_num))
  obtain ⟨G, e, n⟩ := (C149_product_partial o hs hc h hn hp' (hp p m).1 (hp p m).1 h3 (fun a ma => (hp a ma).1)).2
  obtain ⟨G', e', n', -⟩ := C148_polygon_partial o hs hc h' hn h3 hp
  refine ⟨G, G', e, e', fun a ma => ?_⟩
  have n1 := n a ma
  have n2 := n' a ma
  clear hp hp' n n'
  obtain ⟨p0, -, -⟩ := Product2.composed_comes hs hc h
  have t := norm_sub_le_norm_sub_add_norm_sub (asComplex (G a)) (PlaneMotion.points ms (asComplex a)) (asComplex (G' a))
  rw [norm_sub_rev (PlaneMotion.points ms (asComplex a))] at t
  have k : (2 : ℝ) ^ (-1068 : ℤ) ≤ 2 ^ (-46 : ℤ) * 2 ^ (-1020 : ℤ) := by
    rw [← zpow_add₀ two_ne_zero]; exact zpow_le_zpow_right₀ one_le_two (by norm_num)
  have k' := mul_le_mul_of_nonneg_left k (Nat.cast_nonneg (α := ℝ) ms.length)
  rw [show (2 : ℝ) ^ (-45 : ℤ) = 2 * 2 ^ (-46 : ℤ) by norm_num] at n1
  rw [show (2 : ℝ) ^ (-44 : ℤ) = 4 * 2 ^ (-46 : ℤ) by norm_num]
  rw [planeDrift] at n2
  have z : (0 : ℝ) < 2 ^ (-46 : ℤ) := two_zpow_pos _
  have z' : (0 : ℝ) < 2 ^ (-1020 : ℤ) := two_zpow_pos _
  have m0 := norm_nonneg (asComplex a)
  generalize (2 : ℝ) ^ (-1020 : ℤ) = r at *
  generalize (2 : ℝ) ^ (-1068 : ℤ) = r' at *
  generalize (2 : ℝ) ^ (-46 : ℤ) = k0 at *
  have z2 : 0 ≤ (ms.length : ℝ) * k0 * (‖asComplex a‖ + PlaneMotion.path ms + r) := by positivity
  have e1 : (ms.length : ℝ) * (k0 * (‖asComplex a‖ + PlaneMotion.path ms) + r') = ms.length * k0 * (‖asComplex a‖ + PlaneMotion.path ms + r) - ms.length * (k0 * r) + ms.length * r' := by ring
  rw [e1] at n2
  linarith

/-- **C149.** A rotation about a point is the product of the translation to it, the rotation about the origin and the translation back, read from the left; its type is affine. -/
theorem C149_around (o : Bool) {sin cos : ℝ → ℝ} {p : V2} {a : DAngle ℝ} {T : DTrans2} (hT : DTrans2.RotationAround o sin cos (doubles2 p) a = .ok T) :
    ∃ A B C D, DTrans2.Translation (doubles2 p) = .ok A ∧ DTrans2.Rotation sin cos a = .ok B ∧ DTrans2.Translation (doubles2 ⟨-p.x, -p.y⟩) = .ok C ∧ DTrans2.mul o A B = .ok D ∧ DTrans2.mul o D C = .ok T ∧
      T.type = .affine := by
  obtain ⟨M, hM, e⟩ := ok_of_bind hT
  obtain rfl := Except.ok.inj e
  obtain ⟨v, hv, h1⟩ := ok_of_bind hM
  obtain ⟨A, hA, h2⟩ := ok_of_bind h1
  obtain ⟨B, hB, h3⟩ := ok_of_bind h2
  obtain ⟨C, hC, h4⟩ := ok_of_bind h3
  have ev : DT2.asVector (doubles2 p) = .ok (doubles2 p) := by rw [DT2.asVector, if_neg (by simp [doubles2])]
  rw [ev] at hv
  obtain rfl := Except.ok.inj hv
  obtain rfl := Except.ok.inj h4
  exact ⟨⟨.translation, A⟩, ⟨.rotation, B⟩, ⟨.translation, C⟩, ⟨.affine, DT2.mul o A B⟩, by rw [DTrans2.Translation, hA]; rfl, by rw [DTrans2.Rotation, hB]; rfl,
    by rw [DTrans2.Translation, show DT2.Translation (doubles2 ⟨-p.x, -p.y⟩) = .ok C from hC]; rfl, rfl, rfl, rfl⟩

/-- **C149.** The identity is neutral from both sides for matrices of finite doubles, and what is undefined is refused. -/
theorem C149_identity (o : Bool) {T : DTrans2} (hT : T.isDefined = true) (hm : ∀ i j, ∃ x : ℝ, T.matrix i j = .fin x ∧ Representable x ∧ |x| < 2 ^ 1024) :
    DTrans2.mul o DTrans2.Identity T = .ok T ∧ DTrans2.mul o T DTrans2.Identity = .ok T ∧ DTrans2.eq T T = true ∧
      ∀ U : DTrans2, U.isDefined = false → DTrans2.mul o U T = .error .undefined ∧ DTrans2.mul o T U = .error .undefined ∧ DTrans2.eq U T = false ∧ DTrans2.eq T U = false ∧ DTrans2.eq U U = false := by
  choose x hx using hm
  have e : ∀ i j, T.matrix i j = .fin (x i j) := fun i j => (hx i j).1
  have id : DTrans2.Identity.isDefined = true := rfl
  have s := fun i j => sum3_one o (hx i j).2.1 (hx i j).2.2
  have o1 := fun i j => DT3.one_mul_fin (hx i j).2.1 (hx i j).2.2
  have o2 := fun i j => DT3.mul_one_fin (hx i j).2.1 (hx i j).2.2
  have l : DT2.mul o DT2.Identity T.matrix = T.matrix := by
    funext i j
    fin_cases i <;> simp [DT2.mul, DT2.Identity, e, DT3.zero_mul_fin, o1, s]
  have r : DT2.mul o T.matrix DT2.Identity = T.matrix := by
    funext i j
    fin_cases j <;> simp [DT2.mul, DT2.Identity, e, DT3.mul_zero_fin, o2, s]
  have ty : ∀ t : TType, t ≠ .undefined → TType.compose .identity t = t ∧ TType.compose t .identity = t := fun t h => by cases t <;> simp_all [TType.compose]
  obtain ⟨t1, t2⟩ := ty T.type (of_decide_eq_true hT)
  refine ⟨?_, ?_, ?_, fun U hU => ⟨by simp [DTrans2.mul, hT, hU], by simp [DTrans2.mul, hU], by simp [DTrans2.eq, hU], by simp [DTrans2.eq, hU], by simp [DTrans2.eq, hU]⟩⟩
  · rw [DTrans2.mul, hT, id]
    simp only [DTrans2.Identity, t1, l]
    rfl
  · rw [DTrans2.mul, hT, id]
    simp only [DTrans2.Identity, t2, r]
    rfl
  · rw [DTrans2.eq, hT, if_neg (by simp), decide_eq_true_iff]
    intro i j
    rw [e]
    simp [F64.eq]

namespace Product2

/-- the product of two translations along the first axis -/
theorem shift_mul (o : Bool) {x y : ℝ} (hx : Representable x ∧ |x| < 2 ^ 1024) (hy : Representable y ∧ |y| < 2 ^ 1024) {z : ℝ} (h : (F64.fin y).add (.fin x) = .fin z) :
    DT2.mul o ![![.fin 1, .fin 0, .fin x], ![.fin 0, .fin 1, .fin 0], ![.fin 0, .fin 0, .fin 1]] ![![.fin 1, .fin 0, .fin y], ![.fin 0, .fin 1, .fin 0], ![.fin 0, .fin 0, .fin 1]] =
      ![![.fin 1, .fin 0, .fin z], ![.fin 0, .fin 1, .fin 0], ![.fin 0, .fin 0, .fin 1]] := by
  have s1 := sum3_one o finite_one.1 finite_one.2
  have s0 := sum3_one o finite_zero.1 finite_zero.2
  have k : DVec.sum o (.fin y) (.fin 0) (.fin x) = .fin z := by
    cases o <;> simp [DVec.sum, DT3.add_zero_fin hy.1 hy.2, DT3.zero_add_fin hx.1 hx.2, h]
  funext i j
  fin_cases i <;> fin_cases j <;> simp [DT2.mul, DT3.zero_mul_fin, DT3.mul_zero_fin, DT3.one_mul_fin finite_one.1 finite_one.2, DT3.one_mul_fin hy.1 hy.2, DT3.mul_one_fin hx.1 hx.2, s1, s0, k]

end Product2

/-- **C149 is violated**, the product is not associative: with translations by `- 2 ^ 60`, `2 ^ 60` and one along the first axis the two ways of bracketing are not equal. -/
theorem C149_associative_violated (o : Bool) : ∃ A B C AB BC L R : DTrans2, DTrans2.Translation (doubles2 ⟨-2 ^ 60, 0⟩) = .ok A ∧ DTrans2.Translation (doubles2 ⟨2 ^ 60, 0⟩) = .ok B ∧
    DTrans2.Translation (doubles2 ⟨1, 0⟩) = .ok C ∧ DTrans2.mul o A B = .ok AB ∧ DTrans2.mul o B C = .ok BC ∧ DTrans2.mul o AB C = .ok L ∧ DTrans2.mul o A BC = .ok R ∧
    L.isDefined = true ∧ R.isDefined = true ∧ DTrans2.eq L R = false := by
  have T : ∀ x : ℝ, DTrans2.Translation (doubles2 ⟨x, 0⟩) = .ok ⟨.translation, ![![.fin 1, .fin 0, .fin x], ![.fin 0, .fin 1, .fin 0], ![.fin 0, .fin 0, .fin 1]]⟩ := fun x => by
    rw [DTrans2.Translation, DT2.Translation, if_neg (by simp [doubles2])]; rfl
  have rn : Representable (-(2 : ℝ) ^ 60) ∧ |-(2 : ℝ) ^ 60| < 2 ^ 1024 := ⟨by simpa using representable_neg big_rep.1, by rw [abs_neg]; exact big_rep.2⟩
  have s1 : (F64.fin ((2 : ℝ) ^ 60)).add (.fin (-2 ^ 60)) = .fin 0 := by rw [F64.add, add_neg_cancel, F64.ofExact_fin] <;> simp [rnd_zero]
  have s2 : (F64.fin (1 : ℝ)).add (.fin (2 ^ 60)) = .fin (2 ^ 60) := by
    rw [F64.add, F64.ofExact_fin] <;> rw [absorb_one]
    exact big_rep.2
  have s3 : (F64.fin (1 : ℝ)).add (.fin 0) = .fin 1 := DT3.add_zero_fin finite_one.1 finite_one.2
  have m1 := Product2.shift_mul o rn big_rep s1
  have m2 := Product2.shift_mul o big_rep finite_one s2
  have m3 := Product2.shift_mul o finite_zero finite_one s3
  have P : ∀ m n, DTrans2.mul o ⟨.translation, m⟩ ⟨.translation, n⟩ = .ok ⟨.translation, DT2.mul o m n⟩ := fun m n => rfl
  refine ⟨_, _, _, _, _, _, _, T _, T _, T _, P _ _, P _ _, P _ _, P _ _, rfl, rfl, ?_⟩
  rw [m2, m1, m3, DTrans2.eq, show ∀ m n, (!(⟨.translation, m⟩ : DTrans2).isDefined || !(⟨.translation, n⟩ : DTrans2).isDefined) = false from fun m n => rfl, if_neg (by simp), decide_eq_false_iff_not]
  intro h
  have := h 0 2
  simp [F64.eq] at this

/-- hypotheses of `C149_product_partial`, `C149_type`, `C149_brackets_partial`, `C149_in_turn_partial` and `C149_around`: a turn by one radian about the point (3, 4) between two translations by (3, 4), bracketed in
both ways, and a triangle -/
example (o : Bool) {sin cos : ℝ → ℝ} (hs : Accurate sin Real.sin) (hc : Accurate cos Real.cos) :
    ∃ (T T' A B : DTrans2) (ms : List PlaneMotion), DTrans2.RotationAround o sin cos (doubles2 ⟨3, 4⟩) ⟨.fin 1, .radian⟩ = .ok B ∧ Composed2 o sin cos T ms ∧ Composed2 o sin cos T' ms ∧
      List.Forall₂ (Makes2 o sin cos) [A, B, A] ms ∧ ms.length ≤ 2 ^ 40 ∧
      ∀ p ∈ [⟨0, 0⟩, ⟨3, 4⟩, (⟨4, 3⟩ : V2)] ++ List.flatten [], Sized2 490 p ∧ ‖asComplex p‖ + PlaneMotion.path ms ≤ 2 ^ 480 := by
  have r3 : Representable (3 : ℝ) := by simpa using HalfTurn.rep_lit 3 0 (by norm_num) (by norm_num)
  have r4 : Representable (4 : ℝ) := by simpa using HalfTurn.rep_lit 4 0 (by norm_num) (by norm_num)
  have big : ∀ {n : ℕ}, 6 ≤ n → (64 : ℝ) ≤ 2 ^ n := fun {n} hn => by
    have : (2 : ℝ) ^ 6 ≤ 2 ^ n := pow_le_pow_right₀ one_le_two hn
    norm_num at this
    exact this
  have b := big (n := 490) (by norm_num)
  have b' := big (n := 480) (by norm_num)
  have q3 : Representable (3 : ℝ) ∧ |(3 : ℝ)| ≤ 2 ^ 490 := ⟨r3, le_trans (by norm_num) b⟩
  have q4 : Representable (4 : ℝ) ∧ |(4 : ℝ)| ≤ 2 ^ 490 := ⟨r4, le_trans (by norm_num) b⟩
  have q0 : Representable (0 : ℝ) ∧ |(0 : ℝ)| ≤ 2 ^ 490 := ⟨representable_zero, le_trans (by norm_num) b⟩
  have W : Sized2 490 ⟨3, 4⟩ := ⟨q3, q4⟩
  have c := Move2.complex_le ⟨3, 4⟩
  norm_num at c
  have ha : (⟨.fin 1, .radian⟩ : DAngle ℝ).inUnit .radian = .ok (.fin 1) := by simp [DAngle.inUnit, DAngle.isDefined]
  obtain ⟨M, hM, -⟩ := Move2.around_rows o hs hc ha rep_one W
  have hB : DTrans2.RotationAround o sin cos (doubles2 ⟨3, 4⟩) ⟨.fin 1, .radian⟩ = .ok ⟨.affine, M⟩ := by rw [DTrans2.RotationAround, hM]; rfl
  obtain ⟨A, hA⟩ : ∃ A, DTrans2.Translation (doubles2 ⟨3, 4⟩) = .ok A := ⟨_, by rw [DTrans2.Translation, DT2.Translation, if_neg (by simp [doubles2])]; rfl⟩
  have mA : Makes2 o sin cos A (.shift (asComplex ⟨3, 4⟩)) := .shift W hA
  have mB := Makes2.around ha rep_one W hB
  obtain ⟨X, -, hX⟩ := (C149_type (.one mA) (.one mB)).1
  obtain ⟨Y, -, hY⟩ := (C149_type hX (.one mA)).1
  obtain ⟨X', -, hX'⟩ := (C149_type (.one mB) (.one mA)).1
  obtain ⟨Y', -, hY'⟩ := (C149_type (.one mA) hX').1
  refine ⟨Y, Y', A, _, _, hB, hY, hY', .cons mA (.cons mB (.cons mA .nil)), by norm_num, fun p m => ?_⟩
  have e : PlaneMotion.path [.shift (asComplex ⟨3, 4⟩), .around (asComplex ⟨3, 4⟩) 1, .shift (asComplex ⟨3, 4⟩)] ≤ 28 := by
    simp only [PlaneMotion.path, PlaneMotion.reach, List.map_cons, List.map_nil, List.sum_cons, List.sum_nil]
    linarith
  simp only [List.flatten_nil, List.append_nil, List.mem_cons, List.not_mem_nil, or_false] at m
  have k : ‖asComplex p‖ ≤ 8 := by
    refine (Move2.complex_le p).trans ?_
    rcases m with rfl | rfl | rfl <;> norm_num
  simp only [List.cons_append, List.nil_append]
  rcases m with rfl | rfl | rfl <;> exact ⟨⟨by assumption, by assumption⟩, by generalize (2 : ℝ) ^ 480 = B at *; generalize (2 : ℝ) ^ 490 = C at *; linarith⟩

/-- hypotheses of `C149_identity`: the translation by (1, 0) -/
example : ∃ T, DTrans2.Translation (doubles2 ⟨1, 0⟩) = .ok T ∧ T.isDefined = true ∧ (∀ i j, ∃ x : ℝ, T.matrix i j = .fin x ∧ Representable x ∧ |x| < 2 ^ 1024) ∧ DTrans2.Undefined.isDefined = false := by
  refine ⟨⟨.translation, ![![.fin 1, .fin 0, .fin 1], ![.fin 0, .fin 1, .fin 0], ![.fin 0, .fin 0, .fin 1]]⟩, ?_, rfl, fun i j => ?_, rfl⟩
  · rw [DTrans2.Translation, DT2.Translation, if_neg (by simp [doubles2])]; rfl
  · fin_cases i <;> fin_cases j <;> first | exact ⟨1, rfl, finite_one⟩ | exact ⟨0, rfl, finite_zero⟩

end Verif.Props
