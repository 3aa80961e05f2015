import Verif.Lemmas.DoubleProduct
import Verif.Props.DoubleMove

/-!
# C145: products of transformations in double precision

`Composed T ms` says that `T` is a product, bracketed in some way, of transformations made from rotation vectors and translation vectors, and `ms` are the exact motions of the factors, that of the rightmost
factor first. Each product may add its four terms in another order.
-/

namespace Verif.Props

open Verif Verif.Spec Verif.Double

namespace Product

theorem composed_comes {o : Bool} {sin cos : ℝ → ℝ} (hs : Accurate sin Real.sin) (hc : Accurate cos Real.cos) {T : DTrans} {ms : List Motion} (h : Composed o sin cos T ms) :
    0 ≤ Motion.path ms ∧ 1 ≤ ms.length ∧ (ms.length ≤ 2 ^ 40 → Motion.path ms ≤ 2 ^ 490 → Comes T ms) := by
  induction h with
  | one h => exact ⟨path_nonneg (one_comes hs hc h), le_rfl, fun _ _ => one_comes hs hc h⟩
  | mul q hA hB h ihA ihB =>
    obtain ⟨a1, a2, a3⟩ := ihA
    obtain ⟨b1, b2, b3⟩ := ihB
    rw [path_append, List.length_append]
    refine ⟨add_nonneg b1 a1, by omega, fun n p => ?_⟩
    obtain ⟨T, e, hT⟩ := mul_comes q (a3 (by omega) ((le_add_of_nonneg_left b1).trans p)) (b3 (by omega) ((le_add_of_nonneg_right a1).trans p)) a2 b2 (by rwa [List.length_append]) (by rwa [path_append])
    rw [h] at e
    exact Except.ok.inj e ▸ hT

/-- a rotation -/
def isTurn : Motion → Bool
  | .turn _ => true
  | .shift _ => false

end Product

/-- **C145.** A product of any number of rotations about axes through the origin and of translations, bracketed in any way, moves a point and turns a direction in double precision as the exact motions of its
factors do, one after the other from the right: the error grows by at most `2 ^ -45` of the distances involved with each factor. Paths are not above `2 ^ 490`, factors not more than `2 ^ 40`. -/
theorem C145_product_partial (q : Order4) {o : Bool} {sin cos : ℝ → ℝ} (hs : Accurate sin Real.sin) (hc : Accurate cos Real.cos) {T : DTrans} {ms : List Motion} (h : Composed o sin cos T ms)
    (hn : ms.length ≤ 2 ^ 40) (hp : Motion.path ms ≤ 2 ^ 490) {p d : V3} (hw : Within p) (hd : Within d) :
    ∃ p' d' : V3, DTrans.movePoint q T (doubles p) = .ok (doubles p') ∧ DTrans.moveLine q T (doubles p, doubles d) = .ok (doubles p', doubles d') ∧
      ‖pure p' - Motion.points ms (pure p)‖ ≤ ms.length * 2 ^ (-45 : ℤ) * (‖pure p‖ + Motion.path ms + 2 ^ (-1020 : ℤ)) ∧
      ‖pure d' - Motion.directions ms (pure d)‖ ≤ ms.length * 2 ^ (-45 : ℤ) * (‖pure d‖ + 2 ^ (-1020 : ℤ)) := by
  obtain ⟨-, h1, h2⟩ := Product.composed_comes hs hc h
  have c := h2 hn hp
  obtain ⟨⟨p', e1, n1⟩, -⟩ := Product.comes_acts q c h1 hn hp hw
  obtain ⟨-, d', e2, n2⟩ := Product.comes_acts q c h1 hn hp hd
  have m : DTrans.movePoint q T (doubles p) = .ok (doubles p') := by simp [DTrans.movePoint, c.1, doubles_defined, e1]
  refine ⟨p', d', m, ?_, n1, n2⟩
  simp only [DTrans.moveLine, c.1, doubles_defined, m, e2, bind, Except.bind]; rfl

/-- **C145.** Products are always returned, and stay rigid. The type is that of the factors when all are rotations or all are translations, and affine otherwise. -/
theorem C145_type (q : Order4) {o : Bool} {sin cos : ℝ → ℝ} {A B : DTrans} {ms ns : List Motion} (hA : Composed o sin cos A ms) (hB : Composed o sin cos B ns) :
    (∃ T, DTrans.mul q A B = .ok T ∧ Composed o sin cos T (ns ++ ms)) ∧ A.rigid = true ∧
      A.type = if ms.all Product.isTurn then .rotation else if ms.all (fun m => !Product.isTurn m) then .translation else .affine := by
  have k : ∀ {T : DTrans} {ms : List Motion}, Composed o sin cos T ms → T.rigid = true ∧ ms ≠ [] ∧
      T.type = if ms.all Product.isTurn then .rotation else if ms.all (fun m => !Product.isTurn m) then .translation else .affine := fun h => by
    induction h with
    | one h =>
      cases h with
      | turn _ _ _ _ _ _ _ hT =>
        obtain ⟨M, -, e⟩ := ok_of_bind hT
        obtain rfl := Except.ok.inj e
        simp [Product.isTurn]
      | shift _ hT =>
        obtain ⟨M, -, e⟩ := ok_of_bind hT
        obtain rfl := Except.ok.inj e
        simp [Product.isTurn]
    | @mul q A B T ms ns hA hB h ihA ihB =>
      obtain ⟨a1, a2, a3⟩ := ihA
      obtain ⟨b1, b2, b3⟩ := ihB
      rw [DTrans.mul] at h
      split_ifs at h
      obtain rfl := Except.ok.inj h
      obtain ⟨m, ms, rfl⟩ := List.exists_cons_of_ne_nil a2
      obtain ⟨n, ns, rfl⟩ := List.exists_cons_of_ne_nil b2
      refine ⟨by simp [a1, b1], by simp, ?_⟩
      rw [a3, b3, List.all_append, List.all_append]
      rw [List.all_cons, List.all_cons, List.all_cons, List.all_cons]
      generalize (List.all ms Product.isTurn) = x
      generalize (List.all ns Product.isTurn) = y
      generalize (List.all ms fun m => !Product.isTurn m) = x'
      generalize (List.all ns fun m => !Product.isTurn m) = y'
      generalize Product.isTurn m = z
      generalize Product.isTurn n = z'
      cases x <;> cases y <;> cases x' <;> cases y' <;> cases z <;> cases z' <;> rfl
  have d : ∀ {T : DTrans} {ms : List Motion}, Composed o sin cos T ms → T.isDefined = true := fun h => by
    obtain ⟨-, -, e⟩ := k h
    rw [DTrans.isDefined, e]
    split_ifs <;> rfl
  have e : DTrans.mul q A B = .ok ⟨A.type.compose B.type, DT3.mul q A.matrix B.matrix, A.rigid && B.rigid⟩ := by simp [DTrans.mul, d hA, d hB]
  exact ⟨⟨_, e, .mul q hA hB e⟩, (k hA).1, (k hA).2.2⟩

/-- **C145.** Two products of the same factors in the same sequence, bracketed differently, or with their terms added in different orders, move points nearly alike. -/
theorem C145_brackets_partial (q q' : Order4) {o : Bool} {sin cos : ℝ → ℝ} (hs : Accurate sin Real.sin) (hc : Accurate cos Real.cos) {T T' : DTrans} {ms : List Motion} (h : Composed o sin cos T ms)
    (h' : Composed o sin cos T' ms) (hn : ms.length ≤ 2 ^ 40) (hp : Motion.path ms ≤ 2 ^ 490) {p : V3} (hw : Within p) :
    ∃ a b : V3, DTrans.movePoint q T (doubles p) = .ok (doubles a) ∧ DTrans.movePoint q' T' (doubles p) = .ok (doubles b) ∧
      ‖pure a - pure b‖ ≤ ms.length * 2 ^ (-44 : ℤ) * (‖pure p‖ + Motion.path ms + 2 ^ (-1020 : ℤ)) := by
  obtain ⟨a, -, e1, -, n1, -⟩ := C145_product_partial q hs hc h hn hp hw hw
  obtain ⟨b, -, e2, -, n2, -⟩ := C145_product_partial q' hs hc h' hn hp hw hw
  refine ⟨a, b, e1, e2, ?_⟩
  have := norm_sub_le_norm_sub_add_norm_sub (pure a) (Motion.points ms (pure p)) (pure b)
  rw [norm_sub_rev (Motion.points ms (pure p))] at this
  rw [show (2 : ℝ) ^ (-44 : ℤ) = 2 * 2 ^ (-45 : ℤ) by norm_num]
  generalize (2 : ℝ) ^ (-1020 : ℤ) = r at *
  linarith

/-- **C145.** Moving a sphere by the product, or by its factors in turn from the right, is nearly the same for its centre and the same for its radius. -/
theorem C145_in_turn_partial (q q' : Order4) {o : Bool} {sin cos : ℝ → ℝ} (hs : Accurate sin Real.sin) (hc : Accurate cos Real.cos) {T : DTrans} {ts : List DTrans} {ms : List Motion} (h : Composed o sin cos T ms)
    (h' : List.Forall₂ (Makes o sin cos) ts ms) (hn : ms.length ≤ 2 ^ 40) {p : V3} (hw : Within p) (hp : ‖pure p‖ + Motion.path ms ≤ 2 ^ 490) {r : F64 ℝ} (hr : r ≠ .nan) :
    ∃ a b : V3, DTrans.moveSphere q T (doubles p, r) = .ok (doubles a, r) ∧ DTrans.many (DTrans.moveSphere q') ts (doubles p, r) = .ok (doubles b, r) ∧
      ‖pure a - pure b‖ ≤ ms.length * 2 ^ (-43 : ℤ) * (‖pure p‖ + Motion.path ms + 2 ^ (-1020 : ℤ)) := by
  have hp' : Motion.path ms ≤ 2 ^ 490 := (le_add_of_nonneg_left (norm_nonneg _)).trans hp
  obtain ⟨p0, h1, h2⟩ := Product.composed_comes hs hc h
  obtain ⟨c1, -, c2, -⟩ := h2 hn hp'
  obtain ⟨a, -, e1, -, n1, -⟩ := C145_product_partial q hs hc h hn hp' hw hw
  obtain ⟨b, -, -, e2, n2, -⟩ := C144_points_partial o q' hs hc h' hn hw hw hp hp hr
  refine ⟨a, b, ?_, e2, ?_⟩
  · simp only [DTrans.moveSphere, c1, c2, doubles_defined, hr, decide_false, e1, bind, Except.bind]; rfl
  have t := norm_sub_le_norm_sub_add_norm_sub (pure a) (Motion.points ms (pure p)) (pure b)
  rw [norm_sub_rev (Motion.points ms (pure p))] at t
  clear hp hp'
  have k : (2 : ℝ) ^ (-1069 : ℤ) ≤ 2 ^ (-45 : ℤ) * 2 ^ (-1020 : ℤ) := by
    rw [← zpow_add₀ two_ne_zero]; exact zpow_le_zpow_right₀ one_le_two (by norm_num)
  have k' := mul_le_mul_of_nonneg_left k (Nat.cast_nonneg (α := ℝ) ms.length)
  rw [driftOf, show (2 : ℝ) ^ (-44 : ℤ) = 2 * 2 ^ (-45 : ℤ) by norm_num] at n2
  rw [show (2 : ℝ) ^ (-43 : ℤ) = 4 * 2 ^ (-45 : ℤ) by norm_num]
  have z : (0 : ℝ) < 2 ^ (-45 : ℤ) := two_zpow_pos _
  have z' : (0 : ℝ) < 2 ^ (-1020 : ℤ) := two_zpow_pos _
  have m := norm_nonneg (pure p)
  generalize (2 : ℝ) ^ (-1020 : ℤ) = r at *
  generalize (2 : ℝ) ^ (-1069 : ℤ) = r' at *
  generalize (2 : ℝ) ^ (-45 : ℤ) = k0 at *
  have z2 : 0 ≤ (ms.length : ℝ) * k0 * (‖pure p‖ + Motion.path ms + r) := by positivity
  have z3 : 0 ≤ (ms.length : ℝ) * k0 * r := by positivity
  nlinarith

/-- **C145.** A rotation about a point is such a product: there, back turned, and away, so all of the above holds for it and for its products; its type is affine. -/
theorem C145_around (q : Order4) {o : Bool} {sin cos : ℝ → ℝ} {e x y z t : ℝ} {eps : F64 ℝ} {a : DAngle ℝ} {r : DRotVec} {T : DTrans} (he : e ≤ 1 / 8) (hx : Representable x ∧ |x| ≤ 2 ^ 500)
    (hy : Representable y ∧ |y| ≤ 2 ^ 500) (hz : Representable z ∧ |z| ≤ 2 ^ 500) (ha : a.inUnit .radian = .ok (.fin t)) (ht : Representable t) (h : DRotVec.ctor o (.fin e) ⟨.fin x, .fin y, .fin z⟩ a = .ok r)
    {p : V3} (hp : Within p) (hT : DTrans.RotationAround o q eps sin cos (doubles p) r = .ok T) :
    Composed o sin cos T [.shift (pure ⟨-p.x, -p.y, -p.z⟩), .turn (turnAbout x y z t), .shift (pure p)] ∧ T.type = .affine ∧ T.rigid = true ∧
      DT3.RotationAround o q eps sin cos (doubles p) r = .ok T.matrix := by
  have hn : Within ⟨-p.x, -p.y, -p.z⟩ := ⟨⟨representable_neg hp.x.1, by rw [abs_neg]; exact hp.x.2⟩, ⟨representable_neg hp.y.1, by rw [abs_neg]; exact hp.y.2⟩, ⟨representable_neg hp.z.1, by rw [abs_neg]; exact hp.z.2⟩⟩
  obtain ⟨v, hv, h1⟩ := ok_of_bind hT
  obtain ⟨A, hA, h2⟩ := ok_of_bind h1
  obtain ⟨B, hB, h3⟩ := ok_of_bind h2
  obtain ⟨C, hC, h4⟩ := ok_of_bind h3
  obtain ⟨D, hD, h5⟩ := ok_of_bind h4
  have ev : DT3.asVector (doubles p) = .ok (doubles p) := by rw [DT3.asVector, doubles_defined]; rfl
  rw [ev] at hv
  obtain rfl := Except.ok.inj hv
  have mA : Composed o sin cos A [.shift (pure p)] := .one (.shift hp hA)
  have mB : Composed o sin cos B [.turn (turnAbout x y z t)] := .one (.turn he hx hy hz ha ht h hB)
  have mC : Composed o sin cos C [.shift (pure ⟨-p.x, -p.y, -p.z⟩)] := .one (.shift hn hC)
  have mT : Composed o sin cos T [.shift (pure ⟨-p.x, -p.y, -p.z⟩), .turn (turnAbout x y z t), .shift (pure p)] := .mul q (.mul q mA mB hD) mC h5
  have ty := (C145_type q mT mT).2
  refine ⟨mT, ty.2.trans (by simp [Product.isTurn]), ty.1, ?_⟩
  obtain ⟨MA, eA, fA⟩ := ok_of_bind hA
  obtain ⟨MB, eB, fB⟩ := ok_of_bind hB
  obtain ⟨MC, eC, fC⟩ := ok_of_bind hC
  obtain rfl := Except.ok.inj fA
  obtain rfl := Except.ok.inj fB
  obtain rfl := Except.ok.inj fC
  rw [DTrans.mul] at hD
  split_ifs at hD
  obtain rfl := Except.ok.inj hD
  rw [DTrans.mul] at h5
  split_ifs at h5
  obtain rfl := Except.ok.inj h5
  simp only [DT3.RotationAround, ev, eA, eB, eC, bind, Except.bind]
  rfl

/-- **C145.** The identity is neutral from both sides for matrices of finite doubles, and what is undefined is refused. -/
theorem C145_identity (q : Order4) {T : DTrans} (hT : T.isDefined = true) (hm : ∀ i j, ∃ x : ℝ, T.matrix i j = .fin x ∧ Representable x ∧ |x| < 2 ^ 1024) :
    DTrans.mul q DTrans.Identity T = .ok ⟨T.type, T.matrix, T.rigid⟩ ∧ DTrans.mul q T DTrans.Identity = .ok ⟨T.type, T.matrix, T.rigid⟩ ∧
      ∀ U : DTrans, U.isDefined = false → DTrans.mul q U T = .error .undefined ∧ DTrans.mul q T U = .error .undefined := by
  choose x hx using hm
  have e : ∀ i j, T.matrix i j = .fin (x i j) := fun i j => (hx i j).1
  have id : DTrans.Identity.isDefined = true := rfl
  have s := fun i j => Around.sum_one q (hx i j).2.1 (hx i j).2.2
  have o1 := fun i j => DT3.one_mul_fin (hx i j).2.1 (hx i j).2.2
  have o2 := fun i j => DT3.mul_one_fin (hx i j).2.1 (hx i j).2.2
  have l : DT3.mul q DT3.Identity T.matrix = T.matrix := by
    funext i j
    fin_cases i <;> simp [DT3.mul, DT3.Identity, e, DT3.zero_mul_fin, o1, s]
  have r : DT3.mul q T.matrix DT3.Identity = T.matrix := by
    funext i j
    fin_cases j <;> simp [DT3.mul, DT3.Identity, e, DT3.mul_zero_fin, o2, s]
  have ty : ∀ t : TType, t ≠ .undefined → TType.compose .identity t = t ∧ TType.compose t .identity = t := fun t h => by cases t <;> simp_all [TType.compose]
  obtain ⟨t1, t2⟩ := ty T.type (of_decide_eq_true hT)
  refine ⟨?_, ?_, fun U hU => ⟨by simp [DTrans.mul, hT, hU], by simp [DTrans.mul, hU]⟩⟩
  · rw [DTrans.mul, hT, id]
    simp only [DTrans.Identity, t1, l, Bool.true_and]
    rfl
  · rw [DTrans.mul, hT, id]
    simp only [DTrans.Identity, t2, r, Bool.and_true]
    rfl

/-- **C145 is violated**, the product is not associative: with translations by `- 2 ^ 60`, `2 ^ 60` and one along the first axis the two ways of bracketing are not equal. -/
theorem C145_associative_violated (q : Order4) : ∃ A B C AB BC L R : DTrans, DTrans.Translation (doubles ⟨-2 ^ 60, 0, 0⟩) = .ok A ∧ DTrans.Translation (doubles ⟨2 ^ 60, 0, 0⟩) = .ok B ∧
    DTrans.Translation (doubles ⟨1, 0, 0⟩) = .ok C ∧ DTrans.mul q A B = .ok AB ∧ DTrans.mul q B C = .ok BC ∧ DTrans.mul q AB C = .ok L ∧ DTrans.mul q A BC = .ok R ∧
    L.isDefined = true ∧ R.isDefined = true ∧ DTrans.eq L R = false := by
  have z := finite_zero
  have fa : FiniteDoubles ⟨-2 ^ 60, 0, 0⟩ := ⟨⟨representable_neg big_rep.1, by rw [abs_neg]; exact big_rep.2⟩, z, z⟩
  have fb : FiniteDoubles ⟨2 ^ 60, 0, 0⟩ := ⟨big_rep, z, z⟩
  have fc : FiniteDoubles ⟨1, 0, 0⟩ := ⟨finite_one, z, z⟩
  have f0 : FiniteDoubles ⟨0, 0, 0⟩ := ⟨z, z, z⟩
  obtain ⟨a, b, ab, ea, eb, eab, mab⟩ := C119_composition q fa fb
  obtain ⟨b', c, bc, eb', ec, ebc, mbc⟩ := C119_composition q fb fc
  obtain rfl : b = b' := Except.ok.inj (eb.symm.trans eb')
  have s1 : (doubles ⟨2 ^ 60, 0, 0⟩).add (doubles ⟨-2 ^ 60, 0, 0⟩) = doubles ⟨0, 0, 0⟩ := by
    simp only [DVec.add, doubles, F64.add, add_neg_cancel, add_zero, DT3.zero_fin]
  have s2 : (doubles ⟨1, 0, 0⟩).add (doubles ⟨2 ^ 60, 0, 0⟩) = doubles ⟨2 ^ 60, 0, 0⟩ := by
    have s : (F64.fin (1 : ℝ)).add (.fin (2 ^ 60)) = .fin (2 ^ 60) := by
      rw [F64.add, F64.ofExact_fin] <;> rw [absorb_one]
      exact big_rep.2
    simp only [DVec.add, doubles, s, DT3.zero_add_zero]
  have s3 : (doubles ⟨1, 0, 0⟩).add (doubles ⟨0, 0, 0⟩) = doubles ⟨1, 0, 0⟩ := by
    simp only [DVec.add, doubles, DT3.zero_add_zero, DT3.add_zero_fin finite_one.1 finite_one.2]
  rw [s1] at eab
  rw [s2, eb] at ebc
  obtain rfl := Except.ok.inj ebc
  obtain ⟨ab', c', l, eab', ec', el, ml⟩ := C119_composition q f0 fc
  obtain rfl : ab = ab' := Except.ok.inj (eab.symm.trans eab')
  obtain rfl : c = c' := Except.ok.inj (ec.symm.trans ec')
  rw [s3, ec] at el
  obtain rfl := Except.ok.inj el
  have T : ∀ {v : DVec} {m}, DT3.Translation v = .ok m → DTrans.Translation v = .ok ⟨.translation, m, true⟩ := fun h => by
    simp only [DTrans.Translation, h, bind, Except.bind]; rfl
  have P : ∀ m n, DTrans.mul q ⟨.translation, m, true⟩ ⟨.translation, n, true⟩ = .ok ⟨.translation, DT3.mul q m n, true⟩ := fun m n => rfl
  refine ⟨_, _, _, _, _, _, _, T ea, T eb, T ec, P _ _, P _ _, P _ _, P _ _, rfl, rfl, ?_⟩
  rw [mbc, mab, ml, DTrans.eq]
  rw [DT3.Translation, doubles_defined] at ec eab
  obtain rfl := Except.ok.inj ec
  obtain rfl := Except.ok.inj eab
  have n : ∀ T T' : DTrans, (T.isDefined = true) → (T'.isDefined = true) → (!T.isDefined || !T'.isDefined) = false := fun T T' h h' => by rw [h, h']; rfl
  rw [n _ _ rfl rfl, if_neg (by simp), decide_eq_false_iff_not]
  intro h
  have := h 0 3
  simp [doubles, F64.eq] at this

/-- hypotheses of `C145_product_partial`, `C145_type`, `C145_brackets_partial` and `C145_in_turn_partial`: a turn by one radian about the third axis between two translations by (3, 4, 0), bracketed in both ways -/
example (o : Bool) (q : Order4) {sin cos : ℝ → ℝ} (hs : Accurate sin Real.sin) (hc : Accurate cos Real.cos) :
    ∃ (T T' A B : DTrans) (ms : List Motion), Composed o sin cos T ms ∧ Composed o sin cos T' ms ∧ List.Forall₂ (Makes o sin cos) [A, B, A] ms ∧ ms.length ≤ 2 ^ 40 ∧ Within ⟨3, 4, 0⟩ ∧
      ‖pure ⟨3, 4, 0⟩‖ + Motion.path ms ≤ 2 ^ 490 := by
  have z : |(0 : ℝ)| ≤ 2 ^ 500 := by rw [abs_zero]; positivity
  have w : |(1 : ℝ)| ≤ 2 ^ 500 := by rw [abs_one]; exact one_le_pow₀ one_le_two
  have r3 : Representable (3 : ℝ) := by simpa using HalfTurn.rep_lit 3 0 (by norm_num) (by norm_num)
  have r4 : Representable (4 : ℝ) := by simpa using HalfTurn.rep_lit 4 0 (by norm_num) (by norm_num)
  have big : ∀ {n : ℕ}, 4 ≤ n → (16 : ℝ) ≤ 2 ^ n := fun {n} hn => by
    have : (2 : ℝ) ^ 4 ≤ 2 ^ n := pow_le_pow_right₀ one_le_two hn
    norm_num at this
    exact this
  have b := big (n := 499) (by norm_num)
  have W : Within ⟨3, 4, 0⟩ := ⟨⟨r3, le_trans (by norm_num) b⟩, ⟨r4, le_trans (by norm_num) b⟩, ⟨representable_zero, le_trans (by norm_num) b⟩⟩
  have five : ‖pure ⟨3, 4, 0⟩‖ = 5 := by
    rw [pure_length, V3.norm, show V3.normSq ⟨3, 4, 0⟩ = 5 ^ 2 by norm_num [V3.normSq, V3.dot]]
    exact Real.sqrt_sq (by norm_num)
  obtain ⟨r, hr⟩ : ∃ r, DRotVec.ctor o (.fin (9 / 2 ^ 53)) ⟨.fin 0, .fin 0, .fin 1⟩ ⟨.fin 1, .radian⟩ = .ok r := by
    rw [DRotVec.ctor, norm_fin3 o z z w, show rnd (Real.sqrt (DVec.dot3 o 0 0 1 0 0 1)) = DVec.nrm3 o 0 0 1 from rfl, sub_one2 (nrm3_le o z z w), (axis_norm o rep_one le_rfl).2.2,
      sub_self, rnd_zero]
    refine ⟨_, if_neg ?_⟩
    simp only [F64.abs, F64.lt, abs_zero, Bool.and_eq_true, decide_eq_true_eq, not_and, not_lt]
    exact fun _ => by positivity
  have ha : (⟨.fin 1, .radian⟩ : DAngle ℝ).inUnit .radian = .ok (.fin 1) := by simp [DAngle.inUnit, DAngle.isDefined]
  obtain ⟨T, hT⟩ := (C141_rotation o .left hs hc (e := 9 / 2 ^ 53) (by norm_num) ⟨representable_zero, z⟩ ⟨representable_zero, z⟩ ⟨rep_one, w⟩ ha rep_one hr).1 (1 / 10 ^ 13) (by norm_num)
  obtain ⟨m, hm⟩ : ∃ m, DT3.Translation (doubles ⟨3, 4, 0⟩) = .ok m := by rw [DT3.Translation, doubles_defined]; exact ⟨_, rfl⟩
  have mB : Makes o sin cos ⟨.rotation, T, true⟩ (.turn (turnAbout 0 0 1 1)) :=
    .turn (by norm_num) ⟨representable_zero, z⟩ ⟨representable_zero, z⟩ ⟨rep_one, w⟩ ha rep_one hr (by rw [DTrans.Rotation, hT]; rfl)
  have mA : Makes o sin cos ⟨.translation, m, true⟩ (.shift (pure ⟨3, 4, 0⟩)) := .shift W (by rw [DTrans.Translation, hm]; rfl)
  obtain ⟨X, -, hX⟩ := (C145_type q (.one mA) (.one mB)).1
  obtain ⟨Y, -, hY⟩ := (C145_type q hX (.one mA)).1
  obtain ⟨X', -, hX'⟩ := (C145_type q (.one mB) (.one mA)).1
  obtain ⟨Y', -, hY'⟩ := (C145_type q (.one mA) hX').1
  refine ⟨Y, Y', _, _, _, hY, hY', .cons mA (.cons mB (.cons mA .nil)), by norm_num, W, ?_⟩
  simp only [Motion.path, Motion.reach, List.singleton_append, List.map_cons, List.map_nil, List.sum_cons, List.sum_nil, five]
  have := big (n := 490) (by norm_num)
  generalize (2 : ℝ) ^ 490 = B at *
  norm_num
  linarith

end Verif.Props
