import Verif.Lemmas.DoublePlaneInverse
import Verif.Props.DoublePlaneProduct

/-!
# C150: inverses of transformations of the plane in double precision

`Composed2 T ms` (`Lemmas/DoublePlaneProduct.lean`) says that `T` is a product, bracketed in some way, of transformations made from angles, translation vectors, or points and angles, and `ms` are the exact
motions of the factors, that of the rightmost factor first.
-/

namespace Verif.Props

open Verif Verif.Spec Verif.Double

/-- **C150.** The inverse of a product of rotations and translations is returned with the same type. It takes points, lines and polygons of the plane to where the exact motions bring them back: they move its
results to the given points and directions, up to `2 ^ -40` of the distances involved for each factor. Paths are not above `2 ^ 490`, factors not more than `2 ^ 34`. -/
theorem C150_inverse_partial (o' : Bool) {o : Bool} {sin cos : ℝ → ℝ} (hs : Accurate sin Real.sin) (hc : Accurate cos Real.cos) {T : DTrans2} {ms : List PlaneMotion} (h : Composed2 o sin cos T ms)
    (hn : ms.length ≤ 2 ^ 34) (hp : PlaneMotion.path ms ≤ 2 ^ 490) {p d : V2} (hw : Sized2 490 p) (hd : Sized2 490 d) {ps : List V2} {rs : List (List V2)} (h3 : 3 ≤ ps.length)
    (hr : ∀ a ∈ ps ++ rs.flatten, Sized2 490 a) :
    ∃ T', DTrans2.getInverse o' T = .ok T' ∧ T'.type = T.type ∧
      (∃ p' d' : V2, DTrans2.movePoint o' T' (doubles2 p) = .ok (doubles2 p') ∧ DTrans2.moveLine o' T' (doubles2 p, doubles2 d) = .ok (doubles2 p', doubles2 d') ∧
        ‖PlaneMotion.points ms (asComplex p') - asComplex p‖ ≤ ms.length * 2 ^ (-40 : ℤ) * (‖asComplex p‖ + PlaneMotion.path ms + 2 ^ (-1020 : ℤ)) ∧
        ‖PlaneMotion.directions ms (asComplex d') - asComplex d‖ ≤ ms.length * 2 ^ (-40 : ℤ) * (‖asComplex d‖ + 2 ^ (-1020 : ℤ))) ∧
      ∃ G : V2 → V2, DTrans2.movePolygon T' (ps.map doubles2, rs.map fun r => r.map doubles2) = .ok (ps.map fun a => doubles2 (G a), rs.map fun r => r.map fun a => doubles2 (G a)) ∧
        ∀ a ∈ ps ++ rs.flatten, ‖PlaneMotion.points ms (asComplex (G a)) - asComplex a‖ ≤ ms.length * 2 ^ (-40 : ℤ) * (‖asComplex a‖ + PlaneMotion.path ms + 2 ^ (-1020 : ℤ)) := by
  obtain ⟨p0, -, -⟩ := Product2.composed_comes hs hc h
  obtain ⟨T', w, s, i1, i2, i3, -, -, -, -, -, i4⟩ := Inverse2.inverse_acts o' hs hc h hn hp
  rw [show (2 : ℝ) ^ (-1020 : ℤ) = Product.least from rfl]
  have k : ∀ {y : ℝ}, 0 ≤ y → 22 * (ms.length * 2 ^ (-45 : ℤ)) * y ≤ ms.length * 2 ^ (-40 : ℤ) * y := fun {y} hy => by
    refine mul_le_mul_of_nonneg_right ?_ hy
    have : (0 : ℝ) ≤ ms.length := Nat.cast_nonneg _
    norm_num
    linarith
  have l0 := Product.least_pos
  have nn : ∀ x : V2, 0 ≤ ‖asComplex x‖ + PlaneMotion.path ms + Product.least := fun x => by positivity
  have nn' : ∀ x : V2, 0 ≤ ‖asComplex x‖ + Product.least := fun x => by positivity
  refine ⟨T', i1, i2, ?_, ?_⟩
  · obtain ⟨⟨p', e1, -, n1⟩, -, -⟩ := i4 o' p hw
    obtain ⟨-, -, d', e2, n2⟩ := i4 o' d hd
    have m : DTrans2.movePoint o' T' (doubles2 p) = .ok (doubles2 p') := by simp [DTrans2.movePoint, i3, defined_doubles2, e1]
    refine ⟨p', d', m, ?_, n1.trans (k (nn p)), n2.trans (k (nn' d))⟩
    simp only [DTrans2.moveLine, i3, defined_doubles2, m, e2, bind, Except.bind]; rfl
  · have ex : ∀ a, ∃ b, a ∈ ps ++ rs.flatten → DTrans2.boostPoint T'.matrix (doubles2 a) = doubles2 b ∧
        ‖PlaneMotion.points ms (asComplex b) - asComplex a‖ ≤ ms.length * 2 ^ (-40 : ℤ) * (‖asComplex a‖ + PlaneMotion.path ms + Product.least) := fun a => by
      by_cases m : a ∈ ps ++ rs.flatten
      · obtain ⟨-, ⟨b, e, n⟩, -⟩ := i4 o' a (hr a m)
        exact ⟨b, fun _ => ⟨e, n.trans (k (nn a))⟩⟩
      · exact ⟨a, fun k => absurd k m⟩
    choose G hG using ex
    refine ⟨G, ?_, fun a m => (hG a m).2⟩
    rw [DTrans2.movePolygon, i3, if_neg (by simp), if_neg (by simpa using h3)]
    refine congrArg Except.ok (Prod.ext ?_ ?_)
    · simp only [List.map_map]
      exact List.map_congr_left fun a m => (hG a (List.mem_append_left _ m)).1
    · simp only [List.map_map]
      refine List.map_congr_left fun r m => ?_
      simp only [Function.comp, List.map_map]
      exact List.map_congr_left fun a m' => (hG a (List.mem_append_right _ (List.mem_flatten.2 ⟨r, m, m'⟩))).1

/-- **C150.** A point that is moved by such a product and by its inverse, in either sequence, comes back up to `2 ^ -39` of the distances involved for each factor. -/
theorem C150_back_partial (o' : Bool) {o : Bool} {sin cos : ℝ → ℝ} (hs : Accurate sin Real.sin) (hc : Accurate cos Real.cos) {T : DTrans2} {ms : List PlaneMotion} (h : Composed2 o sin cos T ms)
    (hn : ms.length ≤ 2 ^ 34) {p : V2} (hw : Sized2 490 p) (hp : ‖asComplex p‖ + PlaneMotion.path ms ≤ 2 ^ 480) :
    ∃ (T' : DTrans2) (a b c d : V2), DTrans2.getInverse o' T = .ok T' ∧ DTrans2.movePoint o' T (doubles2 p) = .ok (doubles2 a) ∧ DTrans2.movePoint o' T' (doubles2 a) = .ok (doubles2 b) ∧
      DTrans2.movePoint o' T' (doubles2 p) = .ok (doubles2 c) ∧ DTrans2.movePoint o' T (doubles2 c) = .ok (doubles2 d) ∧
      ‖asComplex b - asComplex p‖ ≤ ms.length * 2 ^ (-39 : ℤ) * (‖asComplex p‖ + PlaneMotion.path ms + 2 ^ (-1020 : ℤ)) ∧
      ‖asComplex d - asComplex p‖ ≤ ms.length * 2 ^ (-39 : ℤ) * (‖asComplex p‖ + PlaneMotion.path ms + 2 ^ (-1020 : ℤ)) := by
  have hp' : PlaneMotion.path ms ≤ 2 ^ 490 := ((le_add_of_nonneg_left (norm_nonneg _)).trans hp).trans (pow_le_pow_right₀ one_le_two (by norm_num))
  obtain ⟨p0, h1, h2⟩ := Product2.composed_comes hs hc h
  have hn' : ms.length ≤ 2 ^ 40 := hn.trans (by norm_num)
  have cm := h2 hn' hp'
  obtain ⟨T', w, s, i1, i2, i3, -, w1, i6, i7, i8, i4⟩ := Inverse2.inverse_acts o' hs hc h hn hp'
  have hN : (0 : ℝ) ≤ ms.length * 2 ^ (-45 : ℤ) ∧ (ms.length : ℝ) * 2 ^ (-45 : ℤ) ≤ 1 / 2048 := by
    have h3 : (ms.length : ℝ) ≤ 2 ^ 34 := by exact_mod_cast hn
    have h4 : (ms.length : ℝ) * 2 ^ (-45 : ℤ) ≤ 2 ^ 34 * 2 ^ (-45 : ℤ) := mul_le_mul_of_nonneg_right h3 (two_zpow_pos _).le
    refine ⟨by positivity, h4.trans (by norm_num)⟩
  rw [show (2 : ℝ) ^ (-1020 : ℤ) = Product.least from rfl, show (ms.length : ℝ) * 2 ^ (-39 : ℤ) = 64 * (ms.length * 2 ^ (-45 : ℤ)) by norm_num; ring]
  have l0 := Product.least_pos
  have x0 := norm_nonneg (asComplex p)
  obtain ⟨⟨a, a1, a2, a3⟩, -, -⟩ := Product2.comes_acts o' cm h1 hn' hp' hw
  obtain ⟨⟨c, c1, c2, c3⟩, -, -⟩ := i4 o' p hw
  rw [show (2 : ℝ) ^ (-1020 : ℤ) = Product.least from rfl] at a3
  have grow : ∀ z : ℂ, ‖PlaneMotion.points ms z‖ ≤ ‖z‖ + PlaneMotion.path ms := fun z => by
    rw [i6]
    refine (norm_add_le _ _).trans ?_
    rw [norm_mul, w1, one_mul]
    linarith
  have back : ∀ z : ℂ, ‖z‖ ≤ ‖PlaneMotion.points ms z‖ + PlaneMotion.path ms := fun z => by
    have e : ‖w * z‖ = ‖z‖ := by rw [norm_mul, w1, one_mul]
    have := norm_sub_le (PlaneMotion.points ms z) s
    rw [i6, add_sub_cancel_right, e] at this
    rw [i6]
    linarith
  have na : ‖asComplex a‖ ≤ 11 / 10 * (‖asComplex p‖ + PlaneMotion.path ms + Product.least) := by
    have t1 := norm_le_norm_add_norm_sub' (asComplex a) (PlaneMotion.points ms (asComplex p))
    have t2 := grow (asComplex p)
    have t3 := mul_le_mul_of_nonneg_right hN.2 (show 0 ≤ ‖asComplex p‖ + PlaneMotion.path ms + Product.least by positivity)
    clear hp hp'
    generalize ((ms.length : ℝ) * 2 ^ (-45 : ℤ)) = N at *
    linarith
  have ncc : ‖asComplex c‖ ≤ 11 / 10 * (‖asComplex p‖ + PlaneMotion.path ms + Product.least) := by
    have t1 := norm_le_norm_add_norm_sub' (PlaneMotion.points ms (asComplex c)) (asComplex p)
    have t2 := back (asComplex c)
    have t3 := mul_le_mul_of_nonneg_right hN.2 (show 0 ≤ ‖asComplex p‖ + PlaneMotion.path ms + Product.least by positivity)
    clear hp hp'
    generalize ((ms.length : ℝ) * 2 ^ (-45 : ℤ)) = N at *
    linarith
  have sa := Inverse2.sized a2 (na.trans (mul_le_mul_of_nonneg_right (by norm_num) (by positivity))) hp
  have sc := Inverse2.sized c2 (ncc.trans (mul_le_mul_of_nonneg_right (by norm_num) (by positivity))) hp
  obtain ⟨⟨b, b1, -, b3⟩, -, -⟩ := i4 o' a sa
  obtain ⟨⟨d, d1, -, d3⟩, -, -⟩ := Product2.comes_acts o' cm h1 hn' hp' sc
  rw [show (2 : ℝ) ^ (-1020 : ℤ) = Product.least from rfl] at d3
  clear hp hp'
  have pos : 0 ≤ (ms.length : ℝ) * 2 ^ (-45 : ℤ) * (‖asComplex p‖ + PlaneMotion.path ms + Product.least) := mul_nonneg hN.1 (by linarith)
  have far : ∀ x : V2, ‖asComplex x‖ ≤ 11 / 10 * (‖asComplex p‖ + PlaneMotion.path ms + Product.least) →
      (ms.length : ℝ) * 2 ^ (-45 : ℤ) * (‖asComplex x‖ + PlaneMotion.path ms + Product.least) ≤ 21 / 10 * (ms.length * 2 ^ (-45 : ℤ) * (‖asComplex p‖ + PlaneMotion.path ms + Product.least)) := fun x hx => by
    rw [mul_left_comm]
    exact mul_le_mul_of_nonneg_left (by linarith) hN.1
  refine ⟨T', a, b, c, d, i1, by simp [DTrans2.movePoint, cm.1, defined_doubles2, a1], by simp [DTrans2.movePoint, i3, defined_doubles2, b1], by simp [DTrans2.movePoint, i3, defined_doubles2, c1],
    by simp [DTrans2.movePoint, cm.1, defined_doubles2, d1], ?_, ?_⟩
  · have e : ‖asComplex b - asComplex p‖ = ‖PlaneMotion.points ms (asComplex b) - PlaneMotion.points ms (asComplex p)‖ := by
      rw [i6, i6, add_sub_add_right_eq_sub, ← mul_sub, norm_mul, w1, one_mul]
    have t1 := norm_sub_le_norm_sub_add_norm_sub (PlaneMotion.points ms (asComplex b)) (asComplex a) (PlaneMotion.points ms (asComplex p))
    have t2 := far a na
    rw [e]
    generalize ((ms.length : ℝ) * 2 ^ (-45 : ℤ)) = N at *
    linarith
  · have t1 := norm_sub_le_norm_sub_add_norm_sub (asComplex d) (PlaneMotion.points ms (asComplex c)) (asComplex p)
    have t2 := far c ncc
    generalize ((ms.length : ℝ) * 2 ^ (-45 : ℤ)) = N at *
    linarith

/-- **C150.** The last row of the inverse is zero but for its last entry, which is near one. -/
theorem C150_last_row_partial (o' : Bool) {o : Bool} {sin cos : ℝ → ℝ} (hs : Accurate sin Real.sin) (hc : Accurate cos Real.cos) {T : DTrans2} {ms : List PlaneMotion} (h : Composed2 o sin cos T ms)
    (hn : ms.length ≤ 2 ^ 34) (hp : PlaneMotion.path ms ≤ 2 ^ 490) :
    ∃ (T' : DTrans2) (l : ℝ), DTrans2.getInverse o' T = .ok T' ∧ T'.matrix 2 = ![.fin 0, .fin 0, .fin l] ∧ |l - 1| ≤ ms.length * 2 ^ (-41 : ℤ) := by
  obtain ⟨T', w, s, i1, -, -, ⟨l, i2, i3⟩, -⟩ := Inverse2.inverse_acts o' hs hc h hn hp
  exact ⟨T', l, i1, i2, i3⟩

/-- **C150.** The inverse of a translation is exactly the translation by the opposite vector, for all finite vectors, and their products are exactly the identity; the identity is its own inverse, and what is
undefined is refused. -/
theorem C150_translation (o o' : Bool) {v : V2} (hx : Representable v.x ∧ |v.x| < 2 ^ 1024) (hy : Representable v.y ∧ |v.y| < 2 ^ 1024) :
    (∃ T T' P Q : DTrans2, DTrans2.Translation (doubles2 v) = .ok T ∧ DTrans2.getInverse o T = .ok T' ∧ DTrans2.Translation (doubles2 ⟨-v.x, -v.y⟩) = .ok T' ∧ DTrans2.mul o' T T' = .ok P ∧
      DTrans2.mul o' T' T = .ok Q ∧ P.matrix = DTrans2.Identity.matrix ∧ Q.matrix = DTrans2.Identity.matrix ∧ P.type = .translation ∧ Q.type = .translation) ∧
    DTrans2.getInverse o DTrans2.Identity = .ok DTrans2.Identity ∧ ∀ U : DTrans2, U.isDefined = false → DTrans2.getInverse o U = .error .undefined := by
  have nx : Representable (-v.x) ∧ |-v.x| < 2 ^ 1024 := ⟨by simpa using representable_neg hx.1, by rw [abs_neg]; exact hx.2⟩
  have ny : Representable (-v.y) ∧ |-v.y| < 2 ^ 1024 := ⟨by simpa using representable_neg hy.1, by rw [abs_neg]; exact hy.2⟩
  have s1 := fun o => sum3_one o finite_one.1 finite_one.2
  have s0 := fun o => sum3_one o finite_zero.1 finite_zero.2
  have o1 := DT3.one_mul_fin finite_one.1 finite_one.2
  have dv : (F64.fin (1 : ℝ)).div (.fin 1) = .fin 1 := by
    have := o1
    rw [F64.mul, one_mul] at this
    rw [F64.div, if_neg one_ne_zero, div_one, this]
  have T : ∀ x y : ℝ, DTrans2.Translation (doubles2 ⟨x, y⟩) = .ok ⟨.translation, ![![.fin 1, .fin 0, .fin x], ![.fin 0, .fin 1, .fin y], ![.fin 0, .fin 0, .fin 1]]⟩ := fun x y => by
    rw [DTrans2.Translation, DT2.Translation, if_neg (by simp [doubles2])]; rfl
  have sb : ∀ x : ℝ, Representable x ∧ |x| < 2 ^ 1024 → (F64.fin x).sub (.fin 0) = .fin x := fun x h => by rw [F64.sub, F64.neg, neg_zero]; exact DT3.add_zero_fin h.1 h.2
  have I : ∀ {x y : ℝ}, Representable x ∧ |x| < 2 ^ 1024 → Representable y ∧ |y| < 2 ^ 1024 → DT2.inverse o ![![.fin 1, .fin 0, .fin x], ![.fin 0, .fin 1, .fin y], ![.fin 0, .fin 0, .fin 1]] =
      ![![.fin 1, .fin 0, .fin (-x)], ![.fin 0, .fin 1, .fin (-y)], ![.fin 0, .fin 0, .fin 1]] := fun {x y} hx hy => by
    have nx : Representable (-x) ∧ |-x| < 2 ^ 1024 := ⟨by simpa using representable_neg hx.1, by rw [abs_neg]; exact hx.2⟩
    have ny : Representable (-y) ∧ |-y| < 2 ^ 1024 := ⟨by simpa using representable_neg hy.1, by rw [abs_neg]; exact hy.2⟩
    have zs : ∀ x : ℝ, Representable (-x) ∧ |-x| < 2 ^ 1024 → (F64.fin 0).sub (.fin x) = .fin (-x) := fun x h => by rw [F64.sub, F64.neg]; exact DT3.zero_add_fin h.1 h.2
    generalize hm : (![![.fin 1, .fin 0, .fin x], ![.fin 0, .fin 1, .fin y], ![.fin 0, .fin 0, .fin 1]] : Fin 3 → Fin 3 → F64 ℝ) = m
    have c00 : DT2.cofactor m 0 0 = .fin 1 := by
      rw [← hm, show DT2.cofactor _ 0 0 = ((F64.fin 1).mul (.fin 1)).sub ((F64.fin y).mul (.fin 0)) from rfl, o1, DT3.mul_zero_fin, sb 1 finite_one]
    have c10 : DT2.cofactor m 1 0 = .fin 0 := by
      rw [← hm, show DT2.cofactor _ 1 0 = ((F64.fin 0).mul (.fin x)).sub ((F64.fin 1).mul (.fin 0)) from rfl, DT3.zero_mul_fin, DT3.mul_zero_fin, sb 0 finite_zero]
    have c20 : DT2.cofactor m 2 0 = .fin (-x) := by
      rw [← hm, show DT2.cofactor _ 2 0 = ((F64.fin 0).mul (.fin y)).sub ((F64.fin x).mul (.fin 1)) from rfl, DT3.zero_mul_fin, DT3.mul_one_fin hx.1 hx.2, zs x nx]
    have c01 : DT2.cofactor m 0 1 = .fin 0 := by
      rw [← hm, show DT2.cofactor _ 0 1 = ((F64.fin y).mul (.fin 0)).sub ((F64.fin 0).mul (.fin 1)) from rfl, DT3.zero_mul_fin, DT3.mul_zero_fin, sb 0 finite_zero]
    have c11 : DT2.cofactor m 1 1 = .fin 1 := by
      rw [← hm, show DT2.cofactor _ 1 1 = ((F64.fin 1).mul (.fin 1)).sub ((F64.fin 0).mul (.fin x)) from rfl, o1, DT3.zero_mul_fin, sb 1 finite_one]
    have c21 : DT2.cofactor m 2 1 = .fin (-y) := by
      rw [← hm, show DT2.cofactor _ 2 1 = ((F64.fin x).mul (.fin 0)).sub ((F64.fin 1).mul (.fin y)) from rfl, DT3.mul_zero_fin, DT3.one_mul_fin hy.1 hy.2, zs y ny]
    have c02 : DT2.cofactor m 0 2 = .fin 0 := by
      rw [← hm, show DT2.cofactor _ 0 2 = ((F64.fin 0).mul (.fin 0)).sub ((F64.fin 1).mul (.fin 0)) from rfl, DT3.zero_mul_fin, DT3.mul_zero_fin, sb 0 finite_zero]
    have c12 : DT2.cofactor m 1 2 = .fin 0 := by
      rw [← hm, show DT2.cofactor _ 1 2 = ((F64.fin 0).mul (.fin 0)).sub ((F64.fin 0).mul (.fin 1)) from rfl, DT3.zero_mul_fin, DT3.zero_mul_fin, sb 0 finite_zero]
    have c22 : DT2.cofactor m 2 2 = .fin 1 := by
      rw [← hm, show DT2.cofactor _ 2 2 = ((F64.fin 1).mul (.fin 1)).sub ((F64.fin 0).mul (.fin 0)) from rfl, o1, DT3.zero_mul_fin, sb 1 finite_one]
    have dt : DT2.det o m = .fin 1 := by
      rw [DT2.det, c00, c10, c20, ← hm]
      simp [DT3.mul_zero_fin, o1, s1]
    funext p q
    rw [DT2.inverse, dt, dv]
    fin_cases p <;> fin_cases q <;> simp [c00, c01, c02, c10, c11, c12, c20, c21, c22, o1, DT3.zero_mul_fin, DT3.mul_one_fin nx.1 nx.2, DT3.mul_one_fin ny.1 ny.2]
  have M : ∀ {x y : ℝ}, Representable x ∧ |x| < 2 ^ 1024 → Representable y ∧ |y| < 2 ^ 1024 → Representable (-x) ∧ |-x| < 2 ^ 1024 → Representable (-y) ∧ |-y| < 2 ^ 1024 →
      DT2.mul o' ![![.fin 1, .fin 0, .fin x], ![.fin 0, .fin 1, .fin y], ![.fin 0, .fin 0, .fin 1]] ![![.fin 1, .fin 0, .fin (-x)], ![.fin 0, .fin 1, .fin (-y)], ![.fin 0, .fin 0, .fin 1]] = DT2.Identity := fun {x y} hx hy nx ny => by
    have z : ∀ x : ℝ, (F64.fin (-x)).add (.fin x) = .fin 0 := fun x => by rw [F64.add, neg_add_cancel, F64.ofExact_fin] <;> simp [rnd_zero]
    have kx : DVec.sum o' (.fin (-x)) (.fin 0) (.fin x) = .fin 0 := by cases o' <;> simp [DVec.sum, DT3.add_zero_fin nx.1 nx.2, DT3.zero_add_fin hx.1 hx.2, z]
    have ky : DVec.sum o' (.fin 0) (.fin (-y)) (.fin y) = .fin 0 := by cases o' <;> simp [DVec.sum, DT3.zero_add_fin ny.1 ny.2, z, DT3.zero_add_zero]
    funext p q
    fin_cases p <;> fin_cases q <;> simp [DT2.mul, DT2.Identity, DT3.zero_mul_fin, DT3.mul_zero_fin, o1, DT3.one_mul_fin nx.1 nx.2, DT3.one_mul_fin ny.1 ny.2, DT3.mul_one_fin hx.1 hx.2, DT3.mul_one_fin hy.1 hy.2, s1, s0, kx, ky]
  refine ⟨⟨_, _, _, _, T v.x v.y, rfl, ?_, rfl, rfl, ?_, ?_, rfl, rfl⟩, ?_, fun U hU => by rw [DTrans2.getInverse, hU]; rfl⟩
  · rw [T, I hx hy]
  · show DT2.mul o' _ (DT2.inverse o _) = _
    rw [I hx hy]
    exact M hx hy nx ny
  · show DT2.mul o' (DT2.inverse o _) _ = _
    rw [I hx hy]
    have := M nx ny (by rwa [neg_neg]) (by rwa [neg_neg])
    rw [neg_neg, neg_neg] at this
    exact this
  · have := I finite_zero finite_zero
    rw [neg_zero] at this
    rw [DTrans2.getInverse, show DTrans2.Identity.isDefined = true from rfl]
    have id : DT2.Identity = ![![.fin 1, .fin 0, .fin 0], ![.fin 0, .fin 1, .fin 0], ![.fin 0, .fin 0, .fin 1]] := by
      funext p q
      fin_cases p <;> fin_cases q <;> simp [DT2.Identity]
    show Except.ok (⟨.identity, DT2.inverse o DT2.Identity⟩ : DTrans2) = .ok ⟨.identity, DT2.Identity⟩
    rw [id, this]

/-- **C150 is violated**, what is moved does not come back exactly: the translation by `2 ^ 60` along the first axis and its inverse take the point (1, 0) to the origin. -/
theorem C150_back_violated (o : Bool) : ∃ T T' : DTrans2, DTrans2.Translation (doubles2 ⟨2 ^ 60, 0⟩) = .ok T ∧ DTrans2.getInverse o T = .ok T' ∧
    DTrans2.movePoint o T (doubles2 ⟨1, 0⟩) = .ok (doubles2 ⟨2 ^ 60, 0⟩) ∧ DTrans2.movePoint o T' (doubles2 ⟨2 ^ 60, 0⟩) = .ok (doubles2 ⟨0, 0⟩) := by
  obtain ⟨⟨T, T', -, -, h1, h2, h3, -⟩, -⟩ := C150_translation o o (v := ⟨2 ^ 60, 0⟩) big_rep finite_zero
  have E : ∀ {x : ℝ} {U : DTrans2}, DTrans2.Translation (doubles2 ⟨x, 0⟩) = .ok U → U = ⟨.translation, ![![.fin 1, .fin 0, .fin x], ![.fin 0, .fin 1, .fin 0], ![.fin 0, .fin 0, .fin 1]]⟩ := fun {x U} h => by
    rw [DTrans2.Translation, DT2.Translation, if_neg (by simp [doubles2])] at h
    exact (Except.ok.inj h).symm
  rw [neg_zero] at h3
  obtain rfl := E h1
  obtain rfl := E h3
  have rn : Representable (-(2 : ℝ) ^ 60) ∧ |-(2 : ℝ) ^ 60| < 2 ^ 1024 := ⟨by simpa using representable_neg big_rep.1, by rw [abs_neg]; exact big_rep.2⟩
  have o1 := DT3.one_mul_fin finite_one.1 finite_one.2
  have s0 := sum3_one o finite_zero.1 finite_zero.2
  have s1 : (F64.fin ((2 : ℝ) ^ 60)).add (.fin (-2 ^ 60)) = .fin 0 := by rw [F64.add, add_neg_cancel, F64.ofExact_fin] <;> simp [rnd_zero]
  have s2 : (F64.fin (1 : ℝ)).add (.fin (2 ^ 60)) = .fin (2 ^ 60) := by
    rw [F64.add, F64.ofExact_fin] <;> rw [absorb_one]
    exact big_rep.2
  have k1 : DVec.sum o (.fin (2 ^ 60)) (.fin 0) (.fin (-2 ^ 60)) = .fin (0 : ℝ) := by cases o <;> simp [DVec.sum, DT3.add_zero_fin big_rep.1 big_rep.2, DT3.zero_add_fin rn.1 rn.2, s1]
  have k2 : DVec.sum o (.fin 1) (.fin 0) (.fin (2 ^ 60)) = .fin ((2 : ℝ) ^ 60) := by cases o <;> simp [DVec.sum, DT3.add_zero_fin finite_one.1 finite_one.2, DT3.zero_add_fin big_rep.1 big_rep.2, s2]
  have A : ∀ {x y z : ℝ}, Representable x ∧ |x| < 2 ^ 1024 → Representable y ∧ |y| < 2 ^ 1024 → DVec.sum o (.fin y) (.fin 0) (.fin x) = .fin z →
      DTrans2.movePoint o ⟨.translation, ![![.fin 1, .fin 0, .fin x], ![.fin 0, .fin 1, .fin 0], ![.fin 0, .fin 0, .fin 1]]⟩ (doubles2 ⟨y, 0⟩) = .ok (doubles2 ⟨z, 0⟩) := fun {x y z} hx hy h => by
    rw [DTrans2.movePoint, if_neg (by simp [DTrans2.isDefined]), defined_doubles2, if_neg (by simp), DT2.applyTo, if_neg (by simp [doubles2])]
    simp [DT2.row, doubles2, DT3.one_mul_fin hy.1 hy.2, DT3.mul_one_fin hx.1 hx.2, DT3.zero_mul_fin, DT3.mul_zero_fin, h, s0]
  exact ⟨_, _, h1, h2, A big_rep finite_one k2, A rn big_rep k1⟩

/-- hypotheses of `C150_inverse_partial`, `C150_back_partial` and `C150_last_row_partial`: a turn by one radian about the point (3, 4) after a translation by (3, 4), and a triangle -/
example (o : Bool) {sin cos : ℝ → ℝ} (hs : Accurate sin Real.sin) (hc : Accurate cos Real.cos) :
    ∃ (T A B : DTrans2) (ms : List PlaneMotion), DTrans2.RotationAround o sin cos (doubles2 ⟨3, 4⟩) ⟨.fin 1, .radian⟩ = .ok B ∧ DTrans2.Translation (doubles2 ⟨3, 4⟩) = .ok A ∧ DTrans2.mul o B A = .ok T ∧
      Composed2 o sin cos T ms ∧ ms.length ≤ 2 ^ 34 ∧ PlaneMotion.path ms ≤ 2 ^ 490 ∧
      ∀ p ∈ [⟨0, 0⟩, ⟨3, 4⟩, (⟨4, 3⟩ : V2)] ++ List.flatten [], Sized2 490 p ∧ ‖asComplex p‖ + PlaneMotion.path ms ≤ 2 ^ 480 := by
  have r3 : Representable (3 : ℝ) := by simpa using HalfTurn.rep_lit 3 0 (by norm_num) (by norm_num)
  have r4 : Representable (4 : ℝ) := by simpa using HalfTurn.rep_lit 4 0 (by norm_num) (by norm_num)
  have big : ∀ {n : ℕ}, 6 ≤ n → (64 : ℝ) ≤ 2 ^ n := fun {n} hn => by
    have : (2 : ℝ) ^ 6 ≤ 2 ^ n := pow_le_pow_right₀ one_le_two hn
    norm_num at this
    exact this
  have b := big (n := 490) (by norm_num)
  have b' := big (n := 480) (by norm_num)
  have q3 : Representable (3 : ℝ) ∧ |(3 : ℝ)| ≤ 2 ^ 490 := ⟨r3, le_trans (by norm_num) b⟩
  have q4 : Representable (4 : ℝ) ∧ |(4 : ℝ)| ≤ 2 ^ 490 := ⟨r4, le_trans (by norm_num) b⟩
  have q0 : Representable (0 : ℝ) ∧ |(0 : ℝ)| ≤ 2 ^ 490 := ⟨representable_zero, le_trans (by norm_num) b⟩
  have W : Sized2 490 ⟨3, 4⟩ := ⟨q3, q4⟩
  have c := Move2.complex_le ⟨3, 4⟩
  norm_num at c
  have ha : (⟨.fin 1, .radian⟩ : DAngle ℝ).inUnit .radian = .ok (.fin 1) := by simp [DAngle.inUnit, DAngle.isDefined]
  obtain ⟨M, hM, -⟩ := Move2.around_rows o hs hc ha rep_one W
  have hB : DTrans2.RotationAround o sin cos (doubles2 ⟨3, 4⟩) ⟨.fin 1, .radian⟩ = .ok ⟨.affine, M⟩ := by rw [DTrans2.RotationAround, hM]; rfl
  obtain ⟨A, hA⟩ : ∃ A, DTrans2.Translation (doubles2 ⟨3, 4⟩) = .ok A := ⟨_, by rw [DTrans2.Translation, DT2.Translation, if_neg (by simp [doubles2])]; rfl⟩
  have mA : Makes2 o sin cos A (.shift (asComplex ⟨3, 4⟩)) := .shift W hA
  have mB := Makes2.around ha rep_one W hB
  obtain ⟨X, eX, hX⟩ := (C149_type (.one mB) (.one mA)).1
  have e : PlaneMotion.path [.shift (asComplex ⟨3, 4⟩), .around (asComplex ⟨3, 4⟩) 1] ≤ 21 := by
    simp only [PlaneMotion.path, PlaneMotion.reach, List.map_cons, List.map_nil, List.sum_cons, List.sum_nil]
    linarith
  refine ⟨X, A, _, _, hB, hA, eX, hX, by norm_num, e.trans (le_trans (by norm_num) b), fun p m => ?_⟩
  simp only [List.flatten_nil, List.append_nil, List.mem_cons, List.not_mem_nil, or_false] at m
  have k : ‖asComplex p‖ ≤ 8 := by
    refine (Move2.complex_le p).trans ?_
    rcases m with rfl | rfl | rfl <;> norm_num
  simp only [List.cons_append, List.nil_append]
  rcases m with rfl | rfl | rfl <;> exact ⟨⟨by assumption, by assumption⟩, by generalize (2 : ℝ) ^ 480 = B at *; generalize (2 : ℝ) ^ 490 = C at *; linarith⟩

/-- hypotheses of `C150_translation`: the vector (1, 0), and a transformation that is undefined -/
example : (Representable (1 : ℝ) ∧ |(1 : ℝ)| < 2 ^ 1024) ∧ (Representable (0 : ℝ) ∧ |(0 : ℝ)| < 2 ^ 1024) ∧ DTrans2.Undefined.isDefined = false := ⟨finite_one, finite_zero, rfl⟩

end Verif.Props
