import Verif.Lemmas.DoubleSegment2
import Verif.Lemmas.Linear2
import Verif.Props.DoubleSphere
import Verif.Props.DoubleDistance
import Verif.Props.Linear3

/-!
# Segments of the plane, and whole numbers, in double precision

Property C128. Code: `src/OpenSpaceToolkit/Mathematics/Geometry/2D/Object/Segment.cpp`, `3D/Object/Segment.cpp` and `3D/Object/Sphere.cpp`.
-/

namespace Verif.Props

open Verif Verif.Spec Verif.Double

/-- C128: in double precision a segment of the plane is the segment of space in the plane `z = 0`, in both orders of summation, for all points whatsoever, also
undefined and infinite ones -/
theorem C128_plane (o : Bool) (a b p : DVec2) : DSegment2.contains o a b p = DSegment.contains o a.lift b.lift p.lift ∧
    DSegment2.distanceTo a b p = DSegment.distanceTo o a.lift b.lift p.lift ∧
    DSegment.getCenter a.lift b.lift = (DSegment2.getCenter a b).map DVec2.lift := by
  refine ⟨?_, ?_, ?_⟩
  · simp only [DSegment2.contains, DSegment.contains, DVec2.lift_defined, DVec2.lift_eq, DVec2.lift_sub]
    rfl
  · simp only [DSegment2.distanceTo, DSegment.distanceTo, DVec2.lift_defined, DVec2.lift_eq, DVec2.lift_sub, DVec2.lift_squaredNorm, DVec2.lift_dot, DVec2.lift_distance]
    obtain ⟨k, -, -, hk⟩ := clamp_any ((DSegment2.dot (p.sub a) (b.sub a)).div (b.sub a).squaredNorm)
    simp only [hk, DVec2.lift_scale, DVec2.lift_defined, DVec2.lift_add, DVec2.lift_distance]
  · simp only [DSegment2.getCenter, DSegment.getCenter, DVec2.lift_defined, DVec2.lift_sub, DVec2.lift_half, DVec2.lift_add]
    split
    · rfl
    · split <;> rfl

/-- two finite doubles, at most `2 ^ 248` in size -/
structure Small2 (a : V2) : Prop where
  x : Representable a.x ∧ |a.x| ≤ 2 ^ 248
  y : Representable a.y ∧ |a.y| ≤ 2 ^ 248

theorem Small2.lift {a : V2} (h : Small2 a) : Small a.lift :=
  ⟨h.x, h.y, representable_zero, by rw [show a.lift.z = 0 from rfl, abs_zero]; positivity⟩

theorem lift_doubles2 (a : V2) : (doubles2 a).lift = doubles a.lift := rfl

/-- C128: in double precision a segment of the plane contains its ends; a point that it accepts is near the segment; and the distance is accurate -/
theorem C128_accuracy (o : Bool) {a b p : V2} (ha : Small2 a) (hb : Small2 b) (hp : Small2 p) :
    DSegment2.contains o (doubles2 a) (doubles2 b) (doubles2 a) = .ok true ∧ DSegment2.contains o (doubles2 a) (doubles2 b) (doubles2 b) = .ok true ∧
    (DSegment2.contains o (doubles2 a) (doubles2 b) (doubles2 p) = .ok true → 2 ^ (-200 : ℤ) ≤ (b - a).norm →
      ∃ q ∈ SegSet2 a b, (p - q).norm ≤ 13 / 2 ^ 53 * (b - a).norm) ∧
    (∃ r d : ℝ, DSegment2.distanceTo (doubles2 a) (doubles2 b) (doubles2 p) = .ok (.fin r) ∧ IsDistance2 (SegSet2 a b) p d ∧ 0 ≤ r ∧
      |r - d| ≤ (2 * a.norm + 4 * (b - a).norm + 18 * (p - a).norm) / 2 ^ 53 + 2 ^ (-199 : ℤ)) := by
  have e := fun p => (C128_plane o (doubles2 a) (doubles2 b) p).1
  rw [e, e, e, (C128_plane o (doubles2 a) (doubles2 b) (doubles2 p)).2.1]
  simp only [lift_doubles2]
  refine ⟨(C117_ends o ha.lift hb.lift).1, (C117_ends o ha.lift hb.lift).2, fun h hab => ?_, ?_⟩
  · rw [← V2.lift_norm, V2.lift_sub] at hab ⊢
    obtain ⟨q, hq, h'⟩ := C117_segment o ha.lift hb.lift hp.lift hab h
    obtain ⟨r, hr, rfl⟩ := segSet_lift hq
    exact ⟨r, hr, by rwa [← V2.lift_norm, V2.lift_sub]⟩
  · obtain ⟨r, d, h1, h2, h3, h4⟩ := C118_short o ha.lift hb.lift hp.lift
    refine ⟨r, d, h1, isDistance2_of (fun _ => mem_segSet2.1) (fun _ => segSet_lift) h2, h3, ?_⟩
    rwa [← V2.lift_norm a, ← V2.lift_norm (b - a), ← V2.lift_norm (p - a), V2.lift_sub, V2.lift_sub]

/-- three numbers of the grid -/
structure Grid3 (e : ℤ) (n : ℕ) (a : V3) : Prop where
  x : OnGrid e n a.x
  y : OnGrid e n a.y
  z : OnGrid e n a.z

theorem Grid3.small {e : ℤ} {a : V3} (h : Grid3 e 24 a) (h1 : -268 ≤ e) (h2 : e ≤ 224) : Small a := by
  have key : ∀ x, OnGrid e 24 x → Representable x ∧ |x| ≤ 2 ^ 248 := fun x hx => ⟨hx.representable (by norm_num) (by omega), hx.abs_le.trans (by
    have : (2 : ℝ) ^ (((24 : ℕ) : ℤ) + e) ≤ 2 ^ (248 : ℤ) := zpow_le_zpow_right₀ one_le_two (by push_cast; omega)
    exact_mod_cast this)⟩
  exact ⟨key _ h.x, key _ h.y, key _ h.z⟩

theorem Grid3.diff {e : ℤ} {a b : V3} (ha : Grid3 e 24 a) (hb : Grid3 e 24 b) (he : -268 ≤ e) : diff3 a b = a - b ∧ Grid3 e 25 (a - b) := by
  have g : Grid3 e 25 (a - b) := ⟨ha.x.sub hb.x, ha.y.sub hb.y, ha.z.sub hb.z⟩
  refine ⟨?_, g⟩
  ext
  · exact g.x.exact (by norm_num) (by omega)
  · exact g.y.exact (by norm_num) (by omega)
  · exact g.z.exact (by norm_num) (by omega)

theorem Grid3.cross {e : ℤ} {v w : V3} (hv : Grid3 e 25 v) (hw : Grid3 e 25 w) (he : -268 ≤ e) : cross3 v w = v.cross w ∧ Grid3 (e + e) 51 (v.cross w) := by
  have m : ∀ a b, OnGrid e 25 a → OnGrid e 25 b → rnd (a * b) = a * b := fun a b ha hb => (ha.mul hb).exact (by norm_num) (by omega)
  have g : Grid3 (e + e) 51 (v.cross w) := ⟨(hv.y.mul hw.z).sub (hv.z.mul hw.y), (hv.z.mul hw.x).sub (hv.x.mul hw.z), (hv.x.mul hw.y).sub (hv.y.mul hw.x)⟩
  refine ⟨?_, g⟩
  simp only [cross3, m _ _ hv.y hw.z, m _ _ hv.z hw.y, m _ _ hv.z hw.x, m _ _ hv.x hw.z, m _ _ hv.x hw.y, m _ _ hv.y hw.x]
  ext
  · exact g.x.exact (by norm_num) (by omega)
  · exact g.y.exact (by norm_num) (by omega)
  · exact g.z.exact (by norm_num) (by omega)

theorem Grid3.dot (o : Bool) {e : ℤ} {v w : V3} (hv : Grid3 e 25 v) (hw : Grid3 e 25 w) (he : -268 ≤ e) : dotR o v w = v.dot w := by
  have m : ∀ a b, OnGrid e 25 a → OnGrid e 25 b → rnd (a * b) = a * b := fun a b ha hb => (ha.mul hb).exact (by norm_num) (by omega)
  have gx := hv.x.mul hw.x
  have gy := hv.y.mul hw.y
  have gz := hv.z.mul hw.z
  simp only [dotR, DVec.dot3, m _ _ hv.x hw.x, m _ _ hv.y hw.y, m _ _ hv.z hw.z, V3.dot]
  cases o
  · simp only [DVec.sum3, Bool.false_eq_true, if_false, (gx.add gy).exact (by norm_num) (by omega)]
    exact ((gx.add gy).add (gz.mono (by norm_num))).exact (by norm_num) (by omega)
  · simp only [DVec.sum3, if_true, (gy.add gz).exact (by norm_num) (by omega)]
    rw [((gx.mono (by norm_num)).add (gy.add gz)).exact (by norm_num) (by omega)]
    ring

open Classical in
/-- C128: on a grid, such as that of the whole numbers up to `2 ^ 24`, a segment decides exactly, in double precision, which points it contains -/
theorem C128_grid (o : Bool) {e : ℤ} (h1 : -268 ≤ e) (h2 : e ≤ 224) {a b p : V3} (ha : Grid3 e 24 a) (hb : Grid3 e 24 b) (hp : Grid3 e 24 p) :
    DSegment.contains o (doubles a) (doubles b) (doubles p) = .ok (decide (p ∈ SegSet a b)) := by
  rw [contains_segment o (ha.small h1 h2) (hb.small h1 h2) (hp.small h1 h2)]
  congr 1
  obtain ⟨e1, g1⟩ := hb.diff ha h1
  obtain ⟨e2, g2⟩ := hp.diff ha h1
  obtain ⟨e3, g3⟩ := g1.cross g2 h1
  have key : dotR o ((b - a).cross (p - a)) ((b - a).cross (p - a)) = 0 ↔ ((b - a).cross (p - a)).normSq = 0 := by
    rw [dotR_self_zero, g3.x.square (by omega), g3.y.square (by omega), g3.z.square (by omega), V3.normSq_eq_zero]
    constructor
    · rintro ⟨k1, k2, k3⟩; ext <;> assumption
    · intro k; rw [k]; exact ⟨rfl, rfl, rfl⟩
  by_cases h : a = b
  · subst h
    rw [if_pos ⟨rfl, rfl, rfl⟩, segSet_self, decide_eq_decide, Set.mem_singleton_iff]
    constructor
    · rintro ⟨k1, k2, k3⟩; ext <;> simp [*]
    · rintro rfl; exact ⟨rfl, rfl, rfl⟩
  · rw [if_neg (fun k => h (V3.ext k.1 k.2.1 k.2.2)), e1, e2, e3, g1.dot o g2 h1, g1.dot o g1 h1, decide_eq_decide, key, mem_segSet h]

open Classical in
/-- C128: the same for segments of the plane -/
theorem C128_grid2 (o : Bool) {e : ℤ} (h1 : -268 ≤ e) (h2 : e ≤ 224) {a b p : V2} (ha : OnGrid e 24 a.x ∧ OnGrid e 24 a.y) (hb : OnGrid e 24 b.x ∧ OnGrid e 24 b.y)
    (hp : OnGrid e 24 p.x ∧ OnGrid e 24 p.y) : DSegment2.contains o (doubles2 a) (doubles2 b) (doubles2 p) = .ok (decide (p ∈ SegSet2 a b)) := by
  rw [(C128_plane o _ _ _).1, lift_doubles2, lift_doubles2, lift_doubles2,
    C128_grid o h1 h2 ⟨ha.1, ha.2, OnGrid.zero⟩ ⟨hb.1, hb.2, OnGrid.zero⟩ ⟨hp.1, hp.2, OnGrid.zero⟩]
  congr 1
  rw [decide_eq_decide, mem_segSet2]

open Classical in
/-- C128: for whole numbers up to `2 ^ 24`, a sphere decides exactly, in double precision, which points it contains -/
theorem C128_sphere (o : Bool) {eps : ℝ} (he : 0 < eps) (he' : eps ≤ 1) {c p : V3} {r : ℝ} (hc : Grid3 0 24 c) (hp : Grid3 0 24 p) (hr : OnGrid 0 24 r) :
    DSphere.contains o (.fin eps) (doubles c) (.fin r) (doubles p) = .ok (decide (p ∈ SphereSet c r)) := by
  have hr' : |r| ≤ 2 ^ 499 := hr.abs_le.trans (by
    have : (2 : ℝ) ^ (((24 : ℕ) : ℤ) + 0) ≤ 2 ^ (499 : ℤ) := zpow_le_zpow_right₀ one_le_two (by norm_num)
    exact_mod_cast this)
  rw [contains_sphere o eps (hc.small (by norm_num) (by norm_num)).within (hp.small (by norm_num) (by norm_num)).within hr']
  congr 1
  obtain ⟨e1, g1⟩ := hp.diff hc (by norm_num)
  have gr := hr.mul hr
  have gd : OnGrid 0 52 ((p - c).dot (p - c)) := by
    have a1 := ((g1.x.mul g1.x).add (g1.y.mul g1.y)).add ((g1.z.mul g1.z).mono (show 50 ≤ 51 by norm_num))
    exact a1
  rw [decide_eq_decide, sphereR, e1, g1.dot o g1 (by norm_num), gr.exact (by norm_num) (by norm_num)]
  have gs := gd.sub (gr.mono (show 48 ≤ 52 by norm_num))
  rw [gs.exact (by norm_num) (by norm_num)]
  have hm : p ∈ SphereSet c r ↔ (p - c).dot (p - c) - r * r = 0 := by
    show (p - c).norm = |r| ↔ _
    rw [sub_eq_zero, ← abs_mul_abs_self r, show (p - c).dot (p - c) = (p - c).norm * (p - c).norm from (V3.norm_mul_self _).symm]
    exact (mul_self_inj (V3.norm_nonneg _) (abs_nonneg r)).symm
  rw [hm]
  constructor
  · intro h
    obtain ⟨k, -, hk⟩ := gs
    rw [hk] at h ⊢
    have : |k| < 1 := by
      have h1 : |(k : ℝ) * 2 ^ (0 : ℤ)| < 1 := h.trans_le he'
      rw [zpow_zero, mul_one] at h1
      exact_mod_cast h1
    rw [Int.abs_lt_one_iff.1 this]; simp
  · intro h; rw [h, abs_zero]; exact he

example : Grid3 0 24 ⟨1, -2, 16777216⟩ ∧ OnGrid 0 24 3 ∧ (⟨1, -2, 3⟩ : V3) ∈ SegSet ⟨0, -4, 6⟩ ⟨2, 0, 0⟩ := by
  refine ⟨⟨⟨1, by norm_num, by norm_num⟩, ⟨-2, by norm_num, by norm_num⟩, ⟨16777216, by norm_num, by norm_num⟩⟩, ⟨3, by norm_num, by norm_num⟩,
    ⟨1 / 2, by norm_num, by norm_num, by ext <;> norm_num⟩⟩

end Verif.Props
