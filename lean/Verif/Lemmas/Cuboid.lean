import Verif.Spec.Cuboid
import Verif.Spec.Linear
import Verif.Model.Cuboid
import Verif.Lemmas.Linear3
import Verif.Lemmas.Cone
import Verif.Lemmas.Zonotope

/-! # Lemmas on boxes -/

namespace Verif

open Spec

theorem Orthonormal.norms {a b c : V3} (h : Orthonormal a b c) : a.dot a = 1 ∧ b.dot b = 1 ∧ c.dot c = 1 := by
  have e : ∀ v : V3, v.norm = 1 → v.dot v = 1 := fun v hv => by
    have := V3.norm_sq v
    rw [hv] at this
    simpa [V3.normSq] using this.symm
  exact ⟨e a h.1, e b h.2.1, e c h.2.2.1⟩

/-- coordinates along orthonormal axes -/
theorem Orthonormal.coords {a b c : V3} (h : Orthonormal a b c) (x y z : ℝ) :
    (x • a + y • b + z • c).dot a = x ∧ (x • a + y • b + z • c).dot b = y ∧ (x • a + y • b + z • c).dot c = z := by
  obtain ⟨h1, h2, h3⟩ := Orthonormal.norms h
  obtain ⟨-, -, -, h4, h5, h6⟩ := h
  simp only [V3.dot, V3.add_x, V3.add_y, V3.add_z, V3.smul_x, V3.smul_y, V3.smul_z] at *
  refine ⟨?_, ?_, ?_⟩
  · linear_combination x * h1 + y * h4 + z * h5
  · linear_combination x * h4 + y * h2 + z * h6
  · linear_combination x * h5 + y * h6 + z * h3

/-- every vector is the combination of its coordinates along orthonormal axes -/
theorem Orthonormal.expand {a b c : V3} (h : Orthonormal a b c) (v : V3) : v = v.dot a • a + v.dot b • b + v.dot c • c := by
  obtain ⟨h1, h2, h3⟩ := Orthonormal.norms h
  obtain ⟨-, -, -, h4, h5, h6⟩ := h
  simp only [V3.dot] at h1 h2 h3 h4 h5 h6
  have hm : (!![a.x, a.y, a.z; b.x, b.y, b.z; c.x, c.y, c.z] : Matrix (Fin 3) (Fin 3) ℝ) * !![a.x, b.x, c.x; a.y, b.y, c.y; a.z, b.z, c.z] = 1 := by
    ext i j
    fin_cases i <;> fin_cases j <;> simp [Matrix.mul_apply, Fin.sum_univ_three] <;> linarith
  have hm2 := mul_eq_one_comm.1 hm
  have e := fun i j => congrFun (congrFun hm2 i) j
  have e00 := e 0 0
  have e01 := e 0 1
  have e02 := e 0 2
  have e11 := e 1 1
  have e12 := e 1 2
  have e22 := e 2 2
  simp [Matrix.mul_apply, Fin.sum_univ_three] at e00 e01 e02 e11 e12 e22
  ext
  · simp only [V3.dot, V3.add_x, V3.smul_x]; linear_combination (-v.x) * e00 - v.y * e01 - v.z * e02
  · simp only [V3.dot, V3.add_y, V3.smul_y]; linear_combination (-v.x) * e01 - v.y * e11 - v.z * e12
  · simp only [V3.dot, V3.add_z, V3.smul_z]; linear_combination (-v.x) * e02 - v.y * e12 - v.z * e22

/-- a point given by its coordinates relative to a box -/
theorem Orthonormal.point {a b c : V3} (h : Orthonormal a b c) (o p : V3) :
    p = o + (p - o).dot a • a + (p - o).dot b • b + (p - o).dot c • c := by
  have e := Orthonormal.expand h (p - o)
  rw [V3.ext_iff] at e
  simp only [V3.add_x, V3.add_y, V3.add_z, V3.smul_x, V3.smul_y, V3.smul_z, V3.sub_x, V3.sub_y, V3.sub_z] at e
  ext
  · simp only [V3.add_x, V3.smul_x]; linarith [e.1]
  · simp only [V3.add_y, V3.smul_y]; linarith [e.2.1]
  · simp only [V3.add_z, V3.smul_z]; linarith [e.2.2]

theorem Orthonormal.point_coords {a b c : V3} (h : Orthonormal a b c) (o : V3) (x y z : ℝ) :
    (o + x • a + y • b + z • c - o).dot a = x ∧ (o + x • a + y • b + z • c - o).dot b = y ∧ (o + x • a + y • b + z • c - o).dot c = z := by
  rw [show o + x • a + y • b + z • c - o = x • a + y • b + z • c by ext <;> simp <;> ring]
  exact Orthonormal.coords h x y z

theorem mem_boxSet {a b c : V3} (h : Orthonormal a b c) {o p : V3} {e f g : ℝ} :
    p ∈ BoxSet o a b c e f g ↔ |(p - o).dot a| ≤ e ∧ |(p - o).dot b| ≤ f ∧ |(p - o).dot c| ≤ g := by
  constructor
  · rintro ⟨x, y, z, rfl, hx, hy, hz⟩
    obtain ⟨e1, e2, e3⟩ := Orthonormal.point_coords h o x y z
    rw [e1, e2, e3]; exact ⟨hx, hy, hz⟩
  · rintro ⟨hx, hy, hz⟩
    exact ⟨_, _, _, Orthonormal.point h o p, hx, hy, hz⟩

theorem mem_faceSet {a b c : V3} (h : Orthonormal a b c) {o p : V3} {e f g : ℝ} :
    p ∈ FaceSet o a b c e f g ↔ p ∈ BoxSet o a b c e f g ∧ (|(p - o).dot a| = e ∨ |(p - o).dot b| = f ∨ |(p - o).dot c| = g) := by
  rw [mem_boxSet h]
  constructor
  · rintro ⟨x, y, z, rfl, hx, hy, hz, hh⟩
    obtain ⟨e1, e2, e3⟩ := Orthonormal.point_coords h o x y z
    rw [e1, e2, e3]; exact ⟨⟨hx, hy, hz⟩, hh⟩
  · rintro ⟨⟨hx, hy, hz⟩, hh⟩
    exact ⟨_, _, _, Orthonormal.point h o p, hx, hy, hz, hh⟩

theorem mem_cornerSet {a b c : V3} (h : Orthonormal a b c) {o p : V3} {e f g : ℝ} :
    p ∈ CornerSet o a b c e f g ↔ |(p - o).dot a| = e ∧ |(p - o).dot b| = f ∧ |(p - o).dot c| = g := by
  constructor
  · rintro ⟨x, y, z, rfl, hx, hy, hz⟩
    obtain ⟨e1, e2, e3⟩ := Orthonormal.point_coords h o x y z
    rw [e1, e2, e3]; exact ⟨hx, hy, hz⟩
  · rintro ⟨hx, hy, hz⟩
    exact ⟨_, _, _, Orthonormal.point h o p, hx, hy, hz⟩

/-- moving a coordinate to a face: `|x| ≤`-preserving correction by `| |x| - e |` -/
theorem abs_push (x e : ℝ) (he : 0 ≤ e) : ∃ y : ℝ, |y| = e ∧ |y - x| = |(|x| - e)| := by
  rcases le_total 0 x with h | h
  · exact ⟨e, abs_of_nonneg he, by rw [abs_of_nonneg h, abs_sub_comm]⟩
  · refine ⟨-e, by rw [abs_neg, abs_of_nonneg he], ?_⟩
    rw [abs_of_nonpos h, show -e - x = -x - e by ring]

/-- The conditions `|o i + t d i| ≤ e i` on `t` can be met together if any two of them can. -/
theorem slabs {n : ℕ} (o d e : Fin n → ℝ) (hd : ∃ k, d k ≠ 0) (h : ∀ i j, |d i * o j - d j * o i| ≤ e i * |d j| + e j * |d i|) :
    ∃ t : ℝ, ∀ i, |o i + t * d i| ≤ e i := by
  -- the sign of `d i`
  obtain ⟨s, hs⟩ : ∃ s : Fin n → ℝ, ∀ i, (s i = 1 ∨ s i = -1) ∧ s i * d i = |d i| := by
    refine ⟨fun i => if 0 ≤ d i then 1 else -1, fun i => ?_⟩
    by_cases hi : 0 ≤ d i
    · simp [hi, abs_of_nonneg hi]
    · simp [hi, abs_of_nonpos (le_of_not_ge hi)]
  have habs : ∀ i (x : ℝ), |s i * x| = |x| := fun i x => by
    rcases (hs i).1 with h | h <;> rw [h] <;> simp
  obtain ⟨k, hk⟩ := hd
  obtain ⟨m, hm, hmax⟩ := (Finset.univ.filter fun i => d i ≠ 0).exists_max_image (fun i => (-e i - s i * o i) / |d i|) ⟨k, by simp [hk]⟩
  have hm : d m ≠ 0 := by simpa using hm
  refine ⟨(-e m - s m * o m) / |d m|, fun i => ?_⟩
  by_cases hi : d i = 0
  · have h1 := h k i
    have h2 := abs_pos.2 hk
    rw [hi] at h1
    simp only [zero_mul, sub_zero, abs_zero, mul_zero, zero_add, abs_mul] at h1
    rw [hi, mul_zero, add_zero]
    exact le_of_mul_le_mul_left (by linarith) h2
  · have pi := abs_pos.2 hi
    have pm := abs_pos.2 hm
    have hlow : (-e i - s i * o i) / |d i| ≤ (-e m - s m * o m) / |d m| := hmax i (by simpa using hi)
    have hup : (-e m - s m * o m) / |d m| ≤ (e i - s i * o i) / |d i| := by
      rw [div_le_div_iff₀ pm pi]
      have h1 := h m i
      have h2 : |s m * (s i * (d m * o i - d i * o m))| = |d m * o i - d i * o m| := by rw [habs, habs]
      have h3 : s m * (s i * (d m * o i - d i * o m)) = |d m| * (s i * o i) - |d i| * (s m * o m) := by rw [← (hs m).2, ← (hs i).2]; ring
      rw [← h2, h3] at h1
      have := (abs_le.1 h1).2
      linarith
    rw [← habs i (o i + _)]
    set t := (-e m - s m * o m) / |d m|
    rw [div_le_iff₀ pi] at hlow
    rw [le_div_iff₀ pi] at hup
    rw [show s i * (o i + t * d i) = s i * o i + t * (s i * d i) by ring, (hs i).2, abs_le]
    constructor <;> linarith

/-- the separating axis test of a line and a box decides whether they meet -/
theorem Gte.testLineBox_iff {o d : V3} (hd : d ≠ 0) {ex ey ez : ℝ} (hx : 0 ≤ ex) (hy : 0 ≤ ey) (hz : 0 ≤ ez) :
    Gte.testLineBox o d ex ey ez = true ↔ ∃ t : ℝ, |o.x + t * d.x| ≤ ex ∧ |o.y + t * d.y| ≤ ey ∧ |o.z + t * d.z| ≤ ez := by
  have e : Gte.testLineBox o d ex ey ez = true ↔ |(d.cross o).x| ≤ ey * |d.z| + ez * |d.y| ∧ |(d.cross o).y| ≤ ex * |d.z| + ez * |d.x| ∧
      |(d.cross o).z| ≤ ex * |d.y| + ey * |d.x| := by
    simp only [Gte.testLineBox]
    split_ifs with h1 h2 h3
    · simp only [Bool.false_eq_true, false_iff]; intro h; linarith [h.1]
    · simp only [Bool.false_eq_true, false_iff]; intro h; linarith [h.2.1]
    · simp only [Bool.false_eq_true, false_iff]; intro h; linarith [h.2.2]
    · exact ⟨fun _ => ⟨not_lt.1 h1, not_lt.1 h2, not_lt.1 h3⟩, fun _ => rfl⟩
  rw [e]
  simp only [V3.cross_x, V3.cross_y, V3.cross_z]
  constructor
  · rintro ⟨h1, h2, h3⟩
    have hne : ∃ k, ![d.x, d.y, d.z] k ≠ 0 := by
      by_contra hc
      push Not at hc
      exact hd (V3.ext (hc 0) (hc 1) (hc 2))
    have hex := mul_nonneg hx (abs_nonneg d.x)
    have hey := mul_nonneg hy (abs_nonneg d.y)
    have hez := mul_nonneg hz (abs_nonneg d.z)
    obtain ⟨t, ht⟩ := slabs ![o.x, o.y, o.z] ![d.x, d.y, d.z] ![ex, ey, ez] hne (by
      intro i j
      fin_cases i <;> fin_cases j <;> simp <;> first | linarith | (rw [abs_sub_comm]; linarith))
    exact ⟨t, ht 0, ht 1, ht 2⟩
  · rintro ⟨t, h1, h2, h3⟩
    have key : ∀ (o p d q e f : ℝ), |o + t * d| ≤ e → |p + t * q| ≤ f → |d * p - q * o| ≤ e * |q| + f * |d| := by
      intro o p d q e f ho hp
      rw [show d * p - q * o = d * (p + t * q) - q * (o + t * d) by ring]
      refine (abs_sub _ _).trans ?_
      rw [abs_mul, abs_mul]
      nlinarith [abs_nonneg d, abs_nonneg q]
    exact ⟨key _ _ _ _ _ _ h2 h3, by rw [abs_sub_comm]; exact key _ _ _ _ _ _ h1 h3, key _ _ _ _ _ _ h1 h2⟩

theorem V3.parallel_of_perp {u p q : V3} (h : p.cross q ≠ 0) (hp : u.dot p = 0) (hq : u.dot q = 0) : ∃ r : ℝ, u = r • p.cross q := by
  refine ⟨_, (V3.cross_eq_zero_iff h).1 (V3.normSq_eq_zero.2 ?_)⟩
  simp only [V3.dot] at hp hq
  ext
  · simp only [V3.cross_x, V3.cross_y, V3.cross_z, V3.zero_x]; linear_combination q.x * hp - p.x * hq
  · simp only [V3.cross_x, V3.cross_y, V3.cross_z, V3.zero_y]; linear_combination q.y * hp - p.y * hq
  · simp only [V3.cross_x, V3.cross_y, V3.cross_z, V3.zero_z]; linear_combination q.z * hp - p.z * hq

/-- the axes that the test of two boxes tries -/
def boxAxes (a b c a' b' c' : V3) : List V3 :=
  [a, b, c] ++ [a', b', c'] ++ [a, b, c].flatMap fun u => [a', b', c'].map fun v => u.cross v

/-- along one of the axes of two boxes or their cross products, in one of the two directions, a point is beyond the sum of the segments if it is along any -/
theorem boxAxes_beyond {a b c a' b' c' : V3} (h : Orthonormal a b c) (h' : Orthonormal a' b' c') (e : Fin 6 → ℝ) (d u : V3)
    (hu : 0 < beyond ![a, b, c, a', b', c'] e d u) :
    ∃ l ∈ boxAxes a b c a' b' c', 0 < beyond ![a, b, c, a', b', c'] e d l ∨ 0 < beyond ![a, b, c, a', b', c'] e d (-l) := by
  set n := ![a, b, c, a', b', c'] with hn
  obtain ⟨n1, n2, n3⟩ := Orthonormal.norms h
  obtain ⟨n1', n2', n3'⟩ := Orthonormal.norms h'
  obtain ⟨-, -, -, o1, o2, o3⟩ := id h
  obtain ⟨-, -, -, o1', o2', o3'⟩ := id h'
  have pos_right : ∀ {x y : ℝ}, 0 < x * y → 0 ≤ x → 0 < y := fun {x y} hxy hx => by
    by_contra hy
    nlinarith [mul_nonneg hx (neg_nonneg.2 (not_lt.1 hy))]
  -- a multiple of an axis
  have scale : ∀ (v l : V3) (r : ℝ), v = r • l → l ∈ boxAxes a b c a' b' c' → 0 < beyond n e d v →
      ∃ l ∈ boxAxes a b c a' b' c', 0 < beyond n e d l ∨ 0 < beyond n e d (-l) := by
    intro v l r hv hl hb
    refine ⟨l, hl, ?_⟩
    rcases le_total 0 r with hr | hr
    · left
      rw [hv, beyond_smul n e d l r hr] at hb
      exact (pos_right hb hr)
    · right
      rw [hv, show r • l = (-r) • (-l) by ext <;> simp, beyond_smul n e d (-l) (-r) (by linarith)] at hb
      exact (pos_right hb (by linarith))
  -- an axis orthogonal to two of the vectors
  have two : ∀ (v : V3) (k l : Fin 6), 0 < beyond n e d v → v.dot (n k) = 0 → v.dot (n l) = 0 → (n k).cross (n l) ≠ 0 →
      ∃ l ∈ boxAxes a b c a' b' c', 0 < beyond n e d l ∨ 0 < beyond n e d (-l) := by
    intro v k l hb hk hl hne
    have cr : ∀ p q : V3, v.dot p = 0 → v.dot q = 0 → p.cross q ≠ 0 → p.cross q ∈ boxAxes a b c a' b' c' →
        ∃ l ∈ boxAxes a b c a' b' c', 0 < beyond n e d l ∨ 0 < beyond n e d (-l) := by
      intro p q hp hq hc hm
      obtain ⟨r, hr⟩ := V3.parallel_of_perp hc hp hq
      exact scale v _ r hr hm hb
    have cr' : ∀ p q : V3, v.dot p = 0 → v.dot q = 0 → p.cross q ≠ 0 → q.cross p ∈ boxAxes a b c a' b' c' →
        ∃ l ∈ boxAxes a b c a' b' c', 0 < beyond n e d l ∨ 0 < beyond n e d (-l) := by
      intro p q hp hq hc hm
      refine cr q p hq hp (fun h0 => hc ?_) hm
      rw [V3.ext_iff] at h0 ⊢
      simp only [V3.cross_x, V3.cross_y, V3.cross_z, V3.zero_x, V3.zero_y, V3.zero_z] at h0 ⊢
      exact ⟨by linarith [h0.1], by linarith [h0.2.1], by linarith [h0.2.2]⟩
    have fa : ∀ x y z : V3, Orthonormal x y z → v.dot x = 0 → v.dot y = 0 → z ∈ boxAxes a b c a' b' c' →
        ∃ l ∈ boxAxes a b c a' b' c', 0 < beyond n e d l ∨ 0 < beyond n e d (-l) := by
      intro x y z hxyz hx hy hz
      refine scale v z (v.dot z) ?_ hz hb
      have := Orthonormal.expand hxyz v
      rw [hx, hy] at this
      conv_lhs => rw [this]
      ext <;> simp
    have self : ∀ p : V3, p.cross p = 0 := fun p => by ext <;> simp <;> ring
    have r1 : Orthonormal b c a := ⟨h.2.1, h.2.2.1, h.1, o3, by rw [V3.dot_comm]; exact o1, by rw [V3.dot_comm]; exact o2⟩
    have r2 : Orthonormal a c b := ⟨h.1, h.2.2.1, h.2.1, o2, o1, by rw [V3.dot_comm]; exact o3⟩
    have r1' : Orthonormal b' c' a' := ⟨h'.2.1, h'.2.2.1, h'.1, o3', by rw [V3.dot_comm]; exact o1', by rw [V3.dot_comm]; exact o2'⟩
    have r2' : Orthonormal a' c' b' := ⟨h'.1, h'.2.2.1, h'.2.1, o2', o1', by rw [V3.dot_comm]; exact o3'⟩
    fin_cases k <;> fin_cases l <;> simp only [hn, Fin.zero_eta, Fin.mk_one, Fin.reduceFinMk, Matrix.cons_val] at hk hl hne <;> first
      | exact absurd (self _) hne
      | exact fa _ _ _ h hk hl (by simp [boxAxes])
      | exact fa _ _ _ h hl hk (by simp [boxAxes])
      | exact fa _ _ _ r1 hk hl (by simp [boxAxes])
      | exact fa _ _ _ r1 hl hk (by simp [boxAxes])
      | exact fa _ _ _ r2 hk hl (by simp [boxAxes])
      | exact fa _ _ _ r2 hl hk (by simp [boxAxes])
      | exact fa _ _ _ h' hk hl (by simp [boxAxes])
      | exact fa _ _ _ h' hl hk (by simp [boxAxes])
      | exact fa _ _ _ r1' hk hl (by simp [boxAxes])
      | exact fa _ _ _ r1' hl hk (by simp [boxAxes])
      | exact fa _ _ _ r2' hk hl (by simp [boxAxes])
      | exact fa _ _ _ r2' hl hk (by simp [boxAxes])
      | (refine cr _ _ hk hl hne ?_; simp [boxAxes]; done)
      | (refine cr' _ _ hk hl hne ?_; simp [boxAxes]; done)
  -- for each vector a tried axis orthogonal to it, itself one of the vectors
  have orth : ∀ k : Fin 6, ∃ j : Fin 6, n j ∈ boxAxes a b c a' b' c' ∧ (n j).dot (n k) = 0 ∧ (n j).dot (n j) = 1 ∧ n k ≠ 0 := by
    have ne : ∀ p : V3, p.dot p = 1 → p ≠ 0 := fun p hp h0 => by rw [h0] at hp; simp [V3.dot] at hp
    intro k
    fin_cases k
    · exact ⟨1, by simp [hn, boxAxes], by rw [V3.dot_comm]; exact o1, n2, ne _ n1⟩
    · exact ⟨0, by simp [hn, boxAxes], o1, n1, ne _ n2⟩
    · exact ⟨0, by simp [hn, boxAxes], o2, n1, ne _ n3⟩
    · exact ⟨4, by simp [hn, boxAxes], by rw [V3.dot_comm]; exact o1', n2', ne _ n1'⟩
    · exact ⟨3, by simp [hn, boxAxes], o1', n1', ne _ n2'⟩
    · exact ⟨3, by simp [hn, boxAxes], o2', n1', ne _ n3'⟩
  rcases beyond_step n e d u c hu ⟨2, by change c.dot c ≠ 0; rw [n3]; exact one_ne_zero⟩ with hb | hb | ⟨s, k, hb, -, hk⟩
  · exact ⟨c, by simp [boxAxes], .inl hb⟩
  · exact ⟨c, by simp [boxAxes], .inr hb⟩
  obtain ⟨j, hj, hjk, hjj, hk0⟩ := orth k
  rcases beyond_step n e d _ (n j) hb ⟨j, by rw [hjj]; exact one_ne_zero⟩ with hb2 | hb2 | ⟨s2, l, hb2, hl, hl2⟩
  · exact ⟨_, hj, .inl hb2⟩
  · exact ⟨_, hj, .inr hb2⟩
  refine two _ k l hb2 ?_ hl2 ?_
  · have : ∀ x y z : V3, (x + s2 • y).dot z = x.dot z + s2 * y.dot z := fun x y z => by
      simp only [V3.dot, V3.add_x, V3.add_y, V3.add_z, V3.smul_x, V3.smul_y, V3.smul_z]; ring
    rw [this, hk, hjk]; ring
  · intro hc
    rw [(V3.cross_eq_zero_iff hk0).1 (V3.normSq_eq_zero.2 hc), V3.dot_smul, hjk, mul_zero] at hl
    exact hl rfl

end Verif
