import Verif.Model.Gte
import Verif.Lemmas.Linear3

/-!
# What the assumed library queries compute
-/

namespace Verif

open Spec

set_option linter.flexible false

theorem mem_sphereSet {p c : V3} {r : ℝ} : p ∈ SphereSet c r ↔ (p - c).normSq - r * r = 0 := by
  show (p - c).norm = |r| ↔ _
  rw [← abs_of_nonneg (p - c).norm_nonneg, ← sq_eq_sq_iff_abs_eq_abs, V3.norm_sq]
  constructor <;> intro h <;> linarith [sq r]

namespace Gte

/-- how far the point with parameter `t` is outside of the sphere -/
def out (o d c : V3) (r t : ℝ) : ℝ := (o + t • d - c).normSq - r * r

theorem out_eq (o d c : V3) (r t : ℝ) (hd : d.normSq = 1) :
    out o d c r t = t ^ 2 + 2 * d.dot (o - c) * t + ((o - c).dot (o - c) - r * r) := by
  have : (o + t • d - c).normSq = (o - c).dot (o - c) + 2 * t * d.dot (o - c) + t ^ 2 * d.normSq := by
    simp only [V3.normSq, V3.dot, V3.sub_x, V3.sub_y, V3.sub_z, V3.add_x, V3.add_y, V3.add_z, V3.smul_x, V3.smul_y, V3.smul_z]; ring
  rw [out, this, hd]; ring

theorem lineSphere_spec (o d c : V3) (r : ℝ) (hd : d.normSq = 1) :
    (lineSphere o d c r = [] ∧ ∀ t, 0 < out o d c r t) ∨
    (∃ a, lineSphere o d c r = [a] ∧ ∀ t, out o d c r t = (t - a) * (t - a)) ∨
    (∃ a b, lineSphere o d c r = [a, b] ∧ a < b ∧ ∀ t, out o d c r t = (t - a) * (t - b)) := by
  set a1 := d.dot (o - c) with h1
  set a0 := (o - c).dot (o - c) - r * r with h0
  have e : ∀ t, out o d c r t = t ^ 2 + 2 * a1 * t + a0 := fun t => out_eq o d c r t hd
  have el : lineSphere o d c r = if a1 * a1 - a0 > 0 then [-a1 - Real.sqrt (a1 * a1 - a0), -a1 + Real.sqrt (a1 * a1 - a0)]
    else if a1 * a1 - a0 < 0 then [] else [-a1] := rfl
  rcases lt_trichotomy (a1 * a1 - a0) 0 with h | h | h
  · left
    refine ⟨by rw [el, if_neg (by linarith), if_pos h], fun t => ?_⟩
    rw [e]; nlinarith [sq_nonneg (t + a1)]
  · right; left
    refine ⟨-a1, by rw [el, if_neg (by linarith), if_neg (by linarith)], fun t => ?_⟩
    rw [e]; linear_combination -h
  · right; right
    refine ⟨_, _, by rw [el, if_pos h], by linarith [Real.sqrt_pos.2 h], fun t => ?_⟩
    have := Real.mul_self_sqrt h.le
    rw [e]; linear_combination this

/-- parameters between the two ends -/
def Within (lo : ℝ) (hi : Option ℝ) (t : ℝ) : Prop := lo ≤ t ∧ ∀ h, hi = some h → t ≤ h

/-- What is left of the points cut out by the sphere, with `f` the function `out` and parameters between `lo` and `hi`. -/
def Cut (f : ℝ → ℝ) (lo : ℝ) (hi : Option ℝ) (ts : List ℝ) : Prop :=
  (ts = [] ∧ ∀ t, Within lo hi t → 0 < f t) ∨
  (∃ a, ts = [a] ∧ Within lo hi a ∧ (f a = 0 ∨ a = lo ∧ hi = some lo) ∧ ∀ t, Within lo hi t → f t = 0 → t = a) ∨
  (∃ a b, ts = [a, b] ∧ a < b ∧ Within lo hi a ∧ Within lo hi b ∧ (f a = 0 ∨ f a < 0 ∧ a = lo) ∧ (f b = 0 ∨ f b < 0 ∧ hi = some b) ∧
    ∀ t, Within lo hi t → f t = 0 → t = a ∨ t = b)

theorem overlap_cut {f : ℝ → ℝ} {a b : ℝ} (hab : a ≤ b) (hf : ∀ t, f t = (t - a) * (t - b)) (lo : ℝ) (hi : Option ℝ)
    (hl : ∀ h, hi = some h → lo ≤ h) : Cut f lo hi (overlap a b lo hi) := by
  have root : ∀ t, f t = 0 → t = a ∨ t = b := by
    intro t ht
    rw [hf, mul_eq_zero] at ht
    rcases ht with ht | ht
    · left; linarith
    · right; linarith
  have inside : ∀ t, f t ≤ 0 → a ≤ t ∧ t ≤ b := by
    intro t ht
    rw [hf] at ht
    constructor <;> by_contra hh <;> push Not at hh <;> nlinarith
  have inside' : ∀ t, a ≤ t → t ≤ b → f t ≤ 0 := by
    intro t h1 h2
    rw [hf]; nlinarith
  have fa : f a = 0 := by rw [hf]; ring
  have fb : f b = 0 := by rw [hf]; ring
  have neg : ∀ t, a ≤ t → t ≤ b → f t = 0 ∨ f t < 0 := fun t h1 h2 => (inside' t h1 h2).eq_or_lt
  cases hi with
  | none =>
    have e : overlap a b lo none = if b < max a lo then [] else if max a lo = b then [max a lo] else [max a lo, b] := rfl
    rw [e]
    split_ifs with h1 h2
    · left
      refine ⟨rfl, fun t ht => ?_⟩
      by_contra hn
      obtain ⟨ia, ib⟩ := inside t (by linarith)
      have := max_le ia ht.1
      linarith
    · right; left
      refine ⟨_, rfl, ⟨le_max_right _ _, by simp⟩, Or.inl (by rw [h2, fb]), fun t ht h0 => ?_⟩
      obtain ⟨ia, ib⟩ := inside t h0.le
      have := max_le ia ht.1
      linarith
    · right; right
      have hlt : max a lo < b := lt_of_le_of_ne (not_lt.1 h1) h2
      refine ⟨_, _, rfl, hlt, ⟨le_max_right _ _, by simp⟩, ⟨(le_max_right _ _).trans hlt.le, by simp⟩, ?_, Or.inl fb, fun t ht h0 => ?_⟩
      · rcases max_cases a lo with ⟨e, _⟩ | ⟨e, h⟩
        · left; rw [e, fa]
        · rw [e]; rcases neg lo h.le (by linarith) with k | k
          · exact Or.inl k
          · exact Or.inr ⟨k, rfl⟩
      · rcases root t h0 with rfl | rfl
        · left; exact (max_eq_left ht.1).symm
        · right; rfl
  | some h =>
    have hlh := hl h rfl
    have e : overlap a b lo (some h) = if min b h < max a lo then [] else if max a lo = min b h then [max a lo] else [max a lo, min b h] := rfl
    rw [e]
    have wi : ∀ t, Within lo (some h) t ↔ lo ≤ t ∧ t ≤ h := fun t => by simp [Within]
    split_ifs with h1 h2
    · left
      refine ⟨rfl, fun t ht => ?_⟩
      rw [wi] at ht
      by_contra hn
      obtain ⟨ia, ib⟩ := inside t (by linarith)
      have := max_le ia ht.1
      have := le_min ib ht.2
      linarith
    · right; left
      have k1 : max a lo ≤ h := h2 ▸ min_le_right _ _
      have k2 : max a lo ≤ b := h2 ▸ min_le_left _ _
      refine ⟨_, rfl, (wi _).2 ⟨le_max_right _ _, k1⟩, ?_, fun t ht h0 => ?_⟩
      · rcases max_cases a lo with ⟨e1, _⟩ | ⟨e1, hh⟩
        · left; rw [e1, fa]
        · rcases min_cases b h with ⟨e2, _⟩ | ⟨e2, _⟩
          · left; rw [h2, e2, fb]
          · right; exact ⟨e1, by rw [← e1, h2, e2]⟩
      · rw [wi] at ht
        obtain ⟨ia, ib⟩ := inside t h0.le
        have := max_le ia ht.1
        have := le_min ib ht.2
        linarith
    · right; right
      have hlt : max a lo < min b h := lt_of_le_of_ne (not_lt.1 h1) h2
      have l1 := hlt.le.trans (min_le_left b h)
      have l2 := hlt.le.trans (min_le_right b h)
      have l3 := (le_max_left a lo).trans hlt.le
      have l4 := (le_max_right a lo).trans hlt.le
      refine ⟨_, _, rfl, hlt, (wi _).2 ⟨le_max_right _ _, l2⟩, (wi _).2 ⟨l4, min_le_right _ _⟩, ?_, ?_, fun t ht h0 => ?_⟩
      · rcases neg _ (le_max_left a lo) l1 with k | k
        · exact Or.inl k
        · rcases max_cases a lo with ⟨e1, _⟩ | ⟨e1, hh⟩
          · left; rw [e1, fa]
          · exact Or.inr ⟨k, e1⟩
      · rcases neg _ l3 (min_le_left b h) with k | k
        · exact Or.inl k
        · rcases min_cases b h with ⟨e1, _⟩ | ⟨e1, hh⟩
          · left; rw [e1, fb]
          · exact Or.inr ⟨k, by rw [e1]⟩
      · rw [wi] at ht
        rcases root t h0 with rfl | rfl
        · left; exact (max_eq_left ht.1).symm
        · right; exact (min_eq_left ht.2).symm

theorem clip_cut (o d c : V3) (r : ℝ) (hd : d.normSq = 1) (lo : ℝ) (hi : Option ℝ) (hl : ∀ h, hi = some h → lo ≤ h) :
    Cut (out o d c r) lo hi (clip (lineSphere o d c r) lo hi) := by
  rcases lineSphere_spec o d c r hd with ⟨e, h⟩ | ⟨a, e, h⟩ | ⟨a, b, e, hab, h⟩ <;> rw [e]
  · exact Or.inl ⟨rfl, fun t _ => h t⟩
  · exact overlap_cut le_rfl h lo hi hl
  · exact overlap_cut hab.le h lo hi hl

theorem raySphere_cut (o d c : V3) (r : ℝ) (hd : d.normSq = 1) : Cut (out o d c r) 0 none (raySphere o d c r) :=
  clip_cut o d c r hd 0 none (by simp)

/-- the same for segments, degenerate ones included -/
theorem segmentSphere_cut (a b c : V3) (r : ℝ) :
    Cut (out (centred a b).1 (centred a b).2.1 c r) (-(centred a b).2.2) (some (centred a b).2.2) (segmentSphere a b c r) := by
  by_cases h : a = b
  · subst h
    have ez : (a - a).normSq = 0 := by simp [V3.normSq, V3.dot]
    have e0 : (a - a).norm = 0 := by rw [V3.norm, ez, Real.sqrt_zero]
    have hm : (centred a a).1 = a := by ext <;> simp [centred] <;> ring
    have hd : (centred a a).2.1 = 0 := by
      show (a - a).normalized = 0
      rw [V3.normalized, if_neg (by simp [ez])]; ext <;> simp
    have he : (centred a a).2.2 = 0 := by show 1 / 2 * (a - a).norm = 0; rw [e0, mul_zero]
    have hs : segmentSphere a a c r = clip (lineSphere a 0 c r) (-0) (some 0) := by
      rw [show segmentSphere a a c r = clip (lineSphere (centred a a).1 (centred a a).2.1 c r) (-(centred a a).2.2) (some (centred a a).2.2) from rfl,
        hm, hd, he]
    rw [hm, hd, he, hs, neg_zero]
    set k := (a - c).dot (a - c) - r * r with hk
    have ho : ∀ t, out a 0 c r t = k := by
      intro t
      have : a + t • (0 : V3) - c = a - c := by ext <;> simp
      rw [out, this]; rfl
    have hl : lineSphere a 0 c r = if -k > 0 then [-Real.sqrt (-k), Real.sqrt (-k)] else if -k < 0 then [] else [0] := by
      have z : (0 : V3).dot (a - c) = 0 := by simp [V3.dot]
      simp only [lineSphere, z, ← hk]
      norm_num
    have wi : ∀ t, Within 0 (some 0) t ↔ t = 0 := by
      intro t
      simp only [Within, Option.some.injEq]
      exact ⟨fun h => le_antisymm (h.2 0 rfl) h.1, fun h => by subst h; exact ⟨le_rfl, fun _ h => h.le⟩⟩
    rw [hl]
    split_ifs with h1 h2
    · right; left
      refine ⟨0, ?_, (wi 0).2 rfl, Or.inr ⟨rfl, rfl⟩, fun t ht _ => (wi t).1 ht⟩
      have s := (Real.sqrt_pos.2 h1).le
      simp only [clip, overlap]
      rw [max_eq_right (by linarith), min_eq_right s]
      simp
    · exact Or.inl ⟨rfl, fun t _ => by rw [ho]; linarith⟩
    · right; left
      refine ⟨0, by simp [clip, overlap], (wi 0).2 rfl, Or.inr ⟨rfl, rfl⟩, fun t ht _ => (wi t).1 ht⟩
  · have hn : (b - a).normalized.normSq = 1 := V3.normSq_normalized (lt_of_le_of_ne (V3.normSq_nonneg _) fun k =>
      h (V3.sub_eq_zero'.1 (V3.normSq_eq_zero.1 k.symm)).symm)
    refine clip_cut _ _ c r hn _ _ ?_
    intro x hx
    cases hx
    have := (b - a).norm_nonneg
    show -(1 / 2 * (b - a).norm) ≤ 1 / 2 * (b - a).norm
    linarith

theorem smul_norm (k : ℝ) (v : V3) : (k * v.norm) • v.normalized = k • v := by
  have hs : v.norm • v.normalized = v := V3.norm_smul_normalized _
  have hx := congrArg V3.x hs
  have hy := congrArg V3.y hs
  have hz := congrArg V3.z hs
  simp at hx hy hz
  ext <;> simp <;> rw [mul_assoc]
  · rw [hx]
  · rw [hy]
  · rw [hz]

/-- points of the segment are those with parameters of the centred form in range -/
theorem mem_centred {a b p : V3} : p ∈ SegSet a b ↔
    ∃ t, Within (-(centred a b).2.2) (some (centred a b).2.2) t ∧ p = (centred a b).1 + t • (centred a b).2.1 := by
  have hn := (b - a).norm_nonneg
  have wi : ∀ t, Within (-(centred a b).2.2) (some (centred a b).2.2) t ↔ -(1 / 2 * (b - a).norm) ≤ t ∧ t ≤ 1 / 2 * (b - a).norm :=
    fun t => by simp [Within, centred]
  have key : ∀ s : ℝ, a + s • (b - a) = (centred a b).1 + ((s - 1 / 2) * (b - a).norm) • (centred a b).2.1 := by
    intro s
    show a + s • (b - a) = (1 / 2 : ℝ) • (a + b) + ((s - 1 / 2) * (b - a).norm) • (b - a).normalized
    have e : ((s - 1 / 2) * (b - a).norm) • (b - a).normalized = (s - 1 / 2) • (b - a) := smul_norm _ _
    rw [e]; ext <;> simp <;> ring
  constructor
  · rintro ⟨s, h0, h1, rfl⟩
    exact ⟨_, (wi _).2 ⟨by nlinarith, by nlinarith⟩, key s⟩
  · rintro ⟨t, ht, rfl⟩
    rw [wi] at ht
    rcases hn.eq_or_lt with e | e
    · refine ⟨1 / 2, by norm_num, by norm_num, ?_⟩
      rw [key]
      have : t = 0 := by rw [← e] at ht; linarith [ht.1, ht.2]
      rw [this]; ring_nf
    · refine ⟨t / (b - a).norm + 1 / 2, ?_, ?_, ?_⟩
      · have : -(1 / 2) ≤ t / (b - a).norm := by rw [le_div_iff₀ e]; linarith
        linarith
      · have : t / (b - a).norm ≤ 1 / 2 := by rw [div_le_iff₀ e]; linarith
        linarith
      · rw [key]; congr 2; field_simp; ring

theorem centred_lo (a b : V3) : (centred a b).1 + (-(centred a b).2.2) • (centred a b).2.1 = a := by
  show (1 / 2 : ℝ) • (a + b) + (-(1 / 2 * (b - a).norm)) • (b - a).normalized = a
  have e : (-(1 / 2 * (b - a).norm)) • (b - a).normalized = (-(1 / 2) : ℝ) • (b - a) := by
    rw [← neg_mul, smul_norm]
  rw [e]; ext <;> simp <;> ring

theorem centred_hi (a b : V3) : (centred a b).1 + (centred a b).2.2 • (centred a b).2.1 = b := by
  show (1 / 2 : ℝ) • (a + b) + (1 / 2 * (b - a).norm) • (b - a).normalized = b
  have e : (1 / 2 * (b - a).norm) • (b - a).normalized = (1 / 2 : ℝ) • (b - a) := smul_norm _ _
  rw [e]; ext <;> simp <;> ring

end Gte

end Verif
