import Verif.Model.Linear2
import Verif.Lemmas.Points

/-!
# The plane inside the space

Facts about 2D lines and segments follow from those in 3D.
-/

namespace Verif

open Spec

set_option linter.flexible false

namespace V2

/-- the point of the plane `z = 0` -/
def lift (v : V2) : V3 := ⟨v.x, v.y, 0⟩

theorem lift_sub (u v : V2) : (u - v).lift = u.lift - v.lift := by ext <;> simp [lift]
theorem lift_add (u v : V2) : (u + v).lift = u.lift + v.lift := by ext <;> simp [lift]
theorem lift_neg (u : V2) : (-u).lift = -u.lift := by ext <;> simp [lift]
theorem lift_smul (k : ℝ) (u : V2) : (k • u).lift = k • u.lift := by ext <;> simp [lift]
theorem lift_dot (u v : V2) : u.lift.dot v.lift = u.dot v := by simp [lift, dot, V3.dot]
theorem lift_normSq (u : V2) : u.lift.normSq = u.normSq := lift_dot u u
theorem lift_norm (u : V2) : u.lift.norm = u.norm := by rw [V3.norm, lift_normSq, norm]
theorem lift_injective {u v : V2} (h : u.lift = v.lift) : u = v := by
  have hx := congrArg V3.x h
  have hy := congrArg V3.y h
  ext
  · exact hx
  · exact hy
theorem lift_inj {u v : V2} : u.lift = v.lift ↔ u = v := ⟨lift_injective, fun h => h ▸ rfl⟩
theorem lift_normalized (u : V2) : u.normalized.lift = u.lift.normalized := by
  simp only [normalized, V3.normalized, lift_normSq, lift_norm]
  split
  · rw [lift_smul]
  · rfl

end V2

theorem lift_eq (p q : V2) : P3.eq (some p.lift) (some q.lift) = P2.eq (some p) (some q) := by
  rw [Bool.eq_iff_iff, P3.eq_iff, P2.eq_iff, V2.lift_inj]

theorem mem_segSet2 {a b p : V2} : p ∈ SegSet2 a b ↔ p.lift ∈ SegSet a.lift b.lift := by
  constructor
  · rintro ⟨t, t0, t1, rfl⟩
    exact ⟨t, t0, t1, by rw [V2.lift_add, V2.lift_smul, V2.lift_sub]⟩
  · rintro ⟨t, t0, t1, h⟩
    refine ⟨t, t0, t1, V2.lift_injective ?_⟩
    rw [h, V2.lift_add, V2.lift_smul, V2.lift_sub]

theorem segSet_lift {a b : V2} {q : V3} (h : q ∈ SegSet a.lift b.lift) : ∃ r ∈ SegSet2 a b, q = r.lift := by
  obtain ⟨t, t0, t1, rfl⟩ := h
  exact ⟨a + t • (b - a), ⟨t, t0, t1, rfl⟩, by rw [V2.lift_add, V2.lift_smul, V2.lift_sub]⟩

theorem mem_lineSet2 {o d p : V2} : p ∈ LineSet2 o d ↔ p.lift ∈ LineSet o.lift d.lift := by
  constructor
  · rintro ⟨t, rfl⟩
    exact ⟨t, by rw [V2.lift_add, V2.lift_smul]⟩
  · rintro ⟨t, h⟩
    refine ⟨t, V2.lift_injective ?_⟩
    rw [h, V2.lift_add, V2.lift_smul]

theorem lineSet_lift {o d : V2} {q : V3} (h : q ∈ LineSet o.lift d.lift) : ∃ r ∈ LineSet2 o d, q = r.lift := by
  obtain ⟨t, rfl⟩ := h
  exact ⟨o + t • d, ⟨t, rfl⟩, by rw [V2.lift_add, V2.lift_smul]⟩

theorem lineSet2_eq {o d o' d' : V2} : LineSet2 o d = LineSet2 o' d' ↔ LineSet o.lift d.lift = LineSet o'.lift d'.lift := by
  constructor
  · intro h
    ext q
    constructor
    · intro hq; obtain ⟨r, hr, rfl⟩ := lineSet_lift hq; rw [h] at hr; exact mem_lineSet2.1 hr
    · intro hq; obtain ⟨r, hr, rfl⟩ := lineSet_lift hq; rw [← h] at hr; exact mem_lineSet2.1 hr
  · intro h
    ext p
    rw [mem_lineSet2, mem_lineSet2, h]

theorem isDistance2_of {s : Set V2} {S : Set V3} (h1 : ∀ p, p ∈ s → p.lift ∈ S) (h2 : ∀ q ∈ S, ∃ r ∈ s, q = r.lift) {p : V2} {d : ℝ}
    (h : IsDistance S p.lift d) : IsDistance2 s p d := by
  obtain ⟨⟨q, hq, hd⟩, hm⟩ := h
  obtain ⟨r, hr, rfl⟩ := h2 q hq
  refine ⟨⟨r, hr, by rw [← hd, ← V2.lift_sub, V2.lift_norm]⟩, fun x hx => ?_⟩
  have := hm _ (h1 x hx)
  rwa [← V2.lift_sub, V2.lift_norm] at this

theorem isDistance2_unique {s : Set V2} {p : V2} {d d' : ℝ} (h : IsDistance2 s p d) (h' : IsDistance2 s p d') : d = d' := by
  obtain ⟨⟨q, hq, e⟩, hm⟩ := h
  obtain ⟨⟨q', hq', e'⟩, hm'⟩ := h'
  exact le_antisymm (e' ▸ hm q' hq') (e ▸ hm' q hq)

theorem seg2_contains (a b p : V2) : Seg2.contains ⟨some a, some b⟩ (some p) = Seg3.contains ⟨some a.lift, some b.lift⟩ (some p.lift) := by
  simp only [Seg2.contains, Seg3.contains, need, bind, Except.bind, pure, Except.pure, lift_eq, ← V2.lift_sub]
  rfl

theorem seg2_distanceTo (a b p : V2) : Seg2.distanceTo ⟨some a, some b⟩ (some p) = Seg3.distanceTo ⟨some a.lift, some b.lift⟩ (some p.lift) := by
  simp only [Seg2.distanceTo, Seg3.distanceTo, need, bind, Except.bind, pure, Except.pure, lift_eq, ← V2.lift_sub, V2.lift_dot, V2.lift_normSq,
    ← V2.lift_smul, ← V2.lift_add, V2.lift_norm]

end Verif
