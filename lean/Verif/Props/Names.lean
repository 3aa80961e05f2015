import Verif.Model.Names
import Verif.Lemmas.PlaneText
import Verif.Props.EulerMore
import Verif.Props.PlaneText

/-! # C103: names and the texts of angles -/

namespace Verif.Props

open Verif Verif.Spec Verif.Names Verif.PlaneText

/-- different values have different names -/
def Distinct {T : Type} (name : T → Res String) : Prop := ∀ a b s, name a = .ok s → name b = .ok s → a = b

/-- every value has a name -/
def Total {T : Type} (name : T → Res String) : Prop := ∀ a, ∃ s, name a = .ok s

theorem distinct_of {T : Type} {name : T → Res String} (h : ∀ a b, name a = name b → (∃ s, name a = .ok s) → a = b) : Distinct name :=
  fun a b s ha hb => h a b (ha.trans hb.symm) ⟨s, ha⟩

/-- **C103.** The names of units, interval types, intersection types, transformation types, axis sequences, log types and stepper types
tell the value. -/
theorem C103_distinct : Distinct Names.unit ∧ Distinct symbol ∧ Distinct interval ∧ Distinct intersection2 ∧ Distinct intersection3 ∧
    Distinct transformation ∧ Distinct Names.sequence ∧ Distinct log ∧ Distinct stepper := by
  refine ⟨?_, ?_, ?_, ?_, ?_, ?_, ?_, ?_, ?_⟩ <;> refine distinct_of fun a b => ?_ <;> cases a <;> cases b <;>
    simp [Names.unit, symbol, interval, intersection2, intersection3, transformation, Names.sequence, log, stepper,
      NumSolver.stringFromLogType, NumSolver.stringFromStepperType]

/-- **C103.** Which values have a name: all but the undefined unit for symbols, the undefined axis sequence, and cuboids. -/
theorem C103_total_partial : Total Names.unit ∧ Total interval ∧ Total intersection2 ∧ Total transformation ∧ Total log ∧ Total stepper ∧
    (∀ u, (∃ s, symbol u = .ok s) ↔ u ≠ .undefined) ∧ (∀ q, (∃ s, Names.sequence q = .ok s) ↔ q ≠ .undefined) ∧
    ∀ t, (∃ s, intersection3 t = .ok s) ↔ t ≠ .cuboid := by
  refine ⟨?_, ?_, ?_, ?_, ?_, ?_, ?_, ?_, ?_⟩ <;> intro a <;> cases a <;>
    simp [Names.unit, symbol, interval, intersection2, intersection3, transformation, Names.sequence, log, stepper,
      NumSolver.stringFromLogType, NumSolver.stringFromStepperType]

/-- **C103.** An intersection that is a cuboid has a type but the type has no name: printing it throws. -/
theorem C103_cuboid_violated (c : Cuboid3) : IType3.ofObject (.cuboid c) = .cuboid ∧ intersection3 (IType3.ofObject (.cuboid c)) = .error .wrong :=
  ⟨rfl, rfl⟩

/-- **C103.** A defined angle has a text, which tells its unit and the text of its value; an undefined angle has none. -/
theorem C103_angle {num : ℝ → List Char} (hb : Bare num) (a b : Angle) :
    ((∃ s, angleToString num a = .ok s) ↔ a.isDefined = true) ∧ (a.isDefined = false → angleToString num a = .error .undefined) ∧
    ∀ s, angleToString num a = .ok s → angleToString num b = .ok s →
      a.unit = b.unit ∧ ∃ v w, a.value = some v ∧ b.value = some w ∧ num v = num w := by
  have key : ∀ a : Angle, a.isDefined = true → ∃ v n, a.value = some v ∧ symbol a.unit = .ok n ∧
      angleToString num a = .ok (num v ++ ' ' :: ('[' :: (n.toList ++ [']']))) := by
    rintro ⟨v, u⟩ h
    cases v with
    | none => simp [Angle.isDefined] at h
    | some v =>
      have hu : u ≠ .undefined := by simpa [Angle.isDefined] using h
      obtain ⟨n, hn⟩ := (C103_total_partial.2.2.2.2.2.2.1 u).2 hu
      refine ⟨v, n, rfl, hn, ?_⟩
      simp [angleToString, h, hn, bind, Except.bind]
  have err : ∀ a : Angle, a.isDefined = false → angleToString num a = .error .undefined := by
    intro a h
    simp [angleToString, h]
  refine ⟨⟨?_, fun h => ?_⟩, err a, ?_⟩
  · rintro ⟨s, h⟩
    by_contra hd
    rw [err a (by simpa using hd)] at h
    cases h
  · obtain ⟨v, n, -, -, h⟩ := key a h
    exact ⟨_, h⟩
  · intro s ha hb'
    have da : a.isDefined = true := by
      by_contra hd
      rw [err a (by simpa using hd)] at ha
      cases ha
    have db : b.isDefined = true := by
      by_contra hd
      rw [err b (by simpa using hd)] at hb'
      cases hb'
    obtain ⟨v, n, hv, hn, h1⟩ := key a da
    obtain ⟨w, m, hw, hm, h2⟩ := key b db
    rw [h1, Except.ok.injEq] at ha
    rw [h2, Except.ok.injEq] at hb'
    rw [← hb'] at ha
    obtain ⟨h3, h4⟩ := split_at (bare_not hb v (by decide)) (bare_not hb w (by decide)) ha
    have h5 : n.toList = m.toList := List.append_cancel_right (List.cons.inj h4).2
    have h6 : n = m := String.toList_inj.1 h5
    subst h6
    exact ⟨C103_distinct.2.1 _ _ _ hn hm, v, w, hv, hw, h3⟩

/-- **C103.** Defined Euler angles have a text in every unit but the undefined one; it tells the axis sequence and the texts of the three
angles in the unit. -/
theorem C103_euler {num : ℝ → List Char} (hb : Bare num) (e f : Euler) (u : AUnit) :
    (e.isDefined = true → u ≠ .undefined → ∃ s, eulerToString num e u = .ok s) ∧
    (e.isDefined = false → eulerToString num e u = .error .undefined) ∧
    ∀ s, eulerToString num e u = .ok s → eulerToString num f u = .ok s →
      e.sequence = f.sequence ∧ ∃ v w, e.toVector u = .ok v ∧ f.toVector u = .ok w ∧
        num v.x = num w.x ∧ num v.y = num w.y ∧ num v.z = num w.z := by
  have err : ∀ e : Euler, e.isDefined = false → eulerToString num e u = .error .undefined := fun e h => by simp [eulerToString, h]
  have key : ∀ (e : Euler) (s : List Char), eulerToString num e u = .ok s → ∃ v n, e.toVector u = .ok v ∧ Names.sequence e.sequence = .ok n ∧
      s = '[' :: (num v.x ++ ',' :: (' ' :: (num v.y ++ ',' :: (' ' :: (num v.z ++ ']' :: (' ' :: '(' :: (n.toList ++ [')']))))))) := by
    intro e s h
    cases hd : e.isDefined with
    | false =>
      rw [err e hd] at h
      cases h
    | true =>
      simp only [eulerToString, hd, Bool.not_true, Bool.false_eq_true, if_false] at h
      cases h1 : e.phi.inUnit u with
      | error x => simp [h1, bind, Except.bind] at h
      | ok a =>
        cases h2 : e.theta.inUnit u with
        | error x => simp [h1, h2, bind, Except.bind] at h
        | ok b =>
          cases h3 : e.psi.inUnit u with
          | error x => simp [h1, h2, h3, bind, Except.bind] at h
          | ok c =>
            cases h4 : Names.sequence e.sequence with
            | error x => simp [h1, h2, h3, h4, bind, Except.bind] at h
            | ok n =>
              refine ⟨⟨a, b, c⟩, n, by simp [Euler.toVector, hd, h1, h2, h3, bind, Except.bind, pure, Except.pure], rfl, ?_⟩
              simp only [h1, h2, h3, h4, bind, Except.bind, Except.ok.injEq] at h
              rw [← h]
              simp
  refine ⟨fun hd hu => ?_, err e, fun s h1 h2 => ?_⟩
  · obtain ⟨v, -, -, -, hv, -⟩ := C100_roundtrip e hd u hu
    have hs : e.sequence ≠ .undefined := by
      simp only [Euler.isDefined, Bool.and_eq_true, decide_eq_true_eq] at hd
      exact hd.2
    obtain ⟨n, hn⟩ := (C103_total_partial.2.2.2.2.2.2.2.1 _).2 hs
    simp only [Euler.toVector, hd, Bool.not_true, Bool.false_eq_true, if_false] at hv
    simp only [eulerToString, hd, Bool.not_true, Bool.false_eq_true, if_false]
    cases h1 : e.phi.inUnit u with
    | error x => simp [h1, bind, Except.bind] at hv
    | ok a =>
      cases h2 : e.theta.inUnit u with
      | error x => simp [h1, h2, bind, Except.bind] at hv
      | ok b =>
        cases h3 : e.psi.inUnit u with
        | error x => simp [h1, h2, h3, bind, Except.bind] at hv
        | ok c => simp [hn, bind, Except.bind]
  · obtain ⟨v, n, hv, hn, e1⟩ := key e s h1
    obtain ⟨w, m, hw, hm, e2⟩ := key f s h2
    rw [e1] at e2
    have b := fun x => bare_not hb x (show ',' ∈ [' ', ',', '(', ')', '[', ']', '>'] by decide)
    have b' := fun x => bare_not hb x (show ']' ∈ [' ', ',', '(', ')', '[', ']', '>'] by decide)
    obtain ⟨x1, r1⟩ := split_at (b _) (b _) (List.cons.inj e2).2
    obtain ⟨x2, r2⟩ := split_at (b _) (b _) (List.cons.inj r1).2
    obtain ⟨x3, r3⟩ := split_at (b' _) (b' _) (List.cons.inj r2).2
    have h5 : n.toList = m.toList := List.append_cancel_right (List.cons.inj (List.cons.inj r3).2).2
    have h6 : n = m := String.toList_inj.1 h5
    subst h6
    exact ⟨C103_distinct.2.2.2.2.2.2.1 _ _ _ hn hm, v, w, hv, hw, x1, x2, x3⟩

example : Bare (fun x : ℝ => Text.fixedText 3 ⌊x * 1000⌋) := fun _ => bare_fixedText 3 _

end Verif.Props
