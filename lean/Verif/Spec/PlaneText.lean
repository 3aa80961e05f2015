import Verif.Model.Err

/-! # What the text of an object is meant to tell -/

namespace Verif.Spec

variable {α : Type}

/-- numbers are printed without spaces, brackets, commas and arrows -/
def Bare (num : α → List Char) : Prop := ∀ x, ∀ c ∈ num x, c ∉ [' ', ',', '(', ')', '[', ']', '>']

/-- two points print the same -/
def SamePoint (num : α → List Char) (p q : α × α) : Prop := num p.1 = num q.1 ∧ num p.2 = num q.2

/-- two defined points print the same -/
def SameText (num : α → List Char) (p q : Option (α × α)) : Prop := ∃ a b, p = some a ∧ q = some b ∧ SamePoint num a b

end Verif.Spec
