import Verif.Model.Heap
import Mathlib.Order.Disjoint
import Mathlib.Data.Set.Disjoint
import Mathlib.Data.Set.Insert

/-!
# Values of composites

What a list of objects in memory is worth: a forest of values. `Holds h t as F` says that the objects at the addresses `as` are worth the forest `t`, that their storage is exactly the set `F` of
addresses, and that no address is used twice.
-/

namespace Verif.Spec

open Verif.Heap

/-- a list of nested objects: a plain object or a composite with its members, followed by the rest of the list -/
inductive Forest (L : Type) where
  | nil
  | leaf (v : L) (rest : Forest L)
  | node (defined : Bool) (members : Forest L) (rest : Forest L)

namespace Forest

variable {L : Type}

/-- two lists one after the other -/
def append : Forest L → Forest L → Forest L
  | nil, s => s
  | leaf v r, s => leaf v (append r s)
  | node d m r, s => node d m (append r s)

/-- the same nesting with other plain objects -/
def map (g : L → L) : Forest L → Forest L
  | nil => nil
  | leaf v r => leaf (g v) (map g r)
  | node d m r => node d (map g m) (map g r)

/-- every composite is flagged as defined and every plain object is defined -/
def allOk (ok : L → Bool) : Forest L → Bool
  | nil => true
  | leaf v r => ok v && allOk ok r
  | node d m r => d && allOk ok m && allOk ok r

/-- what a transformation makes of a list of objects: one after the other until one refuses it; a composite refuses it at once if it or something inside it is undefined -/
def transform (ok : L → Bool) (g : L → Res L) : Forest L → Forest L × Res Unit
  | nil => (.nil, .ok ())
  | leaf v r =>
    match g v with
    | .error e => (.leaf v r, .error e)
    | .ok w => (.leaf w (transform ok g r).1, (transform ok g r).2)
  | node d m r =>
    if d && m.allOk ok then
      match transform ok g m with
      | (m', .error e) => (.node d m' r, .error e)
      | (m', .ok ()) => (.node d m' (transform ok g r).1, (transform ok g r).2)
    else (.node d m r, .error .undefined)

/-- how deep the nesting is -/
def depth : Forest L → ℕ
  | nil => 0
  | leaf _ r => max 1 (depth r)
  | node _ m r => max (depth m + 1) (depth r)

end Forest

variable {L : Type}

/-- the objects at `as` are worth `t` and are stored in `F` -/
def Holds (h : Heap L) : Forest L → List ℕ → Set ℕ → Prop
  | .nil, as, F => as = [] ∧ F = ∅
  | .leaf v r, as, F => ∃ a as' G, as = a :: as' ∧ h.cell a = some (.leaf v) ∧ Holds h r as' G ∧ a ∉ G ∧ F = insert a G
  | .node d m r, as, F => ∃ a as' bs K G, as = a :: as' ∧ h.cell a = some (.comp d bs) ∧ Holds h m bs K ∧ Holds h r as' G ∧ a ∉ K ∧ a ∉ G ∧ Disjoint K G ∧ F = insert a (K ∪ G)

/-- the addresses never used are free -/
def Fresh (h : Heap L) : Prop := ∀ x, h.next ≤ x → h.cell x = none

end Verif.Spec
