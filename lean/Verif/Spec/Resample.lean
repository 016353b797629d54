import Verif.Spec.Marks

/-!
# What a resampled map contains
-/

namespace Verif.Spec

/-- The centre of a cell in the grid frame. -/
noncomputable def cellCentre (res : ℝ) (i : Idx) : V3 ℝ :=
  ⟨((i.x : ℝ) + 1 / 2) * res, ((i.y : ℝ) + 1 / 2) * res, ((i.z : ℝ) + 1 / 2) * res⟩

/-- The location is in the cube of cell `i`, at least a thousandth of a cell from its faces. -/
def DeepInCube (res : ℝ) (i : Idx) (q : V3 ℝ) : Prop :=
  (i.x * res + res / 1000 ≤ q.x ∧ q.x ≤ (i.x + 1) * res - res / 1000) ∧
    (i.y * res + res / 1000 ≤ q.y ∧ q.y ≤ (i.y + 1) * res - res / 1000) ∧
    i.z * res + res / 1000 ≤ q.z ∧ q.z ≤ (i.z + 1) * res - res / 1000

/-- `new` are the answers of a map of `d'` cells of size `res'` made from a map of `d` cells of size `res` with values `old`.
Each cell holds the value of an old cell whose centre is in its cube, up to a thousandth of a cell, or `dflt` if no old centre
is well inside it.  Each old cell whose centre is inside the new map has its value, or that of another cell with a centre
there, at its centre. -/
structure Resampled {α : Type} (d d' : Dims) (res res' : ℝ) (old : Idx → α) (dflt : α) (new : Idx → α × Bool) : Prop where
  cells : ∀ c, InBounds d' c →
    (∃ i, InBounds d i ∧ NearCube res' c (cellCentre res i) ∧ new c = (old i, true)) ∨
    ((∀ i, InBounds d i → ¬ DeepInCube res' c (cellCentre res i)) ∧ new c = (dflt, true))
  beyond : ∀ c, ¬ InBounds d' c → new c = (dflt, false)
  centres : ∀ i, InBounds d i → InsideBy d' res' (cellCentre res i) →
    ∃ c j, InBounds d' c ∧ InBounds d j ∧ NearCube res' c (cellCentre res i) ∧ NearCube res' c (cellCentre res j) ∧
      new c = (old j, true)

end Verif.Spec
