import Verif.Grid

/-!
# Specification vocabulary shared by the property files

Nothing here refers to an algorithm of the code.
-/

namespace Verif.Spec

/-- A cell index lies in a grid with the given cell counts. -/
def InBounds (d : Dims) (i : Idx) : Prop :=
  (0 ≤ i.x ∧ i.x < d.nx) ∧ (0 ≤ i.y ∧ i.y < d.ny) ∧ (0 ≤ i.z ∧ i.z < d.nz)

/-- The cell lies in the first or last layer of some axis. -/
def OnFace (d : Dims) (i : Idx) : Prop :=
  i.x = 0 ∨ i.y = 0 ∨ i.z = 0 ∨ i.x + 1 = d.nx ∨ i.y + 1 = d.ny ∨ i.z + 1 = d.nz

/-- The most recent write to `i` in a history of writes, oldest first. -/
def lastWrite {α : Type} (hist : List (Idx × α)) (i : Idx) : Option α :=
  hist.foldl (fun acc w => if w.1 = i then some w.2 else acc) none

end Verif.Spec
