import Verif.Spec.Distance

/-!
# Specification of maps inside larger maps and of mirrored maps
-/

namespace Verif.Spec

/-- A map of size `d` fits into a map of size `d'` when its first cell is put at index `o`. -/
def PlacedIn (d d' : Dims) (o : Idx) : Prop :=
  (0 ≤ o.x ∧ o.x + d.nx ≤ d'.nx) ∧ (0 ≤ o.y ∧ o.y + d.ny ≤ d'.ny) ∧ (0 ≤ o.z ∧ o.z + d.nz ≤ d'.nz)

/-- `σ` renames the cells of a map of size `d` to those of a map of size `d'`, one to one and keeping all
distances: a mirroring, a turn by a right angle, an exchange of axes. -/
def Congruent (d d' : Dims) (σ : Idx → Idx) : Prop :=
  (∀ v, InBounds d v → InBounds d' (σ v)) ∧ (∀ w, InBounds d' w → ∃ v, InBounds d v ∧ σ v = w) ∧
    ∀ u v, InBounds d u → InBounds d v → sqDist (σ u) (σ v) = sqDist u v

/-- The cell that takes the place of `v` when the map is mirrored along its first axis. -/
def mirrorX (d : Dims) (v : Idx) : Idx := ⟨d.nx - 1 - v.x, v.y, v.z⟩

/-- The cell that takes the place of `v` when the first two axes are exchanged. -/
def swapXY (v : Idx) : Idx := ⟨v.y, v.x, v.z⟩

end Verif.Spec
