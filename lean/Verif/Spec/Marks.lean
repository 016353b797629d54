import Verif.Spec.SignedDistance

/-!
# Positions and the cells they mark
-/

namespace Verif.Spec

/-- The location is in the volume of the map, at least a thousandth of a cell from its faces. -/
def InsideBy (d : Dims) (res : ℝ) (q : V3 ℝ) : Prop :=
  (res / 1000 ≤ q.x ∧ q.x ≤ d.nx * res - res / 1000) ∧ (res / 1000 ≤ q.y ∧ q.y ≤ d.ny * res - res / 1000) ∧
    res / 1000 ≤ q.z ∧ q.z ≤ d.nz * res - res / 1000

/-- The location is outside the volume of the map, at least a thousandth of a cell from its faces. -/
def OutsideBy (d : Dims) (res : ℝ) (q : V3 ℝ) : Prop :=
  (q.x ≤ -(res / 1000) ∨ d.nx * res + res / 1000 ≤ q.x) ∨ (q.y ≤ -(res / 1000) ∨ d.ny * res + res / 1000 ≤ q.y) ∨
    q.z ≤ -(res / 1000) ∨ d.nz * res + res / 1000 ≤ q.z

/-- The location is in the cube of cell `i`, or less than a thousandth of a cell from it on each axis. -/
def NearCube (res : ℝ) (i : Idx) (q : V3 ℝ) : Prop :=
  (i.x * res - res / 1000 < q.x ∧ q.x < (i.x + 1) * res + res / 1000) ∧
    (i.y * res - res / 1000 < q.y ∧ q.y < (i.y + 1) * res + res / 1000) ∧
    i.z * res - res / 1000 < q.z ∧ q.z < (i.z + 1) * res + res / 1000

/-- The coordinates of the location are at most `b`. -/
def CoordsWithin (b : ℝ) (q : V3 ℝ) : Prop := |q.x| ≤ b ∧ |q.y| ≤ b ∧ |q.z| ≤ b

end Verif.Spec
