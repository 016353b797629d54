import Verif.Spec.SignedDistance

/-!
# Locations in the volume of a map
-/

namespace Verif.Spec

/-- The location is in the volume of the map, or at most a thousandth of a cell outside it. -/
def NearVolume (d : Dims) (res : ℝ) (q : V3 ℝ) : Prop :=
  (-(res / 1000) ≤ q.x ∧ q.x ≤ d.nx * res + res / 1000) ∧ (-(res / 1000) ≤ q.y ∧ q.y ≤ d.ny * res + res / 1000) ∧
    -(res / 1000) ≤ q.z ∧ q.z ≤ d.nz * res + res / 1000

/-- The location is strictly inside the cube of cell `i`. -/
def InsideCube (res : ℝ) (i : Idx) (q : V3 ℝ) : Prop :=
  (i.x * res < q.x ∧ q.x < (i.x + 1) * res) ∧ (i.y * res < q.y ∧ q.y < (i.y + 1) * res) ∧
    i.z * res < q.z ∧ q.z < (i.z + 1) * res

end Verif.Spec
