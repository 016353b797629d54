import Verif.Spec.SignedDistance

/-!
# The signed distance in the world frame
-/

namespace Verif.Spec

/-- `sd` is the signed distance, in the world, from `p` to the obstacles of a map placed by the transform `A`: the distance
to the nearest point of a filled cell if that is positive, otherwise minus the distance to the nearest point of a free
cell. -/
structure WorldDistance (A : Aff ℝ) (d : Dims) (res : ℝ) (f : Idx → Bool) (p : V3 ℝ) (sd : ℝ) : Prop where
  outside : 0 ≤ sd → (∃ r, Region d res f true r ∧ dist3 p (A.app id r) = sd) ∧
    ∀ r, Region d res f true r → sd ≤ dist3 p (A.app id r)
  inside : sd ≤ 0 → (∃ r, Region d res f false r ∧ dist3 p (A.app id r) = -sd) ∧
    ∀ r, Region d res f false r → -sd ≤ dist3 p (A.app id r)

/-- Between the first and the last cell centre of an axis of `n` cells, or in the only cell, by a thousandth of a cell. -/
def WellInner (n : ℕ) (t : ℝ) : Prop :=
  (n = 1 ∧ 1 / 1000 ≤ t ∧ t ≤ 1 - 1 / 1000) ∨ 1 / 2 + 1 / 1000 ≤ t ∧ t ≤ (n : ℝ) - 1 / 2 - 1 / 1000

/-- A grid-frame location that is more than half a cell from the faces on every axis with more than one cell. -/
def WellInside (d : Dims) (res : ℝ) (q : V3 ℝ) : Prop :=
  WellInner d.nx (q.x / res) ∧ WellInner d.ny (q.y / res) ∧ WellInner d.nz (q.z / res)

end Verif.Spec
