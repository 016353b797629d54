import Verif.Spec.SignedDistance

/-!
# The outside of the volume, as an obstacle
-/

namespace Verif.Spec

/-- The coordinate does not lie strictly between the two faces of an axis of `n` cells. An axis of one cell has no
faces. -/
def BeyondFace (n : ℕ) (res x : ℝ) : Prop := 1 < n ∧ (x ≤ 0 ∨ n * res ≤ x)

/-- A grid-frame location that is outside the volume, or on its surface, along an axis with more than one cell. -/
def Outside (d : Dims) (res : ℝ) (r : V3 ℝ) : Prop :=
  BeyondFace d.nx res r.x ∨ BeyondFace d.ny res r.y ∨ BeyondFace d.nz res r.z

/-- A grid-frame location in the cube of a filled cell or outside the volume. -/
def Blocked (d : Dims) (res : ℝ) (f : Idx → Bool) (r : V3 ℝ) : Prop := Region d res f true r ∨ Outside d res r

end Verif.Spec
