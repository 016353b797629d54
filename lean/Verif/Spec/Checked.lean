import Mathlib.Data.EReal.Basic
import Verif.Spec.SignedDistance
import Verif.Spec.Distance

/-!
# A condition on a field that can be checked by reading it
-/

namespace Verif.Spec

/-- Neighbouring cells that are on the same side of the surface store distances that differ by at most 1.01 cells. -/
def StepsOk (d : Dims) (res : ℝ) (g : Idx → ℝ) : Prop :=
  ∀ u v, InBounds d u → InBounds d v → sqDist u v = 1 → 0 < g u * g v → |g u - g v| ≤ 101 / 100 * res

/-- The values of a grid (`none` is not a number) are the numbers `g`, and neighbours pass the check. -/
def Checked (d : Dims) (res : ℝ) (values : Idx → Option EReal) (g : Idx → ℝ) : Prop :=
  (∀ v, InBounds d v → values v = some (g v : EReal)) ∧ StepsOk d res g

end Verif.Spec
