import Verif.GradFloat

/-!
# Smoothed gradients in floating point

Model of `GetSmoothGradient` and `ComputeAxisSmoothGradient` (`include/sdf_tools/sdf.hpp:528-598, 656-697`) with the
values that `double` can have.
-/

namespace Verif

namespace Fl

/-- `std::abs` of a double. -/
noncomputable def fabs (a : FVal) : FVal := a.map fun x => max x (-x)

end Fl

namespace FSdf

open Fl

variable (R : Rounding)

/-- `ComputeAxisSmoothGradient` (`include/sdf_tools/sdf.hpp:656-697`); `none` is `std::runtime_error`. -/
noncomputable def axisSmooth (q m p : FVal × Bool) (qv mv pv : FVal) : Option FVal :=
  if q.2 ∧ m.2 ∧ p.2 then some (div R (sub R p.1 m.1) (sub R pv mv))
  else if q.2 ∧ m.2 then some (div R (sub R q.1 m.1) (sub R qv mv))
  else if q.2 ∧ p.2 then some (div R (sub R p.1 q.1) (sub R pv qv))
  else none

/-- `GetSmoothGradient`, `GetSmoothGradient3d`, `GetSmoothGradient4d` (`include/sdf_tools/sdf.hpp:528-584`).  The
transform to the grid frame and the cell of a location come from the base class.  `none` is an exception, the empty
list the empty vector. -/
noncomputable def smoothGradient (toGrid : V3 FVal → V3 FVal) (locIdx : V3 FVal → Idx) (s : FSdf) (p : V3 FVal)
    (window : FVal) : Option (List FVal) :=
  let w := fabs window
  if s.grid.dims.inB (locIdx p) then do
    let minX := sub R p.x w
    let maxX := add R p.x w
    let minY := sub R p.y w
    let maxY := add R p.y w
    let minZ := sub R p.z w
    let maxZ := add R p.z w
    let q ← s.estimate R toGrid locIdx p
    let mx ← s.estimate R toGrid locIdx ⟨minX, p.y, p.z⟩
    let px ← s.estimate R toGrid locIdx ⟨maxX, p.y, p.z⟩
    let my ← s.estimate R toGrid locIdx ⟨p.x, minY, p.z⟩
    let py ← s.estimate R toGrid locIdx ⟨p.x, maxY, p.z⟩
    let mz ← s.estimate R toGrid locIdx ⟨p.x, p.y, minZ⟩
    let pz ← s.estimate R toGrid locIdx ⟨p.x, p.y, maxZ⟩
    let gx ← axisSmooth R q mx px p.x minX maxX
    let gy ← axisSmooth R q my py p.y minY maxY
    let gz ← axisSmooth R q mz pz p.z minZ maxZ
    pure [gx, gy, gz]
  else some []

end FSdf

end Verif
