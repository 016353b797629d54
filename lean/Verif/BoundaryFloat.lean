import Verif.SmoothFloat

/-!
# Boundary distance and projection into the volume in floating point

Model of `DistanceToBoundary*` and `ProjectIntoValidVolume*` (`include/sdf_tools/sdf.hpp:963-989, 1124-1191`) with
the values that `double` can have.
-/

namespace Verif

namespace Fl

/-- `a != b`: true when an operand is NaN. -/
noncomputable def fne : FVal → FVal → Bool
  | some x, some y => open Classical in decide (x ≠ y)
  | _, _ => true

end Fl

namespace FSdf

open Fl

variable (R : Rounding)

/-- `DistanceToBoundary*` (`include/sdf_tools/sdf.hpp:963-989`).  `size` are the side lengths kept by the base
class.  `minCoeff` returns the first index with the least absolute displacement. -/
noncomputable def distanceToBoundary (toGrid : V3 FVal → V3 FVal) (size : V3 ℝ) (p : V3 FVal) : FVal × Bool :=
  let a := toGrid p
  let dx := fmin a.x (sub R (real size.x) a.x)
  let dy := fmin a.y (sub R (real size.y) a.y)
  let dz := fmin a.z (sub R (real size.z) a.z)
  let inside := le (real 0) dx && le (real 0) dy && le (real 0) dz
  let r := if lt (fabs dy) (fabs dx) then (if lt (fabs dz) (fabs dy) then dz else dy)
    else (if lt (fabs dz) (fabs dx) then dz else dx)
  (r, inside)

/-- `dist_margin` (`include/sdf_tools/sdf.hpp:1170`). -/
noncomputable def inset (res : ℝ) (minDist : FVal) : FVal :=
  add R minDist (mul R (real res) (some (R.r64 ((1 / 10000 : ℝ) : EReal))))

/-- `ProjectIntoValidVolumeToMinimumDistance*` (`include/sdf_tools/sdf.hpp:1124-1191`).  The two transforms and
`arc_helpers::ClampValue` are parameters. -/
noncomputable def projectInto (clamp : FVal → FVal → FVal → FVal) (toGrid toWorld : V3 FVal → V3 FVal) (size : V3 ℝ)
    (res : ℝ) (p : V3 FVal) (minDist : FVal) : V3 FVal :=
  let g := toGrid p
  let m := inset R res minDist
  let x := clamp g.x m (sub R (real size.x) m)
  let y := clamp g.y m (sub R (real size.y) m)
  let z := clamp g.z m (sub R (real size.z) m)
  if fne x g.x || fne y g.y || fne z g.z then toWorld ⟨x, y, z⟩ else p

end FSdf

end Verif
