import Verif.BoundaryFloat

/-!
# Transforms and cell lookup in floating point

What `include/sdf_tools/sdf.hpp:341-1191` takes from the base class and Eigen: the product of a stored transform and a
location, and the cell of a grid-frame location, with the values that `double` can have.
-/

namespace Verif

namespace FSdf

open Fl

variable (R : Rounding)

/-- One entry of `transform * location` for a location with last entry 1 (Eigen, used at
`include/sdf_tools/sdf.hpp:910, 979, 1060, 1067, 1166, 1185`): the four products are added from left to right. -/
noncomputable def rowApp (r : V3 ℝ) (t : ℝ) (p : V3 FVal) : FVal :=
  add R (add R (add R (mul R (real r.x) p.x) (mul R (real r.y) p.y)) (mul R (real r.z) p.z))
    (mul R (real t) (real 1))

/-- `transform * location`. -/
noncomputable def affApp (a : Aff ℝ) (p : V3 FVal) : V3 FVal :=
  ⟨rowApp R a.rx a.t.x p, rowApp R a.ry a.t.y p, rowApp R a.rz a.t.z p⟩

/-- The product of a row and a vector, the three products added from left to right. -/
noncomputable def dotApp (r v : V3 ℝ) : FVal :=
  add R (add R (mul R (real r.x) (real v.x)) (mul R (real r.y) (real v.y))) (mul R (real r.z) (real v.z))

/-- `Eigen::Isometry3d::inverse`, which the base class stores next to the transform: the transposed rotation, and
minus its product with the translation. -/
noncomputable def isoInverse (a : Aff ℝ) : V3 ℝ × V3 ℝ × V3 ℝ × V3 FVal :=
  let x : V3 ℝ := ⟨a.rx.x, a.ry.x, a.rz.x⟩
  let y : V3 ℝ := ⟨a.rx.y, a.ry.y, a.rz.y⟩
  let z : V3 ℝ := ⟨a.rx.z, a.ry.z, a.rz.z⟩
  (x, y, z, ⟨neg (dotApp R x a.t), neg (dotApp R y a.t), neg (dotApp R z a.t)⟩)

/-- One coordinate of the cell of a grid-frame location (contract of `VoxelGrid`): the coordinate times the stored
reciprocal of the cell size, rounded down and converted to `int64_t`.  The conversion of NaN and of numbers outside
the range is not defined by C++; as on x86-64 it gives the least `int64_t`. -/
noncomputable def axisCell (res : ℝ) (a : FVal) : Int :=
  match mul R a (div R (real 1) (real res)) with
  | none => -2 ^ 63
  | some x => open Classical in
    if ((-2 ^ 63 : ℝ) : EReal) ≤ x ∧ x < ((2 ^ 63 : ℝ) : EReal) then ⌊x.toReal⌋ else -2 ^ 63

end FSdf

end Verif
