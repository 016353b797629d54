import Verif.Rotation
import Verif.PyUtils

/-!
# The quaternion of the origin in floating point, and the arrays of the Python wrappers

`GetGradient` (`include/sdf_tools/sdf.hpp:405-430`) builds a quaternion from the linear part of the origin transform, and
inverts it.  Both are functions of `Eigen::Quaterniond`, which is not in the repository; they are written down from
Eigen's documentation (see `DESIGN.md`), every operation in floating point.  The Python wrappers
(`src/sdf_tools/utils_2d.py`, `src/sdf_tools/utils_3d.py`) are completed with these gradients and with the final
conversions to `float`.
-/

namespace Verif

namespace Fl

/-- `std::sqrt` of a double: NaN for negative numbers. -/
noncomputable def sqrt (R : Rounding) : FVal → FVal
  | some x => open Classical in
    if x < 0 then none else if x = ⊤ then some ⊤ else some (R.r64 ((Real.sqrt x.toReal : ℝ) : EReal))
  | none => none

end Fl

namespace FSdf

open Fl

variable (R : Rounding)

/-- `Quaterniond(matrix)`: by the trace if it is positive, otherwise by the largest diagonal entry (used in
`include/sdf_tools/sdf.hpp:415`). -/
noncomputable def Quat.ofMatrix (m : Aff ℝ) : Quat :=
  let tr := add R (add R (real m.rx.x) (real m.ry.y)) (real m.rz.z)
  if lt (real 0) tr then
    let t := Fl.sqrt R (add R tr (real 1))
    let u := div R (real (1 / 2)) t
    ⟨Fl.mul R (real (1 / 2)) t, Fl.mul R (sub R (real m.rz.y) (real m.ry.z)) u,
      Fl.mul R (sub R (real m.rx.z) (real m.rz.x)) u, Fl.mul R (sub R (real m.ry.x) (real m.rx.y)) u⟩
  else if lt (real m.rx.x) (real m.ry.y) then
    if lt (real m.ry.y) (real m.rz.z) then
      let t := Fl.sqrt R (add R (sub R (sub R (real m.rz.z) (real m.rx.x)) (real m.ry.y)) (real 1))
      let u := div R (real (1 / 2)) t
      ⟨Fl.mul R (sub R (real m.ry.x) (real m.rx.y)) u, Fl.mul R (add R (real m.rx.z) (real m.rz.x)) u,
        Fl.mul R (add R (real m.ry.z) (real m.rz.y)) u, Fl.mul R (real (1 / 2)) t⟩
    else
      let t := Fl.sqrt R (add R (sub R (sub R (real m.ry.y) (real m.rz.z)) (real m.rx.x)) (real 1))
      let u := div R (real (1 / 2)) t
      ⟨Fl.mul R (sub R (real m.rx.z) (real m.rz.x)) u, Fl.mul R (add R (real m.rx.y) (real m.ry.x)) u,
        Fl.mul R (real (1 / 2)) t, Fl.mul R (add R (real m.rz.y) (real m.ry.z)) u⟩
  else if lt (real m.rx.x) (real m.rz.z) then
    let t := Fl.sqrt R (add R (sub R (sub R (real m.rz.z) (real m.rx.x)) (real m.ry.y)) (real 1))
    let u := div R (real (1 / 2)) t
    ⟨Fl.mul R (sub R (real m.ry.x) (real m.rx.y)) u, Fl.mul R (add R (real m.rx.z) (real m.rz.x)) u,
      Fl.mul R (add R (real m.ry.z) (real m.rz.y)) u, Fl.mul R (real (1 / 2)) t⟩
  else
    let t := Fl.sqrt R (add R (sub R (sub R (real m.rx.x) (real m.ry.y)) (real m.rz.z)) (real 1))
    let u := div R (real (1 / 2)) t
    ⟨Fl.mul R (sub R (real m.rz.y) (real m.ry.z)) u, Fl.mul R (real (1 / 2)) t,
      Fl.mul R (add R (real m.ry.x) (real m.rx.y)) u, Fl.mul R (add R (real m.rz.x) (real m.rx.z)) u⟩

/-- `Quaterniond::squaredNorm`. -/
noncomputable def Quat.sq (q : Quat) : FVal :=
  add R (add R (add R (Fl.mul R q.x q.x) (Fl.mul R q.y q.y)) (Fl.mul R q.z q.z)) (Fl.mul R q.w q.w)

/-- The rotation of `GetGradient` for an origin with the linear part `m` (`include/sdf_tools/sdf.hpp:415-426`). -/
noncomputable def turn (m : Aff ℝ) : V3 FVal → V3 FVal :=
  let q := Quat.ofMatrix R m
  rotate R q (q.inv R (q.sq R))

end FSdf

namespace Py

/-- The origin transforms of the wrappers (`src/sdf_tools/utils_2d.py:16-21`, `src/sdf_tools/utils_3d.py:12-17, 47-52`). -/
def shift (p : V3 ℝ) : Aff ℝ := ⟨⟨1, 0, 0⟩, ⟨0, 1, 0⟩, ⟨0, 0, 1⟩, p⟩

/-- `gradient_function` of the wrappers (`src/sdf_tools/utils_2d.py:44-45`, `src/sdf_tools/utils_3d.py:77-78`). -/
noncomputable def cellGradient (R : Rounding) (p : V3 ℝ) (res : ℝ) (s : Grid FVal) (i : Idx) (edges : Bool) : List FVal :=
  (FSdf.mk s res).gradient R (FSdf.turn R (shift p)) i edges

/-- `a.astype(np.float32)`. -/
noncomputable def astype32 (R : Rounding) (a : NpArr FVal) : NpArr FVal := ⟨a.shape, a.data.map (Option.map R.r32)⟩

/-- `utils_2d.compute_sdf_and_gradient` with its conversions (`src/sdf_tools/utils_2d.py:6-58`); `p` is the origin. -/
noncomputable def arrays2 (R : Rounding) (res : ℝ) (p : V3 ℝ) (env : NpArr Bool) : Option (NpArr FVal × NpArr FVal) :=
  (compute2 R res oobValue (cellGradient R p res) env).map fun r => (astype32 R r.1, astype32 R (astype32 R r.2))

/-- `utils_3d.compute_sdf_and_gradient` with its conversions (`src/sdf_tools/utils_3d.py:39-97`). -/
noncomputable def arrays3 (R : Rounding) (res : ℝ) (p : V3 ℝ) (env : NpArr Bool) : Option (NpArr FVal × NpArr FVal) :=
  (compute3 R res oobValue (cellGradient R p res) env).map fun r => (astype32 R r.1, astype32 R (astype32 R r.2))

end Py

end Verif
