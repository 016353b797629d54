import Verif.ConvexFloat
import Mathlib.Analysis.SpecialFunctions.Sqrt

/-!
# The rotation inside `GetGradient`

`GetGradient` (`include/sdf_tools/sdf.hpp:405-430`) turns the grid-aligned gradient into the world frame with
quaternions.  `Verif.Interp` uses the linear part of the origin transform instead; here the quaternion arithmetic is
modelled, over the reals (`Q4`) and in IEEE arithmetic (`FSdf.Quat`).  The functions of `Eigen::Quaterniond` are not in
the repository; they are written down from Eigen's documentation (see `DESIGN.md`).
-/

namespace Verif

/-- A quaternion with real entries. -/
structure Q4 where
  w : ℝ
  x : ℝ
  y : ℝ
  z : ℝ

namespace Q4

/-- Eigen's product of quaternions. -/
def mul (a b : Q4) : Q4 where
  w := a.w * b.w - a.x * b.x - a.y * b.y - a.z * b.z
  x := a.w * b.x + a.x * b.w + a.y * b.z - a.z * b.y
  y := a.w * b.y + a.y * b.w + a.z * b.x - a.x * b.z
  z := a.w * b.z + a.z * b.w + a.x * b.y - a.y * b.x

/-- `Quaterniond::squaredNorm`. -/
def sq (q : Q4) : ℝ := q.w * q.w + q.x * q.x + q.y * q.y + q.z * q.z

/-- `Quaterniond::inverse`: the conjugate divided by the squared norm, zero for the zero quaternion. -/
noncomputable def inv (q : Q4) : Q4 := open Classical in
  if 0 < q.sq then ⟨q.w / q.sq, -q.x / q.sq, -q.y / q.sq, -q.z / q.sq⟩ else ⟨0, 0, 0, 0⟩

/-- `Quaterniond(matrix)`: by the trace if it is positive, otherwise by the largest diagonal entry. -/
noncomputable def ofMatrix (m : Aff ℝ) : Q4 := open Classical in
  if 0 < m.rx.x + m.ry.y + m.rz.z then
    let t := Real.sqrt (m.rx.x + m.ry.y + m.rz.z + 1)
    ⟨1 / 2 * t, (m.rz.y - m.ry.z) * (1 / 2 / t), (m.rx.z - m.rz.x) * (1 / 2 / t), (m.ry.x - m.rx.y) * (1 / 2 / t)⟩
  else if m.rx.x < m.ry.y then
    if m.ry.y < m.rz.z then
      let t := Real.sqrt (m.rz.z - m.rx.x - m.ry.y + 1)
      ⟨(m.ry.x - m.rx.y) * (1 / 2 / t), (m.rx.z + m.rz.x) * (1 / 2 / t), (m.ry.z + m.rz.y) * (1 / 2 / t), 1 / 2 * t⟩
    else
      let t := Real.sqrt (m.ry.y - m.rz.z - m.rx.x + 1)
      ⟨(m.rx.z - m.rz.x) * (1 / 2 / t), (m.rx.y + m.ry.x) * (1 / 2 / t), 1 / 2 * t, (m.rz.y + m.ry.z) * (1 / 2 / t)⟩
  else if m.rx.x < m.rz.z then
    let t := Real.sqrt (m.rz.z - m.rx.x - m.ry.y + 1)
    ⟨(m.ry.x - m.rx.y) * (1 / 2 / t), (m.rx.z + m.rz.x) * (1 / 2 / t), (m.ry.z + m.rz.y) * (1 / 2 / t), 1 / 2 * t⟩
  else
    let t := Real.sqrt (m.rx.x - m.ry.y - m.rz.z + 1)
    ⟨(m.rz.y - m.ry.z) * (1 / 2 / t), 1 / 2 * t, (m.ry.x + m.rx.y) * (1 / 2 / t), (m.rz.x + m.rx.z) * (1 / 2 / t)⟩

/-- The rotation of `GetGradient` by the quaternion `q` (`include/sdf_tools/sdf.hpp:415-426`). -/
noncomputable def rotate (q : Q4) (v : V3 ℝ) : V3 ℝ :=
  let r := q.mul (mul ⟨0, v.x, v.y, v.z⟩ q.inv)
  ⟨r.x, r.y, r.z⟩

end Q4

/-- `GetGradient(index, enable_edge_gradients)` with its quaternions (`include/sdf_tools/sdf.hpp:397-430`). -/
noncomputable def MSdf.gradientQ (s : MSdf ℝ) (i : Idx) (edge : Bool) : List ℝ :=
  match s.gridGrad i edge with
  | [gx, gy, gz] =>
    let r := (Q4.ofMatrix s.origin).rotate ⟨gx, gy, gz⟩
    [r.x, r.y, r.z]
  | _ => []

namespace FSdf

open Fl

/-- A quaternion of doubles with the given values. -/
noncomputable def Quat.of (q : Q4) : Quat := ⟨real q.w, real q.x, real q.y, real q.z⟩

/-- `Quaterniond::inverse` in floating point, given the computed squared norm. -/
noncomputable def Quat.inv (R : Rounding) (q : Quat) (n : FVal) : Quat :=
  if lt (real 0) n then ⟨div R q.w n, div R (neg q.x) n, div R (neg q.y) n, div R (neg q.z) n⟩
  else ⟨real 0, real 0, real 0, real 0⟩

end FSdf

end Verif
