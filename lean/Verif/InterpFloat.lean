import Verif.SdfDisplayFloat
import Verif.Interp

/-!
# Distance estimates in floating point

Model of `EstimateDistance*` (`include/sdf_tools/sdf.hpp:699-961`) with the values that `float` and `double` can
have: every operation of the code is followed by one rounding, infinities and NaN follow IEEE 754.  The sign of zero
is not modelled, and the compiler is assumed not to fuse multiplications and additions.
-/

namespace Verif

namespace Fl

variable (R : Rounding)

/-- Unary minus. -/
noncomputable def neg (a : FVal) : FVal := a.map (- ·)

/-- Addition of doubles: NaN for `inf - inf`. -/
noncomputable def add : FVal → FVal → FVal
  | some x, some y => open Classical in
    if (x = ⊤ ∧ y = ⊥) ∨ (x = ⊥ ∧ y = ⊤) then none else some (R.r64 (x + y))
  | _, _ => none

/-- Subtraction of doubles. -/
noncomputable def sub (a b : FVal) : FVal := add R a (neg b)

/-- Multiplication of doubles: NaN for `0 * inf`. -/
noncomputable def mul : FVal → FVal → FVal
  | some x, some y => open Classical in
    if (x = 0 ∧ (y = ⊤ ∨ y = ⊥)) ∨ ((x = ⊤ ∨ x = ⊥) ∧ y = 0) then none else some (R.r64 (x * y))
  | _, _ => none

/-- Division of doubles (the divisors of the code are positive). -/
noncomputable def div : FVal → FVal → FVal
  | some x, some y => (fdiv x y).map R.r64
  | _, _ => none

end Fl

/-- A double constant or variable with a finite value. -/
def real (x : ℝ) : FVal := some (x : EReal)

/-- A signed distance field as stored: `float` values (widened to `double` without change) and the cell size. -/
structure FSdf where
  grid : Grid FVal
  res : ℝ

namespace FSdf

open Fl

variable (R : Rounding)

/-- `GridIndexToLocationGridFrame` (contract of `VoxelGrid`): `cell_size * (index + 0.5)` per axis. -/
noncomputable def center (s : FSdf) (i : Idx) : V3 FVal :=
  ⟨mul R (real s.res) (real ((i.x : ℝ) + 1 / 2)), mul R (real s.res) (real ((i.y : ℝ) + 1 / 2)),
    mul R (real s.res) (real ((i.z : ℝ) + 1 / 2))⟩

/-- `GetCorrectedCenterDistance` (`include/sdf_tools/sdf.hpp:773-796`); the outer `none` is
`std::invalid_argument`. -/
noncomputable def corrected (s : FSdf) (i : Idx) : Option FVal :=
  if s.grid.dims.inB i then
    let off := mul R (real s.res) (real (1 / 2))
    if SdfGen.geZero (s.grid.get i) then some (sub R (s.grid.get i) off)
    else some (add R (s.grid.get i) off)
  else none

/-- `GetAxisInterpolationIndices` (`include/sdf_tools/sdf.hpp:798-833`); `nonneg` is `axis_offset >= 0.0`. -/
def axisIdx (i n : Int) (nonneg : Bool) : Int × Int :=
  if nonneg then
    if i + 1 ≥ n then
      if i - 1 < 0 then (i, i) else (i - 1, i)
    else (i, i + 1)
  else
    if i - 1 < 0 then
      if i + 1 ≥ n then (i, i) else (i, i + 1)
    else (i - 1, i)

/-- `BilinearInterpolate` (`include/sdf_tools/sdf.hpp:699-726`): the product
`((multiplier * d1_offsets) * values) * d2_offsets`. -/
noncomputable def bilinear (low1 high1 low2 high2 q1 q2 ll lh hl hh : FVal) : FVal :=
  let m := div R (real 1) (mul R (sub R high1 low1) (sub R high2 low2))
  let a := mul R m (sub R high1 q1)
  let b := mul R m (sub R q1 low1)
  add R (mul R (add R (mul R a ll) (mul R b hl)) (sub R high2 q2))
    (mul R (add R (mul R a lh) (mul R b hh)) (sub R q2 low2))

/-- `BilinearInterpolateDistanceXY` (`include/sdf_tools/sdf.hpp:728-743`). -/
noncomputable def bilinearXY (s : FSdf) (corner q : V3 FVal) (mm mp pm pp : FVal) : FVal :=
  bilinear R corner.x (add R corner.x (real s.res)) corner.y (add R corner.y (real s.res)) q.x q.y mm mp pm pp

/-- `TrilinearInterpolateDistance` (`include/sdf_tools/sdf.hpp:745-771`). -/
noncomputable def trilinear (s : FSdf) (corner q : V3 FVal) (mmm mmp mpm mpp pmm pmp ppm ppp : FVal) : FVal :=
  let lo := bilinearXY R s corner q mmm mpm pmm ppm
  let hi := bilinearXY R s corner q mmp mpp pmp ppp
  let inv := div R (real 1) (real s.res)
  let slope := mul R (sub R hi lo) inv
  let dz := sub R q.z corner.z
  add R lo (mul R dz slope)

/-- `EstimateDistanceInterpolateFromNeighborsGridFrame` (`include/sdf_tools/sdf.hpp:835-901`). -/
noncomputable def estGrid (s : FSdf) (p : V3 FVal) (i : Idx) : Option FVal := do
  let c := s.center R i
  let ax := axisIdx i.x s.grid.dims.nx (SdfGen.geZero (sub R p.x c.x))
  let ay := axisIdx i.y s.grid.dims.ny (SdfGen.geZero (sub R p.y c.y))
  let az := axisIdx i.z s.grid.dims.nz (SdfGen.geZero (sub R p.z c.z))
  let mmm ← s.corrected R ⟨ax.1, ay.1, az.1⟩
  let mmp ← s.corrected R ⟨ax.1, ay.1, az.2⟩
  let mpm ← s.corrected R ⟨ax.1, ay.2, az.1⟩
  let mpp ← s.corrected R ⟨ax.1, ay.2, az.2⟩
  let pmm ← s.corrected R ⟨ax.2, ay.1, az.1⟩
  let pmp ← s.corrected R ⟨ax.2, ay.1, az.2⟩
  let ppm ← s.corrected R ⟨ax.2, ay.2, az.1⟩
  let ppp ← s.corrected R ⟨ax.2, ay.2, az.2⟩
  pure (trilinear R s (s.center R ⟨ax.1, ay.1, az.1⟩) p mmm mmp mpm mpp pmm pmp ppm ppp)

/-- `EstimateDistance`, `EstimateDistance3d`, `EstimateDistance4d` (`include/sdf_tools/sdf.hpp:903-961`).  The
transform to the grid frame and the cell of a location come from the base class.  The outer `none` is an
exception. -/
noncomputable def estimate (toGrid : V3 FVal → V3 FVal) (locIdx : V3 FVal → Idx) (s : FSdf) (p : V3 FVal) :
    Option (FVal × Bool) :=
  if s.grid.dims.inB (locIdx p) then (s.estGrid R (toGrid p) (locIdx p)).map (·, true)
  else some (s.grid.oob, false)

end FSdf

end Verif
