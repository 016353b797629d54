import Verif.FrameFloat
import Verif.CollisionMap

/-!
# Writing and reading cells of a collision map by position, in floating point (with exact arithmetic: `Verif.Located`)
-/

namespace Verif

open FSdf

variable (R : Rounding)

/-- `LocationToGridIndex3d/4d` of a grid (contract of `VoxelGrid`, used at
`include/sdf_tools/collision_map.hpp:290, 304, 356, 370, 425, 439`): the stored inverse transform `inv` takes the location to
the grid frame, the cell is looked up per axis. -/
noncomputable def cellAt (res : ℝ) (inv : Aff ℝ) (p : V3 FVal) : Idx :=
  ⟨axisCell R res (affApp R inv p).x, axisCell R res (affApp R inv p).y, axisCell R res (affApp R inv p).z⟩

namespace CMap

/-- `SetValue3d(location, value)`, `SetValue4d(location, value)` and `SetValue(x, y, z, value)`
(`include/sdf_tools/collision_map.hpp:353-387`; the rvalue overloads at 422-455 have the same bodies). -/
noncomputable def setAtF (res : ℝ) (inv : Aff ℝ) (m : CMap) (p : V3 FVal) (c : CCell) : CMap × Bool :=
  if m.grid.dims.inB (cellAt R res inv p) then m.setValue (cellAt R res inv p) c else (m, false)

/-- `GetImmutable3d/4d(location)` and `GetImmutable(x, y, z)` (inherited from `VoxelGrid`). -/
noncomputable def getAtF (res : ℝ) (inv : Aff ℝ) (m : CMap) (p : V3 FVal) : CCell × Bool :=
  m.getImm (cellAt R res inv p)

/-- A caller's loop that writes the value at every position of a list. -/
noncomputable def setAllF (res : ℝ) (inv : Aff ℝ) (m : CMap) (ps : List (V3 FVal)) (c : CCell) : CMap :=
  ps.foldl (fun acc p => (acc.setAtF R res inv p c).1) m

end CMap

end Verif
