import Verif.WorldMarks
import Verif.TaggedExports

/-!
# Resampling in floating point (with exact arithmetic: `Verif.CMapExports`, `Verif.TaggedExports`)
-/

namespace Verif

open FSdf

variable (R : Rounding)

/-- `GridIndexToLocation(x, y, z)` (contract of `VoxelGrid`, used at `src/sdf_tools/collision_map.cpp:688-689` and
`src/sdf_tools/tagged_object_collision_map.cpp:415-416`): cell size times index plus one half on each axis, taken to the
world by the stored origin transform. -/
noncomputable def centreAt (res : ℝ) (origin : Aff ℝ) (i : Idx) : V3 FVal :=
  affApp R origin ⟨Fl.mul R (real res) (real ((i.x : ℝ) + 1 / 2)), Fl.mul R (real res) (real ((i.y : ℝ) + 1 / 2)),
    Fl.mul R (real res) (real ((i.z : ℝ) + 1 / 2))⟩

/-- `Resample` (`src/sdf_tools/collision_map.cpp:673-695`).  The new map has the old origin transform and the inverse
`inv` computed from it; `d'` are the cell counts the external constructor derives from the sizes and the new
resolution. -/
noncomputable def CMap.resampleF (res res' : ℝ) (origin inv : Aff ℝ) (d' : Dims) (m : CMap) : CMap :=
  m.dims.all.foldl (fun acc i => (acc.setAtF R res' inv (centreAt R res origin i) (m.grid.get i)).1)
    (create d' m.grid.oob m.grid.oob)

namespace TMap

/-- `SetValue3d(location, value)`, `SetValue4d(location, value)` and `SetValue(x, y, z, value)`
(`include/sdf_tools/tagged_object_collision_map.hpp:398-432`; the rvalue overloads at 467-501 have the same bodies). -/
noncomputable def setAtF (res : ℝ) (inv : Aff ℝ) (m : TMap) (p : V3 FVal) (c : TCell) : TMap × Bool :=
  if m.grid.dims.inB (cellAt R res inv p) then m.setValue (cellAt R res inv p) c else (m, false)

/-- Not code of the repository: a caller's loop that writes a cell at every position of a list with `SetValue`. -/
noncomputable def setEachF (res : ℝ) (inv : Aff ℝ) (m : TMap) (marks : List (V3 FVal × TCell)) : TMap :=
  marks.foldl (fun acc e => (acc.setAtF R res inv e.1 e.2).1) m

/-- `Resample` (`src/sdf_tools/tagged_object_collision_map.cpp:399-422`); `junk` is the uninitialised convex-segments flag
of the new map. -/
noncomputable def resampleF (junk : Bool) (res res' : ℝ) (origin inv : Aff ℝ) (d' : Dims) (m : TMap) : TMap :=
  m.dims.all.foldl (fun acc i => (acc.setAtF R res' inv (centreAt R res origin i) (m.grid.get i)).1)
    (create junk d' m.grid.oob m.grid.oob)

end TMap

end Verif
