import Verif.Tagged
import Verif.CMapExports

/-!
# Tagged map: resampling and surface display

Model of `TaggedObjectCollisionMapGrid::Resample` and `ExportSurfaceForDisplay`
(`src/sdf_tools/tagged_object_collision_map.cpp:399-422, 1336-1365`).
-/

namespace Verif

namespace TMap

section Resample

variable {K : Type} [Field K] [LinearOrder K] [FloorRing K]

/-- `Resample` (`src/sdf_tools/tagged_object_collision_map.cpp:399-422`).  `d'` are the cell counts the
external constructor derives from the sizes and the new resolution; `junk` is the uninitialised
convex-segments flag of the new map.  All cells start as the OOB value; the old cells are copied in
scan order with `SetValue4d`. -/
def resample (junk : Bool) (r r' : K) (d' : Dims) (m : TMap) : TMap :=
  m.dims.all.foldl (fun acc i => (acc.setValue (CMap.centreCell r r' i) (m.grid.get i)).1)
    (create junk d' m.grid.oob m.grid.oob)

end Resample

/-- `ExportSurfaceForDisplay` (`src/sdf_tools/tagged_object_collision_map.cpp:1336-1365`): the entries of
the hash map in iteration order; the stored `uint8_t` is converted to `int8_t` before the test, which
does not change whether it is 1.  The marker is a pair of point and colour lists. -/
def exportSurface {P C : Type} (loc : Idx → P) (surface : List (Idx × UInt8)) (colour : C) :
    List P × List C :=
  surface.foldl (fun k e => if e.2 = 1 then (k.1 ++ [loc e.1], k.2 ++ [colour]) else k) ([], [])

end TMap

end Verif
