import Verif.Interp
import Verif.Tagged

/-!
# Access by location

The overloads of `SetValue`, `GetMutable` and `CheckIfCandidateCorner` of `CollisionMapGrid` and
`TaggedObjectCollisionMapGrid` that take a position instead of an index.

Simplification, as in `Verif.Interp`: coordinates are elements of an exact ordered field.
-/

namespace Verif

/-- The metric data of a `VoxelGrid`: cell size, `origin_transform_`, `inverse_origin_transform_`. -/
structure Frame (K : Type) where
  res : K
  origin : Aff K
  inv : Aff K

/-- The argument by which an overload designates a cell. -/
inductive Place (K : Type) where
  /-- `GRID_INDEX` or three `int64_t`. -/
  | index (i : Idx)
  /-- `Eigen::Vector3d`. -/
  | point3 (p : V3 K)
  /-- `Eigen::Vector4d` with last entry `w`. -/
  | point4 (p : V3 K) (w : K)
  /-- Three `double`. -/
  | coords (x y z : K)

namespace Frame

variable {K : Type} [Field K] [LinearOrder K] [FloorRing K]

/-- `inverse_origin_transform_ * location` for a homogeneous location with last entry `w` (Eigen). -/
def toGrid4 (F : Frame K) (p : V3 K) (w : K) : V3 K := (F.inv.lin p).add (V3.smul w F.inv.t)

/-- The cell of a grid-frame point (contract of `VoxelGrid`). -/
def cellOf (F : Frame K) (g : V3 K) : Idx := ⟨⌊g.x / F.res⌋, ⌊g.y / F.res⌋, ⌊g.z / F.res⌋⟩

/-- `LocationToGridIndex3d` (contract of `VoxelGrid`). -/
def loc3 (F : Frame K) (p : V3 K) : Idx := F.cellOf (F.inv.app id p)

/-- `LocationToGridIndex4d` (contract of `VoxelGrid`). -/
def loc4 (F : Frame K) (p : V3 K) (w : K) : Idx := F.cellOf (F.toGrid4 p w)

end Frame

variable {K : Type} [Field K] [LinearOrder K] [FloorRing K]

namespace CMap

/-- `SetValue3d` (`include/sdf_tools/collision_map.hpp:353-365`; rvalue overload 422-434). -/
def setValue3 (F : Frame K) (m : CMap) (p : V3 K) (c : CCell) : CMap × Bool :=
  let index := F.loc3 p
  if m.grid.dims.inB index then m.setValue index c else (m, false)

/-- `SetValue4d` (`include/sdf_tools/collision_map.hpp:367-379`; rvalue overload 436-448). -/
def setValue4 (F : Frame K) (m : CMap) (p : V3 K) (w : K) (c : CCell) : CMap × Bool :=
  let index := F.loc4 p w
  if m.grid.dims.inB index then m.setValue index c else (m, false)

/-- The overloads of `SetValue` (`include/sdf_tools/collision_map.hpp:353-487`). -/
def setAt (F : Frame K) (m : CMap) : Place K → CCell → CMap × Bool
  | .index i, c => m.setValue i c
  | .point3 p, c => m.setValue3 F p c
  | .point4 p w, c => m.setValue4 F p w c
  | .coords x y z, c => m.setValue4 F ⟨x, y, z⟩ 1 c

/-- `GetMutable3d` and a write through the reference
(`include/sdf_tools/collision_map.hpp:287-299`). -/
def mutWrite3 (F : Frame K) (m : CMap) (p : V3 K) (c : CCell) : CMap × Bool :=
  let index := F.loc3 p
  if m.grid.dims.inB index then m.mutWrite index c
  else ({ m with grid := { m.grid with oob := c } }, false)

/-- `GetMutable4d` and a write through the reference
(`include/sdf_tools/collision_map.hpp:301-313`). -/
def mutWrite4 (F : Frame K) (m : CMap) (p : V3 K) (w : K) (c : CCell) : CMap × Bool :=
  let index := F.loc4 p w
  if m.grid.dims.inB index then m.mutWrite index c
  else ({ m with grid := { m.grid with oob := c } }, false)

/-- The overloads of `GetMutable` (`include/sdf_tools/collision_map.hpp:287-351`). -/
def mutAt (F : Frame K) (m : CMap) : Place K → CCell → CMap × Bool
  | .index i, c => m.mutWrite i c
  | .point3 p, c => m.mutWrite3 F p c
  | .point4 p w, c => m.mutWrite4 F p w c
  | .coords x y z, c => m.mutWrite4 F ⟨x, y, z⟩ 1 c

/-- `CheckIfCandidateCorner3d` (`include/sdf_tools/collision_map.hpp:508-520`). -/
def checkCorner3 (F : Frame K) (m : CMap) (p : V3 K) : Bool × Bool :=
  let index := F.loc3 p
  if m.grid.dims.inB index then m.checkCorner index else (false, false)

/-- `CheckIfCandidateCorner4d` (`include/sdf_tools/collision_map.hpp:522-534`). -/
def checkCorner4 (F : Frame K) (m : CMap) (p : V3 K) (w : K) : Bool × Bool :=
  let index := F.loc4 p w
  if m.grid.dims.inB index then m.checkCorner index else (false, false)

/-- The overloads of `CheckIfCandidateCorner` (`include/sdf_tools/collision_map.hpp:508-553`). -/
def cornerAt (F : Frame K) (m : CMap) : Place K → Bool × Bool
  | .index i => m.checkCorner i
  | .point3 p => m.checkCorner3 F p
  | .point4 p w => m.checkCorner4 F p w
  | .coords x y z => m.checkCorner4 F ⟨x, y, z⟩ 1

/-- Calls that change a collision map, by any overload. -/
inductive PlacedOp (K : Type) where
  | set (at_ : Place K) (c : CCell)
  | mutate (at_ : Place K) (c : CCell)
  | update

/-- Effect and result of one call (`update` reports nothing here). -/
def applyAt (F : Frame K) (m : CMap) : PlacedOp K → CMap × Option Bool
  | .set a c => ((m.setAt F a c).1, some (m.setAt F a c).2)
  | .mutate a c => ((m.mutAt F a c).1, some (m.mutAt F a c).2)
  | .update => (m.apply .update, none)

def runAt (F : Frame K) (m : CMap) (ops : List (PlacedOp K)) : CMap :=
  ops.foldl (fun m o => (m.applyAt F o).1) m

end CMap

namespace TMap

/-- `SetValue3d` (`include/sdf_tools/tagged_object_collision_map.hpp:398-410`; rvalue overload
467-479). -/
def setValue3 (F : Frame K) (m : TMap) (p : V3 K) (c : TCell) : TMap × Bool :=
  let index := F.loc3 p
  if m.grid.dims.inB index then m.setValue index c else (m, false)

/-- `SetValue4d` (`include/sdf_tools/tagged_object_collision_map.hpp:412-424`; rvalue overload
481-493). -/
def setValue4 (F : Frame K) (m : TMap) (p : V3 K) (w : K) (c : TCell) : TMap × Bool :=
  let index := F.loc4 p w
  if m.grid.dims.inB index then m.setValue index c else (m, false)

/-- The overloads of `SetValue`
(`include/sdf_tools/tagged_object_collision_map.hpp:398-532`). -/
def setAt (F : Frame K) (m : TMap) : Place K → TCell → TMap × Bool
  | .index i, c => m.setValue i c
  | .point3 p, c => m.setValue3 F p c
  | .point4 p w, c => m.setValue4 F p w c
  | .coords x y z, c => m.setValue4 F ⟨x, y, z⟩ 1 c

/-- `GetMutable3d` and a write through the reference
(`include/sdf_tools/tagged_object_collision_map.hpp:333-345`). -/
def mutWrite3 (F : Frame K) (m : TMap) (p : V3 K) (c : TCell) : TMap × Bool :=
  let index := F.loc3 p
  if m.grid.dims.inB index then m.mutWrite index c
  else ({ m with grid := { m.grid with oob := c } }, false)

/-- `GetMutable4d` and a write through the reference
(`include/sdf_tools/tagged_object_collision_map.hpp:347-359`). -/
def mutWrite4 (F : Frame K) (m : TMap) (p : V3 K) (w : K) (c : TCell) : TMap × Bool :=
  let index := F.loc4 p w
  if m.grid.dims.inB index then m.mutWrite index c
  else ({ m with grid := { m.grid with oob := c } }, false)

/-- The overloads of `GetMutable`
(`include/sdf_tools/tagged_object_collision_map.hpp:333-396`). -/
def mutAt (F : Frame K) (m : TMap) : Place K → TCell → TMap × Bool
  | .index i, c => m.mutWrite i c
  | .point3 p, c => m.mutWrite3 F p c
  | .point4 p w, c => m.mutWrite4 F p w c
  | .coords x y z, c => m.mutWrite4 F ⟨x, y, z⟩ 1 c

/-- `CheckIfCandidateCorner3d`
(`include/sdf_tools/tagged_object_collision_map.hpp:558-570`). -/
def checkCorner3 (F : Frame K) (m : TMap) (p : V3 K) : Bool × Bool :=
  let index := F.loc3 p
  if m.grid.dims.inB index then m.checkCorner index else (false, false)

/-- `CheckIfCandidateCorner4d`
(`include/sdf_tools/tagged_object_collision_map.hpp:572-584`). -/
def checkCorner4 (F : Frame K) (m : TMap) (p : V3 K) (w : K) : Bool × Bool :=
  let index := F.loc4 p w
  if m.grid.dims.inB index then m.checkCorner index else (false, false)

/-- The overloads of `CheckIfCandidateCorner`
(`include/sdf_tools/tagged_object_collision_map.hpp:558-600`). -/
def cornerAt (F : Frame K) (m : TMap) : Place K → Bool × Bool
  | .index i => m.checkCorner i
  | .point3 p => m.checkCorner3 F p
  | .point4 p w => m.checkCorner4 F p w
  | .coords x y z => m.checkCorner4 F ⟨x, y, z⟩ 1

/-- Calls that change a tagged map, by any overload. -/
inductive PlacedOp (K : Type) where
  | set (at_ : Place K) (c : TCell)
  | mutate (at_ : Place K) (c : TCell)
  | update
  | segment (S : SegData)

/-- Effect and result of one call. -/
def applyAt (F : Frame K) (m : TMap) : PlacedOp K → TMap × Option Bool
  | .set a c => ((m.setAt F a c).1, some (m.setAt F a c).2)
  | .mutate a c => ((m.mutAt F a c).1, some (m.mutAt F a c).2)
  | .update => (m.apply .update, none)
  | .segment S => (m.apply (.segment S), none)

def runAt (F : Frame K) (m : TMap) (ops : List (PlacedOp K)) : TMap :=
  ops.foldl (fun m o => (m.applyAt F o).1) m

end TMap

end Verif
