import Verif.CMapExports

/-!
# Dynamic spatial hashed collision map

Model of `sdf_tools::DynamicSpatialHashedCollisionMapGrid`
(`src/sdf_tools/dynamic_spatial_hashed_collision_map.cpp`).

The chunk store `VoxelGrid::DynamicSpatialHashedVoxelGrid` is external (arc_utilities).  What the
modelled code reads of it is represented: the chunks in the iteration order of the hash map, for each
chunk its two initialisation flags, its uniform value and its cells.  Positions
(`GetIndexLocationInGrid`) and the origin transform are parameters.  `Get`, `SetCell`, `SetChunk`
(lines 50-78) only forward to the store and are modelled by the parameter of `HMap.store`.
-/

namespace Verif

/-- `VoxelGrid::DynamicSpatialHashedVoxelGridChunk<COLLISION_CELL>`, as read by
`src/sdf_tools/dynamic_spatial_hashed_collision_map.cpp:129-165`. -/
structure HChunk where
  region : Idx
  chunkInit : Bool
  cellInit : Bool
  value : CCell
  cells : Grid CCell
deriving Repr

/-- The members of the class (`include/sdf_tools/dynamic_spatial_hashed_collision_map.hpp:19-23`):
`S` is the type of the external store. -/
structure HMap (S : Type) where
  field : S
  nComp : UInt32
  frame : String
  initialized : Bool
  valid : Bool

namespace HMap

variable {S : Type}

/-- The two constructors with arguments
(`src/sdf_tools/dynamic_spatial_hashed_collision_map.cpp:20-36`).  `initialized_` is never assigned;
`junk` is the indeterminate value it has in memory. -/
def create (junk : Bool) (frame : String) (store : S) : HMap S := ⟨store, 0, frame, junk, false⟩

/-- The default constructor (`src/sdf_tools/dynamic_spatial_hashed_collision_map.cpp:38`); `store` is
a default-constructed store. -/
def createDefault (store : S) : HMap S := ⟨store, 0, "", false, false⟩

/-- `IsInitialized` (`src/sdf_tools/dynamic_spatial_hashed_collision_map.cpp:40-43`). -/
def isInitialized (m : HMap S) : Bool := m.initialized

/-- `AreComponentsValid` (`src/sdf_tools/dynamic_spatial_hashed_collision_map.cpp:45-48`). -/
def areComponentsValid (m : HMap S) : Bool := m.valid

/-- `SetCell` and `SetChunk` (`src/sdf_tools/dynamic_spatial_hashed_collision_map.cpp:60-78`): the
store is updated by its own operation `f`, which also returns a status; nothing else changes. -/
def update {R : Type} (m : HMap S) (f : S → S × R) : HMap S × R :=
  (⟨(f m.field).1, m.nComp, m.frame, m.initialized, m.valid⟩, (f m.field).2)

end HMap

/-- `visualization_msgs::Marker`, the fields set by the hashed map's export. -/
structure HMarker (P C : Type) where
  frame : String
  ns : String
  id : Nat
  scale : P
  points : List P
  colors : List C
deriving DecidableEq, Repr

namespace HMarker

variable {P C : Type}

/-- `points.push_back; colors.push_back`. -/
def push (k : HMarker P C) (p : P) (c : C) : HMarker P C :=
  ⟨k.frame, k.ns, k.id, k.scale, k.points ++ [p], k.colors ++ [c]⟩

end HMarker

namespace HMap

variable {P C : Type}

/-- The three-way colour choice
(`src/sdf_tools/dynamic_spatial_hashed_collision_map.cpp:141-152, 171-182`). -/
def colourOf (coll free unk : C) (c : CCell) : C :=
  if c.occ.gtHalf then coll else if c.occ.ltHalf then free else unk

/-- The body of the loop over the chunks
(`src/sdf_tools/dynamic_spatial_hashed_collision_map.cpp:129-186`).  `loc c i` is
`GetIndexLocationInGrid` of chunk `c`, `tf` the origin transform; the state is the pair of markers
(chunks, cells). -/
def exportStep (loc : HChunk → Idx → P) (tf : P → P) (coll free unk : C)
    (st : HMarker P C × HMarker P C) (c : HChunk) : HMarker P C × HMarker P C :=
  if c.chunkInit then (st.1.push (tf (loc c ⟨0, 0, 0⟩)) (colourOf coll free unk c.value), st.2)
  else if c.cellInit then
    (st.1, c.cells.dims.all.foldl (fun k i =>
      k.push (tf (loc c i)) (colourOf coll free unk (c.cells.getImm i).1)) st.2)
  else st

/-- `ExportForDisplay` (`src/sdf_tools/dynamic_spatial_hashed_collision_map.cpp:85-199`). -/
def exportForDisplay (frame : String) (chunkSize cellSize : P) (loc : HChunk → Idx → P) (tf : P → P)
    (chunks : List HChunk) (coll free unk : C) : List (HMarker P C) :=
  let st := chunks.foldl (exportStep loc tf coll free unk)
    (⟨frame, "dynamic_spatial_hashed_collision_map_chunks_display", 1, chunkSize, [], []⟩,
     ⟨frame, "dynamic_spatial_hashed_collision_map_cells_display", 1, cellSize, [], []⟩)
  (if st.1.points.length > 0 then [st.1] else []) ++ (if st.2.points.length > 0 then [st.2] else [])

end HMap

end Verif
