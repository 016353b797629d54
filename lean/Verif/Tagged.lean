import Verif.CollisionMap
import Verif.CMapExports
import Verif.Topology

/-!
# Tagged object collision map

Model of `sdf_tools::TaggedObjectCollisionMapGrid`
(`include/sdf_tools/tagged_object_collision_map.hpp`,
`src/sdf_tools/tagged_object_collision_map.cpp`): cells, setters, the two validity flags, connected
components, convex segments, surfaces.  The SDF functions are in `Verif.TaggedSdf`, the display
functions in `Verif.TaggedDisplay`.
-/

namespace Verif

/-- `TAGGED_OBJECT_COLLISION_CELL` (`include/sdf_tools/tagged_object_collision_map.hpp:22-43`). -/
structure TCell where
  occ : F32
  comp : UInt32
  obj : UInt32
  seg : UInt32
deriving DecidableEq, Repr, Inhabited

/-- `TAGGED_OBJECT_COLLISION_CELL(occupancy, object_id)`
(`include/sdf_tools/tagged_object_collision_map.hpp:32-35`). -/
def TCell.ofObj (o : F32) (id : UInt32) : TCell := ⟨o, 0, id, 0⟩

/-- The state of a `TaggedObjectCollisionMapGrid`: base-class grid, `number_of_components_`,
`number_of_convex_segments_`, `components_valid_`, `convex_segments_valid_`
(`include/sdf_tools/tagged_object_collision_map.hpp:171-175`). -/
structure TMap where
  grid : Grid TCell
  nComp : UInt32
  nSeg : UInt32
  valid : Bool
  segValid : Bool
deriving DecidableEq, Repr

/-- What `UpdateConvexSegments` reads from the SDF's local extrema map: whether the extremum of a
cell has an infinite coordinate, and whether the extrema of two cells are closer than the threshold
(`src/sdf_tools/tagged_object_collision_map.cpp:585-594, 611-613`). -/
structure SegData where
  far : Idx → Bool
  near : Idx → Idx → Bool

namespace TMap

def dims (m : TMap) : Dims := m.grid.dims

/-- The eight constructors with arguments
(`include/sdf_tools/tagged_object_collision_map.hpp:181-307`).  They set
`number_of_components_ = 0`, `number_of_convex_segments_ = 0` and `components_valid_ = false`; they do
not initialise `convex_segments_valid_`, whose value is whatever the memory contained (`junk`). -/
def create (junk : Bool) (d : Dims) (dflt oob : TCell) : TMap :=
  ⟨Grid.mk' d dflt oob, 0, 0, false, junk⟩

/-- The default constructor (`include/sdf_tools/tagged_object_collision_map.hpp:309-315`). -/
def createDefault : TMap := ⟨Grid.mk' ⟨0, 0, 0⟩ default default, 0, 0, false, false⟩

/-- `GetImmutable(index)` (inherited). -/
def getImm (m : TMap) (i : Idx) : TCell × Bool := m.grid.getImm i

/-- `SetValue(index, value)` (`include/sdf_tools/tagged_object_collision_map.hpp:435-465`; rvalue
overloads 504-534): clears `components_valid_`, and nothing else. -/
def setValue (m : TMap) (i : Idx) (c : TCell) : TMap × Bool :=
  if m.grid.dims.inB i then ({ m with grid := m.grid.set i c, valid := false }, true)
  else (m, false)

/-- `GetMutable(index)` followed by a write of the whole cell
(`include/sdf_tools/tagged_object_collision_map.hpp:368-396`). -/
def mutWrite (m : TMap) (i : Idx) (c : TCell) : TMap × Bool :=
  if m.grid.dims.inB i then ({ m with grid := m.grid.set i c, valid := false }, true)
  else ({ m with grid := { m.grid with oob := c } }, false)

/-- `GetNumConnectedComponents`
(`include/sdf_tools/tagged_object_collision_map.hpp:548-551`). -/
def getNumCC (m : TMap) : Nat × Bool := (m.nComp.toNat, m.valid)

/-- `GetNumConvexSegments` (`include/sdf_tools/tagged_object_collision_map.hpp:553-556`). -/
def getNumSeg (m : TMap) : Nat × Bool := (m.nSeg.toNat, m.segValid)

/-! ## Connected components -/

/-- `are_connected_fn` (`src/sdf_tools/tagged_object_collision_map.cpp:349-364`). -/
def connFn (m : TMap) (i j : Idx) : Bool :=
  (m.grid.get i).occ.gtHalf == (m.grid.get j).occ.gtHalf

/-- `get_component_fn` (`src/sdf_tools/tagged_object_collision_map.cpp:365-377`). -/
def compFn (m : TMap) (i : Idx) : Int :=
  if m.grid.dims.inB i then ((m.grid.get i).comp.toNat : Int) else -1

/-- `mark_component_fn` (`src/sdf_tools/tagged_object_collision_map.cpp:378-389`). -/
def markFn (m : TMap) (i : Idx) (c : Nat) : TMap :=
  if m.grid.dims.inB i then
    (m.setValue i ⟨(m.grid.get i).occ, UInt32.ofNat c, (m.grid.get i).obj, (m.grid.get i).seg⟩).1
  else m

/-- The closures of `UpdateConnectedComponents`. -/
def compFns : CompFns TMap := ⟨connFn, compFn, markFn⟩

/-- `UpdateConnectedComponents` (`src/sdf_tools/tagged_object_collision_map.cpp:340-397`). -/
def updateCC (m : TMap) : Option (TMap × Nat) :=
  if m.valid then some (m, m.nComp.toNat)
  else
    match compFns.computeCC m.dims { m with valid := false } with
    | none => none
    | some (m', n) => some ({ m' with nComp := UInt32.ofNat n, valid := true }, n)

/-! ## Convex segments -/

/-- `are_connected_fn` of `UpdateConvexSegments`
(`src/sdf_tools/tagged_object_collision_map.cpp:571-600`). -/
def segConn (S : SegData) (m : TMap) (i j : Idx) : Bool :=
  if (m.grid.get i).obj = (m.grid.get j).obj then S.near i j else false

/-- `get_component_fn` of `UpdateConvexSegments`
(`src/sdf_tools/tagged_object_collision_map.cpp:601-633`). -/
def segGet (S : SegData) (m : TMap) (i : Idx) : Int :=
  if m.grid.dims.inB i then
    if (m.grid.get i).occ.ltHalf = true ∨ (m.grid.get i).obj > 0 then
      if !S.far i then ((m.grid.get i).seg.toNat : Int) else -1
    else -1
  else -1

/-- `mark_component_fn` of `UpdateConvexSegments`
(`src/sdf_tools/tagged_object_collision_map.cpp:634-646`). -/
def segMark (m : TMap) (i : Idx) (c : Nat) : TMap :=
  if m.grid.dims.inB i then
    (m.setValue i ⟨(m.grid.get i).occ, (m.grid.get i).comp, (m.grid.get i).obj, UInt32.ofNat c⟩).1
  else m

/-- The closures of `UpdateConvexSegments`. -/
def segFns (S : SegData) : CompFns TMap := ⟨segConn S, segGet S, segMark⟩

/-- `UpdateConvexSegments` (`src/sdf_tools/tagged_object_collision_map.cpp:552-654`).  `S` stands for
the extrema map (computed from the contents before any label changes) and the threshold; there is no
validity shortcut. -/
def updateSeg (S : SegData) (m : TMap) : Option (TMap × Nat) :=
  match (segFns S).computeCC m.dims m with
  | none => none
  | some (m', n) => some ({ m' with nSeg := UInt32.ofNat n, segValid := true }, n)

/-! ## Surfaces and corners -/

/-- `CheckIfCandidateCorner`
(`include/sdf_tools/tagged_object_collision_map.hpp:599-669`). -/
def checkCorner (m : TMap) (i : Idx) : Bool × Bool :=
  if m.grid.dims.inB i then
    let differs (j : Idx) : Nat :=
      if (m.getImm j).2 && (m.getImm j).1.comp != (m.grid.get i).comp then 1 else 0
    let n := differs ⟨i.x - 1, i.y, i.z⟩ + differs ⟨i.x + 1, i.y, i.z⟩
      + differs ⟨i.x, i.y - 1, i.z⟩ + differs ⟨i.x, i.y + 1, i.z⟩
      + differs ⟨i.x, i.y, i.z - 1⟩ + differs ⟨i.x, i.y, i.z + 1⟩
    if n ≤ 1 then (false, true) else (true, true)
  else (false, false)

/-- `IsSurfaceIndex` (`include/sdf_tools/tagged_object_collision_map.hpp:57-104`). -/
def isSurface (m : TMap) (i : Idx) : Bool :=
  if m.grid.dims.inB i then
    let d := m.grid.dims
    let our := (m.grid.get i).occ
    let rng (lo hi : Int) : List Int := (List.range (hi - lo + 1).toNat).map fun (k : Nat) => lo + k
    (rng (max 0 (i.x - 1)) (min ((d.nx : Int) - 1) (i.x + 1))).any fun x =>
    (rng (max 0 (i.y - 1)) (min ((d.ny : Int) - 1) (i.y + 1))).any fun y =>
    (rng (max 0 (i.z - 1)) (min ((d.nz : Int) - 1) (i.z + 1))).any fun z =>
      (x != i.x || y != i.y || z != i.z) &&
        (let other := (m.grid.get ⟨x, y, z⟩).occ
         (our.ltHalf && (other.gtHalf || other.eqHalf))
          || (our.gtHalf && (other.ltHalf || other.eqHalf))
          || (our.eqHalf && !other.eqHalf))
  else false

/-- `IsConnectedComponentSurfaceIndex`
(`include/sdf_tools/tagged_object_collision_map.hpp:106-169`), with the comparison
`z_index == GetNumZCells()` of line 124 as written. -/
def isCCSurface (m : TMap) (i : Idx) : Bool :=
  let d := m.grid.dims
  if i.x < 0 ∨ i.y < 0 ∨ i.z < 0 ∨ i.x ≥ d.nx ∨ i.y ≥ d.ny ∨ i.z ≥ d.nz then false
  else if i.x = 0 ∨ i.y = 0 ∨ i.z = 0 ∨ i.x = (d.nx : Int) - 1 ∨ i.y = (d.ny : Int) - 1
      ∨ i.z = (d.nz : Int) then true
  else
    let c (j : Idx) := (m.grid.get j).comp
    let our := c i
    if our ≠ c ⟨i.x, i.y, i.z - 1⟩ then true
    else if our ≠ c ⟨i.x, i.y, i.z + 1⟩ then true
    else if our ≠ c ⟨i.x, i.y - 1, i.z⟩ then true
    else if our ≠ c ⟨i.x, i.y + 1, i.z⟩ then true
    else if our ≠ c ⟨i.x - 1, i.y, i.z⟩ then true
    else if our ≠ c ⟨i.x + 1, i.y, i.z⟩ then true
    else false

/-- `is_surface_index_fn` of `ComputeComponentTopology` and of `ExtractComponentSurfaces`
(`src/sdf_tools/tagged_object_collision_map.cpp:449-485, 510-546`), with the index arguments of lines
458, 478, 519 and 539 as written. -/
def typedSurface (m : TMap) (filled empty unknown : Bool) (i : Idx) : Bool :=
  let o := (m.grid.get i).occ
  if o.gtHalf then filled && m.isCCSurface ⟨i.x, i.y, i.y⟩
  else if o.ltHalf then empty && m.isCCSurface ⟨i.x, i.y, i.z⟩
  else unknown && m.isCCSurface ⟨i.x, i.z, i.z⟩

/-- `ExtractComponentSurfaces` (`src/sdf_tools/tagged_object_collision_map.cpp:492-550`, with
`topology_computation::ExtractComponentSurfaces` at
`include/sdf_tools/topology_computation.hpp:298-324`). -/
def extractSurfaces (m : TMap) (filled empty unknown : Bool) : List (UInt32 × List Idx) :=
  m.dims.all.foldl (fun acc i =>
    if m.typedSurface filled empty unknown i then CMap.insertSurface (m.grid.get i).comp i acc
    else acc) []

/-- `ComputeComponentTopology` (`src/sdf_tools/tagged_object_collision_map.cpp:424-490`). -/
def computeTopology (ord : List Idx → List Idx) (ord' : List (Idx × UInt8) → List (Idx × UInt8))
    (m : TMap) (filled empty unknown recompute : Bool) :
    Option (TMap × Topo.Outcome (List (UInt32 × (Int × Int)))) :=
  let go (m : TMap) :=
    (m, Topo.topologyOf ord ord' m.compFn (m.extractSurfaces filled empty unknown))
  if recompute then (m.updateCC).map fun r => go r.1 else some (go m)

/-! ## Histories -/

/-- Mutating calls on a tagged map; `segment S` is `UpdateConvexSegments` with an arbitrary extrema
map and threshold. -/
inductive Op where
  | setValue (i : Idx) (c : TCell)
  | mutWrite (i : Idx) (c : TCell)
  | update
  | segment (S : SegData)

/-- Effect of one call. -/
def apply (m : TMap) : Op → TMap
  | .setValue i c => (m.setValue i c).1
  | .mutWrite i c => (m.mutWrite i c).1
  | .update => (m.updateCC.map Prod.fst).getD m
  | .segment S => ((m.updateSeg S).map Prod.fst).getD m

def run (m : TMap) (ops : List Op) : TMap := ops.foldl apply m

/-! ## The collision map inside a tagged map -/

/-- The collision map with the same occupancies and components: what the component functions look
at. -/
def plain (m : TMap) : CMap :=
  ⟨⟨m.grid.dims, m.grid.data.map fun c => ⟨c.occ, c.comp⟩, ⟨m.grid.dflt.occ, m.grid.dflt.comp⟩,
    ⟨m.grid.oob.occ, m.grid.oob.comp⟩⟩, m.nComp, m.valid⟩

end TMap

end Verif
