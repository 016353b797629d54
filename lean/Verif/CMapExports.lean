import Verif.CollisionMap
import Mathlib.Algebra.Order.Floor.Ring
import Mathlib.Algebra.Order.Field.Basic

/-!
# Collision map: component lists, component surfaces, resampling, display exports

Model of the read-only exports of `sdf_tools::CollisionMapGrid` (`src/sdf_tools/collision_map.cpp`).
-/

namespace Verif

/-! ## Component lists -/

namespace CMap

/-- One iteration of the loop of `ExtractConnectedComponents`
(`src/sdf_tools/collision_map.cpp:770-773`): `components.at(component - 1).push_back(index)`, where
`component - 1` is a `uint32_t` expression (so label 0 becomes `2^32 - 1`).  `none` is the
`std::out_of_range` of `at`. -/
def pushComponent (m : CMap) (acc : Option (List (List Idx))) (i : Idx) : Option (List (List Idx)) :=
  acc.bind fun comps =>
    let k := ((m.grid.get i).comp - 1).toNat
    if h : k < comps.length then some (comps.set k (comps[k] ++ [i])) else none

/-- `ExtractConnectedComponents` (`src/sdf_tools/collision_map.cpp:756-778`). -/
def extractCC (m : CMap) : Option (CMap × List (List Idx)) :=
  match m.updateCC with
  | none => none
  | some (m', _) =>
    (m'.dims.all.foldl m'.pushComponent (some (List.replicate m'.nComp.toNat []))).map (m', ·)

/-! ## Component surfaces -/

/-- `component_surfaces[key][index] = 1`
(`include/sdf_tools/topology_computation.hpp:316-317`).  The ordered map of hash sets is an
association list; a set keeps each index once. -/
def insertSurface (key : UInt32) (i : Idx) :
    List (UInt32 × List Idx) → List (UInt32 × List Idx)
  | [] => [(key, [i])]
  | (k, s) :: rest =>
    if k = key then (k, if i ∈ s then s else s ++ [i]) :: rest
    else (k, s) :: insertSurface key i rest

/-- `topology_computation::ExtractComponentSurfaces`
(`include/sdf_tools/topology_computation.hpp:298-324`).  The key is the `int64_t` result of
`get_component_fn` converted to `uint32_t`, i.e. the component of an in-bounds cell. -/
def surfacesBy (m : CMap) (isSurf : Idx → Bool) : List (UInt32 × List Idx) :=
  m.dims.all.foldl (fun acc i =>
    if isSurf i then insertSurface (m.grid.get i).comp i acc else acc) []

/-- Surface cells recorded under a component (`[]` if the component has no entry). -/
def surfaceOf (ss : List (UInt32 × List Idx)) (k : UInt32) : List Idx :=
  ((ss.find? fun p => p.1 == k).map Prod.snd).getD []

/-- `is_surface_index_fn` of `CollisionMapGrid::ExtractComponentSurfaces`
(`src/sdf_tools/collision_map.cpp:715-750`), with the index arguments of lines 723 and 743 as
written: `(x, y, y)` for filled and `(x, z, z)` for unknown cells. -/
def typedSurface (m : CMap) (filled empty unknown : Bool) (i : Idx) : Bool :=
  let o := (m.grid.get i).occ
  if o.gtHalf then filled && m.isCCSurface ⟨i.x, i.y, i.y⟩
  else if o.ltHalf then empty && m.isCCSurface ⟨i.x, i.y, i.z⟩
  else unknown && m.isCCSurface ⟨i.x, i.z, i.z⟩

/-- `CollisionMapGrid::ExtractComponentSurfaces` (`src/sdf_tools/collision_map.cpp:697-754`); the
three flags are the bits of `COMPONENT_TYPES` (`include/sdf_tools/collision_map.hpp:647-649`). -/
def extractSurfaces (m : CMap) (filled empty unknown : Bool) : List (UInt32 × List Idx) :=
  m.surfacesBy (m.typedSurface filled empty unknown)

/-! ## Resampling -/

section Resample

variable {K : Type} [Field K] [LinearOrder K] [FloorRing K]

/-- Index of the cell of a grid with cell size `r'` that contains the centre of cell `i` of a grid
with cell size `r` and the same origin.  The origin transform and its inverse cancel
(exact arithmetic). -/
def centreCell (r r' : K) (i : Idx) : Idx :=
  ⟨⌊((i.x : K) + 1 / 2) * r / r'⌋, ⌊((i.y : K) + 1 / 2) * r / r'⌋, ⌊((i.z : K) + 1 / 2) * r / r'⌋⟩

/-- `Resample` (`src/sdf_tools/collision_map.cpp:673-695`).  `d'` are the cell counts the external
constructor derives from the sizes and the new resolution.  All cells start as the OOB value; the
old cells are copied in scan order with `SetValue4d`. -/
def resample (r r' : K) (d' : Dims) (m : CMap) : CMap :=
  m.dims.all.foldl (fun acc i => (acc.setValue (centreCell r r' i) (m.grid.get i)).1)
    (create d' m.grid.oob m.grid.oob)

end Resample

/-! ## Display exports -/

/-- A colour: the alpha channel decides whether anything is drawn
(`src/sdf_tools/collision_map.cpp:353,361,369`), the rest is opaque. -/
structure Colour where
  visible : Bool
  tag : Nat
deriving DecidableEq, Repr

/-- One marker: parallel lists of points and colours.  A point is represented by the index of the
cell whose centre it is. -/
structure Marker where
  points : List Idx
  colours : List Colour
deriving DecidableEq, Repr

/-- `points.push_back; colors.push_back`. -/
def Marker.push (k : Marker) (i : Idx) (c : Colour) : Marker := ⟨k.points ++ [i], k.colours ++ [c]⟩

/-- The three-way choice of the display loops (`src/sdf_tools/collision_map.cpp:351-374`). -/
def displayStep (m : CMap) (coll free unk : Colour) (k : Marker) (i : Idx) : Marker :=
  let o := (m.grid.get i).occ
  if o.gtHalf then (if coll.visible then k.push i coll else k)
  else if o.ltHalf then (if free.visible then k.push i free else k)
  else (if unk.visible then k.push i unk else k)

/-- `ExportForDisplay` (`src/sdf_tools/collision_map.cpp:317-379`). -/
def exportForDisplay (m : CMap) (coll free unk : Colour) : Marker :=
  m.dims.all.foldl (m.displayStep coll free unk) ⟨[], []⟩

/-- `no_color` (`src/sdf_tools/collision_map.cpp:386-388`): alpha 0. -/
def noColour : Colour := ⟨false, 0⟩

/-- `ExportForSeparateDisplay` (`src/sdf_tools/collision_map.cpp:381-403`). -/
def exportSeparate (m : CMap) (coll free unk : Colour) : List Marker :=
  [m.exportForDisplay coll noColour noColour, m.exportForDisplay noColour free noColour,
   m.exportForDisplay noColour noColour unk]

/-- `ExportSurfacesForDisplay` (`src/sdf_tools/collision_map.cpp:405-470`). -/
def exportSurfaces (m : CMap) (coll free unk : Colour) : Marker :=
  m.dims.all.foldl (fun k i => if m.isSurface i then m.displayStep coll free unk k i else k) ⟨[], []⟩

/-- `ExportSurfacesForSeparateDisplay` (`src/sdf_tools/collision_map.cpp:472-496`). -/
def exportSurfacesSeparate (m : CMap) (coll free unk : Colour) : List Marker :=
  [m.exportSurfaces coll noColour noColour, m.exportSurfaces noColour free noColour,
   m.exportSurfaces noColour noColour unk]

/-- `ExportConnectedComponentsForDisplay` (`src/sdf_tools/collision_map.cpp:498-562`); `gen` is
`GenerateComponentColor`, `grey` the fixed grey. -/
def exportComponents (m : CMap) (gen : UInt32 → Colour) (grey : Colour) (colourUnknown : Bool) :
    Marker :=
  m.dims.all.foldl (fun k i =>
    let c := m.grid.get i
    let col := if !c.occ.eqHalf then gen c.comp
      else if colourUnknown then gen c.comp else grey
    k.push i col) ⟨[], []⟩

end CMap

end Verif
