import Verif.TaggedSdf

/-!
# Display exports of tagged maps

Model of `TaggedObjectCollisionMapGrid::ExportForDisplay`, `ExportForDisplayUniqueNs`,
`ExportContourOnlyForDisplay`, `ExportContourOnlyForDisplayUniqueNs`,
`ExportForDisplayOccupancyOnly`, `ExportConnectedComponentsForDisplay` and
`ExportConvexSegmentForDisplay` (`src/sdf_tools/tagged_object_collision_map.cpp:680-1334`).

Points have an abstract type `P` with `loc i` the position of cell `i`; colours have an abstract type
`C` with `shown c` for `c.a > 0`.  The external colour generator (`GenerateComponentColor`,
`include/sdf_tools/tagged_object_collision_map.hpp:50-55`) is the parameter `gen`.  A marker keeps the
fields that vary between markers; its namespace is a fixed prefix followed by the decimal object id and
is modelled by the id.
-/

namespace Verif

/-- `visualization_msgs::Marker`, varying fields. -/
structure DMarker (P C : Type) where
  ns : UInt32
  points : List P
  colors : List C
deriving DecidableEq, Repr

/-- `objects_to_draw_map` and `display_rep.markers`. -/
structure DState (P C : Type) where
  idx : List (UInt32 × UInt32)
  markers : List (DMarker P C)

namespace TMap

variable {P C : Type}

/-- A new marker without points for an object, recorded in the map under `k`
(`src/sdf_tools/tagged_object_collision_map.cpp:739-741, 756-761, 851-853, 868-873, 989-991`). -/
def pushMarker (st : DState P C) (id k : UInt32) : DState P C :=
  ⟨OMap.insert id k st.idx, st.markers ++ [⟨id, [], []⟩]⟩

/-- `auto& marker = display_rep.markers.at(k)` and the two `push_back`
(`src/sdf_tools/tagged_object_collision_map.cpp:779-781`); `none`: `at` throws. -/
def addPoint (st : DState P C) (k : UInt32) (p : P) (c : C) : Option (DState P C) :=
  match st.markers[k.toNat]? with
  | none => none
  | some w => some ⟨st.idx, st.markers.set k.toNat ⟨w.ns, w.points ++ [p], w.colors ++ [c]⟩⟩

/-- Removal of the markers without points
(`src/sdf_tools/tagged_object_collision_map.cpp:787-796`). -/
def prune (l : List (DMarker P C)) : List (DMarker P C) := l.filter fun w => !w.points.isEmpty

/-- The single marker of `ExportForDisplay(alpha, objects_to_draw)`
(`src/sdf_tools/tagged_object_collision_map.cpp:680-724`). -/
def exportObjects (gen : UInt32 → C) (shown : C → Bool) (loc : Idx → P) (m : TMap)
    (objs : List UInt32) : List P × List C :=
  m.dims.all.foldl (fun acc i =>
    let id := (m.grid.get i).obj
    if objs.isEmpty || objs.contains id then
      if shown (gen id) then (acc.1 ++ [loc i], acc.2 ++ [gen id]) else acc
    else acc) ([], [])

/-- Markers of the listed objects (`src/sdf_tools/tagged_object_collision_map.cpp:736-742`); the list
position is cast to `uint32_t`. -/
def listMarkers (objs : List UInt32) : DState P C :=
  objs.foldl (fun st id => pushMarker st id (UInt32.ofNat st.markers.length)) ⟨[], []⟩

/-- One cell of the loop of `ExportForDisplayUniqueNs(alpha, objects_to_draw)`
(`src/sdf_tools/tagged_object_collision_map.cpp:750-783`). -/
def stepUnique (gen : UInt32 → C) (shown : C → Bool) (loc : Idx → P) (m : TMap) (drawAll : Bool)
    (st : DState P C) (i : Idx) : Option (DState P C) :=
  let id := (m.grid.get i).obj
  let st := if drawAll && id != 0 && (OMap.find id st.idx).isNone then
    pushMarker st id (UInt32.ofNat st.idx.length) else st
  match OMap.find id st.idx with
  | none => some st
  | some k => if shown (gen id) then addPoint st k (loc i) (gen id) else some st

/-- `ExportForDisplayUniqueNs(alpha, objects_to_draw)`
(`src/sdf_tools/tagged_object_collision_map.cpp:726-797`). -/
def exportUnique (gen : UInt32 → C) (shown : C → Bool) (loc : Idx → P) (m : TMap)
    (objs : List UInt32) : Option (List (DMarker P C)) :=
  (m.dims.all.foldlM (stepUnique gen shown loc m objs.isEmpty) (listMarkers objs)).map
    fun st => prune st.markers

/-- `color_map` lookup that generates and stores a missing colour
(`src/sdf_tools/tagged_object_collision_map.cpp:813-821, 878-887`). -/
def colorOf (gen : UInt32 → C) (cmap : List (UInt32 × C)) (id : UInt32) : List (UInt32 × C) × C :=
  match OMap.find id cmap with
  | some c => (cmap, c)
  | none => (OMap.insert id (gen id) cmap, gen id)

/-- The single marker of `ExportForDisplay(color_map)`
(`src/sdf_tools/tagged_object_collision_map.cpp:799-838`). -/
def exportColors (gen : UInt32 → C) (shown : C → Bool) (loc : Idx → P) (m : TMap)
    (cmap : List (UInt32 × C)) : List P × List C :=
  (m.dims.all.foldl (fun acc i =>
    let q := colorOf gen acc.1 (m.grid.get i).obj
    if shown q.2 then (q.1, acc.2.1 ++ [loc i], acc.2.2 ++ [q.2]) else (q.1, acc.2))
    (cmap, [], [])).2

/-- One cell of the loop of `ExportForDisplayUniqueNs(color_map)`
(`src/sdf_tools/tagged_object_collision_map.cpp:862-902`). -/
def stepUniqueColors (gen : UInt32 → C) (shown : C → Bool) (loc : Idx → P) (m : TMap)
    (s : DState P C × List (UInt32 × C)) (i : Idx) : Option (DState P C × List (UInt32 × C)) :=
  let id := (m.grid.get i).obj
  let st := if id != 0 && (OMap.find id s.1.idx).isNone then
    pushMarker s.1 id (UInt32.ofNat s.1.idx.length) else s.1
  match OMap.find id st.idx with
  | none => some (st, s.2)
  | some k =>
    let q := colorOf gen s.2 id
    if shown q.2 then (addPoint st k (loc i) q.2).map fun st => (st, q.1) else some (st, q.1)

/-- `ExportForDisplayUniqueNs(color_map)`
(`src/sdf_tools/tagged_object_collision_map.cpp:840-915`). -/
def exportUniqueColors (gen : UInt32 → C) (shown : C → Bool) (loc : Idx → P) (m : TMap)
    (cmap : List (UInt32 × C)) : Option (List (DMarker P C)) :=
  (m.dims.all.foldlM (stepUniqueColors gen shown loc m)
    (listMarkers (OMap.keys cmap), cmap)).map fun s => prune s.1.markers

/-! ## Contours -/

open SdfGen

/-- `bdy_cell_min_dist`, negated: `-1.9 * GetResolution()` in double, stored as float
(`src/sdf_tools/tagged_object_collision_map.cpp:931`). -/
noncomputable def contourLimit (R : Rounding) (res : ℝ) : EReal :=
  R.r32 (R.r64 (R.r64 ((19 / 10 : ℝ) : EReal) * (res : EReal)))

/-- `dist < 0.0 && dist > bdy_cell_min_dist` for the field of the cell's own object, if there is one
(`src/sdf_tools/tagged_object_collision_map.cpp:940-948`). -/
noncomputable def onContour (R : Rounding) (res : ℝ) (m : TMap) (sdfs : List (UInt32 × Grid FVal))
    (i : Idx) : Bool :=
  match OMap.find (m.grid.get i).obj sdfs with
  | none => false
  | some g =>
    match g.get i with
    | none => false
    | some x => open Classical in decide (x < 0 ∧ -contourLimit R res < x)

/-- The fields used by the contour exports with an object list
(`src/sdf_tools/tagged_object_collision_map.cpp:922-926, 978-982`). -/
noncomputable def contourSDFs (R : Rounding) (res : ℝ) (m : TMap) (objs : List UInt32) :
    Option (List (UInt32 × Grid FVal)) :=
  if objs.isEmpty then makeAllObjectSDFs R (res, res, res) m true false
  else makeObjectSDFs R (res, res, res) m objs true false

/-- `ExportContourOnlyForDisplay(alpha, objects_to_draw)`
(`src/sdf_tools/tagged_object_collision_map.cpp:917-970`). -/
noncomputable def exportContour (R : Rounding) (res : ℝ) (gen : UInt32 → C) (shown : C → Bool)
    (loc : Idx → P) (m : TMap) (objs : List UInt32) : Option (List P × List C) :=
  (contourSDFs R res m objs).map fun sdfs =>
    m.dims.all.foldl (fun acc i =>
      if onContour R res m sdfs i then
        if shown (gen (m.grid.get i).obj) then
          (acc.1 ++ [loc i], acc.2 ++ [gen (m.grid.get i).obj]) else acc
      else acc) ([], [])

/-- One cell of the loops of the two `ExportContourOnlyForDisplayUniqueNs`
(`src/sdf_tools/tagged_object_collision_map.cpp:1003-1031, 1141-1168`); `color` may throw. -/
noncomputable def stepContour (R : Rounding) (res : ℝ) (color : UInt32 → Option C) (shown : C → Bool)
    (loc : Idx → P) (m : TMap) (sdfs : List (UInt32 × Grid FVal)) (st : DState P C) (i : Idx) :
    Option (DState P C) :=
  if onContour R res m sdfs i then
    match color (m.grid.get i).obj with
    | none => none
    | some c =>
      if shown c then
        match OMap.find (m.grid.get i).obj st.idx with
        | none => none
        | some k => addPoint st k (loc i) c
      else some st
  else some st

/-- `ExportContourOnlyForDisplayUniqueNs(alpha, objects_to_draw)`
(`src/sdf_tools/tagged_object_collision_map.cpp:972-1045`). -/
noncomputable def exportContourUnique (R : Rounding) (res : ℝ) (gen : UInt32 → C) (shown : C → Bool)
    (loc : Idx → P) (m : TMap) (objs : List UInt32) : Option (List (DMarker P C)) :=
  (contourSDFs R res m objs).bind fun sdfs =>
    (m.dims.all.foldlM (stepContour R res (fun id => some (gen id)) shown loc m sdfs)
      (listMarkers (OMap.keys sdfs))).map fun st => prune st.markers

/-- Generation of the missing colours (`src/sdf_tools/tagged_object_collision_map.cpp:1056-1065,
1124-1129`). -/
def fillColors (gen : UInt32 → C) (ids : List UInt32) (cmap : List (UInt32 × C)) :
    List (UInt32 × C) :=
  ids.foldl (fun cmap id =>
    if (OMap.find id cmap).isNone then OMap.insert id (gen id) cmap else cmap) cmap

/-- `ExportContourOnlyForDisplayUniqueNs(color_map)`
(`src/sdf_tools/tagged_object_collision_map.cpp:1108-1182`). -/
noncomputable def exportContourUniqueColors (R : Rounding) (res : ℝ) (gen : UInt32 → C)
    (shown : C → Bool) (loc : Idx → P) (m : TMap) (cmap : List (UInt32 × C)) :
    Option (List (DMarker P C)) :=
  (makeAllObjectSDFs R (res, res, res) m true false).bind fun sdfs =>
    (m.dims.all.foldlM (stepContour R res
      (fun id => OMap.find id (fillColors gen (OMap.keys sdfs) cmap)) shown loc m sdfs)
      (listMarkers (OMap.keys sdfs))).map fun st => prune st.markers

/-- `ExportContourOnlyForDisplay(color_map)`
(`src/sdf_tools/tagged_object_collision_map.cpp:1050-1106`); `none` also for a throwing
`color_map.at`. -/
noncomputable def exportContourColors (R : Rounding) (res : ℝ) (gen : UInt32 → C) (shown : C → Bool)
    (loc : Idx → P) (m : TMap) (cmap : List (UInt32 × C)) : Option (List P × List C) :=
  (makeAllObjectSDFs R (res, res, res) m true false).bind fun sdfs =>
    m.dims.all.foldlM (fun acc i =>
      if onContour R res m sdfs i then
        match OMap.find (m.grid.get i).obj (fillColors gen (OMap.keys sdfs) cmap) with
        | none => none
        | some c => if shown c then some (acc.1 ++ [loc i], acc.2 ++ [c]) else some acc
      else some acc) ([], [])

/-! ## Single-marker exports of occupancy, components and segments -/

/-- `ExportForDisplayOccupancyOnly` (`src/sdf_tools/tagged_object_collision_map.cpp:1188-1233`). -/
def exportOccupancy (shown : C → Bool) (loc : Idx → P) (m : TMap) (collision free unknown : C) :
    List P × List C :=
  m.dims.all.foldl (fun acc i =>
    let c := if (m.grid.get i).occ.gtHalf then collision
      else if (m.grid.get i).occ.ltHalf then free else unknown
    if shown c then (acc.1 ++ [loc i], acc.2 ++ [c]) else acc) ([], [])

/-- `ExportConnectedComponentsForDisplay`
(`src/sdf_tools/tagged_object_collision_map.cpp:1235-1283`). -/
def exportComponents (gen : UInt32 → C) (grey : C) (loc : Idx → P) (m : TMap) (colorUnknown : Bool) :
    List P × List C :=
  m.dims.all.foldl (fun acc i =>
    let cell := m.grid.get i
    (acc.1 ++ [loc i], acc.2 ++ [if !cell.occ.eqHalf then gen cell.comp
      else if colorUnknown then gen cell.comp else grey])) ([], [])

/-- `ExportConvexSegmentForDisplay` (`src/sdf_tools/tagged_object_collision_map.cpp:1285-1334`);
`hot` is the external `InterpolateHotToCold`. -/
def exportSegment (gen : UInt32 → C) (hot : UInt32 → UInt32 → C) (loc : Idx → P) (m : TMap)
    (object segment : UInt32) : List P × List C :=
  m.dims.all.foldl (fun acc i =>
    let cell := m.grid.get i
    if cell.obj == object && cell.seg == segment then
      (acc.1 ++ [loc i], acc.2 ++ [if m.nSeg < 22 then gen segment else hot segment m.nSeg])
    else acc) ([], [])

end TMap

end Verif
