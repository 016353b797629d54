import Verif.Located
import Verif.SdfDisplay
import Verif.CMapExports
import Verif.TaggedDisplay
import Verif.TaggedExports
import Verif.Hashed
import Verif.GenNode

/-!
# Complete display messages

Model of the `visualization_msgs::Marker` messages returned by the display exports: the header, the pose,
the scale and the namespace, around the point and colour lists of `Verif.SdfDisplay`, `Verif.CMapExports`,
`Verif.TaggedDisplay`, `Verif.TaggedExports`, `Verif.Hashed` and `Verif.GenNode`.

Simplifications: coordinates are elements of an exact ordered field; a pose is the isometry it was converted
from (contract of `EigenIsometry3dToGeometryPose`); the time stamp and the text and mesh fields are never set.
-/

namespace Verif

/-- `visualization_msgs::Marker`, the fields set by the exports.  `color` is `none` where it is not set. -/
structure Msg (K C : Type) where
  frame : String
  ns : String
  id : Nat
  type : Nat
  action : Nat
  lifetime : Nat
  frameLocked : Bool
  pose : Aff K
  scale : V3 K
  points : List (V3 K)
  colors : List C
  color : Option C

/-- `visualization_msgs::Marker::CUBE_LIST`. -/
def cubeList : Nat := 6

/-- `visualization_msgs::Marker::ADD`. -/
def addAction : Nat := 0

/-- `std::to_string` of an unsigned number: its decimal digits. -/
def decimal (n : UInt32) : String := toString n.toNat

section

variable {K C : Type} [Field K]

/-- `GridIndexToLocationGridFrame` (contract of `VoxelGrid`): the cell centre in the grid frame. -/
def Frame.center (F : Frame K) (i : Idx) : V3 K :=
  ⟨((i.x : K) + 1 / 2) * F.res, ((i.y : K) + 1 / 2) * F.res, ((i.z : K) + 1 / 2) * F.res⟩

/-- `GridIndexToLocation` (contract of `VoxelGrid`): the cell centre in the world frame. -/
def Frame.location (F : Frame K) (i : Idx) : V3 K := F.origin.app id (F.center i)

/-- `Eigen::Isometry3d::Identity()`. -/
def Aff.identity : Aff K := ⟨⟨1, 0, 0⟩, ⟨0, 1, 0⟩, ⟨0, 0, 1⟩, ⟨0, 0, 0⟩⟩

/-- The start of the exports of fields and maps: `src/sdf_tools/sdf.cpp:507-521, 592-606`,
`src/sdf_tools/collision_map.cpp:322-336, 410-424, 502-516`, and `DefaultMarker`
(`src/sdf_tools/tagged_object_collision_map.cpp:660-678`), with the namespace set after it. -/
def Msg.start (frame : String) (F : Frame K) (ns : String) : Msg K C :=
  ⟨frame, ns, 1, cubeList, addAction, 0, false, F.origin, ⟨F.res, F.res, F.res⟩, [], [], none⟩

/-- Points and colours are pushed to the marker together. -/
def Msg.fill (k : Msg K C) (r : List (V3 K) × List C) : Msg K C := { k with points := r.1, colors := r.2 }

end

/-! ## Signed distance fields -/

namespace MSdf

variable {K : Type} [Field K] [LinearOrder K]

/-- The metric data of the field. -/
def placed (s : MSdf K) : Frame K := ⟨s.res, s.origin, s.inv⟩

/-- `SignedDistanceField::ExportForDisplay` (`src/sdf_tools/sdf.cpp:504-587`). -/
def displayMsg (frame : String) (s : MSdf K) (alpha : K) : Msg K (Rgba K) :=
  (Msg.start frame s.placed "sdf_display").fill (s.exportForDisplay alpha)

/-- `SignedDistanceField::ExportForDisplayCollisionOnly` (`src/sdf_tools/sdf.cpp:589-639`). -/
def collisionMsg (frame : String) (s : MSdf K) (alpha : K) : Msg K (Rgba K) :=
  { Msg.start frame s.placed "sdf_display" with
    points := (s.exportCollisionOnly alpha).1, color := some (s.exportCollisionOnly alpha).2 }

end MSdf

/-! ## Collision maps -/

namespace CMap

variable {K : Type} [Field K]

/-- The points of the marker are cell centres. -/
def asMsg (frame : String) (F : Frame K) (ns : String) (k : Marker) : Msg K Colour :=
  (Msg.start frame F ns).fill (k.points.map F.center, k.colours)

/-- `ExportForDisplay` (`src/sdf_tools/collision_map.cpp:317-379`). -/
def displayMsg (frame : String) (F : Frame K) (m : CMap) (coll free unk : Colour) : Msg K Colour :=
  asMsg frame F "collision_map_display" (m.exportForDisplay coll free unk)

/-- `ExportForSeparateDisplay` (`src/sdf_tools/collision_map.cpp:381-403`). -/
def separateMsgs (frame : String) (F : Frame K) (m : CMap) (coll free unk : Colour) : List (Msg K Colour) :=
  [{ displayMsg frame F m coll noColour noColour with ns := "collision_only" },
   { displayMsg frame F m noColour free noColour with ns := "free_only" },
   { displayMsg frame F m noColour noColour unk with ns := "unknown_only" }]

/-- `ExportSurfacesForDisplay` (`src/sdf_tools/collision_map.cpp:405-470`). -/
def surfacesMsg (frame : String) (F : Frame K) (m : CMap) (coll free unk : Colour) : Msg K Colour :=
  asMsg frame F "collision_map_display" (m.exportSurfaces coll free unk)

/-- `ExportSurfacesForSeparateDisplay` (`src/sdf_tools/collision_map.cpp:472-496`). -/
def surfacesSeparateMsgs (frame : String) (F : Frame K) (m : CMap) (coll free unk : Colour) :
    List (Msg K Colour) :=
  [{ surfacesMsg frame F m coll noColour noColour with ns := "collision_surfaces_only" },
   { surfacesMsg frame F m noColour free noColour with ns := "free_surfaces_only" },
   { surfacesMsg frame F m noColour noColour unk with ns := "unknown_surfaces_only" }]

/-- `ExportConnectedComponentsForDisplay` (`src/sdf_tools/collision_map.cpp:498-562`). -/
def componentsMsg (frame : String) (F : Frame K) (m : CMap) (gen : UInt32 → Colour) (grey : Colour)
    (colourUnknown : Bool) : Msg K Colour :=
  asMsg frame F "connected_components_display" (m.exportComponents gen grey colourUnknown)

end CMap

/-! ## Tagged maps -/

namespace TMap

variable {K C : Type} [Field K]

/-- `ExportForDisplay(alpha, objects_to_draw)`
(`src/sdf_tools/tagged_object_collision_map.cpp:680-724`). -/
def objectsMsg (frame : String) (F : Frame K) (gen : UInt32 → C) (shown : C → Bool) (m : TMap)
    (objs : List UInt32) : Msg K C :=
  (Msg.start frame F "tagged_object_collision_map_display").fill (m.exportObjects gen shown F.center objs)

/-- `ExportForDisplay(color_map)` (`src/sdf_tools/tagged_object_collision_map.cpp:799-838`). -/
def colorsMsg (frame : String) (F : Frame K) (gen : UInt32 → C) (shown : C → Bool) (m : TMap)
    (cmap : List (UInt32 × C)) : Msg K C :=
  (Msg.start frame F "tagged_object_collision_map_display").fill (m.exportColors gen shown F.center cmap)

/-- The marker of one object: `ns_base + std::to_string(object_id)`
(`src/sdf_tools/tagged_object_collision_map.cpp:732, 740-741, 759-761, 845, 852-853, 872-874, 977, 990-991,
1112, 1122-1123`). -/
def objectMsg (frame : String) (F : Frame K) (w : DMarker (V3 K) C) : Msg K C :=
  (Msg.start frame F ("tagged_object_collision_map_display_" ++ decimal w.ns)).fill (w.points, w.colors)

/-- `ExportForDisplayUniqueNs(alpha, objects_to_draw)`
(`src/sdf_tools/tagged_object_collision_map.cpp:726-797`). -/
def uniqueMsgs (frame : String) (F : Frame K) (gen : UInt32 → C) (shown : C → Bool) (m : TMap)
    (objs : List UInt32) : Option (List (Msg K C)) :=
  (m.exportUnique gen shown F.center objs).map fun l => l.map (objectMsg frame F)

/-- `ExportForDisplayUniqueNs(color_map)`
(`src/sdf_tools/tagged_object_collision_map.cpp:840-914`). -/
def uniqueColorsMsgs (frame : String) (F : Frame K) (gen : UInt32 → C) (shown : C → Bool) (m : TMap)
    (cmap : List (UInt32 × C)) : Option (List (Msg K C)) :=
  (m.exportUniqueColors gen shown F.center cmap).map fun l => l.map (objectMsg frame F)

/-- `ExportForDisplayOccupancyOnly` (`src/sdf_tools/tagged_object_collision_map.cpp:1188-1233`). -/
def occupancyMsg (frame : String) (F : Frame K) (shown : C → Bool) (m : TMap) (collision free unknown : C) :
    Msg K C :=
  (Msg.start frame F "tagged_object_collision_map_occupancy_display").fill
    (m.exportOccupancy shown F.center collision free unknown)

/-- `ExportConnectedComponentsForDisplay`
(`src/sdf_tools/tagged_object_collision_map.cpp:1235-1283`). -/
def componentsMsg (frame : String) (F : Frame K) (gen : UInt32 → C) (grey : C) (m : TMap)
    (colorUnknown : Bool) : Msg K C :=
  (Msg.start frame F "tagged_object_connected_components_display").fill
    (m.exportComponents gen grey F.center colorUnknown)

/-- `ExportConvexSegmentForDisplay` (`src/sdf_tools/tagged_object_collision_map.cpp:1285-1334`). -/
def segmentMsg (frame : String) (F : Frame K) (gen : UInt32 → C) (hot : UInt32 → UInt32 → C) (m : TMap)
    (object segment : UInt32) : Msg K C :=
  (Msg.start frame F ("tagged_object_" ++ decimal object ++ "_convex_segment_" ++ decimal segment ++
    "_display")).fill (m.exportSegment gen hot F.center object segment)

/-- `ExportSurfaceForDisplay` (`src/sdf_tools/tagged_object_collision_map.cpp:1336-1365`). -/
def surfaceMsg (frame : String) (F : Frame K) (surface : List (Idx × UInt8)) (colour : C) : Msg K C :=
  (Msg.start frame F "tagged_object_collision_map_surface").fill (exportSurface F.center surface colour)

/-- `ExportContourOnlyForDisplay(alpha, objects_to_draw)`
(`src/sdf_tools/tagged_object_collision_map.cpp:917-970`). -/
noncomputable def contourMsg (R : Rounding) (frame : String) (F : Frame ℝ) (gen : UInt32 → C)
    (shown : C → Bool) (m : TMap) (objs : List UInt32) : Option (Msg ℝ C) :=
  (m.exportContour R F.res gen shown F.center objs).map
    (Msg.start frame F "tagged_object_collision_map_display").fill

/-- `ExportContourOnlyForDisplay(color_map)`
(`src/sdf_tools/tagged_object_collision_map.cpp:1050-1106`). -/
noncomputable def contourColorsMsg (R : Rounding) (frame : String) (F : Frame ℝ) (gen : UInt32 → C)
    (shown : C → Bool) (m : TMap) (cmap : List (UInt32 × C)) : Option (Msg ℝ C) :=
  (m.exportContourColors R F.res gen shown F.center cmap).map
    (Msg.start frame F "tagged_object_collision_map_display").fill

/-- `ExportContourOnlyForDisplayUniqueNs(alpha, objects_to_draw)`
(`src/sdf_tools/tagged_object_collision_map.cpp:972-1045`). -/
noncomputable def contourUniqueMsgs (R : Rounding) (frame : String) (F : Frame ℝ) (gen : UInt32 → C)
    (shown : C → Bool) (m : TMap) (objs : List UInt32) : Option (List (Msg ℝ C)) :=
  (m.exportContourUnique R F.res gen shown F.center objs).map fun l => l.map (objectMsg frame F)

/-- `ExportContourOnlyForDisplayUniqueNs(color_map)`
(`src/sdf_tools/tagged_object_collision_map.cpp:1108-1182`). -/
noncomputable def contourUniqueColorsMsgs (R : Rounding) (frame : String) (F : Frame ℝ) (gen : UInt32 → C)
    (shown : C → Bool) (m : TMap) (cmap : List (UInt32 × C)) : Option (List (Msg ℝ C)) :=
  (m.exportContourUniqueColors R F.res gen shown F.center cmap).map fun l => l.map (objectMsg frame F)

end TMap

/-! ## Hashed maps -/

namespace HMap

variable {K C : Type} [Field K]

/-- The two markers get the identity as pose
(`src/sdf_tools/dynamic_spatial_hashed_collision_map.cpp:97-102, 114-118`). -/
def asMsg (k : HMarker (V3 K) C) : Msg K C :=
  ⟨k.frame, k.ns, k.id, cubeList, addAction, 0, false, Aff.identity, k.scale, k.points, k.colors, none⟩

/-- `ExportForDisplay` (`src/sdf_tools/dynamic_spatial_hashed_collision_map.cpp:85-199`).  `loc` gives
grid-frame positions, which are moved to the world frame by the origin transform. -/
def displayMsgs (frame : String) (origin : Aff K) (chunkSize cellSize : V3 K) (loc : HChunk → Idx → V3 K)
    (chunks : List HChunk) (coll free unk : C) : List (Msg K C) :=
  (exportForDisplay frame chunkSize cellSize loc (fun p => origin.app id p) chunks coll free unk).map asMsg

end HMap

/-! ## The generator node -/

namespace GenNode

variable {K : Type} [Field K]

/-- `ExportCollisionMapForDisplay` (`src/sdf_generation_node.cpp:7-58`): identity pose, world positions,
one colour. -/
def collisionMsg (F : Frame K) (g : Grid Nat) (frame : String) (alpha : K) : Option (Msg K (Rgba K)) :=
  (exportCollisionMap F.location g).map fun pts =>
    ⟨frame, "collision_map_display", 1, cubeList, addAction, 0, false, Aff.identity,
      ⟨F.res, F.res, F.res⟩, pts, pts.map fun _ => ⟨1, 0, 0, alpha⟩, none⟩

/-- The two messages published in one pass (`src/sdf_generation_node.cpp:95, 102`): the collision map `g` is
displayed in the frame `"base"`; the field `s` carries the frame of the builder
(`src/sdf_tools/sdf_builder.cpp:21, 359`), which is the parameter `sdf_origin_frame` of the node
(`src/sdf_generation_node.cpp:73, 83`). -/
def published [LinearOrder K] (originFrame : String) (g : Grid Nat) (s : MSdf K) :
    Option (List (Msg K (Rgba K))) :=
  (collisionMsg s.placed g "base" 1).map fun k => [k, s.displayMsg originFrame (1 / 10)]

end GenNode

end Verif
