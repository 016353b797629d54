import Verif.Extrema
import Verif.TaggedSdf

/-!
# Convex segmentation of a tagged map

Model of `TaggedObjectCollisionMapGrid::UpdateConvexSegments`
(`src/sdf_tools/tagged_object_collision_map.cpp:552-654`) from the map's cells to the labels:
distance field, local extrema map, connected components.

Simplification: the stored distances are converted to reals before gradients are taken (gradient
arithmetic is exact, as in `Verif.Interp`).  An infinite distance becomes 0.  Unless a distance
overflows `float`, the fields used here are infinite either everywhere or nowhere, and a field that is
infinite everywhere has gradients of NaN or 0, which the path following treats as a zero step: every
cell is its own extremum, as for the constant 0.  `Verif.ConvexFloat` removes this simplification.
-/

namespace Verif

namespace TMap

open SdfGen

/-- The value of a stored distance in the gradient. -/
noncomputable def realOf (x : FVal) : ℝ := (x.getD 0).toReal

/-- An extracted field with its metric data. -/
noncomputable def asMSdf (res : ℝ) (origin inv : Aff ℝ) (g : Grid FVal) : MSdf ℝ :=
  ⟨⟨g.dims, g.data.map realOf, realOf g.dflt, realOf g.oob⟩, res, origin, inv⟩

/-- `sdf_result` (`src/sdf_tools/tagged_object_collision_map.cpp:556-563`). -/
noncomputable def segField (R : Rounding) (res : ℝ) (m : TMap) (border : Bool) : Option Out :=
  if border then m.extractObjs R (res, res, res) (some ⊤) [] true true
  else m.extractFreeNamed R (res, res, res) (some ⊤) true

/-- `maxima_distance < connected_threshold`
(`src/sdf_tools/tagged_object_collision_map.cpp:585-594`).  With an infinite entry the norm is
infinite or NaN, so the comparison is false. -/
noncomputable def extremaClose (s : MSdf ℝ) (thr : ℝ) : Extremum → Extremum → Bool
  | .center a, .center b =>
    open Classical in
    let p := s.center a
    let q := s.center b
    decide (Real.sqrt ((p.x - q.x) ^ 2 + (p.y - q.y) ^ 2 + (p.z - q.z) ^ 2) < thr)
  | _, _ => false

/-- `std::isinf` of a coordinate (`src/sdf_tools/tagged_object_collision_map.cpp:611-613`). -/
def extremumInfinite : Extremum → Bool
  | .center _ => false
  | _ => true

/-- What the closures read from the extrema map. -/
noncomputable def segDataOf (s : MSdf ℝ) (thr : ℝ) (e : Grid Extremum) : SegData :=
  ⟨fun i => extremumInfinite (e.get i), fun i j => extremaClose s thr (e.get i) (e.get j)⟩

/-- `UpdateConvexSegments(connected_threshold, add_virtual_border)`
(`src/sdf_tools/tagged_object_collision_map.cpp:552-654`): the new map and the number of segments;
`none`: an exception, undefined behaviour or no termination. -/
noncomputable def updateConvex (R : Rounding) (res : ℝ) (origin inv : Aff ℝ) (m : TMap) (thr : ℝ)
    (border : Bool) : Option (TMap × Nat) :=
  match m.segField R res border with
  | none => none
  | some o =>
    let s := asMSdf res origin inv o.sdf
    match s.gradField.extremaMap s.grid.dims with
    | none => none
    | some e => m.updateSeg (segDataOf s thr e)

end TMap

end Verif
