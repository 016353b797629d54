import Verif.SmoothFloat
import Verif.ConvexSegments

/-!
# Local extrema and convex segmentation in floating point

Model of `GetGradient`, `ComputeLocalExtremaMap` and `UpdateConvexSegments` with the values that `float` and `double`
can have.  The path following itself is `GradField.extremaMap` (`Verif.Extrema`), which takes its comparisons as
parameters; here they are the comparisons of doubles, false for NaN.
-/

namespace Verif

namespace FSdf

open Fl

variable (R : Rounding)

/-- `GetGradient` (`include/sdf_tools/sdf.hpp:405-430`).  `rot` is the rotation by the quaternion of the origin
(Eigen). -/
noncomputable def gradient (rot : V3 FVal → V3 FVal) (s : FSdf) (i : Idx) (edges : Bool) : List FVal :=
  match s.gridGrad R i edges with
  | [gx, gy, gz] =>
    let r := rot ⟨gx, gy, gz⟩
    [r.x, r.y, r.z]
  | _ => []

/-- A quaternion of doubles. -/
structure Quat where
  w : FVal
  x : FVal
  y : FVal
  z : FVal

/-- Eigen's product of quaternions. -/
noncomputable def Quat.mul (a b : Quat) : Quat where
  w := sub R (sub R (sub R (Fl.mul R a.w b.w) (Fl.mul R a.x b.x)) (Fl.mul R a.y b.y)) (Fl.mul R a.z b.z)
  x := sub R (add R (add R (Fl.mul R a.w b.x) (Fl.mul R a.x b.w)) (Fl.mul R a.y b.z)) (Fl.mul R a.z b.y)
  y := sub R (add R (add R (Fl.mul R a.w b.y) (Fl.mul R a.y b.w)) (Fl.mul R a.z b.x)) (Fl.mul R a.x b.z)
  z := sub R (add R (add R (Fl.mul R a.w b.z) (Fl.mul R a.z b.w)) (Fl.mul R a.x b.y)) (Fl.mul R a.y b.x)

/-- The rotation of `GetGradient` (`include/sdf_tools/sdf.hpp:415-426`) by a quaternion `q` with inverse `qi`. -/
noncomputable def rotate (q qi : Quat) (v : V3 FVal) : V3 FVal :=
  let r := q.mul R (Quat.mul R ⟨real 0, v.x, v.y, v.z⟩ qi)
  ⟨r.x, r.y, r.z⟩

/-- `step_resolution` (`src/sdf_tools/sdf.cpp:131, 156`). -/
noncomputable def stepRes (s : FSdf) : FVal := mul R (real s.res) (some (R.r64 ((49 / 800 : ℝ) : EReal)))

/-- What the path following reads from the field (`src/sdf_tools/sdf.cpp:23-183`). -/
noncomputable def gradField (rot : V3 FVal → V3 FVal) (s : FSdf) : GradField FVal where
  grad i := s.gradient R rot i true
  neg i := lt (s.grid.get i) (real 0)
  small v := le (fabs v) (s.stepRes R)
  up v := lt (s.stepRes R) v
  down v := lt v (neg (s.stepRes R))
  negate v := mul R v (real (-1))

/-- The vector stored for an extremum (`src/sdf_tools/sdf.cpp:43-45, 66-68, 77-80, 188-193`). -/
noncomputable def extremumPos (s : FSdf) : Extremum → V3 FVal
  | .unset => ⟨some ⊥, some ⊥, some ⊥⟩
  | .offGrid => ⟨some ⊤, some ⊤, some ⊤⟩
  | .center i => s.center R i

/-- `std::isinf`. -/
noncomputable def isInf (a : FVal) : Bool := open Classical in decide (a = some ⊤ ∨ a = some ⊥)

/-- What the closures of `UpdateConvexSegments` read from the extrema map
(`src/sdf_tools/tagged_object_collision_map.cpp:585-594, 613-618`); `norm` is Eigen's norm of a vector. -/
noncomputable def segData (norm : V3 FVal → FVal) (s : FSdf) (thr : FVal) (e : Grid Extremum) : SegData where
  far i :=
    let p := s.extremumPos R (e.get i)
    isInf p.x || isInf p.y || isInf p.z
  near i j :=
    let p := s.extremumPos R (e.get i)
    let q := s.extremumPos R (e.get j)
    lt (norm ⟨sub R p.x q.x, sub R p.y q.y, sub R p.z q.z⟩) thr

end FSdf

/-- `UpdateConvexSegments(connected_threshold, add_virtual_border)`
(`src/sdf_tools/tagged_object_collision_map.cpp:552-654`): the new map and the number of segments;
`none`: an exception, undefined behaviour or no termination. -/
noncomputable def TMap.updateConvexF (R : Rounding) (res : ℝ) (rot : V3 FVal → V3 FVal) (norm : V3 FVal → FVal)
    (m : TMap) (thr : FVal) (border : Bool) : Option (TMap × Nat) :=
  match m.segField R res border with
  | none => none
  | some o =>
    let s : FSdf := ⟨o.sdf, res⟩
    match (s.gradField R rot).extremaMap s.grid.dims with
    | none => none
    | some e => m.updateSeg (s.segData R norm thr e)

end Verif
