import Verif.FrameFloat

/-!
# The automatic-differentiation gradient in floating point

Model of `GetAutoDiffGradient` (`include/sdf_tools/sdf.hpp:600-652`) and of the interpolation it instantiates with
`Eigen::AutoDiffScalar<Eigen::Vector4d>`, every operation followed by one rounding.  The derivative with respect to
the fourth, homogeneous, coordinate is left out: it never feeds into the first three, which are the only ones returned.
-/

namespace Verif

open Fl

/-- `Eigen::AutoDiffScalar`: a value and its three partial derivatives. -/
structure FDual where
  val : FVal
  d : V3 FVal

namespace FDual

variable (R : Rounding)

/-- `operator+` of two `AutoDiffScalar`s (Eigen). -/
noncomputable def add (a b : FDual) : FDual :=
  ⟨Fl.add R a.val b.val, ⟨Fl.add R a.d.x b.d.x, Fl.add R a.d.y b.d.y, Fl.add R a.d.z b.d.z⟩⟩

/-- `operator-` of two `AutoDiffScalar`s (Eigen). -/
noncomputable def sub (a b : FDual) : FDual :=
  ⟨Fl.sub R a.val b.val, ⟨Fl.sub R a.d.x b.d.x, Fl.sub R a.d.y b.d.y, Fl.sub R a.d.z b.d.z⟩⟩

/-- `operator*` of two `AutoDiffScalar`s (Eigen): `a.derivatives() * b.value() + b.derivatives() * a.value()`. -/
noncomputable def mul (a b : FDual) : FDual :=
  ⟨Fl.mul R a.val b.val,
    ⟨Fl.add R (Fl.mul R a.d.x b.val) (Fl.mul R b.d.x a.val),
     Fl.add R (Fl.mul R a.d.y b.val) (Fl.mul R b.d.y a.val),
     Fl.add R (Fl.mul R a.d.z b.val) (Fl.mul R b.d.z a.val)⟩⟩

/-- `double - AutoDiffScalar` (Eigen). -/
noncomputable def fromConst (c : FVal) (a : FDual) : FDual :=
  ⟨Fl.sub R c a.val, ⟨neg a.d.x, neg a.d.y, neg a.d.z⟩⟩

/-- `AutoDiffScalar - double` (Eigen). -/
noncomputable def minusConst (a : FDual) (c : FVal) : FDual := ⟨Fl.sub R a.val c, a.d⟩

/-- `AutoDiffScalar * double` and `double * AutoDiffScalar` (Eigen). -/
noncomputable def scale (a : FDual) (c : FVal) : FDual :=
  ⟨Fl.mul R a.val c, ⟨Fl.mul R a.d.x c, Fl.mul R a.d.y c, Fl.mul R a.d.z c⟩⟩

/-- A `double` converted to `AutoDiffScalar`: derivatives zero. -/
noncomputable def const (c : FVal) : FDual := ⟨c, ⟨real 0, real 0, real 0⟩⟩

/-- The location with the derivatives seeded by `Vector4d::Unit` (`include/sdf_tools/sdf.hpp:622-630`). -/
noncomputable def seed (p : V3 FVal) : V3 FDual :=
  ⟨⟨p.x, ⟨real 1, real 0, real 0⟩⟩, ⟨p.y, ⟨real 0, real 1, real 0⟩⟩, ⟨p.z, ⟨real 0, real 0, real 1⟩⟩⟩

/-- One entry of `inverse_origin_transform_ * query_location` (`include/sdf_tools/sdf.hpp:909-910`), the four products
added from left to right. -/
noncomputable def rowApp (r : V3 ℝ) (t : ℝ) (p : V3 FDual) : FDual :=
  add R (add R (add R (scale R p.x (real r.x)) (scale R p.y (real r.y))) (scale R p.z (real r.z)))
    (scale R (const (real 1)) (real t))

/-- The same entry, the four products added in pairs, as Eigen does for scalar types without vector instructions. -/
noncomputable def rowPairs (r : V3 ℝ) (t : ℝ) (p : V3 FDual) : FDual :=
  add R (add R (scale R p.x (real r.x)) (scale R p.y (real r.y)))
    (add R (scale R p.z (real r.z)) (scale R (const (real 1)) (real t)))

/-- `inverse_origin_transform_ * query_location` for either order of the additions. -/
noncomputable def affApp (row : V3 ℝ → ℝ → V3 FDual → FDual) (a : Aff ℝ) (p : V3 FDual) : V3 FDual :=
  ⟨row a.rx a.t.x p, row a.ry a.t.y p, row a.rz a.t.z p⟩

/-- `BilinearInterpolate<AutoDiffScalar>` (`include/sdf_tools/sdf.hpp:699-726`). -/
noncomputable def bilinear (low1 high1 low2 high2 : FVal) (q1 q2 : FDual) (ll lh hl hh : FVal) : FDual :=
  let m := const (Fl.div R (real 1) (Fl.mul R (Fl.sub R high1 low1) (Fl.sub R high2 low2)))
  let a := mul R m (fromConst R high1 q1)
  let b := mul R m (minusConst R q1 low1)
  add R (mul R (add R (mul R a (const ll)) (mul R b (const hl))) (fromConst R high2 q2))
    (mul R (add R (mul R a (const lh)) (mul R b (const hh))) (minusConst R q2 low2))

/-- `BilinearInterpolateDistanceXY<AutoDiffScalar>` (`include/sdf_tools/sdf.hpp:728-743`). -/
noncomputable def bilinearXY (res : ℝ) (corner : V3 FVal) (q : V3 FDual) (mm mp pm pp : FVal) : FDual :=
  bilinear R corner.x (Fl.add R corner.x (real res)) corner.y (Fl.add R corner.y (real res)) q.x q.y mm mp pm pp

/-- `TrilinearInterpolateDistance<AutoDiffScalar>` (`include/sdf_tools/sdf.hpp:745-771`). -/
noncomputable def trilinear (res : ℝ) (corner : V3 FVal) (q : V3 FDual)
    (mmm mmp mpm mpp pmm pmp ppm ppp : FVal) : FDual :=
  let lo := bilinearXY R res corner q mmm mpm pmm ppm
  let hi := bilinearXY R res corner q mmp mpp pmp ppp
  let inv := Fl.div R (real 1) (real res)
  let slope := scale R (sub R hi lo) inv
  let dz := sub R q.z (const corner.z)
  add R lo (mul R dz slope)

end FDual

namespace FSdf

variable (R : Rounding)

/-- `EstimateDistanceInterpolateFromNeighborsGridFrame<AutoDiffScalar>` (`include/sdf_tools/sdf.hpp:835-901`); the
comparison of an offset with zero looks at its value. -/
noncomputable def estGridD (s : FSdf) (p : V3 FDual) (i : Idx) : Option FDual := do
  let c := s.center R i
  let ax := axisIdx i.x s.grid.dims.nx (SdfGen.geZero (sub R p.x.val c.x))
  let ay := axisIdx i.y s.grid.dims.ny (SdfGen.geZero (sub R p.y.val c.y))
  let az := axisIdx i.z s.grid.dims.nz (SdfGen.geZero (sub R p.z.val c.z))
  let mmm ← s.corrected R ⟨ax.1, ay.1, az.1⟩
  let mmp ← s.corrected R ⟨ax.1, ay.1, az.2⟩
  let mpm ← s.corrected R ⟨ax.1, ay.2, az.1⟩
  let mpp ← s.corrected R ⟨ax.1, ay.2, az.2⟩
  let pmm ← s.corrected R ⟨ax.2, ay.1, az.1⟩
  let pmp ← s.corrected R ⟨ax.2, ay.1, az.2⟩
  let ppm ← s.corrected R ⟨ax.2, ay.2, az.1⟩
  let ppp ← s.corrected R ⟨ax.2, ay.2, az.2⟩
  pure (FDual.trilinear R s.res (s.center R ⟨ax.1, ay.1, az.1⟩) p mmm mmp mpm mpp pmm pmp ppm ppp)

/-- `GetAutoDiffGradient(x, y, z)`, `GetAutoDiffGradient3d`, `GetAutoDiffGradient4d`
(`include/sdf_tools/sdf.hpp:600-640`).  `toGrid` is the product with the stored inverse transform, `locIdx` the lookup
of the base class; the outer `none` is an exception. -/
noncomputable def autoDiffGradient (toGrid : V3 FDual → V3 FDual) (locIdx : V3 FVal → Idx) (s : FSdf) (p : V3 FVal) :
    Option (List FVal) :=
  if s.grid.dims.inB (locIdx p) then
    (s.estGridD R (toGrid (FDual.seed p)) (locIdx p)).map fun a => [a.d.x, a.d.y, a.d.z]
  else some []

/-- `GetAutoDiffGradient(index)` (`include/sdf_tools/sdf.hpp:642-652`). -/
noncomputable def autoDiffGradientIdx (toGrid : V3 FDual → V3 FDual) (toWorld : V3 FVal → V3 FVal)
    (locIdx : V3 FVal → Idx) (s : FSdf) (i : Idx) : Option (List FVal) :=
  s.autoDiffGradient R toGrid locIdx (toWorld (s.center R i))

end FSdf

end Verif
