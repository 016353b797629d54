import Verif.Grid
import Mathlib.Algebra.Order.Floor.Ring
import Mathlib.Algebra.Order.Field.Basic
import Mathlib.Tactic.FieldSimp
import Mathlib.Tactic.NormNum

/-!
# Interpolation, gradients, boundary distance and projection

Model of `include/sdf_tools/sdf.hpp:341-1191`.

Simplifications: `double` and `float` arithmetic is replaced by an exact ordered field `K`, so
stored values are finite and rounding error is not modelled.  The rotation by a quaternion in
`GetGradient` is the linear part of the origin transform (they agree for rotations).
-/

namespace Verif

/-- `Eigen::Vector3d`, and the first three entries of the homogeneous `Eigen::Vector4d`. -/
@[ext] structure V3 (K : Type) where
  x : K
  y : K
  z : K
deriving DecidableEq, Repr

/-- The three rows of the affine part of an `Eigen::Isometry3d`. -/
structure Aff (K : Type) where
  rx : V3 K
  ry : V3 K
  rz : V3 K
  t : V3 K

section ops
variable {K : Type} [Add K] [Sub K] [Mul K]

/-- Componentwise vector operations of Eigen. -/
def V3.add (a b : V3 K) : V3 K := ⟨a.x + b.x, a.y + b.y, a.z + b.z⟩
def V3.smul (c : K) (a : V3 K) : V3 K := ⟨c * a.x, c * a.y, c * a.z⟩
def V3.dot (a b : V3 K) : K := a.x * b.x + a.y * b.y + a.z * b.z

/-- `transform * location` for a homogeneous location with last entry 1.  `ι` embeds the transform's
entries (needed when the location is an automatic-differentiation vector). -/
def Aff.app {T : Type} [Add T] [Mul T] (ι : K → T) (a : Aff K) (p : V3 T) : V3 T :=
  ⟨ι a.rx.x * p.x + ι a.rx.y * p.y + ι a.rx.z * p.z + ι a.t.x,
   ι a.ry.x * p.x + ι a.ry.y * p.y + ι a.ry.z * p.z + ι a.t.y,
   ι a.rz.x * p.x + ι a.rz.y * p.y + ι a.rz.z * p.z + ι a.t.z⟩

/-- `transform * vector` for a homogeneous vector with last entry 0. -/
def Aff.lin (a : Aff K) (p : V3 K) : V3 K := ⟨a.rx.dot p, a.ry.dot p, a.rz.dot p⟩

end ops

/-- A signed distance field with its metric data: the stored values (`VoxelGrid<float>`), the cell
size (`GetResolution`, `include/sdf_tools/sdf.hpp:93-96`), `origin_transform_` and
`inverse_origin_transform_` (base class). -/
structure MSdf (K : Type) where
  grid : Grid K
  res : K
  origin : Aff K
  inv : Aff K

namespace MSdf

variable {K : Type} [Field K] [LinearOrder K]

/-- World frame to grid frame. -/
def toGrid (s : MSdf K) (p : V3 K) : V3 K := s.inv.app id p

/-- Grid frame to world frame. -/
def toWorld (s : MSdf K) (p : V3 K) : V3 K := s.origin.app id p

/-- `GetXSize` etc.: number of cells times cell size (contract of `VoxelGrid`). -/
def size (s : MSdf K) : V3 K :=
  ⟨(s.grid.dims.nx : K) * s.res, (s.grid.dims.ny : K) * s.res, (s.grid.dims.nz : K) * s.res⟩

/-- `GridIndexToLocationGridFrame` (contract of `VoxelGrid`): the cell centre. -/
def center (s : MSdf K) (i : Idx) : V3 K :=
  ⟨((i.x : K) + 1 / 2) * s.res, ((i.y : K) + 1 / 2) * s.res, ((i.z : K) + 1 / 2) * s.res⟩

/-- `PointInFrameToGridIndex4d` (contract of `VoxelGrid`): the cell of a grid-frame point. -/
def cellOf [FloorRing K] (s : MSdf K) (p : V3 K) : Idx :=
  ⟨⌊p.x / s.res⌋, ⌊p.y / s.res⌋, ⌊p.z / s.res⌋⟩

/-- `LocationToGridIndex*` (contract of `VoxelGrid`). -/
def locIdx [FloorRing K] (s : MSdf K) (p : V3 K) : Idx := s.cellOf (s.toGrid p)

/-- `LocationInBounds*` (contract of `VoxelGrid`). -/
def locInB [FloorRing K] (s : MSdf K) (p : V3 K) : Bool := s.grid.dims.inB (s.locIdx p)

/-! ## Interpolation -/

/-- `GetCorrectedCenterDistance` (`include/sdf_tools/sdf.hpp:773-796`); `none` is
`std::invalid_argument`. -/
def corrected (s : MSdf K) (i : Idx) : Option K :=
  if s.grid.dims.inB i then
    if s.grid.get i ≥ 0 then some (s.grid.get i - s.res * (1 / 2))
    else some (s.grid.get i + s.res * (1 / 2))
  else none

/-- `GetAxisInterpolationIndices` (`include/sdf_tools/sdf.hpp:798-833`). -/
def axisIdx (i n : Int) (off : K) : Int × Int :=
  if off ≥ 0 then
    if i + 1 ≥ n then
      if i - 1 < 0 then (i, i) else (i - 1, i)
    else (i, i + 1)
  else
    if i - 1 < 0 then
      if i + 1 ≥ n then (i, i) else (i, i + 1)
    else (i - 1, i)

/-- `BilinearInterpolate` (`include/sdf_tools/sdf.hpp:699-726`), with the two matrix products
`((multiplier * d1_offsets) * values) * d2_offsets` written out. -/
def bilinear {T : Type} [Add T] [Sub T] [Mul T] (ι : K → T) (low1 high1 low2 high2 : K)
    (q1 q2 : T) (ll lh hl hh : K) : T :=
  let m := ι (1 / ((high1 - low1) * (high2 - low2)))
  let a := m * (ι high1 - q1)
  let b := m * (q1 - ι low1)
  (a * ι ll + b * ι hl) * (ι high2 - q2) + (a * ι lh + b * ι hh) * (q2 - ι low2)

/-- `BilinearInterpolateDistanceXY` (`include/sdf_tools/sdf.hpp:728-743`). -/
def bilinearXY {T : Type} [Add T] [Sub T] [Mul T] (ι : K → T) (s : MSdf K) (corner : V3 K)
    (q : V3 T) (mm mp pm pp : K) : T :=
  bilinear ι corner.x (corner.x + s.res) corner.y (corner.y + s.res) q.x q.y mm mp pm pp

/-- `TrilinearInterpolateDistance` (`include/sdf_tools/sdf.hpp:745-771`). -/
def trilinear {T : Type} [Add T] [Sub T] [Mul T] (ι : K → T) (s : MSdf K) (corner : V3 K)
    (q : V3 T) (mmm mmp mpm mpp pmm pmp ppm ppp : K) : T :=
  let lo := bilinearXY ι s corner q mmm mpm pmm ppm
  let hi := bilinearXY ι s corner q mmp mpp pmp ppp
  lo + (q.z - ι corner.z) * ((hi - lo) * ι (1 / s.res))

/-- `EstimateDistanceInterpolateFromNeighborsGridFrame` (`include/sdf_tools/sdf.hpp:835-901`).
`val` reads the value part of a scalar (the identity for `double`). -/
def estGrid {T : Type} [Add T] [Sub T] [Mul T] (ι : K → T) (val : T → K) (s : MSdf K) (p : V3 T)
    (i : Idx) : Option T := do
  let c := s.center i
  let ax := axisIdx i.x s.grid.dims.nx (val (p.x - ι c.x))
  let ay := axisIdx i.y s.grid.dims.ny (val (p.y - ι c.y))
  let az := axisIdx i.z s.grid.dims.nz (val (p.z - ι c.z))
  let mmm ← s.corrected ⟨ax.1, ay.1, az.1⟩
  let mmp ← s.corrected ⟨ax.1, ay.1, az.2⟩
  let mpm ← s.corrected ⟨ax.1, ay.2, az.1⟩
  let mpp ← s.corrected ⟨ax.1, ay.2, az.2⟩
  let pmm ← s.corrected ⟨ax.2, ay.1, az.1⟩
  let pmp ← s.corrected ⟨ax.2, ay.1, az.2⟩
  let ppm ← s.corrected ⟨ax.2, ay.2, az.1⟩
  let ppp ← s.corrected ⟨ax.2, ay.2, az.2⟩
  pure (trilinear ι s (s.center ⟨ax.1, ay.1, az.1⟩) p mmm mmp mpm mpp pmm pmp ppm ppp)

/-- `EstimateDistance`, `EstimateDistance3d`, `EstimateDistance4d`
(`include/sdf_tools/sdf.hpp:903-961`).  `none` is an exception. -/
def estimate [FloorRing K] (s : MSdf K) (p : V3 K) : Option (K × Bool) :=
  if s.grid.dims.inB (s.locIdx p) then
    (s.estGrid id id (s.toGrid p) (s.locIdx p)).map (·, true)
  else some (s.grid.oob, false)

/-! ## Gradients -/

/-- `GetGridAlignedGradient` (`include/sdf_tools/sdf.hpp:432-526`).  The empty list is the empty
vector. -/
def gridGrad (s : MSdf K) (i : Idx) (edge : Bool) : List K :=
  let d := s.grid.dims
  let v := s.grid.get
  if d.inB i then
    if i.x > 0 ∧ i.y > 0 ∧ i.z > 0 ∧ i.x < (d.nx : Int) - 1 ∧ i.y < (d.ny : Int) - 1
        ∧ i.z < (d.nz : Int) - 1 then
      let inv := 1 / (2 * s.res)
      [(v ⟨i.x + 1, i.y, i.z⟩ - v ⟨i.x - 1, i.y, i.z⟩) * inv,
       (v ⟨i.x, i.y + 1, i.z⟩ - v ⟨i.x, i.y - 1, i.z⟩) * inv,
       (v ⟨i.x, i.y, i.z + 1⟩ - v ⟨i.x, i.y, i.z - 1⟩) * inv]
    else if edge then
      let lx := max 0 (i.x - 1)
      let hx := min ((d.nx : Int) - 1) (i.x + 1)
      let ly := max 0 (i.y - 1)
      let hy := min ((d.ny : Int) - 1) (i.y + 1)
      let lz := max 0 (i.z - 1)
      let hz := min ((d.nz : Int) - 1) (i.z + 1)
      let dx := ((hx - lx : Int) : K) * s.res
      let dy := ((hy - ly : Int) : K) * s.res
      let dz := ((hz - lz : Int) : K) * s.res
      [if dx > 0 then (v ⟨hx, i.y, i.z⟩ - v ⟨lx, i.y, i.z⟩) * (1 / dx) else 0,
       if dy > 0 then (v ⟨i.x, hy, i.z⟩ - v ⟨i.x, ly, i.z⟩) * (1 / dy) else 0,
       if dz > 0 then (v ⟨i.x, i.y, hz⟩ - v ⟨i.x, i.y, lz⟩) * (1 / dz) else 0]
    else []
  else []

/-- `GetGradient(index, enable_edge_gradients)` (`include/sdf_tools/sdf.hpp:397-430`). -/
def gradient (s : MSdf K) (i : Idx) (edge : Bool) : List K :=
  match s.gridGrad i edge with
  | [gx, gy, gz] =>
    let r := s.origin.lin ⟨gx, gy, gz⟩
    [r.x, r.y, r.z]
  | _ => []

/-- `GetGradient(x, y, z)`, `GetGradient3d`, `GetGradient4d`
(`include/sdf_tools/sdf.hpp:361-395`). -/
def gradientAt [FloorRing K] (s : MSdf K) (p : V3 K) (edge : Bool) : List K :=
  if s.grid.dims.inB (s.locIdx p) then s.gradient (s.locIdx p) edge else []

/-- `ComputeAxisSmoothGradient` (`include/sdf_tools/sdf.hpp:656-697`); `none` is
`std::runtime_error`. -/
def axisSmooth (q m p : K × Bool) (qv mv pv : K) : Option K :=
  if q.2 ∧ m.2 ∧ p.2 then some ((p.1 - m.1) / (pv - mv))
  else if q.2 ∧ m.2 then some ((q.1 - m.1) / (qv - mv))
  else if q.2 ∧ p.2 then some ((p.1 - q.1) / (pv - qv))
  else none

/-- `GetSmoothGradient` (`include/sdf_tools/sdf.hpp:528-598`); `none` is an exception. -/
def smoothGradient [FloorRing K] (s : MSdf K) (p : V3 K) (window : K) : Option (List K) :=
  let w := |window|
  if s.locInB p then do
    let q ← s.estimate p
    let mx ← s.estimate ⟨p.x - w, p.y, p.z⟩
    let px ← s.estimate ⟨p.x + w, p.y, p.z⟩
    let my ← s.estimate ⟨p.x, p.y - w, p.z⟩
    let py ← s.estimate ⟨p.x, p.y + w, p.z⟩
    let mz ← s.estimate ⟨p.x, p.y, p.z - w⟩
    let pz ← s.estimate ⟨p.x, p.y, p.z + w⟩
    let gx ← axisSmooth q mx px p.x (p.x - w) (p.x + w)
    let gy ← axisSmooth q my py p.y (p.y - w) (p.y + w)
    let gz ← axisSmooth q mz pz p.z (p.z - w) (p.z + w)
    pure [gx, gy, gz]
  else some []

/-! ## Boundary distance and projections -/

/-- `DistanceToBoundary*` (`include/sdf_tools/sdf.hpp:963-989`).  `minCoeff` returns the first index
with the least absolute displacement. -/
def distanceToBoundary (s : MSdf K) (p : V3 K) : K × Bool :=
  let a := s.toGrid p
  let dx := min a.x (s.size.x - a.x)
  let dy := min a.y (s.size.y - a.y)
  let dz := min a.z (s.size.z - a.z)
  let inside := decide (dx ≥ 0) && decide (dy ≥ 0) && decide (dz ≥ 0)
  let r := if |dy| < |dx| then (if |dz| < |dy| then dz else dy)
    else (if |dz| < |dx| then dz else dx)
  (r, inside)

/-- `arc_helpers::ClampValue(value, low, high)` (external). -/
def clamp (v lo hi : K) : K := min (max v lo) hi

/-- `ProjectIntoValidVolumeToMinimumDistance*` (`include/sdf_tools/sdf.hpp:1124-1191`). -/
def projectIn (s : MSdf K) (p : V3 K) (minDist : K) : V3 K :=
  let g := s.toGrid p
  let m := minDist + s.res * (1 / 10000)
  let c : V3 K := ⟨clamp g.x m (s.size.x - m), clamp g.y m (s.size.y - m),
    clamp g.z m (s.size.z - m)⟩
  if c.x ≠ g.x ∨ c.y ≠ g.y ∨ c.z ≠ g.z then s.toWorld c else p

/-- Outcome of a call that may loop. -/
inductive Loop (α : Type) where
  | done (a : α)
  | throws
  | running
deriving DecidableEq, Repr

/-- The loop of `ProjectOutOfCollisionToMinimumDistanceGridFrame`
(`include/sdf_tools/sdf.hpp:1071-1122`), at most `fuel` iterations; `running` means the loop has
not ended by then.  `norm` and `normalized` are Eigen's (they involve a square root and stay
abstract). -/
def projectOutLoop [FloorRing K] (norm : V3 K → K) (normalized : V3 K → V3 K) (s : MSdf K)
    (minDist mult : K) : Nat → V3 K → Loop (V3 K)
  | fuel, p =>
    let i := s.cellOf p
    match s.estGrid id id p i with
    | none => .throws
    | some dist =>
      if dist ≤ minDist then
        match fuel with
        | 0 => .running
        | fuel + 1 =>
          match s.gridGrad i true with
          | [gx, gy, gz] =>
            let g : V3 K := ⟨gx, gy, gz⟩
            if norm g > s.res * (1 / 4) then
              let margin := minDist + s.res * mult * (1 / 10000)
              let step := min (s.res * mult) (margin - dist)
              projectOutLoop norm normalized s minDist mult fuel (p.add ((normalized g).smul step))
            else .throws
          | _ => .throws
      else .done p

/-- `ProjectOutOfCollisionToMinimumDistance4d` (`include/sdf_tools/sdf.hpp:1041-1069`). -/
def projectOut [FloorRing K] (norm : V3 K → K) (normalized : V3 K → V3 K) (s : MSdf K) (p : V3 K)
    (minDist mult : K) (fuel : Nat) : Loop (V3 K) :=
  let p' := if s.locInB p then p else s.projectIn p 0
  match projectOutLoop norm normalized s minDist mult fuel (s.toGrid p') with
  | .done r => .done (s.toWorld r)
  | .throws => .throws
  | .running => .running

end MSdf

end Verif
