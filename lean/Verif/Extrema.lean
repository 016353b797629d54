import Verif.Interp

/-!
# Local extrema map

Model of `ComputeLocalExtremaMap` and its helpers (`src/sdf_tools/sdf.cpp:23-207`).

The gradient components are of an arbitrary type `V`; the code only compares them with a threshold
and negates them, so the comparisons are parameters.  This covers `double` including infinities and
NaN (for which all comparisons are false).
-/

namespace Verif

/-- An entry of the extrema map: the initial `(-inf, -inf, -inf)`, `(+inf, +inf, +inf)`, or the
centre of a cell (`src/sdf_tools/sdf.cpp:191-193`, `81-85`, `45-47`). -/
inductive Extremum where
  | unset
  | offGrid
  | center (i : Idx)
deriving DecidableEq, Repr, Inhabited

/-- What the path following reads from the field. -/
structure GradField (V : Type) where
  /-- `GetGradient(index, true)` -/
  grad : Idx → List V
  /-- `GetImmutable(index).first < 0.0` -/
  neg : Idx → Bool
  /-- `std::abs(v) <= step_resolution` -/
  small : V → Bool
  /-- `v > step_resolution` -/
  up : V → Bool
  /-- `v < -step_resolution` -/
  down : V → Bool
  /-- `v * -1.0` -/
  negate : V → V

namespace GradField

variable {V : Type}

/-- `GradientIsEffectiveFlat` (`src/sdf_tools/sdf.cpp:126-142`). -/
def isFlat (f : GradField V) (gx gy gz : V) : Bool := f.small gx && f.small gy && f.small gz

/-- One component of the step in `GetNextFromGradient`. -/
def comp (f : GradField V) (v : V) : Int := if f.up v then 1 else if f.down v then -1 else 0

/-- `GetNextFromGradient` (`src/sdf_tools/sdf.cpp:144-183`). -/
def next (f : GradField V) (i : Idx) (gx gy gz : V) : Idx :=
  if f.neg i then ⟨i.x + f.comp (f.negate gx), i.y + f.comp (f.negate gy), i.z + f.comp (f.negate gz)⟩
  else ⟨i.x + f.comp gx, i.y + f.comp gy, i.z + f.comp gz⟩

/-- Result of following the gradient. -/
inductive Walk where
  /-- `raw_gradient[k]` read out of range: undefined behaviour -/
  | ub
  /-- still walking when the fuel ran out -/
  | running
  /-- the extremum and the explored path -/
  | done (e : Extremum) (path : List Idx)
deriving DecidableEq, Repr

/-- The `while (true)` loop (`src/sdf_tools/sdf.cpp:59-116`).  `path` holds the indices whose entry
in the C++ map is 1; the zero entry that `path[current_index]` creates for an index off the grid
makes no difference, because writing an off-grid index later is refused. -/
def walk (f : GradField V) (m : Grid Extremum) : Nat → List Idx → Idx → V → V → V → Walk
  | 0, _, _, _, _, _ => .running
  | fuel + 1, path, cur, gx, gy, gz =>
    let nxt := f.next cur gx gy gz
    if nxt ∈ path then .done (.center nxt) path
    else if nxt.x < 0 ∨ nxt.y < 0 ∨ nxt.z < 0 ∨ nxt.x ≥ m.dims.nx ∨ nxt.y ≥ m.dims.ny
        ∨ nxt.z ≥ m.dims.nz then .done .offGrid path
    else if m.get nxt ≠ .unset then .done (m.get nxt) (nxt :: path)
    else
      match f.grad nxt with
      | [hx, hy, hz] =>
        if f.isFlat hx hy hz then .done (.center nxt) (nxt :: path)
        else walk f m fuel (nxt :: path) nxt hx hy hz
      | _ => .ub

/-- `FollowGradientsToLocalExtremaUnsafe` (`src/sdf_tools/sdf.cpp:23-124`).  `none` is undefined
behaviour or a path that does not end within the number of cells. -/
def follow (f : GradField V) (m : Grid Extremum) (i : Idx) : Option (Grid Extremum) :=
  if m.get i ≠ .unset then some m
  else
    match f.grad i with
    | [gx, gy, gz] =>
      if f.isFlat gx gy gz then some (m.set i (.center i))
      else
        match f.walk m (m.dims.size + 1) [i] i gx gy gz with
        | .done e path => some (m.setAll path (fun _ => e))
        | _ => none
    | _ => none

/-- `ComputeLocalExtremaMap` (`src/sdf_tools/sdf.cpp:185-207`) on a map of dimensions `d`.  The code
constructs the map from the metric sizes of the field, so `d` equals the field's cell counts when
the `VoxelGrid` constructor recovers them from size and resolution. -/
def extremaMap (f : GradField V) (d : Dims) : Option (Grid Extremum) :=
  d.all.foldlM (fun m i => f.follow m i) (Grid.mk' d .unset .unset)

end GradField

/-- The path-following view of an exact field; `step_resolution` is `0.06125 * resolution`
(`src/sdf_tools/sdf.cpp:131`, `157`). -/
def MSdf.gradField {K : Type} [Field K] [LinearOrder K] (s : MSdf K) : GradField K where
  grad i := s.gradient i true
  neg i := decide (s.grid.get i < 0)
  small v := decide (|v| ≤ s.res * (49 / 800))
  up v := decide (v > s.res * (49 / 800))
  down v := decide (v < -(s.res * (49 / 800)))
  negate v := v * -1

end Verif
