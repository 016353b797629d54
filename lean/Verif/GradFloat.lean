import Verif.InterpFloat

/-!
# Gradients and projection in floating point

Model of `GetGridAlignedGradient` and `ProjectOutOfCollisionToMinimumDistance*`
(`include/sdf_tools/sdf.hpp:432-526, 1041-1122`) with the values that `float` and `double` can have.
-/

namespace Verif

namespace Fl

variable (R : Rounding)

/-- Subtraction of `float`s: one rounding to `float` (no wider intermediate results, `FLT_EVAL_METHOD` 0). -/
noncomputable def sub32 : FVal → FVal → FVal
  | some x, some y => open Classical in
    if (x = ⊤ ∧ y = ⊤) ∨ (x = ⊥ ∧ y = ⊥) then none else some (R.r32 (x - y))
  | _, _ => none

/-- Comparisons: false when an operand is NaN. -/
noncomputable def le : FVal → FVal → Bool
  | some x, some y => open Classical in decide (x ≤ y)
  | _, _ => false

noncomputable def lt : FVal → FVal → Bool
  | some x, some y => open Classical in decide (x < y)
  | _, _ => false

/-- `std::min(a, b)`. -/
noncomputable def fmin (a b : FVal) : FVal := if lt b a then b else a

end Fl

namespace FSdf

open Fl

variable (R : Rounding)

/-- One axis of the gradient of an inner cell (`include/sdf_tools/sdf.hpp:445-455`): the two stored `float`s are
subtracted as `float`s. -/
noncomputable def inner (s : FSdf) (hi lo : Idx) : FVal :=
  mul R (sub32 R (s.grid.get hi) (s.grid.get lo)) (div R (real 1) (mul R (real 2) (real s.res)))

/-- One axis of the gradient of an edge cell (`include/sdf_tools/sdf.hpp:474-511`); `n` is the difference of the
two indices. -/
noncomputable def edge (s : FSdf) (n : Int) (hi lo : Idx) : FVal :=
  let inc := mul R (real n) (real s.res)
  if lt (real 0) inc then mul R (sub R (s.grid.get hi) (s.grid.get lo)) (div R (real 1) inc) else real 0

/-- `GetGridAlignedGradient` (`include/sdf_tools/sdf.hpp:432-526`).  The empty list is the empty vector. -/
noncomputable def gridGrad (s : FSdf) (i : Idx) (edges : Bool) : List FVal :=
  let d := s.grid.dims
  if d.inB i then
    if i.x > 0 ∧ i.y > 0 ∧ i.z > 0 ∧ i.x < (d.nx : Int) - 1 ∧ i.y < (d.ny : Int) - 1
        ∧ i.z < (d.nz : Int) - 1 then
      [s.inner R ⟨i.x + 1, i.y, i.z⟩ ⟨i.x - 1, i.y, i.z⟩, s.inner R ⟨i.x, i.y + 1, i.z⟩ ⟨i.x, i.y - 1, i.z⟩,
       s.inner R ⟨i.x, i.y, i.z + 1⟩ ⟨i.x, i.y, i.z - 1⟩]
    else if edges then
      let lx := max 0 (i.x - 1)
      let hx := min ((d.nx : Int) - 1) (i.x + 1)
      let ly := max 0 (i.y - 1)
      let hy := min ((d.ny : Int) - 1) (i.y + 1)
      let lz := max 0 (i.z - 1)
      let hz := min ((d.nz : Int) - 1) (i.z + 1)
      [s.edge R (hx - lx) ⟨hx, i.y, i.z⟩ ⟨lx, i.y, i.z⟩, s.edge R (hy - ly) ⟨i.x, hy, i.z⟩ ⟨i.x, ly, i.z⟩,
       s.edge R (hz - lz) ⟨i.x, i.y, hz⟩ ⟨i.x, i.y, lz⟩]
    else []
  else []

/-- What the projection loop takes from Eigen and the base class: the norm and the normalization of a vector, and
the cell of a grid-frame location (`PointInFrameToGridIndex4d`). -/
structure Geometry where
  norm : V3 FVal → FVal
  normalized : V3 FVal → V3 FVal
  cellOf : V3 FVal → Idx

/-- The loop of `ProjectOutOfCollisionToMinimumDistanceGridFrame` (`include/sdf_tools/sdf.hpp:1071-1122`), at most
`fuel` iterations. -/
noncomputable def projectOutLoop (G : Geometry) (s : FSdf) (minDist mult : FVal) : Nat → V3 FVal → MSdf.Loop (V3 FVal)
  | fuel, p =>
    let i := G.cellOf p
    match s.estGrid R p i with
    | none => .throws
    | some dist =>
      if le dist minDist then
        match fuel with
        | 0 => .running
        | fuel + 1 =>
          match s.gridGrad R i true with
          | [gx, gy, gz] =>
            let g : V3 FVal := ⟨gx, gy, gz⟩
            if lt (mul R (real s.res) (real (1 / 4))) (G.norm g) then
              let margin := add R minDist
                (mul R (mul R (real s.res) mult) (some (R.r64 ((1 / 10000 : ℝ) : EReal))))
              let step := fmin (mul R (real s.res) mult) (sub R margin dist)
              let n := G.normalized g
              projectOutLoop G s minDist mult fuel
                ⟨add R p.x (mul R n.x step), add R p.y (mul R n.y step), add R p.z (mul R n.z step)⟩
            else .throws
          | _ => .throws
      else .done p

/-- `ProjectOutOfCollisionToMinimumDistance4d` (`include/sdf_tools/sdf.hpp:1041-1069`).  The bounds check, the
projection into the volume and the two transforms are parameters. -/
noncomputable def projectOut (G : Geometry) (inB : V3 FVal → Bool) (into toGrid toWorld : V3 FVal → V3 FVal)
    (s : FSdf) (p : V3 FVal) (minDist mult : FVal) (fuel : Nat) : MSdf.Loop (V3 FVal) :=
  let p' := if inB p then p else into p
  match s.projectOutLoop R G minDist mult fuel (toGrid p') with
  | .done r => .done (toWorld r)
  | .throws => .throws
  | .running => .running

end FSdf

end Verif
