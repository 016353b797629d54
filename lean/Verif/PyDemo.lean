import Verif.PyUtils
import Mathlib.Algebra.Order.Floor.Ring
import Mathlib.Algebra.Order.Archimedean.Real.Basic

/-!
# The three-dimensional demo script

Model of `scripts/3d_sdf_demo_rviz.py`: voxels from a point cloud, and the points and arrows sent to the display.

Simplifications: coordinates are exact (the script computes them in double precision); voxels are `Bool` (the script
writes 1.0 into an array of zeros, and `compute_sdf_and_gradient` compares with 1); message headers, scales and colours
are left out; `none` stands for a Python exception.  numpy's documented behaviour is assumed for the cast to integers
(truncation), negative indices (counted from the end) and `meshgrid` (its default swaps the first two axes).
-/

namespace Verif

namespace NpArr

/-- `a[i, j, ...] = v`. -/
def set {α : Type} (a : NpArr α) (i : List Nat) (v : α) : NpArr α :=
  match ravel a.shape i with
  | some k => ⟨a.shape, a.data.set k v⟩
  | none => a

end NpArr

namespace Demo

/-- `.astype(np.int64)` (`scripts/3d_sdf_demo_rviz.py:24`): truncation toward zero. -/
noncomputable def trunc (x : ℝ) : ℤ := if 0 ≤ x then ⌊x⌋ else ⌈x⌉

/-- An integer used as an index of an axis with `n` entries: negative ones count from the end, `none` is `IndexError`. -/
def axisIndex (n : Nat) (i : ℤ) : Option Nat :=
  if 0 ≤ i then if i < n then some i.toNat else none
  else if 0 ≤ i + n then some (i + n).toNat else none

/-- The voxel of a point (`scripts/3d_sdf_demo_rviz.py:24-28`). -/
noncomputable def voxelOf (n0 n1 n2 : Nat) (res : ℝ) (o p : V3 ℝ) : Option (List Nat) := do
  let i ← axisIndex n0 (trunc ((p.x - o.x) / res))
  let j ← axisIndex n1 (trunc ((p.y - o.y) / res))
  let k ← axisIndex n2 (trunc ((p.z - o.z) / res))
  pure [i, j, k]

/-- `point_cloud_to_voxel_grid` (`scripts/3d_sdf_demo_rviz.py:22-29`). -/
noncomputable def voxelize (n0 n1 n2 : Nat) (res : ℝ) (o : V3 ℝ) (pc : List (V3 ℝ)) : Option (NpArr Bool) := do
  let is ← pc.mapM (voxelOf n0 n1 n2 res o)
  pure (is.foldl (fun a i => a.set i true) ⟨[n0, n1, n2], List.replicate (n0 * n1 * n2) false⟩)

/-- Entry of `np.meshgrid(np.arange(n0), np.arange(n1), np.arange(n2))` stacked along a last axis
(`scripts/3d_sdf_demo_rviz.py:50-51`): the arrays have shape `[n1, n0, n2]`, and the coordinate of the first axis is
constant along the first index. -/
def meshEntry : List Nat → Nat × Nat × Nat
  | [a, b, c] => (b, a, c)
  | _ => (0, 0, 0)

/-- `get_grid_points(...).reshape([-1, 3])` (`scripts/3d_sdf_demo_rviz.py:42,49-53,120`). -/
noncomputable def gridPoints (n0 n1 n2 : Nat) (res : ℝ) (o : V3 ℝ) : List (V3 ℝ) :=
  (NpArr.allIdx [n1, n0, n2]).map fun i =>
    let m := meshEntry i
    ⟨m.1 * res - o.x, m.2.1 * res - o.y, m.2.2 * res - o.z⟩

/-- `visualize_sdf` (`scripts/3d_sdf_demo_rviz.py:40-46`): the published points with their distances. -/
noncomputable def shown {V : Type} (sdf : NpArr V) (n0 n1 n2 : Nat) (res : ℝ) (o : V3 ℝ) : List (V3 ℝ × V) :=
  (gridPoints n0 n1 n2 res o).zip sdf.data

/-- `a.reshape([-1, 3])`: the rows of three. -/
def rows3 {V : Type} : List V → List (V × V × V)
  | x :: y :: z :: l => (x, y, z) :: rows3 l
  | _ => []

/-- `l[::n]`. -/
def every {V : Type} (n : Nat) (l : List V) : List V :=
  (List.range ((l.length + n - 1) / n)).filterMap fun t => l[n * t]?

/-- The arrows of `plot_arrows_rviz` as called by `main` (`scripts/3d_sdf_demo_rviz.py:89-93,113-120`): the start and the
gradient the arrow shows, before it is scaled by 0.02 and added to the start. -/
noncomputable def arrows {G : Type} (grad : NpArr G) (n0 n1 n2 : Nat) (res : ℝ) (o : V3 ℝ) :
    List (V3 ℝ × G × G × G) :=
  (every 8 (gridPoints n0 n1 n2 res o)).zip (every 8 (rows3 grad.data))

end Demo

end Verif
