import Verif.SdfGen
import Verif.Interp

/-!
# The Python array wrappers

Model of `src/sdf_tools/utils_2d.py` and `src/sdf_tools/utils_3d.py`, with the bindings of
`src/sdf_tools/bindings.cpp:15-108` taken as plain forwarding (`GetRawData` is the backing store in
memory order).  numpy arrays are a shape and the elements in C order; `reshape` keeps the elements
and raises when the counts differ, `transpose` permutes the axes (numpy's documented behaviour).

Simplifications: `astype(np.float32)` is the identity on the distances (they are `float` already) and
is not modelled for gradients here (`Verif.QuatFloat` adds both conversions); `none` stands for any Python exception.
-/

namespace Verif

/-- A numpy array: shape and elements in C order. -/
structure NpArr (α : Type) where
  shape : List Nat
  data : List α
deriving DecidableEq, Repr

namespace NpArr

variable {α : Type}

/-- C-order offset of a multi-index; `none` if the index is out of range. -/
def ravel : List Nat → List Nat → Option Nat
  | [], [] => some 0
  | n :: ns, i :: is => if i < n then (ravel ns is).map (i * ns.prod + ·) else none
  | _, _ => none

/-- All multi-indices of a shape in C order. -/
def allIdx : List Nat → List (List Nat)
  | [] => [[]]
  | n :: ns => (List.range n).flatMap fun i => (allIdx ns).map (i :: ·)

/-- `a[i, j, ...]`; `none` is `IndexError`. -/
def get (a : NpArr α) (i : List Nat) : Option α := (ravel a.shape i).bind (a.data[·]?)

/-- `a.reshape(shape)`; `none` is `ValueError`. -/
def reshape (a : NpArr α) (shape : List Nat) : Option (NpArr α) :=
  if shape.prod = a.data.length then some ⟨shape, a.data⟩ else none

/-- The array of a shape whose elements are given by a function; `none` if some element is
missing. -/
def tabulate (shape : List Nat) (f : List Nat → Option α) : Option (NpArr α) :=
  ((allIdx shape).mapM f).map (⟨shape, ·⟩)

/-- `np.transpose(a, axes)`: axis `t` of the result is axis `axes[t]` of `a`. -/
def transpose (a : NpArr α) (axes : List Nat) : Option (NpArr α) :=
  tabulate (axes.map fun t => a.shape.getD t 0) fun j =>
    a.get ((List.range a.shape.length).map fun p => j.getD (axes.idxOf p) 0)

/-- `a[:, :, 0:k]` for a three-dimensional array. -/
def sliceLast (a : NpArr α) (k : Nat) : Option (NpArr α) :=
  match a.shape with
  | [n, m, c] => tabulate [n, m, min k c] a.get
  | _ => none

/-- `np.array(rows)` followed by reading `.shape[1]`: rows of unequal length, or no row at all,
raise. -/
def ofRows (rows : List (List α)) : Option (NpArr α) :=
  match rows with
  | [] => none
  | r :: _ => if rows.all (fun q => q.length == r.length) then
      some ⟨[rows.length, r.length], rows.flatten⟩ else none

end NpArr

namespace Py

/-- `COLLISION_CELL(-10000)` (`src/sdf_tools/utils_3d.py:54`, `utils_2d.py:23`). -/
def oobCell : CCell := CCell.ofOcc 0xC61C4000

/-- `COLLISION_CELL(1)` (`src/sdf_tools/utils_3d.py:55`, `utils_2d.py:24`). -/
def occupiedCell : CCell := CCell.ofOcc F32.one

/-- The value `-10000` handed to the extraction (`src/sdf_tools/utils_3d.py:68`). -/
noncomputable def oobValue : FVal := some (((-10000 : ℝ)) : EReal)

/-- Python index `[y, x, z]` of a cell. -/
def pyIdx (i : Idx) : List Nat := [i.y.toNat, i.x.toNat, i.z.toNat]

/-- The fill loop (`src/sdf_tools/utils_3d.py:61-67`): `env[y, x, z] == 1` is `some true`. -/
def fill3 (env : NpArr Bool) (d : Dims) : CMap :=
  d.all.foldl (fun m i => if env.get (pyIdx i) = some true then (m.setValue i occupiedCell).1 else m)
    (CMap.create d oobCell oobCell)

/-- The fill loop of the 2D wrapper (`src/sdf_tools/utils_2d.py:29-34`). -/
def fill2 (env : NpArr Bool) (d : Dims) : CMap :=
  d.all.foldl (fun m i =>
      if env.get [i.y.toNat, i.x.toNat] = some true then (m.setValue ⟨i.x, i.y, 0⟩ occupiedCell).1
      else m)
    (CMap.create d oobCell oobCell)

/-- `GetFullGradient` (`include/sdf_tools/sdf.hpp:341-358`). -/
def fullGradient {G : Type} (d : Dims) (oob : G) (f : Idx → Bool → List G) (edge : Bool) :
    Grid (List G) :=
  d.all.foldl (fun g i => g.set i (f i edge))
    (Grid.mk' d (List.replicate 3 oob) (List.replicate 3 oob))

/-- `utils_3d.compute_sdf` (`src/sdf_tools/utils_3d.py:5-36`). -/
noncomputable def computeSdf3 (R : Rounding) (res : ℝ) (env : NpArr Bool) : Option (Grid FVal) :=
  match env.shape with
  | [ny, nx, nz] =>
    (SdfGen.extractMap R (res, res, res) (fill3 env ⟨nx, ny, nz⟩) oobValue false false).map (·.sdf)
  | _ => none

/-- The distances as an array (`src/sdf_tools/utils_3d.py:70-75`). -/
def sdfArr3 {V : Type} (g : Grid V) : Option (NpArr V) := do
  let a ← (NpArr.mk [g.data.length] g.data).reshape [g.dims.nx, g.dims.ny, g.dims.nz]
  a.transpose [1, 0, 2]

/-- `utils_3d.get_gradient` (`src/sdf_tools/utils_3d.py:100-108`), also lines 80-88 of
`compute_sdf_and_gradient`. -/
def getGradient3 {G : Type} (d : Dims) (oob : G) (grad : Idx → Bool → List G) : Option (NpArr G) := do
  let g := fullGradient d oob grad true
  let a ← NpArr.ofRows g.data
  a.reshape [g.dims.nx, g.dims.ny, g.dims.nz, a.shape.getD 1 0]

/-- `utils_3d.compute_sdf_and_gradient` (`src/sdf_tools/utils_3d.py:39-97`); `grad` is
`GetGradient` of the extracted field. -/
noncomputable def compute3 {G : Type} (R : Rounding) (res : ℝ) (oobG : G)
    (grad : Grid FVal → Idx → Bool → List G) (env : NpArr Bool) : Option (NpArr FVal × NpArr G) := do
  let s ← computeSdf3 R res env
  let a ← sdfArr3 s
  let g ← getGradient3 s.dims oobG (grad s)
  let g' ← g.transpose [1, 0, 2, 3]
  pure (a, g')

/-- The field of the 2D wrapper (`src/sdf_tools/utils_2d.py:14-36`). -/
noncomputable def computeSdf2 (R : Rounding) (res : ℝ) (env : NpArr Bool) : Option (Grid FVal) :=
  match env.shape with
  | [ny, nx] =>
    (SdfGen.extractMap R (res, res, res) (fill2 env ⟨nx, ny, 1⟩) oobValue false false).map (·.sdf)
  | _ => none

/-- `utils_2d.sdf_to_np` (`src/sdf_tools/utils_2d.py:90-94`). -/
def sdfToNp {V : Type} (g : Grid V) : Option (NpArr V) :=
  (NpArr.mk [g.data.length] g.data).reshape [g.dims.nx, g.dims.ny]

/-- Gradient part of `utils_2d.compute_gradient` (`src/sdf_tools/utils_2d.py:68-74`), also lines
47-53 of `compute_sdf_and_gradient`. -/
def getGradient2 {G : Type} (d : Dims) (oob : G) (grad : Idx → Bool → List G) : Option (NpArr G) := do
  let g := fullGradient d oob grad true
  let a ← NpArr.ofRows g.data
  let b ← a.reshape [g.dims.nx, g.dims.ny, a.shape.getD 1 0]
  b.sliceLast 2

/-- `utils_2d.compute_sdf_and_gradient` (`src/sdf_tools/utils_2d.py:6-58`). -/
noncomputable def compute2 {G : Type} (R : Rounding) (res : ℝ) (oobG : G)
    (grad : Grid FVal → Idx → Bool → List G) (env : NpArr Bool) : Option (NpArr FVal × NpArr G) := do
  let s ← computeSdf2 R res env
  let a ← sdfToNp s
  let a' ← a.transpose [1, 0]
  let g ← getGradient2 s.dims oobG (grad s)
  let g' ← g.transpose [1, 0, 2]
  pure (a', g')

/-- `utils_2d.compute_gradient` (`src/sdf_tools/utils_2d.py:61-76`) of an SDF with the given cells. -/
def computeGradient2 {V G : Type} (s : Grid V) (oobG : G) (grad : Idx → Bool → List G) :
    Option (NpArr V × NpArr G) := do
  let a ← sdfToNp s
  let g ← getGradient2 s.dims oobG grad
  pure (a, g)

/-- `utils_2d.gradient_to_np` (`src/sdf_tools/utils_2d.py:83-87`). -/
def gradientToNp {G : Type} (g : Grid (List G)) : Option (NpArr G) :=
  match g.data with
  | [] => (NpArr.mk [0] []).reshape [g.dims.nx, g.dims.ny]
  | _ => do
    let a ← NpArr.ofRows g.data
    a.reshape [g.dims.nx, g.dims.ny]

/-- `utils_2d.grid_to_np` (`src/sdf_tools/utils_2d.py:100-107`). -/
def gridToNp (m : CMap) : Option (NpArr F32) :=
  NpArr.tabulate [m.grid.dims.nx, m.grid.dims.ny] fun
    | [i, j] => some (m.getImm ⟨i, j, 0⟩).1.occ
    | _ => none

end Py

end Verif
