import Verif.Interp

/-!
# SDF display exports

Model of `SignedDistanceField::ExportForDisplay` and `ExportForDisplayCollisionOnly`
(`src/sdf_tools/sdf.cpp:504-639`) over an exact ordered field.
-/

namespace Verif

/-- `std_msgs::ColorRGBA` -/
structure Rgba (K : Type) where
  r : K
  g : K
  b : K
  a : K
deriving DecidableEq, Repr

namespace MSdf

variable {K : Type} [Field K] [LinearOrder K]

/-- `min_distance` after the first loop (`src/sdf_tools/sdf.cpp:523-552`): starts at 0. -/
def minDistance (s : MSdf K) : K :=
  s.grid.dims.all.foldl (fun m i => if s.grid.get i < m then s.grid.get i else m) 0

/-- `max_distance` after the first loop. -/
def maxDistance (s : MSdf K) : K :=
  s.grid.dims.all.foldl (fun m i => if s.grid.get i > m then s.grid.get i else m) 0

/-- The colour of one cell (`src/sdf_tools/sdf.cpp:561-582`). -/
def cellColour (s : MSdf K) (alpha : K) (i : Idx) : Rgba K :=
  let d := s.grid.get i
  let a := clamp alpha 0 1
  if d > 0 then ⟨0, |d / s.maxDistance| * (4 / 5) + 1 / 5, 0, a⟩
  else if d < 0 then ⟨|d / s.minDistance| * (4 / 5) + 1 / 5, 0, 0, a⟩
  else ⟨0, 0, 1, a⟩

/-- `ExportForDisplay`: points (grid-frame cell centres) and colours, filled by two separate loops
over the cells. -/
def exportForDisplay (s : MSdf K) (alpha : K) : List (V3 K) × List (Rgba K) :=
  (s.grid.dims.all.foldl (fun l i => l ++ [s.center i]) [],
   s.grid.dims.all.foldl (fun l i => l ++ [s.cellColour alpha i]) [])

/-- `ExportForDisplayCollisionOnly`: the points and the single marker colour. -/
def exportCollisionOnly (s : MSdf K) (alpha : K) : List (V3 K) × Rgba K :=
  (s.grid.dims.all.foldl (fun l i => if s.grid.get i ≤ 0 then l ++ [s.center i] else l) [],
   ⟨1, 0, 0, alpha⟩)

end MSdf

end Verif
