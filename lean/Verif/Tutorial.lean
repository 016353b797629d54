import Verif.Located

/-!
# The tutorial program

`src/sdf_tools_tutorial.cpp`: how a user is told to fill a collision map.  The sizes are parameters (the program has 40
cells of 0.25 on every axis and the grid centred at the origin of its frame).
-/

namespace Verif

namespace Tutorial

/-- `obstacle_cell` (`src/sdf_tools_tutorial.cpp:52, 59`). -/
def obstacle : CCell := CCell.ofOcc F32.one

/-- The condition of the loop (`src/sdf_tools_tutorial.cpp:50`). -/
def inOctant (d : Dims) (i : Idx) : Prop :=
  i.x < ((d.nx / 2 : Nat) : Int) ∧ i.y < ((d.ny / 2 : Nat) : Int) ∧ i.z < ((d.nz / 2 : Nat) : Int)

instance (d : Dims) (i : Idx) : Decidable (inOctant d i) := by unfold inOctant; infer_instance

/-- The three loops (`src/sdf_tools_tutorial.cpp:43-57`). -/
def fillOctant (m : CMap) : CMap :=
  m.dims.all.foldl (fun acc i => if inOctant m.dims i then (acc.setValue i obstacle).1 else acc) m

/-- The map of the tutorial: constructed with free cells, filled by the loops, then one cell filled by location
(`src/sdf_tools_tutorial.cpp:36-60`). -/
def map {K : Type} [Field K] [LinearOrder K] [FloorRing K] (F : Frame K) (d : Dims) : CMap :=
  ((fillOctant (CMap.create d (CCell.ofOcc F32.zero) (CCell.ofOcc F32.zero))).setAt F (.coords 0 0 0) obstacle).1

end Tutorial

end Verif
