import Verif.Builder

/-!
# The planning scene SDF generator node

Model of `src/sdf_generation_node.cpp`: the collision map display and one pass of the main loop.
ROS start-up, parameters, printing and publishing are not modelled.
-/

namespace Verif

namespace GenNode

open Builder

/-- `ExportCollisionMapForDisplay` (`src/sdf_generation_node.cpp:7-59`): the points of the marker (all in
one colour).  A cell that is neither 0 nor 1 fails the `assert` of line 53 (`none`). -/
def exportCollisionMap {P : Type} (loc : Idx → P) (g : Grid Nat) : Option (List P) :=
  g.dims.all.foldlM (fun pts i =>
    if (g.getImm i).1 = 1 then some (pts ++ [loc i])
    else if (g.getImm i).1 = 0 then some pts else none) []

/-- What one pass of the loop publishes. -/
structure Pass (P : Type) where
  cmapPoints : List P
  cmap : Grid Nat
  sdf : Grid FVal

/-- One pass of the main loop (`src/sdf_generation_node.cpp:89-105`): `UpdateCollisionMap` in mode
`USE_FULL_PLANNING_SCENE` (3), its display, then `UpdateSDF` in mode `USE_CACHED` (0).  `none`:
undefined behaviour, an exception or a failed assertion ends the node. -/
noncomputable def pass {Scene Msg : Type} (S : Setup Scene Msg) (R : Rounding) (s : St Scene)
    (answer : Option Msg) : Option (St Scene × Pass (V3 ℝ)) :=
  match step S R s (.updateCmap 3 answer) with
  | some (s1, .cmap g, _) =>
    match exportCollisionMap S.loc g with
    | none => none
    | some pts =>
      match step S R s1 (.updateSdf 0 none) with
      | some (s2, .sdf f, _) => some (s2, ⟨pts, g, f⟩)
      | _ => none
  | _ => none

/-- Any number of passes; `answers` are the answers of the planning scene service. -/
noncomputable def loop {Scene Msg : Type} (S : Setup Scene Msg) (R : Rounding) (s : St Scene) :
    List (Option Msg) → Option (St Scene × List (Pass (V3 ℝ)))
  | [] => some (s, [])
  | a :: as =>
    match pass S R s a with
    | none => none
    | some (s', p) => (loop S R s' as).map fun r => (r.1, p :: r.2)

end GenNode

end Verif
