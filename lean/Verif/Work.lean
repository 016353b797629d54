import Verif.SdfGen
import Verif.CollisionMap
import Verif.Tagged

/-!
# Work of the distance transform and of the flood fills

Counts the iterations of the loops of `BuildDistanceField`
(`include/sdf_tools/sdf_generation.hpp:95-207`), run by the model of `Verif/DistanceField.lean`, and of
`ComputeConnectedComponents` (`include/sdf_tools/topology_computation.hpp:24-149`), run by the model of
`Verif/Components.lean`.
-/

namespace Verif

namespace DField

/-- Iterations of the neighbour loop for one queue entry (`include/sdf_tools/sdf_generation.hpp:143-155`). -/
def neighbours (b : Nat) (e : BCell) : Nat :=
  if e.dir < 0 ∨ e.dir > 26 then 0
  else ((((neighborhoods[if b > 1 then 1 else b]?).bind (·[e.dir.toNat]?))).getD []).length

/-- Iterations of the `while` loop over bucket `b` (`include/sdf_tools/sdf_generation.hpp:131-200`): nothing is appended to
the bucket meanwhile (C12), so these are the entries it has when its turn comes. -/
def entries (s : St) (b : Nat) : Nat := (s.bucket b).length

/-- Iterations of the neighbour loop (`include/sdf_tools/sdf_generation.hpp:153-197`) during bucket `b`. -/
def visits (s : St) (b : Nat) : Nat := ((s.bucket b).map (neighbours b)).sum

/-- Iterations of the `while` loop and of the neighbour loop in a whole run of `BuildDistanceField`
(`include/sdf_tools/sdf_generation.hpp:95-207`); `none` is the exception for points out of bounds. -/
def cost (d : Dims) (pts : List Idx) : Option (Nat × Nat) :=
  (pts.foldl seed (some (start d))).map fun s =>
    (((List.range (maxSq d + 1)).map fun b => entries (after s b) b).sum,
      ((List.range (maxSq d + 1)).map fun b => visits (after s b) b).sum)

end DField

namespace SdfGen

/-- The same for the two distance fields of `ExtractSignedDistanceField`
(`include/sdf_tools/sdf_generation.hpp:209-271`): filled cells, then free cells. -/
def cost (d : Dims) (fill : Idx → Option Bool) : Option (Nat × Nat) :=
  match partitionCells fill d.all with
  | none => none
  | some (filled, free) =>
    match DField.cost d filled, DField.cost d free with
    | some a, some b => some (a.1 + b.1, a.2 + b.2)
    | _, _ => none

end SdfGen

namespace CompFns

variable {σ : Type}

/-- Iterations of the work loop of `MarkConnectedComponent`
(`include/sdf_tools/topology_computation.hpp:54-88`); follows `markLoop`. -/
def markSteps (F : CompFns σ) (lbl : Nat) : Nat → σ → List Idx → List Idx → Nat
  | _, _, [], _ => 0
  | 0, _, _ :: _, _ => 0
  | fuel + 1, s, cur :: q, seen =>
    let s' := F.mark s cur lbl
    let qs := (faceNbrs cur).foldl (F.visit s' cur) (q, seen)
    1 + markSteps F lbl fuel s' qs.1 qs.2

/-- The same, added over all flood fills of the sweep of `ComputeConnectedComponents`
(`include/sdf_tools/topology_computation.hpp:113-148`); follows `sweep`. -/
def sweepSteps (F : CompFns σ) (fuel : Nat) (total : Int) : List Idx → σ → Nat → Int → Nat
  | [], _, _, _ => 0
  | i :: l, s, n, m =>
    if F.getC s i = 0 then
      let n' := (n + 1) % u32
      F.markSteps n' fuel s [i] [i] +
        match F.markCC fuel s i n' with
        | none => 0
        | some (s', c) =>
          let m' := m + c
          if m' = total then 0 else sweepSteps F fuel total l s' n' m'
    else sweepSteps F fuel total l s n m

/-- The same for `ComputeConnectedComponents` (`include/sdf_tools/topology_computation.hpp:92-149`). -/
def steps (F : CompFns σ) (d : Dims) (s : σ) : Nat :=
  F.sweepSteps d.size (d.size : Int) d.all (F.reset d s) 0 0

end CompFns

/-- Iterations of the flood fills of `CollisionMapGrid::UpdateConnectedComponents`
(`src/sdf_tools/collision_map.cpp:564-618`). -/
def CMap.updateSteps (m : CMap) : Nat :=
  if m.valid then 0 else CMap.compFns.steps m.dims { m with valid := false }

/-- The same for `TaggedObjectCollisionMapGrid::UpdateConnectedComponents`
(`src/sdf_tools/tagged_object_collision_map.cpp:340-397`). -/
def TMap.updateSteps (m : TMap) : Nat :=
  if m.valid then 0 else TMap.compFns.steps m.dims { m with valid := false }

/-- The same for `UpdateConvexSegments` (`src/sdf_tools/tagged_object_collision_map.cpp:552-654`). -/
def TMap.segSteps (S : SegData) (m : TMap) : Nat := (TMap.segFns S).steps m.dims m

end Verif
