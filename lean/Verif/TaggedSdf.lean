import Verif.Tagged
import Verif.SdfGen
import Verif.OMap

/-!
# Signed distance fields of tagged maps

Model of the SDF functions of `sdf_tools::TaggedObjectCollisionMapGrid`
(`include/sdf_tools/tagged_object_collision_map.hpp:730-915`).
-/

namespace Verif

namespace TMap

open SdfGen

variable (R : Rounding)

/-- `is_filled_fn` of `ExtractSignedDistanceField`
(`include/sdf_tools/tagged_object_collision_map.hpp:826-853`).  `object_use_map[id] == 1` holds iff
`id` was put into the map, i.e. iff it is in the list. -/
def objFill (m : TMap) (objs : List UInt32) (unknownIsFilled : Bool) (i : Idx) : Option Bool :=
  let q := m.getImm i
  if q.2 then
    if q.1.obj ∈ objs ∨ objs.length = 0 then
      if q.1.occ.gtHalf then some true
      else if unknownIsFilled && q.1.occ.eqHalf then some true
      else some false
    else some false
  else none

/-- `ExtractSignedDistanceField`
(`include/sdf_tools/tagged_object_collision_map.hpp:813-856`). -/
noncomputable def extractObjs (sizes : ℝ × ℝ × ℝ) (m : TMap) (oob : FVal) (objs : List UInt32)
    (unknownIsFilled border : Bool) : Option Out :=
  extract R sizes m.grid.dims (objFill m objs unknownIsFilled) oob border

/-- `free_sdf_filled_fn` (`include/sdf_tools/tagged_object_collision_map.hpp:735-749`). -/
def occFilled (unknownIsFilled : Bool) (c : TCell) : Bool :=
  if c.occ.gtHalf then true else if unknownIsFilled && c.occ.eqHalf then true else false

/-- `object_filled_fn` (`include/sdf_tools/tagged_object_collision_map.hpp:756-774`). -/
def namedFilled (unknownIsFilled : Bool) (c : TCell) : Bool :=
  if c.obj > 0 then
    if c.occ.gtHalf then true else if unknownIsFilled && c.occ.eqHalf then true else false
  else false

/-- `ExtractFreeAndNamedObjectsSignedDistanceField`
(`include/sdf_tools/tagged_object_collision_map.hpp:730-811`). -/
noncomputable def extractFreeNamed (sizes : ℝ × ℝ × ℝ) (m : TMap) (oob : FVal)
    (unknownIsFilled : Bool) : Option Out :=
  match extractCells R sizes m.grid (occFilled unknownIsFilled) oob,
    extractCells R sizes m.grid (namedFilled unknownIsFilled) oob with
  | some fr, some ob =>
    some ⟨fr.sdf.dims.all.foldl (fun g i => g.set i (combine (fr.sdf.get i) (ob.sdf.get i))) fr.sdf,
      fr.max, ob.min⟩
  | _, _ => none

/-- `MakeObjectSDFs` (`include/sdf_tools/tagged_object_collision_map.hpp:875-891`); the out-of-bounds
value is `+inf`. -/
noncomputable def makeObjectSDFs (sizes : ℝ × ℝ × ℝ) (m : TMap) (ids : List UInt32)
    (unknownIsFilled border : Bool) : Option (List (UInt32 × Grid FVal)) :=
  ids.foldl (fun acc id => acc.bind fun l =>
    (extractObjs R sizes m (some ⊤) [id] unknownIsFilled border).map fun o =>
      OMap.insert id o.sdf l) (some [])

/-- The scan for ids of `MakeAllObjectSDFs`
(`include/sdf_tools/tagged_object_collision_map.hpp:896-912`). -/
def objectIds (m : TMap) : List UInt32 :=
  OMap.keys (m.dims.all.foldl (fun acc i =>
    if (m.grid.get i).obj > 0 then OMap.insert (m.grid.get i).obj (1 : UInt32) acc else acc) [])

/-- `MakeAllObjectSDFs` (`include/sdf_tools/tagged_object_collision_map.hpp:893-915`). -/
noncomputable def makeAllObjectSDFs (sizes : ℝ × ℝ × ℝ) (m : TMap) (unknownIsFilled border : Bool) :
    Option (List (UInt32 × Grid FVal)) :=
  makeObjectSDFs R sizes m m.objectIds unknownIsFilled border

end TMap

end Verif
