import Verif.Serial

/-!
# Deserializing into an existing object

Model of `DeserializeSelf` of the three map types as it acts on the object it is called on
(`src/sdf_tools/sdf.cpp:260-390`, `src/sdf_tools/collision_map.cpp:69-203`,
`src/sdf_tools/tagged_object_collision_map.cpp:78-224`).  Each member is assigned as soon as it is read, so an
exception from a later read leaves the members read before it in place.
-/

namespace Verif

namespace Serial

/-- Read one member and assign it. -/
def assign {M β : Type} (get : Reader β) (set : M → β → M) : M → Reader M := fun m => do
  return set m (← get)

/-- Run the assignments in order.  The result is the object afterwards and the return value
`current_position - current`; `none` is an exception, which leaves the object as it is at that point. -/
def runInto {M : Type} : List (M → Reader M) → M → List UInt8 → Nat → M × Option Nat
  | [], m, _, _ => (m, some 0)
  | s :: rest, m, buf, pos =>
    match s m buf pos with
    | none => (m, none)
    | some (m', n) =>
      let r := runInto rest m' buf (pos + n)
      (r.1, r.2.map (n + ·))

/-- The assignments to the members of the base class (`src/sdf_tools/sdf.cpp:268-376`,
`src/sdf_tools/collision_map.cpp:77-185`, `src/sdf_tools/tagged_object_collision_map.cpp:86-199`). -/
def baseSteps {α : Type} (get : Reader α) : List (Base α → Reader (Base α)) :=
  [assign getBool fun b v => { b with initialized := v },
   assign getIso fun b v => { b with origin := v },
   assign getIso fun b v => { b with inverse := v },
   assign (getVec get) fun b v => { b with data := v },
   assign getU64 fun b v => { b with cellX := v },
   assign getU64 fun b v => { b with cellY := v },
   assign getU64 fun b v => { b with cellZ := v },
   assign getU64 fun b v => { b with invCellX := v },
   assign getU64 fun b v => { b with invCellY := v },
   assign getU64 fun b v => { b with invCellZ := v },
   assign getU64 fun b v => { b with sizeX := v },
   assign getU64 fun b v => { b with sizeY := v },
   assign getU64 fun b v => { b with sizeZ := v },
   assign getI64 fun b v => { b with stride1 := v },
   assign getI64 fun b v => { b with stride2 := v },
   assign getI64 fun b v => { b with numX := v },
   assign getI64 fun b v => { b with numY := v },
   assign getI64 fun b v => { b with numZ := v },
   assign get fun b v => { b with dflt := v },
   assign get fun b v => { b with oob := v }]

/-- `SignedDistanceField::DeserializeSelf` called on `old`, as a program acting on the object. -/
def SdfRec.into (old : SdfRec) : List UInt8 → Nat → SdfRec × Option Nat :=
  runInto
    ((baseSteps getU32).map (fun st s => do return { s with base := ← st s.base }) ++
      [assign getStr fun s v => { s with frame := v }, assign getBool fun s v => { s with locked := v }]) old

/-- `CollisionMapGrid::DeserializeSelf` called on `old`. -/
def CMapRec.into (old : CMapRec) : List UInt8 → Nat → CMapRec × Option Nat :=
  runInto
    ((baseSteps getCCell).map (fun st s => do return { s with base := ← st s.base }) ++
      [assign getU32 fun s v => { s with nComp := v }, assign getStr fun s v => { s with frame := v },
       assign getBool fun s v => { s with compValid := v }]) old

/-- `TaggedObjectCollisionMapGrid::DeserializeSelf` called on `old`. -/
def TMapRec.into (old : TMapRec) : List UInt8 → Nat → TMapRec × Option Nat :=
  runInto
    ((baseSteps getTCell).map (fun st s => do return { s with base := ← st s.base }) ++
      [assign getU32 fun s v => { s with nComp := v }, assign getU32 fun s v => { s with nSeg := v },
       assign getStr fun s v => { s with frame := v }, assign getBool fun s v => { s with compValid := v },
       assign getBool fun s v => { s with segValid := v }]) old

end Serial

end Verif
