import Verif.Files
import Verif.Sdf
import Verif.CollisionMap
import Verif.Tagged

/-!
# Programs that work with several maps, files and messages

The records of `Verif/Serial.lean` (all members, bit for bit) and the maps of `Verif/Sdf.lean`,
`Verif/CollisionMap.lean` and `Verif/Tagged.lean` (what the calls read and write) are two views of the same objects.
This file joins them and models programs that create maps, change them, save and load them, send them as messages,
end and start again.

Simplified: cells are addressed by index (access by location is C84); references obtained from `GetMutable` are written
at once; one thread.
-/

namespace Verif

namespace Serial

/-- The cells of a `VoxelGrid` (the members that `GetImmutable`, `GetMutable` and `SetValue` read). -/
def Base.grid {α : Type} (b : Base α) : Grid α :=
  ⟨⟨b.numX.toInt.toNat, b.numY.toInt.toNat, b.numZ.toInt.toNat⟩, b.data, b.dflt, b.oob⟩

/-- `SignedDistanceField` (`include/sdf_tools/sdf.hpp:20-25`) without geometry and frame. -/
def SdfRec.map (s : SdfRec) : Sdf F32 := ⟨s.base.grid, s.locked⟩

/-- The calls change cells, lock and (writes through refused references, C03) the out-of-bounds value only. -/
def SdfRec.withMap (s : SdfRec) (m : Sdf F32) : SdfRec :=
  { s with base := { s.base with data := m.grid.data, oob := m.grid.oob }, locked := m.locked }

/-- `CollisionMapGrid` (`include/sdf_tools/collision_map.hpp:156-158`) without geometry and frame. -/
def CMapRec.map (r : CMapRec) : CMap := ⟨r.base.grid, r.nComp, r.compValid⟩

/-- The calls change cells, out-of-bounds value, number of components and flag only. -/
def CMapRec.withMap (r : CMapRec) (m : CMap) : CMapRec :=
  { r with base := { r.base with data := m.grid.data, oob := m.grid.oob }, nComp := m.nComp, compValid := m.valid }

/-- `TaggedObjectCollisionMapGrid` (`include/sdf_tools/tagged_object_collision_map.hpp:171-175`) without geometry and
frame. -/
def TMapRec.map (r : TMapRec) : TMap := ⟨r.base.grid, r.nComp, r.nSeg, r.compValid, r.segValid⟩

/-- The calls change cells, out-of-bounds value, the two counts and the two flags only. -/
def TMapRec.withMap (r : TMapRec) (m : TMap) : TMapRec :=
  { r with base := { r.base with data := m.grid.data, oob := m.grid.oob }, nComp := m.nComp, nSeg := m.nSeg, compValid := m.valid,
           segValid := m.segValid }

/-- The three types. -/
inductive Ty where
  | sdf
  | cmap
  | tmap
deriving DecidableEq, Repr

/-- An object of one of the three types. -/
inductive Obj where
  | sdf (s : SdfRec)
  | cmap (m : CMapRec)
  | tmap (t : TMapRec)

def Obj.ty : Obj → Ty
  | .sdf _ => .sdf
  | .cmap _ => .cmap
  | .tmap _ => .tmap

/-- A call that changes an object. -/
inductive Call where
  | sdf (o : Sdf.Op Idx F32)
  | cmap (o : CMap.Op)
  | tmap (o : TMap.Op)

/-- Effect of a call.  Calls of another type do not compile; they are given no effect. -/
def Obj.apply : Obj → Call → Obj
  | .sdf s, .sdf o => .sdf (s.withMap (s.map.apply id o).1)
  | .cmap m, .cmap o => .cmap (m.withMap (m.map.apply o))
  | .tmap t, .tmap o => .tmap (t.withMap (t.map.apply o))
  | x, _ => x

/-- The bytes that `SaveToFile` writes (`src/sdf_tools/sdf.cpp:392-416`, `src/sdf_tools/collision_map.cpp:205-229`,
`src/sdf_tools/tagged_object_collision_map.cpp:226-250`). -/
def Obj.file (z : Zlib) (compress : Bool) : Obj → List UInt8
  | .sdf s => sdfFormat.save z s compress
  | .cmap m => cmapFormat.save z m compress
  | .tmap t => tmapFormat.save z t compress

/-- `LoadFromFile` of a type (`src/sdf_tools/sdf.cpp:418-470`, `src/sdf_tools/collision_map.cpp:231-283`,
`src/sdf_tools/tagged_object_collision_map.cpp:252-304`); `none` is an exception. -/
def loadAs (z : Zlib) (file : Option (List UInt8)) : Ty → Option Obj
  | .sdf => (sdfFormat.load z file).toOption.map .sdf
  | .cmap => (cmapFormat.load z file).toOption.map .cmap
  | .tmap => (tmapFormat.load z file).toOption.map .tmap

/-- `GetMessageRepresentation` and, at the receiver, `LoadFromMessageRepresentation` (`src/sdf_tools/sdf.cpp:472-502`,
`src/sdf_tools/collision_map.cpp:285-315`, `src/sdf_tools/tagged_object_collision_map.cpp:306-338`). -/
def Obj.sent (z : Zlib) : Obj → Option Obj
  | .sdf s => (sdfFormat.ofMsg z (sdfFormat.toMsg z s)).toOption.map .sdf
  | .cmap m => (cmapFormat.ofMsg z (cmapFormat.toMsg z m)).toOption.map .cmap
  | .tmap t => (tmapFormat.ofMsg z (tmapFormat.toMsg z t)).toOption.map .tmap

/-- What a program does; objects have numbers. -/
inductive Step where
  /-- construct an object -/
  | new (k : Nat) (o : Obj)
  /-- call a function of object `k` -/
  | call (k : Nat) (c : Call)
  /-- `SaveToFile` of object `k`; `fate` is what the operating system does with the bytes -/
  | save (k : Nat) (path : String) (compress : Bool) (fate : Fate)
  /-- `LoadFromFile`; the result becomes object `k` -/
  | load (ty : Ty) (path : String) (k : Nat)
  /-- send object `k` in a message; what is received becomes object `k'` -/
  | send (k k' : Nat)
  /-- the process ends (or crashes) and a new one starts -/
  | restart

/-- Objects in memory and files. -/
structure World where
  mem : Nat → Option Obj
  files : Files

def World.start : World := ⟨fun _ => none, fun _ => none⟩

/-- Effect of a step, and whether it ended without an exception. -/
def World.step (z : Zlib) (w : World) : Step → World × Bool
  | .new k o => (⟨Function.update w.mem k (some o), w.files⟩, true)
  | .call k c => (⟨Function.update w.mem k ((w.mem k).map (·.apply c)), w.files⟩, true)
  | .save k path compress fate =>
    match w.mem k, fate with
    | some o, .wrote n => (⟨w.mem, fun p => if p = path then some ((o.file z compress).take n) else w.files p⟩, true)
    | _, _ => (w, true)
  | .load ty path k =>
    match loadAs z (w.files path) ty with
    | some o => (⟨Function.update w.mem k (some o), w.files⟩, true)
    | none => (w, false)
  | .send k k' =>
    match w.mem k with
    | some o =>
      match o.sent z with
      | some o' => (⟨Function.update w.mem k' (some o'), w.files⟩, true)
      | none => (w, false)
    | none => (w, true)
  | .restart => (⟨fun _ => none, w.files⟩, true)

def World.run (z : Zlib) (w : World) (l : List Step) : World := l.foldl (fun w s => (w.step z s).1) w

def World.replies (z : Zlib) (w : World) : List Step → List Bool
  | [] => []
  | s :: l => (w.step z s).2 :: World.replies z (w.step z s).1 l

end Serial

end Verif
