import Verif.CollisionMap
import Verif.Tagged

/-!
# Serialization, files and messages

Model of `SerializeSelf`, `DeserializeSelf`, `SaveToFile`, `LoadFromFile`,
`GetMessageRepresentation` and `LoadFromMessageRepresentation` of the three map types
(`src/sdf_tools/sdf.cpp:213-502`, `src/sdf_tools/collision_map.cpp:21-315`,
`src/sdf_tools/tagged_object_collision_map.cpp:23-338`).

The primitive (de)serializers come from `arc_utilities/serialization.hpp`, which is not part of
`/repo`; their contract is in DESIGN.md: plain data is copied byte by byte in little-endian order, a
vector or string is a 64-bit length followed by its elements, and reading past the end of the buffer
fails.  `float` and `double` are their bit patterns.
-/

namespace Verif

namespace Serial

/-! ## Primitive serializers -/

/-- `k` bytes of `v`, least significant first. -/
def leBytes : Nat → Nat → List UInt8
  | 0, _ => []
  | k + 1, v => UInt8.ofNat (v % 256) :: leBytes k (v / 256)

/-- The number with the given bytes, least significant first. -/
def ofLe : List UInt8 → Nat
  | [] => 0
  | b :: bs => b.toNat + 256 * ofLe bs

/-- `SerializeFixedSizePOD<uint8_t>` -/
def putU8 (v : UInt8) : List UInt8 := leBytes 1 v.toNat
/-- `SerializeFixedSizePOD<uint32_t>` and `SerializeFixedSizePOD<float>` -/
def putU32 (v : UInt32) : List UInt8 := leBytes 4 v.toNat
/-- `SerializeFixedSizePOD<uint64_t>` and `SerializeFixedSizePOD<double>` -/
def putU64 (v : UInt64) : List UInt8 := leBytes 8 v.toNat
/-- `SerializeFixedSizePOD<int64_t>` -/
def putI64 (v : Int64) : List UInt8 := putU64 v.toUInt64
/-- `SerializeFixedSizePOD<uint8_t>((uint8_t)flag)` -/
def putBool (b : Bool) : List UInt8 := putU8 (if b then 1 else 0)
/-- `SerializeFixedSizePOD<COLLISION_CELL>`: two 32-bit members, no padding
(`include/sdf_tools/collision_map.hpp:20-23`). -/
def putCCell (c : CCell) : List UInt8 := putU32 c.occ ++ putU32 c.comp
/-- `SerializeFixedSizePOD<TAGGED_OBJECT_COLLISION_CELL>`: four 32-bit members, no padding
(`include/sdf_tools/tagged_object_collision_map.hpp:22-27`). -/
def putTCell (c : TCell) : List UInt8 := putU32 c.occ ++ putU32 c.comp ++ putU32 c.obj ++ putU32 c.seg
/-- `SerializeVector<T>` -/
def putVec {α : Type} (put : α → List UInt8) (l : List α) : List UInt8 :=
  putU64 (UInt64.ofNat l.length) ++ (l.map put).flatten
/-- `SerializeString` -/
def putStr (s : List UInt8) : List UInt8 := putVec putU8 s

/-- The sixteen coefficients of an `Eigen::Isometry3d`. -/
structure Iso where
  rows : List UInt64
  len : rows.length = 16
deriving DecidableEq, Repr

/-- `SerializeEigen<Eigen::Isometry3d>` -/
def putIso (t : Iso) : List UInt8 := (t.rows.map putU64).flatten

/-! ## Primitive deserializers -/

/-- A deserializer reads at a position of a buffer and returns the value and the number of bytes it
consumed; `none` is a read past the end. -/
def Reader (α : Type) := List UInt8 → Nat → Option (α × Nat)

/-- Read, advance `current_position` by the number of bytes, go on. -/
def Reader.bind {α β : Type} (r : Reader α) (f : α → Reader β) : Reader β := fun buf pos =>
  match r buf pos with
  | none => none
  | some (a, n) =>
    match f a buf (pos + n) with
    | none => none
    | some (b, k) => some (b, n + k)

instance : Monad Reader where
  pure a := fun _ _ => some (a, 0)
  bind := Reader.bind

/-- `DeserializeFixedSizePOD` of a type of `k` bytes. -/
def getPod (k : Nat) : Reader Nat := fun buf pos =>
  if pos + k ≤ buf.length then some (ofLe ((buf.drop pos).take k), k) else none

/-- `DeserializeFixedSizePOD<uint8_t>` -/
def getU8 : Reader UInt8 := do return UInt8.ofNat (← getPod 1)
/-- `DeserializeFixedSizePOD<uint32_t>` and `<float>` -/
def getU32 : Reader UInt32 := do return UInt32.ofNat (← getPod 4)
/-- `DeserializeFixedSizePOD<uint64_t>` and `<double>` -/
def getU64 : Reader UInt64 := do return UInt64.ofNat (← getPod 8)
/-- `DeserializeFixedSizePOD<int64_t>` -/
def getI64 : Reader Int64 := do return (← getU64).toInt64
/-- `(bool)DeserializeFixedSizePOD<uint8_t>(...)` -/
def getBool : Reader Bool := do return (← getU8) != 0
/-- `DeserializeFixedSizePOD<COLLISION_CELL>` -/
def getCCell : Reader CCell := do return ⟨← getU32, ← getU32⟩
/-- `DeserializeFixedSizePOD<TAGGED_OBJECT_COLLISION_CELL>` -/
def getTCell : Reader TCell := do return ⟨← getU32, ← getU32, ← getU32, ← getU32⟩

/-- `n` elements one after the other. -/
def getMany {α : Type} (get : Reader α) : Nat → Reader (List α)
  | 0 => pure []
  | n + 1 => do
    let a ← get
    let l ← getMany get n
    return a :: l

/-- `DeserializeVector<T>` -/
def getVec {α : Type} (get : Reader α) : Reader (List α) := do
  let n ← getU64
  getMany get n.toNat

/-- `DeserializeString<char>` -/
def getStr : Reader (List UInt8) := getVec getU8

theorem getMany_length {α : Type} (get : Reader α) :
    ∀ (n : Nat) (buf : List UInt8) (pos : Nat) (l : List α) (k : Nat),
      getMany get n buf pos = some (l, k) → l.length = n := by
  intro n
  induction n with
  | zero =>
    intro buf pos l k h
    simp only [getMany, pure, Option.some.injEq, Prod.mk.injEq] at h
    rw [← h.1]; rfl
  | succ n ih =>
    intro buf pos l k h
    simp only [getMany, bind, Reader.bind, pure] at h
    split at h
    · simp at h
    · split at h
      · simp at h
      · rename_i h1
        split at h1
        · simp at h1
        · rename_i h2
          simp only [Option.some.injEq, Prod.mk.injEq] at h h1
          rw [← h.1, ← h1.1, List.length_cons, ih _ _ _ _ h2]

/-- `DeserializeEigen<Eigen::Isometry3d>` -/
def getIso : Reader Iso := fun buf pos =>
  match h : getMany getU64 16 buf pos with
  | none => none
  | some (l, k) => some (⟨l, getMany_length _ _ _ _ _ _ h⟩, k)

/-! ## The maps -/

/-- The members of `VoxelGrid<T>` that are serialized, in order
(`src/sdf_tools/sdf.cpp:221-250`). -/
structure Base (α : Type) where
  initialized : Bool
  origin : Iso
  inverse : Iso
  data : List α
  cellX : UInt64
  cellY : UInt64
  cellZ : UInt64
  invCellX : UInt64
  invCellY : UInt64
  invCellZ : UInt64
  sizeX : UInt64
  sizeY : UInt64
  sizeZ : UInt64
  stride1 : Int64
  stride2 : Int64
  numX : Int64
  numY : Int64
  numZ : Int64
  dflt : α
  oob : α
deriving DecidableEq, Repr

/-- `SignedDistanceField`: base class, `frame_`, `locked_` (`include/sdf_tools/sdf.hpp:20-25`). -/
structure SdfRec where
  base : Base F32
  frame : List UInt8
  locked : Bool
deriving DecidableEq, Repr

/-- `CollisionMapGrid`: base class, `number_of_components_`, `frame_`, `components_valid_`
(`include/sdf_tools/collision_map.hpp:156-158`). -/
structure CMapRec where
  base : Base CCell
  nComp : UInt32
  frame : List UInt8
  compValid : Bool
deriving DecidableEq, Repr

/-- `TaggedObjectCollisionMapGrid`
(`include/sdf_tools/tagged_object_collision_map.hpp:171-175`). -/
structure TMapRec where
  base : Base TCell
  nComp : UInt32
  nSeg : UInt32
  frame : List UInt8
  compValid : Bool
  segValid : Bool
deriving DecidableEq, Repr

/-- The common first part of the three `SerializeSelf` functions (`src/sdf_tools/sdf.cpp:221-250`,
`src/sdf_tools/collision_map.cpp:29-58`, `src/sdf_tools/tagged_object_collision_map.cpp:32-64`): the
pieces appended to the buffer, in order. -/
def basePieces {α : Type} (put : α → List UInt8) (b : Base α) : List (List UInt8) :=
  [putBool b.initialized, putIso b.origin, putIso b.inverse, putVec put b.data,
   putU64 b.cellX, putU64 b.cellY, putU64 b.cellZ,
   putU64 b.invCellX, putU64 b.invCellY, putU64 b.invCellZ,
   putU64 b.sizeX, putU64 b.sizeY, putU64 b.sizeZ,
   putI64 b.stride1, putI64 b.stride2, putI64 b.numX, putI64 b.numY, putI64 b.numZ,
   put b.dflt, put b.oob]

/-- The common first part of the three `DeserializeSelf` functions
(`src/sdf_tools/sdf.cpp:266-376`, `src/sdf_tools/collision_map.cpp:75-185`,
`src/sdf_tools/tagged_object_collision_map.cpp:84-199`).  The object being filled is `old`. -/
def readBase {α : Type} (get : Reader α) (old : Base α) : Reader (Base α) := do
  let b := old
  let b := { b with initialized := ← getBool }
  let b := { b with origin := ← getIso }
  let b := { b with inverse := ← getIso }
  let b := { b with data := ← getVec get }
  let b := { b with cellX := ← getU64 }
  let b := { b with cellY := ← getU64 }
  let b := { b with cellZ := ← getU64 }
  let b := { b with invCellX := ← getU64 }
  let b := { b with invCellY := ← getU64 }
  let b := { b with invCellZ := ← getU64 }
  let b := { b with sizeX := ← getU64 }
  let b := { b with sizeY := ← getU64 }
  let b := { b with sizeZ := ← getU64 }
  let b := { b with stride1 := ← getI64 }
  let b := { b with stride2 := ← getI64 }
  let b := { b with numX := ← getI64 }
  let b := { b with numY := ← getI64 }
  let b := { b with numZ := ← getI64 }
  let b := { b with dflt := ← get }
  let b := { b with oob := ← get }
  return b

/-- Append the pieces to the buffer; return the buffer and `end_buffer_size - start_buffer_size`. -/
def appendPieces (pieces : List (List UInt8)) (buffer : List UInt8) : List UInt8 × Nat :=
  let out := pieces.foldl (· ++ ·) buffer
  (out, out.length - buffer.length)

/-- `SignedDistanceField::SerializeSelf` (`src/sdf_tools/sdf.cpp:213-258`). -/
def SdfRec.serialize (s : SdfRec) : List UInt8 → List UInt8 × Nat :=
  appendPieces (basePieces putU32 s.base ++ [putStr s.frame, putBool s.locked])

/-- `SignedDistanceField::DeserializeSelf` (`src/sdf_tools/sdf.cpp:260-390`). -/
def SdfRec.deserialize (old : SdfRec) : Reader SdfRec := do
  let s := old
  let s := { s with base := ← readBase getU32 s.base }
  let s := { s with frame := ← getStr }
  let s := { s with locked := ← getBool }
  return s

/-- `CollisionMapGrid::SerializeSelf` (`src/sdf_tools/collision_map.cpp:21-67`). -/
def CMapRec.serialize (m : CMapRec) : List UInt8 → List UInt8 × Nat :=
  appendPieces (basePieces putCCell m.base ++ [putU32 m.nComp, putStr m.frame, putBool m.compValid])

/-- `CollisionMapGrid::DeserializeSelf` (`src/sdf_tools/collision_map.cpp:69-203`). -/
def CMapRec.deserialize (old : CMapRec) : Reader CMapRec := do
  let m := old
  let m := { m with base := ← readBase getCCell m.base }
  let m := { m with nComp := ← getU32 }
  let m := { m with frame := ← getStr }
  let m := { m with compValid := ← getBool }
  return m

/-- `TaggedObjectCollisionMapGrid::SerializeSelf`
(`src/sdf_tools/tagged_object_collision_map.cpp:23-76`). -/
def TMapRec.serialize (m : TMapRec) : List UInt8 → List UInt8 × Nat :=
  appendPieces (basePieces putTCell m.base ++
    [putU32 m.nComp, putU32 m.nSeg, putStr m.frame, putBool m.compValid, putBool m.segValid])

/-- `TaggedObjectCollisionMapGrid::DeserializeSelf`
(`src/sdf_tools/tagged_object_collision_map.cpp:78-224`). -/
def TMapRec.deserialize (old : TMapRec) : Reader TMapRec := do
  let m := old
  let m := { m with base := ← readBase getTCell m.base }
  let m := { m with nComp := ← getU32 }
  let m := { m with nSeg := ← getU32 }
  let m := { m with frame := ← getStr }
  let m := { m with compValid := ← getBool }
  let m := { m with segValid := ← getBool }
  return m

/-! ## Files and messages -/

/-- Exceptions of the load functions. -/
inductive LoadError where
  | noFile
  | tooSmall
  | badHeader
  /-- read past the end of the buffer while deserializing, or zlib refused the data -/
  | badData
deriving DecidableEq, Repr

/-- `ZlibHelpers::CompressBytes` and `DecompressBytes` (external). -/
structure Zlib where
  compress : List UInt8 → List UInt8
  decompress : List UInt8 → Option (List UInt8)

/-- What the generic file functions need from a map type. -/
structure Format (M : Type) where
  /-- header written in front of compressed data -/
  saveZ : List UInt8
  /-- header written in front of raw data -/
  saveR : List UInt8
  /-- header for which `LoadFromFile` decompresses -/
  loadZ : List UInt8
  /-- header for which `LoadFromFile` reads raw data -/
  loadR : List UInt8
  serialize : M → List UInt8 → List UInt8 × Nat
  /-- `DeserializeSelf` -/
  deserialize : M → Reader M
  /-- the default-constructed object that is filled -/
  blank : M

/-- `SaveToFile` (`src/sdf_tools/sdf.cpp:392-416`, `src/sdf_tools/collision_map.cpp:205-229`,
`src/sdf_tools/tagged_object_collision_map.cpp:226-250`): the bytes written, in order. -/
def Format.save {M : Type} (f : Format M) (z : Zlib) (m : M) (compress : Bool) : List UInt8 :=
  let buffer := (f.serialize m []).1
  if compress then f.saveZ ++ z.compress buffer else f.saveR ++ buffer

/-- A `std::string` built from a NUL-terminated byte buffer. -/
def cString (l : List UInt8) : List UInt8 := l.takeWhile (· != 0)

/-- `DeserializeSelf(buffer, 0)` on a default-constructed object. -/
def Format.decode {M : Type} (f : Format M) (buffer : List UInt8) : Except LoadError M :=
  match f.deserialize f.blank buffer 0 with
  | none => .error .badData
  | some (m, _) => .ok m

/-- `DecompressBytes`, then `DeserializeSelf`. -/
def Format.decodeZ {M : Type} (f : Format M) (z : Zlib) (buffer : List UInt8) : Except LoadError M :=
  match z.decompress buffer with
  | none => .error .badData
  | some b => f.decode b

/-- `LoadFromFile` (`src/sdf_tools/sdf.cpp:418-470`, `src/sdf_tools/collision_map.cpp:231-283`,
`src/sdf_tools/tagged_object_collision_map.cpp:252-304`); `none` stands for a missing file. -/
def Format.load {M : Type} (f : Format M) (z : Zlib) (file : Option (List UInt8)) :
    Except LoadError M :=
  match file with
  | none => .error .noFile
  | some bytes =>
    if bytes.length ≥ 4 then
      let header := cString (bytes.take 4 ++ [0])
      let rest := bytes.drop 4
      if header = f.loadZ then f.decodeZ z rest
      else if header = f.loadR then f.decode rest
      else .error .badHeader
    else .error .tooSmall

/-- A ROS message: payload and `is_compressed`. -/
structure Msg where
  payload : List UInt8
  isCompressed : Bool
deriving DecidableEq, Repr

/-- `GetMessageRepresentation` (`src/sdf_tools/sdf.cpp:472-484`,
`src/sdf_tools/collision_map.cpp:285-297`,
`src/sdf_tools/tagged_object_collision_map.cpp:306-319`). -/
def Format.toMsg {M : Type} (f : Format M) (z : Zlib) (m : M) : Msg :=
  ⟨z.compress (f.serialize m []).1, true⟩

/-- `LoadFromMessageRepresentation` (`src/sdf_tools/sdf.cpp:486-502`,
`src/sdf_tools/collision_map.cpp:299-315`,
`src/sdf_tools/tagged_object_collision_map.cpp:321-338`). -/
def Format.ofMsg {M : Type} (f : Format M) (z : Zlib) (msg : Msg) : Except LoadError M :=
  if msg.isCompressed then f.decodeZ z msg.payload else f.decode msg.payload

/-- Identity transform, as the bit patterns of its coefficients. -/
def isoId : Iso :=
  ⟨[0x3FF0000000000000, 0, 0, 0, 0, 0x3FF0000000000000, 0, 0, 0, 0, 0x3FF0000000000000, 0, 0, 0, 0,
    0x3FF0000000000000], rfl⟩

/-- A default-constructed base (external; every member is overwritten by `DeserializeSelf`). -/
def blankBase {α : Type} (a : α) : Base α :=
  ⟨false, isoId, isoId, [], 0, 0, 0, 0, 0, 0, 0, 0, 0, 0, 0, 0, 0, 0, a, a⟩

/-- `SignedDistanceField`: headers `SDFZ`, `SDFR` (`src/sdf_tools/sdf.cpp:402,410,446,454`). -/
def sdfFormat : Format SdfRec :=
  ⟨[0x53, 0x44, 0x46, 0x5A], [0x53, 0x44, 0x46, 0x52],
    [0x53, 0x44, 0x46, 0x5A], [0x53, 0x44, 0x46, 0x52], SdfRec.serialize, SdfRec.deserialize,
    ⟨blankBase 0, [], false⟩⟩

/-- `CollisionMapGrid`: headers `CMGZ`, `CMGR`
(`src/sdf_tools/collision_map.cpp:215,223,259,267`). -/
def cmapFormat : Format CMapRec :=
  ⟨[0x43, 0x4D, 0x47, 0x5A], [0x43, 0x4D, 0x47, 0x52],
    [0x43, 0x4D, 0x47, 0x5A], [0x43, 0x4D, 0x47, 0x52], CMapRec.serialize, CMapRec.deserialize,
    ⟨blankBase ⟨0, 0⟩, 0, [], false⟩⟩

/-- `TaggedObjectCollisionMapGrid`: headers `TCMZ`, `TCMR`
(`src/sdf_tools/tagged_object_collision_map.cpp:236,244,280,288`). -/
def tmapFormat : Format TMapRec :=
  ⟨[0x54, 0x43, 0x4D, 0x5A], [0x54, 0x43, 0x4D, 0x52],
    [0x54, 0x43, 0x4D, 0x5A], [0x54, 0x43, 0x4D, 0x52], TMapRec.serialize, TMapRec.deserialize,
    ⟨blankBase ⟨0, 0, 0, 0⟩, 0, 0, [], false, false⟩⟩

end Serial

end Verif
