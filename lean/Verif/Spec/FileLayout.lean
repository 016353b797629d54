import Verif.Serial

/-!
# Specification: where the parts of a map stand in an uncompressed file

Byte positions in a file, as a program in another language would use them.
-/

namespace Verif

namespace Spec

open Serial

/-- The `k` bytes from position `off` on are the digits of `v` to base 256, lowest first. -/
def Word (bytes : List UInt8) (off k v : Nat) : Prop :=
  ∀ j, j < k → ∃ b, bytes[off + j]? = some b ∧ b.toNat = v / 256 ^ j % 256

/-- The bytes from position `off` on are `l`. -/
def Text (bytes : List UInt8) (off : Nat) (l : List UInt8) : Prop :=
  ∀ j, j < l.length → bytes[off + j]? = l[j]?

/-- What the three file types have in common.  `w` is the number of bytes per cell, `Cell` says how a
cell looks.  Everything up to the cells is at a fixed position, the rest at a fixed distance from the
end of the cells. -/
structure GridLayout {α : Type} (Cell : List UInt8 → Nat → α → Prop) (w : Nat) (bytes : List UInt8)
    (b : Base α) : Prop where
  initialized : Word bytes 4 1 (if b.initialized then 1 else 0)
  origin : ∀ (j : Nat) (h : j < 16), Word bytes (5 + 8 * j) 8 (b.origin.rows[j]'(by rw [b.origin.len]; exact h)).toNat
  inverse : ∀ (j : Nat) (h : j < 16),
    Word bytes (133 + 8 * j) 8 (b.inverse.rows[j]'(by rw [b.inverse.len]; exact h)).toNat
  count : Word bytes 261 8 b.data.length
  cells : ∀ (k : Nat) (h : k < b.data.length), Cell bytes (269 + w * k) b.data[k]
  cellX : Word bytes (269 + w * b.data.length) 8 b.cellX.toNat
  cellY : Word bytes (277 + w * b.data.length) 8 b.cellY.toNat
  cellZ : Word bytes (285 + w * b.data.length) 8 b.cellZ.toNat
  invCellX : Word bytes (293 + w * b.data.length) 8 b.invCellX.toNat
  invCellY : Word bytes (301 + w * b.data.length) 8 b.invCellY.toNat
  invCellZ : Word bytes (309 + w * b.data.length) 8 b.invCellZ.toNat
  sizeX : Word bytes (317 + w * b.data.length) 8 b.sizeX.toNat
  sizeY : Word bytes (325 + w * b.data.length) 8 b.sizeY.toNat
  sizeZ : Word bytes (333 + w * b.data.length) 8 b.sizeZ.toNat
  stride1 : Word bytes (341 + w * b.data.length) 8 b.stride1.toUInt64.toNat
  stride2 : Word bytes (349 + w * b.data.length) 8 b.stride2.toUInt64.toNat
  numX : Word bytes (357 + w * b.data.length) 8 b.numX.toUInt64.toNat
  numY : Word bytes (365 + w * b.data.length) 8 b.numY.toUInt64.toNat
  numZ : Word bytes (373 + w * b.data.length) 8 b.numZ.toUInt64.toNat
  dflt : Cell bytes (381 + w * b.data.length) b.dflt
  oob : Cell bytes (381 + w * b.data.length + w) b.oob

/-- The cell of a distance field: the bit pattern of a `float`. -/
def SdfCell (bytes : List UInt8) (off : Nat) (v : F32) : Prop := Word bytes off 4 v.toNat

/-- The cell of a collision map: occupancy, component. -/
def CollisionCell (bytes : List UInt8) (off : Nat) (c : CCell) : Prop :=
  Word bytes off 4 c.occ.toNat ∧ Word bytes (off + 4) 4 c.comp.toNat

/-- The cell of a tagged map: occupancy, component, object, convex segment. -/
def TaggedCell (bytes : List UInt8) (off : Nat) (c : TCell) : Prop :=
  Word bytes off 4 c.occ.toNat ∧ Word bytes (off + 4) 4 c.comp.toNat ∧
    Word bytes (off + 8) 4 c.obj.toNat ∧ Word bytes (off + 12) 4 c.seg.toNat

/-- An uncompressed file of a distance field. -/
structure SdfLayout (bytes : List UInt8) (s : SdfRec) : Prop where
  magic : Text bytes 0 (("SDFR".toList).map fun c => UInt8.ofNat c.toNat)
  grid : GridLayout SdfCell 4 bytes s.base
  frameLength : Word bytes (389 + 4 * s.base.data.length) 8 s.frame.length
  frame : Text bytes (397 + 4 * s.base.data.length) s.frame
  locked : Word bytes (397 + 4 * s.base.data.length + s.frame.length) 1 (if s.locked then 1 else 0)
  length : bytes.length = 398 + 4 * s.base.data.length + s.frame.length

/-- An uncompressed file of a collision map. -/
structure CollisionLayout (bytes : List UInt8) (m : CMapRec) : Prop where
  magic : Text bytes 0 (("CMGR".toList).map fun c => UInt8.ofNat c.toNat)
  grid : GridLayout CollisionCell 8 bytes m.base
  components : Word bytes (397 + 8 * m.base.data.length) 4 m.nComp.toNat
  frameLength : Word bytes (401 + 8 * m.base.data.length) 8 m.frame.length
  frame : Text bytes (409 + 8 * m.base.data.length) m.frame
  valid : Word bytes (409 + 8 * m.base.data.length + m.frame.length) 1 (if m.compValid then 1 else 0)
  length : bytes.length = 410 + 8 * m.base.data.length + m.frame.length

/-- An uncompressed file of a tagged map. -/
structure TaggedLayout (bytes : List UInt8) (m : TMapRec) : Prop where
  magic : Text bytes 0 (("TCMR".toList).map fun c => UInt8.ofNat c.toNat)
  grid : GridLayout TaggedCell 16 bytes m.base
  components : Word bytes (413 + 16 * m.base.data.length) 4 m.nComp.toNat
  segments : Word bytes (417 + 16 * m.base.data.length) 4 m.nSeg.toNat
  frameLength : Word bytes (421 + 16 * m.base.data.length) 8 m.frame.length
  frame : Text bytes (429 + 16 * m.base.data.length) m.frame
  valid : Word bytes (429 + 16 * m.base.data.length + m.frame.length) 1 (if m.compValid then 1 else 0)
  segmentsValid : Word bytes (430 + 16 * m.base.data.length + m.frame.length) 1 (if m.segValid then 1 else 0)
  length : bytes.length = 431 + 16 * m.base.data.length + m.frame.length

end Spec

end Verif
