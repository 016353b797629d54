import Verif.SdfGen

/-!
# 2D image signed distance fields

Model of `ImageSDF` (`src/image_2d_sdf_node.cpp:11-309`): the 8SSEDT sweeps `update_partial_sdf`, their
combination in `update_sdf`, and the two published images of `camera_cb`.

An image is a `Grid` with `nx` rows, `ny` columns and one layer.  A cell of a partial field is the
offset to its closest point: a pair of integers, or `none` for `(INFINITY, INFINITY)`.  Offsets are
integers below the image size, so the `double` arithmetic on them is exact (up to 2^26 pixels per
side).
-/

namespace Verif

namespace Img

/-- `sdf_cell_t` (`src/image_2d_sdf_node.cpp:11-14`). -/
abbrev Off := Option (Int × Int)

/-- `distance_squared` (`src/image_2d_sdf_node.cpp:212-215`) of a finite offset. -/
def sq (p : Int × Int) : Int := p.1 * p.1 + p.2 * p.2

/-- `distance_squared(other) < distance_squared(cell)` with infinite offsets. -/
def less : Off → Off → Bool
  | none, _ => false
  | some _, none => true
  | some p, some q => decide (sq p < sq q)

/-- `get` followed by the addition of the offset (`src/image_2d_sdf_node.cpp:186-199, 219-221`).  A
negative index converts to a huge `size_t`, so it is out of range like one past the end. -/
def neighbour (f : Grid Off) (v : Idx) (o : Int × Int) : Off :=
  (f.get ⟨v.x + o.1, v.y + o.2, 0⟩).map fun p => (p.1 + o.1, p.2 + o.2)

/-- `compare` (`src/image_2d_sdf_node.cpp:217-226`). -/
def compare (f : Grid Off) (v : Idx) (cell : Off) (o : Int × Int) : Off :=
  if less (neighbour f v o) cell then neighbour f v o else cell

/-- Body of the inner loops: `get`, several `compare`, `put`
(`src/image_2d_sdf_node.cpp:131-138, 144-148, 158-165, 171-175`). -/
def relax (offs : List (Int × Int)) (f : Grid Off) (v : Idx) : Grid Off :=
  f.set v (offs.foldl (compare f v) (f.get v))

/-- Offsets of pass 1.1.1 (`src/image_2d_sdf_node.cpp:133-136`). -/
def offs11 : List (Int × Int) := [(-1, 0), (0, -1), (-1, -1), (1, -1)]
/-- Offsets of pass 1.1.2 (`src/image_2d_sdf_node.cpp:146`). -/
def offs12 : List (Int × Int) := [(1, 0)]
/-- Offsets of the first loop of pass 1.2 (`src/image_2d_sdf_node.cpp:160-163`). -/
def offs21 : List (Int × Int) := [(1, 0), (0, 1), (-1, 1), (1, 1)]
/-- Offsets of the second loop of pass 1.2 (`src/image_2d_sdf_node.cpp:173`). -/
def offs22 : List (Int × Int) := [(-1, 0)]

/-- Cells of column `y` in increasing row order. -/
def up (d : Dims) (y : Nat) : List Idx := (List.range d.nx).map fun x => ⟨(x : Nat), y, 0⟩
/-- Cells of column `y` in decreasing row order. -/
def down (d : Dims) (y : Nat) : List Idx := (up d y).reverse

/-- One iteration of pass 1.1.0 (`src/image_2d_sdf_node.cpp:125-150`). -/
def sweep1 (f : Grid Off) (y : Nat) : Grid Off :=
  (down f.dims y).foldl (relax offs12) ((up f.dims y).foldl (relax offs11) f)

/-- One iteration of pass 1.2.0 (`src/image_2d_sdf_node.cpp:152-177`). -/
def sweep2 (f : Grid Off) (y : Nat) : Grid Off :=
  (up f.dims y).foldl (relax offs22) ((down f.dims y).foldl (relax offs21) f)

/-- `update_partial_sdf` (`src/image_2d_sdf_node.cpp:120-184`). -/
def partialSdf (f : Grid Off) : Grid Off :=
  (List.range f.dims.ny).reverse.foldl sweep2 ((List.range f.dims.ny).foldl sweep1 f)

/-- Initial partial field: zero offset on the marked pixels, infinite elsewhere
(`src/image_2d_sdf_node.cpp:67-91`). -/
def marked (d : Dims) (p : Idx → Bool) : Grid Off :=
  (Grid.mk' d none none).setAll d.all fun i => if p i then some (0, 0) else none

/-- Squared distance stored in a cell, `none` if infinite. -/
def sqOf : Off → Option Nat
  | none => none
  | some p => some (sq p).toNat

/-- `filled_distance - empty_distance` (`src/image_2d_sdf_node.cpp:104-106`). -/
noncomputable def value (R : Rounding) (filled empty : Off) : FVal :=
  (fsub (R.r64 (sqrtE (sqOf filled))) (R.r64 (sqrtE (sqOf empty)))).map R.r64

/-- Result of `update_sdf`: `distance_field_`, `max_distance_`, `min_distance_`. -/
structure Res where
  field : Grid FVal
  max : EReal
  min : EReal

/-- `update_sdf` (`src/image_2d_sdf_node.cpp:50-118`) for the image whose nonzero pixels are `img`. -/
noncomputable def updateSdf (R : Rounding) (d : Dims) (img : Idx → Bool) : Res :=
  let filled := partialSdf (marked d img)
  let empty := partialSdf (marked d fun i => !img i)
  d.all.foldl (fun r i =>
    let x := value R (filled.get i) (empty.get i)
    let e := SdfGen.updExtrema (r.max, r.min) x
    ⟨r.field.set i x, e.1, e.2⟩) ⟨Grid.mk' d (some 0) none, 0, 0⟩

/-- One pixel of the raw image: two channels (`src/image_2d_sdf_node.cpp:251-267`), in `float`. -/
noncomputable def rawPixel (R : Rounding) (x : FVal) : FVal × FVal :=
  if SdfGen.geZero x then (x.map fun v => R.r32 v, some 0)
  else (some 0, x.map fun v => R.r32 (if v < 0 then -v else v))

/-- IEEE division before rounding: NaN for `inf / inf` and `0 / 0`. -/
noncomputable def fdiv (a b : EReal) : FVal :=
  open Classical in
  if ((a = ⊤ ∨ a = ⊥) ∧ (b = ⊤ ∨ b = ⊥)) ∨ (a = 0 ∧ b = 0) then none else some (a / b)

/-- `64.0 + (64.0 * fabs(d / m))` (`src/image_2d_sdf_node.cpp:286, 294`). -/
noncomputable def shade (R : Rounding) (d m : EReal) : FVal :=
  (fdiv d m).map fun q => R.r64 (64 + R.r64 (64 * R.r64 (if q < 0 then -q else q)))

/-- Conversion of a `double` to `uint8_t`: undefined (`none`) for NaN and for values whose integer part
does not fit. -/
noncomputable def toU8 : FVal → Option Nat
  | none => none
  | some x => open Classical in if -1 < x ∧ x < 256 then some ⌊x.toReal⌋₊ else none

/-- Channels (blue, green, red) of one pixel of the preview (`src/image_2d_sdf_node.cpp:276-300`);
`none`: undefined behaviour. -/
noncomputable def previewPixel (R : Rounding) (r : Res) (x : FVal) : Option (Nat × Nat × Nat) :=
  open Classical in
  match x with
  | none => (toU8 none).map fun b => (b, 0, 0)
  | some v =>
    if 0 < v then (toU8 (shade R v r.max)).map fun c => (0, 0, c)
    else if v = 0 then some (0, 255, 0)
    else (toU8 (shade R v r.min)).map fun c => (c, 0, 0)

end Img

end Verif
