import Verif.Image2d

/-!
# The image node

Model of the callback of `image_2d_sdf_node` (`src/image_2d_sdf_node.cpp:16-308`): a node keeps `distance_field_`,
`max_distance_` and `min_distance_` between images of any sizes and encodings, and publishes two images for each image
that `cv_bridge` can decode.
-/

namespace Verif

namespace Img

/-- A decoded image (`cv::Mat`): its bytes, with the distance in bytes between the starts of two rows (`step`) and between
two pixels of a row (`elem`: 1 for `mono8`, 3 for `bgr8`, 2 for `mono16`). -/
structure Mat where
  rows : Nat
  cols : Nat
  elem : Nat
  step : Nat
  data : Nat → UInt8

/-- `image.at<uint8_t>(i,j)` (`src/image_2d_sdf_node.cpp:79`): the `j`-th byte of the row, whatever the encoding.
(External: `cv::Mat::at`, compiled without debug assertions.) -/
def Mat.at (m : Mat) (i j : Nat) : UInt8 := m.data (m.step * i + j)

/-- Rows, columns and one layer. -/
def Mat.dims (m : Mat) : Dims := ⟨m.rows, m.cols, 1⟩

/-- `pixel != 0` (`src/image_2d_sdf_node.cpp:79-80`). -/
def Mat.filled (m : Mat) (v : Idx) : Bool := m.at v.x.toNat v.y.toNat != 0

/-- `std::vector::resize`. -/
def resize {α : Type} (l : List α) (n : Nat) (a : α) : List α := l.take n ++ List.replicate (n - l.length) a

/-- The members of `ImageSDF` that change (`src/image_2d_sdf_node.cpp:25-27`). -/
structure Node where
  field : List (List FVal)
  max : EReal
  min : EReal

/-- The constructor (`src/image_2d_sdf_node.cpp:31-40`). -/
noncomputable def Node.start : Node := ⟨[], 0, 0⟩

/-- `distance_field_[i][j] = x`. -/
def put (f : List (List FVal)) (i : Idx) (x : FVal) : List (List FVal) :=
  f.modify i.x.toNat fun row => row.set i.y.toNat x

/-- `distance_field_.resize(height)` and `distance_field_[i].resize(width)` (`src/image_2d_sdf_node.cpp:58-65`); the
values of the last image stay where they are. -/
noncomputable def fit (f : List (List FVal)) (rows cols : Nat) : List (List FVal) :=
  (resize f rows []).map fun row => resize row cols (some 0)

/-- `update_sdf` (`src/image_2d_sdf_node.cpp:50-118`) on the members of the node. -/
noncomputable def Node.update (R : Rounding) (s : Node) (m : Mat) : Node :=
  let filled := partialSdf (marked m.dims m.filled)
  let empty := partialSdf (marked m.dims fun i => !m.filled i)
  m.dims.all.foldl (fun s i =>
    let x := value R (filled.get i) (empty.get i)
    let e := SdfGen.updExtrema (s.max, s.min) x
    ⟨put s.field i x, e.1, e.2⟩) ⟨fit s.field m.rows m.cols, 0, 0⟩

/-- `distance_field_[i][j]`; `none` past the end. -/
def Node.at (s : Node) (i j : Nat) : Option FVal := (s.field[i]?).bind fun row => row[j]?

/-- The two published images: for each pixel the raw channels, and the colour (`none`: undefined behaviour). -/
structure Published where
  raw : List (List (Option (FVal × FVal)))
  preview : List (List (Option (Nat × Nat × Nat)))

/-- The loops over `binary.rows` and `binary.cols` (`src/image_2d_sdf_node.cpp:252-267, 276-300`). -/
noncomputable def Node.publish (R : Rounding) (s : Node) (rows cols : Nat) : Published where
  raw := (List.range rows).map fun i => (List.range cols).map fun j => (s.at i j).map (rawPixel R)
  preview := (List.range rows).map fun i => (List.range cols).map fun j =>
    (s.at i j).bind (previewPixel R ⟨Grid.mk' ⟨0, 0, 0⟩ none none, s.max, s.min⟩)

/-- `camera_cb` (`src/image_2d_sdf_node.cpp:228-308`): an image that cannot be decoded (`none`) is dropped, otherwise the
field is updated and both images are published. -/
noncomputable def Node.step (R : Rounding) (s : Node) : Option Mat → Node × Option Published
  | none => (s, none)
  | some m =>
    let s' := s.update R m
    (s', some (s'.publish R m.rows m.cols))

/-- `loop` (`src/image_2d_sdf_node.cpp:42-48`): what is published for a sequence of images. -/
noncomputable def Node.run (R : Rounding) (s : Node) : List (Option Mat) → List (Option Published)
  | [] => []
  | f :: fs => (s.step R f).2 :: (s.step R f).1.run R fs

end Img

end Verif
