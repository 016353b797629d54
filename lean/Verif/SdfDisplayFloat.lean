import Verif.SdfGen
import Verif.SdfDisplay

/-!
# SDF display exports in floating point

Model of the colours of `SignedDistanceField::ExportForDisplay` and of the cells of
`ExportForDisplayCollisionOnly` (`src/sdf_tools/sdf.cpp:504-639`) with the values that the stored `float`s can
have: finite numbers, infinities and NaN.  The arithmetic is in `double`; the channels are `float`.
-/

namespace Verif

/-- IEEE division before rounding: NaN for `inf / inf` and `0 / 0`.  The sign of a zero divisor is not
modelled (the exports never divide by zero). -/
noncomputable def fdiv (a b : EReal) : FVal :=
  open Classical in
  if ((a = ⊤ ∨ a = ⊥) ∧ (b = ⊤ ∨ b = ⊥)) ∨ (a = 0 ∧ b = 0) then none
  else if b = 0 then some (if 0 < a then ⊤ else ⊥)
  else some (a / b)

namespace SdfShow

variable (R : Rounding)

/-- `min_distance` and `max_distance` after one cell (`src/sdf_tools/sdf.cpp:532-541`); comparisons with NaN
are false. -/
noncomputable def track (acc : EReal × EReal) (d : FVal) : EReal × EReal :=
  open Classical in
  match d with
  | none => acc
  | some x => (if x < acc.1 then x else acc.1, if x > acc.2 then x else acc.2)

/-- `min_distance` and `max_distance` after the first loop (`src/sdf_tools/sdf.cpp:523-552`). -/
noncomputable def extrema (g : Grid FVal) : EReal × EReal :=
  g.dims.all.foldl (fun acc i => track acc (g.getImm i).1) (0, 0)

/-- `(std::abs(distance / limit) * 0.8) + 0.2`, stored in a `float`
(`src/sdf_tools/sdf.cpp:567, 574`). -/
noncomputable def channel (d limit : EReal) : FVal :=
  (fdiv d limit).map fun q =>
    R.r32 (R.r64 (R.r64 (max (R.r64 q) (-R.r64 q) * R.r64 ((4 / 5 : ℝ) : EReal)) + R.r64 ((1 / 5 : ℝ) : EReal)))

/-- The colour of one cell (`src/sdf_tools/sdf.cpp:561-582`); `a` is the clamped alpha. -/
noncomputable def colour (lim : EReal × EReal) (a : FVal) (d : FVal) : Rgba FVal :=
  open Classical in
  match d with
  | none => ⟨some 0, some 0, some 1, a⟩
  | some x =>
    if 0 < x then ⟨some 0, channel R x lim.2, some 0, a⟩
    else if x < 0 then ⟨channel R x lim.1, some 0, some 0, a⟩
    else ⟨some 0, some 0, some 1, a⟩

/-- The colours of the marker (`src/sdf_tools/sdf.cpp:554-585`). -/
noncomputable def colours (g : Grid FVal) (a : FVal) : List (Rgba FVal) :=
  g.dims.all.foldl (fun l i => l ++ [colour R (extrema g) a (g.getImm i).1]) []

/-- The cells drawn by `ExportForDisplayCollisionOnly` (`src/sdf_tools/sdf.cpp:614-637`). -/
noncomputable def collisionCells (g : Grid FVal) : List Idx :=
  g.dims.all.foldl (fun l i => if SdfGen.leZero (g.getImm i).1 then l ++ [i] else l) []

end SdfShow

end Verif
