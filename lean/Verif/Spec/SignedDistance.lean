import Verif.Spec.Interp
import Verif.Spec.Basic
import Mathlib.Analysis.Real.Sqrt

/-!
# The signed distance from a location to the obstacles of a map
-/

namespace Verif.Spec

/-- Euclidean distance of two grid-frame locations. -/
noncomputable def dist3 (a b : V3 ℝ) : ℝ := Real.sqrt (sqDist3 a b)

/-- The location lies in the closed cube of cell `i`. -/
def InCube (res : ℝ) (i : Idx) (q : V3 ℝ) : Prop :=
  (i.x * res ≤ q.x ∧ q.x ≤ (i.x + 1) * res) ∧ (i.y * res ≤ q.y ∧ q.y ≤ (i.y + 1) * res) ∧
    i.z * res ≤ q.z ∧ q.z ≤ (i.z + 1) * res

/-- The location lies in the cube of a filled cell (`b = true`) or of a free cell (`b = false`) of the map. -/
def Region (d : Dims) (res : ℝ) (f : Idx → Bool) (b : Bool) (q : V3 ℝ) : Prop :=
  ∃ i, InBounds d i ∧ f i = b ∧ InCube res i q

/-- `sd` is the signed distance from `q` to the obstacles: the distance to the nearest point of a filled cell if that is
positive, otherwise minus the distance to the nearest point of a free cell. -/
structure SignedDistance (d : Dims) (res : ℝ) (f : Idx → Bool) (q : V3 ℝ) (sd : ℝ) : Prop where
  outside : 0 ≤ sd → (∃ r, Region d res f true r ∧ dist3 q r = sd) ∧ ∀ r, Region d res f true r → sd ≤ dist3 q r
  inside : sd ≤ 0 → (∃ r, Region d res f false r ∧ dist3 q r = -sd) ∧ ∀ r, Region d res f false r → -sd ≤ dist3 q r

/-- Between the first and the last cell centre of an axis of `n` cells, in cells; anywhere on an axis of one cell. -/
def Inner (n : ℕ) (t : ℝ) : Prop := (n = 1 ∧ 0 ≤ t ∧ t ≤ 1) ∨ 1 / 2 ≤ t ∧ t ≤ (n : ℝ) - 1 / 2

/-- A grid-frame location that is at least half a cell from the faces on every axis with more than one cell. -/
def InnerLocation (d : Dims) (res : ℝ) (q : V3 ℝ) : Prop :=
  Inner d.nx (q.x / res) ∧ Inner d.ny (q.y / res) ∧ Inner d.nz (q.z / res)

/-- The map has filled and free cells. -/
def BothClasses (d : Dims) (f : Idx → Bool) : Prop :=
  (∃ a, InBounds d a ∧ f a = true) ∧ ∃ b, InBounds d b ∧ f b = false

/-- The negative of `x` for a filled cell, `x` for a free one. -/
def signed (b : Bool) (x : ℝ) : ℝ := if b then -x else x

end Verif.Spec
