import Verif.Interp

/-!
# The automatic-differentiation gradient

Model of `GetAutoDiffGradient` (`include/sdf_tools/sdf.hpp:600-652`).  Scalars of type
`Eigen::AutoDiffScalar<Eigen::Vector4d>` are dual numbers.  The derivative with respect to the
fourth, homogeneous, coordinate is left out: it never feeds into the first three, which are the only
ones returned.  The fourth entry of the location has the value 1, as in `Aff.app`.
-/

namespace Verif

/-- `Eigen::AutoDiffScalar`: a value and its three partial derivatives. -/
@[ext] structure Dual (K : Type) where
  val : K
  d : V3 K

namespace Dual

variable {K : Type} [Field K]

/-- `operator+` of `AutoDiffScalar` (Eigen). -/
instance : Add (Dual K) := ⟨fun a b => ⟨a.val + b.val, ⟨a.d.x + b.d.x, a.d.y + b.d.y, a.d.z + b.d.z⟩⟩⟩

/-- `operator-` of `AutoDiffScalar` (Eigen). -/
instance : Sub (Dual K) := ⟨fun a b => ⟨a.val - b.val, ⟨a.d.x - b.d.x, a.d.y - b.d.y, a.d.z - b.d.z⟩⟩⟩

/-- `operator*` of `AutoDiffScalar` (Eigen): the product rule. -/
instance : Mul (Dual K) :=
  ⟨fun a b => ⟨a.val * b.val, ⟨a.d.x * b.val + b.d.x * a.val, a.d.y * b.val + b.d.y * a.val,
    a.d.z * b.val + b.d.z * a.val⟩⟩⟩

/-- A plain `double` used as an `AutoDiffScalar`: derivatives zero. -/
def const (c : K) : Dual K := ⟨c, ⟨0, 0, 0⟩⟩

theorem add_d (a b : Dual K) : (a + b).d = ⟨a.d.x + b.d.x, a.d.y + b.d.y, a.d.z + b.d.z⟩ := rfl
theorem sub_d (a b : Dual K) : (a - b).d = ⟨a.d.x - b.d.x, a.d.y - b.d.y, a.d.z - b.d.z⟩ := rfl
theorem mul_d (a b : Dual K) : (a * b).d = ⟨a.d.x * b.val + b.d.x * a.val,
    a.d.y * b.val + b.d.y * a.val, a.d.z * b.val + b.d.z * a.val⟩ := rfl
theorem add_val (a b : Dual K) : (a + b).val = a.val + b.val := rfl
theorem sub_val (a b : Dual K) : (a - b).val = a.val - b.val := rfl
theorem mul_val (a b : Dual K) : (a * b).val = a.val * b.val := rfl

end Dual

namespace MSdf

variable {K : Type} [Field K] [LinearOrder K]

/-- The location with the derivatives seeded by `Vector4d::Unit`
(`include/sdf_tools/sdf.hpp:622-630`). -/
def seedDual (p : V3 K) : V3 (Dual K) :=
  ⟨⟨p.x, ⟨1, 0, 0⟩⟩, ⟨p.y, ⟨0, 1, 0⟩⟩, ⟨p.z, ⟨0, 0, 1⟩⟩⟩

/-- `GetAutoDiffGradient(x, y, z)`, `GetAutoDiffGradient3d`, `GetAutoDiffGradient4d`
(`include/sdf_tools/sdf.hpp:600-640`); `none` is an exception. -/
def autoDiffGradient [FloorRing K] (s : MSdf K) (p : V3 K) : Option (List K) :=
  if s.grid.dims.inB (s.locIdx p) then
    (s.estGrid Dual.const Dual.val (s.inv.app Dual.const (seedDual p)) (s.locIdx p)).map
      fun a => [a.d.x, a.d.y, a.d.z]
  else some []

/-- `GetAutoDiffGradient(index)` (`include/sdf_tools/sdf.hpp:642-652`). -/
def autoDiffGradientIdx [FloorRing K] (s : MSdf K) (i : Idx) : Option (List K) :=
  s.autoDiffGradient (s.toWorld (s.center i))

/-- `GetSmoothGradient(index, window)` (`include/sdf_tools/sdf.hpp:586-598`). -/
def smoothGradientIdx [FloorRing K] (s : MSdf K) (i : Idx) (window : K) : Option (List K) :=
  s.smoothGradient (s.toWorld (s.center i)) window

end MSdf

end Verif
