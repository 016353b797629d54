import Verif.Grid

/-!
# Signed distance field: storage, lock and setters

Model of the state of `sdf_tools::SignedDistanceField` (`include/sdf_tools/sdf.hpp`) that the
setters and the lock act on.  The stored value type is a parameter: nothing here looks inside a
`float`.
-/

namespace Verif

/-- The state of a `SignedDistanceField`: base-class grid and `locked_`
(`include/sdf_tools/sdf.hpp:20-25`).  Frame and metric data take no part here. -/
structure Sdf (V : Type) where
  grid : Grid V
  locked : Bool
deriving DecidableEq, Repr

namespace Sdf

variable {V : Type}

/-- Constructors (`include/sdf_tools/sdf.hpp:34-81`): the single value argument is both the
out-of-bounds value and the initial value of every cell; unlocked. -/
def create (d : Dims) (oob : V) : Sdf V := ⟨Grid.mk' d oob oob, false⟩

/-- The default constructor (`include/sdf_tools/sdf.hpp:80-81`): the base class's default grid, which
has no cells and the default out-of-bounds value; unlocked. -/
def createDefault [Inhabited V] : Sdf V := ⟨Grid.mk' ⟨0, 0, 0⟩ default default, false⟩

/-- `GetImmutable(index)` (inherited). -/
def getImm (s : Sdf V) (i : Idx) : V × Bool := s.grid.getImm i

/-- `IsLocked` (`include/sdf_tools/sdf.hpp:112-115`). -/
def isLocked (s : Sdf V) : Bool := s.locked

/-- `Lock` (`include/sdf_tools/sdf.hpp:117-120`). -/
def lock (s : Sdf V) : Sdf V := { s with locked := true }

/-- `Unlock` (`include/sdf_tools/sdf.hpp:122-125`). -/
def unlock (s : Sdf V) : Sdf V := { s with locked := false }

/-- `SetValue(index, value)` and `SetValue(x, y, z index, value)`
(`include/sdf_tools/sdf.hpp:233-261`; the rvalue overloads at 302-330 have the same body). -/
def setValue (s : Sdf V) (i : Idx) (v : V) : Sdf V × Bool :=
  if s.grid.dims.inB i && !s.locked then ({ s with grid := s.grid.set i v }, true)
  else (s, false)

/-- `GetMutable(index)` followed by a write through the returned reference
(`include/sdf_tools/sdf.hpp:171-196`).  When access is refused the reference designates
`oob_value_`. -/
def mutWrite (s : Sdf V) (i : Idx) (v : V) : Sdf V × Bool :=
  if s.grid.dims.inB i && !s.locked then ({ s with grid := s.grid.set i v }, true)
  else ({ s with grid := { s.grid with oob := v } }, false)

/-- `SetValue3d`, `SetValue4d`, `SetValue(x, y, z, value)`
(`include/sdf_tools/sdf.hpp:198-231`, `263-300`): the location is converted to an index by the
base class (`locIdx`), checked, and passed on. -/
def setValueAt {P : Type} (locIdx : P → Idx) (s : Sdf V) (p : P) (v : V) : Sdf V × Bool :=
  if s.grid.dims.inB (locIdx p) then s.setValue (locIdx p) v else (s, false)

/-- `GetMutable3d`, `GetMutable4d`, `GetMutable(x, y, z)` (`include/sdf_tools/sdf.hpp:135-169`)
followed by a write through the returned reference. -/
def mutWriteAt {P : Type} (locIdx : P → Idx) (s : Sdf V) (p : P) (v : V) : Sdf V × Bool :=
  if s.grid.dims.inB (locIdx p) then s.mutWrite (locIdx p) v
  else ({ s with grid := { s.grid with oob := v } }, false)

/-- A later write through a reference that a granted `GetMutable(index)` returned earlier; the
reference is a plain `float&`, so the lock is not consulted (`include/sdf_tools/sdf.hpp:171-196`). -/
def heldWrite (s : Sdf V) (i : Idx) (v : V) : Sdf V := { s with grid := s.grid.set i v }

/-- A call that may change the field.  Locations are of an arbitrary type `P`. -/
inductive Op (P V : Type) where
  | lock
  | unlock
  | set (i : Idx) (v : V)
  | setAt (p : P) (v : V)
  | mutWrite (i : Idx) (v : V)
  | mutWriteAt (p : P) (v : V)

/-- Effect and reported success of a call (`Lock` and `Unlock` report nothing). -/
def apply {P : Type} (locIdx : P → Idx) (s : Sdf V) : Op P V → Sdf V × Option Bool
  | .lock => (s.lock, none)
  | .unlock => (s.unlock, none)
  | .set i v => ((s.setValue i v).1, some (s.setValue i v).2)
  | .setAt p v => ((s.setValueAt locIdx p v).1, some (s.setValueAt locIdx p v).2)
  | .mutWrite i v => ((s.mutWrite i v).1, some (s.mutWrite i v).2)
  | .mutWriteAt p v => ((s.mutWriteAt locIdx p v).1, some (s.mutWriteAt locIdx p v).2)

/-- A history of calls, oldest first. -/
def run {P : Type} (locIdx : P → Idx) (s : Sdf V) (ops : List (Op P V)) : Sdf V :=
  ops.foldl (fun s o => (s.apply locIdx o).1) s

/-- The replies along a history, oldest first. -/
def replies {P : Type} (locIdx : P → Idx) (s : Sdf V) : List (Op P V) → List (Option Bool)
  | [] => []
  | o :: ops => (s.apply locIdx o).2 :: replies locIdx (s.apply locIdx o).1 ops

theorem apply_wf {P : Type} (locIdx : P → Idx) {s : Sdf V} (h : s.grid.WF) (o : Op P V) :
    (s.apply locIdx o).1.grid.WF := by
  cases o <;> simp only [apply, lock, unlock, setValue, setValueAt, mutWrite, mutWriteAt] <;>
    (repeat' split) <;> first | exact h | exact Grid.WF.set h _ _

theorem apply_dims {P : Type} (locIdx : P → Idx) (s : Sdf V) (o : Op P V) :
    (s.apply locIdx o).1.grid.dims = s.grid.dims := by
  cases o <;> simp only [apply, lock, unlock, setValue, setValueAt, mutWrite, mutWriteAt] <;>
    (repeat' split) <;> simp

theorem run_wf {P : Type} (locIdx : P → Idx) (ops : List (Op P V)) : ∀ {s : Sdf V}, s.grid.WF →
    (s.run locIdx ops).grid.WF ∧ (s.run locIdx ops).grid.dims = s.grid.dims := by
  induction ops with
  | nil => intro s h; exact ⟨h, rfl⟩
  | cons o ops ih =>
    intro s h
    obtain ⟨h1, h2⟩ := ih (apply_wf locIdx h o)
    exact ⟨h1, h2.trans (apply_dims locIdx s o)⟩

end Sdf

end Verif
