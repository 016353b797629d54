import Verif.Components
import Verif.F32

/-!
# Collision map

Model of `sdf_tools::CollisionMapGrid` (`include/sdf_tools/collision_map.hpp`,
`src/sdf_tools/collision_map.cpp`): cell contents, setters, the components-valid flag,
connected components, surface and corner tests.
-/

namespace Verif

/-- `COLLISION_CELL` (`include/sdf_tools/collision_map.hpp:20-32`). -/
structure CCell where
  occ : F32
  comp : UInt32
deriving DecidableEq, Repr, Inhabited

/-- `COLLISION_CELL(occupancy)` (`include/sdf_tools/collision_map.hpp:27-28`). -/
def CCell.ofOcc (o : F32) : CCell := ⟨o, 0⟩

/-- The state of a `CollisionMapGrid`: base-class grid, `number_of_components_`,
`components_valid_` (`include/sdf_tools/collision_map.hpp:156-158`).  The frame and the metric data
take no part in the functions modelled here (they appear in `Verif.Serial`). -/
structure CMap where
  grid : Grid CCell
  nComp : UInt32
  valid : Bool
deriving DecidableEq, Repr

namespace CMap

def dims (m : CMap) : Dims := m.grid.dims

/-- Constructors (`include/sdf_tools/collision_map.hpp:164-274`): every cell is the default value,
`number_of_components_ = 0`, `components_valid_ = false`. -/
def create (d : Dims) (dflt oob : CCell) : CMap := ⟨Grid.mk' d dflt oob, 0, false⟩

/-- The default constructor (`include/sdf_tools/collision_map.hpp:272-274`). -/
def createDefault : CMap := ⟨Grid.mk' ⟨0, 0, 0⟩ default default, 0, false⟩

/-- `GetImmutable(index)` (inherited). -/
def getImm (m : CMap) (i : Idx) : CCell × Bool := m.grid.getImm i

/-- `SetValue(index, value)` (`include/sdf_tools/collision_map.hpp:389-419`; the rvalue overloads
at 457-487 have the same body). -/
def setValue (m : CMap) (i : Idx) (c : CCell) : CMap × Bool :=
  if m.grid.dims.inB i then ({ m with grid := m.grid.set i c, valid := false }, true)
  else (m, false)

/-- `GetMutable(index)` followed by a write of the whole cell through the returned reference
(`include/sdf_tools/collision_map.hpp:321-351`).  Out of bounds the reference designates
`oob_value_`. -/
def mutWrite (m : CMap) (i : Idx) (c : CCell) : CMap × Bool :=
  if m.grid.dims.inB i then ({ m with grid := m.grid.set i c, valid := false }, true)
  else ({ m with grid := { m.grid with oob := c } }, false)

/-- A later write through a reference that `GetMutable(index)` returned earlier: the cell changes,
no flag does (`include/sdf_tools/collision_map.hpp:321-351` returns a plain reference). -/
def heldWrite (m : CMap) (i : Idx) (c : CCell) : CMap :=
  { m with grid := m.grid.set i c }

/-- `are_connected_fn` (`src/sdf_tools/collision_map.cpp:573-588`).  The assertions that both
indices are in bounds are discussed in `Verif.Props.Components`. -/
def connFn (m : CMap) (i j : Idx) : Bool :=
  (m.grid.get i).occ.gtHalf == (m.grid.get j).occ.gtHalf

/-- `get_component_fn` (`src/sdf_tools/collision_map.cpp:589-601`). -/
def compFn (m : CMap) (i : Idx) : Int :=
  if m.grid.dims.inB i then ((m.grid.get i).comp.toNat : Int) else -1

/-- `mark_component_fn` (`src/sdf_tools/collision_map.cpp:602-610`): `GetMutable`, then `SetValue`
with the old occupancy. -/
def markFn (m : CMap) (i : Idx) (c : Nat) : CMap :=
  if m.grid.dims.inB i then (m.setValue i ⟨(m.grid.get i).occ, UInt32.ofNat c⟩).1 else m

/-- The closures of `UpdateConnectedComponents`. -/
def compFns : CompFns CMap := ⟨connFn, compFn, markFn⟩

/-- `UpdateConnectedComponents` (`src/sdf_tools/collision_map.cpp:564-618`).  `none` would be
non-termination. -/
def updateCC (m : CMap) : Option (CMap × Nat) :=
  if m.valid then some (m, m.nComp.toNat)
  else
    match compFns.computeCC m.dims { m with valid := false } with
    | none => none
    | some (m', n) => some ({ m' with nComp := UInt32.ofNat n, valid := true }, n)

/-- `GetNumConnectedComponents` (`include/sdf_tools/collision_map.hpp:503-506`). -/
def getNumCC (m : CMap) : Nat × Bool := (m.nComp.toNat, m.valid)

/-- `CheckIfCandidateCorner` (`include/sdf_tools/collision_map.hpp:552-619`). -/
def checkCorner (m : CMap) (i : Idx) : Bool × Bool :=
  if m.grid.dims.inB i then
    let differs (j : Idx) : Nat :=
      if (m.getImm j).2 && (m.getImm j).1.comp != (m.grid.get i).comp then 1 else 0
    let n := differs ⟨i.x - 1, i.y, i.z⟩ + differs ⟨i.x + 1, i.y, i.z⟩
      + differs ⟨i.x, i.y - 1, i.z⟩ + differs ⟨i.x, i.y + 1, i.z⟩
      + differs ⟨i.x, i.y, i.z - 1⟩ + differs ⟨i.x, i.y, i.z + 1⟩
    if n ≤ 1 then (false, true) else (true, true)
  else (false, false)

/-- `IsSurfaceIndex` (`include/sdf_tools/collision_map.hpp:45-92`): the loops run over the part of
the 26-neighbourhood that lies in the grid. -/
def isSurface (m : CMap) (i : Idx) : Bool :=
  if m.grid.dims.inB i then
    let d := m.grid.dims
    let our := (m.grid.get i).occ
    let rng (lo hi : Int) : List Int := (List.range (hi - lo + 1).toNat).map fun (k : Nat) => lo + k
    (rng (max 0 (i.x - 1)) (min ((d.nx : Int) - 1) (i.x + 1))).any fun x =>
    (rng (max 0 (i.y - 1)) (min ((d.ny : Int) - 1) (i.y + 1))).any fun y =>
    (rng (max 0 (i.z - 1)) (min ((d.nz : Int) - 1) (i.z + 1))).any fun z =>
      (x != i.x || y != i.y || z != i.z) &&
        (let other := (m.grid.get ⟨x, y, z⟩).occ
         (our.ltHalf && (other.gtHalf || other.eqHalf))
          || (our.gtHalf && (other.ltHalf || other.eqHalf))
          || (our.eqHalf && !other.eqHalf))
  else false

/-- `IsConnectedComponentSurfaceIndex` (`include/sdf_tools/collision_map.hpp:94-154`), with the
comparison `z_index == GetNumZCells()` of line 108 as written. -/
def isCCSurface (m : CMap) (i : Idx) : Bool :=
  let d := m.grid.dims
  if i.x < 0 ∨ i.y < 0 ∨ i.z < 0 ∨ i.x ≥ d.nx ∨ i.y ≥ d.ny ∨ i.z ≥ d.nz then false
  else if i.x = 0 ∨ i.y = 0 ∨ i.z = 0 ∨ i.x = (d.nx : Int) - 1 ∨ i.y = (d.ny : Int) - 1
      ∨ i.z = (d.nz : Int) then true
  else
    let c (j : Idx) := (m.grid.get j).comp
    let our := c i
    if our ≠ c ⟨i.x, i.y, i.z - 1⟩ then true
    else if our ≠ c ⟨i.x, i.y, i.z + 1⟩ then true
    else if our ≠ c ⟨i.x, i.y - 1, i.z⟩ then true
    else if our ≠ c ⟨i.x, i.y + 1, i.z⟩ then true
    else if our ≠ c ⟨i.x - 1, i.y, i.z⟩ then true
    else if our ≠ c ⟨i.x + 1, i.y, i.z⟩ then true
    else false

/-! ## Histories -/

/-- Mutating calls on a collision map. -/
inductive Op where
  | setValue (i : Idx) (c : CCell)
  | mutWrite (i : Idx) (c : CCell)
  | update
deriving DecidableEq, Repr

/-- Effect of one call.  A non-terminating update would have no effect (`updateCC_isSome` shows that
it always terminates). -/
def apply (m : CMap) : Op → CMap
  | .setValue i c => (m.setValue i c).1
  | .mutWrite i c => (m.mutWrite i c).1
  | .update => (m.updateCC.map Prod.fst).getD m

def run (m : CMap) (ops : List Op) : CMap := ops.foldl apply m

end CMap

/-! ## Basic facts -/

namespace CMap

theorem setValue_wf {m : CMap} (h : m.grid.WF) (i : Idx) (c : CCell) :
    (m.setValue i c).1.grid.WF := by
  unfold setValue; split
  · exact h.set i c
  · exact h

@[simp] theorem setValue_dims (m : CMap) (i : Idx) (c : CCell) :
    (m.setValue i c).1.grid.dims = m.grid.dims := by
  unfold setValue; split <;> simp

theorem mutWrite_wf {m : CMap} (h : m.grid.WF) (i : Idx) (c : CCell) :
    (m.mutWrite i c).1.grid.WF := by
  unfold mutWrite; split
  · exact h.set i c
  · exact h

@[simp] theorem mutWrite_dims (m : CMap) (i : Idx) (c : CCell) :
    (m.mutWrite i c).1.grid.dims = m.grid.dims := by
  unfold mutWrite; split <;> simp

theorem setValue_get {m : CMap} (h : m.grid.WF) (i j : Idx) (c : CCell) :
    (m.setValue i c).1.grid.get j = if i = j ∧ m.grid.dims.inB i = true then c else m.grid.get j := by
  unfold setValue
  split
  · simp [Grid.get_set h, *]
  · simp [*]

theorem markFn_get {m : CMap} (h : m.grid.WF) (i j : Idx) (c : Nat) :
    (m.markFn i c).grid.get j = if i = j ∧ m.grid.dims.inB i = true
      then ⟨(m.grid.get i).occ, UInt32.ofNat c⟩ else m.grid.get j := by
  unfold markFn
  split
  · rw [setValue_get h]
  · simp [*]

theorem markFn_wf {m : CMap} (h : m.grid.WF) (i : Idx) (c : Nat) : (m.markFn i c).grid.WF := by
  unfold markFn; split
  · exact setValue_wf h _ _
  · exact h

@[simp] theorem markFn_dims (m : CMap) (i : Idx) (c : Nat) :
    (m.markFn i c).grid.dims = m.grid.dims := by
  unfold markFn; split <;> simp

/-- Everything the labelling must leave alone: geometry, defaults and occupancies. -/
def SameOcc (m m' : CMap) : Prop :=
  m'.grid.WF ∧ m'.grid.dims = m.grid.dims ∧ m'.grid.dflt = m.grid.dflt ∧
    m'.grid.oob = m.grid.oob ∧ ∀ i, (m'.grid.get i).occ = (m.grid.get i).occ

theorem SameOcc.refl {m : CMap} (h : m.grid.WF) : m.SameOcc m := ⟨h, rfl, rfl, rfl, fun _ => rfl⟩

/-- The compatibility relation of the labelling: both cells on the same side of `> 0.5`. -/
def compat (m : CMap) (i j : Idx) : Prop :=
  (m.grid.get i).occ.gtHalf = (m.grid.get j).occ.gtHalf

theorem lawful (m : CMap) : compFns.Lawful m.grid.dims (m.SameOcc)
    (fun i => m.grid.dims.inB i = true) m.compat := by
  refine ⟨fun _ h => h, ?_, ?_, ?_, ?_, ?_, ?_, ?_⟩
  · rintro s i c ⟨h1, h2, h3, h4, h5⟩ hi
    refine ⟨markFn_wf h1 _ _, by simp [compFns, h2], ?_, ?_, ?_⟩
    · rw [← h3]; simp only [compFns, markFn, setValue]; split <;> simp
    · rw [← h4]; simp only [compFns, markFn, setValue]; split <;> simp
    · intro j
      rw [← h5 j]
      simp only [compFns]
      rw [markFn_get h1]
      split
      · rename_i h; rw [h.1]
      · rfl
  · rintro s i c ⟨h1, h2, h3, h4, h5⟩ hi hc
    simp only [compFns, compFn, markFn_dims]
    rw [markFn_get h1]
    have : s.grid.dims.inB i = true := by rw [h2]; exact hi
    simp only [this, and_self, if_true]
    rw [UInt32.toNat_ofNat_of_lt' (by simpa [u32] using hc)]
  · rintro s i j c ⟨h1, h2, h3, h4, h5⟩ hij
    simp only [compFns, compFn, markFn_dims]
    rw [markFn_get h1]
    simp [hij]
  · rintro s i ⟨h1, h2, h3, h4, h5⟩ hi
    have : s.grid.dims.inB i = true := by rw [h2]; exact hi
    simp only [compFns, compFn, this, if_true]
    have := (s.grid.get i).comp.toNat_lt
    refine ⟨by omega, ?_⟩
    unfold u32; exact_mod_cast this
  · rintro s i ⟨h1, h2, h3, h4, h5⟩ hi
    have : ¬ s.grid.dims.inB i = true := by rw [h2]; exact hi
    simp [compFns, compFn, this]
  · rintro s i j ⟨h1, h2, h3, h4, h5⟩ _ _ _
    simp [compFns, connFn, compat, h5]
  · intro i j _ _ _ h
    exact h.symm

end CMap

end Verif
