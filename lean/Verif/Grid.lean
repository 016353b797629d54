import Mathlib.Tactic.Linarith
import Mathlib.Tactic.Ring

/-!
# Voxel grid storage

Model of the contract of `VoxelGrid::VoxelGrid<T>` from `arc_utilities/voxel_grid.hpp`, the base
class of every map in `/repo`.  That header is not part of `/repo`; the behaviour assumed here is
what the code in `/repo` relies on (see DESIGN.md, trusted base):

* bounds and out-of-bounds reads: `include/sdf_tools/sdf.hpp:135-331`,
  `include/sdf_tools/collision_map.hpp:287-489` (`IndexInBounds`, `AccessIndex`, `oob_value_`);
* memory order (z fastest): the comment in `src/sdf_tools/utils_3d.py:71-73` and the strides
  serialized in `src/sdf_tools/sdf.cpp:213-258`.

Simplification: indices are unbounded integers instead of `int64_t`, sizes are naturals.
-/

namespace Verif

/-- A grid index, `VoxelGrid::GRID_INDEX` (three `int64_t`). -/
@[ext] structure Idx where
  x : Int
  y : Int
  z : Int
deriving DecidableEq, Repr, Inhabited

namespace Idx

def add (a b : Idx) : Idx := ⟨a.x + b.x, a.y + b.y, a.z + b.z⟩
def sub (a b : Idx) : Idx := ⟨a.x - b.x, a.y - b.y, a.z - b.z⟩

instance : Add Idx := ⟨add⟩
instance : Sub Idx := ⟨sub⟩

@[simp] theorem add_x (a b : Idx) : (a + b).x = a.x + b.x := rfl
@[simp] theorem add_y (a b : Idx) : (a + b).y = a.y + b.y := rfl
@[simp] theorem add_z (a b : Idx) : (a + b).z = a.z + b.z := rfl
@[simp] theorem sub_x (a b : Idx) : (a - b).x = a.x - b.x := rfl
@[simp] theorem sub_y (a b : Idx) : (a - b).y = a.y - b.y := rfl
@[simp] theorem sub_z (a b : Idx) : (a - b).z = a.z - b.z := rfl

end Idx

/-- Number of cells per axis (`GetNumXCells` etc.). -/
@[ext] structure Dims where
  nx : Nat
  ny : Nat
  nz : Nat
deriving DecidableEq, Repr, Inhabited

namespace Dims

/-- `IndexInBounds` (contract of `VoxelGrid`). -/
def inB (d : Dims) (i : Idx) : Bool :=
  decide (0 ≤ i.x) && decide (0 ≤ i.y) && decide (0 ≤ i.z)
    && decide (i.x < d.nx) && decide (i.y < d.ny) && decide (i.z < d.nz)

/-- `GetDataIndex` (contract of `VoxelGrid`): `x * stride1 + y * stride2 + z` with
`stride1 = ny * nz` and `stride2 = nz`. -/
def lin (d : Dims) (i : Idx) : Nat :=
  i.x.toNat * (d.ny * d.nz) + i.y.toNat * d.nz + i.z.toNat

/-- Number of cells. -/
def size (d : Dims) : Nat := d.nx * d.ny * d.nz

/-- All indices in the order of the triple loop
`for x_index … for y_index … for z_index …` used all over `/repo`
(for example `include/sdf_tools/sdf_generation.hpp:225-245`). -/
def all (d : Dims) : List Idx :=
  (List.range d.nx).flatMap fun (x : Nat) =>
    (List.range d.ny).flatMap fun (y : Nat) =>
      (List.range d.nz).map fun (z : Nat) => ⟨(x : Int), (y : Int), (z : Int)⟩

theorem inB_iff {d : Dims} {i : Idx} :
    d.inB i = true ↔ 0 ≤ i.x ∧ 0 ≤ i.y ∧ 0 ≤ i.z ∧ i.x < d.nx ∧ i.y < d.ny ∧ i.z < d.nz := by
  simp [inB, and_assoc]

theorem mem_all {d : Dims} {i : Idx} : i ∈ d.all ↔ d.inB i = true := by
  rw [inB_iff]
  unfold all
  simp only [List.mem_flatMap, List.mem_map, List.mem_range]
  constructor
  · rintro ⟨x, hx, y, hy, z, hz, rfl⟩
    simp only
    omega
  · rintro ⟨h1, h2, h3, h4, h5, h6⟩
    refine ⟨i.x.toNat, by omega, i.y.toNat, by omega, i.z.toNat, by omega, ?_⟩
    ext <;> simp <;> omega

theorem lin_lt {d : Dims} {i : Idx} (h : d.inB i = true) : d.lin i < d.size := by
  rw [inB_iff] at h
  obtain ⟨h1, h2, h3, h4, h5, h6⟩ := h
  unfold lin size
  have hx : i.x.toNat + 1 ≤ d.nx := by omega
  have hy : i.y.toNat + 1 ≤ d.ny := by omega
  have hz : i.z.toNat + 1 ≤ d.nz := by omega
  generalize i.x.toNat = a at *
  generalize i.y.toNat = b at *
  generalize i.z.toNat = c at *
  have e1 : (a + 1) * (d.ny * d.nz) ≤ d.nx * (d.ny * d.nz) := Nat.mul_le_mul_right _ hx
  have e2 : (b + 1) * d.nz ≤ d.ny * d.nz := Nat.mul_le_mul_right _ hy
  have e3 : d.nx * d.ny * d.nz = d.nx * (d.ny * d.nz) := Nat.mul_assoc _ _ _
  rw [e3]
  rw [Nat.add_mul] at e1 e2
  omega

theorem lin_inj {d : Dims} {i j : Idx} (hi : d.inB i = true) (hj : d.inB j = true)
    (h : d.lin i = d.lin j) : i = j := by
  rw [inB_iff] at hi hj
  obtain ⟨h1, h2, h3, h4, h5, h6⟩ := hi
  obtain ⟨g1, g2, g3, g4, g5, g6⟩ := hj
  unfold lin at h
  have e : ∀ a b c : Nat, a * (d.ny * d.nz) + b * d.nz + c = (a * d.ny + b) * d.nz + c := by
    intro a b c; ring
  rw [e, e] at h
  have zi : i.z.toNat < d.nz := by omega
  have zj : j.z.toNat < d.nz := by omega
  have yi : i.y.toNat < d.ny := by omega
  have yj : j.y.toNat < d.ny := by omega
  have hnz : 0 < d.nz := by omega
  have hny : 0 < d.ny := by omega
  have ez : i.z.toNat = j.z.toNat := by
    have := congrArg (· % d.nz) h
    simpa [Nat.mod_eq_of_lt zi, Nat.mod_eq_of_lt zj] using this
  have h' : i.x.toNat * d.ny + i.y.toNat = j.x.toNat * d.ny + j.y.toNat := by
    rw [ez] at h
    have h'' : (i.x.toNat * d.ny + i.y.toNat) * d.nz = (j.x.toNat * d.ny + j.y.toNat) * d.nz := by
      omega
    exact Nat.eq_of_mul_eq_mul_right hnz h''
  have ey : i.y.toNat = j.y.toNat := by
    have := congrArg (· % d.ny) h'
    simpa [Nat.mod_eq_of_lt yi, Nat.mod_eq_of_lt yj] using this
  have ex : i.x.toNat = j.x.toNat := by
    rw [ey] at h'
    have h'' : i.x.toNat * d.ny = j.x.toNat * d.ny := by omega
    exact Nat.eq_of_mul_eq_mul_right hny h''
  ext <;> omega

private theorem flatMap_range_map {n m : Nat} (f : Nat → List Nat)
    (hf : ∀ x, x < n → f x = (List.range m).map (fun k => x * m + k)) :
    (List.range n).flatMap f = List.range (n * m) := by
  induction n with
  | zero => simp
  | succ n ih =>
    rw [List.range_succ, List.flatMap_append, ih (fun x hx => hf x (by omega))]
    simp only [List.flatMap_cons, List.flatMap_nil, List.append_nil]
    rw [hf n (by omega), Nat.succ_mul, List.range_add]

/-- The scan order is the memory order. -/
theorem all_map_lin (d : Dims) : d.all.map d.lin = List.range d.size := by
  unfold all
  rw [List.map_flatMap]
  have hs : d.size = d.nx * (d.ny * d.nz) := by unfold size; ring
  rw [hs]
  apply flatMap_range_map
  intro x _
  rw [List.map_flatMap]
  have : ∀ y : Nat, y < d.ny →
      ((List.range d.nz).map (fun (z : Nat) => (⟨(x:Int), (y:Int), (z:Int)⟩ : Idx))).map d.lin
        = (List.range d.nz).map (fun k => x * (d.ny * d.nz) + (y * d.nz + k)) := by
    intro y _
    rw [List.map_map]
    apply List.map_congr_left
    intro z _
    simp [lin]
    ring
  have key : (List.range d.ny).flatMap
        (fun (y : Nat) => ((List.range d.nz).map (fun (z : Nat) => (⟨(x:Int), (y:Int), (z:Int)⟩ : Idx))).map d.lin)
      = ((List.range d.ny).flatMap
          (fun y => (List.range d.nz).map (fun k => y * d.nz + k))).map
            (fun k => x * (d.ny * d.nz) + k) := by
    rw [List.map_flatMap]
    rw [List.flatMap_def, List.flatMap_def]
    congr 1
    apply List.map_congr_left
    intro y hy
    rw [this y (List.mem_range.mp hy), List.map_map]
    rfl
  rw [key, flatMap_range_map _ (fun x _ => rfl)]

theorem length_all (d : Dims) : d.all.length = d.size := by
  have := congrArg List.length (all_map_lin d)
  simpa using this

theorem nodup_all (d : Dims) : d.all.Nodup := by
  have : (d.all.map d.lin).Pairwise (· < ·) := by
    rw [all_map_lin]; exact List.pairwise_lt_range
  exact (List.pairwise_map.mp this).imp (fun h e => absurd (e ▸ h) (Nat.lt_irrefl _))

/-- The scan visits indices in strictly increasing memory order. -/
theorem pairwise_all (d : Dims) : d.all.Pairwise (fun a b => d.lin a < d.lin b) := by
  have : (d.all.map d.lin).Pairwise (· < ·) := by
    rw [all_map_lin]; exact List.pairwise_lt_range
  exact List.pairwise_map.mp this

theorem all_getElem_lin {d : Dims} {i : Idx} (h : d.inB i = true) :
    d.all[d.lin i]? = some i := by
  obtain ⟨n, hn, hi⟩ := List.getElem_of_mem (mem_all.mpr h)
  have hmap : (d.all.map d.lin)[n]'(by simpa using hn) = n := by
    simp only [all_map_lin]; simp
  rw [List.getElem_map, hi] at hmap
  rw [hmap]
  simp [List.getElem?_eq_getElem hn, hi]

end Dims

/-- `VoxelGrid::VoxelGrid<T>`: dimensions, backing store, default and out-of-bounds value.
The metric part (cell sizes, origin transform) is modelled where it is used. -/
structure Grid (α : Type) where
  dims : Dims
  data : List α
  dflt : α
  oob : α
deriving DecidableEq, Repr

namespace Grid

variable {α : Type}

/-- The backing store has one element per cell. -/
def WF (g : Grid α) : Prop := g.data.length = g.dims.size

/-- Construction: every cell holds the default value (contract of `VoxelGrid` constructors). -/
def mk' (d : Dims) (dflt oob : α) : Grid α := ⟨d, List.replicate d.size dflt, dflt, oob⟩

/-- Stored value at an index, the out-of-bounds value outside
(first component of `GetImmutable`).  The inner default is never used on well-formed grids. -/
def get (g : Grid α) (i : Idx) : α :=
  if g.dims.inB i then (g.data[g.dims.lin i]?).getD g.oob else g.oob

/-- `GetImmutable(index)`: value and validity (contract of `VoxelGrid`). -/
def getImm (g : Grid α) (i : Idx) : α × Bool := (g.get i, g.dims.inB i)

/-- `AccessIndex(GetDataIndex(...)) = value` guarded by the bounds check
(contract of `VoxelGrid::SetValue`). -/
def set (g : Grid α) (i : Idx) (v : α) : Grid α :=
  if g.dims.inB i then { g with data := g.data.set (g.dims.lin i) v } else g

theorem wf_mk' (d : Dims) (a b : α) : (mk' d a b).WF := by simp [WF, mk']

@[simp] theorem dims_set (g : Grid α) (i : Idx) (v : α) : (g.set i v).dims = g.dims := by
  unfold set; split <;> rfl

@[simp] theorem oob_set (g : Grid α) (i : Idx) (v : α) : (g.set i v).oob = g.oob := by
  unfold set; split <;> rfl

@[simp] theorem dflt_set (g : Grid α) (i : Idx) (v : α) : (g.set i v).dflt = g.dflt := by
  unfold set; split <;> rfl

theorem WF.set {g : Grid α} (h : g.WF) (i : Idx) (v : α) : (g.set i v).WF := by
  unfold WF Grid.set at *
  split <;> simpa using h

theorem get_mk' (d : Dims) (a b : α) (i : Idx) :
    (mk' d a b).get i = if d.inB i then a else b := by
  unfold get mk'
  by_cases h : d.inB i = true
  · simp [h, Dims.lin_lt h]
  · simp [h]

theorem get_oob {g : Grid α} {i : Idx} (h : g.dims.inB i = false) : g.get i = g.oob := by
  simp [get, h]

theorem get_eq_getElem {g : Grid α} (hg : g.WF) {i : Idx} (h : g.dims.inB i = true) :
    g.data[g.dims.lin i]? = some (g.get i) := by
  have hl : g.dims.lin i < g.data.length := by rw [hg]; exact Dims.lin_lt h
  simp [get, h, List.getElem?_eq_getElem hl]

theorem get_set {g : Grid α} (hg : g.WF) (i j : Idx) (v : α) :
    (g.set i v).get j = if i = j ∧ g.dims.inB i = true then v else g.get j := by
  by_cases hi : g.dims.inB i = true
  · by_cases hj : g.dims.inB j = true
    · have hl : g.dims.lin i < g.data.length := by rw [hg]; exact Dims.lin_lt hi
      by_cases hij : i = j
      · subst hij
        simp [Grid.set, get, hi, hl]
      · have : g.dims.lin i ≠ g.dims.lin j := fun h => hij (Dims.lin_inj hi hj h)
        simp [Grid.set, get, hi, hj, hij, this]
    · have hne : i ≠ j := by rintro rfl; exact hj hi
      simp only [Bool.not_eq_true] at hj
      rw [get_oob (by simpa using hj)]
      simp [hne, get_oob hj]
  · simp [Grid.set, hi]

theorem get_set_self {g : Grid α} (hg : g.WF) {i : Idx} (h : g.dims.inB i = true) (v : α) :
    (g.set i v).get i = v := by rw [get_set hg]; simp [h]

theorem get_set_ne {g : Grid α} (hg : g.WF) {i j : Idx} (h : i ≠ j) (v : α) :
    (g.set i v).get j = g.get j := by rw [get_set hg]; simp [h]

/-- Writing `f i` into every cell of a list of indices, one after the other. -/
def setAll (g : Grid α) (l : List Idx) (f : Idx → α) : Grid α :=
  l.foldl (fun g i => g.set i (f i)) g

@[simp] theorem setAll_nil (g : Grid α) (f : Idx → α) : g.setAll [] f = g := rfl
@[simp] theorem setAll_cons (g : Grid α) (i : Idx) (l : List Idx) (f : Idx → α) :
    g.setAll (i :: l) f = (g.set i (f i)).setAll l f := rfl

@[simp] theorem dims_setAll (g : Grid α) (l : List Idx) (f : Idx → α) :
    (g.setAll l f).dims = g.dims := by
  induction l generalizing g with
  | nil => rfl
  | cons i l ih => rw [setAll_cons, ih, dims_set]

@[simp] theorem oob_setAll (g : Grid α) (l : List Idx) (f : Idx → α) :
    (g.setAll l f).oob = g.oob := by
  induction l generalizing g with
  | nil => rfl
  | cons i l ih => rw [setAll_cons, ih, oob_set]

@[simp] theorem dflt_setAll (g : Grid α) (l : List Idx) (f : Idx → α) :
    (g.setAll l f).dflt = g.dflt := by
  induction l generalizing g with
  | nil => rfl
  | cons i l ih => rw [setAll_cons, ih, dflt_set]

theorem WF.setAll {g : Grid α} (h : g.WF) (l : List Idx) (f : Idx → α) : (g.setAll l f).WF := by
  induction l generalizing g with
  | nil => exact h
  | cons i l ih => exact ih (h.set i _)

theorem get_setAll {g : Grid α} (hg : g.WF) (l : List Idx) (f : Idx → α) (j : Idx) :
    (g.setAll l f).get j = if j ∈ l ∧ g.dims.inB j = true then f j else g.get j := by
  induction l generalizing g with
  | nil => simp
  | cons i l ih =>
    rw [setAll_cons, ih (hg.set i _), dims_set, get_set hg]
    by_cases hj : g.dims.inB j = true
    · by_cases hl : j ∈ l
      · simp [hl, hj]
      · by_cases hij : i = j
        · subst hij; simp [hj]
        · simp [hl, hij, Ne.symm hij]
    · have : ¬ (i = j ∧ g.dims.inB i = true) := by rintro ⟨rfl, h⟩; exact hj h
      simp [hj, this]

/-- Two well-formed grids with the same dimensions and the same value at every index have the same
backing store. -/
theorem data_ext {g h : Grid α} (hg : g.WF) (hh : h.WF) (hd : g.dims = h.dims)
    (he : ∀ i, g.dims.inB i = true → g.get i = h.get i) : g.data = h.data := by
  apply List.ext_getElem?
  intro n
  by_cases hn : n < g.dims.size
  · have hlen : n < g.dims.all.length := by rw [Dims.length_all]; exact hn
    have hmem : g.dims.all[n] ∈ g.dims.all := List.getElem_mem hlen
    have hin := Dims.mem_all.mp hmem
    have hlin : g.dims.lin (g.dims.all[n]) = n := by
      have : (g.dims.all.map g.dims.lin)[n]'(by simpa using hlen) = n := by
        simp only [Dims.all_map_lin]; simp
      simpa using this
    have h1 := get_eq_getElem hg hin
    have h2 := get_eq_getElem (g := h) hh (i := g.dims.all[n]) (by rw [← hd]; exact hin)
    rw [hlin] at h1
    rw [← hd, hlin] at h2
    rw [h1, h2, he _ hin]
  · have h1 : g.data.length ≤ n := by rw [hg]; omega
    have h2 : h.data.length ≤ n := by rw [hh, ← hd]; omega
    rw [List.getElem?_eq_none h1, List.getElem?_eq_none h2]

theorem data_eq_map {g : Grid α} (hg : g.WF) : g.data = g.dims.all.map g.get := by
  apply List.ext_getElem?
  intro n
  by_cases hn : n < g.dims.size
  · have hlen : n < g.dims.all.length := by rw [Dims.length_all]; exact hn
    have hin := Dims.mem_all.mp (List.getElem_mem hlen)
    have hlin : g.dims.lin (g.dims.all[n]) = n := by
      have : (g.dims.all.map g.dims.lin)[n]'(by simpa using hlen) = n := by
        simp only [Dims.all_map_lin]; simp
      simpa using this
    have h1 := get_eq_getElem hg hin
    rw [hlin] at h1
    rw [h1]
    simp [List.getElem?_eq_getElem hlen]
  · have h1 : g.data.length ≤ n := by rw [hg]; omega
    rw [List.getElem?_eq_none h1, List.getElem?_eq_none]
    simpa [Dims.length_all] using Nat.le_of_not_lt hn

end Grid

end Verif
