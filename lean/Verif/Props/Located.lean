import Verif.Located
import Verif.Props.CollisionMap
import Verif.Props.Tagged
import Mathlib.Data.Rat.Floor
import Mathlib.Tactic.Linarith

/-!
# Access by location (C84)
-/

namespace Verif

open Spec

variable {K : Type} [Field K] [LinearOrder K] [IsStrictOrderedRing K] [FloorRing K]

namespace Spec

/-- The position lies in the half-open box of cell `i` of a grid placed at `F.origin`. -/
def InCell (F : Frame K) (i : Idx) (p : V3 K) : Prop :=
  ∃ q : V3 K, F.origin.app id q = p ∧
    ((i.x : K) * F.res ≤ q.x ∧ q.x < ((i.x : K) + 1) * F.res) ∧
    ((i.y : K) * F.res ≤ q.y ∧ q.y < ((i.y : K) + 1) * F.res) ∧
    ((i.z : K) * F.res ≤ q.z ∧ q.z < ((i.z : K) + 1) * F.res)

/-- The argument of an access function designates cell `i`. -/
def Names (F : Frame K) : Place K → Idx → Prop
  | .index j, i => j = i
  | .point3 p, i => InCell F i p
  | .point4 p _, i => InCell F i p
  | .coords x y z, i => InCell F i ⟨x, y, z⟩

/-- A four-entry vector is a position only if its last entry is one. -/
def IsPosition : Place K → Prop
  | .point4 _ w => w = 1
  | _ => True

/-- Positive cell size, and the stored inverse is the inverse of the origin transform. -/
structure GoodFrame (F : Frame K) : Prop where
  res : 0 < F.res
  left : ∀ p, F.origin.app id (F.inv.app id p) = p
  right : ∀ p, F.inv.app id (F.origin.app id p) = p

open Classical in
/-- The most recent write that designates cell `i`, in a history of writes, oldest first. -/
noncomputable def lastAt {α : Type} (F : Frame K) (hist : List (Place K × α)) (i : Idx) : Option α :=
  hist.foldl (fun acc w => if Names F w.1 i then some w.2 else acc) none

/-- The position lies in the volume of the grid. -/
def InVolume (F : Frame K) (d : Dims) (p : V3 K) : Prop :=
  ∃ q : V3 K, F.origin.app id q = p ∧ (0 ≤ q.x ∧ q.x < d.nx * F.res) ∧
    (0 ≤ q.y ∧ q.y < d.ny * F.res) ∧ (0 ≤ q.z ∧ q.z < d.nz * F.res)

end Spec

/-- The cell an argument designates in the code. -/
def Place.idx (F : Frame K) : Place K → Idx
  | .index i => i
  | .point3 p => F.loc3 p
  | .point4 p w => F.loc4 p w
  | .coords x y z => F.loc4 ⟨x, y, z⟩ 1

omit [IsStrictOrderedRing K] in
theorem Frame.loc4_one (F : Frame K) (p : V3 K) : F.loc4 p 1 = F.loc3 p := by
  unfold Frame.loc4 Frame.loc3 Frame.toGrid4
  congr 1
  simp [Aff.app, Aff.lin, V3.add, V3.smul, V3.dot]

theorem floor_div_iff {r q : K} (hr : 0 < r) (n : Int) :
    ⌊q / r⌋ = n ↔ (n : K) * r ≤ q ∧ q < ((n : K) + 1) * r := by
  rw [Int.floor_eq_iff, le_div_iff₀ hr, div_lt_iff₀ hr]

theorem Frame.inCell_iff {F : Frame K} (hF : GoodFrame F) (p : V3 K) (i : Idx) :
    InCell F i p ↔ F.loc3 p = i := by
  have key : ∀ q : V3 K, F.cellOf q = i ↔
      ((i.x : K) * F.res ≤ q.x ∧ q.x < ((i.x : K) + 1) * F.res) ∧
      ((i.y : K) * F.res ≤ q.y ∧ q.y < ((i.y : K) + 1) * F.res) ∧
      ((i.z : K) * F.res ≤ q.z ∧ q.z < ((i.z : K) + 1) * F.res) := by
    intro q
    obtain ⟨a, b, c⟩ := i
    simp only [Frame.cellOf, Idx.mk.injEq, floor_div_iff hF.res]
  constructor
  · rintro ⟨q, rfl, h⟩
    unfold Frame.loc3
    rw [hF.right]
    exact (key q).mpr h
  · intro h
    exact ⟨F.inv.app id p, hF.left p, (key _).mp h⟩

theorem Place.names_iff {F : Frame K} (hF : GoodFrame F) {a : Place K} (ha : IsPosition a) (i : Idx) :
    Names F a i ↔ a.idx F = i := by
  cases a with
  | index j => exact Iff.rfl
  | point3 p => exact Frame.inCell_iff hF p i
  | point4 p w =>
    have : w = 1 := ha
    subst this
    simp only [Names, Place.idx, Frame.loc4_one]
    exact Frame.inCell_iff hF p i
  | coords x y z =>
    simp only [Names, Place.idx, Frame.loc4_one]
    exact Frame.inCell_iff hF _ i

/-- C84, designation.  A position designates exactly one cell, and that cell is in the grid exactly
if the position lies in the volume of the grid. -/
theorem C84_designation {F : Frame K} (hF : GoodFrame F) (d : Dims) (p : V3 K) :
    (∃! i, InCell F i p) ∧ ((∃ i, InBounds d i ∧ InCell F i p) ↔ InVolume F d p) := by
  refine ⟨⟨F.loc3 p, (Frame.inCell_iff hF p _).mpr rfl, fun j hj =>
    ((Frame.inCell_iff hF p j).mp hj).symm⟩, ?_⟩
  have hr := hF.res
  constructor
  · rintro ⟨i, ⟨⟨hx0, hx1⟩, ⟨hy0, hy1⟩, hz0, hz1⟩, q, hq, ⟨ax, bx⟩, ⟨ay, by'⟩, az, bz⟩
    have lo : ∀ n : Int, 0 ≤ n → (0 : K) ≤ (n : K) * F.res := fun n hn =>
      mul_nonneg (by exact_mod_cast hn) hr.le
    have hi : ∀ (n : Int) (k : Nat), n < k → ((n : K) + 1) * F.res ≤ (k : K) * F.res := by
      intro n k h
      apply mul_le_mul_of_nonneg_right _ hr.le
      have : n + 1 ≤ (k : Int) := h
      exact_mod_cast this
    exact ⟨q, hq, ⟨(lo _ hx0).trans ax, bx.trans_le (hi _ _ hx1)⟩,
      ⟨(lo _ hy0).trans ay, by'.trans_le (hi _ _ hy1)⟩, (lo _ hz0).trans az, bz.trans_le (hi _ _ hz1)⟩
  · rintro ⟨q, hq, ⟨ax, bx⟩, ⟨ay, by'⟩, az, bz⟩
    have lo : ∀ t : K, 0 ≤ t → 0 ≤ ⌊t / F.res⌋ := fun t ht => Int.floor_nonneg.mpr (div_nonneg ht hr.le)
    have hi : ∀ (t : K) (k : Nat), t < k * F.res → ⌊t / F.res⌋ < (k : Int) := by
      intro t k h
      rw [Int.floor_lt, div_lt_iff₀ hr]
      exact_mod_cast h
    have hb : ∀ t : K, (⌊t / F.res⌋ : K) * F.res ≤ t ∧ t < ((⌊t / F.res⌋ : K) + 1) * F.res :=
      fun t => (floor_div_iff hr _).mp rfl
    exact ⟨⟨⌊q.x / F.res⌋, ⌊q.y / F.res⌋, ⌊q.z / F.res⌋⟩,
      ⟨⟨lo _ ax, hi _ _ bx⟩, ⟨lo _ ay, hi _ _ by'⟩, lo _ az, hi _ _ bz⟩, q, hq, hb _, hb _, hb _⟩

/-! ## Collision maps -/

namespace CMap

omit [IsStrictOrderedRing K]

theorem setAt_eq (F : Frame K) (m : CMap) (a : Place K) (c : CCell) :
    m.setAt F a c = m.setValue (a.idx F) c := by
  have key : ∀ i, (if m.grid.dims.inB i then m.setValue i c else (m, false)) = m.setValue i c := by
    intro i; by_cases h : m.grid.dims.inB i = true <;> simp [setValue, h]
  cases a with
  | index i => rfl
  | point3 p => exact key _
  | point4 p w => exact key _
  | coords x y z => exact key _

theorem mutAt_eq (F : Frame K) (m : CMap) (a : Place K) (c : CCell) :
    m.mutAt F a c = m.mutWrite (a.idx F) c := by
  have key : ∀ i, (if m.grid.dims.inB i then m.mutWrite i c
      else ({ m with grid := { m.grid with oob := c } }, false)) = m.mutWrite i c := by
    intro i; by_cases h : m.grid.dims.inB i = true <;> simp [mutWrite, h]
  cases a with
  | index i => rfl
  | point3 p => exact key _
  | point4 p w => exact key _
  | coords x y z => exact key _

theorem cornerAt_eq (F : Frame K) (m : CMap) (a : Place K) :
    m.cornerAt F a = m.checkCorner (a.idx F) := by
  have key : ∀ i, (if m.grid.dims.inB i then m.checkCorner i else (false, false)) = m.checkCorner i := by
    intro i; by_cases h : m.grid.dims.inB i = true <;> simp [checkCorner, h]
  cases a with
  | index i => rfl
  | point3 p => exact key _
  | point4 p w => exact key _
  | coords x y z => exact key _

theorem mutWrite_get {m : CMap} (h : m.grid.WF) (i j : Idx) (c : CCell)
    (hj : m.grid.dims.inB j = true) :
    (m.mutWrite i c).1.grid.get j = if i = j then c else m.grid.get j := by
  unfold mutWrite
  split
  · rename_i hi
    simp [Grid.get_set h, hi]
  · rename_i hi
    have : i ≠ j := fun e => hi (by rw [e]; exact hj)
    have hl : m.grid.dims.lin j < m.grid.data.length := by
      rw [show m.grid.data.length = m.grid.dims.size from h]; exact Dims.lin_lt hj
    simp [this, Grid.get, hj, List.getElem?_eq_getElem hl]

theorem update_same (m : CMap) (h : m.grid.WF) :
    (m.apply .update).grid.WF ∧ (m.apply .update).grid.dims = m.grid.dims ∧
      ∀ i, ((m.apply .update).grid.get i).occ = (m.grid.get i).occ := by
  simp only [apply]
  by_cases hv : m.valid = true
  · simp [updateCC, hv, h]
  · obtain ⟨m', n, h1, h2, -⟩ := m.updateCC_total (by simpa using hv) h
    rw [h1]
    exact ⟨h2.1, h2.2.1, h2.2.2.2.2⟩

/-- The writes of a history, oldest first. -/
def PlacedOp.writes : List (PlacedOp K) → List (Place K × CCell) :=
  List.filterMap fun
    | .set a c => some (a, c)
    | .mutate a c => some (a, c)
    | .update => none

end CMap

/-- C84, results, collision map.  `SetValue` and `GetMutable` by any overload succeed exactly if the
argument designates a cell of the grid; a refused `SetValue` changes nothing, and a write through the
reference of a refused `GetMutable` changes no cell. -/
theorem C84_results {F : Frame K} (hF : GoodFrame F) (m : CMap) (h : m.grid.WF) (a : Place K)
    (ha : IsPosition a) (c : CCell) :
    ((m.setAt F a c).2 = true ↔ ∃ i, InBounds m.dims i ∧ Names F a i) ∧
    ((m.mutAt F a c).2 = true ↔ ∃ i, InBounds m.dims i ∧ Names F a i) ∧
    ((m.setAt F a c).2 = false → (m.setAt F a c).1 = m) ∧
    ((m.mutAt F a c).2 = false →
      ∀ i, InBounds m.dims i → (m.mutAt F a c).1.getImm i = m.getImm i) := by
  have e : (∃ i, InBounds m.dims i ∧ Names F a i) ↔ m.grid.dims.inB (a.idx F) = true := by
    simp only [Place.names_iff hF ha, inB_iff_spec, CMap.dims]
    constructor
    · rintro ⟨i, h1, rfl⟩; exact h1
    · intro h1; exact ⟨_, h1, rfl⟩
  rw [e, CMap.setAt_eq, CMap.mutAt_eq]
  refine ⟨?_, ?_, ?_, ?_⟩
  · unfold CMap.setValue; split <;> simp_all
  · unfold CMap.mutWrite; split <;> simp_all
  · unfold CMap.setValue; split <;> simp_all
  · intro hr i hi
    have hb := inB_iff_spec.mpr hi
    have hn : a.idx F ≠ i := by
      rintro rfl
      have hb' : m.grid.dims.inB (a.idx F) = true := hb
      simp [CMap.mutWrite, hb'] at hr
    simp [CMap.getImm, Grid.getImm, CMap.mutWrite_get h _ _ _ hb, hn]

/-- C84, collision map.  After any history of writes by any overload (index, three- or four-entry
position, coordinates; `SetValue` or `GetMutable` and a write) mixed with component updates, the
occupancy of a cell is that of the last write that designated it, and without updates the whole cell
is. -/
theorem C84_collision_map {F : Frame K} (hF : GoodFrame F) (m : CMap) (h : m.grid.WF)
    (ops : List (CMap.PlacedOp K)) (hops : ∀ w ∈ CMap.PlacedOp.writes ops, IsPosition w.1) (i : Idx)
    (hi : InBounds m.dims i) :
    ((m.runAt F ops).getImm i).2 = true ∧
    ((m.runAt F ops).getImm i).1.occ =
      ((lastAt F (CMap.PlacedOp.writes ops) i).getD (m.getImm i).1).occ ∧
    (.update ∉ ops → ((m.runAt F ops).getImm i).1 =
      (lastAt F (CMap.PlacedOp.writes ops) i).getD (m.getImm i).1) := by
  have hb : m.grid.dims.inB i = true := inB_iff_spec.mpr hi
  suffices H : (m.runAt F ops).grid.WF ∧ (m.runAt F ops).grid.dims = m.grid.dims ∧
      ((m.runAt F ops).grid.get i).occ =
        ((lastAt F (CMap.PlacedOp.writes ops) i).getD (m.grid.get i)).occ ∧
      (.update ∉ ops → (m.runAt F ops).grid.get i =
        (lastAt F (CMap.PlacedOp.writes ops) i).getD (m.grid.get i)) by
    refine ⟨?_, H.2.2.1, H.2.2.2⟩
    simp [CMap.getImm, Grid.getImm, H.2.1, hb]
  induction ops using List.reverseRecOn with
  | nil => exact ⟨h, rfl, rfl, fun _ => rfl⟩
  | append_singleton ops o ih =>
    obtain ⟨h1, h2, h3, h4⟩ := ih (fun w hw => hops w (by
      simp only [CMap.PlacedOp.writes, List.filterMap_append, List.mem_append]; exact Or.inl hw))
    have hrun : m.runAt F (ops ++ [o]) = ((m.runAt F ops).applyAt F o).1 := by
      simp [CMap.runAt]
    have hw : ∀ a c, CMap.PlacedOp.writes (ops ++ [.set a c]) = CMap.PlacedOp.writes ops ++ [(a, c)] := by
      intro a c; simp [CMap.PlacedOp.writes]
    have hw' : ∀ a c, CMap.PlacedOp.writes (ops ++ [.mutate a c]) =
        CMap.PlacedOp.writes ops ++ [(a, c)] := by
      intro a c; simp [CMap.PlacedOp.writes]
    have hl : ∀ (l : List (Place K × CCell)) a c, IsPosition a → lastAt F (l ++ [(a, c)]) i =
        if a.idx F = i then some c else lastAt F l i := by
      intro l a c ha
      simp only [lastAt, List.foldl_append, List.foldl_cons, List.foldl_nil, Place.names_iff hF ha]
    have hb' : (m.runAt F ops).grid.dims.inB i = true := by rw [h2]; exact hb
    rw [hrun]
    cases o with
    | set a c =>
      have ha : IsPosition a := hops (a, c) (by rw [hw]; simp)
      have hg : (((m.runAt F ops).setValue (a.idx F) c).1.grid.get i) =
          if a.idx F = i then c else (m.runAt F ops).grid.get i := by
        rw [CMap.setValue_get h1]
        by_cases he : a.idx F = i
        · simp [he, hb']
        · simp [he]
      simp only [CMap.applyAt, CMap.setAt_eq, hw, hl _ a c ha]
      refine ⟨CMap.setValue_wf h1 _ _, by simp [h2], ?_, ?_⟩
      · rw [hg]; split
        · rfl
        · exact h3
      · intro hno
        rw [hg]; split
        · rfl
        · exact h4 (fun h' => hno (by simp [h']))
    | mutate a c =>
      have ha : IsPosition a := hops (a, c) (by rw [hw']; simp)
      have hg := CMap.mutWrite_get h1 (a.idx F) i c hb'
      simp only [CMap.applyAt, CMap.mutAt_eq, hw', hl _ a c ha]
      refine ⟨CMap.mutWrite_wf h1 _ _, by simp [h2], ?_, ?_⟩
      · rw [hg]; split
        · rfl
        · exact h3
      · intro hno
        rw [hg]; split
        · rfl
        · exact h4 (fun h' => hno (by simp [h']))
    | update =>
      obtain ⟨u1, u2, u3⟩ := (m.runAt F ops).update_same h1
      have e : CMap.PlacedOp.writes (ops ++ [.update]) = CMap.PlacedOp.writes ops := by
        simp [CMap.PlacedOp.writes]
      simp only [CMap.applyAt, e]
      exact ⟨u1, u2.trans h2, (u3 i).trans h3, fun hno => absurd (by simp) hno⟩

/-- C84, corner test, collision map: by position it answers for the cell the position designates, and
`(false, false)` outside. -/
theorem C84_corner {F : Frame K} (hF : GoodFrame F) (m : CMap) (a : Place K) (ha : IsPosition a) :
    (∀ i, InBounds m.dims i → Names F a i → m.cornerAt F a = m.cornerAt F (.index i)) ∧
    ((¬ ∃ i, InBounds m.dims i ∧ Names F a i) → m.cornerAt F a = (false, false)) := by
  simp only [CMap.cornerAt_eq, Place.names_iff hF ha]
  refine ⟨fun i _ hn => by rw [hn]; rfl, fun hno => ?_⟩
  have hb : ¬ m.grid.dims.inB (a.idx F) = true := fun hb => hno ⟨_, inB_iff_spec.mp hb, rfl⟩
  simp [CMap.checkCorner, hb]

/-! ## Tagged maps -/

namespace TMap

omit [IsStrictOrderedRing K]

theorem setAt_eq (F : Frame K) (m : TMap) (a : Place K) (c : TCell) :
    m.setAt F a c = m.setValue (a.idx F) c := by
  have key : ∀ i, (if m.grid.dims.inB i then m.setValue i c else (m, false)) = m.setValue i c := by
    intro i; by_cases h : m.grid.dims.inB i = true <;> simp [setValue, h]
  cases a with
  | index i => rfl
  | point3 p => exact key _
  | point4 p w => exact key _
  | coords x y z => exact key _

theorem mutAt_eq (F : Frame K) (m : TMap) (a : Place K) (c : TCell) :
    m.mutAt F a c = m.mutWrite (a.idx F) c := by
  have key : ∀ i, (if m.grid.dims.inB i then m.mutWrite i c
      else ({ m with grid := { m.grid with oob := c } }, false)) = m.mutWrite i c := by
    intro i; by_cases h : m.grid.dims.inB i = true <;> simp [mutWrite, h]
  cases a with
  | index i => rfl
  | point3 p => exact key _
  | point4 p w => exact key _
  | coords x y z => exact key _

theorem cornerAt_eq (F : Frame K) (m : TMap) (a : Place K) :
    m.cornerAt F a = m.checkCorner (a.idx F) := by
  have key : ∀ i, (if m.grid.dims.inB i then m.checkCorner i else (false, false)) = m.checkCorner i := by
    intro i; by_cases h : m.grid.dims.inB i = true <;> simp [checkCorner, h]
  cases a with
  | index i => rfl
  | point3 p => exact key _
  | point4 p w => exact key _
  | coords x y z => exact key _

theorem mutWrite_get {m : TMap} (h : m.grid.WF) (i j : Idx) (c : TCell)
    (hj : m.grid.dims.inB j = true) :
    (m.mutWrite i c).1.grid.get j = if i = j then c else m.grid.get j := by
  unfold mutWrite
  split
  · rename_i hi
    simp [Grid.get_set h, hi]
  · rename_i hi
    have : i ≠ j := fun e => hi (by rw [e]; exact hj)
    have hl : m.grid.dims.lin j < m.grid.data.length := by
      rw [show m.grid.data.length = m.grid.dims.size from h]; exact Dims.lin_lt hj
    simp [this, Grid.get, hj, List.getElem?_eq_getElem hl]

theorem update_same (m : TMap) (h : m.grid.WF) :
    (m.apply .update).grid.WF ∧ (m.apply .update).grid.dims = m.grid.dims ∧
      ∀ i, ((m.apply .update).grid.get i).occ = (m.grid.get i).occ ∧
        ((m.apply .update).grid.get i).obj = (m.grid.get i).obj := by
  simp only [apply]
  cases hu : m.updateCC with
  | none => exact ⟨h, rfl, fun _ => ⟨rfl, rfl⟩⟩
  | some r =>
    obtain ⟨h1, h2, -, -, -, -, h7⟩ := m.updateCC_same h r hu
    exact ⟨h1, h2, fun i => ⟨(h7 i).1, (h7 i).2.1⟩⟩

theorem segment_same (S : SegData) (m : TMap) (h : m.grid.WF) :
    (m.apply (.segment S)).grid.WF ∧ (m.apply (.segment S)).grid.dims = m.grid.dims ∧
      ∀ i, ((m.apply (.segment S)).grid.get i).occ = (m.grid.get i).occ ∧
        ((m.apply (.segment S)).grid.get i).obj = (m.grid.get i).obj := by
  simp only [apply]
  cases hu : m.updateSeg S with
  | none => exact ⟨h, rfl, fun _ => ⟨rfl, rfl⟩⟩
  | some r =>
    obtain ⟨h1, h2, -, -, -, h7⟩ := m.updateSeg_same S h r hu
    exact ⟨h1, h2, fun i => ⟨(h7 i).1, (h7 i).2.1⟩⟩

/-- The writes of a history, oldest first. -/
def PlacedOp.writes : List (PlacedOp K) → List (Place K × TCell) :=
  List.filterMap fun
    | .set a c => some (a, c)
    | .mutate a c => some (a, c)
    | .update => none
    | .segment _ => none

/-- The call is a write. -/
def PlacedOp.IsWrite : PlacedOp K → Prop
  | .set _ _ => True
  | .mutate _ _ => True
  | _ => False

end TMap

/-- C84, results, tagged map. -/
theorem C84_tagged_results {F : Frame K} (hF : GoodFrame F) (m : TMap) (h : m.grid.WF) (a : Place K)
    (ha : IsPosition a) (c : TCell) :
    ((m.setAt F a c).2 = true ↔ ∃ i, InBounds m.dims i ∧ Names F a i) ∧
    ((m.mutAt F a c).2 = true ↔ ∃ i, InBounds m.dims i ∧ Names F a i) ∧
    ((m.setAt F a c).2 = false → (m.setAt F a c).1 = m) ∧
    ((m.mutAt F a c).2 = false →
      ∀ i, InBounds m.dims i → (m.mutAt F a c).1.getImm i = m.getImm i) := by
  have e : (∃ i, InBounds m.dims i ∧ Names F a i) ↔ m.grid.dims.inB (a.idx F) = true := by
    simp only [Place.names_iff hF ha, inB_iff_spec, TMap.dims]
    constructor
    · rintro ⟨i, h1, rfl⟩; exact h1
    · intro h1; exact ⟨_, h1, rfl⟩
  rw [e, TMap.setAt_eq, TMap.mutAt_eq]
  refine ⟨?_, ?_, ?_, ?_⟩
  · unfold TMap.setValue; split <;> simp_all
  · unfold TMap.mutWrite; split <;> simp_all
  · unfold TMap.setValue; split <;> simp_all
  · intro hr i hi
    have hb := inB_iff_spec.mpr hi
    have hn : a.idx F ≠ i := by
      rintro rfl
      have hb' : m.grid.dims.inB (a.idx F) = true := hb
      simp [TMap.mutWrite, hb'] at hr
    simp [TMap.getImm, Grid.getImm, TMap.mutWrite_get h _ _ _ hb, hn]

/-- C84, tagged map.  After any history of writes by any overload mixed with component and segment
updates, occupancy and object of a cell are those of the last write that designated it, and without
updates the whole cell is. -/
theorem C84_tagged_map {F : Frame K} (hF : GoodFrame F) (m : TMap) (h : m.grid.WF)
    (ops : List (TMap.PlacedOp K)) (hops : ∀ w ∈ TMap.PlacedOp.writes ops, IsPosition w.1) (i : Idx)
    (hi : InBounds m.dims i) :
    ((m.runAt F ops).getImm i).2 = true ∧
    ((m.runAt F ops).getImm i).1.occ =
      ((lastAt F (TMap.PlacedOp.writes ops) i).getD (m.getImm i).1).occ ∧
    ((m.runAt F ops).getImm i).1.obj =
      ((lastAt F (TMap.PlacedOp.writes ops) i).getD (m.getImm i).1).obj ∧
    ((∀ o ∈ ops, o.IsWrite) → ((m.runAt F ops).getImm i).1 =
      (lastAt F (TMap.PlacedOp.writes ops) i).getD (m.getImm i).1) := by
  have hb : m.grid.dims.inB i = true := inB_iff_spec.mpr hi
  suffices H : (m.runAt F ops).grid.WF ∧ (m.runAt F ops).grid.dims = m.grid.dims ∧
      ((m.runAt F ops).grid.get i).occ =
        ((lastAt F (TMap.PlacedOp.writes ops) i).getD (m.grid.get i)).occ ∧
      ((m.runAt F ops).grid.get i).obj =
        ((lastAt F (TMap.PlacedOp.writes ops) i).getD (m.grid.get i)).obj ∧
      ((∀ o ∈ ops, o.IsWrite) → (m.runAt F ops).grid.get i =
        (lastAt F (TMap.PlacedOp.writes ops) i).getD (m.grid.get i)) by
    refine ⟨?_, H.2.2.1, H.2.2.2.1, H.2.2.2.2⟩
    simp [TMap.getImm, Grid.getImm, H.2.1, hb]
  induction ops using List.reverseRecOn with
  | nil => exact ⟨h, rfl, rfl, rfl, fun _ => rfl⟩
  | append_singleton ops o ih =>
    obtain ⟨h1, h2, h3, h5, h4⟩ := ih (fun w hw => hops w (by
      simp only [TMap.PlacedOp.writes, List.filterMap_append, List.mem_append]; exact Or.inl hw))
    have hrun : m.runAt F (ops ++ [o]) = ((m.runAt F ops).applyAt F o).1 := by
      simp [TMap.runAt]
    have hw : ∀ a c, TMap.PlacedOp.writes (ops ++ [.set a c]) = TMap.PlacedOp.writes ops ++ [(a, c)] := by
      intro a c; simp [TMap.PlacedOp.writes]
    have hw' : ∀ a c, TMap.PlacedOp.writes (ops ++ [.mutate a c]) =
        TMap.PlacedOp.writes ops ++ [(a, c)] := by
      intro a c; simp [TMap.PlacedOp.writes]
    have hl : ∀ (l : List (Place K × TCell)) a c, IsPosition a → lastAt F (l ++ [(a, c)]) i =
        if a.idx F = i then some c else lastAt F l i := by
      intro l a c ha
      simp only [lastAt, List.foldl_append, List.foldl_cons, List.foldl_nil, Place.names_iff hF ha]
    have hb' : (m.runAt F ops).grid.dims.inB i = true := by rw [h2]; exact hb
    rw [hrun]
    cases o with
    | set a c =>
      have ha : IsPosition a := hops (a, c) (by rw [hw]; simp)
      have hg : (((m.runAt F ops).setValue (a.idx F) c).1.grid.get i) =
          if a.idx F = i then c else (m.runAt F ops).grid.get i := by
        rw [TMap.setValue_get h1]
        by_cases he : a.idx F = i
        · simp [he, hb']
        · simp [he]
      simp only [TMap.applyAt, TMap.setAt_eq, hw, hl _ a c ha]
      rw [hg]
      refine ⟨TMap.setValue_wf h1 _ _, by simp [h2], ?_, ?_, ?_⟩
      · split
        · rfl
        · exact h3
      · split
        · rfl
        · exact h5
      · intro hno
        split
        · rfl
        · exact h4 (fun o ho => hno o (by simp [ho]))
    | mutate a c =>
      have ha : IsPosition a := hops (a, c) (by rw [hw']; simp)
      have hg := TMap.mutWrite_get h1 (a.idx F) i c hb'
      simp only [TMap.applyAt, TMap.mutAt_eq, hw', hl _ a c ha]
      rw [hg]
      refine ⟨TMap.mutWrite_wf h1 _ _, by simp [h2], ?_, ?_, ?_⟩
      · split
        · rfl
        · exact h3
      · split
        · rfl
        · exact h5
      · intro hno
        split
        · rfl
        · exact h4 (fun o ho => hno o (by simp [ho]))
    | update =>
      obtain ⟨u1, u2, u3⟩ := (m.runAt F ops).update_same h1
      have e : TMap.PlacedOp.writes (ops ++ [.update]) = TMap.PlacedOp.writes ops := by
        simp [TMap.PlacedOp.writes]
      simp only [TMap.applyAt, e]
      exact ⟨u1, u2.trans h2, (u3 i).1.trans h3, (u3 i).2.trans h5,
        fun hno => absurd (hno .update (by simp)) (by simp [TMap.PlacedOp.IsWrite])⟩
    | segment S =>
      obtain ⟨u1, u2, u3⟩ := (m.runAt F ops).segment_same S h1
      have e : TMap.PlacedOp.writes (ops ++ [.segment S]) = TMap.PlacedOp.writes ops := by
        simp [TMap.PlacedOp.writes]
      simp only [TMap.applyAt, e]
      exact ⟨u1, u2.trans h2, (u3 i).1.trans h3, (u3 i).2.trans h5,
        fun hno => absurd (hno (.segment S) (by simp)) (by simp [TMap.PlacedOp.IsWrite])⟩

/-- C84, corner test, tagged map. -/
theorem C84_tagged_corner {F : Frame K} (hF : GoodFrame F) (m : TMap) (a : Place K)
    (ha : IsPosition a) :
    (∀ i, InBounds m.dims i → Names F a i → m.cornerAt F a = m.cornerAt F (.index i)) ∧
    ((¬ ∃ i, InBounds m.dims i ∧ Names F a i) → m.cornerAt F a = (false, false)) := by
  simp only [TMap.cornerAt_eq, Place.names_iff hF ha]
  refine ⟨fun i _ hn => by rw [hn]; rfl, fun hno => ?_⟩
  have hb : ¬ m.grid.dims.inB (a.idx F) = true := fun hb => hno ⟨_, inB_iff_spec.mp hb, rfl⟩
  simp [TMap.checkCorner, hb]

/-- C84, the last entry matters: a four-entry vector `w·(p, 1)` with `w ≠ 1` is not normalised, so
the cell written is in general not the cell of the position `p`. -/
theorem C84_not_normalised :
    ∃ (F : Frame ℚ) (p : V3 ℚ) (w : ℚ), GoodFrame F ∧ w ≠ 0 ∧
      F.loc4 (V3.smul w p) w ≠ F.loc3 p := by
  refine ⟨⟨1, ⟨⟨1, 0, 0⟩, ⟨0, 1, 0⟩, ⟨0, 0, 1⟩, ⟨0, 0, 0⟩⟩,
    ⟨⟨1, 0, 0⟩, ⟨0, 1, 0⟩, ⟨0, 0, 1⟩, ⟨0, 0, 0⟩⟩⟩, ⟨3, 0, 0⟩, 2, ⟨by norm_num, ?_, ?_⟩, by norm_num, ?_⟩
  · intro p; simp [Aff.app]
  · intro p; simp [Aff.app]
  · decide +kernel

/-! ## Example -/

/-- A quarter turn about z and a shift, cells of size 1/2. -/
def exFrame : Frame ℚ :=
  ⟨1 / 2, ⟨⟨0, -1, 0⟩, ⟨1, 0, 0⟩, ⟨0, 0, 1⟩, ⟨3, 1, 0⟩⟩, ⟨⟨0, 1, 0⟩, ⟨-1, 0, 0⟩, ⟨0, 0, 1⟩, ⟨-1, 3, 0⟩⟩⟩

theorem exFrame_good : GoodFrame exFrame := by
  refine ⟨by norm_num [exFrame], ?_, ?_⟩ <;> intro p <;> ext <;> simp [exFrame, Aff.app]

/-- The hypotheses of C84 are met: a write by position, one by coordinates to the same cell, one
outside the grid. -/
example :
    (∀ w ∈ CMap.PlacedOp.writes (K := ℚ) [.set (.point3 ⟨29 / 10, 11 / 10, 1 / 10⟩) ⟨5, 0⟩,
      .mutate (.coords (28 / 10) (12 / 10) (2 / 10)) ⟨6, 0⟩, .update,
      .set (.point4 ⟨0, 0, 0⟩ 1) ⟨7, 0⟩], IsPosition w.1) ∧
    ((CMap.create ⟨2, 2, 1⟩ ⟨1, 0⟩ ⟨9, 0⟩).runAt exFrame
      [.set (.point3 ⟨29 / 10, 11 / 10, 1 / 10⟩) ⟨5, 0⟩,
        .mutate (.coords (28 / 10) (12 / 10) (2 / 10)) ⟨6, 0⟩,
        .set (.point4 ⟨0, 0, 0⟩ 1) ⟨7, 0⟩]).getImm ⟨0, 0, 0⟩ = (⟨6, 0⟩, true) := by
  constructor
  · simp [CMap.PlacedOp.writes, IsPosition]
  · decide +kernel

example : InVolume exFrame ⟨2, 2, 1⟩ ⟨29 / 10, 11 / 10, 1 / 10⟩ :=
  ⟨⟨1 / 10, 1 / 10, 1 / 10⟩, by ext <;> norm_num [exFrame, Aff.app], by norm_num [exFrame],
    by norm_num [exFrame], by norm_num [exFrame]⟩

end Verif
