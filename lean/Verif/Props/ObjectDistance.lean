import Verif.Props.WorldDistance
import Verif.Props.TaggedSdf

/-!
# C119: distances to single objects, and to a scene made of them

The fields of `MakeAllObjectSDFs` are queried one by one.  Where every object is a box (or another product of coordinate
sets) each of them gives the distance to its object, although the field of the whole scene need not be exact.
-/

namespace Verif

open Spec SdfGen DField

/-- The obstacle cells of the object with a given id. -/
def ObjectCell (m : TMap) (u : Bool) (id : UInt32) (i : Idx) : Prop :=
  (m.getImm i).1.obj = id ∧ TObstacle m u i

namespace FSdf

open SignedDist

theorem object_answers (m : TMap) (u : Bool) (id : UInt32) :
    Answers m.grid.dims (m.objFill [id] u) (open Classical in fun i => decide (ObjectCell m u id i)) := by
  intro i hi
  rw [m.objFill_answers [id] u i hi]
  have h : (Selected m [id] i ∧ TObstacle m u i) ↔ ObjectCell m u id i := by simp [Selected, ObjectCell]
  exact congrArg some (decide_eq_decide.mpr h)

open Classical in
theorem object_both {m : TMap} {u : Bool} {id : UInt32} (hid : ∃ i, InBounds m.dims i ∧ ObjectCell m u id i)
    (hfree : ∃ i, InBounds m.dims i ∧ ¬ TObstacle m u i) :
    BothClasses m.grid.dims fun i => decide (ObjectCell m u id i) := by
  obtain ⟨i, hi, h⟩ := hid
  obtain ⟨j, hj, h'⟩ := hfree
  exact ⟨⟨i, hi, by simp [h]⟩, j, hj, by simp [ObjectCell, h']⟩

theorem origin_small {A : Aff ℝ} {M res : ℝ} (r0 : 0 < res) (hhi : res ≤ 2 ^ 60) (hM : M ≤ 2 ^ 29)
    (hT : OriginWithin A (M * res)) : OriginWithin A (2 ^ 190) := by
  have : M * res ≤ 2 ^ 190 := by
    calc M * res ≤ 2 ^ 29 * 2 ^ 60 := by gcongr
      _ ≤ 2 ^ 190 := by norm_num
  exact ⟨hT.1.trans this, hT.2.1.trans this, hT.2.2.trans this⟩

open Classical in
/-- C119, one object.  The map is placed in the world by a stored transform `A` that is a rotation up to rounding.
`MakeAllObjectSDFs` returns a field for every object id of the grid other than 0.  If the obstacle cells of that object
are a box (or another product of coordinate sets), an estimate from its field at the world position of a location well
inside the grid is within 4/3 cells of the signed distance, in the world, to that object alone. -/
theorem C119_object {res : ℝ} (hres : GoodRes ieee res) (hlo : 1 / 2 ^ 100 ≤ res) (hhi : res ≤ 2 ^ 60) (m : TMap) {N : ℕ}
    (hN : N ≤ 2 ^ 14) (hdim : m.dims.nx ≤ N ∧ m.dims.ny ≤ N ∧ m.dims.nz ≤ N) (u : Bool)
    (hfree : ∃ i, InBounds m.dims i ∧ ¬ TObstacle m u i) {A : Aff ℝ} (hA : NearRotation A) {M : ℝ} (hNM : (N : ℝ) ≤ M)
    (hM : M ≤ 2 ^ 29) (hT : OriginWithin A (M * res)) :
    ∃ l B, m.makeAllObjectSDFs ieee (res, res, res) u false = some l ∧ isoInverse ieee A = (B.rx, B.ry, B.rz, loc B.t) ∧
      (l.map Prod.fst).Nodup ∧
      (∀ k, k ∈ l.map Prod.fst ↔ k ≠ 0 ∧ ∃ i, InBounds m.dims i ∧ (m.getImm i).1.obj = k) ∧
      ∀ k g, (k, g) ∈ l → (∃ i, InBounds m.dims i ∧ ObjectCell m u k i) → ∀ X Y Z : ℤ → Prop,
        IsProduct m.dims (ObjectCell m u k) X Y Z → ∀ c, WellInside m.dims res c →
        ∃ y sw : ℝ, (FSdf.mk g res).estimate ieee (affApp ieee B) (fun p => byAxis (axisCell ieee res) (affApp ieee B p))
            (loc (A.app id c)) = some (real y, true) ∧
          WorldDistance A m.dims res (fun i => decide (ObjectCell m u k i)) (A.app id c) sw ∧ |y - sw| ≤ 4 / 3 * res := by
  have h32 : 0 < ieee.r32 res := (ieee_resolution (le_trans (by norm_num) hlo) (hhi.trans (by norm_num))).1
  have hfit : FieldFits m.dims false := small_of hN hdim
  obtain ⟨l, hl, -, -, hfield⟩ := C40_make_objects hres h32 m false hfit u m.objectIds
  obtain ⟨l', hl', hnd, hkeys, -⟩ := C40_all_objects hres h32 m false hfit u
  obtain rfl : l = l' := by
    have : some l = some l' := hl.symm.trans hl'
    exact Option.some.inj this
  obtain ⟨B, hB, -⟩ := C112_inverse hA (origin_small hres.1 hhi hM hT)
  refine ⟨l, B, hl, hB, hnd, hkeys, fun k g hg hk X Y Z hprod c hc => ?_⟩
  obtain ⟨o, ho, rfl⟩ := hfield k g hg
  refine C118_product hres hlo hhi hN hdim (object_answers m u k) (object_both hk hfree) (X := X) (Y := Y) (Z := Z)
    (Or.inl fun i hi => ?_) ho hA hB hNM hM hT hc
  simpa using hprod i hi

open Classical in
/-- C119, a scene.  If every obstacle cell carries an object id other than 0 and every object is a box (or another product
of coordinate sets), then a location at which every object's own field reports at least `ρ` and 4/3 cells is at least
`ρ` away from every point of every obstacle of the scene. -/
theorem C119_scene {res : ℝ} (hres : GoodRes ieee res) (hlo : 1 / 2 ^ 100 ≤ res) (hhi : res ≤ 2 ^ 60) (m : TMap) {N : ℕ}
    (hN : N ≤ 2 ^ 14) (hdim : m.dims.nx ≤ N ∧ m.dims.ny ≤ N ∧ m.dims.nz ≤ N) (u : Bool)
    (hfree : ∃ i, InBounds m.dims i ∧ ¬ TObstacle m u i)
    (hnamed : ∀ i, InBounds m.dims i → TObstacle m u i → (m.getImm i).1.obj ≠ 0)
    (hprod : ∀ k, k ≠ 0 → ∃ X Y Z : ℤ → Prop, IsProduct m.dims (ObjectCell m u k) X Y Z) {A : Aff ℝ}
    (hA : NearRotation A) {M : ℝ} (hNM : (N : ℝ) ≤ M) (hM : M ≤ 2 ^ 29) (hT : OriginWithin A (M * res)) :
    ∃ l B, m.makeAllObjectSDFs ieee (res, res, res) u false = some l ∧ isoInverse ieee A = (B.rx, B.ry, B.rz, loc B.t) ∧
      ∀ c, WellInside m.dims res c → ∀ ρ, 0 ≤ ρ →
        (∀ k g, (k, g) ∈ l → ∀ y : ℝ, (FSdf.mk g res).estimate ieee (affApp ieee B)
          (fun p => byAxis (axisCell ieee res) (affApp ieee B p)) (loc (A.app id c)) = some (real y, true) →
          ρ + 4 / 3 * res ≤ y) →
        ∀ r, Region m.dims res (fun i => decide (TObstacle m u i)) true r → ρ ≤ dist3 (A.app id c) (A.app id r) := by
  obtain ⟨l, B, hl, hB, -, hkeys, hobj⟩ := C119_object hres hlo hhi m hN hdim u hfree hA hNM hM hT
  refine ⟨l, B, hl, hB, fun c hc ρ h0 hest r hr => ?_⟩
  obtain ⟨i, hi, hoc, hin⟩ := hr
  have hoc : TObstacle m u i := by simpa using hoc
  have hk := hnamed i hi hoc
  have hmem := (hkeys _).mpr ⟨hk, i, hi, rfl⟩
  obtain ⟨⟨k, g⟩, hkg, e⟩ := List.mem_map.mp hmem
  have hcell : ObjectCell m u k i := ⟨e.symm, hoc⟩
  obtain ⟨X, Y, Z, hp⟩ := hprod k (by rintro rfl; exact hk e.symm)
  obtain ⟨y, sw, ey, hw, hy⟩ := hobj k g hkg ⟨i, hi, hcell⟩ X Y Z hp c hc
  have h1 := hest k g hkg y ey
  obtain ⟨h2, h3⟩ := abs_le.mp hy
  have h4 : ρ ≤ sw := by linarith
  exact h4.trans ((hw.outside (h0.trans h4)).2 r ⟨i, hi, by simp [hcell], hin⟩)

/-- Two objects at the ends of a corridor. -/
def exObjects : TMap := (TMap.create false ⟨4, 1, 1⟩ (TCell.ofObj 0 0) (TCell.ofObj 0 0)).run
  [.setValue ⟨0, 0, 0⟩ (TCell.ofObj F32.one 7), .setValue ⟨3, 0, 0⟩ (TCell.ofObj F32.one 3)]

theorem exObjects_cell (i : Idx) (hi : InBounds exObjects.dims i) :
    (i.x = 0 ∧ (exObjects.getImm i).1.obj = 7 ∧ TObstacle exObjects false i) ∨
      (i.x = 3 ∧ (exObjects.getImm i).1.obj = 3 ∧ TObstacle exObjects false i) ∨
      (i.x = 1 ∨ i.x = 2) ∧ (exObjects.getImm i).1.obj = 0 ∧ ¬ TObstacle exObjects false i := by
  obtain ⟨x, y, z⟩ := i
  have hd : exObjects.dims = ⟨4, 1, 1⟩ := by decide
  rw [hd] at hi
  obtain ⟨⟨x0, x1⟩, ⟨y0, y1⟩, z0, z1⟩ := hi
  simp only at x0 x1 y0 y1 z0 z1
  obtain rfl : y = 0 := by omega
  obtain rfl : z = 0 := by omega
  unfold TObstacle
  have : x = 0 ∨ x = 1 ∨ x = 2 ∨ x = 3 := by omega
  rcases this with rfl | rfl | rfl | rfl <;> decide

/-- The hypotheses of `C119_object` and `C119_scene` hold for two objects in a turned grid. -/
example : (∃ i, InBounds exObjects.dims i ∧ ¬ TObstacle exObjects false i) ∧
    (∀ i, InBounds exObjects.dims i → TObstacle exObjects false i → (exObjects.getImm i).1.obj ≠ 0) ∧
    (∀ k, k ≠ 0 → ∃ X Y Z : ℤ → Prop, IsProduct exObjects.dims (ObjectCell exObjects false k) X Y Z) ∧
    (∃ i, InBounds exObjects.dims i ∧ ObjectCell exObjects false 7 i) ∧
    WellInside exObjects.dims (1 / 4) ⟨1 / 2, 1 / 8, 1 / 8⟩ ∧ NearRotation exPose ∧
    OriginWithin exPose (2 ^ 26 * (1 / 4)) ∧ GoodRes ieee (1 / 4) := by
  have hd : exObjects.dims = ⟨4, 1, 1⟩ := by decide
  refine ⟨⟨⟨1, 0, 0⟩, by rw [hd]; unfold InBounds; decide, by unfold TObstacle; decide⟩, fun i hi h => ?_, fun k hk => ?_,
    ⟨⟨0, 0, 0⟩, by rw [hd]; unfold InBounds; decide, by unfold ObjectCell TObstacle; decide⟩, ?_, exPose_rotation,
    exPose_origin, quarter_good⟩
  · rcases exObjects_cell i hi with ⟨-, e, -⟩ | ⟨-, e, -⟩ | ⟨-, -, e⟩
    · rw [e]; decide
    · rw [e]; decide
    · exact absurd h e
  · refine ⟨fun x => (x = 0 ∧ k = 7) ∨ (x = 3 ∧ k = 3), fun _ => True, fun _ => True, fun i hi => ?_⟩
    unfold ObjectCell
    rcases exObjects_cell i hi with ⟨x, e, t⟩ | ⟨x, e, t⟩ | ⟨x, e, t⟩
    · simp [x, e, t, eq_comm]
    · simp [x, e, t, eq_comm]
    · rcases x with x | x <;> simp [x, t]
  · rw [hd]; norm_num [WellInside, WellInner]

end FSdf

end Verif
