import Verif.Props.Tagged
import Verif.Sdf

/-!
# C90: default-constructed objects have no cells

A default-constructed field, collision map or tagged-object map reports every index as outside, refuses
every write and counts no components and no segments, after any history of calls.
-/

namespace Verif

namespace Defaults

theorem inB_zero (i : Idx) : (⟨0, 0, 0⟩ : Dims).inB i = false := by
  by_contra h
  have := (Dims.inB_iff (d := ⟨0, 0, 0⟩) (i := i)).1 (by simpa using h)
  simp only [Nat.cast_zero] at this
  omega

theorem computeCC_zero {σ : Type} (F : CompFns σ) (s : σ) :
    F.computeCC ⟨0, 0, 0⟩ s = some (s, 0) := rfl

/-- No cells, no components (collision map). -/
def EmptyC (m : CMap) : Prop := m.grid.dims = ⟨0, 0, 0⟩ ∧ m.nComp = 0

/-- No cells, no components, no segments (tagged-object map). -/
def EmptyT (m : TMap) : Prop := m.grid.dims = ⟨0, 0, 0⟩ ∧ m.nComp = 0 ∧ m.nSeg = 0

theorem EmptyC.set {m : CMap} (h : EmptyC m) (i : Idx) (c : CCell) : m.setValue i c = (m, false) := by
  simp [CMap.setValue, h.1, inB_zero]

theorem EmptyC.mut {m : CMap} (h : EmptyC m) (i : Idx) (c : CCell) :
    m.mutWrite i c = ({ m with grid := { m.grid with oob := c } }, false) := by
  simp [CMap.mutWrite, h.1, inB_zero]

theorem EmptyC.update {m : CMap} (h : EmptyC m) : m.updateCC = some ({ m with valid := true }, 0) := by
  obtain ⟨g, n, v⟩ := m
  obtain ⟨h1, h2⟩ := h
  simp only at h1 h2
  subst h2
  cases v
  · simp [CMap.updateCC, CMap.dims, h1, computeCC_zero]
  · simp [CMap.updateCC]

theorem EmptyC.run (ops : List CMap.Op) : ∀ {m : CMap}, EmptyC m → EmptyC (m.run ops) := by
  induction ops with
  | nil => intro m h; exact h
  | cons o ops ih =>
    intro m h
    refine ih (m := m.apply o) ?_
    cases o with
    | setValue i c => simpa [CMap.apply, h.set] using h
    | mutWrite i c => simpa [CMap.apply, h.mut, EmptyC] using h
    | update => simpa [CMap.apply, h.update, EmptyC] using h

theorem EmptyT.set {m : TMap} (h : EmptyT m) (i : Idx) (c : TCell) : m.setValue i c = (m, false) := by
  simp [TMap.setValue, h.1, inB_zero]

theorem EmptyT.mut {m : TMap} (h : EmptyT m) (i : Idx) (c : TCell) :
    m.mutWrite i c = ({ m with grid := { m.grid with oob := c } }, false) := by
  simp [TMap.mutWrite, h.1, inB_zero]

theorem EmptyT.update {m : TMap} (h : EmptyT m) : m.updateCC = some ({ m with valid := true }, 0) := by
  obtain ⟨g, n, k, v, w⟩ := m
  obtain ⟨h1, h2, -⟩ := h
  simp only at h1 h2
  subst h2
  cases v
  · simp [TMap.updateCC, TMap.dims, h1, computeCC_zero]
  · simp [TMap.updateCC]

theorem EmptyT.segment {m : TMap} (h : EmptyT m) (S : SegData) :
    m.updateSeg S = some ({ m with segValid := true }, 0) := by
  obtain ⟨g, n, k, v, w⟩ := m
  obtain ⟨h1, -, h2⟩ := h
  simp only at h1 h2
  subst h2
  simp [TMap.updateSeg, TMap.dims, h1, computeCC_zero]

theorem EmptyT.run (ops : List TMap.Op) : ∀ {m : TMap}, EmptyT m → EmptyT (m.run ops) := by
  induction ops with
  | nil => intro m h; exact h
  | cons o ops ih =>
    intro m h
    refine ih (m := m.apply o) ?_
    cases o with
    | setValue i c => simpa [TMap.apply, h.set] using h
    | mutWrite i c => simpa [TMap.apply, h.mut, EmptyT] using h
    | update => simpa [TMap.apply, h.update, EmptyT] using h
    | segment S => simpa [TMap.apply, h.segment, EmptyT] using h

end Defaults

open Defaults

/-- C90 for `SignedDistanceField()`: after any history of calls every index is outside and every
write is refused (both the index and the location entry points). -/
theorem C90_sdf {V P : Type} [Inhabited V] (locIdx : P → Idx) (ops : List (Sdf.Op P V)) :
    let s := (Sdf.createDefault : Sdf V).run locIdx ops
    ∀ (i : Idx) (p : P) (v : V), (s.getImm i).2 = false ∧
      (s.setValue i v).2 = false ∧ (s.mutWrite i v).2 = false ∧
      (s.setValueAt locIdx p v).2 = false ∧ (s.mutWriteAt locIdx p v).2 = false := by
  intro s i p v
  have h : s.grid.dims = ⟨0, 0, 0⟩ :=
    (Sdf.run_wf locIdx ops (s := Sdf.createDefault) (Grid.wf_mk' _ _ _)).2
  simp [Sdf.getImm, Grid.getImm, Sdf.setValue, Sdf.mutWrite, Sdf.setValueAt, Sdf.mutWriteAt, h, inB_zero]

/-- C90 for `SignedDistanceField()`: it is unlocked, and a read gives the default value with the
report "outside". -/
theorem C90_sdf_fresh {V : Type} [Inhabited V] (i : Idx) :
    (Sdf.createDefault : Sdf V).isLocked = false ∧
      (Sdf.createDefault : Sdf V).getImm i = (default, false) := by
  refine ⟨rfl, ?_⟩
  simp only [Sdf.getImm, Grid.getImm, Sdf.createDefault, Grid.get_mk', Prod.mk.injEq]
  exact ⟨by split <;> rfl, inB_zero i⟩

/-- C90 for `CollisionMapGrid()`. -/
theorem C90_collision_map (ops : List CMap.Op) :
    let m := CMap.createDefault.run ops
    (∀ (i : Idx) (c : CCell), (m.getImm i).2 = false ∧
      (m.setValue i c).2 = false ∧ (m.mutWrite i c).2 = false) ∧
    m.getNumCC.1 = 0 ∧ ∃ m', m.updateCC = some (m', 0) ∧ m'.getNumCC = (0, true) := by
  intro m
  have h : EmptyC m := EmptyC.run ops ⟨rfl, rfl⟩
  refine ⟨fun i c => ⟨?_, ?_, ?_⟩, ?_, _, h.update, ?_⟩
  · simp [CMap.getImm, Grid.getImm, h.1, inB_zero]
  · simp [h.set]
  · simp [h.mut]
  · simp [CMap.getNumCC, h.2]
  · simp [CMap.getNumCC, h.2]

/-- C90 for `TaggedObjectCollisionMapGrid()`. -/
theorem C90_tagged_map (ops : List TMap.Op) :
    let m := TMap.createDefault.run ops
    (∀ (i : Idx) (c : TCell), (m.grid.getImm i).2 = false ∧
      (m.setValue i c).2 = false ∧ (m.mutWrite i c).2 = false) ∧
    m.getNumCC.1 = 0 ∧ m.getNumSeg.1 = 0 ∧
    (∃ m', m.updateCC = some (m', 0) ∧ m'.getNumCC = (0, true)) ∧
    ∀ S : SegData, ∃ m', m.updateSeg S = some (m', 0) ∧ m'.getNumSeg = (0, true) := by
  intro m
  have h : EmptyT m := EmptyT.run ops ⟨rfl, rfl, rfl⟩
  refine ⟨fun i c => ⟨?_, ?_, ?_⟩, ?_, ?_, ⟨_, h.update, ?_⟩, fun S => ⟨_, h.segment S, ?_⟩⟩
  · simp [Grid.getImm, h.1, inB_zero]
  · simp [h.set]
  · simp [h.mut]
  · simp [TMap.getNumCC, h.2.1]
  · simp [TMap.getNumSeg, h.2.2]
  · simp [TMap.getNumCC, h.2.1]
  · simp [TMap.getNumSeg, h.2.2]

/-- C90: fresh objects report their counts as not up to date. -/
theorem C90_fresh_flags : CMap.createDefault.getNumCC = (0, false) ∧
    TMap.createDefault.getNumCC = (0, false) ∧ TMap.createDefault.getNumSeg = (0, false) :=
  ⟨rfl, rfl, rfl⟩

/-- C90: a map constructed with cells counts no components and no segments until the first update, whatever is
written, and says that the count of components is not up to date.  (The flag of the segments of a tagged map
is not initialised, see C43.) -/
theorem C90_counts_before_update :
    (∀ (d : Dims) (dflt oob : CCell) (ops : List CMap.Op), CMap.Op.update ∉ ops →
      ((CMap.create d dflt oob).run ops).getNumCC = (0, false)) ∧
    (∀ (junk : Bool) (d : Dims) (dflt oob : TCell) (ops : List TMap.Op), TMap.Op.update ∉ ops →
      (∀ S, TMap.Op.segment S ∉ ops) →
      ((TMap.create junk d dflt oob).run ops).getNumCC = (0, false) ∧
      ((TMap.create junk d dflt oob).run ops).getNumSeg.1 = 0) := by
  constructor
  · intro d dflt oob ops h
    have gen : ∀ (ops : List CMap.Op) (m : CMap), CMap.Op.update ∉ ops → m.getNumCC = (0, false) →
        (m.run ops).getNumCC = (0, false) := by
      intro ops
      induction ops with
      | nil => intro m _ hm; exact hm
      | cons o ops ih =>
        intro m h hm
        refine ih (m.apply o) (fun e => h (List.mem_cons_of_mem _ e)) ?_
        simp only [CMap.getNumCC, Prod.mk.injEq] at hm ⊢
        cases o with
        | setValue i c =>
          simp only [CMap.apply, CMap.setValue]
          split <;> simp [hm.1, hm.2]
        | mutWrite i c =>
          simp only [CMap.apply, CMap.mutWrite]
          split <;> simp [hm.1, hm.2]
        | update => exact absurd List.mem_cons_self h
    exact gen ops _ h rfl
  · intro junk d dflt oob ops h hs
    have gen : ∀ (ops : List TMap.Op) (m : TMap), TMap.Op.update ∉ ops → (∀ S, TMap.Op.segment S ∉ ops) →
        (m.getNumCC = (0, false) ∧ m.getNumSeg.1 = 0) →
        (m.run ops).getNumCC = (0, false) ∧ (m.run ops).getNumSeg.1 = 0 := by
      intro ops
      induction ops with
      | nil => intro m _ _ hm; exact hm
      | cons o ops ih =>
        intro m h hs hm
        refine ih (m.apply o) (fun e => h (List.mem_cons_of_mem _ e))
          (fun S e => hs S (List.mem_cons_of_mem _ e)) ?_
        simp only [TMap.getNumCC, TMap.getNumSeg, Prod.mk.injEq] at hm ⊢
        cases o with
        | setValue i c =>
          simp only [TMap.apply, TMap.setValue]
          split <;> simp [hm.1, hm.2]
        | mutWrite i c =>
          simp only [TMap.apply, TMap.mutWrite]
          split <;> simp [hm.1, hm.2]
        | update => exact absurd List.mem_cons_self h
        | segment S => exact absurd List.mem_cons_self (hs S)
    exact gen ops _ h hs ⟨rfl, rfl⟩

example : CMap.Op.update ∉ [CMap.Op.setValue ⟨0, 0, 0⟩ ⟨0, 7⟩, .mutWrite ⟨5, 0, 0⟩ ⟨0, 9⟩] := by decide

/-- The histories are not restricted: a refused write followed by an update. -/
example : (CMap.createDefault.run [.setValue ⟨0, 0, 0⟩ ⟨0, 7⟩, .mutWrite ⟨0, 0, 0⟩ ⟨0, 9⟩, .update]).getNumCC
    = (0, true) := by decide +kernel

/-- The claim is special to default construction: a one-cell map accepts the same write. -/
example : ((CMap.create ⟨1, 1, 1⟩ default default).setValue ⟨0, 0, 0⟩ ⟨0, 7⟩).2 = true := by
  decide +kernel

end Verif
