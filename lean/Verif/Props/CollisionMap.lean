import Verif.CollisionMap
import Verif.Spec.Basic
import Verif.Spec.Regions

/-!
# Properties of collision maps (C01, C03, C04, C05, C06, C07, C34, C38, C51)
-/

namespace Verif

open Spec

theorem inB_iff_spec {d : Dims} {i : Idx} : d.inB i = true ↔ InBounds d i := by
  rw [Dims.inB_iff]; unfold InBounds; tauto

/-! ## C01: a read returns the last successful write -/

namespace CMap

/-- A history of `SetValue` calls, oldest first. -/
def setAllValues (m : CMap) (hist : List (Idx × CCell)) : CMap :=
  hist.foldl (fun m w => (m.setValue w.1 w.2).1) m

theorem setAllValues_spec (hist : List (Idx × CCell)) : ∀ (m : CMap), m.grid.WF →
    (m.setAllValues hist).grid.WF ∧ (m.setAllValues hist).grid.dims = m.grid.dims ∧
    (m.setAllValues hist).grid.oob = m.grid.oob ∧
    ∀ (i : Idx) (acc : Option CCell), m.grid.dims.inB i = true →
      (acc.getD (m.grid.get i) = m.grid.get i) →
      (m.setAllValues hist).grid.get i =
        (hist.foldl (fun acc w => if w.1 = i then some w.2 else acc) acc).getD (m.grid.get i) := by
  induction hist with
  | nil => intro m h; exact ⟨h, rfl, rfl, fun i acc _ ha => ha.symm⟩
  | cons w hist ih =>
    intro m h
    obtain ⟨h1, h2, h3, h4⟩ := ih (m.setValue w.1 w.2).1 (setValue_wf h _ _)
    refine ⟨h1, h2.trans (setValue_dims m _ _), h3.trans ?_, ?_⟩
    · unfold setValue; split <;> simp
    · intro i acc hi ha
      have hg := setValue_get h w.1 i w.2
      simp only [setAllValues, List.foldl_cons] at *
      by_cases hw : w.1 = i
      · have hb : m.grid.dims.inB w.1 = true := by rw [hw]; exact hi
        simp only [hw, hi, and_self, if_true] at hg ⊢
        rw [hw] at h4
        rw [h4 i (some w.2) (by simpa using hi) (by simp [hg])]
        -- once written, the fallback is irrelevant
        have : ∀ (l : List (Idx × CCell)) (c a b : CCell),
            (l.foldl (fun acc w => if w.1 = i then some w.2 else acc) (some c)).getD a =
            (l.foldl (fun acc w => if w.1 = i then some w.2 else acc) (some c)).getD b := by
          intro l
          induction l with
          | nil => intros; rfl
          | cons v l ih2 => intro c a b; simp only [List.foldl_cons]; split <;> exact ih2 _ a b
        exact this _ _ _ _
      · simp only [hw, false_and, if_false] at hg ⊢
        rw [h4 i acc (by simpa using hi) (by rw [hg]; exact ha), hg]

end CMap

/-- C01.  After any history of `SetValue` calls an in-bounds read succeeds and returns the last
value written to that index, or the previous cell if there was none. -/
theorem C01_read_after_write (m : CMap) (h : m.grid.WF) (hist : List (Idx × CCell)) (i : Idx)
    (hi : InBounds m.dims i) :
    (m.setAllValues hist).getImm i = ((lastWrite hist i).getD (m.getImm i).1, true) := by
  obtain ⟨h1, h2, h3, h4⟩ := CMap.setAllValues_spec hist m h
  have hb : m.grid.dims.inB i = true := inB_iff_spec.mpr hi
  simp only [CMap.getImm, Grid.getImm, h2, hb]
  rw [h4 i none hb rfl]
  rfl

/-- C01, result of the call: `SetValue` succeeds exactly in bounds, and a refused call changes
nothing at all. -/
theorem C01_setValue_result (m : CMap) (i : Idx) (c : CCell) :
    ((m.setValue i c).2 = true ↔ InBounds m.dims i) ∧
      ((m.setValue i c).2 = false → (m.setValue i c).1 = m) := by
  unfold CMap.setValue CMap.dims
  rw [← inB_iff_spec]
  by_cases hb : m.grid.dims.inB i = true <;> simp [hb]

/-- C01 on fresh maps: the fallback is the construction-time cell. -/
theorem C01_fresh (d : Dims) (dflt oob : CCell) (hist : List (Idx × CCell)) (i : Idx)
    (hi : InBounds d i) :
    ((CMap.create d dflt oob).setAllValues hist).getImm i = ((lastWrite hist i).getD dflt, true) := by
  have hb : d.inB i = true := inB_iff_spec.mpr hi
  rw [C01_read_after_write (CMap.create d dflt oob) (Grid.wf_mk' d dflt oob) hist i hi]
  simp [CMap.getImm, Grid.getImm, CMap.create, Grid.get_mk', hb]

example : InBounds (CMap.create ⟨2, 3, 1⟩ ⟨0, 0⟩ ⟨F32.one, 0⟩).dims ⟨1, 2, 0⟩ ∧
    ((CMap.create ⟨2, 3, 1⟩ ⟨0, 0⟩ ⟨F32.one, 0⟩).setAllValues
      [(⟨1, 2, 0⟩, ⟨5, 1⟩), (⟨0, 0, 0⟩, ⟨6, 2⟩), (⟨1, 2, 0⟩, ⟨7, 3⟩), (⟨1, 3, 0⟩, ⟨8, 4⟩)]).getImm
        ⟨1, 2, 0⟩ = (⟨7, 3⟩, true) := by
  constructor
  · unfold InBounds; decide
  · decide

/-! ## C03: out-of-bounds reads -/

/-- C03 (part).  Histories of `SetValue` calls leave every out-of-bounds read at
`(construction-time OOB value, false)`.  Missing: `GetMutable` out of bounds, for which the property
is false (`C03_oob_value_can_change`). -/
theorem C03_oob_stable_partial (d : Dims) (dflt oob : CCell) (hist : List (Idx × CCell)) (i : Idx)
    (hi : ¬ InBounds d i) :
    ((CMap.create d dflt oob).setAllValues hist).getImm i = (oob, false) := by
  obtain ⟨h1, h2, h3, h4⟩ := CMap.setAllValues_spec hist (CMap.create d dflt oob)
    (Grid.wf_mk' d dflt oob)
  have hb : ¬ d.inB i = true := fun h => hi (inB_iff_spec.mp h)
  have hd : (CMap.create d dflt oob).grid.dims = d := rfl
  have ho : (CMap.create d dflt oob).grid.oob = oob := rfl
  simp only [Bool.not_eq_true] at hb
  simp [CMap.getImm, Grid.getImm, Grid.get, h2, h3, hd, ho, hb]

example : ¬ InBounds ⟨2, 3, 1⟩ ⟨2, 0, 0⟩ := by unfold InBounds; decide

/-- C03 is violated: one `GetMutable` call at an out-of-bounds index followed by a write through the
returned reference changes what every out-of-bounds read returns. -/
theorem C03_oob_value_can_change :
    ∃ (d : Dims) (dflt oob : CCell) (ops : List CMap.Op) (i : Idx), ¬ InBounds d i ∧
      ((CMap.create d dflt oob).run ops).getImm i ≠ (oob, false) := by
  refine ⟨⟨1, 1, 1⟩, ⟨0, 0⟩, ⟨0, 0⟩, [.mutWrite ⟨1, 0, 0⟩ ⟨F32.one, 0⟩], ⟨0, 5, 0⟩, ?_, ?_⟩
  · unfold InBounds; decide
  · decide

/-! ## C05, C06, C07: connected components -/

/-- The participation predicate: every cell of the grid. -/
abbrev inGrid (m : CMap) (i : Idx) : Prop := InBounds m.dims i

/-- Compatibility of two cells: both occupied (`> 0.5`) or both not. -/
abbrev sameSide (m : CMap) (i j : Idx) : Prop :=
  (((m.getImm i).1).occ.gtHalf = true ↔ ((m.getImm j).1).occ.gtHalf = true)

/-- `lab, n` is the scan-order numbering of the face-connected regions of equal occupancy side. -/
def IsComponentLabelling (m : CMap) (lab : Idx → Nat) (n : Nat) : Prop :=
  Labelling m.dims (inGrid m) (sameSide m) lab n

namespace CMap

theorem total (m : CMap) : compFns.Total m.grid.dims m.SameOcc := by
  refine ⟨(lawful m).ok_mark, ?_⟩
  intro s i hs h0
  by_contra hb
  rw [(lawful m).get_inelig s i hs hb] at h0
  revert h0; decide

theorem updateCC_total (m : CMap) (hv : m.valid = false) (h : m.grid.WF) :
    ∃ m' n, m.updateCC = some ({ m' with nComp := UInt32.ofNat n, valid := true }, n) ∧
      m.SameOcc m' ∧ n < u32 ∧ compFns.computeCC m.dims { m with valid := false } = some (m', n) := by
  obtain ⟨s', n, h1, h2, h3⟩ := CompFns.computeCC_total (total m) { m with valid := false }
    ⟨h, rfl, rfl, rfl, fun _ => rfl⟩
  refine ⟨s', n, ?_, h2, h3, h1⟩
  unfold updateCC dims
  simp only [hv, h1]
  simp

theorem getImm_of_inB {m : CMap} {i : Idx} : (m.getImm i).1 = m.grid.get i := rfl

theorem updateCC_spec (m : CMap) (hv : m.valid = false) (h : m.grid.WF) (hsz : m.dims.size < 2 ^ 32) :
    ∃ m' n, m.updateCC = some (m', n) ∧ m.SameOcc m' ∧ m'.nComp.toNat = n ∧ m'.valid = true ∧
      Labelling m.dims (inGrid m) (sameSide m) (fun i => ((m'.getImm i).1).comp.toNat) n := by
  obtain ⟨s', firsts, h1, h2⟩ := CompFns.computeCC_spec (lawful m) hsz { m with valid := false }
    ⟨h, rfl, rfl, rfl, fun _ => rfl⟩
  obtain ⟨m', n, h3, h4, h5, h6⟩ := updateCC_total m hv h
  have h1' : compFns.computeCC m.dims { m with valid := false } = some (s', firsts.length) := h1
  rw [h1'] at h6
  simp only [Option.some.injEq, Prod.mk.injEq] at h6
  obtain ⟨rfl, rfl⟩ := h6
  refine ⟨_, _, h3, h4, ?_, rfl, ?_⟩
  · exact UInt32.toNat_ofNat_of_lt' (by simpa [u32] using h5)
  · have hl := h2.labelling (lawful m)
    have e1 : (fun i => m.grid.dims.inB i = true) = inGrid m := by
      funext i; exact propext inB_iff_spec
    have e2 : m.compat = sameSide m := by
      funext i j; simp only [compat, sameSide, getImm_of_inB, ← Bool.eq_iff_iff]
    rw [e1, e2] at hl
    have hlab : ∀ i, InBounds m.dims i →
        (compFns.getC s' i).toNat = ((s'.getImm i).1).comp.toNat := by
      intro i hi
      have hb : s'.grid.dims.inB i = true := by rw [h4.2.1]; exact inB_iff_spec.mpr hi
      simp [compFns, compFn, hb, getImm_of_inB]
    refine ⟨?_, ?_, ?_, ?_⟩
    · intro i hi
      have := hl.range i hi; rw [hlab i hi] at this; exact this
    · intro i j hi hj
      have := hl.same i j hi hj; rw [hlab i hi, hlab j hj] at this; exact this
    · intro k h1 h2
      obtain ⟨i, hi, hk⟩ := hl.used k h1 h2
      exact ⟨i, hi, by rw [hlab i hi] at hk; exact hk⟩
    · intro i j hi hj
      have := hl.order i j hi hj; rw [hlab i hi.1, hlab j hj.1] at this; exact this

end CMap

/-- C05.  After a (non-cached) `UpdateConnectedComponents`, two cells of the grid carry the same
label iff a path of face-adjacent cells on the same side of "occupancy > 0.5" links them. -/
theorem C05_components_are_regions (m : CMap) (h : m.grid.WF) (hv : m.valid = false)
    (hsz : m.dims.size < 2 ^ 32) :
    ∃ m' n, m.updateCC = some (m', n) ∧ ∀ i j, InBounds m.dims i → InBounds m.dims j →
      (((m'.getImm i).1).comp = ((m'.getImm j).1).comp ↔
        Linked (inGrid m) (sameSide m) i j) := by
  obtain ⟨m', n, h1, _, _, _, h2⟩ := m.updateCC_spec hv h hsz
  refine ⟨m', n, h1, ?_⟩
  intro i j hi hj
  rw [← h2.same i j hi hj]
  exact UInt32.toNat_inj.symm

/-- C06.  Labels are `1..n`, all used, ordered by first cell in scan order, and
`GetNumConnectedComponents` returns `(n, true)`. -/
theorem C06_labels_scan_order (m : CMap) (h : m.grid.WF) (hv : m.valid = false)
    (hsz : m.dims.size < 2 ^ 32) :
    ∃ m' n, m.updateCC = some (m', n) ∧ m'.getNumCC = (n, true) ∧
      IsComponentLabelling m (fun i => ((m'.getImm i).1).comp.toNat) n := by
  obtain ⟨m', n, h1, _, h3, h4, h2⟩ := m.updateCC_spec hv h hsz
  exact ⟨m', n, h1, by simp [CMap.getNumCC, h3, h4], h2⟩

/-- The specification of C05/C06 determines the labels. -/
theorem C06_labels_determined (m : CMap) (lab lab' : Idx → Nat) (n n' : Nat)
    (h : IsComponentLabelling m lab n) (h' : IsComponentLabelling m lab' n') :
    n = n' ∧ ∀ i, InBounds m.dims i → lab i = lab' i :=
  Labelling.unique (fun _ hi => inB_iff_spec.mpr hi) h h'

/-- C07.  `UpdateConnectedComponents` terminates on every map (any size, any stored labels, cached or
not), changes no occupancy and no geometry, and a second call returns the same number and changes
nothing. -/
theorem C07_terminates_preserves_idempotent (m : CMap) (h : m.grid.WF) :
    ∃ m' n, m.updateCC = some (m', n) ∧ m'.grid.WF ∧ m'.dims = m.dims ∧
      m'.grid.dflt = m.grid.dflt ∧ m'.grid.oob = m.grid.oob ∧
      (∀ i, ((m'.getImm i).1).occ = ((m.getImm i).1).occ) ∧
      m'.updateCC = some (m', n) := by
  by_cases hv : m.valid = true
  · refine ⟨m, m.nComp.toNat, ?_, h, rfl, rfl, rfl, fun _ => rfl, ?_⟩ <;> simp [CMap.updateCC, hv]
  · obtain ⟨m', n, h1, h2, h3, h4⟩ := m.updateCC_total (by simpa using hv) h
    refine ⟨_, n, h1, h2.1, h2.2.1, h2.2.2.1, h2.2.2.2.1, h2.2.2.2.2, ?_⟩
    simp only [CMap.updateCC]
    simp [UInt32.toNat_ofNat_of_lt' (by simpa [u32] using h3)]

/-- A 3×1×1 map with occupancies 0, 1, 0.5 and garbage labels. -/
def exMap : CMap :=
  ⟨⟨⟨3, 1, 1⟩, [⟨F32.zero, 9⟩, ⟨F32.one, 9⟩, ⟨F32.half, 4⟩], ⟨0, 0⟩, ⟨0, 0⟩⟩, 7, false⟩

example : exMap.grid.WF ∧ exMap.valid = false ∧ exMap.dims.size < 2 ^ 32 ∧
    exMap.updateCC = some (⟨⟨⟨3, 1, 1⟩, [⟨F32.zero, 1⟩, ⟨F32.one, 2⟩, ⟨F32.half, 3⟩],
      ⟨0, 0⟩, ⟨0, 0⟩⟩, 3, true⟩, 3) := by
  refine ⟨?_, ?_, ?_, ?_⟩ <;> first | decide | rfl

/-! ## C04: the components-valid flag is never stale -/

/-- What the valid flag promises: labels and count are those of the current occupancies. -/
def FlagHonest (m : CMap) : Prop :=
  m.valid = true →
    IsComponentLabelling m (fun i => ((m.getImm i).1).comp.toNat) m.nComp.toNat

namespace CMap

theorem labelling_sameOcc {m m' : CMap} (hs : m.SameOcc m') {lab : Idx → Nat} {n : Nat}
    (hl : Labelling m.dims (inGrid m) (sameSide m) lab n) : IsComponentLabelling m' lab n := by
  have e1 : inGrid m' = inGrid m := by funext i; simp only [inGrid, dims, hs.2.1]
  have e2 : sameSide m' = sameSide m := by
    funext i j; simp only [sameSide, getImm_of_inB, hs.2.2.2.2]
  unfold IsComponentLabelling dims
  rw [e1, e2, hs.2.1]
  exact hl

theorem apply_inv (d : Dims) (hsz : d.size < 2 ^ 32) (m : CMap)
    (h : m.grid.WF ∧ m.dims = d ∧ FlagHonest m) (op : Op) :
    (m.apply op).grid.WF ∧ (m.apply op).dims = d ∧ FlagHonest (m.apply op) := by
  obtain ⟨h1, h2, h3⟩ := h
  cases op with
  | setValue i c =>
    refine ⟨setValue_wf h1 i c, by simpa [dims, apply] using h2, ?_⟩
    show FlagHonest (m.setValue i c).1
    unfold setValue
    split
    · intro hv; simp at hv
    · exact h3
  | mutWrite i c =>
    refine ⟨mutWrite_wf h1 i c, by simpa [dims, apply] using h2, ?_⟩
    show FlagHonest (m.mutWrite i c).1
    unfold mutWrite
    split
    · intro hv; simp at hv
    · rename_i hb
      intro hv
      have hl := h3 hv
      -- only the OOB value changed: no in-bounds read is affected
      have hget : ∀ j, InBounds m.dims j →
          (Grid.get { m.grid with oob := c } j) = m.grid.get j := by
        intro j hj
        have : m.grid.dims.inB j = true := inB_iff_spec.mpr hj
        have hlt : m.grid.dims.lin j < m.grid.data.length := by
          rw [h1]; exact Dims.lin_lt this
        simp [Grid.get, this, List.getElem?_eq_getElem hlt]
      have hstep : ∀ i j,
          PathStep (inGrid m) (sameSide m) i j ↔
          PathStep (inGrid (⟨{ m.grid with oob := c }, m.nComp, m.valid⟩ : CMap))
            (sameSide (⟨{ m.grid with oob := c }, m.nComp, m.valid⟩ : CMap)) i j := by
        intro i j
        unfold PathStep
        constructor
        · rintro ⟨a, b, e, f⟩
          refine ⟨a, b, e, ?_⟩
          simp only [sameSide, getImm_of_inB] at *
          rw [hget i a, hget j b]; exact f
        · rintro ⟨a, b, e, f⟩
          refine ⟨a, b, e, ?_⟩
          simp only [sameSide, getImm_of_inB] at *
          rw [hget i a, hget j b] at f; exact f
      have hlink : Linked (inGrid (⟨{ m.grid with oob := c }, m.nComp, m.valid⟩ : CMap))
            (sameSide (⟨{ m.grid with oob := c }, m.nComp, m.valid⟩ : CMap))
          = Linked (inGrid m) (sameSide m) := by
        unfold Linked
        congr 1
        funext i j
        exact (propext (hstep i j)).symm
      refine ⟨?_, ?_, ?_, ?_⟩
      · intro i hi
        have := hl.range i hi
        simp only [getImm_of_inB] at *
        rw [hget i hi]; exact this
      · intro i j hi hj
        have := hl.same i j hi hj
        simp only [getImm_of_inB] at *
        rw [hget i hi, hget j hj, hlink]; exact this
      · intro k hk hk'
        obtain ⟨i, hi, hik⟩ := hl.used k hk hk'
        refine ⟨i, hi, ?_⟩
        simp only [getImm_of_inB] at *
        rw [hget i hi]; exact hik
      · intro i j hi hj
        have hfirst : ∀ i, First m.dims (inGrid (⟨{ m.grid with oob := c }, m.nComp, m.valid⟩ : CMap))
            (sameSide (⟨{ m.grid with oob := c }, m.nComp, m.valid⟩ : CMap)) i →
            First m.dims (inGrid m) (sameSide m) i := by
          intro i hi
          refine ⟨hi.1, fun j hj hl => hi.2 j hj ?_⟩
          rw [hlink]; exact hl
        have := hl.order i j (hfirst i hi) (hfirst j hj)
        simp only [getImm_of_inB] at *
        rw [hget i hi.1, hget j hj.1]; exact this
  | update =>
    by_cases hv : m.valid = true
    · have : m.apply .update = m := by simp [apply, updateCC, hv]
      rw [this]; exact ⟨h1, h2, h3⟩
    · obtain ⟨m', n, ha, hb, hc, hd, he⟩ := m.updateCC_spec (by simpa using hv) h1 (by rw [h2]; exact hsz)
      have : m.apply .update = m' := by simp [apply, ha]
      rw [this]
      refine ⟨hb.1, hb.2.1.trans h2, ?_⟩
      intro _
      rw [hc]
      exact labelling_sameOcc hb he

theorem run_inv (d : Dims) (hsz : d.size < 2 ^ 32) (ops : List Op) : ∀ (m : CMap),
    (m.grid.WF ∧ m.dims = d ∧ FlagHonest m) →
    ((m.run ops).grid.WF ∧ (m.run ops).dims = d ∧ FlagHonest (m.run ops)) := by
  induction ops with
  | nil => intro m h; exact h
  | cons op ops ih => intro m h; exact ih _ (apply_inv d hsz m h op)

end CMap

/-- C04.  After any history of `SetValue`, `GetMutable`-then-write and `UpdateConnectedComponents`
on a fresh map: if the flag is set, labels and count are those of the current occupancies. -/
theorem C04_flag_never_stale (d : Dims) (hsz : d.size < 2 ^ 32) (dflt oob : CCell)
    (ops : List CMap.Op) :
    let m := (CMap.create d dflt oob).run ops
    m.getNumCC.2 = true →
      IsComponentLabelling m (fun i => ((m.getImm i).1).comp.toNat) m.getNumCC.1 :=
  (CMap.run_inv d hsz ops (CMap.create d dflt oob)
    ⟨Grid.wf_mk' d dflt oob, rfl, fun h => by simp [CMap.create] at h⟩).2.2

/-- C04, as a recomputation: with the flag set, forcing a fresh recomputation changes nothing. -/
theorem C04_recompute_is_noop (d : Dims) (hsz : d.size < 2 ^ 32) (dflt oob : CCell)
    (ops : List CMap.Op) :
    let m := (CMap.create d dflt oob).run ops
    m.valid = true → CMap.updateCC { m with valid := false } = some (m, m.nComp.toNat) := by
  intro m hv
  obtain ⟨h1, h2, h3⟩ := CMap.run_inv d hsz ops (CMap.create d dflt oob)
    ⟨Grid.wf_mk' d dflt oob, rfl, fun h => by simp [CMap.create] at h⟩
  obtain ⟨m', n, ha, hb, hc, hd, he⟩ := CMap.updateCC_spec { m with valid := false } rfl h1
    (by simpa [CMap.dims] using (by rw [← h2] at hsz; exact hsz))
  have hl : IsComponentLabelling m (fun i => ((m'.getImm i).1).comp.toNat) n := he
  obtain ⟨e1, e2⟩ := C06_labels_determined m _ _ _ _ hl (h3 hv)
  rw [ha]
  have hn : m'.nComp = m.nComp := UInt32.toNat_inj.mp (by rw [hc, e1])
  have hval : m'.valid = m.valid := by rw [hd, hv]
  have hgrid : m'.grid = m.grid := by
    obtain ⟨b1, b2, b3, b4, b5⟩ := hb
    have hget : ∀ i, m.grid.dims.inB i = true → m'.grid.get i = m.grid.get i := by
      intro i hi
      have ho : (m'.grid.get i).occ = (m.grid.get i).occ := b5 i
      have hcmp : (m'.grid.get i).comp = (m.grid.get i).comp :=
        UInt32.toNat_inj.mp (e2 i (inB_iff_spec.mp hi))
      exact (CCell.mk.injEq ..).mpr ⟨ho, hcmp⟩
    have hdata := Grid.data_ext b1 h1 b2 (by
      intro i hi
      rw [b2] at hi
      exact hget i hi)
    have b2' : m'.grid.dims = m.grid.dims := b2
    have b3' : m'.grid.dflt = m.grid.dflt := b3
    have b4' : m'.grid.oob = m.grid.oob := b4
    calc m'.grid = ⟨m'.grid.dims, m'.grid.data, m'.grid.dflt, m'.grid.oob⟩ := rfl
      _ = ⟨m.grid.dims, m.grid.data, m.grid.dflt, m.grid.oob⟩ := by rw [b2', b3', b4', hdata]
      _ = m.grid := rfl
  have hm : m' = m := by
    calc m' = ⟨m'.grid, m'.nComp, m'.valid⟩ := rfl
      _ = ⟨m.grid, m.nComp, m.valid⟩ := by rw [hgrid, hn, hval]
      _ = m := rfl
  rw [hm, ← e1]

example : ((CMap.create ⟨2, 1, 1⟩ ⟨0, 0⟩ ⟨0, 0⟩).run
    [.setValue ⟨0, 0, 0⟩ ⟨F32.one, 5⟩, .update, .mutWrite ⟨7, 0, 0⟩ ⟨1, 1⟩]).valid = true := by decide

/-- The restriction to immediate writes matters: a reference obtained from `GetMutable` and written
after an update leaves the flag set although the labels are those of the old occupancies. -/
theorem C04_held_reference_makes_flag_stale :
    ∃ (d : Dims) (dflt oob : CCell) (ops : List CMap.Op) (i : Idx) (c : CCell),
      InBounds d i ∧ CMap.Op.mutWrite i dflt ∈ ops ∧
      let m := (((CMap.create d dflt oob).run ops).heldWrite i c)
      m.getNumCC.2 = true ∧ CMap.updateCC { m with valid := false } ≠ some (m, m.nComp.toNat) := by
  refine ⟨⟨2, 1, 1⟩, ⟨0, 0⟩, ⟨0, 0⟩, [.mutWrite ⟨0, 0, 0⟩ ⟨0, 0⟩, .update], ⟨0, 0, 0⟩,
    ⟨F32.one, 1⟩, ?_, ?_, ?_⟩
  · unfold InBounds; decide
  · simp
  · decide

/-! ## C38: candidate corners -/

/-- C38.  `CheckIfCandidateCorner` succeeds exactly in bounds, and reports a corner iff two different
face neighbours inside the grid carry another label. -/
theorem C38_candidate_corner (m : CMap) (i : Idx) :
    ((m.checkCorner i).2 = true ↔ InBounds m.dims i) ∧
    ((m.checkCorner i).1 = true ↔ InBounds m.dims i ∧
      ∃ j k, j ≠ k ∧ FaceAdj i j ∧ FaceAdj i k ∧ InBounds m.dims j ∧ InBounds m.dims k ∧
        ((m.getImm j).1).comp ≠ ((m.getImm i).1).comp ∧
        ((m.getImm k).1).comp ≠ ((m.getImm i).1).comp) := by
  by_cases hb : m.grid.dims.inB i = true
  · have hi : InBounds m.dims i := inB_iff_spec.mp hb
    let D : Idx → Prop := fun j => InBounds m.dims j ∧ ((m.getImm j).1).comp ≠ ((m.getImm i).1).comp
    have hcond : ∀ j, ((m.getImm j).2 && (m.getImm j).1.comp != (m.grid.get i).comp) = true ↔ D j := by
      intro j
      simp only [D, Bool.and_eq_true, bne_iff_ne, ← inB_iff_spec]
      exact Iff.rfl
    have hr : (∃ j k, j ≠ k ∧ FaceAdj i j ∧ FaceAdj i k ∧ InBounds m.dims j ∧ InBounds m.dims k ∧
        ((m.getImm j).1).comp ≠ ((m.getImm i).1).comp ∧
        ((m.getImm k).1).comp ≠ ((m.getImm i).1).comp) ↔
        ∃ j k, j ≠ k ∧ j ∈ faceNbrs i ∧ k ∈ faceNbrs i ∧ D j ∧ D k := by
      constructor
      · rintro ⟨j, k, a, b, c, e, f, g, h⟩
        exact ⟨j, k, a, CompFns.mem_faceNbrs_iff.mpr b, CompFns.mem_faceNbrs_iff.mpr c, ⟨e, g⟩, f, h⟩
      · rintro ⟨j, k, a, b, c, ⟨e, g⟩, f, h⟩
        exact ⟨j, k, a, CompFns.mem_faceNbrs_iff.mp b, CompFns.mem_faceNbrs_iff.mp c, e, f, g, h⟩
    rw [hr]
    have hdiff : ∀ j, (if ((m.getImm j).2 && (m.getImm j).1.comp != (m.grid.get i).comp) = true
        then 1 else 0 : Nat) = @ite Nat (D j) (Classical.dec _) 1 0 := by
      intro j
      by_cases h : D j
      · rw [if_pos h, if_pos ((hcond j).mpr h)]
      · rw [if_neg h, if_neg (fun h' => h ((hcond j).mp h'))]
    simp only [CMap.checkCorner, hb, if_true, hdiff, hi, true_and, iff_true]
    have hp2 : ∀ n : Nat, (if n ≤ 1 then (false, true) else (true, true) : Bool × Bool).2 = true := by
      intro n; split <;> rfl
    have hp1 : ∀ n : Nat, (if n ≤ 1 then (false, true) else (true, true) : Bool × Bool).1 = true ↔
        2 ≤ n := by
      intro n; split <;> simp <;> omega
    refine ⟨hp2 _, ?_⟩
    rw [hp1]
    have hpair : (∃ j k, j ≠ k ∧ j ∈ faceNbrs i ∧ k ∈ faceNbrs i ∧ D j ∧ D k) ↔
        2 ≤ ((faceNbrs i).filter (fun j => @decide (D j) (Classical.dec _))).length := by
      have hnd : ((faceNbrs i).filter (fun j => @decide (D j) (Classical.dec _))).Nodup := by
        refine List.Nodup.filter _ ?_
        obtain ⟨x, y, z⟩ := i
        simp [faceNbrs]
        omega
      constructor
      · rintro ⟨j, k, a, b, c, e, f⟩
        have := (List.subperm_of_subset (l₁ := [j, k])
          (l₂ := (faceNbrs i).filter (fun j => @decide (D j) (Classical.dec _)))
          (by simp [a]) (by
            intro t ht
            simp only [List.mem_cons, List.not_mem_nil, or_false] at ht
            rcases ht with rfl | rfl <;> simp [*])).length_le
        simpa using this
      · intro h2
        match hl : (faceNbrs i).filter (fun j => @decide (D j) (Classical.dec _)), h2, hnd with
        | [], h2, _ => simp at h2
        | [_], h2, _ => simp at h2
        | j :: k :: l, _, hnd =>
          have hj : j ∈ (faceNbrs i).filter (fun j => @decide (D j) (Classical.dec _)) := by
            rw [hl]; simp
          have hk : k ∈ (faceNbrs i).filter (fun j => @decide (D j) (Classical.dec _)) := by
            rw [hl]; simp
          simp only [List.mem_filter, decide_eq_true_eq] at hj hk
          refine ⟨j, k, ?_, hj.1, hk.1, hj.2, hk.2⟩
          simp only [List.nodup_cons, List.mem_cons, not_or] at hnd
          exact hnd.1.1
    rw [hpair]
    simp only [faceNbrs]
    generalize (⟨i.x - 1, i.y, i.z⟩ : Idx) = a1
    generalize (⟨i.x + 1, i.y, i.z⟩ : Idx) = a2
    generalize (⟨i.x, i.y - 1, i.z⟩ : Idx) = a3
    generalize (⟨i.x, i.y + 1, i.z⟩ : Idx) = a4
    generalize (⟨i.x, i.y, i.z - 1⟩ : Idx) = a5
    generalize (⟨i.x, i.y, i.z + 1⟩ : Idx) = a6
    by_cases h1 : D a1 <;> by_cases h2 : D a2 <;> by_cases h3 : D a3 <;> by_cases h4 : D a4 <;>
      by_cases h5 : D a5 <;> by_cases h6 : D a6 <;> simp [h1, h2, h3, h4, h5, h6]
  · have hi : ¬ InBounds m.dims i := fun h => hb (inB_iff_spec.mpr h)
    simp [CMap.checkCorner, hb, hi]

example : (CMap.checkCorner ⟨⟨⟨2, 2, 1⟩, [⟨0, 1⟩, ⟨0, 2⟩, ⟨0, 2⟩, ⟨0, 2⟩], ⟨0, 0⟩, ⟨0, 0⟩⟩, 2, true⟩
    ⟨0, 0, 0⟩) = (true, true) := by decide

/-! ## C34: component surfaces -/

/-- What the code computes, for every label assignment and OOB cell: on the top layer the OOB
component stands in for the missing upper neighbour. -/
theorem isCCSurface_iff (m : CMap) (i : Idx) (hi : InBounds m.dims i) :
    m.isCCSurface i = true ↔
      (i.x = 0 ∨ i.y = 0 ∨ i.z = 0 ∨ i.x + 1 = m.dims.nx ∨ i.y + 1 = m.dims.ny) ∨
      ∃ j, FaceAdj i j ∧ ((m.getImm j).1).comp ≠ ((m.getImm i).1).comp := by
  have hex : (∃ j, FaceAdj i j ∧ ((m.getImm j).1).comp ≠ ((m.getImm i).1).comp) ↔
      ∃ j ∈ faceNbrs i, (m.grid.get j).comp ≠ (m.grid.get i).comp := by
    constructor
    · rintro ⟨j, a, b⟩; exact ⟨j, CompFns.mem_faceNbrs_iff.mpr a, b⟩
    · rintro ⟨j, a, b⟩; exact ⟨j, CompFns.mem_faceNbrs_iff.mp a, b⟩
  rw [hex]
  obtain ⟨⟨hx0, hx1⟩, ⟨hy0, hy1⟩, ⟨hz0, hz1⟩⟩ := hi
  simp only [CMap.dims] at *
  have h1 : ¬ (i.x < 0 ∨ i.y < 0 ∨ i.z < 0 ∨ i.x ≥ m.grid.dims.nx ∨ i.y ≥ m.grid.dims.ny ∨
      i.z ≥ m.grid.dims.nz) := by omega
  have h2 : (i.x = 0 ∨ i.y = 0 ∨ i.z = 0 ∨ i.x = (m.grid.dims.nx : Int) - 1 ∨
      i.y = (m.grid.dims.ny : Int) - 1 ∨ i.z = (m.grid.dims.nz : Int)) ↔
      (i.x = 0 ∨ i.y = 0 ∨ i.z = 0 ∨ i.x + 1 = m.grid.dims.nx ∨ i.y + 1 = m.grid.dims.ny) := by
    omega
  simp only [CMap.isCCSurface, h1, if_false, h2, faceNbrs, List.mem_cons, List.not_mem_nil,
    or_false, exists_eq_or_imp, exists_eq_left]
  split
  · rename_i h; simp [h]
  · rename_i h
    simp only [h, false_or]
    split_ifs <;> simp_all [eq_comm]

/-- C34 (part).  For every labelling in which no cell of the grid carries the OOB component (in
particular after `UpdateConnectedComponents` with the usual OOB component 0, see
`C34_after_update_partial`), the surface test is exact.  Missing: OOB cells whose component equals a
label in use, for which the property is false (`C34_top_layer_can_be_missed`). -/
theorem C34_component_surface_partial (m : CMap) (i : Idx) (hi : InBounds m.dims i)
    (hoob : ∀ j, InBounds m.dims j → ((m.getImm j).1).comp ≠ m.grid.oob.comp) :
    m.isCCSurface i = true ↔
      OnFace m.dims i ∨
      ∃ j, InBounds m.dims j ∧ FaceAdj i j ∧ ((m.getImm j).1).comp ≠ ((m.getImm i).1).comp := by
  rw [isCCSurface_iff m i hi]
  have hget : ∀ j, ¬ InBounds m.dims j → ((m.getImm j).1) = m.grid.oob := by
    intro j hj
    have : ¬ m.grid.dims.inB j = true := fun h => hj (inB_iff_spec.mp h)
    simp only [Bool.not_eq_true] at this
    simp [CMap.getImm, Grid.getImm, Grid.get, this]
  unfold OnFace
  constructor
  · rintro (h | ⟨j, ha, hc⟩)
    · left; tauto
    · by_cases hj : InBounds m.dims j
      · exact Or.inr ⟨j, hj, ha, hc⟩
      · left
        have ha' := CompFns.mem_faceNbrs_iff.mpr ha
        unfold InBounds at hi hj
        simp only [faceNbrs, List.mem_cons, List.not_mem_nil, or_false] at ha'
        rcases ha' with rfl | rfl | rfl | rfl | rfl | rfl <;> simp only at hj <;> omega
  · rintro (h | ⟨j, _, ha, hc⟩)
    · by_cases hz : i.z + 1 = m.dims.nz
      · refine Or.inr ⟨⟨i.x, i.y, i.z + 1⟩, ?_, ?_⟩
        · apply CompFns.mem_faceNbrs_iff.mp; simp [faceNbrs]
        · rw [hget _ (by unfold InBounds; simp only; omega)]
          exact fun h => hoob i hi h.symm
      · left; tauto
    · exact Or.inr ⟨j, ha, hc⟩

/-- C34 after an update, for maps whose OOB cell carries component 0 (every constructor that takes
an occupancy-only OOB cell). -/
theorem C34_after_update_partial (m : CMap) (h : m.grid.WF) (hv : m.valid = false)
    (hsz : m.dims.size < 2 ^ 32) (hoob : m.grid.oob.comp = 0) :
    ∃ m' n, m.updateCC = some (m', n) ∧ ∀ i, InBounds m.dims i →
      (m'.isCCSurface i = true ↔
        OnFace m.dims i ∨
        ∃ j, InBounds m.dims j ∧ FaceAdj i j ∧ ¬ Linked (inGrid m) (sameSide m) i j) := by
  obtain ⟨m', n, h1, h2, _, _, h3⟩ := m.updateCC_spec hv h hsz
  refine ⟨m', n, h1, ?_⟩
  intro i hi
  have hd : m'.dims = m.dims := h2.2.1
  rw [C34_component_surface_partial m' i (by rw [hd]; exact hi), hd]
  · constructor
    · rintro (h | ⟨j, a, b, c⟩)
      · exact Or.inl h
      · refine Or.inr ⟨j, a, b, fun hl => c ?_⟩
        exact (UInt32.toNat_inj.mp ((h3.same i j hi a).mpr hl)).symm
    · rintro (h | ⟨j, a, b, c⟩)
      · exact Or.inl h
      · refine Or.inr ⟨j, a, b, fun hl => c ?_⟩
        exact (h3.same i j hi a).mp (by simp only [hl])
  · intro j hj he
    rw [hd] at hj
    have := (h3.range j hj).1
    rw [h2.2.2.2.1, hoob] at he
    rw [he] at this
    simp at this

/-- A 3×3×2 map, all cells free. -/
def exBox : CMap := CMap.create ⟨3, 3, 2⟩ ⟨0, 0⟩ ⟨0, 0⟩

example : exBox.grid.WF ∧ exBox.valid = false ∧ exBox.dims.size < 2 ^ 32 ∧ exBox.grid.oob.comp = 0 ∧
    InBounds exBox.dims ⟨1, 1, 1⟩ ∧ OnFace exBox.dims ⟨1, 1, 1⟩ := by
  refine ⟨Grid.wf_mk' _ _ _, rfl, by decide, rfl, ?_, ?_⟩
  · unfold InBounds; decide
  · unfold OnFace; decide

/-- C34 is violated: with an OOB cell that carries component 1, the centre cell of the top layer of a
3×3×2 one-region map is not reported although it lies on a grid face. -/
theorem C34_top_layer_can_be_missed :
    ∃ (d : Dims) (dflt oob : CCell) (m' : CMap) (n : Nat) (i : Idx),
      (CMap.create d dflt oob).updateCC = some (m', n) ∧ InBounds d i ∧ OnFace d i ∧
      m'.isCCSurface i = false := by
  have h : ((CMap.create ⟨3, 3, 2⟩ ⟨0, 0⟩ ⟨0, 1⟩).updateCC.map fun r => r.1.isCCSurface ⟨1, 1, 1⟩) =
      some false := by decide +kernel
  match hu : (CMap.create ⟨3, 3, 2⟩ ⟨0, 0⟩ ⟨0, 1⟩).updateCC with
  | none => simp [hu] at h
  | some (m', n) =>
    refine ⟨⟨3, 3, 2⟩, ⟨0, 0⟩, ⟨0, 1⟩, m', n, ⟨1, 1, 1⟩, hu, ?_, ?_, ?_⟩
    · unfold InBounds; decide
    · unfold OnFace; decide
    · simpa [hu] using h

end Verif
