import Verif.CMapExports
import Verif.Props.CollisionMap
import Mathlib.Data.Rat.Floor
import Mathlib.Tactic.FieldSimp

/-!
# Properties of the collision map exports (C35, C39, C45, C51, C52)
-/

namespace Verif

open Spec

/-! ## C51: ExtractConnectedComponents -/

namespace CMap

theorem pushComponent_fold (m : CMap) (n : Nat) (l : List Idx)
    (hl : ∀ i ∈ l, 1 ≤ (m.grid.get i).comp.toNat ∧ (m.grid.get i).comp.toNat ≤ n) :
    ∀ comps : List (List Idx), comps.length = n →
      ∃ r, l.foldl m.pushComponent (some comps) = some r ∧ r.length = n ∧
        ∀ k (hk : k < r.length) (hk' : k < comps.length),
          r[k] = comps[k] ++ l.filter (fun i => (m.grid.get i).comp.toNat == k + 1) := by
  induction l with
  | nil => intro comps hc; exact ⟨comps, rfl, hc, by simp⟩
  | cons a l ih =>
    intro comps hc
    obtain ⟨h1, h2⟩ := hl a (List.mem_cons_self ..)
    have hk : ((m.grid.get a).comp - 1).toNat = (m.grid.get a).comp.toNat - 1 := by
      have : (1 : UInt32) ≤ (m.grid.get a).comp := by
        rw [UInt32.le_iff_toNat_le]; simpa using h1
      rw [UInt32.toNat_sub_of_le _ _ this]; rfl
    have hlt : (m.grid.get a).comp.toNat - 1 < comps.length := by omega
    simp only [List.foldl_cons]
    have hp : m.pushComponent (some comps) a =
        some (comps.set ((m.grid.get a).comp.toNat - 1)
          (comps[(m.grid.get a).comp.toNat - 1] ++ [a])) := by
      simp [pushComponent, hk, hlt]
    rw [hp]
    obtain ⟨r, hr, hlen, hget⟩ := ih (fun i hi => hl i (List.mem_cons_of_mem _ hi))
      (comps.set ((m.grid.get a).comp.toNat - 1) (comps[(m.grid.get a).comp.toNat - 1] ++ [a]))
      (by simpa using hc)
    refine ⟨r, hr, hlen, ?_⟩
    intro k hk1 hk2
    rw [hget k hk1 (by simpa using hk2), List.getElem_set]
    by_cases he : (m.grid.get a).comp.toNat - 1 = k
    · have : (m.grid.get a).comp.toNat = k + 1 := by omega
      have hb : ((m.grid.get a).comp.toNat == k + 1) = true := by simp [this]
      simp only [he, if_true, List.filter_cons, hb, List.append_assoc, List.singleton_append]
    · have : ¬ (m.grid.get a).comp.toNat = k + 1 := by omega
      simp [he, this]

end CMap

/-- C51.  After any history on a fresh map, `ExtractConnectedComponents` does not throw; it returns
one list per component, list `k` holding exactly the cells with label `k + 1` in scan order, where
the labels are the component labelling of the current occupancies. -/
theorem C51_extract_components (d : Dims) (hsz : d.size < 2 ^ 32) (dflt oob : CCell)
    (ops : List CMap.Op) :
    let m := (CMap.create d dflt oob).run ops
    ∃ m' comps lab, m.extractCC = some (m', comps) ∧ IsComponentLabelling m lab comps.length ∧
      ∀ k (hk : k < comps.length),
        (∀ i, i ∈ comps[k] ↔ InBounds d i ∧ lab i = k + 1) ∧
        comps[k].Pairwise (fun i j => d.lin i < d.lin j) := by
  intro m
  obtain ⟨h1, h2, h3⟩ := CMap.run_inv d hsz ops (CMap.create d dflt oob)
    ⟨Grid.wf_mk' d dflt oob, rfl, fun h => by simp [CMap.create] at h⟩
  have hup : ∃ m' n, m.updateCC = some (m', n) ∧ m.SameOcc m' ∧
      IsComponentLabelling m (fun i => ((m'.getImm i).1).comp.toNat) m'.nComp.toNat := by
    by_cases hv : m.valid = true
    · exact ⟨m, _, by simp only [CMap.updateCC, hv]; rfl, CMap.SameOcc.refl h1, h3 hv⟩
    · obtain ⟨m', n, ha, hb, hc, hd, he⟩ := m.updateCC_spec (by simpa using hv) h1
        (by rw [h2]; exact hsz)
      exact ⟨m', n, ha, hb, by rw [hc]; exact he⟩
  obtain ⟨m', n, hm', hs, hl⟩ := hup
  have hd : m'.dims = d := hs.2.1.trans h2
  have hmd : m.dims = d := h2
  obtain ⟨r, hr, hlen, hget⟩ := CMap.pushComponent_fold m' m'.nComp.toNat m'.dims.all
    (by
      intro i hi
      have : InBounds m.dims i := by
        rw [hmd, ← hd]; exact inB_iff_spec.mp (Dims.mem_all.mp hi)
      exact hl.range i this)
    (List.replicate m'.nComp.toNat []) (by simp)
  refine ⟨m', r, fun i => ((m'.getImm i).1).comp.toNat, ?_, by rw [hlen]; exact hl, ?_⟩
  · simp only [CMap.extractCC, hm', hr, Option.map_some]
  · intro k hk
    have hg := hget k hk (by simp; omega)
    simp only [List.getElem_replicate, List.nil_append] at hg
    rw [hg, hd]
    constructor
    · intro i
      simp only [List.mem_filter, Dims.mem_all, beq_iff_eq, inB_iff_spec]
      exact Iff.rfl
    · exact (Dims.pairwise_all d).sublist List.filter_sublist

example : ((CMap.create ⟨3, 1, 1⟩ ⟨0, 0⟩ ⟨0, 0⟩).run [.setValue ⟨1, 0, 0⟩ ⟨F32.one, 0⟩]).extractCC.map
    Prod.snd = some [[⟨0, 0, 0⟩], [⟨1, 0, 0⟩], [⟨2, 0, 0⟩]] := by decide

/-! ## C35: component surfaces by type -/

namespace CMap

theorem surfaceOf_insert (key : UInt32) (i : Idx) (ss : List (UInt32 × List Idx)) (k : UInt32) :
    ∀ j, j ∈ surfaceOf (insertSurface key i ss) k ↔ j ∈ surfaceOf ss k ∨ (k = key ∧ j = i) := by
  induction ss with
  | nil =>
    intro j
    by_cases h : key = k
    · subst h; simp [insertSurface, surfaceOf]
    · have h' : ¬ k = key := fun e => h e.symm
      simp [insertSurface, surfaceOf, h, h']
  | cons p ss ih =>
    intro j
    obtain ⟨a, s⟩ := p
    unfold insertSurface
    by_cases ha : a = key
    · subst ha
      simp only [if_true]
      by_cases hk : a = k
      · subst hk
        simp only [surfaceOf, List.find?_cons, beq_self_eq_true, Option.map_some, Option.getD_some,
          true_and]
        by_cases hi : i ∈ s
        · simp only [hi, if_true]
          constructor
          · exact Or.inl
          · rintro (h | h)
            · exact h
            · subst h; exact hi
        · simp [hi]
      · have h' : ¬ k = a := fun e => hk e.symm
        simp [surfaceOf, hk, h']
    · simp only [ha, if_false]
      by_cases hk : a = k
      · subst hk
        simp [surfaceOf, ha]
      · have := ih j
        simp only [surfaceOf] at this ⊢
        simpa [hk] using this

theorem mem_surfacesBy (m : CMap) (isSurf : Idx → Bool) (k : UInt32) (i : Idx) :
    i ∈ surfaceOf (m.surfacesBy isSurf) k ↔
      InBounds m.dims i ∧ isSurf i = true ∧ ((m.getImm i).1).comp = k := by
  have key : ∀ (l : List Idx) (acc : List (UInt32 × List Idx)),
      i ∈ surfaceOf (l.foldl (fun acc i =>
        if isSurf i then insertSurface (m.grid.get i).comp i acc else acc) acc) k ↔
      i ∈ surfaceOf acc k ∨ (i ∈ l ∧ isSurf i = true ∧ (m.grid.get i).comp = k) := by
    intro l
    induction l with
    | nil => intro acc; simp
    | cons a l ih =>
      intro acc
      simp only [List.foldl_cons]
      rw [ih]
      by_cases ha : isSurf a = true
      · simp only [ha, if_true, surfaceOf_insert, List.mem_cons]
        constructor
        · rintro ((h | ⟨h1, h2⟩) | ⟨h1, h2, h3⟩)
          · exact Or.inl h
          · subst h2; exact Or.inr ⟨Or.inl rfl, ha, h1.symm⟩
          · exact Or.inr ⟨Or.inr h1, h2, h3⟩
        · rintro (h | ⟨h1 | h1, h2, h3⟩)
          · exact Or.inl (Or.inl h)
          · subst h1; exact Or.inl (Or.inr ⟨h3.symm, rfl⟩)
          · exact Or.inr ⟨h1, h2, h3⟩
      · simp only [ha, List.mem_cons]
        constructor
        · rintro (h | ⟨h1, h2, h3⟩)
          · exact Or.inl h
          · exact Or.inr ⟨Or.inr h1, h2, h3⟩
        · rintro (h | ⟨h1 | h1, h2, h3⟩)
          · exact Or.inl h
          · subst h1; exact absurd h2 ha
          · exact Or.inr ⟨h1, h2, h3⟩
  unfold surfacesBy
  rw [key]
  simp [surfaceOf, Dims.mem_all, inB_iff_spec, getImm_of_inB]

end CMap

/-- A cell is a component-surface cell: on a grid face, or with a face neighbour of another label. -/
def IsComponentSurface (m : CMap) (i : Idx) : Prop :=
  OnFace m.dims i ∨
    ∃ j, InBounds m.dims j ∧ FaceAdj i j ∧ ((m.getImm j).1).comp ≠ ((m.getImm i).1).comp

/-- C35 (part: empty components).  The empty-component surfaces hold, under each label, exactly the
free component-surface cells with that label.  Missing: filled and unknown components, for which the
property is false (`C35_filled_surface_missed`, `C35_unknown_surface_missed`), and OOB cells whose
component is a label in use (C34). -/
theorem C35_empty_surfaces_partial (m : CMap)
    (hoob : ∀ j, InBounds m.dims j → ((m.getImm j).1).comp ≠ m.grid.oob.comp) (k : UInt32) (i : Idx) :
    i ∈ CMap.surfaceOf (m.extractSurfaces false true false) k ↔
      InBounds m.dims i ∧ ((m.getImm i).1).occ.ltHalf = true ∧ ((m.getImm i).1).comp = k ∧
        IsComponentSurface m i := by
  unfold CMap.extractSurfaces IsComponentSurface
  rw [CMap.mem_surfacesBy]
  constructor
  · rintro ⟨h1, h2, h3⟩
    have h4 := (C34_component_surface_partial m i h1 hoob)
    unfold CMap.typedSurface at h2
    by_cases hg : (m.grid.get i).occ.gtHalf = true
    · simp [hg] at h2
    · by_cases hl : (m.grid.get i).occ.ltHalf = true
      · simp [hg, hl] at h2
        exact ⟨h1, hl, h3, h4.mp h2⟩
      · simp [hg, hl] at h2
  · rintro ⟨h1, h2, h3, h4⟩
    have h5 := (C34_component_surface_partial m i h1 hoob).mpr h4
    refine ⟨h1, ?_, h3⟩
    have h2' : (m.grid.get i).occ.ltHalf = true := h2
    have hg : (m.grid.get i).occ.gtHalf = false := by
      rcases F32.trichotomy (m.grid.get i).occ with h | h | h | h <;> simp_all
    simp [CMap.typedSurface, hg, h2', h5]

/-- C35 is violated for filled components: in an all-filled 1×2×1 map the cell (0,1,0) is a filled
surface cell, but the filled surfaces do not contain it. -/
theorem C35_filled_surface_missed :
    ∃ (m0 m : CMap) (n : Nat) (i : Idx), m0.updateCC = some (m, n) ∧ InBounds m.dims i ∧
      ((m.getImm i).1).occ.gtHalf = true ∧ IsComponentSurface m i ∧
      i ∉ CMap.surfaceOf (m.extractSurfaces true false false) ((m.getImm i).1).comp := by
  refine ⟨CMap.create ⟨1, 2, 1⟩ ⟨F32.one, 0⟩ ⟨0, 0⟩,
    ⟨⟨⟨1, 2, 1⟩, [⟨F32.one, 1⟩, ⟨F32.one, 1⟩], ⟨F32.one, 0⟩, ⟨0, 0⟩⟩, 1, true⟩, 1, ⟨0, 1, 0⟩, ?_, ?_, ?_,
    ?_, ?_⟩
  · decide +kernel
  · unfold InBounds; decide
  · decide
  · left; unfold OnFace; decide
  · decide

/-- C35 is violated for unknown components: in an all-unknown 1×1×2 map the cell (0,0,1) is missing
from the unknown surfaces. -/
theorem C35_unknown_surface_missed :
    ∃ (m0 m : CMap) (n : Nat) (i : Idx), m0.updateCC = some (m, n) ∧ InBounds m.dims i ∧
      ((m.getImm i).1).occ.eqHalf = true ∧ IsComponentSurface m i ∧
      i ∉ CMap.surfaceOf (m.extractSurfaces false false true) ((m.getImm i).1).comp := by
  refine ⟨CMap.create ⟨1, 1, 2⟩ ⟨F32.half, 0⟩ ⟨0, 0⟩,
    ⟨⟨⟨1, 1, 2⟩, [⟨F32.half, 1⟩, ⟨F32.half, 1⟩], ⟨F32.half, 0⟩, ⟨0, 0⟩⟩, 1, true⟩, 1, ⟨0, 0, 1⟩, ?_, ?_,
    ?_, ?_, ?_⟩
  · decide +kernel
  · unfold InBounds; decide
  · decide
  · left; unfold OnFace; decide
  · decide

/-- The filled surfaces can also contain cells that are not surface cells: in an all-filled 3×4×4
map with a one-cell component at the wrong place, (1,1,2) is drawn because (1,1,1) is a surface
cell. -/
theorem C35_filled_surface_spurious :
    ∃ (m : CMap) (i : Idx), InBounds m.dims i ∧ ((m.getImm i).1).occ.gtHalf = true ∧
      ¬ IsComponentSurface m i ∧
      i ∈ CMap.surfaceOf (m.extractSurfaces true false false) ((m.getImm i).1).comp := by
  refine ⟨⟨(Grid.mk' ⟨3, 3, 5⟩ ⟨F32.one, 1⟩ ⟨0, 0⟩).set ⟨1, 1, 0⟩ ⟨0, 2⟩, 2, true⟩, ⟨1, 1, 2⟩,
    ?_, ?_, ?_, ?_⟩
  · unfold InBounds; decide
  · decide
  · rintro (h | ⟨j, hj, ha, hc⟩)
    · revert h; unfold OnFace; decide
    · have := CompFns.mem_faceNbrs_iff.mpr ha
      simp only [faceNbrs, List.mem_cons, List.not_mem_nil, or_false] at this
      apply hc
      rcases this with rfl | rfl | rfl | rfl | rfl | rfl <;> decide
  · decide +kernel

example : ∃ m : CMap, (∀ j, InBounds m.dims j → ((m.getImm j).1).comp ≠ m.grid.oob.comp) ∧
    (⟨0, 0, 0⟩ : Idx) ∈ CMap.surfaceOf (m.extractSurfaces false true false) 1 := by
  refine ⟨⟨Grid.mk' ⟨2, 1, 1⟩ ⟨0, 1⟩ ⟨0, 0⟩, 1, true⟩, ?_, ?_⟩
  · intro j hj
    have hb : (⟨2, 1, 1⟩ : Dims).inB j = true := inB_iff_spec.mpr hj
    rw [CMap.getImm_of_inB, Grid.get_mk']
    simp only [hb, if_true]
    decide
  · decide

/-! ## C39: resampling -/

section Resample

variable {K : Type} [Field K] [LinearOrder K] [IsStrictOrderedRing K] [FloorRing K]

theorem centreCell_self (r : K) (hr : 0 < r) (i : Idx) : CMap.centreCell r r i = i := by
  have key : ∀ a : Int, ⌊((a : K) + 1 / 2) * r / r⌋ = a := by
    intro a
    rw [mul_div_assoc, div_self (ne_of_gt hr), mul_one]
    rw [Int.floor_eq_iff]
    have h1 : (0 : K) < 1 / 2 := by norm_num
    have h2 : (1 : K) / 2 < 1 := by norm_num
    constructor
    · linarith
    · linarith
  simp only [CMap.centreCell, key]

namespace CMap

theorem resample_fold (m : CMap) (g : Idx → Idx) (l : List Idx) : ∀ (acc : CMap), acc.grid.WF →
    let r := l.foldl (fun acc i => (acc.setValue (g i) (m.grid.get i)).1) acc
    r.grid.WF ∧ r.grid.dims = acc.grid.dims ∧ r.grid.oob = acc.grid.oob ∧
    (∀ pre i suf, l = pre ++ i :: suf → (∀ j ∈ suf, g j ≠ g i) → acc.grid.dims.inB (g i) = true →
      r.grid.get (g i) = m.grid.get i) ∧
    (∀ c, (∀ j ∈ l, g j ≠ c) → r.grid.get c = acc.grid.get c) := by
  induction l with
  | nil =>
    intro acc h
    refine ⟨h, rfl, rfl, ?_, fun _ _ => rfl⟩
    intro pre i suf he
    simp at he
  | cons a l ih =>
    intro acc h
    obtain ⟨h1, h2, h3, h4, h5⟩ := ih (acc.setValue (g a) (m.grid.get a)).1 (setValue_wf h _ _)
    refine ⟨h1, h2.trans (setValue_dims _ _ _), h3.trans ?_, ?_, ?_⟩
    · unfold setValue; split <;> simp
    · intro pre i suf he hs hb
      cases pre with
      | nil =>
        simp only [List.nil_append, List.cons.injEq] at he
        obtain ⟨rfl, rfl⟩ := he
        simp only [List.foldl_cons]
        rw [h5 (g a) hs, setValue_get h]
        simp [hb]
      | cons p pre =>
        simp only [List.cons_append, List.cons.injEq] at he
        obtain ⟨rfl, rfl⟩ := he
        exact h4 pre i suf rfl hs (by simpa using hb)
    · intro c hc
      simp only [List.foldl_cons]
      rw [h5 c (fun j hj => hc j (List.mem_cons_of_mem _ hj)), setValue_get h]
      have := hc a (List.mem_cons_self ..)
      simp [this]

end CMap

/-- C39 (part: identity).  Resampling to the same resolution (so with the same cell counts) returns
every cell unchanged, in bounds and out of bounds. -/
theorem C39_resample_identity_partial (r : K) (hr : 0 < r) (m : CMap) (h : m.grid.WF) :
    (CMap.resample r r m.dims m).grid.data = m.grid.data ∧
      ∀ i, (CMap.resample r r m.dims m).getImm i = m.getImm i := by
  have hid : CMap.centreCell r r = id := by funext i; exact centreCell_self r hr i
  obtain ⟨h1, h2, h3, h4, h5⟩ := CMap.resample_fold m (CMap.centreCell r r) m.dims.all
    (CMap.create m.dims m.grid.oob m.grid.oob) (Grid.wf_mk' _ _ _)
  have hget : ∀ i, m.grid.dims.inB i = true →
      (CMap.resample r r m.dims m).grid.get i = m.grid.get i := by
    intro i hi
    have hmem : i ∈ m.dims.all := Dims.mem_all.mpr hi
    obtain ⟨pre, suf, he⟩ := List.append_of_mem hmem
    have hnd := Dims.nodup_all m.dims
    rw [he] at hnd
    have hni : i ∉ suf := by
      have := (List.nodup_append.mp hnd).2.1
      exact (List.nodup_cons.mp this).1
    have := h4 pre i suf he (by
      intro j hj e
      rw [hid] at e
      simp only [id] at e
      exact hni (e ▸ hj)) (by rw [hid]; exact hi)
    rw [hid] at this
    simpa [CMap.resample, hid] using this
  have hdims : (CMap.resample r r m.dims m).grid.dims = m.grid.dims := h2
  refine ⟨Grid.data_ext h1 h h2 (fun i hi => hget i (by rw [← hdims]; exact hi)), ?_⟩
  intro i
  by_cases hi : m.grid.dims.inB i = true
  · simp [CMap.getImm, Grid.getImm, hdims, hi, hget i hi]
  · simp only [Bool.not_eq_true] at hi
    have : (CMap.resample r r m.dims m).grid.oob = m.grid.oob := h3
    simp [CMap.getImm, Grid.getImm, Grid.get, hdims, hi, this]

omit [IsStrictOrderedRing K] in
/-- C39 (part: no obstacle is lost silently).  For every new resolution and new cell counts, the new
cell containing the centre of an old cell holds the value of that old cell, unless the centre of a
later old cell falls into the same new cell or the centre is outside the new grid. -/
theorem C39_resample_keeps_centres_partial (r r' : K) (d' : Dims) (m : CMap) (i : Idx)
    (hi : InBounds m.dims i) (hin : InBounds d' (CMap.centreCell r r' i))
    (hlast : ∀ j, InBounds m.dims j → m.dims.lin i < m.dims.lin j →
      CMap.centreCell r r' j ≠ CMap.centreCell r r' i) :
    (CMap.resample r r' d' m).getImm (CMap.centreCell r r' i) = ((m.getImm i).1, true) := by
  obtain ⟨h1, h2, h3, h4, h5⟩ := CMap.resample_fold m (CMap.centreCell r r') m.dims.all
    (CMap.create d' m.grid.oob m.grid.oob) (Grid.wf_mk' _ _ _)
  have hmem : i ∈ m.dims.all := Dims.mem_all.mpr (inB_iff_spec.mpr hi)
  obtain ⟨pre, suf, he⟩ := List.append_of_mem hmem
  have hpw := Dims.pairwise_all m.dims
  rw [he] at hpw
  have hb : d'.inB (CMap.centreCell r r' i) = true := inB_iff_spec.mpr hin
  have hg := h4 pre i suf he (by
    intro j hj
    refine hlast j (inB_iff_spec.mp (Dims.mem_all.mp (by rw [he]; simp [hj]))) ?_
    exact (List.pairwise_cons.mp (List.pairwise_append.mp hpw).2.1).1 j hj) hb
  have hd : (CMap.resample r r' d' m).grid.dims = d' := h2
  have hg' : (CMap.resample r r' d' m).grid.get (CMap.centreCell r r' i) = m.grid.get i := hg
  simp [CMap.getImm, Grid.getImm, hd, hb, hg']

omit [IsStrictOrderedRing K] in
/-- New cells that contain no old centre keep the OOB value of the old map. -/
theorem C39_resample_uncovered (r r' : K) (d' : Dims) (m : CMap) (c : Idx) (hc : InBounds d' c)
    (hno : ∀ j, InBounds m.dims j → CMap.centreCell r r' j ≠ c) :
    (CMap.resample r r' d' m).getImm c = (m.grid.oob, true) := by
  obtain ⟨h1, h2, h3, h4, h5⟩ := CMap.resample_fold m (CMap.centreCell r r') m.dims.all
    (CMap.create d' m.grid.oob m.grid.oob) (Grid.wf_mk' _ _ _)
  have hg := h5 c (fun j hj => hno j (inB_iff_spec.mp (Dims.mem_all.mp hj)))
  have hb : d'.inB c = true := inB_iff_spec.mpr hc
  have hd : (CMap.resample r r' d' m).grid.dims = d' := h2
  have hg' : (CMap.resample r r' d' m).grid.get c =
    (CMap.create d' m.grid.oob m.grid.oob).grid.get c := hg
  simp [CMap.getImm, Grid.getImm, hd, hb, hg', CMap.create, Grid.get_mk']

end Resample

/-- C39 is violated when resampling finer: halving the resolution of a one-cell filled map leaves new
cells that lie inside the old filled cell at the OOB value (free). -/
theorem C39_finer_leaves_holes :
    ∃ (m : CMap) (r r' : ℚ) (d' : Dims) (c : Idx), 0 < r' ∧ r' < r ∧ InBounds d' c ∧
      (∀ i, InBounds m.dims i → ((m.getImm i).1).occ.gtHalf = true) ∧
      (d'.nx : ℚ) * r' = m.dims.nx * r ∧ (d'.ny : ℚ) * r' = m.dims.ny * r ∧
      (d'.nz : ℚ) * r' = m.dims.nz * r ∧
      (((CMap.resample r r' d' m).getImm c).1).occ.gtHalf = false := by
  refine ⟨CMap.create ⟨1, 1, 1⟩ ⟨F32.one, 0⟩ ⟨0, 0⟩, 1, 1 / 2, ⟨2, 2, 2⟩, ⟨0, 0, 0⟩, by norm_num,
    by norm_num, ?_, ?_, ?_, ?_, ?_, ?_⟩
  · unfold InBounds; decide
  · intro i hi
    have hb : (⟨1, 1, 1⟩ : Dims).inB i = true := inB_iff_spec.mpr hi
    simp only [CMap.getImm_of_inB, CMap.create, Grid.get_mk', hb, if_true]
    decide
  · norm_num [CMap.create, CMap.dims, Grid.mk']
  · norm_num [CMap.create, CMap.dims, Grid.mk']
  · norm_num [CMap.create, CMap.dims, Grid.mk']
  · rw [C39_resample_uncovered]
    · decide
    · unfold InBounds; decide
    · intro j hj
      have hj' : j = ⟨0, 0, 0⟩ := by
        obtain ⟨x, y, z⟩ := j
        unfold InBounds CMap.dims CMap.create Grid.mk' at hj
        simp only [Nat.cast_one] at hj
        simp only [Idx.mk.injEq]; omega
      subst hj'
      have : CMap.centreCell (1 : ℚ) (1 / 2) ⟨0, 0, 0⟩ = ⟨1, 1, 1⟩ := by
        simp only [CMap.centreCell]; norm_num
      rw [this]; decide

example : ∃ (m : CMap) (i : Idx), m.grid.WF ∧ InBounds m.dims i ∧
    InBounds ⟨1, 1, 1⟩ (CMap.centreCell (1 : ℚ) 2 i) ∧
    (∀ j, InBounds m.dims j → m.dims.lin i < m.dims.lin j →
      CMap.centreCell (1 : ℚ) 2 j ≠ CMap.centreCell (1 : ℚ) 2 i) := by
  refine ⟨CMap.create ⟨2, 1, 1⟩ ⟨F32.one, 0⟩ ⟨0, 0⟩, ⟨1, 0, 0⟩, Grid.wf_mk' _ _ _, ?_, ?_, ?_⟩
  · unfold InBounds; decide
  · have : CMap.centreCell (1 : ℚ) 2 ⟨1, 0, 0⟩ = ⟨0, 0, 0⟩ := by
      simp only [CMap.centreCell]; norm_num
    rw [this]; unfold InBounds; decide
  · intro j hj hlt
    exfalso
    obtain ⟨x, y, z⟩ := j
    unfold InBounds CMap.dims CMap.create Grid.mk' at hj
    simp only [Dims.lin, CMap.dims, CMap.create, Grid.mk'] at hlt
    simp only [Nat.cast_one, Nat.cast_ofNat] at hj
    omega

/-! ## C45: display exports -/

/-- The classes of the display exports. -/
inductive CellClass | filled | free | unknown
deriving DecidableEq

/-- Class of a cell: occupied above 0.5, free below 0.5, unknown otherwise (0.5 or NaN). -/
def classOf (m : CMap) (i : Idx) : CellClass :=
  if ((m.getImm i).1).occ.gtHalf then .filled
  else if ((m.getImm i).1).occ.ltHalf then .free else .unknown

/-- Colour chosen for a class. -/
def colourOf (coll free unk : CMap.Colour) : CellClass → CMap.Colour
  | .filled => coll
  | .free => free
  | .unknown => unk

theorem displayFold (m : CMap) (coll free unk : CMap.Colour) (sel : Idx → Bool) (l : List Idx) :
    ∀ k : CMap.Marker,
    l.foldl (fun k i => if sel i then m.displayStep coll free unk k i else k) k =
      ⟨k.points ++ l.filter (fun i => sel i && (colourOf coll free unk (classOf m i)).visible),
       k.colours ++ (l.filter (fun i => sel i && (colourOf coll free unk (classOf m i)).visible)).map
        (fun i => colourOf coll free unk (classOf m i))⟩ := by
  induction l with
  | nil => intro k; simp
  | cons a l ih =>
    intro k
    simp only [List.foldl_cons]
    rw [ih]
    have hc : ∀ k : CMap.Marker, m.displayStep coll free unk k a =
        if (colourOf coll free unk (classOf m a)).visible
        then k.push a (colourOf coll free unk (classOf m a)) else k := by
      intro k
      simp only [CMap.displayStep, classOf, CMap.getImm_of_inB]
      by_cases h1 : (m.grid.get a).occ.gtHalf = true
      · simp only [h1, if_true, colourOf]
      · by_cases h2 : (m.grid.get a).occ.ltHalf = true <;> simp [h1, h2, colourOf]
    by_cases hs : sel a = true
    · by_cases hv : (colourOf coll free unk (classOf m a)).visible = true
      · simp [hs, hv, hc, CMap.Marker.push]
      · simp [hs, hv, hc]
    · simp [hs]

/-- C45.  `ExportForDisplay` emits, in scan order, one point and one colour for exactly the cells
whose class colour is visible. -/
theorem C45_export_for_display (m : CMap) (coll free unk : CMap.Colour) :
    let shown := m.dims.all.filter fun i => (colourOf coll free unk (classOf m i)).visible
    (m.exportForDisplay coll free unk).points = shown ∧
    (m.exportForDisplay coll free unk).colours =
      shown.map fun i => colourOf coll free unk (classOf m i) := by
  have := displayFold m coll free unk (fun _ => true) m.dims.all ⟨[], []⟩
  simp only [if_true, Bool.true_and, List.nil_append] at this
  unfold CMap.exportForDisplay
  rw [this]
  exact ⟨rfl, rfl⟩

/-- C45, separate display: the three markers list the filled, free and unknown cells, each in the
colour given for the class, and a class with an invisible colour is not shown. -/
theorem C45_separate_colours (m : CMap) (coll free unk : CMap.Colour) :
    ∃ a b c, m.exportSeparate coll free unk = [a, b, c] ∧
      a.points = m.dims.all.filter (fun i => classOf m i = .filled && coll.visible) ∧
      a.colours = a.points.map (fun _ => coll) ∧
      b.points = m.dims.all.filter (fun i => classOf m i = .free && free.visible) ∧
      b.colours = b.points.map (fun _ => free) ∧
      c.points = m.dims.all.filter (fun i => classOf m i = .unknown && unk.visible) ∧
      c.colours = c.points.map (fun _ => unk) := by
  refine ⟨_, _, _, rfl, ?_, ?_, ?_, ?_, ?_, ?_⟩
  case refine_2 | refine_4 | refine_6 =>
    rw [(C45_export_for_display m _ _ _).1, (C45_export_for_display m _ _ _).2]
    apply List.map_congr_left
    intro i hi
    have := (List.mem_filter.mp hi).2
    cases h : classOf m i <;> simp_all [colourOf, CMap.noColour]
  all_goals
    rw [(C45_export_for_display m _ _ _).1]
    apply List.filter_congr
    intro i _
    cases h : classOf m i <;> simp [colourOf, CMap.noColour]

/-- C45, separate display: with visible colours the three markers list the filled, free and unknown
cells; every cell of the grid is in exactly one of them, once. -/
theorem C45_separate_partition (m : CMap) (coll free unk : CMap.Colour) (hc : coll.visible = true)
    (hf : free.visible = true) (hu : unk.visible = true) :
    ∃ a b c, m.exportSeparate coll free unk = [a, b, c] ∧
      a.points = m.dims.all.filter (fun i => classOf m i = .filled) ∧
      b.points = m.dims.all.filter (fun i => classOf m i = .free) ∧
      c.points = m.dims.all.filter (fun i => classOf m i = .unknown) ∧
      (∀ i, InBounds m.dims i → (a.points ++ b.points ++ c.points).count i = 1) := by
  refine ⟨_, _, _, rfl, ?_, ?_, ?_, ?_⟩
  case refine_4 =>
    intro i hi
    rw [(C45_export_for_display m _ _ _).1, (C45_export_for_display m _ _ _).1,
      (C45_export_for_display m _ _ _).1]
    have hmem : i ∈ m.dims.all := Dims.mem_all.mpr (inB_iff_spec.mpr hi)
    have hcount : m.dims.all.count i = 1 := List.count_eq_one_of_mem (Dims.nodup_all _) hmem
    have hcf : ∀ p : Idx → Bool, (m.dims.all.filter p).count i = if p i = true then 1 else 0 := by
      intro p
      by_cases hp : p i = true
      · rw [List.count_filter hp, hcount]; simp [hp]
      · simp only [hp]
        refine List.count_eq_zero_of_not_mem ?_
        intro h
        exact hp (List.mem_filter.mp h).2
    simp only [List.count_append, hcf]
    cases h : classOf m i <;> simp [colourOf, CMap.noColour, hc, hf, hu]
  all_goals
    rw [(C45_export_for_display m _ _ _).1]
    apply List.filter_congr
    intro i _
    cases h : classOf m i <;> simp [colourOf, CMap.noColour, hc, hf, hu]

/-- C45, component display: one point and one colour per cell, in scan order. -/
theorem C45_component_display (m : CMap) (gen : UInt32 → CMap.Colour) (grey : CMap.Colour)
    (cu : Bool) :
    (m.exportComponents gen grey cu).points = m.dims.all ∧
    (m.exportComponents gen grey cu).colours = m.dims.all.map (fun i =>
      if ((m.getImm i).1).occ = F32.half ∧ cu = false then grey else gen ((m.getImm i).1).comp) := by
  have key : ∀ (f : Idx → CMap.Colour) (l : List Idx) (k : CMap.Marker),
      l.foldl (fun k i => k.push i (f i)) k = ⟨k.points ++ l, k.colours ++ l.map f⟩ := by
    intro f l
    induction l with
    | nil => intro k; simp
    | cons a l ih => intro k; simp only [List.foldl_cons, ih]; simp [CMap.Marker.push]
  unfold CMap.exportComponents
  rw [key]
  simp only [List.nil_append, true_and]
  apply List.map_congr_left
  intro i _
  simp only [F32.eqHalf, CMap.getImm_of_inB]
  by_cases h : (m.grid.get i).occ = F32.half <;> cases cu <;> simp [h]

example : (exMap.exportSeparate ⟨true, 1⟩ ⟨true, 2⟩ ⟨true, 3⟩).map CMap.Marker.points =
    [[⟨1, 0, 0⟩], [⟨0, 0, 0⟩], [⟨2, 0, 0⟩]] := by decide

/-! ## C52: the occupancy-surface test and the surface export -/

/-- Two cells touch (26-neighbourhood). -/
def Touch (i j : Idx) : Prop :=
  i ≠ j ∧ |i.x - j.x| ≤ 1 ∧ |i.y - j.y| ≤ 1 ∧ |i.z - j.z| ≤ 1

theorem isSurface_iff (m : CMap) (i : Idx) :
    m.isSurface i = true ↔ InBounds m.dims i ∧ ∃ j, InBounds m.dims j ∧ Touch i j ∧
      (((m.grid.get i).occ.ltHalf = true ∧
          ((m.grid.get j).occ.gtHalf = true ∨ (m.grid.get j).occ.eqHalf = true)) ∨
        ((m.grid.get i).occ.gtHalf = true ∧
          ((m.grid.get j).occ.ltHalf = true ∨ (m.grid.get j).occ.eqHalf = true)) ∨
        ((m.grid.get i).occ.eqHalf = true ∧ ¬ (m.grid.get j).occ.eqHalf = true)) := by
  have hrng : ∀ (lo hi a : Int),
      (a ∈ (List.range (hi - lo + 1).toNat).map fun (k : Nat) => lo + (k : Int)) ↔ lo ≤ a ∧ a ≤ hi := by
    intro lo hi a
    simp only [List.mem_map, List.mem_range]
    constructor
    · rintro ⟨k, hk, rfl⟩; omega
    · rintro ⟨h1, h2⟩; exact ⟨(a - lo).toNat, by omega, by omega⟩
  by_cases hb : m.grid.dims.inB i = true
  · have hi : InBounds m.dims i := inB_iff_spec.mp hb
    simp only [CMap.isSurface, hb, if_true, List.any_eq_true, hrng, hi, true_and,
      Bool.and_eq_true, Bool.or_eq_true, bne_iff_ne, Bool.not_eq_true', ne_eq]
    have habs : ∀ a b : Int, |a - b| ≤ 1 ↔ (b - 1 ≤ a ∧ a ≤ b + 1) := by
      intro a b; rw [abs_le]; omega
    constructor
    · rintro ⟨x, hx, y, hy, z, hz, hne, hcl⟩
      refine ⟨⟨x, y, z⟩, ?_, ⟨?_, ?_, ?_, ?_⟩, ?_⟩
      · unfold InBounds CMap.dims; simp only; omega
      · intro e; rw [e] at hne; simp at hne
      · rw [habs]; simp only; omega
      · rw [habs]; simp only; omega
      · rw [habs]; simp only; omega
      · simpa [or_assoc] using hcl
    · rintro ⟨⟨x, y, z⟩, hj, ⟨hne, hx, hy, hz⟩, hcl⟩
      rw [habs] at hx hy hz
      unfold InBounds CMap.dims at hj
      simp only at hx hy hz hj
      refine ⟨x, by omega, y, by omega, z, by omega, ?_, ?_⟩
      · by_contra hcon
        apply hne
        push Not at hcon
        obtain ⟨a, b, c⟩ := i
        simp only [Idx.mk.injEq]
        simp only at hcon
        tauto
      · simpa [or_assoc] using hcl
  · have hi : ¬ InBounds m.dims i := fun h => hb (inB_iff_spec.mpr h)
    simp [CMap.isSurface, hb, hi]

/-- C52.  On maps without NaN occupancies, `IsSurfaceIndex` (observable through
`ExportSurfacesForDisplay`) selects exactly the cells of the grid that touch a cell of another
class. -/
theorem C52_surface_export (m : CMap) (coll free unk : CMap.Colour)
    (hnan : ∀ i, InBounds m.dims i → ((m.getImm i).1).occ.isNaN = false) :
    let shown := m.dims.all.filter fun i => (colourOf coll free unk (classOf m i)).visible
    (m.exportSurfaces coll free unk).colours =
      (m.exportSurfaces coll free unk).points.map (fun i => colourOf coll free unk (classOf m i)) ∧
    (m.exportSurfaces coll free unk).points.Sublist shown ∧
    ∀ i, i ∈ (m.exportSurfaces coll free unk).points ↔
      i ∈ shown ∧ ∃ j, InBounds m.dims j ∧ Touch i j ∧ classOf m j ≠ classOf m i := by
  have hD := displayFold m coll free unk m.isSurface m.dims.all ⟨[], []⟩
  simp only [List.nil_append] at hD
  unfold CMap.exportSurfaces
  rw [hD]
  refine ⟨rfl, ?_, ?_⟩
  · rw [show (fun i => m.isSurface i && (colourOf coll free unk (classOf m i)).visible) =
      (fun i => (fun a => m.isSurface a) i && (fun a => (colourOf coll free unk (classOf m a)).visible) i)
      from rfl, ← List.filter_filter]
    exact List.filter_sublist
  · intro i
    simp only [List.mem_filter, Bool.and_eq_true, Dims.mem_all, inB_iff_spec]
    have hcls : ∀ j, InBounds m.dims j →
        ((classOf m j = .filled ↔ (m.grid.get j).occ.gtHalf = true) ∧
        (classOf m j = .free ↔ (m.grid.get j).occ.ltHalf = true) ∧
        (classOf m j = .unknown ↔ (m.grid.get j).occ.eqHalf = true)) := by
      intro j hj
      have hn := hnan j hj
      simp only [CMap.getImm_of_inB] at hn
      rcases F32.trichotomy (m.grid.get j).occ with h | h | h | h <;>
        simp_all [classOf, CMap.getImm_of_inB]
    constructor
    · rintro ⟨hi, hs, hv⟩
      obtain ⟨_, j, hj, ht, hc⟩ := (isSurface_iff m i).mp hs
      refine ⟨⟨hi, hv⟩, j, hj, ht, ?_⟩
      obtain ⟨a1, a2, a3⟩ := hcls i hi
      obtain ⟨b1, b2, b3⟩ := hcls j hj
      rw [← a1, ← a2, ← a3, ← b1, ← b2, ← b3] at hc
      intro e
      rw [e] at hc
      cases h : classOf m i <;> simp [h] at hc
    · rintro ⟨⟨hi, hv⟩, j, hj, ht, hc⟩
      refine ⟨hi, (isSurface_iff m i).mpr ⟨hi, j, hj, ht, ?_⟩, hv⟩
      obtain ⟨a1, a2, a3⟩ := hcls i hi
      obtain ⟨b1, b2, b3⟩ := hcls j hj
      rw [← a1, ← a2, ← a3, ← b1, ← b2, ← b3]
      cases h : classOf m i <;> cases h' : classOf m j <;> simp_all

example : (∀ i, InBounds exMap.dims i → ((exMap.getImm i).1).occ.isNaN = false) ∧
    (exMap.exportSurfaces ⟨true, 1⟩ ⟨true, 2⟩ ⟨false, 3⟩).points = [⟨0, 0, 0⟩, ⟨1, 0, 0⟩] := by
  constructor
  · intro i hi
    have hmem := Dims.mem_all.mpr (inB_iff_spec.mpr hi)
    have : ∀ i ∈ exMap.dims.all, ((exMap.getImm i).1).occ.isNaN = false := by decide
    exact this i hmem
  · decide

/-- C52, separate surface display: on maps without NaN occupancies the three markers show, in the
colour given for the class, the filled, free and unknown cells that touch a cell of another class. -/
theorem C52_separate_surfaces (m : CMap) (coll free unk : CMap.Colour)
    (hnan : ∀ i, InBounds m.dims i → ((m.getImm i).1).occ.isNaN = false) :
    ∃ a b c, m.exportSurfacesSeparate coll free unk = [a, b, c] ∧
      ∀ k cl col, (k, cl, col) ∈ [(a, CellClass.filled, coll), (b, CellClass.free, free),
          (c, CellClass.unknown, unk)] →
        k.colours = k.points.map (fun _ => col) ∧ k.points.Sublist m.dims.all ∧
        ∀ i, i ∈ k.points ↔ InBounds m.dims i ∧ classOf m i = cl ∧ col.visible = true ∧
          ∃ j, InBounds m.dims j ∧ Touch i j ∧ classOf m j ≠ cl := by
  refine ⟨_, _, _, rfl, ?_⟩
  intro k cl col hk
  have main : ∀ x y z : CMap.Colour, (∀ q, q ≠ cl → (colourOf x y z q).visible = false) →
      colourOf x y z cl = col → k = m.exportSurfaces x y z →
      k.colours = k.points.map (fun _ => col) ∧ k.points.Sublist m.dims.all ∧
        ∀ i, i ∈ k.points ↔ InBounds m.dims i ∧ classOf m i = cl ∧ col.visible = true ∧
          ∃ j, InBounds m.dims j ∧ Touch i j ∧ classOf m j ≠ cl := by
    rintro x y z hq hcl rfl
    obtain ⟨h1, h2, h3⟩ := C52_surface_export m x y z hnan
    have hi : ∀ i, i ∈ (m.exportSurfaces x y z).points → classOf m i = cl := by
      intro i hi
      have hv := (List.mem_filter.mp ((h3 i).mp hi).1).2
      by_contra hne
      rw [hq _ hne] at hv
      simp at hv
    refine ⟨?_, h2.trans List.filter_sublist, ?_⟩
    · rw [h1]
      apply List.map_congr_left
      intro i hmem
      rw [hi i hmem, hcl]
    · intro i
      constructor
      · intro hmem
        have hc := hi i hmem
        obtain ⟨hs, j, hj, ht, hne⟩ := (h3 i).mp hmem
        obtain ⟨ha, hv⟩ := List.mem_filter.mp hs
        rw [hc] at hne
        rw [hc, hcl] at hv
        exact ⟨inB_iff_spec.mp (Dims.mem_all.mp ha), hc, hv, j, hj, ht, hne⟩
      · rintro ⟨hb, hc, hv, j, hj, ht, hne⟩
        refine (h3 i).mpr ⟨List.mem_filter.mpr ⟨Dims.mem_all.mpr (inB_iff_spec.mpr hb), ?_⟩, j, hj, ht, ?_⟩
        · rw [hc, hcl]; exact hv
        · rw [hc]; exact hne
  simp only [List.mem_cons, Prod.mk.injEq, List.not_mem_nil, or_false] at hk
  rcases hk with ⟨h, rfl, rfl⟩ | ⟨h, rfl, rfl⟩ | ⟨h, rfl, rfl⟩
  · exact main _ _ _ (by rintro (_ | _ | _) hne <;> simp_all [colourOf, CMap.noColour]) rfl h
  · exact main _ _ _ (by rintro (_ | _ | _) hne <;> simp_all [colourOf, CMap.noColour]) rfl h
  · exact main _ _ _ (by rintro (_ | _ | _) hne <;> simp_all [colourOf, CMap.noColour]) rfl h

example : (∀ i, InBounds exMap.dims i → ((exMap.getImm i).1).occ.isNaN = false) ∧
    (exMap.exportSurfacesSeparate ⟨true, 1⟩ ⟨false, 2⟩ ⟨true, 3⟩) =
      [⟨[⟨1, 0, 0⟩], [⟨true, 1⟩]⟩, ⟨[], []⟩, ⟨[⟨2, 0, 0⟩], [⟨true, 3⟩]⟩] := by
  refine ⟨?_, by decide⟩
  intro i hi
  have : ∀ i ∈ exMap.dims.all, ((exMap.getImm i).1).occ.isNaN = false := by decide
  exact this i (Dims.mem_all.mpr (inB_iff_spec.mpr hi))

/-- With NaN the test is asymmetric: a NaN cell is never a surface cell although its neighbour of
another class is missed as well. -/
theorem C52_nan_not_surface : ∃ (m : CMap) (i j : Idx), InBounds m.dims i ∧ InBounds m.dims j ∧
    Touch i j ∧ classOf m i ≠ classOf m j ∧ m.isSurface i = false ∧ m.isSurface j = false := by
  refine ⟨⟨⟨⟨2, 1, 1⟩, [⟨F32.nan, 0⟩, ⟨F32.one, 0⟩], ⟨0, 0⟩, ⟨0, 0⟩⟩, 0, false⟩, ⟨0, 0, 0⟩, ⟨1, 0, 0⟩,
    ?_, ?_, ?_, ?_, ?_, ?_⟩
  · unfold InBounds; decide
  · unfold InBounds; decide
  · unfold Touch; decide
  · decide
  · decide
  · decide

end Verif
