import Verif.TaggedExports
import Verif.Props.Tagged

/-!
# Properties of resampling and surface display (C39, C77, C78)
-/

namespace Verif

open Spec

/-! ## C39, C77: resampling -/

section Resample

variable {K : Type} [Field K] [LinearOrder K] [IsStrictOrderedRing K] [FloorRing K]

/-- Along one axis the cell of a centre is determined by multiplying with `r / r'`. -/
theorem centre_axis_inj {r r' : K} (hr' : 0 < r') (h : r' ≤ r) {a b : Int}
    (e : ⌊((a : K) + 1 / 2) * r / r'⌋ = ⌊((b : K) + 1 / 2) * r / r'⌋) : a = b := by
  have key : ∀ a b : Int, a < b → ⌊((a : K) + 1 / 2) * r / r'⌋ < ⌊((b : K) + 1 / 2) * r / r'⌋ := by
    intro a b hab
    have hab' : (a : K) + 1 ≤ b := by exact_mod_cast hab
    have hq : 1 ≤ r / r' := by rw [le_div_iff₀ hr']; linarith
    have h1 : ((a : K) + 1 / 2) * r / r' + 1 ≤ ((b : K) + 1 / 2) * r / r' := by
      rw [mul_div_assoc, mul_div_assoc]
      nlinarith
    have h2 : ⌊((a : K) + 1 / 2) * r / r' + 1⌋ ≤ ⌊((b : K) + 1 / 2) * r / r'⌋ := Int.floor_mono h1
    rw [Int.floor_add_one] at h2
    omega
  rcases lt_trichotomy a b with hl | hl | hl
  · exact absurd e (ne_of_lt (key a b hl))
  · exact hl
  · exact absurd e (ne_of_gt (key b a hl))

/-- When resampling to the same or a finer resolution no two old centres share a new cell. -/
theorem centreCell_injective {r r' : K} (hr' : 0 < r') (h : r' ≤ r) :
    Function.Injective (CMap.centreCell r r') := by
  intro i j e
  obtain ⟨x, y, z⟩ := i
  obtain ⟨x', y', z'⟩ := j
  simp only [CMap.centreCell, Idx.mk.injEq] at e
  obtain ⟨e1, e2, e3⟩ := e
  rw [centre_axis_inj hr' h e1, centre_axis_inj hr' h e2, centre_axis_inj hr' h e3]

/-- If the new grid is at least as large as the old one, every old centre is inside it. -/
theorem centreCell_inB {r r' : K} (hr : 0 < r) (hr' : 0 < r') {d d' : Dims}
    (hx : (d.nx : K) * r ≤ d'.nx * r') (hy : (d.ny : K) * r ≤ d'.ny * r')
    (hz : (d.nz : K) * r ≤ d'.nz * r') {i : Idx} (hi : InBounds d i) :
    InBounds d' (CMap.centreCell r r' i) := by
  have ax : ∀ (n n' : Nat) (a : Int), (n : K) * r ≤ n' * r' → 0 ≤ a → a < n →
      0 ≤ ⌊((a : K) + 1 / 2) * r / r'⌋ ∧ ⌊((a : K) + 1 / 2) * r / r'⌋ < n' := by
    intro n n' a h h0 h1
    have h0' : (0 : K) ≤ a := by exact_mod_cast h0
    have h1' : (a : K) + 1 ≤ n := by exact_mod_cast h1
    constructor
    · exact Int.floor_nonneg.mpr (div_nonneg (mul_nonneg (by linarith) hr.le) hr'.le)
    · rw [Int.floor_lt, div_lt_iff₀ hr']
      have : ((a : K) + 1 / 2) * r < n * r := mul_lt_mul_of_pos_right (by linarith) hr
      push_cast
      linarith
  obtain ⟨⟨x0, x1⟩, ⟨y0, y1⟩, z0, z1⟩ := hi
  exact ⟨ax _ _ _ hx x0 x1, ax _ _ _ hy y0 y1, ax _ _ _ hz z0 z1⟩

/-- C39 (part: finer).  Resampling to the same or a finer resolution onto a grid that covers the old
one loses no cell: the new cell at the centre of every old cell holds that cell's value. -/
theorem C39_finer_keeps_every_cell_partial (r r' : K) (hr' : 0 < r') (h : r' ≤ r) (d' : Dims) (m : CMap)
    (hx : (m.dims.nx : K) * r ≤ d'.nx * r') (hy : (m.dims.ny : K) * r ≤ d'.ny * r')
    (hz : (m.dims.nz : K) * r ≤ d'.nz * r') (i : Idx) (hi : InBounds m.dims i) :
    (CMap.resample r r' d' m).getImm (CMap.centreCell r r' i) = ((m.getImm i).1, true) := by
  refine C39_resample_keeps_centres_partial r r' d' m i hi
    (centreCell_inB (lt_of_lt_of_le hr' h) hr' hx hy hz hi) ?_
  intro j _ hlt e
  have := centreCell_injective hr' h e
  subst this
  exact absurd hlt (lt_irrefl _)

namespace TMap

omit [IsStrictOrderedRing K] in
theorem resample_fold (m : TMap) (g : Idx → Idx) (l : List Idx) : ∀ (acc : TMap), acc.grid.WF →
    let r := l.foldl (fun acc i => (acc.setValue (g i) (m.grid.get i)).1) acc
    r.grid.WF ∧ r.grid.dims = acc.grid.dims ∧ r.grid.oob = acc.grid.oob ∧
    r.nComp = acc.nComp ∧ r.nSeg = acc.nSeg ∧ r.segValid = acc.segValid ∧
    (acc.valid = false → r.valid = false) ∧
    (∀ pre i suf, l = pre ++ i :: suf → (∀ j ∈ suf, g j ≠ g i) → acc.grid.dims.inB (g i) = true →
      r.grid.get (g i) = m.grid.get i) ∧
    (∀ c, (∀ j ∈ l, g j ≠ c) → r.grid.get c = acc.grid.get c) := by
  induction l with
  | nil =>
    intro acc h
    refine ⟨h, rfl, rfl, rfl, rfl, rfl, fun h => h, ?_, fun _ _ => rfl⟩
    intro pre i suf he
    simp at he
  | cons a l ih =>
    intro acc h
    obtain ⟨h1, h2, h3, n1, n2, n3, n4, h4, h5⟩ :=
      ih (acc.setValue (g a) (m.grid.get a)).1 (setValue_wf h _ _)
    refine ⟨h1, h2.trans (setValue_dims _ _ _), h3.trans ?_, n1.trans ?_, n2.trans ?_, n3.trans ?_,
      ?_, ?_, ?_⟩
    · unfold setValue; split <;> simp
    · unfold setValue; split <;> simp
    · unfold setValue; split <;> simp
    · unfold setValue; split <;> simp
    · intro hv
      refine n4 ?_
      unfold setValue; split <;> simp [hv]
    · intro pre i suf he hs hb
      cases pre with
      | nil =>
        simp only [List.nil_append, List.cons.injEq] at he
        obtain ⟨rfl, rfl⟩ := he
        simp only [List.foldl_cons]
        rw [h5 (g a) hs, setValue_get h]
        simp [hb]
      | cons p pre =>
        simp only [List.cons_append, List.cons.injEq] at he
        obtain ⟨rfl, rfl⟩ := he
        exact h4 pre i suf rfl hs (by simpa using hb)
    · intro c hc
      simp only [List.foldl_cons]
      rw [h5 c (fun j hj => hc j (List.mem_cons_of_mem _ hj)), setValue_get h]
      have := hc a (List.mem_cons_self ..)
      simp [this]

end TMap

/-- The last cell in scan order, if any, whose image under `g` is `c`. -/
theorem last_preimage (d : Dims) (g : Idx → Idx) (c : Idx) :
    (∀ j, InBounds d j → g j ≠ c) ∨
    ∃ i, InBounds d i ∧ g i = c ∧ (∀ j, InBounds d j → d.lin i < d.lin j → g j ≠ c) ∧
      ∃ pre suf, d.all = pre ++ i :: suf ∧ ∀ j ∈ suf, g j ≠ g i := by
  by_cases h : ∀ j, InBounds d j → g j ≠ c
  · exact Or.inl h
  · right
    have h' : ∃ j ∈ d.all, g j = c := by
      by_contra hn
      exact h fun j hj e => hn ⟨j, Dims.mem_all.mpr (inB_iff_spec.mpr hj), e⟩
    have split : ∀ l : List Idx, (∃ j ∈ l, g j = c) →
        ∃ pre i suf, l = pre ++ i :: suf ∧ g i = c ∧ ∀ j ∈ suf, g j ≠ c := by
      intro l
      induction l with
      | nil => rintro ⟨j, hj, _⟩; simp at hj
      | cons a l ih =>
        intro hex
        by_cases hl : ∃ j ∈ l, g j = c
        · obtain ⟨pre, i, suf, e, hi, hs⟩ := ih hl
          exact ⟨a :: pre, i, suf, by simp [e], hi, hs⟩
        · obtain ⟨j, hj, hjc⟩ := hex
          rcases List.mem_cons.mp hj with rfl | hj
          · exact ⟨[], j, l, rfl, hjc, fun k hk e => hl ⟨k, hk, e⟩⟩
          · exact absurd ⟨j, hj, hjc⟩ hl
    obtain ⟨pre, i, suf, e, hi, hs⟩ := split d.all h'
    have hmem : i ∈ d.all := by rw [e]; simp
    refine ⟨i, inB_iff_spec.mp (Dims.mem_all.mp hmem), hi, ?_, pre, suf, e, fun j hj => hi ▸ hs j hj⟩
    intro j hj hlt hjc
    have hjm : j ∈ d.all := Dims.mem_all.mpr (inB_iff_spec.mpr hj)
    have hpw := Dims.pairwise_all d
    rw [e] at hpw hjm
    rcases List.mem_append.mp hjm with hp | hp
    · have := (List.pairwise_append.mp hpw).2.2 j hp i (by simp)
      omega
    · rcases List.mem_cons.mp hp with rfl | hp
      · omega
      · exact hs j hp hjc

omit [IsStrictOrderedRing K] in
/-- C77 (content).  For every new resolution and new cell counts, a cell of the resampled map holds a
whole copy (occupancy, object id and labels) of the last old cell, in scan order, whose centre it
contains; a cell that contains no old centre holds the old map's out-of-bounds value.  Queries outside
the new grid give the old out-of-bounds value. -/
theorem C77_resample_cells (junk : Bool) (r r' : K) (d' : Dims) (m : TMap) (c : Idx) :
    (InBounds d' c →
      (∃ i, InBounds m.dims i ∧ CMap.centreCell r r' i = c ∧
        (∀ j, InBounds m.dims j → m.dims.lin i < m.dims.lin j → CMap.centreCell r r' j ≠ c) ∧
        (TMap.resample junk r r' d' m).getImm c = ((m.getImm i).1, true)) ∨
      ((∀ j, InBounds m.dims j → CMap.centreCell r r' j ≠ c) ∧
        (TMap.resample junk r r' d' m).getImm c = (m.grid.oob, true))) ∧
    (¬ InBounds d' c → (TMap.resample junk r r' d' m).getImm c = (m.grid.oob, false)) := by
  obtain ⟨h1, h2, h3, n1, n2, n3, n4, h4, h5⟩ := TMap.resample_fold m (CMap.centreCell r r') m.dims.all
    (TMap.create junk d' m.grid.oob m.grid.oob) (Grid.wf_mk' _ _ _)
  have hd : (TMap.resample junk r r' d' m).grid.dims = d' := h2
  have ho : (TMap.resample junk r r' d' m).grid.oob = m.grid.oob := h3
  constructor
  · intro hc
    have hb : d'.inB c = true := inB_iff_spec.mpr hc
    rcases last_preimage m.dims (CMap.centreCell r r') c with hno | ⟨i, hi, hic, hlast, pre, suf, e, hs⟩
    · right
      refine ⟨hno, ?_⟩
      have hg : (TMap.resample junk r r' d' m).grid.get c =
          (TMap.create junk d' m.grid.oob m.grid.oob).grid.get c :=
        h5 c (fun j hj => hno j (inB_iff_spec.mp (Dims.mem_all.mp hj)))
      simp [TMap.getImm, Grid.getImm, hd, hb, hg, TMap.create, Grid.get_mk']
    · left
      refine ⟨i, hi, hic, hlast, ?_⟩
      have hg : (TMap.resample junk r r' d' m).grid.get (CMap.centreCell r r' i) = m.grid.get i :=
        h4 pre i suf e hs (by rw [hic]; exact hb)
      rw [hic] at hg
      have hib : m.grid.dims.inB i = true := inB_iff_spec.mpr hi
      simp [TMap.getImm, Grid.getImm, hd, hb, hg, hib]
  · intro hc
    have hb : d'.inB c = false := by
      cases h : d'.inB c with
      | false => rfl
      | true => exact absurd (inB_iff_spec.mp h) hc
    simp [TMap.getImm, Grid.getImm, Grid.get, hd, hb, ho]

omit [IsStrictOrderedRing K] in
/-- C77 (no new objects).  Every object id in the resampled map is an object id of the old map or the
one of its out-of-bounds value. -/
theorem C77_no_new_objects (junk : Bool) (r r' : K) (d' : Dims) (m : TMap) (c : Idx) :
    ((TMap.resample junk r r' d' m).getImm c).1.obj = m.grid.oob.obj ∨
    ∃ i, InBounds m.dims i ∧
      ((TMap.resample junk r r' d' m).getImm c).1.obj = ((m.getImm i).1).obj := by
  by_cases hc : InBounds d' c
  · rcases (C77_resample_cells junk r r' d' m c).1 hc with ⟨i, hi, _, _, e⟩ | ⟨_, e⟩
    · exact Or.inr ⟨i, hi, by rw [e]⟩
    · exact Or.inl (by rw [e])
  · exact Or.inl (by rw [(C77_resample_cells junk r r' d' m c).2 hc])

omit [IsStrictOrderedRing K] in
/-- C77 (flags).  The labels copied from the old map are not reported as valid components, whatever the
old map's flag was. -/
theorem C77_components_not_valid (junk : Bool) (r r' : K) (d' : Dims) (m : TMap) :
    (TMap.resample junk r r' d' m).getNumCC = (0, false) := by
  obtain ⟨h1, h2, h3, n1, n2, n3, n4, h4, h5⟩ := TMap.resample_fold m (CMap.centreCell r r') m.dims.all
    (TMap.create junk d' m.grid.oob m.grid.oob) (Grid.wf_mk' _ _ _)
  have e1 : (TMap.resample junk r r' d' m).nComp = 0 := n1
  have e2 : (TMap.resample junk r r' d' m).valid = false := n4 rfl
  simp [TMap.getNumCC, e1, e2]

/-- C77 (finer).  Resampling to the same or a finer resolution onto a grid that covers the old one keeps
every cell, with its object id. -/
theorem C77_finer_keeps_every_cell (junk : Bool) (r r' : K) (hr' : 0 < r') (h : r' ≤ r) (d' : Dims)
    (m : TMap) (hx : (m.dims.nx : K) * r ≤ d'.nx * r') (hy : (m.dims.ny : K) * r ≤ d'.ny * r')
    (hz : (m.dims.nz : K) * r ≤ d'.nz * r') (i : Idx) (hi : InBounds m.dims i) :
    (TMap.resample junk r r' d' m).getImm (CMap.centreCell r r' i) = ((m.getImm i).1, true) := by
  have hin := centreCell_inB (lt_of_lt_of_le hr' h) hr' hx hy hz hi
  rcases (C77_resample_cells junk r r' d' m (CMap.centreCell r r' i)).1 hin with
    ⟨j, _, hj, _, e⟩ | ⟨hno, _⟩
  · rw [e, centreCell_injective hr' h hj]
  · exact absurd rfl (hno i hi)

end Resample

/-- C39 is violated when resampling coarser: a filled cell disappears when the centre of a later free
cell falls into the same new cell. -/
theorem C39_coarser_loses_obstacle :
    ∃ (m : CMap) (r r' : ℚ) (d' : Dims), 0 < r ∧ r < r' ∧
      (d'.nx : ℚ) * r' = m.dims.nx * r ∧ (m.dims.ny : ℚ) * r ≤ d'.ny * r' ∧
      (m.dims.nz : ℚ) * r ≤ d'.nz * r' ∧
      (∃ i, InBounds m.dims i ∧ ((m.getImm i).1).occ.gtHalf = true) ∧
      ∀ c, (((CMap.resample r r' d' m).getImm c).1).occ.gtHalf = false := by
  have hc0 : CMap.centreCell (1 : ℚ) 2 ⟨0, 0, 0⟩ = ⟨0, 0, 0⟩ := by
    simp only [CMap.centreCell]; norm_num
  have hc1 : CMap.centreCell (1 : ℚ) 2 ⟨1, 0, 0⟩ = ⟨0, 0, 0⟩ := by
    simp only [CMap.centreCell]; norm_num
  refine ⟨((CMap.create ⟨2, 1, 1⟩ ⟨0, 0⟩ ⟨0, 0⟩).setValue ⟨0, 0, 0⟩ ⟨F32.one, 0⟩).1, 1, 2, ⟨1, 1, 1⟩,
    by norm_num, by norm_num, ?_, ?_, ?_, ⟨⟨0, 0, 0⟩, ?_, ?_⟩, ?_⟩
  · simp only [CMap.dims, CMap.setValue_dims, CMap.create, Grid.mk']; norm_num
  · simp only [CMap.dims, CMap.setValue_dims, CMap.create, Grid.mk']; norm_num
  · simp only [CMap.dims, CMap.setValue_dims, CMap.create, Grid.mk']; norm_num
  · unfold InBounds; decide
  · decide +kernel
  · have e : CMap.resample (1 : ℚ) 2 ⟨1, 1, 1⟩
        ((CMap.create ⟨2, 1, 1⟩ ⟨0, 0⟩ ⟨0, 0⟩).setValue ⟨0, 0, 0⟩ ⟨F32.one, 0⟩).1 =
        ((((CMap.create ⟨1, 1, 1⟩ ⟨0, 0⟩ ⟨0, 0⟩).setValue ⟨0, 0, 0⟩ ⟨F32.one, 0⟩).1).setValue
          ⟨0, 0, 0⟩ ⟨0, 0⟩).1 := by
      have hall : (((CMap.create ⟨2, 1, 1⟩ ⟨0, 0⟩ ⟨0, 0⟩).setValue ⟨0, 0, 0⟩ ⟨F32.one, 0⟩).1).dims.all =
        [⟨0, 0, 0⟩, ⟨1, 0, 0⟩] := by decide +kernel
      unfold CMap.resample
      rw [hall]
      simp only [List.foldl_cons, List.foldl_nil, hc0, hc1]
      rfl
    intro c
    rw [e]
    by_cases hc : c = ⟨0, 0, 0⟩
    · subst hc; decide +kernel
    · have hb : (⟨1, 1, 1⟩ : Dims).inB c = false := by
        cases h : (⟨1, 1, 1⟩ : Dims).inB c with
        | false => rfl
        | true =>
          exfalso
          obtain ⟨x, y, z⟩ := c
          have := inB_iff_spec.mp h
          unfold InBounds at this
          apply hc
          simp only [Nat.cast_one] at this
          simp only [Idx.mk.injEq]
          omega
      rw [CMap.getImm, Grid.getImm, Grid.get_oob hb]
      exact (by decide +kernel : F32.gtHalf 0 = false)

/-- Hypotheses of the finer-resolution theorems: a 2×1×1 map of cell size 1 resampled to 4×2×2 cells of
size 1/2. -/
example : ((⟨2, 1, 1⟩ : Dims).nx : ℚ) * 1 ≤ (⟨4, 2, 2⟩ : Dims).nx * (1 / 2) ∧
    ((⟨2, 1, 1⟩ : Dims).ny : ℚ) * 1 ≤ (⟨4, 2, 2⟩ : Dims).ny * (1 / 2) ∧ InBounds ⟨2, 1, 1⟩ ⟨1, 0, 0⟩ := by
  refine ⟨by norm_num, by norm_num, ?_⟩
  unfold InBounds; decide

/-! ## C78: surface display -/

/-- C78.  The surface display draws exactly the entries marked valid, one point and one colour each, all
in the requested colour; another iteration order of the hash map only permutes the points. -/
theorem C78_surface_display {P C : Type} (loc : Idx → P) (surface : List (Idx × UInt8)) (colour : C) :
    (TMap.exportSurface loc surface colour).1 =
      (surface.filter fun e => e.2 == 1).map (fun e => loc e.1) ∧
    (TMap.exportSurface loc surface colour).2 =
      List.replicate (TMap.exportSurface loc surface colour).1.length colour ∧
    ∀ surface', surface.Perm surface' →
      (TMap.exportSurface loc surface colour).1.Perm (TMap.exportSurface loc surface' colour).1 ∧
      (TMap.exportSurface loc surface colour).2 = (TMap.exportSurface loc surface' colour).2 := by
  have fold : ∀ (s : List (Idx × UInt8)) (k : List P × List C), k.2 = List.replicate k.1.length colour →
      (s.foldl (fun k e => if e.2 = 1 then (k.1 ++ [loc e.1], k.2 ++ [colour]) else k) k).1 =
        k.1 ++ (s.filter fun e => e.2 == 1).map (fun e => loc e.1) ∧
      (s.foldl (fun k e => if e.2 = 1 then (k.1 ++ [loc e.1], k.2 ++ [colour]) else k) k).2 =
        List.replicate
          (s.foldl (fun k e => if e.2 = 1 then (k.1 ++ [loc e.1], k.2 ++ [colour]) else k) k).1.length
          colour := by
    intro s
    induction s with
    | nil => intro k hk; simpa using hk
    | cons e s ih =>
      intro k hk
      by_cases he : e.2 = 1
      · have := ih (k.1 ++ [loc e.1], k.2 ++ [colour]) (by
          simp [hk, List.replicate_succ'])
        simp only [List.foldl_cons, he, if_true]
        refine ⟨?_, this.2⟩
        rw [this.1]
        simp [he]
      · have := ih k hk
        simp only [List.foldl_cons, he, if_false]
        refine ⟨?_, this.2⟩
        rw [this.1]
        simp [he]
  have main : ∀ s : List (Idx × UInt8), (TMap.exportSurface loc s colour).1 =
        (s.filter fun e => e.2 == 1).map (fun e => loc e.1) ∧
      (TMap.exportSurface loc s colour).2 =
        List.replicate (TMap.exportSurface loc s colour).1.length colour := by
    intro s
    have := fold s ([], []) rfl
    simpa [TMap.exportSurface] using this
  refine ⟨(main surface).1, (main surface).2, ?_⟩
  intro surface' hp
  have hperm : (TMap.exportSurface loc surface colour).1.Perm
      (TMap.exportSurface loc surface' colour).1 := by
    rw [(main surface).1, (main surface').1]
    exact (hp.filter _).map _
  refine ⟨hperm, ?_⟩
  rw [(main surface).2, (main surface').2, hperm.length_eq]

example : TMap.exportSurface (fun i => i.x) [(⟨4, 0, 0⟩, 1), (⟨5, 0, 0⟩, 0), (⟨6, 0, 0⟩, 1)] 'c' =
    ([4, 6], ['c', 'c']) := by decide

end Verif
