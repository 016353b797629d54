import Verif.ConvexSegments
import Verif.Props.Extrema
import Verif.Props.Tagged
import Verif.Props.TaggedSdf

/-!
# Properties of convex segmentation (C81, C82, C83)

`m.updateConvex R res origin inv thr border` is `UpdateConvexSegments(thr, border)` on a tagged map
with cell size `res` and the given origin transform.
-/

namespace Verif

open Spec DField SdfGen

/-! ## Specification -/

/-- The cell is free (occupancy below 0.5) or belongs to an object. -/
def FreeOrNamed (m : TMap) (i : Idx) : Prop :=
  (m.getImm i).1.occ.ltHalf = true ∨ (m.getImm i).1.obj ≠ 0

/-- The origin transform does not rotate. -/
def Unrotated (a : Aff ℝ) : Prop := ∀ p, a.lin p = p

/-- `j` is the inward neighbour of `i`, which lies on the face of an axis with more than one cell. -/
def Inward (d : Dims) (i j : Idx) : Prop :=
  (1 < d.nx ∧ i.x = 0 ∧ j = ⟨1, i.y, i.z⟩) ∨
  (1 < d.nx ∧ i.x + 1 = d.nx ∧ j = ⟨i.x - 1, i.y, i.z⟩) ∨
  (1 < d.ny ∧ i.y = 0 ∧ j = ⟨i.x, 1, i.z⟩) ∨
  (1 < d.ny ∧ i.y + 1 = d.ny ∧ j = ⟨i.x, i.y - 1, i.z⟩) ∨
  (1 < d.nz ∧ i.z = 0 ∧ j = ⟨i.x, i.y, 1⟩) ∨
  (1 < d.nz ∧ i.z + 1 = d.nz ∧ j = ⟨i.x, i.y, i.z - 1⟩)

theorem Inward.inBounds {d : Dims} {i j : Idx} (hi : InBounds d i) (h : Inward d i j) :
    InBounds d j := by
  unfold InBounds at *
  rcases h with ⟨a, b, rfl⟩ | ⟨a, b, rfl⟩ | ⟨a, b, rfl⟩ | ⟨a, b, rfl⟩ | ⟨a, b, rfl⟩ | ⟨a, b, rfl⟩ <;>
    (dsimp only; omega)

theorem Inward.onFace {d : Dims} {i j : Idx} (h : Inward d i j) : OnThickFace d i := by
  unfold OnThickFace
  rcases h with ⟨a, b, rfl⟩ | ⟨a, b, rfl⟩ | ⟨a, b, rfl⟩ | ⟨a, b, rfl⟩ | ⟨a, b, rfl⟩ | ⟨a, b, rfl⟩ <;>
    simp [a, b]

namespace MSdf

variable {K : Type} [Field K] [LinearOrder K] [IsStrictOrderedRing K]

/-- The gradient component of one axis, given the cell counts along it. -/
def AxisGrad (n : Nat) (c : Int) (g here low high r : K) : Prop :=
  (n = 1 → g = 0) ∧ (1 < n → c = 0 → g = (high - here) * (1 / r)) ∧
    (1 < n → c + 1 = n → g = (here - low) * (1 / r))

omit [IsStrictOrderedRing K] in
theorem axisGrad_edge {n : Nat} {c : Int} (h0 : 0 ≤ c) (h1 : c < n) {r : K} (hr : 0 < r)
    (v : Int → K) :
    AxisGrad n c (if (((min ((n : Int) - 1) (c + 1) - max 0 (c - 1) : Int) : K) * r) > 0 then
      (v (min ((n : Int) - 1) (c + 1)) - v (max 0 (c - 1))) *
        (1 / (((min ((n : Int) - 1) (c + 1) - max 0 (c - 1) : Int) : K) * r)) else 0)
      (v c) (v (c - 1)) (v (c + 1)) r := by
  refine ⟨?_, ?_, ?_⟩
  · rintro rfl
    have hc : c = 0 := by push_cast at h1; omega
    subst hc
    simp
  · intro hn hc
    subst hc
    have e1 : min ((n : Int) - 1) (0 + 1) = 1 := by omega
    have e2 : max 0 ((0 : Int) - 1) = 0 := by omega
    rw [e1, e2]
    simp [hr]
  · intro hn hc
    have e1 : min ((n : Int) - 1) (c + 1) = c := by omega
    have e2 : max 0 (c - 1) = c - 1 := by omega
    rw [e1, e2]
    have : c - (c - 1) = 1 := by ring
    rw [this]
    simp [hr]

/-- The grid-frame gradient of a cell at a face of an axis. -/
theorem gridGrad_faces (s : MSdf K) (hr : 0 < s.res) {i : Idx} (hi : InBounds s.grid.dims i) :
    ∃ gx gy gz, s.gridGrad i true = [gx, gy, gz] ∧
      AxisGrad s.grid.dims.nx i.x gx (s.grid.get i) (s.grid.get ⟨i.x - 1, i.y, i.z⟩)
        (s.grid.get ⟨i.x + 1, i.y, i.z⟩) s.res ∧
      AxisGrad s.grid.dims.ny i.y gy (s.grid.get i) (s.grid.get ⟨i.x, i.y - 1, i.z⟩)
        (s.grid.get ⟨i.x, i.y + 1, i.z⟩) s.res ∧
      AxisGrad s.grid.dims.nz i.z gz (s.grid.get i) (s.grid.get ⟨i.x, i.y, i.z - 1⟩)
        (s.grid.get ⟨i.x, i.y, i.z + 1⟩) s.res := by
  have hb := inB_iff_spec.mpr hi
  unfold InBounds at hi
  unfold gridGrad
  simp only [hb, if_true]
  split
  · rename_i hc
    refine ⟨_, _, _, rfl, ?_, ?_, ?_⟩ <;>
    · refine ⟨?_, ?_, ?_⟩ <;> intros <;> omega
  · refine ⟨_, _, _, rfl, ?_, ?_, ?_⟩
    · exact axisGrad_edge hi.1.1 hi.1.2 hr (fun c => s.grid.get ⟨c, i.y, i.z⟩)
    · exact axisGrad_edge hi.2.1.1 hi.2.1.2 hr (fun c => s.grid.get ⟨i.x, c, i.z⟩)
    · exact axisGrad_edge hi.2.2.1 hi.2.2.2 hr (fun c => s.grid.get ⟨i.x, i.y, c⟩)

/-- One axis of a step stays in the grid. -/
theorem axis_stays {n : Nat} {c : Int} (h0 : 0 ≤ c) (h1 : c < n) {g here low high r t : K}
    (hr : 0 < r) (ht : 0 < t) (hg : AxisGrad n c g here low high r)
    (hlow : 1 < n → c = 0 → (0 ≤ here → here ≤ high) ∧ (here < 0 → high ≤ here))
    (hhigh : 1 < n → c + 1 = n → (0 ≤ here → here ≤ low) ∧ (here < 0 → low ≤ here)) (w : K)
    (hw : w = if here < 0 then g * -1 else g) :
    0 ≤ c + (if w > t then 1 else if w < -t then -1 else 0 : Int) ∧
      c + (if w > t then 1 else if w < -t then -1 else 0 : Int) < n := by
  obtain ⟨g1, g2, g3⟩ := hg
  have hr' : 0 < 1 / r := by positivity
  by_cases hn : n = 1
  · have hg0 := g1 hn
    have : w = 0 := by rw [hw, hg0]; simp
    subst this
    have e1 : ¬ (0 : K) > t := by linarith [ht]
    have e2 : ¬ (0 : K) < -t := by linarith [ht]
    rw [if_neg e1, if_neg e2]
    omega
  · have hn1 : 1 < n := by omega
    have hb1 : c = 0 → 0 ≤ w := by
      intro hc
      have hg := g2 hn1 hc
      obtain ⟨k1, k2⟩ := hlow hn1 hc
      rw [hw]
      split
      · rename_i hneg
        have : (high - here) * (1 / r) ≤ 0 :=
          mul_nonpos_of_nonpos_of_nonneg (by linarith [k2 hneg]) hr'.le
        rw [hg]; linarith
      · rename_i hneg
        rw [hg]; exact mul_nonneg (by linarith [k1 (not_lt.mp hneg)]) hr'.le
    have hb2 : c + 1 = n → w ≤ 0 := by
      intro hc
      have hg := g3 hn1 hc
      obtain ⟨k1, k2⟩ := hhigh hn1 hc
      rw [hw]
      split
      · rename_i hneg
        have : 0 ≤ (here - low) * (1 / r) := mul_nonneg (by linarith [k2 hneg]) hr'.le
        rw [hg]; linarith
      · rename_i hneg
        rw [hg]; exact mul_nonpos_of_nonpos_of_nonneg (by linarith [k1 (not_lt.mp hneg)]) hr'.le
    constructor
    · split
      · omega
      · split
        · rename_i h
          have : c ≠ 0 := fun hc => by linarith [hb1 hc]
          omega
        · omega
    · split
      · rename_i h
        have : c + 1 ≠ n := fun hc => by linarith [hb2 hc]
        omega
      · split <;> omega

/-- If on every face the values do not shrink in magnitude towards the inside, no step leaves the
grid. -/
theorem target_stays (s : MSdf K) (hr : 0 < s.res) (hrot : ∀ p, s.origin.lin p = p)
    (hface : ∀ i j, InBounds s.grid.dims i → Inward s.grid.dims i j →
      (0 ≤ s.grid.get i → s.grid.get i ≤ s.grid.get j) ∧
      (s.grid.get i < 0 → s.grid.get j ≤ s.grid.get i))
    {i k : Idx} (hi : InBounds s.grid.dims i) (ht : Target s.gradField i k) :
    InBounds s.grid.dims k := by
  obtain ⟨gx, gy, gz, hg, hk⟩ := ht
  obtain ⟨ax, ay, az, ha, h1, h2, h3⟩ := gridGrad_faces s hr hi
  have hg' : s.gradient i true = [gx, gy, gz] := hg
  unfold gradient at hg'
  rw [ha] at hg'
  simp only [hrot, List.cons.injEq, and_true] at hg'
  obtain ⟨rfl, rfl, rfl⟩ := hg'
  have ht : 0 < s.res * (49 / 800) := by positivity
  have key : ∀ g : K, (if s.gradField.neg i then unitStep s.gradField (s.gradField.negate g)
      else unitStep s.gradField g) =
      (let w := if s.grid.get i < 0 then g * -1 else g
       if w > s.res * (49 / 800) then 1 else if w < -(s.res * (49 / 800)) then -1 else 0 : Int) := by
    intro g
    simp only [gradField, unitStep, decide_eq_true_eq]
    split <;> rfl
  simp only [key] at hk
  have hi' := hi
  unfold InBounds at hi' ⊢
  subst hk
  refine ⟨axis_stays hi'.1.1 hi'.1.2 hr ht h1 ?_ ?_ _ rfl,
    axis_stays hi'.2.1.1 hi'.2.1.2 hr ht h2 ?_ ?_ _ rfl,
    axis_stays hi'.2.2.1 hi'.2.2.2 hr ht h3 ?_ ?_ _ rfl⟩
  · intro hn hc; exact hface _ _ hi (.inl ⟨hn, hc, by rw [hc]; rfl⟩)
  · intro hn hc; exact hface _ _ hi (.inr (.inl ⟨hn, hc, rfl⟩))
  · intro hn hc; exact hface _ _ hi (.inr (.inr (.inl ⟨hn, hc, by rw [hc]; rfl⟩)))
  · intro hn hc; exact hface _ _ hi (.inr (.inr (.inr (.inl ⟨hn, hc, rfl⟩))))
  · intro hn hc; exact hface _ _ hi (.inr (.inr (.inr (.inr (.inl ⟨hn, hc, by rw [hc]; rfl⟩)))))
  · intro hn hc; exact hface _ _ hi (.inr (.inr (.inr (.inr (.inr ⟨hn, hc, rfl⟩)))))

end MSdf

/-- No step leaves the grid: every entry of the extrema map is a cell centre. -/
theorem Spec.Leads.inBounds {V : Type} {f : GradField V} {d : Dims} {i j : Idx} (h : Leads f d i j)
    (hi : InBounds d i) : InBounds d j := by
  induction h with
  | refl => exact hi
  | tail _ h _ => exact h.2.2

theorem GradField.all_centers {V : Type} {f : GradField V} {d : Dims} (hg : HasGradients f d)
    (hst : ∀ i k, InBounds d i → Target f i k → InBounds d k) {e : Grid Extremum}
    (he : f.extremaMap d = some e) {i : Idx} (hi : InBounds d i) : ∃ t, e.get i = .center t := by
  obtain ⟨e', he', _, hall⟩ := C27_extrema_map f d hg
  rw [he] at he'
  simp only [Option.some.injEq] at he'
  subst he'
  obtain ⟨hne, _, _, _, hex⟩ := hall i hi
  cases h : e.get i with
  | unset => exact absurd h hne
  | center t => exact ⟨t, rfl⟩
  | offGrid =>
    rw [h] at hex
    obtain ⟨j, k, hl, _, ht, hk⟩ := hex
    exact absurd (hst j k (hl.inBounds hi) ht) hk

namespace TMap

theorem asMSdf_get (res : ℝ) (o i : Aff ℝ) (g : Grid FVal) (v : Idx) :
    (asMSdf res o i g).grid.get v = realOf (g.get v) := by
  unfold asMSdf Grid.get
  dsimp only
  split
  · rw [List.getElem?_map]
    cases g.data[g.dims.lin v]? <;> rfl
  · rfl

theorem asMSdf_neg (res : ℝ) (o i : Aff ℝ) (g : Grid FVal) (v : Idx) :
    (asMSdf res o i g).gradField.neg v = decide (realOf (g.get v) < 0) := by
  show decide ((asMSdf res o i g).grid.get v < 0) = _
  rw [asMSdf_get]

theorem segDataOf_symm (s : MSdf ℝ) (thr : ℝ) (e : Grid Extremum) (i j : Idx)
    (h : (segDataOf s thr e).near i j = true) : (segDataOf s thr e).near j i = true := by
  unfold segDataOf at *
  dsimp only at *
  generalize e.get i = a at *
  generalize e.get j = b at *
  cases a <;> cases b <;> simp only [extremaClose, Bool.false_eq_true] at h ⊢
  rw [decide_eq_true_eq] at h ⊢
  refine lt_of_le_of_lt (le_of_eq ?_) h
  congr 1
  ring

/-- The field of the segmentation exists and has the map's dimensions. -/
theorem segField_some {R : Rounding} {res : ℝ} (m : TMap) (border : Bool)
    (hd : FieldFits m.dims border) : ∃ o, m.segField R res border = some o ∧ o.sdf.dims = m.dims := by
  cases border with
  | false =>
    obtain ⟨o, _, _, _, _, _, _, h, _, _, _, _, hdim, _⟩ :=
      TMap.freeNamed_spec (R := R) res m hd (some ⊤) true
    exact ⟨o, h, hdim⟩
  | true =>
    obtain ⟨o, _, _, _, _, _, _, h, _, _, _, hdim, _⟩ :=
      border_spec hd (TMap.objFill_answers m [] true) R res (some ⊤)
    exact ⟨o, h, hdim⟩

end TMap

/-! ## C83: the segmentation as a whole -/

/-- Two extrema are cell centres closer than the threshold. -/
def ExtremaWithin (res thr : ℝ) (a b : Extremum) : Prop :=
  ∃ i j, a = .center i ∧ b = .center j ∧
    Real.sqrt (((i.x : ℝ) - j.x) ^ 2 + ((i.y : ℝ) - j.y) ^ 2 + ((i.z : ℝ) - j.z) ^ 2) * res < thr

theorem TMap.extremaClose_iff {s : MSdf ℝ} (hr : 0 < s.res) {thr : ℝ} (a b : Extremum) :
    TMap.extremaClose s thr a b = true ↔ ExtremaWithin s.res thr a b := by
  unfold ExtremaWithin
  cases a <;> cases b <;> simp only [TMap.extremaClose, Bool.false_eq_true, decide_eq_true_eq,
    Extremum.center.injEq, reduceCtorEq, false_and, and_false, exists_false]
  rename_i i j
  have h1 : Real.sqrt (((i.x : ℝ) - j.x) ^ 2 + ((i.y : ℝ) - j.y) ^ 2 + ((i.z : ℝ) - j.z) ^ 2) * s.res
      = Real.sqrt (((s.center i).x - (s.center j).x) ^ 2 + ((s.center i).y - (s.center j).y) ^ 2 +
        ((s.center i).z - (s.center j).z) ^ 2) := by
    have : Real.sqrt (s.res ^ 2) = s.res := Real.sqrt_sq hr.le
    conv_lhs => rw [← this]
    rw [← Real.sqrt_mul (by positivity)]
    congr 1
    unfold MSdf.center
    ring
  constructor
  · intro h; exact ⟨i, j, rfl, rfl, by rw [h1]; exact h⟩
  · rintro ⟨i', j', rfl, rfl, h⟩; rw [← h1]; exact h

/-- C83.  For every map, origin, threshold and either border setting, `UpdateConvexSegments` ends
normally.  The labels number, in scan order, the classes of free or named cells with a finite extremum
that are linked by chains of face-adjacent cells of one object whose extrema are closer than the
threshold; all other cells get 0; occupancy, object and component stay. -/
theorem C83_segmentation {R : Rounding} {res : ℝ} (hres : 0 < res) (origin inv : Aff ℝ) (m : TMap)
    (h : m.grid.WF) (hsz : m.dims.size < 2 ^ 32) (thr : ℝ) (border : Bool)
    (hd : FieldFits m.dims border) :
    ∃ o e m' n, m.segField R res border = some o ∧
      (TMap.asMSdf res origin inv o.sdf).gradField.extremaMap m.dims = some e ∧
      m.updateConvex R res origin inv thr border = some (m', n) ∧ m'.getNumSeg = (n, true) ∧
      Labelling m.dims
        (fun i => InBounds m.dims i ∧ FreeOrNamed m i ∧ ∃ t, e.get i = .center t)
        (fun i j => (m.getImm i).1.obj = (m.getImm j).1.obj ∧
          ExtremaWithin res thr (e.get i) (e.get j))
        (fun i => (m'.getImm i).1.seg.toNat) n ∧
      (∀ i, InBounds m.dims i → ¬ (FreeOrNamed m i ∧ ∃ t, e.get i = .center t) →
        (m'.getImm i).1.seg = 0) ∧
      ∀ i, (m'.getImm i).1.occ = (m.getImm i).1.occ ∧ (m'.getImm i).1.obj = (m.getImm i).1.obj ∧
        (m'.getImm i).1.comp = (m.getImm i).1.comp := by
  obtain ⟨o, ho, hdim⟩ := TMap.segField_some (R := R) (res := res) m border hd
  have hdim' : (TMap.asMSdf res origin inv o.sdf).grid.dims = m.dims := hdim
  obtain ⟨e, he, _, _⟩ := C27_extrema_map (TMap.asMSdf res origin inv o.sdf).gradField
    (TMap.asMSdf res origin inv o.sdf).grid.dims (C27_sdf _)
  obtain ⟨m', n, h1, h2, h3, h4, h5⟩ := C42_segments
    (TMap.segDataOf (TMap.asMSdf res origin inv o.sdf) thr e) (TMap.segDataOf_symm _ _ _) m h hsz
  have hfin : ∀ i, (TMap.segDataOf (TMap.asMSdf res origin inv o.sdf) thr e).far i = false ↔
      ∃ t, e.get i = .center t := by
    intro i
    show TMap.extremumInfinite (e.get i) = false ↔ _
    cases e.get i <;> simp [TMap.extremumInfinite]
  have hseg : ∀ i, Segmentable (TMap.segDataOf (TMap.asMSdf res origin inv o.sdf) thr e) m i ↔
      (InBounds m.dims i ∧ FreeOrNamed m i ∧ ∃ t, e.get i = .center t) := by
    intro i; unfold Segmentable FreeOrNamed; rw [hfin]
  have hcompat : ∀ i j, SegCompat (TMap.segDataOf (TMap.asMSdf res origin inv o.sdf) thr e) m i j ↔
      ((m.getImm i).1.obj = (m.getImm j).1.obj ∧ ExtremaWithin res thr (e.get i) (e.get j)) := by
    intro i j
    unfold SegCompat
    exact and_congr_right' (TMap.extremaClose_iff (s := TMap.asMSdf res origin inv o.sdf) hres _ _)
  refine ⟨o, e, m', n, ho, by rw [← hdim']; exact he, ?_, h2, ?_, ?_, h5⟩
  · unfold TMap.updateConvex
    simp only [ho, he]
    exact h1
  · have e1 : (fun i => InBounds m.dims i ∧ FreeOrNamed m i ∧ ∃ t, e.get i = .center t) =
        Segmentable (TMap.segDataOf (TMap.asMSdf res origin inv o.sdf) thr e) m :=
      funext fun i => propext (hseg i).symm
    have e2 : (fun i j => (m.getImm i).1.obj = (m.getImm j).1.obj ∧
        ExtremaWithin res thr (e.get i) (e.get j)) =
        SegCompat (TMap.segDataOf (TMap.asMSdf res origin inv o.sdf) thr e) m :=
      funext fun i => funext fun j => propext (hcompat i j).symm
    rw [e1, e2]; exact h3
  · intro i hi hn
    exact h4 i hi (fun hs => hn ((hseg i).mp hs).2)

example : (0 : ℝ) < 1 ∧ exTagged.grid.WF ∧ exTagged.dims.size < 2 ^ 32 ∧
    FieldFits exTagged.dims true ∧ FieldFits exTagged.dims false ∧ FreeOrNamed exTagged ⟨1, 0, 0⟩ := by
  refine ⟨one_pos, rfl, by decide, ?_, ?_, by unfold FreeOrNamed; decide⟩
  · show SmallGrid _; unfold SmallGrid; decide
  · show SmallGrid _; unfold SmallGrid; decide

/-- A chain of the proof of C81 and C82: if no step leaves the grid, everything is segmented. -/
theorem TMap.all_segmented {R : Rounding} {res : ℝ} (hres : 0 < res) {origin inv : Aff ℝ}
    (hrot : Unrotated origin) {m : TMap} (h : m.grid.WF) (hsz : m.dims.size < 2 ^ 32) (thr : ℝ)
    {border : Bool} (hd : FieldFits m.dims border)
    (hface : ∀ o, m.segField R res border = some o → ∀ i j, InBounds m.dims i → Inward m.dims i j →
      (0 ≤ TMap.realOf (o.sdf.get i) → TMap.realOf (o.sdf.get i) ≤ TMap.realOf (o.sdf.get j)) ∧
      (TMap.realOf (o.sdf.get i) < 0 → TMap.realOf (o.sdf.get j) ≤ TMap.realOf (o.sdf.get i))) :
    ∃ m' n, m.updateConvex R res origin inv thr border = some (m', n) ∧
      ∀ i, InBounds m.dims i → FreeOrNamed m i →
        1 ≤ (m'.getImm i).1.seg.toNat ∧ (m'.getImm i).1.seg.toNat ≤ n := by
  obtain ⟨o, e, m', n, ho, he, hup, _, hlab, _⟩ := C83_segmentation (R := R) hres origin inv m h hsz
    thr border hd
  refine ⟨m', n, hup, fun i hi hp => ?_⟩
  obtain ⟨o', ho', hdim⟩ := TMap.segField_some (R := R) (res := res) m border hd
  rw [ho] at ho'
  simp only [Option.some.injEq] at ho'
  subst ho'
  have hdim' : (TMap.asMSdf res origin inv o.sdf).grid.dims = m.dims := hdim
  refine hlab.range i ⟨hi, hp, GradField.all_centers ?_ ?_ he hi⟩
  · rw [← hdim']; exact C27_sdf _
  · intro j k hj ht
    rw [← hdim'] at hj ⊢
    refine MSdf.target_stays (TMap.asMSdf res origin inv o.sdf) hres hrot ?_ hj ht
    intro a b ha hab
    rw [hdim'] at ha hab
    simp only [TMap.asMSdf_get]
    exact hface o ho a b ha hab

/-! ## C81: with a virtual border everything is segmented -/

/-- The full statement of C81: with the virtual border, every free or named cell gets a segment. -/
def C81Statement (R : Rounding) : Prop := ∀ (res : ℝ) (origin inv : Aff ℝ) (m : TMap) (thr : ℝ),
  GoodRes R res → 0 < R.r32 res → m.grid.WF → m.dims.size < 2 ^ 32 → SmallGrid (enlarge m.dims) →
  ∃ m' n, m.updateConvex R res origin inv thr true = some (m', n) ∧
    ∀ i, InBounds m.dims i → FreeOrNamed m i → 1 ≤ (m'.getImm i).1.seg.toNat

namespace SdfGen

theorem inward_near {d : Dims} {i j p : Idx} (hij : Inward d i j) (h : sqDist (i + offset d) p = 1) :
    sqDist (j + offset d) p ≤ 4 := by
  unfold sqDist at *
  simp only [Idx.add_x, Idx.add_y, Idx.add_z] at *
  generalize (offset d).x = ox at *
  generalize (offset d).y = oy at *
  generalize (offset d).z = oz at *
  rcases hij with ⟨_, b, rfl⟩ | ⟨_, b, rfl⟩ | ⟨_, b, rfl⟩ | ⟨_, b, rfl⟩ | ⟨_, b, rfl⟩ | ⟨_, b, rfl⟩ <;>
    dsimp only
  · rw [b] at h
    nlinarith [sq_nonneg (0 + ox - p.x - 1), sq_nonneg (i.y + oy - p.y), sq_nonneg (i.z + oz - p.z)]
  · nlinarith [sq_nonneg (i.x + ox - p.x + 1), sq_nonneg (i.y + oy - p.y), sq_nonneg (i.z + oz - p.z)]
  · rw [b] at h
    nlinarith [sq_nonneg (0 + oy - p.y - 1), sq_nonneg (i.x + ox - p.x), sq_nonneg (i.z + oz - p.z)]
  · nlinarith [sq_nonneg (i.y + oy - p.y + 1), sq_nonneg (i.x + ox - p.x), sq_nonneg (i.z + oz - p.z)]
  · rw [b] at h
    nlinarith [sq_nonneg (0 + oz - p.z - 1), sq_nonneg (i.x + ox - p.x), sq_nonneg (i.y + oy - p.y)]
  · nlinarith [sq_nonneg (i.z + oz - p.z + 1), sq_nonneg (i.x + ox - p.x), sq_nonneg (i.y + oy - p.y)]

/-- A source within squared distance 4 bounds the reported distance. -/
theorem reported_within_4 {d : Dims} (hd : SmallGrid d) {pts : List Idx} {s : St}
    (h : build d pts = some s) {v p : Idx} (hv : InBounds d v) (hp : p ∈ pts) (h4 : sqDist v p ≤ 4) :
    ∃ n, reported s v = some n ∧ n ≤ 4 := by
  obtain ⟨r, hr⟩ := exists_isNearest (List.ne_nil_of_mem hp) v
  have hle := hr.2 p hp
  obtain ⟨n, h1, h2⟩ := C10_exact_below_8_partial hd h hv (m := sqDist v r)
    ⟨⟨r, hr.1, rfl⟩, fun q hq => hr.2 q hq⟩ (by omega)
  exact ⟨n, h1, by omega⟩

end SdfGen

/-- C81, the part that holds: the origin does not rotate and no face cell (of an axis with more than
one cell) differs from its inward neighbour in being an obstacle.  `hfin`: twice the cell size does
not overflow `float`.  Missing: other maps, for which the statement is false (`C81_false`,
`C81_false_rotated`). -/
theorem C81_border_partial {R : Rounding} {res : ℝ} (hres : GoodRes R res) (h32 : 0 < R.r32 res)
    (hfin : R.r32 (R.r64 (R.r64 ((Real.sqrt 4 : ℝ) : EReal) * res)) ≠ ⊤) {origin inv : Aff ℝ}
    (hrot : Unrotated origin) (m : TMap) (h : m.grid.WF) (hsz : m.dims.size < 2 ^ 32)
    (hd : SmallGrid (enlarge m.dims)) (thr : ℝ)
    (hsame : ∀ i j, InBounds m.dims i → Inward m.dims i j →
      (TObstacle m true i ↔ TObstacle m true j)) :
    ∃ m' n, m.updateConvex R res origin inv thr true = some (m', n) ∧
      ∀ i, InBounds m.dims i → FreeOrNamed m i →
        1 ≤ (m'.getImm i).1.seg.toNat ∧ (m'.getImm i).1.seg.toNat ≤ n := by
  classical
  refine TMap.all_segmented hres.1 hrot h hsz thr (border := true) hd ?_
  intro o ho i j hi hij
  have ho : extract R (res, res, res) m.grid.dims (TMap.objFill m [] true) (some ⊤) true = some o := ho
  have hj := hij.inBounds hi
  have hf := TMap.objFill_answers m [] true
  obtain ⟨o', fr, fi, a, b, a', b', ho', h1, h2, _, _, _, _, _, hval⟩ :=
    border_spec hd hf R res (some ⊤)
  have : o' = o := by
    have := ho'.symm.trans ho
    simpa using this
  subst this
  have hi_val := C17_boundary hres h32 hd hf ho hi hij.onFace
  obtain ⟨p, hp, hpb, hsq⟩ := border_neighbour hi hij.onFace
  have h4 := inward_near hij hsq
  obtain ⟨_, hjb⟩ := real_not_border hj
  obtain ⟨c1, c2⟩ := combine_value hres h32 h1 h2 hj
  have hs4 : scaled R res (some 4) = R.r64 (R.r64 ((Real.sqrt 4 : ℝ) : EReal) * res) := by
    simp [scaled, sqrtE]
  rw [← hs4] at hfin
  have hb4 : ∀ n ≤ 4, R.r32 (scaled R res (some n)) < ⊤ := fun n hn =>
    lt_of_le_of_lt (R.mono32 (scaled_mono hres.1 hn)) (lt_top_iff_ne_top.mpr hfin)
  have hrfin : R.r32 res < ⊤ := by
    have := hb4 1 (by norm_num)
    rwa [scaled_one hres.2] at this
  have hclass : ∀ w, (decide (Selected m [] w ∧ TObstacle m true w) = true ↔ TObstacle m true w) := by
    intro w; simp [Selected]
  obtain ⟨r, hr⟩ : ∃ r : ℝ, R.r32 res = r :=
    ⟨(R.r32 res).toReal, (EReal.coe_toReal hrfin.ne (by
      intro hb; rw [hb] at h32; exact absurd h32 (by simp))).symm⟩
  have hr0 : 0 < r := by rw [hr] at h32; exact_mod_cast h32
  by_cases hob : TObstacle m true i
  · have hoj := (hsame i j hi hij).mp hob
    have fi' := (hclass i).mpr hob
    have fj' := (hclass j).mpr hoj
    rw [fi'] at hi_val
    obtain ⟨e, hle⟩ := c2 fj'
    obtain ⟨n, hn, hn4⟩ := reported_within_4 hd h2.hb hjb (p := p) (by
      rw [List.mem_filter]
      exact ⟨Dims.mem_all.mpr (inB_iff_spec.mpr hp), by unfold borderFn; rw [hpb]; rfl⟩) h4
    rw [hn] at e hle
    rw [R.odd32] at e hle
    obtain ⟨y, hy⟩ : ∃ y : ℝ, R.r32 (scaled R res (some n)) = y := by
      refine ⟨_, (EReal.coe_toReal (hb4 n hn4).ne ?_).symm⟩
      intro hb
      rw [hb, hr] at hle
      simp at hle
    rw [hy, hr] at hle
    have hle' : r ≤ y := by
      rw [EReal.neg_le_neg_iff] at hle; exact_mod_cast hle
    have e1 : TMap.realOf (o'.sdf.get i) = -r := by
      rw [hi_val, hr]; simp [TMap.realOf]
    have e2 : TMap.realOf (o'.sdf.get j) = -y := by
      rw [hval j hj, e, hy]; simp [TMap.realOf]
    rw [e1, e2]
    constructor <;> intro _ <;> linarith
  · have hoj := fun hh => hob ((hsame i j hi hij).mpr hh)
    have fi' : decide (Selected m [] i ∧ TObstacle m true i) = false := by
      rw [← Bool.not_eq_true, hclass]; exact hob
    have fj' : decide (Selected m [] j ∧ TObstacle m true j) = false := by
      rw [← Bool.not_eq_true, hclass]; exact hoj
    rw [fi'] at hi_val
    obtain ⟨e, hle⟩ := c1 fj'
    obtain ⟨n, hn, hn4⟩ := reported_within_4 hd h1.ha hjb (p := p) (by
      rw [List.mem_filter]
      exact ⟨Dims.mem_all.mpr (inB_iff_spec.mpr hp), by unfold borderFn; rw [hpb]; rfl⟩) h4
    rw [hn] at e hle
    obtain ⟨y, hy⟩ : ∃ y : ℝ, R.r32 (scaled R res (some n)) = y := by
      refine ⟨_, (EReal.coe_toReal (hb4 n hn4).ne ?_).symm⟩
      intro hb
      rw [hb, hr] at hle
      simp at hle
    rw [hy, hr] at hle
    have hle' : r ≤ y := by exact_mod_cast hle
    have e1 : TMap.realOf (o'.sdf.get i) = r := by
      rw [hi_val, hr]; simp [TMap.realOf]
    have e2 : TMap.realOf (o'.sdf.get j) = y := by
      rw [hval j hj, e, hy]; simp [TMap.realOf]
    rw [e1, e2]
    constructor <;> intro _ <;> linarith

/-- A cell whose path leaves the grid gets segment 0. -/
theorem TMap.seg_zero_of_offGrid {R : Rounding} {res : ℝ} (hres : 0 < res) {origin inv : Aff ℝ}
    {m : TMap} (h : m.grid.WF) (hsz : m.dims.size < 2 ^ 32) {thr : ℝ} {border : Bool}
    (hd : FieldFits m.dims border) {o : Out} (ho : m.segField R res border = some o) {m' : TMap}
    {n : Nat} (hup : m.updateConvex R res origin inv thr border = some (m', n)) {i j k : Idx}
    (hi : InBounds m.dims i)
    (hl : Leads (TMap.asMSdf res origin inv o.sdf).gradField m.dims i j)
    (hnf : ¬ FlatAt (TMap.asMSdf res origin inv o.sdf).gradField j)
    (ht : Target (TMap.asMSdf res origin inv o.sdf).gradField j k) (hk : ¬ InBounds m.dims k) :
    (m'.getImm i).1.seg = 0 := by
  obtain ⟨o', e, m'', n', ho', he, hup', _, _, hz, _⟩ := C83_segmentation (R := R) hres origin inv m h
    hsz thr border hd
  rw [ho] at ho'
  simp only [Option.some.injEq] at ho'
  subst ho'
  rw [hup] at hup'
  simp only [Option.some.injEq, Prod.mk.injEq] at hup'
  obtain ⟨rfl, rfl⟩ := hup'
  refine hz i hi ?_
  rintro ⟨_, t, hc⟩
  obtain ⟨o', ho', hdim⟩ := TMap.segField_some (R := R) (res := res) m border hd
  rw [ho] at ho'
  simp only [Option.some.injEq] at ho'
  subst ho'
  have hdim' : (TMap.asMSdf res origin inv o.sdf).grid.dims = m.dims := hdim
  obtain ⟨e', he', _, hall⟩ := C27_extrema_map (TMap.asMSdf res origin inv o.sdf).gradField m.dims
    (by rw [← hdim']; exact C27_sdf _)
  rw [he] at he'
  simp only [Option.some.injEq] at he'
  subst he'
  have hj : e.get j = .offGrid := (hall j (hl.inBounds hi)).2.2.1 k hnf ht hk
  have hij : ∀ b, Leads (TMap.asMSdf res origin inv o.sdf).gradField m.dims i b →
      e.get i = e.get b := by
    intro b hb
    induction hb with
    | refl => rfl
    | tail hb' hstep ih =>
      obtain ⟨s1, s2, s3⟩ := hstep
      rw [ih]
      exact (hall _ (Spec.Leads.inBounds hb' hi)).2.2.2.1 _ s1 s2 s3
  rw [hij j hl, hj] at hc
  simp at hc

/-- The transform that does nothing. -/
def idAff : Aff ℝ := ⟨⟨1, 0, 0⟩, ⟨0, 1, 0⟩, ⟨0, 0, 1⟩, ⟨0, 0, 0⟩⟩

theorem idAff_unrotated : Unrotated idAff := by
  intro p; simp [idAff, Aff.lin, V3.dot]

/-- A free cell beside a cell of object 1. -/
def exSeg81 : TMap := (TMap.create false ⟨2, 1, 1⟩ (TCell.ofObj 0 0) (TCell.ofObj 0 0)).run
  [.setValue ⟨1, 0, 0⟩ (TCell.ofObj F32.one 1)]

theorem goodRes_one : GoodRes exactRounding 1 := ⟨by norm_num, rfl⟩

theorem r32_one : (0 : EReal) < exactRounding.r32 ((1 : ℝ) : EReal) := by
  show (0 : EReal) < ((1 : ℝ) : EReal)
  exact_mod_cast zero_lt_one

theorem exSeg81_values {o : Out} (ho : exSeg81.segField exactRounding 1 true = some o) :
    TMap.realOf (o.sdf.get ⟨0, 0, 0⟩) = 1 ∧ TMap.realOf (o.sdf.get ⟨1, 0, 0⟩) = -1 := by
  classical
  have hd : SmallGrid (enlarge exSeg81.dims) := by unfold SmallGrid; decide
  have hf := TMap.objFill_answers exSeg81 [] true
  have ho' : extract exactRounding (1, 1, 1) exSeg81.grid.dims (TMap.objFill exSeg81 [] true) (some ⊤)
      true = some o := ho
  have h0 : InBounds exSeg81.dims ⟨0, 0, 0⟩ := inB_iff_spec.mp (by decide)
  have hb1 : InBounds exSeg81.dims ⟨1, 0, 0⟩ := inB_iff_spec.mp (by decide)
  constructor
  · have hfree : ¬ TObstacle exSeg81 true ⟨0, 0, 0⟩ := by unfold TObstacle; decide
    rw [C17_boundary goodRes_one r32_one hd hf ho' h0 (.inl ⟨by decide, .inl rfl⟩)]
    simp [hfree, TMap.realOf, exactRounding]
  · have hfree : TObstacle exSeg81 true ⟨1, 0, 0⟩ := by unfold TObstacle; decide
    rw [C17_boundary goodRes_one r32_one hd hf ho' hb1 (.inl ⟨by decide, .inr (by decide)⟩)]
    simp [hfree, TMap.realOf, exactRounding, Selected]

theorem exSeg81_unsegmented {m' : TMap} {n : Nat}
    (hup : exSeg81.updateConvex exactRounding 1 idAff idAff 1 true = some (m', n)) :
    (m'.getImm ⟨0, 0, 0⟩).1.seg = 0 := by
  have hd : SmallGrid (enlarge exSeg81.dims) := by unfold SmallGrid; decide
  have h0 : InBounds exSeg81.dims ⟨0, 0, 0⟩ := inB_iff_spec.mp (by decide)
  obtain ⟨o, ho, hdim⟩ := TMap.segField_some (R := exactRounding) (res := 1) exSeg81 true hd
  obtain ⟨hv0, hv1⟩ := exSeg81_values ho
  have hg : (TMap.asMSdf 1 idAff idAff o.sdf).gradField.grad ⟨0, 0, 0⟩ = [-2, 0, 0] := by
    have hdim' : (TMap.asMSdf 1 idAff idAff o.sdf).grid.dims = ⟨2, 1, 1⟩ := hdim
    have hgg : (TMap.asMSdf 1 idAff idAff o.sdf).gridGrad ⟨0, 0, 0⟩ true = [-2, 0, 0] := by
      unfold MSdf.gridGrad
      simp only [hdim', TMap.asMSdf_get]
      norm_num [TMap.asMSdf, Dims.inB, hv0, hv1]
    show MSdf.gradient _ _ _ = _
    unfold MSdf.gradient
    rw [hgg]
    have : (TMap.asMSdf 1 idAff idAff o.sdf).origin.lin ⟨-2, 0, 0⟩ = ⟨-2, 0, 0⟩ := idAff_unrotated _
    simp only [this]
  refine TMap.seg_zero_of_offGrid (m := exSeg81) (by norm_num) rfl (by decide) (border := true) hd
    ho hup h0 (j := ⟨0, 0, 0⟩) (k := ⟨-1, 0, 0⟩) .refl ?_ ?_ ?_
  · intro hflat
    have := hflat (-2) (by rw [hg]; simp)
    norm_num [MSdf.gradField, TMap.asMSdf] at this
  · refine ⟨_, _, _, hg, ?_⟩
    rw [TMap.asMSdf_neg, hv0]
    norm_num [MSdf.gradField, TMap.asMSdf, unitStep]
  · simp [InBounds]

/-- C81 is false: in a row of a free cell and a filled cell of an object, both paths leave the grid
and neither cell is segmented. -/
theorem C81_false : ¬ C81Statement exactRounding := by
  intro hst
  have hd : SmallGrid (enlarge exSeg81.dims) := by unfold SmallGrid; decide
  obtain ⟨m', n, hup, hall⟩ := hst 1 idAff idAff exSeg81 1 goodRes_one r32_one rfl (by decide) hd
  have h0 : InBounds exSeg81.dims ⟨0, 0, 0⟩ := inB_iff_spec.mp (by decide)
  have h1 := hall ⟨0, 0, 0⟩ h0 (by unfold FreeOrNamed; decide)
  rw [exSeg81_unsegmented hup] at h1
  simp at h1

/-- A half turn about the vertical axis. -/
def halfTurn : Aff ℝ := ⟨⟨-1, 0, 0⟩, ⟨0, -1, 0⟩, ⟨0, 0, 1⟩, ⟨0, 0, 0⟩⟩

/-- Three free cells. -/
def exFree3 : TMap := TMap.create false ⟨3, 1, 1⟩ (TCell.ofObj 0 0) (TCell.ofObj 0 0)

/-- C81 is false also for a map of free cells only, if its origin rotates: the gradient is taken in
the world frame and followed in the grid frame. -/
theorem C81_false_rotated : ∃ m' n,
    exFree3.updateConvex exactRounding 1 halfTurn halfTurn 1 true = some (m', n) ∧
      InBounds exFree3.dims ⟨0, 0, 0⟩ ∧ FreeOrNamed exFree3 ⟨0, 0, 0⟩ ∧
      (m'.getImm ⟨0, 0, 0⟩).1.seg = 0 := by
  classical
  have hd : SmallGrid (enlarge exFree3.dims) := by unfold SmallGrid; decide
  obtain ⟨_, _, m', n, _, _, hup, _⟩ := C83_segmentation (R := exactRounding) (res := 1) (by norm_num)
    halfTurn halfTurn exFree3 rfl (by decide) 1 true hd
  have h0 : InBounds exFree3.dims ⟨0, 0, 0⟩ := inB_iff_spec.mp (by decide)
  have hb1 : InBounds exFree3.dims ⟨1, 0, 0⟩ := inB_iff_spec.mp (by decide)
  refine ⟨m', n, hup, h0, by unfold FreeOrNamed; decide, ?_⟩
  have hf : Answers exFree3.dims (TMap.objFill exFree3 [] true) (fun _ => false) := by
    intro i hi
    have : ∀ i ∈ exFree3.dims.all, TMap.objFill exFree3 [] true i = some false := by decide
    exact this i (Dims.mem_all.mpr (inB_iff_spec.mpr hi))
  obtain ⟨o, fr, fi, a, b, a', b', ho, h1, h2, _, hdim, _, _, _, hval⟩ :=
    border_spec hd hf exactRounding 1 (some ⊤)
  have hv0 : TMap.realOf (o.sdf.get ⟨0, 0, 0⟩) = 1 := by
    rw [C17_boundary goodRes_one r32_one hd hf ho h0 (.inl ⟨by decide, .inl rfl⟩)]
    simp [TMap.realOf, exactRounding]
  have hv1 : TMap.realOf (o.sdf.get ⟨1, 0, 0⟩) = 2 := by
    rw [hval _ hb1, ((combine_value goodRes_one r32_one h1 h2 hb1).1 rfl).1]
    have hw : (build (enlarge exFree3.dims) ((enlarge exFree3.dims).all.filter
        (borderFn exFree3.dims true fun _ => false))).map
        (fun s => reported s (⟨1, 0, 0⟩ + offset exFree3.dims)) = some (some 4) := by decide +kernel
    rw [h1.ha] at hw
    simp only [Option.map_some, Option.some.injEq] at hw
    rw [hw]
    have h4 : Real.sqrt ((4 : ℕ) : ℝ) = 2 := by
      rw [show ((4 : ℕ) : ℝ) = 2 ^ 2 by norm_num]; exact Real.sqrt_sq (by norm_num)
    simp only [TMap.realOf, exactRounding, scaled, sqrtE, h4]
    simp
  have hg : (TMap.asMSdf 1 halfTurn halfTurn o.sdf).gradField.grad ⟨0, 0, 0⟩ = [-1, 0, 0] := by
    have hdim' : (TMap.asMSdf 1 halfTurn halfTurn o.sdf).grid.dims = ⟨3, 1, 1⟩ := hdim
    have hgg : (TMap.asMSdf 1 halfTurn halfTurn o.sdf).gridGrad ⟨0, 0, 0⟩ true = [1, 0, 0] := by
      unfold MSdf.gridGrad
      simp only [hdim', TMap.asMSdf_get]
      norm_num [TMap.asMSdf, Dims.inB, hv0, hv1]
    show MSdf.gradient _ _ _ = _
    unfold MSdf.gradient
    rw [hgg]
    simp [TMap.asMSdf, halfTurn, Aff.lin, V3.dot]
  refine TMap.seg_zero_of_offGrid (m := exFree3) (by norm_num) rfl (by decide) (border := true) hd
    ho hup h0 (j := ⟨0, 0, 0⟩) (k := ⟨-1, 0, 0⟩) .refl ?_ ?_ ?_
  · intro hflat
    have := hflat (-1) (by rw [hg]; simp)
    norm_num [MSdf.gradField, TMap.asMSdf] at this
  · refine ⟨_, _, _, hg, ?_⟩
    rw [TMap.asMSdf_neg, hv0]
    norm_num [MSdf.gradField, TMap.asMSdf, unitStep]
  · simp [InBounds]

/-- A row of four cells whose two halves differ: it meets the hypotheses of `C81_border_partial`. -/
def exSeg81ok : TMap := (TMap.create false ⟨4, 1, 1⟩ (TCell.ofObj 0 0) (TCell.ofObj 0 0)).run
  [.setValue ⟨2, 0, 0⟩ (TCell.ofObj F32.one 1), .setValue ⟨3, 0, 0⟩ (TCell.ofObj F32.one 1)]

instance (m : TMap) (u : Bool) (i : Idx) : Decidable (TObstacle m u i) := by
  unfold TObstacle; infer_instance

example : GoodRes exactRounding 1 ∧ Unrotated idAff ∧ exSeg81ok.grid.WF ∧
    exactRounding.r32 (exactRounding.r64 (exactRounding.r64 ((Real.sqrt 4 : ℝ) : EReal) * (1 : ℝ))) ≠ ⊤ ∧
    SmallGrid (enlarge exSeg81ok.dims) ∧
    (∀ i j, InBounds exSeg81ok.dims i → Inward exSeg81ok.dims i j →
      (TObstacle exSeg81ok true i ↔ TObstacle exSeg81ok true j)) ∧
    FreeOrNamed exSeg81ok ⟨0, 0, 0⟩ ∧ FreeOrNamed exSeg81ok ⟨3, 0, 0⟩ := by
  refine ⟨goodRes_one, idAff_unrotated, rfl, ?_, by unfold SmallGrid; decide, ?_,
    by unfold FreeOrNamed; decide, by unfold FreeOrNamed; decide⟩
  · simp [exactRounding]
  · have hall : ∀ i ∈ exSeg81ok.dims.all,
        (i.x = 0 → (TObstacle exSeg81ok true i ↔ TObstacle exSeg81ok true ⟨1, i.y, i.z⟩)) ∧
        (i.x + 1 = 4 → (TObstacle exSeg81ok true i ↔ TObstacle exSeg81ok true ⟨i.x - 1, i.y, i.z⟩)) := by
      decide
    intro i j hi hij
    have := hall i (Dims.mem_all.mpr (inB_iff_spec.mpr hi))
    rcases hij with ⟨_, b, rfl⟩ | ⟨_, b, rfl⟩ | ⟨a, _⟩ | ⟨a, _⟩ | ⟨a, _⟩ | ⟨a, _⟩
    · exact this.1 b
    · exact this.2 b
    all_goals exact absurd a (by decide)

/-! ## C82: without a border, inside an unnamed filled shell -/

/-- Every cell on the outside of the grid (for axes with more than one cell) is an obstacle without an
object. -/
def UnnamedShell (m : TMap) : Prop :=
  ∀ i, InBounds m.dims i → OnThickFace m.dims i → TObstacle m true i ∧ (m.getImm i).1.obj = 0

/-- The full statement of C82: without the virtual border, if the outside cells are filled and
unnamed, every free or named cell inside gets a segment. -/
def C82Statement (R : Rounding) : Prop := ∀ (res : ℝ) (origin inv : Aff ℝ) (m : TMap) (thr : ℝ),
  GoodRes R res → 0 < R.r32 res → m.grid.WF → m.dims.size < 2 ^ 32 → SmallGrid m.dims →
  UnnamedShell m → ∃ m' n, m.updateConvex R res origin inv thr false = some (m', n) ∧
    ∀ i, InBounds m.dims i → ¬ OnThickFace m.dims i → FreeOrNamed m i →
      1 ≤ (m'.getImm i).1.seg.toNat

/-- C82, the part that holds: the origin does not rotate and no filled cell of an object touches the
shell.  Missing: other maps, for which the statement is false (`C82_false`). -/
theorem C82_shell_partial {R : Rounding} {res : ℝ} (hres : GoodRes R res) (h32 : 0 < R.r32 res)
    {origin inv : Aff ℝ} (hrot : Unrotated origin) (m : TMap) (h : m.grid.WF)
    (hsz : m.dims.size < 2 ^ 32) (hd : SmallGrid m.dims) (thr : ℝ) (hshell : UnnamedShell m)
    (hclear : ∀ i j, InBounds m.dims i → Inward m.dims i j → ¬ NamedObstacle m true j) :
    ∃ m' n, m.updateConvex R res origin inv thr false = some (m', n) ∧
      ∀ i, InBounds m.dims i → FreeOrNamed m i →
        1 ≤ (m'.getImm i).1.seg.toNat ∧ (m'.getImm i).1.seg.toNat ≤ n := by
  refine TMap.all_segmented hres.1 hrot h hsz thr (border := false) hd ?_
  intro o ho i j hi hij
  have ho : m.extractFreeNamed R (res, res, res) (some ⊤) true = some o := ho
  obtain ⟨o', ho', _, hval⟩ := C41_trichotomy hres h32 m hd (some ⊤) true
  rw [ho] at ho'
  simp only [Option.some.injEq] at ho'
  subst ho'
  obtain ⟨x, hx, _, _, hx0⟩ := hval i hi
  obtain ⟨y, hy, hy1, _, hy0⟩ := hval j (hij.inBounds hi)
  have h0 : x = 0 := hx0.mpr (hshell i hi hij.onFace)
  have hy : 0 ≤ TMap.realOf (o.sdf.get j) := by
    rw [hy]
    show 0 ≤ y.toReal
    apply EReal.toReal_nonneg
    by_cases hob : TObstacle m true j
    · by_cases hn : (m.getImm j).1.obj = 0
      · rw [hy0.mpr ⟨hob, hn⟩]
      · exact absurd ⟨hob, hn⟩ (hclear i j hi hij)
    · exact le_trans h32.le (hy1.mpr hob)
  have e1 : TMap.realOf (o.sdf.get i) = 0 := by rw [hx, h0]; simp [TMap.realOf]
  rw [e1]
  exact ⟨fun _ => hy, fun h => absurd h (lt_irrefl _)⟩

/-- C41, cells that touch.  In the free-and-named-objects field a free cell that shares a face with an
obstacle has exactly the stored resolution, and a filled cell of an object that shares a face with a
cell that is free or unnamed has exactly minus the stored resolution. -/
theorem C41_touching {R : Rounding} {res : ℝ} (hres : GoodRes R res) (h32 : 0 < R.r32 res)
    (m : TMap) (hd : SmallGrid m.dims) {oob : FVal} {u : Bool} {o : Out}
    (ho : m.extractFreeNamed R (res, res, res) oob u = some o) {v w : Idx} (hv : InBounds m.dims v)
    (hw : InBounds m.dims w) (h1 : sqDist v w = 1) :
    (¬ TObstacle m u v → TObstacle m u w → o.sdf.get v = some (R.r32 res)) ∧
    (NamedObstacle m u v → ¬ NamedObstacle m u w → o.sdf.get v = some (-R.r32 res)) := by
  obtain ⟨o', fr, ob, a, b, a', b', ho', k1, k2, _, _, _, hval⟩ :=
    TMap.freeNamed_spec (R := R) res m hd oob u
  rw [ho] at ho'
  simp only [Option.some.injEq] at ho'
  subst ho'
  obtain ⟨c1, c2, _⟩ := TMap.freeNamed_value hres h32 m k1 k2 hv
  have hmem : w ∈ m.dims.all := Dims.mem_all.mpr (inB_iff_spec.mpr hw)
  rw [hval v hv]
  constructor
  · intro hf hob
    have e1 : TMap.occFilled u (m.grid.get v) = false := by
      rw [← Bool.not_eq_true, TMap.occFilled_iff]; exact hf
    have e2 : TMap.occFilled u (m.grid.get w) = true := (TMap.occFilled_iff m u w).mpr hob
    rw [(c1 hf).1]
    unfold exactVal
    simp only [e1, Bool.false_eq_true, if_false]
    rw [reported_one hd k1.ha hv (p := w) (by rw [List.mem_filter]; exact ⟨hmem, e2⟩)
      (by rw [List.mem_filter, e1]; simp) h1, scaled_one hres.2]
  · intro hn hw'
    have e1 : TMap.namedFilled u (m.grid.get v) = true := (TMap.namedFilled_iff m u v).mpr hn
    have e2 : TMap.namedFilled u (m.grid.get w) = false := by
      rw [← Bool.not_eq_true, TMap.namedFilled_iff]; exact hw'
    rw [(c2 hn).1]
    unfold exactVal
    simp only [e1, if_true]
    rw [reported_one hd k2.hb hv (p := w) (by rw [List.mem_filter, e2]; exact ⟨hmem, rfl⟩)
      (by rw [List.mem_filter, e1]; simp) h1, scaled_one hres.2, R.odd32]

/-- A filled unnamed shell around two columns: object 1 above a free cell, beside free cells. -/
def exShell : TMap := (TMap.create false ⟨4, 5, 1⟩ (TCell.ofObj F32.one 0) (TCell.ofObj F32.one 0)).run
  [.setValue ⟨1, 1, 0⟩ (TCell.ofObj 0 0), .setValue ⟨1, 2, 0⟩ (TCell.ofObj F32.one 1),
   .setValue ⟨1, 3, 0⟩ (TCell.ofObj F32.one 1), .setValue ⟨2, 1, 0⟩ (TCell.ofObj 0 0),
   .setValue ⟨2, 2, 0⟩ (TCell.ofObj 0 0), .setValue ⟨2, 3, 0⟩ (TCell.ofObj 0 0)]

instance (m : TMap) (u : Bool) (i : Idx) : Decidable (NamedObstacle m u i) := by
  unfold NamedObstacle; infer_instance

instance (d : Dims) (i : Idx) : Decidable (OnThickFace d i) := by
  unfold OnThickFace; infer_instance

theorem exShell_shell : UnnamedShell exShell := by
  have hall : ∀ i ∈ exShell.dims.all, OnThickFace exShell.dims i →
      TObstacle exShell true i ∧ (exShell.getImm i).1.obj = 0 := by decide +kernel
  exact fun i hi => hall i (Dims.mem_all.mpr (inB_iff_spec.mpr hi))

/-- C82 is false: an object's path moves from its cell to the shell, where the next cell's gradient
points out of the grid. -/
theorem C82_false : ¬ C82Statement exactRounding := by
  intro hst
  have hd : SmallGrid exShell.dims := by unfold SmallGrid; decide
  obtain ⟨m', n, hup, hall⟩ := hst 1 idAff idAff exShell 1 goodRes_one r32_one rfl (by decide) hd
    exShell_shell
  have hin : ∀ i ∈ exShell.dims.all, InBounds exShell.dims i :=
    fun i hi => inB_iff_spec.mp (Dims.mem_all.mp hi)
  have h12 : InBounds exShell.dims ⟨1, 2, 0⟩ := hin _ (by decide)
  have h1 := hall ⟨1, 2, 0⟩ h12 (by decide) (by unfold FreeOrNamed; decide)
  obtain ⟨o, ho, hdim⟩ := TMap.segField_some (R := exactRounding) (res := 1) exShell false hd
  have ho' : exShell.extractFreeNamed exactRounding (1, 1, 1) (some ⊤) true = some o := ho
  have hdim' : (TMap.asMSdf 1 idAff idAff o.sdf).grid.dims = ⟨4, 5, 1⟩ := hdim
  have hfree : ∀ v w, v ∈ exShell.dims.all → w ∈ exShell.dims.all → sqDist v w = 1 →
      ¬ TObstacle exShell true v → TObstacle exShell true w →
      TMap.realOf (o.sdf.get v) = 1 := by
    intro v w hv hw hs a b
    rw [(C41_touching goodRes_one r32_one exShell hd ho' (hin _ hv) (hin _ hw) hs).1 a b]
    simp [TMap.realOf, exactRounding]
  have hnamed : ∀ v w, v ∈ exShell.dims.all → w ∈ exShell.dims.all → sqDist v w = 1 →
      NamedObstacle exShell true v → ¬ NamedObstacle exShell true w →
      TMap.realOf (o.sdf.get v) = -1 := by
    intro v w hv hw hs a b
    rw [(C41_touching goodRes_one r32_one exShell hd ho' (hin _ hv) (hin _ hw) hs).2 a b]
    simp [TMap.realOf, exactRounding]
  have hzero : ∀ v ∈ exShell.dims.all, TObstacle exShell true v → (exShell.getImm v).1.obj = 0 →
      TMap.realOf (o.sdf.get v) = 0 := by
    intro v hv a b
    obtain ⟨o'', ho'', _, hval⟩ := C41_trichotomy goodRes_one r32_one exShell hd (some ⊤) true
    rw [ho'] at ho''
    simp only [Option.some.injEq] at ho''
    subst ho''
    obtain ⟨x, hx, _, _, h0⟩ := hval v (hin v hv)
    rw [hx, h0.mpr ⟨a, b⟩]
    simp [TMap.realOf]
  have v11 := hfree ⟨1, 1, 0⟩ ⟨0, 1, 0⟩ (by decide) (by decide) (by decide) (by decide) (by decide)
  have v22 := hfree ⟨2, 2, 0⟩ ⟨3, 2, 0⟩ (by decide) (by decide) (by decide) (by decide) (by decide)
  have v12 := hnamed ⟨1, 2, 0⟩ ⟨0, 2, 0⟩ (by decide) (by decide) (by decide) (by decide) (by decide)
  have v13 := hnamed ⟨1, 3, 0⟩ ⟨0, 3, 0⟩ (by decide) (by decide) (by decide) (by decide) (by decide)
  have v02 := hzero ⟨0, 2, 0⟩ (by decide) (by decide) (by decide)
  have v03 := hzero ⟨0, 3, 0⟩ (by decide) (by decide) (by decide)
  have v04 := hzero ⟨0, 4, 0⟩ (by decide) (by decide) (by decide)
  have hrot : ∀ p, (TMap.asMSdf 1 idAff idAff o.sdf).origin.lin p = p := idAff_unrotated
  have g12 : (TMap.asMSdf 1 idAff idAff o.sdf).gradField.grad ⟨1, 2, 0⟩ = [1 / 2, -1, 0] := by
    have hgg : (TMap.asMSdf 1 idAff idAff o.sdf).gridGrad ⟨1, 2, 0⟩ true = [1 / 2, -1, 0] := by
      unfold MSdf.gridGrad
      simp only [hdim', TMap.asMSdf_get]
      norm_num [TMap.asMSdf, Dims.inB, v11, v22, v13, v02]
    show MSdf.gradient _ _ _ = _
    unfold MSdf.gradient
    rw [hgg]
    simp only [hrot]
  have g03 : (TMap.asMSdf 1 idAff idAff o.sdf).gradField.grad ⟨0, 3, 0⟩ = [-1, 0, 0] := by
    have hgg : (TMap.asMSdf 1 idAff idAff o.sdf).gridGrad ⟨0, 3, 0⟩ true = [-1, 0, 0] := by
      unfold MSdf.gridGrad
      simp only [hdim', TMap.asMSdf_get]
      norm_num [TMap.asMSdf, Dims.inB, v13, v02, v03, v04]
    show MSdf.gradient _ _ _ = _
    unfold MSdf.gradient
    rw [hgg]
    simp only [hrot]
  have hz := TMap.seg_zero_of_offGrid (m := exShell) (by norm_num) rfl (by decide) (border := false) hd
    ho hup h12 (j := ⟨0, 3, 0⟩) (k := ⟨-1, 3, 0⟩) (.single ⟨?_, ?_, ?_⟩) ?_ ?_ ?_
  · rw [hz] at h1; simp at h1
  · intro hflat
    have := hflat (-1) (by rw [g12]; simp)
    norm_num [MSdf.gradField, TMap.asMSdf] at this
  · refine ⟨_, _, _, g12, ?_⟩
    rw [TMap.asMSdf_neg, v12]
    norm_num [MSdf.gradField, TMap.asMSdf, unitStep]
  · exact hin _ (by decide)
  · intro hflat
    have := hflat (-1) (by rw [g03]; simp)
    norm_num [MSdf.gradField, TMap.asMSdf] at this
  · refine ⟨_, _, _, g03, ?_⟩
    rw [TMap.asMSdf_neg, v03]
    norm_num [MSdf.gradField, TMap.asMSdf, unitStep]
  · simp [InBounds]

/-- A shell around free cells and an object that does not touch it. -/
def exShellOk : TMap := (TMap.create false ⟨5, 1, 1⟩ (TCell.ofObj 0 0) (TCell.ofObj F32.one 0)).run
  [.setValue ⟨0, 0, 0⟩ (TCell.ofObj F32.one 0), .setValue ⟨2, 0, 0⟩ (TCell.ofObj F32.one 3),
   .setValue ⟨4, 0, 0⟩ (TCell.ofObj F32.half 0)]

example : exShellOk.grid.WF ∧ SmallGrid exShellOk.dims ∧ UnnamedShell exShellOk ∧
    (∀ i j, InBounds exShellOk.dims i → Inward exShellOk.dims i j →
      ¬ NamedObstacle exShellOk true j) ∧
    FreeOrNamed exShellOk ⟨1, 0, 0⟩ ∧ NamedObstacle exShellOk true ⟨2, 0, 0⟩ := by
  refine ⟨rfl, by unfold SmallGrid; decide, ?_, ?_, by unfold FreeOrNamed; decide, by decide⟩
  · have hall : ∀ i ∈ exShellOk.dims.all, OnThickFace exShellOk.dims i →
        TObstacle exShellOk true i ∧ (exShellOk.getImm i).1.obj = 0 := by decide +kernel
    exact fun i hi => hall i (Dims.mem_all.mpr (inB_iff_spec.mpr hi))
  · have hall : ∀ i ∈ exShellOk.dims.all,
        (i.x = 0 → ¬ NamedObstacle exShellOk true ⟨1, i.y, i.z⟩) ∧
        (i.x + 1 = 5 → ¬ NamedObstacle exShellOk true ⟨i.x - 1, i.y, i.z⟩) := by decide +kernel
    intro i j hi hij
    have := hall i (Dims.mem_all.mpr (inB_iff_spec.mpr hi))
    rcases hij with ⟨_, b, rfl⟩ | ⟨_, b, rfl⟩ | ⟨a, _⟩ | ⟨a, _⟩ | ⟨a, _⟩ | ⟨a, _⟩
    · exact this.1 b
    · exact this.2 b
    all_goals exact absurd a (by decide)

end Verif
