import Verif.Props.AutoDiff
import Mathlib.Analysis.Calculus.Deriv.Add
import Mathlib.Analysis.Calculus.Deriv.Mul
import Mathlib.Analysis.Calculus.Deriv.Comp

/-!
# C88: gradients by cell index

`GetAutoDiffGradient` and `GetSmoothGradient` asked by cell index answer for the world location of
the centre of that cell.  There the header warns that automatic differentiation "does not work"; the
theorems say exactly what it returns.
-/

namespace Verif

open Spec

variable {K : Type} [Field K] [LinearOrder K] [IsStrictOrderedRing K]

/-! ## Specification -/

/-- `p` is the world location whose grid-frame coordinates are the centre of cell `i`. -/
def AtCenter (s : MSdf K) (i : Idx) (p : V3 K) : Prop :=
  s.toGrid p = ⟨((i.x : K) + 1 / 2) * s.res, ((i.y : K) + 1 / 2) * s.res, ((i.z : K) + 1 / 2) * s.res⟩

/-- Difference quotient on an axis of `n` cells at cell `k`: forward, but backward at the last cell,
and 0 on an axis of one cell. -/
def stepQuotient (n : Nat) (res : K) (f : Int → K) (k : Int) : K :=
  if k + 1 < n then (f (k + 1) - f k) / res else if 0 < k then (f k - f (k - 1)) / res else 0

/-- The three quotients of the distances to the nearest opposite cell face. -/
def stepGradient (s : MSdf K) (i : Idx) : V3 K :=
  let c := fun j => halfCellCloser s.res (s.grid.get j)
  ⟨stepQuotient s.grid.dims.nx s.res (fun k => c ⟨k, i.y, i.z⟩) i.x,
   stepQuotient s.grid.dims.ny s.res (fun k => c ⟨i.x, k, i.z⟩) i.y,
   stepQuotient s.grid.dims.nz s.res (fun k => c ⟨i.x, i.y, k⟩) i.z⟩

/-! ## Proofs -/

theorem toWorld_center_at [FloorRing K] (s : MSdf K) (hf : RigidFrame s) (i : Idx) (p : V3 K)
    (hp : AtCenter s i p) : s.toWorld (s.center i) = p := by
  have : s.center i = s.toGrid p := by rw [hp]; rfl
  rw [this, hf.left]

/-- C88.  The queries by cell index answer for the world location of the cell's centre. -/
theorem C88_location [FloorRing K] (s : MSdf K) (hf : RigidFrame s) (i : Idx) (p : V3 K)
    (hp : AtCenter s i p) :
    s.autoDiffGradientIdx i = s.autoDiffGradient p ∧
    ∀ window, s.smoothGradientIdx i window = s.smoothGradient p window := by
  unfold MSdf.autoDiffGradientIdx MSdf.smoothGradientIdx
  rw [toWorld_center_at s hf i p hp]
  exact ⟨rfl, fun _ => rfl⟩

theorem atCenter_cell [FloorRing K] (s : MSdf K) (hr : 0 < s.res) (i : Idx) (p : V3 K)
    (hp : AtCenter s i p) : s.locIdx p = i := by
  unfold MSdf.locIdx
  rw [hp]
  exact cellOf_center s hr i

/-- C88.  For an index outside the grid both results are empty. -/
theorem C88_outside [FloorRing K] (s : MSdf K) (hr : 0 < s.res) (hf : RigidFrame s) (i : Idx)
    (hi : ¬ InBounds s.grid.dims i) (window : K) :
    s.autoDiffGradientIdx i = some [] ∧ s.smoothGradientIdx i window = some [] := by
  have hl : s.locIdx (s.toWorld (s.center i)) = i := by
    unfold MSdf.locIdx; rw [hf.right, cellOf_center s hr]
  have hb : ¬ s.grid.dims.inB i = true := fun h => hi (inB_iff_spec.mp h)
  constructor
  · unfold MSdf.autoDiffGradientIdx MSdf.autoDiffGradient
    rw [hl, if_neg hb]
  · unfold MSdf.smoothGradientIdx MSdf.smoothGradient MSdf.locInB
    dsimp only
    rw [hl, if_neg hb]

/-- Derivative of a dual trilinear blend. -/
theorem trilinear_dual_d (s : MSdf K) (hr : s.res ≠ 0) (c : V3 K) (q : V3 (Dual K))
    (v : Bool → Bool → Bool → K) (w : V3 K)
    (hx : q.x.val = c.x + w.x * s.res) (hy : q.y.val = c.y + w.y * s.res)
    (hz : q.z.val = c.z + w.z * s.res) (D : V3 K)
    (hDx : D.x * s.res = lerp w.y
      (lerp w.z (v true false false - v false false false) (v true false true - v false false true))
      (lerp w.z (v true true false - v false true false) (v true true true - v false true true)))
    (hDy : D.y * s.res = lerp w.x
      (lerp w.z (v false true false - v false false false) (v false true true - v false false true))
      (lerp w.z (v true true false - v true false false) (v true true true - v true false true)))
    (hDz : D.z * s.res = lerp w.x
      (lerp w.y (v false false true - v false false false) (v false true true - v false true false))
      (lerp w.y (v true false true - v true false false) (v true true true - v true true false))) :
    (MSdf.trilinear Dual.const s c q (v false false false) (v false false true) (v false true false)
      (v false true true) (v true false false) (v true false true) (v true true false)
      (v true true true)).d =
    ⟨D.x * q.x.d.x + D.y * q.y.d.x + D.z * q.z.d.x,
     D.x * q.x.d.y + D.y * q.y.d.y + D.z * q.z.d.y,
     D.x * q.x.d.z + D.y * q.y.d.z + D.z * q.z.d.z⟩ := by
  have ex := eq_div_of_mul_eq hr hDx
  have ey := eq_div_of_mul_eq hr hDy
  have ez := eq_div_of_mul_eq hr hDz
  simp only [MSdf.trilinear, MSdf.bilinearXY, MSdf.bilinear, Dual.add_d, Dual.sub_d,
    Dual.mul_d, Dual.add_val, Dual.sub_val, Dual.mul_val, Dual.const, V3.mk.injEq, add_sub_cancel_left,
    hx, hy, hz, ex, ey, ez, lerp]
  refine ⟨?_, ?_, ?_⟩ <;> (field_simp; ring)

/-- On one axis at a cell centre: the blend picks the cell and the difference is the quotient. -/
theorem center_axis [FloorRing K] (n : Nat) (i : Int) (h0 : 0 ≤ i) (h1 : i < n) (res : K)
    (hr : res ≠ 0) (f : Int → K) :
    stepQuotient n res f i * res =
      f (upperCell n ((i : K) + 1 / 2)) - f (lowerCell n ((i : K) + 1 / 2)) := by
  have e : ⌊(i : K) + 1 / 2 - 1 / 2⌋ = i := by simp
  unfold stepQuotient upperCell lowerCell
  rw [e]
  by_cases ha : i + 1 < n
  · rw [if_pos ha]
    have e1 : max 0 (min i ((n : Int) - 2)) = i := by omega
    rw [e1, show min (i + 1) ((n : Int) - 1) = i + 1 by omega]
    field_simp
  · rw [if_neg ha]
    by_cases hb : 0 < i
    · rw [if_pos hb]
      have e1 : max 0 (min i ((n : Int) - 2)) = i - 1 := by omega
      rw [e1, show min (i - 1 + 1) ((n : Int) - 1) = i by omega]
      field_simp
    · rw [if_neg hb]
      have e1 : max 0 (min i ((n : Int) - 2)) = i := by omega
      rw [e1, show min (i + 1) ((n : Int) - 1) = i by omega]
      ring

/-- C88.  `GetAutoDiffGradient` by the index of any cell returns the one-sided difference quotients
of the distances, rotated into the world. -/
theorem C88_autodiff [FloorRing K] (s : MSdf K) (hr : 0 < s.res) (hf : RigidFrame s) (i : Idx)
    (hi : InBounds s.grid.dims i) :
    s.autoDiffGradientIdx i = some [(s.origin.lin (stepGradient s i)).x,
      (s.origin.lin (stepGradient s i)).y, (s.origin.lin (stepGradient s i)).z] := by
  have hl : s.locIdx (s.toWorld (s.center i)) = i := by
    unfold MSdf.locIdx; rw [hf.right, cellOf_center s hr]
  have hin : Inside s (s.toWorld (s.center i)) := by unfold Inside; rw [hl]; exact hi
  have hne := hr.ne'
  obtain ⟨hx, hy, hz⟩ := center_div s hr i
  obtain ⟨⟨hx0, hx1⟩, ⟨hy0, hy1⟩, ⟨hz0, hz1⟩⟩ := hi
  obtain ⟨t1, t2, t3⟩ := rigid_transpose hf
  have hd := estGrid_dual_gen s hr _ hin
  unfold MSdf.autoDiffGradientIdx MSdf.autoDiffGradient
  rw [if_pos (inB_iff_spec.mpr hin), hd, hf.right]
  have key := trilinear_dual_d s hne (s.center
          ⟨lowerCell s.grid.dims.nx ((i.x : K) + 1 / 2), lowerCell s.grid.dims.ny ((i.y : K) + 1 / 2),
            lowerCell s.grid.dims.nz ((i.z : K) + 1 / 2)⟩)
      (s.inv.app Dual.const (MSdf.seedDual (s.toWorld (s.center i)))) (cornerVal s (s.center i))
      ⟨(i.x : K) + 1 / 2 - 1 / 2 - lowerCell s.grid.dims.nx ((i.x : K) + 1 / 2),
       (i.y : K) + 1 / 2 - 1 / 2 - lowerCell s.grid.dims.ny ((i.y : K) + 1 / 2),
       (i.z : K) + 1 / 2 - 1 / 2 - lowerCell s.grid.dims.nz ((i.z : K) + 1 / 2)⟩
      (by
        have : (s.inv.app Dual.const (MSdf.seedDual (s.toWorld (s.center i)))).x.val =
          (s.toGrid (s.toWorld (s.center i))).x := rfl
        rw [this, hf.right]; simp only [MSdf.center]; ring)
      (by
        have : (s.inv.app Dual.const (MSdf.seedDual (s.toWorld (s.center i)))).y.val =
          (s.toGrid (s.toWorld (s.center i))).y := rfl
        rw [this, hf.right]; simp only [MSdf.center]; ring)
      (by
        have : (s.inv.app Dual.const (MSdf.seedDual (s.toWorld (s.center i)))).z.val =
          (s.toGrid (s.toWorld (s.center i))).z := rfl
        rw [this, hf.right]; simp only [MSdf.center]; ring)
      (stepGradient s i) ?_ ?_ ?_
  · rw [hx, hy, hz]
    simp only [Option.map_some, Option.some.injEq]
    rw [key]
    have ex : (s.inv.app Dual.const (MSdf.seedDual (s.toWorld (s.center i)))).x.d = s.inv.rx := by
      simp [Aff.app, MSdf.seedDual, Dual.add_d, Dual.mul_d, Dual.const]
    have ey : (s.inv.app Dual.const (MSdf.seedDual (s.toWorld (s.center i)))).y.d = s.inv.ry := by
      simp [Aff.app, MSdf.seedDual, Dual.add_d, Dual.mul_d, Dual.const]
    have ez : (s.inv.app Dual.const (MSdf.seedDual (s.toWorld (s.center i)))).z.d = s.inv.rz := by
      simp [Aff.app, MSdf.seedDual, Dual.add_d, Dual.mul_d, Dual.const]
    rw [ex, ey, ez, t1, t2, t3]
    simp only [Aff.lin, V3.dot, List.cons.injEq, and_true]
    refine ⟨?_, ?_, ?_⟩ <;> ring
  all_goals
    unfold cornerVal
    simp only [hx, hy, hz, pick, if_true, Bool.false_eq_true, if_false, stepGradient]
  · rw [center_axis (K := K) _ _ hx0 hx1 _ hne,
      lerp_center s.grid.dims.nz i.z hz0 hz1 (fun z => halfCellCloser s.res (s.grid.get ⟨_, _, z⟩)
        - halfCellCloser s.res (s.grid.get ⟨_, _, z⟩)),
      lerp_center s.grid.dims.nz i.z hz0 hz1 (fun z => halfCellCloser s.res (s.grid.get ⟨_, _, z⟩)
        - halfCellCloser s.res (s.grid.get ⟨_, _, z⟩)),
      lerp_center s.grid.dims.ny i.y hy0 hy1 (fun y => halfCellCloser s.res (s.grid.get ⟨_, y, _⟩)
        - halfCellCloser s.res (s.grid.get ⟨_, y, _⟩))]
  · rw [center_axis (K := K) _ _ hy0 hy1 _ hne,
      lerp_center s.grid.dims.nz i.z hz0 hz1 (fun z => halfCellCloser s.res (s.grid.get ⟨_, _, z⟩)
        - halfCellCloser s.res (s.grid.get ⟨_, _, z⟩)),
      lerp_center s.grid.dims.nz i.z hz0 hz1 (fun z => halfCellCloser s.res (s.grid.get ⟨_, _, z⟩)
        - halfCellCloser s.res (s.grid.get ⟨_, _, z⟩)),
      lerp_center s.grid.dims.nx i.x hx0 hx1 (fun x => halfCellCloser s.res (s.grid.get ⟨x, _, _⟩)
        - halfCellCloser s.res (s.grid.get ⟨x, _, _⟩))]
  · rw [center_axis (K := K) _ _ hz0 hz1 _ hne,
      lerp_center s.grid.dims.ny i.y hy0 hy1 (fun y => halfCellCloser s.res (s.grid.get ⟨_, y, _⟩)
        - halfCellCloser s.res (s.grid.get ⟨_, y, _⟩)),
      lerp_center s.grid.dims.ny i.y hy0 hy1 (fun y => halfCellCloser s.res (s.grid.get ⟨_, y, _⟩)
        - halfCellCloser s.res (s.grid.get ⟨_, y, _⟩)),
      lerp_center s.grid.dims.nx i.x hx0 hx1 (fun x => halfCellCloser s.res (s.grid.get ⟨x, _, _⟩)
        - halfCellCloser s.res (s.grid.get ⟨x, _, _⟩))]

/-! ## Kinks -/

/-- The line through the centre of a cell along a grid axis, in world coordinates. -/
noncomputable def axisLine (s : MSdf ℝ) (i : Idx) (a : Fin 3) (t : ℝ) : ℝ × ℝ × ℝ :=
  (s.toWorld (between s i a t)).triple

theorem axisLine_differentiable (s : MSdf ℝ) (i : Idx) (a : Fin 3) :
    Differentiable ℝ (axisLine s i a) := by
  unfold axisLine V3.triple MSdf.toWorld Aff.app between V3.add V3.smul
  simp only [id]
  fun_prop

/-- C88.  Where the forward and the backward difference along some axis differ, `EstimateDistance`
has no derivative at the centre of the cell, so no answer could be its derivative there. -/
theorem C88_kink (s : MSdf ℝ) (hr : 0 < s.res) (hf : RigidFrame s) (i : Idx) (a : Fin 3)
    (hm : InBounds s.grid.dims (i - axisStep a)) (hi : InBounds s.grid.dims i)
    (hp : InBounds s.grid.dims (i + axisStep a))
    (hne : halfCellCloser s.res (s.grid.get (i + axisStep a)) - halfCellCloser s.res (s.grid.get i) ≠
      halfCellCloser s.res (s.grid.get i) - halfCellCloser s.res (s.grid.get (i - axisStep a)))
    (p : V3 ℝ) (hc : AtCenter s i p) :
    ¬ DifferentiableAt ℝ (estimatedDistance s) p.triple := by
  intro hd
  set A := halfCellCloser s.res (s.grid.get (i - axisStep a)) with hA
  set B := halfCellCloser s.res (s.grid.get i) with hB
  set C := halfCellCloser s.res (s.grid.get (i + axisStep a)) with hC
  have h0 : axisLine s i a 0 = p.triple := by
    unfold axisLine
    have : between s i a 0 = s.center i := by
      simp [between, V3.add, V3.smul]
    rw [this, toWorld_center_at s hf i p hc]
  have hφ : DifferentiableAt ℝ (fun t => estimatedDistance s (axisLine s i a t)) 0 := by
    apply DifferentiableAt.comp (x := (0 : ℝ)) (g := estimatedDistance s) (f := axisLine s i a)
    · rw [h0]; exact hd
    · exact axisLine_differentiable s i a 0
  have est : ∀ t, estimatedDistance s (axisLine s i a t) =
      ((s.estimate (s.toWorld (between s i a t))).map Prod.fst).getD 0 := fun t => rfl
  have fwd : ∀ t ∈ Set.Icc (0 : ℝ) 1, estimatedDistance s (axisLine s i a t) = B + t * (C - B) := by
    rintro t ⟨t0, t1⟩
    rw [est, estimate_between s hr hf i a hi hp t t0 t1]
    simp only [Option.map_some, Option.getD_some, lerp, ← hB, ← hC]
    ring
  have bwd : ∀ t ∈ Set.Icc (-1 : ℝ) 0, estimatedDistance s (axisLine s i a t) = B + t * (B - A) := by
    rintro t ⟨t0, t1⟩
    have hb : between s i a t = between s (i - axisStep a) a (t + 1) := by
      fin_cases a <;> ext <;>
        simp [between, V3.add, V3.smul, axisStep, MSdf.center] <;> ring
    have hs : i - axisStep a + axisStep a = i := by
      ext <;> simp
    rw [est, hb, estimate_between s hr hf (i - axisStep a) a hm (by rw [hs]; exact hi) (t + 1)
      (by linarith) (by linarith), hs]
    simp only [Option.map_some, Option.getD_some, lerp, ← hA, ← hB]
    ring
  obtain ⟨d, hd'⟩ : ∃ d, HasDerivAt (fun t => estimatedDistance s (axisLine s i a t)) d 0 :=
    ⟨_, hφ.hasDerivAt⟩
  have lin : ∀ m : ℝ, HasDerivAt (fun t : ℝ => B + t * m) m 0 := by
    intro m
    simpa using ((hasDerivAt_id (0 : ℝ)).mul_const m).const_add B
  have e1 : d = C - B := by
    have w1 : HasDerivWithinAt (fun t => estimatedDistance s (axisLine s i a t)) d
        (Set.Icc 0 1) 0 := hd'.hasDerivWithinAt
    have w2 : HasDerivWithinAt (fun t => estimatedDistance s (axisLine s i a t)) (C - B)
        (Set.Icc 0 1) 0 :=
      ((lin (C - B)).hasDerivWithinAt).congr fwd (fwd 0 ⟨le_refl _, zero_le_one⟩)
    exact UniqueDiffWithinAt.eq_deriv _ (uniqueDiffOn_Icc zero_lt_one 0 ⟨le_refl _, zero_le_one⟩) w1 w2
  have e2 : d = B - A := by
    have w1 : HasDerivWithinAt (fun t => estimatedDistance s (axisLine s i a t)) d
        (Set.Icc (-1) 0) 0 := hd'.hasDerivWithinAt
    have w2 : HasDerivWithinAt (fun t => estimatedDistance s (axisLine s i a t)) (B - A)
        (Set.Icc (-1) 0) 0 :=
      ((lin (B - A)).hasDerivWithinAt).congr bwd (bwd 0 ⟨by norm_num, le_refl _⟩)
    exact UniqueDiffWithinAt.eq_deriv _
      (uniqueDiffOn_Icc (by norm_num) 0 ⟨by norm_num, le_refl _⟩) w1 w2
  exact hne (e1.symm.trans e2)

/-! ## Non-vacuity -/

/-- `exSdf` (3x2x2, cell size 1/2, rotated and shifted frame), middle cell: the quotient along grid x is
`(-3/4 + 1/4) / (1/2) = -1`, which the frame turns into world y. -/
example : 0 < exSdf.res ∧ RigidFrame exSdf ∧ InBounds exSdf.grid.dims ⟨1, 1, 0⟩ ∧
    AtCenter exSdf ⟨1, 1, 0⟩ ⟨9 / 4, 19 / 4, 21 / 4⟩ ∧
    exSdf.autoDiffGradientIdx ⟨1, 1, 0⟩ = some [0, -1, 0] ∧
    exSdf.autoDiffGradientIdx ⟨3, 1, 0⟩ = some [] := by
  have h : InBounds exSdf.grid.dims ⟨1, 1, 0⟩ := by unfold InBounds exSdf; decide
  refine ⟨exSdf_res, exSdf_rigid, h, ?_, ?_,
    (C88_outside exSdf exSdf_res exSdf_rigid ⟨3, 1, 0⟩ (by unfold InBounds exSdf; decide) 0).1⟩
  · unfold AtCenter
    ext <;> norm_num [exSdf, MSdf.toGrid, Aff.app]
  · rw [C88_autodiff exSdf exSdf_res exSdf_rigid _ h]
    decide +kernel

/-- A 3x1x1 field with distances 1, 2, 5: the slope changes at the middle cell. -/
noncomputable def exKink : MSdf ℝ where
  grid := ⟨⟨3, 1, 1⟩, [1, 2, 5], 0, 9⟩
  res := 1
  origin := ⟨⟨1, 0, 0⟩, ⟨0, 1, 0⟩, ⟨0, 0, 1⟩, ⟨0, 0, 0⟩⟩
  inv := ⟨⟨1, 0, 0⟩, ⟨0, 1, 0⟩, ⟨0, 0, 1⟩, ⟨0, 0, 0⟩⟩

example : ¬ DifferentiableAt ℝ (estimatedDistance exKink) (3 / 2, 1 / 2, 1 / 2) ∧
    exKink.autoDiffGradientIdx ⟨1, 0, 0⟩ = some [3, 0, 0] := by
  have hr : 0 < exKink.res := by norm_num [exKink]
  have hf : RigidFrame exKink := by
    constructor
    · intro p; ext <;> simp [exKink, MSdf.toWorld, MSdf.toGrid, Aff.app]
    · intro p; ext <;> simp [exKink, MSdf.toWorld, MSdf.toGrid, Aff.app]
    · intro p q; simp [exKink, MSdf.toWorld, Aff.app, sqDist3]
  have g0 : exKink.grid.get ⟨0, 0, 0⟩ = 1 := rfl
  have g1 : exKink.grid.get ⟨1, 0, 0⟩ = 2 := rfl
  have g2 : exKink.grid.get ⟨2, 0, 0⟩ = 5 := rfl
  have h1 : InBounds exKink.grid.dims ⟨1, 0, 0⟩ := by unfold InBounds exKink; decide
  constructor
  · refine C88_kink exKink hr hf ⟨1, 0, 0⟩ 0 ?_ h1 ?_ ?_ ⟨3 / 2, 1 / 2, 1 / 2⟩ ?_
    · show InBounds exKink.grid.dims ⟨0, 0, 0⟩
      unfold InBounds exKink; decide
    · show InBounds exKink.grid.dims ⟨2, 0, 0⟩
      unfold InBounds exKink; decide
    · show halfCellCloser exKink.res (exKink.grid.get ⟨2, 0, 0⟩) -
        halfCellCloser exKink.res (exKink.grid.get ⟨1, 0, 0⟩) ≠
        halfCellCloser exKink.res (exKink.grid.get ⟨1, 0, 0⟩) -
        halfCellCloser exKink.res (exKink.grid.get ⟨0, 0, 0⟩)
      rw [g0, g1, g2]
      norm_num [halfCellCloser, exKink]
    · unfold AtCenter
      ext <;> norm_num [exKink, MSdf.toGrid, Aff.app]
  · rw [C88_autodiff exKink hr hf _ h1]
    have nx : exKink.grid.dims.nx = 3 := rfl
    have ny : exKink.grid.dims.ny = 1 := rfl
    have nz : exKink.grid.dims.nz = 1 := rfl
    have e : stepGradient exKink ⟨1, 0, 0⟩ = ⟨3, 0, 0⟩ := by
      ext <;> simp only [stepGradient, stepQuotient, nx, ny, nz] <;> norm_num [g1, g2]
      norm_num [halfCellCloser, exKink]
    rw [e]
    norm_num [Aff.lin, V3.dot, exKink]

end Verif
