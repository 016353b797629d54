import Verif.Spec.Interp
import Verif.Spec.Basic
import Verif.Props.CollisionMap
import Mathlib.Tactic.Positivity
import Mathlib.Data.Rat.Floor
import Mathlib.Tactic.FinCases

/-!
# Properties of distance estimates and gradients (C19, C20, C22, C23)
-/

namespace Verif

open Spec

variable {K : Type} [Field K] [LinearOrder K] [IsStrictOrderedRing K]

/-! ## C19 -/

/-- C19.  For a cell index inside an axis both chosen indices are inside, they differ by one
(coincide on one-cell axes) and the cell itself is one of them. -/
theorem C19_axis_indices (i : Int) (n : Nat) (off : K) (h0 : 0 ≤ i) (h1 : i < n) :
    let r := MSdf.axisIdx i n off
    0 ≤ r.1 ∧ r.2 < n ∧ (if n = 1 then r.2 = r.1 else r.2 = r.1 + 1) ∧ (r.1 = i ∨ r.2 = i) := by
  unfold MSdf.axisIdx
  split_ifs <;> dsimp only <;> omega

example : (0 : Int) ≤ 2 ∧ (2 : Int) < (3 : Nat) ∧ MSdf.axisIdx 2 (3 : Nat) (1 / 4 : ℚ) = (1, 2) := by
  refine ⟨by decide, by decide, ?_⟩
  norm_num [MSdf.axisIdx]

/-- C19.  The cell index itself is always one of the two, also outside the axis. -/
theorem axisIdx_self (i n : Int) (off : K) :
    (MSdf.axisIdx i n off).1 = i ∨ (MSdf.axisIdx i n off).2 = i := by
  unfold MSdf.axisIdx
  split_ifs <;> simp

theorem corrected_none {s : MSdf K} {i : Idx} (h : ¬ InBounds s.grid.dims i) :
    s.corrected i = none := by
  have hb : ¬ s.grid.dims.inB i = true := fun h' => h (inB_iff_spec.mp h')
  simp [MSdf.corrected, hb]

theorem corrected_some {s : MSdf K} {i : Idx} (h : InBounds s.grid.dims i) :
    s.corrected i = some (halfCellCloser s.res (s.grid.get i)) := by
  have hb : s.grid.dims.inB i = true := inB_iff_spec.mpr h
  simp only [MSdf.corrected, hb, if_true, halfCellCloser, ge_iff_le]
  split <;> simp [div_eq_mul_inv]

/-- C19.  The estimate of a point attributed to a cell outside the grid throws, whatever the
stored values are. -/
theorem C19_outside_throws (s : MSdf K) (p : V3 K) (i : Idx) (h : ¬ InBounds s.grid.dims i) :
    s.estGrid id id p i = none := by
  unfold MSdf.estGrid
  dsimp only [id]
  set ax := MSdf.axisIdx i.x s.grid.dims.nx (p.x - (s.center i).x) with hax
  set ay := MSdf.axisIdx i.y s.grid.dims.ny (p.y - (s.center i).y) with hay
  set az := MSdf.axisIdx i.z s.grid.dims.nz (p.z - (s.center i).z) with haz
  have key : s.corrected ⟨ax.1, ay.1, az.1⟩ = none ∨ s.corrected ⟨ax.1, ay.1, az.2⟩ = none ∨
      s.corrected ⟨ax.1, ay.2, az.1⟩ = none ∨ s.corrected ⟨ax.1, ay.2, az.2⟩ = none ∨
      s.corrected ⟨ax.2, ay.1, az.1⟩ = none ∨ s.corrected ⟨ax.2, ay.1, az.2⟩ = none ∨
      s.corrected ⟨ax.2, ay.2, az.1⟩ = none ∨ s.corrected ⟨ax.2, ay.2, az.2⟩ = none := by
    have hn : s.corrected i = none := corrected_none h
    have e : i = ⟨i.x, i.y, i.z⟩ := rfl
    rw [e] at hn
    rcases axisIdx_self i.x s.grid.dims.nx (p.x - (s.center i).x) with hx | hx <;>
      rcases axisIdx_self i.y s.grid.dims.ny (p.y - (s.center i).y) with hy | hy <;>
      rcases axisIdx_self i.z s.grid.dims.nz (p.z - (s.center i).z) with hz | hz <;>
      rw [← hax] at hx <;> rw [← hay] at hy <;> rw [← haz] at hz <;>
      simp only [hx, hy, hz, hn, true_or, or_true]
  rcases h1 : s.corrected ⟨ax.1, ay.1, az.1⟩ with _ | v1
  · rfl
  rcases h2 : s.corrected ⟨ax.1, ay.1, az.2⟩ with _ | v2
  · rfl
  rcases h3 : s.corrected ⟨ax.1, ay.2, az.1⟩ with _ | v3
  · rfl
  rcases h4 : s.corrected ⟨ax.1, ay.2, az.2⟩ with _ | v4
  · rfl
  rcases h5 : s.corrected ⟨ax.2, ay.1, az.1⟩ with _ | v5
  · rfl
  rcases h6 : s.corrected ⟨ax.2, ay.1, az.2⟩ with _ | v6
  · rfl
  rcases h7 : s.corrected ⟨ax.2, ay.2, az.1⟩ with _ | v7
  · rfl
  rcases h8 : s.corrected ⟨ax.2, ay.2, az.2⟩ with _ | v8
  · rfl
  simp [h1, h2, h3, h4, h5, h6, h7, h8] at key

/-! ## C20 -/

/-- The pair chosen by the code is the specification's pair. -/
theorem axisIdx_eq [FloorRing K] (n : Nat) (res x : K) (hr : 0 < res)
    (h0 : 0 ≤ ⌊x / res⌋) (h1 : ⌊x / res⌋ < n) :
    MSdf.axisIdx ⌊x / res⌋ n (x - (((⌊x / res⌋ : Int) : K) + 1 / 2) * res) =
      (lowerCell n (x / res), upperCell n (x / res)) := by
  set t := x / res with ht
  have hx : x = t * res := by rw [ht]; field_simp
  have hoff : (x - (((⌊t⌋ : Int) : K) + 1 / 2) * res ≥ 0) ↔ (⌊t⌋ : K) + 1 / 2 ≤ t := by
    rw [hx, ge_iff_le, ← sub_mul]
    constructor
    · intro h; have := nonneg_of_mul_nonneg_left h hr; linarith
    · intro h; exact mul_nonneg (by linarith) hr.le
  have hfl := Int.floor_le t
  have hlt := Int.lt_floor_add_one t
  unfold MSdf.axisIdx upperCell lowerCell
  by_cases hc : (⌊t⌋ : K) + 1 / 2 ≤ t
  · have e : ⌊t - 1 / 2⌋ = ⌊t⌋ := by
      rw [Int.floor_eq_iff]; constructor <;> linarith
    rw [if_pos (hoff.mpr hc), e]
    split_ifs <;> simp only [Prod.mk.injEq] <;> omega
  · have e : ⌊t - 1 / 2⌋ = ⌊t⌋ - 1 := by
      rw [Int.floor_eq_iff]; push_cast; constructor <;> linarith
    rw [if_neg (fun h => hc (hoff.mp h)), e]
    split_ifs <;> simp only [Prod.mk.injEq] <;> omega

theorem lowerCell_spec [FloorRing K] (n : Nat) (t : K) (hn : 0 < n) :
    0 ≤ lowerCell n t ∧ lowerCell n t < n ∧ 0 ≤ upperCell n t ∧ upperCell n t < n := by
  unfold upperCell lowerCell; omega

theorem cornerIdx_inB [FloorRing K] {d : Dims} (hx : 0 < d.nx) (hy : 0 < d.ny) (hz : 0 < d.nz)
    (a b c : K) (bx bY bz : Bool) :
    InBounds d ⟨pick bx (lowerCell d.nx a) (upperCell d.nx a),
      pick bY (lowerCell d.ny b) (upperCell d.ny b), pick bz (lowerCell d.nz c) (upperCell d.nz c)⟩ := by
  have h1 := lowerCell_spec d.nx a hx
  have h2 := lowerCell_spec d.ny b hy
  have h3 := lowerCell_spec d.nz c hz
  cases bx <;> cases bY <;> cases bz <;> simp only [pick, InBounds] <;> simp <;> omega

theorem trilinear_eq (s : MSdf K) (hr : s.res ≠ 0) (lo : Idx) (g : V3 K)
    (v : Bool → Bool → Bool → K) :
    MSdf.trilinear id s (s.center lo) g (v false false false) (v false false true)
        (v false true false) (v false true true) (v true false false) (v true false true)
        (v true true false) (v true true true) =
      trilerp ⟨g.x / s.res - 1 / 2 - lo.x, g.y / s.res - 1 / 2 - lo.y,
        g.z / s.res - 1 / 2 - lo.z⟩ v := by
  simp only [MSdf.trilinear, MSdf.bilinearXY, MSdf.bilinear, MSdf.center, trilerp, lerp, id]
  field_simp
  ring

/-- The estimate at a grid-frame point whose cell is in bounds. -/
theorem estGrid_eq [FloorRing K] (s : MSdf K) (hr : 0 < s.res) (g : V3 K)
    (h : InBounds s.grid.dims (s.cellOf g)) :
    s.estGrid id id g (s.cellOf g) = some (trilerp (cornerWeight s g) (cornerVal s g)) := by
  obtain ⟨⟨hx0, hx1⟩, ⟨hy0, hy1⟩, ⟨hz0, hz1⟩⟩ := h
  have ex := axisIdx_eq s.grid.dims.nx s.res g.x hr hx0 hx1
  have ey := axisIdx_eq s.grid.dims.ny s.res g.y hr hy0 hy1
  have ez := axisIdx_eq s.grid.dims.nz s.res g.z hr hz0 hz1
  have hb := cornerIdx_inB (K := K) (d := s.grid.dims) (by simp only [MSdf.cellOf] at hx0 hx1; omega)
    (by simp only [MSdf.cellOf] at hy0 hy1; omega) (by simp only [MSdf.cellOf] at hz0 hz1; omega)
    (g.x / s.res) (g.y / s.res) (g.z / s.res)
  have hc := fun bx bY bz => corrected_some (s := s) (hb bx bY bz)
  unfold MSdf.estGrid
  simp only [MSdf.cellOf, MSdf.center, id]
  rw [ex, ey, ez]
  have h000 := hc false false false
  have h001 := hc false false true
  have h010 := hc false true false
  have h011 := hc false true true
  have h100 := hc true false false
  have h101 := hc true false true
  have h110 := hc true true false
  have h111 := hc true true true
  simp only [pick, if_true, Bool.false_eq_true, if_false] at h000 h001 h010 h011 h100 h101 h110 h111
  simp only [h000, h001, h010, h011, h100, h101, h110, h111]
  refine congrArg some ?_
  have := trilinear_eq s hr.ne' ⟨lowerCell s.grid.dims.nx (g.x / s.res),
    lowerCell s.grid.dims.ny (g.y / s.res), lowerCell s.grid.dims.nz (g.z / s.res)⟩ g (cornerVal s g)
  simp only [cornerVal, pick, if_true, Bool.false_eq_true, if_false, MSdf.center] at this
  exact this

/-- C20.  For a location in the grid `EstimateDistance` succeeds and is the trilinear blend of the
eight surrounding corrected values; outside it reports the out-of-bounds value and `false`. -/
theorem C20_trilinear [FloorRing K] (s : MSdf K) (hr : 0 < s.res) (p : V3 K) :
    (InBounds s.grid.dims (s.locIdx p) → s.estimate p =
      some (trilerp (cornerWeight s (s.toGrid p)) (cornerVal s (s.toGrid p)), true)) ∧
    (¬ InBounds s.grid.dims (s.locIdx p) → s.estimate p = some (s.grid.oob, false)) := by
  constructor
  · intro h
    have hb := inB_iff_spec.mpr h
    unfold MSdf.estimate
    rw [if_pos hb]
    unfold MSdf.locIdx at h ⊢
    rw [estGrid_eq s hr _ h]; rfl
  · intro h
    have hb : ¬ s.grid.dims.inB (s.locIdx p) = true := fun h' => h (inB_iff_spec.mp h')
    unfold MSdf.estimate
    rw [if_neg hb]

theorem lowerCell_center [FloorRing K] (n : Nat) (i : Int) (h0 : 0 ≤ i) (h1 : i < n) :
    (lowerCell n ((i : K) + 1 / 2) = i ∨
      (lowerCell n ((i : K) + 1 / 2) = i - 1 ∧ upperCell n ((i : K) + 1 / 2) = i)) := by
  have e : ⌊(i : K) + 1 / 2 - 1 / 2⌋ = i := by simp
  unfold upperCell lowerCell
  rw [e]; omega

theorem lerp_zero (a b : K) : lerp 0 a b = a := by simp [lerp]
theorem lerp_one (a b : K) : lerp 1 a b = b := by simp [lerp]

/-- One axis of the blend at a cell centre picks that cell. -/
theorem lerp_center [FloorRing K] (n : Nat) (i : Int) (h0 : 0 ≤ i) (h1 : i < n) (f : Int → K) :
    lerp ((i : K) + 1 / 2 - 1 / 2 - lowerCell n ((i : K) + 1 / 2))
      (f (lowerCell n ((i : K) + 1 / 2))) (f (upperCell n ((i : K) + 1 / 2))) = f i := by
  rcases lowerCell_center (K := K) n i h0 h1 with h | ⟨h, h'⟩
  · rw [h]
    have : (i : K) + 1 / 2 - 1 / 2 - (i : K) = 0 := by ring
    rw [this, lerp_zero]
  · rw [h, h']
    have : (i : K) + 1 / 2 - 1 / 2 - ((i - 1 : Int) : K) = 1 := by push_cast; ring
    rw [this, lerp_one]

theorem center_div [FloorRing K] (s : MSdf K) (hr : 0 < s.res) (i : Idx) :
    (s.center i).x / s.res = (i.x : K) + 1 / 2 ∧ (s.center i).y / s.res = (i.y : K) + 1 / 2 ∧
      (s.center i).z / s.res = (i.z : K) + 1 / 2 := by
  have := hr.ne'
  refine ⟨?_, ?_, ?_⟩ <;> (unfold MSdf.center; dsimp only; rw [mul_div_assoc, div_self this, mul_one])

theorem floor_add_half [FloorRing K] (i : Int) : ⌊(i : K) + 1 / 2⌋ = i := by
  rw [Int.floor_eq_iff]; constructor <;> linarith

theorem cellOf_center [FloorRing K] (s : MSdf K) (hr : 0 < s.res) (i : Idx) :
    s.cellOf (s.center i) = i := by
  obtain ⟨hx, hy, hz⟩ := center_div s hr i
  ext <;> simp only [MSdf.cellOf, hx, hy, hz, floor_add_half]

/-- C20.  At the centre of every cell the estimate is exactly that cell's corrected value. -/
theorem C20_at_centers [FloorRing K] (s : MSdf K) (hr : 0 < s.res) (hf : RigidFrame s) (i : Idx)
    (hi : InBounds s.grid.dims i) :
    s.estimate (s.toWorld (s.center i)) = some (halfCellCloser s.res (s.grid.get i), true) := by
  have hl : s.locIdx (s.toWorld (s.center i)) = i := by
    unfold MSdf.locIdx; rw [hf.right, cellOf_center s hr]
  rw [(C20_trilinear s hr _).1 (by rw [hl]; exact hi), hf.right]
  obtain ⟨hx, hy, hz⟩ := center_div s hr i
  obtain ⟨⟨hx0, hx1⟩, ⟨hy0, hy1⟩, ⟨hz0, hz1⟩⟩ := hi
  unfold trilerp cornerWeight cornerVal
  simp only [hx, hy, hz, pick, if_true, Bool.false_eq_true, if_false]
  rw [lerp_center s.grid.dims.nz i.z hz0 hz1 (fun z => halfCellCloser s.res (s.grid.get ⟨_, _, z⟩)),
    lerp_center s.grid.dims.nz i.z hz0 hz1 (fun z => halfCellCloser s.res (s.grid.get ⟨_, _, z⟩)),
    lerp_center s.grid.dims.nz i.z hz0 hz1 (fun z => halfCellCloser s.res (s.grid.get ⟨_, _, z⟩)),
    lerp_center s.grid.dims.nz i.z hz0 hz1 (fun z => halfCellCloser s.res (s.grid.get ⟨_, _, z⟩)),
    lerp_center s.grid.dims.ny i.y hy0 hy1 (fun y => halfCellCloser s.res (s.grid.get ⟨_, y, _⟩)),
    lerp_center s.grid.dims.ny i.y hy0 hy1 (fun y => halfCellCloser s.res (s.grid.get ⟨_, y, _⟩)),
    lerp_center s.grid.dims.nx i.x hx0 hx1 (fun x => halfCellCloser s.res (s.grid.get ⟨x, _, _⟩))]

theorem lerp_bounds {w a b lo hi : K} (h0 : 0 ≤ w) (h1 : w ≤ 1) (ha : lo ≤ a ∧ a ≤ hi)
    (hb : lo ≤ b ∧ b ≤ hi) : lo ≤ lerp w a b ∧ lerp w a b ≤ hi := by
  unfold lerp
  constructor <;> nlinarith [mul_le_mul_of_nonneg_left ha.1 (sub_nonneg.mpr h1),
    mul_le_mul_of_nonneg_left hb.1 h0, mul_le_mul_of_nonneg_left ha.2 (sub_nonneg.mpr h1),
    mul_le_mul_of_nonneg_left hb.2 h0]

/-- Between the first and the last cell centre of an axis (given in cell units). -/
def BetweenCenters (n : Nat) (t : K) : Prop := 1 / 2 ≤ t ∧ t ≤ (n : K) - 1 / 2

theorem weight_range [FloorRing K] (n : Nat) (t : K) (h : BetweenCenters n t) :
    0 ≤ t - 1 / 2 - (lowerCell n t : K) ∧ t - 1 / 2 - (lowerCell n t : K) ≤ 1 := by
  obtain ⟨h1, h2⟩ := h
  have hfl := Int.floor_le (t - 1 / 2)
  have hlt := Int.lt_floor_add_one (t - 1 / 2)
  have hf0 : 0 ≤ ⌊t - 1 / 2⌋ := Int.floor_nonneg.mpr (by linarith)
  unfold lowerCell
  rcases le_total ⌊t - 1 / 2⌋ ((n : Int) - 2) with h | h
  · rw [min_eq_left h, max_eq_right hf0]
    constructor <;> linarith
  · rw [min_eq_right h]
    have hc : ((n : Int) - 2 : Int) ≤ ⌊t - 1 / 2⌋ := h
    rcases le_total 0 ((n : Int) - 2) with h3 | h3
    · rw [max_eq_right h3]
      have : (((n : Int) - 2 : Int) : K) ≤ (⌊t - 1 / 2⌋ : K) := by exact_mod_cast hc
      push_cast at this ⊢
      constructor <;> linarith
    · rw [max_eq_left h3]
      have hn : (n : K) ≤ 2 := by exact_mod_cast (by omega : n ≤ 2)
      push_cast
      constructor <;> linarith

/-- C20.  Between cell centres the estimate lies between the least and the greatest of the eight
corner values. -/
theorem C20_between [FloorRing K] (s : MSdf K) (hr : 0 < s.res) (p : V3 K)
    (hp : InBounds s.grid.dims (s.locIdx p))
    (hx : BetweenCenters s.grid.dims.nx ((s.toGrid p).x / s.res))
    (hy : BetweenCenters s.grid.dims.ny ((s.toGrid p).y / s.res))
    (hz : BetweenCenters s.grid.dims.nz ((s.toGrid p).z / s.res)) (lo hi : K)
    (hc : ∀ a b c, lo ≤ cornerVal s (s.toGrid p) a b c ∧ cornerVal s (s.toGrid p) a b c ≤ hi) :
    ∃ v, s.estimate p = some (v, true) ∧ lo ≤ v ∧ v ≤ hi := by
  refine ⟨_, (C20_trilinear s hr p).1 hp, ?_⟩
  obtain ⟨x0, x1⟩ := weight_range _ _ hx
  obtain ⟨y0, y1⟩ := weight_range _ _ hy
  obtain ⟨z0, z1⟩ := weight_range _ _ hz
  exact lerp_bounds x0 x1
    (lerp_bounds y0 y1 (lerp_bounds z0 z1 (hc _ _ _) (hc _ _ _))
      (lerp_bounds z0 z1 (hc _ _ _) (hc _ _ _)))
    (lerp_bounds y0 y1 (lerp_bounds z0 z1 (hc _ _ _) (hc _ _ _))
      (lerp_bounds z0 z1 (hc _ _ _) (hc _ _ _)))

/-! ### A concrete field for the non-vacuity examples

A 3x2x2 rational field with cell size 1/2, origin rotated by a quarter turn about z and shifted. -/

/-- Stored value of the example. -/
def exVal (i : Idx) : ℚ := if i.x = 0 then 1 / 2 else if i.x = 1 then -(1 / 2) else -1

def exSdf : MSdf ℚ where
  grid := ⟨⟨3, 2, 2⟩, (Dims.all ⟨3, 2, 2⟩).map exVal, 0, 9⟩
  res := 1 / 2
  origin := ⟨⟨0, -1, 0⟩, ⟨1, 0, 0⟩, ⟨0, 0, 1⟩, ⟨3, 4, 5⟩⟩
  inv := ⟨⟨0, 1, 0⟩, ⟨-1, 0, 0⟩, ⟨0, 0, 1⟩, ⟨-4, 3, -5⟩⟩

theorem exSdf_rigid : RigidFrame exSdf := by
  constructor
  · intro p
    ext <;> simp [exSdf, MSdf.toWorld, MSdf.toGrid, Aff.app]
  · intro p
    ext <;> simp [exSdf, MSdf.toWorld, MSdf.toGrid, Aff.app]
  · intro p q
    simp [exSdf, MSdf.toWorld, Aff.app, sqDist3]; ring

theorem exSdf_res : 0 < exSdf.res := by norm_num [exSdf]

example : 0 < exSdf.res ∧ RigidFrame exSdf ∧ InBounds exSdf.grid.dims ⟨1, 1, 0⟩ ∧
    exSdf.estimate (exSdf.toWorld (exSdf.center ⟨1, 1, 0⟩)) = some (-(1 / 4), true) := by
  have h : InBounds exSdf.grid.dims ⟨1, 1, 0⟩ := by unfold InBounds exSdf; decide
  refine ⟨exSdf_res, exSdf_rigid, h, ?_⟩
  rw [C20_at_centers exSdf exSdf_res exSdf_rigid _ h]
  have : exSdf.grid.get ⟨1, 1, 0⟩ = -(1 / 2) := by decide +kernel
  rw [this]
  norm_num [halfCellCloser, exSdf]

/-- A point of `exSdf` meeting the hypotheses of `C20_trilinear` and `C20_between`. -/
def exPoint : V3 ℚ := exSdf.toWorld ⟨1 / 2, 1 / 3, 1 / 2⟩

theorem exPoint_grid : exSdf.toGrid exPoint = ⟨1 / 2, 1 / 3, 1 / 2⟩ := exSdf_rigid.right _

example : InBounds exSdf.grid.dims (exSdf.locIdx exPoint) ∧
    BetweenCenters exSdf.grid.dims.nx ((exSdf.toGrid exPoint).x / exSdf.res) ∧
    BetweenCenters exSdf.grid.dims.ny ((exSdf.toGrid exPoint).y / exSdf.res) ∧
    BetweenCenters exSdf.grid.dims.nz ((exSdf.toGrid exPoint).z / exSdf.res) := by
  unfold MSdf.locIdx
  rw [exPoint_grid]
  refine ⟨?_, ?_, ?_, ?_⟩
  · unfold InBounds; decide +kernel
  all_goals (unfold BetweenCenters exSdf; norm_num)

/-! ## C22 -/

/-- One axis of the blend between the centres of cells `i` and `i + 1`. -/
theorem lerp_seg [FloorRing K] (n : Nat) (i : Int) (h0 : 0 ≤ i) (h1 : i + 1 < n) (w : K)
    (w0 : 0 ≤ w) (w1 : w ≤ 1) (f : Int → K) :
    lerp ((i : K) + 1 / 2 + w - 1 / 2 - lowerCell n ((i : K) + 1 / 2 + w))
      (f (lowerCell n ((i : K) + 1 / 2 + w))) (f (upperCell n ((i : K) + 1 / 2 + w))) =
      lerp w (f i) (f (i + 1)) := by
  have e : (i : K) + 1 / 2 + w - 1 / 2 = (i : K) + w := by ring
  rcases lt_or_eq_of_le w1 with hw | rfl
  · have e1 : ⌊(i : K) + w⌋ = i := by rw [Int.floor_eq_iff]; constructor <;> linarith
    have e2 : lowerCell n ((i : K) + 1 / 2 + w) = i := by
      unfold lowerCell; rw [e, e1]; omega
    have e3 : upperCell n ((i : K) + 1 / 2 + w) = i + 1 := by
      unfold upperCell; rw [e2]; omega
    rw [e, e2, e3]
    congr 1; ring
  · have e1 : (i : K) + 1 / 2 + 1 = ((i + 1 : Int) : K) + 1 / 2 := by push_cast; ring
    rw [e1, lerp_center n (i + 1) (by omega) h1 f, lerp_one]

/-- Unit index step along an axis (0 = x, 1 = y, 2 = z). -/
def axisStep : Fin 3 → Idx
  | 0 => ⟨1, 0, 0⟩
  | 1 => ⟨0, 1, 0⟩
  | 2 => ⟨0, 0, 1⟩

/-- The point a fraction `w` of the way from the centre of a cell to the centre of the next cell
along an axis (grid frame). -/
def between (s : MSdf K) (i : Idx) (a : Fin 3) (w : K) : V3 K :=
  (s.center i).add ((⟨(axisStep a).x, (axisStep a).y, (axisStep a).z⟩ : V3 K).smul (w * s.res))

/-- Along the segment between two face-adjacent cell centres the estimate is the straight-line
blend of the two corrected values. -/
theorem estimate_between [FloorRing K] (s : MSdf K) (hr : 0 < s.res) (hf : RigidFrame s) (i : Idx)
    (a : Fin 3) (hi : InBounds s.grid.dims i) (hj : InBounds s.grid.dims (i + axisStep a)) (w : K)
    (w0 : 0 ≤ w) (w1 : w ≤ 1) :
    s.estimate (s.toWorld (between s i a w)) =
      some (lerp w (halfCellCloser s.res (s.grid.get i))
        (halfCellCloser s.res (s.grid.get (i + axisStep a))), true) := by
  have hne := hr.ne'
  obtain ⟨hx, hy, hz⟩ := center_div s hr i
  have hfloor : ∀ k : Int, ⌊(k : K) + 1 / 2 + w⌋ = k ∨ ⌊(k : K) + 1 / 2 + w⌋ = k + 1 := by
    intro k
    have h1 := Int.floor_le ((k : K) + 1 / 2 + w)
    have h2 := Int.lt_floor_add_one ((k : K) + 1 / 2 + w)
    have h3 : k ≤ ⌊(k : K) + 1 / 2 + w⌋ := Int.le_floor.mpr (by linarith)
    have h4 : ⌊(k : K) + 1 / 2 + w⌋ < k + 2 := Int.floor_lt.mpr (by push_cast; linarith)
    omega
  have hI := hi
  have hJ := hj
  obtain ⟨⟨hx0, hx1⟩, ⟨hy0, hy1⟩, ⟨hz0, hz1⟩⟩ := hi
  obtain ⟨⟨gx0, gx1⟩, ⟨gy0, gy1⟩, ⟨gz0, gz1⟩⟩ := hj
  have gget : ∀ x y z, (⟨x, y, z⟩ : Idx) = ⟨x, y, z⟩ := fun _ _ _ => rfl
  fin_cases a
  · simp only [axisStep, Idx.add_x, Idx.add_y, Idx.add_z, Fin.zero_eta, Fin.isValue] at *
    have ex : (between s i 0 w).x / s.res = (i.x : K) + 1 / 2 + w := by
      simp only [between, V3.add, V3.smul, axisStep]
      rw [add_div, hx]; field_simp; push_cast; ring
    have ey : (between s i 0 w).y / s.res = (i.y : K) + 1 / 2 := by
      simp only [between, V3.add, V3.smul, axisStep]
      rw [add_div, hy]; simp
    have ez : (between s i 0 w).z / s.res = (i.z : K) + 1 / 2 := by
      simp only [between, V3.add, V3.smul, axisStep]
      rw [add_div, hz]; simp
    rw [(C20_trilinear s hr _).1 ?_, hf.right]
    · unfold trilerp cornerWeight cornerVal
      simp only [ex, ey, ez, pick, if_true, Bool.false_eq_true, if_false]
      rw [lerp_center s.grid.dims.nz i.z hz0 hz1
          (fun z => halfCellCloser s.res (s.grid.get ⟨_, _, z⟩)),
        lerp_center s.grid.dims.nz i.z hz0 hz1
          (fun z => halfCellCloser s.res (s.grid.get ⟨_, _, z⟩)),
        lerp_center s.grid.dims.nz i.z hz0 hz1
          (fun z => halfCellCloser s.res (s.grid.get ⟨_, _, z⟩)),
        lerp_center s.grid.dims.nz i.z hz0 hz1
          (fun z => halfCellCloser s.res (s.grid.get ⟨_, _, z⟩)),
        lerp_center s.grid.dims.ny i.y hy0 hy1
          (fun y => halfCellCloser s.res (s.grid.get ⟨_, y, _⟩)),
        lerp_center s.grid.dims.ny i.y hy0 hy1
          (fun y => halfCellCloser s.res (s.grid.get ⟨_, y, _⟩)),
        lerp_seg s.grid.dims.nx i.x hx0 gx1 w w0 w1
          (fun x => halfCellCloser s.res (s.grid.get ⟨x, _, _⟩))]
      have e : i + (⟨1, 0, 0⟩ : Idx) = ⟨i.x + 1, i.y, i.z⟩ := by ext <;> simp
      rw [e]
    · unfold MSdf.locIdx MSdf.cellOf
      rw [hf.right, ex, ey, ez, floor_add_half, floor_add_half]
      unfold InBounds; dsimp only
      rcases hfloor i.x with h | h <;> rw [h] <;> omega
  · simp only [axisStep, Idx.add_x, Idx.add_y, Idx.add_z, Fin.mk_one, Fin.isValue] at *
    have ex : (between s i 1 w).x / s.res = (i.x : K) + 1 / 2 := by
      simp only [between, V3.add, V3.smul, axisStep]
      rw [add_div, hx]; simp
    have ey : (between s i 1 w).y / s.res = (i.y : K) + 1 / 2 + w := by
      simp only [between, V3.add, V3.smul, axisStep]
      rw [add_div, hy]; field_simp; push_cast; ring
    have ez : (between s i 1 w).z / s.res = (i.z : K) + 1 / 2 := by
      simp only [between, V3.add, V3.smul, axisStep]
      rw [add_div, hz]; simp
    rw [(C20_trilinear s hr _).1 ?_, hf.right]
    · unfold trilerp cornerWeight cornerVal
      simp only [ex, ey, ez, pick, if_true, Bool.false_eq_true, if_false]
      rw [lerp_center s.grid.dims.nz i.z hz0 hz1
          (fun z => halfCellCloser s.res (s.grid.get ⟨_, _, z⟩)),
        lerp_center s.grid.dims.nz i.z hz0 hz1
          (fun z => halfCellCloser s.res (s.grid.get ⟨_, _, z⟩)),
        lerp_center s.grid.dims.nz i.z hz0 hz1
          (fun z => halfCellCloser s.res (s.grid.get ⟨_, _, z⟩)),
        lerp_center s.grid.dims.nz i.z hz0 hz1
          (fun z => halfCellCloser s.res (s.grid.get ⟨_, _, z⟩)),
        lerp_seg s.grid.dims.ny i.y hy0 gy1 w w0 w1
          (fun y => halfCellCloser s.res (s.grid.get ⟨_, y, _⟩)),
        lerp_seg s.grid.dims.ny i.y hy0 gy1 w w0 w1
          (fun y => halfCellCloser s.res (s.grid.get ⟨_, y, _⟩)),
        lerp_center s.grid.dims.nx i.x hx0 hx1
          (fun x => lerp w (halfCellCloser s.res (s.grid.get ⟨x, _, _⟩))
            (halfCellCloser s.res (s.grid.get ⟨x, _, _⟩)))]
      have e : i + (⟨0, 1, 0⟩ : Idx) = ⟨i.x, i.y + 1, i.z⟩ := by ext <;> simp
      rw [e]
    · unfold MSdf.locIdx MSdf.cellOf
      rw [hf.right, ex, ey, ez, floor_add_half, floor_add_half]
      unfold InBounds; dsimp only
      rcases hfloor i.y with h | h <;> rw [h] <;> omega
  · simp only [axisStep, Idx.add_x, Idx.add_y, Idx.add_z, Fin.reduceFinMk, Fin.isValue] at *
    have ex : (between s i 2 w).x / s.res = (i.x : K) + 1 / 2 := by
      simp only [between, V3.add, V3.smul, axisStep]
      rw [add_div, hx]; simp
    have ey : (between s i 2 w).y / s.res = (i.y : K) + 1 / 2 := by
      simp only [between, V3.add, V3.smul, axisStep]
      rw [add_div, hy]; simp
    have ez : (between s i 2 w).z / s.res = (i.z : K) + 1 / 2 + w := by
      simp only [between, V3.add, V3.smul, axisStep]
      rw [add_div, hz]; field_simp; push_cast; ring
    rw [(C20_trilinear s hr _).1 ?_, hf.right]
    · unfold trilerp cornerWeight cornerVal
      simp only [ex, ey, ez, pick, if_true, Bool.false_eq_true, if_false]
      rw [lerp_seg s.grid.dims.nz i.z hz0 gz1 w w0 w1
          (fun z => halfCellCloser s.res (s.grid.get ⟨_, _, z⟩)),
        lerp_seg s.grid.dims.nz i.z hz0 gz1 w w0 w1
          (fun z => halfCellCloser s.res (s.grid.get ⟨_, _, z⟩)),
        lerp_seg s.grid.dims.nz i.z hz0 gz1 w w0 w1
          (fun z => halfCellCloser s.res (s.grid.get ⟨_, _, z⟩)),
        lerp_seg s.grid.dims.nz i.z hz0 gz1 w w0 w1
          (fun z => halfCellCloser s.res (s.grid.get ⟨_, _, z⟩)),
        lerp_center s.grid.dims.ny i.y hy0 hy1
          (fun y => lerp w (halfCellCloser s.res (s.grid.get ⟨_, y, _⟩))
            (halfCellCloser s.res (s.grid.get ⟨_, y, _⟩))),
        lerp_center s.grid.dims.ny i.y hy0 hy1
          (fun y => lerp w (halfCellCloser s.res (s.grid.get ⟨_, y, _⟩))
            (halfCellCloser s.res (s.grid.get ⟨_, y, _⟩))),
        lerp_center s.grid.dims.nx i.x hx0 hx1
          (fun x => lerp w (halfCellCloser s.res (s.grid.get ⟨x, _, _⟩))
            (halfCellCloser s.res (s.grid.get ⟨x, _, _⟩)))]
      have e : i + (⟨0, 0, 1⟩ : Idx) = ⟨i.x, i.y, i.z + 1⟩ := by ext <;> simp
      rw [e]
    · unfold MSdf.locIdx MSdf.cellOf
      rw [hf.right, ex, ey, ez, floor_add_half, floor_add_half]
      unfold InBounds; dsimp only
      rcases hfloor i.z with h | h <;> rw [h] <;> omega

/-- C22.  If a stored value has magnitude at least one cell, the estimate at that cell's centre has
the same sign and its magnitude is smaller by exactly half a cell. -/
theorem C22_sign_at_centers [FloorRing K] (s : MSdf K) (hr : 0 < s.res) (hf : RigidFrame s)
    (i : Idx) (hi : InBounds s.grid.dims i) (hv : s.res ≤ |s.grid.get i|) :
    ∃ e, s.estimate (s.toWorld (s.center i)) = some (e, true) ∧
      (0 < e ↔ 0 < s.grid.get i) ∧ (e < 0 ↔ s.grid.get i < 0) ∧
      |e| = |s.grid.get i| - s.res / 2 := by
  refine ⟨_, C20_at_centers s hr hf i hi, ?_⟩
  unfold halfCellCloser
  rcases le_or_gt 0 (s.grid.get i) with h | h
  · rw [abs_of_nonneg h] at hv
    rw [if_pos h, abs_of_nonneg h, abs_of_nonneg (by linarith)]
    refine ⟨⟨?_, ?_⟩, ⟨?_, ?_⟩, rfl⟩ <;> intro h' <;> linarith
  · rw [abs_of_neg h] at hv
    rw [if_neg (not_le.mpr h), abs_of_neg h, abs_of_neg (by linarith)]
    refine ⟨⟨?_, ?_⟩, ⟨?_, ?_⟩, by ring⟩ <;> intro h' <;> linarith

/-- C22.  Between a free cell with value `+res` and a face-adjacent filled cell with value `-res`
(in either direction along any axis) the estimate is zero half way and nowhere else. -/
theorem C22_zero_half_way [FloorRing K] (s : MSdf K) (hr : 0 < s.res) (hf : RigidFrame s) (i : Idx)
    (a : Fin 3) (hi : InBounds s.grid.dims i) (hj : InBounds s.grid.dims (i + axisStep a))
    (hv : (s.grid.get i = s.res ∧ s.grid.get (i + axisStep a) = -s.res) ∨
      (s.grid.get i = -s.res ∧ s.grid.get (i + axisStep a) = s.res)) (w : K) (w0 : 0 ≤ w)
    (w1 : w ≤ 1) :
    s.estimate (s.toWorld (between s i a w)) = some (0, true) ↔ w = 1 / 2 := by
  rw [estimate_between s hr hf i a hi hj w w0 w1]
  simp only [Option.some.injEq, Prod.mk.injEq, and_true]
  unfold lerp halfCellCloser
  have hn : ¬ (0 : K) ≤ -s.res := by linarith
  rcases hv with ⟨h1, h2⟩ | ⟨h1, h2⟩
  · rw [h1, h2, if_pos hr.le, if_neg hn]
    have e : (1 - w) * (s.res - s.res / 2) + w * (-s.res + s.res / 2) = (1 / 2 - w) * s.res := by
      ring
    rw [e, mul_eq_zero]
    constructor
    · rintro (h | h)
      · linarith
      · exact (hr.ne' h).elim
    · rintro rfl; left; ring
  · rw [h1, h2, if_pos hr.le, if_neg hn]
    have e : (1 - w) * (-s.res + s.res / 2) + w * (s.res - s.res / 2) = (w - 1 / 2) * s.res := by
      ring
    rw [e, mul_eq_zero]
    constructor
    · rintro (h | h)
      · linarith
      · exact (hr.ne' h).elim
    · rintro rfl; left; ring

example : InBounds exSdf.grid.dims ⟨0, 1, 1⟩ ∧ InBounds exSdf.grid.dims (⟨0, 1, 1⟩ + axisStep 0) ∧
    exSdf.grid.get ⟨0, 1, 1⟩ = exSdf.res ∧ exSdf.grid.get (⟨0, 1, 1⟩ + axisStep 0) = -exSdf.res ∧
    exSdf.res ≤ |exSdf.grid.get ⟨0, 1, 1⟩| := by
  refine ⟨?_, ?_, ?_, ?_, ?_⟩
  · unfold InBounds exSdf; decide
  · unfold InBounds exSdf axisStep; decide
  · decide +kernel
  · decide +kernel
  · decide +kernel

/-! ## C23 -/

/-- The gradient result is either empty or has exactly three entries. -/
theorem C23_shape (s : MSdf K) (i : Idx) (edge : Bool) :
    (s.gradient i edge).length = 0 ∨ (s.gradient i edge).length = 3 := by
  unfold MSdf.gradient
  split
  · right; rfl
  · left; rfl

theorem gridGrad_three (s : MSdf K) (i : Idx) (edge : Bool) :
    (∃ a b c, s.gridGrad i edge = [a, b, c]) ↔
      InBounds s.grid.dims i ∧ (edge = true ∨ ¬ OnFace s.grid.dims i) := by
  unfold MSdf.gridGrad
  dsimp only
  by_cases hb : s.grid.dims.inB i = true
  · rw [if_pos hb]
    have hi := inB_iff_spec.mp hb
    have hh := hi
    obtain ⟨⟨hx0, hx1⟩, ⟨hy0, hy1⟩, ⟨hz0, hz1⟩⟩ := hh
    by_cases hc : i.x > 0 ∧ i.y > 0 ∧ i.z > 0 ∧ i.x < (s.grid.dims.nx : Int) - 1 ∧
        i.y < (s.grid.dims.ny : Int) - 1 ∧ i.z < (s.grid.dims.nz : Int) - 1
    · rw [if_pos hc]
      have : ¬ OnFace s.grid.dims i := by unfold OnFace; omega
      simp [hi, this]
    · rw [if_neg hc]
      have : OnFace s.grid.dims i := by unfold OnFace; omega
      cases edge <;> simp [hi, this]
  · rw [if_neg hb]
    have hi : ¬ InBounds s.grid.dims i := fun h => hb (inB_iff_spec.mpr h)
    simp [hi]

/-- C23.  Three components are returned exactly for in-bounds indices (edge gradients enabled), or
exactly for in-bounds indices on no grid face (disabled). -/
theorem C23_when (s : MSdf K) (i : Idx) (edge : Bool) :
    (s.gradient i edge).length = 3 ↔
      InBounds s.grid.dims i ∧ (edge = true ∨ ¬ OnFace s.grid.dims i) := by
  rw [← gridGrad_three s i edge]
  unfold MSdf.gradient
  split
  · rename_i a b c h
    simp [h]
  · rename_i h
    simp only [List.length_nil]
    constructor
    · intro h'; exact absurd h' (by decide)
    · rintro ⟨a, b, c, h'⟩; exact (h a b c h').elim

/-- The slope of an affine field along an axis, 0 when there is only one cell. -/
def slope (n : Nat) (b res : K) : K := if n = 1 then 0 else b / res

/-- C23.  If the stored values are an affine function of the cell index, the grid-aligned gradient
is its slope wherever it is returned, and `GetGradient` is that slope rotated into the world. -/
theorem C23_affine (s : MSdf K) (hr : 0 < s.res) (a bx bY bz : K)
    (hv : ∀ i, InBounds s.grid.dims i → s.grid.get i = a + bx * i.x + bY * i.y + bz * i.z)
    (i : Idx) (edge : Bool) (h : (s.gradient i edge).length = 3) :
    s.gridGrad i edge = [slope s.grid.dims.nx bx s.res, slope s.grid.dims.ny bY s.res,
        slope s.grid.dims.nz bz s.res] ∧
      s.gradient i edge = (let r := s.origin.lin ⟨slope s.grid.dims.nx bx s.res,
        slope s.grid.dims.ny bY s.res, slope s.grid.dims.nz bz s.res⟩; [r.x, r.y, r.z]) := by
  have key : s.gridGrad i edge = [slope s.grid.dims.nx bx s.res, slope s.grid.dims.ny bY s.res,
        slope s.grid.dims.nz bz s.res] := by
    obtain ⟨hi, he⟩ := (C23_when s i edge).mp h
    have hb := inB_iff_spec.mpr hi
    have hh := hi
    obtain ⟨⟨hx0, hx1⟩, ⟨hy0, hy1⟩, ⟨hz0, hz1⟩⟩ := hh
    have hne := hr.ne'
    unfold MSdf.gridGrad
    dsimp only
    rw [if_pos hb]
    by_cases hc : i.x > 0 ∧ i.y > 0 ∧ i.z > 0 ∧ i.x < (s.grid.dims.nx : Int) - 1 ∧
        i.y < (s.grid.dims.ny : Int) - 1 ∧ i.z < (s.grid.dims.nz : Int) - 1
    · rw [if_pos hc]
      obtain ⟨c1, c2, c3, c4, c5, c6⟩ := hc
      rw [hv ⟨i.x + 1, i.y, i.z⟩ (by unfold InBounds; dsimp only; omega),
        hv ⟨i.x - 1, i.y, i.z⟩ (by unfold InBounds; dsimp only; omega),
        hv ⟨i.x, i.y + 1, i.z⟩ (by unfold InBounds; dsimp only; omega),
        hv ⟨i.x, i.y - 1, i.z⟩ (by unfold InBounds; dsimp only; omega),
        hv ⟨i.x, i.y, i.z + 1⟩ (by unfold InBounds; dsimp only; omega),
        hv ⟨i.x, i.y, i.z - 1⟩ (by unfold InBounds; dsimp only; omega)]
      unfold slope
      rw [if_neg (by omega), if_neg (by omega), if_neg (by omega)]
      simp only [List.cons.injEq, and_true]
      refine ⟨?_, ?_, ?_⟩ <;> (push_cast; field_simp; ring)
    · rw [if_neg hc]
      have hedge : edge = true := by
        rcases he with he | he
        · exact he
        · exact (he (by unfold OnFace; omega)).elim
      rw [if_pos hedge]
      simp only [List.cons.injEq, and_true]
      have axis : ∀ (n : Nat) (k : Int) (b : K), 0 ≤ k → k < n → ∀ (vh vl : K),
          vh - vl = b * ((min ((n : Int) - 1) (k + 1) - max 0 (k - 1) : Int) : K) →
          (if ((min ((n : Int) - 1) (k + 1) - max 0 (k - 1) : Int) : K) * s.res > 0 then
            (vh - vl) * (1 / (((min ((n : Int) - 1) (k + 1) - max 0 (k - 1) : Int) : K) * s.res))
            else 0) = slope n b s.res := by
        intro n k b k0 k1 vh vl hvv
        generalize hδ : min ((n : Int) - 1) (k + 1) - max 0 (k - 1) = δ at *
        unfold slope
        by_cases hn : n = 1
        · have : δ = 0 := by omega
          rw [if_pos hn, this]; simp
        · have hpos : 0 < δ := by omega
          have hK : (0 : K) < (δ : K) := by exact_mod_cast hpos
          rw [if_pos (mul_pos hK hr), if_neg hn, hvv]
          have := hK.ne'
          field_simp
      refine ⟨?_, ?_, ?_⟩
      · apply axis _ _ bx hx0 hx1
        rw [hv ⟨_, i.y, i.z⟩ (by unfold InBounds; dsimp only; omega),
          hv ⟨_, i.y, i.z⟩ (by unfold InBounds; dsimp only; omega)]
        push_cast; ring
      · apply axis _ _ bY hy0 hy1
        rw [hv ⟨i.x, _, i.z⟩ (by unfold InBounds; dsimp only; omega),
          hv ⟨i.x, _, i.z⟩ (by unfold InBounds; dsimp only; omega)]
        push_cast; ring
      · apply axis _ _ bz hz0 hz1
        rw [hv ⟨i.x, i.y, _⟩ (by unfold InBounds; dsimp only; omega),
          hv ⟨i.x, i.y, _⟩ (by unfold InBounds; dsimp only; omega)]
        push_cast; ring
  refine ⟨key, ?_⟩
  unfold MSdf.gradient
  rw [key]

/-- C23 by location: the gradient at a location is that of its cell, empty outside the grid. -/
theorem C23_location [FloorRing K] (s : MSdf K) (p : V3 K) (edge : Bool) :
    (InBounds s.grid.dims (s.locIdx p) → s.gradientAt p edge = s.gradient (s.locIdx p) edge) ∧
      (¬ InBounds s.grid.dims (s.locIdx p) → s.gradientAt p edge = []) := by
  unfold MSdf.gradientAt
  rw [← inB_iff_spec]
  exact ⟨fun h => if_pos h, fun h => if_neg h⟩

/-- A 3x1x2 affine field: `1 + 2x + 3z`. -/
def exAffine : MSdf ℚ where
  grid := ⟨⟨3, 1, 2⟩, (Dims.all ⟨3, 1, 2⟩).map (fun i => 1 + 2 * (i.x : ℚ) + 3 * (i.z : ℚ)), 0, 9⟩
  res := 1 / 2
  origin := exSdf.origin
  inv := exSdf.inv

example : (∀ i ∈ exAffine.grid.dims.all,
      exAffine.grid.get i = 1 + 2 * (i.x : ℚ) + 0 * (i.y : ℚ) + 3 * (i.z : ℚ)) ∧
    (exAffine.gradient ⟨0, 0, 1⟩ true).length = 3 ∧
    exAffine.gridGrad ⟨0, 0, 1⟩ true = [4, 0, 6] ∧ exAffine.gradient ⟨0, 0, 1⟩ true = [0, 4, 6] := by
  decide +kernel

end Verif
