import Verif.AutoDiff
import Verif.Props.Interp
import Mathlib.Tactic.LinearCombination

/-!
# C73, C74: the smooth gradient, and agreement of the three gradient queries
-/

namespace Verif

open Spec

variable {K : Type} [Field K] [LinearOrder K] [IsStrictOrderedRing K]

/-! ## C73: outcome of `GetSmoothGradient` -/

/-- The location moved by `w` along world axis `a`. -/
def V3.shift (p : V3 K) (a : Fin 3) (w : K) : V3 K :=
  match a with
  | 0 => ⟨p.x + w, p.y, p.z⟩
  | 1 => ⟨p.x, p.y + w, p.z⟩
  | 2 => ⟨p.x, p.y, p.z + w⟩

/-- The location is in the grid. -/
def Inside [FloorRing K] (s : MSdf K) (p : V3 K) : Prop := InBounds s.grid.dims (s.locIdx p)

/-- The distance `EstimateDistance` reports. -/
def reportedAt [FloorRing K] (s : MSdf K) (p : V3 K) : K := ((s.estimate p).map Prod.fst).getD 0

/-- `D` is the difference quotient of the reported distance over the widest of the stretches
`[p - w, p + w]`, `[p - w, p]`, `[p, p + w]` along axis `a` whose ends are in the grid. -/
def IsQuotient [FloorRing K] (s : MSdf K) (p : V3 K) (w : K) (a : Fin 3) (D : K) : Prop :=
  (Inside s (p.shift a (-w)) ∧ Inside s (p.shift a w) ∧
    D * (2 * w) = reportedAt s (p.shift a w) - reportedAt s (p.shift a (-w))) ∨
  (Inside s (p.shift a (-w)) ∧ ¬ Inside s (p.shift a w) ∧
    D * w = reportedAt s p - reportedAt s (p.shift a (-w))) ∨
  (¬ Inside s (p.shift a (-w)) ∧ Inside s (p.shift a w) ∧
    D * w = reportedAt s (p.shift a w) - reportedAt s p)

theorem estimate_reported [FloorRing K] (s : MSdf K) (hr : 0 < s.res) (p : V3 K) :
    ∃ b : Bool, s.estimate p = some (reportedAt s p, b) ∧ (b = true ↔ Inside s p) := by
  by_cases h : Inside s p
  · refine ⟨true, ?_, by simp [h]⟩
    unfold reportedAt
    rw [(C20_trilinear s hr p).1 h]; rfl
  · refine ⟨false, ?_, by simp [h]⟩
    unfold reportedAt
    rw [(C20_trilinear s hr p).2 h]; rfl

theorem axisSmooth_spec [FloorRing K] (s : MSdf K) (p : V3 K) (w : K) (hw : 0 < w) (a : Fin 3)
    (hp : Inside s p) (bq bm bp : Bool) (x : K)
    (hq : bq = true ↔ Inside s p) (hm : bm = true ↔ Inside s (p.shift a (-w)))
    (hpl : bp = true ↔ Inside s (p.shift a w)) :
    (¬ Inside s (p.shift a (-w)) ∧ ¬ Inside s (p.shift a w) →
      MSdf.axisSmooth (reportedAt s p, bq) (reportedAt s (p.shift a (-w)), bm)
        (reportedAt s (p.shift a w), bp) x (x - w) (x + w) = none) ∧
    (Inside s (p.shift a (-w)) ∨ Inside s (p.shift a w) → ∃ D,
      MSdf.axisSmooth (reportedAt s p, bq) (reportedAt s (p.shift a (-w)), bm)
        (reportedAt s (p.shift a w), bp) x (x - w) (x + w) = some D ∧ IsQuotient s p w a D) := by
  have hq' : bq = true := hq.mpr hp
  have e2 : x + w - (x - w) = 2 * w := by ring
  have e1 : x - (x - w) = w := by ring
  have e1' : x + w - x = w := by ring
  have hw' := hw.ne'
  unfold MSdf.axisSmooth
  rw [e2, e1, e1']
  by_cases h1 : Inside s (p.shift a (-w)) <;> by_cases h2 : Inside s (p.shift a w)
  · have := hm.mpr h1; have := hpl.mpr h2
    subst_vars
    refine ⟨fun h => (h.1 h1).elim, fun _ => ⟨_, by simp; rfl, Or.inl ⟨h1, h2, ?_⟩⟩⟩
    field_simp
  · have := hm.mpr h1
    have hb : bp = false := by rw [← Bool.not_eq_true, hpl]; exact h2
    subst_vars
    refine ⟨fun h => (h.1 h1).elim, fun _ => ⟨_, by simp; rfl, Or.inr (Or.inl ⟨h1, h2, ?_⟩)⟩⟩
    field_simp
  · have := hpl.mpr h2
    have hb : bm = false := by rw [← Bool.not_eq_true, hm]; exact h1
    subst_vars
    refine ⟨fun h => (h.2 h2).elim, fun _ => ⟨_, by simp; rfl, Or.inr (Or.inr ⟨h1, h2, ?_⟩)⟩⟩
    field_simp
  · have hb : bm = false := by rw [← Bool.not_eq_true, hm]; exact h1
    have hb' : bp = false := by rw [← Bool.not_eq_true, hpl]; exact h2
    subst_vars
    exact ⟨fun _ => by simp, fun h => (h.elim h1 h2).elim⟩

/-- C73.  For every location and non-zero window (its sign does not matter) `GetSmoothGradient`
returns an empty vector outside the grid; inside it throws exactly when on some axis both shifted
locations leave the grid; otherwise it returns three difference quotients of `EstimateDistance`. -/
theorem C73_outcome [FloorRing K] (s : MSdf K) (hr : 0 < s.res) (p : V3 K) (window : K)
    (hw : window ≠ 0) :
    (¬ Inside s p → s.smoothGradient p window = some []) ∧
    (Inside s p → (∃ a, ¬ Inside s (p.shift a (-|window|)) ∧ ¬ Inside s (p.shift a |window|)) →
      s.smoothGradient p window = none) ∧
    (Inside s p → (∀ a, Inside s (p.shift a (-|window|)) ∨ Inside s (p.shift a |window|)) →
      ∃ D : V3 K, s.smoothGradient p window = some [D.x, D.y, D.z] ∧
        IsQuotient s p |window| 0 D.x ∧ IsQuotient s p |window| 1 D.y ∧
        IsQuotient s p |window| 2 D.z) := by
  have hw' : 0 < |window| := abs_pos.mpr hw
  generalize hW : |window| = w at hw'
  constructor
  · intro h
    have hb : ¬ s.locInB p = true := fun h' => h (inB_iff_spec.mp h')
    unfold MSdf.smoothGradient
    dsimp only
    rw [if_neg hb]
  have sx : (⟨p.x - w, p.y, p.z⟩ : V3 K) = p.shift 0 (-w) := by simp [V3.shift, sub_eq_add_neg]
  have sy : (⟨p.x, p.y - w, p.z⟩ : V3 K) = p.shift 1 (-w) := by simp [V3.shift, sub_eq_add_neg]
  have sz : (⟨p.x, p.y, p.z - w⟩ : V3 K) = p.shift 2 (-w) := by simp [V3.shift, sub_eq_add_neg]
  have tx : (⟨p.x + w, p.y, p.z⟩ : V3 K) = p.shift 0 w := rfl
  have ty : (⟨p.x, p.y + w, p.z⟩ : V3 K) = p.shift 1 w := rfl
  have tz : (⟨p.x, p.y, p.z + w⟩ : V3 K) = p.shift 2 w := rfl
  obtain ⟨b0, e0, i0⟩ := estimate_reported s hr p
  obtain ⟨b1, e1, i1⟩ := estimate_reported s hr (p.shift 0 (-w))
  obtain ⟨b2, e2, i2⟩ := estimate_reported s hr (p.shift 0 w)
  obtain ⟨b3, e3, i3⟩ := estimate_reported s hr (p.shift 1 (-w))
  obtain ⟨b4, e4, i4⟩ := estimate_reported s hr (p.shift 1 w)
  obtain ⟨b5, e5, i5⟩ := estimate_reported s hr (p.shift 2 (-w))
  obtain ⟨b6, e6, i6⟩ := estimate_reported s hr (p.shift 2 w)
  have unf : ∀ h : Inside s p, s.smoothGradient p window = (do
      let gx ← MSdf.axisSmooth (reportedAt s p, b0) (reportedAt s (p.shift 0 (-w)), b1)
        (reportedAt s (p.shift 0 w), b2) p.x (p.x - w) (p.x + w)
      let gy ← MSdf.axisSmooth (reportedAt s p, b0) (reportedAt s (p.shift 1 (-w)), b3)
        (reportedAt s (p.shift 1 w), b4) p.y (p.y - w) (p.y + w)
      let gz ← MSdf.axisSmooth (reportedAt s p, b0) (reportedAt s (p.shift 2 (-w)), b5)
        (reportedAt s (p.shift 2 w), b6) p.z (p.z - w) (p.z + w)
      pure [gx, gy, gz]) := by
    intro h
    unfold MSdf.smoothGradient
    dsimp only
    have hb : s.locInB p = true := inB_iff_spec.mpr h
    rw [if_pos hb, hW, sx, sy, sz, tx, ty, tz, e0, e1, e2, e3, e4, e5, e6]
    rfl
  constructor
  · rintro h ⟨a, ha1, ha2⟩
    rw [unf h]
    obtain ⟨n0, y0⟩ := axisSmooth_spec s p w hw' 0 h b0 b1 b2 p.x i0 i1 i2
    obtain ⟨n1, y1⟩ := axisSmooth_spec s p w hw' 1 h b0 b3 b4 p.y i0 i3 i4
    obtain ⟨n2, y2⟩ := axisSmooth_spec s p w hw' 2 h b0 b5 b6 p.z i0 i5 i6
    by_cases c0 : Inside s (p.shift 0 (-w)) ∨ Inside s (p.shift 0 w)
    · obtain ⟨D0, d0, -⟩ := y0 c0
      rw [d0]
      by_cases c1 : Inside s (p.shift 1 (-w)) ∨ Inside s (p.shift 1 w)
      · obtain ⟨D1, d1, -⟩ := y1 c1
        rw [d1]
        match a with
        | 0 => exact (c0.elim ha1 ha2).elim
        | 1 => exact (c1.elim ha1 ha2).elim
        | 2 => rw [n2 ⟨ha1, ha2⟩]; rfl
      · rw [n1 (not_or.mp c1)]; rfl
    · rw [n0 (not_or.mp c0)]; rfl
  · intro h ha
    rw [unf h]
    obtain ⟨D0, d0, q0⟩ := (axisSmooth_spec s p w hw' 0 h b0 b1 b2 p.x i0 i1 i2).2 (ha 0)
    obtain ⟨D1, d1, q1⟩ := (axisSmooth_spec s p w hw' 1 h b0 b3 b4 p.y i0 i3 i4).2 (ha 1)
    obtain ⟨D2, d2, q2⟩ := (axisSmooth_spec s p w hw' 2 h b0 b5 b6 p.z i0 i5 i6).2 (ha 2)
    exact ⟨⟨D0, D1, D2⟩, by rw [d0, d1, d2]; rfl, q0, q1, q2⟩

/-! ## C74: affine fields -/

/-- The value part of a dual trilinear blend of affine corner values does not matter here; its
derivative is the slope times the derivative of the location. -/
theorem trilinear_affine_dual (s : MSdf K) (hr : s.res ≠ 0) (c : V3 K) (q : V3 (Dual K))
    (v sx sy sz : K) :
    (MSdf.trilinear Dual.const s c q v (v + sz) (v + sy) (v + sy + sz) (v + sx) (v + sx + sz)
      (v + sx + sy) (v + sx + sy + sz)).d =
    ⟨sx / s.res * q.x.d.x + sy / s.res * q.y.d.x + sz / s.res * q.z.d.x,
     sx / s.res * q.x.d.y + sy / s.res * q.y.d.y + sz / s.res * q.z.d.y,
     sx / s.res * q.x.d.z + sy / s.res * q.y.d.z + sz / s.res * q.z.d.z⟩ := by
  simp only [MSdf.trilinear, MSdf.bilinearXY, MSdf.bilinear, Dual.add_d, Dual.sub_d,
    Dual.mul_d, Dual.add_val, Dual.sub_val, Dual.mul_val, Dual.const, V3.mk.injEq, add_sub_cancel_left]
  refine ⟨?_, ?_, ?_⟩ <;> (field_simp; ring)

/-- In a rigid frame the stored inverse is the transpose of the rotation. -/
theorem rigid_transpose {s : MSdf K} (hf : RigidFrame s) :
    s.inv.rx = ⟨s.origin.rx.x, s.origin.ry.x, s.origin.rz.x⟩ ∧
    s.inv.ry = ⟨s.origin.rx.y, s.origin.ry.y, s.origin.rz.y⟩ ∧
    s.inv.rz = ⟨s.origin.rx.z, s.origin.ry.z, s.origin.rz.z⟩ := by
  have i1 := hf.iso ⟨1, 0, 0⟩ ⟨0, 0, 0⟩
  have i2 := hf.iso ⟨0, 1, 0⟩ ⟨0, 0, 0⟩
  have i3 := hf.iso ⟨0, 0, 1⟩ ⟨0, 0, 0⟩
  have i12 := hf.iso ⟨1, 1, 0⟩ ⟨0, 0, 0⟩
  have i13 := hf.iso ⟨1, 0, 1⟩ ⟨0, 0, 0⟩
  have i23 := hf.iso ⟨0, 1, 1⟩ ⟨0, 0, 0⟩
  have l0 := hf.left ⟨0, 0, 0⟩
  have l1 := hf.left ⟨1, 0, 0⟩
  have l2 := hf.left ⟨0, 1, 0⟩
  have l3 := hf.left ⟨0, 0, 1⟩
  simp only [MSdf.toWorld, MSdf.toGrid, Aff.app, sqDist3, id, V3.mk.injEq, mul_zero, mul_one,
    add_zero, zero_add, sub_zero] at i1 i2 i3 i12 i13 i23 l0 l1 l2 l3
  obtain ⟨l0x, l0y, l0z⟩ := l0
  obtain ⟨l1x, l1y, l1z⟩ := l1
  obtain ⟨l2x, l2y, l2z⟩ := l2
  obtain ⟨l3x, l3y, l3z⟩ := l3
  generalize s.origin.rx.x = a11 at *
  generalize s.origin.rx.y = a12 at *
  generalize s.origin.rx.z = a13 at *
  generalize s.origin.ry.x = a21 at *
  generalize s.origin.ry.y = a22 at *
  generalize s.origin.ry.z = a23 at *
  generalize s.origin.rz.x = a31 at *
  generalize s.origin.rz.y = a32 at *
  generalize s.origin.rz.z = a33 at *
  -- orthonormal columns
  have o11 : a11 * a11 + a21 * a21 + a31 * a31 = 1 := by linear_combination i1
  have o22 : a12 * a12 + a22 * a22 + a32 * a32 = 1 := by linear_combination i2
  have o33 : a13 * a13 + a23 * a23 + a33 * a33 = 1 := by linear_combination i3
  have o12 : a11 * a12 + a21 * a22 + a31 * a32 = 0 := by
    linear_combination (i12 - i1 - i2) / 2
  have o13 : a11 * a13 + a21 * a23 + a31 * a33 = 0 := by
    linear_combination (i13 - i1 - i3) / 2
  have o23 : a12 * a13 + a22 * a23 + a32 * a33 = 0 := by
    linear_combination (i23 - i2 - i3) / 2
  refine ⟨V3.ext ?_ ?_ ?_, V3.ext ?_ ?_ ?_, V3.ext ?_ ?_ ?_⟩ <;> dsimp only
  · linear_combination (-s.inv.rx.x) * o11 - s.inv.ry.x * o12 - s.inv.rz.x * o13
      + a11 * (l1x - l0x) + a21 * (l1y - l0y) + a31 * (l1z - l0z)
  · linear_combination (-s.inv.rx.y) * o11 - s.inv.ry.y * o12 - s.inv.rz.y * o13
      + a11 * (l2x - l0x) + a21 * (l2y - l0y) + a31 * (l2z - l0z)
  · linear_combination (-s.inv.rx.z) * o11 - s.inv.ry.z * o12 - s.inv.rz.z * o13
      + a11 * (l3x - l0x) + a21 * (l3y - l0y) + a31 * (l3z - l0z)
  · linear_combination (-s.inv.rx.x) * o12 - s.inv.ry.x * o22 - s.inv.rz.x * o23
      + a12 * (l1x - l0x) + a22 * (l1y - l0y) + a32 * (l1z - l0z)
  · linear_combination (-s.inv.rx.y) * o12 - s.inv.ry.y * o22 - s.inv.rz.y * o23
      + a12 * (l2x - l0x) + a22 * (l2y - l0y) + a32 * (l2z - l0z)
  · linear_combination (-s.inv.rx.z) * o12 - s.inv.ry.z * o22 - s.inv.rz.z * o23
      + a12 * (l3x - l0x) + a22 * (l3y - l0y) + a32 * (l3z - l0z)
  · linear_combination (-s.inv.rx.x) * o13 - s.inv.ry.x * o23 - s.inv.rz.x * o33
      + a13 * (l1x - l0x) + a23 * (l1y - l0y) + a33 * (l1z - l0z)
  · linear_combination (-s.inv.rx.y) * o13 - s.inv.ry.y * o23 - s.inv.rz.y * o33
      + a13 * (l2x - l0x) + a23 * (l2y - l0y) + a33 * (l2z - l0z)
  · linear_combination (-s.inv.rx.z) * o13 - s.inv.ry.z * o23 - s.inv.rz.z * o33
      + a13 * (l3x - l0x) + a23 * (l3y - l0y) + a33 * (l3z - l0z)

/-- The stored values are the affine function `a + b · index` of the cell index, and no two of them
have opposite signs (zero counts as positive). -/
structure AffineField (s : MSdf K) (a : K) (b : V3 K) : Prop where
  val : ∀ i, InBounds s.grid.dims i → s.grid.get i = a + b.x * i.x + b.y * i.y + b.z * i.z
  sign : (∀ i, InBounds s.grid.dims i → 0 ≤ s.grid.get i) ∨
    (∀ i, InBounds s.grid.dims i → s.grid.get i < 0)

/-- Slope of the field in the grid frame. -/
def gridSlope (s : MSdf K) (b : V3 K) : V3 K :=
  ⟨slope s.grid.dims.nx b.x s.res, slope s.grid.dims.ny b.y s.res, slope s.grid.dims.nz b.z s.res⟩

theorem AffineField.corrected {s : MSdf K} {a : K} {b : V3 K} (h : AffineField s a b) :
    ∃ a', ∀ i, InBounds s.grid.dims i →
      halfCellCloser s.res (s.grid.get i) = a' + b.x * i.x + b.y * i.y + b.z * i.z := by
  rcases h.sign with hs | hs
  · refine ⟨a - s.res / 2, fun i hi => ?_⟩
    unfold halfCellCloser
    rw [if_pos (hs i hi), h.val i hi]; ring
  · refine ⟨a + s.res / 2, fun i hi => ?_⟩
    unfold halfCellCloser
    rw [if_neg (not_le.mpr (hs i hi)), h.val i hi]; ring

/-- How far the upper cell is from the lower one, times the step, is the slope. -/
theorem upper_sub_lower [FloorRing K] (n : Nat) (hn : 0 < n) (t b res : K) :
    b * ((upperCell n t : K) - (lowerCell n t : K)) = slope n b res * res ∨ res = 0 := by
  by_cases hr : res = 0
  · exact Or.inr hr
  left
  unfold slope
  by_cases h1 : n = 1
  · have : upperCell n t = lowerCell n t := by unfold upperCell lowerCell; omega
    rw [this, if_pos h1]; ring
  · have : upperCell n t = lowerCell n t + 1 := by unfold upperCell lowerCell; omega
    rw [this, if_neg h1]; push_cast; field_simp; ring

/-- The lower cell of a one-cell axis is cell 0. -/
theorem slope_lower [FloorRing K] (n : Nat) (hn : 0 < n) (t b res : K) (hr : res ≠ 0) :
    slope n b res * res * (lowerCell n t : K) = b * (lowerCell n t : K) := by
  unfold slope
  by_cases h1 : n = 1
  · have : lowerCell n t = 0 := by unfold lowerCell; omega
    rw [this]; simp
  · rw [if_neg h1, div_mul_cancel₀ _ hr]

/-- The corner values around a point of an affine field. -/
theorem AffineField.corners [FloorRing K] {s : MSdf K} {a : K} {b : V3 K} (hr : 0 < s.res)
    (h : AffineField s a b) (hx : 0 < s.grid.dims.nx) (hy : 0 < s.grid.dims.ny)
    (hz : 0 < s.grid.dims.nz) : ∃ a', ∀ g : V3 K, ∀ bx bY bz : Bool,
      cornerVal s g bx bY bz = a'
        + (gridSlope s b).x * s.res * lowerCell s.grid.dims.nx (g.x / s.res)
        + (gridSlope s b).y * s.res * lowerCell s.grid.dims.ny (g.y / s.res)
        + (gridSlope s b).z * s.res * lowerCell s.grid.dims.nz (g.z / s.res)
        + (if bx then (gridSlope s b).x * s.res else 0) + (if bY then (gridSlope s b).y * s.res else 0)
        + (if bz then (gridSlope s b).z * s.res else 0) := by
  obtain ⟨a', ha⟩ := h.corrected
  refine ⟨a', fun g bx bY bz => ?_⟩
  have hb := cornerIdx_inB (K := K) hx hy hz (g.x / s.res) (g.y / s.res) (g.z / s.res) bx bY bz
  have e := ha _ hb
  unfold cornerVal
  rw [e]
  have ux := (upper_sub_lower s.grid.dims.nx hx (g.x / s.res) b.x s.res).resolve_right hr.ne'
  have uy := (upper_sub_lower s.grid.dims.ny hy (g.y / s.res) b.y s.res).resolve_right hr.ne'
  have uz := (upper_sub_lower s.grid.dims.nz hz (g.z / s.res) b.z s.res).resolve_right hr.ne'
  have lx := slope_lower s.grid.dims.nx hx (g.x / s.res) b.x s.res hr.ne'
  have ly := slope_lower s.grid.dims.ny hy (g.y / s.res) b.y s.res hr.ne'
  have lz := slope_lower s.grid.dims.nz hz (g.z / s.res) b.z s.res hr.ne'
  have axis : ∀ (β : Bool) (lo up : Int) (c m : K), c * ((up : K) - (lo : K)) = m →
      m * (lo : K) = c * (lo : K) →
      c * ((pick β lo up : Int) : K) = m * (lo : K) + if β then m else 0 := by
    intro β lo up c m h1 h2
    cases β
    · simp [pick, h2]
    · simp only [pick, if_true]
      linear_combination h1 - h2
  have e1 := axis bx _ _ _ _ ux lx
  have e2 := axis bY _ _ _ _ uy ly
  have e3 := axis bz _ _ _ _ uz lz
  simp only [gridSlope]
  rw [e1, e2, e3]; ring

/-- C74.  In an affine field without a sign change the distance estimate is an affine function of
the location with the expected slope, on the whole grid. -/
theorem C74_estimate_affine [FloorRing K] (s : MSdf K) (hr : 0 < s.res) (hf : RigidFrame s) (a : K)
    (b : V3 K) (h : AffineField s a b) : ∃ c, ∀ p, Inside s p →
      s.estimate p = some (c + (s.origin.lin (gridSlope s b)).dot p, true) := by
  by_cases hpos : 0 < s.grid.dims.nx ∧ 0 < s.grid.dims.ny ∧ 0 < s.grid.dims.nz
  · obtain ⟨hx, hy, hz⟩ := hpos
    obtain ⟨a', ha⟩ := h.corners hr hx hy hz
    obtain ⟨t1, t2, t3⟩ := rigid_transpose hf
    set m := gridSlope s b with hm
    refine ⟨a' + m.x * s.inv.t.x + m.y * s.inv.t.y + m.z * s.inv.t.z
      - (m.x + m.y + m.z) * s.res / 2, fun p hp => ?_⟩
    rw [(C20_trilinear s hr p).1 hp]
    refine congrArg some (Prod.ext ?_ rfl)
    dsimp only
    unfold trilerp cornerWeight
    simp only [ha, lerp, if_true, Bool.false_eq_true, if_false]
    have hne := hr.ne'
    simp only [Aff.lin, V3.dot, MSdf.toGrid, Aff.app, id, t1, t2, t3]
    field_simp
    ring
  · refine ⟨0, fun p hp => ?_⟩
    obtain ⟨⟨a, b⟩, ⟨c, d⟩, e, f⟩ := hp
    omega

/-- The estimate at a dual location, for an arbitrary field. -/
theorem estGrid_dual_gen [FloorRing K] (s : MSdf K) (hr : 0 < s.res) (p : V3 K) (h : Inside s p) :
    s.estGrid Dual.const Dual.val (s.inv.app Dual.const (MSdf.seedDual p)) (s.locIdx p) =
      some (MSdf.trilinear Dual.const s (s.center
          ⟨lowerCell s.grid.dims.nx ((s.toGrid p).x / s.res),
            lowerCell s.grid.dims.ny ((s.toGrid p).y / s.res),
            lowerCell s.grid.dims.nz ((s.toGrid p).z / s.res)⟩)
        (s.inv.app Dual.const (MSdf.seedDual p))
        (cornerVal s (s.toGrid p) false false false) (cornerVal s (s.toGrid p) false false true)
        (cornerVal s (s.toGrid p) false true false) (cornerVal s (s.toGrid p) false true true)
        (cornerVal s (s.toGrid p) true false false) (cornerVal s (s.toGrid p) true false true)
        (cornerVal s (s.toGrid p) true true false) (cornerVal s (s.toGrid p) true true true)) := by
  set g := s.toGrid p with hg
  have hl : s.locIdx p = s.cellOf g := rfl
  unfold Inside at h
  rw [hl] at h ⊢
  obtain ⟨⟨hx0, hx1⟩, ⟨hy0, hy1⟩, ⟨hz0, hz1⟩⟩ := h
  have ex := axisIdx_eq s.grid.dims.nx s.res g.x hr hx0 hx1
  have ey := axisIdx_eq s.grid.dims.ny s.res g.y hr hy0 hy1
  have ez := axisIdx_eq s.grid.dims.nz s.res g.z hr hz0 hz1
  have hb := cornerIdx_inB (K := K) (d := s.grid.dims) (by simp only [MSdf.cellOf] at hx0 hx1; omega)
    (by simp only [MSdf.cellOf] at hy0 hy1; omega) (by simp only [MSdf.cellOf] at hz0 hz1; omega)
    (g.x / s.res) (g.y / s.res) (g.z / s.res)
  have hc := fun bx bY bz => corrected_some (s := s) (hb bx bY bz)
  have vx : ((s.inv.app Dual.const (MSdf.seedDual p)).x -
      Dual.const (s.center (s.cellOf g)).x).val = g.x - ((⌊g.x / s.res⌋ : K) + 1 / 2) * s.res := rfl
  have vy : ((s.inv.app Dual.const (MSdf.seedDual p)).y -
      Dual.const (s.center (s.cellOf g)).y).val = g.y - ((⌊g.y / s.res⌋ : K) + 1 / 2) * s.res := rfl
  have vz : ((s.inv.app Dual.const (MSdf.seedDual p)).z -
      Dual.const (s.center (s.cellOf g)).z).val = g.z - ((⌊g.z / s.res⌋ : K) + 1 / 2) * s.res := rfl
  unfold MSdf.estGrid
  dsimp only
  rw [vx, vy, vz]
  simp only [MSdf.cellOf]
  rw [ex, ey, ez]
  have h000 := hc false false false
  have h001 := hc false false true
  have h010 := hc false true false
  have h011 := hc false true true
  have h100 := hc true false false
  have h101 := hc true false true
  have h110 := hc true true false
  have h111 := hc true true true
  simp only [pick, if_true, Bool.false_eq_true, if_false] at h000 h001 h010 h011 h100 h101 h110 h111
  simp only [h000, h001, h010, h011, h100, h101, h110, h111]
  rfl

/-- C74.  In an affine field without a sign change all gradient queries that return three numbers
return the same ones: the slope of the field, rotated into the world. -/
theorem C74_gradients_agree [FloorRing K] (s : MSdf K) (hr : 0 < s.res) (hf : RigidFrame s) (a : K)
    (b : V3 K) (h : AffineField s a b) (p : V3 K) (hp : Inside s p) :
    s.autoDiffGradient p = some [(s.origin.lin (gridSlope s b)).x,
      (s.origin.lin (gridSlope s b)).y, (s.origin.lin (gridSlope s b)).z] ∧
    (∀ window, window ≠ 0 →
      (∀ a, Inside s (p.shift a (-|window|)) ∨ Inside s (p.shift a |window|)) →
      s.smoothGradient p window = s.autoDiffGradient p) ∧
    (∀ edge, (s.gradientAt p edge).length = 3 → some (s.gradientAt p edge) = s.autoDiffGradient p) := by
  have had : s.autoDiffGradient p = some [(s.origin.lin (gridSlope s b)).x,
      (s.origin.lin (gridSlope s b)).y, (s.origin.lin (gridSlope s b)).z] := by
    have hpos : 0 < s.grid.dims.nx ∧ 0 < s.grid.dims.ny ∧ 0 < s.grid.dims.nz := by
      obtain ⟨⟨a, b⟩, ⟨c, d⟩, e, f⟩ := hp; omega
    obtain ⟨a', ha⟩ := h.corners hr hpos.1 hpos.2.1 hpos.2.2
    obtain ⟨t1, t2, t3⟩ := rigid_transpose hf
    unfold MSdf.autoDiffGradient
    rw [if_pos (inB_iff_spec.mpr hp), estGrid_dual_gen s hr p hp]
    simp only [Option.map_some, Option.some.injEq, ha, if_true, Bool.false_eq_true, if_false,
      add_zero]
    rw [trilinear_affine_dual s hr.ne']
    have hne := hr.ne'
    have ex : (s.inv.app Dual.const (MSdf.seedDual p)).x.d = s.inv.rx := by
      simp [Aff.app, MSdf.seedDual, Dual.add_d, Dual.mul_d, Dual.const]
    have ey : (s.inv.app Dual.const (MSdf.seedDual p)).y.d = s.inv.ry := by
      simp [Aff.app, MSdf.seedDual, Dual.add_d, Dual.mul_d, Dual.const]
    have ez : (s.inv.app Dual.const (MSdf.seedDual p)).z.d = s.inv.rz := by
      simp [Aff.app, MSdf.seedDual, Dual.add_d, Dual.mul_d, Dual.const]
    rw [ex, ey, ez, t1, t2, t3]
    simp only [mul_div_cancel_right₀ _ hne, Aff.lin, V3.dot, List.cons.injEq, and_true]
    refine ⟨?_, ?_, ?_⟩ <;> ring
  refine ⟨had, fun window hw hin => ?_, fun edge he => ?_⟩
  · obtain ⟨c, hc⟩ := C74_estimate_affine s hr hf a b h
    obtain ⟨D, hD, q0, q1, q2⟩ := (C73_outcome s hr p window hw).2.2 hp hin
    rw [hD, had]
    have rep : ∀ q, Inside s q → reportedAt s q = c + (s.origin.lin (gridSlope s b)).dot q := by
      intro q hq
      unfold reportedAt
      rw [hc q hq]; rfl
    generalize s.origin.lin (gridSlope s b) = m at *
    have hw' : |window| ≠ 0 := abs_ne_zero.mpr hw
    generalize |window| = w at *
    have solve : ∀ (ax : Fin 3) (d e : K), (∀ u, m.dot (p.shift ax u) = m.dot p + e * u) →
        IsQuotient s p w ax d → d = e := by
      intro ax d e hs hq
      rcases hq with ⟨h1, h2, h3⟩ | ⟨h1, h2, h3⟩ | ⟨h1, h2, h3⟩
      · rw [rep _ h1, rep _ h2, hs, hs] at h3
        have : (d - e) * (2 * w) = 0 := by linear_combination h3
        rcases mul_eq_zero.mp this with h | h
        · exact sub_eq_zero.mp h
        · exact (hw' ((mul_eq_zero.mp h).resolve_left two_ne_zero)).elim
      · rw [rep _ h1, rep _ hp, hs] at h3
        have : (d - e) * w = 0 := by linear_combination h3
        exact sub_eq_zero.mp ((mul_eq_zero.mp this).resolve_right hw')
      · rw [rep _ h2, rep _ hp, hs] at h3
        have : (d - e) * w = 0 := by linear_combination h3
        exact sub_eq_zero.mp ((mul_eq_zero.mp this).resolve_right hw')
    rw [solve 0 D.x m.x (by intro u; simp only [V3.dot, V3.shift]; ring) q0,
      solve 1 D.y m.y (by intro u; simp only [V3.dot, V3.shift]; ring) q1,
      solve 2 D.z m.z (by intro u; simp only [V3.dot, V3.shift]; ring) q2]
  · rw [(C23_location s p edge).1 hp] at he ⊢
    rw [(C23_affine s hr a b.x b.y b.z h.val _ edge he).2, had]
    rfl

/-! ### Non-vacuity: a 3x1x2 field with slope (4, 0, 6) in a rotated frame -/

theorem exAffine_rigid : RigidFrame exAffine := by
  constructor
  · intro p
    ext <;> simp [exAffine, exSdf, MSdf.toWorld, MSdf.toGrid, Aff.app]
  · intro p
    ext <;> simp [exAffine, exSdf, MSdf.toWorld, MSdf.toGrid, Aff.app]
  · intro p q
    simp [exAffine, exSdf, MSdf.toWorld, Aff.app, sqDist3]; ring

theorem exAffine_affine : AffineField exAffine 1 ⟨2, 0, 3⟩ := by
  have h : ∀ i ∈ exAffine.grid.dims.all,
      exAffine.grid.get i = 1 + 2 * (i.x : ℚ) + 0 * (i.y : ℚ) + 3 * (i.z : ℚ) ∧
      0 ≤ exAffine.grid.get i := by decide +kernel
  exact ⟨fun i hi => (h i (Dims.mem_all.mpr (inB_iff_spec.mpr hi))).1,
    Or.inl fun i hi => (h i (Dims.mem_all.mpr (inB_iff_spec.mpr hi))).2⟩

/-- The centre of the middle cell, in the world. -/
def exAffinePoint : V3 ℚ := exAffine.toWorld ⟨3 / 4, 1 / 4, 1 / 2⟩

example : RigidFrame exAffine ∧ AffineField exAffine 1 ⟨2, 0, 3⟩ ∧ Inside exAffine exAffinePoint ∧
    (∀ a, Inside exAffine (exAffinePoint.shift a (-|(-(1 / 8) : ℚ)|)) ∨
      Inside exAffine (exAffinePoint.shift a |(-(1 / 8) : ℚ)|)) ∧
    exAffine.autoDiffGradient exAffinePoint = some [0, 4, 6] ∧
    exAffine.smoothGradient exAffinePoint (-(1 / 8)) = some [0, 4, 6] ∧
    exAffine.gradientAt exAffinePoint true = [0, 4, 6] := by
  have hin : ∀ u ∈ ([0, 1 / 8] : List ℚ), ∀ a : Fin 3,
      exAffine.grid.dims.inB (exAffine.locIdx (exAffinePoint.shift a u)) = true := by
    decide +kernel
  have h0 : Inside exAffine exAffinePoint := by
    have := inB_iff_spec.mp (hin 0 (by simp) 0)
    have e : exAffinePoint.shift 0 0 = exAffinePoint := by simp [V3.shift]
    rwa [e] at this
  have ha : |(-(1 / 8) : ℚ)| = 1 / 8 := by norm_num
  have hs : ∀ a, Inside exAffine (exAffinePoint.shift a (-|(-(1 / 8) : ℚ)|)) ∨
      Inside exAffine (exAffinePoint.shift a |(-(1 / 8) : ℚ)|) := by
    intro a
    rw [ha]
    exact Or.inr (inB_iff_spec.mp (hin _ (by simp) a))
  have hr : (0 : ℚ) < exAffine.res := by norm_num [exAffine]
  obtain ⟨h1, h2, h3⟩ := C74_gradients_agree exAffine hr exAffine_rigid 1 ⟨2, 0, 3⟩ exAffine_affine
    exAffinePoint h0
  have hv : exAffine.origin.lin (gridSlope exAffine ⟨2, 0, 3⟩) = ⟨0, 4, 6⟩ := by decide +kernel
  rw [hv] at h1
  exact ⟨exAffine_rigid, exAffine_affine, h0, hs, h1, by rw [h2 _ (by norm_num) hs, h1],
    by decide +kernel⟩

/-- C73: a window wider than the field throws; a location outside the field gives nothing. -/
example : exAffine.smoothGradient exAffinePoint 9 = none ∧
    exAffine.smoothGradient ⟨0, 0, 0⟩ 1 = some [] := by
  decide +kernel

end Verif
