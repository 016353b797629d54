import Verif.SmoothFloat
import Verif.Props.GradFloat

/-!
# C106: smoothed gradients in floating point
-/

namespace Verif

open Spec DField SdfGen

namespace FSdf

open Fl

/-! ## Specification -/

/-- A coordinate of a location. -/
def coord (p : V3 FVal) : Fin 3 → FVal
  | 0 => p.x
  | 1 => p.y
  | 2 => p.z

/-- The location with one coordinate replaced. -/
def put (p : V3 FVal) (a : Fin 3) (x : FVal) : V3 FVal :=
  match a with
  | 0 => ⟨x, p.y, p.z⟩
  | 1 => ⟨p.x, x, p.z⟩
  | 2 => ⟨p.x, p.y, x⟩

/-- The location moved down or up an axis by the window, in double arithmetic. -/
noncomputable def lower (R : Rounding) (p : V3 FVal) (window : FVal) (a : Fin 3) : V3 FVal :=
  put p a (sub R (coord p a) (fabs window))

noncomputable def upper (R : Rounding) (p : V3 FVal) (window : FVal) (a : Fin 3) : V3 FVal :=
  put p a (add R (coord p a) (fabs window))

/-- The location is in the grid. -/
def In (d : Dims) (locIdx : V3 FVal → Idx) (p : V3 FVal) : Prop := InBounds d (locIdx p)

/-- `u` and `v` are the ends of the widest stretch around `p` whose ends are in the grid. -/
def Ends (d : Dims) (locIdx : V3 FVal → Idx) (p lo hi u v : V3 FVal) : Prop :=
  (In d locIdx lo ∧ In d locIdx hi ∧ u = lo ∧ v = hi) ∨ (In d locIdx lo ∧ ¬ In d locIdx hi ∧ u = lo ∧ v = p) ∨
    (¬ In d locIdx lo ∧ In d locIdx hi ∧ u = p ∧ v = hi)

/-- The distance `EstimateDistance` reports. -/
noncomputable def reported (R : Rounding) (toGrid : V3 FVal → V3 FVal) (locIdx : V3 FVal → Idx) (s : FSdf)
    (p : V3 FVal) : FVal :=
  ((s.estimate R toGrid locIdx p).map Prod.fst).getD none

/-! ## Outcome, for any rounding -/

theorem estimate_total (R : Rounding) (toGrid : V3 FVal → V3 FVal) (locIdx : V3 FVal → Idx) (s : FSdf) (p : V3 FVal) :
    ∃ b : Bool, s.estimate R toGrid locIdx p = some (reported R toGrid locIdx s p, b) ∧
      (b = true ↔ In s.grid.dims locIdx p) := by
  by_cases h : In s.grid.dims locIdx p
  · have hs : ∃ v, s.estGrid R (toGrid p) (locIdx p) = some v := by
      unfold estGrid
      dsimp only
      obtain ⟨ix, iy, iz⟩ := h
      generalize geZero (sub R (toGrid p).x (s.center R (locIdx p)).x) = bx
      generalize geZero (sub R (toGrid p).y (s.center R (locIdx p)).y) = by'
      generalize geZero (sub R (toGrid p).z (s.center R (locIdx p)).z) = bz
      have gx := axisIdx_inB ix bx
      have gy := axisIdx_inB iy by'
      have gz := axisIdx_inB iz bz
      rw [corrected_eq R ⟨gx.1, gy.1, gz.1⟩, corrected_eq R ⟨gx.1, gy.1, gz.2⟩, corrected_eq R ⟨gx.1, gy.2, gz.1⟩,
        corrected_eq R ⟨gx.1, gy.2, gz.2⟩, corrected_eq R ⟨gx.2, gy.1, gz.1⟩, corrected_eq R ⟨gx.2, gy.1, gz.2⟩,
        corrected_eq R ⟨gx.2, gy.2, gz.1⟩, corrected_eq R ⟨gx.2, gy.2, gz.2⟩]
      exact ⟨_, rfl⟩
    obtain ⟨v, hv⟩ := hs
    refine ⟨true, ?_, by simp [h]⟩
    unfold reported estimate
    rw [if_pos (inB_iff_spec.mpr h), hv]
    rfl
  · refine ⟨false, ?_, by simp [h]⟩
    unfold reported estimate
    rw [if_neg (fun h' => h (inB_iff_spec.mp h'))]
    rfl

theorem axisSmooth_ends (R : Rounding) {d : Dims} {locIdx : V3 FVal → Idx} {p lo hi : V3 FVal} (e : V3 FVal → FVal)
    (c : V3 FVal → FVal) {b0 b1 b2 : Bool} (h0 : b0 = true ↔ In d locIdx p) (h1 : b1 = true ↔ In d locIdx lo)
    (h2 : b2 = true ↔ In d locIdx hi) (hp : In d locIdx p) :
    (¬ In d locIdx lo ∧ ¬ In d locIdx hi →
      axisSmooth R (e p, b0) (e lo, b1) (e hi, b2) (c p) (c lo) (c hi) = none) ∧
    (In d locIdx lo ∨ In d locIdx hi →
      ∃ g, axisSmooth R (e p, b0) (e lo, b1) (e hi, b2) (c p) (c lo) (c hi) = some g ∧
        ∀ u v, Ends d locIdx p lo hi u v → g = div R (sub R (e v) (e u)) (sub R (c v) (c u))) := by
  have t0 := h0.mpr hp
  unfold axisSmooth Ends
  by_cases l : In d locIdx lo <;> by_cases r : In d locIdx hi
  · have t1 := h1.mpr l
    have t2 := h2.mpr r
    subst t0 t1 t2
    simp only [l, r, not_true_eq_false, true_and, false_and, and_true, or_false, false_implies, and_self, if_true,
      true_implies, or_self, Option.some.injEq]
    refine ⟨_, rfl, ?_⟩
    rintro u v ⟨rfl, rfl⟩
    rfl
  · have t1 := h1.mpr l
    have t2 : b2 = false := by rw [← Bool.not_eq_true, h2]; exact r
    subst t0 t1 t2
    simp only [l, r]
    simp only [not_true_eq_false, false_and, false_implies, true_and, true_or, true_implies, and_false, if_false,
      Bool.false_eq_true, and_self, if_true, Option.some.injEq]
    refine ⟨_, rfl, ?_⟩
    simp only [false_or, not_false_eq_true, true_and, or_false]
    rintro u v ⟨rfl, rfl⟩
    rfl
  · have t2 := h2.mpr r
    have t1 : b1 = false := by rw [← Bool.not_eq_true, h1]; exact l
    subst t0 t1 t2
    simp only [l, r]
    simp only [not_true_eq_false, and_false, false_implies, true_and, or_true, true_implies, false_and, if_false,
      Bool.false_eq_true, and_self, if_true, Option.some.injEq]
    refine ⟨_, rfl, ?_⟩
    simp only [false_or, not_false_eq_true, true_and]
    rintro u v ⟨rfl, rfl⟩
    rfl
  · have t1 : b1 = false := by rw [← Bool.not_eq_true, h1]; exact l
    have t2 : b2 = false := by rw [← Bool.not_eq_true, h2]; exact r
    subst t0 t1 t2
    simp [l, r]

/-- C106, outcome, for any rounding and any field: an empty vector outside the grid; an exception exactly when on
some axis both moved locations leave the grid; otherwise for each axis the computed difference of the reported
distances, divided by the computed difference of the coordinates, over the widest stretch in the grid. -/
theorem C106_outcome (R : Rounding) (toGrid : V3 FVal → V3 FVal) (locIdx : V3 FVal → Idx) (s : FSdf) (p : V3 FVal)
    (window : FVal) :
    (¬ In s.grid.dims locIdx p → s.smoothGradient R toGrid locIdx p window = some []) ∧
    (In s.grid.dims locIdx p →
      (∃ a, ¬ In s.grid.dims locIdx (lower R p window a) ∧ ¬ In s.grid.dims locIdx (upper R p window a)) →
      s.smoothGradient R toGrid locIdx p window = none) ∧
    (In s.grid.dims locIdx p →
      (∀ a, In s.grid.dims locIdx (lower R p window a) ∨ In s.grid.dims locIdx (upper R p window a)) →
      ∃ g : Fin 3 → FVal, s.smoothGradient R toGrid locIdx p window = some [g 0, g 1, g 2] ∧
        ∀ a u v, Ends s.grid.dims locIdx p (lower R p window a) (upper R p window a) u v →
          g a = div R (sub R (reported R toGrid locIdx s v) (reported R toGrid locIdx s u))
            (sub R (coord v a) (coord u a))) := by
  refine ⟨fun h => ?_, ?_⟩
  · unfold smoothGradient
    dsimp only
    rw [if_neg (fun h' => h (inB_iff_spec.mp h'))]
  obtain ⟨b0, e0, i0⟩ := estimate_total R toGrid locIdx s p
  obtain ⟨b1, e1, i1⟩ := estimate_total R toGrid locIdx s (lower R p window 0)
  obtain ⟨b2, e2, i2⟩ := estimate_total R toGrid locIdx s (upper R p window 0)
  obtain ⟨b3, e3, i3⟩ := estimate_total R toGrid locIdx s (lower R p window 1)
  obtain ⟨b4, e4, i4⟩ := estimate_total R toGrid locIdx s (upper R p window 1)
  obtain ⟨b5, e5, i5⟩ := estimate_total R toGrid locIdx s (lower R p window 2)
  obtain ⟨b6, e6, i6⟩ := estimate_total R toGrid locIdx s (upper R p window 2)
  have unf : In s.grid.dims locIdx p → s.smoothGradient R toGrid locIdx p window = (do
      let gx ← axisSmooth R (reported R toGrid locIdx s p, b0) (reported R toGrid locIdx s (lower R p window 0), b1)
        (reported R toGrid locIdx s (upper R p window 0), b2) (coord p 0) (coord (lower R p window 0) 0)
        (coord (upper R p window 0) 0)
      let gy ← axisSmooth R (reported R toGrid locIdx s p, b0) (reported R toGrid locIdx s (lower R p window 1), b3)
        (reported R toGrid locIdx s (upper R p window 1), b4) (coord p 1) (coord (lower R p window 1) 1)
        (coord (upper R p window 1) 1)
      let gz ← axisSmooth R (reported R toGrid locIdx s p, b0) (reported R toGrid locIdx s (lower R p window 2), b5)
        (reported R toGrid locIdx s (upper R p window 2), b6) (coord p 2) (coord (lower R p window 2) 2)
        (coord (upper R p window 2) 2)
      pure [gx, gy, gz]) := by
    intro h
    unfold smoothGradient
    dsimp only
    rw [if_pos (inB_iff_spec.mpr h)]
    rw [e0]
    rw [show (⟨sub R p.x (fabs window), p.y, p.z⟩ : V3 FVal) = lower R p window 0 from rfl,
      show (⟨add R p.x (fabs window), p.y, p.z⟩ : V3 FVal) = upper R p window 0 from rfl,
      show (⟨p.x, sub R p.y (fabs window), p.z⟩ : V3 FVal) = lower R p window 1 from rfl,
      show (⟨p.x, add R p.y (fabs window), p.z⟩ : V3 FVal) = upper R p window 1 from rfl,
      show (⟨p.x, p.y, sub R p.z (fabs window)⟩ : V3 FVal) = lower R p window 2 from rfl,
      show (⟨p.x, p.y, add R p.z (fabs window)⟩ : V3 FVal) = upper R p window 2 from rfl,
      e1, e2, e3, e4, e5, e6]
    rfl
  have ax : ∀ h : In s.grid.dims locIdx p, _ := fun h =>
    axisSmooth_ends R (reported R toGrid locIdx s) (fun q => coord q 0) i0 i1 i2 h
  have ay : ∀ h : In s.grid.dims locIdx p, _ := fun h =>
    axisSmooth_ends R (reported R toGrid locIdx s) (fun q => coord q 1) i0 i3 i4 h
  have az : ∀ h : In s.grid.dims locIdx p, _ := fun h =>
    axisSmooth_ends R (reported R toGrid locIdx s) (fun q => coord q 2) i0 i5 i6 h
  constructor
  · rintro h ⟨a, ha⟩
    rw [unf h]
    fin_cases a
    · rw [(ax h).1 ha]; rfl
    · rw [(ay h).1 ha]
      cases axisSmooth R (reported R toGrid locIdx s p, b0) (reported R toGrid locIdx s (lower R p window 0), b1)
        (reported R toGrid locIdx s (upper R p window 0), b2) (coord p 0) (coord (lower R p window 0) 0)
        (coord (upper R p window 0) 0) <;> rfl
    · rw [(az h).1 ha]
      cases axisSmooth R (reported R toGrid locIdx s p, b0) (reported R toGrid locIdx s (lower R p window 0), b1)
        (reported R toGrid locIdx s (upper R p window 0), b2) (coord p 0) (coord (lower R p window 0) 0)
        (coord (upper R p window 0) 0) <;>
      cases axisSmooth R (reported R toGrid locIdx s p, b0) (reported R toGrid locIdx s (lower R p window 1), b3)
        (reported R toGrid locIdx s (upper R p window 1), b4) (coord p 1) (coord (lower R p window 1) 1)
        (coord (upper R p window 1) 1) <;> rfl
  · intro h ha
    obtain ⟨gx, x1, x2⟩ := (ax h).2 (ha 0)
    obtain ⟨gy, y1, y2⟩ := (ay h).2 (ha 1)
    obtain ⟨gz, z1, z2⟩ := (az h).2 (ha 2)
    refine ⟨fun a => match a with | 0 => gx | 1 => gy | 2 => gz, ?_, ?_⟩
    · rw [unf h, x1, y1, z1]; rfl
    · intro a u v hv
      fin_cases a
      · exact x2 u v hv
      · exact y2 u v hv
      · exact z2 u v hv

/-! ## Finite fields -/

/-- Contract of the base class: a location whose cell lies in the grid has finite grid-frame coordinates, each
within one cell size of the centre of the cell. -/
def FrameOk (toGrid : V3 FVal → V3 FVal) (locIdx : V3 FVal → Idx) (d : Dims) (res : ℝ) : Prop :=
  ∀ p, InBounds d (locIdx p) → ∃ q : V3 ℝ, toGrid p = ⟨real q.x, real q.y, real q.z⟩ ∧
    |q.x - (((locIdx p).x : ℝ) + 1 / 2) * res| ≤ res ∧ |q.y - (((locIdx p).y : ℝ) + 1 / 2) * res| ≤ res ∧
    |q.z - (((locIdx p).z : ℝ) + 1 / 2) * res| ≤ res

/-- The exact interpolation of the stored distances at a location. -/
def ExactAt (toGrid : V3 FVal → V3 FVal) (locIdx : V3 FVal → Idx) (t : MSdf ℝ) (p : V3 FVal) (z : ℝ) : Prop :=
  ∃ q : V3 ℝ, toGrid p = ⟨real q.x, real q.y, real q.z⟩ ∧ t.estGrid id id q (locIdx p) = some z

theorem quotient_ap {y0 y1 z0 z1 x0 x1 E : ℝ} (hE : 1 / 2 ^ 150 ≤ E) (h0 : |y0 - z0| ≤ E) (h1 : |y1 - z1| ≤ E)
    (hy0 : |y0| ≤ 2 ^ 200) (hy1 : |y1| ≤ 2 ^ 200) (hlo : 1 / 2 ^ 100 ≤ x1 - x0) (hhi : x1 - x0 ≤ 2 ^ 100) :
    ∃ g : ℝ, div ieee (sub ieee (real y1) (real y0)) (sub ieee (real x1) (real x0)) = real g ∧
      |g - (z1 - z0) / (x1 - x0)| ≤ 3 * E / (x1 - x0) + |(z1 - z0) / (x1 - x0)| / 2 ^ 50 := by
  have hW0 : 0 < x1 - x0 := lt_of_lt_of_le (by positivity) hlo
  have hE0 : 0 < E := lt_of_lt_of_le (by positivity) hE
  rw [sub_real, sub_real]
  have big : ∀ {a : ℝ}, |a| ≤ 2 ^ 200 * 2 ^ 200 → |a| ≤ (2 : ℝ) ^ (1000 : ℤ) := by
    intro a h
    have e : (2 : ℝ) ^ (400 : ℤ) = 2 ^ 200 * 2 ^ 200 := by
      rw [show (400 : ℤ) = 200 + 200 by norm_num, zpow_add₀ (by norm_num)]
      norm_cast
    exact h.trans (e ▸ Ieee.two_mono (by decide))
  have tiny : ∃ τ : ℝ, τ = (2 : ℝ) ^ (-1074 : ℤ) ∧ 0 ≤ τ ∧ τ ≤ 1 / 2 ^ 200 / 2 ^ 200 := by
    refine ⟨_, rfl, by positivity, ?_⟩
    have e : (2 : ℝ) ^ (-400 : ℤ) = 1 / 2 ^ 200 / 2 ^ 200 := by
      have := zpow_neg_nat 200
      push_cast at this
      rw [show (-400 : ℤ) = -200 + -200 by norm_num, zpow_add₀ (by norm_num), this]
      ring
    exact e ▸ Ieee.two_mono (by decide)
  obtain ⟨τ, hτ, τ0, τ1⟩ := tiny
  have hd : |y1 - y0| ≤ 2 ^ 201 := by
    refine (abs_sub _ _).trans ?_
    linarith [show (2 : ℝ) ^ 201 = 2 ^ 200 + 2 ^ 200 by norm_num]
  obtain ⟨n, en, hn⟩ := Ieee.r64_real (big (hd.trans (by norm_num)))
  obtain ⟨w, ew, hw⟩ := Ieee.r64_real (z := x1 - x0) (big (by rw [abs_of_pos hW0]; exact hhi.trans (by norm_num)))
  rw [en, ew]
  rw [← hτ] at hn hw
  generalize hWdef : x1 - x0 = W at *
  rw [abs_of_pos hW0] at hw
  have t3 : τ ≤ W / 2 ^ 60 := by
    refine τ1.trans (le_trans ?_ (div_le_div_of_nonneg_right hlo (by positivity)))
    norm_num
  have t2 : τ ≤ E / 2 ^ 60 := by
    refine τ1.trans (le_trans ?_ (div_le_div_of_nonneg_right hE (by positivity)))
    norm_num
  have t1 : τ * W ≤ E / 2 ^ 60 := by
    have : τ * W ≤ 1 / 2 ^ 200 / 2 ^ 200 * 2 ^ 100 := by gcongr
    refine this.trans (le_trans ?_ (div_le_div_of_nonneg_right hE (by positivity)))
    norm_num
  have hwW : |w - W| ≤ W / 2 ^ 52 := by
    refine hw.trans ?_
    norm_num at t3 ⊢
    linarith
  have hw0 : W * (1 - 1 / 2 ^ 52) ≤ w := by
    have := (abs_le.mp hwW).1
    norm_num at this ⊢
    linarith
  have hw1 : 0 < w := lt_of_lt_of_le (by norm_num; linarith) hw0
  have hnb : |n| ≤ 2 ^ 202 := by
    have e : |n| ≤ |n - (y1 - y0)| + |y1 - y0| := by
      have := abs_add_le (n - (y1 - y0)) (y1 - y0)
      simpa using this
    have e2 : τ ≤ 1 := τ1.trans (by norm_num)
    norm_num at hn hd ⊢
    linarith
  have hq : |n / w| ≤ 2 ^ 200 * 2 ^ 200 := by
    rw [abs_div, abs_of_pos hw1, div_le_iff₀ hw1]
    have : (1 : ℝ) / 2 ^ 101 ≤ w := by
      refine le_trans ?_ hw0
      norm_num at hlo ⊢
      linarith
    calc |n| ≤ 2 ^ 202 := hnb
      _ ≤ 2 ^ 200 * 2 ^ 200 * (1 / 2 ^ 101) := by norm_num
      _ ≤ 2 ^ 200 * 2 ^ 200 * w := by gcongr
  obtain ⟨g, eg, hg⟩ := Ieee.r64_real (big hq)
  rw [← hτ] at hg
  refine ⟨g, ?_, ?_⟩
  · have := div_real ieee n hw1.ne'
    unfold real at this ⊢
    rw [this, eg]
  · have A0 : |y1 - y0| ≤ |z1 - z0| + 2 * E := by
      rw [show y1 - y0 = (z1 - z0) + ((y1 - z1) - (y0 - z0)) by ring]
      refine (abs_add_le _ _).trans ?_
      have := abs_sub (y1 - z1) (y0 - z0)
      linarith
    have A1 : |n - (z1 - z0)| ≤ |y1 - y0| / 2 ^ 53 + τ + 2 * E := by
      rw [show n - (z1 - z0) = (n - (y1 - y0)) + ((y1 - z1) - (y0 - z0)) by ring]
      refine (abs_add_le _ _).trans ?_
      have := abs_sub (y1 - z1) (y0 - z0)
      linarith
    have A2 : |n| ≤ |y1 - y0| * (1 + 1 / 2 ^ 53) + τ := by
      have := abs_add_le (n - (y1 - y0)) (y1 - y0)
      rw [sub_add_cancel] at this
      linarith
    -- quotient by the rounded window
    have B1 : |n / w - n / W| ≤ |n| / W / 2 ^ 51 := by
      have e : n / w - n / W = (n / W) * ((W - w) / w) := by field_simp
      rw [e, abs_mul, abs_div, abs_div, abs_of_pos hW0, abs_of_pos hw1, abs_sub_comm]
      rw [div_eq_mul_one_div (|n| / W) (2 ^ 51)]
      refine mul_le_mul_of_nonneg_left ?_ (by positivity)
      rw [div_le_iff₀ hw1]
      norm_num at hwW hw0 ⊢
      linarith
    have B2 : |n / w| ≤ |n| / W * (1 + 1 / 2 ^ 51) := by
      have := abs_add_le (n / w - n / W) (n / W)
      rw [sub_add_cancel, abs_div n W, abs_of_pos hW0] at this
      linarith
    have C : |g - (z1 - z0) / W| ≤ |n / w| / 2 ^ 53 + τ + |n| / W / 2 ^ 51 + |n - (z1 - z0)| / W := by
      rw [show g - (z1 - z0) / W = (g - n / w) + (n / w - n / W) + (n - (z1 - z0)) / W by ring]
      refine (abs_add_le _ _).trans ?_
      rw [abs_div (n - (z1 - z0)) W, abs_of_pos hW0]
      have := abs_add_le (g - n / w) (n / w - n / W)
      linarith
    refine C.trans ?_
    rw [abs_div (z1 - z0) W, abs_of_pos hW0, ← sub_nonneg]
    have F : |n / w| / 2 ^ 53 * W ≤ |n| * (1 + 1 / 2 ^ 51) / 2 ^ 53 := by
      have : |n / w| * W ≤ |n| / W * (1 + 1 / 2 ^ 51) * W := by gcongr
      rw [show |n| / W * (1 + 1 / 2 ^ 51) * W = |n| * (1 + 1 / 2 ^ 51) by field_simp] at this
      linarith
    have key : |n / w| / 2 ^ 53 * W + τ * W + |n| / 2 ^ 51 + |n - (z1 - z0)| ≤ 3 * E + |z1 - z0| / 2 ^ 50 := by
      have := abs_nonneg (z1 - z0)
      generalize |n / w| / 2 ^ 53 * W = a at F ⊢
      generalize τ * W = b at t1 ⊢
      generalize |n - (z1 - z0)| = c at A1 ⊢
      generalize |n| = m at A2 F ⊢
      generalize |y1 - y0| = A at A0 A1 A2
      generalize |z1 - z0| = δ at A0 this ⊢
      clear hn hw hwW hg hq hnb hd C B1 B2 hy0 hy1 hlo hhi hE τ1 hτ
      norm_num at F A1 A2 t1 t2 ⊢
      linarith
    have : 3 * E / W + |z1 - z0| / W / 2 ^ 50 - (|n / w| / 2 ^ 53 + τ + |n| / W / 2 ^ 51 + |n - (z1 - z0)| / W) =
        (3 * E + |z1 - z0| / 2 ^ 50 - (|n / w| / 2 ^ 53 * W + τ * W + |n| / 2 ^ 51 + |n - (z1 - z0)|)) / W := by
      field_simp
    rw [this]
    exact div_nonneg (by linarith) hW0.le

/-- The estimate at a location of the grid, with the size of the exact value. -/
theorem estimate_number {s : FSdf} {t : MSdf ℝ} (h : Stores s t) {N : ℕ} (hN : N ≤ 2 ^ 20)
    (hdim : t.grid.dims.nx ≤ N ∧ t.grid.dims.ny ≤ N ∧ t.grid.dims.nz ≤ N)
    (hlo : 1 / 2 ^ 100 ≤ t.res) (hhi : t.res ≤ 2 ^ 100) {D : ℝ} (hD : D ≤ 2 ^ 150)
    (hv : ∀ i, InBounds t.grid.dims i → |t.grid.get i| ≤ D)
    {toGrid : V3 FVal → V3 FVal} {locIdx : V3 FVal → Idx} (hF : FrameOk toGrid locIdx t.grid.dims t.res) {p : V3 FVal}
    (hp : In t.grid.dims locIdx p) :
    ∃ y z : ℝ, reported ieee toGrid locIdx s p = real y ∧ ExactAt toGrid locIdx t p z ∧
      |y - z| ≤ N / 2 ^ 40 * (D + t.res / 2) ∧ |z| ≤ 27 * (D + t.res / 2) := by
  obtain ⟨q, hq, hx, hy, hz⟩ := hF p hp
  obtain ⟨y, z, ey, ez, hyz⟩ := C101_accuracy_partial h hN hdim hlo hhi hD hv hp rfl hq hx hy hz
  have r0 : 0 < t.res := lt_of_lt_of_le (by positivity) hlo
  refine ⟨y, z, by unfold reported; rw [ey]; rfl, ⟨q, hq, ez⟩, hyz, ?_⟩
  have eb := exact_blend r0 hp q
  rw [ez] at eb
  rw [Option.some.inj eb]
  have one : ∀ {a b : ℝ}, |a - (b + 1 / 2) * t.res| ≤ t.res → |a / t.res - (b + 1 / 2)| ≤ 1 := by
    intro a b hab
    have e : a / t.res - (b + 1 / 2) = (a - (b + 1 / 2) * t.res) / t.res := by field_simp
    rw [e, abs_div, abs_of_pos r0, div_le_one r0]
    exact hab
  obtain ⟨ix, iy, iz⟩ := id hp
  have e : 27 * (D + t.res / 2) = 3 * (3 * (3 * (D + t.res / 2))) := by ring
  rw [e]
  refine blend_bound iz (one hz) (fun c c0 c1 => ?_) _
  refine blend_bound iy (one hy) (fun b b0 b1 => ?_) _
  refine blend_bound ix (one hx) (fun a a0 a1 => ?_) _
  exact adj_le r0 (hv _ ⟨⟨a0, a1⟩, ⟨b0, b1⟩, c0, c1⟩)

/-- C106: for a field of finite values, and a window that moves the coordinates, the smoothed gradient inside the
grid consists of numbers.  Along each axis the component is close to the difference quotient of the exact
interpolation between the two locations that were compared: with `E` the error of one estimate (C101), the error is
at most `3 E` divided by the length of the stretch, plus `2 ^ -50` of the quotient. -/
theorem C106_accuracy_partial {s : FSdf} {t : MSdf ℝ} (h : Stores s t) {N : ℕ} (hN : N ≤ 2 ^ 20)
    (hdim : t.grid.dims.nx ≤ N ∧ t.grid.dims.ny ≤ N ∧ t.grid.dims.nz ≤ N)
    (hlo : 1 / 2 ^ 100 ≤ t.res) (hhi : t.res ≤ 2 ^ 100) {D : ℝ} (hD : D ≤ 2 ^ 150)
    (hv : ∀ i, InBounds t.grid.dims i → |t.grid.get i| ≤ D)
    {toGrid : V3 FVal → V3 FVal} {locIdx : V3 FVal → Idx} (hF : FrameOk toGrid locIdx t.grid.dims t.res)
    {p : V3 FVal} {window : FVal} (hp : In t.grid.dims locIdx p)
    (hin : ∀ a, In t.grid.dims locIdx (lower ieee p window a) ∨ In t.grid.dims locIdx (upper ieee p window a))
    (hw : ∀ a u v, Ends t.grid.dims locIdx p (lower ieee p window a) (upper ieee p window a) u v →
      ∃ x0 x1 : ℝ, coord u a = real x0 ∧ coord v a = real x1 ∧ 1 / 2 ^ 100 ≤ x1 - x0 ∧ x1 - x0 ≤ 2 ^ 100) :
    ∃ g : Fin 3 → ℝ, s.smoothGradient ieee toGrid locIdx p window = some [real (g 0), real (g 1), real (g 2)] ∧
      ∀ a u v, Ends t.grid.dims locIdx p (lower ieee p window a) (upper ieee p window a) u v →
        ∃ x0 x1 z0 z1 : ℝ, coord u a = real x0 ∧ coord v a = real x1 ∧ ExactAt toGrid locIdx t u z0 ∧
          ExactAt toGrid locIdx t v z1 ∧
          |g a - (z1 - z0) / (x1 - x0)| ≤
            3 * (N / 2 ^ 40 * (D + t.res / 2)) / (x1 - x0) + |(z1 - z0) / (x1 - x0)| / 2 ^ 50 := by
  have hdims := h.1
  obtain ⟨G, eG, hG⟩ := (C106_outcome ieee toGrid locIdx s p window).2.2 (hdims.symm ▸ hp) (hdims.symm ▸ hin)
  rw [hdims] at hG
  have r0 : 0 < t.res := lt_of_lt_of_le (by positivity) hlo
  have D0 : 0 ≤ D := (abs_nonneg _).trans (hv _ hp)
  have hN1 : (1 : ℝ) ≤ N := by
    obtain ⟨⟨x1, x2⟩, -⟩ := hp
    exact_mod_cast (by omega : 1 ≤ N)
  have hN2 : (N : ℝ) ≤ 2 ^ 20 := by exact_mod_cast hN
  have hE : 1 / 2 ^ 150 ≤ (N : ℝ) / 2 ^ 40 * (D + t.res / 2) := by
    calc (1 : ℝ) / 2 ^ 150 ≤ 1 / 2 ^ 40 * (1 / 2 ^ 100 / 2) := by norm_num
      _ ≤ (N : ℝ) / 2 ^ 40 * (D + t.res / 2) := by gcongr; linarith
  have hV : 27 * (D + t.res / 2) ≤ 2 ^ 160 := by norm_num at hD hhi ⊢; linarith
  have hE' : (N : ℝ) / 2 ^ 40 * (D + t.res / 2) ≤ 2 ^ 160 := by
    calc (N : ℝ) / 2 ^ 40 * (D + t.res / 2) ≤ 2 ^ 20 / 2 ^ 40 * (D + t.res / 2) := by gcongr
      _ ≤ 2 ^ 160 := by norm_num at hD hhi ⊢; linarith
  have one : ∀ a, ∃ g : ℝ, G a = real g ∧
      ∀ u v, Ends t.grid.dims locIdx p (lower ieee p window a) (upper ieee p window a) u v →
        ∃ x0 x1 z0 z1 : ℝ, coord u a = real x0 ∧ coord v a = real x1 ∧ ExactAt toGrid locIdx t u z0 ∧
          ExactAt toGrid locIdx t v z1 ∧
          |g - (z1 - z0) / (x1 - x0)| ≤
            3 * (N / 2 ^ 40 * (D + t.res / 2)) / (x1 - x0) + |(z1 - z0) / (x1 - x0)| / 2 ^ 50 := by
    intro a
    have hex : ∃ u v, Ends t.grid.dims locIdx p (lower ieee p window a) (upper ieee p window a) u v := by
      unfold Ends
      by_cases l : In t.grid.dims locIdx (lower ieee p window a)
      · by_cases r : In t.grid.dims locIdx (upper ieee p window a)
        · exact ⟨_, _, Or.inl ⟨l, r, rfl, rfl⟩⟩
        · exact ⟨_, _, Or.inr (Or.inl ⟨l, r, rfl, rfl⟩)⟩
      · exact ⟨_, _, Or.inr (Or.inr ⟨l, (hin a).resolve_left l, rfl, rfl⟩)⟩
    obtain ⟨u, v, huv⟩ := hex
    have uniq : ∀ u' v', Ends t.grid.dims locIdx p (lower ieee p window a) (upper ieee p window a) u' v' →
        u' = u ∧ v' = v := by
      intro u' v' h'
      rcases huv with ⟨a1, a2, rfl, rfl⟩ | ⟨a1, a2, rfl, rfl⟩ | ⟨a1, a2, rfl, rfl⟩ <;>
        rcases h' with ⟨c1, c2, rfl, rfl⟩ | ⟨c1, c2, rfl, rfl⟩ | ⟨c1, c2, rfl, rfl⟩ <;>
        first
        | exact ⟨rfl, rfl⟩
        | exact absurd c1 a1
        | exact absurd a1 c1
        | exact absurd c2 a2
        | exact absurd a2 c2
    have hu : In t.grid.dims locIdx u := by
      rcases huv with ⟨a1, a2, rfl, rfl⟩ | ⟨a1, a2, rfl, rfl⟩ | ⟨a1, a2, rfl, rfl⟩
      exacts [a1, a1, hp]
    have hv' : In t.grid.dims locIdx v := by
      rcases huv with ⟨a1, a2, rfl, rfl⟩ | ⟨a1, a2, rfl, rfl⟩ | ⟨a1, a2, rfl, rfl⟩
      exacts [a2, hp, a2]
    obtain ⟨x0, x1, ex0, ex1, hl, hh⟩ := hw a u v huv
    obtain ⟨y0, z0, ey0, ez0, d0, m0⟩ := estimate_number h hN hdim hlo hhi hD hv hF hu
    obtain ⟨y1, z1, ey1, ez1, d1, m1⟩ := estimate_number h hN hdim hlo hhi hD hv hF hv'
    have big : ∀ {y z : ℝ}, |y - z| ≤ N / 2 ^ 40 * (D + t.res / 2) → |z| ≤ 27 * (D + t.res / 2) → |y| ≤ 2 ^ 200 := by
      intro y z h1 h2
      have := abs_add_le (y - z) z
      rw [sub_add_cancel] at this
      refine this.trans ((add_le_add (h1.trans hE') (h2.trans hV)).trans (by norm_num))
    obtain ⟨g, eg, hg⟩ := quotient_ap hE d0 d1 (big d0 m0) (big d1 m1) hl hh
    refine ⟨g, ?_, fun u' v' h' => ?_⟩
    · rw [hG a u v huv, ey0, ey1, ex0, ex1, eg]
    · obtain ⟨rfl, rfl⟩ := uniq u' v' h'
      exact ⟨x0, x1, z0, z1, ex0, ex1, ez0, ez1, hg⟩
  choose g hg using one
  refine ⟨g, ?_, fun a u v huv => (hg a).2 u v huv⟩
  rw [eG, (hg 0).1, (hg 1).1, (hg 2).1]

/-! ## Failing cases -/

theorem sub_self_cases (R : Rounding) (e : FVal) : sub R e e = none ∨ sub R e e = real 0 := by
  by_cases h : NotFinite e
  · exact Or.inl (sub_self_notFinite R h)
  · right
    cases e with
    | none => exact absurd (Or.inl rfl) h
    | some x =>
      induction x using EReal.rec with
      | bot => exact absurd (Or.inr (Or.inr rfl)) h
      | top => exact absurd (Or.inr (Or.inl rfl)) h
      | coe x =>
        have := sub_real R x x
        unfold real at this ⊢
        rw [this, sub_self, EReal.coe_zero, SdfGen.zero64]

theorem div_none (R : Rounding) (b : FVal) : div R none b = none := by cases b <;> rfl

theorem div_zero_zero (R : Rounding) : div R (real 0) (real 0) = none := by
  unfold div real fdiv
  simp

/-- C106, the failing case: a window so small that adding it to the coordinates and subtracting it leaves them
unchanged gives a gradient of three components that are not numbers, whatever the field. -/
theorem C106_tiny_window (R : Rounding) (toGrid : V3 FVal → V3 FVal) (locIdx : V3 FVal → Idx) (s : FSdf)
    {p : V3 FVal} (window : FVal) (hp : In s.grid.dims locIdx p)
    (htiny : ∀ a, sub R (coord p a) (fabs window) = coord p a ∧ add R (coord p a) (fabs window) = coord p a) :
    s.smoothGradient R toGrid locIdx p window = some [none, none, none] := by
  have put_self : ∀ a, put p a (coord p a) = p := by
    intro a
    fin_cases a <;> rfl
  have hl : ∀ a, lower R p window a = p := fun a => by unfold lower; rw [(htiny a).1, put_self]
  have hu : ∀ a, upper R p window a = p := fun a => by unfold upper; rw [(htiny a).2, put_self]
  obtain ⟨g, eg, hg⟩ := (C106_outcome R toGrid locIdx s p window).2.2 hp
    (fun a => Or.inl (by rw [hl]; exact hp))
  have hn : ∀ a, g a = none := by
    intro a
    rw [hg a p p (Or.inl ⟨by rw [hl]; exact hp, by rw [hu]; exact hp, (hl a).symm, (hu a).symm⟩)]
    rcases sub_self_cases R (reported R toGrid locIdx s p) with h1 | h1 <;>
      rcases sub_self_cases R (coord p a) with h2 | h2 <;> rw [h1, h2]
    · exact div_none R _
    · exact div_none R _
    · rfl
    · exact div_zero_zero R
  rw [eg, hn 0, hn 1, hn 2]

/-- C106, the window.  The two locations compared along an axis are those moved down and up by the magnitude of the
window; the sign of the window makes no difference. -/
theorem C106_window (R : Rounding) (toGrid : V3 FVal → V3 FVal) (locIdx : V3 FVal → Idx) (s : FSdf) (p : V3 FVal) (w : ℝ) :
    (∀ a, lower R p (real w) a = put p a (sub R (coord p a) (real |w|)) ∧
      upper R p (real w) a = put p a (add R (coord p a) (real |w|))) ∧
    s.smoothGradient R toGrid locIdx p (real (-w)) = s.smoothGradient R toGrid locIdx p (real w) := by
  have h : ∀ x : ℝ, fabs (real x) = real |x| := by
    intro x
    unfold fabs real
    simp only [Option.map_some, Option.some.injEq]
    rw [← EReal.coe_neg]
    rcases le_total 0 x with hx | hx
    · rw [abs_of_nonneg hx, max_eq_left (EReal.coe_le_coe_iff.mpr (by linarith))]
    · rw [abs_of_nonpos hx, max_eq_right (EReal.coe_le_coe_iff.mpr (by linarith))]
  refine ⟨fun a => ⟨?_, ?_⟩, ?_⟩
  · unfold lower; rw [h]
  · unfold upper; rw [h]
  · unfold smoothGradient
    rw [h, h, abs_neg]

/-- C106, a map without obstacles: inside the grid the smoothed gradient, when there is one, has three components
that are not numbers. -/
theorem C106_no_obstacle {R : Rounding} {res : ℝ} (hres : GoodRes R res) {d : Dims} (hd : SmallGrid d)
    {fill : Idx → Option Bool} (hf : Answers d fill fun _ => false) {oob : FVal}
    {o : Out} (ho : extract R (res, res, res) d fill oob false = some o)
    (toGrid : V3 FVal → V3 FVal) (locIdx : V3 FVal → Idx) {p : V3 FVal} (hp : InBounds d (locIdx p)) (window : FVal)
    (l : List FVal) (hl : (FSdf.mk o.sdf res).smoothGradient R toGrid locIdx p window = some l) :
    l = [none, none, none] := by
  have hdim : o.sdf.dims = d := by
    obtain ⟨o', a', b', ho', hs⟩ := base_spec hd hf R res oob
    rw [extract_false, ho'] at ho
    rw [← Option.some.inj ho]
    exact hs.dims
  have hrep : ∀ v, In (FSdf.mk o.sdf res).grid.dims locIdx v → reported R toGrid locIdx (FSdf.mk o.sdf res) v = none := by
    intro v hv
    unfold reported
    rw [C101_no_obstacle hres hd hf ho toGrid locIdx (hdim ▸ hv)]
    rfl
  have hp' : In (FSdf.mk o.sdf res).grid.dims locIdx p := hdim.symm ▸ hp
  obtain ⟨-, h2, h3⟩ := C106_outcome R toGrid locIdx (FSdf.mk o.sdf res) p window
  by_cases hall : ∀ a, In (FSdf.mk o.sdf res).grid.dims locIdx (lower R p window a) ∨
      In (FSdf.mk o.sdf res).grid.dims locIdx (upper R p window a)
  · obtain ⟨g, eg, hg⟩ := h3 hp' hall
    have hn : ∀ a, g a = none := by
      intro a
      by_cases l : In (FSdf.mk o.sdf res).grid.dims locIdx (lower R p window a)
      · by_cases r : In (FSdf.mk o.sdf res).grid.dims locIdx (upper R p window a)
        · rw [hg a _ _ (Or.inl ⟨l, r, rfl, rfl⟩), hrep _ r]; exact div_none R _
        · rw [hg a _ _ (Or.inr (Or.inl ⟨l, r, rfl, rfl⟩)), hrep _ hp']; exact div_none R _
      · have r := (hall a).resolve_left l
        rw [hg a _ _ (Or.inr (Or.inr ⟨l, r, rfl, rfl⟩)), hrep _ r]; exact div_none R _
    rw [eg, hn 0, hn 1, hn 2] at hl
    exact (Option.some.inj hl).symm
  · have : ∃ a, ¬ In (FSdf.mk o.sdf res).grid.dims locIdx (lower R p window a) ∧
        ¬ In (FSdf.mk o.sdf res).grid.dims locIdx (upper R p window a) := by
      by_contra hc
      exact hall fun a => by
        by_contra h
        exact hc ⟨a, not_or.mp h⟩
    rw [h2 hp' this] at hl
    cases hl

/-! ### The hypotheses are satisfiable -/

/-- Cell lookup for the first cell of `exFloatField`; other locations have no cell. -/
noncomputable def exLookup (p : V3 FVal) : Idx := open Classical in
  if ∃ q : V3 ℝ, p = ⟨real q.x, real q.y, real q.z⟩ ∧ |q.x - 1 / 8| ≤ 1 / 8 ∧ |q.y - 1 / 8| ≤ 1 / 8 ∧ |q.z - 1 / 8| ≤ 1 / 8
  then ⟨0, 0, 0⟩ else ⟨-1, 0, 0⟩

theorem exLookup_ok : FrameOk id exLookup ⟨2, 1, 2⟩ (1 / 4) := by
  classical
  intro p hp
  by_cases h : ∃ q : V3 ℝ, p = ⟨real q.x, real q.y, real q.z⟩ ∧ |q.x - 1 / 8| ≤ 1 / 8 ∧ |q.y - 1 / 8| ≤ 1 / 8 ∧
      |q.z - 1 / 8| ≤ 1 / 8
  · have e : exLookup p = ⟨0, 0, 0⟩ := if_pos h
    obtain ⟨q, hq, hx, hy, hz⟩ := h
    rw [e]
    refine ⟨q, hq, ?_, ?_, ?_⟩ <;> norm_num at hx hy hz ⊢ <;> linarith
  · have e : exLookup p = ⟨-1, 0, 0⟩ := if_neg h
    rw [e] at hp
    exact absurd hp.1.1 (by norm_num)

theorem exLookup_in {x y z : ℝ} (hx : |x - 1 / 8| ≤ 1 / 8) (hy : |y - 1 / 8| ≤ 1 / 8) (hz : |z - 1 / 8| ≤ 1 / 8) :
    In ⟨2, 1, 2⟩ exLookup ⟨real x, real y, real z⟩ := by
  classical
  have e : exLookup ⟨real x, real y, real z⟩ = ⟨0, 0, 0⟩ := if_pos ⟨⟨x, y, z⟩, rfl, hx, hy, hz⟩
  unfold In
  rw [e]
  simp [InBounds]

theorem fabs_real {x : ℝ} (h : 0 ≤ x) : fabs (real x) = real x := by
  unfold fabs real
  have : (-(x : EReal)) ≤ x := by
    rw [← EReal.coe_neg]
    exact_mod_cast (by linarith : -x ≤ x)
  simp [max_eq_left this]

theorem ex_sub : sub ieee (real (1 / 8)) (real (1 / 16)) = real (1 / 16) := by
  have h := Ieee.round_exact (F := Ieee.binary64) (n := 1) (e := -4) (by decide) (by decide)
    (lt_of_lt_of_le (b := (2 : ℝ) ^ (0 : ℤ)) (by norm_num) (Ieee.two_mono (by decide)))
  rw [sub_real, show (1 / 8 - 1 / 16 : ℝ) = ((1 : ℕ) : ℝ) * 2 ^ (-4 : ℤ) by norm_num]
  refine (congrArg some h).trans ?_
  norm_num [real]

theorem ex_add : add ieee (real (1 / 8)) (real (1 / 16)) = real (3 / 16) := by
  have h := Ieee.round_exact (F := Ieee.binary64) (n := 3) (e := -4) (by decide) (by decide)
    (lt_of_lt_of_le (b := (2 : ℝ) ^ (0 : ℤ)) (by norm_num) (Ieee.two_mono (by decide)))
  rw [add_real, show (1 / 8 + 1 / 16 : ℝ) = ((3 : ℕ) : ℝ) * 2 ^ (-4 : ℤ) by norm_num]
  refine (congrArg some h).trans ?_
  norm_num [real]

/-- In the first cell of `exFloatField`, with a window of a quarter of the cell. -/
example : ∃ g : Fin 3 → ℝ, (FSdf.mk exFloatField (1 / 4)).smoothGradient ieee id exLookup
    ⟨real (1 / 8), real (1 / 8), real (1 / 8)⟩ (real (1 / 16)) = some [real (g 0), real (g 1), real (g 2)] := by
  have hl : ∀ a, lower ieee ⟨real (1 / 8), real (1 / 8), real (1 / 8)⟩ (real (1 / 16)) a =
      put ⟨real (1 / 8), real (1 / 8), real (1 / 8)⟩ a (real (1 / 16)) := by
    intro a
    unfold lower
    rw [fabs_real (by norm_num)]
    fin_cases a <;> exact congrArg _ ex_sub
  have hu : ∀ a, upper ieee ⟨real (1 / 8), real (1 / 8), real (1 / 8)⟩ (real (1 / 16)) a =
      put ⟨real (1 / 8), real (1 / 8), real (1 / 8)⟩ a (real (3 / 16)) := by
    intro a
    unfold upper
    rw [fabs_real (by norm_num)]
    fin_cases a <;> exact congrArg _ ex_add
  have il : ∀ a, In ⟨2, 1, 2⟩ exLookup (put ⟨real (1 / 8), real (1 / 8), real (1 / 8)⟩ a (real (1 / 16))) := by
    intro a
    fin_cases a <;> exact exLookup_in (by norm_num [abs_le]) (by norm_num [abs_le]) (by norm_num [abs_le])
  have iu : ∀ a, In ⟨2, 1, 2⟩ exLookup (put ⟨real (1 / 8), real (1 / 8), real (1 / 8)⟩ a (real (3 / 16))) := by
    intro a
    fin_cases a <;> exact exLookup_in (by norm_num [abs_le]) (by norm_num [abs_le]) (by norm_num [abs_le])
  obtain ⟨g, e, -⟩ := C106_accuracy_partial exField_stores (N := 2) (by norm_num)
    ⟨le_refl 2, by decide, le_refl 2⟩ (by show (1 : ℝ) / 2 ^ 100 ≤ 1 / 4; norm_num)
    (by show (1 / 4 : ℝ) ≤ 2 ^ 100; norm_num) (by norm_num) exField_bound (toGrid := id) exLookup_ok
    (p := ⟨real (1 / 8), real (1 / 8), real (1 / 8)⟩) (window := real (1 / 16))
    (exLookup_in (by norm_num) (by norm_num) (by norm_num)) (fun a => Or.inl (by rw [hl]; exact il a)) (by
      intro a u v huv
      rw [hl, hu] at huv
      rcases huv with ⟨-, -, rfl, rfl⟩ | ⟨-, h, -⟩ | ⟨h, -⟩
      · refine ⟨1 / 16, 3 / 16, ?_, ?_, by norm_num, by norm_num⟩ <;> fin_cases a <;> rfl
      · exact absurd (iu a) h
      · exact absurd (il a) h)
  exact ⟨g, e⟩

theorem ex_tiny : sub ieee (real (1 / 8)) (real (1 / 2 ^ 60)) = real (1 / 8) ∧
    add ieee (real (1 / 8)) (real (1 / 2 ^ 60)) = real (1 / 8) := by
  constructor
  · have h := Ieee.round_near (F := Ieee.binary64) (x := 1 / 8 - 1 / 2 ^ 60) (n := 2 ^ 53) (e := -56) (k := -4)
      (by norm_num) (by norm_num) (by decide) (by decide) (by rw [abs_lt]; constructor <;> norm_num)
      (lt_of_lt_of_le (b := (2 : ℝ) ^ (0 : ℤ)) (by norm_num) (Ieee.two_mono (by decide)))
    rw [sub_real]
    refine (congrArg some h).trans ?_
    norm_num [real]
  · have h := Ieee.round_near (F := Ieee.binary64) (x := 1 / 8 + 1 / 2 ^ 60) (n := 2 ^ 52) (e := -55) (k := -3)
      (by norm_num) (by norm_num) (by decide) (by decide) (by rw [abs_lt]; constructor <;> norm_num)
      (lt_of_lt_of_le (b := (2 : ℝ) ^ (0 : ℤ)) (by norm_num) (Ieee.two_mono (by decide)))
    rw [add_real]
    refine (congrArg some h).trans ?_
    norm_num [real]

/-- The same location with a window of `2 ^ -60`: no component is a number. -/
example : (FSdf.mk exFloatField (1 / 4)).smoothGradient ieee id exLookup
    ⟨real (1 / 8), real (1 / 8), real (1 / 8)⟩ (real (1 / 2 ^ 60)) = some [none, none, none] := by
  refine C106_tiny_window ieee id exLookup (FSdf.mk exFloatField (1 / 4)) _
    (exLookup_in (by norm_num) (by norm_num) (by norm_num)) fun a => ?_
  rw [fabs_real (by norm_num)]
  fin_cases a <;> exact ex_tiny

/-- A map of 4 x 3 x 2 free cells of size `1/4`, with a window that stays in the first cell. -/
example : ∃ o, extract ieee (1 / 4, 1 / 4, 1 / 4) ⟨4, 3, 2⟩ (fun _ => some false) none false = some o ∧
    (FSdf.mk o.sdf (1 / 4)).smoothGradient ieee id (fun _ => ⟨0, 0, 0⟩) ⟨real (1 / 8), real (1 / 8), real (1 / 8)⟩
      (real (1 / 16)) = some [none, none, none] := by
  have hd : SmallGrid ⟨4, 3, 2⟩ := by unfold SmallGrid; decide
  have hf : Answers ⟨4, 3, 2⟩ (fun _ => some false) fun _ => false := fun _ _ => rfl
  obtain ⟨o, ho, -⟩ := C13_sign quarter_good hd hf none
  refine ⟨o, ho, ?_⟩
  have hdim : o.sdf.dims = ⟨4, 3, 2⟩ := by
    obtain ⟨o', a', b', ho', hs⟩ := base_spec hd hf ieee (1 / 4) none
    rw [extract_false, ho'] at ho
    rw [← Option.some.inj ho]
    exact hs.dims
  have hin : ∀ q, In (FSdf.mk o.sdf (1 / 4)).grid.dims (fun _ => ⟨0, 0, 0⟩) q := fun q => by
    show InBounds o.sdf.dims _
    rw [hdim]
    simp [InBounds]
  obtain ⟨g, e, -⟩ := (C106_outcome ieee id (fun _ => ⟨0, 0, 0⟩) (FSdf.mk o.sdf (1 / 4))
    ⟨real (1 / 8), real (1 / 8), real (1 / 8)⟩ (real (1 / 16))).2.2 (hin _) fun a => Or.inl (hin _)
  rw [e]
  exact congrArg some (C106_no_obstacle quarter_good hd hf ho id (fun _ => ⟨0, 0, 0⟩) (by simp [InBounds]) _ _ e)

end FSdf

end Verif
