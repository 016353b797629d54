import Verif.Props.ConvexFloat
import Verif.Props.Units
import Verif.Props.GradFloat

/-!
# C109: the steps of a path in IEEE arithmetic
-/

namespace Verif

namespace FSdf

open Fl Spec SdfGen

/-! ## The specification -/

/-- The step along one axis for a gradient component `g` and a step size `st`. -/
noncomputable def dir (st g : ℝ) : Int := if st < g then 1 else if g < -st then -1 else 0

/-- The cell that a path goes to: along the gradient from a cell with a distance that is not negative, against it from
other cells. -/
noncomputable def goal (st v : ℝ) (i : Idx) (gx gy gz : ℝ) : Idx :=
  if v < 0 then ⟨i.x + dir st (-gx), i.y + dir st (-gy), i.z + dir st (-gz)⟩
  else ⟨i.x + dir st gx, i.y + dir st gy, i.z + dir st gz⟩

/-! ## One step -/

theorem stepRes_real {s : FSdf} (hlo : 1 / 2 ^ 100 ≤ s.res) (hhi : s.res ≤ 2 ^ 100) :
    ∃ st : ℝ, s.stepRes ieee = real st ∧ 0 < st ∧ |st - s.res * (49 / 800)| ≤ s.res / 2 ^ 52 := by
  have r0 : 0 < s.res := lt_of_lt_of_le (by positivity) hlo
  have lowp : (2 : ℝ) ^ (-400 : ℤ) ≤ 1 / 2 ^ 100 * (1 / 2 ^ 10) := by
    have h := Ieee.two_mono (show (-400 : ℤ) ≤ -110 by decide)
    have e := zpow_neg_nat 110
    push_cast at e
    rw [e] at h
    refine h.trans (le_of_eq ?_)
    norm_num
  have hip : (2 : ℝ) ^ 100 ≤ 2 ^ (404 : ℤ) := by
    have h := Ieee.two_mono (show (100 : ℤ) ≤ 404 by decide)
    refine le_trans (le_of_eq ?_) h
    norm_cast
  have b1 : Rel 0 (49 / 800 : ℝ) (49 / 800) := by
    refine ⟨by norm_num, by simp, .inr (lowp.trans ?_), le_trans ?_ hip⟩
    · norm_num
    · norm_num
  obtain ⟨c, hc, c0, c1, _⟩ := b1.round (by norm_num)
  have b2 : Rel 2 (s.res * c) (s.res * (49 / 800)) := by
    refine ⟨mul_nonneg r0.le c0, ?_, .inr (lowp.trans ?_), le_trans ?_ hip⟩
    · rw [← mul_sub, abs_mul, abs_of_pos r0]
      nlinarith [c1]
    · exact mul_le_mul hlo (by norm_num) (by norm_num) r0.le
    · nlinarith
  obtain ⟨st, hst, s0, s1, _⟩ := b2.round (by norm_num)
  refine ⟨st, ?_, ?_, s1.trans ?_⟩
  · unfold stepRes
    rw [hc, show some ((c : ℝ) : EReal) = real c from rfl, mul_real, hst]
    rfl
  · have := (abs_le.mp s1).1
    have h2 : (2 + 2) * (s.res * (49 / 800) / 2 ^ 52) < s.res * (49 / 800) := by
      have : 0 < s.res * (49 / 800) := by positivity
      nlinarith
    linarith
  · have : 0 < s.res / 2 ^ 52 := by positivity
    calc (2 + 2) * (s.res * (49 / 800) / 2 ^ 52) = 49 / 200 * (s.res / 2 ^ 52) := by ring
      _ ≤ s.res / 2 ^ 52 := by linarith

theorem lt_real (a b : ℝ) : lt (real a) (real b) = true ↔ a < b := by
  unfold lt real
  simp only [decide_eq_true_eq]
  exact EReal.coe_lt_coe_iff

theorem le_abs_real (a b : ℝ) : le (fabs (real a)) (real b) = true ↔ |a| ≤ b := by
  unfold le fabs real
  simp only [Option.map_some, decide_eq_true_eq]
  rw [max_le_iff, ← EReal.coe_neg, EReal.coe_le_coe_iff, EReal.coe_le_coe_iff, abs_le]
  constructor <;> rintro ⟨h1, h2⟩ <;> constructor <;> linarith

theorem neg_real (a : ℝ) : neg (real a) = real (-a) := by
  unfold neg real
  simp

theorem mul_minus_one (R : Rounding) {a : ℝ} (h : IsDouble R (real a)) : mul R (real a) (real (-1)) = real (-a) := by
  rw [mul_real, mul_neg_one, EReal.coe_neg, R.odd64, h _ rfl, ← EReal.coe_neg]
  rfl

theorem unitStep_real {R : Rounding} {rot : V3 FVal → V3 FVal} {s : FSdf} {st : ℝ} (hst : s.stepRes R = real st)
    (g : ℝ) : unitStep (s.gradField R rot) (real g) = dir st g := by
  have u1 : (s.gradField R rot).up (real g) = true ↔ st < g := by
    show lt (s.stepRes R) (real g) = true ↔ _
    rw [hst, lt_real]
  have u2 : (s.gradField R rot).down (real g) = true ↔ g < -st := by
    show lt (real g) (neg (s.stepRes R)) = true ↔ _
    rw [hst, neg_real, lt_real]
  unfold unitStep dir
  simp only [u1, u2]

/-- C109, steps.  A cell with a finite gradient of doubles is flat if no component exceeds the step size, and otherwise
leads one cell up or down each axis whose component exceeds it; the step size is 0.06125 times the cell size. -/
theorem C109_steps {rot : V3 FVal → V3 FVal} {s : FSdf} (hlo : 1 / 2 ^ 100 ≤ s.res) (hhi : s.res ≤ 2 ^ 100) :
    ∃ st : ℝ, |st - s.res * (49 / 800)| ≤ s.res / 2 ^ 52 ∧ ∀ (i : Idx) (gx gy gz v : ℝ),
      s.gradient ieee rot i true = [real gx, real gy, real gz] → s.grid.get i = real v →
      IsDouble ieee (real gx) → IsDouble ieee (real gy) → IsDouble ieee (real gz) →
      (FlatAt (s.gradField ieee rot) i ↔ |gx| ≤ st ∧ |gy| ≤ st ∧ |gz| ≤ st) ∧
      ∀ j, Target (s.gradField ieee rot) i j ↔ j = goal st v i gx gy gz := by
  obtain ⟨st, hst, _, herr⟩ := stepRes_real hlo hhi
  refine ⟨st, herr, ?_⟩
  intro i gx gy gz v hg hv dx dy dz
  have hg' : (s.gradField ieee rot).grad i = [real gx, real gy, real gz] := hg
  have hsm : ∀ g : ℝ, (s.gradField ieee rot).small (real g) = true ↔ |g| ≤ st := by
    intro g
    show le (fabs (real g)) (s.stepRes ieee) = true ↔ _
    rw [hst, le_abs_real]
  have hneg : (s.gradField ieee rot).neg i = true ↔ v < 0 := by
    show lt (s.grid.get i) (real 0) = true ↔ _
    rw [hv, lt_real]
  constructor
  · unfold FlatAt
    rw [hg']
    simp only [List.mem_cons, List.not_mem_nil, or_false, forall_eq_or_imp, forall_eq, hsm]
  · intro j
    have hn : ∀ g : ℝ, IsDouble ieee (real g) → unitStep (s.gradField ieee rot) ((s.gradField ieee rot).negate (real g)) =
        dir st (-g) := by
      intro g hd
      show unitStep (s.gradField ieee rot) (mul ieee (real g) (real (-1))) = _
      rw [mul_minus_one ieee hd, unitStep_real hst]
    have key : (⟨i.x + if (s.gradField ieee rot).neg i then unitStep (s.gradField ieee rot)
          ((s.gradField ieee rot).negate (real gx)) else unitStep (s.gradField ieee rot) (real gx),
        i.y + if (s.gradField ieee rot).neg i then unitStep (s.gradField ieee rot)
          ((s.gradField ieee rot).negate (real gy)) else unitStep (s.gradField ieee rot) (real gy),
        i.z + if (s.gradField ieee rot).neg i then unitStep (s.gradField ieee rot)
          ((s.gradField ieee rot).negate (real gz)) else unitStep (s.gradField ieee rot) (real gz)⟩ : Idx) =
        goal st v i gx gy gz := by
      unfold goal
      rw [hn gx dx, hn gy dy, hn gz dz, unitStep_real hst, unitStep_real hst, unitStep_real hst]
      by_cases h : v < 0
      · rw [if_pos h, if_pos (hneg.mpr h), if_pos (hneg.mpr h), if_pos (hneg.mpr h)]
      · have h' : ¬ (s.gradField ieee rot).neg i = true := fun hh => h (hneg.mp hh)
        rw [if_neg h, if_neg h', if_neg h', if_neg h']
    constructor
    · rintro ⟨a, b, c, e, hj⟩
      rw [hg'] at e
      simp only [List.cons.injEq, and_true] at e
      obtain ⟨rfl, rfl, rfl⟩ := e
      exact hj.trans key
    · intro hj
      exact ⟨_, _, _, hg', hj.trans key.symm⟩

/-- C109, NaN.  A component that is NaN moves a path neither up nor down its axis, and its cell is not flat. -/
theorem C109_nan (R : Rounding) (rot : V3 FVal → V3 FVal) (s : FSdf) :
    unitStep (s.gradField R rot) none = 0 ∧ unitStep (s.gradField R rot) ((s.gradField R rot).negate none) = 0 ∧
    ∀ i, none ∈ s.gradient R rot i true → ¬ FlatAt (s.gradField R rot) i := by
  have hn : (s.gradField R rot).negate none = none := rfl
  have h0 : unitStep (s.gradField R rot) none = 0 := by
    have u1 : (s.gradField R rot).up none = false := by
      show lt (s.stepRes R) none = false
      cases s.stepRes R <;> rfl
    have u2 : (s.gradField R rot).down none = false := rfl
    unfold unitStep
    rw [u1, u2]; rfl
  refine ⟨h0, by rw [hn]; exact h0, ?_⟩
  intro i hi hflat
  have : (s.gradField R rot).small none = true := hflat none hi
  exact absurd (show le (fabs none) (s.stepRes R) = true from this) (by simp [fabs, le])

/-! ## Agreement with exact gradients -/

/-- A rotation that leaves vectors of doubles as they are. -/
def Fixes (rot : V3 FVal → V3 FVal) : Prop := ∀ a b c : ℝ, IsDouble ieee (real a) → IsDouble ieee (real b) →
  IsDouble ieee (real c) → rot ⟨real a, real b, real c⟩ = ⟨real a, real b, real c⟩

theorem fixes_identity : Fixes idRot := fun _ _ _ ha hb hc => rotate_identity ieee ha hb hc

theorem dir_neg_exact {t : MSdf ℝ} (x : ℝ) : t.gradField.comp x = dir (t.res * (49 / 800)) x := by
  unfold GradField.comp dir
  show (if decide (x > t.res * (49 / 800)) = true then (1 : Int)
    else if decide (x < -(t.res * (49 / 800))) = true then -1 else 0) = _
  simp only [decide_eq_true_eq, gt_iff_lt]

/-- The computed component is on the same side of the computed step size. -/
theorem same_side {st th y x ε δ : ℝ} (hst : |st - th| ≤ δ) (hy : |y - x| ≤ ε)
    (h0 : 0 < th - δ) (hclear : ε + δ < |(|x| - th)|) :
    (|y| ≤ st ↔ |x| ≤ th) ∧ dir st y = dir th x ∧ dir st (-y) = dir th (-x) := by
  obtain ⟨s1, s2⟩ := abs_le.mp hst
  obtain ⟨y1, y2⟩ := abs_le.mp hy
  have hd : 0 ≤ δ := le_trans (abs_nonneg _) hst
  have he : 0 ≤ ε := le_trans (abs_nonneg _) hy
  rcases le_or_gt (|x| - th) 0 with h | h
  · rw [abs_of_nonpos h] at hclear
    obtain ⟨x1, x2⟩ := abs_le.mp (show |x| ≤ th by linarith)
    have hx1 : -|x| ≤ x := neg_abs_le x
    have hx2 : x ≤ |x| := le_abs_self x
    have hyst : |y| ≤ st := by rw [abs_le]; constructor <;> linarith
    obtain ⟨p, q⟩ := abs_le.mp hyst
    refine ⟨⟨fun _ => by linarith, fun _ => hyst⟩, ?_, ?_⟩
    · unfold dir
      rw [if_neg (by linarith), if_neg (by linarith), if_neg (by linarith), if_neg (by linarith)]
    · unfold dir
      rw [if_neg (by linarith), if_neg (by linarith), if_neg (by linarith), if_neg (by linarith)]
  · rw [abs_of_pos h] at hclear
    rcases le_or_gt 0 x with hx | hx
    · rw [abs_of_nonneg hx] at hclear h ⊢
      have hys : st < y := by linarith
      have hy0 : 0 < y := by linarith
      refine ⟨⟨fun hh => ?_, fun hh => absurd hh (by linarith)⟩, ?_, ?_⟩
      · rw [abs_of_pos hy0] at hh; linarith
      · unfold dir
        rw [if_pos hys, if_pos (by linarith)]
      · unfold dir
        rw [if_neg (by linarith), if_pos (by linarith), if_neg (by linarith), if_pos (by linarith)]
    · rw [abs_of_neg hx] at hclear h ⊢
      have hys : y < -st := by linarith
      have hy0 : y < 0 := by linarith
      refine ⟨⟨fun hh => ?_, fun hh => absurd hh (by linarith)⟩, ?_, ?_⟩
      · rw [abs_of_neg hy0] at hh; linarith
      · unfold dir
        rw [if_neg (by linarith), if_pos hys, if_neg (by linarith), if_pos (by linarith)]
      · unfold dir
        rw [if_pos (by linarith), if_pos (by linarith)]

/-- C109, agreement.  In a grid that is not rotated, the map of local extrema computed in IEEE arithmetic is the map of
exact arithmetic, if no exact gradient component is within rounding errors of the step size. -/
theorem C109_agrees {s : FSdf} {t : MSdf ℝ} (h : Stores s t) (hlo : 1 / 2 ^ 100 ≤ t.res) (hhi : t.res ≤ 2 ^ 100) {D : ℝ}
    (hD : D ≤ 2 ^ 126) (hv : ∀ i, InBounds t.grid.dims i → |t.grid.get i| ≤ D) {rot : V3 FVal → V3 FVal}
    (hrot : Fixes rot) (horg : Unrotated t.origin)
    (hclear : ∀ i, InBounds t.grid.dims i → ∀ g ∈ t.gradient i true,
      |g| / 2 ^ 23 + 1 / 2 ^ 147 / t.res + t.res / 2 ^ 52 < |(|g| - t.res * (49 / 800))|) :
    (s.gradField ieee rot).extremaMap t.grid.dims = t.gradField.extremaMap t.grid.dims := by
  refine GradField.extremaMap_congr ?_
  intro i hi
  have hlo' : 1 / 2 ^ 100 ≤ s.res := by rw [h.2.1]; exact hlo
  have hhi' : s.res ≤ 2 ^ 100 := by rw [h.2.1]; exact hhi
  have r0 : 0 < t.res := lt_of_lt_of_le (by positivity) hlo
  obtain ⟨st, hst, st0, herr⟩ := stepRes_real hlo' hhi'
  rw [h.2.1] at herr
  obtain ⟨x, y, z, et⟩ := GradField.list3 (C27_sdf t i hi)
  have et' : t.gradient i true = [x, y, z] := et
  obtain ⟨gx, gy, gz, eg, _⟩ := MSdf.gridGrad_faces t r0 hi
  have egg : t.gridGrad i true = [x, y, z] := by
    unfold MSdf.gradient at et'
    rw [eg] at et'
    dsimp only at et'
    rw [horg] at et'
    rw [eg]; exact et'
  have hacc := C102_accuracy_partial h hlo hhi hD hv i true
  rw [egg] at hacc
  have hdbl := gridGrad_double ieee s i true
  generalize hsg : s.gridGrad ieee i true = l at hacc hdbl
  obtain ⟨a, b, c, rfl⟩ := GradField.list3 (l := l) hacc.length_eq
  simp only [List.forall₂_cons, List.forall₂_nil_left_iff, and_true] at hacc
  obtain ⟨ha, hb, hc⟩ := hacc
  obtain ⟨a, rfl, ha⟩ := ha
  obtain ⟨b, rfl, hb⟩ := hb
  obtain ⟨c, rfl, hc⟩ := hc
  have da := hdbl (real a) (by simp)
  have db := hdbl (real b) (by simp)
  have dc := hdbl (real c) (by simp)
  have es : (s.gradField ieee rot).grad i = [real a, real b, real c] := by
    show gradient _ _ _ _ _ = _
    unfold gradient
    rw [hsg]
    dsimp only
    rw [hrot a b c da db dc]
  refine ⟨_, _, _, _, _, _, es, et, ?_, ?_⟩
  all_goals
    have hth : 0 < t.res * (49 / 800) - t.res / 2 ^ 52 := by
      have : t.res / 2 ^ 52 < t.res * (49 / 800) := by
        rw [div_lt_iff₀ (by positivity)]; nlinarith
      linarith
    have sx := same_side herr ha hth (hclear i hi x (by rw [et']; simp))
    have sy := same_side herr hb hth (hclear i hi y (by rw [et']; simp))
    have sz := same_side herr hc hth (hclear i hi z (by rw [et']; simp))
  · have hsm : ∀ {p q : ℝ}, (|p| ≤ st ↔ |q| ≤ t.res * (49 / 800)) →
        (s.gradField ieee rot).small (real p) = t.gradField.small q := by
      intro p q hpq
      rw [Bool.eq_iff_iff]
      show le (fabs (real p)) (s.stepRes ieee) = true ↔ decide (|q| ≤ t.res * (49 / 800)) = true
      rw [hst, le_abs_real, decide_eq_true_eq]
      exact hpq
    unfold GradField.isFlat
    rw [hsm sx.1, hsm sy.1, hsm sz.1]
  · have hcomp : ∀ {p q : ℝ}, dir st p = dir (t.res * (49 / 800)) q →
        (s.gradField ieee rot).comp (real p) = t.gradField.comp q := by
      intro p q hpq
      rw [dir_neg_exact, ← hpq]
      exact unitStep_real hst p
    have hneg : ∀ {p q : ℝ}, IsDouble ieee (real p) → dir st (-p) = dir (t.res * (49 / 800)) (-q) →
        (s.gradField ieee rot).comp ((s.gradField ieee rot).negate (real p)) =
          t.gradField.comp (t.gradField.negate q) := by
      intro p q hd hpq
      show (s.gradField ieee rot).comp (mul ieee (real p) (real (-1))) = t.gradField.comp (q * -1)
      rw [mul_minus_one ieee hd, mul_neg_one]
      exact hcomp hpq
    have hn : (s.gradField ieee rot).neg i = t.gradField.neg i := by
      rw [Bool.eq_iff_iff]
      show lt (s.grid.get i) (real 0) = true ↔ decide (t.grid.get i < 0) = true
      rw [h.2.2 i hi, lt_real, decide_eq_true_eq]
    unfold GradField.next
    rw [hn, hcomp sx.2.1, hcomp sy.2.1, hcomp sz.2.1, hneg da sx.2.2, hneg db sy.2.2, hneg dc sz.2.2]

/-- The hypotheses of `C109_agrees` are met by `exFloatField`, whose gradients are far from the step size. -/
example : Stores (FSdf.mk exFloatField (1 / 4)) (FSdf.mk exFloatField (1 / 4)).exact ∧ Fixes idRot ∧
    Unrotated (FSdf.mk exFloatField (1 / 4)).exact.origin ∧
    ∀ i, InBounds (FSdf.mk exFloatField (1 / 4)).exact.grid.dims i →
      ∀ g ∈ (FSdf.mk exFloatField (1 / 4)).exact.gradient i true,
        |g| / 2 ^ 23 + 1 / 2 ^ 147 / (1 / 4) + 1 / 4 / 2 ^ 52 < |(|g| - 1 / 4 * (49 / 800))| := by
  have horg : Unrotated (FSdf.mk exFloatField (1 / 4)).exact.origin := idAff_unrotated
  refine ⟨exField_stores, fixes_identity, horg, ?_⟩
  intro i hi g hg
  have v : ∀ x z : Int, 0 ≤ x → x < 2 → 0 ≤ z → z < 2 → toR (exFloatField.get ⟨x, 0, z⟩) = exFloatValue ⟨x, 0, z⟩ := by
    intro x z h1 h2 h3 h4
    rw [exFloatField_get _ ⟨⟨h1, h2⟩, ⟨le_refl _, by show (0 : Int) < 1; decide⟩, h3, h4⟩]
    rfl
  have hd : (FSdf.mk exFloatField (1 / 4)).exact.grid.dims = ⟨2, 1, 2⟩ := rfl
  have hr : (FSdf.mk exFloatField (1 / 4)).exact.res = 1 / 4 := rfl
  have v00 := v 0 0 (by decide) (by decide) (by decide) (by decide)
  have v01 := v 0 1 (by decide) (by decide) (by decide) (by decide)
  have v10 := v 1 0 (by decide) (by decide) (by decide) (by decide)
  have v11 := v 1 1 (by decide) (by decide) (by decide) (by decide)
  have hcell : i = ⟨0, 0, 0⟩ ∨ i = ⟨0, 0, 1⟩ ∨ i = ⟨1, 0, 0⟩ ∨ i = ⟨1, 0, 1⟩ := by
    obtain ⟨⟨a, b⟩, ⟨c, d⟩, f, h⟩ := (show InBounds ⟨2, 1, 2⟩ i from hi)
    cases i
    simp only [Idx.mk.injEq] at *
    omega
  have hmem : g = -4 ∨ g = 0 ∨ g = -2 ∨ g = -10 ∨ g = -8 := by
    have hgg : (FSdf.mk exFloatField (1 / 4)).exact.gradient i true =
        (FSdf.mk exFloatField (1 / 4)).exact.gridGrad i true := by
      obtain ⟨gx, gy, gz, e, _⟩ := MSdf.gridGrad_faces (FSdf.mk exFloatField (1 / 4)).exact
        (by rw [hr]; norm_num) hi
      unfold MSdf.gradient
      rw [e]
      dsimp only
      rw [horg]
    rw [hgg] at hg
    unfold MSdf.gridGrad at hg
    simp only [exact_get, hd, hr] at hg
    rcases hcell with rfl | rfl | rfl | rfl <;>
    · norm_num [Dims.inB, v00, v01, v10, v11, exFloatValue] at hg
      tauto
  rcases hmem with rfl | rfl | rfl | rfl | rfl
  · rw [show |(-4 : ℝ)| = 4 by norm_num, abs_of_pos (by norm_num)]; norm_num
  · rw [show |(0 : ℝ)| = 0 by norm_num, abs_of_neg (by norm_num)]; norm_num
  · rw [show |(-2 : ℝ)| = 2 by norm_num, abs_of_pos (by norm_num)]; norm_num
  · rw [show |(-10 : ℝ)| = 10 by norm_num, abs_of_pos (by norm_num)]; norm_num
  · rw [show |(-8 : ℝ)| = 8 by norm_num, abs_of_pos (by norm_num)]; norm_num

end FSdf

end Verif
