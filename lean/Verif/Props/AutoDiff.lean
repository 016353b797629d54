import Verif.Props.Gradients
import Verif.Props.InterpCont
import Mathlib.Analysis.Calculus.FDeriv.Mul
import Mathlib.Analysis.Calculus.FDeriv.Add
import Mathlib.Analysis.Calculus.FDeriv.Prod
import Mathlib.Analysis.Calculus.FDeriv.Congr

/-!
# C72: the automatic-differentiation gradient is the derivative of `EstimateDistance`
-/

namespace Verif

open Spec Filter Topology

/-! ## Specification -/

/-- The linear form with the given coefficients. -/
noncomputable def linForm (d : V3 ℝ) : ℝ × ℝ × ℝ →L[ℝ] ℝ :=
  d.x • ContinuousLinearMap.fst ℝ ℝ (ℝ × ℝ)
    + d.y • (ContinuousLinearMap.fst ℝ ℝ ℝ).comp (ContinuousLinearMap.snd ℝ ℝ (ℝ × ℝ))
    + d.z • (ContinuousLinearMap.snd ℝ ℝ ℝ).comp (ContinuousLinearMap.snd ℝ ℝ (ℝ × ℝ))

theorem linForm_apply (d : V3 ℝ) (q : ℝ × ℝ × ℝ) :
    linForm d q = d.x * q.1 + d.y * q.2.1 + d.z * q.2.2 := by
  simp [linForm]

/-- Locations whose grid coordinates are all at least those of `p`. -/
def forward (s : MSdf ℝ) (p : V3 ℝ) : Set (ℝ × ℝ × ℝ) :=
  {q | (s.toGrid p).x ≤ (s.toGrid ⟨q.1, q.2.1, q.2.2⟩).x ∧
    (s.toGrid p).y ≤ (s.toGrid ⟨q.1, q.2.1, q.2.2⟩).y ∧
    (s.toGrid p).z ≤ (s.toGrid ⟨q.1, q.2.1, q.2.2⟩).z}

/-- The coordinate `t` (in cells) is strictly inside an axis of `n` cells and is not the centre of
one of its inner cells, where two straight pieces of the interpolant meet. -/
def Smooth (n : Nat) (t : ℝ) : Prop :=
  0 < t ∧ t < n ∧ ∀ k : Int, 1 ≤ k → k + 2 ≤ n → t ≠ k + 1 / 2

/-! ## Dual numbers track derivatives -/

/-- `a` holds the value of `f` at `q` and its derivative there (within `S`). -/
def Tracks (S : Set (ℝ × ℝ × ℝ)) (q : ℝ × ℝ × ℝ) (f : ℝ × ℝ × ℝ → ℝ) (a : Dual ℝ) : Prop :=
  a.val = f q ∧ HasFDerivWithinAt f (linForm a.d) S q

variable {S : Set (ℝ × ℝ × ℝ)} {q : ℝ × ℝ × ℝ}

theorem Tracks.const (c : ℝ) : Tracks S q (fun _ => c) (Dual.const c) := by
  refine ⟨rfl, ?_⟩
  have e : linForm (Dual.const c).d = 0 := by
    ext <;> simp [linForm, Dual.const]
  rw [e]
  exact hasFDerivWithinAt_const c q S

theorem Tracks.add {f g : ℝ × ℝ × ℝ → ℝ} {a b : Dual ℝ} (hf : Tracks S q f a)
    (hg : Tracks S q g b) : Tracks S q (fun r => f r + g r) (a + b) := by
  refine ⟨congrArg₂ (· + ·) hf.1 hg.1, ?_⟩
  have e : linForm (a + b).d = linForm a.d + linForm b.d := by
    rw [Dual.add_d]
    ext <;> simp [linForm_apply]
  rw [e]
  exact hf.2.add hg.2

theorem Tracks.sub {f g : ℝ × ℝ × ℝ → ℝ} {a b : Dual ℝ} (hf : Tracks S q f a)
    (hg : Tracks S q g b) : Tracks S q (fun r => f r - g r) (a - b) := by
  refine ⟨congrArg₂ (· - ·) hf.1 hg.1, ?_⟩
  have e : linForm (a - b).d = linForm a.d - linForm b.d := by
    rw [Dual.sub_d]
    ext <;> simp [linForm_apply]
  rw [e]
  exact hf.2.sub hg.2

theorem Tracks.mul {f g : ℝ × ℝ × ℝ → ℝ} {a b : Dual ℝ} (hf : Tracks S q f a)
    (hg : Tracks S q g b) : Tracks S q (fun r => f r * g r) (a * b) := by
  refine ⟨congrArg₂ (· * ·) hf.1 hg.1, ?_⟩
  have e : linForm (a * b).d = f q • linForm b.d + g q • linForm a.d := by
    rw [← hf.1, ← hg.1, Dual.mul_d]
    ext <;> simp [linForm_apply] <;> ring
  rw [e]
  exact hf.2.mul hg.2

theorem Tracks.proj (q : ℝ × ℝ × ℝ) :
    Tracks S q (fun r => r.1) (MSdf.seedDual ⟨q.1, q.2.1, q.2.2⟩).x ∧
    Tracks S q (fun r => r.2.1) (MSdf.seedDual ⟨q.1, q.2.1, q.2.2⟩).y ∧
    Tracks S q (fun r => r.2.2) (MSdf.seedDual ⟨q.1, q.2.1, q.2.2⟩).z := by
  refine ⟨⟨rfl, ?_⟩, ⟨rfl, ?_⟩, ⟨rfl, ?_⟩⟩
  · have e : linForm (MSdf.seedDual ⟨q.1, q.2.1, q.2.2⟩).x.d =
        ContinuousLinearMap.fst ℝ ℝ (ℝ × ℝ) := by
      ext <;> simp [linForm_apply, MSdf.seedDual]
    rw [e]
    exact hasFDerivWithinAt_fst
  · have e : linForm (MSdf.seedDual ⟨q.1, q.2.1, q.2.2⟩).y.d =
        (ContinuousLinearMap.fst ℝ ℝ ℝ).comp (ContinuousLinearMap.snd ℝ ℝ (ℝ × ℝ)) := by
      ext <;> simp [linForm_apply, MSdf.seedDual]
    rw [e]
    exact ((ContinuousLinearMap.fst ℝ ℝ ℝ).comp
      (ContinuousLinearMap.snd ℝ ℝ (ℝ × ℝ))).hasFDerivWithinAt
  · have e : linForm (MSdf.seedDual ⟨q.1, q.2.1, q.2.2⟩).z.d =
        (ContinuousLinearMap.snd ℝ ℝ ℝ).comp (ContinuousLinearMap.snd ℝ ℝ (ℝ × ℝ)) := by
      ext <;> simp [linForm_apply, MSdf.seedDual]
    rw [e]
    exact ((ContinuousLinearMap.snd ℝ ℝ ℝ).comp
      (ContinuousLinearMap.snd ℝ ℝ (ℝ × ℝ))).hasFDerivWithinAt

/-- Tracking of a vector, component by component. -/
def Tracks3 (S : Set (ℝ × ℝ × ℝ)) (q : ℝ × ℝ × ℝ) (f : ℝ × ℝ × ℝ → V3 ℝ) (a : V3 (Dual ℝ)) : Prop :=
  Tracks S q (fun r => (f r).x) a.x ∧ Tracks S q (fun r => (f r).y) a.y ∧
    Tracks S q (fun r => (f r).z) a.z

theorem Tracks3.toGrid (s : MSdf ℝ) (q : ℝ × ℝ × ℝ) :
    Tracks3 S q (fun r => s.toGrid ⟨r.1, r.2.1, r.2.2⟩)
      (s.inv.app Dual.const (MSdf.seedDual ⟨q.1, q.2.1, q.2.2⟩)) := by
  obtain ⟨hx, hy, hz⟩ := Tracks.proj (S := S) q
  exact ⟨((((Tracks.const _).mul hx).add ((Tracks.const _).mul hy)).add
      ((Tracks.const _).mul hz)).add (Tracks.const _),
    ((((Tracks.const _).mul hx).add ((Tracks.const _).mul hy)).add
      ((Tracks.const _).mul hz)).add (Tracks.const _),
    ((((Tracks.const _).mul hx).add ((Tracks.const _).mul hy)).add
      ((Tracks.const _).mul hz)).add (Tracks.const _)⟩

theorem Tracks.bilinear (l1 h1 l2 h2 : ℝ) {f g : ℝ × ℝ × ℝ → ℝ} {a b : Dual ℝ}
    (hf : Tracks S q f a) (hg : Tracks S q g b) (ll lh hl hh : ℝ) :
    Tracks S q (fun r => MSdf.bilinear id l1 h1 l2 h2 (f r) (g r) ll lh hl hh)
      (MSdf.bilinear Dual.const l1 h1 l2 h2 a b ll lh hl hh) := by
  have A := (Tracks.const (S := S) (q := q) (1 / ((h1 - l1) * (h2 - l2)))).mul
    ((Tracks.const h1).sub hf)
  have B := (Tracks.const (S := S) (q := q) (1 / ((h1 - l1) * (h2 - l2)))).mul
    (hf.sub (Tracks.const l1))
  exact (((A.mul (Tracks.const ll)).add (B.mul (Tracks.const hl))).mul
    ((Tracks.const h2).sub hg)).add
    (((A.mul (Tracks.const lh)).add (B.mul (Tracks.const hh))).mul (hg.sub (Tracks.const l2)))

theorem Tracks.trilinear (s : MSdf ℝ) (corner : V3 ℝ) {f : ℝ × ℝ × ℝ → V3 ℝ} {a : V3 (Dual ℝ)}
    (h : Tracks3 S q f a) (mmm mmp mpm mpp pmm pmp ppm ppp : ℝ) :
    Tracks S q (fun r => MSdf.trilinear id s corner (f r) mmm mmp mpm mpp pmm pmp ppm ppp)
      (MSdf.trilinear Dual.const s corner a mmm mmp mpm mpp pmm pmp ppm ppp) := by
  obtain ⟨hx, hy, hz⟩ := h
  have lo := Tracks.bilinear corner.x (corner.x + s.res) corner.y (corner.y + s.res) hx hy
    mmm mpm pmm ppm
  have hi := Tracks.bilinear corner.x (corner.x + s.res) corner.y (corner.y + s.res) hx hy
    mmp mpp pmp ppp
  exact lo.add ((hz.sub (Tracks.const corner.z)).mul ((hi.sub lo).mul (Tracks.const (1 / s.res))))

/-! ## The piece in use -/

/-- The lower cell does not change just above a coordinate. -/
theorem lowerCell_right (n : Nat) (t : ℝ) : ∀ᶠ u in 𝓝[≥] t, lowerCell n u = lowerCell n t := by
  have hlt := Int.lt_floor_add_one (t - 1 / 2)
  have hfl := Int.floor_le (t - 1 / 2)
  have h1 : ∀ᶠ u in 𝓝[≥] t, u < (⌊t - 1 / 2⌋ : ℝ) + 1 + 1 / 2 :=
    (eventually_lt_nhds (by linarith)).filter_mono nhdsWithin_le_nhds
  filter_upwards [h1, self_mem_nhdsWithin] with u hu hu'
  have : t ≤ u := hu'
  have e : ⌊u - 1 / 2⌋ = ⌊t - 1 / 2⌋ := by
    rw [Int.floor_eq_iff]; constructor <;> linarith
  unfold lowerCell
  rw [e]

/-- The lower cell does not change around a smooth coordinate. -/
theorem lowerCell_near (n : Nat) (t : ℝ) (h : Smooth n t) :
    ∀ᶠ u in 𝓝 t, lowerCell n u = lowerCell n t := by
  obtain ⟨h0, hn, hk⟩ := h
  have hlt := Int.lt_floor_add_one (t - 1 / 2)
  have hfl := Int.floor_le (t - 1 / 2)
  have h1 : ∀ᶠ u in 𝓝 t, u < (⌊t - 1 / 2⌋ : ℝ) + 1 + 1 / 2 := eventually_lt_nhds (by linarith)
  by_cases hc : t = (⌊t - 1 / 2⌋ : ℝ) + 1 / 2
  · -- the centre of the first or the last cell
    have h2 : ∀ᶠ u in 𝓝 t, (⌊t - 1 / 2⌋ : ℝ) - 1 / 2 < u := eventually_gt_nhds (by linarith)
    have hend : ⌊t - 1 / 2⌋ ≤ 0 ∨ (n : Int) - 1 ≤ ⌊t - 1 / 2⌋ := by
      by_contra hh
      push Not at hh
      exact hk ⌊t - 1 / 2⌋ (by omega) (by omega) hc
    filter_upwards [h1, h2] with u hu hu'
    have a1 : ⌊t - 1 / 2⌋ - 1 ≤ ⌊u - 1 / 2⌋ := Int.le_floor.mpr (by push_cast; linarith)
    have a2 : ⌊u - 1 / 2⌋ < ⌊t - 1 / 2⌋ + 1 := Int.floor_lt.mpr (by push_cast; linarith)
    unfold lowerCell
    omega
  · have hfl' : (⌊t - 1 / 2⌋ : ℝ) < t - 1 / 2 := by
      rcases lt_or_eq_of_le hfl with h | h
      · exact h
      · exact (hc (by linarith)).elim
    have h2 : ∀ᶠ u in 𝓝 t, (⌊t - 1 / 2⌋ : ℝ) + 1 / 2 < u := eventually_gt_nhds (by linarith)
    filter_upwards [h1, h2] with u hu hu'
    have e : ⌊u - 1 / 2⌋ = ⌊t - 1 / 2⌋ := by
      rw [Int.floor_eq_iff]; constructor <;> linarith
    unfold lowerCell
    rw [e]

/-- The point as a triple. -/
def V3.triple (p : V3 ℝ) : ℝ × ℝ × ℝ := (p.x, p.y, p.z)

/-- Wherever the same eight cells are in use around `p`, the returned gradient is the derivative. -/
theorem autoDiff_within (s : MSdf ℝ) (hr : 0 < s.res) (p : V3 ℝ)
    (hp : InBounds s.grid.dims (s.locIdx p)) (S : Set (ℝ × ℝ × ℝ)) (hS : p.triple ∈ S)
    (hin : ∀ᶠ r in 𝓝[S] p.triple, InBounds s.grid.dims (s.locIdx ⟨r.1, r.2.1, r.2.2⟩))
    (hx : ∀ᶠ r in 𝓝[S] p.triple, lowerCell s.grid.dims.nx
      ((s.toGrid ⟨r.1, r.2.1, r.2.2⟩).x / s.res) = lowerCell s.grid.dims.nx ((s.toGrid p).x / s.res))
    (hy : ∀ᶠ r in 𝓝[S] p.triple, lowerCell s.grid.dims.ny
      ((s.toGrid ⟨r.1, r.2.1, r.2.2⟩).y / s.res) = lowerCell s.grid.dims.ny ((s.toGrid p).y / s.res))
    (hz : ∀ᶠ r in 𝓝[S] p.triple, lowerCell s.grid.dims.nz
      ((s.toGrid ⟨r.1, r.2.1, r.2.2⟩).z / s.res) = lowerCell s.grid.dims.nz ((s.toGrid p).z / s.res)) :
    ∃ g : V3 ℝ, s.autoDiffGradient p = some [g.x, g.y, g.z] ∧
      HasFDerivWithinAt (estimatedDistance s) (linForm g) S p.triple := by
  have hd := estGrid_dual_gen s hr p hp
  refine ⟨_, by
    unfold MSdf.autoDiffGradient
    rw [if_pos (inB_iff_spec.mpr hp), hd]
    rfl, ?_⟩
  have ht := (Tracks.trilinear (S := S) s (s.center
          ⟨lowerCell s.grid.dims.nx ((s.toGrid p).x / s.res),
            lowerCell s.grid.dims.ny ((s.toGrid p).y / s.res),
            lowerCell s.grid.dims.nz ((s.toGrid p).z / s.res)⟩)
    (Tracks3.toGrid s p.triple)
    (cornerVal s (s.toGrid p) false false false) (cornerVal s (s.toGrid p) false false true)
    (cornerVal s (s.toGrid p) false true false) (cornerVal s (s.toGrid p) false true true)
    (cornerVal s (s.toGrid p) true false false) (cornerVal s (s.toGrid p) true false true)
    (cornerVal s (s.toGrid p) true true false) (cornerVal s (s.toGrid p) true true true)).2
  suffices ev : estimatedDistance s =ᶠ[𝓝[S] p.triple] fun r => MSdf.trilinear id s (s.center
          ⟨lowerCell s.grid.dims.nx ((s.toGrid p).x / s.res),
            lowerCell s.grid.dims.ny ((s.toGrid p).y / s.res),
            lowerCell s.grid.dims.nz ((s.toGrid p).z / s.res)⟩) (s.toGrid ⟨r.1, r.2.1, r.2.2⟩)
      (cornerVal s (s.toGrid p) false false false) (cornerVal s (s.toGrid p) false false true)
      (cornerVal s (s.toGrid p) false true false) (cornerVal s (s.toGrid p) false true true)
      (cornerVal s (s.toGrid p) true false false) (cornerVal s (s.toGrid p) true false true)
      (cornerVal s (s.toGrid p) true true false) (cornerVal s (s.toGrid p) true true true) from
    HasFDerivWithinAt.congr_of_eventuallyEq ht ev (ev.self_of_nhdsWithin hS)
  filter_upwards [hin, hx, hy, hz] with r h1 h2 h3 h4
  unfold estimatedDistance
  rw [(C20_trilinear s hr _).1 h1, trilinear_eq s hr.ne']
  simp only [Option.map_some, Option.getD_some, cornerWeight, h2, h3, h4]
  congr 1
  funext a b c
  unfold cornerVal upperCell
  rw [h2, h3, h4]

theorem toGrid_continuous (s : MSdf ℝ) :
    Continuous (fun r : ℝ × ℝ × ℝ => (s.toGrid ⟨r.1, r.2.1, r.2.2⟩).x / s.res) ∧
    Continuous (fun r : ℝ × ℝ × ℝ => (s.toGrid ⟨r.1, r.2.1, r.2.2⟩).y / s.res) ∧
    Continuous (fun r : ℝ × ℝ × ℝ => (s.toGrid ⟨r.1, r.2.1, r.2.2⟩).z / s.res) := by
  simp only [MSdf.toGrid, Aff.app, id]
  refine ⟨?_, ?_, ?_⟩ <;> fun_prop

theorem floor_right (t : ℝ) : ∀ᶠ u in 𝓝[≥] t, ⌊u⌋ = ⌊t⌋ := by
  have hlt := Int.lt_floor_add_one t
  have hfl := Int.floor_le t
  have h1 : ∀ᶠ u in 𝓝[≥] t, u < (⌊t⌋ : ℝ) + 1 :=
    (eventually_lt_nhds (by linarith)).filter_mono nhdsWithin_le_nhds
  filter_upwards [h1, self_mem_nhdsWithin] with u hu hu'
  have : t ≤ u := hu'
  rw [Int.floor_eq_iff]; constructor <;> linarith

/-! ## C72 -/

/-- C72.  At every in-bounds location, on cell centres and faces too, `GetAutoDiffGradient` returns
three numbers: the derivative of `EstimateDistance` towards increasing grid coordinates. -/
theorem C72_forward_derivative (s : MSdf ℝ) (hr : 0 < s.res) (p : V3 ℝ)
    (hp : InBounds s.grid.dims (s.locIdx p)) :
    ∃ g : V3 ℝ, s.autoDiffGradient p = some [g.x, g.y, g.z] ∧
      HasFDerivWithinAt (estimatedDistance s) (linForm g) (forward s p) p.triple := by
  obtain ⟨cx, cy, cz⟩ := toGrid_continuous s
  have tx : Tendsto (fun r : ℝ × ℝ × ℝ => (s.toGrid ⟨r.1, r.2.1, r.2.2⟩).x / s.res)
      (𝓝[forward s p] p.triple) (𝓝[≥] ((s.toGrid p).x / s.res)) := by
    refine tendsto_nhdsWithin_iff.mpr ⟨cx.continuousAt.tendsto.mono_left nhdsWithin_le_nhds, ?_⟩
    filter_upwards [self_mem_nhdsWithin] with r hr'
    exact div_le_div_of_nonneg_right hr'.1 hr.le
  have ty : Tendsto (fun r : ℝ × ℝ × ℝ => (s.toGrid ⟨r.1, r.2.1, r.2.2⟩).y / s.res)
      (𝓝[forward s p] p.triple) (𝓝[≥] ((s.toGrid p).y / s.res)) := by
    refine tendsto_nhdsWithin_iff.mpr ⟨cy.continuousAt.tendsto.mono_left nhdsWithin_le_nhds, ?_⟩
    filter_upwards [self_mem_nhdsWithin] with r hr'
    exact div_le_div_of_nonneg_right hr'.2.1 hr.le
  have tz : Tendsto (fun r : ℝ × ℝ × ℝ => (s.toGrid ⟨r.1, r.2.1, r.2.2⟩).z / s.res)
      (𝓝[forward s p] p.triple) (𝓝[≥] ((s.toGrid p).z / s.res)) := by
    refine tendsto_nhdsWithin_iff.mpr ⟨cz.continuousAt.tendsto.mono_left nhdsWithin_le_nhds, ?_⟩
    filter_upwards [self_mem_nhdsWithin] with r hr'
    exact div_le_div_of_nonneg_right hr'.2.2 hr.le
  refine autoDiff_within s hr p hp _ ⟨le_refl _, le_refl _, le_refl _⟩ ?_
    (tx.eventually (lowerCell_right _ _)) (ty.eventually (lowerCell_right _ _))
    (tz.eventually (lowerCell_right _ _))
  filter_upwards [tx.eventually (floor_right _), ty.eventually (floor_right _),
    tz.eventually (floor_right _)] with r h1 h2 h3
  have e : s.locIdx ⟨r.1, r.2.1, r.2.2⟩ = s.locIdx p := by
    unfold MSdf.locIdx MSdf.cellOf
    rw [h1, h2, h3]
  rw [e]
  exact hp

/-- C72.  Away from the planes through inner cell centres, `GetAutoDiffGradient` returns the
derivative of `EstimateDistance` with respect to the world location. -/
theorem C72_derivative (s : MSdf ℝ) (hr : 0 < s.res) (p : V3 ℝ)
    (hx : Smooth s.grid.dims.nx ((s.toGrid p).x / s.res))
    (hy : Smooth s.grid.dims.ny ((s.toGrid p).y / s.res))
    (hz : Smooth s.grid.dims.nz ((s.toGrid p).z / s.res)) :
    ∃ g : V3 ℝ, s.autoDiffGradient p = some [g.x, g.y, g.z] ∧
      HasFDerivAt (estimatedDistance s) (linForm g) p.triple := by
  obtain ⟨cx, cy, cz⟩ := toGrid_continuous s
  have tx := cx.continuousAt (x := p.triple)
  have ty := cy.continuousAt (x := p.triple)
  have tz := cz.continuousAt (x := p.triple)
  have inAx : ∀ (n : Nat) (t : ℝ), 0 < t → t < n → 0 ≤ ⌊t⌋ ∧ ⌊t⌋ < n := fun n t h0 h1 =>
    ⟨Int.floor_nonneg.mpr h0.le, Int.floor_lt.mpr (by exact_mod_cast h1)⟩
  have hp : InBounds s.grid.dims (s.locIdx p) :=
    ⟨inAx _ _ hx.1 hx.2.1, inAx _ _ hy.1 hy.2.1, inAx _ _ hz.1 hz.2.1⟩
  have key := autoDiff_within s hr p hp Set.univ (Set.mem_univ _)
  simp only [nhdsWithin_univ, hasFDerivWithinAt_univ] at key
  refine key ?_ (tx.eventually (lowerCell_near _ _ hx)) (ty.eventually (lowerCell_near _ _ hy))
    (tz.eventually (lowerCell_near _ _ hz))
  filter_upwards [tx.eventually (eventually_gt_nhds hx.1), tx.eventually (eventually_lt_nhds hx.2.1),
    ty.eventually (eventually_gt_nhds hy.1), ty.eventually (eventually_lt_nhds hy.2.1),
    tz.eventually (eventually_gt_nhds hz.1), tz.eventually (eventually_lt_nhds hz.2.1)]
    with r h1 h2 h3 h4 h5 h6
  exact ⟨inAx _ _ h1 h2, inAx _ _ h3 h4, inAx _ _ h5 h6⟩

/-- C72.  Outside the grid the result is empty; the call never throws. -/
theorem C72_shape (s : MSdf ℝ) (hr : 0 < s.res) (p : V3 ℝ) :
    (InBounds s.grid.dims (s.locIdx p) → ∃ g, s.autoDiffGradient p = some g ∧ g.length = 3) ∧
    (¬ InBounds s.grid.dims (s.locIdx p) → s.autoDiffGradient p = some []) := by
  constructor
  · intro h
    obtain ⟨g, hg, -⟩ := C72_forward_derivative s hr p h
    exact ⟨_, hg, rfl⟩
  · intro h
    have hb : ¬ s.grid.dims.inB (s.locIdx p) = true := fun h' => h (inB_iff_spec.mp h')
    unfold MSdf.autoDiffGradient
    rw [if_neg hb]

/-- The middle of the 2x1x1 field `+1, -1`: the gradient points from the second cell to the first. -/
example : Smooth exReal.grid.dims.nx ((exReal.toGrid ⟨1, 1 / 2, 1 / 4⟩).x / exReal.res) ∧
    Smooth exReal.grid.dims.ny ((exReal.toGrid ⟨1, 1 / 2, 1 / 4⟩).y / exReal.res) ∧
    Smooth exReal.grid.dims.nz ((exReal.toGrid ⟨1, 1 / 2, 1 / 4⟩).z / exReal.res) ∧
    exReal.autoDiffGradient ⟨1, 1 / 2, 1 / 4⟩ = some [-1, 0, 0] := by
  have ex : (exReal.toGrid ⟨1, 1 / 2, 1 / 4⟩).x / exReal.res = 1 := by
    norm_num [exReal, MSdf.toGrid, Aff.app]
  have ey : (exReal.toGrid ⟨1, 1 / 2, 1 / 4⟩).y / exReal.res = 1 / 2 := by
    norm_num [exReal, MSdf.toGrid, Aff.app]
  have ez : (exReal.toGrid ⟨1, 1 / 2, 1 / 4⟩).z / exReal.res = 1 / 4 := by
    norm_num [exReal, MSdf.toGrid, Aff.app]
  have nx : exReal.grid.dims.nx = 2 := rfl
  have ny : exReal.grid.dims.ny = 1 := rfl
  have nz : exReal.grid.dims.nz = 1 := rfl
  have hr : 0 < exReal.res := by norm_num [exReal]
  rw [ex, ey, ez, nx, ny, nz]
  have sx : Smooth 2 1 := ⟨by norm_num, by norm_num, fun k h1 h2 => by omega⟩
  have sy : Smooth 1 (1 / 2) := ⟨by norm_num, by norm_num, fun k h1 h2 => by omega⟩
  have sz : Smooth 1 (1 / 4) := ⟨by norm_num, by norm_num, fun k h1 h2 => by omega⟩
  refine ⟨sx, sy, sz, ?_⟩
  have e : exReal.locIdx ⟨1, 1 / 2, 1 / 4⟩ = ⟨1, 0, 0⟩ := by
    ext <;> simp only [MSdf.locIdx, MSdf.cellOf, MSdf.toGrid, exReal, Aff.app, id] <;>
      rw [Int.floor_eq_iff] <;> norm_num
  have hin : Inside exReal ⟨1, 1 / 2, 1 / 4⟩ := by
    unfold Inside
    rw [e]
    unfold InBounds exReal; decide
  have l1 : lowerCell 2 (1 : ℝ) = 0 := by
    have : ⌊(1 : ℝ) - 1 / 2⌋ = 0 := by rw [Int.floor_eq_iff]; norm_num
    unfold lowerCell; rw [this]; rfl
  have l2 : lowerCell 1 (1 / 2 : ℝ) = 0 := by unfold lowerCell; omega
  have l3 : lowerCell 1 (1 / 4 : ℝ) = 0 := by unfold lowerCell; omega
  have g0 : exReal.grid.get ⟨0, 0, 0⟩ = 1 := rfl
  have g1 : exReal.grid.get ⟨1, 0, 0⟩ = -1 := rfl
  unfold MSdf.autoDiffGradient
  rw [if_pos (inB_iff_spec.mpr hin), estGrid_dual_gen _ hr _ hin]
  have c0 : halfCellCloser exReal.res (exReal.grid.get ⟨0, 0, 0⟩) = 1 / 2 := by
    rw [g0]; norm_num [halfCellCloser, exReal]
  have c1 : halfCellCloser exReal.res (exReal.grid.get ⟨1, 0, 0⟩) = -(1 / 2) := by
    rw [g1]; norm_num [halfCellCloser, exReal]
  have v0 : ∀ b c, cornerVal exReal (exReal.toGrid ⟨1, 1 / 2, 1 / 4⟩) false b c = 1 / 2 := by
    intro b c
    cases b <;> cases c <;>
      (simp only [cornerVal, ex, ey, ez, nx, ny, nz, l1, l2, l3, upperCell, pick]; exact c0)
  have v1 : ∀ b c, cornerVal exReal (exReal.toGrid ⟨1, 1 / 2, 1 / 4⟩) true b c = -(1 / 2) := by
    intro b c
    cases b <;> cases c <;>
      (simp only [cornerVal, ex, ey, ez, nx, ny, nz, l1, l2, l3, upperCell, pick]; exact c1)
  simp only [v0, v1, ex, ey, ez, nx, ny, nz, l1, l2, l3, Option.map_some]
  norm_num [MSdf.trilinear, MSdf.bilinearXY, MSdf.bilinear, Dual.add_d,
    Dual.sub_d, Dual.mul_d, Dual.add_val, Dual.sub_val, Dual.mul_val, Dual.const, exReal,
    MSdf.seedDual, Aff.app, MSdf.center]

end Verif
