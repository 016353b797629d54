import Verif.QuatFloat
import Verif.Props.PyAccuracy
import Verif.Props.Rotation
import Verif.Props.ConvexAgree

/-!
# C116: the gradients of the Python wrappers are the slopes of the returned distances
-/

namespace Verif

open Spec DField SdfGen Py NpArr

/-! ## Specification -/

namespace Slope

/-- The position before `k` along an axis (`k` itself at the start). -/
def before (k : ℕ) : ℕ := k - 1

/-- The position after `k` along an axis of `n` entries (`k` itself at the end). -/
def following (n k : ℕ) : ℕ := min (n - 1) (k + 1)

/-- The slope at position `k` of `n` values, `res` apart: the difference of the values after and before `k`, divided by
their distance; zero if there is only one value. -/
noncomputable def quotient (res : ℝ) (n k : ℕ) (f : ℕ → ℝ) : ℝ :=
  if before k < following n k then (f (following n k) - f (before k)) / (((following n k : ℝ) - before k) * res) else 0

/-- Position `j` is read for the slope at position `k`. -/
def Used (n k j : ℕ) : Prop := before k < following n k ∧ (j = before k ∨ j = following n k)

/-- `y` is `x` up to rounding: a relative error of `2 ^ -22` and an absolute one far below any `float` step of a
gradient. -/
def Rounded (res y x : ℝ) : Prop := |y - x| ≤ |x| / 2 ^ 22 + (1 / 2 ^ 146 / res + 1 / 2 ^ 148)

end Slope

open Slope

/-- The value of a floating point number. -/
noncomputable def valueOf (x : FVal) : ℝ := (x.getD 0).toReal

namespace NpArr

/-- An entry of an array is a number. -/
def Finite (a : NpArr FVal) (p : List ℕ) : Prop := ∃ r : ℝ, a.get p = some (real r)

/-- The number at a position of an array. -/
noncomputable def number (a : NpArr FVal) (p : List ℕ) : ℝ := valueOf ((a.get p).getD none)

theorem number_eq {a : NpArr FVal} {p : List ℕ} {r : ℝ} (h : a.get p = some (real r)) : a.number p = r := by
  unfold number
  rw [h]
  simp [valueOf, real]

end NpArr

namespace FSdf

open Fl

/-! ## The rotation -/

theorem r64_two : ieee.r64 ((2 : ℝ) : EReal) = ((2 : ℝ) : EReal) := by simpa using ieee_int64 (n := 2) (by norm_num)

theorem r64_quarter : ieee.r64 ((1 / 4 : ℝ) : EReal) = ((1 / 4 : ℝ) : EReal) := quarter_good.2

theorem ofMatrix_shift (p : V3 ℝ) : Quat.ofMatrix ieee (shift p) = ⟨real 1, real 0, real 0, real 0⟩ := by
  have r1 : ieee.r64 ((1 : ℝ) : EReal) = ((1 : ℝ) : EReal) := by simpa using ieee_int64 (n := 1) (by norm_num)
  have r3 : ieee.r64 ((3 : ℝ) : EReal) = ((3 : ℝ) : EReal) := by simpa using ieee_int64 (n := 3) (by norm_num)
  have r4 : ieee.r64 ((4 : ℝ) : EReal) = ((4 : ℝ) : EReal) := by simpa using ieee_int64 (n := 4) (by norm_num)
  have e2 : add ieee (real 1) (real 1) = real 2 := by rw [add_real, show (1 : ℝ) + 1 = 2 by norm_num, r64_two]; rfl
  have e3 : add ieee (real 2) (real 1) = real 3 := by rw [add_real, show (2 : ℝ) + 1 = 3 by norm_num, r3]; rfl
  have e4 : add ieee (real 3) (real 1) = real 4 := by rw [add_real, show (3 : ℝ) + 1 = 4 by norm_num, r4]; rfl
  have es : Fl.sqrt ieee (real 4) = real 2 := by
    unfold Fl.sqrt real
    simp only
    rw [if_neg (not_lt.mpr (by exact_mod_cast (by norm_num : (0 : ℝ) ≤ 4))), if_neg (EReal.coe_ne_top _), EReal.toReal_coe,
      show Real.sqrt 4 = 2 by rw [show (4 : ℝ) = 2 ^ 2 by norm_num]; exact Real.sqrt_sq (by norm_num), r64_two]
  have e5 : Fl.mul ieee (real (1 / 2)) (real 2) = real 1 := by
    rw [mul_real, show (1 / 2 : ℝ) * 2 = 1 by norm_num, r1]; rfl
  have e6 : div ieee (real (1 / 2)) (real 2) = real (1 / 4) := by
    rw [div_real _ _ (by norm_num), show (1 / 2 : ℝ) / 2 = 1 / 4 by norm_num, r64_quarter]; rfl
  have e7 : sub ieee (real 0) (real 0) = real 0 := by
    rw [sub_real, sub_zero, EReal.coe_zero, r64_zero]; rfl
  have e8 : lt (real 0) (real 3) = true := by rw [lt_real]; norm_num
  unfold Quat.ofMatrix shift
  simp only [e2, e3, e4, es, e5, e6, e7, e8, if_true, zero_mul_real]

theorem turn_shift (p : V3 ℝ) : turn ieee (shift p) = idRot := by
  have r1 : ieee.r64 ((1 : ℝ) : EReal) = ((1 : ℝ) : EReal) := by simpa using ieee_int64 (n := 1) (by norm_num)
  have d1 : IsDouble ieee (real 1) := by intro x hx; cases hx; exact r1
  have d0 : IsDouble ieee (real 0) := by intro x hx; cases hx; exact r64_zero ieee
  have esq : Quat.sq ieee ⟨real 1, real 0, real 0, real 0⟩ = real 1 := by
    unfold Quat.sq
    simp only [zero_mul_real, add_zero_double ieee d0, mul_one_double ieee d1, zero_add_double ieee d1]
  have einv : Quat.inv ieee ⟨real 1, real 0, real 0, real 0⟩ (real 1) = ⟨real 1, real 0, real 0, real 0⟩ := by
    have h : lt (real 0) (real 1) = true := by rw [lt_real]; norm_num
    have n0 : neg (real 0) = real 0 := by rw [neg_real, neg_zero]
    have i1 : div ieee (real 1) (real 1) = real 1 := by rw [div_real _ _ one_ne_zero, div_one, r1]; rfl
    have i0 : div ieee (real 0) (real 1) = real 0 := by
      rw [div_real _ _ one_ne_zero, zero_div, EReal.coe_zero, r64_zero]; rfl
    unfold Quat.inv
    simp only [h, if_true, n0, i1, i0]
  unfold turn
  simp only [ofMatrix_shift, esq, einv]
  rfl

theorem none_add (R : Rounding) (a : FVal) : add R none a = none := by cases a <;> rfl

theorem sub_none (R : Rounding) (a : FVal) : sub R a none = none := add_none R a

theorem none_sub (R : Rounding) (a : FVal) : sub R none a = none := none_add R _

theorem notFinite_mul_zero (R : Rounding) {a : FVal} (h : NotFinite a) : mul R a (real 0) = none := by
  rcases h with rfl | rfl | rfl
  · rfl
  all_goals
    unfold mul real
    simp

/-- The quaternion product spreads a component that is not a number. -/
theorem idRot_notFinite {v : V3 FVal} (h : NotFinite v.x ∨ NotFinite v.y ∨ NotFinite v.z) :
    idRot v = ⟨none, none, none⟩ := by
  have hw : (Quat.mul ieee ⟨real 0, v.x, v.y, v.z⟩ ⟨real 1, real 0, real 0, real 0⟩).w = none := by
    unfold Quat.mul
    dsimp only
    rcases h with h | h | h <;> rw [notFinite_mul_zero ieee h] <;> simp only [sub_none, none_sub]
  unfold idRot rotate
  dsimp only
  generalize Quat.mul ieee ⟨real 0, v.x, v.y, v.z⟩ ⟨real 1, real 0, real 0, real 0⟩ = t at hw
  unfold Quat.mul
  simp only [hw, mul_none, add_none, none_add, none_sub]

/-! ## One axis -/

theorem finite_or (a : FVal) : (∃ r : ℝ, a = real r) ∨ NotFinite a := by
  rcases a with _ | x
  · exact .inr (.inl rfl)
  · induction x with
    | bot => exact .inr (.inr (.inr rfl))
    | top => exact .inr (.inr (.inl rfl))
    | coe r => exact .inl ⟨r, rfl⟩

theorem sub32_notFinite {a b : FVal} (h : NotFinite a ∨ NotFinite b) : NotFinite (sub32 ieee a b) := by
  have b32 : ieee.r32 ⊥ = ⊥ := by
    have := ieee.odd32 ⊤
    rwa [EReal.neg_top, ieee.top32] at this
  rcases finite_or a with ⟨x, rfl⟩ | (rfl | rfl | rfl) <;> rcases finite_or b with ⟨y, rfl⟩ | (rfl | rfl | rfl)
  · rcases h with (h | h | h) | (h | h | h) <;> simp [real] at h
  all_goals
    unfold sub32 NotFinite
    simp [real, ieee.top32, b32]

theorem sub_notFinite {a b : FVal} (h : NotFinite a ∨ NotFinite b) : NotFinite (sub ieee a b) := by
  rcases finite_or a with ⟨x, rfl⟩ | (rfl | rfl | rfl) <;> rcases finite_or b with ⟨y, rfl⟩ | (rfl | rfl | rfl)
  · rcases h with (h | h | h) | (h | h | h) <;> simp [real] at h
  all_goals
    unfold sub add neg NotFinite
    simp [real, ieee.top64, bot64]

theorem times_notFinite {a : FVal} (h : NotFinite a) {v : ℝ} (hv : 0 < v) : NotFinite (mul ieee a (real v)) := by
  have hv' : ((v : ℝ) : EReal) ≠ 0 := by exact_mod_cast hv.ne'
  rcases h with rfl | rfl | rfl
  · exact .inl rfl
  · right; left
    unfold mul real
    simp [hv', EReal.top_mul_coe_of_pos hv, ieee.top64]
  · right; right
    unfold mul real
    simp [hv', EReal.bot_mul_coe_of_pos hv, bot64]

/-- The reciprocal of one or two cell sizes. -/
theorem recip_pos {r : ℝ} (hr : Rng r (-100) 100) {n : ℕ} (h1 : 1 ≤ n) (h2 : n ≤ 2) :
    ∃ v : ℝ, Fl.div ieee (real 1) (Fl.mul ieee (real n) (real r)) = real v ∧ 0 < v := by
  have hn : Rng (n : ℝ) 0 1 := by
    constructor
    · rw [zpow_zero]; exact_mod_cast h1
    · rw [zpow_one]; exact_mod_cast h2
  have hnr := hn.mul hr
  have s0 : 0 < (n : ℝ) * r := hnr.pos
  have hi := hnr.inv
  obtain ⟨-, v, hv, hve⟩ := Ap.inv (m := 2) unit_eps s0 (hi.scale (by norm_num) (by norm_num)) (times_ap hr h1 h2)
    (by norm_num) (by norm_num) (by norm_num)
  refine ⟨v, hv, ?_⟩
  have spos : 0 < 1 / ((n : ℝ) * r) := by positivity
  have := (abs_le.mp hve).1
  generalize 1 / ((n : ℝ) * r) = s at *
  norm_num at this
  linarith

/-- A component of the computed gradient of a cell with edge gradients, given what it reads. -/
structure AxisSpec (res : ℝ) (n k : ℕ) (f : ℕ → FVal) (g : FVal) : Prop where
  ok : (∀ j, Used n k j → ∃ r : ℝ, f j = real r ∧ |r| ≤ 2 ^ 126) → Close res g (quotient res n k fun j => valueOf (f j))
  bad : ∀ j, Used n k j → NotFinite (f j) → NotFinite g

theorem valueOf_real (r : ℝ) : valueOf (real r) = r := by simp [valueOf, real]

theorem inner_axis {s : FSdf} (hr : Rng s.res (-100) 100) {n k : ℕ} (h0 : 0 < k) (h1 : k + 1 < n) (c : ℕ → Idx) :
    AxisSpec s.res n k (fun j => s.grid.get (c j)) (s.inner ieee (c (k + 1)) (c (k - 1))) := by
  have ea : following n k = k + 1 := by unfold following; omega
  have eb : before k = k - 1 := rfl
  have hu : before k < following n k := by rw [ea, eb]; omega
  have hd : ((following n k : ℝ) - before k) = 2 := by
    rw [ea, eb, Nat.cast_sub h0]; push_cast; ring
  constructor
  · intro h
    obtain ⟨u, hu1, hu2⟩ := h (k + 1) ⟨hu, .inr ea.symm⟩
    obtain ⟨v, hv1, hv2⟩ := h (k - 1) ⟨hu, .inl rfl⟩
    have hb : |u - v| ≤ 2 ^ (127 : ℤ) := by
      refine (abs_sub _ _).trans ?_
      have : (2 : ℝ) ^ (127 : ℤ) = 2 * 2 ^ 126 := by norm_num
      rw [this]; linarith
    have := quotient_close hr (n := 2) (by norm_num) le_rfl (sub32_diff hb) hb
    unfold inner
    rw [hu1, hv1]
    unfold quotient
    rw [if_pos hu, hd, ea, eb]
    dsimp only
    rw [hu1, hv1, valueOf_real, valueOf_real, div_eq_mul_one_div]
    exact_mod_cast this
  · rintro j ⟨-, hj⟩ hbad
    obtain ⟨v, hv, hv0⟩ := recip_pos hr (n := 2) (by norm_num) le_rfl
    unfold inner
    norm_num at hv
    norm_num
    rw [hv]
    refine times_notFinite (sub32_notFinite ?_) hv0
    rw [ea, eb] at hj
    rcases hj with rfl | rfl
    · exact .inr hbad
    · exact .inl hbad

theorem edge_axis' {s : FSdf} (hr : Rng s.res (-100) 100) {n k : ℕ} (hk : k < n) (c : ℕ → Idx) :
    AxisSpec s.res n k (fun j => s.grid.get (c j))
      (s.edge ieee (((following n k : ℕ) : ℤ) - (before k : ℕ)) (c (following n k)) (c (before k))) := by
  have hle : before k ≤ following n k := by unfold before following; omega
  obtain ⟨m, hm⟩ : ∃ m, following n k = before k + m := ⟨following n k - before k, by omega⟩
  have hm2 : m ≤ 2 := by unfold before following at hm; omega
  have hcast : (((following n k : ℕ) : ℤ) - (before k : ℕ)) = (m : ℤ) := by rw [hm]; push_cast; ring
  have hcast' : ((following n k : ℕ) : ℝ) - (before k : ℕ) = m := by rw [hm]; push_cast; ring
  rw [hcast]
  rcases Nat.eq_zero_or_pos m with rfl | hpos
  · have e : Fl.mul ieee (real ((((0 : ℕ) : ℤ)) : ℝ)) (real s.res) = real 0 := by
      simpa using zero_mul_real ieee s.res
    have hu : ¬ before k < following n k := by omega
    constructor
    · intro _
      unfold edge quotient
      dsimp only
      rw [e, if_neg (by rw [lt_real]; norm_num), if_neg hu]
      exact ⟨0, rfl, by have := hr.pos; simp; positivity⟩
    · intro j hj
      exact absurd hj.1 hu
  · have hu : before k < following n k := by omega
    have n0 : (0 : ℝ) < m := by exact_mod_cast hpos
    obtain ⟨-, w, e, hw⟩ := times_ap hr hpos hm2
    have wpos : 0 < w := by
      rw [abs_le] at hw
      have : 0 < (m : ℝ) * s.res := mul_pos n0 hr.pos
      have h3 := hw.1
      norm_num at h3
      nlinarith
    have hedge : s.edge ieee (m : ℤ) (c (following n k)) (c (before k)) =
        Fl.mul ieee (sub ieee (s.grid.get (c (following n k))) (s.grid.get (c (before k))))
          (div ieee (real 1) (Fl.mul ieee (real m) (real s.res))) := by
      unfold edge
      dsimp only
      rw [Int.cast_natCast, e, if_pos ((lt_real _ _).mpr wpos)]
    rw [hedge]
    constructor
    · intro h
      obtain ⟨u, hu1, hu2⟩ := h (following n k) ⟨hu, .inr rfl⟩
      obtain ⟨v, hv1, hv2⟩ := h (before k) ⟨hu, .inl rfl⟩
      have hb : |u - v| ≤ 2 ^ (127 : ℤ) := by
        refine (abs_sub _ _).trans ?_
        have : (2 : ℝ) ^ (127 : ℤ) = 2 * 2 ^ 126 := by norm_num
        rw [this]; linarith
      have := quotient_close hr hpos hm2 (sub_diff hb) hb
      rw [hu1, hv1]
      unfold quotient
      rw [if_pos hu, hcast']
      dsimp only
      rw [hu1, hv1, valueOf_real, valueOf_real, div_eq_mul_one_div]
      exact this
    · rintro j ⟨-, hj⟩ hbad
      obtain ⟨v, hv, hv0⟩ := recip_pos hr hpos hm2
      rw [hv]
      refine times_notFinite (sub_notFinite ?_) hv0
      rcases hj with rfl | rfl
      · exact .inr hbad
      · exact .inl hbad

/-- The three components of the grid-aligned gradient of a cell, with edge gradients. -/
theorem gridGrad_axes {s : FSdf} (hr : Rng s.res (-100) 100) {x y z : ℕ} (hx : x < s.grid.dims.nx)
    (hy : y < s.grid.dims.ny) (hz : z < s.grid.dims.nz) :
    ∃ gx gy gz, s.gridGrad ieee ⟨x, y, z⟩ true = [gx, gy, gz] ∧
      AxisSpec s.res s.grid.dims.nx x (fun j => s.grid.get ⟨j, y, z⟩) gx ∧
      AxisSpec s.res s.grid.dims.ny y (fun j => s.grid.get ⟨x, j, z⟩) gy ∧
      AxisSpec s.res s.grid.dims.nz z (fun j => s.grid.get ⟨x, y, j⟩) gz := by
  have hin : s.grid.dims.inB ⟨x, y, z⟩ = true :=
    inB_iff_spec.mpr ⟨⟨by simp, by simpa using hx⟩, ⟨by simp, by simpa using hy⟩, by simp, by simpa using hz⟩
  unfold gridGrad
  dsimp only
  rw [if_pos hin]
  split
  · next h =>
    obtain ⟨h1, h2, h3, h4, h5, h6⟩ := h
    have ix := inner_axis (s := s) hr (n := s.grid.dims.nx) (k := x) (by omega) (by omega) fun j => ⟨j, y, z⟩
    have iy := inner_axis (s := s) hr (n := s.grid.dims.ny) (k := y) (by omega) (by omega) fun j => ⟨x, j, z⟩
    have iz := inner_axis (s := s) hr (n := s.grid.dims.nz) (k := z) (by omega) (by omega) fun j => ⟨x, y, j⟩
    have c : ∀ k : ℕ, (0 : ℤ) < k → ((k - 1 : ℕ) : ℤ) = (k : ℤ) - 1 := by intro k hk; omega
    rw [c x h1] at ix
    rw [c y h2] at iy
    rw [c z h3] at iz
    push_cast at ix iy iz
    exact ⟨_, _, _, rfl, ix, iy, iz⟩
  · rw [if_pos rfl]
    have ix := edge_axis' (s := s) hr hx fun j => ⟨j, y, z⟩
    have iy := edge_axis' (s := s) hr hy fun j => ⟨x, j, z⟩
    have iz := edge_axis' (s := s) hr hz fun j => ⟨x, y, j⟩
    have cb : ∀ k : ℕ, ((before k : ℕ) : ℤ) = max 0 ((k : ℤ) - 1) := by intro k; unfold before; omega
    have ca : ∀ n k : ℕ, k < n → ((following n k : ℕ) : ℤ) = min ((n : ℤ) - 1) ((k : ℤ) + 1) := by
      intro n k h; unfold following; omega
    rw [cb, ca _ _ hx] at ix
    rw [cb, ca _ _ hy] at iy
    rw [cb, ca _ _ hz] at iz
    exact ⟨_, _, _, rfl, ix, iy, iz⟩

/-- The gradient of a cell of the wrappers' field. -/
theorem cell_ok {res : ℝ} (hr : Rng res (-100) 100) {s : Grid FVal} (p : V3 ℝ)
    (hv : ∀ i, InBounds s.dims i → ∀ r : ℝ, s.get i = real r → |r| ≤ 2 ^ 126) {x y z : ℕ} (hx : x < s.dims.nx)
    (hy : y < s.dims.ny) (hz : z < s.dims.nz)
    (fx : ∀ j, Used s.dims.nx x j → ∃ r : ℝ, s.get ⟨j, y, z⟩ = real r)
    (fy : ∀ j, Used s.dims.ny y j → ∃ r : ℝ, s.get ⟨x, j, z⟩ = real r)
    (fz : ∀ j, Used s.dims.nz z j → ∃ r : ℝ, s.get ⟨x, y, j⟩ = real r) :
    ∃ gx gy gz, cellGradient ieee p res s ⟨x, y, z⟩ true = [gx, gy, gz] ∧
      Close res gx (quotient res s.dims.nx x fun j => valueOf (s.get ⟨j, y, z⟩)) ∧
      Close res gy (quotient res s.dims.ny y fun j => valueOf (s.get ⟨x, j, z⟩)) ∧
      Close res gz (quotient res s.dims.nz z fun j => valueOf (s.get ⟨x, y, j⟩)) := by
  have lt : ∀ {n k j : ℕ}, k < n → Used n k j → j < n := by
    intro n k j hk h
    obtain ⟨h1, h2⟩ := h
    unfold before following at h1 h2
    omega
  have hg := gridGrad_double ieee (FSdf.mk s res) ⟨x, y, z⟩ true
  obtain ⟨gx, gy, gz, h, ax, ay, az⟩ := gridGrad_axes (s := FSdf.mk s res) hr hx hy hz
  rw [h] at hg
  have cx := ax.ok fun j hj => by
    obtain ⟨r, e⟩ := fx j hj
    exact ⟨r, e, hv _ ⟨⟨by simp, by simpa using lt hx hj⟩, ⟨by simp, by simpa using hy⟩, by simp, by simpa using hz⟩ r e⟩
  have cy := ay.ok fun j hj => by
    obtain ⟨r, e⟩ := fy j hj
    exact ⟨r, e, hv _ ⟨⟨by simp, by simpa using hx⟩, ⟨by simp, by simpa using lt hy hj⟩, by simp, by simpa using hz⟩ r e⟩
  have cz := az.ok fun j hj => by
    obtain ⟨r, e⟩ := fz j hj
    exact ⟨r, e, hv _ ⟨⟨by simp, by simpa using hx⟩, ⟨by simp, by simpa using hy⟩, by simp, by simpa using lt hz hj⟩ r e⟩
  refine ⟨gx, gy, gz, ?_, cx, cy, cz⟩
  obtain ⟨a, rfl, -⟩ := cx
  obtain ⟨b, rfl, -⟩ := cy
  obtain ⟨c, rfl, -⟩ := cz
  unfold cellGradient gradient
  rw [h, turn_shift]
  dsimp only
  unfold idRot
  rw [rotate_identity ieee (hg _ (by simp)) (hg _ (by simp)) (hg _ (by simp))]

theorem cell_bad {res : ℝ} (hr : Rng res (-100) 100) {s : Grid FVal} (p : V3 ℝ) {x y z : ℕ} (hx : x < s.dims.nx)
    (hy : y < s.dims.ny) (hz : z < s.dims.nz)
    (h : (∃ j, Used s.dims.nx x j ∧ NotFinite (s.get ⟨j, y, z⟩)) ∨ (∃ j, Used s.dims.ny y j ∧ NotFinite (s.get ⟨x, j, z⟩)) ∨
      ∃ j, Used s.dims.nz z j ∧ NotFinite (s.get ⟨x, y, j⟩)) :
    cellGradient ieee p res s ⟨x, y, z⟩ true = [none, none, none] := by
  obtain ⟨gx, gy, gz, hg, ax, ay, az⟩ := gridGrad_axes (s := FSdf.mk s res) hr hx hy hz
  have hn : NotFinite gx ∨ NotFinite gy ∨ NotFinite gz := by
    rcases h with ⟨j, h1, h2⟩ | ⟨j, h1, h2⟩ | ⟨j, h1, h2⟩
    · exact .inl (ax.bad j h1 h2)
    · exact .inr (.inl (ay.bad j h1 h2))
    · exact .inr (.inr (az.bad j h1 h2))
  unfold cellGradient gradient
  rw [hg, turn_shift]
  dsimp only
  rw [idRot_notFinite hn]

theorem cell_length {res : ℝ} (hr : Rng res (-100) 100) (p : V3 ℝ) (s : Grid FVal) (i : Idx) (hi : InBounds s.dims i) :
    (cellGradient ieee p res s i true).length = 3 := by
  obtain ⟨x, y, z⟩ := i
  obtain ⟨⟨x0, x1⟩, ⟨y0, y1⟩, z0, z1⟩ := hi
  dsimp only at x0 x1 y0 y1 z0 z1
  lift x to ℕ using x0
  lift y to ℕ using y0
  lift z to ℕ using z0
  obtain ⟨gx, gy, gz, hg, -⟩ := gridGrad_axes (s := FSdf.mk s res) hr (x := x) (y := y) (z := z) (by exact_mod_cast x1)
    (by exact_mod_cast y1) (by exact_mod_cast z1)
  unfold cellGradient gradient
  rw [hg]
  rfl

theorem r32_idem (x : EReal) : ieee.r32 (ieee.r32 x) = ieee.r32 x := Ieee.round_idem (by decide) x

/-- Conversion of a component to `float`, twice. -/
theorem close_rounded {res : ℝ} (hres : 0 < res) (hlo : 1 / 2 ^ 100 ≤ res) {g : FVal} {x : ℝ} (h : Close res g x)
    (hx : |x| ≤ 2 ^ 100) :
    ∃ w : ℝ, ((g.map ieee.r32).map ieee.r32) = real w ∧ Rounded res w x := by
  obtain ⟨y, rfl, hy⟩ := h
  obtain ⟨η, hη⟩ : ∃ η, η = 1 / 2 ^ 147 / res := ⟨_, rfl⟩
  have hη0 : 0 < η := by rw [hη]; positivity
  have hη1 : η ≤ 1 := by
    rw [hη, div_le_iff₀ hres]
    refine le_trans ?_ (by linarith : 1 / 2 ^ 100 ≤ 1 * res)
    norm_num
  have e146 : 1 / 2 ^ 146 / res = 2 * η := by rw [hη]; ring
  rw [← hη] at hy
  have hyb : |y| ≤ |x| + |x| / 2 ^ 23 + η := by
    have := abs_sub_abs_le_abs_sub y x
    linarith
  obtain ⟨w, h1, h2⟩ := Ieee.r32_real (z := y) (by
    have : (2 : ℝ) ^ (127 : ℤ) = 2 ^ 127 := by norm_cast
    rw [this]
    have x0 := abs_nonneg x
    norm_num at hyb hx ⊢
    linarith)
  refine ⟨w, ?_, ?_⟩
  · show some (ieee.r32 (ieee.r32 (y : EReal))) = _
    rw [r32_idem, h1]
    rfl
  · unfold Rounded
    have tiny : (2 : ℝ) ^ (-149 : ℤ) = 1 / 2 ^ 149 := zpow_neg_nat 149
    rw [tiny] at h2
    rw [e146]
    have t := abs_sub_le w y x
    have x0 := abs_nonneg x
    norm_num at h2 hy hyb ⊢
    linarith

theorem quotient_bound {res : ℝ} (hres : 0 < res) {n k : ℕ} {f : ℕ → ℝ} {B : ℝ} (hB : 0 ≤ B)
    (h : ∀ j, Used n k j → |f j| ≤ B * res) : |quotient res n k f| ≤ 2 * B := by
  unfold quotient
  split_ifs with hu
  · have h1 := h _ ⟨hu, .inl rfl⟩
    have h2 := h _ ⟨hu, .inr rfl⟩
    have h3 : (1 : ℝ) ≤ (following n k : ℝ) - before k := by
      have : ((before k : ℕ) : ℝ) + 1 ≤ following n k := by exact_mod_cast hu
      linarith
    rw [abs_div, div_le_iff₀ (abs_pos.mpr (mul_pos (by linarith) hres).ne'), abs_mul, abs_of_pos hres,
      abs_of_pos (show 0 < (following n k : ℝ) - before k by linarith)]
    have h4 := abs_sub (f (following n k)) (f (before k))
    have h5 : 2 * B * (1 * res) ≤ 2 * B * (((following n k : ℝ) - before k) * res) := by gcongr
    linarith
  · simpa using hB

end FSdf

namespace Py

open FSdf Fl

/-! ## The wrappers -/

theorem get_astype32 (R : Rounding) (a : NpArr FVal) (p : List ℕ) :
    (astype32 R a).get p = (a.get p).map (Option.map R.r32) := by
  unfold astype32 NpArr.get
  cases ravel a.shape p with
  | none => rfl
  | some k => simp

/-- The finite values of an extracted field: floats, at most `2 ^ 17` cells. -/
theorem field_values {res : ℝ} (hres : GoodRes ieee res) (hlo : 1 / 2 ^ 126 ≤ res) (hhi : res ≤ 2 ^ 100) {d : Dims}
    (hd : SmallGrid d) {fill : Idx → Option Bool} {f : Idx → Bool} (hf : Answers d fill f) {oob : FVal} {o : Out}
    (ho : extract ieee (res, res, res) d fill oob false = some o) {v : Idx} (hv : InBounds d v) :
    (o.sdf.get v).map ieee.r32 = o.sdf.get v ∧ ∀ r : ℝ, o.sdf.get v = real r → |r| ≤ 2 ^ 17 * res := by
  constructor
  · obtain ⟨o', a, b, ho', hs⟩ := base_spec hd hf ieee res oob
    rw [extract_false, ho'] at ho
    simp only [Option.some.injEq] at ho
    subst ho
    obtain ⟨pts, s, -, -, hval⟩ := opposite_field hs hv
    rw [hval]
    show some _ = some _
    split_ifs
    · rw [ieee.odd32, r32_idem]
    · rw [r32_idem]
  · intro r hr
    rcases C86_accuracy hres hlo hhi hd hf ho hv with h | ⟨y, q, h1, h2, h3, h4, -⟩
    · rw [h] at hr
      split_ifs at hr <;> simp [real] at hr
    · have hyr : |r| = y := by
        rw [h1] at hr
        unfold real at hr
        split_ifs at hr
        · have := Option.some.inj hr
          rw [EReal.coe_eq_coe_iff] at this
          rw [← this, abs_neg, abs_of_pos h2]
        · have := Option.some.inj hr
          rw [EReal.coe_eq_coe_iff] at this
          rw [← this, abs_of_pos h2]
      rw [hyr]
      have hb := dsq_le_maxSq (inB_iff_spec.mpr hv) (inB_iff_spec.mpr h3.1)
      have hh : maxSq d < 2 ^ 31 := hd
      have hsq : (sqDist v q : ℝ) ≤ (2 ^ 16) ^ 2 := by
        have : (sqDist v q : ℤ) ≤ (2 ^ 16) ^ 2 := by
          rw [← dsq_sqDist]
          have : ((dsq v q : ℕ) : ℤ) < 2 ^ 31 := by exact_mod_cast lt_of_le_of_lt hb hh
          omega
        exact_mod_cast this
      have h5 : Real.sqrt (sqDist v q) ≤ 2 ^ 16 := by
        rw [Real.sqrt_le_left (by norm_num)]
        exact hsq
      have h6 : 0 ≤ Real.sqrt (sqDist v q : ℝ) := Real.sqrt_nonneg _
      have h7 : res * Real.sqrt (sqDist v q) ≤ res * 2 ^ 16 := mul_le_mul_of_nonneg_left h5 hres.1.le
      have hrel : relErr ≤ 1 := by unfold relErr; norm_num
      have h8 := (abs_le.mp h4).2
      have h9 : 0 ≤ res * Real.sqrt (sqDist v q) := mul_nonneg hres.1.le h6
      nlinarith

/-- An entry of the distance array that the gradient at `[y, x]` reads. -/
def Reads2 (nx ny x y : ℕ) (p : List ℕ) : Prop :=
  (∃ j, Used nx x j ∧ p = [y, j]) ∨ ∃ j, Used ny y j ∧ p = [j, x]

/-- An entry of the distance array that the gradient at `[y, x, z]` reads. -/
def Reads3 (nx ny nz x y z : ℕ) (p : List ℕ) : Prop :=
  (∃ j, Used nx x j ∧ p = [y, j, z]) ∨ (∃ j, Used ny y j ∧ p = [j, x, z]) ∨ ∃ j, Used nz z j ∧ p = [y, x, j]

theorem used_lt {n k j : ℕ} (hk : k < n) (h : Used n k j) : j < n := by
  obtain ⟨h1, h2⟩ := h
  unfold before following at h1 h2
  omega

theorem rng_of {res : ℝ} (hlo : 1 / 2 ^ 100 ≤ res) (hhi : res ≤ 2 ^ 100) : Rng res (-100) 100 := by
  refine ⟨?_, ?_⟩
  · have := zpow_neg_nat 100
    push_cast at this
    rw [this]; exact hlo
  · exact_mod_cast hhi

theorem quotient_congr {res : ℝ} {n k : ℕ} {f g : ℕ → ℝ} (h : ∀ j, Used n k j → f j = g j) :
    quotient res n k f = quotient res n k g := by
  unfold quotient
  split_ifs with hu
  · rw [h _ ⟨hu, .inl rfl⟩, h _ ⟨hu, .inr rfl⟩]
  · rfl

theorem finite_iff {a : NpArr FVal} {p : List ℕ} {v : FVal} (h : a.get p = some v) :
    (¬ a.Finite p → NotFinite v) ∧ (a.Finite p → ∃ r : ℝ, v = real r) ∧ a.number p = valueOf v := by
  refine ⟨?_, ?_, ?_⟩
  · intro hn
    rcases finite_or v with ⟨r, rfl⟩ | hv
    · exact absurd ⟨r, h⟩ hn
    · exact hv
  · rintro ⟨r, hr⟩
    rw [h] at hr
    exact ⟨r, Option.some.inj hr⟩
  · unfold NpArr.number
    rw [h]; rfl

theorem get_twice {g : NpArr FVal} {p : List ℕ} {l : List FVal} {c : ℕ} (h : g.get p = l[c]?) :
    (astype32 ieee (astype32 ieee g)).get p = (l[c]?).map fun v => (v.map ieee.r32).map ieee.r32 := by
  rw [get_astype32, get_astype32, h, Option.map_map]
  rfl

/-- C116, three-dimensional wrapper.  `utils_3d.compute_sdf_and_gradient` on any non-empty environment returns arrays of
the shapes `[ny, nx, nz]` and `[ny, nx, nz, 3]`.  Entry `[y, x, z, :]` of the gradient is, up to rounding, the slopes of
the returned distances along x, y and z (central in the interior, one-sided on the faces, zero along axes with one
entry) if the distances it reads are numbers; otherwise all three entries are NaN. -/
theorem C116_3d {res : ℝ} (hres : GoodRes ieee res) (hlo : 1 / 2 ^ 100 ≤ res) (hhi : res ≤ 2 ^ 100) (o : V3 ℝ)
    {env : NpArr Bool} (hw : env.WF) {nx ny nz : ℕ} (hs : env.shape = [ny, nx, nz]) (hd : SmallGrid ⟨nx, ny, nz⟩)
    (hne : 0 < nx * ny * nz) :
    ∃ a g, arrays3 ieee res o env = some (a, g) ∧ a.shape = [ny, nx, nz] ∧ g.shape = [ny, nx, nz, 3] ∧
      ∀ x < nx, ∀ y < ny, ∀ z < nz,
        ((∀ p, Reads3 nx ny nz x y z p → a.Finite p) → ∃ gx gy gz : ℝ,
          g.get [y, x, z, 0] = some (real gx) ∧ g.get [y, x, z, 1] = some (real gy) ∧ g.get [y, x, z, 2] = some (real gz) ∧
          Rounded res gx (quotient res nx x fun j => a.number [y, j, z]) ∧
          Rounded res gy (quotient res ny y fun j => a.number [j, x, z]) ∧
          Rounded res gz (quotient res nz z fun j => a.number [y, x, j])) ∧
        ((∃ p, Reads3 nx ny nz x y z p ∧ ¬ a.Finite p) → ∀ c < 3, g.get [y, x, z, c] = some none) := by
  have hlo' : 1 / 2 ^ 126 ≤ res := le_trans (by norm_num) hlo
  have h32 := (ieee_resolution hlo' hhi).1
  have hr := rng_of hlo hhi
  obtain ⟨s, a, g, hc, sd, h2, h3, h4, h5⟩ := C50_3d hres h32 oobValue (cellGradient ieee o res) (cell_length hr o) hw hs hd hne
  obtain ⟨f1, f2⟩ := fill3_get env ⟨nx, ny, nz⟩
  have hA := fill_answers f1 _ f2
  have hc' := hc
  unfold computeSdf3 at hc'
  rw [hs] at hc'
  simp only [Option.map_eq_some_iff] at hc'
  obtain ⟨out, ho, hso⟩ := hc'
  unfold extractMap at ho
  rw [f1] at ho
  have hval : ∀ i, InBounds s.dims i → (s.get i).map ieee.r32 = s.get i ∧ ∀ r : ℝ, s.get i = real r → |r| ≤ 2 ^ 17 * res := by
    intro i hi
    rw [sd] at hi
    rw [← hso]
    exact field_values hres hlo' hhi hd hA ho hi
  have hinb : ∀ {x y z : ℕ}, x < nx → y < ny → z < nz → InBounds s.dims ⟨x, y, z⟩ := by
    intro x y z hx hy hz
    rw [sd]
    exact ⟨⟨by simp, by simpa using hx⟩, ⟨by simp, by simpa using hy⟩, by simp, by simpa using hz⟩
  have hget : ∀ {x y z : ℕ}, x < nx → y < ny → z < nz → (astype32 ieee a).get [y, x, z] = some (s.get ⟨x, y, z⟩) := by
    intro x y z hx hy hz
    obtain ⟨⟨v, v1, v2, -⟩, -⟩ := h5 x hx y hy z hz
    have := (hval _ (hinb hx hy hz)).1
    rw [v2] at this
    rw [get_astype32, v1, v2, Option.map_some, this]
  refine ⟨astype32 ieee a, astype32 ieee (astype32 ieee g), by unfold arrays3; rw [h2]; rfl, by rw [← hs, ← h3]; rfl, h4, ?_⟩
  intro x hx y hy z hz
  obtain ⟨-, hg⟩ := h5 x hx y hy z hz
  have hx' : x < s.dims.nx := by rw [sd]; exact hx
  have hy' : y < s.dims.ny := by rw [sd]; exact hy
  have hz' : z < s.dims.nz := by rw [sd]; exact hz
  have dx : s.dims.nx = nx := by rw [sd]
  have dy : s.dims.ny = ny := by rw [sd]
  have dz : s.dims.nz = nz := by rw [sd]
  constructor
  · intro hfin
    have fx : ∀ j, Used nx x j → ∃ r : ℝ, s.get ⟨j, y, z⟩ = real r := fun j hj =>
      (finite_iff (hget (used_lt hx hj) hy hz)).2.1 (hfin _ (.inl ⟨j, hj, rfl⟩))
    have fy : ∀ j, Used ny y j → ∃ r : ℝ, s.get ⟨x, j, z⟩ = real r := fun j hj =>
      (finite_iff (hget hx (used_lt hy hj) hz)).2.1 (hfin _ (.inr (.inl ⟨j, hj, rfl⟩)))
    have fz : ∀ j, Used nz z j → ∃ r : ℝ, s.get ⟨x, y, j⟩ = real r := fun j hj =>
      (finite_iff (hget hx hy (used_lt hz hj))).2.1 (hfin _ (.inr (.inr ⟨j, hj, rfl⟩)))
    obtain ⟨gx, gy, gz, e, cx, cy, cz⟩ := cell_ok hr o (fun i hi r h => ((hval i hi).2 r h).trans (by
      have : (2 : ℝ) ^ 17 * res ≤ 2 ^ 17 * 2 ^ 100 := by gcongr
      exact this.trans (by norm_num))) hx' hy' hz' (by rw [dx]; exact fx) (by rw [dy]; exact fy) (by rw [dz]; exact fz)
    rw [dx] at cx
    rw [dy] at cy
    rw [dz] at cz
    rw [e] at hg
    have bx : |quotient res nx x fun j => valueOf (s.get ⟨j, y, z⟩)| ≤ 2 * 2 ^ 17 := quotient_bound hres.1 (by norm_num) (by
      intro j hj
      obtain ⟨r, h⟩ := fx j hj
      rw [h, valueOf_real]
      exact (hval _ (hinb (used_lt hx hj) hy hz)).2 r h)
    have by' : |quotient res ny y fun j => valueOf (s.get ⟨x, j, z⟩)| ≤ 2 * 2 ^ 17 := quotient_bound hres.1 (by norm_num) (by
      intro j hj
      obtain ⟨r, h⟩ := fy j hj
      rw [h, valueOf_real]
      exact (hval _ (hinb hx (used_lt hy hj) hz)).2 r h)
    have bz : |quotient res nz z fun j => valueOf (s.get ⟨x, y, j⟩)| ≤ 2 * 2 ^ 17 := quotient_bound hres.1 (by norm_num) (by
      intro j hj
      obtain ⟨r, h⟩ := fz j hj
      rw [h, valueOf_real]
      exact (hval _ (hinb hx hy (used_lt hz hj))).2 r h)
    obtain ⟨wx, ex, rx⟩ := close_rounded hres.1 hlo cx (bx.trans (by norm_num))
    obtain ⟨wy, ey, ry⟩ := close_rounded hres.1 hlo cy (by'.trans (by norm_num))
    obtain ⟨wz, ez, rz⟩ := close_rounded hres.1 hlo cz (bz.trans (by norm_num))
    refine ⟨wx, wy, wz, ?_, ?_, ?_, ?_, ?_, ?_⟩
    · rw [get_twice (hg 0 (by norm_num))]; exact congrArg some ex
    · rw [get_twice (hg 1 (by norm_num))]; exact congrArg some ey
    · rw [get_twice (hg 2 (by norm_num))]; exact congrArg some ez
    · rw [quotient_congr fun j hj => (finite_iff (hget (used_lt hx hj) hy hz)).2.2]; exact rx
    · rw [quotient_congr fun j hj => (finite_iff (hget hx (used_lt hy hj) hz)).2.2]; exact ry
    · rw [quotient_congr fun j hj => (finite_iff (hget hx hy (used_lt hz hj))).2.2]; exact rz
  · rintro ⟨p, hp, hn⟩ c hc3
    have e := cell_bad hr (s := s) o hx' hy' hz' (by
      rw [dx, dy, dz]
      rcases hp with ⟨j, hj, rfl⟩ | ⟨j, hj, rfl⟩ | ⟨j, hj, rfl⟩
      · exact .inl ⟨j, hj, (finite_iff (hget (used_lt hx hj) hy hz)).1 hn⟩
      · exact .inr (.inl ⟨j, hj, (finite_iff (hget hx (used_lt hy hj) hz)).1 hn⟩)
      · exact .inr (.inr ⟨j, hj, (finite_iff (hget hx hy (used_lt hz hj))).1 hn⟩))
    rw [get_twice (hg c hc3), e]
    match c, hc3 with
    | 0, _ => rfl
    | 1, _ => rfl
    | 2, _ => rfl

/-- C116, two-dimensional wrapper.  `utils_2d.compute_sdf_and_gradient` on any non-empty environment returns arrays of the
shapes `[ny, nx]` and `[ny, nx, 2]`.  Entry `[y, x, :]` of the gradient is, up to rounding, the slopes of the returned
distances along x and y if the distances it reads are numbers; otherwise both entries are NaN. -/
theorem C116_2d {res : ℝ} (hres : GoodRes ieee res) (hlo : 1 / 2 ^ 100 ≤ res) (hhi : res ≤ 2 ^ 100) (o : V3 ℝ)
    {env : NpArr Bool} (hw : env.WF) {nx ny : ℕ} (hs : env.shape = [ny, nx]) (hd : SmallGrid ⟨nx, ny, 1⟩)
    (hne : 0 < nx * ny) :
    ∃ a g, arrays2 ieee res o env = some (a, g) ∧ a.shape = [ny, nx] ∧ g.shape = [ny, nx, 2] ∧
      ∀ x < nx, ∀ y < ny,
        ((∀ p, Reads2 nx ny x y p → a.Finite p) → ∃ gx gy : ℝ,
          g.get [y, x, 0] = some (real gx) ∧ g.get [y, x, 1] = some (real gy) ∧
          Rounded res gx (quotient res nx x fun j => a.number [y, j]) ∧
          Rounded res gy (quotient res ny y fun j => a.number [j, x])) ∧
        ((∃ p, Reads2 nx ny x y p ∧ ¬ a.Finite p) → ∀ c < 2, g.get [y, x, c] = some none) := by
  have hlo' : 1 / 2 ^ 126 ≤ res := le_trans (by norm_num) hlo
  have h32 := (ieee_resolution hlo' hhi).1
  have hr := rng_of hlo hhi
  obtain ⟨s, a, g, hc, sd, h2, h3, h4, h5⟩ := C50_2d hres h32 oobValue (cellGradient ieee o res) (cell_length hr o) hw hs hd hne
  obtain ⟨f1, f2⟩ := fill2_get env ⟨nx, ny, 1⟩ rfl
  have hA := fill_answers f1 _ f2
  have hc' := hc
  unfold computeSdf2 at hc'
  rw [hs] at hc'
  simp only [Option.map_eq_some_iff] at hc'
  obtain ⟨out, ho, hso⟩ := hc'
  unfold extractMap at ho
  rw [f1] at ho
  have hval : ∀ i, InBounds s.dims i → (s.get i).map ieee.r32 = s.get i ∧ ∀ r : ℝ, s.get i = real r → |r| ≤ 2 ^ 17 * res := by
    intro i hi
    rw [sd] at hi
    rw [← hso]
    exact field_values hres hlo' hhi hd hA ho hi
  have hinb : ∀ {x y : ℕ}, x < nx → y < ny → InBounds s.dims ⟨x, y, 0⟩ := by
    intro x y hx hy
    rw [sd]
    exact ⟨⟨by simp, by simpa using hx⟩, ⟨by simp, by simpa using hy⟩, by simp, by simp⟩
  have hget : ∀ {x y : ℕ}, x < nx → y < ny → (astype32 ieee a).get [y, x] = some (s.get ⟨x, y, 0⟩) := by
    intro x y hx hy
    obtain ⟨⟨v, v1, v2, -⟩, -⟩ := h5 x hx y hy
    have := (hval _ (hinb hx hy)).1
    rw [v2] at this
    rw [get_astype32, v1, v2, Option.map_some, this]
  refine ⟨astype32 ieee a, astype32 ieee (astype32 ieee g), by unfold arrays2; rw [h2]; rfl, by rw [← hs, ← h3]; rfl, h4, ?_⟩
  intro x hx y hy
  obtain ⟨-, hg⟩ := h5 x hx y hy
  have hx' : x < s.dims.nx := by rw [sd]; exact hx
  have hy' : y < s.dims.ny := by rw [sd]; exact hy
  have hz' : 0 < s.dims.nz := by rw [sd]; norm_num
  have dx : s.dims.nx = nx := by rw [sd]
  have dy : s.dims.ny = ny := by rw [sd]
  have dz : s.dims.nz = 1 := by rw [sd]
  constructor
  · intro hfin
    have fx : ∀ j, Used nx x j → ∃ r : ℝ, s.get ⟨j, y, 0⟩ = real r := fun j hj =>
      (finite_iff (hget (used_lt hx hj) hy)).2.1 (hfin _ (.inl ⟨j, hj, rfl⟩))
    have fy : ∀ j, Used ny y j → ∃ r : ℝ, s.get ⟨x, j, 0⟩ = real r := fun j hj =>
      (finite_iff (hget hx (used_lt hy hj))).2.1 (hfin _ (.inr ⟨j, hj, rfl⟩))
    obtain ⟨gx, gy, gz, e, cx, cy, -⟩ := cell_ok hr o (fun i hi r h => ((hval i hi).2 r h).trans (by
      have : (2 : ℝ) ^ 17 * res ≤ 2 ^ 17 * 2 ^ 100 := by gcongr
      exact this.trans (by norm_num))) hx' hy' hz' (by rw [dx]; exact fx) (by rw [dy]; exact fy) (by
        rw [dz]
        intro j hj
        exact absurd hj.1 (by unfold before following; omega))
    rw [dx] at cx
    rw [dy] at cy
    rw [Nat.cast_zero] at cx cy e
    rw [e] at hg
    have bx : |quotient res nx x fun j => valueOf (s.get ⟨j, y, 0⟩)| ≤ 2 * 2 ^ 17 := quotient_bound hres.1 (by norm_num) (by
      intro j hj
      obtain ⟨r, h⟩ := fx j hj
      rw [h, valueOf_real]
      exact (hval _ (hinb (used_lt hx hj) hy)).2 r h)
    have by' : |quotient res ny y fun j => valueOf (s.get ⟨x, j, 0⟩)| ≤ 2 * 2 ^ 17 := quotient_bound hres.1 (by norm_num) (by
      intro j hj
      obtain ⟨r, h⟩ := fy j hj
      rw [h, valueOf_real]
      exact (hval _ (hinb hx (used_lt hy hj))).2 r h)
    obtain ⟨wx, ex, rx⟩ := close_rounded hres.1 hlo cx (bx.trans (by norm_num))
    obtain ⟨wy, ey, ry⟩ := close_rounded hres.1 hlo cy (by'.trans (by norm_num))
    refine ⟨wx, wy, ?_, ?_, ?_, ?_⟩
    · rw [get_twice (hg 0 (by norm_num))]; exact congrArg some ex
    · rw [get_twice (hg 1 (by norm_num))]; exact congrArg some ey
    · rw [quotient_congr fun j hj => (finite_iff (hget (used_lt hx hj) hy)).2.2]; exact rx
    · rw [quotient_congr fun j hj => (finite_iff (hget hx (used_lt hy hj))).2.2]; exact ry
  · rintro ⟨p, hp, hn⟩ c hc3
    have e := cell_bad hr (s := s) o hx' hy' hz' (by
      rw [dx, dy, dz]
      rcases hp with ⟨j, hj, rfl⟩ | ⟨j, hj, rfl⟩
      · exact .inl ⟨j, hj, (finite_iff (hget (used_lt hx hj) hy)).1 hn⟩
      · exact .inr (.inl ⟨j, hj, (finite_iff (hget hx (used_lt hy hj))).1 hn⟩))
    rw [Nat.cast_zero] at e
    rw [get_twice (hg c hc3), e]
    match c, hc3 with
    | 0, _ => rfl
    | 1, _ => rfl

/-- Both kinds of entries occur. -/
def Mixed (env : NpArr Bool) : Prop := ∃ p q, InRange env.shape p ∧ InRange env.shape q ∧ env.get p ≠ env.get q

theorem idxSq_nonneg : ∀ p q : List ℕ, 0 ≤ idxSq p q
  | [], _ => by simp [idxSq]
  | _ :: _, [] => by simp [idxSq]
  | a :: p, b :: q => by
    have h := idxSq_nonneg p q
    have e : idxSq (a :: p) (b :: q) = ((a : ℤ) - b) ^ 2 + idxSq p q := by simp [idxSq]
    rw [e]
    positivity

theorem Mixed.nearest {env : NpArr Bool} (h : Mixed env) (p : List ℕ) : ∃ m, NearestOther env p m := by
  classical
  have hex : ∃ k : ℕ, ∃ q, InRange env.shape q ∧ env.get q ≠ env.get p ∧ (idxSq p q).toNat = k := by
    obtain ⟨q, q', hq, hq', hne⟩ := h
    by_cases e : env.get q = env.get p
    · exact ⟨_, q', hq', fun e' => hne (e.trans e'.symm), rfl⟩
    · exact ⟨_, q, hq, e, rfl⟩
  have hnn : ∀ q, 0 ≤ idxSq p q := idxSq_nonneg p
  refine ⟨Nat.find hex, ?_, ?_⟩
  · obtain ⟨q, h1, h2, h3⟩ := Nat.find_spec hex
    exact ⟨q, h1, h2, by rw [← h3, Int.toNat_of_nonneg (hnn q)]⟩
  · intro q h1 h2
    have := Nat.find_min' hex ⟨q, h1, h2, rfl⟩
    have := hnn q
    omega

/-- Stored values of neighbours in a flat field with cells of both classes: they differ by at most two cells, up to
rounding. -/
theorem neighbour_values {res : ℝ} (hres : GoodRes ieee res) (hlo : 1 / 2 ^ 126 ≤ res) (hhi : res ≤ 2 ^ 100) {d : Dims}
    (hd : SmallGrid d) (hflat : Flat d) {fill : Idx → Option Bool} {f : Idx → Bool} (hf : Answers d fill f) {oob : FVal}
    {o : Out} (ho : extract ieee (res, res, res) d fill oob false = some o) {u v q : Idx} (hu : InBounds d u)
    (hv : InBounds d v) (hadj : FaceAdj u v) (hq : InBounds d q) (hop : f q ≠ f u) {x y : ℝ} (ex : o.sdf.get u = real x)
    (ey : o.sdf.get v = real y) : |x - y| ≤ (2 + 1 / 2 ^ 6) * res := by
  have hr := hres.1
  obtain ⟨o', a, b, ho', hs⟩ := base_spec hd hf ieee res oob
  rw [extract_false, ho'] at ho
  simp only [Option.some.injEq] at ho
  subst ho
  have hone : sqDist u v = 1 := by
    obtain ⟨δ, _, hface, rfl⟩ := face_move hadj
    rcases face_cases hface with rfl | rfl | rfl | rfl | rfl | rfl <;> simp [sqDist]
  have hone' : sqDist v u = 1 := by rw [← hone]; unfold sqDist; ring
  have memA : ∀ p, p ∈ d.all.filter f ↔ InBounds d p ∧ f p = true := by
    intro p; rw [List.mem_filter, Dims.mem_all, inB_iff_spec]
  have memB : ∀ p, p ∈ d.all.filter (fun i => !f i) ↔ InBounds d p ∧ f p = false := by
    intro p; rw [List.mem_filter, Dims.mem_all, inB_iff_spec]; simp
  have hval : ∀ {w : Idx} {n : ℕ} {z : ℝ}, InBounds d w → f w = false → reported a w = some n → o'.sdf.get w = real z →
      |z - res * Real.sqrt n| ≤ relErr * (res * Real.sqrt n) ∧ Real.sqrt n ≤ 2 ^ 16 := by
    intro w n z hw hfw h1 hz
    have hmem : ∀ p, p ∈ d.all.filter f ↔ Opposite d f w p := by
      intro p; rw [memA]; unfold Opposite; rw [hfw]; simp
    obtain ⟨t, e, -, he⟩ := stored_value hres hlo hhi hd hs.ha hw hmem h1
    rw [hs.val w hw, exactVal, hfw] at hz
    have hz' : some (ieee.r32 (scaled ieee res (reported a w))) = real z := hz
    rw [e] at hz'
    have htz : t = z := EReal.coe_eq_coe_iff.mp (Option.some.inj hz')
    refine ⟨htz ▸ he, ?_⟩
    obtain ⟨h2, h3, -⟩ := C08_sound hd hs.ha hw h1
    have hb := dsq_le_maxSq (inB_iff_spec.mpr hw) (inB_iff_spec.mpr ((hmem _).mp h2).1)
    rw [← dsq_sqDist] at h3
    have hh : maxSq d < 2 ^ 31 := hd
    rw [Real.sqrt_le_left (by norm_num)]
    have : n ≤ (2 ^ 16) ^ 2 := by omega
    exact_mod_cast this
  have hval' : ∀ {w : Idx} {n : ℕ} {z : ℝ}, InBounds d w → f w = true → reported b w = some n → o'.sdf.get w = real z →
      |-z - res * Real.sqrt n| ≤ relErr * (res * Real.sqrt n) ∧ Real.sqrt n ≤ 2 ^ 16 := by
    intro w n z hw hfw h1 hz
    have hmem : ∀ p, p ∈ d.all.filter (fun i => !f i) ↔ Opposite d f w p := by
      intro p; rw [memB]; unfold Opposite; rw [hfw]; simp
    obtain ⟨t, e, -, he⟩ := stored_value hres hlo hhi hd hs.hb hw hmem h1
    rw [hs.val w hw, exactVal, hfw, if_pos rfl, ieee.odd32, e] at hz
    have htz : -t = z := by
      have := Option.some.inj hz
      rw [← EReal.coe_neg] at this
      exact EReal.coe_eq_coe_iff.mp this
    refine ⟨by rw [← htz, neg_neg]; exact he, ?_⟩
    obtain ⟨h2, h3, -⟩ := C08_sound hd hs.hb hw h1
    have hb := dsq_le_maxSq (inB_iff_spec.mpr hw) (inB_iff_spec.mpr ((hmem _).mp h2).1)
    rw [← dsq_sqDist] at h3
    have hh : maxSq d < 2 ^ 31 := hd
    rw [Real.sqrt_le_left (by norm_num)]
    have : n ≤ (2 ^ 16) ^ 2 := by omega
    exact_mod_cast this
  have same : ∀ {z w : ℝ} {n m : ℕ}, |Real.sqrt n - Real.sqrt m| ≤ 1 →
      |z - res * Real.sqrt n| ≤ relErr * (res * Real.sqrt n) ∧ Real.sqrt n ≤ 2 ^ 16 →
      |w - res * Real.sqrt m| ≤ relErr * (res * Real.sqrt m) ∧ Real.sqrt m ≤ 2 ^ 16 → |z - w| ≤ (2 + 1 / 2 ^ 6) * res := by
    intro z w n m h1 h2 h3
    have b1 : res * Real.sqrt n ≤ res * 2 ^ 16 := mul_le_mul_of_nonneg_left h2.2 hr.le
    have b2 : res * Real.sqrt m ≤ res * 2 ^ 16 := mul_le_mul_of_nonneg_left h3.2 hr.le
    have b3 : |res * Real.sqrt n - res * Real.sqrt m| ≤ res := by
      rw [← mul_sub, abs_mul, abs_of_pos hr]; nlinarith
    have c2 := abs_le.mp h2.1
    have c3 := abs_le.mp h3.1
    have c4 := abs_le.mp b3
    unfold relErr at c2 c3
    rw [abs_le]
    norm_num at c2 c3 b1 b2 ⊢
    constructor <;> linarith
  have diff : ∀ {z w : ℝ}, |z - res * Real.sqrt (1 : ℕ)| ≤ relErr * (res * Real.sqrt (1 : ℕ)) →
      |-w - res * Real.sqrt (1 : ℕ)| ≤ relErr * (res * Real.sqrt (1 : ℕ)) → |z - w| ≤ (2 + 1 / 2 ^ 6) * res := by
    intro z w h2 h3
    simp only [Nat.cast_one, Real.sqrt_one, mul_one] at h2 h3
    have c2 := abs_le.mp h2
    have c3 := abs_le.mp h3
    unfold relErr at c2 c3
    rw [abs_le]
    norm_num at c2 c3 ⊢
    constructor <;> linarith
  cases hfu : f u <;> cases hfv : f v
  · have g : ∀ i, f i = true ↔ f i ≠ f u := by intro i; rw [hfu]; simp
    have g' : ∀ i, f i = true ↔ f i ≠ f v := by intro i; rw [hfv]; simp
    obtain ⟨n, h1, _⟩ := opposite_reported hd hflat hu hq hop g hs.ha
    obtain ⟨m, h2, _⟩ := opposite_reported hd hflat hv hq (by rw [hfv, ← hfu]; exact hop) g' hs.ha
    exact same (C85_neighbours hd hflat hs.ha hu hv hadj h1 h2) (hval hu hfu h1 ex) (hval hv hfv h2 ey)
  · have h1 := reported_one hd hs.ha hu ((memA v).mpr ⟨hv, hfv⟩) (fun h => by simp [hfu] at h) hone
    have h2 := reported_one hd hs.hb hv ((memB u).mpr ⟨hu, hfu⟩) (fun h => by simp [hfv] at h) hone'
    exact diff (hval hu hfu h1 ex).1 (hval' hv hfv h2 ey).1
  · have h1 := reported_one hd hs.hb hu ((memB v).mpr ⟨hv, hfv⟩) (fun h => by simp [hfu] at h) hone
    have h2 := reported_one hd hs.ha hv ((memA u).mpr ⟨hu, hfu⟩) (fun h => by simp [hfv] at h) hone'
    rw [abs_sub_comm]
    exact diff (hval hv hfv h2 ey).1 (hval' hu hfu h1 ex).1
  · have g : ∀ i, (!f i) = true ↔ f i ≠ f u := by intro i; rw [hfu]; simp
    have g' : ∀ i, (!f i) = true ↔ f i ≠ f v := by intro i; rw [hfv]; simp
    obtain ⟨n, h1, _⟩ := opposite_reported hd hflat hu hq hop g hs.hb
    obtain ⟨m, h2, _⟩ := opposite_reported hd hflat hv hq (by rw [hfv, ← hfu]; exact hop) g' hs.hb
    have := same (C85_neighbours hd hflat hs.hb hu hv hadj h1 h2) (hval' hu hfu h1 ex) (hval' hv hfv h2 ey)
    rwa [neg_sub_neg, abs_sub_comm] at this

/-- The distance array of the two-dimensional wrapper and the field it comes from. -/
theorem cells2 {res : ℝ} (hres : GoodRes ieee res) (hlo : 1 / 2 ^ 100 ≤ res) (hhi : res ≤ 2 ^ 100) (o : V3 ℝ)
    {env : NpArr Bool} (hw : env.WF) {nx ny : ℕ} (hs : env.shape = [ny, nx]) (hd : SmallGrid ⟨nx, ny, 1⟩)
    (hne : 0 < nx * ny) {a g : NpArr FVal} (h : arrays2 ieee res o env = some (a, g)) :
    ∃ fill out, Answers ⟨nx, ny, 1⟩ fill (fun v => decide (env.get [v.y.toNat, v.x.toNat] = some true)) ∧
      extract ieee (res, res, res) ⟨nx, ny, 1⟩ fill oobValue false = some out ∧
      ∀ x < nx, ∀ y < ny, a.get [y, x] = some (out.sdf.get ⟨x, y, 0⟩) := by
  have hlo' : 1 / 2 ^ 126 ≤ res := le_trans (by norm_num) hlo
  have h32 := (ieee_resolution hlo' hhi).1
  have hr := rng_of hlo hhi
  obtain ⟨s, a', g', hc, sd, h2, h3, h4, h5⟩ := C50_2d hres h32 oobValue (cellGradient ieee o res) (cell_length hr o) hw hs hd hne
  obtain ⟨f1, f2⟩ := fill2_get env ⟨nx, ny, 1⟩ rfl
  have hA := fill_answers f1 _ f2
  unfold computeSdf2 at hc
  rw [hs] at hc
  simp only [Option.map_eq_some_iff] at hc
  obtain ⟨out, ho, rfl⟩ := hc
  unfold extractMap at ho
  rw [f1] at ho
  refine ⟨_, out, hA, ho, ?_⟩
  intro x hx y hy
  unfold arrays2 at h
  rw [h2] at h
  have ha : astype32 ieee a' = a := congrArg Prod.fst (Option.some.inj h)
  obtain ⟨⟨v, v1, v2, -⟩, -⟩ := h5 x hx y hy
  have := (field_values hres hlo' hhi hd hA ho (v := ⟨x, y, 0⟩)
    ⟨⟨by simp, by simpa using hx⟩, ⟨by simp, by simpa using hy⟩, by simp, by simp⟩).1
  rw [v2] at this
  rw [← ha, get_astype32, v1, v2, Option.map_some, this]

theorem mixed_class {env : NpArr Bool} (hw : env.WF) {nx ny : ℕ} (hs : env.shape = [ny, nx]) (hm : Mixed env) {x y : ℕ}
    (hx : x < nx) (hy : y < ny) :
    ∃ q, InBounds ⟨nx, ny, 1⟩ q ∧ decide (env.get [q.y.toNat, q.x.toNat] = some true) ≠
      decide (env.get [y, x] = some true) := by
  obtain ⟨m, hn⟩ := hm.nearest [y, x]
  obtain ⟨q, ⟨h1, h2⟩, -⟩ := (nearest2 hw hs hx hy hn).1
  exact ⟨q, h1, by simpa using h2⟩

/-- A slope between neighbours that differ by little. -/
theorem quotient_steps {res : ℝ} (hres : 0 < res) {n k : ℕ} (hk : k < n) {f : ℕ → ℝ} {B : ℝ} (hB : 0 ≤ B)
    (h : ∀ j, j + 1 < n → |f j - f (j + 1)| ≤ B * res) : |quotient res n k f| ≤ B := by
  unfold quotient
  split_ifs with hu
  swap
  · simpa using hB
  have hpos : 0 < (following n k : ℝ) - before k := by
    have : ((before k : ℕ) : ℝ) < following n k := by exact_mod_cast hu
    linarith
  rw [abs_div, abs_of_pos (mul_pos hpos hres), div_le_iff₀ (mul_pos hpos hres)]
  have hcase : following n k = before k + 1 ∨ following n k = before k + 2 := by
    unfold following before at *; omega
  have hlt : following n k < n := by unfold following; omega
  rcases hcase with e | e
  · rw [e] at hlt ⊢
    have h1 := h _ hlt
    rw [abs_sub_comm] at h1
    push_cast
    linarith
  · rw [e] at hlt ⊢
    have h1 := h (before k) (by omega)
    have h2 := h (before k + 1) hlt
    have h3 := abs_sub_le (f (before k)) (f (before k + 1)) (f (before k + 2))
    rw [abs_sub_comm] at h3
    push_cast
    have e2 : B * (((before k : ℝ) + 2 - before k) * res) = B * res + B * res := by ring
    rw [e2]
    exact h3.trans (add_le_add h1 h2)

/-- C116, environments with both 0 and 1 entries: every entry of the two arrays of
`utils_2d.compute_sdf_and_gradient` is a number, every entry of the gradient is the slope of the returned distances up to
rounding, and none is steeper than 9/4 (two cells per cell, up to the rounding of the distances). -/
theorem C116_2d_mixed {res : ℝ} (hres : GoodRes ieee res) (hlo : 1 / 2 ^ 100 ≤ res) (hhi : res ≤ 2 ^ 100) (o : V3 ℝ)
    {env : NpArr Bool} (hw : env.WF) {nx ny : ℕ} (hs : env.shape = [ny, nx]) (hd : SmallGrid ⟨nx, ny, 1⟩)
    (hm : Mixed env) :
    ∃ a g, arrays2 ieee res o env = some (a, g) ∧ a.shape = [ny, nx] ∧ g.shape = [ny, nx, 2] ∧
      ∀ x < nx, ∀ y < ny, a.Finite [y, x] ∧ ∃ gx gy : ℝ,
        g.get [y, x, 0] = some (real gx) ∧ g.get [y, x, 1] = some (real gy) ∧
        Rounded res gx (quotient res nx x fun j => a.number [y, j]) ∧
        Rounded res gy (quotient res ny y fun j => a.number [j, x]) ∧ |gx| ≤ 9 / 4 ∧ |gy| ≤ 9 / 4 := by
  have hlo' : 1 / 2 ^ 126 ≤ res := le_trans (by norm_num) hlo
  have hne : 0 < nx * ny := by
    obtain ⟨p, -, hp, -⟩ := hm
    rw [hs] at hp
    obtain ⟨y, x, -, hy, hx⟩ := inRange2.mp hp
    exact Nat.mul_pos (by omega) (by omega)
  obtain ⟨a, g, h1, h2, h3, h4⟩ := C116_2d hres hlo hhi o hw hs hd hne
  obtain ⟨fill, out, hA, ho, hcell⟩ := cells2 hres hlo hhi o hw hs hd hne h1
  have hinb : ∀ {x y : ℕ}, x < nx → y < ny → InBounds ⟨nx, ny, 1⟩ ⟨x, y, 0⟩ := by
    intro x y hx hy
    exact ⟨⟨by simp, by simpa using hx⟩, ⟨by simp, by simpa using hy⟩, by simp, by simp⟩
  have hfin : ∀ {x y : ℕ}, x < nx → y < ny → ∃ r : ℝ, out.sdf.get ⟨x, y, 0⟩ = real r := by
    intro x y hx hy
    obtain ⟨m, hn⟩ := hm.nearest [y, x]
    obtain ⟨r, e, -⟩ := C86_flat hres hlo' hhi hd (Or.inr (Or.inr rfl)) hA ho (hinb hx hy) (nearest2 hw hs hx hy hn)
    split_ifs at e
    · exact ⟨-r, e⟩
    · exact ⟨r, e⟩
  have hFin : ∀ {x y : ℕ}, x < nx → y < ny → a.Finite [y, x] := by
    intro x y hx hy
    obtain ⟨r, e⟩ := hfin hx hy
    exact ⟨r, by rw [hcell x hx y hy, e]⟩
  have step : ∀ {x y x' y' : ℕ}, x < nx → y < ny → x' < nx → y' < ny →
      FaceAdj ⟨x, y, 0⟩ ⟨x', y', 0⟩ → |a.number [y, x] - a.number [y', x']| ≤ (2 + 1 / 2 ^ 6) * res := by
    intro x y x' y' hx hy hx' hy' hadj
    obtain ⟨r, e⟩ := hfin hx hy
    obtain ⟨r', e'⟩ := hfin hx' hy'
    obtain ⟨q, hq, hop⟩ := mixed_class hw hs hm hx hy
    rw [number_eq (r := r) (by rw [hcell x hx y hy, e]), number_eq (r := r') (by rw [hcell x' hx' y' hy', e'])]
    exact neighbour_values hres hlo' hhi hd (Or.inr (Or.inr rfl)) hA ho (hinb hx hy) (hinb hx' hy') hadj hq
      (by simpa using hop) e e'
  refine ⟨a, g, h1, h2, h3, ?_⟩
  intro x hx y hy
  refine ⟨hFin hx hy, ?_⟩
  obtain ⟨gx, gy, e1, e2, r1, r2⟩ := (h4 x hx y hy).1 (by
    rintro p (⟨j, hj, rfl⟩ | ⟨j, hj, rfl⟩)
    · exact hFin (used_lt hx hj) hy
    · exact hFin hx (used_lt hy hj))
  have small : ∀ {g q : ℝ}, Rounded res g q → |q| ≤ 2 + 1 / 2 ^ 6 → |g| ≤ 9 / 4 := by
    intro g q hg hq
    unfold Rounded at hg
    have t := abs_sub_abs_le_abs_sub g q
    have hη : 1 / 2 ^ 146 / res ≤ 1 / 2 ^ 46 := by
      rw [div_le_iff₀ hres.1]
      refine le_trans ?_ (mul_le_mul_of_nonneg_left hlo (by norm_num))
      norm_num
    norm_num at hg hq hη ⊢
    linarith
  refine ⟨gx, gy, e1, e2, r1, r2, small r1 (quotient_steps hres.1 hx (by norm_num) ?_),
    small r2 (quotient_steps hres.1 hy (by norm_num) ?_)⟩
  · intro j hj
    exact step (by omega) hy hj hy (by unfold FaceAdj; simp)
  · intro j hj
    exact step hx (by omega) hx hj (by unfold FaceAdj; simp)

/-- C116, the limit of the claim: for an environment of more than one entry that are all equal (nothing but free space, say)
every distance is infinite and every entry of the gradient is NaN, although the wrapper returns normally. -/
theorem C116_2d_uniform {res : ℝ} (hres : GoodRes ieee res) (hlo : 1 / 2 ^ 100 ≤ res) (hhi : res ≤ 2 ^ 100) (o : V3 ℝ)
    {env : NpArr Bool} (hw : env.WF) {nx ny : ℕ} (hs : env.shape = [ny, nx]) (hd : SmallGrid ⟨nx, ny, 1⟩)
    (hne : 1 < nx * ny) (hu : ¬ Mixed env) :
    ∃ a g, arrays2 ieee res o env = some (a, g) ∧ a.shape = [ny, nx] ∧ g.shape = [ny, nx, 2] ∧
      ∀ x < nx, ∀ y < ny, a.get [y, x] = some (some (if env.get [y, x] = some true then ⊥ else ⊤)) ∧
        ∀ c < 2, g.get [y, x, c] = some none := by
  have hlo' : 1 / 2 ^ 126 ≤ res := le_trans (by norm_num) hlo
  obtain ⟨a, g, h1, h2, h3, h4⟩ := C116_2d hres hlo hhi o hw hs hd (by omega)
  obtain ⟨fill, out, hA, ho, hcell⟩ := cells2 hres hlo hhi o hw hs hd (by omega) h1
  have hinf : ∀ x < nx, ∀ y < ny, a.get [y, x] = some (some (if env.get [y, x] = some true then ⊥ else ⊤)) := by
    intro x hx y hy
    rw [hcell x hx y hy]
    rcases C86_accuracy hres hlo' hhi hd hA ho (v := ⟨x, y, 0⟩)
      ⟨⟨by simp, by simpa using hx⟩, ⟨by simp, by simpa using hy⟩, by simp, by simp⟩ with h | ⟨r, q, -, -, ⟨hq, hop⟩, -⟩
    · rw [h]; simp
    · exfalso
      obtain ⟨⟨q1, q2⟩, ⟨q3, q4⟩, -⟩ := hq
      dsimp only at q2 q4
      refine hu ⟨[q.y.toNat, q.x.toNat], [y, x], ?_, ?_, ?_⟩
      · rw [hs]; exact inRange2.mpr ⟨_, _, rfl, by omega, by omega⟩
      · rw [hs]; exact inRange2.mpr ⟨_, _, rfl, hy, hx⟩
      · intro e
        apply hop
        dsimp only
        rw [e]
        simp
  refine ⟨a, g, h1, h2, h3, ?_⟩
  intro x hx y hy
  refine ⟨hinf x hx y hy, (h4 x hx y hy).2 ?_⟩
  have bad : ∀ x < nx, ∀ y < ny, ¬ a.Finite [y, x] := by
    rintro x hx y hy ⟨r, hr⟩
    rw [hinf x hx y hy] at hr
    split_ifs at hr <;> simp [real] at hr
  by_cases hn : 1 < nx
  · have hused : Used nx x (before x) := ⟨by unfold before following; omega, .inl rfl⟩
    exact ⟨_, .inl ⟨_, hused, rfl⟩, bad _ (used_lt hx hused) _ hy⟩
  · have hn' : nx = 1 := by omega
    have hm : 1 < ny := by rw [hn'] at hne; omega
    have hused : Used ny y (before y) := ⟨by unfold before following; omega, .inl rfl⟩
    exact ⟨_, .inr ⟨_, hused, rfl⟩, bad _ hx _ (used_lt hy hused)⟩

/-! ## Examples -/

/-- The environment of the examples: two rows of three entries, one of them an obstacle. -/
def exGrid : NpArr Bool := ⟨[2, 3], [true, false, false, false, false, false]⟩

theorem exGrid_mixed : Mixed exGrid :=
  ⟨[0, 0], [1, 2], inRange2.mpr ⟨0, 0, rfl, by norm_num, by norm_num⟩, inRange2.mpr ⟨1, 2, rfl, by norm_num, by norm_num⟩,
    by decide⟩

/-- The hypotheses are met: the wrapper gives numbers for the example. -/
example : ∃ a g, arrays2 ieee (1 / 4) ⟨0, 0, 0⟩ exGrid = some (a, g) ∧ a.Finite [1, 2] ∧
    ∃ gx : ℝ, g.get [1, 2, 0] = some (real gx) ∧
      Rounded (1 / 4) gx ((a.number [1, 2] - a.number [1, 1]) / (1 / 4)) := by
  obtain ⟨a, g, h1, -, -, h⟩ := C116_2d_mixed quarter_good (by norm_num) (by norm_num) ⟨0, 0, 0⟩ (env := exGrid) rfl
    (nx := 3) (ny := 2) rfl (by unfold SmallGrid; decide) exGrid_mixed
  obtain ⟨hf, gx, gy, e1, -, r1, -⟩ := h 2 (by norm_num) 1 (by norm_num)
  refine ⟨a, g, h1, hf, gx, e1, ?_⟩
  have : quotient (1 / 4) 3 2 (fun j => a.number [1, j]) = (a.number [1, 2] - a.number [1, 1]) / (1 / 4) := by
    unfold quotient before following
    norm_num
  rwa [this] at r1

/-- An environment without obstacles: the gradient is NaN. -/
example : ∃ a g, arrays2 ieee (1 / 4) ⟨0, 0, 0⟩ ⟨[1, 2], [false, false]⟩ = some (a, g) ∧ g.get [0, 1, 0] = some none := by
  obtain ⟨a, g, h1, -, -, h⟩ := C116_2d_uniform quarter_good (by norm_num) (by norm_num) ⟨0, 0, 0⟩
    (env := ⟨[1, 2], [false, false]⟩) rfl (nx := 2) (ny := 1) rfl (by unfold SmallGrid; decide) (by norm_num) (by
      rintro ⟨p, q, hp, hq, hne⟩
      obtain ⟨y, x, rfl, hy, hx⟩ := inRange2.mp hp
      obtain ⟨y', x', rfl, hy', hx'⟩ := inRange2.mp hq
      interval_cases y
      interval_cases y'
      interval_cases x <;> interval_cases x' <;> exact hne rfl)
  exact ⟨a, g, h1, (h 1 (by norm_num) 0 (by norm_num)).2 0 (by norm_num)⟩

/-- The hypotheses of the three-dimensional theorem are met as well. -/
example : ∃ a g, arrays3 ieee (1 / 4) ⟨0, 0, 0⟩ exEnv = some (a, g) ∧ g.shape = [2, 3, 1, 3] := by
  obtain ⟨a, g, h1, -, h2, -⟩ := C116_3d quarter_good (by norm_num) (by norm_num) ⟨0, 0, 0⟩ (env := exEnv) rfl
    (nx := 3) (ny := 2) (nz := 1) rfl (by unfold SmallGrid; decide) (by norm_num)
  exact ⟨a, g, h1, h2⟩

end Py

end Verif
