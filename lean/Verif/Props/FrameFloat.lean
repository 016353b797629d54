import Verif.FrameFloat
import Verif.Props.InterpLip
import Verif.Props.BoundaryFloat
import Verif.Props.GradFloat

/-!
# C112: distance estimates and projections of grids with an arbitrary pose, in IEEE arithmetic
-/

namespace Verif

open Spec SdfGen

namespace FSdf

open Fl

/-! ## Specification -/

/-- A location with finite coordinates. -/
def loc (v : V3 ℝ) : V3 FVal := ⟨real v.x, real v.y, real v.z⟩

/-- Each coordinate of `a` is within `δ` of that of `b`. -/
def Within (δ : ℝ) (a b : V3 ℝ) : Prop := |a.x - b.x| ≤ δ ∧ |a.y - b.y| ≤ δ ∧ |a.z - b.z| ≤ δ

/-- The sums of the absolute values of the terms that make up the entries of `A * v`. -/
def mag (A : Aff ℝ) (v : V3 ℝ) : V3 ℝ :=
  ⟨|A.rx.x * v.x| + |A.rx.y * v.y| + |A.rx.z * v.z| + |A.t.x|,
   |A.ry.x * v.x| + |A.ry.y * v.y| + |A.ry.z * v.z| + |A.t.y|,
   |A.rz.x * v.x| + |A.rz.y * v.y| + |A.rz.z * v.z| + |A.t.z|⟩

/-- Every term of `A * v` adds up to at most `M`. -/
def Reach (A : Aff ℝ) (v : V3 ℝ) (M : ℝ) : Prop := (mag A v).x ≤ M ∧ (mag A v).y ≤ M ∧ (mag A v).z ≤ M

/-- `f` evaluates the product with the matrix `A` up to a relative error of `2 ^ -50` of the terms, whatever the order
of the additions, with or without fused multiplications. -/
def Accurate (f : V3 FVal → V3 FVal) (A : Aff ℝ) : Prop :=
  ∀ (v : V3 ℝ) (M : ℝ), Reach A v M → M ≤ 2 ^ 200 →
    ∃ w, f (loc v) = loc w ∧ Within (M / 2 ^ 50 + 1 / 2 ^ 200) w (A.app id v)

/-- `cell` finds the cell of a coordinate up to a relative error of `2 ^ -50`; coordinates that are not numbers, or
more than `2 ^ 40` cells away, are in no cell of a grid. -/
def LookupOk (cell : FVal → Int) (res : ℝ) : Prop :=
  (∀ x : ℝ, |x| ≤ 2 ^ 40 * res → ∃ u : ℝ, cell (real x) = ⌊u⌋ ∧ |u - x / res| ≤ |x / res| / 2 ^ 50 + 1 / 2 ^ 100) ∧
  ∀ a : FVal, (¬ ∃ x : ℝ, a = real x ∧ |x| ≤ 2 ^ 40 * res) → cell a < 0 ∨ 2 ^ 30 ≤ cell a

/-- The cell of a location, by coordinates. -/
def byAxis (cell : FVal → Int) (p : V3 FVal) : Idx := ⟨cell p.x, cell p.y, cell p.z⟩

/-- One row `r` of `B * A` is the unit vector `u` up to `2 ^ -48`. -/
def RowNear (A : Aff ℝ) (r u : V3 ℝ) : Prop :=
  |r.x * A.rx.x + r.y * A.ry.x + r.z * A.rz.x - u.x| ≤ 1 / 2 ^ 48 ∧
  |r.x * A.rx.y + r.y * A.ry.y + r.z * A.rz.y - u.y| ≤ 1 / 2 ^ 48 ∧
  |r.x * A.rx.z + r.y * A.ry.z + r.z * A.rz.z - u.z| ≤ 1 / 2 ^ 48

/-- The entries of a row are at most 2. -/
def RowSmall (r : V3 ℝ) : Prop := |r.x| ≤ 2 ∧ |r.y| ≤ 2 ∧ |r.z| ≤ 2

/-- The stored inverse transform `B` undoes the stored transform `A` up to rounding. -/
structure NearInverse (A B : Aff ℝ) : Prop where
  small : RowSmall A.rx ∧ RowSmall A.ry ∧ RowSmall A.rz ∧ RowSmall B.rx ∧ RowSmall B.ry ∧ RowSmall B.rz
  rows : RowNear A B.rx ⟨1, 0, 0⟩ ∧ RowNear A B.ry ⟨0, 1, 0⟩ ∧ RowNear A B.rz ⟨0, 0, 1⟩
  shift : |B.rx.dot A.t + B.t.x| ≤ (|A.t.x| + |A.t.y| + |A.t.z|) / 2 ^ 48 + 1 / 2 ^ 190 ∧
    |B.ry.dot A.t + B.t.y| ≤ (|A.t.x| + |A.t.y| + |A.t.z|) / 2 ^ 48 + 1 / 2 ^ 190 ∧
    |B.rz.dot A.t + B.t.z| ≤ (|A.t.x| + |A.t.y| + |A.t.z|) / 2 ^ 48 + 1 / 2 ^ 190

/-- The origin of the grid is at most `T` away on each axis. -/
def OriginWithin (A : Aff ℝ) (T : ℝ) : Prop := |A.t.x| ≤ T ∧ |A.t.y| ≤ T ∧ |A.t.z| ≤ T

/-! ## Evaluation from left to right is accurate -/

theorem tiny_200 : (2 : ℝ) ^ (-1074 : ℤ) ≤ 1 / 2 ^ 210 := by
  have e : (2 : ℝ) ^ (-210 : ℤ) = 1 / 2 ^ 210 := by
    have := zpow_neg_nat 210
    push_cast at this
    exact this
  rw [← e]
  exact Ieee.two_mono (by decide)

theorem round_200 {z : ℝ} (hz : |z| ≤ 2 ^ 210) :
    ∃ w : ℝ, some (ieee.r64 (z : EReal)) = real w ∧ |w - z| ≤ |z| / 2 ^ 53 + 1 / 2 ^ 210 := by
  have e : (2 : ℝ) ^ (210 : ℤ) = 2 ^ 210 := by norm_cast
  have e' : (2 : ℝ) ^ 210 ≤ 2 ^ (1000 : ℤ) := by rw [← e]; exact Ieee.two_mono (by decide)
  obtain ⟨w, h1, h2⟩ := Ieee.r64_real (z := z) (hz.trans e')
  exact ⟨w, by rw [h1]; rfl, h2.trans (by have := tiny_200; linarith)⟩

theorem row_near (r v : V3 ℝ) (t : ℝ) {M : ℝ} (hM : |r.x * v.x| + |r.y * v.y| + |r.z * v.z| + |t| ≤ M)
    (hM' : M ≤ 2 ^ 200) :
    ∃ w, rowApp ieee r t (loc v) = real w ∧
      |w - (r.x * v.x + r.y * v.y + r.z * v.z + t)| ≤ M / 2 ^ 50 + 1 / 2 ^ 200 := by
  generalize hmx : r.x * v.x = mx at hM ⊢
  generalize hmy : r.y * v.y = my at hM ⊢
  generalize hmz : r.z * v.z = mz at hM ⊢
  have ax := abs_nonneg mx
  have ay := abs_nonneg my
  have az := abs_nonneg mz
  have at' := abs_nonneg t
  obtain ⟨x, ex, hx⟩ := round_200 (z := mx) (by linarith)
  obtain ⟨y, ey, hy⟩ := round_200 (z := my) (by linarith)
  obtain ⟨z, ez, hz⟩ := round_200 (z := mz) (by linarith)
  obtain ⟨s, es, hs⟩ := round_200 (z := t) (by linarith)
  have tri : ∀ {a b : ℝ}, |a| ≤ |a - b| + |b| := by
    intro a b; have := abs_add_le (a - b) b; rwa [sub_add_cancel] at this
  have bx := tri (a := x) (b := mx)
  have bY := tri (a := y) (b := my)
  have bz := tri (a := z) (b := mz)
  have bs := tri (a := s) (b := t)
  have bxy := abs_add_le x y
  obtain ⟨c, ec, hc⟩ := round_200 (z := x + y) (by linarith)
  have bc := tri (a := c) (b := x + y)
  have bcz := abs_add_le c z
  obtain ⟨d, ed, hd⟩ := round_200 (z := c + z) (by linarith)
  have bd := tri (a := d) (b := c + z)
  have bds := abs_add_le d s
  obtain ⟨e, ee, he⟩ := round_200 (z := d + s) (by linarith)
  refine ⟨e, ?_, ?_⟩
  · unfold rowApp loc
    simp only [mul_real, mul_one, hmx, hmy, hmz]
    rw [ex, ey, ez, es, add_real, ec, add_real, ed, add_real, ee]
  · have split : e - (mx + my + mz + t) = (e - (d + s)) + (d - (c + z)) + (c - (x + y)) + (x - mx) + (y - my) +
        (z - mz) + (s - t) := by ring
    rw [split]
    have a1 := abs_add_le ((e - (d + s)) + (d - (c + z)) + (c - (x + y)) + (x - mx) + (y - my) + (z - mz)) (s - t)
    have a2 := abs_add_le ((e - (d + s)) + (d - (c + z)) + (c - (x + y)) + (x - mx) + (y - my)) (z - mz)
    have a3 := abs_add_le ((e - (d + s)) + (d - (c + z)) + (c - (x + y)) + (x - mx)) (y - my)
    have a4 := abs_add_le ((e - (d + s)) + (d - (c + z)) + (c - (x + y))) (x - mx)
    have a5 := abs_add_le ((e - (d + s)) + (d - (c + z))) (c - (x + y))
    have a6 := abs_add_le (e - (d + s)) (d - (c + z))
    linarith

/-- C112: the product evaluated from left to right, each operation rounded, is accurate. -/
theorem C112_product (A : Aff ℝ) : Accurate (affApp ieee A) A := by
  intro v M hr hM
  obtain ⟨hx, hy, hz⟩ := hr
  obtain ⟨x, ex, ax⟩ := row_near A.rx v A.t.x hx hM
  obtain ⟨y, ey, ay⟩ := row_near A.ry v A.t.y hy hM
  obtain ⟨z, ez, az⟩ := row_near A.rz v A.t.z hz hM
  refine ⟨⟨x, y, z⟩, ?_, ax, ay, az⟩
  unfold affApp
  rw [ex, ey, ez]; rfl

/-! ## Cell lookup -/

theorem r64_bot : ieee.r64 ⊥ = ⊥ := by
  have := ieee.odd64 ⊤
  rw [ieee.top64, EReal.neg_top] at this
  exact this

theorem recip_near {res : ℝ} (hlo : 1 / 2 ^ 100 ≤ res) (hhi : res ≤ 2 ^ 100) :
    ∃ i : ℝ, div ieee (real 1) (real res) = real i ∧ |i - 1 / res| ≤ 1 / res / 2 ^ 52 := by
  have r0 : 0 < res := lt_of_lt_of_le (by positivity) hlo
  have up : 1 / res ≤ 2 ^ 100 := by
    rw [div_le_iff₀ r0]
    have := mul_le_mul_of_nonneg_left hlo (by positivity : (0 : ℝ) ≤ 2 ^ 100)
    norm_num at this ⊢
    linarith
  have low : 1 / 2 ^ 100 ≤ 1 / res := one_div_le_one_div_of_le r0 hhi
  have p0 : 0 ≤ 1 / res := by positivity
  obtain ⟨i, ei, hi⟩ := round_200 (z := 1 / res) (by rw [abs_of_nonneg p0]; linarith)
  rw [abs_of_nonneg p0] at hi
  refine ⟨i, by rw [div_real _ _ r0.ne']; exact ei, hi.trans ?_⟩
  generalize 1 / res = v at low
  linarith

theorem r64_large {x : ℝ} (hx : 2 ^ 39 ≤ x) : ((2 ^ 38 : ℝ) : EReal) ≤ ieee.r64 (x : EReal) := by
  obtain ⟨w, e, h⟩ := round_200 (z := 2 ^ 39) (by rw [abs_of_nonneg (by positivity)]; norm_num)
  have e' : ieee.r64 ((2 ^ 39 : ℝ) : EReal) = (w : EReal) := by
    unfold real at e; exact Option.some.inj e
  have hm := ieee.mono64 (EReal.coe_le_coe_iff.mpr hx)
  refine le_trans ?_ hm
  rw [e', EReal.coe_le_coe_iff]
  have := (abs_le.mp h).1
  norm_num at this ⊢
  linarith

/-- The conversion of a rounded product to `int64_t`. -/
theorem axisCell_some {res : ℝ} {a : FVal} {x : EReal} (h : mul ieee a (div ieee (real 1) (real res)) = some x) :
    (∃ y : ℝ, x = y ∧ axisCell ieee res a = ⌊y⌋) ∨ axisCell ieee res a = -2 ^ 63 := by
  unfold axisCell
  rw [h]
  dsimp only
  split_ifs with hc
  · left
    induction x using EReal.rec with
    | bot => exact absurd hc.1 (not_le.mpr (EReal.bot_lt_coe _))
    | top => exact absurd hc.2 (not_lt.mpr le_top)
    | coe y => exact ⟨y, rfl, by rw [EReal.toReal_coe]⟩
  · right; rfl

/-- C112: multiplying by the rounded reciprocal of the cell size and rounding down finds the cell of a coordinate up to
rounding. -/
theorem C112_lookup {res : ℝ} (hlo : 1 / 2 ^ 100 ≤ res) (hhi : res ≤ 2 ^ 100) :
    LookupOk (axisCell ieee res) res := by
  have r0 : 0 < res := lt_of_lt_of_le (by positivity) hlo
  obtain ⟨i, ei, hi⟩ := recip_near hlo hhi
  have p0 : 0 < 1 / res := by positivity
  have i0 : 0 < i := by
    have := (abs_le.mp hi).1
    linarith
  constructor
  · intro x hx
    have hxr : |x / res| ≤ 2 ^ 40 := by
      rw [abs_div, abs_of_pos r0, div_le_iff₀ r0]; exact hx
    have hd : |x * i - x / res| ≤ |x / res| / 2 ^ 52 := by
      have e : x * i - x / res = x * (i - 1 / res) := by ring
      rw [e, abs_mul]
      calc |x| * |i - 1 / res| ≤ |x| * (1 / res / 2 ^ 52) := by gcongr
        _ = |x / res| / 2 ^ 52 := by rw [abs_div, abs_of_pos r0]; ring
    have hb : |x * i| ≤ |x * i - x / res| + |x / res| := by
      have := abs_add_le (x * i - x / res) (x / res); rwa [sub_add_cancel] at this
    obtain ⟨u, eu, hu⟩ := round_200 (z := x * i) (by linarith)
    have hm : mul ieee (real x) (div ieee (real 1) (real res)) = real u := by rw [ei, mul_real, eu]
    have hub : |u| ≤ 2 ^ 42 := by
      have := abs_add_le (u - x * i) (x * i)
      rw [sub_add_cancel] at this
      linarith
    refine ⟨u, ?_, ?_⟩
    · unfold axisCell
      rw [hm]
      unfold real
      dsimp only
      rw [abs_le] at hub
      rw [if_pos, EReal.toReal_coe]
      refine ⟨EReal.coe_le_coe_iff.mpr ?_, EReal.coe_lt_coe_iff.mpr ?_⟩
      · linarith
      · linarith
    · have := abs_sub_le u (x * i) (x / res)
      have := abs_nonneg (x / res)
      linarith
  · intro a ha
    have least : (-2 ^ 63 : Int) < 0 := by norm_num
    rcases a with _ | x
    · left
      have : axisCell ieee res none = -2 ^ 63 := by unfold axisCell mul; rfl
      rw [this]; exact least
    · have ei' : div ieee (real 1) (real res) = some (i : EReal) := ei
      induction x using EReal.rec with
      | bot =>
        left
        have h : mul ieee (some ⊥) (div ieee (real 1) (real res)) = some ⊥ := by
          rw [ei']
          unfold mul
          simp only
          rw [if_neg, EReal.bot_mul_coe_of_pos i0, r64_bot]
          simp [i0.ne']
        rcases axisCell_some h with ⟨y, e, -⟩ | e
        · exact absurd e.symm (EReal.coe_ne_bot y)
        · rw [e]; exact least
      | top =>
        left
        have h : mul ieee (some ⊤) (div ieee (real 1) (real res)) = some ⊤ := by
          rw [ei']
          unfold mul
          simp only
          rw [if_neg, EReal.top_mul_coe_of_pos i0, ieee.top64]
          simp [i0.ne']
        rcases axisCell_some h with ⟨y, e, -⟩ | e
        · exact absurd e.symm (EReal.coe_ne_top y)
        · rw [e]; exact least
      | coe x =>
        have hx : 2 ^ 40 * res < |x| := by
          by_contra h
          exact ha ⟨x, rfl, not_lt.mp h⟩
        have half : 1 / 2 ≤ res * i := by
          have h1 := (abs_le.mp hi).1
          have h2 : 1 / res / 2 ≤ i := by linarith
          calc (1 : ℝ) / 2 = res * (1 / res / 2) := by field_simp
            _ ≤ res * i := by gcongr
        have big : 2 ^ 39 ≤ |x| * i := by
          have := mul_le_mul_of_nonneg_right hx.le i0.le
          nlinarith
        have h : mul ieee (some (x : EReal)) (div ieee (real 1) (real res)) =
            some (ieee.r64 ((x * i : ℝ) : EReal)) := by
          rw [ei]; exact mul_real ieee x i
        rcases axisCell_some h with ⟨y, e, e'⟩ | e
        · rcases le_or_gt 0 x with h0 | h0
          · right
            rw [abs_of_nonneg h0] at big
            have := r64_large big
            rw [e, EReal.coe_le_coe_iff] at this
            rw [e']
            refine Int.le_floor.mpr ?_
            push_cast
            linarith
          · left
            rw [abs_of_neg h0] at big
            have := r64_large big
            have en : ((-x * i : ℝ) : EReal) = -((x * i : ℝ) : EReal) := by rw [← EReal.coe_neg]; congr 1; ring
            rw [en, ieee.odd64, e, ← EReal.coe_neg, EReal.coe_le_coe_iff] at this
            rw [e']
            refine Int.floor_lt.mpr ?_
            push_cast
            linarith
        · left; rw [e]; exact least

/-- A coordinate whose cell lies in the grid. -/
theorem axis_ok {cell : FVal → Int} {res : ℝ} (hr : 0 < res) (hl : LookupOk cell res) {a : FVal} {n : ℕ}
    (hn : n ≤ 2 ^ 20) (h0 : 0 ≤ cell a) (h1 : cell a < n) :
    ∃ x : ℝ, a = real x ∧ |x - ((cell a : ℝ) + 1 / 2) * res| ≤ res := by
  by_cases h : ∃ x : ℝ, a = real x ∧ |x| ≤ 2 ^ 40 * res
  · obtain ⟨x, rfl, hx⟩ := h
    obtain ⟨u, eu, hu⟩ := hl.1 x hx
    refine ⟨x, rfl, ?_⟩
    have hxr : |x / res| ≤ 2 ^ 40 := by
      rw [abs_div, abs_of_pos hr, div_le_iff₀ hr]; exact hx
    have a1 := Int.floor_le u
    have a2 := Int.lt_floor_add_one u
    rw [← eu] at a1 a2
    have e : x - ((cell (real x) : ℝ) + 1 / 2) * res = (x / res - ((cell (real x) : ℝ) + 1 / 2)) * res := by
      field_simp
    rw [e, abs_mul, abs_of_pos hr]
    have : |x / res - ((cell (real x) : ℝ) + 1 / 2)| ≤ 1 := by
      have hu' : |u - x / res| ≤ 1 / 4 := by linarith
      rw [abs_le] at hu' ⊢
      constructor <;> linarith
    nlinarith
  · rcases hl.2 a h with h' | h'
    · omega
    · exfalso
      have : (n : Int) ≤ 2 ^ 20 := by exact_mod_cast hn
      norm_num at this h'
      omega

/-- C112: the lookup satisfies what C101, C103 and C106 assume about the base class: a location whose cell lies in the
grid has finite coordinates, each within one cell size of the centre of the cell. -/
theorem C112_frame {cell : FVal → Int} {res : ℝ} (hr : 0 < res) (hl : LookupOk cell res) {d : Dims}
    (hd : d.nx ≤ 2 ^ 20 ∧ d.ny ≤ 2 ^ 20 ∧ d.nz ≤ 2 ^ 20) (toGrid : V3 FVal → V3 FVal) :
    FrameOk toGrid (fun p => byAxis cell (toGrid p)) d res := by
  intro p hp
  obtain ⟨⟨x0, x1⟩, ⟨y0, y1⟩, z0, z1⟩ := hp
  obtain ⟨x, ex, hx⟩ := axis_ok hr hl hd.1 x0 x1
  obtain ⟨y, ey, hy⟩ := axis_ok hr hl hd.2.1 y0 y1
  obtain ⟨z, ez, hz⟩ := axis_ok hr hl hd.2.2 z0 z1
  refine ⟨⟨x, y, z⟩, ?_, hx, hy, hz⟩
  rw [← ex, ← ey, ← ez]

theorem C112_geometry {res : ℝ} (hr : 0 < res) {G : Geometry} {cell : FVal → Int} (hl : LookupOk cell res)
    (hG : G.cellOf = byAxis cell) {d : Dims} (hd : d.nx ≤ 2 ^ 20 ∧ d.ny ≤ 2 ^ 20 ∧ d.nz ≤ 2 ^ 20) :
    G.Ok d res := by
  intro p hp
  have := C112_frame hr hl hd id p
  rw [hG] at hp ⊢
  exact this hp

/-! ## Distance estimates -/

/-- The pair of cells chosen for a cell that contains the location up to rounding is the pair for the location. -/
theorem axisIdx_upto {n : Nat} {res x : ℝ} {i : Int} (hr : 0 < res) (h0 : 0 ≤ i) (h1 : i < n)
    (hx : |x - ((i : ℝ) + 1 / 2) * res| < res) :
    MSdf.axisIdx i n (x - ((i : ℝ) + 1 / 2) * res) = (lowerCell n (x / res), upperCell n (x / res)) := by
  set t := x / res with ht
  have hxt : x = t * res := by rw [ht]; field_simp
  have hoff : (x - ((i : ℝ) + 1 / 2) * res ≥ 0) ↔ (i : ℝ) + 1 / 2 ≤ t := by
    rw [hxt, ge_iff_le, ← sub_mul]
    constructor
    · intro h; have := nonneg_of_mul_nonneg_left h hr; linarith
    · intro h; exact mul_nonneg (by linarith) hr.le
  have hlt : |t - ((i : ℝ) + 1 / 2)| < 1 := by
    rw [hxt, ← sub_mul, abs_mul, abs_of_pos hr] at hx
    exact (mul_lt_iff_lt_one_left hr).mp hx
  rw [abs_lt] at hlt
  unfold MSdf.axisIdx upperCell lowerCell
  by_cases hc : (i : ℝ) + 1 / 2 ≤ t
  · have e : ⌊t - 1 / 2⌋ = i := by
      rw [Int.floor_eq_iff]; constructor <;> linarith
    rw [if_pos (hoff.mpr hc), e]
    split_ifs <;> simp only [Prod.mk.injEq] <;> omega
  · have e : ⌊t - 1 / 2⌋ = i - 1 := by
      rw [Int.floor_eq_iff]; push_cast; constructor <;> linarith
    rw [if_neg (fun h => hc (hoff.mp h)), e]
    split_ifs <;> simp only [Prod.mk.injEq] <;> omega

/-- The exact estimate from a cell that contains the location up to rounding is the interpolant at the location. -/
theorem estGrid_near {t : MSdf ℝ} (hr : 0 < t.res) {g : V3 ℝ} {i : Idx} (h : InBounds t.grid.dims i)
    (hx : |g.x - ((i.x : ℝ) + 1 / 2) * t.res| < t.res) (hy : |g.y - ((i.y : ℝ) + 1 / 2) * t.res| < t.res)
    (hz : |g.z - ((i.z : ℝ) + 1 / 2) * t.res| < t.res) :
    t.estGrid id id g i = some (interpAt t g) := by
  obtain ⟨⟨hx0, hx1⟩, ⟨hy0, hy1⟩, ⟨hz0, hz1⟩⟩ := h
  have ex := axisIdx_upto hr hx0 hx1 hx
  have ey := axisIdx_upto hr hy0 hy1 hy
  have ez := axisIdx_upto hr hz0 hz1 hz
  have hb := cornerIdx_inB (K := ℝ) (d := t.grid.dims) (by omega) (by omega) (by omega)
    (g.x / t.res) (g.y / t.res) (g.z / t.res)
  have hc := fun bx bY bz => corrected_some (s := t) (hb bx bY bz)
  unfold MSdf.estGrid
  simp only [MSdf.center, id]
  rw [ex, ey, ez]
  have h000 := hc false false false
  have h001 := hc false false true
  have h010 := hc false true false
  have h011 := hc false true true
  have h100 := hc true false false
  have h101 := hc true false true
  have h110 := hc true true false
  have h111 := hc true true true
  simp only [pick, if_true, Bool.false_eq_true, if_false] at h000 h001 h010 h011 h100 h101 h110 h111
  simp only [h000, h001, h010, h011, h100, h101, h110, h111]
  refine congrArg some ?_
  have := trilinear_eq t hr.ne' ⟨lowerCell t.grid.dims.nx (g.x / t.res),
    lowerCell t.grid.dims.ny (g.y / t.res), lowerCell t.grid.dims.nz (g.z / t.res)⟩ g (cornerVal t g)
  simp only [cornerVal, pick, if_true, Bool.false_eq_true, if_false, MSdf.center] at this
  exact this

/-- The interpolant at a cell centre is the corrected distance of the cell. -/
theorem interpAt_center {t : MSdf ℝ} (hr : 0 < t.res) {i : Idx} (hi : InBounds t.grid.dims i) :
    interpAt t (t.center i) = halfCellCloser t.res (t.grid.get i) := by
  obtain ⟨hx, hy, hz⟩ := center_div t hr i
  obtain ⟨⟨hx0, hx1⟩, ⟨hy0, hy1⟩, ⟨hz0, hz1⟩⟩ := hi
  unfold interpAt
  rw [trilerp_nested, hx, hy, hz]
  have ax : ∀ {n : Nat} {k : Int} (f : Int → ℝ), 0 ≤ k → k < n → axisInterp n f ((k : ℝ) + 1 / 2) = f k :=
    fun f h0 h1 => lerp_center _ _ h0 h1 f
  rw [ax _ hx0 hx1, ax _ hy0 hy1, ax _ hz0 hz1]

/-- The error of an estimate from a computed grid-frame location `q` and a computed cell `i`, against the interpolant
at the location `g` that `q` stands for. -/
theorem estimate_near {s : FSdf} {t : MSdf ℝ} (h : Stores s t) {N : ℕ} (hN : N ≤ 2 ^ 20)
    (hdim : t.grid.dims.nx ≤ N ∧ t.grid.dims.ny ≤ N ∧ t.grid.dims.nz ≤ N)
    (hlo : 1 / 2 ^ 100 ≤ t.res) (hhi : t.res ≤ 2 ^ 100) {D L : ℝ} (hD : D ≤ 2 ^ 150)
    (hv : ∀ i, InBounds t.grid.dims i → |t.grid.get i| ≤ D) (hL : 0 ≤ L) (hj : Jump t L)
    {toGrid : V3 FVal → V3 FVal} {locIdx : V3 FVal → Idx} {p : V3 FVal} {q g : V3 ℝ} {i : Idx} {κ : ℝ}
    (hi : InBounds t.grid.dims i) (hloc : locIdx p = i) (hq : toGrid p = loc q)
    (hx : |q.x - ((i.x : ℝ) + 1 / 2) * t.res| ≤ 3 / 4 * t.res)
    (hy : |q.y - ((i.y : ℝ) + 1 / 2) * t.res| ≤ 3 / 4 * t.res)
    (hz : |q.z - ((i.z : ℝ) + 1 / 2) * t.res| ≤ 3 / 4 * t.res) (hg : Within κ q g) (hκ : κ ≤ t.res / 4) :
    ∃ y : ℝ, s.estimate ieee toGrid locIdx p = some (real y, true) ∧
      |y - interpAt t g| ≤ N / 2 ^ 40 * (D + t.res / 2) + 27 * L / t.res * κ := by
  have r0 : 0 < t.res := lt_of_lt_of_le (by positivity) hlo
  obtain ⟨y, z, ey, ez, hyz⟩ := C101_accuracy_partial h hN hdim hlo hhi hD hv hi hloc hq (by linarith)
    (by linarith) (by linarith)
  rw [estGrid_near r0 hi (by linarith) (by linarith) (by linarith)] at ez
  have ez' : interpAt t q = z := Option.some.inj ez
  obtain ⟨gx, gy, gz⟩ := hg
  obtain ⟨⟨x0, x1⟩, ⟨y0, y1⟩, z0, z1⟩ := id hi
  have near : ∀ {n : ℕ} {j : Int} {u : ℝ}, 0 ≤ j → j < (n : Int) → |u - ((j : ℝ) + 1 / 2) * t.res| ≤ t.res →
      OnAxis n (u / t.res) := by
    intro n j u h0 h1 hu
    have e : u - ((j : ℝ) + 1 / 2) * t.res = (u / t.res - ((j : ℝ) + 1 / 2)) * t.res := by field_simp
    rw [e, abs_mul, abs_of_pos r0] at hu
    have hu' : |u / t.res - ((j : ℝ) + 1 / 2)| ≤ 1 := (mul_le_iff_le_one_left r0).mp hu
    rw [abs_le] at hu'
    have j0 : (0 : ℝ) ≤ j := by exact_mod_cast h0
    have j1 : (j : ℝ) + 1 ≤ n := by exact_mod_cast h1
    constructor <;> linarith [hu'.1, hu'.2]
  have shift : ∀ {u v c : ℝ}, |u - c| ≤ 3 / 4 * t.res → |u - v| ≤ κ → |v - c| ≤ t.res := by
    intro u v c h1 h2
    have := abs_sub_le v u c
    rw [abs_sub_comm v u] at this
    linarith
  have nq : OnVolume t q := ⟨near x0 x1 (by linarith), near y0 y1 (by linarith), near z0 z1 (by linarith)⟩
  have ng : OnVolume t g := ⟨near x0 x1 (shift hx gx), near y0 y1 (shift hy gy), near z0 z1 (shift hz gz)⟩
  have hl := interpAt_lip r0 hL hj (by omega) (by omega) (by omega) nq ng
  refine ⟨y, ey, ?_⟩
  rw [← ez'] at hyz
  have c0 : 0 ≤ 9 * L / t.res := by positivity
  have hl' : 9 * L / t.res * (|q.x - g.x| + |q.y - g.y| + |q.z - g.z|) ≤ 9 * L / t.res * (3 * κ) :=
    mul_le_mul_of_nonneg_left (by linarith) c0
  have e : 9 * L / t.res * (3 * κ) = 27 * L / t.res * κ := by ring
  have := abs_sub_le y (interpAt t q) (interpAt t g)
  linarith

/-- The cell found for a coordinate inside the volume. -/
theorem cell_inside {cell : FVal → Int} {res : ℝ} (hr : 0 < res) (hl : LookupOk cell res) {n N : ℕ} {M g q q' : ℝ}
    (hn : n ≤ N) (hN : N ≤ 2 ^ 20) (hM : 1 ≤ M) (hM' : M ≤ 2 ^ 39)
    (h0 : (M + N) * res / 2 ^ 48 < g) (h1 : (M + N) * res / 2 ^ 48 < n * res - g)
    (hq : |q - g| ≤ M * res / 2 ^ 49) (hq' : |q' - g| ≤ M * res / 2 ^ 49) :
    (0 ≤ cell (real q') ∧ cell (real q') < n) ∧ |q - ((cell (real q') : ℝ) + 1 / 2) * res| ≤ 3 / 4 * res := by
  have hnN : (n : ℝ) ≤ N := by exact_mod_cast hn
  have hNr : (N : ℝ) ≤ 2 ^ 20 := by exact_mod_cast hN
  have N0 : (0 : ℝ) ≤ N := by positivity
  -- in cell units
  generalize hG : g / res = G
  generalize hQ : q / res = Q
  generalize hQ' : q' / res = Q'
  have eg : g = G * res := by rw [← hG]; field_simp
  have eq : q = Q * res := by rw [← hQ]; field_simp
  have eq' : q' = Q' * res := by rw [← hQ']; field_simp
  have scale : ∀ {a b : ℝ}, a * res < b * res → a < b := fun h => lt_of_mul_lt_mul_right h hr.le
  have scale' : ∀ {a b : ℝ}, a * res ≤ b * res → a ≤ b := fun h => le_of_mul_le_mul_right h hr
  have G0 : (M + N) / 2 ^ 48 < G := scale (by rw [← eg]; linarith)
  have G1 : (M + N) / 2 ^ 48 < n - G := scale (by rw [sub_mul, ← eg]; linarith)
  have near : ∀ {x X : ℝ}, x = X * res → |x - g| ≤ M * res / 2 ^ 49 → |X - G| ≤ M / 2 ^ 49 := by
    intro x X e h
    rw [e, eg, ← sub_mul, abs_mul, abs_of_pos hr] at h
    exact scale' (by linarith)
  have dq := near eq hq
  have dq' := near eq' hq'
  have hQ1 : |Q'| ≤ N + 1 := by
    rw [abs_le] at dq' ⊢
    constructor <;> linarith
  obtain ⟨u, eu, hu⟩ := hl.1 q' (by
    rw [eq', abs_mul, abs_of_pos hr]
    exact mul_le_mul_of_nonneg_right (by linarith) hr.le)
  rw [hQ'] at hu
  rw [eu]
  have hN1 : 1 ≤ N := by
    rcases Nat.eq_zero_or_pos N with h | h
    · exfalso
      rw [h] at hnN G0 G1
      push_cast at hnN G0 G1
      linarith
    · exact h
  have N1 : (1 : ℝ) ≤ N := by exact_mod_cast hN1
  have hu' : |u - Q'| ≤ N / 2 ^ 49 + 1 / 2 ^ 100 := by linarith
  rw [abs_le] at dq dq' hu'
  obtain ⟨a1, a2⟩ := dq
  obtain ⟨b1, b2⟩ := dq'
  obtain ⟨c1, c2⟩ := hu'
  have u0 : 0 ≤ u := by linarith
  have u1 : u < n := by linarith
  refine ⟨⟨Int.floor_nonneg.mpr u0, Int.floor_lt.mpr (by push_cast; exact u1)⟩, ?_⟩
  have f1 := Int.floor_le u
  have f2 := Int.lt_floor_add_one u
  rw [eq, ← sub_mul, abs_mul, abs_of_pos hr]
  refine mul_le_mul_of_nonneg_right ?_ hr.le
  rw [abs_le]
  constructor <;> linarith

/-- No cell is found for a coordinate outside the volume. -/
theorem cell_outside {cell : FVal → Int} {res : ℝ} (hr : 0 < res) (hl : LookupOk cell res) {n N : ℕ} {M g q' : ℝ}
    (hM : 1 ≤ M) (hM' : M ≤ 2 ^ 39) (hg : |g| ≤ M * res)
    (h : g < -((M + N) * res / 2 ^ 48) ∨ n * res - g < -((M + N) * res / 2 ^ 48))
    (hq' : |q' - g| ≤ M * res / 2 ^ 49) : cell (real q') < 0 ∨ n ≤ cell (real q') := by
  have N0 : (0 : ℝ) ≤ N := by positivity
  generalize hG : g / res = G
  generalize hQ' : q' / res = Q'
  have eg : g = G * res := by rw [← hG]; field_simp
  have eq' : q' = Q' * res := by rw [← hQ']; field_simp
  have scale : ∀ {a b : ℝ}, a * res < b * res → a < b := fun h => lt_of_mul_lt_mul_right h hr.le
  have scale' : ∀ {a b : ℝ}, a * res ≤ b * res → a ≤ b := fun h => le_of_mul_le_mul_right h hr
  have dq' : |Q' - G| ≤ M / 2 ^ 49 := by
    rw [eq', eg, ← sub_mul, abs_mul, abs_of_pos hr] at hq'
    exact scale' (by linarith)
  have hGM : |G| ≤ M := by
    rw [eg, abs_mul, abs_of_pos hr] at hg
    exact scale' hg
  have hQ1 : |Q'| ≤ M + M / 2 ^ 49 := by
    have := abs_add_le (Q' - G) G
    rw [sub_add_cancel] at this
    linarith
  obtain ⟨u, eu, hu⟩ := hl.1 q' (by
    rw [eq', abs_mul, abs_of_pos hr]
    exact mul_le_mul_of_nonneg_right (by linarith) hr.le)
  rw [hQ'] at hu
  rw [eu]
  have hu' : |u - Q'| ≤ 3 / 4 * (M / 2 ^ 49) := by linarith
  rw [abs_le] at dq' hu'
  obtain ⟨b1, b2⟩ := dq'
  obtain ⟨c1, c2⟩ := hu'
  rcases h with h | h
  · left
    have G0 : G < -((M + N) / 2 ^ 48) := scale (by rw [← eg]; linarith)
    refine Int.floor_lt.mpr ?_
    push_cast
    linarith
  · right
    have G0 : n - G < -((M + N) / 2 ^ 48) := scale (by rw [sub_mul, ← eg]; linarith)
    refine Int.le_floor.mpr ?_
    push_cast
    linarith

theorem app_le_mag (A : Aff ℝ) (v : V3 ℝ) :
    |(A.app id v).x| ≤ (mag A v).x ∧ |(A.app id v).y| ≤ (mag A v).y ∧ |(A.app id v).z| ≤ (mag A v).z := by
  have h4 : ∀ a b c d : ℝ, |a + b + c + d| ≤ |a| + |b| + |c| + |d| := by
    intro a b c d
    have h1 := abs_add_le (a + b + c) d
    have h2 := abs_add_le (a + b) c
    have h3 := abs_add_le a b
    linarith
  exact ⟨h4 _ _ _ _, h4 _ _ _ _, h4 _ _ _ _⟩

/-- The computed grid-frame location. -/
theorem grid_near {f : V3 FVal → V3 FVal} {A : Aff ℝ} (hf : Accurate f A) {res M : ℝ} (hlo : 1 / 2 ^ 100 ≤ res)
    (hhi : res ≤ 2 ^ 100) (hM : 1 ≤ M) (hM' : M ≤ 2 ^ 39) {p : V3 ℝ} (hp : Reach A p (M * res)) :
    ∃ q, f (loc p) = loc q ∧ Within (M * res / 2 ^ 49) q (A.app id p) := by
  have r0 : 0 < res := lt_of_lt_of_le (by positivity) hlo
  obtain ⟨q, eq, hq⟩ := hf p (M * res) hp (by
    calc M * res ≤ 2 ^ 39 * 2 ^ 100 := by gcongr
      _ ≤ 2 ^ 200 := by norm_num)
  have hle : M * res / 2 ^ 50 + 1 / 2 ^ 200 ≤ M * res / 2 ^ 49 := by
    have : res ≤ M * res := by nlinarith
    linarith
  exact ⟨q, eq, hq.1.trans hle, hq.2.1.trans hle, hq.2.2.trans hle⟩

/-- C112: `EstimateDistance` of a grid with any pose, in IEEE arithmetic.  `M` is the distance, in cells, of the
location and of the grid's origin: the terms that make up the grid-frame location are at most `M` cells.  A location
inside the volume, not closer to a face than rounding can see, gets a finite estimate close to the estimate in exact
arithmetic; a location outside the volume is reported as outside. -/
theorem C112_estimate {s : FSdf} {t : MSdf ℝ} (h : Stores s t) {N : ℕ} (hN : N ≤ 2 ^ 20)
    (hdim : t.grid.dims.nx ≤ N ∧ t.grid.dims.ny ≤ N ∧ t.grid.dims.nz ≤ N)
    (hlo : 1 / 2 ^ 100 ≤ t.res) (hhi : t.res ≤ 2 ^ 100) {D L : ℝ} (hD : D ≤ 2 ^ 150)
    (hv : ∀ i, InBounds t.grid.dims i → |t.grid.get i| ≤ D) (hL : 0 ≤ L) (hj : Jump t L)
    {toGrid toGrid' : V3 FVal → V3 FVal} (ha : Accurate toGrid t.inv) (ha' : Accurate toGrid' t.inv)
    {cell : FVal → Int} (hl : LookupOk cell t.res) {p : V3 ℝ} {M : ℝ} (hM : 1 ≤ M) (hM' : M ≤ 2 ^ 39)
    (hp : Reach t.inv p (M * t.res)) :
    ((∀ f ∈ faces t.size (t.toGrid p), (M + N) * t.res / 2 ^ 48 < f) →
      ∃ y z : ℝ, s.estimate ieee toGrid (fun p => byAxis cell (toGrid' p)) (loc p) = some (real y, true) ∧
        t.estimate p = some (z, true) ∧ |y - z| ≤ N / 2 ^ 40 * (D + t.res / 2) + M / 2 ^ 44 * L) ∧
    ((∃ f ∈ faces t.size (t.toGrid p), f < -((M + N) * t.res / 2 ^ 48)) →
      s.estimate ieee toGrid (fun p => byAxis cell (toGrid' p)) (loc p) = some (s.grid.oob, false) ∧
        t.estimate p = some (t.grid.oob, false)) := by
  have r0 : 0 < t.res := lt_of_lt_of_le (by positivity) hlo
  obtain ⟨q, eq, qx, qy, qz⟩ := grid_near ha hlo hhi hM hM' hp
  obtain ⟨q', eq', qx', qy', qz'⟩ := grid_near ha' hlo hhi hM hM' hp
  obtain ⟨mx, my, mz⟩ := app_le_mag t.inv p
  have m0 : 0 < (M + N) * t.res / 2 ^ 48 := by positivity
  have hg : t.inv.app id p = t.toGrid p := rfl
  rw [hg] at qx qy qz qx' qy' qz' mx my mz
  have el : byAxis cell (toGrid' (loc p)) = ⟨cell (real q'.x), cell (real q'.y), cell (real q'.z)⟩ := by
    rw [eq']; rfl
  simp only [faces, List.mem_cons, List.not_mem_nil, or_false, forall_eq_or_imp, forall_eq, exists_eq_or_imp,
    exists_eq_left, MSdf.size]
  constructor
  · rintro ⟨x0, x1, y0, y1, z0, z1⟩
    obtain ⟨ix, cx⟩ := cell_inside r0 hl hdim.1 hN hM hM' x0 x1 qx qx'
    obtain ⟨iy, cy⟩ := cell_inside r0 hl hdim.2.1 hN hM hM' y0 y1 qy qy'
    obtain ⟨iz, cz⟩ := cell_inside r0 hl hdim.2.2 hN hM hM' z0 z1 qz qz'
    obtain ⟨y, ey, hy⟩ := estimate_near h hN hdim hlo hhi hD hv hL hj (toGrid := toGrid)
      (locIdx := fun p => byAxis cell (toGrid' p)) (p := loc p) (g := t.toGrid p)
      (i := ⟨cell (real q'.x), cell (real q'.y), cell (real q'.z)⟩) ⟨ix, iy, iz⟩ el eq cx cy cz ⟨qx, qy, qz⟩ (by
        have : M * t.res ≤ 2 ^ 39 * t.res := by gcongr
        linarith)
    refine ⟨y, interpAt t (t.toGrid p), ey, ?_, hy.trans ?_⟩
    · refine (C20_trilinear t r0 p).1 ?_
      have cell' : ∀ {g : ℝ} {n : ℕ}, 0 < g → 0 < (n : ℝ) * t.res - g → 0 ≤ ⌊g / t.res⌋ ∧ ⌊g / t.res⌋ < (n : Int) := by
        intro g n h0 h1
        refine ⟨Int.floor_nonneg.mpr (by positivity), Int.floor_lt.mpr ?_⟩
        push_cast
        rw [div_lt_iff₀ r0]
        linarith
      exact ⟨cell' (by linarith) (by linarith), cell' (by linarith) (by linarith), cell' (by linarith) (by linarith)⟩
    · have e : 27 * L / t.res * (M * t.res / 2 ^ 49) = 27 * (M * L / 2 ^ 49) := by field_simp
      rw [e]
      have : 0 ≤ M * L := by positivity
      linarith
  · intro hf
    have mxy : |(t.toGrid p).x| ≤ M * t.res ∧ |(t.toGrid p).y| ≤ M * t.res ∧ |(t.toGrid p).z| ≤ M * t.res :=
      ⟨mx.trans hp.1, my.trans hp.2.1, mz.trans hp.2.2⟩
    have out : ∀ {n : ℕ} {g q' : ℝ}, |g| ≤ M * t.res → |q' - g| ≤ M * t.res / 2 ^ 49 →
        (g < -((M + N) * t.res / 2 ^ 48) ∨ n * t.res - g < -((M + N) * t.res / 2 ^ 48)) →
        (¬ (0 ≤ cell (real q') ∧ cell (real q') < n)) ∧ ¬ (0 ≤ ⌊g / t.res⌋ ∧ ⌊g / t.res⌋ < (n : Int)) := by
      intro n g q' h1 h2 h3
      constructor
      · have := cell_outside r0 hl hM hM' h1 h3 h2
        omega
      · rintro ⟨a, b⟩
        have a' := Int.floor_nonneg.mp a
        have b' := Int.floor_lt.mp b
        rw [le_div_iff₀ r0] at a'
        push_cast at b'
        rw [div_lt_iff₀ r0] at b'
        rcases h3 with h3 | h3 <;> linarith
    have key : (¬ InBounds t.grid.dims (byAxis cell (toGrid' (loc p)))) ∧ ¬ InBounds t.grid.dims (t.locIdx p) := by
      rw [el]
      rcases hf with hf | hf | hf | hf | hf | hf
      · obtain ⟨a, b⟩ := out (n := t.grid.dims.nx) mxy.1 qx' (Or.inl hf)
        exact ⟨fun i => a i.1, fun i => b i.1⟩
      · obtain ⟨a, b⟩ := out (n := t.grid.dims.nx) mxy.1 qx' (Or.inr hf)
        exact ⟨fun i => a i.1, fun i => b i.1⟩
      · obtain ⟨a, b⟩ := out (n := t.grid.dims.ny) mxy.2.1 qy' (Or.inl hf)
        exact ⟨fun i => a i.2.1, fun i => b i.2.1⟩
      · obtain ⟨a, b⟩ := out (n := t.grid.dims.ny) mxy.2.1 qy' (Or.inr hf)
        exact ⟨fun i => a i.2.1, fun i => b i.2.1⟩
      · obtain ⟨a, b⟩ := out (n := t.grid.dims.nz) mxy.2.2 qz' (Or.inl hf)
        exact ⟨fun i => a i.2.2, fun i => b i.2.2⟩
      · obtain ⟨a, b⟩ := out (n := t.grid.dims.nz) mxy.2.2 qz' (Or.inr hf)
        exact ⟨fun i => a i.2.2, fun i => b i.2.2⟩
    refine ⟨?_, (C20_trilinear t r0 p).2 key.2⟩
    unfold estimate
    rw [h.1, if_neg (fun hb => key.1 (inB_iff_spec.mp hb))]

/-! ## From the grid frame to the world frame and back -/

theorem mul_le_two {a v b : ℝ} (ha : |a| ≤ 2) (hv : |v| ≤ b) : |a * v| ≤ 2 * b := by
  rw [abs_mul]
  have := abs_nonneg v
  have := abs_nonneg a
  nlinarith

/-- One coordinate of the way back. -/
theorem row_trip {A : Aff ℝ} {r u c w : V3 ℝ} {β b e τ : ℝ} (hr : RowSmall r) (hu : RowNear A r u)
    (hs : |r.dot A.t + β| ≤ τ) (hc : |c.x| ≤ b ∧ |c.y| ≤ b ∧ |c.z| ≤ b) (hw : Within e w (A.app id c)) :
    |r.x * w.x + r.y * w.y + r.z * w.z + β - u.dot c| ≤ 3 * b / 2 ^ 48 + τ + 6 * e := by
  obtain ⟨u1, u2, u3⟩ := hu
  obtain ⟨c1, c2, c3⟩ := hc
  obtain ⟨w1, w2, w3⟩ := hw
  obtain ⟨r1, r2, r3⟩ := hr
  set k1 := r.x * A.rx.x + r.y * A.ry.x + r.z * A.rz.x - u.x with hk1
  set k2 := r.x * A.rx.y + r.y * A.ry.y + r.z * A.rz.y - u.y with hk2
  set k3 := r.x * A.rx.z + r.y * A.ry.z + r.z * A.rz.z - u.z with hk3
  set e1 := w.x - (A.app id c).x with he1
  set e2 := w.y - (A.app id c).y with he2
  set e3 := w.z - (A.app id c).z with he3
  have id' : r.x * w.x + r.y * w.y + r.z * w.z + β - u.dot c =
      k1 * c.x + k2 * c.y + k3 * c.z + (r.dot A.t + β) + r.x * e1 + r.y * e2 + r.z * e3 := by
    simp only [hk1, hk2, hk3, he1, he2, he3, Aff.app, V3.dot, id]
    ring
  rw [id']
  have prod : ∀ {k v : ℝ}, |k| ≤ 1 / 2 ^ 48 → |v| ≤ b → |k * v| ≤ b / 2 ^ 48 := by
    intro k v hk hv
    rw [abs_mul]
    calc |k| * |v| ≤ 1 / 2 ^ 48 * b := mul_le_mul hk hv (abs_nonneg _) (by positivity)
      _ = b / 2 ^ 48 := by ring
  have p1 := prod u1 c1
  have p2 := prod u2 c2
  have p3 := prod u3 c3
  have q1 := mul_le_two r1 w1
  have q2 := mul_le_two r2 w2
  have q3 := mul_le_two r3 w3
  have a1 := abs_add_le (k1 * c.x + k2 * c.y + k3 * c.z + (r.dot A.t + β) + r.x * e1 + r.y * e2) (r.z * e3)
  have a2 := abs_add_le (k1 * c.x + k2 * c.y + k3 * c.z + (r.dot A.t + β) + r.x * e1) (r.y * e2)
  have a3 := abs_add_le (k1 * c.x + k2 * c.y + k3 * c.z + (r.dot A.t + β)) (r.x * e1)
  have a4 := abs_add_le (k1 * c.x + k2 * c.y + k3 * c.z) (r.dot A.t + β)
  have a5 := abs_add_le (k1 * c.x + k2 * c.y) (k3 * c.z)
  have a6 := abs_add_le (k1 * c.x) (k2 * c.y)
  linarith

/-- Bounds for the terms of a product. -/
theorem reach_of {A : Aff ℝ} {v : V3 ℝ} {b τ M : ℝ} (h1 : RowSmall A.rx) (h2 : RowSmall A.ry) (h3 : RowSmall A.rz)
    (hv : |v.x| ≤ b ∧ |v.y| ≤ b ∧ |v.z| ≤ b) (ht : |A.t.x| ≤ τ ∧ |A.t.y| ≤ τ ∧ |A.t.z| ≤ τ)
    (hM : 6 * b + τ ≤ M) : Reach A v M := by
  have row : ∀ {r : V3 ℝ} {t : ℝ}, RowSmall r → |t| ≤ τ → |r.x * v.x| + |r.y * v.y| + |r.z * v.z| + |t| ≤ M := by
    intro r t hr ht
    have p1 := mul_le_two hr.1 hv.1
    have p2 := mul_le_two hr.2.1 hv.2.1
    have p3 := mul_le_two hr.2.2 hv.2.2
    linarith
  exact ⟨row h1 ht.1, row h2 ht.2.1, row h3 ht.2.2⟩

/-- C112: for a grid whose origin is at most `M` cells away, transforming a location at most `M` cells from the corner
of the grid to the world frame and back moves it by at most `M / 2 ^ 42` cells. -/
theorem C112_trip {A B : Aff ℝ} (hAB : NearInverse A B) {res M : ℝ} (hlo : 1 / 2 ^ 100 ≤ res) (hhi : res ≤ 2 ^ 100)
    (hM : 1 ≤ M) (hM' : M ≤ 2 ^ 30) (hT : OriginWithin A (M * res)) {toGrid toWorld : V3 FVal → V3 FVal}
    (hg : Accurate toGrid B) (hw : Accurate toWorld A) {c : V3 ℝ}
    (hc : |c.x| ≤ M * res ∧ |c.y| ≤ M * res ∧ |c.z| ≤ M * res) :
    ∃ p c', toWorld (loc c) = loc p ∧ toGrid (loc p) = loc c' ∧ Reach B p (64 * M * res) ∧
      Within (M * res / 2 ^ 42) c' c := by
  have r0 : 0 < res := lt_of_lt_of_le (by positivity) hlo
  have Mr : 0 < M * res := by positivity
  obtain ⟨sA1, sA2, sA3, sB1, sB2, sB3⟩ := hAB.small
  have reachA : Reach A c (8 * M * res) := reach_of sA1 sA2 sA3 hc hT (by linarith)
  obtain ⟨p, ep, hp⟩ := grid_near hw hlo hhi (M := 8 * M) (by linarith) (by linarith) reachA
  obtain ⟨m1, m2, m3⟩ := app_le_mag A c
  obtain ⟨t1, t2, t3⟩ := hT
  have pb : ∀ {a b m : ℝ}, |a - b| ≤ 8 * M * res / 2 ^ 49 → |b| ≤ m → m ≤ 8 * M * res → |a| ≤ 9 * (M * res) := by
    intro a b m h1 h2 h3
    have := abs_add_le (a - b) b
    rw [sub_add_cancel] at this
    linarith
  have hpb : |p.x| ≤ 9 * (M * res) ∧ |p.y| ≤ 9 * (M * res) ∧ |p.z| ≤ 9 * (M * res) :=
    ⟨pb hp.1 m1 reachA.1, pb hp.2.1 m2 reachA.2.1, pb hp.2.2 m3 reachA.2.2⟩
  have tb : ∀ {r : V3 ℝ} {β : ℝ}, RowSmall r → |r.dot A.t + β| ≤ (|A.t.x| + |A.t.y| + |A.t.z|) / 2 ^ 48 +
      1 / 2 ^ 190 → |β| ≤ 7 * (M * res) ∧ |r.dot A.t + β| ≤ 4 * (M * res) / 2 ^ 48 := by
    intro r β hr h
    have small : res ≤ M * res := by nlinarith
    have p1 := mul_le_two hr.1 t1
    have p2 := mul_le_two hr.2.1 t2
    have p3 := mul_le_two hr.2.2 t3
    have hd : |r.dot A.t| ≤ 6 * (M * res) := by
      have a1 := abs_add_le (r.x * A.t.x + r.y * A.t.y) (r.z * A.t.z)
      have a2 := abs_add_le (r.x * A.t.x) (r.y * A.t.y)
      unfold V3.dot
      linarith
    have := abs_sub_le (r.dot A.t + β) 0 (r.dot A.t)
    rw [sub_zero, zero_sub, abs_neg, add_sub_cancel_left] at this
    constructor <;> linarith
  obtain ⟨s1, s2, s3⟩ := hAB.shift
  obtain ⟨b1, d1⟩ := tb sB1 s1
  obtain ⟨b2, d2⟩ := tb sB2 s2
  obtain ⟨b3, d3⟩ := tb sB3 s3
  have reachB : Reach B p (64 * M * res) := reach_of sB1 sB2 sB3 hpb ⟨b1, b2, b3⟩ (by linarith)
  obtain ⟨c', ec, k1, k2, k3⟩ := grid_near hg hlo hhi (M := 64 * M) (by linarith) (by linarith) reachB
  have l1 := row_trip sB1 hAB.rows.1 d1 hc hp
  have l2 := row_trip sB2 hAB.rows.2.1 d2 hc hp
  have l3 := row_trip sB3 hAB.rows.2.2 d3 hc hp
  refine ⟨p, c', ep, ec, reachB, ?_, ?_, ?_⟩
  · have := abs_sub_le c'.x (B.app id p).x c.x
    have e : (B.app id p).x - c.x = B.rx.x * p.x + B.rx.y * p.y + B.rx.z * p.z + B.t.x - V3.dot ⟨1, 0, 0⟩ c := by
      simp [Aff.app, V3.dot]
    rw [e] at this
    linarith
  · have := abs_sub_le c'.y (B.app id p).y c.y
    have e : (B.app id p).y - c.y = B.ry.x * p.x + B.ry.y * p.y + B.ry.z * p.z + B.t.y - V3.dot ⟨0, 1, 0⟩ c := by
      simp [Aff.app, V3.dot]
    rw [e] at this
    linarith
  · have := abs_sub_le c'.z (B.app id p).z c.z
    have e : (B.app id p).z - c.z = B.rz.x * p.x + B.rz.y * p.y + B.rz.z * p.z + B.t.z - V3.dot ⟨0, 0, 1⟩ c := by
      simp [Aff.app, V3.dot]
    rw [e] at this
    linarith

/-- C112: the projection into the volume (C107) for grids with any pose: when the origin is at most `2 ^ 26` cells
away, the projection of every location with finite coordinates is a location at more than the requested distance
from every face of the volume. -/
theorem C112_projection {clamp : FVal → FVal → FVal → FVal} (hclamp : ClampOk clamp) {A B : Aff ℝ}
    (hAB : NearInverse A B) {size : V3 ℝ} {res d : ℝ} (hlo : 1 / 2 ^ 100 ≤ res) (hhi : res ≤ 2 ^ 100) (h0 : 0 ≤ d)
    (hsize : size.x ≤ 2 ^ 21 * res ∧ size.y ≤ 2 ^ 21 * res ∧ size.z ≤ 2 ^ 21 * res)
    (hroom : 2 * d + res / 1000 ≤ size.x ∧ 2 * d + res / 1000 ≤ size.y ∧ 2 * d + res / 1000 ≤ size.z)
    (hT : OriginWithin A (2 ^ 26 * res)) {toGrid toWorld : V3 FVal → V3 FVal} (hg : Accurate toGrid B)
    (hw : Accurate toWorld A) {p : V3 ℝ} (hp : Reach B p (2 ^ 200)) :
    ∃ q : V3 ℝ, toGrid (projectInto ieee clamp toGrid toWorld size res (loc p) (real d)) = loc q ∧
      ∀ f ∈ faces size q, d < f := by
  have r0 : 0 < res := lt_of_lt_of_le (by positivity) hlo
  obtain ⟨g, eg, -⟩ := hg p _ hp le_rfl
  refine C107_inside_partial hclamp hlo hhi h0 hsize hroom ?_ (g := ⟨g.x, g.y, g.z⟩) eg
  intro c hf
  simp only [faces, List.mem_cons, List.not_mem_nil, or_false, forall_eq_or_imp, forall_eq] at hf
  obtain ⟨a1, a2, b1, b2, c1, c2⟩ := hf
  obtain ⟨p', c', e1, e2, -, k1, k2, k3⟩ := C112_trip hAB hlo hhi (M := 2 ^ 26) (by norm_num) (by norm_num) hT hg hw
    (c := c)
    ⟨by rw [abs_of_nonneg a1]; linarith, by rw [abs_of_nonneg b1]; linarith, by rw [abs_of_nonneg c1]; linarith⟩
  refine ⟨c', ?_, ?_, ?_, ?_⟩
  · change toGrid (toWorld (loc c)) = loc c'
    rw [e1, e2]
  · linarith
  · linarith
  · linarith

/-! ## Cell centres -/

/-- A coordinate within a quarter of a cell of the centre of a cell is found to be in that cell. -/
theorem cell_center {cell : FVal → Int} {res : ℝ} (hr : 0 < res) (hl : LookupOk cell res) {x : ℝ} {i : Int} {N : ℕ}
    (hN : N ≤ 2 ^ 20) (hi : 0 ≤ i ∧ i < N) (hx : |x - ((i : ℝ) + 1 / 2) * res| ≤ res / 4) : cell (real x) = i := by
  have i0 : (0 : ℝ) ≤ i := by exact_mod_cast hi.1
  have i1 : (i : ℝ) + 1 ≤ N := by exact_mod_cast hi.2
  have hNr : (N : ℝ) ≤ 2 ^ 20 := by exact_mod_cast hN
  generalize hX : x / res = X
  have ex : x = X * res := by rw [← hX]; field_simp
  have hd : |X - ((i : ℝ) + 1 / 2)| ≤ 1 / 4 := by
    rw [ex, ← sub_mul, abs_mul, abs_of_pos hr] at hx
    exact le_of_mul_le_mul_right (by linarith) hr
  rw [abs_le] at hd
  have hb : |X| ≤ 2 ^ 21 := by rw [abs_le]; constructor <;> linarith
  obtain ⟨u, eu, hu⟩ := hl.1 x (by
    rw [ex, abs_mul, abs_of_pos hr]
    exact mul_le_mul_of_nonneg_right (by linarith) hr.le)
  rw [hX] at hu
  have hu' : |u - X| ≤ 1 / 8 := by linarith
  rw [abs_le] at hu'
  rw [eu, Int.floor_eq_iff]
  constructor <;> linarith

/-- The computed centre of a cell. -/
theorem center_near {s : FSdf} {t : MSdf ℝ} (hres : s.res = t.res) (hlo : 1 / 2 ^ 100 ≤ t.res) (hhi : t.res ≤ 2 ^ 100)
    {N : ℕ} (hN : N ≤ 2 ^ 20) {i : Idx}
    (hi : (0 ≤ i.x ∧ i.x < N) ∧ (0 ≤ i.y ∧ i.y < N) ∧ 0 ≤ i.z ∧ i.z < N) :
    ∃ c, s.center ieee i = loc c ∧ Within (N * t.res / 2 ^ 52) c (t.center i) := by
  have r0 : 0 < t.res := lt_of_lt_of_le (by positivity) hlo
  have ax : ∀ {j : Int}, (0 ≤ j ∧ j < N) → ∃ c : ℝ, Fl.mul ieee (real t.res) (real ((j : ℝ) + 1 / 2)) = real c ∧
      |c - ((j : ℝ) + 1 / 2) * t.res| ≤ N * t.res / 2 ^ 52 := by
    intro j hj
    have j0 : (0 : ℝ) ≤ j := by exact_mod_cast hj.1
    have j1 : (j : ℝ) + 1 ≤ N := by exact_mod_cast hj.2
    have hNr : (N : ℝ) ≤ 2 ^ 20 := by exact_mod_cast hN
    have p0 : 0 ≤ t.res * ((j : ℝ) + 1 / 2) := by positivity
    have p1 : t.res * ((j : ℝ) + 1 / 2) ≤ N * t.res := by nlinarith
    have p2 : N * t.res ≤ 2 ^ 20 * t.res := by gcongr
    have p3 : t.res ≤ N * t.res := by nlinarith
    obtain ⟨c, ec, hc⟩ := round_200 (z := t.res * ((j : ℝ) + 1 / 2)) (by rw [abs_of_nonneg p0]; linarith)
    rw [abs_of_nonneg p0] at hc
    refine ⟨c, by rw [mul_real, ec], ?_⟩
    rw [mul_comm ((j : ℝ) + 1 / 2)]
    linarith
  obtain ⟨x, ex, hx⟩ := ax hi.1
  obtain ⟨y, ey, hy⟩ := ax hi.2.1
  obtain ⟨z, ez, hz⟩ := ax hi.2.2
  refine ⟨⟨x, y, z⟩, ?_, hx, hy, hz⟩
  unfold center
  rw [hres, ex, ey, ez]; rfl

/-- C112: cells and their centres.  The world location reported for a cell is found to be in that cell, and the
estimate there is the corrected distance of the cell, up to rounding.  `M` bounds the size of the grid and the
distance of its origin in cells. -/
theorem C112_center {s : FSdf} {t : MSdf ℝ} (h : Stores s t) {N : ℕ} (hN : N ≤ 2 ^ 20)
    (hdim : t.grid.dims.nx ≤ N ∧ t.grid.dims.ny ≤ N ∧ t.grid.dims.nz ≤ N)
    (hlo : 1 / 2 ^ 100 ≤ t.res) (hhi : t.res ≤ 2 ^ 100) {D L : ℝ} (hD : D ≤ 2 ^ 150)
    (hv : ∀ i, InBounds t.grid.dims i → |t.grid.get i| ≤ D) (hL : 0 ≤ L) (hj : Jump t L)
    (hAB : NearInverse t.origin t.inv) {M : ℝ} (hM : N ≤ M) (hM' : M ≤ 2 ^ 30)
    (hT : OriginWithin t.origin (M * t.res)) {toGrid toWorld : V3 FVal → V3 FVal} (ha : Accurate toGrid t.inv)
    (hw : Accurate toWorld t.origin) {cell : FVal → Int} (hl : LookupOk cell t.res) {i : Idx}
    (hi : InBounds t.grid.dims i) :
    byAxis cell (toGrid (toWorld (s.center ieee i))) = i ∧
    ∃ y : ℝ, s.estimate ieee toGrid (fun p => byAxis cell (toGrid p)) (toWorld (s.center ieee i)) =
        some (real y, true) ∧
      |y - halfCellCloser t.res (t.grid.get i)| ≤ N / 2 ^ 40 * (D + t.res / 2) + M / 2 ^ 36 * L := by
  have r0 : 0 < t.res := lt_of_lt_of_le (by positivity) hlo
  obtain ⟨⟨x0, x1⟩, ⟨y0, y1⟩, z0, z1⟩ := id hi
  have hi' : (0 ≤ i.x ∧ i.x < N) ∧ (0 ≤ i.y ∧ i.y < N) ∧ 0 ≤ i.z ∧ i.z < N :=
    ⟨⟨x0, by omega⟩, ⟨y0, by omega⟩, z0, by omega⟩
  obtain ⟨c, ec, cx, cy, cz⟩ := center_near h.2.1 hlo hhi hN hi'
  have hN1 : 1 ≤ N := by omega
  have N1 : (1 : ℝ) ≤ N := by exact_mod_cast hN1
  have hMr : N * t.res ≤ M * t.res := by gcongr
  have cb : ∀ {a : ℝ} {j : Int}, (0 ≤ j ∧ j < N) → |a - ((j : ℝ) + 1 / 2) * t.res| ≤ N * t.res / 2 ^ 52 →
      |a| ≤ M * t.res := by
    intro a j hj ha
    have j0 : (0 : ℝ) ≤ j := by exact_mod_cast hj.1
    have j1 : (j : ℝ) + 1 ≤ N := by exact_mod_cast hj.2
    have hb : |((j : ℝ) + 1 / 2) * t.res| ≤ (N - 1 / 2) * t.res := by
      rw [abs_of_nonneg (by positivity)]
      gcongr
      linarith
    have hNr : (N : ℝ) ≤ 2 ^ 20 := by exact_mod_cast hN
    have : N * t.res ≤ 2 ^ 20 * t.res := by gcongr
    have := abs_add_le (a - ((j : ℝ) + 1 / 2) * t.res) (((j : ℝ) + 1 / 2) * t.res)
    rw [sub_add_cancel] at this
    linarith
  obtain ⟨p, c', ep, eg, -, kx, ky, kz⟩ := C112_trip hAB hlo hhi (M := M) (by linarith) hM' hT ha hw (c := c)
    ⟨cb hi'.1 cx, cb hi'.2.1 cy, cb hi'.2.2 cz⟩
  have hM2 : M * t.res ≤ 2 ^ 30 * t.res := by gcongr
  have near : ∀ {a b d : ℝ}, |a - b| ≤ M * t.res / 2 ^ 42 → |b - d| ≤ N * t.res / 2 ^ 52 →
      |a - d| ≤ M * t.res / 2 ^ 41 := by
    intro a b d h1 h2
    have := abs_sub_le a b d
    have : 0 ≤ M * t.res := mul_nonneg (by linarith) r0.le
    linarith
  have gx := near kx cx
  have gy := near ky cy
  have gz := near kz cz
  have fx : cell (real c'.x) = i.x := cell_center r0 hl hN hi'.1 (gx.trans (by linarith))
  have fy : cell (real c'.y) = i.y := cell_center r0 hl hN hi'.2.1 (gy.trans (by linarith))
  have fz : cell (real c'.z) = i.z := cell_center r0 hl hN hi'.2.2 (gz.trans (by linarith))
  have el : byAxis cell (toGrid (toWorld (s.center ieee i))) = i := by
    rw [ec, ep, eg]
    unfold byAxis loc
    dsimp only
    rw [fx, fy, fz]
  refine ⟨el, ?_⟩
  obtain ⟨y, ey, hy⟩ := estimate_near h hN hdim hlo hhi hD hv hL hj (toGrid := toGrid)
    (locIdx := fun p => byAxis cell (toGrid p)) (p := toWorld (s.center ieee i)) (g := t.center i) (q := c')
    hi el (by rw [ec, ep, eg]) (gx.trans (by linarith)) (gy.trans (by linarith)) (gz.trans (by linarith))
    ⟨gx, gy, gz⟩ (by linarith)
  rw [interpAt_center r0 hi] at hy
  refine ⟨y, ey, hy.trans ?_⟩
  have e : 27 * L / t.res * (M * t.res / 2 ^ 41) = 27 * (M * L / 2 ^ 41) := by field_simp
  rw [e]
  have : 0 ≤ M * L := mul_nonneg (by linarith) hL
  linarith

/-! ## The stored inverse -/

/-- The columns of the rotation matrix are orthonormal up to `2 ^ -48`. -/
def NearRotation (A : Aff ℝ) : Prop :=
  RowNear A ⟨A.rx.x, A.ry.x, A.rz.x⟩ ⟨1, 0, 0⟩ ∧ RowNear A ⟨A.rx.y, A.ry.y, A.rz.y⟩ ⟨0, 1, 0⟩ ∧
    RowNear A ⟨A.rx.z, A.ry.z, A.rz.z⟩ ⟨0, 0, 1⟩

theorem column_small {a b c : ℝ} (h : |a * a + b * b + c * c - 1| ≤ 1 / 2 ^ 48) :
    |a| ≤ 1 + 1 / 2 ^ 40 ∧ |b| ≤ 1 + 1 / 2 ^ 40 ∧ |c| ≤ 1 + 1 / 2 ^ 40 := by
  have := (abs_le.mp h).2
  refine ⟨?_, ?_, ?_⟩ <;> refine abs_le_of_sq_le_sq ?_ (by norm_num) <;> norm_num at this ⊢ <;> nlinarith

/-- C112: the inverse that Eigen computes for an isometry undoes it up to rounding. -/
theorem C112_inverse {A : Aff ℝ} (hA : NearRotation A) (hT : OriginWithin A (2 ^ 190)) :
    ∃ B : Aff ℝ, isoInverse ieee A = (B.rx, B.ry, B.rz, loc B.t) ∧ NearInverse A B := by
  obtain ⟨h1, h2, h3⟩ := hA
  have c1 := column_small h1.1
  have c2 := column_small h2.2.1
  have c3 := column_small h3.2.2
  have up : ∀ {a : ℝ}, |a| ≤ 1 + 1 / 2 ^ 40 → |a| ≤ 2 := fun h => by norm_num at h ⊢; linarith
  obtain ⟨t1, t2, t3⟩ := hT
  have dot : ∀ {r : V3 ℝ}, (|r.x| ≤ 1 + 1 / 2 ^ 40 ∧ |r.y| ≤ 1 + 1 / 2 ^ 40 ∧ |r.z| ≤ 1 + 1 / 2 ^ 40) →
      ∃ β : ℝ, neg (dotApp ieee r A.t) = real β ∧
        |r.dot A.t + β| ≤ (|A.t.x| + |A.t.y| + |A.t.z|) / 2 ^ 48 + 1 / 2 ^ 190 := by
    rintro r ⟨r1, r2, r3⟩
    have prod : ∀ {a v : ℝ}, |a| ≤ 1 + 1 / 2 ^ 40 → |a * v| ≤ 2 * |v| := by
      intro a v h
      rw [abs_mul]
      exact mul_le_mul_of_nonneg_right (up h) (abs_nonneg v)
    have p1 := prod (v := A.t.x) r1
    have p2 := prod (v := A.t.y) r2
    have p3 := prod (v := A.t.z) r3
    have n1 := abs_nonneg A.t.x
    have n2 := abs_nonneg A.t.y
    have n3 := abs_nonneg A.t.z
    generalize hmx : r.x * A.t.x = mx at p1
    generalize hmy : r.y * A.t.y = my at p2
    generalize hmz : r.z * A.t.z = mz at p3
    obtain ⟨x, ex, hx⟩ := round_200 (z := mx) (by linarith)
    obtain ⟨y, ey, hy⟩ := round_200 (z := my) (by linarith)
    obtain ⟨z, ez, hz⟩ := round_200 (z := mz) (by linarith)
    have tri : ∀ {a b : ℝ}, |a| ≤ |a - b| + |b| := by
      intro a b; have := abs_add_le (a - b) b; rwa [sub_add_cancel] at this
    have bx := tri (a := x) (b := mx)
    have bY := tri (a := y) (b := my)
    have bz := tri (a := z) (b := mz)
    have bxy := abs_add_le x y
    obtain ⟨c, ec, hc⟩ := round_200 (z := x + y) (by linarith)
    have bc := tri (a := c) (b := x + y)
    have bcz := abs_add_le c z
    obtain ⟨d, ed, hd⟩ := round_200 (z := c + z) (by linarith)
    refine ⟨-d, ?_, ?_⟩
    · unfold dotApp
      simp only [mul_real, hmx, hmy, hmz]
      rw [ex, ey, ez, add_real, ec, add_real, ed]
      unfold neg real
      simp
    · have split : r.dot A.t + -d = -((d - (c + z)) + (c - (x + y)) + (x - mx) + (y - my) + (z - mz)) := by
        unfold V3.dot
        rw [hmx, hmy, hmz]; ring
      rw [split, abs_neg]
      have a2 := abs_add_le ((d - (c + z)) + (c - (x + y)) + (x - mx) + (y - my)) (z - mz)
      have a3 := abs_add_le ((d - (c + z)) + (c - (x + y)) + (x - mx)) (y - my)
      have a4 := abs_add_le ((d - (c + z)) + (c - (x + y))) (x - mx)
      have a5 := abs_add_le (d - (c + z)) (c - (x + y))
      linarith
  obtain ⟨b1, e1, s1⟩ := dot (r := ⟨A.rx.x, A.ry.x, A.rz.x⟩) c1
  obtain ⟨b2, e2, s2⟩ := dot (r := ⟨A.rx.y, A.ry.y, A.rz.y⟩) c2
  obtain ⟨b3, e3, s3⟩ := dot (r := ⟨A.rx.z, A.ry.z, A.rz.z⟩) c3
  refine ⟨⟨⟨A.rx.x, A.ry.x, A.rz.x⟩, ⟨A.rx.y, A.ry.y, A.rz.y⟩, ⟨A.rx.z, A.ry.z, A.rz.z⟩, ⟨b1, b2, b3⟩⟩, ?_, ?_⟩
  · unfold isoInverse loc
    dsimp only
    rw [e1, e2, e3]
  · exact {
      small := ⟨⟨up c1.1, up c2.1, up c3.1⟩, ⟨up c1.2.1, up c2.2.1, up c3.2.1⟩, ⟨up c1.2.2, up c2.2.2, up c3.2.2⟩,
        ⟨up c1.1, up c1.2.1, up c1.2.2⟩, ⟨up c2.1, up c2.2.1, up c2.2.2⟩, ⟨up c3.1, up c3.2.1, up c3.2.2⟩⟩
      rows := ⟨h1, h2, h3⟩
      shift := ⟨s1, s2, s3⟩ }

/-- Neighbouring corrected distances differ by at most twice the largest one. -/
theorem jump_of_bound {t : MSdf ℝ} (hr : 0 < t.res) {D : ℝ} (hv : ∀ i, InBounds t.grid.dims i → |t.grid.get i| ≤ D) :
    Jump t (2 * (D + t.res / 2)) := by
  have one : ∀ i, InBounds t.grid.dims i → |halfCellCloser t.res (t.grid.get i)| ≤ D + t.res / 2 := by
    intro i hi
    have h := abs_le.mp (hv i hi)
    unfold halfCellCloser
    rw [abs_le]
    split_ifs <;> constructor <;> linarith
  intro i j hi hj _
  have := abs_sub_le (halfCellCloser t.res (t.grid.get i)) 0 (halfCellCloser t.res (t.grid.get j))
  rw [sub_zero, zero_sub, abs_neg] at this
  linarith [one i hi, one j hj]

/-! ## A grid turned about the z axis by the angle with cosine 0.6 -/

/-- The doubles next to 0.6 and 0.8. -/
noncomputable def exC : ℝ := 5404319552844596 / 2 ^ 53
noncomputable def exS : ℝ := 7205759403792794 / 2 ^ 53

noncomputable def exPose : Aff ℝ := ⟨⟨exC, -exS, 0⟩, ⟨exS, exC, 0⟩, ⟨0, 0, 1⟩, ⟨10, -3, 1 / 2⟩⟩

theorem exPose_rotation : NearRotation exPose := by
  refine ⟨⟨?_, ?_, ?_⟩, ⟨?_, ?_, ?_⟩, ?_, ?_, ?_⟩ <;> norm_num [exPose, exC, exS, abs_le]

theorem exPose_origin : OriginWithin exPose (2 ^ 26 * (1 / 4)) := by
  refine ⟨?_, ?_, ?_⟩ <;> norm_num [exPose, abs_le]

/-- The hypotheses of C112 hold for a grid of 2 x 1 x 2 cells of size 1/4 in that pose, at a location inside. -/
example : ∃ (B : Aff ℝ) (y : ℝ), isoInverse ieee exPose = (B.rx, B.ry, B.rz, loc B.t) ∧ NearInverse exPose B ∧
    (FSdf.mk exFloatField (1 / 4)).estimate ieee (affApp ieee B)
      (fun p => byAxis (axisCell ieee (1 / 4)) (affApp ieee B p))
      (affApp ieee exPose ((FSdf.mk exFloatField (1 / 4)).center ieee ⟨1, 0, 1⟩)) = some (real y, true) ∧
    |y - halfCellCloser (1 / 4) ((FSdf.mk exFloatField (1 / 4)).exact.grid.get ⟨1, 0, 1⟩)| ≤ 1 / 2 ^ 10 := by
  obtain ⟨B, eB, hB⟩ := C112_inverse exPose_rotation
    ⟨exPose_origin.1.trans (by norm_num), exPose_origin.2.1.trans (by norm_num), exPose_origin.2.2.trans (by norm_num)⟩
  have hr : (0 : ℝ) < (FSdf.mk exFloatField (1 / 4)).exact.res := by show (0 : ℝ) < 1 / 4; norm_num
  have h := (C112_center (s := FSdf.mk exFloatField (1 / 4))
    (t := { (FSdf.mk exFloatField (1 / 4)).exact with origin := exPose, inv := B }) exField_stores (N := 2) (by norm_num)
    (by show 2 ≤ 2 ∧ 1 ≤ 2 ∧ 2 ≤ 2; decide) (by show (1 : ℝ) / 2 ^ 100 ≤ 1 / 4; norm_num)
    (by show (1 / 4 : ℝ) ≤ 2 ^ 100; norm_num) (D := 2) (by norm_num) exField_bound
    (by positivity) (jump_of_bound hr exField_bound) hB (M := 2 ^ 10) (by norm_num) (by norm_num)
    (by
      refine ⟨?_, ?_, ?_⟩
      · show |(10 : ℝ)| ≤ 2 ^ 10 * (1 / 4); norm_num [abs_le]
      · show |(-3 : ℝ)| ≤ 2 ^ 10 * (1 / 4); norm_num [abs_le]
      · show |(1 / 2 : ℝ)| ≤ 2 ^ 10 * (1 / 4); norm_num [abs_le])
    (C112_product B) (C112_product exPose)
    (C112_lookup (by show (1 : ℝ) / 2 ^ 100 ≤ 1 / 4; norm_num) (by show (1 / 4 : ℝ) ≤ 2 ^ 100; norm_num))
    (i := ⟨1, 0, 1⟩) (show InBounds ⟨2, 1, 2⟩ ⟨1, 0, 1⟩ by unfold InBounds; decide)).2
  obtain ⟨y, ey, hy⟩ := h
  refine ⟨B, y, eB, hB, ey, hy.trans ?_⟩
  have e : (FSdf.mk exFloatField (1 / 4)).exact.res = 1 / 4 := rfl
  rw [e]
  norm_num

noncomputable def exInv : Aff ℝ :=
  ⟨⟨exC, exS, 0⟩, ⟨-exS, exC, 0⟩, ⟨0, 0, 1⟩, ⟨-(exC * 10 + exS * -3), -(-exS * 10 + exC * -3), -(1 / 2)⟩⟩

/-- The location (10, -2.85, 0.625) has the grid-frame coordinates (0.12, 0.09, 0.125), up to the rounding of the
matrix, in a grid of size 1/2 x 1/4 x 1/2; the location (10, -3.85, 0.625) is outside. -/
example : NearInverse exPose exInv ∧ Reach exInv ⟨10, -57 / 20, 5 / 8⟩ (2 ^ 10 * (1 / 4)) ∧
    (∀ f ∈ faces ⟨2 * (1 / 4), 1 * (1 / 4), 2 * (1 / 4)⟩ (exInv.app id ⟨10, -57 / 20, 5 / 8⟩),
      (2 ^ 10 + 2) * (1 / 4) / 2 ^ 48 < f) ∧ Reach exInv ⟨10, -77 / 20, 5 / 8⟩ (2 ^ 10 * (1 / 4)) ∧
    ∃ f ∈ faces ⟨2 * (1 / 4), 1 * (1 / 4), 2 * (1 / 4)⟩ (exInv.app id ⟨10, -77 / 20, 5 / 8⟩),
      f < -((2 ^ 10 + 2) * (1 / 4) / 2 ^ 48) := by
  refine ⟨⟨?_, ?_, ?_⟩, ?_, ?_, ?_, ?_⟩
  · norm_num [RowSmall, exPose, exInv, exC, exS, abs_le]
  · norm_num [RowNear, exPose, exInv, exC, exS, abs_le]
  · norm_num [V3.dot, exPose, exInv, exC, exS]
  · norm_num [Reach, mag, exInv, exC, exS, abs_of_pos, abs_of_neg]
  · norm_num [faces, Aff.app, exInv, exC, exS]
  · norm_num [Reach, mag, exInv, exC, exS, abs_of_pos, abs_of_neg]
  · norm_num [faces, Aff.app, exInv, exC, exS]

end FSdf

end Verif
