import Verif.Props.PyGradient
import Verif.Props.BoxExact
import Verif.Props.PyDemo

/-!
# Rectangular obstacles in the Python wrappers

C122.  The wrappers of `utils_2d.py` and `utils_3d.py` on environments whose entries are 1 (or 0) exactly where each index
satisfies a condition of its own.  The last theorems are `test/test_bindings.py` for every grid, pixel and cell size.
-/

namespace Verif

namespace Py

open Spec SdfGen NpArr FSdf Fl Slope

/-- The positions of a two-dimensional array with entry `b` are those whose row and column satisfy a condition each. -/
def Rect (env : NpArr Bool) (ny nx : ℕ) (b : Bool) (B A : ℕ → Prop) : Prop :=
  ∀ y < ny, ∀ x < nx, env.get [y, x] = some b ↔ B y ∧ A x

/-- The same in three dimensions. -/
def Cuboid (env : NpArr Bool) (ny nx nz : ℕ) (b : Bool) (B A C : ℕ → Prop) : Prop :=
  ∀ y < ny, ∀ x < nx, ∀ z < nz, env.get [y, x, z] = some b ↔ B y ∧ A x ∧ C z

/-- `v` is the distance of a position with entry `e` to the nearest one with the other entry, `m` being the squared
number of cells: with the sign of its entry, and up to the relative error of one `float` (C86). -/
def Exact (res : ℝ) (e : Option Bool) (m : ℤ) (v : Option FVal) : Prop :=
  ∃ r : ℝ, 0 < r ∧ v = some (real (if e = some true then -r else r)) ∧
    |r - res * Real.sqrt m| ≤ relErr * (res * Real.sqrt m)

theorem exact_of {res y : ℝ} {m : ℤ} {e : Option Bool} {v : FVal} {w : Option FVal} (hw : w = some v)
    (h : v = some (if decide (e = some true) then ((-y : ℝ) : EReal) else (y : EReal))) (hy : 0 < y)
    (herr : |y - res * Real.sqrt m| ≤ relErr * (res * Real.sqrt m)) : Exact res e m w := by
  refine ⟨y, hy, ?_, herr⟩
  rw [hw, h]
  by_cases he : e = some true <;> simp [he, real]

/-- C122, two-dimensional wrapper. -/
theorem C122_2d {res : ℝ} (hres : GoodRes ieee res) (hlo : 1 / 2 ^ 100 ≤ res) (hhi : res ≤ 2 ^ 100) (o : V3 ℝ)
    {env : NpArr Bool} (hw : env.WF) {nx ny : ℕ} (hs : env.shape = [ny, nx]) (hd : SmallGrid ⟨nx, ny, 1⟩)
    {b : Bool} {A B : ℕ → Prop} (hb : Rect env ny nx b B A) {a g : NpArr FVal}
    (h : arrays2 ieee res o env = some (a, g)) {x y : ℕ} (hx : x < nx) (hy : y < ny) {m : ℤ}
    (hm : NearestOther env [y, x] m) : Exact res (env.get [y, x]) m (a.get [y, x]) := by
  have hlo' : 1 / 2 ^ 126 ≤ res := le_trans (by norm_num) hlo
  obtain ⟨fill, out, hA, ho, hcell⟩ := cells2 hres hlo hhi o hw hs hd (Nat.mul_pos (by omega) (by omega)) h
  have hprod : IsProduct ⟨nx, ny, 1⟩ (fun i => decide (env.get [i.y.toNat, i.x.toNat] = some true) = b)
      (fun t => A t.toNat) (fun t => B t.toNat) (fun _ => True) := by
    rintro ⟨i, j, k⟩ ⟨⟨i1, i2⟩, ⟨j1, j2⟩, -⟩
    have hj : j.toNat < ny := by simp only at j1 j2; omega
    have hi : i.toNat < nx := by simp only at i1 i2; omega
    obtain ⟨e, he⟩ := get_some hw (j := [j.toNat, i.toNat]) (by rw [hs]; exact inRange2.mpr ⟨_, _, rfl, hj, hi⟩)
    have := hb _ hj _ hi
    rw [he] at this
    simp only [he]
    rw [and_true, and_comm, ← this]
    cases e <;> cases b <;> simp
  have hv : InBounds ⟨nx, ny, 1⟩ ⟨x, y, 0⟩ := ⟨⟨by simp, by simpa using hx⟩, ⟨by simp, by simpa using hy⟩, by simp, by simp⟩
  obtain ⟨r, e1, e2, e3⟩ := C91_ieee hres hlo' hhi hd hA (by cases b; exacts [Or.inr hprod, Or.inl hprod]) ho hv
    (nearest2 hw hs hx hy hm)
  exact exact_of (hcell x hx y hy) e1 e2 e3

/-- C122, three-dimensional wrapper. -/
theorem C122_3d {res : ℝ} (hres : GoodRes ieee res) (hlo : 1 / 2 ^ 100 ≤ res) (hhi : res ≤ 2 ^ 100) (o : V3 ℝ)
    {env : NpArr Bool} (hw : env.WF) {nx ny nz : ℕ} (hs : env.shape = [ny, nx, nz]) (hd : SmallGrid ⟨nx, ny, nz⟩)
    {b : Bool} {A B C : ℕ → Prop} (hb : Cuboid env ny nx nz b B A C) {a g : NpArr FVal}
    (h : arrays3 ieee res o env = some (a, g)) {x y z : ℕ} (hx : x < nx) (hy : y < ny) (hz : z < nz) {m : ℤ}
    (hm : NearestOther env [y, x, z] m) : Exact res (env.get [y, x, z]) m (a.get [y, x, z]) := by
  have hlo' : 1 / 2 ^ 126 ≤ res := le_trans (by norm_num) hlo
  obtain ⟨fill, out, hA, ho, hcell⟩ := Demo.cells3 hres hlo hhi o hw hs hd
    (Nat.mul_pos (Nat.mul_pos (by omega) (by omega)) (by omega)) h
  have hprod : IsProduct ⟨nx, ny, nz⟩ (fun i => decide (env.get (pyIdx i) = some true) = b)
      (fun t => A t.toNat) (fun t => B t.toNat) (fun t => C t.toNat) := by
    rintro ⟨i, j, k⟩ ⟨⟨i1, i2⟩, ⟨j1, j2⟩, k1, k2⟩
    have hj : j.toNat < ny := by simp only at j1 j2; omega
    have hi : i.toNat < nx := by simp only at i1 i2; omega
    have hk : k.toNat < nz := by simp only at k1 k2; omega
    obtain ⟨e, he⟩ := get_some hw (j := [j.toNat, i.toNat, k.toNat])
      (by rw [hs]; exact inRange3.mpr ⟨_, _, _, rfl, hj, hi, hk⟩)
    have := hb _ hj _ hi _ hk
    rw [he] at this
    have hp : pyIdx ⟨i, j, k⟩ = [j.toNat, i.toNat, k.toNat] := rfl
    simp only [hp, he]
    rw [and_left_comm, ← this]
    cases e <;> cases b <;> simp
  have hv : InBounds ⟨nx, ny, nz⟩ ⟨x, y, z⟩ :=
    ⟨⟨by simp, by simpa using hx⟩, ⟨by simp, by simpa using hy⟩, by simp, by simpa using hz⟩
  obtain ⟨r, e1, e2, e3⟩ := C91_ieee hres hlo' hhi hd hA (by cases b; exacts [Or.inr hprod, Or.inl hprod]) ho hv
    (nearest3 hw hs hx hy hz hm)
  exact exact_of (hcell x hx y hy z hz) e1 e2 e3

/-- Exactly one pixel is set. -/
def OnePixel (env : NpArr Bool) (ny nx cy cx : ℕ) : Prop :=
  ∀ y < ny, ∀ x < nx, env.get [y, x] = some (decide (y = cy ∧ x = cx))

/-- `v` is a number within a relative error of `d`. -/
def Close (v : Option FVal) (d : ℝ) : Prop := ∃ r : ℝ, v = some (real r) ∧ |r - d| ≤ relErr * |d|

/-- C122, one pixel: its entry is minus one cell, and every other entry is the distance to it. -/
theorem C122_pixel {res : ℝ} (hres : GoodRes ieee res) (hlo : 1 / 2 ^ 100 ≤ res) (hhi : res ≤ 2 ^ 100) (o : V3 ℝ)
    {env : NpArr Bool} (hw : env.WF) {nx ny : ℕ} (hs : env.shape = [ny, nx]) (hd : SmallGrid ⟨nx, ny, 1⟩)
    {cy cx : ℕ} (hcy : cy < ny) (hcx : cx < nx) (hone : OnePixel env ny nx cy cx) (h2 : 1 < nx ∨ 1 < ny)
    {a g : NpArr FVal} (h : arrays2 ieee res o env = some (a, g)) :
    Close (a.get [cy, cx]) (-res) ∧ ∀ y < ny, ∀ x < nx, ¬ (y = cy ∧ x = cx) →
      Close (a.get [y, x]) (res * Real.sqrt (((y : ℤ) - cy) ^ 2 + ((x : ℤ) - cx) ^ 2 : ℤ)) := by
  have hr := hres.1
  have hb : Rect env ny nx true (· = cy) (· = cx) := by
    intro y hy x hx
    rw [hone y hy x hx]
    simp
  constructor
  · have hm : NearestOther env [cy, cx] 1 := by
      constructor
      · have mk : ∀ y < ny, ∀ x < nx, ¬ (y = cy ∧ x = cx) → idxSq [cy, cx] [y, x] = 1 →
            ∃ q, InRange env.shape q ∧ env.get q ≠ env.get [cy, cx] ∧ idxSq [cy, cx] q = 1 := by
          intro y hy x hx hne e
          refine ⟨[y, x], by rw [hs]; exact inRange2.mpr ⟨_, _, rfl, hy, hx⟩, ?_, e⟩
          rw [hone y hy x hx, hone cy hcy cx hcx]
          simp [hne]
        rcases h2 with h2 | h2
        · rcases Nat.eq_zero_or_pos cx with e | e
          · exact mk cy hcy (cx + 1) (by omega) (by omega) (by simp [idxSq])
          · exact mk cy hcy (cx - 1) (by omega) (by omega) (by simp [idxSq, Nat.cast_sub e])
        · rcases Nat.eq_zero_or_pos cy with e | e
          · exact mk (cy + 1) (by omega) cx hcx (by omega) (by simp [idxSq])
          · exact mk (cy - 1) (by omega) cx hcx (by omega) (by simp [idxSq, Nat.cast_sub e])
      · intro q hq hne
        rw [hs] at hq
        obtain ⟨y, x, rfl, hy, hx⟩ := inRange2.mp hq
        by_contra hlt
        have hz : idxSq [cy, cx] [y, x] ≤ 0 := by omega
        simp only [idxSq, List.zipWith, List.sum_cons, List.sum_nil, add_zero] at hz
        have e1 : ((cy : ℤ) - y) ^ 2 = 0 := by nlinarith only [hz, sq_nonneg ((cy : ℤ) - y), sq_nonneg ((cx : ℤ) - x)]
        have e2 : ((cx : ℤ) - x) ^ 2 = 0 := by nlinarith only [hz, sq_nonneg ((cy : ℤ) - y), sq_nonneg ((cx : ℤ) - x)]
        have e1' := pow_eq_zero_iff (by norm_num) |>.mp e1
        have e2' := pow_eq_zero_iff (by norm_num) |>.mp e2
        obtain rfl : y = cy := by omega
        obtain rfl : x = cx := by omega
        exact hne rfl
    obtain ⟨r, r0, e, herr⟩ := C122_2d hres hlo hhi o hw hs hd hb h hcx hcy hm
    rw [hone cy hcy cx hcx, if_pos (by simp)] at e
    rw [Int.cast_one, Real.sqrt_one, mul_one] at herr
    refine ⟨-r, e, ?_⟩
    rw [abs_neg, abs_of_pos hr, neg_sub_neg, abs_sub_comm]
    exact herr
  · intro y hy x hx hne
    have hm : NearestOther env [y, x] (((y : ℤ) - cy) ^ 2 + ((x : ℤ) - cx) ^ 2) := by
      constructor
      · refine ⟨[cy, cx], by rw [hs]; exact inRange2.mpr ⟨_, _, rfl, hcy, hcx⟩, ?_, by simp [idxSq]⟩
        rw [hone y hy x hx, hone cy hcy cx hcx]
        simp [hne]
      · intro q hq hqe
        rw [hs] at hq
        obtain ⟨y', x', rfl, hy', hx'⟩ := inRange2.mp hq
        rw [hone y hy x hx, hone y' hy' x' hx', decide_eq_false hne] at hqe
        have hc : y' = cy ∧ x' = cx := by
          by_contra hc
          exact hqe (by rw [decide_eq_false hc])
        obtain ⟨rfl, rfl⟩ := hc
        simp [idxSq]
    obtain ⟨r, r0, e, herr⟩ := C122_2d hres hlo hhi o hw hs hd hb h hx hy hm
    rw [hone y hy x hx, if_neg (by simpa using hne)] at e
    exact ⟨r, e, by rw [abs_of_nonneg (mul_nonneg hr.le (Real.sqrt_nonneg _))]; exact herr⟩

/-- C122, the gradient beside one pixel: the slope along x is 3/2 (from minus one cell to two cells over two cells), the
slope along y is zero. -/
theorem C122_beside {res : ℝ} (hres : GoodRes ieee res) (hlo : 1 / 2 ^ 100 ≤ res) (hhi : res ≤ 2 ^ 100) (o : V3 ℝ)
    {env : NpArr Bool} (hw : env.WF) {nx ny : ℕ} (hs : env.shape = [ny, nx]) (hd : SmallGrid ⟨nx, ny, 1⟩)
    {cy cx : ℕ} (hcy : 0 < cy ∧ cy + 1 < ny) (hcx : cx + 2 < nx) (hone : OnePixel env ny nx cy cx) :
    ∃ a g, arrays2 ieee res o env = some (a, g) ∧ a.shape = [ny, nx] ∧ g.shape = [ny, nx, 2] ∧ ∃ gx gy : ℝ,
      g.get [cy, cx + 1, 0] = some (real gx) ∧ g.get [cy, cx + 1, 1] = some (real gy) ∧ |gx - 3 / 2| ≤ 1 / 2 ^ 20 ∧
      |gy| ≤ 1 / 2 ^ 20 := by
  have hr := hres.1
  have hmix : Mixed env := by
    refine ⟨[cy, cx], [cy, cx + 1], by rw [hs]; exact inRange2.mpr ⟨_, _, rfl, by omega, by omega⟩,
      by rw [hs]; exact inRange2.mpr ⟨_, _, rfl, by omega, by omega⟩, ?_⟩
    rw [hone cy (by omega) cx (by omega), hone cy (by omega) (cx + 1) (by omega)]
    simp
  obtain ⟨a, g, h1, s1, s2, h2⟩ := C116_2d_mixed hres hlo hhi o hw hs hd hmix
  obtain ⟨hc, hother⟩ := C122_pixel hres hlo hhi o hw hs hd (by omega) (by omega) hone (Or.inl (by omega)) h1
  obtain ⟨-, gx, gy, e1, e2, r1, r2, -, -⟩ := h2 (cx + 1) (by omega) cy (by omega)
  refine ⟨a, g, h1, s1, s2, gx, gy, e1, e2, ?_, ?_⟩
  all_goals
    have hsmall : (1 : ℝ) / 2 ^ 146 / res + 1 / 2 ^ 148 ≤ 1 / 2 ^ 40 := by
      have : (1 : ℝ) / 2 ^ 146 / res ≤ 1 / 2 ^ 146 / (1 / 2 ^ 100) := by gcongr
      refine (add_le_add_left this _).trans (by norm_num)
  · obtain ⟨v0, w0, z0⟩ := hc
    obtain ⟨v2, w2, z2⟩ := hother cy (by omega) (cx + 2) hcx (by omega)
    have e : (((cy : ℤ) - cy) ^ 2 + (((cx + 2 : ℕ) : ℤ) - cx) ^ 2 : ℤ) = 4 := by push_cast; ring
    rw [e, show ((4 : ℤ) : ℝ) = 2 ^ 2 by norm_num, Real.sqrt_sq (by norm_num),
      abs_of_pos (by positivity : 0 < res * 2), relErr] at z2
    rw [abs_neg, abs_of_pos hr, relErr] at z0
    have hq : quotient res nx (cx + 1) (fun j => a.number [cy, j]) = (v2 - v0) / (2 * res) := by
      have hb : before (cx + 1) = cx := by simp [before]
      have hf : following nx (cx + 1) = cx + 2 := by unfold following; omega
      unfold quotient
      rw [hb, hf, if_pos (by omega)]
      beta_reduce
      rw [NpArr.number_eq w2, NpArr.number_eq w0]
      push_cast
      ring
    rw [hq] at r1
    have hq2 : |(v2 - v0) / (2 * res) - 3 / 2| ≤ 1 / 2 ^ 22 := by
      have : (v2 - v0) / (2 * res) - 3 / 2 = (v2 - v0 - 3 * res) / (2 * res) := by field_simp
      rw [this, abs_div, abs_of_pos (by positivity : 0 < 2 * res), div_le_iff₀ (by positivity)]
      rw [abs_le] at z0 z2 ⊢
      constructor <;> linarith only [z0.1, z0.2, z2.1, z2.2, hr]
    unfold Rounded at r1
    have hq3 : |(v2 - v0) / (2 * res)| ≤ 2 := by rw [abs_le] at hq2 ⊢; constructor <;> linarith only [hq2.1, hq2.2]
    rw [abs_le] at hq2 r1 ⊢
    constructor <;> linarith only [hq2.1, hq2.2, r1.1, r1.2, hq3, hsmall]
  · obtain ⟨v0, w0, z0⟩ := hother (cy - 1) (by omega) (cx + 1) (by omega) (by omega)
    obtain ⟨v2, w2, z2⟩ := hother (cy + 1) (by omega) (cx + 1) (by omega) (by omega)
    have e0 : ((((cy - 1 : ℕ) : ℤ) - cy) ^ 2 + (((cx + 1 : ℕ) : ℤ) - cx) ^ 2 : ℤ) = 2 := by
      rw [Nat.cast_sub hcy.1]; push_cast; ring
    have e2 : ((((cy + 1 : ℕ) : ℤ) - cy) ^ 2 + (((cx + 1 : ℕ) : ℤ) - cx) ^ 2 : ℤ) = 2 := by push_cast; ring
    have hs2 : Real.sqrt ((2 : ℤ) : ℝ) ≤ 2 := by
      rw [Real.sqrt_le_left (by norm_num)]; norm_num
    rw [e2, abs_of_nonneg (mul_nonneg hr.le (Real.sqrt_nonneg _))] at z2
    rw [e0, abs_of_nonneg (mul_nonneg hr.le (Real.sqrt_nonneg _))] at z0
    set t := Real.sqrt ((2 : ℤ) : ℝ)
    have ht : res * t ≤ res * 2 := by gcongr
    have hrel : relErr * (res * t) ≤ (1 / 2 ^ 24 + 1 / 2 ^ 51) * (res * 2) := by
      unfold relErr
      gcongr
    have hq : quotient res ny cy (fun j => a.number [j, cx + 1]) = (v2 - v0) / (2 * res) := by
      have hb : before cy = cy - 1 := by simp [before]
      have hf : following ny cy = cy + 1 := by unfold following; omega
      unfold quotient
      rw [hb, hf, if_pos (by omega)]
      beta_reduce
      rw [NpArr.number_eq w2, NpArr.number_eq w0, Nat.cast_sub hcy.1]
      push_cast
      ring
    rw [hq] at r2
    have hq2 : |(v2 - v0) / (2 * res)| ≤ 1 / 2 ^ 22 := by
      rw [abs_div, abs_of_pos (by positivity : 0 < 2 * res), div_le_iff₀ (by positivity)]
      rw [abs_le] at z0 z2 ⊢
      constructor <;> linarith only [z0.1, z0.2, z2.1, z2.2, hr, hrel]
    unfold Rounded at r2
    have hq3 := hq2
    rw [abs_le] at hq2 r2 ⊢
    constructor <;> linarith only [hq2.1, hq2.2, r2.1, r2.2, hq3, hsmall]

/-- The environment of `test/test_bindings.py:16-17`. -/
def testEnv : NpArr Bool := ⟨[40, 20], (List.range 800).map fun i => decide (i = 23)⟩

/-- The cell size of `test/test_bindings.py:13`: the double nearest to 0.05. -/
noncomputable def testRes : ℝ := 3602879701896397 * 2 ^ (-56 : ℤ)

theorem testRes_good : GoodRes ieee testRes := by
  refine ⟨by unfold testRes; positivity, ?_⟩
  have h := Ieee.round_exact (F := Ieee.binary64) (n := 3602879701896397) (e := -56) (by decide) (by decide)
    (lt_of_lt_of_le (b := (1 : ℝ)) (by norm_num) (by
      have := Ieee.two_mono (show (0 : ℤ) ≤ Ieee.binary64.emax + 1 by decide)
      simpa using this))
  exact_mod_cast h

/-- `test/test_bindings.py:16-33` meets the hypotheses of `C122_pixel` and `C122_beside`. -/
example : testEnv.WF ∧ testEnv.shape = [40, 20] ∧ OnePixel testEnv 40 20 1 3 ∧ SmallGrid ⟨20, 40, 1⟩ ∧
    GoodRes ieee testRes ∧ 1 / 2 ^ 100 ≤ testRes ∧ testRes ≤ 2 ^ 100 := by
  refine ⟨by simp [testEnv, NpArr.WF], rfl, ?_, by unfold SmallGrid; decide, testRes_good, ?_, ?_⟩
  · intro y hy x hx
    unfold testEnv NpArr.get
    simp only [NpArr.ravel, if_pos hy, if_pos hx, Option.map_some, Option.bind_some, List.prod_cons, List.prod_nil]
    rw [List.getElem?_map, List.getElem?_range (by omega), Option.map_some]
    congr 1
    exact decide_eq_decide.mpr (by omega)
  · unfold testRes; norm_num
  · unfold testRes; norm_num

/-- A free tunnel through an obstacle meets the hypotheses of `C122_3d`: the free entries are a product. -/
example : Cuboid ⟨[3, 3, 2], [true, true, true, true, true, true, true, true, false, false, true, true, true, true, true,
    true, true, true]⟩ 3 3 2 false (· = 1) (· = 1) (fun _ => True) := by
  intro y hy x hx z hz
  interval_cases y <;> interval_cases x <;> interval_cases z <;> simp [NpArr.get, NpArr.ravel]

end Py

end Verif
