import Verif.Props.AutoDiffFloat
import Verif.Props.IndexGradient

/-!
# C113: `GetAutoDiffGradient` by index in IEEE arithmetic
-/

namespace Verif

open Spec SdfGen

namespace FSdf

open Fl

/-- The least number of type `double` above 1. -/
noncomputable def exStep : ℝ := 1 + 1 / 2 ^ 52

/-- The field of `exKink` (distances 1, 2, 5 in a row, cell size 1) as stored. -/
noncomputable def exKinkF : FSdf := ⟨⟨⟨3, 1, 1⟩, [real 1, real 2, real 5], none, none⟩, 1⟩

/-- `exKink` shifted along x by `exStep`. -/
noncomputable def exShift : MSdf ℝ :=
  { exKink with
    origin := ⟨⟨1, 0, 0⟩, ⟨0, 1, 0⟩, ⟨0, 0, 1⟩, ⟨exStep, 0, 0⟩⟩
    inv := ⟨⟨1, 0, 0⟩, ⟨0, 1, 0⟩, ⟨0, 0, 1⟩, ⟨-exStep, 0, 0⟩⟩ }

theorem exShift_stores : Stores exKinkF exShift := by
  refine ⟨rfl, rfl, ?_⟩
  rintro ⟨x, y, z⟩ ⟨⟨x0, x1⟩, ⟨y0, y1⟩, z0, z1⟩
  have x1' : x < 3 := x1
  have y1' : y < 1 := y1
  have z1' : z < 1 := z1
  dsimp only at x0 y0 z0
  obtain rfl : y = 0 := by omega
  obtain rfl : z = 0 := by omega
  have : x = 0 ∨ x = 1 ∨ x = 2 := by omega
  rcases this with rfl | rfl | rfl <;> rfl

theorem exShift_get : exShift.grid.get ⟨0, 0, 0⟩ = 1 ∧ exShift.grid.get ⟨1, 0, 0⟩ = 2 ∧ exShift.grid.get ⟨2, 0, 0⟩ = 5 :=
  ⟨rfl, rfl, rfl⟩

theorem exShift_bound (i : Idx) (hi : InBounds exShift.grid.dims i) : |exShift.grid.get i| ≤ 5 := by
  obtain ⟨x, y, z⟩ := i
  obtain ⟨⟨x0, x1⟩, ⟨y0, y1⟩, z0, z1⟩ := hi
  have x1' : x < 3 := x1
  have y1' : y < 1 := y1
  have z1' : z < 1 := z1
  dsimp only at x0 y0 z0
  obtain rfl : y = 0 := by omega
  obtain rfl : z = 0 := by omega
  have : x = 0 ∨ x = 1 ∨ x = 2 := by omega
  obtain ⟨e0, e1, e2⟩ := exShift_get
  rcases this with rfl | rfl | rfl
  · rw [e0]; norm_num
  · rw [e1]; norm_num
  · rw [e2]; norm_num

theorem exShift_rigid : RigidFrame exShift := by
  constructor
  · intro p; ext <;> simp [exShift, MSdf.toGrid, MSdf.toWorld, Aff.app]
  · intro p; ext <;> simp [exShift, MSdf.toGrid, MSdf.toWorld, Aff.app]
  · intro p q; simp [exShift, MSdf.toWorld, Aff.app, sqDist3]

/-- C113, queries by index: in exact arithmetic `GetAutoDiffGradient` by index is the difference towards the next cell
(C88).  Here the centre 1.5 of the middle cell, taken to the world and back by a shift of `1 + 2 ^ -52`, comes out as
`1.5 - 2 ^ -52`, and the result is the difference to the previous cell. -/
theorem C113_index_false : Stores exKinkF exShift ∧ RigidFrame exShift ∧
    exShift.autoDiffGradientIdx ⟨1, 0, 0⟩ = some [3, 0, 0] ∧
    ∃ y : V3 ℝ, exKinkF.autoDiffGradientIdx ieee (FDual.affApp (FDual.rowApp ieee) exShift.inv)
      (affApp ieee exShift.origin) (fun p => byAxis (axisCell ieee 1) (affApp ieee exShift.inv p)) ⟨1, 0, 0⟩ =
        some [real y.x, real y.y, real y.z] ∧ |y.x - 1| ≤ 1 / 2 ^ 20 := by
  obtain ⟨g0, g1, g2⟩ := exShift_get
  have hr : 0 < exShift.res := by show (0 : ℝ) < 1; norm_num
  have nx : exShift.grid.dims.nx = 3 := rfl
  have ny : exShift.grid.dims.ny = 1 := rfl
  have nz : exShift.grid.dims.nz = 1 := rfl
  have h1 : InBounds exShift.grid.dims ⟨1, 0, 0⟩ := by
    show InBounds ⟨3, 1, 1⟩ ⟨1, 0, 0⟩
    unfold InBounds; decide
  have eres : exShift.res = 1 := rfl
  refine ⟨exShift_stores, exShift_rigid, ?_, ?_⟩
  · rw [C88_autodiff exShift hr exShift_rigid _ h1]
    have e : stepGradient exShift ⟨1, 0, 0⟩ = ⟨3, 0, 0⟩ := by
      ext <;> simp only [stepGradient, stepQuotient, nx, ny, nz] <;> norm_num [g1, g2]
      norm_num [halfCellCloser, eres]
    rw [e]
    norm_num [Aff.lin, V3.dot, exShift]
  -- the numbers that occur
  have kz := r64_coe_zero ieee
  have k1 : ieee.r64 ((1 : ℝ) : EReal) = ((1 : ℝ) : EReal) := r64_keep 1 0 (by norm_num) (by norm_num) (by norm_num) (by norm_num)
  have kh : ieee.r64 ((1 / 2 : ℝ) : EReal) = ((1 / 2 : ℝ) : EReal) :=
    r64_keep 1 (-1) (by norm_num) (by norm_num) (by norm_num) (by norm_num)
  have k3 : ieee.r64 ((3 / 2 : ℝ) : EReal) = ((3 / 2 : ℝ) : EReal) :=
    r64_keep 3 (-1) (by norm_num) (by norm_num) (by norm_num) (by norm_num)
  have k5 : ieee.r64 ((5 / 2 : ℝ) : EReal) = ((5 / 2 : ℝ) : EReal) :=
    r64_keep 5 (-1) (by norm_num) (by norm_num) (by norm_num) (by norm_num)
  have kt : ieee.r64 (exStep : EReal) = (exStep : EReal) :=
    r64_keep (2 ^ 52 + 1) (-52) (by norm_num [exStep]) (by norm_num) (by norm_num) (by norm_num)
  have kt' := r64_keep_neg kt
  have ku : ieee.r64 ((3 / 2 - 1 / 2 ^ 52 : ℝ) : EReal) = ((3 / 2 - 1 / 2 ^ 52 : ℝ) : EReal) :=
    r64_keep (3 * 2 ^ 51 - 1) (-52) (by norm_num) (by norm_num) (by norm_num) (by norm_num)
  have kd : ieee.r64 ((-(1 / 2 ^ 52) : ℝ) : EReal) = ((-(1 / 2 ^ 52) : ℝ) : EReal) :=
    r64_keep_neg (r64_keep 1 (-52) (by norm_num) (by norm_num) (by norm_num) (by norm_num))
  -- the tie that moves the centre down
  have tie : ieee.r64 ((3 / 2 + exStep : ℝ) : EReal) = ((5 / 2 : ℝ) : EReal) := by
    have hn : Ieee.nearest ((3 / 2 + exStep) / 2 ^ ((1 : ℤ) - 52)) = 5 * 2 ^ 50 := by
      have e : (3 / 2 + exStep) / 2 ^ ((1 : ℤ) - 52) = 5 * 2 ^ 50 + 1 / 2 := by
        unfold exStep
        norm_num
      have hfl : ⌊(5 * 2 ^ 50 + 1 / 2 : ℝ)⌋ = 5 * 2 ^ 50 := by
        rw [Int.floor_eq_iff]; norm_num
      have hfr : Int.fract (5 * 2 ^ 50 + 1 / 2 : ℝ) = 1 / 2 := by
        unfold Int.fract; rw [hfl]; norm_num
      rw [e]
      unfold Ieee.nearest
      rw [hfr, hfl, if_neg (lt_irrefl _), if_neg (lt_irrefl _), if_pos (by decide)]
    rw [r64_eval (e := 1) (by norm_num [exStep]) (by norm_num [exStep]) (by norm_num) (by norm_num) hn]
    norm_num
  -- the centre of the cell and its location in the world
  have ec : exKinkF.center ieee ⟨1, 0, 0⟩ = loc ⟨3 / 2, 1 / 2, 1 / 2⟩ := by
    have e : exKinkF.res = 1 := rfl
    unfold center loc
    rw [e]
    push_cast
    rw [mul_coe (z := 3 / 2) (by norm_num) k3, mul_coe (z := 1 / 2) (by norm_num) kh]
  have row : ∀ {r v : V3 ℝ} {a b c d : ℝ}, r.x * v.x = a → r.y * v.y = b → r.z * v.z = c →
      ieee.r64 (a : EReal) = (a : EReal) → ieee.r64 (b : EReal) = (b : EReal) → ieee.r64 (c : EReal) = (c : EReal) →
      ieee.r64 ((a + b : ℝ) : EReal) = ((a + b : ℝ) : EReal) →
      ieee.r64 ((a + b + c : ℝ) : EReal) = ((a + b + c : ℝ) : EReal) → ieee.r64 (d : EReal) = (d : EReal) →
      rowApp ieee r d (loc v) = some (ieee.r64 ((a + b + c + d : ℝ) : EReal)) := by
    intro r v a b c d ha hb hc ka kb kc kab kabc kd
    unfold rowApp loc
    dsimp only
    rw [mul_coe ha ka, mul_coe hb kb, mul_coe hc kc, add_coe rfl kab, add_coe rfl kabc, mul_coe (mul_one d) kd, add_real]
  have plain : ∀ {x : ℝ}, (x = 0 ∨ x = 1 / 2 ∨ x = 3 / 2 ∨ x = 5 / 2) → ieee.r64 (x : EReal) = (x : EReal) := by
    rintro x (rfl | rfl | rfl | rfl)
    exacts [kz, kh, k3, k5]
  have ew : affApp ieee exShift.origin (loc ⟨3 / 2, 1 / 2, 1 / 2⟩) = loc ⟨5 / 2, 1 / 2, 1 / 2⟩ := by
    have ex := row (r := exShift.origin.rx) (v := ⟨3 / 2, 1 / 2, 1 / 2⟩) (a := 3 / 2) (b := 0) (c := 0) (d := exStep)
      (by norm_num [exShift]) (by norm_num [exShift]) (by norm_num [exShift]) k3 kz kz (plain (by norm_num))
      (plain (by norm_num)) kt
    have ey := row (r := exShift.origin.ry) (v := ⟨3 / 2, 1 / 2, 1 / 2⟩) (a := 0) (b := 1 / 2) (c := 0) (d := 0)
      (by norm_num [exShift]) (by norm_num [exShift]) (by norm_num [exShift]) kz kh kz (plain (by norm_num))
      (plain (by norm_num)) kz
    have ez := row (r := exShift.origin.rz) (v := ⟨3 / 2, 1 / 2, 1 / 2⟩) (a := 0) (b := 0) (c := 1 / 2) (d := 0)
      (by norm_num [exShift]) (by norm_num [exShift]) (by norm_num [exShift]) kz kz kh (plain (by norm_num))
      (plain (by norm_num)) kz
    rw [add_zero, add_zero, tie] at ex
    rw [show (0 + 1 / 2 + 0 + 0 : ℝ) = 1 / 2 by norm_num, kh] at ey
    rw [show (0 + 0 + 1 / 2 + 0 : ℝ) = 1 / 2 by norm_num, kh] at ez
    unfold affApp
    change V3.mk (rowApp ieee exShift.origin.rx exStep _) (rowApp ieee exShift.origin.ry 0 _)
      (rowApp ieee exShift.origin.rz 0 _) = _
    rw [ex, ey, ez]
    rfl
  -- and back
  have eb : affApp ieee exShift.inv (loc ⟨5 / 2, 1 / 2, 1 / 2⟩) = loc ⟨3 / 2 - 1 / 2 ^ 52, 1 / 2, 1 / 2⟩ := by
    have ex := row (r := exShift.inv.rx) (v := ⟨5 / 2, 1 / 2, 1 / 2⟩) (a := 5 / 2) (b := 0) (c := 0) (d := -exStep)
      (by norm_num [exShift]) (by norm_num [exShift]) (by norm_num [exShift]) k5 kz kz (plain (by norm_num))
      (plain (by norm_num)) kt'
    have ey := row (r := exShift.inv.ry) (v := ⟨5 / 2, 1 / 2, 1 / 2⟩) (a := 0) (b := 1 / 2) (c := 0) (d := 0)
      (by norm_num [exShift]) (by norm_num [exShift]) (by norm_num [exShift]) kz kh kz (plain (by norm_num))
      (plain (by norm_num)) kz
    have ez := row (r := exShift.inv.rz) (v := ⟨5 / 2, 1 / 2, 1 / 2⟩) (a := 0) (b := 0) (c := 1 / 2) (d := 0)
      (by norm_num [exShift]) (by norm_num [exShift]) (by norm_num [exShift]) kz kz kh (plain (by norm_num))
      (plain (by norm_num)) kz
    rw [show (5 / 2 + 0 + 0 + -exStep : ℝ) = 3 / 2 - 1 / 2 ^ 52 by unfold exStep; norm_num, ku] at ex
    rw [show (0 + 1 / 2 + 0 + 0 : ℝ) = 1 / 2 by norm_num, kh] at ey
    rw [show (0 + 0 + 1 / 2 + 0 : ℝ) = 1 / 2 by norm_num, kh] at ez
    unfold affApp
    change V3.mk (rowApp ieee exShift.inv.rx (-exStep) _) (rowApp ieee exShift.inv.ry 0 _)
      (rowApp ieee exShift.inv.rz 0 _) = _
    rw [ex, ey, ez]
    rfl
  have dx : DoubleRow exShift.inv.rx := ⟨k1, kz, kz⟩
  have dy : DoubleRow exShift.inv.ry := ⟨kz, k1, kz⟩
  have dz : DoubleRow exShift.inv.rz := ⟨kz, kz, k1⟩
  have es : FDual.affApp (FDual.rowApp ieee) exShift.inv (FDual.seed (loc ⟨5 / 2, 1 / 2, 1 / 2⟩)) =
      lift exShift.inv ⟨3 / 2 - 1 / 2 ^ 52, 1 / 2, 1 / 2⟩ := by
    unfold FDual.affApp lift
    rw [rowApp_seed dx, rowApp_seed dy, rowApp_seed dz]
    unfold affApp loc at eb
    injection eb with e1 e2 e3
    unfold loc
    rw [e1, e2, e3]
  -- the cell
  have hl := (C112_lookup (res := 1) (by norm_num) (by norm_num)).1
  have cellOf : ∀ {x : ℝ} {k : Int}, |x| ≤ 2 → (k : ℝ) + 1 / 4 ≤ x → x ≤ k + 3 / 4 → axisCell ieee 1 (real x) = k := by
    intro x k hx h2 h3
    obtain ⟨u, eu, hu⟩ := hl x (by linarith)
    rw [eu, Int.floor_eq_iff]
    rw [div_one, abs_le] at hu
    constructor <;> linarith [hu.1, hu.2]
  have eloc : byAxis (axisCell ieee 1) (affApp ieee exShift.inv (loc ⟨5 / 2, 1 / 2, 1 / 2⟩)) = ⟨1, 0, 0⟩ := by
    rw [eb]
    unfold byAxis loc
    dsimp only
    rw [cellOf (x := 3 / 2 - 1 / 2 ^ 52) (k := 1) (by norm_num [abs_le]) (by norm_num) (by norm_num),
      cellOf (x := 1 / 2) (k := 0) (by norm_num [abs_le]) (by norm_num) (by norm_num)]
  have small : RowSmall exShift.inv.rx ∧ RowSmall exShift.inv.ry ∧ RowSmall exShift.inv.rz := by
    norm_num [RowSmall, exShift]
  obtain ⟨bx, bY, bz, ⟨ebx, -, -⟩, -, -, -, a, y, ea, ed, hy⟩ := estGridD_ap exShift_stores (N := 3) (by norm_num)
    (by rw [nx, ny, nz]; decide) (by rw [eres]; norm_num) (by rw [eres]; norm_num) (D := 5) (by norm_num)
    exShift_bound small (q := ⟨3 / 2 - 1 / 2 ^ 52, 1 / 2, 1 / 2⟩) h1
    (by rw [eres]; norm_num) (by rw [eres]; norm_num) (by rw [eres]; norm_num)
  refine ⟨y, ?_, ?_⟩
  · unfold autoDiffGradientIdx autoDiffGradient
    rw [ec, ew]
    simp only [eloc, es]
    rw [if_pos (inB_iff_spec.mpr (by rw [exShift_stores.1]; exact h1)), ea, Option.map_some, ed]
    rfl
  · have hb : bx = false := by
      rw [ebx, ec]
      unfold loc
      dsimp only
      rw [sub_real, show (3 / 2 - 1 / 2 ^ 52 - 3 / 2 : ℝ) = -(1 / 2 ^ 52) by norm_num, kd]
      unfold geZero
      simp
    rw [hb] at hy
    have hx := hy.1
    have ex : (pullback exShift.inv (slopeOf exShift ⟨3 / 2 - 1 / 2 ^ 52, 1 / 2, 1 / 2⟩
        (axisIdx (1 : Int) exShift.grid.dims.nx false) (axisIdx (0 : Int) exShift.grid.dims.ny bY)
        (axisIdx (0 : Int) exShift.grid.dims.nz bz))).x = 1 := by
      rw [nx, ny, nz]
      have e1 : axisIdx (1 : Int) ((3 : ℕ) : Int) false = (0, 1) := by decide
      have e2 : ∀ b, axisIdx (0 : Int) ((1 : ℕ) : Int) b = (0, 0) := by decide
      rw [e1, e2, e2]
      have a0 : adj exShift ⟨0, 0, 0⟩ = 1 / 2 := by unfold adj; rw [g0, eres]; norm_num
      have a1 : adj exShift ⟨1, 0, 0⟩ = 3 / 2 := by unfold adj; rw [g1, eres]; norm_num
      unfold pullback slopeOf pieceSlope blend
      dsimp only
      rw [a0, a1, eres]
      norm_num [exShift]
    rw [ex, eres] at hx
    refine hx.trans ?_
    norm_num

/-- The hypotheses of C113 hold for that field at the location (2.25, 0.5, 0.5) of the world, 1.25 cells into the grid:
the gradient is the slope 1 towards the first cell, up to the rounding. -/
example : ∃ y g : V3 ℝ, exKinkF.autoDiffGradient ieee (FDual.affApp (FDual.rowPairs ieee) exShift.inv)
      (fun p => byAxis (axisCell ieee 1) (affApp ieee exShift.inv p)) (loc ⟨9 / 4, 1 / 2, 1 / 2⟩) =
        some [real y.x, real y.y, real y.z] ∧
    HasFDerivAt (estimatedDistance exShift) (linForm g) (9 / 4, 1 / 2, 1 / 2) ∧ Within (1 / 2 ^ 20) y g := by
  have eres : exShift.res = 1 := rfl
  have kz := r64_coe_zero ieee
  have k1 : ieee.r64 ((1 : ℝ) : EReal) = ((1 : ℝ) : EReal) := r64_keep 1 0 (by norm_num) (by norm_num) (by norm_num) (by norm_num)
  have dx : DoubleRow exShift.inv.rx := ⟨k1, kz, kz⟩
  have dy : DoubleRow exShift.inv.ry := ⟨kz, k1, kz⟩
  have dz : DoubleRow exShift.inv.rz := ⟨kz, kz, k1⟩
  have nx : exShift.grid.dims.nx = 3 := rfl
  have ny : exShift.grid.dims.ny = 1 := rfl
  have nz : exShift.grid.dims.nz = 1 := rfl
  have eg : exShift.toGrid ⟨9 / 4, 1 / 2, 1 / 2⟩ = ⟨5 / 4 - 1 / 2 ^ 52, 1 / 2, 1 / 2⟩ := by
    ext <;> norm_num [exShift, MSdf.toGrid, Aff.app, exStep]
  have esz : exShift.size = ⟨3, 1, 1⟩ := by
    ext <;> simp [MSdf.size, nx, ny, nz, eres]
  obtain ⟨q', G, y, ey, -, -, -, hoff⟩ := C113_gradient_partial exShift_stores (N := 3) (by norm_num)
    (by rw [nx, ny, nz]; decide) (by rw [eres]; norm_num) (by rw [eres]; norm_num) (D := 5) (by norm_num)
    exShift_bound (by norm_num [RowSmall, exShift]) (C113_product dx dy dz).2 (C112_product exShift.inv)
    (C112_lookup (res := 1) (by norm_num) (by norm_num)) (p := ⟨9 / 4, 1 / 2, 1 / 2⟩) (M := 4) (by norm_num) (by norm_num)
    (by rw [eres]; norm_num [Reach, mag, exShift, exStep, abs_of_pos, abs_of_neg])
    (by rw [eg, esz, eres]; norm_num [faces])
  have off1 : ∀ {g : ℝ} (m : ℝ), OffCentres 1 m g := by
    intro g m k hk hk'
    exfalso
    push_cast at hk'
    omega
  obtain ⟨g, hg, hw⟩ := hoff
    (by
      rw [eg, nx, eres]
      intro k hk hk'
      have : k = 1 := by push_cast at hk'; omega
      subst this
      norm_num [abs_of_neg])
    (by rw [ny]; exact off1 _) (by rw [nz]; exact off1 _)
  refine ⟨y, g, ey, hg, ?_⟩
  rw [eres] at hw
  exact ⟨hw.1.trans (by norm_num), hw.2.1.trans (by norm_num), hw.2.2.trans (by norm_num)⟩

/-- A location of the world two cells beyond the far side of that grid meets the hypotheses of `C113_outside`. -/
example : exKinkF.autoDiffGradient ieee (FDual.affApp (FDual.rowPairs ieee) exShift.inv)
      (fun p => byAxis (axisCell ieee 1) (affApp ieee exShift.inv p)) (loc ⟨6, 1 / 2, 1 / 2⟩) = some [] := by
  have eres : exShift.res = 1 := rfl
  have nx : exShift.grid.dims.nx = 3 := rfl
  have ny : exShift.grid.dims.ny = 1 := rfl
  have nz : exShift.grid.dims.nz = 1 := rfl
  have eg : exShift.toGrid ⟨6, 1 / 2, 1 / 2⟩ = ⟨5 - 1 / 2 ^ 52, 1 / 2, 1 / 2⟩ := by
    ext <;> norm_num [exShift, MSdf.toGrid, Aff.app, exStep]
  have esz : exShift.size = ⟨3, 1, 1⟩ := by
    ext <;> simp [MSdf.size, nx, ny, nz, eres]
  exact C113_outside exShift_stores (N := 3) (by rw [eres]; norm_num) (by rw [eres]; norm_num) _
    (C112_product exShift.inv) (C112_lookup (res := 1) (by norm_num) (by norm_num)) (M := 8)
    (by norm_num) (by norm_num) (by rw [eres]; norm_num [Reach, mag, exShift, exStep, abs_of_pos, abs_of_neg])
    (by rw [eg, esz, eres]; norm_num [faces])

/-- A field built from a map without obstacles meets the hypotheses of `C113_no_obstacle`. -/
example : ∃ o, extract ieee (1 / 4, 1 / 4, 1 / 4) ⟨3, 3, 3⟩ (fun _ => some false) none false = some o ∧
    ∀ toGrid p, (FSdf.mk o.sdf (1 / 4)).autoDiffGradient ieee toGrid (fun _ => ⟨1, 2, 0⟩) p = some [none, none, none] := by
  have hf : Answers ⟨3, 3, 3⟩ (fun _ => some false) fun _ => false := fun _ _ => rfl
  have hd : SmallGrid ⟨3, 3, 3⟩ := by unfold SmallGrid; decide
  obtain ⟨o, ho, -⟩ := C13_sign quarter_good hd hf none
  exact ⟨o, ho, fun toGrid p => C113_no_obstacle quarter_good hd hf ho toGrid _ (by unfold InBounds; decide)⟩

end FSdf

end Verif
