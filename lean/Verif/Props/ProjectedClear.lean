import Verif.Props.SlowChange
import Verif.Props.AutoDiffFloat
import Verif.Spec.Volume

/-!
# C126: where `ProjectOutOfCollisionToMinimumDistance` ends

The projection ends where the reported distance exceeds the asked one.  Does that mean that the location is clear of the
obstacles?  Not for small distances: inside an obstacle, near a corner, the report can be positive.  In a field that
passes the check of C123 an asked distance of `7/4 * ρ` and 8 cells keeps the obstacles `ρ` away, wherever in the volume
the projection ends.
-/

namespace Verif

open Spec SdfGen DField

namespace FSdf

open SignedDist

/-- In cell units, on the axis up to a thousandth of a cell. -/
def NearAxis (n : ℕ) (t : ℝ) : Prop := -(1 / 1000) ≤ t ∧ t ≤ (n : ℝ) + 1 / 1000

/-- On the axis the interpolant is at most about twice the values: in the last half cells it extrapolates. -/
theorem axisInterp_near {n : Nat} (hn : 0 < n) {f : Int → ℝ} {V t : ℝ} (ht : NearAxis n t)
    (hf : ∀ k : Int, 0 ≤ k → k < n → |f k| ≤ V) : |axisInterp n f t| ≤ 201 / 100 * V := by
  obtain ⟨h0, h1, h2, h3⟩ := lowerCell_spec n t hn
  have fa := hf _ h0 h1
  have fb := hf _ h2 h3
  have hfl := Int.floor_le (t - 1 / 2)
  have hlt := Int.lt_floor_add_one (t - 1 / 2)
  have hV : 0 ≤ V := (abs_nonneg _).trans fa
  have w0 : -(501 / 1000) ≤ t - 1 / 2 - lowerCell n t := by
    rcases le_or_gt (0 : Int) ⌊t - 1 / 2⌋ with h | h
    · have : lowerCell n t ≤ ⌊t - 1 / 2⌋ := by unfold lowerCell; omega
      have : (lowerCell n t : ℝ) ≤ ⌊t - 1 / 2⌋ := by exact_mod_cast this
      linarith
    · have e : lowerCell n t = 0 := by unfold lowerCell; omega
      rw [e]; have := ht.1; push_cast; linarith
  have w1 : t - 1 / 2 - lowerCell n t ≤ 1501 / 1000 := by
    have h4 : (⌊t - 1 / 2⌋ : Int) ≤ lowerCell n t ∨ (n : Int) - 2 ≤ lowerCell n t := by
      unfold lowerCell; omega
    rcases h4 with h | h
    · have : (⌊t - 1 / 2⌋ : ℝ) ≤ lowerCell n t := by exact_mod_cast h
      linarith
    · have : ((n : Int) : ℝ) - 2 ≤ lowerCell n t := by exact_mod_cast h
      have := ht.2
      push_cast at *
      linarith
  unfold axisInterp lerp
  generalize t - 1 / 2 - (lowerCell n t : ℝ) = w at w0 w1
  generalize f (lowerCell n t) = a at fa
  generalize f (upperCell n t) = b at fb
  have hw : |1 - w| + |w| ≤ 201 / 100 := by
    rcases abs_cases (1 - w) with ⟨e1, _⟩ | ⟨e1, _⟩ <;> rcases abs_cases w with ⟨e2, _⟩ | ⟨e2, _⟩ <;>
      rw [e1, e2] <;> linarith
  calc |(1 - w) * a + w * b| ≤ |1 - w| * |a| + |w| * |b| := by
        refine (abs_add_le _ _).trans ?_
        rw [abs_mul, abs_mul]
    _ ≤ |1 - w| * V + |w| * V := by gcongr
    _ = (|1 - w| + |w|) * V := by ring
    _ ≤ 201 / 100 * V := by gcongr

/-- The interpolant in the volume, compared with a location between the cell centres. -/
theorem interpAt_edge {t : MSdf ℝ} (hr : 0 < t.res) {L : ℝ} (hL : 0 ≤ L) (hj : Jump t L) {a b : V3 ℝ}
    (hx : 0 < t.grid.dims.nx) (hy : 0 < t.grid.dims.ny) (hz : 0 < t.grid.dims.nz)
    (ax : NearAxis t.grid.dims.nx (a.x / t.res)) (ay : NearAxis t.grid.dims.ny (a.y / t.res))
    (hb : InnerLocation t.grid.dims t.res b) :
    |interpAt t a - interpAt t b| ≤
      L / t.res * (|a.x - b.x| + 201 / 100 * |a.y - b.y| + 41 / 10 * |a.z - b.z|) := by
  obtain ⟨bx, bY, bz⟩ := hb
  unfold interpAt
  rw [trilerp_nested, trilerp_nested]
  have step : ∀ u v : ℝ, |u / t.res - v / t.res| = |u - v| / t.res := by
    intro u v; rw [← sub_div, abs_div, abs_of_pos hr]
  generalize hc : (fun x y z => halfCellCloser t.res (t.grid.get ⟨x, y, z⟩)) = c
  have cx : ∀ x y z, 0 ≤ x → x + 1 < (t.grid.dims.nx : Int) → 0 ≤ y → y < (t.grid.dims.ny : Int) → 0 ≤ z →
      z < (t.grid.dims.nz : Int) → |c (x + 1) y z - c x y z| ≤ L := by
    intro x y z x0 x1 y0 y1 z0 z1
    rw [← hc]
    refine hj ⟨x + 1, y, z⟩ ⟨x, y, z⟩ ⟨⟨?_, ?_⟩, ⟨y0, y1⟩, z0, z1⟩ ⟨⟨x0, ?_⟩, ⟨y0, y1⟩, z0, z1⟩ ?_
    · dsimp only; omega
    · dsimp only; omega
    · dsimp only; omega
    · simp
  have cy : ∀ x y z, 0 ≤ x → x < (t.grid.dims.nx : Int) → 0 ≤ y → y + 1 < (t.grid.dims.ny : Int) → 0 ≤ z →
      z < (t.grid.dims.nz : Int) → |c x (y + 1) z - c x y z| ≤ L := by
    intro x y z x0 x1 y0 y1 z0 z1
    rw [← hc]
    refine hj ⟨x, y + 1, z⟩ ⟨x, y, z⟩ ⟨⟨x0, x1⟩, ⟨?_, ?_⟩, z0, z1⟩ ⟨⟨x0, x1⟩, ⟨y0, ?_⟩, z0, z1⟩ ?_
    · dsimp only; omega
    · dsimp only; omega
    · dsimp only; omega
    · simp
  have cz : ∀ x y z, 0 ≤ x → x < (t.grid.dims.nx : Int) → 0 ≤ y → y < (t.grid.dims.ny : Int) → 0 ≤ z →
      z + 1 < (t.grid.dims.nz : Int) → |c x y (z + 1) - c x y z| ≤ L := by
    intro x y z x0 x1 y0 y1 z0 z1
    rw [← hc]
    refine hj ⟨x, y, z + 1⟩ ⟨x, y, z⟩ ⟨⟨x0, x1⟩, ⟨y0, y1⟩, ?_, ?_⟩ ⟨⟨x0, x1⟩, ⟨y0, y1⟩, z0, ?_⟩ ?_
    · dsimp only; omega
    · dsimp only; omega
    · dsimp only; omega
    · simp
  have e : ∀ x y : Int, (fun z => halfCellCloser t.res (t.grid.get ⟨x, y, z⟩)) = c x y := by
    intro x y; rw [← hc]
  simp only [e]
  generalize hX : a.x / t.res = X at ax
  generalize hX' : b.x / t.res = X' at bx
  generalize hY : a.y / t.res = Y at ay
  generalize hY' : b.y / t.res = Y' at bY
  generalize hZ : a.z / t.res = Z
  generalize hZ' : b.z / t.res = Z' at bz
  have s1 : |axisInterp t.grid.dims.nx (fun x => axisInterp t.grid.dims.ny (fun y =>
        axisInterp t.grid.dims.nz (c x y) Z') Y') X -
      axisInterp t.grid.dims.nx (fun x => axisInterp t.grid.dims.ny (fun y =>
        axisInterp t.grid.dims.nz (c x y) Z') Y') X'| ≤ L * |X - X'| := by
    refine axisInterp_lip hx hL (fun x x0 x1 => ?_) X X'
    rw [axisInterp_sub]
    refine axisInterp_inner hy bY (fun y y0 y1 => ?_)
    rw [axisInterp_sub]
    exact axisInterp_inner hz bz (fun z z0 z1 => cx x y z x0 x1 y0 y1 z0 z1)
  have s2 : |axisInterp t.grid.dims.nx (fun x => axisInterp t.grid.dims.ny (fun y =>
        axisInterp t.grid.dims.nz (c x y) Z') Y) X -
      axisInterp t.grid.dims.nx (fun x => axisInterp t.grid.dims.ny (fun y =>
        axisInterp t.grid.dims.nz (c x y) Z') Y') X| ≤ 201 / 100 * (L * |Y - Y'|) := by
    rw [axisInterp_sub]
    refine axisInterp_near hx ax (fun x x0 x1 => ?_)
    refine axisInterp_lip hy hL (fun y y0 y1 => ?_) Y Y'
    rw [axisInterp_sub]
    exact axisInterp_inner hz bz (fun z z0 z1 => cy x y z x0 x1 y0 y1 z0 z1)
  have s3 : |axisInterp t.grid.dims.nx (fun x => axisInterp t.grid.dims.ny (fun y =>
        axisInterp t.grid.dims.nz (c x y) Z) Y) X -
      axisInterp t.grid.dims.nx (fun x => axisInterp t.grid.dims.ny (fun y =>
        axisInterp t.grid.dims.nz (c x y) Z') Y) X| ≤ 201 / 100 * (201 / 100 * (L * |Z - Z'|)) := by
    rw [axisInterp_sub]
    refine axisInterp_near hx ax (fun x x0 x1 => ?_)
    rw [axisInterp_sub]
    refine axisInterp_near hy ay (fun y y0 y1 => ?_)
    exact axisInterp_lip hz hL (fun z z0 z1 => cz x y z x0 x1 y0 y1 z0 z1) Z Z'
  have t1 := (abs_sub_le _ _ _).trans (add_le_add s3 s2)
  have t2 := (abs_sub_le _ _ _).trans (add_le_add t1 s1)
  refine t2.trans ?_
  have z0 : 0 ≤ L * |Z - Z'| := by positivity
  have e2 : L / t.res * (|a.x - b.x| + 201 / 100 * |a.y - b.y| + 41 / 10 * |a.z - b.z|) =
      L * |X - X'| + 201 / 100 * (L * |Y - Y'|) + 41 / 10 * (L * |Z - Z'|) := by
    rw [← hX, ← hX', ← hY, ← hY', ← hZ, ← hZ', step, step, step]
    ring
  rw [e2]
  linarith

/-- A location on the axis is at most half a cell, and a thousandth, from a location between the cell centres. -/
theorem clamp_inner {n : ℕ} (hn : 0 < n) {res x : ℝ} (hr : 0 < res)
    (hx : -(res / 1000) ≤ x ∧ x ≤ n * res + res / 1000) :
    ∃ y, Inner n (y / res) ∧ |x - y| ≤ 501 / 1000 * res ∧ NearAxis n (x / res) := by
  obtain ⟨t, rfl⟩ : ∃ t, x = t * res := ⟨x / res, by field_simp⟩
  have h1 : -(1 / 1000) ≤ t := by
    refine le_of_mul_le_mul_right ?_ hr
    linarith [hx.1]
  have h2 : t ≤ (n : ℝ) + 1 / 1000 := by
    refine le_of_mul_le_mul_right ?_ hr
    linarith [hx.2]
  have n1 : (1 : ℝ) ≤ n := by exact_mod_cast hn
  refine ⟨max (1 / 2) (min t ((n : ℝ) - 1 / 2)) * res, ?_, ?_, ?_⟩
  · rw [mul_div_cancel_right₀ _ hr.ne']
    refine Or.inr ⟨le_max_left _ _, max_le (by linarith) (min_le_right _ _)⟩
  · rw [← sub_mul, abs_mul, abs_of_pos hr]
    refine mul_le_mul_of_nonneg_right ?_ hr.le
    rw [abs_le]
    rcases max_cases (1 / 2) (min t ((n : ℝ) - 1 / 2)) with ⟨e, h⟩ | ⟨e, h⟩ <;>
      rcases min_cases t ((n : ℝ) - 1 / 2) with ⟨e', h'⟩ | ⟨e', h'⟩ <;> rw [e'] at e h <;> rw [e'] <;> rw [e] <;>
      constructor <;> linarith
  · rw [mul_div_cancel_right₀ _ hr.ne']
    exact ⟨h1, h2⟩

/-- In a field that passes the check, the interpolant anywhere in the volume is at most 7/4 of the distance to any
point of an obstacle, and 31/4 cells. -/
theorem interp_anywhere {res : ℝ} (hres : GoodRes ieee res) (hlo : 1 / 2 ^ 100 ≤ res) (hhi : res ≤ 2 ^ 100)
    {d : Dims} {N : ℕ} (hN : N ≤ 2 ^ 14) (hdim : d.nx ≤ N ∧ d.ny ≤ N ∧ d.nz ≤ N)
    {fill : Idx → Option Bool} {f : Idx → Bool} (hf : Answers d fill f) (hb : BothClasses d f)
    {oob : FVal} {o : Out} (ho : extract ieee (res, res, res) d fill oob false = some o) {g : Idx → ℝ}
    (hg : Checked d res o.sdf.get g) (inv : Aff ℝ) {q : V3 ℝ} (hq : NearVolume d res q) {r : V3 ℝ} :
    (Region d res f true r → interpAt (exactAt (FSdf.mk o.sdf res) inv) q ≤ 7 / 4 * dist3 q r + 31 / 4 * res) ∧
    (Region d res f false r → -(7 / 4 * dist3 q r + 31 / 4 * res) ≤ interpAt (exactAt (FSdf.mk o.sdf res) inv) q) := by
  have hsm := small_of hN hdim
  have hdims := extract_dims hsm hf ho
  have hlo' : (1 : ℝ) / 2 ^ 126 ≤ res := le_trans (by norm_num) hlo
  have hfin : ∀ v, InBounds d v → ∃ x : ℝ, o.sdf.get v = real x := fun v hv => ⟨g v, hg.1 v hv⟩
  obtain ⟨st, hS, hD⟩ := values_of_map hres hlo hhi hN hdim hf ho hfin inv
  have hj := checked_jump hres hlo' hhi hsm hf ho hg inv
  obtain ⟨hx, hy, hz⟩ := both_pos hb
  have r0 := hres.1
  have s3 := sqrt3_bounds.2
  have hW : SignedDist.Within (exactAt (FSdf.mk o.sdf res) inv) f (7 / 4) (res / 512) := by
    intro v hv m hm
    have hv' : InBounds d v := by rw [← hdims]; exact hv
    have hm' : NearestOpposite d f v m := by rw [← hdims]; exact hm
    obtain ⟨⟨w, hw, rfl⟩, -⟩ := hm'
    have eg : (exactAt (FSdf.mk o.sdf res) inv).grid.get v = toR (o.sdf.get v) := exact_get (FSdf.mk o.sdf res) v
    have t : toR (some (g v : EReal)) = g v := by simp [toR]
    rw [eg, hg.1 v hv', t]
    show signed (f v) (g v) ≤ 7 / 4 * (res * Real.sqrt (sqDist v w)) + res / 512
    have := (C123_stored hres hlo' hhi hsm hf ho hg hv' hw).2
    linarith
  have hNr : (N : ℝ) * res ≤ 2 ^ 14 * res := by
    have hN' : (N : ℝ) ≤ 2 ^ 14 := by exact_mod_cast hN
    gcongr
  have he : N / 2 ^ 23 * res ≤ res / 512 := by linarith
  obtain ⟨x', ix, dx, nx⟩ := clamp_inner hx r0 hq.1
  obtain ⟨y', iy, dy, ny⟩ := clamp_inner hy r0 hq.2.1
  obtain ⟨z', iz, dz, nz⟩ := clamp_inner hz r0 hq.2.2
  have hq' : InnerLocation d res ⟨x', y', z'⟩ := ⟨ix, iy, iz⟩
  obtain ⟨sd, hs⟩ := inner_sd r0 hb hq'
  subst hdims
  obtain ⟨b1, b2⟩ := interp_within (t := exactAt (FSdf.mk o.sdf res) inv) r0 hx hy hz hb
    (e := N / 2 ^ 23 * res) (lt_of_le_of_lt he (by show res / 512 < res; linarith)) hS (by norm_num)
    he hW hq' hs
  obtain ⟨u1, u2⟩ := interp_sound (t := exactAt (FSdf.mk o.sdf res) inv) r0 hx hy hz hb
    (e := N / 2 ^ 23 * res) (lt_of_le_of_lt he (by show res / 512 < res; linarith)) hS hq' hs
  have hl := interpAt_edge (t := exactAt (FSdf.mk o.sdf res) inv) (a := q) r0 (by positivity) hj hx hy hz nx ny hq'
  have er : (exactAt (FSdf.mk o.sdf res) inv).res = res := rfl
  rw [er] at b1 b2 u1 u2 hl
  have e1 : 101 / 100 * res / res = 101 / 100 := by field_simp
  rw [e1] at hl
  dsimp only at hl
  have c4 : (7 / 4 * Real.sqrt 3 - 1 / 2) * res ≤ (7 / 4 * (17321 / 10000) - 1 / 2) * res := by gcongr
  have c5 : (Real.sqrt 3 - 1 / 2) * res ≤ (17321 / 10000 - 1 / 2) * res := by gcongr
  have hd3 : dist3 ⟨x', y', z'⟩ q ≤ 17321 / 10000 * (501 / 1000 * res) := by
    rw [dist3_comm]
    exact dist3_le_coords (by positivity) dx dy dz
  have tri := dist3_tri ⟨x', y', z'⟩ q r
  have d0 : 0 ≤ dist3 q r := Real.sqrt_nonneg _
  obtain ⟨l1, l2⟩ := abs_le.mp hl
  constructor
  · intro hr
    rcases le_total 0 sd with h0 | h0
    · have h1 := b1 h0
      have h2 := (hs.outside h0).2 r hr
      linarith
    · have h1 := u2 h0
      linarith
  · intro hr
    rcases le_total 0 sd with h0 | h0
    · have h1 := u1 h0
      linarith
    · have h1 := b2 h0
      have h2 := (hs.inside h0).2 r hr
      linarith

theorem near_small {A : Aff ℝ} (hA : NearRotation A) : RowSmall A.rx ∧ RowSmall A.ry ∧ RowSmall A.rz := by
  obtain ⟨h1, h2, h3⟩ := hA
  have c1 := column_small h1.1
  have c2 := column_small h2.2.1
  have c3 := column_small h3.2.2
  have up : ∀ {a : ℝ}, |a| ≤ 1 + 1 / 2 ^ 40 → |a| ≤ 2 := fun h => by norm_num at h ⊢; linarith
  exact ⟨⟨up c1.1, up c2.1, up c3.1⟩, ⟨up c1.2.1, up c2.2.1, up c3.2.1⟩, up c1.2.2, up c2.2.2, up c3.2.2⟩

/-- C126: where the projection ends in a field that passes the check.  The location is in the volume up to a thousandth
of a cell, and the asked distance is at most 7/4 of the distance to any point of an obstacle, and 8 cells. -/
theorem C126_projected_partial {res : ℝ} (hres : GoodRes ieee res) (hlo : 1 / 2 ^ 100 ≤ res) (hhi : res ≤ 2 ^ 60)
    {d : Dims} {N : ℕ} (hN : N ≤ 2 ^ 14) (hdim : d.nx ≤ N ∧ d.ny ≤ N ∧ d.nz ≤ N)
    {fill : Idx → Option Bool} {f : Idx → Bool} (hf : Answers d fill f) (hb : BothClasses d f)
    {oob : FVal} {o : Out} (ho : extract ieee (res, res, res) d fill oob false = some o) {g : Idx → ℝ}
    (hg : Checked d res o.sdf.get g) {A : Aff ℝ} (hA : NearRotation A) {M : ℝ} (hNM : (N : ℝ) ≤ M)
    (hM : M * N ≤ 2 ^ 29) (hT : OriginWithin A (M * res)) {G : Geometry} (hG : G.cellOf = byAxis (axisCell ieee res))
    {inB : V3 FVal → Bool} {into toGrid : V3 FVal → V3 FVal} {p p' : V3 FVal} {m : ℝ} {mult : FVal} {fuel : Nat}
    (hdone : (FSdf.mk o.sdf res).projectOut ieee G inB into toGrid (affApp ieee A) p (real m) mult fuel = .done p') :
    ∃ c w : V3 ℝ, p' = loc w ∧ NearVolume d res c ∧ dist3 w (A.app id c) ≤ res / 1000 ∧
      ∀ r, Region d res f true r → m ≤ 7 / 4 * dist3 w (A.app id r) + 8 * res := by
  have hhi' : res ≤ 2 ^ 100 := hhi.trans (by norm_num)
  have r0 := hres.1
  obtain ⟨px, py, pz⟩ := both_pos hb
  have N1 : 1 ≤ N := by omega
  have N1' : (1 : ℝ) ≤ N := by exact_mod_cast N1
  have N2 : (N : ℝ) ≤ 2 ^ 14 := by exact_mod_cast hN
  have M1 : 1 ≤ M := N1'.trans hNM
  have hM2 : M ≤ 2 ^ 29 := le_trans (le_mul_of_one_le_right (by linarith) N1') hM
  have hsm := small_of hN hdim
  have hdims := extract_dims hsm hf ho
  have hfin : ∀ v, InBounds d v → ∃ x : ℝ, o.sdf.get v = real x := fun v hv => ⟨g v, hg.1 v hv⟩
  obtain ⟨st, hS, hD⟩ := values_of_map hres hlo hhi' hN hdim hf ho hfin A
  have any := fun q hq r => interp_anywhere hres hlo hhi' hN hdim hf hb ho hg A (q := q) hq (r := r)
  have hl := C112_lookup hlo hhi'
  have big : d.nx ≤ 2 ^ 20 ∧ d.ny ≤ 2 ^ 20 ∧ d.nz ≤ 2 ^ 20 := by omega
  have hok : G.Ok d res := C112_geometry r0 hl hG big
  subst hdims
  have hD' : 2 * (N : ℝ) * res ≤ 2 ^ 150 := by
    calc 2 * (N : ℝ) * res ≤ 2 * 2 ^ 14 * 2 ^ 100 := by gcongr
      _ ≤ 2 ^ 150 := by norm_num
  obtain ⟨q, y, z, ep, hin, -, -, ez, hz⟩ := C103_returned_partial st (hN.trans (by norm_num)) hdim hlo hhi' hD' hD hok hdone
  have cube : ∀ {n : ℕ} {u : ℝ}, n ≤ N → 0 ≤ axisCell ieee res (real u) → axisCell ieee res (real u) < (n : Int) →
      |u - ((axisCell ieee res (real u) : ℝ) + 1 / 2) * res| < res ∧ -(res / 1000) ≤ u ∧ u ≤ n * res + res / 1000 := by
    intro n u hn h0 h1
    obtain ⟨v, ev, hv⟩ := axis_ok r0 hl (n := n) (by omega) h0 h1
    obtain rfl : u = v := by unfold real at ev; simpa using ev
    have k0 : (0 : ℝ) ≤ axisCell ieee res (real u) := by exact_mod_cast h0
    have k1 : (axisCell ieee res (real u) : ℝ) + 1 ≤ n := by exact_mod_cast h1
    have nN : (n : ℝ) ≤ 2 ^ 14 := le_trans (by exact_mod_cast hn) N2
    obtain ⟨v1, v2⟩ := abs_le.mp hv
    have kr : 0 ≤ (axisCell ieee res (real u) : ℝ) * res := by positivity
    have kr' : ((axisCell ieee res (real u) : ℝ) + 1) * res ≤ 2 ^ 14 * res := by gcongr; linarith
    obtain ⟨c1, c2⟩ := lookup_cube r0 hl (x := u) (y := u) (by
      rw [abs_le]; constructor <;> linarith) (by simp; positivity)
    generalize (axisCell ieee res (real u) : ℝ) = k at k0 k1 v1 v2 kr kr' c1 c2
    refine ⟨?_, by linarith, ?_⟩
    · rw [abs_lt]; constructor <;> linarith
    · have : (k + 1) * res ≤ n * res := by gcongr
      linarith
  rw [hG] at hin ez
  obtain ⟨⟨x0, x1⟩, ⟨y0, y1⟩, z0, z1⟩ := id hin
  obtain ⟨gx, vx⟩ := cube hdim.1 x0 x1
  obtain ⟨gy, vy⟩ := cube hdim.2.1 y0 y1
  obtain ⟨gz, vz⟩ := cube hdim.2.2 z0 z1
  rw [estGrid_near r0 hin gx gy gz] at ez
  have ez' := Option.some.inj ez
  rw [← ez'] at hz
  have hvol : NearVolume o.sdf.dims res q := ⟨vx, vy, vz⟩
  have co : ∀ {n : ℕ} {u : ℝ}, n ≤ N → -(res / 1000) ≤ u ∧ u ≤ n * res + res / 1000 → |u| ≤ 2 * M * res := by
    intro n u hn h
    have nM : (n : ℝ) ≤ M := le_trans (by exact_mod_cast hn) hNM
    have : (n : ℝ) * res ≤ M * res := by gcongr
    have : 1 * res ≤ M * res := by gcongr
    rw [abs_le]
    constructor <;> linarith [h.1, h.2]
  obtain ⟨a1, a2, a3⟩ := near_small hA
  have reachA : Reach A q (16 * M * res) := by
    refine reach_of a1 a2 a3 ⟨co hdim.1 vx, co hdim.2.1 vy, co hdim.2.2 vz⟩ hT ?_
    have : 0 ≤ M * res := by positivity
    linarith
  obtain ⟨w, ew, hw⟩ := grid_near (C112_product A) hlo hhi' (M := 16 * M) (by linarith) (by linarith) reachA
  have hdw : dist3 w (A.app id q) ≤ res / 1000 := by
    have small : 16 * M * res / 2 ^ 49 ≤ res / 2 ^ 16 := by
      have : M * res ≤ 2 ^ 29 * res := by gcongr
      linarith
    have := dist3_le_coords (by positivity) (hw.1.trans small) (hw.2.1.trans small) (hw.2.2.trans small)
    linarith
  refine ⟨q, w, ep.trans ew, hvol, hdw, fun r hr => ?_⟩
  have h1 := (any q hvol r).1 hr
  have iso := near_isometry hA q r
  have tri := dist3_tri (A.app id q) w (A.app id r)
  rw [dist3_comm (A.app id q) w] at tri
  have far : dist3 q r ≤ 2 ^ 16 * res := by
    obtain ⟨i, ⟨⟨i0, i1⟩, ⟨j0, j1⟩, k0, k1⟩, -, ⟨rx0, rx1⟩, ⟨ry0, ry1⟩, rz0, rz1⟩ := hr
    have ax : ∀ {n : ℕ} {u v : ℝ} {k : Int}, n ≤ N → 0 ≤ k → k < (n : Int) → k * res ≤ v → v ≤ (k + 1) * res →
        -(res / 1000) ≤ u ∧ u ≤ n * res + res / 1000 → |u - v| ≤ 2 ^ 15 * res := by
      intro n u v k hn k0 k1 v0 v1 hu
      have k0' : (0 : ℝ) ≤ k := by exact_mod_cast k0
      have k1' : (k : ℝ) + 1 ≤ n := by exact_mod_cast k1
      have nN : (n : ℝ) ≤ 2 ^ 14 := le_trans (by exact_mod_cast hn) N2
      have e0 : 0 ≤ (k : ℝ) * res := by positivity
      have e1 : ((k : ℝ) + 1) * res ≤ 2 ^ 14 * res := by gcongr; linarith
      have e2 : (n : ℝ) * res ≤ 2 ^ 14 * res := by gcongr
      rw [abs_le]
      constructor <;> linarith [hu.1, hu.2]
    have := dist3_le_coords (by positivity) (ax hdim.1 i0 i1 rx0 rx1 vx) (ax hdim.2.1 j0 j1 ry0 ry1 vy)
      (ax hdim.2.2 k0 k1 rz0 rz1 vz)
    linarith
  have errs : N / 2 ^ 40 * (2 * N * res + res / 2) ≤ res / 100 := by
    calc N / 2 ^ 40 * (2 * N * res + res / 2) ≤ 2 ^ 14 / 2 ^ 40 * (2 * 2 ^ 14 * res + res / 2) := by gcongr
      _ ≤ res / 100 := by linarith
  have hz' : m - N / 2 ^ 40 * (2 * N * res + res / 2) < interpAt (exactAt (FSdf.mk o.sdf res) A) q := hz
  obtain ⟨iso1, iso2⟩ := iso
  norm_num at iso1 iso2 far ⊢
  linarith

/-- C126 for maps whose filled (or free) cells form a product of sets along the axes: no check is needed. -/
theorem C126_product_partial {res : ℝ} (hres : GoodRes ieee res) (hlo : 1 / 2 ^ 100 ≤ res) (hhi : res ≤ 2 ^ 60)
    {d : Dims} {N : ℕ} (hN : N ≤ 2 ^ 14) (hdim : d.nx ≤ N ∧ d.ny ≤ N ∧ d.nz ≤ N)
    {fill : Idx → Option Bool} {f : Idx → Bool} (hf : Answers d fill f) (hb : BothClasses d f) {X Y Z : ℤ → Prop}
    (hprod : IsProduct d (fun i => f i = true) X Y Z ∨ IsProduct d (fun i => f i = false) X Y Z)
    {oob : FVal} {o : Out} (ho : extract ieee (res, res, res) d fill oob false = some o)
    {A : Aff ℝ} (hA : NearRotation A) {M : ℝ} (hNM : (N : ℝ) ≤ M)
    (hM : M * N ≤ 2 ^ 29) (hT : OriginWithin A (M * res)) {G : Geometry} (hG : G.cellOf = byAxis (axisCell ieee res))
    {inB : V3 FVal → Bool} {into toGrid : V3 FVal → V3 FVal} {p p' : V3 FVal} {m : ℝ} {mult : FVal} {fuel : Nat}
    (hdone : (FSdf.mk o.sdf res).projectOut ieee G inB into toGrid (affApp ieee A) p (real m) mult fuel = .done p') :
    ∃ c w : V3 ℝ, p' = loc w ∧ NearVolume d res c ∧ dist3 w (A.app id c) ≤ res / 1000 ∧
      ∀ r, Region d res f true r → m ≤ 7 / 4 * dist3 w (A.app id r) + 8 * res := by
  obtain ⟨g, hg⟩ := C123_product hres (le_trans (by norm_num) hlo) (hhi.trans (by norm_num)) hN hdim hf hb hprod ho
  exact C126_projected_partial hres hlo hhi hN hdim hf hb ho hg hA hNM hM hT hG hdone

/-- A location with a report above the asked distance is returned as it is. -/
theorem returned_at {s : FSdf} {G : Geometry} {p : V3 FVal} {y m : ℝ}
    (he : s.estimate ieee id G.cellOf p = some (real y, true)) (hm : m < y) {inB : V3 FVal → Bool} (hin : inB p = true)
    {into toGrid toWorld : V3 FVal → V3 FVal} (hp : toGrid p = p) {mult : FVal} {fuel : Nat} :
    s.projectOut ieee G inB into toGrid toWorld p (real m) mult fuel = .done (toWorld p) := by
  have hest : s.estGrid ieee p (G.cellOf p) = some (real y) := by
    unfold estimate at he
    split_ifs at he with hb
    · cases hc : s.estGrid ieee p (G.cellOf p) with
      | none => rw [id, hc] at he; simp at he
      | some v => rw [id, hc] at he; simpa using he
    · simp at he
  have hle : Fl.le (real y) (real m) = false := by
    simp only [Fl.le, real, decide_eq_false_iff_not, not_le]
    exact_mod_cast hm
  have hloop : s.projectOutLoop ieee G (real m) mult fuel p = .done p := by
    unfold projectOutLoop
    simp only [hest, hle]
    rfl
  unfold projectOut
  dsimp only
  rw [if_pos hin, hp, hloop]

/-! ### The report inside an obstacle -/

/-- A map of 27 cells of which the one in the middle is filled. -/
def exSpot (i : Idx) : Bool := decide (i.x = 1 ∧ i.y = 1 ∧ i.z = 1)

/-- The pose that moves nothing. -/
def exHere : Aff ℝ := ⟨⟨1, 0, 0⟩, ⟨0, 1, 0⟩, ⟨0, 0, 1⟩, ⟨0, 0, 0⟩⟩

theorem exHere_app {v : V3 ℝ} (hx : ieee.r64 (v.x : EReal) = (v.x : EReal)) (hy : ieee.r64 (v.y : EReal) = (v.y : EReal))
    (hz : ieee.r64 (v.z : EReal) = (v.z : EReal)) : affApp ieee exHere (loc v) = loc v := by
  have z0 := r64_coe_zero ieee
  have row : ∀ {a b c x y z w : ℝ}, a * x + b * y + c * z = w → ieee.r64 ((a * x : ℝ) : EReal) = ((a * x : ℝ) : EReal) →
      ieee.r64 ((b * y : ℝ) : EReal) = ((b * y : ℝ) : EReal) → ieee.r64 ((c * z : ℝ) : EReal) = ((c * z : ℝ) : EReal) →
      ieee.r64 ((a * x + b * y : ℝ) : EReal) = ((a * x + b * y : ℝ) : EReal) → ieee.r64 (w : EReal) = (w : EReal) →
      rowApp ieee ⟨a, b, c⟩ 0 ⟨real x, real y, real z⟩ = real w := by
    intro a b c x y z w h1 h2 h3 h4 h5 h6
    unfold rowApp
    rw [mul_coe rfl h2, mul_coe rfl h3, mul_coe rfl h4, add_coe rfl h5, add_coe h1 h6,
      mul_coe (zero_mul (1 : ℝ)) z0, add_coe (add_zero w) h6]
  unfold affApp loc exHere
  dsimp only
  rw [row (w := v.x) (by ring) (by simpa using hx) (by simpa using z0) (by simpa using z0) (by simpa using hx) hx,
    row (w := v.y) (by ring) (by simpa using z0) (by simpa using hy) (by simpa using z0) (by simpa using hy) hy,
    row (w := v.z) (by ring) (by simpa using z0) (by simpa using z0) (by simpa using hz) (by simpa using z0) hz]

theorem axis_three (f : Int → ℝ) : axisInterp 3 f (9 / 8) = 3 / 8 * f 0 + 5 / 8 * f 1 := by
  have hf : ⌊(9 / 8 - 1 / 2 : ℝ)⌋ = 0 := by rw [Int.floor_eq_iff]; norm_num
  have e0 : lowerCell 3 (9 / 8 : ℝ) = 0 := by unfold lowerCell; rw [hf]; rfl
  have e1 : upperCell 3 (9 / 8 : ℝ) = 1 := by unfold upperCell; rw [e0]; rfl
  unfold axisInterp lerp
  rw [e0, e1]
  push_cast
  ring

/-- C126 fails for small distances: a location inside the filled cell, an eighth of a cell from its faces, is returned
as it is although a quarter of a cell was asked for. -/
theorem C126_false : ∃ (o : Out) (q : V3 ℝ), extract ieee ((1 / 4 : ℝ), (1 / 4 : ℝ), (1 / 4 : ℝ)) ⟨3, 3, 3⟩
      (fun i => some (exSpot i)) (some ⊤) false = some o ∧ exSpot ⟨1, 1, 1⟩ = true ∧ InsideCube (1 / 4) ⟨1, 1, 1⟩ q ∧
    isoInverse ieee exHere = (exHere.rx, exHere.ry, exHere.rz, loc exHere.t) ∧
    ∀ (G : Geometry) (inB : V3 FVal → Bool) (into : V3 FVal → V3 FVal) (mult : FVal) (fuel : Nat),
      G.cellOf = byAxis (axisCell ieee (1 / 4)) → inB (loc q) = true →
      (FSdf.mk o.sdf (1 / 4)).projectOut ieee G inB into (affApp ieee exHere) (affApp ieee exHere) (loc q)
        (real (1 / 16)) mult fuel = .done (loc q) := by
  have hd : SmallGrid ⟨3, 3, 3⟩ := by unfold SmallGrid; decide
  have ans : Answers ⟨3, 3, 3⟩ (fun i => some (exSpot i)) exSpot := fun _ _ => rfl
  obtain ⟨o, _, _, ho, _⟩ := base_spec hd ans ieee (1 / 4) (some ⊤)
  rw [← extract_false] at ho
  have hdims := extract_dims hd ans ho
  have prod : IsProduct ⟨3, 3, 3⟩ (fun i => exSpot i = true) (fun x => x = 1) (fun y => y = 1) (fun z => z = 1) :=
    fun i _ => by simp [exSpot]
  have z0 := r64_coe_zero ieee
  have k9 : ieee.r64 ((9 / 32 : ℝ) : EReal) = ((9 / 32 : ℝ) : EReal) :=
    r64_keep 9 (-5) (by norm_num) (by norm_num) (by norm_num) (by norm_num)
  have happ := exHere_app (v := ⟨9 / 32, 9 / 32, 9 / 32⟩) k9 k9 k9
  have val : ∀ {v : Idx}, InBounds ⟨3, 3, 3⟩ v → ∀ {m : ℤ}, NearestOpposite ⟨3, 3, 3⟩ exSpot v m →
      ∃ y : ℝ, 0 < y ∧ toR (o.sdf.get v) = signed (exSpot v) y ∧ |y - 1 / 4 * Real.sqrt m| ≤ 1 / 1000 * (1 / 4 * Real.sqrt m) := by
    intro v hv m hm
    obtain ⟨y, hy, y0, he⟩ := C91_ieee quarter_good (by norm_num) (by norm_num) hd ans (Or.inl prod) ho hv hm
    refine ⟨y, y0, ?_, he.trans ?_⟩
    · rw [hy]; cases exSpot v <;> simp [toR, signed]
    · have rel : relErr ≤ 1 / 1000 := by unfold relErr; norm_num
      gcongr
  have hfin : ∀ v, InBounds ⟨3, 3, 3⟩ v → ∃ x : ℝ, o.sdf.get v = real x := by
    intro v hv
    obtain ⟨m, hm⟩ := both_opposite (d := ⟨3, 3, 3⟩) (f := exSpot)
      ⟨⟨⟨1, 1, 1⟩, by norm_num [InBounds], by decide⟩, ⟨0, 0, 0⟩, by norm_num [InBounds], by decide⟩ (v := v)
    obtain ⟨y, hy, -, -⟩ := C91_ieee quarter_good (by norm_num) (by norm_num) hd ans (Or.inl prod) ho hv hm
    rw [hy]
    cases exSpot v
    · exact ⟨y, by simp [real]⟩
    · exact ⟨-y, by simp [real]⟩
  have free : ∀ (a b c : ℤ), (0 ≤ a ∧ a ≤ 1) → (0 ≤ b ∧ b ≤ 1) → (0 ≤ c ∧ c ≤ 1) → a + b + c < 3 →
      NearestOpposite ⟨3, 3, 3⟩ exSpot ⟨a, b, c⟩ (3 - (a + b + c)) := by
    intro a b c ha hb hc hs
    have hf : exSpot ⟨a, b, c⟩ = false := by
      unfold exSpot; rw [decide_eq_false_iff_not]; dsimp only; omega
    have sq : sqDist ⟨a, b, c⟩ ⟨1, 1, 1⟩ = 3 - (a + b + c) := by
      have ha' : a = 0 ∨ a = 1 := by omega
      have hb' : b = 0 ∨ b = 1 := by omega
      have hc' : c = 0 ∨ c = 1 := by omega
      rcases ha' with rfl | rfl <;> rcases hb' with rfl | rfl <;> rcases hc' with rfl | rfl <;> norm_num [sqDist]
    refine ⟨⟨⟨1, 1, 1⟩, ⟨by norm_num [InBounds], by rw [hf]; decide⟩, sq⟩, ?_⟩
    rintro ⟨x, y, z⟩ ⟨-, hp⟩
    rw [hf] at hp
    have : x = 1 ∧ y = 1 ∧ z = 1 := by simpa [exSpot] using hp
    obtain ⟨rfl, rfl, rfl⟩ := this
    exact sq.ge
  have mid : NearestOpposite ⟨3, 3, 3⟩ exSpot ⟨1, 1, 1⟩ 1 :=
    ⟨⟨⟨0, 1, 1⟩, ⟨by norm_num [InBounds], by decide⟩, by norm_num [sqDist]⟩, fun p hp => opposite_pos hp⟩
  obtain ⟨st, -, hD⟩ := values_of_map quarter_good (by norm_num) (by norm_num) (N := 3) (by norm_num) (by decide) ans ho
    hfin exHere
  have cv : ∀ (a b c : ℤ), (0 ≤ a ∧ a ≤ 1) → (0 ≤ b ∧ b ≤ 1) → (0 ≤ c ∧ c ≤ 1) → a + b + c < 3 →
      1 / 4 * (999 / 1000 * Real.sqrt ((3 - (a + b + c) : ℤ) : ℝ) - 1 / 2) ≤
        halfCellCloser (1 / 4) ((exactAt (FSdf.mk o.sdf (1 / 4)) exHere).grid.get ⟨a, b, c⟩) := by
    intro a b c ha hb hc hs
    obtain ⟨y, y0, ey, hy⟩ := val (v := ⟨a, b, c⟩) (by
      refine ⟨⟨ha.1, ?_⟩, ⟨hb.1, ?_⟩, hc.1, ?_⟩ <;> dsimp only <;> omega) (free a b c ha hb hc hs)
    have hf : exSpot ⟨a, b, c⟩ = false := by
      unfold exSpot; rw [decide_eq_false_iff_not]; dsimp only; omega
    have eg : (exactAt (FSdf.mk o.sdf (1 / 4)) exHere).grid.get ⟨a, b, c⟩ = toR (o.sdf.get ⟨a, b, c⟩) :=
      exact_get (FSdf.mk o.sdf (1 / 4)) ⟨a, b, c⟩
    rw [eg, ey, hf]
    simp only [signed, Bool.false_eq_true, if_false]
    unfold halfCellCloser
    rw [if_pos y0.le]
    have := (abs_le.mp hy).1
    linarith
  have c0 : 1 / 4 * (-(501 / 1000)) ≤
      halfCellCloser (1 / 4) ((exactAt (FSdf.mk o.sdf (1 / 4)) exHere).grid.get ⟨1, 1, 1⟩) := by
    obtain ⟨y, y0, ey, hy⟩ := val (v := ⟨1, 1, 1⟩) (by norm_num [InBounds]) mid
    have hf : exSpot ⟨1, 1, 1⟩ = true := by decide
    have eg : (exactAt (FSdf.mk o.sdf (1 / 4)) exHere).grid.get ⟨1, 1, 1⟩ = toR (o.sdf.get ⟨1, 1, 1⟩) :=
      exact_get (FSdf.mk o.sdf (1 / 4)) ⟨1, 1, 1⟩
    rw [eg, ey, hf]
    simp only [signed, if_true]
    unfold halfCellCloser
    rw [if_neg (by linarith)]
    have := (abs_le.mp hy).2
    simp only [Int.cast_one, Real.sqrt_one, mul_one] at this
    linarith
  have s2 : (1414 / 1000 : ℝ) ≤ Real.sqrt 2 := Real.le_sqrt_of_sq_le (by norm_num)
  have s3 : (1732 / 1000 : ℝ) ≤ Real.sqrt 3 := Real.le_sqrt_of_sq_le (by norm_num)
  have low : 3 / 10 * (1 / 4) ≤ interpAt (exactAt (FSdf.mk o.sdf (1 / 4)) exHere) ⟨9 / 32, 9 / 32, 9 / 32⟩ := by
    have ed : (exactAt (FSdf.mk o.sdf (1 / 4)) exHere).grid.dims = ⟨3, 3, 3⟩ := hdims
    unfold interpAt
    rw [trilerp_nested, ed]
    have er : (exactAt (FSdf.mk o.sdf (1 / 4)) exHere).res = 1 / 4 := rfl
    have e98 : (9 / 32 : ℝ) / (1 / 4) = 9 / 8 := by norm_num
    rw [er, e98]
    simp only [axis_three]
    have h000 := cv 0 0 0 (by decide) (by decide) (by decide) (by decide)
    have h001 := cv 0 0 1 (by decide) (by decide) (by decide) (by decide)
    have h010 := cv 0 1 0 (by decide) (by decide) (by decide) (by decide)
    have h011 := cv 0 1 1 (by decide) (by decide) (by decide) (by decide)
    have h100 := cv 1 0 0 (by decide) (by decide) (by decide) (by decide)
    have h101 := cv 1 0 1 (by decide) (by decide) (by decide) (by decide)
    have h110 := cv 1 1 0 (by decide) (by decide) (by decide) (by decide)
    norm_num at h000 h001 h010 h011 h100 h101 h110 c0 ⊢
    linarith
  refine ⟨o, ⟨9 / 32, 9 / 32, 9 / 32⟩, ho, by decide, by norm_num [InsideCube], ?_, ?_⟩
  · have m0 : ∀ {x : ℝ}, Fl.mul ieee (real x) (real 0) = real 0 := mul_coe (mul_zero _) z0
    have a0 : Fl.add ieee (real 0) (real 0) = real 0 := add_coe (add_zero _) z0
    have n0 : Fl.neg (real 0) = real 0 := by simp [Fl.neg, real]
    unfold isoInverse exHere dotApp loc
    dsimp only
    simp only [m0, a0, n0]
  · intro G inB into mult fuel hG hin
    have hloc : G.cellOf (loc ⟨9 / 32, 9 / 32, 9 / 32⟩) = ⟨1, 1, 1⟩ := by
      have hl := C112_lookup (res := 1 / 4) (by norm_num) (by norm_num)
      have one : axisCell ieee (1 / 4) (real (9 / 32)) = 1 := by
        obtain ⟨u, eu, hu⟩ := hl.1 (9 / 32) (by norm_num [abs_le])
        rw [eu, Int.floor_eq_iff]
        norm_num [abs_le] at hu ⊢
        constructor <;> linarith [hu.1, hu.2]
      rw [hG]
      unfold byAxis loc
      simp only [one]
    have hi : InBounds o.sdf.dims ⟨1, 1, 1⟩ := by rw [hdims]; norm_num [InBounds]
    obtain ⟨y, z, e1, e2, e3⟩ := C101_accuracy_partial st (N := 3) (by norm_num) (by rw [show (exactAt (FSdf.mk o.sdf (1 / 4)) exHere).grid.dims = _ from hdims]; decide) (by show (1 : ℝ) / 2 ^ 100 ≤ 1 / 4; norm_num)
      (by show (1 / 4 : ℝ) ≤ 2 ^ 100; norm_num) (D := 2 * (3 : ℕ) * (1 / 4)) (by norm_num) (fun i hi => hD i (hdims ▸ hi))
      (toGrid := id) (locIdx := G.cellOf)
      (p := loc ⟨9 / 32, 9 / 32, 9 / 32⟩) (q := ⟨9 / 32, 9 / 32, 9 / 32⟩) hi hloc rfl
      (by show |(9 / 32 : ℝ) - ((1 : ℤ) + 1 / 2) * (1 / 4)| ≤ 1 / 4; norm_num [abs_le])
      (by show |(9 / 32 : ℝ) - ((1 : ℤ) + 1 / 2) * (1 / 4)| ≤ 1 / 4; norm_num [abs_le])
      (by show |(9 / 32 : ℝ) - ((1 : ℤ) + 1 / 2) * (1 / 4)| ≤ 1 / 4; norm_num [abs_le])
    rw [estGrid_near (t := exactAt (FSdf.mk o.sdf (1 / 4)) exHere) (by show (0 : ℝ) < 1 / 4; norm_num) hi
      (by show |(9 / 32 : ℝ) - ((1 : ℤ) + 1 / 2) * (1 / 4)| < 1 / 4; norm_num [abs_lt])
      (by show |(9 / 32 : ℝ) - ((1 : ℤ) + 1 / 2) * (1 / 4)| < 1 / 4; norm_num [abs_lt])
      (by show |(9 / 32 : ℝ) - ((1 : ℤ) + 1 / 2) * (1 / 4)| < 1 / 4; norm_num [abs_lt])] at e2
    rw [← Option.some.inj e2] at e3
    have er : (exactAt (FSdf.mk o.sdf (1 / 4)) exHere).res = 1 / 4 := rfl
    rw [er] at e3
    have hy : 1 / 16 < y := by
      have := (abs_le.mp e3).1
      norm_num at this low ⊢
      linarith
    rw [returned_at e1 hy hin happ, happ]

/-! ### The hypotheses are satisfiable -/

theorem exHere_rotation : NearRotation exHere := by
  norm_num [NearRotation, RowNear, exHere]

theorem exHere_origin {T : ℝ} (hT : 0 ≤ T) : OriginWithin exHere T := by
  simpa [OriginWithin, exHere] using hT

/-- A row of 40 cells with a filled cell at its start: the projection that asks for 29 cells accepts the centre of cell
32, and the theorem keeps the obstacle 12 cells away. -/
example : ∃ (o : Out) (w : V3 ℝ), extract ieee ((1 / 4 : ℝ), (1 / 4 : ℝ), (1 / 4 : ℝ)) ⟨40, 1, 1⟩
      (fun i => some (decide (i.x = 0))) (some ⊤) false = some o ∧
    (FSdf.mk o.sdf (1 / 4)).projectOut ieee ⟨fun _ => real 0, id, byAxis (axisCell ieee (1 / 4))⟩ (fun _ => true) id
      (affApp ieee exHere) (affApp ieee exHere) (loc ⟨65 / 8, 1 / 8, 1 / 8⟩) (real (29 / 4)) (real (1 / 8)) 100 =
        .done (loc w) ∧
    ∀ r, Region ⟨40, 1, 1⟩ (1 / 4) (fun i => decide (i.x = 0)) true r → 3 ≤ dist3 w (exHere.app id r) := by
  have hd : SmallGrid ⟨40, 1, 1⟩ := by unfold SmallGrid; decide
  have ans : Answers ⟨40, 1, 1⟩ (fun i => some (decide (i.x = 0))) (fun i => decide (i.x = 0)) := fun _ _ => rfl
  obtain ⟨o, _, _, ho, _⟩ := base_spec hd ans ieee (1 / 4) (some ⊤)
  rw [← extract_false] at ho
  have hdims := extract_dims hd ans ho
  have both : BothClasses ⟨40, 1, 1⟩ (fun i => decide (i.x = 0)) :=
    ⟨⟨⟨0, 0, 0⟩, by norm_num [InBounds], by decide⟩, ⟨1, 0, 0⟩, by norm_num [InBounds], by decide⟩
  have prod : IsProduct ⟨40, 1, 1⟩ (fun i => decide (i.x = 0) = true) (fun x => x = 0) (fun _ => True) (fun _ => True) :=
    fun i _ => by simp
  have k1 : ieee.r64 ((1 / 8 : ℝ) : EReal) = ((1 / 8 : ℝ) : EReal) :=
    r64_keep 1 (-3) (by norm_num) (by norm_num) (by norm_num) (by norm_num)
  have k65 : ieee.r64 ((65 / 8 : ℝ) : EReal) = ((65 / 8 : ℝ) : EReal) :=
    r64_keep 65 (-3) (by norm_num) (by norm_num) (by norm_num) (by norm_num)
  have happ := exHere_app (v := ⟨65 / 8, 1 / 8, 1 / 8⟩) k65 k1 k1
  obtain ⟨g, hg⟩ := C123_product quarter_good (by norm_num) (by norm_num) (N := 40) (by norm_num) (by decide) ans both
    (Or.inl prod) ho
  obtain ⟨st, -, hD⟩ := values_of_map quarter_good (by norm_num) (by norm_num) (N := 40) (by norm_num) (by decide) ans ho
    (fun v hv => ⟨g v, hg.1 v hv⟩) exHere
  have hm : NearestOpposite ⟨40, 1, 1⟩ (fun i => decide (i.x = 0)) ⟨32, 0, 0⟩ 1024 := by
    refine ⟨⟨⟨0, 0, 0⟩, ⟨by norm_num [InBounds], by decide⟩, by norm_num [sqDist]⟩, ?_⟩
    rintro ⟨x, y, z⟩ ⟨-, hp⟩
    have : x = 0 := by simpa using hp
    subst this
    simp only [sqDist]
    nlinarith [sq_nonneg (0 - y), sq_nonneg (0 - z)]
  have hi : InBounds o.sdf.dims ⟨32, 0, 0⟩ := by rw [hdims]; norm_num [InBounds]
  obtain ⟨y0, ey0, y0p, hy0⟩ := C91_ieee quarter_good (by norm_num) (by norm_num) hd ans (Or.inl prod) ho
    (hdims ▸ hi) hm
  have s32 : Real.sqrt ((1024 : ℤ) : ℝ) = 32 := by
    rw [show ((1024 : ℤ) : ℝ) = 32 ^ 2 by norm_num]
    exact Real.sqrt_sq (by norm_num)
  rw [s32] at hy0
  have hloc : byAxis (axisCell ieee (1 / 4)) (loc ⟨65 / 8, 1 / 8, 1 / 8⟩) = ⟨32, 0, 0⟩ := by
    have hl := C112_lookup (res := 1 / 4) (by norm_num) (by norm_num)
    have a : axisCell ieee (1 / 4) (real (65 / 8)) = 32 := by
      obtain ⟨u, eu, hu⟩ := hl.1 (65 / 8) (by norm_num [abs_le])
      rw [eu, Int.floor_eq_iff]
      norm_num [abs_le] at hu ⊢
      constructor <;> linarith [hu.1, hu.2]
    have b : axisCell ieee (1 / 4) (real (1 / 8)) = 0 := by
      obtain ⟨u, eu, hu⟩ := hl.1 (1 / 8) (by norm_num [abs_le])
      rw [eu, Int.floor_eq_iff]
      norm_num [abs_le] at hu ⊢
      constructor <;> linarith [hu.1, hu.2]
    unfold byAxis loc
    simp only [a, b]
  have er : (exactAt (FSdf.mk o.sdf (1 / 4)) exHere).res = 1 / 4 := rfl
  have ec : (⟨65 / 8, 1 / 8, 1 / 8⟩ : V3 ℝ) = (exactAt (FSdf.mk o.sdf (1 / 4)) exHere).center ⟨32, 0, 0⟩ := by
    unfold MSdf.center; rw [er]; norm_num
  obtain ⟨y, z, e1, e2, e3⟩ := C101_accuracy_partial st (N := 40) (by norm_num)
    (by rw [show (exactAt (FSdf.mk o.sdf (1 / 4)) exHere).grid.dims = _ from hdims]; decide)
    (by show (1 : ℝ) / 2 ^ 100 ≤ 1 / 4; norm_num)
    (by show (1 / 4 : ℝ) ≤ 2 ^ 100; norm_num) (D := 2 * (40 : ℕ) * (1 / 4)) (by norm_num) (fun i hi => hD i (hdims ▸ hi))
    (toGrid := id) (locIdx := byAxis (axisCell ieee (1 / 4)))
    (p := loc ⟨65 / 8, 1 / 8, 1 / 8⟩) (q := ⟨65 / 8, 1 / 8, 1 / 8⟩) hi hloc rfl
    (by show |(65 / 8 : ℝ) - ((32 : ℤ) + 1 / 2) * (1 / 4)| ≤ 1 / 4; norm_num [abs_le])
    (by show |(1 / 8 : ℝ) - ((0 : ℤ) + 1 / 2) * (1 / 4)| ≤ 1 / 4; norm_num [abs_le])
    (by show |(1 / 8 : ℝ) - ((0 : ℤ) + 1 / 2) * (1 / 4)| ≤ 1 / 4; norm_num [abs_le])
  rw [estGrid_near (t := exactAt (FSdf.mk o.sdf (1 / 4)) exHere) (by show (0 : ℝ) < 1 / 4; norm_num) hi
    (by show |(65 / 8 : ℝ) - ((32 : ℤ) + 1 / 2) * (1 / 4)| < 1 / 4; norm_num [abs_lt])
    (by show |(1 / 8 : ℝ) - ((0 : ℤ) + 1 / 2) * (1 / 4)| < 1 / 4; norm_num [abs_lt])
    (by show |(1 / 8 : ℝ) - ((0 : ℤ) + 1 / 2) * (1 / 4)| < 1 / 4; norm_num [abs_lt]), ec,
    interpAt_center (by show (0 : ℝ) < 1 / 4; norm_num) hi] at e2
  have ev : (exactAt (FSdf.mk o.sdf (1 / 4)) exHere).grid.get ⟨32, 0, 0⟩ = y0 := by
    refine (exact_get (FSdf.mk o.sdf (1 / 4)) ⟨32, 0, 0⟩).trans ?_
    show toR (o.sdf.get ⟨32, 0, 0⟩) = y0
    rw [ey0]; simp [toR]
  rw [ev, er] at e2
  have e2' := Option.some.inj e2
  unfold halfCellCloser at e2'
  rw [if_pos y0p.le] at e2'
  have hy : 29 / 4 < y := by
    rw [er, ← e2'] at e3
    have rel : relErr ≤ 1 / 1000 := by unfold relErr; norm_num
    have h1 := (abs_le.mp e3).1
    have h2 := (abs_le.mp hy0).1
    norm_num at h1 h2 ⊢
    linarith
  have hdone := returned_at (s := FSdf.mk o.sdf (1 / 4))
    (G := ⟨fun _ => real 0, id, byAxis (axisCell ieee (1 / 4))⟩) e1 hy (inB := fun _ => true) rfl (into := id)
    (toWorld := affApp ieee exHere) happ (mult := real (1 / 8)) (fuel := 100)
  obtain ⟨c, w, ew, -, -, h⟩ := C126_projected_partial quarter_good (by norm_num) (by norm_num) (N := 40) (by norm_num)
    (by decide) ans both ho hg exHere_rotation (M := 40) (by norm_num) (by norm_num) (exHere_origin (by norm_num)) rfl
    hdone
  refine ⟨o, w, ho, by rw [← ew]; exact hdone, fun r hr => ?_⟩
  have := h r hr
  linarith

end FSdf

end Verif
