import Verif.Props.SignedDistance
import Verif.Props.BoxExact

/-!
# C115: distance estimates and the true signed distance to the obstacles
-/

namespace Verif

open Spec SdfGen DField

namespace FSdf

open SignedDist

/-! ## Exact arithmetic -/

/-- C115 in exact arithmetic: if the stored values are the distances between cell centres up to `e`, an estimate at
least half a cell from the faces is within `sqrt 3 - 1 / 2` cells (and `e`) of the signed distance to the obstacles. -/
theorem C115_exact {t : MSdf ℝ} (hr : 0 < t.res) {f : Idx → Bool} (hb : BothClasses t.grid.dims f) {e : ℝ}
    (he : e < t.res) (h : Faithful t f e) {p : V3 ℝ} (hp : InBounds t.grid.dims (t.locIdx p))
    (hq : InnerLocation t.grid.dims t.res (t.toGrid p)) {sd : ℝ}
    (hs : SignedDistance t.grid.dims t.res f (t.toGrid p) sd) :
    ∃ y, t.estimate p = some (y, true) ∧ |y - sd| ≤ (Real.sqrt 3 - 1 / 2) * t.res + e := by
  have hx : 0 < t.grid.dims.nx := by have := hp.1; omega
  have hy : 0 < t.grid.dims.ny := by have := hp.2.1; omega
  have hz : 0 < t.grid.dims.nz := by have := hp.2.2; omega
  exact ⟨_, (C20_trilinear t hr p).1 hp, interp_faithful hr hx hy hz hb he hq (fun a b c m hm =>
    h _ (cornerIdx_inB (K := ℝ) hx hy hz _ _ _ a b c) m hm) hs⟩

/-- C115 in exact arithmetic for the values of any map: outside the obstacles an estimate falls short of the signed
distance, inside it exceeds it, by at most `sqrt 3 - 1 / 2` cells (and `e`). -/
theorem C115_exact_bound {t : MSdf ℝ} (hr : 0 < t.res) {f : Idx → Bool} (hb : BothClasses t.grid.dims f) {e : ℝ}
    (he : e < t.res) (h : Sound t f e) {p : V3 ℝ} (hp : InBounds t.grid.dims (t.locIdx p))
    (hq : InnerLocation t.grid.dims t.res (t.toGrid p)) {sd : ℝ}
    (hs : SignedDistance t.grid.dims t.res f (t.toGrid p) sd) :
    ∃ y, t.estimate p = some (y, true) ∧ (0 ≤ sd → sd - ((Real.sqrt 3 - 1 / 2) * t.res + e) ≤ y) ∧
      (sd ≤ 0 → y ≤ sd + ((Real.sqrt 3 - 1 / 2) * t.res + e)) := by
  have hx : 0 < t.grid.dims.nx := by have := hp.1; omega
  have hy : 0 < t.grid.dims.ny := by have := hp.2.1; omega
  have hz : 0 < t.grid.dims.nz := by have := hp.2.2; omega
  exact ⟨_, (C20_trilinear t hr p).1 hp, interp_sound hr hx hy hz hb he h hq hs⟩

/-! ## IEEE arithmetic -/

theorem sqrt3_bounds : (1732 / 1000 : ℝ) ≤ Real.sqrt 3 ∧ Real.sqrt 3 ≤ 17321 / 10000 := by
  constructor
  · exact Real.le_sqrt_of_sq_le (by norm_num)
  · rw [Real.sqrt_le_iff]; norm_num

theorem sqrt_dist_le {d : Dims} {N : ℕ} (hdim : d.nx ≤ N ∧ d.ny ≤ N ∧ d.nz ≤ N) {v p : Idx} (hv : InBounds d v)
    (hp : InBounds d p) : Real.sqrt (sqDist v p) ≤ Real.sqrt 3 * N := by
  have h : (sqDist v p : ℝ) ≤ 3 * (N : ℝ) ^ 2 := by
    have ax : ∀ {n : ℕ} {a b : Int}, n ≤ N → 0 ≤ a ∧ a < n → 0 ≤ b ∧ b < n → (a - b) ^ 2 ≤ (N : Int) ^ 2 := by
      intro n a b hn ha hb
      have : (n : Int) ≤ N := by exact_mod_cast hn
      apply sq_le_sq'  <;> omega
    have h1 := ax hdim.1 hv.1 hp.1
    have h2 := ax hdim.2.1 hv.2.1 hp.2.1
    have h3 := ax hdim.2.2 hv.2.2 hp.2.2
    have : sqDist v p ≤ 3 * (N : Int) ^ 2 := by unfold sqDist; linarith
    exact_mod_cast this
  calc Real.sqrt (sqDist v p) ≤ Real.sqrt (3 * (N : ℝ) ^ 2) := Real.sqrt_le_sqrt h
    _ = Real.sqrt 3 * N := by rw [Real.sqrt_mul (by norm_num), Real.sqrt_sq (by positivity)]

theorem rel_le {d : Dims} {N : ℕ} (hdim : d.nx ≤ N ∧ d.ny ≤ N ∧ d.nz ≤ N) {v p : Idx} (hv : InBounds d v)
    (hp : InBounds d p) {res : ℝ} (hr : 0 < res) : relErr * (res * Real.sqrt (sqDist v p)) ≤ N / 2 ^ 23 * res := by
  have h := sqrt_dist_le hdim hv hp
  obtain ⟨-, h3⟩ := sqrt3_bounds
  have hN : (0 : ℝ) ≤ N := by positivity
  have h4 : Real.sqrt (sqDist v p) ≤ 17321 / 10000 * N := h.trans (mul_le_mul_of_nonneg_right h3 hN)
  unfold relErr
  have : res * Real.sqrt (sqDist v p) ≤ res * (17321 / 10000 * N) := mul_le_mul_of_nonneg_left h4 hr.le
  have h5 : 0 ≤ res * N := by positivity
  calc (1 / 2 ^ 24 + 1 / 2 ^ 51) * (res * Real.sqrt (sqDist v p))
      ≤ (1 / 2 ^ 24 + 1 / 2 ^ 51) * (res * (17321 / 10000 * N)) := mul_le_mul_of_nonneg_left this (by norm_num)
    _ = (1 / 2 ^ 24 + 1 / 2 ^ 51) * (17321 / 10000) * (res * N) := by ring
    _ ≤ 1 / 2 ^ 23 * (res * N) := by gcongr; norm_num
    _ = N / 2 ^ 23 * res := by ring

/-- Faithful values differ little between neighbours. -/
theorem faithful_jump {t : MSdf ℝ} (hr : 0 < t.res) {f : Idx → Bool} (hb : BothClasses t.grid.dims f) {e : ℝ}
    (he : e ≤ t.res / 8) (h : Faithful t f e) : Jump t (2 * t.res) := by
  intro i j hi hj hij
  obtain ⟨⟨u, hu, hfu⟩, v, hv, hfv⟩ := id hb
  obtain ⟨s, hs⟩ := exists_sd hr.le hu hfu hv hfv hi (centre_inCube hr.le _)
  obtain ⟨s', hs'⟩ := exists_sd hr.le hu hfu hv hfv hj (centre_inCube hr.le _)
  obtain ⟨m, hm⟩ := both_opposite hb (v := i)
  obtain ⟨m', hm'⟩ := both_opposite hb (v := j)
  have c := corner_faithful hr (by linarith) hi hm (h i hi m hm) hs
  have c' := corner_faithful hr (by linarith) hj hm' (h j hj m' hm') hs'
  have hx : 0 < t.grid.dims.nx := by have := hi.1; omega
  have hy : 0 < t.grid.dims.ny := by have := hi.2.1; omega
  have hz : 0 < t.grid.dims.nz := by have := hi.2.2; omega
  have l := sd_lip hr hx hy hz (centre_inVolume hr hi) (centre_inVolume hr hj) hs hs'
  have l' := sd_lip hr hx hy hz (centre_inVolume hr hj) (centre_inVolume hr hi) hs' hs
  rw [dist3_comm] at l'
  have e1 : sqDist i j = 1 := by
    unfold sqDist
    simp only [Int.abs_eq_natAbs] at hij
    rcases (by omega : (i.x - j.x = 1 ∨ i.x - j.x = -1) ∧ i.y - j.y = 0 ∧ i.z - j.z = 0 ∨
      (i.y - j.y = 1 ∨ i.y - j.y = -1) ∧ i.x - j.x = 0 ∧ i.z - j.z = 0 ∨
      (i.z - j.z = 1 ∨ i.z - j.z = -1) ∧ i.x - j.x = 0 ∧ i.y - j.y = 0) with ⟨a | a, b, c⟩ | ⟨a | a, b, c⟩ | ⟨a | a, b, c⟩ <;>
      rw [a, b, c] <;> norm_num
  rw [dist3_centres hr.le, e1, Int.cast_one, Real.sqrt_one, mul_one] at l l'
  obtain ⟨-, h3⟩ := sqrt3_bounds
  have k : Real.sqrt 3 * t.res ≤ 17321 / 10000 * t.res := mul_le_mul_of_nonneg_right h3 hr.le
  rw [abs_le] at *
  constructor <;> linarith

/-- The estimate of a faithful field in IEEE arithmetic. -/
theorem estimate_faithful {s : FSdf} {t : MSdf ℝ} (h : Stores s t) {N : ℕ} (hN : N ≤ 2 ^ 14)
    (hdim : t.grid.dims.nx ≤ N ∧ t.grid.dims.ny ≤ N ∧ t.grid.dims.nz ≤ N)
    (hlo : 1 / 2 ^ 100 ≤ t.res) (hhi : t.res ≤ 2 ^ 100) {f : Idx → Bool} (hb : BothClasses t.grid.dims f)
    (hF : Faithful t f (N / 2 ^ 23 * t.res))
    {toGrid toGrid' : V3 FVal → V3 FVal} (ha : Accurate toGrid t.inv) (ha' : Accurate toGrid' t.inv)
    {cell : FVal → Int} (hl : LookupOk cell t.res) {p : V3 ℝ} {M : ℝ} (hM : 1 ≤ M) (hM' : M ≤ 2 ^ 36)
    (hp : Reach t.inv p (M * t.res)) (hf : ∀ f ∈ faces t.size (t.toGrid p), (M + N) * t.res / 2 ^ 48 < f)
    (hq : InnerLocation t.grid.dims t.res (t.toGrid p)) {sd : ℝ}
    (hs : SignedDistance t.grid.dims t.res f (t.toGrid p) sd) :
    ∃ y : ℝ, s.estimate ieee toGrid (fun p => byAxis cell (toGrid' p)) (loc p) = some (real y, true) ∧
      |y - sd| ≤ 5 / 4 * t.res := by
  have r0 : 0 < t.res := lt_of_lt_of_le (by positivity) hlo
  have hN' : (N : ℝ) ≤ 2 ^ 14 := by exact_mod_cast hN
  have n0 : (0 : ℝ) ≤ N := by positivity
  obtain ⟨s3l, s3⟩ := sqrt3_bounds
  have he : N / 2 ^ 23 * t.res ≤ t.res / 512 := by
    have : (N : ℝ) * t.res ≤ 2 ^ 14 * t.res := by gcongr
    linarith
  have hD : ∀ i, InBounds t.grid.dims i → |t.grid.get i| ≤ 2 * N * t.res := by
    intro i hi
    obtain ⟨m, hm⟩ := both_opposite hb (v := i)
    have h1 := hF i hi m hm
    obtain ⟨⟨w, hw, rfl⟩, -⟩ := hm
    have h2 := sqrt_dist_le hdim hi hw.1
    have h3 := mul_le_mul_of_nonneg_left h2 r0.le
    have h4 : Real.sqrt 3 * (N * t.res) ≤ 17321 / 10000 * (N * t.res) := by gcongr
    rw [← abs_signed (f i)]
    have := abs_add_le (signed (f i) (t.grid.get i) - t.res * Real.sqrt (sqDist i w)) (t.res * Real.sqrt (sqDist i w))
    rw [sub_add_cancel, abs_of_nonneg (a := t.res * Real.sqrt (sqDist i w)) (by positivity)] at this
    have h5 : 0 ≤ N * t.res := by positivity
    linarith
  have hDb : 2 * N * t.res ≤ 2 ^ 150 := by
    calc 2 * (N : ℝ) * t.res ≤ 2 * 2 ^ 14 * 2 ^ 100 := by gcongr
      _ ≤ 2 ^ 150 := by norm_num
  obtain ⟨y, z, ey, ez, hyz⟩ := (C112_estimate h (hN.trans (by norm_num)) hdim hlo hhi hDb hD (by positivity)
    (faithful_jump r0 hb (by linarith) hF) ha ha' hl hM (hM'.trans (by norm_num)) hp).1 hf
  have hin : InBounds t.grid.dims (t.locIdx p) := by
    by_contra hc
    rw [(C20_trilinear t r0 p).2 hc] at ez
    simp at ez
  obtain ⟨z', ez', hz⟩ := C115_exact r0 hb (by linarith) hF hin hq hs
  have : z' = z := by rw [ez] at ez'; simpa using ez'.symm
  subst this
  refine ⟨y, ey, ?_⟩
  have tri := abs_add_le (y - z') (z' - sd)
  rw [sub_add_sub_cancel] at tri
  have k : Real.sqrt 3 * t.res ≤ 17321 / 10000 * t.res := mul_le_mul_of_nonneg_right s3 r0.le
  have k1 : (N : ℝ) / 2 ^ 40 * (2 * N * t.res + t.res / 2) ≤ t.res / 2 ^ 10 := by
    have a : (N : ℝ) * N ≤ 2 ^ 14 * 2 ^ 14 := by gcongr
    have b : (N : ℝ) * N * t.res ≤ 2 ^ 14 * 2 ^ 14 * t.res := by gcongr
    have c : (N : ℝ) * t.res ≤ 2 ^ 14 * t.res := by gcongr
    have e : (N : ℝ) / 2 ^ 40 * (2 * N * t.res + t.res / 2) = (2 * (N * N * t.res) + N * t.res / 2) / 2 ^ 40 := by ring
    rw [e]
    linarith
  have k2 : M / 2 ^ 44 * (2 * t.res) ≤ t.res / 2 ^ 7 := by
    have a : M * t.res ≤ 2 ^ 36 * t.res := by gcongr
    have e : M / 2 ^ 44 * (2 * t.res) = M * t.res / 2 ^ 43 := by ring
    rw [e]
    linarith
  linarith

/-- The estimate of a field with bounded values in IEEE arithmetic. -/
theorem estimate_bounded {s : FSdf} {t : MSdf ℝ} (h : Stores s t) {N : ℕ} (hN : N ≤ 2 ^ 14) (n1 : 1 ≤ N)
    (hdim : t.grid.dims.nx ≤ N ∧ t.grid.dims.ny ≤ N ∧ t.grid.dims.nz ≤ N)
    (hlo : 1 / 2 ^ 100 ≤ t.res) (hhi : t.res ≤ 2 ^ 100)
    (hD : ∀ i, InBounds t.grid.dims i → |t.grid.get i| ≤ 2 * N * t.res)
    {toGrid toGrid' : V3 FVal → V3 FVal} (ha : Accurate toGrid t.inv) (ha' : Accurate toGrid' t.inv)
    {cell : FVal → Int} (hl : LookupOk cell t.res) {p : V3 ℝ} {M : ℝ} (hM : 1 ≤ M) (hM' : M * N ≤ 2 ^ 35)
    (hp : Reach t.inv p (M * t.res)) (hf : ∀ f ∈ faces t.size (t.toGrid p), (M + N) * t.res / 2 ^ 48 < f) :
    ∃ y : ℝ, s.estimate ieee toGrid (fun p => byAxis cell (toGrid' p)) (loc p) = some (real y, true) ∧
      |y - interpAt t (t.toGrid p)| ≤ 3 / 256 * t.res := by
  have r0 : 0 < t.res := lt_of_lt_of_le (by positivity) hlo
  have hN' : (N : ℝ) ≤ 2 ^ 14 := by exact_mod_cast hN
  have n0 : (0 : ℝ) ≤ N := by positivity
  have n1' : (1 : ℝ) ≤ N := by exact_mod_cast n1
  have hDb : 2 * N * t.res ≤ 2 ^ 150 := by
    calc 2 * (N : ℝ) * t.res ≤ 2 * 2 ^ 14 * 2 ^ 100 := by gcongr
      _ ≤ 2 ^ 150 := by norm_num
  have hMb : M ≤ 2 ^ 35 := by nlinarith
  obtain ⟨y, z, ey, ez, hyz⟩ := (C112_estimate h (hN.trans (by norm_num)) hdim hlo hhi hDb hD (by positivity)
    (jump_of_bound r0 hD) ha ha' hl hM (hMb.trans (by norm_num)) hp).1 hf
  have hin : InBounds t.grid.dims (t.locIdx p) := by
    by_contra hc
    rw [(C20_trilinear t r0 p).2 hc] at ez
    simp at ez
  have : interpAt t (t.toGrid p) = z := by
    rw [(C20_trilinear t r0 p).1 hin] at ez
    unfold interpAt; simpa using ez
  subst this
  have k1 : (N : ℝ) / 2 ^ 40 * (2 * N * t.res + t.res / 2) ≤ t.res / 2 ^ 10 := by
    have a : (N : ℝ) * N ≤ 2 ^ 14 * 2 ^ 14 := by gcongr
    have b : (N : ℝ) * N * t.res ≤ 2 ^ 14 * 2 ^ 14 * t.res := by gcongr
    have c : (N : ℝ) * t.res ≤ 2 ^ 14 * t.res := by gcongr
    have e : (N : ℝ) / 2 ^ 40 * (2 * N * t.res + t.res / 2) = (2 * (N * N * t.res) + N * t.res / 2) / 2 ^ 40 := by ring
    rw [e]
    linarith
  have k2 : M / 2 ^ 44 * (2 * (2 * N * t.res + t.res / 2)) ≤ 5 * t.res / 2 ^ 9 := by
    have a : M * N * t.res ≤ 2 ^ 35 * t.res := by gcongr
    have b : M * t.res ≤ M * N * t.res := by
      have : M * 1 ≤ M * N := by gcongr
      have := mul_le_mul_of_nonneg_right this r0.le
      linarith
    have e : M / 2 ^ 44 * (2 * (2 * N * t.res + t.res / 2)) = (4 * (M * N * t.res) + M * t.res) / 2 ^ 44 := by ring
    rw [e]
    linarith
  exact ⟨y, ey, hyz.trans (by linarith)⟩

/-! ## Extracted fields -/

theorem extract_dims {R : Rounding} {res : ℝ} {d : Dims} (hd : SmallGrid d) {fill : Idx → Option Bool} {f : Idx → Bool}
    (hf : Answers d fill f) {oob : FVal} {o : Out} (ho : extract R (res, res, res) d fill oob false = some o) :
    o.sdf.dims = d := by
  obtain ⟨o', a', b', ho', hs⟩ := base_spec hd hf R res oob
  rw [extract_false, ho'] at ho
  rw [← Option.some.inj ho]
  exact hs.dims

theorem toR_signed {b : Bool} {y : ℝ} {x : FVal} (h : x = some (if b then ((-y : ℝ) : EReal) else (y : EReal))) :
    x = real (signed b y) ∧ signed b (toR x) = y := by
  subst h
  cases b <;> simp [signed, toR, real]

/-- The field of the exact model with the values of `s`, in the pose with inverse `inv`. -/
noncomputable def exactAt (s : FSdf) (inv : Aff ℝ) : MSdf ℝ := { s.exact with inv := inv }

theorem small_of {d : Dims} {N : ℕ} (hN : N ≤ 2 ^ 14) (hdim : d.nx ≤ N ∧ d.ny ≤ N ∧ d.nz ≤ N) : SmallGrid d := by
  obtain ⟨a, b, c⟩ := hdim
  unfold SmallGrid
  have h1 := Nat.mul_le_mul (a.trans hN) (a.trans hN)
  have h2 := Nat.mul_le_mul (b.trans hN) (b.trans hN)
  have h3 := Nat.mul_le_mul (c.trans hN) (c.trans hN)
  omega

/-- C115: in a map whose filled or whose free cells form a product (a box, an empty room, walls), `EstimateDistance` at a
location at least half a cell from the faces returns the signed distance to the obstacles up to 5/4 cells, in IEEE
arithmetic and for a grid in any pose. -/
theorem C115_product {res : ℝ} (hres : GoodRes ieee res) (hlo : 1 / 2 ^ 100 ≤ res) (hhi : res ≤ 2 ^ 100)
    {d : Dims} {N : ℕ} (hN : N ≤ 2 ^ 14) (hdim : d.nx ≤ N ∧ d.ny ≤ N ∧ d.nz ≤ N) {fill : Idx → Option Bool}
    {f : Idx → Bool} (hf : Answers d fill f) (hb : BothClasses d f) {A B C : ℤ → Prop}
    (hprod : IsProduct d (fun i => f i = true) A B C ∨ IsProduct d (fun i => f i = false) A B C)
    {oob : FVal} {o : Out} (ho : extract ieee (res, res, res) d fill oob false = some o) {inv : Aff ℝ}
    {toGrid toGrid' : V3 FVal → V3 FVal} (ha : Accurate toGrid inv) (ha' : Accurate toGrid' inv)
    {cell : FVal → Int} (hl : LookupOk cell res) {p : V3 ℝ} {M : ℝ} (hM : 1 ≤ M) (hM' : M ≤ 2 ^ 36)
    (hp : Reach inv p (M * res))
    (hin : ∀ g ∈ faces ⟨d.nx * res, d.ny * res, d.nz * res⟩ (inv.app id p), (M + N) * res / 2 ^ 48 < g)
    (hq : InnerLocation d res (inv.app id p)) {sd : ℝ} (hs : SignedDistance d res f (inv.app id p) sd) :
    ∃ y : ℝ, (FSdf.mk o.sdf res).estimate ieee toGrid (fun p => byAxis cell (toGrid' p)) (loc p) = some (real y, true) ∧
      |y - sd| ≤ 5 / 4 * res := by
  have hd := small_of hN hdim
  have hdims := extract_dims hd hf ho
  have val := fun v hv m hm => C91_ieee hres (le_trans (by norm_num) hlo) hhi hd hf hprod ho (v := v) hv (m := m) hm
  have st : Stores (FSdf.mk o.sdf res) (exactAt (FSdf.mk o.sdf res) inv) := by
    refine exact_stores fun i hi => ?_
    obtain ⟨m, hm⟩ := both_opposite hb (v := i)
    have hi' : InBounds d i := by rw [← hdims]; exact hi
    obtain ⟨y, hy, -, -⟩ := val i hi' m hm
    exact ⟨_, (toR_signed hy).1⟩
  refine estimate_faithful (t := exactAt (FSdf.mk o.sdf res) inv) st hN (by rw [← hdims] at hdim; exact hdim) hlo hhi
    (by rw [← hdims] at hb; exact hb) ?_ ha ha' hl hM hM' hp (by rw [← hdims] at hin; exact hin)
    (by rw [← hdims] at hq; exact hq) (by rw [← hdims] at hs; exact hs)
  intro v hv m hm
  have hv' : InBounds d v := by rw [← hdims]; exact hv
  have hm' : NearestOpposite d f v m := by rw [← hdims]; exact hm
  obtain ⟨y, hy, -, herr⟩ := val v hv' m hm'
  have eg : (exactAt (FSdf.mk o.sdf res) inv).grid.get v = toR (o.sdf.get v) := exact_get (FSdf.mk o.sdf res) v
  rw [eg, (toR_signed hy).2]
  obtain ⟨⟨w, hw, rfl⟩, -⟩ := hm'
  exact herr.trans (rel_le hdim hv' hw.1 hres.1)

open Classical in
/-- C115 for the SDF of a collision map whose obstacles (occupied cells, and unknown cells if these count as filled) or
whose other cells form a product. -/
theorem C115_collision_map {res : ℝ} (hres : GoodRes ieee res) (hlo : 1 / 2 ^ 100 ≤ res) (hhi : res ≤ 2 ^ 100)
    (m : CMap) {N : ℕ} (hN : N ≤ 2 ^ 14) (hdim : m.grid.dims.nx ≤ N ∧ m.grid.dims.ny ≤ N ∧ m.grid.dims.nz ≤ N)
    (oob : FVal) (u : Bool) (hb : BothClasses m.grid.dims fun i => decide (Obstacle m u i)) {A B C : ℤ → Prop}
    (hprod : IsProduct m.grid.dims (Obstacle m u) A B C ∨ IsProduct m.grid.dims (fun i => ¬ Obstacle m u i) A B C) :
    ∃ o, extractMap ieee (res, res, res) m oob u false = some o ∧ ∀ {inv : Aff ℝ} {toGrid toGrid' : V3 FVal → V3 FVal},
      Accurate toGrid inv → Accurate toGrid' inv → ∀ {cell : FVal → Int}, LookupOk cell res → ∀ {p : V3 ℝ} {M : ℝ},
      1 ≤ M → M ≤ 2 ^ 36 → Reach inv p (M * res) →
      (∀ g ∈ faces ⟨m.grid.dims.nx * res, m.grid.dims.ny * res, m.grid.dims.nz * res⟩ (inv.app id p),
        (M + N) * res / 2 ^ 48 < g) →
      InnerLocation m.grid.dims res (inv.app id p) → ∀ {sd : ℝ},
      SignedDistance m.grid.dims res (fun i => decide (Obstacle m u i)) (inv.app id p) sd →
      ∃ y : ℝ, (FSdf.mk o.sdf res).estimate ieee toGrid (fun p => byAxis cell (toGrid' p)) (loc p) =
        some (real y, true) ∧ |y - sd| ≤ 5 / 4 * res := by
  obtain ⟨o, a, b, ho, _⟩ := base_spec (small_of hN hdim) (mapFill_answers m u) ieee res oob
  refine ⟨o, by unfold extractMap; rw [extract_false]; exact ho, ?_⟩
  intro inv toGrid toGrid' ha ha' cell hl p M hM hM' hp hin hq sd hs
  refine C115_product hres hlo hhi hN hdim (mapFill_answers m u) hb (A := A) (B := B) (C := C) ?_
    (by rw [extract_false]; exact ho) ha ha' hl hM hM' hp hin hq hs
  rcases hprod with h | h
  · left; intro i hi; have := h i hi; simpa using this
  · right; intro i hi; have := h i hi; simpa using this

/-- The values of any map whose stored distances are finite. -/
theorem values_of_map {res : ℝ} (hres : GoodRes ieee res) (hlo : 1 / 2 ^ 100 ≤ res) (hhi : res ≤ 2 ^ 100)
    {d : Dims} {N : ℕ} (hN : N ≤ 2 ^ 14) (hdim : d.nx ≤ N ∧ d.ny ≤ N ∧ d.nz ≤ N) {fill : Idx → Option Bool}
    {f : Idx → Bool} (hf : Answers d fill f)
    {oob : FVal} {o : Out} (ho : extract ieee (res, res, res) d fill oob false = some o)
    (hfin : ∀ v, InBounds d v → ∃ x : ℝ, o.sdf.get v = real x) (inv : Aff ℝ) :
    Stores (FSdf.mk o.sdf res) (exactAt (FSdf.mk o.sdf res) inv) ∧
    Sound (exactAt (FSdf.mk o.sdf res) inv) f (N / 2 ^ 23 * res) ∧
    ∀ i, InBounds d i → |(exactAt (FSdf.mk o.sdf res) inv).grid.get i| ≤ 2 * N * res := by
  have hd := small_of hN hdim
  have hdims := extract_dims hd hf ho
  have n0 : (0 : ℝ) ≤ N := by positivity
  have r0 := hres.1
  obtain ⟨-, s3⟩ := sqrt3_bounds
  have val : ∀ v, InBounds d v → ∃ (y : ℝ) (w : Idx), o.sdf.get v = some (if f v then ((-y : ℝ) : EReal) else (y : EReal)) ∧
      0 < y ∧ Opposite d f v w ∧ |y - res * Real.sqrt (sqDist v w)| ≤ relErr * (res * Real.sqrt (sqDist v w)) ∧
      ∀ m, NearestOpposite d f v m → (1 - relErr) * (res * Real.sqrt m) ≤ y := by
    intro v hv
    refine (C86_accuracy hres (le_trans (by norm_num) hlo) hhi hd hf ho hv).resolve_left fun hc => ?_
    obtain ⟨x, hx⟩ := hfin v hv
    rw [hx] at hc
    unfold real at hc
    split_ifs at hc <;> simp at hc
  have eg : ∀ v, (exactAt (FSdf.mk o.sdf res) inv).grid.get v = toR (o.sdf.get v) := exact_get (FSdf.mk o.sdf res)
  refine ⟨exact_stores fun i hi => hfin i (by rw [← hdims]; exact hi), ?_, ?_⟩
  · intro v hv m hm
    have hv' : InBounds d v := by rw [← hdims]; exact hv
    have hm' : NearestOpposite d f v m := by rw [← hdims]; exact hm
    obtain ⟨y, w, hy, -, -, -, hlow⟩ := val v hv'
    have rel : relErr * (res * Real.sqrt m) ≤ N / 2 ^ 23 * res := by
      obtain ⟨⟨w', hw', rfl⟩, -⟩ := id hm'
      exact rel_le hdim hv' hw'.1 r0
    rw [eg, (toR_signed hy).2]
    refine ⟨?_, fun h8 => ?_⟩
    · show res * Real.sqrt m - N / 2 ^ 23 * res ≤ y
      linarith [hlow m hm']
    · obtain ⟨y', hy', -, herr⟩ := C86_near hres (le_trans (by norm_num) hlo) hhi hd hf ho hv' hm' h8
      have : y = y' := by rw [← (toR_signed hy).2, ← (toR_signed hy').2]
      rw [this]
      exact herr.trans rel
  · intro v hv'
    obtain ⟨y, w, hy, -, hw, herr, -⟩ := val v hv'
    rw [← abs_signed (f v), eg, (toR_signed hy).2]
    have h1 := rel_le hdim hv' hw.1 r0
    have h2 := mul_le_mul_of_nonneg_left (sqrt_dist_le hdim hv' hw.1) r0.le
    have h4 : Real.sqrt 3 * (N * res) ≤ 17321 / 10000 * (N * res) := by gcongr
    have := abs_add_le (y - res * Real.sqrt (sqDist v w)) (res * Real.sqrt (sqDist v w))
    rw [sub_add_cancel, abs_of_nonneg (a := res * Real.sqrt (sqDist v w)) (by positivity)] at this
    have h5 : 0 ≤ N * res := by positivity
    linarith

theorem both_pos {d : Dims} {f : Idx → Bool} (hb : BothClasses d f) : 0 < d.nx ∧ 0 < d.ny ∧ 0 < d.nz := by
  obtain ⟨⟨u, hu, -⟩, -⟩ := hb
  have h1 := hu.1
  have h2 := hu.2.1
  have h3 := hu.2.2
  omega

/-- C115 for any map whose stored distances are finite: outside the obstacles `EstimateDistance` is at least the signed
distance less 5/4 cells, inside it is at most the signed distance plus 5/4 cells. -/
theorem C115_every_map {res : ℝ} (hres : GoodRes ieee res) (hlo : 1 / 2 ^ 100 ≤ res) (hhi : res ≤ 2 ^ 100)
    {d : Dims} {N : ℕ} (hN : N ≤ 2 ^ 14) (hdim : d.nx ≤ N ∧ d.ny ≤ N ∧ d.nz ≤ N) {fill : Idx → Option Bool}
    {f : Idx → Bool} (hf : Answers d fill f) (hb : BothClasses d f)
    {oob : FVal} {o : Out} (ho : extract ieee (res, res, res) d fill oob false = some o)
    (hfin : ∀ v, InBounds d v → ∃ x : ℝ, o.sdf.get v = real x) {inv : Aff ℝ}
    {toGrid toGrid' : V3 FVal → V3 FVal} (ha : Accurate toGrid inv) (ha' : Accurate toGrid' inv)
    {cell : FVal → Int} (hl : LookupOk cell res) {p : V3 ℝ} {M : ℝ} (hM : 1 ≤ M) (hM' : M * N ≤ 2 ^ 35)
    (hp : Reach inv p (M * res))
    (hin : ∀ g ∈ faces ⟨d.nx * res, d.ny * res, d.nz * res⟩ (inv.app id p), (M + N) * res / 2 ^ 48 < g)
    (hq : InnerLocation d res (inv.app id p)) {sd : ℝ} (hs : SignedDistance d res f (inv.app id p) sd) :
    ∃ y : ℝ, (FSdf.mk o.sdf res).estimate ieee toGrid (fun p => byAxis cell (toGrid' p)) (loc p) = some (real y, true) ∧
      (0 ≤ sd → sd - 5 / 4 * res ≤ y) ∧ (sd ≤ 0 → y ≤ sd + 5 / 4 * res) := by
  have hdims := extract_dims (small_of hN hdim) hf ho
  obtain ⟨st, hS, hD⟩ := values_of_map hres hlo hhi hN hdim hf ho hfin inv
  obtain ⟨hx, hy, hz⟩ := both_pos hb
  subst hdims
  obtain ⟨y, ey, hyz⟩ := estimate_bounded st hN (by omega) hdim hlo hhi hD ha ha' hl hM hM' hp hin
  have r0 := hres.1
  have he : N / 2 ^ 23 * res ≤ res / 512 := by
    have hN' : (N : ℝ) ≤ 2 ^ 14 := by exact_mod_cast hN
    have : (N : ℝ) * res ≤ 2 ^ 14 * res := by gcongr
    linarith
  obtain ⟨b1, b2⟩ := interp_sound (t := exactAt (FSdf.mk o.sdf res) inv) r0 hx hy hz hb
    (e := N / 2 ^ 23 * res) (lt_of_le_of_lt he (by show res / 512 < res; linarith)) hS hq hs
  have k : Real.sqrt 3 * res ≤ 17321 / 10000 * res := mul_le_mul_of_nonneg_right sqrt3_bounds.2 r0.le
  obtain ⟨y1, y2⟩ := abs_le.mp hyz
  have er : (exactAt (FSdf.mk o.sdf res) inv).res = res := rfl
  have eg : (exactAt (FSdf.mk o.sdf res) inv).toGrid p = inv.app id p := rfl
  rw [er] at b1 b2 y1 y2
  rw [eg] at y1 y2
  refine ⟨y, ey, fun h0 => ?_, fun h0 => ?_⟩
  · have := b1 h0; linarith
  · have := b2 h0; linarith

/-- C115 for any flat map: outside the obstacles `EstimateDistance` lies between the signed distance less 5/4 cells and
`sqrt 2` times the signed distance plus 2 cells; inside, likewise with the signs turned. -/
theorem C115_flat {res : ℝ} (hres : GoodRes ieee res) (hlo : 1 / 2 ^ 100 ≤ res) (hhi : res ≤ 2 ^ 100)
    {d : Dims} {N : ℕ} (hN : N ≤ 2 ^ 14) (hdim : d.nx ≤ N ∧ d.ny ≤ N ∧ d.nz ≤ N) (hflat : Flat d)
    {fill : Idx → Option Bool} {f : Idx → Bool} (hf : Answers d fill f) (hb : BothClasses d f)
    {oob : FVal} {o : Out} (ho : extract ieee (res, res, res) d fill oob false = some o) {inv : Aff ℝ}
    {toGrid toGrid' : V3 FVal → V3 FVal} (ha : Accurate toGrid inv) (ha' : Accurate toGrid' inv)
    {cell : FVal → Int} (hl : LookupOk cell res) {p : V3 ℝ} {M : ℝ} (hM : 1 ≤ M) (hM' : M * N ≤ 2 ^ 35)
    (hp : Reach inv p (M * res))
    (hin : ∀ g ∈ faces ⟨d.nx * res, d.ny * res, d.nz * res⟩ (inv.app id p), (M + N) * res / 2 ^ 48 < g)
    (hq : InnerLocation d res (inv.app id p)) {sd : ℝ} (hs : SignedDistance d res f (inv.app id p) sd) :
    ∃ y : ℝ, (FSdf.mk o.sdf res).estimate ieee toGrid (fun p => byAxis cell (toGrid' p)) (loc p) = some (real y, true) ∧
      (0 ≤ sd → sd - 5 / 4 * res ≤ y ∧ y ≤ Real.sqrt 2 * sd + 2 * res) ∧
      (sd ≤ 0 → Real.sqrt 2 * sd - 2 * res ≤ y ∧ y ≤ sd + 5 / 4 * res) := by
  have hsm := small_of hN hdim
  have hdims := extract_dims hsm hf ho
  have val := fun v hv m hm => C86_flat hres (le_trans (by norm_num) hlo) hhi hsm hflat hf ho (v := v) hv (m := m) hm
  have hfin : ∀ v, InBounds d v → ∃ x : ℝ, o.sdf.get v = real x := by
    intro v hv
    obtain ⟨m, hm⟩ := both_opposite hb (v := v)
    obtain ⟨y, hy, -⟩ := val v hv m hm
    exact ⟨_, (toR_signed hy).1⟩
  obtain ⟨y0, ey0, h1, h2⟩ := C115_every_map hres hlo hhi hN hdim hf hb ho hfin ha ha' hl hM hM' hp hin hq hs
  obtain ⟨st, hS, hD⟩ := values_of_map hres hlo hhi hN hdim hf ho hfin inv
  obtain ⟨hx, hy, hz⟩ := both_pos hb
  have r0 := hres.1
  have s2 : Real.sqrt 2 ≤ 14143 / 10000 := by rw [Real.sqrt_le_iff]; norm_num
  have s2' : 1 ≤ Real.sqrt 2 := Real.one_le_sqrt.mpr (by norm_num)
  have n0 : (0 : ℝ) ≤ N := by positivity
  have e0 : 0 ≤ N / 2 ^ 23 * res := by positivity
  have hW : SignedDist.Within (exactAt (FSdf.mk o.sdf res) inv) f (Real.sqrt 2) (2 * (N / 2 ^ 23 * res)) := by
    intro v hv m hm
    have hv' : InBounds d v := by rw [← hdims]; exact hv
    have hm' : NearestOpposite d f v m := by rw [← hdims]; exact hm
    obtain ⟨y, hy, -, -, hup⟩ := val v hv' m hm'
    have eg : (exactAt (FSdf.mk o.sdf res) inv).grid.get v = toR (o.sdf.get v) := exact_get (FSdf.mk o.sdf res) v
    have rel : relErr * (res * Real.sqrt m) ≤ N / 2 ^ 23 * res := by
      obtain ⟨⟨w', hw', rfl⟩, -⟩ := id hm'
      exact rel_le hdim hv' hw'.1 r0
    rw [eg, (toR_signed hy).2]
    show y ≤ Real.sqrt 2 * (res * Real.sqrt m) + 2 * (N / 2 ^ 23 * res)
    have e : (1 + relErr) * (res * (Real.sqrt 2 * Real.sqrt m)) =
        Real.sqrt 2 * (res * Real.sqrt m) + Real.sqrt 2 * (relErr * (res * Real.sqrt m)) := by ring
    have k1 : Real.sqrt 2 * (relErr * (res * Real.sqrt m)) ≤ Real.sqrt 2 * (N / 2 ^ 23 * res) :=
      mul_le_mul_of_nonneg_left rel (by positivity)
    have k2 : Real.sqrt 2 * (N / 2 ^ 23 * res) ≤ 2 * (N / 2 ^ 23 * res) :=
      mul_le_mul_of_nonneg_right (by linarith) e0
    linarith
  subst hdims
  obtain ⟨y, ey, hyz⟩ := estimate_bounded st hN (by omega) hdim hlo hhi hD ha ha' hl hM hM' hp hin
  have eyy : y0 = y := by
    rw [ey0] at ey
    unfold real at ey
    simpa using ey
  subst eyy
  have he : N / 2 ^ 23 * res ≤ res / 512 := by
    have hN' : (N : ℝ) ≤ 2 ^ 14 := by exact_mod_cast hN
    have : (N : ℝ) * res ≤ 2 ^ 14 * res := by gcongr
    linarith
  obtain ⟨b1, b2⟩ := interp_within (t := exactAt (FSdf.mk o.sdf res) inv) r0 hx hy hz hb
    (e := N / 2 ^ 23 * res) (lt_of_le_of_lt he (by show res / 512 < res; linarith)) hS s2'
    (by linarith) hW hq hs
  have k : Real.sqrt 2 * Real.sqrt 3 ≤ 2451 / 1000 := by
    calc Real.sqrt 2 * Real.sqrt 3 ≤ 14143 / 10000 * (17321 / 10000) :=
          mul_le_mul s2 sqrt3_bounds.2 (by positivity) (by norm_num)
      _ ≤ 2451 / 1000 := by norm_num
  have k' := mul_le_mul_of_nonneg_right k r0.le
  obtain ⟨y1, y2⟩ := abs_le.mp hyz
  have er : (exactAt (FSdf.mk o.sdf res) inv).res = res := rfl
  have eg : (exactAt (FSdf.mk o.sdf res) inv).toGrid p = inv.app id p := rfl
  rw [er] at b1 b2 y1 y2
  rw [eg] at y1 y2
  refine ⟨y0, ey0, fun h0 => ⟨h1 h0, ?_⟩, fun h0 => ⟨?_, h2 h0⟩⟩
  · have := b1 h0; linarith
  · have := b2 h0; linarith

theorem inner_sd {d : Dims} {res : ℝ} (hr : 0 < res) {f : Idx → Bool} (hb : BothClasses d f) {q : V3 ℝ}
    (hq : InnerLocation d res q) : ∃ sd, SignedDistance d res f q sd := by
  obtain ⟨hx, hy, hz⟩ := both_pos hb
  obtain ⟨i, hi, hc⟩ := volume_cube hr hx hy hz ⟨inner_range hr hq.1, inner_range hr hq.2.1, inner_range hr hq.2.2⟩
  obtain ⟨⟨u, hu, hfu⟩, v, hv, hfv⟩ := hb
  exact exists_sd hr.le hu hfu hv hfv hi hc

/-- C115 as a collision check: an estimate of at least `ρ` and 5/4 cells shows that every point of an obstacle is at
least `ρ` away; an estimate of at most minus that, that every point of free space is. -/
theorem C115_clearance {res : ℝ} (hres : GoodRes ieee res) (hlo : 1 / 2 ^ 100 ≤ res) (hhi : res ≤ 2 ^ 100)
    {d : Dims} {N : ℕ} (hN : N ≤ 2 ^ 14) (hdim : d.nx ≤ N ∧ d.ny ≤ N ∧ d.nz ≤ N) {fill : Idx → Option Bool}
    {f : Idx → Bool} (hf : Answers d fill f) (hb : BothClasses d f) {A B C : ℤ → Prop}
    (hprod : IsProduct d (fun i => f i = true) A B C ∨ IsProduct d (fun i => f i = false) A B C)
    {oob : FVal} {o : Out} (ho : extract ieee (res, res, res) d fill oob false = some o) {inv : Aff ℝ}
    {toGrid toGrid' : V3 FVal → V3 FVal} (ha : Accurate toGrid inv) (ha' : Accurate toGrid' inv)
    {cell : FVal → Int} (hl : LookupOk cell res) {p : V3 ℝ} {M : ℝ} (hM : 1 ≤ M) (hM' : M ≤ 2 ^ 36)
    (hp : Reach inv p (M * res))
    (hin : ∀ g ∈ faces ⟨d.nx * res, d.ny * res, d.nz * res⟩ (inv.app id p), (M + N) * res / 2 ^ 48 < g)
    (hq : InnerLocation d res (inv.app id p)) :
    ∃ y : ℝ, (FSdf.mk o.sdf res).estimate ieee toGrid (fun p => byAxis cell (toGrid' p)) (loc p) = some (real y, true) ∧
      (∀ ρ, 0 ≤ ρ → ρ + 5 / 4 * res ≤ y → ∀ r, Region d res f true r → ρ ≤ dist3 (inv.app id p) r) ∧
      (∀ ρ, 0 ≤ ρ → y ≤ -(ρ + 5 / 4 * res) → ∀ r, Region d res f false r → ρ ≤ dist3 (inv.app id p) r) := by
  have r0 := hres.1
  obtain ⟨hx, hy, hz⟩ := both_pos hb
  obtain ⟨sd, hs⟩ := inner_sd r0 hb hq
  obtain ⟨y, ey, h⟩ := C115_product hres hlo hhi hN hdim hf hb hprod ho ha ha' hl hM hM' hp hin hq hs
  obtain ⟨h1, h2⟩ := abs_le.mp h
  refine ⟨y, ey, fun ρ h0 hy r hr => ?_, fun ρ h0 hy r hr => ?_⟩
  · exact le_trans (by linarith) ((hs.outside (by linarith)).2 r hr)
  · exact le_trans (by linarith) ((hs.inside (by linarith)).2 r hr)

/-- C115 as a collision check in a flat map. -/
theorem C115_clearance_flat {res : ℝ} (hres : GoodRes ieee res) (hlo : 1 / 2 ^ 100 ≤ res) (hhi : res ≤ 2 ^ 100)
    {d : Dims} {N : ℕ} (hN : N ≤ 2 ^ 14) (hdim : d.nx ≤ N ∧ d.ny ≤ N ∧ d.nz ≤ N) (hflat : Flat d)
    {fill : Idx → Option Bool} {f : Idx → Bool} (hf : Answers d fill f) (hb : BothClasses d f)
    {oob : FVal} {o : Out} (ho : extract ieee (res, res, res) d fill oob false = some o) {inv : Aff ℝ}
    {toGrid toGrid' : V3 FVal → V3 FVal} (ha : Accurate toGrid inv) (ha' : Accurate toGrid' inv)
    {cell : FVal → Int} (hl : LookupOk cell res) {p : V3 ℝ} {M : ℝ} (hM : 1 ≤ M) (hM' : M * N ≤ 2 ^ 35)
    (hp : Reach inv p (M * res))
    (hin : ∀ g ∈ faces ⟨d.nx * res, d.ny * res, d.nz * res⟩ (inv.app id p), (M + N) * res / 2 ^ 48 < g)
    (hq : InnerLocation d res (inv.app id p)) :
    ∃ y : ℝ, (FSdf.mk o.sdf res).estimate ieee toGrid (fun p => byAxis cell (toGrid' p)) (loc p) = some (real y, true) ∧
      (∀ ρ, 0 ≤ ρ → Real.sqrt 2 * ρ + 2 * res ≤ y → ∀ r, Region d res f true r → ρ ≤ dist3 (inv.app id p) r) ∧
      (∀ ρ, 0 ≤ ρ → y ≤ -(Real.sqrt 2 * ρ + 2 * res) → ∀ r, Region d res f false r → ρ ≤ dist3 (inv.app id p) r) := by
  have r0 := hres.1
  obtain ⟨hx, hy, hz⟩ := both_pos hb
  obtain ⟨sd, hs⟩ := inner_sd r0 hb hq
  obtain ⟨y, ey, h1, h2⟩ := C115_flat hres hlo hhi hN hdim hflat hf hb ho ha ha' hl hM hM' hp hin hq hs
  have s2 : 0 < Real.sqrt 2 := by positivity
  refine ⟨y, ey, fun ρ h0 hy r hr => ?_, fun ρ h0 hy r hr => ?_⟩
  · have hρ : 0 ≤ Real.sqrt 2 * ρ := by positivity
    rcases le_or_gt 0 sd with hsd | hsd
    · have : Real.sqrt 2 * ρ ≤ Real.sqrt 2 * sd := by linarith [(h1 hsd).2]
      exact le_trans (le_of_mul_le_mul_left this s2) ((hs.outside hsd).2 r hr)
    · linarith [(h2 hsd.le).2]
  · have hρ : 0 ≤ Real.sqrt 2 * ρ := by positivity
    rcases le_or_gt sd 0 with hsd | hsd
    · have : Real.sqrt 2 * ρ ≤ Real.sqrt 2 * -sd := by linarith [(h2 hsd).1]
      exact le_trans (le_of_mul_le_mul_left this s2) ((hs.inside hsd).2 r hr)
    · linarith [(h1 hsd.le).1]

/-! ## A box in a grid of 5 x 6 x 5 cells -/

/-- The box. -/
def exBox (i : Idx) : Bool := decide ((1 ≤ i.x ∧ i.x ≤ 2) ∧ (1 ≤ i.y ∧ i.y ≤ 4) ∧ (2 ≤ i.z ∧ i.z ≤ 2))

theorem exBox_both : BothClasses ⟨5, 6, 5⟩ exBox :=
  ⟨⟨⟨1, 1, 2⟩, by unfold InBounds; decide, by decide⟩, ⟨0, 0, 0⟩, by unfold InBounds; decide, by decide⟩

/-- A location in front of the box, half a cell away. -/
theorem exBox_distance : SignedDistance ⟨5, 6, 5⟩ (1 / 4) exBox ⟨1 / 8, 5 / 8, 5 / 8⟩ (1 / 8) := by
  refine ⟨fun _ => ⟨⟨⟨1 / 4, 5 / 8, 5 / 8⟩, ⟨⟨1, 2, 2⟩, by unfold InBounds; decide, by decide, ?_⟩, ?_⟩, ?_⟩, fun h => ?_⟩
  · norm_num [InCube]
  · unfold dist3 sqDist3
    rw [show ((1 / 8 : ℝ) - 1 / 4) ^ 2 + (5 / 8 - 5 / 8) ^ 2 + (5 / 8 - 5 / 8) ^ 2 = (1 / 8) ^ 2 by norm_num,
      Real.sqrt_sq (by norm_num)]
  · rintro r ⟨i, -, hf, hc⟩
    have h1 : (1 : ℝ) ≤ i.x := by
      unfold exBox at hf
      rw [decide_eq_true_eq] at hf
      exact_mod_cast hf.1.1
    have h2 := hc.1.1
    refine Real.le_sqrt_of_sq_le ?_
    unfold sqDist3
    dsimp only
    nlinarith [sq_nonneg (5 / 8 - r.y), sq_nonneg (5 / 8 - r.z)]
  · norm_num at h

/-- The inverse of the pose that moves the grid to (10, -3, 1/2). -/
noncomputable def exBack : Aff ℝ := ⟨⟨1, 0, 0⟩, ⟨0, 1, 0⟩, ⟨0, 0, 1⟩, ⟨-10, 3, -1 / 2⟩⟩

/-- The hypotheses of `C115_product` hold for the box, in a grid away from the world's origin. -/
example : ∃ (o : Out) (y : ℝ), extract ieee ((1 / 4 : ℝ), (1 / 4 : ℝ), (1 / 4 : ℝ)) ⟨5, 6, 5⟩ (fun i => some (exBox i))
      (some ⊤) false = some o ∧
    (FSdf.mk o.sdf (1 / 4)).estimate ieee (affApp ieee exBack) (fun p => byAxis (axisCell ieee (1 / 4))
      (affApp ieee exBack p)) (loc ⟨81 / 8, -19 / 8, 9 / 8⟩) = some (real y, true) ∧ |y - 1 / 8| ≤ 5 / 4 * (1 / 4) := by
  have hd : SmallGrid ⟨5, 6, 5⟩ := by unfold SmallGrid; decide
  have ans : Answers ⟨5, 6, 5⟩ (fun i => some (exBox i)) exBox := fun _ _ => rfl
  obtain ⟨o, _, _, ho, _⟩ := base_spec hd ans ieee (1 / 4) (some ⊤)
  rw [← extract_false] at ho
  have eq : exBack.app id ⟨81 / 8, -19 / 8, 9 / 8⟩ = ⟨1 / 8, 5 / 8, 5 / 8⟩ := by
    unfold Aff.app exBack; norm_num
  obtain ⟨y, ey, hy⟩ := C115_product quarter_good (by norm_num) (by norm_num) (N := 6) (by norm_num) (by decide) ans exBox_both
    (A := fun x => 1 ≤ x ∧ x ≤ 2) (B := fun y => 1 ≤ y ∧ y ≤ 4) (C := fun z => 2 ≤ z ∧ z ≤ 2)
    (Or.inl fun i _ => by simp [exBox]) ho (C112_product exBack) (C112_product exBack)
    (C112_lookup (by norm_num) (by norm_num)) (p := ⟨81 / 8, -19 / 8, 9 / 8⟩) (M := 2 ^ 10) (by norm_num) (by norm_num)
    (by norm_num [Reach, mag, exBack, abs_of_pos, abs_of_neg]) (by rw [eq]; norm_num [faces])
    (by rw [eq]; norm_num [InnerLocation, Spec.Inner]) (by rw [eq]; exact exBox_distance)
  exact ⟨o, y, ho, ey, hy⟩

/-- Two obstacles that touch along an edge only: not a product. -/
def exPair (i : Idx) : Bool := decide (i = ⟨0, 0, 0⟩ ∨ i = ⟨2, 0, 1⟩)

theorem exPair_distance : SignedDistance ⟨3, 1, 2⟩ (1 / 4) exPair ⟨3 / 8, 1 / 8, 3 / 8⟩ (1 / 8) := by
  refine ⟨fun _ => ⟨⟨⟨1 / 2, 1 / 8, 3 / 8⟩, ⟨⟨2, 0, 1⟩, by unfold InBounds; decide, by decide, ?_⟩, ?_⟩, ?_⟩, fun h => ?_⟩
  · norm_num [InCube]
  · unfold dist3 sqDist3
    rw [show ((3 / 8 : ℝ) - 1 / 2) ^ 2 + (1 / 8 - 1 / 8) ^ 2 + (3 / 8 - 3 / 8) ^ 2 = (1 / 8) ^ 2 by norm_num,
      Real.sqrt_sq (by norm_num)]
  · rintro r ⟨i, -, hf, hc⟩
    refine Real.le_sqrt_of_sq_le ?_
    unfold sqDist3
    unfold exPair at hf
    rw [decide_eq_true_eq] at hf
    rcases hf with rfl | rfl
    · have h2 := hc.1.2
      push_cast at h2
      dsimp only
      nlinarith [sq_nonneg (1 / 8 - r.y), sq_nonneg (3 / 8 - r.z)]
    · have h2 := hc.1.1
      push_cast at h2
      dsimp only
      nlinarith [sq_nonneg (1 / 8 - r.y), sq_nonneg (3 / 8 - r.z)]
  · norm_num at h

/-- The hypotheses of `C115_flat` hold for this map. -/
example : ∃ (o : Out) (y : ℝ), extract ieee ((1 / 4 : ℝ), (1 / 4 : ℝ), (1 / 4 : ℝ)) ⟨3, 1, 2⟩ (fun i => some (exPair i))
      (some ⊤) false = some o ∧
    (FSdf.mk o.sdf (1 / 4)).estimate ieee (affApp ieee exBack) (fun p => byAxis (axisCell ieee (1 / 4))
      (affApp ieee exBack p)) (loc ⟨83 / 8, -23 / 8, 7 / 8⟩) = some (real y, true) ∧
    1 / 8 - 5 / 4 * (1 / 4) ≤ y ∧ y ≤ Real.sqrt 2 * (1 / 8) + 2 * (1 / 4) := by
  have hd : SmallGrid ⟨3, 1, 2⟩ := by unfold SmallGrid; decide
  have ans : Answers ⟨3, 1, 2⟩ (fun i => some (exPair i)) exPair := fun _ _ => rfl
  obtain ⟨o, _, _, ho, _⟩ := base_spec hd ans ieee (1 / 4) (some ⊤)
  rw [← extract_false] at ho
  have eq : exBack.app id ⟨83 / 8, -23 / 8, 7 / 8⟩ = ⟨3 / 8, 1 / 8, 3 / 8⟩ := by
    unfold Aff.app exBack; norm_num
  obtain ⟨y, ey, hy, -⟩ := C115_flat quarter_good (by norm_num) (by norm_num) (N := 3) (by norm_num) (by decide)
    (Or.inr (Or.inl rfl)) ans
    ⟨⟨⟨0, 0, 0⟩, by unfold InBounds; decide, by decide⟩, ⟨1, 0, 0⟩, by unfold InBounds; decide, by decide⟩ ho
    (C112_product exBack) (C112_product exBack)
    (C112_lookup (by norm_num) (by norm_num)) (p := ⟨83 / 8, -23 / 8, 7 / 8⟩) (M := 2 ^ 10) (by norm_num) (by norm_num)
    (by norm_num [Reach, mag, exBack, abs_of_pos, abs_of_neg]) (by rw [eq]; norm_num [faces])
    (by rw [eq]; norm_num [InnerLocation, Spec.Inner]) (by rw [eq]; exact exPair_distance)
  exact ⟨o, y, ho, ey, hy (by norm_num)⟩

end FSdf

end Verif
