import Verif.Spec.Checked
import Verif.Props.WorldDistance

/-!
# C123: fields that pass a check are safe

No bound in terms of the true distance is known for the values of every three-dimensional map (C10, C115).  A field whose
neighbouring values differ by at most 1.01 cells has one, and that can be checked by reading the field.
-/

namespace Verif

open Spec SdfGen DField

namespace FSdf

open SignedDist

theorem step_toward {d : Dims} {v w : Idx} (hv : InBounds d v) (hw : InBounds d w) (h : v ≠ w) :
    ∃ u, InBounds d u ∧ sqDist v u = 1 ∧ manhattan u w = manhattan v w - 1 := by
  obtain ⟨⟨a0, a1⟩, ⟨b0, b1⟩, c0, c1⟩ := hv
  obtain ⟨⟨p0, p1⟩, ⟨q0, q1⟩, r0, r1⟩ := hw
  have ax : ∀ {a b : Int}, a ≠ b → ∃ c, (min a b ≤ c ∧ c ≤ max a b) ∧ (a - c) ^ 2 = 1 ∧ |c - b| = |a - b| - 1 := by
    intro a b hab
    rcases lt_or_gt_of_ne hab with hl | hl
    · refine ⟨a + 1, by omega, by ring, ?_⟩
      rw [abs_of_nonpos (by omega), abs_of_nonpos (by omega)]; ring
    · refine ⟨a - 1, by omega, by ring, ?_⟩
      rw [abs_of_nonneg (by omega), abs_of_nonneg (by omega)]; ring
  by_cases hx : v.x = w.x
  · by_cases hy : v.y = w.y
    · have hz : v.z ≠ w.z := fun hz => h (by cases v; cases w; simp_all)
      obtain ⟨c, hc, h1, h2⟩ := ax hz
      refine ⟨⟨v.x, v.y, c⟩, ⟨⟨a0, a1⟩, ⟨b0, b1⟩, ?_, ?_⟩, ?_, ?_⟩
      · show 0 ≤ c; omega
      · show c < _; omega
      · simp [sqDist, h1]
      · simp only [manhattan]; omega
    · obtain ⟨c, hc, h1, h2⟩ := ax hy
      refine ⟨⟨v.x, c, v.z⟩, ⟨⟨a0, a1⟩, ⟨?_, ?_⟩, c0, c1⟩, ?_, ?_⟩
      · show 0 ≤ c; omega
      · show c < _; omega
      · simp [sqDist, h1]
      · simp only [manhattan]; omega
  · obtain ⟨c, hc, h1, h2⟩ := ax hx
    refine ⟨⟨c, v.y, v.z⟩, ⟨⟨?_, ?_⟩, ⟨b0, b1⟩, c0, c1⟩, ?_, ?_⟩
    · show 0 ≤ c; omega
    · show c < _; omega
    · simp [sqDist, h1]
    · simp only [manhattan]; omega

theorem manhattan_three (v w : Idx) : manhattan v w ^ 2 ≤ 3 * sqDist v w := by
  unfold manhattan sqDist
  rw [← sq_abs (v.x - w.x), ← sq_abs (v.y - w.y), ← sq_abs (v.z - w.z)]
  nlinarith [sq_nonneg (|v.x - w.x| - |v.y - w.y|), sq_nonneg (|v.y - w.y| - |v.z - w.z|),
    sq_nonneg (|v.x - w.x| - |v.z - w.z|)]

/-- What `extract` stores in a cell, when it is a number. -/
theorem class_value {res : ℝ} (hres : GoodRes ieee res) (hlo : 1 / 2 ^ 126 ≤ res) (hhi : res ≤ 2 ^ 100) {d : Dims}
    (hd : SmallGrid d) {fill : Idx → Option Bool} {f : Idx → Bool} (hf : Answers d fill f)
    {oob : FVal} {o : Out} (ho : extract ieee (res, res, res) d fill oob false = some o) {v : Idx} (hv : InBounds d v)
    {x : ℝ} (hx : o.sdf.get v = real x) : 0 < signed (f v) x := by
  obtain ⟨y, w, hy, hpos, -⟩ := (C86_accuracy hres hlo hhi hd hf ho hv).resolve_left fun hc => by
    rw [hx] at hc
    unfold real at hc
    split_ifs at hc <;> simp at hc
  have e := (toR_signed hy).2
  rw [hx] at e
  have t : toR (real x) = x := by simp [toR, real]
  rw [t] at e
  rw [e]; exact hpos

/-- C123, stored values: in a field that passes the check every distance is at most 7/4 times the distance to the
centre of any cell of the other class. -/
theorem C123_stored {res : ℝ} (hres : GoodRes ieee res) (hlo : 1 / 2 ^ 126 ≤ res) (hhi : res ≤ 2 ^ 100) {d : Dims}
    (hd : SmallGrid d) {fill : Idx → Option Bool} {f : Idx → Bool} (hf : Answers d fill f)
    {oob : FVal} {o : Out} (ho : extract ieee (res, res, res) d fill oob false = some o) {g : Idx → ℝ}
    (hg : Checked d res o.sdf.get g) {v w : Idx} (hv : InBounds d v) (hw : Opposite d f v w) :
    0 < signed (f v) (g v) ∧ signed (f v) (g v) ≤ 7 / 4 * (res * Real.sqrt (sqDist v w)) := by
  have r0 := hres.1
  have sgn : ∀ u, InBounds d u → 0 < signed (f u) (g u) := fun u hu =>
    class_value hres hlo hhi hd hf ho hu (hg.1 u hu)
  refine ⟨sgn v hv, ?_⟩
  have key : ∀ (k : ℕ) (v : Idx), InBounds d v → f w ≠ f v → manhattan v w = k →
      signed (f v) (g v) ≤ 101 / 100 * res * k := by
    intro k
    induction k with
    | zero =>
      intro v hv hne hk
      exfalso
      apply hne
      have : v = w := by
        simp only [manhattan, Int.abs_eq_natAbs] at hk
        cases v; cases w
        simp only [Idx.mk.injEq] at *
        omega
      rw [this]
    | succ k ih =>
      intro v hv hne hk
      obtain ⟨u, hu, h1, h2⟩ := step_toward hv hw.1 (fun e => hne (by rw [e]))
      by_cases hc : f u = f v
      · have hu' := ih u hu (by rw [hc]; exact hne) (by rw [h2, hk]; push_cast; ring)
        have pu := sgn u hu
        have pv := sgn v hv
        rw [hc] at hu' pu
        have pos : 0 < g u * g v := by
          cases hfv : f v <;> rw [hfv] at pu pv <;> simp only [signed, if_true, Bool.false_eq_true, if_false] at pu pv <;> nlinarith
        have st := hg.2 v u hv hu h1 (by rw [mul_comm]; exact pos)
        have : signed (f v) (g v) ≤ signed (f v) (g u) + 101 / 100 * res := by
          obtain ⟨s1, s2⟩ := abs_le.mp st
          cases hfv : f v <;> simp only [signed, if_true, Bool.false_eq_true, if_false] <;> linarith
        push_cast
        linarith
      · have hm : NearestOpposite d f v 1 := ⟨⟨u, ⟨hu, hc⟩, h1⟩, fun p hp => opposite_pos hp⟩
        obtain ⟨y, hy, -, herr⟩ := C86_near hres hlo hhi hd hf ho hv hm (by norm_num)
        have e := (toR_signed hy).2
        rw [hg.1 v hv] at e
        have t : toR (some (g v : EReal)) = g v := by simp [toR]
        rw [t] at e
        rw [e]
        have h3 := (abs_le.mp herr).2
        simp only [Int.cast_one, Real.sqrt_one, mul_one] at h3
        have rel : relErr ≤ 1 / 100 := by unfold relErr; norm_num
        have : relErr * res ≤ 1 / 100 * res := by gcongr
        have k1 : (1 : ℝ) ≤ ((k + 1 : ℕ) : ℝ) := by push_cast; linarith [(Nat.cast_nonneg k : (0 : ℝ) ≤ k)]
        calc y ≤ 101 / 100 * res * 1 := by linarith
          _ ≤ 101 / 100 * res * ((k + 1 : ℕ) : ℝ) := by gcongr
  have n0 : 0 ≤ manhattan v w := by unfold manhattan; positivity
  have h := key (manhattan v w).toNat v hv hw.2 (by omega)
  refine h.trans ?_
  have : ((manhattan v w).toNat : ℝ) ≤ Real.sqrt 3 * Real.sqrt (sqDist v w) := by
    rw [← Real.sqrt_mul (by norm_num)]
    refine Real.le_sqrt_of_sq_le ?_
    have e : ((manhattan v w).toNat : ℤ) = manhattan v w := Int.toNat_of_nonneg n0
    have := manhattan_three v w
    rw [← e] at this
    exact_mod_cast this
  have s3 := sqrt3_bounds.2
  calc _ ≤ 101 / 100 * res * (Real.sqrt 3 * Real.sqrt (sqDist v w)) := by gcongr
    _ ≤ 101 / 100 * res * (17321 / 10000 * Real.sqrt (sqDist v w)) := by gcongr
    _ ≤ _ := by
      have : 0 ≤ res * Real.sqrt (sqDist v w) := by positivity
      linarith

/-- C123 in the grid frame: in a field that passes the check `EstimateDistance` lies, outside the obstacles, between the
signed distance less 5/4 cells and 7/4 of the signed distance plus 21/8 cells; inside, likewise with the signs
turned. -/
theorem C123_estimate {res : ℝ} (hres : GoodRes ieee res) (hlo : 1 / 2 ^ 100 ≤ res) (hhi : res ≤ 2 ^ 100)
    {d : Dims} {N : ℕ} (hN : N ≤ 2 ^ 14) (hdim : d.nx ≤ N ∧ d.ny ≤ N ∧ d.nz ≤ N)
    {fill : Idx → Option Bool} {f : Idx → Bool} (hf : Answers d fill f) (hb : BothClasses d f)
    {oob : FVal} {o : Out} (ho : extract ieee (res, res, res) d fill oob false = some o) {g : Idx → ℝ}
    (hg : Checked d res o.sdf.get g) {inv : Aff ℝ}
    {toGrid toGrid' : V3 FVal → V3 FVal} (ha : Accurate toGrid inv) (ha' : Accurate toGrid' inv)
    {cell : FVal → Int} (hl : LookupOk cell res) {p : V3 ℝ} {M : ℝ} (hM : 1 ≤ M) (hM' : M * N ≤ 2 ^ 35)
    (hp : Reach inv p (M * res))
    (hin : ∀ g ∈ faces ⟨d.nx * res, d.ny * res, d.nz * res⟩ (inv.app id p), (M + N) * res / 2 ^ 48 < g)
    (hq : InnerLocation d res (inv.app id p)) {sd : ℝ} (hs : SignedDistance d res f (inv.app id p) sd) :
    ∃ y : ℝ, (FSdf.mk o.sdf res).estimate ieee toGrid (fun p => byAxis cell (toGrid' p)) (loc p) = some (real y, true) ∧
      (0 ≤ sd → sd - 5 / 4 * res ≤ y ∧ y ≤ 7 / 4 * sd + 21 / 8 * res) ∧
      (sd ≤ 0 → 7 / 4 * sd - 21 / 8 * res ≤ y ∧ y ≤ sd + 5 / 4 * res) := by
  have hsm := small_of hN hdim
  have hdims := extract_dims hsm hf ho
  have hlo' : (1 : ℝ) / 2 ^ 126 ≤ res := le_trans (by norm_num) hlo
  have hfin : ∀ v, InBounds d v → ∃ x : ℝ, o.sdf.get v = real x := fun v hv => ⟨g v, hg.1 v hv⟩
  obtain ⟨y0, ey0, h1, h2⟩ := C115_every_map hres hlo hhi hN hdim hf hb ho hfin ha ha' hl hM hM' hp hin hq hs
  obtain ⟨st, hS, hD⟩ := values_of_map hres hlo hhi hN hdim hf ho hfin inv
  obtain ⟨hx, hy, hz⟩ := both_pos hb
  have r0 := hres.1
  have s3 := sqrt3_bounds.2
  have hW : SignedDist.Within (exactAt (FSdf.mk o.sdf res) inv) f (7 / 4) (res / 512) := by
    intro v hv m hm
    have hv' : InBounds d v := by rw [← hdims]; exact hv
    have hm' : NearestOpposite d f v m := by rw [← hdims]; exact hm
    obtain ⟨⟨w, hw, rfl⟩, -⟩ := hm'
    have eg : (exactAt (FSdf.mk o.sdf res) inv).grid.get v = toR (o.sdf.get v) := exact_get (FSdf.mk o.sdf res) v
    have t : toR (some (g v : EReal)) = g v := by simp [toR]
    rw [eg, hg.1 v hv', t]
    show signed (f v) (g v) ≤ 7 / 4 * (res * Real.sqrt (sqDist v w)) + res / 512
    have := (C123_stored hres hlo' hhi hsm hf ho hg hv' hw).2
    linarith
  subst hdims
  obtain ⟨y, ey, hyz⟩ := estimate_bounded st hN (by omega) hdim hlo hhi hD ha ha' hl hM hM' hp hin
  have eyy : y0 = y := by
    rw [ey0] at ey
    unfold real at ey
    simpa using ey
  subst eyy
  have hNr : (N : ℝ) * res ≤ 2 ^ 14 * res := by
    have hN' : (N : ℝ) ≤ 2 ^ 14 := by exact_mod_cast hN
    gcongr
  have he : N / 2 ^ 23 * res ≤ res / 512 := by linarith
  obtain ⟨b1, b2⟩ := interp_within (t := exactAt (FSdf.mk o.sdf res) inv) r0 hx hy hz hb
    (e := N / 2 ^ 23 * res) (lt_of_le_of_lt he (by show res / 512 < res; linarith)) hS (by norm_num)
    he hW hq hs
  obtain ⟨y1, y2⟩ := abs_le.mp hyz
  have er : (exactAt (FSdf.mk o.sdf res) inv).res = res := rfl
  have eg : (exactAt (FSdf.mk o.sdf res) inv).toGrid p = inv.app id p := rfl
  rw [er] at b1 b2 y1 y2
  rw [eg] at y1 y2
  have c3 : 7 / 4 * Real.sqrt 3 ≤ 7 / 4 * (17321 / 10000) := by gcongr
  have c4 : (7 / 4 * Real.sqrt 3 - 1 / 2) * res ≤ (7 / 4 * (17321 / 10000) - 1 / 2) * res := by gcongr
  refine ⟨y0, ey0, fun h0 => ⟨h1 h0, ?_⟩, fun h0 => ⟨?_, h2 h0⟩⟩
  · have := b1 h0; linarith
  · have := b2 h0; linarith

/-- C123 in the world: the map is placed by a stored transform that is a rotation up to rounding. -/
theorem C123_world {res : ℝ} (hres : GoodRes ieee res) (hlo : 1 / 2 ^ 100 ≤ res) (hhi : res ≤ 2 ^ 60)
    {d : Dims} {N : ℕ} (hN : N ≤ 2 ^ 14) (hdim : d.nx ≤ N ∧ d.ny ≤ N ∧ d.nz ≤ N)
    {fill : Idx → Option Bool} {f : Idx → Bool} (hf : Answers d fill f) (hb : BothClasses d f)
    {oob : FVal} {o : Out} (ho : extract ieee (res, res, res) d fill oob false = some o) {g : Idx → ℝ}
    (hg : Checked d res o.sdf.get g) {A B : Aff ℝ}
    (hA : NearRotation A) (hB : isoInverse ieee A = (B.rx, B.ry, B.rz, loc B.t)) {M : ℝ} (hNM : (N : ℝ) ≤ M)
    (hM : M * N ≤ 2 ^ 29) (hT : OriginWithin A (M * res)) {c : V3 ℝ} (hc : WellInside d res c) :
    ∃ y sw : ℝ, (FSdf.mk o.sdf res).estimate ieee (affApp ieee B)
        (fun p => byAxis (axisCell ieee res) (affApp ieee B p)) (loc (A.app id c)) = some (real y, true) ∧
      WorldDistance A d res f (A.app id c) sw ∧
      (res / 1000 ≤ sw → sw - 4 / 3 * res ≤ y ∧ y ≤ 7 / 4 * sw + 8 / 3 * res) ∧
      (sw ≤ -(res / 1000) → 7 / 4 * sw - 8 / 3 * res ≤ y ∧ y ≤ sw + 4 / 3 * res) ∧
      (|sw| ≤ res / 1000 → |y| ≤ 8 / 3 * res) := by
  have hhi' : res ≤ 2 ^ 100 := hhi.trans (by norm_num)
  have r0 := hres.1
  have N1 : (1 : ℝ) ≤ N := by
    obtain ⟨hx, -, -⟩ := both_pos hb
    have : 1 ≤ N := by omega
    exact_mod_cast this
  have M1 : 1 ≤ M := N1.trans hNM
  have hM2 : M ≤ 2 ^ 29 := le_trans (le_mul_of_one_le_right (by linarith) N1) hM
  obtain ⟨hp, hin, hq, ⟨b, hcb⟩, hw⟩ := world_query hA hlo hhi hM2 hT hN hNM hdim hb hc hB
  obtain ⟨sw, hsw, -⟩ := exists_world A r0.le hb hcb
  obtain ⟨sd, hs, hd⟩ := hw sw hsw
  obtain ⟨y, ey, h1, h2⟩ := C123_estimate hres hlo hhi' hN hdim hf hb ho hg (C112_product B) (C112_product B)
    (C112_lookup hlo hhi') (by linarith : 1 ≤ 64 * M) (by norm_num at hM ⊢; linarith) hp hin hq hs
  obtain ⟨d1, d2⟩ := abs_le.mp hd
  refine ⟨y, sw, ey, hsw, fun h => ?_, fun h => ?_, fun h => ?_⟩
  · obtain ⟨a, b⟩ := h1 (by linarith)
    constructor <;> linarith
  · obtain ⟨a, b⟩ := h2 (by linarith)
    constructor <;> linarith
  · obtain ⟨w1, w2⟩ := abs_le.mp h
    rw [abs_le]
    rcases le_total 0 sd with h0 | h0
    · obtain ⟨a, b⟩ := h1 h0
      constructor <;> linarith
    · obtain ⟨a, b⟩ := h2 h0
      constructor <;> linarith

/-- C123 as a collision check: in a field that passes the check, a reported distance of at least `7/4 * ρ` and 8/3 cells
shows that every point of an obstacle is at least `ρ` away from the query. -/
theorem C123_clearance {res : ℝ} (hres : GoodRes ieee res) (hlo : 1 / 2 ^ 100 ≤ res) (hhi : res ≤ 2 ^ 60)
    {d : Dims} {N : ℕ} (hN : N ≤ 2 ^ 14) (hdim : d.nx ≤ N ∧ d.ny ≤ N ∧ d.nz ≤ N)
    {fill : Idx → Option Bool} {f : Idx → Bool} (hf : Answers d fill f) (hb : BothClasses d f)
    {oob : FVal} {o : Out} (ho : extract ieee (res, res, res) d fill oob false = some o) {g : Idx → ℝ}
    (hg : Checked d res o.sdf.get g) {A B : Aff ℝ}
    (hA : NearRotation A) (hB : isoInverse ieee A = (B.rx, B.ry, B.rz, loc B.t)) {M : ℝ} (hNM : (N : ℝ) ≤ M)
    (hM : M * N ≤ 2 ^ 29) (hT : OriginWithin A (M * res)) {c : V3 ℝ} (hc : WellInside d res c) :
    ∃ y : ℝ, (FSdf.mk o.sdf res).estimate ieee (affApp ieee B)
        (fun p => byAxis (axisCell ieee res) (affApp ieee B p)) (loc (A.app id c)) = some (real y, true) ∧
      ∀ ρ, 0 < ρ → 7 / 4 * ρ + 8 / 3 * res ≤ y → ∀ r, Region d res f true r → ρ ≤ dist3 (A.app id c) (A.app id r) := by
  obtain ⟨y, sw, ey, hw, h1, h2, h3⟩ := C123_world hres hlo hhi hN hdim hf hb ho hg hA hB hNM hM hT hc
  have r0 := hres.1
  refine ⟨y, ey, fun ρ h0 hy r hr => ?_⟩
  rcases le_total (res / 1000) sw with h | h
  · have := (h1 h).2
    have : ρ ≤ sw := by linarith
    exact this.trans ((hw.outside (by linarith)).2 r hr)
  · exfalso
    rcases le_total sw (-(res / 1000)) with h' | h'
    · have := (h2 h').2; linarith
    · have := (abs_le.mp (h3 (abs_le.mpr ⟨h', h⟩))).2; linarith

/-- The distance to the nearest cell of the other class changes by at most one between neighbours of a class. -/
theorem nearest_lipschitz {d : Dims} {f : Idx → Bool} {u v : Idx} (h1 : sqDist u v = 1) (hc : f u = f v) {m n : ℤ}
    (hm : NearestOpposite d f u m) (hn : NearestOpposite d f v n) : Real.sqrt m ≤ 1 + Real.sqrt n := by
  obtain ⟨⟨w, hw, rfl⟩, -⟩ := hn
  have h := hm.2 w ⟨hw.1, by rw [hc]; exact hw.2⟩
  have h' : (m : ℝ) ≤ sqDist u w := by exact_mod_cast h
  refine (Real.sqrt_le_sqrt h').trans ?_
  have key := dist3_tri (⟨u.x, u.y, u.z⟩ : V3 ℝ) ⟨v.x, v.y, v.z⟩ ⟨w.x, w.y, w.z⟩
  have e : ∀ a b : Idx, dist3 (⟨a.x, a.y, a.z⟩ : V3 ℝ) ⟨b.x, b.y, b.z⟩ = Real.sqrt (sqDist a b) := by
    intro a b
    unfold dist3 sqDist3 sqDist
    push_cast
    rfl
  rw [e, e, e, h1] at key
  simpa using key

/-- The fields that are exact pass the check: those of maps where the filled cells or the free cells are a product of
index sets, such as a box. -/
theorem C123_product {res : ℝ} (hres : GoodRes ieee res) (hlo : 1 / 2 ^ 126 ≤ res) (hhi : res ≤ 2 ^ 100)
    {d : Dims} {N : ℕ} (hN : N ≤ 2 ^ 14) (hdim : d.nx ≤ N ∧ d.ny ≤ N ∧ d.nz ≤ N) {fill : Idx → Option Bool}
    {f : Idx → Bool} (hf : Answers d fill f) (hb : BothClasses d f) {A B C : ℤ → Prop}
    (hprod : IsProduct d (fun i => f i = true) A B C ∨ IsProduct d (fun i => f i = false) A B C)
    {oob : FVal} {o : Out} (ho : extract ieee (res, res, res) d fill oob false = some o) :
    ∃ g, Checked d res o.sdf.get g := by
  have hsm := small_of hN hdim
  have r0 := hres.1
  refine ⟨fun v => toR (o.sdf.get v), fun v hv => ?_, fun u v hu hv h1 hpos => ?_⟩
  · obtain ⟨m, hm⟩ := both_opposite hb (v := v)
    obtain ⟨y, hy, -, -⟩ := C91_ieee hres hlo hhi hsm hf hprod ho hv hm
    rw [hy]
    split_ifs with hc <;> simp [toR, hy, hc]
  · have val : ∀ v, InBounds d v → ∃ (m : ℤ) (y : ℝ), NearestOpposite d f v m ∧ 0 < y ∧
        toR (o.sdf.get v) = signed (f v) y ∧ |y - res * Real.sqrt m| ≤ res / 512 := by
      intro v hv
      obtain ⟨m, hm⟩ := both_opposite hb (v := v)
      obtain ⟨y, hy, y0, he⟩ := C91_ieee hres hlo hhi hsm hf hprod ho hv hm
      refine ⟨m, y, hm, y0, ?_, he.trans ?_⟩
      · rw [hy]; cases f v <;> simp [toR, signed]
      · obtain ⟨⟨w, hw, rfl⟩, -⟩ := hm
        have := rel_le hdim hv hw.1 r0
        have hN' : (N : ℝ) ≤ 2 ^ 14 := by exact_mod_cast hN
        have : (N : ℝ) / 2 ^ 23 * res ≤ 2 ^ 14 / 2 ^ 23 * res := by gcongr
        linarith
    obtain ⟨m, y, hm, y0, ey, hy⟩ := val u hu
    obtain ⟨n, z, hn, z0, ez, hz⟩ := val v hv
    simp only at hpos ⊢
    rw [ey, ez] at hpos ⊢
    have hc : f u = f v := by
      cases hu' : f u <;> cases hv' : f v <;> rw [hu', hv'] at hpos <;> simp [signed] at hpos ⊢ <;> nlinarith
    have a := nearest_lipschitz h1 hc hm hn
    have b := nearest_lipschitz (by rw [← h1]; unfold sqDist; ring) hc.symm hn hm
    have a' : res * Real.sqrt m ≤ res * (1 + Real.sqrt n) := by gcongr
    have b' : res * Real.sqrt n ≤ res * (1 + Real.sqrt m) := by gcongr
    obtain ⟨y1, y2⟩ := abs_le.mp hy
    obtain ⟨z1, z2⟩ := abs_le.mp hz
    rw [hc, abs_le]
    cases f v <;> simp only [signed, if_true, Bool.false_eq_true, if_false] <;> constructor <;> linarith

/-- A box in a rotated and shifted map: the check passes, and the clearance holds at a query beside the box. -/
example : ∃ (o : Out) (g : Idx → ℝ) (B : Aff ℝ) (y : ℝ), extract ieee ((1 / 4 : ℝ), (1 / 4 : ℝ), (1 / 4 : ℝ)) ⟨5, 6, 5⟩
      (fun i => some (exBox i)) (some ⊤) false = some o ∧ Checked ⟨5, 6, 5⟩ (1 / 4) o.sdf.get g ∧
    isoInverse ieee exPose = (B.rx, B.ry, B.rz, loc B.t) ∧
    (FSdf.mk o.sdf (1 / 4)).estimate ieee (affApp ieee B) (fun p => byAxis (axisCell ieee (1 / 4)) (affApp ieee B p))
      (loc (exPose.app id ⟨7 / 8, 5 / 8, 5 / 8⟩)) = some (real y, true) ∧
    ∀ ρ, 0 < ρ → 7 / 4 * ρ + 8 / 3 * (1 / 4) ≤ y → ∀ r, Region ⟨5, 6, 5⟩ (1 / 4) exBox true r →
      ρ ≤ dist3 (exPose.app id ⟨7 / 8, 5 / 8, 5 / 8⟩) (exPose.app id r) := by
  have hd : SmallGrid ⟨5, 6, 5⟩ := by unfold SmallGrid; decide
  have ans : Answers ⟨5, 6, 5⟩ (fun i => some (exBox i)) exBox := fun _ _ => rfl
  obtain ⟨o, _, _, ho, _⟩ := base_spec hd ans ieee (1 / 4) (some ⊤)
  rw [← extract_false] at ho
  obtain ⟨B, hB, -⟩ := C112_inverse exPose_rotation
    ⟨exPose_origin.1.trans (by norm_num), exPose_origin.2.1.trans (by norm_num), exPose_origin.2.2.trans (by norm_num)⟩
  obtain ⟨g, hg⟩ := C123_product quarter_good (by norm_num) (by norm_num) (N := 6) (by norm_num) (by decide) ans
    exBox_both (A := fun x => 1 ≤ x ∧ x ≤ 2) (B := fun y => 1 ≤ y ∧ y ≤ 4) (C := fun z => 2 ≤ z ∧ z ≤ 2)
    (Or.inl fun i _ => by simp [exBox]) ho
  obtain ⟨y, h⟩ := C123_clearance quarter_good (by norm_num) (by norm_num) (N := 6) (by norm_num) (by decide) ans
    exBox_both ho hg exPose_rotation hB (M := 2 ^ 26) (by norm_num) (by norm_num) exPose_origin
    (c := ⟨7 / 8, 5 / 8, 5 / 8⟩) (by norm_num [WellInside, WellInner])
  exact ⟨o, g, B, y, ho, hg, hB, h⟩

end FSdf

end Verif
