import Verif.Props.FreeNamed
import Verif.Props.CloudPath

/-!
# C144: distances reported by the free-and-named-objects field

`ExtractFreeAndNamedObjectsSignedDistanceField` followed by `EstimateDistance` in the world (C133 and the interpolation
lemmas of C115 and C129 together).
-/

namespace Verif

open Spec SdfGen DField

namespace FSdf

open SignedDist

/-! ## Between the cells -/

/-- A field that holds distances to `P` outside `P`, minus distances to the outside of `Q` in `Q`, and 0 on the rest. -/
structure TwoSided (t : MSdf ℝ) (P Q : Idx → Prop) : Prop where
  free : ∀ v, InBounds t.grid.dims v → ¬ P v → ∃ p, InBounds t.grid.dims p ∧ P p ∧
    |t.grid.get v - t.res * Real.sqrt (sqDist v p)| ≤ t.res / 512
  named : ∀ v, InBounds t.grid.dims v → Q v → ∃ p, InBounds t.grid.dims p ∧ ¬ Q p ∧
    |-t.grid.get v - t.res * Real.sqrt (sqDist v p)| ≤ t.res / 512
  plain : ∀ v, InBounds t.grid.dims v → P v → ¬ Q v → t.grid.get v = 0

theorem sqrt_sqDist_pos {v p : Idx} (h : v ≠ p) : 1 ≤ Real.sqrt (sqDist v p) := by
  refine Real.one_le_sqrt.mpr ?_
  have : 1 ≤ sqDist v p := by
    by_contra hc
    apply h
    unfold sqDist at hc
    have x := sq_nonneg (v.x - p.x)
    have y := sq_nonneg (v.y - p.y)
    have z := sq_nonneg (v.z - p.z)
    have ex : v.x - p.x = 0 := pow_eq_zero_iff (two_ne_zero) |>.mp (by omega)
    have ey : v.y - p.y = 0 := pow_eq_zero_iff (two_ne_zero) |>.mp (by omega)
    have ez : v.z - p.z = 0 := pow_eq_zero_iff (two_ne_zero) |>.mp (by omega)
    cases v; cases p
    simp only [Idx.mk.injEq] at *
    omega
  exact_mod_cast this

theorem TwoSided.closer_free {t : MSdf ℝ} (hr : 0 < t.res) {P Q : Idx → Prop} (h : TwoSided t P Q) {v : Idx}
    (hv : InBounds t.grid.dims v) (hp : ¬ P v) : halfCellCloser t.res (t.grid.get v) = t.grid.get v - t.res / 2 := by
  obtain ⟨p, -, hpp, he⟩ := h.free v hv hp
  have s1 := sqrt_sqDist_pos (fun e => hp (e ▸ hpp) : v ≠ p)
  have := (abs_le.mp he).1
  unfold halfCellCloser
  rw [if_pos (by nlinarith)]

theorem TwoSided.closer_named {t : MSdf ℝ} (hr : 0 < t.res) {P Q : Idx → Prop} (h : TwoSided t P Q) {v : Idx}
    (hv : InBounds t.grid.dims v) (hq : Q v) :
    halfCellCloser t.res (t.grid.get v) = t.grid.get v + t.res / 2 ∧ t.grid.get v + t.res / 2 ≤ 0 := by
  obtain ⟨p, -, hpp, he⟩ := h.named v hv hq
  have s1 := sqrt_sqDist_pos (fun e => hpp (e ▸ hq) : v ≠ p)
  have := (abs_le.mp he).1
  unfold halfCellCloser
  rw [if_neg (by nlinarith)]
  exact ⟨rfl, by nlinarith⟩

theorem TwoSided.closer_obstacle {t : MSdf ℝ} (hr : 0 < t.res) {P Q : Idx → Prop} (h : TwoSided t P Q) {v : Idx}
    (hv : InBounds t.grid.dims v) (hp : P v) : halfCellCloser t.res (t.grid.get v) ≤ 0 := by
  by_cases hq : Q v
  · have := h.closer_named hr hv hq
    linarith [this.1, this.2]
  · rw [h.plain v hv hp hq]
    unfold halfCellCloser
    rw [if_pos le_rfl]
    linarith

open Classical in
/-- The interpolant and the obstacles of any kind. -/
theorem TwoSided.obstacle {t : MSdf ℝ} (hr : 0 < t.res) (hx : 0 < t.grid.dims.nx) (hy : 0 < t.grid.dims.ny)
    (hz : 0 < t.grid.dims.nz) {P Q : Idx → Prop} (h : TwoSided t P Q) {κ : ℝ} (hκ : 1 ≤ κ)
    (hnear : ∀ v w, InBounds t.grid.dims v → InBounds t.grid.dims w → ¬ P v → P w →
      t.grid.get v ≤ κ * (t.res * Real.sqrt (sqDist v w))) {q r : V3 ℝ}
    (hq : InnerLocation t.grid.dims t.res q) (hreg : Region t.grid.dims t.res (fun i => decide (P i)) true r) :
    interpAt t q ≤ κ * dist3 q r + (κ * Real.sqrt 3 - 1 / 2) * t.res := by
  obtain ⟨w, hw, hfw, hrw⟩ := hreg
  have hPw : P w := by simpa using hfw
  have s3 := sqrt3_bounds.1
  have nq := dist3_nonneg q r
  have key := interp_blend hr hx hy hz hq false (κ := κ) (k := κ * (dist3 q r + Real.sqrt 3 / 2 * t.res) - t.res / 2)
    (by linarith) fun a b c => by
      have hin : InBounds t.grid.dims (corner t.grid.dims t.res q a b c) :=
        cornerIdx_inB (K := ℝ) hx hy hz (q.x / t.res) (q.y / t.res) (q.z / t.res) a b c
      generalize corner t.grid.dims t.res q a b c = v at hin
      have nv := dist3_nonneg q (centre t.res v)
      have base : t.res / 2 ≤ κ * (dist3 q r + Real.sqrt 3 / 2 * t.res + dist3 q (centre t.res v)) := by
        have : 1 * (t.res / 2) ≤ κ * (dist3 q r + Real.sqrt 3 / 2 * t.res + dist3 q (centre t.res v)) := by
          gcongr
          nlinarith
        linarith
      simp only [signed, Bool.false_eq_true, if_false]
      by_cases hv : P v
      · have e := h.closer_obstacle hr hin hv
        linarith
      · have hb := hnear v w hin hw hv hPw
        rw [← dist3_centres hr.le] at hb
        have t1 := dist3_tri (centre t.res v) q (centre t.res w)
        have t2 := dist3_tri q r (centre t.res w)
        have t3 := dist3_cube hr.le hrw
        rw [dist3_comm] at t3
        rw [dist3_comm (centre t.res v) q] at t1
        have t4 : dist3 (centre t.res v) (centre t.res w) ≤
            dist3 q r + Real.sqrt 3 / 2 * t.res + dist3 q (centre t.res v) := by linarith
        have := mul_le_mul_of_nonneg_left t4 (by linarith : 0 ≤ κ)
        rw [h.closer_free hr hin hv]
        linarith
  simp only [signed, Bool.false_eq_true, if_false] at key
  linarith

open Classical in
/-- The interpolant far from all obstacles. -/
theorem TwoSided.clear {t : MSdf ℝ} (hr : 0 < t.res) (hx : 0 < t.grid.dims.nx) (hy : 0 < t.grid.dims.ny)
    (hz : 0 < t.grid.dims.nz) {P Q : Idx → Prop} (h : TwoSided t P Q) {q : V3 ℝ}
    (hq : InnerLocation t.grid.dims t.res q) {m : ℝ} (hm : 17322 / 10000 * t.res ≤ m)
    (hclear : ∀ r, Region t.grid.dims t.res (fun i => decide (P i)) true r → m ≤ dist3 q r) :
    m - (Real.sqrt 3 / 2 + 1 / 2 + 1 / 512) * t.res ≤ interpAt t q := by
  have s3 := sqrt3_bounds.2
  have key := interp_blend hr hx hy hz hq true (κ := 1) (k := -m + t.res / 2 + t.res / 512)
    (by linarith) fun a b c => by
      have hin : InBounds t.grid.dims (corner t.grid.dims t.res q a b c) :=
        cornerIdx_inB (K := ℝ) hx hy hz (q.x / t.res) (q.y / t.res) (q.z / t.res) a b c
      have hd := corner_dist hr hx hy hz hq a b c
      generalize corner t.grid.dims t.res q a b c = v at hin hd
      have hv : ¬ P v := by
        intro hc
        have := hclear _ ⟨v, hin, by simpa using hc, centre_inCube hr.le v⟩
        nlinarith
      obtain ⟨p, hp, hpp, herr⟩ := h.free v hin hv
      have h1 := hclear _ ⟨p, hp, by simpa using hpp, centre_inCube hr.le p⟩
      have h2 := dist3_tri q (centre t.res v) (centre t.res p)
      rw [dist3_centres hr.le] at h2
      have h3 := (abs_le.mp herr).1
      simp only [signed, if_true]
      rw [h.closer_free hr hin hv]
      linarith
  simp only [signed, if_true] at key
  linarith

open Classical in
/-- The interpolant deep inside the named objects. -/
theorem TwoSided.inside {t : MSdf ℝ} (hr : 0 < t.res) (hx : 0 < t.grid.dims.nx) (hy : 0 < t.grid.dims.ny)
    (hz : 0 < t.grid.dims.nz) {P Q : Idx → Prop} (h : TwoSided t P Q) {q : V3 ℝ}
    (hq : InnerLocation t.grid.dims t.res q) {m : ℝ} (hm : 17322 / 10000 * t.res ≤ m)
    (hclear : ∀ r, Region t.grid.dims t.res (fun i => decide (Q i)) false r → m ≤ dist3 q r) :
    m - (Real.sqrt 3 / 2 + 1 / 2 + 1 / 512) * t.res ≤ -interpAt t q := by
  have s3 := sqrt3_bounds.2
  have key := interp_blend hr hx hy hz hq false (κ := 1) (k := -m + t.res / 2 + t.res / 512)
    (by linarith) fun a b c => by
      have hin : InBounds t.grid.dims (corner t.grid.dims t.res q a b c) :=
        cornerIdx_inB (K := ℝ) hx hy hz (q.x / t.res) (q.y / t.res) (q.z / t.res) a b c
      have hd := corner_dist hr hx hy hz hq a b c
      generalize corner t.grid.dims t.res q a b c = v at hin hd
      have hv : Q v := by
        by_contra hc
        have := hclear _ ⟨v, hin, by simpa using hc, centre_inCube hr.le v⟩
        nlinarith
      obtain ⟨p, hp, hpp, herr⟩ := h.named v hin hv
      have h1 := hclear _ ⟨p, hp, by simpa using hpp, centre_inCube hr.le p⟩
      have h2 := dist3_tri q (centre t.res v) (centre t.res p)
      rw [dist3_centres hr.le] at h2
      have h3 := (abs_le.mp herr).1
      simp only [signed, Bool.false_eq_true, if_false]
      rw [(h.closer_named hr hin hv).1]
      linarith
  simp only [signed, Bool.false_eq_true, if_false] at key
  linarith

/-! ## The stored values -/

theorem inside_sqrt {d : Dims} {N : ℕ} (hdim : d.nx ≤ N ∧ d.ny ≤ N ∧ d.nz ≤ N) {v p : Idx}
    (hv : InBounds d v) (hp : InBounds d p) : Real.sqrt (sqDist v p) ≤ Real.sqrt 3 * N := by
  by_cases e : v = p
  · subst e
    have : sqDist v v = 0 := by unfold sqDist; ring
    rw [this]
    simp
  · exact barrier_sqrt (f := fun i => decide (i = v)) hdim hv (Or.inl ⟨hp, by simp [Ne.symm e]⟩)

/-- The combined field in terms of the obstacles, when its values are numbers. -/
theorem freeNamed_values {res : ℝ} (hres : GoodRes ieee res) (hlo : 1 / 2 ^ 126 ≤ res) (hhi : res ≤ 2 ^ 100) {m : TMap}
    {N : ℕ} (hN : N ≤ 2 ^ 14) (hdim : m.dims.nx ≤ N ∧ m.dims.ny ≤ N ∧ m.dims.nz ≤ N) {oob : FVal} {u : Bool} {o : Out}
    (ho : m.extractFreeNamed ieee (res, res, res) oob u = some o) {g : Idx → ℝ}
    (hg : ∀ v, InBounds m.dims v → o.sdf.get v = some (g v : EReal)) :
    o.sdf.dims = m.dims ∧
    (∀ v, InBounds m.dims v → ¬ TObstacle m u v → ∃ p, InBounds m.dims p ∧ TObstacle m u p ∧
      |g v - res * Real.sqrt (sqDist v p)| ≤ res / 512 ∧ res * Real.sqrt (sqDist v p) ≤ 17321 / 10000 * (N * res)) ∧
    (∀ v, InBounds m.dims v → NamedObstacle m u v → ∃ p, InBounds m.dims p ∧ ¬ NamedObstacle m u p ∧
      |-g v - res * Real.sqrt (sqDist v p)| ≤ res / 512 ∧ res * Real.sqrt (sqDist v p) ≤ 17321 / 10000 * (N * res)) ∧
    (∀ v, InBounds m.dims v → TObstacle m u v → ¬ NamedObstacle m u v → g v = 0) ∧
    ∀ v w, InBounds m.dims v → InBounds m.dims w → ¬ TObstacle m u v → TObstacle m u w → sqDist v w = 1 →
      g v ≤ 101 / 100 * res := by
  have r0 := hres.1
  have hd := small_of hN hdim
  have h32 := (ieee_resolution hlo hhi).1
  obtain ⟨o', ho', hdist⟩ := C133_distances hres hlo hhi m hd oob u
  obtain rfl : o' = o := by rw [ho] at ho'; exact (Option.some.inj ho').symm
  obtain ⟨ids, hne, h0, hall⟩ : ∃ ids : List UInt32, ids ≠ [] ∧ (0 : UInt32) ∉ ids ∧
      ∀ i, InBounds m.dims i → (m.getImm i).1.obj ≠ 0 → (m.getImm i).1.obj ∈ ids := by
    refine ⟨1 :: (m.dims.all.map fun i => (m.getImm i).1.obj).filter (· ≠ 0), by simp, by simp, fun i hi h => ?_⟩
    refine List.mem_cons_of_mem _ (List.mem_filter.mpr ⟨List.mem_map.mpr ⟨i, Dims.mem_all.mpr (inB_iff_spec.mpr hi), rfl⟩, ?_⟩)
    simpa using h
  obtain ⟨o2, a, b, ho2, -, -, -, -, hdims, hval⟩ := C133_agrees hres h32 m hd oob u hne h0 hall
  obtain rfl : o2 = o' := by rw [ho] at ho2; exact (Option.some.inj ho2).symm
  have s3 := sqrt3_bounds.2
  have hN' : (N : ℝ) ≤ 2 ^ 14 := by exact_mod_cast hN
  have bound : ∀ {v p : Idx}, InBounds m.dims v → InBounds m.dims p →
      res * Real.sqrt (sqDist v p) ≤ 17321 / 10000 * (N * res) ∧
      relErr * (res * Real.sqrt (sqDist v p)) ≤ res / 512 := by
    intro v p hv hp
    have b1 : res * Real.sqrt (sqDist v p) ≤ 17321 / 10000 * (N * res) := by
      calc res * Real.sqrt (sqDist v p) ≤ res * (Real.sqrt 3 * N) :=
            mul_le_mul_of_nonneg_left (inside_sqrt hdim hv hp) r0.le
        _ ≤ res * (17321 / 10000 * N) := by gcongr
        _ = _ := by ring
    refine ⟨b1, ?_⟩
    unfold relErr
    have b' : res * Real.sqrt (sqDist v p) ≤ 17321 / 10000 * (2 ^ 14 * res) := b1.trans (by gcongr)
    have : 0 ≤ res * Real.sqrt (sqDist v p) := by positivity
    norm_num at b' ⊢
    linarith
  have real_eq : ∀ {v : Idx} {x : ℝ}, InBounds m.dims v → o2.sdf.get v = some (x : EReal) → g v = x := by
    intro v x hv e
    rw [hg v hv] at e
    simpa using e
  refine ⟨hdims, fun v hv hf => ?_, fun v hv hn => ?_, fun v hv hf hn => ?_, fun v w hv hw hf hfw h1 => ?_⟩
  · rcases (hdist v hv 1 _ (Or.inl ⟨rfl, hf, rfl⟩)).1 with h | ⟨y, p, e, -, hp, hpp, herr, -⟩
    · rw [hg v hv] at h
      simp at h
    · have := real_eq hv e
      rw [one_mul] at this
      exact ⟨p, hp, hpp, by rw [this]; exact herr.trans (bound hv hp).2, (bound hv hp).1⟩
  · rcases (hdist v hv (-1) _ (Or.inr ⟨rfl, hn, rfl⟩)).1 with h | ⟨y, p, e, -, hp, hpp, herr, -⟩
    · rw [hg v hv] at h
      norm_num at h
    · have := real_eq hv e
      exact ⟨p, hp, hpp, by rw [this, show -(-1 * y) = y by ring]; exact herr.trans (bound hv hp).2, (bound hv hp).1⟩
  · have h : (m.getImm v).1.obj = 0 := by
      by_contra hc
      exact hn ⟨hf, hc⟩
    have := (hval v hv).2.2 hf h
    exact real_eq hv (by rw [this]; simp)
  · have hk : NearestWith m.dims (TObstacle m u) v 1 := by
      refine ⟨⟨w, hw, hfw, h1⟩, fun p _ hp => ?_⟩
      have hs : (1 : ℝ) ≤ Real.sqrt (sqDist v p) := sqrt_sqDist_pos (fun e => hf (e ▸ hp))
      have := Real.one_le_sqrt.mp hs
      exact_mod_cast this
    obtain ⟨y, e, herr⟩ := ((hdist v hv 1 _ (Or.inl ⟨rfl, hf, rfl⟩)).2 1 hk).1 (by norm_num)
    have := real_eq hv e
    rw [one_mul] at this
    rw [this]
    have h3 := (abs_le.mp herr).2
    simp only [Int.cast_one, Real.sqrt_one, mul_one] at h3
    have rel : relErr ≤ 1 / 100 := by unfold relErr; norm_num
    have : relErr * res ≤ 1 / 100 * res := by gcongr
    linarith

/-- In a field that passes the check, the value of a free cell is bounded by the steps to any obstacle. -/
theorem freeNamed_steps {res : ℝ} (hres : GoodRes ieee res) (hlo : 1 / 2 ^ 126 ≤ res) (hhi : res ≤ 2 ^ 100) {m : TMap}
    {N : ℕ} (hN : N ≤ 2 ^ 14) (hdim : m.dims.nx ≤ N ∧ m.dims.ny ≤ N ∧ m.dims.nz ≤ N) {oob : FVal} {u : Bool} {o : Out}
    (ho : m.extractFreeNamed ieee (res, res, res) oob u = some o) {g : Idx → ℝ} (hg : Checked m.dims res o.sdf.get g)
    {w : Idx} (hw : InBounds m.dims w) (hfw : TObstacle m u w) (k : ℕ) :
    ∀ v, InBounds m.dims v → ¬ TObstacle m u v → manhattan v w = k → g v ≤ 101 / 100 * res * k := by
  have r0 := hres.1
  obtain ⟨-, hfree, -, -, hone⟩ := freeNamed_values hres hlo hhi hN hdim ho hg.1
  have pos : ∀ v, InBounds m.dims v → ¬ TObstacle m u v → 0 < g v := by
    intro v hv hf
    obtain ⟨p, -, hpp, herr, -⟩ := hfree v hv hf
    have s1 := sqrt_sqDist_pos (fun e => hf (e ▸ hpp) : v ≠ p)
    have := (abs_le.mp herr).1
    nlinarith
  induction k with
  | zero =>
    intro v hv hf hk
    exfalso
    apply hf
    have : v = w := by
      simp only [manhattan, Int.abs_eq_natAbs] at hk
      cases v; cases w
      simp only [Idx.mk.injEq] at *
      omega
    exact this ▸ hfw
  | succ k ih =>
    intro v hv hf hk
    obtain ⟨x, hx, h1, h2⟩ := step_toward hv hw (fun e => hf (e ▸ hfw))
    by_cases hfx : TObstacle m u x
    · have := hone v x hv hx hf hfx h1
      have k1 : (1 : ℝ) ≤ ((k + 1 : ℕ) : ℝ) := by push_cast; linarith [(Nat.cast_nonneg k : (0 : ℝ) ≤ k)]
      calc g v ≤ 101 / 100 * res * 1 := by linarith
        _ ≤ 101 / 100 * res * ((k + 1 : ℕ) : ℝ) := by gcongr
    · have h3 := ih x hx hfx (by rw [h2, hk]; push_cast; ring)
      have st := hg.2 v x hv hx h1 (mul_pos (pos v hv hf) (pos x hx hfx))
      have := (abs_le.mp st).2
      push_cast
      linarith

/-! ## In the world -/

open Classical in
/-- Reports of the combined field, from a bound of the values of free cells. -/
theorem freeNamed_world {res : ℝ} (hres : GoodRes ieee res) (hlo : 1 / 2 ^ 100 ≤ res) (hhi : res ≤ 2 ^ 60) {m : TMap}
    {N : ℕ} (hN : N ≤ 2 ^ 14) (hdim : m.dims.nx ≤ N ∧ m.dims.ny ≤ N ∧ m.dims.nz ≤ N) {oob : FVal} {u : Bool} {o : Out}
    (ho : m.extractFreeNamed ieee (res, res, res) oob u = some o) {g : Idx → ℝ}
    (hg : ∀ v, InBounds m.dims v → o.sdf.get v = some (g v : EReal)) {κ : ℝ} (κ1 : 1 ≤ κ) (κ2 : κ ≤ 2)
    (hnear : ∀ v w, InBounds m.dims v → InBounds m.dims w → ¬ TObstacle m u v → TObstacle m u w →
      g v ≤ κ * (res * Real.sqrt (sqDist v w))) {A B : Aff ℝ}
    (hA : NearRotation A) (hB : isoInverse ieee A = (B.rx, B.ry, B.rz, loc B.t)) {M : ℝ} (hNM : (N : ℝ) ≤ M)
    (hM : M * N ≤ 2 ^ 29) (hT : OriginWithin A (M * res)) {c : V3 ℝ} (hc : WellInside m.dims res c) :
    ∃ y : ℝ, Reports o.sdf res B (A.app id c) y ∧
      (∀ r, Region m.dims res (fun i => decide (TObstacle m u i)) true r →
        y ≤ κ * (1 + 1 / 2 ^ 40) * dist3 (A.app id c) (A.app id r) + (κ * Real.sqrt 3 - 1 / 2 + 1 / 64) * res) ∧
      (∀ b, 0 ≤ b → (∀ r, Region m.dims res (fun i => decide (TObstacle m u i)) true r →
        b + 7 / 4 * res ≤ dist3 (A.app id c) (A.app id r)) → b ≤ y) ∧
      ∀ b, 0 ≤ b → (∀ r, Region m.dims res (fun i => decide (NamedObstacle m u i)) false r →
        b + 7 / 4 * res ≤ dist3 (A.app id c) (A.app id r)) → b ≤ -y := by
  have hhi' : res ≤ 2 ^ 100 := hhi.trans (by norm_num)
  have hlo' : (1 : ℝ) / 2 ^ 126 ≤ res := le_trans (by norm_num) hlo
  have r0 := hres.1
  obtain ⟨cx, cy, cz⟩ := id hc
  have hx := wellInner_pos cx
  have hy := wellInner_pos cy
  have hz := wellInner_pos cz
  have N1 : 1 ≤ N := by omega
  have N1' : (1 : ℝ) ≤ N := by exact_mod_cast N1
  have M1 : 1 ≤ M := N1'.trans hNM
  have hM2 : M ≤ 2 ^ 29 := le_trans (le_mul_of_one_le_right (by linarith) N1') hM
  obtain ⟨hp, hin, hq, hvc, e1, e2, e3⟩ := world_location hA hlo hhi hM2 hT N1 hNM hdim hc hB
  obtain ⟨hdims, hfree, hnamed, hplain, -⟩ := freeNamed_values hres hlo' hhi' hN hdim ho hg
  have st : Stores (FSdf.mk o.sdf res) (exactAt (FSdf.mk o.sdf res) B) :=
    exact_stores fun i hi => ⟨g i, hg i (by rw [← hdims]; exact hi)⟩
  have eg : ∀ v, InBounds m.dims v → (exactAt (FSdf.mk o.sdf res) B).grid.get v = g v := by
    intro v hv
    have : (exactAt (FSdf.mk o.sdf res) B).grid.get v = toR (o.sdf.get v) := exact_get (FSdf.mk o.sdf res) v
    rw [this, hg v hv]
    simp [toR]
  have ed : (exactAt (FSdf.mk o.sdf res) B).grid.dims = m.dims := hdims
  have er : (exactAt (FSdf.mk o.sdf res) B).res = res := rfl
  have ei : (exactAt (FSdf.mk o.sdf res) B).inv = B := rfl
  have eq : (exactAt (FSdf.mk o.sdf res) B).toGrid (A.app id c) = B.app id (A.app id c) := rfl
  have es : (exactAt (FSdf.mk o.sdf res) B).size = ⟨m.dims.nx * res, m.dims.ny * res, m.dims.nz * res⟩ := by
    rw [← ed]; rfl
  unfold Reports
  generalize exactAt (FSdf.mk o.sdf res) B = t at st eg ed er ei eq es
  subst er
  have Nr : t.res ≤ N * t.res := le_mul_of_one_le_left r0.le N1'
  have hD : ∀ i, InBounds t.grid.dims i → |t.grid.get i| ≤ 2 * N * t.res := by
    intro i hi
    rw [ed] at hi
    rw [eg i hi]
    by_cases hf : TObstacle m u i
    · by_cases hn : NamedObstacle m u i
      · obtain ⟨p, -, -, h1, h2⟩ := hnamed i hi hn
        obtain ⟨a, b⟩ := abs_le.mp h1
        have : 0 ≤ t.res * Real.sqrt (sqDist i p) := by positivity
        rw [abs_le]
        constructor <;> linarith
      · rw [hplain i hi hf hn, abs_zero]
        positivity
    · obtain ⟨p, -, -, h1, h2⟩ := hfree i hi hf
      obtain ⟨a, b⟩ := abs_le.mp h1
      have : 0 ≤ t.res * Real.sqrt (sqDist i p) := by positivity
      rw [abs_le]
      constructor <;> linarith
  obtain ⟨y, ey, hyz⟩ := estimate_bounded st hN N1 (by rw [ed]; exact hdim) hlo hhi' hD
    (toGrid := affApp ieee B) (toGrid' := affApp ieee B) (by rw [ei]; exact C112_product B) (by rw [ei]; exact C112_product B)
    (C112_lookup hlo hhi') (by linarith : 1 ≤ 64 * M) (by norm_num at hM ⊢; linarith) (p := A.app id c)
    (by rw [ei]; exact hp) (by rw [es, eq]; exact hin)
  rw [eq] at hyz
  have hW : TwoSided t (TObstacle m u) (NamedObstacle m u) := by
    refine ⟨fun v hv hf => ?_, fun v hv hn => ?_, fun v hv hf hn => ?_⟩
    · rw [ed] at hv ⊢
      obtain ⟨p, a, b, h1, -⟩ := hfree v hv hf
      exact ⟨p, a, b, by rw [eg v hv]; exact h1⟩
    · rw [ed] at hv ⊢
      obtain ⟨p, a, b, h1, -⟩ := hnamed v hv hn
      exact ⟨p, a, b, by rw [eg v hv]; exact h1⟩
    · rw [ed] at hv
      rw [eg v hv]
      exact hplain v hv hf hn
  have hnear' : ∀ v w, InBounds t.grid.dims v → InBounds t.grid.dims w → ¬ TObstacle m u v → TObstacle m u w →
      t.grid.get v ≤ κ * (t.res * Real.sqrt (sqDist v w)) := by
    rw [ed]
    intro v w hv hw h1 h2
    rw [eg v hv]
    exact hnear v w hv hw h1 h2
  rw [← ed] at hx hy hz hq ⊢
  set q := B.app id (A.app id c) with hqd
  have qc : dist3 q c ≤ t.res / 2 ^ 14 := by
    have := dist3_small (by positivity : 0 ≤ t.res / 2 ^ 15) e1 e2 e3
    have e : 2 * (t.res / 2 ^ 15) = t.res / 2 ^ 14 := by ring
    linarith
  obtain ⟨y1, y2⟩ := abs_le.mp hyz
  have s3 := sqrt3_bounds.2
  have h7 : Real.sqrt 3 / 2 * t.res ≤ 17321 / 10000 / 2 * t.res := by gcongr
  obtain ⟨i, hi, hic⟩ := volume_cube r0 hx hy hz (d := t.grid.dims) (by rw [ed]; exact hvc)
  have away : ∀ {b : ℝ} {S : V3 ℝ → Prop}, 0 ≤ b →
      (¬ S c → ∃ p, S (centre t.res p) ∧ t.res * Real.sqrt (sqDist i p) ≤ 17321 / 10000 * (N * t.res)) →
      (∀ r, S r → b + 7 / 4 * t.res ≤ dist3 (A.app id c) (A.app id r)) → ∀ r, S r → b + 174 / 100 * t.res ≤ dist3 q r := by
    intro b S b0 hS hm r hr
    obtain ⟨p, hp', h2⟩ := hS fun h => by
      have := hm c h
      rw [dist3_self] at this
      linarith
    have big : b ≤ 2 ^ 17 * t.res := by
      have h3 := hm _ hp'
      have h4 := (near_isometry hA c (centre t.res p)).1
      have h5 := dist3_tri c (centre t.res i) (centre t.res p)
      rw [dist3_centres r0.le] at h5
      have h6 := dist3_cube r0.le hic
      rw [dist3_comm] at h6
      have hN' : (N : ℝ) * t.res ≤ 2 ^ 14 * t.res := by
        have : (N : ℝ) ≤ 2 ^ 14 := by exact_mod_cast hN
        gcongr
      have h8 : dist3 c (centre t.res p) ≤ 2 ^ 16 * t.res := by
        norm_num at hN' ⊢
        linarith
      norm_num at h4 h8 ⊢
      linarith
    have h3 := hm r hr
    have h4 := (near_isometry hA c r).1
    have h5 := dist3_tri c q r
    rw [dist3_comm c q] at h5
    have h6 : b + 7 / 4 * t.res ≤ (1 + 1 / 2 ^ 40) * (t.res / 2 ^ 14 + dist3 q r) :=
      h3.trans (h4.trans (by gcongr; linarith))
    by_contra hlt
    push Not at hlt
    have : (1 + 1 / 2 ^ 40) * (t.res / 2 ^ 14 + dist3 q r) ≤
        (1 + 1 / 2 ^ 40) * (t.res / 2 ^ 14 + (b + 174 / 100 * t.res)) := by gcongr
    norm_num at this big h6
    linarith
  refine ⟨y, ey, fun r hr => ?_, fun b b0 hb => ?_, fun b b0 hb => ?_⟩
  · have h1 := hW.obstacle r0 hx hy hz κ1 hnear' hq hr
    have h2 := dist3_tri q c r
    have h3 := (near_isometry hA c r).2
    have h4 : dist3 q r ≤ t.res / 2 ^ 14 + (1 + 1 / 2 ^ 40) * dist3 (A.app id c) (A.app id r) := by linarith
    have h5 := mul_le_mul_of_nonneg_left h4 (by linarith : 0 ≤ κ)
    have h6 : κ * (t.res / 2 ^ 14) ≤ 2 * (t.res / 2 ^ 14) := by gcongr
    norm_num at h5 h6 ⊢
    linarith
  · have h := hW.clear r0 hx hy hz hq (m := b + 174 / 100 * t.res) (by linarith) (away b0 (fun h => by
      obtain ⟨p, a, b, -, h2⟩ := hfree i (ed ▸ hi) fun hc => h ⟨i, hi, by simpa using hc, hic⟩
      exact ⟨p, ⟨p, ed.symm ▸ a, by simpa using b, centre_inCube r0.le p⟩, h2⟩) hb)
    linarith
  · have h := hW.inside r0 hx hy hz hq (m := b + 174 / 100 * t.res) (by linarith) (away b0 (fun h => by
      obtain ⟨p, a, b, -, h2⟩ := hnamed i (ed ▸ hi) (by by_contra hc; exact h ⟨i, hi, by simpa using hc, hic⟩)
      exact ⟨p, ⟨p, ed.symm ▸ a, by simpa using b, centre_inCube r0.le p⟩, h2⟩) hb)
    linarith

/-- The conditions on the combined field of a map and on the frame under which C144 speaks of reports in the world. -/
structure FreeNamedSetup (res : ℝ) (m : TMap) (A B : Aff ℝ) : Prop where
  good : GoodRes ieee res
  lo : 1 / 2 ^ 100 ≤ res
  hi : res ≤ 2 ^ 60
  rotation : NearRotation A
  inverse : isoInverse ieee A = (B.rx, B.ry, B.rz, loc B.t)
  sizes : ∃ (N : ℕ) (M : ℝ), N ≤ 2 ^ 14 ∧ (m.dims.nx ≤ N ∧ m.dims.ny ≤ N ∧ m.dims.nz ≤ N) ∧ (N : ℝ) ≤ M ∧
    M * N ≤ 2 ^ 29 ∧ OriginWithin A (M * res)

open Classical in
/-- What C144 says about a report `y` at `A c`: at most `κ` times the distance to any point of an obstacle and `β` cells;
at least `b` if every obstacle is `b` and 7/4 cells away; at most `-b` if every place outside the named objects is. -/
structure FreeNamedReport (res : ℝ) (m : TMap) (u : Bool) (A : Aff ℝ) (κ β : ℝ) (c : V3 ℝ) (y : ℝ) : Prop where
  above : ∀ r, Region m.dims res (fun i => decide (TObstacle m u i)) true r →
    y ≤ κ * dist3 (A.app id c) (A.app id r) + β * res
  clear : ∀ b, 0 ≤ b → (∀ r, Region m.dims res (fun i => decide (TObstacle m u i)) true r →
    b + 7 / 4 * res ≤ dist3 (A.app id c) (A.app id r)) → b ≤ y
  inside : ∀ b, 0 ≤ b → (∀ r, Region m.dims res (fun i => decide (NamedObstacle m u i)) false r →
    b + 7 / 4 * res ≤ dist3 (A.app id c) (A.app id r)) → y ≤ -b

section
variable {res : ℝ} {m : TMap} {A B : Aff ℝ} (hs : FreeNamedSetup res m A B) {oob : FVal} {u : Bool} {o : Out}
  (ho : m.extractFreeNamed ieee (res, res, res) oob u = some o)
include hs ho

/-- C144: the free-and-named-objects field passes the check of C123. A distance that `EstimateDistance` reports in the world
exceeds 7/4 of the distance to any point of an obstacle, named or not, by at most 8/3 cells; it is at least `b` if all
obstacles are `b` and 7/4 cells away, and at most `-b` that deep inside the named objects. -/
theorem C144_world {g : Idx → ℝ} (hg : Checked m.dims res o.sdf.get g) {c : V3 ℝ} (hc : WellInside m.dims res c) :
    ∃ y, Reports o.sdf res B (A.app id c) y ∧ FreeNamedReport res m u A (7 / 4) (8 / 3) c y := by
  obtain ⟨hres, hlo, hhi, hA, hB, N, M, hN, hdim, hNM, hM, hT⟩ := hs
  have hhi' : res ≤ 2 ^ 100 := hhi.trans (by norm_num)
  have hlo' : (1 : ℝ) / 2 ^ 126 ≤ res := le_trans (by norm_num) hlo
  have r0 := hres.1
  have s3 := sqrt3_bounds.2
  obtain ⟨y, ey, h1, h2, h3⟩ := freeNamed_world hres hlo hhi hN hdim ho hg.1 (κ := 17495 / 10000) (by norm_num) (by norm_num)
    (fun v w hv hw hf hfw => by
      have n0 : 0 ≤ manhattan v w := by unfold manhattan; positivity
      have := freeNamed_steps hres hlo' hhi' hN hdim ho hg hw hfw (manhattan v w).toNat v hv hf (by omega)
      have e : (((manhattan v w).toNat : ℕ) : ℝ) = ((manhattan v w : ℤ) : ℝ) := by
        have : ((manhattan v w).toNat : ℤ) = manhattan v w := Int.toNat_of_nonneg n0
        exact_mod_cast congrArg (fun z : ℤ => (z : ℝ)) this
      rw [e] at this
      refine this.trans ?_
      have : ((manhattan v w : ℤ) : ℝ) ≤ Real.sqrt 3 * Real.sqrt (sqDist v w) := by
        rw [← Real.sqrt_mul (by norm_num)]
        refine Real.le_sqrt_of_sq_le ?_
        exact_mod_cast manhattan_three v w
      calc _ ≤ 101 / 100 * res * (Real.sqrt 3 * Real.sqrt (sqDist v w)) := by gcongr
        _ ≤ 101 / 100 * res * (17321 / 10000 * Real.sqrt (sqDist v w)) := by gcongr
        _ ≤ _ := by
          have : 0 ≤ res * Real.sqrt (sqDist v w) := by positivity
          linarith) hA hB hNM hM hT hc
  refine ⟨y, ey, fun r hr => ?_, h2, fun b b0 hb => by linarith [h3 b b0 hb]⟩
  have h := h1 r hr
  have n := dist3_nonneg (A.app id c) (A.app id r)
  have h7 : Real.sqrt 3 * res ≤ 17321 / 10000 * res := by gcongr
  norm_num at h
  linarith

/-- C144 for two-dimensional maps: nothing is assumed about the field if there is an obstacle somewhere and a cell outside
the named objects. -/
theorem C144_flat (hflat : Flat m.dims) (hob : ∃ w, InBounds m.dims w ∧ TObstacle m u w)
    (hout : ∃ w, InBounds m.dims w ∧ ¬ NamedObstacle m u w) {c : V3 ℝ} (hc : WellInside m.dims res c) :
    ∃ y, Reports o.sdf res B (A.app id c) y ∧ FreeNamedReport res m u A (283 / 200) 2 c y := by
  classical
  obtain ⟨hres, hlo, hhi, hA, hB, N, M, hN, hdim, hNM, hM, hT⟩ := hs
  have hhi' : res ≤ 2 ^ 100 := hhi.trans (by norm_num)
  have hlo' : (1 : ℝ) / 2 ^ 126 ≤ res := le_trans (by norm_num) hlo
  have r0 := hres.1
  have s3 := sqrt3_bounds.2
  have hd := small_of hN hdim
  have near : ∀ {P : Idx → Prop} (v : Idx), (∃ w, InBounds m.dims w ∧ P w) → ¬ P v → ∃ k, NearestWith m.dims P v k := by
    rintro P v ⟨w, hw, hPw⟩ hv
    obtain ⟨k, ⟨⟨p, ⟨a, b⟩, e⟩, h⟩, -⟩ := nearest_exists (d := m.dims) (f := fun i => decide (P i)) (v := v) (p := w)
      ⟨hw, by simp [hPw, hv]⟩
    refine ⟨k, ⟨p, a, ?_, e⟩, fun p hp hPp => h p ⟨hp, by simp [hPp, hv]⟩⟩
    simpa [hv] using b
  obtain ⟨o', ho', hdist⟩ := C133_distances hres hlo' hhi' m hd oob u
  obtain rfl : o' = o := by rw [ho] at ho'; exact (Option.some.inj ho').symm
  obtain ⟨ids, hne, h0, hall⟩ : ∃ ids : List UInt32, ids ≠ [] ∧ (0 : UInt32) ∉ ids ∧
      ∀ i, InBounds m.dims i → (m.getImm i).1.obj ≠ 0 → (m.getImm i).1.obj ∈ ids := by
    refine ⟨1 :: (m.dims.all.map fun i => (m.getImm i).1.obj).filter (· ≠ 0), by simp, by simp, fun i hi h => ?_⟩
    refine List.mem_cons_of_mem _ (List.mem_filter.mpr ⟨List.mem_map.mpr ⟨i, Dims.mem_all.mpr (inB_iff_spec.mpr hi), rfl⟩, ?_⟩)
    simpa using h
  obtain ⟨o2, a, b, ho2, -, -, -, -, hdims, hval⟩ :=
    C133_agrees hres (ieee_resolution hlo' hhi').1 m hd oob u hne h0 hall
  obtain rfl : o2 = o' := by rw [ho] at ho2; exact (Option.some.inj ho2).symm
  have hg : ∀ v, InBounds m.dims v → o2.sdf.get v = some ((toR (o2.sdf.get v) : ℝ) : EReal) := by
    intro v hv
    have fin : ∃ y : ℝ, o2.sdf.get v = some (y : EReal) := by
      by_cases hf : TObstacle m u v
      · by_cases hn : (m.getImm v).1.obj = 0
        · exact ⟨0, by rw [(hval v hv).2.2 hf hn]; simp⟩
        · obtain ⟨k, hk⟩ := near (P := fun p => ¬ NamedObstacle m u p) v hout (fun h => h ⟨hf, hn⟩)
          obtain ⟨y, e, -⟩ := ((hdist v hv (-1) _ (Or.inr ⟨rfl, ⟨hf, hn⟩, rfl⟩)).2 k hk).2 hflat
          exact ⟨_, e⟩
      · obtain ⟨k, hk⟩ := near (P := TObstacle m u) v hob hf
        obtain ⟨y, e, -⟩ := ((hdist v hv 1 _ (Or.inl ⟨rfl, hf, rfl⟩)).2 k hk).2 hflat
        exact ⟨_, e⟩
    obtain ⟨y, e⟩ := fin
    rw [e]
    simp [toR]
  obtain ⟨y, ey, h1, h2, h3⟩ := freeNamed_world hres hlo hhi hN hdim ho hg (κ := 14143 / 10000) (by norm_num) (by norm_num)
    (fun v w hv hw hf hfw => by
      obtain ⟨k, hk⟩ := near (P := TObstacle m u) v ⟨w, hw, hfw⟩ hf
      obtain ⟨y, e, -, hy⟩ := ((hdist v hv 1 _ (Or.inl ⟨rfl, hf, rfl⟩)).2 k hk).2 hflat
      have ek : toR (o2.sdf.get v) = y := by rw [e]; simp [toR]
      rw [ek]
      have kw : Real.sqrt k ≤ Real.sqrt (sqDist v w) := Real.sqrt_le_sqrt (by exact_mod_cast hk.2 w hw hfw)
      have s2 : Real.sqrt 2 ≤ 14142137 / 10000000 := by
        rw [Real.sqrt_le_left (by norm_num)]; norm_num
      have n : 0 ≤ res * Real.sqrt (sqDist v w) := by positivity
      have rel : (1 + relErr) * (14142137 / 10000000) ≤ 14143 / 10000 := by unfold relErr; norm_num
      have rel0 : (0 : ℝ) ≤ 1 + relErr := by unfold relErr; norm_num
      calc y ≤ (1 + relErr) * (res * (Real.sqrt 2 * Real.sqrt k)) := hy
        _ ≤ (1 + relErr) * (res * (14142137 / 10000000 * Real.sqrt (sqDist v w))) := by gcongr
        _ = (1 + relErr) * (14142137 / 10000000) * (res * Real.sqrt (sqDist v w)) := by ring
        _ ≤ _ := by gcongr) hA hB hNM hM hT hc
  refine ⟨y, ey, fun r hr => ?_, h2, fun b b0 hb => by linarith [h3 b b0 hb]⟩
  have h := h1 r hr
  have n := dist3_nonneg (A.app id c) (A.app id r)
  have h7 : Real.sqrt 3 * res ≤ 17321 / 10000 * res := by gcongr
  norm_num at h
  linarith

open Classical in
/-- C144 for a path: waypoints at most `2 * δ` apart whose reports are all at least `7/4 * (ρ + δ)` and 8/3 cells (in two
dimensions `1.415 * (ρ + δ)` and two cells) make a path that keeps `ρ` from every obstacle, named or not. -/
theorem C144_path {κ β : ℝ}
    (hcase : (κ = 7 / 4 ∧ β = 8 / 3 ∧ ∃ g, Checked m.dims res o.sdf.get g) ∨
      (κ = 283 / 200 ∧ β = 2 ∧ Flat m.dims ∧ ∃ w, InBounds m.dims w ∧ ¬ NamedObstacle m u w))
    {cs : List (V3 ℝ)} (hc : ∀ c ∈ cs, WellInside m.dims res c)
    {ρ δ : ℝ} (hδ : 0 ≤ δ) (hsp : Spaced (2 * δ) (cs.map (A.app id)))
    (hask : ∀ w ∈ cs.map (A.app id), ∃ y, Reports o.sdf res B w y ∧ κ * (ρ + δ) + β * res ≤ y)
    {p r : V3 ℝ} (hp : OnPath (cs.map (A.app id)) p) (hr : Region m.dims res (fun i => decide (TObstacle m u i)) true r) :
    ρ ≤ dist3 p (A.app id r) := by
  obtain ⟨w, hw, hn⟩ := path_near_waypoint (by linarith) hsp hp
  obtain ⟨y, ey, hy⟩ := hask w hw
  obtain ⟨c, hcs, rfl⟩ := List.mem_map.mp hw
  have k0 : 0 < κ := by rcases hcase with ⟨rfl, -⟩ | ⟨rfl, -⟩ <;> norm_num
  obtain ⟨y', ey', h⟩ : ∃ y, Reports o.sdf res B (A.app id c) y ∧ FreeNamedReport res m u A κ β c y := by
    rcases hcase with ⟨rfl, rfl, g, hg⟩ | ⟨rfl, rfl, hflat, hout⟩
    · exact C144_world hs ho hg (hc c hcs)
    · obtain ⟨i, hi, hfi, -⟩ := id hr
      exact C144_flat hs ho hflat ⟨i, hi, by simpa using hfi⟩ hout (hc c hcs)
  obtain rfl := ey.unique ey'
  have h1 := h.above r hr
  have h2 : κ * (ρ + δ) ≤ κ * dist3 (A.app id c) (A.app id r) := by linarith
  have h3 := le_of_mul_le_mul_left h2 k0
  have tri := dist3_tri (A.app id c) p (A.app id r)
  rw [dist3_comm (A.app id c) p] at tri
  linarith

end

/-! ## Examples -/

/-- The map of C41 (a free cell, a cell of object 7 and an obstacle without a name), turned and shifted: its field passes
the check, and the report in the middle of the free cell is bounded by the distance to the object. -/
example : ∃ (o : Out) (g : Idx → ℝ) (B : Aff ℝ) (y : ℝ),
    exTagged.extractFreeNamed ieee ((1 / 4 : ℝ), (1 / 4 : ℝ), (1 / 4 : ℝ)) (some ⊤) true = some o ∧
    Checked exTagged.dims (1 / 4) o.sdf.get g ∧ FreeNamedSetup (1 / 4) exTagged exPose B ∧
    Reports o.sdf (1 / 4) B (exPose.app id ⟨3 / 8, 1 / 8, 1 / 8⟩) y ∧
    y ≤ 7 / 4 * dist3 (exPose.app id ⟨3 / 8, 1 / 8, 1 / 8⟩) (exPose.app id ⟨1 / 4, 1 / 8, 1 / 8⟩) + 8 / 3 * (1 / 4) := by
  obtain ⟨B, hB, -⟩ := C112_inverse exPose_rotation
    ⟨exPose_origin.1.trans (by norm_num), exPose_origin.2.1.trans (by norm_num), exPose_origin.2.2.trans (by norm_num)⟩
  have hs : FreeNamedSetup (1 / 4) exTagged exPose B :=
    ⟨quarter_good, by norm_num, by norm_num, exPose_rotation, hB, 3, 2 ^ 25, by norm_num, by decide, by norm_num,
      by norm_num, by norm_num [exPose, abs_le], by norm_num [exPose, abs_le], by norm_num [exPose, abs_le]⟩
  have hd : exTagged.dims = ⟨3, 1, 1⟩ := rfl
  have small : SmallGrid exTagged.dims := by unfold SmallGrid; decide
  have f0 : ¬ TObstacle exTagged true ⟨0, 0, 0⟩ := by unfold TObstacle; decide
  have n1 : NamedObstacle exTagged true ⟨1, 0, 0⟩ := by unfold NamedObstacle TObstacle; decide
  have t2 : TObstacle exTagged true ⟨2, 0, 0⟩ := by unfold TObstacle; decide
  have b0 : InBounds exTagged.dims ⟨0, 0, 0⟩ := by rw [hd]; norm_num [InBounds]
  have b1 : InBounds exTagged.dims ⟨1, 0, 0⟩ := by rw [hd]; norm_num [InBounds]
  have b2 : InBounds exTagged.dims ⟨2, 0, 0⟩ := by rw [hd]; norm_num [InBounds]
  have pos : ∀ v p : Idx, v ≠ p → 1 ≤ sqDist v p := fun v p h => by
    have := Real.one_le_sqrt.mp (sqrt_sqDist_pos h)
    exact_mod_cast this
  obtain ⟨o, ho, hdist⟩ := C133_distances quarter_good (by norm_num) (by norm_num) exTagged small (some ⊤) true
  obtain ⟨o', fr, nd, ho', -, -, -, -, -, hval⟩ := C133_agrees quarter_good (ieee_resolution (by norm_num) (by norm_num)).1
    exTagged small (some ⊤) true (ids := [7]) (by simp) (by decide) (by
      intro i hi
      rw [hd] at hi
      obtain ⟨⟨x1, x2⟩, ⟨y1, y2⟩, z1, z2⟩ := hi
      have ei : i = ⟨0, 0, 0⟩ ∨ i = ⟨1, 0, 0⟩ ∨ i = ⟨2, 0, 0⟩ := by
        cases i
        simp only [Idx.mk.injEq] at *
        omega
      rcases ei with rfl | rfl | rfl <;> decide)
  obtain rfl : o' = o := by rw [ho] at ho'; exact (Option.some.inj ho').symm
  have v2 : o'.sdf.get ⟨2, 0, 0⟩ = some 0 := (hval _ b2).2.2 t2 (by decide)
  obtain ⟨y0, e0, h0⟩ := ((hdist _ b0 1 _ (Or.inl ⟨rfl, f0, rfl⟩)).2 1
    ⟨⟨⟨1, 0, 0⟩, b1, n1.1, by decide⟩, fun p _ hp => pos _ _ fun e => f0 (e ▸ hp)⟩).1 (by norm_num)
  obtain ⟨y1, e1, h1⟩ := ((hdist _ b1 (-1) _ (Or.inr ⟨rfl, n1, rfl⟩)).2 1
    ⟨⟨⟨0, 0, 0⟩, b0, fun h => f0 h.1, by decide⟩, fun p _ hp => pos _ _ fun e => hp (e ▸ n1)⟩).1 (by norm_num)
  have rel : relErr ≤ 1 / 100 := by unfold relErr; norm_num
  have hg : Checked exTagged.dims (1 / 4) o'.sdf.get fun v => toR (o'.sdf.get v) := by
    refine ⟨fun v hv => ?_, fun v w hv hw h1' hpos => ?_⟩
    · obtain ⟨⟨x1, x2⟩, ⟨y1, y2⟩, z1, z2⟩ := hv
      have ei : v = ⟨0, 0, 0⟩ ∨ v = ⟨1, 0, 0⟩ ∨ v = ⟨2, 0, 0⟩ := by
        rw [hd] at x2 y2 z2
        cases v
        simp only [Idx.mk.injEq] at *
        omega
      beta_reduce
      rcases ei with rfl | rfl | rfl
      · rw [e0]; simp [toR]
      · rw [e1]; simp [toR]
      · rw [v2]; simp [toR]
    · exfalso
      have cases3 : ∀ v, InBounds exTagged.dims v → v = ⟨0, 0, 0⟩ ∨ v = ⟨1, 0, 0⟩ ∨ v = ⟨2, 0, 0⟩ := by
        rintro ⟨x, y, z⟩ ⟨⟨x1, x2⟩, ⟨y1, y2⟩, z1, z2⟩
        rw [hd] at x2 y2 z2
        simp only [Idx.mk.injEq] at *
        omega
      have z0 : toR (o'.sdf.get ⟨0, 0, 0⟩) = y0 := by rw [e0]; simp [toR]
      have z1 : toR (o'.sdf.get ⟨1, 0, 0⟩) = -y1 := by rw [e1]; simp [toR]
      have z2 : toR (o'.sdf.get ⟨2, 0, 0⟩) = 0 := by rw [v2]; simp [toR]
      have p0 : 0 < y0 := by
        have := (abs_le.mp h0).1
        simp only [Int.cast_one, Real.sqrt_one] at this
        linarith
      have p1 : 0 < y1 := by
        have := (abs_le.mp h1).1
        simp only [Int.cast_one, Real.sqrt_one] at this
        linarith
      have pp := mul_pos p0 p1
      rcases cases3 v hv with rfl | rfl | rfl <;> rcases cases3 w hw with rfl | rfl | rfl <;>
        first
        | exact absurd h1' (by decide)
        | (simp only [z0, z1, z2] at hpos; linarith)
  obtain ⟨y, ey, hy⟩ := C144_world hs ho hg (c := ⟨3 / 8, 1 / 8, 1 / 8⟩) (by rw [hd]; norm_num [WellInside, WellInner])
  exact ⟨o', _, B, y, ho, hg, hs, ey, hy.above _ ⟨⟨1, 0, 0⟩, b1, by simpa using n1.1, by norm_num [InCube]⟩⟩

/-- A map of 60 x 60 x 1 cells with a cell of object 7 and an obstacle without a name. -/
def exShelf : TMap := (TMap.create false ⟨60, 60, 1⟩ (TCell.ofObj F32.zero 0) (TCell.ofObj F32.zero 0)).run
  [.setValue ⟨2, 3, 0⟩ (TCell.ofObj F32.one 7), .setValue ⟨50, 50, 0⟩ (TCell.ofObj F32.one 0)]

theorem exShelf_cell (i : Idx) : (exShelf.getImm i).1 = if i = ⟨50, 50, 0⟩ then TCell.ofObj F32.one 0
    else if i = ⟨2, 3, 0⟩ then TCell.ofObj F32.one 7 else TCell.ofObj F32.zero 0 := by
  have e : exShelf.grid = ((Grid.mk' ⟨60, 60, 1⟩ (TCell.ofObj F32.zero 0) (TCell.ofObj F32.zero 0)).set ⟨2, 3, 0⟩
      (TCell.ofObj F32.one 7)).set ⟨50, 50, 0⟩ (TCell.ofObj F32.one 0) := rfl
  have w : (Grid.mk' ⟨60, 60, 1⟩ (TCell.ofObj F32.zero 0) (TCell.ofObj F32.zero 0)).WF := Grid.wf_mk' _ _ _
  show exShelf.grid.get i = _
  rw [e, Grid.get_set (w.set _ _), Grid.get_set w, Grid.get_mk', ite_self]
  have i1 : ((Grid.mk' ⟨60, 60, 1⟩ (TCell.ofObj F32.zero 0) (TCell.ofObj F32.zero 0)).set ⟨2, 3, 0⟩
      (TCell.ofObj F32.one 7)).dims.inB ⟨50, 50, 0⟩ = true := by decide
  have i2 : (Grid.mk' ⟨60, 60, 1⟩ (TCell.ofObj F32.zero 0) (TCell.ofObj F32.zero 0)).dims.inB ⟨2, 3, 0⟩ = true := by decide
  simp only [i1, i2, and_true, eq_comm]

theorem exShelf_obstacle {i : Idx} : TObstacle exShelf false i ↔ i = ⟨50, 50, 0⟩ ∨ i = ⟨2, 3, 0⟩ := by
  unfold TObstacle
  rw [exShelf_cell]
  by_cases h : i = ⟨50, 50, 0⟩
  · subst h; decide
  · by_cases h' : i = ⟨2, 3, 0⟩
    · subst h'; decide
    · rw [if_neg h, if_neg h']
      simp only [h, h', or_self, iff_false]
      decide

open Classical in
/-- The map `exShelf`, turned and shifted, and a path of two waypoints in its middle: both reports allow a clearance of 1,
and the path has it from the named object and from the other obstacle. -/
example : ∃ (B : Aff ℝ) (o : Out), FreeNamedSetup (1 / 4) exShelf exPose B ∧
    exShelf.extractFreeNamed ieee ((1 / 4 : ℝ), (1 / 4 : ℝ), (1 / 4 : ℝ)) (some ⊤) false = some o ∧
    (∀ w ∈ [(⟨15 / 2, 15 / 2, 1 / 8⟩ : V3 ℝ), ⟨15 / 2, 61 / 8, 1 / 8⟩].map (exPose.app id),
      ∃ y, Reports o.sdf (1 / 4) B w y ∧ 283 / 200 * (1 + 1 / 10) + 2 * (1 / 4) ≤ y) ∧
    ∀ p, OnPath ([(⟨15 / 2, 15 / 2, 1 / 8⟩ : V3 ℝ), ⟨15 / 2, 61 / 8, 1 / 8⟩].map (exPose.app id)) p →
      1 ≤ dist3 p (exPose.app id ⟨5 / 8, 7 / 8, 1 / 8⟩) ∧ 1 ≤ dist3 p (exPose.app id ⟨101 / 8, 101 / 8, 1 / 8⟩) := by
  obtain ⟨B, hB, -⟩ := C112_inverse exPose_rotation
    ⟨exPose_origin.1.trans (by norm_num), exPose_origin.2.1.trans (by norm_num), exPose_origin.2.2.trans (by norm_num)⟩
  have hd : exShelf.dims = ⟨60, 60, 1⟩ := rfl
  have hs : FreeNamedSetup (1 / 4) exShelf exPose B :=
    ⟨quarter_good, by norm_num, by norm_num, exPose_rotation, hB, 60, 2 ^ 23, by norm_num, by rw [hd]; decide, by norm_num,
      by norm_num, by norm_num [exPose, abs_le], by norm_num [exPose, abs_le], by norm_num [exPose, abs_le]⟩
  obtain ⟨o, ho, -⟩ := C133_distances quarter_good (by norm_num) (by norm_num) exShelf
    (by rw [hd]; unfold SmallGrid; decide) (some ⊤) false
  have bn : InBounds exShelf.dims ⟨2, 3, 0⟩ := by rw [hd]; norm_num [InBounds]
  have bp : InBounds exShelf.dims ⟨50, 50, 0⟩ := by rw [hd]; norm_num [InBounds]
  have out : ∃ w, InBounds exShelf.dims w ∧ ¬ NamedObstacle exShelf false w :=
    ⟨⟨0, 0, 0⟩, by rw [hd]; norm_num [InBounds], fun h => by
      have := exShelf_obstacle.mp h.1
      simp at this⟩
  have hin : ∀ c ∈ [(⟨15 / 2, 15 / 2, 1 / 8⟩ : V3 ℝ), ⟨15 / 2, 61 / 8, 1 / 8⟩],
      WellInside exShelf.dims (1 / 4) c ∧ c.x = 15 / 2 := by
    intro c hc
    rw [hd]
    simp only [List.mem_cons, List.not_mem_nil, or_false] at hc
    rcases hc with rfl | rfl <;> norm_num [WellInside, WellInner]
  have hask : ∀ w ∈ [(⟨15 / 2, 15 / 2, 1 / 8⟩ : V3 ℝ), ⟨15 / 2, 61 / 8, 1 / 8⟩].map (exPose.app id),
      ∃ y, Reports o.sdf (1 / 4) B w y ∧ 283 / 200 * (1 + 1 / 10) + 2 * (1 / 4) ≤ y := by
    intro w hw
    obtain ⟨c, hc, rfl⟩ := List.mem_map.mp hw
    obtain ⟨h1, h2⟩ := hin c hc
    obtain ⟨y, ey, hy⟩ := C144_flat hs ho (Or.inr (Or.inr rfl)) ⟨_, bn, exShelf_obstacle.mpr (Or.inr rfl)⟩ out h1
    refine ⟨y, ey, le_trans (by norm_num) (hy.clear 4 (by norm_num) ?_)⟩
    rintro r ⟨i, -, hi, hr, -⟩
    have k := (coord_le c r).1
    have e := (near_isometry exPose_rotation c r).2
    rw [abs_le] at k
    rcases exShelf_obstacle.mp (by simpa using hi) with rfl | rfl <;> norm_num at hr e <;> linarith
  refine ⟨B, o, hs, ho, hask, fun p hp => ?_⟩
  have hsp : Spaced (2 * (1 / 10)) ([(⟨15 / 2, 15 / 2, 1 / 8⟩ : V3 ℝ), ⟨15 / 2, 61 / 8, 1 / 8⟩].map (exPose.app id)) := by
    refine ⟨(near_isometry exPose_rotation _ _).1.trans ?_, trivial⟩
    have : dist3 (⟨15 / 2, 15 / 2, 1 / 8⟩ : V3 ℝ) ⟨15 / 2, 61 / 8, 1 / 8⟩ = 1 / 8 := by
      unfold dist3 sqDist3
      rw [show ((15 / 2 : ℝ) - 15 / 2) ^ 2 + (15 / 2 - 61 / 8) ^ 2 + (1 / 8 - 1 / 8) ^ 2 = (1 / 8) ^ 2 by norm_num]
      exact Real.sqrt_sq (by norm_num)
    rw [this]
    norm_num
  have keep := fun r hr => C144_path hs ho (κ := 283 / 200) (β := 2) (Or.inr ⟨rfl, rfl, Or.inr (Or.inr rfl), out⟩)
    (fun c hc => (hin c hc).1) (by norm_num) hsp hask hp (r := r) hr
  exact ⟨keep _ ⟨_, bn, by simpa using exShelf_obstacle.mpr (Or.inr rfl), by norm_num [InCube]⟩,
    keep _ ⟨_, bp, by simpa using exShelf_obstacle.mpr (Or.inl rfl), by norm_num [InCube]⟩⟩

end FSdf

end Verif
