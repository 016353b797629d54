import Verif.Spec.Border
import Verif.Props.BorderAccuracy
import Verif.Props.PathCheck

/-!
# C129: with the virtual border, reported distances keep clear of obstacles and of the faces of the volume
-/

namespace Verif

open Spec SdfGen DField BorderAcc

namespace FSdf

open SignedDist

/-! ## Stored values -/

theorem barrier_near {d : Dims} {f : Idx → Bool} {v p : Idx} (h : Barrier d f v p) :
    NearAxis d.nx p.x ∧ NearAxis d.ny p.y ∧ NearAxis d.nz p.z := by
  rcases h with ⟨⟨a, b, c⟩, -⟩ | h
  · exact ⟨Or.inl a, Or.inl b, Or.inl c⟩
  · exact h.2

theorem barrier_ne {d : Dims} {f : Idx → Bool} {v p : Idx} (hv : InBounds d v) (h : Barrier d f v p) : v ≠ p := by
  rintro rfl
  rcases h with h | h
  · exact h.2 rfl
  · exact h.1 hv

theorem barrier_pos {d : Dims} {f : Idx → Bool} {v p : Idx} (hv : InBounds d v) (h : Barrier d f v p) :
    1 ≤ sqDist v p := by
  by_contra hc
  apply barrier_ne hv h
  unfold sqDist at hc
  have x := sq_nonneg (v.x - p.x)
  have y := sq_nonneg (v.y - p.y)
  have z := sq_nonneg (v.z - p.z)
  have ex : v.x - p.x = 0 := pow_eq_zero_iff (two_ne_zero) |>.mp (by omega)
  have ey : v.y - p.y = 0 := pow_eq_zero_iff (two_ne_zero) |>.mp (by omega)
  have ez : v.z - p.z = 0 := pow_eq_zero_iff (two_ne_zero) |>.mp (by omega)
  cases v; cases p
  simp only [Idx.mk.injEq] at *
  omega

theorem barrier_sqrt {d : Dims} {f : Idx → Bool} {N : ℕ} (hdim : d.nx ≤ N ∧ d.ny ≤ N ∧ d.nz ≤ N) {v p : Idx}
    (hv : InBounds d v) (hp : Barrier d f v p) : Real.sqrt (sqDist v p) ≤ Real.sqrt 3 * N := by
  obtain ⟨p1, p2, p3⟩ := barrier_near hp
  have h : (sqDist v p : ℝ) ≤ 3 * (N : ℝ) ^ 2 := by
    have ax : ∀ {n : ℕ} {a b : Int}, n ≤ N → 0 ≤ a ∧ a < n → NearAxis n b → (a - b) ^ 2 ≤ (N : Int) ^ 2 := by
      intro n a b hn ha hb
      have : (n : Int) ≤ N := by exact_mod_cast hn
      unfold NearAxis at hb
      apply sq_le_sq' <;> omega
    have h1 := ax hdim.1 hv.1 p1
    have h2 := ax hdim.2.1 hv.2.1 p2
    have h3 := ax hdim.2.2 hv.2.2 p3
    have : sqDist v p ≤ 3 * (N : Int) ^ 2 := by unfold sqDist; linarith
    exact_mod_cast this
  calc Real.sqrt (sqDist v p) ≤ Real.sqrt (3 * (N : ℝ) ^ 2) := Real.sqrt_le_sqrt h
    _ = _ := by rw [Real.sqrt_mul (by norm_num), Real.sqrt_sq (by positivity)]

theorem small_enlarge {d : Dims} {N : ℕ} (hN : N ≤ 2 ^ 14) (hdim : d.nx ≤ N ∧ d.ny ≤ N ∧ d.nz ≤ N) :
    SmallGrid (enlarge d) := by
  obtain ⟨a, b, c⟩ := hdim
  have o : ∀ n, off n ≤ 1 := by intro n; unfold off; split_ifs <;> omega
  unfold SmallGrid enlarge
  dsimp only
  have h : ∀ n, n ≤ N → (n + 2 * off n) * (n + 2 * off n) ≤ (2 ^ 14 + 2) * (2 ^ 14 + 2) := fun n hn =>
    Nat.mul_le_mul (by have := o n; omega) (by have := o n; omega)
  have h1 := h _ a
  have h2 := h _ b
  have h3 := h _ c
  norm_num at h1 h2 h3
  omega

/-- What a cell stores, when it is a number. -/
theorem border_value {res : ℝ} (hres : GoodRes ieee res) (hlo : 1 / 2 ^ 126 ≤ res) (hhi : res ≤ 2 ^ 100) {d : Dims}
    {N : ℕ} (hN : N ≤ 2 ^ 14) (hdim : d.nx ≤ N ∧ d.ny ≤ N ∧ d.nz ≤ N)
    {fill : Idx → Option Bool} {f : Idx → Bool} (hf : Answers d fill f)
    {oob : FVal} {o : Out} (ho : extract ieee (res, res, res) d fill oob true = some o) {v : Idx} (hv : InBounds d v)
    {x : ℝ} (hx : o.sdf.get v = real x) :
    ∃ p, Barrier d f v p ∧ |signed (f v) x - res * Real.sqrt (sqDist v p)| ≤ res / 512 ∧
      res * Real.sqrt (sqDist v p) ≤ 17321 / 10000 * (N * res) ∧ 511 / 512 * res ≤ signed (f v) x := by
  obtain ⟨y, p, hy, hpos, hp, herr, -⟩ :=
    (C92_accuracy hres hlo hhi (small_enlarge hN hdim) hf ho hv).resolve_left fun hc => by
      rw [hx] at hc
      unfold real at hc
      split_ifs at hc <;> simp at hc
  have r0 := hres.1
  have e := (toR_signed hy).2
  rw [hx] at e
  have t : toR (real x) = x := by simp [toR, real]
  rw [t] at e
  rw [e]
  have s3 := sqrt3_bounds.2
  have n0 : (0 : ℝ) ≤ N := by positivity
  have b : res * Real.sqrt (sqDist v p) ≤ 17321 / 10000 * (N * res) := by
    calc res * Real.sqrt (sqDist v p) ≤ res * (Real.sqrt 3 * N) :=
          mul_le_mul_of_nonneg_left (barrier_sqrt hdim hv hp) r0.le
      _ ≤ res * (17321 / 10000 * N) := by gcongr
      _ = _ := by ring
  have hN' : (N : ℝ) ≤ 2 ^ 14 := by exact_mod_cast hN
  have rel : relErr * (res * Real.sqrt (sqDist v p)) ≤ res / 512 := by
    unfold relErr
    have b' : res * Real.sqrt (sqDist v p) ≤ 17321 / 10000 * (2 ^ 14 * res) :=
      b.trans (by gcongr)
    have : 0 ≤ res * Real.sqrt (sqDist v p) := by positivity
    norm_num at b' ⊢
    linarith
  have s1 : 1 ≤ Real.sqrt (sqDist v p) := Real.one_le_sqrt.mpr (by exact_mod_cast barrier_pos hv hp)
  have herr' := herr.trans rel
  refine ⟨p, hp, herr', b, ?_⟩
  have := (abs_le.mp herr').1
  nlinarith

/-- The values of a map that was processed with the virtual border are bounded by the distance to the barriers, with one
factor for all barriers and another for those straight ahead. -/
structure Bounded (d : Dims) (res : ℝ) (f : Idx → Bool) (g : Idx → ℝ) (κ φ : ℝ) : Prop where
  any : ∀ v w, InBounds d v → Barrier d f v w → signed (f v) (g v) ≤ κ * (res * Real.sqrt (sqDist v w))
  ahead : ∀ v w, InBounds d v → Barrier d f v w → ∀ k : ℤ, manhattan v w = k → sqDist v w = k ^ 2 →
    signed (f v) (g v) ≤ φ * (res * k)

theorem manhattan_shift (v w o : Idx) : manhattan (v + o) (w + o) = manhattan v w := by
  unfold manhattan
  simp only [Idx.add_x, Idx.add_y, Idx.add_z, add_sub_add_right_eq_sub]

/-- In a field that passes the check every value is bounded by the steps to a barrier. -/
theorem border_steps {res : ℝ} (hres : GoodRes ieee res) (hlo : 1 / 2 ^ 126 ≤ res) (hhi : res ≤ 2 ^ 100) {d : Dims}
    {N : ℕ} (hN : N ≤ 2 ^ 14) (hdim : d.nx ≤ N ∧ d.ny ≤ N ∧ d.nz ≤ N)
    {fill : Idx → Option Bool} {f : Idx → Bool} (hf : Answers d fill f)
    {oob : FVal} {o : Out} (ho : extract ieee (res, res, res) d fill oob true = some o) {g : Idx → ℝ}
    (hg : Checked d res o.sdf.get g) (w : Idx) (k : ℕ) : ∀ v, InBounds d v → Barrier d f v w → manhattan v w = k →
      signed (f v) (g v) ≤ 101 / 100 * res * k := by
  have r0 := hres.1
  have hd := small_enlarge hN hdim
  have sgn : ∀ u, InBounds d u → 0 < signed (f u) (g u) := fun u hu => by
    obtain ⟨-, -, -, -, h⟩ := border_value hres hlo hhi hN hdim hf ho hu (hg.1 u hu)
    linarith
  induction k with
  | zero =>
    intro v hv hw hk
    exfalso
    apply barrier_ne hv hw
    simp only [manhattan, Int.abs_eq_natAbs] at hk
    cases v; cases w
    simp only [Idx.mk.injEq] at *
    omega
  | succ k ih =>
    intro v hv hw hk
    obtain ⟨u', hu', h1, h2⟩ := step_toward (real_not_border hv).2 ((inBounds_enlarge d w).mpr (barrier_near hw))
      (fun e => barrier_ne hv hw (by
        have ex := congrArg Idx.x e
        have ey := congrArg Idx.y e
        have ez := congrArg Idx.z e
        simp only [Idx.add_x, Idx.add_y, Idx.add_z] at ex ey ez
        cases v; cases w
        simp only [Idx.mk.injEq] at *
        omega))
    obtain ⟨u, rfl⟩ : ∃ u, u' = u + offset d := ⟨u' - offset d, (sub_add_offset d u').symm⟩
    rw [sqDist_shift] at h1
    rw [manhattan_shift, manhattan_shift] at h2
    have near : Barrier d f v u → signed (f v) (g v) ≤ 101 / 100 * res * ((k + 1 : ℕ) : ℝ) := by
      intro hu
      have hm : NearestBarrier d f v 1 := ⟨⟨u, hu, h1⟩, fun p hp => barrier_pos hv hp⟩
      obtain ⟨y, hy, -, herr⟩ := C92_near hres hlo hhi hd hf ho hv hm (by norm_num)
      have e := (toR_signed hy).2
      rw [hg.1 v hv] at e
      have t : toR (some (g v : EReal)) = g v := by simp [toR]
      rw [t] at e
      rw [e]
      have h3 := (abs_le.mp herr).2
      simp only [Int.cast_one, Real.sqrt_one, mul_one] at h3
      have rel : relErr ≤ 1 / 100 := by unfold relErr; norm_num
      have : relErr * res ≤ 1 / 100 * res := by gcongr
      have k1 : (1 : ℝ) ≤ ((k + 1 : ℕ) : ℝ) := by push_cast; linarith [(Nat.cast_nonneg k : (0 : ℝ) ≤ k)]
      calc y ≤ 101 / 100 * res * 1 := by linarith
        _ ≤ 101 / 100 * res * ((k + 1 : ℕ) : ℝ) := by gcongr
    by_cases hu : InBounds d u
    · by_cases hc : f u = f v
      · have hub : Barrier d f u w := by
          rcases hw with ⟨a, b⟩ | hw
          · exact Or.inl ⟨a, by rw [hc]; exact b⟩
          · exact Or.inr hw
        have hu2 := ih u hu hub (by rw [h2, hk]; push_cast; ring)
        have pu := sgn u hu
        have pv := sgn v hv
        rw [hc] at hu2 pu
        have pos : 0 < g u * g v := by
          cases hfv : f v <;> rw [hfv] at pu pv <;> simp only [signed, if_true, Bool.false_eq_true, if_false] at pu pv <;> nlinarith
        have st := hg.2 v u hv hu h1 (by rw [mul_comm]; exact pos)
        have : signed (f v) (g v) ≤ signed (f v) (g u) + 101 / 100 * res := by
          obtain ⟨s1, s2⟩ := abs_le.mp st
          cases hfv : f v <;> simp only [signed, if_true, Bool.false_eq_true, if_false] <;> linarith
        push_cast
        linarith
      · exact near (Or.inl ⟨hu, hc⟩)
    · exact near (Or.inr ⟨hu, (inBounds_enlarge d u).mp hu'⟩)

theorem border_checked {res : ℝ} (hres : GoodRes ieee res) (hlo : 1 / 2 ^ 126 ≤ res) (hhi : res ≤ 2 ^ 100) {d : Dims}
    {N : ℕ} (hN : N ≤ 2 ^ 14) (hdim : d.nx ≤ N ∧ d.ny ≤ N ∧ d.nz ≤ N)
    {fill : Idx → Option Bool} {f : Idx → Bool} (hf : Answers d fill f)
    {oob : FVal} {o : Out} (ho : extract ieee (res, res, res) d fill oob true = some o) {g : Idx → ℝ}
    (hg : Checked d res o.sdf.get g) : Bounded d res f g (17495 / 10000) (101 / 100) := by
  have r0 := hres.1
  have key : ∀ v w, InBounds d v → Barrier d f v w → signed (f v) (g v) ≤ 101 / 100 * res * (manhattan v w : ℤ) := by
    intro v w hv hw
    have n0 : 0 ≤ manhattan v w := by unfold manhattan; positivity
    have := border_steps hres hlo hhi hN hdim hf ho hg w (manhattan v w).toNat v hv hw (by omega)
    have e : (((manhattan v w).toNat : ℕ) : ℝ) = ((manhattan v w : ℤ) : ℝ) := by
      have : ((manhattan v w).toNat : ℤ) = manhattan v w := Int.toNat_of_nonneg n0
      exact_mod_cast congrArg (fun z : ℤ => (z : ℝ)) this
    rwa [e] at this
  refine ⟨fun v w hv hw => (key v w hv hw).trans ?_, fun v w hv hw k hk _ => ?_⟩
  · have : ((manhattan v w : ℤ) : ℝ) ≤ Real.sqrt 3 * Real.sqrt (sqDist v w) := by
      rw [← Real.sqrt_mul (by norm_num)]
      refine Real.le_sqrt_of_sq_le ?_
      exact_mod_cast manhattan_three v w
    have s3 := sqrt3_bounds.2
    calc _ ≤ 101 / 100 * res * (Real.sqrt 3 * Real.sqrt (sqDist v w)) := by gcongr
      _ ≤ 101 / 100 * res * (17321 / 10000 * Real.sqrt (sqDist v w)) := by gcongr
      _ ≤ _ := by
        have : 0 ≤ res * Real.sqrt (sqDist v w) := by positivity
        linarith
  · have := key v w hv hw
    rw [hk] at this
    linarith

theorem border_flat {res : ℝ} (hres : GoodRes ieee res) (hlo : 1 / 2 ^ 126 ≤ res) (hhi : res ≤ 2 ^ 100) {d : Dims}
    {N : ℕ} (hN : N ≤ 2 ^ 14) (hdim : d.nx ≤ N ∧ d.ny ≤ N ∧ d.nz ≤ N) (hflat : Flat d)
    (hthick : 1 < d.nx ∨ 1 < d.ny ∨ 1 < d.nz)
    {fill : Idx → Option Bool} {f : Idx → Bool} (hf : Answers d fill f)
    {oob : FVal} {o : Out} (ho : extract ieee (res, res, res) d fill oob true = some o) :
    ∃ g : Idx → ℝ, (∀ v, InBounds d v → o.sdf.get v = real (g v)) ∧
      Bounded d res f g (14143 / 10000) (14143 / 10000) := by
  have r0 := hres.1
  have hd := small_enlarge hN hdim
  have val : ∀ v, InBounds d v → ∀ m, NearestBarrier d f v m →
      o.sdf.get v = real (toR (o.sdf.get v)) ∧ signed (f v) (toR (o.sdf.get v)) ≤
        14143 / 10000 * (res * Real.sqrt m) := by
    intro v hv m hm
    obtain ⟨y, hy, -, -, h⟩ := C92_flat hres hlo hhi hd hflat hf ho hv hm
    obtain ⟨e1, e2⟩ := toR_signed hy
    refine ⟨?_, ?_⟩
    · conv_lhs => rw [e1]
      have : toR (o.sdf.get v) = signed (f v) y := by rw [e1]; simp [toR, real]
      rw [this]
    · rw [e2]
      refine h.trans ?_
      have s2 : Real.sqrt 2 ≤ 141422 / 100000 := by rw [Real.sqrt_le_iff]; norm_num
      have rel : 1 + relErr ≤ 1 + 1 / 2 ^ 20 := by unfold relErr; norm_num
      have rel0 : 0 ≤ relErr := by unfold relErr; norm_num
      calc (1 + relErr) * (res * (Real.sqrt 2 * Real.sqrt m))
          ≤ (1 + 1 / 2 ^ 20) * (res * (141422 / 100000 * Real.sqrt m)) := by gcongr
        _ ≤ _ := by
          have : 0 ≤ res * Real.sqrt m := by positivity
          norm_num at *
          linarith
  have any : ∀ v w, InBounds d v → Barrier d f v w →
      signed (f v) (toR (o.sdf.get v)) ≤ 14143 / 10000 * (res * Real.sqrt (sqDist v w)) := by
    intro v w hv hw
    obtain ⟨m, hm⟩ := C92_barrier_exists hthick f hv
    refine (val v hv m hm).2.trans ?_
    have : Real.sqrt m ≤ Real.sqrt (sqDist v w) := Real.sqrt_le_sqrt (by exact_mod_cast hm.2 w hw)
    gcongr
  refine ⟨fun v => toR (o.sdf.get v), fun v hv => ?_, any, fun v w hv hw k hk hk2 => ?_⟩
  · obtain ⟨m, hm⟩ := C92_barrier_exists hthick f hv
    exact (val v hv m hm).1
  · have := any v w hv hw
    have k0 : 0 ≤ k := by rw [← hk]; unfold manhattan; positivity
    have e : Real.sqrt (sqDist v w) = k := by
      rw [hk2]; push_cast
      exact Real.sqrt_sq (by exact_mod_cast k0)
    rwa [e] at this

/-! ## Between the cells -/

theorem axis_mono {n : ℕ} (hn : 0 < n) {t : ℝ} (h : Inner n t) {a b : ℤ → ℝ}
    (hab : ∀ i : ℤ, 0 ≤ i → i < n → a i ≤ b i) : axisInterp n a t ≤ axisInterp n b t := by
  obtain ⟨w, w0, w1, e, -⟩ := axis_blend hn h
  obtain ⟨l0, l1, u0, u1⟩ := lowerCell_spec n t hn
  rw [e, e]
  exact lerp_le w0 w1 (hab _ l0 l1) (hab _ u0 u1)

theorem axis_const (n : ℕ) (c t : ℝ) : axisInterp n (fun _ => c) t = c := by
  unfold axisInterp lerp; ring

theorem axis_affine {n : ℕ} (hn : 1 < n) (α β t : ℝ) :
    axisInterp n (fun i => α + β * ((i : ℝ) + 1 / 2)) t = α + β * t := by
  have hu : upperCell n t = lowerCell n t + 1 := by
    unfold upperCell
    have : lowerCell n t ≤ (n : ℤ) - 2 := by unfold lowerCell; omega
    omega
  unfold axisInterp lerp
  rw [hu]
  push_cast
  ring

theorem interp_mono {t : MSdf ℝ} (hx : 0 < t.grid.dims.nx) (hy : 0 < t.grid.dims.ny) (hz : 0 < t.grid.dims.nz)
    {q : V3 ℝ} (hq : InnerLocation t.grid.dims t.res q) {h : Idx → ℝ}
    (hh : ∀ v, InBounds t.grid.dims v → halfCellCloser t.res (t.grid.get v) ≤ h v) :
    interpAt t q ≤ axisInterp t.grid.dims.nx (fun x => axisInterp t.grid.dims.ny (fun y =>
      axisInterp t.grid.dims.nz (fun z => h ⟨x, y, z⟩) (q.z / t.res)) (q.y / t.res)) (q.x / t.res) := by
  obtain ⟨ix, iy, iz⟩ := hq
  unfold interpAt
  rw [trilerp_nested]
  exact axis_mono hx ix fun x x0 x1 => axis_mono hy iy fun y y0 y1 => axis_mono hz iz fun z z0 z1 =>
    hh ⟨x, y, z⟩ ⟨⟨x0, x1⟩, ⟨y0, y1⟩, z0, z1⟩

/-- The corrected value of a cell, from a bound of the stored one. -/
theorem closer_le {t : MSdf ℝ} (hr : 0 < t.res) {f : Idx → Bool} {v : Idx} {b : ℝ} (hb : t.res / 512 ≤ b)
    (h0 : 511 / 512 * t.res ≤ signed (f v) (t.grid.get v)) (h : signed (f v) (t.grid.get v) ≤ b) :
    halfCellCloser t.res (t.grid.get v) ≤ b - t.res / 2 := by
  have e := corrected_signed (t := t) (f := f) (v := v) (by linarith)
  cases hv : f v with
  | true =>
    rw [hv] at e h0
    simp only [signed, if_true] at e h0
    linarith
  | false =>
    rw [hv] at e h
    simp only [signed, Bool.false_eq_true, if_false] at e h
    linarith

theorem layer_face {d : Dims} {v : Idx} (hv : InBounds d v) :
    (1 < d.nx → Layer d ⟨-1, v.y, v.z⟩ ∧ Layer d ⟨d.nx, v.y, v.z⟩) ∧
    (1 < d.ny → Layer d ⟨v.x, -1, v.z⟩ ∧ Layer d ⟨v.x, d.ny, v.z⟩) ∧
    (1 < d.nz → Layer d ⟨v.x, v.y, -1⟩ ∧ Layer d ⟨v.x, v.y, d.nz⟩) := by
  obtain ⟨a, b, c⟩ := hv
  have bad : ∀ {n : ℕ}, ¬ ((0 : ℤ) ≤ -1 ∧ (-1 : ℤ) < n) ∧ ¬ ((0 : ℤ) ≤ n ∧ (n : ℤ) < n) := by intro n; omega
  exact ⟨fun h => ⟨⟨fun hc => bad.1 hc.1, Or.inr ⟨h, Or.inl rfl⟩, Or.inl b, Or.inl c⟩,
      fun hc => bad.2 hc.1, Or.inr ⟨h, Or.inr rfl⟩, Or.inl b, Or.inl c⟩,
    fun h => ⟨⟨fun hc => bad.1 hc.2.1, Or.inl a, Or.inr ⟨h, Or.inl rfl⟩, Or.inl c⟩,
      fun hc => bad.2 hc.2.1, Or.inl a, Or.inr ⟨h, Or.inr rfl⟩, Or.inl c⟩,
    fun h => ⟨⟨fun hc => bad.1 hc.2.2, Or.inl a, Or.inl b, Or.inr ⟨h, Or.inl rfl⟩⟩,
      fun hc => bad.2 hc.2.2, Or.inl a, Or.inl b, Or.inr ⟨h, Or.inr rfl⟩⟩⟩

/-- Two cells on a line along an axis. -/
theorem straight {v : Idx} {k : ℤ} (hk : 0 ≤ k) :
    (manhattan v ⟨v.x - k, v.y, v.z⟩ = k ∧ sqDist v ⟨v.x - k, v.y, v.z⟩ = k ^ 2) ∧
    (manhattan v ⟨v.x + k, v.y, v.z⟩ = k ∧ sqDist v ⟨v.x + k, v.y, v.z⟩ = k ^ 2) ∧
    (manhattan v ⟨v.x, v.y - k, v.z⟩ = k ∧ sqDist v ⟨v.x, v.y - k, v.z⟩ = k ^ 2) ∧
    (manhattan v ⟨v.x, v.y + k, v.z⟩ = k ∧ sqDist v ⟨v.x, v.y + k, v.z⟩ = k ^ 2) ∧
    (manhattan v ⟨v.x, v.y, v.z - k⟩ = k ∧ sqDist v ⟨v.x, v.y, v.z - k⟩ = k ^ 2) ∧
    (manhattan v ⟨v.x, v.y, v.z + k⟩ = k ∧ sqDist v ⟨v.x, v.y, v.z + k⟩ = k ^ 2) := by
  simp [manhattan, sqDist, abs_of_nonneg hk]

/-- The field of the exact model, its cells bounded by the barriers. -/
structure Walled (t : MSdf ℝ) (f : Idx → Bool) (κ φ : ℝ) : Prop where
  low : ∀ v, InBounds t.grid.dims v → 511 / 512 * t.res ≤ signed (f v) (t.grid.get v)
  bound : Bounded t.grid.dims t.res f t.grid.get κ φ

theorem closer_ahead {t : MSdf ℝ} (hr : 0 < t.res) {f : Idx → Bool} {κ φ : ℝ} (h : Walled t f κ φ) (hφ : 1 ≤ φ)
    {v w : Idx} (hv : InBounds t.grid.dims v) (hw : Layer t.grid.dims w) {k : ℤ} (k1 : 1 ≤ k) (hk : manhattan v w = k)
    (hk2 : sqDist v w = k ^ 2) :
    halfCellCloser t.res (t.grid.get v) ≤ φ * t.res * k - t.res / 2 := by
  have k1' : (1 : ℝ) ≤ k := by exact_mod_cast k1
  refine closer_le hr (f := f) ?_ (h.low v hv) ?_
  · have : 1 * t.res * 1 ≤ φ * t.res * k := by gcongr
    linarith
  · have := h.bound.ahead v w hv (Or.inr hw) k hk hk2
    linarith

/-- The interpolant and the faces of the volume. -/
theorem interp_face {t : MSdf ℝ} (hr : 0 < t.res) (hx : 0 < t.grid.dims.nx) (hy : 0 < t.grid.dims.ny)
    (hz : 0 < t.grid.dims.nz) {f : Idx → Bool} {κ φ : ℝ} (h : Walled t f κ φ) (hφ : 1 ≤ φ) {q : V3 ℝ}
    (hq : InnerLocation t.grid.dims t.res q) :
    (1 < t.grid.dims.nx → interpAt t q ≤ φ * q.x + (φ - 1) / 2 * t.res ∧
      interpAt t q ≤ φ * (t.grid.dims.nx * t.res - q.x) + (φ - 1) / 2 * t.res) ∧
    (1 < t.grid.dims.ny → interpAt t q ≤ φ * q.y + (φ - 1) / 2 * t.res ∧
      interpAt t q ≤ φ * (t.grid.dims.ny * t.res - q.y) + (φ - 1) / 2 * t.res) ∧
    (1 < t.grid.dims.nz → interpAt t q ≤ φ * q.z + (φ - 1) / 2 * t.res ∧
      interpAt t q ≤ φ * (t.grid.dims.nz * t.res - q.z) + (φ - 1) / 2 * t.res) := by
  have dv : ∀ x : ℝ, t.res * (x / t.res) = x := fun x => by field_simp
  have lo : ∀ {n : ℕ} (_ : 1 < n) (x : ℝ), axisInterp n (fun i => (φ - 1) / 2 * t.res + φ * t.res * ((i : ℝ) + 1 / 2))
      (x / t.res) = φ * x + (φ - 1) / 2 * t.res := by
    intro n hn x
    rw [axis_affine hn, mul_assoc φ, dv]; ring
  have hi : ∀ {n : ℕ} (_ : 1 < n) (x : ℝ), axisInterp n (fun i => ((φ - 1) / 2 * t.res + φ * t.res * n) +
      -(φ * t.res) * ((i : ℝ) + 1 / 2)) (x / t.res) = φ * (n * t.res - x) + (φ - 1) / 2 * t.res := by
    intro n hn x
    rw [axis_affine hn, neg_mul, mul_assoc φ t.res (x / t.res), dv]; ring
  refine ⟨fun hn => ⟨?_, ?_⟩, fun hn => ⟨?_, ?_⟩, fun hn => ⟨?_, ?_⟩⟩
  · have := interp_mono hx hy hz hq (h := fun v => (φ - 1) / 2 * t.res + φ * t.res * ((v.x : ℝ) + 1 / 2)) fun v hv => by
      have s := (straight (v := v) (k := v.x + 1) (by have := hv.1; omega)).1
      rw [show v.x - (v.x + 1) = -1 by ring] at s
      have := closer_ahead hr h hφ hv ((layer_face hv).1 hn).1 (by have := hv.1; omega) s.1 s.2
      push_cast at this
      linarith
    simpa only [axis_const, lo hn] using this
  · have := interp_mono hx hy hz hq (h := fun v => ((φ - 1) / 2 * t.res + φ * t.res * t.grid.dims.nx) +
        -(φ * t.res) * ((v.x : ℝ) + 1 / 2)) fun v hv => by
      have s := (straight (v := v) (k := t.grid.dims.nx - v.x) (by have := hv.1; omega)).2.1
      rw [show v.x + ((t.grid.dims.nx : ℤ) - v.x) = t.grid.dims.nx by ring] at s
      have := closer_ahead hr h hφ hv ((layer_face hv).1 hn).2 (by have := hv.1; omega) s.1 s.2
      push_cast at this
      linarith
    simpa only [axis_const, hi hn] using this
  · have := interp_mono hx hy hz hq (h := fun v => (φ - 1) / 2 * t.res + φ * t.res * ((v.y : ℝ) + 1 / 2)) fun v hv => by
      have s := (straight (v := v) (k := v.y + 1) (by have := hv.2.1; omega)).2.2.1
      rw [show v.y - (v.y + 1) = -1 by ring] at s
      have := closer_ahead hr h hφ hv ((layer_face hv).2.1 hn).1 (by have := hv.2.1; omega) s.1 s.2
      push_cast at this
      linarith
    simpa only [axis_const, lo hn] using this
  · have := interp_mono hx hy hz hq (h := fun v => ((φ - 1) / 2 * t.res + φ * t.res * t.grid.dims.ny) +
        -(φ * t.res) * ((v.y : ℝ) + 1 / 2)) fun v hv => by
      have s := (straight (v := v) (k := t.grid.dims.ny - v.y) (by have := hv.2.1; omega)).2.2.2.1
      rw [show v.y + ((t.grid.dims.ny : ℤ) - v.y) = t.grid.dims.ny by ring] at s
      have := closer_ahead hr h hφ hv ((layer_face hv).2.1 hn).2 (by have := hv.2.1; omega) s.1 s.2
      push_cast at this
      linarith
    simpa only [axis_const, hi hn] using this
  · have := interp_mono hx hy hz hq (h := fun v => (φ - 1) / 2 * t.res + φ * t.res * ((v.z : ℝ) + 1 / 2)) fun v hv => by
      have s := (straight (v := v) (k := v.z + 1) (by have := hv.2.2; omega)).2.2.2.2.1
      rw [show v.z - (v.z + 1) = -1 by ring] at s
      have := closer_ahead hr h hφ hv ((layer_face hv).2.2 hn).1 (by have := hv.2.2; omega) s.1 s.2
      push_cast at this
      linarith
    simpa only [axis_const, lo hn] using this
  · have := interp_mono hx hy hz hq (h := fun v => ((φ - 1) / 2 * t.res + φ * t.res * t.grid.dims.nz) +
        -(φ * t.res) * ((v.z : ℝ) + 1 / 2)) fun v hv => by
      have s := (straight (v := v) (k := t.grid.dims.nz - v.z) (by have := hv.2.2; omega)).2.2.2.2.2
      rw [show v.z + ((t.grid.dims.nz : ℤ) - v.z) = t.grid.dims.nz by ring] at s
      have := closer_ahead hr h hφ hv ((layer_face hv).2.2 hn).2 (by have := hv.2.2; omega) s.1 s.2
      push_cast at this
      linarith
    simpa only [axis_const, hi hn] using this

/-- A one-sided bound at the eight corners that grows with the distance of the centre is one at the location. -/
theorem interp_blend {t : MSdf ℝ} (hr : 0 < t.res) (hx : 0 < t.grid.dims.nx) (hy : 0 < t.grid.dims.ny)
    (hz : 0 < t.grid.dims.nz) {q : V3 ℝ} (hq : InnerLocation t.grid.dims t.res q) (σ : Bool) {κ k : ℝ} (hκ : 0 < κ)
    (h : ∀ a b c, signed σ (halfCellCloser t.res (t.grid.get (corner t.grid.dims t.res q a b c))) ≤
      k + κ * dist3 q (centre t.res (corner t.grid.dims t.res q a b c))) :
    signed σ (interpAt t q) ≤ k + κ * (Real.sqrt 3 / 2 * t.res) := by
  obtain ⟨ix, iy, iz⟩ := hq
  have h := blend_le (g := fun i => signed σ (halfCellCloser t.res (t.grid.get i)) / κ) (k := k / κ)
    hr hx hy hz ix iy iz fun a b c => by
      rw [div_le_iff₀ hκ]
      have e : ∀ D : ℝ, (k / κ + D) * κ = k + κ * D := fun D => by field_simp
      rw [e]
      exact h a b c
  unfold interpAt
  rw [trilerp_nested]
  simp only [axisInterp_div, axisInterp_signed] at h
  rw [div_le_iff₀ hκ] at h
  have e : (k / κ + Real.sqrt 3 / 2 * t.res) * κ = k + κ * (Real.sqrt 3 / 2 * t.res) := by field_simp
  linarith

/-- The interpolant and the obstacles. -/
theorem interp_obstacle {t : MSdf ℝ} (hr : 0 < t.res) (hx : 0 < t.grid.dims.nx) (hy : 0 < t.grid.dims.ny)
    (hz : 0 < t.grid.dims.nz) {f : Idx → Bool} {κ φ : ℝ} (h : Walled t f κ φ) (hκ : 1 ≤ κ) {q r : V3 ℝ}
    (hq : InnerLocation t.grid.dims t.res q) (hreg : Region t.grid.dims t.res f true r) :
    interpAt t q ≤ κ * dist3 q r + (κ * Real.sqrt 3 - 1 / 2) * t.res := by
  obtain ⟨w, hw, hfw, hrw⟩ := hreg
  have s3 := sqrt3_bounds.1
  have nq := dist3_nonneg q r
  have key := interp_blend hr hx hy hz hq false (κ := κ) (k := κ * (dist3 q r + Real.sqrt 3 / 2 * t.res) - t.res / 2)
    (by linarith) fun a b c => by
      have hin : InBounds t.grid.dims (corner t.grid.dims t.res q a b c) :=
        cornerIdx_inB (K := ℝ) hx hy hz (q.x / t.res) (q.y / t.res) (q.z / t.res) a b c
      generalize corner t.grid.dims t.res q a b c = v at hin
      have nv := dist3_nonneg q (centre t.res v)
      have base : t.res / 2 ≤ κ * (dist3 q r + Real.sqrt 3 / 2 * t.res + dist3 q (centre t.res v)) := by
        have : 1 * (t.res / 2) ≤ κ * (dist3 q r + Real.sqrt 3 / 2 * t.res + dist3 q (centre t.res v)) := by
          gcongr
          nlinarith
        linarith
      have hl := h.low v hin
      simp only [signed, Bool.false_eq_true, if_false]
      cases hv : f v with
      | true =>
        have e := corrected_signed (t := t) (f := f) (v := v) (by linarith)
        rw [hv] at e hl
        simp only [signed, if_true] at e hl
        linarith
      | false =>
        have hb := h.bound.any v w hin (Or.inl ⟨hw, by rw [hfw, hv]; decide⟩)
        rw [← dist3_centres hr.le] at hb
        have t1 := dist3_tri (centre t.res v) q (centre t.res w)
        have t2 := dist3_tri q r (centre t.res w)
        have t3 := dist3_cube hr.le hrw
        rw [dist3_comm] at t3
        rw [dist3_comm (centre t.res v) q] at t1
        have t4 : dist3 (centre t.res v) (centre t.res w) ≤
            dist3 q r + Real.sqrt 3 / 2 * t.res + dist3 q (centre t.res v) := by linarith
        have := mul_le_mul_of_nonneg_left t4 (by linarith : 0 ≤ κ)
        have := closer_le hr (f := f) (v := v) (b := κ * (dist3 q r + Real.sqrt 3 / 2 * t.res + dist3 q (centre t.res v)))
          (by linarith) hl (by linarith)
        linarith
  simp only [signed, Bool.false_eq_true, if_false] at key
  linarith

theorem corner_dist {d : Dims} {res : ℝ} (hr : 0 < res) (hx : 0 < d.nx) (hy : 0 < d.ny) (hz : 0 < d.nz) {q : V3 ℝ}
    (hq : InnerLocation d res q) (a b c : Bool) :
    dist3 q (centre res (corner d res q a b c)) ≤ Real.sqrt 3 * res := by
  have ax : ∀ {n : ℕ} (_ : 0 < n) {x : ℝ} (_ : Inner n (x / res)) (a : Bool),
      (x - ((pick a (lowerCell n (x / res)) (upperCell n (x / res)) : ℤ) + 1 / 2) * res) ^ 2 ≤ res ^ 2 := by
    intro n hn x hi a
    have e : x = x / res * res := by field_simp
    set u := x / res with hu
    have key : |u - ((pick a (lowerCell n u) (upperCell n u) : ℤ) + 1 / 2)| ≤ 1 := by
      rcases (by omega : n = 1 ∨ 2 ≤ n) with rfl | h2
      · have h1 : lowerCell 1 u = 0 := by unfold lowerCell; omega
        have h2 : upperCell 1 u = 0 := by unfold upperCell; rw [h1]; rfl
        have ht : 0 ≤ u ∧ u ≤ 1 := by
          rcases hi with ⟨-, h⟩ | ⟨a, b⟩
          · exact h
          · push_cast at b; constructor <;> linarith
        rw [abs_le]
        cases a <;> simp only [pick, h1, h2, if_true, Bool.false_eq_true, if_false] <;> push_cast <;>
          constructor <;> linarith [ht.1, ht.2]
      · have hb : BetweenCenters n u := hi.resolve_left fun h => by omega
        obtain ⟨w0, w1⟩ := weight_range n u hb
        have hup : upperCell n u = lowerCell n u + 1 := by
          unfold upperCell
          have : lowerCell n u ≤ (n : ℤ) - 2 := by unfold lowerCell; omega
          omega
        rw [abs_le]
        cases a <;> simp only [pick, hup, if_true, Bool.false_eq_true, if_false] <;> push_cast <;>
          constructor <;> linarith
    rw [e, ← sub_mul, mul_pow]
    have := (sq_le_one_iff_abs_le_one _).mpr key
    nlinarith [sq_nonneg res]
  obtain ⟨ix, iy, iz⟩ := hq
  have e : Real.sqrt 3 * res = Real.sqrt (3 * res ^ 2) := by
    rw [Real.sqrt_mul (by norm_num), Real.sqrt_sq hr.le]
  unfold dist3
  rw [e]
  apply Real.sqrt_le_sqrt
  have := ax hx ix a
  have := ax hy iy b
  have := ax hz iz c
  unfold sqDist3 centre corner
  dsimp only
  linarith

theorem layer_outside {d : Dims} {res : ℝ} (hr : 0 < res) {p : Idx} (hp : Layer d p) : Outside d res (centre res p) := by
  obtain ⟨hn, h1, h2, h3⟩ := hp
  have ax : ∀ {n : ℕ} {x : ℤ}, NearAxis n x → ¬ (0 ≤ x ∧ x < n) → BeyondFace n res ((x + 1 / 2) * res) := by
    intro n x h hc
    obtain ⟨h1, rfl | rfl⟩ := h.resolve_left hc
    · exact ⟨h1, Or.inl (by push_cast; nlinarith)⟩
    · exact ⟨h1, Or.inr (by push_cast; nlinarith)⟩
  by_cases hx : 0 ≤ p.x ∧ p.x < d.nx
  · by_cases hy : 0 ≤ p.y ∧ p.y < d.ny
    · exact Or.inr (Or.inr (ax h3 fun hz => hn ⟨hx, hy, hz⟩))
    · exact Or.inr (Or.inl (ax h2 hy))
  · exact Or.inl (ax h1 hx)

/-- A location clear of everything gets a large value. -/
theorem interp_accepts {t : MSdf ℝ} (hr : 0 < t.res) (hx : 0 < t.grid.dims.nx) (hy : 0 < t.grid.dims.ny)
    (hz : 0 < t.grid.dims.nz) {f : Idx → Bool}
    (hval : ∀ v, InBounds t.grid.dims v → ∃ p, Barrier t.grid.dims f v p ∧
      |signed (f v) (t.grid.get v) - t.res * Real.sqrt (sqDist v p)| ≤ t.res / 512) {q : V3 ℝ}
    (hq : InnerLocation t.grid.dims t.res q) {m : ℝ} (hm : 17322 / 10000 * t.res ≤ m)
    (hclear : ∀ r, Blocked t.grid.dims t.res f r → m ≤ dist3 q r) :
    m - (Real.sqrt 3 / 2 + 1 / 2 + 1 / 512) * t.res ≤ interpAt t q := by
  have s3 := sqrt3_bounds.2
  have key := interp_blend hr hx hy hz hq true (κ := 1) (k := -m + t.res / 2 + t.res / 512)
    (by linarith) fun a b c => by
      have hin : InBounds t.grid.dims (corner t.grid.dims t.res q a b c) :=
        cornerIdx_inB (K := ℝ) hx hy hz (q.x / t.res) (q.y / t.res) (q.z / t.res) a b c
      have hd := corner_dist hr hx hy hz hq a b c
      generalize corner t.grid.dims t.res q a b c = v at hin hd
      have hv : f v = false := by
        by_contra hc
        have := hclear _ (Or.inl ⟨v, hin, by simpa using hc, centre_inCube hr.le v⟩)
        nlinarith
      obtain ⟨p, hp, herr⟩ := hval v hin
      have hbp : Blocked t.grid.dims t.res f (centre t.res p) := by
        rcases hp with ⟨h1, h2⟩ | h
        · refine Or.inl ⟨p, h1, ?_, centre_inCube hr.le p⟩
          rw [hv] at h2
          simpa using h2
        · exact Or.inr (layer_outside hr h)
      have h1 := hclear _ hbp
      have h2 := dist3_tri q (centre t.res v) (centre t.res p)
      rw [dist3_centres hr.le] at h2
      have s1 : 1 ≤ Real.sqrt (sqDist v p) := Real.one_le_sqrt.mpr (by exact_mod_cast barrier_pos hin hp)
      have h3 := (abs_le.mp herr).1
      have hpos : 0 < signed (f v) (t.grid.get v) := by nlinarith
      have e := corrected_signed hpos
      rw [hv] at e h3
      simp only [signed, if_true, Bool.false_eq_true, if_false] at e h3 ⊢
      rw [e]
      linarith
  simp only [signed, if_true] at key
  linarith

/-! ## In the world -/

theorem wellInner_pos {n : ℕ} {t : ℝ} (h : WellInner n t) : 0 < n := by
  rcases h with ⟨rfl, -⟩ | ⟨a, b⟩
  · exact one_pos
  · have : (0 : ℝ) < n := by linarith
    exact_mod_cast this

theorem dist3_small {p q : V3 ℝ} {e : ℝ} (he : 0 ≤ e) (hx : |p.x - q.x| ≤ e) (hy : |p.y - q.y| ≤ e) (hz : |p.z - q.z| ≤ e) :
    dist3 p q ≤ 2 * e := by
  unfold dist3
  rw [Real.sqrt_le_iff]
  refine ⟨by linarith, ?_⟩
  have sx := sq_le_sq.mpr (by rw [abs_of_nonneg he]; exact hx : |p.x - q.x| ≤ |e|)
  have sy := sq_le_sq.mpr (by rw [abs_of_nonneg he]; exact hy : |p.y - q.y| ≤ |e|)
  have sz := sq_le_sq.mpr (by rw [abs_of_nonneg he]; exact hz : |p.z - q.z| ≤ |e|)
  unfold sqDist3
  nlinarith [sq_nonneg e]

theorem coord_le (p q : V3 ℝ) : |p.x - q.x| ≤ dist3 p q ∧ |p.y - q.y| ≤ dist3 p q ∧ |p.z - q.z| ≤ dist3 p q := by
  unfold dist3
  refine ⟨Real.abs_le_sqrt ?_, Real.abs_le_sqrt ?_, Real.abs_le_sqrt ?_⟩ <;> unfold sqDist3 <;>
    nlinarith [sq_nonneg (p.x - q.x), sq_nonneg (p.y - q.y), sq_nonneg (p.z - q.z)]

/-- Reported distances and barriers, from bounds of the stored values. -/
theorem border_world {res : ℝ} (hres : GoodRes ieee res) (hlo : 1 / 2 ^ 100 ≤ res) (hhi : res ≤ 2 ^ 60)
    {d : Dims} {N : ℕ} (hN : N ≤ 2 ^ 14) (hdim : d.nx ≤ N ∧ d.ny ≤ N ∧ d.nz ≤ N)
    {fill : Idx → Option Bool} {f : Idx → Bool} (hf : Answers d fill f)
    {oob : FVal} {o : Out} (ho : extract ieee (res, res, res) d fill oob true = some o) {g : Idx → ℝ}
    (hg : ∀ v, InBounds d v → o.sdf.get v = real (g v)) {κ φ : ℝ} (hb : Bounded d res f g κ φ) (κ1 : 1 ≤ κ) (κ2 : κ ≤ 2)
    (φ1 : 1 ≤ φ) (φ2 : φ ≤ 2) {A B : Aff ℝ}
    (hA : NearRotation A) (hB : isoInverse ieee A = (B.rx, B.ry, B.rz, loc B.t)) {M : ℝ} (hNM : (N : ℝ) ≤ M)
    (hM : M * N ≤ 2 ^ 29) (hT : OriginWithin A (M * res)) {c : V3 ℝ} (hc : WellInside d res c) :
    ∃ y : ℝ, (FSdf.mk o.sdf res).estimate ieee (affApp ieee B)
        (fun p => byAxis (axisCell ieee res) (affApp ieee B p)) (loc (A.app id c)) = some (real y, true) ∧
      (∀ r, Region d res f true r →
        y ≤ κ * (1 + 1 / 2 ^ 40) * dist3 (A.app id c) (A.app id r) + (κ * Real.sqrt 3 - 1 / 2 + 1 / 64) * res) ∧
      (∀ r, Outside d res r →
        y ≤ φ * (1 + 1 / 2 ^ 40) * dist3 (A.app id c) (A.app id r) + ((φ - 1) / 2 + 1 / 64) * res) ∧
      ∀ m, 0 ≤ m → (∀ r, Blocked d res f r → m + 7 / 4 * res ≤ dist3 (A.app id c) (A.app id r)) → m ≤ y := by
  have hhi' : res ≤ 2 ^ 100 := hhi.trans (by norm_num)
  have hlo' : (1 : ℝ) / 2 ^ 126 ≤ res := le_trans (by norm_num) hlo
  have r0 := hres.1
  obtain ⟨cx, cy, cz⟩ := id hc
  have hx := wellInner_pos cx
  have hy := wellInner_pos cy
  have hz := wellInner_pos cz
  have N1 : 1 ≤ N := by omega
  have N1' : (1 : ℝ) ≤ N := by exact_mod_cast N1
  have M1 : 1 ≤ M := N1'.trans hNM
  have hM2 : M ≤ 2 ^ 29 := le_trans (le_mul_of_one_le_right (by linarith) N1') hM
  obtain ⟨hp, hin, hq, hvc, e1, e2, e3⟩ := world_location hA hlo hhi hM2 hT N1 hNM hdim hc hB
  have hz0 : InBounds d ⟨0, 0, 0⟩ := by
    refine ⟨⟨le_rfl, ?_⟩, ⟨le_rfl, ?_⟩, le_rfl, ?_⟩ <;> dsimp only <;> omega
  have hdims : o.sdf.dims = d :=
    (C17_sign hres (ieee_resolution hlo' hhi').1 (small_enlarge hN hdim) hf ho hz0).1
  have hval : ∀ v, InBounds d v → ∃ p, Barrier d f v p ∧ |signed (f v) (g v) - res * Real.sqrt (sqDist v p)| ≤ res / 512 ∧
      res * Real.sqrt (sqDist v p) ≤ 17321 / 10000 * (N * res) ∧ 511 / 512 * res ≤ signed (f v) (g v) :=
    fun v hv => border_value hres hlo' hhi' hN hdim hf ho hv (hg v hv)
  have st : Stores (FSdf.mk o.sdf res) (exactAt (FSdf.mk o.sdf res) B) :=
    exact_stores fun i hi => ⟨g i, hg i (by rw [← hdims]; exact hi)⟩
  have eg : ∀ v, InBounds d v → (exactAt (FSdf.mk o.sdf res) B).grid.get v = g v := by
    intro v hv
    have : (exactAt (FSdf.mk o.sdf res) B).grid.get v = toR (o.sdf.get v) := exact_get (FSdf.mk o.sdf res) v
    rw [this, hg v hv]
    simp [toR, real]
  have ed : (exactAt (FSdf.mk o.sdf res) B).grid.dims = d := hdims
  have er : (exactAt (FSdf.mk o.sdf res) B).res = res := rfl
  have ei : (exactAt (FSdf.mk o.sdf res) B).inv = B := rfl
  have eq : (exactAt (FSdf.mk o.sdf res) B).toGrid (A.app id c) = B.app id (A.app id c) := rfl
  have es : (exactAt (FSdf.mk o.sdf res) B).size = ⟨d.nx * res, d.ny * res, d.nz * res⟩ := by rw [← ed]; rfl
  generalize exactAt (FSdf.mk o.sdf res) B = t at st eg ed er ei eq es
  subst er
  have hD : ∀ i, InBounds t.grid.dims i → |t.grid.get i| ≤ 2 * N * t.res := by
    intro i hi
    rw [ed] at hi
    obtain ⟨p, -, h1, h2, h3⟩ := hval i hi
    rw [eg i hi, ← abs_signed (f i), abs_of_nonneg (by linarith)]
    have := (abs_le.mp h1).2
    have : t.res ≤ N * t.res := le_mul_of_one_le_left r0.le N1'
    linarith
  obtain ⟨y, ey, hyz⟩ := estimate_bounded st hN N1 (by rw [ed]; exact hdim) hlo hhi' hD
    (toGrid := affApp ieee B) (toGrid' := affApp ieee B) (by rw [ei]; exact C112_product B) (by rw [ei]; exact C112_product B)
    (C112_lookup hlo hhi') (by linarith : 1 ≤ 64 * M) (by norm_num at hM ⊢; linarith) (p := A.app id c)
    (by rw [ei]; exact hp) (by rw [es, eq]; exact hin)
  rw [eq] at hyz
  subst ed
  have hW : Walled t f κ φ := by
    refine ⟨fun v hv => ?_, fun v w hv hw => ?_, fun v w hv hw k hk hk2 => ?_⟩
    · obtain ⟨p, -, -, -, h⟩ := hval v hv
      rw [eg v hv]; exact h
    · rw [eg v hv]; exact hb.any v w hv hw
    · rw [eg v hv]; exact hb.ahead v w hv hw k hk hk2
  set q := B.app id (A.app id c) with hqd
  have qc : dist3 q c ≤ t.res / 2 ^ 14 := by
    have := dist3_small (by positivity : 0 ≤ t.res / 2 ^ 15) e1 e2 e3
    have e : 2 * (t.res / 2 ^ 15) = t.res / 2 ^ 14 := by ring
    linarith
  obtain ⟨y1, y2⟩ := abs_le.mp hyz
  refine ⟨y, ey, fun r hr => ?_, fun r hr => ?_, fun m m0 hm => ?_⟩
  · have h1 := interp_obstacle r0 hx hy hz hW κ1 hq hr
    have h2 := dist3_tri q c r
    have h3 := (near_isometry hA c r).2
    have h4 : dist3 q r ≤ t.res / 2 ^ 14 + (1 + 1 / 2 ^ 40) * dist3 (A.app id c) (A.app id r) := by linarith
    have h5 := mul_le_mul_of_nonneg_left h4 (by linarith : 0 ≤ κ)
    have h6 : κ * (t.res / 2 ^ 14) ≤ 2 * (t.res / 2 ^ 14) := by gcongr
    norm_num at h5 h6 ⊢
    linarith
  · obtain ⟨fx, fy, fz⟩ := interp_face r0 hx hy hz hW φ1 hq
    have h3 := (near_isometry hA c r).2
    obtain ⟨k1, k2, k3⟩ := coord_le c r
    have fin : ∀ {n : ℕ} {qx cx rx : ℝ}, BeyondFace n t.res rx → |qx - cx| ≤ t.res / 2 ^ 15 → |cx - rx| ≤ dist3 c r →
        (1 < n → interpAt t q ≤ φ * qx + (φ - 1) / 2 * t.res ∧
          interpAt t q ≤ φ * (n * t.res - qx) + (φ - 1) / 2 * t.res) →
        y ≤ φ * (1 + 1 / 2 ^ 40) * dist3 (A.app id c) (A.app id r) + ((φ - 1) / 2 + 1 / 64) * t.res := by
      intro n qx cx rx hb he hk hi
      obtain ⟨i1, i2⟩ := hi hb.1
      obtain ⟨a1, a2⟩ := abs_le.mp he
      obtain ⟨b1, b2⟩ := abs_le.mp hk
      have h6 : φ * (t.res / 2 ^ 15) ≤ 2 * (t.res / 2 ^ 15) := by gcongr
      rcases hb.2 with h | h
      · have h4 : qx ≤ t.res / 2 ^ 15 + (1 + 1 / 2 ^ 40) * dist3 (A.app id c) (A.app id r) := by linarith
        have h5 := mul_le_mul_of_nonneg_left h4 (by linarith : 0 ≤ φ)
        norm_num at h5 h6 ⊢
        linarith
      · have h4 : n * t.res - qx ≤ t.res / 2 ^ 15 + (1 + 1 / 2 ^ 40) * dist3 (A.app id c) (A.app id r) := by linarith
        have h5 := mul_le_mul_of_nonneg_left h4 (by linarith : 0 ≤ φ)
        norm_num at h5 h6 ⊢
        linarith
    rcases hr with hr | hr | hr
    · exact fin hr e1 k1 fx
    · exact fin hr e2 k2 fy
    · exact fin hr e3 k3 fz
  · -- some barrier is at most `2 ^ 16` cells away
    obtain ⟨i, hi, hic⟩ := volume_cube r0 hx hy hz hvc
    have hfi : f i = false := by
      by_contra h
      have := hm c (Or.inl ⟨i, hi, by simpa using h, hic⟩)
      rw [dist3_self] at this
      linarith
    have big : m ≤ 2 ^ 17 * t.res := by
      obtain ⟨p, hp', -, h2, -⟩ := hval i hi
      have hbp : Blocked t.grid.dims t.res f (centre t.res p) := by
        rcases hp' with ⟨h1, h2⟩ | h
        · refine Or.inl ⟨p, h1, ?_, centre_inCube r0.le p⟩
          rw [hfi] at h2
          simpa using h2
        · exact Or.inr (layer_outside r0 h)
      have h3 := hm _ hbp
      have h4 := (near_isometry hA c (centre t.res p)).1
      have h5 := dist3_tri c (centre t.res i) (centre t.res p)
      rw [dist3_centres r0.le] at h5
      have h6 := dist3_cube r0.le hic
      rw [dist3_comm] at h6
      have s3 := sqrt3_bounds.2
      have h7 : Real.sqrt 3 / 2 * t.res ≤ 17321 / 10000 / 2 * t.res := by gcongr
      have hN' : (N : ℝ) * t.res ≤ 2 ^ 14 * t.res := by
        have : (N : ℝ) ≤ 2 ^ 14 := by exact_mod_cast hN
        gcongr
      have h8 : dist3 c (centre t.res p) ≤ 2 ^ 16 * t.res := by
        norm_num at hN' ⊢
        linarith
      norm_num at h4 h8 ⊢
      linarith
    have h := interp_accepts r0 hx hy hz (f := f) (fun v hv => by
        obtain ⟨p, hp', h1, -, -⟩ := hval v hv
        exact ⟨p, hp', by rw [eg v hv]; exact h1⟩) hq (m := m + 174 / 100 * t.res) (by linarith) fun r hr => by
      have h3 := hm r hr
      have h4 := (near_isometry hA c r).1
      have h5 := dist3_tri c q r
      rw [dist3_comm c q] at h5
      have h6 : m + 7 / 4 * t.res ≤ (1 + 1 / 2 ^ 40) * (t.res / 2 ^ 14 + dist3 q r) :=
        h3.trans (h4.trans (by gcongr; linarith))
      by_contra hlt
      push Not at hlt
      have : (1 + 1 / 2 ^ 40) * (t.res / 2 ^ 14 + dist3 q r) ≤
          (1 + 1 / 2 ^ 40) * (t.res / 2 ^ 14 + (m + 174 / 100 * t.res)) := by gcongr
      norm_num at this big h6
      linarith
    have s3 := sqrt3_bounds.2
    have h7 : Real.sqrt 3 / 2 * t.res ≤ 17321 / 10000 / 2 * t.res := by gcongr
    linarith

/-- C129: a map is processed with the virtual border and its field passes the check of C123. A distance that
`EstimateDistance` reports in the world exceeds 7/4 of the distance to any point of an obstacle by at most 8/3 cells, and
1.02 times the distance to any point outside the volume by at most 1/25 of a cell. -/
theorem C129_world {res : ℝ} (hres : GoodRes ieee res) (hlo : 1 / 2 ^ 100 ≤ res) (hhi : res ≤ 2 ^ 60)
    {d : Dims} {N : ℕ} (hN : N ≤ 2 ^ 14) (hdim : d.nx ≤ N ∧ d.ny ≤ N ∧ d.nz ≤ N)
    {fill : Idx → Option Bool} {f : Idx → Bool} (hf : Answers d fill f)
    {oob : FVal} {o : Out} (ho : extract ieee (res, res, res) d fill oob true = some o) {g : Idx → ℝ}
    (hg : Checked d res o.sdf.get g) {A B : Aff ℝ}
    (hA : NearRotation A) (hB : isoInverse ieee A = (B.rx, B.ry, B.rz, loc B.t)) {M : ℝ} (hNM : (N : ℝ) ≤ M)
    (hM : M * N ≤ 2 ^ 29) (hT : OriginWithin A (M * res)) {c : V3 ℝ} (hc : WellInside d res c) :
    ∃ y : ℝ, (FSdf.mk o.sdf res).estimate ieee (affApp ieee B)
        (fun p => byAxis (axisCell ieee res) (affApp ieee B p)) (loc (A.app id c)) = some (real y, true) ∧
      (∀ r, Region d res f true r → y ≤ 7 / 4 * dist3 (A.app id c) (A.app id r) + 8 / 3 * res) ∧
      (∀ r, Outside d res r → y ≤ 102 / 100 * dist3 (A.app id c) (A.app id r) + res / 25) ∧
      ∀ m, 0 ≤ m → (∀ r, Blocked d res f r → m + 7 / 4 * res ≤ dist3 (A.app id c) (A.app id r)) → m ≤ y := by
  have hhi' : res ≤ 2 ^ 100 := hhi.trans (by norm_num)
  have hlo' : (1 : ℝ) / 2 ^ 126 ≤ res := le_trans (by norm_num) hlo
  have r0 := hres.1
  have s3 := sqrt3_bounds.2
  obtain ⟨y, ey, h1, h2, h3⟩ := border_world hres hlo hhi hN hdim hf ho hg.1
    (border_checked hres hlo' hhi' hN hdim hf ho hg) (by norm_num) (by norm_num) (by norm_num) (by norm_num)
    hA hB hNM hM hT hc
  refine ⟨y, ey, fun r hr => ?_, fun r hr => ?_, h3⟩
  · have h := h1 r hr
    have n := dist3_nonneg (A.app id c) (A.app id r)
    have h7 : Real.sqrt 3 * res ≤ 17321 / 10000 * res := by gcongr
    norm_num at h
    linarith
  · have h := h2 r hr
    have n := dist3_nonneg (A.app id c) (A.app id r)
    norm_num at h
    linarith

/-- C129 for two-dimensional maps: every field is good enough, and the factors are smaller. -/
theorem C129_flat {res : ℝ} (hres : GoodRes ieee res) (hlo : 1 / 2 ^ 100 ≤ res) (hhi : res ≤ 2 ^ 60)
    {d : Dims} {N : ℕ} (hN : N ≤ 2 ^ 14) (hdim : d.nx ≤ N ∧ d.ny ≤ N ∧ d.nz ≤ N) (hflat : Flat d)
    (hthick : 1 < d.nx ∨ 1 < d.ny ∨ 1 < d.nz)
    {fill : Idx → Option Bool} {f : Idx → Bool} (hf : Answers d fill f)
    {oob : FVal} {o : Out} (ho : extract ieee (res, res, res) d fill oob true = some o) {A B : Aff ℝ}
    (hA : NearRotation A) (hB : isoInverse ieee A = (B.rx, B.ry, B.rz, loc B.t)) {M : ℝ} (hNM : (N : ℝ) ≤ M)
    (hM : M * N ≤ 2 ^ 29) (hT : OriginWithin A (M * res)) {c : V3 ℝ} (hc : WellInside d res c) :
    ∃ y : ℝ, (FSdf.mk o.sdf res).estimate ieee (affApp ieee B)
        (fun p => byAxis (axisCell ieee res) (affApp ieee B p)) (loc (A.app id c)) = some (real y, true) ∧
      (∀ r, Region d res f true r → y ≤ 283 / 200 * dist3 (A.app id c) (A.app id r) + 2 * res) ∧
      (∀ r, Outside d res r → y ≤ 283 / 200 * dist3 (A.app id c) (A.app id r) + res / 4) ∧
      ∀ m, 0 ≤ m → (∀ r, Blocked d res f r → m + 7 / 4 * res ≤ dist3 (A.app id c) (A.app id r)) → m ≤ y := by
  have hhi' : res ≤ 2 ^ 100 := hhi.trans (by norm_num)
  have hlo' : (1 : ℝ) / 2 ^ 126 ≤ res := le_trans (by norm_num) hlo
  have r0 := hres.1
  have s3 := sqrt3_bounds.2
  obtain ⟨g, hg, hb⟩ := border_flat hres hlo' hhi' hN hdim hflat hthick hf ho
  obtain ⟨y, ey, h1, h2, h3⟩ := border_world hres hlo hhi hN hdim hf ho hg hb
    (by norm_num) (by norm_num) (by norm_num) (by norm_num) hA hB hNM hM hT hc
  refine ⟨y, ey, fun r hr => ?_, fun r hr => ?_, h3⟩
  · have h := h1 r hr
    have n := dist3_nonneg (A.app id c) (A.app id r)
    have h7 : Real.sqrt 3 * res ≤ 17321 / 10000 * res := by gcongr
    norm_num at h
    linarith
  · have h := h2 r hr
    have n := dist3_nonneg (A.app id c) (A.app id r)
    norm_num at h
    linarith

/-- C129 for a path: waypoints at most `2 * δ` apart, all with a report of at least `7/4 * (ρ + δ)` and 8/3 cells, make
a path that stays at least `ρ` away from every point of an obstacle and from every point outside the volume. -/
theorem C129_path {res : ℝ} (hres : GoodRes ieee res) (hlo : 1 / 2 ^ 100 ≤ res) (hhi : res ≤ 2 ^ 60)
    {d : Dims} {N : ℕ} (hN : N ≤ 2 ^ 14) (hdim : d.nx ≤ N ∧ d.ny ≤ N ∧ d.nz ≤ N)
    {fill : Idx → Option Bool} {f : Idx → Bool} (hf : Answers d fill f)
    {oob : FVal} {o : Out} (ho : extract ieee (res, res, res) d fill oob true = some o) {g : Idx → ℝ}
    (hg : Checked d res o.sdf.get g) {A B : Aff ℝ}
    (hA : NearRotation A) (hB : isoInverse ieee A = (B.rx, B.ry, B.rz, loc B.t)) {M : ℝ} (hNM : (N : ℝ) ≤ M)
    (hM : M * N ≤ 2 ^ 29) (hT : OriginWithin A (M * res)) {cs : List (V3 ℝ)} (hc : ∀ c ∈ cs, WellInside d res c)
    {ρ δ : ℝ} (hδ : 0 ≤ δ) (hs : Spaced (2 * δ) (cs.map (A.app id)))
    (hask : ∀ w ∈ cs.map (A.app id), ∃ y : ℝ, (FSdf.mk o.sdf res).estimate ieee (affApp ieee B)
      (fun p => byAxis (axisCell ieee res) (affApp ieee B p)) (loc w) = some (real y, true) ∧
        7 / 4 * (ρ + δ) + 8 / 3 * res ≤ y)
    {p r : V3 ℝ} (hp : OnPath (cs.map (A.app id)) p) (hr : Blocked d res f r) : ρ ≤ dist3 p (A.app id r) := by
  obtain ⟨w, hw, hn⟩ := path_near_waypoint (by linarith) hs hp
  obtain ⟨y, ey, hy⟩ := hask w hw
  obtain ⟨c, hcs, rfl⟩ := List.mem_map.mp hw
  obtain ⟨y', ey', h1, h2, -⟩ := C129_world hres hlo hhi hN hdim hf ho hg hA hB hNM hM hT (hc c hcs)
  rw [ey] at ey'
  have e' : y = y' := by simpa [real] using ey'
  subst e'
  have r0 := hres.1
  have n := dist3_nonneg (A.app id c) (A.app id r)
  have hd : y ≤ 7 / 4 * dist3 (A.app id c) (A.app id r) + 8 / 3 * res := by
    rcases hr with hr | hr
    · exact h1 r hr
    · have := h2 r hr
      linarith
  have tri := dist3_tri (A.app id c) p (A.app id r)
  rw [dist3_comm (A.app id c) p] at tri
  linarith

/-- The distance to the nearest barrier changes by at most one between neighbours of a class. -/
theorem barrier_lipschitz {d : Dims} {f : Idx → Bool} {u v : Idx} (h1 : sqDist u v = 1) (hc : f u = f v) {m n : ℤ}
    (hm : NearestBarrier d f u m) (hn : NearestBarrier d f v n) : Real.sqrt m ≤ 1 + Real.sqrt n := by
  obtain ⟨⟨w, hw, rfl⟩, -⟩ := hn
  have h := hm.2 w (by
    rcases hw with ⟨a, b⟩ | hw
    · exact Or.inl ⟨a, by rw [hc]; exact b⟩
    · exact Or.inr hw)
  have h' : (m : ℝ) ≤ sqDist u w := by exact_mod_cast h
  refine (Real.sqrt_le_sqrt h').trans ?_
  have key := dist3_tri (⟨u.x, u.y, u.z⟩ : V3 ℝ) ⟨v.x, v.y, v.z⟩ ⟨w.x, w.y, w.z⟩
  have e : ∀ a b : Idx, dist3 (⟨a.x, a.y, a.z⟩ : V3 ℝ) ⟨b.x, b.y, b.z⟩ = Real.sqrt (sqDist a b) := by
    intro a b
    unfold dist3 sqDist3 sqDist
    push_cast
    rfl
  rw [e, e, e, h1] at key
  simpa using key

/-- In a map where the free cells and the filled cells are both products of index sets - a map without obstacles, a map
with a wall along a face - the stored value is the distance to the nearest barrier. -/
theorem border_product {res : ℝ} (hres : GoodRes ieee res) (hlo : 1 / 2 ^ 126 ≤ res) (hhi : res ≤ 2 ^ 100)
    {d : Dims} {N : ℕ} (hN : N ≤ 2 ^ 14) (hdim : d.nx ≤ N ∧ d.ny ≤ N ∧ d.nz ≤ N) {fill : Idx → Option Bool}
    {f : Idx → Bool} (hf : Answers d fill f) {X Y Z X' Y' Z' : ℤ → Prop}
    (hfree : IsProduct d (fun i => f i = false) X Y Z) (hfill : IsProduct d (fun i => f i = true) X' Y' Z')
    {oob : FVal} {o : Out} (ho : extract ieee (res, res, res) d fill oob true = some o) {v : Idx} (hv : InBounds d v)
    {m : ℤ} (hm : NearestBarrier d f v m) :
    ∃ y : ℝ, o.sdf.get v = some (if f v then ((-y : ℝ) : EReal) else (y : EReal)) ∧ 0 < y ∧
      |y - res * Real.sqrt m| ≤ res / 512 := by
  have r0 := hres.1
  have hval : o.sdf.get v = some (if f v then -ieee.r32 (ieee.r64 (ieee.r64 ((Real.sqrt m : ℝ) : EReal) * res))
      else ieee.r32 (ieee.r64 (ieee.r64 ((Real.sqrt m : ℝ) : EReal) * res))) := by
    have h32 := (ieee_resolution hlo hhi).1
    cases hc : f v with
    | true =>
      have := C92_exact hres h32 (small_enlarge hN hdim) hf ho hv (A := X') (B := Y') (C := Z')
        (by rw [hc]; exact hfill) hm
      rwa [hc] at this
    | false =>
      have := C92_exact hres h32 (small_enlarge hN hdim) hf ho hv (A := X) (B := Y) (C := Z)
        (by rw [hc]; exact hfree) hm
      rwa [hc] at this
  obtain ⟨⟨p, hp, rfl⟩, -⟩ := hm
  have p1 := barrier_pos hv hp
  have n0 : (0 : ℝ) ≤ N := by positivity
  have hN' : (N : ℝ) ≤ 2 ^ 14 := by exact_mod_cast hN
  have sq := barrier_sqrt hdim hv hp
  have s3 := sqrt3_bounds.2
  have sq' : Real.sqrt (sqDist v p) ≤ 17321 / 10000 * 2 ^ 14 := sq.trans (by gcongr)
  have lt : sqDist v p < 2 ^ 31 := by
    have h : ((sqDist v p : ℤ) : ℝ) < 2 ^ 31 := by
      have e := Real.sq_sqrt (by exact_mod_cast (by omega : 0 ≤ sqDist v p) : (0 : ℝ) ≤ (sqDist v p : ℤ))
      have := Real.sqrt_nonneg ((sqDist v p : ℤ) : ℝ)
      rw [← e]
      nlinarith
    exact_mod_cast h
  obtain ⟨n, hn⟩ : ∃ n : ℕ, (n : ℤ) = sqDist v p := ⟨(sqDist v p).toNat, Int.toNat_of_nonneg (by omega)⟩
  have hcast : ((sqDist v p : ℤ) : ℝ) = n := by rw [← hn]; simp
  obtain ⟨y, hy, hpos, herr⟩ := stored_accuracy hres hlo hhi (n := n) (by omega) (by omega)
  have e : scaled ieee res (some n) = ieee.r64 (ieee.r64 ((Real.sqrt n : ℝ) : EReal) * res) := by
    simp [scaled, sqrtE]
  rw [e] at hy
  rw [hcast] at hval ⊢ sq'
  rw [hy] at hval
  refine ⟨y, by rw [hval]; rfl, hpos, herr.trans ?_⟩
  unfold relErr
  have : res * Real.sqrt n ≤ res * (17321 / 10000 * 2 ^ 14) := by gcongr
  norm_num at this ⊢
  linarith

/-- Maps without obstacles, and others where both classes are products, pass the check. -/
theorem C129_product {res : ℝ} (hres : GoodRes ieee res) (hlo : 1 / 2 ^ 126 ≤ res) (hhi : res ≤ 2 ^ 100)
    {d : Dims} {N : ℕ} (hN : N ≤ 2 ^ 14) (hdim : d.nx ≤ N ∧ d.ny ≤ N ∧ d.nz ≤ N)
    (hthick : 1 < d.nx ∨ 1 < d.ny ∨ 1 < d.nz) {fill : Idx → Option Bool}
    {f : Idx → Bool} (hf : Answers d fill f) {X Y Z X' Y' Z' : ℤ → Prop}
    (hfree : IsProduct d (fun i => f i = false) X Y Z) (hfill : IsProduct d (fun i => f i = true) X' Y' Z')
    {oob : FVal} {o : Out} (ho : extract ieee (res, res, res) d fill oob true = some o) :
    ∃ g, Checked d res o.sdf.get g := by
  have r0 := hres.1
  have val : ∀ v, InBounds d v → ∃ (m : ℤ) (y : ℝ), NearestBarrier d f v m ∧ 0 < y ∧
      o.sdf.get v = real (toR (o.sdf.get v)) ∧ toR (o.sdf.get v) = signed (f v) y ∧ |y - res * Real.sqrt m| ≤ res / 512 := by
    intro v hv
    obtain ⟨m, hm⟩ := C92_barrier_exists hthick f hv
    obtain ⟨y, hy, y0, he⟩ := border_product hres hlo hhi hN hdim hf hfree hfill ho hv hm
    have t : toR (o.sdf.get v) = signed (f v) y := by rw [hy]; cases f v <;> simp [toR, signed]
    exact ⟨m, y, hm, y0, by rw [t]; exact (toR_signed hy).1, t, he⟩
  refine ⟨fun v => toR (o.sdf.get v), fun v hv => ?_, fun u v hu hv h1 hpos => ?_⟩
  · obtain ⟨m, y, -, -, h, -⟩ := val v hv
    exact h
  · obtain ⟨m, y, hm, y0, -, ey, hy⟩ := val u hu
    obtain ⟨n, z, hn, z0, -, ez, hz⟩ := val v hv
    simp only at hpos ⊢
    rw [ey, ez] at hpos ⊢
    have hc : f u = f v := by
      cases hu' : f u <;> cases hv' : f v <;> rw [hu', hv'] at hpos <;> simp [signed] at hpos ⊢ <;> nlinarith
    have a := barrier_lipschitz h1 hc hm hn
    have b := barrier_lipschitz (by rw [← h1]; unfold sqDist; ring) hc.symm hn hm
    have a' : res * Real.sqrt m ≤ res * (1 + Real.sqrt n) := by gcongr
    have b' : res * Real.sqrt n ≤ res * (1 + Real.sqrt m) := by gcongr
    obtain ⟨y1, y2⟩ := abs_le.mp hy
    obtain ⟨z1, z2⟩ := abs_le.mp hz
    rw [hc, abs_le]
    cases f v <;> simp only [signed, if_true, Bool.false_eq_true, if_false] <;> constructor <;> linarith

/-- A map of 14 x 14 x 14 free cells of size 1/4, turned and shifted: the check passes, the report in the middle is at
least 1, and the bound by the distance to the faces holds. -/
example : ∃ (o : Out) (g : Idx → ℝ) (B : Aff ℝ) (y : ℝ), extract ieee ((1 / 4 : ℝ), (1 / 4 : ℝ), (1 / 4 : ℝ)) ⟨14, 14, 14⟩
      (fun _ => some false) (some ⊤) true = some o ∧ Checked ⟨14, 14, 14⟩ (1 / 4) o.sdf.get g ∧
    isoInverse ieee exPose = (B.rx, B.ry, B.rz, loc B.t) ∧
    (FSdf.mk o.sdf (1 / 4)).estimate ieee (affApp ieee B) (fun p => byAxis (axisCell ieee (1 / 4)) (affApp ieee B p))
      (loc (exPose.app id ⟨7 / 4, 7 / 4, 7 / 4⟩)) = some (real y, true) ∧ 1 ≤ y ∧
    y ≤ 102 / 100 * dist3 (exPose.app id ⟨7 / 4, 7 / 4, 7 / 4⟩) (exPose.app id ⟨0, 7 / 4, 7 / 4⟩) + 1 / 4 / 25 := by
  have hd : SmallGrid (enlarge ⟨14, 14, 14⟩) := by unfold SmallGrid enlarge off; decide
  have ans : Answers ⟨14, 14, 14⟩ (fun _ => some false) (fun _ => false) := fun _ _ => rfl
  obtain ⟨⟨o, ho⟩, -⟩ := C17_safe_queries hd ieee (1 / 4) (some ⊤) ans ans
  obtain ⟨B, hB, -⟩ := C112_inverse exPose_rotation
    ⟨exPose_origin.1.trans (by norm_num), exPose_origin.2.1.trans (by norm_num), exPose_origin.2.2.trans (by norm_num)⟩
  obtain ⟨g, hg⟩ := C129_product quarter_good (by norm_num) (by norm_num) (N := 14) (by norm_num) (by decide)
    (by decide) ans (X := fun _ => True) (Y := fun _ => True) (Z := fun _ => True) (X' := fun _ => False)
    (Y' := fun _ => False) (Z' := fun _ => False) (fun i _ => by simp) (fun i _ => by simp) ho
  obtain ⟨y, ey, -, h2, h3⟩ := C129_world quarter_good (by norm_num) (by norm_num) (N := 14) (by norm_num) (by decide) ans
    ho hg exPose_rotation hB (M := 2 ^ 25) (by norm_num) (by norm_num)
    ⟨by norm_num [exPose, abs_le], by norm_num [exPose, abs_le], by norm_num [exPose, abs_le]⟩
    (c := ⟨7 / 4, 7 / 4, 7 / 4⟩) (by norm_num [WellInside, WellInner])
  refine ⟨o, g, B, y, ho, hg, hB, ey, h3 1 (by norm_num) fun r hr => ?_,
    h2 ⟨0, 7 / 4, 7 / 4⟩ (Or.inl ⟨by norm_num, Or.inl le_rfl⟩)⟩
  have hr : Outside ⟨14, 14, 14⟩ (1 / 4) r := hr.resolve_left fun ⟨_, _, h, _⟩ => by simp at h
  have far : 7 / 4 ≤ dist3 (⟨7 / 4, 7 / 4, 7 / 4⟩ : V3 ℝ) r := by
    obtain ⟨k1, k2, k3⟩ := coord_le (⟨7 / 4, 7 / 4, 7 / 4⟩ : V3 ℝ) r
    rw [abs_le] at k1 k2 k3
    have ax : ∀ {x D : ℝ}, BeyondFace 14 (1 / 4) x → -D ≤ 7 / 4 - x ∧ 7 / 4 - x ≤ D → 7 / 4 ≤ D := by
      rintro x D ⟨-, h | h⟩ ⟨a, b⟩ <;> norm_num at h <;> linarith
    rcases hr with hr | hr | hr
    · exact ax hr k1
    · exact ax hr k2
    · exact ax hr k3
  have := (near_isometry exPose_rotation (⟨7 / 4, 7 / 4, 7 / 4⟩ : V3 ℝ) r).2
  linarith

end FSdf

end Verif
