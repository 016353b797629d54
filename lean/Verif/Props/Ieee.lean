import Verif.Ieee
import Verif.Props.FlatDistance
import Mathlib.Tactic.LinearCombination

/-!
# Accuracy of stored distances in IEEE arithmetic (C86)
-/

namespace Verif

open Spec DField SdfGen

/-- The relative error of a stored distance: one rounding to `float` and two to `double`. -/
noncomputable def relErr : ℝ := 1 / 2 ^ 24 + 1 / 2 ^ 51

theorem zpow_neg_nat (n : ℕ) : (2 : ℝ) ^ (-(n : ℤ)) = 1 / 2 ^ n := by
  rw [zpow_neg, zpow_natCast, one_div]

/-- The stored value of squared distance `n`. -/
theorem stored_accuracy {res : ℝ} (hres : GoodRes ieee res) (hlo : 1 / 2 ^ 126 ≤ res)
    (hhi : res ≤ 2 ^ 100) {n : ℕ} (h1 : 1 ≤ n) (hn : n ≤ 2 ^ 31) :
    ∃ y : ℝ, ieee.r32 (scaled ieee res (some n)) = (y : EReal) ∧ 0 < y ∧
      |y - res * Real.sqrt n| ≤ relErr * (res * Real.sqrt n) := by
  have hs1 : (1 : ℝ) ≤ Real.sqrt n := by
    rw [Real.one_le_sqrt]; exact_mod_cast h1
  have hs2 : Real.sqrt n ≤ 2 ^ 16 := by
    rw [Real.sqrt_le_iff]
    refine ⟨by norm_num, ?_⟩
    have : (n : ℝ) ≤ 2 ^ 31 := by exact_mod_cast hn
    linarith [show (2 : ℝ) ^ 31 ≤ (2 ^ 16) ^ 2 by norm_num]
  have hmin64 : (2 : ℝ) ^ Ieee.binary64.emin ≤ 1 / 2 ^ 126 := by
    rw [← zpow_neg_nat]; exact Ieee.two_mono (by decide)
  have hmin32 : (2 : ℝ) ^ Ieee.binary32.emin = 1 / 2 ^ 126 := by
    rw [← zpow_neg_nat]; rfl
  have hmax64 : (2 : ℝ) ^ (120 : ℕ) ≤ 2 ^ Ieee.binary64.emax := by
    rw [← zpow_natCast]; exact Ieee.two_mono (by decide)
  have hmax32 : (2 : ℝ) ^ (120 : ℕ) ≤ 2 ^ Ieee.binary32.emax := by
    rw [← zpow_natCast]; exact Ieee.two_mono (by decide)
  have hu : (2 : ℝ) ^ (-(Ieee.binary64.prec : ℤ)) = 1 / 2 ^ 53 := zpow_neg_nat 53
  have hv : (2 : ℝ) ^ (-(Ieee.binary32.prec : ℤ)) = 1 / 2 ^ 24 := zpow_neg_nat 24
  have hsmall : (1 : ℝ) / 2 ^ 126 ≤ 1 := by norm_num
  -- the root
  obtain ⟨a, ea, ha, _⟩ := Ieee.round_error (F := Ieee.binary64) (x := Real.sqrt n)
    (by linarith) (hs2.trans (le_trans (by norm_num) hmax64)) (by decide) (by decide)
  rw [hu, abs_le] at ha
  have ha1 : 1 ≤ a := by
    have h := ieee.mono64 (show (1 : EReal) ≤ (Real.sqrt n : EReal) by exact_mod_cast hs1)
    rw [ieee.one64] at h
    have h' : (1 : EReal) ≤ (a : EReal) := by rw [← ea]; exact h
    exact_mod_cast h'
  have ha2 : a ≤ 2 ^ 17 := by
    have : Real.sqrt n * (1 / 2 ^ 53) ≤ Real.sqrt n := by
      have := mul_le_mul_of_nonneg_left (show (1 : ℝ) / 2 ^ 53 ≤ 1 by norm_num)
        (show 0 ≤ Real.sqrt n by linarith)
      linarith
    linarith [show (2 : ℝ) ^ 17 = 2 * 2 ^ 16 by norm_num]
  have hrpos : 0 < res := hres.1
  -- the product
  have hge : res ≤ a * res := by nlinarith
  have hle : a * res ≤ 2 ^ 117 := by
    calc a * res ≤ 2 ^ 17 * 2 ^ 100 := by gcongr
      _ = 2 ^ 117 := by norm_num
  obtain ⟨b, eb, hb, _⟩ := Ieee.round_error (F := Ieee.binary64) (x := a * res)
    (by linarith) (hle.trans (le_trans (by norm_num) hmax64)) (by decide) (by decide)
  rw [hu, abs_le] at hb
  have hb1 : res ≤ b := by
    have h := ieee.mono64 (show (res : EReal) ≤ ((a * res : ℝ) : EReal) by exact_mod_cast hge)
    rw [hres.2] at h
    have h' : (res : EReal) ≤ (b : EReal) := by rw [← eb]; exact h
    exact_mod_cast h'
  have hb2 : b ≤ 2 ^ 118 := by
    have h0 : 0 ≤ a * res := by positivity
    have : a * res * (1 / 2 ^ 53) ≤ a * res := by
      have := mul_le_mul_of_nonneg_left (show (1 : ℝ) / 2 ^ 53 ≤ 1 by norm_num) h0
      linarith
    linarith [show (2 : ℝ) ^ 118 = 2 * 2 ^ 117 by norm_num]
  -- the conversion
  obtain ⟨c, ec, hc, hcpos⟩ := Ieee.round_error (F := Ieee.binary32) (x := b)
    (by linarith) (hb2.trans (le_trans (by norm_num) hmax32)) (by decide) (by decide)
  rw [hv, abs_le] at hc
  refine ⟨c, ?_, (Ieee.two_pos' _).trans_le hcpos, ?_⟩
  · have e1 : scaled ieee res (some n) = (b : EReal) := by
      unfold scaled sqrtE
      have : ieee.r64 ((Real.sqrt n : ℝ) : EReal) = (a : EReal) := ea
      rw [this, ← EReal.coe_mul]
      exact eb
    rw [e1]
    exact ec
  · set s := res * Real.sqrt n with hsdef
    have hs0 : 0 < s := by positivity
    have e1 : a * res ≤ s + s * (1 / 2 ^ 53) := by
      have := mul_le_mul_of_nonneg_right ha.2 hrpos.le
      rw [hsdef]; linarith
    have e2 : s - s * (1 / 2 ^ 53) ≤ a * res := by
      have := mul_le_mul_of_nonneg_right ha.1 hrpos.le
      rw [hsdef]; linarith
    unfold relErr
    rw [abs_le]
    norm_num at e1 e2 hb hc ⊢
    constructor <;> linarith

/-- Of the class opposite to `v`. -/
def Opposite (d : Dims) (f : Idx → Bool) (v p : Idx) : Prop := InBounds d p ∧ f p ≠ f v

/-- `m` is the squared distance (in cells) from `v` to the nearest cell of the opposite class. -/
def NearestOpposite (d : Dims) (f : Idx → Bool) (v : Idx) (m : ℤ) : Prop :=
  (∃ p, Opposite d f v p ∧ sqDist v p = m) ∧ ∀ p, Opposite d f v p → m ≤ sqDist v p

/-- The distance field from which the value of `v` is taken. -/
theorem opposite_field {R : Rounding} {res : ℝ} {d : Dims} {f : Idx → Bool} {oob : FVal} {o : Out} {a b : St}
    (hs : BaseSpec R res d f oob o a b) {v : Idx} (hv : InBounds d v) :
    ∃ (pts : List Idx) (s : St), build d pts = some s ∧ (∀ p, p ∈ pts ↔ Opposite d f v p) ∧
      o.sdf.get v = some (if f v then -R.r32 (scaled R res (reported s v))
        else R.r32 (scaled R res (reported s v))) := by
  have mem : ∀ (g : Idx → Bool), (∀ i, g i = true ↔ f i ≠ f v) → ∀ p, p ∈ d.all.filter g ↔ Opposite d f v p := by
    intro g hg p
    rw [List.mem_filter, Dims.mem_all, inB_iff_spec, hg]; rfl
  cases hfv : f v with
  | true =>
    refine ⟨_, b, hs.hb, mem _ (by intro i; rw [hfv]; simp), ?_⟩
    rw [hs.val v hv, exactVal, hfv, if_pos rfl, if_pos rfl, R.odd32]
  | false =>
    refine ⟨_, a, hs.ha, mem _ (by intro i; rw [hfv]; simp), ?_⟩
    rw [hs.val v hv, exactVal, hfv]; rfl

/-- The stored value of a cell for which the distance field found squared distance `n`. -/
theorem stored_value {res : ℝ} (hres : GoodRes ieee res) (hlo : 1 / 2 ^ 126 ≤ res)
    (hhi : res ≤ 2 ^ 100) {d : Dims} (hd : SmallGrid d) {f : Idx → Bool} {pts : List Idx} {s : St}
    (h : build d pts = some s) {v : Idx} (hv : InBounds d v) (hmem : ∀ p, p ∈ pts ↔ Opposite d f v p)
    {n : ℕ} (hn : reported s v = some n) :
    ∃ y : ℝ, ieee.r32 (scaled ieee res (reported s v)) = (y : EReal) ∧ 0 < y ∧
      |y - res * Real.sqrt n| ≤ relErr * (res * Real.sqrt n) := by
  rw [hn]
  obtain ⟨h1, h2, _⟩ := C08_sound hd h hv hn
  refine stored_accuracy hres hlo hhi ?_ ?_
  · rcases Nat.eq_zero_or_pos n with rfl | h0
    · have := (C09_zero_iff_source hd h hv).1.mp hn
      exact absurd rfl ((hmem v).mp this).2
    · exact h0
  · have hb := inB_iff_spec.mpr ((hmem _).mp h1).1
    have := dsq_le_maxSq (inB_iff_spec.mpr hv) hb
    rw [← dsq_sqDist] at h2
    have hh : maxSq d < 2 ^ 31 := hd
    omega

/-- C86, general.  A stored finite value has the sign of its cell, and its magnitude is, up to the
relative error, the distance to some cell of the opposite class; so it is at least the distance to the
nearest such cell, up to the relative error. -/
theorem C86_accuracy {res : ℝ} (hres : GoodRes ieee res) (hlo : 1 / 2 ^ 126 ≤ res)
    (hhi : res ≤ 2 ^ 100) {d : Dims} (hd : SmallGrid d) {fill : Idx → Option Bool} {f : Idx → Bool}
    (hf : Answers d fill f) {oob : FVal} {o : Out}
    (ho : extract ieee (res, res, res) d fill oob false = some o) {v : Idx} (hv : InBounds d v) :
    o.sdf.get v = some (if f v then ⊥ else ⊤) ∨
    ∃ (y : ℝ) (p : Idx), o.sdf.get v = some (if f v then ((-y : ℝ) : EReal) else (y : EReal)) ∧ 0 < y ∧
      Opposite d f v p ∧
      |y - res * Real.sqrt (sqDist v p)| ≤ relErr * (res * Real.sqrt (sqDist v p)) ∧
      ∀ m, NearestOpposite d f v m → (1 - relErr) * (res * Real.sqrt m) ≤ y := by
  obtain ⟨o', a, b, ho', hs⟩ := base_spec hd hf ieee res oob
  rw [extract_false, ho'] at ho
  simp only [Option.some.injEq] at ho
  subst ho
  obtain ⟨pts, s, hb, hmem, hval⟩ := opposite_field hs hv
  cases hr : reported s v with
  | none =>
    left
    rw [hval, hr, scaled_top hres.1, ieee.top32]
    rfl
  | some n =>
    right
    obtain ⟨y, hy, hpos, herr⟩ := stored_value hres hlo hhi hd hb hv hmem hr
    obtain ⟨h1, h2, h3⟩ := C08_sound hd hb hv hr
    have hcast : ((sqDist v (closest s v) : ℤ) : ℝ) = n := by rw [← h2]; simp
    refine ⟨y, closest s v, ?_, hpos, (hmem _).mp h1, by rw [hcast]; exact herr, ?_⟩
    · rw [hval, hy]; rfl
    · intro m hm
      have hmn : m ≤ n := h3 m ⟨by
        obtain ⟨p, hp, e⟩ := hm.1
        exact ⟨p, (hmem p).mpr hp, e⟩, fun p hp => hm.2 p ((hmem p).mp hp)⟩
      have hsq : Real.sqrt m ≤ Real.sqrt n := Real.sqrt_le_sqrt (by exact_mod_cast hmn)
      have hle : res * Real.sqrt m ≤ res * Real.sqrt n := mul_le_mul_of_nonneg_left hsq hres.1.le
      have hrel : relErr ≤ 1 := by unfold relErr; norm_num
      rw [abs_le] at herr
      nlinarith [herr.1]

/-- C86, near.  A cell whose nearest cell of the opposite class is at squared distance `m < 8` stores that
distance up to the relative error. -/
theorem C86_near {res : ℝ} (hres : GoodRes ieee res) (hlo : 1 / 2 ^ 126 ≤ res)
    (hhi : res ≤ 2 ^ 100) {d : Dims} (hd : SmallGrid d) {fill : Idx → Option Bool} {f : Idx → Bool}
    (hf : Answers d fill f) {oob : FVal} {o : Out}
    (ho : extract ieee (res, res, res) d fill oob false = some o) {v : Idx} (hv : InBounds d v) {m : ℤ}
    (hm : NearestOpposite d f v m) (h8 : m < 8) :
    ∃ y : ℝ, o.sdf.get v = some (if f v then ((-y : ℝ) : EReal) else (y : EReal)) ∧ 0 < y ∧
      |y - res * Real.sqrt m| ≤ relErr * (res * Real.sqrt m) := by
  obtain ⟨o', a, b, ho', hs⟩ := base_spec hd hf ieee res oob
  rw [extract_false, ho'] at ho
  simp only [Option.some.injEq] at ho
  subst ho
  obtain ⟨pts, s, hb, hmem, hval⟩ := opposite_field hs hv
  obtain ⟨n, hr, hn⟩ := C10_exact_below_8_partial hd hb hv (m := m) ⟨by
    obtain ⟨p, hp, e⟩ := hm.1
    exact ⟨p, (hmem p).mpr hp, e⟩, fun p hp => hm.2 p ((hmem p).mp hp)⟩ h8
  obtain ⟨y, hy, hpos, herr⟩ := stored_value hres hlo hhi hd hb hv hmem hr
  have hcast : ((m : ℤ) : ℝ) = n := by rw [← hn]; simp
  exact ⟨y, by rw [hval, hy]; rfl, hpos, by rw [hcast]; exact herr⟩

/-- C86, two-dimensional maps.  On a flat grid with cells of both classes every stored value is finite, and
its magnitude is between the distance to the nearest cell of the opposite class and `sqrt 2` times that
distance, up to the relative error. -/
theorem C86_flat {res : ℝ} (hres : GoodRes ieee res) (hlo : 1 / 2 ^ 126 ≤ res)
    (hhi : res ≤ 2 ^ 100) {d : Dims} (hd : SmallGrid d) (hflat : Flat d) {fill : Idx → Option Bool}
    {f : Idx → Bool} (hf : Answers d fill f) {oob : FVal} {o : Out}
    (ho : extract ieee (res, res, res) d fill oob false = some o) {v : Idx} (hv : InBounds d v) {m : ℤ}
    (hm : NearestOpposite d f v m) :
    ∃ y : ℝ, o.sdf.get v = some (if f v then ((-y : ℝ) : EReal) else (y : EReal)) ∧ 0 < y ∧
      (1 - relErr) * (res * Real.sqrt m) ≤ y ∧
      y ≤ (1 + relErr) * (res * (Real.sqrt 2 * Real.sqrt m)) := by
  obtain ⟨o', a, b, ho', hs⟩ := base_spec hd hf ieee res oob
  rw [extract_false, ho'] at ho
  simp only [Option.some.injEq] at ho
  subst ho
  obtain ⟨pts, s, hb, hmem, hval⟩ := opposite_field hs hv
  obtain ⟨n, hr, hn1, hn2⟩ := C10_flat_factor_partial hd hflat hb hv (m := m) ⟨by
    obtain ⟨p, hp, e⟩ := hm.1
    exact ⟨p, (hmem p).mpr hp, e⟩, fun p hp => hm.2 p ((hmem p).mp hp)⟩
  obtain ⟨y, hy, hpos, herr⟩ := stored_value hres hlo hhi hd hb hv hmem hr
  refine ⟨y, by rw [hval, hy]; rfl, hpos, ?_, ?_⟩ <;> rw [abs_le] at herr
  · have hsq : Real.sqrt m ≤ Real.sqrt n := Real.sqrt_le_sqrt (by exact_mod_cast hn1)
    have hle : res * Real.sqrt m ≤ res * Real.sqrt n := mul_le_mul_of_nonneg_left hsq hres.1.le
    have hrel : relErr ≤ 1 := by unfold relErr; norm_num
    nlinarith [herr.1]
  · have hsq : Real.sqrt n ≤ Real.sqrt 2 * Real.sqrt m := by
      rw [← Real.sqrt_mul (by norm_num)]
      exact Real.sqrt_le_sqrt (by exact_mod_cast hn2)
    have hle := mul_le_mul_of_nonneg_left hsq hres.1.le
    have hrel : 0 ≤ relErr := by unfold relErr; norm_num
    nlinarith [herr.2]

/-- The hypotheses on the resolution are met by 1/4 m. -/
theorem quarter_good : GoodRes ieee (1 / 4) := by
  refine ⟨by norm_num, ?_⟩
  have h := Ieee.round_exact (F := Ieee.binary64) (n := 1) (e := -2) (by decide) (by decide)
    (lt_of_lt_of_le (b := (1 : ℝ)) (by norm_num) (by
      have := Ieee.two_mono (show (0 : ℤ) ≤ Ieee.binary64.emax + 1 by decide)
      simpa using this))
  have e : (((1 : ℕ) : ℝ) * 2 ^ (-2 : ℤ)) = 1 / 4 := by norm_num
  rw [e] at h
  exact h

/-- The side conditions on the `float` of the resolution in C13-C18 hold in IEEE arithmetic. -/
theorem ieee_resolution {res : ℝ} (hlo : 1 / 2 ^ 126 ≤ res) (hhi : res ≤ 2 ^ 100) :
    0 < ieee.r32 res ∧ ieee.r32 res ≠ ⊤ := by
  obtain ⟨y, e, _, h⟩ := Ieee.round_error (F := Ieee.binary32) (x := res)
    (by rw [← zpow_neg_nat] at hlo; exact hlo)
    (hhi.trans (by rw [← zpow_natCast]; exact Ieee.two_mono (by decide))) (by decide) (by decide)
  have e' : ieee.r32 (res : EReal) = (y : EReal) := e
  rw [e']
  exact ⟨by exact_mod_cast (Ieee.two_pos' _).trans_le h, EReal.coe_ne_top y⟩

example : GoodRes ieee (1 / 4) ∧ (1 : ℝ) / 2 ^ 126 ≤ 1 / 4 ∧ (1 / 4 : ℝ) ≤ 2 ^ 100 ∧
    Flat ⟨3, 1, 2⟩ ∧ SmallGrid ⟨3, 1, 2⟩ ∧
    NearestOpposite ⟨3, 1, 2⟩ (fun i => decide (i = ⟨0, 0, 0⟩)) ⟨2, 0, 1⟩ 5 := by
  refine ⟨quarter_good, by norm_num, by norm_num, Or.inr (Or.inl rfl), by unfold SmallGrid; decide, ?_, ?_⟩
  · exact ⟨⟨0, 0, 0⟩, ⟨by simp [InBounds], by simp⟩, by norm_num [sqDist]⟩
  · rintro p ⟨_, hp⟩
    have : p = ⟨0, 0, 0⟩ := by
      by_contra hc
      simp [hc] at hp
    rw [this]
    norm_num [sqDist]

/-- Overflow: `2 ^ 1024` becomes infinite. -/
example : ieee.r64 (((2 : ℝ) ^ (1024 : ℤ) : ℝ) : EReal) = ⊤ := by
  show Ieee.round Ieee.binary64 (((2 : ℝ) ^ (1024 : ℤ) : ℝ) : EReal) = ⊤
  rw [Ieee.round_coe _ (by positivity)]
  unfold Ieee.roundMag
  have h := Ieee.magnitude_exact (F := Ieee.binary64) (n := 1) (e := 1024) (by decide) (by decide)
  rw [Nat.cast_one, one_mul] at h
  rw [h, if_neg]
  exact lt_irrefl _

/-- Ties go to even: the `float` of `2 ^ 24 + 1` is `2 ^ 24`. -/
example : ieee.r32 ((16777217 : ℝ) : EReal) = ((16777216 : ℝ) : EReal) := by
  show Ieee.round Ieee.binary32 ((16777217 : ℝ) : EReal) = _
  rw [Ieee.round_coe _ (by norm_num)]
  have hlog : Int.log 2 (16777217 : ℝ) = 24 := by
    have := Int.log_natCast (R := ℝ) 2 16777217
    rw [show Nat.log 2 16777217 = 24 by
      rw [Nat.log_eq_iff (by norm_num)]; norm_num] at this
    exact_mod_cast this
  have hq : Ieee.quantum Ieee.binary32 16777217 = 1 := by
    unfold Ieee.quantum
    rw [hlog]; rfl
  have hn : Ieee.nearest ((16777217 : ℝ) / 2 ^ (1 : ℤ)) = 8388608 := by
    have hfl : ⌊(16777217 : ℝ) / 2 ^ (1 : ℤ)⌋ = 8388608 := by
      rw [Int.floor_eq_iff]; norm_num
    have hfr : Int.fract ((16777217 : ℝ) / 2 ^ (1 : ℤ)) = 1 / 2 := by
      unfold Int.fract; rw [hfl]; norm_num
    unfold Ieee.nearest
    rw [hfr, hfl, if_neg (lt_irrefl _), if_neg (lt_irrefl _), if_pos (by decide)]
  have hm : Ieee.magnitude Ieee.binary32 16777217 = 16777216 := by
    unfold Ieee.magnitude
    rw [hq, hn]; norm_num
  unfold Ieee.roundMag
  rw [hm, if_pos]
  refine lt_of_lt_of_le (b := (2 : ℝ) ^ (25 : ℤ)) (by norm_num) (Ieee.two_mono (by decide))

end Verif
