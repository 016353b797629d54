import Verif.Props.Ieee
import Verif.Props.TaggedDisplay
import Verif.Props.Image2d

/-!
# C64 and C66 in IEEE arithmetic

The claims on contour displays and on the published images assume facts about rounding.  They hold in IEEE 754
arithmetic.
-/

namespace Verif

open SdfGen Spec Img

/-- A product of two positive numbers, rounded twice, loses at most one part in `2 ^ 23`. -/
theorem contourLimit_ge {res : ℝ} (hlo : 1 / 2 ^ 126 ≤ res) (hhi : res ≤ 2 ^ 100) :
    ∃ y : ℝ, TMap.contourLimit ieee res = (y : EReal) ∧ 18 / 10 * res ≤ y := by
  have hmin64 : (2 : ℝ) ^ Ieee.binary64.emin ≤ 1 / 2 ^ 126 := by
    rw [← zpow_neg_nat]; exact Ieee.two_mono (by decide)
  have hmin32 : (2 : ℝ) ^ Ieee.binary32.emin = 1 / 2 ^ 126 := by
    rw [← zpow_neg_nat]; rfl
  have hmax64 : (2 : ℝ) ^ (120 : ℕ) ≤ 2 ^ Ieee.binary64.emax := by
    rw [← zpow_natCast]; exact Ieee.two_mono (by decide)
  have hmax32 : (2 : ℝ) ^ (120 : ℕ) ≤ 2 ^ Ieee.binary32.emax := by
    rw [← zpow_natCast]; exact Ieee.two_mono (by decide)
  have hu : (2 : ℝ) ^ (-(Ieee.binary64.prec : ℤ)) = 1 / 2 ^ 53 := zpow_neg_nat 53
  have hv : (2 : ℝ) ^ (-(Ieee.binary32.prec : ℤ)) = 1 / 2 ^ 24 := zpow_neg_nat 24
  have hsmall : (1 : ℝ) / 2 ^ 126 ≤ 1 := by norm_num
  have hrpos : 0 < res := lt_of_lt_of_le (by positivity) hlo
  obtain ⟨a, ea, ha, _⟩ := Ieee.round_error (F := Ieee.binary64) (x := 19 / 10)
    (by linarith) (le_trans (by norm_num) hmax64) (by decide) (by decide)
  rw [hu, abs_le] at ha
  have ha1 : 189 / 100 ≤ a := by norm_num at ha; linarith
  have ha2 : a ≤ 2 := by norm_num at ha; linarith
  have hge : 189 / 100 * res ≤ a * res := by nlinarith
  have hle : a * res ≤ 2 ^ 101 := by
    calc a * res ≤ 2 * 2 ^ 100 := by gcongr
      _ = 2 ^ 101 := by norm_num
  obtain ⟨b, eb, hb, _⟩ := Ieee.round_error (F := Ieee.binary64) (x := a * res)
    (by linarith) (hle.trans (le_trans (by norm_num) hmax64)) (by decide) (by decide)
  rw [hu, abs_le] at hb
  have hb1 : 188 / 100 * res ≤ b := by norm_num at hb; nlinarith
  have hb2 : b ≤ 2 ^ 102 := by norm_num at hb hle ⊢; linarith
  obtain ⟨c, ec, hc, _⟩ := Ieee.round_error (F := Ieee.binary32) (x := b)
    (by linarith) (hb2.trans (le_trans (by norm_num) hmax32)) (by decide) (by decide)
  rw [hv, abs_le] at hc
  refine ⟨c, ?_, by norm_num at hc; nlinarith⟩
  unfold TMap.contourLimit
  have e1 : ieee.r64 ((19 / 10 : ℝ) : EReal) = (a : EReal) := ea
  have e2 : ieee.r64 ((a * res : ℝ) : EReal) = (b : EReal) := eb
  rw [e1, ← EReal.coe_mul, e2]
  exact ec

/-- C64, IEEE arithmetic.  The conditions on the rounding in C64 hold for every resolution that is a `double` between
`2 ^ -126` and `2 ^ 100`. -/
theorem C64_ieee {res : ℝ} (hres : ieee.r64 res = res) (hlo : 1 / 2 ^ 126 ≤ res) (hhi : res ≤ 2 ^ 100) :
    GoodRes ieee res ∧ 0 < ieee.r32 res ∧ KeepsLimit ieee res := by
  have hrpos : 0 < res := lt_of_lt_of_le (by positivity) hlo
  have hg : GoodRes ieee res := ⟨hrpos, hres⟩
  refine ⟨hg, (ieee_resolution hlo hhi).1, ?_⟩
  obtain ⟨y, ey, _, hy⟩ := stored_accuracy hg hlo hhi (n := 3) (by norm_num) (by norm_num)
  obtain ⟨z, ez, hz⟩ := contourLimit_ge hlo hhi
  unfold KeepsLimit
  rw [ey, ez, EReal.coe_lt_coe_iff]
  have h3 : Real.sqrt ((3 : ℕ) : ℝ) ≤ 1733 / 1000 := by
    rw [Real.sqrt_le_iff]; norm_num
  have h30 : 0 ≤ Real.sqrt ((3 : ℕ) : ℝ) := Real.sqrt_nonneg _
  have hm : res * Real.sqrt ((3 : ℕ) : ℝ) ≤ res * (1733 / 1000) := mul_le_mul_of_nonneg_left h3 hrpos.le
  have hm0 : 0 ≤ res * Real.sqrt ((3 : ℕ) : ℝ) := by positivity
  generalize res * Real.sqrt ((3 : ℕ) : ℝ) = s at hy hm hm0
  have he : relErr * s ≤ 1 / 1000 * s := mul_le_mul_of_nonneg_right (by unfold relErr; norm_num) hm0
  have := (abs_le.mp hy).2
  linarith

/-- C66, IEEE arithmetic.  The conditions on the rounding in C66 hold for every image ROS can carry (sides below
`2 ^ 32` pixels). -/
theorem C66_ieee {d : Dims} (hx : d.nx < 2 ^ 32) (hy : d.ny < 2 ^ 32) : PreviewOk ieee d := by
  have pw : ∀ k : ℤ, -1022 ≤ k → k ≤ 1023 → ieee.r64 (((2 : ℝ) ^ k : ℝ) : EReal) = (((2 : ℝ) ^ k : ℝ) : EReal) := by
    intro k h1 h2
    have h := Ieee.round_exact (F := Ieee.binary64) (n := 1) (e := k) (by decide)
      (by show (-1022 : ℤ) - (53 - 1) ≤ k; omega)
      (by rw [Nat.cast_one, one_mul]
          exact zpow_lt_zpow_right₀ (by norm_num) (by show k < 1023 + 1; omega))
    rwa [Nat.cast_one, one_mul] at h
  refine ⟨?_, ?_, ?_⟩
  · intro n hn
    have hb : Real.sqrt n ≤ (2 : ℝ) ^ (33 : ℤ) := by
      rw [Real.sqrt_le_iff]
      refine ⟨by positivity, ?_⟩
      have h1 : d.nx ^ 2 ≤ (2 ^ 32) ^ 2 := Nat.pow_le_pow_left hx.le 2
      have h2 : d.ny ^ 2 ≤ (2 ^ 32) ^ 2 := Nat.pow_le_pow_left hy.le 2
      have h3 : n ≤ 2 ^ 66 := by norm_num at h1 h2 ⊢; omega
      have h4 : (n : ℝ) ≤ 2 ^ 66 := by exact_mod_cast h3
      refine h4.trans ?_
      norm_num
    have h := ieee.mono64 (show (Real.sqrt n : EReal) ≤ (((2 : ℝ) ^ (33 : ℤ) : ℝ) : EReal) by exact_mod_cast hb)
    rw [pw 33 (by norm_num) (by norm_num)] at h
    exact ne_top_of_le_ne_top (EReal.coe_ne_top _) h
  · have h := pw 6 (by norm_num) (by norm_num)
    rw [show ((2 : ℝ) ^ (6 : ℤ)) = 64 by norm_num] at h
    exact h
  · have h := pw 7 (by norm_num) (by norm_num)
    rw [show ((2 : ℝ) ^ (7 : ℤ)) = 128 by norm_num] at h
    exact h

/-- C49, IEEE arithmetic.  In an image with filled and empty pixels every value is finite, at most -1 for filled and
at least 1 for empty pixels, and its magnitude is, up to one rounding of a `double`, the Euclidean distance to some pixel
of the other class. -/
theorem C49_ieee {d : Dims} (hz : d.nz = 1) (hx : d.nx < 2 ^ 32) (hy : d.ny < 2 ^ 32) {img : Idx → Bool}
    (hm : Mixed d img) {v : Idx} (hv : InBounds d v) :
    ∃ (a : ℝ) (w : Idx), (updateSdf ieee d img).field.get v = some (a : EReal) ∧
      (img v = true → a ≤ -1) ∧ (img v = false → 1 ≤ a) ∧ InBounds d w ∧ img w ≠ img v ∧
      |(|a| - Real.sqrt (sqDist v w))| ≤ Real.sqrt (sqDist v w) / 2 ^ 53 := by
  obtain ⟨n, w, h1, h2, h3, e⟩ := C49_value ieee hz hm hv
  obtain ⟨x, hx', s1, s2⟩ := C49_sign ieee hz img hv
  have hn0 : 1 ≤ n := by
    rcases Nat.eq_zero_or_pos n with rfl | h0
    · exfalso
      have hs : sqDist v w = 0 := by exact_mod_cast h3.symm
      apply h2
      have hvw : w = v := by
        unfold sqDist at hs
        obtain ⟨vx, vy, vz⟩ := v
        obtain ⟨wx, wy, wz⟩ := w
        simp only [Idx.mk.injEq]
        refine ⟨?_, ?_, ?_⟩ <;> nlinarith [sq_nonneg (vx - wx), sq_nonneg (vy - wy), sq_nonneg (vz - wz)]
      rw [hvw]
    · exact h0
  have hnb : n ≤ 2 ^ 66 := by
    have hh := Img.sqDist_le hz hv h1
    rw [← h3] at hh
    have hh' : n ≤ d.nx ^ 2 + d.ny ^ 2 := by exact_mod_cast hh
    have g1 : d.nx ^ 2 ≤ (2 ^ 32) ^ 2 := Nat.pow_le_pow_left hx.le 2
    have g2 : d.ny ^ 2 ≤ (2 ^ 32) ^ 2 := Nat.pow_le_pow_left hy.le 2
    norm_num at g1 g2 ⊢; omega
  have hs1 : (1 : ℝ) ≤ Real.sqrt n := by
    rw [Real.one_le_sqrt]; exact_mod_cast hn0
  have hs2 : Real.sqrt n ≤ 2 ^ 33 := by
    rw [Real.sqrt_le_iff]
    refine ⟨by positivity, ?_⟩
    have h4 : (n : ℝ) ≤ 2 ^ 66 := by exact_mod_cast hnb
    exact h4.trans (by norm_num)
  obtain ⟨a, ea, ha, ha0⟩ := Ieee.round_error (F := Ieee.binary64) (x := Real.sqrt n)
    (by refine le_trans ?_ hs1
        have := Ieee.two_mono (show Ieee.binary64.emin ≤ 0 by decide)
        simpa using this)
    (by refine hs2.trans ?_
        rw [← zpow_natCast]; exact Ieee.two_mono (by decide)) (by decide) (by decide)
  have hapos : 0 < a := (Ieee.two_pos' _).trans_le ha0
  have ea' : ieee.r64 ((Real.sqrt n : ℝ) : EReal) = (a : EReal) := ea
  rw [show (2 : ℝ) ^ (-(Ieee.binary64.prec : ℤ)) = 1 / 2 ^ 53 from zpow_neg_nat 53] at ha
  have hcast : Real.sqrt ((sqDist v w : ℤ) : ℝ) = Real.sqrt n := by rw [← h3]; norm_cast
  rw [ea'] at e
  rw [e, Option.some.injEq] at hx'
  refine ⟨if img v then -a else a, w, ?_, ?_, ?_, h1, h2, ?_⟩
  · rw [e]
    split <;> simp
  · intro hi
    have hh := s1 hi
    rw [← hx'] at hh
    rw [if_pos hi] at hh ⊢
    have hh' : ((-a : ℝ) : EReal) ≤ ((-1 : ℝ) : EReal) := hh
    exact EReal.coe_le_coe_iff.mp hh'
  · intro hi
    have hh := s2 hi
    rw [← hx'] at hh
    rw [if_neg (by simp [hi])] at hh ⊢
    have hh' : ((1 : ℝ) : EReal) ≤ (a : EReal) := hh
    exact EReal.coe_le_coe_iff.mp hh'
  · have : |if img v = true then -a else a| = a := by
      split
      · rw [abs_neg, abs_of_pos hapos]
      · exact abs_of_pos hapos
    rw [this, hcast]
    refine ha.trans (le_of_eq (by ring))

/-- A resolution and an image that meet the conditions. -/
example : KeepsLimit ieee (1 / 4) ∧ PreviewOk ieee ⟨640, 480, 1⟩ ∧ Mixed ⟨2, 3, 1⟩ exImg :=
  ⟨(C64_ieee quarter_good.2 (by norm_num) (by norm_num)).2.2, C66_ieee (by norm_num) (by norm_num), exImg_mixed⟩

end Verif
