import Mathlib.Data.Rat.Defs
import Mathlib.Algebra.Order.Field.Rat
import Mathlib.Algebra.Order.Field.Power
import Mathlib.Tactic.Linarith
import Mathlib.Tactic.Positivity
import Mathlib.Tactic.NormNum
import Mathlib.Tactic.FieldSimp
import Mathlib.Tactic.Ring

/-!
# binary32 occupancies

Occupancies are C++ `float`s (`include/sdf_tools/collision_map.hpp:22`).  They are modelled by their
IEEE 754 binary32 bit patterns, and the comparisons of the code (`occupancy > 0.5`,
`occupancy == 0.5`, `occupancy < 0.5`) are computed on bit patterns.  Converting a `float` to
`double` is exact, so comparing with the `double` literal `0.5` is comparing the values.
The theorems at the end of the file connect the bit-level comparisons with the rational value.
-/

namespace Verif

/-- A `float` as its bit pattern. -/
abbrev F32 := UInt32

namespace F32

/-- Bit pattern of `0.5f`. -/
def half : F32 := 0x3F000000
/-- Bit pattern of `1.0f`. -/
def one : F32 := 0x3F800000
/-- Bit pattern of `0.0f`. -/
def zero : F32 := 0
/-- Bit pattern of a quiet NaN. -/
def nan : F32 := 0x7FC00000

/-- Bit pattern without the sign bit. -/
def magn (b : F32) : Nat := b.toNat % 2 ^ 31
/-- Sign bit. -/
def neg (b : F32) : Bool := decide (2 ^ 31 ≤ b.toNat)
/-- NaN: exponent all ones and non-zero mantissa. -/
def isNaN (b : F32) : Bool := decide (0x7F800000 < b.magn)
/-- `b > 0.5` -/
def gtHalf (b : F32) : Bool := !b.isNaN && !b.neg && decide (0x3F000000 < b.magn)
/-- `b == 0.5` -/
def eqHalf (b : F32) : Bool := decide (b = half)
/-- `b < 0.5` -/
def ltHalf (b : F32) : Bool := !b.isNaN && (b.neg || decide (b.magn < 0x3F000000))

/-- Biased exponent. -/
def expo (b : F32) : Nat := b.magn / 2 ^ 23
/-- Mantissa. -/
def mant (b : F32) : Nat := b.magn % 2 ^ 23

/-- Value of a finite pattern (exponent field below 255), IEEE 754. -/
def val (b : F32) : ℚ :=
  (if b.neg then -1 else 1) *
    (if b.expo = 0 then (b.mant : ℚ) / 2 ^ 23 * 2 ^ (-126 : ℤ)
     else (1 + (b.mant : ℚ) / 2 ^ 23) * 2 ^ ((b.expo : ℤ) - 127))

/-- Finite pattern: neither infinite nor NaN. -/
def isFinite (b : F32) : Bool := decide (b.magn < 0x7F800000)

theorem trichotomy (b : F32) :
    (b.isNaN = true ∧ b.ltHalf = false ∧ b.eqHalf = false ∧ b.gtHalf = false) ∨
    (b.isNaN = false ∧ b.ltHalf = true ∧ b.eqHalf = false ∧ b.gtHalf = false) ∨
    (b.isNaN = false ∧ b.ltHalf = false ∧ b.eqHalf = true ∧ b.gtHalf = false) ∨
    (b.isNaN = false ∧ b.ltHalf = false ∧ b.eqHalf = false ∧ b.gtHalf = true) := by
  have hb : b.toNat < 2 ^ 32 := b.toNat_lt
  have heq : b = half ↔ b.toNat = 0x3F000000 := by
    constructor
    · rintro rfl; rfl
    · intro h; apply UInt32.toNat.inj; rw [h]; rfl
  by_cases hh : b = half
  · subst hh; decide
  · have hne : b.toNat ≠ 0x3F000000 := fun h => hh (heq.mpr h)
    have he : b.eqHalf = false := by simp [eqHalf, hh]
    rw [he]
    by_cases h1 : 0x7F800000 < b.toNat % 2 ^ 31
    · left
      simp only [isNaN, ltHalf, gtHalf, magn, h1, decide_true]
      simp
    · by_cases h2 : 2 ^ 31 ≤ b.toNat
      · right; left
        simp only [isNaN, ltHalf, gtHalf, magn, neg, h1, h2, decide_true, decide_false]
        simp
      · by_cases h3 : 0x3F000000 < b.toNat % 2 ^ 31
        · have h4 : ¬ (b.toNat % 2 ^ 31 < 0x3F000000) := by omega
          right; right; right
          simp only [isNaN, ltHalf, gtHalf, magn, neg, h1, h2, h3, h4, decide_true, decide_false]
          simp
        · have h4 : b.toNat % 2 ^ 31 < 0x3F000000 := by omega
          right; left
          simp only [isNaN, ltHalf, gtHalf, magn, neg, h1, h2, h3, h4, decide_true, decide_false]
          simp

private theorem two_zpow_le {a b : ℤ} (h : a ≤ b) : (2 : ℚ) ^ a ≤ 2 ^ b :=
  zpow_le_zpow_right₀ (by norm_num) h

private theorem magn_lt (b : F32) : b.magn < 2 ^ 31 := Nat.mod_lt _ (by norm_num)

/-- The absolute value of the number represented. -/
private def absval (b : F32) : ℚ :=
  if b.expo = 0 then (b.mant : ℚ) / 2 ^ 23 * 2 ^ (-126 : ℤ)
  else (1 + (b.mant : ℚ) / 2 ^ 23) * 2 ^ ((b.expo : ℤ) - 127)

private theorem val_eq (b : F32) : b.val = (if b.neg then -1 else 1) * b.absval := rfl

private theorem mant_lt (b : F32) : (b.mant : ℚ) / 2 ^ 23 < 1 := by
  have : b.mant < 2 ^ 23 := Nat.mod_lt _ (by norm_num)
  have h2 : (b.mant : ℚ) < 2 ^ 23 := by exact_mod_cast this
  rw [div_lt_one (by norm_num)]
  exact h2

private theorem mant_nonneg (b : F32) : 0 ≤ (b.mant : ℚ) / 2 ^ 23 := by positivity

private theorem absval_nonneg (b : F32) : 0 ≤ b.absval := by
  unfold absval
  have := mant_nonneg b
  split
  · positivity
  · positivity

private theorem absval_lt_half {b : F32} (h : b.magn < 0x3F000000) : b.absval < 1 / 2 := by
  have he : b.expo < 126 := by unfold expo; omega
  have hm := mant_lt b
  have hm0 := mant_nonneg b
  unfold absval
  split
  · have h1 : (2 : ℚ) ^ (-126 : ℤ) ≤ 2 ^ (-1 : ℤ) := two_zpow_le (by norm_num)
    have h2 : (0 : ℚ) < 2 ^ (-126 : ℤ) := by positivity
    have h3 : (2 : ℚ) ^ (-1 : ℤ) = 1 / 2 := by norm_num
    nlinarith
  · have h1 : (2 : ℚ) ^ ((b.expo : ℤ) - 127) ≤ 2 ^ (-2 : ℤ) := two_zpow_le (by omega)
    have h2 : (0 : ℚ) < 2 ^ ((b.expo : ℤ) - 127) := by positivity
    have h3 : (2 : ℚ) ^ (-2 : ℤ) = 1 / 4 := by norm_num
    rw [h3] at h1
    have h4 := mul_lt_mul_of_pos_right (show 1 + (b.mant : ℚ) / 2 ^ 23 < 2 by linarith) h2
    refine lt_of_lt_of_le h4 ?_
    generalize (2 : ℚ) ^ ((b.expo : ℤ) - 127) = p at *
    linarith

private theorem absval_gt_half {b : F32} (h : 0x3F000000 < b.magn) : 1 / 2 < b.absval := by
  have he : 126 ≤ b.expo := by unfold expo; omega
  have hm0 := mant_nonneg b
  unfold absval
  rw [if_neg (by omega)]
  by_cases he' : b.expo = 126
  · have hmant : 0 < b.mant := by
      unfold expo at he'
      unfold mant
      omega
    have : (0 : ℚ) < (b.mant : ℚ) / 2 ^ 23 := by
      have : (0 : ℚ) < b.mant := by exact_mod_cast hmant
      positivity
    have h3 : (2 : ℚ) ^ ((b.expo : ℤ) - 127) = 1 / 2 := by rw [he']; norm_num
    rw [h3]; linarith
  · have h1 : (2 : ℚ) ^ (0 : ℤ) ≤ 2 ^ ((b.expo : ℤ) - 127) := two_zpow_le (by omega)
    rw [zpow_zero] at h1
    nlinarith

private theorem absval_half {b : F32} (h : b.magn = 0x3F000000) : b.absval = 1 / 2 := by
  have he : b.expo = 126 := by unfold expo; omega
  have hm : b.mant = 0 := by unfold mant; omega
  unfold absval
  rw [he, hm]
  norm_num

/-- On finite patterns the bit-level test is the comparison of values. -/
theorem gtHalf_iff {b : F32} (hf : b.isFinite = true) : b.gtHalf = true ↔ 1 / 2 < b.val := by
  have hfin : b.magn < 0x7F800000 := by simpa [isFinite] using hf
  have hnan : b.isNaN = false := by simp [isNaN]; omega
  rw [val_eq]
  have h0 := absval_nonneg b
  simp only [gtHalf, hnan, Bool.not_false, Bool.true_and, Bool.and_eq_true, Bool.not_eq_true',
    decide_eq_true_eq]
  by_cases hn : b.neg = true
  · simp only [hn, if_true]
    constructor
    · rintro ⟨h, _⟩; cases h
    · intro h; linarith
  · simp only [Bool.not_eq_true] at hn
    simp only [hn, Bool.false_eq_true, if_false, one_mul, true_and]
    constructor
    · exact absval_gt_half
    · intro h
      by_contra hle
      rcases Nat.lt_or_ge b.magn 0x3F000000 with h1 | h1
      · have := absval_lt_half h1; linarith
      · have := absval_half (b := b) (by omega); linarith

theorem ltHalf_iff {b : F32} (hf : b.isFinite = true) : b.ltHalf = true ↔ b.val < 1 / 2 := by
  have hfin : b.magn < 0x7F800000 := by simpa [isFinite] using hf
  have hnan : b.isNaN = false := by simp [isNaN]; omega
  rw [val_eq]
  have h0 := absval_nonneg b
  simp only [ltHalf, hnan, Bool.not_false, Bool.true_and, Bool.or_eq_true, decide_eq_true_eq]
  by_cases hn : b.neg = true
  · simp only [hn, if_true, true_or, true_iff]
    linarith
  · simp only [Bool.not_eq_true] at hn
    simp only [hn, Bool.false_eq_true, if_false, one_mul, false_or]
    constructor
    · exact absval_lt_half
    · intro h
      by_contra hle
      rcases Nat.lt_or_ge 0x3F000000 b.magn with h1 | h1
      · have := absval_gt_half h1; linarith
      · have := absval_half (b := b) (by omega); linarith

theorem eqHalf_iff {b : F32} (hf : b.isFinite = true) : b.eqHalf = true ↔ b.val = 1 / 2 := by
  have h1 := gtHalf_iff hf
  have h2 := ltHalf_iff hf
  have hnan : b.isNaN = false := by
    have : b.magn < 0x7F800000 := by simpa [isFinite] using hf
    simp [isNaN]; omega
  rcases trichotomy b with h | h | h | h
  · rw [hnan] at h; exact absurd h.1 (by decide)
  · rw [h.2.2.1]; constructor
    · intro hh; cases hh
    · intro hv; have := h2.mp h.2.1; linarith
  · rw [h.2.2.1]; constructor
    · intro _
      by_contra hne
      rcases lt_or_gt_of_ne hne with hl | hg
      · have := h2.mpr hl; rw [h.2.1] at this; cases this
      · have := h1.mpr hg; rw [h.2.2.2] at this; cases this
    · intro _; rfl
  · rw [h.2.2.1]; constructor
    · intro hh; cases hh
    · intro hv; have := h1.mp h.2.2.2; linarith

end F32

end Verif
