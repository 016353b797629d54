import Verif.SdfGen
import Mathlib.Data.Int.Log
import Mathlib.Algebra.Order.Floor.Ring
import Mathlib.Algebra.Order.Field.Power
import Mathlib.Tactic.FieldSimp
import Mathlib.Tactic.Linarith
import Mathlib.Tactic.NormNum
import Mathlib.Tactic.Positivity
import Mathlib.Tactic.Ring

/-!
# IEEE 754 round-to-nearest-even

The rounding of `double` operations and of the conversion of `double` to `float` on the platforms of
the library: round to nearest, ties to even, gradual underflow, overflow to infinity.  It is an
instance of the abstract `Rounding` for which signed distance field generation is modelled.
-/

namespace Verif

namespace Ieee

/-- A binary format: precision in bits, smallest and largest exponent of a normal number. -/
structure Format where
  prec : Nat
  emin : Int
  emax : Int

/-- `double` (IEEE 754 binary64). -/
def binary64 : Format := ⟨53, -1022, 1023⟩

/-- `float` (IEEE 754 binary32). -/
def binary32 : Format := ⟨24, -126, 127⟩

/-- The nearest integer, ties to even. -/
noncomputable def nearest (x : ℝ) : ℤ :=
  if Int.fract x < 1 / 2 then ⌊x⌋
  else if 1 / 2 < Int.fract x then ⌊x⌋ + 1
  else if Even ⌊x⌋ then ⌊x⌋ else ⌊x⌋ + 1

/-- The exponent of the unit in the last place at magnitude `x > 0`. -/
noncomputable def quantum (F : Format) (x : ℝ) : ℤ := max (Int.log 2 x) F.emin - (F.prec - 1)

/-- Rounding of a magnitude with unbounded exponent range. -/
noncomputable def magnitude (F : Format) (x : ℝ) : ℝ :=
  nearest (x / 2 ^ quantum F x) * 2 ^ quantum F x

/-- Rounding of a magnitude: results beyond the largest exponent become infinite. -/
noncomputable def roundMag (F : Format) (x : ℝ) : EReal :=
  open Classical in
  if magnitude F x < 2 ^ (F.emax + 1) then (magnitude F x : EReal) else ⊤

/-- Rounding to a format. -/
noncomputable def round (F : Format) : EReal → EReal
  | ⊤ => ⊤
  | ⊥ => ⊥
  | (x : ℝ) => open Classical in if 0 ≤ x then roundMag F x else -roundMag F (-x)

/-! ## Nearest integer -/

theorem nearest_floor (x : ℝ) : ⌊x⌋ ≤ nearest x ∧ nearest x ≤ ⌊x⌋ + 1 := by
  unfold nearest
  split_ifs <;> omega

theorem nearest_int (n : ℤ) : nearest n = n := by
  unfold nearest
  rw [Int.fract_intCast, Int.floor_intCast, if_pos (by norm_num)]

theorem nearest_mono : Monotone nearest := by
  intro x y h
  have hx := nearest_floor x
  have hy := nearest_floor y
  have hf := Int.floor_mono h
  rcases hf.lt_or_eq with hlt | heq
  · omega
  · have hfr : Int.fract x ≤ Int.fract y := by
      unfold Int.fract
      rw [heq]; linarith
    unfold nearest
    rw [heq]
    split_ifs <;> first | omega | (exfalso; linarith)

theorem nearest_error (x : ℝ) : |(nearest x : ℝ) - x| ≤ 1 / 2 := by
  have h := Int.floor_add_fract x
  have h0 := Int.fract_nonneg x
  have h1 := Int.fract_lt_one x
  unfold nearest
  rw [abs_le]
  split_ifs <;> push_cast <;> constructor <;> linarith

/-! ## Magnitudes -/

theorem two_pos' (e : ℤ) : (0 : ℝ) < 2 ^ e := by positivity

theorem two_mono {a b : ℤ} (h : a ≤ b) : (2 : ℝ) ^ a ≤ 2 ^ b :=
  zpow_le_zpow_right₀ (by norm_num) h

theorem two_add (a b : ℤ) : (2 : ℝ) ^ (a + b) = 2 ^ a * 2 ^ b := zpow_add₀ (by norm_num) a b

theorem log_le {x : ℝ} (hx : 0 < x) : (2 : ℝ) ^ Int.log 2 x ≤ x := by
  have := Int.zpow_log_le_self (b := 2) (r := x) (by norm_num) hx
  exact_mod_cast this

theorem lt_log (x : ℝ) : x < (2 : ℝ) ^ (Int.log 2 x + 1) := by
  have := Int.lt_zpow_succ_log_self (b := 2) (by norm_num) x
  exact_mod_cast this

theorem log_lt {x : ℝ} (hx : 0 < x) {e : ℤ} (h : x < 2 ^ e) : Int.log 2 x < e := by
  rw [← Int.lt_zpow_iff_log_lt (b := 2) (by norm_num) hx]
  exact_mod_cast h

theorem magnitude_zero (F : Format) : magnitude F 0 = 0 := by
  unfold magnitude
  have := nearest_int 0
  simp at this
  simp [this]

variable {F : Format}

theorem magnitude_nonneg {x : ℝ} (hx : 0 ≤ x) : 0 ≤ magnitude F x := by
  unfold magnitude
  have h := nearest_mono (div_nonneg hx (two_pos' (quantum F x)).le)
  have h0 := nearest_int 0
  rw [Int.cast_zero] at h0
  rw [h0] at h
  have : (0 : ℝ) ≤ nearest (x / 2 ^ quantum F x) := by exact_mod_cast h
  positivity

theorem lt_top_of_quantum {x : ℝ} : x < 2 ^ (quantum F x + F.prec) := by
  refine lt_of_lt_of_le (lt_log x) (two_mono ?_)
  unfold quantum
  have := le_max_left (Int.log 2 x) F.emin
  omega

/-- The rounded value is at most the next power of two. -/
theorem magnitude_le_pow {x : ℝ} :
    nearest (x / 2 ^ quantum F x) ≤ 2 ^ F.prec := by
  have h : x / 2 ^ quantum F x ≤ ((2 ^ F.prec : ℤ) : ℝ) := by
    rw [div_le_iff₀ (two_pos' _)]
    have := (lt_top_of_quantum (F := F) (x := x)).le
    rw [two_add] at this
    push_cast
    rw [zpow_natCast] at this
    linarith
  have := nearest_mono h
  rwa [nearest_int] at this

theorem magnitude_mono (hp : 1 ≤ F.prec) {x y : ℝ} (hx : 0 ≤ x) (h : x ≤ y) :
    magnitude F x ≤ magnitude F y := by
  rcases hx.eq_or_lt with rfl | hx
  · rw [magnitude_zero]; exact magnitude_nonneg h
  have hy := hx.trans_le h
  have hlog : Int.log 2 x ≤ Int.log 2 y := Int.log_mono_right hx h
  have hq : quantum F x ≤ quantum F y := by
    unfold quantum
    have := max_le_max_right F.emin hlog
    omega
  rcases hq.eq_or_lt with heq | hlt
  · unfold magnitude
    rw [heq]
    have : nearest (x / 2 ^ quantum F y) ≤ nearest (y / 2 ^ quantum F y) :=
      nearest_mono (by gcongr)
    have : (nearest (x / 2 ^ quantum F y) : ℝ) ≤ nearest (y / 2 ^ quantum F y) := by exact_mod_cast this
    gcongr
  · have h1 : magnitude F x ≤ 2 ^ (quantum F x + F.prec) := by
      unfold magnitude
      have := magnitude_le_pow (F := F) (x := x)
      have : (nearest (x / 2 ^ quantum F x) : ℝ) ≤ 2 ^ F.prec := by exact_mod_cast this
      rw [two_add, zpow_natCast, mul_comm]
      gcongr
    have h2 : (2 : ℝ) ^ (quantum F y + (F.prec - 1)) ≤ magnitude F y := by
      have hly : quantum F y + (F.prec - 1) = Int.log 2 y := by
        unfold quantum at hlt ⊢
        have : F.emin < Int.log 2 y := by
          by_contra hc
          rw [max_eq_right (not_lt.mp hc), max_eq_right (hlog.trans (not_lt.mp hc))] at hlt
          omega
        rw [max_eq_left this.le]; omega
      have h3 : ((2 ^ (F.prec - 1) : ℤ) : ℝ) ≤ y / 2 ^ quantum F y := by
        rw [le_div_iff₀ (two_pos' _)]
        have := log_le hy
        rw [← hly, two_add] at this
        have hc : ((F.prec : ℤ) - 1) = ((F.prec - 1 : ℕ) : ℤ) := by omega
        rw [hc, zpow_natCast] at this
        push_cast
        linarith
      have h4 := nearest_mono h3
      rw [nearest_int] at h4
      have h5 : (2 : ℝ) ^ (F.prec - 1) ≤ nearest (y / 2 ^ quantum F y) := by exact_mod_cast h4
      unfold magnitude
      have hc : ((F.prec : ℤ) - 1) = ((F.prec - 1 : ℕ) : ℤ) := by omega
      rw [two_add, hc, zpow_natCast, mul_comm]
      gcongr
    refine h1.trans (le_trans (two_mono ?_) h2)
    omega

/-- Numbers of the format (exponent unbounded above) are not changed. -/
theorem magnitude_exact {n : ℕ} {e : ℤ} (hn : n < 2 ^ F.prec) (he : F.emin - (F.prec - 1) ≤ e) :
    magnitude F (n * 2 ^ e) = n * 2 ^ e := by
  rcases Nat.eq_zero_or_pos n with rfl | hpos
  · simp [magnitude_zero]
  have hx : (0 : ℝ) < n * 2 ^ e := by positivity
  have hlt : (n * 2 ^ e : ℝ) < 2 ^ (F.prec + e) := by
    rw [two_add, zpow_natCast]
    have : (n : ℝ) < 2 ^ F.prec := by exact_mod_cast hn
    gcongr
  have hlog := log_lt hx hlt
  have hq : quantum F (n * 2 ^ e) ≤ e := by
    unfold quantum
    have := max_le (c := e + (F.prec - 1)) (by omega : Int.log 2 (n * 2 ^ e : ℝ) ≤ _)
      (by omega : F.emin ≤ _)
    omega
  obtain ⟨k, hk⟩ := Int.le.dest hq
  unfold magnitude
  have hdiv : (n * 2 ^ e : ℝ) / 2 ^ quantum F (n * 2 ^ e) = ((n * 2 ^ k : ℕ) : ℤ) := by
    rw [div_eq_iff (two_pos' _).ne']
    nth_rewrite 1 [← hk]
    rw [two_add, zpow_natCast]
    push_cast
    ring
  rw [hdiv, nearest_int, ← hdiv, div_mul_cancel₀ _ (two_pos' _).ne']

theorem magnitude_exact' (hp : 1 ≤ F.prec) {n : ℕ} {e : ℤ} (hn : n ≤ 2 ^ F.prec)
    (he : F.emin - (F.prec - 1) ≤ e) : magnitude F (n * 2 ^ e) = n * 2 ^ e := by
  rcases hn.lt_or_eq with h | h
  · exact magnitude_exact h he
  · have hh : (n * 2 ^ e : ℝ) = ((2 ^ (F.prec - 1) : ℕ) : ℝ) * 2 ^ (e + 1) := by
      rw [h, two_add]
      obtain ⟨p, hp'⟩ : ∃ p, F.prec = p + 1 := ⟨F.prec - 1, by omega⟩
      rw [hp']
      push_cast
      rw [pow_succ, zpow_one]
      ring
    rw [hh]
    exact magnitude_exact (Nat.pow_lt_pow_right (by norm_num) (by omega)) (by omega)

theorem magnitude_form {x : ℝ} (hx : 0 ≤ x) :
    ∃ n : ℕ, ∃ e : ℤ, n ≤ 2 ^ F.prec ∧ F.emin - (F.prec - 1) ≤ e ∧ magnitude F x = n * 2 ^ e := by
  have h0 : 0 ≤ nearest (x / 2 ^ quantum F x) := by
    have h := nearest_mono (div_nonneg hx (two_pos' (quantum F x)).le)
    have h0 := nearest_int 0
    rw [Int.cast_zero] at h0
    rwa [h0] at h
  obtain ⟨n, hn⟩ := Int.eq_ofNat_of_zero_le h0
  refine ⟨n, quantum F x, ?_, ?_, ?_⟩
  · have := magnitude_le_pow (F := F) (x := x)
    rw [hn] at this
    exact_mod_cast this
  · unfold quantum
    have := le_max_right (Int.log 2 x) F.emin
    omega
  · unfold magnitude
    rw [hn, Int.cast_natCast]

theorem magnitude_idem (hp : 1 ≤ F.prec) {x : ℝ} (hx : 0 ≤ x) :
    magnitude F (magnitude F x) = magnitude F x := by
  obtain ⟨n, e, h1, h2, h3⟩ := magnitude_form (F := F) hx
  rw [h3]
  exact magnitude_exact' hp h1 h2

/-- Relative error of a normal result. -/
theorem magnitude_error {x : ℝ} (hx : 2 ^ F.emin ≤ x) :
    |magnitude F x - x| ≤ x * 2 ^ (-(F.prec : ℤ)) := by
  have hpos : 0 < x := (two_pos' _).trans_le hx
  have hq : quantum F x = Int.log 2 x - (F.prec - 1) := by
    unfold quantum
    rw [max_eq_left]
    by_contra hc
    have := (lt_log x).trans_le (two_mono (by omega : Int.log 2 x + 1 ≤ F.emin))
    linarith
  have h := nearest_error (x / 2 ^ quantum F x)
  have hu := two_pos' (quantum F x)
  have h1 : magnitude F x - x
      = (nearest (x / 2 ^ quantum F x) - x / 2 ^ quantum F x) * 2 ^ quantum F x := by
    unfold magnitude
    rw [sub_mul, div_mul_cancel₀ _ hu.ne']
  rw [h1, abs_mul, abs_of_pos hu]
  have h2 : (2 : ℝ) ^ quantum F x = 2 * (2 ^ Int.log 2 x * 2 ^ (-(F.prec : ℤ))) := by
    rw [← two_add, hq, ← zpow_one_add₀ (by norm_num : (2 : ℝ) ≠ 0)]
    congr 1; ring
  have h3 := log_le hpos
  have h4 := two_pos' (-(F.prec : ℤ))
  calc |(nearest (x / 2 ^ quantum F x) : ℝ) - x / 2 ^ quantum F x| * 2 ^ quantum F x
      ≤ 1 / 2 * 2 ^ quantum F x := by gcongr
    _ = 2 ^ Int.log 2 x * 2 ^ (-(F.prec : ℤ)) := by rw [h2]; ring
    _ ≤ x * 2 ^ (-(F.prec : ℤ)) := by gcongr

/-! ## Extended reals -/

theorem round_coe (F : Format) {x : ℝ} (hx : 0 ≤ x) : round F (x : EReal) = roundMag F x := by
  classical
  show (if 0 ≤ x then roundMag F x else -roundMag F (-x)) = _
  rw [if_pos hx]

theorem roundMag_nonneg {x : ℝ} (hx : 0 ≤ x) : 0 ≤ roundMag F x := by
  unfold roundMag
  split_ifs
  · exact_mod_cast magnitude_nonneg hx
  · exact le_top

theorem roundMag_zero (F : Format) : roundMag F 0 = 0 := by
  unfold roundMag
  rw [magnitude_zero, if_pos (two_pos' _)]
  rfl

theorem roundMag_mono (hp : 1 ≤ F.prec) {x y : ℝ} (hx : 0 ≤ x) (h : x ≤ y) :
    roundMag F x ≤ roundMag F y := by
  have hm := magnitude_mono (F := F) hp hx h
  unfold roundMag
  split_ifs with h1 h2 h2
  · exact_mod_cast hm
  · exact le_top
  · exact absurd (hm.trans_lt h2) h1
  · exact le_rfl

theorem round_neg (F : Format) (x : EReal) : round F (-x) = -round F x := by
  classical
  induction x with
  | bot => rfl
  | top => rfl
  | coe x =>
    show (if 0 ≤ -x then roundMag F (-x) else -roundMag F (- -x))
      = -(if 0 ≤ x then roundMag F x else -roundMag F (-x))
    rcases lt_trichotomy x 0 with h | rfl | h
    · rw [if_pos (by linarith), if_neg (by linarith), neg_neg]
    · simp [roundMag_zero]
    · rw [if_neg (by linarith), if_pos h.le, neg_neg]

theorem round_mono (hp : 1 ≤ F.prec) : Monotone (round F) := by
  classical
  intro x y h
  induction x with
  | bot => exact bot_le
  | top =>
    rw [top_le_iff] at h
    rw [h]
  | coe x =>
    induction y with
    | bot => simp at h
    | top => exact le_top
    | coe y =>
      have hxy : x ≤ y := by exact_mod_cast h
      show (if 0 ≤ x then roundMag F x else -roundMag F (-x))
        ≤ (if 0 ≤ y then roundMag F y else -roundMag F (-y))
      split_ifs with h1 h2 h2
      · exact roundMag_mono hp h1 hxy
      · exact absurd (h1.trans hxy) h2
      · have h3 : -roundMag F (-x) ≤ 0 := by
          rw [show (0 : EReal) = -0 by simp, EReal.neg_le_neg_iff]
          exact roundMag_nonneg (by linarith)
        exact h3.trans (roundMag_nonneg h2)
      · rw [EReal.neg_le_neg_iff]
        exact roundMag_mono hp (by linarith) (by linarith)

theorem round_idem_nonneg (hp : 1 ≤ F.prec) {x : ℝ} (hx : 0 ≤ x) :
    round F (roundMag F x) = roundMag F x := by
  classical
  by_cases h : magnitude F x < 2 ^ (F.emax + 1)
  · have h1 : roundMag F x = (magnitude F x : EReal) := by unfold roundMag; rw [if_pos h]
    rw [h1, round_coe F (magnitude_nonneg hx)]
    unfold roundMag
    rw [magnitude_idem hp hx, if_pos h]
  · have h1 : roundMag F x = ⊤ := by unfold roundMag; rw [if_neg h]
    rw [h1]; rfl

theorem round_idem (hp : 1 ≤ F.prec) (x : EReal) : round F (round F x) = round F x := by
  induction x with
  | bot => rfl
  | top => rfl
  | coe x =>
    rcases le_total 0 x with h | h
    · rw [round_coe F h, round_idem_nonneg hp h]
    · have h' : 0 ≤ -x := by linarith
      have : round F (x : EReal) = -roundMag F (-x) := by
        rw [← round_coe F h', EReal.coe_neg, round_neg, neg_neg]
      rw [this, round_neg, round_idem_nonneg hp h']

/-- Numbers of the format are not changed. -/
theorem round_exact {n : ℕ} {e : ℤ} (hn : n < 2 ^ F.prec) (he : F.emin - (F.prec - 1) ≤ e)
    (hmax : (n * 2 ^ e : ℝ) < 2 ^ (F.emax + 1)) :
    round F ((n * 2 ^ e : ℝ) : EReal) = ((n * 2 ^ e : ℝ) : EReal) := by
  rw [round_coe F (by positivity)]
  unfold roundMag
  rw [magnitude_exact hn he, if_pos hmax]

/-- A result in the range of normal numbers is finite and has the relative error of the format. -/
theorem round_error {x : ℝ} (hx : 2 ^ F.emin ≤ x) (hmax : x ≤ 2 ^ F.emax) (hp : 1 ≤ F.prec)
    (hF : F.emin ≤ F.emax) :
    ∃ y : ℝ, round F (x : EReal) = (y : EReal) ∧ |y - x| ≤ x * 2 ^ (-(F.prec : ℤ)) ∧ 2 ^ F.emin ≤ y := by
  have hx0 : 0 ≤ x := (two_pos' _).le.trans hx
  have hone : ∀ e : ℤ, F.emin ≤ e → magnitude F (2 ^ e) = 2 ^ e := by
    intro e he
    have h := magnitude_exact (F := F) (n := 1) (e := e) (Nat.one_lt_two_pow (by omega)) (by omega)
    simpa using h
  refine ⟨magnitude F x, ?_, magnitude_error hx, ?_⟩
  · rw [round_coe F hx0]
    unfold roundMag
    rw [if_pos]
    have h := magnitude_mono (F := F) hp hx0 hmax
    rw [hone _ hF] at h
    refine h.trans_lt ?_
    exact zpow_lt_zpow_right₀ (by norm_num) (by omega)
  · have h := magnitude_mono (F := F) hp (two_pos' _).le hx
    rwa [hone _ le_rfl] at h

end Ieee

/-- IEEE 754 arithmetic: `double` operations round to binary64 and the conversion to `float` to
binary32, to nearest with ties to even. -/
noncomputable def ieee : Rounding where
  r64 := Ieee.round Ieee.binary64
  r32 := Ieee.round Ieee.binary32
  mono64 := Ieee.round_mono (by decide)
  mono32 := Ieee.round_mono (by decide)
  idem64 := Ieee.round_idem (by decide)
  odd64 := Ieee.round_neg _
  odd32 := Ieee.round_neg _
  one64 := by
    have h := Ieee.round_exact (F := Ieee.binary64) (n := 1) (e := 0) (by decide) (by decide)
      (by simpa using one_lt_zpow₀ (by norm_num : (1 : ℝ) < 2) (by decide : (0 : ℤ) < Ieee.binary64.emax + 1))
    simpa using h
  top64 := rfl
  top32 := rfl

end Verif
