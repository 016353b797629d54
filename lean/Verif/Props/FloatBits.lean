import Verif.Spec.FloatBits
import Verif.Ieee
import Mathlib.Tactic.IntervalCases

/-!
# C139: `ieee` rounds as IEEE 754 says, and every stored value has a bit pattern
-/

namespace Verif

namespace Ieee

open Spec

theorem nearest_best (t : ℝ) (k : ℤ) : |(nearest t : ℝ) - t| ≤ |(k : ℝ) - t| := by
  have h := nearest_error t
  rcases eq_or_ne k (nearest t) with rfl | hne
  · exact le_rfl
  · have h1 : (1 : ℝ) ≤ |(k : ℝ) - nearest t| := by
      have : 1 ≤ |k - nearest t| := Int.one_le_abs (sub_ne_zero.mpr hne)
      exact_mod_cast this
    have h2 : |(k : ℝ) - nearest t| ≤ |(k : ℝ) - t| + |(nearest t : ℝ) - t| := by
      rw [abs_sub_comm (nearest t : ℝ) t]; exact abs_sub_le _ _ _
    linarith

theorem nearest_tie {t : ℝ} {k : ℤ} (hne : k ≠ nearest t) (h : |(nearest t : ℝ) - t| = |(k : ℝ) - t|) :
    Even (nearest t) := by
  have he := nearest_error t
  have h1 : (1 : ℝ) ≤ |(k : ℝ) - nearest t| := by
    have : 1 ≤ |k - nearest t| := Int.one_le_abs (sub_ne_zero.mpr hne)
    exact_mod_cast this
  have h2 : |(k : ℝ) - nearest t| ≤ |(k : ℝ) - t| + |(nearest t : ℝ) - t| := by
    rw [abs_sub_comm (nearest t : ℝ) t]; exact abs_sub_le _ _ _
  have h3 : |(nearest t : ℝ) - t| = 1 / 2 := by linarith
  have hf := Int.floor_add_fract t
  have h0 := Int.fract_nonneg t
  have h4 := Int.fract_lt_one t
  unfold nearest at h3 ⊢
  split_ifs at h3 ⊢ with a b c
  · rw [show ((⌊t⌋ : ℤ) : ℝ) - t = -Int.fract t by linarith, abs_neg, abs_of_nonneg h0] at h3
    linarith
  · rw [show ((⌊t⌋ + 1 : ℤ) : ℝ) - t = 1 - Int.fract t by push_cast; linarith, abs_of_nonneg (by linarith)] at h3
    linarith
  · exact c
  · exact (Int.not_even_iff_odd.mp c).add_one

variable {F : Format}

/-- The exponent of the smallest positive number. -/
def low (F : Format) : ℤ := F.emin - (F.prec - 1)

/-- No number of the format is closer than the rounded magnitude; in a tie the result is an even multiple of its unit. -/
theorem magnitude_best (hp : 1 ≤ F.prec) {x : ℝ} (hx : 0 ≤ x) {n : ℕ} {e : ℤ} (hn : n < 2 ^ F.prec) (he : low F ≤ e) :
    |magnitude F x - x| ≤ |n * 2 ^ e - x| ∧
      ((n * 2 ^ e : ℝ) ≠ magnitude F x → |magnitude F x - x| = |n * 2 ^ e - x| → Even (nearest (x / 2 ^ quantum F x))) := by
  rcases hx.eq_or_lt with rfl | hx
  · rw [magnitude_zero]
    refine ⟨by rw [sub_zero, abs_zero]; positivity, fun h1 h2 => absurd ?_ h1⟩
    have : |(n * 2 ^ e : ℝ)| = 0 := by simpa using h2.symm
    exact abs_eq_zero.mp this
  set q := quantum F x with hq
  have hq0 := two_pos' q
  have key : ∀ k : ℤ, |(k : ℝ) * 2 ^ q - x| = |(k : ℝ) - x / 2 ^ q| * 2 ^ q := by
    intro k
    rw [← abs_of_pos hq0, ← abs_mul, abs_of_pos hq0, sub_mul, div_mul_cancel₀ _ hq0.ne']
  have hm : magnitude F x = (nearest (x / 2 ^ q) : ℝ) * 2 ^ q := rfl
  rcases le_or_gt q e with hqe | hqe
  · obtain ⟨j, hj⟩ := Int.le.dest hqe
    have hk : (n * 2 ^ e : ℝ) = ((n * 2 ^ j : ℕ) : ℤ) * 2 ^ q := by
      rw [← hj, two_add, zpow_natCast]; push_cast; ring
    rw [hk, hm, key, key]
    constructor
    · exact mul_le_mul_of_nonneg_right (nearest_best _ _) hq0.le
    · intro h1 h2
      refine nearest_tie (k := ((n * 2 ^ j : ℕ) : ℤ)) ?_ (mul_right_cancel₀ hq0.ne' h2)
      rintro h3
      exact h1 (by rw [h3])
  · have hlog : q + (F.prec - 1) = Int.log 2 x := by
      rw [hq] at hqe ⊢
      unfold quantum low at *
      have : F.emin < Int.log 2 x := by
        by_contra hc
        rw [max_eq_right (not_lt.mp hc)] at hqe
        omega
      rw [max_eq_left this.le]; omega
    have hc : ((F.prec : ℤ) - 1) = ((F.prec - 1 : ℕ) : ℤ) := by omega
    have h1 : ((2 ^ (F.prec - 1) : ℤ) : ℝ) * 2 ^ q ≤ x := by
      have := log_le hx
      rw [← hlog, two_add, hc, zpow_natCast] at this
      push_cast
      linarith
    have h2 : (n * 2 ^ e : ℝ) < ((2 ^ (F.prec - 1) : ℤ) : ℝ) * 2 ^ q := by
      have a1 : (n : ℝ) < 2 ^ F.prec := by exact_mod_cast hn
      have a2 : (n * 2 ^ e : ℝ) < 2 ^ F.prec * 2 ^ e := mul_lt_mul_of_pos_right a1 (two_pos' e)
      have a3 : (2 : ℝ) ^ F.prec * 2 ^ e ≤ 2 ^ (F.prec - 1) * 2 ^ q := by
        rw [← zpow_natCast, ← zpow_natCast, ← two_add, ← two_add]
        exact two_mono (by omega)
      push_cast
      linarith
    have h3 : |magnitude F x - x| < |n * 2 ^ e - x| := by
      have a1 : |magnitude F x - x| ≤ |((2 ^ (F.prec - 1) : ℤ) : ℝ) * 2 ^ q - x| := by
        rw [hm, key, key]
        exact mul_le_mul_of_nonneg_right (nearest_best _ _) hq0.le
      rw [abs_of_nonpos (by linarith : ((2 ^ (F.prec - 1) : ℤ) : ℝ) * 2 ^ q - x ≤ 0)] at a1
      rw [abs_of_nonpos (by linarith : (n * 2 ^ e : ℝ) - x ≤ 0)]
      linarith
    exact ⟨h3.le, fun _ h => absurd h h3.ne⟩

/-- Where magnitudes overflow: the middle between the largest number and the next power of two. -/
noncomputable def limit (F : Format) : ℝ := 2 ^ (F.emax + 1) - 2 ^ (F.emax - F.prec)

theorem magnitude_lt_iff (hp : 2 ≤ F.prec) (hF : F.emin ≤ F.emax) {x : ℝ} (hx : 0 ≤ x) :
    magnitude F x < 2 ^ (F.emax + 1) ↔ x < limit F := by
  have hone : ∀ e : ℤ, F.emin ≤ e → magnitude F (2 ^ e) = 2 ^ e := by
    intro e he
    have := magnitude_exact (F := F) (n := 1) (e := e) (Nat.one_lt_two_pow (by omega)) (by omega)
    simpa using this
  have hu : limit F = (2 ^ F.prec - 1 / 2) * 2 ^ (F.emax - (F.prec - 1)) := by
    unfold limit
    rw [sub_mul, ← zpow_natCast, ← two_add]
    congr 1
    · congr 1; omega
    · rw [show F.emax - ((F.prec : ℤ) - 1) = (F.emax - F.prec) + 1 by omega, two_add]; norm_num; ring
  rcases lt_or_ge x (2 ^ F.emax) with h1 | h1
  · have hm := magnitude_mono (F := F) (by omega) hx h1.le
    rw [hone _ hF] at hm
    have h2 : (2 : ℝ) ^ F.emax < 2 ^ (F.emax + 1) := zpow_lt_zpow_right₀ (by norm_num) (by omega)
    have h3 : (2 : ℝ) ^ F.emax ≤ limit F := by
      unfold limit
      have a : (2 : ℝ) ^ (F.emax - F.prec) ≤ 2 ^ F.emax := two_mono (by omega)
      have b : (2 : ℝ) ^ (F.emax + 1) = 2 ^ F.emax * 2 := by rw [two_add]; norm_num
      linarith
    exact ⟨fun _ => by linarith, fun _ => by linarith⟩
  · rcases lt_or_ge x (2 ^ (F.emax + 1)) with h2 | h2
    · have hx' : 0 < x := (two_pos' _).trans_le h1
      have hlog : Int.log 2 x = F.emax := by
        have a := log_lt hx' h2
        have b : F.emax ≤ Int.log 2 x := by
          by_contra hc
          have := lt_log x
          have h3 : (2 : ℝ) ^ (Int.log 2 x + 1) ≤ 2 ^ F.emax := two_mono (by omega)
          linarith
        omega
      have hq : quantum F x = F.emax - (F.prec - 1) := by
        unfold quantum; rw [hlog, max_eq_left hF]
      have hq0 := two_pos' (F.emax - (F.prec - 1))
      set t := x / 2 ^ (F.emax - ((F.prec : ℤ) - 1)) with ht
      have hxt : x = t * 2 ^ (F.emax - ((F.prec : ℤ) - 1)) := by rw [ht, div_mul_cancel₀ _ hq0.ne']
      have htop : (2 : ℝ) ^ (F.emax + 1) = ((2 ^ F.prec : ℤ) : ℝ) * 2 ^ (F.emax - ((F.prec : ℤ) - 1)) := by
        push_cast
        rw [← zpow_natCast, ← two_add]; congr 1; omega
      have hm : magnitude F x = (nearest t : ℝ) * 2 ^ (F.emax - ((F.prec : ℤ) - 1)) := by
        unfold magnitude; rw [hq]
      have e1 : magnitude F x < 2 ^ (F.emax + 1) ↔ nearest t < 2 ^ F.prec := by
        rw [hm, htop, mul_lt_mul_iff_left₀ hq0]; exact_mod_cast Iff.rfl
      have e2 : x < limit F ↔ t < ((2 ^ F.prec : ℤ) : ℝ) - 1 / 2 := by
        rw [hu]
        nth_rewrite 1 [hxt]
        rw [mul_lt_mul_iff_left₀ hq0]; push_cast; exact Iff.rfl
      have htlt : t < ((2 ^ F.prec : ℤ) : ℝ) := by
        rw [hxt, htop] at h2
        exact (mul_lt_mul_iff_left₀ hq0).mp h2
      rw [e1, e2]
      have hfl : ⌊t⌋ ≤ 2 ^ F.prec - 1 := by
        have := Int.floor_lt.mpr htlt
        omega
      have hff := Int.floor_add_fract t
      constructor
      · intro h
        by_contra hc
        push Not at hc
        have a1 : (⌊t⌋ : ℝ) = ((2 ^ F.prec : ℤ) : ℝ) - 1 := by
          have : ⌊t⌋ = 2 ^ F.prec - 1 := by
            have h5 : (((2 ^ F.prec : ℤ) - 1 : ℤ) : ℝ) ≤ t := by push_cast at hc ⊢; linarith
            have := Int.le_floor.mpr h5
            omega
          rw [this]; push_cast; ring
        have a0 : ⌊t⌋ = 2 ^ F.prec - 1 := by exact_mod_cast a1
        have a2 : 1 / 2 ≤ Int.fract t := by push_cast at hc a1; linarith
        unfold nearest at h
        rw [if_neg (not_lt.mpr a2)] at h
        split_ifs at h with b c
        · omega
        · rw [a0] at c
          have : Even ((2 : ℤ) ^ F.prec) := (even_two).pow_of_ne_zero (by omega)
          have := this.sub c
          rw [sub_sub_cancel] at this
          exact absurd this (by decide)
        · omega
      · intro h
        by_contra hc
        push Not at hc
        have h6 := (nearest_floor t).2
        have a0 : ⌊t⌋ = 2 ^ F.prec - 1 := by omega
        have a1 : (⌊t⌋ : ℝ) = ((2 ^ F.prec : ℤ) : ℝ) - 1 := by rw [a0]; push_cast; ring
        have a2 : Int.fract t < 1 / 2 := by push_cast at h a1; linarith
        unfold nearest at hc
        rw [if_pos a2] at hc
        omega
    · have hm := magnitude_mono (F := F) (by omega) (two_pos' _).le h2
      rw [hone _ (by omega)] at hm
      have h3 : limit F < 2 ^ (F.emax + 1) := by
        unfold limit
        have := two_pos' (F.emax - F.prec)
        linarith
      exact ⟨fun h => by linarith, fun h => by linarith⟩

/-! ## Patterns -/

/-- The number of a pattern without sign. -/
noncomputable def patt (F : Format) (k : ℕ) : ℝ :=
  if k / 2 ^ (F.prec - 1) = 0 then (k % 2 ^ (F.prec - 1) : ℕ) * 2 ^ low F
  else ((2 ^ (F.prec - 1) + k % 2 ^ (F.prec - 1) : ℕ) : ℝ) * 2 ^ (((k / 2 ^ (F.prec - 1) : ℕ) : ℤ) - 1 + low F)

/-- The pattern of infinity. -/
def infBits (F : Format) : ℕ := (F.emax - F.emin + 2).toNat * 2 ^ (F.prec - 1)

theorem pow_pred (hp : 2 ≤ F.prec) : 2 ^ F.prec = 2 * 2 ^ (F.prec - 1) := by
  rw [← pow_succ']; congr 1; omega

theorem even_pow_pred (hp : 2 ≤ F.prec) : ∃ j, 2 ^ (F.prec - 1) = 2 * j :=
  ⟨2 ^ (F.prec - 2), by rw [← pow_succ']; congr 1; omega⟩

theorem patt_form (hp : 2 ≤ F.prec) (hF : F.emin ≤ F.emax) (k : ℕ) :
    ∃ (n : ℕ) (e : ℤ), n < 2 ^ F.prec ∧ low F ≤ e ∧ (2 ^ (F.prec - 1) ≤ n ∨ e = low F) ∧ n % 2 = k % 2 ∧
      patt F k = n * 2 ^ e ∧ (k < infBits F → patt F k < 2 ^ (F.emax + 1)) ∧
      k = (e - low F).toNat * 2 ^ (F.prec - 1) + n := by
  have h2 := pow_pred hp
  obtain ⟨j, hj⟩ := even_pow_pred hp
  set P := 2 ^ (F.prec - 1) with hP
  have hP0 : 0 < P := by positivity
  have hr := Nat.mod_lt k hP0
  have hdm := Nat.div_add_mod k P
  have hlt : ∀ (n : ℕ) (e : ℤ), n < 2 ^ F.prec → e ≤ F.emax - (F.prec - 1) → (n * 2 ^ e : ℝ) < 2 ^ (F.emax + 1) := by
    intro n e hn he
    have a1 : (n : ℝ) < 2 ^ F.prec := by exact_mod_cast hn
    have a2 : (n * 2 ^ e : ℝ) < 2 ^ F.prec * 2 ^ e := mul_lt_mul_of_pos_right a1 (two_pos' e)
    rw [← zpow_natCast, ← two_add] at a2
    exact a2.trans_le (two_mono (by omega))
  have hpar : k % P % 2 = k % 2 := by
    rw [hj]; exact Nat.mod_mul_right_mod k 2 j
  unfold patt
  rw [← hP]
  split_ifs with h
  · refine ⟨k % P, low F, by omega, le_rfl, Or.inr rfl, hpar, rfl, fun _ => hlt _ _ (by omega) (by unfold low; omega), ?_⟩
    rw [h, mul_zero, zero_add] at hdm
    rw [sub_self, Int.toNat_zero, zero_mul, zero_add, hdm]
  · refine ⟨P + k % P, _, by omega, ?_, Or.inl (by omega), by omega, rfl, fun hk => hlt _ _ (by omega) ?_, ?_⟩
    · have : 1 ≤ k / P := Nat.pos_of_ne_zero h
      omega
    · unfold infBits at hk
      have : k / P < (F.emax - F.emin + 2).toNat := Nat.div_lt_of_lt_mul (by rw [mul_comm]; exact hk)
      unfold low
      omega
    · have h3 : 1 ≤ k / P := Nat.pos_of_ne_zero h
      have h4 : (((k / P : ℕ) : ℤ) - 1 + low F - low F).toNat = k / P - 1 := by omega
      obtain ⟨m, hm⟩ := Nat.exists_eq_add_of_le h3
      rw [h4, hm, Nat.add_sub_cancel_left]
      rw [hm] at hdm
      nth_rewrite 1 [← hdm]
      ring

theorem patt_of (hp : 2 ≤ F.prec) {n : ℕ} {e : ℤ} (hn : n < 2 ^ F.prec) (he : low F ≤ e)
    (h : 2 ^ (F.prec - 1) ≤ n ∨ e = low F) :
    patt F ((e - low F).toNat * 2 ^ (F.prec - 1) + n) = n * 2 ^ e ∧
      ((n * 2 ^ e : ℝ) < 2 ^ (F.emax + 1) → F.emin ≤ F.emax →
        (e - low F).toNat * 2 ^ (F.prec - 1) + n < infBits F) := by
  have h2 := pow_pred hp
  constructor
  · set P := 2 ^ (F.prec - 1) with hP
    have hP0 : 0 < P := by positivity
    unfold patt
    rw [← hP]
    rcases lt_or_ge n P with h3 | h3
    · have he' : e = low F := by rcases h with h | h <;> omega
      subst he'
      rw [sub_self, Int.toNat_zero, zero_mul, zero_add, Nat.div_eq_of_lt h3, if_pos rfl, Nat.mod_eq_of_lt h3]
    · have e1 : (e - low F).toNat * P + n = ((e - low F).toNat + 1) * P + (n - P) := by
        rw [add_mul, one_mul]; omega
      have e2 : ((e - low F).toNat * P + n) / P = (e - low F).toNat + 1 := by
        rw [e1, Nat.add_comm, Nat.add_mul_div_right _ _ hP0, Nat.div_eq_of_lt (by omega), zero_add]
      have e3 : ((e - low F).toNat * P + n) % P = n - P := by
        rw [e1, Nat.add_comm, Nat.add_mul_mod_self_right, Nat.mod_eq_of_lt (by omega)]
      rw [e2, e3, if_neg (by omega)]
      congr 2
      · congr 1; omega
      · push_cast; omega
  · intro hlt hF
    have key : e ≤ F.emax - (F.prec - 1) := by
      rcases h with h | h
      · have a1 : (2 : ℝ) ^ (F.prec - 1) * 2 ^ e ≤ n * 2 ^ e :=
          mul_le_mul_of_nonneg_right (by exact_mod_cast h) (two_pos' e).le
        have a2 := a1.trans_lt hlt
        rw [← zpow_natCast, ← two_add] at a2
        have := (zpow_lt_zpow_iff_right₀ (by norm_num : (1 : ℝ) < 2)).mp a2
        omega
      · rw [h]; unfold low; omega
    unfold infBits
    have h3 : (e - low F).toNat + 2 ≤ (F.emax - F.emin + 2).toNat := by unfold low at *; omega
    calc (e - low F).toNat * 2 ^ (F.prec - 1) + n < (e - low F).toNat * 2 ^ (F.prec - 1) + 2 * 2 ^ (F.prec - 1) := by
          omega
      _ = ((e - low F).toNat + 2) * 2 ^ (F.prec - 1) := by ring
      _ ≤ _ := Nat.mul_le_mul_right _ h3

theorem normalize (hp : 2 ≤ F.prec) : ∀ (j n : ℕ) (e : ℤ), n ≤ 2 ^ F.prec → e = low F + j →
    ∃ (n' : ℕ) (e' : ℤ), n' < 2 ^ F.prec ∧ low F ≤ e' ∧ (2 ^ (F.prec - 1) ≤ n' ∨ e' = low F) ∧
      (n * 2 ^ e : ℝ) = n' * 2 ^ e' := by
  have h2 := pow_pred hp
  have hpos : 0 < 2 ^ (F.prec - 1) := by positivity
  have htop : ∀ e : ℤ, ((2 ^ F.prec : ℕ) * 2 ^ e : ℝ) = ((2 ^ (F.prec - 1) : ℕ) : ℝ) * 2 ^ (e + 1) := by
    intro e
    rw [h2, two_add, zpow_one]; push_cast; ring
  intro j
  induction j with
  | zero =>
    intro n e hn he
    rcases hn.lt_or_eq with h | h
    · exact ⟨n, e, h, by omega, Or.inr (by simpa using he), rfl⟩
    · exact ⟨2 ^ (F.prec - 1), e + 1, by omega, by omega, Or.inl le_rfl, by rw [h, htop]⟩
  | succ j ih =>
    intro n e hn he
    rcases hn.lt_or_eq with h | h
    · rcases le_or_gt (2 ^ (F.prec - 1)) n with h3 | h3
      · exact ⟨n, e, h, by omega, Or.inl h3, rfl⟩
      · obtain ⟨n', e', a, b, c, d⟩ := ih (2 * n) (e - 1) (by omega) (by push_cast at he; omega)
        refine ⟨n', e', a, b, c, ?_⟩
        rw [← d, show e = (e - 1) + 1 by omega, two_add, zpow_one, add_sub_cancel_right]
        push_cast; ring
    · exact ⟨2 ^ (F.prec - 1), e + 1, by omega, by omega, Or.inl le_rfl, by rw [h, htop]⟩

/-- Every rounded magnitude that does not overflow has a pattern. -/
theorem magnitude_patt (hp : 2 ≤ F.prec) (hF : F.emin ≤ F.emax) {x : ℝ} (hx : 0 ≤ x)
    (h : magnitude F x < 2 ^ (F.emax + 1)) : ∃ k, k < infBits F ∧ patt F k = magnitude F x := by
  obtain ⟨n, e, h1, h2, h3⟩ := magnitude_form (F := F) hx
  obtain ⟨n', e', a, b, c, d⟩ := normalize hp (e - low F).toNat n e h1 (by unfold low; omega)
  obtain ⟨p1, p2⟩ := patt_of hp a b c
  rw [h3, d] at h
  exact ⟨_, p2 h hF, by rw [p1, h3, d]⟩

/-- A number that is an even multiple of a unit has an even pattern. -/
theorem patt_even (hp : 2 ≤ F.prec) (hF : F.emin ≤ F.emax) {k N : ℕ} {q : ℤ} (hN : N ≤ 2 ^ F.prec) (hq : low F ≤ q)
    (he : Even N) (h : patt F k = N * 2 ^ q) : k % 2 = 0 := by
  obtain ⟨n, e, h1, h2, h3, h4, h5, -⟩ := patt_form hp hF k
  rw [← h4]
  rw [h5] at h
  by_contra hodd
  rcases le_or_gt q e with hqe | hqe
  · obtain ⟨j, hj⟩ := Int.le.dest hqe
    have e1 : n * 2 ^ j = N := by
      rw [← hj, two_add, zpow_natCast] at h
      have : (n * 2 ^ j : ℝ) * 2 ^ q = N * 2 ^ q := by rw [← h]; ring
      exact_mod_cast mul_right_cancel₀ (two_pos' q).ne' this
    rcases Nat.eq_zero_or_pos j with rfl | hj0
    · rw [pow_zero, mul_one] at e1
      subst e1
      obtain ⟨r, hr⟩ := he
      omega
    · have h6 : 2 ^ (F.prec - 1) ≤ n := by rcases h3 with h | h <;> omega
      obtain ⟨i, hi⟩ := even_pow_pred hp
      have h7 := pow_pred hp
      have h8 : n * 2 ≤ N := by
        rw [← e1]
        exact Nat.mul_le_mul_left n (by
          calc 2 = 2 ^ 1 := rfl
            _ ≤ 2 ^ j := Nat.pow_le_pow_right (by norm_num) hj0)
      omega
  · obtain ⟨j, hj⟩ := Int.le.dest hqe.le
    have e1 : n = N * 2 ^ j := by
      rw [← hj, two_add, zpow_natCast] at h
      have : (n : ℝ) * 2 ^ e = (N * 2 ^ j) * 2 ^ e := by rw [h]; ring
      exact_mod_cast mul_right_cancel₀ (two_pos' e).ne' this
    obtain ⟨r, hr⟩ := he
    rw [e1, hr, ← two_mul, mul_assoc, Nat.mul_mod_right] at hodd
    exact hodd rfl

/-- The value of a sign and a pattern. -/
noncomputable def signed (F : Format) (s : Bool) (k : ℕ) : FVal :=
  if k < infBits F then some (((if s then -1 else 1) * patt F k : ℝ) : EReal)
  else if k = infBits F then some (if s then ⊥ else ⊤) else none

theorem signed_finite {s : Bool} {k : ℕ} {y : ℝ} (h : signed F s k = some (y : EReal)) :
    k < infBits F ∧ y = (if s then -1 else 1) * patt F k := by
  unfold signed at h
  split_ifs at h with h1 h2 h3
  all_goals simp_all
  all_goals exact_mod_cast h.symm

theorem round_finite {x y : ℝ} (h : round F (x : EReal) = (y : EReal)) :
    (0 ≤ x ∧ y = magnitude F x) ∨ (x < 0 ∧ y = -magnitude F (-x)) := by
  rcases le_or_gt 0 x with hx | hx
  · left
    rw [round_coe F hx] at h
    unfold roundMag at h
    split_ifs at h
    · exact ⟨hx, by exact_mod_cast h.symm⟩
    · exact absurd h.symm (EReal.coe_ne_top y)
  · right
    have h' : round F ((-x : ℝ) : EReal) = ((-y : ℝ) : EReal) := by
      rw [EReal.coe_neg, round_neg, h, EReal.coe_neg]
    rw [round_coe F (by linarith)] at h'
    unfold roundMag at h'
    split_ifs at h'
    · have : magnitude F (-x) = -y := by exact_mod_cast h'
      exact ⟨hx, by linarith⟩
    · exact absurd h'.symm (EReal.coe_ne_top _)

theorem best_signed (hp : 2 ≤ F.prec) {x : ℝ} (hx : 0 ≤ x) {n : ℕ} {e : ℤ} (hn : n < 2 ^ F.prec) (he : low F ≤ e) (s : Bool)
    {q : ℝ} (hq : q = (if s then -1 else 1) * (n * 2 ^ e)) :
    |magnitude F x - x| ≤ |q - x| ∧
      (q ≠ magnitude F x → |magnitude F x - x| = |q - x| → Even (nearest (x / 2 ^ quantum F x))) := by
  have h1 := magnitude_best (F := F) (by omega) hx hn he
  cases s with
  | false => simp only [Bool.false_eq_true, if_false, one_mul] at hq; rw [hq]; exact h1
  | true =>
    simp only [if_true] at hq
    rcases Nat.eq_zero_or_pos n with rfl | hn0
    · have : q = ((0 : ℕ) : ℝ) * 2 ^ e := by rw [hq]; simp
      rw [this]; exact h1
    · have h2 := (magnitude_best (F := F) (x := x) (by omega) hx (n := 0) (by positivity) (le_refl (low F))).1
      simp only [Nat.cast_zero, zero_mul, zero_sub, abs_neg, abs_of_nonneg hx] at h2
      have h3 : (0 : ℝ) < n * 2 ^ e := by
        have : (0 : ℝ) < n := by exact_mod_cast hn0
        exact mul_pos this (two_pos' e)
      have h4 : |q - x| = n * 2 ^ e + x := by
        rw [hq, abs_of_nonpos (by linarith)]; ring
      rw [h4]
      exact ⟨by linarith, fun _ h => absurd h (by linarith)⟩

theorem rounds {α : Type} {value : α → FVal} {bits mag : α → ℕ} {sgn : α → Bool} (hp : 2 ≤ F.prec) (hF : F.emin ≤ F.emax)
    (hval : ∀ a, value a = signed F (sgn a) (mag a)) (hsur : ∀ s k, k ≤ infBits F → ∃ a, sgn a = s ∧ mag a = k)
    (hbit : ∀ a, bits a % 2 = mag a % 2) : RoundsToNearest value bits (limit F) (round F) := by
  have hnear : ∀ (x y q : ℝ) (b : α), round F x = (y : EReal) → value b = some (q : EReal) →
      |y - x| ≤ |q - x| ∧ ∀ b', value b' = some (y : EReal) → q ≠ y → |y - x| = |q - x| → bits b' % 2 = 0 := by
    intro x y q b hr hb
    rw [hval] at hb
    obtain ⟨-, hq⟩ := signed_finite hb
    obtain ⟨n, e, h1, h2, -, -, h5, -⟩ := patt_form hp hF (mag b)
    rw [h5] at hq
    have hev : ∀ x' : ℝ, 0 ≤ x' → |y| = magnitude F x' → Even (nearest (x' / 2 ^ quantum F x')) →
        ∀ b', value b' = some (y : EReal) → bits b' % 2 = 0 := by
      intro x' hx' hy hE b' hb'
      rw [hval] at hb'
      obtain ⟨-, hy'⟩ := signed_finite hb'
      have hpy : patt F (mag b') = |y| := by
        obtain ⟨n', e', -, -, -, -, h6, -⟩ := patt_form hp hF (mag b')
        have : 0 ≤ patt F (mag b') := by rw [h6]; positivity
        rw [hy', abs_mul, abs_of_nonneg this]
        cases sgn b' <;> simp
      have h0 : 0 ≤ nearest (x' / 2 ^ quantum F x') := by
        have h := nearest_mono (div_nonneg hx' (two_pos' (quantum F x')).le)
        have h0 := nearest_int 0
        rw [Int.cast_zero] at h0
        rwa [h0] at h
      obtain ⟨N, hN⟩ := Int.eq_ofNat_of_zero_le h0
      rw [hbit]
      refine patt_even hp hF (N := N) (q := quantum F x') ?_ ?_ ?_ ?_
      · have := magnitude_le_pow (F := F) (x := x')
        rw [hN] at this
        exact_mod_cast this
      · unfold quantum low
        have := le_max_right (Int.log 2 x') F.emin
        omega
      · rw [hN] at hE; exact_mod_cast hE
      · rw [hpy, hy]
        unfold magnitude
        rw [hN, Int.cast_natCast]
    rcases round_finite hr with ⟨hx, hy⟩ | ⟨hx, hy⟩
    · obtain ⟨a1, a2⟩ := best_signed hp hx h1 h2 (sgn b) hq
      rw [← hy] at a1 a2
      exact ⟨a1, fun b' hb' hne htie => hev x hx (by rw [hy, abs_of_nonneg (magnitude_nonneg hx)]) (a2 hne htie) b' hb'⟩
    · have hx' : 0 ≤ -x := by linarith
      have hy' : magnitude F (-x) = -y := by linarith
      obtain ⟨a1, a2⟩ := best_signed hp hx' h1 h2 (!sgn b) (q := -q) (by rw [hq]; cases sgn b <;> simp)
      rw [hy', show -y - -x = -(y - x) by ring, show -q - -x = -(q - x) by ring, abs_neg, abs_neg] at a1 a2
      refine ⟨a1, fun b' hb' hne htie => hev (-x) hx' ?_ (a2 (fun h => hne (by linarith)) htie) b' hb'⟩
      rw [hy, abs_neg, abs_of_nonneg (magnitude_nonneg hx')]
  have htop : ∀ x : ℝ, 0 ≤ x → (round F x = ⊤ ↔ limit F ≤ x) := by
    intro x hx
    rw [round_coe F hx]
    unfold roundMag
    have := magnitude_lt_iff hp hF hx
    split_ifs with h
    · constructor
      · intro h'; exact absurd h' (EReal.coe_ne_top _)
      · intro h'; linarith [this.mp h]
    · exact ⟨fun _ => not_lt.mp (fun h' => h (this.mpr h')), fun _ => rfl⟩
  have hlim : 0 < limit F := by
    unfold limit
    have : (2 : ℝ) ^ (F.emax - F.prec) < 2 ^ (F.emax + 1) := zpow_lt_zpow_right₀ (by norm_num) (by omega)
    linarith
  have hnt : ∀ x : ℝ, x ≤ 0 → round F x ≠ ⊤ := by
    intro x hx h
    have h1 := round_mono (F := F) (by omega) (EReal.coe_le_coe_iff.mpr hx)
    rw [h, EReal.coe_zero, ← EReal.coe_zero, round_coe F le_rfl, roundMag_zero] at h1
    simp at h1
  have htop' : ∀ x : ℝ, round F x = ⊤ ↔ limit F ≤ x := by
    intro x
    rcases le_or_gt 0 x with hx | hx
    · exact htop x hx
    · exact ⟨fun h => absurd h (hnt x hx.le), fun h => by linarith⟩
  refine ⟨?_, ?_, fun x y q b h1 h2 => (hnear x y q b h1 h2).1,
    fun x y q b b' h1 h2 h3 h4 h5 => (hnear x y q b' h1 h3).2 b h2 h4 h5, ?_, rfl, rfl⟩
  · have hinf : ∀ s : Bool, ∃ b, value b = some (if s then ⊥ else ⊤) := by
      intro s
      obtain ⟨a, h1, h2⟩ := hsur s _ le_rfl
      refine ⟨a, ?_⟩
      rw [hval, h1, h2]
      unfold signed
      rw [if_neg (lt_irrefl _), if_pos rfl]
    have hpos : ∀ (s : Bool) (x : ℝ), 0 ≤ x → ∃ b, value b = some (if s then -roundMag F x else roundMag F x) := by
      intro s x hx
      unfold roundMag
      split_ifs with h1 h2 h2
      · obtain ⟨k, hk, e⟩ := magnitude_patt hp hF hx h2
        obtain ⟨a, h3, h4⟩ := hsur s k hk.le
        refine ⟨a, ?_⟩
        rw [hval, h3, h4]
        unfold signed
        rw [if_pos hk, e, h1]
        simp
      · obtain ⟨b, hb⟩ := hinf s
        rw [if_pos h1] at hb
        exact ⟨b, hb⟩
      · obtain ⟨k, hk, e⟩ := magnitude_patt hp hF hx h2
        obtain ⟨a, h3, h4⟩ := hsur s k hk.le
        refine ⟨a, ?_⟩
        rw [hval, h3, h4]
        unfold signed
        rw [if_pos hk, e, if_neg h1]
        simp
      · obtain ⟨b, hb⟩ := hinf s
        rw [if_neg h1] at hb
        exact ⟨b, hb⟩
    intro x
    induction x with
    | bot => exact hinf true
    | top => exact hinf false
    | coe x =>
      rcases le_or_gt 0 x with hx | hx
      · rw [round_coe F hx]; exact hpos false x hx
      · have h' : 0 ≤ -x := by linarith
        have : round F (x : EReal) = -roundMag F (-x) := by
          rw [← round_coe F h', EReal.coe_neg, round_neg, neg_neg]
        rw [this]; exact hpos true _ h'
  · intro b x hb
    rw [hval] at hb
    unfold signed at hb
    by_cases h1 : mag b < infBits F
    · rw [if_pos h1] at hb
      obtain ⟨n, e, a1, a2, -, -, a5, a6⟩ := patt_form hp hF (mag b)
      have a7 := a6.1 h1
      rw [a5] at a7
      have hr := round_exact a1 a2 a7
      rw [← Option.some.inj hb, a5]
      cases sgn b
      · simpa using hr
      · simp only [if_true, neg_one_mul]
        rw [EReal.coe_neg, round_neg, hr]
    · rw [if_neg h1] at hb
      by_cases h2 : mag b = infBits F
      · rw [if_pos h2] at hb
        rw [← Option.some.inj hb]
        cases sgn b <;> rfl
      · simp [h2] at hb
  · intro x
    refine ⟨htop' x, ?_⟩
    have := htop' (-x)
    rw [EReal.coe_neg, round_neg, EReal.neg_eq_top_iff] at this
    rw [this]
    constructor <;> intro h <;> linarith

theorem form_inj (hp : 2 ≤ F.prec) {n n' : ℕ} {e e' : ℤ} (hn : n < 2 ^ F.prec) (hn' : n' < 2 ^ F.prec) (he : low F ≤ e)
    (he' : low F ≤ e') (h : 2 ^ (F.prec - 1) ≤ n ∨ e = low F) (h' : 2 ^ (F.prec - 1) ≤ n' ∨ e' = low F)
    (heq : (n * 2 ^ e : ℝ) = n' * 2 ^ e') (hle : e ≤ e') : n = n' ∧ e = e' := by
  obtain ⟨j, hj⟩ := Int.le.dest hle
  have e1 : n = n' * 2 ^ j := by
    rw [← hj, two_add, zpow_natCast] at heq
    have : (n : ℝ) * 2 ^ e = (n' * 2 ^ j) * 2 ^ e := by rw [heq]; ring
    exact_mod_cast mul_right_cancel₀ (two_pos' e).ne' this
  rcases Nat.eq_zero_or_pos j with rfl | hj0
  · exact ⟨by simpa using e1, by simpa using hj⟩
  · exfalso
    have h2 := pow_pred hp
    have h3 : 2 ^ (F.prec - 1) ≤ n' := by rcases h' with h' | h' <;> omega
    have h4 : n' * 2 ≤ n := by
      rw [e1]
      exact Nat.mul_le_mul_left n' (by
        calc 2 = 2 ^ 1 := rfl
          _ ≤ 2 ^ j := Nat.pow_le_pow_right (by norm_num) hj0)
    omega

theorem patt_inj (hp : 2 ≤ F.prec) (hF : F.emin ≤ F.emax) {k k' : ℕ} (h : patt F k = patt F k') : k = k' := by
  obtain ⟨n, e, a1, a2, a3, -, a5, -, a7⟩ := patt_form hp hF k
  obtain ⟨n', e', b1, b2, b3, -, b5, -, b7⟩ := patt_form hp hF k'
  rw [a5, b5] at h
  rcases le_total e e' with hle | hle
  · obtain ⟨rfl, rfl⟩ := form_inj hp a1 b1 a2 b2 a3 b3 h hle
    rw [a7, b7]
  · obtain ⟨rfl, rfl⟩ := form_inj hp b1 a1 b2 a2 b3 a3 h.symm hle
    rw [a7, b7]

/-- The bits are determined by the value, except for the two zeros (and NaN). -/
theorem signed_inj (hp : 2 ≤ F.prec) (hF : F.emin ≤ F.emax) {s s' : Bool} {k k' : ℕ} {x : EReal} (hx : x ≠ 0)
    (h : signed F s k = some x) (h' : signed F s' k' = some x) : s = s' ∧ k = k' := by
  have hnn : ∀ k, 0 ≤ patt F k := by
    intro k
    obtain ⟨n, e, -, -, -, -, h5, -⟩ := patt_form hp hF k
    rw [h5]; positivity
  have hinf : ∀ (s : Bool) (k : ℕ) (y : EReal), (y = ⊤ ∨ y = ⊥) → signed F s k = some y →
      k = infBits F ∧ y = if s then ⊥ else ⊤ := by
    intro s k y hy hs
    unfold signed at hs
    by_cases h1 : k < infBits F
    · rw [if_pos h1] at hs
      have := Option.some.inj hs
      rcases hy with rfl | rfl
      · exact absurd this (EReal.coe_ne_top _)
      · exact absurd this (EReal.coe_ne_bot _)
    · rw [if_neg h1] at hs
      by_cases h2 : k = infBits F
      · rw [if_pos h2] at hs
        exact ⟨h2, (Option.some.inj hs).symm⟩
      · simp [h2] at hs
  induction x with
  | top =>
    obtain ⟨a1, a2⟩ := hinf s k ⊤ (Or.inl rfl) h
    obtain ⟨b1, b2⟩ := hinf s' k' ⊤ (Or.inl rfl) h'
    refine ⟨?_, a1.trans b1.symm⟩
    cases s <;> cases s' <;> simp at a2 b2 ⊢
  | bot =>
    obtain ⟨a1, a2⟩ := hinf s k ⊥ (Or.inr rfl) h
    obtain ⟨b1, b2⟩ := hinf s' k' ⊥ (Or.inr rfl) h'
    refine ⟨?_, a1.trans b1.symm⟩
    cases s <;> cases s' <;> simp at a2 b2 ⊢
  | coe x =>
    have hx0 : x ≠ 0 := fun h0 => hx (by rw [h0]; rfl)
    obtain ⟨-, a⟩ := signed_finite h
    obtain ⟨-, b⟩ := signed_finite h'
    have p1 := hnn k
    have p2 := hnn k'
    cases s <;> cases s' <;> simp only [if_true, Bool.false_eq_true, if_false] at a b
    · exact ⟨rfl, patt_inj hp hF (by linarith)⟩
    · exact absurd (by linarith : x = 0) hx0
    · exact absurd (by linarith : x = 0) hx0
    · exact ⟨rfl, patt_inj hp hF (by linarith)⟩

end Ieee

namespace Spec

open Ieee

theorem infBits32 : infBits binary32 = 0x7F800000 := by decide
theorem infBits64 : infBits binary64 = 0x7FF0000000000000 := by decide

theorem floatValue_eq (b : UInt32) : floatValue b =
    if F32.isNaN b then none
    else if F32.isFinite b then some (((F32.val b : ℚ) : ℝ) : EReal)
    else if F32.neg b then some ⊥ else some ⊤ := by
  have hb : b.toNat < 2 ^ 32 := b.toNat_lt
  have e1 : b.toNat / 2 ^ 23 % 2 ^ 8 = F32.expo b := by unfold F32.expo F32.magn; omega
  have e2 : b.toNat % 2 ^ 23 = F32.mant b := by unfold F32.mant F32.magn; omega
  have e3 : F32.isNaN b = true ↔ F32.expo b = 255 ∧ F32.mant b ≠ 0 := by
    unfold F32.isNaN F32.expo F32.mant F32.magn; rw [decide_eq_true_eq]; omega
  have e4 : F32.isFinite b = true ↔ F32.expo b ≠ 255 := by
    unfold F32.isFinite F32.expo F32.magn; rw [decide_eq_true_eq]; omega
  have e5 : F32.neg b = true ↔ 2 ^ 31 ≤ b.toNat := by unfold F32.neg; rw [decide_eq_true_eq]
  unfold floatValue
  simp only [e1, e2]
  by_cases h1 : F32.expo b = 255
  · have hf : ¬ F32.isFinite b = true := by rw [e4]; simpa using h1
    rw [if_pos h1]
    by_cases h2 : F32.mant b = 0
    · have hn : ¬ F32.isNaN b = true := by rw [e3]; tauto
      rw [if_pos h2, if_neg hn, if_neg hf]
      simp only [e5]
    · rw [if_neg h2, if_pos (e3.mpr ⟨h1, h2⟩)]
  · have hn : ¬ F32.isNaN b = true := by rw [e3]; tauto
    rw [if_neg h1, if_neg hn, if_pos (e4.mpr h1)]
    unfold F32.val
    by_cases h0 : F32.expo b = 0
    · rw [if_pos h0, if_pos h0]
      by_cases hs : 2 ^ 31 ≤ b.toNat
      · rw [if_pos hs, if_pos (e5.mpr hs)]; push_cast; rfl
      · rw [if_neg hs, if_neg (fun h => hs (e5.mp h))]; push_cast; rfl
    · rw [if_neg h0, if_neg h0]
      by_cases hs : 2 ^ 31 ≤ b.toNat
      · rw [if_pos hs, if_pos (e5.mpr hs)]; push_cast; rfl
      · rw [if_neg hs, if_neg (fun h => hs (e5.mp h))]; push_cast; rfl

theorem floatValue_signed (b : UInt32) : floatValue b = signed binary32 (F32.neg b) (F32.magn b) := by
  rw [floatValue_eq]
  unfold signed
  rw [infBits32]
  by_cases h1 : F32.magn b < 0x7F800000
  · have h2 : F32.isNaN b = false := by simp only [F32.isNaN, decide_eq_false_iff_not]; omega
    have h3 : F32.isFinite b = true := by simp only [F32.isFinite, decide_eq_true_eq]; exact h1
    rw [h2, h3, if_pos h1, if_neg (by decide), if_pos rfl]
    have : ((F32.val b : ℚ) : ℝ) = (if F32.neg b = true then -1 else 1) * patt binary32 (F32.magn b) := by
      unfold F32.val patt
      have e1 : F32.magn b / 2 ^ (binary32.prec - 1) = F32.expo b := rfl
      have e2 : F32.magn b % 2 ^ (binary32.prec - 1) = F32.mant b := rfl
      have e3 : low binary32 = -149 := by decide
      rw [e1, e2, e3]
      push_cast
      congr 1
      · split_ifs <;> norm_num
      · split_ifs
        · push_cast
          rw [show (-126 : ℤ) = -149 + (23 : ℕ) by norm_num, zpow_add₀ (by norm_num : (2 : ℝ) ≠ 0), zpow_natCast]
          field_simp
        · push_cast
          rw [show ((F32.expo b : ℤ) - 127) = ((F32.expo b : ℤ) - 1 + -149) + (23 : ℕ) by push_cast; ring,
            zpow_add₀ (by norm_num : (2 : ℝ) ≠ 0) _ ((23 : ℕ) : ℤ), zpow_natCast]
          have : binary32.prec - 1 = 23 := rfl
          rw [this]
          field_simp
    rw [this]
  · have h3 : F32.isFinite b = false := by simp only [F32.isFinite, decide_eq_false_iff_not]; exact h1
    rw [if_neg h1, h3]
    by_cases h2 : F32.magn b = 0x7F800000
    · have h4 : F32.isNaN b = false := by simp only [F32.isNaN, decide_eq_false_iff_not]; omega
      rw [if_pos h2, h4]
      cases F32.neg b <;> rfl
    · have h4 : F32.isNaN b = true := by simp only [F32.isNaN, decide_eq_true_eq]; omega
      rw [if_neg h2, h4, if_pos rfl]

theorem doubleValue_signed (b : UInt64) :
    doubleValue b = signed binary64 (decide (2 ^ 63 ≤ b.toNat)) (b.toNat % 2 ^ 63) := by
  have hb : b.toNat < 2 ^ 64 := b.toNat_lt
  have e1 : b.toNat / 2 ^ 52 % 2 ^ 11 = b.toNat % 2 ^ 63 / 2 ^ 52 := by omega
  have e2 : b.toNat % 2 ^ 52 = b.toNat % 2 ^ 63 % 2 ^ 52 := by omega
  unfold doubleValue signed
  simp only []
  rw [infBits64, e1, e2]
  generalize hk : b.toNat % 2 ^ 63 = k
  have hk' : k < 2 ^ 63 := by omega
  by_cases h1 : k < 0x7FF0000000000000
  · rw [if_pos h1, if_neg (by omega)]
    have e3 : low binary64 = -1074 := by decide
    unfold patt
    have e4 : binary64.prec - 1 = 52 := rfl
    rw [e3, e4]
    generalize k / 2 ^ 52 = E
    generalize k % 2 ^ 52 = M
    have hs : (if decide (2 ^ 63 ≤ b.toNat) = true then (-1 : ℝ) else 1) = if 2 ^ 63 ≤ b.toNat then -1 else 1 := by
      simp only [decide_eq_true_eq]
    rw [hs]
    generalize (if 2 ^ 63 ≤ b.toNat then (-1 : ℝ) else 1) = sg
    split_ifs
    · congr 3
      rw [show (-1022 : ℤ) = -1074 + (52 : ℕ) by norm_num, zpow_add₀ (by norm_num : (2 : ℝ) ≠ 0), zpow_natCast]
      field_simp
    · congr 3
      push_cast
      rw [show (E : ℤ) - 1023 = ((E : ℤ) - 1 + -1074) + (52 : ℕ) by push_cast; ring,
        zpow_add₀ (by norm_num : (2 : ℝ) ≠ 0) _ ((52 : ℕ) : ℤ), zpow_natCast]
      field_simp
      norm_num
  · rw [if_neg h1, if_pos (by omega)]
    by_cases h2 : k = 0x7FF0000000000000
    · rw [if_pos h2, if_pos (by omega)]
      by_cases h3 : 2 ^ 63 ≤ b.toNat
      · rw [if_pos h3, if_pos (decide_eq_true h3)]
      · rw [if_neg h3, if_neg (by simpa using h3)]
    · rw [if_neg h2, if_neg (by omega)]

end Spec

open Spec Ieee

/-- C139, `float`.  Converting to `float` in the model is IEEE 754 rounding on bit patterns: to nearest, ties to the even
pattern, infinite from the middle between the largest `float` and 2^128 on. -/
theorem C139_float : RoundsToNearest floatValue UInt32.toNat (2 ^ (128 : ℤ) - 2 ^ (103 : ℤ)) ieee.r32 := by
  have h := rounds (F := binary32) (value := floatValue) (bits := UInt32.toNat) (mag := F32.magn) (sgn := F32.neg)
    (by decide) (by decide) floatValue_signed
    (by
      intro s k hk
      rw [infBits32] at hk
      refine ⟨UInt32.ofNat (k + if s then 2 ^ 31 else 0), ?_, ?_⟩
      all_goals
        simp only [F32.neg, F32.magn, UInt32.toNat_ofNat']
        cases s <;> simp <;> omega)
    (by intro b; unfold F32.magn; omega)
  exact h

/-- C139, `double`. -/
theorem C139_double : RoundsToNearest doubleValue UInt64.toNat (2 ^ (1024 : ℤ) - 2 ^ (970 : ℤ)) ieee.r64 := by
  have h := rounds (F := binary64) (value := doubleValue) (bits := UInt64.toNat) (mag := fun b => b.toNat % 2 ^ 63)
    (sgn := fun b => decide (2 ^ 63 ≤ b.toNat))
    (by decide) (by decide) doubleValue_signed
    (by
      intro s k hk
      rw [infBits64] at hk
      refine ⟨UInt64.ofNat (k + if s then 2 ^ 63 else 0), ?_, ?_⟩
      all_goals
        simp only [UInt64.toNat_ofNat']
        cases s <;> simp <;> omega)
    (by intro b; omega)
  exact h

/-- C139, bits.  A number other than zero has one pattern only. -/
theorem C139_one_pattern :
    (∀ (b b' : UInt32) (x : EReal), x ≠ 0 → floatValue b = some x → floatValue b' = some x → b = b') ∧
    (∀ (b b' : UInt64) (x : EReal), x ≠ 0 → doubleValue b = some x → doubleValue b' = some x → b = b') := by
  constructor
  · intro b b' x hx h h'
    rw [floatValue_signed] at h h'
    obtain ⟨h1, h2⟩ := signed_inj (by decide) (by decide) hx h h'
    have a : b.toNat < 2 ^ 32 := b.toNat_lt
    have a' : b'.toNat < 2 ^ 32 := b'.toNat_lt
    have h3 := decide_eq_decide.mp h1
    unfold F32.magn at h2
    apply UInt32.toNat.inj
    omega
  · intro b b' x hx h h'
    rw [doubleValue_signed] at h h'
    obtain ⟨h1, h2⟩ := signed_inj (by decide) (by decide) hx h h'
    have a : b.toNat < 2 ^ 64 := b.toNat_lt
    have a' : b'.toNat < 2 ^ 64 := b'.toNat_lt
    have h3 := decide_eq_decide.mp h1
    apply UInt64.toNat.inj
    omega

/-- C139, comparisons.  The tests of the code on stored occupancies compare the numbers. -/
theorem C139_tests (b : UInt32) :
    (F32.gtHalf b = true ↔ ∃ x, floatValue b = some x ∧ ((1 / 2 : ℝ) : EReal) < x) ∧
    (F32.ltHalf b = true ↔ ∃ x, floatValue b = some x ∧ x < ((1 / 2 : ℝ) : EReal)) ∧
    (F32.eqHalf b = true ↔ floatValue b = some ((1 / 2 : ℝ) : EReal)) := by
  simp only [floatValue_eq]
  by_cases hn : F32.isNaN b = true
  · have ht := F32.trichotomy b
    simp only [hn, if_true]
    rcases ht with h | h | h | h <;> simp_all
  · rw [if_neg hn]
    by_cases hf : F32.isFinite b = true
    · rw [if_pos hf, F32.gtHalf_iff hf, F32.ltHalf_iff hf, F32.eqHalf_iff hf]
      have c1 : (1 / 2 < F32.val b) ↔ (1 / 2 : ℝ) < ((F32.val b : ℚ) : ℝ) := by
        rw [← Rat.cast_lt (K := ℝ)]; push_cast; exact Iff.rfl
      have c2 : (F32.val b < 1 / 2) ↔ ((F32.val b : ℚ) : ℝ) < (1 / 2 : ℝ) := by
        rw [← Rat.cast_lt (K := ℝ)]; push_cast; exact Iff.rfl
      have c3 : (F32.val b = 1 / 2) ↔ ((F32.val b : ℚ) : ℝ) = (1 / 2 : ℝ) := by
        rw [← Rat.cast_inj (α := ℝ)]; push_cast; exact Iff.rfl
      rw [c1, c2, c3]
      refine ⟨⟨fun h => ⟨_, rfl, EReal.coe_lt_coe_iff.mpr h⟩, ?_⟩, ⟨fun h => ⟨_, rfl, EReal.coe_lt_coe_iff.mpr h⟩, ?_⟩,
        ⟨fun h => by rw [h], fun h => EReal.coe_injective (Option.some.inj h)⟩⟩
      · rintro ⟨x, hx, h⟩
        rw [← Option.some.inj hx] at h
        exact EReal.coe_lt_coe_iff.mp h
      · rintro ⟨x, hx, h⟩
        rw [← Option.some.inj hx] at h
        exact EReal.coe_lt_coe_iff.mp h
    · rw [if_neg hf]
      have hm : F32.magn b = 0x7F800000 := by
        simp only [F32.isNaN, F32.isFinite, decide_eq_true_eq] at hn hf
        omega
      have he : F32.eqHalf b = false := by
        simp only [F32.eqHalf, decide_eq_false_iff_not]
        rintro rfl
        exact absurd hm (by decide)
      have hn' : F32.isNaN b = false := by simpa using hn
      simp only [F32.gtHalf, F32.ltHalf, he, hn', hm]
      cases F32.neg b
      · refine ⟨⟨fun _ => ⟨⊤, by simp, EReal.coe_lt_top _⟩, fun _ => by decide⟩, ⟨fun h => by simp at h, ?_⟩,
          ⟨fun h => by simp at h, fun h => ?_⟩⟩
        · rintro ⟨x, hx, h⟩
          simp only [Bool.false_eq_true, if_false, Option.some.injEq] at hx
          rw [← hx] at h
          exact absurd h not_top_lt
        · simp only [Bool.false_eq_true, if_false, Option.some.injEq] at h
          exact absurd h.symm (EReal.coe_ne_top _)
      · refine ⟨⟨fun h => by simp at h, ?_⟩, ⟨fun _ => ⟨⊥, by simp, EReal.bot_lt_coe _⟩, fun _ => by decide⟩,
          ⟨fun h => by simp at h, fun h => ?_⟩⟩
        · rintro ⟨x, hx, h⟩
          simp only [if_true, Option.some.injEq] at hx
          rw [← hx] at h
          exact absurd h not_lt_bot
        · simp only [if_true, Option.some.injEq] at h
          exact absurd h.symm (EReal.coe_ne_bot _)

/-- Patterns of `1.0f`, `-0.25f`, infinity, NaN, and of the `double`s 1 and minus infinity. -/
example : floatValue 0x3F800000 = some ((1 : ℝ) : EReal) ∧ floatValue 0xBE800000 = some ((-1 / 4 : ℝ) : EReal) ∧
    floatValue 0x7F800000 = some ⊤ ∧ floatValue 0x7FC00000 = none ∧
    doubleValue 0x3FF0000000000000 = some ((1 : ℝ) : EReal) ∧ doubleValue 0xFFF0000000000000 = some ⊥ := by
  have e1 : F32.val 0x3F800000 = 1 := by
    simp [F32.val, show F32.neg 0x3F800000 = false by decide, show F32.expo 0x3F800000 = 127 by decide,
      show F32.mant 0x3F800000 = 0 by decide]
  have e2 : F32.val 0xBE800000 = -1 / 4 := by
    simp [F32.val, show F32.neg 0xBE800000 = true by decide, show F32.expo 0xBE800000 = 125 by decide,
      show F32.mant 0xBE800000 = 0 by decide]
    norm_num
  refine ⟨?_, ?_, ?_, ?_, ?_, ?_⟩
  · rw [floatValue_eq]
    rw [if_neg (by decide), if_pos (by decide), e1]; norm_num
  · rw [floatValue_eq]
    rw [if_neg (by decide), if_pos (by decide), e2]; norm_num
  · rw [floatValue_eq]
    rw [if_neg (by decide), if_neg (by decide), if_neg (by decide)]
  · rw [floatValue_eq]
    rw [if_pos (by decide)]
  · unfold doubleValue
    simp only []
    rw [if_neg (by decide), if_neg (by decide), if_neg (by decide),
      show (0x3FF0000000000000 : UInt64).toNat / 2 ^ 52 % 2 ^ 11 = 1023 by decide,
      show (0x3FF0000000000000 : UInt64).toNat % 2 ^ 52 = 0 by decide]
    norm_num
  · unfold doubleValue
    simp only []
    rw [if_pos (by decide), if_pos (by decide), if_pos (by decide)]

/-- A tie: 1 + 2^-24 is in the middle between two `float`s and becomes 1, whose pattern is even. -/
example : ieee.r32 ((1 + 1 / 2 ^ 24 : ℝ) : EReal) = ((1 : ℝ) : EReal) := by
  have h1 : (0 : ℝ) < 1 + 1 / 2 ^ 24 := by norm_num
  have hlog : Int.log 2 (1 + 1 / 2 ^ 24 : ℝ) = 0 := by
    have a : Int.log 2 (1 + 1 / 2 ^ 24 : ℝ) < 1 := log_lt h1 (by norm_num)
    have b : 0 ≤ Int.log 2 (1 + 1 / 2 ^ 24 : ℝ) := by
      by_contra hc
      have := lt_log (1 + 1 / 2 ^ 24 : ℝ)
      have h3 : (2 : ℝ) ^ (Int.log 2 (1 + 1 / 2 ^ 24 : ℝ) + 1) ≤ 2 ^ (0 : ℤ) := two_mono (by omega)
      rw [zpow_zero] at h3
      have h4 : (1 : ℝ) < 1 + 1 / 2 ^ 24 := by norm_num
      linarith
    omega
  have hq : quantum binary32 (1 + 1 / 2 ^ 24 : ℝ) = -23 := by
    unfold quantum; rw [hlog]; rfl
  have hfl : ⌊(1 + 1 / 2 ^ 24 : ℝ) / 2 ^ (-23 : ℤ)⌋ = 8388608 := by
    rw [Int.floor_eq_iff]; norm_num
  have hfr : Int.fract ((1 + 1 / 2 ^ 24 : ℝ) / 2 ^ (-23 : ℤ)) = 1 / 2 := by
    unfold Int.fract; rw [hfl]; norm_num
  have hn : nearest ((1 + 1 / 2 ^ 24 : ℝ) / 2 ^ (-23 : ℤ)) = 8388608 := by
    unfold nearest
    rw [hfr, hfl, if_neg (lt_irrefl _), if_neg (lt_irrefl _), if_pos (by decide)]
  have hm : magnitude binary32 (1 + 1 / 2 ^ 24 : ℝ) = 1 := by
    unfold magnitude
    rw [hq, hn]; norm_num
  have hr : ieee.r32 = Ieee.round binary32 := rfl
  rw [hr, round_coe _ h1.le]
  unfold roundMag
  rw [hm, if_pos (by
    have : (2 : ℝ) ^ (0 : ℤ) < 2 ^ (binary32.emax + 1) := zpow_lt_zpow_right₀ (by norm_num) (by decide)
    simpa using this)]

end Verif
