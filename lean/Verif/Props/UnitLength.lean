import Verif.Props.BorderAccuracy
import Verif.Props.GradFloat

/-!
# The unit of length (C142)

The cell size enters a signed distance field only as the unit in which distances are expressed.  In IEEE arithmetic
a change of the unit by a power of two is exact: every stored distance is multiplied by that power, without any
change of the rounding errors.  A change by any other factor never reverses the order of two stored distances.
-/

namespace Verif

open Spec DField SdfGen

namespace Ieee

variable {F : Format}

theorem log_scale {x : ℝ} (hx : 0 < x) (k : ℤ) : Int.log 2 (2 ^ k * x) = k + Int.log 2 x := by
  have hp : (0 : ℝ) < 2 ^ k * x := mul_pos (two_pos' k) hx
  apply le_antisymm
  · have h : (2 : ℝ) ^ k * x < 2 ^ (k + (Int.log 2 x + 1)) := by
      rw [two_add]; exact mul_lt_mul_of_pos_left (lt_log x) (two_pos' k)
    have := log_lt hp h
    omega
  · rw [← Int.zpow_le_iff_le_log (b := 2) (by norm_num) hp]
    have h : (2 : ℝ) ^ (k + Int.log 2 x) ≤ 2 ^ k * x := by
      rw [two_add]; exact mul_le_mul_of_nonneg_left (log_le hx) (two_pos' k).le
    exact_mod_cast h

theorem le_log {x : ℝ} (hx : 0 < x) {e : ℤ} (h : (2 : ℝ) ^ e ≤ x) : e ≤ Int.log 2 x := by
  rw [← Int.zpow_le_iff_le_log (b := 2) (by norm_num) hx]
  exact_mod_cast h

theorem magnitude_scale {x : ℝ} {k : ℤ} (hx : 2 ^ F.emin ≤ x) (hk : 2 ^ F.emin ≤ 2 ^ k * x) :
    magnitude F (2 ^ k * x) = 2 ^ k * magnitude F x := by
  have hpos : 0 < x := (two_pos' _).trans_le hx
  have h1 := le_log hpos hx
  have h2 := le_log (mul_pos (two_pos' k) hpos) hk
  rw [log_scale hpos] at h2
  have hq : quantum F (2 ^ k * x) = k + quantum F x := by
    unfold quantum
    rw [log_scale hpos, max_eq_left h1, max_eq_left h2]
    ring
  unfold magnitude
  rw [hq, two_add, mul_div_mul_left _ _ (two_pos' k).ne']
  ring

/-- In the range of normal numbers rounding commutes with multiplication by a power of two. -/
theorem round_scale {x : ℝ} {k : ℤ} (hp : 1 ≤ F.prec) (hF : F.emin ≤ F.emax) (hx : 2 ^ F.emin ≤ x)
    (hmax : x ≤ 2 ^ F.emax) (hk : 2 ^ F.emin ≤ 2 ^ k * x) (hkmax : 2 ^ k * x ≤ 2 ^ F.emax) :
    ∃ y : ℝ, round F (x : EReal) = (y : EReal) ∧ round F ((2 ^ k * x : ℝ) : EReal) = ((2 ^ k * y : ℝ) : EReal) ∧
      |y - x| ≤ x * 2 ^ (-(F.prec : ℤ)) := by
  obtain ⟨y, e1, h1, _⟩ := round_error hx hmax hp hF
  obtain ⟨z, e2, _, _⟩ := round_error hk hkmax hp hF
  refine ⟨y, e1, ?_, h1⟩
  rw [e2]
  have hpos : 0 ≤ x := ((two_pos' _).trans_le hx).le
  have a1 : y = magnitude F x := by
    rw [round_coe F hpos] at e1
    unfold roundMag at e1
    split_ifs at e1
    · exact_mod_cast e1.symm
    · exact absurd e1 (EReal.top_ne_coe y)
  have a2 : z = magnitude F (2 ^ k * x) := by
    rw [round_coe F (mul_nonneg (two_pos' k).le hpos)] at e2
    unfold roundMag at e2
    split_ifs at e2
    · exact_mod_cast e2.symm
    · exact absurd e2 (EReal.top_ne_coe z)
  rw [a1, a2, magnitude_scale hx hk]

/-- The same for a difference, which may be zero or negative. -/
theorem round_scale_signed {x : ℝ} {k : ℤ} (hp : 1 ≤ F.prec) (hF : F.emin ≤ F.emax)
    (h : x = 0 ∨ (2 ^ F.emin ≤ |x| ∧ |x| ≤ 2 ^ F.emax ∧ 2 ^ F.emin ≤ |2 ^ k * x| ∧ |2 ^ k * x| ≤ 2 ^ F.emax)) :
    ∃ y : ℝ, round F (x : EReal) = (y : EReal) ∧ round F ((2 ^ k * x : ℝ) : EReal) = ((2 ^ k * y : ℝ) : EReal) := by
  rcases h with rfl | ⟨h1, h2, h3, h4⟩
  · have h0 : round F ((0 : ℝ) : EReal) = ((0 : ℝ) : EReal) := by
      rw [round_coe F le_rfl, roundMag_zero]; rfl
    exact ⟨0, h0, by rw [mul_zero]; exact h0⟩
  · rw [abs_mul, abs_of_pos (two_pos' k)] at h3 h4
    obtain ⟨y, e1, e2, _⟩ := round_scale hp hF h1 h2 h3 h4
    rcases abs_choice x with hx | hx
    · rw [hx] at e1 e2
      exact ⟨y, e1, e2⟩
    · rw [hx] at e1 e2
      refine ⟨-y, ?_, ?_⟩
      · have := round_neg F ((-x : ℝ) : EReal)
        rw [e1, ← EReal.coe_neg, neg_neg] at this
        rw [this]; rfl
      · have := round_neg F ((2 ^ k * -x : ℝ) : EReal)
        rw [e2, ← EReal.coe_neg] at this
        rw [show 2 ^ k * x = -(2 ^ k * -x) by ring, this, ← EReal.coe_neg]
        congr 1; ring

/-- A rounded number is a multiple of the unit in the last place of any power of two below it. -/
theorem round_multiple {x y : ℝ} {e : ℤ} (hx : 2 ^ e ≤ x) (hy : round F (x : EReal) = (y : EReal)) :
    ∃ n : ℤ, y = n * 2 ^ (e - (F.prec - 1)) := by
  have hpos : 0 < x := (two_pos' _).trans_le hx
  have hy' : y = magnitude F x := by
    rw [round_coe F hpos.le] at hy
    unfold roundMag at hy
    split_ifs at hy
    · exact_mod_cast hy.symm
    · exact absurd hy (EReal.top_ne_coe y)
  have hq : e - (F.prec - 1) ≤ quantum F x := by
    unfold quantum
    have := le_log hpos hx
    have := le_max_left (Int.log 2 x) F.emin
    omega
  obtain ⟨j, hj⟩ := Int.eq_ofNat_of_zero_le (sub_nonneg.mpr hq)
  refine ⟨nearest (x / 2 ^ quantum F x) * 2 ^ j, ?_⟩
  rw [hy']
  unfold magnitude
  have : (2 : ℝ) ^ quantum F x = 2 ^ j * 2 ^ (e - (F.prec - 1)) := by
    rw [← zpow_natCast, ← two_add]; congr 1; omega
  push_cast
  rw [mul_assoc, ← this]

end Ieee

/-- Cell sizes for which no distance over- or underflows: from `2⁻¹²⁶`, the smallest normal `float`, to `2¹⁰⁰`. -/
def Moderate (res : ℝ) : Prop := 1 / 2 ^ 126 ≤ res ∧ res ≤ 2 ^ 100

namespace SdfGen

/-- A power of two times a cell size is a cell size. -/
theorem goodRes_scale {res : ℝ} {k : ℤ} (hres : GoodRes ieee res) (hm : Moderate res) (hk : Moderate (2 ^ k * res)) :
    GoodRes ieee (2 ^ k * res) := by
  have hmin64 : (2 : ℝ) ^ Ieee.binary64.emin ≤ 1 / 2 ^ 126 := by
    rw [← zpow_neg_nat]; exact Ieee.two_mono (by decide)
  have hmax64 : (2 : ℝ) ^ (100 : ℕ) ≤ 2 ^ Ieee.binary64.emax := by
    rw [← zpow_natCast]; exact Ieee.two_mono (by decide)
  refine ⟨mul_pos (Ieee.two_pos' k) hres.1, ?_⟩
  obtain ⟨y, e1, e2, _⟩ := Ieee.round_scale (F := Ieee.binary64) (x := res) (k := k) (by decide) (by decide)
    (hmin64.trans hm.1) (hm.2.trans hmax64) (hmin64.trans hk.1) (hk.2.trans hmax64)
  have hy : y = res := by
    have h : (y : EReal) = (res : EReal) := e1.symm.trans hres.2
    exact_mod_cast h
  rw [hy] at e2
  exact e2

/-- The stored value of squared distance `n` scales with the cell size. -/
theorem stored_scale {res : ℝ} {k : ℤ} (hres : GoodRes ieee res) (hm : Moderate res)
    (hk : Moderate (2 ^ k * res)) {n : ℕ} (h1 : 1 ≤ n) (hn : n ≤ 2 ^ 31) :
    ∃ y : ℝ, ieee.r32 (scaled ieee res (some n)) = (y : EReal) ∧
      ieee.r32 (scaled ieee (2 ^ k * res) (some n)) = ((2 ^ k * y : ℝ) : EReal) ∧ |y| ≤ 2 ^ 119 ∧ |2 ^ k * y| ≤ 2 ^ 119 ∧
      (∀ e : ℤ, 2 ^ e ≤ res → ∃ j : ℤ, y = j * 2 ^ (e - 23)) ∧
      ∀ e : ℤ, 2 ^ e ≤ 2 ^ k * res → ∃ j : ℤ, 2 ^ k * y = j * 2 ^ (e - 23) := by
  have hs1 : (1 : ℝ) ≤ Real.sqrt n := by
    rw [Real.one_le_sqrt]; exact_mod_cast h1
  have hs2 : Real.sqrt n ≤ 2 ^ 16 := by
    rw [Real.sqrt_le_iff]
    refine ⟨by norm_num, ?_⟩
    have : (n : ℝ) ≤ 2 ^ 31 := by exact_mod_cast hn
    linarith [show (2 : ℝ) ^ 31 ≤ (2 ^ 16) ^ 2 by norm_num]
  have hmin64 : (2 : ℝ) ^ Ieee.binary64.emin ≤ 1 / 2 ^ 126 := by
    rw [← zpow_neg_nat]; exact Ieee.two_mono (by decide)
  have hmin32 : (2 : ℝ) ^ Ieee.binary32.emin = 1 / 2 ^ 126 := by
    rw [← zpow_neg_nat]; rfl
  have hmax64 : (2 : ℝ) ^ (120 : ℕ) ≤ 2 ^ Ieee.binary64.emax := by
    rw [← zpow_natCast]; exact Ieee.two_mono (by decide)
  have hmax32 : (2 : ℝ) ^ (120 : ℕ) ≤ 2 ^ Ieee.binary32.emax := by
    rw [← zpow_natCast]; exact Ieee.two_mono (by decide)
  have hu : (2 : ℝ) ^ (-(Ieee.binary64.prec : ℤ)) = 1 / 2 ^ 53 := zpow_neg_nat 53
  have hv : (2 : ℝ) ^ (-(Ieee.binary32.prec : ℤ)) = 1 / 2 ^ 24 := zpow_neg_nat 24
  have hsmall : (1 : ℝ) / 2 ^ 126 ≤ 1 := by norm_num
  -- the root does not depend on the cell size
  obtain ⟨a, ea, ha, _⟩ := Ieee.round_error (F := Ieee.binary64) (x := Real.sqrt n)
    (by linarith) (hs2.trans (le_trans (by norm_num) hmax64)) (by decide) (by decide)
  rw [hu, abs_le] at ha
  have ha1 : 1 ≤ a := by
    have h := ieee.mono64 (show (1 : EReal) ≤ (Real.sqrt n : EReal) by exact_mod_cast hs1)
    rw [ieee.one64] at h
    have h' : (1 : EReal) ≤ (a : EReal) := by rw [← ea]; exact h
    exact_mod_cast h'
  have ha2 : a ≤ 2 ^ 17 := by
    have : Real.sqrt n * (1 / 2 ^ 53) ≤ Real.sqrt n := by
      have := mul_le_mul_of_nonneg_left (show (1 : ℝ) / 2 ^ 53 ≤ 1 by norm_num)
        (show 0 ≤ Real.sqrt n by linarith)
      linarith
    linarith [show (2 : ℝ) ^ 17 = 2 * 2 ^ 16 by norm_num]
  have prod : ∀ r : ℝ, Moderate r → r ≤ a * r ∧ a * r ≤ 2 ^ 117 := by
    intro r hr
    have h0 : 0 < r := lt_of_lt_of_le (by norm_num) hr.1
    refine ⟨le_mul_of_one_le_left h0.le ha1, ?_⟩
    calc a * r ≤ 2 ^ 17 * 2 ^ 100 := by gcongr; exact hr.2
      _ = 2 ^ 117 := by norm_num
  obtain ⟨p1, p2⟩ := prod _ hm
  obtain ⟨q1, q2⟩ := prod _ hk
  have hcomm : a * (2 ^ k * res) = 2 ^ k * (a * res) := by ring
  rw [hcomm] at q1 q2
  obtain ⟨b, eb, eb', hb⟩ := Ieee.round_scale (F := Ieee.binary64) (x := a * res) (k := k) (by decide) (by decide)
    (by linarith [hm.1]) (p2.trans (le_trans (by norm_num) hmax64)) (by linarith [hk.1])
    (q2.trans (le_trans (by norm_num) hmax64))
  have low : ∀ (r c z : ℝ), GoodRes ieee r → r ≤ c → Ieee.round Ieee.binary64 (c : EReal) = (z : EReal) → r ≤ z := by
    intro r c z hr hc hz
    have h := ieee.mono64 (show (r : EReal) ≤ (c : EReal) by exact_mod_cast hc)
    rw [hr.2] at h
    have h' : (r : EReal) ≤ (z : EReal) := by rw [← hz]; exact h
    exact_mod_cast h'
  have hb1 := low _ _ _ hres p1 eb
  have hb1' := low _ _ _ (goodRes_scale hres hm hk) q1 eb'
  rw [hu, abs_le] at hb
  have hk0 := Ieee.two_pos' k
  have h0 : 0 ≤ a * res := by linarith [hres.1]
  have hbup : b ≤ 2 * (a * res) := by
    have : a * res * (1 / 2 ^ 53) ≤ a * res := by
      have := mul_le_mul_of_nonneg_left (show (1 : ℝ) / 2 ^ 53 ≤ 1 by norm_num) h0
      linarith
    linarith
  have hb2 : b ≤ 2 ^ 118 := by
    linarith [show (2 : ℝ) ^ 118 = 2 * 2 ^ 117 by norm_num]
  have hb2' : 2 ^ k * b ≤ 2 ^ 118 := by
    have := mul_le_mul_of_nonneg_left hbup hk0.le
    linarith [show (2 : ℝ) ^ 118 = 2 * 2 ^ 117 by norm_num]
  obtain ⟨c, ec, ec', hc⟩ := Ieee.round_scale (F := Ieee.binary32) (x := b) (k := k) (by decide) (by decide)
    (by rw [hmin32]; linarith [hm.1]) (hb2.trans (le_trans (by norm_num) hmax32))
    (by rw [hmin32]; linarith [hk.1]) (hb2'.trans (le_trans (by norm_num) hmax32))
  rw [hv, abs_le] at hc
  have hbpos : 0 < b := hres.1.trans_le hb1
  have hhalf : b * (1 / 2 ^ 24) ≤ b / 2 := by
    have := mul_le_mul_of_nonneg_left (show (1 : ℝ) / 2 ^ 24 ≤ 1 / 2 by norm_num) hbpos.le
    linarith
  have ea' : ieee.r64 ((Real.sqrt n : ℝ) : EReal) = (a : EReal) := ea
  have hcpos : 0 < c := by linarith
  have hc2 : c ≤ 2 * b := by linarith
  refine ⟨c, ?_, ?_, ?_, ?_, fun e he => Ieee.round_multiple (he.trans hb1) ec,
    fun e he => Ieee.round_multiple (he.trans hb1') ec'⟩
  · have e1 : scaled ieee res (some n) = (b : EReal) := by
      unfold scaled sqrtE
      rw [ea', ← EReal.coe_mul]
      exact eb
    rw [e1]; exact ec
  · have e1 : scaled ieee (2 ^ k * res) (some n) = ((2 ^ k * b : ℝ) : EReal) := by
      unfold scaled sqrtE
      rw [ea', ← EReal.coe_mul, hcomm]
      exact eb'
    rw [e1]; exact ec'
  · rw [abs_of_pos hcpos]
    linarith [show (2 : ℝ) ^ 119 = 2 * 2 ^ 118 by norm_num]
  · rw [abs_of_pos (mul_pos hk0 hcpos)]
    have := mul_le_mul_of_nonneg_left hc2 hk0.le
    linarith [show (2 : ℝ) ^ 119 = 2 * 2 ^ 118 by norm_num]

/-- The grid on which the distance transform runs. -/
def work (d : Dims) (border : Bool) : Dims := if border then enlarge d else d

/-- The squared distances behind a field.  They do not depend on the cell size, on the arithmetic or on the value
outside. -/
theorem unitless {d : Dims} {border : Bool} (hd : SmallGrid (work d border)) {fill : Idx → Option Bool}
    {f : Idx → Bool} (hf : Answers d fill f) :
    ∃ n : Idx → Option ℕ, (∀ v m, InBounds d v → n v = some m → 1 ≤ m ∧ m ≤ 2 ^ 31) ∧
      ∀ (R : Rounding) (res : ℝ) (oob : FVal) (o : Out), GoodRes R res → 0 < R.r32 res →
        extract R (res, res, res) d fill oob border = some o → ∀ v, InBounds d v →
        o.sdf.get v = some (if f v then -R.r32 (scaled R res (n v)) else R.r32 (scaled R res (n v))) := by
  have small : ∀ {e : Dims} (_ : SmallGrid e) {pts : List Idx} {s : St}, build e pts = some s → ∀ {v : Idx},
      InBounds e v → v ∉ pts → (∀ p ∈ pts, InBounds e p) → ∀ m, reported s v = some m → 1 ≤ m ∧ m ≤ 2 ^ 31 := by
    intro e he pts s h v hv hn hin m hm
    refine ⟨?_, ?_⟩
    · rcases Nat.eq_zero_or_pos m with rfl | h0
      · exact absurd ((C09_zero_iff_source he h hv).1.mp hm) hn
      · exact h0
    · obtain ⟨h1, h2, _⟩ := C08_sound he h hv hm
      have := dsq_le_maxSq (inB_iff_spec.mpr hv) (inB_iff_spec.mpr (hin _ h1))
      rw [← dsq_sqDist] at h2
      have hh : maxSq e < 2 ^ 31 := he
      omega
  have inside : ∀ (e : Dims) (g : Idx → Bool), ∀ p ∈ e.all.filter g, InBounds e p := fun e g p hp =>
    inB_iff_spec.mp (Dims.mem_all.mp (List.mem_of_mem_filter hp))
  cases border with
  | false =>
    have hd' : SmallGrid d := hd
    obtain ⟨_, a, b, _, hs⟩ := base_spec hd' hf ieee 1 none
    refine ⟨fun v => if f v then reported b v else reported a v, ?_, ?_⟩
    · intro v m hv hm
      cases hfv : f v with
      | true =>
        simp only [hfv, if_true] at hm
        exact small hd' hs.hb hv (by simp [hfv]) (inside _ _) m hm
      | false =>
        simp only [hfv, Bool.false_eq_true, if_false] at hm
        exact small hd' hs.ha hv (by simp [hfv]) (inside _ _) m hm
    · intro R res oob o _ _ ho v hv
      obtain ⟨o', a', b', ho', hs'⟩ := base_spec hd' hf R res oob
      rw [extract_false, ho'] at ho
      simp only [Option.some.injEq] at ho
      subst ho
      have ea : a' = a := Option.some.inj (hs'.ha.symm.trans hs.ha)
      have eb : b' = b := Option.some.inj (hs'.hb.symm.trans hs.hb)
      subst ea eb
      rw [hs'.val v hv, exactVal]
      cases hfv : f v <;> simp [hfv, R.odd32]
  | true =>
    have hd' : SmallGrid (enlarge d) := hd
    obtain ⟨_, _, _, a, b, a', b', _, h1, h2, _⟩ := border_spec hd' hf ieee 1 none
    refine ⟨fun v => if f v then reported b' (v + offset d) else reported a (v + offset d), ?_, ?_⟩
    · intro v m hv hm
      obtain ⟨_, hvb⟩ := real_not_border hv
      cases hfv : f v with
      | true =>
        simp only [hfv, if_true] at hm
        exact small hd' h2.hb hvb (by simp [borderFn_real hv, hfv]) (inside _ _) m hm
      | false =>
        simp only [hfv, Bool.false_eq_true, if_false] at hm
        exact small hd' h1.ha hvb (by simp [borderFn_real hv, hfv]) (inside _ _) m hm
    · intro R res oob o hres h32 ho v hv
      obtain ⟨o', fr, fi, a₁, b₁, a₁', b₁', ho', g1, g2, _, _, _, _, _, hval⟩ := border_spec hd' hf R res oob
      rw [ho] at ho'
      simp only [Option.some.injEq] at ho'
      subst ho'
      have ea : a₁ = a := Option.some.inj (g1.ha.symm.trans h1.ha)
      have eb : b₁' = b' := Option.some.inj (g2.hb.symm.trans h2.hb)
      subst ea eb
      obtain ⟨c1, c2⟩ := combine_value hres h32 g1 g2 hv
      rw [hval v hv]
      cases hfv : f v with
      | true => rw [(c2 hfv).1, R.odd32]; simp [hfv]
      | false => rw [(c1 hfv).1]; simp [hfv]

/-- A moderate cell size is positive as a `float`. -/
theorem r32_pos {res : ℝ} (hres : GoodRes ieee res) (hm : Moderate res) : 0 < ieee.r32 res := by
  obtain ⟨y, hy, hpos, _⟩ := stored_accuracy hres hm.1 hm.2 (n := 1) le_rfl (by norm_num)
  rw [scaled_one hres.2] at hy
  rw [hy]
  exact_mod_cast hpos

end SdfGen

/-- C142, powers of two.  Multiplying the cell size by a power of two multiplies every stored distance by exactly
that power; infinite values stay as they are. -/
theorem C142_power_of_two {res : ℝ} {k : ℤ} (hres : GoodRes ieee res) (hm : Moderate res)
    (hk : Moderate (2 ^ k * res)) {d : Dims} {border : Bool} (hd : SmallGrid (work d border))
    {fill : Idx → Option Bool} {f : Idx → Bool} (hf : Answers d fill f) {oob oob' : FVal} {o o' : Out}
    (ho : extract ieee (res, res, res) d fill oob border = some o)
    (ho' : extract ieee (2 ^ k * res, 2 ^ k * res, 2 ^ k * res) d fill oob' border = some o') {v : Idx}
    (hv : InBounds d v) :
    o'.sdf.get v = (o.sdf.get v).map fun x => ((2 ^ k : ℝ) : EReal) * x := by
  obtain ⟨n, hn, hval⟩ := unitless hd hf
  have hres' := goodRes_scale hres hm hk
  rw [hval _ _ _ _ hres (r32_pos hres hm) ho v hv, hval _ _ _ _ hres' (r32_pos hres' hk) ho' v hv]
  have hk0 := Ieee.two_pos' k
  cases hnv : n v with
  | none =>
    rw [scaled_top hres.1, scaled_top hres'.1, ieee.top32]
    cases f v <;> simp [EReal.coe_mul_top_of_pos hk0, EReal.coe_mul_bot_of_pos hk0]
  | some m =>
    obtain ⟨h1, h2⟩ := hn v m hv hnv
    obtain ⟨y, e1, e2, -⟩ := stored_scale hres hm hk h1 h2
    rw [e1, e2]
    cases f v <;> simp [EReal.coe_mul]

/-- C142, any factor.  For two fields of the same filled cells with different cell sizes, whatever the arithmetic,
the order of two stored distances is never reversed: a value smaller than another in one field is not larger in the
other. -/
theorem C142_order {R R' : Rounding} {res res' : ℝ} (hres : GoodRes R res) (h32 : 0 < R.r32 res)
    (hres' : GoodRes R' res') (h32' : 0 < R'.r32 res') {d : Dims} {border : Bool}
    (hd : SmallGrid (work d border)) {fill : Idx → Option Bool} {f : Idx → Bool} (hf : Answers d fill f)
    {oob oob' : FVal} {o o' : Out} (ho : extract R (res, res, res) d fill oob border = some o)
    (ho' : extract R' (res', res', res') d fill oob' border = some o') {v w : Idx} (hv : InBounds d v)
    (hw : InBounds d w) :
    ∃ x y x' y' : EReal, o.sdf.get v = some x ∧ o.sdf.get w = some y ∧ o'.sdf.get v = some x' ∧
      o'.sdf.get w = some y' ∧ (x < y → x' ≤ y') := by
  obtain ⟨n, hn, hval⟩ := unitless hd hf
  refine ⟨_, _, _, _, hval _ _ _ _ hres h32 ho v hv, hval _ _ _ _ hres h32 ho w hw,
    hval _ _ _ _ hres' h32' ho' v hv, hval _ _ _ _ hres' h32' ho' w hw, ?_⟩
  have mono : ∀ (Q : Rounding) {r : ℝ}, 0 < r → ∀ {a b : Option ℕ},
      (∀ i, b = some i → ∃ j, a = some j ∧ j ≤ i) → Q.r32 (scaled Q r a) ≤ Q.r32 (scaled Q r b) := by
    intro Q r hr a b h
    apply Q.mono32
    cases b with
    | none => rw [scaled_top hr]; exact le_top
    | some i =>
      obtain ⟨j, rfl, hji⟩ := h i rfl
      exact scaled_mono hr hji
  have total : ∀ a b : Option ℕ, (∀ i, b = some i → ∃ j, a = some j ∧ j ≤ i) ∨
      (∀ i, a = some i → ∃ j, b = some j ∧ j ≤ i) := by
    intro a b
    cases a with
    | none => right; intro i h; cases h
    | some i =>
      cases b with
      | none => left; intro i h; cases h
      | some j =>
        rcases le_total i j with h | h
        · left; rintro _ ⟨⟩; exact ⟨i, rfl, h⟩
        · right; rintro _ ⟨⟩; exact ⟨j, rfl, h⟩
  have nonneg : ∀ (Q : Rounding) {r : ℝ}, 0 < r → ∀ a : Option ℕ, 0 ≤ Q.r32 (scaled Q r a) := by
    intro Q r hr a
    have h := mono Q hr (a := some 0) (b := a) (fun i _ => ⟨0, rfl, Nat.zero_le i⟩)
    rwa [scaled_zero, zero32] at h
  cases hfv : f v <;> cases hfw : f w <;> simp only [if_true, if_false, Bool.false_eq_true]
  · intro hlt
    rcases total (n v) (n w) with h | h
    · exact mono R' hres'.1 h
    · exact absurd (mono R hres.1 h) (not_le.mpr hlt)
  · intro hlt
    have h1 := nonneg R hres.1 (n v)
    have h2 : -R.r32 (scaled R res (n w)) ≤ 0 := by
      have := EReal.neg_le_neg_iff.mpr (nonneg R hres.1 (n w))
      simpa using this
    exact absurd (h2.trans h1) (not_le.mpr hlt)
  · intro _
    have h1 := nonneg R' hres'.1 (n w)
    have h2 : -R'.r32 (scaled R' res' (n v)) ≤ 0 := by
      have := EReal.neg_le_neg_iff.mpr (nonneg R' hres'.1 (n v))
      simpa using this
    exact h2.trans h1
  · intro hlt
    rw [EReal.neg_le_neg_iff]
    rw [EReal.neg_lt_neg_iff] at hlt
    rcases total (n w) (n v) with h | h
    · exact mono R' hres'.1 h
    · exact absurd (mono R hres.1 h) (not_le.mpr hlt)

namespace SdfGen

open Fl

/-- A stored value whose differences do not underflow. -/
def Plain (x : EReal) : Prop :=
  x = ⊤ ∨ x = ⊥ ∨ ∃ y : ℝ, x = (y : EReal) ∧ |y| ≤ 2 ^ 119 ∧ ∃ j : ℤ, y = j * 2 ^ (-123 : ℤ)

/-- Differences of plain values are zero or in the range of normal numbers. -/
theorem diff_range {y z : ℝ} (hy : |y| ≤ 2 ^ 119) (hz : |z| ≤ 2 ^ 119) (jy : ∃ j : ℤ, y = j * 2 ^ (-123 : ℤ))
    (jz : ∃ j : ℤ, z = j * 2 ^ (-123 : ℤ)) :
    |y - z| ≤ 2 ^ 120 ∧ (y - z = 0 ∨ 2 ^ (-123 : ℤ) ≤ |y - z|) := by
  refine ⟨(abs_sub _ _).trans (by linarith [show (2 : ℝ) ^ 120 = 2 * 2 ^ 119 by norm_num]), ?_⟩
  obtain ⟨i, rfl⟩ := jy
  obtain ⟨j, rfl⟩ := jz
  rw [← sub_mul, abs_mul, abs_of_pos (Ieee.two_pos' _)]
  rcases eq_or_ne i j with rfl | h
  · left; simp
  · right
    have : (1 : ℝ) ≤ |(i : ℝ) - j| := by
      have := Int.one_le_abs (sub_ne_zero.mpr h)
      exact_mod_cast this
    exact le_mul_of_one_le_left (Ieee.two_pos' _).le this

/-- Rounded differences scale with the values. -/
theorem diff_scale {F : Ieee.Format} (hp : 1 ≤ F.prec) (hmin : F.emin ≤ -123) (hmax : 120 ≤ F.emax) {k : ℤ}
    {x y : EReal} (hx : Plain x) (hy : Plain y) (hx' : Plain (((2 ^ k : ℝ) : EReal) * x))
    (hy' : Plain (((2 ^ k : ℝ) : EReal) * y)) (hne : ¬ ((x = ⊤ ∧ y = ⊤) ∨ (x = ⊥ ∧ y = ⊥))) :
    Ieee.round F (((2 ^ k : ℝ) : EReal) * x - ((2 ^ k : ℝ) : EReal) * y) =
      ((2 ^ k : ℝ) : EReal) * Ieee.round F (x - y) := by
  have hk0 := Ieee.two_pos' k
  have t1 : ((2 ^ k : ℝ) : EReal) * ⊤ = ⊤ := EReal.coe_mul_top_of_pos hk0
  have t2 : ((2 ^ k : ℝ) : EReal) * ⊥ = ⊥ := EReal.coe_mul_bot_of_pos hk0
  have r1 : Ieee.round F ⊤ = ⊤ := rfl
  have r2 : Ieee.round F ⊥ = ⊥ := rfl
  rcases hx with rfl | rfl | ⟨a, rfl, ha, ja⟩ <;> rcases hy with rfl | rfl | ⟨b, rfl, hb, jb⟩
  · simp at hne
  · simp [t1, t2, r1]
  · rw [t1, ← EReal.coe_mul, EReal.top_sub_coe, EReal.top_sub_coe, r1, t1]
  · simp [t1, t2, r2]
  · simp at hne
  · rw [t2, ← EReal.coe_mul, EReal.bot_sub, EReal.bot_sub, r2, t2]
  · rw [t1, EReal.sub_top, EReal.sub_top, r2, t2]
  · rw [t2, ← EReal.coe_mul, EReal.coe_sub_bot, EReal.coe_sub_bot, r1, t1]
  · have conv : ∀ c : ℝ, Plain (((2 ^ k : ℝ) : EReal) * (c : EReal)) →
        |2 ^ k * c| ≤ 2 ^ 119 ∧ ∃ j : ℤ, 2 ^ k * c = j * 2 ^ (-123 : ℤ) := by
      intro c hc
      rw [← EReal.coe_mul] at hc
      rcases hc with h | h | ⟨y, h, h1, h2⟩
      · exact absurd h (EReal.coe_ne_top _)
      · exact absurd h (EReal.coe_ne_bot _)
      · have : 2 ^ k * c = y := by exact_mod_cast h
        rw [this]; exact ⟨h1, h2⟩
    obtain ⟨ha', ja'⟩ := conv a hx'
    obtain ⟨hb', jb'⟩ := conv b hy'
    obtain ⟨u1, u2⟩ := diff_range ha hb ja jb
    obtain ⟨v1, v2⟩ := diff_range ha' hb' ja' jb'
    rw [← mul_sub] at v1 v2
    have lo : (2 : ℝ) ^ F.emin ≤ 2 ^ (-123 : ℤ) := Ieee.two_mono hmin
    have hi : (2 : ℝ) ^ (120 : ℕ) ≤ 2 ^ F.emax := by rw [← zpow_natCast]; exact Ieee.two_mono hmax
    obtain ⟨w, e1, e2⟩ := Ieee.round_scale_signed (F := F) (x := a - b) (k := k) hp (by omega) (by
      rcases u2 with h | h
      · exact Or.inl h
      · rcases v2 with h' | h'
        · left
          rcases mul_eq_zero.mp h' with h0 | h0
          · exact absurd h0 hk0.ne'
          · exact h0
        · exact Or.inr ⟨lo.trans h, u1.trans hi, lo.trans h', v1.trans hi⟩)
    rw [← EReal.coe_mul, ← EReal.coe_mul, ← EReal.coe_sub, ← EReal.coe_sub, ← mul_sub, e1, e2, EReal.coe_mul]

theorem scale_eq_top {k : ℤ} {x : EReal} : ((2 ^ k : ℝ) : EReal) * x = ⊤ ↔ x = ⊤ := by
  have hk0 := Ieee.two_pos' k
  induction x with
  | bot => rw [EReal.coe_mul_bot_of_pos hk0]
  | top => rw [EReal.coe_mul_top_of_pos hk0]
  | coe x =>
    rw [← EReal.coe_mul]
    exact ⟨fun h => absurd h (EReal.coe_ne_top _), fun h => absurd h (EReal.coe_ne_top _)⟩

theorem scale_eq_bot {k : ℤ} {x : EReal} : ((2 ^ k : ℝ) : EReal) * x = ⊥ ↔ x = ⊥ := by
  have hk0 := Ieee.two_pos' k
  induction x with
  | bot => rw [EReal.coe_mul_bot_of_pos hk0]
  | top => rw [EReal.coe_mul_top_of_pos hk0]
  | coe x =>
    rw [← EReal.coe_mul]
    exact ⟨fun h => absurd h (EReal.coe_ne_bot _), fun h => absurd h (EReal.coe_ne_bot _)⟩

/-- Multiplication of a value. -/
noncomputable def times (k : ℤ) (a : FVal) : FVal := a.map fun x => ((2 ^ k : ℝ) : EReal) * x

theorem sub32_scale {k : ℤ} {x y : EReal} (hx : Plain x) (hy : Plain y)
    (hx' : Plain (((2 ^ k : ℝ) : EReal) * x)) (hy' : Plain (((2 ^ k : ℝ) : EReal) * y)) :
    sub32 ieee (times k (some x)) (times k (some y)) = times k (sub32 ieee (some x) (some y)) := by
  classical
  unfold times sub32
  simp only [Option.map_some, scale_eq_top, scale_eq_bot]
  split_ifs with h
  · rfl
  · exact congrArg some (diff_scale (F := Ieee.binary32) (by decide) (by decide) (by decide) hx hy hx' hy' h)

theorem sub_scale {k : ℤ} {x y : EReal} (hx : Plain x) (hy : Plain y)
    (hx' : Plain (((2 ^ k : ℝ) : EReal) * x)) (hy' : Plain (((2 ^ k : ℝ) : EReal) * y)) :
    Fl.sub ieee (times k (some x)) (times k (some y)) = times k (Fl.sub ieee (some x) (some y)) := by
  classical
  have c : ∀ a b : EReal, Fl.sub ieee (some a) (some b) =
      if (a = ⊤ ∧ b = ⊤) ∨ (a = ⊥ ∧ b = ⊥) then none else some (Ieee.round Ieee.binary64 (a - b)) := by
    intro a b
    unfold Fl.sub Fl.neg Fl.add
    simp only [Option.map_some, EReal.neg_eq_bot_iff, EReal.neg_eq_top_iff]
    rfl
  unfold times
  simp only [Option.map_some]
  rw [c, c]
  simp only [scale_eq_top, scale_eq_bot]
  split_ifs with h
  · rfl
  · exact congrArg some (diff_scale (F := Ieee.binary64) (by decide) (by decide) (by decide) hx hy hx' hy' h)

/-- The factor cancels in a product with a positive number scaled the other way. -/
theorem mul_cancel (k : ℤ) (a : FVal) {g : ℝ} (hg : 0 < g) :
    Fl.mul ieee (times k a) (real (2 ^ (-k) * g)) = Fl.mul ieee a (real g) := by
  classical
  cases a with
  | none => rfl
  | some x =>
    have hk0 := Ieee.two_pos' k
    have hg' : 0 < 2 ^ (-k) * g := mul_pos (Ieee.two_pos' _) hg
    have z : ∀ (y : EReal) (c : ℝ), 0 < c → Fl.mul ieee (some y) (real c) = some (ieee.r64 (y * (c : EReal))) := by
      intro y c hc
      unfold Fl.mul real
      simp only
      rw [if_neg]
      rintro (⟨_, h | h⟩ | ⟨_, h⟩)
      · exact EReal.coe_ne_top _ h
      · exact EReal.coe_ne_bot _ h
      · exact hc.ne' (by exact_mod_cast h)
    show Fl.mul ieee (some (((2 ^ k : ℝ) : EReal) * x)) _ = _
    rw [z _ _ hg', z _ _ hg]
    congr 2
    induction x with
    | bot => rw [EReal.coe_mul_bot_of_pos hk0, EReal.bot_mul_coe_of_pos hg', EReal.bot_mul_coe_of_pos hg]
    | top => rw [EReal.coe_mul_top_of_pos hk0, EReal.top_mul_coe_of_pos hg', EReal.top_mul_coe_of_pos hg]
    | coe x =>
      rw [← EReal.coe_mul, ← EReal.coe_mul, ← EReal.coe_mul]
      congr 1
      rw [zpow_neg]
      field_simp

/-- The reciprocal of a small multiple of the cell size scales inversely. -/
theorem recip_scale {res : ℝ} {k : ℤ} (hlo : 1 / 2 ^ 100 ≤ res) (hhi : res ≤ 2 ^ 100)
    (hlo' : 1 / 2 ^ 100 ≤ 2 ^ k * res) (hhi' : 2 ^ k * res ≤ 2 ^ 100) {n : ℝ} (h1 : 1 ≤ n) (h2 : n ≤ 2) :
    ∃ c g : ℝ, 0 < c ∧ 0 < g ∧ Fl.mul ieee (real n) (real res) = real c ∧
      Fl.mul ieee (real n) (real (2 ^ k * res)) = real (2 ^ k * c) ∧
      Fl.div ieee (real 1) (real c) = real g ∧ Fl.div ieee (real 1) (real (2 ^ k * c)) = real (2 ^ (-k) * g) := by
  have hk0 := Ieee.two_pos' k
  have hmin : (2 : ℝ) ^ Ieee.binary64.emin ≤ 1 / 2 ^ 110 := by
    rw [← zpow_neg_nat]; exact Ieee.two_mono (by decide)
  have hmax : (2 : ℝ) ^ (110 : ℕ) ≤ 2 ^ Ieee.binary64.emax := by
    rw [← zpow_natCast]; exact Ieee.two_mono (by decide)
  have hpos : 0 < res := lt_of_lt_of_le (by norm_num) hlo
  have bnd : ∀ r : ℝ, 1 / 2 ^ 100 ≤ r → r ≤ 2 ^ 100 → 1 / 2 ^ 100 ≤ n * r ∧ n * r ≤ 2 ^ 101 := by
    intro r hr hr'
    have h0 : 0 < r := lt_of_lt_of_le (by norm_num) hr
    refine ⟨hr.trans (le_mul_of_one_le_left h0.le h1), ?_⟩
    calc n * r ≤ 2 * 2 ^ 100 := by gcongr
      _ = 2 ^ 101 := by norm_num
  obtain ⟨p1, p2⟩ := bnd _ hlo hhi
  obtain ⟨q1, q2⟩ := bnd _ hlo' hhi'
  have hcomm : n * (2 ^ k * res) = 2 ^ k * (n * res) := by ring
  rw [hcomm] at q1 q2
  have small : (1 : ℝ) / 2 ^ 110 ≤ 1 / 2 ^ 100 := by norm_num
  have big : (2 : ℝ) ^ 101 ≤ 2 ^ 110 := by norm_num
  obtain ⟨c, ec, ec', hc⟩ := Ieee.round_scale (F := Ieee.binary64) (x := n * res) (k := k) (by decide) (by decide)
    (hmin.trans (small.trans p1)) ((p2.trans big).trans hmax) (hmin.trans (small.trans q1))
    ((q2.trans big).trans hmax)
  rw [zpow_neg_nat, abs_le] at hc
  have x0 : 0 < n * res := lt_of_lt_of_le (by norm_num) p1
  have hu : n * res * (1 / 2 ^ Ieee.binary64.prec) ≤ n * res / 2 := by
    have : (1 : ℝ) / 2 ^ Ieee.binary64.prec ≤ 1 / 2 := by
      show (1 : ℝ) / 2 ^ 53 ≤ 1 / 2
      norm_num
    have := mul_le_mul_of_nonneg_left this x0.le
    linarith
  have c1 : n * res / 2 ≤ c := by linarith
  have c2 : c ≤ 2 * (n * res) := by linarith
  have c0 : 0 < c := by linarith
  have c0' : 0 < 2 ^ k * c := mul_pos hk0 c0
  have c1' : 2 ^ k * (n * res) / 2 ≤ 2 ^ k * c := by
    have := mul_le_mul_of_nonneg_left c1 hk0.le
    linarith
  have c2' : 2 ^ k * c ≤ 2 * (2 ^ k * (n * res)) := by
    have := mul_le_mul_of_nonneg_left c2 hk0.le
    linarith
  have inv : ∀ x y : ℝ, 0 < y → 1 / 2 ^ 100 ≤ x → x ≤ 2 ^ 101 → x / 2 ≤ y → y ≤ 2 * x →
      1 / 2 ^ 110 ≤ 1 / y ∧ 1 / y ≤ 2 ^ 110 := by
    intro x y hy a1 a2 a3 a4
    constructor
    · apply one_div_le_one_div_of_le hy
      linarith [show (2 : ℝ) * 2 ^ 101 ≤ 2 ^ 110 by norm_num]
    · rw [div_le_iff₀ hy]
      have : (1 : ℝ) / 2 ^ 101 ≤ y := by linarith [show (1 : ℝ) / 2 ^ 101 = 1 / 2 ^ 100 / 2 by norm_num]
      have := mul_le_mul_of_nonneg_left this (show (0 : ℝ) ≤ 2 ^ 110 by norm_num)
      linarith [show (1 : ℝ) ≤ 2 ^ 110 * (1 / 2 ^ 101) by norm_num]
  obtain ⟨i1, i2⟩ := inv _ _ c0 p1 p2 c1 c2
  obtain ⟨j1, j2⟩ := inv _ _ c0' q1 q2 c1' c2'
  have hinv : 1 / (2 ^ k * c) = 2 ^ (-k) * (1 / c) := by
    rw [zpow_neg]
    field_simp
  rw [hinv] at j1 j2
  obtain ⟨g, eg, eg', hg⟩ := Ieee.round_scale (F := Ieee.binary64) (x := 1 / c) (k := -k) (by decide) (by decide)
    (hmin.trans i1) (i2.trans hmax) (hmin.trans j1) (j2.trans hmax)
  have g0 : 0 < g := by
    rw [zpow_neg_nat, abs_le] at hg
    have y0 : 0 < 1 / c := by positivity
    have : (1 : ℝ) / 2 ^ Ieee.binary64.prec ≤ 1 / 2 := by
      show (1 : ℝ) / 2 ^ 53 ≤ 1 / 2
      norm_num
    have := mul_le_mul_of_nonneg_left this y0.le
    linarith
  have mulr : ∀ a b : ℝ, Fl.mul ieee (real a) (real b) = some (Ieee.round Ieee.binary64 ((a * b : ℝ) : EReal)) := by
    intro a b
    unfold Fl.mul real
    simp only
    rw [if_neg (by simp), EReal.coe_mul]
    rfl
  have divr : ∀ b : ℝ, b ≠ 0 → Fl.div ieee (real 1) (real b) =
      some (Ieee.round Ieee.binary64 ((1 / b : ℝ) : EReal)) := by
    intro b hb
    exact FSdf.div_real ieee 1 hb
  refine ⟨c, g, c0, g0, ?_, ?_, ?_, ?_⟩
  · rw [mulr, ec]; rfl
  · rw [mulr, hcomm, ec']; rfl
  · rw [divr _ c0.ne', eg]; rfl
  · rw [divr _ c0'.ne', hinv, eg']; rfl

/-- Every stored value is plain, for either cell size. -/
theorem plain_stored {res : ℝ} {k : ℤ} (hres : GoodRes ieee res) (hlo : 1 / 2 ^ 100 ≤ res) (hhi : res ≤ 2 ^ 100)
    (hlo' : 1 / 2 ^ 100 ≤ 2 ^ k * res) (hhi' : 2 ^ k * res ≤ 2 ^ 100) {d : Dims} {border : Bool}
    (hd : SmallGrid (work d border)) {fill : Idx → Option Bool} {f : Idx → Bool} (hf : Answers d fill f)
    {oob oob' : FVal} {o o' : Out} (ho : extract ieee (res, res, res) d fill oob border = some o)
    (ho' : extract ieee (2 ^ k * res, 2 ^ k * res, 2 ^ k * res) d fill oob' border = some o') {v : Idx}
    (hv : InBounds d v) :
    ∃ x : EReal, o.sdf.get v = some x ∧ o'.sdf.get v = times k (some x) ∧ Plain x ∧
      Plain (((2 ^ k : ℝ) : EReal) * x) := by
  have weak : (1 : ℝ) / 2 ^ 126 ≤ 1 / 2 ^ 100 := by norm_num
  have hm : Moderate res := ⟨weak.trans hlo, hhi⟩
  have hk : Moderate (2 ^ k * res) := ⟨weak.trans hlo', hhi'⟩
  have h2 := C142_power_of_two hres hm hk hd hf ho ho' hv
  obtain ⟨n, hn, hval⟩ := unitless hd hf
  have h1 := hval _ _ _ _ hres (r32_pos hres hm) ho v hv
  rw [h1] at h2 ⊢
  refine ⟨_, rfl, h2, ?_⟩
  have hk0 := Ieee.two_pos' k
  cases hnv : n v with
  | none =>
    rw [scaled_top hres.1, ieee.top32]
    cases f v
    · simp only [Bool.false_eq_true, if_false]
      exact ⟨Or.inl rfl, Or.inl (EReal.coe_mul_top_of_pos hk0)⟩
    · simp only [if_true, EReal.neg_top]
      exact ⟨Or.inr (Or.inl rfl), Or.inr (Or.inl (EReal.coe_mul_bot_of_pos hk0))⟩
  | some m =>
    obtain ⟨m1, m2⟩ := hn v m hv hnv
    obtain ⟨y, e1, e2, b1, b2, j1, j2⟩ := stored_scale hres hm hk m1 m2
    have conv : (2 : ℝ) ^ (-100 : ℤ) = 1 / 2 ^ 100 := zpow_neg_nat 100
    obtain ⟨i, hi⟩ := j1 (-100) (by rw [conv]; exact hlo)
    obtain ⟨j, hj⟩ := j2 (-100) (by rw [conv]; exact hlo')
    rw [show (-100 : ℤ) - 23 = -123 by norm_num] at hi hj
    rw [e1]
    cases f v
    · simp only [Bool.false_eq_true, if_false]
      exact ⟨Or.inr (Or.inr ⟨y, rfl, b1, i, hi⟩), Or.inr (Or.inr ⟨2 ^ k * y, by rw [EReal.coe_mul], b2, j, hj⟩)⟩
    · simp only [if_true]
      refine ⟨Or.inr (Or.inr ⟨-y, rfl, by rwa [abs_neg], -i, ?_⟩),
        Or.inr (Or.inr ⟨2 ^ k * -y, by rw [EReal.coe_mul, EReal.coe_neg], ?_, -j, ?_⟩)⟩
      · push_cast; rw [hi]; ring
      · rwa [mul_neg, abs_neg]
      · push_cast; rw [mul_neg, hj]; ring

end SdfGen

/-- C142, gradients.  Multiplying the cell size by a power of two changes no bit of any gradient. -/
theorem C142_gradient {res : ℝ} {k : ℤ} (hres : GoodRes ieee res) (hlo : 1 / 2 ^ 100 ≤ res) (hhi : res ≤ 2 ^ 100)
    (hlo' : 1 / 2 ^ 100 ≤ 2 ^ k * res) (hhi' : 2 ^ k * res ≤ 2 ^ 100) {d : Dims} {border : Bool}
    (hd : SmallGrid (work d border)) {fill : Idx → Option Bool} {f : Idx → Bool} (hf : Answers d fill f)
    {oob oob' : FVal} {o o' : Out} (ho : extract ieee (res, res, res) d fill oob border = some o)
    (ho' : extract ieee (2 ^ k * res, 2 ^ k * res, 2 ^ k * res) d fill oob' border = some o') (v : Idx)
    (edges : Bool) :
    (FSdf.mk o'.sdf (2 ^ k * res)).gridGrad ieee v edges = (FSdf.mk o.sdf res).gridGrad ieee v edges := by
  have hdims : ∀ {r : ℝ} {oob : FVal} {o : Out}, extract ieee (r, r, r) d fill oob border = some o →
      o.sdf.dims = d := by
    intro r oob o h
    cases border with
    | false =>
      obtain ⟨o', a, b, ho', hs'⟩ := base_spec (show SmallGrid d from hd) hf ieee r oob
      rw [extract_false, ho'] at h
      simp only [Option.some.injEq] at h
      subst h
      exact hs'.dims
    | true =>
      obtain ⟨o', _, _, _, _, _, _, ho', _, _, _, h', _⟩ := border_spec (show SmallGrid (enlarge d) from hd) hf ieee r oob
      rw [h] at ho'
      simp only [Option.some.injEq] at ho'
      subst ho'
      exact h'
  have e1 := hdims ho
  have e2 := hdims ho'
  have val := fun {j : Idx} (hj : InBounds d j) => plain_stored hres hlo hhi hlo' hhi' hd hf ho ho' hj
  have inner : ∀ {a b : Idx}, InBounds d a → InBounds d b →
      (FSdf.mk o'.sdf (2 ^ k * res)).inner ieee a b = (FSdf.mk o.sdf res).inner ieee a b := by
    intro a b ha hb
    obtain ⟨x, x1, x2, x3, x4⟩ := val ha
    obtain ⟨y, y1, y2, y3, y4⟩ := val hb
    obtain ⟨c, g, _, g0, r1, r2, r3, r4⟩ := recip_scale hlo hhi hlo' hhi' (n := 2) (by norm_num) le_rfl
    unfold FSdf.inner
    dsimp only
    rw [x1, x2, y1, y2, r1, r2, r3, r4, sub32_scale x3 y3 x4 y4, mul_cancel k _ g0]
  have edge : ∀ {a b : Idx} {n : Int}, InBounds d a → InBounds d b → 0 ≤ n → n ≤ 2 →
      (FSdf.mk o'.sdf (2 ^ k * res)).edge ieee n a b = (FSdf.mk o.sdf res).edge ieee n a b := by
    intro a b n ha hb n0 n2
    obtain ⟨x, x1, x2, x3, x4⟩ := val ha
    obtain ⟨y, y1, y2, y3, y4⟩ := val hb
    unfold FSdf.edge
    dsimp only
    rcases n0.eq_or_lt with rfl | hpos
    · have hz : ∀ r : ℝ, Fl.mul ieee (real ((0 : ℤ) : ℝ)) (real r) = real 0 := by
        intro r
        unfold Fl.mul real
        simp only [Int.cast_zero]
        rw [if_neg (by simp)]
        simp [zero64]
      rw [hz, hz]
      have : Fl.lt (real 0) (real 0) = false := by unfold Fl.lt real; simp
      rw [this]
      rfl
    · obtain ⟨c, g, c0, g0, r1, r2, r3, r4⟩ := recip_scale hlo hhi hlo' hhi' (n := (n : ℝ))
        (by exact_mod_cast hpos) (by exact_mod_cast n2)
      have lt : ∀ r : ℝ, 0 < r → Fl.lt (real 0) (real r) = true := by
        intro r hr
        unfold Fl.lt real
        simpa using hr
      rw [x1, x2, y1, y2, r1, r2, lt _ c0, lt _ (mul_pos (Ieee.two_pos' k) c0), r3, r4, sub_scale x3 y3 x4 y4,
        mul_cancel k _ g0]
  unfold FSdf.gridGrad
  dsimp only
  rw [e1, e2]
  by_cases hv : d.inB v = true
  · rw [if_pos hv, if_pos hv]
    have hb := inB_iff_spec.mp hv
    obtain ⟨⟨a1, a2⟩, ⟨b1, b2⟩, c1, c2⟩ := hb
    split_ifs with h1
    · obtain ⟨l1, l2, l3, u1, u2, u3⟩ := h1
      rw [inner, inner, inner] <;> (unfold InBounds; dsimp only; omega)
    · rw [edge, edge, edge] <;> first | (unfold InBounds; dsimp only; omega) | omega
    · rfl
  · rw [if_neg hv, if_neg hv]

/-- A concrete case: a filled corner of a 4 × 3 × 2 grid, cell sizes 1/4 and 2. -/
example : GoodRes ieee (1 / 4) ∧ Moderate (1 / 4) ∧ Moderate (2 ^ (3 : ℤ) * (1 / 4)) ∧
    SmallGrid (work ⟨4, 3, 2⟩ true) ∧ SmallGrid (work ⟨4, 3, 2⟩ false) ∧
    ∃ o o' : Out, extract ieee ((1 / 4 : ℝ), (1 / 4 : ℝ), (1 / 4 : ℝ)) ⟨4, 3, 2⟩ (fun i => some (i.x == 0)) none true =
      some o ∧
    extract ieee (2 ^ (3 : ℤ) * (1 / 4), 2 ^ (3 : ℤ) * (1 / 4), 2 ^ (3 : ℤ) * (1 / 4)) ⟨4, 3, 2⟩
      (fun i => some (i.x == 0)) none true = some o' := by
  have hf : Answers ⟨4, 3, 2⟩ (fun i => some (i.x == 0)) (fun i => i.x == 0) := fun _ _ => rfl
  have hd : SmallGrid (enlarge ⟨4, 3, 2⟩) := by unfold SmallGrid enlarge off; decide
  obtain ⟨o, _, _, _, _, _, _, ho, _⟩ := border_spec hd hf ieee (1 / 4) none
  obtain ⟨o', _, _, _, _, _, _, ho', _⟩ := border_spec hd hf ieee (2 ^ (3 : ℤ) * (1 / 4)) none
  refine ⟨⟨by norm_num, ?_⟩, ⟨by norm_num, by norm_num⟩, ⟨by norm_num, by norm_num⟩, hd,
    by unfold work SmallGrid; decide, o, o', ho, ho'⟩
  have h := Ieee.round_exact (F := Ieee.binary64) (n := 1) (e := -2) (by decide) (by decide)
    (by
      rw [Nat.cast_one, one_mul]
      exact zpow_lt_zpow_right₀ (by norm_num) (by decide))
  have e : ((1 : ℕ) : ℝ) * 2 ^ (-2 : ℤ) = 1 / 4 := by norm_num
  rw [e] at h
  exact h

end Verif
