import Verif.InterpFloat
import Verif.Props.SdfDisplayFloat
import Verif.Props.Interp

/-!
# C101: distance estimates in floating point
-/

namespace Verif

open Spec DField SdfGen

namespace Ieee

/-- Every rounded real below the overflow range: relative error of the precision, plus one quantum. -/
theorem round_real {F : Format} (hp : 1 ≤ F.prec) (hF : F.emin ≤ F.emax) {z : ℝ} (hz : |z| ≤ 2 ^ F.emax) :
    ∃ w : ℝ, round F (z : EReal) = (w : EReal) ∧
      |w - z| ≤ |z| * 2 ^ (-(F.prec : ℤ)) + 2 ^ (F.emin - (F.prec - 1)) := by
  have key : ∀ x : ℝ, 0 ≤ x → x ≤ 2 ^ F.emax → ∃ w : ℝ, round F (x : EReal) = (w : EReal) ∧
      |w - x| ≤ x * 2 ^ (-(F.prec : ℤ)) + 2 ^ (F.emin - (F.prec - 1)) := by
    intro x hx hle
    rcases lt_or_ge x (2 ^ F.emin) with hlt | hge
    · rcases hx.eq_or_lt with rfl | hpos
      · refine ⟨0, ?_, by simp; positivity⟩
        rw [round_coe _ le_rfl, roundMag_zero]; rfl
      have hq : quantum F x = F.emin - (F.prec - 1) := by
        unfold quantum
        rw [max_eq_right (log_lt hpos hlt).le]
      refine ⟨magnitude F x, ?_, ?_⟩
      · rw [round_coe _ hx]
        unfold roundMag
        rw [if_pos]
        have h := magnitude_mono (F := F) hp hx hlt.le
        have h1 := magnitude_exact (F := F) (n := 1) (e := F.emin) (Nat.one_lt_two_pow (by omega)) (by omega)
        rw [Nat.cast_one, one_mul] at h1
        rw [h1] at h
        exact h.trans_lt (zpow_lt_zpow_right₀ (by norm_num) (by omega))
      · have h := nearest_error (x / 2 ^ quantum F x)
        have hu := two_pos' (quantum F x)
        have h1 : magnitude F x - x
            = (nearest (x / 2 ^ quantum F x) - x / 2 ^ quantum F x) * 2 ^ quantum F x := by
          unfold magnitude
          rw [sub_mul, div_mul_cancel₀ _ hu.ne']
        rw [h1, abs_mul, abs_of_pos hu]
        have h2 := mul_le_mul_of_nonneg_right h hu.le
        rw [hq] at h2 hu ⊢
        have : 0 ≤ x * 2 ^ (-(F.prec : ℤ)) := by positivity
        linarith
    · obtain ⟨w, h1, h2, -⟩ := round_error (F := F) hge hle hp hF
      refine ⟨w, h1, h2.trans ?_⟩
      have := two_pos' (F.emin - (F.prec - 1))
      linarith
  rcases le_total 0 z with h | h
  · rw [abs_of_nonneg h] at hz ⊢
    exact key z h hz
  · rw [abs_of_nonpos h] at hz ⊢
    obtain ⟨w, h1, h2⟩ := key (-z) (by linarith) hz
    refine ⟨-w, ?_, ?_⟩
    · rw [EReal.coe_neg, round_neg] at h1
      rw [EReal.coe_neg, ← h1, neg_neg]
    · rwa [show -w - z = -(w - -z) by ring, abs_neg]

theorem r64_real {z : ℝ} (hz : |z| ≤ 2 ^ (1000 : ℤ)) :
    ∃ w : ℝ, ieee.r64 (z : EReal) = (w : EReal) ∧ |w - z| ≤ |z| / 2 ^ 53 + 2 ^ (-1074 : ℤ) := by
  obtain ⟨w, h1, h2⟩ := round_real (F := binary64) (by decide) (by decide) (hz.trans (two_mono (by decide)))
  refine ⟨w, h1, h2.trans (le_of_eq ?_)⟩
  have : (2 : ℝ) ^ (-(binary64.prec : ℤ)) = 1 / 2 ^ 53 := zpow_neg_nat 53
  rw [this, mul_one_div]
  rfl

theorem r32_real {z : ℝ} (hz : |z| ≤ 2 ^ (127 : ℤ)) :
    ∃ w : ℝ, ieee.r32 (z : EReal) = (w : EReal) ∧ |w - z| ≤ |z| / 2 ^ 24 + 2 ^ (-149 : ℤ) := by
  obtain ⟨w, h1, h2⟩ := round_real (F := binary32) (by decide) (by decide) hz
  refine ⟨w, h1, h2.trans (le_of_eq ?_)⟩
  have : (2 : ℝ) ^ (-(binary32.prec : ℤ)) = 1 / 2 ^ 24 := zpow_neg_nat 24
  rw [this, mul_one_div]
  rfl

end Ieee

namespace FSdf

open Fl

/-! ## Fields with infinite values -/

/-- Values that are not numbers of finite size. -/
def NotFinite (a : FVal) : Prop := a = none ∨ a = some ⊤ ∨ a = some ⊥

theorem bot64 (R : Rounding) : R.r64 ⊥ = ⊥ := by
  have := R.odd64 ⊤
  rwa [EReal.neg_top, R.top64] at this

theorem mul_notFinite (R : Rounding) (a : FVal) {b : FVal} (h : NotFinite b) : NotFinite (mul R a b) := by
  classical
  rcases a with _ | x
  · left; rfl
  rcases h with rfl | rfl | rfl
  · left; rfl
  all_goals
    unfold mul
    simp only
    split_ifs with hc
    · left; rfl
    · rcases lt_trichotomy x 0 with h | rfl | h
      · first
        | (rw [EReal.mul_top_of_neg h, bot64]; right; right; rfl)
        | (rw [EReal.mul_bot_of_neg h, R.top64]; right; left; rfl)
      · simp at hc
      · first
        | (rw [EReal.mul_top_of_pos h, R.top64]; right; left; rfl)
        | (rw [EReal.mul_bot_of_pos h, bot64]; right; right; rfl)

theorem mul_comm' (R : Rounding) (a b : FVal) : mul R a b = mul R b a := by
  classical
  rcases a with _ | x <;> rcases b with _ | y <;> try rfl
  unfold mul
  simp only [mul_comm x y]
  congr 1
  apply propext
  tauto

theorem add_notFinite (R : Rounding) {a : FVal} (ha : NotFinite a) (b : FVal) : NotFinite (add R a b) := by
  rcases ha with rfl | rfl | rfl
  · left; rfl
  all_goals
    rcases b with _ | y
    · left; rfl
    induction y <;> simp [add, NotFinite, R.top64, bot64]

/-- `v - v` is NaN for a value that is not a number of finite size. -/
theorem sub_self_notFinite (R : Rounding) {a : FVal} (h : NotFinite a) : sub R a a = none := by
  rcases h with rfl | rfl | rfl <;> simp [sub, neg, add]

theorem mul_none (R : Rounding) (a : FVal) : mul R a none = none := by cases a <;> rfl
theorem none_mul (R : Rounding) (a : FVal) : mul R none a = none := by cases a <;> rfl
theorem add_none (R : Rounding) (a : FVal) : add R a none = none := by cases a <;> rfl

theorem bilinearXY_notFinite (R : Rounding) (s : FSdf) (c q : V3 FVal) {v : FVal} (h : NotFinite v) :
    NotFinite (bilinearXY R s c q v v v v) := by
  unfold bilinearXY bilinear
  refine add_notFinite R ?_ _
  rw [mul_comm']
  exact mul_notFinite R _ (add_notFinite R (mul_notFinite R _ h) _)

theorem trilinear_notFinite (R : Rounding) (s : FSdf) (c q : V3 FVal) {v : FVal} (h : NotFinite v) :
    trilinear R s c q v v v v v v v v = none := by
  unfold trilinear
  simp only [sub_self_notFinite R (bilinearXY_notFinite R s c q h), none_mul, mul_none, add_none]

theorem axisIdx_inB {i n : Int} (h : 0 ≤ i ∧ i < n) (b : Bool) :
    (0 ≤ (axisIdx i n b).1 ∧ (axisIdx i n b).1 < n) ∧ 0 ≤ (axisIdx i n b).2 ∧ (axisIdx i n b).2 < n := by
  unfold axisIdx
  split_ifs <;> simp only <;> omega

/-- The corrected distance of a cell, from its stored value. -/
theorem corrected_eq (R : Rounding) {s : FSdf} {i : Idx} (hi : InBounds s.grid.dims i) :
    s.corrected R i = some (if geZero (s.grid.get i) then sub R (s.grid.get i) (mul R (real s.res) (real (1 / 2)))
      else add R (s.grid.get i) (mul R (real s.res) (real (1 / 2)))) := by
  unfold corrected
  rw [if_pos (inB_iff_spec.mpr hi)]
  simp only
  split_ifs <;> rfl

theorem corrected_notFinite (R : Rounding) {s : FSdf} {v : FVal} (h : NotFinite v) :
    ∃ w, NotFinite w ∧ ∀ j, InBounds s.grid.dims j → s.grid.get j = v → s.corrected R j = some w := by
  refine ⟨if geZero v then sub R v (mul R (real s.res) (real (1 / 2)))
      else add R v (mul R (real s.res) (real (1 / 2))), ?_, fun j hj hv => by rw [corrected_eq R hj, hv]⟩
  split_ifs <;> exact add_notFinite R h _

/-- The cells that an estimate at cell `i` reads. -/
def Reads (d : Dims) (i j : Idx) : Prop :=
  InBounds d j ∧ |j.x - i.x| ≤ 1 ∧ |j.y - i.y| ≤ 1 ∧ |j.z - i.z| ≤ 1

theorem axisIdx_near (i n : Int) (b : Bool) :
    |(axisIdx i n b).1 - i| ≤ 1 ∧ |(axisIdx i n b).2 - i| ≤ 1 := by
  unfold axisIdx
  split_ifs <;> simp

theorem estGrid_notFinite (R : Rounding) {s : FSdf} {i : Idx} (hi : InBounds s.grid.dims i) {v : FVal}
    (h : NotFinite v) (hall : ∀ j, Reads s.grid.dims i j → s.grid.get j = v) (p : V3 FVal) :
    s.estGrid R p i = some none := by
  obtain ⟨w, hw, hc⟩ := corrected_notFinite R (s := s) h
  unfold estGrid
  dsimp only
  obtain ⟨⟨x1, x2⟩, ⟨y1, y2⟩, z1, z2⟩ := hi
  generalize geZero (sub R p.x (s.center R i).x) = bx
  generalize geZero (sub R p.y (s.center R i).y) = by'
  generalize geZero (sub R p.z (s.center R i).z) = bz
  have hx := axisIdx_inB ⟨x1, x2⟩ bx
  have hy := axisIdx_inB ⟨y1, y2⟩ by'
  have hz := axisIdx_inB ⟨z1, z2⟩ bz
  have nx := axisIdx_near i.x s.grid.dims.nx bx
  have ny := axisIdx_near i.y s.grid.dims.ny by'
  have nz := axisIdx_near i.z s.grid.dims.nz bz
  have hr : ∀ a b c, (0 ≤ a ∧ a < (s.grid.dims.nx : Int)) → (0 ≤ b ∧ b < (s.grid.dims.ny : Int)) →
      (0 ≤ c ∧ c < (s.grid.dims.nz : Int)) → |a - i.x| ≤ 1 → |b - i.y| ≤ 1 → |c - i.z| ≤ 1 →
      s.corrected R ⟨a, b, c⟩ = some w := by
    intro a b c ha hb hc' h1 h2 h3
    have hin : InBounds s.grid.dims ⟨a, b, c⟩ := ⟨ha, hb, hc'⟩
    exact hc _ hin (hall _ ⟨hin, h1, h2, h3⟩)
  rw [hr _ _ _ hx.1 hy.1 hz.1 nx.1 ny.1 nz.1, hr _ _ _ hx.1 hy.1 hz.2 nx.1 ny.1 nz.2,
    hr _ _ _ hx.1 hy.2 hz.1 nx.1 ny.2 nz.1, hr _ _ _ hx.1 hy.2 hz.2 nx.1 ny.2 nz.2,
    hr _ _ _ hx.2 hy.1 hz.1 nx.2 ny.1 nz.1, hr _ _ _ hx.2 hy.1 hz.2 nx.2 ny.1 nz.2,
    hr _ _ _ hx.2 hy.2 hz.1 nx.2 ny.2 nz.1, hr _ _ _ hx.2 hy.2 hz.2 nx.2 ny.2 nz.2]
  show some (trilinear R s _ p w w w w w w w w) = _
  rw [trilinear_notFinite R _ _ _ hw]

/-- C101, the failing case: when the cells around the location share an infinite value, the estimate is NaN and
is reported as valid, whatever the rounding. -/
theorem C101_infinite (R : Rounding) (toGrid : V3 FVal → V3 FVal) (locIdx : V3 FVal → Idx) {s : FSdf}
    {p : V3 FVal} (hp : InBounds s.grid.dims (locIdx p))
    (hall : (∀ j, Reads s.grid.dims (locIdx p) j → s.grid.get j = some ⊤) ∨
      ∀ j, Reads s.grid.dims (locIdx p) j → s.grid.get j = some ⊥) :
    s.estimate R toGrid locIdx p = some (none, true) := by
  unfold estimate
  rw [if_pos (inB_iff_spec.mpr hp)]
  rcases hall with h | h
  · rw [estGrid_notFinite R hp (Or.inr (Or.inl rfl)) h]; rfl
  · rw [estGrid_notFinite R hp (Or.inr (Or.inr rfl)) h]; rfl

/-- C101, a map without obstacles: every estimate inside the grid is NaN and is reported as valid. -/
theorem C101_no_obstacle {R : Rounding} {res : ℝ} (hres : GoodRes R res) {d : Dims} (hd : SmallGrid d)
    {fill : Idx → Option Bool} (hf : Answers d fill fun _ => false) {oob : FVal}
    {o : Out} (ho : extract R (res, res, res) d fill oob false = some o)
    (toGrid : V3 FVal → V3 FVal) (locIdx : V3 FVal → Idx) {p : V3 FVal} (hp : InBounds d (locIdx p)) :
    (FSdf.mk o.sdf res).estimate R toGrid locIdx p = some (none, true) := by
  have hall := ((C14_uniform hres hd hp hf ho).1 fun _ _ => rfl).1
  have hdim : o.sdf.dims = d := by
    obtain ⟨o', a', b', ho', hs⟩ := base_spec hd hf R res oob
    rw [extract_false, ho'] at ho
    rw [← Option.some.inj ho]
    exact hs.dims
  refine C101_infinite R toGrid locIdx (s := ⟨o.sdf, res⟩) (hdim.symm ▸ hp) (Or.inl fun j hj => hall j ?_)
  rw [← hdim]; exact hj.1

/-! ## Error propagation

`Ap ε a x s B k`: the computed value `a` is a number within `k * ε * s` of `x`, and `x` is at most `B * s`; `s` is
the scale of the quantity. -/

def Ap (ε : ℝ) (a : FVal) (x s B k : ℝ) : Prop := |x| ≤ B * s ∧ ∃ y : ℝ, a = real y ∧ |y - x| ≤ k * ε * s

/-- The range of scales in which neither overflow nor underflow matters. -/
def Scale (s : ℝ) : Prop := 2 ^ (-900 : ℤ) ≤ s ∧ s ≤ 2 ^ (900 : ℤ)

/-- The range of the error unit. -/
def Unit' (ε : ℝ) : Prop := 1 / 2 ^ 52 ≤ ε ∧ ε ≤ 1 / 2 ^ 32

theorem Scale.pos {s : ℝ} (h : Scale s) : 0 < s := lt_of_lt_of_le (by positivity) h.1

theorem Unit'.pos {ε : ℝ} (h : Unit' ε) : 0 < ε := lt_of_lt_of_le (by norm_num) h.1

theorem round_ap' {ε z x s C e : ℝ} (hε : Unit' ε) (hs : Scale s) (hx : |x| ≤ C * s) (hz : |z - x| ≤ e * s)
    (hC : C ≤ 2 ^ 21) (he : e ≤ 1 / 4) :
    ∃ w : ℝ, ieee.r64 (z : EReal) = (w : EReal) ∧ |w - x| ≤ (e + (C + 1 / 4) / 2 ^ 53 + ε / 8) * s := by
  have hp := hs.pos
  have hzb : |z| ≤ (C + 1 / 4) * s := by
    have := abs_sub_abs_le_abs_sub z x
    have : e * s ≤ 1 / 4 * s := by gcongr
    linarith
  have hbig : |z| ≤ 2 ^ (1000 : ℤ) := by
    have h1 : (C + 1 / 4) * s ≤ 2 ^ 22 * 2 ^ (900 : ℤ) := by
      have : C + 1 / 4 ≤ 2 ^ 22 := by norm_num at hC ⊢; linarith
      exact mul_le_mul this hs.2 hp.le (by norm_num)
    have h2 : (2 : ℝ) ^ 22 * 2 ^ (900 : ℤ) ≤ 2 ^ (1000 : ℤ) := by
      rw [← zpow_natCast, ← Ieee.two_add]
      exact Ieee.two_mono (by norm_num)
    exact hzb.trans (h1.trans h2)
  obtain ⟨w, h1, h2⟩ := Ieee.r64_real hbig
  refine ⟨w, h1, ?_⟩
  have ht : (2 : ℝ) ^ (-1074 : ℤ) ≤ 1 / 2 ^ 56 * s := by
    have : (2 : ℝ) ^ (-1074 : ℤ) ≤ 1 / 2 ^ 56 * 2 ^ (-900 : ℤ) := by
      rw [← zpow_neg_nat, ← Ieee.two_add]
      exact Ieee.two_mono (by norm_num)
    refine this.trans ?_
    have := hs.1
    gcongr
  have hε1 := hε.1
  have h3 : |w - x| ≤ |w - z| + |z - x| := abs_sub_le _ _ _
  have h4 : |z| / 2 ^ 53 ≤ (C + 1 / 4) * s / 2 ^ 53 := by gcongr
  have h5 : 1 / 2 ^ 56 * s ≤ ε / 8 * s := by
    have : (1 : ℝ) / 2 ^ 56 ≤ ε / 8 := by norm_num at hε1 ⊢; linarith
    gcongr
  calc |w - x| ≤ (C + 1 / 4) * s / 2 ^ 53 + ε / 8 * s + e * s := by linarith
    _ = _ := by ring

theorem round_ap {ε z x s C e : ℝ} (hε : Unit' ε) (hs : Scale s) (hx : |x| ≤ C * s) (hz : |z - x| ≤ e * s)
    (hC : C ≤ 2 ^ 21) (he : e ≤ 1 / 4) :
    ∃ w : ℝ, ieee.r64 (z : EReal) = (w : EReal) ∧ |w - x| ≤ (e + (C / 2 + 1 / 4) * ε) * s := by
  obtain ⟨w, h1, h2⟩ := round_ap' hε hs hx hz hC he
  refine ⟨w, h1, h2.trans (mul_le_mul_of_nonneg_right ?_ hs.pos.le)⟩
  have hC0 : 0 ≤ C := by
    by_contra hc
    have := mul_neg_of_neg_of_pos (not_le.mp hc) hs.pos
    linarith [abs_nonneg x]
  have h3 : (C + 1 / 4) / 2 ^ 53 ≤ (C + 1 / 4) * (ε / 2) := by
    rw [div_eq_mul_inv]
    have := hε.1
    have : ((2 : ℝ) ^ 53)⁻¹ ≤ ε / 2 := by norm_num at this ⊢; linarith
    gcongr
  linarith [show (C + 1 / 4) * (ε / 2) = (C / 2 + 1 / 8) * ε by ring]

theorem add_real (R : Rounding) (x y : ℝ) : add R (real x) (real y) = some (R.r64 ((x + y : ℝ) : EReal)) := by
  unfold add real
  simp

theorem sub_real (R : Rounding) (x y : ℝ) : sub R (real x) (real y) = some (R.r64 ((x - y : ℝ) : EReal)) := by
  have : neg (real y) = real (-y) := by unfold neg real; simp
  unfold sub
  rw [this, add_real, sub_eq_add_neg]

theorem mul_real (R : Rounding) (x y : ℝ) : mul R (real x) (real y) = some (R.r64 ((x * y : ℝ) : EReal)) := by
  unfold mul real
  simp

theorem div_real (R : Rounding) (x : ℝ) {y : ℝ} (hy : y ≠ 0) :
    div R (real x) (real y) = some (R.r64 ((x / y : ℝ) : EReal)) := by
  unfold div real
  simp only
  rw [SdfShow.fdiv_coe hy]
  rfl

theorem Ap.add {ε x y s B C k l E m : ℝ} {u v : FVal} (hε : Unit' ε) (hs : Scale s) (hu : Ap ε u x s B k)
    (hv : Ap ε v y s C l) (hE : |x + y| ≤ E * s) (hE' : E ≤ 2 ^ 21) (hkl : k + l ≤ 2 ^ 24)
    (hm : k + l + E / 2 + 1 / 4 ≤ m) : Ap ε (Fl.add ieee u v) (x + y) s E m := by
  obtain ⟨hx, x', rfl, hx'⟩ := hu
  obtain ⟨hy, y', rfl, hy'⟩ := hv
  refine ⟨hE, ?_⟩
  have hp := hs.pos
  have he := hε.pos
  have h1 : |x' + y' - (x + y)| ≤ (k + l) * ε * s := by
    rw [abs_le] at *
    constructor <;> linarith [hx'.1, hx'.2, hy'.1, hy'.2]
  obtain ⟨w, h2, h3⟩ := round_ap (z := x' + y') hε hs hE h1 hE' (by
    have := hε.2
    have : (k + l) * ε ≤ 2 ^ 24 * (1 / 2 ^ 32) := mul_le_mul hkl this he.le (by norm_num)
    norm_num at this ⊢; linarith)
  refine ⟨w, by rw [add_real, h2]; rfl, h3.trans ?_⟩
  have : (k + l) * ε + (E / 2 + 1 / 4) * ε ≤ m * ε := by nlinarith
  exact mul_le_mul_of_nonneg_right this hp.le

theorem Ap.sub {ε x y s B C k l E m : ℝ} {u v : FVal} (hε : Unit' ε) (hs : Scale s) (hu : Ap ε u x s B k)
    (hv : Ap ε v y s C l) (hE : |x - y| ≤ E * s) (hE' : E ≤ 2 ^ 21) (hkl : k + l ≤ 2 ^ 24)
    (hm : k + l + E / 2 + 1 / 4 ≤ m) : Ap ε (Fl.sub ieee u v) (x - y) s E m := by
  obtain ⟨hx, x', rfl, hx'⟩ := hu
  obtain ⟨hy, y', rfl, hy'⟩ := hv
  refine ⟨hE, ?_⟩
  have hp := hs.pos
  have he := hε.pos
  have h1 : |x' - y' - (x - y)| ≤ (k + l) * ε * s := by
    rw [abs_le] at *
    constructor <;> linarith [hx'.1, hx'.2, hy'.1, hy'.2]
  obtain ⟨w, h2, h3⟩ := round_ap (z := x' - y') hε hs hE h1 hE' (by
    have := hε.2
    have : (k + l) * ε ≤ 2 ^ 24 * (1 / 2 ^ 32) := mul_le_mul hkl this he.le (by norm_num)
    norm_num at this ⊢; linarith)
  refine ⟨w, by rw [sub_real, h2]; rfl, h3.trans ?_⟩
  have : (k + l) * ε + (E / 2 + 1 / 4) * ε ≤ m * ε := by nlinarith
  exact mul_le_mul_of_nonneg_right this hp.le

theorem Ap.mul {ε x y s t B C k l m : ℝ} {u v : FVal} (hε : Unit' ε) (hst : Scale (s * t)) (hs : 0 < s)
    (hu : Ap ε u x s B k) (hv : Ap ε v y t C l) (hB0 : 0 ≤ B) (hC0 : 0 ≤ C) (hk0 : 0 ≤ k)
    (hl0 : 0 ≤ l) (hB : B ≤ 2 ^ 8) (hC : C ≤ 2 ^ 8) (hk : k ≤ 2 ^ 12) (hl : l ≤ 2 ^ 12)
    (hm : k * C + l * B + B * C / 2 + 1 / 2 ≤ m) : Ap ε (Fl.mul ieee u v) (x * y) (s * t) (B * C) m := by
  obtain ⟨hx, x', rfl, hx'⟩ := hu
  obtain ⟨hy, y', rfl, hy'⟩ := hv
  have he := hε.pos
  have he2 := hε.2
  have hE : |x * y| ≤ B * C * (s * t) := by
    rw [abs_mul]
    calc |x| * |y| ≤ (B * s) * (C * t) := mul_le_mul hx hy (abs_nonneg _) (by positivity)
      _ = _ := by ring
  refine ⟨hE, ?_⟩
  have h1 : |x' * y' - x * y| ≤ ((k * C + l * B + k * l * ε) * ε) * (s * t) := by
    have hd : x' * y' - x * y = (x' - x) * y + x * (y' - y) + (x' - x) * (y' - y) := by ring
    rw [hd]
    refine (abs_add_le _ _).trans ((add_le_add_left (abs_add_le _ _) _).trans ?_)
    rw [abs_mul, abs_mul, abs_mul]
    have e1 : |x' - x| * |y| ≤ (k * ε * s) * (C * t) := mul_le_mul hx' hy (abs_nonneg _) (by positivity)
    have e2 : |x| * |y' - y| ≤ (B * s) * (l * ε * t) := mul_le_mul hx hy' (abs_nonneg _) (by positivity)
    have e3 : |x' - x| * |y' - y| ≤ (k * ε * s) * (l * ε * t) := mul_le_mul hx' hy' (abs_nonneg _) (by positivity)
    calc _ ≤ (k * ε * s) * (C * t) + (B * s) * (l * ε * t) + (k * ε * s) * (l * ε * t) := by linarith
      _ = _ := by ring
  have b1 : k * l * ε ≤ 1 / 8 := by
    have : k * l * ε ≤ 2 ^ 12 * 2 ^ 12 * (1 / 2 ^ 32) := by gcongr
    norm_num at this ⊢; linarith
  have b2 : k * C ≤ 2 ^ 12 * 2 ^ 8 := by gcongr
  have b3 : l * B ≤ 2 ^ 12 * 2 ^ 8 := by gcongr
  have b4 : B * C ≤ 2 ^ 8 * 2 ^ 8 := by gcongr
  obtain ⟨w, h2, h3⟩ := round_ap (z := x' * y') hε hst hE h1 (by norm_num at b4 ⊢; linarith) (by
    have : (k * C + l * B + k * l * ε) * ε ≤ (2 ^ 12 * 2 ^ 8 + 2 ^ 12 * 2 ^ 8 + 1 / 8) * (1 / 2 ^ 32) := by
      gcongr
    norm_num at this ⊢; linarith)
  refine ⟨w, by rw [mul_real, h2]; rfl, h3.trans ?_⟩
  have : (k * C + l * B + k * l * ε) * ε + (B * C / 2 + 1 / 4) * ε ≤ m * ε := by
    rw [← add_mul]
    exact mul_le_mul_of_nonneg_right (by linarith) he.le
  exact mul_le_mul_of_nonneg_right this hst.pos.le

/-- The reciprocal of a quantity that approximates its own scale. -/
theorem Ap.inv {ε s B k m : ℝ} {u : FVal} (hε : Unit' ε) (hs : 0 < s) (hs' : Scale (1 / s)) (hu : Ap ε u s s B k)
    (hk0 : 0 ≤ k) (hk : k ≤ 2 ^ 8) (hm : k + 1 ≤ m) :
    Ap ε (Fl.div ieee (real 1) u) (1 / s) (1 / s) 1 m := by
  obtain ⟨hx, x', rfl, hx'⟩ := hu
  have he := hε.pos
  have he2 := hε.2
  have hke : k * ε ≤ 1 / 2 ^ 24 := by
    have : k * ε ≤ 2 ^ 8 * (1 / 2 ^ 32) := by gcongr
    norm_num at this ⊢; linarith
  have h0 : |1 / s| ≤ 1 * (1 / s) := by rw [one_mul, abs_of_pos (by positivity)]
  refine ⟨h0, ?_⟩
  rw [abs_le] at hx'
  have hks : k * ε * s ≤ 1 / 2 ^ 24 * s := by gcongr
  have hx0 : (1 - 1 / 2 ^ 24) * s ≤ x' := by linarith
  have hxpos : 0 < x' := lt_of_lt_of_le (by norm_num; exact hs) hx0
  have h1 : |1 / x' - 1 / s| ≤ ((k + 1 / 64) * ε) * (1 / s) := by
    have hd : 1 / x' - 1 / s = (s - x') / x' * (1 / s) := by field_simp
    rw [hd, abs_mul, abs_of_pos (show 0 < 1 / s by positivity), abs_div, abs_of_pos hxpos]
    gcongr
    rw [div_le_iff₀ hxpos]
    have e1 : |s - x'| ≤ k * ε * s := by rw [abs_le]; constructor <;> linarith
    have e2 : k * ε * s ≤ (k + 1 / 64) * ε * ((1 - 1 / 2 ^ 24) * s) := by
      have : k ≤ (k + 1 / 64) * (1 - 1 / 2 ^ 24) := by norm_num at hk ⊢; linarith
      calc k * ε * s ≤ ((k + 1 / 64) * (1 - 1 / 2 ^ 24)) * ε * s := by gcongr
        _ = _ := by ring
    have e3 : (k + 1 / 64) * ε * ((1 - 1 / 2 ^ 24) * s) ≤ (k + 1 / 64) * ε * x' := by gcongr
    linarith
  obtain ⟨w, h2, h3⟩ := round_ap (z := 1 / x') hε hs' h0 h1 (by norm_num) (by
    have : 1 / 64 * ε ≤ 1 / 64 * (1 / 2 ^ 32) := by gcongr
    norm_num at this hke ⊢; linarith)
  refine ⟨w, by rw [div_real _ _ hxpos.ne', h2]; rfl, h3.trans ?_⟩
  have : (k + 1 / 64) * ε + (1 / 2 + 1 / 4) * ε ≤ m * ε := by
    rw [← add_mul]
    exact mul_le_mul_of_nonneg_right (by linarith) he.le
  exact mul_le_mul_of_nonneg_right this hs'.pos.le

theorem Ap.add' {ε x y s B C k l m : ℝ} {u v : FVal} (hε : Unit' ε) (hs : Scale s) (hu : Ap ε u x s B k)
    (hv : Ap ε v y s C l) (hE' : B + C ≤ 2 ^ 21) (hkl : k + l ≤ 2 ^ 24)
    (hm : k + l + (B + C) / 2 + 1 / 4 ≤ m) : Ap ε (Fl.add ieee u v) (x + y) s (B + C) m :=
  Ap.add hε hs hu hv ((abs_add_le _ _).trans (by linarith [hu.1, hv.1])) hE' hkl hm

theorem Ap.sub' {ε x y s B C k l m : ℝ} {u v : FVal} (hε : Unit' ε) (hs : Scale s) (hu : Ap ε u x s B k)
    (hv : Ap ε v y s C l) (hE' : B + C ≤ 2 ^ 21) (hkl : k + l ≤ 2 ^ 24)
    (hm : k + l + (B + C) / 2 + 1 / 4 ≤ m) : Ap ε (Fl.sub ieee u v) (x - y) s (B + C) m :=
  Ap.sub hε hs hu hv ((abs_sub _ _).trans (by linarith [hu.1, hv.1])) hE' hkl hm

theorem Ap.exact (ε x : ℝ) {s : ℝ} (hs : 0 < s) : Ap ε (real x) x s (|x| / s) 0 :=
  ⟨by rw [div_mul_cancel₀ _ hs.ne'], x, rfl, by simp⟩

theorem Ap.weaken {ε x s B C k l : ℝ} {u : FVal} (hε : Unit' ε) (hs : 0 < s) (h : Ap ε u x s B k) (hB : B ≤ C)
    (hk : k ≤ l) : Ap ε u x s C l := by
  have := hε.pos
  obtain ⟨h1, y, h2, h3⟩ := h
  exact ⟨h1.trans (by gcongr), y, h2, h3.trans (by gcongr)⟩

/-- Between two powers of two. -/
def Rng (s : ℝ) (a b : ℤ) : Prop := (2 : ℝ) ^ a ≤ s ∧ s ≤ 2 ^ b

theorem Rng.pos {s : ℝ} {a b : ℤ} (h : Rng s a b) : 0 < s := (Ieee.two_pos' a).trans_le h.1

theorem Rng.mul {s t : ℝ} {a b c d : ℤ} (h : Rng s a b) (h' : Rng t c d) : Rng (s * t) (a + c) (b + d) := by
  unfold Rng
  rw [Ieee.two_add, Ieee.two_add]
  exact ⟨mul_le_mul h.1 h'.1 (Ieee.two_pos' _).le h.pos.le, mul_le_mul h.2 h'.2 h'.pos.le (Ieee.two_pos' _).le⟩

theorem Rng.inv {s : ℝ} {a b : ℤ} (h : Rng s a b) : Rng (1 / s) (-b) (-a) := by
  unfold Rng
  rw [zpow_neg, zpow_neg, one_div]
  exact ⟨inv_anti₀ h.pos h.2, inv_anti₀ (Ieee.two_pos' _) h.1⟩

theorem Rng.scale {s : ℝ} {a b : ℤ} (h : Rng s a b) (ha : -900 ≤ a) (hb : b ≤ 900) : Scale s :=
  ⟨(Ieee.two_mono ha).trans h.1, h.2.trans (Ieee.two_mono hb)⟩

/-- `BilinearInterpolate` on approximate corners and values. -/
theorem bilinear_ap {ε r V l1 l2 q1 q2 vll vlh vhl vhh B1 C1 B2 C2 : ℝ} {L1 H1 L2 H2 ll lh hl hh : FVal}
    (hε : Unit' ε) (hr : Rng r (-100) 100) (hV : Rng V (-101) 200)
    (hL1 : Ap ε L1 l1 r B1 1) (hH1 : Ap ε H1 (l1 + r) r C1 3)
    (hL2 : Ap ε L2 l2 r B2 1) (hH2 : Ap ε H2 (l2 + r) r C2 3)
    (o1 : |l1 + r - q1| ≤ 21 / 10 * r) (p1 : |q1 - l1| ≤ 21 / 10 * r)
    (o2 : |l2 + r - q2| ≤ 21 / 10 * r) (p2 : |q2 - l2| ≤ 21 / 10 * r)
    (hll : Ap ε ll vll V 1 2) (hlh : Ap ε lh vlh V 1 2) (hhl : Ap ε hl vhl V 1 2) (hhh : Ap ε hh vhh V 1 2) :
    Ap ε (bilinear ieee L1 H1 L2 H2 (real q1) (real q2) ll lh hl hh)
      (MSdf.bilinear id l1 (l1 + r) l2 (l2 + r) q1 q2 vll vlh vhl vhh) V 18 378 := by
  have r0 := hr.pos
  have V0 := hV.pos
  have sr : Scale r := hr.scale (by norm_num) (by norm_num)
  have srr : Scale (r * r) := (hr.mul hr).scale (by norm_num) (by norm_num)
  have rm := (hr.mul hr).inv
  have sm : Scale (1 / (r * r)) := rm.scale (by norm_num) (by norm_num)
  have ra := rm.mul hr
  have sa : Scale (1 / (r * r) * r) := ra.scale (by norm_num) (by norm_num)
  have rv := ra.mul hV
  have sv : Scale (1 / (r * r) * r * V) := rv.scale (by norm_num) (by norm_num)
  have rw' := rv.mul hr
  have sw : Scale (1 / (r * r) * r * V * r) := rw'.scale (by norm_num) (by norm_num)
  have d1 : Ap ε (Fl.sub ieee H1 L1) (l1 + r - l1) r 1 5 :=
    Ap.sub hε sr hH1 hL1 (by rw [add_sub_cancel_left, abs_of_pos r0, one_mul]) (by norm_num) (by norm_num)
      (by norm_num)
  have d2 : Ap ε (Fl.sub ieee H2 L2) (l2 + r - l2) r 1 5 :=
    Ap.sub hε sr hH2 hL2 (by rw [add_sub_cancel_left, abs_of_pos r0, one_mul]) (by norm_num) (by norm_num)
      (by norm_num)
  rw [add_sub_cancel_left] at d1 d2
  have pr : Ap ε (Fl.mul ieee (Fl.sub ieee H1 L1) (Fl.sub ieee H2 L2)) (r * r) (r * r) (1 * 1) 11 :=
    Ap.mul hε srr r0 d1 d2 (by norm_num) (by norm_num) (by norm_num) (by norm_num) (by norm_num) (by norm_num)
      (by norm_num) (by norm_num) (by norm_num)
  have m := Ap.inv (m := 12) hε srr.pos sm pr (by norm_num) (by norm_num) (by norm_num)
  have oh1 : Ap ε (Fl.sub ieee H1 (real q1)) (l1 + r - q1) r (21 / 10) 5 :=
    Ap.sub hε sr hH1 (Ap.exact ε q1 r0) o1 (by norm_num) (by norm_num) (by norm_num)
  have ol1 : Ap ε (Fl.sub ieee (real q1) L1) (q1 - l1) r (21 / 10) 3 :=
    Ap.sub hε sr (Ap.exact ε q1 r0) hL1 p1 (by norm_num) (by norm_num) (by norm_num)
  have oh2 : Ap ε (Fl.sub ieee H2 (real q2)) (l2 + r - q2) r (21 / 10) 5 :=
    Ap.sub hε sr hH2 (Ap.exact ε q2 r0) o2 (by norm_num) (by norm_num) (by norm_num)
  have ol2 : Ap ε (Fl.sub ieee (real q2) L2) (q2 - l2) r (21 / 10) 3 :=
    Ap.sub hε sr (Ap.exact ε q2 r0) hL2 p2 (by norm_num) (by norm_num) (by norm_num)
  have a := Ap.mul (m := 32) hε sa sm.pos m oh1 (by norm_num) (by norm_num) (by norm_num) (by norm_num) (by norm_num)
    (by norm_num) (by norm_num) (by norm_num) (by norm_num)
  have b := Ap.mul (m := 30) hε sa sm.pos m ol1 (by norm_num) (by norm_num) (by norm_num) (by norm_num) (by norm_num)
    (by norm_num) (by norm_num) (by norm_num) (by norm_num)
  have all := Ap.mul (m := 38) hε sv sa.pos a hll (by norm_num) (by norm_num) (by norm_num) (by norm_num)
    (by norm_num) (by norm_num) (by norm_num) (by norm_num) (by norm_num)
  have alh := Ap.mul (m := 38) hε sv sa.pos a hlh (by norm_num) (by norm_num) (by norm_num) (by norm_num)
    (by norm_num) (by norm_num) (by norm_num) (by norm_num) (by norm_num)
  have bhl := Ap.mul (m := 36) hε sv sa.pos b hhl (by norm_num) (by norm_num) (by norm_num) (by norm_num)
    (by norm_num) (by norm_num) (by norm_num) (by norm_num) (by norm_num)
  have bhh := Ap.mul (m := 36) hε sv sa.pos b hhh (by norm_num) (by norm_num) (by norm_num) (by norm_num)
    (by norm_num) (by norm_num) (by norm_num) (by norm_num) (by norm_num)
  have s0 := Ap.add' (m := 77) hε sv all bhl (by norm_num) (by norm_num) (by norm_num)
  have s1 := Ap.add' (m := 77) hε sv alh bhh (by norm_num) (by norm_num) (by norm_num)
  have t0 := Ap.mul (m := 188) hε sw sv.pos s0 oh2 (by norm_num) (by norm_num) (by norm_num) (by norm_num)
    (by norm_num) (by norm_num) (by norm_num) (by norm_num) (by norm_num)
  have t1 := Ap.mul (m := 180) hε sw sv.pos s1 ol2 (by norm_num) (by norm_num) (by norm_num) (by norm_num)
    (by norm_num) (by norm_num) (by norm_num) (by norm_num) (by norm_num)
  have e := Ap.add' (m := 378) hε sw t0 t1 (by norm_num) (by norm_num) (by norm_num)
  have hscale : 1 / (r * r) * r * V * r = V := by field_simp
  rw [hscale] at e
  have e' := Ap.weaken (C := 18) hε V0 e (by norm_num) le_rfl
  unfold bilinear MSdf.bilinear
  simp only [id, add_sub_cancel_left]
  exact e'

theorem center_ap {ε r : ℝ} {N : ℕ} {i : Int} (hε : Unit' ε) (hr : Rng r (-100) 100) (hN : N ≤ 2 ^ 20)
    (hεN : (N : ℝ) / 2 ^ 52 ≤ ε) (hi : 0 ≤ i ∧ i < N) :
    Ap ε (Fl.mul ieee (real r) (real ((i : ℝ) + 1 / 2))) (((i : ℝ) + 1 / 2) * r) r N 1 := by
  have r0 := hr.pos
  have h1 : (0 : ℝ) ≤ i := by exact_mod_cast hi.1
  have h2 : (i : ℝ) + 1 ≤ N := by exact_mod_cast hi.2
  have hN' : (N : ℝ) ≤ 2 ^ 20 := by exact_mod_cast hN
  have hx : |((i : ℝ) + 1 / 2) * r| ≤ N * r := by
    rw [abs_of_nonneg (by positivity)]
    gcongr
    linarith
  refine ⟨hx, ?_⟩
  obtain ⟨w, e1, e2⟩ := round_ap' (z := r * ((i : ℝ) + 1 / 2)) (e := 0) hε (hr.scale (by norm_num) (by norm_num)) hx
    (by rw [mul_comm r, sub_self, abs_zero, zero_mul]) (by norm_num at hN' ⊢; linarith) (by norm_num)
  refine ⟨w, by rw [mul_real, e1]; rfl, e2.trans (mul_le_mul_of_nonneg_right ?_ r0.le)⟩
  have := hε.1
  have e3 : ((N : ℝ) + 1 / 4) / 2 ^ 53 = (N : ℝ) / 2 ^ 52 / 2 + 1 / 2 ^ 52 / 8 := by ring
  rw [e3]
  linarith

theorem high_ap {ε r l : ℝ} {N : ℕ} {L : FVal} (hε : Unit' ε) (hr : Rng r (-100) 100) (hN : N ≤ 2 ^ 20)
    (hεN : (N : ℝ) / 2 ^ 52 ≤ ε) (h : Ap ε L l r N 1) : Ap ε (Fl.add ieee L (real r)) (l + r) r (N + 1) 3 := by
  have r0 := hr.pos
  have hN' : (N : ℝ) ≤ 2 ^ 20 := by exact_mod_cast hN
  obtain ⟨hl, y, rfl, hy⟩ := h
  have hx : |l + r| ≤ ((N : ℝ) + 1) * r := (abs_add_le _ _).trans (by rw [abs_of_pos r0]; linarith)
  refine ⟨hx, ?_⟩
  have hs := hε.2
  obtain ⟨w, e1, e2⟩ := round_ap' (z := y + r) (e := 1 * ε) hε (hr.scale (by norm_num) (by norm_num)) hx
    (by rwa [add_sub_add_right_eq_sub]) (by norm_num at hN' ⊢; linarith) (by norm_num at hs ⊢; linarith)
  refine ⟨w, by rw [add_real, e1]; rfl, e2.trans (mul_le_mul_of_nonneg_right ?_ r0.le)⟩
  have := hε.1
  have e3 : ((N : ℝ) + 1 + 1 / 4) / 2 ^ 53 = (N : ℝ) / 2 ^ 52 / 2 + 1 / 2 ^ 52 * (5 / 8) := by ring
  rw [e3]
  linarith

/-- The field stored in `float`s is the field `t` of the exact model. -/
def Stores (s : FSdf) (t : MSdf ℝ) : Prop :=
  s.grid.dims = t.grid.dims ∧ s.res = t.res ∧ ∀ i, InBounds t.grid.dims i → s.grid.get i = real (t.grid.get i)

/-- The corrected distance of the exact model. -/
noncomputable def adj (t : MSdf ℝ) (i : Idx) : ℝ :=
  if t.grid.get i ≥ 0 then t.grid.get i - t.res * (1 / 2) else t.grid.get i + t.res * (1 / 2)

theorem adj_eq {t : MSdf ℝ} {i : Idx} (hi : InBounds t.grid.dims i) : t.corrected i = some (adj t i) := by
  unfold MSdf.corrected adj
  rw [if_pos (inB_iff_spec.mpr hi)]
  split_ifs <;> rfl

theorem adj_le {t : MSdf ℝ} {D : ℝ} (hr : 0 < t.res) {i : Idx} (h : |t.grid.get i| ≤ D) :
    |adj t i| ≤ D + t.res / 2 := by
  unfold adj
  rw [abs_le] at *
  split_ifs <;> constructor <;> linarith

theorem corrected_ap {ε D : ℝ} {s : FSdf} {t : MSdf ℝ} (h : Stores s t) (hε : Unit' ε) (hr : Rng t.res (-100) 100)
    (hV : Rng (D + t.res / 2) (-101) 200) {i : Idx} (hi : InBounds t.grid.dims i) (hD : |t.grid.get i| ≤ D) :
    ∃ w, s.corrected ieee i = some w ∧ Ap ε w (adj t i) (D + t.res / 2) 1 2 := by
  obtain ⟨hd, hres, hv⟩ := h
  have r0 := hr.pos
  have he := hε.pos
  have hD0 : 0 ≤ D := (abs_nonneg _).trans hD
  have sV : Scale (D + t.res / 2) := hV.scale (by norm_num) (by norm_num)
  have hoff : Ap ε (Fl.mul ieee (real t.res) (real (1 / 2))) (t.res * (1 / 2)) (D + t.res / 2) 1 1 := by
    refine ⟨by rw [abs_of_pos (by positivity)]; linarith, ?_⟩
    obtain ⟨w, e1, e2⟩ := round_ap (z := t.res * (1 / 2)) (x := t.res * (1 / 2)) (C := 1 / 2) (e := 0) hε
      (hr.scale (by norm_num) (by norm_num)) (by rw [abs_of_pos (by positivity)]; linarith) (by simp) (by norm_num)
      (by norm_num)
    refine ⟨w, by rw [mul_real, e1]; rfl, e2.trans ?_⟩
    have : ε * (t.res / 2) ≤ ε * (D + t.res / 2) := by gcongr; linarith
    linarith
  have hx := Ap.exact ε (t.grid.get i) sV.pos
  rw [corrected_eq ieee (hd.symm ▸ hi), hv i hi, hres]
  refine ⟨_, rfl, ?_⟩
  have hle := adj_le r0 hD
  rw [← one_mul (D + t.res / 2)] at hle
  have hg : geZero (real (t.grid.get i)) = decide (t.grid.get i ≥ 0) := by
    unfold geZero real
    simp
  rw [hg]
  unfold adj at hle ⊢
  by_cases hpos : t.grid.get i ≥ 0
  · rw [if_pos hpos] at hle ⊢
    rw [if_pos (by simpa using hpos)]
    exact Ap.sub hε sV hx hoff hle (by norm_num) (by norm_num) (by norm_num)
  · rw [if_neg hpos] at hle ⊢
    rw [if_neg (by simpa using hpos)]
    exact Ap.add hε sV hx hoff hle (by norm_num) (by norm_num) (by norm_num)

theorem trilinear_ap {ε V : ℝ} {s : FSdf} {t : MSdf ℝ} (hres : s.res = t.res) {N : ℕ} (hε : Unit' ε)
    (hN : N ≤ 2 ^ 20) (hεN : (N : ℝ) / 2 ^ 52 ≤ ε) (hr : Rng t.res (-100) 100) (hV : Rng V (-101) 200)
    {c : V3 FVal} {l q : V3 ℝ} (hx : Ap ε c.x l.x t.res N 1) (hy : Ap ε c.y l.y t.res N 1)
    (hz : Ap ε c.z l.z t.res N 1)
    (ox : |l.x + t.res - q.x| ≤ 21 / 10 * t.res) (px : |q.x - l.x| ≤ 21 / 10 * t.res)
    (oy : |l.y + t.res - q.y| ≤ 21 / 10 * t.res) (py : |q.y - l.y| ≤ 21 / 10 * t.res)
    (pz : |q.z - l.z| ≤ 21 / 10 * t.res) {a1 a2 a3 a4 a5 a6 a7 a8 : FVal} {b1 b2 b3 b4 b5 b6 b7 b8 : ℝ}
    (h1 : Ap ε a1 b1 V 1 2) (h2 : Ap ε a2 b2 V 1 2) (h3 : Ap ε a3 b3 V 1 2) (h4 : Ap ε a4 b4 V 1 2)
    (h5 : Ap ε a5 b5 V 1 2) (h6 : Ap ε a6 b6 V 1 2) (h7 : Ap ε a7 b7 V 1 2) (h8 : Ap ε a8 b8 V 1 2) :
    ∃ y : ℝ, trilinear ieee s c ⟨real q.x, real q.y, real q.z⟩ a1 a2 a3 a4 a5 a6 a7 a8 = real y ∧
      |y - MSdf.trilinear id t l q b1 b2 b3 b4 b5 b6 b7 b8| ≤ 2316 * ε * V := by
  have r0 := hr.pos
  have V0 := hV.pos
  have sr : Scale t.res := hr.scale (by norm_num) (by norm_num)
  have sV : Scale V := hV.scale (by norm_num) (by norm_num)
  have ri := hr.inv
  have si : Scale (1 / t.res) := ri.scale (by norm_num) (by norm_num)
  have rs := hV.mul ri
  have ss : Scale (V * (1 / t.res)) := rs.scale (by norm_num) (by norm_num)
  have rt := hr.mul rs
  have st : Scale (t.res * (V * (1 / t.res))) := rt.scale (by norm_num) (by norm_num)
  have lo := bilinear_ap hε hr hV hx (high_ap hε hr hN hεN hx) hy (high_ap hε hr hN hεN hy) ox px oy py h1 h3 h5 h7
  have hi := bilinear_ap hε hr hV hx (high_ap hε hr hN hεN hx) hy (high_ap hε hr hN hεN hy) ox px oy py h2 h4 h6 h8
  have d := Ap.sub' (m := 775) hε sV hi lo (by norm_num) (by norm_num) (by norm_num)
  have er : Ap ε (real t.res) t.res t.res 1 0 := by
    have := Ap.exact ε t.res r0
    rwa [abs_of_pos r0, div_self r0.ne'] at this
  have inv := Ap.inv (m := 1) hε r0 si er (by norm_num) (by norm_num) (by norm_num)
  have slope := Ap.mul (m := 830) hε ss V0 d inv (by norm_num) (by norm_num) (by norm_num) (by norm_num) (by norm_num)
    (by norm_num) (by norm_num) (by norm_num) (by norm_num)
  have dz : Ap ε (Fl.sub ieee (real q.z) c.z) (q.z - l.z) t.res (21 / 10) 3 :=
    Ap.sub hε sr (Ap.exact ε q.z r0) hz pz (by norm_num) (by norm_num) (by norm_num)
  have pr := Ap.mul (m := 1890) hε st r0 dz slope (by norm_num) (by norm_num) (by norm_num) (by norm_num)
    (by norm_num) (by norm_num) (by norm_num) (by norm_num) (by norm_num)
  have hscale : t.res * (V * (1 / t.res)) = V := by field_simp
  rw [hscale] at pr
  obtain ⟨-, y, e1, e2⟩ := Ap.add' (m := 2316) hε sV lo pr (by norm_num) (by norm_num) (by norm_num)
  refine ⟨y, ?_, ?_⟩
  · unfold trilinear bilinearXY
    rw [hres]
    exact e1
  · unfold MSdf.trilinear MSdf.bilinearXY
    simp only [id] at e2 ⊢
    exact e2

/-! ## The choice of cells -/

/-- Linear interpolation along one axis between the two chosen cells. -/
noncomputable def blend (r q : ℝ) (f : Int → ℝ) (a : Int × Int) : ℝ :=
  (1 - (q / r - ((a.1 : ℝ) + 1 / 2))) * f a.1 + (q / r - ((a.1 : ℝ) + 1 / 2)) * f a.2

theorem trilinear_blend {t : MSdf ℝ} (hr : 0 < t.res) (q : V3 ℝ) (g : Int → Int → Int → ℝ) (a b c : Int × Int) :
    MSdf.trilinear id t (t.center ⟨a.1, b.1, c.1⟩) q (g a.1 b.1 c.1) (g a.1 b.1 c.2) (g a.1 b.2 c.1) (g a.1 b.2 c.2)
      (g a.2 b.1 c.1) (g a.2 b.1 c.2) (g a.2 b.2 c.1) (g a.2 b.2 c.2) =
    blend t.res q.z (fun z => blend t.res q.y (fun y => blend t.res q.x (fun x => g x y z) a) b) c := by
  unfold MSdf.trilinear MSdf.bilinearXY MSdf.bilinear MSdf.center blend
  simp only [id, add_sub_cancel_left]
  have := hr.ne'
  field_simp
  ring

theorem blend_sub (r q : ℝ) (f g : Int → ℝ) (a : Int × Int) :
    blend r q f a - blend r q g a = blend r q (fun x => f x - g x) a := by
  unfold blend
  ring

theorem blend_bound {r q F : ℝ} {f : Int → ℝ} {i n : Int} (hi : 0 ≤ i ∧ i < n)
    (hq : |q / r - ((i : ℝ) + 1 / 2)| ≤ 1) (hf : ∀ j, 0 ≤ j → j < n → |f j| ≤ F) (b : Bool) :
    |blend r q f (axisIdx i n b)| ≤ 3 * F := by
  have hin := axisIdx_inB hi b
  have hF : 0 ≤ F := (abs_nonneg _).trans (hf i hi.1 hi.2)
  have h1 := hf _ hin.1.1 hin.1.2
  have h2 := hf _ hin.2.1 hin.2.2
  have hc : (axisIdx i n b).1 = i ∨ (axisIdx i n b).1 = i - 1 := by
    unfold axisIdx
    split_ifs <;> simp
  unfold blend
  generalize f (axisIdx i n b).1 = u at h1 ⊢
  generalize f (axisIdx i n b).2 = v at h2 ⊢
  have ht : -1 ≤ q / r - (((axisIdx i n b).1 : ℝ) + 1 / 2) ∧ q / r - (((axisIdx i n b).1 : ℝ) + 1 / 2) ≤ 2 := by
    rw [abs_le] at hq
    rcases hc with h | h <;> rw [h] <;> push_cast <;> constructor <;> linarith
  generalize q / r - (((axisIdx i n b).1 : ℝ) + 1 / 2) = τ at ht ⊢
  refine (abs_add_le _ _).trans ?_
  rw [abs_mul, abs_mul]
  have e1 : |1 - τ| * |u| ≤ |1 - τ| * F := by gcongr
  have e2 : |τ| * |v| ≤ |τ| * F := by gcongr
  have e3 : |1 - τ| + |τ| ≤ 3 := by
    rcases le_total 0 τ with h | h <;> rcases le_total τ 1 with h' | h'
    · rw [abs_of_nonneg h, abs_of_nonneg (by linarith)]; linarith
    · rw [abs_of_nonneg h, abs_of_nonpos (by linarith)]; linarith
    · rw [abs_of_nonpos h, abs_of_nonneg (by linarith)]; linarith
    · linarith
  nlinarith

theorem blend_choice {r q F δ : ℝ} {f : Int → ℝ} {i n : Int} (hi : 0 ≤ i ∧ i < n) {b b' : Bool} (hδ : 0 ≤ δ)
    (hq : b ≠ b' → |q / r - ((i : ℝ) + 1 / 2)| ≤ δ) (hf : ∀ j, 0 ≤ j → j < n → |f j| ≤ F) :
    |blend r q f (axisIdx i n b) - blend r q f (axisIdx i n b')| ≤ 4 * δ * F := by
  have hF : 0 ≤ F := (abs_nonneg _).trans (hf i hi.1 hi.2)
  have h0 : |(0 : ℝ)| ≤ 4 * δ * F := by rw [abs_zero]; positivity
  by_cases hb : b = b'
  · rw [hb, sub_self]; exact h0
  by_cases hl : i - 1 < 0
  · have : axisIdx i n b = axisIdx i n b' := by
      unfold axisIdx; split_ifs <;> first | rfl | omega
    rw [this, sub_self]; exact h0
  by_cases hh : i + 1 ≥ n
  · have : axisIdx i n b = axisIdx i n b' := by
      unfold axisIdx; split_ifs <;> first | rfl | omega
    rw [this, sub_self]; exact h0
  have key : |blend r q f (i, i + 1) - blend r q f (i - 1, i)| ≤ 4 * δ * F := by
    have e : blend r q f (i, i + 1) - blend r q f (i - 1, i) =
        (q / r - ((i : ℝ) + 1 / 2)) * (f (i + 1) - 2 * f i + f (i - 1)) := by
      unfold blend
      push_cast
      ring
    rw [e, abs_mul]
    have h1 := hf (i - 1) (by omega) (by omega)
    have h2 := hf i hi.1 hi.2
    have h3 := hf (i + 1) (by omega) (by omega)
    have h4 : |f (i + 1) - 2 * f i + f (i - 1)| ≤ 4 * F := by
      rw [abs_le] at *
      constructor <;> linarith [h1.1, h1.2, h2.1, h2.2, h3.1, h3.2]
    calc _ ≤ δ * (4 * F) := mul_le_mul (hq hb) h4 (abs_nonneg _) hδ
      _ = _ := by ring
  have ht : axisIdx i n true = (i, i + 1) := by
    unfold axisIdx; rw [if_pos rfl, if_neg hh]
  have hf' : axisIdx i n false = (i - 1, i) := by
    unfold axisIdx; rw [if_neg (by simp), if_neg hl]
  cases b <;> cases b'
  · exact absurd rfl hb
  · rw [ht, hf', abs_sub_comm]; exact key
  · rw [ht, hf']; exact key
  · exact absurd rfl hb

theorem axisIdx_exact (i n : Int) (off : ℝ) : MSdf.axisIdx i n off = axisIdx i n (decide (off ≥ 0)) := by
  unfold MSdf.axisIdx axisIdx
  simp only [decide_eq_true_eq]

/-- The sign of the computed offset from the cell centre is the exact one, unless the offset is tiny. -/
theorem sign_ap {ε r q : ℝ} {N : ℕ} {i : Int} (hε : Unit' ε) (hr : Rng r (-100) 100) {c : FVal}
    (hc : Ap ε c (((i : ℝ) + 1 / 2) * r) r N 1) (hq : |q - ((i : ℝ) + 1 / 2) * r| ≤ r) :
    geZero (sub ieee (real q) c) ≠ decide (q - ((i : ℝ) + 1 / 2) * r ≥ 0) →
      |q / r - ((i : ℝ) + 1 / 2)| ≤ 2 * ε := by
  intro hne
  have r0 := hr.pos
  obtain ⟨-, w, hw, hd⟩ := Ap.sub (E := 1) (m := 2) hε (hr.scale (by norm_num) (by norm_num)) (Ap.exact ε q r0) hc
    (by rwa [one_mul]) (by norm_num) (by norm_num) (by norm_num)
  have hg : geZero (real w) = decide (0 ≤ w) := by
    unfold geZero real
    simp
  rw [hw, hg] at hne
  have hne' : ¬ (0 ≤ w ↔ q - ((i : ℝ) + 1 / 2) * r ≥ 0) := by
    intro h; exact hne (by simp only [h])
  have hsmall : |q - ((i : ℝ) + 1 / 2) * r| ≤ 2 * ε * r := by
    rw [abs_le] at hd ⊢
    rcases le_or_gt 0 w with h1 | h1 <;> rcases le_or_gt 0 (q - ((i : ℝ) + 1 / 2) * r) with h2 | h2
    · exact absurd ⟨fun _ => h2, fun _ => h1⟩ hne'
    · have := hε.pos
      have : 0 ≤ 2 * ε * r := by positivity
      constructor <;> linarith
    · have := hε.pos
      have : 0 ≤ 2 * ε * r := by positivity
      constructor <;> linarith
    · exact absurd ⟨fun h => absurd h (not_le.mpr h1), fun h => absurd h (not_le.mpr h2)⟩ hne'
  have e : q / r - ((i : ℝ) + 1 / 2) = (q - ((i : ℝ) + 1 / 2) * r) / r := by field_simp
  rw [e, abs_div, abs_of_pos r0, div_le_iff₀ r0]
  exact hsmall

/-- Changing the chosen cells where the location is next to a centre plane changes the interpolation little. -/
theorem blend3_choice {r V δ : ℝ} {g : Int → Int → Int → ℝ} {d : Dims} {i : Idx} (hi : InBounds d i) (q : V3 ℝ)
    (hδ : 0 ≤ δ) (hg : ∀ a b c, InBounds d ⟨a, b, c⟩ → |g a b c| ≤ V)
    (hx : |q.x / r - ((i.x : ℝ) + 1 / 2)| ≤ 1) (hy : |q.y / r - ((i.y : ℝ) + 1 / 2)| ≤ 1)
    (hz : |q.z / r - ((i.z : ℝ) + 1 / 2)| ≤ 1) {b1 b2 b3 c1 c2 c3 : Bool}
    (h1 : b1 ≠ c1 → |q.x / r - ((i.x : ℝ) + 1 / 2)| ≤ δ) (h2 : b2 ≠ c2 → |q.y / r - ((i.y : ℝ) + 1 / 2)| ≤ δ)
    (h3 : b3 ≠ c3 → |q.z / r - ((i.z : ℝ) + 1 / 2)| ≤ δ) :
    |blend r q.z (fun z => blend r q.y (fun y => blend r q.x (fun x => g x y z) (axisIdx i.x d.nx b1))
        (axisIdx i.y d.ny b2)) (axisIdx i.z d.nz b3) -
      blend r q.z (fun z => blend r q.y (fun y => blend r q.x (fun x => g x y z) (axisIdx i.x d.nx c1))
        (axisIdx i.y d.ny c2)) (axisIdx i.z d.nz c3)| ≤ 108 * δ * V := by
  obtain ⟨ix, iy, iz⟩ := hi
  have s1 : |blend r q.z (fun z => blend r q.y (fun y => blend r q.x (fun x => g x y z) (axisIdx i.x d.nx b1))
        (axisIdx i.y d.ny b2)) (axisIdx i.z d.nz b3) -
      blend r q.z (fun z => blend r q.y (fun y => blend r q.x (fun x => g x y z) (axisIdx i.x d.nx c1))
        (axisIdx i.y d.ny b2)) (axisIdx i.z d.nz b3)| ≤ 3 * (3 * (4 * δ * V)) := by
    rw [blend_sub]
    refine blend_bound iz hz (fun z z0 z1 => ?_) b3
    rw [blend_sub]
    refine blend_bound iy hy (fun y y0 y1 => ?_) b2
    exact blend_choice ix hδ h1 fun x x0 x1 => hg x y z ⟨⟨x0, x1⟩, ⟨y0, y1⟩, z0, z1⟩
  have s2 : |blend r q.z (fun z => blend r q.y (fun y => blend r q.x (fun x => g x y z) (axisIdx i.x d.nx c1))
        (axisIdx i.y d.ny b2)) (axisIdx i.z d.nz b3) -
      blend r q.z (fun z => blend r q.y (fun y => blend r q.x (fun x => g x y z) (axisIdx i.x d.nx c1))
        (axisIdx i.y d.ny c2)) (axisIdx i.z d.nz b3)| ≤ 3 * (4 * δ * (3 * V)) := by
    rw [blend_sub]
    refine blend_bound iz hz (fun z z0 z1 => ?_) b3
    refine blend_choice iy hδ h2 fun y y0 y1 => ?_
    exact blend_bound ix hx (fun x x0 x1 => hg x y z ⟨⟨x0, x1⟩, ⟨y0, y1⟩, z0, z1⟩) c1
  have s3 : |blend r q.z (fun z => blend r q.y (fun y => blend r q.x (fun x => g x y z) (axisIdx i.x d.nx c1))
        (axisIdx i.y d.ny c2)) (axisIdx i.z d.nz b3) -
      blend r q.z (fun z => blend r q.y (fun y => blend r q.x (fun x => g x y z) (axisIdx i.x d.nx c1))
        (axisIdx i.y d.ny c2)) (axisIdx i.z d.nz c3)| ≤ 4 * δ * (3 * (3 * V)) := by
    refine blend_choice iz hδ h3 fun z z0 z1 => ?_
    refine blend_bound iy hy (fun y y0 y1 => ?_) c2
    exact blend_bound ix hx (fun x x0 x1 => hg x y z ⟨⟨x0, x1⟩, ⟨y0, y1⟩, z0, z1⟩) c1
  have t1 := abs_sub_le _ _ _ |>.trans (add_le_add s1 s2)
  have t2 := abs_sub_le _ _ _ |>.trans (add_le_add t1 s3)
  refine t2.trans (le_of_eq ?_)
  ring

/-- The exact estimate, as a blend of the corrected distances. -/
theorem exact_blend {t : MSdf ℝ} (hr : 0 < t.res) {i : Idx} (hi : InBounds t.grid.dims i) (q : V3 ℝ) :
    t.estGrid id id q i = some (blend t.res q.z (fun z => blend t.res q.y (fun y => blend t.res q.x
      (fun x => adj t ⟨x, y, z⟩) (axisIdx i.x t.grid.dims.nx (decide (q.x - ((i.x : ℝ) + 1 / 2) * t.res ≥ 0))))
      (axisIdx i.y t.grid.dims.ny (decide (q.y - ((i.y : ℝ) + 1 / 2) * t.res ≥ 0))))
      (axisIdx i.z t.grid.dims.nz (decide (q.z - ((i.z : ℝ) + 1 / 2) * t.res ≥ 0)))) := by
  obtain ⟨ix, iy, iz⟩ := hi
  have hr' : ∀ a b c, (0 ≤ a ∧ a < (t.grid.dims.nx : Int)) → (0 ≤ b ∧ b < (t.grid.dims.ny : Int)) →
      (0 ≤ c ∧ c < (t.grid.dims.nz : Int)) → t.corrected ⟨a, b, c⟩ = some (adj t ⟨a, b, c⟩) :=
    fun a b c ha hb hc => adj_eq ⟨ha, hb, hc⟩
  unfold MSdf.estGrid
  simp only [axisIdx_exact, id]
  have hx := axisIdx_inB ix (decide (q.x - (t.center i).x ≥ 0))
  have hy := axisIdx_inB iy (decide (q.y - (t.center i).y ≥ 0))
  have hz := axisIdx_inB iz (decide (q.z - (t.center i).z ≥ 0))
  rw [hr' _ _ _ hx.1 hy.1 hz.1, hr' _ _ _ hx.1 hy.1 hz.2, hr' _ _ _ hx.1 hy.2 hz.1, hr' _ _ _ hx.1 hy.2 hz.2,
    hr' _ _ _ hx.2 hy.1 hz.1, hr' _ _ _ hx.2 hy.1 hz.2, hr' _ _ _ hx.2 hy.2 hz.1, hr' _ _ _ hx.2 hy.2 hz.2]
  exact congrArg some (trilinear_blend hr q (fun a b c => adj t ⟨a, b, c⟩) _ _ _)

/-- The offsets from the lower corner of the chosen cells. -/
theorem offsets {r q : ℝ} (hr : 0 < r) {i n : Int} (hq : |q - ((i : ℝ) + 1 / 2) * r| ≤ r) (b : Bool) :
    |(((axisIdx i n b).1 : ℝ) + 1 / 2) * r + r - q| ≤ 21 / 10 * r ∧
    |q - (((axisIdx i n b).1 : ℝ) + 1 / 2) * r| ≤ 21 / 10 * r := by
  have hc : (axisIdx i n b).1 = i ∨ (axisIdx i n b).1 = i - 1 := by
    unfold axisIdx
    split_ifs <;> simp
  rw [abs_le] at hq
  rcases hc with h | h <;> rw [h] <;> push_cast <;> rw [abs_le, abs_le] <;>
    refine ⟨⟨?_, ?_⟩, ?_, ?_⟩ <;> linarith

/-- C101: for a field of finite values, the estimate inside the grid is a number, is reported as valid, and is
within `N / 2 ^ 40` of the largest distance from the exact interpolation, where `N` is the number of cells along
the longest side.  `toGrid` and `locIdx` are the base class: only the cell `i` and the grid-frame location `q` that
they return matter, and `q` need only lie within one cell size of the centre of the cell. -/
theorem C101_accuracy_partial {s : FSdf} {t : MSdf ℝ} (h : Stores s t) {N : ℕ} (hN : N ≤ 2 ^ 20)
    (hdim : t.grid.dims.nx ≤ N ∧ t.grid.dims.ny ≤ N ∧ t.grid.dims.nz ≤ N)
    (hlo : 1 / 2 ^ 100 ≤ t.res) (hhi : t.res ≤ 2 ^ 100) {D : ℝ} (hD : D ≤ 2 ^ 150)
    (hv : ∀ i, InBounds t.grid.dims i → |t.grid.get i| ≤ D)
    {toGrid : V3 FVal → V3 FVal} {locIdx : V3 FVal → Idx} {p : V3 FVal} {q : V3 ℝ} {i : Idx}
    (hi : InBounds t.grid.dims i) (hloc : locIdx p = i) (hq : toGrid p = ⟨real q.x, real q.y, real q.z⟩)
    (hx : |q.x - ((i.x : ℝ) + 1 / 2) * t.res| ≤ t.res) (hy : |q.y - ((i.y : ℝ) + 1 / 2) * t.res| ≤ t.res)
    (hz : |q.z - ((i.z : ℝ) + 1 / 2) * t.res| ≤ t.res) :
    ∃ y z : ℝ, s.estimate ieee toGrid locIdx p = some (real y, true) ∧ t.estGrid id id q i = some z ∧
      |y - z| ≤ N / 2 ^ 40 * (D + t.res / 2) := by
  have hr : Rng t.res (-100) 100 := by
    refine ⟨?_, ?_⟩
    · have := zpow_neg_nat 100
      push_cast at this
      rw [this]; exact hlo
    · exact_mod_cast hhi
  have r0 := hr.pos
  have D0 : 0 ≤ D := (abs_nonneg _).trans (hv i hi)
  have hV : Rng (D + t.res / 2) (-101) 200 := by
    refine ⟨?_, ?_⟩
    · have := zpow_neg_nat 101
      push_cast at this
      rw [this]
      norm_num at hlo ⊢; linarith
    · have e : (2 : ℝ) ^ (200 : ℤ) = 2 ^ 200 := by norm_cast
      rw [e]
      norm_num at hhi hD ⊢; linarith
  have hN1 : 1 ≤ N := by
    obtain ⟨⟨x1, x2⟩, -⟩ := hi
    omega
  set ε : ℝ := (N : ℝ) / 2 ^ 52 with hεdef
  have hε : Unit' ε := by
    have h1 : (1 : ℝ) ≤ N := by exact_mod_cast hN1
    have h2 : (N : ℝ) ≤ 2 ^ 20 := by exact_mod_cast hN
    rw [hεdef]
    constructor
    · gcongr
    · calc (N : ℝ) / 2 ^ 52 ≤ 2 ^ 20 / 2 ^ 52 := by gcongr
        _ = 1 / 2 ^ 32 := by norm_num
  have hεN : (N : ℝ) / 2 ^ 52 ≤ ε := le_rfl
  have hε0 := hε.pos
  obtain ⟨ix, iy, iz⟩ := id hi
  have cap : ∀ {j : Int} {n : ℕ}, n ≤ N → (0 ≤ j ∧ j < n) →
      Ap ε (Fl.mul ieee (real t.res) (real ((j : ℝ) + 1 / 2))) (((j : ℝ) + 1 / 2) * t.res) t.res N 1 := by
    intro j n hn hj
    exact center_ap hε hr hN hεN ⟨hj.1, by have := hj.2; omega⟩
  have hdims := h.1
  have hres := h.2.1
  -- the chosen cells
  have sx := sign_ap hε hr (cap hdim.1 ix) hx
  have sy := sign_ap hε hr (cap hdim.2.1 iy) hy
  have sz := sign_ap hε hr (cap hdim.2.2 iz) hz
  have est : ∃ bx by' bz, (bx ≠ decide (q.x - ((i.x : ℝ) + 1 / 2) * t.res ≥ 0) →
        |q.x / t.res - ((i.x : ℝ) + 1 / 2)| ≤ 2 * ε) ∧
      (by' ≠ decide (q.y - ((i.y : ℝ) + 1 / 2) * t.res ≥ 0) → |q.y / t.res - ((i.y : ℝ) + 1 / 2)| ≤ 2 * ε) ∧
      (bz ≠ decide (q.z - ((i.z : ℝ) + 1 / 2) * t.res ≥ 0) → |q.z / t.res - ((i.z : ℝ) + 1 / 2)| ≤ 2 * ε) ∧
      ∃ y : ℝ, s.estGrid ieee ⟨real q.x, real q.y, real q.z⟩ i = some (real y) ∧
        |y - blend t.res q.z (fun z => blend t.res q.y (fun y => blend t.res q.x
          (fun x => adj t ⟨x, y, z⟩) (axisIdx i.x t.grid.dims.nx bx)) (axisIdx i.y t.grid.dims.ny by'))
          (axisIdx i.z t.grid.dims.nz bz)| ≤ 2316 * ε * (D + t.res / 2) := by
    refine ⟨_, _, _, sx, sy, sz, ?_⟩
    unfold estGrid center
    dsimp only
    rw [hdims, hres]
    generalize geZero (sub ieee (real q.x) (Fl.mul ieee (real t.res) (real ((i.x : ℝ) + 1 / 2)))) = bx
    generalize geZero (sub ieee (real q.y) (Fl.mul ieee (real t.res) (real ((i.y : ℝ) + 1 / 2)))) = by'
    generalize geZero (sub ieee (real q.z) (Fl.mul ieee (real t.res) (real ((i.z : ℝ) + 1 / 2)))) = bz
    have gx := axisIdx_inB ix bx
    have gy := axisIdx_inB iy by'
    have gz := axisIdx_inB iz bz
    have ofx := offsets (n := t.grid.dims.nx) r0 hx bx
    have ofy := offsets (n := t.grid.dims.ny) r0 hy by'
    have ofz := offsets (n := t.grid.dims.nz) r0 hz bz
    have hc : ∀ {a b c}, (0 ≤ a ∧ a < (t.grid.dims.nx : Int)) → (0 ≤ b ∧ b < (t.grid.dims.ny : Int)) →
        (0 ≤ c ∧ c < (t.grid.dims.nz : Int)) →
        ∃ w, s.corrected ieee ⟨a, b, c⟩ = some w ∧ Ap ε w (adj t ⟨a, b, c⟩) (D + t.res / 2) 1 2 :=
      fun ha hb hc => corrected_ap h hε hr hV ⟨ha, hb, hc⟩ (hv _ ⟨ha, hb, hc⟩)
    obtain ⟨w1, e1, f1⟩ := hc gx.1 gy.1 gz.1
    obtain ⟨w2, e2, f2⟩ := hc gx.1 gy.1 gz.2
    obtain ⟨w3, e3, f3⟩ := hc gx.1 gy.2 gz.1
    obtain ⟨w4, e4, f4⟩ := hc gx.1 gy.2 gz.2
    obtain ⟨w5, e5, f5⟩ := hc gx.2 gy.1 gz.1
    obtain ⟨w6, e6, f6⟩ := hc gx.2 gy.1 gz.2
    obtain ⟨w7, e7, f7⟩ := hc gx.2 gy.2 gz.1
    obtain ⟨w8, e8, f8⟩ := hc gx.2 gy.2 gz.2
    rw [e1, e2, e3, e4, e5, e6, e7, e8]
    obtain ⟨y, ey, hy'⟩ := trilinear_ap (s := s) (t := t) hres hε hN hεN hr hV
      (c := ⟨Fl.mul ieee (real t.res) (real (((axisIdx i.x t.grid.dims.nx bx).1 : ℝ) + 1 / 2)),
        Fl.mul ieee (real t.res) (real (((axisIdx i.y t.grid.dims.ny by').1 : ℝ) + 1 / 2)),
        Fl.mul ieee (real t.res) (real (((axisIdx i.z t.grid.dims.nz bz).1 : ℝ) + 1 / 2))⟩)
      (l := t.center ⟨(axisIdx i.x t.grid.dims.nx bx).1, (axisIdx i.y t.grid.dims.ny by').1,
        (axisIdx i.z t.grid.dims.nz bz).1⟩) (q := q)
      (cap hdim.1 gx.1) (cap hdim.2.1 gy.1) (cap hdim.2.2 gz.1) ofx.1 ofx.2 ofy.1 ofy.2 ofz.2
      f1 f2 f3 f4 f5 f6 f7 f8
    rw [trilinear_blend r0 q (fun a b c => adj t ⟨a, b, c⟩)] at hy'
    exact ⟨y, congrArg some ey, hy'⟩
  obtain ⟨bx, by', bz, cx, cy, cz, y, ey, hy'⟩ := est
  refine ⟨y, _, ?_, exact_blend r0 hi q, ?_⟩
  · unfold estimate
    rw [hloc, hq, hdims, if_pos (inB_iff_spec.mpr hi), ey]
    rfl
  · have one : ∀ {a b : ℝ}, |a - (b + 1 / 2) * t.res| ≤ t.res → |a / t.res - (b + 1 / 2)| ≤ 1 := by
      intro a b hab
      have e : a / t.res - (b + 1 / 2) = (a - (b + 1 / 2) * t.res) / t.res := by field_simp
      rw [e, abs_div, abs_of_pos r0, div_le_one r0]
      exact hab
    have hb := blend3_choice (r := t.res) (V := D + t.res / 2) (δ := 2 * ε) (g := fun a b c => adj t ⟨a, b, c⟩) hi q
      (by positivity) (fun a b c hin => adj_le r0 (hv _ hin)) (one hx) (one hy) (one hz) cx cy cz
    refine (abs_sub_le _ _ _).trans ((add_le_add hy' hb).trans ?_)
    have e : (N : ℝ) / 2 ^ 40 = 4096 * ε := by rw [hεdef]; ring
    rw [e]
    have : 0 ≤ ε * (D + t.res / 2) := by have := hV.pos; positivity
    nlinarith

/-- The real number of a finite value. -/
noncomputable def toR (a : FVal) : ℝ := (a.map EReal.toReal).getD 0

/-- The field of the exact model with the values of `s`. -/
noncomputable def exact (s : FSdf) : MSdf ℝ :=
  ⟨⟨s.grid.dims, s.grid.data.map toR, toR s.grid.dflt, toR s.grid.oob⟩, s.res,
    ⟨⟨1, 0, 0⟩, ⟨0, 1, 0⟩, ⟨0, 0, 1⟩, ⟨0, 0, 0⟩⟩, ⟨⟨1, 0, 0⟩, ⟨0, 1, 0⟩, ⟨0, 0, 1⟩, ⟨0, 0, 0⟩⟩⟩

theorem exact_get (s : FSdf) (i : Idx) : s.exact.grid.get i = toR (s.grid.get i) := by
  unfold exact Grid.get
  simp only
  split_ifs
  · simp [List.getElem?_map]
  · rfl

theorem exact_stores {s : FSdf} (h : ∀ i, InBounds s.grid.dims i → ∃ x : ℝ, s.grid.get i = real x) :
    Stores s s.exact := by
  refine ⟨rfl, rfl, fun i hi => ?_⟩
  obtain ⟨x, hx⟩ := h i hi
  rw [exact_get, hx]
  simp [toR, real]

theorem nearest_exists {d : Dims} {f : Idx → Bool} {v p : Idx} (hp : Opposite d f v p) :
    ∃ m, NearestOpposite d f v m ∧ m ≤ sqDist v p := by
  classical
  have hex : ∃ n : ℕ, ∃ p, Opposite d f v p ∧ dsq v p = n := ⟨_, p, hp, rfl⟩
  obtain ⟨w, hw, e⟩ := Nat.find_spec hex
  refine ⟨(Nat.find hex : ℕ), ⟨⟨w, hw, by rw [← dsq_sqDist, e]⟩, fun u hu => ?_⟩, ?_⟩
  · rw [← dsq_sqDist]
    exact_mod_cast Nat.find_min' hex ⟨u, hu, rfl⟩
  · rw [← dsq_sqDist]
    exact_mod_cast Nat.find_min' hex ⟨p, hp, rfl⟩

/-- C101, two-dimensional maps.  For the field of a flat map with cells of both classes, every estimate inside the
grid is a number. -/
theorem C101_flat {res : ℝ} (hres : GoodRes ieee res) (hlo : 1 / 2 ^ 100 ≤ res) (hhi : res ≤ 2 ^ 100) {d : Dims}
    (hd : SmallGrid d) (hflat : Flat d) {fill : Idx → Option Bool} {f : Idx → Bool} (hf : Answers d fill f)
    {u w : Idx} (hu : InBounds d u) (hw : InBounds d w) (huw : f u ≠ f w) {oob : FVal} {o : Out}
    (ho : extract ieee (res, res, res) d fill oob false = some o)
    {toGrid : V3 FVal → V3 FVal} {locIdx : V3 FVal → Idx} {p : V3 FVal} {q : V3 ℝ} {i : Idx}
    (hi : InBounds d i) (hloc : locIdx p = i) (hq : toGrid p = ⟨real q.x, real q.y, real q.z⟩)
    (hx : |q.x - ((i.x : ℝ) + 1 / 2) * res| ≤ res) (hy : |q.y - ((i.y : ℝ) + 1 / 2) * res| ≤ res)
    (hz : |q.z - ((i.z : ℝ) + 1 / 2) * res| ≤ res) :
    ∃ y : ℝ, (FSdf.mk o.sdf res).estimate ieee toGrid locIdx p = some (real y, true) := by
  have hdim : o.sdf.dims = d := by
    obtain ⟨o', a', b', ho', hs⟩ := base_spec hd hf ieee res oob
    rw [extract_false, ho'] at ho
    rw [← Option.some.inj ho]
    exact hs.dims
  have r0 := hres.1
  have hval : ∀ v, InBounds d v → ∃ x : ℝ, o.sdf.get v = real x ∧ |x| ≤ 2 ^ 18 * res := by
    intro v hv
    obtain ⟨k, hk⟩ : ∃ k, Opposite d f v k := by
      by_cases h : f u = f v
      · exact ⟨w, hw, fun e => huw (h.trans e.symm)⟩
      · exact ⟨u, hu, h⟩
    obtain ⟨m, hm, hle⟩ := nearest_exists hk
    obtain ⟨y, e, hpos, -, hub⟩ := C86_flat hres (le_trans (by norm_num) hlo) hhi hd hflat hf ho hv hm
    have hm31 : (m : ℝ) ≤ 2 ^ 31 := by
      have h1 := dsq_le_maxSq (inB_iff_spec.mpr hv) (inB_iff_spec.mpr hk.1)
      have h2 : maxSq d < 2 ^ 31 := hd
      rw [← dsq_sqDist] at hle
      have : m ≤ 2 ^ 31 := by omega
      exact_mod_cast this
    have hs2 : Real.sqrt m ≤ 2 ^ 16 := by
      rw [Real.sqrt_le_iff]
      exact ⟨by norm_num, by norm_num at hm31 ⊢; linarith⟩
    have hs1 : Real.sqrt 2 ≤ 2 := by
      rw [Real.sqrt_le_iff]; norm_num
    have hrel : (1 + relErr) ≤ 2 := by unfold relErr; norm_num
    have hrel0 : 0 ≤ 1 + relErr := by unfold relErr; norm_num
    have hyb : y ≤ 2 ^ 18 * res := by
      calc y ≤ (1 + relErr) * (res * (Real.sqrt 2 * Real.sqrt m)) := hub
        _ ≤ 2 * (res * (2 * 2 ^ 16)) := by gcongr
        _ = 2 ^ 18 * res := by ring
    cases hfv : f v with
    | true =>
      refine ⟨-y, ?_, by rw [abs_neg, abs_of_pos hpos]; exact hyb⟩
      rw [e, hfv]; rfl
    | false =>
      refine ⟨y, ?_, by rw [abs_of_pos hpos]; exact hyb⟩
      rw [e, hfv]; rfl
  have hst := exact_stores (s := ⟨o.sdf, res⟩) fun v hv => by
    obtain ⟨x, hx, -⟩ := hval v (hdim ▸ hv)
    exact ⟨x, hx⟩
  have hsmall : d.nx ≤ 2 ^ 20 ∧ d.ny ≤ 2 ^ 20 ∧ d.nz ≤ 2 ^ 20 := by
    unfold SmallGrid at hd
    refine ⟨?_, ?_, ?_⟩ <;>
    · by_contra hc
      have : 2 ^ 20 * 2 ^ 20 ≤ _ * _ := Nat.mul_le_mul (not_le.mp hc).le (not_le.mp hc).le
      omega
  obtain ⟨y, -, e, -⟩ := C101_accuracy_partial hst (N := 2 ^ 20) le_rfl
    (by show o.sdf.dims.nx ≤ _ ∧ o.sdf.dims.ny ≤ _ ∧ o.sdf.dims.nz ≤ _; rw [hdim]; exact hsmall) hlo hhi
    (D := 2 ^ 18 * res)
    (by have : 2 ^ 18 * res ≤ 2 ^ 18 * 2 ^ 100 := by gcongr
        refine this.trans ?_; norm_num)
    (fun v hv => by
      obtain ⟨x, e, hb⟩ := hval v (hdim ▸ hv)
      rw [exact_get]
      show |toR (o.sdf.get v)| ≤ _
      rw [e]
      simpa [toR, real] using hb)
    (toGrid := toGrid) (show InBounds o.sdf.dims i by rw [hdim]; exact hi) hloc hq hx hy hz
  exact ⟨y, e⟩

/-! ### The hypotheses are satisfiable -/

example : ∃ y z : ℝ, (FSdf.mk exFloatField (1 / 4)).estimate ieee
      (fun _ => ⟨real (1 / 5), real (1 / 8), real (1 / 10)⟩) (fun _ => ⟨0, 0, 0⟩) ⟨none, none, none⟩ =
        some (real y, true) ∧
    (FSdf.mk exFloatField (1 / 4)).exact.estGrid id id ⟨1 / 5, 1 / 8, 1 / 10⟩ ⟨0, 0, 0⟩ = some z ∧
    |y - z| ≤ (2 : ℕ) / 2 ^ 40 * (2 + 1 / 4 / 2) := by
  have hg := exFloatField_get
  refine C101_accuracy_partial (exact_stores fun i hi => ⟨_, hg i hi⟩) (by norm_num)
    ⟨le_refl 2, by decide, le_refl 2⟩ ?_ ?_ (by norm_num) ?_ ?_ rfl rfl ?_ ?_ ?_
  · show (1 : ℝ) / 2 ^ 100 ≤ 1 / 4; norm_num
  · show (1 / 4 : ℝ) ≤ 2 ^ 100; norm_num
  · intro i hi
    rw [exact_get]
    show |toR (exFloatField.get i)| ≤ 2
    rw [hg i hi]
    show |exFloatValue i| ≤ 2
    unfold exFloatValue
    rw [abs_le]
    split_ifs <;> constructor <;> norm_num
  · show InBounds ⟨2, 1, 2⟩ ⟨0, 0, 0⟩
    simp [InBounds]
  all_goals
    show |_ - _ * (1 / 4 : ℝ)| ≤ 1 / 4
    rw [abs_le]
    constructor <;> norm_num

/-- A map of 4 x 3 x 2 free cells of size `1/4`: the estimate in the middle of the first cell is NaN. -/
example : ∃ o, extract ieee (1 / 4, 1 / 4, 1 / 4) ⟨4, 3, 2⟩ (fun _ => some false) none false = some o ∧
    (FSdf.mk o.sdf (1 / 4)).estimate ieee id (fun _ => ⟨0, 0, 0⟩) ⟨real (1 / 8), real (1 / 8), real (1 / 8)⟩ =
      some (none, true) := by
  have hd : SmallGrid ⟨4, 3, 2⟩ := by unfold SmallGrid; decide
  have hf : Answers ⟨4, 3, 2⟩ (fun _ => some false) fun _ => false := fun _ _ => rfl
  obtain ⟨o, ho, -⟩ := C13_sign quarter_good hd hf none
  exact ⟨o, ho, C101_no_obstacle quarter_good hd hf ho id _ (by simp [InBounds])⟩

/-- A map of 3 x 1 x 2 cells with one filled cell. -/
example : ∃ o, extract ieee (1 / 4, 1 / 4, 1 / 4) ⟨3, 1, 2⟩ (fun i => some (decide (i = ⟨0, 0, 0⟩))) none false =
      some o ∧
    ∃ y : ℝ, (FSdf.mk o.sdf (1 / 4)).estimate ieee id (fun _ => ⟨0, 0, 0⟩)
      ⟨real (1 / 5), real (1 / 8), real (1 / 10)⟩ = some (real y, true) := by
  have hd : SmallGrid ⟨3, 1, 2⟩ := by unfold SmallGrid; decide
  have hf : Answers ⟨3, 1, 2⟩ (fun i => some (decide (i = ⟨0, 0, 0⟩))) fun i => decide (i = ⟨0, 0, 0⟩) :=
    fun _ _ => rfl
  obtain ⟨o, ho, -⟩ := C13_sign quarter_good hd hf none
  refine ⟨o, ho, C101_flat quarter_good (by norm_num) (by norm_num) hd (Or.inr (Or.inl rfl)) hf (u := ⟨0, 0, 0⟩)
    (w := ⟨1, 0, 0⟩) (by simp [InBounds]) (by simp [InBounds]) (by simp) ho (q := ⟨1 / 5, 1 / 8, 1 / 10⟩)
    (i := ⟨0, 0, 0⟩) (by simp [InBounds]) rfl rfl ?_ ?_ ?_⟩ <;>
  · rw [abs_le]
    constructor <;> norm_num

end FSdf

end Verif
