import Verif.SdfDisplayFloat
import Verif.Props.SdfGen
import Verif.Props.SdfDisplay
import Verif.Props.Ieee
import Mathlib.Tactic.Linarith
import Mathlib.Tactic.NormNum

/-!
# C98: the colours of the SDF display in IEEE arithmetic
-/

namespace Verif

open Spec DField SdfGen

namespace Ieee

theorem nearest_unique {x : ℝ} {n : ℤ} (h : |x - n| < 1 / 2) : nearest x = n := by
  have h1 := nearest_error x
  rw [abs_le] at h1
  rw [abs_lt] at h
  have h2 : ((nearest x : ℤ) : ℝ) - n < 1 := by linarith
  have h3 : (-1 : ℝ) < ((nearest x : ℤ) : ℝ) - n := by linarith
  have h4 : nearest x - n < 1 := by exact_mod_cast h2
  have h5 : -1 < nearest x - n := by exact_mod_cast h3
  omega

/-- The rounded value of a number close to `n * 2 ^ e`. -/
theorem magnitude_near {F : Format} {x : ℝ} {n : ℕ} {e k : ℤ} (h1 : (2 : ℝ) ^ k ≤ x) (h2 : x < (2 : ℝ) ^ (k + 1))
    (he : F.emin ≤ k) (hk : k - (F.prec - 1) = e) (h : |x / (2 : ℝ) ^ e - n| < 1 / 2) :
    magnitude F x = n * (2 : ℝ) ^ e := by
  have hx : 0 < x := lt_of_lt_of_le (two_pos' k) h1
  have hl : Int.log 2 x = k := by
    apply le_antisymm
    · have := log_lt hx h2; omega
    · exact (Int.zpow_le_iff_le_log (by norm_num) hx).mp (by exact_mod_cast h1)
  have hq : quantum F x = e := by
    unfold quantum; rw [hl, max_eq_left he, hk]
  unfold magnitude
  rw [hq, nearest_unique (n := (n : ℤ)) (by exact_mod_cast h)]
  push_cast; rfl

/-- Numbers below two are rounded with an absolute error of half a unit at one. -/
theorem round_below_two {F : Format} (he : F.emin ≤ 0) (hp : 1 ≤ F.prec) (hmax : 1 ≤ F.emax) {x : ℝ} (h0 : 0 ≤ x)
    (h2 : x < 2) : ∃ y : ℝ, round F (x : EReal) = (y : EReal) ∧ |y - x| ≤ 2 ^ (-(F.prec : ℤ)) ∧ 0 ≤ y := by
  have herr : |magnitude F x - x| ≤ 2 ^ (-(F.prec : ℤ)) := by
    rcases h0.eq_or_lt with rfl | hx
    · rw [magnitude_zero]; simp
    have hl : Int.log 2 x ≤ 0 := by
      have := log_lt hx (e := 1) (by simpa using h2); omega
    have hq : quantum F x ≤ -(F.prec : ℤ) + 1 := by
      unfold quantum
      have := max_le hl he
      omega
    have hpos := two_pos' (quantum F x)
    have h1 := nearest_error (x / 2 ^ quantum F x)
    have heq : magnitude F x - x =
        ((nearest (x / 2 ^ quantum F x) : ℝ) - x / 2 ^ quantum F x) * 2 ^ quantum F x := by
      unfold magnitude
      rw [sub_mul, div_mul_cancel₀ _ hpos.ne']
    rw [heq, abs_mul, abs_of_pos hpos]
    calc _ ≤ 1 / 2 * (2 : ℝ) ^ quantum F x := mul_le_mul_of_nonneg_right h1 hpos.le
      _ ≤ 1 / 2 * (2 : ℝ) ^ (-(F.prec : ℤ) + 1) := mul_le_mul_of_nonneg_left (two_mono hq) (by norm_num)
      _ = _ := by rw [two_add]; ring
  refine ⟨magnitude F x, ?_, herr, magnitude_nonneg h0⟩
  rw [round_coe F h0]
  unfold roundMag
  rw [if_pos]
  have h3 : (2 : ℝ) ^ (-(F.prec : ℤ)) ≤ 1 / 2 :=
    (two_mono (b := -1) (by omega)).trans (by norm_num)
  have h4 : (2 : ℝ) ^ (2 : ℤ) ≤ 2 ^ (F.emax + 1) := two_mono (by omega)
  have h5 := (abs_le.mp herr).2
  norm_num at h4
  linarith

theorem round_near {F : Format} {x : ℝ} {n : ℕ} {e k : ℤ} (h1 : (2 : ℝ) ^ k ≤ x) (h2 : x < (2 : ℝ) ^ (k + 1))
    (he : F.emin ≤ k) (hk : k - (F.prec - 1) = e) (h : |x / (2 : ℝ) ^ e - n| < 1 / 2)
    (hmax : n * (2 : ℝ) ^ e < 2 ^ (F.emax + 1)) : round F (x : EReal) = ((n * (2 : ℝ) ^ e : ℝ) : EReal) := by
  rw [round_coe F ((two_pos' k).le.trans h1)]
  unfold roundMag
  rw [magnitude_near h1 h2 he hk h, if_pos hmax]

end Ieee

namespace SdfShow

/-- `0.8` in `double`. -/
noncomputable def c8 : ℝ := 7205759403792794 * 2 ^ (-53 : ℤ)
/-- `0.2` in `double`. -/
noncomputable def c2 : ℝ := 7205759403792794 * 2 ^ (-55 : ℤ)
/-- `0.2` in `float`. -/
noncomputable def f2 : ℝ := 13421773 * 2 ^ (-26 : ℤ)

theorem lit8 : ieee.r64 ((4 / 5 : ℝ) : EReal) = (c8 : EReal) := by
  have h := Ieee.round_near (F := Ieee.binary64) (x := 4 / 5) (n := 7205759403792794) (e := -53) (k := -1)
    (by norm_num) (by norm_num) (by decide) (by decide) (by rw [abs_lt]; constructor <;> norm_num)
    (lt_of_lt_of_le (b := (2 : ℝ) ^ (0 : ℤ)) (by norm_num) (Ieee.two_mono (by decide)))
  exact_mod_cast h

theorem lit2 : ieee.r64 ((1 / 5 : ℝ) : EReal) = (c2 : EReal) := by
  have h := Ieee.round_near (F := Ieee.binary64) (x := 1 / 5) (n := 7205759403792794) (e := -55) (k := -3)
    (by norm_num) (by norm_num) (by decide) (by decide) (by rw [abs_lt]; constructor <;> norm_num)
    (lt_of_lt_of_le (b := (2 : ℝ) ^ (0 : ℤ)) (by norm_num) (Ieee.two_mono (by decide)))
  exact_mod_cast h

theorem lit_sum : ieee.r64 ((c8 + c2 : ℝ) : EReal) = 1 := by
  have h := Ieee.round_near (F := Ieee.binary64) (x := c8 + c2) (n := 4503599627370496) (e := -52) (k := 0)
    (by norm_num [c8, c2]) (by norm_num [c8, c2]) (by decide) (by decide)
    (by rw [abs_lt]; constructor <;> norm_num [c8, c2])
    (lt_of_lt_of_le (b := (2 : ℝ) ^ (1 : ℤ)) (by norm_num) (Ieee.two_mono (by decide)))
  refine h.trans ?_
  norm_num

theorem float2 : ieee.r32 (c2 : EReal) = (f2 : EReal) := by
  have h := Ieee.round_near (F := Ieee.binary32) (x := c2) (n := 13421773) (e := -26) (k := -3)
    (by norm_num [c2]) (by norm_num [c2]) (by decide) (by decide)
    (by rw [abs_lt]; constructor <;> norm_num [c2])
    (lt_of_lt_of_le (b := (2 : ℝ) ^ (0 : ℤ)) (by norm_num) (Ieee.two_mono (by decide)))
  exact_mod_cast h

theorem one32 : ieee.r32 1 = 1 := by
  have h := Ieee.round_exact (F := Ieee.binary32) (n := 1) (e := 0) (by decide) (by decide)
    (by simpa using one_lt_zpow₀ (by norm_num : (1 : ℝ) < 2) (by decide : (0 : ℤ) < Ieee.binary32.emax + 1))
  show Ieee.round Ieee.binary32 1 = 1
  simpa using h

theorem zero64 (R : Rounding) : R.r64 0 = 0 := by
  have h := R.odd64 0
  rw [neg_zero] at h
  induction hx : R.r64 0 using EReal.rec with
  | bot => rw [hx] at h; simp at h
  | top => rw [hx] at h; simp at h
  | coe y =>
    rw [hx] at h
    have : y = -y := by exact_mod_cast h
    have : y = 0 := by linarith
    rw [this]; rfl

/-- The channel as a function of the quotient. -/
noncomputable def shade (q : EReal) : EReal :=
  ieee.r32 (ieee.r64 (ieee.r64 (max (ieee.r64 q) (-ieee.r64 q) * (c8 : EReal)) + (c2 : EReal)))

theorem channel_eq (d m : EReal) : channel ieee d m = (fdiv d m).map shade := by
  unfold channel shade
  rw [lit8, lit2]

theorem c8_nonneg : (0 : EReal) ≤ (c8 : EReal) := by
  have : (0 : ℝ) ≤ c8 := by unfold c8; positivity
  exact_mod_cast this

theorem abs_nonneg' {q : EReal} (h : 0 ≤ q) : max (ieee.r64 q) (-ieee.r64 q) = ieee.r64 q := by
  have h0 : 0 ≤ ieee.r64 q := by rw [← zero64 ieee]; exact ieee.mono64 h
  apply max_eq_left
  exact (EReal.neg_le_zero.mpr h0).trans h0

theorem shade_mono {p q : EReal} (hp : 0 ≤ p) (h : p ≤ q) : shade p ≤ shade q := by
  unfold shade
  rw [abs_nonneg' hp, abs_nonneg' (hp.trans h)]
  apply ieee.mono32
  apply ieee.mono64
  apply add_le_add _ le_rfl
  apply ieee.mono64
  exact mul_le_mul_of_nonneg_right (ieee.mono64 h) c8_nonneg

theorem shade_one : shade 1 = 1 := by
  unfold shade
  rw [abs_nonneg' (by norm_num), ieee.one64, one_mul]
  have : ieee.r64 (c8 : EReal) = c8 := by rw [← lit8, ieee.idem64]
  rw [this, ← EReal.coe_add, lit_sum, one32]

theorem shade_zero : shade 0 = (f2 : EReal) := by
  unfold shade
  rw [abs_nonneg' le_rfl, zero64, zero_mul, zero64, zero_add]
  have : ieee.r64 (c2 : EReal) = c2 := by rw [← lit2, ieee.idem64]
  rw [this, float2]

theorem shade_error {q : ℝ} (h0 : 0 ≤ q) (h1 : q ≤ 1) :
    ∃ s : ℝ, shade (q : EReal) = (s : EReal) ∧ |s - (4 / 5 * q + 1 / 5)| ≤ 1 / 2 ^ 23 := by
  obtain ⟨a, ha, hae, ha0⟩ := Ieee.round_below_two (F := Ieee.binary64) (by decide) (by decide) (by decide) h0
    (by linarith)
  have hc8 : (0 : ℝ) ≤ c8 := by unfold c8; positivity
  have hc8' : c8 - 4 / 5 ≤ 1 / 2 ^ 53 ∧ 0 ≤ c8 - 4 / 5 := by norm_num [c8]
  have hc2' : c2 - 1 / 5 ≤ 1 / 2 ^ 53 ∧ 0 ≤ c2 - 1 / 5 := by norm_num [c2]
  have e64 : (2 : ℝ) ^ (-(Ieee.binary64.prec : ℤ)) = 1 / 2 ^ 53 := by norm_num [Ieee.binary64]
  have e32 : (2 : ℝ) ^ (-(Ieee.binary32.prec : ℤ)) = 1 / 2 ^ 24 := by norm_num [Ieee.binary32]
  rw [e64, abs_le] at hae
  have hb : a * c8 ≤ 4 / 5 * a + 2 / 2 ^ 53 ∧ 4 / 5 * a ≤ a * c8 := by
    constructor <;> nlinarith
  obtain ⟨b, hb1, hbe, hb0⟩ := Ieee.round_below_two (F := Ieee.binary64) (by decide) (by decide) (by decide)
    (x := a * c8) (by positivity) (by norm_num at *; linarith)
  rw [e64, abs_le] at hbe
  obtain ⟨c, hc1, hce, hc0⟩ := Ieee.round_below_two (F := Ieee.binary64) (by decide) (by decide) (by decide)
    (x := b + c2) (by linarith) (by norm_num at *; linarith)
  rw [e64, abs_le] at hce
  obtain ⟨s, hs1, hse, -⟩ := Ieee.round_below_two (F := Ieee.binary32) (by decide) (by decide) (by decide)
    (x := c) hc0 (by norm_num at *; linarith)
  rw [e32, abs_le] at hse
  refine ⟨s, ?_, ?_⟩
  · unfold shade
    rw [abs_nonneg' (by exact_mod_cast h0)]
    show Ieee.round Ieee.binary32 (Ieee.round Ieee.binary64
      (Ieee.round Ieee.binary64 (Ieee.round Ieee.binary64 (q : EReal) * (c8 : EReal)) + (c2 : EReal))) = _
    rw [ha, ← EReal.coe_mul, hb1, ← EReal.coe_add, hc1, hs1]
  · rw [abs_le]
    norm_num at *
    constructor <;> linarith

theorem track_spec (f : Idx → FVal) (l : List Idx) (acc : EReal × EReal) :
    let L := l.foldl (fun acc i => track acc (f i)) acc
    (L.1 ≤ acc.1 ∧ (∀ i ∈ l, ∀ x, f i = some x → L.1 ≤ x) ∧ (L.1 = acc.1 ∨ ∃ i ∈ l, f i = some L.1)) ∧
    (acc.2 ≤ L.2 ∧ (∀ i ∈ l, ∀ x, f i = some x → x ≤ L.2) ∧ (L.2 = acc.2 ∨ ∃ i ∈ l, f i = some L.2)) := by
  induction l generalizing acc with
  | nil => simp
  | cons a l ih =>
    dsimp only [List.foldl_cons]
    obtain ⟨⟨h1, h2, h3⟩, h4, h5, h6⟩ := ih (track acc (f a))
    have ha : ((track acc (f a)).1 ≤ acc.1 ∧ (∀ x, f a = some x → (track acc (f a)).1 ≤ x) ∧
        ((track acc (f a)).1 = acc.1 ∨ f a = some (track acc (f a)).1)) ∧
        (acc.2 ≤ (track acc (f a)).2 ∧ (∀ x, f a = some x → x ≤ (track acc (f a)).2) ∧
        ((track acc (f a)).2 = acc.2 ∨ f a = some (track acc (f a)).2)) := by
      cases hf : f a with
      | none => simp [track]
      | some x =>
        simp only [track, Option.some.injEq, forall_eq']
        refine ⟨⟨?_, ?_, ?_⟩, ?_, ?_, ?_⟩
        · split <;> rename_i h
          exacts [h.le, le_rfl]
        · split <;> rename_i h
          exacts [le_rfl, not_lt.mp h]
        · split
          exacts [.inr rfl, .inl rfl]
        · split <;> rename_i h
          exacts [le_of_lt h, le_rfl]
        · split <;> rename_i h
          exacts [le_rfl, not_lt.mp h]
        · split
          exacts [.inr rfl, .inl rfl]
    obtain ⟨⟨a1, a2, a3⟩, a4, a5, a6⟩ := ha
    refine ⟨⟨h1.trans a1, ?_, ?_⟩, a4.trans h4, ?_, ?_⟩
    · intro i hi x hx
      rcases List.mem_cons.mp hi with rfl | hi
      · exact h1.trans (a2 x hx)
      · exact h2 i hi x hx
    · rcases h3 with h3 | ⟨i, hi, h3⟩
      · rw [h3]
        exact a3.imp id fun h => ⟨a, List.mem_cons_self, h⟩
      · exact .inr ⟨i, List.mem_cons_of_mem _ hi, h3⟩
    · intro i hi x hx
      rcases List.mem_cons.mp hi with rfl | hi
      · exact (a5 x hx).trans h4
      · exact h5 i hi x hx
    · rcases h6 with h6 | ⟨i, hi, h6⟩
      · rw [h6]
        exact a6.imp id fun h => ⟨a, List.mem_cons_self, h⟩
      · exact .inr ⟨i, List.mem_cons_of_mem _ hi, h6⟩

theorem extrema_spec (g : Grid FVal) :
    (∀ i, InBounds g.dims i → ∀ x, g.get i = some x → (extrema g).1 ≤ x ∧ x ≤ (extrema g).2) ∧
    ((extrema g).1 = 0 ∨ ∃ i, InBounds g.dims i ∧ g.get i = some (extrema g).1) ∧
    ((extrema g).2 = 0 ∨ ∃ i, InBounds g.dims i ∧ g.get i = some (extrema g).2) := by
  obtain ⟨⟨-, h2, h3⟩, -, h5, h6⟩ := track_spec (fun i => (g.getImm i).1) g.dims.all (0, 0)
  refine ⟨fun i hi x hx => ?_, ?_, ?_⟩
  · have hm := Dims.mem_all.mpr (inB_iff_spec.mpr hi)
    exact ⟨h2 i hm x hx, h5 i hm x hx⟩
  · exact h3.imp id fun ⟨i, hi, h⟩ => ⟨i, inB_iff_spec.mp (Dims.mem_all.mp hi), h⟩
  · exact h6.imp id fun ⟨i, hi, h⟩ => ⟨i, inB_iff_spec.mp (Dims.mem_all.mp hi), h⟩

theorem colours_eq (R : Rounding) (g : Grid FVal) (a : FVal) :
    colours R g a = g.dims.all.map fun i => colour R (extrema g) a (g.get i) := by
  unfold colours
  rw [MSdf.foldl_push]; rfl

theorem fdiv_coe {d m : ℝ} (hm : m ≠ 0) : fdiv (d : EReal) (m : EReal) = some ((d / m : ℝ) : EReal) := by
  unfold fdiv
  have hm' : (m : EReal) ≠ 0 := by exact_mod_cast hm
  rw [if_neg (by simp [hm]), if_neg hm', EReal.coe_div]

end SdfShow

namespace Spec

/-- The shade of a value `d` in a field whose most extreme value of the same sign is `m`, as the display
documents it: from `0.2` near the boundary to `1` at the extreme. -/
noncomputable def idealShade (d m : ℝ) : ℝ := 1 / 5 + 4 / 5 * (d / m)

/-- A list of colours that shows the values `x` of a grid with opacity `a`: one colour for each cell in the
order of the cells, and shades `s` that are numbers from `0.2` to `1`, follow the documented scale up to
`float` accuracy, never decrease with the distance, and reach `1` at the extreme values. -/
def ShowsField (d : Dims) (x : Idx → ℝ) (a : FVal) (l : List (Rgba FVal)) : Prop :=
  ∃ s : Idx → ℝ,
    l = d.all.map (fun i => open Classical in
      if 0 < x i then ⟨some 0, some (s i : EReal), some 0, a⟩
      else if x i < 0 then ⟨some (s i : EReal), some 0, some 0, a⟩
      else ⟨some 0, some 0, some 1, a⟩) ∧
    (∀ i, InBounds d i → x i ≠ 0 → 1 / 5 ≤ s i ∧ s i ≤ 1) ∧
    (∀ i m, InBounds d i → InBounds d m → 0 < x i → (∀ j, InBounds d j → x j ≤ x m) →
      |s i - idealShade (x i) (x m)| ≤ 1 / 2 ^ 23) ∧
    (∀ i m, InBounds d i → InBounds d m → x i < 0 → (∀ j, InBounds d j → x m ≤ x j) →
      |s i - idealShade (x i) (x m)| ≤ 1 / 2 ^ 23) ∧
    (∀ i j, InBounds d i → InBounds d j → 0 < x i → x i ≤ x j → s i ≤ s j) ∧
    (∀ i j, InBounds d i → InBounds d j → x i < 0 → x j ≤ x i → s i ≤ s j) ∧
    (∀ i, InBounds d i → 0 < x i → (∀ j, InBounds d j → x j ≤ x i) → s i = 1) ∧
    (∀ i, InBounds d i → x i < 0 → (∀ j, InBounds d j → x i ≤ x j) → s i = 1)

end Spec

open SdfShow

/-- The shade is the function `shade` of the quotient, for a positive quotient of at most one. -/
theorem shade_value {q : ℝ} (h0 : 0 ≤ q) (h1 : q ≤ 1) :
    ∃ s : ℝ, shade (q : EReal) = (s : EReal) ∧ |s - (4 / 5 * q + 1 / 5)| ≤ 1 / 2 ^ 23 ∧ 1 / 5 ≤ s ∧ s ≤ 1 := by
  obtain ⟨s, hs, he⟩ := shade_error h0 h1
  refine ⟨s, hs, he, ?_, ?_⟩
  · have h := shade_mono (le_refl 0) (show (0 : EReal) ≤ (q : EReal) by exact_mod_cast h0)
    rw [shade_zero, hs] at h
    have h' : f2 ≤ s := by exact_mod_cast h
    refine le_trans ?_ h'
    norm_num [f2]
  · have h := shade_mono (show (0 : EReal) ≤ (q : EReal) by exact_mod_cast h0)
      (show (q : EReal) ≤ 1 by exact_mod_cast h1)
    rw [shade_one, hs] at h
    exact_mod_cast h

/-- C98, finite fields.  In IEEE arithmetic the colours of the display of a field without infinities and NaN
are numbers in range that follow the documented scale. -/
theorem C98_colours_partial {g : Grid FVal} {x : Idx → ℝ}
    (hg : ∀ i, InBounds g.dims i → g.get i = some (x i : EReal)) (a : FVal) :
    ShowsField g.dims x a (colours ieee g a) := by
  obtain ⟨hb, hmin, hmax⟩ := extrema_spec g
  -- the limits are real
  obtain ⟨m, hm⟩ : ∃ m : ℝ, (extrema g).1 = (m : EReal) := by
    rcases hmin with h | ⟨i, hi, h⟩
    · exact ⟨0, by rw [h]; rfl⟩
    · rw [hg i hi] at h; exact ⟨x i, (Option.some.inj h).symm⟩
  obtain ⟨M, hM⟩ : ∃ M : ℝ, (extrema g).2 = (M : EReal) := by
    rcases hmax with h | ⟨i, hi, h⟩
    · exact ⟨0, by rw [h]; rfl⟩
    · rw [hg i hi] at h; exact ⟨x i, (Option.some.inj h).symm⟩
  have hb' : ∀ i, InBounds g.dims i → m ≤ x i ∧ x i ≤ M := by
    intro i hi
    have := hb i hi _ (hg i hi)
    rw [hm, hM] at this
    exact ⟨by exact_mod_cast this.1, by exact_mod_cast this.2⟩
  have hmin' : m = 0 ∨ ∃ i, InBounds g.dims i ∧ x i = m := by
    rw [hm] at hmin
    rcases hmin with h | ⟨i, hi, h⟩
    · left; exact_mod_cast h
    · right; rw [hg i hi] at h; exact ⟨i, hi, by exact_mod_cast Option.some.inj h⟩
  have hmax' : M = 0 ∨ ∃ i, InBounds g.dims i ∧ x i = M := by
    rw [hM] at hmax
    rcases hmax with h | ⟨i, hi, h⟩
    · left; exact_mod_cast h
    · right; rw [hg i hi] at h; exact ⟨i, hi, by exact_mod_cast Option.some.inj h⟩
  -- the quotient of a cell
  let q : Idx → ℝ := fun i => if 0 < x i then x i / M else x i / m
  have hq : ∀ i, InBounds g.dims i → x i ≠ 0 → 0 ≤ q i ∧ q i ≤ 1 := by
    intro i hi h0
    rcases lt_or_gt_of_ne h0 with h | h
    · have hm0 : m < 0 := (hb' i hi).1.trans_lt h
      simp only [q, if_neg h.le.not_gt]
      exact ⟨div_nonneg_of_nonpos h.le hm0.le, (div_le_one_of_neg hm0).mpr (hb' i hi).1⟩
    · have hM0 : 0 < M := h.trans_le (hb' i hi).2
      simp only [q, if_pos h]
      exact ⟨div_nonneg h.le hM0.le, (div_le_one hM0).mpr (hb' i hi).2⟩
  have hs : ∀ i, ∃ s : ℝ, InBounds g.dims i → x i ≠ 0 → shade (q i : EReal) = (s : EReal) ∧
      |s - (4 / 5 * q i + 1 / 5)| ≤ 1 / 2 ^ 23 ∧ 1 / 5 ≤ s ∧ s ≤ 1 := by
    intro i
    by_cases h : InBounds g.dims i ∧ x i ≠ 0
    · obtain ⟨s, hs⟩ := shade_value (hq i h.1 h.2).1 (hq i h.1 h.2).2
      exact ⟨s, fun _ _ => hs⟩
    · exact ⟨0, fun h1 h2 => absurd ⟨h1, h2⟩ h⟩
  choose s hs using hs
  have hle : ∀ i j, InBounds g.dims i → InBounds g.dims j → x i ≠ 0 → x j ≠ 0 → q i ≤ q j → s i ≤ s j := by
    intro i j hi hj h0 h0' h
    have := shade_mono (show (0 : EReal) ≤ (q i : EReal) by exact_mod_cast (hq i hi h0).1)
      (show (q i : EReal) ≤ (q j : EReal) by exact_mod_cast h)
    rw [(hs i hi h0).1, (hs j hj h0').1] at this
    exact_mod_cast this
  have hone : ∀ i, InBounds g.dims i → x i ≠ 0 → q i = 1 → s i = 1 := by
    intro i hi h0 h
    have := (hs i hi h0).1
    rw [h, show ((1 : ℝ) : EReal) = 1 from rfl, shade_one] at this
    exact_mod_cast this.symm
  have hMx : ∀ k i, InBounds g.dims k → InBounds g.dims i → 0 < x i → (∀ j, InBounds g.dims j → x j ≤ x k) →
      x k = M := by
    intro k i hk hi h hall
    apply le_antisymm (hb' k hk).2
    rcases hmax' with h' | ⟨j, hj, h'⟩
    · rw [h']; exact h.le.trans (hall i hi)
    · rw [← h']; exact hall j hj
  have hmx : ∀ k i, InBounds g.dims k → InBounds g.dims i → x i < 0 → (∀ j, InBounds g.dims j → x k ≤ x j) →
      x k = m := by
    intro k i hk hi h hall
    apply le_antisymm _ (hb' k hk).1
    rcases hmin' with h' | ⟨j, hj, h'⟩
    · rw [h']; exact (hall i hi).trans h.le
    · rw [← h']; exact hall j hj
  refine ⟨s, ?_, fun i hi h0 => (hs i hi h0).2.2, ?_, ?_, ?_, ?_, ?_, ?_⟩
  · rw [colours_eq]
    apply List.map_congr_left
    intro i hi
    have hi := inB_iff_spec.mp (Dims.mem_all.mp hi)
    rw [hg i hi]
    simp only [colour, hm, hM]
    rcases lt_trichotomy (x i) 0 with h | h | h
    · have hm0 : m < 0 := (hb' i hi).1.trans_lt h
      rw [if_neg (by exact_mod_cast h.le.not_gt), if_pos (by exact_mod_cast h), if_neg h.le.not_gt, if_pos h,
        channel_eq, fdiv_coe hm0.ne]
      have := (hs i hi h.ne).1
      simp only [q, if_neg h.le.not_gt] at this
      simp only [Option.map_some, this]
    · rw [h]; simp
    · have hM0 : 0 < M := h.trans_le (hb' i hi).2
      rw [if_pos (by exact_mod_cast h), if_pos h, channel_eq, fdiv_coe hM0.ne']
      have := (hs i hi h.ne').1
      simp only [q, if_pos h] at this
      simp only [Option.map_some, this]
  · intro i k hi hk h hall
    have h1 := (hs i hi h.ne').2.1
    simp only [q, if_pos h] at h1
    unfold idealShade
    rw [hMx k i hk hi h hall, add_comm]
    exact h1
  · intro i k hi hk h hall
    have h1 := (hs i hi h.ne).2.1
    simp only [q, if_neg h.le.not_gt] at h1
    unfold idealShade
    rw [hmx k i hk hi h hall, add_comm]
    exact h1
  · intro i j hi hj h hij
    have hM0 : 0 < M := h.trans_le (hb' i hi).2
    apply hle i j hi hj h.ne' (h.trans_le hij).ne'
    simp only [q, if_pos h, if_pos (h.trans_le hij)]
    exact div_le_div_of_nonneg_right hij hM0.le
  · intro i j hi hj h hij
    have hm0 : m < 0 := (hb' i hi).1.trans_lt h
    apply hle i j hi hj h.ne (hij.trans_lt h).ne
    simp only [q, if_neg h.le.not_gt, if_neg (hij.trans_lt h).le.not_gt]
    exact div_le_div_of_nonpos_of_le hm0.le hij
  · intro i hi h hall
    apply hone i hi h.ne'
    have := hMx i i hi hi h hall
    simp only [q, if_pos h, ← this]
    exact div_self h.ne'
  · intro i hi h hall
    apply hone i hi h.ne
    have := hmx i i hi hi h hall
    simp only [q, if_neg h.le.not_gt, ← this]
    exact div_self h.ne

/-- C98, the failing cases.  A cell with an infinite value gets a colour whose shade is not a number, and a
cell without a value (NaN) gets the colour of a cell on the surface of an obstacle. -/
theorem C98_not_finite (R : Rounding) (g : Grid FVal) (a : FVal) :
    ∃ c : Idx → Rgba FVal, colours R g a = g.dims.all.map c ∧ ∀ i, InBounds g.dims i →
      (g.get i = some ⊤ → c i = ⟨some 0, none, some 0, a⟩) ∧
      (g.get i = some ⊥ → c i = ⟨none, some 0, some 0, a⟩) ∧
      (g.get i = none → c i = ⟨some 0, some 0, some 1, a⟩) := by
  obtain ⟨hb, -, -⟩ := extrema_spec g
  refine ⟨_, colours_eq R g a, fun i hi => ⟨fun h => ?_, fun h => ?_, fun h => ?_⟩⟩
  · have := (hb i hi _ h).2
    rw [top_le_iff] at this
    simp [h, colour, channel, this, fdiv]
  · have := (hb i hi _ h).1
    rw [le_bot_iff] at this
    simp [h, colour, channel, this, fdiv]
  · simp [h, colour]

/-- C98, a map without obstacles: the display of its field has no colour that is a number. -/
theorem C98_no_obstacle {R : Rounding} {res : ℝ} (hres : GoodRes R res) {d : Dims} (hd : SmallGrid d)
    {w : Idx} (hw : InBounds d w) {fill : Idx → Option Bool} (hf : Answers d fill fun _ => false) {oob : FVal}
    {o : Out} (ho : extract R (res, res, res) d fill oob false = some o) (a : FVal) :
    colours R o.sdf a ≠ [] ∧ ∀ c ∈ colours R o.sdf a, c = ⟨some 0, none, some 0, a⟩ := by
  have hall := ((C14_uniform hres hd hw hf ho).1 fun _ _ => rfl).1
  have hdim : o.sdf.dims = d := by
    obtain ⟨o', a', b', ho', hs⟩ := base_spec hd hf R res oob
    rw [extract_false, ho'] at ho
    rw [← Option.some.inj ho]
    exact hs.dims
  obtain ⟨c, hc, h⟩ := C98_not_finite R o.sdf a
  rw [hc, hdim]
  constructor
  · intro h0
    have := Dims.mem_all.mpr (inB_iff_spec.mpr hw)
    rw [List.map_eq_nil_iff] at h0
    rw [h0] at this
    simp at this
  · intro k hk
    obtain ⟨i, hi, rfl⟩ := List.mem_map.mp hk
    have hi := inB_iff_spec.mp (Dims.mem_all.mp hi)
    exact (h i (hdim ▸ hi)).1 (hall i hi)

/-- C98, collision-only display: the drawn cells are those with a value of at most zero, including minus
infinity; a NaN cell is not drawn. -/
theorem C98_collision_only (g : Grid FVal) :
    (collisionCells g).Nodup ∧ ∀ i, i ∈ collisionCells g ↔
      InBounds g.dims i ∧ ∃ x, g.get i = some x ∧ x ≤ 0 := by
  have h : collisionCells g = g.dims.all.filter fun i => leZero (g.get i) := by
    have hl : ∀ (l acc : List Idx), l.foldl (fun l i => if leZero (g.getImm i).1 then l ++ [i] else l) acc =
        acc ++ l.filter fun i => leZero (g.get i) := by
      intro l
      induction l with
      | nil => simp
      | cons v l ih =>
        intro acc
        rw [List.foldl_cons, ih, List.filter_cons]
        by_cases hv : leZero (g.get v) = true
        · simp [Grid.getImm, hv]
        · simp [Grid.getImm, hv]
    exact hl _ _
  rw [h]
  refine ⟨(Dims.nodup_all _).filter _, fun i => ?_⟩
  rw [List.mem_filter, Dims.mem_all, inB_iff_spec]
  refine and_congr_right fun _ => ?_
  cases hg : g.get i with
  | none => simp [leZero]
  | some x => simp [leZero]

/-! ### The hypotheses are satisfiable -/

/-- A field with values of each sign: `1`, `1/2`, `0` and `-2`. -/
noncomputable def exFloatField : Grid FVal :=
  ⟨⟨2, 1, 2⟩, [some ((1 : ℝ) : EReal), some ((1 / 2 : ℝ) : EReal), some ((0 : ℝ) : EReal), some ((-2 : ℝ) : EReal)],
    none, none⟩

/-- The values of `exFloatField`. -/
noncomputable def exFloatValue (i : Idx) : ℝ :=
  if i.x = 0 then (if i.z = 0 then 1 else 1 / 2) else if i.z = 0 then 0 else -2

theorem exFloatField_get : ∀ i, InBounds exFloatField.dims i → exFloatField.get i = some (exFloatValue i : EReal) := by
  intro ⟨x, y, z⟩ ⟨⟨h1, h2⟩, ⟨h3, h4⟩, h5, h6⟩
  simp only [exFloatField] at h1 h2 h3 h4 h5 h6
  have hx : x = 0 ∨ x = 1 := by omega
  have hy : y = 0 := by omega
  have hz : z = 0 ∨ z = 1 := by omega
  subst hy
  rcases hx with rfl | rfl <;> rcases hz with rfl | rfl <;> (unfold exFloatValue; norm_num) <;> rfl

example (a : FVal) : ShowsField ⟨2, 1, 2⟩ exFloatValue a (colours ieee exFloatField a) :=
  C98_colours_partial exFloatField_get a

example : InBounds ⟨2, 1, 2⟩ ⟨1, 0, 1⟩ ∧ exFloatValue ⟨1, 0, 1⟩ = -2 ∧ exFloatValue ⟨0, 0, 1⟩ = 1 / 2 := by
  refine ⟨by simp [InBounds], ?_, ?_⟩ <;> norm_num [exFloatValue]

/-- A map of 4 x 3 x 2 free cells of size `1/4` has a field, and every colour of its display has a shade that
is not a number. -/
example : ∃ o, extract ieee (1 / 4, 1 / 4, 1 / 4) ⟨4, 3, 2⟩ (fun _ => some false) none false = some o ∧
    ∀ c ∈ colours ieee o.sdf (some 1), c = ⟨some 0, none, some 0, some 1⟩ := by
  have hd : SmallGrid ⟨4, 3, 2⟩ := by unfold SmallGrid; decide
  have hf : Answers ⟨4, 3, 2⟩ (fun _ => some false) fun _ => false := fun _ _ => rfl
  obtain ⟨o, ho, -⟩ := C13_sign quarter_good hd hf none
  exact ⟨o, ho, (C98_no_obstacle quarter_good hd (w := ⟨0, 0, 0⟩) (by simp [InBounds]) hf ho (some 1)).2⟩

example : (⟨1, 0, 0⟩ : Idx) ∈ collisionCells exFloatField ∧ (⟨0, 0, 1⟩ : Idx) ∉ collisionCells exFloatField := by
  constructor
  · rw [(C98_collision_only _).2]
    refine ⟨by simp [InBounds, exFloatField], 0, ?_, le_rfl⟩
    rw [exFloatField_get _ (by simp [InBounds, exFloatField])]
    norm_num [exFloatValue]
  · rw [(C98_collision_only _).2]
    rintro ⟨-, x, hx, h0⟩
    rw [exFloatField_get _ (by simp [InBounds, exFloatField])] at hx
    have : (exFloatValue ⟨0, 0, 1⟩ : EReal) ≤ 0 := (Option.some.inj hx) ▸ h0
    have h : exFloatValue ⟨0, 0, 1⟩ ≤ 0 := by exact_mod_cast this
    norm_num [exFloatValue] at h

end Verif
