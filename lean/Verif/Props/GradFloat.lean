import Verif.GradFloat
import Verif.Props.InterpFloat

/-!
# C102, C103: gradients and projection in floating point
-/

namespace Verif

open Spec DField SdfGen

namespace FSdf

open Fl

/-! ## Gradients of finite fields -/

/-- A computed difference of stored values, in `float` or in `double`. -/
def Diff (a : FVal) (x : ℝ) : Prop := ∃ y : ℝ, a = real y ∧ |y - x| ≤ |x| / 2 ^ 24 + 2 ^ (-149 : ℤ)

theorem sub32_diff {x y : ℝ} (h : |x - y| ≤ 2 ^ (127 : ℤ)) : Diff (sub32 ieee (real x) (real y)) (x - y) := by
  obtain ⟨w, e, hw⟩ := Ieee.r32_real h
  refine ⟨w, ?_, hw⟩
  unfold sub32 real
  simp only
  rw [if_neg (by simp), ← EReal.coe_sub, e]

theorem sub_diff {x y : ℝ} (h : |x - y| ≤ 2 ^ (127 : ℤ)) : Diff (sub ieee (real x) (real y)) (x - y) := by
  obtain ⟨w, e, hw⟩ := Ieee.r64_real (h.trans (Ieee.two_mono (by norm_num)))
  refine ⟨w, by rw [sub_real, e]; rfl, hw.trans (add_le_add ?_ (Ieee.two_mono (by norm_num)))⟩
  have := abs_nonneg (x - y)
  gcongr <;> norm_num

theorem unit_eps : Unit' (1 / 2 ^ 52) := by
  constructor <;> norm_num

/-- A computed product with a small integer. -/
theorem times_ap {r : ℝ} (hr : Rng r (-100) 100) {n : ℕ} (h1 : 1 ≤ n) (h2 : n ≤ 2) :
    Ap (1 / 2 ^ 52) (Fl.mul ieee (real n) (real r)) (n * r) (n * r) 1 1 := by
  have r0 := hr.pos
  have n0 : (0 : ℝ) < n := by exact_mod_cast h1
  have hs : Scale (n * r) := by
    have hn : Rng (n : ℝ) 0 1 := by
      constructor
      · rw [zpow_zero]; exact_mod_cast h1
      · rw [zpow_one]; exact_mod_cast h2
    exact (hn.mul hr).scale (by norm_num) (by norm_num)
  have hx : |(n : ℝ) * r| ≤ 1 * (n * r) := by rw [one_mul, abs_of_pos (by positivity)]
  refine ⟨hx, ?_⟩
  obtain ⟨w, e1, e2⟩ := round_ap (z := n * r) (e := 0) unit_eps hs hx (by simp) (by norm_num) (by norm_num)
  refine ⟨w, by rw [mul_real, e1]; rfl, e2.trans (mul_le_mul_of_nonneg_right (by norm_num) hs.pos.le)⟩

/-- The accuracy of one component of a computed gradient. -/
def Close (res : ℝ) (a : FVal) (x : ℝ) : Prop := ∃ y : ℝ, a = real y ∧ |y - x| ≤ |x| / 2 ^ 23 + 1 / 2 ^ 147 / res

/-- A difference divided by one or two cell sizes. -/
theorem quotient_close {r : ℝ} (hr : Rng r (-100) 100) {n : ℕ} (h1 : 1 ≤ n) (h2 : n ≤ 2) {a : FVal} {x : ℝ}
    (ha : Diff a x) (hx : |x| ≤ 2 ^ (127 : ℤ)) :
    Close r (Fl.mul ieee a (Fl.div ieee (real 1) (Fl.mul ieee (real n) (real r)))) (x * (1 / (n * r))) := by
  have r0 := hr.pos
  have n1 : (1 : ℝ) ≤ n := by exact_mod_cast h1
  have hn : Rng (n : ℝ) 0 1 := by
    constructor
    · rw [zpow_zero]; exact_mod_cast h1
    · rw [zpow_one]; exact_mod_cast h2
  have hnr := hn.mul hr
  have s0 : 0 < (n : ℝ) * r := hnr.pos
  have hi := hnr.inv
  obtain ⟨-, v, hv, hve⟩ := Ap.inv (m := 2) unit_eps s0 (hi.scale (by norm_num) (by norm_num)) (times_ap hr h1 h2)
    (by norm_num) (by norm_num) (by norm_num)
  obtain ⟨y, rfl, hy⟩ := ha
  rw [hv]
  set s := 1 / ((n : ℝ) * r) with hs
  have spos : 0 < s := by rw [hs]; positivity
  have hsr : s ≤ 1 / r := by
    rw [hs]
    apply one_div_le_one_div_of_le r0
    nlinarith
  have tiny : (2 : ℝ) ^ (-149 : ℤ) = 1 / 2 ^ 149 := zpow_neg_nat 149
  rw [tiny] at hy
  have x0 := abs_nonneg x
  have hyb : |y| ≤ |x| * (1 + 1 / 2 ^ 24) + 1 / 2 ^ 149 := by
    have := abs_sub_abs_le_abs_sub y x
    linarith
  have hvb : |v| ≤ (1 + 1 / 2 ^ 51) * s := by
    have := abs_sub_abs_le_abs_sub v s
    rw [abs_of_pos spos] at this
    linarith
  have hd : |y * v - x * s| ≤ (|x| / 2 ^ 24 + 1 / 2 ^ 149) * s + (|x| * (1 + 1 / 2 ^ 24) + 1 / 2 ^ 149) * (1 / 2 ^ 51 * s) := by
    have e : y * v - x * s = (y - x) * s + y * (v - s) := by ring
    rw [e]
    refine (abs_add_le _ _).trans ?_
    rw [abs_mul, abs_mul, abs_of_pos spos]
    have hve' : |v - s| ≤ 1 / 2 ^ 51 * s := hve.trans (le_of_eq (by ring))
    exact add_le_add (mul_le_mul_of_nonneg_right hy spos.le)
      (mul_le_mul hyb hve' (abs_nonneg _) (by positivity))
  have hzb : |y * v| ≤ (|x| * (1 + 1 / 2 ^ 24) + 1 / 2 ^ 149) * ((1 + 1 / 2 ^ 51) * s) := by
    rw [abs_mul]
    exact mul_le_mul hyb hvb (abs_nonneg _) (by positivity)
  have hbig : |y * v| ≤ 2 ^ (1000 : ℤ) := by
    refine hzb.trans ?_
    have e1 : |x| * (1 + 1 / 2 ^ 24) + 1 / 2 ^ 149 ≤ 2 ^ 129 := by
      have : (2 : ℝ) ^ (127 : ℤ) = 2 ^ 127 := by norm_cast
      rw [this] at hx
      norm_num at hx ⊢; linarith
    have e2 : (1 + 1 / 2 ^ 51) * s ≤ 2 ^ 101 := by
      have h3 : s ≤ 2 ^ 100 := by
        have := hi.2
        have e : (2 : ℝ) ^ (-(0 + -100) : ℤ) = 2 ^ 100 := by norm_num
        rw [e] at this
        exact this
      norm_num at h3 ⊢; linarith
    have e3 : (2 : ℝ) ^ 129 * 2 ^ 101 ≤ 2 ^ (1000 : ℤ) := by
      rw [← zpow_natCast, ← zpow_natCast, ← Ieee.two_add]
      exact Ieee.two_mono (by norm_num)
    exact (mul_le_mul e1 e2 (by positivity) (by positivity)).trans e3
  obtain ⟨w, e1, e2⟩ := Ieee.r64_real hbig
  refine ⟨w, by rw [mul_real, e1]; rfl, ?_⟩
  have ht : (2 : ℝ) ^ (-1074 : ℤ) ≤ 1 / 2 ^ 149 * s := by
    have h3 := hi.1
    have : (2 : ℝ) ^ (-1074 : ℤ) ≤ 1 / 2 ^ 149 * 2 ^ (-(1 + 100) : ℤ) := by
      rw [← zpow_neg_nat, ← Ieee.two_add]
      exact Ieee.two_mono (by norm_num)
    refine this.trans ?_
    gcongr
  have hxs : |x * s| = |x| * s := by rw [abs_mul, abs_of_pos spos]
  rw [hxs]
  have h5 : |y * v| / 2 ^ 53 ≤ (|x| * (1 + 1 / 2 ^ 24) + 1 / 2 ^ 149) * ((1 + 1 / 2 ^ 51) * s) / 2 ^ 53 := by gcongr
  have h6 : |w - x * s| ≤ |w - y * v| + |y * v - x * s| := abs_sub_le _ _ _
  have p1 : 0 ≤ |x| * s := by positivity
  have h7 : 1 / 2 ^ 147 / r = 1 / 2 ^ 147 * (1 / r) := by ring
  rw [h7]
  have h8 : (1 : ℝ) / 2 ^ 147 * s ≤ 1 / 2 ^ 147 * (1 / r) := by gcongr
  have h9 : (|x| / 2 ^ 24 + 1 / 2 ^ 149) * s + (|x| * (1 + 1 / 2 ^ 24) + 1 / 2 ^ 149) * (1 / 2 ^ 51 * s) +
      (|x| * (1 + 1 / 2 ^ 24) + 1 / 2 ^ 149) * ((1 + 1 / 2 ^ 51) * s) / 2 ^ 53 + 1 / 2 ^ 149 * s ≤
      |x| * s / 2 ^ 23 + 1 / 2 ^ 147 * s := by
    have e : (|x| / 2 ^ 24 + 1 / 2 ^ 149) * s + (|x| * (1 + 1 / 2 ^ 24) + 1 / 2 ^ 149) * (1 / 2 ^ 51 * s) +
      (|x| * (1 + 1 / 2 ^ 24) + 1 / 2 ^ 149) * ((1 + 1 / 2 ^ 51) * s) / 2 ^ 53 + 1 / 2 ^ 149 * s =
      (|x| * s) * (1 / 2 ^ 24 + (1 + 1 / 2 ^ 24) * (1 / 2 ^ 51) + (1 + 1 / 2 ^ 24) * (1 + 1 / 2 ^ 51) / 2 ^ 53) +
      s * (1 / 2 ^ 149 * (1 + 1 / 2 ^ 51 + (1 + 1 / 2 ^ 51) / 2 ^ 53 + 1)) := by ring
    rw [e]
    have c1 : (1 : ℝ) / 2 ^ 24 + (1 + 1 / 2 ^ 24) * (1 / 2 ^ 51) + (1 + 1 / 2 ^ 24) * (1 + 1 / 2 ^ 51) / 2 ^ 53
        ≤ 1 / 2 ^ 23 := by norm_num
    have c2 : (1 : ℝ) / 2 ^ 149 * (1 + 1 / 2 ^ 51 + (1 + 1 / 2 ^ 51) / 2 ^ 53 + 1) ≤ 1 / 2 ^ 147 := by norm_num
    have := mul_le_mul_of_nonneg_left c1 p1
    have := mul_le_mul_of_nonneg_left c2 spos.le
    linarith
  linarith

theorem inner_close {s : FSdf} {t : MSdf ℝ} (h : Stores s t) (hr : Rng t.res (-100) 100) {D : ℝ}
    (hD : D ≤ 2 ^ 126) (hv : ∀ i, InBounds t.grid.dims i → |t.grid.get i| ≤ D) {a b : Idx}
    (ha : InBounds t.grid.dims a) (hb : InBounds t.grid.dims b) :
    Close t.res (s.inner ieee a b) ((t.grid.get a - t.grid.get b) * (1 / (2 * t.res))) := by
  have hd : |t.grid.get a - t.grid.get b| ≤ 2 ^ (127 : ℤ) := by
    have h1 := hv a ha
    have h2 := hv b hb
    refine (abs_sub _ _).trans ?_
    have : (2 : ℝ) ^ (127 : ℤ) = 2 * 2 ^ 126 := by norm_num
    rw [this]; linarith
  unfold inner
  rw [h.2.2 a ha, h.2.2 b hb, h.2.1]
  have := quotient_close hr (n := 2) (by norm_num) le_rfl (sub32_diff hd) hd
  exact_mod_cast this

theorem edge_close {s : FSdf} {t : MSdf ℝ} (h : Stores s t) (hr : Rng t.res (-100) 100) {D : ℝ}
    (hD : D ≤ 2 ^ 126) (hv : ∀ i, InBounds t.grid.dims i → |t.grid.get i| ≤ D) {a b : Idx}
    (ha : InBounds t.grid.dims a) (hb : InBounds t.grid.dims b) {n : Int} (h0 : 0 ≤ n) (h2 : n ≤ 2) :
    Close t.res (s.edge ieee n a b)
      (if (n : ℝ) * t.res > 0 then (t.grid.get a - t.grid.get b) * (1 / ((n : ℝ) * t.res)) else 0) := by
  have r0 := hr.pos
  have hd : |t.grid.get a - t.grid.get b| ≤ 2 ^ (127 : ℤ) := by
    have h1 := hv a ha
    have h2 := hv b hb
    refine (abs_sub _ _).trans ?_
    have : (2 : ℝ) ^ (127 : ℤ) = 2 * 2 ^ 126 := by norm_num
    rw [this]; linarith
  obtain ⟨n, rfl⟩ := Int.eq_ofNat_of_zero_le h0
  unfold edge
  rw [h.2.2 a ha, h.2.2 b hb, h.2.1]
  rcases Nat.eq_zero_or_pos n with rfl | hn
  · have e : Fl.mul ieee (real ((((0 : ℕ) : ℤ)) : ℝ)) (real t.res) = real 0 := by
      rw [mul_real]
      have := SdfShow.zero64 ieee
      simp only [Nat.cast_zero, Int.cast_zero, zero_mul, EReal.coe_zero, this]
      rfl
    dsimp only
    rw [e, if_neg (by simp [lt, real]), if_neg (by simp)]
    exact ⟨0, rfl, by simp; positivity⟩
  · have n0 : (0 : ℝ) < n := by exact_mod_cast hn
    have hn2 : n ≤ 2 := by omega
    obtain ⟨-, w, e, hw⟩ := times_ap hr hn hn2
    have wpos : 0 < w := by
      rw [abs_le] at hw
      have : 0 < (n : ℝ) * t.res := by positivity
      have h3 := hw.1
      norm_num at h3
      nlinarith
    dsimp only
    rw [Int.cast_natCast, e, if_pos (by simp only [lt, real, decide_eq_true_eq]; exact_mod_cast wpos), ← e,
      if_pos (show (n : ℝ) * t.res > 0 by positivity)]
    exact quotient_close hr hn hn2 (sub_diff hd) hd

/-- C102: for a field of finite values the computed grid-aligned gradient has the components of the exact one, each
a number with relative error at most `2 ^ -23` (and an absolute error far below one `float` step per cell). -/
theorem C102_accuracy_partial {s : FSdf} {t : MSdf ℝ} (h : Stores s t) (hlo : 1 / 2 ^ 100 ≤ t.res)
    (hhi : t.res ≤ 2 ^ 100) {D : ℝ} (hD : D ≤ 2 ^ 126) (hv : ∀ i, InBounds t.grid.dims i → |t.grid.get i| ≤ D)
    (i : Idx) (edges : Bool) :
    List.Forall₂ (Close t.res) (s.gridGrad ieee i edges) (t.gridGrad i edges) := by
  have hr : Rng t.res (-100) 100 := by
    refine ⟨?_, ?_⟩
    · have := zpow_neg_nat 100
      push_cast at this
      rw [this]; exact hlo
    · exact_mod_cast hhi
  unfold gridGrad MSdf.gridGrad
  rw [h.1]
  dsimp only
  by_cases hi : t.grid.dims.inB i = true
  swap
  · rw [if_neg hi, if_neg hi]
    exact List.Forall₂.nil
  obtain ⟨⟨x0, x1⟩, ⟨y0, y1⟩, z0, z1⟩ := inB_iff_spec.mp hi
  rw [if_pos hi, if_pos hi]
  split
  · next hin =>
    obtain ⟨a1, a2, a3, a4, a5, a6⟩ := hin
    refine List.Forall₂.cons ?_ (List.Forall₂.cons ?_ (List.Forall₂.cons ?_ List.Forall₂.nil)) <;>
      (apply inner_close h hr hD hv <;> refine ⟨⟨?_, ?_⟩, ⟨?_, ?_⟩, ?_, ?_⟩ <;> dsimp only <;> omega)
  · by_cases he : edges = true
    · rw [if_pos he, if_pos he]
      refine List.Forall₂.cons ?_ (List.Forall₂.cons ?_ (List.Forall₂.cons ?_ List.Forall₂.nil)) <;>
        (apply edge_close h hr hD hv <;>
          first | omega | (refine ⟨⟨?_, ?_⟩, ⟨?_, ?_⟩, ?_, ?_⟩ <;> dsimp only <;> omega))
    · rw [if_neg he, if_neg he]
      exact List.Forall₂.nil

/-! ## Gradients of infinite fields -/

theorem sub32_self (R : Rounding) {v : FVal} (h : NotFinite v) : sub32 R v v = none := by
  rcases h with rfl | rfl | rfl <;> simp [sub32]

/-- C102, the failing case: next to cells that share an infinite value, the gradient of an inner cell has three
components, none of which is a number. -/
theorem C102_infinite (R : Rounding) {s : FSdf} {i : Idx}
    (hi : (0 < i.x ∧ i.x < (s.grid.dims.nx : Int) - 1) ∧ (0 < i.y ∧ i.y < (s.grid.dims.ny : Int) - 1) ∧
      0 < i.z ∧ i.z < (s.grid.dims.nz : Int) - 1)
    (hall : (∀ j, Reads s.grid.dims i j → s.grid.get j = some ⊤) ∨
      ∀ j, Reads s.grid.dims i j → s.grid.get j = some ⊥) (edges : Bool) :
    s.gridGrad R i edges = [none, none, none] := by
  obtain ⟨v, hv, hall⟩ : ∃ v, NotFinite v ∧ ∀ j, Reads s.grid.dims i j → s.grid.get j = v := by
    rcases hall with h | h
    · exact ⟨_, Or.inr (Or.inl rfl), h⟩
    · exact ⟨_, Or.inr (Or.inr rfl), h⟩
  obtain ⟨⟨x0, x1⟩, ⟨y0, y1⟩, z0, z1⟩ := hi
  have key : ∀ a b, Reads s.grid.dims i a → Reads s.grid.dims i b → s.inner R a b = none := by
    intro a b ha hb
    unfold inner
    rw [hall a ha, hall b hb, sub32_self R hv, none_mul]
  unfold gridGrad
  dsimp only
  rw [if_pos (inB_iff_spec.mpr ⟨⟨by omega, by omega⟩, ⟨by omega, by omega⟩, by omega, by omega⟩),
    if_pos ⟨by omega, by omega, by omega, by omega, by omega, by omega⟩]
  have r : ∀ a b c : Int, |a| ≤ 1 → |b| ≤ 1 → |c| ≤ 1 → Reads s.grid.dims i ⟨i.x + a, i.y + b, i.z + c⟩ := by
    intro a b c ha hb hc
    have ha' := abs_le.mp ha
    have hb' := abs_le.mp hb
    have hc' := abs_le.mp hc
    refine ⟨⟨⟨?_, ?_⟩, ⟨?_, ?_⟩, ?_, ?_⟩, ?_, ?_, ?_⟩ <;> dsimp only <;> first | omega | simpa
  have e1 := key _ _ (r 1 0 0 (by norm_num) (by norm_num) (by norm_num)) (r (-1) 0 0 (by norm_num) (by norm_num) (by norm_num))
  have e2 := key _ _ (r 0 1 0 (by norm_num) (by norm_num) (by norm_num)) (r 0 (-1) 0 (by norm_num) (by norm_num) (by norm_num))
  have e3 := key _ _ (r 0 0 1 (by norm_num) (by norm_num) (by norm_num)) (r 0 0 (-1) (by norm_num) (by norm_num) (by norm_num))
  simp only [add_zero, ← sub_eq_add_neg] at e1 e2 e3
  rw [e1, e2, e3]

/-! ## Projection -/

/-- An estimate at a cell outside the grid throws: one of the cells it reads is outside. -/
theorem estGrid_oob (R : Rounding) {s : FSdf} {i : Idx} (hi : ¬ InBounds s.grid.dims i) (p : V3 FVal) :
    s.estGrid R p i = none := by
  have oob : ∀ {j}, ¬ InBounds s.grid.dims j → s.corrected R j = none := by
    intro j hj
    unfold corrected
    rw [if_neg]
    intro h
    exact hj (inB_iff_spec.mp h)
  have mem : ∀ (k n : Int) (b : Bool), (axisIdx k n b).1 = k ∨ (axisIdx k n b).2 = k := by
    intro k n b
    unfold axisIdx
    split_ifs <;> simp
  cases hres : s.estGrid R p i with
  | none => rfl
  | some v =>
    exfalso
    unfold estGrid at hres
    simp only [Option.bind_eq_bind, Option.bind_eq_some_iff] at hres
    obtain ⟨v1, h1, v2, h2, v3, h3, v4, h4, v5, h5, v6, h6, v7, h7, v8, h8, -⟩ := hres
    have inb : ∀ {j w}, s.corrected R j = some w → InBounds s.grid.dims j := by
      intro j w h
      by_contra hc
      rw [oob hc] at h
      cases h
    have g1 := inb h1
    have g8 := inb h8
    apply hi
    obtain ⟨a1, a2, a3⟩ := g1
    obtain ⟨b1, b2, b3⟩ := g8
    dsimp only at a1 a2 a3 b1 b2 b3
    refine ⟨?_, ?_, ?_⟩
    · rcases mem i.x s.grid.dims.nx (geZero (sub R p.x (s.center R i).x)) with h | h
      · rw [h] at a1; exact a1
      · rw [h] at b1; exact b1
    · rcases mem i.y s.grid.dims.ny (geZero (sub R p.y (s.center R i).y)) with h | h
      · rw [h] at a2; exact a2
      · rw [h] at b2; exact b2
    · rcases mem i.z s.grid.dims.nz (geZero (sub R p.z (s.center R i).z)) with h | h
      · rw [h] at a3; exact a3
      · rw [h] at b3; exact b3

theorem loop_done (R : Rounding) (G : Geometry) (s : FSdf) (m mult : FVal) (fuel : Nat) (p r : V3 FVal)
    (h : s.projectOutLoop R G m mult fuel p = .done r) :
    ∃ v, s.estGrid R r (G.cellOf r) = some v ∧ le v m = false := by
  induction fuel generalizing p with
  | zero =>
    unfold projectOutLoop at h
    dsimp only at h
    split at h
    · cases h
    · next v hv =>
      split_ifs at h with hle
      cases h
      exact ⟨v, hv, by simpa using hle⟩
  | succ n ih =>
    unfold projectOutLoop at h
    dsimp only at h
    split at h
    · cases h
    · next v hv =>
      split_ifs at h with hle
      · split at h
        · split_ifs at h
          · exact ih _ h
        · cases h
      · cases h
        exact ⟨v, hv, by simpa using hle⟩

/-- Contract of the base class: a location whose cell lies in the grid has finite coordinates, each within one cell
size of the centre of the cell. -/
def Geometry.Ok (G : Geometry) (d : Dims) (res : ℝ) : Prop :=
  ∀ p, InBounds d (G.cellOf p) → ∃ q : V3 ℝ, p = ⟨real q.x, real q.y, real q.z⟩ ∧
    |q.x - (((G.cellOf p).x : ℝ) + 1 / 2) * res| ≤ res ∧ |q.y - (((G.cellOf p).y : ℝ) + 1 / 2) * res| ≤ res ∧
    |q.z - (((G.cellOf p).z : ℝ) + 1 / 2) * res| ≤ res

/-- C103: for a field of finite values, a location returned by the projection (before it is transformed back to the
world frame) lies in the grid, and its distance estimate is a number greater than the minimum distance; so the exact
interpolation there is greater than the minimum distance up to the error of C101. -/
theorem C103_returned_partial {s : FSdf} {t : MSdf ℝ} (h : Stores s t) {N : ℕ} (hN : N ≤ 2 ^ 20)
    (hdim : t.grid.dims.nx ≤ N ∧ t.grid.dims.ny ≤ N ∧ t.grid.dims.nz ≤ N)
    (hlo : 1 / 2 ^ 100 ≤ t.res) (hhi : t.res ≤ 2 ^ 100) {D : ℝ} (hD : D ≤ 2 ^ 150)
    (hv : ∀ i, InBounds t.grid.dims i → |t.grid.get i| ≤ D) {G : Geometry} (hG : G.Ok t.grid.dims t.res)
    {inB : V3 FVal → Bool} {into toGrid toWorld : V3 FVal → V3 FVal} {p r' : V3 FVal} {m : ℝ} {mult : FVal}
    {fuel : Nat} (hdone : s.projectOut ieee G inB into toGrid toWorld p (real m) mult fuel = .done r') :
    ∃ (q : V3 ℝ) (y z : ℝ), r' = toWorld ⟨real q.x, real q.y, real q.z⟩ ∧
      InBounds t.grid.dims (G.cellOf ⟨real q.x, real q.y, real q.z⟩) ∧
      s.estimate ieee id G.cellOf ⟨real q.x, real q.y, real q.z⟩ = some (real y, true) ∧ m < y ∧
      t.estGrid id id q (G.cellOf ⟨real q.x, real q.y, real q.z⟩) = some z ∧
      m - N / 2 ^ 40 * (D + t.res / 2) < z := by
  unfold projectOut at hdone
  dsimp only at hdone
  split at hdone
  · next r hr =>
    cases hdone
    obtain ⟨v, hv1, hv2⟩ := loop_done ieee G s _ _ _ _ _ hr
    have hin : InBounds t.grid.dims (G.cellOf r) := by
      by_contra hc
      rw [estGrid_oob ieee (by rw [h.1]; exact hc)] at hv1
      cases hv1
    obtain ⟨q, rfl, qx, qy, qz⟩ := hG r hin
    obtain ⟨y, z, e1, e2, e3⟩ := C101_accuracy_partial h hN hdim hlo hhi hD hv (toGrid := id) (locIdx := G.cellOf)
      (p := ⟨real q.x, real q.y, real q.z⟩) hin rfl rfl qx qy qz
    have hvy : v = real y := by
      unfold estimate at e1
      rw [if_pos (inB_iff_spec.mpr (by rw [h.1]; exact hin)), id, hv1] at e1
      simpa using e1
    rw [hvy] at hv2
    have hmy : m < y := by
      by_contra hc
      have : le (real y) (real m) = true := by
        simp only [le, real, decide_eq_true_eq]
        exact_mod_cast not_lt.mp hc
      rw [this] at hv2
      cases hv2
    refine ⟨q, y, z, rfl, hin, e1, hmy, e2, ?_⟩
    rw [abs_le] at e3
    linarith [e3.2]
  · cases hdone
  · cases hdone

/-- C103, the failing case: on a map without free cells, every location inside the grid is returned as it was. -/
theorem C103_filled {R : Rounding} {res : ℝ} (hres : GoodRes R res) {d : Dims} (hd : SmallGrid d)
    {fill : Idx → Option Bool} (hf : Answers d fill fun _ => true) {oob : FVal}
    {o : Out} (ho : extract R (res, res, res) d fill oob false = some o) (G : Geometry)
    (inB : V3 FVal → Bool) (into toGrid toWorld : V3 FVal → V3 FVal) {p : V3 FVal} (hp : inB p = true)
    (hin : InBounds d (G.cellOf (toGrid p))) (m mult : FVal) (fuel : Nat) :
    (FSdf.mk o.sdf res).projectOut R G inB into toGrid toWorld p m mult fuel = .done (toWorld (toGrid p)) := by
  have hall := ((C14_uniform hres hd hin hf ho).2 fun _ _ => rfl).1
  have hdim : o.sdf.dims = d := by
    obtain ⟨o', a', b', ho', hs⟩ := base_spec hd hf R res oob
    rw [extract_false, ho'] at ho
    rw [← Option.some.inj ho]
    exact hs.dims
  have hest : (FSdf.mk o.sdf res).estGrid R (toGrid p) (G.cellOf (toGrid p)) = some none :=
    estGrid_notFinite R (s := ⟨o.sdf, res⟩) (by rw [hdim]; exact hin) (Or.inr (Or.inr rfl))
      (fun j hj => hall j (hdim ▸ hj.1)) _
  have hloop : (FSdf.mk o.sdf res).projectOutLoop R G m mult fuel (toGrid p) = .done (toGrid p) := by
    unfold projectOutLoop
    simp only [hest, le]
    rfl
  unfold projectOut
  rw [if_pos hp]
  simp only [hloop]

/-- C102, a map without obstacles: the gradient of an inner cell has three components that are not numbers. -/
theorem C102_no_obstacle {R : Rounding} {res : ℝ} (hres : GoodRes R res) {d : Dims} (hd : SmallGrid d)
    {fill : Idx → Option Bool} (hf : Answers d fill fun _ => false) {oob : FVal}
    {o : Out} (ho : extract R (res, res, res) d fill oob false = some o) {i : Idx}
    (hi : (0 < i.x ∧ i.x < (d.nx : Int) - 1) ∧ (0 < i.y ∧ i.y < (d.ny : Int) - 1) ∧
      0 < i.z ∧ i.z < (d.nz : Int) - 1) (edges : Bool) :
    (FSdf.mk o.sdf res).gridGrad R i edges = [none, none, none] := by
  have hin : InBounds d i := by
    obtain ⟨⟨x0, x1⟩, ⟨y0, y1⟩, z0, z1⟩ := hi
    exact ⟨⟨by omega, by omega⟩, ⟨by omega, by omega⟩, by omega, by omega⟩
  have hall := ((C14_uniform hres hd hin hf ho).1 fun _ _ => rfl).1
  have hdim : o.sdf.dims = d := by
    obtain ⟨o', a', b', ho', hs⟩ := base_spec hd hf R res oob
    rw [extract_false, ho'] at ho
    rw [← Option.some.inj ho]
    exact hs.dims
  exact C102_infinite R (s := ⟨o.sdf, res⟩) (by rw [hdim]; exact hi) (Or.inl fun j hj => hall j (hdim ▸ hj.1)) edges

/-! ### The hypotheses are satisfiable -/

theorem exField_stores : Stores (FSdf.mk exFloatField (1 / 4)) (FSdf.mk exFloatField (1 / 4)).exact :=
  exact_stores fun i hi => ⟨_, exFloatField_get i hi⟩

theorem exField_bound (i : Idx) (hi : InBounds (FSdf.mk exFloatField (1 / 4)).exact.grid.dims i) :
    |(FSdf.mk exFloatField (1 / 4)).exact.grid.get i| ≤ 2 := by
  rw [exact_get]
  show |toR (exFloatField.get i)| ≤ 2
  rw [exFloatField_get i hi]
  show |exFloatValue i| ≤ 2
  unfold exFloatValue
  rw [abs_le]
  split_ifs <;> constructor <;> norm_num

theorem exField_grad : (FSdf.mk exFloatField (1 / 4)).exact.gridGrad ⟨0, 0, 0⟩ true = [-4, 0, -2] := by
  have v0 : toR (exFloatField.get ⟨0, 0, 0⟩) = 1 := by
    rw [exFloatField_get _ (by simp [InBounds, exFloatField])]; norm_num [toR, exFloatValue]
  have v1 : toR (exFloatField.get ⟨1, 0, 0⟩) = 0 := by
    rw [exFloatField_get _ (by simp [InBounds, exFloatField])]; norm_num [toR, exFloatValue]
  have v2 : toR (exFloatField.get ⟨0, 0, 1⟩) = 1 / 2 := by
    rw [exFloatField_get _ (by simp [InBounds, exFloatField])]; norm_num [toR, exFloatValue]
  unfold MSdf.gridGrad
  have hd : (FSdf.mk exFloatField (1 / 4)).exact.grid.dims = ⟨2, 1, 2⟩ := rfl
  have hr : (FSdf.mk exFloatField (1 / 4)).exact.res = 1 / 4 := rfl
  simp only [exact_get, hd, hr]
  norm_num [Dims.inB, v0, v1, v2]

/-- The gradient at the first cell of `exFloatField`, towards its two neighbours. -/
example : ∃ a b c, (FSdf.mk exFloatField (1 / 4)).gridGrad ieee ⟨0, 0, 0⟩ true = [a, b, c] ∧
    Close (1 / 4) a (-4) ∧ Close (1 / 4) b 0 ∧ Close (1 / 4) c (-2) := by
  have h := C102_accuracy_partial exField_stores (by show (1 : ℝ) / 2 ^ 100 ≤ 1 / 4; norm_num)
    (by show (1 / 4 : ℝ) ≤ 2 ^ 100; norm_num) (by norm_num) exField_bound ⟨0, 0, 0⟩ true
  rw [exField_grad] at h
  have hr : (FSdf.mk exFloatField (1 / 4)).exact.res = 1 / 4 := rfl
  rw [hr] at h
  obtain ⟨a, l, ha, hl, e⟩ := List.forall₂_cons_right_iff.mp h
  obtain ⟨b, l', hb, hl', e'⟩ := List.forall₂_cons_right_iff.mp hl
  obtain ⟨c, l'', hc, hl'', e''⟩ := List.forall₂_cons_right_iff.mp hl'
  rw [List.forall₂_nil_right_iff] at hl''
  subst hl''
  subst e''
  subst e'
  exact ⟨a, b, c, e, ha, hb, hc⟩

/-- A geometry that meets the contract: the first cell of `exFloatField` at one location, no cell elsewhere. -/
noncomputable def exGeometry : Geometry :=
  ⟨fun _ => none, id, fun p => open Classical in
    if p = ⟨real (1 / 8), real (1 / 8), real (1 / 8)⟩ then ⟨0, 0, 0⟩ else ⟨-1, 0, 0⟩⟩

theorem exGeometry_ok : exGeometry.Ok ⟨2, 1, 2⟩ (1 / 4) := by
  classical
  intro p hp
  by_cases h : p = ⟨real (1 / 8), real (1 / 8), real (1 / 8)⟩
  · refine ⟨⟨1 / 8, 1 / 8, 1 / 8⟩, h, ?_⟩
    simp only [exGeometry, if_pos h]
    norm_num
  · exfalso
    simp only [exGeometry, if_neg h] at hp
    exact absurd hp.1.1 (by norm_num)

/-- The first cell of `exFloatField` is at distance 7/8 or so: a projection to distance 1/2 returns at once. -/
example : ∃ r, (FSdf.mk exFloatField (1 / 4)).projectOut ieee exGeometry (fun _ => true) id id id
      ⟨real (1 / 8), real (1 / 8), real (1 / 8)⟩ (real (1 / 2)) (real (1 / 8)) 5 = .done r := by
  have hin : InBounds ⟨2, 1, 2⟩ (⟨0, 0, 0⟩ : Idx) := by simp [InBounds]
  have hc : exGeometry.cellOf ⟨real (1 / 8), real (1 / 8), real (1 / 8)⟩ = ⟨0, 0, 0⟩ := by simp [exGeometry]
  obtain ⟨y, z, e1, e2, e3⟩ := C101_accuracy_partial (N := 2) (D := 2) exField_stores (by norm_num)
    ⟨le_refl 2, by decide, le_refl 2⟩ (by show (1 : ℝ) / 2 ^ 100 ≤ 1 / 4; norm_num)
    (by show (1 / 4 : ℝ) ≤ 2 ^ 100; norm_num) (by norm_num) exField_bound (toGrid := id)
    (locIdx := exGeometry.cellOf) (i := ⟨0, 0, 0⟩) (q := ⟨1 / 8, 1 / 8, 1 / 8⟩)
    (p := ⟨real (1 / 8), real (1 / 8), real (1 / 8)⟩) hin hc rfl
    (by show |_ - _ * (1 / 4 : ℝ)| ≤ 1 / 4; norm_num) (by show |_ - _ * (1 / 4 : ℝ)| ≤ 1 / 4; norm_num)
    (by show |_ - _ * (1 / 4 : ℝ)| ≤ 1 / 4; norm_num)
  have hz : z = 7 / 8 := by
    have v : ∀ i : Idx, InBounds ⟨2, 1, 2⟩ i → toR (exFloatField.get i) = exFloatValue i := fun i hi => by
      rw [exFloatField_get i hi]; rfl
    have hd : (FSdf.mk exFloatField (1 / 4)).exact.grid.dims = ⟨2, 1, 2⟩ := rfl
    have hr : (FSdf.mk exFloatField (1 / 4)).exact.res = 1 / 4 := rfl
    have v0 := v ⟨0, 0, 0⟩ (by simp [InBounds])
    have v1 := v ⟨1, 0, 0⟩ (by simp [InBounds])
    have v2 := v ⟨0, 0, 1⟩ (by simp [InBounds])
    have v3 := v ⟨1, 0, 1⟩ (by simp [InBounds])
    unfold MSdf.estGrid at e2
    norm_num [MSdf.center, hd, hr, MSdf.axisIdx, MSdf.corrected, exact_get, v0, v1, v2, v3, exFloatValue, Dims.inB,
      MSdf.trilinear, MSdf.bilinearXY, MSdf.bilinear] at e2
    linarith
  refine ⟨⟨real (1 / 8), real (1 / 8), real (1 / 8)⟩, ?_⟩
  have hy : 1 / 2 < y := by
    have hr : (FSdf.mk exFloatField (1 / 4)).exact.res = 1 / 4 := rfl
    rw [hz, hr, abs_le] at e3
    have := e3.1
    norm_num at this
    linarith
  have hest : (FSdf.mk exFloatField (1 / 4)).estGrid ieee ⟨real (1 / 8), real (1 / 8), real (1 / 8)⟩ ⟨0, 0, 0⟩ =
      some (real y) := by
    unfold estimate at e1
    rw [hc, if_pos (show exFloatField.dims.inB ⟨0, 0, 0⟩ = true from inB_iff_spec.mpr hin)] at e1
    simpa using e1
  have hle : le (real y) (real (1 / 2)) = false := by
    simp only [le, real, decide_eq_false_iff_not, not_le]
    exact_mod_cast hy
  unfold projectOut projectOutLoop
  simp only [if_true, id, hc, hest, hle]
  rfl

/-- A full map of 3 x 1 x 2 cells: a location in its first cell is returned as it was. -/
example : ∃ o, extract ieee (1 / 4, 1 / 4, 1 / 4) ⟨3, 1, 2⟩ (fun _ => some true) none false = some o ∧
    (FSdf.mk o.sdf (1 / 4)).projectOut ieee exGeometry (fun _ => true) id id id
      ⟨real (1 / 8), real (1 / 8), real (1 / 8)⟩ (real (1 / 2)) (real (1 / 8)) 5 =
        .done ⟨real (1 / 8), real (1 / 8), real (1 / 8)⟩ := by
  have hd : SmallGrid ⟨3, 1, 2⟩ := by unfold SmallGrid; decide
  have hf : Answers ⟨3, 1, 2⟩ (fun _ => some true) fun _ => true := fun _ _ => rfl
  obtain ⟨o, ho, -⟩ := C13_sign quarter_good hd hf none
  refine ⟨o, ho, C103_filled quarter_good hd hf ho exGeometry _ id id id rfl ?_ _ _ _⟩
  simp [exGeometry, InBounds]

/-- A free map of 3 x 3 x 3 cells: the gradient of its middle cell. -/
example : ∃ o, extract ieee (1 / 4, 1 / 4, 1 / 4) ⟨3, 3, 3⟩ (fun _ => some false) none false = some o ∧
    (FSdf.mk o.sdf (1 / 4)).gridGrad ieee ⟨1, 1, 1⟩ true = [none, none, none] := by
  have hd : SmallGrid ⟨3, 3, 3⟩ := by unfold SmallGrid; decide
  have hf : Answers ⟨3, 3, 3⟩ (fun _ => some false) fun _ => false := fun _ _ => rfl
  obtain ⟨o, ho, -⟩ := C13_sign quarter_good hd hf none
  exact ⟨o, ho, C102_no_obstacle quarter_good hd hf ho (by norm_num) true⟩

end FSdf

end Verif
