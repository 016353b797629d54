import Verif.BoundaryFloat
import Verif.Props.SmoothFloat

/-!
# C107, C108: projection into the volume and boundary distance in floating point
-/

namespace Verif

open Spec DField SdfGen

namespace Ieee

/-- Doubles are multiples of the smallest double. -/
theorem double_form {x : ℝ} (h : ieee.r64 (x : EReal) = (x : EReal)) : ∃ n : ℤ, x = n * 2 ^ (-1074 : ℤ) := by
  have key : ∀ {x : ℝ}, 0 ≤ x → ieee.r64 (x : EReal) = (x : EReal) → ∃ n : ℤ, x = n * 2 ^ (-1074 : ℤ) := by
    intro x h0 h
    have h' : round binary64 (x : EReal) = (x : EReal) := h
    rw [round_coe _ h0] at h'
    unfold roundMag at h'
    split_ifs at h' with hm
    · have e : magnitude binary64 x = x := by exact_mod_cast h'
      obtain ⟨n, k, -, hk, hn⟩ := magnitude_form (F := binary64) h0
      rw [e] at hn
      obtain ⟨j, hj⟩ := Int.le.dest hk
      refine ⟨n * 2 ^ j, ?_⟩
      rw [hn, ← hj, two_add, zpow_natCast]
      have : binary64.emin - ((binary64.prec : ℤ) - 1) = -1074 := by decide
      rw [this]
      push_cast
      ring
    · exact absurd h' (by simp)
  rcases le_total 0 x with h0 | h0
  · exact key h0 h
  · obtain ⟨n, hn⟩ := key (x := -x) (by linarith) (by rw [EReal.coe_neg, ieee.odd64, h])
    exact ⟨-n, by push_cast; linarith⟩

/-- Gradual underflow: the computed difference of two doubles has the sign of the exact difference. -/
theorem sub_sign {x y : ℝ} (hx : ieee.r64 (x : EReal) = (x : EReal)) (hy : ieee.r64 (y : EReal) = (y : EReal))
    (h : x < y) : ieee.r64 ((x - y : ℝ) : EReal) < 0 := by
  obtain ⟨n, hn⟩ := double_form hx
  obtain ⟨m, hm⟩ := double_form hy
  have hp := two_pos' (-1074)
  have hnm : n < m := by
    have : (n : ℝ) * 2 ^ (-1074 : ℤ) < m * 2 ^ (-1074 : ℤ) := hn ▸ hm ▸ h
    exact_mod_cast lt_of_mul_lt_mul_right this hp.le
  have hle : (2 : ℝ) ^ (-1074 : ℤ) ≤ y - x := by
    have h1 : (1 : ℝ) ≤ m - n := by exact_mod_cast (by omega : 1 ≤ m - n)
    rw [hn, hm, ← sub_mul]
    nlinarith
  have e : ieee.r64 (((2 : ℝ) ^ (-1074 : ℤ) : ℝ) : EReal) = (((2 : ℝ) ^ (-1074 : ℤ) : ℝ) : EReal) := by
    have h := round_exact (F := binary64) (n := 1) (e := -1074) (by decide) (by decide)
      (by rw [Nat.cast_one, one_mul]; exact zpow_lt_zpow_right₀ (by norm_num) (by decide))
    rw [Nat.cast_one, one_mul] at h
    exact h
  rw [show (x - y : ℝ) = -(y - x) by ring, EReal.coe_neg, ieee.odd64, EReal.neg_lt_zero]
  have := ieee.mono64 (EReal.coe_le_coe_iff.mpr hle)
  rw [e] at this
  exact lt_of_lt_of_le (by exact_mod_cast hp) this

end Ieee

namespace FSdf

open Fl

/-! ## Boundary distance -/

/-- The distances of a grid-frame location to the six faces of the volume. -/
def faces (size q : V3 ℝ) : List ℝ :=
  [q.x, size.x - q.x, q.y, size.y - q.y, q.z, size.z - q.z]

theorem fmin_round {R : Rounding} {a s : ℝ} (ha : R.r64 (a : EReal) = (a : EReal)) :
    fmin (real a) (sub R (real s) (real a)) = some (R.r64 ((min a (s - a) : ℝ) : EReal)) := by
  rw [sub_real]
  unfold fmin lt real
  simp only [decide_eq_true_eq]
  rcases le_total a (s - a) with h | h
  · rw [min_eq_left h, ha, if_neg]
    have := R.mono64 (EReal.coe_le_coe_iff.mpr h)
    rw [ha] at this
    exact not_lt.mpr this
  · rw [min_eq_right h]
    have := R.mono64 (EReal.coe_le_coe_iff.mpr h)
    rw [ha] at this
    split_ifs with h'
    · rfl
    · rw [le_antisymm this (not_lt.mp h')]

theorem fabs_nonneg {x : EReal} (h : 0 ≤ x) : fabs (some x) = some x := by
  unfold fabs
  have h' : -x ≤ 0 := by
    have := EReal.neg_le_neg_iff.mpr h
    rwa [neg_zero] at this
  have : -x ≤ x := h'.trans h
  simp [max_eq_left this]

theorem round_nonneg (R : Rounding) {x : ℝ} (h : 0 ≤ x) : 0 ≤ R.r64 (x : EReal) := by
  have := R.mono64 (EReal.coe_le_coe_iff.mpr h)
  rwa [EReal.coe_zero, SdfGen.zero64] at this

/-- C108, inside the volume, for any rounding: when the grid-frame coordinates lie between 0 and the side lengths,
the reported distance is the exact distance to the nearest face, rounded once, and the flag is true. -/
theorem C108_inside (R : Rounding) {toGrid : V3 FVal → V3 FVal} {size q : V3 ℝ} {p : V3 FVal}
    (hq : toGrid p = ⟨real q.x, real q.y, real q.z⟩)
    (hx : R.r64 (q.x : EReal) = (q.x : EReal)) (hy : R.r64 (q.y : EReal) = (q.y : EReal))
    (hz : R.r64 (q.z : EReal) = (q.z : EReal)) (hin : ∀ f ∈ faces size q, 0 ≤ f) :
    ∃ f ∈ faces size q, (∀ f' ∈ faces size q, f ≤ f') ∧
      distanceToBoundary R toGrid size p = (some (R.r64 (f : EReal)), true) := by
  have h6 := hin
  simp only [faces, List.mem_cons, List.not_mem_nil, or_false, forall_eq_or_imp, forall_eq] at h6
  obtain ⟨a1, a2, b1, b2, c1, c2⟩ := h6
  unfold distanceToBoundary
  simp only [hq]
  rw [fmin_round hx, fmin_round hy, fmin_round hz]
  set X := min q.x (size.x - q.x) with hX
  set Y := min q.y (size.y - q.y) with hY
  set Z := min q.z (size.z - q.z) with hZ
  have hX0 : 0 ≤ X := le_min a1 a2
  have hY0 : 0 ≤ Y := le_min b1 b2
  have hZ0 : 0 ≤ Z := le_min c1 c2
  have rX := round_nonneg R hX0
  have rY := round_nonneg R hY0
  have rZ := round_nonneg R hZ0
  have mX : X ∈ faces size q := by
    rcases min_choice q.x (size.x - q.x) with h | h <;> rw [hX, h] <;> simp [faces]
  have mY : Y ∈ faces size q := by
    rcases min_choice q.y (size.y - q.y) with h | h <;> rw [hY, h] <;> simp [faces]
  have mZ : Z ∈ faces size q := by
    rcases min_choice q.z (size.z - q.z) with h | h <;> rw [hZ, h] <;> simp [faces]
  have all : ∀ f, f ≤ X → f ≤ Y → f ≤ Z → ∀ f' ∈ faces size q, f ≤ f' := by
    intro f l1 l2 l3
    simp only [faces, List.mem_cons, List.not_mem_nil, or_false, forall_eq_or_imp, forall_eq]
    exact ⟨l1.trans (min_le_left _ _), l1.trans (min_le_right _ _), l2.trans (min_le_left _ _),
      l2.trans (min_le_right _ _), l3.trans (min_le_left _ _), l3.trans (min_le_right _ _)⟩
  have mono : ∀ {u v : ℝ}, ¬ R.r64 (u : EReal) < R.r64 (v : EReal) → u ≤ v →
      R.r64 (u : EReal) = R.r64 (v : EReal) := fun h h' =>
    le_antisymm (R.mono64 (EReal.coe_le_coe_iff.mpr h')) (not_lt.mp h)
  have anti : ∀ {u v : ℝ}, R.r64 (u : EReal) < R.r64 (v : EReal) → u ≤ v := fun h =>
    le_of_not_ge fun h' => absurd (R.mono64 (EReal.coe_le_coe_iff.mpr h')) (not_le.mpr h)
  rw [fabs_nonneg rX, fabs_nonneg rY, fabs_nonneg rZ]
  have flag : ∀ {u : EReal}, 0 ≤ u → le (real 0) (some u) = true := by
    intro u hu
    unfold le real
    rw [EReal.coe_zero]
    exact decide_eq_true hu
  rw [flag rX, flag rY, flag rZ]
  -- the least of the three
  have least : ∃ f ∈ faces size q, (f ≤ X ∧ f ≤ Y ∧ f ≤ Z) ∧
      (if lt (some (R.r64 (Y : EReal))) (some (R.r64 (X : EReal))) then
        (if lt (some (R.r64 (Z : EReal))) (some (R.r64 (Y : EReal))) then some (R.r64 (Z : EReal))
          else some (R.r64 (Y : EReal)))
      else (if lt (some (R.r64 (Z : EReal))) (some (R.r64 (X : EReal))) then some (R.r64 (Z : EReal))
        else some (R.r64 (X : EReal)))) = some (R.r64 (f : EReal)) := by
    unfold lt
    simp only [decide_eq_true_eq]
    have m3 : ∃ f ∈ faces size q, (f ≤ X ∧ f ≤ Y ∧ f ≤ Z) ∧ (f = X ∨ f = Y ∨ f = Z) := by
      rcases le_total X Y with h | h <;> rcases le_total X Z with h' | h' <;> rcases le_total Y Z with h'' | h''
      · exact ⟨X, mX, ⟨le_rfl, h, h'⟩, Or.inl rfl⟩
      · exact ⟨X, mX, ⟨le_rfl, h, h'⟩, Or.inl rfl⟩
      · exact ⟨Z, mZ, ⟨h', h'.trans h, le_rfl⟩, Or.inr (Or.inr rfl)⟩
      · exact ⟨Z, mZ, ⟨h', h'', le_rfl⟩, Or.inr (Or.inr rfl)⟩
      · exact ⟨Y, mY, ⟨h, le_rfl, h''⟩, Or.inr (Or.inl rfl)⟩
      · exact ⟨Z, mZ, ⟨h''.trans h, h'', le_rfl⟩, Or.inr (Or.inr rfl)⟩
      · exact ⟨Y, mY, ⟨h, le_rfl, h''⟩, Or.inr (Or.inl rfl)⟩
      · exact ⟨Z, mZ, ⟨h', h'', le_rfl⟩, Or.inr (Or.inr rfl)⟩
    obtain ⟨f, mf, lf, hf⟩ := m3
    refine ⟨f, mf, lf, ?_⟩
    have k1 := R.mono64 (EReal.coe_le_coe_iff.mpr lf.1)
    have k2 := R.mono64 (EReal.coe_le_coe_iff.mpr lf.2.1)
    have k3 := R.mono64 (EReal.coe_le_coe_iff.mpr lf.2.2)
    split_ifs with g1 g2 g2
    · rcases hf with rfl | rfl | rfl
      · exact absurd k2 (not_le.mpr g1)
      · exact absurd k3 (not_le.mpr g2)
      · rfl
    · rcases hf with rfl | rfl | rfl
      · exact absurd k2 (not_le.mpr g1)
      · rfl
      · rw [le_antisymm k2 (not_lt.mp g2)]
    · rcases hf with rfl | rfl | rfl
      · exact absurd k3 (not_le.mpr g2)
      · exact absurd (k1.trans (not_lt.mp g1)) (by
          intro _
          exact absurd k3 (not_le.mpr (lt_of_lt_of_le g2 (not_lt.mp g1))))
      · rfl
    · rcases hf with rfl | rfl | rfl
      · rfl
      · rw [le_antisymm k1 (not_lt.mp g1)]
      · rw [le_antisymm k1 (not_lt.mp g2)]
  obtain ⟨f, mf, lf, ef⟩ := least
  exact ⟨f, mf, all f lf.1 lf.2.1 lf.2.2, by rw [ef]; rfl⟩

/-- The displacement along each axis: the smaller of the signed distances to its two faces. -/
noncomputable def displacements (size q : V3 ℝ) : List ℝ :=
  [min q.x (size.x - q.x), min q.y (size.y - q.y), min q.z (size.z - q.z)]

/-- C108, finite coordinates anywhere, for any rounding: the reported value is the displacement along one axis, rounded
once, and no other axis has a rounded displacement of smaller magnitude. -/
theorem C108_value (R : Rounding) {toGrid : V3 FVal → V3 FVal} {size q : V3 ℝ} {p : V3 FVal}
    (hq : toGrid p = ⟨real q.x, real q.y, real q.z⟩)
    (hx : R.r64 (q.x : EReal) = (q.x : EReal)) (hy : R.r64 (q.y : EReal) = (q.y : EReal))
    (hz : R.r64 (q.z : EReal) = (q.z : EReal)) :
    ∃ w ∈ displacements size q, (distanceToBoundary R toGrid size p).1 = some (R.r64 (w : EReal)) ∧
      ∀ w' ∈ displacements size q, max (R.r64 (w : EReal)) (-R.r64 (w : EReal)) ≤
        max (R.r64 (w' : EReal)) (-R.r64 (w' : EReal)) := by
  unfold distanceToBoundary displacements
  simp only [hq]
  rw [fmin_round hx, fmin_round hy, fmin_round hz]
  generalize min q.x (size.x - q.x) = X
  generalize min q.y (size.y - q.y) = Y
  generalize min q.z (size.z - q.z) = Z
  have hlt : ∀ a b : EReal, lt (fabs (some a)) (fabs (some b)) = true ↔ max a (-a) < max b (-b) := by
    intro a b
    unfold lt fabs
    simp only [Option.map_some, decide_eq_true_eq]
  simp only [List.mem_cons, List.not_mem_nil, or_false, exists_eq_or_imp, exists_eq_left, forall_eq_or_imp, forall_eq,
    hlt]
  by_cases h1 : max (R.r64 (Y : EReal)) (-R.r64 (Y : EReal)) < max (R.r64 (X : EReal)) (-R.r64 (X : EReal))
  · by_cases h2 : max (R.r64 (Z : EReal)) (-R.r64 (Z : EReal)) < max (R.r64 (Y : EReal)) (-R.r64 (Y : EReal))
    · exact .inr (.inr ⟨by rw [if_pos h1, if_pos h2], (h2.trans h1).le, h2.le, le_rfl⟩)
    · exact .inr (.inl ⟨by rw [if_pos h1, if_neg h2], h1.le, le_rfl, not_lt.mp h2⟩)
  · by_cases h2 : max (R.r64 (Z : EReal)) (-R.r64 (Z : EReal)) < max (R.r64 (X : EReal)) (-R.r64 (X : EReal))
    · exact .inr (.inr ⟨by rw [if_neg h1, if_pos h2], h2.le, (h2.trans_le (not_lt.mp h1)).le, le_rfl⟩)
    · exact .inl ⟨by rw [if_neg h1, if_neg h2], le_rfl, not_lt.mp h1, not_lt.mp h2⟩

/-- A value that a `double` can have. -/
def IsDouble (R : Rounding) (a : FVal) : Prop := ∀ x, a = some x → R.r64 x = x

theorem flag_axis {s : ℝ} (hs : ieee.r64 (s : EReal) = (s : EReal)) {a : FVal} (ha : IsDouble ieee a) :
    le (real 0) (fmin a (sub ieee (real s) a)) = true ↔ ∃ x : ℝ, a = real x ∧ 0 ≤ x ∧ x ≤ s := by
  cases a with
  | none =>
    have : sub ieee (real s) none = none := rfl
    rw [this]
    simp [fmin, lt, le, real]
  | some v =>
    induction v using EReal.rec with
    | bot =>
      have : sub ieee (real s) (some ⊥) = some ⊤ := by
        unfold sub add neg real
        simp [ieee.top64]
      rw [this]
      simp [fmin, lt, le, real]
    | top =>
      have : sub ieee (real s) (some ⊤) = some ⊥ := by
        unfold sub add neg real
        simp [bot64]
      rw [this]
      simp [fmin, lt, le, real]
    | coe x =>
      have hx := ha _ rfl
      have := fmin_round (R := ieee) (s := s) hx
      unfold real at this ⊢
      rw [this]
      unfold le
      simp only [decide_eq_true_eq, Option.some.injEq, EReal.coe_eq_coe_iff, exists_eq_left']
      constructor
      · intro h
        have hmin : ¬ min x (s - x) < 0 := by
          intro hlt
          rcases min_lt_iff.mp hlt with h1 | h1
          · have h2 := ieee.mono64 (EReal.coe_le_coe_iff.mpr (min_le_left x (s - x)))
            rw [hx] at h2
            have h3 := h.trans h2
            exact absurd (EReal.coe_le_coe_iff.mp h3) (not_le.mpr h1)
          · have h2 := ieee.mono64 (EReal.coe_le_coe_iff.mpr (min_le_right x (s - x)))
            have h3 := Ieee.sub_sign hs hx (by linarith : s < x)
            have h4 := h.trans h2
            rw [EReal.coe_zero] at h4
            exact absurd h4 (not_le.mpr h3)
        have := le_min_iff.mp (not_lt.mp hmin)
        exact ⟨this.1, by linarith [this.2]⟩
      · rintro ⟨h1, h2⟩
        exact round_nonneg ieee (le_min h1 (by linarith))

/-- C108, the flag: it is true exactly when every grid-frame coordinate is a number between 0 and the side length;
in particular it is false for coordinates that are infinite or not numbers. -/
theorem C108_flag {toGrid : V3 FVal → V3 FVal} {size : V3 ℝ} {p : V3 FVal}
    (hsx : ieee.r64 (size.x : EReal) = (size.x : EReal)) (hsy : ieee.r64 (size.y : EReal) = (size.y : EReal))
    (hsz : ieee.r64 (size.z : EReal) = (size.z : EReal))
    (hx : IsDouble ieee (toGrid p).x) (hy : IsDouble ieee (toGrid p).y) (hz : IsDouble ieee (toGrid p).z) :
    (distanceToBoundary ieee toGrid size p).2 = true ↔
      ∃ q : V3 ℝ, toGrid p = ⟨real q.x, real q.y, real q.z⟩ ∧ ∀ f ∈ faces size q, 0 ≤ f := by
  unfold distanceToBoundary
  simp only [Bool.and_eq_true]
  rw [flag_axis hsx hx, flag_axis hsy hy, flag_axis hsz hz]
  constructor
  · rintro ⟨⟨⟨x, ex, x0, x1⟩, y, ey, y0, y1⟩, z, ez, z0, z1⟩
    refine ⟨⟨x, y, z⟩, ?_, ?_⟩
    · rw [← ex, ← ey, ← ez]
    · simp only [faces, List.mem_cons, List.not_mem_nil, or_false, forall_eq_or_imp, forall_eq]
      refine ⟨x0, ?_, y0, ?_, z0, ?_⟩ <;> linarith
  · rintro ⟨q, eq, hf⟩
    simp only [faces, List.mem_cons, List.not_mem_nil, or_false, forall_eq_or_imp, forall_eq] at hf
    obtain ⟨a1, a2, b1, b2, c1, c2⟩ := hf
    rw [eq]
    exact ⟨⟨⟨q.x, rfl, a1, by linarith⟩, q.y, rfl, b1, by linarith⟩, q.z, rfl, c1, by linarith⟩

/-! ## Projection into the volume -/

/-- Contract of `arc_helpers::ClampValue`: values that are numbers (or infinite) are moved to the nearest end of the
interval. -/
def ClampOk (clamp : FVal → FVal → FVal → FVal) : Prop :=
  ∀ v lo hi : EReal, lo ≤ hi → clamp (some v) (some lo) (some hi) = some (max lo (min v hi))

/-- C107, the clamped location, for any rounding: with `m` the computed inset and `hi` the computed upper limits,
the result is the location itself, with grid-frame coordinates between `m` and `hi`, or the transform of a grid-frame
location with such coordinates.  Infinite coordinates are allowed. -/
theorem C107_clamped (R : Rounding) {clamp : FVal → FVal → FVal → FVal} (hc : ClampOk clamp)
    (toGrid toWorld : V3 FVal → V3 FVal) {size : V3 ℝ} {res : ℝ} {p : V3 FVal} {minDist : FVal} {g hi : V3 EReal}
    {m : EReal} (hg : toGrid p = ⟨some g.x, some g.y, some g.z⟩) (hm : inset R res minDist = some m)
    (hx : sub R (real size.x) (some m) = some hi.x) (hy : sub R (real size.y) (some m) = some hi.y)
    (hz : sub R (real size.z) (some m) = some hi.z) (lx : m ≤ hi.x) (ly : m ≤ hi.y) (lz : m ≤ hi.z) :
    ∃ c : V3 EReal, ((m ≤ c.x ∧ c.x ≤ hi.x) ∧ (m ≤ c.y ∧ c.y ≤ hi.y) ∧ (m ≤ c.z ∧ c.z ≤ hi.z)) ∧
      ((projectInto R clamp toGrid toWorld size res p minDist = p ∧ c = g) ∨
        projectInto R clamp toGrid toWorld size res p minDist = toWorld ⟨some c.x, some c.y, some c.z⟩) := by
  refine ⟨⟨max m (min g.x hi.x), max m (min g.y hi.y), max m (min g.z hi.z)⟩,
    ⟨⟨le_max_left _ _, max_le lx (min_le_right _ _)⟩, ⟨le_max_left _ _, max_le ly (min_le_right _ _)⟩,
      le_max_left _ _, max_le lz (min_le_right _ _)⟩, ?_⟩
  unfold projectInto
  simp only [hg, hm, hx, hy, hz, hc _ _ _ lx, hc _ _ _ ly, hc _ _ _ lz]
  split_ifs with h
  · exact Or.inr rfl
  · left
    refine ⟨rfl, ?_⟩
    unfold fne at h
    simp only [ne_eq, decide_not, Bool.or_eq_true, Bool.not_eq_eq_eq_not, Bool.not_true, decide_eq_false_iff_not,
      not_or, not_not] at h
    obtain ⟨⟨h1, h2⟩, h3⟩ := h
    rw [h1, h2, h3]

theorem tiny_le {r : ℝ} (hlo : 1 / 2 ^ 100 ≤ r) : (2 : ℝ) ^ (-1074 : ℤ) ≤ r / 2 ^ 60 := by
  have e : (2 : ℝ) ^ (-160 : ℤ) = 1 / 2 ^ 160 := by
    have := zpow_neg_nat 160
    push_cast at this
    exact this
  calc (2 : ℝ) ^ (-1074 : ℤ) ≤ 2 ^ (-160 : ℤ) := Ieee.two_mono (by decide)
    _ = 1 / 2 ^ 100 / 2 ^ 60 := by rw [e]; norm_num
    _ ≤ r / 2 ^ 60 := by gcongr

theorem big_le {r a : ℝ} (hhi : r ≤ 2 ^ 100) (h : |a| ≤ 2 ^ 40 * r) : |a| ≤ (2 : ℝ) ^ (1000 : ℤ) := by
  have e : (2 : ℝ) ^ (200 : ℤ) = 2 ^ 200 := by norm_cast
  calc |a| ≤ 2 ^ 40 * r := h
    _ ≤ 2 ^ 40 * 2 ^ 100 := by gcongr
    _ ≤ 2 ^ 200 := by norm_num
    _ = 2 ^ (200 : ℤ) := e.symm
    _ ≤ 2 ^ (1000 : ℤ) := Ieee.two_mono (by decide)

/-- The computed inset. -/
theorem inset_near {r d : ℝ} (hlo : 1 / 2 ^ 100 ≤ r) (hhi : r ≤ 2 ^ 100) (h0 : 0 ≤ d) (hd : d ≤ 2 ^ 20 * r) :
    ∃ m : ℝ, inset ieee r (real d) = real m ∧ |m - (d + r / 10000)| ≤ r / 2 ^ 31 := by
  have r0 : 0 < r := lt_of_lt_of_le (by positivity) hlo
  have hτ := tiny_le hlo
  generalize hτd : (2 : ℝ) ^ (-1074 : ℤ) = τ at hτ
  have hτ' : τ ≤ 1 / 10000 / 2 ^ 53 := by
    rw [← hτd]
    have := tiny_le (r := 1 / 10000) (by norm_num)
    refine this.trans (by norm_num)
  obtain ⟨c, ec, hc⟩ := Ieee.r64_real (z := 1 / 10000)
    (big_le (r := 1) (by norm_num) (by rw [abs_of_pos (by norm_num)]; norm_num))
  rw [hτd, abs_of_pos (by norm_num : (0 : ℝ) < 1 / 10000)] at hc
  have hc1 : |c - 1 / 10000| ≤ 1 / 2 ^ 64 := by
    refine hc.trans ?_
    norm_num at hτ' ⊢
    linarith
  obtain ⟨c2, c3⟩ := abs_le.mp hc1
  have hc0 : 0 ≤ c := by norm_num at c2; linarith
  have hc5 : c ≤ 1 / 5000 := by norm_num at c3; linarith
  have hrc : r * c ≤ r := by nlinarith
  have hrc0 : 0 ≤ r * c := by positivity
  obtain ⟨P, eP, hP⟩ := Ieee.r64_real (z := r * c)
    (big_le (r := r) hhi (by rw [abs_of_nonneg hrc0]; norm_num; linarith))
  rw [hτd, abs_of_nonneg hrc0] at hP
  have hrc' : |r * c - r / 10000| ≤ r / 2 ^ 64 := by
    rw [show r * c - r / 10000 = r * (c - 1 / 10000) by ring, abs_mul, abs_of_pos r0, div_eq_mul_one_div r (2 ^ 64)]
    gcongr
  have hP1 : |P - r / 10000| ≤ r / 2 ^ 50 := by
    have := abs_sub_le P (r * c) (r / 10000)
    norm_num at this hP hrc' hτ ⊢
    linarith
  obtain ⟨P1, P2⟩ := abs_le.mp hP1
  have hdP : |d + P| ≤ 2 ^ 21 * r := by
    rw [abs_le]
    norm_num at P1 P2 hd ⊢
    constructor <;> linarith
  obtain ⟨m, em, hm⟩ := Ieee.r64_real (z := d + P) (big_le (r := r) hhi (hdP.trans (by norm_num; linarith)))
  rw [hτd] at hm
  refine ⟨m, ?_, ?_⟩
  · unfold inset
    rw [ec]
    have e1 := mul_real ieee r c
    have e2 := add_real ieee d P
    unfold real at e1 e2 ⊢
    rw [e1, eP, e2, em]
  · have := abs_sub_le m (d + P) (d + r / 10000)
    rw [show d + P - (d + r / 10000) = P - r / 10000 by ring] at this
    norm_num at this hm hP1 hτ hdP ⊢
    linarith

/-- The computed upper limit of a coordinate. -/
theorem limit_near {r d m s : ℝ} (hlo : 1 / 2 ^ 100 ≤ r) (hhi : r ≤ 2 ^ 100)
    (h0 : 0 ≤ d) (hs : s ≤ 2 ^ 21 * r) (hroom : 2 * d + r / 1000 ≤ s) (hm : |m - (d + r / 10000)| ≤ r / 2 ^ 31) :
    ∃ k : ℝ, sub ieee (real s) (real m) = real k ∧ |k - (s - m)| ≤ r / 2 ^ 30 ∧ m ≤ k := by
  have r0 : 0 < r := lt_of_lt_of_le (by positivity) hlo
  have hτ := tiny_le hlo
  obtain ⟨m1, m2⟩ := abs_le.mp hm
  have m0 : 0 ≤ m := by norm_num at m1; linarith
  have hsm : 0 ≤ s - m := by norm_num at m2; linarith
  have hsm' : |s - m| ≤ 2 ^ 21 * r := by rw [abs_of_nonneg hsm]; linarith
  obtain ⟨k, ek, hk⟩ := Ieee.r64_real (z := s - m) (big_le (r := r) hhi (hsm'.trans (by norm_num; linarith)))
  generalize (2 : ℝ) ^ (-1074 : ℤ) = τ at hτ hk
  have hk' : |k - (s - m)| ≤ r / 2 ^ 30 := by
    norm_num at hk hτ hsm' ⊢
    linarith
  refine ⟨k, by rw [sub_real, ek]; rfl, hk', ?_⟩
  obtain ⟨k1, k2⟩ := abs_le.mp hk'
  norm_num at k1 m2
  linarith

/-- The transforms of the base class: transforming a grid-frame location of the volume to the world frame and back
moves each coordinate by at most `δ`. -/
def RoundTrip (toGrid toWorld : V3 FVal → V3 FVal) (size : V3 ℝ) (δ : ℝ) : Prop :=
  ∀ c : V3 ℝ, (∀ f ∈ faces size c, 0 ≤ f) → ∃ c' : V3 ℝ,
    toGrid (toWorld ⟨real c.x, real c.y, real c.z⟩) = ⟨real c'.x, real c'.y, real c'.z⟩ ∧
      |c'.x - c.x| ≤ δ ∧ |c'.y - c.y| ≤ δ ∧ |c'.z - c.z| ≤ δ

/-- C107: when the transforms are accurate to a quarter of the built-in safety margin (`1e-4` of a cell), the
projection of every location whose grid-frame coordinates are numbers or infinite is a location at more than the
requested distance from every face of the volume. -/
theorem C107_inside_partial {clamp : FVal → FVal → FVal → FVal} (hc : ClampOk clamp)
    {toGrid toWorld : V3 FVal → V3 FVal} {size : V3 ℝ} {res d : ℝ} (hlo : 1 / 2 ^ 100 ≤ res) (hhi : res ≤ 2 ^ 100)
    (h0 : 0 ≤ d) (hsize : size.x ≤ 2 ^ 21 * res ∧ size.y ≤ 2 ^ 21 * res ∧ size.z ≤ 2 ^ 21 * res)
    (hroom : 2 * d + res / 1000 ≤ size.x ∧ 2 * d + res / 1000 ≤ size.y ∧ 2 * d + res / 1000 ≤ size.z)
    (htrip : RoundTrip toGrid toWorld size (res / 40000)) {p : V3 FVal} {g : V3 EReal}
    (hg : toGrid p = ⟨some g.x, some g.y, some g.z⟩) :
    ∃ q : V3 ℝ, toGrid (projectInto ieee clamp toGrid toWorld size res p (real d)) = ⟨real q.x, real q.y, real q.z⟩ ∧
      ∀ f ∈ faces size q, d < f := by
  have r0 : 0 < res := lt_of_lt_of_le (by positivity) hlo
  obtain ⟨sx, sy, sz⟩ := hsize
  obtain ⟨rx, ry, rz⟩ := hroom
  obtain ⟨m, em, hm⟩ := inset_near (d := d) hlo hhi h0 (by linarith)
  obtain ⟨kx, ekx, hkx, lx⟩ := limit_near hlo hhi h0 sx rx hm
  obtain ⟨ky, eky, hky, ly⟩ := limit_near hlo hhi h0 sy ry hm
  obtain ⟨kz, ekz, hkz, lz⟩ := limit_near hlo hhi h0 sz rz hm
  obtain ⟨c, ⟨⟨x1, x2⟩, ⟨y1, y2⟩, z1, z2⟩, hres⟩ := C107_clamped ieee hc toGrid toWorld (hi := ⟨kx, ky, kz⟩) hg em
    ekx eky ekz (EReal.coe_le_coe_iff.mpr lx) (EReal.coe_le_coe_iff.mpr ly) (EReal.coe_le_coe_iff.mpr lz)
  have fin : ∀ {v : EReal} {a b : ℝ}, (a : EReal) ≤ v → v ≤ (b : EReal) → ∃ y : ℝ, v = (y : EReal) ∧ a ≤ y ∧ y ≤ b := by
    intro v a b h1 h2
    induction v using EReal.rec with
    | bot => simp at h1
    | top => simp at h2
    | coe y => exact ⟨y, rfl, EReal.coe_le_coe_iff.mp h1, EReal.coe_le_coe_iff.mp h2⟩
  obtain ⟨u, eu, u1, u2⟩ := fin x1 x2
  obtain ⟨v, ev, v1, v2⟩ := fin y1 y2
  obtain ⟨w, ew, w1, w2⟩ := fin z1 z2
  obtain ⟨m1, m2⟩ := abs_le.mp hm
  have cx := (abs_le.mp hkx).2
  have cy := (abs_le.mp hky).2
  have cz := (abs_le.mp hkz).2
  have inner : ∀ {y k s : ℝ}, m ≤ y → y ≤ k → k - (s - m) ≤ res / 2 ^ 30 →
      d + res / 20000 ≤ y ∧ d + res / 20000 ≤ s - y := by
    intro y k s h1 h2 h3
    norm_num at m1 m2 h3
    constructor <;> linarith
  obtain ⟨i1, i2⟩ := inner u1 u2 cx
  obtain ⟨j1, j2⟩ := inner v1 v2 cy
  obtain ⟨l1, l2⟩ := inner w1 w2 cz
  have near : ∃ q : V3 ℝ,
      toGrid (projectInto ieee clamp toGrid toWorld size res p (real d)) = ⟨real q.x, real q.y, real q.z⟩ ∧
      |q.x - u| ≤ res / 40000 ∧ |q.y - v| ≤ res / 40000 ∧ |q.z - w| ≤ res / 40000 := by
    rcases hres with ⟨hp, hcg⟩ | hw
    · refine ⟨⟨u, v, w⟩, ?_, ?_⟩
      · rw [hp, hg, ← hcg, eu, ev, ew]; rfl
      · simp only [sub_self, abs_zero]
        refine ⟨?_, ?_, ?_⟩ <;> positivity
    · rw [hw, eu, ev, ew]
      refine htrip ⟨u, v, w⟩ ?_
      simp only [faces, List.mem_cons, List.not_mem_nil, or_false, forall_eq_or_imp, forall_eq]
      refine ⟨?_, ?_, ?_, ?_, ?_, ?_⟩ <;> linarith
  obtain ⟨q, eq, a, b, e⟩ := near
  refine ⟨q, eq, ?_⟩
  rw [abs_le] at a b e
  simp only [faces, List.mem_cons, List.not_mem_nil, or_false, forall_eq_or_imp, forall_eq]
  refine ⟨?_, ?_, ?_, ?_, ?_, ?_⟩ <;> linarith

/-- The transforms of a grid whose origin is translated by `t` and not rotated. -/
noncomputable def shiftToWorld (t : V3 ℝ) (c : V3 FVal) : V3 FVal :=
  ⟨add ieee c.x (real t.x), add ieee c.y (real t.y), add ieee c.z (real t.z)⟩

noncomputable def shiftToGrid (t : V3 ℝ) (p : V3 FVal) : V3 FVal :=
  ⟨sub ieee p.x (real t.x), sub ieee p.y (real t.y), sub ieee p.z (real t.z)⟩

theorem trip_axis {r s t c : ℝ} (hlo : 1 / 2 ^ 100 ≤ r) (hhi : r ≤ 2 ^ 100) (hs : s ≤ 2 ^ 21 * r)
    (ht : |t| ≤ 2 ^ 30 * r) (c0 : 0 ≤ c) (c1 : c ≤ s) :
    ∃ c' : ℝ, sub ieee (add ieee (real c) (real t)) (real t) = real c' ∧ |c' - c| ≤ r / 40000 := by
  have r0 : 0 < r := lt_of_lt_of_le (by positivity) hlo
  have hτ := tiny_le hlo
  have hct : |c + t| ≤ 2 ^ 31 * r := by
    refine (abs_add_le _ _).trans ?_
    rw [abs_of_nonneg c0]
    norm_num at ht hs ⊢
    linarith
  obtain ⟨y, ey, hy⟩ := Ieee.r64_real (z := c + t) (big_le (r := r) hhi (hct.trans (by norm_num; linarith)))
  generalize hτd : (2 : ℝ) ^ (-1074 : ℤ) = τ at hτ hy
  have hy' : |y - (c + t)| ≤ r / 2 ^ 21 := by
    norm_num at hy hτ hct ⊢
    linarith
  have hyt : |y - t| ≤ 2 ^ 22 * r := by
    rw [show y - t = (y - (c + t)) + c by ring]
    refine (abs_add_le _ _).trans ?_
    rw [abs_of_nonneg c0]
    norm_num at hy' hs ⊢
    linarith
  obtain ⟨c', ec, hc⟩ := Ieee.r64_real (z := y - t) (big_le (r := r) hhi (hyt.trans (by norm_num; linarith)))
  rw [hτd] at hc
  refine ⟨c', ?_, ?_⟩
  · rw [add_real, ey]
    have := sub_real ieee y t
    unfold real at this ⊢
    rw [this, ec]
  · have := abs_sub_le c' (y - t) c
    rw [show y - t - c = y - (c + t) by ring] at this
    norm_num at this hc hy' hτ hyt ⊢
    linarith

/-- C107, grids that are not rotated: when the origin is at most `2 ^ 30` cells away, the projection of every
location with finite coordinates is a location at more than the requested distance from every face. -/
theorem C107_translated {clamp : FVal → FVal → FVal → FVal} (hc : ClampOk clamp) {t size : V3 ℝ} {res d : ℝ}
    (hlo : 1 / 2 ^ 100 ≤ res) (hhi : res ≤ 2 ^ 100) (h0 : 0 ≤ d)
    (hsize : size.x ≤ 2 ^ 21 * res ∧ size.y ≤ 2 ^ 21 * res ∧ size.z ≤ 2 ^ 21 * res)
    (hroom : 2 * d + res / 1000 ≤ size.x ∧ 2 * d + res / 1000 ≤ size.y ∧ 2 * d + res / 1000 ≤ size.z)
    (ht : |t.x| ≤ 2 ^ 30 * res ∧ |t.y| ≤ 2 ^ 30 * res ∧ |t.z| ≤ 2 ^ 30 * res) (p : V3 ℝ) :
    ∃ q : V3 ℝ, shiftToGrid t (projectInto ieee clamp (shiftToGrid t) (shiftToWorld t) size res
        ⟨real p.x, real p.y, real p.z⟩ (real d)) = ⟨real q.x, real q.y, real q.z⟩ ∧ ∀ f ∈ faces size q, d < f := by
  refine C107_inside_partial hc hlo hhi h0 hsize hroom ?_
    (g := ⟨ieee.r64 ((p.x - t.x : ℝ) : EReal), ieee.r64 ((p.y - t.y : ℝ) : EReal), ieee.r64 ((p.z - t.z : ℝ) : EReal)⟩) ?_
  · intro c hf
    simp only [faces, List.mem_cons, List.not_mem_nil, or_false, forall_eq_or_imp, forall_eq] at hf
    obtain ⟨a1, a2, b1, b2, c1, c2⟩ := hf
    obtain ⟨x, ex, hx⟩ := trip_axis hlo hhi hsize.1 ht.1 a1 (by linarith)
    obtain ⟨y, ey, hy⟩ := trip_axis hlo hhi hsize.2.1 ht.2.1 b1 (by linarith)
    obtain ⟨z, ez, hz⟩ := trip_axis hlo hhi hsize.2.2 ht.2.2 c1 (by linarith)
    refine ⟨⟨x, y, z⟩, ?_, hx, hy, hz⟩
    unfold shiftToGrid shiftToWorld
    rw [ex, ey, ez]
  · unfold shiftToGrid
    rw [sub_real, sub_real, sub_real]

/-- C107, the failing case: a grid of 10 x 10 x 10 cells of size 1 whose origin is `2 ^ 43` cells away on each axis.
The projection of a location far outside has grid-frame coordinates 10, that is, it lies on the faces and in no
cell. -/
theorem C107_far_origin {clamp : FVal → FVal → FVal → FVal} (hc : ClampOk clamp) :
    shiftToGrid ⟨2 ^ 43, 2 ^ 43, 2 ^ 43⟩ (projectInto ieee clamp (shiftToGrid ⟨2 ^ 43, 2 ^ 43, 2 ^ 43⟩)
      (shiftToWorld ⟨2 ^ 43, 2 ^ 43, 2 ^ 43⟩) ⟨10, 10, 10⟩ 1 ⟨real (2 ^ 44), real (2 ^ 44), real (2 ^ 44)⟩ (real 0)) =
      ⟨real 10, real 10, real 10⟩ := by
  obtain ⟨m, em, hm⟩ := inset_near (r := 1) (d := 0) (by norm_num) (by norm_num) le_rfl (by norm_num)
  obtain ⟨k, ek, hk, lk⟩ := limit_near (r := 1) (s := 10) (by norm_num) (by norm_num) le_rfl (by norm_num)
    (by norm_num) hm
  have hg : sub ieee (real (2 ^ 44)) (real (2 ^ 43)) = real (2 ^ 43) := by
    have h := Ieee.round_exact (F := Ieee.binary64) (n := 1) (e := 43) (by decide) (by decide)
      (lt_of_lt_of_le (b := (2 : ℝ) ^ (44 : ℤ)) (by norm_num) (Ieee.two_mono (by decide)))
    rw [sub_real, show (2 ^ 44 - 2 ^ 43 : ℝ) = ((1 : ℕ) : ℝ) * 2 ^ (43 : ℤ) by norm_num]
    refine (congrArg some h).trans ?_
    norm_num [real]
  obtain ⟨m1, m2⟩ := abs_le.mp hm
  obtain ⟨k1, k2⟩ := abs_le.mp hk
  have hw : add ieee (real k) (real (2 ^ 43)) = real (2 ^ 43 + 10) := by
    have h := Ieee.round_near (F := Ieee.binary64) (x := k + 2 ^ 43) (n := 2 ^ 52 + 5120) (e := -9) (k := 43)
      (by norm_num at m1 m2 k1 k2 ⊢; linarith) (by norm_num at m1 m2 k1 k2 ⊢; linarith) (by decide) (by decide)
      (by rw [abs_lt]; norm_num at m1 m2 k1 k2 ⊢; constructor <;> linarith)
      (lt_of_lt_of_le (b := (2 : ℝ) ^ (44 : ℤ)) (by norm_num) (Ieee.two_mono (by decide)))
    rw [add_real]
    refine (congrArg some h).trans ?_
    norm_num [real]
  have hb : sub ieee (real (2 ^ 43 + 10)) (real (2 ^ 43)) = real 10 := by
    have h := Ieee.round_exact (F := Ieee.binary64) (n := 10) (e := 0) (by decide) (by decide)
      (lt_of_lt_of_le (b := (2 : ℝ) ^ (44 : ℤ)) (by norm_num) (Ieee.two_mono (by decide)))
    rw [sub_real, show (2 ^ 43 + 10 - 2 ^ 43 : ℝ) = ((10 : ℕ) : ℝ) * 2 ^ (0 : ℤ) by norm_num]
    refine (congrArg some h).trans ?_
    norm_num [real]
  have hclamp : clamp (real (2 ^ 43)) (real m) (real k) = real k := by
    unfold real
    rw [hc _ _ _ (EReal.coe_le_coe_iff.mpr lk), min_eq_right, max_eq_right]
    · exact EReal.coe_le_coe_iff.mpr lk
    · exact EReal.coe_le_coe_iff.mpr (by norm_num at m1 m2 k1 k2 ⊢; linarith)
  have hne : fne (real k) (real (2 ^ 43)) = true := by
    unfold fne real
    simp only [ne_eq, decide_eq_true_eq, EReal.coe_eq_coe_iff]
    intro e
    norm_num at e m1 m2 k1 k2
    linarith
  unfold projectInto shiftToGrid shiftToWorld
  simp only [hg, em, ek, hclamp, hne, Bool.or_self, if_true, hw, hb]

/-! ### The hypotheses are satisfiable -/

/-- `std::min(max, std::max(min, value))` meets the contract of `ClampValue`. -/
theorem exClamp_ok : ClampOk fun v lo hi =>
    let u := if lt lo v then v else lo
    if lt u hi then u else hi := by
  intro v lo hi h
  unfold lt
  simp only [decide_eq_true_eq]
  by_cases h1 : lo < v
  · by_cases h2 : v < hi
    · rw [if_pos h1]
      simp [h2, min_eq_left h2.le, max_eq_right h1.le]
    · rw [if_pos h1]
      simp [h2, min_eq_right (not_lt.mp h2), max_eq_right h]
  · rw [if_neg h1]
    have h1' := not_lt.mp h1
    rw [max_eq_left ((min_le_left v hi).trans h1')]
    by_cases h2 : lo < hi
    · simp [h2]
    · simp [h2, le_antisymm h (not_lt.mp h2)]

/-- Four by three by two cells of size `1/4` at the origin `(1, -2, 5)`; a far location, distance `1/8`. -/
example : ∃ q : V3 ℝ, shiftToGrid ⟨1, -2, 5⟩ (projectInto ieee (fun v lo hi =>
      let u := if lt lo v then v else lo
      if lt u hi then u else hi) (shiftToGrid ⟨1, -2, 5⟩) (shiftToWorld ⟨1, -2, 5⟩) ⟨1, 3 / 4, 1 / 2⟩ (1 / 4)
      ⟨real 100, real (-7), real 5⟩ (real (1 / 8))) = ⟨real q.x, real q.y, real q.z⟩ ∧
    ∀ f ∈ faces ⟨1, 3 / 4, 1 / 2⟩ q, 1 / 8 < f :=
  C107_translated exClamp_ok (by norm_num) (by norm_num) (by norm_num) (by norm_num) (by norm_num)
    (by norm_num [abs_of_pos, abs_of_neg]) ⟨100, -7, 5⟩

/-- The location `(1/8, 1/2, 1/4)` of a volume of `1 x 3/4 x 1/2`. -/
example : ∃ f ∈ faces ⟨1, 3 / 4, 1 / 2⟩ ⟨1 / 8, 1 / 2, 1 / 4⟩,
    (∀ f' ∈ faces ⟨1, 3 / 4, 1 / 2⟩ ⟨1 / 8, 1 / 2, 1 / 4⟩, f ≤ f') ∧
    distanceToBoundary ieee id ⟨1, 3 / 4, 1 / 2⟩ ⟨real (1 / 8), real (1 / 2), real (1 / 4)⟩ =
      (some (ieee.r64 (f : EReal)), true) := by
  have e : ∀ n : ℕ, n ≤ 8 → ieee.r64 ((n / 8 : ℝ) : EReal) = ((n / 8 : ℝ) : EReal) := by
    intro n hn
    have h := Ieee.round_exact (F := Ieee.binary64) (n := n) (e := -3) (lt_of_le_of_lt hn (by decide)) (by decide)
      (lt_of_lt_of_le (b := (2 : ℝ) ^ (1 : ℤ)) (by
        have : (n : ℝ) ≤ 8 := by exact_mod_cast hn
        norm_num
        linarith) (Ieee.two_mono (by decide)))
    rw [show (n / 8 : ℝ) = n * 2 ^ (-3 : ℤ) by norm_num; ring]
    exact h
  have e1 := e 1 (by norm_num)
  have e2 := e 4 (by norm_num)
  have e3 := e 2 (by norm_num)
  norm_num at e1 e2 e3
  refine C108_inside ieee rfl ?_ ?_ ?_ ?_
  · norm_num; exact e1
  · norm_num; exact e2
  · norm_num; exact e3
  · simp only [faces, List.mem_cons, List.not_mem_nil, or_false, forall_eq_or_imp, forall_eq]
    norm_num

/-- Outside the unit volume, at `(2, 1/2, 1/2)`: the reported value is that of an axis on which the location is between
the faces, so it is positive. -/
example : (distanceToBoundary ieee id ⟨1, 1, 1⟩ ⟨real 2, real (1 / 2), real (1 / 2)⟩).1 = real (1 / 2) := by
  have e : ∀ n : ℕ, n ≤ 16 → ieee.r64 ((n / 8 : ℝ) : EReal) = ((n / 8 : ℝ) : EReal) := by
    intro n hn
    have h := Ieee.round_exact (F := Ieee.binary64) (n := n) (e := -3) (lt_of_le_of_lt hn (by decide)) (by decide)
      (lt_of_lt_of_le (b := (2 : ℝ) ^ (2 : ℤ)) (by
        have : (n : ℝ) ≤ 16 := by exact_mod_cast hn
        norm_num
        linarith) (Ieee.two_mono (by decide)))
    rw [show (n / 8 : ℝ) = n * 2 ^ (-3 : ℤ) by norm_num; ring]
    exact h
  have e1 := e 8 (by norm_num)
  have e2 := e 16 (by norm_num)
  have e3 := e 4 (by norm_num)
  have e3' : ieee.r64 ((1 / 2 : ℝ) : EReal) = ((1 / 2 : ℝ) : EReal) := by
    rw [show (1 / 2 : ℝ) = (4 : ℕ) / 8 by norm_num]
    exact e3
  norm_num at e1 e2 e3
  have e4 : ieee.r64 ((-1 : ℝ) : EReal) = ((-1 : ℝ) : EReal) := by
    rw [EReal.coe_neg, ieee.odd64]
    exact congrArg _ (by exact_mod_cast e1)
  obtain ⟨w, hw, h, hmin⟩ := C108_value ieee (toGrid := id) (size := ⟨1, 1, 1⟩) (q := ⟨2, 1 / 2, 1 / 2⟩)
    (p := ⟨real 2, real (1 / 2), real (1 / 2)⟩) rfl (by exact_mod_cast e2) (by norm_num; exact e3) (by norm_num; exact e3)
  have hy := hmin (1 / 2) (by norm_num [displacements])
  rw [h]
  simp only [displacements, List.mem_cons, List.not_mem_nil, or_false] at hw
  rw [show min (2 : ℝ) (1 - 2) = -1 by norm_num, show min (1 / 2 : ℝ) (1 - 1 / 2) = 1 / 2 by norm_num, or_self] at hw
  rcases hw with rfl | rfl
  · exfalso
    rw [e4, e3'] at hy
    have h1 : ((1 : ℝ) : EReal) ≤ max ((-1 : ℝ) : EReal) (-((-1 : ℝ) : EReal)) := by
      rw [← EReal.coe_neg]
      exact le_max_of_le_right (EReal.coe_le_coe_iff.mpr (by norm_num))
    have h2 : max ((1 / 2 : ℝ) : EReal) (-((1 / 2 : ℝ) : EReal)) ≤ ((1 / 2 : ℝ) : EReal) := by
      rw [← EReal.coe_neg]
      exact max_le le_rfl (EReal.coe_le_coe_iff.mpr (by norm_num))
    exact absurd (EReal.coe_le_coe_iff.mp (h1.trans (hy.trans h2))) (by norm_num)
  · rw [e3']
    rfl

/-- A location with a coordinate that is not a number is not reported to be inside. -/
example : (distanceToBoundary ieee id ⟨1, 1, 1⟩ ⟨none, real 1, real 1⟩).2 = false := by
  have one : ieee.r64 ((1 : ℝ) : EReal) = ((1 : ℝ) : EReal) := ieee.one64
  have d1 : IsDouble ieee (real 1) := by
    intro x hx
    cases hx
    exact one
  rw [← Bool.not_eq_true]
  intro h
  obtain ⟨q, hq, -⟩ := (C108_flag (size := ⟨1, 1, 1⟩) (toGrid := id) (p := ⟨none, real 1, real 1⟩) one one one (fun x hx => by cases hx) d1 d1).mp h
  have := congrArg V3.x hq
  cases this

end FSdf

end Verif
