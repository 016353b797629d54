import Verif.ConvexFloat
import Verif.Props.ConvexSegments
import Verif.Props.BoundaryFloat

/-!
# Properties of local extrema and convex segmentation in floating point (C109)
-/

namespace Verif

open Spec DField SdfGen

namespace FSdf

open Fl

/-! ## Gradients -/

theorem gridGrad_length (R : Rounding) (s : FSdf) {i : Idx} (hi : InBounds s.grid.dims i) :
    ∃ gx gy gz, s.gridGrad R i true = [gx, gy, gz] := by
  unfold gridGrad
  simp only [inB_iff_spec.mpr hi, if_true]
  split
  · exact ⟨_, _, _, rfl⟩
  · exact ⟨_, _, _, rfl⟩

/-- Every cell of the grid has a gradient of three components, whatever the stored values. -/
theorem hasGradients (R : Rounding) (rot : V3 FVal → V3 FVal) (s : FSdf) :
    HasGradients (s.gradField R rot) s.grid.dims := by
  intro i hi
  obtain ⟨gx, gy, gz, h⟩ := gridGrad_length R s hi
  show (s.gradient R rot i true).length = 3
  unfold gradient
  rw [h]
  rfl

/-! ## Signs -/

/-- Not a number, or at least 0. -/
def NN (v : FVal) : Prop := ∀ x, v = some x → 0 ≤ x

/-- Not a number, or at most 0. -/
def NP (v : FVal) : Prop := ∀ x, v = some x → x ≤ 0

theorem r64_zero (R : Rounding) : R.r64 0 = 0 := by
  have h := R.odd64 0
  rw [neg_zero] at h
  induction hx : R.r64 0 with
  | bot => rw [hx] at h; simp at h
  | top => rw [hx] at h; simp at h
  | coe x =>
    rw [hx] at h
    have : x = -x := by exact_mod_cast h
    have : x = 0 := by linarith
    rw [this]; rfl

theorem r64_nonneg (R : Rounding) {x : EReal} (h : 0 ≤ x) : 0 ≤ R.r64 x := by
  have := R.mono64 h
  rwa [r64_zero] at this

theorem r64_nonpos (R : Rounding) {x : EReal} (h : x ≤ 0) : R.r64 x ≤ 0 := by
  have := R.mono64 h
  rwa [r64_zero] at this

theorem sub_NN (R : Rounding) {a b : EReal} (h : a ≤ b) : NN (sub R (some b) (some a)) := by
  intro x hx
  unfold sub neg add at hx
  simp only [Option.map_some] at hx
  split_ifs at hx with hc
  cases hx
  refine r64_nonneg R ?_
  rw [← sub_eq_add_neg]
  induction a <;> induction b <;> simp_all
  rw [← EReal.coe_sub]
  exact_mod_cast sub_nonneg.mpr h

theorem sub_swap (R : Rounding) (a b : FVal) : sub R a b = neg (sub R b a) := by
  rcases a with _ | a <;> rcases b with _ | b <;> try rfl
  unfold sub neg add
  simp only [Option.map_some]
  induction a <;> induction b <;> simp [bot64, R.top64]
  rename_i x y
  rw [← R.odd64]
  congr 1
  rw [← EReal.coe_neg, ← EReal.coe_add, ← EReal.coe_neg, ← EReal.coe_add, ← EReal.coe_neg]
  congr 1
  ring

theorem neg_NN {v : FVal} (h : NN v) : NP (neg v) := by
  rcases v with _ | x
  · intro y hy; cases hy
  · intro y hy
    cases hy
    have := h x rfl
    rw [← neg_zero, EReal.neg_le_neg_iff]; exact this

theorem sub_NP (R : Rounding) {a b : EReal} (h : b ≤ a) : NP (sub R (some b) (some a)) := by
  rw [sub_swap]; exact neg_NN (sub_NN R h)

theorem mul_NN (R : Rounding) {a b : FVal} (ha : NN a) (hb : NN b) : NN (mul R a b) := by
  rcases a with _ | a <;> rcases b with _ | b <;> try (intro x hx; cases hx)
  intro x hx
  unfold mul at hx
  simp only at hx
  split_ifs at hx
  cases hx
  exact r64_nonneg R (mul_nonneg (ha a rfl) (hb b rfl))

theorem mul_NP (R : Rounding) {a b : FVal} (ha : NP a) (hb : NN b) : NP (mul R a b) := by
  rcases a with _ | a <;> rcases b with _ | b <;> try (intro x hx; cases hx)
  intro x hx
  unfold mul at hx
  simp only at hx
  split_ifs at hx
  cases hx
  refine r64_nonpos R ?_
  have h1 : 0 ≤ (-a) * b := mul_nonneg (by rw [← neg_zero, EReal.neg_le_neg_iff]; exact ha a rfl) (hb b rfl)
  rw [EReal.neg_mul] at h1
  rw [← neg_zero, ← EReal.neg_le_neg_iff]
  simpa using h1

theorem neg_one_eq (R : Rounding) (v : FVal) (x : EReal) (h : mul R v (real (-1)) = some x) :
    ∃ y, v = some y ∧ x = R.r64 (-y) := by
  rcases v with _ | y
  · cases h
  refine ⟨y, rfl, ?_⟩
  unfold mul real at h
  simp only at h
  split_ifs at h
  cases h
  congr 1
  rw [EReal.coe_neg, EReal.coe_one, mul_neg, mul_one]

theorem negate_NN (R : Rounding) {v : FVal} (h : NP v) : NN (mul R v (real (-1))) := by
  intro x hx
  obtain ⟨y, rfl, rfl⟩ := neg_one_eq R v x hx
  refine r64_nonneg R ?_
  rw [← neg_zero, EReal.neg_le_neg_iff]; exact h y rfl

theorem negate_NP (R : Rounding) {v : FVal} (h : NN v) : NP (mul R v (real (-1))) := by
  intro x hx
  obtain ⟨y, rfl, rfl⟩ := neg_one_eq R v x hx
  refine r64_nonpos R ?_
  rw [← neg_zero, EReal.neg_le_neg_iff]; exact h y rfl

theorem stepRes_nonneg (R : Rounding) (s : FSdf) (hr : 0 < s.res) : NN (s.stepRes R) := by
  refine mul_NN R ?_ ?_
  · intro x hx; cases hx; exact_mod_cast hr.le
  · intro x hx; cases hx
    exact r64_nonneg R (by exact_mod_cast (by norm_num : (0 : ℝ) ≤ 49 / 800))

/-! ## Steps at the faces -/

theorem inv_NN (R : Rounding) {r : ℝ} (hr : 0 < r) : NN (div R (real 1) (real r)) := by
  rw [div_real R 1 hr.ne']
  intro x hx
  cases hx
  exact r64_nonneg R (by exact_mod_cast (by positivity : (0 : ℝ) ≤ 1 / r))

theorem edge_zero (R : Rounding) (s : FSdf) (hi lo : Idx) : s.edge R 0 hi lo = real 0 := by
  have h : mul R (real ((0 : Int) : ℝ)) (real s.res) = real 0 := by
    rw [mul_real]
    simp [r64_zero, real]
  unfold edge
  simp only [h]
  simp [lt, real]

theorem edge_one (R : Rounding) (s : FSdf) (hres : GoodRes R s.res) (hi lo : Idx) :
    s.edge R 1 hi lo = mul R (sub R (s.grid.get hi) (s.grid.get lo)) (div R (real 1) (real s.res)) := by
  have h : mul R (real ((1 : Int) : ℝ)) (real s.res) = real s.res := by
    rw [mul_real]
    push_cast
    rw [one_mul, hres.2]; rfl
  unfold edge
  simp only [h]
  have : lt (real 0) (real s.res) = true := by
    simp only [lt, real]
    exact decide_eq_true (by exact_mod_cast hres.1)
  rw [this]; rfl

/-- From the value of a cell on a face to that of its inward neighbour the magnitude does not shrink. -/
def Grows (v w : FVal) : Prop := ∃ a b : EReal, v = some a ∧ w = some b ∧ (0 ≤ a → a ≤ b) ∧ (a < 0 → b ≤ a)

/-- The gradient component of an axis with `n` cells does not point out of the grid. -/
def AxisOk (n : Nat) (c : Int) (g : FVal) (ng : Bool) : Prop :=
  (n = 1 → g = real 0) ∧ (1 < n → c = 0 → if ng then NP g else NN g) ∧
    (1 < n → c + 1 = n → if ng then NN g else NP g)

theorem edge_axis (R : Rounding) (s : FSdf) (hres : GoodRes R s.res) {n : Nat} {c : Int} (h0 : 0 ≤ c) (h1 : c < n)
    (p : Int → Idx) (hlow : 1 < n → c = 0 → Grows (s.grid.get (p c)) (s.grid.get (p 1)))
    (hhigh : 1 < n → c + 1 = n → Grows (s.grid.get (p c)) (s.grid.get (p (c - 1)))) :
    AxisOk n c (s.edge R (min ((n : Int) - 1) (c + 1) - max 0 (c - 1)) (p (min ((n : Int) - 1) (c + 1)))
      (p (max 0 (c - 1)))) (lt (s.grid.get (p c)) (real 0)) := by
  have hlt : ∀ a : EReal, lt (some a) (real 0) = true ↔ a < 0 := by
    intro a
    unfold lt real
    exact decide_eq_true_iff
  refine ⟨?_, ?_, ?_⟩
  · rintro rfl
    have hc : c = 0 := by push_cast at h1; omega
    subst hc
    exact edge_zero R s _ _
  · intro hn hc
    obtain ⟨a, b, ea, eb, k1, k2⟩ := hlow hn hc
    subst hc
    have e1 : min ((n : Int) - 1) (0 + 1) = 1 := by omega
    have e2 : max 0 ((0 : Int) - 1) = 0 := by omega
    rw [e1, e2, sub_zero, edge_one R s hres, ea, eb]
    by_cases hneg : a < 0
    · rw [(hlt a).mpr hneg, if_pos rfl]
      exact mul_NP R (sub_NP R (k2 hneg)) (inv_NN R hres.1)
    · rw [if_neg (fun h => hneg ((hlt a).mp h))]
      exact mul_NN R (sub_NN R (k1 (not_lt.mp hneg))) (inv_NN R hres.1)
  · intro hn hc
    obtain ⟨a, b, ea, eb, k1, k2⟩ := hhigh hn hc
    have e1 : min ((n : Int) - 1) (c + 1) = c := by omega
    have e2 : max 0 (c - 1) = c - 1 := by omega
    have e3 : c - (c - 1) = 1 := by ring
    rw [e1, e2, e3, edge_one R s hres, ea, eb]
    by_cases hneg : a < 0
    · rw [(hlt a).mpr hneg, if_pos rfl]
      exact mul_NN R (sub_NN R (k2 hneg)) (inv_NN R hres.1)
    · rw [if_neg (fun h => hneg ((hlt a).mp h))]
      exact mul_NP R (sub_NP R (k1 (not_lt.mp hneg))) (inv_NN R hres.1)

theorem gridGrad_faces (R : Rounding) (s : FSdf) (hres : GoodRes R s.res) {i : Idx} (hi : InBounds s.grid.dims i)
    (hface : ∀ j, Inward s.grid.dims i j → Grows (s.grid.get i) (s.grid.get j)) :
    ∃ gx gy gz, s.gridGrad R i true = [gx, gy, gz] ∧
      AxisOk s.grid.dims.nx i.x gx (lt (s.grid.get i) (real 0)) ∧
      AxisOk s.grid.dims.ny i.y gy (lt (s.grid.get i) (real 0)) ∧
      AxisOk s.grid.dims.nz i.z gz (lt (s.grid.get i) (real 0)) := by
  have hb := inB_iff_spec.mpr hi
  have hi' := hi
  unfold InBounds at hi'
  unfold gridGrad
  simp only [hb, if_true]
  split
  · rename_i hc
    refine ⟨_, _, _, rfl, ?_, ?_, ?_⟩ <;>
    · refine ⟨?_, ?_, ?_⟩ <;> intros <;> omega
  · refine ⟨_, _, _, rfl, ?_, ?_, ?_⟩
    · refine edge_axis R s hres hi'.1.1 hi'.1.2 (fun c => ⟨c, i.y, i.z⟩) ?_ ?_
      · intro hn hc; exact hface _ (.inl ⟨hn, hc, rfl⟩)
      · intro hn hc; exact hface _ (.inr (.inl ⟨hn, hc, rfl⟩))
    · refine edge_axis R s hres hi'.2.1.1 hi'.2.1.2 (fun c => ⟨i.x, c, i.z⟩) ?_ ?_
      · intro hn hc; exact hface _ (.inr (.inr (.inl ⟨hn, hc, rfl⟩)))
      · intro hn hc; exact hface _ (.inr (.inr (.inr (.inl ⟨hn, hc, rfl⟩))))
    · refine edge_axis R s hres hi'.2.2.1 hi'.2.2.2 (fun c => ⟨i.x, i.y, c⟩) ?_ ?_
      · intro hn hc; exact hface _ (.inr (.inr (.inr (.inr (.inl ⟨hn, hc, rfl⟩)))))
      · intro hn hc; exact hface _ (.inr (.inr (.inr (.inr (.inr ⟨hn, hc, rfl⟩)))))

theorem isDouble_r64 (R : Rounding) (x : EReal) : IsDouble R (some (R.r64 x)) := by
  intro y hy; cases hy; exact R.idem64 x

theorem isDouble_mul (R : Rounding) (a b : FVal) : IsDouble R (mul R a b) := by
  rcases a with _ | a <;> rcases b with _ | b <;> try (intro x hx; cases hx)
  unfold mul
  simp only
  split
  · intro x hx; cases hx
  · exact isDouble_r64 R _

theorem isDouble_edge (R : Rounding) (s : FSdf) (n : Int) (hi lo : Idx) : IsDouble R (s.edge R n hi lo) := by
  unfold edge
  dsimp only
  split
  · exact isDouble_mul R _ _
  · intro x hx
    cases hx
    exact r64_zero R

/-- The components of a gradient are doubles. -/
theorem gridGrad_double (R : Rounding) (s : FSdf) (i : Idx) (e : Bool) : ∀ g ∈ s.gridGrad R i e, IsDouble R g := by
  intro g hg
  unfold gridGrad at hg
  dsimp only at hg
  split at hg
  · split at hg
    · simp only [List.mem_cons, List.not_mem_nil, or_false] at hg
      rcases hg with rfl | rfl | rfl <;> exact isDouble_mul R _ _
    · split at hg
      · simp only [List.mem_cons, List.not_mem_nil, or_false] at hg
        rcases hg with rfl | rfl | rfl <;> exact isDouble_edge R s _ _ _
      · simp at hg
  · simp at hg

/-- The rotation of a grid that is not rotated: every component of a vector of doubles keeps its value or becomes
NaN (as it does, in the quaternion product, when another component is infinite or NaN). -/
def Unturned (R : Rounding) (rot : V3 FVal → V3 FVal) : Prop :=
  ∀ v : V3 FVal, IsDouble R v.x → IsDouble R v.y → IsDouble R v.z →
    ((rot v).x = none ∨ (rot v).x = v.x) ∧ ((rot v).y = none ∨ (rot v).y = v.y) ∧ ((rot v).z = none ∨ (rot v).z = v.z)

/-- One axis of a step stays in the grid. -/
theorem axis_stays (R : Rounding) (rot : V3 FVal → V3 FVal) (s : FSdf) (hr : 0 < s.res) {n : Nat} {c : Int}
    (h0 : 0 ≤ c) (h1 : c < n) {ng : Bool} {g r : FVal} (hg : AxisOk n c g ng) (hrot : r = none ∨ r = g) :
    0 ≤ c + (if ng then unitStep (s.gradField R rot) ((s.gradField R rot).negate r)
        else unitStep (s.gradField R rot) r) ∧
      c + (if ng then unitStep (s.gradField R rot) ((s.gradField R rot).negate r)
        else unitStep (s.gradField R rot) r) < n := by
  have hstep := stepRes_nonneg R s hr
  have hup : ∀ v, NP v → (s.gradField R rot).up v = false := by
    intro v hv
    show lt (s.stepRes R) v = false
    rcases v with _ | v
    · cases s.stepRes R <;> rfl
    · cases hst : s.stepRes R with
      | none => rfl
      | some t =>
        exact decide_eq_false (not_lt.mpr ((hv v rfl).trans (hstep t hst)))
  have hdown : ∀ v, NN v → (s.gradField R rot).down v = false := by
    intro v hv
    show lt v (neg (s.stepRes R)) = false
    rcases v with _ | v
    · rfl
    · cases hst : s.stepRes R with
      | none => rfl
      | some t =>
        refine decide_eq_false (not_lt.mpr (le_trans ?_ (hv v rfl)))
        rw [← neg_zero, EReal.neg_le_neg_iff]; exact hstep t hst
  set u : FVal := if ng then (s.gradField R rot).negate r else r with hu
  have hval : (if ng then unitStep (s.gradField R rot) ((s.gradField R rot).negate r)
      else unitStep (s.gradField R rot) r) = unitStep (s.gradField R rot) u := by
    rw [hu]; split <;> rfl
  rw [hval]
  have hneg : ∀ v, (s.gradField R rot).negate v = mul R v (real (-1)) := fun _ => rfl
  have hnone : mul R none (real (-1)) = none := rfl
  obtain ⟨g1, g2, g3⟩ := hg
  have hz : n = 1 → NN u ∧ NP u := by
    intro hn
    have hg0 := g1 hn
    have hr0 : NN r ∧ NP r := by
      rcases hrot with rfl | rfl
      · exact ⟨fun x hx => (by cases hx), fun x hx => (by cases hx)⟩
      · rw [hg0]; exact ⟨fun x hx => (by cases hx; exact le_rfl), fun x hx => (by cases hx; exact le_rfl)⟩
    rw [hu]
    split
    · rw [hneg]; exact ⟨negate_NN R hr0.2, negate_NP R hr0.1⟩
    · exact hr0
  have hlo : 1 < n → c = 0 → NN u := by
    intro hn hc
    have := g2 hn hc
    rw [hu]
    cases ng with
    | true =>
      simp only [if_true] at this ⊢
      rw [hneg]
      rcases hrot with rfl | rfl
      · intro x hx; cases hx
      · exact negate_NN R this
    | false =>
      simp only [Bool.false_eq_true, if_false] at this ⊢
      rcases hrot with rfl | rfl
      · intro x hx; cases hx
      · exact this
  have hhi : 1 < n → c + 1 = n → NP u := by
    intro hn hc
    have := g3 hn hc
    rw [hu]
    cases ng with
    | true =>
      simp only [if_true] at this ⊢
      rw [hneg]
      rcases hrot with rfl | rfl
      · intro x hx; cases hx
      · exact negate_NP R this
    | false =>
      simp only [Bool.false_eq_true, if_false] at this ⊢
      rcases hrot with rfl | rfl
      · intro x hx; cases hx
      · exact this
  have hN : 0 < n := by omega
  unfold unitStep
  by_cases hn : n = 1
  · rw [hup u (hz hn).2, hdown u (hz hn).1]
    simp only [Bool.false_eq_true, if_false]
    omega
  · have hn1 : 1 < n := by omega
    constructor
    · by_cases hc : c = 0
      · rw [hdown u (hlo hn1 hc)]
        simp only [Bool.false_eq_true, if_false]
        split <;> omega
      · split
        · omega
        · split <;> omega
    · by_cases hc : c + 1 = n
      · rw [hup u (hhi hn1 hc)]
        simp only [Bool.false_eq_true, if_false]
        split <;> omega
      · split
        · omega
        · split <;> omega

/-- If the magnitudes do not shrink from the faces inwards, no step leaves the grid. -/
theorem target_stays (R : Rounding) {rot : V3 FVal → V3 FVal} (hrot : Unturned R rot) (s : FSdf)
    (hres : GoodRes R s.res)
    (hface : ∀ i j, InBounds s.grid.dims i → Inward s.grid.dims i j → Grows (s.grid.get i) (s.grid.get j))
    {i k : Idx} (hi : InBounds s.grid.dims i) (ht : Target (s.gradField R rot) i k) : InBounds s.grid.dims k := by
  obtain ⟨gx, gy, gz, hg, hk⟩ := ht
  obtain ⟨ax, ay, az, ha, h1, h2, h3⟩ := gridGrad_faces R s hres hi (fun j hj => hface i j hi hj)
  have hdbl := gridGrad_double R s i true
  rw [ha] at hdbl
  obtain ⟨r1, r2, r3⟩ := hrot ⟨ax, ay, az⟩ (hdbl ax (by simp)) (hdbl ay (by simp)) (hdbl az (by simp))
  have hg' : s.gradient R rot i true = [gx, gy, gz] := hg
  unfold gradient at hg'
  rw [ha] at hg'
  simp only [List.cons.injEq, and_true] at hg'
  obtain ⟨e1, e2, e3⟩ := hg'
  rw [e1] at r1
  rw [e2] at r2
  rw [e3] at r3
  have hi' := hi
  unfold InBounds at hi' ⊢
  subst hk
  exact ⟨axis_stays R rot s hres.1 hi'.1.1 hi'.1.2 h1 r1, axis_stays R rot s hres.1 hi'.2.1.1 hi'.2.1.2 h2 r2,
    axis_stays R rot s hres.1 hi'.2.2.1 hi'.2.2.2 h3 r3⟩

/-! ## Positions of extrema -/

/-- The norm of a vector of doubles: unchanged by reversing the vector, and accurate to 2^-48 if every component is 0
or of a magnitude between 2^-200 and 2^200. -/
structure NormOk (norm : V3 FVal → FVal) : Prop where
  even : ∀ v : V3 FVal, norm ⟨neg v.x, neg v.y, neg v.z⟩ = norm v
  near : ∀ v : V3 ℝ, (∀ c ∈ [v.x, v.y, v.z], c = 0 ∨ 1 / 2 ^ 200 ≤ |c| ∧ |c| ≤ 2 ^ 200) →
    ∃ n : ℝ, norm ⟨real v.x, real v.y, real v.z⟩ = real n ∧
      |n - Real.sqrt (v.x ^ 2 + v.y ^ 2 + v.z ^ 2)| ≤ Real.sqrt (v.x ^ 2 + v.y ^ 2 + v.z ^ 2) / 2 ^ 48

theorem small_index {d : Dims} (hd : SmallGrid d) {i : Idx} (hi : InBounds d i) :
    (0 ≤ i.x ∧ i.x < (2 ^ 16 : ℕ)) ∧ (0 ≤ i.y ∧ i.y < (2 ^ 16 : ℕ)) ∧ 0 ≤ i.z ∧ i.z < (2 ^ 16 : ℕ) := by
  unfold SmallGrid at hd
  unfold InBounds at hi
  have h : ∀ n : ℕ, n * n < 2 ^ 31 → n ≤ 2 ^ 16 := by
    intro n hn
    by_contra hc
    have : 2 ^ 16 * 2 ^ 16 ≤ n * n := Nat.mul_le_mul (by omega) (by omega)
    omega
  have hx := h d.nx (by omega)
  have hy := h d.ny (by omega)
  have hz := h d.nz (by omega)
  refine ⟨⟨hi.1.1, ?_⟩, ⟨hi.2.1.1, ?_⟩, hi.2.2.1, ?_⟩ <;> omega

/-- The stored coordinate of the centre of a cell. -/
theorem center_axis {res : ℝ} (hlo : 1 / 2 ^ 100 ≤ res) (hhi : res ≤ 2 ^ 100) {k : Int}
    (hk : 0 ≤ k ∧ k < (2 ^ 16 : ℕ)) :
    Ap (1 / 2 ^ 36) (mul ieee (real res) (real ((k : ℝ) + 1 / 2))) (((k : ℝ) + 1 / 2) * res) res (2 ^ 16 : ℕ) 1 := by
  have hr : Rng res (-100) 100 := ⟨by rw [show (-100 : ℤ) = -((100 : ℕ) : ℤ) by norm_num, zpow_neg_nat]; exact hlo,
    by rw [show (100 : ℤ) = ((100 : ℕ) : ℤ) by norm_num, zpow_natCast]; exact hhi⟩
  exact center_ap (N := 2 ^ 16) ⟨by norm_num, by norm_num⟩ hr (by norm_num) (by norm_num) hk

/-- The stored difference of the centres of two cells along an axis. -/
theorem diff_axis {res : ℝ} (hlo : 1 / 2 ^ 100 ≤ res) (hhi : res ≤ 2 ^ 100) {k l : Int}
    (hk : 0 ≤ k ∧ k < (2 ^ 16 : ℕ)) (hl : 0 ≤ l ∧ l < (2 ^ 16 : ℕ)) :
    ∃ y : ℝ, sub ieee (mul ieee (real res) (real ((k : ℝ) + 1 / 2))) (mul ieee (real res) (real ((l : ℝ) + 1 / 2)))
      = real y ∧ |y - ((k : ℝ) - l) * res| ≤ 3 / 2 ^ 36 * res ∧
      (y = 0 ∨ 1 / 2 ^ 200 ≤ |y| ∧ |y| ≤ 2 ^ 200) := by
  have hr : Rng res (-100) 100 := ⟨by rw [show (-100 : ℤ) = -((100 : ℕ) : ℤ) by norm_num, zpow_neg_nat]; exact hlo,
    by rw [show (100 : ℤ) = ((100 : ℕ) : ℤ) by norm_num, zpow_natCast]; exact hhi⟩
  have r0 := hr.pos
  have hε : Unit' (1 / 2 ^ 36) := ⟨by norm_num, by norm_num⟩
  have ak := center_axis hlo hhi hk
  have al := center_axis hlo hhi hl
  by_cases hkl : k = l
  · subst hkl
    obtain ⟨-, y, ey, -⟩ := ak
    refine ⟨0, ?_, by simp; positivity, .inl rfl⟩
    rw [ey, sub_real, sub_self]
    exact congrArg some (by rw [EReal.coe_zero, r64_zero])
  · obtain ⟨-, p, ep, hp⟩ := ak
    obtain ⟨-, q, eq, hq⟩ := al
    have hkl' : (1 : ℝ) ≤ |(k : ℝ) - l| := by
      have : 1 ≤ |k - l| := Int.one_le_abs (sub_ne_zero.mpr hkl)
      exact_mod_cast this
    have hkl2 : |(k : ℝ) - l| ≤ 2 ^ 16 := by
      have a1 : (0 : ℝ) ≤ k := by exact_mod_cast hk.1
      have a2 : (k : ℝ) < 2 ^ 16 := by exact_mod_cast hk.2
      have b1 : (0 : ℝ) ≤ l := by exact_mod_cast hl.1
      have b2 : (l : ℝ) < 2 ^ 16 := by exact_mod_cast hl.2
      rw [abs_le]
      constructor <;> linarith
    set c : ℝ := (k : ℝ) - l with hc
    have hd : |p - q - c * res| ≤ 2 / 2 ^ 36 * res := by
      have e : p - q - c * res = (p - ((k : ℝ) + 1 / 2) * res) - (q - ((l : ℝ) + 1 / 2) * res) := by rw [hc]; ring
      rw [e]
      refine (abs_sub _ _).trans ?_
      linarith
    have hcr : |c * res| ≤ 2 ^ 16 * res := by
      rw [abs_mul, abs_of_pos r0]; gcongr
    have hcr1 : res ≤ |c * res| := by
      rw [abs_mul, abs_of_pos r0]; nlinarith
    have hpq : |p - q| ≤ (2 ^ 16 + 1) * res := by
      have e : p - q = (p - q - c * res) + c * res := by ring
      rw [e]
      refine (abs_add_le _ _).trans ?_
      nlinarith
    obtain ⟨w, h1, h2⟩ := Ieee.r64_real (z := p - q) (big_le hhi (hpq.trans (by gcongr; norm_num)))
    have htiny := tiny_le hlo
    have hw : |w - c * res| ≤ 3 / 2 ^ 36 * res := by
      have e : w - c * res = (w - (p - q)) + (p - q - c * res) := by ring
      rw [e]
      refine (abs_add_le _ _).trans ?_
      generalize (2 : ℝ) ^ (-1074 : ℤ) = t at *
      norm_num at *
      linarith
    refine ⟨w, by rw [ep, eq, sub_real, h1]; rfl, hw, .inr ?_⟩
    have hw1 : |c * res| - |w - c * res| ≤ |w| := by
      have := abs_sub_abs_le_abs_sub (c * res) (c * res - w)
      rw [abs_sub_comm w]
      simpa using this
    have hw2 : |w| ≤ |c * res| + |w - c * res| := by
      have e : w = c * res + (w - c * res) := by ring
      conv_lhs => rw [e]
      exact abs_add_le _ _
    constructor
    · have : (1 : ℝ) / 2 ^ 200 ≤ 1 / 2 ^ 100 / 2 := by norm_num
      linarith
    · have : (2 : ℝ) ^ 16 * 2 ^ 100 * 2 ≤ 2 ^ 200 := by norm_num
      linarith

/-- Perturbing a vector changes its length by at most the sum of the changes of its components. -/
theorem sqrt_perturb (a b c x y z : ℝ) :
    |Real.sqrt (x ^ 2 + y ^ 2 + z ^ 2) - Real.sqrt (a ^ 2 + b ^ 2 + c ^ 2)| ≤ |x - a| + |y - b| + |z - c| := by
  have key : ∀ a b c x y z : ℝ, Real.sqrt (x ^ 2 + y ^ 2 + z ^ 2) ≤
      Real.sqrt (a ^ 2 + b ^ 2 + c ^ 2) + (|x - a| + |y - b| + |z - c|) := by
    intro a b c x y z
    set L := Real.sqrt (a ^ 2 + b ^ 2 + c ^ 2) with hL
    have hL0 : 0 ≤ L := Real.sqrt_nonneg _
    have hL2 : L ^ 2 = a ^ 2 + b ^ 2 + c ^ 2 := Real.sq_sqrt (by positivity)
    have ha : |a| ≤ L := abs_le_of_sq_le_sq (by nlinarith [sq_nonneg b, sq_nonneg c]) hL0
    have hb : |b| ≤ L := abs_le_of_sq_le_sq (by nlinarith [sq_nonneg a, sq_nonneg c]) hL0
    have hc : |c| ≤ L := abs_le_of_sq_le_sq (by nlinarith [sq_nonneg b, sq_nonneg a]) hL0
    have step : ∀ a x : ℝ, |a| ≤ L → x ^ 2 ≤ a ^ 2 + 2 * (L * |x - a|) + |x - a| ^ 2 := by
      intro a x ha
      have e : x ^ 2 = a ^ 2 + 2 * (a * (x - a)) + (x - a) ^ 2 := by ring
      have : a * (x - a) ≤ L * |x - a| := by
        refine (le_abs_self _).trans ?_
        rw [abs_mul]; gcongr
      rw [e, sq_abs]; linarith
    refine Real.sqrt_le_iff.mpr ⟨by positivity, ?_⟩
    have h1 := step a x ha
    have h2 := step b y hb
    have h3 := step c z hc
    have p1 := mul_nonneg (abs_nonneg (x - a)) (abs_nonneg (y - b))
    have p2 := mul_nonneg (abs_nonneg (x - a)) (abs_nonneg (z - c))
    have p3 := mul_nonneg (abs_nonneg (y - b)) (abs_nonneg (z - c))
    generalize |x - a| = u at *
    generalize |y - b| = v at *
    generalize |z - c| = w at *
    have e : (L + (u + v + w)) ^ 2 = L ^ 2 + 2 * (L * u) + 2 * (L * v) + 2 * (L * w) + u ^ 2 + v ^ 2 + w ^ 2
      + 2 * (u * v) + 2 * (u * w) + 2 * (v * w) := by ring
    rw [e, hL2]
    linarith
  rw [abs_le]
  constructor
  · have := key x y z a b c
    rw [abs_sub_comm a, abs_sub_comm b, abs_sub_comm c] at this
    linarith
  · have := key a b c x y z
    linarith

/-- The distance between the centres of two cells. -/
noncomputable def cellDist (res : ℝ) (i j : Idx) : ℝ :=
  Real.sqrt (((i.x : ℝ) - j.x) ^ 2 + ((i.y : ℝ) - j.y) ^ 2 + ((i.z : ℝ) - j.z) ^ 2) * res

/-- The computed distance between the centres of two cells. -/
theorem norm_centers {norm : V3 FVal → FVal} (hn : NormOk norm) {d : Dims} (hd : SmallGrid d) {s : FSdf}
    (hlo : 1 / 2 ^ 100 ≤ s.res) (hhi : s.res ≤ 2 ^ 100) {i j : Idx} (hi : InBounds d i) (hj : InBounds d j) :
    ∃ n : ℝ, norm ⟨sub ieee (s.center ieee i).x (s.center ieee j).x, sub ieee (s.center ieee i).y (s.center ieee j).y,
      sub ieee (s.center ieee i).z (s.center ieee j).z⟩ = real n ∧ |n - cellDist s.res i j| ≤ s.res / 2 ^ 30 := by
  obtain ⟨ix, iy, iz⟩ := small_index hd hi
  obtain ⟨jx, jy, jz⟩ := small_index hd hj
  obtain ⟨x, ex, hx, kx⟩ := diff_axis hlo hhi ix jx
  obtain ⟨y, ey, hy, ky⟩ := diff_axis hlo hhi iy jy
  obtain ⟨z, ez, hz, kz⟩ := diff_axis hlo hhi iz jz
  obtain ⟨n, en, hn⟩ := hn.near ⟨x, y, z⟩ (by
    intro c hc
    simp only [List.mem_cons, List.not_mem_nil, or_false] at hc
    rcases hc with rfl | rfl | rfl <;> assumption)
  have r0 : 0 < s.res := lt_of_lt_of_le (by norm_num) hlo
  refine ⟨n, ?_, ?_⟩
  · rw [← en]
    unfold center
    dsimp only
    rw [ex, ey, ez]
  · have hp := sqrt_perturb (((i.x : ℝ) - j.x) * s.res) (((i.y : ℝ) - j.y) * s.res) (((i.z : ℝ) - j.z) * s.res) x y z
    have e : Real.sqrt ((((i.x : ℝ) - j.x) * s.res) ^ 2 + (((i.y : ℝ) - j.y) * s.res) ^ 2 +
        (((i.z : ℝ) - j.z) * s.res) ^ 2) = cellDist s.res i j := by
      unfold cellDist
      have : Real.sqrt (s.res ^ 2) = s.res := Real.sqrt_sq r0.le
      conv_rhs => rw [← this]
      rw [← Real.sqrt_mul (by positivity)]
      congr 1
      ring
    rw [e] at hp
    have hbig : cellDist s.res i j ≤ 2 ^ 17 * s.res := by
      unfold cellDist
      gcongr
      have h1 : ∀ k l : Int, (0 ≤ k ∧ k < (2 ^ 16 : ℕ)) → (0 ≤ l ∧ l < (2 ^ 16 : ℕ)) →
          ((k : ℝ) - l) ^ 2 ≤ (2 ^ 16) ^ 2 := by
        intro k l hk hl
        have a1 : (0 : ℝ) ≤ k := by exact_mod_cast hk.1
        have a2 : (k : ℝ) < 2 ^ 16 := by exact_mod_cast hk.2
        have b1 : (0 : ℝ) ≤ l := by exact_mod_cast hl.1
        have b2 : (l : ℝ) < 2 ^ 16 := by exact_mod_cast hl.2
        exact sq_le_sq' (by linarith) (by linarith)
      refine Real.sqrt_le_iff.mpr ⟨by norm_num, ?_⟩
      have := h1 _ _ ix jx
      have := h1 _ _ iy jy
      have := h1 _ _ iz jz
      norm_num at *
      linarith
    dsimp only at hn
    generalize Real.sqrt (x ^ 2 + y ^ 2 + z ^ 2) = L at *
    generalize cellDist s.res i j = D at *
    have hL : L ≤ D + 9 / 2 ^ 36 * s.res := by
      have := (abs_le.mp hp).2
      linarith
    have hn' := abs_le.mp hn
    have hp' := abs_le.mp hp
    rw [abs_le]
    norm_num at *
    constructor <;> linarith

theorem isInf_real (x : ℝ) : isInf (real x) = false := by
  unfold isInf real
  refine decide_eq_false ?_
  simp

/-- A cell is left out because of its extremum exactly if the path left the grid. -/
theorem far_iff {d : Dims} (hd : SmallGrid d) {s : FSdf} (hlo : 1 / 2 ^ 100 ≤ s.res) (hhi : s.res ≤ 2 ^ 100)
    (norm : V3 FVal → FVal) (thr : FVal) {e : Grid Extremum} {i : Idx}
    (ht : ∀ t, e.get i = .center t → InBounds d t) :
    (s.segData ieee norm thr e).far i = false ↔ ∃ t, e.get i = .center t := by
  unfold segData
  dsimp only
  cases he : e.get i with
  | unset => simp [extremumPos, isInf]
  | offGrid => simp [extremumPos, isInf]
  | center t =>
    obtain ⟨tx, ty, tz⟩ := small_index hd (ht t he)
    obtain ⟨-, x, ex, -⟩ := center_axis hlo hhi tx
    obtain ⟨-, y, ey, -⟩ := center_axis hlo hhi ty
    obtain ⟨-, z, ez, -⟩ := center_axis hlo hhi tz
    refine iff_of_true ?_ ⟨t, rfl⟩
    unfold extremumPos center
    dsimp only
    rw [ex, ey, ez]
    simp [isInf_real]

theorem segData_symm (R : Rounding) {norm : V3 FVal → FVal} (hn : NormOk norm) (s : FSdf) (thr : FVal)
    (e : Grid Extremum) (i j : Idx) (h : (s.segData R norm thr e).near i j = true) :
    (s.segData R norm thr e).near j i = true := by
  unfold segData at h ⊢
  dsimp only at h ⊢
  generalize s.extremumPos R (e.get i) = p at *
  generalize s.extremumPos R (e.get j) = q at *
  rw [sub_swap R q.x, sub_swap R q.y, sub_swap R q.z]
  have := hn.even ⟨sub R p.x q.x, sub R p.y q.y, sub R p.z q.z⟩
  dsimp only at this
  rw [this]
  exact h

/-! ## C109: local extrema and segmentation with the arithmetic of the machine -/

/-- C109, extrema.  For every stored field, with infinite and NaN values or not, and every rotation, the local
extrema map exists and its entries mean what C27 says. -/
theorem C109_extrema (R : Rounding) (rot : V3 FVal → V3 FVal) (s : FSdf) :
    ∃ m, (s.gradField R rot).extremaMap s.grid.dims = some m ∧ m.dims = s.grid.dims ∧
      ∀ i, InBounds s.grid.dims i → m.get i ≠ .unset ∧
        (FlatAt (s.gradField R rot) i → m.get i = .center i) ∧
        (∀ j, ¬ FlatAt (s.gradField R rot) i → Target (s.gradField R rot) i j → ¬ InBounds s.grid.dims j →
          m.get i = .offGrid) ∧
        (∀ j, ¬ FlatAt (s.gradField R rot) i → Target (s.gradField R rot) i j → InBounds s.grid.dims j →
          m.get i = m.get j) ∧
        Explains (s.gradField R rot) s.grid.dims i (m.get i) :=
  C27_extrema_map _ _ (hasGradients R rot s)

theorem small_of_fits {d : Dims} {border : Bool} (h : FieldFits d border) : SmallGrid d := by
  unfold FieldFits at h
  cases border with
  | false => exact h
  | true =>
    simp only [if_true] at h
    unfold SmallGrid enlarge at *
    dsimp only at h
    have mono : ∀ a b : ℕ, a ≤ b → a * a ≤ b * b := fun a b hab => Nat.mul_le_mul hab hab
    have h1 := mono d.nx (d.nx + 2 * off d.nx) (by omega)
    have h2 := mono d.ny (d.ny + 2 * off d.ny) (by omega)
    have h3 := mono d.nz (d.nz + 2 * off d.nz) (by omega)
    omega

/-- C109, segmentation.  In IEEE arithmetic, for every map, rotation, threshold and either border setting,
`UpdateConvexSegments` ends normally.  The labels number, in scan order, the classes of free or named cells whose path
stays in the grid and that are linked by chains of face-adjacent cells of one object with near extrema; all other
cells get 0; occupancy, object and component stay.  Extrema that are closer than the threshold by a 2^-30 part of the
cell size are near, extrema that are not closer than the threshold plus that are not. -/
theorem C109_segmentation {res : ℝ} (hlo : 1 / 2 ^ 100 ≤ res) (hhi : res ≤ 2 ^ 100)
    (rot : V3 FVal → V3 FVal) {norm : V3 FVal → FVal} (hn : NormOk norm) (m : TMap) (h : m.grid.WF)
    (hsz : m.dims.size < 2 ^ 32) (thr : ℝ) (border : Bool) (hd : FieldFits m.dims border) :
    ∃ (o : Out) (e : Grid Extremum) (m' : TMap) (n : Nat) (near : Idx → Idx → Prop),
      m.segField ieee res border = some o ∧
      ((FSdf.mk o.sdf res).gradField ieee rot).extremaMap m.dims = some e ∧
      m.updateConvexF ieee res rot norm (real thr) border = some (m', n) ∧ m'.getNumSeg = (n, true) ∧
      Labelling m.dims (fun i => InBounds m.dims i ∧ FreeOrNamed m i ∧ ∃ t, e.get i = .center t)
        (fun i j => (m.getImm i).1.obj = (m.getImm j).1.obj ∧ near i j) (fun i => (m'.getImm i).1.seg.toNat) n ∧
      (∀ i j t u, InBounds m.dims i → InBounds m.dims j → e.get i = .center t → e.get j = .center u →
        (near i j → cellDist res t u < thr + res / 2 ^ 30) ∧ (cellDist res t u + res / 2 ^ 30 < thr → near i j)) ∧
      (∀ i, InBounds m.dims i → ¬ (FreeOrNamed m i ∧ ∃ t, e.get i = .center t) → (m'.getImm i).1.seg = 0) ∧
      ∀ i, (m'.getImm i).1.occ = (m.getImm i).1.occ ∧ (m'.getImm i).1.obj = (m.getImm i).1.obj ∧
        (m'.getImm i).1.comp = (m.getImm i).1.comp := by
  obtain ⟨o, ho, hdim⟩ := TMap.segField_some (R := ieee) (res := res) m border hd
  have hdim' : (FSdf.mk o.sdf res).grid.dims = m.dims := hdim
  obtain ⟨e, he, _, hall⟩ := C109_extrema ieee rot (FSdf.mk o.sdf res)
  rw [hdim'] at he hall
  have hcent : ∀ i, InBounds m.dims i → ∀ t, e.get i = .center t → InBounds m.dims t := by
    intro i hi t ht
    have hex := (hall i hi).2.2.2.2
    rw [ht] at hex
    exact hex.1.inBounds hi
  have hsmall := small_of_fits hd
  set S := (FSdf.mk o.sdf res).segData ieee norm (real thr) e with hS
  obtain ⟨m', n, h1, h2, h3, h4, h5⟩ := C42_segments S (segData_symm ieee hn _ _ _) m h hsz
  have hseg : ∀ i, Segmentable S m i ↔ (InBounds m.dims i ∧ FreeOrNamed m i ∧ ∃ t, e.get i = .center t) := by
    intro i
    unfold Segmentable FreeOrNamed
    refine and_congr_right fun hi => and_congr_right' ?_
    exact far_iff hsmall (s := FSdf.mk o.sdf res) hlo hhi norm (real thr) (hcent i hi)
  refine ⟨o, e, m', n, fun i j => S.near i j = true, ho, he, ?_, h2, ?_, ?_, ?_, h5⟩
  · unfold TMap.updateConvexF
    simp only [ho]
    rw [hdim', he]
    exact h1
  · have e1 : (fun i => InBounds m.dims i ∧ FreeOrNamed m i ∧ ∃ t, e.get i = .center t) = Segmentable S m :=
      funext fun i => propext (hseg i).symm
    rw [e1]; exact h3
  · intro i j t u hi hj ht hu
    obtain ⟨y, ey, hy⟩ := norm_centers hn hsmall (s := FSdf.mk o.sdf res) hlo hhi (hcent i hi t ht) (hcent j hj u hu)
    have hnear : S.near i j = true ↔ y < thr := by
      rw [hS]
      unfold segData
      dsimp only
      rw [ht, hu]
      unfold extremumPos
      dsimp only
      rw [ey]
      unfold lt real
      rw [decide_eq_true_iff]
      exact EReal.coe_lt_coe_iff
    have hy' := abs_le.mp hy
    dsimp only at hy'
    refine ⟨fun hh => ?_, fun hh => hnear.mpr (by linarith)⟩
    have := hnear.mp hh
    linarith
  · intro i hi hne
    exact h4 i hi (fun hs => hne ((hseg i).mp hs).2)

/-- If the magnitudes of the field do not shrink from the faces inwards, every free or named cell is segmented. -/
theorem all_segmented {res : ℝ} (hres : GoodRes ieee res) (hlo : 1 / 2 ^ 100 ≤ res) (hhi : res ≤ 2 ^ 100)
    {rot : V3 FVal → V3 FVal} (hrot : Unturned ieee rot) {norm : V3 FVal → FVal} (hn : NormOk norm) {m : TMap}
    (h : m.grid.WF) (hsz : m.dims.size < 2 ^ 32) (thr : ℝ) {border : Bool} (hd : FieldFits m.dims border)
    (hface : ∀ o, m.segField ieee res border = some o → ∀ i j, InBounds m.dims i → Inward m.dims i j →
      Grows (o.sdf.get i) (o.sdf.get j)) :
    ∃ m' n, m.updateConvexF ieee res rot norm (real thr) border = some (m', n) ∧
      ∀ i, InBounds m.dims i → FreeOrNamed m i →
        1 ≤ (m'.getImm i).1.seg.toNat ∧ (m'.getImm i).1.seg.toNat ≤ n := by
  obtain ⟨o, e, m', n, near, ho, he, hup, _, hlab, _⟩ := C109_segmentation hlo hhi rot hn m h hsz thr border hd
  refine ⟨m', n, hup, fun i hi hp => ?_⟩
  obtain ⟨o', ho', hdim⟩ := TMap.segField_some (R := ieee) (res := res) m border hd
  rw [ho] at ho'
  simp only [Option.some.injEq] at ho'
  subst ho'
  have hdim' : (FSdf.mk o.sdf res).grid.dims = m.dims := hdim
  refine hlab.range i ⟨hi, hp, GradField.all_centers ?_ ?_ he hi⟩
  · rw [← hdim']; exact hasGradients _ _ _
  · intro j k hj ht
    rw [← hdim'] at hj ⊢
    refine target_stays ieee hrot (FSdf.mk o.sdf res) hres ?_ hj ht
    intro a b ha hab
    rw [hdim'] at ha hab
    exact hface o ho a b ha hab

/-- The full statement: with the virtual border, in a grid that is not rotated, every free or named cell gets a
segment. -/
def C109Statement : Prop := ∀ (res : ℝ) (rot : V3 FVal → V3 FVal) (norm : V3 FVal → FVal) (m : TMap) (thr : ℝ),
  GoodRes ieee res → 1 / 2 ^ 100 ≤ res → res ≤ 2 ^ 100 → Unturned ieee rot → NormOk norm → m.grid.WF →
  m.dims.size < 2 ^ 32 → SmallGrid (enlarge m.dims) →
  ∃ m' n, m.updateConvexF ieee res rot norm (real thr) true = some (m', n) ∧
    ∀ i, InBounds m.dims i → FreeOrNamed m i → 1 ≤ (m'.getImm i).1.seg.toNat

theorem low_res {res : ℝ} (hlo : 1 / 2 ^ 100 ≤ res) : 1 / 2 ^ 126 ≤ res := le_trans (by norm_num) hlo

/-- C109, the part that holds with the virtual border: no face cell (of an axis with more than one cell) differs from
its inward neighbour in being an obstacle.  Missing: other maps, for which the statement is false (`C109_false`). -/
theorem C109_border_partial {res : ℝ} (hres : GoodRes ieee res) (hlo : 1 / 2 ^ 100 ≤ res) (hhi : res ≤ 2 ^ 100)
    {rot : V3 FVal → V3 FVal} (hrot : Unturned ieee rot) {norm : V3 FVal → FVal} (hn : NormOk norm) (m : TMap)
    (h : m.grid.WF) (hsz : m.dims.size < 2 ^ 32) (hd : SmallGrid (enlarge m.dims)) (thr : ℝ)
    (hsame : ∀ i j, InBounds m.dims i → Inward m.dims i j → (TObstacle m true i ↔ TObstacle m true j)) :
    ∃ m' n, m.updateConvexF ieee res rot norm (real thr) true = some (m', n) ∧
      ∀ i, InBounds m.dims i → FreeOrNamed m i →
        1 ≤ (m'.getImm i).1.seg.toNat ∧ (m'.getImm i).1.seg.toNat ≤ n := by
  classical
  have h32 := (ieee_resolution (low_res hlo) hhi).1
  refine all_segmented hres hlo hhi hrot hn h hsz thr (border := true) hd ?_
  intro o ho i j hi hij
  have ho : extract ieee (res, res, res) m.grid.dims (TMap.objFill m [] true) (some ⊤) true = some o := ho
  have hj := hij.inBounds hi
  obtain ⟨f, hf, hclass⟩ : ∃ f : Idx → Bool, Answers m.grid.dims (TMap.objFill m [] true) f ∧
      ∀ w, f w = true ↔ TObstacle m true w :=
    ⟨_, TMap.objFill_answers m [] true, fun w => by simp [Selected]⟩
  obtain ⟨o', fr, fi, a, b, a', b', ho', h1, h2, _, _, _, _, _, hval⟩ := border_spec hd hf ieee res (some ⊤)
  have : o' = o := by
    have := ho'.symm.trans ho
    simpa using this
  subst this
  have hi_val := C17_boundary hres h32 hd hf ho hi hij.onFace
  obtain ⟨c1, c2⟩ := combine_value hres h32 h1 h2 hj
  by_cases hob : TObstacle m true i
  · have hoj := (hsame i j hi hij).mp hob
    rw [(hclass i).mpr hob] at hi_val
    obtain ⟨e, hle⟩ := c2 ((hclass j).mpr hoj)
    refine ⟨_, _, hi_val, (hval j hj).trans e, fun h0 => ?_, fun _ => hle⟩
    have : -ieee.r32 res < 0 := by
      rw [show (0 : EReal) = -0 by simp, EReal.neg_lt_neg_iff]; exact h32
    exact absurd h0 (not_le.mpr this)
  · have hoj := fun hh => hob ((hsame i j hi hij).mpr hh)
    have fi' : f i = false := by
      rw [← Bool.not_eq_true, hclass]; exact hob
    have fj' : f j = false := by
      rw [← Bool.not_eq_true, hclass]; exact hoj
    rw [fi'] at hi_val
    obtain ⟨e, hle⟩ := c1 fj'
    exact ⟨_, _, hi_val, (hval j hj).trans e, fun _ => hle, fun h0 => absurd h0 (not_lt.mpr h32.le)⟩

/-- C109, the part that holds without a border, inside a shell of filled cells without an object: no filled cell of
an object touches the shell. -/
theorem C109_shell_partial {res : ℝ} (hres : GoodRes ieee res) (hlo : 1 / 2 ^ 100 ≤ res) (hhi : res ≤ 2 ^ 100)
    {rot : V3 FVal → V3 FVal} (hrot : Unturned ieee rot) {norm : V3 FVal → FVal} (hn : NormOk norm) (m : TMap)
    (h : m.grid.WF) (hsz : m.dims.size < 2 ^ 32) (hd : SmallGrid m.dims) (thr : ℝ) (hshell : UnnamedShell m)
    (hclear : ∀ i j, InBounds m.dims i → Inward m.dims i j → ¬ NamedObstacle m true j) :
    ∃ m' n, m.updateConvexF ieee res rot norm (real thr) false = some (m', n) ∧
      ∀ i, InBounds m.dims i → FreeOrNamed m i →
        1 ≤ (m'.getImm i).1.seg.toNat ∧ (m'.getImm i).1.seg.toNat ≤ n := by
  have h32 := (ieee_resolution (low_res hlo) hhi).1
  refine all_segmented hres hlo hhi hrot hn h hsz thr (border := false) hd ?_
  intro o ho i j hi hij
  have ho : m.extractFreeNamed ieee (res, res, res) (some ⊤) true = some o := ho
  obtain ⟨o', ho', _, hval⟩ := C41_trichotomy hres h32 m hd (some ⊤) true
  rw [ho] at ho'
  simp only [Option.some.injEq] at ho'
  subst ho'
  obtain ⟨x, hx, _, _, hx0⟩ := hval i hi
  obtain ⟨y, hy, hy1, _, hy0⟩ := hval j (hij.inBounds hi)
  have h0 : x = 0 := hx0.mpr (hshell i hi hij.onFace)
  subst h0
  refine ⟨0, y, hx, hy, fun _ => ?_, fun hlt => absurd hlt (lt_irrefl _)⟩
  by_cases hob : TObstacle m true j
  · by_cases hnm : (m.getImm j).1.obj = 0
    · rw [hy0.mpr ⟨hob, hnm⟩]
    · exact absurd ⟨hob, hnm⟩ (hclear i j hi hij)
  · exact le_trans h32.le (hy1.mpr hob)

/-! ## A map without obstacles -/

/-- NaN or 0. -/
def Nil (v : FVal) : Prop := v = none ∨ v = real 0

theorem nil_mul (R : Rounding) {a : FVal} (h : Nil a) (b : FVal) : Nil (mul R a b) := by
  rcases h with rfl | rfl
  · left; exact none_mul R b
  · rcases b with _ | b
    · left; exact mul_none R _
    · unfold mul real
      simp only
      split
      · left; rfl
      · right; rw [EReal.coe_zero, zero_mul, r64_zero]; rfl

theorem sub32_self_nil (R : Rounding) (v : FVal) : Nil (sub32 R v v) := by
  rcases v with _ | x
  · left; rfl
  · induction x with
    | bot => left; exact sub32_self R (.inr (.inr rfl))
    | top => left; exact sub32_self R (.inr (.inl rfl))
    | coe x =>
      right
      unfold sub32
      simp only [EReal.coe_ne_top, EReal.coe_ne_bot, and_self, or_self, if_false]
      have : ((x : EReal) - x) = 0 := by rw [← EReal.coe_sub, sub_self, EReal.coe_zero]
      rw [this]
      have h := R.odd32 0
      rw [neg_zero] at h
      induction hx : R.r32 0 with
      | bot => rw [hx] at h; simp at h
      | top => rw [hx] at h; simp at h
      | coe y =>
        rw [hx] at h
        have : y = -y := by exact_mod_cast h
        have : y = 0 := by linarith
        rw [this]; rfl

/-- A field with one value everywhere has gradients of NaN and 0 only. -/
theorem gridGrad_constant (R : Rounding) {s : FSdf} {v : FVal} (hv : ∀ j, InBounds s.grid.dims j → s.grid.get j = v)
    {i : Idx} (hi : InBounds s.grid.dims i) : ∀ g ∈ s.gridGrad R i true, Nil g := by
  have hi' := hi
  unfold InBounds at hi'
  have hin : ∀ a b, InBounds s.grid.dims a → InBounds s.grid.dims b → Nil (s.inner R a b) := by
    intro a b ha hb
    unfold inner
    rw [hv a ha, hv b hb]
    exact nil_mul R (sub32_self_nil R v) _
  have hed : ∀ n a b, InBounds s.grid.dims a → InBounds s.grid.dims b → Nil (s.edge R n a b) := by
    intro n a b ha hb
    unfold edge
    dsimp only
    split
    · rw [hv a ha, hv b hb]
      exact nil_mul R (sub_self_cases R v) _
    · right; rfl
  intro g hg
  unfold gridGrad at hg
  simp only [inB_iff_spec.mpr hi, if_true] at hg
  split at hg
  · simp only [List.mem_cons, List.not_mem_nil, or_false] at hg
    rcases hg with rfl | rfl | rfl <;> refine hin _ _ ?_ ?_ <;> unfold InBounds <;> dsimp only <;> omega
  · simp only [List.mem_cons, List.not_mem_nil, or_false] at hg
    rcases hg with rfl | rfl | rfl <;> refine hed _ _ _ ?_ ?_ <;> unfold InBounds <;> dsimp only <;> omega

/-- A field with one value everywhere: every cell is its own extremum. -/
theorem own_extremum (R : Rounding) {rot : V3 FVal → V3 FVal} (hrot : Unturned R rot) {s : FSdf} (hr : 0 < s.res)
    {v : FVal} (hv : ∀ j, InBounds s.grid.dims j → s.grid.get j = v) {e : Grid Extremum}
    (he : (s.gradField R rot).extremaMap s.grid.dims = some e) {i : Idx} (hi : InBounds s.grid.dims i) :
    e.get i = .center i := by
  obtain ⟨e', he', _, hall⟩ := C109_extrema R rot s
  rw [he] at he'
  simp only [Option.some.injEq] at he'
  subst he'
  have hstep := stepRes_nonneg R s hr
  have hzero : ∀ g, Nil g → unitStep (s.gradField R rot) g = 0 := by
    intro g hg
    have h1 : (s.gradField R rot).up g = false := by
      show lt (s.stepRes R) g = false
      rcases hg with rfl | rfl
      · cases s.stepRes R <;> rfl
      · cases hst : s.stepRes R with
        | none => rfl
        | some t => exact decide_eq_false (not_lt.mpr (hstep t hst))
    have h2 : (s.gradField R rot).down g = false := by
      show lt g (neg (s.stepRes R)) = false
      rcases hg with rfl | rfl
      · rfl
      · cases hst : s.stepRes R with
        | none => rfl
        | some t =>
          refine decide_eq_false (not_lt.mpr ?_)
          show -t ≤ 0
          rw [← neg_zero, EReal.neg_le_neg_iff]; exact hstep t hst
    unfold unitStep
    rw [h1, h2]; rfl
  have hself : ∀ j k, InBounds s.grid.dims j → Target (s.gradField R rot) j k → k = j := by
    rintro j k hj ⟨gx, gy, gz, hg, hk⟩
    obtain ⟨ax, ay, az, ha⟩ := gridGrad_length R s hj
    have hdbl := gridGrad_double R s j true
    have hnil := gridGrad_constant R hv hj
    rw [ha] at hdbl hnil
    obtain ⟨r1, r2, r3⟩ := hrot ⟨ax, ay, az⟩ (hdbl ax (by simp)) (hdbl ay (by simp)) (hdbl az (by simp))
    have hg' : s.gradient R rot j true = [gx, gy, gz] := hg
    unfold gradient at hg'
    rw [ha] at hg'
    simp only [List.cons.injEq, and_true] at hg'
    obtain ⟨e1, e2, e3⟩ := hg'
    have hk0 : ∀ g r : FVal, Nil g → (r = none ∨ r = g) →
        (if (s.gradField R rot).neg j then unitStep (s.gradField R rot) ((s.gradField R rot).negate r)
          else unitStep (s.gradField R rot) r) = 0 := by
      intro g r hgn hr
      have hrn : Nil r := by
        rcases hr with rfl | rfl
        · left; rfl
        · exact hgn
      split
      · exact hzero _ (nil_mul R hrn _)
      · exact hzero _ hrn
    rw [e1] at r1
    rw [e2] at r2
    rw [e3] at r3
    rw [hk]
    dsimp only
    rw [hk0 ax gx (hnil ax (by simp)) r1, hk0 ay gy (hnil ay (by simp)) r2, hk0 az gz (hnil az (by simp)) r3]
    simp
  have hlead : ∀ k, Leads (s.gradField R rot) s.grid.dims i k → k = i := by
    intro k hk
    induction hk with
    | refl => rfl
    | tail hb hstep ih =>
      subst ih
      exact hself _ _ hi hstep.2.1
  obtain ⟨hne, _, _, _, hex⟩ := hall i hi
  cases hc : e.get i with
  | unset => exact absurd hc hne
  | offGrid =>
    rw [hc] at hex
    obtain ⟨j, k, hl, _, ht, hk⟩ := hex
    have := hlead j hl
    subst this
    rw [hself _ _ hi ht] at hk
    exact absurd hi hk
  | center t =>
    rw [hc] at hex
    rw [hlead t hex.1]

/-- C109, a map without obstacles, no border: every distance is infinite and every cell is its own extremum. -/
theorem C109_no_obstacle {R : Rounding} {res : ℝ} (hres : GoodRes R res) (h32 : 0 < R.r32 res)
    {rot : V3 FVal → V3 FVal} (hrot : Unturned R rot) (m : TMap) (hd : SmallGrid m.dims)
    (hfree : ∀ i, InBounds m.dims i → ¬ TObstacle m true i) {o : Out} (ho : m.segField R res false = some o)
    {e : Grid Extremum} (he : ((FSdf.mk o.sdf res).gradField R rot).extremaMap m.dims = some e) :
    ∀ i, InBounds m.dims i → o.sdf.get i = some ⊤ ∧ e.get i = .center i := by
  obtain ⟨o', fr, ob, a, b, a', b', ho', h1, h2, _, _, hdim, hval⟩ :=
    TMap.freeNamed_spec (R := R) res m hd (some ⊤) true
  have ho : m.extractFreeNamed R (res, res, res) (some ⊤) true = some o := ho
  rw [ho] at ho'
  simp only [Option.some.injEq] at ho'
  subst ho'
  have hocc : ∀ i, InBounds m.dims i → TMap.occFilled true (m.grid.get i) = false := by
    intro i hi
    rw [← Bool.not_eq_true, TMap.occFilled_iff]; exact hfree i hi
  have htop : ∀ i, InBounds m.dims i → o.sdf.get i = some ⊤ := by
    intro i hi
    rw [hval i hi, ((TMap.freeNamed_value hres h32 m h1 h2 hi).1 (hfree i hi)).1]
    have hnil : m.dims.all.filter (fun i => TMap.occFilled true (m.grid.get i)) = [] := by
      rw [List.filter_eq_nil_iff]
      intro j hj
      rw [hocc j (inB_iff_spec.mp (Dims.mem_all.mp hj))]; simp
    unfold exactVal
    simp only [hocc i hi, Bool.false_eq_true, if_false]
    rw [build_nil hd (hnil ▸ h1.ha) hi, scaled_top hres.1, R.top32]
  have hdim' : (FSdf.mk o.sdf res).grid.dims = m.dims := hdim
  intro i hi
  refine ⟨htop i hi, ?_⟩
  rw [← hdim'] at he hi
  exact own_extremum R hrot (s := FSdf.mk o.sdf res) hres.1 (fun j hj => htop j (hdim' ▸ hj)) he hi

/-! ## The contracts hold for Eigen's formulas -/

/-- NaN or the given value. -/
def Keeps (a g : FVal) : Prop := a = none ∨ a = g

theorem keeps_zero_mul (R : Rounding) (g : FVal) : Keeps (mul R (real 0) g) (real 0) :=
  nil_mul R (.inr rfl) g

theorem keeps_mul_zero (R : Rounding) (g : FVal) : Keeps (mul R g (real 0)) (real 0) := by
  rw [mul_comm']; exact keeps_zero_mul R g

theorem mul_one_double (R : Rounding) {g : FVal} (h : IsDouble R g) : mul R g (real 1) = g := by
  rcases g with _ | x
  · rfl
  · unfold mul real
    simp only [EReal.coe_one, one_ne_zero, and_false, or_false]
    rw [if_neg (by
      rintro ⟨-, h | h⟩
      · exact absurd h (EReal.coe_ne_top 1)
      · exact absurd h (EReal.coe_ne_bot 1)), mul_one, h x rfl]

theorem keeps_one_mul (R : Rounding) {g a : FVal} (h : IsDouble R g) (ha : Keeps a g) :
    Keeps (mul R (real 1) a) g := by
  rcases ha with rfl | rfl
  · left; rfl
  · right; rw [mul_comm']; exact mul_one_double R h

theorem add_zero_double (R : Rounding) {g : FVal} (h : IsDouble R g) : add R g (real 0) = g := by
  rcases g with _ | x
  · rfl
  · unfold add real
    simp only
    rw [if_neg (by simp), EReal.coe_zero, add_zero, h x rfl]

theorem zero_add_double (R : Rounding) {g : FVal} (h : IsDouble R g) : add R (real 0) g = g := by
  rcases g with _ | x
  · rfl
  · unfold add real
    simp only
    rw [if_neg (by simp), EReal.coe_zero, zero_add, h x rfl]

theorem keeps_add (R : Rounding) {a b g : FVal} (h : IsDouble R g) (ha : Keeps a g) (hb : Keeps b (real 0)) :
    Keeps (add R a b) g := by
  rcases ha with rfl | rfl
  · left; rfl
  · rcases hb with rfl | rfl
    · left; exact add_none R _
    · right; exact add_zero_double R h

theorem keeps_add' (R : Rounding) {a b g : FVal} (h : IsDouble R g) (ha : Keeps a (real 0)) (hb : Keeps b g) :
    Keeps (add R a b) g := by
  rcases ha with rfl | rfl
  · left; rfl
  · rcases hb with rfl | rfl
    · left; exact add_none R _
    · right; exact zero_add_double R h

theorem keeps_sub (R : Rounding) {a b g : FVal} (h : IsDouble R g) (ha : Keeps a g) (hb : Keeps b (real 0)) :
    Keeps (sub R a b) g := by
  refine keeps_add R h ha ?_
  rcases hb with rfl | rfl
  · left; rfl
  · right; simp [neg, real]

/-- The rotation by the identity quaternion does not turn. -/
theorem unturned_identity (R : Rounding) :
    Unturned R (rotate R ⟨real 1, real 0, real 0, real 0⟩ ⟨real 1, real 0, real 0, real 0⟩) := by
  intro v hx hy hz
  have h1 : ∀ {g : FVal}, IsDouble R g → Keeps (mul R g (real 1)) g := fun h => .inr (mul_one_double R h)
  unfold rotate Quat.mul
  dsimp only
  have kx : Keeps (sub R (add R (add R (mul R (real 0) (real 0)) (mul R v.x (real 1))) (mul R v.y (real 0)))
      (mul R v.z (real 0))) v.x :=
    keeps_sub R hx (keeps_add R hx (keeps_add' R hx (keeps_zero_mul R _) (h1 hx)) (keeps_mul_zero R _))
      (keeps_mul_zero R _)
  have ky : Keeps (sub R (add R (add R (mul R (real 0) (real 0)) (mul R v.y (real 1))) (mul R v.z (real 0)))
      (mul R v.x (real 0))) v.y :=
    keeps_sub R hy (keeps_add R hy (keeps_add' R hy (keeps_zero_mul R _) (h1 hy)) (keeps_mul_zero R _))
      (keeps_mul_zero R _)
  have kz : Keeps (sub R (add R (add R (mul R (real 0) (real 0)) (mul R v.z (real 1))) (mul R v.x (real 0)))
      (mul R v.y (real 0))) v.z :=
    keeps_sub R hz (keeps_add R hz (keeps_add' R hz (keeps_zero_mul R _) (h1 hz)) (keeps_mul_zero R _))
      (keeps_mul_zero R _)
  refine ⟨?_, ?_, ?_⟩
  · exact keeps_sub R hx (keeps_add R hx (keeps_add R hx (keeps_one_mul R hx kx) (keeps_zero_mul R _))
      (keeps_zero_mul R _)) (keeps_zero_mul R _)
  · exact keeps_sub R hy (keeps_add R hy (keeps_add R hy (keeps_one_mul R hy ky) (keeps_zero_mul R _))
      (keeps_zero_mul R _)) (keeps_zero_mul R _)
  · exact keeps_sub R hz (keeps_add R hz (keeps_add R hz (keeps_one_mul R hz kz) (keeps_zero_mul R _))
      (keeps_zero_mul R _)) (keeps_zero_mul R _)

/-- `std::sqrt`. -/
noncomputable def fsqrt (a : FVal) : FVal := open Classical in
  match a with
  | none => none
  | some x => if x < 0 then none else if x = ⊤ then some ⊤ else some (ieee.r64 ((Real.sqrt x.toReal : ℝ) : EReal))

/-- The norm as `sqrt(x*x + (y*y + z*z))` in doubles. -/
noncomputable def fnorm (v : V3 FVal) : FVal :=
  fsqrt (add ieee (mul ieee v.x v.x) (add ieee (mul ieee v.y v.y) (mul ieee v.z v.z)))

theorem mul_neg_neg (R : Rounding) (a : FVal) : mul R (neg a) (neg a) = mul R a a := by
  rcases a with _ | x
  · rfl
  · unfold neg mul
    simp only [Option.map_some]
    have h : (((-x : EReal) = 0 ∧ ((-x : EReal) = ⊤ ∨ (-x : EReal) = ⊥)) ∨ (((-x : EReal) = ⊤ ∨ (-x : EReal) = ⊥) ∧ (-x : EReal) = 0)) ↔
        ((x = 0 ∧ (x = ⊤ ∨ x = ⊥)) ∨ ((x = ⊤ ∨ x = ⊥) ∧ x = 0)) := by
      induction x <;> simp
    rw [_root_.neg_mul_neg] <;> simp only [h]

/-- `w` is `z` up to `k` units of 2^-52, and `z` is 0 or far from underflow and overflow. -/
def Rel (k w z : ℝ) : Prop := 0 ≤ w ∧ |w - z| ≤ k * (z / 2 ^ 52) ∧ (z = 0 ∨ 2 ^ (-400 : ℤ) ≤ z) ∧ z ≤ 2 ^ (404 : ℤ)

theorem Rel.round {k w z : ℝ} (h : Rel k w z) (hk : k ≤ 2 ^ 20) :
    ∃ y : ℝ, ieee.r64 (w : EReal) = (y : EReal) ∧ Rel (k + 2) y z := by
  obtain ⟨h0, h1, h2, h3⟩ := h
  rcases h2 with rfl | h2
  · have hw : w = 0 := by simpa using h1
    subst hw
    refine ⟨0, by rw [EReal.coe_zero, r64_zero], le_rfl, by simp, .inl rfl, h3⟩
  · have hz : 0 < z := lt_of_lt_of_le (Ieee.two_pos' _) h2
    have hw : w ≤ 2 * z := by
      have := (abs_le.mp h1).2
      have : k * (z / 2 ^ 52) ≤ 2 ^ 20 * (z / 2 ^ 52) := by gcongr
      norm_num at *
      linarith
    obtain ⟨y, e1, e2⟩ := Ieee.r64_real (z := w) (by
      rw [abs_of_nonneg h0]
      have : (2 : ℝ) * 2 ^ (404 : ℤ) = 2 ^ (405 : ℤ) := by
        rw [show (405 : ℤ) = 404 + 1 by norm_num, Ieee.two_add]; ring
      have h5 : (2 : ℝ) ^ (405 : ℤ) ≤ 2 ^ (1000 : ℤ) := Ieee.two_mono (by norm_num)
      refine hw.trans (le_trans ?_ h5)
      rw [← this]
      exact mul_le_mul_of_nonneg_left h3 (by norm_num))
    have ht : (2 : ℝ) ^ (-1074 : ℤ) ≤ z / 2 ^ 52 := by
      rw [le_div_iff₀ (by norm_num)]
      refine le_trans ?_ h2
      rw [show (2 : ℝ) ^ 52 = 2 ^ (52 : ℤ) by norm_num, ← Ieee.two_add]
      exact Ieee.two_mono (by norm_num)
    refine ⟨y, e1, ?_, ?_, .inr h2, h3⟩
    · have := r64_nonneg ieee (x := (w : EReal)) (by exact_mod_cast h0)
      rw [e1] at this
      exact_mod_cast this
    · have e : y - z = (y - w) + (w - z) := by ring
      rw [e]
      refine (abs_add_le _ _).trans ?_
      rw [abs_of_nonneg h0] at e2
      have : w / 2 ^ 53 ≤ z / 2 ^ 52 := by
        rw [div_le_div_iff₀ (by norm_num) (by norm_num)]
        norm_num at *
        linarith
      linarith

theorem Rel.weaken {k l w z : ℝ} (h : Rel k w z) (hkl : k ≤ l) : Rel l w z := by
  obtain ⟨h0, h1, h2, h3⟩ := h
  have hz : 0 ≤ z := by
    rcases h2 with rfl | h2
    · exact le_rfl
    · exact (Ieee.two_pos' _).le.trans h2
  exact ⟨h0, h1.trans (by gcongr), h2, h3⟩

theorem Rel.add {k a A b B : ℝ} (h : Rel k a A) (g : Rel k b B) (hb : A + B ≤ 2 ^ (404 : ℤ)) :
    Rel k (a + b) (A + B) := by
  obtain ⟨h0, h1, h2, h3⟩ := h
  obtain ⟨g0, g1, g2, g3⟩ := g
  refine ⟨add_nonneg h0 g0, ?_, ?_, hb⟩
  · have e : a + b - (A + B) = (a - A) + (b - B) := by ring
    rw [e]
    refine (abs_add_le _ _).trans ?_
    have : k * ((A + B) / 2 ^ 52) = k * (A / 2 ^ 52) + k * (B / 2 ^ 52) := by ring
    linarith
  · rcases h2 with rfl | h2
    · rcases g2 with rfl | g2
      · left; simp
      · right; simpa using g2
    · right
      rcases g2 with rfl | g2
      · simpa using h2
      · linarith [Ieee.two_pos' (-400)]

theorem Rel.sq {c : ℝ} (h : c = 0 ∨ 1 / 2 ^ 200 ≤ |c| ∧ |c| ≤ 2 ^ 200) :
    Rel 0 (c * c) (c ^ 2) ∧ c ^ 2 ≤ 2 ^ (400 : ℤ) := by
  have hb : c ^ 2 ≤ 2 ^ (400 : ℤ) := by
    rcases h with rfl | ⟨_, h⟩
    · rw [zero_pow two_ne_zero]; exact (Ieee.two_pos' _).le
    · rw [← sq_abs]
      calc |c| ^ 2 ≤ (2 ^ 200) ^ 2 := by gcongr
        _ = 2 ^ (400 : ℤ) := by rw [← pow_mul, ← zpow_natCast]; norm_num
  refine ⟨⟨mul_self_nonneg c, by rw [← pow_two, sub_self]; simp, ?_, hb.trans (Ieee.two_mono (by norm_num))⟩, hb⟩
  rcases h with rfl | ⟨h, _⟩
  · left; norm_num
  · right
    rw [← sq_abs]
    calc (2 : ℝ) ^ (-400 : ℤ) = (1 / 2 ^ 200) ^ 2 := by
          rw [div_pow, one_pow, ← pow_mul, show (-400 : ℤ) = -((400 : ℕ) : ℤ) by norm_num, zpow_neg_nat]
      _ ≤ |c| ^ 2 := by gcongr

theorem Rel.sqrt {k w z : ℝ} (h : Rel k w z) : Rel k (Real.sqrt w) (Real.sqrt z) := by
  obtain ⟨h0, h1, h2, h3⟩ := h
  rcases h2 with rfl | h2
  · have hw : w = 0 := by simpa using h1
    subst hw
    rw [Real.sqrt_zero]
    exact ⟨le_rfl, by simp, .inl rfl, (Ieee.two_pos' _).le⟩
  · have hz : 0 < z := lt_of_lt_of_le (Ieee.two_pos' _) h2
    have hs : 0 < Real.sqrt z := Real.sqrt_pos.mpr hz
    have hsw := Real.sqrt_nonneg w
    refine ⟨hsw, ?_, .inr ?_, ?_⟩
    · have e : (Real.sqrt w - Real.sqrt z) * (Real.sqrt w + Real.sqrt z) = w - z := by
        have := Real.sq_sqrt h0
        have := Real.sq_sqrt hz.le
        nlinarith
      have e2 : |Real.sqrt w - Real.sqrt z| * (Real.sqrt w + Real.sqrt z) = |w - z| := by
        rw [← e, abs_mul, abs_of_pos (by linarith : 0 < Real.sqrt w + Real.sqrt z)]
      have e3 : |Real.sqrt w - Real.sqrt z| * Real.sqrt z ≤ (k * (Real.sqrt z / 2 ^ 52)) * Real.sqrt z := by
        have : (k * (Real.sqrt z / 2 ^ 52)) * Real.sqrt z = k * (z / 2 ^ 52) := by
          have := Real.mul_self_sqrt hz.le
          calc _ = k * ((Real.sqrt z * Real.sqrt z) / 2 ^ 52) := by ring
            _ = _ := by rw [this]
        rw [this]
        refine le_trans ?_ h1
        rw [← e2]
        gcongr
        linarith
      exact le_of_mul_le_mul_right e3 hs
    · refine Real.le_sqrt_of_sq_le (le_trans ?_ h2)
      rw [← zpow_natCast, ← zpow_mul]
      exact Ieee.two_mono (by norm_num)
    · refine (Real.sqrt_le_left (Ieee.two_pos' _).le).mpr (h3.trans ?_)
      rw [← zpow_natCast, ← zpow_mul]
      exact Ieee.two_mono (by norm_num)

theorem fsqrt_real {x : ℝ} (h : 0 ≤ x) : fsqrt (real x) = some (ieee.r64 ((Real.sqrt x : ℝ) : EReal)) := by
  unfold fsqrt real
  simp only
  rw [if_neg (not_lt.mpr (by exact_mod_cast h)), if_neg (EReal.coe_ne_top x), EReal.toReal_coe]

/-- The norm in doubles meets its contract. -/
theorem fnorm_ok : NormOk fnorm where
  even v := by unfold fnorm; simp only [mul_neg_neg]
  near v hv := by
    obtain ⟨sx, bx⟩ := Rel.sq (hv v.x (by simp))
    obtain ⟨sy, by'⟩ := Rel.sq (hv v.y (by simp))
    obtain ⟨sz, bz⟩ := Rel.sq (hv v.z (by simp))
    obtain ⟨x, ex, rx⟩ := sx.round (by norm_num)
    obtain ⟨y, ey, ry⟩ := sy.round (by norm_num)
    obtain ⟨z, ez, rz⟩ := sz.round (by norm_num)
    have hb : (2 : ℝ) ^ (404 : ℤ) = 16 * 2 ^ (400 : ℤ) := by
      rw [show (404 : ℤ) = 4 + 400 by norm_num, Ieee.two_add]; norm_num
    have hp := Ieee.two_pos' (400 : ℤ)
    have hsum : v.y ^ 2 + v.z ^ 2 ≤ 2 ^ (404 : ℤ) ∧ v.x ^ 2 + (v.y ^ 2 + v.z ^ 2) ≤ 2 ^ (404 : ℤ) := by
      rw [hb]
      clear hb
      generalize (2 : ℝ) ^ (400 : ℤ) = q at *
      constructor <;> linarith
    obtain ⟨u, eu, ru⟩ := (ry.add rz hsum.1).round (by norm_num)
    obtain ⟨t, et, rt⟩ := ((rx.weaken (l := 0 + 2 + 2) (by norm_num)).add ru hsum.2).round (by norm_num)
    obtain ⟨n, en, rn⟩ := rt.sqrt.round (by norm_num)
    have eS : v.x ^ 2 + (v.y ^ 2 + v.z ^ 2) = v.x ^ 2 + v.y ^ 2 + v.z ^ 2 := by ring
    rw [eS] at rn
    refine ⟨n, ?_, ?_⟩
    · unfold fnorm
      simp only [mul_real]
      rw [ex, ey, ez]
      have e1 : add ieee (some (y : EReal)) (some (z : EReal)) = some (u : EReal) := by
        rw [← eu]; exact add_real ieee y z
      rw [e1]
      have e2 : add ieee (some (x : EReal)) (some (u : EReal)) = real t := by
        refine (add_real ieee x u).trans ?_
        rw [et]; rfl
      rw [e2, fsqrt_real rt.1, en]; rfl
    · refine rn.2.1.trans ?_
      have : 0 ≤ Real.sqrt (v.x ^ 2 + v.y ^ 2 + v.z ^ 2) := Real.sqrt_nonneg _
      norm_num
      linarith

/-! ## The statement that is false -/

theorem mul_zero_real (R : Rounding) (a : ℝ) : mul R (real a) (real 0) = real 0 := by
  rw [mul_real, mul_zero, EReal.coe_zero, r64_zero]; rfl

theorem zero_mul_real (R : Rounding) (a : ℝ) : mul R (real 0) (real a) = real 0 := by
  rw [mul_comm', mul_zero_real]

theorem rotate_identity (R : Rounding) {a b c : ℝ} (ha : IsDouble R (real a)) (hb : IsDouble R (real b))
    (hc : IsDouble R (real c)) :
    rotate R ⟨real 1, real 0, real 0, real 0⟩ ⟨real 1, real 0, real 0, real 0⟩ ⟨real a, real b, real c⟩ =
      ⟨real a, real b, real c⟩ := by
  have h0 : IsDouble R (real 0) := by intro x hx; cases hx; exact r64_zero R
  have hsub : ∀ x : ℝ, IsDouble R (real x) → sub R (real x) (real 0) = real x := by
    intro x hx
    rw [sub_real, sub_zero, hx _ rfl]; rfl
  have h1 : ∀ x : ℝ, IsDouble R (real x) → mul R (real 1) (real x) = real x := by
    intro x hx
    rw [mul_comm', mul_one_double R hx]
  have h2 : ∀ x : ℝ, IsDouble R (real x) → mul R (real x) (real 1) = real x := fun x hx => mul_one_double R hx
  have h3 : ∀ x : ℝ, IsDouble R (real x) → add R (real x) (real 0) = real x := fun x hx => add_zero_double R hx
  have h4 : ∀ x : ℝ, IsDouble R (real x) → add R (real 0) (real x) = real x := fun x hx => zero_add_double R hx
  unfold rotate Quat.mul
  simp only [mul_zero_real, zero_mul_real, h2 a ha, h2 b hb, h2 c hc, h4 a ha, h4 b hb, h4 c hc, h3 a ha, h3 b hb,
    h3 c hc, hsub a ha, hsub b hb, hsub c hc, h1 a ha, h1 b hb, h1 c hc, hsub 0 h0]

theorem ieee_int64 {n : ℕ} (hn : n < 2 ^ 53) : ieee.r64 (((n : ℕ) : ℝ) : EReal) = (((n : ℕ) : ℝ) : EReal) := by
  have h := Ieee.round_exact (F := Ieee.binary64) (n := n) (e := 0) hn (by decide) (by
    rw [zpow_zero, mul_one]
    have h1 : (n : ℝ) < 2 ^ (53 : ℤ) := by
      rw [show (53 : ℤ) = ((53 : ℕ) : ℤ) by norm_num, zpow_natCast]; exact_mod_cast hn
    exact h1.trans_le (Ieee.two_mono (by decide)))
  rw [zpow_zero, mul_one] at h
  exact h

theorem ieee_one32 : ieee.r32 ((1 : ℝ) : EReal) = ((1 : ℝ) : EReal) := by
  have h := Ieee.round_exact (F := Ieee.binary32) (n := 1) (e := 0) (by decide) (by decide) (by
    rw [zpow_zero, mul_one]
    have := Ieee.two_mono (show (1 : ℤ) ≤ Ieee.binary32.emax + 1 by decide)
    refine lt_of_lt_of_le ?_ this
    norm_num)
  rw [zpow_zero, mul_one, Nat.cast_one] at h
  exact h

theorem goodRes_ieee_one : GoodRes ieee 1 := ⟨one_pos, by simpa using ieee_int64 (n := 1) (by norm_num)⟩

/-- The identity rotation. -/
noncomputable def idRot : V3 FVal → V3 FVal :=
  rotate ieee ⟨real 1, real 0, real 0, real 0⟩ ⟨real 1, real 0, real 0, real 0⟩

/-- C109, the full statement is false: in a row of a free cell and a filled cell of an object, with the virtual
border, the paths leave the grid and the free cell is not segmented. -/
theorem C109_false : ¬ C109Statement := by
  classical
  intro hst
  have hd : SmallGrid (enlarge exSeg81.dims) := by unfold SmallGrid; decide
  have h1r : (1 : ℝ) / 2 ^ 100 ≤ 1 := by norm_num
  have h2r : (1 : ℝ) ≤ 2 ^ 100 := by norm_num
  obtain ⟨m', n, hup, hseg⟩ := hst 1 idRot fnorm exSeg81 1 goodRes_ieee_one h1r h2r
    (unturned_identity ieee) fnorm_ok rfl (by decide) hd
  have h0 : InBounds exSeg81.dims ⟨0, 0, 0⟩ := inB_iff_spec.mp (by decide)
  have hb1 : InBounds exSeg81.dims ⟨1, 0, 0⟩ := inB_iff_spec.mp (by decide)
  have h1 := hseg ⟨0, 0, 0⟩ h0 (by unfold FreeOrNamed; decide)
  obtain ⟨o, e, m'', n', near, ho, he, hup', _, _, _, hz, _⟩ :=
    C109_segmentation h1r h2r idRot fnorm_ok exSeg81 rfl (by decide) 1 true hd
  rw [hup] at hup'
  simp only [Option.some.injEq, Prod.mk.injEq] at hup'
  obtain ⟨rfl, rfl⟩ := hup'
  obtain ⟨f, hf, hclass⟩ : ∃ f : Idx → Bool, Answers exSeg81.grid.dims (TMap.objFill exSeg81 [] true) f ∧
      ∀ w, f w = true ↔ TObstacle exSeg81 true w :=
    ⟨_, TMap.objFill_answers exSeg81 [] true, fun w => by simp [Selected]⟩
  have ho' : extract ieee (1, 1, 1) exSeg81.grid.dims (TMap.objFill exSeg81 [] true) (some ⊤) true = some o := ho
  have h32 : 0 < ieee.r32 ((1 : ℝ) : EReal) := by rw [ieee_one32]; exact_mod_cast zero_lt_one
  have hv0 : o.sdf.get ⟨0, 0, 0⟩ = real 1 := by
    have hfree : f ⟨0, 0, 0⟩ = false := by
      rw [← Bool.not_eq_true, hclass]; unfold TObstacle; decide
    rw [C17_boundary goodRes_ieee_one h32 hd hf ho' h0 (.inl ⟨by decide, .inl rfl⟩), hfree, ieee_one32]
    rfl
  have hv1 : o.sdf.get ⟨1, 0, 0⟩ = real (-1) := by
    have hfill : f ⟨1, 0, 0⟩ = true := by
      rw [hclass]; unfold TObstacle; decide
    rw [C17_boundary goodRes_ieee_one h32 hd hf ho' hb1 (.inl ⟨by decide, .inr (by decide)⟩), hfill, ieee_one32]
    rfl
  obtain ⟨o2, ho2, hdim⟩ := TMap.segField_some (R := ieee) (res := 1) exSeg81 true hd
  rw [ho] at ho2
  simp only [Option.some.injEq] at ho2
  subst ho2
  have hdim' : (FSdf.mk o.sdf 1).grid.dims = ⟨2, 1, 1⟩ := hdim
  have e2 : ieee.r64 ((2 : ℝ) : EReal) = ((2 : ℝ) : EReal) := by
    simpa using ieee_int64 (n := 2) (by norm_num)
  have em2 : ieee.r64 ((-2 : ℝ) : EReal) = ((-2 : ℝ) : EReal) := by
    rw [EReal.coe_neg, ieee.odd64, e2]
  have hedge : (FSdf.mk o.sdf 1).edge ieee 1 ⟨1, 0, 0⟩ ⟨0, 0, 0⟩ = real (-2) := by
    rw [edge_one ieee _ goodRes_ieee_one]
    dsimp only
    have ed : div ieee (real 1) (real 1) = real 1 := by
      rw [div_real ieee 1 one_ne_zero, div_one]
      exact congrArg some goodRes_ieee_one.2
    have es : sub ieee (real (-1)) (real 1) = real (-2) := by
      rw [sub_real, show (-1 : ℝ) - 1 = -2 by norm_num, em2]; rfl
    rw [hv0, hv1, es, ed, mul_real, mul_one, em2]
    rfl
  have hgg : (FSdf.mk o.sdf 1).gridGrad ieee ⟨0, 0, 0⟩ true = [real (-2), real 0, real 0] := by
    unfold gridGrad
    have e1 : (FSdf.mk o.sdf 1).grid.dims.inB ⟨0, 0, 0⟩ = true := by rw [hdim']; decide
    have hdim2 : o.sdf.dims = ⟨2, 1, 1⟩ := hdim'
    simp only [e1, if_true]
    simp only [lt_self_iff_false, false_and, if_false, hdim2]
    have hx : (FSdf.mk o.sdf 1).edge ieee (min (((2 : ℕ) : Int) - 1) (0 + 1) - max 0 (0 - 1))
        ⟨min (((2 : ℕ) : Int) - 1) (0 + 1), 0, 0⟩ ⟨max 0 (0 - 1), 0, 0⟩ = real (-2) := hedge
    rw [hx]
    have hy := edge_zero ieee (FSdf.mk o.sdf 1) ⟨0, 0, 0⟩ ⟨0, 0, 0⟩
    have hy' : (FSdf.mk o.sdf 1).edge ieee (min (((1 : ℕ) : Int) - 1) (0 + 1) - max 0 (0 - 1))
        ⟨0, min (((1 : ℕ) : Int) - 1) (0 + 1), 0⟩ ⟨0, max 0 (0 - 1), 0⟩ = real 0 := hy
    have hz' : (FSdf.mk o.sdf 1).edge ieee (min (((1 : ℕ) : Int) - 1) (0 + 1) - max 0 (0 - 1))
        ⟨0, 0, min (((1 : ℕ) : Int) - 1) (0 + 1)⟩ ⟨0, 0, max 0 (0 - 1)⟩ = real 0 := hy
    rw [hy', hz']
  have hd0 : IsDouble ieee (real 0) := by intro x hx; cases hx; exact r64_zero ieee
  have hg : ((FSdf.mk o.sdf 1).gradField ieee idRot).grad ⟨0, 0, 0⟩ = [real (-2), real 0, real 0] := by
    show gradient _ _ _ _ _ = _
    unfold gradient
    rw [hgg]
    dsimp only
    unfold idRot
    rw [rotate_identity ieee (by intro x hx; cases hx; exact em2) hd0 hd0]
  obtain ⟨t, est, ht1, ht2⟩ : ∃ t : EReal, (FSdf.mk o.sdf 1).stepRes ieee = some t ∧ 0 ≤ t ∧ t ≤ 1 := by
    have hc : ieee.r64 ((49 / 800 : ℝ) : EReal) ≤ 1 := by
      have := ieee.mono64 (show ((49 / 800 : ℝ) : EReal) ≤ 1 by exact_mod_cast (by norm_num : (49 / 800 : ℝ) ≤ 1))
      rwa [ieee.one64] at this
    have hc0 : 0 ≤ ieee.r64 ((49 / 800 : ℝ) : EReal) :=
      r64_nonneg ieee (by exact_mod_cast (by norm_num : (0 : ℝ) ≤ 49 / 800))
    unfold stepRes
    dsimp only
    rw [mul_comm', mul_one_double ieee (isDouble_r64 ieee _)]
    exact ⟨_, rfl, hc0, hc⟩
  obtain ⟨e', he', _, hall⟩ := C109_extrema ieee idRot (FSdf.mk o.sdf 1)
  rw [hdim'] at he' hall
  have he2 : ((FSdf.mk o.sdf 1).gradField ieee idRot).extremaMap ⟨2, 1, 1⟩ = some e := he
  rw [he2] at he'
  simp only [Option.some.injEq] at he'
  subst he'
  have hoff : e.get ⟨0, 0, 0⟩ = .offGrid := by
    refine (hall ⟨0, 0, 0⟩ h0).2.2.1 ⟨-1, 0, 0⟩ ?_ ?_ (by simp [InBounds])
    · intro hflat
      have := hflat (real (-2)) (by rw [hg]; simp)
      have hle : le (fabs (real (-2))) ((FSdf.mk o.sdf 1).stepRes ieee) = true := this
      rw [est] at hle
      unfold fabs real le at hle
      simp only [Option.map_some, decide_eq_true_eq] at hle
      have h3 : (-((-2 : ℝ) : EReal)) ≤ 1 := (le_max_right _ _).trans (hle.trans ht2)
      rw [← EReal.coe_neg] at h3
      have : (-(-2) : ℝ) ≤ 1 := by exact_mod_cast h3
      norm_num at this
    · refine ⟨_, _, _, hg, ?_⟩
      have hneg : ((FSdf.mk o.sdf 1).gradField ieee idRot).neg ⟨0, 0, 0⟩ = false := by
        show lt (o.sdf.get ⟨0, 0, 0⟩) (real 0) = false
        rw [hv0]
        refine decide_eq_false ?_
        simp
      have s2 : unitStep ((FSdf.mk o.sdf 1).gradField ieee idRot) (real (-2)) = -1 := by
        have u1 : ((FSdf.mk o.sdf 1).gradField ieee idRot).up (real (-2)) = false := by
          show lt _ _ = false
          rw [est]
          refine decide_eq_false (not_lt.mpr (le_trans ?_ ht1))
          exact_mod_cast (by norm_num : (-2 : ℝ) ≤ 0)
        have u2 : ((FSdf.mk o.sdf 1).gradField ieee idRot).down (real (-2)) = true := by
          show lt _ (neg _) = true
          rw [est]
          refine decide_eq_true ?_
          have h4 : -(1 : EReal) ≤ -t := EReal.neg_le_neg_iff.mpr ht2
          refine lt_of_lt_of_le ?_ h4
          rw [← EReal.coe_one, ← EReal.coe_neg]
          exact EReal.coe_lt_coe_iff.mpr (by norm_num)
        unfold unitStep
        rw [u1, u2]; rfl
      have s0 : unitStep ((FSdf.mk o.sdf 1).gradField ieee idRot) (real 0) = 0 := by
        have u1 : ((FSdf.mk o.sdf 1).gradField ieee idRot).up (real 0) = false := by
          show lt _ _ = false
          rw [est]
          exact decide_eq_false (not_lt.mpr ht1)
        have u2 : ((FSdf.mk o.sdf 1).gradField ieee idRot).down (real 0) = false := by
          show lt _ (neg _) = false
          rw [est]
          refine decide_eq_false (not_lt.mpr ?_)
          show -t ≤ 0
          rw [← neg_zero, EReal.neg_le_neg_iff]; exact ht1
        unfold unitStep
        rw [u1, u2]; rfl
      simp only [hneg, Bool.false_eq_true, if_false, s2, s0]
      rfl
  have hzero := hz ⟨0, 0, 0⟩ h0 (by
    rintro ⟨_, t, ht⟩
    rw [hoff] at ht
    cases ht)
  rw [hzero] at h1
  simp at h1

/-- The hypotheses of the parts that hold are met by concrete maps. -/
example : GoodRes ieee 1 ∧ (1 : ℝ) / 2 ^ 100 ≤ 1 ∧ (1 : ℝ) ≤ 2 ^ 100 ∧ Unturned ieee idRot ∧ NormOk fnorm ∧
    exSeg81ok.grid.WF ∧ SmallGrid (enlarge exSeg81ok.dims) ∧ FreeOrNamed exSeg81ok ⟨0, 0, 0⟩ ∧
    (∀ i j, InBounds exSeg81ok.dims i → Inward exSeg81ok.dims i j →
      (TObstacle exSeg81ok true i ↔ TObstacle exSeg81ok true j)) := by
  refine ⟨goodRes_ieee_one, by norm_num, by norm_num, unturned_identity ieee, fnorm_ok, rfl,
    by unfold SmallGrid; decide, by unfold FreeOrNamed; decide, ?_⟩
  have hall : ∀ i ∈ exSeg81ok.dims.all,
      (i.x = 0 → (TObstacle exSeg81ok true i ↔ TObstacle exSeg81ok true ⟨1, i.y, i.z⟩)) ∧
      (i.x + 1 = 4 → (TObstacle exSeg81ok true i ↔ TObstacle exSeg81ok true ⟨i.x - 1, i.y, i.z⟩)) := by
    decide
  intro i j hi hij
  have := hall i (Dims.mem_all.mpr (inB_iff_spec.mpr hi))
  rcases hij with ⟨_, b, rfl⟩ | ⟨_, b, rfl⟩ | ⟨a, _⟩ | ⟨a, _⟩ | ⟨a, _⟩ | ⟨a, _⟩
  · exact this.1 b
  · exact this.2 b
  all_goals exact absurd a (by decide)

/-- A map of free cells meets the hypotheses of `C109_no_obstacle`. -/
example : SmallGrid exFree3.dims ∧ (∀ i, InBounds exFree3.dims i → ¬ TObstacle exFree3 true i) ∧
    0 < ieee.r32 ((1 : ℝ) : EReal) := by
  refine ⟨by unfold SmallGrid; decide, ?_, by rw [ieee_one32]; exact_mod_cast zero_lt_one⟩
  have hall : ∀ i ∈ exFree3.dims.all, ¬ TObstacle exFree3 true i := by decide
  exact fun i hi => hall i (Dims.mem_all.mpr (inB_iff_spec.mpr hi))

end FSdf

end Verif
