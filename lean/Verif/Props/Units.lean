import Verif.Props.ConvexSegments
import Verif.Props.FlatDistance

/-!
# C110: local extrema, convex segments and the unit of length

Distances and cell sizes may be given in any unit.  Gradients have no unit, but the path following compares them with
`resolution * 0.06125` (`src/sdf_tools/sdf.cpp:131, 156`).
-/

namespace Verif

open Spec SdfGen DField

/-! ## The specification -/

/-- `t` is the field `s` in a unit that is `c` times smaller. -/
def Rescaled {K : Type} [Field K] [LinearOrder K] (c : K) (s t : MSdf K) : Prop :=
  t.grid.dims = s.grid.dims ∧ t.res = c * s.res ∧
    (∀ i, InBounds s.grid.dims i → t.grid.get i = c * s.grid.get i) ∧ ∀ p, t.origin.lin p = s.origin.lin p

/-- Every cell is its own extremum. -/
def AllOwn (d : Dims) (e : Grid Extremum) : Prop := ∀ i, InBounds d i → e.get i = .center i

/-- The full statement for `UpdateConvexSegments`, in exact arithmetic: with the cell size and the threshold in another
unit the result is the same. -/
def C110Statement : Prop := ∀ (c res : ℝ) (origin inv : Aff ℝ) (m : TMap) (thr : ℝ) (border : Bool), 0 < c → 0 < res →
  m.grid.WF → m.dims.size < 2 ^ 32 → FieldFits m.dims border →
  m.updateConvex exactRounding (c * res) origin inv (c * thr) border =
    m.updateConvex exactRounding res origin inv thr border

/-! ## The path following depends only on the flat cells and the targets -/

namespace GradField

variable {V W : Type} {f : GradField V} {g : GradField W} {d : Dims}

/-- The two fields agree on which cells are flat and where a step leads. -/
def SameSteps (f : GradField V) (g : GradField W) (d : Dims) : Prop := ∀ i, InBounds d i →
  ∃ a b c a' b' c', f.grad i = [a, b, c] ∧ g.grad i = [a', b', c'] ∧ f.isFlat a b c = g.isFlat a' b' c' ∧
    f.next i a b c = g.next i a' b' c'

theorem walk_congr (h : SameSteps f g d) {m : Grid Extremum} (hm : m.dims = d) : ∀ (fuel : Nat) (path : List Idx)
    (cur : Idx) {a b c : V} {a' b' c' : W}, f.next cur a b c = g.next cur a' b' c' →
    f.walk m fuel path cur a b c = g.walk m fuel path cur a' b' c' := by
  intro fuel
  induction fuel with
  | zero => intros; rfl
  | succ fuel ih =>
    intro path cur a b c a' b' c' hn
    unfold walk
    simp only [hn]
    generalize g.next cur a' b' c' = nxt
    by_cases h1 : nxt ∈ path
    · rw [if_pos h1, if_pos h1]
    · rw [if_neg h1, if_neg h1]
      by_cases h2 : nxt.x < 0 ∨ nxt.y < 0 ∨ nxt.z < 0 ∨ nxt.x ≥ m.dims.nx ∨ nxt.y ≥ m.dims.ny ∨ nxt.z ≥ m.dims.nz
      · rw [if_pos h2, if_pos h2]
      · rw [if_neg h2, if_neg h2]
        have hin : InBounds d nxt := by
          rw [hm] at h2
          unfold InBounds
          omega
        obtain ⟨x, y, z, x', y', z', e1, e2, e3, e4⟩ := h nxt hin
        rw [e1, e2]
        dsimp only
        rw [e3, ih _ _ e4]

theorem follow_congr (h : SameSteps f g d) {m : Grid Extremum} (hm : m.dims = d) {i : Idx} (hi : InBounds d i) :
    f.follow m i = g.follow m i := by
  unfold follow
  obtain ⟨x, y, z, x', y', z', e1, e2, e3, e4⟩ := h i hi
  rw [e1, e2]
  dsimp only
  rw [e3, walk_congr h hm _ _ _ e4]

theorem follow_dims {m m' : Grid Extremum} {i : Idx} (h : f.follow m i = some m') : m'.dims = m.dims := by
  unfold follow at h
  by_cases h1 : m.get i ≠ .unset
  · rw [if_pos h1] at h; cases h; rfl
  · rw [if_neg h1] at h
    split at h
    · split at h
      · cases h; exact Grid.dims_set _ _ _
      · split at h
        · cases h; exact Grid.dims_setAll _ _ _
        · cases h
    · cases h

theorem fold_congr (h : SameSteps f g d) : ∀ (l : List Idx) (m : Grid Extremum), m.dims = d →
    (∀ i ∈ l, InBounds d i) → l.foldlM (fun m i => f.follow m i) m = l.foldlM (fun m i => g.follow m i) m := by
  intro l
  induction l with
  | nil => intros; rfl
  | cons a l ih =>
    intro m hm hl
    simp only [List.foldlM_cons]
    rw [follow_congr h hm (hl a (by simp))]
    cases hg : g.follow m a with
    | none => rfl
    | some m' => exact ih m' ((follow_dims hg).trans hm) fun i hi => hl i (by simp [hi])

theorem extremaMap_congr (h : SameSteps f g d) : f.extremaMap d = g.extremaMap d :=
  fold_congr h _ _ rfl fun _ hi => inB_iff_spec.mp (Dims.mem_all.mp hi)

end GradField

/-! ## Gradients have no unit -/

section Gradient

variable {K : Type} [Field K] [LinearOrder K] [IsStrictOrderedRing K]

theorem Rescaled.gridGrad {c : K} (hc : 0 < c) {s t : MSdf K} (h : Rescaled c s t) (i : Idx)
    (edges : Bool) : t.gridGrad i edges = s.gridGrad i edges := by
  obtain ⟨h1, h2, h3, _⟩ := h
  unfold MSdf.gridGrad
  simp only [h1, h2]
  by_cases hi : s.grid.dims.inB i = true
  swap
  · rw [if_neg hi, if_neg hi]
  have hb := inB_iff_spec.mp hi
  obtain ⟨⟨x0, x1⟩, ⟨y0, y1⟩, z0, z1⟩ := hb
  rw [if_pos hi, if_pos hi]
  have quot : ∀ a b r : K, (c * a - c * b) * (1 / (c * r)) = (a - b) * (1 / r) := by
    intro a b r
    rcases eq_or_ne r 0 with rfl | hr
    · simp
    · field_simp
  have g : ∀ x y z : Int, 0 ≤ x → x < s.grid.dims.nx → 0 ≤ y → y < s.grid.dims.ny → 0 ≤ z → z < s.grid.dims.nz →
      t.grid.get ⟨x, y, z⟩ = c * s.grid.get ⟨x, y, z⟩ := fun x y z p1 p2 p3 p4 p5 p6 => h3 _ ⟨⟨p1, p2⟩, ⟨p3, p4⟩, p5, p6⟩
  split
  · next hin =>
    obtain ⟨a1, a2, a3, a4, a5, a6⟩ := hin
    rw [g (i.x + 1) i.y i.z, g (i.x - 1) i.y i.z, g i.x (i.y + 1) i.z, g i.x (i.y - 1) i.z, g i.x i.y (i.z + 1),
      g i.x i.y (i.z - 1)] <;> try omega
    have e : 2 * (c * s.res) = c * (2 * s.res) := by ring
    rw [e, quot, quot, quot]
  · split
    · have axis : ∀ (n : Int) (a b : K), (if (n : K) * (c * s.res) > 0 then (c * a - c * b) * (1 / ((n : K) * (c * s.res)))
          else 0) = if (n : K) * s.res > 0 then (a - b) * (1 / ((n : K) * s.res)) else 0 := by
        intro n a b
        have e : (n : K) * (c * s.res) = c * ((n : K) * s.res) := by ring
        rw [e, quot]
        have : c * ((n : K) * s.res) > 0 ↔ (n : K) * s.res > 0 := by
          constructor
          · intro h; exact (mul_pos_iff_of_pos_left hc).mp h
          · intro h; exact mul_pos hc h
        simp only [this]
      rw [g _ i.y i.z, g (max 0 (i.x - 1)) i.y i.z, g i.x _ i.z, g i.x (max 0 (i.y - 1)) i.z, g i.x i.y _,
        g i.x i.y (max 0 (i.z - 1)), axis, axis, axis] <;> omega
    · rfl

/-- C110, gradients.  `GetGradient` of a field does not depend on the unit of length. -/
theorem C110_gradient {c : K} (hc : 0 < c) {s t : MSdf K} (h : Rescaled c s t) (i : Idx) (edges : Bool) :
    t.gradient i edges = s.gradient i edges := by
  unfold MSdf.gradient
  rw [h.gridGrad hc]
  split <;> simp only [h.2.2.2]

/-- C110, extrema, the part that holds: no gradient component lies between the two step sizes.  Missing: other fields,
for which the statement is false (`C110_false`, `C110_coarse`). -/
theorem C110_extrema_partial {c : K} (hc : 0 < c) {s t : MSdf K} (hr : 0 < s.res) (h : Rescaled c s t)
    (hgap : ∀ i, InBounds s.grid.dims i → ∀ g ∈ s.gradient i true,
      (|g| ≤ s.res * (49 / 800) ↔ |g| ≤ c * s.res * (49 / 800))) :
    t.gradField.extremaMap s.grid.dims = s.gradField.extremaMap s.grid.dims := by
  refine GradField.extremaMap_congr ?_
  intro i hi
  obtain ⟨a, b, z, e⟩ := GradField.list3 (C27_sdf s i hi)
  have e' : s.gradient i true = [a, b, z] := e
  have et : t.gradField.grad i = [a, b, z] := (C110_gradient hc h i true).trans e'
  refine ⟨a, b, z, a, b, z, et, e, ?_, ?_⟩
  · unfold GradField.isFlat
    have sm : ∀ g ∈ s.gradient i true, t.gradField.small g = s.gradField.small g := by
      intro g hg
      show decide (_ ≤ _) = decide (_ ≤ _)
      rw [h.2.1]
      exact decide_eq_decide.mpr (hgap i hi g hg).symm
    rw [e'] at sm
    rw [sm a (by simp), sm b (by simp), sm z (by simp)]
  · have hneg : t.gradField.neg i = s.gradField.neg i := by
      show decide (_ < _) = decide (_ < _)
      rw [h.2.2.1 i hi]
      refine decide_eq_decide.mpr ⟨fun h0 => ?_, fun h0 => mul_neg_of_pos_of_neg hc h0⟩
      by_contra h1
      exact absurd h0 (not_lt.mpr (mul_nonneg hc.le (not_lt.mp h1)))
    have abs_gap : ∀ {g u v : K}, 0 ≤ u → 0 ≤ v → (|g| ≤ u ↔ |g| ≤ v) → ((g > u ↔ g > v) ∧ (g < -u ↔ g < -v)) := by
      intro g u v hu hv hg
      rw [abs_le, abs_le] at hg
      constructor
      · constructor <;> intro h1 <;> by_contra h2
        · have := hg.mpr ⟨by linarith [not_lt.mp h2], not_lt.mp h2⟩
          linarith [this.2]
        · have := hg.mp ⟨by linarith [not_lt.mp h2], not_lt.mp h2⟩
          linarith [this.2]
      · constructor <;> intro h1 <;> by_contra h2
        · have := hg.mpr ⟨not_lt.mp h2, by linarith [not_lt.mp h2]⟩
          linarith [this.1]
        · have := hg.mp ⟨not_lt.mp h2, by linarith [not_lt.mp h2]⟩
          linarith [this.1]
    have hs0 : 0 ≤ s.res * (49 / 800) := by positivity
    have ht0 : 0 ≤ c * s.res * (49 / 800) := by positivity
    have comp_of : ∀ {g : K}, (|g| ≤ s.res * (49 / 800) ↔ |g| ≤ c * s.res * (49 / 800)) →
        t.gradField.comp g = s.gradField.comp g := by
      intro g hg
      have h1 := abs_gap hs0 ht0 hg
      have u1 : t.gradField.up g = s.gradField.up g := by
        show decide (_ > t.res * _) = decide _
        rw [h.2.1]; exact decide_eq_decide.mpr h1.1.symm
      have u2 : t.gradField.down g = s.gradField.down g := by
        show decide (_ < -(t.res * _)) = decide _
        rw [h.2.1]; exact decide_eq_decide.mpr h1.2.symm
      unfold GradField.comp
      rw [u1, u2]
    have cm : ∀ g ∈ s.gradient i true, t.gradField.comp g = s.gradField.comp g ∧
        t.gradField.comp (t.gradField.negate g) = s.gradField.comp (s.gradField.negate g) := by
      intro g hg
      refine ⟨comp_of (hgap i hi g hg), comp_of (g := g * -1) ?_⟩
      rw [mul_neg_one, abs_neg]; exact hgap i hi g hg
    rw [e'] at cm
    unfold GradField.next
    rw [hneg, (cm a (by simp)).1, (cm b (by simp)).1, (cm z (by simp)).1, (cm a (by simp)).2, (cm b (by simp)).2,
      (cm z (by simp)).2]

/-- Differences of neighbours bound the gradient. -/
theorem gridGrad_le {s : MSdf K} (hr : 0 < s.res) {L : K} (hL : 0 ≤ L)
    (hv : ∀ u v, InBounds s.grid.dims u → InBounds s.grid.dims v → FaceAdj u v → |s.grid.get u - s.grid.get v| ≤ L * s.res)
    {i : Idx} (hi : InBounds s.grid.dims i) {edges : Bool} : ∀ g ∈ s.gridGrad i edges, |g| ≤ L := by
  obtain ⟨⟨x0, x1⟩, ⟨y0, y1⟩, z0, z1⟩ := hi
  have line : ∀ (w : Int → Idx), (∀ k, InBounds s.grid.dims (w k) → InBounds s.grid.dims (w (k + 1)) →
      FaceAdj (w (k + 1)) (w k)) → ∀ a b : Int, (∀ k, a ≤ k → k ≤ b → InBounds s.grid.dims (w k)) → a ≤ b → b ≤ a + 2 →
      |s.grid.get (w b) - s.grid.get (w a)| ≤ L * ((b - a : Int) * s.res) := by
    intro w hw a b hin hab hba
    obtain rfl | rfl | rfl : b = a ∨ b = a + 1 ∨ b = a + 1 + 1 := by omega
    · simp
    · have := hv _ _ (hin (a + 1) (by omega) le_rfl) (hin a le_rfl (by omega))
        (hw a (hin a le_rfl (by omega)) (hin (a + 1) (by omega) le_rfl))
      simpa using this
    · have h1 := hv _ _ (hin (a + 1) (by omega) (by omega)) (hin a le_rfl (by omega))
        (hw a (hin a le_rfl (by omega)) (hin (a + 1) (by omega) (by omega)))
      have h2 := hv _ _ (hin (a + 1 + 1) (by omega) le_rfl) (hin (a + 1) (by omega) (by omega))
        (hw (a + 1) (hin (a + 1) (by omega) (by omega)) (hin (a + 1 + 1) (by omega) le_rfl))
      have e : ((a + 1 + 1 - a : Int) : K) = 2 := by push_cast; ring
      rw [e]
      have := abs_add_le (s.grid.get (w (a + 1 + 1)) - s.grid.get (w (a + 1)))
        (s.grid.get (w (a + 1)) - s.grid.get (w a))
      rw [sub_add_sub_cancel] at this
      linarith
  have wx : ∀ k, FaceAdj ⟨k + 1, i.y, i.z⟩ ⟨k, i.y, i.z⟩ := by intro k; simp [FaceAdj]
  have wy : ∀ k, FaceAdj ⟨i.x, k + 1, i.z⟩ ⟨i.x, k, i.z⟩ := by intro k; simp [FaceAdj]
  have wz : ∀ k, FaceAdj ⟨i.x, i.y, k + 1⟩ ⟨i.x, i.y, k⟩ := by intro k; simp [FaceAdj]
  have lx := fun (a b : Int) (h : ∀ k : Int, a ≤ k → k ≤ b → (0 : Int) ≤ k ∧ k < s.grid.dims.nx) => line (fun k => ⟨k, i.y, i.z⟩) (fun k _ _ => wx k) a b
    (fun k h1 h2 => (⟨h k h1 h2, ⟨y0, y1⟩, z0, z1⟩ : InBounds s.grid.dims ⟨k, i.y, i.z⟩))
  have ly := fun (a b : Int) (h : ∀ k : Int, a ≤ k → k ≤ b → (0 : Int) ≤ k ∧ k < s.grid.dims.ny) => line (fun k => ⟨i.x, k, i.z⟩) (fun k _ _ => wy k) a b
    (fun k h1 h2 => (⟨⟨x0, x1⟩, h k h1 h2, z0, z1⟩ : InBounds s.grid.dims ⟨i.x, k, i.z⟩))
  have lz := fun (a b : Int) (h : ∀ k : Int, a ≤ k → k ≤ b → (0 : Int) ≤ k ∧ k < s.grid.dims.nz) => line (fun k => ⟨i.x, i.y, k⟩) (fun k _ _ => wz k) a b
    (fun k h1 h2 => (⟨⟨x0, x1⟩, ⟨y0, y1⟩, h k h1 h2⟩ : InBounds s.grid.dims ⟨i.x, i.y, k⟩))
  have div_le : ∀ {x y : K}, |x| ≤ L * y → |if y > 0 then x * (1 / y) else 0| ≤ L := by
    intro x y h
    split
    · next hy =>
      rw [abs_mul, abs_of_pos (one_div_pos.mpr hy), mul_one_div, div_le_iff₀ hy]; exact h
    · simpa using hL
  unfold MSdf.gridGrad
  dsimp only
  by_cases hb : s.grid.dims.inB i = true
  swap
  · rw [if_neg hb]; simp
  rw [if_pos hb]
  split
  · next hin =>
    obtain ⟨a1, a2, a3, a4, a5, a6⟩ := hin
    have inner : ∀ {x : K}, |x| ≤ L * (2 * s.res) → |x * (1 / (2 * s.res))| ≤ L := by
      intro x h
      rw [abs_mul, abs_of_pos (by positivity : 0 < 1 / (2 * s.res)), mul_one_div, div_le_iff₀ (by positivity)]
      exact h
    have two : ∀ k : Int, (((k + 1) - (k - 1) : Int) : K) = 2 := by intro k; push_cast; ring
    intro g hg
    simp only [List.mem_cons, List.not_mem_nil, or_false] at hg
    rcases hg with rfl | rfl | rfl
    · have := lx (i.x - 1) (i.x + 1) (by intros; omega) (by omega) (by omega)
      rw [two] at this; exact inner this
    · have := ly (i.y - 1) (i.y + 1) (by intros; omega) (by omega) (by omega)
      rw [two] at this; exact inner this
    · have := lz (i.z - 1) (i.z + 1) (by intros; omega) (by omega) (by omega)
      rw [two] at this; exact inner this
  · split
    · intro g hg
      simp only [List.mem_cons, List.not_mem_nil, or_false] at hg
      rcases hg with rfl | rfl | rfl
      · exact div_le (lx (max 0 (i.x - 1)) (min ((s.grid.dims.nx : Int) - 1) (i.x + 1)) (by intros; omega) (by omega) (by omega))
      · exact div_le (ly (max 0 (i.y - 1)) (min ((s.grid.dims.ny : Int) - 1) (i.y + 1)) (by intros; omega) (by omega) (by omega))
      · exact div_le (lz (max 0 (i.z - 1)) (min ((s.grid.dims.nz : Int) - 1) (i.z + 1)) (by intros; omega) (by omega) (by omega))
    · simp

end Gradient

/-! ## Extraction in another unit -/

namespace SdfGen

/-- Multiplication of a stored value. -/
noncomputable def mulF (c : ℝ) (v : FVal) : FVal := v.map fun x => (c : EReal) * x

theorem coe_mul_assoc (c r : ℝ) (x : EReal) : x * ((c * r : ℝ) : EReal) = (c : EReal) * (x * (r : EReal)) := by
  rw [EReal.coe_mul, ← mul_assoc, mul_comm x (c : EReal), mul_assoc]

theorem scaled_unit (c res : ℝ) (n : Option Nat) :
    scaled exactRounding (c * res) n = (c : EReal) * scaled exactRounding res n := by
  show sqrtE n * ((c * res : ℝ) : EReal) = (c : EReal) * (sqrtE n * (res : EReal))
  exact coe_mul_assoc c res _

theorem exactVal_unit (c res : ℝ) (a b : St) (f : Idx → Bool) (v : Idx) :
    exactVal exactRounding (c * res) a b f v = (c : EReal) * exactVal exactRounding res a b f v := by
  unfold exactVal
  rw [scaled_unit, scaled_unit]
  split
  · rw [mul_neg]
  · rfl

theorem BaseSpec.unit {c res : ℝ} {d : Dims} {f : Idx → Bool} {oob : FVal} {o o' : Out} {a b a' b' : St}
    (h : BaseSpec exactRounding res d f oob o a b) (h' : BaseSpec exactRounding (c * res) d f oob o' a' b') {v : Idx}
    (hv : InBounds d v) : o'.sdf.get v = mulF c (o.sdf.get v) := by
  have ea : a' = a := by have := h'.ha.symm.trans h.ha; simpa using this
  have eb : b' = b := by have := h'.hb.symm.trans h.hb; simpa using this
  subst ea eb
  rw [h'.val v hv, h.val v hv]
  show some (exactVal exactRounding (c * res) _ _ f v) = some ((c : EReal) * exactVal exactRounding res _ _ f v)
  rw [exactVal_unit]

theorem mul_nonneg_coe {c : ℝ} (hc : 0 < c) (x : EReal) : 0 ≤ (c : EReal) * x ↔ 0 ≤ x := by
  have hc' : (0 : EReal) < c := by exact_mod_cast hc
  constructor
  · intro h
    by_contra hx
    have := EReal.mul_neg_iff.mpr (Or.inl ⟨hc', not_le.mp hx⟩)
    exact absurd h (not_le.mpr this)
  · exact fun h => mul_nonneg hc'.le h

theorem mul_nonpos_coe {c : ℝ} (hc : 0 < c) (x : EReal) : (c : EReal) * x ≤ 0 ↔ x ≤ 0 := by
  have hc' : (0 : EReal) < c := by exact_mod_cast hc
  constructor
  · intro h
    by_contra hx
    have := EReal.mul_pos_iff.mpr (Or.inl ⟨hc', not_le.mp hx⟩)
    exact absurd h (not_le.mpr this)
  · intro h
    have := mul_nonneg hc'.le (show 0 ≤ -x by rw [← neg_zero]; exact EReal.neg_le_neg_iff.mpr h)
    rw [mul_neg] at this
    rw [← neg_zero] at this
    exact EReal.neg_le_neg_iff.mp this

theorem combine_unit {c : ℝ} (hc : 0 < c) (a b : FVal) : combine (mulF c a) (mulF c b) = mulF c (combine a b) := by
  have hg : ∀ v, geZero (mulF c v) = geZero v := by
    intro v
    cases v with
    | none => rfl
    | some x =>
      unfold mulF geZero
      exact decide_eq_decide.mpr (mul_nonneg_coe hc x)
  have hl : ∀ v, leZero (mulF c v) = leZero v := by
    intro v
    cases v with
    | none => rfl
    | some x =>
      unfold mulF leZero
      exact decide_eq_decide.mpr (mul_nonpos_coe hc x)
  unfold combine
  rw [hg, hl]
  split
  · rfl
  · split
    · rfl
    · simp [mulF]

end SdfGen

namespace TMap

theorem realOf_mulF (c : ℝ) (v : FVal) : realOf (mulF c v) = c * realOf v := by
  unfold realOf mulF
  cases v with
  | none => simp
  | some x => simp [EReal.toReal_mul]

/-- C110, extraction.  In exact arithmetic the field of the segmentation is the same field in another unit. -/
theorem C110_extraction {c res : ℝ} (hc : 0 < c) (m : TMap) (border : Bool) (hd : FieldFits m.dims border)
    (origin inv : Aff ℝ) : ∃ o o', m.segField exactRounding res border = some o ∧
      m.segField exactRounding (c * res) border = some o' ∧ o.sdf.dims = m.dims ∧
      Rescaled c (asMSdf res origin inv o.sdf) (asMSdf (c * res) origin inv o'.sdf) := by
  suffices h : ∃ o o', m.segField exactRounding res border = some o ∧
      m.segField exactRounding (c * res) border = some o' ∧ o.sdf.dims = m.dims ∧ o'.sdf.dims = m.dims ∧
      ∀ v, InBounds m.dims v → o'.sdf.get v = mulF c (o.sdf.get v) by
    obtain ⟨o, o', h1, h2, h3, h4, h5⟩ := h
    refine ⟨o, o', h1, h2, h3, h4.trans h3.symm, rfl, ?_, fun _ => rfl⟩
    intro i hi
    rw [asMSdf_get, asMSdf_get, h5 i (by rw [← h3]; exact hi), realOf_mulF]
  cases border with
  | false =>
    obtain ⟨o, fr, ob, a, b, a', b', h, s1, s2, _, _, hdim, hval⟩ :=
      freeNamed_spec (R := exactRounding) res m hd (some ⊤) true
    obtain ⟨o', fr', ob', p, q, p', q', h', s1', s2', _, _, hdim', hval'⟩ :=
      freeNamed_spec (R := exactRounding) (c * res) m hd (some ⊤) true
    refine ⟨o, o', h, h', hdim, hdim', fun v hv => ?_⟩
    rw [hval v hv, hval' v hv, s1.unit s1' hv, s2.unit s2' hv, combine_unit hc]
  | true =>
    have hf := objFill_answers m [] true
    obtain ⟨o, fr, ob, a, b, a', b', h, s1, s2, _, hdim, _, _, _, hval⟩ :=
      border_spec hd hf exactRounding res (some ⊤)
    obtain ⟨o', fr', ob', p, q, p', q', h', s1', s2', _, hdim', _, _, _, hval'⟩ :=
      border_spec hd hf exactRounding (c * res) (some ⊤)
    refine ⟨o, o', h, h', hdim, hdim', fun v hv => ?_⟩
    have hin := (real_not_border hv).2
    rw [hval v hv, hval' v hv, s1.unit s1' hin, s2.unit s2' hin, combine_unit hc]

end TMap

/-- C110, segments, the part that holds: no gradient component lies between the two step sizes.  Missing: other maps,
for which the statement is false (`C110_false`). -/
theorem C110_segments_partial {c res : ℝ} (hc : 0 < c) (hres : 0 < res) (origin inv : Aff ℝ) (m : TMap) (thr : ℝ)
    (border : Bool) (hd : FieldFits m.dims border)
    (hgap : ∀ o, m.segField exactRounding res border = some o → ∀ i, InBounds m.dims i →
      ∀ g ∈ (TMap.asMSdf res origin inv o.sdf).gradient i true,
        (|g| ≤ res * (49 / 800) ↔ |g| ≤ c * res * (49 / 800))) :
    m.updateConvex exactRounding (c * res) origin inv (c * thr) border =
      m.updateConvex exactRounding res origin inv thr border := by
  obtain ⟨o, o', h1, h2, h3, h4⟩ := TMap.C110_extraction (res := res) hc m border hd origin inv
  have hdim : (TMap.asMSdf res origin inv o.sdf).grid.dims = m.dims := h3
  have hdim' : (TMap.asMSdf (c * res) origin inv o'.sdf).grid.dims = m.dims := h4.1.trans hdim
  have he := C110_extrema_partial hc (s := TMap.asMSdf res origin inv o.sdf) hres h4 (by
    rw [hdim]; exact hgap o h1)
  unfold TMap.updateConvex
  rw [h1, h2]
  dsimp only
  rw [hdim] at he
  rw [hdim, hdim', he]
  split
  · rfl
  · next e _ =>
    congr 1
    unfold TMap.segDataOf
    congr 1
    funext i j
    rw [Bool.eq_iff_iff, TMap.extremaClose_iff (s := TMap.asMSdf (c * res) origin inv o'.sdf) (mul_pos hc hres),
      TMap.extremaClose_iff (s := TMap.asMSdf res origin inv o.sdf) hres]
    unfold ExtremaWithin
    show (∃ _ _, _ ∧ _ ∧ _ * (c * res) < c * thr) ↔ ∃ _ _, _ ∧ _ ∧ _ * res < thr
    have key : ∀ x : ℝ, x * (c * res) < c * thr ↔ x * res < thr := by
      intro x
      rw [show x * (c * res) = c * (x * res) by ring]
      exact mul_lt_mul_iff_right₀ hc
    simp only [key]

/-! ## Large numbers -/

theorem own_of_flat {s : MSdf ℝ} (hall : ∀ i, InBounds s.grid.dims i → FlatAt s.gradField i) :
    ∃ e, s.gradField.extremaMap s.grid.dims = some e ∧ AllOwn s.grid.dims e := by
  obtain ⟨e, h1, _, h2⟩ := C27_extrema_map s.gradField s.grid.dims (C27_sdf s)
  exact ⟨e, h1, fun i hi => (h2 i hi).2.1 (hall i hi)⟩

/-- Fields with moderate slopes and large cell sizes have no steps. -/
theorem flat_of_large {s : MSdf ℝ} (hrot : ∀ p, s.origin.lin p = p) (hlarge : 33 ≤ s.res)
    (hv : ∀ u v, InBounds s.grid.dims u → InBounds s.grid.dims v → FaceAdj u v →
      |s.grid.get u - s.grid.get v| ≤ 2 * s.res) {i : Idx} (hi : InBounds s.grid.dims i) : FlatAt s.gradField i := by
  have hb := gridGrad_le (s := s) (by linarith) (by norm_num : (0 : ℝ) ≤ 2) hv hi (edges := true)
  have hg : s.gradient i true = s.gridGrad i true := by
    obtain ⟨gx, gy, gz, e, _⟩ := MSdf.gridGrad_faces s (by linarith : 0 < s.res) hi
    unfold MSdf.gradient
    rw [e]
    dsimp only
    rw [hrot]
  intro g hgm
  have hgm : g ∈ s.gradient i true := hgm
  rw [hg] at hgm
  have := hb g hgm
  show decide (|g| ≤ s.res * (49 / 800)) = true
  rw [decide_eq_true_eq]
  linarith

/-- C110, large numbers (exact arithmetic).  On a flat grid with cells of both classes, in a grid that is not rotated,
every cell is its own extremum as soon as the cell size is a number of at least 33, whatever the obstacles are. -/
theorem C110_coarse {res : ℝ} (hlarge : 33 ≤ res) {d : Dims} (hd : SmallGrid d) (hflat : Flat d)
    {fill : Idx → Option Bool} {f : Idx → Bool} (hf : Answers d fill f) {oob : FVal} {o : Out}
    (ho : extract exactRounding (res, res, res) d fill oob false = some o) {p q : Idx} (hp : InBounds d p)
    (hq : InBounds d q) (hpf : f p = true) (hqf : f q = false) {origin : Aff ℝ} (hrot : Unrotated origin)
    (inv : Aff ℝ) :
    ∃ e, (TMap.asMSdf res origin inv o.sdf).gradField.extremaMap d = some e ∧ AllOwn d e := by
  have hdim : (TMap.asMSdf res origin inv o.sdf).grid.dims = d := by
    obtain ⟨o', a, b, ho', hs⟩ := base_spec hd hf exactRounding res oob
    rw [extract_false, ho'] at ho
    rw [← Option.some.inj ho]
    exact hs.dims
  have hpos : 0 < res := by linarith
  have := own_of_flat (s := TMap.asMSdf res origin inv o.sdf) (fun i hi => flat_of_large (s := TMap.asMSdf res origin inv o.sdf) hrot hlarge ?_ hi)
  · rwa [hdim] at this
  · intro u v hu hv hadj
    rw [hdim] at hu hv
    obtain ⟨w, hw, hop⟩ : ∃ w, InBounds d w ∧ f w ≠ f u := by
      cases hfu : f u with
      | true => exact ⟨q, hq, by rw [hqf]; simp⟩
      | false => exact ⟨p, hp, by rw [hpf]; simp⟩
    obtain ⟨x, y, hx, hy, h1, h2, h3⟩ := C85_signed_neighbours hpos hd hflat hf ho hu hv hadj hw hop
    rw [TMap.asMSdf_get, TMap.asMSdf_get, hx, hy]
    have ex : TMap.realOf (some (x : EReal)) = x := by simp [TMap.realOf]
    have ey : TMap.realOf (some (y : EReal)) = y := by simp [TMap.realOf]
    rw [ex, ey]
    show |x - y| ≤ 2 * res
    cases hfu : f u <;> cases hfv : f v
    · have := h1 (by rw [hfu, hfv]); linarith
    · obtain ⟨rfl, rfl⟩ := h2 hfu hfv
      rw [abs_of_nonneg (by linarith)]; linarith
    · obtain ⟨rfl, rfl⟩ := h3 hfu hfv
      rw [abs_of_nonpos (by linarith)]; linarith
    · have := h1 (by rw [hfu, hfv]); linarith

/-- C110 is false: a free cell beside a cell of an object gets no segment with a cell size of 1, and gets one with a
cell size of 64. -/
theorem C110_false : ¬ C110Statement := by
  intro hst
  have hd : SmallGrid (enlarge exSeg81.dims) := by unfold SmallGrid; decide
  have h0 : InBounds exSeg81.dims ⟨0, 0, 0⟩ := inB_iff_spec.mp (by decide)
  have hsame := hst 64 1 idAff idAff exSeg81 1 true (by norm_num) one_pos rfl (by decide) hd
  obtain ⟨o, o', h1, h2, h3, h4⟩ := TMap.C110_extraction (c := 64) (res := 1) (by norm_num) exSeg81 true hd idAff idAff
  obtain ⟨hv0, hv1⟩ := exSeg81_values h1
  obtain ⟨o2, e, m', n, ho2, he, hup, _, hlab, _⟩ := C83_segmentation (R := exactRounding) (res := 64 * 1) (by norm_num)
    idAff idAff exSeg81 rfl (by decide) (64 * 1) true hd
  rw [h2] at ho2
  obtain rfl := Option.some.inj ho2
  rw [hup] at hsame
  have hz := exSeg81_unsegmented hsame.symm
  have hdim : (TMap.asMSdf 1 idAff idAff o.sdf).grid.dims = ⟨2, 1, 1⟩ := h3
  have hdim' : (TMap.asMSdf (64 * 1) idAff idAff o'.sdf).grid.dims = ⟨2, 1, 1⟩ := h4.1.trans hdim
  obtain ⟨e', he', hown⟩ := own_of_flat (s := TMap.asMSdf (64 * 1) idAff idAff o'.sdf) (fun i hi =>
    flat_of_large (s := TMap.asMSdf (64 * 1) idAff idAff o'.sdf) idAff_unrotated
      (show (33 : ℝ) ≤ 64 * 1 by norm_num) (by
        intro u v hu hv hadj
        have hval : ∀ w, InBounds ⟨2, 1, 1⟩ w → |(TMap.asMSdf (64 * 1) idAff idAff o'.sdf).grid.get w| ≤ 64 := by
          intro w hw
          rw [h4.2.2.1 w (by rw [hdim]; exact hw), TMap.asMSdf_get]
          have : w = ⟨0, 0, 0⟩ ∨ w = ⟨1, 0, 0⟩ := by
            obtain ⟨⟨a, b⟩, ⟨c, d⟩, f, g⟩ := hw
            cases w
            simp only [Idx.mk.injEq] at *
            omega
          rcases this with rfl | rfl
          · rw [hv0]; norm_num
          · rw [hv1]; norm_num
        have b1 := abs_le.mp (hval u (hdim' ▸ hu))
        have b2 := abs_le.mp (hval v (hdim' ▸ hv))
        rw [abs_le]
        have hr : (TMap.asMSdf (64 * 1) idAff idAff o'.sdf).res = 64 := by show (64 : ℝ) * 1 = 64; norm_num
        rw [hr]
        constructor <;> linarith [b1.1, b1.2, b2.1, b2.2]) hi)
  rw [hdim'] at he' hown
  have he2 : (TMap.asMSdf (64 * 1) idAff idAff o'.sdf).gradField.extremaMap ⟨2, 1, 1⟩ = some e := he
  rw [he2] at he'
  obtain rfl := Option.some.inj he'
  have := (hlab.range ⟨0, 0, 0⟩ ⟨h0, by unfold FreeOrNamed; decide, _, hown _ h0⟩).1
  rw [hz] at this
  simp at this

/-- The hypotheses of the parts that hold are met: a free cell beside a cell of an object, cell sizes 1 and 2. -/
example : FieldFits exSeg81.dims true ∧ (0 : ℝ) < 2 ∧ ∀ o, exSeg81.segField exactRounding 1 true = some o →
    ∀ i, InBounds exSeg81.dims i → ∀ g ∈ (TMap.asMSdf 1 idAff idAff o.sdf).gradient i true,
      (|g| ≤ 1 * (49 / 800) ↔ |g| ≤ 2 * 1 * (49 / 800)) := by
  refine ⟨by show SmallGrid _; unfold SmallGrid; decide, two_pos, ?_⟩
  intro o ho i hi g hg
  obtain ⟨hv0, hv1⟩ := exSeg81_values ho
  have hdim : (TMap.asMSdf 1 idAff idAff o.sdf).grid.dims = ⟨2, 1, 1⟩ := by
    have hd : SmallGrid (enlarge exSeg81.dims) := by unfold SmallGrid; decide
    obtain ⟨o2, ho2, hdim⟩ := TMap.segField_some (R := exactRounding) (res := 1) exSeg81 true hd
    rw [ho] at ho2
    obtain rfl := Option.some.inj ho2
    exact hdim
  have hgg : (TMap.asMSdf 1 idAff idAff o.sdf).gradient i true = [-2, 0, 0] := by
    have h2 : (TMap.asMSdf 1 idAff idAff o.sdf).gridGrad i true = [-2, 0, 0] := by
      have : i = ⟨0, 0, 0⟩ ∨ i = ⟨1, 0, 0⟩ := by
        obtain ⟨⟨a, b⟩, ⟨c, d⟩, f, g⟩ := (show InBounds ⟨2, 1, 1⟩ i from hi)
        cases i
        simp only [Idx.mk.injEq] at *
        omega
      rcases this with rfl | rfl <;>
      · unfold MSdf.gridGrad
        simp only [hdim, TMap.asMSdf_get]
        norm_num [TMap.asMSdf, Dims.inB, hv0, hv1]
    unfold MSdf.gradient
    rw [h2]
    have : (TMap.asMSdf 1 idAff idAff o.sdf).origin.lin ⟨-2, 0, 0⟩ = ⟨-2, 0, 0⟩ := idAff_unrotated _
    simp only [this]
  rw [hgg] at hg
  simp only [List.mem_cons, List.not_mem_nil, or_false] at hg
  rcases hg with rfl | rfl | rfl <;> norm_num

/-- The hypotheses of `C110_coarse` are met by a row of a filled and two free cells. -/
example : ∃ (d : Dims) (f : Idx → Bool) (p q : Idx), SmallGrid d ∧ Flat d ∧ Answers d (fun i => some (f i)) f ∧
    InBounds d p ∧ InBounds d q ∧ f p = true ∧ f q = false ∧ Unrotated idAff :=
  ⟨⟨3, 1, 1⟩, fun i => decide (i.x = 0), ⟨0, 0, 0⟩, ⟨1, 0, 0⟩, by unfold SmallGrid; decide, .inr (.inl rfl),
    fun _ _ => rfl, inB_iff_spec.mp (by decide), inB_iff_spec.mp (by decide), rfl, rfl, idAff_unrotated⟩

end Verif
