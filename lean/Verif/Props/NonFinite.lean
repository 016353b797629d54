import Verif.Props.AutoDiffFloat

/-!
# C114: locations that are NaN or infinite
-/

namespace Verif

open Spec SdfGen

namespace FSdf

open Fl

/-- A location with a coordinate that is NaN or infinite. -/
def Wild (p : V3 FVal) : Prop := NotFinite p.x ∨ NotFinite p.y ∨ NotFinite p.z

/-- A transform that leaves no finite coordinate once one coordinate is not finite. -/
def Spreads (f : V3 FVal → V3 FVal) : Prop :=
  ∀ p, Wild p → NotFinite (f p).x ∧ NotFinite (f p).y ∧ NotFinite (f p).z

/-- A lookup that puts NaN and infinities before the first cell. -/
def Rejects (cell : FVal → Int) : Prop := ∀ a, NotFinite a → cell a < 0

theorem add_comm' (R : Rounding) (a b : FVal) : add R a b = add R b a := by
  rcases a with _ | x <;> rcases b with _ | y <;> try rfl
  induction x <;> induction y <;> simp [add, add_comm]

theorem add_notFinite' (R : Rounding) (a : FVal) {b : FVal} (h : NotFinite b) : NotFinite (add R a b) := by
  rw [add_comm']; exact add_notFinite R h a

theorem mul_notFinite' (R : Rounding) {a : FVal} (h : NotFinite a) (b : FVal) : NotFinite (mul R a b) := by
  rw [mul_comm']; exact mul_notFinite R b h

/-- C114, products: the product of a transform with a location that has a NaN or infinite coordinate has no finite
coordinate. -/
theorem C114_product (R : Rounding) (A : Aff ℝ) : Spreads (affApp R A) := by
  have row : ∀ (r : V3 ℝ) (t : ℝ) (p : V3 FVal), Wild p → NotFinite (rowApp R r t p) := by
    intro r t p hp
    unfold rowApp
    refine add_notFinite R ?_ _
    rcases hp with h | h | h
    · exact add_notFinite R (add_notFinite R (mul_notFinite R _ h) _) _
    · exact add_notFinite R (add_notFinite' R _ (mul_notFinite R _ h)) _
    · exact add_notFinite' R _ (mul_notFinite R _ h)
  exact fun p hp => ⟨row _ _ p hp, row _ _ p hp, row _ _ p hp⟩

/-- C114, lookup: a coordinate that is NaN or infinite is in no cell. -/
theorem C114_lookup (R : Rounding) (res : ℝ) : Rejects (axisCell R res) := by
  intro a ha
  have h := mul_notFinite' R ha (div R (real 1) (real res))
  unfold axisCell
  rcases h with h | h | h <;> rw [h] <;> dsimp only
  · norm_num
  · rw [if_neg (by simp)]; norm_num
  · rw [if_neg (by
      rintro ⟨h, -⟩
      exact (EReal.bot_lt_coe _).not_ge h)]
    norm_num

theorem wild_outside {toGrid : V3 FVal → V3 FVal} (ht : Spreads toGrid) {cell : FVal → Int} (hc : Rejects cell)
    {p : V3 FVal} (hp : Wild p) (d : Dims) : d.inB (byAxis cell (toGrid p)) = false := by
  rw [Bool.eq_false_iff]
  intro h
  have := (inB_iff_spec.mp h).1.1
  exact absurd (hc _ (ht p hp).1) (by unfold byAxis at this; dsimp only at this; omega)

theorem fmin_wild (R : Rounding) {a : FVal} (ha : NotFinite a) (size : ℝ) :
    NotFinite (fmin a (sub R (real size) a)) ∧ le (real 0) (fmin a (sub R (real size) a)) = false := by
  rcases ha with rfl | rfl | rfl <;>
    simp [fmin, sub, add, neg, real, le, lt, NotFinite, R.top64, bot64]

/-- C114: at a location with a NaN or infinite coordinate `EstimateDistance` gives the out-of-bounds value flagged
invalid, both gradients are empty, and `DistanceToBoundary` reports outside and no finite distance. -/
theorem C114_queries (R : Rounding) {toGrid : V3 FVal → V3 FVal} (ht : Spreads toGrid) {cell : FVal → Int}
    (hc : Rejects cell) (s : FSdf) {p : V3 FVal} (hp : Wild p) :
    (∀ f, s.estimate R f (fun p => byAxis cell (toGrid p)) p = some (s.grid.oob, false)) ∧
    (∀ f w, s.smoothGradient R f (fun p => byAxis cell (toGrid p)) p w = some []) ∧
    (∀ f, s.autoDiffGradient R f (fun p => byAxis cell (toGrid p)) p = some []) ∧
    ∀ size, (distanceToBoundary R toGrid size p).2 = false ∧ NotFinite (distanceToBoundary R toGrid size p).1 := by
  have ho := wild_outside ht hc hp s.grid.dims
  refine ⟨fun f => ?_, fun f w => ?_, fun f => ?_, fun size => ?_⟩
  · unfold estimate; simp only [ho]; rfl
  · unfold smoothGradient; simp only [ho]; rfl
  · unfold autoDiffGradient; simp only [ho]; rfl
  · obtain ⟨hx, hy, hz⟩ := ht p hp
    obtain ⟨x1, x2⟩ := fmin_wild R hx size.x
    obtain ⟨y1, -⟩ := fmin_wild R hy size.y
    obtain ⟨z1, -⟩ := fmin_wild R hz size.z
    unfold distanceToBoundary
    dsimp only
    rw [x2]
    refine ⟨rfl, ?_⟩
    split_ifs <;> assumption

/-- An infinite x coordinate in a pose with a rotation, and a NaN. -/
example : Wild ⟨some ⊤, real 1, real 2⟩ ∧ Wild ⟨real 0, none, real 0⟩ ∧
    (FSdf.mk exFloatField (1 / 4)).estimate ieee (affApp ieee exInv)
      (fun p => byAxis (axisCell ieee (1 / 4)) (affApp ieee exInv p)) ⟨some ⊤, real 1, real 2⟩ =
        some (exFloatField.oob, false) := by
  have h : Wild ⟨some ⊤, real 1, real 2⟩ := by unfold Wild NotFinite; simp
  exact ⟨h, by unfold Wild NotFinite; simp,
    (C114_queries ieee (C114_product ieee exInv) (C114_lookup ieee (1 / 4)) _ h).1 _⟩

end FSdf

end Verif
