import Verif.SdfDisplay
import Verif.Spec.Basic
import Verif.Props.Interp
import Mathlib.Tactic.FieldSimp

/-!
# Properties of the SDF display exports (C46, C56)
-/

namespace Verif

open Spec

variable {K : Type} [Field K] [LinearOrder K] [IsStrictOrderedRing K]

namespace Spec

/-- `M` is the largest stored value. -/
def IsLargest (s : MSdf K) (M : K) : Prop :=
  (∃ i, InBounds s.grid.dims i ∧ s.grid.get i = M) ∧ ∀ i, InBounds s.grid.dims i → s.grid.get i ≤ M

/-- `m` is the smallest stored value. -/
def IsSmallest (s : MSdf K) (m : K) : Prop :=
  (∃ i, InBounds s.grid.dims i ∧ s.grid.get i = m) ∧ ∀ i, InBounds s.grid.dims i → m ≤ s.grid.get i

/-- A channel value a display accepts. -/
def InUnit (x : K) : Prop := 0 ≤ x ∧ x ≤ 1

/-- The documented colour of a value `d` in a field: green for positive values, brightest at the
largest; red for negative values, brightest at the smallest; blue for zero. -/
def ShownAs (s : MSdf K) (d : K) (c : Rgba K) : Prop :=
  (0 < d ∧ c.r = 0 ∧ c.b = 0 ∧ ∃ M, IsLargest s M ∧ 0 < M ∧ c.g = 1 / 5 + 4 / 5 * (d / M)) ∨
  (d < 0 ∧ c.g = 0 ∧ c.b = 0 ∧ ∃ m, IsSmallest s m ∧ m < 0 ∧ c.r = 1 / 5 + 4 / 5 * (d / m)) ∨
  (d = 0 ∧ c.r = 0 ∧ c.g = 0 ∧ c.b = 1)

end Spec

namespace MSdf

theorem foldl_push {α β : Type} (f : α → β) (l : List α) (acc : List β) :
    l.foldl (fun a i => a ++ [f i]) acc = acc ++ l.map f := by
  induction l generalizing acc with
  | nil => simp
  | cons a l ih => simp [ih]

theorem foldl_push_if {α β : Type} (f : α → β) (p : α → Prop) [DecidablePred p] (l : List α)
    (acc : List β) :
    l.foldl (fun a i => if p i then a ++ [f i] else a) acc =
      acc ++ (l.filter (fun i => decide (p i))).map f := by
  induction l generalizing acc with
  | nil => simp
  | cons a l ih =>
    by_cases h : p a <;> simp [ih, h]

theorem foldl_max (f : Idx → K) (l : List Idx) (m0 : K) :
    let M := l.foldl (fun m i => if f i > m then f i else m) m0
    m0 ≤ M ∧ (∀ i ∈ l, f i ≤ M) ∧ (M = m0 ∨ ∃ i ∈ l, f i = M) := by
  induction l generalizing m0 with
  | nil => simp
  | cons a l ih =>
    dsimp only [List.foldl_cons]
    obtain ⟨h1, h2, h3⟩ := ih (if f a > m0 then f a else m0)
    refine ⟨le_trans (by split <;> rename_i h; exact h.le; exact le_rfl) h1, ?_, ?_⟩
    · intro i hi
      rcases List.mem_cons.mp hi with rfl | hi
      · exact le_trans (by split <;> rename_i h; exact le_rfl; exact not_lt.mp h) h1
      · exact h2 i hi
    · rcases h3 with h3 | ⟨i, hi, h3⟩
      · by_cases h : f a > m0
        · right; refine ⟨a, List.mem_cons_self, ?_⟩; rw [h3, if_pos h]
        · left; rw [h3, if_neg h]
      · right; exact ⟨i, List.mem_cons_of_mem _ hi, h3⟩

theorem foldl_min (f : Idx → K) (l : List Idx) (m0 : K) :
    let M := l.foldl (fun m i => if f i < m then f i else m) m0
    M ≤ m0 ∧ (∀ i ∈ l, M ≤ f i) ∧ (M = m0 ∨ ∃ i ∈ l, f i = M) := by
  induction l generalizing m0 with
  | nil => simp
  | cons a l ih =>
    dsimp only [List.foldl_cons]
    obtain ⟨h1, h2, h3⟩ := ih (if f a < m0 then f a else m0)
    refine ⟨le_trans h1 (by split <;> rename_i h; exact h.le; exact le_rfl), ?_, ?_⟩
    · intro i hi
      rcases List.mem_cons.mp hi with rfl | hi
      · exact le_trans h1 (by split <;> rename_i h; exact le_rfl; exact not_lt.mp h)
      · exact h2 i hi
    · rcases h3 with h3 | ⟨i, hi, h3⟩
      · by_cases h : f a < m0
        · right; refine ⟨a, List.mem_cons_self, ?_⟩; rw [h3, if_pos h]
        · left; rw [h3, if_neg h]
      · right; exact ⟨i, List.mem_cons_of_mem _ hi, h3⟩

theorem max_spec (s : MSdf K) {i : Idx} (hi : InBounds s.grid.dims i) (hp : 0 < s.grid.get i) :
    IsLargest s s.maxDistance ∧ 0 < s.maxDistance := by
  obtain ⟨h1, h2, h3⟩ := foldl_max s.grid.get s.grid.dims.all 0
  change 0 ≤ s.maxDistance at h1
  change ∀ i ∈ _, s.grid.get i ≤ s.maxDistance at h2
  change s.maxDistance = 0 ∨ ∃ i ∈ _, s.grid.get i = s.maxDistance at h3
  have hall : ∀ j, InBounds s.grid.dims j → s.grid.get j ≤ s.maxDistance := fun j hj =>
    h2 j (Dims.mem_all.mpr (inB_iff_spec.mpr hj))
  have hpos : 0 < s.maxDistance := lt_of_lt_of_le hp (hall i hi)
  refine ⟨⟨?_, hall⟩, hpos⟩
  rcases h3 with h3 | ⟨j, hj, h3⟩
  · exact absurd h3 (ne_of_gt hpos)
  · exact ⟨j, inB_iff_spec.mp (Dims.mem_all.mp hj), h3⟩

theorem min_spec (s : MSdf K) {i : Idx} (hi : InBounds s.grid.dims i) (hp : s.grid.get i < 0) :
    IsSmallest s s.minDistance ∧ s.minDistance < 0 := by
  obtain ⟨h1, h2, h3⟩ := foldl_min s.grid.get s.grid.dims.all 0
  change s.minDistance ≤ 0 at h1
  change ∀ i ∈ _, s.minDistance ≤ s.grid.get i at h2
  change s.minDistance = 0 ∨ ∃ i ∈ _, s.grid.get i = s.minDistance at h3
  have hall : ∀ j, InBounds s.grid.dims j → s.minDistance ≤ s.grid.get j := fun j hj =>
    h2 j (Dims.mem_all.mpr (inB_iff_spec.mpr hj))
  have hneg : s.minDistance < 0 := lt_of_le_of_lt (hall i hi) hp
  refine ⟨⟨?_, hall⟩, hneg⟩
  rcases h3 with h3 | ⟨j, hj, h3⟩
  · exact absurd h3 (ne_of_lt hneg)
  · exact ⟨j, inB_iff_spec.mp (Dims.mem_all.mp hj), h3⟩

theorem shown (s : MSdf K) (alpha : K) {i : Idx} (hi : InBounds s.grid.dims i) :
    ShownAs s (s.grid.get i) (s.cellColour alpha i) := by
  unfold cellColour
  rcases lt_trichotomy (s.grid.get i) 0 with h | h | h
  · obtain ⟨h1, h2⟩ := min_spec s hi h
    right; left
    simp only [gt_iff_lt, not_lt.mpr h.le, if_false, h, if_true]
    refine ⟨trivial, trivial, trivial, _, h1, h2, ?_⟩
    rw [abs_of_pos (div_pos_of_neg_of_neg h h2)]
    ring
  · right; right
    simp [h]
  · obtain ⟨h1, h2⟩ := max_spec s hi h
    left
    simp only [gt_iff_lt, h, if_true]
    refine ⟨trivial, trivial, trivial, _, h1, h2, ?_⟩
    rw [abs_of_pos (div_pos h h2)]
    ring

end MSdf

/-- C46.  The export has one point per cell in scan order, at the cell centre, and one colour per
cell in the same order; each colour is the documented one for the cell's value (in particular no
division by zero: the divisor is the largest, or smallest, stored value and is not zero), has the
clamped alpha, and all channels lie between 0 and 1. -/
theorem C46_display (s : MSdf K) (alpha : K) :
    ∃ col : Idx → Rgba K,
      s.exportForDisplay alpha = (s.grid.dims.all.map s.center, s.grid.dims.all.map col) ∧
      ∀ i, InBounds s.grid.dims i →
        ShownAs s (s.grid.get i) (col i) ∧
        InUnit (col i).r ∧ InUnit (col i).g ∧ InUnit (col i).b ∧ InUnit (col i).a ∧
        (InUnit alpha → (col i).a = alpha) := by
  refine ⟨s.cellColour alpha, ?_, ?_⟩
  · unfold MSdf.exportForDisplay
    rw [MSdf.foldl_push, MSdf.foldl_push]
    simp
  · intro i hi
    have hs := MSdf.shown s alpha hi
    have ha : (s.cellColour alpha i).a = MSdf.clamp alpha 0 1 := by
      unfold MSdf.cellColour
      dsimp only
      split
      · rfl
      · split <;> rfl
    have hua : InUnit (s.cellColour alpha i).a := by
      rw [ha]; unfold MSdf.clamp
      exact ⟨le_min (le_max_right _ _) zero_le_one, min_le_right _ _⟩
    have h0 : InUnit (0 : K) := ⟨le_rfl, zero_le_one⟩
    have h1 : InUnit (1 : K) := ⟨zero_le_one, le_rfl⟩
    have hch : ∀ q : K, 0 ≤ q → q ≤ 1 → InUnit (1 / 5 + 4 / 5 * q) := by
      intro q h0 h1
      constructor <;> linarith
    have hch' : InUnit (s.cellColour alpha i).r ∧ InUnit (s.cellColour alpha i).g ∧
        InUnit (s.cellColour alpha i).b := by
      rcases hs with ⟨hd, e1, e2, M, hM, hp, e3⟩ | ⟨hd, e1, e2, M, hM, hp, e3⟩ | ⟨hd, e1, e2, e3⟩
      · rw [e1, e2, e3]
        refine ⟨h0, hch _ (div_nonneg hd.le hp.le) ?_, h0⟩
        rw [div_le_one hp]; exact hM.2 i hi
      · rw [e1, e2, e3]
        refine ⟨hch _ (div_nonneg_of_nonpos hd.le hp.le) ?_, h0, h0⟩
        rw [div_le_one_of_neg hp]; exact hM.2 i hi
      · rw [e1, e2, e3]; exact ⟨h0, h0, h1⟩
    refine ⟨hs, hch'.1, hch'.2.1, hch'.2.2, hua, ?_⟩
    rintro ⟨g0, g1⟩
    rw [ha]; unfold MSdf.clamp
    rw [max_eq_left g0, min_eq_left g1]

example : exSdf.grid.dims = ⟨3, 2, 2⟩ ∧ (exSdf.exportForDisplay 2).2.length = 12 := by
  decide +kernel

/-- C56.  The collision-only export shows exactly the cells with distance at most 0, once each, in
scan order, in red. -/
theorem C56_collision_only (s : MSdf K) (alpha : K) :
    s.exportCollisionOnly alpha =
      ((s.grid.dims.all.filter fun i => decide (s.grid.get i ≤ 0)).map s.center, ⟨1, 0, 0, alpha⟩) := by
  unfold MSdf.exportCollisionOnly
  rw [MSdf.foldl_push_if]
  simp

end Verif
