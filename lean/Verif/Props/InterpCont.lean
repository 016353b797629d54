import Verif.Props.Interp
import Mathlib.Topology.LocallyFinite
import Mathlib.Topology.Instances.Real.Lemmas
import Mathlib.Topology.Order.OrderClosed
import Mathlib.Algebra.BigOperators.Ring.Finset

/-!
# C21: `EstimateDistance` is continuous inside the grid
-/

namespace Verif

open Spec

/-- One axis of the interpolant. -/
noncomputable def axisInterp (n : Nat) (f : Int → ℝ) (t : ℝ) : ℝ :=
  lerp (t - 1 / 2 - lowerCell n t) (f (lowerCell n t)) (f (upperCell n t))

/-- The part of an axis on which the cells `k` and `k + 1` are used, closed. -/
def axisPiece (n : Nat) (k : Fin (n - 1)) : Set ℝ :=
  {t | ((k : Nat) ≠ 0 → (k : ℝ) ≤ t - 1 / 2) ∧ ((k : Nat) + 2 ≠ n → t - 1 / 2 ≤ (k : ℝ) + 1)}

theorem axisPiece_closed (n : Nat) (k : Fin (n - 1)) : IsClosed (axisPiece n k) := by
  have h1 : IsClosed {t : ℝ | (k : ℝ) ≤ t - 1 / 2} :=
    isClosed_le continuous_const (continuous_id.sub continuous_const)
  have h2 : IsClosed {t : ℝ | t - 1 / 2 ≤ (k : ℝ) + 1} :=
    isClosed_le (continuous_id.sub continuous_const) continuous_const
  have e : axisPiece n k = {t : ℝ | (k : Nat) ≠ 0 → (k : ℝ) ≤ t - 1 / 2} ∩
      {t : ℝ | (k : Nat) + 2 ≠ n → t - 1 / 2 ≤ (k : ℝ) + 1} := rfl
  rw [e]
  refine IsClosed.inter ?_ ?_
  · by_cases h : (k : Nat) ≠ 0
    · simpa [h] using h1
    · simp [h]
  · by_cases h : (k : Nat) + 2 ≠ n
    · simpa [h] using h2
    · simp [h]

/-- On each piece the axis interpolant is the straight line through the two cells' values. -/
theorem axisInterp_piece (n : Nat) (f : Int → ℝ) (k : Fin (n - 1)) (t : ℝ)
    (ht : t ∈ axisPiece n k) :
    axisInterp n f t = lerp (t - 1 / 2 - (k : ℝ)) (f (k : Nat)) (f ((k : Nat) + 1)) := by
  obtain ⟨h1, h2⟩ := ht
  have hk := k.2
  have hfl := Int.floor_le (t - 1 / 2)
  have hlt := Int.lt_floor_add_one (t - 1 / 2)
  unfold axisInterp
  -- lower cell is `k`, or the right end point is reached and the lower cell is `k + 1`
  have hcase : lowerCell n t = (k : Nat) ∨ (lowerCell n t = (k : Nat) + 1 ∧ t - 1 / 2 = (k : ℝ) + 1) := by
    have hge : (k : Nat) ≠ 0 → ((k : Nat) : Int) ≤ ⌊t - 1 / 2⌋ := by
      intro h; exact Int.le_floor.mpr (by exact_mod_cast h1 h)
    have hle : (k : Nat) + 2 ≠ n → ⌊t - 1 / 2⌋ ≤ ((k : Nat) : Int) + 1 := by
      intro h
      have h3 := h2 h
      have : ⌊t - 1 / 2⌋ < ((k : Nat) : Int) + 2 := Int.floor_lt.mpr (by push_cast; linarith)
      omega
    unfold lowerCell
    by_cases hl : (k : Nat) + 2 = n
    · left
      by_cases h0 : (k : Nat) = 0
      · omega
      · have := hge h0; omega
    · have hle' := hle hl
      by_cases heq : ⌊t - 1 / 2⌋ = ((k : Nat) : Int) + 1
      · right
        refine ⟨by omega, ?_⟩
        have h3 := h2 hl
        rw [heq] at hfl
        push_cast at hfl
        linarith
      · left
        by_cases h0 : (k : Nat) = 0
        · omega
        · have := hge h0; omega
  rcases hcase with h | ⟨h, ht⟩
  · have hu : upperCell n t = (k : Nat) + 1 := by unfold upperCell; rw [h]; omega
    rw [h, hu]; push_cast; rfl
  · rw [h, ht]
    have e1 : (k : ℝ) + 1 - (((k : Nat) + 1 : Int) : ℝ) = 0 := by push_cast; ring
    have e2 : (k : ℝ) + 1 - (k : ℝ) = 1 := by ring
    rw [e1, e2, lerp_zero, lerp_one]

theorem axisPiece_cover (n : Nat) (hn : 2 ≤ n) : ⋃ k, axisPiece n k = Set.univ := by
  rw [Set.eq_univ_iff_forall]
  intro t
  rw [Set.mem_iUnion]
  have hfl := Int.floor_le (t - 1 / 2)
  have hlt := Int.lt_floor_add_one (t - 1 / 2)
  refine ⟨⟨(lowerCell n t).toNat, by unfold lowerCell; omega⟩, ?_, ?_⟩
  · intro h
    dsimp only at h ⊢
    have h3 : ((lowerCell n t).toNat : Int) ≤ ⌊t - 1 / 2⌋ := by unfold lowerCell at *; omega
    have : (((lowerCell n t).toNat : Int) : ℝ) ≤ (⌊t - 1 / 2⌋ : ℝ) := by exact_mod_cast h3
    push_cast at this
    linarith
  · intro h
    dsimp only at h ⊢
    have h3 : ⌊t - 1 / 2⌋ ≤ ((lowerCell n t).toNat : Int) := by unfold lowerCell at *; omega
    have : (⌊t - 1 / 2⌋ : ℝ) ≤ (((lowerCell n t).toNat : Int) : ℝ) := by exact_mod_cast h3
    push_cast at this
    linarith

/-- The interpolant along one axis is continuous. -/
theorem axisInterp_continuous (n : Nat) (hn : 0 < n) (f : Int → ℝ) :
    Continuous (axisInterp n f) := by
  rcases (by omega : n = 1 ∨ 2 ≤ n) with rfl | h2
  · have : axisInterp 1 f = fun _ => f 0 := by
      funext t
      have h1 : lowerCell 1 t = 0 := by unfold lowerCell; omega
      have h2 : upperCell 1 t = 0 := by unfold upperCell; rw [h1]; rfl
      unfold axisInterp lerp
      rw [h1, h2]; ring
    rw [this]; exact continuous_const
  · refine LocallyFinite.continuous (f := axisPiece n) (locallyFinite_of_finite _)
      (axisPiece_cover n h2) (axisPiece_closed n) ?_
    intro k
    have hc : Continuous fun t : ℝ =>
        lerp (t - 1 / 2 - (k : ℝ)) (f (k : Nat)) (f ((k : Nat) + 1)) := by
      unfold lerp
      fun_prop
    exact hc.continuousOn.congr (fun t ht => axisInterp_piece n f k t ht)

/-- The axis interpolant is a combination of the values with fixed continuous weights. -/
theorem axisInterp_sum (n : Nat) (hn : 0 < n) (f : Int → ℝ) (t : ℝ) :
    axisInterp n f t = ∑ k : Fin n, axisInterp n (fun i => if i = (k : Nat) then 1 else 0) t
      * f (k : Nat) := by
  obtain ⟨h0, h1, h2, h3⟩ := lowerCell_spec n t hn
  have pickSum : ∀ j : Int, 0 ≤ j → j < n →
      ∑ k : Fin n, (if j = ((k : Nat) : Int) then (1 : ℝ) else 0) * f (k : Nat) = f j := by
    intro j j0 j1
    have hj : j.toNat < n := by omega
    rw [Finset.sum_eq_single (⟨j.toNat, hj⟩ : Fin n)]
    · have : j = ((j.toNat : Nat) : Int) := by omega
      simp only [← this, if_true, one_mul]
    · intro b _ hb
      have : ¬ j = ((b : Nat) : Int) := by
        intro h; apply hb; ext; dsimp only; omega
      rw [if_neg this, zero_mul]
    · intro h; exact (h (Finset.mem_univ _)).elim
  unfold axisInterp lerp
  rw [← pickSum (lowerCell n t) h0 h1, ← pickSum (upperCell n t) h2 h3, Finset.mul_sum,
    Finset.mul_sum, ← Finset.sum_add_distrib]
  refine Finset.sum_congr rfl ?_
  intro k _
  ring

/-- The blend of the specification, as nested axis interpolants. -/
theorem trilerp_nested (s : MSdf ℝ) (g : V3 ℝ) :
    trilerp (cornerWeight s g) (cornerVal s g) =
      axisInterp s.grid.dims.nx (fun x => axisInterp s.grid.dims.ny (fun y =>
        axisInterp s.grid.dims.nz (fun z => halfCellCloser s.res (s.grid.get ⟨x, y, z⟩))
          (g.z / s.res)) (g.y / s.res)) (g.x / s.res) := by
  simp only [trilerp, cornerWeight, cornerVal, axisInterp, pick, if_true, Bool.false_eq_true,
    if_false]

/-- The grid-frame interpolant is continuous in all three coordinates together. -/
theorem trilerp_continuous (s : MSdf ℝ) (hx : 0 < s.grid.dims.nx) (hy : 0 < s.grid.dims.ny)
    (hz : 0 < s.grid.dims.nz) :
    Continuous fun q : ℝ × ℝ × ℝ =>
      trilerp (cornerWeight s ⟨q.1, q.2.1, q.2.2⟩) (cornerVal s ⟨q.1, q.2.1, q.2.2⟩) := by
  simp only [trilerp_nested]
  have cx := fun f => axisInterp_continuous s.grid.dims.nx hx f
  have cy := fun f => axisInterp_continuous s.grid.dims.ny hy f
  have cz := fun f => axisInterp_continuous s.grid.dims.nz hz f
  have e : (fun q : ℝ × ℝ × ℝ =>
      axisInterp s.grid.dims.nx (fun x => axisInterp s.grid.dims.ny (fun y =>
        axisInterp s.grid.dims.nz (fun z => halfCellCloser s.res (s.grid.get ⟨x, y, z⟩))
          (q.2.2 / s.res)) (q.2.1 / s.res)) (q.1 / s.res)) = fun q =>
      ∑ i : Fin s.grid.dims.nx, axisInterp s.grid.dims.nx (fun j => if j = (i : Nat) then 1 else 0)
        (q.1 / s.res) * ∑ j : Fin s.grid.dims.ny,
          axisInterp s.grid.dims.ny (fun k => if k = (j : Nat) then 1 else 0) (q.2.1 / s.res) *
          axisInterp s.grid.dims.nz
            (fun z => halfCellCloser s.res (s.grid.get ⟨(i : Nat), (j : Nat), z⟩))
            (q.2.2 / s.res) := by
    funext q
    rw [axisInterp_sum _ hx]
    refine Finset.sum_congr rfl fun i _ => ?_
    rw [axisInterp_sum _ hy]
  rw [e]
  refine continuous_finset_sum _ fun i _ => Continuous.mul ?_ ?_
  · exact (cx _).comp (continuous_fst.div_const _)
  · refine continuous_finset_sum _ fun j _ => Continuous.mul ?_ ?_
    · exact (cy _).comp ((continuous_fst.comp continuous_snd).div_const _)
    · exact (cz _).comp ((continuous_snd.comp continuous_snd).div_const _)

/-- The distance `EstimateDistance` reports at a world location (0 if it throws; by C20 it does
not). -/
noncomputable def estimatedDistance (s : MSdf ℝ) (q : ℝ × ℝ × ℝ) : ℝ :=
  ((s.estimate ⟨q.1, q.2.1, q.2.2⟩).map Prod.fst).getD 0

/-- C21.  Inside the grid `EstimateDistance` is a continuous function of the world location. -/
theorem C21_continuous (s : MSdf ℝ) (hr : 0 < s.res) :
    ContinuousOn (estimatedDistance s)
      {q | InBounds s.grid.dims (s.locIdx ⟨q.1, q.2.1, q.2.2⟩)} := by
  by_cases hpos : 0 < s.grid.dims.nx ∧ 0 < s.grid.dims.ny ∧ 0 < s.grid.dims.nz
  · obtain ⟨hx, hy, hz⟩ := hpos
    have hg : Continuous fun q : ℝ × ℝ × ℝ =>
        ((s.toGrid ⟨q.1, q.2.1, q.2.2⟩).x, (s.toGrid ⟨q.1, q.2.1, q.2.2⟩).y,
          (s.toGrid ⟨q.1, q.2.1, q.2.2⟩).z) := by
      simp only [MSdf.toGrid, Aff.app, id]
      fun_prop
    refine ((trilerp_continuous s hx hy hz).comp hg).continuousOn.congr ?_
    intro q hq
    unfold estimatedDistance
    rw [(C20_trilinear s hr _).1 hq]
    rfl
  · have : {q : ℝ × ℝ × ℝ | InBounds s.grid.dims (s.locIdx ⟨q.1, q.2.1, q.2.2⟩)} = ∅ := by
      rw [Set.eq_empty_iff_forall_notMem]
      intro q hq
      obtain ⟨⟨a, b⟩, ⟨c, d⟩, e, f⟩ := hq
      omega
    rw [this]
    exact continuousOn_empty _

/-- A real-valued 2x1x1 field with the identity frame: cells `+1`, `-1`. -/
noncomputable def exReal : MSdf ℝ where
  grid := ⟨⟨2, 1, 1⟩, [1, -1], 0, 9⟩
  res := 1
  origin := ⟨⟨1, 0, 0⟩, ⟨0, 1, 0⟩, ⟨0, 0, 1⟩, ⟨0, 0, 0⟩⟩
  inv := ⟨⟨1, 0, 0⟩, ⟨0, 1, 0⟩, ⟨0, 0, 1⟩, ⟨0, 0, 0⟩⟩

example : 0 < exReal.res ∧ InBounds exReal.grid.dims (exReal.locIdx ⟨1, 1 / 2, 1 / 4⟩) := by
  refine ⟨by norm_num [exReal], ?_⟩
  have e : exReal.locIdx ⟨1, 1 / 2, 1 / 4⟩ = ⟨1, 0, 0⟩ := by
    ext <;> simp only [MSdf.locIdx, MSdf.cellOf, MSdf.toGrid, exReal, Aff.app, id] <;>
      rw [Int.floor_eq_iff] <;> norm_num
  rw [e]
  unfold InBounds exReal; decide

end Verif
