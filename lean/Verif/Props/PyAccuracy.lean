import Verif.Props.PyUtils
import Verif.Props.Ieee
import Mathlib.Tactic.IntervalCases

/-!
# Accuracy of the Python wrappers (C87)

The arrays returned by `compute_sdf_and_gradient`, in terms of the environment array only.
-/

namespace Verif

open Spec DField SdfGen Py NpArr

/-- Squared distance between two array positions. -/
def idxSq (p q : List Nat) : ℤ := (List.zipWith (fun a b : Nat => ((a : ℤ) - b) ^ 2) p q).sum

/-- `m` is the squared distance from position `p` of the array to the nearest position whose entry
differs. -/
def NearestOther (env : NpArr Bool) (p : List Nat) (m : ℤ) : Prop :=
  (∃ q, InRange env.shape q ∧ env.get q ≠ env.get p ∧ idxSq p q = m) ∧
    ∀ q, InRange env.shape q → env.get q ≠ env.get p → m ≤ idxSq p q

/-- The fill predicate of a wrapper. -/
theorem fill_answers {d : Dims} {m : CMap} (hm : m.grid.dims = d) (p : Idx → Bool)
    (hv : ∀ v, InBounds d v → m.grid.get v = if p v = true then occupiedCell else oobCell) :
    Answers d (mapFill m false) p := by
  intro i hi
  rw [mapFill_answers m false i (by rw [hm]; exact hi)]
  have hob := obstacle_iff (hv i hi)
  congr 1
  cases hp : p i with
  | true => simpa using hob.mpr hp
  | false =>
    have : ¬ Obstacle m false i := fun h => by rw [hob.mp h] at hp; cases hp
    simpa using this

theorem class_ne {env : NpArr Bool} (hw : env.WF) {p q : List Nat} (hp : InRange env.shape p)
    (hq : InRange env.shape q) :
    decide (env.get q = some true) ≠ decide (env.get p = some true) ↔ env.get q ≠ env.get p := by
  obtain ⟨a, ha⟩ := get_some hw hp
  obtain ⟨b, hb⟩ := get_some hw hq
  rw [ha, hb]
  cases a <;> cases b <;> simp

theorem nearest2 {env : NpArr Bool} (hw : env.WF) {nx ny : Nat} (hs : env.shape = [ny, nx]) {x y : Nat}
    (hx : x < nx) (hy : y < ny) {m : ℤ} (hm : NearestOther env [y, x] m) :
    NearestOpposite ⟨nx, ny, 1⟩ (fun v => decide (env.get [v.y.toNat, v.x.toNat] = some true)) ⟨x, y, 0⟩ m := by
  have hp : InRange env.shape [y, x] := by rw [hs]; exact inRange2.mpr ⟨y, x, rfl, hy, hx⟩
  have hp' : env.get [(⟨x, y, 0⟩ : Idx).y.toNat, (⟨x, y, 0⟩ : Idx).x.toNat] = env.get [y, x] := by simp
  constructor
  · obtain ⟨q, hq, hne, e⟩ := hm.1
    have hq' := hq
    rw [hs] at hq'
    obtain ⟨y', x', rfl, hy', hx'⟩ := inRange2.mp hq'
    refine ⟨⟨x', y', 0⟩, ⟨⟨⟨by simp, by simpa using hx'⟩, ⟨by simp, by simpa using hy'⟩, by simp, by simp⟩, ?_⟩, ?_⟩
    · have := (class_ne hw hp hq).mpr hne
      simpa using this
    · rw [← e]; simp [sqDist, idxSq]; ring
  · rintro ⟨a, b, c⟩ ⟨hin, hne⟩
    unfold InBounds at hin
    simp only at hin
    obtain ⟨⟨a0, a1⟩, ⟨b0, b1⟩, c0, c1⟩ := hin
    have hq : InRange env.shape [b.toNat, a.toNat] := by
      rw [hs]; exact inRange2.mpr ⟨_, _, rfl, by omega, by omega⟩
    have hc : c = 0 := by norm_num at c1; omega
    have := hm.2 _ hq ((class_ne hw hp hq).mp (by simpa using hne))
    refine this.trans (le_of_eq ?_)
    subst hc
    simp [sqDist, idxSq, Int.toNat_of_nonneg a0, Int.toNat_of_nonneg b0]
    ring

theorem nearest3 {env : NpArr Bool} (hw : env.WF) {nx ny nz : Nat} (hs : env.shape = [ny, nx, nz])
    {x y z : Nat} (hx : x < nx) (hy : y < ny) (hz : z < nz) {m : ℤ} (hm : NearestOther env [y, x, z] m) :
    NearestOpposite ⟨nx, ny, nz⟩ (fun v => decide (env.get (pyIdx v) = some true)) ⟨x, y, z⟩ m := by
  have hp : InRange env.shape [y, x, z] := by rw [hs]; exact inRange3.mpr ⟨y, x, z, rfl, hy, hx, hz⟩
  constructor
  · obtain ⟨q, hq, hne, e⟩ := hm.1
    have hq' := hq
    rw [hs] at hq'
    obtain ⟨y', x', z', rfl, hy', hx', hz'⟩ := inRange3.mp hq'
    refine ⟨⟨x', y', z'⟩, ⟨⟨⟨by simp, by simpa using hx'⟩, ⟨by simp, by simpa using hy'⟩, by simp,
      by simpa using hz'⟩, ?_⟩, ?_⟩
    · exact (class_ne hw hp hq).mpr hne
    · rw [← e]; simp [sqDist, idxSq]; ring
  · rintro ⟨a, b, c⟩ ⟨hin, hne⟩
    unfold InBounds at hin
    simp only at hin
    obtain ⟨⟨a0, a1⟩, ⟨b0, b1⟩, c0, c1⟩ := hin
    have hq : InRange env.shape [b.toNat, a.toNat, c.toNat] := by
      rw [hs]; exact inRange3.mpr ⟨_, _, _, rfl, by omega, by omega, by omega⟩
    have := hm.2 _ hq ((class_ne hw hp hq).mp hne)
    refine this.trans (le_of_eq ?_)
    simp [sqDist, idxSq, Int.toNat_of_nonneg a0, Int.toNat_of_nonneg b0, Int.toNat_of_nonneg c0]
    ring

/-- C87, two-dimensional wrapper.  `utils_2d.compute_sdf_and_gradient` on an environment with both 0 and 1
entries: entry `[y, x]` of the returned array is finite, negative exactly where the environment is 1, and
its magnitude is between the metric distance to the nearest pixel of the other kind and `sqrt 2` times
that distance, up to the relative error; it is that distance, up to the relative error, where it is less
than `sqrt 8` pixels. -/
theorem C87_2d {res : ℝ} (hres : GoodRes ieee res) (hlo : 1 / 2 ^ 126 ≤ res) (hhi : res ≤ 2 ^ 100)
    {G : Type} {oobG : G} {grad : Grid FVal → Idx → Bool → List G}
    (hg : ∀ s v, InBounds s.dims v → (grad s v true).length = 3)
    {env : NpArr Bool} (hw : env.WF) {nx ny : Nat} (hs : env.shape = [ny, nx])
    (hd : SmallGrid ⟨nx, ny, 1⟩) {x y : Nat} (hx : x < nx) (hy : y < ny) {m : ℤ}
    (hm : NearestOther env [y, x] m) :
    ∃ a g, compute2 ieee res oobG grad env = some (a, g) ∧ a.shape = env.shape ∧
      ∃ r : ℝ, 0 < r ∧
        a.get [y, x] = some (some (if env.get [y, x] = some true then ((-r : ℝ) : EReal) else (r : EReal))) ∧
        (1 - relErr) * (res * Real.sqrt m) ≤ r ∧
        r ≤ (1 + relErr) * (res * (Real.sqrt 2 * Real.sqrt m)) ∧
        (m < 8 → |r - res * Real.sqrt m| ≤ relErr * (res * Real.sqrt m)) := by
  have h32 := (ieee_resolution hlo hhi).1
  obtain ⟨s, a, g, hc, _, h2, h3, _, h5⟩ := C50_2d hres h32 oobG grad hg hw hs hd (Nat.mul_pos (by omega) (by omega))
  refine ⟨a, g, h2, h3, ?_⟩
  obtain ⟨⟨v, v1, v2, _⟩, _⟩ := h5 x hx y hy
  obtain ⟨f1, f2⟩ := fill2_get env ⟨nx, ny, 1⟩ rfl
  have hA := fill_answers f1 _ f2
  unfold computeSdf2 at hc
  rw [hs] at hc
  simp only [Option.map_eq_some_iff] at hc
  obtain ⟨o, ho, rfl⟩ := hc
  unfold extractMap at ho
  rw [f1] at ho
  have hin : InBounds ⟨nx, ny, 1⟩ ⟨x, y, 0⟩ :=
    ⟨⟨by simp, by simpa using hx⟩, ⟨by simp, by simpa using hy⟩, ⟨by simp, by simp⟩⟩
  have hN := nearest2 hw hs hx hy hm
  obtain ⟨r, e1, r0, r1, r2⟩ := C86_flat hres hlo hhi hd (Or.inr (Or.inr rfl)) hA ho hin hN
  refine ⟨r, r0, ?_, r1, r2, ?_⟩
  · rw [v1, ← v2, e1]; simp
  · intro h8
    obtain ⟨r', e2, r0', herr⟩ := C86_near hres hlo hhi hd hA ho hin hN h8
    have : r' = r := by
      rw [e1] at e2
      split_ifs at e2
      · have := Option.some.inj e2
        rw [EReal.coe_eq_coe_iff] at this
        linarith
      · have := Option.some.inj e2
        rw [EReal.coe_eq_coe_iff] at this
        exact this.symm
    rwa [this] at herr

/-- C87, three-dimensional wrapper.  Entry `[y, x, z]` of the array of `utils_3d.compute_sdf_and_gradient`
is infinite or at least the metric distance to the nearest voxel of the other kind, up to the relative
error; it is that distance, up to the relative error, where it is less than `sqrt 8` voxels. -/
theorem C87_3d {res : ℝ} (hres : GoodRes ieee res) (hlo : 1 / 2 ^ 126 ≤ res) (hhi : res ≤ 2 ^ 100)
    {G : Type} {oobG : G} {grad : Grid FVal → Idx → Bool → List G}
    (hg : ∀ s v, InBounds s.dims v → (grad s v true).length = 3)
    {env : NpArr Bool} (hw : env.WF) {nx ny nz : Nat} (hs : env.shape = [ny, nx, nz])
    (hd : SmallGrid ⟨nx, ny, nz⟩) {x y z : Nat} (hx : x < nx) (hy : y < ny) (hz : z < nz) {m : ℤ}
    (hm : NearestOther env [y, x, z] m) :
    ∃ a g, compute3 ieee res oobG grad env = some (a, g) ∧ a.shape = env.shape ∧
      (a.get [y, x, z] = some (some (if env.get [y, x, z] = some true then ⊥ else ⊤)) ∨
        ∃ r : ℝ, 0 < r ∧ a.get [y, x, z] = some (some
            (if env.get [y, x, z] = some true then ((-r : ℝ) : EReal) else (r : EReal))) ∧
          (1 - relErr) * (res * Real.sqrt m) ≤ r) ∧
      (m < 8 → ∃ r : ℝ, 0 < r ∧ a.get [y, x, z] = some (some
            (if env.get [y, x, z] = some true then ((-r : ℝ) : EReal) else (r : EReal))) ∧
          |r - res * Real.sqrt m| ≤ relErr * (res * Real.sqrt m)) := by
  have h32 := (ieee_resolution hlo hhi).1
  obtain ⟨s, a, g, hc, _, h2, h3, _, h5⟩ := C50_3d hres h32 oobG grad hg hw hs hd
    (Nat.mul_pos (Nat.mul_pos (by omega) (by omega)) (by omega))
  refine ⟨a, g, h2, h3, ?_⟩
  obtain ⟨⟨v, v1, v2, _⟩, _⟩ := h5 x hx y hy z hz
  obtain ⟨f1, f2⟩ := fill3_get env ⟨nx, ny, nz⟩
  have hA := fill_answers f1 _ f2
  unfold computeSdf3 at hc
  rw [hs] at hc
  simp only [Option.map_eq_some_iff] at hc
  obtain ⟨o, ho, rfl⟩ := hc
  unfold extractMap at ho
  rw [f1] at ho
  have hin : InBounds ⟨nx, ny, nz⟩ ⟨x, y, z⟩ :=
    ⟨⟨by simp, by simpa using hx⟩, ⟨by simp, by simpa using hy⟩, ⟨by simp, by simpa using hz⟩⟩
  have hN := nearest3 hw hs hx hy hz hm
  have hcls : ∀ p q : EReal, (if decide (env.get (pyIdx ⟨x, y, z⟩) = some true) = true then p else q)
      = if env.get [y, x, z] = some true then p else q := by
    intro p q
    show (if decide (env.get [y, x, z] = some true) = true then p else q) = _
    simp
  constructor
  · rcases C86_accuracy hres hlo hhi hd hA ho hin with h | ⟨r, p, e1, r0, _, _, h⟩
    · left; rw [v1, ← v2, h, hcls]
    · right; exact ⟨r, r0, by rw [v1, ← v2, e1, hcls], h m hN⟩
  · intro h8
    obtain ⟨r, e1, r0, herr⟩ := C86_near hres hlo hhi hd hA ho hin hN h8
    exact ⟨r, r0, by rw [v1, ← v2, e1, hcls], herr⟩

/-- A 2 x 3 image with one obstacle pixel: the farthest pixel is at squared distance 5. -/
example : (⟨[2, 3], [true, false, false, false, false, false]⟩ : NpArr Bool).WF ∧
    NearestOther ⟨[2, 3], [true, false, false, false, false, false]⟩ [1, 2] 5 := by
  refine ⟨rfl, ⟨[0, 0], inRange2.mpr ⟨0, 0, rfl, by norm_num, by norm_num⟩, by decide, by decide⟩, ?_⟩
  intro q hq hne
  obtain ⟨y, x, rfl, hy, hx⟩ := inRange2.mp hq
  interval_cases y <;> interval_cases x <;> first | (exact absurd rfl hne) | decide

end Verif
