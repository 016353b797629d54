import Verif.PyDemo
import Verif.Props.PyGradient
import Verif.Props.PyBatch

/-!
# C120, C121: the voxels and the display of the demo script
-/

namespace Verif

open Spec SdfGen NpArr FSdf Fl Slope

namespace NpArr

variable {α : Type}

theorem ravel_inj {shape i j : List Nat} {k : Nat} (hi : ravel shape i = some k) (hj : ravel shape j = some k) : i = j := by
  have h1 := (ravel_some hi).2
  have h2 := (ravel_some hj).2
  rw [h1] at h2
  exact Option.some.inj h2

theorem set_shape (a : NpArr α) (i : List Nat) (v : α) : (a.set i v).shape = a.shape := by
  unfold set; split <;> rfl

theorem set_wf {a : NpArr α} (h : a.WF) (i : List Nat) (v : α) : (a.set i v).WF := by
  unfold set; split
  · simpa [WF] using h
  · exact h

theorem set_get {a : NpArr α} (h : a.WF) {i : List Nat} (hi : InRange a.shape i) (v : α) (j : List Nat) :
    (a.set i v).get j = if j = i then some v else a.get j := by
  obtain ⟨k, hk, hlt⟩ := ravel_inRange hi
  have hlt' : k < a.data.length := by rw [h]; exact hlt
  unfold set get
  rw [hk]
  dsimp only
  by_cases hji : j = i
  · subst hji
    rw [hk, if_pos rfl]
    simp [hlt']
  · rw [if_neg hji]
    cases hj : ravel a.shape j with
    | none => rfl
    | some l =>
      have : k ≠ l := fun e => hji (ravel_inj hj (e ▸ hk))
      simp [List.getElem?_set_ne this]

end NpArr

namespace Demo

/-! ## Specification -/

/-- The point lies in voxel `[i, j, k]` of a volume with corner `o`. -/
def InVoxel (res : ℝ) (o : V3 ℝ) (i j k : ℕ) (p : V3 ℝ) : Prop :=
  (o.x + i * res ≤ p.x ∧ p.x < o.x + (i + 1) * res) ∧ (o.y + j * res ≤ p.y ∧ p.y < o.y + (j + 1) * res) ∧
    (o.z + k * res ≤ p.z ∧ p.z < o.z + (k + 1) * res)

/-- The point lies in the volume. -/
def InBox (n0 n1 n2 : ℕ) (res : ℝ) (o p : V3 ℝ) : Prop :=
  (o.x ≤ p.x ∧ p.x < o.x + n0 * res) ∧ (o.y ≤ p.y ∧ p.y < o.y + n1 * res) ∧ (o.z ≤ p.z ∧ p.z < o.z + n2 * res)

/-! ## One axis -/

theorem trunc_inside {res x : ℝ} (hr : 0 < res) (hx : 0 ≤ x) : trunc (x / res) = ⌊x / res⌋ := if_pos (by positivity)

theorem axis_inside {n : ℕ} {res o x : ℝ} (hr : 0 < res) (h0 : o ≤ x) (h1 : x < o + n * res) :
    ∃ i, axisIndex n (trunc ((x - o) / res)) = some i ∧ i < n ∧ ∀ k : ℕ, i = k ↔ o + k * res ≤ x ∧ x < o + (k + 1) * res := by
  rw [trunc_inside hr (by linarith)]
  have f0 : 0 ≤ ⌊(x - o) / res⌋ := Int.floor_nonneg.mpr (div_nonneg (by linarith) hr.le)
  have f1 : ⌊(x - o) / res⌋ < n := by
    rw [Int.floor_lt, div_lt_iff₀ hr]
    push_cast; linarith
  refine ⟨⌊(x - o) / res⌋.toNat, ?_, by omega, fun k => ?_⟩
  · unfold axisIndex; rw [if_pos f0, if_pos f1]
  · have e : ⌊(x - o) / res⌋.toNat = k ↔ ⌊(x - o) / res⌋ = (k : ℤ) := by omega
    rw [e, Int.floor_eq_iff, le_div_iff₀ hr, div_lt_iff₀ hr]
    push_cast
    constructor
    · rintro ⟨a, b⟩; constructor <;> linarith
    · rintro ⟨a, b⟩; constructor <;> linarith

theorem axis_above {n : ℕ} {res o x : ℝ} (hr : 0 < res) (h1 : o + n * res ≤ x) :
    axisIndex n (trunc ((x - o) / res)) = none := by
  have h0 : 0 ≤ x - o := by have : 0 ≤ (n : ℝ) * res := by positivity
                            linarith
  rw [trunc_inside hr h0]
  have f0 : 0 ≤ ⌊(x - o) / res⌋ := Int.floor_nonneg.mpr (div_nonneg h0 hr.le)
  have f1 : (n : ℤ) ≤ ⌊(x - o) / res⌋ := by
    rw [Int.le_floor, le_div_iff₀ hr]
    push_cast; linarith
  unfold axisIndex
  rw [if_pos f0, if_neg (by omega)]

/-- A point below the corner is taken for one in the first voxel, or counted from the far end. -/
theorem axis_below {n k : ℕ} {res o x : ℝ} (hr : 0 < res) (h0 : o - (k + 1) * res < x) (h1 : x ≤ o - k * res) (hx : x < o) :
    axisIndex n (trunc ((x - o) / res)) = if k = 0 then (if 0 < n then some 0 else none)
      else if k ≤ n then some (n - k) else none := by
  have hneg : (x - o) / res < 0 := div_neg_of_neg_of_pos (by linarith) hr
  have e : trunc ((x - o) / res) = -(k : ℤ) := by
    unfold trunc
    rw [if_neg (by linarith), Int.ceil_eq_iff, lt_div_iff₀ hr, div_le_iff₀ hr]
    push_cast
    constructor <;> linarith
  rw [e]
  unfold axisIndex
  by_cases hk : k = 0
  · subst hk; simp
  · rw [if_neg (by omega), if_neg hk]
    by_cases hn : k ≤ n
    · rw [if_pos (by omega), if_pos hn]
      congr 1
      omega
    · rw [if_neg (by omega), if_neg hn]

/-! ## C120 -/

theorem voxelOf_inside {n0 n1 n2 : ℕ} {res : ℝ} (hr : 0 < res) {o p : V3 ℝ} (hp : InBox n0 n1 n2 res o p) :
    ∃ v, voxelOf n0 n1 n2 res o p = some v ∧ InRange [n0, n1, n2] v ∧ ∀ i j k : ℕ, [i, j, k] = v ↔ InVoxel res o i j k p := by
  obtain ⟨⟨x0, x1⟩, ⟨y0, y1⟩, z0, z1⟩ := hp
  obtain ⟨i, hi, li, ci⟩ := axis_inside hr x0 x1
  obtain ⟨j, hj, lj, cj⟩ := axis_inside hr y0 y1
  obtain ⟨k, hk, lk, ck⟩ := axis_inside hr z0 z1
  refine ⟨[i, j, k], by unfold voxelOf; simp [hi, hj, hk], inRange3.mpr ⟨i, j, k, rfl, li, lj, lk⟩, fun i' j' k' => ?_⟩
  unfold InVoxel
  rw [← ci, ← cj, ← ck]
  simp [eq_comm]

theorem fold_set (is : List (List ℕ)) : ∀ (a : NpArr Bool), a.WF → (∀ v ∈ is, InRange a.shape v) →
    (is.foldl (fun a i => a.set i true) a).shape = a.shape ∧ (is.foldl (fun a i => a.set i true) a).WF ∧
      ∀ j, (is.foldl (fun a i => a.set i true) a).get j = if j ∈ is then some true else a.get j := by
  induction is with
  | nil => intro a hw _; exact ⟨rfl, hw, fun j => by simp⟩
  | cons v is ih =>
    intro a hw h
    obtain ⟨h1, h2, h3⟩ := ih (a.set v true) (set_wf hw v true) (fun w hw' => by
      rw [set_shape]; exact h w (List.mem_cons_of_mem _ hw'))
    refine ⟨by rw [List.foldl_cons, h1, set_shape], h2, fun j => ?_⟩
    rw [List.foldl_cons, h3, set_get hw (h v (by simp))]
    by_cases h4 : j ∈ is
    · simp [h4]
    · by_cases h5 : j = v <;> simp [h4, h5]

theorem zeros_get {n0 n1 n2 : ℕ} {j : List ℕ} (hj : InRange [n0, n1, n2] j) :
    (NpArr.mk [n0, n1, n2] (List.replicate (n0 * n1 * n2) false)).get j = some false := by
  obtain ⟨k, hk, hlt⟩ := ravel_inRange hj
  have : k < n0 * n1 * n2 := by simpa [mul_assoc] using hlt
  simp [NpArr.get, hk, List.getElem?_replicate, this]

theorem zeros_wf (n0 n1 n2 : ℕ) : (NpArr.mk [n0, n1, n2] (List.replicate (n0 * n1 * n2) false)).WF := by
  simp [WF, mul_assoc]

/-- C120 for clouds inside the volume: the array has the given shape, and an entry is set exactly if its voxel contains a
point of the cloud.  (For clouds with points outside see `C120_false` and `C120_rejects`.) -/
theorem C120_voxels_partial {n0 n1 n2 : ℕ} {res : ℝ} (hr : 0 < res) {o : V3 ℝ} {pc : List (V3 ℝ)}
    (hpc : ∀ p ∈ pc, InBox n0 n1 n2 res o p) :
    ∃ a, voxelize n0 n1 n2 res o pc = some a ∧ a.shape = [n0, n1, n2] ∧ a.WF ∧
      ∀ i < n0, ∀ j < n1, ∀ k < n2, a.get [i, j, k] = some true ∧ (∃ p ∈ pc, InVoxel res o i j k p) ∨
        a.get [i, j, k] = some false ∧ ∀ p ∈ pc, ¬ InVoxel res o i j k p := by
  obtain ⟨is, h1, h2, h3⟩ := mapM_spec (f := voxelOf n0 n1 n2 res o) pc (fun p hp => by
    obtain ⟨v, hv, -⟩ := voxelOf_inside hr (hpc p hp); exact ⟨v, hv⟩)
  have mem : ∀ v, v ∈ is ↔ ∃ p ∈ pc, voxelOf n0 n1 n2 res o p = some v := by
    intro v
    rw [List.mem_iff_getElem?]
    constructor
    · rintro ⟨t, ht⟩
      rw [h3, Option.bind_eq_some_iff] at ht
      obtain ⟨p, hp, hv⟩ := ht
      exact ⟨p, List.mem_of_getElem? hp, hv⟩
    · rintro ⟨p, hp, hv⟩
      obtain ⟨t, ht⟩ := List.mem_iff_getElem?.mp hp
      exact ⟨t, by rw [h3, ht]; exact hv⟩
  obtain ⟨f1, f2, f3⟩ := fold_set is _ (zeros_wf n0 n1 n2) (fun v hv => by
    obtain ⟨p, hp, e⟩ := (mem v).mp hv
    obtain ⟨w, hw, hin, -⟩ := voxelOf_inside hr (hpc p hp)
    rw [e] at hw
    obtain rfl := Option.some.inj hw
    exact hin)
  refine ⟨_, by unfold voxelize; rw [h1]; rfl, f1, f2, fun i hi j hj k hk => ?_⟩
  have hin : [i, j, k] ∈ is ↔ ∃ p ∈ pc, InVoxel res o i j k p := by
    rw [mem]
    constructor
    · rintro ⟨p, hp, e⟩
      obtain ⟨v, hv, -, hc⟩ := voxelOf_inside hr (hpc p hp)
      rw [e] at hv
      exact ⟨p, hp, (hc i j k).mp (Option.some.inj hv)⟩
    · rintro ⟨p, hp, e⟩
      obtain ⟨v, hv, -, hc⟩ := voxelOf_inside hr (hpc p hp)
      exact ⟨p, hp, by rw [(hc i j k).mpr e]; exact hv⟩
  rw [f3]
  by_cases h : [i, j, k] ∈ is
  · left; rw [if_pos h]; exact ⟨rfl, hin.mp h⟩
  · right
    rw [if_neg h, zeros_get (inRange3.mpr ⟨i, j, k, rfl, hi, hj, hk⟩)]
    exact ⟨rfl, fun p hp hv => h (hin.mpr ⟨p, hp, hv⟩)⟩

/-- C120, points on or beyond the far faces: the script raises an exception. -/
theorem C120_rejects {n0 n1 n2 : ℕ} {res : ℝ} (hr : 0 < res) {o p : V3 ℝ} {pc : List (V3 ℝ)} (hp : p ∈ pc)
    (h : o.x + n0 * res ≤ p.x ∨ o.y + n1 * res ≤ p.y ∨ o.z + n2 * res ≤ p.z) : voxelize n0 n1 n2 res o pc = none := by
  have hv : voxelOf n0 n1 n2 res o p = none := by
    unfold voxelOf
    rcases h with h | h | h <;> rw [axis_above hr h] <;> simp
  have hm : pc.mapM (voxelOf n0 n1 n2 res o) = none := by
    induction pc with
    | nil => simp at hp
    | cons q l ih =>
      rw [List.mapM_cons]
      rcases List.mem_cons.mp hp with rfl | h
      · rw [hv]; rfl
      · rw [ih h]
        cases voxelOf n0 n1 n2 res o q <;> rfl
  unfold voxelize
  rw [hm]; rfl

/-- C120 fails for points below the corner of the volume: for every grid, cell size and corner there is a cloud of one
point, outside the volume, that sets a voxel at the far side; a point less than one cell below sets the first voxel. -/
theorem C120_false {n0 n1 n2 : ℕ} (h0 : 0 < n0) (h1 : 0 < n1) (h2 : 0 < n2) {res : ℝ} (hr : 0 < res) (o : V3 ℝ) :
    (∃ p a, ¬ InBox n0 n1 n2 res o p ∧ voxelize n0 n1 n2 res o [p] = some a ∧ a.get [n0 - 1, 0, 0] = some true) ∧
      ∃ p a, ¬ InBox n0 n1 n2 res o p ∧ voxelize n0 n1 n2 res o [p] = some a ∧ a.get [0, 0, 0] = some true := by
  have key : ∀ (x : ℝ) (i : ℕ), x < o.x → i < n0 → axisIndex n0 (trunc ((x - o.x) / res)) = some i →
      ∃ p a, ¬ InBox n0 n1 n2 res o p ∧ voxelize n0 n1 n2 res o [p] = some a ∧ a.get [i, 0, 0] = some true := by
    intro x i hx hi e
    have ax1 : axisIndex n1 (trunc 0) = some 0 := by simp [trunc, axisIndex, h1]
    have ax2 : axisIndex n2 (trunc 0) = some 0 := by simp [trunc, axisIndex, h2]
    refine ⟨⟨x, o.y, o.z⟩, (NpArr.mk [n0, n1, n2] (List.replicate (n0 * n1 * n2) false)).set [i, 0, 0] true,
      fun h => absurd h.1.1 (not_le.mpr hx), ?_, ?_⟩
    · unfold voxelize voxelOf
      simp [e, ax1, ax2]
    · rw [set_get (zeros_wf n0 n1 n2) (inRange3.mpr ⟨i, 0, 0, rfl, hi, h1, h2⟩), if_pos rfl]
  constructor
  · refine key (o.x - res) (n0 - 1) (by linarith) (by omega) ?_
    rw [axis_below (k := 1) hr (by push_cast; linarith) (by push_cast; linarith) (by linarith)]
    simp [Nat.one_le_iff_ne_zero, h0.ne']
  · refine key (o.x - res / 2) 0 (by linarith) h0 ?_
    rw [axis_below (k := 0) hr (by push_cast; linarith) (by push_cast; linarith) (by linarith)]
    simp [h0]

/-- C120, the distances of the demo: for a cloud inside the volume, the entry `[i, j, k]` of the distance array that
`compute_sdf_and_gradient` returns for the voxels is negative exactly if voxel `[i, j, k]` contains a point. -/
theorem C120_distances {R : Rounding} {n0 n1 n2 : ℕ} (hd : SmallGrid ⟨n1, n0, n2⟩) (hne : 0 < n1 * n0 * n2) {res : ℝ}
    (hres : GoodRes R res) (h32 : 0 < R.r32 res) {G : Type} (oobG : G) (grad : Grid FVal → Idx → Bool → List G)
    (hg : ∀ s v, InBounds s.dims v → (grad s v true).length = 3) {o : V3 ℝ} {pc : List (V3 ℝ)}
    (hpc : ∀ p ∈ pc, InBox n0 n1 n2 res o p) :
    ∃ env a g, voxelize n0 n1 n2 res o pc = some env ∧ Py.compute3 R res oobG grad env = some (a, g) ∧
      a.shape = [n0, n1, n2] ∧ ∀ i < n0, ∀ j < n1, ∀ k < n2, ∃ v, a.get [i, j, k] = some (some v) ∧
        (v < 0 ↔ ∃ p ∈ pc, InVoxel res o i j k p) ∧ (0 < v ↔ ∀ p ∈ pc, ¬ InVoxel res o i j k p) := by
  obtain ⟨env, e1, e2, e3, e4⟩ := C120_voxels_partial hres.1 hpc
  obtain ⟨s, a, g, -, -, c1, c2, -, c3⟩ := C50_3d hres h32 oobG grad hg e3 e2 hd hne
  refine ⟨env, a, g, e1, c1, c2.trans e2, fun i hi j hj k hk => ?_⟩
  obtain ⟨⟨v, v1, -, v2, v3⟩, -⟩ := c3 j hj i hi k hk
  refine ⟨v, v1, ?_, ?_⟩
  · rw [v2]
    rcases e4 i hi j hj k hk with ⟨h, hp⟩ | ⟨h, hp⟩
    · simp only [h, true_iff]; exact hp
    · simp only [h, Option.some.injEq, Bool.false_eq_true, false_iff]
      rintro ⟨p, h1, h2⟩; exact hp p h1 h2
  · rw [v3]
    rcases e4 i hi j hj k hk with ⟨h, p, h1, h2⟩ | ⟨h, hp⟩
    · simp only [h, Option.some.injEq, Bool.true_eq_false, false_iff]
      exact fun hp => hp p h1 h2
    · simp only [h, true_iff]; exact hp

/-- Every cloud the demo can draw lies in the volume of 25 x 20 x 15 voxels of size 0.04 (the two boxes of
`create_point_cloud`). -/
example (p : V3 ℝ) (h : ((1 / 2 ≤ p.x ∧ p.x ≤ 7 / 10) ∧ (1 / 2 ≤ p.y ∧ p.y ≤ 6 / 10) ∧ 0 ≤ p.z ∧ p.z ≤ 1 / 2) ∨
    (1 / 2 ≤ p.x ∧ p.x ≤ 75 / 100) ∧ (2 / 10 ≤ p.y ∧ p.y ≤ 4 / 10) ∧ 1 / 4 ≤ p.z ∧ p.z ≤ 1 / 2) :
    InBox 25 20 15 (4 / 100) ⟨0, 0, 0⟩ p := by
  unfold InBox
  norm_num
  rcases h with ⟨⟨a, b⟩, ⟨c, d⟩, e, f⟩ | ⟨⟨a, b⟩, ⟨c, d⟩, e, f⟩ <;> refine ⟨⟨?_, ?_⟩, ⟨?_, ?_⟩, ?_, ?_⟩ <;> linarith

/-! ## C121 -/

/-- The published points show the array: every published point that lies in a voxel carries the entry of that voxel, and
every voxel has a published point. -/
def Shows {V : Type} (l : List (V3 ℝ × V)) (sdf : NpArr V) (n0 n1 n2 : ℕ) (res : ℝ) (o : V3 ℝ) : Prop :=
  ∀ i < n0, ∀ j < n1, ∀ k < n2, (∃ q v, (q, v) ∈ l ∧ InVoxel res o i j k q) ∧
    ∀ q v, (q, v) ∈ l → InVoxel res o i j k q → sdf.get [i, j, k] = some v

theorem ravel3 {n0 n1 n2 a b c : ℕ} (ha : a < n0) (hb : b < n1) (hc : c < n2) :
    ravel [n0, n1, n2] [a, b, c] = some (a * (n1 * n2) + (b * n2 + c)) := by
  simp [ravel, ha, hb, hc]

/-- Point number `t` of the display. -/
theorem point_at {n0 n1 n2 : ℕ} (res : ℝ) (o : V3 ℝ) {a b c : ℕ} (ha : a < n1) (hb : b < n0) (hc : c < n2) :
    (gridPoints n0 n1 n2 res o)[a * (n0 * n2) + (b * n2 + c)]? = some ⟨b * res - o.x, a * res - o.y, c * res - o.z⟩ := by
  unfold gridPoints
  rw [List.getElem?_map, (ravel_some (ravel3 ha hb hc)).2]
  rfl

theorem mem_shown {V : Type} {sdf : NpArr V} {n0 n1 n2 : ℕ} {res : ℝ} {o q : V3 ℝ} {v : V} :
    (q, v) ∈ shown sdf n0 n1 n2 res o ↔
      ∃ a b c, a < n1 ∧ b < n0 ∧ c < n2 ∧ q = ⟨b * res - o.x, a * res - o.y, c * res - o.z⟩ ∧
        sdf.data[a * (n0 * n2) + (b * n2 + c)]? = some v := by
  unfold shown
  rw [List.mem_iff_getElem?]
  constructor
  · rintro ⟨t, ht⟩
    rw [List.getElem?_zip_eq_some] at ht
    obtain ⟨h1, h2⟩ := ht
    obtain ⟨ht, -⟩ := List.getElem?_eq_some_iff.mp h1
    have hlen : (gridPoints n0 n1 n2 res o).length = n1 * (n0 * n2) := by
      unfold gridPoints; rw [List.length_map, length_allIdx]; simp
    rw [hlen] at ht
    have p0 : 0 < n0 * n2 := Nat.pos_of_ne_zero fun h => by simp [h] at ht
    have p2 : 0 < n2 := Nat.pos_of_ne_zero fun h => by simp [h] at p0
    obtain ⟨a, b, c, ha, hb, hc, e⟩ : ∃ a b c, a < n1 ∧ b < n0 ∧ c < n2 ∧ t = a * (n0 * n2) + (b * n2 + c) := by
      refine ⟨t / (n0 * n2), t % (n0 * n2) / n2, t % (n0 * n2) % n2, ?_, ?_, Nat.mod_lt _ p2, ?_⟩
      · rwa [Nat.div_lt_iff_lt_mul p0]
      · rw [Nat.div_lt_iff_lt_mul p2]; exact Nat.mod_lt _ p0
      · rw [Nat.div_add_mod', Nat.div_add_mod']
    subst e
    rw [point_at res o ha hb hc] at h1
    exact ⟨a, b, c, ha, hb, hc, (Option.some.inj h1).symm, h2⟩
  · rintro ⟨a, b, c, ha, hb, hc, rfl, hv⟩
    exact ⟨_, by rw [List.getElem?_zip_eq_some]; exact ⟨point_at res o ha hb hc, hv⟩⟩

/-- C121 where it holds: with the corner at the origin of the frame and one row or one column of voxels, every entry is
shown in its voxel.  (With several rows and columns, or another corner, see `C121_false` and `C121_corner_false`.) -/
theorem C121_display_partial {V : Type} {sdf : NpArr V} {n0 n1 n2 : ℕ} (hw : sdf.WF) (hs : sdf.shape = [n0, n1, n2])
    (h1 : n0 = 1 ∨ n1 = 1) {res : ℝ} (hr : 0 < res) :
    Shows (shown sdf n0 n1 n2 res ⟨0, 0, 0⟩) sdf n0 n1 n2 res ⟨0, 0, 0⟩ := by
  have get : ∀ {i j k : ℕ}, i < n0 → j < n1 → k < n2 → sdf.get [i, j, k] = sdf.data[j * (n0 * n2) + (i * n2 + k)]? := by
    intro i j k hi hj hk
    unfold NpArr.get
    rw [hs, ravel3 hi hj hk]
    show sdf.data[_]? = _
    congr 1
    rcases h1 with rfl | rfl
    · obtain rfl : i = 0 := by omega
      simp
    · obtain rfl : j = 0 := by omega
      simp
  intro i hi j hj k hk
  refine ⟨?_, fun q v hq hin => ?_⟩
  · obtain ⟨v, hv⟩ := get_some hw (j := [i, j, k]) (by rw [hs]; exact inRange3.mpr ⟨i, j, k, rfl, hi, hj, hk⟩)
    rw [get hi hj hk] at hv
    refine ⟨_, v, mem_shown.mpr ⟨j, i, k, hj, hi, hk, rfl, hv⟩, ?_⟩
    simp only [InVoxel, zero_add, sub_zero]
    refine ⟨⟨le_rfl, ?_⟩, ⟨le_rfl, ?_⟩, le_rfl, ?_⟩ <;> nlinarith
  · obtain ⟨a, b, c, ha, hb, hc, rfl, hv⟩ := mem_shown.mp hq
    simp only [InVoxel, zero_add, sub_zero] at hin
    obtain ⟨⟨x0, x1⟩, ⟨y0, y1⟩, z0, z1⟩ := hin
    have same : ∀ {s t : ℕ}, (s : ℝ) * res ≤ t * res → (t : ℝ) * res < (s + 1) * res → s = t := by
      intro s t h h'
      have h2 : (s : ℝ) ≤ t := le_of_mul_le_mul_right h hr
      have h3 : (t : ℝ) < s + 1 := lt_of_mul_lt_mul_right h' hr.le
      have h4 : s ≤ t := by exact_mod_cast h2
      have h5 : t < s + 1 := by exact_mod_cast h3
      omega
    obtain rfl := same x0 x1
    obtain rfl := same y0 y1
    obtain rfl := same z0 z1
    rw [get hi hj hk, hv]

theorem filterMap_all {α β : Type} {f : α → Option β} {g : α → β} : ∀ {r : List α}, (∀ t ∈ r, f t = some (g t)) →
    r.filterMap f = r.map g
  | [], _ => rfl
  | a :: r, h => by
    rw [List.filterMap_cons, h a (by simp), List.map_cons, filterMap_all fun t ht => h t (by simp [ht])]

theorem every_get {V : Type} {n : ℕ} (hn : 0 < n) (l : List V) (t : ℕ) : (every n l)[t]? = l[n * t]? := by
  rcases l with - | ⟨v, l⟩
  · simp [every]
  generalize hL : v :: l = L
  have hall : ∀ t, t < (L.length + n - 1) / n ↔ n * t < L.length := by
    intro t
    rw [Nat.lt_div_iff_mul_lt hn, mul_comm]; omega
  have key : every n L = (List.range ((L.length + n - 1) / n)).map fun t => L[n * t]?.getD v := by
    unfold every
    refine filterMap_all fun t ht => ?_
    rw [List.mem_range, hall] at ht
    rw [List.getElem?_eq_getElem ht]
    rfl
  rw [key]
  by_cases h : n * t < L.length
  · have ht := (hall t).mpr h
    rw [List.getElem?_map, List.getElem?_range ht]
    simp [List.getElem?_eq_getElem h]
  · have ht := mt (hall t).mp h
    rw [List.getElem?_eq_none (by simpa using ht), List.getElem?_eq_none (by omega)]

theorem rows3_get {V : Type} : ∀ (l : List V) (t : ℕ) {x y z : V}, (rows3 l)[t]? = some (x, y, z) →
    l[3 * t]? = some x ∧ l[3 * t + 1]? = some y ∧ l[3 * t + 2]? = some z
  | [], t, _, _, _, h => by simp [rows3] at h
  | [_], t, _, _, _, h => by simp [rows3] at h
  | [_, _], t, _, _, _, h => by simp [rows3] at h
  | a :: b :: c :: l, 0, _, _, _, h => by simpa [rows3] using h
  | a :: b :: c :: l, t + 1, x, y, z, h => by
    have := rows3_get l t (x := x) (y := y) (z := z) (by simpa [rows3] using h)
    simpa [Nat.mul_add] using this

theorem rows3_length {V : Type} : ∀ l : List V, (rows3 l).length = l.length / 3
  | [] => by simp [rows3]
  | [_] => by simp [rows3]
  | [_, _] => by simp [rows3]
  | a :: b :: c :: l => by
    simp only [rows3, List.length_cons, rows3_length l]; omega

/-- C121 for the arrows where it holds: with the corner at the origin of the frame and one row or one column of voxels,
every arrow starts in a voxel and shows the gradient of that voxel, and every eighth voxel gets one. -/
theorem C121_arrows_partial {G : Type} {grad : NpArr G} {n0 n1 n2 : ℕ} (hw : grad.WF)
    (hs : grad.shape = [n0, n1, n2, 3]) (h1 : n0 = 1 ∨ n1 = 1) {res : ℝ} (hr : 0 < res) :
    (arrows grad n0 n1 n2 res ⟨0, 0, 0⟩).length = (n0 * n1 * n2 + 7) / 8 ∧
    ∀ start gx gy gz, (start, gx, gy, gz) ∈ arrows grad n0 n1 n2 res ⟨0, 0, 0⟩ →
      ∃ i < n0, ∃ j < n1, ∃ k < n2, InVoxel res ⟨0, 0, 0⟩ i j k start ∧ grad.get [i, j, k, 0] = some gx ∧
        grad.get [i, j, k, 1] = some gy ∧ grad.get [i, j, k, 2] = some gz := by
  have hlen : (gridPoints n0 n1 n2 res ⟨0, 0, 0⟩).length = n1 * (n0 * n2) := by
    unfold gridPoints; rw [List.length_map, length_allIdx]; simp
  have hdat : grad.data.length = n0 * n1 * n2 * 3 := by
    have := hw
    unfold NpArr.WF at this
    rw [this, hs]; simp; ring
  constructor
  · have ev : ∀ {V : Type} (l : List V), (every 8 l).length = (l.length + 7) / 8 := by
      intro V l
      refine Nat.le_antisymm ?_ ?_
      · refine (List.length_filterMap_le _ _).trans ?_
        simp
      · by_contra hc
        push Not at hc
        have h := every_get (n := 8) (by norm_num) l (every 8 l).length
        rw [List.getElem?_eq_none le_rfl] at h
        have := List.getElem?_eq_none_iff.mp h.symm
        omega
    unfold arrows
    rw [List.length_zip, ev, ev, hlen, rows3_length, hdat]
    have : n1 * (n0 * n2) = n0 * n1 * n2 := by ring
    rw [this, Nat.mul_div_cancel _ (by norm_num), min_self]
  · intro start gx gy gz h
    have hm : (start, gx, gy, gz) ∈ shown (NpArr.mk [n0, n1, n2] (rows3 grad.data)) n0 n1 n2 res ⟨0, 0, 0⟩ := by
      unfold arrows at h
      unfold shown
      rw [List.mem_iff_getElem?] at h ⊢
      obtain ⟨t, ht⟩ := h
      rw [List.getElem?_zip_eq_some, every_get (by norm_num), every_get (by norm_num)] at ht
      exact ⟨8 * t, List.getElem?_zip_eq_some.mpr ht⟩
    obtain ⟨a, b, c, ha, hb, hc, rfl, hv⟩ := mem_shown.mp hm
    obtain ⟨e0, e1, e2⟩ := rows3_get _ _ hv
    refine ⟨b, hb, a, ha, c, hc, ?_, ?_⟩
    · simp only [InVoxel, zero_add, sub_zero]
      refine ⟨⟨le_rfl, ?_⟩, ⟨le_rfl, ?_⟩, le_rfl, ?_⟩ <;> nlinarith
    · have get : ∀ m < 3, grad.get [b, a, c, m] = grad.data[3 * (a * (n0 * n2) + (b * n2 + c)) + m]? := by
        intro m hm
        unfold NpArr.get
        rw [hs]
        have : ravel [n0, n1, n2, 3] [b, a, c, m] = some (b * (n1 * (n2 * 3)) + (a * (n2 * 3) + (c * 3 + m))) := by
          simp [ravel, hb, ha, hc, hm]
        rw [this]
        show grad.data[_]? = _
        congr 1
        rcases h1 with rfl | rfl
        · obtain rfl : b = 0 := by omega
          ring
        · obtain rfl : a = 0 := by omega
          ring
      exact ⟨(get 0 (by norm_num)).trans e0, (get 1 (by norm_num)).trans e1, (get 2 (by norm_num)).trans e2⟩

/-- The hypotheses hold for a row of ten voxels: two arrows, in the first and the ninth voxel. -/
example : (arrows ⟨[10, 1, 1, 3], List.range 30⟩ 10 1 1 (1 / 4) ⟨0, 0, 0⟩).length = 2 :=
  (C121_arrows_partial (grad := ⟨[10, 1, 1, 3], List.range 30⟩) (by simp [NpArr.WF]) rfl (Or.inr rfl) (by norm_num)).1

/-- C121 fails with at least two rows and two columns: the voxel `[1, 0, 0]` is shown with the distance of the voxel
`[0, 1, 0]`. -/
theorem C121_false {V : Type} {sdf : NpArr V} {n0 n1 n2 : ℕ} (h0 : 2 ≤ n0) (h1 : 2 ≤ n1) (h2 : 1 ≤ n2) (hw : sdf.WF)
    (hs : sdf.shape = [n0, n1, n2]) (hne : sdf.get [1, 0, 0] ≠ sdf.get [0, 1, 0]) {res : ℝ} (hr : 0 < res) :
    ¬ Shows (shown sdf n0 n1 n2 res ⟨0, 0, 0⟩) sdf n0 n1 n2 res ⟨0, 0, 0⟩ := by
  intro h
  obtain ⟨v, hv⟩ := get_some hw (j := [0, 1, 0]) (by rw [hs]; exact inRange3.mpr ⟨0, 1, 0, rfl, by omega, by omega, by omega⟩)
  have e : sdf.data[0 * (n0 * n2) + (1 * n2 + 0)]? = some v := by
    rw [← hv]
    unfold NpArr.get
    rw [hs, ravel3 (by omega) (by omega) (by omega)]
    simp
  have := (h 1 (by omega) 0 (by omega) 0 (by omega)).2 _ v (mem_shown.mpr ⟨0, 1, 0, by omega, by omega, by omega, rfl, e⟩)
    (by simp only [InVoxel]; push_cast; refine ⟨⟨?_, ?_⟩, ⟨?_, ?_⟩, ?_, ?_⟩ <;> linarith)
  exact hne (this.trans hv.symm)

/-- C121 fails for the demo itself: with its shape, whatever the cell size, there is a cloud of one point, inside the volume, whose
distances are shown in the wrong voxels. -/
theorem C121_demo_false {R : Rounding} {res : ℝ} (hres : GoodRes R res) (h32 : 0 < R.r32 res) {G : Type}
    (oobG : G) (grad : Grid FVal → Idx → Bool → List G) (hg : ∀ s v, InBounds s.dims v → (grad s v true).length = 3) :
    ∃ p env a g, InBox 25 20 15 res ⟨0, 0, 0⟩ p ∧ voxelize 25 20 15 res ⟨0, 0, 0⟩ [p] = some env ∧
      Py.compute3 R res oobG grad env = some (a, g) ∧
      ¬ Shows (shown a 25 20 15 res ⟨0, 0, 0⟩) a 25 20 15 res ⟨0, 0, 0⟩ := by
  have hr := hres.1
  set p : V3 ℝ := ⟨3 / 2 * res, 1 / 2 * res, 1 / 2 * res⟩ with hp
  have hin : InBox 25 20 15 res ⟨0, 0, 0⟩ p := by
    rw [hp]; simp only [InBox]; push_cast; refine ⟨⟨?_, ?_⟩, ⟨?_, ?_⟩, ?_, ?_⟩ <;> linarith only [hr]
  obtain ⟨env, a, g, h1, h2, h3, h4⟩ := C120_distances (n0 := 25) (n1 := 20) (n2 := 15) (by unfold SmallGrid; decide)
    (by norm_num) hres h32 oobG grad hg (o := ⟨0, 0, 0⟩) (pc := [p]) (by simpa using hin)
  refine ⟨p, env, a, g, hin, h1, h2, C121_false (by norm_num) (by norm_num) (by norm_num) (Py.compute3_wf h2).1 h3 ?_ hr⟩
  obtain ⟨v, ev, v1, -⟩ := h4 1 (by norm_num) 0 (by norm_num) 0 (by norm_num)
  obtain ⟨w, ew, -, w2⟩ := h4 0 (by norm_num) 1 (by norm_num) 0 (by norm_num)
  have hv : v < 0 := v1.mpr ⟨p, by simp, by
    rw [hp]; simp only [InVoxel]; push_cast; refine ⟨⟨?_, ?_⟩, ⟨?_, ?_⟩, ?_, ?_⟩ <;> linarith only [hr]⟩
  have hw : 0 < w := w2.mpr (by
    intro q hq
    simp only [List.mem_singleton] at hq
    subst hq
    rw [hp]
    rintro ⟨⟨h, -⟩, ⟨h', -⟩, -⟩
    push_cast at h h'
    linarith only [h, h', hr])
  rw [ev, ew]
  intro e
  simp only [Option.some.injEq] at e
  exact absurd (e ▸ hv) (not_lt.mpr hw.le)

/-- The hypotheses of `C120_distances` and `C121_demo_false` in IEEE arithmetic. -/
example : GoodRes ieee (1 / 4) ∧ 0 < ieee.r32 ((1 / 4 : ℝ) : EReal) ∧ SmallGrid ⟨20, 25, 15⟩ :=
  ⟨quarter_good, (ieee_resolution (by norm_num) (by norm_num)).1, by unfold SmallGrid; decide⟩

/-- C121 fails for a volume whose corner is not at the origin of the frame: with the corner at least half the extent
along x, no published point lies in the volume. -/
theorem C121_corner_false {V : Type} (sdf : NpArr V) (n0 n1 n2 : ℕ) {res : ℝ} (hr : 0 < res) {o : V3 ℝ}
    (ho : n0 * res / 2 ≤ o.x) : ∀ q v, (q, v) ∈ shown sdf n0 n1 n2 res o → ¬ InBox n0 n1 n2 res o q := by
  intro q v hq hin
  obtain ⟨a, b, c, -, hb, -, rfl, -⟩ := mem_shown.mp hq
  have h1 := hin.1.1
  dsimp only at h1
  have : (b : ℝ) + 1 ≤ n0 := by exact_mod_cast hb
  have : ((b : ℝ) + 1) * res ≤ n0 * res := by gcongr
  linarith

theorem arrays3_wf {res : ℝ} {p : V3 ℝ} {env : NpArr Bool} {a g : NpArr FVal}
    (h : Py.arrays3 ieee res p env = some (a, g)) : a.WF ∧ g.WF := by
  unfold Py.arrays3 at h
  rw [Option.map_eq_some_iff] at h
  obtain ⟨⟨a', g'⟩, hc, e⟩ := h
  obtain ⟨w1, w2⟩ := Py.compute3_wf hc
  simp only [Prod.mk.injEq] at e
  obtain ⟨rfl, rfl⟩ := e
  constructor
  · simpa [WF, Py.astype32] using w1
  · simpa [WF, Py.astype32] using w2

theorem cells3 {res : ℝ} (hres : GoodRes ieee res) (hlo : 1 / 2 ^ 100 ≤ res) (hhi : res ≤ 2 ^ 100) (o : V3 ℝ)
    {env : NpArr Bool} (hw : env.WF) {nx ny nz : ℕ} (hs : env.shape = [ny, nx, nz]) (hd : SmallGrid ⟨nx, ny, nz⟩)
    (hne : 0 < nx * ny * nz) {a g : NpArr FVal} (h : Py.arrays3 ieee res o env = some (a, g)) :
    ∃ fill out, Answers ⟨nx, ny, nz⟩ fill (fun v => decide (env.get (Py.pyIdx v) = some true)) ∧
      extract ieee (res, res, res) ⟨nx, ny, nz⟩ fill Py.oobValue false = some out ∧
      ∀ x < nx, ∀ y < ny, ∀ z < nz, a.get [y, x, z] = some (out.sdf.get ⟨x, y, z⟩) := by
  have hlo' : 1 / 2 ^ 126 ≤ res := le_trans (by norm_num) hlo
  have h32 := (ieee_resolution hlo' hhi).1
  have hr := Py.rng_of hlo hhi
  obtain ⟨s, a', g', hc, sd, h2, h3, h4, h5⟩ := C50_3d hres h32 Py.oobValue (Py.cellGradient ieee o res)
    (cell_length hr o) hw hs hd hne
  obtain ⟨f1, f2⟩ := fill3_get env ⟨nx, ny, nz⟩
  have hA := fill_answers f1 _ f2
  unfold Py.computeSdf3 at hc
  rw [hs] at hc
  simp only [Option.map_eq_some_iff] at hc
  obtain ⟨out, ho, rfl⟩ := hc
  unfold extractMap at ho
  rw [f1] at ho
  refine ⟨_, out, hA, ho, ?_⟩
  intro x hx y hy z hz
  unfold Py.arrays3 at h
  rw [h2] at h
  have ha : Py.astype32 ieee a' = a := congrArg Prod.fst (Option.some.inj h)
  obtain ⟨⟨v, v1, v2, -⟩, -⟩ := h5 x hx y hy z hz
  have := (Py.field_values hres hlo' hhi hd hA ho (v := ⟨x, y, z⟩)
    ⟨⟨by simp, by simpa using hx⟩, ⟨by simp, by simpa using hy⟩, by simp, by simpa using hz⟩).1
  rw [v2] at this
  rw [← ha, Py.get_astype32, v1, v2, Option.map_some, this]

/-- C121 fails for the arrows: in a volume of two voxels along x with a point in the first, the distances grow along x,
and the only arrow shown points along y. -/
theorem C121_arrows_false : ∃ (p : V3 ℝ) (env : NpArr Bool) (a g : NpArr FVal) (d0 d1 gx gy gz : ℝ) (start : V3 ℝ),
    InBox 2 1 1 (1 / 4) ⟨0, 0, 0⟩ p ∧ voxelize 2 1 1 (1 / 4) ⟨0, 0, 0⟩ [p] = some env ∧
    Py.arrays3 ieee (1 / 4) ⟨0, 0, 0⟩ env = some (a, g) ∧ a.get [0, 0, 0] = some (real d0) ∧
    a.get [1, 0, 0] = some (real d1) ∧ d0 < 0 ∧ 0 < d1 ∧
    arrows g 2 1 1 (1 / 4) ⟨0, 0, 0⟩ = [(start, real gx, real gy, real gz)] ∧ |gx| < 1 / 2 ^ 100 ∧ 1 < gy := by
  set p : V3 ℝ := ⟨1 / 8, 1 / 8, 1 / 8⟩ with hp
  have hin : InBox 2 1 1 (1 / 4) ⟨0, 0, 0⟩ p := by rw [hp]; norm_num [InBox]
  obtain ⟨env, e1, e2, e3, e4⟩ := C120_voxels_partial (n0 := 2) (n1 := 1) (n2 := 1) (res := 1 / 4) (by norm_num)
    (o := ⟨0, 0, 0⟩) (pc := [p]) (by simpa using hin)
  have v0 : env.get [0, 0, 0] = some true := by
    rcases e4 0 (by norm_num) 0 (by norm_num) 0 (by norm_num) with ⟨h, -⟩ | ⟨-, h⟩
    · exact h
    · exact absurd (by rw [hp]; norm_num [InVoxel]) (h p (by simp))
  have v1 : env.get [1, 0, 0] = some false := by
    rcases e4 1 (by norm_num) 0 (by norm_num) 0 (by norm_num) with ⟨-, q, hq, h⟩ | ⟨h, -⟩
    · simp only [List.mem_singleton] at hq
      subst hq
      rw [hp] at h
      norm_num [InVoxel] at h
    · exact h
  have hd : SmallGrid ⟨1, 2, 1⟩ := by unfold SmallGrid; decide
  obtain ⟨a, g, h1, h2, h3, h4⟩ := Py.C116_3d quarter_good (by norm_num) (by norm_num) ⟨0, 0, 0⟩ e3 e2 hd (by norm_num)
  obtain ⟨fill, out, hA, ho, hcell⟩ := cells3 quarter_good (by norm_num) (by norm_num) ⟨0, 0, 0⟩ e3 e2 hd (by norm_num) h1
  have near : ∀ j : ℕ, j < 2 → NearestOpposite ⟨1, 2, 1⟩ (fun v => decide (env.get (Py.pyIdx v) = some true)) ⟨0, j, 0⟩ 1 := by
    intro j hj
    have hf0 : (fun v => decide (env.get (Py.pyIdx v) = some true)) ⟨0, 0, 0⟩ = true := decide_eq_true v0
    have hf1 : (fun v => decide (env.get (Py.pyIdx v) = some true)) ⟨0, 1, 0⟩ = false := by
      have : Py.pyIdx ⟨0, 1, 0⟩ = [1, 0, 0] := rfl
      simp only [this, v1]
      decide
    refine ⟨⟨⟨0, 1 - j, 0⟩, ⟨⟨⟨by simp, by simp⟩, ⟨by simp; omega, by simp; omega⟩, by simp, by simp⟩, ?_⟩, ?_⟩, ?_⟩
    · interval_cases j
      · exact fun h => by rw [show (1 : ℤ) - (0 : ℕ) = 1 from rfl] at h; exact absurd (hf0.symm.trans (h.symm.trans hf1)) (by decide)
      · exact fun h => by rw [show (1 : ℤ) - (1 : ℕ) = 0 from rfl] at h; exact absurd (hf0.symm.trans (h.trans hf1)) (by decide)
    · interval_cases j <;> simp [sqDist]
    · rintro ⟨px, py, pz⟩ ⟨-, hne⟩
      by_contra hlt
      have h0 : px = 0 ∧ py = j ∧ pz = 0 := by
        have hs : sqDist ⟨0, j, 0⟩ ⟨px, py, pz⟩ < 1 := not_le.mp hlt
        unfold sqDist at hs
        simp only at hs
        refine ⟨?_, ?_, ?_⟩
        · have : px ^ 2 = 0 := by nlinarith only [hs, sq_nonneg px, sq_nonneg ((j : ℤ) - py), sq_nonneg pz]
          exact pow_eq_zero_iff (by norm_num) |>.mp this
        · have : ((j : ℤ) - py) ^ 2 = 0 := by nlinarith only [hs, sq_nonneg px, sq_nonneg ((j : ℤ) - py), sq_nonneg pz]
          have := pow_eq_zero_iff (by norm_num) |>.mp this
          omega
        · have : pz ^ 2 = 0 := by nlinarith only [hs, sq_nonneg px, sq_nonneg ((j : ℤ) - py), sq_nonneg pz]
          exact pow_eq_zero_iff (by norm_num) |>.mp this
      obtain ⟨rfl, rfl, rfl⟩ := h0
      exact hne rfl
  have hv : ∀ j < 2, InBounds ⟨1, 2, 1⟩ ⟨0, (j : ℕ), 0⟩ := by
    intro j hj
    exact ⟨⟨by simp, by simp⟩, ⟨by simp, by simp; omega⟩, by simp, by simp⟩
  obtain ⟨y0, p0, q0, r0⟩ := C86_near quarter_good (by norm_num) (by norm_num) hd hA ho (hv 0 (by norm_num)) (near 0 (by norm_num)) (by norm_num)
  obtain ⟨y1, p1, q1, r1⟩ := C86_near quarter_good (by norm_num) (by norm_num) hd hA ho (hv 1 (by norm_num)) (near 1 (by norm_num)) (by norm_num)
  have c0 := hcell 0 (by norm_num) 0 (by norm_num) 0 (by norm_num)
  have c1 := hcell 0 (by norm_num) 1 (by norm_num) 0 (by norm_num)
  rw [show (⟨((0 : ℕ) : ℤ), ((0 : ℕ) : ℤ), ((0 : ℕ) : ℤ)⟩ : Idx) = ⟨0, ((0 : ℕ) : ℤ), 0⟩ from rfl, p0,
    if_pos (by exact decide_eq_true v0)] at c0
  rw [show (⟨((0 : ℕ) : ℤ), ((1 : ℕ) : ℤ), ((0 : ℕ) : ℤ)⟩ : Idx) = ⟨0, ((1 : ℕ) : ℤ), 0⟩ from rfl, p1,
    if_neg (by
      have : Py.pyIdx ⟨0, ((1 : ℕ) : ℤ), 0⟩ = [1, 0, 0] := rfl
      simp only [this, v1]
      decide)] at c1
  obtain ⟨hh, -⟩ := h4 0 (by norm_num) 0 (by norm_num) 0 (by norm_num)
  obtain ⟨gx, gy, gz, g0, g1, g2, rx, ry, -⟩ := hh (by
    rintro q (⟨j, hj, rfl⟩ | ⟨j, hj, rfl⟩ | ⟨j, hj, rfl⟩)
    · exact absurd hj.1 (by simp [before, following])
    · have := Py.used_lt (by norm_num) hj
      interval_cases j
      · exact ⟨_, c0⟩
      · exact ⟨_, c1⟩
    · exact absurd hj.1 (by simp [before, following]))
  have ax : quotient (1 / 4) 1 0 (fun j => a.number [0, j, 0]) = 0 := by simp [quotient, before, following]
  have ay : quotient (1 / 4) 2 0 (fun j => a.number [j, 0, 0]) = (y1 + y0) / (1 / 4) := by
    have n0 : a.number [0, 0, 0] = -y0 := NpArr.number_eq c0
    have n1 : a.number [1, 0, 0] = y1 := NpArr.number_eq c1
    simp [quotient, before, following, n0, n1]
  rw [ax] at rx
  rw [ay] at ry
  rw [Int.cast_one, Real.sqrt_one, relErr, abs_le] at r0 r1
  obtain ⟨wl, gw⟩ := arrays3_wf h1
  have glen : g.data.length = 6 := by rw [gw, h3]; rfl
  refine ⟨p, env, a, g, -y0, y1, gx, gy, gz, ⟨0, 0, 0⟩, hin, e1, h1, c0, c1, by linarith only [q0], q1, ?_, ?_, ?_⟩
  · match hdat : g.data, glen with
    | [d0, d1, d2, d3, d4, d5], _ =>
      rw [NpArr.get, h3] at g0 g1 g2
      simp [NpArr.ravel, hdat] at g0 g1 g2
      subst g0 g1 g2
      simp [arrows, hdat, rows3, every, gridPoints, NpArr.allIdx, meshEntry]
      simp [List.range_succ]
  · unfold Rounded at rx
    rw [sub_zero, abs_zero] at rx
    refine lt_of_le_of_lt rx (by norm_num)
  · unfold Rounded at ry
    rw [abs_of_pos (by positivity : 0 < (y1 + y0) / (1 / 4)), abs_le] at ry
    have : (1 : ℝ) / 2 ^ 146 / (1 / 4) + 1 / 2 ^ 148 < 1 / 2 ^ 20 := by norm_num
    linarith [ry.1, r0.1, r1.1]

end Demo

end Verif
