import Verif.Tutorial
import Verif.Props.Located
import Verif.Props.CollisionMap
import Verif.Props.BoxExact
import Verif.Props.AutoDiffFloat

/-!
# What the tutorial program computes (C127)
-/

namespace Verif

open Spec

namespace Tutorial

variable {K : Type} [Field K] [LinearOrder K] [IsStrictOrderedRing K] [FloorRing K]

/-- The low corner block: the first half of the cells on every axis. -/
def Block (d : Dims) (i : Idx) : Prop :=
  2 * i.x + 2 ≤ d.nx ∧ 2 * i.y + 2 ≤ d.ny ∧ 2 * i.z + 2 ≤ d.nz

/-- `c` is the cell in the middle: the first one beyond the first half on every axis. -/
def Middle (d : Dims) (c : Idx) : Prop :=
  (2 * c.x ≤ d.nx ∧ (d.nx : ℤ) < 2 * c.x + 2) ∧ (2 * c.y ≤ d.ny ∧ (d.ny : ℤ) < 2 * c.y + 2) ∧
    2 * c.z ≤ d.nz ∧ (d.nz : ℤ) < 2 * c.z + 2

/-- The grid is centred at the origin of its frame: the far corner is opposite to the near one. -/
def Centred (F : Frame K) (d : Dims) : Prop :=
  F.inv.app id ⟨0, 0, 0⟩ = ⟨d.nx * F.res / 2, d.ny * F.res / 2, d.nz * F.res / 2⟩

theorem block_iff {d : Dims} {i : Idx} : inOctant d i ↔ Block d i := by
  unfold inOctant Block; omega

theorem middle_eq {d : Dims} {c : Idx} (h : Middle d c) :
    c = ⟨((d.nx / 2 : Nat) : Int), ((d.ny / 2 : Nat) : Int), ((d.nz / 2 : Nat) : Int)⟩ := by
  unfold Middle at h
  ext <;> dsimp only <;> omega

theorem fold_spec (d : Dims) : ∀ (l : List Idx) (m : CMap), m.grid.WF → m.dims = d → m.valid = false →
    (l.foldl (fun acc i => if inOctant d i then (acc.setValue i obstacle).1 else acc) m).grid.WF ∧
    (l.foldl (fun acc i => if inOctant d i then (acc.setValue i obstacle).1 else acc) m).dims = d ∧
    (l.foldl (fun acc i => if inOctant d i then (acc.setValue i obstacle).1 else acc) m).valid = false ∧
    ∀ i, InBounds d i →
      ((l.foldl (fun acc i => if inOctant d i then (acc.setValue i obstacle).1 else acc) m).getImm i).1 =
        if i ∈ l ∧ inOctant d i then obstacle else (m.getImm i).1 := by
  intro l
  induction l with
  | nil => intro m h1 h2 h3; exact ⟨h1, h2, h3, fun i _ => by simp⟩
  | cons j l ih =>
    intro m h1 h2 h3
    simp only [List.foldl_cons]
    by_cases hj : inOctant d j
    · simp only [hj, if_true]
      by_cases hb : m.grid.dims.inB j = true
      · have hs : (m.setValue j obstacle).1 = ⟨m.grid.set j obstacle, m.nComp, false⟩ := by
          simp [CMap.setValue, hb]
        obtain ⟨g1, g2, g3, g4⟩ := ih (m.setValue j obstacle).1 (by rw [hs]; exact Grid.WF.set h1 _ _)
          (by rw [hs]; exact (Grid.dims_set ..).trans h2) (by rw [hs])
        refine ⟨g1, g2, g3, fun i hi => ?_⟩
        rw [g4 i hi, hs]
        have hib : m.grid.dims.inB i = true := by
          have : m.grid.dims = d := h2
          rw [this]; exact inB_iff_spec.mpr hi
        by_cases hij : i = j
        · subst hij
          simp [hj, CMap.getImm_of_inB, Grid.get_set_self h1 hb]
        · simp only [CMap.getImm_of_inB, List.mem_cons, hij, false_or]
          rw [Grid.get_set_ne h1 (Ne.symm hij)]
      · have hs : (m.setValue j obstacle).1 = m := by simp [CMap.setValue, hb]
        rw [hs]
        obtain ⟨g1, g2, g3, g4⟩ := ih m h1 h2 h3
        refine ⟨g1, g2, g3, fun i hi => ?_⟩
        rw [g4 i hi]
        have hij : i ≠ j := by
          rintro rfl
          have : m.grid.dims = d := h2
          exact hb (by rw [this]; exact inB_iff_spec.mpr hi)
        simp [hij]
    · simp only [hj, if_false]
      obtain ⟨g1, g2, g3, g4⟩ := ih m h1 h2 h3
      refine ⟨g1, g2, g3, fun i hi => ?_⟩
      rw [g4 i hi]
      by_cases hij : i = j
      · subst hij; simp [hj]
      · simp [hij]

theorem middle_cell {F : Frame K} (hF : GoodFrame F) {d : Dims} (hc : Centred F d) {c : Idx} (h : Middle d c) :
    Names F (.coords 0 0 0) c := by
  show InCell F c ⟨0, 0, 0⟩
  rw [Frame.inCell_iff hF]
  have hr := hF.res
  unfold Frame.loc3
  rw [hc]
  have key : ∀ (n : Nat) (a : ℤ), 2 * a ≤ n → (n : ℤ) < 2 * a + 2 → ⌊(n : K) * F.res / 2 / F.res⌋ = a := by
    intro n a h1 h2
    have e : (n : K) * F.res / 2 / F.res = n / 2 := by field_simp
    rw [e, Int.floor_eq_iff]
    have h1' : (2 : K) * a ≤ n := by exact_mod_cast h1
    have h2' : (n : K) < 2 * a + 2 := by exact_mod_cast h2
    constructor
    · rw [le_div_iff₀ (by norm_num)]; linarith
    · rw [div_lt_iff₀ (by norm_num)]; linarith
  obtain ⟨⟨a1, a2⟩, ⟨b1, b2⟩, c1, c2⟩ := h
  simp only [Frame.cellOf, key _ _ a1 a2, key _ _ b1 b2, key _ _ c1 c2]

theorem map_spec {F : Frame K} (hF : GoodFrame F) {d : Dims} (hc : Centred F d) {c : Idx} (h : Middle d c)
    (hcb : InBounds d c) :
    (map F d).grid.WF ∧ (map F d).dims = d ∧ (map F d).valid = false ∧
      ∀ i, InBounds d i → (map F d).getImm i =
        (open Classical in if Block d i ∨ i = c then obstacle else CCell.ofOcc F32.zero, true) := by
  obtain ⟨h1, h2, h3, h4⟩ := fold_spec d d.all (CMap.create d (CCell.ofOcc F32.zero) (CCell.ofOcc F32.zero))
    (Grid.wf_mk' ..) rfl rfl
  have e : fillOctant (CMap.create d (CCell.ofOcc F32.zero) (CCell.ofOcc F32.zero)) =
      d.all.foldl (fun acc i => if inOctant d i then (acc.setValue i obstacle).1 else acc)
        (CMap.create d (CCell.ofOcc F32.zero) (CCell.ofOcc F32.zero)) := rfl
  rw [← e] at h1 h2 h3 h4
  have hn := (Place.names_iff hF (a := .coords 0 0 0) trivial c).mp (middle_cell hF hc h)
  have hb : (fillOctant (CMap.create d (CCell.ofOcc F32.zero) (CCell.ofOcc F32.zero))).grid.dims.inB c = true := by
    have : (fillOctant (CMap.create d (CCell.ofOcc F32.zero) (CCell.ofOcc F32.zero))).grid.dims = d := h2
    rw [this]; exact inB_iff_spec.mpr hcb
  have hm : map F d = ⟨(fillOctant (CMap.create d (CCell.ofOcc F32.zero) (CCell.ofOcc F32.zero))).grid.set c obstacle,
      (fillOctant (CMap.create d (CCell.ofOcc F32.zero) (CCell.ofOcc F32.zero))).nComp, false⟩ := by
    unfold map CMap.setAt CMap.setValue4
    have hn' : F.loc4 ⟨0, 0, 0⟩ 1 = c := hn
    simp only [hn', hb, if_true, CMap.setValue]
  rw [hm]
  refine ⟨Grid.WF.set h1 _ _, (Grid.dims_set ..).trans h2, rfl, fun i hi => ?_⟩
  have hib : (fillOctant (CMap.create d (CCell.ofOcc F32.zero) (CCell.ofOcc F32.zero))).grid.dims.inB i = true := by
    have : (fillOctant (CMap.create d (CCell.ofOcc F32.zero) (CCell.ofOcc F32.zero))).grid.dims = d := h2
    rw [this]; exact inB_iff_spec.mpr hi
  refine Prod.ext ?_ (by simpa [CMap.getImm, Grid.getImm, Grid.dims_set] using hib)
  show Grid.get _ i = _
  by_cases hic : i = c
  · subst hic
    rw [Grid.get_set_self h1 hb]
    simp
  · rw [Grid.get_set_ne h1 (Ne.symm hic)]
    have := h4 i hi
    rw [CMap.getImm_of_inB] at this
    rw [this]
    have hall : i ∈ d.all := Dims.mem_all.mpr (inB_iff_spec.mpr hi)
    have h0 : ((CMap.create d (CCell.ofOcc F32.zero) (CCell.ofOcc F32.zero)).getImm i).1 = CCell.ofOcc F32.zero := by
      simp [CMap.getImm, Grid.getImm, CMap.create, Grid.get_mk', inB_iff_spec.mpr hi]
    by_cases hB : Block d i
    · simp [hall, hic, hB, block_iff.mpr hB]
    · simp [hic, hB, h0, show ¬ inOctant d i from fun h => hB (block_iff.mp h)]

/-! ## Paths -/

/-- Moving along one axis through cells that take part and are compatible. -/
theorem run {e : Idx → Prop} {r : Idx → Idx → Prop} {S : Idx → Prop} (hS : ∀ i, S i → e i)
    (hr : ∀ i j, S i → S j → r i j) (g : ℤ → Idx) (hg : ∀ t, FaceAdj (g t) (g (t + 1))) :
    ∀ (n : ℕ) (a : ℤ), (∀ t, a ≤ t → t ≤ a + n → S (g t)) → Linked e r (g a) (g (a + n)) := by
  intro n
  induction n with
  | zero => intro a _; simp only [Nat.cast_zero, add_zero]; exact Relation.ReflTransGen.refl
  | succ n ih =>
    intro a h
    refine (ih a fun t h1 h2 => h t h1 (by push_cast; omega)).tail ?_
    have s1 := h (a + n) (by omega) (by push_cast; omega)
    have s2 := h (a + n + 1) (by omega) (by push_cast; omega)
    have e1 : a + ((n + 1 : ℕ) : ℤ) = a + n + 1 := by push_cast; ring
    rw [e1]
    exact ⟨hS _ s1, hS _ s2, hg _, hr _ _ s1 s2⟩

theorem linked_symm {e : Idx → Prop} {r : Idx → Idx → Prop} (hr : ∀ i j, r i j → r j i) {i j : Idx}
    (h : Linked e r i j) : Linked e r j i := by
  induction h with
  | refl => exact Relation.ReflTransGen.refl
  | tail _ hs ih =>
    refine Relation.ReflTransGen.head ⟨hs.2.1, hs.1, ?_, hr _ _ hs.2.2.2⟩ ih
    have := hs.2.2.1
    unfold FaceAdj at this ⊢
    simp only [abs_sub_comm] at this ⊢
    exact this

section Moves

variable {e : Idx → Prop} {r : Idx → Idx → Prop} {S : Idx → Prop}

theorem move (hS : ∀ i, S i → e i) (hr : ∀ i j, S i → S j → r i j) (hs : ∀ i j, r i j → r j i) (g : ℤ → Idx)
    (hg : ∀ t, FaceAdj (g t) (g (t + 1))) {a b : ℤ} (h : ∀ t, min a b ≤ t → t ≤ max a b → S (g t)) :
    Linked e r (g a) (g b) := by
  rcases le_total a b with hab | hab
  · have := run hS hr g hg (b - a).toNat a fun t h1 h2 => h t (by omega) (by omega)
    rwa [show a + ((b - a).toNat : ℤ) = b by omega] at this
  · have := run hS hr g hg (a - b).toNat b fun t h1 h2 => h t (by omega) (by omega)
    rw [show b + ((a - b).toNat : ℤ) = a by omega] at this
    exact linked_symm hs this

theorem moveX (hS : ∀ i, S i → e i) (hr : ∀ i j, S i → S j → r i j) (hs : ∀ i j, r i j → r j i) {a b y z : ℤ}
    (h : ∀ t, min a b ≤ t → t ≤ max a b → S ⟨t, y, z⟩) : Linked e r ⟨a, y, z⟩ ⟨b, y, z⟩ :=
  move hS hr hs (fun t => ⟨t, y, z⟩) (fun t => by simp [FaceAdj]) h

theorem moveY (hS : ∀ i, S i → e i) (hr : ∀ i j, S i → S j → r i j) (hs : ∀ i j, r i j → r j i) {a b x z : ℤ}
    (h : ∀ t, min a b ≤ t → t ≤ max a b → S ⟨x, t, z⟩) : Linked e r ⟨x, a, z⟩ ⟨x, b, z⟩ :=
  move hS hr hs (fun t => ⟨x, t, z⟩) (fun t => by simp [FaceAdj]) h

theorem moveZ (hS : ∀ i, S i → e i) (hr : ∀ i j, S i → S j → r i j) (hs : ∀ i j, r i j → r j i) {a b x y : ℤ}
    (h : ∀ t, min a b ≤ t → t ≤ max a b → S ⟨x, y, t⟩) : Linked e r ⟨x, y, a⟩ ⟨x, y, b⟩ :=
  move hS hr hs (fun t => ⟨x, y, t⟩) (fun t => by simp [FaceAdj]) h

/-- The cells of the grid below `c` on every axis are linked with the first cell. -/
theorem block_linked {d : Dims} {c : Idx} (hc : InBounds d c)
    (hS : ∀ i, (InBounds d i ∧ i.x < c.x ∧ i.y < c.y ∧ i.z < c.z) → e i)
    (hr : ∀ i j, (InBounds d i ∧ i.x < c.x ∧ i.y < c.y ∧ i.z < c.z) →
      (InBounds d j ∧ j.x < c.x ∧ j.y < c.y ∧ j.z < c.z) → r i j)
    (hs : ∀ i j, r i j → r j i) {i : Idx} (hi : InBounds d i ∧ i.x < c.x ∧ i.y < c.y ∧ i.z < c.z) :
    Linked e r i ⟨0, 0, 0⟩ := by
  obtain ⟨x, y, z⟩ := i
  unfold InBounds at *
  dsimp only at *
  have h1 : Linked e r ⟨x, y, z⟩ ⟨0, y, z⟩ := moveX hS hr hs fun t _ _ => by dsimp only; omega
  have h2 : Linked e r ⟨0, y, z⟩ ⟨0, 0, z⟩ := moveY hS hr hs fun t _ _ => by dsimp only; omega
  have h3 : Linked e r ⟨0, 0, z⟩ ⟨0, 0, 0⟩ := moveZ hS hr hs fun t _ _ => by dsimp only; omega
  exact (h1.trans h2).trans h3

/-- The other cells of the grid, without `c` itself, are linked with each other. -/
theorem rest_linked {d : Dims} {c : Idx} (hc : InBounds d c) (hx : 1 ≤ c.x) (hy : 1 ≤ c.y) (hz : 1 ≤ c.z)
    (hS : ∀ i, (InBounds d i ∧ ¬ (i.x < c.x ∧ i.y < c.y ∧ i.z < c.z) ∧
      ¬ (i.x = c.x ∧ i.y = c.y ∧ i.z = c.z)) → e i)
    (hr : ∀ i j, (InBounds d i ∧ ¬ (i.x < c.x ∧ i.y < c.y ∧ i.z < c.z) ∧
        ¬ (i.x = c.x ∧ i.y = c.y ∧ i.z = c.z)) →
      (InBounds d j ∧ ¬ (j.x < c.x ∧ j.y < c.y ∧ j.z < c.z) ∧
        ¬ (j.x = c.x ∧ j.y = c.y ∧ j.z = c.z)) → r i j)
    (hs : ∀ i j, r i j → r j i) {i : Idx} (hi : InBounds d i ∧ ¬ (i.x < c.x ∧ i.y < c.y ∧ i.z < c.z) ∧
      ¬ (i.x = c.x ∧ i.y = c.y ∧ i.z = c.z)) :
    Linked e r i ⟨0, 0, c.z⟩ := by
  obtain ⟨x, y, z⟩ := i
  obtain ⟨a, b, k⟩ := c
  unfold InBounds at *
  dsimp only at *
  obtain ⟨hb, hn, hne⟩ := hi
  have up : ∀ x y z : ℤ, ((0 ≤ x ∧ x < d.nx) ∧ (0 ≤ y ∧ y < d.ny) ∧ (0 ≤ z ∧ z < d.nz)) → k ≤ z →
      (y ≠ b ∨ z ≠ k ∨ x < a) → Linked e r ⟨x, y, z⟩ ⟨0, 0, k⟩ := by
    intro x y z hb hz' hcase
    have h1 : Linked e r ⟨x, y, z⟩ ⟨0, y, z⟩ := moveX hS hr hs fun t _ _ => by dsimp only; omega
    have h2 : Linked e r ⟨0, y, z⟩ ⟨0, 0, z⟩ := moveY hS hr hs fun t _ _ => by dsimp only; omega
    have h3 : Linked e r ⟨0, 0, z⟩ ⟨0, 0, k⟩ := moveZ hS hr hs fun t _ _ => by dsimp only; omega
    exact (h1.trans h2).trans h3
  have side : ∀ x y z : ℤ, ((0 ≤ x ∧ x < d.nx) ∧ (0 ≤ y ∧ y < d.ny) ∧ (0 ≤ z ∧ z < d.nz)) → a ≤ x →
      (x ≠ a ∨ z ≠ k ∨ y < b) → Linked e r ⟨x, y, z⟩ ⟨0, 0, k⟩ := by
    intro x y z hb hx' hcase
    have h1 : Linked e r ⟨x, y, z⟩ ⟨x, 0, z⟩ := moveY hS hr hs fun t _ _ => by dsimp only; omega
    have h2 : Linked e r ⟨x, 0, z⟩ ⟨x, 0, k⟩ := moveZ hS hr hs fun t _ _ => by dsimp only; omega
    exact (h1.trans h2).trans (up x 0 k (by omega) (by omega) (by omega))
  have front : ∀ x y z : ℤ, ((0 ≤ x ∧ x < d.nx) ∧ (0 ≤ y ∧ y < d.ny) ∧ (0 ≤ z ∧ z < d.nz)) → b ≤ y →
      (x ≠ a ∨ y ≠ b ∨ z < k) → Linked e r ⟨x, y, z⟩ ⟨0, 0, k⟩ := by
    intro x y z hb hy' hcase
    have h1 : Linked e r ⟨x, y, z⟩ ⟨x, y, 0⟩ := moveZ hS hr hs fun t _ _ => by dsimp only; omega
    have h2 : Linked e r ⟨x, y, 0⟩ ⟨0, y, 0⟩ := moveX hS hr hs fun t _ _ => by dsimp only; omega
    have h3 : Linked e r ⟨0, y, 0⟩ ⟨0, y, k⟩ := moveZ hS hr hs fun t _ _ => by dsimp only; omega
    exact ((h1.trans h2).trans h3).trans (up 0 y k (by omega) (by omega) (by omega))
  by_cases h1 : k ≤ z
  · by_cases h2 : y ≠ b ∨ z ≠ k ∨ x < a
    · exact up x y z hb h1 h2
    · have h3 : Linked e r ⟨x, y, z⟩ ⟨x, b - 1, z⟩ := moveY hS hr hs fun t _ _ => by dsimp only; omega
      exact h3.trans (up x (b - 1) z (by omega) h1 (by omega))
  by_cases h2 : a ≤ x
  · exact side x y z hb h2 (by omega)
  · exact front x y z hb (by omega) (by omega)

/-- A cell all of whose face neighbours are incompatible is linked with itself only. -/
theorem alone {c : Idx} (h : ∀ j, e j → FaceAdj c j → ¬ r c j) {j : Idx} (hl : Linked e r c j) : j = c := by
  induction hl with
  | refl => rfl
  | tail _ hs ih =>
    subst ih
    exact absurd hs.2.2.2 (h _ hs.2.1 hs.2.2.1)

end Moves

/-! ## Components -/

theorem middle_lt {d : Dims} {c : Idx} (h : Middle d c) (i : Idx) :
    Block d i ↔ i.x < c.x ∧ i.y < c.y ∧ i.z < c.z := by
  unfold Middle at h
  unfold Block
  omega

theorem exists_middle {d : Dims} (hx : 2 ≤ d.nx) (hy : 2 ≤ d.ny) (hz : 2 ≤ d.nz) :
    ∃ c, Middle d c ∧ InBounds d c ∧ 1 ≤ c.x ∧ 1 ≤ c.y ∧ 1 ≤ c.z := by
  refine ⟨⟨((d.nx / 2 : Nat) : Int), ((d.ny / 2 : Nat) : Int), ((d.nz / 2 : Nat) : Int)⟩, ?_, ?_, ?_⟩
  · unfold Middle; dsimp only; omega
  · unfold InBounds; dsimp only; omega
  · dsimp only; omega

open Classical in
theorem labelling {F : Frame K} (hF : GoodFrame F) {d : Dims} (hc : Centred F d) {c : Idx} (h : Middle d c)
    (hcb : InBounds d c) (hx : 1 ≤ c.x) (hy : 1 ≤ c.y) (hz : 1 ≤ c.z) :
    IsComponentLabelling (map F d) (fun i => if Block d i then 1 else if i = c then 3 else 2) 3 := by
  obtain ⟨_, hd, _, hg⟩ := map_spec hF hc h hcb
  have hobs : obstacle.occ.gtHalf = true := by decide
  have hfree : (CCell.ofOcc F32.zero).occ.gtHalf = false := by decide
  have hfill : ∀ i, InBounds d i → (((map F d).getImm i).1.occ.gtHalf = true ↔ Block d i ∨ i = c) := by
    intro i hi
    rw [hg i hi]
    by_cases hb : Block d i ∨ i = c
    · simp only [hb, if_true, hobs]
    · simp only [hb, if_false, hfree]; simp
  have hS : ∀ {P : Idx → Prop} (i : Idx), (InBounds d i ∧ P i) → inGrid (map F d) i := by
    intro P i hi; show InBounds (map F d).dims i; rw [hd]; exact hi.1
  have hsym : ∀ i j, sameSide (map F d) i j → sameSide (map F d) j i := fun i j hij => hij.symm
  have hbk := middle_lt h
  have e3 : ∀ i : Idx, i = c ↔ i.x = c.x ∧ i.y = c.y ∧ i.z = c.z := fun i => by
    constructor
    · rintro rfl; exact ⟨rfl, rfl, rfl⟩
    · rintro ⟨h1, h2, h3⟩; exact Idx.ext h1 h2 h3
  have hnc : ¬ Block d c := fun hb => by have := (hbk c).mp hb; omega
  have h000 : InBounds d ⟨0, 0, 0⟩ := by unfold InBounds at *; dsimp only; omega
  have h00k : InBounds d ⟨0, 0, c.z⟩ := by unfold InBounds at *; dsimp only; omega
  have linkA : ∀ i, InBounds d i → Block d i → Linked (inGrid (map F d)) (sameSide (map F d)) i ⟨0, 0, 0⟩ := by
    intro i hi hb
    refine block_linked hcb hS (fun i j hi hj => ?_) hsym ⟨hi, (hbk i).mp hb⟩
    show _ ↔ _
    rw [hfill i hi.1, hfill j hj.1]
    simp [(hbk i).mpr hi.2, (hbk j).mpr hj.2]
  have linkB : ∀ i, InBounds d i → ¬ Block d i → i ≠ c →
      Linked (inGrid (map F d)) (sameSide (map F d)) i ⟨0, 0, c.z⟩ := by
    intro i hi hb hne
    have neg : ∀ i, ¬ (i.x < c.x ∧ i.y < c.y ∧ i.z < c.z) ∧ ¬ (i.x = c.x ∧ i.y = c.y ∧ i.z = c.z) →
        ¬ (Block d i ∨ i = c) := by
      rintro i ⟨n1, n2⟩ (hb | hb)
      · exact n1 ((hbk i).mp hb)
      · exact n2 ((e3 i).mp hb)
    refine rest_linked hcb hx hy hz hS (fun i j hi hj => ?_) hsym
      ⟨hi, fun hc => hb ((hbk i).mpr hc), fun hc => hne ((e3 i).mpr hc)⟩
    show _ ↔ _
    rw [hfill i hi.1, hfill j hj.1]
    simp [neg i hi.2, neg j hj.2]
  have linkC : ∀ j, Linked (inGrid (map F d)) (sameSide (map F d)) c j → j = c := by
    intro j hl
    refine alone (fun j hj hadj hs => ?_) hl
    have hj' : InBounds d j := by have : InBounds (map F d).dims j := hj; rwa [hd] at this
    have hs' : _ ↔ _ := hs
    rw [hfill c hcb, hfill j hj'] at hs'
    unfold FaceAdj at hadj
    simp only [Int.abs_eq_natAbs] at hadj
    rcases hs'.mp (Or.inr rfl) with hb | hb
    · have := (hbk j).mp hb; omega
    · subst hb; simp at hadj
  have linkF : ∀ i j, Linked (inGrid (map F d)) (sameSide (map F d)) i j → sameSide (map F d) i j := by
    intro i j hl
    induction hl with
    | refl => exact Iff.rfl
    | tail _ hs ih => exact ih.trans hs.2.2.2
  have hin : ∀ i, inGrid (map F d) i → InBounds d i := by
    intro i hi; have : InBounds (map F d).dims i := hi; rwa [hd] at this
  have hnb : ¬ Block d ⟨0, 0, c.z⟩ := fun hb => by have := (hbk _).mp hb; dsimp only at this; omega
  have hnk : (⟨0, 0, c.z⟩ : Idx) ≠ c := fun hb => by have := ((e3 _).mp hb).1; dsimp only at this; omega
  have hB0 : Block d ⟨0, 0, 0⟩ := (hbk _).mpr (by dsimp only; omega)
  refine ⟨fun i hi => ?_, fun i j hi hj => ?_, fun k h1 h2 => ?_, fun i j hi hj => ?_⟩
  · split_ifs <;> omega
  · have hi' := hin i hi
    have hj' := hin j hj
    by_cases bi : Block d i
    · by_cases bj : Block d j
      · simp only [bi, bj, if_true, true_iff]
        exact (linkA i hi' bi).trans (linked_symm hsym (linkA j hj' bj))
      · simp only [bi, bj, if_true, if_false]
        refine ⟨fun he => by by_cases jc : j = c <;> simp [jc] at he, fun hl => ?_⟩
        exfalso
        by_cases jc : j = c
        · subst jc
          exact bj (linkC i (linked_symm hsym hl) ▸ bi)
        · have : _ ↔ _ := linkF i j hl
          rw [hfill i hi', hfill j hj'] at this
          rcases this.mp (Or.inl bi) with hb | hb
          · exact bj hb
          · exact jc hb
    · by_cases ic : i = c
      · subst ic
        simp only [bi, if_false, if_true]
        refine ⟨fun he => ?_, fun hl => ?_⟩
        · by_cases jc : j = i
          · rw [jc]; exact Relation.ReflTransGen.refl
          · by_cases bj : Block d j <;> simp [bj, jc] at he
        · have := linkC j hl
          subst this
          simp [bi]
      · simp only [bi, ic, if_false]
        by_cases bj : Block d j ∨ j = c
        · have hne : ¬ (2 = if Block d j then 1 else if j = c then 3 else 2) := by
            rcases bj with hb | hb
            · simp [hb]
            · subst hb; simp [hnc]
          simp only [hne, false_iff]
          intro hl
          have : _ ↔ _ := linkF i j hl
          rw [hfill i hi', hfill j hj'] at this
          rcases this.mpr bj with hb | hb
          · exact bi hb
          · exact ic hb
        · push Not at bj
          simp only [bj.1, bj.2, if_false, true_iff]
          exact (linkB i hi' bi ic).trans (linked_symm hsym (linkB j hj' bj.1 bj.2))
  · have up : ∀ i, InBounds d i → inGrid (map F d) i := fun i hi => by
      show InBounds (map F d).dims i; rw [hd]; exact hi
    rcases (by omega : k = 1 ∨ k = 2 ∨ k = 3) with rfl | rfl | rfl
    · exact ⟨_, up _ h000, by simp [hB0]⟩
    · exact ⟨_, up _ h00k, by simp [hnb, hnk]⟩
    · exact ⟨_, up _ hcb, by simp [hnc]⟩
  · have hi' := hin i hi.1
    have hj' := hin j hj.1
    have up : ∀ i, InBounds d i → inGrid (map F d) i := fun i hi => by
      show InBounds (map F d).dims i; rw [hd]; exact hi
    have first : ∀ i, First (map F d).dims (inGrid (map F d)) (sameSide (map F d)) i →
        (Block d i → d.lin i = 0) ∧
        (¬ Block d i → i ≠ c → 0 < d.lin i ∧ d.lin i ≤ c.z.toNat) := by
      intro i hf
      have hib := hin i hf.1
      refine ⟨fun hb => ?_, fun hb hne => ⟨?_, ?_⟩⟩
      · have := hf.2 _ (up _ h000) (linkA i hib hb)
        rw [hd] at this
        simp only [Dims.lin] at this ⊢
        simpa using this
      · rcases Nat.eq_zero_or_pos (d.lin i) with h0 | h0
        · exfalso
          have : i = ⟨0, 0, 0⟩ := Dims.lin_inj (inB_iff_spec.mpr hib) (inB_iff_spec.mpr h000)
            (by rw [h0]; simp [Dims.lin])
          exact hb (this ▸ hB0)
        · exact h0
      · have := hf.2 _ (up _ h00k) (linkB i hib hb hne)
        rw [hd] at this
        simpa [Dims.lin] using this
    have hck : c.z.toNat < d.lin c := by
      unfold Dims.lin
      have h1 : 1 ≤ c.y.toNat := by omega
      have h2 : 1 ≤ d.nz := by unfold InBounds at hcb; omega
      have : 1 ≤ c.y.toNat * d.nz := Nat.one_le_iff_ne_zero.mpr (by positivity)
      omega
    have cases3 : ∀ i, First (map F d).dims (inGrid (map F d)) (sameSide (map F d)) i →
        ((if Block d i then 1 else if i = c then 3 else 2) = 1 ∧ d.lin i = 0) ∨
        ((if Block d i then 1 else if i = c then 3 else 2) = 3 ∧ d.lin i = d.lin c) ∨
        ((if Block d i then 1 else if i = c then 3 else 2) = 2 ∧ 0 < d.lin i ∧ d.lin i ≤ c.z.toNat ∧
          Linked (inGrid (map F d)) (sameSide (map F d)) i ⟨0, 0, c.z⟩) := by
      intro i hf
      obtain ⟨i1, i2⟩ := first i hf
      by_cases bi : Block d i
      · exact Or.inl ⟨by simp [bi], i1 bi⟩
      · by_cases ic : i = c
        · exact Or.inr (Or.inl ⟨by simp [bi, ic, hnc], by rw [ic]⟩)
        · exact Or.inr (Or.inr ⟨by simp [bi, ic], (i2 bi ic).1, (i2 bi ic).2, linkB i (hin i hf.1) bi ic⟩)
    rw [hd]
    rcases cases3 i hi with ⟨a1, a2⟩ | ⟨a1, a2⟩ | ⟨a1, a2, a3, a4⟩ <;>
    rcases cases3 j hj with ⟨b1, b2⟩ | ⟨b1, b2⟩ | ⟨b1, b2, b3, b4⟩ <;> rw [a1, b1]
    · omega
    · omega
    · omega
    · omega
    · omega
    · omega
    · omega
    · omega
    · have l1 := hi.2 j hj.1 (a4.trans (linked_symm hsym b4))
      have l2 := hj.2 i hi.1 (b4.trans (linked_symm hsym a4))
      rw [hd] at l1 l2
      omega

/-- C127.  In the tutorial the loops fill the low corner block, the write by location fills the cell in the middle, which
touches the block only at a corner, and the map has three components: the block, the free cells, the cell in the
middle. -/
theorem C127_components {F : Frame K} (hF : GoodFrame F) {d : Dims} (hx : 2 ≤ d.nx) (hy : 2 ≤ d.ny) (hz : 2 ≤ d.nz)
    (hsz : d.size < 2 ^ 32) (hc : Centred F d) :
    ∃ c m', Middle d c ∧ InBounds d c ∧ InCell F c ⟨0, 0, 0⟩ ∧
      (∀ i, InBounds d i → (map F d).getImm i =
        (open Classical in if Block d i ∨ i = c then ⟨F32.one, 0⟩ else ⟨F32.zero, 0⟩, true)) ∧
      (map F d).updateCC = some (m', 3) ∧ m'.getNumCC = (3, true) ∧
      ∀ i, InBounds d i → m'.getImm i =
        (open Classical in if Block d i then ⟨F32.one, 1⟩ else if i = c then ⟨F32.one, 3⟩ else ⟨F32.zero, 2⟩, true) := by
  classical
  obtain ⟨c, hm, hcb, h1, h2, h3⟩ := exists_middle hx hy hz
  obtain ⟨wf, hd, hv, hg⟩ := map_spec hF hc hm hcb
  obtain ⟨m', n, e1, e2, e3, e4, e5⟩ := (map F d).updateCC_spec hv wf (by rw [hd]; exact hsz)
  obtain ⟨rfl, hl⟩ := C06_labels_determined (map F d) _ _ _ _ e5 (labelling hF hc hm hcb h1 h2 h3)
  refine ⟨c, m', hm, hcb, middle_cell hF hc hm, fun i hi => ?_, e1, by simp [CMap.getNumCC, e3, e4], fun i hi => ?_⟩
  · rw [hg i hi]; rfl
  · have hi' : InBounds (map F d).dims i := by rw [hd]; exact hi
    have hlab := hl i hi'
    have hocc := e2.2.2.2.2 i
    have h0 := hg i hi
    have h0' : (map F d).grid.get i = if Block d i ∨ i = c then obstacle else CCell.ofOcc F32.zero := by
      have := congrArg Prod.fst h0; exact this
    rw [h0'] at hocc
    have hb : m'.grid.dims.inB i = true := by
      rw [e2.2.1]; exact inB_iff_spec.mpr hi'
    refine Prod.ext ?_ (by simpa [CMap.getImm, Grid.getImm] using hb)
    show m'.grid.get i = _
    have hlab' : (m'.grid.get i).comp.toNat = if Block d i then 1 else if i = c then 3 else 2 := hlab
    have hcomp : (m'.grid.get i).comp = if Block d i then 1 else if i = c then 3 else 2 := by
      apply UInt32.toNat_inj.mp
      rw [hlab']
      split_ifs <;> rfl
    rw [show m'.grid.get i = ⟨(m'.grid.get i).occ, (m'.grid.get i).comp⟩ from rfl, hocc, hcomp]
    by_cases hB : Block d i
    · simp [hB, obstacle, CCell.ofOcc]
    · by_cases hic : i = c
      · simp [hB, hic, obstacle, CCell.ofOcc, (show ¬ Block d c from hic ▸ hB)]
      · simp [hB, hic, CCell.ofOcc]

/-! ## Distances -/

open SdfGen DField

/-- Depth of a cell of the block: cells to the nearest free cell straight ahead. -/
def depthTo (c v : Idx) : ℤ := min (c.x - v.x) (min (c.y - v.y) (c.z - v.z))

theorem obstacle_iff {F : Frame K} (hF : GoodFrame F) {d : Dims} (hc : Centred F d) {c : Idx} (h : Middle d c)
    (hcb : InBounds d c) (u : Bool) {i : Idx} (hi : InBounds d i) :
    Obstacle (map F d) u i ↔ Block d i ∨ i = c := by
  obtain ⟨_, _, _, hg⟩ := map_spec hF hc h hcb
  unfold Obstacle
  rw [hg i hi]
  by_cases hb : Block d i ∨ i = c
  · simp only [hb, if_true, iff_true]
    exact Or.inl (by decide)
  · simp only [hb, if_false, iff_false]
    have h1 : (CCell.ofOcc F32.zero).occ.gtHalf = false := by decide
    have h2 : (CCell.ofOcc F32.zero).occ.eqHalf = false := by decide
    simp [h1, h2]

/-- C127, the distances inside the block: the extraction reports minus the number of cells to the nearest free cell
straight ahead, times the cell size, rounded. -/
theorem C127_distance {F : Frame K} (hF : GoodFrame F) {d : Dims} (hx : 2 ≤ d.nx) (hy : 2 ≤ d.ny) (hz : 2 ≤ d.nz)
    (hd : SmallGrid d) (hc : Centred F d) {c : Idx} (hm : Middle d c) (R : Rounding) (res : ℝ) (oob : FVal) (u : Bool) :
    ∃ o, extractMap R (res, res, res) (map F d) oob u false = some o ∧
      ∀ v, InBounds d v → Block d v →
        o.sdf.get v = some (-R.r32 (R.r64 (R.r64 ((depthTo c v : ℝ) : EReal) * res))) := by
  classical
  obtain ⟨c', hm', hcb, h1, h2, h3⟩ := exists_middle hx hy hz
  obtain rfl : c' = c := (middle_eq hm').trans (middle_eq hm).symm
  obtain ⟨wf, hdims, hv, hg⟩ := map_spec hF hc hm hcb
  have hdims' : (map F d).grid.dims = d := hdims
  obtain ⟨o, a, b, ho, hs⟩ := base_spec (hdims'.symm ▸ hd) (mapFill_answers (map F d) u) R res oob
  refine ⟨o, by unfold extractMap; rw [extract_false]; exact ho, fun v hvb hB => ?_⟩
  have hvb' : InBounds (map F d).grid.dims v := by rw [hdims']; exact hvb
  have hob := fun i hi => obstacle_iff hF hc hm hcb u (i := i) hi
  have hbk := middle_lt hm
  have hov : Obstacle (map F d) u v := (hob v hvb).mpr (Or.inl hB)
  obtain ⟨lx, ly, lz⟩ := (hbk v).mp hB
  have sq : ∀ {q : Idx}, Opposite (map F d).grid.dims (fun i => decide (Obstacle (map F d) u i)) v q →
      InBounds d q ∧ ¬ Block d q := by
    rintro q ⟨hq, hne⟩
    rw [hdims'] at hq
    refine ⟨hq, fun hb => hne ?_⟩
    simp [hov, (hob q hq).mpr (Or.inl hb)]
  have hdep : 0 ≤ depthTo c' v := by unfold depthTo; omega
  have hmin : ∀ q, Opposite (map F d).grid.dims (fun i => decide (Obstacle (map F d) u i)) v q →
      depthTo c' v ^ 2 ≤ sqDist v q := by
    intro q hq
    obtain ⟨hqb, hnb⟩ := sq hq
    have hcase : c'.x ≤ q.x ∨ c'.y ≤ q.y ∨ c'.z ≤ q.z := by
      by_contra hcon
      push Not at hcon
      exact hnb ((hbk q).mpr hcon)
    unfold sqDist
    have ex := sq_nonneg (v.x - q.x)
    have ey := sq_nonneg (v.y - q.y)
    have ez := sq_nonneg (v.z - q.z)
    have dx : depthTo c' v ≤ c'.x - v.x := by unfold depthTo; omega
    have dy : depthTo c' v ≤ c'.y - v.y := by unfold depthTo; omega
    have dz : depthTo c' v ≤ c'.z - v.z := by unfold depthTo; omega
    rcases hcase with hq | hq | hq
    · nlinarith only [ex, ey, ez, dx, hq, hdep]
    · nlinarith only [ex, ey, ez, dy, hq, hdep]
    · nlinarith only [ex, ey, ez, dz, hq, hdep]
  have fin : ∀ p : Idx, InBounds d p → ¬ Block d p → p ≠ c' → sqDist v p = depthTo c' v ^ 2 →
      ((|v.y - p.y| ≤ 1 ∧ |v.z - p.z| ≤ 1) ∨ (|v.x - p.x| ≤ 1 ∧ |v.z - p.z| ≤ 1) ∨
        (|v.x - p.x| ≤ 1 ∧ |v.y - p.y| ≤ 1)) →
      o.sdf.get v = some (-R.r32 (R.r64 (R.r64 ((depthTo c' v : ℝ) : EReal) * res))) := by
    intro p hp hnb hne hsq hax
    have hop : Opposite (map F d).grid.dims (fun i => decide (Obstacle (map F d) u i)) v p := by
      refine ⟨by rw [hdims']; exact hp, ?_⟩
      have : ¬ Obstacle (map F d) u p := fun h => by
        rcases (hob p hp).mp h with h | h
        · exact hnb h
        · exact hne h
      simp [this, hov]
    have := C91_straight (hdims'.symm ▸ hd) (mapFill_answers (map F d) u) (by rw [extract_false]; exact ho) hvb' hop
      (fun q hq => by rw [hsq]; exact hmin q hq) hax
    rw [this, hsq]
    have e : Real.sqrt ((depthTo c' v ^ 2 : ℤ) : ℝ) = depthTo c' v := by
      push_cast
      exact Real.sqrt_sq (by exact_mod_cast hdep)
    rw [e]
    simp [hov]
  unfold InBounds at hvb hcb
  rcases (by unfold depthTo; omega : depthTo c' v = c'.x - v.x ∨ depthTo c' v = c'.y - v.y ∨
    depthTo c' v = c'.z - v.z) with hq | hq | hq
  · refine fin ⟨c'.x, v.y, v.z⟩ (by unfold InBounds; dsimp only; omega) (fun hb => ?_) (fun hb => ?_) ?_ (Or.inl (by simp))
    · have := (hbk _).mp hb; dsimp only at this; omega
    · have := congrArg Idx.y hb; dsimp only at this; omega
    · rw [hq]; unfold sqDist; dsimp only; ring
  · refine fin ⟨v.x, c'.y, v.z⟩ (by unfold InBounds; dsimp only; omega) (fun hb => ?_) (fun hb => ?_) ?_
      (Or.inr (Or.inl (by simp)))
    · have := (hbk _).mp hb; dsimp only at this; omega
    · have := congrArg Idx.x hb; dsimp only at this; omega
    · rw [hq]; unfold sqDist; dsimp only; ring
  · refine fin ⟨v.x, v.y, c'.z⟩ (by unfold InBounds; dsimp only; omega) (fun hb => ?_) (fun hb => ?_) ?_
      (Or.inr (Or.inr (by simp)))
    · have := (hbk _).mp hb; dsimp only at this; omega
    · have := congrArg Idx.x hb; dsimp only at this; omega
    · rw [hq]; unfold sqDist; dsimp only; ring

/-! ## The program -/

/-- The grid of the program: 40 cells of 0.25 on every axis, centred at the origin of its frame. -/
def exFrame : Frame ℚ := ⟨1 / 4, ⟨⟨1, 0, 0⟩, ⟨0, 1, 0⟩, ⟨0, 0, 1⟩, ⟨-5, -5, -5⟩⟩,
  ⟨⟨1, 0, 0⟩, ⟨0, 1, 0⟩, ⟨0, 0, 1⟩, ⟨5, 5, 5⟩⟩⟩

theorem exFrame_good : GoodFrame exFrame := by
  refine ⟨by norm_num [exFrame], fun p => ?_, fun p => ?_⟩ <;> simp [exFrame, Aff.app]

theorem exFrame_centred : Centred exFrame ⟨40, 40, 40⟩ := by
  norm_num [Centred, exFrame, Aff.app]

/-- The map of the program has three components. -/
example : ∃ m', (map exFrame ⟨40, 40, 40⟩).updateCC = some (m', 3) := by
  obtain ⟨_, m', _, _, _, _, h, _⟩ := C127_components exFrame_good (d := ⟨40, 40, 40⟩) (by norm_num) (by norm_num)
    (by norm_num) (by unfold Dims.size; decide) exFrame_centred
  exact ⟨m', h⟩

end Tutorial

namespace Tutorial

open SdfGen DField FSdf

theorem r32_tenths : ieee.r32 ((5 / 2 : ℝ) : EReal) = ((5 / 2 : ℝ) : EReal) := by
  have h := Ieee.round_exact (F := Ieee.binary32) (n := 5) (e := -1) (by decide) (by decide)
    (lt_of_lt_of_le (b := (4 : ℝ)) (by norm_num) (by
      have := Ieee.two_mono (show (2 : ℤ) ≤ Ieee.binary32.emax + 1 by decide)
      norm_num at this ⊢
      exact this))
  have e : (((5 : ℕ) : ℝ) * 2 ^ (-1 : ℤ)) = 5 / 2 := by norm_num
  rw [e] at h
  exact h

/-- The query by index of the program (`src/sdf_tools_tutorial.cpp:134`) gives -2.5: ten cells of 0.25. -/
example (oob : FVal) : ∃ o, extractMap ieee (1 / 4, 1 / 4, 1 / 4) (map exFrame ⟨40, 40, 40⟩) oob true false = some o ∧
    o.sdf.get ⟨10, 10, 10⟩ = real (-(5 / 2)) := by
  obtain ⟨o, ho, hv⟩ := C127_distance exFrame_good (d := ⟨40, 40, 40⟩) (by norm_num) (by norm_num) (by norm_num)
    (by unfold SmallGrid; decide) exFrame_centred (c := ⟨20, 20, 20⟩) (by norm_num [Middle]) ieee (1 / 4) oob true
  refine ⟨o, ho, ?_⟩
  rw [hv ⟨10, 10, 10⟩ (by norm_num [InBounds]) (by norm_num [Block])]
  have e : depthTo ⟨20, 20, 20⟩ ⟨10, 10, 10⟩ = 10 := by decide
  rw [e]
  have a : ieee.r64 (((10 : ℤ) : ℝ) : EReal) = ((10 : ℝ) : EReal) := by
    push_cast
    exact r64_keep 10 0 (by norm_num) (by norm_num) (by norm_num) (by norm_num)
  rw [a, ← EReal.coe_mul, show (10 : ℝ) * (1 / 4) = 5 / 2 by norm_num,
    r64_keep 5 (-1) (by norm_num) (by norm_num) (by norm_num) (by norm_num), r32_tenths]
  rfl

end Tutorial

end Verif
