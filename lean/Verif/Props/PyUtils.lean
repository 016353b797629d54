import Verif.PyUtils
import Verif.Props.SdfGen
import Verif.Props.Interp

/-!
# Properties of the Python array wrappers (C50, C70, C71)
-/

namespace Verif

open Spec SdfGen

namespace NpArr

variable {α : Type}

/-- A multi-index in range of a shape. -/
def InRange (shape idx : List Nat) : Prop := List.Forall₂ (· < ·) idx shape

/-- As many elements as the shape says. -/
def WF (a : NpArr α) : Prop := a.data.length = a.shape.prod

theorem flatten_getElem? {m k : Nat} (hk : k < m) :
    ∀ (L : List (List α)) (i : Nat), (∀ r ∈ L, r.length = m) →
      L.flatten[i * m + k]? = (L[i]?).bind (·[k]?) := by
  intro L
  induction L with
  | nil => intro i _; simp
  | cons r L ih =>
    intro i h
    have hr : r.length = m := h r (by simp)
    rw [List.flatten_cons]
    cases i with
    | zero =>
      rw [List.getElem?_append_left (by omega)]
      simp
    | succ i =>
      rw [List.getElem?_append_right (by rw [hr, Nat.succ_mul]; omega)]
      have : (i + 1) * m + k - r.length = i * m + k := by rw [hr, Nat.succ_mul]; omega
      rw [this, ih i (fun q hq => h q (List.mem_cons_of_mem _ hq))]
      simp

theorem length_allIdx (shape : List Nat) : (allIdx shape).length = shape.prod := by
  induction shape with
  | nil => rfl
  | cons n ns ih =>
    unfold allIdx
    rw [List.length_flatMap]
    simp [ih]

theorem ravel_inRange {shape idx : List Nat} (h : InRange shape idx) :
    ∃ k, ravel shape idx = some k ∧ k < shape.prod := by
  unfold InRange at h
  induction h with
  | nil => exact ⟨0, rfl, by simp⟩
  | @cons i n is ns hi _ ih =>
    obtain ⟨k, hk, hlt⟩ := ih
    refine ⟨i * ns.prod + k, ?_, ?_⟩
    · simp [ravel, hi, hk]
    · rw [List.prod_cons]
      have : (i + 1) * ns.prod ≤ n * ns.prod := Nat.mul_le_mul_right _ hi
      rw [Nat.succ_mul] at this
      omega

theorem ravel_some {shape : List Nat} : ∀ {idx : List Nat} {k : Nat}, ravel shape idx = some k →
    InRange shape idx ∧ (allIdx shape)[k]? = some idx := by
  induction shape with
  | nil =>
    intro idx k h
    cases idx with
    | nil => simp [ravel] at h; subst h; exact ⟨List.Forall₂.nil, rfl⟩
    | cons i is => simp [ravel] at h
  | cons n ns ih =>
    intro idx k h
    cases idx with
    | nil => simp [ravel] at h
    | cons i is =>
      unfold ravel at h
      split at h
      · rename_i hi
        simp only [Option.map_eq_some_iff] at h
        obtain ⟨k', hk', rfl⟩ := h
        obtain ⟨h1, h2⟩ := ih hk'
        obtain ⟨k'', e, hlt⟩ := ravel_inRange h1
        rw [hk'] at e
        simp only [Option.some.injEq] at e
        subst e
        refine ⟨List.Forall₂.cons hi h1, ?_⟩
        unfold allIdx
        rw [List.flatMap_def, flatten_getElem? (m := ns.prod) hlt]
        · simp [hi, h2]
        · intro r hr
          simp only [List.mem_map] at hr
          obtain ⟨_, _, rfl⟩ := hr
          simp [length_allIdx]
      · simp at h

theorem mapM_spec {β : Type} {f : β → Option α} : ∀ (l : List β), (∀ x ∈ l, ∃ v, f x = some v) →
    ∃ r, l.mapM f = some r ∧ r.length = l.length ∧ ∀ (k : Nat), r[k]? = (l[k]?).bind f := by
  intro l
  induction l with
  | nil => intro _; exact ⟨[], rfl, rfl, by simp⟩
  | cons x l ih =>
    intro h
    obtain ⟨v, hv⟩ := h x (by simp)
    obtain ⟨r, h1, h2, h3⟩ := ih (fun y hy => h y (List.mem_cons_of_mem _ hy))
    refine ⟨v :: r, by simp [hv, h1], by simp [h2], ?_⟩
    intro k
    cases k with
    | zero => simp [hv]
    | succ k => simp [h3]

theorem inRange_of_mem {shape : List Nat} : ∀ {idx : List Nat}, idx ∈ allIdx shape →
    InRange shape idx := by
  induction shape with
  | nil => intro idx h; simp [allIdx] at h; subst h; exact List.Forall₂.nil
  | cons n ns ih =>
    intro idx h
    simp only [allIdx, List.mem_flatMap, List.mem_range, List.mem_map] at h
    obtain ⟨i, hi, t, ht, rfl⟩ := h
    exact List.Forall₂.cons hi (ih ht)

theorem tabulate_spec (shape : List Nat) (f : List Nat → Option α)
    (h : ∀ j, InRange shape j → ∃ v, f j = some v) :
    ∃ a, tabulate shape f = some a ∧ a.shape = shape ∧ a.WF ∧
      ∀ j, InRange shape j → a.get j = f j := by
  obtain ⟨r, h1, h2, h3⟩ := mapM_spec (f := f) (allIdx shape) (fun x hx => h x (inRange_of_mem hx))
  refine ⟨⟨shape, r⟩, by simp [tabulate, h1], rfl, ?_, ?_⟩
  · show r.length = shape.prod
    rw [h2, length_allIdx]
  · intro j hj
    obtain ⟨k, hk, _⟩ := ravel_inRange hj
    show (ravel shape j).bind (r[·]?) = f j
    rw [hk]
    show r[k]? = f j
    rw [h3, (ravel_some hk).2]
    rfl

/-- Every index in range of a well-formed array holds an element. -/
theorem get_some {a : NpArr α} (hw : a.WF) {j : List Nat} (hj : InRange a.shape j) :
    ∃ v, a.get j = some v := by
  obtain ⟨k, hk, hlt⟩ := ravel_inRange hj
  have : k < a.data.length := by rw [hw]; exact hlt
  refine ⟨a.data[k], ?_⟩
  simp [get, hk, this]

theorem inRange2 {n m : Nat} {idx : List Nat} :
    InRange [n, m] idx ↔ ∃ a b, idx = [a, b] ∧ a < n ∧ b < m := by
  unfold InRange
  constructor
  · intro h
    cases h with
    | cons h1 h => cases h with
      | cons h2 h => cases h; exact ⟨_, _, rfl, h1, h2⟩
  · rintro ⟨a, b, rfl, h1, h2⟩
    exact .cons h1 (.cons h2 .nil)

theorem inRange3 {n m p : Nat} {idx : List Nat} :
    InRange [n, m, p] idx ↔ ∃ a b c, idx = [a, b, c] ∧ a < n ∧ b < m ∧ c < p := by
  unfold InRange
  constructor
  · intro h
    cases h with
    | cons h1 h => cases h with
      | cons h2 h => cases h with
        | cons h3 h => cases h; exact ⟨_, _, _, rfl, h1, h2, h3⟩
  · rintro ⟨a, b, c, rfl, h1, h2, h3⟩
    exact .cons h1 (.cons h2 (.cons h3 .nil))

theorem inRange4 {n m p q : Nat} {idx : List Nat} :
    InRange [n, m, p, q] idx ↔ ∃ a b c e, idx = [a, b, c, e] ∧ a < n ∧ b < m ∧ c < p ∧ e < q := by
  unfold InRange
  constructor
  · intro h
    cases h with
    | cons h1 h => cases h with
      | cons h2 h => cases h with
        | cons h3 h => cases h with
          | cons h4 h => cases h; exact ⟨_, _, _, _, rfl, h1, h2, h3, h4⟩
  · rintro ⟨a, b, c, e, rfl, h1, h2, h3, h4⟩
    exact .cons h1 (.cons h2 (.cons h3 (.cons h4 .nil)))

theorem transpose2 {a : NpArr α} (hw : a.WF) {n m : Nat} (hs : a.shape = [n, m]) :
    ∃ b, a.transpose [1, 0] = some b ∧ b.shape = [m, n] ∧
      ∀ i < n, ∀ j < m, b.get [j, i] = a.get [i, j] := by
  have hsrc : ∀ j, InRange [m, n] j → ∃ v, a.get ((List.range a.shape.length).map fun p =>
      j.getD (([1, 0] : List Nat).idxOf p) 0) = some v := by
    intro j hj
    obtain ⟨x, y, rfl, h1, h2⟩ := inRange2.mp hj
    apply get_some hw
    rw [hs]
    exact inRange2.mpr ⟨y, x, rfl, h2, h1⟩
  obtain ⟨b, h1, h2, _, h3⟩ := tabulate_spec [m, n] _ hsrc
  refine ⟨b, ?_, h2, ?_⟩
  · unfold transpose
    rw [hs] at h1 ⊢
    exact h1
  · intro i hi j hj
    rw [h3 _ (inRange2.mpr ⟨j, i, rfl, hj, hi⟩), hs]
    rfl

theorem transpose3 {a : NpArr α} (hw : a.WF) {n m p : Nat} (hs : a.shape = [n, m, p]) :
    ∃ b, a.transpose [1, 0, 2] = some b ∧ b.shape = [m, n, p] ∧
      ∀ i < n, ∀ j < m, ∀ k < p, b.get [j, i, k] = a.get [i, j, k] := by
  have hsrc : ∀ j, InRange [m, n, p] j → ∃ v, a.get ((List.range a.shape.length).map fun p =>
      j.getD (([1, 0, 2] : List Nat).idxOf p) 0) = some v := by
    intro j hj
    obtain ⟨x, y, z, rfl, h1, h2, h3⟩ := inRange3.mp hj
    apply get_some hw
    rw [hs]
    exact inRange3.mpr ⟨y, x, z, rfl, h2, h1, h3⟩
  obtain ⟨b, h1, h2, _, h3⟩ := tabulate_spec [m, n, p] _ hsrc
  refine ⟨b, ?_, h2, ?_⟩
  · unfold transpose
    rw [hs] at h1 ⊢
    exact h1
  · intro i hi j hj k hk
    rw [h3 _ (inRange3.mpr ⟨j, i, k, rfl, hj, hi, hk⟩), hs]
    rfl

theorem transpose4 {a : NpArr α} (hw : a.WF) {n m p q : Nat} (hs : a.shape = [n, m, p, q]) :
    ∃ b, a.transpose [1, 0, 2, 3] = some b ∧ b.shape = [m, n, p, q] ∧
      ∀ i < n, ∀ j < m, ∀ k < p, ∀ l < q, b.get [j, i, k, l] = a.get [i, j, k, l] := by
  have hsrc : ∀ j, InRange [m, n, p, q] j → ∃ v, a.get ((List.range a.shape.length).map fun p =>
      j.getD (([1, 0, 2, 3] : List Nat).idxOf p) 0) = some v := by
    intro j hj
    obtain ⟨x, y, z, w, rfl, h1, h2, h3, h4⟩ := inRange4.mp hj
    apply get_some hw
    rw [hs]
    exact inRange4.mpr ⟨y, x, z, w, rfl, h2, h1, h3, h4⟩
  obtain ⟨b, h1, h2, _, h3⟩ := tabulate_spec [m, n, p, q] _ hsrc
  refine ⟨b, ?_, h2, ?_⟩
  · unfold transpose
    rw [hs] at h1 ⊢
    exact h1
  · intro i hi j hj k hk l hl
    rw [h3 _ (inRange4.mpr ⟨j, i, k, l, rfl, hj, hi, hk, hl⟩), hs]
    rfl

end NpArr

namespace Py

open NpArr

/-- Cells marked by the fill loop of the 3D wrapper. -/
theorem fill_loop (p : Idx → Bool) (t : Idx → Idx) (c : CCell) (d : Dims) :
    ∀ (l : List Idx) (m : CMap), m.grid.WF → m.grid.dims = d →
      (∀ i ∈ l, t i = i ∧ d.inB i = true) →
      let m' := l.foldl (fun m i => if p i = true then (m.setValue (t i) c).1 else m) m
      m'.grid.dims = d ∧ m'.grid.WF ∧
        ∀ j, m'.grid.get j = if j ∈ l ∧ p j = true then c else m.grid.get j := by
  intro l
  induction l with
  | nil => intro m hw hd _; exact ⟨hd, hw, by simp⟩
  | cons i l ih =>
    intro m hw hd h
    have hi := h i (by simp)
    have hl : ∀ k ∈ l, t k = k ∧ d.inB k = true := fun k hk => h k (List.mem_cons_of_mem _ hk)
    simp only [List.foldl_cons]
    by_cases hp : p i = true
    · rw [if_pos hp, hi.1]
      have hin : m.grid.dims.inB i = true := by rw [hd]; exact hi.2
      have hset : (m.setValue i c).1.grid = m.grid.set i c := by
        unfold CMap.setValue
        rw [if_pos hin]
      obtain ⟨h1, h2, h3⟩ := ih (m.setValue i c).1 (by rw [hset]; exact hw.set i c)
        (by rw [hset]; simpa using hd) hl
      refine ⟨h1, h2, ?_⟩
      intro j
      rw [h3, hset, Grid.get_set hw]
      by_cases hj : j ∈ l ∧ p j = true
      · rw [if_pos hj, if_pos ⟨List.mem_cons_of_mem _ hj.1, hj.2⟩]
      · rw [if_neg hj]
        by_cases hij : i = j
        · subst hij
          rw [if_pos ⟨rfl, hin⟩, if_pos ⟨by simp, hp⟩]
        · rw [if_neg (fun e => hij e.1), if_neg]
          rintro ⟨h4, h5⟩
          rcases List.mem_cons.mp h4 with h6 | h6
          · exact hij h6.symm
          · exact hj ⟨h6, h5⟩
    · rw [if_neg hp]
      obtain ⟨h1, h2, h3⟩ := ih m hw hd hl
      refine ⟨h1, h2, ?_⟩
      intro j
      rw [h3]
      by_cases hj : j ∈ l ∧ p j = true
      · rw [if_pos hj, if_pos ⟨List.mem_cons_of_mem _ hj.1, hj.2⟩]
      · rw [if_neg hj, if_neg]
        rintro ⟨h4, h5⟩
        rcases List.mem_cons.mp h4 with h6 | h6
        · subst h6; exact hp h5
        · exact hj ⟨h6, h5⟩

theorem obstacle_iff {m : CMap} {v : Idx} {b : Bool}
    (h : m.grid.get v = if b = true then occupiedCell else oobCell) :
    Obstacle m false v ↔ b = true := by
  unfold Obstacle CMap.getImm Grid.getImm
  rw [h]
  cases b
  · simp only [Bool.false_eq_true, if_false, iff_false]
    decide
  · simp only [if_true, iff_true]
    left; decide

/-- The extraction of the wrappers on a map whose cells are filled by a predicate. -/
theorem field_of_fill {R : Rounding} {res : ℝ} (hres : GoodRes R res) (h32 : 0 < R.r32 res)
    {d : Dims} (hd : SmallGrid d) {m : CMap} (hm : m.grid.dims = d) (p : Idx → Bool)
    (hv : ∀ v, InBounds d v → m.grid.get v = if p v = true then occupiedCell else oobCell) :
    ∃ o, extractMap R (res, res, res) m oobValue false false = some o ∧ o.sdf.dims = d ∧ o.sdf.WF ∧
      ∀ v, InBounds d v → ∃ x, o.sdf.get v = some x ∧ (x < 0 ↔ p v = true) ∧ (0 < x ↔ p v = false) := by
  have hA := mapFill_answers m false
  obtain ⟨o, a, b, ho, hs⟩ := base_spec (by rw [hm]; exact hd) hA R res oobValue
  have ho' : extract R (res, res, res) m.grid.dims (mapFill m false) oobValue false = some o := by
    rw [extract_false]; exact ho
  refine ⟨o, ho', by rw [hs.dims, hm], hs.wf, ?_⟩
  intro v hb
  obtain ⟨x, h1, _, h3, h4⟩ := C13_nonzero hres h32 (by rw [hm]; exact hd) hA ho' (v := v)
    (by rw [hm]; exact hb)
  have hob := obstacle_iff (hv v hb)
  refine ⟨x, h1, ?_, ?_⟩
  · rw [h3, ← hob]; simp
  · rw [h4, ← Bool.not_eq_true (p v), ← hob]; simp

/-- The array of a well-formed grid indexed `[x, y, z]`. -/
theorem grid_get {V : Type} {g : Grid V} (hw : g.WF) {x y z : Nat} (hx : x < g.dims.nx)
    (hy : y < g.dims.ny) (hz : z < g.dims.nz) :
    g.data[x * (g.dims.ny * g.dims.nz) + (y * g.dims.nz + z)]? = some (g.get ⟨x, y, z⟩) := by
  have hin : g.dims.inB ⟨x, y, z⟩ = true := by
    rw [Dims.inB_iff]; simp; omega
  have := Grid.get_eq_getElem hw hin
  simp only [Dims.lin, Int.toNat_natCast] at this
  rw [← this]
  congr 1
  omega

theorem sdfArr3_spec {V : Type} {g : Grid V} (hw : g.WF) :
    ∃ a, sdfArr3 g = some a ∧ a.shape = [g.dims.ny, g.dims.nx, g.dims.nz] ∧
      ∀ x < g.dims.nx, ∀ y < g.dims.ny, ∀ z < g.dims.nz,
        a.get [y, x, z] = some (g.get ⟨x, y, z⟩) := by
  have hp : [g.dims.nx, g.dims.ny, g.dims.nz].prod = g.data.length := by
    rw [hw]; simp [Dims.size]; ring
  obtain ⟨b, h1, h2, h3⟩ := transpose3 (a := ⟨[g.dims.nx, g.dims.ny, g.dims.nz], g.data⟩)
    (show g.data.length = _ from hp.symm) rfl
  refine ⟨b, ?_, h2, ?_⟩
  · unfold sdfArr3 reshape
    simp only [hp, if_true]
    exact h1
  · intro x hx y hy z hz
    rw [h3 x hx y hy z hz, ← grid_get hw hx hy hz]
    simp [NpArr.get, ravel, hx, hy, hz]

theorem sdfToNp_spec {V : Type} {g : Grid V} (hw : g.WF) (hz : g.dims.nz = 1) :
    ∃ a, sdfToNp g = some a ∧ a.shape = [g.dims.nx, g.dims.ny] ∧ a.WF ∧
      ∀ x < g.dims.nx, ∀ y < g.dims.ny, a.get [x, y] = some (g.get ⟨x, y, 0⟩) := by
  have hp : [g.dims.nx, g.dims.ny].prod = g.data.length := by
    rw [hw]; simp [Dims.size, hz]
  refine ⟨⟨[g.dims.nx, g.dims.ny], g.data⟩, ?_, rfl, hp.symm, ?_⟩
  · unfold sdfToNp reshape
    simp only [hp, if_true]
  · intro x hx y hy
    have := grid_get hw hx hy (z := 0) (by omega)
    rw [Nat.cast_zero] at this
    rw [← this]
    simp [NpArr.get, ravel, hx, hy, hz]

theorem fullGradient_spec {G : Type} (d : Dims) (oob : G) (f : Idx → Bool → List G) (edge : Bool) :
    (fullGradient d oob f edge).dims = d ∧ (fullGradient d oob f edge).WF ∧
      ∀ v, InBounds d v → (fullGradient d oob f edge).get v = f v edge := by
  have e : fullGradient d oob f edge =
      (Grid.mk' d (List.replicate 3 oob) (List.replicate 3 oob)).setAll d.all (fun i => f i edge) := rfl
  rw [e]
  refine ⟨by rw [Grid.dims_setAll]; rfl, (Grid.wf_mk' _ _ _).setAll _ _, ?_⟩
  intro v hv
  rw [Grid.get_setAll (Grid.wf_mk' _ _ _)]
  have hin := inB_iff_spec.mpr hv
  exact if_pos ⟨Dims.mem_all.mpr hin, hin⟩

/-- The elements of a grid are the values of its cells. -/
theorem mem_data {V : Type} {g : Grid V} (hw : g.WF) {r : V} (hr : r ∈ g.data) :
    ∃ v, InBounds g.dims v ∧ g.get v = r := by
  obtain ⟨n, hn, e⟩ := List.getElem_of_mem hr
  have hn' : n < g.dims.all.length := by rw [Dims.length_all, ← hw]; exact hn
  have hmem : g.dims.all[n] ∈ g.dims.all := List.getElem_mem hn'
  have hin := Dims.mem_all.mp hmem
  refine ⟨_, inB_iff_spec.mp hin, ?_⟩
  have hlin : g.dims.lin g.dims.all[n] = n := by
    have h1 : (g.dims.all.map g.dims.lin)[n]'(by simpa using hn') = n := by
      simp only [Dims.all_map_lin]; simp
    rw [List.getElem_map] at h1
    exact h1
  have := Grid.get_eq_getElem hw hin
  rw [hlin, List.getElem?_eq_getElem hn, e] at this
  exact (Option.some.inj this).symm

theorem ofRows_spec {G : Type} {rows : List (List G)} (k : Nat) (hne : rows ≠ [])
    (h : ∀ r ∈ rows, r.length = k) :
    ofRows rows = some ⟨[rows.length, k], rows.flatten⟩ := by
  cases rows with
  | nil => exact absurd rfl hne
  | cons r t =>
    have hr : r.length = k := h r (by simp)
    simp only [ofRows]
    rw [if_pos]
    · rw [hr]
    · rw [List.all_eq_true]
      intro q hq
      simp [h q hq, hr]

theorem length_flatten {G : Type} {rows : List (List G)} (k : Nat)
    (h : ∀ r ∈ rows, r.length = k) : rows.flatten.length = rows.length * k := by
  induction rows with
  | nil => simp
  | cons r t ih =>
    rw [List.flatten_cons, List.length_append, ih (fun q hq => h q (List.mem_cons_of_mem _ hq)),
      h r (by simp), List.length_cons, Nat.succ_mul]
    omega

theorem data_ne_nil {V : Type} {g : Grid V} (hw : g.WF) (h : 0 < g.dims.size) : g.data ≠ [] := by
  intro e
  unfold Grid.WF at hw
  rw [e] at hw
  simp at hw
  omega

theorem getGradient3_spec {G : Type} (d : Dims) (oob : G) (grad : Idx → Bool → List G)
    (hne : 0 < d.size) (hg : ∀ v, InBounds d v → (grad v true).length = 3) :
    ∃ a, getGradient3 d oob grad = some a ∧ a.shape = [d.nx, d.ny, d.nz, 3] ∧ a.WF ∧
      ∀ x < d.nx, ∀ y < d.ny, ∀ z < d.nz, ∀ c < 3,
        a.get [x, y, z, c] = (grad ⟨x, y, z⟩ true)[c]? := by
  obtain ⟨hd, hw, hval⟩ := fullGradient_spec d oob grad true
  unfold getGradient3
  generalize fullGradient d oob grad true = g at *
  subst hd
  have hrows : ∀ r ∈ g.data, r.length = 3 := by
    intro r hr
    obtain ⟨v, hv, rfl⟩ := mem_data hw hr
    rw [hval v hv]; exact hg v hv
  have hp : [g.dims.nx, g.dims.ny, g.dims.nz, 3].prod = g.data.flatten.length := by
    rw [length_flatten 3 hrows, hw]; simp [Dims.size]; ring
  refine ⟨⟨[g.dims.nx, g.dims.ny, g.dims.nz, 3], g.data.flatten⟩, ?_, rfl, hp.symm, ?_⟩
  · simp only [ofRows_spec 3 (data_ne_nil hw hne) hrows]
    show reshape _ [g.dims.nx, g.dims.ny, g.dims.nz, 3] = _
    unfold reshape
    rw [if_pos hp]
  · intro x hx y hy z hz c hc
    have h1 := grid_get hw hx hy hz
    have h2 := flatten_getElem? hc g.data (x * (g.dims.ny * g.dims.nz) + (y * g.dims.nz + z)) hrows
    rw [h1, hval ⟨x, y, z⟩ ⟨⟨by simp, by simpa using hx⟩, ⟨by simp, by simpa using hy⟩,
      ⟨by simp, by simpa using hz⟩⟩] at h2
    rw [show (grad ⟨x, y, z⟩ true)[c]? = (some (grad ⟨x, y, z⟩ true)).bind (·[c]?) from rfl, ← h2]
    simp only [NpArr.get, ravel, hx, hy, hz, hc, if_true, Option.map_some, Option.bind_some, List.prod_cons,
      List.prod_nil]
    congr 1
    ring

theorem getGradient2_spec {G : Type} (d : Dims) (oob : G) (grad : Idx → Bool → List G)
    (hz1 : d.nz = 1) (hne : 0 < d.size) (hg : ∀ v, InBounds d v → (grad v true).length = 3) :
    ∃ a, getGradient2 d oob grad = some a ∧ a.shape = [d.nx, d.ny, 2] ∧ a.WF ∧
      ∀ x < d.nx, ∀ y < d.ny, ∀ c < 2, a.get [x, y, c] = (grad ⟨x, y, 0⟩ true)[c]? := by
  obtain ⟨hd, hw, hval⟩ := fullGradient_spec d oob grad true
  unfold getGradient2
  generalize fullGradient d oob grad true = g at *
  subst hd
  have hrows : ∀ r ∈ g.data, r.length = 3 := by
    intro r hr
    obtain ⟨v, hv, rfl⟩ := mem_data hw hr
    rw [hval v hv]; exact hg v hv
  have hp : [g.dims.nx, g.dims.ny, 3].prod = g.data.flatten.length := by
    rw [length_flatten 3 hrows, hw]; simp [Dims.size, hz1]; ring
  have hget : ∀ x < g.dims.nx, ∀ y < g.dims.ny, ∀ c < 3,
      (NpArr.mk [g.dims.nx, g.dims.ny, 3] g.data.flatten).get [x, y, c] =
        (grad ⟨x, y, 0⟩ true)[c]? := by
    intro x hx y hy c hc
    have h1 := grid_get hw hx hy (z := 0) (by omega)
    have h2 := flatten_getElem? hc g.data (x * (g.dims.ny * g.dims.nz) + (y * g.dims.nz + 0)) hrows
    rw [h1, hval ⟨x, y, (0 : Nat)⟩ ⟨⟨by simp, by simpa using hx⟩, ⟨by simp, by simpa using hy⟩,
      ⟨by simp, by simp [hz1]⟩⟩] at h2
    rw [Nat.cast_zero] at h2
    rw [show (grad ⟨x, y, 0⟩ true)[c]? = (some (grad ⟨x, y, 0⟩ true)).bind (·[c]?) from rfl, ← h2]
    simp only [NpArr.get, ravel, hx, hy, hc, if_true, Option.map_some, Option.bind_some, List.prod_cons,
      List.prod_nil, hz1]
    congr 1
    ring
  obtain ⟨b, h1, h2, h3, h4⟩ := tabulate_spec [g.dims.nx, g.dims.ny, 2]
    (NpArr.mk [g.dims.nx, g.dims.ny, 3] g.data.flatten).get (by
      intro j hj
      obtain ⟨x, y, c, rfl, hx, hy, hc⟩ := inRange3.mp hj
      exact get_some (a := ⟨[g.dims.nx, g.dims.ny, 3], g.data.flatten⟩) hp.symm (inRange3.mpr ⟨x, y, c, rfl, hx, hy, by omega⟩))
  refine ⟨b, ?_, h2, h3, ?_⟩
  · simp only [ofRows_spec 3 (data_ne_nil hw hne) hrows]
    show (reshape _ [g.dims.nx, g.dims.ny, 3]).bind (fun b => b.sliceLast 2) = _
    unfold reshape
    rw [if_pos hp]
    exact h1
  · intro x hx y hy c hc
    rw [h4 _ (inRange3.mpr ⟨x, y, c, rfl, hx, hy, hc⟩), hget x hx y hy c (by omega)]

end Py

open Py NpArr

theorem fill3_get (env : NpArr Bool) (d : Dims) :
    (fill3 env d).grid.dims = d ∧ ∀ v, InBounds d v → (fill3 env d).grid.get v =
      if decide (env.get (pyIdx v) = some true) = true then occupiedCell else oobCell := by
  have h := fill_loop (fun i => decide (env.get (pyIdx i) = some true)) id occupiedCell d d.all
    (CMap.create d oobCell oobCell) (Grid.wf_mk' _ _ _) rfl
    (fun i hi => ⟨rfl, Dims.mem_all.mp hi⟩)
  simp only [decide_eq_true_eq, id_eq] at h
  obtain ⟨h1, _, h3⟩ := h
  refine ⟨h1, ?_⟩
  intro v hv
  have hin := inB_iff_spec.mpr hv
  have h4 := h3 v
  have h5 : (CMap.create d oobCell oobCell).grid.get v = oobCell := by
    show (Grid.mk' d oobCell oobCell).get v = oobCell
    rw [Grid.get_mk']; simp
  rw [h5] at h4
  refine h4.trans ?_
  by_cases hp : env.get (pyIdx v) = some true
  · rw [if_pos ⟨Dims.mem_all.mpr hin, hp⟩, if_pos (by simpa using hp)]
  · rw [if_neg (fun e => hp e.2), if_neg (by simpa using hp)]

theorem fill2_get (env : NpArr Bool) (d : Dims) (hz : d.nz = 1) :
    (fill2 env d).grid.dims = d ∧ ∀ v, InBounds d v → (fill2 env d).grid.get v =
      if decide (env.get [v.y.toNat, v.x.toNat] = some true) = true then occupiedCell else oobCell := by
  have h := fill_loop (fun i => decide (env.get [i.y.toNat, i.x.toNat] = some true))
    (fun i => ⟨i.x, i.y, 0⟩) occupiedCell d d.all
    (CMap.create d oobCell oobCell) (Grid.wf_mk' _ _ _) rfl
    (fun i hi => ⟨by
      have := Dims.mem_all.mp hi
      rw [Dims.inB_iff] at this
      ext <;> simp; omega, Dims.mem_all.mp hi⟩)
  simp only [decide_eq_true_eq] at h
  obtain ⟨h1, _, h3⟩ := h
  refine ⟨h1, ?_⟩
  intro v hv
  have hin := inB_iff_spec.mpr hv
  have h4 := h3 v
  have h5 : (CMap.create d oobCell oobCell).grid.get v = oobCell := by
    show (Grid.mk' d oobCell oobCell).get v = oobCell
    rw [Grid.get_mk']; simp
  rw [h5] at h4
  refine h4.trans ?_
  by_cases hp : env.get [v.y.toNat, v.x.toNat] = some true
  · rw [if_pos ⟨Dims.mem_all.mpr hin, hp⟩, if_pos (by simpa using hp)]
  · rw [if_neg (fun e => hp e.2), if_neg (by simpa using hp)]

/-- An array of truth values answers one of two things inside its shape. -/
theorem get_bool {env : NpArr Bool} (hw : env.WF) {j : List Nat} (hj : InRange env.shape j) :
    decide (env.get j = some true) = false ↔ env.get j = some false := by
  obtain ⟨v, hv⟩ := get_some hw hj
  rw [hv]
  cases v <;> simp

/-- C50.  `utils_3d.compute_sdf_and_gradient` on a non-empty environment of shape `[ny, nx, nz]`
returns a distance array of the same shape whose entry `[y, x, z]` is the value of cell `(x, y, z)` of
`compute_sdf`'s field, negative exactly where the environment is 1 and positive exactly where it is
not; the gradient array has shape `[ny, nx, nz, 3]` and entry `[y, x, z, c]` is component `c` of the
gradient of that cell. -/
theorem C50_3d {R : Rounding} {res : ℝ} (hres : GoodRes R res) (h32 : 0 < R.r32 res) {G : Type}
    (oobG : G) (grad : Grid FVal → Idx → Bool → List G)
    (hg : ∀ s v, InBounds s.dims v → (grad s v true).length = 3)
    {env : NpArr Bool} (hw : env.WF) {nx ny nz : Nat} (hs : env.shape = [ny, nx, nz])
    (hd : SmallGrid ⟨nx, ny, nz⟩) (hne : 0 < nx * ny * nz) :
    ∃ s a g, computeSdf3 R res env = some s ∧ s.dims = ⟨nx, ny, nz⟩ ∧
      compute3 R res oobG grad env = some (a, g) ∧ a.shape = env.shape ∧ g.shape = [ny, nx, nz, 3] ∧
      ∀ x < nx, ∀ y < ny, ∀ z < nz,
        (∃ v, a.get [y, x, z] = some (some v) ∧ s.get ⟨x, y, z⟩ = some v ∧
          (v < 0 ↔ env.get [y, x, z] = some true) ∧ (0 < v ↔ env.get [y, x, z] = some false)) ∧
        ∀ c < 3, g.get [y, x, z, c] = (grad s ⟨x, y, z⟩ true)[c]? := by
  obtain ⟨f1, f2⟩ := fill3_get env ⟨nx, ny, nz⟩
  obtain ⟨o, h1, h2, h3, h4⟩ := field_of_fill hres h32 hd f1 _ f2
  have hc : computeSdf3 R res env = some o.sdf := by
    unfold computeSdf3; rw [hs]; simp only; rw [h1]; rfl
  obtain ⟨a, a1, a2, a3⟩ := sdfArr3_spec h3
  have hsz : 0 < o.sdf.dims.size := by rw [h2]; exact hne
  obtain ⟨g, g1, g2, g3, g4⟩ := getGradient3_spec o.sdf.dims oobG (grad o.sdf) hsz
    (hg o.sdf)
  obtain ⟨g', t1, t2, t3⟩ := transpose4 g3 g2
  refine ⟨o.sdf, a, g', hc, h2, ?_, ?_, ?_, ?_⟩
  · unfold compute3
    rw [hc]
    simp only [Option.bind_eq_bind, Option.bind_some, a1, g1, t1]
    rfl
  · rw [a2, h2, hs]
  · rw [t2, h2]
  · intro x hx y hy z hz
    have hin : InBounds ⟨nx, ny, nz⟩ ⟨x, y, z⟩ :=
      ⟨⟨by simp, by simpa using hx⟩, ⟨by simp, by simpa using hy⟩, ⟨by simp, by simpa using hz⟩⟩
    rw [h2] at a3 t3 g4
    refine ⟨?_, ?_⟩
    · obtain ⟨v, hv, v1, v2⟩ := h4 _ hin
      refine ⟨v, by rw [a3 x hx y hy z hz, hv], hv, ?_, ?_⟩
      · rw [v1]; exact decide_eq_true_iff
      · rw [v2]
        exact get_bool hw (by rw [hs]; exact inRange3.mpr ⟨y, x, z, rfl, hy, hx, hz⟩)
    · intro c hc
      rw [t3 x hx y hy z hz c hc, g4 x hx y hy z hz c hc]

/-- C50, two-dimensional wrapper: `utils_2d.compute_sdf_and_gradient`. -/
theorem C50_2d {R : Rounding} {res : ℝ} (hres : GoodRes R res) (h32 : 0 < R.r32 res) {G : Type}
    (oobG : G) (grad : Grid FVal → Idx → Bool → List G)
    (hg : ∀ s v, InBounds s.dims v → (grad s v true).length = 3)
    {env : NpArr Bool} (hw : env.WF) {nx ny : Nat} (hs : env.shape = [ny, nx])
    (hd : SmallGrid ⟨nx, ny, 1⟩) (hne : 0 < nx * ny) :
    ∃ s a g, computeSdf2 R res env = some s ∧ s.dims = ⟨nx, ny, 1⟩ ∧
      compute2 R res oobG grad env = some (a, g) ∧ a.shape = env.shape ∧ g.shape = [ny, nx, 2] ∧
      ∀ x < nx, ∀ y < ny,
        (∃ v, a.get [y, x] = some (some v) ∧ s.get ⟨x, y, 0⟩ = some v ∧
          (v < 0 ↔ env.get [y, x] = some true) ∧ (0 < v ↔ env.get [y, x] = some false)) ∧
        ∀ c < 2, g.get [y, x, c] = (grad s ⟨x, y, 0⟩ true)[c]? := by
  obtain ⟨f1, f2⟩ := fill2_get env ⟨nx, ny, 1⟩ rfl
  obtain ⟨o, h1, h2, h3, h4⟩ := field_of_fill hres h32 hd f1 _ f2
  have hc : computeSdf2 R res env = some o.sdf := by
    unfold computeSdf2; rw [hs]; simp only; rw [h1]; rfl
  have hz1 : o.sdf.dims.nz = 1 := by rw [h2]
  obtain ⟨a, a1, a2, a3, a4⟩ := sdfToNp_spec h3 hz1
  obtain ⟨a', s1, s2, s3⟩ := transpose2 a3 a2
  have hsz : 0 < o.sdf.dims.size := by rw [h2]; simp only [Dims.size]; omega
  obtain ⟨g, g1, g2, g3, g4⟩ := getGradient2_spec o.sdf.dims oobG (grad o.sdf) hz1 hsz
    (hg o.sdf)
  obtain ⟨g', t1, t2, t3⟩ := transpose3 g3 g2
  refine ⟨o.sdf, a', g', hc, h2, ?_, ?_, ?_, ?_⟩
  · unfold compute2
    rw [hc]
    simp only [Option.bind_eq_bind, Option.bind_some, a1, s1, g1, t1]
    rfl
  · rw [s2, h2, hs]
  · rw [t2, h2]
  · intro x hx y hy
    have hin : InBounds ⟨nx, ny, 1⟩ ⟨x, y, 0⟩ :=
      ⟨⟨by simp, by simpa using hx⟩, ⟨by simp, by simpa using hy⟩, ⟨by simp, by simp⟩⟩
    rw [h2] at s3 t3 g4 a4
    refine ⟨?_, ?_⟩
    · obtain ⟨v, hv, v1, v2⟩ := h4 _ hin
      refine ⟨v, by rw [s3 x hx y hy, a4 x hx y hy, hv], hv, ?_, ?_⟩
      · rw [v1]; exact decide_eq_true_iff
      · rw [v2]
        exact get_bool hw (by rw [hs]; exact inRange2.mpr ⟨y, x, rfl, hy, hx⟩)
    · intro c hc
      rw [t3 x hx y hy c hc, g4 x hx y hy c hc]

/-- A 2 x 3 x 1 environment with one obstacle at row 0, column 2. -/
def exEnv : NpArr Bool := ⟨[2, 3, 1], [false, false, true, false, false, false]⟩

example : exEnv.WF ∧ exEnv.get [0, 2, 0] = some true ∧ exEnv.get [1, 2, 0] = some false ∧
    SmallGrid ⟨3, 2, 1⟩ ∧ 0 < 3 * 2 * 1 ∧ GoodRes exactRounding 1 ∧ 0 < exactRounding.r32 ((1 : ℝ) : EReal) ∧
    (∀ (s : Grid FVal) v, InBounds s.dims v → ((fun _ _ _ => [0, 0, 0] : Grid FVal → Idx → Bool → List ℚ)
      s v true).length = 3) := by
  refine ⟨rfl, rfl, rfl, ?_, by decide, ⟨one_pos, rfl⟩, ?_, fun _ _ _ => rfl⟩
  · unfold SmallGrid; decide
  · show (0 : EReal) < ((1 : ℝ) : EReal)
    exact_mod_cast one_pos

/-! ## C70: the helpers that do not transpose -/

/-- C70.  `utils_3d.get_gradient` of any non-empty field with exact values: the array is indexed
`[x, y, z, component]` and holds the world-frame edge gradient of every cell. -/
theorem C70_get_gradient {K : Type} [Field K] [LinearOrder K] [IsStrictOrderedRing K] (s : MSdf K)
    (hne : 0 < s.grid.dims.size) :
    ∃ a, getGradient3 s.grid.dims s.grid.oob s.gradient = some a ∧
      a.shape = [s.grid.dims.nx, s.grid.dims.ny, s.grid.dims.nz, 3] ∧
      ∀ x < s.grid.dims.nx, ∀ y < s.grid.dims.ny, ∀ z < s.grid.dims.nz, ∃ gx gy gz,
        s.gradient ⟨x, y, z⟩ true = [gx, gy, gz] ∧ a.get [x, y, z, 0] = some gx ∧
        a.get [x, y, z, 1] = some gy ∧ a.get [x, y, z, 2] = some gz := by
  have hg : ∀ v, InBounds s.grid.dims v → (s.gradient v true).length = 3 :=
    fun v hv => (C23_when s v true).mpr ⟨hv, Or.inl rfl⟩
  obtain ⟨a, h1, h2, _, h4⟩ := getGradient3_spec s.grid.dims s.grid.oob s.gradient hne hg
  refine ⟨a, h1, h2, ?_⟩
  intro x hx y hy z hz
  have h3 := hg ⟨x, y, z⟩ ⟨⟨by simp, by simpa using hx⟩, ⟨by simp, by simpa using hy⟩,
    ⟨by simp, by simpa using hz⟩⟩
  have g4 := h4 x hx y hy z hz
  generalize s.gradient ⟨x, y, z⟩ true = l at *
  match l, h3 with
  | [gx, gy, gz], _ =>
    exact ⟨gx, gy, gz, rfl, by rw [g4 0 (by omega)]; rfl, by rw [g4 1 (by omega)]; rfl,
      by rw [g4 2 (by omega)]; rfl⟩

example : 0 < exAffine.grid.dims.size := by decide

/-- C70.  `utils_2d.compute_gradient` (and `sdf_to_np`) of a one-layer field: arrays indexed
`[x, y]` and `[x, y, component]`, the transpose of what `compute_sdf_and_gradient` returns. -/
theorem C70_compute_gradient {V G : Type} {s : Grid V} (hw : s.WF) (hz : s.dims.nz = 1)
    (hne : 0 < s.dims.size) (oobG : G) (grad : Idx → Bool → List G)
    (hg : ∀ v, InBounds s.dims v → (grad v true).length = 3) :
    ∃ a g, computeGradient2 s oobG grad = some (a, g) ∧ sdfToNp s = some a ∧
      a.shape = [s.dims.nx, s.dims.ny] ∧ g.shape = [s.dims.nx, s.dims.ny, 2] ∧
      ∀ x < s.dims.nx, ∀ y < s.dims.ny, a.get [x, y] = some (s.get ⟨x, y, 0⟩) ∧
        ∀ c < 2, g.get [x, y, c] = (grad ⟨x, y, 0⟩ true)[c]? := by
  obtain ⟨a, a1, a2, _, a4⟩ := sdfToNp_spec hw hz
  obtain ⟨g, g1, g2, _, g4⟩ := getGradient2_spec s.dims oobG grad hz hne hg
  refine ⟨a, g, ?_, a1, a2, g2, fun x hx y hy => ⟨a4 x hx y hy, g4 x hx y hy⟩⟩
  unfold computeGradient2
  simp only [Option.bind_eq_bind, Option.bind_some, a1, g1]
  rfl

/-- C70.  `sdf_to_np` and `compute_gradient` raise on every non-empty field with more than one
layer. -/
theorem C70_layers {V : Type} {s : Grid V} (hw : s.WF) (hne : 0 < s.dims.size) :
    (∃ a, sdfToNp s = some a) ↔ s.dims.nz = 1 := by
  constructor
  · rintro ⟨a, ha⟩
    unfold sdfToNp reshape at ha
    split at ha
    · rename_i h
      simp only [List.prod_cons, List.prod_nil, Nat.mul_one] at h
      rw [hw] at h
      unfold Dims.size at h hne
      have hpos : 0 < s.dims.nx * s.dims.ny := Nat.pos_of_mul_pos_right hne
      have : s.dims.nx * s.dims.ny * 1 = s.dims.nx * s.dims.ny * s.dims.nz := by omega
      exact (Nat.eq_of_mul_eq_mul_left hpos this).symm
    · simp at ha
  · intro hz
    obtain ⟨a, h, _⟩ := sdfToNp_spec hw hz
    exact ⟨a, h⟩

/-- C70.  `grid_to_np` of a map with a layer `z = 0`: entry `[x, y]` is the occupancy of cell
`(x, y, 0)`. -/
theorem C70_grid_to_np (m : CMap) :
    ∃ a, gridToNp m = some a ∧ a.shape = [m.grid.dims.nx, m.grid.dims.ny] ∧
      ∀ x < m.grid.dims.nx, ∀ y < m.grid.dims.ny,
        a.get [x, y] = some (m.getImm ⟨x, y, 0⟩).1.occ := by
  unfold gridToNp
  obtain ⟨a, h1, h2, _, h4⟩ := tabulate_spec [m.grid.dims.nx, m.grid.dims.ny]
    (fun | [i, j] => some (m.getImm ⟨i, j, 0⟩).1.occ | _ => none) (by
      intro j hj
      obtain ⟨x, y, rfl, _, _⟩ := inRange2.mp hj
      exact ⟨_, rfl⟩)
  exact ⟨a, h1, h2, fun x hx y hy => h4 _ (inRange2.mpr ⟨x, y, rfl, hx, hy⟩)⟩

/-! ## C71: `gradient_to_np` -/

/-- C71.  What holds: on a non-empty grid whose cells all hold `k` numbers, `gradient_to_np` succeeds
exactly if one layer of one-component vectors is given. -/
theorem C71_accepts_partial {G : Type} {g : Grid (List G)} (hw : g.WF) (hne : 0 < g.dims.size)
    (k : Nat) (hk : ∀ v, InBounds g.dims v → (g.get v).length = k) :
    (∃ a, gradientToNp g = some a) ↔ g.dims.nz * k = 1 := by
  have hrows : ∀ r ∈ g.data, r.length = k := by
    intro r hr
    obtain ⟨v, hv, rfl⟩ := mem_data hw hr
    exact hk v hv
  have hnil := data_ne_nil hw hne
  have e : gradientToNp g = (NpArr.mk [g.data.length, k] g.data.flatten).reshape
      [g.dims.nx, g.dims.ny] := by
    unfold gradientToNp
    split
    · rename_i h; exact absurd h hnil
    · rw [ofRows_spec k hnil hrows]; rfl
  rw [e]
  unfold reshape
  simp only [List.prod_cons, List.prod_nil, Nat.mul_one, length_flatten k hrows]
  rw [hw]
  unfold Dims.size at hne ⊢
  have hpos : 0 < g.dims.nx * g.dims.ny := Nat.pos_of_mul_pos_right hne
  constructor
  · rintro ⟨a, ha⟩
    split at ha
    · rename_i h
      have : g.dims.nx * g.dims.ny * 1 = g.dims.nx * g.dims.ny * (g.dims.nz * k) := by
        rw [← Nat.mul_assoc]; omega
      exact (Nat.eq_of_mul_eq_mul_left hpos this).symm
    · simp at ha
  · intro h
    refine ⟨_, if_pos ?_⟩
    rw [Nat.mul_assoc, h, Nat.mul_one]

/-- C71.  The property fails: `gradient_to_np` raises on the result of `GetFullGradient` for every
non-empty field. -/
theorem C71_false {G : Type} (d : Dims) (hne : 0 < d.size) (oob : G) (grad : Idx → Bool → List G)
    (hg : ∀ v, InBounds d v → (grad v true).length = 3) :
    gradientToNp (fullGradient d oob grad true) = none := by
  obtain ⟨h1, h2, h3⟩ := fullGradient_spec d oob grad true
  have h := C71_accepts_partial h2 (by rw [h1]; exact hne) 3
    (by rw [h1]; intro v hv; rw [h3 v hv]; exact hg v hv)
  cases e : gradientToNp (fullGradient d oob grad true) with
  | none => rfl
  | some a =>
    have := h.mp ⟨a, e⟩
    omega

example : (0 < (⟨2, 3, 1⟩ : Dims).size) ∧
    gradientToNp (fullGradient ⟨2, 3, 1⟩ (0 : Nat) (fun _ _ => [1, 2, 3]) true) = none ∧
    (gradientToNp (Grid.mk' ⟨2, 3, 1⟩ [7] [7])).isSome = true := by decide

end Verif
