import Verif.Image2d
import Verif.Props.SdfGen

/-!
# Properties of the 2D image distance field (C49, C65, C66)
-/

namespace Verif

open Spec

namespace Img

/-! ## One comparison -/

/-- `a` is a finite offset of length at most `r`. -/
def Len (a : Off) (r : ℝ) : Prop := ∃ p, a = some p ∧ Real.sqrt (sq p : ℝ) ≤ r

theorem sq_nonneg' (p : Int × Int) : 0 ≤ sq p := by unfold sq; nlinarith [mul_self_nonneg p.1, mul_self_nonneg p.2]

theorem Len.mono {a : Off} {r r' : ℝ} (h : Len a r) (hr : r ≤ r') : Len a r' := by
  obtain ⟨p, e, hp⟩ := h; exact ⟨p, e, hp.trans hr⟩

/-- Triangle inequality for lengths. -/
theorem sqrt_add_le (a b c e : ℝ) :
    Real.sqrt ((a + c) * (a + c) + (b + e) * (b + e)) ≤
      Real.sqrt (a * a + b * b) + Real.sqrt (c * c + e * e) := by
  have h1 : 0 ≤ a * a + b * b := by nlinarith [mul_self_nonneg a, mul_self_nonneg b]
  have h2 : 0 ≤ c * c + e * e := by nlinarith [mul_self_nonneg c, mul_self_nonneg e]
  rw [Real.sqrt_le_left (by positivity)]
  have e1 := Real.mul_self_sqrt h1
  have e2 := Real.mul_self_sqrt h2
  have hcs : a * c + b * e ≤ Real.sqrt (a * a + b * b) * Real.sqrt (c * c + e * e) := by
    rw [← Real.sqrt_mul h1]
    apply Real.le_sqrt_of_sq_le
    nlinarith [mul_self_nonneg (a * e - b * c)]
  nlinarith

theorem Len.shift {a : Off} {r : ℝ} (h : Len a r) (o : Int × Int) :
    Len (a.map fun p => (p.1 + o.1, p.2 + o.2)) (r + Real.sqrt (sq o : ℝ)) := by
  obtain ⟨p, rfl, hp⟩ := h
  refine ⟨_, rfl, ?_⟩
  have := sqrt_add_le (p.1 : ℝ) (p.2 : ℝ) (o.1 : ℝ) (o.2 : ℝ)
  unfold sq at *
  push_cast at *
  linarith

/-- The offset points at a marked pixel. -/
def Points (S : Idx → Prop) (v : Idx) (a : Off) : Prop :=
  ∀ p, a = some p → S ⟨v.x + p.1, v.y + p.2, 0⟩

theorem compare_points {S : Idx → Prop} {f : Grid Off} {v : Idx} {c : Off} {o : Int × Int}
    (hn : Points S ⟨v.x + o.1, v.y + o.2, 0⟩ (f.get ⟨v.x + o.1, v.y + o.2, 0⟩)) (hc : Points S v c) :
    Points S v (compare f v c o) := by
  unfold compare
  split
  · intro p hp
    unfold neighbour at hp
    rw [Option.map_eq_some_iff] at hp
    obtain ⟨q, hq, rfl⟩ := hp
    have := hn q hq
    dsimp only at this ⊢
    rw [show v.x + (q.1 + o.1) = v.x + o.1 + q.1 by ring,
      show v.y + (q.2 + o.2) = v.y + o.2 + q.2 by ring]
    exact this
  · exact hc

theorem compare_le_cell {f : Grid Off} {v : Idx} {c : Off} {o : Int × Int} {r : ℝ} (h : Len c r) :
    Len (compare f v c o) r := by
  unfold compare
  split
  · rename_i hl
    obtain ⟨p, rfl, hp⟩ := h
    cases hn : neighbour f v o with
    | none => rw [hn] at hl; simp [less] at hl
    | some q =>
      rw [hn] at hl
      simp only [less, decide_eq_true_eq] at hl
      exact ⟨q, rfl, le_trans (Real.sqrt_le_sqrt (by exact_mod_cast hl.le)) hp⟩
  · exact h

theorem compare_le_neighbour {f : Grid Off} {v : Idx} {c : Off} {o : Int × Int} {r : ℝ}
    (h : Len (neighbour f v o) r) : Len (compare f v c o) r := by
  unfold compare
  split
  · exact h
  · rename_i hl
    obtain ⟨p, e, hp⟩ := h
    rw [e] at hl
    cases c with
    | none => simp [less] at hl
    | some q =>
      simp only [less, decide_eq_true_eq, not_lt] at hl
      exact ⟨q, rfl, le_trans (Real.sqrt_le_sqrt (by exact_mod_cast hl)) hp⟩

theorem fold_le_cell {f : Grid Off} {v : Idx} {r : ℝ} : ∀ (offs : List (Int × Int)) {c : Off},
    Len c r → Len (offs.foldl (compare f v) c) r := by
  intro offs
  induction offs with
  | nil => intro c h; exact h
  | cons o offs ih => intro c h; exact ih (compare_le_cell h)

theorem fold_le_neighbour {f : Grid Off} {v : Idx} {r : ℝ} : ∀ {offs : List (Int × Int)} {c : Off}
    {o : Int × Int}, o ∈ offs → Len (neighbour f v o) r → Len (offs.foldl (compare f v) c) r := by
  intro offs
  induction offs with
  | nil => intro c o h; simp at h
  | cons a offs ih =>
    intro c o ho h
    rcases List.mem_cons.mp ho with rfl | ho
    · exact fold_le_cell offs (compare_le_neighbour h)
    · exact ih ho h

theorem fold_points {S : Idx → Prop} {f : Grid Off} {v : Idx}
    (hf : ∀ w, Points S w (f.get w)) : ∀ (offs : List (Int × Int)) {c : Off}, Points S v c →
    Points S v (offs.foldl (compare f v) c) := by
  intro offs
  induction offs with
  | nil => intro c h; exact h
  | cons o offs ih => intro c h; exact ih (compare_points (hf _) h)

/-! ## Sweeps -/

/-- Well-formed field that only points at marked pixels. -/
structure Good (d : Dims) (S : Idx → Prop) (f : Grid Off) : Prop where
  wf : f.WF
  dims : f.dims = d
  oob : f.oob = none
  points : ∀ w, Points S w (f.get w)

/-- `g` is nowhere worse than `f`. -/
def Better (f g : Grid Off) : Prop := ∀ w r, Len (f.get w) r → Len (g.get w) r

theorem Better.refl (f : Grid Off) : Better f f := fun _ _ h => h
theorem Better.trans {f g h : Grid Off} (a : Better f g) (b : Better g h) : Better f h :=
  fun w r hl => b w r (a w r hl)

theorem relax_good {d : Dims} {S : Idx → Prop} {f : Grid Off} (h : Good d S f)
    (offs : List (Int × Int)) (v : Idx) : Good d S (relax offs f v) ∧ Better f (relax offs f v) := by
  unfold relax
  refine ⟨⟨h.wf.set _ _, by rw [Grid.dims_set]; exact h.dims, by rw [Grid.oob_set]; exact h.oob, ?_⟩, ?_⟩
  · intro w
    rw [Grid.get_set h.wf]
    split
    · rename_i hw
      obtain ⟨rfl, _⟩ := hw
      exact fold_points h.points offs (h.points v)
    · exact h.points w
  · intro w r hl
    rw [Grid.get_set h.wf]
    split
    · rename_i hw
      obtain ⟨rfl, _⟩ := hw
      exact fold_le_cell offs hl
    · exact hl

theorem relax_from {d : Dims} {S : Idx → Prop} {f : Grid Off} (h : Good d S f)
    {offs : List (Int × Int)} {v : Idx} (hv : d.inB v = true) {o : Int × Int} (ho : o ∈ offs) {r : ℝ}
    (hl : Len (f.get ⟨v.x + o.1, v.y + o.2, 0⟩) r) :
    Len ((relax offs f v).get v) (r + Real.sqrt (sq o : ℝ)) := by
  unfold relax
  rw [Grid.get_set_self h.wf (by rw [h.dims]; exact hv)]
  exact fold_le_neighbour ho (hl.shift o)

theorem pass_good {d : Dims} {S : Idx → Prop} (offs : List (Int × Int)) : ∀ (l : List Idx) {f : Grid Off},
    Good d S f → Good d S (l.foldl (relax offs) f) ∧ Better f (l.foldl (relax offs) f) := by
  intro l
  induction l with
  | nil => intro f h; exact ⟨h, Better.refl f⟩
  | cons a l ih =>
    intro f h
    obtain ⟨h1, h2⟩ := relax_good h offs a
    obtain ⟨h3, h4⟩ := ih h1
    exact ⟨h3, h2.trans h4⟩

/-- A cell of the pass takes over a neighbour's closest point. -/
theorem pass_from {d : Dims} {S : Idx → Prop} {offs : List (Int × Int)} {l : List Idx} {f : Grid Off}
    (h : Good d S f) {v : Idx} (hv : d.inB v = true) (hl : v ∈ l) {o : Int × Int} (ho : o ∈ offs)
    {r : ℝ} (hr : Len (f.get ⟨v.x + o.1, v.y + o.2, 0⟩) r) :
    Len ((l.foldl (relax offs) f).get v) (r + Real.sqrt (sq o : ℝ)) := by
  obtain ⟨a, b, rfl⟩ := List.append_of_mem hl
  rw [List.foldl_append, List.foldl_cons]
  obtain ⟨h1, h2⟩ := pass_good offs a h
  have := relax_from h1 hv ho (h2 _ _ hr)
  exact (pass_good offs b (relax_good h1 offs v).1).2 _ _ this

/-- In a pass over a list where every cell's predecessor is its neighbour, values spread along the
list. -/
theorem pass_along {d : Dims} {S : Idx → Prop} {offs : List (Int × Int)} {o : Int × Int} (ho : o ∈ offs)
    (ho1 : sq o = 1) : ∀ (l : List Idx) {f : Grid Off}, Good d S f → (∀ v ∈ l, d.inB v = true) →
    ∀ (u : Idx) (r : ℝ), List.IsChain (fun a b : Idx => a = ⟨b.x + o.1, b.y + o.2, 0⟩) (u :: l) →
    Len (f.get u) r → ∀ (k : Nat) v, (u :: l)[k]? = some v →
      Len ((l.foldl (relax offs) f).get v) (r + k) := by
  intro l
  induction l with
  | nil =>
    intro f h _ u r _ hl k v hk
    cases k with
    | zero => simp at hk; subst hk; simpa using hl
    | succ k => simp at hk
  | cons a l ih =>
    intro f h hb u r hc hl k v hk
    rw [List.isChain_cons_cons] at hc
    obtain ⟨hua, hc⟩ := hc
    obtain ⟨g1, g2⟩ := relax_good h offs a
    rw [List.foldl_cons]
    have ha : Len ((relax offs f a).get a) (r + 1) := by
      have := relax_from h (hb a (List.mem_cons_self ..)) ho (r := r) (by rw [← hua]; exact hl)
      rw [ho1] at this
      simpa using this
    cases k with
    | zero =>
      simp at hk; subst hk
      exact ((pass_good offs l g1).2 _ _ (g2 _ _ hl)).mono (by simp)
    | succ k =>
      have := ih g1 (fun v hv => hb v (List.mem_cons_of_mem _ hv)) a (r + 1) hc ha k v (by simpa using hk)
      refine this.mono ?_
      push_cast
      linarith

/-! ## Rows of a sweep -/

theorem mem_up {d : Dims} {y x : Nat} (hx : x < d.nx) : (⟨(x : Nat), y, 0⟩ : Idx) ∈ up d y := by
  unfold up
  exact List.mem_map.mpr ⟨x, List.mem_range.mpr hx, rfl⟩

theorem inB_cell {d : Dims} (hz : d.nz = 1) {x y : Nat} (hx : x < d.nx) (hy : y < d.ny) :
    d.inB ⟨(x : Nat), y, 0⟩ = true := by
  rw [Dims.inB_iff]
  dsimp only
  omega

theorem up_inB {d : Dims} (hz : d.nz = 1) {y : Nat} (hy : y < d.ny) : ∀ v ∈ up d y, d.inB v = true := by
  intro v hv
  unfold up at hv
  obtain ⟨x, hx, rfl⟩ := List.mem_map.mp hv
  exact inB_cell hz (List.mem_range.mp hx) hy

/-- Cells `a, a + 1, …` of a column. -/
theorem up_split {d : Dims} (y : Nat) {a : Nat} (ha : a < d.nx) :
    up d y = (List.range a).map (fun x => (⟨(x : Nat), y, 0⟩ : Idx)) ++ ⟨(a : Nat), y, 0⟩ ::
      (List.range (d.nx - a - 1)).map (fun k => (⟨((a + 1 + k : Nat) : Int), y, 0⟩ : Idx)) := by
  unfold up
  have h1 : d.nx = a + (d.nx - a) := by omega
  have h2 : d.nx - a = (d.nx - a - 1) + 1 := by omega
  conv_lhs => rw [h1, List.range_add, List.map_append]
  congr 1
  rw [List.map_map, h2, List.range_succ_eq_map, List.map_cons, List.map_map]
  simp only [Function.comp_def, Nat.add_zero, Nat.add_sub_cancel, List.cons.injEq, true_and]
  apply List.map_congr_left
  intro k _
  congr 2
  omega

/-- Values spread to larger rows in an upward pass with the offset `(-1, 0)`. -/
theorem spread_up {d : Dims} (hz : d.nz = 1) {S : Idx → Prop} {offs : List (Int × Int)}
    (ho : (-1, 0) ∈ offs) {f : Grid Off} (h : Good d S f) {y : Nat} (hy : y < d.ny) {a b : Nat}
    (hab : a ≤ b) (hb : b < d.nx) {r : ℝ} (hl : Len (f.get ⟨(a : Nat), y, 0⟩) r) :
    Len (((up d y).foldl (relax offs) f).get ⟨(b : Nat), y, 0⟩) (r + (b - a : Nat)) := by
  have hin := up_inB hz hy
  rw [up_split y (show a < d.nx by omega)] at hin ⊢
  rw [List.foldl_append, List.foldl_cons]
  obtain ⟨g1, g2⟩ := pass_good offs ((List.range a).map (fun x => (⟨(x : Nat), y, 0⟩ : Idx))) h
  obtain ⟨g3, g4⟩ := relax_good g1 offs ⟨(a : Nat), y, 0⟩
  refine pass_along ho (by decide) _ g3 ?_ ⟨(a : Nat), y, 0⟩ r ?_ (g4 _ _ (g2 _ _ hl)) (b - a) _ ?_
  · intro v hv
    exact hin v (List.mem_append_right _ (List.mem_cons_of_mem _ hv))
  · rw [List.isChain_iff_getElem]
    intro i hi
    simp only [List.length_cons, List.length_map, List.length_range] at hi
    cases i with
    | zero =>
      simp only [List.getElem_cons_zero, List.getElem_cons_succ, List.getElem_map,
        List.getElem_range, Idx.mk.injEq]
      refine ⟨?_, ?_, ?_⟩ <;> push_cast <;> omega
    | succ i =>
      simp only [List.getElem_cons_succ, List.getElem_map, List.getElem_range, Idx.mk.injEq]
      refine ⟨?_, ?_, ?_⟩ <;> push_cast <;> omega
  · rcases Nat.eq_zero_or_pos (b - a) with h0 | h0
    · rw [h0]
      have : a = b := by omega
      subst this
      rfl
    · obtain ⟨k, hk⟩ : ∃ k, b - a = k + 1 := ⟨b - a - 1, by omega⟩
      rw [hk, List.getElem?_cons_succ, List.getElem?_map, List.getElem?_range (by omega)]
      simp only [Option.map_some, Option.some.injEq, Idx.mk.injEq]
      refine ⟨?_, ?_, ?_⟩ <;> push_cast <;> omega

/-- Values spread to smaller rows in a downward pass with the offset `(1, 0)`. -/
theorem spread_down {d : Dims} (hz : d.nz = 1) {S : Idx → Prop} {offs : List (Int × Int)}
    (ho : (1, 0) ∈ offs) {f : Grid Off} (h : Good d S f) {y : Nat} (hy : y < d.ny) {a b : Nat}
    (hab : b ≤ a) (ha : a < d.nx) {r : ℝ} (hl : Len (f.get ⟨(a : Nat), y, 0⟩) r) :
    Len (((down d y).foldl (relax offs) f).get ⟨(b : Nat), y, 0⟩) (r + (a - b : Nat)) := by
  have hin := up_inB hz hy
  unfold down
  rw [up_split y ha] at hin ⊢
  rw [List.reverse_append, List.reverse_cons, List.foldl_append, List.foldl_append, List.foldl_cons,
    List.foldl_nil]
  obtain ⟨g1, g2⟩ := pass_good offs (List.reverse
    ((List.range (d.nx - a - 1)).map (fun k => (⟨((a + 1 + k : Nat) : Int), y, 0⟩ : Idx)))) h
  obtain ⟨g3, g4⟩ := relax_good g1 offs ⟨(a : Nat), y, 0⟩
  refine pass_along ho (by decide) _ g3 ?_ ⟨(a : Nat), y, 0⟩ r ?_ (g4 _ _ (g2 _ _ hl)) (a - b) _ ?_
  · intro v hv
    exact hin v (List.mem_append_left _ (List.mem_reverse.mp hv))
  · rw [List.isChain_iff_getElem]
    intro i hi
    simp only [List.length_cons, List.length_map, List.length_range, List.length_reverse] at hi
    cases i with
    | zero =>
      simp only [List.getElem_cons_zero, List.getElem_cons_succ, List.getElem_reverse,
        List.getElem_map, List.length_map, List.length_range, List.getElem_range, Idx.mk.injEq]
      refine ⟨?_, ?_, ?_⟩ <;> push_cast <;> omega
    | succ i =>
      simp only [List.getElem_cons_succ, List.getElem_reverse, List.getElem_map, List.length_map,
        List.length_range, List.getElem_range, Idx.mk.injEq]
      refine ⟨?_, ?_, ?_⟩ <;> push_cast <;> omega
  · rcases Nat.eq_zero_or_pos (a - b) with h0 | h0
    · rw [h0]
      have : a = b := by omega
      subst this
      rfl
    · obtain ⟨k, hk⟩ : ∃ k, a - b = k + 1 := ⟨a - b - 1, by omega⟩
      rw [hk, List.getElem?_cons_succ, List.getElem?_reverse (by simp; omega), List.getElem?_map]
      simp only [List.length_map, List.length_range]
      rw [List.getElem?_range (by omega)]
      simp only [Option.map_some, Option.some.injEq, Idx.mk.injEq]
      refine ⟨?_, ?_, ?_⟩ <;> push_cast <;> omega

theorem sweep1_good {d : Dims} {S : Idx → Prop} {f : Grid Off} (h : Good d S f) (y : Nat) :
    Good d S (sweep1 f y) ∧ Better f (sweep1 f y) := by
  unfold sweep1
  obtain ⟨g1, g2⟩ := pass_good offs11 (up f.dims y) h
  obtain ⟨g3, g4⟩ := pass_good offs12 (down f.dims y) g1
  exact ⟨g3, g2.trans g4⟩

theorem sweep2_good {d : Dims} {S : Idx → Prop} {f : Grid Off} (h : Good d S f) (y : Nat) :
    Good d S (sweep2 f y) ∧ Better f (sweep2 f y) := by
  unfold sweep2
  obtain ⟨g1, g2⟩ := pass_good offs21 (down f.dims y) h
  obtain ⟨g3, g4⟩ := pass_good offs22 (up f.dims y) g1
  exact ⟨g3, g2.trans g4⟩

theorem sweeps_good {d : Dims} {S : Idx → Prop} (sw : Grid Off → Nat → Grid Off)
    (hsw : ∀ {f : Grid Off}, Good d S f → ∀ y, Good d S (sw f y) ∧ Better f (sw f y)) :
    ∀ (l : List Nat) {f : Grid Off}, Good d S f → Good d S (l.foldl sw f) ∧ Better f (l.foldl sw f) := by
  intro l
  induction l with
  | nil => intro f h; exact ⟨h, Better.refl f⟩
  | cons a l ih =>
    intro f h
    obtain ⟨h1, h2⟩ := hsw h a
    obtain ⟨h3, h4⟩ := ih h1
    exact ⟨h3, h2.trans h4⟩

/-- Length of the shortest path of horizontal, vertical and diagonal steps. -/
noncomputable def octile (a b : Nat) : ℝ := (max a b - min a b : ℕ) + Real.sqrt 2 * (min a b : ℕ)

theorem octile_zero (b : Nat) : octile b 0 = b := by simp [octile]

theorem octile_vert (b : Nat) : octile 0 b + 1 = octile 0 (b + 1) := by simp [octile]

theorem octile_diag (a b : Nat) : octile a b + Real.sqrt 2 = octile (a + 1) (b + 1) := by
  unfold octile
  have h1 : max (a + 1) (b + 1) - min (a + 1) (b + 1) = max a b - min a b := by omega
  have h2 : min (a + 1) (b + 1) = min a b + 1 := by omega
  rw [h1, h2]
  push_cast
  ring

/-- Distance of rows. -/
def gap (a b : Nat) : Nat := (a - b) + (b - a)

/-- One column: sideways within the column of a source. -/
theorem sweep1_base {d : Dims} (hz : d.nz = 1) {S : Idx → Prop} {f : Grid Off} (h : Good d S f)
    {sx y : Nat} (hy : y < d.ny) {r : ℝ} (hl : Len (f.get ⟨(sx : Nat), y, 0⟩) r) {x : Nat}
    (hx : x < d.nx) (hsx : sx < d.nx) :
    Len ((sweep1 f y).get ⟨(x : Nat), y, 0⟩) (r + gap x sx) := by
  unfold sweep1
  rw [h.dims]
  obtain ⟨g1, g2⟩ := pass_good offs11 (up d y) h
  rcases Nat.le_total sx x with hle | hle
  · have := spread_up hz (offs := offs11) (by decide) h hy hle hx hl
    refine ((pass_good offs12 (down d y) g1).2 _ _ this).mono ?_
    unfold gap
    rw [show sx - x = 0 by omega]; simp
  · have := spread_down hz (offs := offs12) (by decide) g1 hy hle hsx (g2 _ _ hl)
    refine this.mono ?_
    unfold gap
    rw [show x - sx = 0 by omega]; simp

/-- One column: from the previous column. -/
theorem sweep1_step {d : Dims} (hz : d.nz = 1) {S : Idx → Prop} {f : Grid Off} (h : Good d S f)
    {x y : Nat} (hy : y + 1 < d.ny) (hx : x < d.nx) {o : Int} (ho : o = 0 ∨ o = -1 ∨ o = 1) {r : ℝ}
    (hl : Len (f.get ⟨(x : Int) + o, (y : Nat), 0⟩) r) :
    Len ((sweep1 f (y + 1)).get ⟨(x : Nat), (y + 1 : Nat), 0⟩) (r + Real.sqrt (sq (o, -1) : ℝ)) := by
  unfold sweep1
  rw [h.dims]
  obtain ⟨g1, g2⟩ := pass_good offs11 (up d (y + 1)) h
  have := pass_from (offs := offs11) (l := up d (y + 1)) h (v := ⟨(x : Nat), (y + 1 : Nat), 0⟩)
    (inB_cell hz hx hy) (mem_up hx) (o := (o, -1))
    (by rcases ho with rfl | rfl | rfl <;> decide) (r := r) (by
      dsimp only
      rw [show ((y + 1 : Nat) : Int) + -1 = (y : Int) by push_cast; ring]
      exact hl)
  exact (pass_good offs12 (down d (y + 1)) g1).2 _ _ this

theorem sweep2_step {d : Dims} (hz : d.nz = 1) {S : Idx → Prop} {f : Grid Off} (h : Good d S f)
    {x y : Nat} (hy : y < d.ny) (hx : x < d.nx) {o : Int} (ho : o = 0 ∨ o = -1 ∨ o = 1) {r : ℝ}
    (hl : Len (f.get ⟨(x : Int) + o, (y + 1 : Nat), 0⟩) r) :
    Len ((sweep2 f y).get ⟨(x : Nat), (y : Nat), 0⟩) (r + Real.sqrt (sq (o, 1) : ℝ)) := by
  unfold sweep2
  rw [h.dims]
  obtain ⟨g1, g2⟩ := pass_good offs21 (down d y) h
  have := pass_from (offs := offs21) (l := down d y) h (v := ⟨(x : Nat), (y : Nat), 0⟩)
    (inB_cell hz hx hy) (by unfold down; exact List.mem_reverse.mpr (mem_up hx)) (o := (o, 1))
    (by rcases ho with rfl | rfl | rfl <;> decide) (r := r) (by
      dsimp only
      rw [show (y : Int) + 1 = ((y + 1 : Nat) : Int) by push_cast; ring]
      exact hl)
  exact (pass_good offs22 (up d y) g1).2 _ _ this

theorem sqrt_diag (o : Int) (ho : o = -1 ∨ o = 1) (e : Int) (he : e = -1 ∨ e = 1) :
    Real.sqrt (sq (o, e) : ℝ) = Real.sqrt 2 := by
  congr 1
  rcases ho with rfl | rfl <;> rcases he with rfl | rfl <;> norm_num [sq]

theorem sqrt_vert (e : Int) (he : e = -1 ∨ e = 1) : Real.sqrt (sq (0, e) : ℝ) = 1 := by
  rcases he with rfl | rfl <;> norm_num [sq]

/-- The octile bound passes from a column to an adjacent one, whatever the direction. -/
theorem octile_step {g : Grid Off} {P : Idx → ℝ → Prop} {d : Dims} {sx : Nat} (hsx : sx < d.nx)
    {b : Nat} {yo : Int} {e : Int} (he : e = -1 ∨ e = 1)
    (hcol : ∀ x, x < d.nx → Len (g.get ⟨(x : Nat), yo, 0⟩) (octile (gap x sx) b))
    {x : Nat} (hx : x < d.nx) {v : Idx}
    (hstep : ∀ (o : Int) (r : ℝ), (o = 0 ∨ o = -1 ∨ o = 1) →
      Len (g.get ⟨(x : Int) + o, yo, 0⟩) r → P v (r + Real.sqrt (sq (o, e) : ℝ))) :
    P v (octile (gap x sx) (b + 1)) := by
  rcases Nat.lt_trichotomy x sx with hlt | rfl | hgt
  · have hc := hcol (x + 1) (by omega)
    have := hstep 1 _ (Or.inr (Or.inr rfl)) (by
      rw [show (x : Int) + 1 = ((x + 1 : Nat) : Int) by push_cast; ring]; exact hc)
    rw [sqrt_diag 1 (Or.inr rfl) e he] at this
    rw [show gap x sx = gap (x + 1) sx + 1 by unfold gap; omega, ← octile_diag]
    exact this
  · have hc := hcol x hx
    have := hstep 0 _ (Or.inl rfl) (by rw [show (x : Int) + 0 = (x : Int) by ring]; exact hc)
    rw [sqrt_vert e he] at this
    have g0 : gap x x = 0 := by unfold gap; omega
    rw [g0] at this ⊢
    rw [← octile_vert]
    exact this
  · have hc := hcol (x - 1) (by omega)
    have := hstep (-1) _ (Or.inr (Or.inl rfl)) (by
      rw [show (x : Int) + -1 = ((x - 1 : Nat) : Int) by omega]; exact hc)
    rw [sqrt_diag (-1) (Or.inl rfl) e he] at this
    rw [show gap x sx = gap (x - 1) sx + 1 by unfold gap; omega, ← octile_diag]
    exact this

/-- The first half: columns at or after the source's. -/
theorem first_half {d : Dims} (hz : d.nz = 1) {S : Idx → Prop} {f : Grid Off} (h : Good d S f)
    {sx sy : Nat} (hsx : sx < d.nx) (hs : Len (f.get ⟨(sx : Nat), (sy : Nat), 0⟩) 0) :
    ∀ k, sy + k < d.ny → ∀ x, x < d.nx →
      Len (((List.range (sy + k + 1)).foldl sweep1 f).get ⟨(x : Nat), (sy + k : Nat), 0⟩)
        (octile (gap x sx) k) := by
  intro k
  induction k with
  | zero =>
    intro hk x hx
    rw [Nat.add_zero, List.range_succ, List.foldl_append]
    obtain ⟨g1, g2⟩ := sweeps_good sweep1 (fun h => sweep1_good h) (List.range sy) h
    have := sweep1_base hz g1 (y := sy) hk (g2 _ _ hs) hx hsx
    rw [octile_zero]
    exact this.mono (by simp)
  | succ k ih =>
    intro hk x hx
    rw [show sy + (k + 1) + 1 = (sy + k + 1) + 1 by omega, List.range_succ, List.foldl_append]
    obtain ⟨g1, g2⟩ := sweeps_good sweep1 (fun h => sweep1_good h) (List.range (sy + k + 1)) h
    refine octile_step (g := (List.range (sy + k + 1)).foldl sweep1 f)
      (P := fun v r => Len (([sy + k + 1].foldl sweep1
        ((List.range (sy + k + 1)).foldl sweep1 f)).get v) r) (d := d) hsx (e := -1) (Or.inl rfl)
      (ih (by omega)) hx ?_
    intro o r ho hl
    exact sweep1_step hz g1 (y := sy + k) (by omega) hx ho hl

/-- The second half: columns before the source's. -/
theorem second_half {d : Dims} (hz : d.nz = 1) {S : Idx → Prop} {f : Grid Off} (h : Good d S f)
    {sx sy : Nat} (hsx : sx < d.nx) (hsy : sy < d.ny)
    (hs : ∀ x, x < d.nx → Len (f.get ⟨(x : Nat), (sy : Nat), 0⟩) (octile (gap x sx) 0)) :
    ∀ k, k ≤ sy → ∀ x, x < d.nx →
      Len (((List.range d.ny).reverse.foldl sweep2 f).get ⟨(x : Nat), (sy - k : Nat), 0⟩)
        (octile (gap x sx) k) := by
  -- the columns processed down to `y`
  have hsplit : ∀ y, y < d.ny → (List.range d.ny).reverse =
      ((List.range (d.ny - y - 1)).map (fun k => y + 1 + k)).reverse ++ y :: (List.range y).reverse := by
    intro y hy
    have h1 : d.ny = y + ((d.ny - y - 1) + 1) := by omega
    conv_lhs => rw [h1, List.range_add, List.range_succ_eq_map, List.map_cons, List.map_map]
    rw [List.reverse_append, List.reverse_cons, List.append_assoc]
    congr 2
    congr 1
    funext k
    simp only [Function.comp_apply]
    omega
  have key : ∀ k, k ≤ sy → ∀ x, x < d.nx →
      Len ((((List.range (d.ny - (sy - k) - 1)).map (fun j => (sy - k) + 1 + j)).reverse ++
        [sy - k]).foldl sweep2 f |>.get ⟨(x : Nat), (sy - k : Nat), 0⟩) (octile (gap x sx) k) := by
    intro k
    induction k with
    | zero =>
      intro _ x hx
      exact (sweeps_good sweep2 (fun h => sweep2_good h) _ h).2 _ _ (hs x hx)
    | succ k ih =>
      intro hk x hx
      have hy' : sy - k = (sy - (k + 1)) + 1 := by omega
      have hpre : ((List.range (d.ny - (sy - (k + 1)) - 1)).map
          (fun j => (sy - (k + 1)) + 1 + j)).reverse =
          ((List.range (d.ny - (sy - k) - 1)).map (fun j => (sy - k) + 1 + j)).reverse ++ [sy - k] := by
        have h1 : d.ny - (sy - (k + 1)) - 1 = (d.ny - (sy - k) - 1) + 1 := by omega
        rw [h1, List.range_succ_eq_map, List.map_cons, List.map_map, List.reverse_cons]
        congr 1
        · congr 1
          apply List.map_congr_left
          intro j _
          simp only [Function.comp_apply]
          omega
        · congr 1
          omega
      rw [hpre, List.foldl_append]
      obtain ⟨g1, g2⟩ := sweeps_good sweep2 (fun h => sweep2_good h)
        (((List.range (d.ny - (sy - k) - 1)).map (fun j => (sy - k) + 1 + j)).reverse ++ [sy - k]) h
      refine octile_step (g := (((List.range (d.ny - (sy - k) - 1)).map
          (fun j => (sy - k) + 1 + j)).reverse ++ [sy - k]).foldl sweep2 f)
        (P := fun v r => Len (([sy - (k + 1)].foldl sweep2 ((((List.range (d.ny - (sy - k) - 1)).map
          (fun j => (sy - k) + 1 + j)).reverse ++ [sy - k]).foldl sweep2 f)).get v) r) (d := d) hsx
        (e := 1) (Or.inr rfl) (ih (by omega)) hx ?_
      intro o r ho hl
      exact sweep2_step hz g1 (y := sy - (k + 1)) (by omega) hx ho (by rw [← hy']; exact hl)
  intro k hk x hx
  have := key k hk x hx
  rw [hsplit (sy - k) (by omega), show ∀ (A : List Nat) (b : Nat) (B : List Nat),
    A ++ b :: B = (A ++ [b]) ++ B by intro A b B; simp, List.foldl_append]
  obtain ⟨g1, g2⟩ := sweeps_good sweep2 (fun h => sweep2_good h)
    (((List.range (d.ny - (sy - k) - 1)).map (fun j => (sy - k) + 1 + j)).reverse ++ [sy - k]) h
  exact (sweeps_good sweep2 (fun h => sweep2_good h) (List.range (sy - k)).reverse g1).2 _ _ this

theorem marked_get (d : Dims) (p : Idx → Bool) (v : Idx) :
    (marked d p).get v = if d.inB v && p v then some (0, 0) else none := by
  have hw := Grid.wf_mk' d (none : Off) none
  unfold marked
  rw [Grid.get_setAll hw]
  have hd : (Grid.mk' d (none : Off) none).dims = d := rfl
  rw [hd, Grid.get_mk']
  have hm := Dims.mem_all (d := d) (i := v)
  cases hb : d.inB v with
  | true => rw [if_pos ⟨hm.mpr hb, rfl⟩]; cases p v <;> rfl
  | false => rw [if_neg (by simp)]; rfl

theorem marked_good {d : Dims} (hz : d.nz = 1) (p : Idx → Bool) :
    Good d (fun w => InBounds d w ∧ p w = true) (marked d p) := by
  have hw := Grid.wf_mk' d (none : Off) none
  refine ⟨hw.setAll _ _, by unfold marked; rw [Grid.dims_setAll]; rfl,
    by unfold marked; rw [Grid.oob_setAll]; rfl, ?_⟩
  intro w q hq
  rw [marked_get] at hq
  split at hq
  · rename_i hw'
    simp only [Option.some.injEq] at hq
    subst hq
    simp only [Bool.and_eq_true] at hw'
    have hin := inB_iff_spec.mp hw'.1
    have h0 : w.z = 0 := by unfold InBounds at hin; omega
    have e : (⟨w.x + (0, 0).1, w.y + (0, 0).2, 0⟩ : Idx) = w := by
      cases w
      simp only at h0
      simp [h0]
    dsimp only at e ⊢
    rw [e]
    exact ⟨hin, hw'.2⟩
  · simp at hq

theorem cell_eq {d : Dims} (hz : d.nz = 1) {v : Idx} (hv : InBounds d v) :
    ∃ x y : Nat, x < d.nx ∧ y < d.ny ∧ v = ⟨(x : Nat), (y : Nat), 0⟩ := by
  unfold InBounds at hv
  refine ⟨v.x.toNat, v.y.toNat, by omega, by omega, ?_⟩
  cases v
  simp only [Idx.mk.injEq] at hv ⊢
  omega

/-- The finished partial field. -/
theorem partial_spec {d : Dims} (hz : d.nz = 1) (p : Idx → Bool) :
    Good d (fun w => InBounds d w ∧ p w = true) (partialSdf (marked d p)) ∧
    ∀ sx sy x y : Nat, sx < d.nx → sy < d.ny → x < d.nx → y < d.ny →
      p ⟨(sx : Nat), (sy : Nat), 0⟩ = true →
      Len ((partialSdf (marked d p)).get ⟨(x : Nat), (y : Nat), 0⟩) (octile (gap x sx) (gap y sy)) := by
  have h := marked_good hz p
  have hd : (marked d p).dims = d := h.dims
  unfold partialSdf
  rw [hd]
  obtain ⟨g1, g2⟩ := sweeps_good sweep1 (fun h => sweep1_good h) (List.range d.ny) h
  obtain ⟨g3, g4⟩ := sweeps_good sweep2 (fun h => sweep2_good h) (List.range d.ny).reverse g1
  refine ⟨g3, ?_⟩
  intro sx sy x y hsx hsy hx hy hp
  have hs : Len ((marked d p).get ⟨(sx : Nat), (sy : Nat), 0⟩) 0 := by
    rw [marked_get, inB_cell hz hsx hsy, hp]
    exact ⟨_, rfl, by simp [sq]⟩
  have hfirst : ∀ k, sy + k < d.ny → ∀ x, x < d.nx →
      Len (((List.range d.ny).foldl sweep1 (marked d p)).get ⟨(x : Nat), (sy + k : Nat), 0⟩)
        (octile (gap x sx) k) := by
    intro k hk x hx
    have := first_half hz h hsx hs k hk x hx
    have e : List.range d.ny = List.range (sy + k + 1) ++
        (List.range (d.ny - (sy + k + 1))).map (fun j => sy + k + 1 + j) := by
      rw [← List.range_add]; congr 1; omega
    rw [e, List.foldl_append]
    exact (sweeps_good sweep1 (fun h => sweep1_good h) _
      (sweeps_good sweep1 (fun h => sweep1_good h) _ h).1).2 _ _ this
  rcases Nat.le_total sy y with hle | hle
  · obtain ⟨k, rfl⟩ := Nat.exists_eq_add_of_le hle
    rw [show gap (sy + k) sy = k by unfold gap; omega]
    exact g4 _ _ (hfirst k hy x hx)
  · have := second_half hz g1 hsx hsy (fun x hx => hfirst 0 hsy x hx) (sy - y) (by omega) x hx
    rw [show sy - (sy - y) = y by omega] at this
    rw [show gap y sy = sy - y by unfold gap; omega]
    exact this

theorem partial_zero {d : Dims} (hz : d.nz = 1) (p : Idx → Bool) {v : Idx} (hv : InBounds d v)
    (hp : p v = true) : sqOf ((partialSdf (marked d p)).get v) = some 0 := by
  obtain ⟨x, y, hx, hy, rfl⟩ := cell_eq hz hv
  obtain ⟨q, e, hq⟩ := (partial_spec hz p).2 x y x y hx hy hx hy hp
  rw [e]
  have g0 : ∀ n, gap n n = 0 := fun n => by unfold gap; omega
  rw [g0, g0, octile_zero] at hq
  have h0 : (sq q : ℝ) ≤ 0 := by
    have := Real.sqrt_nonneg (sq q : ℝ)
    have : Real.sqrt (sq q : ℝ) = 0 := le_antisymm (by simpa using hq) this
    exact Real.sqrt_eq_zero'.mp this
  have h1 : sq q ≤ 0 := by exact_mod_cast h0
  have h2 := sq_nonneg' q
  simp only [sqOf, Option.some.injEq]
  omega

theorem partial_none {d : Dims} (hz : d.nz = 1) (p : Idx → Bool)
    (hp : ∀ w, InBounds d w → p w = false) (v : Idx) :
    (partialSdf (marked d p)).get v = none := by
  cases h : (partialSdf (marked d p)).get v with
  | none => rfl
  | some q =>
    obtain ⟨h1, h2⟩ := (partial_spec hz p).1.points v q h
    rw [hp _ h1] at h2
    simp at h2

theorem partial_ne_zero {d : Dims} (hz : d.nz = 1) (p : Idx → Bool) {v : Idx} (hv : InBounds d v)
    (hp : p v = false) : sqOf ((partialSdf (marked d p)).get v) ≠ some 0 := by
  intro h0
  cases h : (partialSdf (marked d p)).get v with
  | none => rw [h] at h0; simp [sqOf] at h0
  | some q =>
    have := ((partial_spec hz p).1.points v q h).2
    rw [h] at h0
    simp only [sqOf, Option.some.injEq] at h0
    have h1 : sq q = 0 := by have := sq_nonneg' q; omega
    unfold sq at h1
    have hq1 : q.1 = 0 := by nlinarith [mul_self_nonneg q.1, mul_self_nonneg q.2]
    have hq2 : q.2 = 0 := by nlinarith [mul_self_nonneg q.1, mul_self_nonneg q.2]
    obtain ⟨x, y, _, _, rfl⟩ := cell_eq hz hv
    rw [hq1, hq2] at this
    simp only [Int.add_zero] at this
    rw [hp] at this
    simp at this

/-- Cauchy-Schwarz for the octile metric. -/
theorem octile_sq (a b : Nat) : octile a b ^ 2 ≤ (4 - 2 * Real.sqrt 2) * ((a : ℝ) ^ 2 + (b : ℝ) ^ 2) := by
  have h2 : Real.sqrt 2 * Real.sqrt 2 = 2 := Real.mul_self_sqrt (by norm_num)
  have key : ∀ m n : ℕ, m ≤ n → (((n - m : ℕ) : ℝ) + Real.sqrt 2 * m) ^ 2 ≤
      (4 - 2 * Real.sqrt 2) * ((m : ℝ) ^ 2 + (n : ℝ) ^ 2) := by
    intro m n hmn
    rw [Nat.cast_sub hmn]
    nlinarith [sq_nonneg ((Real.sqrt 2 - 1) * (n : ℝ) - m)]
  unfold octile
  rcases Nat.le_total a b with h | h
  · rw [Nat.max_eq_right h, Nat.min_eq_left h]; exact key a b h
  · rw [Nat.max_eq_left h, Nat.min_eq_right h, add_comm ((a : ℝ) ^ 2)]; exact key b a h

theorem gap_sq (a b : Nat) : ((gap a b : ℕ) : ℝ) ^ 2 = ((a : ℝ) - b) ^ 2 := by
  unfold gap
  rcases Nat.le_total a b with h | h
  · rw [show a - b = 0 by omega, Nat.zero_add, Nat.cast_sub h]; ring
  · rw [show b - a = 0 by omega, Nat.add_zero, Nat.cast_sub h]

/-- An unmarked cell when some cell is marked: the squared distance of a marked cell `w`, not much more
than that of any marked cell. -/
theorem partial_value {d : Dims} (hz : d.nz = 1) (p : Idx → Bool) {s v : Idx} (hs : InBounds d s)
    (hps : p s = true) (hv : InBounds d v) :
    ∃ (n : Nat) (w : Idx), sqOf ((partialSdf (marked d p)).get v) = some n ∧ InBounds d w ∧
      p w = true ∧ (n : Int) = sqDist v w ∧
      ∀ u, InBounds d u → p u = true →
        Real.sqrt n ≤ octile (gap v.x.toNat u.x.toNat) (gap v.y.toNat u.y.toNat) ∧
        (n : ℝ) ≤ (4 - 2 * Real.sqrt 2) * (sqDist v u : ℝ) := by
  obtain ⟨x, y, hx, hy, rfl⟩ := cell_eq hz hv
  have hlen : ∀ u, InBounds d u → p u = true →
      Len ((partialSdf (marked d p)).get ⟨(x : Nat), (y : Nat), 0⟩)
        (octile (gap x u.x.toNat) (gap y u.y.toNat)) := by
    intro u hu hpu
    obtain ⟨sx, sy, hsx, hsy, rfl⟩ := cell_eq hz hu
    exact (partial_spec hz p).2 sx sy x y hsx hsy hx hy hpu
  obtain ⟨q, e, _⟩ := hlen s hs hps
  obtain ⟨hb, hw⟩ := (partial_spec hz p).1.points _ q e
  have hn0 := sq_nonneg' q
  have hcast : (((sq q).toNat : ℕ) : ℝ) = (sq q : ℝ) := by
    have : (((sq q).toNat : ℕ) : Int) = sq q := Int.toNat_of_nonneg hn0
    exact_mod_cast this
  refine ⟨(sq q).toNat, _, by rw [e]; rfl, hb, hw, ?_, ?_⟩
  · rw [Int.toNat_of_nonneg hn0]
    unfold sq sqDist
    dsimp only
    ring
  · intro u hu hpu
    obtain ⟨q', e', hq'⟩ := hlen u hu hpu
    rw [e] at e'
    simp only [Option.some.injEq] at e'
    subst e'
    dsimp only
    rw [hcast]
    refine ⟨hq', ?_⟩
    have h1 : (sq q : ℝ) ≤ octile (gap x u.x.toNat) (gap y u.y.toNat) ^ 2 := by
      have h0 : (0 : ℝ) ≤ sq q := by exact_mod_cast hn0
      calc (sq q : ℝ) = Real.sqrt (sq q : ℝ) ^ 2 := (Real.sq_sqrt h0).symm
        _ ≤ _ := pow_le_pow_left₀ (Real.sqrt_nonneg _) hq' 2
    refine h1.trans ((octile_sq _ _).trans ?_)
    rw [gap_sq, gap_sq]
    obtain ⟨sx, sy, hsx, hsy, rfl⟩ := cell_eq hz hu
    apply le_of_eq
    congr 1
    unfold sqDist
    push_cast
    simp

/-! ## The combination -/

theorem value_filled (R : Rounding) {a b : Off} (h : sqOf a = some 0) :
    value R a b = some (-R.r64 (sqrtE (sqOf b))) := by
  unfold value
  rw [h, SdfGen.sqrtE_zero, SdfGen.zero64]
  unfold fsub
  rw [if_neg (by simp)]
  simp only [Option.map_some, zero_sub, R.odd64, R.idem64]

theorem value_empty (R : Rounding) {a b : Off} (h : sqOf b = some 0) :
    value R a b = some (R.r64 (sqrtE (sqOf a))) := by
  unfold value
  rw [h, SdfGen.sqrtE_zero, SdfGen.zero64]
  unfold fsub
  rw [if_neg (by simp)]
  simp only [Option.map_some, sub_zero, R.idem64]

/-- What the combination loop stores. -/
noncomputable def pixelVal (R : Rounding) (d : Dims) (img : Idx → Bool) (v : Idx) : EReal :=
  if img v then -R.r64 (sqrtE (sqOf ((partialSdf (marked d fun i => !img i)).get v)))
  else R.r64 (sqrtE (sqOf ((partialSdf (marked d img)).get v)))

theorem loop_spec (val : Idx → EReal) : ∀ (l : List Idx) (r : Res), r.field.WF →
    (∀ i ∈ l, r.field.dims.inB i = true) →
    let r' := l.foldl (fun r i =>
      let x : FVal := some (val i)
      let e := SdfGen.updExtrema (r.max, r.min) x
      (⟨r.field.set i x, e.1, e.2⟩ : Res)) r
    r'.field.WF ∧ r'.field.dims = r.field.dims ∧ r'.field.oob = r.field.oob ∧
    (∀ v, r'.field.get v = if v ∈ l then some (val v) else r.field.get v) ∧
    (r'.max, r'.min) = l.foldl (fun e i => SdfGen.updExtrema e (some (val i))) (r.max, r.min) := by
  intro l
  induction l with
  | nil => intro r h _; exact ⟨h, rfl, rfl, by simp, rfl⟩
  | cons a l ih =>
    intro r h hb
    have ha := hb a (List.mem_cons_self ..)
    obtain ⟨h1, h2, h3, h4, h5⟩ := ih
      ⟨r.field.set a (some (val a)), (SdfGen.updExtrema (r.max, r.min) (some (val a))).1,
        (SdfGen.updExtrema (r.max, r.min) (some (val a))).2⟩
      (h.set _ _) (by intro i hi; simpa using hb i (List.mem_cons_of_mem _ hi))
    refine ⟨h1, h2.trans (by simp), h3.trans (by simp), ?_, h5⟩
    intro v
    refine (h4 v).trans ?_
    by_cases hv : v ∈ l
    · simp [hv]
    · simp only [hv, if_false, List.mem_cons, or_false]
      rw [Grid.get_set h]
      by_cases hva : v = a
      · subst hva; simp [ha]
      · have : ¬ a = v := fun e => hva e.symm
        simp [hva, this]

theorem update_spec (R : Rounding) {d : Dims} (hz : d.nz = 1) (img : Idx → Bool) :
    (updateSdf R d img).field.dims = d ∧ (updateSdf R d img).field.WF ∧
    (∀ v, InBounds d v → (updateSdf R d img).field.get v = some (pixelVal R d img v)) ∧
    ((updateSdf R d img).max, (updateSdf R d img).min) =
      d.all.foldl (fun e i => SdfGen.updExtrema e (some (pixelVal R d img i))) (0, 0) := by
  have hval : ∀ v, InBounds d v → value R ((partialSdf (marked d img)).get v)
      ((partialSdf (marked d fun i => !img i)).get v) = some (pixelVal R d img v) := by
    intro v hv
    unfold pixelVal
    cases hi : img v with
    | true => rw [value_filled R (partial_zero hz img hv hi)]; rfl
    | false => rw [value_empty R (partial_zero hz (fun i => !img i) hv (by simp [hi]))]; rfl
  have e : updateSdf R d img = d.all.foldl (fun r i =>
      let x : FVal := some (pixelVal R d img i)
      let e := SdfGen.updExtrema (r.max, r.min) x
      (⟨r.field.set i x, e.1, e.2⟩ : Res)) ⟨Grid.mk' d (some 0) none, 0, 0⟩ := by
    unfold updateSdf
    refine SdfGen.foldl_congr_mem _ _ (fun r i hi => ?_)
    dsimp only
    rw [hval i (inB_iff_spec.mp (Dims.mem_all.mp hi))]
  obtain ⟨h1, h2, _, h4, h5⟩ := loop_spec (pixelVal R d img) d.all ⟨Grid.mk' d (some 0) none, 0, 0⟩
    (Grid.wf_mk' _ _ _) (fun i hi => Dims.mem_all.mp hi)
  rw [← e] at h1 h2 h4 h5
  refine ⟨h2, h1, ?_, h5⟩
  intro v hv
  rw [h4, if_pos (Dims.mem_all.mpr (inB_iff_spec.mpr hv))]

/-- Both classes of pixels occur. -/
def Mixed (d : Dims) (img : Idx → Bool) : Prop :=
  (∃ v, InBounds d v ∧ img v = true) ∧ ∃ v, InBounds d v ∧ img v = false

theorem exact_value (R : Rounding) {d : Dims} (hz : d.nz = 1) {img : Idx → Bool} (hm : Mixed d img)
    {v : Idx} (hv : InBounds d v) :
    ∃ (n : Nat) (w : Idx), InBounds d w ∧ img w ≠ img v ∧ (n : Int) = sqDist v w ∧ 1 ≤ n ∧
      pixelVal R d img v = (if img v then -R.r64 (Real.sqrt n : ℝ) else R.r64 (Real.sqrt n : ℝ)) ∧
      ∀ u, InBounds d u → img u ≠ img v →
        Real.sqrt n ≤ octile (gap v.x.toNat u.x.toNat) (gap v.y.toNat u.y.toNat) ∧
        (n : ℝ) ≤ (4 - 2 * Real.sqrt 2) * (sqDist v u : ℝ) := by
  obtain ⟨⟨s, hs, hps⟩, ⟨t, ht, hpt⟩⟩ := hm
  have hpos : ∀ (n : Nat) (w : Idx), img w ≠ img v → (n : Int) = sqDist v w → InBounds d w → 1 ≤ n := by
    intro n w hw hn hwb
    rcases Nat.eq_zero_or_pos n with h0 | h0
    · exfalso
      apply hw
      congr 1
      obtain ⟨x, y, _, _, rfl⟩ := cell_eq hz hv
      obtain ⟨x', y', _, _, rfl⟩ := cell_eq hz hwb
      unfold sqDist at hn
      rw [h0] at hn
      dsimp only at hn
      have h1 : (x : Int) - x' = 0 := by
        have := sq_nonneg ((x : Int) - x'); have := sq_nonneg ((y : Int) - y')
        exact pow_eq_zero_iff (two_ne_zero) |>.mp (by push_cast at hn; linarith)
      have h2 : (y : Int) - y' = 0 := by
        have := sq_nonneg ((x : Int) - x'); have := sq_nonneg ((y : Int) - y')
        exact pow_eq_zero_iff (two_ne_zero) |>.mp (by push_cast at hn; linarith)
      simp only [Idx.mk.injEq]
      refine ⟨?_, ?_, trivial⟩ <;> omega
    · exact h0
  unfold pixelVal
  cases hi : img v with
  | true =>
    obtain ⟨n, w, e, hw, hpw, hn, hall⟩ := partial_value hz (fun i => !img i) ht (by simp [hpt]) hv
    have hne : img w ≠ img v := by rw [hi]; simpa using hpw
    refine ⟨n, w, hw, by rw [← hi]; exact hne, hn, hpos n w hne hn hw, by rw [e]; rfl, ?_⟩
    intro u hu hne'
    exact hall u hu (by simpa using hne')
  | false =>
    obtain ⟨n, w, e, hw, hpw, hn, hall⟩ := partial_value hz img hs hps hv
    have hne : img w ≠ img v := by rw [hi]; simpa using hpw
    refine ⟨n, w, hw, by rw [← hi]; exact hne, hn, hpos n w hne hn hw, by rw [e]; rfl, ?_⟩
    intro u hu hne'
    exact hall u hu (by simpa using hne')

end Img

open Img

/-! ## C49 -/

/-- C49, value.  In an image with filled and empty pixels, the value of a pixel is the (rounded)
Euclidean distance to some pixel `w` of the other class, negative for filled pixels.  Hence it is never
an under-estimate of the true distance, and never NaN. -/
theorem C49_value (R : Rounding) {d : Dims} (hz : d.nz = 1) {img : Idx → Bool} (hm : Mixed d img)
    {v : Idx} (hv : InBounds d v) :
    ∃ (n : Nat) (w : Idx), InBounds d w ∧ img w ≠ img v ∧ (n : Int) = sqDist v w ∧
      (updateSdf R d img).field.get v =
        some (if img v then -R.r64 (Real.sqrt n : ℝ) else R.r64 (Real.sqrt n : ℝ)) := by
  obtain ⟨n, w, h1, h2, h3, _, h5, _⟩ := exact_value R hz hm hv
  exact ⟨n, w, h1, h2, h3, by rw [(update_spec R hz img).2.2.1 v hv, h5]⟩

/-- C49, sign.  Filled pixels get at most -1, empty pixels at least 1, whatever the image. -/
theorem C49_sign (R : Rounding) {d : Dims} (hz : d.nz = 1) (img : Idx → Bool)
    {v : Idx} (hv : InBounds d v) :
    ∃ x, (updateSdf R d img).field.get v = some x ∧
      (img v = true → x ≤ -1) ∧ (img v = false → 1 ≤ x) := by
  refine ⟨_, (update_spec R hz img).2.2.1 v hv, ?_, ?_⟩
  all_goals
    intro hi
    unfold pixelVal
    rw [hi]
    simp only [if_true, Bool.false_eq_true, if_false]
  · rw [EReal.neg_le_neg_iff, ← R.one64]
    exact R.mono64 (SdfGen.one_le_sqrtE (partial_ne_zero hz _ hv (by simp [hi])))
  · rw [← R.one64]
    exact R.mono64 (SdfGen.one_le_sqrtE (partial_ne_zero hz _ hv hi))

/-- C49, uniform images.  Without filled pixels all values are `+inf`, without empty pixels `-inf`. -/
theorem C49_uniform (R : Rounding) {d : Dims} (hz : d.nz = 1) (img : Idx → Bool) :
    ((∀ v, InBounds d v → img v = false) →
      ∀ v, InBounds d v → (updateSdf R d img).field.get v = some ⊤) ∧
    ((∀ v, InBounds d v → img v = true) →
      ∀ v, InBounds d v → (updateSdf R d img).field.get v = some ⊥) := by
  constructor
  · intro hall v hv
    rw [(update_spec R hz img).2.2.1 v hv]
    unfold pixelVal
    rw [hall v hv, partial_none hz img hall]
    simp [sqOf, sqrtE, R.top64]
  · intro hall v hv
    rw [(update_spec R hz img).2.2.1 v hv]
    unfold pixelVal
    rw [hall v hv, partial_none hz (fun i => !img i) (fun w hw => by simp [hall w hw])]
    simp [sqOf, sqrtE, R.top64]

/-- C49, extrema.  The recorded maximum is the greatest of the values and zero, the minimum the least of
the values and zero. -/
theorem C49_extrema (R : Rounding) {d : Dims} (hz : d.nz = 1) (img : Idx → Bool) :
    (∀ v x, InBounds d v → (updateSdf R d img).field.get v = some x →
      (updateSdf R d img).min ≤ x ∧ x ≤ (updateSdf R d img).max) ∧
    (updateSdf R d img).min ≤ 0 ∧ 0 ≤ (updateSdf R d img).max ∧
    ((updateSdf R d img).max = 0 ∨ ∃ v, InBounds d v ∧
      (updateSdf R d img).field.get v = some (updateSdf R d img).max) ∧
    ((updateSdf R d img).min = 0 ∨ ∃ v, InBounds d v ∧
      (updateSdf R d img).field.get v = some (updateSdf R d img).min) := by
  obtain ⟨_, _, hget, hext⟩ := update_spec R hz img
  obtain ⟨⟨x1, x2, x3⟩, ⟨y1, y2, y3⟩⟩ := SdfGen.extrema_fold (pixelVal R d img) d.all (0, 0)
  rw [← hext] at x1 x2 x3 y1 y2 y3
  dsimp only at x1 x2 x3 y1 y2 y3
  refine ⟨?_, y1, x1, ?_, ?_⟩
  · intro v x hv hx
    rw [hget v hv, Option.some.injEq] at hx
    subst hx
    have := Dims.mem_all.mpr (inB_iff_spec.mpr hv)
    exact ⟨y2 v this, x2 v this⟩
  · rcases x3 with h | ⟨i, hi, h⟩
    · exact Or.inl h
    · have := inB_iff_spec.mp (Dims.mem_all.mp hi)
      exact Or.inr ⟨i, this, by rw [hget i this, h]⟩
  · rcases y3 with h | ⟨i, hi, h⟩
    · exact Or.inl h
    · have := inB_iff_spec.mp (Dims.mem_all.mp hi)
      exact Or.inr ⟨i, this, by rw [hget i this, h]⟩

/-- A 2 x 3 image with one filled pixel. -/
def exImg (i : Idx) : Bool := decide (i = ⟨0, 2, 0⟩)

theorem exImg_mixed : Mixed ⟨2, 3, 1⟩ exImg :=
  ⟨⟨⟨0, 2, 0⟩, by unfold InBounds; decide, by decide⟩, ⟨⟨1, 0, 0⟩, by unfold InBounds; decide, by decide⟩⟩

/-! ## C65 -/

/-- C65, accuracy.  The reported distance is at most the length of the best path of horizontal, vertical
and diagonal steps to any pixel of the other class, so its square is at most `4 - 2 √2 ≈ 1.18` times
the true squared distance. -/
theorem C65_accuracy_partial (R : Rounding) {d : Dims} (hz : d.nz = 1) {img : Idx → Bool}
    (hm : Mixed d img) {v : Idx} (hv : InBounds d v) :
    ∃ n : Nat, (updateSdf R d img).field.get v =
        some (if img v then -R.r64 (Real.sqrt n : ℝ) else R.r64 (Real.sqrt n : ℝ)) ∧
      ∀ u, InBounds d u → img u ≠ img v → (n : ℝ) ≤ (4 - 2 * Real.sqrt 2) * (sqDist v u : ℝ) := by
  obtain ⟨n, _, _, _, _, _, h5, h6⟩ := exact_value R hz hm hv
  exact ⟨n, by rw [(update_spec R hz img).2.2.1 v hv, h5], fun u hu hne => (h6 u hu hne).2⟩

/-- C65, exact cases.  If a pixel of the other class lies in the same row, column or diagonal and no
pixel of that class is closer, the value is exactly its distance. -/
theorem C65_aligned_partial (R : Rounding) {d : Dims} (hz : d.nz = 1) {img : Idx → Bool} {v u : Idx}
    (hv : InBounds d v) (hu : InBounds d u) (hne : img u ≠ img v)
    (hmin : ∀ w, InBounds d w → img w ≠ img v → sqDist v u ≤ sqDist v w)
    (hal : v.x = u.x ∨ v.y = u.y ∨ v.x - u.x = v.y - u.y ∨ v.x - u.x = u.y - v.y) :
    (updateSdf R d img).field.get v = some (if img v then -R.r64 (Real.sqrt (sqDist v u : ℝ) : ℝ)
      else R.r64 (Real.sqrt (sqDist v u : ℝ) : ℝ)) := by
  have hm : Mixed d img := by
    cases hiv : img v with
    | true => exact ⟨⟨v, hv, hiv⟩, ⟨u, hu, by rw [hiv] at hne; simpa using hne⟩⟩
    | false => exact ⟨⟨u, hu, by rw [hiv] at hne; simpa using hne⟩, ⟨v, hv, hiv⟩⟩
  obtain ⟨n, w, h1, h2, h3, _, h5, h6⟩ := exact_value R hz hm hv
  have hle := hmin w h1 h2
  have hge : (n : Int) ≤ sqDist v u := by
    have h7 := (h6 u hu hne).1
    obtain ⟨x, y, _, _, rfl⟩ := cell_eq hz hv
    obtain ⟨x', y', _, _, rfl⟩ := cell_eq hz hu
    have hn : (n : ℝ) ≤ octile (gap x x') (gap y y') ^ 2 := by
      calc (n : ℝ) = Real.sqrt n ^ 2 := (Real.sq_sqrt (by positivity)).symm
        _ ≤ _ := pow_le_pow_left₀ (Real.sqrt_nonneg _) (by simpa using h7) 2
    have ho : octile (gap x x') (gap y y') ^ 2 = (gap x x' : ℝ) ^ 2 + (gap y y' : ℝ) ^ 2 := by
      dsimp only at hal
      have hcases : gap x x' = 0 ∨ gap y y' = 0 ∨ gap x x' = gap y y' := by unfold gap; omega
      rcases hcases with h | h | h
      · rw [h]; simp [octile]
      · rw [h]; simp [octile]
      · rw [h]
        have h2 : Real.sqrt 2 ^ 2 = 2 := Real.sq_sqrt (by norm_num)
        simp only [octile, max_self, min_self, Nat.sub_self, Nat.cast_zero, zero_add, mul_pow, h2]
        ring
    rw [ho, gap_sq, gap_sq] at hn
    have : (n : ℝ) ≤ ((sqDist ⟨(x : Nat), (y : Nat), 0⟩ ⟨(x' : Nat), (y' : Nat), 0⟩ : Int) : ℝ) := by
      refine hn.trans (le_of_eq ?_)
      unfold sqDist
      push_cast
      simp
    exact_mod_cast this
  have e : (sqDist v u : ℝ) = (n : ℝ) := by
    have : sqDist v u = (n : Int) := by omega
    rw [this]; simp
  rw [(update_spec R hz img).2.2.1 v hv, h5, e]

theorem exImg_only {w : Idx} (h : exImg w ≠ exImg ⟨0, 0, 0⟩) : w = ⟨0, 2, 0⟩ := by
  have h0 : exImg ⟨0, 0, 0⟩ = false := by decide
  rw [h0] at h
  simpa [exImg] using h

/-- The hypotheses of `C65_aligned_partial` on `exImg`: (0, 2) is nearest to (0, 0) and in its row. -/
example : exImg ⟨0, 2, 0⟩ ≠ exImg ⟨0, 0, 0⟩ ∧ ∀ w, InBounds ⟨2, 3, 1⟩ w → exImg w ≠ exImg ⟨0, 0, 0⟩ →
    sqDist ⟨0, 0, 0⟩ ⟨0, 2, 0⟩ ≤ sqDist ⟨0, 0, 0⟩ w := by
  refine ⟨by decide, fun w _ h => ?_⟩
  rw [exImg_only h]

/-- C65, the full statement: the reported distance is the distance to a nearest pixel of the other
class. -/
def C65Statement : Prop := ∀ (R : Rounding) (d : Dims) (img : Idx → Bool) (v u : Idx), d.nz = 1 →
  InBounds d v → InBounds d u → img u ≠ img v →
  (∀ w, InBounds d w → img w ≠ img v → sqDist v u ≤ sqDist v w) →
  (updateSdf R d img).field.get v = some (if img v then -R.r64 (Real.sqrt (sqDist v u : ℝ) : ℝ)
      else R.r64 (Real.sqrt (sqDist v u : ℝ) : ℝ))

/-- An 8 x 14 image with four filled pixels. -/
def badImg (i : Idx) : Bool :=
  decide (i = ⟨2, 13, 0⟩ ∨ i = ⟨6, 13, 0⟩ ∨ i = ⟨2, 12, 0⟩ ∨ i = ⟨0, 11, 0⟩)

theorem badImg_sweep : sqOf ((partialSdf (marked ⟨8, 14, 1⟩ badImg)).get ⟨7, 0, 0⟩) = some 170 := by
  decide +kernel

theorem badImg_near : ∀ w ∈ (⟨8, 14, 1⟩ : Dims).all, badImg w = true →
    sqDist ⟨7, 0, 0⟩ ⟨2, 12, 0⟩ ≤ sqDist ⟨7, 0, 0⟩ w := by
  unfold sqDist
  decide +kernel

/-- C65 is false: the sweeps are not an exact Euclidean distance transform.  Pixel (7, 0) of `badImg` is
13 pixels from (2, 12), but the value is the square root of 170. -/
theorem C65_false : ¬ C65Statement := by
  intro h
  have h1 := h SdfGen.exactRounding ⟨8, 14, 1⟩ badImg ⟨7, 0, 0⟩ ⟨2, 12, 0⟩ rfl
    (by unfold InBounds; decide) (by unfold InBounds; decide) (by decide) (by
      intro w hw hne
      refine badImg_near w (Dims.mem_all.mpr (inB_iff_spec.mpr hw)) ?_
      have : badImg ⟨7, 0, 0⟩ = false := by decide
      rw [this] at hne
      simpa using hne)
  rw [(update_spec SdfGen.exactRounding (d := ⟨8, 14, 1⟩) rfl badImg).2.2.1 _ (by unfold InBounds; decide)] at h1
  have hb : badImg ⟨7, 0, 0⟩ = false := by decide
  unfold pixelVal at h1
  rw [hb, badImg_sweep] at h1
  simp only [Bool.false_eq_true, if_false, Option.some.injEq, sqrtE] at h1
  have h2 : ((Real.sqrt ((170 : ℕ) : ℝ) : ℝ) : EReal) =
      ((Real.sqrt ((sqDist ⟨7, 0, 0⟩ ⟨2, 12, 0⟩ : Int) : ℝ) : ℝ) : EReal) := h1
  have h3 := EReal.coe_eq_coe_iff.mp h2
  have h4 : sqDist ⟨7, 0, 0⟩ ⟨2, 12, 0⟩ = 169 := by unfold sqDist; decide
  rw [h4, Real.sqrt_inj (by positivity) (by norm_num)] at h3
  norm_num at h3

/-! ## C66 -/

/-- Distances within the image do not overflow and small integers are exact. -/
structure PreviewOk (R : Rounding) (d : Dims) : Prop where
  finite : ∀ n : Nat, n ≤ d.nx ^ 2 + d.ny ^ 2 → R.r64 (Real.sqrt n : ℝ) ≠ ⊤
  r64_64 : R.r64 64 = 64
  r64_128 : R.r64 128 = 128

/-- A channel value is defined if the distance is not beyond a finite extremum. -/
theorem Img.shade_defined {R : Rounding} (h64 : R.r64 64 = 64) (h128 : R.r64 128 = 128) {a b : ℝ}
    (hb : b ≠ 0) (hab : |a| ≤ |b|) :
    ∃ c, toU8 (shade R (a : EReal) (b : EReal)) = some c ∧ 64 ≤ c ∧ c ≤ 128 := by
  unfold shade fdiv
  rw [if_neg (by simp [hb]), ← EReal.coe_div]
  simp only [Option.map_some]
  have habs : (if ((a / b : ℝ) : EReal) < 0 then -((a / b : ℝ) : EReal) else ((a / b : ℝ) : EReal)) =
      ((|a / b| : ℝ) : EReal) := by
    split
    · rename_i h
      have : a / b < 0 := by exact_mod_cast h
      rw [abs_of_neg this]; rfl
    · rename_i h
      have : 0 ≤ a / b := by
        by_contra hc
        exact h (by exact_mod_cast not_le.mp hc)
      rw [abs_of_nonneg this]
  rw [habs]
  have hq1 : |a / b| ≤ 1 := by rw [abs_div]; exact div_le_one_of_le₀ hab (abs_nonneg b)
  have hq0 : 0 ≤ |a / b| := abs_nonneg _
  set q := |a / b|
  have r0 : (0 : EReal) ≤ R.r64 (q : EReal) := by
    have : R.r64 0 ≤ R.r64 (q : EReal) := R.mono64 (by exact_mod_cast hq0)
    rwa [SdfGen.zero64] at this
  have r1 : R.r64 (q : EReal) ≤ 1 := by
    have : R.r64 (q : EReal) ≤ R.r64 1 := R.mono64 (by exact_mod_cast hq1)
    rwa [R.one64] at this
  have m0 : (0 : EReal) ≤ 64 * R.r64 (q : EReal) := mul_nonneg (by norm_num) r0
  have m1 : 64 * R.r64 (q : EReal) ≤ 64 := by
    calc 64 * R.r64 (q : EReal) ≤ 64 * 1 := mul_le_mul_of_nonneg_left r1 (by norm_num)
      _ = 64 := mul_one _
  have s0 : (0 : EReal) ≤ R.r64 (64 * R.r64 (q : EReal)) := by
    have := R.mono64 m0; rwa [SdfGen.zero64] at this
  have s1 : R.r64 (64 * R.r64 (q : EReal)) ≤ 64 := by
    have := R.mono64 m1; rwa [h64] at this
  have t0 : (64 : EReal) ≤ R.r64 (64 + R.r64 (64 * R.r64 (q : EReal))) := by
    have : R.r64 64 ≤ R.r64 (64 + R.r64 (64 * R.r64 (q : EReal))) :=
      R.mono64 (le_add_of_nonneg_right s0)
    rwa [h64] at this
  have t1 : R.r64 (64 + R.r64 (64 * R.r64 (q : EReal))) ≤ 128 := by
    have : R.r64 (64 + R.r64 (64 * R.r64 (q : EReal))) ≤ R.r64 128 := by
      apply R.mono64
      calc (64 : EReal) + R.r64 (64 * R.r64 (q : EReal)) ≤ 64 + 64 := add_le_add_right s1 _
        _ = 128 := by norm_num
    rwa [h128] at this
  generalize R.r64 (64 + R.r64 (64 * R.r64 (q : EReal))) = t at t0 t1
  induction t with
  | bot => simp at t0; exact absurd t0 (by decide)
  | top => simp at t1; exact absurd t1 (by decide)
  | coe t =>
    have e64 : (64 : EReal) = ((64 : ℝ) : EReal) := rfl
    have e128 : (128 : EReal) = ((128 : ℝ) : EReal) := rfl
    have e256 : (256 : EReal) = ((256 : ℝ) : EReal) := rfl
    have e1 : (-1 : EReal) = ((-1 : ℝ) : EReal) := rfl
    rw [e64, EReal.coe_le_coe_iff] at t0
    rw [e128, EReal.coe_le_coe_iff] at t1
    have hc : (-1 : EReal) < (t : EReal) ∧ (t : EReal) < 256 := by
      rw [e1, e256, EReal.coe_lt_coe_iff, EReal.coe_lt_coe_iff]
      constructor <;> linarith
    refine ⟨⌊t⌋₊, ?_, ?_, ?_⟩
    · unfold toU8
      dsimp only
      rw [if_pos hc, EReal.toReal_coe]
    · exact Nat.le_floor (by exact_mod_cast t0)
    · have := Nat.floor_le_floor t1
      simpa using this

theorem Img.sqDist_le {d : Dims} (hz : d.nz = 1) {v w : Idx} (hv : InBounds d v) (hw : InBounds d w) :
    sqDist v w ≤ (d.nx ^ 2 + d.ny ^ 2 : Nat) := by
  obtain ⟨x, y, h1, h2, rfl⟩ := cell_eq hz hv
  obtain ⟨x', y', h3, h4, rfl⟩ := cell_eq hz hw
  unfold sqDist
  push_cast
  have a : ((x : Int) - x') ^ 2 ≤ (d.nx : Int) ^ 2 := sq_le_sq' (by omega) (by omega)
  have b : ((y : Int) - y') ^ 2 ≤ (d.ny : Int) ^ 2 := sq_le_sq' (by omega) (by omega)
  linarith

theorem Img.neg_one_lt : (-1 : EReal) < 0 := by
  have : ((-1 : ℝ) : EReal) < ((0 : ℝ) : EReal) := EReal.coe_lt_coe_iff.mpr (by norm_num)
  exact this

/-- In a mixed image all values are finite. -/
theorem Img.value_finite {R : Rounding} {d : Dims} (hR : PreviewOk R d) (hz : d.nz = 1)
    {img : Idx → Bool} (hm : Mixed d img) {v : Idx} (hv : InBounds d v) :
    ∃ a : ℝ, (updateSdf R d img).field.get v = some (a : EReal) ∧ (img v = true → a < 0) ∧
      (img v = false → 0 < a) := by
  obtain ⟨n, w, h1, _, h3, e⟩ := C49_value R hz hm hv
  obtain ⟨x, hx, s1, s2⟩ := C49_sign R hz img hv
  have hn : n ≤ d.nx ^ 2 + d.ny ^ 2 := by
    have := Img.sqDist_le hz hv h1
    rw [← h3] at this
    exact_mod_cast this
  have hf := hR.finite n hn
  have h0 : R.r64 (Real.sqrt n : ℝ) ≠ ⊥ := by
    have : R.r64 0 ≤ R.r64 (Real.sqrt n : ℝ) := R.mono64 (by exact_mod_cast Real.sqrt_nonneg _)
    rw [SdfGen.zero64] at this
    intro hb
    rw [hb] at this
    exact absurd this (by decide)
  rw [e, Option.some.injEq] at hx
  obtain ⟨a, ha⟩ : ∃ a : ℝ, x = (a : EReal) := by
    refine ⟨x.toReal, (EReal.coe_toReal ?_ ?_).symm⟩
    all_goals
      rw [← hx]
      split
    · simpa using h0
    · exact hf
    · simpa using hf
    · exact h0
  refine ⟨a, by rw [e, hx, ha], ?_, ?_⟩
  · intro hi
    have := s1 hi
    rw [ha] at this
    have h : (a : EReal) < ((0 : ℝ) : EReal) := lt_of_le_of_lt this Img.neg_one_lt
    exact EReal.coe_lt_coe_iff.mp h
  · intro hi
    have := s2 hi
    rw [ha] at this
    have h : ((0 : ℝ) : EReal) < (a : EReal) := lt_of_lt_of_le zero_lt_one this
    exact EReal.coe_lt_coe_iff.mp h

/-- C66, mixed images.  In an image with filled and empty pixels every preview pixel is defined: filled
pixels are blue, empty pixels red, with intensity between 64 and 128. -/
theorem C66_preview_partial {R : Rounding} {d : Dims} (hR : PreviewOk R d) (hz : d.nz = 1)
    {img : Idx → Bool} (hm : Mixed d img) {v : Idx} (hv : InBounds d v) :
    ∃ c, 64 ≤ c ∧ c ≤ 128 ∧
      previewPixel R (updateSdf R d img) ((updateSdf R d img).field.get v) =
        some (if img v then (c, 0, 0) else (0, 0, c)) := by
  obtain ⟨hall, hmin0, hmax0, hmax, hmin⟩ := C49_extrema R hz img
  obtain ⟨a, ha, n1, n2⟩ := Img.value_finite hR hz hm hv
  obtain ⟨b1, b2⟩ := hall v _ hv ha
  -- the extrema are finite
  have fmax : ∃ b : ℝ, (updateSdf R d img).max = (b : EReal) := by
    rcases hmax with h | ⟨w, hw, e⟩
    · exact ⟨0, h⟩
    · obtain ⟨b, hb, _⟩ := Img.value_finite hR hz hm hw
      rw [e, Option.some.injEq] at hb
      exact ⟨b, hb⟩
  have fmin : ∃ b : ℝ, (updateSdf R d img).min = (b : EReal) := by
    rcases hmin with h | ⟨w, hw, e⟩
    · exact ⟨0, h⟩
    · obtain ⟨b, hb, _⟩ := Img.value_finite hR hz hm hw
      rw [e, Option.some.injEq] at hb
      exact ⟨b, hb⟩
  obtain ⟨mx, hmx⟩ := fmax
  obtain ⟨mn, hmn⟩ := fmin
  rw [hmx, EReal.coe_le_coe_iff] at b2
  rw [hmn, EReal.coe_le_coe_iff] at b1
  unfold previewPixel
  rw [ha]
  dsimp only
  cases hi : img v with
  | true =>
    have hneg := n1 hi
    obtain ⟨c, hc, c1, c2⟩ := shade_defined hR.r64_64 hR.r64_128 (a := a) (b := mn) (by linarith)
      (by rw [abs_of_neg hneg, abs_of_neg (by linarith)]; linarith)
    refine ⟨c, c1, c2, ?_⟩
    have g1 : ¬ ((0 : EReal) < (a : EReal)) := by
      intro h; have : (0 : ℝ) < a := by exact_mod_cast h
      linarith
    have g2 : ¬ ((a : EReal) = 0) := by
      intro h; have : a = 0 := by exact_mod_cast h
      linarith
    rw [if_neg g1, if_neg g2, hmn, hc]
    rfl
  | false =>
    have hpos := n2 hi
    obtain ⟨c, hc, c1, c2⟩ := shade_defined hR.r64_64 hR.r64_128 (a := a) (b := mx) (by linarith)
      (by rw [abs_of_pos hpos, abs_of_pos (by linarith)]; linarith)
    refine ⟨c, c1, c2, ?_⟩
    have g1 : (0 : EReal) < (a : EReal) := by exact_mod_cast hpos
    rw [if_pos g1, hmx, hc]
    rfl

/-- C66, the full statement: the preview of every image is defined. -/
def C66Statement : Prop := ∀ (R : Rounding) (d : Dims) (img : Idx → Bool) (v : Idx), PreviewOk R d →
  d.nz = 1 → InBounds d v →
    previewPixel R (updateSdf R d img) ((updateSdf R d img).field.get v) ≠ none

/-- C66, uniform images.  If all pixels have the same class, converting the preview of any pixel is
undefined behaviour: the intensity is `inf / inf`. -/
theorem C66_uniform_undefined (R : Rounding) {d : Dims} (hz : d.nz = 1) {img : Idx → Bool} {b : Bool}
    (hall : ∀ v, InBounds d v → img v = b) {v : Idx} (hv : InBounds d v) :
    previewPixel R (updateSdf R d img) ((updateSdf R d img).field.get v) = none := by
  obtain ⟨hext, _⟩ := C49_extrema R hz img
  obtain ⟨u1, u2⟩ := C49_uniform R hz img
  unfold previewPixel
  cases b with
  | false =>
    have e := u1 hall v hv
    have hm : (updateSdf R d img).max = ⊤ := top_le_iff.mp (hext v _ hv e).2
    rw [e]
    dsimp only
    rw [if_pos (by decide), hm]
    simp [shade, fdiv, toU8]
  | true =>
    have e := u2 hall v hv
    have hm : (updateSdf R d img).min = ⊥ := le_bot_iff.mp (hext v _ hv e).1
    rw [e]
    dsimp only
    rw [if_neg (by simp), if_neg (by simp), hm]
    simp [shade, fdiv, toU8]

theorem previewOk_exact (d : Dims) : PreviewOk SdfGen.exactRounding d :=
  ⟨fun _ _ => EReal.coe_ne_top _, rfl, rfl⟩

/-- C66 is false, already for a single empty pixel. -/
theorem C66_false : ¬ C66Statement := fun h =>
  h SdfGen.exactRounding ⟨1, 1, 1⟩ (fun _ => false) ⟨0, 0, 0⟩ (previewOk_exact _) rfl
    (by unfold InBounds; decide)
    (C66_uniform_undefined _ rfl (b := false) (fun _ _ => rfl) (by unfold InBounds; decide))

/-- C66, raw image.  The first channel of a filled pixel and the second channel of an empty pixel are
zero; the other channel is the value's magnitude as a `float`. -/
theorem C66_raw (R : Rounding) {d : Dims} (hz : d.nz = 1) (img : Idx → Bool) {v : Idx}
    (hv : InBounds d v) :
    ∃ x, (updateSdf R d img).field.get v = some x ∧
      rawPixel R ((updateSdf R d img).field.get v) =
        if img v then (some 0, some (R.r32 (-x))) else (some (R.r32 x), some 0) := by
  obtain ⟨x, e, s1, s2⟩ := C49_sign R hz img hv
  refine ⟨x, e, ?_⟩
  rw [e]
  unfold rawPixel SdfGen.geZero
  cases hi : img v with
  | true =>
    have : x < 0 := lt_of_le_of_lt (s1 hi) Img.neg_one_lt
    simp [this, not_le.mpr this]
  | false =>
    have : 0 ≤ x := le_trans zero_le_one (s2 hi)
    simp [this]

example : PreviewOk SdfGen.exactRounding ⟨2, 3, 1⟩ ∧ Mixed ⟨2, 3, 1⟩ exImg ∧
    InBounds ⟨2, 3, 1⟩ ⟨1, 1, 0⟩ :=
  ⟨previewOk_exact _, exImg_mixed, by unfold InBounds; decide⟩

end Verif
