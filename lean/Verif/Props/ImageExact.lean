import Verif.Props.Image2d
import Verif.Props.ImageTable
import Mathlib.Tactic.LinearCombination

/-!
# How exact the 2D image distance field is (C65, C89)

The sweeps of `update_partial_sdf` leave every column of the field *relaxed*: no cell can be improved by
the closest point of its neighbours in the column or in the column swept before.  From that follow the
continuity of the field and its exactness up to a distance of 13 pixels.
-/

namespace Verif

open Spec

namespace Img

/-! ## Comparing offsets -/

/-- `a` is at most as long as `b`. -/
def Le (a b : Off) : Prop := ∀ r, Len b r → Len a r

theorem Le.refl (a : Off) : Le a a := fun _ h => h
theorem Le.trans {a b c : Off} (h1 : Le a b) (h2 : Le b c) : Le a c := fun r h => h1 r (h2 r h)
theorem le_none (a : Off) : Le a none := fun _ h => by obtain ⟨p, e, _⟩ := h; simp at e

theorem len_self (p : Int × Int) : Len (some p) (Real.sqrt (sq p : ℝ)) := ⟨p, rfl, le_refl _⟩

theorem Le.some_right {a : Off} {q : Int × Int} (h : Le a (some q)) : ∃ p, a = some p ∧ sq p ≤ sq q := by
  obtain ⟨p, e, hp⟩ := h _ (len_self q)
  refine ⟨p, e, ?_⟩
  have := (Real.sqrt_le_sqrt_iff (by exact_mod_cast sq_nonneg' q)).mp hp
  exact_mod_cast this

theorem le_some {p q : Int × Int} : Le (some p) (some q) ↔ sq p ≤ sq q := by
  constructor
  · intro h
    obtain ⟨p', e, hp⟩ := h.some_right
    simp only [Option.some.injEq] at e
    subst e
    exact hp
  · rintro h r ⟨q', e, hq⟩
    simp only [Option.some.injEq] at e
    subst e
    exact ⟨p, rfl, le_trans (Real.sqrt_le_sqrt (by exact_mod_cast h)) hq⟩

/-- The offset seen from a cell displaced by `-o`. -/
def shift (o : Int × Int) (a : Off) : Off := a.map fun p => (p.1 + o.1, p.2 + o.2)

theorem shift_shift (o o' : Int × Int) (a : Off) :
    shift o (shift o' a) = shift (o'.1 + o.1, o'.2 + o.2) a := by
  cases a with
  | none => rfl
  | some p => simp only [shift, Option.map_some]; congr 2 <;> ring

theorem shift_zero (a : Off) : shift (0, 0) a = a := by
  cases a with
  | none => rfl
  | some p => simp [shift]

theorem neighbour_eq (f : Grid Off) (v : Idx) (o : Int × Int) :
    neighbour f v o = shift o (f.get ⟨v.x + o.1, v.y + o.2, 0⟩) := rfl

theorem fold_le {f : Grid Off} {v : Idx} (offs : List (Int × Int)) (c : Off) :
    Le (offs.foldl (compare f v) c) c := fun _ h => fold_le_cell offs h

theorem fold_le_of {f : Grid Off} {v : Idx} {offs : List (Int × Int)} (c : Off) {o : Int × Int}
    (ho : o ∈ offs) : Le (offs.foldl (compare f v) c) (neighbour f v o) :=
  fun _ h => fold_le_neighbour ho h

theorem less_not_le {a b : Off} (h : less a b = true) : ¬ Le b a := by
  intro hle
  cases a with
  | none => simp [less] at h
  | some p =>
    obtain ⟨q, rfl, hq⟩ := hle.some_right
    simp only [less, decide_eq_true_eq] at h
    omega

/-- The comparisons keep the old offset or take over a strictly shorter one. -/
theorem fold_mem {f : Grid Off} {v : Idx} : ∀ (offs : List (Int × Int)) (c : Off),
    offs.foldl (compare f v) c = c ∨ ∃ o ∈ offs, offs.foldl (compare f v) c = neighbour f v o ∧
      ¬ Le c (neighbour f v o) := by
  intro offs
  induction offs with
  | nil => intro c; exact Or.inl rfl
  | cons o offs ih =>
    intro c
    rw [List.foldl_cons]
    rcases ih (compare f v c o) with h | ⟨o', ho', h, hlt⟩
    · rw [h]
      unfold compare
      split
      · rename_i hl
        exact Or.inr ⟨o, List.mem_cons_self .., rfl, less_not_le hl⟩
      · exact Or.inl rfl
    · refine Or.inr ⟨o', List.mem_cons_of_mem _ ho', h, fun hle => hlt (Le.trans ?_ hle)⟩
      exact fun r hr => compare_le_cell hr

/-! ## One pass over a list of cells -/

theorem relax_get_ne {f : Grid Off} (h : f.WF) (offs : List (Int × Int)) {v u : Idx} (hu : u ≠ v) :
    (relax offs f v).get u = f.get u := by
  unfold relax
  rw [Grid.get_set h, if_neg]
  rintro ⟨e, _⟩
  exact hu e.symm

theorem relax_get_self {d : Dims} {S : Idx → Prop} {f : Grid Off} (h : Good d S f)
    (offs : List (Int × Int)) {v : Idx} (hv : d.inB v = true) :
    (relax offs f v).get v = offs.foldl (compare f v) (f.get v) := by
  unfold relax
  rw [Grid.get_set_self h.wf (by rw [h.dims]; exact hv)]

theorem pass_untouched {d : Dims} {S : Idx → Prop} (offs : List (Int × Int)) :
    ∀ (l : List Idx) {f : Grid Off}, Good d S f → ∀ u, u ∉ l →
      (l.foldl (relax offs) f).get u = f.get u := by
  intro l
  induction l with
  | nil => intro f _ u _; rfl
  | cons a l ih =>
    intro f h u hu
    rw [List.foldl_cons, ih (relax_good h offs a).1 u (fun h' => hu (List.mem_cons_of_mem _ h')),
      relax_get_ne h.wf offs (by rintro rfl; exact hu (List.mem_cons_self ..))]

/-- What a pass stores in the cell `v` of the list, in terms of the field `G` before `v` is processed. -/
theorem pass_at {d : Dims} {S : Idx → Prop} (offs : List (Int × Int)) {A B : List Idx} {v : Idx}
    {f : Grid Off} (h : Good d S f) (hv : d.inB v = true) (hnd : (A ++ v :: B).Nodup) :
    ((A ++ v :: B).foldl (relax offs) f).get v =
      offs.foldl (compare (A.foldl (relax offs) f) v) (f.get v) ∧
    ∀ u, u ∉ v :: B → (A.foldl (relax offs) f).get u = ((A ++ v :: B).foldl (relax offs) f).get u := by
  have hg := (pass_good offs A h).1
  rw [List.nodup_append] at hnd
  obtain ⟨_, h2, h3⟩ := hnd
  have hvB : v ∉ B := (List.nodup_cons.mp h2).1
  have hvA : v ∉ A := fun hA => h3 v hA v (List.mem_cons_self ..) rfl
  constructor
  · rw [List.foldl_append, List.foldl_cons, pass_untouched offs B (relax_good hg offs v).1 v hvB,
      relax_get_self hg offs hv, pass_untouched offs A h v hvA]
  · intro u hu
    rw [List.foldl_append, pass_untouched offs (v :: B) hg u hu]

/-! ## The two passes over one column -/

/-- A column is processed forth along `l` (direction `e`) and back; afterwards neighbours `a`, `b` in the
column cannot improve each other. -/
theorem column_stable {d : Dims} {S : Idx → Prop} {f : Grid Off} (h : Good d S f)
    {offs : List (Int × Int)} {e : Int} (ho : (-e, 0) ∈ offs) {A B : List Idx} {a b : Idx}
    (hb : b = ⟨a.x + e, a.y, 0⟩) (ha0 : a.z = 0) (hin : ∀ u ∈ A ++ a :: b :: B, d.inB u = true)
    (hnd : (A ++ a :: b :: B).Nodup) :
    let g := ((A ++ a :: b :: B).reverse.foldl (relax [(e, 0)])
      ((A ++ a :: b :: B).foldl (relax offs) f))
    Le (g.get a) (shift (e, 0) (g.get b)) ∧ Le (g.get b) (shift (-e, 0) (g.get a)) := by
  intro g
  have hA : d.inB a = true := hin a (by simp)
  have hB : d.inB b = true := hin b (by simp)
  obtain ⟨hh, _⟩ := pass_good offs (A ++ a :: b :: B) h
  set k := (A ++ a :: b :: B).foldl (relax offs) f with hk
  -- after the first pass
  have s1 : Le (k.get b) (shift (-e, 0) (k.get a)) := by
    have e1 : A ++ a :: b :: B = (A ++ [a]) ++ b :: B := by simp
    have hnd' := hnd
    rw [e1] at hnd'
    obtain ⟨p1, p2⟩ := pass_at offs h hB hnd'
    have hna : a ∉ b :: B := by
      have := (List.nodup_append.mp hnd).2.1
      exact (List.nodup_cons.mp this).1
    have p3 := p2 a hna
    rw [← e1, ← hk] at p1 p3
    rw [p1]
    refine (fold_le_of _ ho).trans ?_
    rw [neighbour_eq]
    have : (⟨b.x + (-e, (0 : Int)).1, b.y + (-e, (0 : Int)).2, 0⟩ : Idx) = a := by
      rw [hb]
      cases a
      simp only at ha0
      simp [ha0]
    rw [this, p3]
    exact Le.refl _
  -- the second pass
  have er : (A ++ a :: b :: B).reverse = (B.reverse ++ [b]) ++ a :: A.reverse := by simp
  have hnr : ((B.reverse ++ [b]) ++ a :: A.reverse).Nodup := by
    rw [← er]; exact List.nodup_reverse.mpr hnd
  obtain ⟨q1, q2⟩ := pass_at [(e, 0)] hh hA hnr
  have hnb : b ∉ a :: A.reverse := by
    rw [List.nodup_append] at hnr
    intro hmem
    exact hnr.2.2 b (by simp) b hmem rfl
  have q3 := q2 b hnb
  rw [← er] at q1 q3
  change g.get a = _ at q1
  change _ = g.get b at q3
  have hn : neighbour ((B.reverse ++ [b]).foldl (relax [(e, 0)]) k) a (e, 0) = shift (e, 0) (g.get b) := by
    rw [neighbour_eq]
    have : (⟨a.x + (e, (0 : Int)).1, a.y + (e, (0 : Int)).2, 0⟩ : Idx) = b := by rw [hb]; simp
    rw [this, q3]
  constructor
  · rw [q1, ← hn]
    exact fold_le_of _ (List.mem_singleton.mpr rfl)
  · have hle : Le (g.get b) (k.get b) := (pass_good [(e, 0)] _ hh).2 b
    rcases fold_mem (f := (B.reverse ++ [b]).foldl (relax [(e, 0)]) k) (v := a) [(e, 0)] (k.get a) with h1 | ⟨o, ho', h1, _⟩
    · rw [q1, h1]
      exact hle.trans s1
    · rw [List.mem_singleton] at ho'
      subst ho'
      rw [q1, h1, hn, shift_shift]
      simp only [Int.add_right_neg, add_zero, shift_zero]
      exact Le.refl _

/-- What a pass over cells of a column stores in them: a property of offsets that holds for the old
ones, for those of the other columns and for strictly better ones of the column itself. -/
theorem column_trace {d : Dims} {S : Idx → Prop} {f : Grid Off} {y : Int}
    (Q : Idx → Off → Prop) {offs : List (Int × Int)}
    (hnb : ∀ u o, u.y = y → u.z = 0 → o ∈ offs → o.2 ≠ 0 → Q u (neighbour f u o))
    (hsh : ∀ (u : Idx) (c : Int) a, u.y = y → u.z = 0 → d.inB u = true → (c, 0) ∈ offs →
      Q ⟨u.x + c, u.y, 0⟩ a → ¬ Le (f.get u) (shift (c, 0) a) → Q u (shift (c, 0) a)) :
    ∀ (l : List Idx), (∀ u ∈ l, u.y = y ∧ u.z = 0 ∧ d.inB u = true) → ∀ {g : Grid Off}, Good d S g →
      (∀ u, u.y = y → u.z = 0 → Q u (g.get u)) → (∀ u, u.y ≠ y → g.get u = f.get u) → Better f g →
      (∀ u, u.y = y → u.z = 0 → Q u ((l.foldl (relax offs) g).get u)) ∧
      (∀ u, u.y ≠ y → (l.foldl (relax offs) g).get u = f.get u) := by
  intro l
  induction l with
  | nil => intro _ g hg h1 h2 _; exact ⟨h1, h2⟩
  | cons a l ih =>
    intro hl g hg h1 h2 hbet
    obtain ⟨ha, hz, hin⟩ := hl a (List.mem_cons_self ..)
    rw [List.foldl_cons]
    refine ih (fun u hu => hl u (List.mem_cons_of_mem _ hu)) (relax_good hg offs a).1 ?_ ?_
      (hbet.trans (relax_good hg offs a).2)
    · intro u hu hu0
      by_cases hua : u = a
      · subst hua
        rw [relax_get_self hg offs hin]
        rcases fold_mem (f := g) (v := u) offs (g.get u) with h3 | ⟨o, ho, h3, hlt⟩
        · rw [h3]; exact h1 u hu hu0
        · rw [h3]
          by_cases ho2 : o.2 = 0
          · rw [neighbour_eq] at hlt ⊢
            obtain ⟨o1, o2⟩ := o
            simp only at ho2
            subst ho2
            simp only [add_zero] at hlt ⊢
            exact hsh u o1 _ hu hu0 hin ho (h1 _ hu rfl)
              (fun hle => hlt (Le.trans (fun r hr => hbet u r hr) hle))
          · have : neighbour g u o = neighbour f u o := by
              rw [neighbour_eq, neighbour_eq, h2]
              dsimp only
              omega
            rw [this]
            exact hnb u o hu hu0 ho ho2
      · rw [relax_get_ne hg.wf offs hua]
        exact h1 u hu hu0
    · intro u hu
      rw [relax_get_ne hg.wf offs (by rintro rfl; exact hu ha)]
      exact h2 u hu

/-! ## A stable column is optimal -/

/-- In a column where neighbours cannot improve each other, no cell can improve any other. -/
theorem column_optimal {n : Nat} {F : Nat → Off}
    (hF : ∀ x, x + 1 < n → Le (F (x + 1)) (shift (-1, 0) (F x)) ∧ Le (F x) (shift (1, 0) (F (x + 1)))) :
    ∀ x z, x < n → z < n → Le (F z) (shift ((x : Int) - z, 0) (F x)) := by
  -- one step away from the cell, in direction `e`
  have step : ∀ (T U : Off) (e : Int), e * e = 1 → Le U (shift (-e, 0) T) → Le T (shift (e, 0) U) →
      ∀ j : Int, 0 ≤ j → Le (shift (-e * j, 0) U) (shift (-e * (j + 1), 0) T) := by
    intro T U e he h1 h2 j hj
    cases T with
    | none => exact le_none _
    | some t =>
      obtain ⟨u, rfl, hu⟩ := h1.some_right
      have ht := le_some.mp h2
      refine le_some.mpr ?_
      unfold sq at *
      dsimp only at *
      have h3 : 0 ≤ e * u.1 - e * t.1 + 1 := by nlinarith
      nlinarith [mul_nonneg hj h3]
  have go : ∀ (e : Int) (G : Nat → Off) (m : Nat), e * e = 1 →
      (∀ k, k < m → Le (G (k + 1)) (shift (-e, 0) (G k)) ∧ Le (G k) (shift (e, 0) (G (k + 1)))) →
      ∀ k, k ≤ m → ∀ j : Int, 0 ≤ j → Le (shift (-e * j, 0) (G k)) (shift (-e * (k + j), 0) (G 0)) := by
    intro e G m he hG k
    induction k with
    | zero => intro _ j _; simp only [Nat.cast_zero, zero_add]; exact Le.refl _
    | succ k ih =>
      intro hk j hj
      obtain ⟨h1, h2⟩ := hG k (by omega)
      refine (step _ _ e he h1 h2 j hj).trans ?_
      have := ih (by omega) (j + 1) (by omega)
      rw [show ((k + 1 : Nat) : Int) + j = (k : Int) + (j + 1) by push_cast; ring]
      exact this
  intro x z hx hz
  rcases Nat.le_total x z with h | h
  · have := go 1 (fun k => F (x + k)) (z - x) (by norm_num) (fun k hk => hF (x + k) (by omega)) (z - x)
      le_rfl 0 le_rfl
    simp only [mul_zero, shift_zero, Nat.add_zero] at this
    rw [show x + (z - x) = z by omega] at this
    refine this.trans ?_
    rw [show -1 * (((z - x : Nat) : Int) + 0) = (x : Int) - z by omega]
    exact Le.refl _
  · have := go (-1) (fun k => F (x - k)) (x - z) (by norm_num) (fun k hk => by
        obtain ⟨h1, h2⟩ := hF (x - k - 1) (by omega)
        rw [show x - k - 1 + 1 = x - k by omega] at h1 h2
        rw [show x - (k + 1) = x - k - 1 by omega]
        exact ⟨h2, h1⟩) (x - z) le_rfl 0 le_rfl
    simp only [mul_zero, shift_zero, Nat.sub_zero] at this
    rw [show x - (x - z) = z by omega] at this
    refine this.trans ?_
    rw [show - -1 * (((x - z : Nat) : Int) + 0) = (x : Int) - z by omega]
    exact Le.refl _

/-! ## What a sweep does to its column -/

/-- Neighbours in the column `y` cannot improve each other. -/
def ColStable (d : Dims) (g : Grid Off) (y : Int) : Prop := ∀ x : Nat, x + 1 < d.nx →
  Le (g.get ⟨((x + 1 : Nat) : Int), y, 0⟩) (shift (-1, 0) (g.get ⟨(x : Nat), y, 0⟩)) ∧
  Le (g.get ⟨(x : Nat), y, 0⟩) (shift (1, 0) (g.get ⟨((x + 1 : Nat) : Int), y, 0⟩))

/-- The column `y` of `g` cannot be improved by its own cells or by the column `y + e` of `f`; if the
column of `f` is stable, it comes from these two columns. -/
structure Swept (d : Dims) (e : Int) (f g : Grid Off) (y : Int) : Prop where
  other : ∀ u, u.y ≠ y → g.get u = f.get u
  stable : ColStable d g y
  across : ∀ (x : Nat) (o : Int), x < d.nx → (o = 0 ∨ o = -1 ∨ o = 1) →
    Le (g.get ⟨(x : Nat), y, 0⟩) (shift (o, e) (f.get ⟨(x : Int) + o, y + e, 0⟩))
  trace : ColStable d f y → ∀ x : Int, g.get ⟨x, y, 0⟩ = f.get ⟨x, y, 0⟩ ∨
    ∃ x' : Int, g.get ⟨x, y, 0⟩ = shift (x' - x, e) (f.get ⟨x', y + e, 0⟩)

theorem up_nodup (d : Dims) (y : Nat) : (up d y).Nodup := by
  unfold up
  refine List.Nodup.map ?_ List.nodup_range
  intro a b h
  simp only [Idx.mk.injEq] at h
  omega

theorem up_pair {d : Dims} (y : Nat) {a : Nat} (ha : a + 1 < d.nx) :
    ∃ A B, up d y = A ++ ⟨(a : Nat), y, 0⟩ :: ⟨((a + 1 : Nat) : Int), y, 0⟩ :: B := by
  refine ⟨(List.range a).map (fun x => (⟨(x : Nat), y, 0⟩ : Idx)),
    (List.range (d.nx - a - 2)).map (fun k => (⟨((a + 2 + k : Nat) : Int), y, 0⟩ : Idx)), ?_⟩
  rw [up_split y (show a < d.nx by omega), show d.nx - a - 1 = (d.nx - a - 2) + 1 by omega,
    List.range_succ_eq_map, List.map_cons, List.map_map]
  congr 3
  apply List.map_congr_left
  intro k _
  simp only [Function.comp_apply, Idx.mk.injEq, and_true]
  push_cast
  omega

theorem mem_up_iff {d : Dims} {y : Nat} {u : Idx} (hu : u ∈ up d y) : u.y = y ∧ u.z = 0 := by
  unfold up at hu
  obtain ⟨x, _, rfl⟩ := List.mem_map.mp hu
  exact ⟨rfl, rfl⟩

/-- Two passes over the column `y`: along `l` with the offsets `offs`, and back. -/
theorem swept_of {d : Dims} {S : Idx → Prop} {f : Grid Off} (h : Good d S f) {y : Nat}
    {offs : List (Int × Int)} {e c : Int} (hoc : (-c, 0) ∈ offs) (he : e ≠ 0)
    (hoe : (0, e) ∈ offs ∧ (-1, e) ∈ offs ∧ (1, e) ∈ offs) (hon : ∀ o ∈ offs, o.2 = 0 ∨ o.2 = e)
    (hok : ∀ o ∈ offs, o.2 = 0 → o.1 = 1 ∨ o.1 = -1) (hc1 : c = 1 ∨ c = -1)
    {l : List Idx} (hnd : l.Nodup) (hl : ∀ u ∈ l, u.y = y ∧ u.z = 0 ∧ d.inB u = true)
    (hmem : ∀ x : Nat, x < d.nx → (⟨(x : Nat), y, 0⟩ : Idx) ∈ l)
    (hpair : ∀ x : Nat, x + 1 < d.nx → ∃ (A B : List Idx) (a b : Idx), l = A ++ a :: b :: B ∧
      b = ⟨a.x + c, a.y, 0⟩ ∧ ((c = 1 ∧ a = ⟨(x : Nat), y, 0⟩ ∧ b = ⟨((x + 1 : Nat) : Int), y, 0⟩) ∨
        (c = -1 ∧ a = ⟨((x + 1 : Nat) : Int), y, 0⟩ ∧ b = ⟨(x : Nat), y, 0⟩))) :
    Swept d e f (l.reverse.foldl (relax [(c, 0)]) (l.foldl (relax offs) f)) y := by
  obtain ⟨h1, h2⟩ := pass_good offs l h
  obtain ⟨h3, h4⟩ := pass_good [(c, 0)] l.reverse h1
  -- the other columns
  have hother : ∀ u : Idx, u.y ≠ (y : Int) →
      (l.reverse.foldl (relax [(c, 0)]) (l.foldl (relax offs) f)).get u = f.get u := by
    intro u hu
    have hn : u ∉ l := fun hm => hu (hl u hm).1
    rw [pass_untouched [(c, 0)] l.reverse h1 u (fun hm => hn (List.mem_reverse.mp hm)),
      pass_untouched offs l h u hn]
  -- provenance
  have htrace : ColStable d f y → ∀ x : Int,
      (l.reverse.foldl (relax [(c, 0)]) (l.foldl (relax offs) f)).get ⟨x, y, 0⟩ = f.get ⟨x, y, 0⟩ ∨
      ∃ x' : Int, (l.reverse.foldl (relax [(c, 0)]) (l.foldl (relax offs) f)).get ⟨x, y, 0⟩ =
        shift (x' - x, e) (f.get ⟨x', y + e, 0⟩) := by
    intro hst
    have htr := fun offs => column_trace (offs := offs) (d := d) (S := S) (f := f) (y := y)
      (fun u a => a = f.get ⟨u.x, y, 0⟩ ∨ ∃ x' : Int, a = shift (x' - u.x, e) (f.get ⟨x', y + e, 0⟩))
    have hsh : ∀ (u : Idx) (k : Int) (a : Off), (k = 1 ∨ k = -1) → u.y = (y : Int) → u.z = 0 →
        d.inB u = true →
        (a = f.get ⟨u.x + k, y, 0⟩ ∨ ∃ x' : Int, a = shift (x' - (u.x + k), e) (f.get ⟨x', y + e, 0⟩)) →
        ¬ Le (f.get u) (shift (k, 0) a) →
        shift (k, 0) a = f.get ⟨u.x, y, 0⟩ ∨
          ∃ x' : Int, shift (k, 0) a = shift (x' - u.x, e) (f.get ⟨x', y + e, 0⟩) := by
      rintro ⟨ux, uy, uz⟩ k a hk hu hu0 hin (rfl | ⟨x', rfl⟩) hlt
      · exfalso
        apply hlt
        simp only at hu hu0
        subst hu hu0
        rw [Dims.inB_iff] at hin
        dsimp only at hin ⊢
        by_cases hb : d.inB ⟨ux + k, y, 0⟩ = true
        · rw [Dims.inB_iff] at hb
          dsimp only at hb
          rcases hk with rfl | rfl
          · have := (hst ux.toNat (by omega)).2
            rw [show ((ux.toNat : Nat) : Int) = ux by omega,
              show ((ux.toNat + 1 : Nat) : Int) = ux + 1 by omega] at this
            exact this
          · have := (hst (ux - 1).toNat (by omega)).1
            rw [show (((ux - 1).toNat : Nat) : Int) = ux + -1 by omega,
              show (((ux - 1).toNat + 1 : Nat) : Int) = ux by omega] at this
            exact this
        · have hn : f.get ⟨ux + k, y, 0⟩ = none := by
            rw [Grid.get_oob (by rw [h.dims]; simpa using hb), h.oob]
          rw [hn]
          exact le_none _
      · refine Or.inr ⟨x', ?_⟩
        rw [shift_shift]
        congr 2 <;> ring
    have hc : c = 1 ∨ c = -1 := hc1
    obtain ⟨t2, t3⟩ := htr offs (by
        intro u o hu hu0 ho ho2
        refine Or.inr ⟨u.x + o.1, ?_⟩
        rw [neighbour_eq, hu]
        have : o.2 = e := (hon o ho).resolve_left ho2
        rw [this]
        congr 1
        ext <;> simp [this])
      (fun u k a hu hu0 hin ho hq hlt => hsh u k a (by
        have := hok _ ho rfl
        dsimp only at this
        exact this) hu hu0 hin (by rw [hu] at hq; exact hq) hlt) l hl h (by
        intro u hu hu0
        refine Or.inl ?_
        rw [← hu, ← hu0]) (fun _ _ => rfl) (Better.refl f)
    obtain ⟨t5, _⟩ := htr [(c, 0)] (by
        intro u o _ _ ho ho2
        rw [List.mem_singleton] at ho
        subst ho
        exact absurd rfl ho2)
      (fun u k a hu hu0 hin ho hq hlt => hsh u k a (by
        rw [List.mem_singleton, Prod.mk.injEq] at ho
        rw [ho.1]
        exact hc) hu hu0 hin (by rw [hu] at hq; exact hq) hlt) l.reverse
      (fun u hu => hl u (List.mem_reverse.mp hu)) h1 t2 t3 h2
    intro x
    exact t5 ⟨x, y, 0⟩ rfl rfl
  refine ⟨hother, ?_, ?_, htrace⟩
  · intro x hx
    obtain ⟨A, B, a, b, e1, hb, hc⟩ := hpair x hx
    subst e1
    have hs := column_stable h hoc hb (hl a (by simp)).2.1 (fun u hu => (hl u hu).2.2) hnd
    rcases hc with ⟨rfl, rfl, rfl⟩ | ⟨rfl, rfl, rfl⟩
    · exact ⟨hs.2, hs.1⟩
    · exact ⟨hs.1, hs.2⟩
  · intro x o hx ho
    have hm := hmem x hx
    obtain ⟨A, B, e1⟩ := List.append_of_mem hm
    have hm' : (o, e) ∈ offs := by rcases ho with rfl | rfl | rfl <;> tauto
    refine Le.trans (fun r hr => h4 _ r hr) ?_
    have hp := (pass_at offs h (hl _ hm).2.2 (A := A) (B := B) (by rw [← e1]; exact hnd)).1
    rw [← e1] at hp
    rw [hp]
    refine (fold_le_of _ hm').trans ?_
    rw [neighbour_eq]
    dsimp only
    rw [pass_untouched offs A h]
    · exact Le.refl _
    · intro hA
      have := (hl _ (by rw [e1]; exact List.mem_append_left _ hA)).1
      dsimp only at this
      omega

theorem sweep1_swept {d : Dims} (hz : d.nz = 1) {S : Idx → Prop} {f : Grid Off} (h : Good d S f) {y : Nat}
    (hy : y < d.ny) : Swept d (-1) f (sweep1 f y) y := by
  unfold sweep1
  rw [h.dims]
  unfold down
  refine swept_of h (offs := offs11) (e := -1) (c := 1) (by decide) (by decide) (by decide) (by decide)
    (by decide) (by decide) (up_nodup d y) (fun u hu => ⟨(mem_up_iff hu).1, (mem_up_iff hu).2, up_inB hz hy u hu⟩)
    (fun x hx => mem_up hx) ?_
  intro x hx
  obtain ⟨A, B, e⟩ := up_pair y hx
  exact ⟨A, B, _, _, e, by simp, Or.inl ⟨rfl, rfl, rfl⟩⟩

theorem sweep2_swept {d : Dims} (hz : d.nz = 1) {S : Idx → Prop} {f : Grid Off} (h : Good d S f) {y : Nat}
    (hy : y < d.ny) : Swept d 1 f (sweep2 f y) y := by
  unfold sweep2
  rw [h.dims]
  have hm : ∀ u, u ∈ down d y ↔ u ∈ up d y := fun u => List.mem_reverse
  have e0 : up d y = (down d y).reverse := by unfold down; rw [List.reverse_reverse]
  rw [e0]
  refine swept_of h (offs := offs21) (e := 1) (c := -1) (by decide) (by decide) (by decide) (by decide)
    (by decide) (by decide) (List.nodup_reverse.mpr (up_nodup d y))
    (fun u hu => ⟨(mem_up_iff ((hm u).mp hu)).1, (mem_up_iff ((hm u).mp hu)).2, up_inB hz hy u ((hm u).mp hu)⟩)
    (fun x hx => (hm _).mpr (mem_up hx)) ?_
  intro x hx
  obtain ⟨A, B, e⟩ := up_pair y hx
  refine ⟨B.reverse, A.reverse, ⟨((x + 1 : Nat) : Int), y, 0⟩, ⟨(x : Nat), y, 0⟩, ?_, by simp,
    Or.inr ⟨rfl, rfl, rfl⟩⟩
  unfold down
  rw [e]
  simp

/-! ## All columns -/

/-- No cell can be improved by its neighbours in the column or by those in the next column in
direction `e`. -/
structure Relaxed (d : Dims) (e : Int) (g : Grid Off) : Prop where
  stable : ∀ y : Nat, y < d.ny → ColStable d g y
  across : ∀ (x y : Nat) (o : Int), x < d.nx → y < d.ny → (o = 0 ∨ o = -1 ∨ o = 1) →
    Le (g.get ⟨(x : Nat), y, 0⟩) (shift (o, e) (g.get ⟨(x : Int) + o, y + e, 0⟩))

theorem sweeps_untouched {d : Dims} {S : Idx → Prop} {e : Int} (sw : Grid Off → Nat → Grid Off)
    (hg : ∀ {f : Grid Off}, Good d S f → ∀ y, Good d S (sw f y) ∧ Better f (sw f y))
    (hs : ∀ {f : Grid Off}, Good d S f → ∀ y, y < d.ny → Swept d e f (sw f y) y) :
    ∀ (l : List Nat) {f : Grid Off}, Good d S f → (∀ y ∈ l, y < d.ny) → ∀ u : Idx,
      (∀ y ∈ l, u.y ≠ (y : Int)) → (l.foldl sw f).get u = f.get u := by
  intro l
  induction l with
  | nil => intro f _ _ u _; rfl
  | cons a l ih =>
    intro f h hl u hu
    rw [List.foldl_cons, ih (hg h a).1 (fun y hy => hl y (List.mem_cons_of_mem _ hy)) u
      (fun y hy => hu y (List.mem_cons_of_mem _ hy)),
      (hs h a (hl a (List.mem_cons_self ..))).other u (hu a (List.mem_cons_self ..))]

/-- A sequence of sweeps whose columns come after their neighbours in direction `e`. -/
theorem sweeps_relaxed {d : Dims} {S : Idx → Prop} {e : Int} (he : e ≠ 0) (sw : Grid Off → Nat → Grid Off)
    (hg : ∀ {f : Grid Off}, Good d S f → ∀ y, Good d S (sw f y) ∧ Better f (sw f y))
    (hs : ∀ {f : Grid Off}, Good d S f → ∀ y, y < d.ny → Swept d e f (sw f y) y)
    {l : List Nat} (hnd : l.Nodup) (hl : ∀ y, y ∈ l ↔ y < d.ny)
    (hord : ∀ (A : List Nat) (y : Nat) (B : List Nat), l = A ++ y :: B → ∀ z ∈ B, (z : Int) ≠ y + e) {f : Grid Off} (h : Good d S f) :
    Relaxed d e (l.foldl sw f) ∧ ∀ (x : Int) (y : Nat), y < d.ny → ColStable d f y →
      (l.foldl sw f).get ⟨x, y, 0⟩ = f.get ⟨x, y, 0⟩ ∨
      ∃ x' : Int, (l.foldl sw f).get ⟨x, y, 0⟩ = shift (x' - x, e) ((l.foldl sw f).get ⟨x', y + e, 0⟩) := by
  have key : ∀ y : Nat, y < d.ny → ∃ P : Grid Off, Swept d e P (sw P y) y ∧
      (∀ u : Idx, u.y = y → (l.foldl sw f).get u = (sw P y).get u) ∧
      (∀ u : Idx, u.y = y → P.get u = f.get u) ∧
      (∀ u : Idx, u.y = y + e → P.get u = (l.foldl sw f).get u) := by
    intro y hy
    obtain ⟨A, B, e1⟩ := List.append_of_mem ((hl y).mpr hy)
    have hnd' := hnd
    rw [e1, List.nodup_append] at hnd'
    obtain ⟨_, n2, n3⟩ := hnd'
    have hyB : y ∉ B := (List.nodup_cons.mp n2).1
    have hyA : y ∉ A := fun hA => n3 y hA y (List.mem_cons_self ..) rfl
    have hA : ∀ z ∈ A, z < d.ny := fun z hz => (hl z).mp (by rw [e1]; exact List.mem_append_left _ hz)
    have hB : ∀ z ∈ B, z < d.ny := fun z hz =>
      (hl z).mp (by rw [e1]; exact List.mem_append_right _ (List.mem_cons_of_mem _ hz))
    obtain ⟨g1, _⟩ := sweeps_good sw hg A h
    refine ⟨A.foldl sw f, hs g1 y hy, ?_, ?_, ?_⟩
    · intro u hu
      rw [e1, List.foldl_append, List.foldl_cons]
      refine sweeps_untouched sw hg hs B (hg g1 y).1 hB u ?_
      intro z hz hzu
      have : y = z := by omega
      exact hyB (this ▸ hz)
    · intro u hu
      refine sweeps_untouched sw hg hs A h hA u ?_
      intro z hz hzu
      have : y = z := by omega
      exact hyA (this ▸ hz)
    · intro u hu
      rw [e1, List.foldl_append]
      symm
      refine sweeps_untouched sw hg hs (y :: B) g1 ?_ u ?_
      · intro z hz
        rcases List.mem_cons.mp hz with rfl | hz
        · exact hy
        · exact hB z hz
      · intro z hz hzu
        rcases List.mem_cons.mp hz with rfl | hz
        · omega
        · exact hord A y B e1 z hz (by omega)
  refine ⟨⟨?_, ?_⟩, ?_⟩
  · intro y hy x hx
    obtain ⟨P, p1, p2, _, _⟩ := key y hy
    rw [p2 _ rfl, p2 _ rfl]
    exact p1.stable x hx
  · intro x y o hx hy ho
    obtain ⟨P, p1, p2, _, p4⟩ := key y hy
    rw [p2 _ rfl, ← p4 _ rfl]
    exact p1.across x o hx ho
  · intro x y hy hst
    obtain ⟨P, p1, p2, p3, p4⟩ := key y hy
    rw [p2 _ rfl, ← p3 _ rfl]
    rcases p1.trace (fun x hx => by rw [p3 _ rfl, p3 _ rfl]; exact hst x hx) x with h1 | ⟨x', h1⟩
    · exact Or.inl h1
    · exact Or.inr ⟨x', by rw [← p4 _ rfl]; exact h1⟩

/-- The field after the first half of `update_partial_sdf`. -/
def half (f : Grid Off) : Grid Off := (List.range f.dims.ny).foldl sweep1 f

/-- The finished field and the field half way through. -/
structure Finished (d : Dims) (S : Idx → Prop) (h g : Grid Off) : Prop where
  good : Good d S g
  goodHalf : Good d S h
  better : ∀ u, Le (g.get u) (h.get u)
  half : Relaxed d (-1) h
  full : Relaxed d 1 g
  trace : ∀ (x : Int) (y : Nat), y < d.ny → g.get ⟨x, y, 0⟩ = h.get ⟨x, y, 0⟩ ∨
    ∃ x' : Int, g.get ⟨x, y, 0⟩ = shift (x' - x, 1) (g.get ⟨x', (y : Int) + 1, 0⟩)

theorem partial_finished {d : Dims} (hz : d.nz = 1) {S : Idx → Prop} {f : Grid Off} (h : Good d S f) :
    Finished d S (half f) (partialSdf f) := by
  unfold half partialSdf
  rw [h.dims]
  obtain ⟨g1, _⟩ := sweeps_good sweep1 (fun h => sweep1_good h) (List.range d.ny) h
  obtain ⟨g3, g4⟩ := sweeps_good sweep2 (fun h => sweep2_good h) (List.range d.ny).reverse g1
  obtain ⟨r1, _⟩ := sweeps_relaxed (e := -1) (by decide) sweep1 (fun h => sweep1_good h)
    (fun h y hy => sweep1_swept hz h hy) (l := List.range d.ny) List.nodup_range
    (fun y => List.mem_range) (by
      intro A y B e z hzB
      have := List.pairwise_lt_range (n := d.ny)
      rw [e, List.pairwise_append] at this
      have := (List.pairwise_cons.mp this.2.1).1 z hzB
      omega) h
  obtain ⟨r2, t2⟩ := sweeps_relaxed (e := 1) (by decide) sweep2 (fun h => sweep2_good h)
    (fun h y hy => sweep2_swept hz h hy) (l := (List.range d.ny).reverse)
    (List.nodup_reverse.mpr List.nodup_range)
    (fun y => by rw [List.mem_reverse]; exact List.mem_range) (by
      intro A y B e z hzB
      have : (List.range d.ny).reverse.Pairwise (fun a b => b < a) :=
        List.pairwise_reverse.mpr List.pairwise_lt_range
      rw [e, List.pairwise_append] at this
      have := (List.pairwise_cons.mp this.2.1).1 z hzB
      omega) g1
  exact ⟨g3, g1, fun u r hr => g4 u r hr, r1, r2, fun x y hy => t2 x y hy (r1.stable y hy)⟩

theorem Good.out {d : Dims} {S : Idx → Prop} {f : Grid Off} (h : Good d S f) {u : Idx}
    (hu : ¬ InBounds d u) : f.get u = none := by
  rw [Grid.get_oob (by
    rw [h.dims]
    cases hb : d.inB u with
    | true => exact absurd (inB_iff_spec.mp hb) hu
    | false => rfl), h.oob]

/-- The finished field cannot be improved from the previous column either. -/
theorem Finished.back {d : Dims} {S : Idx → Prop} {h g : Grid Off}
    (hf : Finished d S h g) : Relaxed d (-1) g := by
  refine ⟨hf.full.stable, ?_⟩
  intro x y o hx hy ho
  by_cases hin : InBounds d ⟨(x : Int) + o, (y : Int) + -1, 0⟩
  · have hy1 : ((y - 1 : Nat) : Int) = (y : Int) + -1 := by unfold InBounds at hin; dsimp only at hin; omega
    rcases hf.trace ((x : Int) + o) (y - 1) (by omega) with h1 | ⟨x', h1⟩
    · rw [hy1] at h1
      rw [h1]
      exact (hf.better _).trans (hf.half.across x y o hx hy ho)
    · rw [hy1] at h1
      rw [h1, show (y : Int) + -1 + 1 = y by ring, shift_shift]
      by_cases hx' : InBounds d ⟨x', y, 0⟩
      · have hn : ((x'.toNat : Nat) : Int) = x' := by unfold InBounds at hx'; dsimp only at hx'; omega
        have := column_optimal (F := fun k => g.get ⟨(k : Nat), y, 0⟩) (hf.full.stable y hy) x'.toNat x
          (by unfold InBounds at hx'; dsimp only at hx'; omega) hx
        rw [hn] at this
        refine this.trans ?_
        rw [show (x' - ((x : Int) + o) + o, (1 : Int) + -1) = (x' - (x : Int), (0 : Int)) by
          congr 1; ring]
        exact Le.refl _
      · rw [hf.good.out hx']
        exact le_none _
  · rw [hf.good.out hin]
    exact le_none _

/-- Neighbouring cells, also diagonally. -/
theorem Finished.near {d : Dims} (hz : d.nz = 1) {S : Idx → Prop} {h g : Grid Off}
    (hf : Finished d S h g) {u w : Idx} (hu : InBounds d u) (hw : InBounds d w)
    (hx : |w.x - u.x| ≤ 1) (hy : |w.y - u.y| ≤ 1) :
    Le (g.get u) (shift (w.x - u.x, w.y - u.y) (g.get w)) := by
  obtain ⟨x, y, hx1, hy1, rfl⟩ := cell_eq hz hu
  obtain ⟨x', y', hx2, hy2, rfl⟩ := cell_eq hz hw
  rw [abs_le] at hx hy
  dsimp only at hx hy ⊢
  have ho : (x' : Int) - x = 0 ∨ (x' : Int) - x = -1 ∨ (x' : Int) - x = 1 := by omega
  have hd : (y' : Int) = y + -1 ∨ (y' : Int) = y + 1 ∨ y' = y := by omega
  rcases hd with hd | hd | rfl
  · have := hf.back.across x y _ hx1 hy1 ho
    rw [show (x : Int) + (x' - x) = x' by ring] at this
    rw [hd, show (y : Int) + -1 - y = -1 by ring]
    exact this
  · have := hf.full.across x y _ hx1 hy1 ho
    rw [show (x : Int) + (x' - x) = x' by ring] at this
    rw [hd, show (y : Int) + 1 - y = 1 by ring]
    exact this
  · rw [sub_self]
    exact column_optimal (F := fun k => g.get ⟨(k : Nat), y', 0⟩) (hf.full.stable y' hy1) x' x hx2 hx1

/-! ## Walks from a closest point -/

/-- For a point `t` at least as far from `v` as the origin: if `t` is no farther than the origin from
`p`, it is no farther than the origin from `p'`. -/
def StepOk (v p p' : Int × Int) : Prop := ∀ t : Int × Int, sq (t.1 - p.1, t.2 - p.2) ≤ sq p →
  sq v ≤ sq (t.1 - v.1, t.2 - v.2) → sq (t.1 - p'.1, t.2 - p'.2) ≤ sq p'

/-- The offsets along a walk `p` from the marked cell `s` are at most the distance to `s`. -/
theorem walk {g : Grid Off} {s : Idx} {p : Nat → Int × Int} {n : Nat}
    (h0 : Le (g.get ⟨s.x + (p 0).1, s.y + (p 0).2, 0⟩) (some (p 0)))
    (hnear : ∀ i, i < n → Le (g.get ⟨s.x + (p (i + 1)).1, s.y + (p (i + 1)).2, 0⟩)
      (shift ((p i).1 - (p (i + 1)).1, (p i).2 - (p (i + 1)).2) (g.get ⟨s.x + (p i).1, s.y + (p i).2, 0⟩)))
    (hmin : ∀ i, i < n → ∀ q, g.get ⟨s.x + (p i).1, s.y + (p i).2, 0⟩ = some q →
      sq (p n) ≤ sq ((p i).1 + q.1 - (p n).1, (p i).2 + q.2 - (p n).2))
    (hok : ∀ i, i < n → StepOk (p n) (p i) (p (i + 1))) :
    ∀ i, i ≤ n → Le (g.get ⟨s.x + (p i).1, s.y + (p i).2, 0⟩) (some (p i)) := by
  intro i
  induction i with
  | zero => intro _; exact h0
  | succ i ih =>
    intro hi
    obtain ⟨q, e, hq⟩ := (ih (by omega)).some_right
    have h1 := hnear i (by omega)
    rw [e] at h1
    refine h1.trans ?_
    refine le_some.mpr ?_
    have h2 := hok i (by omega) ((p i).1 + q.1, (p i).2 + q.2)
      (by dsimp only; rw [add_sub_cancel_left, add_sub_cancel_left]; exact hq)
      (hmin i (by omega) q e)
    dsimp only at h2
    dsimp only
    rw [show q.1 + ((p i).1 - (p (i + 1)).1) = (p i).1 + q.1 - (p (i + 1)).1 by ring,
      show q.2 + ((p i).2 - (p (i + 1)).2) = (p i).2 + q.2 - (p (i + 1)).2 by ring]
    exact h2

theorem sq_flip {e1 e2 : Int} (h1 : e1 * e1 = 1) (h2 : e2 * e2 = 1) (x y : Int) :
    sq (e1 * x, e2 * y) = sq (x, y) := by
  unfold sq
  dsimp only
  linear_combination x * x * h1 + y * y * h2

theorem StepOk.flip {a b x y x' y' : Int} (h : StepOk (a, b) (x, y) (x', y')) {e1 e2 : Int}
    (h1 : e1 * e1 = 1) (h2 : e2 * e2 = 1) :
    StepOk (e1 * a, e2 * b) (e1 * x, e2 * y) (e1 * x', e2 * y') := by
  intro t ht hv
  have key : ∀ c d : Int, sq (t.1 - e1 * c, t.2 - e2 * d) = sq (e1 * t.1 - c, e2 * t.2 - d) := by
    intro c d
    unfold sq
    dsimp only
    linear_combination -(t.1 * t.1 - c * c) * h1 - (t.2 * t.2 - d * d) * h2
  dsimp only at *
  rw [key, sq_flip h1 h2] at *
  exact h (e1 * t.1, e2 * t.2) ht hv

theorem sq_swap (x y : Int) : sq (x, y) = sq (y, x) := by unfold sq; ring

theorem StepOk.swap {a b x y x' y' : Int} (h : StepOk (a, b) (x, y) (x', y')) :
    StepOk (b, a) (y, x) (y', x') := by
  intro t ht hv
  have := h (t.2, t.1) (by rw [sq_swap, sq_swap x y]; exact ht) (by rw [sq_swap, sq_swap (_ - _)]; exact hv)
  rw [sq_swap, sq_swap y' x']
  exact this

theorem natSq_eq (a b c d : Nat) : (natSq a b c d : Int) = sq ((a : Int) - c, (b : Int) - d) := by
  have key : ∀ a c : Nat, (((a - c) + (c - a) : Nat) : Int) * (((a - c) + (c - a) : Nat) : Int) =
      ((a : Int) - c) * ((a : Int) - c) := by
    intro a c
    rcases Nat.le_total a c with h | h
    · rw [show (((a - c) + (c - a) : Nat) : Int) = (c : Int) - a by omega]; ring
    · rw [show (((a - c) + (c - a) : Nat) : Int) = (a : Int) - c by omega]
  unfold natSq sq
  rw [Nat.cast_add, Nat.cast_mul, Nat.cast_mul, key, key]

theorem stepCheck_ok {a b x y x' y' : Nat} (hp : x * x + y * y < 169)
    (h : stepCheck a b x y x' y' = true) : StepOk (a, b) (x, y) (x', y') := by
  rintro ⟨t1, t2⟩ ht hv
  dsimp only at *
  have hb : -12 ≤ t1 - (x : Int) ∧ t1 - (x : Int) ≤ 12 ∧ -12 ≤ t2 - (y : Int) ∧ t2 - (y : Int) ≤ 12 := by
    have hp' : (x : Int) * x + (y : Int) * y < 169 := by exact_mod_cast hp
    unfold sq at ht
    dsimp only at ht
    have h1 := mul_self_nonneg (t1 - (x : Int))
    have h2 := mul_self_nonneg (t2 - (y : Int))
    refine ⟨?_, ?_, ?_, ?_⟩ <;> nlinarith
  obtain ⟨i, hi⟩ : ∃ i : Nat, (i : Int) = t1 - x + 12 := ⟨(t1 - x + 12).toNat, by omega⟩
  obtain ⟨j, hj⟩ : ∃ j : Nat, (j : Int) = t2 - y + 12 := ⟨(t2 - y + 12).toNat, by omega⟩
  have key : ∀ c d : Nat, sq (t1 - (c : Int), t2 - (d : Int)) =
      (natSq (x + i) (y + j) (c + 12) (d + 12) : Int) := by
    intro c d
    rw [natSq_eq]
    congr 2 <;> push_cast <;> omega
  have hs : ∀ c d : Nat, sq ((c : Int), (d : Int)) = ((c * c + d * d : Nat) : Int) := by
    intro c d; unfold sq; push_cast; ring
  rw [key, hs] at ht hv ⊢
  unfold stepCheck at h
  rw [List.all_eq_true] at h
  have h3 := h i (List.mem_range.mpr (by omega))
  rw [List.all_eq_true] at h3
  have h4 := h3 j (List.mem_range.mpr (by omega))
  rw [Nat.ble_eq_true_of_le (by exact_mod_cast ht), cond_true,
    Nat.ble_eq_true_of_le (by exact_mod_cast hv), cond_true] at h4
  exact_mod_cast Nat.le_of_ble_eq_true h4

theorem route_zero {c : Nat} (hc : c < 20) (a b : Nat) : route c a b 0 = 0 := by
  unfold route
  rcases Nat.eq_zero_or_pos b with rfl | hb
  · simp
  · rw [Nat.mul_zero, Nat.zero_add]
    exact Nat.div_eq_of_lt (Nat.mul_lt_mul_of_pos_right hc hb)

theorem route_last {c : Nat} (hc : c < 20) (a : Nat) {b : Nat} (hb : 0 < b) : route c a b b = a := by
  unfold route
  rw [show 20 * a * b + c * b = c * b + a * (20 * b) by ring, Nat.add_mul_div_right _ _ (by omega),
    Nat.div_eq_of_lt (Nat.mul_lt_mul_of_pos_right hc hb), Nat.zero_add]

theorem route_mono (c a b : Nat) {i j : Nat} (h : i ≤ j) : route c a b i ≤ route c a b j := by
  unfold route
  exact Nat.div_le_div_right (Nat.add_le_add_right (Nat.mul_le_mul_left _ h) _)

theorem route_step (c : Nat) {a b : Nat} (hab : a ≤ b) (i : Nat) :
    route c a b (i + 1) ≤ route c a b i + 1 := by
  unfold route
  rcases Nat.eq_zero_or_pos b with rfl | hb
  · simp
  · rw [← Nat.add_div_right _ (show 0 < 20 * b by omega)]
    apply Nat.div_le_div_right
    nlinarith

theorem route_ok {a b : Nat} (hab : a ≤ b) (h : a * a + b * b < 169) : ∃ c, c < 20 ∧
    ∀ i, i < b → StepOk (a, b) (route c a b i, i) (route c a b (i + 1), (i + 1 : Nat)) := by
  have ht := route_table
  rw [List.all_eq_true] at ht
  have h1 := ht b (List.mem_range.mpr (by nlinarith))
  rw [List.all_eq_true] at h1
  have h2 := h1 a (List.mem_range.mpr (by omega))
  simp only [Bool.or_eq_true, Bool.not_eq_true', decide_eq_false_iff_not] at h2
  have key : ∀ c, c < 20 → routeCheck c a b = true → ∀ i, i < b →
      StepOk (a, b) (route c a b i, i) (route c a b (i + 1), (i + 1 : Nat)) := by
    intro c hc hr i hi
    unfold routeCheck at hr
    rw [List.all_eq_true] at hr
    refine stepCheck_ok ?_ (hr i (List.mem_range.mpr hi))
    have h3 : route c a b i ≤ a := by
      have := route_mono c a b (show i ≤ b by omega)
      rwa [route_last hc a (by omega)] at this
    nlinarith
  rcases h2 with h2 | h2 | h2
  · exact absurd h h2
  · exact ⟨9, by omega, key 9 (by omega) h2⟩
  · exact ⟨11, by omega, key 11 (by omega) h2⟩

/-- A walk inside the image along which every step is fine. -/
theorem walk_exact {d : Dims} (hz : d.nz = 1) (p : Idx → Bool) {s v : Idx} (hs : InBounds d s)
    (hps : p s = true) (hmin : ∀ w, InBounds d w → p w = true → sqDist v s ≤ sqDist v w)
    {P : Nat → Int × Int} {n : Nat} (h0 : P 0 = (0, 0)) (hn : P n = (v.x - s.x, v.y - s.y))
    (hin : ∀ i, i ≤ n → InBounds d ⟨s.x + (P i).1, s.y + (P i).2, 0⟩)
    (hst : ∀ i, i < n → |(P i).1 - (P (i + 1)).1| ≤ 1 ∧ |(P i).2 - (P (i + 1)).2| ≤ 1)
    (hok : ∀ i, i < n → StepOk (P n) (P i) (P (i + 1))) :
    Le ((partialSdf (marked d p)).get ⟨v.x, v.y, 0⟩) (some (v.x - s.x, v.y - s.y)) := by
  have hg := marked_good hz p
  have hf := partial_finished hz hg
  have hz0 : s.z = 0 := by unfold InBounds at hs; omega
  have := walk (g := partialSdf (marked d p)) (s := s) (p := P) (n := n) ?_ ?_ ?_ hok n le_rfl
  · rw [hn] at this
    simpa using this
  · rw [h0]
    have e : (⟨s.x + ((0 : Int), (0 : Int)).1, s.y + ((0 : Int), (0 : Int)).2, 0⟩ : Idx) = s := by
      cases s; simp only at hz0; simp [hz0]
    rw [e]
    have h1 := partial_zero hz p hs hps
    cases hq : (partialSdf (marked d p)).get s with
    | none => rw [hq] at h1; simp [sqOf] at h1
    | some q =>
      rw [hq] at h1
      simp only [sqOf, Option.some.injEq] at h1
      refine le_some.mpr ?_
      have := sq_nonneg' q
      have e0 : sq ((0 : Int), (0 : Int)) = 0 := by decide
      omega
  · intro i hi
    obtain ⟨s1, s2⟩ := hst i hi
    have := hf.near hz (hin (i + 1) (by omega)) (hin i (by omega)) (by
      dsimp only; rw [add_sub_add_left_eq_sub]; exact s1) (by
      dsimp only; rw [add_sub_add_left_eq_sub]; exact s2)
    dsimp only at this
    rwa [add_sub_add_left_eq_sub, add_sub_add_left_eq_sub] at this
  · intro i hi q hq
    obtain ⟨b1, b2⟩ := hf.good.points _ q hq
    have := hmin _ b1 b2
    rw [hn]
    unfold sqDist at this
    unfold sq
    rw [hz0] at this
    dsimp only at this ⊢
    linarith

/-- Cells whose nearest marked cell is closer than 13 get the offset of a nearest one. -/
theorem partial_exact {d : Dims} (hz : d.nz = 1) (p : Idx → Bool) {s v : Idx} (hs : InBounds d s)
    (hv : InBounds d v) (hps : p s = true)
    (hmin : ∀ w, InBounds d w → p w = true → sqDist v s ≤ sqDist v w) (hlt : sqDist v s < 169) :
    sqOf ((partialSdf (marked d p)).get v) = some (sqDist v s).toNat := by
  have hz1 : v.z = 0 := by unfold InBounds at hv; omega
  have hz2 : s.z = 0 := by unfold InBounds at hs; omega
  have hle : Le ((partialSdf (marked d p)).get ⟨v.x, v.y, 0⟩) (some (v.x - s.x, v.y - s.y)) := by
    obtain ⟨a, e1, he1, ha⟩ : ∃ (a : Nat) (e1 : Int), (e1 = 1 ∨ e1 = -1) ∧ v.x - s.x = e1 * a := by
      rcases Int.le_total 0 (v.x - s.x) with h | h
      · exact ⟨(v.x - s.x).toNat, 1, Or.inl rfl, by omega⟩
      · exact ⟨(s.x - v.x).toNat, -1, Or.inr rfl, by omega⟩
    obtain ⟨b, e2, he2, hb⟩ : ∃ (b : Nat) (e2 : Int), (e2 = 1 ∨ e2 = -1) ∧ v.y - s.y = e2 * b := by
      rcases Int.le_total 0 (v.y - s.y) with h | h
      · exact ⟨(v.y - s.y).toNat, 1, Or.inl rfl, by omega⟩
      · exact ⟨(s.y - v.y).toNat, -1, Or.inr rfl, by omega⟩
    have q1 : e1 * e1 = 1 := by rcases he1 with rfl | rfl <;> norm_num
    have q2 : e2 * e2 = 1 := by rcases he2 with rfl | rfl <;> norm_num
    have hab : a * a + b * b < 169 := by
      have h1 : sqDist v s = (a : Int) * a + (b : Int) * b := by
        unfold sqDist
        rw [ha, hb, hz1, hz2]
        linear_combination (a : Int) * a * q1 + (b : Int) * b * q2
      rw [h1] at hlt
      exact_mod_cast hlt
    -- the walk, in terms of the coordinates `X i`, `Y i` of its cells
    have main : ∀ (X Y : Nat → Nat) (n : Nat), X 0 = 0 → Y 0 = 0 → X n = a → Y n = b →
        (∀ i, i ≤ n → X i ≤ a ∧ Y i ≤ b) →
        (∀ i, i < n → X i ≤ X (i + 1) ∧ X (i + 1) ≤ X i + 1 ∧ Y i ≤ Y (i + 1) ∧ Y (i + 1) ≤ Y i + 1) →
        (∀ i, i < n → StepOk (a, b) (X i, Y i) (X (i + 1), Y (i + 1))) →
        Le ((partialSdf (marked d p)).get ⟨v.x, v.y, 0⟩) (some (v.x - s.x, v.y - s.y)) := by
      intro X Y n x0 y0 xn yn hb' hst hok
      refine walk_exact hz p hs hps hmin (P := fun i => (e1 * X i, e2 * Y i)) (n := n) ?_ ?_ ?_ ?_ ?_
      · simp [x0, y0]
      · simp only [xn, yn, ha, hb]
      · intro i hi
        obtain ⟨h1, h2⟩ := hb' i hi
        unfold InBounds at *
        dsimp only
        rcases he1 with rfl | rfl <;> rcases he2 with rfl | rfl <;> omega
      · intro i hi
        obtain ⟨h1, h2, h3, h4⟩ := hst i hi
        rw [abs_le, abs_le]
        rcases he1 with rfl | rfl <;> rcases he2 with rfl | rfl <;> omega
      · intro i hi
        rw [xn, yn]
        exact (hok i hi).flip q1 q2
    rcases Nat.le_total a b with hab' | hab'
    · obtain ⟨c, hc, hok⟩ := route_ok hab' hab
      rcases Nat.eq_zero_or_pos b with hb0 | hb0
      · refine main (fun _ => 0) (fun _ => 0) 0 rfl rfl (by omega) (by omega) (fun i _ => by omega)
          (fun i hi => absurd hi (by omega)) (fun i hi => absurd hi (by omega))
      · refine main (route c a b) (fun i => i) b (route_zero hc a b) rfl (route_last hc a hb0) rfl ?_ ?_ hok
        · intro i hi
          have := route_mono c a b hi
          rw [route_last hc a hb0] at this
          exact ⟨this, hi⟩
        · intro i _
          exact ⟨route_mono c a b (by omega), route_step c hab' i, by omega, by omega⟩
    · obtain ⟨c, hc, hok⟩ := route_ok hab' (by omega)
      rcases Nat.eq_zero_or_pos a with ha0 | ha0
      · refine main (fun _ => 0) (fun _ => 0) 0 rfl rfl (by omega) (by omega) (fun i _ => by omega)
          (fun i hi => absurd hi (by omega)) (fun i hi => absurd hi (by omega))
      · refine main (fun i => i) (route c b a) a rfl (route_zero hc b a) rfl (route_last hc b ha0) ?_ ?_
          (fun i hi => (hok i hi).swap)
        · intro i hi
          have := route_mono c b a hi
          rw [route_last hc b ha0] at this
          exact ⟨hi, this⟩
        · intro i _
          exact ⟨by omega, by omega, route_mono c b a (by omega), route_step c hab' i⟩
  have ev : (⟨v.x, v.y, 0⟩ : Idx) = v := by cases v; simp only at hz1; simp [hz1]
  rw [ev] at hle
  obtain ⟨q, e, hq⟩ := hle.some_right
  obtain ⟨b1, b2⟩ := (partial_spec hz p).1.points v q e
  have h1 := hmin _ b1 b2
  rw [e]
  simp only [sqOf, Option.some.injEq]
  congr 1
  unfold sqDist at h1 ⊢
  unfold sq at hq ⊢
  dsimp only at h1 hq ⊢
  rw [hz1, hz2] at *
  nlinarith

/-! ## Continuity -/

/-- Going from `v` to any other cell `w` lengthens the offset by at most the length of the best path of
horizontal, vertical and diagonal steps. -/
theorem Finished.lipschitz {d : Dims} (hz : d.nz = 1) {S : Idx → Prop} {h g : Grid Off}
    (hf : Finished d S h g) {x' y' : Nat} (hx' : x' < d.nx) (hy' : y' < d.ny) {r : ℝ}
    (hr : Len (g.get ⟨(x' : Nat), (y' : Nat), 0⟩) r) :
    ∀ (n x y : Nat), gap x x' + gap y y' ≤ n → x < d.nx → y < d.ny →
      Len (g.get ⟨(x : Nat), (y : Nat), 0⟩) (r + octile (gap x x') (gap y y')) := by
  have cell : ∀ x y : Nat, x < d.nx → y < d.ny → InBounds d ⟨(x : Nat), (y : Nat), 0⟩ :=
    fun x y hx hy => inB_iff_spec.mp (inB_cell hz hx hy)
  intro n
  induction n with
  | zero =>
    intro x y hn _ _
    have h1 : x = x' := by unfold gap at hn; omega
    have h2 : y = y' := by unfold gap at hn; omega
    subst h1 h2
    have g0 : ∀ n, gap n n = 0 := fun n => by unfold gap; omega
    rw [g0, g0, octile_zero]
    simpa using hr
  | succ n ih =>
    intro x y hn hx hy
    -- one step towards the goal
    have go : ∀ u w : Nat, u < d.nx → w < d.ny → |(u : Int) - x| ≤ 1 → |(w : Int) - y| ≤ 1 →
        gap u x' + gap w y' ≤ n →
        Real.sqrt (sq ((u : Int) - x, (w : Int) - y) : ℝ) + octile (gap u x') (gap w y') ≤
          octile (gap x x') (gap y y') →
        Len (g.get ⟨(x : Nat), (y : Nat), 0⟩) (r + octile (gap x x') (gap y y')) := by
      intro u w hu hw h1 h2 h3 h4
      have h5 := hf.near hz (cell x y hx hy) (cell u w hu hw) h1 h2
      have h6 := (ih u w h3 hu hw).shift ((u : Int) - x, (w : Int) - y)
      refine (h5 _ h6).mono ?_
      linarith
    have hxs : ∃ u : Nat, u < d.nx ∧ ((x = x' ∧ u = x) ∨ (gap x x' = gap u x' + 1 ∧
        ((u : Int) - x = 1 ∨ (u : Int) - x = -1))) := by
      rcases Nat.lt_trichotomy x x' with h | h | h
      · exact ⟨x + 1, by omega, Or.inr ⟨by unfold gap; omega, by omega⟩⟩
      · exact ⟨x, hx, Or.inl ⟨h, rfl⟩⟩
      · exact ⟨x - 1, by omega, Or.inr ⟨by unfold gap; omega, by omega⟩⟩
    have hys : ∃ w : Nat, w < d.ny ∧ ((y = y' ∧ w = y) ∨ (gap y y' = gap w y' + 1 ∧
        ((w : Int) - y = 1 ∨ (w : Int) - y = -1))) := by
      rcases Nat.lt_trichotomy y y' with h | h | h
      · exact ⟨y + 1, by omega, Or.inr ⟨by unfold gap; omega, by omega⟩⟩
      · exact ⟨y, hy, Or.inl ⟨h, rfl⟩⟩
      · exact ⟨y - 1, by omega, Or.inr ⟨by unfold gap; omega, by omega⟩⟩
    obtain ⟨u, hu, hu'⟩ := hxs
    obtain ⟨w, hw, hw'⟩ := hys
    have g0 : ∀ n, gap n n = 0 := fun n => by unfold gap; omega
    rcases hu' with ⟨e1, e2⟩ | ⟨e1, e2⟩ <;> rcases hw' with ⟨e3, e4⟩ | ⟨e3, e4⟩
    · subst e1 e3
      exact (ih x y (by rw [g0, g0]; omega) hx hy)
    · subst e1 e2
      refine go u w hu hw (by simp) (by rcases e4 with e | e <;> rw [e] <;> norm_num) (by omega) ?_
      rw [e3, g0, sub_self, sqrt_vert _ (Or.symm e4), ← octile_vert]
      linarith
    · subst e3 e4
      refine go u w hu hw (by rcases e2 with e | e <;> rw [e] <;> norm_num) (by simp) (by omega) ?_
      have hs1 : Real.sqrt (sq ((u : Int) - x, (w : Int) - w) : ℝ) = 1 := by
        rcases e2 with e | e <;> rw [e, sub_self] <;> norm_num [sq]
      rw [e1, g0, hs1, octile_zero, octile_zero]
      push_cast
      linarith
    · refine go u w hu hw (by rcases e2 with e | e <;> rw [e] <;> norm_num)
        (by rcases e4 with e | e <;> rw [e] <;> norm_num) (by omega) ?_
      rw [e1, e3, ← octile_diag, sqrt_diag _ (Or.symm e2) _ (Or.symm e4)]
      linarith

end Img

open Img

/-! ## C65, exact range -/

/-- C65, exact range.  If the nearest pixel `u` of the other class is less than 13 pixels away, the value
is exactly its distance, whatever the rest of the image.  (At a distance of 13 the statement is false:
`C65_false`.) -/
theorem C65_exact_below_13_partial (R : Rounding) {d : Dims} (hz : d.nz = 1) {img : Idx → Bool} {v u : Idx}
    (hv : InBounds d v) (hu : InBounds d u) (hne : img u ≠ img v)
    (hmin : ∀ w, InBounds d w → img w ≠ img v → sqDist v u ≤ sqDist v w) (hlt : sqDist v u < 13 ^ 2) :
    (updateSdf R d img).field.get v = some (if img v then -R.r64 (Real.sqrt (sqDist v u : ℝ) : ℝ)
      else R.r64 (Real.sqrt (sqDist v u : ℝ) : ℝ)) := by
  have h0 : 0 ≤ sqDist v u := by unfold sqDist; positivity
  have hcast : (((sqDist v u).toNat : Nat) : ℝ) = (sqDist v u : ℝ) := by
    have : (((sqDist v u).toNat : Nat) : Int) = sqDist v u := Int.toNat_of_nonneg h0
    exact_mod_cast this
  rw [(update_spec R hz img).2.2.1 v hv]
  unfold pixelVal
  cases hi : img v with
  | true =>
    rw [partial_exact hz (fun i => !img i) hu hv (by rw [hi] at hne; simpa using hne)
      (fun w hw hpw => hmin w hw (by rw [hi]; simpa using hpw)) hlt]
    simp only [if_true, sqrtE, hcast]
  | false =>
    rw [partial_exact hz img hu hv (by rw [hi] at hne; simpa using hne)
      (fun w hw hpw => hmin w hw (by rw [hi]; simpa using hpw)) hlt]
    simp only [Bool.false_eq_true, if_false, sqrtE, hcast]

/-- The hypotheses of `C65_exact_below_13_partial` on `exImg`, off the axes and diagonals: (0, 2) is
nearest to (1, 0). -/
example : InBounds ⟨2, 3, 1⟩ ⟨1, 0, 0⟩ ∧ InBounds ⟨2, 3, 1⟩ ⟨0, 2, 0⟩ ∧ exImg ⟨0, 2, 0⟩ ≠ exImg ⟨1, 0, 0⟩ ∧
    (∀ w, InBounds ⟨2, 3, 1⟩ w → exImg w ≠ exImg ⟨1, 0, 0⟩ →
      sqDist ⟨1, 0, 0⟩ ⟨0, 2, 0⟩ ≤ sqDist ⟨1, 0, 0⟩ w) ∧ sqDist ⟨1, 0, 0⟩ ⟨0, 2, 0⟩ < 13 ^ 2 := by
  refine ⟨by unfold InBounds; decide, by unfold InBounds; decide, by decide, fun w _ h => ?_,
    by unfold sqDist; decide⟩
  have h0 : exImg ⟨1, 0, 0⟩ = exImg ⟨0, 0, 0⟩ := by decide
  rw [h0] at h
  rw [exImg_only h]

/-! ## C89 -/

/-- C89.  The reported distances `√(N v)` are continuous: between two pixels of the same class they differ
by at most the length of the best path of horizontal, vertical and diagonal steps between the pixels; in
particular by at most the Euclidean distance (1 or √2) between neighbouring pixels. -/
theorem C89_continuous (R : Rounding) {d : Dims} (hz : d.nz = 1) {img : Idx → Bool} (hm : Mixed d img) :
    ∃ N : Idx → Nat,
      (∀ v, InBounds d v → (updateSdf R d img).field.get v =
        some (if img v then -R.r64 (Real.sqrt (N v) : ℝ) else R.r64 (Real.sqrt (N v) : ℝ))) ∧
      (∀ v w, InBounds d v → InBounds d w → img v = img w →
        |Real.sqrt (N v) - Real.sqrt (N w)| ≤ octile (v.x - w.x).natAbs (v.y - w.y).natAbs) ∧
      ∀ v w, InBounds d v → InBounds d w → img v = img w → |v.x - w.x| ≤ 1 → |v.y - w.y| ≤ 1 →
        |Real.sqrt (N v) - Real.sqrt (N w)| ≤ Real.sqrt (sqDist v w : ℝ) := by
  obtain ⟨⟨s, hs, hps⟩, ⟨t, ht, hpt⟩⟩ := hm
  -- the field that decides the value of a pixel
  let part : Bool → Idx → Bool := fun c i => if c then !img i else img i
  let N : Idx → Nat := fun v => (sqOf ((partialSdf (marked d (part (img v)))).get v)).getD 0
  have hex : ∀ c : Bool, ∃ s, InBounds d s ∧ part c s = true := by
    intro c
    cases c with
    | true => exact ⟨t, ht, by simp [part, hpt]⟩
    | false => exact ⟨s, hs, by simp [part, hps]⟩
  have hN : ∀ v, InBounds d v → sqOf ((partialSdf (marked d (part (img v)))).get v) = some (N v) := by
    intro v hv
    obtain ⟨s', hs', hps'⟩ := hex (img v)
    obtain ⟨n, _, e, _⟩ := partial_value hz (part (img v)) hs' hps' hv
    simp only [N, e, Option.getD_some]
  have hlen : ∀ v, InBounds d v → ∀ r, Len ((partialSdf (marked d (part (img v)))).get v) r ↔
      Real.sqrt (N v) ≤ r := by
    intro v hv r
    have h1 := hN v hv
    cases hq : (partialSdf (marked d (part (img v)))).get v with
    | none => rw [hq] at h1; simp [sqOf] at h1
    | some q =>
      rw [hq] at h1
      simp only [sqOf, Option.some.injEq] at h1
      have h2 : ((N v : Nat) : ℝ) = (Img.sq q : ℝ) := by
        have : ((N v : Nat) : Int) = Img.sq q := by rw [← h1]; exact Int.toNat_of_nonneg (sq_nonneg' q)
        exact_mod_cast this
      rw [h2]
      constructor
      · rintro ⟨q', e, h⟩
        simp only [Option.some.injEq] at e
        subst e
        exact h
      · intro h
        exact ⟨q, rfl, h⟩
  have hone : ∀ v w, InBounds d v → InBounds d w → img v = img w →
      Real.sqrt (N v) ≤ Real.sqrt (N w) + octile (v.x - w.x).natAbs (v.y - w.y).natAbs := by
    intro v w hv hw hvw
    have hf := partial_finished hz (marked_good hz (part (img w)))
    have h1 := (hlen w hw _).mpr (le_refl (Real.sqrt (N w)))
    obtain ⟨x, y, hx, hy, rfl⟩ := cell_eq hz hv
    obtain ⟨x', y', hx', hy', rfl⟩ := cell_eq hz hw
    have h2 := hf.lipschitz hz hx' hy' h1 _ x y le_rfl hx hy
    rw [← hvw] at h2
    have h3 := (hlen _ hv _).mp h2
    refine h3.trans (le_of_eq ?_)
    dsimp only
    congr 2
    · unfold gap; omega
    · unfold gap; omega
  have hsym : ∀ v w : Idx, octile (v.x - w.x).natAbs (v.y - w.y).natAbs =
      octile (w.x - v.x).natAbs (w.y - v.y).natAbs := by
    intro v w
    congr 1 <;> omega
  have hall : ∀ v w, InBounds d v → InBounds d w → img v = img w →
      |Real.sqrt (N v) - Real.sqrt (N w)| ≤ octile (v.x - w.x).natAbs (v.y - w.y).natAbs := by
    intro v w hv hw hvw
    rw [abs_le]
    have h1 := hone v w hv hw hvw
    have h2 := hone w v hw hv hvw.symm
    rw [← hsym] at h2
    constructor <;> linarith
  refine ⟨N, ?_, hall, ?_⟩
  · intro v hv
    rw [(update_spec R hz img).2.2.1 v hv]
    have h1 := hN v hv
    unfold pixelVal
    cases hi : img v with
    | true =>
      rw [hi] at h1
      have h2 : sqOf ((partialSdf (marked d fun i => !img i)).get v) = some (N v) := h1
      rw [h2]
      rfl
    | false =>
      rw [hi] at h1
      have h2 : sqOf ((partialSdf (marked d img)).get v) = some (N v) := h1
      rw [h2]
      rfl
  · intro v w hv hw hvw hx hy
    refine (hall v w hv hw hvw).trans (le_of_eq ?_)
    obtain ⟨x, y, _, _, rfl⟩ := cell_eq hz hv
    obtain ⟨x', y', _, _, rfl⟩ := cell_eq hz hw
    rw [abs_le] at hx hy
    unfold sqDist
    dsimp only at *
    have hx2 : (x : Int) - x' = 0 ∨ (x : Int) - x' = 1 ∨ (x : Int) - x' = -1 := by omega
    have hy2 : (y : Int) - y' = 0 ∨ (y : Int) - y' = 1 ∨ (y : Int) - y' = -1 := by omega
    rcases hx2 with h1 | h1 | h1 <;> rcases hy2 with h2 | h2 | h2 <;> rw [h1, h2] <;>
      norm_num [octile]

/-- The hypothesis of `C89_continuous` on `exImg`, and two neighbouring pixels of one class. -/
example : Mixed ⟨2, 3, 1⟩ exImg ∧ InBounds ⟨2, 3, 1⟩ ⟨0, 0, 0⟩ ∧ InBounds ⟨2, 3, 1⟩ ⟨1, 1, 0⟩ ∧
    exImg ⟨0, 0, 0⟩ = exImg ⟨1, 1, 0⟩ :=
  ⟨exImg_mixed, by unfold InBounds; decide, by unfold InBounds; decide, by decide⟩

end Verif
