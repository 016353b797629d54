import Verif.Extrema
import Verif.Props.Interp
import Mathlib.Logic.Relation

/-!
# Properties of the local extrema map (C27, C54)
-/

namespace Verif

open Spec

namespace Spec

variable {V : Type}

/-- The cell has an effectively flat gradient: every component is small. -/
def FlatAt (f : GradField V) (i : Idx) : Prop := ∀ v ∈ f.grad i, f.small v = true

/-- The unit step of one gradient component: +1 above the threshold, -1 below its negative. -/
def unitStep (f : GradField V) (v : V) : Int := if f.up v then 1 else if f.down v then -1 else 0

/-- The neighbour the (sign-corrected) gradient of a cell points to. -/
def Target (f : GradField V) (i j : Idx) : Prop :=
  ∃ gx gy gz, f.grad i = [gx, gy, gz] ∧
    let s := fun v => if f.neg i then unitStep f (f.negate v) else unitStep f v
    j = ⟨i.x + s gx, i.y + s gy, i.z + s gz⟩

/-- One step of following the gradient inside the grid: from a non-flat cell to its target. -/
def GStep (f : GradField V) (d : Dims) (i j : Idx) : Prop :=
  ¬ FlatAt f i ∧ Target f i j ∧ InBounds d j

/-- Some number of steps. -/
def Leads (f : GradField V) (d : Dims) : Idx → Idx → Prop := Relation.ReflTransGen (GStep f d)

/-- At least one step. -/
def LeadsPlus (f : GradField V) (d : Dims) : Idx → Idx → Prop := Relation.TransGen (GStep f d)

/-- Every cell of the grid has a three-component gradient. -/
def HasGradients (f : GradField V) (d : Dims) : Prop := ∀ i, InBounds d i → (f.grad i).length = 3

/-- What the entry of a cell means. -/
def Explains (f : GradField V) (d : Dims) (i : Idx) : Extremum → Prop
  | .unset => False
  | .offGrid => ∃ j k, Leads f d i j ∧ ¬ FlatAt f j ∧ Target f j k ∧ ¬ InBounds d k
  | .center t => Leads f d i t ∧ (FlatAt f t ∨ LeadsPlus f d t t)

end Spec

namespace GradField

variable {V : Type} {f : GradField V}

theorem list3 {l : List V} (h : l.length = 3) : ∃ a b c, l = [a, b, c] := by
  match l, h with
  | [a, b, c], _ => exact ⟨a, b, c, rfl⟩

theorem flat_iff {i : Idx} {gx gy gz : V} (h : f.grad i = [gx, gy, gz]) :
    f.isFlat gx gy gz = true ↔ FlatAt f i := by
  unfold isFlat FlatAt
  rw [h]
  simp [and_assoc]

theorem comp_eq (v : V) : f.comp v = unitStep f v := rfl

theorem target_next {i : Idx} {gx gy gz : V} (h : f.grad i = [gx, gy, gz]) :
    Target f i (f.next i gx gy gz) := by
  refine ⟨gx, gy, gz, h, ?_⟩
  unfold next
  simp only [comp_eq]
  split <;> simp_all

theorem target_unique {i j k : Idx} (h1 : Target f i j) (h2 : Target f i k) : j = k := by
  obtain ⟨a, b, c, e1, rfl⟩ := h1
  obtain ⟨a', b', c', e2, rfl⟩ := h2
  rw [e1] at e2
  simp only [List.cons.injEq, and_true] at e2
  obtain ⟨rfl, rfl, rfl⟩ := e2
  rfl

/-- The entries set so far are consistent and explained. -/
structure MapOk (f : GradField V) (d : Dims) (m : Grid Extremum) : Prop where
  wf : m.WF
  dims : m.dims = d
  next : ∀ i j, InBounds d i → m.get i ≠ .unset → GStep f d i j → m.get j = m.get i
  expl : ∀ i, InBounds d i → m.get i ≠ .unset → Explains f d i (m.get i)
  flat : ∀ i, InBounds d i → m.get i ≠ .unset → FlatAt f i → m.get i = .center i

/-- The cells of an unfinished path: in bounds, not flat, unset, each leading to the next. -/
inductive Trail (f : GradField V) (d : Dims) (m : Grid Extremum) : List Idx → Prop
  | one {i : Idx} : InBounds d i → ¬ FlatAt f i → m.get i = .unset → Trail f d m [i]
  | cons {i j : Idx} {p : List Idx} : Trail f d m (i :: p) → GStep f d i j → ¬ FlatAt f j →
      m.get j = .unset → j ∉ i :: p → Trail f d m (j :: i :: p)

theorem Trail.nodup {d : Dims} {m : Grid Extremum} {p : List Idx} (h : Trail f d m p) : p.Nodup := by
  induction h with
  | one => simp
  | cons _ _ _ _ hn ih => exact List.nodup_cons.mpr ⟨hn, ih⟩

theorem Trail.good {d : Dims} {m : Grid Extremum} {p : List Idx} (h : Trail f d m p) :
    ∀ x ∈ p, InBounds d x ∧ ¬ FlatAt f x ∧ m.get x = .unset := by
  induction h with
  | one h1 h2 h3 => intro x hx; simp only [List.mem_singleton] at hx; subst hx; exact ⟨h1, h2, h3⟩
  | cons _ hs hf hu _ ih =>
    intro x hx
    rcases List.mem_cons.mp hx with rfl | hx
    · exact ⟨hs.2.2, hf, hu⟩
    · exact ih x hx

theorem Trail.leads {d : Dims} {m : Grid Extremum} {i : Idx} {p : List Idx}
    (h : Trail f d m (i :: p)) : ∀ x ∈ i :: p, Leads f d x i := by
  generalize hq : i :: p = q at h
  induction h generalizing i p with
  | one => intro x hx; simp only [List.cons.injEq] at hq; obtain ⟨rfl, rfl⟩ := hq
           simp only [List.mem_singleton] at hx; subst hx; exact .refl
  | cons ht hs _ _ _ ih =>
    simp only [List.cons.injEq] at hq
    obtain ⟨rfl, rfl⟩ := hq
    intro x hx
    rcases List.mem_cons.mp hx with rfl | hx
    · exact .refl
    · exact (ih rfl x hx).tail hs

/-- Every cell of the path but the last steps to another cell of the path. -/
theorem Trail.steps {d : Dims} {m : Grid Extremum} {i : Idx} {p : List Idx}
    (h : Trail f d m (i :: p)) : ∀ x ∈ i :: p, x = i ∨ ∃ y ∈ i :: p, GStep f d x y := by
  generalize hq : i :: p = q at h
  induction h generalizing i p with
  | one => intro x hx; simp only [List.cons.injEq] at hq; obtain ⟨rfl, rfl⟩ := hq
           left; simpa using hx
  | cons ht hs _ _ _ ih =>
    simp only [List.cons.injEq] at hq
    obtain ⟨rfl, rfl⟩ := hq
    intro x hx
    rcases List.mem_cons.mp hx with rfl | hx
    · left; rfl
    · right
      rcases ih rfl x hx with rfl | ⟨y, hy, hxy⟩
      · exact ⟨_, List.mem_cons_self, hs⟩
      · exact ⟨y, List.mem_cons_of_mem _ hy, hxy⟩

theorem Trail.length {d : Dims} {m : Grid Extremum} {p : List Idx} (h : Trail f d m p) :
    p.length ≤ d.size := by
  rw [← Dims.length_all]
  refine List.Subperm.length_le (h.nodup.subperm ?_)
  intro x hx
  exact Dims.mem_all.mpr (inB_iff_spec.mpr (h.good x hx).1)

theorem gstep_unique {d : Dims} {i j k : Idx} (h1 : GStep f d i j) (h2 : GStep f d i k) : j = k :=
  target_unique h1.2.1 h2.2.1

/-- Marking a set of cells closed under stepping with one explained value keeps the map ok. -/
theorem MapOk.mark {d : Dims} {m : Grid Extremum} (hm : MapOk f d m) (path : List Idx) (e : Extremum)
    (hold : ∀ x ∈ path, m.get x ≠ .unset → m.get x = e)
    (hstep : ∀ x ∈ path, ∀ y, GStep f d x y → y ∈ path ∨ (InBounds d y ∧ m.get y = e ∧ e ≠ .unset))
    (hexpl : ∀ x ∈ path, Explains f d x e)
    (hflat : ∀ x ∈ path, FlatAt f x → e = .center x) :
    MapOk f d (m.setAll path fun _ => e) := by
  have hget : ∀ x, InBounds d x → (m.setAll path fun _ => e).get x = if x ∈ path then e else m.get x := by
    intro x hx
    rw [Grid.get_setAll hm.wf]
    have : m.dims.inB x = true := by rw [hm.dims]; exact inB_iff_spec.mpr hx
    simp [this]
  refine ⟨hm.wf.setAll _ _, by simp [hm.dims], ?_, ?_, ?_⟩
  · intro i j hi hne hs
    rw [hget i hi] at hne ⊢
    rw [hget j hs.2.2]
    by_cases hip : i ∈ path
    · rw [if_pos hip]
      rcases hstep i hip j hs with hj | ⟨_, hj, _⟩
      · rw [if_pos hj]
      · split
        · rfl
        · exact hj
    · rw [if_neg hip] at hne ⊢
      have h1 := hm.next i j hi hne hs
      split
      · rename_i hj
        rw [← hold j hj (by rw [h1]; exact hne), h1]
      · exact h1
  · intro i hi hne
    rw [hget i hi] at hne ⊢
    split
    · rename_i hip; exact hexpl i hip
    · rename_i hip
      rw [if_neg hip] at hne
      exact hm.expl i hi hne
  · intro i hi hne hf
    rw [hget i hi] at hne ⊢
    split
    · rename_i hip; exact hflat i hip hf
    · rename_i hip
      rw [if_neg hip] at hne
      exact hm.flat i hi hne hf

theorem explains_pre {d : Dims} {i j : Idx} {e : Extremum} (h : Leads f d i j)
    (he : Explains f d j e) : Explains f d i e := by
  cases e with
  | unset => exact he
  | offGrid =>
    obtain ⟨a, b, h1, h2, h3, h4⟩ := he
    exact ⟨a, b, h.trans h1, h2, h3, h4⟩
  | center t => exact ⟨h.trans he.1, he.2⟩

theorem walk_ok {d : Dims} {m : Grid Extremum} (hm : MapOk f d m) (hg : HasGradients f d) :
    ∀ (fuel : Nat) (cur : Idx) (p : List Idx) (gx gy gz : V), Trail f d m (cur :: p) →
      f.grad cur = [gx, gy, gz] → d.size + 1 ≤ fuel + p.length →
      ∃ e path, f.walk m fuel (cur :: p) cur gx gy gz = .done e path ∧
        MapOk f d (m.setAll path fun _ => e) ∧ cur :: p ⊆ path ∧ e ≠ .unset ∧
        ∀ x ∈ path, InBounds d x := by
  intro fuel
  induction fuel with
  | zero =>
    intro cur p gx gy gz ht _ hfuel
    have := ht.length
    simp only [List.length_cons] at this
    omega
  | succ fuel ih =>
    intro cur p gx gy gz ht hgr hfuel
    have hgood := ht.good cur List.mem_cons_self
    have htar : Target f cur (f.next cur gx gy gz) := target_next hgr
    have hleads := ht.leads
    have hsteps := ht.steps
    rw [walk]
    set nxt := f.next cur gx gy gz with hnxt
    by_cases hin : nxt ∈ cur :: p
    · -- the path closed a cycle
      rw [if_pos hin]
      have hnb := (ht.good nxt hin).1
      have hst : GStep f d cur nxt := ⟨hgood.2.1, htar, hnb⟩
      refine ⟨_, _, rfl, ?_, List.Subset.refl _, by simp, fun x hx => (ht.good x hx).1⟩
      apply hm.mark
      · intro x hx hu; exact (hu (ht.good x hx).2.2).elim
      · intro x hx y hxy
        left
        rcases hsteps x hx with rfl | ⟨z, hz, hxz⟩
        · rw [gstep_unique hxy hst]; exact hin
        · rw [gstep_unique hxy hxz]; exact hz
      · intro x hx
        refine ⟨(hleads x hx).tail hst, Or.inr ?_⟩
        exact Relation.TransGen.tail' (hleads nxt hin) hst
      · intro x hx hf; exact ((ht.good x hx).2.1 hf).elim
    · rw [if_neg hin]
      by_cases hoob : nxt.x < 0 ∨ nxt.y < 0 ∨ nxt.z < 0 ∨ nxt.x ≥ m.dims.nx ∨ nxt.y ≥ m.dims.ny ∨
          nxt.z ≥ m.dims.nz
      · -- pushed past the edge
        rw [if_pos hoob]
        have hnb : ¬ InBounds d nxt := by
          rw [hm.dims] at hoob
          unfold InBounds; omega
        refine ⟨_, _, rfl, ?_, List.Subset.refl _, by simp, fun x hx => (ht.good x hx).1⟩
        apply hm.mark
        · intro x hx hu; exact (hu (ht.good x hx).2.2).elim
        · intro x hx y hxy
          rcases hsteps x hx with rfl | ⟨z, hz, hxz⟩
          · exfalso
            rw [target_unique hxy.2.1 htar] at hxy
            exact hnb hxy.2.2
          · left; rw [gstep_unique hxy hxz]; exact hz
        · intro x hx
          exact ⟨cur, nxt, hleads x hx, hgood.2.1, htar, hnb⟩
        · intro x hx hf; exact ((ht.good x hx).2.1 hf).elim
      · rw [if_neg hoob]
        have hnb : InBounds d nxt := by
          rw [hm.dims] at hoob
          unfold InBounds; omega
        have hst : GStep f d cur nxt := ⟨hgood.2.1, htar, hnb⟩
        by_cases hset : m.get nxt ≠ .unset
        · -- reached a finished cell
          rw [if_pos hset]
          refine ⟨_, _, rfl, ?_, List.subset_cons_of_subset _ (List.Subset.refl _), hset, ?_⟩
          · apply hm.mark
            · intro x hx hu
              rcases List.mem_cons.mp hx with rfl | hx
              · rfl
              · exact (hu (ht.good x hx).2.2).elim
            · intro x hx y hxy
              rcases List.mem_cons.mp hx with rfl | hx
              · right; exact ⟨hxy.2.2, hm.next _ _ hnb hset hxy, hset⟩
              · left
                rcases hsteps x hx with rfl | ⟨z, hz, hxz⟩
                · rw [gstep_unique hxy hst]; exact List.mem_cons_self
                · rw [gstep_unique hxy hxz]; exact List.mem_cons_of_mem _ hz
            · intro x hx
              have he := hm.expl nxt hnb hset
              rcases List.mem_cons.mp hx with rfl | hx
              · exact he
              · exact explains_pre ((hleads x hx).tail hst) he
            · intro x hx hf
              rcases List.mem_cons.mp hx with rfl | hx
              · exact hm.flat _ hnb hset hf
              · exact ((ht.good x hx).2.1 hf).elim
          · intro x hx
            rcases List.mem_cons.mp hx with rfl | hx
            · exact hnb
            · exact (ht.good x hx).1
        · rw [if_neg hset]
          simp only [ne_eq, not_not] at hset
          obtain ⟨hx, hy, hz, hgn⟩ := list3 (hg nxt hnb)
          rw [hgn]
          dsimp only
          by_cases hfl : f.isFlat hx hy hz = true
          · -- reached a flat cell
            rw [if_pos hfl]
            have hflat : FlatAt f nxt := (flat_iff hgn).mp hfl
            refine ⟨_, _, rfl, ?_, List.subset_cons_of_subset _ (List.Subset.refl _), by simp, ?_⟩
            · apply hm.mark
              · intro x hx' hu
                rcases List.mem_cons.mp hx' with rfl | hx'
                · exact (hu hset).elim
                · exact (hu (ht.good x hx').2.2).elim
              · intro x hx' y hxy
                left
                rcases List.mem_cons.mp hx' with rfl | hx'
                · exact (hxy.1 hflat).elim
                · rcases hsteps x hx' with rfl | ⟨z, hz', hxz⟩
                  · rw [gstep_unique hxy hst]; exact List.mem_cons_self
                  · rw [gstep_unique hxy hxz]; exact List.mem_cons_of_mem _ hz'
              · intro x hx'
                rcases List.mem_cons.mp hx' with rfl | hx'
                · exact ⟨.refl, .inl hflat⟩
                · exact ⟨(hleads x hx').tail hst, .inl hflat⟩
              · intro x hx' hf
                rcases List.mem_cons.mp hx' with rfl | hx'
                · rfl
                · exact ((ht.good x hx').2.1 hf).elim
            · intro x hx'
              rcases List.mem_cons.mp hx' with rfl | hx'
              · exact hnb
              · exact (ht.good x hx').1
          · -- one more step
            rw [if_neg hfl]
            have hnf : ¬ FlatAt f nxt := fun h => hfl ((flat_iff hgn).mpr h)
            obtain ⟨e, path, h1, h2, h3, h4, h5⟩ := ih nxt (cur :: p) hx hy hz
              (.cons ht hst hnf hset hin) hgn (by simp only [List.length_cons]; omega)
            exact ⟨e, path, h1, h2, fun x hx' => h3 (List.mem_cons_of_mem _ hx'), h4, h5⟩

theorem follow_ok {d : Dims} {m : Grid Extremum} (hm : MapOk f d m) (hg : HasGradients f d) {i : Idx}
    (hi : InBounds d i) :
    ∃ m', f.follow m i = some m' ∧ MapOk f d m' ∧ m'.get i ≠ .unset ∧
      ∀ j, InBounds d j → m.get j ≠ .unset → m'.get j ≠ .unset := by
  unfold follow
  by_cases hset : m.get i ≠ .unset
  · rw [if_pos hset]; exact ⟨m, rfl, hm, hset, fun _ _ h => h⟩
  · rw [if_neg hset]
    simp only [ne_eq, not_not] at hset
    obtain ⟨gx, gy, gz, hgr⟩ := list3 (hg i hi)
    rw [hgr]
    dsimp only
    have hib : m.dims.inB i = true := by rw [hm.dims]; exact inB_iff_spec.mpr hi
    by_cases hfl : f.isFlat gx gy gz = true
    · rw [if_pos hfl]
      have hflat : FlatAt f i := (flat_iff hgr).mp hfl
      have e : m.set i (.center i) = m.setAll [i] (fun _ => .center i) := by simp
      refine ⟨_, rfl, ?_, ?_, ?_⟩
      · rw [e]
        apply hm.mark
        · intro x hx hu; simp only [List.mem_singleton] at hx; subst hx; exact (hu hset).elim
        · intro x hx y hxy; simp only [List.mem_singleton] at hx; subst hx; exact (hxy.1 hflat).elim
        · intro x hx; simp only [List.mem_singleton] at hx; subst hx; exact ⟨.refl, .inl hflat⟩
        · intro x hx _; simp only [List.mem_singleton] at hx; subst hx; rfl
      · rw [Grid.get_set_self hm.wf hib]; simp
      · intro j hj hu
        rw [Grid.get_set hm.wf]
        split
        · simp
        · exact hu
    · rw [if_neg hfl]
      have hnf : ¬ FlatAt f i := fun h => hfl ((flat_iff hgr).mpr h)
      obtain ⟨e, path, h1, h2, h3, h4, h5⟩ := walk_ok hm hg (m.dims.size + 1) i [] gx gy gz
        (.one hi hnf hset) hgr (by rw [hm.dims]; simp)
      rw [h1]
      have hget : ∀ x, InBounds d x →
          (m.setAll path fun _ => e).get x = if x ∈ path then e else m.get x := by
        intro x hx
        rw [Grid.get_setAll hm.wf]
        have : m.dims.inB x = true := by rw [hm.dims]; exact inB_iff_spec.mpr hx
        simp [this]
      refine ⟨_, rfl, h2, ?_, ?_⟩
      · rw [hget i hi, if_pos (h3 List.mem_cons_self)]; exact h4
      · intro j hj hu
        rw [hget j hj]
        split
        · exact h4
        · exact hu

theorem fold_ok {d : Dims} (hg : HasGradients f d) : ∀ (l : List Idx) (m : Grid Extremum),
    (∀ i ∈ l, InBounds d i) → MapOk f d m →
    ∃ m', l.foldlM (fun m i => f.follow m i) m = some m' ∧ MapOk f d m' ∧
      (∀ i ∈ l, m'.get i ≠ .unset) ∧ ∀ j, InBounds d j → m.get j ≠ .unset → m'.get j ≠ .unset := by
  intro l
  induction l with
  | nil => intro m _ hm; exact ⟨m, rfl, hm, by simp, fun _ _ h => h⟩
  | cons i l ih =>
    intro m hl hm
    obtain ⟨m1, h1, h2, h3, h4⟩ := follow_ok hm hg (hl i List.mem_cons_self)
    obtain ⟨m2, g1, g2, g3, g4⟩ := ih m1 (fun j hj => hl j (List.mem_cons_of_mem _ hj)) h2
    refine ⟨m2, ?_, g2, ?_, fun j hj h => g4 j hj (h4 j hj h)⟩
    · rw [List.foldlM_cons, h1]; exact g1
    · intro j hj
      rcases List.mem_cons.mp hj with rfl | hj
      · exact g4 _ (hl _ List.mem_cons_self) h3
      · exact g3 j hj

end GradField

/-- C27.  For every gradient field with three-component gradients (cycles, infinities and NaN
included) the computation ends without an out-of-range read, and in the resulting map:
a flat cell maps to its own centre; a cell whose step leaves the grid maps to `+inf`; every other
cell has the entry of the cell its gradient points to; no cell keeps the initial marker; and every
entry is explained by following the gradient from the cell. -/
theorem C27_extrema_map {V : Type} (f : GradField V) (d : Dims) (hg : HasGradients f d) :
    ∃ m, f.extremaMap d = some m ∧ m.dims = d ∧ ∀ i, InBounds d i →
      m.get i ≠ .unset ∧
      (FlatAt f i → m.get i = .center i) ∧
      (∀ j, ¬ FlatAt f i → Target f i j → ¬ InBounds d j → m.get i = .offGrid) ∧
      (∀ j, ¬ FlatAt f i → Target f i j → InBounds d j → m.get i = m.get j) ∧
      Explains f d i (m.get i) := by
  have h0 : GradField.MapOk f d (Grid.mk' d .unset .unset) := by
    have hu : ∀ i, (Grid.mk' d Extremum.unset Extremum.unset).get i = .unset := by
      intro i; rw [Grid.get_mk']; split <;> rfl
    exact ⟨Grid.wf_mk' _ _ _, rfl, fun i j _ h => (h (hu i)).elim, fun i _ h => (h (hu i)).elim,
      fun i _ h => (h (hu i)).elim⟩
  obtain ⟨m, h1, h2, h3, -⟩ := GradField.fold_ok hg d.all _
    (fun i hi => inB_iff_spec.mp (Dims.mem_all.mp hi)) h0
  refine ⟨m, h1, h2.dims, ?_⟩
  intro i hi
  have hne := h3 i (Dims.mem_all.mpr (inB_iff_spec.mpr hi))
  refine ⟨hne, h2.flat i hi hne, ?_, ?_, h2.expl i hi hne⟩
  · intro j hf ht hj
    -- the explanation cannot be a centre: the only step from `i` leaves the grid
    have he := h2.expl i hi hne
    revert he
    have noStep : ∀ k, ¬ GStep f d i k := by
      intro k hk
      rw [GradField.target_unique hk.2.1 ht] at hk
      exact hj hk.2.2
    cases hm : m.get i with
    | unset => exact fun h => h.elim
    | offGrid => exact fun _ => rfl
    | center t =>
      rintro ⟨h4, h5⟩
      exfalso
      have hit : i = t := by
        rcases Relation.ReflTransGen.cases_head h4 with rfl | ⟨k, hk, _⟩
        · rfl
        · exact (noStep k hk).elim
      subst hit
      rcases h5 with h5 | h5
      · exact hf h5
      · obtain ⟨k, hk, _⟩ := Relation.TransGen.head'_iff.mp h5
        exact noStep k hk
  · intro j hf ht hj
    exact (h2.next i j hi hne ⟨hf, ht, hj⟩).symm

/-- C27 for signed distance fields: the gradients exist because edge gradients are enabled. -/
theorem C27_sdf {K : Type} [Field K] [LinearOrder K] [IsStrictOrderedRing K] (s : MSdf K) :
    HasGradients s.gradField s.grid.dims := by
  intro i hi
  exact (C23_when s i true).mpr ⟨hi, .inl rfl⟩

theorem GradField.walk_avoids {V : Type} {f : GradField V} {m : Grid Extremum} {i : Idx}
    (hu : m.get i = .unset) (hl : (f.grad i).length ≠ 3) :
    ∀ (fuel : Nat) (p : List Idx) (cur : Idx) (gx gy gz : V) (e : Extremum) (path : List Idx),
      i ∉ p → f.walk m fuel p cur gx gy gz = .done e path → i ∉ path := by
  intro fuel
  induction fuel with
  | zero => intro p cur gx gy gz e path _ h; simp [walk] at h
  | succ fuel ih =>
    intro p cur gx gy gz e path hp h
    rw [walk] at h
    split at h
    · simp only [Walk.done.injEq] at h; rw [← h.2]; exact hp
    · split at h
      · simp only [Walk.done.injEq] at h; rw [← h.2]; exact hp
      · split at h
        · rename_i hset
          simp only [Walk.done.injEq] at h
          rw [← h.2]
          simp only [List.mem_cons, not_or]
          exact ⟨fun e => hset (e ▸ hu), hp⟩
        · split at h
          · rename_i hx hy hz hgn
            have hne : i ≠ f.next cur gx gy gz := by
              intro e; rw [e, hgn] at hl; simp at hl
            have hp' : i ∉ f.next cur gx gy gz :: p := by
              simp only [List.mem_cons, not_or]; exact ⟨hne, hp⟩
            split at h
            · simp only [Walk.done.injEq] at h; rw [← h.2]; exact hp'
            · exact ih _ _ _ _ _ _ _ hp' h
          · simp at h

theorem GradField.follow_avoids {V : Type} {f : GradField V} {m m' : Grid Extremum} {i j : Idx}
    (hw : m.WF) (hu : m.get i = .unset) (hl : (f.grad i).length ≠ 3) (h : f.follow m j = some m') :
    m'.WF ∧ m'.get i = .unset ∧ j ≠ i := by
  unfold follow at h
  by_cases hji : j = i
  · subst hji
    simp only [hu, ne_eq, not_true_eq_false, if_false] at h
    split at h
    · rename_i hg; rw [hg] at hl; simp at hl
    · simp at h
  · split at h
    · simp only [Option.some.injEq] at h; subst h; exact ⟨hw, hu, hji⟩
    · split at h
      · split at h
        · simp only [Option.some.injEq] at h; subst h
          refine ⟨hw.set _ _, ?_, hji⟩
          rw [Grid.get_set hw]
          simp [hji, hu]
        · split at h
          · rename_i hwk
            simp only [Option.some.injEq] at h; subst h
            have := GradField.walk_avoids hu hl _ _ _ _ _ _ _ _ (by simpa using Ne.symm hji) hwk
            refine ⟨hw.setAll _ _, ?_, hji⟩
            rw [Grid.get_setAll hw]
            simp [this, hu]
          · simp at h
      · simp at h

/-- C27, the size caveat.  If the map has a cell that the field lacks (the code rebuilds the cell
counts from the metric sizes), the computation reads an empty gradient out of range. -/
theorem C27_larger_map_is_ub {K : Type} [Field K] [LinearOrder K] [IsStrictOrderedRing K]
    (s : MSdf K) (d : Dims) (i : Idx) (hd : InBounds d i) (hs : ¬ InBounds s.grid.dims i) :
    s.gradField.extremaMap d = none := by
  have hl : (s.gradField.grad i).length ≠ 3 := by
    intro h
    exact hs ((C23_when s i true).mp h).1
  have key : ∀ (l : List Idx) (m : Grid Extremum), m.WF → m.get i = .unset → i ∈ l →
      l.foldlM (fun m i => s.gradField.follow m i) m = none := by
    intro l
    induction l with
    | nil => intro m _ _ h; simp at h
    | cons j l ih =>
      intro m hw hu hi
      rw [List.foldlM_cons]
      cases hf : s.gradField.follow m j with
      | none => rfl
      | some m' =>
        obtain ⟨h1, h2, h3⟩ := GradField.follow_avoids hw hu hl hf
        exact ih m' h1 h2 ((List.mem_cons.mp hi).resolve_left (Ne.symm h3))
  refine key _ _ (Grid.wf_mk' _ _ _) ?_ (Dims.mem_all.mpr (inB_iff_spec.mpr hd))
  rw [Grid.get_mk']; split <;> rfl

example : InBounds ⟨4, 2, 2⟩ ⟨3, 0, 0⟩ ∧ ¬ InBounds exSdf.grid.dims ⟨3, 0, 0⟩ := by
  unfold InBounds exSdf; decide

/-- The extrema map of the 4x1x1 corridor `filled, free, free, filled`: the two free cells point at
each other (a cycle), the filled cells point off the grid. -/
def cyc : MSdf ℚ where
  grid := ⟨⟨4, 1, 1⟩, [-1, 1, 1, -1], 0, 9⟩
  res := 1
  origin := ⟨⟨1, 0, 0⟩, ⟨0, 1, 0⟩, ⟨0, 0, 1⟩, ⟨0, 0, 0⟩⟩
  inv := ⟨⟨1, 0, 0⟩, ⟨0, 1, 0⟩, ⟨0, 0, 1⟩, ⟨0, 0, 0⟩⟩

example : (cyc.gradField.extremaMap ⟨4, 1, 1⟩).map (fun m => m.data) =
    some [.offGrid, .center ⟨1, 0, 0⟩, .center ⟨1, 0, 0⟩, .offGrid] := by
  decide +kernel

/-! ## C54: the map should not depend on how the grid is placed in the world -/

/-- C54 as stated: two fields with the same cells and resolution have the same extrema map (its
entries are in the grid frame), however their origins are rotated. -/
def C54Statement : Prop :=
  ∀ s t : MSdf ℚ, RigidFrame s → RigidFrame t → s.grid = t.grid → s.res = t.res →
    s.gradField.extremaMap s.grid.dims = t.gradField.extremaMap t.grid.dims

/-- A 3x2x1 field rising along x: 1, 2, 2. -/
def rising (o i : Aff ℚ) : MSdf ℚ where
  grid := ⟨⟨3, 2, 1⟩, [1, 1, 2, 2, 2, 2], 0, 9⟩
  res := 1
  origin := o
  inv := i

/-- C54 is violated: the steps follow the world-frame gradient, so rotating the grid by a quarter
turn changes the map. -/
theorem C54_false : ¬ C54Statement := by
  intro h
  have := h (rising ⟨⟨1, 0, 0⟩, ⟨0, 1, 0⟩, ⟨0, 0, 1⟩, ⟨0, 0, 0⟩⟩ ⟨⟨1, 0, 0⟩, ⟨0, 1, 0⟩, ⟨0, 0, 1⟩, ⟨0, 0, 0⟩⟩)
    (rising ⟨⟨0, -1, 0⟩, ⟨1, 0, 0⟩, ⟨0, 0, 1⟩, ⟨0, 0, 0⟩⟩ ⟨⟨0, 1, 0⟩, ⟨-1, 0, 0⟩, ⟨0, 0, 1⟩, ⟨0, 0, 0⟩⟩)
    ?_ ?_ rfl rfl
  · revert this
    decide +kernel
  · constructor
    · intro p; ext <;> simp [rising, MSdf.toWorld, MSdf.toGrid, Aff.app]
    · intro p; ext <;> simp [rising, MSdf.toWorld, MSdf.toGrid, Aff.app]
    · intro p q; simp [rising, MSdf.toWorld, Aff.app, sqDist3]
  · constructor
    · intro p; ext <;> simp [rising, MSdf.toWorld, MSdf.toGrid, Aff.app]
    · intro p; ext <;> simp [rising, MSdf.toWorld, MSdf.toGrid, Aff.app]
    · intro p q; simp [rising, MSdf.toWorld, Aff.app, sqDist3]; ring

/-- C54 (part).  Translations do not matter: fields whose origins have the same rotation part have
the same map.  Missing: different rotations, where it is false (`C54_false`). -/
theorem C54_translation_partial {K : Type} [Field K] [LinearOrder K] (s t : MSdf K)
    (hg : s.grid = t.grid) (hr : s.res = t.res) (hl : ∀ v, s.origin.lin v = t.origin.lin v) :
    s.gradField.extremaMap s.grid.dims = t.gradField.extremaMap t.grid.dims := by
  have hgg : ∀ i e, s.gridGrad i e = t.gridGrad i e := by
    intro i e; unfold MSdf.gridGrad; rw [hg, hr]
  have : s.gradField = t.gradField := by
    unfold MSdf.gradField
    have h1 : (fun i => s.gradient i true) = fun i => t.gradient i true := by
      funext i
      unfold MSdf.gradient
      rw [hgg]
      split
      · simp only [hl]
      · rfl
    rw [h1, hg, hr]
  rw [this, hg]

example : ∃ s t : MSdf ℚ, s.grid = t.grid ∧ s.res = t.res ∧ (∀ v, s.origin.lin v = t.origin.lin v) ∧
    s.origin.t ≠ t.origin.t :=
  ⟨rising ⟨⟨0, -1, 0⟩, ⟨1, 0, 0⟩, ⟨0, 0, 1⟩, ⟨0, 0, 0⟩⟩ ⟨⟨0, 1, 0⟩, ⟨-1, 0, 0⟩, ⟨0, 0, 1⟩, ⟨0, 0, 0⟩⟩,
    rising ⟨⟨0, -1, 0⟩, ⟨1, 0, 0⟩, ⟨0, 0, 1⟩, ⟨3, 0, 0⟩⟩ ⟨⟨0, 1, 0⟩, ⟨-1, 0, 0⟩, ⟨0, 0, 1⟩, ⟨0, 3, 0⟩⟩,
    rfl, rfl, fun _ => rfl, by decide +kernel⟩

end Verif
