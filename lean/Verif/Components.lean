import Verif.Grid
import Verif.Spec.Regions
import Mathlib.Logic.Relation
import Mathlib.Data.List.Perm.Subperm
import Mathlib.Data.List.Nodup

/-!
# Connected components

Model of `MarkConnectedComponent` and `ComputeConnectedComponents`
(`include/sdf_tools/topology_computation.hpp:24-149`).

The C++ templates take three closures over some mutable state (the grid being labelled).  The model
takes the same three functions over an abstract state `σ`.
-/

namespace Verif

/-- `2^32`, the modulus of `uint32_t`. -/
def u32 : Nat := 2 ^ 32

/-- The closures handed to `ComputeConnectedComponents`
(`include/sdf_tools/topology_computation.hpp:93-99`). -/
structure CompFns (σ : Type) where
  /-- `are_connected_fn` -/
  conn : σ → Idx → Idx → Bool
  /-- `get_component_fn` (returns `int64_t`) -/
  getC : σ → Idx → Int
  /-- `mark_component_fn` (label is a `uint32_t`) -/
  mark : σ → Idx → Nat → σ

/-- The six face neighbours in the order of
`include/sdf_tools/topology_computation.hpp:66-72`. -/
def faceNbrs (i : Idx) : List Idx :=
  [⟨i.x - 1, i.y, i.z⟩, ⟨i.x + 1, i.y, i.z⟩, ⟨i.x, i.y - 1, i.z⟩,
   ⟨i.x, i.y + 1, i.z⟩, ⟨i.x, i.y, i.z - 1⟩, ⟨i.x, i.y, i.z + 1⟩]

namespace CompFns

variable {σ : Type}

/-- One iteration of the neighbour loop
(`include/sdf_tools/topology_computation.hpp:73-87`).  `get_component_fn` has result type
`uint32_t` in this function, so the `int64_t` result is reduced modulo `2^32`.
The hash table of queued indices is the list `seen`. -/
def visit (F : CompFns σ) (s : σ) (cur : Idx) (qs : List Idx × List Idx) (n : Idx) :
    List Idx × List Idx :=
  if F.getC s n % (u32 : Int) = 0 then
    if F.conn s cur n then
      if n ∈ qs.2 then qs else (qs.1 ++ [n], n :: qs.2)
    else qs
  else qs

/-- The work loop (`include/sdf_tools/topology_computation.hpp:54-88`).  `fuel` bounds the number of
iterations; `none` means that the loop had not finished. -/
def markLoop (F : CompFns σ) (lbl : Nat) : Nat → σ → List Idx → List Idx → Option σ
  | _, s, [], _ => some s
  | 0, _, _ :: _, _ => none
  | fuel + 1, s, cur :: q, seen =>
    let s' := F.mark s cur lbl
    let qs := (faceNbrs cur).foldl (F.visit s' cur) (q, seen)
    markLoop F lbl fuel s' qs.1 qs.2

/-- `MarkConnectedComponent` (`include/sdf_tools/topology_computation.hpp:24-90`).  The second
component is the returned `marked_cells`, which the C++ code never increments. -/
def markCC (F : CompFns σ) (fuel : Nat) (s : σ) (start : Idx) (lbl : Nat) : Option (σ × Int) :=
  (F.markLoop lbl fuel s [start] [start]).map fun s' => (s', 0)

/-- Reset loop (`include/sdf_tools/topology_computation.hpp:101-112`). -/
def reset (F : CompFns σ) (d : Dims) (s : σ) : σ :=
  d.all.foldl (fun s i => F.mark s i 0) s

/-- Sweep (`include/sdf_tools/topology_computation.hpp:113-148`), with the short circuit on
`marked_cells == total_cells`.  `connected_components` is a `uint32_t`. -/
def sweep (F : CompFns σ) (fuel : Nat) (total : Int) :
    List Idx → σ → Nat → Int → Option (σ × Nat)
  | [], s, n, _ => some (s, n)
  | i :: l, s, n, m =>
    if F.getC s i = 0 then
      let n' := (n + 1) % u32
      match F.markCC fuel s i n' with
      | none => none
      | some (s', c) =>
        let m' := m + c
        if m' = total then some (s', n') else sweep F fuel total l s' n' m'
    else sweep F fuel total l s n m

/-- `ComputeConnectedComponents` (`include/sdf_tools/topology_computation.hpp:92-149`).
Result `none` stands for non-termination of one of the flood fills; `fuel` is the iteration bound
given to each. -/
def computeCCFuel (F : CompFns σ) (fuel : Nat) (d : Dims) (s : σ) : Option (σ × Nat) :=
  F.sweep fuel (d.size : Int) d.all (F.reset d s) 0 0

/-- `ComputeConnectedComponents` with the iteration bound that always suffices
(`computeCC_spec`): one iteration per cell. -/
def computeCC (F : CompFns σ) (d : Dims) (s : σ) : Option (σ × Nat) :=
  F.computeCCFuel d.size d s

end CompFns

/-! ## Proof of correctness -/

theorem faceNbrs_symm {i j : Idx} (h : j ∈ faceNbrs i) : i ∈ faceNbrs j := by
  simp only [faceNbrs, List.mem_cons, List.not_mem_nil, or_false] at *
  rcases h with h | h | h | h | h | h <;> subst h <;> simp

theorem length_le_size {d : Dims} {l : List Idx} (hn : l.Nodup) (h : ∀ i ∈ l, d.inB i = true) :
    l.length ≤ d.size := by
  rw [← Dims.length_all]
  exact (List.subperm_of_subset hn (fun i hi => Dims.mem_all.mpr (h i hi))).length_le

/-- What the closures must satisfy: labels behave like an array over the eligible cells, cells that
are not eligible are never reported as unlabelled, connectivity does not depend on labels. -/
structure CompFns.Lawful {σ : Type} (F : CompFns σ) (d : Dims) (ok : σ → Prop)
    (elig : Idx → Prop) (adj : Idx → Idx → Prop) : Prop where
  elig_inB : ∀ i, elig i → d.inB i = true
  ok_mark : ∀ s i c, ok s → d.inB i = true → ok (F.mark s i c)
  get_mark_self : ∀ s i c, ok s → elig i → c < u32 → F.getC (F.mark s i c) i = c
  get_mark_ne : ∀ s i j c, ok s → i ≠ j → F.getC (F.mark s i c) j = F.getC s j
  get_range : ∀ s i, ok s → elig i → 0 ≤ F.getC s i ∧ F.getC s i < u32
  get_inelig : ∀ s i, ok s → ¬ elig i → F.getC s i = -1
  conn_iff : ∀ s i j, ok s → elig i → elig j → j ∈ faceNbrs i → (F.conn s i j = true ↔ adj i j)
  adj_symm : ∀ i j, elig i → elig j → j ∈ faceNbrs i → adj i j → adj j i

namespace CompFns

variable {σ : Type} {F : CompFns σ} {d : Dims} {ok : σ → Prop} {elig : Idx → Prop}
  {adj : Idx → Idx → Prop}

/-- One admissible step between face-adjacent eligible cells. -/
def Step (elig : Idx → Prop) (adj : Idx → Idx → Prop) (i j : Idx) : Prop :=
  elig i ∧ elig j ∧ j ∈ faceNbrs i ∧ adj i j

theorem Lawful.step_symm (L : F.Lawful d ok elig adj) {i j : Idx} (h : Step elig adj i j) :
    Step elig adj j i :=
  ⟨h.2.1, h.1, faceNbrs_symm h.2.2.1, L.adj_symm _ _ h.1 h.2.1 h.2.2.1 h.2.2.2⟩

open Relation

abbrev Conn (elig : Idx → Prop) (adj : Idx → Idx → Prop) := ReflTransGen (Step elig adj)

theorem Lawful.conn_symm (L : F.Lawful d ok elig adj) {i j : Idx} (h : Conn elig adj i j) :
    Conn elig adj j i := by
  induction h with
  | refl => exact ReflTransGen.refl
  | tail _ hs ih => exact ReflTransGen.head (L.step_symm hs) ih

/-- Invariant of the flood fill relative to the state `s0` in which it started. -/
structure MarkInv (F : CompFns σ) (ok : σ → Prop) (elig : Idx → Prop)
    (adj : Idx → Idx → Prop) (start : Idx) (lbl : Nat) (s0 s : σ) (q seen : List Idx) : Prop where
  ok' : ok s
  nodup : seen.Nodup
  qnodup : q.Nodup
  qsub : ∀ j ∈ q, j ∈ seen
  mem_start : start ∈ seen
  sound : ∀ j ∈ seen, elig j ∧ F.getC s0 j = 0 ∧ Conn elig adj start j
  value : ∀ j, F.getC s j = if j ∈ seen ∧ j ∉ q then (lbl : Int) else F.getC s0 j
  closed : ∀ j ∈ seen, j ∉ q → ∀ n, Step elig adj j n → F.getC s0 n = 0 → n ∈ seen

/-- Effect of the neighbour loop. -/
theorem visit_fold (L : F.Lawful d ok elig adj) {s : σ} {cur : Idx} (hs : ok s) (hc : elig cur)
    (l : List Idx) (hl : ∀ n ∈ l, n ∈ faceNbrs cur) (q seen : List Idx)
    (hq : q.Nodup) (hseen : seen.Nodup) (hsub : ∀ j ∈ q, j ∈ seen) :
    let r := l.foldl (F.visit s cur) (q, seen)
    r.1.Nodup ∧ r.2.Nodup ∧ (∀ j ∈ r.1, j ∈ r.2) ∧
    (∀ j, j ∈ r.2 ↔ j ∈ seen ∨ (j ∈ l ∧ Step elig adj cur j ∧ F.getC s j = 0)) ∧
    (∀ j, j ∈ r.1 ↔ j ∈ q ∨ (j ∉ seen ∧ j ∈ r.2)) ∧
    r.1.length + seen.length = q.length + r.2.length := by
  induction l generalizing q seen with
  | nil => simp [hq, hseen]; exact hsub
  | cons n l ih =>
    have hn : n ∈ faceNbrs cur := hl n (List.mem_cons_self ..)
    have hl' : ∀ m ∈ l, m ∈ faceNbrs cur := fun m hm => hl m (List.mem_cons_of_mem _ hm)
    simp only [List.foldl_cons]
    have hcond : (F.getC s n % (u32 : Int) = 0 ∧ F.conn s cur n = true) ↔
        (Step elig adj cur n ∧ F.getC s n = 0) := by
      by_cases he : elig n
      · have hr := L.get_range s n hs he
        have : F.getC s n % (u32 : Int) = F.getC s n := Int.emod_eq_of_lt hr.1 hr.2
        rw [this, L.conn_iff s cur n hs hc he hn]
        constructor
        · rintro ⟨h1, h2⟩; exact ⟨⟨hc, he, hn, h2⟩, h1⟩
        · rintro ⟨h1, h2⟩; exact ⟨h2, h1.2.2.2⟩
      · rw [L.get_inelig s n hs he]
        constructor
        · rintro ⟨h1, _⟩; exact absurd h1 (by decide)
        · rintro ⟨h1, _⟩; exact absurd h1.2.1 he
    by_cases hv : (Step elig adj cur n ∧ F.getC s n = 0)
    · have hcv := hcond.mpr hv
      by_cases hm : n ∈ seen
      · have hvis : F.visit s cur (q, seen) n = (q, seen) := by
          simp [visit, hm]
        rw [hvis]
        have := ih hl' q seen hq hseen hsub
        obtain ⟨a, b, c, e, f, g⟩ := this
        refine ⟨a, b, c, ?_, f, g⟩
        intro j
        rw [e]
        constructor
        · rintro (h | ⟨h1, h2⟩)
          · exact Or.inl h
          · exact Or.inr ⟨List.mem_cons_of_mem _ h1, h2⟩
        · rintro (h | ⟨h1, h2⟩)
          · exact Or.inl h
          · rcases List.mem_cons.mp h1 with rfl | h1
            · exact Or.inl hm
            · exact Or.inr ⟨h1, h2⟩
      · have hvis : F.visit s cur (q, seen) n = (q ++ [n], n :: seen) := by
          simp [visit, hm, hcv.1, hcv.2]
        rw [hvis]
        have hnq : n ∉ q := fun h => hm (hsub n h)
        have := ih hl' (q ++ [n]) (n :: seen)
          (by rw [List.nodup_append]; refine ⟨hq, by simp, ?_⟩; intro a ha b hb; simp at hb; subst hb
              rintro rfl; exact hnq ha)
          (List.nodup_cons.mpr ⟨hm, hseen⟩)
          (by intro j hj; rw [List.mem_append] at hj; rcases hj with hj | hj
              · exact List.mem_cons_of_mem _ (hsub j hj)
              · simp at hj; subst hj; exact List.mem_cons_self ..)
        obtain ⟨a, b, c, e, f, g⟩ := this
        refine ⟨a, b, c, ?_, ?_, ?_⟩
        · intro j
          rw [e]
          constructor
          · rintro (h | ⟨h1, h2⟩)
            · rcases List.mem_cons.mp h with rfl | h
              · exact Or.inr ⟨List.mem_cons_self .., hv⟩
              · exact Or.inl h
            · exact Or.inr ⟨List.mem_cons_of_mem _ h1, h2⟩
          · rintro (h | ⟨h1, h2⟩)
            · exact Or.inl (List.mem_cons_of_mem _ h)
            · rcases List.mem_cons.mp h1 with rfl | h1
              · exact Or.inl (List.mem_cons_self ..)
              · exact Or.inr ⟨h1, h2⟩
        · intro j
          rw [f]
          constructor
          · rintro (h | ⟨h1, h2⟩)
            · rw [List.mem_append] at h
              rcases h with h | h
              · exact Or.inl h
              · simp at h; subst h
                refine Or.inr ⟨hm, ?_⟩
                rw [e]; exact Or.inl (List.mem_cons_self ..)
            · exact Or.inr ⟨fun h => h1 (List.mem_cons_of_mem _ h), h2⟩
          · rintro (h | ⟨h1, h2⟩)
            · exact Or.inl (List.mem_append_left _ h)
            · by_cases hjn : j = n
              · subst hjn; exact Or.inl (List.mem_append_right _ (by simp))
              · refine Or.inr ⟨?_, h2⟩
                intro h; rcases List.mem_cons.mp h with h | h
                · exact hjn h
                · exact h1 h
        · simp only [List.length_append, List.length_cons, List.length_nil] at g
          omega
    · have hvis : F.visit s cur (q, seen) n = (q, seen) := by
        have hc' : ¬ (F.getC s n % (u32 : Int) = 0 ∧ F.conn s cur n = true) := fun h => hv (hcond.mp h)
        by_cases h1 : F.getC s n % (u32 : Int) = 0
        · have h2 : ¬ F.conn s cur n = true := fun h => hc' ⟨h1, h⟩
          simp [visit, h1, h2]
        · simp [visit, h1]
      rw [hvis]
      obtain ⟨a, b, c, e, f, g⟩ := ih hl' q seen hq hseen hsub
      refine ⟨a, b, c, ?_, f, g⟩
      intro j
      rw [e]
      constructor
      · rintro (h | ⟨h1, h2⟩)
        · exact Or.inl h
        · exact Or.inr ⟨List.mem_cons_of_mem _ h1, h2⟩
      · rintro (h | ⟨h1, h2⟩)
        · exact Or.inl h
        · rcases List.mem_cons.mp h1 with rfl | h1
          · exact absurd h2 hv
          · exact Or.inr ⟨h1, h2⟩

theorem MarkInv.step (L : F.Lawful d ok elig adj) {start : Idx} {lbl : Nat} {s0 s : σ}
    {cur : Idx} {q seen : List Idx} (hl0 : lbl ≠ 0) (hl : lbl < u32)
    (h : MarkInv F ok elig adj start lbl s0 s (cur :: q) seen) :
    let s' := F.mark s cur lbl
    let r := (faceNbrs cur).foldl (F.visit s' cur) (q, seen)
    MarkInv F ok elig adj start lbl s0 s' r.1 r.2 ∧
      r.1.length + seen.length = q.length + r.2.length := by
  intro s' r
  have hcs : cur ∈ seen := h.qsub cur (List.mem_cons_self ..)
  obtain ⟨hce, hc0, hcc⟩ := h.sound cur hcs
  have hok' : ok s' := L.ok_mark s cur lbl h.ok' (L.elig_inB _ hce)
  have hqn := List.nodup_cons.mp h.qnodup
  have hself : F.getC s' cur = lbl := L.get_mark_self s cur lbl h.ok' hce hl
  have hne : ∀ j, j ≠ cur → F.getC s' j = F.getC s j :=
    fun j hj => L.get_mark_ne s cur j lbl h.ok' (Ne.symm hj)
  obtain ⟨a, b, c, e, f, g⟩ := visit_fold L hok' hce (faceNbrs cur) (fun _ h => h) q seen hqn.2
    h.nodup (fun j hj => h.qsub j (List.mem_cons_of_mem _ hj))
  have hlz : (lbl : Int) ≠ 0 := by exact_mod_cast hl0
  have hzero : ∀ j, F.getC s' j = 0 → F.getC s0 j = 0 := by
    intro j hj
    by_cases hjc : j = cur
    · subst hjc; exact hc0
    · rw [hne j hjc, h.value] at hj
      split at hj
      · exact absurd hj hlz
      · exact hj
  refine ⟨⟨hok', b, a, c, ?_, ?_, ?_, ?_⟩, g⟩
  · exact (e _).mpr (Or.inl h.mem_start)
  · intro j hj
    rcases (e j).mp hj with hj | ⟨_, hst, hj0⟩
    · exact h.sound j hj
    · exact ⟨hst.2.1, hzero j hj0, ReflTransGen.tail hcc hst⟩
  · intro j
    by_cases hjc : j = cur
    · subst hjc
      have : j ∈ r.2 ∧ j ∉ r.1 := by
        refine ⟨(e _).mpr (Or.inl hcs), ?_⟩
        intro hj
        rcases (f j).mp hj with hj | ⟨hj, _⟩
        · exact hqn.1 hj
        · exact hj hcs
      rw [hself]; simp [this]
    · rw [hne j hjc, h.value]
      by_cases hjs : j ∈ seen
      · have h1 : j ∈ r.2 := (e _).mpr (Or.inl hjs)
        have h2 : j ∈ r.1 ↔ j ∈ q := by
          rw [f]; constructor
          · rintro (h | ⟨h, _⟩)
            · exact h
            · exact absurd hjs h
          · exact Or.inl
        simp [hjs, h1, h2, hjc]
      · have h2 : ¬ (j ∈ r.2 ∧ j ∉ r.1) := by
          rintro ⟨h1, h2⟩
          exact h2 ((f j).mpr (Or.inr ⟨hjs, h1⟩))
        simp [hjs, h2]
  · intro j hj hjq n hst hn0
    by_cases hjs : j ∈ seen
    · by_cases hjc : j = cur
      · subst hjc
        by_cases hns : n ∈ seen
        · exact (e n).mpr (Or.inl hns)
        · refine (e n).mpr (Or.inr ⟨hst.2.2.1, hst, ?_⟩)
          have hnj : n ≠ j := by rintro rfl; exact hns hcs
          rw [hne n hnj, h.value]
          simp [hns, hn0]
      · have hjq' : j ∉ cur :: q := by
          intro hh
          rcases List.mem_cons.mp hh with hh | hh
          · exact hjc hh
          · exact hjq ((f j).mpr (Or.inl hh))
        exact (e n).mpr (Or.inl (h.closed j hjs hjq' n hst hn0))
    · exact absurd ((f j).mpr (Or.inr ⟨hjs, hj⟩)) hjq

/-- The flood fill terminates and labels exactly the region of its start cell. -/
theorem markLoop_spec (L : F.Lawful d ok elig adj) {start : Idx} {lbl : Nat} {s0 : σ}
    (hl0 : lbl ≠ 0) (hl : lbl < u32) (fuel : Nat) :
    ∀ (s : σ) (q seen : List Idx), MarkInv F ok elig adj start lbl s0 s q seen →
      d.size + q.length ≤ fuel + seen.length →
      ∃ s', F.markLoop lbl fuel s q seen = some s' ∧
        ∃ seen', MarkInv F ok elig adj start lbl s0 s' [] seen' := by
  induction fuel with
  | zero =>
    intro s q seen h hf
    cases q with
    | nil => exact ⟨s, by simp [markLoop], seen, h⟩
    | cons c q =>
      exfalso
      have : seen.length ≤ d.size :=
        length_le_size h.nodup (fun i hi => L.elig_inB i (h.sound i hi).1)
      simp at hf
      omega
  | succ fuel ih =>
    intro s q seen h hf
    cases q with
    | nil => exact ⟨s, by simp [markLoop], seen, h⟩
    | cons c q =>
      obtain ⟨h', hlen⟩ := h.step L hl0 hl
      have := ih _ _ _ h' (by simp only [List.length_cons] at hf; omega)
      simpa [markLoop] using this

theorem markCC_spec (L : F.Lawful d ok elig adj) {start : Idx} {lbl : Nat} {s0 : σ}
    (hl0 : lbl ≠ 0) (hl : lbl < u32) (hok : ok s0) (he : elig start) (h0 : F.getC s0 start = 0)
    (hclosed : ∀ i j, Step elig adj i j → F.getC s0 i = F.getC s0 j)
    {fuel : Nat} (hfuel : d.size ≤ fuel) :
    ∃ s', F.markCC fuel s0 start lbl = some (s', 0) ∧ ok s' ∧
      ∀ j, (Conn elig adj start j → F.getC s' j = lbl) ∧
        (¬ Conn elig adj start j → F.getC s' j = F.getC s0 j) := by
  have hinit : MarkInv F ok elig adj start lbl s0 s0 [start] [start] := by
    refine ⟨hok, by simp, by simp, fun j hj => hj, by simp, ?_, ?_, ?_⟩
    · intro j hj
      simp at hj; subst hj
      exact ⟨he, h0, ReflTransGen.refl⟩
    · intro j; simp
    · intro j hj hj'; exact absurd hj hj'
  obtain ⟨s', hs', seen, hinv⟩ := markLoop_spec L hl0 hl fuel s0 [start] [start] hinit (by
    simp; omega)
  refine ⟨s', by simp [markCC, hs'], hinv.ok', ?_⟩
  have hzero : ∀ j, Conn elig adj start j → F.getC s0 j = 0 := by
    intro j hj
    induction hj with
    | refl => exact h0
    | tail _ hst ih => rw [← hclosed _ _ hst]; exact ih
  have hall : ∀ j, Conn elig adj start j → j ∈ seen := by
    intro j hj
    induction hj with
    | refl => exact hinv.mem_start
    | tail hp hst ih =>
      exact hinv.closed _ ih (by simp) _ hst (hzero _ (ReflTransGen.tail hp hst))
  intro j
  constructor
  · intro hj
    rw [hinv.value]; simp [hall j hj]
  · intro hj
    rw [hinv.value]
    have : j ∉ seen := fun h => hj (hinv.sound j h).2.2
    simp [this]

/-- Invariant of the sweep after the indices in `pre` have been visited; `firsts` lists the start
cells of the components found so far. -/
structure SweepInv (F : CompFns σ) (d : Dims) (ok : σ → Prop) (elig : Idx → Prop)
    (adj : Idx → Idx → Prop) (pre : List Idx) (s : σ) (firsts : List Idx) : Prop where
  ok' : ok s
  range : ∀ i, elig i → 0 ≤ F.getC s i ∧ F.getC s i ≤ firsts.length
  step : ∀ i j, Step elig adj i j → F.getC s i = F.getC s j
  conn : ∀ i j, elig i → elig j → F.getC s i = F.getC s j → F.getC s i ≠ 0 → Conn elig adj i j
  done : ∀ i ∈ pre, elig i → F.getC s i ≠ 0
  sub : ∀ i ∈ firsts, i ∈ pre ∧ elig i
  sorted : firsts.Pairwise (fun a b => d.lin a < d.lin b)
  label : ∀ k (hk : k < firsts.length), F.getC s (firsts[k]) = (k : Int) + 1
  least : ∀ k (hk : k < firsts.length), ∀ i, elig i → F.getC s i = (k : Int) + 1 →
    d.lin firsts[k] ≤ d.lin i

theorem SweepInv.length_le (L : F.Lawful d ok elig adj) {pre : List Idx} {s : σ}
    {firsts : List Idx} (h : SweepInv F d ok elig adj pre s firsts) : firsts.length ≤ d.size :=
  length_le_size (h.sorted.imp fun hlt e => absurd (e ▸ hlt) (Nat.lt_irrefl _))
    (fun i hi => L.elig_inB i (h.sub i hi).2)

theorem sweep_spec (L : F.Lawful d ok elig adj) (hsz : d.size < u32) {fuel : Nat}
    (hfuel : d.size ≤ fuel) (l : List Idx) :
    ∀ (pre : List Idx) (s : σ) (firsts : List Idx), pre ++ l = d.all →
      SweepInv F d ok elig adj pre s firsts →
      ∃ s' firsts', F.sweep fuel (d.size : Int) l s firsts.length 0 = some (s', firsts'.length) ∧
        SweepInv F d ok elig adj d.all s' firsts' := by
  induction l with
  | nil =>
    intro pre s firsts hpre h
    simp at hpre
    exact ⟨s, firsts, by simp [sweep], hpre ▸ h⟩
  | cons i l ih =>
    intro pre s firsts hpre h
    have hpre' : (pre ++ [i]) ++ l = d.all := by simpa using hpre
    have himem : i ∈ d.all := by rw [← hpre]; simp
    have hin : d.inB i = true := Dims.mem_all.mp himem
    by_cases h0 : F.getC s i = 0
    · have he : elig i := by
        by_contra hne
        have := L.get_inelig s i h.ok' hne
        omega
      have hlen : firsts.length < d.size := by
        have hni : i ∉ firsts := by
          intro hi
          obtain ⟨k, hk, hki⟩ := List.getElem_of_mem hi
          have := h.label k hk
          rw [hki, h0] at this
          omega
        have : (i :: firsts).length ≤ d.size := by
          apply length_le_size
          · exact List.nodup_cons.mpr ⟨hni,
              h.sorted.imp fun hlt e => absurd (e ▸ hlt) (Nat.lt_irrefl _)⟩
          · intro j hj
            rcases List.mem_cons.mp hj with rfl | hj
            · exact hin
            · exact L.elig_inB j (h.sub j hj).2
        simp only [List.length_cons] at this
        omega
      have hmod : (firsts.length + 1) % u32 = firsts.length + 1 :=
        Nat.mod_eq_of_lt (by omega)
      obtain ⟨s', hs', hok', hlab⟩ := markCC_spec L (start := i) (lbl := firsts.length + 1)
        (by omega) (by omega) h.ok' he h0 h.step hfuel
      have hpw := Dims.pairwise_all d
      rw [← hpre] at hpw
      -- cells of the new component come after the visited ones
      have hnew : ∀ j, elig j → F.getC s j = 0 → d.lin i ≤ d.lin j := by
        intro j hj hj0
        have hjm : j ∈ pre ++ i :: l := by
          rw [hpre]; exact Dims.mem_all.mpr (L.elig_inB j hj)
        rcases List.mem_append.mp hjm with hjp | hjl
        · exact absurd hj0 (h.done j hjp hj)
        · rcases List.mem_cons.mp hjl with rfl | hjl
          · exact Nat.le_refl _
          · have := (List.pairwise_cons.mp (List.pairwise_append.mp hpw).2.1).1 j hjl
            omega
      have hconn0 : ∀ j, Conn elig adj i j → F.getC s j = 0 ∧ elig j := by
        intro j hj
        induction hj with
        | refl => exact ⟨h0, he⟩
        | tail _ hst ihj => exact ⟨by rw [← h.step _ _ hst]; exact ihj.1, hst.2.1⟩
      have hinv : SweepInv F d ok elig adj (pre ++ [i]) s' (firsts ++ [i]) := by
        refine ⟨hok', ?_, ?_, ?_, ?_, ?_, ?_, ?_, ?_⟩
        · intro j hj
          simp only [List.length_append, List.length_cons, List.length_nil]
          by_cases hc : Conn elig adj i j
          · rw [(hlab j).1 hc]; push_cast; omega
          · rw [(hlab j).2 hc]
            have := h.range j hj
            push_cast; omega
        · intro j k hst
          by_cases hc : Conn elig adj i j
          · rw [(hlab j).1 hc, (hlab k).1 (ReflTransGen.tail hc hst)]
          · have hck : ¬ Conn elig adj i k := fun hk =>
              hc (ReflTransGen.tail hk (L.step_symm hst))
            rw [(hlab j).2 hc, (hlab k).2 hck, h.step j k hst]
        · intro j k hj hk hjk hne
          by_cases hc : Conn elig adj i j
          · by_cases hck : Conn elig adj i k
            · exact (L.conn_symm hc).trans hck
            · exfalso
              rw [(hlab j).1 hc, (hlab k).2 hck] at hjk
              have := h.range k hk
              push_cast at hjk; omega
          · by_cases hck : Conn elig adj i k
            · exfalso
              rw [(hlab j).2 hc, (hlab k).1 hck] at hjk
              have := h.range j hj
              push_cast at hjk; omega
            · rw [(hlab j).2 hc, (hlab k).2 hck] at hjk
              rw [(hlab j).2 hc] at hne
              exact h.conn j k hj hk hjk hne
        · intro j hj hje
          by_cases hc : Conn elig adj i j
          · rw [(hlab j).1 hc]; push_cast; omega
          · rw [(hlab j).2 hc]
            rcases List.mem_append.mp hj with hj | hj
            · exact h.done j hj hje
            · simp at hj; subst hj; exact absurd ReflTransGen.refl hc
        · intro j hj
          rcases List.mem_append.mp hj with hj | hj
          · exact ⟨List.mem_append_left _ (h.sub j hj).1, (h.sub j hj).2⟩
          · simp at hj; subst hj; exact ⟨by simp, he⟩
        · rw [List.pairwise_append]
          refine ⟨h.sorted, by simp, ?_⟩
          intro a ha b hb
          simp at hb; subst hb
          exact (List.pairwise_append.mp hpw).2.2 a (h.sub a ha).1 b (List.mem_cons_self ..)
        · intro k hk
          by_cases hkl : k < firsts.length
          · rw [List.getElem_append_left hkl]
            have hc : ¬ Conn elig adj i firsts[k] := by
              intro hc
              have := (hconn0 _ hc).1
              rw [h.label k hkl] at this
              omega
            rw [(hlab _).2 hc, h.label k hkl]
          · have hk' : k = firsts.length := by simp at hk; omega
            subst hk'
            simp only [List.getElem_append_right (Nat.le_refl _), Nat.sub_self,
              List.getElem_cons_zero]
            rw [(hlab i).1 ReflTransGen.refl]; push_cast; rfl
        · intro k hk j hj hjl
          by_cases hkl : k < firsts.length
          · rw [List.getElem_append_left hkl]
            by_cases hc : Conn elig adj i j
            · rw [(hlab j).1 hc] at hjl; push_cast at hjl; omega
            · rw [(hlab j).2 hc] at hjl
              exact h.least k hkl j hj hjl
          · have hk' : k = firsts.length := by simp at hk; omega
            subst hk'
            simp only [List.getElem_append_right (Nat.le_refl _), Nat.sub_self,
              List.getElem_cons_zero]
            by_cases hc : Conn elig adj i j
            · exact hnew j hj (hconn0 j hc).1
            · rw [(hlab j).2 hc] at hjl
              have := h.range j hj
              omega
      obtain ⟨s'', f'', hsw, hfin⟩ := ih _ _ _ hpre' hinv
      refine ⟨s'', f'', ?_, hfin⟩
      have hpos : ¬ ((0 : Int) = (d.size : Int)) := by omega
      simp only [sweep, h0, hmod, hs', if_true]
      simp only [Int.add_zero, hpos, if_false]
      simpa using hsw
    · have hinv : SweepInv F d ok elig adj (pre ++ [i]) s firsts := by
        refine ⟨h.ok', h.range, h.step, h.conn, ?_, ?_, h.sorted, h.label, h.least⟩
        · intro j hj hje
          rcases List.mem_append.mp hj with hj | hj
          · exact h.done j hj hje
          · simp at hj; subst hj; exact h0
        · intro j hj
          exact ⟨List.mem_append_left _ (h.sub j hj).1, (h.sub j hj).2⟩
      obtain ⟨s'', f'', hsw, hfin⟩ := ih _ _ _ hpre' hinv
      refine ⟨s'', f'', ?_, hfin⟩
      simp only [sweep, h0, if_false]
      exact hsw

theorem reset_spec (L : F.Lawful d ok elig adj) (s : σ) (hok : ok s) :
    ok (F.reset d s) ∧ ∀ i, elig i → F.getC (F.reset d s) i = 0 := by
  have key : ∀ (l : List Idx) (s : σ), ok s → (∀ i ∈ l, d.inB i = true) →
      ok (l.foldl (fun s i => F.mark s i 0) s) ∧
      ∀ i, elig i → (i ∈ l ∨ F.getC s i = 0) →
        F.getC (l.foldl (fun s i => F.mark s i 0) s) i = 0 := by
    intro l
    induction l with
    | nil => intro s hs _; refine ⟨hs, ?_⟩; intro i _ h; simpa using h
    | cons a l ih =>
      intro s hs hl
      have hok' := L.ok_mark s a 0 hs (hl a (List.mem_cons_self ..))
      obtain ⟨h1, h2⟩ := ih (F.mark s a 0) hok' (fun i hi => hl i (List.mem_cons_of_mem _ hi))
      refine ⟨h1, ?_⟩
      intro i hi hor
      apply h2 i hi
      by_cases hia : a = i
      · subst hia
        exact Or.inr (by simpa using L.get_mark_self s a 0 hs hi (by decide))
      · rcases hor with h | h
        · rcases List.mem_cons.mp h with h | h
          · exact absurd h.symm hia
          · exact Or.inl h
        · exact Or.inr (by rw [L.get_mark_ne s a i 0 hs hia]; exact h)
  obtain ⟨h1, h2⟩ := key d.all s hok (fun i hi => Dims.mem_all.mp hi)
  exact ⟨h1, fun i hi => h2 i hi (Or.inl (Dims.mem_all.mpr (L.elig_inB i hi)))⟩

/-- Correctness of `ComputeConnectedComponents` for lawful closures, for every iteration bound of at
least one iteration per cell. -/
theorem computeCCFuel_spec (L : F.Lawful d ok elig adj) (hsz : d.size < u32) {fuel : Nat}
    (hfuel : d.size ≤ fuel) (s : σ) (hok : ok s) :
    ∃ s' firsts, F.computeCCFuel fuel d s = some (s', firsts.length) ∧
      SweepInv F d ok elig adj d.all s' firsts := by
  obtain ⟨h1, h2⟩ := reset_spec L s hok
  have hinit : SweepInv F d ok elig adj [] (F.reset d s) [] := by
    refine ⟨h1, ?_, ?_, ?_, by simp, by simp, by simp, by simp, by simp⟩
    · intro i hi; rw [h2 i hi]; simp
    · intro i j hst; rw [h2 i hst.1, h2 j hst.2.1]
    · intro i j hi _ _ hne; exact absurd (h2 i hi) hne
  exact sweep_spec L hsz hfuel d.all [] _ [] (by simp) hinit

theorem computeCC_spec (L : F.Lawful d ok elig adj) (hsz : d.size < u32) (s : σ) (hok : ok s) :
    ∃ s' firsts, F.computeCC d s = some (s', firsts.length) ∧
      SweepInv F d ok elig adj d.all s' firsts :=
  computeCCFuel_spec L hsz (Nat.le_refl _) s hok

/-! ## Termination on every grid (no bound on the number of cells) -/

theorem visit_fold_len (s : σ) (cur : Idx) (hin : ∀ n, F.getC s n % (u32 : Int) = 0 → d.inB n = true)
    (l : List Idx) : ∀ (q seen : List Idx), seen.Nodup → (∀ j ∈ q, j ∈ seen) →
      (∀ j ∈ seen, d.inB j = true) →
      let r := l.foldl (F.visit s cur) (q, seen)
      r.2.Nodup ∧ (∀ j ∈ r.1, j ∈ r.2) ∧ (∀ j ∈ r.2, d.inB j = true) ∧
        r.1.length + seen.length = q.length + r.2.length := by
  induction l with
  | nil => intro q seen h1 h2 h3; exact ⟨h1, h2, h3, rfl⟩
  | cons n l ih =>
    intro q seen h1 h2 h3
    simp only [List.foldl_cons]
    have hsame : F.visit s cur (q, seen) n = (q, seen) ∨
        (F.visit s cur (q, seen) n = (q ++ [n], n :: seen) ∧ n ∉ seen ∧ d.inB n = true) := by
      unfold visit
      split
      · rename_i h0
        split
        · split
          · exact Or.inl rfl
          · rename_i hn; exact Or.inr ⟨rfl, hn, hin n h0⟩
        · exact Or.inl rfl
      · exact Or.inl rfl
    rcases hsame with h | ⟨h, hn, hb⟩
    · rw [h]; exact ih q seen h1 h2 h3
    · rw [h]
      obtain ⟨a, b, c, e⟩ := ih (q ++ [n]) (n :: seen) (List.nodup_cons.mpr ⟨hn, h1⟩)
        (by
          intro j hj
          rcases List.mem_append.mp hj with hj | hj
          · exact List.mem_cons_of_mem _ (h2 j hj)
          · simp at hj; subst hj; exact List.mem_cons_self ..)
        (by
          intro j hj
          rcases List.mem_cons.mp hj with hj | hj
          · subst hj; exact hb
          · exact h3 j hj)
      refine ⟨a, b, c, ?_⟩
      simp only [List.length_append, List.length_cons, List.length_nil] at e
      omega

/-- What termination needs of the closures. -/
structure Total (F : CompFns σ) (d : Dims) (ok : σ → Prop) : Prop where
  mark_ok : ∀ s i c, ok s → d.inB i = true → ok (F.mark s i c)
  unmarked_inB : ∀ s i, ok s → F.getC s i % (u32 : Int) = 0 → d.inB i = true

theorem markLoop_total (T : F.Total d ok) {lbl : Nat} (fuel : Nat) :
    ∀ (s : σ) (q seen : List Idx), ok s → seen.Nodup → (∀ j ∈ q, j ∈ seen) →
      (∀ j ∈ seen, d.inB j = true) → d.size + q.length ≤ fuel + seen.length →
      ∃ s', F.markLoop lbl fuel s q seen = some s' ∧ ok s' := by
  induction fuel with
  | zero =>
    intro s q seen hok h1 h2 h3 hf
    cases q with
    | nil => exact ⟨s, by simp [markLoop], hok⟩
    | cons c q =>
      exfalso
      have : seen.length ≤ d.size := length_le_size h1 h3
      simp at hf
      omega
  | succ fuel ih =>
    intro s q seen hok h1 h2 h3 hf
    cases q with
    | nil => exact ⟨s, by simp [markLoop], hok⟩
    | cons c q =>
      have hok' := T.mark_ok s c lbl hok (h3 c (h2 c (List.mem_cons_self ..)))
      obtain ⟨a, b, c', e⟩ := visit_fold_len (F := F) (F.mark s c lbl) c
        (fun n => T.unmarked_inB _ n hok') (faceNbrs c) q seen h1
        (fun j hj => h2 j (List.mem_cons_of_mem _ hj)) h3
      have := ih _ _ _ hok' a b c' (by simp only [List.length_cons] at hf; omega)
      simpa [markLoop] using this

theorem sweep_total (T : F.Total d ok) {fuel : Nat} (hfuel : d.size ≤ fuel) (total : Int)
    (l : List Idx) : ∀ (s : σ) (n : Nat) (m : Int), ok s → n < u32 →
      (∀ i ∈ l, d.inB i = true) → ∃ s' n', F.sweep fuel total l s n m = some (s', n') ∧ ok s' ∧
        n' < u32 := by
  induction l with
  | nil => intro s n m hok hn _; exact ⟨s, n, rfl, hok, hn⟩
  | cons i l ih =>
    intro s n m hok hn hl
    have hl' := fun j hj => hl j (List.mem_cons_of_mem _ hj)
    have hlt : (n + 1) % u32 < u32 := Nat.mod_lt _ (by decide)
    simp only [sweep]
    split
    · obtain ⟨s', hs', hok'⟩ := markLoop_total T (lbl := (n + 1) % u32) fuel s [i] [i] hok (by simp)
        (fun j hj => hj) (by simpa using hl i (List.mem_cons_self ..)) (by simp; omega)
      simp only [markCC, hs', Option.map_some]
      split
      · exact ⟨s', _, rfl, hok', hlt⟩
      · exact ih s' _ _ hok' hlt hl'
    · exact ih s n m hok hn hl'

/-- `ComputeConnectedComponents` terminates on every grid and preserves whatever marking
preserves. -/
theorem computeCC_total (T : F.Total d ok) (s : σ) (hok : ok s) :
    ∃ s' n, F.computeCC d s = some (s', n) ∧ ok s' ∧ n < u32 := by
  have hreset : ok (F.reset d s) := by
    have key : ∀ (l : List Idx) (s : σ), ok s → (∀ i ∈ l, d.inB i = true) →
        ok (l.foldl (fun s i => F.mark s i 0) s) := by
      intro l
      induction l with
      | nil => intro s hs _; exact hs
      | cons a l ih =>
        intro s hs hl
        exact ih _ (T.mark_ok s a 0 hs (hl a (List.mem_cons_self ..)))
          (fun i hi => hl i (List.mem_cons_of_mem _ hi))
    exact key d.all s hok (fun i hi => Dims.mem_all.mp hi)
  exact sweep_total T (Nat.le_refl _) _ d.all _ 0 0 hreset (by decide) (fun i hi => Dims.mem_all.mp hi)

/-! ## Connection with the specification -/

theorem mem_faceNbrs_iff {i j : Idx} : j ∈ faceNbrs i ↔ Spec.FaceAdj i j := by
  obtain ⟨x, y, z⟩ := i
  obtain ⟨a, b, c⟩ := j
  simp only [faceNbrs, List.mem_cons, List.not_mem_nil, or_false, Idx.mk.injEq, Spec.FaceAdj]
  constructor
  · rintro (⟨rfl, rfl, rfl⟩ | ⟨rfl, rfl, rfl⟩ | ⟨rfl, rfl, rfl⟩ | ⟨rfl, rfl, rfl⟩ |
      ⟨rfl, rfl, rfl⟩ | ⟨rfl, rfl, rfl⟩) <;> simp
  · intro h
    rcases abs_cases (x - a) with ⟨h1, h1'⟩ | ⟨h1, h1'⟩ <;>
    rcases abs_cases (y - b) with ⟨h2, h2'⟩ | ⟨h2, h2'⟩ <;>
    rcases abs_cases (z - c) with ⟨h3, h3'⟩ | ⟨h3, h3'⟩ <;> omega

theorem conn_eq_linked (elig : Idx → Prop) (adj : Idx → Idx → Prop) :
    Conn elig adj = Spec.Linked elig adj := by
  have : Step elig adj = Spec.PathStep elig adj := by
    funext i j
    simp only [Step, Spec.PathStep, mem_faceNbrs_iff]
  unfold Conn Spec.Linked
  rw [this]

theorem SweepInv.labelling (L : F.Lawful d ok elig adj) {s : σ} {firsts : List Idx}
    (h : SweepInv F d ok elig adj d.all s firsts) :
    Spec.Labelling d elig adj (fun i => (F.getC s i).toNat) firsts.length := by
  have hpos : ∀ i, elig i → 1 ≤ F.getC s i ∧ F.getC s i ≤ firsts.length := by
    intro i hi
    have h1 := h.range i hi
    have h2 := h.done i (Dims.mem_all.mpr (L.elig_inB i hi)) hi
    omega
  have hconnlab : ∀ i j, Conn elig adj i j → F.getC s i = F.getC s j := by
    intro i j hc
    induction hc with
    | refl => rfl
    | tail _ hst ih => rw [ih, h.step _ _ hst]
  refine ⟨?_, ?_, ?_, ?_⟩
  · intro i hi
    have := hpos i hi
    omega
  · intro i j hi hj
    rw [← conn_eq_linked]
    have h1 := hpos i hi
    have h2 := hpos j hj
    constructor
    · intro he
      exact h.conn i j hi hj (by omega) (by omega)
    · intro hc
      simp only [hconnlab i j hc]
  · intro k hk hkn
    have hk' : k - 1 < firsts.length := by omega
    refine ⟨firsts[k - 1], (h.sub _ (List.getElem_mem hk')).2, ?_⟩
    rw [h.label (k - 1) hk']
    omega
  · intro i j hi hj
    -- a first cell is the start cell of its label
    have key : ∀ i, Spec.First d elig adj i →
        ∃ k, ∃ hk : k < firsts.length, firsts[k] = i ∧ F.getC s i = (k : Int) + 1 := by
      intro i hi
      have h1 := hpos i hi.1
      have hk : (F.getC s i - 1).toNat < firsts.length := by omega
      have hlab : F.getC s i = ((F.getC s i - 1).toNat : Int) + 1 := by omega
      refine ⟨(F.getC s i - 1).toNat, hk, ?_, hlab⟩
      have hle := h.least _ hk i hi.1 hlab
      have hel := (h.sub _ (List.getElem_mem hk)).2
      have hge := hi.2 _ hel (by
        rw [← conn_eq_linked]
        apply h.conn i _ hi.1 hel
        · rw [h.label _ hk]; exact hlab
        · omega)
      exact Dims.lin_inj (L.elig_inB _ hel) (L.elig_inB _ hi.1) (Nat.le_antisymm hle hge)
    obtain ⟨a, ha, hai, hla⟩ := key i hi
    obtain ⟨b, hb, hbj, hlb⟩ := key j hj
    rw [← hai, ← hbj] at *
    have hs := List.pairwise_iff_getElem.mp h.sorted
    rcases Nat.lt_trichotomy a b with hab | hab | hab
    · have := hs a b ha hb hab
      constructor
      · intro _; exact this
      · intro _; omega
    · subst hab
      constructor
      · intro hlt; omega
      · intro hlt; omega
    · have := hs b a hb ha hab
      constructor
      · intro hlt; omega
      · intro hlt; omega

end CompFns

end Verif
