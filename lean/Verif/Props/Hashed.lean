import Verif.Hashed
import Verif.Props.CMapExports
import Mathlib.Data.List.Perm.Basic

/-!
# Properties of the dynamic spatial hashed collision map (C75, C76)
-/

namespace Verif

open Spec

/-! ## Specification

What a viewer sees: a list of cubes, each with a position, an edge size and a colour. -/

/-- The cube shown for a uniform chunk, or the cubes of the cells of a chunk with individual cells. -/
def drawnCubes {P C : Type} (loc : HChunk → Idx → P) (tf : P → P) (coll free unk : C) (c : HChunk) :
    List (P × C) × List (P × C) :=
  let cls : CCell → C := fun v =>
    if v.occ.gtHalf = true then coll else if v.occ.ltHalf = true then free else unk
  if c.chunkInit = true then ([(tf (loc c ⟨0, 0, 0⟩), cls c.value)], [])
  else if c.cellInit = true then
    ([], c.cells.dims.all.map fun i => (tf (loc c i), cls (c.cells.get i)))
  else ([], [])

/-- The cubes of a marker: its points paired with its colours. -/
def HMarker.cubes {P C : Type} (k : HMarker P C) : List (P × C) := k.points.zip k.colors

/-- A marker draws exactly the listed cubes, one colour per point, with the given header. -/
structure HMarker.Draws {P C : Type} (k : HMarker P C) (frame ns : String) (size : P)
    (l : List (P × C)) : Prop where
  frame_eq : k.frame = frame
  ns_eq : k.ns = ns
  id_eq : k.id = 1
  scale_eq : k.scale = size
  points_eq : k.points = l.map Prod.fst
  colors_eq : k.colors = l.map Prod.snd

section

variable {P C : Type} (loc : HChunk → Idx → P) (tf : P → P) (coll free unk : C)

theorem HMarker.Draws.push {k : HMarker P C} {f n : String} {s : P} {l : List (P × C)}
    (h : k.Draws f n s l) (p : P) (c : C) : (k.push p c).Draws f n s (l ++ [(p, c)]) := by
  obtain ⟨h1, h2, h3, h4, h5, h6⟩ := h
  exact ⟨h1, h2, h3, h4, by simp [HMarker.push, h5], by simp [HMarker.push, h6]⟩

theorem HMarker.Draws.pushAll {f n : String} {s : P} (g : Idx → P × C) (is : List Idx) :
    ∀ {k : HMarker P C} {l : List (P × C)}, k.Draws f n s l →
      (is.foldl (fun k i => k.push (g i).1 (g i).2) k).Draws f n s (l ++ is.map g) := by
  induction is with
  | nil => intro k l h; simpa using h
  | cons a is ih =>
    intro k l h
    have := ih (h.push (g a).1 (g a).2)
    simpa using this

theorem HMap.exportFold {f n1 n2 : String} {s1 s2 : P} (cs : List HChunk) :
    ∀ {st : HMarker P C × HMarker P C} {l1 l2 : List (P × C)},
      st.1.Draws f n1 s1 l1 → st.2.Draws f n2 s2 l2 →
      (cs.foldl (HMap.exportStep loc tf coll free unk) st).1.Draws f n1 s1
          (l1 ++ cs.flatMap fun c => (drawnCubes loc tf coll free unk c).1) ∧
        (cs.foldl (HMap.exportStep loc tf coll free unk) st).2.Draws f n2 s2
          (l2 ++ cs.flatMap fun c => (drawnCubes loc tf coll free unk c).2) := by
  induction cs with
  | nil => intro st l1 l2 h1 h2; exact ⟨by simpa using h1, by simpa using h2⟩
  | cons c cs ih =>
    intro st l1 l2 h1 h2
    by_cases hc : c.chunkInit = true
    · have e : HMap.exportStep loc tf coll free unk st c =
        (st.1.push (tf (loc c ⟨0, 0, 0⟩)) (HMap.colourOf coll free unk c.value), st.2) := by
        simp [HMap.exportStep, hc]
      have := ih (st := HMap.exportStep loc tf coll free unk st c)
        (by rw [e]; exact h1.push _ _) (by rw [e]; exact h2)
      simpa [drawnCubes, hc, HMap.colourOf] using this
    · by_cases hd : c.cellInit = true
      · have e : HMap.exportStep loc tf coll free unk st c =
          (st.1, c.cells.dims.all.foldl (fun k i => k.push (tf (loc c i))
            (HMap.colourOf coll free unk (c.cells.getImm i).1)) st.2) := by
          simp [HMap.exportStep, hc, hd]
        have := ih (st := HMap.exportStep loc tf coll free unk st c)
          (by rw [e]; exact h1) (by
            rw [e]
            exact h2.pushAll (fun i => (tf (loc c i),
              HMap.colourOf coll free unk (c.cells.getImm i).1)) _)
        have hm : (c.cells.dims.all.map fun i => (tf (loc c i),
              HMap.colourOf coll free unk (c.cells.getImm i).1)) =
            c.cells.dims.all.map fun i => (tf (loc c i),
              if (c.cells.get i).occ.gtHalf = true then coll
              else if (c.cells.get i).occ.ltHalf = true then free else unk) := by
          apply List.map_congr_left
          intro i hi
          simp [HMap.colourOf, Grid.getImm, Dims.mem_all.mp hi]
        rw [hm] at this
        simpa [drawnCubes, hc, hd] using this
      · have e : HMap.exportStep loc tf coll free unk st c = st := by
          simp [HMap.exportStep, hc, hd]
        have := ih (st := HMap.exportStep loc tf coll free unk st c)
          (by rw [e]; exact h1) (by rw [e]; exact h2)
        simpa [drawnCubes, hc, hd] using this

end

/-- C75 (content).  The export returns at most two markers.  A chunk marker is present exactly when some
chunk is uniform; it draws one cube of chunk size per uniform chunk, in iteration order.  A cell marker
is present exactly when some chunk with individual cells has a cell; it draws one cube of cell size per
cell.  The colour of every cube is the collision, free or unknown colour of its occupancy. -/
theorem C75_display {P C : Type} (frame : String) (chunkSize cellSize : P) (loc : HChunk → Idx → P)
    (tf : P → P) (coll free unk : C) (chunks : List HChunk) :
    ∃ big small : List (HMarker P C),
      HMap.exportForDisplay frame chunkSize cellSize loc tf chunks coll free unk = big ++ small ∧
      big.length ≤ 1 ∧ small.length ≤ 1 ∧
      (big ≠ [] ↔ ∃ c ∈ chunks, c.chunkInit = true) ∧
      (small ≠ [] ↔ ∃ c ∈ chunks, c.chunkInit = false ∧ c.cellInit = true ∧
        ∃ i, InBounds c.cells.dims i) ∧
      (∀ k ∈ big, k.Draws frame "dynamic_spatial_hashed_collision_map_chunks_display" chunkSize
        (chunks.flatMap fun c => (drawnCubes loc tf coll free unk c).1)) ∧
      (∀ k ∈ small, k.Draws frame "dynamic_spatial_hashed_collision_map_cells_display" cellSize
        (chunks.flatMap fun c => (drawnCubes loc tf coll free unk c).2)) := by
  obtain ⟨h1, h2⟩ := HMap.exportFold (f := frame)
    (n1 := "dynamic_spatial_hashed_collision_map_chunks_display")
    (n2 := "dynamic_spatial_hashed_collision_map_cells_display") (s1 := chunkSize) (s2 := cellSize)
    loc tf coll free unk chunks (l1 := []) (l2 := [])
    (st := (⟨frame, "dynamic_spatial_hashed_collision_map_chunks_display", 1, chunkSize, [], []⟩,
      ⟨frame, "dynamic_spatial_hashed_collision_map_cells_display", 1, cellSize, [], []⟩))
    ⟨rfl, rfl, rfl, rfl, rfl, rfl⟩ ⟨rfl, rfl, rfl, rfl, rfl, rfl⟩
  simp only [List.nil_append] at h1 h2
  have one : ∀ (k : HMarker P C), (if k.points.length > 0 then [k] else []).length ≤ 1 := by
    intro k; split <;> simp
  have mem : ∀ (k k' : HMarker P C), k' ∈ (if k.points.length > 0 then [k] else []) → k' = k := by
    intro k k' h; split at h <;> simp_all
  have ne : ∀ (k : HMarker P C),
      (if k.points.length > 0 then [k] else []) ≠ [] ↔ k.points ≠ [] := by
    intro k
    by_cases h : k.points = []
    · simp [h]
    · have : k.points.length > 0 := List.length_pos_iff.mpr h
      simp [this, h]
  refine ⟨_, _, rfl, one _, one _, ?_, ?_, ?_, ?_⟩
  · rw [ne, h1.points_eq]
    simp only [ne_eq, List.map_eq_nil_iff, List.flatMap_eq_nil_iff, not_forall]
    constructor
    · rintro ⟨c, hc, h⟩
      refine ⟨c, hc, ?_⟩
      by_contra hn
      apply h
      simp only [drawnCubes]
      rw [if_neg hn]
      split <;> rfl
    · rintro ⟨c, hc, h⟩
      exact ⟨c, hc, by simp [drawnCubes, h]⟩
  · rw [ne, h2.points_eq]
    simp only [ne_eq, List.map_eq_nil_iff, List.flatMap_eq_nil_iff, not_forall]
    constructor
    · rintro ⟨c, hc, h⟩
      by_cases hi : c.chunkInit = true
      · exact absurd (by simp [drawnCubes, hi]) h
      · by_cases hj : c.cellInit = true
        · refine ⟨c, hc, by simpa using hi, hj, ?_⟩
          by_contra hn
          apply h
          have : c.cells.dims.all = [] := by
            rw [List.eq_nil_iff_forall_not_mem]
            intro i hm
            exact hn ⟨i, inB_iff_spec.mp (Dims.mem_all.mp hm)⟩
          simp [drawnCubes, hi, hj, this]
        · exact absurd (by simp [drawnCubes, hi, hj]) h
    · rintro ⟨c, hc, hi, hj, i, hin⟩
      refine ⟨c, hc, ?_⟩
      have hm : i ∈ c.cells.dims.all := Dims.mem_all.mpr (inB_iff_spec.mpr hin)
      simp only [drawnCubes, hi, hj]
      intro h
      simp only [Bool.false_eq_true, if_false, if_true, List.map_eq_nil_iff] at h
      rw [h] at hm
      simp at hm
  · intro k hk
    rw [mem _ _ hk]; exact h1
  · intro k hk
    rw [mem _ _ hk]; exact h2

/-- C75 (order).  The iteration order of the hash map only permutes the cubes: two exports of the same
chunks in different orders have the same markers up to the order of their (point, colour) pairs. -/
theorem C75_order {P C : Type} (frame : String) (chunkSize cellSize : P) (loc : HChunk → Idx → P)
    (tf : P → P) (coll free unk : C) (chunks chunks' : List HChunk) (h : chunks.Perm chunks') :
    List.Forall₂ (fun k k' => k.frame = k'.frame ∧ k.ns = k'.ns ∧ k.id = k'.id ∧ k.scale = k'.scale ∧
        k.cubes.Perm k'.cubes ∧ k.points.length = k.colors.length ∧
        k'.points.length = k'.colors.length)
      (HMap.exportForDisplay frame chunkSize cellSize loc tf chunks coll free unk)
      (HMap.exportForDisplay frame chunkSize cellSize loc tf chunks' coll free unk) := by
  have zipEq : ∀ (l : List (P × C)), (l.map Prod.fst).zip (l.map Prod.snd) = l := by
    intro l; induction l with
    | nil => rfl
    | cons a l ih => simp [ih]
  have rel : ∀ (k k' : HMarker P C) (n : String) (s : P) (l l' : List (P × C)), l.Perm l' →
      k.Draws frame n s l → k'.Draws frame n s l' →
      k.frame = k'.frame ∧ k.ns = k'.ns ∧ k.id = k'.id ∧ k.scale = k'.scale ∧
        k.cubes.Perm k'.cubes ∧ k.points.length = k.colors.length ∧
        k'.points.length = k'.colors.length := by
    intro k k' n s l l' hp a b
    refine ⟨a.frame_eq.trans b.frame_eq.symm, a.ns_eq.trans b.ns_eq.symm, a.id_eq.trans b.id_eq.symm,
      a.scale_eq.trans b.scale_eq.symm, ?_, ?_, ?_⟩
    · simp only [HMarker.cubes, a.points_eq, a.colors_eq, b.points_eq, b.colors_eq, zipEq]
      exact hp
    · simp [a.points_eq, a.colors_eq]
    · simp [b.points_eq, b.colors_eq]
  obtain ⟨big, small, e, b1, s1, bn, sn, bd, sd⟩ :=
    C75_display frame chunkSize cellSize loc tf coll free unk chunks
  obtain ⟨big', small', e', b1', s1', bn', sn', bd', sd'⟩ :=
    C75_display frame chunkSize cellSize loc tf coll free unk chunks'
  have hb : big ≠ [] ↔ big' ≠ [] := by
    rw [bn, bn']
    constructor <;> rintro ⟨c, hc, h'⟩
    · exact ⟨c, h.mem_iff.mp hc, h'⟩
    · exact ⟨c, h.mem_iff.mpr hc, h'⟩
  have hs : small ≠ [] ↔ small' ≠ [] := by
    rw [sn, sn']
    constructor <;> rintro ⟨c, hc, h'⟩
    · exact ⟨c, h.mem_iff.mp hc, h'⟩
    · exact ⟨c, h.mem_iff.mpr hc, h'⟩
  have join : ∀ (l l' : List (HMarker P C)) (R : HMarker P C → HMarker P C → Prop), l.length ≤ 1 →
      l'.length ≤ 1 → (l ≠ [] ↔ l' ≠ []) → (∀ k ∈ l, ∀ k' ∈ l', R k k') → List.Forall₂ R l l' := by
    intro l l' R h1 h2 h3 h4
    match l, l' with
    | [], [] => exact List.Forall₂.nil
    | [a], [b] => exact List.Forall₂.cons (h4 a (by simp) b (by simp)) List.Forall₂.nil
    | [], b :: _ => simp at h3
    | a :: _, [] => simp at h3
    | _ :: _ :: _, _ => simp at h1
    | _, _ :: _ :: _ => simp at h2
  rw [e, e']
  refine List.rel_append ?_ ?_
  · exact join _ _ _ b1 b1' hb fun k hk k' hk' => rel k k' _ _ _ _ (h.flatMap_right _) (bd k hk) (bd' k' hk')
  · exact join _ _ _ s1 s1' hs fun k hk k' hk' => rel k k' _ _ _ _ (h.flatMap_right _) (sd k hk) (sd' k' hk')

/-- A uniform filled chunk and a chunk of two cells (one free, one unknown): two markers. -/
def exHashed : List HChunk :=
  [⟨⟨0, 0, 0⟩, true, false, ⟨F32.one, 0⟩, Grid.mk' ⟨0, 0, 0⟩ default default⟩,
   ⟨⟨1, 0, 0⟩, false, true, default, (Grid.mk' ⟨2, 1, 1⟩ ⟨0, 0⟩ ⟨0, 0⟩).set ⟨1, 0, 0⟩ ⟨F32.half, 0⟩⟩]

example : HMap.exportForDisplay "map" (4 : Int) 1 (fun c i => c.region.x * 10 + i.x) (· + 100) exHashed
    'c' 'f' 'u' =
  [⟨"map", "dynamic_spatial_hashed_collision_map_chunks_display", 1, 4, [100], ['c']⟩,
   ⟨"map", "dynamic_spatial_hashed_collision_map_cells_display", 1, 1, [110, 111], ['f', 'u']⟩] := by
  decide +kernel

/-- The order of the chunks is really free: the hypothesis of `C75_order` holds for a swap. -/
example : exHashed.Perm exHashed.reverse := (List.reverse_perm exHashed).symm

/-! ## C76: the initialised flag -/

/-- A call made on a constructed map. -/
inductive HOp (S : Type) where
  | set (f : S → S × Nat)

/-- Any history of `SetCell`/`SetChunk` calls. -/
def HMap.run {S : Type} (m : HMap S) (ops : List (HOp S)) : HMap S :=
  ops.foldl (fun m o => match o with | .set f => (m.update f).1) m

theorem HMap.run_flags {S : Type} (ops : List (HOp S)) : ∀ m : HMap S,
    (m.run ops).initialized = m.initialized ∧ (m.run ops).valid = m.valid := by
  induction ops with
  | nil => intro m; exact ⟨rfl, rfl⟩
  | cons o ops ih =>
    intro m
    cases o with
    | set f => exact ih (m.update f).1

/-- C76 (part that holds).  A default-constructed map reports that it is not initialised, and components
are never reported valid, whatever calls follow. -/
theorem C76_flags_partial {S : Type} (store : S) (junk : Bool) (frame : String) (ops : List (HOp S)) :
    ((HMap.createDefault store).run ops).isInitialized = false ∧
    ((HMap.createDefault store).run ops).areComponentsValid = false ∧
    ((HMap.create junk frame store).run ops).areComponentsValid = false := by
  refine ⟨?_, ?_, ?_⟩
  · exact (HMap.run_flags ops _).1
  · exact (HMap.run_flags ops _).2
  · exact (HMap.run_flags ops _).2

/-- C76 is violated for the constructors with arguments: after any history of calls the answer of
`IsInitialized` is whatever byte was in memory, so both answers occur for the same map. -/
theorem C76_initialized_is_junk {S : Type} (store : S) (frame : String) (ops : List (HOp S)) (b : Bool) :
    ∃ junk, ((HMap.create junk frame store).run ops).isInitialized = b :=
  ⟨b, (HMap.run_flags ops _).1⟩

example : ∃ ops : List (HOp Nat), ((HMap.create true "map" 0).run ops).field = 5 ∧ ops.length = 2 :=
  ⟨[.set fun s => (s + 2, 0), .set fun s => (s + 3, 0)], rfl, rfl⟩

end Verif
