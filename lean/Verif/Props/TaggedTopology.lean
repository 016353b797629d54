import Verif.Props.TopologyEuler
import Verif.Props.Tagged

/-!
# C136: holes and voids of the free components of a tagged object map

The tagged `ComputeComponentTopology` looks at wrong cells for filled and unknown components (C61), but not for empty
ones.  With the type `EMPTY_COMPONENTS` its answers are those of C136.
-/

namespace Verif

open Spec

/-- A free cell of a tagged map. -/
def Spec.TFree (t : TMap) (i : Idx) : Prop := InBounds t.dims i ∧ ((t.getImm i).1).occ.ltHalf = true

/-- Every cell is filled or free: none is exactly at 0.5 (unknown). -/
def Spec.TDecided (t : TMap) : Prop := ∀ i, InBounds t.dims i →
  ((t.getImm i).1).occ.gtHalf = true ∨ ((t.getImm i).1).occ.ltHalf = true

theorem tagged_surfaces_free (t : TMap) : t.extractSurfaces false true false =
    t.plain.surfacesBy fun i => (!(t.plain.grid.get i).occ.gtHalf && (t.plain.grid.get i).occ.ltHalf) &&
      t.plain.isCCSurface i := by
  have hq := C60_same_queries t t.plain rfl
    (by intro i; simp [CMap.getImm, Grid.getImm, TMap.plain_get, TMap.getImm, TMap.pc])
    (by intro i; simp [CMap.getImm, Grid.getImm, TMap.plain_get, TMap.getImm, TMap.pc])
  rw [hq.2.2.2]
  unfold CMap.extractSurfaces
  congr 1
  funext i
  unfold CMap.typedSurface
  simp only [Bool.false_and, Bool.true_and]
  cases (t.plain.grid.get i).occ.gtHalf <;> cases (t.plain.grid.get i).occ.ltHalf <;> simp

/-- C136 for tagged maps without unknown cells: what the topology of the empty components is reported to be.  The call
throws exactly if a free component has a flat piece of top of 2×2 cells that is at least two cells thick; otherwise it
reports one entry per free component, with the number of voids and (if the boundary does not touch itself) holes, both
too large by the number of 2×2×2 blocks open below. -/
theorem C136_tagged_free (t : TMap) (h : t.grid.WF) (hv : t.valid = false) (hsz : t.dims.size < 2 ^ 32)
    (hoob : t.grid.oob.comp = 0) (hdec : TDecided t) (ord : List Idx → List Idx)
    (ord' : List (Idx × UInt8) → List (Idx × UInt8)) (ho : ∀ l, (ord l).Perm l) (ho' : ∀ l, (ord' l).Perm l) :
    ∃ (t' : TMap) (r : Topo.Outcome (List (UInt32 × (Int × Int)))) (n : Nat),
      t.computeTopology ord ord' false true false true = some (t', r) ∧
      IsComponentLabelling t.plain (fun i => ((t'.getImm i).1).comp.toNat) n ∧
      (r = .throw ↔ ∃ i, TFree t i ∧ FlatTop (componentOf t.plain i)) ∧
      ((∀ i, TFree t i → ¬ FlatTop (componentOf t.plain i)) → ∃ l, r = .done l ∧
        (l.map Prod.fst).Nodup ∧
        (∀ c, c ∈ l.map Prod.fst ↔ ∃ i, TFree t i ∧ ((t'.getImm i).1).comp = c) ∧
        ∀ i holes voids, TFree t i → (((t'.getImm i).1).comp, (holes, voids)) ∈ l →
          ∀ p, SurfacePieces (componentOf t.plain i) p →
            voids = (p : Int) - 1 + (openBlocks (componentOf t.plain i)).card ∧
            (WellComposed (componentOf t.plain i) →
              holes = (p : Int) - euler (componentOf t.plain i) + (openBlocks (componentOf t.plain i)).card)) := by
  obtain ⟨m', n, hu, hs, -, -, hl⟩ := t.plain.updateCC_spec hv (TMap.plain_wf h) hsz
  rw [← TMap.plain_updateCC] at hu
  obtain ⟨⟨t', n'⟩, hu', he⟩ := Option.map_eq_some_iff.mp hu
  simp only [Prod.mk.injEq] at he
  obtain ⟨rfl, rfl⟩ := he
  have hdec' : ∀ i, inGrid t.plain i → ((t.plain.getImm i).1).occ.gtHalf = true ∨
      ((t.plain.getImm i).1).occ.ltHalf = true := by
    intro i hi
    have := hdec i hi
    simpa [CMap.getImm, Grid.getImm, TMap.plain_get, TMap.getImm, TMap.pc] using this
  have hex : ∀ o : F32, o.gtHalf = true → o.ltHalf = false := by
    intro o ho
    rcases F32.trichotomy o with h | h | h | h <;> simp_all
  have hq : Uniform t.plain (fun o => !o.gtHalf && o.ltHalf) := by
    intro i j hi hj hij
    unfold sameSide at hij
    have e := Bool.eq_iff_iff.mpr hij
    simp only [e]
    rcases hdec' i hi with hi | hi <;> rcases hdec' j hj with hj | hj <;> simp_all
  have hc : ∀ i, Chosen t.plain (fun o => !o.gtHalf && o.ltHalf) i ↔ TFree t i := by
    intro i
    have e : ((t.plain.getImm i).1).occ = ((t.getImm i).1).occ := by
      simp [CMap.getImm, Grid.getImm, TMap.plain_get, TMap.getImm, TMap.pc]
    unfold Chosen TFree
    rw [e]
    refine and_congr_right fun _ => ?_
    have := hex ((t.getImm i).1).occ
    cases h1 : ((t.getImm i).1).occ.gtHalf <;> simp_all
  have hcomp : ∀ i, ((t'.plain.getImm i).1).comp = ((t'.getImm i).1).comp := by
    intro i; simp [CMap.getImm, Grid.getImm, TMap.plain_get, TMap.getImm, TMap.pc]
  obtain ⟨h1, h2⟩ := chosen_topology hoob hs hl hq ord ord' ho ho' _ rfl
  simp only [hc, hcomp] at h1 h2 hl
  refine ⟨t', _, n', ?_, hl, ⟨fun hr => ?_, h1⟩, h2⟩
  · unfold TMap.computeTopology
    rw [if_pos rfl, hu']
    simp only [Option.map_some]
    rw [tagged_surfaces_free]
    congr 4
    funext i
    exact TMap.comp_sim.getC t' i trivial
  · by_contra hn
    obtain ⟨l, hl', -⟩ := h2 (fun i hi hf => hn ⟨i, hi, hf⟩)
    rw [hr] at hl'
    simp at hl'

/-- A tagged map whose free cells are a flat ring around one object cell. -/
def exTRing : TMap :=
  (TMap.create false ⟨3, 3, 1⟩ (TCell.ofObj 0 0) (TCell.ofObj 0 0)).run [.setValue ⟨1, 1, 0⟩ (TCell.ofObj F32.one 7)]

/-- The hypotheses hold for it, and the answer for its free component (number 1) is one hole and no void. -/
example : exTRing.grid.WF ∧ exTRing.valid = false ∧ exTRing.grid.oob.comp = 0 ∧ TDecided exTRing ∧
    TFree exTRing ⟨0, 0, 0⟩ ∧
    (exTRing.computeTopology id id false true false true).map Prod.snd = some (.done [(1, (1, 0))]) := by
  refine ⟨rfl, rfl, rfl, ?_, ⟨inB_iff_spec.mp (by decide), by decide⟩, by decide +kernel⟩
  have : ∀ i ∈ exTRing.dims.all, ((exTRing.getImm i).1).occ.gtHalf = true ∨ ((exTRing.getImm i).1).occ.ltHalf = true := by
    decide +kernel
  exact fun i hi => this i (Dims.mem_all.mpr (inB_iff_spec.mpr hi))

end Verif
