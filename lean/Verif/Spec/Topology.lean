import Verif.Spec.Regions
import Verif.Spec.Distance
import Mathlib.Data.Finset.Union
import Mathlib.Data.Finset.Card

/-!
# Specification: the boundary of a set of cells and its Euler number

A cell with index `i` is the unit cube between the lattice points `i` and `i + (1, 1, 1)`.
-/

namespace Verif.Spec

open Verif Relation

/-- The lattice point `v` is a corner of cell `i`. -/
def Corner (i v : Idx) : Prop :=
  (v.x = i.x ∨ v.x = i.x + 1) ∧ (v.y = i.y ∨ v.y = i.y + 1) ∧ (v.z = i.z ∨ v.z = i.z + 1)

instance (i v : Idx) : Decidable (Corner i v) := by unfold Corner; infer_instance

/-- `v` is a corner of a cell of `S` and of a cell outside `S`. -/
def OnBoundary (S : Finset Idx) (v : Idx) : Prop := (∃ i, i ∈ S ∧ Corner i v) ∧ ∃ j, j ∉ S ∧ Corner j v

/-- `v` and `w` are the ends of an edge of a cell of `S` that is also an edge of a cell outside `S`. -/
def BoundaryEdge (S : Finset Idx) (v w : Idx) : Prop :=
  FaceAdj v w ∧ (∃ i, i ∈ S ∧ Corner i v ∧ Corner i w) ∧ ∃ j, j ∉ S ∧ Corner j v ∧ Corner j w

/-- The boundary of `S` consists of `n` connected pieces. -/
def SurfacePieces (S : Finset Idx) (n : ℕ) : Prop :=
  ∃ reps : List Idx, reps.length = n ∧ (∀ r ∈ reps, OnBoundary S r) ∧
    reps.Pairwise (fun a b => ¬ ReflTransGen (BoundaryEdge S) a b) ∧
    ∀ v, OnBoundary S v → ∃ r ∈ reps, ReflTransGen (BoundaryEdge S) r v

/-- All translates of the cells of `S` by the given offsets. -/
def shifts (S : Finset Idx) (os : List Idx) : Finset Idx := os.toFinset.biUnion fun o => S.image fun i => i + o

/-- The corners of the cells of `S`. -/
def points (S : Finset Idx) : Finset Idx :=
  shifts S [⟨0, 0, 0⟩, ⟨0, 0, 1⟩, ⟨0, 1, 0⟩, ⟨0, 1, 1⟩, ⟨1, 0, 0⟩, ⟨1, 0, 1⟩, ⟨1, 1, 0⟩, ⟨1, 1, 1⟩]

/-- The edges of the cells of `S` along each axis, named by their lower ends. -/
def edgesX (S : Finset Idx) : Finset Idx := shifts S [⟨0, 0, 0⟩, ⟨0, 0, 1⟩, ⟨0, 1, 0⟩, ⟨0, 1, 1⟩]
def edgesY (S : Finset Idx) : Finset Idx := shifts S [⟨0, 0, 0⟩, ⟨0, 0, 1⟩, ⟨1, 0, 0⟩, ⟨1, 0, 1⟩]
def edgesZ (S : Finset Idx) : Finset Idx := shifts S [⟨0, 0, 0⟩, ⟨0, 1, 0⟩, ⟨1, 0, 0⟩, ⟨1, 1, 0⟩]

/-- The faces of the cells of `S` across each axis, named by their lowest corners. -/
def facesX (S : Finset Idx) : Finset Idx := shifts S [⟨0, 0, 0⟩, ⟨1, 0, 0⟩]
def facesY (S : Finset Idx) : Finset Idx := shifts S [⟨0, 0, 0⟩, ⟨0, 1, 0⟩]
def facesZ (S : Finset Idx) : Finset Idx := shifts S [⟨0, 0, 0⟩, ⟨0, 0, 1⟩]

/-- The Euler number of the union of the cells of `S`: corners minus edges plus faces minus cells.  For a
connected body it is one minus the number of holes plus the number of voids. -/
def euler (S : Finset Idx) : ℤ :=
  (points S).card - ((edgesX S).card + (edgesY S).card + (edgesZ S).card) +
    ((facesX S).card + (facesY S).card + (facesZ S).card) - S.card

/-- `l` is one of the cells of the block that is spanned by `i` and `j`. -/
def Between (i j l : Idx) : Prop :=
  (l.x = i.x ∨ l.x = j.x) ∧ (l.y = i.y ∨ l.y = j.y) ∧ (l.z = i.z ∨ l.z = j.z)

/-- The cells meet in an edge or a corner only. -/
def Diagonal (i j : Idx) : Prop := i ≠ j ∧ Close i j ∧ ¬ FaceAdj i j

/-- Where two cells of `S` meet diagonally there is a third one of `S` between them, and likewise for cells
outside `S`: the boundary does not touch itself. -/
def WellComposed (S : Finset Idx) : Prop := ∀ i j, Diagonal i j →
  (i ∈ S → j ∈ S → ∃ l ∈ S, Between i j l ∧ l ≠ i ∧ l ≠ j) ∧
  (i ∉ S → j ∉ S → ∃ l, l ∉ S ∧ Between i j l ∧ l ≠ i ∧ l ≠ j)

/-- `v` is the middle of a 2×2×2 block of cells of `S`. -/
def Inside (S : Finset Idx) (v : Idx) : Prop := ∀ i, Corner i v → i ∈ S

/-- `S` contains a 2×2×2 block of cells. -/
def HasBlock (S : Finset Idx) : Prop := ∃ v, Inside S v

/-- `v` is the middle of a 2×2×2 block of `S`, and one of the four cells under the block is outside `S`. -/
def OpenBelow (S : Finset Idx) (v : Idx) : Prop :=
  Inside S v ∧ ∃ i, Corner i v ∧ (⟨i.x, i.y, v.z - 2⟩ : Idx) ∉ S

open Classical in
/-- The middles of the blocks of `S` that are open below. -/
noncomputable def openBlocks (S : Finset Idx) : Finset Idx := (points S).filter (OpenBelow S)

/-- `S` has a flat piece of top of 2×2 cells that is at least two cells thick: a 2×2×2 block of `S` with none of the
four cells over it in `S`. -/
def FlatTop (S : Finset Idx) : Prop := ∃ v : Idx, ∀ i, Corner i v →
  (⟨i.x, i.y, v.z⟩ : Idx) ∉ S ∧ (⟨i.x, i.y, v.z - 1⟩ : Idx) ∈ S ∧ (⟨i.x, i.y, v.z - 2⟩ : Idx) ∈ S

end Verif.Spec
