import Verif.Props.Work
import Verif.Props.Tagged

/-!
# Work of labelling components and segments of tagged maps (C141)
-/

namespace Verif

open Spec

namespace CompFns

variable {σ τ : Type} {F : CompFns σ} {G : CompFns τ} {π : σ → τ} {ok : σ → Prop}

theorem markSteps_sim (H : Sim F G π ok) (lbl : Nat) : ∀ (fuel : Nat) (s : σ) (q seen : List Idx),
    ok s → F.markSteps lbl fuel s q seen = G.markSteps lbl fuel (π s) q seen := by
  intro fuel
  induction fuel with
  | zero => intro s q seen _; cases q <;> rfl
  | succ fuel ih =>
    intro s q seen hs
    cases q with
    | nil => rfl
    | cons a q =>
      have hs' := H.ok_mark s a lbl hs
      have hv : F.visit (F.mark s a lbl) a = G.visit (G.mark (π s) a lbl) a := by
        funext qs n
        rw [visit_sim H hs', H.mark s a lbl hs]
      simp only [markSteps]
      rw [ih _ _ _ hs', H.mark s a lbl hs, hv]

theorem sweepSteps_sim (H : Sim F G π ok) (fuel : Nat) (total : Int) : ∀ (l : List Idx) (s : σ) (n : Nat)
    (m : Int), ok s → F.sweepSteps fuel total l s n m = G.sweepSteps fuel total l (π s) n m := by
  intro l
  induction l with
  | nil => intro s n m _; rfl
  | cons a l ih =>
    intro s n m hs
    unfold sweepSteps
    rw [H.getC s a hs]
    split
    · obtain ⟨h1, h2⟩ := markLoop_sim H ((n + 1) % u32) fuel s [a] [a] hs
      dsimp only
      rw [markSteps_sim H _ fuel s _ _ hs]
      congr 1
      unfold markCC
      rw [← h1]
      cases hm : F.markLoop ((n + 1) % u32) fuel s [a] [a] with
      | none => rfl
      | some s' =>
        simp only [Option.map_some]
        split
        · rfl
        · exact ih _ _ _ (h2 s' hm)
    · exact ih _ _ _ hs

theorem steps_sim (H : Sim F G π ok) (d : Dims) (s : σ) (hs : ok s) : F.steps d s = G.steps d (π s) := by
  obtain ⟨h1, h2⟩ := reset_sim H d.all s hs
  have := sweepSteps_sim H d.size (d.size : Int) d.all (F.reset d s) 0 0 h2
  rw [show π (F.reset d s) = G.reset d (π s) from h1] at this
  exact this

end CompFns

/-- C141, components of a tagged map.  Labelling them takes one iteration of the flood fill per cell; a second call
takes none. -/
theorem C141_tagged_components {m : TMap} (h : m.grid.WF) (hsz : m.dims.nx * m.dims.ny * m.dims.nz < 2 ^ 32) :
    (m.valid = false → m.updateSteps = m.dims.nx * m.dims.ny * m.dims.nz) ∧
      ∀ m' n, m.updateCC = some (m', n) → m'.updateSteps = 0 := by
  have hplain : ∀ t : TMap, t.updateSteps = t.plain.updateSteps := by
    intro t
    unfold TMap.updateSteps CMap.updateSteps
    rw [show t.plain.valid = t.valid from rfl]
    split
    · rfl
    · exact CompFns.steps_sim TMap.comp_sim t.dims { t with valid := false } trivial
  have hwf : m.plain.grid.WF := by
    unfold Grid.WF at h ⊢
    simpa [TMap.plain] using h
  obtain ⟨h1, h2⟩ := C141_components (m := m.plain) hwf hsz
  refine ⟨fun hv => (hplain m).trans (h1 hv), fun m' n hu => ?_⟩
  have := TMap.plain_updateCC m
  rw [hu] at this
  exact (hplain m').trans (h2 m'.plain n this.symm)

open Classical in
/-- C141, convex segments.  Labelling them takes one iteration of the flood fill per cell that takes part in the
segmentation. -/
theorem C141_segments (S : SegData) (hsym : ∀ i j, S.near i j = true → S.near j i = true) {m : TMap}
    (h : m.grid.WF) (hsz : m.dims.nx * m.dims.ny * m.dims.nz < 2 ^ 32) :
    m.segSteps S = (m.dims.all.filter fun i => Segmentable S m i).length ∧
      m.segSteps S ≤ m.dims.nx * m.dims.ny * m.dims.nz := by
  have hs : m.dims.size = m.dims.nx * m.dims.ny * m.dims.nz := by unfold Dims.size; ring
  have key : m.segSteps S = (m.dims.all.filter fun i => Segmentable S m i).length :=
    CompFns.steps_eq (TMap.seg_lawful S hsym m) (by unfold u32; exact hs ▸ hsz) m
      ⟨h, rfl, rfl, rfl, rfl, fun _ => ⟨rfl, rfl, rfl⟩⟩
  refine ⟨key, ?_⟩
  rw [key, ← hs, ← Dims.length_all]
  exact List.length_filter_le _ _

/-- A 3×2×2 map with one filled cell that belongs to no object: all cells take part in the components, all but one in
the segments. -/
def exWork : TMap := (TMap.create false ⟨3, 2, 2⟩ (TCell.ofObj 0 0) (TCell.ofObj 0 0)).run
  [.setValue ⟨1, 0, 0⟩ (TCell.ofObj F32.one 0)]

example : (∀ i j, exSeg.near i j = true → exSeg.near j i = true) ∧ exWork.grid.WF ∧ exWork.valid = false ∧
    exWork.dims.nx * exWork.dims.ny * exWork.dims.nz < 2 ^ 32 ∧ exWork.updateSteps = 12 ∧
    exWork.segSteps exSeg = 11 :=
  ⟨fun _ _ _ => rfl, by unfold Grid.WF; decide, by decide, by decide, by decide +kernel, by decide +kernel⟩

end Verif
