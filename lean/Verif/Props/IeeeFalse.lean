import Verif.Props.Builder
import Verif.Props.ConvexFloat

/-!
# C48, C68, C81, C82: the counterexamples in IEEE arithmetic
-/

namespace Verif

open Spec Builder DField SdfGen FSdf

theorem ieee_one32' : ieee.r32 (1 : EReal) = 1 := by
  have := ieee_one32
  simpa using this

theorem r32_ieee_one : (0 : EReal) < ieee.r32 ((1 : ℝ) : EReal) := by
  rw [ieee_one32]; exact_mod_cast zero_lt_one

theorem exSeg81_values_ieee {o : Out} (ho : exSeg81.segField ieee 1 true = some o) :
    TMap.realOf (o.sdf.get ⟨0, 0, 0⟩) = 1 ∧ TMap.realOf (o.sdf.get ⟨1, 0, 0⟩) = -1 := by
  classical
  have hd : SmallGrid (enlarge exSeg81.dims) := by unfold SmallGrid; decide
  have hf := TMap.objFill_answers exSeg81 [] true
  have ho' : extract ieee (1, 1, 1) exSeg81.grid.dims (TMap.objFill exSeg81 [] true) (some ⊤)
      true = some o := ho
  have h0 : InBounds exSeg81.dims ⟨0, 0, 0⟩ := inB_iff_spec.mp (by decide)
  have hb1 : InBounds exSeg81.dims ⟨1, 0, 0⟩ := inB_iff_spec.mp (by decide)
  constructor
  · have hfree : ¬ TObstacle exSeg81 true ⟨0, 0, 0⟩ := by unfold TObstacle; decide
    rw [C17_boundary goodRes_ieee_one r32_ieee_one hd hf ho' h0 (.inl ⟨by decide, .inl rfl⟩)]
    simp [hfree, TMap.realOf, ieee_one32']
  · have hfree : TObstacle exSeg81 true ⟨1, 0, 0⟩ := by unfold TObstacle; decide
    rw [C17_boundary goodRes_ieee_one r32_ieee_one hd hf ho' hb1 (.inl ⟨by decide, .inr (by decide)⟩)]
    simp [hfree, TMap.realOf, ieee_one32', Selected]

theorem exSeg81_unsegmented_ieee {m' : TMap} {n : Nat}
    (hup : exSeg81.updateConvex ieee 1 idAff idAff 1 true = some (m', n)) :
    (m'.getImm ⟨0, 0, 0⟩).1.seg = 0 := by
  have hd : SmallGrid (enlarge exSeg81.dims) := by unfold SmallGrid; decide
  have h0 : InBounds exSeg81.dims ⟨0, 0, 0⟩ := inB_iff_spec.mp (by decide)
  obtain ⟨o, ho, hdim⟩ := TMap.segField_some (R := ieee) (res := 1) exSeg81 true hd
  obtain ⟨hv0, hv1⟩ := exSeg81_values_ieee ho
  have hg : (TMap.asMSdf 1 idAff idAff o.sdf).gradField.grad ⟨0, 0, 0⟩ = [-2, 0, 0] := by
    have hdim' : (TMap.asMSdf 1 idAff idAff o.sdf).grid.dims = ⟨2, 1, 1⟩ := hdim
    have hgg : (TMap.asMSdf 1 idAff idAff o.sdf).gridGrad ⟨0, 0, 0⟩ true = [-2, 0, 0] := by
      unfold MSdf.gridGrad
      simp only [hdim', TMap.asMSdf_get]
      norm_num [TMap.asMSdf, Dims.inB, hv0, hv1]
    show MSdf.gradient _ _ _ = _
    unfold MSdf.gradient
    rw [hgg]
    have : (TMap.asMSdf 1 idAff idAff o.sdf).origin.lin ⟨-2, 0, 0⟩ = ⟨-2, 0, 0⟩ := idAff_unrotated _
    simp only [this]
  refine TMap.seg_zero_of_offGrid (m := exSeg81) (by norm_num) rfl (by decide) (border := true) hd
    ho hup h0 (j := ⟨0, 0, 0⟩) (k := ⟨-1, 0, 0⟩) .refl ?_ ?_ ?_
  · intro hflat
    have := hflat (-2) (by rw [hg]; simp)
    norm_num [MSdf.gradField, TMap.asMSdf] at this
  · refine ⟨_, _, _, hg, ?_⟩
    rw [TMap.asMSdf_neg, hv0]
    norm_num [MSdf.gradField, TMap.asMSdf, unitStep]
  · simp [InBounds]

/-- C81 is false in IEEE arithmetic: in a row of a free cell and a filled cell of an object, both paths leave the grid
and neither cell is segmented. -/
theorem C81_false_ieee : ¬ C81Statement ieee := by
  intro hst
  have hd : SmallGrid (enlarge exSeg81.dims) := by unfold SmallGrid; decide
  obtain ⟨m', n, hup, hall⟩ := hst 1 idAff idAff exSeg81 1 goodRes_ieee_one r32_ieee_one rfl (by decide) hd
  have h0 : InBounds exSeg81.dims ⟨0, 0, 0⟩ := inB_iff_spec.mp (by decide)
  have h1 := hall ⟨0, 0, 0⟩ h0 (by unfold FreeOrNamed; decide)
  rw [exSeg81_unsegmented_ieee hup] at h1
  simp at h1

/-- C82 is false in IEEE arithmetic: an object's path moves from its cell to the shell, where the next cell's gradient
points out of the grid. -/
theorem C82_false_ieee : ¬ C82Statement ieee := by
  intro hst
  have hd : SmallGrid exShell.dims := by unfold SmallGrid; decide
  obtain ⟨m', n, hup, hall⟩ := hst 1 idAff idAff exShell 1 goodRes_ieee_one r32_ieee_one rfl (by decide) hd
    exShell_shell
  have hin : ∀ i ∈ exShell.dims.all, InBounds exShell.dims i :=
    fun i hi => inB_iff_spec.mp (Dims.mem_all.mp hi)
  have h12 : InBounds exShell.dims ⟨1, 2, 0⟩ := hin _ (by decide)
  have h1 := hall ⟨1, 2, 0⟩ h12 (by decide) (by unfold FreeOrNamed; decide)
  obtain ⟨o, ho, hdim⟩ := TMap.segField_some (R := ieee) (res := 1) exShell false hd
  have ho' : exShell.extractFreeNamed ieee (1, 1, 1) (some ⊤) true = some o := ho
  have hdim' : (TMap.asMSdf 1 idAff idAff o.sdf).grid.dims = ⟨4, 5, 1⟩ := hdim
  have hfree : ∀ v w, v ∈ exShell.dims.all → w ∈ exShell.dims.all → sqDist v w = 1 →
      ¬ TObstacle exShell true v → TObstacle exShell true w →
      TMap.realOf (o.sdf.get v) = 1 := by
    intro v w hv hw hs a b
    rw [(C41_touching goodRes_ieee_one r32_ieee_one exShell hd ho' (hin _ hv) (hin _ hw) hs).1 a b]
    simp [TMap.realOf, ieee_one32']
  have hnamed : ∀ v w, v ∈ exShell.dims.all → w ∈ exShell.dims.all → sqDist v w = 1 →
      NamedObstacle exShell true v → ¬ NamedObstacle exShell true w →
      TMap.realOf (o.sdf.get v) = -1 := by
    intro v w hv hw hs a b
    rw [(C41_touching goodRes_ieee_one r32_ieee_one exShell hd ho' (hin _ hv) (hin _ hw) hs).2 a b]
    simp [TMap.realOf, ieee_one32']
  have hzero : ∀ v ∈ exShell.dims.all, TObstacle exShell true v → (exShell.getImm v).1.obj = 0 →
      TMap.realOf (o.sdf.get v) = 0 := by
    intro v hv a b
    obtain ⟨o'', ho'', _, hval⟩ := C41_trichotomy goodRes_ieee_one r32_ieee_one exShell hd (some ⊤) true
    rw [ho'] at ho''
    simp only [Option.some.injEq] at ho''
    subst ho''
    obtain ⟨x, hx, _, _, h0⟩ := hval v (hin v hv)
    rw [hx, h0.mpr ⟨a, b⟩]
    simp [TMap.realOf]
  have v11 := hfree ⟨1, 1, 0⟩ ⟨0, 1, 0⟩ (by decide) (by decide) (by decide) (by decide) (by decide)
  have v22 := hfree ⟨2, 2, 0⟩ ⟨3, 2, 0⟩ (by decide) (by decide) (by decide) (by decide) (by decide)
  have v12 := hnamed ⟨1, 2, 0⟩ ⟨0, 2, 0⟩ (by decide) (by decide) (by decide) (by decide) (by decide)
  have v13 := hnamed ⟨1, 3, 0⟩ ⟨0, 3, 0⟩ (by decide) (by decide) (by decide) (by decide) (by decide)
  have v02 := hzero ⟨0, 2, 0⟩ (by decide) (by decide) (by decide)
  have v03 := hzero ⟨0, 3, 0⟩ (by decide) (by decide) (by decide)
  have v04 := hzero ⟨0, 4, 0⟩ (by decide) (by decide) (by decide)
  have hrot : ∀ p, (TMap.asMSdf 1 idAff idAff o.sdf).origin.lin p = p := idAff_unrotated
  have g12 : (TMap.asMSdf 1 idAff idAff o.sdf).gradField.grad ⟨1, 2, 0⟩ = [1 / 2, -1, 0] := by
    have hgg : (TMap.asMSdf 1 idAff idAff o.sdf).gridGrad ⟨1, 2, 0⟩ true = [1 / 2, -1, 0] := by
      unfold MSdf.gridGrad
      simp only [hdim', TMap.asMSdf_get]
      norm_num [TMap.asMSdf, Dims.inB, v11, v22, v13, v02]
    show MSdf.gradient _ _ _ = _
    unfold MSdf.gradient
    rw [hgg]
    simp only [hrot]
  have g03 : (TMap.asMSdf 1 idAff idAff o.sdf).gradField.grad ⟨0, 3, 0⟩ = [-1, 0, 0] := by
    have hgg : (TMap.asMSdf 1 idAff idAff o.sdf).gridGrad ⟨0, 3, 0⟩ true = [-1, 0, 0] := by
      unfold MSdf.gridGrad
      simp only [hdim', TMap.asMSdf_get]
      norm_num [TMap.asMSdf, Dims.inB, v13, v02, v03, v04]
    show MSdf.gradient _ _ _ = _
    unfold MSdf.gradient
    rw [hgg]
    simp only [hrot]
  have hz := TMap.seg_zero_of_offGrid (m := exShell) (by norm_num) rfl (by decide) (border := false) hd
    ho hup h12 (j := ⟨0, 3, 0⟩) (k := ⟨-1, 3, 0⟩) (.single ⟨?_, ?_, ?_⟩) ?_ ?_ ?_
  · rw [hz] at h1; simp at h1
  · intro hflat
    have := hflat (-1) (by rw [g12]; simp)
    norm_num [MSdf.gradField, TMap.asMSdf] at this
  · refine ⟨_, _, _, g12, ?_⟩
    rw [TMap.asMSdf_neg, v12]
    norm_num [MSdf.gradField, TMap.asMSdf, unitStep]
  · exact hin _ (by decide)
  · intro hflat
    have := hflat (-1) (by rw [g03]; simp)
    norm_num [MSdf.gradField, TMap.asMSdf] at this
  · refine ⟨_, _, _, g03, ?_⟩
    rw [TMap.asMSdf_neg, v03]
    norm_num [MSdf.gradField, TMap.asMSdf, unitStep]
  · simp [InBounds]

theorem exSetup_good_ieee : GoodSetup exSetup ieee ⟨2, 2, 2⟩ := by
  refine ⟨rfl, by unfold SmallGrid; decide, ⟨?_, goodRes_ieee_one.2⟩, r32_ieee_one, ⟨0, rfl, ?_, ?_⟩⟩
  · show (0 : ℝ) < 1; norm_num
  · have : ((-1 : ℝ) : EReal) < ((0 : ℝ) : EReal) := EReal.coe_lt_coe_iff.mpr (by norm_num)
    exact this
  · have : ((0 : ℝ) : EReal) < ((256 : ℝ) : EReal) := EReal.coe_lt_coe_iff.mpr (by norm_num)
    exact this

/-- C48 is false in IEEE arithmetic. -/
theorem C48_false_ieee : ¬ C48Statement ieee := by
  intro h
  obtain ⟨s', g, q, e, _⟩ := C48_returns_sdf exSetup_good_ieee ⟨0, 0, 0⟩ (mode := 3) (by omega)
  exact h _ _ exSetup ⟨2, 2, 2⟩ _ 3 exSetup_good_ieee (by omega) s' g q e

/-- C68 is false in IEEE arithmetic. -/
theorem C68_false_ieee : ¬ C68Statement ieee := by
  intro h
  refine h (Option ℝ) (Option ℝ) { exSetup with oob := some ⊤ } ⟨2, 2, 2⟩ ⟨0, 0, 0⟩ none rfl
    (by unfold SmallGrid; decide) exSetup_good_ieee.res ?_
  apply C68_oob_undefined (d := ⟨2, 2, 2⟩) rfl _ _ (by omega)
  rintro ⟨y, hy, _, h2⟩
  simp only [Option.some.injEq] at hy
  subst hy
  exact absurd h2 (by simp)

end Verif
