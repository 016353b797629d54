import Verif.GenNode
import Verif.Props.Builder

/-!
# Properties of the generator node (C80)
-/

namespace Verif

open Spec Builder

namespace GenNode

variable {Scene Msg : Type} {S : Setup Scene Msg} {R : Rounding}

/-- One step of the display loop. -/
private abbrev exStep {P : Type} (loc : Idx → P) (g : Grid Nat) (pts : List P) (i : Idx) : Option (List P) :=
  if (g.getImm i).1 = 1 then some (pts ++ [loc i])
    else if (g.getImm i).1 = 0 then some pts else none

theorem export_fold {P : Type} (loc : Idx → P) (g : Grid Nat) : ∀ (l : List Idx) (pts : List P),
    (∀ i ∈ l, g.get i = 0 ∨ g.get i = 1) →
    l.foldlM (exStep loc g) pts =
    some (pts ++ (l.filter fun i => g.get i == 1).map loc) := by
  intro l
  induction l with
  | nil => intro pts _; simp
  | cons a l ih =>
    intro pts h
    have hget : (g.getImm a).1 = g.get a := rfl
    rw [List.foldlM_cons]
    rcases h a (by simp) with ha | ha
    · have e : exStep loc g pts a = some pts := by simp [exStep, hget, ha]
      rw [e, Option.bind_eq_bind, Option.bind_some, ih pts (fun i hi => h i (by simp [hi]))]
      simp [ha]
    · have e : exStep loc g pts a = some (pts ++ [loc a]) := by simp [exStep, hget, ha]
      rw [e, Option.bind_eq_bind, Option.bind_some,
        ih (pts ++ [loc a]) (fun i hi => h i (by simp [hi]))]
      simp [ha]

theorem export_fold_some {P : Type} (loc : Idx → P) (g : Grid Nat) : ∀ (l : List Idx) (pts r : List P),
    l.foldlM (exStep loc g) pts = some r → ∀ i ∈ l, g.get i = 0 ∨ g.get i = 1 := by
  intro l
  induction l with
  | nil => intro _ _ _ i hi; simp at hi
  | cons a l ih =>
    intro pts r h i hi
    have hget : (g.getImm a).1 = g.get a := rfl
    rw [List.foldlM_cons] at h
    cases e : exStep loc g pts a with
    | none => rw [e] at h; simp at h
    | some q =>
      rw [e, Option.bind_eq_bind, Option.bind_some] at h
      rcases List.mem_cons.mp hi with rfl | hi
      · by_contra hc
        have hc := not_or.mp hc
        simp [exStep, hget, hc.1, hc.2] at e
      · exact ih q r h i hi

/-- C80 (display).  The collision map display succeeds exactly if every cell is 0 or 1; it then has one
point per cell that is 1, in scan order. -/
theorem C80_display {P : Type} (loc : Idx → P) (g : Grid Nat) (r : List P) :
    exportCollisionMap loc g = some r ↔
      (∀ i, InBounds g.dims i → g.get i = 0 ∨ g.get i = 1) ∧
        r = (g.dims.all.filter fun i => g.get i == 1).map loc := by
  have fwd : (∀ i, InBounds g.dims i → g.get i = 0 ∨ g.get i = 1) →
      exportCollisionMap loc g = some ((g.dims.all.filter fun i => g.get i == 1).map loc) := by
    intro h
    have := export_fold loc g g.dims.all []
      (fun i hi => h i (inB_iff_spec.mp (Dims.mem_all.mp hi)))
    simpa [exportCollisionMap, exStep] using this
  constructor
  · intro h
    have h1 : ∀ i, InBounds g.dims i → g.get i = 0 ∨ g.get i = 1 := fun i hi =>
      export_fold_some loc g g.dims.all [] r h i (Dims.mem_all.mpr (inB_iff_spec.mpr hi))
    refine ⟨h1, ?_⟩
    rw [fwd h1] at h
    exact (Option.some.inj h).symm
  · rintro ⟨h, rfl⟩
    exact fwd h

/-- What a viewer of one pass sees: points exactly at the colliding cell centres of a scene, and the
signed distance field of the same scene. -/
structure Shows (S : Setup Scene Msg) (R : Rounding) (d : Dims) (sc : Scene) (p : Pass (V3 ℝ)) : Prop where
  points : p.cmapPoints = (d.all.filter fun i => S.collides sc (S.loc i)).map S.loc
  sdf : SdfOf S R d sc p.sdf
  sign : ∀ v, InBounds d v → ∃ x, p.sdf.get v = some x ∧ x ≠ 0 ∧
    (x < 0 ↔ S.collides sc (S.loc v) = true)

theorem pass_ready {d : Dims} (hS : GoodSetup S R d) {s : St Scene} {sc : Scene} (hs : Ready s sc)
    (a : Option Msg) :
    ∃ s' p, pass S R s a = some (s', p) ∧ Ready s' (S.apply sc (a.getD S.emptyMsg)) ∧
      Shows S R d (S.apply sc (a.getD S.emptyMsg)) p := by
  obtain ⟨s1, o1, q1, e1, r1, h1⟩ := cmap_ready hS hs 3 a
  obtain ⟨g, rfl, hg⟩ := h1 (by omega) (by omega)
  simp only [or_true, if_true] at r1 hg
  have hsc : s1.hasScene = true := by
    have hr : run S R s [.updateCmap 3 a] = some (s1, [(.updateCmap 3 a, .cmap g)]) := by
      simp [run, e1]
    obtain ⟨_, h2⟩ := run_hasScene [.updateCmap 3 a] (s := s) hs.init hr
    exact h2.mpr (Or.inr ⟨.updateCmap 3 a, by simp, by simp [Provides]⟩)
  obtain ⟨s2, o2, q2, e2, r2, h2⟩ := sdf_ready hS r1 0 none
  obtain ⟨f, rfl, hf⟩ := h2 (by omega) (fun _ => hsc)
  have z : ¬ ((0 : Nat) = 1 ∨ (0 : Nat) = 2 ∨ (0 : Nat) = 3) := by omega
  rw [if_neg z] at r2 hf
  have hval : ∀ i, InBounds g.dims i → g.get i = 0 ∨ g.get i = 1 := by
    intro i hi
    rw [hg.1] at hi
    rw [hg.2 i hi]
    split
    · exact Or.inr rfl
    · exact Or.inl rfl
  have hx := (C80_display S.loc g _).mpr ⟨hval, rfl⟩
  have hpts : (g.dims.all.filter fun i => g.get i == 1) =
      d.all.filter fun i => S.collides (S.apply sc (a.getD S.emptyMsg)) (S.loc i) := by
    rw [hg.1]
    apply List.filter_congr
    intro i hi
    rw [hg.2 i (inB_iff_spec.mp (Dims.mem_all.mp hi))]
    cases S.collides (S.apply sc (a.getD S.emptyMsg)) (S.loc i) <;> rfl
  refine ⟨s2, ⟨(g.dims.all.filter fun i => g.get i == 1).map S.loc, g, f⟩, ?_, r2, ?_, hf, ?_⟩
  · unfold pass
    rw [e1]
    simp only [hx, e2]
  · simp only [hpts]
  · intro v hv
    obtain ⟨x, x1, x2, x3, x4⟩ := C67_agree hS hf hg hv
    exact ⟨x, x1, x2, x3.trans x4⟩

/-- C80 (part that holds).  If the out-of-bounds value fits into a `uint8_t`, the loop runs for any number
of passes and any answers of the service; pass `k` shows the collision points and the signed distance
field of one and the same scene: the initial one with the first `k + 1` answers applied in order. -/
theorem C80_loop_partial {d : Dims} (hS : GoodSetup S R d) (j : Joints) (answers : List (Option Msg)) :
    ∃ s ps, loop S R (init S j) answers = some (s, ps) ∧ ps.length = answers.length ∧
      ∀ (k : Nat) (p : Pass (V3 ℝ)), ps[k]? = some p →
        Shows S R d ((answers.take (k + 1)).foldl (fun sc a => S.apply sc (a.getD S.emptyMsg)) S.scene0) p := by
  have gen : ∀ (answers : List (Option Msg)) (s : St Scene) (sc : Scene), Ready s sc →
      ∃ s' ps, loop S R s answers = some (s', ps) ∧ ps.length = answers.length ∧
        ∀ (k : Nat) (p : Pass (V3 ℝ)), ps[k]? = some p →
          Shows S R d ((answers.take (k + 1)).foldl (fun sc a => S.apply sc (a.getD S.emptyMsg)) sc) p := by
    intro answers
    induction answers with
    | nil => intro s sc _; exact ⟨s, [], rfl, rfl, by simp⟩
    | cons a as ih =>
      intro s sc hs
      obtain ⟨s1, p, e, r, sh⟩ := pass_ready hS hs a
      obtain ⟨s2, ps, e2, l2, h2⟩ := ih s1 _ r
      refine ⟨s2, p :: ps, ?_, by simp [l2], ?_⟩
      · simp [loop, e, e2]
      · intro k q hk
        cases k with
        | zero =>
          simp only [List.getElem?_cons_zero, Option.some.injEq] at hk
          subst hk
          simpa using sh
        | succ k =>
          simp only [List.getElem?_cons_succ] at hk
          simpa using h2 k q hk
  exact gen answers (init S j) S.scene0 ⟨rfl, j, rfl⟩

/-- C80 is violated by the node as written: it constructs its builder with the out-of-bounds value
`INFINITY` (`src/sdf_generation_node.cpp:79`), so the first pass has undefined behaviour whatever the
planning scene service answers. -/
theorem C80_node_undefined (hS : S.oob = some ⊤) (j : Joints) (a : Option Msg) (as : List (Option Msg)) :
    loop S R (init S j) (a :: as) = none := by
  have hno : ¬ OobFits S.oob := by
    rintro ⟨y, hy, _, h2⟩
    rw [hS] at hy
    simp only [Option.some.injEq] at hy
    subst hy
    exact absurd h2 (by simp)
  have key : pass S R (init S j) a = none := by
    have hb : ∀ (s : St Scene), s.initialized = true → (∃ x, s.scene = some x) →
        (∃ o, step S R s (.updateSdf 0 none) = some (s, o, []) ∧ o = Outcome.threw) ∨
          step S R s (.updateSdf 0 none) = none := by
      intro s h1 ⟨x, h2⟩
      simp only [step, update, h1, h2]
      by_cases h3 : s.hasScene = true
      · right; simp [h3, buildSdf, hno]
      · left; simp [h3]
    unfold pass
    split
    · rename_i s1 g q e
      split
      · rfl
      · have hi : s1.initialized = true ∧ ∃ x, s1.scene = some x := by
          have e1 := congrArg (fun r : Result Scene => r.map (·.1)) e
          simp only [step, update, init, Bool.not_true, Bool.false_eq_true, if_false, components, (by decide : ¬ (3 : Nat) = 0),
            Option.map_some, Option.some.injEq] at e1
          rw [← e1]
          unfold buildCmap
          split
          · exact ⟨rfl, _, rfl⟩
          · exact ⟨rfl, _, rfl⟩
        rcases hb s1 hi.1 hi.2 with ⟨o, ho, rfl⟩ | ho
        · rw [ho]
        · rw [ho]
    · rfl
  simp [loop, key]

/-- `exSetup` meets the hypothesis of `C80_loop_partial`; with an infinite out-of-bounds value it meets
that of `C80_node_undefined`. -/
example : GoodSetup exSetup SdfGen.exactRounding ⟨2, 2, 2⟩ ∧
    ({ exSetup with oob := some ⊤ } : Setup (Option ℝ) (Option ℝ)).oob = some ⊤ := ⟨exSetup_good, rfl⟩

example : exportCollisionMap (fun i => i.x) ((Grid.mk' ⟨3, 1, 1⟩ 0 0).set ⟨1, 0, 0⟩ 1) = some [1] ∧
    exportCollisionMap (fun i => i.x) ((Grid.mk' ⟨3, 1, 1⟩ 0 0).set ⟨1, 0, 0⟩ 2) = none := by
  decide +kernel

end GenNode

end Verif
