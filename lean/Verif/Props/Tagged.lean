import Verif.Tagged
import Verif.Props.CollisionMap
import Verif.Props.CMapExports

/-!
# Properties of tagged maps: components, segments and validity flags (C42, C43, C59, C60)
-/

namespace Verif

open Spec

namespace CompFns

variable {σ τ : Type} {F : CompFns σ} {G : CompFns τ} {π : σ → τ} {ok : σ → Prop}

/-- `F` behaves like `G` on the part of the state that `π` keeps. -/
structure Sim (F : CompFns σ) (G : CompFns τ) (π : σ → τ) (ok : σ → Prop) : Prop where
  conn : ∀ s i j, ok s → F.conn s i j = G.conn (π s) i j
  getC : ∀ s i, ok s → F.getC s i = G.getC (π s) i
  mark : ∀ s i c, ok s → π (F.mark s i c) = G.mark (π s) i c
  ok_mark : ∀ s i c, ok s → ok (F.mark s i c)

theorem visit_sim (H : Sim F G π ok) {s : σ} (hs : ok s) (cur : Idx) (qs : List Idx × List Idx)
    (n : Idx) : F.visit s cur qs n = G.visit (π s) cur qs n := by
  unfold visit; rw [H.getC s n hs, H.conn s cur n hs]

theorem markLoop_sim (H : Sim F G π ok) (lbl : Nat) : ∀ (fuel : Nat) (s : σ) (q seen : List Idx),
    ok s → (F.markLoop lbl fuel s q seen).map π = G.markLoop lbl fuel (π s) q seen ∧
      ∀ s', F.markLoop lbl fuel s q seen = some s' → ok s' := by
  intro fuel
  induction fuel with
  | zero =>
    intro s q seen hs
    cases q with
    | nil => simp only [markLoop]; exact ⟨rfl, fun s' h => by simp at h; exact h ▸ hs⟩
    | cons a q => simp [markLoop]
  | succ fuel ih =>
    intro s q seen hs
    cases q with
    | nil => simp only [markLoop]; exact ⟨rfl, fun s' h => by simp at h; exact h ▸ hs⟩
    | cons a q =>
      have hs' := H.ok_mark s a lbl hs
      have hv : F.visit (F.mark s a lbl) a = G.visit (G.mark (π s) a lbl) a := by
        funext qs n
        rw [visit_sim H hs', H.mark s a lbl hs]
      have := ih (F.mark s a lbl) ((faceNbrs a).foldl (F.visit (F.mark s a lbl) a) (q, seen)).1
        ((faceNbrs a).foldl (F.visit (F.mark s a lbl) a) (q, seen)).2 hs'
      rw [H.mark s a lbl hs] at this
      simp only [markLoop]
      rw [hv] at this ⊢
      exact this

theorem reset_sim (H : Sim F G π ok) : ∀ (l : List Idx) (s : σ), ok s →
    π (l.foldl (fun s i => F.mark s i 0) s) = l.foldl (fun s i => G.mark s i 0) (π s) ∧
      ok (l.foldl (fun s i => F.mark s i 0) s) := by
  intro l
  induction l with
  | nil => intro s hs; exact ⟨rfl, hs⟩
  | cons a l ih =>
    intro s hs
    simp only [List.foldl_cons]
    rw [← H.mark s a 0 hs]
    exact ih _ (H.ok_mark s a 0 hs)

theorem sweep_sim (H : Sim F G π ok) (fuel : Nat) (total : Int) : ∀ (l : List Idx) (s : σ) (n : Nat)
    (m : Int), ok s →
    (F.sweep fuel total l s n m).map (fun r => (π r.1, r.2)) = G.sweep fuel total l (π s) n m ∧
      ∀ r, F.sweep fuel total l s n m = some r → ok r.1 := by
  intro l
  induction l with
  | nil =>
    intro s n m hs
    simp only [sweep]
    exact ⟨rfl, fun r h => by simp at h; exact h ▸ hs⟩
  | cons a l ih =>
    intro s n m hs
    unfold sweep
    rw [H.getC s a hs]
    split
    · obtain ⟨h1, h2⟩ := markLoop_sim H ((n + 1) % u32) fuel s [a] [a] hs
      unfold markCC
      dsimp only
      rw [← h1]
      cases hm : F.markLoop ((n + 1) % u32) fuel s [a] [a] with
      | none => simp
      | some s' =>
        simp only [Option.map_some]
        split
        · exact ⟨rfl, fun r h => by simp at h; exact h ▸ h2 s' hm⟩
        · exact ih _ _ _ (h2 s' hm)
    · exact ih _ _ _ hs

theorem computeCC_sim (H : Sim F G π ok) (d : Dims) (s : σ) (hs : ok s) :
    (F.computeCC d s).map (fun r => (π r.1, r.2)) = G.computeCC d (π s) ∧
      ∀ r, F.computeCC d s = some r → ok r.1 := by
  obtain ⟨h1, h2⟩ := reset_sim H d.all s hs
  unfold computeCC computeCCFuel
  have := sweep_sim H d.size (d.size : Int) d.all (F.reset d s) 0 0 h2
  rw [show π (F.reset d s) = G.reset d (π s) from h1] at this
  exact this

/-- A property of the state that holds initially and survives every mark holds at the end. -/
theorem computeCC_preserves (hm : ∀ s i c, ok s → ok (F.mark s i c)) (d : Dims) (s : σ) (hs : ok s)
    (r : σ × Nat) (h : F.computeCC d s = some r) : ok r.1 :=
  (computeCC_sim (F := F) (G := F) (π := id)
    ⟨fun _ _ _ _ => rfl, fun _ _ _ => rfl, fun _ _ _ _ => rfl, hm⟩ d s hs).2 r h

variable {d : Dims} {elig : Idx → Prop} {adj : Idx → Idx → Prop}

theorem visit_fold_elig (L : F.Lawful d ok elig adj) {s : σ} (hs : ok s) (cur : Idx) :
    ∀ (l : List Idx) (qs : List Idx × List Idx), (∀ j ∈ qs.1, elig j) →
      ∀ j ∈ (l.foldl (F.visit s cur) qs).1, elig j := by
  intro l
  induction l with
  | nil => intro qs h; exact h
  | cons a l ih =>
    intro qs h
    simp only [List.foldl_cons]
    apply ih
    unfold visit
    split
    · rename_i h0
      have ha : elig a := by
        by_contra hn
        rw [L.get_inelig s a hs hn] at h0
        revert h0; decide
      split
      · split
        · exact h
        · intro j hj
          rcases List.mem_append.mp hj with hj | hj
          · exact h j hj
          · rw [List.mem_singleton.mp hj]; exact ha
      · exact h
    · exact h

/-- The flood fill marks participating cells only. -/
theorem markLoop_keeps (L : F.Lawful d ok elig adj) {Q : σ → Prop}
    (hQ : ∀ s i c, ok s → elig i → Q s → Q (F.mark s i c)) (lbl : Nat) :
    ∀ (fuel : Nat) (s : σ) (q seen : List Idx) (s' : σ), ok s → Q s → (∀ j ∈ q, elig j) →
      F.markLoop lbl fuel s q seen = some s' → ok s' ∧ Q s' := by
  intro fuel
  induction fuel with
  | zero =>
    intro s q seen s' hs hq he h
    cases q with
    | nil => simp only [markLoop, Option.some.injEq] at h; subst h; exact ⟨hs, hq⟩
    | cons a q => simp [markLoop] at h
  | succ fuel ih =>
    intro s q seen s' hs hq he h
    cases q with
    | nil => simp only [markLoop, Option.some.injEq] at h; subst h; exact ⟨hs, hq⟩
    | cons a q =>
      have ha := he a (List.mem_cons_self ..)
      have hs' := L.ok_mark s a lbl hs (L.elig_inB a ha)
      simp only [markLoop] at h
      refine ih _ _ _ _ hs' (hQ s a lbl hs ha hq) ?_ h
      exact visit_fold_elig L hs' a _ _ (fun j hj => he j (List.mem_cons_of_mem _ hj))

theorem sweep_keeps (L : F.Lawful d ok elig adj) {Q : σ → Prop}
    (hQ : ∀ s i c, ok s → elig i → Q s → Q (F.mark s i c)) (fuel : Nat) (total : Int) :
    ∀ (l : List Idx) (s : σ) (n : Nat) (m : Int) (r : σ × Nat), ok s → Q s →
      F.sweep fuel total l s n m = some r → Q r.1 := by
  intro l
  induction l with
  | nil => intro s n m r hs hq h; simp only [sweep, Option.some.injEq] at h; subst h; exact hq
  | cons a l ih =>
    intro s n m r hs hq h
    unfold sweep at h
    split at h
    · rename_i h0
      have ha : elig a := by
        by_contra hn
        rw [L.get_inelig s a hs hn] at h0
        exact absurd h0 (by decide)
      unfold markCC at h
      dsimp only at h
      cases hm : F.markLoop ((n + 1) % u32) fuel s [a] [a] with
      | none => rw [hm] at h; simp at h
      | some s' =>
        obtain ⟨k1, k2⟩ := markLoop_keeps L hQ _ fuel s [a] [a] s' hs hq
          (by intro j hj; rw [List.mem_singleton.mp hj]; exact ha) hm
        rw [hm] at h
        simp only [Option.map_some] at h
        split at h
        · simp only [Option.some.injEq] at h; subst h; exact k2
        · exact ih _ _ _ _ k1 k2 h
    · exact ih _ _ _ _ hs hq h

/-- What the reset loop establishes and marks of participating cells keep holds at the end. -/
theorem computeCC_keeps (L : F.Lawful d ok elig adj) {Q : σ → Prop}
    (hQ : ∀ s i c, ok s → elig i → Q s → Q (F.mark s i c)) (s : σ) (hok : ok (F.reset d s))
    (h0 : Q (F.reset d s)) (r : σ × Nat) (h : F.computeCC d s = some r) : Q r.1 :=
  sweep_keeps L hQ _ _ _ _ _ _ _ hok h0 h

end CompFns

namespace TMap

/-! ## The collision map inside -/

/-- The part of a cell that the component functions see. -/
def pc (c : TCell) : CCell := ⟨c.occ, c.comp⟩

theorem plain_get (m : TMap) (i : Idx) : m.plain.grid.get i = pc (m.grid.get i) := by
  unfold plain Grid.get
  simp only
  by_cases h : m.grid.dims.inB i = true
  · simp only [h, if_true, List.getElem?_map]
    cases m.grid.data[m.grid.dims.lin i]? <;> rfl
  · simp only [h]; rfl

@[simp] theorem plain_dims (m : TMap) : m.plain.grid.dims = m.grid.dims := rfl

theorem plain_wf {m : TMap} (h : m.grid.WF) : m.plain.grid.WF := by
  unfold Grid.WF plain at *; simpa using h

theorem plain_set (g : Grid TCell) (i : Idx) (c : TCell) (n s : UInt32) (v w : Bool) :
    plain ⟨g.set i c, n, s, v, w⟩ =
      ⟨(plain ⟨g, n, s, v, w⟩).grid.set i (pc c), n, v⟩ := by
  unfold plain Grid.set
  simp only
  split <;> simp [List.map_set, pc]

theorem plain_setValue (m : TMap) (i : Idx) (c : TCell) :
    (m.setValue i c).1.plain = (m.plain.setValue i (pc c)).1 := by
  unfold setValue CMap.setValue
  by_cases hb : m.grid.dims.inB i = true
  · rw [if_pos hb, if_pos (by exact hb)]; exact plain_set _ _ _ _ _ _ _
  · rw [if_neg hb, if_neg (by exact hb)]

theorem plain_mutWrite (m : TMap) (i : Idx) (c : TCell) :
    (m.mutWrite i c).1.plain = (m.plain.mutWrite i (pc c)).1 := by
  unfold mutWrite CMap.mutWrite
  by_cases hb : m.grid.dims.inB i = true
  · rw [if_pos hb, if_pos (by exact hb)]; exact plain_set _ _ _ _ _ _ _
  · rw [if_neg hb, if_neg (by exact hb)]; rfl

/-- The tagged component closures are those of the inner collision map. -/
theorem comp_sim : CompFns.Sim compFns CMap.compFns plain (fun _ => True) := by
  refine ⟨?_, ?_, ?_, fun _ _ _ h => h⟩
  · intro s i j _
    simp [compFns, CMap.compFns, connFn, CMap.connFn, plain_get, pc]
  · intro s i _
    simp [compFns, CMap.compFns, compFn, CMap.compFn, plain_get, pc]
  · intro s i c _
    simp only [compFns, CMap.compFns, markFn, CMap.markFn]
    by_cases hb : s.grid.dims.inB i = true
    · rw [if_pos hb, if_pos (by exact hb), plain_setValue, plain_get]; rfl
    · rw [if_neg hb, if_neg (by exact hb)]

/-- Refinement: a component update of a tagged map is a component update of its collision map. -/
theorem plain_updateCC (m : TMap) :
    m.updateCC.map (fun r => (r.1.plain, r.2)) = m.plain.updateCC := by
  unfold updateCC CMap.updateCC
  have hv : m.plain.valid = m.valid := rfl
  rw [hv]
  split
  · rfl
  · have h := (CompFns.computeCC_sim comp_sim m.dims { m with valid := false } trivial).1
    have e : ({ m with valid := false } : TMap).plain = { m.plain with valid := false } := rfl
    rw [e] at h
    have hd : m.plain.dims = m.dims := rfl
    rw [hd, ← h]
    cases compFns.computeCC m.dims { m with valid := false } with
    | none => rfl
    | some r => rfl

/-! ## What the two labellings leave alone -/

/-- Equal in everything except component labels, component count and component flag. -/
def SameButComp (m m' : TMap) : Prop :=
  m'.grid.WF ∧ m'.grid.dims = m.grid.dims ∧ m'.grid.dflt = m.grid.dflt ∧ m'.grid.oob = m.grid.oob ∧
    m'.nSeg = m.nSeg ∧ m'.segValid = m.segValid ∧
    ∀ i, (m'.grid.get i).occ = (m.grid.get i).occ ∧ (m'.grid.get i).obj = (m.grid.get i).obj ∧
      (m'.grid.get i).seg = (m.grid.get i).seg

/-- Equal in everything except segment labels and the component flag. -/
def SameButSeg (m m' : TMap) : Prop :=
  m'.grid.WF ∧ m'.grid.dims = m.grid.dims ∧ m'.grid.dflt = m.grid.dflt ∧ m'.grid.oob = m.grid.oob ∧
    m'.nComp = m.nComp ∧
    ∀ i, (m'.grid.get i).occ = (m.grid.get i).occ ∧ (m'.grid.get i).obj = (m.grid.get i).obj ∧
      (m'.grid.get i).comp = (m.grid.get i).comp

theorem setValue_wf {m : TMap} (h : m.grid.WF) (i : Idx) (c : TCell) :
    (m.setValue i c).1.grid.WF := by
  unfold setValue; split
  · exact h.set i c
  · exact h

theorem mutWrite_wf {m : TMap} (h : m.grid.WF) (i : Idx) (c : TCell) :
    (m.mutWrite i c).1.grid.WF := by
  unfold mutWrite; split
  · exact h.set i c
  · exact h

@[simp] theorem setValue_dims (m : TMap) (i : Idx) (c : TCell) :
    (m.setValue i c).1.grid.dims = m.grid.dims := by
  unfold setValue; split <;> simp

@[simp] theorem mutWrite_dims (m : TMap) (i : Idx) (c : TCell) :
    (m.mutWrite i c).1.grid.dims = m.grid.dims := by
  unfold mutWrite; split <;> simp

theorem setValue_get {m : TMap} (h : m.grid.WF) (i j : Idx) (c : TCell) :
    (m.setValue i c).1.grid.get j = if i = j ∧ m.grid.dims.inB i = true then c else m.grid.get j := by
  unfold setValue
  split
  · simp [Grid.get_set h, *]
  · simp [*]

theorem markFn_same {m s : TMap} (h : m.SameButComp s) (i : Idx) (c : Nat) :
    m.SameButComp (s.markFn i c) := by
  obtain ⟨h1, h2, h3, h4, h5, h6, h7⟩ := h
  unfold markFn
  split
  · rename_i hb
    refine ⟨setValue_wf h1 _ _, by simp [h2], ?_, ?_, ?_, ?_, ?_⟩
    · rw [← h3]; simp [setValue, hb]
    · rw [← h4]; simp [setValue, hb]
    · rw [← h5]; simp [setValue, hb]
    · rw [← h6]; simp [setValue, hb]
    · intro j
      rw [setValue_get h1]
      by_cases hij : i = j
      · subst hij; simp [hb, h7 i]
      · simp [hij, h7 j]
  · exact ⟨h1, h2, h3, h4, h5, h6, h7⟩

theorem segMark_same {m s : TMap} (h : m.SameButSeg s) (i : Idx) (c : Nat) :
    m.SameButSeg (s.segMark i c) := by
  obtain ⟨h1, h2, h3, h4, h5, h7⟩ := h
  unfold segMark
  split
  · rename_i hb
    refine ⟨setValue_wf h1 _ _, by simp [h2], ?_, ?_, ?_, ?_⟩
    · rw [← h3]; simp [setValue, hb]
    · rw [← h4]; simp [setValue, hb]
    · rw [← h5]; simp [setValue, hb]
    · intro j
      rw [setValue_get h1]
      by_cases hij : i = j
      · subst hij; simp [hb, h7 i]
      · simp [hij, h7 j]
  · exact ⟨h1, h2, h3, h4, h5, h7⟩

theorem updateCC_same (m : TMap) (h : m.grid.WF) (r : TMap × Nat) (hr : m.updateCC = some r) :
    m.SameButComp r.1 := by
  unfold updateCC at hr
  split at hr
  · simp at hr; subst hr; exact ⟨h, rfl, rfl, rfl, rfl, rfl, fun _ => ⟨rfl, rfl, rfl⟩⟩
  · cases hc : compFns.computeCC m.dims { m with valid := false } with
    | none => rw [hc] at hr; simp at hr
    | some q =>
      have := CompFns.computeCC_preserves (F := compFns) (ok := m.SameButComp)
        (fun s i c hs => markFn_same hs i c) m.dims { m with valid := false }
        ⟨h, rfl, rfl, rfl, rfl, rfl, fun _ => ⟨rfl, rfl, rfl⟩⟩ q hc
      rw [hc] at hr
      simp only [Option.some.injEq] at hr
      subst hr
      exact this

theorem updateSeg_same (S : SegData) (m : TMap) (h : m.grid.WF) (r : TMap × Nat)
    (hr : m.updateSeg S = some r) : m.SameButSeg r.1 := by
  unfold updateSeg at hr
  cases hc : (segFns S).computeCC m.dims m with
  | none => rw [hc] at hr; simp at hr
  | some q =>
    have := CompFns.computeCC_preserves (F := segFns S) (ok := m.SameButSeg)
      (fun s i c hs => segMark_same hs i c) m.dims m
      ⟨h, rfl, rfl, rfl, rfl, fun _ => ⟨rfl, rfl, rfl⟩⟩ q hc
    rw [hc] at hr
    simp only [Option.some.injEq] at hr
    subst hr
    exact this

/-- An update always terminates. -/
theorem updateCC_isSome (m : TMap) (h : m.grid.WF) : ∃ r, m.updateCC = some r := by
  have hp := plain_updateCC m
  by_cases hv : m.valid = true
  · exact ⟨(m, m.nComp.toNat), by simp [updateCC, hv]⟩
  · obtain ⟨m', n, h1, _⟩ := m.plain.updateCC_total (show m.valid = false by simpa using hv) (plain_wf h)
    rw [h1] at hp
    cases hu : m.updateCC with
    | none => rw [hu] at hp; simp at hp
    | some r => exact ⟨r, rfl⟩

end TMap

/-! ## C59: connected components of a tagged map -/

/-- The labels and count of a tagged map are the scan-order numbering of the face-connected regions
of equal occupancy side. -/
def IsTaggedLabelling (m : TMap) (lab : Idx → Nat) (n : Nat) : Prop :=
  Labelling m.dims (fun i => InBounds m.dims i)
    (fun i j => ((m.getImm i).1.occ.gtHalf = true ↔ (m.getImm j).1.occ.gtHalf = true)) lab n

namespace TMap

theorem labelling_plain (m : TMap) (lab : Idx → Nat) (n : Nat) :
    IsTaggedLabelling m lab n ↔ IsComponentLabelling m.plain lab n := by
  have e : sameSide m.plain = (fun i j => ((m.getImm i).1.occ.gtHalf = true ↔
      (m.getImm j).1.occ.gtHalf = true)) := by
    funext i j
    simp [sameSide, CMap.getImm, Grid.getImm, plain_get, getImm, pc]
  unfold IsComponentLabelling IsTaggedLabelling
  rw [e]
  exact Iff.rfl

theorem plain_lab (m : TMap) :
    (fun i => ((m.plain.getImm i).1).comp.toNat) = fun i => ((m.getImm i).1).comp.toNat := by
  funext i; simp [CMap.getImm, Grid.getImm, plain_get, getImm, pc]

/-- The invariant of C59. -/
def Honest (m : TMap) : Prop :=
  m.valid = true → IsTaggedLabelling m (fun i => ((m.getImm i).1).comp.toNat) m.nComp.toNat

theorem honest_plain (m : TMap) : Honest m ↔ FlagHonest m.plain := by
  unfold Honest FlagHonest
  rw [labelling_plain, plain_lab]
  exact Iff.rfl

/-- A segment update cannot make the component flag lie. -/
theorem updateSeg_honest (S : SegData) (m : TMap) (h : m.grid.WF) (hh : Honest m)
    (r : TMap × Nat) (hr : m.updateSeg S = some r) : Honest r.1 := by
  obtain ⟨h1, h2, h3, h4, h5, h6⟩ := updateSeg_same S m h r hr
  -- the flag can only be cleared
  have hval : r.1.valid = true → m.valid = true := by
    unfold updateSeg at hr
    cases hc : (segFns S).computeCC m.dims m with
    | none => rw [hc] at hr; simp at hr
    | some q =>
      have := CompFns.computeCC_preserves (F := segFns S)
        (ok := fun s => s.valid = true → m.valid = true)
        (by
          intro s i c hs
          simp only [segFns, segMark, setValue]
          split
          · intro hv; simp at hv
          · exact hs) m.dims m id q hc
      rw [hc] at hr
      simp only [Option.some.injEq] at hr
      subst hr
      exact this
  intro hv
  have := hh (hval hv)
  unfold IsTaggedLabelling at *
  have e1 : (fun i => (r.1.getImm i).1.comp.toNat) = fun i => (m.getImm i).1.comp.toNat := by
    funext i; simp [getImm, Grid.getImm, h6 i]
  have e2 : (fun i j => ((r.1.getImm i).1.occ.gtHalf = true ↔ (r.1.getImm j).1.occ.gtHalf = true))
      = fun i j => ((m.getImm i).1.occ.gtHalf = true ↔ (m.getImm j).1.occ.gtHalf = true) := by
    funext i j; simp [getImm, Grid.getImm, h6]
  have e3 : r.1.dims = m.dims := h2
  rw [e1, e2, e3, h5]
  exact this

theorem apply_inv (d : Dims) (hsz : d.size < 2 ^ 32) (m : TMap)
    (h : m.grid.WF ∧ m.dims = d ∧ Honest m) (op : Op) :
    (m.apply op).grid.WF ∧ (m.apply op).dims = d ∧ Honest (m.apply op) := by
  obtain ⟨h1, h2, h3⟩ := h
  have hp : FlagHonest m.plain := (honest_plain m).mp h3
  have hpw := plain_wf h1
  cases op with
  | setValue i c =>
    refine ⟨setValue_wf h1 i c, by simpa [dims, apply] using h2, ?_⟩
    rw [honest_plain]
    show FlagHonest (m.setValue i c).1.plain
    rw [plain_setValue]
    exact (CMap.apply_inv d hsz m.plain ⟨hpw, h2, hp⟩ (.setValue i (pc c))).2.2
  | mutWrite i c =>
    refine ⟨mutWrite_wf h1 i c, by simpa [dims, apply] using h2, ?_⟩
    rw [honest_plain]
    show FlagHonest (m.mutWrite i c).1.plain
    rw [plain_mutWrite]
    exact (CMap.apply_inv d hsz m.plain ⟨hpw, h2, hp⟩ (.mutWrite i (pc c))).2.2
  | update =>
    obtain ⟨r, hr⟩ := updateCC_isSome m h1
    have happ : m.apply .update = r.1 := by simp [apply, hr]
    rw [happ]
    have hs := updateCC_same m h1 r hr
    refine ⟨hs.1, hs.2.1.trans h2, ?_⟩
    rw [honest_plain]
    have := (CMap.apply_inv d hsz m.plain ⟨hpw, h2, hp⟩ .update).2.2
    have e : m.plain.apply .update = r.1.plain := by
      have := plain_updateCC m
      rw [hr] at this
      simp only [Option.map_some] at this
      simp [CMap.apply, ← this]
    rw [e] at this
    exact this
  | segment S =>
    show (((m.updateSeg S).map Prod.fst).getD m).grid.WF ∧
      (((m.updateSeg S).map Prod.fst).getD m).dims = d ∧ Honest (((m.updateSeg S).map Prod.fst).getD m)
    cases hr : m.updateSeg S with
    | none => exact ⟨h1, h2, h3⟩
    | some r =>
      have hs := updateSeg_same S m h1 r hr
      exact ⟨hs.1, hs.2.1.trans h2, updateSeg_honest S m h1 h3 r hr⟩

theorem run_inv (d : Dims) (hsz : d.size < 2 ^ 32) (ops : List Op) : ∀ (m : TMap),
    (m.grid.WF ∧ m.dims = d ∧ Honest m) →
    ((m.run ops).grid.WF ∧ (m.run ops).dims = d ∧ Honest (m.run ops)) := by
  induction ops with
  | nil => intro m h; exact h
  | cons op ops ih => intro m h; exact ih _ (apply_inv d hsz m h op)

end TMap

/-- C59.  After `UpdateConnectedComponents` on a tagged map whose flag is clear, the components are
the scan-order numbering of the face-connected regions, the flag is set, and every cell keeps its
occupancy, its object id and its convex segment. -/
theorem C59_components (m : TMap) (h : m.grid.WF) (hv : m.valid = false)
    (hsz : m.dims.size < 2 ^ 32) :
    ∃ m' n, m.updateCC = some (m', n) ∧ m'.getNumCC = (n, true) ∧ m'.getNumSeg = m.getNumSeg ∧
      IsTaggedLabelling m (fun i => ((m'.getImm i).1).comp.toNat) n ∧
      ∀ i, ((m'.getImm i).1).occ = ((m.getImm i).1).occ ∧
        ((m'.getImm i).1).obj = ((m.getImm i).1).obj ∧
        ((m'.getImm i).1).seg = ((m.getImm i).1).seg := by
  obtain ⟨r, hr⟩ := TMap.updateCC_isSome m h
  obtain ⟨p, n, h1, h2, h3, h4, h5⟩ := m.plain.updateCC_spec hv (TMap.plain_wf h) hsz
  have hp := TMap.plain_updateCC m
  rw [hr, h1] at hp
  simp only [Option.map_some, Option.some.injEq, Prod.mk.injEq] at hp
  obtain ⟨hp1, hp2⟩ := hp
  have hs := TMap.updateCC_same m h r hr
  refine ⟨r.1, r.2, hr, ?_, ?_, ?_, fun i => hs.2.2.2.2.2.2 i⟩
  · have a : r.1.nComp = p.nComp := by rw [← hp1]; rfl
    have b : r.1.valid = p.valid := by rw [← hp1]; rfl
    unfold TMap.getNumCC
    rw [a, b, h3, h4, hp2]
  · unfold TMap.getNumSeg
    rw [hs.2.2.2.2.1, hs.2.2.2.2.2.1]
  · rw [TMap.labelling_plain, ← TMap.plain_lab, hp1, hp2]
    exact h5

/-- C59, history: after any sequence of `SetValue`, `GetMutable`-then-write,
`UpdateConnectedComponents` and `UpdateConvexSegments` (any threshold and extrema) on a new map, a set
component flag is never stale. -/
theorem C59_flag_never_stale (d : Dims) (hsz : d.size < 2 ^ 32) (junk : Bool)
    (dflt oob : TCell) (ops : List TMap.Op) :
    let m := (TMap.create junk d dflt oob).run ops
    m.getNumCC.2 = true →
      IsTaggedLabelling m (fun i => ((m.getImm i).1).comp.toNat) m.getNumCC.1 :=
  (TMap.run_inv d hsz ops (TMap.create junk d dflt oob)
    ⟨Grid.wf_mk' d dflt oob, rfl, fun h => by simp [TMap.create] at h⟩).2.2

/-- A segment update between a write and a component update. -/
def exSeg : SegData := ⟨fun _ => false, fun _ _ => true⟩

example : ((TMap.create true ⟨2, 1, 1⟩ (TCell.ofObj 0 0) (TCell.ofObj 0 0)).run
    [.setValue ⟨0, 0, 0⟩ (TCell.ofObj F32.one 3), .segment exSeg, .update]).getNumCC = (2, true) := by
  decide

/-! ## C42: convex segments -/

/-- Which cells take part in the segmentation: free or belonging to an object, with a finite
extremum. -/
def Segmentable (S : SegData) (m : TMap) (i : Idx) : Prop :=
  InBounds m.dims i ∧ (((m.getImm i).1).occ.ltHalf = true ∨ ((m.getImm i).1).obj ≠ 0) ∧
    S.far i = false

/-- Two cells that may share a segment directly: same object, close extrema. -/
def SegCompat (S : SegData) (m : TMap) (i j : Idx) : Prop :=
  ((m.getImm i).1).obj = ((m.getImm j).1).obj ∧ S.near i j = true

namespace TMap

/-- Internal form of `Segmentable`. -/
theorem seg_elig {S : SegData} {m s : TMap} (hs : m.SameButSeg s) (i : Idx) :
    Segmentable S m i ↔ (s.grid.dims.inB i = true ∧
      ((s.grid.get i).occ.ltHalf = true ∨ (s.grid.get i).obj > 0) ∧ S.far i = false) := by
  obtain ⟨h1, h2, h3, h4, h5, h6⟩ := hs
  unfold Segmentable dims
  rw [← inB_iff_spec, h2, (h6 i).1, (h6 i).2.1]
  have : ∀ u : UInt32, u > 0 ↔ u ≠ 0 := by
    intro u
    rw [gt_iff_lt, UInt32.lt_iff_toNat_lt, ne_eq, ← UInt32.toNat_inj]
    simp only [UInt32.toNat_zero]
    omega
  rw [this]
  exact Iff.rfl

theorem segGet_elig {S : SegData} {m s : TMap} (hs : m.SameButSeg s) {i : Idx}
    (h : Segmentable S m i) : segGet S s i = ((s.grid.get i).seg.toNat : Int) := by
  obtain ⟨a, b, c⟩ := (seg_elig hs i).mp h
  simp [segGet, a, b, c]

theorem segGet_inelig {S : SegData} {m s : TMap} (hs : m.SameButSeg s) {i : Idx}
    (h : ¬ Segmentable S m i) : segGet S s i = -1 := by
  rw [seg_elig hs] at h
  unfold segGet
  by_cases a : s.grid.dims.inB i = true
  · by_cases b : (s.grid.get i).occ.ltHalf = true ∨ (s.grid.get i).obj > 0
    · by_cases c : S.far i = false
      · exact absurd ⟨a, b, c⟩ h
      · simp only [Bool.not_eq_false] at c
        simp [c]
    · rw [if_pos a, if_neg b]
  · rw [if_neg a]

theorem segMark_get {s : TMap} (h : s.grid.WF) (i j : Idx) (c : Nat) :
    ((s.segMark i c).grid.get j).seg = if i = j ∧ s.grid.dims.inB i = true then UInt32.ofNat c
      else (s.grid.get j).seg := by
  unfold segMark
  split
  · rw [setValue_get h]
    split <;> rfl
  · simp [*]

theorem seg_lawful (S : SegData) (hsym : ∀ i j, S.near i j = true → S.near j i = true) (m : TMap) :
    (segFns S).Lawful m.grid.dims m.SameButSeg (Segmentable S m) (SegCompat S m) := by
  refine ⟨fun i h => inB_iff_spec.mpr h.1, ?_, ?_, ?_, ?_, ?_, ?_, ?_⟩
  · intro s i c hs _; exact segMark_same hs i c
  · intro s i c hs hi hc
    have hs' := segMark_same hs i c
    show segGet S (s.segMark i c) i = c
    rw [segGet_elig hs' hi, segMark_get hs.1]
    have hb : s.grid.dims.inB i = true := ((seg_elig hs i).mp hi).1
    simp only [hb, and_self, if_true]
    rw [UInt32.toNat_ofNat_of_lt' (by simpa [u32] using hc)]
  · intro s i j c hs hij
    have hs' := segMark_same hs i c
    show segGet S (s.segMark i c) j = segGet S s j
    by_cases hj : Segmentable S m j
    · rw [segGet_elig hs' hj, segGet_elig hs hj, segMark_get hs.1]
      simp [hij]
    · rw [segGet_inelig hs' hj, segGet_inelig hs hj]
  · intro s i hs hi
    show 0 ≤ segGet S s i ∧ _
    show 0 ≤ segGet S s i ∧ segGet S s i < u32
    rw [segGet_elig hs hi]
    have := (s.grid.get i).seg.toNat_lt
    refine ⟨by omega, ?_⟩
    unfold u32; exact_mod_cast this
  · intro s i hs hi; exact segGet_inelig hs hi
  · intro s i j hs _ _ _
    obtain ⟨h1, h2, h3, h4, h5, h6⟩ := hs
    show segConn S s i j = true ↔ _
    unfold segConn SegCompat getImm Grid.getImm
    simp only
    rw [(h6 i).2.1, (h6 j).2.1]
    split <;> simp [*]
  · rintro i j _ _ _ ⟨a, b⟩
    exact ⟨a.symm, hsym i j b⟩

theorem segReset {S : SegData} {m : TMap} : ∀ (l : List Idx) (s : TMap), m.SameButSeg s →
    (∀ i ∈ l, s.grid.dims.inB i = true) →
    m.SameButSeg (l.foldl (fun s i => (segFns S).mark s i 0) s) ∧
    ∀ i, (i ∈ l ∨ (s.grid.get i).seg = 0) →
      ((l.foldl (fun s i => (segFns S).mark s i 0) s).grid.get i).seg = 0 := by
  intro l
  induction l with
  | nil => intro s hs _; exact ⟨hs, fun i h => by simpa using h⟩
  | cons a l ih =>
    intro s hs hb
    have hs' := segMark_same hs a 0
    have hd : (s.segMark a 0).grid.dims = s.grid.dims := by
      rw [hs'.2.1, hs.2.1]
    obtain ⟨k1, k2⟩ := ih (s.segMark a 0) hs'
      (fun i hi => by rw [hd]; exact hb i (List.mem_cons_of_mem _ hi))
    refine ⟨k1, ?_⟩
    intro i hi
    apply k2
    rw [segMark_get hs.1]
    have ha := hb a (List.mem_cons_self ..)
    by_cases hai : a = i
    · right; rw [if_pos ⟨hai, ha⟩]; rfl
    · simp only [hai, false_and, if_false]
      rcases hi with hi | hi
      · rcases List.mem_cons.mp hi with rfl | hi
        · exact absurd rfl hai
        · exact Or.inl hi
      · exact Or.inr hi

end TMap

/-- C42.  For every map, extrema map and threshold: `UpdateConvexSegments` terminates; the segments
number, in scan order, the classes of participating cells linked by chains of face-adjacent cells of
one object with close extrema; every other cell has segment 0; occupancy, object id and component of
every cell are unchanged. -/
theorem C42_segments (S : SegData) (hsym : ∀ i j, S.near i j = true → S.near j i = true) (m : TMap)
    (h : m.grid.WF) (hsz : m.dims.size < 2 ^ 32) :
    ∃ m' n, m.updateSeg S = some (m', n) ∧ m'.getNumSeg = (n, true) ∧
      Labelling m.dims (Segmentable S m) (SegCompat S m) (fun i => ((m'.getImm i).1).seg.toNat) n ∧
      (∀ i, InBounds m.dims i → ¬ Segmentable S m i → ((m'.getImm i).1).seg = 0) ∧
      ∀ i, ((m'.getImm i).1).occ = ((m.getImm i).1).occ ∧
        ((m'.getImm i).1).obj = ((m.getImm i).1).obj ∧
        ((m'.getImm i).1).comp = ((m.getImm i).1).comp := by
  have L := TMap.seg_lawful S hsym m
  have hok : m.SameButSeg m := ⟨h, rfl, rfl, rfl, rfl, fun _ => ⟨rfl, rfl, rfl⟩⟩
  obtain ⟨s', firsts, h1, h2⟩ := CompFns.computeCC_spec L hsz m hok
  have hlab := h2.labelling L
  have hlen : firsts.length ≤ m.dims.size := h2.length_le L
  have hup : m.updateSeg S = some ({ s' with nSeg := UInt32.ofNat firsts.length, segValid := true },
      firsts.length) := by
    unfold TMap.updateSeg TMap.dims
    rw [h1]
  have hs : m.SameButSeg s' := TMap.updateSeg_same S m h _ hup
  have hget : ∀ i, Segmentable S m i →
      ((TMap.segFns S).getC s' i).toNat = (s'.grid.get i).seg.toNat := by
    intro i hi
    show (TMap.segGet S s' i).toNat = _
    rw [TMap.segGet_elig hs hi]; simp
  refine ⟨_, _, hup, ?_, ?_, ?_, fun i => hs.2.2.2.2.2 i⟩
  · unfold TMap.getNumSeg
    simp only
    rw [UInt32.toNat_ofNat_of_lt' (by simp only [UInt32.size]; omega)]
  · refine ⟨?_, ?_, ?_, ?_⟩
    · intro i hi
      have := hlab.range i hi; rw [hget i hi] at this; exact this
    · intro i j hi hj
      have := hlab.same i j hi hj; rw [hget i hi, hget j hj] at this; exact this
    · intro k k1 k2
      obtain ⟨i, hi, hk⟩ := hlab.used k k1 k2
      exact ⟨i, hi, by rw [hget i hi] at hk; exact hk⟩
    · intro i j hi hj
      have := hlab.order i j hi hj; rw [hget i hi.1, hget j hj.1] at this; exact this
  · intro i hi hn
    have hr := TMap.segReset (S := S) m.dims.all m hok (fun i hi => Dims.mem_all.mp hi)
    have := CompFns.computeCC_keeps L
      (Q := fun s => ∀ i, InBounds m.dims i → ¬ Segmentable S m i → (s.grid.get i).seg = 0)
      (by
        intro s j c hs' hj hq i hi hn
        show ((s.segMark j c).grid.get i).seg = 0
        rw [TMap.segMark_get hs'.1]
        have : ¬ j = i := by rintro rfl; exact hn hj
        simp only [this, false_and, if_false]
        exact hq i hi hn)
      m hr.1
      (fun i hi _ => hr.2 i (Or.inl (Dims.mem_all.mpr (inB_iff_spec.mpr hi)))) _ h1
    exact this i hi hn

/-- C42: a segment never mixes object ids. -/
theorem C42_one_object (S : SegData) (hsym : ∀ i j, S.near i j = true → S.near j i = true) (m : TMap)
    (h : m.grid.WF) (hsz : m.dims.size < 2 ^ 32) (m' : TMap) (n : Nat)
    (hu : m.updateSeg S = some (m', n)) (i j : Idx) (hi : InBounds m.dims i)
    (hj : InBounds m.dims j) (h0 : ((m'.getImm i).1).seg ≠ 0)
    (he : ((m'.getImm i).1).seg = ((m'.getImm j).1).seg) :
    ((m'.getImm i).1).obj = ((m'.getImm j).1).obj := by
  obtain ⟨m'', n', h1, h2, h3, h4, h5⟩ := C42_segments S hsym m h hsz
  rw [hu] at h1
  simp only [Option.some.injEq, Prod.mk.injEq] at h1
  obtain ⟨rfl, rfl⟩ := h1
  have ei : Segmentable S m i := by
    by_contra hn; exact h0 (h4 i hi hn)
  have ej : Segmentable S m j := by
    by_contra hn; rw [he] at h0; exact h0 (h4 j hj hn)
  have hl := (h3.same i j ei ej).mp (by rw [he])
  rw [(h5 i).2.1, (h5 j).2.1]
  induction hl with
  | refl => rfl
  | tail _ hstep ih =>
    rename_i a b hab
    have hb := hstep.2.1
    have ha := hstep.1
    exact (ih ha.1 ((by
      have := (h3.same i a ei ha).mpr hab
      exact UInt32.toNat_inj.mp this)) ha).trans hstep.2.2.2.1

/-- Two objects side by side, everything close: the segments respect the objects. -/
example : ((TMap.create false ⟨4, 1, 1⟩ (TCell.ofObj 0 0) (TCell.ofObj 0 0)).run
    [.setValue ⟨1, 0, 0⟩ (TCell.ofObj F32.one 3), .setValue ⟨2, 0, 0⟩ (TCell.ofObj F32.one 4),
     .setValue ⟨3, 0, 0⟩ (TCell.ofObj F32.one 0), .segment exSeg]).grid.data.map TCell.seg
      = [1, 2, 3, 0] := by decide

/-! ## C43: the convex segment flag -/

/-- The stored segments are those of the current contents. -/
def SegmentsCurrent (S : SegData) (m : TMap) : Prop :=
  Labelling m.dims (Segmentable S m) (SegCompat S m) (fun i => ((m.getImm i).1).seg.toNat)
    m.getNumSeg.1

/-- C43 is violated on construction: the eight constructors with arguments set the count to 0 and
leave the flag at whatever the memory contained. -/
theorem C43_fresh_flag_is_junk (junk : Bool) (d : Dims) (dflt oob : TCell) :
    (TMap.create junk d dflt oob).getNumSeg = (0, junk) := rfl

/-- C43 is violated by writes: after `UpdateConvexSegments` a `SetValue` leaves the flag set although
the stored segments are no longer those of the contents. -/
theorem C43_flag_goes_stale :
    ∃ (S : SegData) (d : Dims) (dflt oob : TCell) (i : Idx) (c : TCell),
      (∀ i j, S.near i j = true → S.near j i = true) ∧ InBounds d i ∧
      let m := (TMap.create false d dflt oob).run [.segment S, .setValue i c]
      m.getNumSeg.2 = true ∧ ¬ SegmentsCurrent S m := by
  refine ⟨exSeg, ⟨2, 1, 1⟩, TCell.ofObj 0 0, TCell.ofObj 0 0, ⟨0, 0, 0⟩, TCell.ofObj F32.one 3,
    fun _ _ h => h, by unfold InBounds; decide, by decide, ?_⟩
  intro hl
  have := hl.range ⟨0, 0, 0⟩ ⟨by unfold InBounds; decide, by decide, by decide⟩
  exact absurd this (by decide)

/-- Calls that do not write cells. -/
def NoCellWrite (d : Dims) : TMap.Op → Prop
  | .setValue i _ => ¬ InBounds d i
  | .mutWrite _ _ => False
  | .update => True
  | .segment _ => False

/-- Calls that do not segment. -/
def NoSegment : TMap.Op → Prop
  | .segment _ => False
  | _ => True

namespace TMap

theorem run_noSegment (ops : List Op) : ∀ (m : TMap), m.grid.WF → m.segValid = false →
    (∀ o ∈ ops, NoSegment o) → (m.run ops).segValid = false := by
  induction ops with
  | nil => intro m _ h _; exact h
  | cons op ops ih =>
    intro m hw h ho
    have hop := ho op (List.mem_cons_self ..)
    refine ih (m.apply op) ?_ ?_ (fun o h => ho o (List.mem_cons_of_mem _ h))
    · cases op with
      | setValue i c => exact setValue_wf hw i c
      | mutWrite i c => exact mutWrite_wf hw i c
      | update =>
        obtain ⟨r, hr⟩ := updateCC_isSome m hw
        show ((m.updateCC.map Prod.fst).getD m).grid.WF
        rw [hr]; exact (updateCC_same m hw r hr).1
      | segment S => exact absurd hop id
    · cases op with
      | setValue i c => simp only [apply, setValue]; split <;> exact h
      | mutWrite i c => simp only [apply, mutWrite]; split <;> exact h
      | update =>
        obtain ⟨r, hr⟩ := updateCC_isSome m hw
        show ((m.updateCC.map Prod.fst).getD m).segValid = false
        rw [hr]; exact (updateCC_same m hw r hr).2.2.2.2.2.1.trans h
      | segment S => exact absurd hop id

theorem segmentsCurrent_same {S : SegData} {m m' : TMap} (hs : m.SameButComp m')
    (h : SegmentsCurrent S m) : SegmentsCurrent S m' := by
  obtain ⟨h1, h2, h3, h4, h5, h6, h7⟩ := hs
  unfold SegmentsCurrent at *
  have e1 : Segmentable S m' = Segmentable S m := by
    funext i; simp only [Segmentable, dims, getImm, Grid.getImm, h2, (h7 i).1, (h7 i).2.1]
  have e2 : SegCompat S m' = SegCompat S m := by
    funext i j; simp only [SegCompat, getImm, Grid.getImm, (h7 _).2.1]
  have e3 : (fun i => ((m'.getImm i).1).seg.toNat) = fun i => ((m.getImm i).1).seg.toNat := by
    funext i; simp only [getImm, Grid.getImm, (h7 i).2.2]
  have e4 : m'.dims = m.dims := h2
  have e5 : m'.getNumSeg.1 = m.getNumSeg.1 := by simp [getNumSeg, h5]
  rw [e1, e2, e3, e4, e5]
  exact h

theorem run_noWrite (S : SegData) (ops : List Op) : ∀ (m : TMap), m.grid.WF →
    m.segValid = true → SegmentsCurrent S m → (∀ o ∈ ops, NoCellWrite m.dims o) →
    (m.run ops).segValid = true ∧ SegmentsCurrent S (m.run ops) := by
  induction ops with
  | nil => intro m _ h h' _; exact ⟨h, h'⟩
  | cons op ops ih =>
    intro m hw h h' ho
    have hop := ho op (List.mem_cons_self ..)
    have hrest := fun o h => ho o (List.mem_cons_of_mem _ h)
    cases op with
    | setValue i c =>
      have hb : ¬ m.grid.dims.inB i = true := fun hb => hop (inB_iff_spec.mp hb)
      have : m.apply (.setValue i c) = m := by simp [apply, setValue, hb]
      show (TMap.run (m.apply _) ops).segValid = true ∧ SegmentsCurrent S (TMap.run (m.apply _) ops)
      rw [this]
      exact ih m hw h h' hrest
    | mutWrite i c => exact absurd hop id
    | update =>
      obtain ⟨r, hr⟩ := updateCC_isSome m hw
      have : m.apply .update = r.1 := by simp [apply, hr]
      have hs := updateCC_same m hw r hr
      show (TMap.run (m.apply _) ops).segValid = true ∧ SegmentsCurrent S (TMap.run (m.apply _) ops)
      rw [this]
      refine ih r.1 hs.1 (hs.2.2.2.2.2.1.trans h) (segmentsCurrent_same hs h') ?_
      intro o ho'
      have e : r.1.dims = m.dims := hs.2.1
      rw [e]; exact hrest o ho'
    | segment S => exact absurd hop id

end TMap

/-- C43 (part).  After any history that ends with `UpdateConvexSegments` followed by calls that write
no cell (component updates, refused writes), the flag is set and the stored segments are those of the
current contents.  Missing, because false: writes after the segmentation
(`C43_flag_goes_stale`), and the flag of a new map (`C43_fresh_flag_is_junk`). -/
theorem C43_current_partial (d : Dims) (hsz : d.size < 2 ^ 32) (junk : Bool)
    (dflt oob : TCell) (S : SegData) (hsym : ∀ i j, S.near i j = true → S.near j i = true)
    (before after : List TMap.Op) (hafter : ∀ o ∈ after, NoCellWrite d o) :
    let m := (TMap.create junk d dflt oob).run (before ++ .segment S :: after)
    m.getNumSeg.2 = true ∧ SegmentsCurrent S m := by
  intro m
  obtain ⟨h1, h2, h3⟩ := TMap.run_inv d hsz before (TMap.create junk d dflt oob)
    ⟨Grid.wf_mk' d dflt oob, rfl, fun h => by simp [TMap.create] at h⟩
  obtain ⟨m', n, k1, k2, k3, k4, k5⟩ := C42_segments S hsym _ h1 (by rw [h2]; exact hsz)
  have hs := TMap.updateSeg_same S _ h1 _ k1
  have hm : m = TMap.run m' after := by
    show TMap.run _ (before ++ .segment S :: after) = _
    unfold TMap.run
    rw [List.foldl_append, List.foldl_cons]
    congr 1
    show (((TMap.run (TMap.create junk d dflt oob) before).updateSeg S).map Prod.fst).getD _ = m'
    rw [k1]; rfl
  have hd : m'.dims = d := hs.2.1.trans h2
  rw [hm]
  refine TMap.run_noWrite S after m' hs.1 (by simpa [TMap.getNumSeg] using congrArg Prod.snd k2) ?_
    (by rw [hd]; exact hafter)
  unfold SegmentsCurrent
  rw [k2]
  generalize hq : (TMap.create junk d dflt oob).run before = q at *
  have e1 : Segmentable S m' = Segmentable S q := by
    funext i
    have e4 : m'.dims = q.dims := hs.2.1
    simp only [Segmentable, e4, (k5 i).1, (k5 i).2.1]
  have e2 : SegCompat S m' = SegCompat S q := by
    funext i j; simp only [SegCompat, (k5 _).2.1]
  have e4 : m'.dims = q.dims := hs.2.1
  rw [e1, e2, e4]
  exact k3

/-- C43 (part): on a default-constructed map the flag is false until `UpdateConvexSegments` is
called. -/
theorem C43_default_partial (ops : List TMap.Op) (h : ∀ o ∈ ops, NoSegment o) :
    (TMap.createDefault.run ops).getNumSeg.2 = false :=
  TMap.run_noSegment ops TMap.createDefault (Grid.wf_mk' _ _ _) rfl h

example : ∀ o ∈ [TMap.Op.update, .setValue ⟨5, 0, 0⟩ default, .update], NoCellWrite ⟨2, 2, 2⟩ o := by
  intro o ho
  simp only [List.mem_cons, List.not_mem_nil, or_false] at ho
  rcases ho with rfl | rfl | rfl
  · trivial
  · show ¬ InBounds _ _; unfold InBounds; decide
  · trivial

/-! ## C60: surface queries agree with the collision map's -/

/-- C60.  A tagged map and a collision map with the same occupancies, components and cell counts
answer `IsSurfaceIndex`, `IsConnectedComponentSurfaceIndex`, `CheckIfCandidateCorner` and
`ExtractComponentSurfaces` identically. -/
theorem C60_same_queries (t : TMap) (m : CMap) (hd : m.dims = t.dims)
    (ho : ∀ i, ((m.getImm i).1).occ = ((t.getImm i).1).occ)
    (hc : ∀ i, ((m.getImm i).1).comp = ((t.getImm i).1).comp) :
    (∀ i, t.isSurface i = m.isSurface i) ∧ (∀ i, t.isCCSurface i = m.isCCSurface i) ∧
    (∀ i, t.checkCorner i = m.checkCorner i) ∧
    ∀ f e u, t.extractSurfaces f e u = m.extractSurfaces f e u := by
  have hd' : m.grid.dims = t.grid.dims := hd
  have ho' : ∀ i, (m.grid.get i).occ = (t.grid.get i).occ := ho
  have hc' : ∀ i, (m.grid.get i).comp = (t.grid.get i).comp := hc
  have hcc : ∀ i, t.isCCSurface i = m.isCCSurface i := by
    intro i; simp only [TMap.isCCSurface, CMap.isCCSurface, hd', hc']
  refine ⟨?_, hcc, ?_, ?_⟩
  · intro i; simp only [TMap.isSurface, CMap.isSurface, hd', ho']
  · intro i
    simp only [TMap.checkCorner, CMap.checkCorner, TMap.getImm, CMap.getImm, Grid.getImm, hd', hc']
    rfl
  · intro f e u
    have ht : ∀ i, t.typedSurface f e u i = m.typedSurface f e u i := by
      intro i; simp only [TMap.typedSurface, CMap.typedSurface, ho', hcc]
    simp only [TMap.extractSurfaces, CMap.extractSurfaces, CMap.surfacesBy, hd, ht, hc']

example : ((TMap.create false ⟨3, 1, 1⟩ (TCell.ofObj 0 4) (TCell.ofObj 0 0)).run
      [.setValue ⟨1, 0, 0⟩ (TCell.ofObj F32.one 3), .update]).plain
    = (CMap.create ⟨3, 1, 1⟩ ⟨0, 0⟩ ⟨0, 0⟩).run [.setValue ⟨1, 0, 0⟩ ⟨F32.one, 0⟩, .update] := by
  decide

/-- What a user expects of the tagged `ComputeComponentTopology` over all component types: the answer
of the collision map with the same contents that considers all components. -/
def TopologyAgrees (t : TMap) : Prop :=
  ∀ recompute, (t.computeTopology id id true true true recompute).map Prod.snd
    = (t.plain.computeTopology id id false recompute).map Prod.snd

/-- C61 is violated: the tagged `ComputeComponentTopology` asks for the surface status of cell
`(x, y, y)` for a filled cell `(x, y, z)`, so the topology of a filled column on which that test is
negative is missing from the answer. -/
theorem C61_topology_differs : ∃ t : TMap, t.grid.WF ∧ ¬ TopologyAgrees t := by
  refine ⟨((TMap.create false ⟨1, 2, 1⟩ (TCell.ofObj F32.one 0) (TCell.ofObj 0 0)).run
    [.setValue ⟨0, 0, 0⟩ (TCell.ofObj 0 1)]), rfl, ?_⟩
  intro h
  exact absurd (h true) (by decide +kernel)

theorem isCCSurface_flat (m : TMap) (hx : m.grid.dims.nx ≤ 2) {i : Idx}
    (hi : m.grid.dims.inB i = true) : m.isCCSurface i = true := by
  rw [Dims.inB_iff] at hi
  obtain ⟨h1, h2, h3, h4, h5, h6⟩ := hi
  unfold TMap.isCCSurface
  simp only
  rw [if_neg (by omega), if_pos (by omega)]

theorem flat_surfaces (m : TMap) (hx : m.grid.dims.nx ≤ 2) (hyz : m.grid.dims.ny = m.grid.dims.nz) :
    m.extractSurfaces true true true = m.plain.surfacesBy (fun i => m.plain.isCCSurface i) := by
  unfold TMap.extractSurfaces CMap.surfacesBy
  have hq := C60_same_queries m m.plain rfl
    (by intro i; simp [CMap.getImm, Grid.getImm, TMap.plain_get, TMap.getImm, TMap.pc])
    (by intro i; simp [CMap.getImm, Grid.getImm, TMap.plain_get, TMap.getImm, TMap.pc])
  have : ∀ (l : List Idx) (acc : List (UInt32 × List Idx)), (∀ i ∈ l, m.grid.dims.inB i = true) →
      l.foldl (fun acc i => if m.typedSurface true true true i = true then
          CMap.insertSurface (m.grid.get i).comp i acc else acc) acc
        = l.foldl (fun acc i => if m.plain.isCCSurface i = true then
          CMap.insertSurface (m.plain.grid.get i).comp i acc else acc) acc := by
    intro l
    induction l with
    | nil => intro acc _; rfl
    | cons a l ih =>
      intro acc hl
      have ha := hl a (List.mem_cons_self ..)
      have e1 : m.plain.isCCSurface a = true := by
        rw [← hq.2.1 a]; exact isCCSurface_flat m hx ha
      have e2 : m.typedSurface true true true a = true := by
        have hb := Dims.inB_iff.mp ha
        unfold TMap.typedSurface
        simp only [Bool.true_and]
        split
        · exact isCCSurface_flat m hx (Dims.inB_iff.mpr (by simp only; omega))
        · split
          · exact isCCSurface_flat m hx ha
          · exact isCCSurface_flat m hx (Dims.inB_iff.mpr (by simp only; omega))
      simp only [List.foldl_cons, e1, e2, if_true]
      rw [ih _ (fun i hi => hl i (List.mem_cons_of_mem _ hi))]
      congr 1
      rw [TMap.plain_get]; rfl
  exact this _ _ (fun i hi => Dims.mem_all.mp hi)

/-- C61 (part).  On grids of at most two layers along x and equally many cells along y and z the two
topology computations agree.  Missing, because false in general (`C61_topology_differs`): all other
grids. -/
theorem C61_flat_partial (t : TMap) (h : t.grid.WF) (hx : t.dims.nx ≤ 2)
    (hyz : t.dims.ny = t.dims.nz) : TopologyAgrees t := by
  have hgo : ∀ m : TMap, m.grid.dims = t.grid.dims →
      Topo.topologyOf id id m.compFn (m.extractSurfaces true true true)
        = Topo.topologyOf id id m.plain.compFn (m.plain.surfacesBy fun i => m.plain.isCCSurface i) := by
    intro m hm
    rw [flat_surfaces m (by rw [hm]; exact hx) (by rw [hm]; exact hyz)]
    congr 1
    funext i
    exact TMap.comp_sim.getC m i trivial
  intro rec
  unfold TMap.computeTopology CMap.computeTopology
  cases rec with
  | false =>
    simp only [Bool.false_eq_true, if_false, Option.map_some]
    rw [hgo t rfl]
  | true =>
    simp only [if_true, Bool.false_eq_true, if_false, Option.map_map]
    rw [← TMap.plain_updateCC]
    cases hr : t.updateCC with
    | none => rfl
    | some r =>
      simp only [Option.map_some, Function.comp]
      rw [hgo r.1 (TMap.updateCC_same t h r hr).2.1]

example : (TMap.create false ⟨2, 3, 3⟩ (TCell.ofObj F32.one 0) (TCell.ofObj 0 0)).grid.WF :=
  Grid.wf_mk' _ _ _

end Verif
