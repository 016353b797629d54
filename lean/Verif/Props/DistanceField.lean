import Verif.DistanceField
import Verif.Spec.Distance
import Verif.Spec.Regions
import Verif.Props.CollisionMap

/-!
# Properties of the distance transform (C08 - C12)

`DField.build d pts` is `BuildDistanceField` on a grid with cell counts `d` and source points `pts`;
`none` is the exception.  `reported s v` is the squared distance stored for cell `v`, `none` being
infinity.
-/

namespace Verif

open Spec

/-- The size restriction under which the code's `int` arithmetic cannot overflow. -/
def SmallGrid (d : Dims) : Prop := d.nx * d.nx + d.ny * d.ny + d.nz * d.nz < 2 ^ 31

/-- The squared distance stored for a cell (`none`: infinity). -/
def reported (s : DField.St) (v : Idx) : Option Nat := (s.field.get v).dist

/-- The closest point stored for a cell. -/
def closest (s : DField.St) (v : Idx) : Idx := (s.field.get v).cp

namespace DField

theorem dsq_sqDist (a b : Idx) : (dsq a b : Int) = sqDist a b := dsq_cast a b

theorem build_some {d : Dims} (hd : SmallGrid d) {pts : List Idx} {s : St}
    (h : build d pts = some s) : (∀ p ∈ pts, d.inB p = true) ∧
      ∃ s0, Inv d pts 0 s0 ∧ s = after s0 (maxSq d + 1) ∧ Inv d pts (maxSq d + 1) s := by
  have hpts : ∀ p ∈ pts, d.inB p = true := by
    by_contra hc
    push Not at hc
    obtain ⟨p, hp, hb⟩ := hc
    rw [(build_spec d pts).1 ⟨p, hp, by simpa using hb⟩] at h
    simp at h
  obtain ⟨s0, e1, e2, _, _⟩ := (build_spec d pts).2 hpts
  rw [e1] at h
  simp only [Option.some.injEq] at h
  subst h
  exact ⟨hpts, s0, e2, rfl, after_inv hd hpts e2 _ (Nat.le_refl _)⟩

end DField

open DField

/-! ## C08 -/

/-- C08.  A finite entry is the exact squared distance to its recorded closest point, which is a
source; so the reported distance is never below the distance to the nearest source. -/
theorem C08_sound {d : Dims} (hd : SmallGrid d) {pts : List Idx} {s : St}
    (h : build d pts = some s) {v : Idx} (hv : InBounds d v) {n : Nat}
    (hn : reported s v = some n) :
    closest s v ∈ pts ∧ (n : Int) = sqDist v (closest s v) ∧
      ∀ m, IsMinSq pts v m → m ≤ n := by
  obtain ⟨_, _, _, _, hinv⟩ := build_some hd h
  obtain ⟨_, h2, h3⟩ := hinv.sound v n (inB_iff_spec.mpr hv) hn
  have h4 : (n : Int) = sqDist v (closest s v) := by rw [h3]; exact dsq_sqDist _ _
  refine ⟨h2, h4, ?_⟩
  intro m hm
  rw [h4]
  exact hm.2 _ h2

/-- Example grid: 4 x 1 x 5 with three sources. -/
def dfDims : Dims := ⟨4, 1, 5⟩
def dfPts : List Idx := [⟨3, 0, 0⟩, ⟨0, 0, 2⟩, ⟨1, 0, 1⟩]

example : SmallGrid dfDims ∧ ∃ s, build dfDims dfPts = some s ∧
    reported s ⟨3, 0, 4⟩ = some 13 := by
  refine ⟨by unfold SmallGrid dfDims; decide, ?_⟩
  have h : (build dfDims dfPts).map (fun s => reported s ⟨3, 0, 4⟩) = some (some 13) := by
    decide +kernel
  match hb : build dfDims dfPts, h with
  | some s, h => exact ⟨s, rfl, by simpa using h⟩

/-! ## C09 -/

/-- C09.  The distance is 0 exactly at source cells. -/
theorem C09_zero_iff_source {d : Dims} (hd : SmallGrid d) {pts : List Idx} {s : St}
    (h : build d pts = some s) {v : Idx} (hv : InBounds d v) :
    (reported s v = some 0 ↔ v ∈ pts) ∧
      (v ∉ pts → reported s v = none ∨ ∃ n, reported s v = some n ∧ 1 ≤ n) := by
  obtain ⟨_, _, _, _, hinv⟩ := build_some hd h
  have hiff : reported s v = some 0 ↔ v ∈ pts := by
    constructor
    · intro h0
      obtain ⟨_, h2, h3⟩ := hinv.sound v 0 (inB_iff_spec.mpr hv) h0
      rw [dsq_eq_zero.mp h3.symm]
      exact h2
    · exact hinv.src v
  refine ⟨hiff, fun hnot => ?_⟩
  cases hr : reported s v with
  | none => exact Or.inl rfl
  | some n =>
    refine Or.inr ⟨n, rfl, ?_⟩
    rcases Nat.eq_zero_or_pos n with h0 | h0
    · rw [h0] at hr; exact absurd (hiff.mp hr) hnot
    · exact h0

example : InBounds dfDims ⟨1, 0, 1⟩ ∧ (⟨1, 0, 1⟩ : Idx) ∈ dfPts ∧
    InBounds dfDims ⟨2, 0, 1⟩ ∧ (⟨2, 0, 1⟩ : Idx) ∉ dfPts := by
  simp [InBounds, dfDims, dfPts]

/-! ## C12 -/

/-- C12.  The construction throws exactly when a source is out of bounds, and otherwise runs without
undefined behaviour (bucket iterator invalidation, out-of-range access, signed overflow). -/
theorem C12_safe {d : Dims} (hd : SmallGrid d) (pts : List Idx) :
    (build d pts = none ↔ ∃ p ∈ pts, ¬ InBounds d p) ∧
      ∀ s, build d pts = some s → s.ub = false := by
  have hspec := build_spec d pts
  constructor
  · constructor
    · intro hnone
      by_contra hc
      push Not at hc
      obtain ⟨s0, e1, _⟩ := hspec.2 (fun p hp => inB_iff_spec.mpr (hc p hp))
      rw [e1] at hnone
      simp at hnone
    · rintro ⟨p, hp, hb⟩
      apply hspec.1
      refine ⟨p, hp, ?_⟩
      cases hq : d.inB p with
      | false => rfl
      | true => exact absurd (inB_iff_spec.mp hq) hb
  · intro s hs
    obtain ⟨_, _, _, _, hinv⟩ := build_some hd hs
    exact hinv.noub

/-- The undefined-behaviour flag also covers every intermediate state: it is never reset. -/
theorem C12_flag_sticky (b : Nat) (s : St) (h : s.ub = true) : (processBucket s b).ub = true := by
  have hrelax : ∀ (e : BCell) (s : St) (δ : Idx), s.ub = true → (relax b e s δ).ub = true := by
    intro e s δ h
    unfold relax
    simp only [h, Bool.true_or]
    split
    · split
      · rfl
      · split <;> rfl
    · exact h
  have hfold : ∀ (e : BCell) (l : List Idx) (s : St), s.ub = true →
      (l.foldl (relax b e) s).ub = true := by
    intro e l
    induction l with
    | nil => intro s h; exact h
    | cons a l ih => intro s h; exact ih _ (hrelax e s a h)
  have hcell : ∀ (e : BCell) (s : St), s.ub = true → (processCell b s e).ub = true := by
    intro e s h
    unfold processCell
    simp only [h, Bool.true_or]
    split
    · rfl
    · split
      · rfl
      · exact hfold e _ _ rfl
  have hcells : ∀ (l : List BCell) (s : St), s.ub = true →
      (l.foldl (processCell b) s).ub = true := by
    intro l
    induction l with
    | nil => intro s h; exact h
    | cons a l ih => intro s h; exact ih _ (hcell a s h)
  exact hcells _ s h

/-- The flag can be set: a hand-made state whose entry sits in the wrong bucket appends to the
bucket being iterated. -/
example : (processBucket ⟨Grid.mk' ⟨3, 1, 1⟩ BCell.default BCell.default,
    [[], [⟨some 0, 13, ⟨0, 0, 0⟩, ⟨0, 0, 0⟩⟩], []], false⟩ 1).ub = true := by decide +kernel

example : SmallGrid ⟨1000, 1000, 1000⟩ ∧ build dfDims [⟨4, 0, 0⟩] = none := by
  refine ⟨by unfold SmallGrid; decide, by decide +kernel⟩

/-! ## C10 -/

/-- The full statement of C10. -/
def C10Statement : Prop := ∀ (d : Dims) (pts : List Idx) (s : St) (v : Idx), SmallGrid d → pts ≠ [] →
  build d pts = some s → InBounds d v → ∃ n, reported s v = some n ∧ IsMinSq pts v n

theorem dfWitness : (build dfDims dfPts).map (fun s => reported s ⟨3, 0, 3⟩) = some (some 9) := by
  decide +kernel

/-- C10 is false: on a 4 x 1 x 5 grid a cell at squared distance 8 from its nearest source gets 9. -/
theorem C10_false : ¬ C10Statement := by
  intro h
  have hw := dfWitness
  match hb : build dfDims dfPts, hw with
  | some s, hw =>
    obtain ⟨n, h1, h2⟩ := h dfDims dfPts s ⟨3, 0, 3⟩ (by unfold SmallGrid dfDims; decide)
      (by decide) hb (by unfold InBounds dfDims; decide)
    simp only [Option.map_some, Option.some.injEq] at hw
    rw [hw] at h1
    simp only [Option.some.injEq] at h1
    subst h1
    have := h2.2 ⟨1, 0, 1⟩ (by decide)
    revert this
    decide

/-- Cells on which the transform is proved exact.  `near`: a nearest source is at most one cell away
on every axis.  `step`: a face neighbour is such a cell, and all its nearest sources are nearest
sources of this cell too, at a larger distance. -/
inductive Chain (d : Dims) (pts : List Idx) : Idx → Prop
  | near {v p : Idx} : InBounds d v → IsNearest pts v p → Close v p → Chain d pts v
  | step {u v : Idx} : Chain d pts u → InBounds d v → FaceAdj u v →
      (∀ r, IsNearest pts u r → IsNearest pts v r ∧ sqDist u r < sqDist v r) → Chain d pts v

theorem Chain.inBounds {d : Dims} {pts : List Idx} {v : Idx} (h : Chain d pts v) :
    InBounds d v := by
  cases h <;> assumption

theorem Chain.exists_nearest {d : Dims} {pts : List Idx} {v : Idx} (h : Chain d pts v) :
    ∃ r, IsNearest pts v r := by
  induction h with
  | near _ hn _ => exact ⟨_, hn⟩
  | step _ _ _ hs ih =>
    obtain ⟨r, hr⟩ := ih
    exact ⟨r, (hs r hr).1⟩

namespace DField

theorem face_move {u v : Idx} (h : FaceAdj u v) : ∃ δ ∈ dirs27,
    δ.x.natAbs + δ.y.natAbs + δ.z.natAbs = 1 ∧ v = u + δ := by
  refine ⟨⟨v.x - u.x, v.y - u.y, v.z - u.z⟩, ?_, ?_, ?_⟩
  · rw [mem_dirs27]
    unfold FaceAdj at h
    simp only [Int.abs_eq_natAbs] at h
    dsimp only
    omega
  · unfold FaceAdj at h
    simp only [Int.abs_eq_natAbs] at h
    dsimp only
    omega
  · obtain ⟨x, y, z⟩ := v
    obtain ⟨x', y', z'⟩ := u
    show _ = (⟨x' + (x - x'), y' + (y - y'), z' + (z - z')⟩ : Idx)
    simp only [Idx.mk.injEq]
    omega

/-- After bucket 0 all 26 neighbours of a source are at most at their distance from it. -/
theorem near_value {d : Dims} (hd : SmallGrid d) {pts : List Idx} (hpts : ∀ p ∈ pts, d.inB p = true)
    {s0 : St} (h0 : Inv d pts 0 s0) {v p : Idx} (hv : d.inB v = true) (hp : p ∈ pts)
    (hc : Close v p) (hne : v ≠ p) : ValLE (after s0 1) v (dsq v p) := by
  have hspec := (processBucket_spec hd (b := 0) (Nat.zero_le _) hpts h0).2.2
  have hsrc := h0.src p hp
  have hpend := h0.pend p 0 (hpts p hp) hsrc (Nat.zero_le _)
  obtain ⟨hloc, hcp, hdq⟩ := h0.sound p 0 (hpts p hp) hsrc
  have hcp' : p = (s0.field.get p).cp := dsq_eq_zero.mp hdq.symm
  obtain ⟨δ', hδ', hdir, haway⟩ := h0.fwd 0 _ (Nat.le_refl _) hpend
  have hδ : (⟨v.x - p.x, v.y - p.y, v.z - p.z⟩ : Idx) ∈ nbhd 0 δ' := by
    rw [mem_nbhd_zero, mem_dirs27]
    obtain ⟨c1, c2, c3⟩ := hc
    rw [abs_le] at c1 c2 c3
    refine ⟨⟨⟨by linarith, by linarith⟩, ⟨by linarith, by linarith⟩, ⟨by linarith, by linarith⟩⟩, ?_⟩
    intro he
    simp only [Idx.mk.injEq] at he
    apply hne
    obtain ⟨x, y, z⟩ := v
    obtain ⟨x', y', z'⟩ := p
    simp only [Idx.mk.injEq]
    simp only at he
    omega
  have hsum : p + (⟨v.x - p.x, v.y - p.y, v.z - p.z⟩ : Idx) = v := by
    obtain ⟨x, y, z⟩ := v
    obtain ⟨x', y', z'⟩ := p
    show (⟨x' + (x - x'), y' + (y - y'), z' + (z - z')⟩ : Idx) = _
    simp only [Idx.mk.injEq]
    omega
  have := hspec _ hpend δ' hdir haway hδ' _ hδ (by rw [hloc, hsum]; exact hv)
  rw [hloc, hsum, ← hcp'] at this
  rw [show after s0 1 = processBucket s0 0 by simp [after]]
  exact this

/-- Timing of the propagation: a chain cell has its exact value when its bucket is reached. -/
theorem chain_timing {d : Dims} (hd : SmallGrid d) {pts : List Idx}
    (hpts : ∀ p ∈ pts, d.inB p = true) {s0 : St} (h0 : Inv d pts 0 s0) {v : Idx}
    (hv : Chain d pts v) : ∀ r, IsNearest pts v r → ∀ t, dsq v r ≤ t → t ≤ maxSq d + 1 →
      ValLE (after s0 t) v (dsq v r) := by
  have hmono : ∀ a b, a ≤ b → b ≤ maxSq d + 1 → Mono (after s0 a) (after s0 b) := by
    intro a b hab hb
    have := after_mono hd hpts h0 a (b - a) (by omega)
    rwa [show a + (b - a) = b by omega] at this
  have heqd : ∀ (v r r' : Idx), IsNearest pts v r → IsNearest pts v r' → dsq v r = dsq v r' := by
    intro v r r' h h'
    have h1 := h.2 r' h'.1
    have h2 := h'.2 r h.1
    rw [← dsq_sqDist, ← dsq_sqDist] at h1 h2
    omega
  induction hv with
  | @near v p hin hnear hclose =>
    intro r hr t ht htm
    rw [heqd v r p hr hnear] at ht ⊢
    by_cases hvp : v = p
    · subst hvp
      have : ValLE (after s0 0) v (dsq v v) := by
        refine ⟨0, ?_, Nat.zero_le _⟩
        simpa [after] using h0.src v hnear.1
      exact hmono 0 t (Nat.zero_le _) htm v _ this
    · have h1 := near_value hd hpts h0 (inB_iff_spec.mpr hin) hnear.1 hclose hvp
      have hpos : 1 ≤ dsq v p := by
        rcases Nat.eq_zero_or_pos (dsq v p) with h | h
        · exact absurd (dsq_eq_zero.mp h) hvp
        · exact h
      exact hmono 1 t (by omega) htm v _ h1
  | @step u v hu hin hadj hstep ih =>
    intro r hr t ht htm
    -- some nearest source of u exists: the recorded one
    have hub := inB_iff_spec.mpr hu.inBounds
    obtain ⟨r0, hr0⟩ := hu.exists_nearest
    have hle : dsq u r0 ≤ maxSq d := dsq_le_maxSq hub (hpts _ hr0.1)
    have hinv := after_inv hd hpts h0 (dsq u r0) (by omega)
    obtain ⟨n, hn, hnle⟩ := ih r0 hr0 (dsq u r0) (Nat.le_refl _) (by omega)
    obtain ⟨hloc, hcp, hdq⟩ := hinv.sound u n hub hn
    have hge : dsq u r0 ≤ n := by
      have := hr0.2 _ hcp
      rw [← dsq_sqDist, ← dsq_sqDist] at this
      omega
    have hneq : n = dsq u r0 := by omega
    subst hneq
    -- the recorded closest point is nearest to u, hence to v
    have hnear : IsNearest pts u ((after s0 (dsq u r0)).field.get u).cp := by
      refine ⟨hcp, fun q hq => ?_⟩
      have := hr0.2 q hq
      rw [← dsq_sqDist] at this ⊢
      omega
    obtain ⟨hnv, hlt⟩ := hstep _ hnear
    have hpend := hinv.pend u _ hub hn (by omega)
    obtain ⟨δ', hδ', hdir, haway⟩ := hinv.fwd _ _ (by omega) hpend
    obtain ⟨δ, hδ, hface, rfl⟩ := face_move hadj
    rw [← dsq_sqDist, ← dsq_sqDist] at hlt
    have hadd := dsq_add u δ ((after s0 (dsq u r0)).field.get u).cp
    have hmem : δ ∈ nbhd (dsq u r0) δ' := by
      rcases Nat.eq_zero_or_pos (dsq u r0) with hz | hpos
      · rw [hz, mem_nbhd_zero]
        refine ⟨hδ, ?_⟩
        rintro rfl
        simp at hface
      · rw [mem_nbhd_pos hpos]
        refine ⟨hδ, hface, ?_⟩
        rw [hloc] at haway
        unfold Away at haway
        simp only [Idx.sub_x, Idx.sub_y, Idx.sub_z] at haway
        obtain ⟨a1, a2, a3⟩ := haway
        rw [mem_dirs27] at hδ'
        obtain ⟨b1, b2, b3⟩ := hδ'
        generalize ((after s0 (dsq u r0)).field.get u).cp = c at *
        have key : ∀ (a w : Int), (a ≠ 0 → 0 < a * w) → (0 ≤ w → 0 ≤ a * 1) ∧ (w ≤ 0 → 0 ≤ a * -1) := by
          intro a w ha
          by_cases hz : a = 0
          · subst hz; simp
          · have := ha hz
            constructor
            · intro hw
              by_contra hcon
              have : a * w ≤ 0 := mul_nonpos_of_nonpos_of_nonneg (by linarith) hw
              linarith
            · intro hw
              by_contra hcon
              have : a * w ≤ 0 := mul_nonpos_of_nonneg_of_nonpos (by linarith) hw
              linarith
        have k1 := key _ _ a1
        have k2 := key _ _ a2
        have k3 := key _ _ a3
        rcases face_cases hface with rfl | rfl | rfl | rfl | rfl | rfl <;>
          simp only [mul_zero, le_refl, and_true, true_and] <;> simp at hadd
        · exact k1.1 (by omega)
        · exact k1.2 (by omega)
        · exact k2.1 (by omega)
        · exact k2.2 (by omega)
        · exact k3.1 (by omega)
        · exact k3.2 (by omega)
    have hspec := (processBucket_spec hd (b := dsq u r0) (by omega) hpts hinv).2.2
    have hfin := hspec _ hpend δ' hdir haway hδ' δ hmem
    rw [hloc] at hfin
    have hval := hfin (inB_iff_spec.mpr hin)
    rw [← after_succ] at hval
    rw [heqd _ r _ hr hnv] at ht ⊢
    exact hmono (dsq u r0 + 1) t (by omega) htm _ _ hval

end DField

/-- C10, the part that holds: the transform is exact on every `Chain` cell.  Missing: cells that no
chain reaches, where the code can report a larger distance (`C10_false`). -/
theorem C10_exact_on_chains_partial {d : Dims} (hd : SmallGrid d) {pts : List Idx} {s : St}
    (h : build d pts = some s) {v : Idx} (hv : Chain d pts v) {r : Idx} (hr : IsNearest pts v r) :
    ∃ n, reported s v = some n ∧ (n : Int) = sqDist v r ∧ IsMinSq pts v n := by
  obtain ⟨hpts, s0, h0, rfl, hinv⟩ := build_some hd h
  have hle : dsq v r ≤ maxSq d := dsq_le_maxSq (inB_iff_spec.mpr hv.inBounds) (hpts _ hr.1)
  obtain ⟨n, hn, hnle⟩ := chain_timing hd hpts h0 hv r hr (maxSq d + 1) (by omega) (Nat.le_refl _)
  obtain ⟨_, hcp, hdq⟩ := hinv.sound v n (inB_iff_spec.mpr hv.inBounds) hn
  have hge := hr.2 _ hcp
  rw [← dsq_sqDist, ← dsq_sqDist] at hge
  have heq : (n : Int) = sqDist v r := by rw [← dsq_sqDist]; omega
  exact ⟨n, hn, heq, ⟨r, hr.1, heq.symm⟩, fun q hq => by rw [heq]; exact hr.2 q hq⟩

/-! ### Closed-form consequences -/

/-- Cells on a line parallel to an axis, starting next to a source. -/
theorem chain_line {d : Dims} {pts : List Idx} {p δ : Idx}
    (hδ : δ = ⟨1, 0, 0⟩ ∨ δ = ⟨-1, 0, 0⟩ ∨ δ = ⟨0, 1, 0⟩ ∨ δ = ⟨0, -1, 0⟩ ∨ δ = ⟨0, 0, 1⟩ ∨
      δ = ⟨0, 0, -1⟩)
    {w v : Idx} (k : Nat) (hv : v = ⟨w.x + k * δ.x, w.y + k * δ.y, w.z + k * δ.z⟩)
    (hw : InBounds d w) (hvb : InBounds d v) (hclose : Close w p)
    (hdir : δ.x * (w.x - p.x) + δ.y * (w.y - p.y) + δ.z * (w.z - p.z) = 1)
    (hnear : IsNearest pts v p) : Chain d pts v := by
  have hu : ∀ j : Nat, j ≤ k →
      InBounds d ⟨w.x + j * δ.x, w.y + j * δ.y, w.z + j * δ.z⟩ := by
    intro j hj
    subst hv
    unfold InBounds at *
    rcases hδ with rfl | rfl | rfl | rfl | rfl | rfl <;> dsimp only at * <;> omega
  have hdiff : ∀ (r : Idx) (j : Int),
      sqDist ⟨w.x + j * δ.x, w.y + j * δ.y, w.z + j * δ.z⟩ r -
        sqDist ⟨w.x + j * δ.x, w.y + j * δ.y, w.z + j * δ.z⟩ p =
      sqDist w r - sqDist w p +
        2 * j * (δ.x * (p.x - r.x) + δ.y * (p.y - r.y) + δ.z * (p.z - r.z)) := by
    intro r j; unfold sqDist; ring
  -- sources behind `p` are strictly farther from `w`
  have hbehind : ∀ r : Idx, 1 ≤ δ.x * (p.x - r.x) + δ.y * (p.y - r.y) + δ.z * (p.z - r.z) →
      1 ≤ sqDist w r - sqDist w p := by
    intro r hr
    obtain ⟨c1, c2, c3⟩ := hclose
    rw [abs_le] at c1 c2 c3
    unfold sqDist
    have q1 : (w.x - p.x) ^ 2 ≤ 1 := by nlinarith
    have q2 : (w.y - p.y) ^ 2 ≤ 1 := by nlinarith
    have q3 : (w.z - p.z) ^ 2 ≤ 1 := by nlinarith
    have r1 := sq_nonneg (w.x - r.x)
    have r2 := sq_nonneg (w.y - r.y)
    have r3 := sq_nonneg (w.z - r.z)
    have big : ∀ a : Int, 2 ≤ a ∨ a ≤ -2 → 4 ≤ a ^ 2 := by
      intro a ha; rcases ha with ha | ha <;> nlinarith
    rcases hδ with rfl | rfl | rfl | rfl | rfl | rfl <;> dsimp only at hr hdir
    · have := big (w.x - r.x) (by omega); omega
    · have := big (w.x - r.x) (by omega); omega
    · have := big (w.y - r.y) (by omega); omega
    · have := big (w.y - r.y) (by omega); omega
    · have := big (w.z - r.z) (by omega); omega
    · have := big (w.z - r.z) (by omega); omega
  have hk : ∀ r ∈ pts, 0 ≤ sqDist w r - sqDist w p +
      2 * k * (δ.x * (p.x - r.x) + δ.y * (p.y - r.y) + δ.z * (p.z - r.z)) := by
    intro r hr
    rw [← hdiff r k]
    have := hnear.2 r hr
    rw [hv] at this
    linarith
  have hall : ∀ j : Nat, j ≤ k → ∀ r ∈ pts,
      0 ≤ sqDist w r - sqDist w p +
        2 * j * (δ.x * (p.x - r.x) + δ.y * (p.y - r.y) + δ.z * (p.z - r.z)) := by
    intro j hj r hr
    have h1 := hk r hr
    have h2 := hbehind r
    generalize δ.x * (p.x - r.x) + δ.y * (p.y - r.y) + δ.z * (p.z - r.z) = m at *
    have hj' : (j : Int) ≤ k := by exact_mod_cast hj
    have hj0 : (0 : Int) ≤ j := by positivity
    by_cases hm : 1 ≤ m
    · have := h2 hm
      nlinarith
    · have : m ≤ 0 := by omega
      nlinarith
  have hchain : ∀ j : Nat, j ≤ k →
      Chain d pts ⟨w.x + j * δ.x, w.y + j * δ.y, w.z + j * δ.z⟩ := by
    intro j
    induction j with
    | zero =>
      intro _
      refine Chain.near (p := p) (hu 0 (Nat.zero_le _)) ⟨hnear.1, fun r hr => ?_⟩ ?_
      · have := hall 0 (Nat.zero_le _) r hr
        have h2 := hdiff r (0 : Nat)
        linarith
      · simpa using hclose
    | succ j ih =>
      intro hj
      refine Chain.step (ih (by omega)) (hu (j + 1) hj) ?_ ?_
      · unfold FaceAdj
        rcases hδ with rfl | rfl | rfl | rfl | rfl | rfl <;> dsimp only <;> push_cast <;> ring_nf <;> rfl
      · intro r hr
        have h1 := hr.2 p hnear.1
        have e1 := hdiff r j
        have e2 := hdiff r ((j + 1 : Nat) : Int)
        have g1 := hall (j + 1) hj
        have gk := hk r hr.1
        have g0 := hall j (by omega) r hr.1
        have hb := hbehind r
        have hself : ∀ i : Int, sqDist ⟨w.x + i * δ.x, w.y + i * δ.y, w.z + i * δ.z⟩ p =
            sqDist w p + 2 * i + i ^ 2 := by
          intro i
          have hn : δ.x ^ 2 + δ.y ^ 2 + δ.z ^ 2 = 1 := by
            rcases hδ with rfl | rfl | rfl | rfl | rfl | rfl <;> norm_num
          have : sqDist ⟨w.x + i * δ.x, w.y + i * δ.y, w.z + i * δ.z⟩ p = sqDist w p +
              2 * i * (δ.x * (w.x - p.x) + δ.y * (w.y - p.y) + δ.z * (w.z - p.z)) +
              i ^ 2 * (δ.x ^ 2 + δ.y ^ 2 + δ.z ^ 2) := by unfold sqDist; ring
          rw [this, hdir, hn]; ring
        have s1 := hself j
        have s2 := hself ((j + 1 : Nat) : Int)
        have hj0 : (0 : Int) ≤ j := by positivity
        have hjk : ((j : Int)) + 1 ≤ k := by exact_mod_cast hj
        have hm0 : δ.x * (p.x - r.x) + δ.y * (p.y - r.y) + δ.z * (p.z - r.z) = 0 := by
          generalize δ.x * (p.x - r.x) + δ.y * (p.y - r.y) + δ.z * (p.z - r.z) = m at *
          rcases lt_trichotomy m 0 with hm | hm | hm
          · exfalso; nlinarith
          · exact hm
          · exfalso
            have := hb (by omega)
            nlinarith
        rw [hm0] at e1 e2 g0
        refine ⟨⟨hr.1, fun q hq => ?_⟩, ?_⟩
        · have e3 := hdiff q ((j + 1 : Nat) : Int)
          have g3 := g1 q hq
          linarith
        · push_cast at s2 e2 ⊢
          nlinarith
  rw [hv]
  exact hchain k (Nat.le_refl _)

/-- Cells whose nearest source is more than one cell away on at most one axis. -/
theorem chain_near_axis {d : Dims} {pts : List Idx} (hpts : ∀ q ∈ pts, InBounds d q) {v p : Idx}
    (hv : InBounds d v) (hp : IsNearest pts v p)
    (hax : (|v.y - p.y| ≤ 1 ∧ |v.z - p.z| ≤ 1) ∨ (|v.x - p.x| ≤ 1 ∧ |v.z - p.z| ≤ 1) ∨
      (|v.x - p.x| ≤ 1 ∧ |v.y - p.y| ≤ 1)) : Chain d pts v := by
  by_cases hc : Close v p
  · exact Chain.near hv hp hc
  have hpb := hpts p hp.1
  obtain ⟨vx, vy, vz⟩ := v
  obtain ⟨px, py, pz⟩ := p
  unfold Close at hc
  unfold InBounds at hv hpb
  simp only [abs_le] at hax hc
  dsimp only at hv hpb
  rcases hax with ⟨h1, h2⟩ | ⟨h1, h2⟩ | ⟨h1, h2⟩
  · have hx : 2 ≤ vx - px ∨ vx - px ≤ -2 := by omega
    rcases hx with hx | hx
    · refine chain_line (δ := ⟨1, 0, 0⟩) (w := ⟨px + 1, vy, vz⟩) (by simp) (vx - px - 1).toNat ?_ ?_
        hv ?_ ?_ hp
      · simp only [Idx.mk.injEq]; omega
      · unfold InBounds; dsimp only; omega
      · unfold Close; simp only [abs_le]; omega
      · dsimp only; omega
    · refine chain_line (δ := ⟨-1, 0, 0⟩) (w := ⟨px - 1, vy, vz⟩) (by simp) (px - vx - 1).toNat ?_ ?_
        hv ?_ ?_ hp
      · simp only [Idx.mk.injEq]; omega
      · unfold InBounds; dsimp only; omega
      · unfold Close; simp only [abs_le]; omega
      · dsimp only; omega
  · have hx : 2 ≤ vy - py ∨ vy - py ≤ -2 := by omega
    rcases hx with hx | hx
    · refine chain_line (δ := ⟨0, 1, 0⟩) (w := ⟨vx, py + 1, vz⟩) (by simp) (vy - py - 1).toNat ?_ ?_
        hv ?_ ?_ hp
      · simp only [Idx.mk.injEq]; omega
      · unfold InBounds; dsimp only; omega
      · unfold Close; simp only [abs_le]; omega
      · dsimp only; omega
    · refine chain_line (δ := ⟨0, -1, 0⟩) (w := ⟨vx, py - 1, vz⟩) (by simp) (py - vy - 1).toNat ?_ ?_
        hv ?_ ?_ hp
      · simp only [Idx.mk.injEq]; omega
      · unfold InBounds; dsimp only; omega
      · unfold Close; simp only [abs_le]; omega
      · dsimp only; omega
  · have hx : 2 ≤ vz - pz ∨ vz - pz ≤ -2 := by omega
    rcases hx with hx | hx
    · refine chain_line (δ := ⟨0, 0, 1⟩) (w := ⟨vx, vy, pz + 1⟩) (by simp) (vz - pz - 1).toNat ?_ ?_
        hv ?_ ?_ hp
      · simp only [Idx.mk.injEq]; omega
      · unfold InBounds; dsimp only; omega
      · unfold Close; simp only [abs_le]; omega
      · dsimp only; omega
    · refine chain_line (δ := ⟨0, 0, -1⟩) (w := ⟨vx, vy, pz - 1⟩) (by simp) (pz - vz - 1).toNat ?_ ?_
        hv ?_ ?_ hp
      · simp only [Idx.mk.injEq]; omega
      · unfold InBounds; dsimp only; omega
      · unfold Close; simp only [abs_le]; omega
      · dsimp only; omega

theorem exists_isNearest {pts : List Idx} (h : pts ≠ []) (v : Idx) : ∃ p, IsNearest pts v p := by
  induction pts with
  | nil => exact absurd rfl h
  | cons a l ih =>
    by_cases hl : l = []
    · subst hl; exact ⟨a, by simp, by simp⟩
    · obtain ⟨p, hp, hmin⟩ := ih hl
      rcases le_total (sqDist v a) (sqDist v p) with hle | hle
      · refine ⟨a, by simp, ?_⟩
        intro r hr
        rcases List.mem_cons.mp hr with rfl | hr
        · exact le_refl _
        · exact hle.trans (hmin r hr)
      · refine ⟨p, by simp [hp], ?_⟩
        intro r hr
        rcases List.mem_cons.mp hr with rfl | hr
        · exact hle
        · exact hmin r hr

theorem pts_inBounds {d : Dims} {pts : List Idx} {s : St} (hd : SmallGrid d)
    (h : build d pts = some s) : ∀ q ∈ pts, InBounds d q :=
  fun q hq => inB_iff_spec.mp ((build_some hd h).1 q hq)

/-- C10, closed form 1: exact wherever the true squared distance is below 8.  (`C10_false` has a cell
at squared distance 8.)  Missing: larger distances. -/
theorem C10_exact_below_8_partial {d : Dims} (hd : SmallGrid d) {pts : List Idx} {s : St}
    (h : build d pts = some s) {v : Idx} (hv : InBounds d v) {m : Int} (hm : IsMinSq pts v m)
    (h8 : m < 8) : ∃ n, reported s v = some n ∧ (n : Int) = m := by
  obtain ⟨⟨p, hp, hpm⟩, hmin⟩ := hm
  have hnear : IsNearest pts v p := ⟨hp, fun r hr => by rw [hpm]; exact hmin r hr⟩
  have big : ∀ a : Int, ¬ |a| ≤ 1 → 4 ≤ a ^ 2 := by
    intro a ha
    rw [abs_le, not_and_or] at ha
    rcases ha with ha | ha <;> nlinarith
  have hax : (|v.y - p.y| ≤ 1 ∧ |v.z - p.z| ≤ 1) ∨ (|v.x - p.x| ≤ 1 ∧ |v.z - p.z| ≤ 1) ∨
      (|v.x - p.x| ≤ 1 ∧ |v.y - p.y| ≤ 1) := by
    unfold sqDist at hpm
    have b1 := big (v.x - p.x)
    have b2 := big (v.y - p.y)
    have b3 := big (v.z - p.z)
    have n1 := sq_nonneg (v.x - p.x)
    have n2 := sq_nonneg (v.y - p.y)
    have n3 := sq_nonneg (v.z - p.z)
    by_cases c1 : |v.x - p.x| ≤ 1 <;> by_cases c2 : |v.y - p.y| ≤ 1 <;>
      by_cases c3 : |v.z - p.z| ≤ 1 <;> simp only [c1, c2, c3, true_and, and_true, and_self, or_true, or_false, or_self]
    · have := b2 c2; have := b3 c3; omega
    · have := b1 c1; have := b3 c3; omega
    · have := b1 c1; have := b2 c2; omega
    · have := b1 c1; have := b2 c2; omega
  obtain ⟨n, h1, h2, _⟩ := C10_exact_on_chains_partial hd h
    (chain_near_axis (pts_inBounds hd h) hv hnear hax) hnear
  exact ⟨n, h1, by rw [h2, hpm]⟩

example : ∃ s m, build dfDims dfPts = some s ∧ InBounds dfDims ⟨3, 0, 2⟩ ∧
    IsMinSq dfPts ⟨3, 0, 2⟩ m ∧ m < 8 ∧ 3 < m := by
  have h : (build dfDims dfPts).isSome = true := by decide +kernel
  obtain ⟨s, hs⟩ := Option.isSome_iff_exists.mp h
  refine ⟨s, 4, hs, by simp [InBounds, dfDims], ?_, by norm_num, by norm_num⟩
  constructor
  · exact ⟨⟨3, 0, 0⟩, by simp [dfPts], by norm_num [sqDist]⟩
  · simp [dfPts, sqDist]

/-- C10, closed form 2: exact everywhere on grids with at most two layers along two of the axes
(in particular one-dimensional grids). -/
theorem C10_exact_thin_grid_partial {d : Dims} (hd : SmallGrid d)
    (hthin : (d.ny ≤ 2 ∧ d.nz ≤ 2) ∨ (d.nx ≤ 2 ∧ d.nz ≤ 2) ∨ (d.nx ≤ 2 ∧ d.ny ≤ 2))
    {pts : List Idx} {s : St} (h : build d pts = some s) (hne : pts ≠ []) {v : Idx}
    (hv : InBounds d v) : ∃ n, reported s v = some n ∧ IsMinSq pts v n := by
  obtain ⟨p, hp⟩ := exists_isNearest hne v
  have hpb := pts_inBounds hd h p hp.1
  have hax : (|v.y - p.y| ≤ 1 ∧ |v.z - p.z| ≤ 1) ∨ (|v.x - p.x| ≤ 1 ∧ |v.z - p.z| ≤ 1) ∨
      (|v.x - p.x| ≤ 1 ∧ |v.y - p.y| ≤ 1) := by
    have hv' := hv
    unfold InBounds at hv' hpb
    simp only [abs_le]
    omega
  obtain ⟨n, h1, _, h3⟩ := C10_exact_on_chains_partial hd h
    (chain_near_axis (pts_inBounds hd h) hv hp hax) hp
  exact ⟨n, h1, h3⟩

example : SmallGrid ⟨100, 2, 1⟩ ∧ InBounds ⟨100, 2, 1⟩ ⟨99, 1, 0⟩ := by
  refine ⟨by unfold SmallGrid; decide, by simp [InBounds]⟩

theorem chain_single {d : Dims} {p : Idx} (hp : InBounds d p) {pts : List Idx} (hmem : p ∈ pts)
    (hall : ∀ q ∈ pts, q = p) : ∀ (k : Nat) (v : Idx), InBounds d v →
      (v.x - p.x).natAbs + (v.y - p.y).natAbs + (v.z - p.z).natAbs ≤ k → Chain d pts v := by
  have hnear : ∀ v, IsNearest pts v p := fun v => ⟨hmem, fun r hr => by rw [hall r hr]⟩
  intro k
  induction k with
  | zero =>
    intro v hv hk
    refine Chain.near hv (hnear v) ?_
    unfold Close; simp only [abs_le]; omega
  | succ k ih =>
    intro v hv hk
    by_cases hc : Close v p
    · exact Chain.near hv (hnear v) hc
    have hstep : ∀ u : Idx, InBounds d u → FaceAdj u v → sqDist u p < sqDist v p →
        (u.x - p.x).natAbs + (u.y - p.y).natAbs + (u.z - p.z).natAbs ≤ k → Chain d pts v := by
      intro u hu hf hlt hk'
      refine Chain.step (ih u hu hk') hv hf ?_
      intro r hr
      rw [hall r hr.1]
      exact ⟨hnear v, hlt⟩
    unfold Close at hc
    simp only [abs_le] at hc
    obtain ⟨vx, vy, vz⟩ := v
    obtain ⟨px, py, pz⟩ := p
    unfold InBounds at hv hp
    dsimp only at *
    rcases (by omega : 2 ≤ vx - px ∨ vx - px ≤ -2 ∨ 2 ≤ vy - py ∨ vy - py ≤ -2 ∨ 2 ≤ vz - pz ∨
      vz - pz ≤ -2) with hh | hh | hh | hh | hh | hh
    · refine hstep ⟨vx - 1, vy, vz⟩ ?_ ?_ ?_ ?_
      · unfold InBounds; dsimp only; omega
      · simp [FaceAdj]
      · unfold sqDist; nlinarith
      · dsimp only; omega
    · refine hstep ⟨vx + 1, vy, vz⟩ ?_ ?_ ?_ ?_
      · unfold InBounds; dsimp only; omega
      · simp [FaceAdj]
      · unfold sqDist; nlinarith
      · dsimp only; omega
    · refine hstep ⟨vx, vy - 1, vz⟩ ?_ ?_ ?_ ?_
      · unfold InBounds; dsimp only; omega
      · simp [FaceAdj]
      · unfold sqDist; nlinarith
      · dsimp only; omega
    · refine hstep ⟨vx, vy + 1, vz⟩ ?_ ?_ ?_ ?_
      · unfold InBounds; dsimp only; omega
      · simp [FaceAdj]
      · unfold sqDist; nlinarith
      · dsimp only; omega
    · refine hstep ⟨vx, vy, vz - 1⟩ ?_ ?_ ?_ ?_
      · unfold InBounds; dsimp only; omega
      · simp [FaceAdj]
      · unfold sqDist; nlinarith
      · dsimp only; omega
    · refine hstep ⟨vx, vy, vz + 1⟩ ?_ ?_ ?_ ?_
      · unfold InBounds; dsimp only; omega
      · simp [FaceAdj]
      · unfold sqDist; nlinarith
      · dsimp only; omega

/-- C10, closed form 3: with a single source cell (possibly listed several times) the transform is
exact everywhere. -/
theorem C10_exact_single_source_partial {d : Dims} (hd : SmallGrid d) {p : Idx} {pts : List Idx}
    (hmem : p ∈ pts) (hall : ∀ q ∈ pts, q = p) {s : St} (h : build d pts = some s) {v : Idx}
    (hv : InBounds d v) : ∃ n, reported s v = some n ∧ (n : Int) = sqDist v p := by
  obtain ⟨n, h1, h2, _⟩ := C10_exact_on_chains_partial hd h
    (chain_single (pts_inBounds hd h p hmem) hmem hall _ v hv (Nat.le_refl _))
    (r := p) ⟨hmem, fun r hr => by rw [hall r hr]⟩
  exact ⟨n, h1, h2⟩

example : ∃ s, build ⟨5, 4, 6⟩ [⟨1, 2, 3⟩, ⟨1, 2, 3⟩] = some s ∧ InBounds ⟨5, 4, 6⟩ ⟨4, 0, 0⟩ := by
  have h : (build ⟨5, 4, 6⟩ [⟨1, 2, 3⟩, ⟨1, 2, 3⟩]).isSome = true := by decide +kernel
  obtain ⟨s, hs⟩ := Option.isSome_iff_exists.mp h
  exact ⟨s, hs, by simp [InBounds]⟩

/-! ## C11 -/

/-- The full statement of C11. -/
def C11Statement : Prop := ∀ (d : Dims) (A B : List Idx) (a b : St) (v : Idx), SmallGrid d →
  (∀ p ∈ A, p ∈ B) → build d A = some a → build d B = some b → InBounds d v →
  ∀ n, reported a v = some n → ∃ m, reported b v = some m ∧ m ≤ n

/-- C11 is false: adding two obstacles raises the reported squared distance of a cell from 8 to 9. -/
theorem C11_false : ¬ C11Statement := by
  intro h
  have hw := dfWitness
  have hw' : (build dfDims [⟨1, 0, 1⟩]).map (fun s => reported s ⟨3, 0, 3⟩) = some (some 8) := by
    decide +kernel
  match hb : build dfDims dfPts, hw, ha : build dfDims [⟨1, 0, 1⟩], hw' with
  | some b, hw, some a, hw' =>
    simp only [Option.map_some, Option.some.injEq] at hw hw'
    obtain ⟨m, h1, h2⟩ := h dfDims [⟨1, 0, 1⟩] dfPts a b ⟨3, 0, 3⟩
      (by unfold SmallGrid dfDims; decide) (by decide) ha hb (by unfold InBounds dfDims; decide) 8 hw'
    rw [hw] at h1
    simp only [Option.some.injEq] at h1
    omega

/-- C11, the part that holds: no increase at a cell on which the larger source list has a chain.
Missing: the other cells (`C11_false`). -/
theorem C11_monotone_on_chains_partial {d : Dims} (hd : SmallGrid d) {A B : List Idx}
    (hAB : ∀ p ∈ A, p ∈ B) {a b : St} (ha : build d A = some a) (hb : build d B = some b) {v : Idx}
    (hv : Chain d B v) {n : Nat} (hn : reported a v = some n) :
    ∃ m, reported b v = some m ∧ m ≤ n := by
  obtain ⟨r, hr⟩ := hv.exists_nearest
  obtain ⟨m, h1, h2, _⟩ := C10_exact_on_chains_partial hd hb hv hr
  obtain ⟨hcp, hd2, _⟩ := C08_sound hd ha hv.inBounds hn
  have := hr.2 _ (hAB _ hcp)
  exact ⟨m, h1, by omega⟩

/-- C11, closed form: no increase at cells within squared distance 7 of a source of the larger
list. -/
theorem C11_monotone_below_8_partial {d : Dims} (hd : SmallGrid d) {A B : List Idx}
    (hAB : ∀ p ∈ A, p ∈ B) {a b : St} (ha : build d A = some a) (hb : build d B = some b) {v : Idx}
    (hv : InBounds d v) (h8 : ∃ p ∈ B, sqDist v p < 8) {n : Nat} (hn : reported a v = some n) :
    ∃ m, reported b v = some m ∧ m ≤ n := by
  obtain ⟨p, hp, hp8⟩ := h8
  obtain ⟨r, hr⟩ := exists_isNearest (List.ne_nil_of_mem hp) v
  obtain ⟨m, h1, h2⟩ := C10_exact_below_8_partial hd hb hv (m := sqDist v r)
    ⟨⟨r, hr.1, rfl⟩, hr.2⟩ (lt_of_le_of_lt (hr.2 p hp) hp8)
  obtain ⟨hcp, hd2, _⟩ := C08_sound hd ha hv hn
  have := hr.2 _ (hAB _ hcp)
  exact ⟨m, h1, by omega⟩

example : (∀ p ∈ [(⟨1, 0, 1⟩ : Idx)], p ∈ dfPts) ∧ (build dfDims [⟨1, 0, 1⟩]).isSome = true ∧
    InBounds dfDims ⟨3, 0, 1⟩ ∧ (∃ p ∈ dfPts, sqDist ⟨3, 0, 1⟩ p < 8) := by
  refine ⟨by decide, by decide +kernel, by simp [InBounds, dfDims], ⟨3, 0, 0⟩, by decide, by decide⟩

end Verif
