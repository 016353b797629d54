import Verif.Props.CloudPath
import Verif.Props.ObjectDistance
import Verif.Props.ResampleFloat

/-!
# C132: from detections of several objects to a path clear of some of them

A tagged map without obstacles is placed in the world, positions are marked with `SetValue`, each with the id of an object.
The field of the objects of interest is extracted with the virtual border and asked at the waypoints of a path.
-/

namespace Verif

open Spec SdfGen DField SignedDist

namespace FSdf

/-- The cell is written for one of the objects of interest; the empty list means all. -/
def Wanted (objs : List UInt32) (c : TCell) : Prop := objs = [] ∨ c.obj ∈ objs

/-- No position within a cell size of `q` (and 1/500) is marked for an object that is not of interest, so the mark at `q`
cannot be overwritten by such a one. -/
def Undisputed (res : ℝ) (objs : List UInt32) (marks : List (V3 ℝ × TCell)) (q : V3 ℝ) : Prop :=
  ∀ e ∈ marks, CoordsWithin (501 / 500 * res) ⟨q.x - e.1.x, q.y - e.1.y, q.z - e.1.z⟩ → Wanted objs e.2

theorem setEach_get (res : ℝ) (B : Aff ℝ) (ps : List (V3 FVal × TCell)) :
    ∀ {m : TMap}, m.grid.WF → (m.setEachF ieee res B ps).grid.dims = m.grid.dims ∧
      ∀ j, InBounds m.grid.dims j →
        ((∃ e ∈ ps, cellAt ieee res B e.1 = j) →
          ∃ e ∈ ps, cellAt ieee res B e.1 = j ∧ (m.setEachF ieee res B ps).grid.get j = e.2) ∧
        ((¬ ∃ e ∈ ps, cellAt ieee res B e.1 = j) → (m.setEachF ieee res B ps).grid.get j = m.grid.get j) := by
  unfold TMap.setEachF
  induction ps with
  | nil => intro m _; simp
  | cons p ps ih =>
    intro m hm
    have step : (m.setAtF ieee res B p.1 p.2).1 = (m.setValue (cellAt ieee res B p.1) p.2).1 := by
      unfold TMap.setAtF TMap.setValue
      split_ifs <;> rfl
    obtain ⟨hd, hg⟩ := ih (m := (m.setAtF ieee res B p.1 p.2).1) (by rw [step]; exact TMap.setValue_wf hm _ _)
    rw [step, TMap.setValue_dims] at hd hg
    rw [List.foldl_cons, step]
    refine ⟨hd, fun j hj => ?_⟩
    obtain ⟨a, b⟩ := hg j hj
    by_cases hrest : ∃ e ∈ ps, cellAt ieee res B e.1 = j
    · refine ⟨fun _ => ?_, fun h => absurd ?_ h⟩
      · obtain ⟨e, he, h1, h2⟩ := a hrest
        exact ⟨e, List.mem_cons_of_mem _ he, h1, h2⟩
      · obtain ⟨e, he, h1⟩ := hrest
        exact ⟨e, List.mem_cons_of_mem _ he, h1⟩
    · rw [b hrest, TMap.setValue_get hm]
      have hj' := inB_iff_spec.mpr hj
      refine ⟨fun ⟨e, he, h1⟩ => ?_, fun h => ?_⟩
      · rcases List.mem_cons.mp he with rfl | he
        · refine ⟨e, List.mem_cons_self .., h1, ?_⟩
          simp [h1, hj']
        · exact absurd ⟨e, he, h1⟩ hrest
      · have : cellAt ieee res B p.1 ≠ j := fun h' => h ⟨p, List.mem_cons_self .., h'⟩
        simp [this]

/-- Two locations near the same cube are near each other. -/
theorem near_near {res : ℝ} {i : Idx} {q r : V3 ℝ} (h : NearCube res i q) (h' : NearCube res i r) :
    CoordsWithin (501 / 500 * res) ⟨q.x - r.x, q.y - r.y, q.z - r.z⟩ := by
  have ax : ∀ {k : ℤ} {x y : ℝ}, (k : ℝ) * res - res / 1000 < x ∧ x < (k + 1) * res + res / 1000 →
      (k : ℝ) * res - res / 1000 < y ∧ y < (k + 1) * res + res / 1000 → |x - y| ≤ 501 / 500 * res := by
    rintro k x y ⟨h1, h2⟩ ⟨h3, h4⟩
    rw [abs_le]
    constructor <;> linarith
  exact ⟨ax h.1 h'.1, ax h.2.1 h'.2.1, ax h.2.2 h'.2.2⟩

/-- What one report says about locations that have obstacle points next to them. -/
theorem near_report {d : Dims} {res : ℝ} (r0 : 0 < res) {A : Aff ℝ} {f : Idx → Bool} {κ β κ' β' : ℝ} (hκ : 1 ≤ κ)
    (hle : κ' ≤ κ) (hb' : β' ≤ β) {c : V3 ℝ} {y : ℝ}
    (h1 : ∀ r, Region d res f true r → y ≤ κ * dist3 (A.app id c) (A.app id r) + β * res)
    (h2 : ∀ r, Outside d res r → y ≤ κ' * dist3 (A.app id c) (A.app id r) + β' * res)
    {ρ δ : ℝ} (hy : κ * (ρ + δ) + β * res ≤ y) {p : V3 ℝ} (hp : dist3 p (A.app id c) ≤ δ) :
    (∀ q r, Region d res f true r → dist3 (A.app id q) (A.app id r) ≤ res / 500 → ρ - res / 500 ≤ dist3 p (A.app id q)) ∧
    ∀ r, Outside d res r → ρ ≤ dist3 p (A.app id r) := by
  have far : ∀ r, y ≤ κ * dist3 (A.app id c) (A.app id r) + β * res → ρ ≤ dist3 p (A.app id r) := by
    intro r h
    have h3 : κ * (ρ + δ) ≤ κ * dist3 (A.app id c) (A.app id r) := by linarith
    have h4 := le_of_mul_le_mul_left h3 (by linarith)
    have tri := dist3_tri (A.app id c) p (A.app id r)
    rw [dist3_comm (A.app id c) p] at tri
    linarith
  refine ⟨fun q r hr hd => ?_, fun r hr => far r ?_⟩
  · have a := far r (h1 r hr)
    have b := dist3_tri p (A.app id q) (A.app id r)
    linarith
  · have h := h2 r hr
    have n := dist3_nonneg (A.app id c) (A.app id r)
    have : κ' * dist3 (A.app id c) (A.app id r) ≤ κ * dist3 (A.app id c) (A.app id r) := by gcongr
    have : β' * res ≤ β * res := by gcongr
    linarith

section

variable {res : ℝ} (hres : GoodRes ieee res) (hlo : 1 / 2 ^ 100 ≤ res) (hhi : res ≤ 2 ^ 60) {A B : Aff ℝ}
  (hA : NearRotation A) (hB : isoInverse ieee A = (B.rx, B.ry, B.rz, loc B.t)) {m : TMap} (hm : m.grid.WF) {N : ℕ}
  (hN : N ≤ 2 ^ 14) (hdim : m.grid.dims.nx ≤ N ∧ m.grid.dims.ny ≤ N ∧ m.grid.dims.nz ≤ N)
  (hthick : 1 < m.grid.dims.nx ∨ 1 < m.grid.dims.ny ∨ 1 < m.grid.dims.nz) {M : ℝ}
  (hNM : (N : ℝ) ≤ M) (hM : M * N ≤ 2 ^ 29) (hT : OriginWithin A (M * res)) {u : Bool}
  (hfree : ∀ i, InBounds m.grid.dims i → ¬ TObstacle m u i) {marks : List (V3 ℝ × TCell)}
  (hmarks : ∀ e ∈ marks, CoordsWithin (M * res) e.1 ∧ e.2.occ.gtHalf = true) {m' : TMap}
  (hm' : m' = m.setEachF ieee res B (marks.map fun e => (loc (A.app id e.1), e.2)))

include hres hlo hhi hA hB hm hN hdim hthick hNM hM hT hfree hmarks hm'

/-- What the marked map contains. -/
theorem tags_cells : m'.grid.dims = m.grid.dims ∧
    (∀ i, InBounds m.grid.dims i → TObstacle m' u i → ∃ e ∈ marks, NearCube res i e.1 ∧ (m'.getImm i).1 = e.2) ∧
    ∀ e ∈ marks, InsideBy m.grid.dims res e.1 → ∃ i, InBounds m.grid.dims i ∧ NearCube res i e.1 ∧ TObstacle m' u i := by
  subst hm'
  have r0 := hres.1
  have N1 : (1 : ℝ) ≤ N := by
    have : 1 ≤ N := by omega
    exact_mod_cast this
  have M1 : 1 ≤ M := N1.trans hNM
  have hM2 : M ≤ 2 ^ 29 := le_trans (le_mul_of_one_le_right (by linarith) N1) hM
  obtain ⟨hd, hg⟩ := setEach_get res B (marks.map fun e => (loc (A.app id e.1), e.2)) hm
  have near : ∀ e ∈ marks, NearCube res (cellAt ieee res B (loc (A.app id e.1))) e.1 := fun e he =>
    C124_cell hlo hhi hA hB M1 hM2 hT (hmarks e he).1
  refine ⟨hd, fun i hi ho => ?_, fun e he hin => ?_⟩
  · by_cases h : ∃ e ∈ marks.map (fun e => (loc (A.app id e.1), e.2)), cellAt ieee res B e.1 = i
    · obtain ⟨e', he', h1, h2⟩ := (hg i hi).1 h
      obtain ⟨e, he, rfl⟩ := List.mem_map.mp he'
      exact ⟨e, he, h1 ▸ near e he, h2⟩
    · refine absurd ?_ (hfree i hi)
      unfold TObstacle TMap.getImm Grid.getImm at ho ⊢
      rwa [(hg i hi).2 h] at ho
  · have hn := near e he
    have hi := near_inside r0 hn hin
    refine ⟨_, hi, hn, Or.inl ?_⟩
    obtain ⟨e', he', -, h2⟩ := (hg _ hi).1 ⟨_, List.mem_map.mpr ⟨e, he, rfl⟩, rfl⟩
    obtain ⟨e2, he2, rfl⟩ := List.mem_map.mp he'
    unfold TMap.getImm Grid.getImm
    rw [h2]
    exact (hmarks e2 he2).2

open Classical in
/-- The obstacles of interest and the positions marked for them are near each other. -/
theorem tags_facts (objs : List UInt32) : m'.grid.dims = m.grid.dims ∧
    (∀ r, Region m.grid.dims res (fun i => decide (Selected m' objs i ∧ TObstacle m' u i)) true r →
      ∃ e ∈ marks, Wanted objs e.2 ∧ dist3 (A.app id r) (A.app id e.1) ≤ 7 / 4 * res) ∧
    ∀ e ∈ marks, InsideBy m.grid.dims res e.1 → Undisputed res objs marks e.1 →
      ∃ r, Region m.grid.dims res (fun i => decide (Selected m' objs i ∧ TObstacle m' u i)) true r ∧
        dist3 (A.app id e.1) (A.app id r) ≤ res / 500 := by
  have r0 := hres.1
  obtain ⟨hd, ha, hb⟩ := tags_cells hres hlo hhi hA hB hm hN hdim hthick hNM hM hT hfree hmarks hm'
  refine ⟨hd, ?_, ?_⟩
  · rintro r ⟨i, hi, ho, hr⟩
    obtain ⟨hs, ho⟩ : Selected m' objs i ∧ TObstacle m' u i := by simpa using ho
    obtain ⟨e, he, hn, ev⟩ := ha i hi ho
    refine ⟨e, he, by unfold Selected at hs; rwa [ev] at hs, ?_⟩
    have e1 := near_diagonal r0 hn hr
    have f := (near_isometry hA r e.1).1
    have : (1 + 1 / 2 ^ 40) * dist3 r e.1 ≤ (1 + 1 / 2 ^ 40) * (1734 / 1000 * res) := by gcongr
    linarith
  · intro e he hin hund
    obtain ⟨i, hi, hn, ho⟩ := hb e he hin
    obtain ⟨e', he', hn', ev⟩ := ha i hi ho
    have hs : Selected m' objs i := by
      unfold Selected
      rw [ev]
      exact hund e' he' (near_near hn hn')
    obtain ⟨r, hr, hdr⟩ := near_point r0 hn
    refine ⟨r, ⟨i, hi, by simpa using ⟨hs, ho⟩, hr⟩, ?_⟩
    have := (near_isometry hA e.1 r).1
    have : (1 + 1 / 2 ^ 40) * dist3 e.1 r ≤ (1 + 1 / 2 ^ 40) * (res / 570) := by gcongr
    linarith

open Classical in
/-- Far from all positions marked for the objects of interest and from the outside, the report is large. -/
theorem tags_accepts (objs : List UInt32) {c : V3 ℝ} {y : ℝ}
    (h : ∀ b, 0 ≤ b → (∀ r, Blocked m.grid.dims res (fun i => decide (Selected m' objs i ∧ TObstacle m' u i)) r →
      b + 7 / 4 * res ≤ dist3 (A.app id c) (A.app id r)) → b ≤ y)
    {b : ℝ} (h0 : 0 ≤ b) (hq : ∀ e ∈ marks, Wanted objs e.2 → b + 7 / 2 * res ≤ dist3 (A.app id c) (A.app id e.1))
    (ho : ∀ r, Outside m.grid.dims res r → b + 7 / 4 * res ≤ dist3 (A.app id c) (A.app id r)) : b ≤ y := by
  obtain ⟨-, hfar, -⟩ := tags_facts hres hlo hhi hA hB hm hN hdim hthick hNM hM hT hfree hmarks hm' objs
  refine h b h0 fun r hr => ?_
  rcases hr with hr | hr
  · obtain ⟨e, he, hw, hd⟩ := hfar r hr
    have a := hq e he hw
    have t := dist3_tri (A.app id c) (A.app id r) (A.app id e.1)
    linarith
  · exact ho r hr

open Classical in
/-- C132: positions are marked, each for an object, in a tagged map without obstacles, and the field of the objects of
interest is extracted with the virtual border. If the field passes the check of C123, waypoints at most `2 * δ` apart whose
reports are at least `7/4 * (ρ + δ)` and 8/3 cells make a path that keeps `ρ`, less a five-hundredth of a cell, away from
every position marked for these objects, unless another object is marked within a cell of it, and `ρ` away from everything
outside the volume. Positions of other objects do not reduce the reports. -/
theorem C132_path (objs : List UInt32) {oob : FVal} {o : Out}
    (ho : m'.extractObjs ieee (res, res, res) oob objs u true = some o) {g : Idx → ℝ}
    (hg : Checked m.grid.dims res o.sdf.get g) :
    (∀ cs : List (V3 ℝ), (∀ c ∈ cs, WellInside m.grid.dims res c) → ∀ ρ δ : ℝ, 0 ≤ δ →
      Spaced (2 * δ) (cs.map (A.app id)) →
      (∀ w ∈ cs.map (A.app id), ∃ y, Reports o.sdf res B w y ∧ 7 / 4 * (ρ + δ) + 8 / 3 * res ≤ y) →
      ∀ p, OnPath (cs.map (A.app id)) p →
        (∀ e ∈ marks, InsideBy m.grid.dims res e.1 → Undisputed res objs marks e.1 →
          ρ - res / 500 ≤ dist3 p (A.app id e.1)) ∧
        ∀ r, Outside m.grid.dims res r → ρ ≤ dist3 p (A.app id r)) ∧
    ∀ c, WellInside m.grid.dims res c → ∃ y, Reports o.sdf res B (A.app id c) y ∧
      ∀ b, 0 ≤ b → (∀ e ∈ marks, Wanted objs e.2 → b + 7 / 2 * res ≤ dist3 (A.app id c) (A.app id e.1)) →
        (∀ r, Outside m.grid.dims res r → b + 7 / 4 * res ≤ dist3 (A.app id c) (A.app id r)) → b ≤ y := by
  have r0 := hres.1
  obtain ⟨hd, -, hnear⟩ := tags_facts hres hlo hhi hA hB hm hN hdim hthick hNM hM hT hfree hmarks hm' objs
  have ans : Answers m.grid.dims (m'.objFill objs u) fun i => decide (Selected m' objs i ∧ TObstacle m' u i) :=
    hd ▸ m'.objFill_answers objs u
  unfold TMap.extractObjs at ho
  rw [hd] at ho
  refine ⟨fun cs hc ρ δ hδ hs hask p hp => ?_, fun c hc => ?_⟩
  · obtain ⟨w, hw, hn⟩ := path_near_waypoint (by linarith) hs hp
    obtain ⟨y, ey, hy⟩ := hask w hw
    obtain ⟨c, hcs, rfl⟩ := List.mem_map.mp hw
    obtain ⟨y', ey', h1, h2, -⟩ := C129_world hres hlo hhi hN hdim ans ho hg hA hB hNM hM hT (hc c hcs)
    obtain rfl := ey.unique ey'
    obtain ⟨k1, k2⟩ := near_report r0 (κ := 7 / 4) (β := 8 / 3) (κ' := 102 / 100) (β' := 1 / 25) (by norm_num) (by norm_num)
      (by norm_num) h1 (fun r hr => by have := h2 r hr; linarith) hy (p := p) (by linarith)
    refine ⟨fun e he hin hund => ?_, k2⟩
    obtain ⟨r, hr, hdr⟩ := hnear e he hin hund
    exact k1 e.1 r hr hdr
  · obtain ⟨y, ey, -, -, h3⟩ := C129_world hres hlo hhi hN hdim ans ho hg hA hB hNM hM hT hc
    exact ⟨y, ey, fun b h0 hq hout =>
      tags_accepts hres hlo hhi hA hB hm hN hdim hthick hNM hM hT hfree hmarks hm' objs h3 h0 hq hout⟩

open Classical in
/-- C132 for two-dimensional maps: nothing is assumed about the field, which is always extracted, and reports of
`1.415 * (ρ + δ)` and two cells are enough. -/
theorem C132_flat (hflat : Flat m.grid.dims) (objs : List UInt32) (oob : FVal) :
    ∃ o, m'.extractObjs ieee (res, res, res) oob objs u true = some o ∧
    (∀ cs : List (V3 ℝ), (∀ c ∈ cs, WellInside m.grid.dims res c) → ∀ ρ δ : ℝ, 0 ≤ δ →
      Spaced (2 * δ) (cs.map (A.app id)) →
      (∀ w ∈ cs.map (A.app id), ∃ y, Reports o.sdf res B w y ∧ 283 / 200 * (ρ + δ) + 2 * res ≤ y) →
      ∀ p, OnPath (cs.map (A.app id)) p →
        (∀ e ∈ marks, InsideBy m.grid.dims res e.1 → Undisputed res objs marks e.1 →
          ρ - res / 500 ≤ dist3 p (A.app id e.1)) ∧
        ∀ r, Outside m.grid.dims res r → ρ ≤ dist3 p (A.app id r)) ∧
    ∀ c, WellInside m.grid.dims res c → ∃ y, Reports o.sdf res B (A.app id c) y ∧
      ∀ b, 0 ≤ b → (∀ e ∈ marks, Wanted objs e.2 → b + 7 / 2 * res ≤ dist3 (A.app id c) (A.app id e.1)) →
        (∀ r, Outside m.grid.dims res r → b + 7 / 4 * res ≤ dist3 (A.app id c) (A.app id r)) → b ≤ y := by
  have r0 := hres.1
  obtain ⟨hd, -, hnear⟩ := tags_facts hres hlo hhi hA hB hm hN hdim hthick hNM hM hT hfree hmarks hm' objs
  have ans : Answers m.grid.dims (m'.objFill objs u) fun i => decide (Selected m' objs i ∧ TObstacle m' u i) :=
    hd ▸ m'.objFill_answers objs u
  obtain ⟨⟨o, ho⟩, -⟩ := C17_safe_queries (small_enlarge hN hdim) ieee res oob ans ans
  refine ⟨o, by unfold TMap.extractObjs; rw [hd]; exact ho, fun cs hc ρ δ hδ hs hask p hp => ?_, fun c hc => ?_⟩
  · obtain ⟨w, hw, hn⟩ := path_near_waypoint (by linarith) hs hp
    obtain ⟨y, ey, hy⟩ := hask w hw
    obtain ⟨c, hcs, rfl⟩ := List.mem_map.mp hw
    obtain ⟨y', ey', h1, h2, -⟩ := C129_flat hres hlo hhi hN hdim hflat hthick ans ho hA hB hNM hM hT (hc c hcs)
    obtain rfl := ey.unique ey'
    obtain ⟨k1, k2⟩ := near_report r0 (κ := 283 / 200) (β := 2) (κ' := 283 / 200) (β' := 1 / 4) (by norm_num) (by norm_num)
      (by norm_num) h1 (fun r hr => by have := h2 r hr; linarith) hy (p := p) (by linarith)
    refine ⟨fun e he hin hund => ?_, k2⟩
    obtain ⟨r, hr, hdr⟩ := hnear e he hin hund
    exact k1 e.1 r hr hdr
  · obtain ⟨y, ey, -, -, h3⟩ := C129_flat hres hlo hhi hN hdim hflat hthick ans ho hA hB hNM hM hT hc
    exact ⟨y, ey, fun b h0 hq hout =>
      tags_accepts hres hlo hhi hA hB hm hN hdim hthick hNM hM hT hfree hmarks hm' objs h3 h0 hq hout⟩

open Classical in
/-- C132, all objects: every mark carries an id other than 0, and the fields of `MakeAllObjectSDFs` with the virtual border
pass the check. If the report of every field at every waypoint is large enough, the path is clear of every marked position,
however the marks of different objects overlap. -/
theorem C132_every_object (hnamed : ∀ e ∈ marks, e.2.obj ≠ 0) :
    ∃ l, m'.makeAllObjectSDFs ieee (res, res, res) u true = some l ∧
      ((∀ k f, (k, f) ∈ l → ∃ g, Checked m.grid.dims res f.get g) →
        ∀ cs : List (V3 ℝ), (∀ c ∈ cs, WellInside m.grid.dims res c) → ∀ ρ δ : ℝ, 0 ≤ δ →
        Spaced (2 * δ) (cs.map (A.app id)) →
        (∀ w ∈ cs.map (A.app id), ∀ k f, (k, f) ∈ l → ∃ y, Reports f res B w y ∧ 7 / 4 * (ρ + δ) + 8 / 3 * res ≤ y) →
        ∀ p, OnPath (cs.map (A.app id)) p →
          ∀ e ∈ marks, InsideBy m.grid.dims res e.1 → ρ - res / 500 ≤ dist3 p (A.app id e.1)) := by
  have r0 := hres.1
  obtain ⟨hd, ha, hb⟩ := tags_cells hres hlo hhi hA hB hm hN hdim hthick hNM hM hT hfree hmarks hm'
  have h32 : 0 < ieee.r32 res := (ieee_resolution (le_trans (by norm_num) hlo) (hhi.trans (by norm_num))).1
  have hfit : FieldFits m'.dims true := by
    have : m'.dims = m.grid.dims := hd
    rw [this]
    exact small_enlarge hN hdim
  obtain ⟨l, hl, -, -, hfield⟩ := C40_make_objects hres h32 m' true hfit u m'.objectIds
  obtain ⟨l', hl', -, hkeys, -⟩ := C40_all_objects hres h32 m' true hfit u
  obtain rfl : l = l' := by
    have : some l = some l' := hl.symm.trans hl'
    exact Option.some.inj this
  refine ⟨l, hl, fun hcheck cs hc ρ δ hδ hs hask p hp e he hin => ?_⟩
  obtain ⟨i, hi, hn, hob⟩ := hb e he hin
  obtain ⟨e', he', -, ev⟩ := ha i hi hob
  have hi' : InBounds m'.dims i := by
    have : m'.dims = m.grid.dims := hd
    rwa [this]
  obtain ⟨⟨k, f⟩, hkf, hk⟩ := List.mem_map.mp ((hkeys e'.2.obj).mpr ⟨hnamed e' he', i, hi', by rw [ev]⟩)
  replace hk : k = e'.2.obj := hk
  obtain ⟨o, ho, rfl⟩ := hfield k f hkf
  obtain ⟨g, hg⟩ := hcheck k o.sdf hkf
  have ans : Answers m.grid.dims (m'.objFill [k] u) fun i => decide (ObjectCell m' u k i) := hd ▸ object_answers m' u k
  unfold TMap.extractObjs at ho
  rw [hd] at ho
  obtain ⟨w, hw, hnw⟩ := path_near_waypoint (by linarith) hs hp
  obtain ⟨y, ey, hy⟩ := hask w hw k o.sdf hkf
  obtain ⟨c, hcs, rfl⟩ := List.mem_map.mp hw
  obtain ⟨y', ey', h1, h2, -⟩ := C129_world hres hlo hhi hN hdim ans ho hg hA hB hNM hM hT (hc c hcs)
  obtain rfl := ey.unique ey'
  obtain ⟨k1, -⟩ := near_report r0 (κ := 7 / 4) (β := 8 / 3) (κ' := 102 / 100) (β' := 1 / 25) (by norm_num) (by norm_num)
    (by norm_num) h1 (fun r hr => by have := h2 r hr; linarith) hy (p := p) (by linarith)
  obtain ⟨r, hr, hdr⟩ := near_point r0 hn
  refine k1 e.1 r ⟨i, hi, by simpa using ⟨by rw [ev, hk], hob⟩, hr⟩ ?_
  have := (near_isometry hA e.1 r).1
  have : (1 + 1 / 2 ^ 40) * dist3 e.1 r ≤ (1 + 1 / 2 ^ 40) * (res / 570) := by gcongr
  linarith

end

/-- Positions of two objects. -/
noncomputable def exTags : List (V3 ℝ × TCell) :=
  [(⟨1, 2, 1 / 8⟩, TCell.ofObj F32.one 1), (⟨31 / 4, 29 / 4, 1 / 8⟩, TCell.ofObj F32.one 2)]

theorem exTags_free (i : Idx) :
    ¬ TObstacle (TMap.create false ⟨60, 60, 1⟩ (TCell.ofObj F32.zero 0) (TCell.ofObj F32.zero 0)) false i := by
  have e : ((TMap.create false ⟨60, 60, 1⟩ (TCell.ofObj F32.zero 0) (TCell.ofObj F32.zero 0)).getImm i).1 =
      TCell.ofObj F32.zero 0 := by
    unfold TMap.create TMap.getImm Grid.getImm
    rw [Grid.get_mk']
    exact ite_self _
  unfold TObstacle
  rw [e]
  decide

theorem exTags_marks :
    ∀ e ∈ exTags, CoordsWithin (2 ^ 22 * (1 / 4)) e.1 ∧ e.2.occ.gtHalf = true := by
  intro e he
  rcases List.mem_cons.mp he with rfl | he
  · exact ⟨by norm_num [CoordsWithin, abs_le], by decide⟩
  · obtain rfl := List.mem_singleton.mp he
    exact ⟨by norm_num [CoordsWithin, abs_le], by decide⟩

theorem exTags_inner (c : V3 ℝ) (h1 : c.x = 15 / 2) (h2 : 15 / 2 ≤ c.y) (h3 : c.y ≤ 61 / 8) (h4 : c.z = 1 / 8) :
    WellInside ⟨60, 60, 1⟩ (1 / 4) c := by
  refine ⟨Or.inr ⟨?_, ?_⟩, Or.inr ⟨?_, ?_⟩, ?_⟩
  · norm_num; linarith
  · norm_num; linarith
  · norm_num; linarith
  · norm_num; linarith
  · norm_num [WellInner, h4]

/-- A flat map of 60 x 60 cells of size 1/4, turned and shifted, with two objects: the field of object 1 accepts a path that
passes object 2 at less than 1/2, and the path keeps 3 away from object 1. -/
example : ∃ (B : Aff ℝ) (o : Out), isoInverse ieee exPose = (B.rx, B.ry, B.rz, loc B.t) ∧
    ((TMap.create false ⟨60, 60, 1⟩ (TCell.ofObj F32.zero 0) (TCell.ofObj F32.zero 0)).setEachF ieee (1 / 4) B
      (exTags.map fun e => (loc (exPose.app id e.1), e.2))).extractObjs ieee ((1 / 4 : ℝ), (1 / 4 : ℝ), (1 / 4 : ℝ)) (some ⊤)
      [1] false true = some o ∧
    (∀ w ∈ [exPose.app id ⟨15 / 2, 15 / 2, 1 / 8⟩, exPose.app id ⟨15 / 2, 61 / 8, 1 / 8⟩],
      ∃ y, Reports o.sdf (1 / 4) B w y ∧ 5 ≤ y) ∧
    dist3 (exPose.app id ⟨15 / 2, 15 / 2, 1 / 8⟩) (exPose.app id ⟨31 / 4, 29 / 4, 1 / 8⟩) < 1 / 2 ∧
    ∀ p, OnPath [exPose.app id ⟨15 / 2, 15 / 2, 1 / 8⟩, exPose.app id ⟨15 / 2, 61 / 8, 1 / 8⟩] p →
      3 - 1 / 4 / 500 ≤ dist3 p (exPose.app id ⟨1, 2, 1 / 8⟩) := by
  have hT : OriginWithin exPose (2 ^ 22 * (1 / 4)) :=
    ⟨by norm_num [exPose, abs_le], by norm_num [exPose, abs_le], by norm_num [exPose, abs_le]⟩
  obtain ⟨B, hB, -⟩ := C112_inverse exPose_rotation
    ⟨exPose_origin.1.trans (by norm_num), exPose_origin.2.1.trans (by norm_num), exPose_origin.2.2.trans (by norm_num)⟩
  obtain ⟨o, ho, hpath, hacc⟩ := C132_flat
    (m := TMap.create false ⟨60, 60, 1⟩ (TCell.ofObj F32.zero 0) (TCell.ofObj F32.zero 0))
    quarter_good (by norm_num) (by norm_num) exPose_rotation hB (Grid.wf_mk' _ _ _) (N := 60) (by norm_num) (by decide)
    (by decide) (M := 2 ^ 22) (by norm_num) (by norm_num) hT (u := false) (fun i _ => exTags_free i) exTags_marks rfl
    (Or.inr (Or.inr rfl)) [1] (some ⊤)
  have dm : (TMap.create false ⟨60, 60, 1⟩ (TCell.ofObj F32.zero 0) (TCell.ofObj F32.zero 0)).grid.dims = ⟨60, 60, 1⟩ := rfl
  rw [dm] at hpath hacc
  have rep : ∀ c : V3 ℝ, c.x = 15 / 2 → 15 / 2 ≤ c.y → c.y ≤ 61 / 8 → c.z = 1 / 8 →
      ∃ y, Reports o.sdf (1 / 4) B (exPose.app id c) y ∧ 5 ≤ y := by
    intro c h1 h2 h3 h4
    obtain ⟨y, ey, h⟩ := hacc c (exTags_inner c h1 h2 h3 h4)
    refine ⟨y, ey, h _ (by norm_num) (fun e he hw => ?_) fun r hr => ?_⟩
    · rcases List.mem_cons.mp he with rfl | he
      · have k := (coord_le c ⟨1, 2, 1 / 8⟩).1
        have i := (near_isometry exPose_rotation c ⟨1, 2, 1 / 8⟩).2
        simp only at k
        rw [abs_le] at k
        linarith
      · obtain rfl := List.mem_singleton.mp he
        rcases hw with hw | hw
        · cases hw
        · exact absurd hw (by decide)
    · have i := (near_isometry exPose_rotation c r).2
      obtain ⟨k1, k2, k3⟩ := coord_le c r
      rw [abs_le] at k1 k2 k3
      rcases hr with ⟨-, h | h⟩ | ⟨-, h | h⟩ | ⟨h', -⟩
      · norm_num at h; linarith
      · norm_num at h; linarith
      · norm_num at h; linarith
      · norm_num at h; linarith
      · simp at h'
  have hw : ∀ w ∈ [exPose.app id ⟨15 / 2, 15 / 2, 1 / 8⟩, exPose.app id ⟨15 / 2, 61 / 8, 1 / 8⟩],
      ∃ y, Reports o.sdf (1 / 4) B w y ∧ 5 ≤ y := by
    intro w hw
    rcases List.mem_cons.mp hw with rfl | hw
    · exact rep _ rfl (by norm_num) (by norm_num) rfl
    · obtain rfl := List.mem_singleton.mp hw
      exact rep _ rfl (by norm_num) (by norm_num) rfl
  refine ⟨B, o, hB, ho, hw, ?_, fun p hp => ?_⟩
  · have i := (near_isometry exPose_rotation (⟨15 / 2, 15 / 2, 1 / 8⟩ : V3 ℝ) ⟨31 / 4, 29 / 4, 1 / 8⟩).1
    have e : dist3 (⟨15 / 2, 15 / 2, 1 / 8⟩ : V3 ℝ) ⟨31 / 4, 29 / 4, 1 / 8⟩ ≤ 2 / 5 := by
      unfold dist3 sqDist3
      refine Real.sqrt_le_iff.mpr ⟨by norm_num, by norm_num⟩
    linarith
  have hs : dist3 (exPose.app id ⟨15 / 2, 15 / 2, 1 / 8⟩) (exPose.app id ⟨15 / 2, 61 / 8, 1 / 8⟩) ≤ 2 * (1 / 10) := by
    have i := (near_isometry exPose_rotation (⟨15 / 2, 15 / 2, 1 / 8⟩ : V3 ℝ) ⟨15 / 2, 61 / 8, 1 / 8⟩).1
    have e : dist3 (⟨15 / 2, 15 / 2, 1 / 8⟩ : V3 ℝ) ⟨15 / 2, 61 / 8, 1 / 8⟩ ≤ 1 / 8 := by
      unfold dist3 sqDist3
      refine Real.sqrt_le_iff.mpr ⟨by norm_num, by norm_num⟩
    linarith
  refine (hpath [⟨15 / 2, 15 / 2, 1 / 8⟩, ⟨15 / 2, 61 / 8, 1 / 8⟩] (by
      intro c hc
      rcases List.mem_cons.mp hc with rfl | hc
      · exact exTags_inner _ rfl (by norm_num) (by norm_num) rfl
      · obtain rfl := List.mem_singleton.mp hc
        exact exTags_inner _ rfl (by norm_num) (by norm_num) rfl) 3 (1 / 10) (by norm_num) ⟨hs, trivial⟩ (by
      intro w h
      obtain ⟨y, ey, hy⟩ := hw w h
      exact ⟨y, ey, by linarith⟩) p hp).1 (⟨1, 2, 1 / 8⟩, TCell.ofObj F32.one 1) (List.mem_cons_self ..) (by norm_num [InsideBy]) ?_
  intro e he hc
  rcases List.mem_cons.mp he with rfl | he
  · exact Or.inr (by decide)
  · obtain rfl := List.mem_singleton.mp he
    have := hc.1
    norm_num [abs_le] at this

/-- Two opposite walls of a room, each an object. -/
noncomputable def exWalls : List (V3 ℝ × TCell) :=
  (List.range 20).flatMap fun y : ℕ => (List.range 20).flatMap fun z : ℕ =>
    [(⟨1 / 8, y / 4 + 1 / 8, z / 4 + 1 / 8⟩, TCell.ofObj F32.one 1),
      (⟨39 / 8, y / 4 + 1 / 8, z / 4 + 1 / 8⟩, TCell.ofObj F32.one 2)]

theorem exWalls_mem {e : V3 ℝ × TCell} (he : e ∈ exWalls) : ∃ y z : ℕ, y < 20 ∧ z < 20 ∧
    (e = (⟨1 / 8, y / 4 + 1 / 8, z / 4 + 1 / 8⟩, TCell.ofObj F32.one 1) ∨
      e = (⟨39 / 8, y / 4 + 1 / 8, z / 4 + 1 / 8⟩, TCell.ofObj F32.one 2)) := by
  obtain ⟨y, hy, he⟩ := List.mem_flatMap.mp he
  obtain ⟨z, hz, he⟩ := List.mem_flatMap.mp he
  refine ⟨y, z, List.mem_range.mp hy, List.mem_range.mp hz, ?_⟩
  rcases List.mem_cons.mp he with h | h
  · exact Or.inl h
  · exact Or.inr (List.mem_singleton.mp h)

theorem mem_exWalls {y z : ℕ} (hy : y < 20) (hz : z < 20) :
    ((⟨1 / 8, y / 4 + 1 / 8, z / 4 + 1 / 8⟩, TCell.ofObj F32.one 1) : V3 ℝ × TCell) ∈ exWalls ∧
      ((⟨39 / 8, y / 4 + 1 / 8, z / 4 + 1 / 8⟩, TCell.ofObj F32.one 2) : V3 ℝ × TCell) ∈ exWalls :=
  ⟨List.mem_flatMap.mpr ⟨y, List.mem_range.mpr hy, List.mem_flatMap.mpr ⟨z, List.mem_range.mpr hz, List.mem_cons_self ..⟩⟩,
    List.mem_flatMap.mpr ⟨y, List.mem_range.mpr hy, List.mem_flatMap.mpr ⟨z, List.mem_range.mpr hz,
      List.mem_cons_of_mem _ (List.mem_cons_self ..)⟩⟩⟩

theorem exWalls_small {k : ℕ} (h : k < 20) : (0 : ℝ) ≤ k ∧ (k : ℝ) ≤ 19 :=
  ⟨by positivity, by have : k ≤ 19 := by omega
                     exact_mod_cast this⟩

theorem exWalls_inside {e : V3 ℝ × TCell} (he : e ∈ exWalls) :
    CoordsWithin (2 ^ 24 * (1 / 4)) e.1 ∧ InsideBy ⟨20, 20, 20⟩ (1 / 4) e.1 := by
  obtain ⟨y, z, hy, hz, h⟩ := exWalls_mem he
  have := exWalls_small hy
  have := exWalls_small hz
  rcases h with rfl | rfl
  · refine ⟨⟨?_, ?_, ?_⟩, ⟨?_, ?_⟩, ⟨?_, ?_⟩, ?_, ?_⟩ <;> (try rw [abs_le]; constructor) <;> norm_num <;> linarith
  · refine ⟨⟨?_, ?_, ?_⟩, ⟨?_, ?_⟩, ⟨?_, ?_⟩, ?_, ?_⟩ <;> (try rw [abs_le]; constructor) <;> norm_num <;> linarith

theorem exWalls_occ {e : V3 ℝ × TCell} (he : e ∈ exWalls) : e.2.occ.gtHalf = true ∧ e.2.obj ≠ 0 := by
  obtain ⟨y, z, -, -, rfl | rfl⟩ := exWalls_mem he
  · exact ⟨show (TCell.ofObj F32.one 1).occ.gtHalf = true by decide, show (TCell.ofObj F32.one 1).obj ≠ 0 by decide⟩
  · exact ⟨show (TCell.ofObj F32.one 2).occ.gtHalf = true by decide, show (TCell.ofObj F32.one 2).obj ≠ 0 by decide⟩

theorem exWalls_axis {k : ℤ} {n : ℕ} (h : (k : ℝ) * (1 / 4) - 1 / 4 / 1000 < n / 4 + 1 / 8 ∧
    (n : ℝ) / 4 + 1 / 8 < (k + 1) * (1 / 4) + 1 / 4 / 1000) : k = n := by
  obtain ⟨h1, h2⟩ := h
  have a : (k : ℝ) < n + 1 := by linarith
  have b : (n : ℝ) < k + 1 := by linarith
  have a' : k < n + 1 := by exact_mod_cast a
  have b' : (n : ℤ) < k + 1 := by exact_mod_cast b
  omega

theorem exWalls_near {i : Idx} {e : V3 ℝ × TCell} (he : e ∈ exWalls) (hn : NearCube (1 / 4) i e.1) :
    (i.x = 0 ∧ e.2 = TCell.ofObj F32.one 1) ∨ (i.x = 19 ∧ e.2 = TCell.ofObj F32.one 2) := by
  obtain ⟨y, z, -, -, rfl | rfl⟩ := exWalls_mem he
  · exact Or.inl ⟨exWalls_axis (n := 0) (by simpa using hn.1), rfl⟩
  · refine Or.inr ⟨exWalls_axis (n := 19) ?_, rfl⟩
    have := hn.1
    norm_num at this ⊢
    exact this

def exRoom : TMap := TMap.create false ⟨20, 20, 20⟩ (TCell.ofObj F32.zero 0) (TCell.ofObj F32.zero 0)

theorem exRoom_free (i : Idx) : ¬ TObstacle exRoom false i := by
  have e : (exRoom.getImm i).1 = TCell.ofObj F32.zero 0 := by
    unfold exRoom TMap.create TMap.getImm Grid.getImm
    rw [Grid.get_mk']
    exact ite_self _
  unfold TObstacle
  rw [e]
  decide

theorem exRoom_cells {B : Aff ℝ} (hB : isoInverse ieee exPose = (B.rx, B.ry, B.rz, loc B.t)) {m' : TMap}
    (hm' : m' = exRoom.setEachF ieee (1 / 4) B (exWalls.map fun e => (loc (exPose.app id e.1), e.2))) :
    m'.grid.dims = ⟨20, 20, 20⟩ ∧ ∀ k i, InBounds ⟨20, 20, 20⟩ i →
      (ObjectCell m' false k i ↔ (k = 1 ∧ i.x = 0) ∨ (k = 2 ∧ i.x = 19)) := by
  have hT : OriginWithin exPose (2 ^ 24 * (1 / 4)) :=
    ⟨by norm_num [exPose, abs_le], by norm_num [exPose, abs_le], by norm_num [exPose, abs_le]⟩
  obtain ⟨hd, ha, hb⟩ := tags_cells (m := exRoom) quarter_good (by norm_num) (by norm_num) exPose_rotation hB
    (Grid.wf_mk' _ _ _) (N := 20) (by norm_num) (by decide) (by decide) (M := 2 ^ 24) (by norm_num) (by norm_num) hT
    (u := false) (fun i _ => exRoom_free i) (fun e he => ⟨(exWalls_inside he).1, (exWalls_occ he).1⟩) hm'
  have dm : exRoom.grid.dims = ⟨20, 20, 20⟩ := rfl
  rw [dm] at hd ha hb
  refine ⟨hd, fun k i hi => ⟨fun ⟨hk, ho⟩ => ?_, fun h => ?_⟩⟩
  · obtain ⟨e, he, hn, ev⟩ := ha i hi ho
    rw [ev] at hk
    rcases exWalls_near he hn with ⟨h1, h2⟩ | ⟨h1, h2⟩
    · rw [h2] at hk
      exact Or.inl ⟨hk.symm, h1⟩
    · rw [h2] at hk
      exact Or.inr ⟨hk.symm, h1⟩
  · have hi' := hi
    obtain ⟨⟨-, -⟩, ⟨y0, y1⟩, z0, z1⟩ := hi'
    replace y1 : i.y < 20 := y1
    replace z1 : i.z < 20 := z1
    obtain ⟨y, hy⟩ := Int.eq_ofNat_of_zero_le y0
    obtain ⟨z, hz⟩ := Int.eq_ofNat_of_zero_le z0
    have hmem := mem_exWalls (y := y) (z := z) (by omega) (by omega)
    have fin : ∀ e ∈ exWalls, e.1.y = y / 4 + 1 / 8 → e.1.z = z / 4 + 1 / 8 →
        (∀ j : Idx, NearCube (1 / 4) j e.1 → j.x = i.x) → TObstacle m' false i := by
      intro e he e1 e2 e3
      obtain ⟨j, -, hn, ho⟩ := hb e he (exWalls_inside he).2
      have b := exWalls_axis (k := j.y) (n := y) (e1 ▸ hn.2.1)
      have c := exWalls_axis (k := j.z) (n := z) (e2 ▸ hn.2.2)
      have a := e3 j hn
      have e : j = i := by
        cases i
        cases j
        simp only [Idx.mk.injEq] at *
        omega
      exact e ▸ ho
    have ho : TObstacle m' false i := by
      rcases h with ⟨-, h⟩ | ⟨-, h⟩
      · refine fin _ hmem.1 rfl rfl fun j hn => ?_
        rw [h]
        exact exWalls_axis (n := 0) (by simpa using hn.1)
      · refine fin _ hmem.2 rfl rfl fun j hn => ?_
        rw [h]
        refine exWalls_axis (n := 19) ?_
        have := hn.1
        norm_num at this ⊢
        exact this
    refine ⟨?_, ho⟩
    obtain ⟨e, he, hn, ev⟩ := ha i hi ho
    rw [ev]
    rcases exWalls_near he hn with ⟨h1, h2⟩ | ⟨h1, h2⟩ <;> rcases h with ⟨rfl, h⟩ | ⟨rfl, h⟩
    · rw [h2]; rfl
    · omega
    · omega
    · rw [h2]; rfl

/-- A room of 20 x 20 x 20 cells of size 1/4, turned and shifted, two opposite walls of which are marked as objects 1 and 2:
`MakeAllObjectSDFs` gives fields that pass the check, and two waypoints in the middle get reports from both that keep the
path between them 1/5 away from both walls. -/
example : ∃ (B : Aff ℝ) (l : List (UInt32 × Grid FVal)), isoInverse ieee exPose = (B.rx, B.ry, B.rz, loc B.t) ∧
    (exRoom.setEachF ieee (1 / 4) B (exWalls.map fun e => (loc (exPose.app id e.1), e.2))).makeAllObjectSDFs ieee
      ((1 / 4 : ℝ), (1 / 4 : ℝ), (1 / 4 : ℝ)) false true = some l ∧
    (1 ∈ l.map Prod.fst ∧ 2 ∈ l.map Prod.fst) ∧
    (∀ k f, (k, f) ∈ l → ∃ g, Checked ⟨20, 20, 20⟩ (1 / 4) f.get g) ∧
    (∀ w ∈ [exPose.app id ⟨5 / 2, 5 / 2, 5 / 2⟩, exPose.app id ⟨5 / 2, 21 / 8, 5 / 2⟩], ∀ k f, (k, f) ∈ l →
      ∃ y, Reports f (1 / 4) B w y ∧ 11 / 8 ≤ y) ∧
    ∀ p, OnPath [exPose.app id ⟨5 / 2, 5 / 2, 5 / 2⟩, exPose.app id ⟨5 / 2, 21 / 8, 5 / 2⟩] p →
      ∀ e ∈ exWalls, 1 / 5 - 1 / 4 / 500 ≤ dist3 p (exPose.app id e.1) := by
  obtain ⟨B, hB, -⟩ := C112_inverse exPose_rotation
    ⟨exPose_origin.1.trans (by norm_num), exPose_origin.2.1.trans (by norm_num), exPose_origin.2.2.trans (by norm_num)⟩
  have hT : OriginWithin exPose (2 ^ 24 * (1 / 4)) :=
    ⟨by norm_num [exPose, abs_le], by norm_num [exPose, abs_le], by norm_num [exPose, abs_le]⟩
  generalize hm' : exRoom.setEachF ieee (1 / 4) B (exWalls.map fun e => (loc (exPose.app id e.1), e.2)) = m'
  obtain ⟨hd, hobj⟩ := exRoom_cells hB hm'.symm
  have dm : exRoom.grid.dims = ⟨20, 20, 20⟩ := rfl
  have hd' : m'.dims = ⟨20, 20, 20⟩ := hd
  have hfit : FieldFits m'.dims true := by
    rw [hd']
    exact small_enlarge (N := 20) (by norm_num) (by decide)
  have h32 : 0 < ieee.r32 (1 / 4 : ℝ) := (ieee_resolution (by norm_num) (by norm_num)).1
  obtain ⟨l, hl, hevery⟩ := C132_every_object (m := exRoom) quarter_good (by norm_num) (by norm_num) exPose_rotation hB
    (Grid.wf_mk' _ _ _) (N := 20) (by norm_num) (by decide) (by decide) (M := 2 ^ 24) (by norm_num) (by norm_num) hT
    (u := false) (fun i _ => exRoom_free i) (fun e he => ⟨(exWalls_inside he).1, (exWalls_occ he).1⟩) hm'.symm
    (fun e he => (exWalls_occ he).2)
  rw [dm] at hevery
  obtain ⟨l1, hl1, -, -, hfield⟩ := C40_make_objects quarter_good h32 m' true hfit false m'.objectIds
  obtain rfl : l = l1 := Option.some.inj (hl.symm.trans hl1)
  obtain ⟨l2, hl2, -, hkeys, -⟩ := C40_all_objects quarter_good h32 m' true hfit false
  obtain rfl : l = l2 := Option.some.inj (hl.symm.trans hl2)
  have key : ∀ k i, InBounds ⟨20, 20, 20⟩ i → k ≠ 0 → ObjectCell m' false k i → k ∈ l.map Prod.fst := fun k i hi h0 h =>
    (hkeys k).mpr ⟨h0, i, hd'.symm ▸ hi, h.1⟩
  have checked : ∀ k f, (k, f) ∈ l → ∃ g, Checked ⟨20, 20, 20⟩ (1 / 4) f.get g := by
    intro k f hkf
    obtain ⟨o, ho, rfl⟩ := hfield k f hkf
    unfold TMap.extractObjs at ho
    rw [hd] at ho
    have ans := object_answers m' false k
    rw [hd] at ans
    exact C129_product quarter_good (by norm_num) (by norm_num) (N := 20) (by norm_num) (by decide) (by decide) ans
      (X := fun x => ¬ ((k = 1 ∧ x = 0) ∨ (k = 2 ∧ x = 19))) (Y := fun _ => True) (Z := fun _ => True)
      (X' := fun x => (k = 1 ∧ x = 0) ∨ (k = 2 ∧ x = 19)) (Y' := fun _ => True) (Z' := fun _ => True)
      (fun i hi => by simp only [decide_eq_false_iff_not, hobj k i hi, and_true])
      (fun i hi => by simp only [decide_eq_true_eq, hobj k i hi, and_true]) ho
  have rep : ∀ c : V3 ℝ, c.x = 5 / 2 → 5 / 2 ≤ c.y → c.y ≤ 21 / 8 → c.z = 5 / 2 → ∀ k f, (k, f) ∈ l →
      ∃ y, Reports f (1 / 4) B (exPose.app id c) y ∧ 11 / 8 ≤ y := by
    intro c h1 h2 h3 h4 k f hkf
    obtain ⟨g, hg⟩ := checked k f hkf
    obtain ⟨o, ho, rfl⟩ := hfield k f hkf
    obtain ⟨-, hacc⟩ := C132_path (m := exRoom) quarter_good (by norm_num) (by norm_num) exPose_rotation hB
      (Grid.wf_mk' _ _ _) (N := 20) (by norm_num) (by decide) (by decide) (M := 2 ^ 24) (by norm_num) (by norm_num) hT
      (u := false) (fun i _ => exRoom_free i) (fun e he => ⟨(exWalls_inside he).1, (exWalls_occ he).1⟩) hm'.symm
      [k] ho hg
    rw [dm] at hacc
    obtain ⟨y, ey, h⟩ := hacc c (by
      refine ⟨Or.inr ⟨?_, ?_⟩, Or.inr ⟨?_, ?_⟩, Or.inr ⟨?_, ?_⟩⟩ <;> norm_num <;> linarith)
    refine ⟨y, ey, h _ (by norm_num) (fun e he _ => ?_) fun r hr => ?_⟩
    · have k := (coord_le c e.1).1
      have i := (near_isometry exPose_rotation c e.1).2
      rw [abs_le] at k
      obtain ⟨y, z, -, -, rfl | rfl⟩ := exWalls_mem he <;> simp only at k i ⊢ <;> linarith
    · have i := (near_isometry exPose_rotation c r).2
      obtain ⟨k1, k2, k3⟩ := coord_le c r
      rw [abs_le] at k1 k2 k3
      rcases hr with ⟨-, h | h⟩ | ⟨-, h | h⟩ | ⟨-, h | h⟩ <;> norm_num at h <;> linarith
  have hw : ∀ w ∈ [exPose.app id ⟨5 / 2, 5 / 2, 5 / 2⟩, exPose.app id ⟨5 / 2, 21 / 8, 5 / 2⟩], ∀ k f, (k, f) ∈ l →
      ∃ y, Reports f (1 / 4) B w y ∧ 11 / 8 ≤ y := by
    intro w hw
    rcases List.mem_cons.mp hw with rfl | hw
    · exact rep _ rfl (by norm_num) (by norm_num) rfl
    · obtain rfl := List.mem_singleton.mp hw
      exact rep _ rfl (by norm_num) (by norm_num) rfl
  refine ⟨B, l, hB, by rw [hm']; exact hl, ⟨?_, ?_⟩, checked, hw, fun p hp e he => ?_⟩
  · exact key 1 ⟨0, 0, 0⟩ (by norm_num [InBounds]) (by decide) ((hobj _ _ (by norm_num [InBounds])).mpr (Or.inl ⟨rfl, rfl⟩))
  · exact key 2 ⟨19, 0, 0⟩ (by norm_num [InBounds]) (by decide) ((hobj _ _ (by norm_num [InBounds])).mpr (Or.inr ⟨rfl, rfl⟩))
  have hs : dist3 (exPose.app id ⟨5 / 2, 5 / 2, 5 / 2⟩) (exPose.app id ⟨5 / 2, 21 / 8, 5 / 2⟩) ≤ 2 * (1 / 10) := by
    have i := (near_isometry exPose_rotation (⟨5 / 2, 5 / 2, 5 / 2⟩ : V3 ℝ) ⟨5 / 2, 21 / 8, 5 / 2⟩).1
    have e : dist3 (⟨5 / 2, 5 / 2, 5 / 2⟩ : V3 ℝ) ⟨5 / 2, 21 / 8, 5 / 2⟩ ≤ 1 / 8 := by
      unfold dist3 sqDist3
      refine Real.sqrt_le_iff.mpr ⟨by norm_num, by norm_num⟩
    linarith
  refine hevery checked [⟨5 / 2, 5 / 2, 5 / 2⟩, ⟨5 / 2, 21 / 8, 5 / 2⟩] (by
      intro c hc
      rcases List.mem_cons.mp hc with rfl | hc
      · norm_num [WellInside, WellInner]
      · obtain rfl := List.mem_singleton.mp hc
        norm_num [WellInside, WellInner]) (1 / 5) (1 / 10) (by norm_num) ⟨hs, trivial⟩ (by
      intro w h k f hkf
      obtain ⟨y, ey, hy⟩ := hw w h k f hkf
      exact ⟨y, ey, by linarith⟩) p hp e he (exWalls_inside he).2

end FSdf

end Verif
