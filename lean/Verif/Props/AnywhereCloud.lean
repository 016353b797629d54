import Verif.Props.AnywhereBorder
import Verif.Props.TaggedPath

/-!
# C130 and C132 in the whole volume: waypoints in the outermost half cells
-/

namespace Verif

open Spec SdfGen DField SignedDist

namespace FSdf

section

variable {res : ℝ} (hres : GoodRes ieee res) (hlo : 1 / 2 ^ 100 ≤ res) (hhi : res ≤ 2 ^ 60) {A B : Aff ℝ}
  (hA : NearRotation A) (hB : isoInverse ieee A = (B.rx, B.ry, B.rz, loc B.t)) {m : CMap} (hm : m.grid.WF) {N : ℕ}
  (hN : N ≤ 2 ^ 14) (hdim : m.grid.dims.nx ≤ N ∧ m.grid.dims.ny ≤ N ∧ m.grid.dims.nz ≤ N)
  (hthick : 1 < m.grid.dims.nx ∨ 1 < m.grid.dims.ny ∨ 1 < m.grid.dims.nz) {M : ℝ}
  (hNM : (N : ℝ) ≤ M) (hM : M * N ≤ 2 ^ 29) (hT : OriginWithin A (M * res)) {u : Bool}
  (hfree : ∀ i, InBounds m.grid.dims i → ¬ Obstacle m u i) {v : CCell} (hv : v.occ.gtHalf = true)
  {qs : List (V3 ℝ)} (hqs : ∀ q ∈ qs, CoordsWithin (M * res) q) {m' : CMap}
  (hm' : m' = m.setAllF ieee res B (qs.map fun q => loc (A.app id q)) v)

include hres hlo hhi hA hB hm hN hdim hthick hNM hM hT hfree hv hqs hm'

open Classical in
/-- C130 anywhere: for waypoints anywhere in the volume (up to a thousandth of a cell from its faces), also in the outermost
half cells, reports of `7/4 * (ρ + δ)` and 8 cells make a path that keeps `ρ`, less a five-hundredth of a cell, away from
every marked position in the map, and `ρ` away from everything outside the volume. -/
theorem C130_path_anywhere {oob : FVal} {o : Out} (ho : extractMap ieee (res, res, res) m' oob u true = some o) {g : Idx → ℝ}
    (hg : Checked m.grid.dims res o.sdf.get g) {cs : List (V3 ℝ)} (hc : ∀ c ∈ cs, InsideBy m.grid.dims res c) {ρ δ : ℝ}
    (hδ : 0 ≤ δ) (hs : Spaced (2 * δ) (cs.map (A.app id)))
    (hask : ∀ w ∈ cs.map (A.app id), ∃ y, Reports o.sdf res B w y ∧ 7 / 4 * (ρ + δ) + 8 * res ≤ y)
    {p : V3 ℝ} (hp : OnPath (cs.map (A.app id)) p) :
    (∀ q ∈ qs, InsideBy m.grid.dims res q → ρ - res / 500 ≤ dist3 p (A.app id q)) ∧
    ∀ r, Outside m.grid.dims res r → ρ ≤ dist3 p (A.app id r) := by
  have hd := (cloud_facts hres hlo hhi hA hB hm hN hdim hthick hNM hM hT hfree hv hqs hm').1
  have ans : Answers m.grid.dims (mapFill m' u) fun i => decide (Obstacle m' u i) := hd ▸ mapFill_answers m' u
  unfold extractMap at ho
  rw [hd] at ho
  obtain ⟨w, hw, hn⟩ := path_near_waypoint (by linarith) hs hp
  obtain ⟨y, ey, hy⟩ := hask w hw
  obtain ⟨c, hcs, rfl⟩ := List.mem_map.mp hw
  obtain ⟨y', ey', h1, h2⟩ := C129_anywhere hres hlo hhi hN hdim ans ho hg hA hB hNM hM hT (hc c hcs)
  obtain rfl := ey.unique ey'
  exact cloud_report hres hlo hhi hA hB hm hN hdim hthick hNM hM hT hfree hv hqs hm' (κ := 7 / 4) (β := 8)
    (κ' := 102 / 100) (β' := 5) (by norm_num) (by norm_num) (by norm_num) (by norm_num) h1 h2 hy (by linarith)

end

/-- The centres of the cells of the first layer of 40 x 40 x 40 cells of size 1/4. -/
noncomputable def exLayer : List (V3 ℝ) :=
  (List.range 40).flatMap fun y : ℕ => (List.range 40).map fun z : ℕ => ⟨1 / 8, y / 4 + 1 / 8, z / 4 + 1 / 8⟩

open Classical in
/-- A room of 40 x 40 x 40 cells of size 1/4, turned and shifted, with a wall of 1600 marked positions along a face: the
field passes the check, and a path of two waypoints in the middle gets reports that keep it 1/5 away from the wall. -/
example : ∃ (B : Aff ℝ) (o : Out) (g : Idx → ℝ), isoInverse ieee exPose = (B.rx, B.ry, B.rz, loc B.t) ∧
    extractMap ieee ((1 / 4 : ℝ), (1 / 4 : ℝ), (1 / 4 : ℝ))
      ((CMap.create ⟨40, 40, 40⟩ (CCell.ofOcc F32.zero) (CCell.ofOcc F32.zero)).setAllF ieee (1 / 4) B
        (exLayer.map fun q => loc (exPose.app id q)) (CCell.ofOcc F32.one)) (some ⊤) false true = some o ∧
    Checked ⟨40, 40, 40⟩ (1 / 4) o.sdf.get g ∧
    (∀ w ∈ [exPose.app id ⟨5, 5, 5⟩, exPose.app id ⟨5, 41 / 8, 5⟩],
      ∃ y, Reports o.sdf (1 / 4) B w y ∧ 21 / 8 ≤ y) ∧
    ∀ p, OnPath [exPose.app id ⟨5, 5, 5⟩, exPose.app id ⟨5, 41 / 8, 5⟩] p →
      ∀ q ∈ exLayer, 1 / 5 - 1 / 4 / 500 ≤ dist3 p (exPose.app id q) := by
  have dm : (CMap.create ⟨40, 40, 40⟩ (CCell.ofOcc F32.zero) (CCell.ofOcc F32.zero)).grid.dims = ⟨40, 40, 40⟩ := rfl
  have free : ∀ i, ¬ Obstacle (CMap.create ⟨40, 40, 40⟩ (CCell.ofOcc F32.zero) (CCell.ofOcc F32.zero)) false i := by
    intro i
    have e : ((CMap.create ⟨40, 40, 40⟩ (CCell.ofOcc F32.zero) (CCell.ofOcc F32.zero)).getImm i).1 = CCell.ofOcc F32.zero := by
      unfold CMap.create CMap.getImm Grid.getImm
      rw [Grid.get_mk']
      exact ite_self _
    unfold Obstacle
    rw [e]
    decide
  have wall : ∀ q ∈ exLayer, ∃ y z : ℕ, y < 40 ∧ z < 40 ∧ q = ⟨1 / 8, y / 4 + 1 / 8, z / 4 + 1 / 8⟩ := by
    intro q hq
    obtain ⟨y, hy, hq⟩ := List.mem_flatMap.mp hq
    obtain ⟨z, hz, rfl⟩ := List.mem_map.mp hq
    exact ⟨y, z, List.mem_range.mp hy, List.mem_range.mp hz, rfl⟩
  have small : ∀ {k : ℕ}, k < 40 → (0 : ℝ) ≤ k ∧ (k : ℝ) ≤ 39 := fun {k} h =>
    ⟨by positivity, by have : k ≤ 39 := by omega
                       exact_mod_cast this⟩
  have within : ∀ q ∈ exLayer, CoordsWithin (2 ^ 23 * (1 / 4)) q := by
    intro q hq
    obtain ⟨y, z, hy, hz, rfl⟩ := wall q hq
    have := small hy
    have := small hz
    refine ⟨?_, ?_, ?_⟩ <;> rw [abs_le] <;> constructor <;> norm_num <;> linarith
  have inside : ∀ q ∈ exLayer, InsideBy ⟨40, 40, 40⟩ (1 / 4) q := by
    intro q hq
    obtain ⟨y, z, hy, hz, rfl⟩ := wall q hq
    have := small hy
    have := small hz
    refine ⟨⟨?_, ?_⟩, ⟨?_, ?_⟩, ?_, ?_⟩ <;> norm_num <;> linarith
  have cell : ∀ {k : ℤ} {n : ℕ}, (k : ℝ) * (1 / 4) - 1 / 4 / 1000 < n / 4 + 1 / 8 ∧
      (n : ℝ) / 4 + 1 / 8 < (k + 1) * (1 / 4) + 1 / 4 / 1000 → k = n := by
    rintro k n ⟨h1, h2⟩
    have a : (k : ℝ) < n + 1 := by linarith
    have b : (n : ℝ) < k + 1 := by linarith
    have a' : k < n + 1 := by exact_mod_cast a
    have b' : (n : ℤ) < k + 1 := by exact_mod_cast b
    omega
  have hT : OriginWithin exPose (2 ^ 23 * (1 / 4)) :=
    ⟨by norm_num [exPose, abs_le], by norm_num [exPose, abs_le], by norm_num [exPose, abs_le]⟩
  obtain ⟨B, hB, -⟩ := C112_inverse exPose_rotation
    ⟨exPose_origin.1.trans (by norm_num), exPose_origin.2.1.trans (by norm_num), exPose_origin.2.2.trans (by norm_num)⟩
  obtain ⟨hd, h1, h2⟩ := C124_marks (by norm_num) (by norm_num) exPose_rotation hB (M := 2 ^ 23) (by norm_num) (by norm_num)
    hT (m := CMap.create ⟨40, 40, 40⟩ (CCell.ofOcc F32.zero) (CCell.ofOcc F32.zero)) (Grid.wf_mk' _ _ _) (u := false)
    (fun i _ => free i) (v := CCell.ofOcc F32.one) (by decide) within
  generalize hm' : (CMap.create ⟨40, 40, 40⟩ (CCell.ofOcc F32.zero) (CCell.ofOcc F32.zero)).setAllF ieee (1 / 4) B
    (exLayer.map fun q => loc (exPose.app id q)) (CCell.ofOcc F32.one) = m' at hd h1 h2 ⊢
  rw [dm] at hd h1 h2
  have obs : ∀ i, InBounds ⟨40, 40, 40⟩ i → (Obstacle m' false i ↔ i.x = 0) := by
    intro i hi
    refine ⟨fun h => ?_, fun h => ?_⟩
    · obtain ⟨q, hq, hn⟩ := h1 i hi h
      obtain ⟨y, z, -, -, rfl⟩ := wall q hq
      have := hn.1
      exact_mod_cast cell (n := 0) (by simpa using this)
    · obtain ⟨⟨-, -⟩, ⟨y0, y1⟩, z0, z1⟩ := hi
      replace y1 : i.y < 40 := y1
      replace z1 : i.z < 40 := z1
      obtain ⟨y, hy⟩ := Int.eq_ofNat_of_zero_le y0
      obtain ⟨z, hz⟩ := Int.eq_ofNat_of_zero_le z0
      have hq : (⟨1 / 8, y / 4 + 1 / 8, z / 4 + 1 / 8⟩ : V3 ℝ) ∈ exLayer := List.mem_flatMap.mpr ⟨y,
        List.mem_range.mpr (by omega), List.mem_map.mpr ⟨z, List.mem_range.mpr (by omega), rfl⟩⟩
      obtain ⟨j, -, ho, hn⟩ := h2 _ hq (inside _ hq)
      have e : j = i := by
        have a := cell (n := 0) (by simpa using hn.1)
        have b := cell hn.2.1
        have c := cell hn.2.2
        cases i
        cases j
        simp only [Idx.mk.injEq] at *
        omega
      exact e ▸ ho
  have ans : Answers ⟨40, 40, 40⟩ (mapFill m' false) fun i => decide (Obstacle m' false i) := hd ▸ mapFill_answers m' false
  obtain ⟨⟨o, ho⟩, -⟩ := C17_safe_queries (small_enlarge (N := 40) (by norm_num) (by decide)) ieee (1 / 4) (some ⊤) ans ans
  have ho' : extractMap ieee ((1 / 4 : ℝ), (1 / 4 : ℝ), (1 / 4 : ℝ)) m' (some ⊤) false true = some o := by
    unfold extractMap; rw [hd]; exact ho
  obtain ⟨g, hg⟩ := C129_product quarter_good (by norm_num) (by norm_num) (N := 40) (by norm_num) (by decide)
    (by decide) ans (X := fun x => x ≠ 0) (Y := fun _ => True) (Z := fun _ => True) (X' := fun x => x = 0)
    (Y' := fun _ => True) (Z' := fun _ => True) (fun i hi => by simp [obs i hi]) (fun i hi => by simp [obs i hi]) ho
  obtain ⟨-, hacc⟩ := C130_path
    (m := CMap.create ⟨40, 40, 40⟩ (CCell.ofOcc F32.zero) (CCell.ofOcc F32.zero))
    quarter_good (by norm_num) (by norm_num) exPose_rotation hB (Grid.wf_mk' _ _ _) (N := 40) (by norm_num) (by decide)
    (by decide) (M := 2 ^ 23) (by norm_num) (by norm_num) hT (u := false)
    (fun i _ => free i) (v := CCell.ofOcc F32.one) (by decide) within hm'.symm ho' hg
  have hpath := fun cs hc p hsp hask hp => C130_path_anywhere
    (m := CMap.create ⟨40, 40, 40⟩ (CCell.ofOcc F32.zero) (CCell.ofOcc F32.zero))
    quarter_good (by norm_num) (by norm_num) exPose_rotation hB (Grid.wf_mk' _ _ _) (N := 40) (by norm_num) (by decide)
    (by decide) (M := 2 ^ 23) (by norm_num) (by norm_num) hT (u := false)
    (fun i _ => free i) (v := CCell.ofOcc F32.one) (by decide) within hm'.symm ho' hg (cs := cs) hc (ρ := 1 / 5)
    (δ := 1 / 10) (by norm_num) hsp hask (p := p) hp
  rw [dm] at hpath hacc
  have rep : ∀ c : V3 ℝ, c.x = 5 → 5 ≤ c.y → c.y ≤ 41 / 8 → c.z = 5 →
      ∃ y, Reports o.sdf (1 / 4) B (exPose.app id c) y ∧ 21 / 8 ≤ y := by
    intro c h1 h2 h3 h4
    obtain ⟨y, ey, h⟩ := hacc c (by
      refine ⟨Or.inr ⟨?_, ?_⟩, Or.inr ⟨?_, ?_⟩, Or.inr ⟨?_, ?_⟩⟩ <;> norm_num <;> linarith)
    refine ⟨y, ey, h _ (by norm_num) (fun q hq => ?_) fun r hr => ?_⟩
    · obtain ⟨y, z, -, -, rfl⟩ := wall q hq
      have k := (coord_le c ⟨1 / 8, y / 4 + 1 / 8, z / 4 + 1 / 8⟩).1
      have i := (near_isometry exPose_rotation c ⟨1 / 8, y / 4 + 1 / 8, z / 4 + 1 / 8⟩).2
      simp only at k
      rw [abs_le] at k
      linarith
    · have i := (near_isometry exPose_rotation c r).2
      obtain ⟨k1, k2, k3⟩ := coord_le c r
      rw [abs_le] at k1 k2 k3
      rcases hr with ⟨-, h | h⟩ | ⟨-, h | h⟩ | ⟨-, h | h⟩ <;> norm_num at h <;> linarith
  have hw : ∀ w ∈ [exPose.app id ⟨5, 5, 5⟩, exPose.app id ⟨5, 41 / 8, 5⟩],
      ∃ y, Reports o.sdf (1 / 4) B w y ∧ 21 / 8 ≤ y := by
    intro w hw
    rcases List.mem_cons.mp hw with rfl | hw
    · exact rep _ rfl (by norm_num) (by norm_num) rfl
    · obtain rfl := List.mem_singleton.mp hw
      exact rep _ rfl (by norm_num) (by norm_num) rfl
  refine ⟨B, o, g, hB, by rw [hm']; exact ho', hg, hw, fun p hp q hq => ?_⟩
  have hs : dist3 (exPose.app id ⟨5, 5, 5⟩) (exPose.app id ⟨5, 41 / 8, 5⟩) ≤ 2 * (1 / 10) := by
    have i := (near_isometry exPose_rotation (⟨5, 5, 5⟩ : V3 ℝ) ⟨5, 41 / 8, 5⟩).1
    have e : dist3 (⟨5, 5, 5⟩ : V3 ℝ) ⟨5, 41 / 8, 5⟩ = 1 / 8 := by
      unfold dist3 sqDist3
      rw [show ((5 : ℝ) - 5) ^ 2 + (5 - 41 / 8) ^ 2 + (5 - 5) ^ 2 = (1 / 8) ^ 2 by norm_num,
        Real.sqrt_sq (by norm_num)]
    rw [e] at i
    linarith
  refine (hpath [⟨5, 5, 5⟩, ⟨5, 41 / 8, 5⟩] (by
      intro c hc
      rcases List.mem_cons.mp hc with rfl | hc
      · norm_num [InsideBy]
      · obtain rfl := List.mem_singleton.mp hc
        norm_num [InsideBy]) p ⟨hs, trivial⟩ (by
      intro w h
      obtain ⟨y, ey, hy⟩ := hw w h
      exact ⟨y, ey, by linarith⟩) hp).1 q hq (inside q hq)

section

variable {res : ℝ} (hres : GoodRes ieee res) (hlo : 1 / 2 ^ 100 ≤ res) (hhi : res ≤ 2 ^ 60) {A B : Aff ℝ}
  (hA : NearRotation A) (hB : isoInverse ieee A = (B.rx, B.ry, B.rz, loc B.t)) {m : TMap} (hm : m.grid.WF) {N : ℕ}
  (hN : N ≤ 2 ^ 14) (hdim : m.grid.dims.nx ≤ N ∧ m.grid.dims.ny ≤ N ∧ m.grid.dims.nz ≤ N)
  (hthick : 1 < m.grid.dims.nx ∨ 1 < m.grid.dims.ny ∨ 1 < m.grid.dims.nz) {M : ℝ}
  (hNM : (N : ℝ) ≤ M) (hM : M * N ≤ 2 ^ 29) (hT : OriginWithin A (M * res)) {u : Bool}
  (hfree : ∀ i, InBounds m.grid.dims i → ¬ TObstacle m u i) {marks : List (V3 ℝ × TCell)}
  (hmarks : ∀ e ∈ marks, CoordsWithin (M * res) e.1 ∧ e.2.occ.gtHalf = true) {m' : TMap}
  (hm' : m' = m.setEachF ieee res B (marks.map fun e => (loc (A.app id e.1), e.2)))

include hres hlo hhi hA hB hm hN hdim hthick hNM hM hT hfree hmarks hm'

open Classical in
/-- C132 anywhere: for waypoints anywhere in the volume, also in the outermost half cells, reports of `7/4 * (ρ + δ)` and 8
cells make a path that keeps `ρ`, less a five-hundredth of a cell, away from every position marked for the objects of
interest, unless another object is marked within a cell of it, and `ρ` away from everything outside the volume. -/
theorem C132_path_anywhere (objs : List UInt32) {oob : FVal} {o : Out}
    (ho : m'.extractObjs ieee (res, res, res) oob objs u true = some o) {g : Idx → ℝ}
    (hg : Checked m.grid.dims res o.sdf.get g) {cs : List (V3 ℝ)} (hc : ∀ c ∈ cs, InsideBy m.grid.dims res c) {ρ δ : ℝ}
    (hδ : 0 ≤ δ) (hs : Spaced (2 * δ) (cs.map (A.app id)))
    (hask : ∀ w ∈ cs.map (A.app id), ∃ y, Reports o.sdf res B w y ∧ 7 / 4 * (ρ + δ) + 8 * res ≤ y)
    {p : V3 ℝ} (hp : OnPath (cs.map (A.app id)) p) :
    (∀ e ∈ marks, InsideBy m.grid.dims res e.1 → Undisputed res objs marks e.1 →
      ρ - res / 500 ≤ dist3 p (A.app id e.1)) ∧
    ∀ r, Outside m.grid.dims res r → ρ ≤ dist3 p (A.app id r) := by
  have r0 := hres.1
  obtain ⟨hd, -, hnear⟩ := tags_facts hres hlo hhi hA hB hm hN hdim hthick hNM hM hT hfree hmarks hm' objs
  have ans : Answers m.grid.dims (m'.objFill objs u) fun i => decide (Selected m' objs i ∧ TObstacle m' u i) :=
    hd ▸ m'.objFill_answers objs u
  unfold TMap.extractObjs at ho
  rw [hd] at ho
  obtain ⟨w, hw, hn⟩ := path_near_waypoint (by linarith) hs hp
  obtain ⟨y, ey, hy⟩ := hask w hw
  obtain ⟨c, hcs, rfl⟩ := List.mem_map.mp hw
  obtain ⟨y', ey', h1, h2⟩ := C129_anywhere hres hlo hhi hN hdim ans ho hg hA hB hNM hM hT (hc c hcs)
  obtain rfl := ey.unique ey'
  obtain ⟨k1, k2⟩ := near_report r0 (κ := 7 / 4) (β := 8) (κ' := 102 / 100) (β' := 5) (by norm_num) (by norm_num)
    (by norm_num) h1 h2 hy (p := p) (by linarith)
  refine ⟨fun e he hin hund => ?_, k2⟩
  obtain ⟨r, hr, hdr⟩ := hnear e he hin hund
  exact k1 e.1 r hr hdr

open Classical in
/-- C132, all objects, waypoints anywhere in the volume: every mark carries an id other than 0, and the fields of `MakeAllObjectSDFs` with the virtual border
pass the check. If the report of every field at every waypoint is large enough, the path is clear of every marked position,
however the marks of different objects overlap. -/
theorem C132_every_object_anywhere (hnamed : ∀ e ∈ marks, e.2.obj ≠ 0) :
    ∃ l, m'.makeAllObjectSDFs ieee (res, res, res) u true = some l ∧
      ((∀ k f, (k, f) ∈ l → ∃ g, Checked m.grid.dims res f.get g) →
        ∀ cs : List (V3 ℝ), (∀ c ∈ cs, InsideBy m.grid.dims res c) → ∀ ρ δ : ℝ, 0 ≤ δ →
        Spaced (2 * δ) (cs.map (A.app id)) →
        (∀ w ∈ cs.map (A.app id), ∀ k f, (k, f) ∈ l → ∃ y, Reports f res B w y ∧ 7 / 4 * (ρ + δ) + 8 * res ≤ y) →
        ∀ p, OnPath (cs.map (A.app id)) p →
          ∀ e ∈ marks, InsideBy m.grid.dims res e.1 → ρ - res / 500 ≤ dist3 p (A.app id e.1)) := by
  have r0 := hres.1
  obtain ⟨hd, ha, hb⟩ := tags_cells hres hlo hhi hA hB hm hN hdim hthick hNM hM hT hfree hmarks hm'
  have h32 : 0 < ieee.r32 res := (ieee_resolution (le_trans (by norm_num) hlo) (hhi.trans (by norm_num))).1
  have hfit : FieldFits m'.dims true := by
    have : m'.dims = m.grid.dims := hd
    rw [this]
    exact small_enlarge hN hdim
  obtain ⟨l, hl, -, -, hfield⟩ := C40_make_objects hres h32 m' true hfit u m'.objectIds
  obtain ⟨l', hl', -, hkeys, -⟩ := C40_all_objects hres h32 m' true hfit u
  obtain rfl : l = l' := by
    have : some l = some l' := hl.symm.trans hl'
    exact Option.some.inj this
  refine ⟨l, hl, fun hcheck cs hc ρ δ hδ hs hask p hp e he hin => ?_⟩
  obtain ⟨i, hi, hn, hob⟩ := hb e he hin
  obtain ⟨e', he', -, ev⟩ := ha i hi hob
  have hi' : InBounds m'.dims i := by
    have : m'.dims = m.grid.dims := hd
    rwa [this]
  obtain ⟨⟨k, f⟩, hkf, hk⟩ := List.mem_map.mp ((hkeys e'.2.obj).mpr ⟨hnamed e' he', i, hi', by rw [ev]⟩)
  replace hk : k = e'.2.obj := hk
  obtain ⟨o, ho, rfl⟩ := hfield k f hkf
  obtain ⟨g, hg⟩ := hcheck k o.sdf hkf
  have ans : Answers m.grid.dims (m'.objFill [k] u) fun i => decide (ObjectCell m' u k i) := hd ▸ object_answers m' u k
  unfold TMap.extractObjs at ho
  rw [hd] at ho
  obtain ⟨w, hw, hnw⟩ := path_near_waypoint (by linarith) hs hp
  obtain ⟨y, ey, hy⟩ := hask w hw k o.sdf hkf
  obtain ⟨c, hcs, rfl⟩ := List.mem_map.mp hw
  obtain ⟨y', ey', h1, h2⟩ := C129_anywhere hres hlo hhi hN hdim ans ho hg hA hB hNM hM hT (hc c hcs)
  obtain rfl := ey.unique ey'
  obtain ⟨k1, -⟩ := near_report r0 (κ := 7 / 4) (β := 8) (κ' := 102 / 100) (β' := 5) (by norm_num) (by norm_num)
    (by norm_num) h1 h2 hy (p := p) (by linarith)
  obtain ⟨r, hr, hdr⟩ := near_point r0 hn
  refine k1 e.1 r ⟨i, hi, by simpa using ⟨by rw [ev, hk], hob⟩, hr⟩ ?_
  have := (near_isometry hA e.1 r).1
  have : (1 + 1 / 2 ^ 40) * dist3 e.1 r ≤ (1 + 1 / 2 ^ 40) * (res / 570) := by gcongr
  linarith

end

/-- Two opposite walls of a room 40 cells wide, each an object. -/
noncomputable def exSides : List (V3 ℝ × TCell) :=
  (List.range 40).flatMap fun y : ℕ => (List.range 40).flatMap fun z : ℕ =>
    [(⟨1 / 8, y / 4 + 1 / 8, z / 4 + 1 / 8⟩, TCell.ofObj F32.one 1),
      (⟨79 / 8, y / 4 + 1 / 8, z / 4 + 1 / 8⟩, TCell.ofObj F32.one 2)]

theorem exSides_mem {e : V3 ℝ × TCell} (he : e ∈ exSides) : ∃ y z : ℕ, y < 40 ∧ z < 40 ∧
    (e = (⟨1 / 8, y / 4 + 1 / 8, z / 4 + 1 / 8⟩, TCell.ofObj F32.one 1) ∨
      e = (⟨79 / 8, y / 4 + 1 / 8, z / 4 + 1 / 8⟩, TCell.ofObj F32.one 2)) := by
  obtain ⟨y, hy, he⟩ := List.mem_flatMap.mp he
  obtain ⟨z, hz, he⟩ := List.mem_flatMap.mp he
  refine ⟨y, z, List.mem_range.mp hy, List.mem_range.mp hz, ?_⟩
  rcases List.mem_cons.mp he with h | h
  · exact Or.inl h
  · exact Or.inr (List.mem_singleton.mp h)

theorem mem_exSides {y z : ℕ} (hy : y < 40) (hz : z < 40) :
    ((⟨1 / 8, y / 4 + 1 / 8, z / 4 + 1 / 8⟩, TCell.ofObj F32.one 1) : V3 ℝ × TCell) ∈ exSides ∧
      ((⟨79 / 8, y / 4 + 1 / 8, z / 4 + 1 / 8⟩, TCell.ofObj F32.one 2) : V3 ℝ × TCell) ∈ exSides :=
  ⟨List.mem_flatMap.mpr ⟨y, List.mem_range.mpr hy, List.mem_flatMap.mpr ⟨z, List.mem_range.mpr hz, List.mem_cons_self ..⟩⟩,
    List.mem_flatMap.mpr ⟨y, List.mem_range.mpr hy, List.mem_flatMap.mpr ⟨z, List.mem_range.mpr hz,
      List.mem_cons_of_mem _ (List.mem_cons_self ..)⟩⟩⟩

theorem exSides_small {k : ℕ} (h : k < 40) : (0 : ℝ) ≤ k ∧ (k : ℝ) ≤ 39 :=
  ⟨by positivity, by have : k ≤ 39 := by omega
                     exact_mod_cast this⟩

theorem exSides_inside {e : V3 ℝ × TCell} (he : e ∈ exSides) :
    CoordsWithin (2 ^ 23 * (1 / 4)) e.1 ∧ InsideBy ⟨40, 40, 40⟩ (1 / 4) e.1 := by
  obtain ⟨y, z, hy, hz, h⟩ := exSides_mem he
  have := exSides_small hy
  have := exSides_small hz
  rcases h with rfl | rfl
  · refine ⟨⟨?_, ?_, ?_⟩, ⟨?_, ?_⟩, ⟨?_, ?_⟩, ?_, ?_⟩ <;> (try rw [abs_le]; constructor) <;> norm_num <;> linarith
  · refine ⟨⟨?_, ?_, ?_⟩, ⟨?_, ?_⟩, ⟨?_, ?_⟩, ?_, ?_⟩ <;> (try rw [abs_le]; constructor) <;> norm_num <;> linarith

theorem exSides_occ {e : V3 ℝ × TCell} (he : e ∈ exSides) : e.2.occ.gtHalf = true ∧ e.2.obj ≠ 0 := by
  obtain ⟨y, z, -, -, rfl | rfl⟩ := exSides_mem he
  · exact ⟨show (TCell.ofObj F32.one 1).occ.gtHalf = true by decide, show (TCell.ofObj F32.one 1).obj ≠ 0 by decide⟩
  · exact ⟨show (TCell.ofObj F32.one 2).occ.gtHalf = true by decide, show (TCell.ofObj F32.one 2).obj ≠ 0 by decide⟩

theorem exSides_near {i : Idx} {e : V3 ℝ × TCell} (he : e ∈ exSides) (hn : NearCube (1 / 4) i e.1) :
    (i.x = 0 ∧ e.2 = TCell.ofObj F32.one 1) ∨ (i.x = 39 ∧ e.2 = TCell.ofObj F32.one 2) := by
  obtain ⟨y, z, -, -, rfl | rfl⟩ := exSides_mem he
  · exact Or.inl ⟨exWalls_axis (n := 0) (by simpa using hn.1), rfl⟩
  · refine Or.inr ⟨exWalls_axis (n := 39) ?_, rfl⟩
    have := hn.1
    norm_num at this ⊢
    exact this

def exHall : TMap := TMap.create false ⟨40, 40, 40⟩ (TCell.ofObj F32.zero 0) (TCell.ofObj F32.zero 0)

theorem exHall_free (i : Idx) : ¬ TObstacle exHall false i := by
  have e : (exHall.getImm i).1 = TCell.ofObj F32.zero 0 := by
    unfold exHall TMap.create TMap.getImm Grid.getImm
    rw [Grid.get_mk']
    exact ite_self _
  unfold TObstacle
  rw [e]
  decide

theorem exHall_cells {B : Aff ℝ} (hB : isoInverse ieee exPose = (B.rx, B.ry, B.rz, loc B.t)) {m' : TMap}
    (hm' : m' = exHall.setEachF ieee (1 / 4) B (exSides.map fun e => (loc (exPose.app id e.1), e.2))) :
    m'.grid.dims = ⟨40, 40, 40⟩ ∧ ∀ k i, InBounds ⟨40, 40, 40⟩ i →
      (ObjectCell m' false k i ↔ (k = 1 ∧ i.x = 0) ∨ (k = 2 ∧ i.x = 39)) := by
  have hT : OriginWithin exPose (2 ^ 23 * (1 / 4)) :=
    ⟨by norm_num [exPose, abs_le], by norm_num [exPose, abs_le], by norm_num [exPose, abs_le]⟩
  obtain ⟨hd, ha, hb⟩ := tags_cells (m := exHall) quarter_good (by norm_num) (by norm_num) exPose_rotation hB
    (Grid.wf_mk' _ _ _) (N := 40) (by norm_num) (by decide) (by decide) (M := 2 ^ 23) (by norm_num) (by norm_num) hT
    (u := false) (fun i _ => exHall_free i) (fun e he => ⟨(exSides_inside he).1, (exSides_occ he).1⟩) hm'
  have dm : exHall.grid.dims = ⟨40, 40, 40⟩ := rfl
  rw [dm] at hd ha hb
  refine ⟨hd, fun k i hi => ⟨fun ⟨hk, ho⟩ => ?_, fun h => ?_⟩⟩
  · obtain ⟨e, he, hn, ev⟩ := ha i hi ho
    rw [ev] at hk
    rcases exSides_near he hn with ⟨h1, h2⟩ | ⟨h1, h2⟩
    · rw [h2] at hk
      exact Or.inl ⟨hk.symm, h1⟩
    · rw [h2] at hk
      exact Or.inr ⟨hk.symm, h1⟩
  · have hi' := hi
    obtain ⟨⟨-, -⟩, ⟨y0, y1⟩, z0, z1⟩ := hi'
    replace y1 : i.y < 40 := y1
    replace z1 : i.z < 40 := z1
    obtain ⟨y, hy⟩ := Int.eq_ofNat_of_zero_le y0
    obtain ⟨z, hz⟩ := Int.eq_ofNat_of_zero_le z0
    have hmem := mem_exSides (y := y) (z := z) (by omega) (by omega)
    have fin : ∀ e ∈ exSides, e.1.y = y / 4 + 1 / 8 → e.1.z = z / 4 + 1 / 8 →
        (∀ j : Idx, NearCube (1 / 4) j e.1 → j.x = i.x) → TObstacle m' false i := by
      intro e he e1 e2 e3
      obtain ⟨j, -, hn, ho⟩ := hb e he (exSides_inside he).2
      have b := exWalls_axis (k := j.y) (n := y) (e1 ▸ hn.2.1)
      have c := exWalls_axis (k := j.z) (n := z) (e2 ▸ hn.2.2)
      have a := e3 j hn
      have e : j = i := by
        cases i
        cases j
        simp only [Idx.mk.injEq] at *
        omega
      exact e ▸ ho
    have ho : TObstacle m' false i := by
      rcases h with ⟨-, h⟩ | ⟨-, h⟩
      · refine fin _ hmem.1 rfl rfl fun j hn => ?_
        rw [h]
        exact exWalls_axis (n := 0) (by simpa using hn.1)
      · refine fin _ hmem.2 rfl rfl fun j hn => ?_
        rw [h]
        refine exWalls_axis (n := 39) ?_
        have := hn.1
        norm_num at this ⊢
        exact this
    refine ⟨?_, ho⟩
    obtain ⟨e, he, hn, ev⟩ := ha i hi ho
    rw [ev]
    rcases exSides_near he hn with ⟨h1, h2⟩ | ⟨h1, h2⟩ <;> rcases h with ⟨rfl, h⟩ | ⟨rfl, h⟩
    · rw [h2]; rfl
    · omega
    · omega
    · rw [h2]; rfl

/-- A room of 40 x 40 x 40 cells, two opposite walls of which are marked as objects 1 and 2: two waypoints in the middle get
reports from the field of object 1 that are large enough, and the path between them keeps away from object 1. -/
example : ∃ (B : Aff ℝ) (o : Out) (g : Idx → ℝ), isoInverse ieee exPose = (B.rx, B.ry, B.rz, loc B.t) ∧
    (exHall.setEachF ieee (1 / 4) B (exSides.map fun e => (loc (exPose.app id e.1), e.2))).extractObjs ieee
      ((1 / 4 : ℝ), (1 / 4 : ℝ), (1 / 4 : ℝ)) (some ⊤) [1] false true = some o ∧
    Checked ⟨40, 40, 40⟩ (1 / 4) o.sdf.get g ∧
    (∀ w ∈ [exPose.app id ⟨5, 5, 5⟩, exPose.app id ⟨5, 41 / 8, 5⟩], ∃ y, Reports o.sdf (1 / 4) B w y ∧ 21 / 8 ≤ y) ∧
    ∀ p, OnPath [exPose.app id ⟨5, 5, 5⟩, exPose.app id ⟨5, 41 / 8, 5⟩] p →
      ∀ e ∈ exSides, e.2 = TCell.ofObj F32.one 1 → 1 / 5 - 1 / 4 / 500 ≤ dist3 p (exPose.app id e.1) := by
  obtain ⟨B, hB, -⟩ := C112_inverse exPose_rotation
    ⟨exPose_origin.1.trans (by norm_num), exPose_origin.2.1.trans (by norm_num), exPose_origin.2.2.trans (by norm_num)⟩
  have hT : OriginWithin exPose (2 ^ 23 * (1 / 4)) :=
    ⟨by norm_num [exPose, abs_le], by norm_num [exPose, abs_le], by norm_num [exPose, abs_le]⟩
  generalize hm' : exHall.setEachF ieee (1 / 4) B (exSides.map fun e => (loc (exPose.app id e.1), e.2)) = m'
  obtain ⟨hd, hobj⟩ := exHall_cells hB hm'.symm
  have dm : exHall.grid.dims = ⟨40, 40, 40⟩ := rfl
  have ans := object_answers m' false 1
  rw [hd] at ans
  obtain ⟨⟨o, ho⟩, -⟩ := C17_safe_queries (small_enlarge (N := 40) (by norm_num) (by decide)) ieee (1 / 4) (some ⊤) ans ans
  have ho' : m'.extractObjs ieee ((1 / 4 : ℝ), (1 / 4 : ℝ), (1 / 4 : ℝ)) (some ⊤) [1] false true = some o := by
    unfold TMap.extractObjs; rw [hd]; exact ho
  obtain ⟨g, hg⟩ := C129_product quarter_good (by norm_num) (by norm_num) (N := 40) (by norm_num) (by decide) (by decide) ans
    (X := fun x => ¬ x = 0) (Y := fun _ => True) (Z := fun _ => True) (X' := fun x => x = 0) (Y' := fun _ => True)
    (Z' := fun _ => True) (fun i hi => by simp [hobj 1 i hi]) (fun i hi => by simp [hobj 1 i hi]) ho
  obtain ⟨-, hacc⟩ := C132_path (m := exHall) quarter_good (by norm_num) (by norm_num) exPose_rotation hB
    (Grid.wf_mk' _ _ _) (N := 40) (by norm_num) (by decide) (by decide) (M := 2 ^ 23) (by norm_num) (by norm_num) hT
    (u := false) (fun i _ => exHall_free i) (fun e he => ⟨(exSides_inside he).1, (exSides_occ he).1⟩) hm'.symm [1] ho' hg
  have hpath := fun cs hc p hsp hask hp => C132_path_anywhere (m := exHall)
    quarter_good (by norm_num) (by norm_num) exPose_rotation hB (Grid.wf_mk' _ _ _) (N := 40) (by norm_num) (by decide)
    (by decide) (M := 2 ^ 23) (by norm_num) (by norm_num) hT (u := false) (fun i _ => exHall_free i)
    (fun e he => ⟨(exSides_inside he).1, (exSides_occ he).1⟩) hm'.symm [1] ho' hg (cs := cs) hc (ρ := 1 / 5)
    (δ := 1 / 10) (by norm_num) hsp hask (p := p) hp
  rw [dm] at hpath hacc
  have rep : ∀ c : V3 ℝ, c.x = 5 → 5 ≤ c.y → c.y ≤ 41 / 8 → c.z = 5 →
      ∃ y, Reports o.sdf (1 / 4) B (exPose.app id c) y ∧ 21 / 8 ≤ y := by
    intro c h1 h2 h3 h4
    obtain ⟨y, ey, h⟩ := hacc c (by
      refine ⟨Or.inr ⟨?_, ?_⟩, Or.inr ⟨?_, ?_⟩, Or.inr ⟨?_, ?_⟩⟩ <;> norm_num <;> linarith)
    refine ⟨y, ey, h _ (by norm_num) (fun e he _ => ?_) fun r hr => ?_⟩
    · have k := (coord_le c e.1).1
      have i := (near_isometry exPose_rotation c e.1).2
      rw [abs_le] at k
      obtain ⟨y, z, -, -, rfl | rfl⟩ := exSides_mem he <;> simp only at k i ⊢ <;> linarith
    · have i := (near_isometry exPose_rotation c r).2
      obtain ⟨k1, k2, k3⟩ := coord_le c r
      rw [abs_le] at k1 k2 k3
      rcases hr with ⟨-, h | h⟩ | ⟨-, h | h⟩ | ⟨-, h | h⟩ <;> norm_num at h <;> linarith
  have hw : ∀ w ∈ [exPose.app id ⟨5, 5, 5⟩, exPose.app id ⟨5, 41 / 8, 5⟩],
      ∃ y, Reports o.sdf (1 / 4) B w y ∧ 21 / 8 ≤ y := by
    intro w hw
    rcases List.mem_cons.mp hw with rfl | hw
    · exact rep _ rfl (by norm_num) (by norm_num) rfl
    · obtain rfl := List.mem_singleton.mp hw
      exact rep _ rfl (by norm_num) (by norm_num) rfl
  refine ⟨B, o, g, hB, by rw [hm']; exact ho', hg, hw, fun p hp e he h1 => ?_⟩
  have hs : dist3 (exPose.app id ⟨5, 5, 5⟩) (exPose.app id ⟨5, 41 / 8, 5⟩) ≤ 2 * (1 / 10) := by
    have i := (near_isometry exPose_rotation (⟨5, 5, 5⟩ : V3 ℝ) ⟨5, 41 / 8, 5⟩).1
    have e : dist3 (⟨5, 5, 5⟩ : V3 ℝ) ⟨5, 41 / 8, 5⟩ ≤ 1 / 8 := by
      unfold dist3 sqDist3
      refine Real.sqrt_le_iff.mpr ⟨by norm_num, by norm_num⟩
    linarith
  refine (hpath [⟨5, 5, 5⟩, ⟨5, 41 / 8, 5⟩] (by
      intro c hc
      rcases List.mem_cons.mp hc with rfl | hc
      · norm_num [InsideBy]
      · obtain rfl := List.mem_singleton.mp hc
        norm_num [InsideBy]) p ⟨hs, trivial⟩ (by
      intro w h
      obtain ⟨y, ey, hy⟩ := hw w h
      exact ⟨y, ey, by linarith⟩) hp).1 e he (exSides_inside he).2 fun e' he' hc => ?_
  obtain ⟨y, z, -, -, rfl | rfl⟩ := exSides_mem he
  · obtain ⟨y', z', -, -, rfl | rfl⟩ := exSides_mem he'
    · exact Or.inr (show (1 : UInt32) ∈ [1] by decide)
    · have := hc.1
      norm_num [abs_le] at this
  · exact absurd (show (2 : UInt32) = 1 from congrArg TCell.obj h1) (by decide)

/-- A room of 40 x 40 x 40 cells of size 1/4, turned and shifted, two opposite walls of which are marked as objects 1 and 2:
`MakeAllObjectSDFs` gives fields that pass the check, and two waypoints in the middle get reports from both that keep the
path between them 1/5 away from both walls. -/
example : ∃ (B : Aff ℝ) (l : List (UInt32 × Grid FVal)), isoInverse ieee exPose = (B.rx, B.ry, B.rz, loc B.t) ∧
    (exHall.setEachF ieee (1 / 4) B (exSides.map fun e => (loc (exPose.app id e.1), e.2))).makeAllObjectSDFs ieee
      ((1 / 4 : ℝ), (1 / 4 : ℝ), (1 / 4 : ℝ)) false true = some l ∧
    (1 ∈ l.map Prod.fst ∧ 2 ∈ l.map Prod.fst) ∧
    (∀ k f, (k, f) ∈ l → ∃ g, Checked ⟨40, 40, 40⟩ (1 / 4) f.get g) ∧
    (∀ w ∈ [exPose.app id ⟨5, 5, 5⟩, exPose.app id ⟨5, 41 / 8, 5⟩], ∀ k f, (k, f) ∈ l →
      ∃ y, Reports f (1 / 4) B w y ∧ 21 / 8 ≤ y) ∧
    ∀ p, OnPath [exPose.app id ⟨5, 5, 5⟩, exPose.app id ⟨5, 41 / 8, 5⟩] p →
      ∀ e ∈ exSides, 1 / 5 - 1 / 4 / 500 ≤ dist3 p (exPose.app id e.1) := by
  obtain ⟨B, hB, -⟩ := C112_inverse exPose_rotation
    ⟨exPose_origin.1.trans (by norm_num), exPose_origin.2.1.trans (by norm_num), exPose_origin.2.2.trans (by norm_num)⟩
  have hT : OriginWithin exPose (2 ^ 23 * (1 / 4)) :=
    ⟨by norm_num [exPose, abs_le], by norm_num [exPose, abs_le], by norm_num [exPose, abs_le]⟩
  generalize hm' : exHall.setEachF ieee (1 / 4) B (exSides.map fun e => (loc (exPose.app id e.1), e.2)) = m'
  obtain ⟨hd, hobj⟩ := exHall_cells hB hm'.symm
  have dm : exHall.grid.dims = ⟨40, 40, 40⟩ := rfl
  have hd' : m'.dims = ⟨40, 40, 40⟩ := hd
  have hfit : FieldFits m'.dims true := by
    rw [hd']
    exact small_enlarge (N := 40) (by norm_num) (by decide)
  have h32 : 0 < ieee.r32 (1 / 4 : ℝ) := (ieee_resolution (by norm_num) (by norm_num)).1
  obtain ⟨l, hl, hevery⟩ := C132_every_object_anywhere (m := exHall) quarter_good (by norm_num) (by norm_num) exPose_rotation hB
    (Grid.wf_mk' _ _ _) (N := 40) (by norm_num) (by decide) (by decide) (M := 2 ^ 23) (by norm_num) (by norm_num) hT
    (u := false) (fun i _ => exHall_free i) (fun e he => ⟨(exSides_inside he).1, (exSides_occ he).1⟩) hm'.symm
    (fun e he => (exSides_occ he).2)
  rw [dm] at hevery
  obtain ⟨l1, hl1, -, -, hfield⟩ := C40_make_objects quarter_good h32 m' true hfit false m'.objectIds
  obtain rfl : l = l1 := Option.some.inj (hl.symm.trans hl1)
  obtain ⟨l2, hl2, -, hkeys, -⟩ := C40_all_objects quarter_good h32 m' true hfit false
  obtain rfl : l = l2 := Option.some.inj (hl.symm.trans hl2)
  have key : ∀ k i, InBounds ⟨40, 40, 40⟩ i → k ≠ 0 → ObjectCell m' false k i → k ∈ l.map Prod.fst := fun k i hi h0 h =>
    (hkeys k).mpr ⟨h0, i, hd'.symm ▸ hi, h.1⟩
  have checked : ∀ k f, (k, f) ∈ l → ∃ g, Checked ⟨40, 40, 40⟩ (1 / 4) f.get g := by
    intro k f hkf
    obtain ⟨o, ho, rfl⟩ := hfield k f hkf
    unfold TMap.extractObjs at ho
    rw [hd] at ho
    have ans := object_answers m' false k
    rw [hd] at ans
    exact C129_product quarter_good (by norm_num) (by norm_num) (N := 40) (by norm_num) (by decide) (by decide) ans
      (X := fun x => ¬ ((k = 1 ∧ x = 0) ∨ (k = 2 ∧ x = 39))) (Y := fun _ => True) (Z := fun _ => True)
      (X' := fun x => (k = 1 ∧ x = 0) ∨ (k = 2 ∧ x = 39)) (Y' := fun _ => True) (Z' := fun _ => True)
      (fun i hi => by simp only [decide_eq_false_iff_not, hobj k i hi, and_true])
      (fun i hi => by simp only [decide_eq_true_eq, hobj k i hi, and_true]) ho
  have rep : ∀ c : V3 ℝ, c.x = 5 → 5 ≤ c.y → c.y ≤ 41 / 8 → c.z = 5 → ∀ k f, (k, f) ∈ l →
      ∃ y, Reports f (1 / 4) B (exPose.app id c) y ∧ 21 / 8 ≤ y := by
    intro c h1 h2 h3 h4 k f hkf
    obtain ⟨g, hg⟩ := checked k f hkf
    obtain ⟨o, ho, rfl⟩ := hfield k f hkf
    obtain ⟨-, hacc⟩ := C132_path (m := exHall) quarter_good (by norm_num) (by norm_num) exPose_rotation hB
      (Grid.wf_mk' _ _ _) (N := 40) (by norm_num) (by decide) (by decide) (M := 2 ^ 23) (by norm_num) (by norm_num) hT
      (u := false) (fun i _ => exHall_free i) (fun e he => ⟨(exSides_inside he).1, (exSides_occ he).1⟩) hm'.symm
      [k] ho hg
    rw [dm] at hacc
    obtain ⟨y, ey, h⟩ := hacc c (by
      refine ⟨Or.inr ⟨?_, ?_⟩, Or.inr ⟨?_, ?_⟩, Or.inr ⟨?_, ?_⟩⟩ <;> norm_num <;> linarith)
    refine ⟨y, ey, h _ (by norm_num) (fun e he _ => ?_) fun r hr => ?_⟩
    · have k := (coord_le c e.1).1
      have i := (near_isometry exPose_rotation c e.1).2
      rw [abs_le] at k
      obtain ⟨y, z, -, -, rfl | rfl⟩ := exSides_mem he <;> simp only at k i ⊢ <;> linarith
    · have i := (near_isometry exPose_rotation c r).2
      obtain ⟨k1, k2, k3⟩ := coord_le c r
      rw [abs_le] at k1 k2 k3
      rcases hr with ⟨-, h | h⟩ | ⟨-, h | h⟩ | ⟨-, h | h⟩ <;> norm_num at h <;> linarith
  have hw : ∀ w ∈ [exPose.app id ⟨5, 5, 5⟩, exPose.app id ⟨5, 41 / 8, 5⟩], ∀ k f, (k, f) ∈ l →
      ∃ y, Reports f (1 / 4) B w y ∧ 21 / 8 ≤ y := by
    intro w hw
    rcases List.mem_cons.mp hw with rfl | hw
    · exact rep _ rfl (by norm_num) (by norm_num) rfl
    · obtain rfl := List.mem_singleton.mp hw
      exact rep _ rfl (by norm_num) (by norm_num) rfl
  refine ⟨B, l, hB, by rw [hm']; exact hl, ⟨?_, ?_⟩, checked, hw, fun p hp e he => ?_⟩
  · exact key 1 ⟨0, 0, 0⟩ (by norm_num [InBounds]) (by decide) ((hobj _ _ (by norm_num [InBounds])).mpr (Or.inl ⟨rfl, rfl⟩))
  · exact key 2 ⟨39, 0, 0⟩ (by norm_num [InBounds]) (by decide) ((hobj _ _ (by norm_num [InBounds])).mpr (Or.inr ⟨rfl, rfl⟩))
  have hs : dist3 (exPose.app id ⟨5, 5, 5⟩) (exPose.app id ⟨5, 41 / 8, 5⟩) ≤ 2 * (1 / 10) := by
    have i := (near_isometry exPose_rotation (⟨5, 5, 5⟩ : V3 ℝ) ⟨5, 41 / 8, 5⟩).1
    have e : dist3 (⟨5, 5, 5⟩ : V3 ℝ) ⟨5, 41 / 8, 5⟩ ≤ 1 / 8 := by
      unfold dist3 sqDist3
      refine Real.sqrt_le_iff.mpr ⟨by norm_num, by norm_num⟩
    linarith
  refine hevery checked [⟨5, 5, 5⟩, ⟨5, 41 / 8, 5⟩] (by
      intro c hc
      rcases List.mem_cons.mp hc with rfl | hc
      · norm_num [InsideBy]
      · obtain rfl := List.mem_singleton.mp hc
        norm_num [InsideBy]) (1 / 5) (1 / 10) (by norm_num) ⟨hs, trivial⟩ (by
      intro w h k f hkf
      obtain ⟨y, ey, hy⟩ := hw w h k f hkf
      exact ⟨y, ey, by linarith⟩) p hp e he (exSides_inside he).2

end FSdf

end Verif
