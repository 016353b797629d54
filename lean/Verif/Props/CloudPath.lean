import Verif.Props.BorderClear
import Verif.Props.WorldMarks

/-!
# From marked positions to a clear path

A map without obstacles is placed in the world, the positions of a point cloud are marked with `SetValue`, the field is
extracted with the virtual border, and `EstimateDistance` is asked at the waypoints of a path (C124 and C129 together).
-/

namespace Verif

open Spec SdfGen DField SignedDist

namespace FSdf

/-- `EstimateDistance` at the world location `w` reports `y`, for a field whose stored inverse transform is `B`. -/
def Reports (field : Grid FVal) (res : ℝ) (B : Aff ℝ) (w : V3 ℝ) (y : ℝ) : Prop :=
  (FSdf.mk field res).estimate ieee (affApp ieee B) (fun p => byAxis (axisCell ieee res) (affApp ieee B p)) (loc w) =
    some (real y, true)

theorem Reports.unique {field : Grid FVal} {res : ℝ} {B : Aff ℝ} {w : V3 ℝ} {y z : ℝ} (h : Reports field res B w y)
    (h' : Reports field res B w z) : y = z := by
  unfold Reports at h h'
  rw [h] at h'
  simpa [real] using h'

section

variable {res : ℝ} (hres : GoodRes ieee res) (hlo : 1 / 2 ^ 100 ≤ res) (hhi : res ≤ 2 ^ 60) {A B : Aff ℝ}
  (hA : NearRotation A) (hB : isoInverse ieee A = (B.rx, B.ry, B.rz, loc B.t)) {m : CMap} (hm : m.grid.WF) {N : ℕ}
  (hN : N ≤ 2 ^ 14) (hdim : m.grid.dims.nx ≤ N ∧ m.grid.dims.ny ≤ N ∧ m.grid.dims.nz ≤ N)
  (hthick : 1 < m.grid.dims.nx ∨ 1 < m.grid.dims.ny ∨ 1 < m.grid.dims.nz) {M : ℝ}
  (hNM : (N : ℝ) ≤ M) (hM : M * N ≤ 2 ^ 29) (hT : OriginWithin A (M * res)) {u : Bool}
  (hfree : ∀ i, InBounds m.grid.dims i → ¬ Obstacle m u i) {v : CCell} (hv : v.occ.gtHalf = true)
  {qs : List (V3 ℝ)} (hqs : ∀ q ∈ qs, CoordsWithin (M * res) q) {m' : CMap}
  (hm' : m' = m.setAllF ieee res B (qs.map fun q => loc (A.app id q)) v)

include hres hlo hhi hA hB hm hN hdim hthick hNM hM hT hfree hv hqs hm'

open Classical in
/-- The obstacles of the marked map and the positions are near each other. -/
theorem cloud_facts : m'.grid.dims = m.grid.dims ∧
    (∀ r, Region m.grid.dims res (fun i => decide (Obstacle m' u i)) true r →
      ∃ q ∈ qs, dist3 (A.app id r) (A.app id q) ≤ 7 / 4 * res) ∧
    ∀ q ∈ qs, InsideBy m.grid.dims res q → ∃ r, Region m.grid.dims res (fun i => decide (Obstacle m' u i)) true r ∧
      dist3 (A.app id q) (A.app id r) ≤ res / 500 := by
  subst hm'
  have r0 := hres.1
  have N1 : (1 : ℝ) ≤ N := by
    have : 1 ≤ N := by omega
    exact_mod_cast this
  have M1 : 1 ≤ M := N1.trans hNM
  have hM2 : M ≤ 2 ^ 29 := le_trans (le_mul_of_one_le_right (by linarith) N1) hM
  obtain ⟨hd, ha, hb⟩ := C124_marks hlo hhi hA hB M1 hM2 hT hm hfree hv hqs
  refine ⟨hd, ?_, ?_⟩
  · rintro r ⟨i, hi, ho, hr⟩
    obtain ⟨q, hq, hn⟩ := ha i hi (by simpa using ho)
    refine ⟨q, hq, ?_⟩
    have e := near_diagonal r0 hn hr
    have f := (near_isometry hA r q).1
    have : (1 + 1 / 2 ^ 40) * dist3 r q ≤ (1 + 1 / 2 ^ 40) * (1734 / 1000 * res) := by gcongr
    linarith
  · intro q hq hiq
    obtain ⟨i, hi, ho, hn⟩ := hb q hq hiq
    obtain ⟨r, hr, hd⟩ := near_point r0 hn
    refine ⟨r, ⟨i, hi, by simpa using ho, hr⟩, ?_⟩
    have := (near_isometry hA q r).1
    have : (1 + 1 / 2 ^ 40) * dist3 q r ≤ (1 + 1 / 2 ^ 40) * (res / 570) := by gcongr
    linarith

open Classical in
/-- What one report says about the positions, when it is bounded by the distances to obstacles and to the outside. -/
theorem cloud_report {κ β κ' β' : ℝ} (hκ : 1 ≤ κ) (hκ' : 0 ≤ κ') (hle : κ' ≤ κ) (hb' : β' ≤ β) {c : V3 ℝ} {y : ℝ}
    (h1 : ∀ r, Region m.grid.dims res (fun i => decide (Obstacle m' u i)) true r →
      y ≤ κ * dist3 (A.app id c) (A.app id r) + β * res)
    (h2 : ∀ r, Outside m.grid.dims res r → y ≤ κ' * dist3 (A.app id c) (A.app id r) + β' * res)
    {ρ δ : ℝ} (hy : κ * (ρ + δ) + β * res ≤ y) {p : V3 ℝ} (hp : dist3 p (A.app id c) ≤ δ) :
    (∀ q ∈ qs, InsideBy m.grid.dims res q → ρ - res / 500 ≤ dist3 p (A.app id q)) ∧
    ∀ r, Outside m.grid.dims res r → ρ ≤ dist3 p (A.app id r) := by
  have r0 := hres.1
  obtain ⟨-, -, hnear⟩ := cloud_facts hres hlo hhi hA hB hm hN hdim hthick hNM hM hT hfree hv hqs hm'
  have far : ∀ r, y ≤ κ * dist3 (A.app id c) (A.app id r) + β * res → ρ ≤ dist3 p (A.app id r) := by
    intro r h
    have h3 : κ * (ρ + δ) ≤ κ * dist3 (A.app id c) (A.app id r) := by linarith
    have h4 := le_of_mul_le_mul_left h3 (by linarith)
    have tri := dist3_tri (A.app id c) p (A.app id r)
    rw [dist3_comm (A.app id c) p] at tri
    linarith
  refine ⟨fun q hq hi => ?_, fun r hr => far r ?_⟩
  · obtain ⟨r, hr, hd⟩ := hnear q hq hi
    have a := far r (h1 r hr)
    have b := dist3_tri p (A.app id q) (A.app id r)
    linarith
  · have h := h2 r hr
    have n := dist3_nonneg (A.app id c) (A.app id r)
    have : κ' * dist3 (A.app id c) (A.app id r) ≤ κ * dist3 (A.app id c) (A.app id r) := by gcongr
    have : β' * res ≤ β * res := by gcongr
    linarith

open Classical in
/-- Free space around a query: far from all positions and from the outside, the report is large. -/
theorem cloud_accepts {c : V3 ℝ} {y : ℝ}
    (h : ∀ b, 0 ≤ b → (∀ r, Blocked m.grid.dims res (fun i => decide (Obstacle m' u i)) r →
      b + 7 / 4 * res ≤ dist3 (A.app id c) (A.app id r)) → b ≤ y)
    {b : ℝ} (h0 : 0 ≤ b) (hq : ∀ q ∈ qs, b + 7 / 2 * res ≤ dist3 (A.app id c) (A.app id q))
    (ho : ∀ r, Outside m.grid.dims res r → b + 7 / 4 * res ≤ dist3 (A.app id c) (A.app id r)) : b ≤ y := by
  obtain ⟨-, hfar, -⟩ := cloud_facts hres hlo hhi hA hB hm hN hdim hthick hNM hM hT hfree hv hqs hm'
  refine h b h0 fun r hr => ?_
  rcases hr with hr | hr
  · obtain ⟨q, hqm, hd⟩ := hfar r hr
    have a := hq q hqm
    have t := dist3_tri (A.app id c) (A.app id r) (A.app id q)
    linarith
  · exact ho r hr

open Classical in
/-- C130: positions are marked in a map without obstacles and the field is extracted with the virtual border. If the field
passes the check of C123, waypoints at most `2 * δ` apart whose reports are at least `7/4 * (ρ + δ)` and 8/3 cells make a
path that keeps `ρ`, less a five-hundredth of a cell, away from every marked position in the map, and `ρ` away from
everything outside the volume. A location that is far from all positions and from the outside gets a large report. -/
theorem C130_path {oob : FVal} {o : Out} (ho : extractMap ieee (res, res, res) m' oob u true = some o) {g : Idx → ℝ}
    (hg : Checked m.grid.dims res o.sdf.get g) :
    (∀ cs : List (V3 ℝ), (∀ c ∈ cs, WellInside m.grid.dims res c) → ∀ ρ δ : ℝ, 0 ≤ δ →
      Spaced (2 * δ) (cs.map (A.app id)) →
      (∀ w ∈ cs.map (A.app id), ∃ y, Reports o.sdf res B w y ∧ 7 / 4 * (ρ + δ) + 8 / 3 * res ≤ y) →
      ∀ p, OnPath (cs.map (A.app id)) p →
        (∀ q ∈ qs, InsideBy m.grid.dims res q → ρ - res / 500 ≤ dist3 p (A.app id q)) ∧
        ∀ r, Outside m.grid.dims res r → ρ ≤ dist3 p (A.app id r)) ∧
    ∀ c, WellInside m.grid.dims res c → ∃ y, Reports o.sdf res B (A.app id c) y ∧
      ∀ b, 0 ≤ b → (∀ q ∈ qs, b + 7 / 2 * res ≤ dist3 (A.app id c) (A.app id q)) →
        (∀ r, Outside m.grid.dims res r → b + 7 / 4 * res ≤ dist3 (A.app id c) (A.app id r)) → b ≤ y := by
  have hd := (cloud_facts hres hlo hhi hA hB hm hN hdim hthick hNM hM hT hfree hv hqs hm').1
  have ans : Answers m.grid.dims (mapFill m' u) fun i => decide (Obstacle m' u i) := hd ▸ mapFill_answers m' u
  unfold extractMap at ho
  rw [hd] at ho
  refine ⟨fun cs hc ρ δ hδ hs hask p hp => ?_, fun c hc => ?_⟩
  · obtain ⟨w, hw, hn⟩ := path_near_waypoint (by linarith) hs hp
    obtain ⟨y, ey, hy⟩ := hask w hw
    obtain ⟨c, hcs, rfl⟩ := List.mem_map.mp hw
    obtain ⟨y', ey', h1, h2, -⟩ := C129_world hres hlo hhi hN hdim ans ho hg hA hB hNM hM hT (hc c hcs)
    obtain rfl := ey.unique ey'
    exact cloud_report hres hlo hhi hA hB hm hN hdim hthick hNM hM hT hfree hv hqs hm' (κ := 7 / 4) (β := 8 / 3)
      (κ' := 102 / 100) (β' := 1 / 25) (by norm_num) (by norm_num) (by norm_num) (by norm_num) h1
      (fun r hr => by have := h2 r hr; linarith) hy (by linarith)
  · obtain ⟨y, ey, -, -, h3⟩ := C129_world hres hlo hhi hN hdim ans ho hg hA hB hNM hM hT hc
    exact ⟨y, ey, fun b h0 hq hout =>
      cloud_accepts hres hlo hhi hA hB hm hN hdim hthick hNM hM hT hfree hv hqs hm' h3 h0 hq hout⟩

open Classical in
/-- C130 for two-dimensional maps: nothing is assumed about the field, which is always extracted, and reports of
`1.415 * (ρ + δ)` and two cells are enough. -/
theorem C130_flat (hflat : Flat m.grid.dims) (oob : FVal) :
    ∃ o, extractMap ieee (res, res, res) m' oob u true = some o ∧
    (∀ cs : List (V3 ℝ), (∀ c ∈ cs, WellInside m.grid.dims res c) → ∀ ρ δ : ℝ, 0 ≤ δ →
      Spaced (2 * δ) (cs.map (A.app id)) →
      (∀ w ∈ cs.map (A.app id), ∃ y, Reports o.sdf res B w y ∧ 283 / 200 * (ρ + δ) + 2 * res ≤ y) →
      ∀ p, OnPath (cs.map (A.app id)) p →
        (∀ q ∈ qs, InsideBy m.grid.dims res q → ρ - res / 500 ≤ dist3 p (A.app id q)) ∧
        ∀ r, Outside m.grid.dims res r → ρ ≤ dist3 p (A.app id r)) ∧
    ∀ c, WellInside m.grid.dims res c → ∃ y, Reports o.sdf res B (A.app id c) y ∧
      ∀ b, 0 ≤ b → (∀ q ∈ qs, b + 7 / 2 * res ≤ dist3 (A.app id c) (A.app id q)) →
        (∀ r, Outside m.grid.dims res r → b + 7 / 4 * res ≤ dist3 (A.app id c) (A.app id r)) → b ≤ y := by
  have hd := (cloud_facts hres hlo hhi hA hB hm hN hdim hthick hNM hM hT hfree hv hqs hm').1
  have ans : Answers m.grid.dims (mapFill m' u) fun i => decide (Obstacle m' u i) := hd ▸ mapFill_answers m' u
  obtain ⟨⟨o, ho⟩, -⟩ := C17_safe_queries (small_enlarge hN hdim) ieee res oob ans ans
  refine ⟨o, by unfold extractMap; rw [hd]; exact ho, fun cs hc ρ δ hδ hs hask p hp => ?_, fun c hc => ?_⟩
  · obtain ⟨w, hw, hn⟩ := path_near_waypoint (by linarith) hs hp
    obtain ⟨y, ey, hy⟩ := hask w hw
    obtain ⟨c, hcs, rfl⟩ := List.mem_map.mp hw
    obtain ⟨y', ey', h1, h2, -⟩ := C129_flat hres hlo hhi hN hdim hflat hthick ans ho hA hB hNM hM hT (hc c hcs)
    obtain rfl := ey.unique ey'
    exact cloud_report hres hlo hhi hA hB hm hN hdim hthick hNM hM hT hfree hv hqs hm' (κ := 283 / 200) (β := 2)
      (κ' := 283 / 200) (β' := 1 / 4) (by norm_num) (by norm_num) (by norm_num) (by norm_num) h1
      (fun r hr => by have := h2 r hr; linarith) hy (by linarith)
  · obtain ⟨y, ey, -, -, h3⟩ := C129_flat hres hlo hhi hN hdim hflat hthick ans ho hA hB hNM hM hT hc
    exact ⟨y, ey, fun b h0 hq hout =>
      cloud_accepts hres hlo hhi hA hB hm hN hdim hthick hNM hM hT hfree hv hqs hm' h3 h0 hq hout⟩

end

/-- A map of 60 x 60 x 1 free cells of size 1/4, turned and shifted, one position marked near a corner and a path of two
waypoints half a unit apart in the middle: the reports are large enough, so the path keeps a distance of 1 from the
position and from the outside. -/
example : ∃ (B : Aff ℝ) (o : Out), isoInverse ieee exPose = (B.rx, B.ry, B.rz, loc B.t) ∧
    extractMap ieee ((1 / 4 : ℝ), (1 / 4 : ℝ), (1 / 4 : ℝ))
      ((CMap.create ⟨60, 60, 1⟩ (CCell.ofOcc F32.zero) (CCell.ofOcc F32.zero)).setAllF ieee (1 / 4) B
        ([⟨1, 2, 1 / 8⟩].map fun q => loc (exPose.app id q)) (CCell.ofOcc F32.one)) (some ⊤) false true = some o ∧
    (∀ w ∈ [exPose.app id ⟨15 / 2, 15 / 2, 1 / 8⟩, exPose.app id ⟨8, 15 / 2, 1 / 8⟩],
      ∃ y, Reports o.sdf (1 / 4) B w y ∧ 5 / 2 ≤ y) ∧
    ∀ p, OnPath [exPose.app id ⟨15 / 2, 15 / 2, 1 / 8⟩, exPose.app id ⟨8, 15 / 2, 1 / 8⟩] p →
      1 - 1 / 4 / 500 ≤ dist3 p (exPose.app id ⟨1, 2, 1 / 8⟩) ∧
      1 ≤ dist3 p (exPose.app id ⟨0, 3, 1 / 8⟩) := by
  have dm : (CMap.create ⟨60, 60, 1⟩ (CCell.ofOcc F32.zero) (CCell.ofOcc F32.zero)).grid.dims = ⟨60, 60, 1⟩ := rfl
  have free : ∀ i, ¬ Obstacle (CMap.create ⟨60, 60, 1⟩ (CCell.ofOcc F32.zero) (CCell.ofOcc F32.zero)) false i := by
    intro i
    have e : ((CMap.create ⟨60, 60, 1⟩ (CCell.ofOcc F32.zero) (CCell.ofOcc F32.zero)).getImm i).1 = CCell.ofOcc F32.zero := by
      unfold CMap.create CMap.getImm Grid.getImm
      rw [Grid.get_mk']
      exact ite_self _
    unfold Obstacle
    rw [e]
    decide
  obtain ⟨B, hB, -⟩ := C112_inverse exPose_rotation
    ⟨exPose_origin.1.trans (by norm_num), exPose_origin.2.1.trans (by norm_num), exPose_origin.2.2.trans (by norm_num)⟩
  obtain ⟨o, ho, hpath, hacc⟩ := C130_flat
    (m := CMap.create ⟨60, 60, 1⟩ (CCell.ofOcc F32.zero) (CCell.ofOcc F32.zero))
    quarter_good (by norm_num) (by norm_num) exPose_rotation hB (Grid.wf_mk' _ _ _) (N := 60) (by norm_num) (by decide)
    (by decide) (M := 2 ^ 23) (by norm_num) (by norm_num)
    ⟨by norm_num [exPose, abs_le], by norm_num [exPose, abs_le], by norm_num [exPose, abs_le]⟩ (u := false)
    (fun i _ => free i) (v := CCell.ofOcc F32.one) (by decide) (qs := [⟨1, 2, 1 / 8⟩]) (by norm_num [CoordsWithin]) rfl
    (by right; right; rfl) (some ⊤)
  have rep : ∀ c : V3 ℝ, 15 / 2 ≤ c.x → c.x ≤ 8 → c.y = 15 / 2 → c.z = 1 / 8 →
      ∃ y, Reports o.sdf (1 / 4) B (exPose.app id c) y ∧ 5 / 2 ≤ y := by
    intro c h1 h2 h3 h4
    obtain ⟨y, ey, h⟩ := hacc c (by
      rw [dm]
      refine ⟨Or.inr ⟨?_, ?_⟩, Or.inr ⟨?_, ?_⟩, Or.inl ⟨rfl, ?_, ?_⟩⟩ <;> norm_num <;> linarith)
    refine ⟨y, ey, h _ (by norm_num) (fun q hq => ?_) fun r hr => ?_⟩
    · obtain rfl := List.mem_singleton.mp hq
      have k := (coord_le c ⟨1, 2, 1 / 8⟩).1
      have i := (near_isometry exPose_rotation c ⟨1, 2, 1 / 8⟩).2
      simp only at k
      rw [abs_le] at k
      linarith
    · have i := (near_isometry exPose_rotation c r).2
      rw [dm] at hr
      obtain ⟨k1, k2, k3⟩ := coord_le c r
      rw [abs_le] at k1 k2
      rcases hr with ⟨-, h | h⟩ | ⟨-, h | h⟩ | ⟨h, -⟩ <;> norm_num at h <;> linarith
  have hw : ∀ w ∈ [exPose.app id ⟨15 / 2, 15 / 2, 1 / 8⟩, exPose.app id ⟨8, 15 / 2, 1 / 8⟩],
      ∃ y, Reports o.sdf (1 / 4) B w y ∧ 5 / 2 ≤ y := by
    intro w hw
    rcases List.mem_cons.mp hw with rfl | hw
    · exact rep _ (by norm_num) (by norm_num) rfl rfl
    · obtain rfl := List.mem_singleton.mp hw
      exact rep _ (by norm_num) (by norm_num) rfl rfl
  refine ⟨B, o, hB, ho, hw, fun p hp => ?_⟩
  have hs : dist3 (exPose.app id ⟨15 / 2, 15 / 2, 1 / 8⟩) (exPose.app id ⟨8, 15 / 2, 1 / 8⟩) ≤ 2 * (13 / 50) := by
    have i := (near_isometry exPose_rotation (⟨15 / 2, 15 / 2, 1 / 8⟩ : V3 ℝ) ⟨8, 15 / 2, 1 / 8⟩).1
    have e : dist3 (⟨15 / 2, 15 / 2, 1 / 8⟩ : V3 ℝ) ⟨8, 15 / 2, 1 / 8⟩ = 1 / 2 := by
      unfold dist3 sqDist3
      rw [show ((15 / 2 : ℝ) - 8) ^ 2 + (15 / 2 - 15 / 2) ^ 2 + (1 / 8 - 1 / 8) ^ 2 = (1 / 2) ^ 2 by norm_num,
        Real.sqrt_sq (by norm_num)]
    rw [e] at i
    linarith
  obtain ⟨h1, h2⟩ := hpath [⟨15 / 2, 15 / 2, 1 / 8⟩, ⟨8, 15 / 2, 1 / 8⟩] (by
      intro c hc
      rw [dm]
      rcases List.mem_cons.mp hc with rfl | hc
      · norm_num [WellInside, WellInner]
      · obtain rfl := List.mem_singleton.mp hc
        norm_num [WellInside, WellInner]) 1 (13 / 50) (by norm_num) ⟨hs, trivial⟩ (by
      intro w h
      obtain ⟨y, ey, hy⟩ := hw w h
      exact ⟨y, ey, by linarith⟩) p hp
  refine ⟨h1 _ (List.mem_singleton_self _) (by rw [dm]; norm_num [InsideBy]), h2 _ (Or.inl ⟨?_, Or.inl le_rfl⟩)⟩
  rw [dm]
  norm_num

/-- The centres of the cells of the first layer of 20 x 20 x 20 cells of size 1/4. -/
noncomputable def exCloud : List (V3 ℝ) :=
  (List.range 20).flatMap fun y : ℕ => (List.range 20).map fun z : ℕ => ⟨1 / 8, y / 4 + 1 / 8, z / 4 + 1 / 8⟩

open Classical in
/-- A room of 20 x 20 x 20 cells of size 1/4, turned and shifted, with a wall of 400 marked positions along a face: the
field passes the check, and a path of two waypoints in the middle gets reports that keep it 1/5 away from the wall. -/
example : ∃ (B : Aff ℝ) (o : Out) (g : Idx → ℝ), isoInverse ieee exPose = (B.rx, B.ry, B.rz, loc B.t) ∧
    extractMap ieee ((1 / 4 : ℝ), (1 / 4 : ℝ), (1 / 4 : ℝ))
      ((CMap.create ⟨20, 20, 20⟩ (CCell.ofOcc F32.zero) (CCell.ofOcc F32.zero)).setAllF ieee (1 / 4) B
        (exCloud.map fun q => loc (exPose.app id q)) (CCell.ofOcc F32.one)) (some ⊤) false true = some o ∧
    Checked ⟨20, 20, 20⟩ (1 / 4) o.sdf.get g ∧
    (∀ w ∈ [exPose.app id ⟨5 / 2, 5 / 2, 5 / 2⟩, exPose.app id ⟨5 / 2, 21 / 8, 5 / 2⟩],
      ∃ y, Reports o.sdf (1 / 4) B w y ∧ 11 / 8 ≤ y) ∧
    ∀ p, OnPath [exPose.app id ⟨5 / 2, 5 / 2, 5 / 2⟩, exPose.app id ⟨5 / 2, 21 / 8, 5 / 2⟩] p →
      ∀ q ∈ exCloud, 1 / 5 - 1 / 4 / 500 ≤ dist3 p (exPose.app id q) := by
  have dm : (CMap.create ⟨20, 20, 20⟩ (CCell.ofOcc F32.zero) (CCell.ofOcc F32.zero)).grid.dims = ⟨20, 20, 20⟩ := rfl
  have free : ∀ i, ¬ Obstacle (CMap.create ⟨20, 20, 20⟩ (CCell.ofOcc F32.zero) (CCell.ofOcc F32.zero)) false i := by
    intro i
    have e : ((CMap.create ⟨20, 20, 20⟩ (CCell.ofOcc F32.zero) (CCell.ofOcc F32.zero)).getImm i).1 = CCell.ofOcc F32.zero := by
      unfold CMap.create CMap.getImm Grid.getImm
      rw [Grid.get_mk']
      exact ite_self _
    unfold Obstacle
    rw [e]
    decide
  have wall : ∀ q ∈ exCloud, ∃ y z : ℕ, y < 20 ∧ z < 20 ∧ q = ⟨1 / 8, y / 4 + 1 / 8, z / 4 + 1 / 8⟩ := by
    intro q hq
    obtain ⟨y, hy, hq⟩ := List.mem_flatMap.mp hq
    obtain ⟨z, hz, rfl⟩ := List.mem_map.mp hq
    exact ⟨y, z, List.mem_range.mp hy, List.mem_range.mp hz, rfl⟩
  have small : ∀ {k : ℕ}, k < 20 → (0 : ℝ) ≤ k ∧ (k : ℝ) ≤ 19 := fun {k} h =>
    ⟨by positivity, by have : k ≤ 19 := by omega
                       exact_mod_cast this⟩
  have within : ∀ q ∈ exCloud, CoordsWithin (2 ^ 24 * (1 / 4)) q := by
    intro q hq
    obtain ⟨y, z, hy, hz, rfl⟩ := wall q hq
    have := small hy
    have := small hz
    refine ⟨?_, ?_, ?_⟩ <;> rw [abs_le] <;> constructor <;> norm_num <;> linarith
  have inside : ∀ q ∈ exCloud, InsideBy ⟨20, 20, 20⟩ (1 / 4) q := by
    intro q hq
    obtain ⟨y, z, hy, hz, rfl⟩ := wall q hq
    have := small hy
    have := small hz
    refine ⟨⟨?_, ?_⟩, ⟨?_, ?_⟩, ?_, ?_⟩ <;> norm_num <;> linarith
  have cell : ∀ {k : ℤ} {n : ℕ}, (k : ℝ) * (1 / 4) - 1 / 4 / 1000 < n / 4 + 1 / 8 ∧
      (n : ℝ) / 4 + 1 / 8 < (k + 1) * (1 / 4) + 1 / 4 / 1000 → k = n := by
    rintro k n ⟨h1, h2⟩
    have a : (k : ℝ) < n + 1 := by linarith
    have b : (n : ℝ) < k + 1 := by linarith
    have a' : k < n + 1 := by exact_mod_cast a
    have b' : (n : ℤ) < k + 1 := by exact_mod_cast b
    omega
  have hT : OriginWithin exPose (2 ^ 24 * (1 / 4)) :=
    ⟨by norm_num [exPose, abs_le], by norm_num [exPose, abs_le], by norm_num [exPose, abs_le]⟩
  obtain ⟨B, hB, -⟩ := C112_inverse exPose_rotation
    ⟨exPose_origin.1.trans (by norm_num), exPose_origin.2.1.trans (by norm_num), exPose_origin.2.2.trans (by norm_num)⟩
  obtain ⟨hd, h1, h2⟩ := C124_marks (by norm_num) (by norm_num) exPose_rotation hB (M := 2 ^ 24) (by norm_num) (by norm_num)
    hT (m := CMap.create ⟨20, 20, 20⟩ (CCell.ofOcc F32.zero) (CCell.ofOcc F32.zero)) (Grid.wf_mk' _ _ _) (u := false)
    (fun i _ => free i) (v := CCell.ofOcc F32.one) (by decide) within
  generalize hm' : (CMap.create ⟨20, 20, 20⟩ (CCell.ofOcc F32.zero) (CCell.ofOcc F32.zero)).setAllF ieee (1 / 4) B
    (exCloud.map fun q => loc (exPose.app id q)) (CCell.ofOcc F32.one) = m' at hd h1 h2 ⊢
  rw [dm] at hd h1 h2
  have obs : ∀ i, InBounds ⟨20, 20, 20⟩ i → (Obstacle m' false i ↔ i.x = 0) := by
    intro i hi
    refine ⟨fun h => ?_, fun h => ?_⟩
    · obtain ⟨q, hq, hn⟩ := h1 i hi h
      obtain ⟨y, z, -, -, rfl⟩ := wall q hq
      have := hn.1
      exact_mod_cast cell (n := 0) (by simpa using this)
    · obtain ⟨⟨-, -⟩, ⟨y0, y1⟩, z0, z1⟩ := hi
      replace y1 : i.y < 20 := y1
      replace z1 : i.z < 20 := z1
      obtain ⟨y, hy⟩ := Int.eq_ofNat_of_zero_le y0
      obtain ⟨z, hz⟩ := Int.eq_ofNat_of_zero_le z0
      have hq : (⟨1 / 8, y / 4 + 1 / 8, z / 4 + 1 / 8⟩ : V3 ℝ) ∈ exCloud := List.mem_flatMap.mpr ⟨y,
        List.mem_range.mpr (by omega), List.mem_map.mpr ⟨z, List.mem_range.mpr (by omega), rfl⟩⟩
      obtain ⟨j, -, ho, hn⟩ := h2 _ hq (inside _ hq)
      have e : j = i := by
        have a := cell (n := 0) (by simpa using hn.1)
        have b := cell hn.2.1
        have c := cell hn.2.2
        cases i
        cases j
        simp only [Idx.mk.injEq] at *
        omega
      exact e ▸ ho
  have ans : Answers ⟨20, 20, 20⟩ (mapFill m' false) fun i => decide (Obstacle m' false i) := hd ▸ mapFill_answers m' false
  obtain ⟨⟨o, ho⟩, -⟩ := C17_safe_queries (small_enlarge (N := 20) (by norm_num) (by decide)) ieee (1 / 4) (some ⊤) ans ans
  have ho' : extractMap ieee ((1 / 4 : ℝ), (1 / 4 : ℝ), (1 / 4 : ℝ)) m' (some ⊤) false true = some o := by
    unfold extractMap; rw [hd]; exact ho
  obtain ⟨g, hg⟩ := C129_product quarter_good (by norm_num) (by norm_num) (N := 20) (by norm_num) (by decide)
    (by decide) ans (X := fun x => x ≠ 0) (Y := fun _ => True) (Z := fun _ => True) (X' := fun x => x = 0)
    (Y' := fun _ => True) (Z' := fun _ => True) (fun i hi => by simp [obs i hi]) (fun i hi => by simp [obs i hi]) ho
  obtain ⟨hpath, hacc⟩ := C130_path
    (m := CMap.create ⟨20, 20, 20⟩ (CCell.ofOcc F32.zero) (CCell.ofOcc F32.zero))
    quarter_good (by norm_num) (by norm_num) exPose_rotation hB (Grid.wf_mk' _ _ _) (N := 20) (by norm_num) (by decide)
    (by decide) (M := 2 ^ 24) (by norm_num) (by norm_num) hT (u := false)
    (fun i _ => free i) (v := CCell.ofOcc F32.one) (by decide) within hm'.symm ho' hg
  rw [dm] at hpath hacc
  have rep : ∀ c : V3 ℝ, c.x = 5 / 2 → 5 / 2 ≤ c.y → c.y ≤ 21 / 8 → c.z = 5 / 2 →
      ∃ y, Reports o.sdf (1 / 4) B (exPose.app id c) y ∧ 11 / 8 ≤ y := by
    intro c h1 h2 h3 h4
    obtain ⟨y, ey, h⟩ := hacc c (by
      refine ⟨Or.inr ⟨?_, ?_⟩, Or.inr ⟨?_, ?_⟩, Or.inr ⟨?_, ?_⟩⟩ <;> norm_num <;> linarith)
    refine ⟨y, ey, h _ (by norm_num) (fun q hq => ?_) fun r hr => ?_⟩
    · obtain ⟨y, z, -, -, rfl⟩ := wall q hq
      have k := (coord_le c ⟨1 / 8, y / 4 + 1 / 8, z / 4 + 1 / 8⟩).1
      have i := (near_isometry exPose_rotation c ⟨1 / 8, y / 4 + 1 / 8, z / 4 + 1 / 8⟩).2
      simp only at k
      rw [abs_le] at k
      linarith
    · have i := (near_isometry exPose_rotation c r).2
      obtain ⟨k1, k2, k3⟩ := coord_le c r
      rw [abs_le] at k1 k2 k3
      rcases hr with ⟨-, h | h⟩ | ⟨-, h | h⟩ | ⟨-, h | h⟩ <;> norm_num at h <;> linarith
  have hw : ∀ w ∈ [exPose.app id ⟨5 / 2, 5 / 2, 5 / 2⟩, exPose.app id ⟨5 / 2, 21 / 8, 5 / 2⟩],
      ∃ y, Reports o.sdf (1 / 4) B w y ∧ 11 / 8 ≤ y := by
    intro w hw
    rcases List.mem_cons.mp hw with rfl | hw
    · exact rep _ rfl (by norm_num) (by norm_num) rfl
    · obtain rfl := List.mem_singleton.mp hw
      exact rep _ rfl (by norm_num) (by norm_num) rfl
  refine ⟨B, o, g, hB, by rw [hm']; exact ho', hg, hw, fun p hp q hq => ?_⟩
  have hs : dist3 (exPose.app id ⟨5 / 2, 5 / 2, 5 / 2⟩) (exPose.app id ⟨5 / 2, 21 / 8, 5 / 2⟩) ≤ 2 * (1 / 10) := by
    have i := (near_isometry exPose_rotation (⟨5 / 2, 5 / 2, 5 / 2⟩ : V3 ℝ) ⟨5 / 2, 21 / 8, 5 / 2⟩).1
    have e : dist3 (⟨5 / 2, 5 / 2, 5 / 2⟩ : V3 ℝ) ⟨5 / 2, 21 / 8, 5 / 2⟩ = 1 / 8 := by
      unfold dist3 sqDist3
      rw [show ((5 / 2 : ℝ) - 5 / 2) ^ 2 + (5 / 2 - 21 / 8) ^ 2 + (5 / 2 - 5 / 2) ^ 2 = (1 / 8) ^ 2 by norm_num,
        Real.sqrt_sq (by norm_num)]
    rw [e] at i
    linarith
  refine (hpath [⟨5 / 2, 5 / 2, 5 / 2⟩, ⟨5 / 2, 21 / 8, 5 / 2⟩] (by
      intro c hc
      rcases List.mem_cons.mp hc with rfl | hc
      · norm_num [WellInside, WellInner]
      · obtain rfl := List.mem_singleton.mp hc
        norm_num [WellInside, WellInner]) (1 / 5) (1 / 10) (by norm_num) ⟨hs, trivial⟩ (by
      intro w h
      obtain ⟨y, ey, hy⟩ := hw w h
      exact ⟨y, ey, by linarith⟩) p hp).1 q hq (inside q hq)

end FSdf

end Verif
