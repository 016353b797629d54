import Verif.Props.ProjectedClear
import Verif.Props.PathCheck

/-!
# C123 and C128 in the whole volume: reports in the outermost half cells

Beyond the outermost cell centres `EstimateDistance` extrapolates.  In a field that passes the check of C123 its reports
are still bounded by the distance to the obstacles, with a larger constant.
-/

namespace Verif

open Spec SdfGen DField

namespace FSdf

open SignedDist

/-- C123 anywhere: `EstimateDistance` answers everywhere in the volume (up to a thousandth of a cell from its faces).  The
report is at most 7/4 of the distance to any point of an obstacle, and 8 cells; minus the report is at most 7/4 of the
distance to any point of a free cell, and 8 cells. -/
theorem C123_anywhere {res : ℝ} (hres : GoodRes ieee res) (hlo : 1 / 2 ^ 100 ≤ res) (hhi : res ≤ 2 ^ 60)
    {d : Dims} {N : ℕ} (hN : N ≤ 2 ^ 14) (hdim : d.nx ≤ N ∧ d.ny ≤ N ∧ d.nz ≤ N)
    {fill : Idx → Option Bool} {f : Idx → Bool} (hf : Answers d fill f) (hb : BothClasses d f)
    {oob : FVal} {o : Out} (ho : extract ieee (res, res, res) d fill oob false = some o) {g : Idx → ℝ}
    (hg : Checked d res o.sdf.get g) {A B : Aff ℝ}
    (hA : NearRotation A) (hB : isoInverse ieee A = (B.rx, B.ry, B.rz, loc B.t)) {M : ℝ} (hNM : (N : ℝ) ≤ M)
    (hM : M * N ≤ 2 ^ 29) (hT : OriginWithin A (M * res)) {c : V3 ℝ} (hc : InsideBy d res c) :
    ∃ y : ℝ, (FSdf.mk o.sdf res).estimate ieee (affApp ieee B)
        (fun p => byAxis (axisCell ieee res) (affApp ieee B p)) (loc (A.app id c)) = some (real y, true) ∧
      (∀ r, Region d res f true r → y ≤ 7 / 4 * dist3 (A.app id c) (A.app id r) + 8 * res) ∧
      ∀ r, Region d res f false r → -y ≤ 7 / 4 * dist3 (A.app id c) (A.app id r) + 8 * res := by
  have hhi' : res ≤ 2 ^ 100 := hhi.trans (by norm_num)
  have r0 := hres.1
  obtain ⟨px, py, pz⟩ := both_pos hb
  have N1 : 1 ≤ N := by omega
  have N1' : (1 : ℝ) ≤ N := by exact_mod_cast N1
  have M1 : 1 ≤ M := N1'.trans hNM
  have hM2 : M ≤ 2 ^ 29 := le_trans (le_mul_of_one_le_right (by linarith) N1') hM
  obtain ⟨hp, hin, gx, gy, gz⟩ := world_inside hA hlo hhi hM2 hT N1 hNM hdim hc hB
  have hsm := small_of hN hdim
  have hdims := extract_dims hsm hf ho
  have hfin : ∀ v, InBounds d v → ∃ x : ℝ, o.sdf.get v = real x := fun v hv => ⟨g v, hg.1 v hv⟩
  obtain ⟨st, hS, hD⟩ := values_of_map hres hlo hhi' hN hdim hf ho hfin B
  have hvol : NearVolume d res (B.app id (A.app id c)) := by
    have ax : ∀ {n : ℕ} {x y : ℝ}, res / 1000 ≤ x ∧ x ≤ n * res - res / 1000 → |y - x| ≤ res / 2 ^ 15 →
        -(res / 1000) ≤ y ∧ y ≤ n * res + res / 1000 := by
      intro n x y h hy
      obtain ⟨y1, y2⟩ := abs_le.mp hy
      norm_num at y1 y2
      constructor <;> linarith
    exact ⟨ax hc.1 gx, ax hc.2.1 gy, ax hc.2.2 gz⟩
  have any := fun r => interp_anywhere hres hlo hhi' hN hdim hf hb ho hg B hvol (r := r)
  have hdc : dist3 (B.app id (A.app id c)) c ≤ res / 1000 := by
    have := dist3_le_coords (by positivity) gx gy gz
    norm_num at this ⊢
    linarith
  have far : ∀ {b : Bool} {r : V3 ℝ}, Region d res f b r → dist3 c r ≤ 2 ^ 16 * res := by
    rintro b r ⟨i, ⟨⟨i0, i1⟩, ⟨j0, j1⟩, k0, k1⟩, -, ⟨rx0, rx1⟩, ⟨ry0, ry1⟩, rz0, rz1⟩
    have ax : ∀ {n : ℕ} {u v : ℝ} {k : Int}, n ≤ N → 0 ≤ k → k < (n : Int) → k * res ≤ v → v ≤ (k + 1) * res →
        res / 1000 ≤ u ∧ u ≤ n * res - res / 1000 → |u - v| ≤ 2 ^ 15 * res := by
      intro n u v k hn k0 k1 v0 v1 hu
      have k0' : (0 : ℝ) ≤ k := by exact_mod_cast k0
      have k1' : (k : ℝ) + 1 ≤ n := by exact_mod_cast k1
      have nN : (n : ℝ) ≤ 2 ^ 14 := by exact_mod_cast hn.trans hN
      have e0 : 0 ≤ (k : ℝ) * res := by positivity
      have e1 : ((k : ℝ) + 1) * res ≤ 2 ^ 14 * res := by gcongr; linarith
      have e2 : (n : ℝ) * res ≤ 2 ^ 14 * res := by gcongr
      rw [abs_le]
      constructor <;> linarith [hu.1, hu.2]
    have := dist3_le_coords (by positivity) (ax hdim.1 i0 i1 rx0 rx1 hc.1) (ax hdim.2.1 j0 j1 ry0 ry1 hc.2.1)
      (ax hdim.2.2 k0 k1 rz0 rz1 hc.2.2)
    linarith
  have close : ∀ {b : Bool} {r : V3 ℝ}, Region d res f b r →
      dist3 (B.app id (A.app id c)) r ≤ dist3 (A.app id c) (A.app id r) + res / 500 := by
    intro b r hr
    have iso := near_isometry hA c r
    have tri := dist3_tri (B.app id (A.app id c)) c r
    have h := far hr
    obtain ⟨iso1, iso2⟩ := iso
    norm_num at iso1 iso2 h ⊢
    linarith
  subst hdims
  obtain ⟨y, ey, hyz⟩ := estimate_bounded st hN N1 hdim hlo hhi' hD (C112_product B) (C112_product B)
    (C112_lookup hlo hhi') (by linarith : 1 ≤ 64 * M) (by norm_num at hM ⊢; linarith) hp hin
  obtain ⟨y1, y2⟩ := abs_le.mp hyz
  have er : (exactAt (FSdf.mk o.sdf res) B).res = res := rfl
  have eg : (exactAt (FSdf.mk o.sdf res) B).toGrid (A.app id c) = B.app id (A.app id c) := rfl
  rw [er, eg] at y1 y2
  refine ⟨y, ey, fun r hr => ?_, fun r hr => ?_⟩
  · have h1 := (any r).1 hr
    have h2 := close hr
    linarith
  · have h1 := (any r).2 hr
    have h2 := close hr
    linarith

/-- C128 anywhere: waypoints anywhere in the volume, also in the outermost half cells, need reports of `7/4 * (ρ + δ)` and
8 cells. -/
theorem C128_anywhere {res : ℝ} (hres : GoodRes ieee res) (hlo : 1 / 2 ^ 100 ≤ res) (hhi : res ≤ 2 ^ 60)
    {d : Dims} {N : ℕ} (hN : N ≤ 2 ^ 14) (hdim : d.nx ≤ N ∧ d.ny ≤ N ∧ d.nz ≤ N)
    {fill : Idx → Option Bool} {f : Idx → Bool} (hf : Answers d fill f) (hb : BothClasses d f)
    {oob : FVal} {o : Out} (ho : extract ieee (res, res, res) d fill oob false = some o) {g : Idx → ℝ}
    (hg : Checked d res o.sdf.get g) {A B : Aff ℝ}
    (hA : NearRotation A) (hB : isoInverse ieee A = (B.rx, B.ry, B.rz, loc B.t)) {M : ℝ} (hNM : (N : ℝ) ≤ M)
    (hM : M * N ≤ 2 ^ 29) (hT : OriginWithin A (M * res)) {cs : List (V3 ℝ)} (hc : ∀ c ∈ cs, InsideBy d res c)
    {ρ δ : ℝ} (hδ : 0 ≤ δ) (hs : Spaced (2 * δ) (cs.map (A.app id)))
    (hask : ∀ w ∈ cs.map (A.app id), ∃ y : ℝ, (FSdf.mk o.sdf res).estimate ieee (affApp ieee B)
      (fun p => byAxis (axisCell ieee res) (affApp ieee B p)) (loc w) = some (real y, true) ∧
        7 / 4 * (ρ + δ) + 8 * res ≤ y)
    {p r : V3 ℝ} (hp : OnPath (cs.map (A.app id)) p) (hr : Region d res f true r) : ρ ≤ dist3 p (A.app id r) := by
  obtain ⟨w, hw, hn⟩ := path_near_waypoint (by linarith) hs hp
  obtain ⟨y, ey, hy⟩ := hask w hw
  obtain ⟨c, hcs, rfl⟩ := List.mem_map.mp hw
  obtain ⟨y', e, h, -⟩ := C123_anywhere hres hlo hhi hN hdim hf hb ho hg hA hB hNM hM hT (hc c hcs)
  rw [ey] at e
  have e' : y = y' := by simpa [real] using e
  subst e'
  have h := h r hr
  have tri := dist3_tri (A.app id c) p (A.app id r)
  rw [dist3_comm (A.app id c) p] at tri
  linarith

/-- The location a hundredth of a metre from three faces of a turned and shifted map of 5 x 6 x 5 cells of size 1/4, where
the report is extrapolated: it is bounded by the distance to the box. -/
example : ∃ (o : Out) (B : Aff ℝ) (y : ℝ), extract ieee ((1 / 4 : ℝ), (1 / 4 : ℝ), (1 / 4 : ℝ)) ⟨5, 6, 5⟩
      (fun i => some (exBox i)) (some ⊤) false = some o ∧
    (FSdf.mk o.sdf (1 / 4)).estimate ieee (affApp ieee B) (fun p => byAxis (axisCell ieee (1 / 4)) (affApp ieee B p))
      (loc (exPose.app id ⟨1 / 100, 1 / 100, 1 / 100⟩)) = some (real y, true) ∧
    ∀ r, Region ⟨5, 6, 5⟩ (1 / 4) exBox true r →
      y ≤ 7 / 4 * dist3 (exPose.app id ⟨1 / 100, 1 / 100, 1 / 100⟩) (exPose.app id r) + 8 * (1 / 4) := by
  have hd : SmallGrid ⟨5, 6, 5⟩ := by unfold SmallGrid; decide
  have ans : Answers ⟨5, 6, 5⟩ (fun i => some (exBox i)) exBox := fun _ _ => rfl
  obtain ⟨o, _, _, ho, _⟩ := base_spec hd ans ieee (1 / 4) (some ⊤)
  rw [← extract_false] at ho
  obtain ⟨B, hB, -⟩ := C112_inverse exPose_rotation
    ⟨exPose_origin.1.trans (by norm_num), exPose_origin.2.1.trans (by norm_num), exPose_origin.2.2.trans (by norm_num)⟩
  obtain ⟨g, hg⟩ := C123_product quarter_good (by norm_num) (by norm_num) (N := 6) (by norm_num) (by decide) ans
    exBox_both (A := fun x => 1 ≤ x ∧ x ≤ 2) (B := fun y => 1 ≤ y ∧ y ≤ 4) (C := fun z => 2 ≤ z ∧ z ≤ 2)
    (Or.inl fun i _ => by simp [exBox]) ho
  obtain ⟨y, h, h', -⟩ := C123_anywhere quarter_good (by norm_num) (by norm_num) (N := 6) (by norm_num) (by decide) ans
    exBox_both ho hg exPose_rotation hB (M := 2 ^ 26) (by norm_num) (by norm_num) exPose_origin
    (c := ⟨1 / 100, 1 / 100, 1 / 100⟩) (by norm_num [InsideBy])
  exact ⟨o, B, y, ho, h, h'⟩

/-- Two waypoints 35 cells away from the wall, in a turned and shifted map of cells of size 1/4: the check of
`C128_anywhere` accepts them for a clearance of 1/2, and the path between them has it. -/
example : ∃ (o : Out) (B : Aff ℝ), extract ieee ((1 / 4 : ℝ), (1 / 4 : ℝ), (1 / 4 : ℝ)) ⟨40, 4, 4⟩
      (fun i => some (exWall i)) (some ⊤) false = some o ∧
    (∀ w ∈ [(⟨9, 1 / 2, 1 / 2⟩ : V3 ℝ), ⟨9, 5 / 8, 1 / 2⟩].map (exPose.app id), ∃ y : ℝ,
      (FSdf.mk o.sdf (1 / 4)).estimate ieee (affApp ieee B)
        (fun p => byAxis (axisCell ieee (1 / 4)) (affApp ieee B p)) (loc w) = some (real y, true) ∧
      7 / 4 * (1 / 2 + 1 / 10) + 8 * (1 / 4) ≤ y) ∧
    ∀ p r, OnPath ([(⟨9, 1 / 2, 1 / 2⟩ : V3 ℝ), ⟨9, 5 / 8, 1 / 2⟩].map (exPose.app id)) p →
      Region ⟨40, 4, 4⟩ (1 / 4) exWall true r → 1 / 2 ≤ dist3 p (exPose.app id r) := by
  have hd : SmallGrid ⟨40, 4, 4⟩ := by unfold SmallGrid; decide
  have ans : Answers ⟨40, 4, 4⟩ (fun i => some (exWall i)) exWall := fun _ _ => rfl
  have both : BothClasses ⟨40, 4, 4⟩ exWall :=
    ⟨⟨⟨0, 0, 0⟩, by norm_num [InBounds], rfl⟩, ⟨1, 0, 0⟩, by norm_num [InBounds], rfl⟩
  obtain ⟨o, _, _, ho, _⟩ := base_spec hd ans ieee (1 / 4) (some ⊤)
  rw [← extract_false] at ho
  obtain ⟨B, hB, -⟩ := C112_inverse exPose_rotation
    ⟨exPose_origin.1.trans (by norm_num), exPose_origin.2.1.trans (by norm_num), exPose_origin.2.2.trans (by norm_num)⟩
  obtain ⟨g, hg⟩ := C123_product quarter_good (by norm_num) (by norm_num) (N := 40) (by norm_num) (by decide) ans
    both (A := fun x => x = 0) (B := fun _ => True) (C := fun _ => True) (Or.inl fun i _ => by simp [exWall]) ho
  have hc : ∀ c ∈ [(⟨9, 1 / 2, 1 / 2⟩ : V3 ℝ), ⟨9, 5 / 8, 1 / 2⟩], WellInside ⟨40, 4, 4⟩ (1 / 4) c := by
    intro c hc
    simp only [List.mem_cons, List.not_mem_nil, or_false] at hc
    rcases hc with rfl | rfl <;> norm_num [WellInside, WellInner]
  have hc' : ∀ c ∈ [(⟨9, 1 / 2, 1 / 2⟩ : V3 ℝ), ⟨9, 5 / 8, 1 / 2⟩], InsideBy ⟨40, 4, 4⟩ (1 / 4) c := by
    intro c hc
    simp only [List.mem_cons, List.not_mem_nil, or_false] at hc
    rcases hc with rfl | rfl <;> norm_num [InsideBy]
  have hask := C128_accepts quarter_good (by norm_num) (by norm_num) (N := 40) (by norm_num) (by decide) ans both ho hg
    exPose_rotation hB (M := 2 ^ 23) (by norm_num) (by norm_num)
    ⟨by norm_num [exPose, abs_le], by norm_num [exPose, abs_le], by norm_num [exPose, abs_le]⟩ hc
    (m := 7 / 4 * (1 / 2 + 1 / 10) + 8 * (1 / 4)) (by norm_num) (by
      intro w hw r hr
      obtain ⟨c, hcs, rfl⟩ := List.mem_map.mp hw
      obtain ⟨i, -, hi, ⟨-, rx⟩, -, -⟩ := hr
      have hi : i.x = 0 := by simpa [exWall] using hi
      have cx : c.x = 9 := by
        simp only [List.mem_cons, List.not_mem_nil, or_false] at hcs
        rcases hcs with rfl | rfl <;> rfl
      have hd : 8 ≤ dist3 c r := by
        unfold dist3
        refine Real.le_sqrt_of_sq_le ?_
        unfold sqDist3
        rw [hi] at rx
        push_cast at rx
        rw [cx]
        nlinarith [sq_nonneg (c.y - r.y), sq_nonneg (c.z - r.z)]
      have := (near_isometry exPose_rotation c r).2
      linarith)
  refine ⟨o, B, ho, hask, fun p r hp hr => ?_⟩
  refine C128_anywhere quarter_good (by norm_num) (by norm_num) (N := 40) (by norm_num) (by decide) ans both ho hg
    exPose_rotation hB (M := 2 ^ 23) (by norm_num) (by norm_num)
    ⟨by norm_num [exPose, abs_le], by norm_num [exPose, abs_le], by norm_num [exPose, abs_le]⟩ hc' (δ := 1 / 10)
    (by norm_num) ⟨?_, trivial⟩ hask hp hr
  have h1 : dist3 (⟨9, 1 / 2, 1 / 2⟩ : V3 ℝ) ⟨9, 5 / 8, 1 / 2⟩ ≤ 1 / 8 := by
    unfold dist3
    exact Real.sqrt_le_iff.mpr ⟨by norm_num, by norm_num [sqDist3]⟩
  have := (near_isometry exPose_rotation (⟨9, 1 / 2, 1 / 2⟩ : V3 ℝ) ⟨9, 5 / 8, 1 / 2⟩).1
  linarith

end FSdf

end Verif
