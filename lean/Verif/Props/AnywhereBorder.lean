import Verif.Props.AnywhereReport
import Verif.Props.BorderClear

/-!
# C129 in the whole volume: reports in the outermost half cells, with the virtual border
-/

namespace Verif

open Spec SdfGen DField BorderAcc

namespace FSdf

open SignedDist

/-- Corrected values of neighbouring cells of a field with the virtual border that passes the check. -/
theorem border_jump {res : ℝ} (hres : GoodRes ieee res) (hlo : 1 / 2 ^ 126 ≤ res) (hhi : res ≤ 2 ^ 100) {d : Dims}
    {N : ℕ} (hN : N ≤ 2 ^ 14) (hdim : d.nx ≤ N ∧ d.ny ≤ N ∧ d.nz ≤ N)
    {fill : Idx → Option Bool} {f : Idx → Bool} (hf : Answers d fill f)
    {oob : FVal} {o : Out} (ho : extract ieee (res, res, res) d fill oob true = some o) {g : Idx → ℝ}
    (hg : Checked d res o.sdf.get g) {i j : Idx} (hi : InBounds d i) (hj : InBounds d j) (one : sqDist i j = 1) :
    |halfCellCloser res (g i) - halfCellCloser res (g j)| ≤ 101 / 100 * res := by
  have r0 := hres.1
  have hd := small_enlarge hN hdim
  have sgn : ∀ u, InBounds d u → 0 < signed (f u) (g u) := fun u hu => by
    obtain ⟨-, -, -, -, h⟩ := border_value hres hlo hhi hN hdim hf ho hu (hg.1 u hu)
    linarith
  have pi := sgn i hi
  have pj := sgn j hj
  have hcc : ∀ v, 0 < signed (f v) (g v) →
      halfCellCloser res (g v) = signed (f v) (signed (f v) (g v) - res / 2) := by
    intro v hp
    unfold halfCellCloser
    cases hv : f v <;> rw [hv] at hp <;> simp only [signed, if_true, Bool.false_eq_true, if_false] at hp ⊢
    · rw [if_pos hp.le]
    · rw [if_neg (by linarith)]; ring
  by_cases hc : f i = f j
  · have pos : 0 < g i * g j := by
      rw [hc] at pi
      cases hfv : f j <;> rw [hfv] at pi pj <;> simp only [signed, if_true, Bool.false_eq_true, if_false] at pi pj <;>
        nlinarith
    have st := hg.2 i j hi hj one pos
    rw [hcc i pi, hcc j pj, hc]
    refine le_trans (le_of_eq ?_) st
    cases f j <;> simp only [signed, if_true, Bool.false_eq_true, if_false]
    · congr 1; ring
    · congr 1; ring
  · have near : ∀ u w, InBounds d u → InBounds d w → f w ≠ f u → sqDist u w = 1 →
        |signed (f u) (g u) - res| ≤ 1 / 1000 * res := by
      intro u w hu hw hne h1
      have hm : NearestBarrier d f u 1 := ⟨⟨w, Or.inl ⟨hw, hne⟩, h1⟩, fun p hp => barrier_pos hu hp⟩
      obtain ⟨y, hy, -, herr⟩ := C92_near hres hlo hhi hd hf ho hu hm (by norm_num)
      have e := (toR_signed hy).2
      rw [hg.1 u hu] at e
      have t : toR (some (g u : EReal)) = g u := by simp [toR]
      rw [t] at e
      rw [e]
      simp only [Int.cast_one, Real.sqrt_one, mul_one] at herr
      refine herr.trans ?_
      have rel : relErr ≤ 1 / 1000 := by unfold relErr; norm_num
      gcongr
    have a := near i j hi hj (fun h => hc h.symm) one
    have b := near j i hj hi hc (by rw [← one]; unfold sqDist; ring)
    rw [hcc i pi, hcc j pj]
    generalize signed (f i) (g i) = x at a
    generalize signed (f j) (g j) = y at b
    obtain ⟨a1, a2⟩ := abs_le.mp a
    obtain ⟨b1, b2⟩ := abs_le.mp b
    rw [abs_le]
    cases hfi : f i <;> cases hfj : f j <;>
      simp only [signed, if_true, Bool.false_eq_true, if_false] <;>
      first | (exfalso; rw [hfi, hfj] at hc; exact hc rfl) | (constructor <;> linarith)

theorem one_step {i j : Idx} (hij : |i.x - j.x| + |i.y - j.y| + |i.z - j.z| = 1) : sqDist i j = 1 := by
  have key : ∀ a b c : ℤ, |a| + |b| + |c| = 1 → a ^ 2 + b ^ 2 + c ^ 2 = 1 := by
    intro a b c h
    simp only [Int.abs_eq_natAbs] at h
    have hx : a = 1 ∨ a = -1 ∨ a = 0 := by omega
    have hy : b = 1 ∨ b = -1 ∨ b = 0 := by omega
    have hz : c = 1 ∨ c = -1 ∨ c = 0 := by omega
    rcases hx with rfl | rfl | rfl <;> rcases hy with rfl | rfl | rfl <;> rcases hz with rfl | rfl | rfl <;>
      first | (exfalso; omega) | norm_num
  exact key _ _ _ hij

/-- C129 anywhere: `EstimateDistance` answers everywhere in the volume (up to a thousandth of a cell from its faces).  The
report exceeds 7/4 of the distance to any point of an obstacle by at most 8 cells, and 1.02 times the distance to any
point outside the volume by at most 5 cells. -/
theorem C129_anywhere {res : ℝ} (hres : GoodRes ieee res) (hlo : 1 / 2 ^ 100 ≤ res) (hhi : res ≤ 2 ^ 60)
    {d : Dims} {N : ℕ} (hN : N ≤ 2 ^ 14) (hdim : d.nx ≤ N ∧ d.ny ≤ N ∧ d.nz ≤ N)
    {fill : Idx → Option Bool} {f : Idx → Bool} (hf : Answers d fill f)
    {oob : FVal} {o : Out} (ho : extract ieee (res, res, res) d fill oob true = some o) {g : Idx → ℝ}
    (hg : Checked d res o.sdf.get g) {A B : Aff ℝ}
    (hA : NearRotation A) (hB : isoInverse ieee A = (B.rx, B.ry, B.rz, loc B.t)) {M : ℝ} (hNM : (N : ℝ) ≤ M)
    (hM : M * N ≤ 2 ^ 29) (hT : OriginWithin A (M * res)) {c : V3 ℝ} (hc : InsideBy d res c) :
    ∃ y : ℝ, (FSdf.mk o.sdf res).estimate ieee (affApp ieee B)
        (fun p => byAxis (axisCell ieee res) (affApp ieee B p)) (loc (A.app id c)) = some (real y, true) ∧
      (∀ r, Region d res f true r → y ≤ 7 / 4 * dist3 (A.app id c) (A.app id r) + 8 * res) ∧
      ∀ r, Outside d res r → y ≤ 102 / 100 * dist3 (A.app id c) (A.app id r) + 5 * res := by
  have hhi' : res ≤ 2 ^ 100 := hhi.trans (by norm_num)
  have hlo' : (1 : ℝ) / 2 ^ 126 ≤ res := le_trans (by norm_num) hlo
  have r0 := hres.1
  have pos : ∀ {n : ℕ} {x : ℝ}, res / 1000 ≤ x ∧ x ≤ n * res - res / 1000 → 0 < n := by
    intro n x h
    rcases Nat.eq_zero_or_pos n with rfl | h0
    · exfalso
      have := h.1.trans h.2
      push_cast at this
      linarith
    · exact h0
  have hx := pos hc.1
  have hy := pos hc.2.1
  have hz := pos hc.2.2
  have N1 : 1 ≤ N := by omega
  have N1' : (1 : ℝ) ≤ N := by exact_mod_cast N1
  have M1 : 1 ≤ M := N1'.trans hNM
  have hM2 : M ≤ 2 ^ 29 := le_trans (le_mul_of_one_le_right (by linarith) N1') hM
  obtain ⟨hp, hin, e1, e2, e3⟩ := world_inside hA hlo hhi hM2 hT N1 hNM hdim hc hB
  have hz0 : InBounds d ⟨0, 0, 0⟩ := by
    refine ⟨⟨le_rfl, ?_⟩, ⟨le_rfl, ?_⟩, le_rfl, ?_⟩ <;> dsimp only <;> omega
  have hdims : o.sdf.dims = d :=
    (C17_sign hres (ieee_resolution hlo' hhi').1 (small_enlarge hN hdim) hf ho hz0).1
  have hb := border_checked hres hlo' hhi' hN hdim hf ho hg
  have hval : ∀ v, InBounds d v → ∃ p, Barrier d f v p ∧ |signed (f v) (g v) - res * Real.sqrt (sqDist v p)| ≤ res / 512 ∧
      res * Real.sqrt (sqDist v p) ≤ 17321 / 10000 * (N * res) ∧ 511 / 512 * res ≤ signed (f v) (g v) :=
    fun v hv => border_value hres hlo' hhi' hN hdim hf ho hv (hg.1 v hv)
  have hjmp := fun i j => border_jump hres hlo' hhi' hN hdim hf ho hg (i := i) (j := j)
  have st : Stores (FSdf.mk o.sdf res) (exactAt (FSdf.mk o.sdf res) B) :=
    exact_stores fun i hi => ⟨g i, hg.1 i (by rw [← hdims]; exact hi)⟩
  have eg : ∀ v, InBounds d v → (exactAt (FSdf.mk o.sdf res) B).grid.get v = g v := by
    intro v hv
    have : (exactAt (FSdf.mk o.sdf res) B).grid.get v = toR (o.sdf.get v) := exact_get (FSdf.mk o.sdf res) v
    rw [this, hg.1 v hv]
    simp [toR]
  have ed : (exactAt (FSdf.mk o.sdf res) B).grid.dims = d := hdims
  have er : (exactAt (FSdf.mk o.sdf res) B).res = res := rfl
  have ei : (exactAt (FSdf.mk o.sdf res) B).inv = B := rfl
  have eq : (exactAt (FSdf.mk o.sdf res) B).toGrid (A.app id c) = B.app id (A.app id c) := rfl
  have es : (exactAt (FSdf.mk o.sdf res) B).size = ⟨d.nx * res, d.ny * res, d.nz * res⟩ := by rw [← ed]; rfl
  generalize exactAt (FSdf.mk o.sdf res) B = t at st eg ed er ei eq es
  subst er
  have hD : ∀ i, InBounds t.grid.dims i → |t.grid.get i| ≤ 2 * N * t.res := by
    intro i hi
    rw [ed] at hi
    obtain ⟨p, -, h1, h2, h3⟩ := hval i hi
    rw [eg i hi, ← abs_signed (f i), abs_of_nonneg (by linarith)]
    have := (abs_le.mp h1).2
    have : t.res ≤ N * t.res := le_mul_of_one_le_left r0.le N1'
    linarith
  obtain ⟨y, ey, hyz⟩ := estimate_bounded st hN N1 (by rw [ed]; exact hdim) hlo hhi' hD
    (toGrid := affApp ieee B) (toGrid' := affApp ieee B) (by rw [ei]; exact C112_product B) (by rw [ei]; exact C112_product B)
    (C112_lookup hlo hhi') (by linarith : 1 ≤ 64 * M) (by norm_num at hM ⊢; linarith) (p := A.app id c)
    (by rw [ei]; exact hp) (by rw [es, eq]; exact hin)
  rw [eq] at hyz
  subst ed
  have hW : Walled t f (17495 / 10000) (101 / 100) := by
    refine ⟨fun v hv => ?_, fun v w hv hw => ?_, fun v w hv hw k hk hk2 => ?_⟩
    · obtain ⟨p, -, -, -, h⟩ := hval v hv
      rw [eg v hv]; exact h
    · rw [eg v hv]; exact hb.any v w hv hw
    · rw [eg v hv]; exact hb.ahead v w hv hw k hk hk2
  have hJ : Jump t (101 / 100 * t.res) := by
    intro i j hi hj hij
    rw [eg i hi, eg j hj]
    exact hjmp i j hi hj (one_step hij)
  set q := B.app id (A.app id c) with hqd
  have ax : ∀ {n : ℕ} {x z : ℝ}, t.res / 1000 ≤ x ∧ x ≤ n * t.res - t.res / 1000 → |z - x| ≤ t.res / 2 ^ 15 →
      -(t.res / 1000) ≤ z ∧ z ≤ n * t.res + t.res / 1000 := by
    intro n x z h hz
    obtain ⟨y1, y2⟩ := abs_le.mp hz
    norm_num at y1 y2
    constructor <;> linarith
  obtain ⟨x', ix, dx, nx⟩ := clamp_inner hx r0 (ax hc.1 e1)
  obtain ⟨y', iy, dy, ny⟩ := clamp_inner hy r0 (ax hc.2.1 e2)
  obtain ⟨z', iz, dz, nz⟩ := clamp_inner hz r0 (ax hc.2.2 e3)
  have hq' : InnerLocation t.grid.dims t.res ⟨x', y', z'⟩ := ⟨ix, iy, iz⟩
  have hl := interpAt_edge (a := q) r0 (by positivity) hJ hx hy hz nx ny hq'
  have ec : 101 / 100 * t.res / t.res = 101 / 100 := by field_simp
  rw [ec] at hl
  dsimp only at hl
  have qc : dist3 q c ≤ t.res / 2 ^ 14 := by
    have := dist3_small (by positivity : 0 ≤ t.res / 2 ^ 15) e1 e2 e3
    have e : 2 * (t.res / 2 ^ 15) = t.res / 2 ^ 14 := by ring
    linarith
  have hd3 : dist3 ⟨x', y', z'⟩ q ≤ 17321 / 10000 * (501 / 1000 * t.res) := by
    rw [dist3_comm]
    exact dist3_le_coords (by positivity) dx dy dz
  have dc : ∀ r, dist3 ⟨x', y', z'⟩ r ≤ 868 / 1000 * t.res + (1 + 1 / 2 ^ 40) * dist3 (A.app id c) (A.app id r) := by
    intro r
    have h1 := dist3_tri ⟨x', y', z'⟩ q r
    have h2 := dist3_tri q c r
    have h3 := (near_isometry hA c r).2
    norm_num at qc h3 ⊢
    linarith
  obtain ⟨y1, y2⟩ := abs_le.mp hyz
  obtain ⟨l1, l2⟩ := abs_le.mp hl
  have s3 := sqrt3_bounds.2
  have h7 : Real.sqrt 3 * t.res ≤ 17321 / 10000 * t.res := by gcongr
  refine ⟨y, ey, fun r hr => ?_, fun r hr => ?_⟩
  · have h1 := interp_obstacle r0 hx hy hz hW (by norm_num) hq' hr
    have h4 := dc r
    have n := dist3_nonneg (A.app id c) (A.app id r)
    norm_num at h4 ⊢
    linarith
  · obtain ⟨fx, fy, fz⟩ := interp_face r0 hx hy hz hW (by norm_num) hq'
    obtain ⟨k1, k2, k3⟩ := coord_le ⟨x', y', z'⟩ r
    have h4 := dc r
    have n := dist3_nonneg (A.app id c) (A.app id r)
    have fin : ∀ {m : ℕ} {qx rx : ℝ}, BeyondFace m t.res rx → |qx - rx| ≤ dist3 ⟨x', y', z'⟩ r →
        (1 < m → interpAt t ⟨x', y', z'⟩ ≤ 101 / 100 * qx + (101 / 100 - 1) / 2 * t.res ∧
          interpAt t ⟨x', y', z'⟩ ≤ 101 / 100 * (m * t.res - qx) + (101 / 100 - 1) / 2 * t.res) →
        y ≤ 102 / 100 * dist3 (A.app id c) (A.app id r) + 5 * t.res := by
      intro m qx rx hb hk hi
      obtain ⟨i1, i2⟩ := hi hb.1
      obtain ⟨b1, b2⟩ := abs_le.mp hk
      norm_num at h4
      rcases hb.2 with h | h
      · linarith
      · linarith
    rcases hr with hr | hr | hr
    · exact fin hr k1 fx
    · exact fin hr k2 fy
    · exact fin hr k3 fz

/-- C129 for a path anywhere: waypoints of the volume, also in the outermost half cells, at most `2 * δ` apart and all with
a report of at least `7/4 * (ρ + δ)` and 8 cells, make a path that stays at least `ρ` away from every point of an obstacle
and from every point outside the volume. -/
theorem C129_path_anywhere {res : ℝ} (hres : GoodRes ieee res) (hlo : 1 / 2 ^ 100 ≤ res) (hhi : res ≤ 2 ^ 60)
    {d : Dims} {N : ℕ} (hN : N ≤ 2 ^ 14) (hdim : d.nx ≤ N ∧ d.ny ≤ N ∧ d.nz ≤ N)
    {fill : Idx → Option Bool} {f : Idx → Bool} (hf : Answers d fill f)
    {oob : FVal} {o : Out} (ho : extract ieee (res, res, res) d fill oob true = some o) {g : Idx → ℝ}
    (hg : Checked d res o.sdf.get g) {A B : Aff ℝ}
    (hA : NearRotation A) (hB : isoInverse ieee A = (B.rx, B.ry, B.rz, loc B.t)) {M : ℝ} (hNM : (N : ℝ) ≤ M)
    (hM : M * N ≤ 2 ^ 29) (hT : OriginWithin A (M * res)) {cs : List (V3 ℝ)} (hc : ∀ c ∈ cs, InsideBy d res c)
    {ρ δ : ℝ} (hδ : 0 ≤ δ) (hs : Spaced (2 * δ) (cs.map (A.app id)))
    (hask : ∀ w ∈ cs.map (A.app id), ∃ y : ℝ, (FSdf.mk o.sdf res).estimate ieee (affApp ieee B)
      (fun p => byAxis (axisCell ieee res) (affApp ieee B p)) (loc w) = some (real y, true) ∧
        7 / 4 * (ρ + δ) + 8 * res ≤ y)
    {p r : V3 ℝ} (hp : OnPath (cs.map (A.app id)) p) (hr : Blocked d res f r) : ρ ≤ dist3 p (A.app id r) := by
  obtain ⟨w, hw, hn⟩ := path_near_waypoint (by linarith) hs hp
  obtain ⟨y, ey, hy⟩ := hask w hw
  obtain ⟨c, hcs, rfl⟩ := List.mem_map.mp hw
  obtain ⟨y', ey', h1, h2⟩ := C129_anywhere hres hlo hhi hN hdim hf ho hg hA hB hNM hM hT (hc c hcs)
  rw [ey] at ey'
  have e' : y = y' := by simpa [real] using ey'
  subst e'
  have r0 := hres.1
  have n := dist3_nonneg (A.app id c) (A.app id r)
  have hd : y ≤ 7 / 4 * dist3 (A.app id c) (A.app id r) + 8 * res := by
    rcases hr with hr | hr
    · exact h1 r hr
    · have := h2 r hr
      linarith
  have tri := dist3_tri (A.app id c) p (A.app id r)
  rw [dist3_comm (A.app id c) p] at tri
  linarith

/-- A location a hundredth of a metre from three faces of a turned and shifted map of 14 x 14 x 14 free cells of size 1/4,
where the report is extrapolated: it is bounded by the distance to the nearest face. -/
example : ∃ (o : Out) (g : Idx → ℝ) (B : Aff ℝ) (y : ℝ), extract ieee ((1 / 4 : ℝ), (1 / 4 : ℝ), (1 / 4 : ℝ)) ⟨14, 14, 14⟩
      (fun _ => some false) (some ⊤) true = some o ∧ Checked ⟨14, 14, 14⟩ (1 / 4) o.sdf.get g ∧
    isoInverse ieee exPose = (B.rx, B.ry, B.rz, loc B.t) ∧
    (FSdf.mk o.sdf (1 / 4)).estimate ieee (affApp ieee B) (fun p => byAxis (axisCell ieee (1 / 4)) (affApp ieee B p))
      (loc (exPose.app id ⟨1 / 100, 1 / 100, 1 / 100⟩)) = some (real y, true) ∧
    y ≤ 102 / 100 * dist3 (exPose.app id ⟨1 / 100, 1 / 100, 1 / 100⟩) (exPose.app id ⟨0, 1 / 100, 1 / 100⟩) + 5 * (1 / 4) := by
  have hd : SmallGrid (enlarge ⟨14, 14, 14⟩) := by unfold SmallGrid enlarge off; decide
  have ans : Answers ⟨14, 14, 14⟩ (fun _ => some false) (fun _ => false) := fun _ _ => rfl
  obtain ⟨⟨o, ho⟩, -⟩ := C17_safe_queries hd ieee (1 / 4) (some ⊤) ans ans
  obtain ⟨B, hB, -⟩ := C112_inverse exPose_rotation
    ⟨exPose_origin.1.trans (by norm_num), exPose_origin.2.1.trans (by norm_num), exPose_origin.2.2.trans (by norm_num)⟩
  obtain ⟨g, hg⟩ := C129_product quarter_good (by norm_num) (by norm_num) (N := 14) (by norm_num) (by decide)
    (by decide) ans (X := fun _ => True) (Y := fun _ => True) (Z := fun _ => True) (X' := fun _ => False)
    (Y' := fun _ => False) (Z' := fun _ => False) (fun i _ => by simp) (fun i _ => by simp) ho
  obtain ⟨y, ey, -, h2⟩ := C129_anywhere quarter_good (by norm_num) (by norm_num) (N := 14) (by norm_num) (by decide) ans
    ho hg exPose_rotation hB (M := 2 ^ 25) (by norm_num) (by norm_num)
    ⟨by norm_num [exPose, abs_le], by norm_num [exPose, abs_le], by norm_num [exPose, abs_le]⟩
    (c := ⟨1 / 100, 1 / 100, 1 / 100⟩) (by norm_num [InsideBy])
  exact ⟨o, g, B, y, ho, hg, hB, ey, h2 ⟨0, 1 / 100, 1 / 100⟩ (Or.inl ⟨by norm_num, Or.inl le_rfl⟩)⟩

/-- Two waypoints in the middle of a turned and shifted map of 40 x 40 x 40 free cells of size 1/4: the check of
`C129_path_anywhere` accepts them for a clearance of 1/2, and the path between them has it. -/
example : ∃ (o : Out) (B : Aff ℝ), extract ieee ((1 / 4 : ℝ), (1 / 4 : ℝ), (1 / 4 : ℝ)) ⟨40, 40, 40⟩
      (fun _ => some false) (some ⊤) true = some o ∧
    (∀ w ∈ [(⟨5, 5, 5⟩ : V3 ℝ), ⟨5, 41 / 8, 5⟩].map (exPose.app id), ∃ y : ℝ,
      (FSdf.mk o.sdf (1 / 4)).estimate ieee (affApp ieee B)
        (fun p => byAxis (axisCell ieee (1 / 4)) (affApp ieee B p)) (loc w) = some (real y, true) ∧
      7 / 4 * (1 / 2 + 1 / 10) + 8 * (1 / 4) ≤ y) ∧
    ∀ p r, OnPath ([(⟨5, 5, 5⟩ : V3 ℝ), ⟨5, 41 / 8, 5⟩].map (exPose.app id)) p →
      Outside ⟨40, 40, 40⟩ (1 / 4) r → 1 / 2 ≤ dist3 p (exPose.app id r) := by
  have hd : SmallGrid (enlarge ⟨40, 40, 40⟩) := by unfold SmallGrid enlarge off; decide
  have ans : Answers ⟨40, 40, 40⟩ (fun _ => some false) (fun _ => false) := fun _ _ => rfl
  obtain ⟨⟨o, ho⟩, -⟩ := C17_safe_queries hd ieee (1 / 4) (some ⊤) ans ans
  obtain ⟨B, hB, -⟩ := C112_inverse exPose_rotation
    ⟨exPose_origin.1.trans (by norm_num), exPose_origin.2.1.trans (by norm_num), exPose_origin.2.2.trans (by norm_num)⟩
  obtain ⟨g, hg⟩ := C129_product quarter_good (by norm_num) (by norm_num) (N := 40) (by norm_num) (by decide)
    (by decide) ans (X := fun _ => True) (Y := fun _ => True) (Z := fun _ => True) (X' := fun _ => False)
    (Y' := fun _ => False) (Z' := fun _ => False) (fun i _ => by simp) (fun i _ => by simp) ho
  have hO : OriginWithin exPose (2 ^ 23 * (1 / 4)) :=
    ⟨by norm_num [exPose, abs_le], by norm_num [exPose, abs_le], by norm_num [exPose, abs_le]⟩
  have hask : ∀ w ∈ [(⟨5, 5, 5⟩ : V3 ℝ), ⟨5, 41 / 8, 5⟩].map (exPose.app id), ∃ y : ℝ,
      (FSdf.mk o.sdf (1 / 4)).estimate ieee (affApp ieee B)
        (fun p => byAxis (axisCell ieee (1 / 4)) (affApp ieee B p)) (loc w) = some (real y, true) ∧
      7 / 4 * (1 / 2 + 1 / 10) + 8 * (1 / 4) ≤ y := by
    have one : ∀ c : V3 ℝ, WellInside ⟨40, 40, 40⟩ (1 / 4) c →
        (|c.x - 5| ≤ 1 / 8 ∧ |c.y - 5| ≤ 1 / 8 ∧ |c.z - 5| ≤ 1 / 8) → ∃ y : ℝ,
        (FSdf.mk o.sdf (1 / 4)).estimate ieee (affApp ieee B)
          (fun p => byAxis (axisCell ieee (1 / 4)) (affApp ieee B p)) (loc (exPose.app id c)) = some (real y, true) ∧
        7 / 4 * (1 / 2 + 1 / 10) + 8 * (1 / 4) ≤ y := by
      intro c hc hn
      obtain ⟨y, ey, -, -, h3⟩ := C129_world quarter_good (by norm_num) (by norm_num) (N := 40) (by norm_num) (by decide)
        ans ho hg exPose_rotation hB (M := 2 ^ 23) (by norm_num) (by norm_num) hO (c := c) hc
      refine ⟨y, ey, le_trans (by norm_num) (h3 4 (by norm_num) fun r hr => ?_)⟩
      have hr : Outside ⟨40, 40, 40⟩ (1 / 4) r := hr.resolve_left fun ⟨_, _, h, _⟩ => by simp at h
      have far : 39 / 8 ≤ dist3 c r := by
        obtain ⟨k1, k2, k3⟩ := coord_le c r
        obtain ⟨n1, n2, n3⟩ := hn
        rw [abs_le] at k1 k2 k3 n1 n2 n3
        have ax : ∀ {u x D : ℝ}, BeyondFace 40 (1 / 4) x → -D ≤ u - x ∧ u - x ≤ D → -(1 / 8) ≤ u - 5 ∧ u - 5 ≤ 1 / 8 →
            39 / 8 ≤ D := by
          rintro u x D ⟨-, h | h⟩ ⟨a, b⟩ ⟨a', b'⟩ <;> norm_num at h <;> linarith
        rcases hr with hr | hr | hr
        · exact ax hr k1 n1
        · exact ax hr k2 n2
        · exact ax hr k3 n3
      have := (near_isometry exPose_rotation c r).2
      norm_num at this
      linarith
    intro w hw
    obtain ⟨c, hc, rfl⟩ := List.mem_map.mp hw
    simp only [List.mem_cons, List.not_mem_nil, or_false] at hc
    rcases hc with rfl | rfl
    · exact one _ (by norm_num [WellInside, WellInner]) (by norm_num)
    · exact one _ (by norm_num [WellInside, WellInner]) (by norm_num [abs_le])
  refine ⟨o, B, ho, hask, fun p r hp hr => ?_⟩
  refine C129_path_anywhere quarter_good (by norm_num) (by norm_num) (N := 40) (by norm_num) (by decide) ans ho hg
    exPose_rotation hB (M := 2 ^ 23) (by norm_num) (by norm_num) hO
    (cs := [⟨5, 5, 5⟩, ⟨5, 41 / 8, 5⟩]) ?_ (δ := 1 / 10) (by norm_num) ?_ hask hp (Or.inr hr)
  · intro c hc
    simp only [List.mem_cons, List.not_mem_nil, or_false] at hc
    rcases hc with rfl | rfl <;> norm_num [InsideBy]
  · refine ⟨?_, trivial⟩
    refine (near_isometry exPose_rotation _ _).1.trans ?_
    have : dist3 (⟨5, 5, 5⟩ : V3 ℝ) ⟨5, 41 / 8, 5⟩ = 1 / 8 := by
      unfold dist3 sqDist3
      rw [show ((5 : ℝ) - 5) ^ 2 + (5 - 41 / 8) ^ 2 + (5 - 5) ^ 2 = (1 / 8) ^ 2 by norm_num]
      exact Real.sqrt_sq (by norm_num)
    rw [this]
    norm_num

end FSdf

end Verif
