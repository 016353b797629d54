import Verif.Props.SlowChange
import Verif.Props.BorderClear

/-!
# C108 in the world: the distance to the boundary of a map in any pose
-/

namespace Verif

open Spec SdfGen DField

namespace FSdf

open Fl SignedDist

/-- The grid-frame location is in the closed volume with these side lengths. -/
def InBox (size r : V3 ℝ) : Prop := (0 ≤ r.x ∧ r.x ≤ size.x) ∧ (0 ≤ r.y ∧ r.y ≤ size.y) ∧ 0 ≤ r.z ∧ r.z ≤ size.z

/-- The grid-frame location is in the plane of one of the six faces. -/
def OnFacePlane (size r : V3 ℝ) : Prop := r.x = 0 ∨ r.x = size.x ∨ r.y = 0 ∨ r.y = size.y ∨ r.z = 0 ∨ r.z = size.z

/-- The floating-point grid-frame location of a world position. -/
theorem grid_location {res : ℝ} (hlo : 1 / 2 ^ 100 ≤ res) (hhi : res ≤ 2 ^ 60) {A B : Aff ℝ} (hA : NearRotation A)
    (hB : isoInverse ieee A = (B.rx, B.ry, B.rz, loc B.t)) {M : ℝ} (h1 : 1 ≤ M) (hM : M ≤ 2 ^ 29)
    (hT : OriginWithin A (M * res)) {c : V3 ℝ} (hc : CoordsWithin (M * res) c) :
    ∃ q, affApp ieee B (loc (A.app id c)) = loc q ∧ Within (res / 2 ^ 13) q c := by
  have r0 : 0 < res := lt_of_lt_of_le (by norm_num) hlo
  have hhi' : res ≤ 2 ^ 100 := hhi.trans (by norm_num)
  have hT' : OriginWithin A (2 ^ 190) := by
    have : M * res ≤ 2 ^ 190 := by
      calc M * res ≤ 2 ^ 29 * 2 ^ 60 := by gcongr
        _ ≤ 2 ^ 190 := by norm_num
    exact ⟨hT.1.trans this, hT.2.1.trans this, hT.2.2.trans this⟩
  obtain ⟨B', eB, hAB⟩ := C112_inverse hA hT'
  obtain rfl : B' = B := by
    rw [eB] at hB
    obtain ⟨x, y, z, t⟩ := B
    obtain ⟨x', y', z', t'⟩ := B'
    simp only [Prod.mk.injEq] at hB
    obtain ⟨rfl, rfl, rfl, e⟩ := hB
    rw [loc_inj e]
  obtain ⟨p, q, ep, eq, -, w⟩ := C112_trip hAB hlo hhi' h1 (hM.trans (by norm_num)) hT (C112_product B')
    (exactApp_accurate A) hc
  rw [exactApp_loc] at ep
  rw [← ep] at eq
  have err : M * res / 2 ^ 42 ≤ res / 2 ^ 13 := by
    have : M * res ≤ 2 ^ 29 * res := by gcongr
    linarith
  exact ⟨q, eq, w.1.trans err, w.2.1.trans err, w.2.2.trans err⟩

theorem affApp_double (a : Aff ℝ) (p : V3 FVal) :
    IsDouble ieee (affApp ieee a p).x ∧ IsDouble ieee (affApp ieee a p).y ∧ IsDouble ieee (affApp ieee a p).z := by
  have h : ∀ r t, IsDouble ieee (rowApp ieee r t p) := fun r t => by
    unfold rowApp add
    split
    · split_ifs
      · intro x hx; cases hx
      · intro y hy; cases hy; exact ieee.idem64 _
    · intro x hx; cases hx
  exact ⟨h _ _, h _ _, h _ _⟩

/-- C108 in the world, inside: a location at least a thousandth of a cell from all faces is reported to be inside, and the
reported distance is, up to a thousandth of a cell, the distance in the world to the outside of the volume: everything not
in the volume is at least as far away, and some point in the plane of a face is not further. -/
theorem C108_world {res : ℝ} (hlo : 1 / 2 ^ 100 ≤ res) (hhi : res ≤ 2 ^ 60) {A B : Aff ℝ} (hA : NearRotation A)
    (hB : isoInverse ieee A = (B.rx, B.ry, B.rz, loc B.t)) {M : ℝ} (h1 : 1 ≤ M) (hM : M ≤ 2 ^ 29)
    (hT : OriginWithin A (M * res)) {size : V3 ℝ} (hs : size.x ≤ M * res ∧ size.y ≤ M * res ∧ size.z ≤ M * res)
    {c : V3 ℝ} (hc : ∀ f ∈ faces size c, res / 1000 ≤ f) :
    ∃ y : ℝ, distanceToBoundary ieee (affApp ieee B) size (loc (A.app id c)) = (real y, true) ∧
      (∀ r, ¬ InBox size r → y - res / 1000 ≤ dist3 (A.app id c) (A.app id r)) ∧
      ∃ r, OnFacePlane size r ∧ dist3 (A.app id c) (A.app id r) ≤ y + res / 1000 := by
  have r0 : 0 < res := lt_of_lt_of_le (by norm_num) hlo
  simp only [faces, List.mem_cons, List.not_mem_nil, or_false, forall_eq_or_imp, forall_eq] at hc
  obtain ⟨a1, a2, b1, b2, c1, c2⟩ := hc
  obtain ⟨s1, s2, s3⟩ := hs
  obtain ⟨q, eq, ⟨w1, w1'⟩, ⟨w2, w2'⟩, w3, w3'⟩ : ∃ q, affApp ieee B (loc (A.app id c)) = loc q ∧
      (-(res / 2 ^ 13) ≤ q.x - c.x ∧ q.x - c.x ≤ res / 2 ^ 13) ∧ (-(res / 2 ^ 13) ≤ q.y - c.y ∧ q.y - c.y ≤ res / 2 ^ 13) ∧
      -(res / 2 ^ 13) ≤ q.z - c.z ∧ q.z - c.z ≤ res / 2 ^ 13 := by
    obtain ⟨q, eq, w1, w2, w3⟩ := grid_location hlo hhi hA hB h1 hM hT (c := c)
      ⟨by rw [abs_le]; constructor <;> linarith, by rw [abs_le]; constructor <;> linarith,
        by rw [abs_le]; constructor <;> linarith⟩
    exact ⟨q, eq, abs_le.mp w1, abs_le.mp w2, abs_le.mp w3⟩
  obtain ⟨d1, d2, d3⟩ := affApp_double B (loc (A.app id c))
  rw [eq] at d1 d2 d3
  have big : M * res ≤ 2 ^ 29 * res := by gcongr
  norm_num at w1 w1' w2 w2' w3 w3' big
  obtain ⟨f, hf, hmin, hd⟩ := C108_inside ieee (toGrid := affApp ieee B) (size := size) (q := q) eq (d1 _ rfl) (d2 _ rfl)
    (d3 _ rfl) (by
      simp only [faces, List.mem_cons, List.not_mem_nil, or_false, forall_eq_or_imp, forall_eq]
      refine ⟨?_, ?_, ?_, ?_, ?_, ?_⟩ <;> linarith)
  simp only [faces, List.mem_cons, List.not_mem_nil, or_false, forall_eq_or_imp, forall_eq] at hf hmin
  obtain ⟨m1, m2, m3, m4, m5, m6⟩ := hmin
  have f0 : 0 ≤ f := by rcases hf with h | h | h | h | h | h <;> linarith
  have f1 : f ≤ 2 ^ 28 * res := by norm_num; linarith
  obtain ⟨y, ey, hy⟩ := round_200 (z := f) (by
    rw [abs_of_nonneg f0]
    calc f ≤ 2 ^ 28 * 2 ^ 60 := f1.trans (by gcongr)
      _ ≤ 2 ^ 210 := by norm_num)
  rw [abs_of_nonneg f0, abs_le] at hy
  have tiny : (1 : ℝ) / 2 ^ 210 ≤ res / 2 ^ 100 := by
    rw [le_div_iff₀ (by norm_num)]
    exact le_trans (by norm_num) hlo
  norm_num at f1 hy tiny
  obtain ⟨y1, y2⟩ := hy
  refine ⟨y, by rw [hd, ey], fun r hr => ?_, ?_⟩
  · have i := (near_isometry hA c r).2
    obtain ⟨k1, k2, k3⟩ := coord_le c r
    rw [abs_le] at k1 k2 k3
    have far : f - res / 4096 ≤ dist3 c r := by
      by_contra hn
      push Not at hn
      refine hr ⟨⟨?_, ?_⟩, ⟨?_, ?_⟩, ?_, ?_⟩ <;> linarith
    by_contra hn
    push Not at hn
    norm_num at i
    linarith
  · have near : ∀ r, OnFacePlane size r → dist3 c r ≤ f + res / 4096 →
        ∃ r, OnFacePlane size r ∧ dist3 (A.app id c) (A.app id r) ≤ y + res / 1000 := by
      intro r h h'
      have i := (near_isometry hA c r).1
      norm_num at i
      exact ⟨r, h, by linarith⟩
    have root : ∀ {u v w : ℝ}, u ^ 2 + v ^ 2 + w ^ 2 ≤ (f + res / 4096) ^ 2 →
        √(u ^ 2 + v ^ 2 + w ^ 2) ≤ f + res / 4096 := fun h => Real.sqrt_le_iff.mpr ⟨by linarith, h⟩
    have sq : ∀ {u : ℝ}, -(f + res / 4096) ≤ u → u ≤ f + res / 4096 → u ^ 2 ≤ (f + res / 4096) ^ 2 := fun h h' =>
      sq_le_sq' h h'
    rcases hf with h | h | h | h | h | h
    · refine near ⟨0, c.y, c.z⟩ (by simp [OnFacePlane]) (root ?_)
      have := sq (u := c.x - 0) (by linarith) (by linarith)
      simpa using this
    · refine near ⟨size.x, c.y, c.z⟩ (by simp [OnFacePlane]) (root ?_)
      have := sq (u := c.x - size.x) (by linarith) (by linarith)
      simpa using this
    · refine near ⟨c.x, 0, c.z⟩ (by simp [OnFacePlane]) (root ?_)
      have := sq (u := c.y - 0) (by linarith) (by linarith)
      simpa using this
    · refine near ⟨c.x, size.y, c.z⟩ (by simp [OnFacePlane]) (root ?_)
      have := sq (u := c.y - size.y) (by linarith) (by linarith)
      simpa using this
    · refine near ⟨c.x, c.y, 0⟩ (by simp [OnFacePlane]) (root ?_)
      have := sq (u := c.z - 0) (by linarith) (by linarith)
      simpa using this
    · refine near ⟨c.x, c.y, size.z⟩ (by simp [OnFacePlane]) (root ?_)
      have := sq (u := c.z - size.z) (by linarith) (by linarith)
      simpa using this

/-- C108 in the world, outside: a location that is outside a face by at least a thousandth of a cell is reported to be
outside. -/
theorem C108_world_outside {res : ℝ} (hlo : 1 / 2 ^ 100 ≤ res) (hhi : res ≤ 2 ^ 60) {A B : Aff ℝ} (hA : NearRotation A)
    (hB : isoInverse ieee A = (B.rx, B.ry, B.rz, loc B.t)) {M : ℝ} (h1 : 1 ≤ M) (hM : M ≤ 2 ^ 29)
    (hT : OriginWithin A (M * res)) {size : V3 ℝ} (hsx : ieee.r64 (size.x : EReal) = (size.x : EReal))
    (hsy : ieee.r64 (size.y : EReal) = (size.y : EReal)) (hsz : ieee.r64 (size.z : EReal) = (size.z : EReal))
    {c : V3 ℝ} (hc : CoordsWithin (M * res) c) (hout : ∃ f ∈ faces size c, f ≤ -(res / 1000)) :
    (distanceToBoundary ieee (affApp ieee B) size (loc (A.app id c))).2 = false := by
  have r0 : 0 < res := lt_of_lt_of_le (by norm_num) hlo
  obtain ⟨q, eq, w1, w2, w3⟩ := grid_location hlo hhi hA hB h1 hM hT hc
  rw [abs_le] at w1 w2 w3
  norm_num at w1 w2 w3
  obtain ⟨d1, d2, d3⟩ := affApp_double B (loc (A.app id c))
  rw [Bool.eq_false_iff]
  intro h
  obtain ⟨q', eq', hf⟩ := (C108_flag hsx hsy hsz d1 d2 d3).mp h
  obtain rfl : q = q' := loc_inj (eq.symm.trans eq')
  simp only [faces, List.mem_cons, List.not_mem_nil, or_false, forall_eq_or_imp, forall_eq] at hf
  obtain ⟨m1, m2, m3, m4, m5, m6⟩ := hf
  obtain ⟨f, hf, hle⟩ := hout
  simp only [faces, List.mem_cons, List.not_mem_nil, or_false] at hf
  rcases hf with h | h | h | h | h | h <;> linarith

/-- A turned and shifted volume of 5 x 4 x 3 with cells of size 1/4: the location at (2, 1, 1.5) is reported to be inside, 1
away from the outside up to a thousandth of a cell; the location at (6, 1, 1) is reported to be outside. -/
example : ∃ (B : Aff ℝ) (y : ℝ), isoInverse ieee exPose = (B.rx, B.ry, B.rz, loc B.t) ∧
    distanceToBoundary ieee (affApp ieee B) ⟨5, 4, 3⟩ (loc (exPose.app id ⟨2, 1, 3 / 2⟩)) = (real y, true) ∧
    |y - 1| ≤ 1 / 1000 ∧
    (distanceToBoundary ieee (affApp ieee B) ⟨5, 4, 3⟩ (loc (exPose.app id ⟨6, 1, 1⟩))).2 = false := by
  obtain ⟨B, hB, -⟩ := C112_inverse exPose_rotation
    ⟨exPose_origin.1.trans (by norm_num), exPose_origin.2.1.trans (by norm_num), exPose_origin.2.2.trans (by norm_num)⟩
  obtain ⟨y, hy, hfar, r, hr, hnear⟩ := C108_world (res := 1 / 4) (by norm_num) (by norm_num) exPose_rotation hB (M := 2 ^ 26)
    (by norm_num) (by norm_num) exPose_origin (size := ⟨5, 4, 3⟩) (by norm_num) (c := ⟨2, 1, 3 / 2⟩) (by
      simp only [faces, List.mem_cons, List.not_mem_nil, or_false, forall_eq_or_imp, forall_eq]
      norm_num)
  refine ⟨B, y, hB, hy, abs_le.mpr ⟨?_, ?_⟩, ?_⟩
  · have i := (near_isometry exPose_rotation (⟨2, 1, 3 / 2⟩ : V3 ℝ) r).2
    obtain ⟨k1, k2, k3⟩ := coord_le ⟨2, 1, 3 / 2⟩ r
    simp only [abs_le] at k1 k2 k3
    norm_num at i
    rcases hr with h | h | h | h | h | h <;> norm_num at h k1 k2 k3 ⊢ <;> linarith
  · have hn : ∀ e : ℝ, 0 < e → y - 1 / 4 / 1000 ≤ (1 + 1 / 2 ^ 40) * (1 + e) := by
      intro e he
      refine (hfar ⟨2, -e, 3 / 2⟩ (fun h => absurd h.2.1.1 (by simpa using he))).trans ?_
      refine (near_isometry exPose_rotation _ _).1.trans ?_
      gcongr
      unfold dist3 sqDist3
      refine Real.sqrt_le_iff.mpr ⟨by linarith, ?_⟩
      simp
    have := hn (1 / 10000) (by norm_num)
    norm_num at this
    linarith
  · have dbl : ∀ n : ℕ, n < 10 → ieee.r64 ((n : ℝ) : EReal) = ((n : ℝ) : EReal) := by
      intro n hn
      have h := Ieee.round_exact (F := Ieee.binary64) (n := n) (e := 0) (hn.trans (by norm_num [Ieee.binary64])) (by decide)
        (by
          have : (n : ℝ) < 10 := by exact_mod_cast hn
          rw [zpow_zero, mul_one]
          refine this.trans (lt_trans (by norm_num : (10 : ℝ) < 2 ^ (4 : ℤ)) ?_)
          exact zpow_lt_zpow_right₀ (by norm_num) (by decide))
      rw [zpow_zero, mul_one] at h
      exact h
    exact C108_world_outside (res := 1 / 4) (by norm_num) (by norm_num) exPose_rotation hB (M := 2 ^ 26)
      (by norm_num) (by norm_num) exPose_origin (size := ⟨5, 4, 3⟩) (by exact_mod_cast dbl 5 (by norm_num))
      (by exact_mod_cast dbl 4 (by norm_num)) (by exact_mod_cast dbl 3 (by norm_num)) (c := ⟨6, 1, 1⟩)
      (by norm_num [CoordsWithin, abs_le]) ⟨-1, by norm_num [faces], by norm_num⟩

end FSdf

end Verif
