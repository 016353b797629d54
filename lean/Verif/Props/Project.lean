import Verif.Props.Interp

/-!
# Properties of boundary distance and projections (C24, C25, C26, C53)
-/

namespace Verif

open Spec

variable {K : Type} [Field K] [LinearOrder K] [IsStrictOrderedRing K]

/-! ## C24: projection out of collision -/

theorem estGrid_some_inB [FloorRing K] {s : MSdf K} {p : V3 K} {i : Idx} {e : K}
    (h : s.estGrid id id p i = some e) : InBounds s.grid.dims i := by
  by_contra hc
  rw [C19_outside_throws s p i hc] at h
  exact absurd h (by simp)

theorem projectOutLoop_done [FloorRing K] (norm : V3 K → K) (normalized : V3 K → V3 K) (s : MSdf K)
    (minDist mult : K) : ∀ (fuel : Nat) (p r : V3 K),
    s.projectOutLoop norm normalized minDist mult fuel p = .done r →
    ∃ e, s.estGrid id id r (s.cellOf r) = some e ∧ minDist < e := by
  intro fuel
  induction fuel with
  | zero =>
    intro p r h
    unfold MSdf.projectOutLoop at h
    dsimp only at h
    split at h
    · exact absurd h (by simp)
    · rename_i dist hd
      split at h
      · exact absurd h (by simp)
      · rename_i hlt
        simp only [MSdf.Loop.done.injEq] at h
        subst h
        exact ⟨dist, hd, not_le.mp hlt⟩
  | succ fuel ih =>
    intro p r h
    unfold MSdf.projectOutLoop at h
    dsimp only at h
    split at h
    · exact absurd h (by simp)
    · rename_i dist hd
      split at h
      · split at h
        · split at h
          · exact ih _ _ h
          · exact absurd h (by simp)
        · exact absurd h (by simp)
      · rename_i hlt
        simp only [MSdf.Loop.done.injEq] at h
        subst h
        exact ⟨dist, hd, not_le.mp hlt⟩

/-- C24.  Whatever the number of iterations, the norm and the normalisation used: a returned
location is in bounds and its estimated distance is strictly greater than the requested minimum. -/
theorem C24_returned_point_is_clear [FloorRing K] (norm : V3 K → K) (normalized : V3 K → V3 K)
    (s : MSdf K) (hf : RigidFrame s) (p : V3 K) (minDist mult : K) (fuel : Nat) (r : V3 K)
    (h : s.projectOut norm normalized p minDist mult fuel = .done r) :
    InBounds s.grid.dims (s.locIdx r) ∧ ∃ e, s.estimate r = some (e, true) ∧ minDist < e := by
  unfold MSdf.projectOut at h
  dsimp only at h
  split at h
  · rename_i g hg
    simp only [MSdf.Loop.done.injEq] at h
    subst h
    obtain ⟨e, he, hlt⟩ := projectOutLoop_done norm normalized s minDist mult fuel _ _ hg
    have hb := estGrid_some_inB he
    have hl : s.locIdx (s.toWorld g) = s.cellOf g := by unfold MSdf.locIdx; rw [hf.right]
    refine ⟨by rw [hl]; exact hb, e, ?_, hlt⟩
    unfold MSdf.estimate
    rw [hl, if_pos (inB_iff_spec.mpr hb), hf.right, he]
    rfl
  · exact absurd h (by simp)
  · exact absurd h (by simp)

/-- C24.  A start that is already clear is returned unchanged, without any iteration. -/
theorem C24_clear_start_unchanged [FloorRing K] (norm : V3 K → K) (normalized : V3 K → V3 K)
    (s : MSdf K) (hf : RigidFrame s) (p : V3 K) (minDist mult e : K) (fuel : Nat)
    (he : s.estimate p = some (e, true)) (hlt : minDist < e) :
    s.projectOut norm normalized p minDist mult fuel = .done p := by
  unfold MSdf.estimate at he
  by_cases hb : s.grid.dims.inB (s.locIdx p) = true
  · rw [if_pos hb] at he
    have he' : s.estGrid id id (s.toGrid p) (s.cellOf (s.toGrid p)) = some e := by
      rcases h : s.estGrid id id (s.toGrid p) (s.locIdx p) with _ | v
      · rw [h] at he; exact absurd he (by simp)
      · rw [h] at he
        simp only [Option.map_some, Option.some.injEq, Prod.mk.injEq, and_true] at he
        rw [← he]; exact h
    unfold MSdf.projectOut
    have hlb : s.locInB p = true := hb
    simp only [hlb, if_true]
    have : s.projectOutLoop norm normalized minDist mult fuel (s.toGrid p) = .done (s.toGrid p) := by
      unfold MSdf.projectOutLoop
      simp only [he', not_le.mpr hlt, if_false]
    rw [this]
    simp only [hf.left]
  · rw [if_neg hb] at he
    simp at he

/-- C24.  The answer does not depend on how many iterations are allowed, once it is returned. -/
theorem projectOutLoop_mono [FloorRing K] (norm : V3 K → K) (normalized : V3 K → V3 K) (s : MSdf K)
    (minDist mult : K) : ∀ (fuel : Nat) (p r : V3 K),
    s.projectOutLoop norm normalized minDist mult fuel p = .done r →
    s.projectOutLoop norm normalized minDist mult (fuel + 1) p = .done r := by
  intro fuel
  induction fuel with
  | zero =>
    intro p r h
    unfold MSdf.projectOutLoop at h ⊢
    dsimp only at h ⊢
    split at h
    · exact absurd h (by simp)
    · rename_i dist hd
      split at h
      · exact absurd h (by simp)
      · rename_i hlt
        simp only [hlt, if_false]; exact h
  | succ fuel ih =>
    intro p r h
    unfold MSdf.projectOutLoop at h
    rw [MSdf.projectOutLoop]
    dsimp only at h ⊢
    split at h
    · exact absurd h (by simp)
    · rename_i dist hd
      try dsimp only
      split at h
      · rename_i hle
        simp only [hle, if_true]
        split at h
        · rename_i gx gy gz hg
          try dsimp only
          split at h
          · rename_i hn
            simp only [hn, if_true]
            exact ih _ _ h
          · exact absurd h (by simp)
        · exact absurd h (by simp)
      · rename_i hlt
        simp only [hlt, if_false]
        exact h

/-! ## C25: projection into the volume -/

/-- A grid-frame point at least `m` away from every face of the volume. -/
def InsetBy (s : MSdf K) (m : K) (g : V3 K) : Prop :=
  (m ≤ g.x ∧ g.x ≤ s.grid.dims.nx * s.res - m) ∧ (m ≤ g.y ∧ g.y ≤ s.grid.dims.ny * s.res - m) ∧
    (m ≤ g.z ∧ g.z ≤ s.grid.dims.nz * s.res - m)

/-- The inset used by the call: the requested distance plus a ten-thousandth of a cell. -/
def inset (s : MSdf K) (minDist : K) : K := minDist + s.res / 10000

/-- The volume is big enough for the inset. -/
def RoomFor (s : MSdf K) (m : K) : Prop :=
  2 * m ≤ s.grid.dims.nx * s.res ∧ 2 * m ≤ s.grid.dims.ny * s.res ∧ 2 * m ≤ s.grid.dims.nz * s.res

theorem clamp_range {v lo hi : K} (h : lo ≤ hi) : lo ≤ MSdf.clamp v lo hi ∧ MSdf.clamp v lo hi ≤ hi := by
  unfold MSdf.clamp
  exact ⟨le_min (le_max_right _ _) h, min_le_right _ _⟩

theorem clamp_id {v lo hi : K} (h1 : lo ≤ v) (h2 : v ≤ hi) : MSdf.clamp v lo hi = v := by
  unfold MSdf.clamp
  rw [max_eq_left h1, min_eq_left h2]

theorem clamp_closest {v lo hi q : K} (h : lo ≤ hi) (h1 : lo ≤ q) (h2 : q ≤ hi) :
    (v - MSdf.clamp v lo hi) ^ 2 + (q - MSdf.clamp v lo hi) ^ 2 ≤ (v - q) ^ 2 := by
  unfold MSdf.clamp
  rcases le_total v lo with hv | hv
  · rw [max_eq_right hv, min_eq_left h]
    nlinarith
  · rw [max_eq_left hv]
    rcases le_total v hi with hw | hw
    · rw [min_eq_left hw]; nlinarith
    · rw [min_eq_right hw]; nlinarith

/-- The clamped grid-frame point. -/
def clampPoint (s : MSdf K) (m : K) (g : V3 K) : V3 K :=
  ⟨MSdf.clamp g.x m (s.size.x - m), MSdf.clamp g.y m (s.size.y - m),
    MSdf.clamp g.z m (s.size.z - m)⟩

theorem projectIn_grid (s : MSdf K) (hf : RigidFrame s) (p : V3 K) (minDist : K) :
    s.toGrid (s.projectIn p minDist) = clampPoint s (inset s minDist) (s.toGrid p) := by
  have e : minDist + s.res * (1 / 10000) = inset s minDist := by unfold inset; ring
  unfold MSdf.projectIn
  dsimp only
  rw [e]
  split
  · rw [hf.right]; rfl
  · rename_i h
    simp only [not_or, ne_eq, not_not] at h
    ext
    · exact h.1.symm
    · exact h.2.1.symm
    · exact h.2.2.symm

/-- C25.  The result lies in the volume with the inset on every axis. -/
theorem C25_result_inside (s : MSdf K) (hf : RigidFrame s) (p : V3 K) (minDist : K)
    (hm : RoomFor s (inset s minDist)) :
    InsetBy s (inset s minDist) (s.toGrid (s.projectIn p minDist)) := by
  rw [projectIn_grid s hf]
  obtain ⟨h1, h2, h3⟩ := hm
  exact ⟨clamp_range (by unfold MSdf.size; dsimp only; linarith),
    clamp_range (by unfold MSdf.size; dsimp only; linarith),
    clamp_range (by unfold MSdf.size; dsimp only; linarith)⟩

theorem sqDist3_world (s : MSdf K) (hf : RigidFrame s) (p q : V3 K) :
    sqDist3 p q = sqDist3 (s.toGrid p) (s.toGrid q) := by
  rw [← hf.iso (s.toGrid p), hf.left, hf.left]

/-- C25.  The result is the closest point of the inset volume: every other such point is strictly
farther away from the input. -/
theorem C25_closest (s : MSdf K) (hf : RigidFrame s) (p : V3 K) (minDist : K)
    (hm : RoomFor s (inset s minDist)) (q : V3 K) (hq : InsetBy s (inset s minDist) (s.toGrid q))
    (hne : q ≠ s.projectIn p minDist) :
    sqDist3 p (s.projectIn p minDist) < sqDist3 p q := by
  rw [sqDist3_world s hf p, sqDist3_world s hf p q, projectIn_grid s hf]
  have hne' : s.toGrid q ≠ clampPoint s (inset s minDist) (s.toGrid p) := by
    rw [← projectIn_grid s hf]
    intro h
    apply hne
    rw [← hf.left q, h, hf.left]
  obtain ⟨h1, h2, h3⟩ := hm
  obtain ⟨⟨x1, x2⟩, ⟨y1, y2⟩, ⟨z1, z2⟩⟩ := hq
  generalize s.toGrid q = b at *
  generalize s.toGrid p = a at *
  have ex := clamp_closest (v := a.x) (lo := inset s minDist) (hi := s.size.x - inset s minDist)
    (q := b.x) (by unfold MSdf.size; dsimp only; linarith) x1 x2
  have ey := clamp_closest (v := a.y) (lo := inset s minDist) (hi := s.size.y - inset s minDist)
    (q := b.y) (by unfold MSdf.size; dsimp only; linarith) y1 y2
  have ez := clamp_closest (v := a.z) (lo := inset s minDist) (hi := s.size.z - inset s minDist)
    (q := b.z) (by unfold MSdf.size; dsimp only; linarith) z1 z2
  unfold sqDist3 clampPoint
  dsimp only
  have hsum : 0 < (b.x - MSdf.clamp a.x (inset s minDist) (s.size.x - inset s minDist)) ^ 2 +
      (b.y - MSdf.clamp a.y (inset s minDist) (s.size.y - inset s minDist)) ^ 2 +
      (b.z - MSdf.clamp a.z (inset s minDist) (s.size.z - inset s minDist)) ^ 2 := by
    by_contra hc
    apply hne'
    have s1 := sq_nonneg (b.x - MSdf.clamp a.x (inset s minDist) (s.size.x - inset s minDist))
    have s2 := sq_nonneg (b.y - MSdf.clamp a.y (inset s minDist) (s.size.y - inset s minDist))
    have s3 := sq_nonneg (b.z - MSdf.clamp a.z (inset s minDist) (s.size.z - inset s minDist))
    have hz := not_lt.mp hc
    ext
    · have h0 := le_antisymm (by linarith) s1
      exact sub_eq_zero.mp (pow_eq_zero_iff two_ne_zero |>.mp h0)
    · have h0 := le_antisymm (by linarith) s2
      exact sub_eq_zero.mp (pow_eq_zero_iff two_ne_zero |>.mp h0)
    · have h0 := le_antisymm (by linarith) s3
      exact sub_eq_zero.mp (pow_eq_zero_iff two_ne_zero |>.mp h0)
  linarith

/-- C25.  Points already inside are returned unchanged. -/
theorem C25_inside_unchanged (s : MSdf K) (p : V3 K) (minDist : K)
    (h : InsetBy s (inset s minDist) (s.toGrid p)) : s.projectIn p minDist = p := by
  obtain ⟨⟨x1, x2⟩, ⟨y1, y2⟩, ⟨z1, z2⟩⟩ := h
  have e : minDist + s.res * (1 / 10000) = inset s minDist := by unfold inset; ring
  unfold MSdf.projectIn MSdf.size
  dsimp only
  rw [e, clamp_id x1 x2, clamp_id y1 y2, clamp_id z1 z2]
  simp

/-- C25.  Projecting twice is projecting once. -/
theorem C25_idempotent (s : MSdf K) (hf : RigidFrame s) (p : V3 K) (minDist : K)
    (hm : RoomFor s (inset s minDist)) :
    s.projectIn (s.projectIn p minDist) minDist = s.projectIn p minDist :=
  C25_inside_unchanged s _ _ (C25_result_inside s hf p minDist hm)

/-- C25, consequence: with a non-negative distance the result is a location in the grid. -/
theorem C25_result_in_bounds [FloorRing K] (s : MSdf K) (hr : 0 < s.res) (hf : RigidFrame s)
    (p : V3 K) (minDist : K) (h0 : 0 ≤ minDist) (hm : RoomFor s (inset s minDist)) :
    InBounds s.grid.dims (s.locIdx (s.projectIn p minDist)) := by
  obtain ⟨⟨x1, x2⟩, ⟨y1, y2⟩, ⟨z1, z2⟩⟩ := C25_result_inside s hf p minDist hm
  have hmpos : 0 < inset s minDist := by unfold inset; positivity
  have ax : ∀ (n : Nat) (v : K), inset s minDist ≤ v → v ≤ n * s.res - inset s minDist →
      0 ≤ ⌊v / s.res⌋ ∧ ⌊v / s.res⌋ < n := by
    intro n v h1 h2
    constructor
    · exact Int.floor_nonneg.mpr (div_nonneg (by linarith) hr.le)
    · rw [Int.floor_lt, div_lt_iff₀ hr]; push_cast; linarith
  exact ⟨ax _ _ x1 x2, ax _ _ y1 y2, ax _ _ z1 z2⟩

/-- C24 for starts outside the grid: the first estimate of the loop is always made in bounds. -/
theorem C24_first_estimate_in_bounds [FloorRing K] (s : MSdf K) (hr : 0 < s.res)
    (hf : RigidFrame s) (hm : RoomFor s (inset s 0)) (p : V3 K) :
    InBounds s.grid.dims (s.locIdx (if s.locInB p then p else s.projectIn p 0)) := by
  by_cases h : s.locInB p = true
  · rw [if_pos h]; exact inB_iff_spec.mp h
  · rw [if_neg h]; exact C25_result_in_bounds s hr hf p 0 le_rfl hm

example : 0 < exSdf.res ∧ RigidFrame exSdf ∧ RoomFor exSdf (inset exSdf (1 / 8)) ∧
    InsetBy exSdf (inset exSdf (1 / 8)) (exSdf.toGrid exPoint) := by
  refine ⟨exSdf_res, exSdf_rigid, ?_, ?_⟩
  · norm_num [RoomFor, inset, exSdf]
  · rw [exPoint_grid]
    norm_num [InsetBy, inset, exSdf]

/-- A clear start of `exSdf` and the corresponding instance of `C24`. -/
example : exSdf.projectOut (fun _ => 1) id (exSdf.toWorld (exSdf.center ⟨0, 0, 0⟩)) 0 (1 / 8) 0 =
    .done (exSdf.toWorld (exSdf.center ⟨0, 0, 0⟩)) := by
  have hi : InBounds exSdf.grid.dims ⟨0, 0, 0⟩ := by unfold InBounds exSdf; decide
  have h := C20_at_centers exSdf exSdf_res exSdf_rigid ⟨0, 0, 0⟩ hi
  have hg : exSdf.grid.get ⟨0, 0, 0⟩ = 1 / 2 := by decide +kernel
  rw [hg] at h
  exact C24_clear_start_unchanged _ _ exSdf exSdf_rigid _ 0 _ _ 0 h
    (by norm_num [halfCellCloser, exSdf])

/-- A start of `exSdf` in collision (distance -1/4 at the centre of cell (1,0,0)): the loop steps
out and returns a point. -/
example : ∃ r, exSdf.projectOut (fun g => |g.x|) (fun g => ⟨g.x / |g.x|, 0, 0⟩)
    (exSdf.toWorld (exSdf.center ⟨1, 0, 0⟩)) 0 (1 / 8) 100 = .done r ∧
    exSdf.estimate (exSdf.toWorld (exSdf.center ⟨1, 0, 0⟩)) = some (-(1 / 4), true) := by
  have h : (match exSdf.projectOut (fun g => |g.x|) (fun g => ⟨g.x / |g.x|, 0, 0⟩)
    (exSdf.toWorld (exSdf.center ⟨1, 0, 0⟩)) 0 (1 / 8) 100 with | .done _ => true | _ => false) = true := by
    decide +kernel
  revert h
  generalize hq : exSdf.projectOut (fun g => |g.x|) (fun g => ⟨g.x / |g.x|, 0, 0⟩)
    (exSdf.toWorld (exSdf.center ⟨1, 0, 0⟩)) 0 (1 / 8) 100 = q
  intro h
  refine ⟨?_, ?_, ?_⟩
  · exact match q with | .done r => r | _ => exPoint
  · cases q <;> simp at h ⊢
  · decide +kernel

/-! ## C26: distance to the boundary -/

/-- The six distances from a grid-frame point to the planes of the volume's faces. -/
def faceDistances (s : MSdf K) (g : V3 K) : List K :=
  [g.x, s.grid.dims.nx * s.res - g.x, g.y, s.grid.dims.ny * s.res - g.y, g.z,
    s.grid.dims.nz * s.res - g.z]

/-- C26, first half.  For points in the volume the result is the distance to the nearest face and
the flag is true. -/
theorem C26_inside (s : MSdf K) (p : V3 K) (h : ∀ d ∈ faceDistances s (s.toGrid p), 0 ≤ d) :
    (s.distanceToBoundary p).2 = true ∧ 0 ≤ (s.distanceToBoundary p).1 ∧
      (s.distanceToBoundary p).1 ∈ faceDistances s (s.toGrid p) ∧
      ∀ d ∈ faceDistances s (s.toGrid p), (s.distanceToBoundary p).1 ≤ d := by
  simp only [faceDistances, List.mem_cons, List.not_mem_nil, or_false, forall_eq_or_imp,
    forall_eq] at h ⊢
  obtain ⟨h1, h2, h3, h4, h5, h6⟩ := h
  unfold MSdf.distanceToBoundary MSdf.size
  dsimp only
  generalize (s.toGrid p).x = a at *
  generalize (s.toGrid p).y = b at *
  generalize (s.toGrid p).z = c at *
  generalize (s.grid.dims.nx : K) * s.res = A at *
  generalize (s.grid.dims.ny : K) * s.res = B at *
  generalize (s.grid.dims.nz : K) * s.res = C at *
  have mx : 0 ≤ min a (A - a) := le_min h1 h2
  have my : 0 ≤ min b (B - b) := le_min h3 h4
  have mz : 0 ≤ min c (C - c) := le_min h5 h6
  have ax1 := min_le_left a (A - a)
  have ax2 := min_le_right a (A - a)
  have ay1 := min_le_left b (B - b)
  have ay2 := min_le_right b (B - b)
  have az1 := min_le_left c (C - c)
  have az2 := min_le_right c (C - c)
  have cx := min_choice a (A - a)
  have cy := min_choice b (B - b)
  have cz := min_choice c (C - c)
  rw [abs_of_nonneg mx, abs_of_nonneg my, abs_of_nonneg mz]
  refine ⟨by simp [mx, my, mz], ?_⟩
  generalize min a (A - a) = X at *
  generalize min b (B - b) = Y at *
  generalize min c (C - c) = Z at *
  split_ifs with hyx hzy hzx
  · refine ⟨mz, by tauto, ?_⟩
    refine ⟨?_, ?_, ?_, ?_, ?_, ?_⟩ <;> linarith
  · refine ⟨my, by tauto, ?_⟩
    refine ⟨?_, ?_, ?_, ?_, ?_, ?_⟩ <;> linarith
  · refine ⟨mz, by tauto, ?_⟩
    refine ⟨?_, ?_, ?_, ?_, ?_, ?_⟩ <;> linarith
  · refine ⟨mx, by tauto, ?_⟩
    refine ⟨?_, ?_, ?_, ?_, ?_, ?_⟩ <;> linarith

/-- C26.  The flag is true exactly for points of the (closed) volume. -/
theorem C26_flag (s : MSdf K) (p : V3 K) :
    (s.distanceToBoundary p).2 = true ↔ ∀ d ∈ faceDistances s (s.toGrid p), 0 ≤ d := by
  simp only [faceDistances, List.forall_mem_cons, List.not_mem_nil, false_imp_iff, implies_true,
    and_true]
  unfold MSdf.distanceToBoundary MSdf.size
  simp only [Bool.and_eq_true, decide_eq_true_eq, ge_iff_le, le_min_iff]
  tauto

example : ∀ d ∈ faceDistances exSdf (exSdf.toGrid exPoint), 0 ≤ d := by
  rw [exPoint_grid]; norm_num [faceDistances, exSdf]

/-- C26 as stated: outside points get a negative distance. -/
def C26Statement (s : MSdf K) : Prop :=
  ∀ p, (s.distanceToBoundary p).2 = false → (s.distanceToBoundary p).1 < 0

/-- C26 is violated: a point far outside on one axis but near a face plane of another axis gets a
positive distance (with flag false). -/
theorem C26_false : ¬ C26Statement exSdf := by
  intro h
  have := h (exSdf.toWorld ⟨-5, 1 / 10, 1 / 2⟩) (by decide +kernel)
  revert this
  decide +kernel

/-- C26 (part) outside: the flag is false, and the distance is negative whenever some violated face
is closer (in its axis) than every axis that is respected.  Missing: the sign when a respected axis
has the smallest displacement, where it is positive (`C26_false`). -/
theorem C26_outside_partial (s : MSdf K) (p : V3 K) (d : K)
    (hd : d ∈ faceDistances s (s.toGrid p)) (hneg : d < 0)
    (hx : 0 ≤ min (s.toGrid p).x (s.size.x - (s.toGrid p).x) →
      -d < min (s.toGrid p).x (s.size.x - (s.toGrid p).x))
    (hy : 0 ≤ min (s.toGrid p).y (s.size.y - (s.toGrid p).y) →
      -d < min (s.toGrid p).y (s.size.y - (s.toGrid p).y))
    (hz : 0 ≤ min (s.toGrid p).z (s.size.z - (s.toGrid p).z) →
      -d < min (s.toGrid p).z (s.size.z - (s.toGrid p).z))
    (hpos : 0 ≤ s.size.x ∧ 0 ≤ s.size.y ∧ 0 ≤ s.size.z) :
    (s.distanceToBoundary p).2 = false ∧ (s.distanceToBoundary p).1 < 0 := by
  constructor
  · by_contra hc
    have := (C26_flag s p).mp (by simpa using hc) d hd
    linarith
  · simp only [faceDistances, List.mem_cons, List.not_mem_nil, or_false] at hd
    unfold MSdf.distanceToBoundary
    unfold MSdf.size at hx hy hz hpos ⊢
    dsimp only at hx hy hz hpos ⊢
    obtain ⟨p1, p2, p3⟩ := hpos
    generalize (s.toGrid p).x = a at *
    generalize (s.toGrid p).y = b at *
    generalize (s.toGrid p).z = c at *
    generalize (s.grid.dims.nx : K) * s.res = A at *
    generalize (s.grid.dims.ny : K) * s.res = B at *
    generalize (s.grid.dims.nz : K) * s.res = C at *
    -- the axis of the violated face has a negative displacement of size at most `-d`
    have key : (min a (A - a) < 0 ∧ |min a (A - a)| ≤ -d) ∨ (min b (B - b) < 0 ∧ |min b (B - b)| ≤ -d)
        ∨ (min c (C - c) < 0 ∧ |min c (C - c)| ≤ -d) := by
      have ax : ∀ (v V : K), 0 ≤ V → (d = v ∨ d = V - v) → min v (V - v) < 0 ∧ |min v (V - v)| ≤ -d := by
        intro v V hV h
        rcases h with rfl | rfl
        · rw [min_eq_left (by linarith)]
          exact ⟨hneg, by rw [abs_of_neg hneg]⟩
        · rw [min_eq_right (by linarith)]
          exact ⟨hneg, by rw [abs_of_neg hneg]⟩
      rcases hd with h | h | h | h | h | h
      · exact .inl (ax a A p1 (.inl h))
      · exact .inl (ax a A p1 (.inr h))
      · exact .inr (.inl (ax b B p2 (.inl h)))
      · exact .inr (.inl (ax b B p2 (.inr h)))
      · exact .inr (.inr (ax c C p3 (.inl h)))
      · exact .inr (.inr (ax c C p3 (.inr h)))
    generalize min a (A - a) = X at *
    generalize min b (B - b) = Y at *
    generalize min c (C - c) = Z at *
    have absp : ∀ v : K, 0 ≤ v → |v| = v := fun v h => abs_of_nonneg h
    by_contra hc
    rw [not_lt] at hc
    split_ifs at hc with h1 h2 h3
    · have := hz hc
      rw [absp Z hc] at h2
      rcases key with ⟨_, k⟩ | ⟨_, k⟩ | ⟨k, _⟩ <;> linarith
    · have := hy hc
      rw [absp Y hc] at h1 h2
      rcases key with ⟨_, k⟩ | ⟨k, _⟩ | ⟨_, k⟩ <;> linarith
    · have := hz hc
      rw [absp Z hc] at h3
      rcases key with ⟨_, k⟩ | ⟨_, k⟩ | ⟨k, _⟩ <;> linarith
    · have := hx hc
      rw [absp X hc] at h1 h3
      rcases key with ⟨k, _⟩ | ⟨_, k⟩ | ⟨_, k⟩ <;> linarith

example : (-(1 / 20) : ℚ) ∈ faceDistances exSdf ⟨-(1 / 20), 1 / 3, 1 / 2⟩ ∧
    0 ≤ exSdf.size.x ∧ 0 ≤ exSdf.size.y ∧ 0 ≤ exSdf.size.z := by
  norm_num [faceDistances, exSdf, MSdf.size]

/-! ## C53: does the projection end? -/

/-- C53 as stated, for one start: with the default step multiplier some number of iterations is
enough to return or throw. -/
def C53Statement [FloorRing K] (norm : V3 K → K) (normalized : V3 K → V3 K) (s : MSdf K) : Prop :=
  ∀ p minDist, ∃ fuel, s.projectOut norm normalized p minDist (1 / 8) fuel ≠ .running

/-- The field of a 4x1x1 corridor: filled, free, free, filled, cell size 1. -/
def corridor : MSdf ℚ where
  grid := ⟨⟨4, 1, 1⟩, [-1, 1, 1, -1], 0, 9⟩
  res := 1
  origin := ⟨⟨1, 0, 0⟩, ⟨0, 1, 0⟩, ⟨0, 0, 1⟩, ⟨0, 0, 0⟩⟩
  inv := ⟨⟨1, 0, 0⟩, ⟨0, 1, 0⟩, ⟨0, 0, 1⟩, ⟨0, 0, 0⟩⟩

section
variable (norm : V3 ℚ → ℚ) (normalized : V3 ℚ → V3 ℚ)

theorem corridor_left (h1 : norm ⟨1, 0, 0⟩ = 1) (h2 : normalized ⟨1, 0, 0⟩ = ⟨1, 0, 0⟩) (fuel : Nat) :
    corridor.projectOutLoop norm normalized 2 (1 / 8) (fuel + 1) ⟨31 / 16, 1 / 2, 1 / 2⟩ =
      corridor.projectOutLoop norm normalized 2 (1 / 8) fuel ⟨33 / 16, 1 / 2, 1 / 2⟩ := by
  have e1 : corridor.cellOf ⟨31 / 16, 1 / 2, 1 / 2⟩ = ⟨1, 0, 0⟩ := by decide +kernel
  have e2 : corridor.estGrid id id ⟨31 / 16, 1 / 2, 1 / 2⟩ ⟨1, 0, 0⟩ = some (1 / 2) := by
    decide +kernel
  have e3 : corridor.gridGrad ⟨1, 0, 0⟩ true = [1, 0, 0] := by decide +kernel
  have e4 : corridor.res = 1 := rfl
  conv_lhs => unfold MSdf.projectOutLoop
  simp only [e1, e2, e3, e4, h1, h2]
  norm_num [V3.add, V3.smul]

theorem corridor_right (h1 : norm ⟨-1, 0, 0⟩ = 1) (h2 : normalized ⟨-1, 0, 0⟩ = ⟨-1, 0, 0⟩)
    (fuel : Nat) :
    corridor.projectOutLoop norm normalized 2 (1 / 8) (fuel + 1) ⟨33 / 16, 1 / 2, 1 / 2⟩ =
      corridor.projectOutLoop norm normalized 2 (1 / 8) fuel ⟨31 / 16, 1 / 2, 1 / 2⟩ := by
  have e1 : corridor.cellOf ⟨33 / 16, 1 / 2, 1 / 2⟩ = ⟨2, 0, 0⟩ := by decide +kernel
  have e2 : corridor.estGrid id id ⟨33 / 16, 1 / 2, 1 / 2⟩ ⟨2, 0, 0⟩ = some (1 / 2) := by
    decide +kernel
  have e3 : corridor.gridGrad ⟨2, 0, 0⟩ true = [-1, 0, 0] := by decide +kernel
  have e4 : corridor.res = 1 := rfl
  conv_lhs => unfold MSdf.projectOutLoop
  simp only [e1, e2, e3, e4, h1, h2]
  norm_num [V3.add, V3.smul]

/-- C53 is violated: between two filled cells whose gap is narrower than the requested distance the
point is stepped back and forth for ever (any Euclidean norm and normalisation). -/
theorem C53_false (h1 : norm ⟨1, 0, 0⟩ = 1) (h2 : normalized ⟨1, 0, 0⟩ = ⟨1, 0, 0⟩)
    (h3 : norm ⟨-1, 0, 0⟩ = 1) (h4 : normalized ⟨-1, 0, 0⟩ = ⟨-1, 0, 0⟩) :
    ¬ C53Statement norm normalized corridor := by
  have zl : corridor.projectOutLoop norm normalized 2 (1 / 8) 0 ⟨31 / 16, 1 / 2, 1 / 2⟩ = .running := by
    have e1 : corridor.cellOf ⟨31 / 16, 1 / 2, 1 / 2⟩ = ⟨1, 0, 0⟩ := by decide +kernel
    have e2 : corridor.estGrid id id ⟨31 / 16, 1 / 2, 1 / 2⟩ ⟨1, 0, 0⟩ = some (1 / 2) := by
      decide +kernel
    unfold MSdf.projectOutLoop
    simp only [e1, e2]
    norm_num
  have zr : corridor.projectOutLoop norm normalized 2 (1 / 8) 0 ⟨33 / 16, 1 / 2, 1 / 2⟩ = .running := by
    have e1 : corridor.cellOf ⟨33 / 16, 1 / 2, 1 / 2⟩ = ⟨2, 0, 0⟩ := by decide +kernel
    have e2 : corridor.estGrid id id ⟨33 / 16, 1 / 2, 1 / 2⟩ ⟨2, 0, 0⟩ = some (1 / 2) := by
      decide +kernel
    unfold MSdf.projectOutLoop
    simp only [e1, e2]
    norm_num
  have both : ∀ fuel,
      corridor.projectOutLoop norm normalized 2 (1 / 8) fuel ⟨31 / 16, 1 / 2, 1 / 2⟩ = .running ∧
      corridor.projectOutLoop norm normalized 2 (1 / 8) fuel ⟨33 / 16, 1 / 2, 1 / 2⟩ = .running := by
    intro fuel
    induction fuel with
    | zero => exact ⟨zl, zr⟩
    | succ n ih =>
      rw [corridor_left norm normalized h1 h2, corridor_right norm normalized h3 h4]
      exact ⟨ih.2, ih.1⟩
  intro h
  obtain ⟨fuel, hf⟩ := h ⟨31 / 16, 1 / 2, 1 / 2⟩ 2
  apply hf
  unfold MSdf.projectOut
  have hb : corridor.locInB ⟨31 / 16, 1 / 2, 1 / 2⟩ = true := by decide +kernel
  have hg : corridor.toGrid ⟨31 / 16, 1 / 2, 1 / 2⟩ = ⟨31 / 16, 1 / 2, 1 / 2⟩ := by decide +kernel
  simp only [hb, if_true, hg, (both fuel).1]

end

example : ∃ (norm : V3 ℚ → ℚ) (normalized : V3 ℚ → V3 ℚ), norm ⟨1, 0, 0⟩ = 1 ∧
    normalized ⟨1, 0, 0⟩ = ⟨1, 0, 0⟩ ∧ norm ⟨-1, 0, 0⟩ = 1 ∧ normalized ⟨-1, 0, 0⟩ = ⟨-1, 0, 0⟩ :=
  ⟨fun v => |v.x|, fun v => v, by norm_num, rfl, by norm_num, rfl⟩

/-- One iteration of the loop from a point in collision: the next point, if the gradient allows. -/
def projectStep [FloorRing K] (norm : V3 K → K) (normalized : V3 K → V3 K) (s : MSdf K)
    (minDist mult dist : K) (p : V3 K) : Option (V3 K) :=
  match s.gridGrad (s.cellOf p) true with
  | [gx, gy, gz] =>
    if norm ⟨gx, gy, gz⟩ > s.res * (1 / 4) then
      some (p.add ((normalized ⟨gx, gy, gz⟩).smul
        (min (s.res * mult) (minDist + s.res * mult * (1 / 10000) - dist))))
    else none
  | _ => none

/-- C53 (part).  If every iteration raises the estimate by at least a fixed amount, the call ends,
after at most as many iterations as that amount fits into the missing distance.  Missing: fields
with local maxima below the requested distance, where it need not end (`C53_false`). -/
theorem C53_progress_partial [FloorRing K] (norm : V3 K → K) (normalized : V3 K → V3 K)
    (s : MSdf K) (minDist mult δ : K) (hδ : 0 < δ)
    (hprog : ∀ p q d e, s.estGrid id id p (s.cellOf p) = some d → d ≤ minDist →
      projectStep norm normalized s minDist mult d p = some q →
      s.estGrid id id q (s.cellOf q) = some e → d + δ ≤ e) :
    ∀ (n : Nat) (p : V3 K) (d : K), s.estGrid id id p (s.cellOf p) = some d → minDist < d + n * δ →
      s.projectOutLoop norm normalized minDist mult n p ≠ .running := by
  intro n
  induction n with
  | zero =>
    intro p d hd hlt
    unfold MSdf.projectOutLoop
    simp only [hd]
    have : ¬ d ≤ minDist := by push_cast at hlt; linarith
    simp [this]
  | succ n ih =>
    intro p d hd hlt
    unfold MSdf.projectOutLoop
    simp only [hd]
    by_cases hle : d ≤ minDist
    · simp only [hle, if_true]
      split
      · rename_i gx gy gz hg
        split
        · rename_i hn
          have hstep : projectStep norm normalized s minDist mult d p = some (p.add
              ((normalized ⟨gx, gy, gz⟩).smul
                (min (s.res * mult) (minDist + s.res * mult * (1 / 10000) - d)))) := by
            unfold projectStep
            rw [hg]
            simp only [hn, if_true]
          rcases he : s.estGrid id id (p.add ((normalized ⟨gx, gy, gz⟩).smul
                (min (s.res * mult) (minDist + s.res * mult * (1 / 10000) - d))))
              (s.cellOf (p.add ((normalized ⟨gx, gy, gz⟩).smul
                (min (s.res * mult) (minDist + s.res * mult * (1 / 10000) - d))))) with _ | e
          · unfold MSdf.projectOutLoop
            simp only [he]
            exact fun h => by cases h
          · have hp := hprog _ _ _ _ hd hle hstep he
            exact ih _ e he (by push_cast at hlt; linarith)
        · simp
      · simp
    · simp [hle]

/-- A ramp: 2x1x1 cells with values 1 and 2; the estimate at `(x, y, z)` is `x`. -/
def ramp : MSdf ℚ where
  grid := ⟨⟨2, 1, 1⟩, [1, 2], 0, 9⟩
  res := 1
  origin := corridor.origin
  inv := corridor.inv

theorem ramp_est (p : V3 ℚ) (d : ℚ) (h : ramp.estGrid id id p (ramp.cellOf p) = some d) :
    d = p.x := by
  have hb := estGrid_some_inB h
  rw [estGrid_eq ramp (by norm_num [ramp]) p hb] at h
  have hl1 : ∀ t : ℚ, lowerCell 2 t = 0 := by intro t; unfold lowerCell; omega
  have hu1 : ∀ t : ℚ, upperCell 2 t = 1 := by intro t; unfold upperCell; rw [hl1]; rfl
  have hl2 : ∀ t : ℚ, lowerCell 1 t = 0 := by intro t; unfold lowerCell; omega
  have hu2 : ∀ t : ℚ, upperCell 1 t = 0 := by intro t; unfold upperCell; rw [hl2]; rfl
  have g0 : ramp.grid.get ⟨0, 0, 0⟩ = 1 := by decide +kernel
  have g1 : ramp.grid.get ⟨1, 0, 0⟩ = 2 := by decide +kernel
  have d1 : ramp.grid.dims.nx = 2 := rfl
  have d2 : ramp.grid.dims.ny = 1 := rfl
  have d3 : ramp.grid.dims.nz = 1 := rfl
  have d4 : ramp.res = 1 := rfl
  simp only [trilerp, cornerWeight, cornerVal, pick, lerp, d1, d2, d3, d4, hl1, hu1, hl2, hu2,
    if_true, Bool.false_eq_true, if_false, g0, g1, halfCellCloser, Option.some.injEq] at h
  norm_num at h
  rw [← h]; ring

/-- `C53_progress_partial` applies to the ramp with the default step multiplier. -/
example (n : Nat) (hn : (1 : ℚ) < 1 / 2 + n * (1 / 80000)) :
    ramp.projectOutLoop (fun v => |v.x|) (fun v => v) 1 (1 / 8) n ⟨1 / 2, 1 / 2, 1 / 2⟩ ≠ .running := by
  refine C53_progress_partial (fun v => |v.x|) (fun v => v) ramp 1 (1 / 8) (1 / 80000) (by norm_num)
    ?_ n _ (1 / 2) (by decide +kernel) hn
  intro p q d e hd hle hstep he
  have hb := estGrid_some_inB hd
  rw [ramp_est q e he]
  have hg : ∀ i ∈ ramp.grid.dims.all, ramp.gridGrad i true = [1, 0, 0] := by decide +kernel
  have hgp := hg _ (Dims.mem_all.mpr (inB_iff_spec.mpr hb))
  unfold projectStep at hstep
  rw [hgp] at hstep
  have d4 : ramp.res = 1 := rfl
  simp only [d4, V3.add, V3.smul] at hstep
  norm_num at hstep
  rw [← hstep, ← ramp_est p d hd]
  dsimp only
  have : (1 : ℚ) / 80000 ≤ min (1 / 8) (80001 / 80000 - d) := by
    apply le_min
    · norm_num
    · linarith
  linarith

end Verif
