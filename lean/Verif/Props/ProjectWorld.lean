import Verif.Props.BoundaryWorld

/-!
# C107: projection into the volume agrees with the boundary distance, and leaves locations inside alone
-/

namespace Verif

open Spec SdfGen DField

namespace FSdf

open Fl SignedDist

/-- C107, locations inside are kept: when the grid-frame coordinates are at least the requested distance and half a
thousandth of a cell from every face, the projection returns the location it was given. -/
theorem C107_kept {clamp : FVal → FVal → FVal → FVal} (hc : ClampOk clamp) {toGrid toWorld : V3 FVal → V3 FVal}
    {size : V3 ℝ} {res d : ℝ} (hlo : 1 / 2 ^ 100 ≤ res) (hhi : res ≤ 2 ^ 100) (h0 : 0 ≤ d)
    (hsize : size.x ≤ 2 ^ 21 * res ∧ size.y ≤ 2 ^ 21 * res ∧ size.z ≤ 2 ^ 21 * res) {p : V3 FVal} {q : V3 ℝ}
    (hq : toGrid p = loc q) (hin : ∀ f ∈ faces size q, d + res / 2000 ≤ f) :
    projectInto ieee clamp toGrid toWorld size res p (real d) = p := by
  have r0 : 0 < res := lt_of_lt_of_le (by positivity) hlo
  obtain ⟨sx, sy, sz⟩ := hsize
  simp only [faces, List.mem_cons, List.not_mem_nil, or_false, forall_eq_or_imp, forall_eq] at hin
  obtain ⟨a1, a2, b1, b2, c1, c2⟩ := hin
  obtain ⟨m, em, hm⟩ := inset_near (d := d) hlo hhi h0 (by linarith)
  obtain ⟨kx, ekx, hkx, lx⟩ := limit_near hlo hhi h0 sx (by linarith) hm
  obtain ⟨ky, eky, hky, ly⟩ := limit_near hlo hhi h0 sy (by linarith) hm
  obtain ⟨kz, ekz, hkz, lz⟩ := limit_near hlo hhi h0 sz (by linarith) hm
  rw [abs_le] at hm hkx hky hkz
  norm_num at hm hkx hky hkz
  have cl : ∀ {x k : ℝ}, m ≤ k → m ≤ x → x ≤ k → clamp (real x) (real m) (real k) = real x := by
    intro x k h1 h2 h3
    unfold real
    rw [hc _ _ _ (EReal.coe_le_coe_iff.mpr h1), min_eq_left (EReal.coe_le_coe_iff.mpr h3),
      max_eq_right (EReal.coe_le_coe_iff.mpr h2)]
  unfold projectInto
  simp only [hq, em, loc, ekx, eky, ekz]
  rw [cl lx (by linarith) (by linarith), cl ly (by linarith) (by linarith), cl lz (by linarith) (by linarith)]
  simp [fne, real]

/-- C107 in the world, locations inside are kept: a location at least the requested distance and a thousandth of a cell
from every face is returned unchanged. -/
theorem C107_kept_world {clamp : FVal → FVal → FVal → FVal} (hc : ClampOk clamp) {size : V3 ℝ} {res d : ℝ}
    (hlo : 1 / 2 ^ 100 ≤ res) (hhi : res ≤ 2 ^ 60) (h0 : 0 ≤ d)
    (hsize : size.x ≤ 2 ^ 21 * res ∧ size.y ≤ 2 ^ 21 * res ∧ size.z ≤ 2 ^ 21 * res) {A B : Aff ℝ} (hA : NearRotation A)
    (hB : isoInverse ieee A = (B.rx, B.ry, B.rz, loc B.t)) (hT : OriginWithin A (2 ^ 29 * res)) {c : V3 ℝ}
    (hin : ∀ f ∈ faces size c, d + res / 1000 ≤ f) :
    projectInto ieee clamp (affApp ieee B) (affApp ieee A) size res (loc (A.app id c)) (real d) = loc (A.app id c) := by
  have r0 : 0 < res := lt_of_lt_of_le (by norm_num) hlo
  simp only [faces, List.mem_cons, List.not_mem_nil, or_false, forall_eq_or_imp, forall_eq] at hin
  obtain ⟨a1, a2, b1, b2, c1, c2⟩ := hin
  obtain ⟨sx, sy, sz⟩ := hsize
  norm_num at sx sy sz
  obtain ⟨q, eq, w1, w2, w3⟩ := grid_location hlo hhi hA hB (M := 2 ^ 29) (by norm_num) le_rfl hT (c := c)
    ⟨by rw [abs_le]; constructor <;> linarith, by rw [abs_le]; constructor <;> linarith,
      by rw [abs_le]; constructor <;> linarith⟩
  rw [abs_le] at w1 w2 w3
  norm_num at w1 w2 w3
  refine C107_kept hc hlo (hhi.trans (by norm_num)) h0 (by norm_num; exact ⟨sx, sy, sz⟩) eq ?_
  simp only [faces, List.mem_cons, List.not_mem_nil, or_false, forall_eq_or_imp, forall_eq]
  refine ⟨?_, ?_, ?_, ?_, ?_, ?_⟩ <;> linarith

/-- C107 and C108 agree: for a map in any pose, `DistanceToBoundary` reports the projected location to be inside, at no less
than the requested distance. -/
theorem C107_reported {clamp : FVal → FVal → FVal → FVal} (hclamp : ClampOk clamp) {A B : Aff ℝ} (hA : NearRotation A)
    (hB : isoInverse ieee A = (B.rx, B.ry, B.rz, loc B.t)) {size : V3 ℝ} {res d : ℝ} (hlo : 1 / 2 ^ 100 ≤ res)
    (hhi : res ≤ 2 ^ 100) (h0 : 0 ≤ d) (hd : ieee.r64 (d : EReal) = (d : EReal))
    (hsize : size.x ≤ 2 ^ 21 * res ∧ size.y ≤ 2 ^ 21 * res ∧ size.z ≤ 2 ^ 21 * res)
    (hroom : 2 * d + res / 1000 ≤ size.x ∧ 2 * d + res / 1000 ≤ size.y ∧ 2 * d + res / 1000 ≤ size.z)
    (hT : OriginWithin A (2 ^ 26 * res)) {p : V3 ℝ} (hp : Reach B p (2 ^ 200)) :
    ∃ y : EReal, distanceToBoundary ieee (affApp ieee B) size
        (projectInto ieee clamp (affApp ieee B) (affApp ieee A) size res (loc p) (real d)) = (some y, true) ∧
      (d : EReal) ≤ y := by
  have hT' : OriginWithin A (2 ^ 190) := by
    have : 2 ^ 26 * res ≤ 2 ^ 190 := by
      calc 2 ^ 26 * res ≤ 2 ^ 26 * 2 ^ 100 := by gcongr
        _ ≤ 2 ^ 190 := by norm_num
    exact ⟨hT.1.trans this, hT.2.1.trans this, hT.2.2.trans this⟩
  obtain ⟨B', eB, hAB⟩ := C112_inverse hA hT'
  obtain rfl : B' = B := by
    rw [eB] at hB
    obtain ⟨x, y, z, t⟩ := B
    obtain ⟨x', y', z', t'⟩ := B'
    simp only [Prod.mk.injEq] at hB
    obtain ⟨rfl, rfl, rfl, e⟩ := hB
    rw [loc_inj e]
  obtain ⟨q, eq, hf⟩ := C112_projection hclamp hAB hlo hhi h0 hsize hroom hT (C112_product B') (C112_product A) hp
  obtain ⟨d1, d2, d3⟩ := affApp_double B' (projectInto ieee clamp (affApp ieee B') (affApp ieee A) size res (loc p) (real d))
  rw [eq] at d1 d2 d3
  obtain ⟨f, hfm, -, hdist⟩ := C108_inside ieee (toGrid := affApp ieee B') (size := size) (q := q) eq (d1 _ rfl) (d2 _ rfl)
    (d3 _ rfl) (fun f h => h0.trans (hf f h).le)
  refine ⟨_, hdist, ?_⟩
  have := ieee.mono64 (EReal.coe_le_coe_iff.mpr (hf f hfm).le)
  rwa [hd] at this

/-- Clamping moves a coordinate no further than to any other value within the limits. -/
theorem clamp_nearest {x m k r : ℝ} (h1 : m ≤ r) (h2 : r ≤ k) : |x - max m (min x k)| ≤ |x - r| := by
  rcases le_total x k with h | h
  · rw [min_eq_left h]
    rcases le_total m x with h' | h'
    · rw [max_eq_right h', sub_self, abs_zero]
      exact abs_nonneg _
    · rw [max_eq_left h', abs_of_nonpos (by linarith), abs_of_nonpos (by linarith)]
      linarith
  · rw [min_eq_right h, max_eq_right (h1.trans h2), abs_of_nonneg (by linarith), abs_of_nonneg (by linarith)]
    linarith

theorem dist3_mono {p a b : V3 ℝ} (hx : |p.x - a.x| ≤ |p.x - b.x|) (hy : |p.y - a.y| ≤ |p.y - b.y|)
    (hz : |p.z - a.z| ≤ |p.z - b.z|) : dist3 p a ≤ dist3 p b := by
  have h1 := sq_le_sq.mpr hx
  have h2 := sq_le_sq.mpr hy
  have h3 := sq_le_sq.mpr hz
  unfold dist3 sqDist3
  exact Real.sqrt_le_sqrt (by linarith)

/-- C107, the location returned is the nearest one: for a map in any pose, no location that is at least the requested
distance and a thousandth of a cell from every face is closer to the given location, up to a five-hundredth of a cell. -/
theorem C107_nearest_world {clamp : FVal → FVal → FVal → FVal} (hc : ClampOk clamp) {size : V3 ℝ} {res d : ℝ}
    (hlo : 1 / 2 ^ 100 ≤ res) (hhi : res ≤ 2 ^ 60) (h0 : 0 ≤ d)
    (hsize : size.x ≤ 2 ^ 21 * res ∧ size.y ≤ 2 ^ 21 * res ∧ size.z ≤ 2 ^ 21 * res)
    (hroom : 2 * d + res / 500 ≤ size.x ∧ 2 * d + res / 500 ≤ size.y ∧ 2 * d + res / 500 ≤ size.z) {A B : Aff ℝ}
    (hA : NearRotation A) (hB : isoInverse ieee A = (B.rx, B.ry, B.rz, loc B.t)) (hT : OriginWithin A (2 ^ 26 * res))
    {c : V3 ℝ} (hin : CoordsWithin (2 ^ 26 * res) c) :
    ∃ p, projectInto ieee clamp (affApp ieee B) (affApp ieee A) size res (loc (A.app id c)) (real d) = loc p ∧
      ∀ r, (∀ f ∈ faces size r, d + res / 1000 ≤ f) →
        dist3 (A.app id c) p ≤ dist3 (A.app id c) (A.app id r) + res / 500 := by
  have r0 : 0 < res := lt_of_lt_of_le (by norm_num) hlo
  have hhi' : res ≤ 2 ^ 100 := hhi.trans (by norm_num)
  obtain ⟨q, eq, hw⟩ := grid_location hlo hhi hA hB (M := 2 ^ 26) (by norm_num) (by norm_num) hT hin
  have hT' : OriginWithin A (2 ^ 190) := by
    have : 2 ^ 26 * res ≤ 2 ^ 190 := by
      calc 2 ^ 26 * res ≤ 2 ^ 26 * 2 ^ 60 := by gcongr
        _ ≤ 2 ^ 190 := by norm_num
    exact ⟨hT.1.trans this, hT.2.1.trans this, hT.2.2.trans this⟩
  obtain ⟨B', -, hAB⟩ := C112_inverse hA hT'
  obtain ⟨sA1, sA2, sA3, -⟩ := hAB.small
  obtain ⟨sx, sy, sz⟩ := hsize
  obtain ⟨ox, oy, oz⟩ := hroom
  obtain ⟨m, em, hm⟩ := inset_near (d := d) hlo hhi' h0 (by linarith)
  obtain ⟨kx, ekx, hkx, lx⟩ := limit_near hlo hhi' h0 sx (by linarith) hm
  obtain ⟨ky, eky, hky, ly⟩ := limit_near hlo hhi' h0 sy (by linarith) hm
  obtain ⟨kz, ekz, hkz, lz⟩ := limit_near hlo hhi' h0 sz (by linarith) hm
  rw [abs_le] at hm hkx hky hkz
  norm_num at hm hkx hky hkz sx sy sz
  have cl : ∀ {x k : ℝ}, m ≤ k → clamp (real x) (real m) (real k) = real (max m (min x k)) := by
    intro x k h
    unfold real
    rw [hc _ _ _ (EReal.coe_le_coe_iff.mpr h), EReal.coe_strictMono.monotone.map_max,
      EReal.coe_strictMono.monotone.map_min]
  obtain ⟨κ, eκ⟩ : ∃ κ : V3 ℝ, κ = ⟨max m (min q.x kx), max m (min q.y ky), max m (min q.z kz)⟩ := ⟨_, rfl⟩
  have range : ∀ {x k s : ℝ}, m ≤ k → k ≤ s → s ≤ 2097152 * res → |max m (min x k)| ≤ 2 ^ 21 * res := by
    intro x k s h h' h''
    have g1 : m ≤ max m (min x k) := le_max_left _ _
    have g2 : max m (min x k) ≤ k := max_le h (min_le_right _ _)
    generalize max m (min x k) = u at g1 g2
    rw [abs_le]
    constructor <;> norm_num <;> linarith
  have reach : Reach A κ (2 ^ 27 * res) := by
    refine reach_of (b := 2 ^ 21 * res) sA1 sA2 sA3 ?_ hT (by norm_num; linarith)
    rw [eκ]
    exact ⟨range lx (by linarith) sx, range ly (by linarith) sy, range lz (by linarith) sz⟩
  obtain ⟨w, ew, h1, h2, h3⟩ := grid_near (C112_product A) hlo hhi' (M := 2 ^ 27) (by norm_num) (by norm_num) reach
  have step : projectInto ieee clamp (affApp ieee B) (affApp ieee A) size res (loc (A.app id c)) (real d) =
      loc (A.app id c) ∨
    projectInto ieee clamp (affApp ieee B) (affApp ieee A) size res (loc (A.app id c)) (real d) = loc w := by
    rw [← ew, eκ]
    unfold projectInto
    simp only [eq, em]
    simp only [loc, ekx, eky, ekz, cl lx, cl ly, cl lz]
    split_ifs
    · exact Or.inr rfl
    · exact Or.inl rfl
  rcases step with e | e
  · refine ⟨_, e, fun r _ => ?_⟩
    rw [dist3_self]
    have := dist3_nonneg (A.app id c) (A.app id r)
    linarith
  · refine ⟨_, e, fun r hr => ?_⟩
    simp only [faces, List.mem_cons, List.not_mem_nil, or_false, forall_eq_or_imp, forall_eq] at hr
    obtain ⟨a1, a2, b1, b2, c1, c2⟩ := hr
    have near : dist3 q κ ≤ dist3 q r := by
      rw [eκ]
      exact dist3_mono (clamp_nearest (by linarith) (by linarith)) (clamp_nearest (by linarith) (by linarith))
        (clamp_nearest (by linarith) (by linarith))
    have cq : dist3 q c ≤ 2 * (res / 2 ^ 13) := dist3_small (by positivity) hw.1 hw.2.1 hw.2.2
    have ww : dist3 w (A.app id κ) ≤ 2 * (2 ^ 27 * res / 2 ^ 49) := dist3_small (by positivity) h1 h2 h3
    have far : dist3 c r ≤ 2 * (2 ^ 27 * res) := by
      obtain ⟨i1, i2, i3⟩ := hin
      rw [abs_le] at i1 i2 i3
      norm_num at i1 i2 i3
      refine dist3_small (by positivity) ?_ ?_ ?_ <;> rw [abs_le] <;> constructor <;> norm_num <;> linarith
    have t1 := dist3_tri (A.app id c) (A.app id κ) w
    have t2 := dist3_tri c q κ
    have t3 := dist3_tri q c r
    have i1 := (near_isometry hA c κ).1
    have i2 := (near_isometry hA c r).2
    rw [dist3_comm (A.app id κ) w] at t1
    rw [dist3_comm c q] at t2
    have big : dist3 (A.app id c) (A.app id r) ≤ 2 * dist3 c r := by
      refine (near_isometry hA c r).1.trans ?_
      have := dist3_nonneg c r
      norm_num
      linarith
    norm_num at cq ww far i1 i2
    linarith

/-- The location clamped to the limits `m` and `k`. -/
def clampTo (m : ℝ) (k q : V3 ℝ) : V3 ℝ := ⟨max m (min q.x k.x), max m (min q.y k.y), max m (min q.z k.z)⟩

theorem clampTo_range {m : ℝ} {k q size : V3 ℝ} (m0 : 0 ≤ m) (h : m ≤ k.x ∧ m ≤ k.y ∧ m ≤ k.z)
    (h' : k.x ≤ size.x ∧ k.y ≤ size.y ∧ k.z ≤ size.z) {b : ℝ} (hs : size.x ≤ b ∧ size.y ≤ b ∧ size.z ≤ b) :
    |(clampTo m k q).x| ≤ b ∧ |(clampTo m k q).y| ≤ b ∧ |(clampTo m k q).z| ≤ b := by
  have range : ∀ {x l s : ℝ}, m ≤ l → l ≤ s → s ≤ b → |max m (min x l)| ≤ b := by
    intro x l s h h' h''
    have g1 : m ≤ max m (min x l) := le_max_left _ _
    have g2 : max m (min x l) ≤ l := max_le h (min_le_right _ _)
    rw [abs_le]
    constructor <;> linarith
  exact ⟨range h.1 h'.1 hs.1, range h.2.1 h'.2.1 hs.2.1, range h.2.2 h'.2.2 hs.2.2⟩

/-- Clamping moves a location no further from a clamped one. -/
theorem clampTo_near {m : ℝ} {k a q : V3 ℝ} (h : m ≤ k.x ∧ m ≤ k.y ∧ m ≤ k.z) {δ : ℝ} (hw : Within δ a (clampTo m k q)) :
    Within (2 * δ) (clampTo m k a) (clampTo m k q) := by
  obtain ⟨h1, h2, h3⟩ := hw
  have near : ∀ {x y l : ℝ}, m ≤ l → |x - max m (min y l)| ≤ δ → |max m (min x l) - max m (min y l)| ≤ 2 * δ := by
    intro x y l h hd
    have g1 : m ≤ max m (min y l) := le_max_left _ _
    have g2 : max m (min y l) ≤ l := max_le h (min_le_right _ _)
    have c := (clamp_nearest (x := x) g1 g2).trans hd
    generalize max m (min x l) = u at c ⊢
    generalize max m (min y l) = v at hd c ⊢
    rw [abs_le] at c hd ⊢
    constructor <;> linarith
  exact ⟨near h.1 h1, near h.2.1 h2, near h.2.2 h3⟩

/-- The projection keeps the location or clamps it in the grid frame, with the same limits for all locations. -/
theorem project_cases {clamp : FVal → FVal → FVal → FVal} (hc : ClampOk clamp) {size : V3 ℝ} {res d : ℝ}
    (hlo : 1 / 2 ^ 100 ≤ res) (hhi : res ≤ 2 ^ 100) (h0 : 0 ≤ d)
    (hsize : size.x ≤ 2 ^ 21 * res ∧ size.y ≤ 2 ^ 21 * res ∧ size.z ≤ 2 ^ 21 * res)
    (hroom : 2 * d + res / 1000 ≤ size.x ∧ 2 * d + res / 1000 ≤ size.y ∧ 2 * d + res / 1000 ≤ size.z) :
    ∃ (m : ℝ) (k : V3 ℝ), 0 ≤ m ∧ (m ≤ k.x ∧ m ≤ k.y ∧ m ≤ k.z) ∧ (k.x ≤ size.x ∧ k.y ≤ size.y ∧ k.z ≤ size.z) ∧
      ∀ (toGrid toWorld : V3 FVal → V3 FVal) (p : V3 FVal) (q : V3 ℝ), toGrid p = loc q →
        projectInto ieee clamp toGrid toWorld size res p (real d) = p ∨
          projectInto ieee clamp toGrid toWorld size res p (real d) = toWorld (loc (clampTo m k q)) := by
  have r0 : 0 < res := lt_of_lt_of_le (by norm_num) hlo
  obtain ⟨sx, sy, sz⟩ := hsize
  obtain ⟨ox, oy, oz⟩ := hroom
  obtain ⟨m, em, hm⟩ := inset_near (d := d) hlo hhi h0 (by linarith)
  obtain ⟨kx, ekx, hkx, lx⟩ := limit_near hlo hhi h0 sx ox hm
  obtain ⟨ky, eky, hky, ly⟩ := limit_near hlo hhi h0 sy oy hm
  obtain ⟨kz, ekz, hkz, lz⟩ := limit_near hlo hhi h0 sz oz hm
  rw [abs_le] at hm hkx hky hkz
  norm_num at hm hkx hky hkz
  have cl : ∀ {x k : ℝ}, m ≤ k → clamp (real x) (real m) (real k) = real (max m (min x k)) := by
    intro x k h
    unfold real
    rw [hc _ _ _ (EReal.coe_le_coe_iff.mpr h), EReal.coe_strictMono.monotone.map_max,
      EReal.coe_strictMono.monotone.map_min]
  refine ⟨m, ⟨kx, ky, kz⟩, by linarith, ⟨lx, ly, lz⟩, ⟨?_, ?_, ?_⟩, ?_⟩
  · show kx ≤ size.x
    linarith
  · show ky ≤ size.y
    linarith
  · show kz ≤ size.z
    linarith
  · intro toGrid toWorld p q eq
    unfold projectInto
    simp only [eq, em]
    simp only [loc, ekx, eky, ekz, cl lx, cl ly, cl lz, clampTo]
    split_ifs
    · exact Or.inr rfl
    · exact Or.inl rfl

/-- C107, projecting again: for a map in any pose, projecting a location that was already projected moves it by at most a
thousandth of a cell. -/
theorem C107_again_world {clamp : FVal → FVal → FVal → FVal} (hc : ClampOk clamp) {A B : Aff ℝ} (hA : NearRotation A)
    (hB : isoInverse ieee A = (B.rx, B.ry, B.rz, loc B.t)) {size : V3 ℝ} {res d : ℝ} (hlo : 1 / 2 ^ 100 ≤ res)
    (hhi : res ≤ 2 ^ 100) (h0 : 0 ≤ d)
    (hsize : size.x ≤ 2 ^ 21 * res ∧ size.y ≤ 2 ^ 21 * res ∧ size.z ≤ 2 ^ 21 * res)
    (hroom : 2 * d + res / 1000 ≤ size.x ∧ 2 * d + res / 1000 ≤ size.y ∧ 2 * d + res / 1000 ≤ size.z)
    (hT : OriginWithin A (2 ^ 26 * res)) {p : V3 ℝ} (hp : Reach B p (2 ^ 200)) :
    ∃ p₁ p₂, projectInto ieee clamp (affApp ieee B) (affApp ieee A) size res (loc p) (real d) = loc p₁ ∧
      projectInto ieee clamp (affApp ieee B) (affApp ieee A) size res (loc p₁) (real d) = loc p₂ ∧
      dist3 p₁ p₂ ≤ res / 1000 := by
  have r0 : 0 < res := lt_of_lt_of_le (by norm_num) hlo
  have hT' : OriginWithin A (2 ^ 190) := by
    have : 2 ^ 26 * res ≤ 2 ^ 190 := by
      calc 2 ^ 26 * res ≤ 2 ^ 26 * 2 ^ 100 := by gcongr
        _ ≤ 2 ^ 190 := by norm_num
    exact ⟨hT.1.trans this, hT.2.1.trans this, hT.2.2.trans this⟩
  obtain ⟨B', eB, hAB⟩ := C112_inverse hA hT'
  obtain rfl : B' = B := by
    rw [eB] at hB
    obtain ⟨x, y, z, t⟩ := B
    obtain ⟨x', y', z', t'⟩ := B'
    simp only [Prod.mk.injEq] at hB
    obtain ⟨rfl, rfl, rfl, e⟩ := hB
    rw [loc_inj e]
  obtain ⟨sA1, sA2, sA3, -⟩ := hAB.small
  obtain ⟨q, eq, -⟩ := C112_product B' p _ hp le_rfl
  obtain ⟨m, k, m0, hk, hk', cases⟩ := project_cases hc hlo hhi h0 hsize hroom
  have same : 0 ≤ res / 1000 := by positivity
  rcases cases (affApp ieee B') (affApp ieee A) _ _ eq with e | e
  · exact ⟨p, p, e, e, by rw [dist3_self]; exact same⟩
  · have world : ∀ a, ∃ w, affApp ieee A (loc (clampTo m k a)) = loc w ∧
        Within (2 ^ 27 * res / 2 ^ 49) w (A.app id (clampTo m k a)) := fun a =>
      grid_near (C112_product A) hlo hhi (M := 2 ^ 27) (by norm_num) (by norm_num)
        (reach_of (b := 2 ^ 21 * res) sA1 sA2 sA3 (clampTo_range m0 hk hk' hsize) hT (by norm_num; linarith))
    obtain ⟨x1, x2, x3⟩ := clampTo_range (q := q) m0 hk hk' hsize
    have up : 2 ^ 21 * res ≤ 2 ^ 26 * res := by gcongr <;> norm_num
    obtain ⟨p₁, q', e₁, eq', -, hw⟩ := C112_trip hAB hlo hhi (M := 2 ^ 26) (by norm_num) (by norm_num) hT (C112_product B')
      (C112_product A) ⟨x1.trans up, x2.trans up, x3.trans up⟩
    rcases cases (affApp ieee B') (affApp ieee A) _ _ eq' with e' | e'
    · exact ⟨p₁, p₁, by rw [e, e₁], e', by rw [dist3_self]; exact same⟩
    · obtain ⟨w, ew, u1, u2, u3⟩ := world q
      obtain rfl : p₁ = w := loc_inj (e₁.symm.trans ew)
      obtain ⟨p₂, e₂, v1, v2, v3⟩ := world q'
      refine ⟨p₁, p₂, by rw [e, e₁], by rw [e', e₂], ?_⟩
      obtain ⟨n1, n2, n3⟩ := clampTo_near hk hw
      have d0 := dist3_small (by positivity) n1 n2 n3
      have d1 := dist3_small (by positivity) u1 u2 u3
      have d2 := dist3_small (by positivity) v1 v2 v3
      have i := (near_isometry hA (clampTo m k q') (clampTo m k q)).1
      have t1 := dist3_tri p₁ (A.app id (clampTo m k q)) p₂
      have t2 := dist3_tri (A.app id (clampTo m k q)) (A.app id (clampTo m k q')) p₂
      rw [dist3_comm (A.app id (clampTo m k q')) p₂] at t2
      rw [dist3_comm (A.app id (clampTo m k q')) (A.app id (clampTo m k q))] at i
      norm_num at d0 d1 d2 i
      linarith

/-- A turned and shifted volume of 5 x 4 x 3 with cells of size 1/4 and a requested distance of 1/2: the location at
(2, 1, 1.5) is returned unchanged; a location far outside is moved to one that `DistanceToBoundary` reports to be inside, at
1/2 or more, and not much further away than the nearest location with coordinates (4.49, 1, 0.51). -/
example : ∃ (B : Aff ℝ), isoInverse ieee exPose = (B.rx, B.ry, B.rz, loc B.t) ∧
    ∀ clamp, ClampOk clamp →
      projectInto ieee clamp (affApp ieee B) (affApp ieee exPose) ⟨5, 4, 3⟩ (1 / 4) (loc (exPose.app id ⟨2, 1, 3 / 2⟩))
        (real (1 / 2)) = loc (exPose.app id ⟨2, 1, 3 / 2⟩) ∧
      ∃ y : EReal, distanceToBoundary ieee (affApp ieee B) ⟨5, 4, 3⟩
        (projectInto ieee clamp (affApp ieee B) (affApp ieee exPose) ⟨5, 4, 3⟩ (1 / 4) (loc (exPose.app id ⟨100, 1, -7⟩))
          (real (1 / 2))) = (some y, true) ∧ (((1 / 2 : ℝ) : ℝ) : EReal) ≤ y ∧
      ∃ p, projectInto ieee clamp (affApp ieee B) (affApp ieee exPose) ⟨5, 4, 3⟩ (1 / 4) (loc (exPose.app id ⟨100, 1, -7⟩))
          (real (1 / 2)) = loc p ∧
        dist3 (exPose.app id ⟨100, 1, -7⟩) p ≤
          dist3 (exPose.app id ⟨100, 1, -7⟩) (exPose.app id ⟨4.49, 1, 0.51⟩) + 1 / 2000 := by
  have big : OriginWithin exPose (2 ^ 190) :=
    ⟨exPose_origin.1.trans (by norm_num), exPose_origin.2.1.trans (by norm_num), exPose_origin.2.2.trans (by norm_num)⟩
  obtain ⟨B, hB, hAB⟩ := C112_inverse exPose_rotation big
  have half : ieee.r64 (((1 / 2 : ℝ) : ℝ) : EReal) = ((1 / 2 : ℝ) : EReal) := by
    have h := Ieee.round_exact (F := Ieee.binary64) (n := 1) (e := -1) (by decide) (by decide)
      (by rw [Nat.cast_one, one_mul]; exact zpow_lt_zpow_right₀ (by norm_num) (by decide))
    rw [Nat.cast_one, one_mul] at h
    have e : (2 : ℝ) ^ (-1 : ℤ) = 1 / 2 := by norm_num
    rw [e] at h
    exact h
  refine ⟨B, hB, fun clamp hc => ⟨?_, ?_⟩⟩
  · refine C107_kept_world hc (by norm_num) (by norm_num) (by norm_num) (by norm_num) exPose_rotation hB ?_ ?_
    · exact ⟨exPose_origin.1.trans (by norm_num), exPose_origin.2.1.trans (by norm_num),
        exPose_origin.2.2.trans (by norm_num)⟩
    · simp only [faces, List.mem_cons, List.not_mem_nil, or_false, forall_eq_or_imp, forall_eq]
      norm_num
  · obtain ⟨p, -, ep, -, reach, -⟩ := C112_trip hAB (res := 1 / 4) (M := 2 ^ 26) (by norm_num) (by norm_num) (by norm_num)
      (by norm_num) exPose_origin (exactApp_accurate B) (exactApp_accurate exPose) (c := ⟨100, 1, -7⟩)
      (by norm_num [abs_le])
    rw [exactApp_loc] at ep
    rw [ep]
    obtain ⟨y, hy, hd⟩ := C107_reported hc (size := ⟨5, 4, 3⟩) (res := 1 / 4) (d := 1 / 2) exPose_rotation hB
      (by norm_num) (by norm_num) (by norm_num) half (by norm_num) (by norm_num)
      exPose_origin ⟨reach.1.trans (by norm_num), reach.2.1.trans (by norm_num), reach.2.2.trans (by norm_num)⟩
    refine ⟨y, hy, hd, ?_⟩
    rw [← ep]
    obtain ⟨p', e', hn⟩ := C107_nearest_world hc (size := ⟨5, 4, 3⟩) (res := 1 / 4) (d := 1 / 2) (by norm_num) (by norm_num)
      (by norm_num) (by norm_num) (by norm_num) exPose_rotation hB exPose_origin (c := ⟨100, 1, -7⟩)
      (by norm_num [CoordsWithin, abs_le])
    refine ⟨p', e', (hn ⟨4.49, 1, 0.51⟩ ?_).trans (by norm_num)⟩
    simp only [faces, List.mem_cons, List.not_mem_nil, or_false, forall_eq_or_imp, forall_eq]
    norm_num

/-- The location far outside again: projecting it twice moves it by at most a 4000th the second time. -/
example : ∃ (B : Aff ℝ), isoInverse ieee exPose = (B.rx, B.ry, B.rz, loc B.t) ∧ ∀ clamp, ClampOk clamp →
    ∃ p₁ p₂, projectInto ieee clamp (affApp ieee B) (affApp ieee exPose) ⟨5, 4, 3⟩ (1 / 4)
        (loc (exPose.app id ⟨100, 1, -7⟩)) (real (1 / 2)) = loc p₁ ∧
      projectInto ieee clamp (affApp ieee B) (affApp ieee exPose) ⟨5, 4, 3⟩ (1 / 4) (loc p₁) (real (1 / 2)) = loc p₂ ∧
      dist3 p₁ p₂ ≤ 1 / 4 / 1000 := by
  obtain ⟨B, hB, hAB⟩ := C112_inverse exPose_rotation
    ⟨exPose_origin.1.trans (by norm_num), exPose_origin.2.1.trans (by norm_num), exPose_origin.2.2.trans (by norm_num)⟩
  obtain ⟨p, -, ep, -, reach, -⟩ := C112_trip hAB (res := 1 / 4) (M := 2 ^ 26) (by norm_num) (by norm_num) (by norm_num)
    (by norm_num) exPose_origin (exactApp_accurate B) (exactApp_accurate exPose) (c := ⟨100, 1, -7⟩) (by norm_num [abs_le])
  rw [exactApp_loc] at ep
  refine ⟨B, hB, fun clamp hc => ?_⟩
  rw [ep]
  exact C107_again_world hc (size := ⟨5, 4, 3⟩) (res := 1 / 4) (d := 1 / 2) exPose_rotation hB (by norm_num) (by norm_num)
    (by norm_num) (by norm_num) (by norm_num) exPose_origin
    ⟨reach.1.trans (by norm_num), reach.2.1.trans (by norm_num), reach.2.2.trans (by norm_num)⟩

end FSdf

end Verif
