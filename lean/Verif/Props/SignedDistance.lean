import Verif.Spec.SignedDistance
import Verif.Props.FrameFloat
import Mathlib.Analysis.InnerProductSpace.PiL2

/-!
# C115: distance estimates and the true distance to the obstacles
-/

namespace Verif

open Spec SdfGen

namespace SignedDist

/-! ## Euclidean distance -/

/-- The location as a point of Euclidean space. -/
noncomputable def pt (a : V3 ℝ) : EuclideanSpace ℝ (Fin 3) := !₂[a.x, a.y, a.z]

theorem dist3_eq (a b : V3 ℝ) : dist3 a b = dist (pt a) (pt b) := by
  rw [EuclideanSpace.dist_eq, Fin.sum_univ_three]
  unfold dist3 sqDist3 pt
  simp [Real.dist_eq, sq_abs]

theorem dist3_comm (a b : V3 ℝ) : dist3 a b = dist3 b a := by
  rw [dist3_eq, dist3_eq, dist_comm]

theorem dist3_nonneg (a b : V3 ℝ) : 0 ≤ dist3 a b := Real.sqrt_nonneg _

theorem dist3_tri (a b c : V3 ℝ) : dist3 a c ≤ dist3 a b + dist3 b c := by
  rw [dist3_eq, dist3_eq, dist3_eq]; exact dist_triangle _ _ _

theorem dist3_self (a : V3 ℝ) : dist3 a a = 0 := by
  rw [dist3_eq, dist_self]

theorem sqDist3_nonneg (a b : V3 ℝ) : 0 ≤ sqDist3 a b := by
  unfold sqDist3; positivity

/-! ## Points of cubes -/

variable {d : Dims} {res : ℝ} {f : Idx → Bool}

/-- The centre of a cell. -/
noncomputable def centre (res : ℝ) (i : Idx) : V3 ℝ := ⟨(i.x + 1 / 2) * res, (i.y + 1 / 2) * res, (i.z + 1 / 2) * res⟩

theorem centre_inCube (hr : 0 ≤ res) (i : Idx) : InCube res i (centre res i) := by
  unfold InCube centre
  refine ⟨⟨?_, ?_⟩, ⟨?_, ?_⟩, ?_, ?_⟩ <;> dsimp only <;> nlinarith

theorem dist3_centres (hr : 0 ≤ res) (v w : Idx) : dist3 (centre res v) (centre res w) = res * Real.sqrt (sqDist v w) := by
  unfold dist3
  have e : sqDist3 (centre res v) (centre res w) = res ^ 2 * (sqDist v w : ℝ) := by
    unfold sqDist3 centre sqDist; push_cast; ring
  rw [e, Real.sqrt_mul (by positivity), Real.sqrt_sq hr]

theorem dist3_cube (hr : 0 ≤ res) {w : Idx} {r : V3 ℝ} (h : InCube res w r) :
    dist3 (centre res w) r ≤ Real.sqrt 3 / 2 * res := by
  obtain ⟨⟨x0, x1⟩, ⟨y0, y1⟩, z0, z1⟩ := h
  unfold dist3
  have e : Real.sqrt 3 / 2 * res = Real.sqrt (3 * (res / 2) ^ 2) := by
    rw [Real.sqrt_mul (by norm_num), Real.sqrt_sq (by linarith)]; ring
  rw [e]
  apply Real.sqrt_le_sqrt
  unfold sqDist3 centre
  have sq : ∀ {c x : ℝ}, c * res ≤ x → x ≤ (c + 1) * res → ((c + 1 / 2) * res - x) ^ 2 ≤ (res / 2) ^ 2 := by
    intro c x h0 h1
    apply sq_le_sq'
    · nlinarith
    · nlinarith
  have := sq x0 x1
  have := sq y0 y1
  have := sq z0 z1
  dsimp only
  linarith

/-- The point of a cube nearest to a location. -/
theorem cube_nearest (hr : 0 ≤ res) (i : Idx) (q : V3 ℝ) :
    ∃ r, InCube res i r ∧ ∀ r', InCube res i r' → dist3 q r ≤ dist3 q r' := by
  have ax : ∀ (c x : ℝ), ∃ y, (c * res ≤ y ∧ y ≤ (c + 1) * res) ∧
      ∀ y', c * res ≤ y' → y' ≤ (c + 1) * res → (x - y) ^ 2 ≤ (x - y') ^ 2 := by
    intro c x
    have hc : c * res ≤ (c + 1) * res := by nlinarith
    rcases le_total x (c * res) with h | h
    · exact ⟨c * res, ⟨le_rfl, hc⟩, fun y' h0 h1 => by nlinarith⟩
    · rcases le_total x ((c + 1) * res) with h' | h'
      · exact ⟨x, ⟨h, h'⟩, fun y' _ _ => by nlinarith [sq_nonneg (x - y')]⟩
      · exact ⟨(c + 1) * res, ⟨hc, le_rfl⟩, fun y' h0 h1 => by nlinarith⟩
  obtain ⟨x, hx, mx⟩ := ax i.x q.x
  obtain ⟨y, hy, my⟩ := ax i.y q.y
  obtain ⟨z, hz, mz⟩ := ax i.z q.z
  refine ⟨⟨x, y, z⟩, ⟨hx, hy, hz⟩, fun r' ⟨⟨a, b⟩, ⟨c, e⟩, g, h⟩ => ?_⟩
  apply Real.sqrt_le_sqrt
  unfold sqDist3
  have := mx _ a b
  have := my _ c e
  have := mz _ g h
  dsimp only
  linarith

theorem region_nearest (hr : 0 ≤ res) {b : Bool} {i : Idx} (hi : InBounds d i) (hb : f i = b) (q : V3 ℝ) :
    ∃ r, Region d res f b r ∧ ∀ r', Region d res f b r' → dist3 q r ≤ dist3 q r' := by
  classical
  choose g g1 g2 using fun i => cube_nearest hr i q
  set S : Finset Idx := d.all.toFinset.filter fun i => f i = b with hS
  have mem : ∀ i, i ∈ S ↔ InBounds d i ∧ f i = b := by
    intro i
    rw [hS, Finset.mem_filter, List.mem_toFinset, Dims.mem_all, inB_iff_spec]
  obtain ⟨j, hj, hmin⟩ := S.exists_min_image (fun i => dist3 q (g i)) ⟨i, (mem i).mpr ⟨hi, hb⟩⟩
  have hj' := (mem j).mp hj
  refine ⟨g j, ⟨j, hj'.1, hj'.2, g1 j⟩, ?_⟩
  rintro r' ⟨k, hk, hkb, hr'⟩
  exact (hmin k ((mem k).mpr ⟨hk, hkb⟩)).trans (g2 k r' hr')

/-! ## The signed distance -/

theorem region_any {q : V3 ℝ} {i : Idx} (hi : InBounds d i) (hq : InCube res i q) : Region d res f (f i) q :=
  ⟨i, hi, rfl, hq⟩

/-- Every location of the volume has a signed distance if the map has cells of both classes. -/
theorem exists_sd (hr : 0 ≤ res) {a b : Idx} (ha : InBounds d a) (hfa : f a = true) (hb : InBounds d b)
    (hfb : f b = false) {q : V3 ℝ} {i : Idx} (hi : InBounds d i) (hq : InCube res i q) :
    ∃ sd, SignedDistance d res f q sd := by
  obtain ⟨r, h1, h2⟩ := region_nearest hr ha hfa q
  obtain ⟨r', h1', h2'⟩ := region_nearest hr hb hfb q
  have n := dist3_nonneg q r
  have n' := dist3_nonneg q r'
  cases hc : f i with
  | true =>
    have z : dist3 q r = 0 := le_antisymm ((h2 q ⟨i, hi, hc, hq⟩).trans (dist3_self q).le) n
    refine ⟨-dist3 q r', fun h => ?_, fun _ => ⟨⟨r', h1', by ring⟩, fun x hx => by rw [neg_neg]; exact h2' x hx⟩⟩
    have z' : dist3 q r' = 0 := by linarith
    rw [z', neg_zero]
    exact ⟨⟨r, h1, z⟩, fun x hx => dist3_nonneg _ _⟩
  | false =>
    have z : dist3 q r' = 0 := le_antisymm ((h2' q ⟨i, hi, hc, hq⟩).trans (dist3_self q).le) n'
    refine ⟨dist3 q r, fun _ => ⟨⟨r, h1, rfl⟩, h2⟩, fun h => ?_⟩
    have z' : dist3 q r = 0 := by linarith
    rw [z', neg_zero]
    exact ⟨⟨r', h1', z⟩, fun x hx => dist3_nonneg _ _⟩

theorem sd_sign {q : V3 ℝ} {sd : ℝ} (h : SignedDistance d res f q sd) :
    (Region d res f true q → sd ≤ 0) ∧ (Region d res f false q → 0 ≤ sd) := by
  constructor
  · intro hq
    by_contra hc
    have := (h.outside (by linarith)).2 q hq
    rw [dist3_self] at this
    linarith
  · intro hq
    by_contra hc
    have := (h.inside (by linarith)).2 q hq
    rw [dist3_self] at this
    linarith

/-- In the volume of the grid. -/
def InVolume (d : Dims) (res : ℝ) (q : V3 ℝ) : Prop :=
  (0 ≤ q.x ∧ q.x ≤ d.nx * res) ∧ (0 ≤ q.y ∧ q.y ≤ d.ny * res) ∧ 0 ≤ q.z ∧ q.z ≤ d.nz * res

theorem axis_cube (hr : 0 < res) {n : ℕ} (hn : 0 < n) {x : ℝ} (h0 : 0 ≤ x) (h1 : x ≤ n * res) :
    ∃ k : Int, (0 ≤ k ∧ k < n) ∧ k * res ≤ x ∧ x ≤ (k + 1) * res := by
  have hd : 0 ≤ x / res := by positivity
  have hd' : x / res ≤ n := by rw [div_le_iff₀ hr]; exact h1
  have hx : x = x / res * res := by field_simp
  rcases lt_or_ge (x / res) n with h | h
  · refine ⟨⌊x / res⌋, ⟨Int.floor_nonneg.mpr hd, Int.floor_lt.mpr (by exact_mod_cast h)⟩, ?_, ?_⟩
    · nlinarith [Int.floor_le (x / res)]
    · nlinarith [Int.lt_floor_add_one (x / res)]
  · have e : x / res = n := le_antisymm hd' h
    refine ⟨(n : Int) - 1, ⟨by omega, by omega⟩, ?_, ?_⟩
    · rw [hx, e]; push_cast; nlinarith
    · rw [hx, e]; push_cast; nlinarith

theorem volume_cube (hr : 0 < res) (hx : 0 < d.nx) (hy : 0 < d.ny) (hz : 0 < d.nz) {q : V3 ℝ}
    (hq : InVolume d res q) : ∃ i, InBounds d i ∧ InCube res i q := by
  obtain ⟨⟨x0, x1⟩, ⟨y0, y1⟩, z0, z1⟩ := hq
  obtain ⟨a, ha, ha'⟩ := axis_cube hr hx x0 x1
  obtain ⟨b, hb, hb'⟩ := axis_cube hr hy y0 y1
  obtain ⟨c, hc, hc'⟩ := axis_cube hr hz z0 z1
  exact ⟨⟨a, b, c⟩, ⟨ha, hb, hc⟩, ha', hb', hc'⟩

/-- The location a fraction `t` of the way from `p` to `q`. -/
def along (p q : V3 ℝ) (t : ℝ) : V3 ℝ := ⟨p.x + t * (q.x - p.x), p.y + t * (q.y - p.y), p.z + t * (q.z - p.z)⟩

theorem dist3_along (p q : V3 ℝ) {t : ℝ} (h0 : 0 ≤ t) (h1 : t ≤ 1) :
    dist3 p (along p q t) = t * dist3 p q ∧ dist3 q (along p q t) = (1 - t) * dist3 p q := by
  unfold dist3
  have e1 : sqDist3 p (along p q t) = t ^ 2 * sqDist3 p q := by unfold sqDist3 along; ring
  have e2 : sqDist3 q (along p q t) = (1 - t) ^ 2 * sqDist3 p q := by unfold sqDist3 along; ring
  rw [e1, e2, Real.sqrt_mul (by positivity), Real.sqrt_mul (by positivity), Real.sqrt_sq h0, Real.sqrt_sq (by linarith)]
  exact ⟨rfl, rfl⟩

theorem region_closed (p q : V3 ℝ) (b : Bool) : IsClosed {t : ℝ | Region d res f b (along p q t)} := by
  classical
  have e : {t : ℝ | Region d res f b (along p q t)} =
      ⋃ i ∈ (d.all.toFinset.filter fun i => f i = b), {t : ℝ | InCube res i (along p q t)} := by
    ext t
    simp only [Set.mem_ofPred_eq, Set.mem_iUnion, Finset.mem_filter, List.mem_toFinset, Dims.mem_all, inB_iff_spec,
      exists_prop, Region]
    constructor
    · rintro ⟨i, h1, h2, h3⟩; exact ⟨i, ⟨h1, h2⟩, h3⟩
    · rintro ⟨i, ⟨h1, h2⟩, h3⟩; exact ⟨i, h1, h2, h3⟩
  rw [e]
  apply isClosed_biUnion_finset
  intro i _
  unfold InCube along
  dsimp only
  simp only [Set.ofPred_and]
  refine IsClosed.inter (IsClosed.inter ?_ ?_) (IsClosed.inter (IsClosed.inter ?_ ?_) (IsClosed.inter ?_ ?_)) <;>
    first
    | exact isClosed_le continuous_const (by fun_prop)
    | exact isClosed_le (by fun_prop) continuous_const

/-- On the way from a free to a filled location there is a location on the surface. -/
theorem crossing (hr : 0 < res) (hx : 0 < d.nx) (hy : 0 < d.ny) (hz : 0 < d.nz) {p q : V3 ℝ}
    (hp : InVolume d res p) (hq : InVolume d res q) (hpf : Region d res f false p) (hqf : Region d res f true q) :
    ∃ t : ℝ, 0 ≤ t ∧ t ≤ 1 ∧ Region d res f false (along p q t) ∧ Region d res f true (along p q t) := by
  have h := isPreconnected_closed_iff.mp (isPreconnected_Icc (a := (0 : ℝ)) (b := 1))
    {t : ℝ | Region d res f false (along p q t)} {t : ℝ | Region d res f true (along p q t)}
    (region_closed p q false) (region_closed p q true) ?_ ⟨0, ⟨le_rfl, zero_le_one⟩, ?_⟩ ⟨1, ⟨zero_le_one, le_rfl⟩, ?_⟩
  · obtain ⟨t, ⟨h0, h1⟩, h2, h3⟩ := h
    exact ⟨t, h0, h1, h2, h3⟩
  · rintro t ⟨h0, h1⟩
    have hv : InVolume d res (along p q t) := by
      obtain ⟨⟨a0, a1⟩, ⟨b0, b1⟩, c0, c1⟩ := hp
      obtain ⟨⟨a0', a1'⟩, ⟨b0', b1'⟩, c0', c1'⟩ := hq
      unfold InVolume along
      refine ⟨⟨?_, ?_⟩, ⟨?_, ?_⟩, ?_, ?_⟩ <;> dsimp only <;> nlinarith
    obtain ⟨i, hi, hc⟩ := volume_cube hr hx hy hz hv
    cases hb : f i with
    | true => exact Or.inr ⟨i, hi, hb, hc⟩
    | false => exact Or.inl ⟨i, hi, hb, hc⟩
  · have e : along p q 0 = p := by unfold along; ext <;> simp
    show Region d res f false (along p q 0)
    rw [e]; exact hpf
  · have e : along p q 1 = q := by unfold along; ext <;> simp
    show Region d res f true (along p q 1)
    rw [e]; exact hqf

/-- The signed distance changes by at most the distance of the locations. -/
theorem sd_lip (hr : 0 < res) (hx : 0 < d.nx) (hy : 0 < d.ny) (hz : 0 < d.nz) {p q : V3 ℝ}
    (hp : InVolume d res p) (hq : InVolume d res q) {a b : ℝ} (ha : SignedDistance d res f p a)
    (hb : SignedDistance d res f q b) : a - b ≤ dist3 p q := by
  have n := dist3_nonneg p q
  rcases le_or_gt a 0 with ha0 | ha0
  · rcases le_or_gt 0 b with hb0 | hb0
    · linarith
    · obtain ⟨⟨r, hr1, hr2⟩, -⟩ := ha.inside ha0
      have := (hb.inside hb0.le).2 r hr1
      have t := dist3_tri q p r
      rw [dist3_comm q p] at t
      linarith
  · rcases le_or_gt 0 b with hb0 | hb0
    · obtain ⟨⟨r, hr1, hr2⟩, -⟩ := hb.outside hb0
      have := (ha.outside ha0.le).2 r hr1
      have t := dist3_tri p q r
      linarith
    · have cls : ∀ {x : V3 ℝ}, InVolume d res x → Region d res f true x ∨ Region d res f false x := by
        intro x hx'
        obtain ⟨i, hi, hc⟩ := volume_cube hr hx hy hz hx'
        cases hb : f i with
        | true => exact Or.inl ⟨i, hi, hb, hc⟩
        | false => exact Or.inr ⟨i, hi, hb, hc⟩
      have hpf : Region d res f false p := (cls hp).resolve_left fun h => by linarith [(sd_sign ha).1 h]
      have hqf : Region d res f true q := (cls hq).resolve_right fun h => by linarith [(sd_sign hb).2 h]
      obtain ⟨t, t0, t1, s1, s2⟩ := crossing hr hx hy hz hp hq hpf hqf
      obtain ⟨e1, e2⟩ := dist3_along p q t0 t1
      have := (ha.outside ha0.le).2 _ s2
      have := (hb.inside hb0.le).2 _ s1
      rw [e1] at *
      rw [e2] at *
      linarith

/-! ## Cell centres -/

theorem centre_inVolume (hr : 0 < res) {v : Idx} (hv : InBounds d v) : InVolume d res (centre res v) := by
  have ax : ∀ {n : ℕ} {k : Int}, 0 ≤ k → k < n → 0 ≤ ((k : ℝ) + 1 / 2) * res ∧ ((k : ℝ) + 1 / 2) * res ≤ n * res := by
    intro n k h0 h1
    have h0' : (0 : ℝ) ≤ k := by exact_mod_cast h0
    have h1' : (k : ℝ) + 1 ≤ n := by exact_mod_cast h1
    constructor
    · positivity
    · exact mul_le_mul_of_nonneg_right (by linarith) hr.le
  obtain ⟨⟨a, b⟩, ⟨c, e⟩, g, h⟩ := hv
  exact ⟨ax a b, ax c e, ax g h⟩

/-- A point of a cube at distance `1/2` cell less than the centre. -/
theorem near_point (hr : 0 < res) {v p : Idx} (h1 : 1 ≤ sqDist v p) :
    ∃ r, InCube res p r ∧ dist3 (centre res v) r = res * Real.sqrt (sqDist v p) - res / 2 := by
  set s := Real.sqrt (sqDist v p) with hs
  have h1' : (1 : ℝ) ≤ (sqDist v p : ℝ) := by exact_mod_cast h1
  have s1 : 1 ≤ s := by rw [hs]; exact Real.one_le_sqrt.mpr h1'
  have s0 : 0 < s := by linarith
  have ss : s ^ 2 = (sqDist v p : ℝ) := Real.sq_sqrt (by linarith)
  have hsum : s ^ 2 = ((v.x : ℝ) - p.x) ^ 2 + ((v.y : ℝ) - p.y) ^ 2 + ((v.z : ℝ) - p.z) ^ 2 := by
    rw [ss]; unfold sqDist; push_cast; ring
  -- the step from the centre of `p` towards `v`
  have comp : ∀ a : ℝ, a ^ 2 ≤ s ^ 2 → -(1 / 2) ≤ a / (2 * s) ∧ a / (2 * s) ≤ 1 / 2 := by
    intro a ha
    have := abs_le_of_sq_le_sq' ha s0.le
    constructor
    · rw [le_div_iff₀ (by linarith)]; linarith
    · rw [div_le_iff₀ (by linarith)]; linarith
  have cx := comp ((v.x : ℝ) - p.x) (by rw [hsum]; nlinarith [sq_nonneg ((v.y : ℝ) - p.y), sq_nonneg ((v.z : ℝ) - p.z)])
  have cy := comp ((v.y : ℝ) - p.y) (by rw [hsum]; nlinarith [sq_nonneg ((v.x : ℝ) - p.x), sq_nonneg ((v.z : ℝ) - p.z)])
  have cz := comp ((v.z : ℝ) - p.z) (by rw [hsum]; nlinarith [sq_nonneg ((v.x : ℝ) - p.x), sq_nonneg ((v.y : ℝ) - p.y)])
  refine ⟨⟨((p.x : ℝ) + 1 / 2 + ((v.x : ℝ) - p.x) / (2 * s)) * res, ((p.y : ℝ) + 1 / 2 + ((v.y : ℝ) - p.y) / (2 * s)) * res,
    ((p.z : ℝ) + 1 / 2 + ((v.z : ℝ) - p.z) / (2 * s)) * res⟩, ⟨⟨?_, ?_⟩, ⟨?_, ?_⟩, ?_, ?_⟩, ?_⟩
  · exact mul_le_mul_of_nonneg_right (by linarith [cx.1]) hr.le
  · exact mul_le_mul_of_nonneg_right (by linarith [cx.2]) hr.le
  · exact mul_le_mul_of_nonneg_right (by linarith [cy.1]) hr.le
  · exact mul_le_mul_of_nonneg_right (by linarith [cy.2]) hr.le
  · exact mul_le_mul_of_nonneg_right (by linarith [cz.1]) hr.le
  · exact mul_le_mul_of_nonneg_right (by linarith [cz.2]) hr.le
  · unfold dist3
    have e : sqDist3 (centre res v) ⟨((p.x : ℝ) + 1 / 2 + ((v.x : ℝ) - p.x) / (2 * s)) * res,
        ((p.y : ℝ) + 1 / 2 + ((v.y : ℝ) - p.y) / (2 * s)) * res,
        ((p.z : ℝ) + 1 / 2 + ((v.z : ℝ) - p.z) / (2 * s)) * res⟩ = (res * s - res / 2) ^ 2 := by
      have e1 : sqDist3 (centre res v) ⟨((p.x : ℝ) + 1 / 2 + ((v.x : ℝ) - p.x) / (2 * s)) * res,
          ((p.y : ℝ) + 1 / 2 + ((v.y : ℝ) - p.y) / (2 * s)) * res,
          ((p.z : ℝ) + 1 / 2 + ((v.z : ℝ) - p.z) / (2 * s)) * res⟩ =
          (((v.x : ℝ) - p.x) ^ 2 + ((v.y : ℝ) - p.y) ^ 2 + ((v.z : ℝ) - p.z) ^ 2) * ((1 - 1 / (2 * s)) * res) ^ 2 := by
        unfold sqDist3 centre
        dsimp only
        field_simp
        ring
      rw [e1, ← hsum]
      field_simp
    rw [e, Real.sqrt_sq]
    nlinarith

theorem opposite_pos {v p : Idx} (h : Opposite d f v p) : 1 ≤ sqDist v p := by
  by_contra hc
  have h0 : sqDist v p = 0 := by
    have : 0 ≤ sqDist v p := by unfold sqDist; positivity
    omega
  unfold sqDist at h0
  have hx : v.x - p.x = 0 := by nlinarith [sq_nonneg (v.x - p.x), sq_nonneg (v.y - p.y), sq_nonneg (v.z - p.z)]
  have hy : v.y - p.y = 0 := by nlinarith [sq_nonneg (v.x - p.x), sq_nonneg (v.y - p.y), sq_nonneg (v.z - p.z)]
  have hz : v.z - p.z = 0 := by nlinarith [sq_nonneg (v.x - p.x), sq_nonneg (v.y - p.y), sq_nonneg (v.z - p.z)]
  have : v = p := by ext <;> omega
  exact h.2 (by rw [this])

/-- The signed distance of a cell's centre: half a cell less than the distance to the nearest centre of the opposite
class, or up to `(sqrt 3 - 1) / 2` cells less than that. -/
theorem centre_sd (hr : 0 < res) {v : Idx} (hv : InBounds d v) {m : ℤ} (hm : NearestOpposite d f v m) {s : ℝ}
    (hs : SignedDistance d res f (centre res v) s) :
    signed (f v) s ≤ res * Real.sqrt m - res / 2 ∧ res * Real.sqrt m - Real.sqrt 3 / 2 * res ≤ signed (f v) s := by
  obtain ⟨⟨p, hp, rfl⟩, hmin⟩ := hm
  obtain ⟨r, hr1, hr2⟩ := near_point hr (opposite_pos hp)
  have hin := centre_inCube hr.le v
  have low : ∀ {b : Bool} {x : V3 ℝ}, b ≠ f v → Region d res f b x →
      res * Real.sqrt (sqDist v p) - Real.sqrt 3 / 2 * res ≤ dist3 (centre res v) x := by
    rintro b x hb ⟨w, hw, hwb, hwx⟩
    have h1 := hmin w ⟨hw, by rw [hwb]; exact hb⟩
    have h2 := dist3_cube hr.le hwx
    have h3 := dist3_tri (centre res v) x (centre res w)
    rw [dist3_centres hr.le, dist3_comm x] at h3
    have h4 : Real.sqrt (sqDist v p) ≤ Real.sqrt (sqDist v w) := Real.sqrt_le_sqrt (by exact_mod_cast h1)
    nlinarith
  unfold signed
  cases hf : f v with
  | true =>
    have h0 := (sd_sign hs).1 ⟨v, hv, hf, hin⟩
    obtain ⟨⟨x, hx, ex⟩, hl⟩ := hs.inside h0
    have hpf : f p = false := by
      have := hp.2; rw [hf] at this; simpa using this
    rw [if_pos rfl]
    refine ⟨?_, ?_⟩
    · rw [← hr2]; exact hl r ⟨p, hp.1, hpf, hr1⟩
    · rw [← ex]; exact low (by rw [hf]; decide) hx
  | false =>
    have h0 := (sd_sign hs).2 ⟨v, hv, hf, hin⟩
    obtain ⟨⟨x, hx, ex⟩, hl⟩ := hs.outside h0
    have hpf : f p = true := by
      have := hp.2; rw [hf] at this; simpa using this
    rw [if_neg (by decide)]
    refine ⟨?_, ?_⟩
    · rw [← hr2]; exact hl r ⟨p, hp.1, hpf, hr1⟩
    · rw [← ex]; exact low (by rw [hf]; decide) hx

/-! ## Blends of the values at the surrounding centres -/

theorem axis_blend {n : ℕ} (hn : 0 < n) {t : ℝ} (h : Inner n t) :
    ∃ w : ℝ, 0 ≤ w ∧ w ≤ 1 ∧ (∀ g, axisInterp n g t = lerp w (g (lowerCell n t)) (g (upperCell n t))) ∧
      lerp w (((lowerCell n t : ℝ) + 1 / 2 - t) ^ 2) (((upperCell n t : ℝ) + 1 / 2 - t) ^ 2) ≤ 1 / 4 := by
  rcases (by omega : n = 1 ∨ 2 ≤ n) with rfl | h2
  · have h1 : lowerCell 1 t = 0 := by unfold lowerCell; omega
    have h2 : upperCell 1 t = 0 := by unfold upperCell; rw [h1]; rfl
    have ht : 0 ≤ t ∧ t ≤ 1 := by
      rcases h with ⟨-, h⟩ | ⟨a, b⟩
      · exact h
      · push_cast at b; constructor <;> linarith
    refine ⟨0, le_rfl, zero_le_one, fun g => ?_, ?_⟩
    · unfold axisInterp lerp; rw [h1, h2]; ring
    · rw [h1, h2]; unfold lerp; push_cast; nlinarith
  · have hb : BetweenCenters n t := h.resolve_left fun h => by omega
    obtain ⟨w0, w1⟩ := weight_range n t hb
    refine ⟨t - 1 / 2 - lowerCell n t, w0, w1, fun g => rfl, ?_⟩
    have hu : (upperCell n t : ℝ) = lowerCell n t + 1 := by
      have : upperCell n t = lowerCell n t + 1 := by unfold upperCell lowerCell; omega
      rw [this]; push_cast; ring
    rw [hu]
    generalize (lowerCell n t : ℝ) = l at *
    unfold lerp
    nlinarith [sq_nonneg (t - 1 / 2 - l - 1 / 2)]

theorem lerp_le {w a b a' b' : ℝ} (h0 : 0 ≤ w) (h1 : w ≤ 1) (ha : a ≤ a') (hb : b ≤ b') : lerp w a b ≤ lerp w a' b' := by
  unfold lerp
  have := mul_le_mul_of_nonneg_left ha (sub_nonneg.mpr h1)
  have := mul_le_mul_of_nonneg_left hb h0
  linarith

/-- The blend of values that exceed `k` by at most the distance of their centres exceeds `k` by at most
`sqrt 3 / 2` cells. -/
theorem blend_le (hr : 0 < res) (hx : 0 < d.nx) (hy : 0 < d.ny) (hz : 0 < d.nz) {q : V3 ℝ}
    (ix : Inner d.nx (q.x / res)) (iy : Inner d.ny (q.y / res)) (iz : Inner d.nz (q.z / res)) {g : Idx → ℝ} {k : ℝ}
    (hg : ∀ a b c : Bool, g ⟨pick a (lowerCell d.nx (q.x / res)) (upperCell d.nx (q.x / res)),
        pick b (lowerCell d.ny (q.y / res)) (upperCell d.ny (q.y / res)),
        pick c (lowerCell d.nz (q.z / res)) (upperCell d.nz (q.z / res))⟩ ≤
      k + dist3 q (centre res ⟨pick a (lowerCell d.nx (q.x / res)) (upperCell d.nx (q.x / res)),
        pick b (lowerCell d.ny (q.y / res)) (upperCell d.ny (q.y / res)),
        pick c (lowerCell d.nz (q.z / res)) (upperCell d.nz (q.z / res))⟩)) :
    axisInterp d.nx (fun x => axisInterp d.ny (fun y => axisInterp d.nz (fun z => g ⟨x, y, z⟩) (q.z / res))
      (q.y / res)) (q.x / res) ≤ k + Real.sqrt 3 / 2 * res := by
  obtain ⟨u, u0, u1, eu, mu⟩ := axis_blend hx ix
  obtain ⟨v, v0, v1, ev, mv⟩ := axis_blend hy iy
  obtain ⟨w, w0, w1, ew, mw⟩ := axis_blend hz iz
  simp only [eu, ev, ew]
  set X0 := lowerCell d.nx (q.x / res)
  set X1 := upperCell d.nx (q.x / res)
  set Y0 := lowerCell d.ny (q.y / res)
  set Y1 := upperCell d.ny (q.y / res)
  set Z0 := lowerCell d.nz (q.z / res)
  set Z1 := upperCell d.nz (q.z / res)
  have s3 : 0 < Real.sqrt 3 := Real.sqrt_pos.mpr (by norm_num)
  have s3' : Real.sqrt 3 ^ 2 = 3 := Real.sq_sqrt (by norm_num)
  set ρ := Real.sqrt 3 / 2 * res with hρ
  have ρ0 : 0 < ρ := by positivity
  have ρ2 : ρ ^ 2 = 3 / 4 * res ^ 2 := by rw [hρ, mul_pow, div_pow, s3']; ring
  have amgm : ∀ (x y z : Int), dist3 q (centre res ⟨x, y, z⟩) ≤
      ρ / 2 + res ^ 2 / (2 * ρ) * (((x : ℝ) + 1 / 2 - q.x / res) ^ 2 + ((y : ℝ) + 1 / 2 - q.y / res) ^ 2 +
        ((z : ℝ) + 1 / 2 - q.z / res) ^ 2) := by
    intro x y z
    have e : sqDist3 q (centre res ⟨x, y, z⟩) = res ^ 2 * (((x : ℝ) + 1 / 2 - q.x / res) ^ 2 +
        ((y : ℝ) + 1 / 2 - q.y / res) ^ 2 + ((z : ℝ) + 1 / 2 - q.z / res) ^ 2) := by
      unfold sqDist3 centre; dsimp only; field_simp; ring
    have hD : dist3 q (centre res ⟨x, y, z⟩) ^ 2 = sqDist3 q (centre res ⟨x, y, z⟩) := Real.sq_sqrt (sqDist3_nonneg _ _)
    set D := dist3 q (centre res ⟨x, y, z⟩)
    have : res ^ 2 / (2 * ρ) * (((x : ℝ) + 1 / 2 - q.x / res) ^ 2 + ((y : ℝ) + 1 / 2 - q.y / res) ^ 2 +
        ((z : ℝ) + 1 / 2 - q.z / res) ^ 2) = D ^ 2 / (2 * ρ) := by rw [hD, e]; ring
    rw [this]
    have h2 : D - ρ / 2 ≤ D ^ 2 / (2 * ρ) := by
      rw [le_div_iff₀ (by positivity)]
      nlinarith [sq_nonneg (D - ρ)]
    linarith
  have c := fun a b c => (hg a b c).trans (add_le_add_right (amgm _ _ _) k)
  have c000 := c false false false
  have c001 := c false false true
  have c010 := c false true false
  have c011 := c false true true
  have c100 := c true false false
  have c101 := c true false true
  have c110 := c true true false
  have c111 := c true true true
  simp only [pick, if_true, Bool.false_eq_true, if_false] at c000 c001 c010 c011 c100 c101 c110 c111
  refine (lerp_le u0 u1 (lerp_le v0 v1 (lerp_le w0 w1 c000 c001) (lerp_le w0 w1 c010 c011))
    (lerp_le v0 v1 (lerp_le w0 w1 c100 c101) (lerp_le w0 w1 c110 c111))).trans ?_
  generalize ((X0 : ℝ) + 1 / 2 - q.x / res) ^ 2 = x0 at *
  generalize ((X1 : ℝ) + 1 / 2 - q.x / res) ^ 2 = x1 at *
  generalize ((Y0 : ℝ) + 1 / 2 - q.y / res) ^ 2 = y0 at *
  generalize ((Y1 : ℝ) + 1 / 2 - q.y / res) ^ 2 = y1 at *
  generalize ((Z0 : ℝ) + 1 / 2 - q.z / res) ^ 2 = z0 at *
  generalize ((Z1 : ℝ) + 1 / 2 - q.z / res) ^ 2 = z1 at *
  have hc : 0 < res ^ 2 / (2 * ρ) := by positivity
  have e : lerp u
      (lerp v (lerp w (k + (ρ / 2 + res ^ 2 / (2 * ρ) * (x0 + y0 + z0))) (k + (ρ / 2 + res ^ 2 / (2 * ρ) * (x0 + y0 + z1))))
        (lerp w (k + (ρ / 2 + res ^ 2 / (2 * ρ) * (x0 + y1 + z0))) (k + (ρ / 2 + res ^ 2 / (2 * ρ) * (x0 + y1 + z1)))))
      (lerp v (lerp w (k + (ρ / 2 + res ^ 2 / (2 * ρ) * (x1 + y0 + z0))) (k + (ρ / 2 + res ^ 2 / (2 * ρ) * (x1 + y0 + z1))))
        (lerp w (k + (ρ / 2 + res ^ 2 / (2 * ρ) * (x1 + y1 + z0))) (k + (ρ / 2 + res ^ 2 / (2 * ρ) * (x1 + y1 + z1))))) =
      k + (ρ / 2 + res ^ 2 / (2 * ρ) * (lerp u x0 x1 + lerp v y0 y1 + lerp w z0 z1)) := by
    unfold lerp; ring
  rw [e]
  have h3 : res ^ 2 / (2 * ρ) * (lerp u x0 x1 + lerp v y0 y1 + lerp w z0 z1) ≤ res ^ 2 / (2 * ρ) * (3 / 4) :=
    mul_le_mul_of_nonneg_left (by linarith) hc.le
  have h4 : res ^ 2 / (2 * ρ) * (3 / 4) = ρ / 2 := by
    rw [show res ^ 2 / (2 * ρ) * (3 / 4) = (3 / 4 * res ^ 2) / (2 * ρ) by ring, ← ρ2]
    field_simp
  linarith

/-! ## Estimates -/

/-- Every stored value is the distance to the nearest centre of the opposite class, with the sign of its cell, up
to `e`. -/
def Faithful (t : MSdf ℝ) (f : Idx → Bool) (e : ℝ) : Prop :=
  ∀ v, InBounds t.grid.dims v → ∀ m, NearestOpposite t.grid.dims f v m →
    |signed (f v) (t.grid.get v) - t.res * Real.sqrt m| ≤ e

/-- Every stored value has the sign of its cell and falls short of the distance to the nearest centre of the opposite
class by at most `e`; it is that distance up to `e` where the centre is less than `sqrt 8` cells away. -/
def Sound (t : MSdf ℝ) (f : Idx → Bool) (e : ℝ) : Prop :=
  ∀ v, InBounds t.grid.dims v → ∀ m, NearestOpposite t.grid.dims f v m →
    t.res * Real.sqrt m - e ≤ signed (f v) (t.grid.get v) ∧
    (m < 8 → |signed (f v) (t.grid.get v) - t.res * Real.sqrt m| ≤ e)

theorem both_opposite (h : BothClasses d f) {v : Idx} : ∃ m, NearestOpposite d f v m := by
  obtain ⟨⟨a, ha, hfa⟩, b, hb, hfb⟩ := h
  cases hv : f v with
  | true =>
    obtain ⟨m, hm, -⟩ := FSdf.nearest_exists (d := d) (f := f) (v := v) (p := b) ⟨hb, by rw [hfb, hv]; decide⟩
    exact ⟨m, hm⟩
  | false =>
    obtain ⟨m, hm, -⟩ := FSdf.nearest_exists (d := d) (f := f) (v := v) (p := a) ⟨ha, by rw [hfa, hv]; decide⟩
    exact ⟨m, hm⟩

theorem signed_signed (b : Bool) (x : ℝ) : signed b (signed b x) = x := by
  cases b <;> simp [signed]

theorem signed_sub (b : Bool) (x y : ℝ) : signed b x - signed b y = signed b (x - y) := by
  cases b <;> simp [signed]; ring

theorem abs_signed (b : Bool) (x : ℝ) : |signed b x| = |x| := by
  cases b <;> simp [signed]

theorem nearest_one {v : Idx} {m : ℤ} (hm : NearestOpposite d f v m) : 1 ≤ Real.sqrt m := by
  obtain ⟨⟨p, hp, rfl⟩, -⟩ := hm
  exact Real.one_le_sqrt.mpr (by exact_mod_cast opposite_pos hp)

theorem corrected_signed {t : MSdf ℝ} {v : Idx} (h : 0 < signed (f v) (t.grid.get v)) :
    signed (f v) (halfCellCloser t.res (t.grid.get v)) = signed (f v) (t.grid.get v) - t.res / 2 := by
  unfold halfCellCloser
  unfold signed at *
  cases hf : f v with
  | true =>
    rw [hf, if_pos rfl] at h
    rw [if_pos rfl, if_pos rfl, if_neg (by linarith)]
    ring
  | false =>
    rw [hf, if_neg (by decide)] at h
    simp only [Bool.false_eq_true, if_false, if_pos h.le]

/-- The corrected value of a cell and the signed distance of its centre. -/
theorem corner_faithful {t : MSdf ℝ} (hr : 0 < t.res) {e : ℝ} (he : e < t.res) {v : Idx}
    (hv : InBounds t.grid.dims v) {m : ℤ} (hm : NearestOpposite t.grid.dims f v m)
    (h : |signed (f v) (t.grid.get v) - t.res * Real.sqrt m| ≤ e) {s : ℝ}
    (hs : SignedDistance t.grid.dims t.res f (centre t.res v) s) :
    |halfCellCloser t.res (t.grid.get v) - s| ≤ (Real.sqrt 3 / 2 - 1 / 2) * t.res + e := by
  have h1 := nearest_one hm
  obtain ⟨c1, c2⟩ := centre_sd hr hv hm hs
  rw [abs_le] at h
  have hpos : 0 < signed (f v) (t.grid.get v) := by nlinarith [h.1]
  have ec := corrected_signed hpos
  have s3 : 1 ≤ Real.sqrt 3 := Real.one_le_sqrt.mpr (by norm_num)
  rw [← abs_signed (f v), ← signed_sub, ec, abs_le]
  constructor <;> nlinarith [h.1, h.2]

theorem corner_sound {t : MSdf ℝ} (hr : 0 < t.res) {e : ℝ} (he : e < t.res) {v : Idx}
    (hv : InBounds t.grid.dims v) {m : ℤ} (hm : NearestOpposite t.grid.dims f v m)
    (h : t.res * Real.sqrt m - e ≤ signed (f v) (t.grid.get v)) {s : ℝ}
    (hs : SignedDistance t.grid.dims t.res f (centre t.res v) s) :
    signed (f v) s - e ≤ signed (f v) (halfCellCloser t.res (t.grid.get v)) := by
  have h1 := nearest_one hm
  obtain ⟨c1, c2⟩ := centre_sd hr hv hm hs
  have hpos : 0 < signed (f v) (t.grid.get v) := by nlinarith
  rw [corrected_signed hpos]
  linarith

theorem inner_range {n : ℕ} (hr : 0 < res) {x : ℝ} (h : Inner n (x / res)) : 0 ≤ x ∧ x ≤ n * res := by
  have e : x = x / res * res := by field_simp
  rcases h with ⟨rfl, h0, h1⟩ | ⟨h0, h1⟩
  · rw [e]; push_cast
    exact ⟨by positivity, by nlinarith⟩
  · rw [e]
    constructor
    · have : 0 ≤ x / res := by linarith
      positivity
    · exact mul_le_mul_of_nonneg_right (by linarith) hr.le

/-- The corner of the interpolation cell. -/
noncomputable def corner (d : Dims) (res : ℝ) (q : V3 ℝ) (a b c : Bool) : Idx :=
  ⟨pick a (lowerCell d.nx (q.x / res)) (upperCell d.nx (q.x / res)),
    pick b (lowerCell d.ny (q.y / res)) (upperCell d.ny (q.y / res)),
    pick c (lowerCell d.nz (q.z / res)) (upperCell d.nz (q.z / res))⟩

theorem axisInterp_signed (n : ℕ) (b : Bool) (g : Int → ℝ) (x : ℝ) :
    axisInterp n (fun i => signed b (g i)) x = signed b (axisInterp n g x) := by
  cases b <;> simp [signed, axisInterp, lerp]
  ring

theorem axisInterp_div (n : ℕ) (c : ℝ) (g : Int → ℝ) (x : ℝ) :
    axisInterp n (fun i => g i / c) x = axisInterp n g x / c := by
  unfold axisInterp lerp; ring

/-- A one-sided bound at the eight corners is one at the location. -/
theorem interp_le_mul {t : MSdf ℝ} (hr : 0 < t.res) (hx : 0 < t.grid.dims.nx) (hy : 0 < t.grid.dims.ny)
    (hz : 0 < t.grid.dims.nz) {f : Idx → Bool} (hb : BothClasses t.grid.dims f) {q : V3 ℝ}
    (hq : InnerLocation t.grid.dims t.res q) (σ : Bool) {c₀ κ : ℝ} (hc₀ : 0 < c₀)
    (hc : ∀ a b c : Bool, ∀ s, SignedDistance t.grid.dims t.res f (centre t.res (corner t.grid.dims t.res q a b c)) s →
      signed σ (halfCellCloser t.res (t.grid.get (corner t.grid.dims t.res q a b c))) ≤ c₀ * signed σ s + κ)
    {sd : ℝ} (hs : SignedDistance t.grid.dims t.res f q sd) :
    signed σ (interpAt t q) ≤ c₀ * (signed σ sd + Real.sqrt 3 / 2 * t.res) + κ := by
  obtain ⟨ix, iy, iz⟩ := hq
  have hvq : InVolume t.grid.dims t.res q := ⟨inner_range hr ix, inner_range hr iy, inner_range hr iz⟩
  have h := blend_le (g := fun i => signed σ (halfCellCloser t.res (t.grid.get i)) / c₀) (k := signed σ sd + κ / c₀)
    hr hx hy hz ix iy iz ?_
  · unfold interpAt
    rw [trilerp_nested]
    simp only [axisInterp_div, axisInterp_signed] at h
    rw [div_le_iff₀ hc₀] at h
    have e : (signed σ sd + κ / c₀ + Real.sqrt 3 / 2 * t.res) * c₀ =
        c₀ * (signed σ sd + Real.sqrt 3 / 2 * t.res) + κ := by field_simp; ring
    linarith
  · intro a b c
    have hin : InBounds t.grid.dims (corner t.grid.dims t.res q a b c) :=
      cornerIdx_inB (K := ℝ) hx hy hz (q.x / t.res) (q.y / t.res) (q.z / t.res) a b c
    obtain ⟨⟨u, hu, hfu⟩, v, hv, hfv⟩ := hb
    obtain ⟨s, hs'⟩ := exists_sd hr.le hu hfu hv hfv hin (centre_inCube hr.le _)
    have h1 := hc a b c s hs'
    have h2 := sd_lip hr hx hy hz (centre_inVolume hr hin) hvq hs' hs
    have h3 := sd_lip hr hx hy hz hvq (centre_inVolume hr hin) hs hs'
    rw [dist3_comm] at h2
    have h4 : signed σ s ≤ signed σ sd + dist3 q (centre t.res (corner t.grid.dims t.res q a b c)) := by
      unfold signed; split_ifs <;> linarith
    have h5 : signed σ (halfCellCloser t.res (t.grid.get (corner t.grid.dims t.res q a b c))) / c₀ ≤
        signed σ s + κ / c₀ := by
      rw [div_le_iff₀ hc₀]
      have e : (signed σ s + κ / c₀) * c₀ = c₀ * signed σ s + κ := by field_simp
      linarith
    unfold corner at h4 h5
    linarith

theorem interp_le {t : MSdf ℝ} (hr : 0 < t.res) (hx : 0 < t.grid.dims.nx) (hy : 0 < t.grid.dims.ny)
    (hz : 0 < t.grid.dims.nz) {f : Idx → Bool} (hb : BothClasses t.grid.dims f) {q : V3 ℝ}
    (hq : InnerLocation t.grid.dims t.res q) (σ : Bool) {κ : ℝ}
    (hc : ∀ a b c : Bool, ∀ s, SignedDistance t.grid.dims t.res f (centre t.res (corner t.grid.dims t.res q a b c)) s →
      signed σ (halfCellCloser t.res (t.grid.get (corner t.grid.dims t.res q a b c))) ≤ signed σ s + κ)
    {sd : ℝ} (hs : SignedDistance t.grid.dims t.res f q sd) :
    signed σ (interpAt t q) ≤ signed σ sd + Real.sqrt 3 / 2 * t.res + κ := by
  have := interp_le_mul hr hx hy hz hb hq σ one_pos (κ := κ) (fun a b c s h => by rw [one_mul]; exact hc a b c s h) hs
  linarith

theorem abs_of_signed {x y k : ℝ} (h : ∀ σ, signed σ x ≤ signed σ y + k) : |x - y| ≤ k := by
  have h1 := h true
  have h2 := h false
  simp only [signed, if_true, Bool.false_eq_true, if_false] at h1 h2
  rw [abs_le]; constructor <;> linarith

theorem signed_of_abs {x y k : ℝ} (h : |x - y| ≤ k) (σ : Bool) : signed σ x ≤ signed σ y + k := by
  rw [abs_le] at h
  unfold signed; split_ifs <;> linarith

/-- Exact values at the corners: the interpolant is within `sqrt 3 - 1 / 2` cells of the signed distance. -/
theorem interp_faithful {t : MSdf ℝ} (hr : 0 < t.res) (hx : 0 < t.grid.dims.nx) (hy : 0 < t.grid.dims.ny)
    (hz : 0 < t.grid.dims.nz) {f : Idx → Bool} (hb : BothClasses t.grid.dims f) {e : ℝ} (he : e < t.res) {q : V3 ℝ}
    (hq : InnerLocation t.grid.dims t.res q)
    (h : ∀ a b c m, NearestOpposite t.grid.dims f (corner t.grid.dims t.res q a b c) m →
      |signed (f (corner t.grid.dims t.res q a b c)) (t.grid.get (corner t.grid.dims t.res q a b c)) -
        t.res * Real.sqrt m| ≤ e)
    {sd : ℝ} (hs : SignedDistance t.grid.dims t.res f q sd) :
    |interpAt t q - sd| ≤ (Real.sqrt 3 - 1 / 2) * t.res + e := by
  refine abs_of_signed fun σ => ?_
  have := interp_le hr hx hy hz hb hq σ (κ := (Real.sqrt 3 / 2 - 1 / 2) * t.res + e) (fun a b c s hs' => ?_) hs
  · linarith
  · have hin : InBounds t.grid.dims (corner t.grid.dims t.res q a b c) :=
      cornerIdx_inB (K := ℝ) hx hy hz (q.x / t.res) (q.y / t.res) (q.z / t.res) a b c
    obtain ⟨m, hm⟩ := both_opposite hb (v := corner t.grid.dims t.res q a b c)
    exact signed_of_abs (corner_faithful hr he hin hm (h a b c m hm) hs') σ

/-- The cells that contain a location are corners of its interpolation cell. -/
theorem axis_corner {n : ℕ} {res x : ℝ} (hr : 0 < res) {k : Int} (h0 : 0 ≤ k) (h1 : k < n)
    (hk : k * res ≤ x ∧ x ≤ (k + 1) * res) :
    k = lowerCell n (x / res) ∨ k = upperCell n (x / res) := by
  have a : (k : ℝ) ≤ x / res := by rw [le_div_iff₀ hr]; exact hk.1
  have b : x / res ≤ k + 1 := by rw [div_le_iff₀ hr]; exact hk.2
  generalize x / res = t at *
  have f1 : k - 1 ≤ ⌊t - 1 / 2⌋ := by
    rw [Int.le_floor]; push_cast; linarith
  have f2 : ⌊t - 1 / 2⌋ < k + 1 := by
    rw [Int.floor_lt]; push_cast; linarith
  unfold upperCell lowerCell
  omega

theorem cube_corner {t : MSdf ℝ} (hr : 0 < t.res) {q : V3 ℝ} {i : Idx}
    (hi : InBounds t.grid.dims i) (hc : InCube t.res i q) : ∃ a b c, i = corner t.grid.dims t.res q a b c := by
  obtain ⟨bx, bY, bz⟩ := hi
  have ex : ∀ {k l u : Int}, k = l ∨ k = u → ∃ a, k = pick a l u := by
    rintro k l u (h | h)
    · exact ⟨false, h⟩
    · exact ⟨true, h⟩
  obtain ⟨a, ha⟩ := ex (axis_corner hr bx.1 bx.2 hc.1)
  obtain ⟨b, hb⟩ := ex (axis_corner hr bY.1 bY.2 hc.2.1)
  obtain ⟨c, hc⟩ := ex (axis_corner hr bz.1 bz.2 hc.2.2)
  exact ⟨a, b, c, Idx.ext ha hb hc⟩

theorem corner_dist (d : Dims) (hx : 0 < d.nx) (hy : 0 < d.ny) (hz : 0 < d.nz) (res : ℝ) (q : V3 ℝ) (a b c a' b' c' : Bool) :
    sqDist (corner d res q a b c) (corner d res q a' b' c') < 8 := by
  have ax : ∀ (n : ℕ) (t : ℝ) (a a' : Bool), 0 < n → (pick a (lowerCell n t) (upperCell n t) - pick a' (lowerCell n t) (upperCell n t)) ^ 2 ≤ 1 := by
    intro n t a a' hn
    have h : lowerCell n t ≤ upperCell n t ∧ upperCell n t ≤ lowerCell n t + 1 := by
      unfold upperCell lowerCell; omega
    generalize lowerCell n t = l at *
    generalize upperCell n t = u at *
    rcases (by omega : u = l ∨ u = l + 1) with rfl | rfl <;> cases a <;> cases a' <;> simp [pick]
  have h1 := ax d.nx (q.x / res) a a' hx
  have h2 := ax d.ny (q.y / res) b b' hy
  have h3 := ax d.nz (q.z / res) c c' hz
  unfold sqDist corner
  dsimp only
  linarith

/-- Either the eight corners are of one class, which is that of the location, or the interpolant is accurate. -/
theorem corners_cases {t : MSdf ℝ} (hr : 0 < t.res) (hx : 0 < t.grid.dims.nx) (hy : 0 < t.grid.dims.ny)
    (hz : 0 < t.grid.dims.nz) {f : Idx → Bool} (hb : BothClasses t.grid.dims f) {e : ℝ} (he : e < t.res)
    (h : Sound t f e) {q : V3 ℝ} (hq : InnerLocation t.grid.dims t.res q) {sd : ℝ}
    (hs : SignedDistance t.grid.dims t.res f q sd) :
    (∃ σ, (∀ a b c, f (corner t.grid.dims t.res q a b c) = σ) ∧ (0 ≤ sd → σ = false) ∧ (sd ≤ 0 → σ = true)) ∨
    |interpAt t q - sd| ≤ (Real.sqrt 3 - 1 / 2) * t.res + e := by
  have hin : ∀ a b c, InBounds t.grid.dims (corner t.grid.dims t.res q a b c) := fun a b c =>
    cornerIdx_inB (K := ℝ) hx hy hz (q.x / t.res) (q.y / t.res) (q.z / t.res) a b c
  have hvq : InVolume t.grid.dims t.res q := ⟨inner_range hr hq.1, inner_range hr hq.2.1, inner_range hr hq.2.2⟩
  by_cases hmix : ∃ σ, ∀ a b c, f (corner t.grid.dims t.res q a b c) = σ
  · obtain ⟨σ, hσ⟩ := hmix
    have region : ∀ τ, Region t.grid.dims t.res f τ q → τ = σ := by
      rintro τ ⟨i, hi, hfi, hc⟩
      obtain ⟨a, b, c, rfl⟩ := cube_corner hr hi hc
      rw [← hfi, hσ]
    obtain ⟨i, hi, hc⟩ := volume_cube hr hx hy hz hvq
    have own : Region t.grid.dims t.res f σ q := by
      have := region_any (f := f) hi hc
      rwa [region _ this] at this
    have touch : ∀ r, dist3 q r = 0 → r = q := by
      intro r hr0
      have h0 : sqDist3 q r = 0 := by
        have := Real.sqrt_eq_zero (sqDist3_nonneg q r)
        exact this.mp hr0
      unfold sqDist3 at h0
      have e1 : q.x - r.x = 0 := by nlinarith [sq_nonneg (q.x - r.x), sq_nonneg (q.y - r.y), sq_nonneg (q.z - r.z)]
      have e2 : q.y - r.y = 0 := by nlinarith [sq_nonneg (q.x - r.x), sq_nonneg (q.y - r.y), sq_nonneg (q.z - r.z)]
      have e3 : q.z - r.z = 0 := by nlinarith [sq_nonneg (q.x - r.x), sq_nonneg (q.y - r.y), sq_nonneg (q.z - r.z)]
      cases q; cases r
      simp only [V3.mk.injEq] at *
      exact ⟨by linarith, by linarith, by linarith⟩
    refine Or.inl ⟨σ, hσ, fun h0 => ?_, fun h0 => ?_⟩
    · cases σ with
      | false => rfl
      | true =>
        have hz0 := (sd_sign hs).1 own
        have e0 : sd = 0 := le_antisymm hz0 h0
        obtain ⟨⟨r, hr1, hr2⟩, -⟩ := hs.inside hz0
        rw [e0, neg_zero] at hr2
        rw [touch r hr2] at hr1
        exact absurd (region _ hr1) (by decide)
    · cases σ with
      | true => rfl
      | false =>
        have hz0 := (sd_sign hs).2 own
        have e0 : sd = 0 := le_antisymm h0 hz0
        obtain ⟨⟨r, hr1, hr2⟩, -⟩ := hs.outside hz0
        rw [e0] at hr2
        rw [touch r hr2] at hr1
        exact absurd (region _ hr1) (by decide)
  · have both : ∀ σ, ∃ a b c, f (corner t.grid.dims t.res q a b c) = σ := by
      intro σ
      by_contra hc
      push Not at hc
      refine hmix ⟨!σ, fun a b c => ?_⟩
      have := hc a b c
      cases hfc : f (corner t.grid.dims t.res q a b c) <;> cases σ <;> simp_all
    refine Or.inr (interp_faithful hr hx hy hz hb he hq (fun a b c m hm => ?_) hs)
    refine (h _ (hin a b c) m hm).2 ?_
    obtain ⟨a', b', c', h'⟩ := both (!f (corner t.grid.dims t.res q a b c))
    have h1 := hm.2 (corner t.grid.dims t.res q a' b' c') ⟨hin a' b' c', by rw [h']; simp⟩
    exact lt_of_le_of_lt h1 (corner_dist _ hx hy hz _ _ _ _ _ _ _ _)

/-- Values that are sound in every map: the interpolant does not underestimate the distance by more. -/
theorem interp_sound {t : MSdf ℝ} (hr : 0 < t.res) (hx : 0 < t.grid.dims.nx) (hy : 0 < t.grid.dims.ny)
    (hz : 0 < t.grid.dims.nz) {f : Idx → Bool} (hb : BothClasses t.grid.dims f) {e : ℝ} (he : e < t.res)
    (h : Sound t f e) {q : V3 ℝ} (hq : InnerLocation t.grid.dims t.res q) {sd : ℝ}
    (hs : SignedDistance t.grid.dims t.res f q sd) :
    (0 ≤ sd → sd - ((Real.sqrt 3 - 1 / 2) * t.res + e) ≤ interpAt t q) ∧
    (sd ≤ 0 → interpAt t q ≤ sd + ((Real.sqrt 3 - 1 / 2) * t.res + e)) := by
  have s3 : 1 ≤ Real.sqrt 3 := Real.one_le_sqrt.mpr (by norm_num)
  rcases corners_cases hr hx hy hz hb he h hq hs with ⟨σ, hσ, h1, h2⟩ | h
  · have low := interp_le hr hx hy hz hb hq (!σ) (κ := e) (fun a b c s hs' => by
      have hin : InBounds t.grid.dims (corner t.grid.dims t.res q a b c) :=
        cornerIdx_inB (K := ℝ) hx hy hz (q.x / t.res) (q.y / t.res) (q.z / t.res) a b c
      obtain ⟨m, hm⟩ := both_opposite hb (v := corner t.grid.dims t.res q a b c)
      have := corner_sound hr he hin hm ((h _ hin m hm).1) hs'
      rw [hσ] at this
      revert this
      cases σ <;> simp only [signed, Bool.not_true, Bool.not_false, if_true, Bool.false_eq_true, if_false] <;>
        intro this <;> linarith) hs
    constructor
    · intro h0
      rw [h1 h0] at low
      simp only [signed, Bool.not_false, if_true] at low
      nlinarith
    · intro h0
      rw [h2 h0] at low
      simp only [signed, Bool.not_true, Bool.false_eq_true, if_false] at low
      nlinarith
  · rw [abs_le] at h
    exact ⟨fun _ => by linarith, fun _ => by linarith⟩

/-- Every stored value is at most `c` times the distance to the nearest centre of the opposite class, up to `e`. -/
def Within (t : MSdf ℝ) (f : Idx → Bool) (c e : ℝ) : Prop :=
  ∀ v, InBounds t.grid.dims v → ∀ m, NearestOpposite t.grid.dims f v m →
    signed (f v) (t.grid.get v) ≤ c * (t.res * Real.sqrt m) + e

/-- Values that overestimate by at most a factor: so does the interpolant, up to some cells. -/
theorem interp_within {t : MSdf ℝ} (hr : 0 < t.res) (hx : 0 < t.grid.dims.nx) (hy : 0 < t.grid.dims.ny)
    (hz : 0 < t.grid.dims.nz) {f : Idx → Bool} (hb : BothClasses t.grid.dims f) {e c e' : ℝ} (he : e < t.res)
    (h : Sound t f e) (hc : 1 ≤ c) (hee : e ≤ e') (hw : Within t f c e') {q : V3 ℝ}
    (hq : InnerLocation t.grid.dims t.res q) {sd : ℝ} (hs : SignedDistance t.grid.dims t.res f q sd) :
    (0 ≤ sd → interpAt t q ≤ c * sd + ((c * Real.sqrt 3 - 1 / 2) * t.res + e')) ∧
    (sd ≤ 0 → c * sd - ((c * Real.sqrt 3 - 1 / 2) * t.res + e') ≤ interpAt t q) := by
  have s3 : 1 ≤ Real.sqrt 3 := Real.one_le_sqrt.mpr (by norm_num)
  rcases corners_cases hr hx hy hz hb he h hq hs with ⟨σ, hσ, h1, h2⟩ | h
  · have low := interp_le_mul hr hx hy hz hb hq σ (c₀ := c) (κ := c * (Real.sqrt 3 / 2 * t.res) - t.res / 2 + e')
      (by linarith) (fun a b d s hs' => by
      have hin : InBounds t.grid.dims (corner t.grid.dims t.res q a b d) :=
        cornerIdx_inB (K := ℝ) hx hy hz (q.x / t.res) (q.y / t.res) (q.z / t.res) a b d
      obtain ⟨m, hm⟩ := both_opposite hb (v := corner t.grid.dims t.res q a b d)
      have m1 := nearest_one hm
      have w := hw _ hin m hm
      have l := (h _ hin m hm).1
      obtain ⟨-, c2⟩ := centre_sd hr hin hm hs'
      have hpos : 0 < signed (f (corner t.grid.dims t.res q a b d)) (t.grid.get (corner t.grid.dims t.res q a b d)) := by
        nlinarith
      have ec := corrected_signed hpos
      rw [hσ] at ec w c2
      rw [ec]
      have := mul_le_mul_of_nonneg_left c2 (by linarith : (0 : ℝ) ≤ c)
      linarith) hs
    constructor
    · intro h0
      rw [h1 h0] at low
      simp only [signed, Bool.false_eq_true, if_false] at low
      linarith
    · intro h0
      rw [h2 h0] at low
      simp only [signed, if_true] at low
      linarith
  · rw [abs_le] at h
    have k : Real.sqrt 3 * t.res ≤ c * (Real.sqrt 3 * t.res) := by
      have : 0 ≤ Real.sqrt 3 * t.res := by positivity
      nlinarith
    constructor
    · intro h0
      have : sd ≤ c * sd := by nlinarith
      linarith
    · intro h0
      have : c * sd ≤ sd := by nlinarith
      linarith

end SignedDist

end Verif
