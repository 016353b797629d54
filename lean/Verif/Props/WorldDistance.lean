import Verif.Spec.WorldDistance
import Verif.Spec.Marks
import Verif.Props.SignedEstimate

/-!
# C118: distance estimates and the signed distance in the world

The claims of C115 are about the grid-frame coordinates of a query.  Here the query and the obstacles are in the world:
the map is placed by the stored origin transform, and the program uses the inverse it has computed from it.
-/

namespace Verif

open Spec SdfGen DField

namespace FSdf

open SignedDist

/-! ## Distances in both frames -/

theorem term_le {K u v S : ℝ} (hK : |K| ≤ 1 / 2 ^ 48) (hu : u ^ 2 ≤ S) (hv : v ^ 2 ≤ S) :
    |K * (u * v)| ≤ 1 / 2 ^ 48 * S := by
  rw [abs_mul]
  refine mul_le_mul hK ?_ (abs_nonneg _) (by norm_num)
  rw [abs_le]
  constructor <;> nlinarith only [hu, hv, sq_nonneg (u - v), sq_nonneg (u + v)]

/-- A transform that is a rotation up to rounding keeps distances up to rounding. -/
theorem near_isometry {A : Aff ℝ} (h : NearRotation A) (p q : V3 ℝ) :
    dist3 (A.app id p) (A.app id q) ≤ (1 + 1 / 2 ^ 40) * dist3 p q ∧
      dist3 p q ≤ (1 + 1 / 2 ^ 40) * dist3 (A.app id p) (A.app id q) := by
  obtain ⟨⟨a1, a2, a3⟩, ⟨b1, b2, b3⟩, c1, c2, c3⟩ := h
  have n := sqDist3_nonneg p q
  have n' := sqDist3_nonneg (A.app id p) (A.app id q)
  have key : |sqDist3 (A.app id p) (A.app id q) - sqDist3 p q| ≤ 9 / 2 ^ 48 * sqDist3 p q := by
    set x := p.x - q.x with hx
    set y := p.y - q.y with hy
    set z := p.z - q.z with hz
    have e2 : sqDist3 p q = x ^ 2 + y ^ 2 + z ^ 2 := rfl
    dsimp only at a1 a2 a3 b1 b2 b3 c1 c2 c3
    generalize k1 : A.rx.x * A.rx.x + A.ry.x * A.ry.x + A.rz.x * A.rz.x - 1 = K1 at a1
    generalize k2 : A.rx.x * A.rx.y + A.ry.x * A.ry.y + A.rz.x * A.rz.y - 0 = K2 at a2
    generalize k3 : A.rx.x * A.rx.z + A.ry.x * A.ry.z + A.rz.x * A.rz.z - 0 = K3 at a3
    generalize k4 : A.rx.y * A.rx.x + A.ry.y * A.ry.x + A.rz.y * A.rz.x - 0 = K4 at b1
    generalize k5 : A.rx.y * A.rx.y + A.ry.y * A.ry.y + A.rz.y * A.rz.y - 1 = K5 at b2
    generalize k6 : A.rx.y * A.rx.z + A.ry.y * A.ry.z + A.rz.y * A.rz.z - 0 = K6 at b3
    generalize k7 : A.rx.z * A.rx.x + A.ry.z * A.ry.x + A.rz.z * A.rz.x - 0 = K7 at c1
    generalize k8 : A.rx.z * A.rx.y + A.ry.z * A.ry.y + A.rz.z * A.rz.y - 0 = K8 at c2
    generalize k9 : A.rx.z * A.rx.z + A.ry.z * A.ry.z + A.rz.z * A.rz.z - 1 = K9 at c3
    have e1 : sqDist3 (A.app id p) (A.app id q) - sqDist3 p q =
        K1 * (x * x) + K2 * (x * y) + K3 * (x * z) + K4 * (y * x) + K5 * (y * y) + K6 * (y * z) + K7 * (z * x) +
          K8 * (z * y) + K9 * (z * z) := by
      rw [← k1, ← k2, ← k3, ← k4, ← k5, ← k6, ← k7, ← k8, ← k9, hx, hy, hz]
      unfold sqDist3 Aff.app
      simp only [id]
      ring
    have t := fun {K u v : ℝ} => @term_le K u v (sqDist3 p q)
    have sx : x ^ 2 ≤ sqDist3 p q := by rw [e2]; linarith only [sq_nonneg y, sq_nonneg z]
    have sy : y ^ 2 ≤ sqDist3 p q := by rw [e2]; linarith only [sq_nonneg x, sq_nonneg z]
    have sz : z ^ 2 ≤ sqDist3 p q := by rw [e2]; linarith only [sq_nonneg x, sq_nonneg y]
    have t1 := abs_le.mp (t a1 sx sx)
    have t2 := abs_le.mp (t a2 sx sy)
    have t3 := abs_le.mp (t a3 sx sz)
    have t4 := abs_le.mp (t b1 sy sx)
    have t5 := abs_le.mp (t b2 sy sy)
    have t6 := abs_le.mp (t b3 sy sz)
    have t7 := abs_le.mp (t c1 sz sx)
    have t8 := abs_le.mp (t c2 sz sy)
    have t9 := abs_le.mp (t c3 sz sz)
    rw [e1, abs_le]
    constructor <;> linarith only [t1.1, t1.2, t2.1, t2.2, t3.1, t3.2, t4.1, t4.2, t5.1, t5.2, t6.1, t6.2, t7.1, t7.2, t8.1,
      t8.2, t9.1, t9.2]
  obtain ⟨l, u⟩ := abs_le.mp key
  unfold dist3
  generalize sqDist3 (A.app id p) (A.app id q) = S' at *
  generalize sqDist3 p q = S at *
  have step : ∀ {X Y : ℝ}, 0 ≤ Y → X ≤ (1 + 1 / 2 ^ 40) ^ 2 * Y → √X ≤ (1 + 1 / 2 ^ 40) * √Y := by
    intro X Y hY hXY
    calc √X ≤ √((1 + 1 / 2 ^ 40) ^ 2 * Y) := Real.sqrt_le_sqrt hXY
      _ = _ := by rw [Real.sqrt_mul (by positivity), Real.sqrt_sq (by norm_num)]
  norm_num at l u
  exact ⟨step n (by norm_num; linarith), step n' (by norm_num; linarith)⟩

theorem dist3_zero_of {A : Aff ℝ} (h : NearRotation A) {p q : V3 ℝ} (h0 : dist3 (A.app id p) (A.app id q) = 0) :
    dist3 p q = 0 := by
  have := (near_isometry h p q).2
  rw [h0, mul_zero] at this
  exact le_antisymm this (dist3_nonneg _ _)

/-- Signed distances in the grid frame and in the world differ by their rounding. -/
theorem world_grid {A : Aff ℝ} (hA : NearRotation A) {d : Dims} {res : ℝ} {f : Idx → Bool} {c : V3 ℝ} {b : Bool}
    (hc : Region d res f b c) {sd sw : ℝ} (hs : SignedDistance d res f c sd)
    (hw : WorldDistance A d res f (A.app id c) sw) :
    (0 ≤ sd → 0 ≤ sw) ∧ (sd ≤ 0 → sw ≤ 0) ∧ |sw| ≤ (1 + 1 / 2 ^ 40) * |sd| ∧ |sd| ≤ (1 + 1 / 2 ^ 40) * |sw| := by
  have iso := near_isometry hA c
  have pos : ∀ {x y : ℝ}, 0 ≤ x → 0 ≤ y → x ≤ (1 + 1 / 2 ^ 40) * y → |x| ≤ (1 + 1 / 2 ^ 40) * |y| := by
    intro x y h0 h1 h2; rw [abs_of_nonneg h0, abs_of_nonneg h1]; exact h2
  have neg : ∀ {x y : ℝ}, x ≤ 0 → y ≤ 0 → -x ≤ (1 + 1 / 2 ^ 40) * -y → |x| ≤ (1 + 1 / 2 ^ 40) * |y| := by
    intro x y h0 h1 h2; rw [abs_of_nonpos h0, abs_of_nonpos h1]; exact h2
  have zero : sd = 0 → sw = 0 → (0 ≤ sd → 0 ≤ sw) ∧ (sd ≤ 0 → sw ≤ 0) ∧ |sw| ≤ (1 + 1 / 2 ^ 40) * |sd| ∧
      |sd| ≤ (1 + 1 / 2 ^ 40) * |sw| := by
    rintro rfl rfl; simp
  rcases le_total 0 sd with s0 | s0 <;> rcases le_total 0 sw with w0 | w0
  · obtain ⟨⟨r, hr, er⟩, hmin⟩ := hs.outside s0
    obtain ⟨⟨r', hr', er'⟩, hmin'⟩ := hw.outside w0
    refine ⟨fun _ => w0, fun h => ?_, pos w0 s0 ?_, pos s0 w0 ?_⟩
    · have e0 : sd = 0 := le_antisymm h s0
      have := (hmin' r hr).trans (iso r).1
      rw [er, e0, mul_zero] at this
      exact this
    · rw [← er]; exact (hmin' r hr).trans (iso r).1
    · rw [← er']; exact (hmin r' hr').trans (iso r').2
  · cases b with
    | true =>
      have e1 : sd = 0 := le_antisymm ((dist3_self c) ▸ (hs.outside s0).2 c hc) s0
      obtain ⟨⟨r, hr, er⟩, -⟩ := hs.inside e1.le
      have := ((hw.inside w0).2 r hr).trans (iso r).1
      rw [er, e1, neg_zero, mul_zero] at this
      exact zero e1 (by linarith)
    | false =>
      have := (hw.inside w0).2 c hc
      rw [dist3_self] at this
      have e1 : sw = 0 := by linarith
      obtain ⟨⟨r, hr, er⟩, -⟩ := hw.outside e1.ge
      have := (hs.outside s0).2 r hr
      rw [dist3_zero_of hA (er.trans e1)] at this
      exact zero (le_antisymm this s0) e1
  · cases b with
    | true =>
      have := (hw.outside w0).2 c hc
      rw [dist3_self] at this
      have e1 : sw = 0 := by linarith
      obtain ⟨⟨r, hr, er⟩, -⟩ := hw.inside e1.le
      have := (hs.inside s0).2 r hr
      rw [dist3_zero_of hA (er.trans (by rw [e1, neg_zero]))] at this
      exact zero (by linarith) e1
    | false =>
      have := (hs.inside s0).2 c hc
      rw [dist3_self] at this
      have e1 : sd = 0 := by linarith
      obtain ⟨⟨r, hr, er⟩, -⟩ := hs.outside e1.ge
      have := ((hw.outside w0).2 r hr).trans (iso r).1
      rw [er, e1, mul_zero] at this
      exact zero e1 (by linarith)
  · obtain ⟨⟨r, hr, er⟩, hmin⟩ := hs.inside s0
    obtain ⟨⟨r', hr', er'⟩, hmin'⟩ := hw.inside w0
    refine ⟨fun h => ?_, fun _ => w0, neg w0 s0 ?_, neg s0 w0 ?_⟩
    · have e0 : sd = 0 := le_antisymm s0 h
      have := (hmin' r hr).trans (iso r).1
      rw [er, e0, neg_zero, mul_zero] at this
      linarith
    · rw [← er]; exact (hmin' r hr).trans (iso r).1
    · rw [← er']; exact (hmin r' hr').trans (iso r').2

/-- A cube has a point whose world position is nearest to `p`. -/
theorem cube_nearest_world (A : Aff ℝ) {res : ℝ} (hr : 0 ≤ res) (i : Idx) (p : V3 ℝ) :
    ∃ r, InCube res i r ∧ ∀ r', InCube res i r' → dist3 p (A.app id r) ≤ dist3 p (A.app id r') := by
  have hK : IsCompact (Set.Icc (i.x * res) ((i.x + 1) * res) ×ˢ Set.Icc (i.y * res) ((i.y + 1) * res) ×ˢ
      Set.Icc (i.z * res) ((i.z + 1) * res)) := isCompact_Icc.prod (isCompact_Icc.prod isCompact_Icc)
  have hc : Continuous fun v : ℝ × ℝ × ℝ => dist3 p (A.app id ⟨v.1, v.2.1, v.2.2⟩) := by
    unfold dist3 sqDist3 Aff.app
    simp only [id]
    fun_prop
  have le : ∀ k : ℝ, k * res ≤ (k + 1) * res := fun k => by nlinarith
  obtain ⟨v, hv, hmin⟩ := hK.exists_isMinOn ⟨(i.x * res, i.y * res, i.z * res),
    ⟨le_rfl, le _⟩, ⟨le_rfl, le _⟩, ⟨le_rfl, le _⟩⟩ hc.continuousOn
  obtain ⟨hx, hy, hz⟩ := hv
  refine ⟨⟨v.1, v.2.1, v.2.2⟩, ⟨hx, hy, hz⟩, fun r' hr' => ?_⟩
  exact isMinOn_iff.mp hmin (r'.x, r'.y, r'.z) ⟨hr'.1, hr'.2.1, hr'.2.2⟩

theorem region_nearest_world (A : Aff ℝ) {d : Dims} {res : ℝ} {f : Idx → Bool} (hr : 0 ≤ res) {b : Bool} {i : Idx}
    (hi : InBounds d i) (hb : f i = b) (p : V3 ℝ) :
    ∃ r, Region d res f b r ∧ ∀ r', Region d res f b r' → dist3 p (A.app id r) ≤ dist3 p (A.app id r') := by
  classical
  choose g g1 g2 using fun i => cube_nearest_world A hr i p
  set S : Finset Idx := d.all.toFinset.filter fun i => f i = b with hS
  have mem : ∀ i, i ∈ S ↔ InBounds d i ∧ f i = b := by
    intro i
    rw [hS, Finset.mem_filter, List.mem_toFinset, Dims.mem_all, inB_iff_spec]
  obtain ⟨j, hj, hmin⟩ := S.exists_min_image (fun i => dist3 p (A.app id (g i))) ⟨i, (mem i).mpr ⟨hi, hb⟩⟩
  have hj' := (mem j).mp hj
  refine ⟨g j, ⟨j, hj'.1, hj'.2, g1 j⟩, ?_⟩
  rintro r' ⟨k, hk, hkb, hr'⟩
  exact (hmin k ((mem k).mpr ⟨hk, hkb⟩)).trans (g2 k r' hr')

/-- Every location of the volume has exactly one signed distance in the world. -/
theorem exists_world (A : Aff ℝ) {d : Dims} {res : ℝ} {f : Idx → Bool} (hr : 0 ≤ res) (h : BothClasses d f) {c : V3 ℝ}
    {b : Bool} (hc : Region d res f b c) : ∃! sw, WorldDistance A d res f (A.app id c) sw := by
  obtain ⟨⟨u, hu, hfu⟩, v, hv, hfv⟩ := h
  obtain ⟨r, h1, h2⟩ := region_nearest_world A hr hu hfu (A.app id c)
  obtain ⟨r', h1', h2'⟩ := region_nearest_world A hr hv hfv (A.app id c)
  have n := dist3_nonneg (A.app id c) (A.app id r)
  have n' := dist3_nonneg (A.app id c) (A.app id r')
  have ex : ∃ sw, WorldDistance A d res f (A.app id c) sw := by
    cases b with
    | true =>
      have z : dist3 (A.app id c) (A.app id r) = 0 := le_antisymm ((h2 c hc).trans (dist3_self _).le) n
      refine ⟨-dist3 (A.app id c) (A.app id r'), fun h => ?_,
        fun _ => ⟨⟨r', h1', by ring⟩, fun x hx => by rw [neg_neg]; exact h2' x hx⟩⟩
      have z' : dist3 (A.app id c) (A.app id r') = 0 := by linarith
      rw [z', neg_zero]
      exact ⟨⟨r, h1, z⟩, fun x hx => dist3_nonneg _ _⟩
    | false =>
      have z : dist3 (A.app id c) (A.app id r') = 0 := le_antisymm ((h2' c hc).trans (dist3_self _).le) n'
      refine ⟨dist3 (A.app id c) (A.app id r), fun _ => ⟨⟨r, h1, rfl⟩, h2⟩, fun h => ?_⟩
      have z' : dist3 (A.app id c) (A.app id r) = 0 := by linarith
      rw [z', neg_zero]
      exact ⟨⟨r', h1', z⟩, fun x hx => dist3_nonneg _ _⟩
  obtain ⟨sw, hw⟩ := ex
  refine ⟨sw, hw, fun s hs => ?_⟩
  have same : ∀ {a b : ℝ}, 0 ≤ a → 0 ≤ b → WorldDistance A d res f (A.app id c) a →
      WorldDistance A d res f (A.app id c) b → a = b := by
    intro a b ha hb h1 h2
    obtain ⟨⟨r1, m1, e1⟩, k1⟩ := h1.outside ha
    obtain ⟨⟨r2, m2, e2⟩, k2⟩ := h2.outside hb
    exact le_antisymm (e2 ▸ k1 r2 m2) (e1 ▸ k2 r1 m1)
  have same' : ∀ {a b : ℝ}, a ≤ 0 → b ≤ 0 → WorldDistance A d res f (A.app id c) a →
      WorldDistance A d res f (A.app id c) b → a = b := by
    intro a b ha hb h1 h2
    obtain ⟨⟨r1, m1, e1⟩, k1⟩ := h1.inside ha
    obtain ⟨⟨r2, m2, e2⟩, k2⟩ := h2.inside hb
    have := e2 ▸ k1 r2 m2
    have := e1 ▸ k2 r1 m1
    linarith
  have cross : ∀ {a b : ℝ}, 0 ≤ a → b ≤ 0 → WorldDistance A d res f (A.app id c) a →
      WorldDistance A d res f (A.app id c) b → a = b := by
    intro x y hx hy h1 h2
    rcases b with _ | _
    · have := (h2.inside hy).2 c hc
      rw [dist3_self] at this
      exact same hx (by linarith) h1 h2
    · have := (h1.outside hx).2 c hc
      rw [dist3_self] at this
      exact same' (by linarith) hy h1 h2
  rcases le_total 0 s with a | a <;> rcases le_total 0 sw with b' | b'
  · exact same a b' hs hw
  · exact cross a b' hs hw
  · exact (cross b' a hw hs).symm
  · exact same' a b' hs hw

/-! ## The computed inverse -/

theorem wellInner_inner {n : ℕ} {res x y : ℝ} (hr : 0 < res) (h : WellInner n (x / res)) (hxy : |y - x| ≤ res / 2 ^ 15) :
    Inner n (y / res) ∧ res / 2000 < y ∧ res / 2000 < n * res - y ∧ 0 ≤ x ∧ x ≤ n * res := by
  obtain ⟨t, rfl⟩ : ∃ t, x = t * res := ⟨x / res, by field_simp⟩
  obtain ⟨u, rfl⟩ : ∃ u, y = u * res := ⟨y / res, by field_simp⟩
  rw [mul_div_cancel_right₀ _ hr.ne'] at *
  have hu : |u - t| ≤ 1 / 2 ^ 15 := by
    rw [← sub_mul, abs_mul, abs_of_pos hr] at hxy
    rw [div_eq_mul_one_div, mul_comm res] at hxy
    exact le_of_mul_le_mul_right hxy hr
  obtain ⟨u1, u2⟩ := abs_le.mp hu
  norm_num at u1 u2
  have hn : (n : ℝ) * res - u * res = (n - u) * res := by ring
  have e2 : res / 2000 = 1 / 2000 * res := by ring
  rw [hn, e2]
  rcases h with ⟨rfl, h1, h2⟩ | ⟨h1, h2⟩
  · push_cast
    refine ⟨Or.inl ⟨rfl, by linarith, by linarith⟩, ?_, ?_, ?_, ?_⟩
    · exact mul_lt_mul_of_pos_right (by linarith) hr
    · exact mul_lt_mul_of_pos_right (by linarith) hr
    · exact mul_nonneg (by linarith) hr.le
    · exact mul_le_mul_of_nonneg_right (by linarith) hr.le
  · refine ⟨Or.inr ⟨by linarith, by linarith⟩, ?_, ?_, ?_, ?_⟩
    · exact mul_lt_mul_of_pos_right (by linarith) hr
    · exact mul_lt_mul_of_pos_right (by linarith) hr
    · exact mul_nonneg (by linarith) hr.le
    · exact mul_le_mul_of_nonneg_right (by linarith) hr.le

/-- Where the program looks for the world position of a grid-frame location in the volume: its own computation
leads back to the location up to a small part of a cell. -/
theorem world_inside {A : Aff ℝ} (hA : NearRotation A) {res M : ℝ} (hlo : 1 / 2 ^ 100 ≤ res) (hhi : res ≤ 2 ^ 60)
    (hM' : M ≤ 2 ^ 29) (hT : OriginWithin A (M * res)) {d : Dims} {N : ℕ} (N1 : 1 ≤ N) (hNM : (N : ℝ) ≤ M)
    (hdim : d.nx ≤ N ∧ d.ny ≤ N ∧ d.nz ≤ N) {c : V3 ℝ} (hc : InsideBy d res c)
    {B : Aff ℝ} (hB : isoInverse ieee A = (B.rx, B.ry, B.rz, loc B.t)) :
    Reach B (A.app id c) (64 * M * res) ∧
      (∀ g ∈ faces ⟨d.nx * res, d.ny * res, d.nz * res⟩ (B.app id (A.app id c)), (64 * M + N) * res / 2 ^ 48 < g) ∧
      |(B.app id (A.app id c)).x - c.x| ≤ res / 2 ^ 15 ∧ |(B.app id (A.app id c)).y - c.y| ≤ res / 2 ^ 15 ∧
      |(B.app id (A.app id c)).z - c.z| ≤ res / 2 ^ 15 := by
  have r0 : 0 < res := lt_of_lt_of_le (by norm_num) hlo
  have N1' : (1 : ℝ) ≤ N := by exact_mod_cast N1
  have M1 : 1 ≤ M := N1'.trans hNM
  have Mr : res ≤ M * res := le_mul_of_one_le_left r0.le M1
  have Mr2 : M * res ≤ 2 ^ 29 * res := by gcongr
  have hT' : OriginWithin A (2 ^ 190) := by
    have : M * res ≤ 2 ^ 190 := by
      calc M * res ≤ 2 ^ 29 * 2 ^ 60 := by gcongr
        _ ≤ 2 ^ 190 := by norm_num
    exact ⟨hT.1.trans this, hT.2.1.trans this, hT.2.2.trans this⟩
  obtain ⟨B', eB, hAB⟩ := C112_inverse hA hT'
  obtain rfl : B' = B := by
    rw [eB] at hB
    obtain ⟨x, y, z, t⟩ := B
    obtain ⟨x', y', z', t'⟩ := B'
    unfold loc real at hB
    simp only [Prod.mk.injEq, V3.mk.injEq, Option.some.injEq, EReal.coe_eq_coe_iff] at hB
    obtain ⟨rfl, rfl, rfl, e1, e2, e3⟩ := hB
    obtain ⟨a, b, c⟩ := t
    obtain ⟨a', b', c'⟩ := t'
    simp only at e1 e2 e3
    rw [e1, e2, e3]
  obtain ⟨sA1, sA2, sA3, sB1, sB2, sB3⟩ := hAB.small
  obtain ⟨t1, t2, t3⟩ := hT
  obtain ⟨cx, cy, cz⟩ := hc
  have vol : ∀ {n : ℕ} {x : ℝ}, n ≤ N → res / 1000 ≤ x ∧ x ≤ n * res - res / 1000 → |x| ≤ M * res := by
    intro n x hn h
    rw [abs_of_nonneg (by linarith)]
    have : (n : ℝ) ≤ M := le_trans (by exact_mod_cast hn) hNM
    have : (n : ℝ) * res ≤ M * res := by gcongr
    linarith
  have bx := vol hdim.1 cx
  have bY := vol hdim.2.1 cy
  have bz := vol hdim.2.2 cz
  have tiny : (1 : ℝ) / 2 ^ 190 ≤ M * res / 2 ^ 90 := by
    rw [le_div_iff₀ (by norm_num)]
    refine le_trans ?_ Mr
    refine le_trans ?_ hlo
    norm_num
  obtain ⟨sh1, sh2, sh3⟩ := hAB.shift
  have shift : ∀ {x : ℝ}, |x| ≤ (|A.t.x| + |A.t.y| + |A.t.z|) / 2 ^ 48 + 1 / 2 ^ 190 → |x| ≤ 4 * (M * res) / 2 ^ 48 := by
    intro x hx
    refine hx.trans ?_
    have : 0 ≤ M * res := by linarith
    norm_num at tiny ⊢
    linarith
  have trip : ∀ {r u : V3 ℝ} {β : ℝ}, RowSmall r → RowNear A r u →
      |r.dot A.t + β| ≤ (|A.t.x| + |A.t.y| + |A.t.z|) / 2 ^ 48 + 1 / 2 ^ 190 →
      |r.x * (A.app id c).x + r.y * (A.app id c).y + r.z * (A.app id c).z + β - u.dot c| ≤ res / 2 ^ 15 := by
    intro r u β h1 h2 h3
    have := row_trip (e := 0) h1 h2 (shift h3) ⟨bx, bY, bz⟩ (w := A.app id c) (by simp [Within])
    refine this.trans ?_
    norm_num at Mr2 ⊢
    linarith
  have gx := trip sB1 hAB.rows.1 sh1
  have gy := trip sB2 hAB.rows.2.1 sh2
  have gz := trip sB3 hAB.rows.2.2 sh3
  have dx : (⟨1, 0, 0⟩ : V3 ℝ).dot c = c.x := by simp [V3.dot]
  have dy : (⟨0, 1, 0⟩ : V3 ℝ).dot c = c.y := by simp [V3.dot]
  have dz : (⟨0, 0, 1⟩ : V3 ℝ).dot c = c.z := by simp [V3.dot]
  rw [dx] at gx
  rw [dy] at gy
  rw [dz] at gz
  have face : ∀ {n : ℕ} {x y : ℝ}, res / 1000 ≤ x ∧ x ≤ n * res - res / 1000 → |y - x| ≤ res / 2 ^ 15 →
      res / 2000 < y ∧ res / 2000 < n * res - y := by
    intro n x y h hy
    obtain ⟨y1, y2⟩ := abs_le.mp hy
    norm_num at y1 y2
    constructor <;> linarith
  obtain ⟨fx, fx'⟩ := face cx gx
  obtain ⟨fy, fy'⟩ := face cy gy
  obtain ⟨fz, fz'⟩ := face cz gz
  refine ⟨?_, ?_, gx, gy, gz⟩
  · have pb : ∀ {r : V3 ℝ} {t : ℝ}, RowSmall r → |t| ≤ M * res → |r.x * c.x + r.y * c.y + r.z * c.z + t| ≤ 7 * (M * res) := by
      intro r t hr ht
      have p1 := mul_le_two hr.1 bx
      have p2 := mul_le_two hr.2.1 bY
      have p3 := mul_le_two hr.2.2 bz
      have a1 := abs_add_le (r.x * c.x + r.y * c.y + r.z * c.z) t
      have a2 := abs_add_le (r.x * c.x + r.y * c.y) (r.z * c.z)
      have a3 := abs_add_le (r.x * c.x) (r.y * c.y)
      linarith
    have tb : ∀ {r : V3 ℝ} {β : ℝ}, RowSmall r →
        |r.dot A.t + β| ≤ (|A.t.x| + |A.t.y| + |A.t.z|) / 2 ^ 48 + 1 / 2 ^ 190 → |β| ≤ 7 * (M * res) := by
      intro r β hr hβ
      have p1 := mul_le_two hr.1 t1
      have p2 := mul_le_two hr.2.1 t2
      have p3 := mul_le_two hr.2.2 t3
      have a2 := abs_add_le (r.x * A.t.x + r.y * A.t.y) (r.z * A.t.z)
      have a3 := abs_add_le (r.x * A.t.x) (r.y * A.t.y)
      have h1 := shift hβ
      have h2 := abs_sub_abs_le_abs_sub β (-(r.dot A.t))
      rw [abs_neg, sub_neg_eq_add, add_comm β] at h2
      have h3 : |r.dot A.t| ≤ 6 * (M * res) := by unfold V3.dot; linarith
      have : 4 * (M * res) / 2 ^ 48 ≤ M * res := by
        have : 0 ≤ M * res := by linarith
        norm_num; linarith
      linarith
    refine reach_of sB1 sB2 sB3 (b := 7 * (M * res)) (τ := 7 * (M * res)) ⟨pb sA1 t1, pb sA2 t2, pb sA3 t3⟩
      ⟨tb sB1 sh1, tb sB2 sh2, tb sB3 sh3⟩ ?_
    linarith
  · have small : (64 * M + N) * res / 2 ^ 48 ≤ res / 2000 := by
      have h1 : (N : ℝ) * res ≤ M * res := by gcongr
      have : (64 * M + N) * res / 2 ^ 48 = (64 * (M * res) + N * res) / 2 ^ 48 := by ring
      rw [this]
      norm_num at Mr2 ⊢
      linarith
    intro g hg
    refine lt_of_le_of_lt small ?_
    simp only [faces, List.mem_cons, List.not_mem_nil, or_false] at hg
    rcases hg with rfl | rfl | rfl | rfl | rfl | rfl
    · exact fx
    · exact fx'
    · exact fy
    · exact fy'
    · exact fz
    · exact fz'

/-- Where the program looks for the world position of a grid-frame location well inside the grid: its own computation
leads back to the location up to a small part of a cell. -/
theorem world_location {A : Aff ℝ} (hA : NearRotation A) {res M : ℝ} (hlo : 1 / 2 ^ 100 ≤ res) (hhi : res ≤ 2 ^ 60)
    (hM' : M ≤ 2 ^ 29) (hT : OriginWithin A (M * res)) {d : Dims} {N : ℕ} (N1 : 1 ≤ N) (hNM : (N : ℝ) ≤ M)
    (hdim : d.nx ≤ N ∧ d.ny ≤ N ∧ d.nz ≤ N) {c : V3 ℝ} (hc : WellInside d res c)
    {B : Aff ℝ} (hB : isoInverse ieee A = (B.rx, B.ry, B.rz, loc B.t)) :
    Reach B (A.app id c) (64 * M * res) ∧
      (∀ g ∈ faces ⟨d.nx * res, d.ny * res, d.nz * res⟩ (B.app id (A.app id c)), (64 * M + N) * res / 2 ^ 48 < g) ∧
      InnerLocation d res (B.app id (A.app id c)) ∧ InVolume d res c ∧
      |(B.app id (A.app id c)).x - c.x| ≤ res / 2 ^ 15 ∧ |(B.app id (A.app id c)).y - c.y| ≤ res / 2 ^ 15 ∧
      |(B.app id (A.app id c)).z - c.z| ≤ res / 2 ^ 15 := by
  have r0 : 0 < res := lt_of_lt_of_le (by norm_num) hlo
  have inside : ∀ {n : ℕ} {x : ℝ}, WellInner n (x / res) → res / 1000 ≤ x ∧ x ≤ n * res - res / 1000 := by
    intro n x h
    obtain ⟨t, rfl⟩ : ∃ t, x = t * res := ⟨x / res, by field_simp⟩
    rw [mul_div_cancel_right₀ _ r0.ne'] at h
    have e1 : res / 1000 = 1 / 1000 * res := by ring
    have e2 : (n : ℝ) * res - 1 / 1000 * res = (n - 1 / 1000) * res := by ring
    rw [e1, e2]
    rcases h with ⟨rfl, h1, h2⟩ | ⟨h1, h2⟩ <;>
      exact ⟨mul_le_mul_of_nonneg_right (by push_cast at *; linarith) r0.le,
        mul_le_mul_of_nonneg_right (by push_cast at *; linarith) r0.le⟩
  obtain ⟨h1, h2, gx, gy, gz⟩ := world_inside hA hlo hhi hM' hT N1 hNM hdim
    (c := c) ⟨inside hc.1, inside hc.2.1, inside hc.2.2⟩ hB
  obtain ⟨ix, -, -, vx⟩ := wellInner_inner r0 hc.1 gx
  obtain ⟨iy, -, -, vy⟩ := wellInner_inner r0 hc.2.1 gy
  obtain ⟨iz, -, -, vz⟩ := wellInner_inner r0 hc.2.2 gz
  exact ⟨h1, h2, ⟨ix, iy, iz⟩, ⟨vx, vy, vz⟩, gx, gy, gz⟩

/-- What the theorems of C115 need, for a query at the world position of the grid-frame location `c`. -/
theorem world_query {A : Aff ℝ} (hA : NearRotation A) {res M : ℝ} (hlo : 1 / 2 ^ 100 ≤ res) (hhi : res ≤ 2 ^ 60)
    (hM' : M ≤ 2 ^ 29) (hT : OriginWithin A (M * res)) {d : Dims} {N : ℕ} (hN : N ≤ 2 ^ 14) (hNM : (N : ℝ) ≤ M)
    (hdim : d.nx ≤ N ∧ d.ny ≤ N ∧ d.nz ≤ N) {f : Idx → Bool} (hb : BothClasses d f) {c : V3 ℝ} (hc : WellInside d res c)
    {B : Aff ℝ} (hB : isoInverse ieee A = (B.rx, B.ry, B.rz, loc B.t)) :
    Reach B (A.app id c) (64 * M * res) ∧
      (∀ g ∈ faces ⟨d.nx * res, d.ny * res, d.nz * res⟩ (B.app id (A.app id c)), (64 * M + N) * res / 2 ^ 48 < g) ∧
      InnerLocation d res (B.app id (A.app id c)) ∧
      (∃ b, Region d res f b c) ∧ ∀ sw, WorldDistance A d res f (A.app id c) sw → ∃ sd, SignedDistance d res f (B.app id (A.app id c)) sd ∧
        |sd - sw| ≤ res / 1000 := by
  have r0 : 0 < res := lt_of_lt_of_le (by norm_num) hlo
  obtain ⟨px, py, pz⟩ := both_pos hb
  obtain ⟨h1, h2, hq, hcV, gx, gy, gz⟩ := world_location hA hlo hhi hM' hT (by omega : 1 ≤ N) hNM hdim hc hB
  obtain ⟨i, hi, hic⟩ := volume_cube r0 px py pz hcV
  refine ⟨h1, h2, hq, ⟨_, region_any hi hic⟩, ?_⟩
  · intro sw hw
    have hgV : InVolume d res (B.app id (A.app id c)) := ⟨inner_range r0 hq.1, inner_range r0 hq.2.1, inner_range r0 hq.2.2⟩
    obtain ⟨sd, hs⟩ := inner_sd r0 hb hq
    obtain ⟨⟨u, hu, hfu⟩, v, hv, hfv⟩ := hb
    obtain ⟨sc, hsc⟩ := exists_sd r0.le hu hfu hv hfv hi hic
    refine ⟨sd, hs, ?_⟩
    have l1 := sd_lip r0 px py pz hgV hcV hs hsc
    have l2 := sd_lip r0 px py pz hcV hgV hsc hs
    rw [dist3_comm] at l2
    have hd : dist3 (B.app id (A.app id c)) c ≤ res / 2 ^ 14 := by
      unfold dist3
      rw [Real.sqrt_le_iff]
      refine ⟨by positivity, ?_⟩
      unfold sqDist3
      have sq : ∀ {x : ℝ}, |x| ≤ res / 2 ^ 15 → x ^ 2 ≤ (res / 2 ^ 15) ^ 2 := fun h => sq_le_sq' (abs_le.mp h).1 (abs_le.mp h).2
      have e1 : ((B.app id (A.app id c)).x - c.x) ^ 2 ≤ (res / 2 ^ 15) ^ 2 := sq gx
      have e2 : ((B.app id (A.app id c)).y - c.y) ^ 2 ≤ (res / 2 ^ 15) ^ 2 := sq gy
      have e3 : ((B.app id (A.app id c)).z - c.z) ^ 2 ≤ (res / 2 ^ 15) ^ 2 := sq gz
      have e4 : (res / 2 ^ 14) ^ 2 = 4 * (res / 2 ^ 15) ^ 2 := by ring
      rw [e4]
      have : 0 ≤ (res / 2 ^ 15) ^ 2 := by positivity
      linarith only [e1, e2, e3, this]
    obtain ⟨w1, w2, w3, w4⟩ := world_grid hA (region_any hi hic) hsc hw
    have big : |sc| ≤ 2 ^ 15 * res := by
      have far : ∀ {r : V3 ℝ} {b : Bool}, Region d res f b r → dist3 c r ≤ 2 ^ 15 * res := by
        rintro r b ⟨j, hj, -, ⟨x0, x1⟩, ⟨y0, y1⟩, z0, z1⟩
        have ax : ∀ {n : ℕ} {k : Int} {x y : ℝ}, n ≤ N → (0 ≤ k ∧ k < n) → k * res ≤ y → y ≤ (k + 1) * res →
            (0 ≤ x ∧ x ≤ n * res) → (x - y) ^ 2 ≤ (2 ^ 14 * res) ^ 2 := by
          intro n k x y hn hk h1 h2 hx
          have hn' : (n : ℝ) ≤ 2 ^ 14 := by exact_mod_cast hn.trans hN
          have k0 : (0 : ℝ) ≤ k := by exact_mod_cast hk.1
          have k1 : (k : ℝ) + 1 ≤ n := by exact_mod_cast hk.2
          have m1 : (n : ℝ) * res ≤ 2 ^ 14 * res := by gcongr
          have m2 : ((k : ℝ) + 1) * res ≤ n * res := by gcongr
          have m3 : 0 ≤ (k : ℝ) * res := by positivity
          exact sq_le_sq' (by linarith [hx.1]) (by linarith [hx.2])
        have e1 := ax hdim.1 hj.1 x0 x1 hcV.1
        have e2 := ax hdim.2.1 hj.2.1 y0 y1 hcV.2.1
        have e3 := ax hdim.2.2 hj.2.2 z0 z1 hcV.2.2
        unfold dist3
        rw [Real.sqrt_le_iff]
        refine ⟨by positivity, ?_⟩
        unfold sqDist3
        have e4 : (2 ^ 15 * res) ^ 2 = 4 * (2 ^ 14 * res) ^ 2 := by ring
        rw [e4]
        have : 0 ≤ (2 ^ 14 * res) ^ 2 := by positivity
        linarith
      rcases le_total 0 sc with h | h
      · obtain ⟨⟨r, hr, er⟩, -⟩ := hsc.outside h
        rw [abs_of_nonneg h, ← er]; exact far hr
      · obtain ⟨⟨r, hr, er⟩, -⟩ := hsc.inside h
        rw [abs_of_nonpos h, ← er]; exact far hr
    have big' : |sw| ≤ 2 ^ 16 * res := by
      norm_num at w3 big ⊢
      linarith
    have close : |sc - sw| ≤ res / 2 ^ 20 := by
      norm_num at w3 w4 big big' ⊢
      rcases le_total 0 sc with h | h
      · have h' := w1 h
        rw [abs_of_nonneg h, abs_of_nonneg h'] at *
        rw [abs_le]
        constructor <;> linarith
      · have h' := w2 h
        rw [abs_of_nonpos h, abs_of_nonpos h'] at *
        rw [abs_le]
        constructor <;> linarith
    obtain ⟨q1, q2⟩ := abs_le.mp close
    norm_num at q1 q2 hd
    rw [abs_le]
    constructor <;> linarith

/-! ## The claims -/

/-- C118 for maps whose obstacles, or whose free space, are the cells whose coordinates lie in three given sets (boxes,
walls, rooms).  The map is placed in the world by a stored transform `A` that is a rotation up to rounding, and the
program uses the inverse `B` it has computed from it.  For a query at the world position of a location `c` well inside the
grid, the reported distance is within 4/3 cells of the signed distance, in the world, to the obstacles. -/
theorem C118_product {res : ℝ} (hres : GoodRes ieee res) (hlo : 1 / 2 ^ 100 ≤ res) (hhi : res ≤ 2 ^ 60)
    {d : Dims} {N : ℕ} (hN : N ≤ 2 ^ 14) (hdim : d.nx ≤ N ∧ d.ny ≤ N ∧ d.nz ≤ N) {fill : Idx → Option Bool}
    {f : Idx → Bool} (hf : Answers d fill f) (hb : BothClasses d f) {X Y Z : ℤ → Prop}
    (hprod : IsProduct d (fun i => f i = true) X Y Z ∨ IsProduct d (fun i => f i = false) X Y Z)
    {oob : FVal} {o : Out} (ho : extract ieee (res, res, res) d fill oob false = some o) {A B : Aff ℝ}
    (hA : NearRotation A) (hB : isoInverse ieee A = (B.rx, B.ry, B.rz, loc B.t)) {M : ℝ} (hNM : (N : ℝ) ≤ M)
    (hM : M ≤ 2 ^ 29) (hT : OriginWithin A (M * res)) {c : V3 ℝ} (hc : WellInside d res c) :
    ∃ y sw : ℝ, (FSdf.mk o.sdf res).estimate ieee (affApp ieee B)
        (fun p => byAxis (axisCell ieee res) (affApp ieee B p)) (loc (A.app id c)) = some (real y, true) ∧
      WorldDistance A d res f (A.app id c) sw ∧ |y - sw| ≤ 4 / 3 * res := by
  have hhi' : res ≤ 2 ^ 100 := hhi.trans (by norm_num)
  obtain ⟨hp, hin, hq, ⟨b, hcb⟩, hw⟩ := world_query hA hlo hhi hM hT hN hNM hdim hb hc hB
  obtain ⟨sw, hsw, -⟩ := exists_world A hres.1.le hb hcb
  obtain ⟨sd, hs, hd⟩ := hw sw hsw
  have M1 : 1 ≤ M := by
    obtain ⟨hx, -, -⟩ := both_pos hb
    have : 1 ≤ N := by omega
    exact le_trans (by exact_mod_cast this) hNM
  obtain ⟨y, ey, hy⟩ := C115_product hres hlo hhi' hN hdim hf hb hprod ho (C112_product B) (C112_product B)
    (C112_lookup hlo hhi') (by linarith : 1 ≤ 64 * M) (by linarith) hp hin hq hs
  refine ⟨y, sw, ey, hsw, ?_⟩
  have := abs_sub_le y sd sw
  have := hres.1
  linarith

open Classical in
/-- C118 for collision maps: the same, for the distance field of the map and with its obstacles (occupied
cells, and unknown cells if these count as filled). -/
theorem C118_collision_map {res : ℝ} (hres : GoodRes ieee res) (hlo : 1 / 2 ^ 100 ≤ res) (hhi : res ≤ 2 ^ 60)
    (m : CMap) {N : ℕ} (hN : N ≤ 2 ^ 14) (hdim : m.grid.dims.nx ≤ N ∧ m.grid.dims.ny ≤ N ∧ m.grid.dims.nz ≤ N)
    (oob : FVal) (u : Bool) (hb : BothClasses m.grid.dims fun i => decide (Obstacle m u i)) {X Y Z : ℤ → Prop}
    (hprod : IsProduct m.grid.dims (Obstacle m u) X Y Z ∨ IsProduct m.grid.dims (fun i => ¬ Obstacle m u i) X Y Z)
    {A : Aff ℝ} (hA : NearRotation A) {M : ℝ} (hNM : (N : ℝ) ≤ M) (hM : M ≤ 2 ^ 29) (hT : OriginWithin A (M * res)) :
    ∃ o B, extractMap ieee (res, res, res) m oob u false = some o ∧ isoInverse ieee A = (B.rx, B.ry, B.rz, loc B.t) ∧
      ∀ c, WellInside m.grid.dims res c → ∃ y sw : ℝ, (FSdf.mk o.sdf res).estimate ieee (affApp ieee B)
        (fun p => byAxis (axisCell ieee res) (affApp ieee B p)) (loc (A.app id c)) = some (real y, true) ∧
      WorldDistance A m.grid.dims res (fun i => decide (Obstacle m u i)) (A.app id c) sw ∧ |y - sw| ≤ 4 / 3 * res := by
  obtain ⟨o, a, b, ho, _⟩ := base_spec (small_of hN hdim) (mapFill_answers m u) ieee res oob
  have hT' : OriginWithin A (2 ^ 190) := by
    have r0 := hres.1
    have : M * res ≤ 2 ^ 190 := by
      calc M * res ≤ 2 ^ 29 * 2 ^ 60 := by gcongr
        _ ≤ 2 ^ 190 := by norm_num
    exact ⟨hT.1.trans this, hT.2.1.trans this, hT.2.2.trans this⟩
  obtain ⟨B, hB, -⟩ := C112_inverse hA hT'
  refine ⟨o, B, by unfold extractMap; rw [extract_false]; exact ho, hB, fun c hc => ?_⟩
  refine C118_product hres hlo hhi hN hdim (mapFill_answers m u) hb (X := X) (Y := Y) (Z := Z) ?_
    (by rw [extract_false]; exact ho) hA hB hNM hM hT hc
  rcases hprod with h | h
  · left; intro i hi; have := h i hi; simpa using this
  · right; intro i hi; have := h i hi; simpa using this

/-- C118 as a collision check in the world: a reported distance of at least `ρ` and 4/3 cells shows that every point of
an obstacle is at least `ρ` away from the query; one of at most minus that, that every point of free space is. -/
theorem C118_clearance {res : ℝ} (hres : GoodRes ieee res) (hlo : 1 / 2 ^ 100 ≤ res) (hhi : res ≤ 2 ^ 60)
    {d : Dims} {N : ℕ} (hN : N ≤ 2 ^ 14) (hdim : d.nx ≤ N ∧ d.ny ≤ N ∧ d.nz ≤ N) {fill : Idx → Option Bool}
    {f : Idx → Bool} (hf : Answers d fill f) (hb : BothClasses d f) {X Y Z : ℤ → Prop}
    (hprod : IsProduct d (fun i => f i = true) X Y Z ∨ IsProduct d (fun i => f i = false) X Y Z)
    {oob : FVal} {o : Out} (ho : extract ieee (res, res, res) d fill oob false = some o) {A B : Aff ℝ}
    (hA : NearRotation A) (hB : isoInverse ieee A = (B.rx, B.ry, B.rz, loc B.t)) {M : ℝ} (hNM : (N : ℝ) ≤ M)
    (hM : M ≤ 2 ^ 29) (hT : OriginWithin A (M * res)) {c : V3 ℝ} (hc : WellInside d res c) :
    ∃ y : ℝ, (FSdf.mk o.sdf res).estimate ieee (affApp ieee B)
        (fun p => byAxis (axisCell ieee res) (affApp ieee B p)) (loc (A.app id c)) = some (real y, true) ∧
      (∀ ρ, 0 ≤ ρ → ρ + 4 / 3 * res ≤ y → ∀ r, Region d res f true r → ρ ≤ dist3 (A.app id c) (A.app id r)) ∧
      ∀ ρ, 0 ≤ ρ → y ≤ -(ρ + 4 / 3 * res) → ∀ r, Region d res f false r → ρ ≤ dist3 (A.app id c) (A.app id r) := by
  obtain ⟨y, sw, ey, hw, hy⟩ := C118_product hres hlo hhi hN hdim hf hb hprod ho hA hB hNM hM hT hc
  obtain ⟨h1, h2⟩ := abs_le.mp hy
  refine ⟨y, ey, fun ρ h0 hy r hr => ?_, fun ρ h0 hy r hr => ?_⟩
  · exact le_trans (by linarith) ((hw.outside (by linarith)).2 r hr)
  · exact le_trans (by linarith) ((hw.inside (by linarith)).2 r hr)

/-- C118 for every map whose stored distances are finite: outside the obstacles the reported distance falls short of the
signed distance in the world, and inside it exceeds it, by at most 4/3 cells. -/
theorem C118_every_map {res : ℝ} (hres : GoodRes ieee res) (hlo : 1 / 2 ^ 100 ≤ res) (hhi : res ≤ 2 ^ 60)
    {d : Dims} {N : ℕ} (hN : N ≤ 2 ^ 14) (hdim : d.nx ≤ N ∧ d.ny ≤ N ∧ d.nz ≤ N) {fill : Idx → Option Bool}
    {f : Idx → Bool} (hf : Answers d fill f) (hb : BothClasses d f)
    {oob : FVal} {o : Out} (ho : extract ieee (res, res, res) d fill oob false = some o)
    (hfin : ∀ v, InBounds d v → ∃ x : ℝ, o.sdf.get v = real x) {A B : Aff ℝ}
    (hA : NearRotation A) (hB : isoInverse ieee A = (B.rx, B.ry, B.rz, loc B.t)) {M : ℝ} (hNM : (N : ℝ) ≤ M)
    (hM : M * N ≤ 2 ^ 29) (hT : OriginWithin A (M * res)) {c : V3 ℝ} (hc : WellInside d res c) :
    ∃ y sw : ℝ, (FSdf.mk o.sdf res).estimate ieee (affApp ieee B)
        (fun p => byAxis (axisCell ieee res) (affApp ieee B p)) (loc (A.app id c)) = some (real y, true) ∧
      WorldDistance A d res f (A.app id c) sw ∧ (res / 1000 ≤ sw → sw - 4 / 3 * res ≤ y) ∧
      (sw ≤ -(res / 1000) → y ≤ sw + 4 / 3 * res) := by
  have hhi' : res ≤ 2 ^ 100 := hhi.trans (by norm_num)
  have r0 := hres.1
  have N1 : (1 : ℝ) ≤ N := by
    obtain ⟨hx, -, -⟩ := both_pos hb
    have : 1 ≤ N := by omega
    exact_mod_cast this
  have M1 : 1 ≤ M := N1.trans hNM
  have hM2 : M ≤ 2 ^ 29 := le_trans (le_mul_of_one_le_right (by linarith) N1) hM
  obtain ⟨hp, hin, hq, ⟨b, hcb⟩, hw⟩ := world_query hA hlo hhi hM2 hT hN hNM hdim hb hc hB
  obtain ⟨sw, hsw, -⟩ := exists_world A r0.le hb hcb
  obtain ⟨sd, hs, hd⟩ := hw sw hsw
  obtain ⟨y, ey, h1, h2⟩ := C115_every_map hres hlo hhi' hN hdim hf hb ho hfin (C112_product B) (C112_product B)
    (C112_lookup hlo hhi') (by linarith : 1 ≤ 64 * M) (by norm_num at hM ⊢; linarith) hp hin hq hs
  obtain ⟨d1, d2⟩ := abs_le.mp hd
  refine ⟨y, sw, ey, hsw, fun h => ?_, fun h => ?_⟩
  · have := h1 (by linarith); linarith
  · have := h2 (by linarith); linarith

/-- C118 for flat maps (one axis of one cell), two-sided. -/
theorem C118_flat {res : ℝ} (hres : GoodRes ieee res) (hlo : 1 / 2 ^ 100 ≤ res) (hhi : res ≤ 2 ^ 60)
    {d : Dims} {N : ℕ} (hN : N ≤ 2 ^ 14) (hdim : d.nx ≤ N ∧ d.ny ≤ N ∧ d.nz ≤ N) (hflat : Flat d)
    {fill : Idx → Option Bool} {f : Idx → Bool} (hf : Answers d fill f) (hb : BothClasses d f)
    {oob : FVal} {o : Out} (ho : extract ieee (res, res, res) d fill oob false = some o) {A B : Aff ℝ}
    (hA : NearRotation A) (hB : isoInverse ieee A = (B.rx, B.ry, B.rz, loc B.t)) {M : ℝ} (hNM : (N : ℝ) ≤ M)
    (hM : M * N ≤ 2 ^ 29) (hT : OriginWithin A (M * res)) {c : V3 ℝ} (hc : WellInside d res c) :
    ∃ y sw : ℝ, (FSdf.mk o.sdf res).estimate ieee (affApp ieee B)
        (fun p => byAxis (axisCell ieee res) (affApp ieee B p)) (loc (A.app id c)) = some (real y, true) ∧
      WorldDistance A d res f (A.app id c) sw ∧
      (res / 1000 ≤ sw → sw - 4 / 3 * res ≤ y ∧ y ≤ Real.sqrt 2 * sw + 21 / 10 * res) ∧
      (sw ≤ -(res / 1000) → Real.sqrt 2 * sw - 21 / 10 * res ≤ y ∧ y ≤ sw + 4 / 3 * res) := by
  have hhi' : res ≤ 2 ^ 100 := hhi.trans (by norm_num)
  have r0 := hres.1
  have N1 : (1 : ℝ) ≤ N := by
    obtain ⟨hx, -, -⟩ := both_pos hb
    have : 1 ≤ N := by omega
    exact_mod_cast this
  have M1 : 1 ≤ M := N1.trans hNM
  have hM2 : M ≤ 2 ^ 29 := le_trans (le_mul_of_one_le_right (by linarith) N1) hM
  obtain ⟨hp, hin, hq, ⟨b, hcb⟩, hw⟩ := world_query hA hlo hhi hM2 hT hN hNM hdim hb hc hB
  obtain ⟨sw, hsw, -⟩ := exists_world A r0.le hb hcb
  obtain ⟨sd, hs, hd⟩ := hw sw hsw
  obtain ⟨y, ey, h1, h2⟩ := C115_flat hres hlo hhi' hN hdim hflat hf hb ho (C112_product B) (C112_product B)
    (C112_lookup hlo hhi') (by linarith : 1 ≤ 64 * M) (by norm_num at hM ⊢; linarith) hp hin hq hs
  obtain ⟨d1, d2⟩ := abs_le.mp hd
  have s2 : √2 ≤ 3 / 2 := Real.sqrt_le_iff.mpr (by norm_num)
  have s0 := Real.sqrt_nonneg 2
  refine ⟨y, sw, ey, hsw, fun h => ?_, fun h => ?_⟩
  · obtain ⟨a, b⟩ := h1 (by linarith)
    refine ⟨by linarith, ?_⟩
    have : √2 * sd ≤ √2 * (sw + res / 1000) := by gcongr; linarith
    have : √2 * (res / 1000) ≤ 3 / 2 * (res / 1000) := by gcongr
    linarith
  · obtain ⟨a, b⟩ := h2 (by linarith)
    refine ⟨?_, by linarith⟩
    have : √2 * (sw - res / 1000) ≤ √2 * sd := by gcongr; linarith
    have : √2 * (res / 1000) ≤ 3 / 2 * (res / 1000) := by gcongr
    linarith

/-! ## A box in a turned grid -/

/-- The hypotheses of `C118_product` hold for a box in a grid of 5 x 6 x 5 cells turned by the angle with cosine 0.6. -/
example : ∃ (o : Out) (B : Aff ℝ) (y sw : ℝ), extract ieee ((1 / 4 : ℝ), (1 / 4 : ℝ), (1 / 4 : ℝ)) ⟨5, 6, 5⟩
      (fun i => some (exBox i)) (some ⊤) false = some o ∧ isoInverse ieee exPose = (B.rx, B.ry, B.rz, loc B.t) ∧
    (FSdf.mk o.sdf (1 / 4)).estimate ieee (affApp ieee B) (fun p => byAxis (axisCell ieee (1 / 4)) (affApp ieee B p))
      (loc (exPose.app id ⟨7 / 8, 5 / 8, 5 / 8⟩)) = some (real y, true) ∧
    WorldDistance exPose ⟨5, 6, 5⟩ (1 / 4) exBox (exPose.app id ⟨7 / 8, 5 / 8, 5 / 8⟩) sw ∧ |y - sw| ≤ 4 / 3 * (1 / 4) := by
  have hd : SmallGrid ⟨5, 6, 5⟩ := by unfold SmallGrid; decide
  have ans : Answers ⟨5, 6, 5⟩ (fun i => some (exBox i)) exBox := fun _ _ => rfl
  obtain ⟨o, _, _, ho, _⟩ := base_spec hd ans ieee (1 / 4) (some ⊤)
  rw [← extract_false] at ho
  obtain ⟨B, hB, -⟩ := C112_inverse exPose_rotation
    ⟨exPose_origin.1.trans (by norm_num), exPose_origin.2.1.trans (by norm_num), exPose_origin.2.2.trans (by norm_num)⟩
  obtain ⟨y, sw, h⟩ := C118_product quarter_good (by norm_num) (by norm_num) (N := 6) (by norm_num) (by decide) ans
    exBox_both (X := fun x => 1 ≤ x ∧ x ≤ 2) (Y := fun y => 1 ≤ y ∧ y ≤ 4) (Z := fun z => 2 ≤ z ∧ z ≤ 2)
    (Or.inl fun i _ => by simp [exBox]) ho exPose_rotation hB (M := 2 ^ 26) (by norm_num) (by norm_num) exPose_origin
    (c := ⟨7 / 8, 5 / 8, 5 / 8⟩) (by norm_num [WellInside, WellInner])
  exact ⟨o, B, y, sw, ho, hB, h⟩

end FSdf

end Verif
