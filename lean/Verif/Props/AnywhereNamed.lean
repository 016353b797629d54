import Verif.Props.AnywhereBorder
import Verif.Props.FreeNamedWorld

/-!
# C144 in the whole volume: reports of the free-and-named-objects field in the outermost half cells
-/

namespace Verif

open Spec SdfGen DField

namespace FSdf

open SignedDist

/-- The value of a cell of a named object next to a cell outside the named objects. -/
theorem named_edge {res : ℝ} (hres : GoodRes ieee res) (hlo : 1 / 2 ^ 126 ≤ res) (hhi : res ≤ 2 ^ 100) {m : TMap}
    (hd : SmallGrid m.dims) {oob : FVal} {u : Bool} {o : Out}
    (ho : m.extractFreeNamed ieee (res, res, res) oob u = some o) {g : Idx → ℝ}
    (hg : ∀ v, InBounds m.dims v → o.sdf.get v = some (g v : EReal)) {v w : Idx} (hv : InBounds m.dims v)
    (hw : InBounds m.dims w) (hf : NamedObstacle m u v) (hfw : ¬ NamedObstacle m u w) (h1 : sqDist v w = 1) :
    -g v ≤ 101 / 100 * res := by
  have r0 := hres.1
  obtain ⟨o', ho', hdist⟩ := C133_distances hres hlo hhi m hd oob u
  obtain rfl : o' = o := by rw [ho] at ho'; exact (Option.some.inj ho').symm
  have hk : NearestWith m.dims (fun p => ¬ NamedObstacle m u p) v 1 := by
    refine ⟨⟨w, hw, hfw, h1⟩, fun p _ hp => ?_⟩
    have hs : (1 : ℝ) ≤ Real.sqrt (sqDist v p) := sqrt_sqDist_pos (fun e => hp (e ▸ hf))
    have := Real.one_le_sqrt.mp hs
    exact_mod_cast this
  obtain ⟨y, e, herr⟩ := ((hdist v hv (-1) _ (Or.inr ⟨rfl, hf, rfl⟩)).2 1 hk).1 (by norm_num)
  have ev : g v = -1 * y := by
    rw [hg v hv] at e
    exact EReal.coe_eq_coe_iff.mp (Option.some.inj e)
  rw [ev]
  have h3 := (abs_le.mp herr).2
  simp only [Int.cast_one, Real.sqrt_one, mul_one] at h3
  have rel : relErr ≤ 1 / 100 := by unfold relErr; norm_num
  have : relErr * res ≤ 1 / 100 * res := by gcongr
  linarith

/-- Corrected values of neighbouring cells of a combined field that passes the check. -/
theorem freeNamed_jump {t : MSdf ℝ} (hr : 0 < t.res) {P Q : Idx → Prop} (h : TwoSided t P Q) (hQP : ∀ v, Q v → P v)
    (hone : ∀ v w, InBounds t.grid.dims v → InBounds t.grid.dims w → sqDist v w = 1 → ¬ P v → P w →
      t.grid.get v ≤ 101 / 100 * t.res)
    (hone' : ∀ v w, InBounds t.grid.dims v → InBounds t.grid.dims w → sqDist v w = 1 → Q v → ¬ Q w →
      -t.grid.get v ≤ 101 / 100 * t.res)
    (hst : ∀ v w, InBounds t.grid.dims v → InBounds t.grid.dims w → sqDist v w = 1 → 0 < t.grid.get v * t.grid.get w →
      |t.grid.get v - t.grid.get w| ≤ 101 / 100 * t.res) : Jump t (51 / 50 * t.res) := by
  have pos : ∀ v, InBounds t.grid.dims v → ¬ P v → 511 / 512 * t.res ≤ t.grid.get v := by
    intro v hv hp
    obtain ⟨p, -, hpp, he⟩ := h.free v hv hp
    have s1 := sqrt_sqDist_pos (fun e => hp (e ▸ hpp) : v ≠ p)
    have := (abs_le.mp he).1
    nlinarith
  have neg : ∀ v, InBounds t.grid.dims v → Q v → 511 / 512 * t.res ≤ -t.grid.get v := by
    intro v hv hq
    obtain ⟨p, -, hpp, he⟩ := h.named v hv hq
    have s1 := sqrt_sqDist_pos (fun e => hpp (e ▸ hq) : v ≠ p)
    have := (abs_le.mp he).1
    nlinarith
  have zero : ∀ v, InBounds t.grid.dims v → P v → ¬ Q v → halfCellCloser t.res (t.grid.get v) = -(t.res / 2) := by
    intro v hv hp hq
    rw [h.plain v hv hp hq]
    unfold halfCellCloser
    rw [if_pos le_rfl]
    ring
  intro i j hi hj hij
  have one := one_step hij
  have one' : sqDist j i = 1 := by rw [← one]; unfold sqDist; ring
  rw [abs_le]
  by_cases pi : P i
  · by_cases qi : Q i
    · rw [(h.closer_named hr hi qi).1]
      have ni := neg i hi qi
      by_cases pj : P j
      · by_cases qj : Q j
        · rw [(h.closer_named hr hj qj).1]
          have nj := neg j hj qj
          obtain ⟨a, b⟩ := abs_le.mp (hst i j hi hj one (by nlinarith))
          constructor <;> linarith
        · rw [zero j hj pj qj]
          have := hone' i j hi hj one qi qj
          constructor <;> linarith
      · rw [h.closer_free hr hj pj]
        have := hone' i j hi hj one qi fun q => pj (hQP j q)
        have := hone j i hj hi one' pj pi
        have := pos j hj pj
        constructor <;> linarith
    · rw [zero i hi pi qi]
      by_cases pj : P j
      · by_cases qj : Q j
        · rw [(h.closer_named hr hj qj).1]
          have nj := neg j hj qj
          have := hone' j i hj hi one' qj qi
          constructor <;> linarith
        · rw [zero j hj pj qj]
          constructor <;> linarith
      · rw [h.closer_free hr hj pj]
        have := hone j i hj hi one' pj pi
        have := pos j hj pj
        constructor <;> linarith
  · rw [h.closer_free hr hi pi]
    have ni := pos i hi pi
    by_cases pj : P j
    · have := hone i j hi hj one pi pj
      by_cases qj : Q j
      · rw [(h.closer_named hr hj qj).1]
        have nj := neg j hj qj
        have := hone' j i hj hi one' qj fun q => pi (hQP i q)
        constructor <;> linarith
      · rw [zero j hj pj qj]
        constructor <;> linarith
    · rw [h.closer_free hr hj pj]
      have nj := pos j hj pj
      obtain ⟨a, b⟩ := abs_le.mp (hst i j hi hj one (by nlinarith))
      constructor <;> linarith

section
variable {res : ℝ} {m : TMap} {A B : Aff ℝ} (hs : FreeNamedSetup res m A B) {oob : FVal} {u : Bool} {o : Out}
  (ho : m.extractFreeNamed ieee (res, res, res) oob u = some o) {g : Idx → ℝ} (hg : Checked m.dims res o.sdf.get g)
include hs ho hg

open Classical in
/-- C144 anywhere: `EstimateDistance` answers everywhere in the volume (up to a thousandth of a cell from its faces), and
the report exceeds 7/4 of the distance to any point of an obstacle, named or not, by at most 8 cells. -/
theorem C144_anywhere {c : V3 ℝ} (hc : InsideBy m.dims res c) :
    ∃ y, Reports o.sdf res B (A.app id c) y ∧
      ∀ r, Region m.dims res (fun i => decide (TObstacle m u i)) true r →
        y ≤ 7 / 4 * dist3 (A.app id c) (A.app id r) + 8 * res := by
  obtain ⟨hres, hlo, hhi, hA, hB, N, M, hN, hdim, hNM, hM, hT⟩ := hs
  have hhi' : res ≤ 2 ^ 100 := hhi.trans (by norm_num)
  have hlo' : (1 : ℝ) / 2 ^ 126 ≤ res := le_trans (by norm_num) hlo
  have r0 := hres.1
  have pos : ∀ {n : ℕ} {x : ℝ}, res / 1000 ≤ x ∧ x ≤ n * res - res / 1000 → 0 < n := by
    intro n x h
    rcases Nat.eq_zero_or_pos n with rfl | h0
    · exfalso
      have := h.1.trans h.2
      push_cast at this
      linarith
    · exact h0
  have hx := pos hc.1
  have hy := pos hc.2.1
  have hz := pos hc.2.2
  have N1 : 1 ≤ N := by omega
  have N1' : (1 : ℝ) ≤ N := by exact_mod_cast N1
  have M1 : 1 ≤ M := N1'.trans hNM
  have hM2 : M ≤ 2 ^ 29 := le_trans (le_mul_of_one_le_right (by linarith) N1') hM
  obtain ⟨hp, hin, e1, e2, e3⟩ := world_inside hA hlo hhi hM2 hT N1 hNM hdim hc hB
  have hnear : ∀ v w, InBounds m.dims v → InBounds m.dims w → ¬ TObstacle m u v → TObstacle m u w →
      g v ≤ 17495 / 10000 * (res * Real.sqrt (sqDist v w)) := by
    intro v w hv hw hf hfw
    have n0 : 0 ≤ manhattan v w := by unfold manhattan; positivity
    have := freeNamed_steps hres hlo' hhi' hN hdim ho hg hw hfw (manhattan v w).toNat v hv hf (by omega)
    have e : (((manhattan v w).toNat : ℕ) : ℝ) = ((manhattan v w : ℤ) : ℝ) := by
      have : ((manhattan v w).toNat : ℤ) = manhattan v w := Int.toNat_of_nonneg n0
      exact_mod_cast congrArg (fun z : ℤ => (z : ℝ)) this
    rw [e] at this
    refine this.trans ?_
    have : ((manhattan v w : ℤ) : ℝ) ≤ Real.sqrt 3 * Real.sqrt (sqDist v w) := by
      rw [← Real.sqrt_mul (by norm_num)]
      refine Real.le_sqrt_of_sq_le ?_
      exact_mod_cast manhattan_three v w
    have s3 := sqrt3_bounds.2
    calc _ ≤ 101 / 100 * res * (Real.sqrt 3 * Real.sqrt (sqDist v w)) := by gcongr
      _ ≤ 101 / 100 * res * (17321 / 10000 * Real.sqrt (sqDist v w)) := by gcongr
      _ ≤ _ := by
        have : 0 ≤ res * Real.sqrt (sqDist v w) := by positivity
        linarith
  obtain ⟨hdims, hfree, hnamed, hplain, hone⟩ := freeNamed_values hres hlo' hhi' hN hdim ho hg.1
  have st : Stores (FSdf.mk o.sdf res) (exactAt (FSdf.mk o.sdf res) B) :=
    exact_stores fun i hi => ⟨g i, hg.1 i (by rw [← hdims]; exact hi)⟩
  have eg : ∀ v, InBounds m.dims v → (exactAt (FSdf.mk o.sdf res) B).grid.get v = g v := by
    intro v hv
    have : (exactAt (FSdf.mk o.sdf res) B).grid.get v = toR (o.sdf.get v) := exact_get (FSdf.mk o.sdf res) v
    rw [this, hg.1 v hv]
    simp [toR]
  have ed : (exactAt (FSdf.mk o.sdf res) B).grid.dims = m.dims := hdims
  have er : (exactAt (FSdf.mk o.sdf res) B).res = res := rfl
  have ei : (exactAt (FSdf.mk o.sdf res) B).inv = B := rfl
  have eq : (exactAt (FSdf.mk o.sdf res) B).toGrid (A.app id c) = B.app id (A.app id c) := rfl
  have es : (exactAt (FSdf.mk o.sdf res) B).size = ⟨m.dims.nx * res, m.dims.ny * res, m.dims.nz * res⟩ := by
    rw [← ed]; rfl
  unfold Reports
  generalize exactAt (FSdf.mk o.sdf res) B = t at st eg ed er ei eq es
  subst er
  have Nr : t.res ≤ N * t.res := le_mul_of_one_le_left r0.le N1'
  have hD : ∀ i, InBounds t.grid.dims i → |t.grid.get i| ≤ 2 * N * t.res := by
    intro i hi
    rw [ed] at hi
    rw [eg i hi]
    by_cases hf : TObstacle m u i
    · by_cases hn : NamedObstacle m u i
      · obtain ⟨p, -, -, h1, h2⟩ := hnamed i hi hn
        obtain ⟨a, b⟩ := abs_le.mp h1
        have : 0 ≤ t.res * Real.sqrt (sqDist i p) := by positivity
        rw [abs_le]
        constructor <;> linarith
      · rw [hplain i hi hf hn, abs_zero]
        positivity
    · obtain ⟨p, -, -, h1, h2⟩ := hfree i hi hf
      obtain ⟨a, b⟩ := abs_le.mp h1
      have : 0 ≤ t.res * Real.sqrt (sqDist i p) := by positivity
      rw [abs_le]
      constructor <;> linarith
  obtain ⟨y, ey, hyz⟩ := estimate_bounded st hN N1 (by rw [ed]; exact hdim) hlo hhi' hD
    (toGrid := affApp ieee B) (toGrid' := affApp ieee B) (by rw [ei]; exact C112_product B) (by rw [ei]; exact C112_product B)
    (C112_lookup hlo hhi') (by linarith : 1 ≤ 64 * M) (by norm_num at hM ⊢; linarith) (p := A.app id c)
    (by rw [ei]; exact hp) (by rw [es, eq]; exact hin)
  rw [eq] at hyz
  have hW : TwoSided t (TObstacle m u) (NamedObstacle m u) := by
    refine ⟨fun v hv hf => ?_, fun v hv hn => ?_, fun v hv hf hn => ?_⟩
    · rw [ed] at hv ⊢
      obtain ⟨p, a, b, h1, -⟩ := hfree v hv hf
      exact ⟨p, a, b, by rw [eg v hv]; exact h1⟩
    · rw [ed] at hv ⊢
      obtain ⟨p, a, b, h1, -⟩ := hnamed v hv hn
      exact ⟨p, a, b, by rw [eg v hv]; exact h1⟩
    · rw [ed] at hv
      rw [eg v hv]
      exact hplain v hv hf hn
  have hedge := fun v w hv hw hf hfw h1 => named_edge hres hlo' hhi' (small_of hN hdim) ho hg.1 (v := v) (w := w) hv hw hf
    hfw h1
  have hJ : Jump t (51 / 50 * t.res) := by
    refine freeNamed_jump r0 hW (fun v h => h.1) ?_ ?_ ?_ <;> rw [ed] <;> intro v w hv hw h1
    · intro a b
      rw [eg v hv]
      exact hone v w hv hw a b h1
    · intro a b
      rw [eg v hv]
      exact hedge v w hv hw a b h1
    · rw [eg v hv, eg w hw]
      exact hg.2 v w hv hw h1
  rw [← ed] at hx hy hz hc ⊢
  have hnear' : ∀ v w, InBounds t.grid.dims v → InBounds t.grid.dims w → ¬ TObstacle m u v → TObstacle m u w →
      t.grid.get v ≤ 17495 / 10000 * (t.res * Real.sqrt (sqDist v w)) := by
    rw [ed]
    intro v w hv hw h1 h2
    rw [eg v hv]
    exact hnear v w hv hw h1 h2
  set q := B.app id (A.app id c) with hqd
  have ax : ∀ {n : ℕ} {x z : ℝ}, t.res / 1000 ≤ x ∧ x ≤ n * t.res - t.res / 1000 → |z - x| ≤ t.res / 2 ^ 15 →
      -(t.res / 1000) ≤ z ∧ z ≤ n * t.res + t.res / 1000 := by
    intro n x z h hz
    obtain ⟨y1, y2⟩ := abs_le.mp hz
    norm_num at y1 y2
    constructor <;> linarith
  obtain ⟨x', ix, dx, nx⟩ := clamp_inner hx r0 (ax hc.1 (by exact e1))
  obtain ⟨y', iy, dy, ny⟩ := clamp_inner hy r0 (ax hc.2.1 e2)
  obtain ⟨z', iz, dz, nz⟩ := clamp_inner hz r0 (ax hc.2.2 e3)
  have hq' : InnerLocation t.grid.dims t.res ⟨x', y', z'⟩ := ⟨ix, iy, iz⟩
  have hl := interpAt_edge (a := q) r0 (by positivity) hJ hx hy hz nx ny hq'
  have ec : 51 / 50 * t.res / t.res = 51 / 50 := by field_simp
  rw [ec] at hl
  dsimp only at hl
  have qc : dist3 q c ≤ t.res / 2 ^ 14 := by
    have := dist3_small (by positivity : 0 ≤ t.res / 2 ^ 15) e1 e2 e3
    have e : 2 * (t.res / 2 ^ 15) = t.res / 2 ^ 14 := by ring
    linarith
  have hd3 : dist3 ⟨x', y', z'⟩ q ≤ 17321 / 10000 * (501 / 1000 * t.res) := by
    rw [dist3_comm]
    exact dist3_le_coords (by positivity) dx dy dz
  have dc : ∀ r, dist3 ⟨x', y', z'⟩ r ≤ 868 / 1000 * t.res + (1 + 1 / 2 ^ 40) * dist3 (A.app id c) (A.app id r) := by
    intro r
    have h1 := dist3_tri ⟨x', y', z'⟩ q r
    have h2 := dist3_tri q c r
    have h3 := (near_isometry hA c r).2
    norm_num at qc h3 ⊢
    linarith
  obtain ⟨y1, y2⟩ := abs_le.mp hyz
  obtain ⟨l1, l2⟩ := abs_le.mp hl
  have s3 := sqrt3_bounds.2
  have h7 : Real.sqrt 3 * t.res ≤ 17321 / 10000 * t.res := by gcongr
  refine ⟨y, ey, fun r hr => ?_⟩
  · have h1 := hW.obstacle r0 hx hy hz (by norm_num) hnear' hq' hr
    have h4 := dc r
    have n := dist3_nonneg (A.app id c) (A.app id r)
    norm_num at h4 ⊢
    linarith

open Classical in
/-- C144 for a path anywhere: reports of `7/4 * (ρ + δ)` and 8 cells are enough for waypoints anywhere in the volume. -/
theorem C144_path_anywhere {cs : List (V3 ℝ)} (hc : ∀ c ∈ cs, InsideBy m.dims res c)
    {ρ δ : ℝ} (hδ : 0 ≤ δ) (hsp : Spaced (2 * δ) (cs.map (A.app id)))
    (hask : ∀ w ∈ cs.map (A.app id), ∃ y, Reports o.sdf res B w y ∧ 7 / 4 * (ρ + δ) + 8 * res ≤ y)
    {p r : V3 ℝ} (hp : OnPath (cs.map (A.app id)) p) (hr : Region m.dims res (fun i => decide (TObstacle m u i)) true r) :
    ρ ≤ dist3 p (A.app id r) := by
  obtain ⟨w, hw, hn⟩ := path_near_waypoint (by linarith) hsp hp
  obtain ⟨y, ey, hy⟩ := hask w hw
  obtain ⟨c, hcs, rfl⟩ := List.mem_map.mp hw
  obtain ⟨y', ey', h⟩ := C144_anywhere hs ho hg (hc c hcs)
  obtain rfl := ey.unique ey'
  have h1 := h r hr
  have tri := dist3_tri (A.app id c) p (A.app id r)
  rw [dist3_comm (A.app id c) p] at tri
  linarith

end

/-- C144, maps that always pass: if the obstacles form a box-like set (a product of three sets of coordinates) or all but
such a set, and so do the obstacles with names, then the combined field passes the check. -/
theorem C144_product {res : ℝ} (hres : GoodRes ieee res) (hlo : 1 / 2 ^ 126 ≤ res) (hhi : res ≤ 2 ^ 100) {m : TMap}
    {N : ℕ} (hN : N ≤ 2 ^ 14) (hdim : m.dims.nx ≤ N ∧ m.dims.ny ≤ N ∧ m.dims.nz ≤ N) {oob : FVal} {u : Bool} {o : Out}
    (ho : m.extractFreeNamed ieee (res, res, res) oob u = some o) {X Y Z X' Y' Z' : ℤ → Prop}
    (hP : IsProduct m.dims (TObstacle m u) X Y Z ∨ IsProduct m.dims (fun i => ¬ TObstacle m u i) X Y Z)
    (hQ : IsProduct m.dims (NamedObstacle m u) X' Y' Z' ∨ IsProduct m.dims (fun i => ¬ NamedObstacle m u i) X' Y' Z')
    (hob : ∃ w, InBounds m.dims w ∧ TObstacle m u w) (hfr : ∃ w, InBounds m.dims w ∧ ¬ TObstacle m u w) :
    ∃ g, Checked m.dims res o.sdf.get g := by
  classical
  have r0 := hres.1
  obtain ⟨ids, hne, h0, hall⟩ : ∃ ids : List UInt32, ids ≠ [] ∧ (0 : UInt32) ∉ ids ∧
      ∀ i, InBounds m.dims i → (m.getImm i).1.obj ≠ 0 → (m.getImm i).1.obj ∈ ids := by
    refine ⟨1 :: (m.dims.all.map fun i => (m.getImm i).1.obj).filter (· ≠ 0), by simp, by simp, fun i hi h => ?_⟩
    refine List.mem_cons_of_mem _ (List.mem_filter.mpr ⟨List.mem_map.mpr ⟨i, Dims.mem_all.mpr (inB_iff_spec.mpr hi), rfl⟩, ?_⟩)
    simpa using h
  obtain ⟨o', a, b, ho', ha, hb, -, -, -, hval⟩ :=
    C133_agrees hres (ieee_resolution hlo hhi).1 m (small_of hN hdim) oob u hne h0 hall
  obtain rfl : o' = o := by rw [ho] at ho'; exact (Option.some.inj ho').symm
  have selA : ∀ i, (Selected m [] i ∧ TObstacle m u i) ↔ TObstacle m u i := fun i => ⟨fun h => h.2, fun h => ⟨Or.inl rfl, h⟩⟩
  have selB : ∀ i, InBounds m.dims i → ((Selected m ids i ∧ TObstacle m u i) ↔ NamedObstacle m u i) := fun i hi =>
    ⟨fun h => ⟨h.2, fun e => h0 (e ▸ h.1.resolve_left hne)⟩, fun h => ⟨Or.inr (hall i hi h.2), h.1⟩⟩
  obtain ⟨wo, bo, ho1⟩ := hob
  obtain ⟨wf, bf, tf⟩ := hfr
  obtain ⟨ga, hga⟩ := C123_product hres hlo hhi hN hdim (m.objFill_answers [] u) (A := X) (B := Y) (C := Z)
    ⟨⟨wo, bo, by simpa [selA] using ho1⟩, wf, bf, by simpa [selA] using tf⟩ (by simpa [selA] using hP) ha
  have hgb : (∃ w, InBounds m.dims w ∧ NamedObstacle m u w) → ∃ gb, Checked m.dims res b.sdf.get gb := by
    rintro ⟨wn, bn, tn⟩
    refine C123_product hres hlo hhi hN hdim (m.objFill_answers ids u) (A := X') (B := Y') (C := Z')
      ⟨⟨wn, bn, by simpa [selB wn bn] using tn⟩, wf, bf, ?_⟩ (hQ.imp (fun h i hi => ?_) fun h i hi => ?_) hb
    · simp only [decide_eq_false_iff_not, selB wf bf]
      exact fun h => tf h.1
    · simp only [decide_eq_true_eq, selB i hi]
      exact h i hi
    · simp only [decide_eq_false_iff_not, selB i hi]
      exact h i hi
  have fin : ∀ v, InBounds m.dims v → o'.sdf.get v = some ((toR (o'.sdf.get v) : ℝ) : EReal) := by
    intro v hv
    have : ∃ y : ℝ, o'.sdf.get v = some (y : EReal) := by
      by_cases hf : TObstacle m u v
      · by_cases hn : (m.getImm v).1.obj = 0
        · exact ⟨0, by rw [(hval v hv).2.2 hf hn]; simp⟩
        · obtain ⟨gb, h⟩ := hgb ⟨v, hv, hf, hn⟩
          exact ⟨gb v, by rw [(hval v hv).2.1 hf hn]; exact h.1 v hv⟩
      · exact ⟨ga v, by rw [(hval v hv).1 hf]; exact hga.1 v hv⟩
    obtain ⟨y, e⟩ := this
    rw [e]
    simp [toR]
  refine ⟨fun v => toR (o'.sdf.get v), fin, fun v w hv hw h1 hpos => ?_⟩
  obtain ⟨-, hfree, hnamed, hplain, -⟩ := freeNamed_values hres hlo hhi hN hdim ho fin
  have pos : ∀ v, InBounds m.dims v → ¬ TObstacle m u v → 0 < toR (o'.sdf.get v) := by
    intro v hv hp
    obtain ⟨p, -, hpp, he, -⟩ := hfree v hv hp
    have s1 := sqrt_sqDist_pos (fun e => hp (e ▸ hpp) : v ≠ p)
    have := (abs_le.mp he).1
    nlinarith
  have neg : ∀ v, InBounds m.dims v → NamedObstacle m u v → toR (o'.sdf.get v) < 0 := by
    intro v hv hq
    obtain ⟨p, -, hpp, he, -⟩ := hnamed v hv hq
    have s1 := sqrt_sqDist_pos (fun e => hpp (e ▸ hq) : v ≠ p)
    have := (abs_le.mp he).1
    nlinarith
  have kind : ∀ v, InBounds m.dims v → toR (o'.sdf.get v) ≠ 0 → ¬ TObstacle m u v ∨ NamedObstacle m u v := by
    intro v hv h
    by_contra hc
    push Not at hc
    exact h (hplain v hv hc.1 hc.2)
  beta_reduce at hpos ⊢
  have valA : ∀ v, InBounds m.dims v → ¬ TObstacle m u v → toR (o'.sdf.get v) = ga v := by
    intro v hv h
    rw [(hval v hv).1 h, hga.1 v hv]
    simp [toR]
  rcases kind v hv (left_ne_zero_of_mul hpos.ne') with kv | kv <;>
    rcases kind w hw (right_ne_zero_of_mul hpos.ne') with kw | kw
  · rw [valA v hv kv, valA w hw kw] at hpos ⊢
    exact hga.2 v w hv hw h1 hpos
  · nlinarith [pos v hv kv, neg w hw kw]
  · nlinarith [neg v hv kv, pos w hw kw]
  · obtain ⟨gb, h⟩ := hgb ⟨v, hv, kv⟩
    have valB : ∀ v, InBounds m.dims v → NamedObstacle m u v → toR (o'.sdf.get v) = gb v := by
      intro v hv hn
      rw [(hval v hv).2.1 hn.1 hn.2, h.1 v hv]
      simp [toR]
    rw [valB v hv kv, valB w hw kw] at hpos ⊢
    exact h.2 v w hv hw h1 hpos

/-! ## Examples -/

/-- The cells of a room of 40 x 4 x 4 cells with a wall at one end, a part of which belongs to object 7. -/
def exEndCell (i : Idx) : TCell :=
  if i.x = 0 then if i.y = 0 then TCell.ofObj F32.one 7 else TCell.ofObj F32.one 0 else TCell.ofObj F32.zero 0

theorem map_exists (d : Dims) (f : Idx → TCell) : ∃ m : TMap, m.dims = d ∧ ∀ i, InBounds d i → (m.getImm i).1 = f i := by
  refine ⟨⟨(Grid.mk' d (f ⟨0, 0, 0⟩) (f ⟨0, 0, 0⟩)).setAll d.all f, 0, 0, false, false⟩, Grid.dims_setAll _ _ _,
    fun i hi => ?_⟩
  show ((Grid.mk' d (f ⟨0, 0, 0⟩) (f ⟨0, 0, 0⟩)).setAll d.all f).get i = _
  rw [Grid.get_setAll (Grid.wf_mk' _ _ _)]
  exact if_pos ⟨Dims.mem_all.mpr (inB_iff_spec.mpr hi), inB_iff_spec.mpr hi⟩

/-- A map with these cells. -/
noncomputable def exEnd : TMap := (map_exists ⟨40, 4, 4⟩ exEndCell).choose

theorem exEnd_dims : exEnd.dims = ⟨40, 4, 4⟩ := (map_exists ⟨40, 4, 4⟩ exEndCell).choose_spec.1

theorem exEnd_cell {i : Idx} (hi : InBounds ⟨40, 4, 4⟩ i) : (exEnd.getImm i).1 = exEndCell i :=
  (map_exists ⟨40, 4, 4⟩ exEndCell).choose_spec.2 i hi

theorem exEnd_obstacle {i : Idx} (hi : InBounds ⟨40, 4, 4⟩ i) : TObstacle exEnd false i ↔ i.x = 0 := by
  unfold TObstacle
  rw [exEnd_cell hi]
  unfold exEndCell
  by_cases h : i.x = 0
  · by_cases h' : i.y = 0 <;> simp only [h, h', if_true, if_false, iff_true] <;> decide
  · simp only [h, if_false, iff_false]
    decide

theorem exEnd_named {i : Idx} (hi : InBounds ⟨40, 4, 4⟩ i) : NamedObstacle exEnd false i ↔ i.x = 0 ∧ i.y = 0 := by
  unfold NamedObstacle
  rw [exEnd_obstacle hi, exEnd_cell hi]
  unfold exEndCell
  by_cases h : i.x = 0
  · by_cases h' : i.y = 0 <;> simp only [h, h', if_true, if_false, true_and, and_true, iff_true, iff_false] <;> decide
  · simp only [h, false_and]

theorem exEnd_field {B : Aff ℝ} (hB : isoInverse ieee exPose = (B.rx, B.ry, B.rz, loc B.t)) :
    FreeNamedSetup (1 / 4) exEnd exPose B ∧ ∃ (o : Out) (g : Idx → ℝ),
      exEnd.extractFreeNamed ieee ((1 / 4 : ℝ), (1 / 4 : ℝ), (1 / 4 : ℝ)) (some ⊤) false = some o ∧
      Checked exEnd.dims (1 / 4) o.sdf.get g := by
  refine ⟨⟨quarter_good, by norm_num, by norm_num, exPose_rotation, hB, 40, 2 ^ 23, by norm_num, by rw [exEnd_dims]; decide,
    by norm_num, by norm_num, by norm_num [exPose, abs_le], by norm_num [exPose, abs_le], by norm_num [exPose, abs_le]⟩, ?_⟩
  obtain ⟨o, ho, -⟩ := C133_distances quarter_good (by norm_num) (by norm_num) exEnd
    (by rw [exEnd_dims]; unfold SmallGrid; decide) (some ⊤) false
  obtain ⟨g, hg⟩ := C144_product quarter_good (by norm_num) (by norm_num) (N := 40) (by norm_num)
    (by rw [exEnd_dims]; decide) ho (X := fun x => x = 0) (Y := fun _ => True) (Z := fun _ => True)
    (X' := fun x => x = 0) (Y' := fun y => y = 0) (Z' := fun _ => True)
    (Or.inl fun i hi => by rw [exEnd_dims] at hi; simp [exEnd_obstacle hi])
    (Or.inl fun i hi => by rw [exEnd_dims] at hi; simp [exEnd_named hi])
    ⟨⟨0, 0, 0⟩, by rw [exEnd_dims]; norm_num [InBounds], (exEnd_obstacle (by norm_num [InBounds])).mpr rfl⟩
    ⟨⟨1, 0, 0⟩, by rw [exEnd_dims]; norm_num [InBounds], fun h => by
      have := (exEnd_obstacle (by norm_num [InBounds])).mp h
      simp at this⟩
  exact ⟨o, g, ho, hg⟩

/-- A location a hundredth of a metre from three faces of the turned and shifted room, where the report is extrapolated. -/
example : ∃ (B : Aff ℝ) (o : Out) (g : Idx → ℝ) (y : ℝ), FreeNamedSetup (1 / 4) exEnd exPose B ∧
    exEnd.extractFreeNamed ieee ((1 / 4 : ℝ), (1 / 4 : ℝ), (1 / 4 : ℝ)) (some ⊤) false = some o ∧
    Checked exEnd.dims (1 / 4) o.sdf.get g ∧
    Reports o.sdf (1 / 4) B (exPose.app id ⟨999 / 100, 1 / 100, 1 / 100⟩) y ∧
    y ≤ 7 / 4 * dist3 (exPose.app id ⟨999 / 100, 1 / 100, 1 / 100⟩) (exPose.app id ⟨1 / 4, 1 / 100, 1 / 100⟩) + 8 * (1 / 4) := by
  obtain ⟨B, hB, -⟩ := C112_inverse exPose_rotation
    ⟨exPose_origin.1.trans (by norm_num), exPose_origin.2.1.trans (by norm_num), exPose_origin.2.2.trans (by norm_num)⟩
  obtain ⟨hs, o, g, ho, hg⟩ := exEnd_field hB
  obtain ⟨y, ey, hy⟩ := C144_anywhere hs ho hg (c := ⟨999 / 100, 1 / 100, 1 / 100⟩)
    (by rw [exEnd_dims]; norm_num [InsideBy])
  exact ⟨B, o, g, y, hs, ho, hg, ey, hy _ ⟨⟨0, 0, 0⟩, by rw [exEnd_dims]; norm_num [InBounds],
    by simpa using (exEnd_obstacle (by norm_num [InBounds])).mpr rfl, by norm_num [InCube]⟩⟩

/-- Two waypoints 35 cells away from the wall: the check of `C144_path_anywhere` accepts them for a clearance of 1/2, and
the path between them has it from the part of the wall without a name, too. -/
example : ∃ (B : Aff ℝ) (o : Out), FreeNamedSetup (1 / 4) exEnd exPose B ∧
    exEnd.extractFreeNamed ieee ((1 / 4 : ℝ), (1 / 4 : ℝ), (1 / 4 : ℝ)) (some ⊤) false = some o ∧
    (∀ w ∈ [(⟨9, 1 / 2, 1 / 2⟩ : V3 ℝ), ⟨9, 5 / 8, 1 / 2⟩].map (exPose.app id),
      ∃ y, Reports o.sdf (1 / 4) B w y ∧ 7 / 4 * (1 / 2 + 1 / 10) + 8 * (1 / 4) ≤ y) ∧
    ∀ p, OnPath ([(⟨9, 1 / 2, 1 / 2⟩ : V3 ℝ), ⟨9, 5 / 8, 1 / 2⟩].map (exPose.app id)) p →
      1 / 2 ≤ dist3 p (exPose.app id ⟨1 / 8, 5 / 8, 1 / 2⟩) := by
  obtain ⟨B, hB, -⟩ := C112_inverse exPose_rotation
    ⟨exPose_origin.1.trans (by norm_num), exPose_origin.2.1.trans (by norm_num), exPose_origin.2.2.trans (by norm_num)⟩
  obtain ⟨hs, o, g, ho, hg⟩ := exEnd_field hB
  have hin : ∀ c ∈ [(⟨9, 1 / 2, 1 / 2⟩ : V3 ℝ), ⟨9, 5 / 8, 1 / 2⟩],
      WellInside exEnd.dims (1 / 4) c ∧ InsideBy exEnd.dims (1 / 4) c ∧ c.x = 9 := by
    intro c hc
    rw [exEnd_dims]
    simp only [List.mem_cons, List.not_mem_nil, or_false] at hc
    rcases hc with rfl | rfl <;> norm_num [WellInside, WellInner, InsideBy]
  have hask : ∀ w ∈ [(⟨9, 1 / 2, 1 / 2⟩ : V3 ℝ), ⟨9, 5 / 8, 1 / 2⟩].map (exPose.app id),
      ∃ y, Reports o.sdf (1 / 4) B w y ∧ 7 / 4 * (1 / 2 + 1 / 10) + 8 * (1 / 4) ≤ y := by
    intro w hw
    obtain ⟨c, hc, rfl⟩ := List.mem_map.mp hw
    obtain ⟨h1, -, h2⟩ := hin c hc
    obtain ⟨y, ey, hy⟩ := C144_world hs ho hg h1
    refine ⟨y, ey, le_trans (by norm_num) (hy.clear 4 (by norm_num) ?_)⟩
    rintro r ⟨i, bi, hi, hr, -⟩
    rw [exEnd_dims] at bi
    have hx := (exEnd_obstacle bi).mp (by simpa using hi)
    have k := (coord_le c r).1
    have e := (near_isometry exPose_rotation c r).2
    rw [abs_le] at k
    rw [hx] at hr
    norm_num at hr e
    linarith
  refine ⟨B, o, hs, ho, hask, fun p hp => ?_⟩
  refine C144_path_anywhere hs ho hg (fun c hc => (hin c hc).2.1) (δ := 1 / 10) (by norm_num) ⟨?_, trivial⟩ hask hp
    ⟨⟨0, 2, 2⟩, by rw [exEnd_dims]; norm_num [InBounds],
      by simpa using (exEnd_obstacle (by norm_num [InBounds])).mpr rfl, by norm_num [InCube]⟩
  have h1 : dist3 (⟨9, 1 / 2, 1 / 2⟩ : V3 ℝ) ⟨9, 5 / 8, 1 / 2⟩ ≤ 1 / 8 := by
    unfold dist3
    exact Real.sqrt_le_iff.mpr ⟨by norm_num, by norm_num [sqDist3]⟩
  have := (near_isometry exPose_rotation (⟨9, 1 / 2, 1 / 2⟩ : V3 ℝ) ⟨9, 5 / 8, 1 / 2⟩).1
  linarith

end FSdf

end Verif
