import Verif.WorldMarks
import Verif.Spec.Marks
import Verif.Props.CheckedField

/-!
# C124: obstacles marked by world positions
-/

namespace Verif

open Spec SdfGen DField

namespace FSdf

open SignedDist

theorem lookup_cube {cell : FVal → Int} {res : ℝ} (hr : 0 < res) (hl : LookupOk cell res) {x y : ℝ}
    (hx : |x| ≤ 2 ^ 30 * res) (hy : |y - x| ≤ res / 2 ^ 12) :
    (cell (real y) : ℝ) * res - res / 1000 < x ∧ x < ((cell (real y) : ℝ) + 1) * res + res / 1000 := by
  obtain ⟨t, rfl⟩ : ∃ t, x = t * res := ⟨x / res, by field_simp⟩
  obtain ⟨u, rfl⟩ : ∃ u, y = u * res := ⟨y / res, by field_simp⟩
  have hu : |u - t| ≤ 1 / 2 ^ 12 := by
    rw [← sub_mul, abs_mul, abs_of_pos hr, div_eq_mul_one_div, mul_comm res] at hy
    exact le_of_mul_le_mul_right hy hr
  have ht : |t| ≤ 2 ^ 30 := by
    rw [abs_mul, abs_of_pos hr] at hx
    exact le_of_mul_le_mul_right hx hr
  have hu' : |u| ≤ 2 ^ 31 := by
    have := abs_add_le (u - t) t
    rw [sub_add_cancel] at this
    linarith
  obtain ⟨w, ew, hw⟩ := hl.1 (u * res) (by
    rw [abs_mul, abs_of_pos hr]
    exact mul_le_mul_of_nonneg_right (by linarith) hr.le)
  rw [mul_div_cancel_right₀ _ hr.ne'] at hw
  have hw' : |w - u| ≤ 1 / 2 ^ 18 := by linarith
  rw [ew]
  have f1 := Int.floor_le w
  have f2 := Int.lt_floor_add_one w
  obtain ⟨a1, a2⟩ := abs_le.mp hu
  obtain ⟨b1, b2⟩ := abs_le.mp hw'
  have e1 : ((⌊w⌋ : ℝ)) * res - res / 1000 = (⌊w⌋ - 1 / 1000) * res := by ring
  have e2 : ((⌊w⌋ : ℝ) + 1) * res + res / 1000 = (⌊w⌋ + 1 + 1 / 1000) * res := by ring
  rw [e1, e2]
  exact ⟨mul_lt_mul_of_pos_right (by linarith) hr, mul_lt_mul_of_pos_right (by linarith) hr⟩

open Classical in
/-- The exact product with a matrix. -/
noncomputable def exactApp (A : Aff ℝ) (p : V3 FVal) : V3 FVal :=
  if h : ∃ v, p = loc v then loc (A.app id h.choose) else p

theorem loc_inj {a b : V3 ℝ} (h : loc a = loc b) : a = b := by
  obtain ⟨x, y, z⟩ := a
  obtain ⟨x', y', z'⟩ := b
  unfold loc real at h
  simpa using h

theorem exactApp_loc (A : Aff ℝ) (v : V3 ℝ) : exactApp A (loc v) = loc (A.app id v) := by
  have h : ∃ w, loc v = loc w := ⟨v, rfl⟩
  unfold exactApp
  rw [dif_pos h, ← loc_inj h.choose_spec]

theorem exactApp_accurate (A : Aff ℝ) : Accurate (exactApp A) A := by
  intro v M hM _
  refine ⟨A.app id v, exactApp_loc A v, ?_⟩
  have m0 : 0 ≤ M := le_trans (by unfold mag; positivity) hM.1
  have : 0 ≤ M / 2 ^ 50 + 1 / 2 ^ 200 := by positivity
  exact ⟨by simpa using this, by simpa using this, by simpa using this⟩

/-- C124: the cell that a world position is looked up in contains it, up to a thousandth of a cell. -/
theorem C124_cell {res : ℝ} (hlo : 1 / 2 ^ 100 ≤ res) (hhi : res ≤ 2 ^ 60) {A B : Aff ℝ} (hA : NearRotation A)
    (hB : isoInverse ieee A = (B.rx, B.ry, B.rz, loc B.t)) {M : ℝ} (h1 : 1 ≤ M) (hM : M ≤ 2 ^ 29)
    (hT : OriginWithin A (M * res)) {q : V3 ℝ} (hq : CoordsWithin (M * res) q) :
    NearCube res (cellAt ieee res B (loc (A.app id q))) q := by
  have r0 : 0 < res := lt_of_lt_of_le (by norm_num) hlo
  have hhi' : res ≤ 2 ^ 100 := hhi.trans (by norm_num)
  have hT' : OriginWithin A (2 ^ 190) := by
    have : M * res ≤ 2 ^ 190 := by
      calc M * res ≤ 2 ^ 29 * 2 ^ 60 := by gcongr
        _ ≤ 2 ^ 190 := by norm_num
    exact ⟨hT.1.trans this, hT.2.1.trans this, hT.2.2.trans this⟩
  obtain ⟨B', eB, hAB⟩ := C112_inverse hA hT'
  obtain rfl : B' = B := by
    rw [eB] at hB
    obtain ⟨x, y, z, t⟩ := B
    obtain ⟨x', y', z', t'⟩ := B'
    simp only [Prod.mk.injEq] at hB
    obtain ⟨rfl, rfl, rfl, e⟩ := hB
    rw [loc_inj e]
  obtain ⟨p, c, ep, ec, -, w1, w2, w3⟩ := C112_trip hAB hlo hhi' h1 (hM.trans (by norm_num)) hT (C112_product B')
    (exactApp_accurate A) hq
  rw [exactApp_loc] at ep
  rw [← ep] at ec
  have lk := C112_lookup hlo hhi'
  have big : M * res ≤ 2 ^ 30 * res := by
    have : M ≤ 2 ^ 30 := hM.trans (by norm_num)
    gcongr
  have err : M * res / 2 ^ 42 ≤ res / 2 ^ 12 := by
    have : M * res ≤ 2 ^ 29 * res := by gcongr
    linarith
  unfold cellAt
  rw [ec]
  exact ⟨lookup_cube r0 lk (hq.1.trans big) (w1.trans err), lookup_cube r0 lk (hq.2.1.trans big) (w2.trans err),
    lookup_cube r0 lk (hq.2.2.trans big) (w3.trans err)⟩

theorem near_inside {d : Dims} {res : ℝ} (hr : 0 < res) {i : Idx} {q : V3 ℝ} (hi : NearCube res i q)
    (hq : InsideBy d res q) : InBounds d i := by
  have ax : ∀ {n : ℕ} {k : ℤ} {x : ℝ}, (k : ℝ) * res - res / 1000 < x ∧ x < (k + 1) * res + res / 1000 →
      res / 1000 ≤ x ∧ x ≤ n * res - res / 1000 → 0 ≤ k ∧ k < n := by
    intro n k x h h'
    have a : (0 : ℝ) * res < ((k : ℝ) + 1) * res := by linarith
    have b : (k : ℝ) * res < n * res := by linarith
    have a' := lt_of_mul_lt_mul_right a hr.le
    have b' := lt_of_mul_lt_mul_right b hr.le
    have a'' : (0 : ℤ) < k + 1 := by exact_mod_cast a'
    have b'' : k < (n : ℤ) := by exact_mod_cast b'
    omega
  exact ⟨ax hi.1 hq.1, ax hi.2.1 hq.2.1, ax hi.2.2 hq.2.2⟩

theorem near_outside {d : Dims} {res : ℝ} (hr : 0 < res) {i : Idx} {q : V3 ℝ} (hi : NearCube res i q)
    (hq : OutsideBy d res q) : ¬ InBounds d i := by
  have ax : ∀ {n : ℕ} {k : ℤ} {x : ℝ}, (k : ℝ) * res - res / 1000 < x ∧ x < (k + 1) * res + res / 1000 →
      x ≤ -(res / 1000) ∨ n * res + res / 1000 ≤ x → ¬ (0 ≤ k ∧ k < n) := by
    rintro n k x h h' ⟨h0, h1⟩
    have k0 : (0 : ℝ) ≤ k := by exact_mod_cast h0
    have k1 : (k : ℝ) + 1 ≤ n := by exact_mod_cast h1
    have a : 0 ≤ (k : ℝ) * res := by positivity
    have b : ((k : ℝ) + 1) * res ≤ n * res := by gcongr
    rcases h' with h' | h' <;> linarith
  rintro ⟨b1, b2, b3⟩
  rcases hq with h | h | h
  · exact ax hi.1 h b1
  · exact ax hi.2.1 h b2
  · exact ax hi.2.2 h b3

theorem inside_coords {d : Dims} {res M : ℝ} (hr : 0 < res) {N : ℕ} (hdim : d.nx ≤ N ∧ d.ny ≤ N ∧ d.nz ≤ N)
    (hNM : (N : ℝ) ≤ M) {q : V3 ℝ} (hq : InsideBy d res q) : CoordsWithin (M * res) q := by
  have ax : ∀ {n : ℕ} {x : ℝ}, n ≤ N → res / 1000 ≤ x ∧ x ≤ n * res - res / 1000 → |x| ≤ M * res := by
    intro n x hn h
    rw [abs_of_nonneg (by linarith [h.1])]
    have : (n : ℝ) ≤ M := le_trans (by exact_mod_cast hn) hNM
    have : (n : ℝ) * res ≤ M * res := by gcongr
    linarith [h.2]
  exact ⟨ax hdim.1 hq.1, ax hdim.2.1 hq.2.1, ax hdim.2.2 hq.2.2⟩

/-- C124: a position in the map is accepted.  One cell changes, and the position is in the cube of that cell up to a
thousandth of a cell; a later read at the position returns the value. -/
theorem C124_accept {res : ℝ} (hlo : 1 / 2 ^ 100 ≤ res) (hhi : res ≤ 2 ^ 60) {A B : Aff ℝ} (hA : NearRotation A)
    (hB : isoInverse ieee A = (B.rx, B.ry, B.rz, loc B.t)) {M : ℝ} (h1 : 1 ≤ M) (hM : M ≤ 2 ^ 29)
    (hT : OriginWithin A (M * res)) {m : CMap} (hm : m.grid.WF) {q : V3 ℝ} (hc : CoordsWithin (M * res) q)
    (hq : InsideBy m.grid.dims res q) (v : CCell) :
    ∃ m', m.setAtF ieee res B (loc (A.app id q)) v = (m', true) ∧ m'.getAtF ieee res B (loc (A.app id q)) = (v, true) ∧
      ∃ i, InBounds m.grid.dims i ∧ NearCube res i q ∧
        ∀ j, m'.getImm j = if j = i then (v, true) else m.getImm j := by
  have r0 : 0 < res := lt_of_lt_of_le (by norm_num) hlo
  have hn := C124_cell hlo hhi hA hB h1 hM hT hc
  have hi := near_inside r0 hn hq
  have hb : m.grid.dims.inB (cellAt ieee res B (loc (A.app id q))) = true := inB_iff_spec.mpr hi
  have get : ∀ j, (m.setValue (cellAt ieee res B (loc (A.app id q))) v).1.getImm j =
      if j = cellAt ieee res B (loc (A.app id q)) then (v, true) else m.getImm j := by
    intro j
    unfold CMap.getImm Grid.getImm
    rw [CMap.setValue_get hm, CMap.setValue_dims]
    by_cases hj : j = cellAt ieee res B (loc (A.app id q))
    · rw [if_pos ⟨hj.symm, hb⟩, if_pos hj, hj, hb]
    · rw [if_neg (fun h => hj h.1.symm), if_neg hj]
  refine ⟨(m.setValue (cellAt ieee res B (loc (A.app id q))) v).1, ?_, ?_, _, hi, hn, get⟩
  · unfold CMap.setAtF
    rw [if_pos hb]
    unfold CMap.setValue
    rw [if_pos hb]
  · unfold CMap.getAtF
    rw [get, if_pos rfl]

/-- C124: a position outside the map is refused and nothing changes. -/
theorem C124_refuse {res : ℝ} (hlo : 1 / 2 ^ 100 ≤ res) (hhi : res ≤ 2 ^ 60) {A B : Aff ℝ} (hA : NearRotation A)
    (hB : isoInverse ieee A = (B.rx, B.ry, B.rz, loc B.t)) {M : ℝ} (h1 : 1 ≤ M) (hM : M ≤ 2 ^ 29)
    (hT : OriginWithin A (M * res)) {m : CMap} {q : V3 ℝ} (hc : CoordsWithin (M * res) q)
    (hq : OutsideBy m.grid.dims res q) (v : CCell) :
    m.setAtF ieee res B (loc (A.app id q)) v = (m, false) := by
  have r0 : 0 < res := lt_of_lt_of_le (by norm_num) hlo
  have hn := near_outside r0 (C124_cell hlo hhi hA hB h1 hM hT hc) hq
  unfold CMap.setAtF
  rw [if_neg (fun h => hn (inB_iff_spec.mp h))]

theorem setAll_get (res : ℝ) (B : Aff ℝ) (v : CCell) (ps : List (V3 FVal)) :
    ∀ {m : CMap}, m.grid.WF → (m.setAllF ieee res B ps v).grid.dims = m.grid.dims ∧
      ∀ j, InBounds m.grid.dims j → ((∃ p ∈ ps, cellAt ieee res B p = j) → (m.setAllF ieee res B ps v).grid.get j = v) ∧
        ((¬ ∃ p ∈ ps, cellAt ieee res B p = j) → (m.setAllF ieee res B ps v).grid.get j = m.grid.get j) := by
  unfold CMap.setAllF
  induction ps with
  | nil => intro m _; simp
  | cons p ps ih =>
    intro m hm
    have step : (m.setAtF ieee res B p v).1 = (m.setValue (cellAt ieee res B p) v).1 := by
      unfold CMap.setAtF CMap.setValue
      split_ifs <;> rfl
    obtain ⟨hd, hg⟩ := ih (m := (m.setAtF ieee res B p v).1) (by rw [step]; exact CMap.setValue_wf hm _ _)
    rw [step, CMap.setValue_dims] at hd hg
    rw [List.foldl_cons, step]
    refine ⟨hd, fun j hj => ⟨?_, ?_⟩⟩
    · rintro ⟨p', hp', e⟩
      by_cases ht : ∃ p ∈ ps, cellAt ieee res B p = j
      · exact (hg j hj).1 ht
      · rw [(hg j hj).2 ht, CMap.setValue_get hm]
        rcases List.mem_cons.mp hp' with rfl | h
        · rw [if_pos ⟨e, by rw [e]; exact inB_iff_spec.mpr hj⟩]
        · exact absurd ⟨p', h, e⟩ ht
    · intro hn
      rw [(hg j hj).2 (fun ⟨p', h, e⟩ => hn ⟨p', List.mem_cons_of_mem _ h, e⟩), CMap.setValue_get hm,
        if_neg (fun h => hn ⟨p, List.mem_cons_self, h.1⟩)]

/-- C124: marking positions in a map without obstacles.  Each filled cell has a marked position at its cube, and each
position in the map is at the cube of a filled cell, up to a thousandth of a cell. -/
theorem C124_marks {res : ℝ} (hlo : 1 / 2 ^ 100 ≤ res) (hhi : res ≤ 2 ^ 60) {A B : Aff ℝ} (hA : NearRotation A)
    (hB : isoInverse ieee A = (B.rx, B.ry, B.rz, loc B.t)) {M : ℝ} (h1 : 1 ≤ M) (hM : M ≤ 2 ^ 29)
    (hT : OriginWithin A (M * res)) {m : CMap} (hm : m.grid.WF) {u : Bool}
    (hfree : ∀ i, InBounds m.grid.dims i → ¬ Obstacle m u i) {v : CCell} (hv : v.occ.gtHalf = true) {qs : List (V3 ℝ)}
    (hqs : ∀ q ∈ qs, CoordsWithin (M * res) q) :
    (m.setAllF ieee res B (qs.map fun q => loc (A.app id q)) v).grid.dims = m.grid.dims ∧
    (∀ i, InBounds m.grid.dims i → Obstacle (m.setAllF ieee res B (qs.map fun q => loc (A.app id q)) v) u i →
      ∃ q ∈ qs, NearCube res i q) ∧
    ∀ q ∈ qs, InsideBy m.grid.dims res q →
      ∃ i, InBounds m.grid.dims i ∧ Obstacle (m.setAllF ieee res B (qs.map fun q => loc (A.app id q)) v) u i ∧
        NearCube res i q := by
  have r0 : 0 < res := lt_of_lt_of_le (by norm_num) hlo
  obtain ⟨hd, hg⟩ := setAll_get res B v (qs.map fun q => loc (A.app id q)) hm
  refine ⟨hd, fun i hi ho => ?_, fun q hq hin => ?_⟩
  · by_contra hn
    have : ¬ ∃ p ∈ qs.map fun q => loc (A.app id q), cellAt ieee res B p = i := by
      rintro ⟨p, hp, e⟩
      obtain ⟨q, hq, rfl⟩ := List.mem_map.mp hp
      exact hn ⟨q, hq, e ▸ C124_cell hlo hhi hA hB h1 hM hT (hqs q hq)⟩
    have e := (hg i hi).2 this
    apply hfree i hi
    unfold Obstacle CMap.getImm Grid.getImm at ho ⊢
    simpa [e] using ho
  · have hn := C124_cell hlo hhi hA hB h1 hM hT (hqs q hq)
    have hi := near_inside r0 hn hin
    refine ⟨_, hi, Or.inl ?_, hn⟩
    have e := (hg _ hi).1 ⟨_, List.mem_map.mpr ⟨q, hq, rfl⟩, rfl⟩
    unfold CMap.getImm Grid.getImm
    simp only [e]
    exact hv

/-! ## Distances to the marked positions -/

theorem dist3_le_coords {a b : V3 ℝ} {δ : ℝ} (h0 : 0 ≤ δ) (hx : |a.x - b.x| ≤ δ) (hy : |a.y - b.y| ≤ δ)
    (hz : |a.z - b.z| ≤ δ) : dist3 a b ≤ 17321 / 10000 * δ := by
  unfold dist3 sqDist3
  refine Real.sqrt_le_iff.mpr ⟨by positivity, ?_⟩
  have x2 := sq_le_sq' (abs_le.mp hx).1 (abs_le.mp hx).2
  have y2 := sq_le_sq' (abs_le.mp hy).1 (abs_le.mp hy).2
  have z2 := sq_le_sq' (abs_le.mp hz).1 (abs_le.mp hz).2
  nlinarith

/-- A location near a cube has a point of the cube within a thousandth of a cell on each axis. -/
theorem near_point {res : ℝ} (hr : 0 < res) {i : Idx} {q : V3 ℝ} (h : NearCube res i q) :
    ∃ r, InCube res i r ∧ dist3 q r ≤ res / 570 := by
  have ax : ∀ {k : ℤ} {x : ℝ}, (k : ℝ) * res - res / 1000 < x ∧ x < (k + 1) * res + res / 1000 →
      ∃ y, ((k : ℝ) * res ≤ y ∧ y ≤ (k + 1) * res) ∧ |x - y| ≤ res / 1000 := by
    rintro k x ⟨h1, h2⟩
    have e : ((k : ℝ) + 1) * res = k * res + res := by ring
    rcases le_total x (k * res) with h | h
    · exact ⟨k * res, ⟨le_rfl, by linarith⟩, by rw [abs_le]; constructor <;> linarith⟩
    · rcases le_total x ((k + 1) * res) with h' | h'
      · exact ⟨x, ⟨h, h'⟩, by simp; positivity⟩
      · exact ⟨(k + 1) * res, ⟨by linarith, le_rfl⟩, by rw [abs_le]; constructor <;> linarith⟩
  obtain ⟨x, hx, dx⟩ := ax h.1
  obtain ⟨y, hy, dy⟩ := ax h.2.1
  obtain ⟨z, hz, dz⟩ := ax h.2.2
  refine ⟨⟨x, y, z⟩, ⟨hx, hy, hz⟩, ?_⟩
  have := dist3_le_coords (b := ⟨x, y, z⟩) (by positivity : (0 : ℝ) ≤ res / 1000) dx dy dz
  linarith

/-- Any point of a cube is within a diagonal of a location near the cube. -/
theorem near_diagonal {res : ℝ} (hr : 0 < res) {i : Idx} {q r : V3 ℝ} (h : NearCube res i q) (hc : InCube res i r) :
    dist3 r q ≤ 1734 / 1000 * res := by
  have ax : ∀ {k : ℤ} {x y : ℝ}, (k : ℝ) * res - res / 1000 < x ∧ x < (k + 1) * res + res / 1000 →
      (k : ℝ) * res ≤ y ∧ y ≤ (k + 1) * res → |y - x| ≤ 1001 / 1000 * res := by
    rintro k x y ⟨h1, h2⟩ ⟨h3, h4⟩
    rw [abs_le]
    constructor <;> linarith
  have := dist3_le_coords (by positivity : (0 : ℝ) ≤ 1001 / 1000 * res) (ax h.1 hc.1) (ax h.2.1 hc.2.1) (ax h.2.2 hc.2.2)
  linarith

section

variable {res : ℝ} (hres : GoodRes ieee res) (hlo : 1 / 2 ^ 100 ≤ res) (hhi : res ≤ 2 ^ 60) {A B : Aff ℝ}
  (hA : NearRotation A) (hB : isoInverse ieee A = (B.rx, B.ry, B.rz, loc B.t)) {m : CMap} (hm : m.grid.WF) {N : ℕ}
  (hN : N ≤ 2 ^ 14) (hdim : m.grid.dims.nx ≤ N ∧ m.grid.dims.ny ≤ N ∧ m.grid.dims.nz ≤ N) {M : ℝ}
  (hNM : (N : ℝ) ≤ M) (hM : M * N ≤ 2 ^ 29) (hT : OriginWithin A (M * res)) {u : Bool}
  (hfree : ∀ i, InBounds m.grid.dims i → ¬ Obstacle m u i) {v : CCell} (hv : v.occ.gtHalf = true)
  {qs : List (V3 ℝ)} (hqs : ∀ q ∈ qs, CoordsWithin (M * res) q) {m' : CMap}
  (hm' : m' = m.setAllF ieee res B (qs.map fun q => loc (A.app id q)) v) (hin : ∃ q ∈ qs, InsideBy m.grid.dims res q)
  (hsome : ∃ i, InBounds m.grid.dims i ∧ ¬ Obstacle m' u i)

include hres hlo hhi hA hB hm hN hdim hNM hM hT hfree hv hqs hm' hin hsome

open Classical in
/-- What the field of the marked map needs. -/
theorem marks_facts : (1 : ℝ) ≤ M ∧ M ≤ 2 ^ 29 ∧ m'.grid.dims = m.grid.dims ∧
    BothClasses m.grid.dims (fun i => decide (Obstacle m' u i)) ∧
    (∀ i, InBounds m.grid.dims i → Obstacle m' u i → ∃ q ∈ qs, NearCube res i q) ∧
    ∀ q ∈ qs, InsideBy m.grid.dims res q → ∃ r, Region m.grid.dims res (fun i => decide (Obstacle m' u i)) true r ∧
      dist3 (A.app id q) (A.app id r) ≤ res / 500 := by
  subst hm'
  have r0 := hres.1
  obtain ⟨q0, hq0, hi0⟩ := hin
  have N1 : (1 : ℝ) ≤ N := by
    have h := (inside_coords r0 hdim le_rfl hi0).1
    have h2 := hi0.1
    have : (0 : ℝ) < m.grid.dims.nx * res := by linarith
    have hx : 0 < m.grid.dims.nx := by
      rcases Nat.eq_zero_or_pos m.grid.dims.nx with h | h
      · rw [h] at this; simp at this
      · exact h
    have : 1 ≤ N := by omega
    exact_mod_cast this
  have M1 : 1 ≤ M := N1.trans hNM
  have hM2 : M ≤ 2 ^ 29 := le_trans (le_mul_of_one_le_right (by linarith) N1) hM
  obtain ⟨hd, ha, hb⟩ := C124_marks hlo hhi hA hB M1 hM2 hT hm hfree hv hqs
  refine ⟨M1, hM2, hd, ⟨?_, ?_⟩, ha, ?_⟩
  · obtain ⟨i, hi, ho, -⟩ := hb q0 hq0 hi0
    exact ⟨i, hi, by simpa using ho⟩
  · obtain ⟨i, hi, ho⟩ := hsome
    exact ⟨i, hi, by simpa using ho⟩
  · intro q hq hiq
    obtain ⟨i, hi, ho, hn⟩ := hb q hq hiq
    obtain ⟨r, hr, hd⟩ := near_point r0 hn
    refine ⟨r, ⟨i, hi, by simpa using ho, hr⟩, ?_⟩
    have := (near_isometry hA q r).1
    have : (1 + 1 / 2 ^ 40) * dist3 q r ≤ (1 + 1 / 2 ^ 40) * (res / 570) := by gcongr
    linarith

open Classical in
/-- C124 as a collision check for marked positions: in a field of the marked map that passes the check of C123, a reported
distance of at least `7/4 * ρ` and 8/3 cells shows that every marked position in the map is at least `ρ`, less a
five-hundredth of a cell, away from the query. -/
theorem C124_clearance {oob : FVal} {o : Out} (ho : extractMap ieee (res, res, res) m' oob u false = some o) {g : Idx → ℝ}
    (hg : Checked m.grid.dims res o.sdf.get g) {c : V3 ℝ} (hc : WellInside m.grid.dims res c) :
    ∃ y : ℝ, (FSdf.mk o.sdf res).estimate ieee (affApp ieee B)
        (fun p => byAxis (axisCell ieee res) (affApp ieee B p)) (loc (A.app id c)) = some (real y, true) ∧
      ∀ ρ, 0 < ρ → 7 / 4 * ρ + 8 / 3 * res ≤ y →
        ∀ q ∈ qs, InsideBy m.grid.dims res q → ρ - res / 500 ≤ dist3 (A.app id c) (A.app id q) := by
  obtain ⟨M1, hM2, hd, hb, -, hnear⟩ := marks_facts hres hlo hhi hA hB hm hN hdim hNM hM hT hfree hv hqs hm' hin hsome
  have ans : Answers m.grid.dims (mapFill m' u) fun i => decide (Obstacle m' u i) := hd ▸ mapFill_answers m' u
  unfold extractMap at ho
  rw [hd] at ho
  obtain ⟨y, ey, h⟩ := C123_clearance hres hlo hhi hN hdim ans hb ho hg hA hB hNM hM hT hc
  refine ⟨y, ey, fun ρ h0 hy q hq hiq => ?_⟩
  obtain ⟨r, hr, hdr⟩ := hnear q hq hiq
  have a := h ρ h0 hy r hr
  have b := dist3_tri (A.app id c) (A.app id q) (A.app id r)
  linarith

open Classical in
/-- C124, no false alarms: in a field of the marked map whose values are finite, if every marked position is at least
`ρ`, that is at least two cells, away from the query, then the reported distance is at least `ρ` less 25/8 cells. -/
theorem C124_reported {oob : FVal} {o : Out} (ho : extractMap ieee (res, res, res) m' oob u false = some o)
    (hfin : ∀ v, InBounds m.grid.dims v → ∃ x : ℝ, o.sdf.get v = real x) {c : V3 ℝ} (hc : WellInside m.grid.dims res c) :
    ∃ y : ℝ, (FSdf.mk o.sdf res).estimate ieee (affApp ieee B)
        (fun p => byAxis (axisCell ieee res) (affApp ieee B p)) (loc (A.app id c)) = some (real y, true) ∧
      ∀ ρ, 2 * res ≤ ρ → (∀ q ∈ qs, ρ ≤ dist3 (A.app id c) (A.app id q)) → ρ - 25 / 8 * res ≤ y := by
  have r0 := hres.1
  obtain ⟨M1, hM2, hd, hb, hfar, -⟩ := marks_facts hres hlo hhi hA hB hm hN hdim hNM hM hT hfree hv hqs hm' hin hsome
  have ans : Answers m.grid.dims (mapFill m' u) fun i => decide (Obstacle m' u i) := hd ▸ mapFill_answers m' u
  unfold extractMap at ho
  rw [hd] at ho
  obtain ⟨y, sw, ey, hw, h1, -⟩ := C118_every_map hres hlo hhi hN hdim ans hb ho hfin hA hB hNM hM hT hc
  have far : ∀ ρ, (∀ q ∈ qs, ρ ≤ dist3 (A.app id c) (A.app id q)) → ∀ r,
      Region m.grid.dims res (fun i => decide (Obstacle m' u i)) true r →
      ρ - 1735 / 1000 * res ≤ dist3 (A.app id c) (A.app id r) := by
    rintro ρ hq r ⟨i, hi, hoi, hr⟩
    obtain ⟨q, hqm, hn⟩ := hfar i hi (by simpa using hoi)
    have a := hq q hqm
    have b := dist3_tri (A.app id c) (A.app id r) (A.app id q)
    have e := near_diagonal r0 hn hr
    have f := (near_isometry hA r q).1
    have : (1 + 1 / 2 ^ 40) * dist3 r q ≤ (1 + 1 / 2 ^ 40) * (1734 / 1000 * res) := by gcongr
    linarith
  refine ⟨y, ey, fun ρ h2 hq => ?_⟩
  have pos : 0 ≤ sw := by
    by_contra hneg
    push Not at hneg
    -- the query is in a cell, which is free since it is far from all marks
    obtain ⟨-, -, -, ⟨b, hcb⟩, -⟩ := world_query hA hlo hhi hM2 hT hN hNM hdim hb hc hB
    cases b with
    | true =>
      have := far ρ hq c hcb
      rw [show dist3 (A.app id c) (A.app id c) = 0 by simp [dist3, sqDist3]] at this
      linarith
    | false =>
      have := (hw.inside hneg.le).2 c hcb
      rw [show dist3 (A.app id c) (A.app id c) = 0 by simp [dist3, sqDist3]] at this
      linarith
  obtain ⟨⟨r, hr, er⟩, -⟩ := hw.outside pos
  have a := far ρ hq r hr
  rw [er] at a
  have := h1 (by linarith)
  linarith

end

open Classical in
/-- C124 for one marked position: nothing is assumed about the field.  The reported distance exceeds the distance to the
position by at most 27/20 cells, and if the position is at least two cells away it falls short by at most 25/8 cells. -/
theorem C124_single {res : ℝ} (hres : GoodRes ieee res) (hlo : 1 / 2 ^ 100 ≤ res) (hhi : res ≤ 2 ^ 60) {A : Aff ℝ}
    (hA : NearRotation A) {m : CMap} (hm : m.grid.WF) {N : ℕ}
    (hN : N ≤ 2 ^ 14) (hdim : m.grid.dims.nx ≤ N ∧ m.grid.dims.ny ≤ N ∧ m.grid.dims.nz ≤ N) {M : ℝ}
    (hNM : (N : ℝ) ≤ M) (hM : M * N ≤ 2 ^ 29) (hT : OriginWithin A (M * res)) {u : Bool}
    (hfree : ∀ i, InBounds m.grid.dims i → ¬ Obstacle m u i) {v : CCell} (hv : v.occ.gtHalf = true) {q : V3 ℝ}
    (hq : InsideBy m.grid.dims res q) (htwo : 1 < m.grid.dims.nx ∨ 1 < m.grid.dims.ny ∨ 1 < m.grid.dims.nz) (oob : FVal) :
    ∃ B m' o, isoInverse ieee A = (B.rx, B.ry, B.rz, loc B.t) ∧ m.setAtF ieee res B (loc (A.app id q)) v = (m', true) ∧
      extractMap ieee (res, res, res) m' oob u false = some o ∧
      ∀ c, WellInside m.grid.dims res c → ∃ y : ℝ, (FSdf.mk o.sdf res).estimate ieee (affApp ieee B)
        (fun p => byAxis (axisCell ieee res) (affApp ieee B p)) (loc (A.app id c)) = some (real y, true) ∧
      y ≤ dist3 (A.app id c) (A.app id q) + 27 / 20 * res ∧
      (2 * res ≤ dist3 (A.app id c) (A.app id q) → dist3 (A.app id c) (A.app id q) - 25 / 8 * res ≤ y) := by
  have r0 := hres.1
  have hsm := small_of hN hdim
  have hx : ∀ {n : ℕ} {x : ℝ}, res / 1000 ≤ x ∧ x ≤ n * res - res / 1000 → 1 ≤ n := by
    intro n x h
    rcases Nat.eq_zero_or_pos n with h0 | h0
    · rw [h0] at h; simp at h; linarith
    · exact h0
  have nx := hx hq.1
  have ny := hx hq.2.1
  have nz := hx hq.2.2
  have N1 : (1 : ℝ) ≤ N := by exact_mod_cast nx.trans hdim.1
  have M1 : 1 ≤ M := N1.trans hNM
  have hM2 : M ≤ 2 ^ 29 := le_trans (le_mul_of_one_le_right (by linarith) N1) hM
  have hT' : OriginWithin A (2 ^ 190) := by
    have : M * res ≤ 2 ^ 190 := by
      calc M * res ≤ 2 ^ 29 * 2 ^ 60 := by gcongr
        _ ≤ 2 ^ 190 := by norm_num
    exact ⟨hT.1.trans this, hT.2.1.trans this, hT.2.2.trans this⟩
  obtain ⟨B, hB, -⟩ := C112_inverse hA hT'
  have hcq := inside_coords r0 hdim hNM hq
  obtain ⟨m', hset, -, i0, hi0, hn0, hget⟩ := C124_accept hlo hhi hA hB M1 hM2 hT hm hcq hq v
  have hall : m' = m.setAllF ieee res B ([q].map fun q => loc (A.app id q)) v := by
    simp [CMap.setAllF, hset]
  have hobs : ∀ j, InBounds m.grid.dims j → (Obstacle m' u j ↔ j = i0) := by
    intro j hj
    by_cases e : j = i0
    · simp only [e, iff_true]
      left
      rw [hget, if_pos rfl]
      exact hv
    · simp only [e, iff_false]
      intro ho
      apply hfree j hj
      unfold Obstacle at ho ⊢
      rwa [hget, if_neg e] at ho
  have hin : ∃ q' ∈ [q], InsideBy m.grid.dims res q' := ⟨q, List.mem_singleton_self q, hq⟩
  have hqs : ∀ q' ∈ [q], CoordsWithin (M * res) q' := by
    intro q' h; rw [List.mem_singleton.mp h]; exact hcq
  have hsome : ∃ i, InBounds m.grid.dims i ∧ ¬ Obstacle m' u i := by
    have two : ∃ a b, InBounds m.grid.dims a ∧ InBounds m.grid.dims b ∧ a ≠ b := by
      have mk : ∀ x y z : ℤ, 0 ≤ x → 0 ≤ y → 0 ≤ z → x < m.grid.dims.nx → y < m.grid.dims.ny → z < m.grid.dims.nz →
          InBounds m.grid.dims ⟨x, y, z⟩ := fun x y z a b c d e f => ⟨⟨a, d⟩, ⟨b, e⟩, c, f⟩
      have z := mk 0 0 0 (by omega) (by omega) (by omega) (by omega) (by omega) (by omega)
      rcases htwo with h | h | h
      · exact ⟨_, _, z, mk 1 0 0 (by omega) (by omega) (by omega) (by omega) (by omega) (by omega), by simp⟩
      · exact ⟨_, _, z, mk 0 1 0 (by omega) (by omega) (by omega) (by omega) (by omega) (by omega), by simp⟩
      · exact ⟨_, _, z, mk 0 0 1 (by omega) (by omega) (by omega) (by omega) (by omega) (by omega), by simp⟩
    obtain ⟨a, b, ha, hb, hab⟩ := two
    by_cases e : a = i0
    · exact ⟨b, hb, fun h => hab (e.trans ((hobs b hb).mp h).symm)⟩
    · exact ⟨a, ha, fun h => e ((hobs a ha).mp h)⟩
  obtain ⟨-, -, hd, hb, -, hnear⟩ := marks_facts hres hlo hhi hA hB hm hN hdim hNM hM hT hfree hv hqs hall hin hsome
  have ans : Answers m.grid.dims (mapFill m' u) fun i => decide (Obstacle m' u i) := hd ▸ mapFill_answers m' u
  obtain ⟨o, _, _, ho, _⟩ := base_spec hsm ans ieee res oob
  rw [← extract_false] at ho
  have ho' : extractMap ieee (res, res, res) m' oob u false = some o := by
    unfold extractMap; rw [hd]; exact ho
  have hprod : IsProduct m.grid.dims (fun i => decide (Obstacle m' u i) = true) (· = i0.x) (· = i0.y) (· = i0.z) := by
    intro j hj
    simp only [decide_eq_true_eq]
    rw [hobs j hj]
    cases j; cases i0
    simp
  obtain ⟨g, hg⟩ := C123_product hres (hlo.trans' (by norm_num)) (hhi.trans (by norm_num)) hN hdim ans hb (Or.inl hprod) ho
  refine ⟨B, m', o, hB, hset, ho', fun c hc => ?_⟩
  obtain ⟨y, ey, h⟩ := C124_reported hres hlo hhi hA hB hm hN hdim hNM hM hT hfree hv hqs hall hin hsome ho'
    (fun v hv => ⟨g v, hg.1 v hv⟩) hc
  obtain ⟨y', ey', h', -⟩ := C118_clearance hres hlo hhi hN hdim ans hb (Or.inl hprod) ho hA hB hNM hM2 hT hc
  obtain rfl : y = y' := by
    rw [ey] at ey'
    unfold real at ey'
    simpa using ey'
  refine ⟨y, ey, ?_, fun h2 => h _ h2 (by simp)⟩
  rcases le_total (y - 4 / 3 * res) 0 with h0 | h0
  · have : 0 ≤ dist3 (A.app id c) (A.app id q) := Real.sqrt_nonneg _
    linarith
  · obtain ⟨r, hr, hdr⟩ := hnear q (List.mem_singleton_self q) hq
    have a := h' (y - 4 / 3 * res) h0 (by linarith) r hr
    have b := dist3_tri (A.app id c) (A.app id q) (A.app id r)
    linarith

/-- A map of 5 x 6 x 5 free cells of size 1/4 in a turned and shifted grid, one position marked as occupied: the hypotheses
of `C124_single`, and with them those of `C124_accept`, `C124_marks` and `C124_reported`, hold; another position is refused. -/
example : ∃ B m' o, isoInverse ieee exPose = (B.rx, B.ry, B.rz, loc B.t) ∧
    (CMap.create ⟨5, 6, 5⟩ (CCell.ofOcc F32.zero) (CCell.ofOcc F32.zero)).setAtF ieee (1 / 4) B
      (loc (exPose.app id ⟨1, 1 / 5, 9 / 8⟩)) (CCell.ofOcc F32.one) = (m', true) ∧
    m'.setAtF ieee (1 / 4) B (loc (exPose.app id ⟨1, -1 / 5, 9 / 8⟩)) (CCell.ofOcc F32.one) = (m', false) ∧
    extractMap ieee ((1 / 4 : ℝ), (1 / 4 : ℝ), (1 / 4 : ℝ)) m' (some ⊤) true false = some o ∧
    ∃ y : ℝ, (FSdf.mk o.sdf (1 / 4)).estimate ieee (affApp ieee B)
        (fun p => byAxis (axisCell ieee (1 / 4)) (affApp ieee B p)) (loc (exPose.app id ⟨1 / 4, 5 / 4, 1 / 2⟩)) =
          some (real y, true) ∧
      y ≤ dist3 (exPose.app id ⟨1 / 4, 5 / 4, 1 / 2⟩) (exPose.app id ⟨1, 1 / 5, 9 / 8⟩) + 27 / 20 * (1 / 4) := by
  have dm : (CMap.create ⟨5, 6, 5⟩ (CCell.ofOcc F32.zero) (CCell.ofOcc F32.zero)).grid.dims = ⟨5, 6, 5⟩ := rfl
  have free : ∀ i, ¬ Obstacle (CMap.create ⟨5, 6, 5⟩ (CCell.ofOcc F32.zero) (CCell.ofOcc F32.zero)) true i := by
    intro i
    have e : ((CMap.create ⟨5, 6, 5⟩ (CCell.ofOcc F32.zero) (CCell.ofOcc F32.zero)).getImm i).1 = CCell.ofOcc F32.zero := by
      unfold CMap.create CMap.getImm Grid.getImm
      rw [Grid.get_mk']
      exact ite_self _
    unfold Obstacle
    rw [e]
    decide
  obtain ⟨B, m', o, hB, hset, ho, h⟩ := C124_single (m := CMap.create ⟨5, 6, 5⟩ (CCell.ofOcc F32.zero) (CCell.ofOcc F32.zero))
    quarter_good (by norm_num) (by norm_num) exPose_rotation (Grid.wf_mk' _ _ _) (N := 6) (by norm_num) (by decide)
    (M := 2 ^ 26) (by norm_num) (by norm_num) exPose_origin (u := true) (fun i _ => free i) (v := CCell.ofOcc F32.one)
    (by decide) (q := ⟨1, 1 / 5, 9 / 8⟩) (by rw [dm]; norm_num [InsideBy]) (by decide) (some ⊤)
  have dm' : m'.grid.dims = ⟨5, 6, 5⟩ := by
    have := congrArg (fun x => x.1.grid.dims) hset
    simp only at this
    rw [← this]
    unfold CMap.setAtF
    split_ifs
    · rw [CMap.setValue_dims]; rfl
    · rfl
  obtain ⟨y, hy, h1, -⟩ := h ⟨1 / 4, 5 / 4, 1 / 2⟩ (by rw [dm]; norm_num [WellInside, WellInner])
  refine ⟨B, m', o, hB, hset, ?_, ho, y, hy, h1⟩
  exact C124_refuse (by norm_num) (by norm_num) exPose_rotation hB (M := 2 ^ 26) (by norm_num) (by norm_num) exPose_origin
    (by norm_num [CoordsWithin]) (by rw [dm']; norm_num [OutsideBy]) _

end FSdf

end Verif
