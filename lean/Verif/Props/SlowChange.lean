import Verif.Props.WorldMarks

/-!
# C125: reported distances change slowly

A field that passes the check of C123 has no jumps: the reports at two locations differ by at most 7/4 of the distance of
the locations, and a thirtieth of a cell for rounding.
-/

namespace Verif

open Spec SdfGen DField

namespace FSdf

open SignedDist

/-- Between the first and the last cell centre an axis is interpolated, not extrapolated. -/
theorem axisInterp_inner {n : Nat} (hn : 0 < n) {f : Int → ℝ} {V t : ℝ} (ht : Inner n t)
    (hf : ∀ k : Int, 0 ≤ k → k < n → |f k| ≤ V) : |axisInterp n f t| ≤ V := by
  obtain ⟨h0, h1, h2, h3⟩ := lowerCell_spec n t hn
  have fa := hf _ h0 h1
  have fb := hf _ h2 h3
  have hV : 0 ≤ V := (abs_nonneg _).trans fa
  rcases (by omega : n = 1 ∨ 2 ≤ n) with rfl | hn2
  · have e : upperCell 1 t = lowerCell 1 t := by unfold upperCell lowerCell; omega
    unfold axisInterp lerp
    rw [e]
    refine le_trans (le_of_eq ?_) fa
    congr 1
    ring
  have ht' : 1 / 2 ≤ t ∧ t ≤ (n : ℝ) - 1 / 2 := by
    rcases ht with ⟨h, -⟩ | h
    · omega
    · exact h
  have hfl := Int.floor_le (t - 1 / 2)
  have hlt := Int.lt_floor_add_one (t - 1 / 2)
  have fl0 : 0 ≤ ⌊t - 1 / 2⌋ := Int.floor_nonneg.mpr (by linarith [ht'.1])
  have w0 : 0 ≤ t - 1 / 2 - lowerCell n t := by
    have : lowerCell n t ≤ ⌊t - 1 / 2⌋ := by unfold lowerCell; omega
    have : (lowerCell n t : ℝ) ≤ ⌊t - 1 / 2⌋ := by exact_mod_cast this
    linarith
  have w1 : t - 1 / 2 - lowerCell n t ≤ 1 := by
    have h4 : (⌊t - 1 / 2⌋ : Int) ≤ lowerCell n t ∨ (n : Int) - 2 ≤ lowerCell n t := by
      unfold lowerCell; omega
    rcases h4 with h | h
    · have : (⌊t - 1 / 2⌋ : ℝ) ≤ lowerCell n t := by exact_mod_cast h
      linarith
    · have : ((n : Int) : ℝ) - 2 ≤ lowerCell n t := by exact_mod_cast h
      push_cast at this
      linarith [ht'.2]
  unfold axisInterp lerp
  generalize t - 1 / 2 - (lowerCell n t : ℝ) = w at w0 w1
  generalize f (lowerCell n t) = a at fa
  generalize f (upperCell n t) = b at fb
  calc |(1 - w) * a + w * b| ≤ |1 - w| * |a| + |w| * |b| := by
        refine (abs_add_le _ _).trans ?_
        rw [abs_mul, abs_mul]
    _ ≤ |1 - w| * V + |w| * V := by gcongr
    _ = V := by rw [abs_of_nonneg (by linarith), abs_of_nonneg w0]; ring

/-- The interpolant between the cell centres varies at most as fast as the corrected distances. -/
theorem interpAt_inner {t : MSdf ℝ} (hr : 0 < t.res) {L : ℝ} (hL : 0 ≤ L) (hj : Jump t L) {a b : V3 ℝ}
    (hx : 0 < t.grid.dims.nx) (hy : 0 < t.grid.dims.ny) (hz : 0 < t.grid.dims.nz)
    (ha : InnerLocation t.grid.dims t.res a) (hb : InnerLocation t.grid.dims t.res b) :
    |interpAt t a - interpAt t b| ≤ L / t.res * (|a.x - b.x| + |a.y - b.y| + |a.z - b.z|) := by
  obtain ⟨ax, ay, az⟩ := ha
  obtain ⟨bx, bY, bz⟩ := hb
  unfold interpAt
  rw [trilerp_nested, trilerp_nested]
  have step : ∀ u v : ℝ, |u / t.res - v / t.res| = |u - v| / t.res := by
    intro u v; rw [← sub_div, abs_div, abs_of_pos hr]
  generalize hc : (fun x y z => halfCellCloser t.res (t.grid.get ⟨x, y, z⟩)) = c
  have cx : ∀ x y z, 0 ≤ x → x + 1 < (t.grid.dims.nx : Int) → 0 ≤ y → y < (t.grid.dims.ny : Int) → 0 ≤ z →
      z < (t.grid.dims.nz : Int) → |c (x + 1) y z - c x y z| ≤ L := by
    intro x y z x0 x1 y0 y1 z0 z1
    rw [← hc]
    refine hj ⟨x + 1, y, z⟩ ⟨x, y, z⟩ ⟨⟨?_, ?_⟩, ⟨y0, y1⟩, z0, z1⟩ ⟨⟨x0, ?_⟩, ⟨y0, y1⟩, z0, z1⟩ ?_
    · dsimp only; omega
    · dsimp only; omega
    · dsimp only; omega
    · simp
  have cy : ∀ x y z, 0 ≤ x → x < (t.grid.dims.nx : Int) → 0 ≤ y → y + 1 < (t.grid.dims.ny : Int) → 0 ≤ z →
      z < (t.grid.dims.nz : Int) → |c x (y + 1) z - c x y z| ≤ L := by
    intro x y z x0 x1 y0 y1 z0 z1
    rw [← hc]
    refine hj ⟨x, y + 1, z⟩ ⟨x, y, z⟩ ⟨⟨x0, x1⟩, ⟨?_, ?_⟩, z0, z1⟩ ⟨⟨x0, x1⟩, ⟨y0, ?_⟩, z0, z1⟩ ?_
    · dsimp only; omega
    · dsimp only; omega
    · dsimp only; omega
    · simp
  have cz : ∀ x y z, 0 ≤ x → x < (t.grid.dims.nx : Int) → 0 ≤ y → y < (t.grid.dims.ny : Int) → 0 ≤ z →
      z + 1 < (t.grid.dims.nz : Int) → |c x y (z + 1) - c x y z| ≤ L := by
    intro x y z x0 x1 y0 y1 z0 z1
    rw [← hc]
    refine hj ⟨x, y, z + 1⟩ ⟨x, y, z⟩ ⟨⟨x0, x1⟩, ⟨y0, y1⟩, ?_, ?_⟩ ⟨⟨x0, x1⟩, ⟨y0, y1⟩, z0, ?_⟩ ?_
    · dsimp only; omega
    · dsimp only; omega
    · dsimp only; omega
    · simp
  have e : ∀ x y : Int, (fun z => halfCellCloser t.res (t.grid.get ⟨x, y, z⟩)) = c x y := by
    intro x y; rw [← hc]
  simp only [e]
  generalize hX : a.x / t.res = X at ax
  generalize hX' : b.x / t.res = X' at bx
  generalize hY : a.y / t.res = Y at ay
  generalize hY' : b.y / t.res = Y' at bY
  generalize hZ : a.z / t.res = Z at az
  generalize hZ' : b.z / t.res = Z' at bz
  have s1 : |axisInterp t.grid.dims.nx (fun x => axisInterp t.grid.dims.ny (fun y =>
        axisInterp t.grid.dims.nz (c x y) Z) Y) X -
      axisInterp t.grid.dims.nx (fun x => axisInterp t.grid.dims.ny (fun y =>
        axisInterp t.grid.dims.nz (c x y) Z) Y) X'| ≤ L * |X - X'| := by
    refine axisInterp_lip hx hL (fun x x0 x1 => ?_) X X'
    rw [axisInterp_sub]
    refine axisInterp_inner hy ay (fun y y0 y1 => ?_)
    rw [axisInterp_sub]
    exact axisInterp_inner hz az (fun z z0 z1 => cx x y z x0 x1 y0 y1 z0 z1)
  have s2 : |axisInterp t.grid.dims.nx (fun x => axisInterp t.grid.dims.ny (fun y =>
        axisInterp t.grid.dims.nz (c x y) Z) Y) X' -
      axisInterp t.grid.dims.nx (fun x => axisInterp t.grid.dims.ny (fun y =>
        axisInterp t.grid.dims.nz (c x y) Z) Y') X'| ≤ L * |Y - Y'| := by
    rw [axisInterp_sub]
    refine axisInterp_inner hx bx (fun x x0 x1 => ?_)
    refine axisInterp_lip hy hL (fun y y0 y1 => ?_) Y Y'
    rw [axisInterp_sub]
    exact axisInterp_inner hz az (fun z z0 z1 => cy x y z x0 x1 y0 y1 z0 z1)
  have s3 : |axisInterp t.grid.dims.nx (fun x => axisInterp t.grid.dims.ny (fun y =>
        axisInterp t.grid.dims.nz (c x y) Z) Y') X' -
      axisInterp t.grid.dims.nx (fun x => axisInterp t.grid.dims.ny (fun y =>
        axisInterp t.grid.dims.nz (c x y) Z') Y') X'| ≤ L * |Z - Z'| := by
    rw [axisInterp_sub]
    refine axisInterp_inner hx bx (fun x x0 x1 => ?_)
    rw [axisInterp_sub]
    refine axisInterp_inner hy bY (fun y y0 y1 => ?_)
    exact axisInterp_lip hz hL (fun z z0 z1 => cz x y z x0 x1 y0 y1 z0 z1) Z Z'
  have t1 := (abs_sub_le _ _ _).trans (add_le_add s1 s2)
  have t2 := (abs_sub_le _ _ _).trans (add_le_add t1 s3)
  refine t2.trans (le_of_eq ?_)
  rw [← hX, ← hX', ← hY, ← hY', ← hZ, ← hZ', step, step, step]
  ring

theorem coords_le_dist (a b : V3 ℝ) : |a.x - b.x| + |a.y - b.y| + |a.z - b.z| ≤ Real.sqrt 3 * dist3 a b := by
  unfold dist3 sqDist3
  rw [← Real.sqrt_mul (by norm_num)]
  refine Real.le_sqrt_of_sq_le ?_
  rw [← sq_abs (a.x - b.x), ← sq_abs (a.y - b.y), ← sq_abs (a.z - b.z)]
  nlinarith [sq_nonneg (|a.x - b.x| - |a.y - b.y|), sq_nonneg (|a.y - b.y| - |a.z - b.z|),
    sq_nonneg (|a.x - b.x| - |a.z - b.z|)]

/-- The corrected distances of a field that passes the check differ by at most 1.01 cells between neighbours, also across
the surface. -/
theorem checked_jump {res : ℝ} (hres : GoodRes ieee res) (hlo : 1 / 2 ^ 126 ≤ res) (hhi : res ≤ 2 ^ 100) {d : Dims}
    (hd : SmallGrid d) {fill : Idx → Option Bool} {f : Idx → Bool} (hf : Answers d fill f)
    {oob : FVal} {o : Out} (ho : extract ieee (res, res, res) d fill oob false = some o) {g : Idx → ℝ}
    (hg : Checked d res o.sdf.get g) (inv : Aff ℝ) : Jump (exactAt (FSdf.mk o.sdf res) inv) (101 / 100 * res) := by
  have hdims := extract_dims hd hf ho
  have r0 := hres.1
  intro i j hi hj hij
  have hi' : InBounds d i := by rw [← hdims]; exact hi
  have hj' : InBounds d j := by rw [← hdims]; exact hj
  have val : ∀ v, InBounds d v → (exactAt (FSdf.mk o.sdf res) inv).grid.get v = g v := by
    intro v hv
    have eg : (exactAt (FSdf.mk o.sdf res) inv).grid.get v = toR (o.sdf.get v) := exact_get (FSdf.mk o.sdf res) v
    rw [eg, hg.1 v hv]
    simp [toR]
  rw [val i hi', val j hj']
  show |halfCellCloser res (g i) - halfCellCloser res (g j)| ≤ 101 / 100 * res
  have one : sqDist i j = 1 := by
    have key : ∀ a b c : ℤ, |a| + |b| + |c| = 1 → a ^ 2 + b ^ 2 + c ^ 2 = 1 := by
      intro a b c h
      simp only [Int.abs_eq_natAbs] at h
      have hx : a = 1 ∨ a = -1 ∨ a = 0 := by omega
      have hy : b = 1 ∨ b = -1 ∨ b = 0 := by omega
      have hz : c = 1 ∨ c = -1 ∨ c = 0 := by omega
      rcases hx with rfl | rfl | rfl <;> rcases hy with rfl | rfl | rfl <;> rcases hz with rfl | rfl | rfl <;>
        first | (exfalso; omega) | norm_num
    exact key _ _ _ hij
  have sgn : ∀ u, InBounds d u → 0 < signed (f u) (g u) := fun u hu =>
    class_value hres hlo hhi hd hf ho hu (hg.1 u hu)
  have pi := sgn i hi'
  have pj := sgn j hj'
  have hcc : ∀ v, 0 < signed (f v) (g v) →
      halfCellCloser res (g v) = signed (f v) (signed (f v) (g v) - res / 2) := by
    intro v hp
    unfold halfCellCloser
    cases hv : f v <;> rw [hv] at hp <;> simp only [signed, if_true, Bool.false_eq_true, if_false] at hp ⊢
    · rw [if_pos hp.le]
    · rw [if_neg (by linarith)]; ring
  by_cases hc : f i = f j
  · have pos : 0 < g i * g j := by
      rw [hc] at pi
      cases hfv : f j <;> rw [hfv] at pi pj <;> simp only [signed, if_true, Bool.false_eq_true, if_false] at pi pj <;>
        nlinarith
    have st := hg.2 i j hi' hj' one pos
    rw [hcc i pi, hcc j pj, hc]
    refine le_trans (le_of_eq ?_) st
    cases f j <;> simp only [signed, if_true, Bool.false_eq_true, if_false]
    · congr 1; ring
    · congr 1; ring
  · have near : ∀ u w, InBounds d u → InBounds d w → f w ≠ f u → sqDist u w = 1 →
        |signed (f u) (g u) - res| ≤ 1 / 1000 * res := by
      intro u w hu hw hne h1
      have hm : NearestOpposite d f u 1 := ⟨⟨w, ⟨hw, hne⟩, h1⟩, fun p hp => opposite_pos hp⟩
      obtain ⟨y, hy, -, herr⟩ := C86_near hres hlo hhi hd hf ho hu hm (by norm_num)
      have e := (toR_signed hy).2
      rw [hg.1 u hu] at e
      have t : toR (some (g u : EReal)) = g u := by simp [toR]
      rw [t] at e
      rw [e]
      simp only [Int.cast_one, Real.sqrt_one, mul_one] at herr
      refine herr.trans ?_
      have rel : relErr ≤ 1 / 1000 := by unfold relErr; norm_num
      gcongr
    have a := near i j hi' hj' (fun h => hc h.symm) one
    have b := near j i hj' hi' hc (by rw [← one]; unfold sqDist; ring)
    rw [hcc i pi, hcc j pj]
    generalize signed (f i) (g i) = x at a
    generalize signed (f j) (g j) = y at b
    obtain ⟨a1, a2⟩ := abs_le.mp a
    obtain ⟨b1, b2⟩ := abs_le.mp b
    rw [abs_le]
    cases hfi : f i <;> cases hfj : f j <;>
      simp only [signed, if_true, Bool.false_eq_true, if_false] <;>
      first | (exfalso; rw [hfi, hfj] at hc; exact hc rfl) | (constructor <;> linarith)

/-- The stored inverse of a placement undoes it up to a small part of a cell. -/
theorem world_back {res : ℝ} (hlo : 1 / 2 ^ 100 ≤ res) (hhi : res ≤ 2 ^ 60) {A B : Aff ℝ} (hA : NearRotation A)
    (hB : isoInverse ieee A = (B.rx, B.ry, B.rz, loc B.t)) {M : ℝ} (h1 : 1 ≤ M) (hM : M ≤ 2 ^ 29)
    (hT : OriginWithin A (M * res)) {q : V3 ℝ} (hq : CoordsWithin (M * res) q) :
    Within (res / 2 ^ 13) (B.app id (A.app id q)) q := by
  have r0 : 0 < res := lt_of_lt_of_le (by norm_num) hlo
  have hhi' : res ≤ 2 ^ 100 := hhi.trans (by norm_num)
  have hT' : OriginWithin A (2 ^ 190) := by
    have : M * res ≤ 2 ^ 190 := by
      calc M * res ≤ 2 ^ 29 * 2 ^ 60 := by gcongr
        _ ≤ 2 ^ 190 := by norm_num
    exact ⟨hT.1.trans this, hT.2.1.trans this, hT.2.2.trans this⟩
  obtain ⟨B', eB, hAB⟩ := C112_inverse hA hT'
  obtain rfl : B' = B := by
    rw [eB] at hB
    obtain ⟨x, y, z, t⟩ := B
    obtain ⟨x', y', z', t'⟩ := B'
    simp only [Prod.mk.injEq] at hB
    obtain ⟨rfl, rfl, rfl, e⟩ := hB
    rw [loc_inj e]
  obtain ⟨p, c, ep, ec, -, w⟩ := C112_trip hAB hlo hhi' h1 (hM.trans (by norm_num)) hT (exactApp_accurate B')
    (exactApp_accurate A) hq
  rw [exactApp_loc] at ep
  rw [← ep, exactApp_loc] at ec
  rw [loc_inj ec]
  have err : M * res / 2 ^ 42 ≤ res / 2 ^ 13 := by
    have : M * res ≤ 2 ^ 29 * res := by gcongr
    linarith
  exact ⟨w.1.trans err, w.2.1.trans err, w.2.2.trans err⟩

/-- C125: in a field that passes the check the reports at two world locations differ by at most 7/4 of their distance, and
a thirtieth of a cell. -/
theorem C125_slow {res : ℝ} (hres : GoodRes ieee res) (hlo : 1 / 2 ^ 100 ≤ res) (hhi : res ≤ 2 ^ 60)
    {d : Dims} {N : ℕ} (hN : N ≤ 2 ^ 14) (hdim : d.nx ≤ N ∧ d.ny ≤ N ∧ d.nz ≤ N)
    {fill : Idx → Option Bool} {f : Idx → Bool} (hf : Answers d fill f) (hb : BothClasses d f)
    {oob : FVal} {o : Out} (ho : extract ieee (res, res, res) d fill oob false = some o) {g : Idx → ℝ}
    (hg : Checked d res o.sdf.get g) {A B : Aff ℝ}
    (hA : NearRotation A) (hB : isoInverse ieee A = (B.rx, B.ry, B.rz, loc B.t)) {M : ℝ} (hNM : (N : ℝ) ≤ M)
    (hM : M * N ≤ 2 ^ 29) (hT : OriginWithin A (M * res)) {c c' : V3 ℝ} (hc : WellInside d res c)
    (hc' : WellInside d res c') :
    ∃ y y' : ℝ, (FSdf.mk o.sdf res).estimate ieee (affApp ieee B)
        (fun p => byAxis (axisCell ieee res) (affApp ieee B p)) (loc (A.app id c)) = some (real y, true) ∧
      (FSdf.mk o.sdf res).estimate ieee (affApp ieee B)
        (fun p => byAxis (axisCell ieee res) (affApp ieee B p)) (loc (A.app id c')) = some (real y', true) ∧
      |y - y'| ≤ 7 / 4 * dist3 (A.app id c) (A.app id c') + res / 30 := by
  have hhi' : res ≤ 2 ^ 100 := hhi.trans (by norm_num)
  have hlo' : (1 : ℝ) / 2 ^ 126 ≤ res := le_trans (by norm_num) hlo
  have r0 := hres.1
  obtain ⟨px, py, pz⟩ := both_pos hb
  have N1 : 1 ≤ N := by omega
  have N1' : (1 : ℝ) ≤ N := by exact_mod_cast N1
  have M1 : 1 ≤ M := N1'.trans hNM
  have hM2 : M ≤ 2 ^ 29 := le_trans (le_mul_of_one_le_right (by linarith) N1') hM
  have hsm := small_of hN hdim
  have hdims := extract_dims hsm hf ho
  have hfin : ∀ v, InBounds d v → ∃ x : ℝ, o.sdf.get v = real x := fun v hv => ⟨g v, hg.1 v hv⟩
  obtain ⟨st, hS, hD⟩ := values_of_map hres hlo hhi' hN hdim hf ho hfin B
  have hj := checked_jump hres hlo' hhi' hsm hf ho hg B
  have ask : ∀ c, WellInside d res c → ∃ y : ℝ, (FSdf.mk o.sdf res).estimate ieee (affApp ieee B)
        (fun p => byAxis (axisCell ieee res) (affApp ieee B p)) (loc (A.app id c)) = some (real y, true) ∧
      |y - interpAt (exactAt (FSdf.mk o.sdf res) B) (B.app id (A.app id c))| ≤ 3 / 256 * res ∧
      InnerLocation d res (B.app id (A.app id c)) ∧ dist3 (B.app id (A.app id c)) c ≤ 17321 / 10000 * (res / 2 ^ 13) := by
    intro c hc
    obtain ⟨hp, hin, hq, -, -⟩ := world_query hA hlo hhi hM2 hT hN hNM hdim hb hc hB
    have co : CoordsWithin (M * res) c := by
      have vol : ∀ {n : ℕ} {x : ℝ}, n ≤ N → WellInner n (x / res) → |x| ≤ M * res := by
        intro n x hn h
        obtain ⟨-, -, -, h0, h1⟩ := wellInner_inner r0 h (y := x) (by simp; positivity)
        rw [abs_of_nonneg h0]
        have : (n : ℝ) ≤ M := le_trans (by exact_mod_cast hn) hNM
        exact h1.trans (by gcongr)
      exact ⟨vol hdim.1 hc.1, vol hdim.2.1 hc.2.1, vol hdim.2.2 hc.2.2⟩
    obtain ⟨w1, w2, w3⟩ := world_back hlo hhi hA hB M1 hM2 hT co
    have hd3 := dist3_le_coords (by positivity) w1 w2 w3
    subst hdims
    obtain ⟨y, ey, hyz⟩ := estimate_bounded st hN N1 hdim hlo hhi' hD (C112_product B) (C112_product B)
      (C112_lookup hlo hhi') (by linarith : 1 ≤ 64 * M) (by norm_num at hM ⊢; linarith) hp hin
    exact ⟨y, ey, hyz, hq, hd3⟩
  obtain ⟨y, ey, h1, q1, d1⟩ := ask c hc
  obtain ⟨y', ey', h2, q2, d2⟩ := ask c' hc'
  refine ⟨y, y', ey, ey', ?_⟩
  have lip : |interpAt (exactAt (FSdf.mk o.sdf res) B) (B.app id (A.app id c)) -
      interpAt (exactAt (FSdf.mk o.sdf res) B) (B.app id (A.app id c'))| ≤
      101 / 100 * (Real.sqrt 3 * dist3 (B.app id (A.app id c)) (B.app id (A.app id c'))) := by
    subst hdims
    refine (interpAt_inner (t := exactAt (FSdf.mk o.sdf res) B) r0 (by positivity) hj px py pz q1 q2).trans ?_
    have e : 101 / 100 * res / (exactAt (FSdf.mk o.sdf res) B).res = 101 / 100 := by
      show 101 / 100 * res / res = 101 / 100
      field_simp
    rw [e]
    have := coords_le_dist (B.app id (A.app id c)) (B.app id (A.app id c'))
    gcongr
  have iso := (near_isometry hA c c').2
  have tri1 := dist3_tri (B.app id (A.app id c)) c (B.app id (A.app id c'))
  have tri2 := dist3_tri c c' (B.app id (A.app id c'))
  rw [dist3_comm c' (B.app id (A.app id c'))] at tri2
  have s3 := sqrt3_bounds.2
  have dn : 0 ≤ dist3 (B.app id (A.app id c)) (B.app id (A.app id c')) := Real.sqrt_nonneg _
  have dw : 0 ≤ dist3 (A.app id c) (A.app id c') := Real.sqrt_nonneg _
  have sq : Real.sqrt 3 * dist3 (B.app id (A.app id c)) (B.app id (A.app id c')) ≤
      17321 / 10000 * dist3 (B.app id (A.app id c)) (B.app id (A.app id c')) := by gcongr
  obtain ⟨a1, a2⟩ := abs_le.mp h1
  obtain ⟨b1, b2⟩ := abs_le.mp h2
  obtain ⟨l1, l2⟩ := abs_le.mp lip
  have all : 101 / 100 * (Real.sqrt 3 * dist3 (B.app id (A.app id c)) (B.app id (A.app id c'))) ≤
      7 / 4 * dist3 (A.app id c) (A.app id c') + res / 200 := by
    norm_num at iso d1 d2
    linarith
  rw [abs_le]
  constructor <;> linarith

/-- C125: the same for every map whose filled (or free) cells form a product of sets along the axes, without any check. -/
theorem C125_product {res : ℝ} (hres : GoodRes ieee res) (hlo : 1 / 2 ^ 100 ≤ res) (hhi : res ≤ 2 ^ 60)
    {d : Dims} {N : ℕ} (hN : N ≤ 2 ^ 14) (hdim : d.nx ≤ N ∧ d.ny ≤ N ∧ d.nz ≤ N)
    {fill : Idx → Option Bool} {f : Idx → Bool} (hf : Answers d fill f) (hb : BothClasses d f) {X Y Z : ℤ → Prop}
    (hprod : IsProduct d (fun i => f i = true) X Y Z ∨ IsProduct d (fun i => f i = false) X Y Z)
    {oob : FVal} {o : Out} (ho : extract ieee (res, res, res) d fill oob false = some o) {A B : Aff ℝ}
    (hA : NearRotation A) (hB : isoInverse ieee A = (B.rx, B.ry, B.rz, loc B.t)) {M : ℝ} (hNM : (N : ℝ) ≤ M)
    (hM : M * N ≤ 2 ^ 29) (hT : OriginWithin A (M * res)) {c c' : V3 ℝ} (hc : WellInside d res c)
    (hc' : WellInside d res c') :
    ∃ y y' : ℝ, (FSdf.mk o.sdf res).estimate ieee (affApp ieee B)
        (fun p => byAxis (axisCell ieee res) (affApp ieee B p)) (loc (A.app id c)) = some (real y, true) ∧
      (FSdf.mk o.sdf res).estimate ieee (affApp ieee B)
        (fun p => byAxis (axisCell ieee res) (affApp ieee B p)) (loc (A.app id c')) = some (real y', true) ∧
      |y - y'| ≤ 7 / 4 * dist3 (A.app id c) (A.app id c') + res / 30 := by
  obtain ⟨g, hg⟩ := C123_product hres (le_trans (by norm_num) hlo) (hhi.trans (by norm_num)) hN hdim hf hb hprod ho
  exact C125_slow hres hlo hhi hN hdim hf hb ho hg hA hB hNM hM hT hc hc'

/-- The hypotheses hold for a box in a map with a turned and shifted pose: two locations a quarter of a cell apart. -/
example : ∃ (o : Out) (B : Aff ℝ) (y y' : ℝ), extract ieee ((1 / 4 : ℝ), (1 / 4 : ℝ), (1 / 4 : ℝ)) ⟨5, 6, 5⟩
      (fun i => some (exBox i)) (some ⊤) false = some o ∧
    (FSdf.mk o.sdf (1 / 4)).estimate ieee (affApp ieee B) (fun p => byAxis (axisCell ieee (1 / 4)) (affApp ieee B p))
      (loc (exPose.app id ⟨7 / 8, 5 / 8, 5 / 8⟩)) = some (real y, true) ∧
    (FSdf.mk o.sdf (1 / 4)).estimate ieee (affApp ieee B) (fun p => byAxis (axisCell ieee (1 / 4)) (affApp ieee B p))
      (loc (exPose.app id ⟨15 / 16, 5 / 8, 5 / 8⟩)) = some (real y', true) ∧
    |y - y'| ≤ 7 / 4 * dist3 (exPose.app id ⟨7 / 8, 5 / 8, 5 / 8⟩) (exPose.app id ⟨15 / 16, 5 / 8, 5 / 8⟩) +
      1 / 4 / 30 := by
  have hd : SmallGrid ⟨5, 6, 5⟩ := by unfold SmallGrid; decide
  have ans : Answers ⟨5, 6, 5⟩ (fun i => some (exBox i)) exBox := fun _ _ => rfl
  obtain ⟨o, _, _, ho, _⟩ := base_spec hd ans ieee (1 / 4) (some ⊤)
  rw [← extract_false] at ho
  obtain ⟨B, hB, -⟩ := C112_inverse exPose_rotation
    ⟨exPose_origin.1.trans (by norm_num), exPose_origin.2.1.trans (by norm_num), exPose_origin.2.2.trans (by norm_num)⟩
  obtain ⟨y, y', h⟩ := C125_product quarter_good (by norm_num) (by norm_num) (N := 6) (by norm_num) (by decide) ans
    exBox_both (X := fun x => 1 ≤ x ∧ x ≤ 2) (Y := fun y => 1 ≤ y ∧ y ≤ 4) (Z := fun z => 2 ≤ z ∧ z ≤ 2)
    (Or.inl fun i _ => by simp [exBox]) ho exPose_rotation hB (M := 2 ^ 26) (by norm_num) (by norm_num) exPose_origin
    (c := ⟨7 / 8, 5 / 8, 5 / 8⟩) (c' := ⟨15 / 16, 5 / 8, 5 / 8⟩) (by norm_num [WellInside, WellInner])
    (by norm_num [WellInside, WellInner])
  exact ⟨o, B, y, y', ho, h⟩

end FSdf

end Verif
