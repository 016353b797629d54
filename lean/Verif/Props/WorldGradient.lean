import Verif.QuatFloat
import Verif.Props.Rotation

/-!
# C117: the world-frame gradient with the quaternion computed in floating point

`GetGradient` computes the quaternion of the origin transform in IEEE arithmetic, from a matrix of doubles that is a
rotation only up to rounding.  The theorems of C111 start from the quaternion; here it is computed too.
-/

namespace Verif

/-- Two matrices whose linear parts agree to within `e`, entry by entry. -/
structure Near (e : ℝ) (m n : Aff ℝ) : Prop where
  xx : |m.rx.x - n.rx.x| ≤ e
  xy : |m.rx.y - n.rx.y| ≤ e
  xz : |m.rx.z - n.rx.z| ≤ e
  yx : |m.ry.x - n.ry.x| ≤ e
  yy : |m.ry.y - n.ry.y| ≤ e
  yz : |m.ry.z - n.ry.z| ≤ e
  zx : |m.rz.x - n.rz.x| ≤ e
  zy : |m.rz.y - n.rz.y| ≤ e
  zz : |m.rz.z - n.rz.z| ≤ e

namespace Q4

/-- Two quaternions that agree to within `e`, component by component. -/
structure Near (e : ℝ) (p q : Q4) : Prop where
  w : |p.w - q.w| ≤ e
  x : |p.x - q.x| ≤ e
  y : |p.y - q.y| ≤ e
  z : |p.z - q.z| ≤ e

/-- Products of close numbers. -/
theorem prod_close {a b c d e : ℝ} (he : e ≤ 1) (hc : |c| ≤ 1) (hd : |d| ≤ 1) (h1 : |a - c| ≤ e) (h2 : |b - d| ≤ e) :
    |a * b - c * d| ≤ 3 * e := by
  have e0 : 0 ≤ e := (abs_nonneg _).trans h1
  rw [show a * b - c * d = (a - c) * (b - d) + (a - c) * d + c * (b - d) by ring]
  refine (abs_add_le _ _).trans ?_
  have := abs_add_le ((a - c) * (b - d)) ((a - c) * d)
  rw [abs_mul, abs_mul] at this
  rw [abs_mul]
  have p1 : |a - c| * |b - d| ≤ e * 1 := mul_le_mul h1 (h2.trans he) (abs_nonneg _) e0
  have p2 : |a - c| * |d| ≤ e * 1 := mul_le_mul h1 hd (abs_nonneg _) e0
  have p3 : |c| * |b - d| ≤ 1 * e := mul_le_mul hc h2 (abs_nonneg _) (by norm_num)
  linarith

/-- The components of a unit quaternion. -/
theorem unit_comp {q : Q4} (h : q.sq = 1) : |q.w| ≤ 1 ∧ |q.x| ≤ 1 ∧ |q.y| ≤ 1 ∧ |q.z| ≤ 1 := by
  unfold sq at h
  refine ⟨?_, ?_, ?_, ?_⟩ <;> refine abs_le_of_sq_le_sq ?_ (by norm_num) <;>
    nlinarith [mul_self_nonneg q.w, mul_self_nonneg q.x, mul_self_nonneg q.y, mul_self_nonneg q.z]

/-- The entries of the matrix of a unit quaternion. -/
theorem entry_le {q : Q4} (h : q.sq = 1) :
    |q.w * q.w + q.x * q.x - q.y * q.y - q.z * q.z| ≤ 1 ∧ |q.w * q.w - q.x * q.x + q.y * q.y - q.z * q.z| ≤ 1 ∧
    |q.w * q.w - q.x * q.x - q.y * q.y + q.z * q.z| ≤ 1 ∧ |2 * (q.x * q.y - q.w * q.z)| ≤ 1 ∧
    |2 * (q.x * q.y + q.w * q.z)| ≤ 1 ∧ |2 * (q.x * q.z + q.w * q.y)| ≤ 1 ∧ |2 * (q.x * q.z - q.w * q.y)| ≤ 1 ∧
    |2 * (q.y * q.z - q.w * q.x)| ≤ 1 ∧ |2 * (q.y * q.z + q.w * q.x)| ≤ 1 := by
  unfold sq at h
  have pr : ∀ a b : ℝ, 2 * (a * b) ≤ a * a + b * b ∧ -(a * a + b * b) ≤ 2 * (a * b) := fun a b =>
    ⟨by linarith [mul_self_nonneg (a - b), show (a - b) * (a - b) = a * a + b * b - 2 * (a * b) by ring],
      by linarith [mul_self_nonneg (a + b), show (a + b) * (a + b) = a * a + b * b + 2 * (a * b) by ring]⟩
  have cw := mul_self_nonneg q.w
  have cx := mul_self_nonneg q.x
  have cy := mul_self_nonneg q.y
  have cz := mul_self_nonneg q.z
  have xy := pr q.x q.y
  have xz := pr q.x q.z
  have yz := pr q.y q.z
  have wx := pr q.w q.x
  have wy := pr q.w q.y
  have wz := pr q.w q.z
  refine ⟨?_, ?_, ?_, ?_, ?_, ?_, ?_, ?_, ?_⟩ <;> rw [abs_le] <;> constructor <;>
    linarith [xy.1, xy.2, xz.1, xz.2, yz.1, yz.2, wx.1, wx.2, wy.1, wy.2, wz.1, wz.2]

/-- The squared norm of a quaternion close to a unit quaternion. -/
theorem sq_close {p q : Q4} {e : ℝ} (he : e ≤ 1) (h : q.sq = 1) (hn : Near e p q) : |p.sq - 1| ≤ 12 * e := by
  obtain ⟨bw, bx, by', bz⟩ := unit_comp h
  obtain ⟨nw, nx, ny, nz⟩ := hn
  have w := prod_close he bw bw nw nw
  have x := prod_close he bx bx nx nx
  have y := prod_close he by' by' ny ny
  have z := prod_close he bz bz nz nz
  rw [← h]
  unfold sq
  rw [abs_le] at *
  constructor <;> linarith [w.1, w.2, x.1, x.2, y.1, y.2, z.1, z.2]

/-- The rotation by a quaternion in terms of the products of its components. -/
theorem rotate_formula {q : Q4} (h : 0 < q.sq) (v : V3 ℝ) : q.rotate v =
    ⟨((q.w * q.w + q.x * q.x - q.y * q.y - q.z * q.z) * v.x + 2 * (q.x * q.y - q.w * q.z) * v.y +
        2 * (q.x * q.z + q.w * q.y) * v.z) / q.sq,
      (2 * (q.x * q.y + q.w * q.z) * v.x + (q.w * q.w - q.x * q.x + q.y * q.y - q.z * q.z) * v.y +
        2 * (q.y * q.z - q.w * q.x) * v.z) / q.sq,
      (2 * (q.x * q.z - q.w * q.y) * v.x + 2 * (q.y * q.z + q.w * q.x) * v.y +
        (q.w * q.w - q.x * q.x - q.y * q.y + q.z * q.z) * v.z) / q.sq⟩ := by
  unfold rotate inv
  rw [if_pos h]
  have h0 := h.ne'
  generalize q.sq = N at *
  unfold mul
  simp only [V3.mk.injEq]
  refine ⟨?_, ?_, ?_⟩ <;> field_simp <;> ring

/-- One row: close entries, divided by a number close to one. -/
theorem row_close {a b c a' b' c' x y z N e B : ℝ} (he : e ≤ 1 / 2 ^ 20) (ha : |a| ≤ 1) (hb : |b| ≤ 1) (hc : |c| ≤ 1)
    (da : |a' - a| ≤ 12 * e) (db : |b' - b| ≤ 12 * e) (dc : |c' - c| ≤ 12 * e) (hN : |N - 1| ≤ 12 * e)
    (hx : |x| ≤ B) (hy : |y| ≤ B) (hz : |z| ≤ B) :
    |(a' * x + b' * y + c' * z) / N - (a * x + b * y + c * z)| ≤ 128 * e * B := by
  have e0 : 0 ≤ e := by linarith [(abs_nonneg _).trans da]
  have B0 : 0 ≤ B := (abs_nonneg _).trans hx
  have hN1 : 1 / 2 ≤ N := by
    have := (abs_le.mp hN).1
    norm_num at he
    linarith
  have hN2 : 1 - 12 / 2 ^ 20 ≤ N := by
    have := (abs_le.mp hN).1
    norm_num at he ⊢
    linarith
  have hNp : 0 < N := by linarith
  rw [show (a' * x + b' * y + c' * z) / N - (a * x + b * y + c * z) =
    ((a' - a) * x + (b' - b) * y + (c' - c) * z - (a * x + b * y + c * z) * (N - 1)) / N by field_simp; ring]
  rw [abs_div, abs_of_pos hNp, div_le_iff₀ hNp]
  have pr : ∀ {u w k : ℝ}, |u| ≤ k → |w| ≤ B → |u * w| ≤ k * B := by
    intro u w k h1 h2
    rw [abs_mul]
    exact mul_le_mul h1 h2 (abs_nonneg _) ((abs_nonneg _).trans h1)
  have m : |a * x + b * y + c * z| ≤ 3 * B := by
    have := abs_add_le (a * x + b * y) (c * z)
    have := abs_add_le (a * x) (b * y)
    have := pr ha hx
    have := pr hb hy
    have := pr hc hz
    linarith
  have d : |(a' - a) * x + (b' - b) * y + (c' - c) * z| ≤ 36 * e * B := by
    have := abs_add_le ((a' - a) * x + (b' - b) * y) ((c' - c) * z)
    have := abs_add_le ((a' - a) * x) ((b' - b) * y)
    have := pr da hx
    have := pr db hy
    have := pr dc hz
    linarith
  have k : |(a * x + b * y + c * z) * (N - 1)| ≤ 3 * B * (12 * e) := by
    rw [abs_mul]
    exact mul_le_mul m hN (abs_nonneg _) (by linarith)
  have t := abs_sub ((a' - a) * x + (b' - b) * y + (c' - c) * z) ((a * x + b * y + c * z) * (N - 1))
  have eB : 0 ≤ e * B := mul_nonneg e0 B0
  have : 128 * (e * B) * (1 - 12 / 2 ^ 20) ≤ 128 * (e * B) * N := by gcongr
  norm_num at this
  nlinarith

/-- Rotating with a quaternion close to one that represents a matrix is close to multiplying by the matrix. -/
theorem rotate_close {p q : Q4} {m : Aff ℝ} {e : ℝ} (he : e ≤ 1 / 2 ^ 20) (hq : Represents q m) (hn : Near e p q)
    {v : V3 ℝ} {B : ℝ} (hx : |v.x| ≤ B) (hy : |v.y| ≤ B) (hz : |v.z| ≤ B) :
    |(p.rotate v).x - (m.lin v).x| ≤ 128 * e * B ∧ |(p.rotate v).y - (m.lin v).y| ≤ 128 * e * B ∧
      |(p.rotate v).z - (m.lin v).z| ≤ 128 * e * B := by
  have he1 : e ≤ 1 := he.trans (by norm_num)
  have hs := sq_close he1 hq.one hn
  have hp : 0 < p.sq := by
    have := (abs_le.mp hs).1
    norm_num at he
    linarith
  obtain ⟨bw, bx, by', bz⟩ := unit_comp hq.one
  obtain ⟨nw, nx, ny, nz⟩ := hn
  have ww := abs_le.mp (prod_close he1 bw bw nw nw)
  have xx := abs_le.mp (prod_close he1 bx bx nx nx)
  have yy := abs_le.mp (prod_close he1 by' by' ny ny)
  have zz := abs_le.mp (prod_close he1 bz bz nz nz)
  have wx := abs_le.mp (prod_close he1 bw bx nw nx)
  have wy := abs_le.mp (prod_close he1 bw by' nw ny)
  have wz := abs_le.mp (prod_close he1 bw bz nw nz)
  have xy := abs_le.mp (prod_close he1 bx by' nx ny)
  have xz := abs_le.mp (prod_close he1 bx bz nx nz)
  have yz := abs_le.mp (prod_close he1 by' bz ny nz)
  have hb := entry_le hq.one
  obtain ⟨a, b, c, d, f, g, h, i, j, one⟩ := hq
  unfold sq at one
  rw [rotate_formula hp]
  unfold Aff.lin V3.dot
  dsimp only
  rw [← a, ← b, ← c, ← d, ← f, ← g, ← h, ← i, ← j]
  obtain ⟨b1, b2, b3, b4, b5, b6, b7, b8, b9⟩ := hb
  refine ⟨row_close he b1 b4 b6 ?_ ?_ ?_ hs hx hy hz, row_close he b5 b2 b8 ?_ ?_ ?_ hs hx hy hz,
    row_close he b7 b9 b3 ?_ ?_ ?_ hs hx hy hz⟩ <;> rw [abs_le] <;> constructor <;>
    linarith [ww.1, ww.2, xx.1, xx.2, yy.1, yy.2, zz.1, zz.2, wx.1, wx.2, wy.1, wy.2, wz.1, wz.2, xy.1, xy.2, xz.1, xz.2,
      yz.1, yz.2]

end Q4

namespace FSdf

open Spec Fl

/-- The square root of a pivot. -/
theorem sqrt_ap {p : FVal} {P : ℝ} (h : Ap (1 / 2 ^ 52) p P 1 4 18) (hP : 1 / 2 ≤ P) :
    Ap (1 / 2 ^ 52) (Fl.sqrt ieee p) (√P) 1 2 28 := by
  obtain ⟨hb, y, rfl, hy⟩ := h
  have P0 : 0 ≤ P := by linarith
  rw [abs_of_nonneg P0] at hb
  have s0 := Real.sqrt_nonneg P
  have s1 := Real.mul_self_sqrt P0
  have s2 : 7 / 10 ≤ √P := Real.le_sqrt_of_sq_le (by norm_num; linarith)
  have hb' : |√P| ≤ 2 * 1 := by
    rw [abs_of_nonneg s0]
    nlinarith
  have y0 : 0 ≤ y := by
    have := (abs_le.mp hy).1
    norm_num at this
    linarith
  have t0 := Real.sqrt_nonneg y
  have t1 := Real.mul_self_sqrt y0
  have d : |√y - √P| ≤ 26 * (1 / 2 ^ 52) * 1 := by
    have e : |√y - √P| * (√y + √P) = |y - P| := by
      rw [← abs_of_nonneg (add_nonneg t0 s0), ← abs_mul]
      congr 1
      linear_combination t1 - s1
    have e2 : |√y - √P| * (7 / 10) ≤ |y - P| := by
      rw [← e]
      gcongr
      linarith
    norm_num at hy ⊢
    linarith
  refine ⟨hb', ?_⟩
  obtain ⟨w, h1, h2⟩ := round_ap unit52 scale_one hb' d (by norm_num) (by norm_num)
  refine ⟨w, ?_, h2.trans (by norm_num)⟩
  have : ¬ ((y : ℝ) : EReal) < 0 := by
    rw [not_lt]
    exact_mod_cast y0
  simp only [real, Fl.sqrt]
  rw [if_neg this, if_neg (EReal.coe_ne_top y), EReal.toReal_coe, h1]

/-- Half the reciprocal of a square root. -/
theorem half_div_ap {t : FVal} {T : ℝ} (h : Ap (1 / 2 ^ 52) t T 1 2 28) (hT : 7 / 10 ≤ T) :
    Ap (1 / 2 ^ 52) (div ieee (real (1 / 2)) t) (1 / 2 / T) 1 (3 / 4) 30 := by
  obtain ⟨-, y, rfl, hy⟩ := h
  have T0 : 0 < T := by linarith
  have hy1 : 7 / 10 - 28 * (1 / 2 ^ 52) ≤ y := by
    have := (abs_le.mp hy).1
    linarith
  have y0 : 0 < y := lt_of_lt_of_le (by norm_num) hy1
  have hb : |1 / 2 / T| ≤ 3 / 4 * 1 := by
    rw [abs_of_pos (by positivity), div_le_iff₀ T0]
    linarith
  have d : |1 / 2 / y - 1 / 2 / T| ≤ 29 * (1 / 2 ^ 52) * 1 := by
    rw [show 1 / 2 / y - 1 / 2 / T = (T - y) / (2 * y * T) by field_simp, abs_div,
      abs_of_pos (show 0 < 2 * y * T by positivity), div_le_iff₀ (by positivity), abs_sub_comm]
    refine hy.trans ?_
    have : 2 * (7 / 10 - 28 * (1 / 2 ^ 52)) * (7 / 10) ≤ 2 * y * T := by
      gcongr
    norm_num at this ⊢
    linarith
  refine ⟨hb, ?_⟩
  obtain ⟨w, h1, h2⟩ := round_ap unit52 scale_one hb d (by norm_num) (by norm_num)
  exact ⟨w, by rw [div_real _ _ y0.ne', h1]; rfl, h2.trans (by norm_num)⟩

/-- A double close to an entry of a rotation. -/
theorem entry_ap {x y : ℝ} (h : |y - x| ≤ 1 / 2 ^ 50) (hx : |x| ≤ 1) : Ap (1 / 2 ^ 52) (real y) x 1 1 4 :=
  ⟨by linarith, y, rfl, h.trans (by norm_num)⟩

/-- The pivot in the four formulas. -/
theorem pivot_add {a b c : FVal} {x y z : ℝ} (ha : Ap (1 / 2 ^ 52) a x 1 1 4) (hb : Ap (1 / 2 ^ 52) b y 1 1 4)
    (hc : Ap (1 / 2 ^ 52) c z 1 1 4) :
    Ap (1 / 2 ^ 52) (add ieee (add ieee a b) c) (x + y + z) 1 3 15 ∧
    Ap (1 / 2 ^ 52) (add ieee (add ieee (add ieee a b) c) (real 1)) (x + y + z + 1) 1 4 18 ∧
    Ap (1 / 2 ^ 52) (add ieee (sub ieee (sub ieee a b) c) (real 1)) (x - y - z + 1) 1 4 18 := by
  have o : Ap (1 / 2 ^ 52) (real 1) 1 1 1 0 := ⟨by norm_num, 1, rfl, by norm_num⟩
  have u := Ap.add' unit52 scale_one (Ap.add' unit52 scale_one ha hb (by norm_num) (by norm_num) le_rfl) hc (by norm_num)
    (by norm_num) le_rfl
  have v := Ap.sub' unit52 scale_one (Ap.sub' unit52 scale_one ha hb (by norm_num) (by norm_num) le_rfl) hc (by norm_num)
    (by norm_num) le_rfl
  exact ⟨Ap.weaken unit52 one_pos u (by norm_num) (by norm_num),
    Ap.weaken unit52 one_pos (Ap.add' unit52 scale_one u o (by norm_num) (by norm_num) le_rfl) (by norm_num) (by norm_num),
    Ap.weaken unit52 one_pos (Ap.add' unit52 scale_one v o (by norm_num) (by norm_num) le_rfl) (by norm_num) (by norm_num)⟩

/-- The four components from a pivot: half the root, and sums or differences of entries times half its reciprocal. -/
theorem comps {p : FVal} {P : ℝ} (h : Ap (1 / 2 ^ 52) p P 1 4 18) (hP : 1 / 2 ≤ P) :
    (∃ w : ℝ, Fl.mul ieee (real (1 / 2)) (Fl.sqrt ieee p) = real w ∧ |w - 1 / 2 * √P| ≤ 1 / 2 ^ 45) ∧
    ∀ {a b : FVal} {x y : ℝ}, Ap (1 / 2 ^ 52) a x 1 1 4 → Ap (1 / 2 ^ 52) b y 1 1 4 →
      (∃ w : ℝ, Fl.mul ieee (sub ieee a b) (div ieee (real (1 / 2)) (Fl.sqrt ieee p)) = real w ∧
        |w - (x - y) * (1 / 2 / √P)| ≤ 1 / 2 ^ 45) ∧
      ∃ w : ℝ, Fl.mul ieee (add ieee a b) (div ieee (real (1 / 2)) (Fl.sqrt ieee p)) = real w ∧
        |w - (x + y) * (1 / 2 / √P)| ≤ 1 / 2 ^ 45 := by
  have t := sqrt_ap h hP
  have hT : 7 / 10 ≤ √P := Real.le_sqrt_of_sq_le (by norm_num; linarith)
  have u := half_div_ap t hT
  have o : Ap (1 / 2 ^ 52) (real (1 / 2)) (1 / 2) 1 (1 / 2) 0 := ⟨by norm_num, 1 / 2, rfl, by norm_num⟩
  have s1 : Scale (1 * 1) := by rw [one_mul]; exact scale_one
  constructor
  · obtain ⟨-, w, h1, h2⟩ := Ap.mul (m := 15) unit52 s1 one_pos o t (by norm_num) (by norm_num) le_rfl (by norm_num)
      (by norm_num) (by norm_num) (by norm_num) (by norm_num) (by norm_num)
    exact ⟨w, h1, h2.trans (by norm_num)⟩
  · intro a b x y ha hb
    constructor
    · obtain ⟨-, w, h1, h2⟩ := Ap.mul (m := 69) unit52 s1 one_pos
        (Ap.sub' unit52 scale_one ha hb (by norm_num) (by norm_num) le_rfl) u (by norm_num) (by norm_num) (by norm_num)
        (by norm_num) (by norm_num) (by norm_num) (by norm_num) (by norm_num) (by norm_num)
      exact ⟨w, h1, h2.trans (by norm_num)⟩
    · obtain ⟨-, w, h1, h2⟩ := Ap.mul (m := 69) unit52 s1 one_pos
        (Ap.add' unit52 scale_one ha hb (by norm_num) (by norm_num) le_rfl) u (by norm_num) (by norm_num) (by norm_num)
        (by norm_num) (by norm_num) (by norm_num) (by norm_num) (by norm_num) (by norm_num)
      exact ⟨w, h1, h2.trans (by norm_num)⟩

theorem row_le {a b c : ℝ} (h : a * a + b * b + c * c = 1) : |a| ≤ 1 ∧ |b| ≤ 1 ∧ |c| ≤ 1 := by
  refine ⟨?_, ?_, ?_⟩ <;> refine abs_le_of_sq_le_sq ?_ (by norm_num) <;>
    nlinarith [mul_self_nonneg a, mul_self_nonneg b, mul_self_nonneg c]

/-- C117, the quaternion: for every matrix of doubles within `2 ^ -50` of a rotation, entry by entry, the quaternion that
`GetGradient` computes consists of numbers, within `2 ^ -45` of the components of a unit quaternion that represents the
rotation. -/
theorem C117_quaternion {m n : Aff ℝ} (hn : IsRotation n) (h : Near (1 / 2 ^ 50) m n) :
    ∃ p q : Q4, Quat.ofMatrix ieee m = Quat.of p ∧ q.Represents n ∧ p.Near (1 / 2 ^ 45) q := by
  obtain ⟨rw', rx, ry, rz⟩ := Q4.represents_pivots hn
  have lx := row_le hn.xx
  have ly := row_le hn.yy
  have lz := row_le hn.zz
  have xx := entry_ap h.xx lx.1
  have xy := entry_ap h.xy lx.2.1
  have xz := entry_ap h.xz lx.2.2
  have yx := entry_ap h.yx ly.1
  have yy := entry_ap h.yy ly.2.1
  have yz := entry_ap h.yz ly.2.2
  have zx := entry_ap h.zx lz.1
  have zy := entry_ap h.zy lz.2.1
  have zz := entry_ap h.zz lz.2.2
  have dx := abs_le.mp h.xx
  have dy := abs_le.mp h.yy
  have dz := abs_le.mp h.zz
  obtain ⟨tr, pw, -⟩ := pivot_add xx yy zz
  obtain ⟨-, -, px⟩ := pivot_add xx yy zz
  obtain ⟨-, -, py⟩ := pivot_add yy zz xx
  obtain ⟨-, -, pz⟩ := pivot_add zz xx yy
  have zcase : 1 / 2 ≤ n.rz.z - n.rx.x - n.ry.y + 1 → ∃ p q : Q4,
      (let t := Fl.sqrt ieee (add ieee (sub ieee (sub ieee (real m.rz.z) (real m.rx.x)) (real m.ry.y)) (real 1))
      let u := div ieee (real (1 / 2)) t
      (⟨Fl.mul ieee (sub ieee (real m.ry.x) (real m.rx.y)) u, Fl.mul ieee (add ieee (real m.rx.z) (real m.rz.x)) u,
        Fl.mul ieee (add ieee (real m.ry.z) (real m.rz.y)) u, Fl.mul ieee (real (1 / 2)) t⟩ : Quat)) = Quat.of p ∧
      q.Represents n ∧ p.Near (1 / 2 ^ 45) q := by
    intro hP
    obtain ⟨⟨w0, e0, d0⟩, c⟩ := comps pz hP
    obtain ⟨w1, e1, d1⟩ := (c yx xy).1
    obtain ⟨w2, e2, d2⟩ := (c xz zx).2
    obtain ⟨w3, e3, d3⟩ := (c yz zy).2
    exact ⟨⟨w1, w2, w3, w0⟩, Q4.pivotZ n, by simp only [e0, e1, e2, e3, Quat.of], rz (by linarith), ⟨d1, d2, d3, d0⟩⟩
  unfold Quat.ofMatrix
  dsimp only
  obtain ⟨-, T, eT, dT⟩ := tr
  have hlt : lt (real 0) (add ieee (add ieee (real m.rx.x) (real m.ry.y)) (real m.rz.z)) = true ↔ 0 < T := by
    rw [eT, lt_real]
  replace dT := abs_le.mp dT
  norm_num at dT dx dy dz
  simp only [hlt, lt_real]
  split
  · next ht =>
    have hP : 1 / 2 ≤ n.rx.x + n.ry.y + n.rz.z + 1 := by linarith
    obtain ⟨⟨w0, e0, d0⟩, c⟩ := comps pw hP
    obtain ⟨w1, e1, d1⟩ := (c zy yz).1
    obtain ⟨w2, e2, d2⟩ := (c xz zx).1
    obtain ⟨w3, e3, d3⟩ := (c yx xy).1
    exact ⟨⟨w0, w1, w2, w3⟩, Q4.pivotW n, by simp only [e0, e1, e2, e3, Quat.of], rw' (by linarith), ⟨d0, d1, d2, d3⟩⟩
  · next ht =>
    rw [not_lt] at ht
    split
    · next h1 =>
      split
      · next h2 => exact zcase (by linarith)
      · next h2 =>
        have hP : 1 / 2 ≤ n.ry.y - n.rz.z - n.rx.x + 1 := by linarith
        obtain ⟨⟨w0, e0, d0⟩, c⟩ := comps py hP
        obtain ⟨w1, e1, d1⟩ := (c xz zx).1
        obtain ⟨w2, e2, d2⟩ := (c xy yx).2
        obtain ⟨w3, e3, d3⟩ := (c zy yz).2
        exact ⟨⟨w1, w2, w0, w3⟩, Q4.pivotY n, by simp only [e0, e1, e2, e3, Quat.of], ry (by linarith), ⟨d1, d2, d0, d3⟩⟩
    · next h1 =>
      split
      · next h2 => exact zcase (by linarith)
      · next h2 =>
        have hP : 1 / 2 ≤ n.rx.x - n.ry.y - n.rz.z + 1 := by linarith
        obtain ⟨⟨w0, e0, d0⟩, c⟩ := comps px hP
        obtain ⟨w1, e1, d1⟩ := (c zy yz).1
        obtain ⟨w2, e2, d2⟩ := (c yx xy).2
        obtain ⟨w3, e3, d3⟩ := (c zx xz).2
        exact ⟨⟨w1, w0, w2, w3⟩, Q4.pivotX n, by simp only [e0, e1, e2, e3, Quat.of], rx (by linarith), ⟨d1, d0, d2, d3⟩⟩

/-- C117.  A field of finite values, in a grid whose stored origin transform has a linear part within `2 ^ -50` of a
rotation, entry by entry: the world-frame gradient that `GetGradient` returns — quaternion conversion, inverse, and
rotation all computed — has the components of the exact one, each a number within `(2 ^ -21 + 2 ^ -38) * G` of it, where
`G` bounds the grid-aligned differences, plus an absolute error far below one `float` step per cell. -/
theorem C117_gradient {s : FSdf} {t : MSdf ℝ} (h : Stores s t) (hlo : 1 / 2 ^ 100 ≤ t.res)
    (hhi : t.res ≤ 2 ^ 100) {D : ℝ} (hD : D ≤ 2 ^ 126) (hv : ∀ i, InBounds t.grid.dims i → |t.grid.get i| ≤ D)
    {m : Aff ℝ} (hrot : IsRotation t.origin) (hm : Near (1 / 2 ^ 50) m t.origin)
    (i : Idx) (edges : Bool) {G : ℝ} (hG : ∀ g ∈ t.gridGrad i edges, |g| ≤ G) (hG' : G ≤ 2 ^ (800 : ℤ)) :
    List.Forall₂ (fun a x => ∃ y : ℝ, a = real y ∧ |y - x| ≤ (1 / 2 ^ 21 + 1 / 2 ^ 38) * G + 1 / 2 ^ 144 / t.res)
      (s.gradient ieee (turn ieee m) i edges) (t.gradient i edges) := by
  obtain ⟨p, q, hp, hq, hpq⟩ := C117_quaternion hrot hm
  have hs := abs_le.mp (Q4.sq_close (by norm_num) hq.one hpq)
  norm_num at hs
  have h1 : 1 / 2 ≤ p.sq := by linarith
  have h2 : p.sq ≤ 2 := by linarith
  unfold turn
  rw [hp]
  refine C111_accuracy h hlo hhi hD hv h1 h2 (sqNorm_computed h1 h2).1 (fun v B hx hy hz => ?_) i edges hG hG'
  have := Q4.rotate_close (by norm_num) hq hpq hx hy hz
  rwa [show (128 : ℝ) * (1 / 2 ^ 45) = 1 / 2 ^ 38 by norm_num] at this

/-! ## Examples -/

/-- A rotation about the third axis with cosine 3/5, and the transform of doubles nearest to it. -/
noncomputable def ex345 : Aff ℝ := ⟨⟨3 / 5, -(4 / 5), 0⟩, ⟨4 / 5, 3 / 5, 0⟩, ⟨0, 0, 1⟩, ⟨5, 6, 7⟩⟩

noncomputable def ex345' : Aff ℝ :=
  ⟨⟨5404319552844595 / 2 ^ 53, -(7205759403792794 / 2 ^ 53), 0⟩, ⟨7205759403792794 / 2 ^ 53, 5404319552844595 / 2 ^ 53, 0⟩,
    ⟨0, 0, 1⟩, ⟨5, 6, 7⟩⟩

theorem ex345_rotation : IsRotation ex345 := by
  constructor <;> norm_num [ex345, V3.dot]

theorem ex345_near : Near (1 / 2 ^ 50) ex345' ex345 := by
  constructor <;> (rw [abs_le]; constructor) <;> norm_num [ex345, ex345']

/-- The matrix of doubles is not a rotation. -/
example : ¬ IsRotation ex345' := by
  intro h
  have := h.xx
  norm_num [ex345', V3.dot] at this

/-- The gradient at the first cell of `exFloatField`, `(-4, 0, -2)` along the axes of the grid, in a grid turned by
`ex345'`: the quaternion is computed from the doubles. -/
example : ∃ a b c : ℝ, (FSdf.mk exFloatField (1 / 4)).gradient ieee (turn ieee ex345') ⟨0, 0, 0⟩ true =
      [real a, real b, real c] ∧
    |a - -12 / 5| ≤ 1 / 2 ^ 18 ∧ |b - -16 / 5| ≤ 1 / 2 ^ 18 ∧ |c - -2| ≤ 1 / 2 ^ 18 := by
  have h := C117_gradient (t := { (FSdf.mk exFloatField (1 / 4)).exact with origin := ex345 }) exField_stores
    (by show (1 : ℝ) / 2 ^ 100 ≤ 1 / 4; norm_num)
    (by show (1 / 4 : ℝ) ≤ 2 ^ 100; norm_num) (D := 2) (by norm_num) exField_bound ex345_rotation ex345_near ⟨0, 0, 0⟩ true
    (G := 4)
    (by
      show ∀ g ∈ (FSdf.mk exFloatField (1 / 4)).exact.gridGrad ⟨0, 0, 0⟩ true, |g| ≤ 4
      rw [exField_grad]
      simp
      norm_num)
    (by
      have := Ieee.two_mono (show (2 : ℤ) ≤ 800 by norm_num)
      norm_num at this ⊢
      exact this)
  have hg : MSdf.gradient { (FSdf.mk exFloatField (1 / 4)).exact with origin := ex345 } ⟨0, 0, 0⟩ true =
      [-12 / 5, -16 / 5, -2] := by
    unfold MSdf.gradient
    rw [show MSdf.gridGrad { (FSdf.mk exFloatField (1 / 4)).exact with origin := ex345 } ⟨0, 0, 0⟩ true = [-4, 0, -2] from
      exField_grad]
    simp [ex345, Aff.lin, V3.dot]
    norm_num
  rw [hg] at h
  generalize gradient _ _ _ _ _ = l at h ⊢
  rcases h with _ | ⟨⟨a, rfl, ha⟩, _ | ⟨⟨b, rfl, hb⟩, _ | ⟨⟨c, rfl, hc⟩, _ | _⟩⟩⟩
  have hres : (1 : ℝ) / 2 ^ 144 / (1 / 4) ≤ 1 / 2 ^ 100 := by norm_num
  refine ⟨a, b, c, rfl, ha.trans ?_, hb.trans ?_, hc.trans ?_⟩ <;>
    · show (1 / 2 ^ 21 + 1 / 2 ^ 38) * 4 + (1 : ℝ) / 2 ^ 144 / (1 / 4) ≤ _
      norm_num

end FSdf

end Verif
