import Verif.Rotation
import Verif.Props.GradFloat
import Verif.Props.ConvexAgree

/-!
# C111: gradients in the world frame

`GetGradient` turns the grid-aligned gradient with quaternions.  Over the reals that is the linear part of the origin
transform whenever it is a rotation; in IEEE arithmetic it is close to it.
-/

namespace Verif

/-- A rotation: rows of length one, perpendicular to each other, right-handed. -/
structure IsRotation (m : Aff ℝ) : Prop where
  xx : m.rx.dot m.rx = 1
  yy : m.ry.dot m.ry = 1
  zz : m.rz.dot m.rz = 1
  xy : m.rx.dot m.ry = 0
  xz : m.rx.dot m.rz = 0
  yz : m.ry.dot m.rz = 0
  det : m.rx.x * (m.ry.y * m.rz.z - m.ry.z * m.rz.y) + m.rx.y * (m.ry.z * m.rz.x - m.ry.x * m.rz.z) +
    m.rx.z * (m.ry.x * m.rz.y - m.ry.y * m.rz.x) = 1

namespace Q4

/-- The entries of the rotation matrix of a unit quaternion, written with the products of its components. -/
structure Represents (q : Q4) (m : Aff ℝ) : Prop where
  xx : q.w * q.w + q.x * q.x - q.y * q.y - q.z * q.z = m.rx.x
  yy : q.w * q.w - q.x * q.x + q.y * q.y - q.z * q.z = m.ry.y
  zz : q.w * q.w - q.x * q.x - q.y * q.y + q.z * q.z = m.rz.z
  xy : 2 * (q.x * q.y - q.w * q.z) = m.rx.y
  yx : 2 * (q.x * q.y + q.w * q.z) = m.ry.x
  xz : 2 * (q.x * q.z + q.w * q.y) = m.rx.z
  zx : 2 * (q.x * q.z - q.w * q.y) = m.rz.x
  yz : 2 * (q.y * q.z - q.w * q.x) = m.ry.z
  zy : 2 * (q.y * q.z + q.w * q.x) = m.rz.y
  one : q.sq = 1

/-- A unit vector that equals another unit vector by their product. -/
theorem eq_of_dot {a b c u v w : ℝ} (h1 : a * a + b * b + c * c = 1) (h2 : u * u + v * v + w * w = 1)
    (h : a * u + b * v + c * w = 1) : a = u ∧ b = v ∧ c = w := by
  have : (a - u) ^ 2 + (b - v) ^ 2 + (c - w) ^ 2 = 0 := by linear_combination h1 + h2 - 2 * h
  have e1 : (a - u) ^ 2 = 0 := by nlinarith [sq_nonneg (a - u), sq_nonneg (b - v), sq_nonneg (c - w)]
  have e2 : (b - v) ^ 2 = 0 := by nlinarith [sq_nonneg (a - u), sq_nonneg (b - v), sq_nonneg (c - w)]
  have e3 : (c - w) ^ 2 = 0 := by nlinarith [sq_nonneg (a - u), sq_nonneg (b - v), sq_nonneg (c - w)]
  exact ⟨by linarith [pow_eq_zero_iff (two_ne_zero) |>.mp e1], by linarith [pow_eq_zero_iff (two_ne_zero) |>.mp e2],
    by linarith [pow_eq_zero_iff (two_ne_zero) |>.mp e3]⟩

/-- The quaternion with largest component `p = P / (2 t)`, `t = sqrt P`, from a symmetric matrix of rank one. -/
theorem pivot {P t : ℝ} (hP : 0 < P) (ht : t = Real.sqrt P) :
    (1 / 2 * t) * (1 / 2 * t) = P / 4 ∧ ∀ a b : ℝ, (a * (1 / 2 / t)) * (b * (1 / 2 / t)) = a * b / P / 4 ∧
      (1 / 2 * t) * (a * (1 / 2 / t)) = a / 4 := by
  have h0 : 0 < t := ht ▸ Real.sqrt_pos.mpr hP
  have h1 : t * t = P := ht ▸ Real.mul_self_sqrt hP.le
  refine ⟨by rw [← h1]; ring, fun a b => ⟨?_, ?_⟩⟩
  · rw [← h1]; field_simp; ring
  · field_simp; ring

/-- A quaternion represents a matrix if four times the products of its components are the right sums of entries. -/
theorem represents_of_products {q : Q4} {a b c d e f g h i : ℝ} {t : V3 ℝ}
    (ww : q.w * q.w = (1 + a + e + i) / 4) (xx : q.x * q.x = (1 + a - e - i) / 4)
    (yy : q.y * q.y = (1 - a + e - i) / 4) (zz : q.z * q.z = (1 - a - e + i) / 4)
    (wx : q.w * q.x = (h - f) / 4) (wy : q.w * q.y = (c - g) / 4) (wz : q.w * q.z = (d - b) / 4)
    (xy : q.x * q.y = (b + d) / 4) (xz : q.x * q.z = (c + g) / 4) (yz : q.y * q.z = (f + h) / 4) :
    Represents q ⟨⟨a, b, c⟩, ⟨d, e, f⟩, ⟨g, h, i⟩, t⟩ := by
  constructor <;> (try unfold sq) <;> linarith

/-- The quaternion of a rotation, computed from the pivot `1 + a + e + i` (the first formula of `ofMatrix`). -/
noncomputable def pivotW (m : Aff ℝ) : Q4 :=
  let t := Real.sqrt (m.rx.x + m.ry.y + m.rz.z + 1)
  ⟨1 / 2 * t, (m.rz.y - m.ry.z) * (1 / 2 / t), (m.rx.z - m.rz.x) * (1 / 2 / t), (m.ry.x - m.rx.y) * (1 / 2 / t)⟩

/-- The quaternion of a rotation, computed from the pivot `1 + a - e - i`. -/
noncomputable def pivotX (m : Aff ℝ) : Q4 :=
  let t := Real.sqrt (m.rx.x - m.ry.y - m.rz.z + 1)
  ⟨(m.rz.y - m.ry.z) * (1 / 2 / t), 1 / 2 * t, (m.ry.x + m.rx.y) * (1 / 2 / t), (m.rz.x + m.rx.z) * (1 / 2 / t)⟩

/-- The quaternion of a rotation, computed from the pivot `1 - a + e - i`. -/
noncomputable def pivotY (m : Aff ℝ) : Q4 :=
  let t := Real.sqrt (m.ry.y - m.rz.z - m.rx.x + 1)
  ⟨(m.rx.z - m.rz.x) * (1 / 2 / t), (m.rx.y + m.ry.x) * (1 / 2 / t), 1 / 2 * t, (m.rz.y + m.ry.z) * (1 / 2 / t)⟩

/-- The quaternion of a rotation, computed from the pivot `1 - a - e + i`. -/
noncomputable def pivotZ (m : Aff ℝ) : Q4 :=
  let t := Real.sqrt (m.rz.z - m.rx.x - m.ry.y + 1)
  ⟨(m.ry.x - m.rx.y) * (1 / 2 / t), (m.rx.z + m.rz.x) * (1 / 2 / t), (m.ry.z + m.rz.y) * (1 / 2 / t), 1 / 2 * t⟩

/-- Each of the four formulas for the quaternion of a rotation represents it, where its pivot is positive. -/
theorem represents_pivots {m : Aff ℝ} (h : IsRotation m) :
    (0 < m.rx.x + m.ry.y + m.rz.z + 1 → Represents (pivotW m) m) ∧
    (0 < m.rx.x - m.ry.y - m.rz.z + 1 → Represents (pivotX m) m) ∧
    (0 < m.ry.y - m.rz.z - m.rx.x + 1 → Represents (pivotY m) m) ∧
    (0 < m.rz.z - m.rx.x - m.ry.y + 1 → Represents (pivotZ m) m) := by
  obtain ⟨r1, r2, r3, q12, q13, q23, det⟩ := h
  obtain ⟨⟨a, b, c⟩, ⟨d, e, f⟩, ⟨g, h, i⟩, t⟩ := m
  simp only [V3.dot] at r1 r2 r3 q12 q13 q23 det
  have n1 : (e * i - f * h) * (e * i - f * h) + (f * g - d * i) * (f * g - d * i) +
      (d * h - e * g) * (d * h - e * g) = 1 := by
    linear_combination r2 * (g * g + h * h + i * i) + r3 - q23 * (d * g + e * h + f * i)
  have n2 : (h * c - i * b) * (h * c - i * b) + (i * a - g * c) * (i * a - g * c) +
      (g * b - h * a) * (g * b - h * a) = 1 := by
    linear_combination r1 * (g * g + h * h + i * i) + r3 - q13 * (a * g + b * h + c * i)
  have n3 : (b * f - c * e) * (b * f - c * e) + (c * d - a * f) * (c * d - a * f) +
      (a * e - b * d) * (a * e - b * d) = 1 := by
    linear_combination r1 * (d * d + e * e + f * f) + r2 - q12 * (a * d + b * e + c * f)
  obtain ⟨c1, c2, c3⟩ := eq_of_dot r1 n1 (by linear_combination det)
  obtain ⟨c4, c5, c6⟩ := eq_of_dot r2 n2 (by linear_combination det)
  obtain ⟨c7, c8, c9⟩ := eq_of_dot r3 n3 (by linear_combination det)
  have k1 : a * a + d * d + g * g = 1 := by grind
  have k2 : b * b + e * e + h * h = 1 := by grind
  have k3 : c * c + f * f + i * i = 1 := by grind
  have o12 : a * b + d * e + g * h = 0 := by grind
  have o13 : a * c + d * f + g * i = 0 := by grind
  have o23 : b * c + e * f + h * i = 0 := by grind
  -- the products of the components of the quaternion, times four
  have w1 : (h - f) * (h - f) = (1 + a + e + i) * (1 + a - e - i) := by grind
  have w2 : (c - g) * (c - g) = (1 + a + e + i) * (1 - a + e - i) := by grind
  have w3 : (d - b) * (d - b) = (1 + a + e + i) * (1 - a - e + i) := by grind
  have w4 : (h - f) * (c - g) = (1 + a + e + i) * (b + d) := by grind
  have w5 : (h - f) * (d - b) = (1 + a + e + i) * (c + g) := by grind
  have w6 : (c - g) * (d - b) = (1 + a + e + i) * (f + h) := by grind
  have x2 : (b + d) * (b + d) = (1 + a - e - i) * (1 - a + e - i) := by grind
  have x3 : (c + g) * (c + g) = (1 + a - e - i) * (1 - a - e + i) := by grind
  have x4 : (h - f) * (b + d) = (1 + a - e - i) * (c - g) := by grind
  have x5 : (h - f) * (c + g) = (1 + a - e - i) * (d - b) := by grind
  have x6 : (b + d) * (c + g) = (1 + a - e - i) * (f + h) := by grind
  have y3 : (f + h) * (f + h) = (1 - a + e - i) * (1 - a - e + i) := by grind
  have y4 : (c - g) * (b + d) = (1 - a + e - i) * (h - f) := by grind
  have y5 : (c - g) * (f + h) = (1 - a + e - i) * (d - b) := by grind
  have y6 : (b + d) * (f + h) = (1 - a + e - i) * (c + g) := by grind
  have z4 : (d - b) * (c + g) = (1 - a - e + i) * (h - f) := by grind
  have z5 : (d - b) * (f + h) = (1 - a - e + i) * (c - g) := by grind
  have z6 : (c + g) * (f + h) = (1 - a - e + i) * (b + d) := by grind
  have div : ∀ {P u v : ℝ}, 0 < P → u = P * v → u / P / 4 = v / 4 := by
    intro P u v hP h
    rw [h, mul_div_cancel_left₀ _ hP.ne']
  unfold pivotW pivotX pivotY pivotZ
  dsimp only
  refine ⟨?_, ?_, ?_, ?_⟩
  · intro hP
    obtain ⟨p0, p⟩ := pivot hP rfl
    refine represents_of_products ?_ ?_ ?_ ?_ ?_ ?_ ?_ ?_ ?_ ?_ <;> dsimp only
    · rw [p0]; ring
    · rw [(p _ _).1]; exact div hP (by linarith)
    · rw [(p _ _).1]; exact div hP (by linarith)
    · rw [(p _ _).1]; exact div hP (by linarith)
    · rw [(p _ 0).2]
    · rw [(p _ 0).2]
    · rw [(p _ 0).2]
    · rw [(p _ _).1]; exact div hP (by linarith)
    · rw [(p _ _).1]; exact div hP (by linarith)
    · rw [(p _ _).1]; exact div hP (by linarith)
  · intro hP
    obtain ⟨p0, p⟩ := pivot hP rfl
    refine represents_of_products ?_ ?_ ?_ ?_ ?_ ?_ ?_ ?_ ?_ ?_ <;> dsimp only
    · rw [(p _ _).1]; exact div hP (by linarith)
    · rw [p0]; ring
    · rw [(p _ _).1]; exact div hP (by linarith)
    · rw [(p _ _).1]; exact div hP (by linarith)
    · rw [mul_comm, (p _ 0).2]
    · rw [(p _ _).1]; exact div hP (by linarith)
    · rw [(p _ _).1]; exact div hP (by linarith)
    · rw [(p _ 0).2, add_comm]
    · rw [(p _ 0).2, add_comm]
    · rw [(p _ _).1]; exact div hP (by linarith)
  · intro hP
    obtain ⟨p0, p⟩ := pivot hP rfl
    refine represents_of_products ?_ ?_ ?_ ?_ ?_ ?_ ?_ ?_ ?_ ?_ <;> dsimp only
    · rw [(p _ _).1]; exact div hP (by linarith)
    · rw [(p _ _).1]; exact div hP (by linarith)
    · rw [p0]; ring
    · rw [(p _ _).1]; exact div hP (by linarith)
    · rw [(p _ _).1]; exact div hP (by linarith)
    · rw [mul_comm, (p _ 0).2]
    · rw [(p _ _).1]; exact div hP (by linarith)
    · rw [mul_comm, (p _ 0).2]
    · rw [(p _ _).1]; exact div hP (by linarith)
    · rw [(p _ 0).2, add_comm]
  · intro hP
    obtain ⟨p0, p⟩ := pivot hP rfl
    refine represents_of_products ?_ ?_ ?_ ?_ ?_ ?_ ?_ ?_ ?_ ?_ <;> dsimp only
    · rw [(p _ _).1]; exact div hP (by linarith)
    · rw [(p _ _).1]; exact div hP (by linarith)
    · rw [(p _ _).1]; exact div hP (by linarith)
    · rw [p0]; ring
    · rw [(p _ _).1]; exact div hP (by linarith)
    · rw [(p _ _).1]; exact div hP (by linarith)
    · rw [mul_comm, (p _ 0).2]
    · rw [(p _ _).1]; exact div hP (by linarith)
    · rw [mul_comm, (p _ 0).2]
    · rw [mul_comm, (p _ 0).2]

/-- The quaternion of a rotation represents it. -/
theorem represents_ofMatrix {m : Aff ℝ} (h : IsRotation m) : Represents (ofMatrix m) m := by
  obtain ⟨hw, hx, hy, hz⟩ := represents_pivots h
  unfold ofMatrix
  split
  · next ht => exact hw (by linarith)
  · next ht =>
    rw [not_lt] at ht
    split
    · next h1 =>
      split
      · next h2 => exact hz (by linarith)
      · next h2 => exact hy (by linarith)
    · next h1 =>
      split
      · next h2 => exact hz (by linarith)
      · next h2 => exact hx (by linarith)

theorem inv_unit {q : Q4} (h : q.sq = 1) : q.inv = ⟨q.w, -q.x, -q.y, -q.z⟩ := by
  unfold inv
  rw [if_pos (by rw [h]; norm_num), h]
  simp only [div_one]

/-- Turning by a quaternion that represents a matrix is multiplying by the matrix. -/
theorem rotate_represents {q : Q4} {m : Aff ℝ} (h : Represents q m) (v : V3 ℝ) : q.rotate v = m.lin v := by
  unfold rotate
  rw [inv_unit h.one]
  obtain ⟨a, b, c, d, e, f, g, h, i, one⟩ := h
  unfold sq at one
  unfold Aff.lin V3.dot mul
  rw [← a, ← b, ← c, ← d, ← e, ← f, ← g, ← h, ← i]
  simp only [V3.mk.injEq]
  refine ⟨?_, ?_, ?_⟩ <;> ring

/-- Turning keeps lengths. -/
theorem rotate_length {q : Q4} (h : 0 < q.sq) (v : V3 ℝ) : (q.rotate v).dot (q.rotate v) = v.dot v := by
  unfold rotate inv
  rw [if_pos h]
  have hs : q.sq = q.w * q.w + q.x * q.x + q.y * q.y + q.z * q.z := rfl
  have h0 := h.ne'
  generalize q.sq = N at *
  unfold mul V3.dot
  dsimp only
  field_simp
  rw [hs]
  ring

theorem rotate_sub (q : Q4) (u v : V3 ℝ) :
    (q.rotate u).x - (q.rotate v).x = (q.rotate ⟨u.x - v.x, u.y - v.y, u.z - v.z⟩).x ∧
    (q.rotate u).y - (q.rotate v).y = (q.rotate ⟨u.x - v.x, u.y - v.y, u.z - v.z⟩).y ∧
    (q.rotate u).z - (q.rotate v).z = (q.rotate ⟨u.x - v.x, u.y - v.y, u.z - v.z⟩).z := by
  unfold rotate mul
  dsimp only
  refine ⟨?_, ?_, ?_⟩ <;> ring

theorem rotate_bound {q : Q4} (h : 0 < q.sq) {v : V3 ℝ} {e : ℝ} (hx : |v.x| ≤ e) (hy : |v.y| ≤ e) (hz : |v.z| ≤ e) :
    |(q.rotate v).x| ≤ 2 * e ∧ |(q.rotate v).y| ≤ 2 * e ∧ |(q.rotate v).z| ≤ 2 * e := by
  have hl := rotate_length h v
  have he : 0 ≤ e := (abs_nonneg _).trans hx
  unfold V3.dot at hl
  have sx := sq_le_sq.mpr (hx.trans (le_abs_self e))
  have sy := sq_le_sq.mpr (hy.trans (le_abs_self e))
  have sz := sq_le_sq.mpr (hz.trans (le_abs_self e))
  refine ⟨?_, ?_, ?_⟩ <;> refine abs_le_of_sq_le_sq ?_ (by linarith) <;>
    nlinarith [mul_self_nonneg (q.rotate v).x, mul_self_nonneg (q.rotate v).y, mul_self_nonneg (q.rotate v).z]

end Q4

/-- C111, exact arithmetic: whenever the linear part of the origin is a rotation, the quaternion arithmetic of
`GetGradient` gives the grid-aligned gradient turned by it (the model `MSdf.gradient`, to which the other claims
about gradients refer). -/
theorem C111_exact {s : MSdf ℝ} (h : IsRotation s.origin) (i : Idx) (edges : Bool) :
    s.gradientQ i edges = s.gradient i edges := by
  have : (Q4.ofMatrix s.origin).rotate = s.origin.lin :=
    funext fun v => Q4.rotate_represents (Q4.represents_ofMatrix h) v
  unfold MSdf.gradientQ MSdf.gradient
  rw [this]
  generalize s.gridGrad i edges = l
  rcases l with _ | ⟨a, _ | ⟨b, _ | ⟨c, _ | ⟨d, l⟩⟩⟩⟩ <;> rfl

namespace FSdf

open Spec Fl

/-- The computed squared norm of a quaternion, whatever the order of its sums: within a few roundings. -/
def SqNorm (q : Q4) (n : FVal) : Prop := ∃ y : ℝ, n = real y ∧ |y - q.sq| ≤ q.sq / 2 ^ 50

theorem unit52 : Unit' (1 / 2 ^ 52) := ⟨le_rfl, by norm_num⟩

theorem scale_one : Scale 1 := by
  constructor
  · have := Ieee.two_mono (show (-900 : ℤ) ≤ 0 by norm_num)
    rwa [zpow_zero] at this
  · have := Ieee.two_mono (show (0 : ℤ) ≤ 900 by norm_num)
    rwa [zpow_zero] at this

/-- A component of the inverse. -/
theorem inv_comp {N c : ℝ} {n : FVal} (h1 : 1 / 2 ≤ N) (hc : c * c ≤ N)
    (hn : ∃ y : ℝ, n = real y ∧ |y - N| ≤ N / 2 ^ 50) : Ap (1 / 2 ^ 52) (div ieee (real c) n) (c / N) 1 (3 / 2) 8 := by
  obtain ⟨y, rfl, hy⟩ := hn
  have hN : 0 < N := by linarith
  have hb : |c / N| ≤ 3 / 2 * 1 := by
    rw [mul_one]
    refine abs_le_of_sq_le_sq ?_ (by norm_num)
    rw [div_pow, div_le_iff₀ (by positivity)]
    nlinarith
  have hy0 : (1 - 1 / 2 ^ 50) * N ≤ y := by
    have := (abs_le.mp hy).1
    linarith
  have hypos : 0 < y := lt_of_lt_of_le (by norm_num; exact hN) hy0
  have hd : |c / y - c / N| ≤ 7 * (1 / 2 ^ 52) * 1 := by
    have e : c / y - c / N = c / N * ((N - y) / y) := by field_simp
    rw [e, abs_mul, abs_div (N - y), abs_of_pos hypos, abs_sub_comm N]
    have h3 : |y - N| / y ≤ 4.5 / 2 ^ 52 := by
      rw [div_le_iff₀ hypos]
      refine hy.trans ?_
      have : 4.5 / 2 ^ 52 * ((1 - 1 / 2 ^ 50) * N) ≤ 4.5 / 2 ^ 52 * y := by gcongr
      refine le_trans ?_ this
      rw [div_eq_mul_one_div, ← mul_assoc, mul_comm N]
      gcongr
      norm_num
    calc |c / N| * (|y - N| / y) ≤ 3 / 2 * 1 * (4.5 / 2 ^ 52) := by gcongr
      _ ≤ _ := by norm_num
  refine ⟨hb, ?_⟩
  obtain ⟨w, h4, h5⟩ := round_ap (z := c / y) unit52 scale_one hb hd (by norm_num) (by norm_num)
  exact ⟨w, by rw [div_real _ _ hypos.ne', h4]; rfl, h5.trans (by norm_num)⟩

/-- One component of a product of quaternions: three sums of four products. -/
theorem four_add {s x1 x2 x3 x4 B k : ℝ} {a1 a2 a3 a4 : FVal} (hs : Scale s) (hB : B ≤ 16) (hk : k ≤ 128)
    (h1 : Ap (1 / 2 ^ 52) a1 x1 s B k) (h2 : Ap (1 / 2 ^ 52) a2 x2 s B k) (h3 : Ap (1 / 2 ^ 52) a3 x3 s B k)
    (h4 : Ap (1 / 2 ^ 52) a4 x4 s B k) :
    Ap (1 / 2 ^ 52) (sub ieee (add ieee (add ieee a1 a2) a3) a4) (x1 + x2 + x3 - x4) s (4 * B)
      (4 * k + 9 / 2 * B + 3 / 4) := by
  have u := Ap.add' unit52 hs h1 h2 (by linarith) (by linarith) le_rfl
  have v := Ap.add' unit52 hs u h3 (by linarith) (by linarith) le_rfl
  have w := Ap.sub' unit52 hs v h4 (by linarith) (by linarith) le_rfl
  exact Ap.weaken unit52 hs.pos w (by linarith) (by linarith)

theorem four_sub {s x1 x2 x3 x4 B k : ℝ} {a1 a2 a3 a4 : FVal} (hs : Scale s) (hB : B ≤ 16) (hk : k ≤ 128)
    (h1 : Ap (1 / 2 ^ 52) a1 x1 s B k) (h2 : Ap (1 / 2 ^ 52) a2 x2 s B k) (h3 : Ap (1 / 2 ^ 52) a3 x3 s B k)
    (h4 : Ap (1 / 2 ^ 52) a4 x4 s B k) :
    Ap (1 / 2 ^ 52) (sub ieee (sub ieee (sub ieee a1 a2) a3) a4) (x1 - x2 - x3 - x4) s (4 * B)
      (4 * k + 9 / 2 * B + 3 / 4) := by
  have u := Ap.sub' unit52 hs h1 h2 (by linarith) (by linarith) le_rfl
  have v := Ap.sub' unit52 hs u h3 (by linarith) (by linarith) le_rfl
  have w := Ap.sub' unit52 hs v h4 (by linarith) (by linarith) le_rfl
  exact Ap.weaken unit52 hs.pos w (by linarith) (by linarith)

/-- C111, the rotation alone in IEEE arithmetic: for every quaternion of squared norm between 1/2 and 2 and every vector
of numbers at most `s`, the result is within `2 ^ -43 * s` of the exact rotation, component by component. -/
theorem C111_rotation {q : Q4} {n : FVal} (h1 : 1 / 2 ≤ q.sq) (h2 : q.sq ≤ 2) (hn : SqNorm q n) {s : ℝ} (hs : Scale s)
    {v : V3 ℝ} (hx : |v.x| ≤ s) (hy : |v.y| ≤ s) (hz : |v.z| ≤ s) :
    ∃ r : V3 ℝ, rotate ieee (Quat.of q) ((Quat.of q).inv ieee n) ⟨real v.x, real v.y, real v.z⟩ =
        ⟨real r.x, real r.y, real r.z⟩ ∧
      |r.x - (q.rotate v).x| ≤ s / 2 ^ 43 ∧ |r.y - (q.rotate v).y| ≤ s / 2 ^ 43 ∧
      |r.z - (q.rotate v).z| ≤ s / 2 ^ 43 := by
  obtain ⟨w, x, y, z⟩ := q
  have hsq := h2
  have hsq1 := h1
  have hp := hs.pos
  have hinv : (Quat.of ⟨w, x, y, z⟩).inv ieee n = ⟨div ieee (real w) n, div ieee (real (-x)) n,
      div ieee (real (-y)) n, div ieee (real (-z)) n⟩ := by
    obtain ⟨m, rfl, hm⟩ := hn
    unfold Quat.inv Quat.of
    rw [if_pos]
    · simp only [neg_real]
    · have : 0 < m := by
        have := (abs_le.mp hm).1
        norm_num at this
        linarith
      simp only [lt, real, decide_eq_true_eq]
      exact_mod_cast this
  rw [hinv]
  have hcw : w * w ≤ Q4.sq ⟨w, x, y, z⟩ := by unfold Q4.sq; nlinarith [mul_self_nonneg x, mul_self_nonneg y, mul_self_nonneg z]
  have hcx : -x * -x ≤ Q4.sq ⟨w, x, y, z⟩ := by unfold Q4.sq; nlinarith [mul_self_nonneg w, mul_self_nonneg y, mul_self_nonneg z]
  have hcy : -y * -y ≤ Q4.sq ⟨w, x, y, z⟩ := by unfold Q4.sq; nlinarith [mul_self_nonneg x, mul_self_nonneg w, mul_self_nonneg z]
  have hcz : -z * -z ≤ Q4.sq ⟨w, x, y, z⟩ := by unfold Q4.sq; nlinarith [mul_self_nonneg x, mul_self_nonneg y, mul_self_nonneg w]
  have iw := inv_comp h1 hcw hn
  have ix := inv_comp h1 hcx hn
  have iy := inv_comp h1 hcy hn
  have iz := inv_comp h1 hcz hn
  have hinv' : Q4.inv ⟨w, x, y, z⟩ = ⟨w / Q4.sq ⟨w, x, y, z⟩, -x / Q4.sq ⟨w, x, y, z⟩, -y / Q4.sq ⟨w, x, y, z⟩,
      -z / Q4.sq ⟨w, x, y, z⟩⟩ := by
    unfold Q4.inv
    rw [if_pos (by linarith)]
  unfold Q4.rotate
  rw [hinv']
  generalize hN : Q4.sq ⟨w, x, y, z⟩ = N at *
  unfold Q4.mul rotate Quat.mul Quat.of
  dsimp only
  generalize w / N = jw at *
  generalize -x / N = jx at *
  generalize -y / N = jy at *
  generalize -z / N = jz at *
  generalize div ieee (real w) n = fw at *
  generalize div ieee (real (-x)) n = fx at *
  generalize div ieee (real (-y)) n = fy at *
  generalize div ieee (real (-z)) n = fz at *
  have ex : ∀ {c : ℝ}, |c| ≤ s → ∀ {j : ℝ} {f : FVal}, Ap (1 / 2 ^ 52) f j 1 (3 / 2) 8 →
      Ap (1 / 2 ^ 52) (mul ieee (real c) f) (c * j) s (3 / 2) (37 / 4) := by
    intro c hc j f hf
    have hu : Ap (1 / 2 ^ 52) (real c) c s 1 0 := ⟨by rwa [one_mul], c, rfl, by simp⟩
    have := Ap.mul (m := 37 / 4) unit52 (by rwa [mul_one]) hp hu hf (by norm_num) (by norm_num) le_rfl (by norm_num)
      (by norm_num) (by norm_num) (by norm_num) (by norm_num) (by norm_num)
    rwa [mul_one, one_mul] at this
  have e0 := fun {j f} => @ex 0 (by rw [abs_zero]; exact hp.le) j f
  have qc : ∀ {c : ℝ}, c * c ≤ N → ∀ {j : ℝ} {f : FVal}, Ap (1 / 2 ^ 52) f j s 6 (89 / 2) →
      Ap (1 / 2 ^ 52) (mul ieee (real c) f) (c * j) s 9 72 := by
    intro c hc j f hf
    have hu : Ap (1 / 2 ^ 52) (real c) c 1 (3 / 2) 0 := by
      refine ⟨?_, c, rfl, by simp⟩
      rw [mul_one]
      refine abs_le_of_sq_le_sq ?_ (by norm_num)
      nlinarith
    have := Ap.mul (m := 72) unit52 (by rwa [one_mul]) one_pos hu hf (by norm_num) (by norm_num) le_rfl (by norm_num)
      (by norm_num) (by norm_num) (by norm_num) (by norm_num) (by norm_num)
    rw [one_mul] at this
    exact Ap.weaken unit52 hp this (by norm_num) le_rfl
  have hxx : x * x ≤ N := by linarith [neg_mul_neg x x]
  have hyy : y * y ≤ N := by linarith [neg_mul_neg y y]
  have hzz : z * z ≤ N := by linarith [neg_mul_neg z z]
  have tw := four_sub hs (by norm_num) (by norm_num) (e0 iw) (ex hx ix) (ex hy iy) (ex hz iz)
  have tx := four_add hs (by norm_num) (by norm_num) (e0 ix) (ex hx iw) (ex hy iz) (ex hz iy)
  have ty := four_add hs (by norm_num) (by norm_num) (e0 iy) (ex hy iw) (ex hz ix) (ex hx iz)
  have tz := four_add hs (by norm_num) (by norm_num) (e0 iz) (ex hz iw) (ex hx iy) (ex hy ix)
  have wk : ∀ {f : FVal} {j : ℝ}, Ap (1 / 2 ^ 52) f j s (4 * (3 / 2)) (4 * (37 / 4) + 9 / 2 * (3 / 2) + 3 / 4) →
      Ap (1 / 2 ^ 52) f j s 6 (89 / 2) := fun h => Ap.weaken unit52 hp h (by norm_num) (by norm_num)
  replace tw := wk tw
  replace tx := wk tx
  replace ty := wk ty
  replace tz := wk tz
  have rx := four_add hs (by norm_num) (by norm_num) (qc hcw tx) (qc hxx tw) (qc hyy tz) (qc hzz ty)
  have ry := four_add hs (by norm_num) (by norm_num) (qc hcw ty) (qc hyy tw) (qc hzz tx) (qc hxx tz)
  have rz := four_add hs (by norm_num) (by norm_num) (qc hcw tz) (qc hzz tw) (qc hxx ty) (qc hyy tx)
  obtain ⟨-, a, ha, ha'⟩ := rx
  obtain ⟨-, b, hb, hb'⟩ := ry
  obtain ⟨-, c, hc, hc'⟩ := rz
  have fin : (4 * 72 + 9 / 2 * 9 + 3 / 4) * (1 / 2 ^ 52) * s ≤ s / 2 ^ 43 := by
    rw [show s / 2 ^ 43 = 512 * (1 / 2 ^ 52) * s by norm_num; ring]
    exact mul_le_mul_of_nonneg_right (by norm_num) hp.le
  exact ⟨⟨a, b, c⟩, by rw [ha, hb, hc], ha'.trans fin, hb'.trans fin, hc'.trans fin⟩

/-- C111, IEEE arithmetic.  For a field of finite values, an origin with linear part `m` and a quaternion of doubles whose
rotation is within `δ` of `m`: the computed world-frame gradient has the components of the exact one, and each is a
number within `(2 ^ -21 + δ) * G` of it, where `G` bounds the grid-aligned differences, plus an absolute error far
below one `float` step per cell. -/
theorem C111_accuracy {s : FSdf} {t : MSdf ℝ} (h : Stores s t) (hlo : 1 / 2 ^ 100 ≤ t.res)
    (hhi : t.res ≤ 2 ^ 100) {D : ℝ} (hD : D ≤ 2 ^ 126) (hv : ∀ i, InBounds t.grid.dims i → |t.grid.get i| ≤ D)
    {q : Q4} {n : FVal} (h1 : 1 / 2 ≤ q.sq) (h2 : q.sq ≤ 2) (hn : SqNorm q n) {δ : ℝ}
    (hq : ∀ (v : V3 ℝ) (B : ℝ), |v.x| ≤ B → |v.y| ≤ B → |v.z| ≤ B →
      |(q.rotate v).x - (t.origin.lin v).x| ≤ δ * B ∧ |(q.rotate v).y - (t.origin.lin v).y| ≤ δ * B ∧
      |(q.rotate v).z - (t.origin.lin v).z| ≤ δ * B)
    (i : Idx) (edges : Bool) {G : ℝ} (hG : ∀ g ∈ t.gridGrad i edges, |g| ≤ G) (hG' : G ≤ 2 ^ (800 : ℤ)) :
    List.Forall₂ (fun a x => ∃ y : ℝ, a = real y ∧ |y - x| ≤ (1 / 2 ^ 21 + δ) * G + 1 / 2 ^ 144 / t.res)
      (s.gradient ieee (rotate ieee (Quat.of q) ((Quat.of q).inv ieee n)) i edges) (t.gradient i edges) := by
  have hacc := C102_accuracy_partial h hlo hhi hD hv i edges
  unfold gradient MSdf.gradient
  generalize s.gridGrad ieee i edges = l at *
  generalize t.gridGrad i edges = k at *
  rcases hacc with _ | ⟨⟨a, rfl, ha⟩, _ | ⟨⟨b, rfl, hb⟩, _ | ⟨⟨c, rfl, hc⟩, _ | ⟨_, _⟩⟩⟩⟩
  · exact .nil
  · exact .nil
  · exact .nil
  swap
  · exact .nil
  rename_i x y z
  have hr : 0 < t.res := lt_of_lt_of_le (by norm_num) hlo
  have gx : |x| ≤ G := hG _ (by simp)
  have gy : |y| ≤ G := hG _ (by simp)
  have gz : |z| ≤ G := hG _ (by simp)
  have hG0 : 0 ≤ G := (abs_nonneg _).trans gx
  obtain ⟨η, hη⟩ : ∃ η, η = 1 / 2 ^ 147 / t.res := ⟨_, rfl⟩
  have hη0 : 0 < η := by rw [hη]; positivity
  rw [← hη] at ha hb hc
  have e8 : 1 / 2 ^ 144 / t.res = 8 * η := by rw [hη]; ring
  rw [e8]
  obtain ⟨e, he⟩ : ∃ e, e = G / 2 ^ 23 + η := ⟨_, rfl⟩
  have dx : |a - x| ≤ e := ha.trans (by rw [he]; gcongr)
  have dy : |b - y| ≤ e := hb.trans (by rw [he]; gcongr)
  have dz : |c - z| ≤ e := hc.trans (by rw [he]; gcongr)
  have hS : Scale (2 * G + η) := by
    constructor
    · have : (2 : ℝ) ^ (-900 : ℤ) ≤ η := by
        have e1 : (2 : ℝ) ^ (-900 : ℤ) ≤ 2 ^ (-247 : ℤ) := Ieee.two_mono (by norm_num)
        refine e1.trans ?_
        rw [hη, le_div_iff₀ hr, one_div, ← zpow_natCast, ← zpow_neg]
        calc (2 : ℝ) ^ (-247 : ℤ) * t.res ≤ 2 ^ (-247 : ℤ) * 2 ^ (100 : ℤ) := by
              gcongr
              exact_mod_cast hhi
          _ = _ := by rw [← Ieee.two_add]; norm_num
      linarith
    · have : η ≤ 1 := by
        rw [hη, div_le_iff₀ hr]
        refine le_trans ?_ (by linarith : 1 / 2 ^ 100 ≤ 1 * t.res)
        norm_num
      have e1 : (2 : ℝ) ^ (900 : ℤ) = 2 ^ (800 : ℤ) * 2 ^ (100 : ℤ) := by rw [← Ieee.two_add]; norm_num
      have e2 : (1 : ℝ) ≤ 2 ^ (800 : ℤ) := by
        have := Ieee.two_mono (show (0 : ℤ) ≤ 800 by norm_num)
        rwa [zpow_zero] at this
      rw [e1]
      generalize (2 : ℝ) ^ (800 : ℤ) = T at *
      norm_num
      linarith only [hG', e2, this]
  have big : ∀ {u w : ℝ}, |u - w| ≤ e → |w| ≤ G → |u| ≤ 2 * G + η := by
    intro u w h3 h4
    have := abs_sub_abs_le_abs_sub u w
    have : G / 2 ^ 23 ≤ G := div_le_self hG0 (by norm_num)
    linarith
  obtain ⟨r, hrot, rx, ry, rz⟩ := C111_rotation h1 h2 hn hS (v := ⟨a, b, c⟩) (big dx gx) (big dy gy) (big dz gz)
  dsimp only at hrot ⊢
  rw [hrot]
  obtain ⟨sx, sy, sz⟩ := Q4.rotate_sub q ⟨a, b, c⟩ ⟨x, y, z⟩
  obtain ⟨bx, by', bz⟩ := Q4.rotate_bound (q := q) (by linarith) (v := ⟨a - x, b - y, c - z⟩) dx dy dz
  obtain ⟨mx, my, mz⟩ := hq ⟨x, y, z⟩ G gx gy gz
  rw [← sx] at bx
  rw [← sy] at by'
  rw [← sz] at bz
  have fin : ∀ {u p o m : ℝ}, |u - p| ≤ (2 * G + η) / 2 ^ 43 → |p - o| ≤ 2 * e → |o - m| ≤ δ * G →
      |u - m| ≤ (1 / 2 ^ 21 + δ) * G + 8 * η := by
    intro u p o m h3 h4 h5
    have t1 := abs_sub_le u p m
    have t2 := abs_sub_le p o m
    rw [he] at h4
    norm_num at h3 h4 ⊢
    linarith
  exact .cons ⟨_, rfl, fin rx bx mx⟩ (.cons ⟨_, rfl, fin ry by' my⟩ (.cons ⟨_, rfl, fin rz bz mz⟩ .nil))

/-! ## The computed squared norm -/

/-- A computed sum of squares: `k` roundings of relative error, and underflow. -/
def Sum (k τ : ℝ) (a : FVal) (x : ℝ) : Prop := 0 ≤ x ∧ x ≤ 4 ∧ ∃ y : ℝ, a = real y ∧ |y - x| ≤ k / 2 ^ 53 * x + τ

theorem r64_small {z : ℝ} (hz : |z| ≤ 16) :
    ∃ w : ℝ, ieee.r64 (z : EReal) = (w : EReal) ∧ |w - z| ≤ |z| / 2 ^ 53 + 1 / 2 ^ 100 := by
  have e4 : (16 : ℝ) ≤ 2 ^ (1000 : ℤ) := by
    have := Ieee.two_mono (show (4 : ℤ) ≤ 1000 by norm_num)
    norm_num at this ⊢
    exact this
  obtain ⟨w, h1, h2⟩ := Ieee.r64_real (hz.trans e4)
  have e5 : (2 : ℝ) ^ (-1074 : ℤ) ≤ 1 / 2 ^ 100 := by
    rw [← zpow_neg_nat]
    exact Ieee.two_mono (by norm_num)
  exact ⟨w, h1, h2.trans (by gcongr)⟩

theorem sum_square {c : ℝ} (h : c * c ≤ 4) : Sum 1 (1 / 2 ^ 100) (mul ieee (real c) (real c)) (c * c) := by
  have h0 := mul_self_nonneg c
  obtain ⟨w, h1, h2⟩ := r64_small (z := c * c) (by rw [abs_of_nonneg h0]; linarith)
  refine ⟨h0, h, w, by rw [mul_real, h1]; rfl, h2.trans (le_of_eq ?_)⟩
  rw [abs_of_nonneg h0]
  ring

theorem Sum.add {k τ x x' : ℝ} {a a' : FVal} (hk : k ≤ 8) (hτ : 1 / 2 ^ 100 ≤ τ) (hτ' : τ ≤ 1 / 8)
    (h : Sum k τ a x) (h' : Sum k τ a' x') (hx : x + x' ≤ 4) :
    Sum (k + 3 / 2) (4 * τ) (Fl.add ieee a a') (x + x') := by
  obtain ⟨p, -, y, rfl, hy⟩ := h
  obtain ⟨p', -, y', rfl, hy'⟩ := h'
  have b : k / 2 ^ 53 ≤ 1 / 2 ^ 50 := by rw [div_le_iff₀ (by norm_num)]; norm_num at hk ⊢; linarith
  have d : |y + y' - (x + x')| ≤ k / 2 ^ 53 * (x + x') + 2 * τ := by
    rw [show y + y' - (x + x') = (y - x) + (y' - x') by ring]
    refine (abs_add_le _ _).trans ?_
    linarith [mul_add (k / 2 ^ 53) x x']
  have m : k / 2 ^ 53 * (x + x') ≤ 1 / 2 ^ 50 * (x + x') := by
    exact mul_le_mul_of_nonneg_right b (by linarith)
  have sz : |y + y'| ≤ (1 + 1 / 2 ^ 50) * (x + x') + 2 * τ := by
    have := abs_sub_abs_le_abs_sub (y + y') (x + x')
    rw [abs_of_nonneg (show 0 ≤ x + x' by linarith)] at this
    linarith
  obtain ⟨w, h1, h2⟩ := r64_small (z := y + y') (by norm_num at sz ⊢; linarith)
  refine ⟨by linarith, hx, w, by rw [add_real, h1]; rfl, ?_⟩
  have t := abs_sub_le w (y + y') (x + x')
  have u : |y + y'| / 2 ^ 53 ≤ ((1 + 1 / 2 ^ 50) * (x + x') + 2 * τ) / 2 ^ 53 := by gcongr
  have e : (k + 3 / 2) / 2 ^ 53 * (x + x') = k / 2 ^ 53 * (x + x') + 3 / 2 / 2 ^ 53 * (x + x') := by ring
  rw [e]
  generalize k / 2 ^ 53 * (x + x') = K at *
  have hs : 0 ≤ x + x' := by linarith
  generalize x + x' = X at *
  norm_num at u hτ h2 ⊢
  linarith

theorem Sum.weaken {k l τ υ x : ℝ} {a : FVal} (h : Sum k τ a x) (hk : k ≤ l) (hτ : τ ≤ υ) : Sum l υ a x := by
  obtain ⟨h0, h1, y, e, h⟩ := h
  exact ⟨h0, h1, y, e, h.trans (by gcongr)⟩

/-- The squared norm summed in any of the orders that Eigen uses (from left to right, or in two pairs) is as close as
`C111_rotation` asks. -/
theorem sqNorm_computed {q : Q4} (h1 : 1 / 2 ≤ q.sq) (h2 : q.sq ≤ 2) :
    SqNorm q (add ieee (add ieee (add ieee (mul ieee (real q.x) (real q.x)) (mul ieee (real q.y) (real q.y)))
      (mul ieee (real q.z) (real q.z))) (mul ieee (real q.w) (real q.w))) ∧
    SqNorm q (add ieee (add ieee (mul ieee (real q.x) (real q.x)) (mul ieee (real q.y) (real q.y)))
      (add ieee (mul ieee (real q.z) (real q.z)) (mul ieee (real q.w) (real q.w)))) ∧
    SqNorm q (add ieee (add ieee (mul ieee (real q.x) (real q.x)) (mul ieee (real q.z) (real q.z)))
      (add ieee (mul ieee (real q.y) (real q.y)) (mul ieee (real q.w) (real q.w)))) := by
  have hs : q.sq = q.w * q.w + q.x * q.x + q.y * q.y + q.z * q.z := rfl
  have w0 := mul_self_nonneg q.w
  have x0 := mul_self_nonneg q.x
  have y0 := mul_self_nonneg q.y
  have z0 := mul_self_nonneg q.z
  have sw := sum_square (c := q.w) (by linarith)
  have sx := sum_square (c := q.x) (by linarith)
  have sy := sum_square (c := q.y) (by linarith)
  have sz := sum_square (c := q.z) (by linarith)
  have up : ∀ {a : FVal} {x : ℝ}, Sum 1 (1 / 2 ^ 100) a x → Sum (1 + 3 / 2) (4 * (1 / 2 ^ 100)) a x :=
    fun h => h.weaken (by norm_num) (by norm_num)
  have up2 : ∀ {a : FVal} {x : ℝ}, Sum 1 (1 / 2 ^ 100) a x → Sum (1 + 3 / 2 + 3 / 2) (4 * (4 * (1 / 2 ^ 100))) a x :=
    fun h => h.weaken (by norm_num) (by norm_num)
  have fin : ∀ {a : FVal} {x : ℝ}, Sum (1 + 3 / 2 + 3 / 2 + 3 / 2) (4 * (4 * (4 * (1 / 2 ^ 100)))) a x → x = q.sq →
      SqNorm q a := by
    rintro a x ⟨-, -, y, e, h⟩ rfl
    refine ⟨y, e, h.trans ?_⟩
    norm_num
    linarith
  have fin2 : ∀ {a : FVal} {x : ℝ}, Sum (1 + 3 / 2 + 3 / 2) (4 * (4 * (1 / 2 ^ 100))) a x → x = q.sq →
      SqNorm q a := fun h e => fin (h.weaken (by norm_num) (by norm_num)) e
  have n1 : (0 : ℝ) ≤ 1 := by norm_num
  have pair : ∀ {a b : FVal} {x y : ℝ}, Sum 1 (1 / 2 ^ 100) a x → Sum 1 (1 / 2 ^ 100) b y → x + y ≤ 4 →
      Sum (1 + 3 / 2) (4 * (1 / 2 ^ 100)) (add ieee a b) (x + y) :=
    fun h h' hx => Sum.add (by norm_num) le_rfl (by norm_num) h h' hx
  have pair2 : ∀ {a b : FVal} {x y : ℝ}, Sum (1 + 3 / 2) (4 * (1 / 2 ^ 100)) a x →
      Sum (1 + 3 / 2) (4 * (1 / 2 ^ 100)) b y → x + y ≤ 4 →
      Sum (1 + 3 / 2 + 3 / 2) (4 * (4 * (1 / 2 ^ 100))) (add ieee a b) (x + y) :=
    fun h h' hx => Sum.add (by norm_num) (by norm_num) (by norm_num) h h' hx
  refine ⟨fin (Sum.add (by norm_num) (by norm_num) (by norm_num)
    (pair2 (pair sx sy (by linarith)) (up sz) (by linarith)) (up2 sw) (by linarith)) (by rw [hs]; ring),
    fin2 (pair2 (pair sx sy (by linarith)) (pair sz sw (by linarith)) (by linarith)) (by rw [hs]; ring),
    fin2 (pair2 (pair sx sz (by linarith)) (pair sy sw (by linarith)) (by linarith)) (by rw [hs]; ring)⟩

end FSdf

/-! ## Examples -/

/-- The third of a turn around `(1, 1, 1)`, which takes the axes to each other. -/
def exTurn : Aff ℝ := ⟨⟨0, 0, 1⟩, ⟨1, 0, 0⟩, ⟨0, 1, 0⟩, ⟨5, 6, 7⟩⟩

theorem exTurn_rotation : IsRotation exTurn := by
  constructor <;> norm_num [exTurn, V3.dot]

noncomputable def exQuat : Q4 := ⟨1 / 2, 1 / 2, 1 / 2, 1 / 2⟩

theorem exQuat_turn : exQuat.Represents exTurn := by
  constructor <;> norm_num [exQuat, exTurn, Q4.sq]

/-- A field in a turned grid: the quaternion arithmetic returns the turned gradient. -/
example (s : MSdf ℝ) (h : s.origin = exTurn) (i : Idx) (a b c : ℝ) (hg : s.gridGrad i true = [a, b, c]) :
    s.gradientQ i true = [c, a, b] := by
  rw [C111_exact (h ▸ exTurn_rotation)]
  unfold MSdf.gradient
  rw [hg, h]
  simp [exTurn, Aff.lin, V3.dot]

/-- C111, the limit of the claim: a mirrored frame is an isometry too, but no quaternion turns like it; the gradient is
then not that of the world frame. -/
theorem C111_mirrored {s : MSdf ℝ} (h : s.origin = ⟨⟨1, 0, 0⟩, ⟨0, 1, 0⟩, ⟨0, 0, -1⟩, s.origin.t⟩) {i : Idx} {edges : Bool}
    {a b c : ℝ} (hg : s.gridGrad i edges = [a, b, c]) :
    s.gradient i edges = [a, b, -c] ∧ s.gradientQ i edges = [a, b, c] := by
  unfold MSdf.gradient MSdf.gradientQ
  rw [hg, h]
  refine ⟨by simp [Aff.lin, V3.dot], ?_⟩
  have hq : ∃ r : ℝ, r * r = 1 / 2 ∧ Q4.ofMatrix ⟨⟨1, 0, 0⟩, ⟨0, 1, 0⟩, ⟨0, 0, -1⟩, s.origin.t⟩ = ⟨r, 0, 0, 0⟩ := by
    refine ⟨1 / 2 * √2, ?_, ?_⟩
    · have := Real.mul_self_sqrt (show (0 : ℝ) ≤ 2 by norm_num)
      linear_combination 1 / 4 * this
    · unfold Q4.ofMatrix
      norm_num
  obtain ⟨r, hr, hq⟩ := hq
  dsimp only
  rw [hq]
  have h0 : 0 < Q4.sq ⟨r, 0, 0, 0⟩ := by unfold Q4.sq; linarith
  have hs : Q4.sq ⟨r, 0, 0, 0⟩ = 1 / 2 := by unfold Q4.sq; linarith
  unfold Q4.rotate Q4.inv
  rw [if_pos h0, hs]
  unfold Q4.mul
  simp only [List.cons.injEq, and_true]
  refine ⟨?_, ?_, ?_⟩ <;> simp <;> first | linear_combination 2 * a * hr | linear_combination 2 * b * hr | linear_combination 2 * c * hr

namespace FSdf

open Fl

/-- The gradient at the first cell of `exFloatField`, `(-4, 0, -2)` along the axes of the grid, in a grid turned by
`exTurn`. -/
example : ∃ a b c : ℝ, (FSdf.mk exFloatField (1 / 4)).gradient ieee
      (rotate ieee (Quat.of exQuat) ((Quat.of exQuat).inv ieee (real 1))) ⟨0, 0, 0⟩ true = [real a, real b, real c] ∧
    |a - -2| ≤ 1 / 2 ^ 18 ∧ |b - -4| ≤ 1 / 2 ^ 18 ∧ |c - 0| ≤ 1 / 2 ^ 18 := by
  have hr : (FSdf.mk exFloatField (1 / 4)).exact.res = 1 / 4 := rfl
  have h := C111_accuracy (t := { (FSdf.mk exFloatField (1 / 4)).exact with origin := exTurn }) exField_stores
    (by show (1 : ℝ) / 2 ^ 100 ≤ 1 / 4; norm_num)
    (by show (1 / 4 : ℝ) ≤ 2 ^ 100; norm_num) (D := 2) (by norm_num) exField_bound (q := exQuat) (n := real 1)
    (by norm_num [exQuat, Q4.sq]) (by norm_num [exQuat, Q4.sq]) ⟨1, rfl, by norm_num [exQuat, Q4.sq]⟩ (δ := 0)
    (fun v B _ _ _ => by rw [Q4.rotate_represents exQuat_turn]; simp) ⟨0, 0, 0⟩ true (G := 4)
    (by
      show ∀ g ∈ (FSdf.mk exFloatField (1 / 4)).exact.gridGrad ⟨0, 0, 0⟩ true, |g| ≤ 4
      rw [exField_grad]
      simp
      norm_num)
    (by
      have := Ieee.two_mono (show (2 : ℤ) ≤ 800 by norm_num)
      norm_num at this ⊢
      exact this)
  have hg : MSdf.gradient { (FSdf.mk exFloatField (1 / 4)).exact with origin := exTurn } ⟨0, 0, 0⟩ true = [-2, -4, 0] := by
    unfold MSdf.gradient
    rw [show MSdf.gridGrad { (FSdf.mk exFloatField (1 / 4)).exact with origin := exTurn } ⟨0, 0, 0⟩ true = [-4, 0, -2] from
      exField_grad]
    simp [exTurn, Aff.lin, V3.dot]
  rw [hg] at h
  generalize gradient _ _ _ _ _ = l at h ⊢
  rcases h with _ | ⟨⟨a, rfl, ha⟩, _ | ⟨⟨b, rfl, hb⟩, _ | ⟨⟨c, rfl, hc⟩, _ | _⟩⟩⟩
  have hres : (1 : ℝ) / 2 ^ 144 / (1 / 4) ≤ 1 / 2 ^ 100 := by norm_num
  refine ⟨a, b, c, rfl, ha.trans ?_, hb.trans ?_, hc.trans ?_⟩ <;>
    · show (1 / 2 ^ 21 + 0) * 4 + (1 : ℝ) / 2 ^ 144 / (1 / 4) ≤ _
      norm_num

end FSdf

end Verif
