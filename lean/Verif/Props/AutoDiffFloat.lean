import Verif.AutoDiffFloat
import Verif.Props.FrameFloat
import Verif.Props.AutoDiff

/-!
# C113: the automatic-differentiation gradient in IEEE arithmetic
-/

namespace Verif

open Spec SdfGen Filter Topology

namespace FSdf

open Fl

/-! ## Error propagation through the derivatives -/

theorem Ap.zero (ε : ℝ) {s : ℝ} : Ap ε (real 0) 0 s 0 0 := ⟨by simp, 0, rfl, by simp⟩

theorem r64_coe_zero (R : Rounding) : R.r64 ((0 : ℝ) : EReal) = ((0 : ℝ) : EReal) := by
  have h := R.odd64 0
  rw [neg_zero] at h
  rw [EReal.coe_zero]
  generalize R.r64 0 = x at h
  induction x using EReal.rec with
  | bot => simp at h
  | top => simp at h
  | coe x =>
    rw [← EReal.coe_neg, EReal.coe_eq_coe_iff] at h
    have : x = 0 := by linarith
    rw [this]; rfl

theorem zero_mul_coe (R : Rounding) (y : ℝ) : mul R (real 0) (real y) = real 0 := by
  rw [mul_real, zero_mul, r64_coe_zero]; rfl

/-- A zero derivative times a finite value. -/
theorem Ap.zero_mul {ε y t C l s : ℝ} {v : FVal} (h : Ap ε v y t C l) : Ap ε (Fl.mul ieee (real 0) v) 0 s 0 0 := by
  obtain ⟨-, y', rfl, -⟩ := h
  rw [zero_mul_coe]
  exact Ap.zero ε

theorem Ap.congr {ε x y s B k : ℝ} {u : FVal} (h : Ap ε u x s B k) (e : x = y) : Ap ε u y s B k := e ▸ h

theorem Ap.rescale {ε x s t B k : ℝ} {u : FVal} (h : Ap ε u x s B k) (e : s = t) : Ap ε u x t B k := e ▸ h

/-- One derivative of `FDual.bilinear`, from the derivatives `u1` and `u2` of the query coordinates. -/
noncomputable def bilinearD (R : Rounding) (low1 high1 low2 high2 q1 u1 q2 u2 ll lh hl hh : FVal) : FVal :=
  let m := div R (real 1) (mul R (sub R high1 low1) (sub R high2 low2))
  let a := mul R m (sub R high1 q1)
  let da := add R (mul R (real 0) (sub R high1 q1)) (mul R (neg u1) m)
  let b := mul R m (sub R q1 low1)
  let db := add R (mul R (real 0) (sub R q1 low1)) (mul R u1 m)
  let v := add R (mul R a ll) (mul R b hl)
  let dv := add R (add R (mul R da ll) (mul R (real 0) a)) (add R (mul R db hl) (mul R (real 0) b))
  let w := add R (mul R a lh) (mul R b hh)
  let dw := add R (add R (mul R da lh) (mul R (real 0) a)) (add R (mul R db hh) (mul R (real 0) b))
  add R (add R (mul R dv (sub R high2 q2)) (mul R (neg u2) v)) (add R (mul R dw (sub R q2 low2)) (mul R u2 w))

theorem bilinear_val (R : Rounding) (L1 H1 L2 H2 : FVal) (q1 q2 : FDual) (ll lh hl hh : FVal) :
    (FDual.bilinear R L1 H1 L2 H2 q1 q2 ll lh hl hh).val = bilinear R L1 H1 L2 H2 q1.val q2.val ll lh hl hh := rfl

theorem bilinear_d (R : Rounding) (L1 H1 L2 H2 : FVal) (q1 q2 : FDual) (ll lh hl hh : FVal) :
    (FDual.bilinear R L1 H1 L2 H2 q1 q2 ll lh hl hh).d =
      ⟨bilinearD R L1 H1 L2 H2 q1.val q1.d.x q2.val q2.d.x ll lh hl hh,
       bilinearD R L1 H1 L2 H2 q1.val q1.d.y q2.val q2.d.y ll lh hl hh,
       bilinearD R L1 H1 L2 H2 q1.val q1.d.z q2.val q2.d.z ll lh hl hh⟩ := rfl

theorem neg_real' (x : ℝ) : neg (real x) = real (-x) := by unfold neg real; simp

theorem bilinearD_ap {ε r V l1 l2 q1 q2 u1 u2 vll vlh vhl vhh B1 C1 B2 C2 : ℝ} {L1 H1 L2 H2 ll lh hl hh : FVal}
    (hε : Unit' ε) (hr : Rng r (-100) 100) (hV : Rng V (-101) 200)
    (hL1 : Ap ε L1 l1 r B1 1) (hH1 : Ap ε H1 (l1 + r) r C1 3)
    (hL2 : Ap ε L2 l2 r B2 1) (hH2 : Ap ε H2 (l2 + r) r C2 3)
    (o1 : |l1 + r - q1| ≤ 21 / 10 * r) (p1 : |q1 - l1| ≤ 21 / 10 * r)
    (o2 : |l2 + r - q2| ≤ 21 / 10 * r) (p2 : |q2 - l2| ≤ 21 / 10 * r) (hu1 : |u1| ≤ 2) (hu2 : |u2| ≤ 2)
    (hll : Ap ε ll vll V 1 2) (hlh : Ap ε lh vlh V 1 2) (hhl : Ap ε hl vhl V 1 2) (hhh : Ap ε hh vhh V 1 2) :
    Ap ε (bilinearD ieee L1 H1 L2 H2 (real q1) (real u1) (real q2) (real u2) ll lh hl hh)
      ((u1 * (vhl - vll) * (l2 + r - q2) + u1 * (vhh - vlh) * (q2 - l2)
        - u2 * ((l1 + r - q1) * vll + (q1 - l1) * vhl) + u2 * ((l1 + r - q1) * vlh + (q1 - l1) * vhh)) / (r * r))
      (V * (1 / r)) 34 720 := by
  have r0 := hr.pos
  have V0 := hV.pos
  have one : Scale (1 : ℝ) := ⟨by
    have := Ieee.two_mono (a := -900) (b := 0) (by norm_num); simpa using this, by
    have := Ieee.two_mono (a := 0) (b := 900) (by norm_num); simpa using this⟩
  have sr : Scale r := hr.scale (by norm_num) (by norm_num)
  have srr : Scale (r * r) := (hr.mul hr).scale (by norm_num) (by norm_num)
  have rm := (hr.mul hr).inv
  have sm : Scale (1 / (r * r)) := rm.scale (by norm_num) (by norm_num)
  have ra := rm.mul hr
  have sa : Scale (1 / (r * r) * r) := ra.scale (by norm_num) (by norm_num)
  have rv := ra.mul hV
  have sv : Scale (1 / (r * r) * r * V) := rv.scale (by norm_num) (by norm_num)
  have rd := rm.mul hV
  have sd : Scale (1 / (r * r) * V) := rd.scale (by norm_num) (by norm_num)
  have sdr : Scale (1 / (r * r) * V * r) := (rd.mul hr).scale (by norm_num) (by norm_num)
  have sF : Scale (V * (1 / r)) := (hV.mul hr.inv).scale (by norm_num) (by norm_num)
  have one_m : (1 : ℝ) * (1 / (r * r)) = 1 / (r * r) := one_mul _
  have som : Scale (1 * (1 / (r * r))) := by rw [one_m]; exact sm
  have d1 : Ap ε (Fl.sub ieee H1 L1) (l1 + r - l1) r 1 5 :=
    Ap.sub hε sr hH1 hL1 (by rw [add_sub_cancel_left, abs_of_pos r0, one_mul]) (by norm_num) (by norm_num)
      (by norm_num)
  have d2 : Ap ε (Fl.sub ieee H2 L2) (l2 + r - l2) r 1 5 :=
    Ap.sub hε sr hH2 hL2 (by rw [add_sub_cancel_left, abs_of_pos r0, one_mul]) (by norm_num) (by norm_num)
      (by norm_num)
  rw [add_sub_cancel_left] at d1 d2
  have pr : Ap ε (Fl.mul ieee (Fl.sub ieee H1 L1) (Fl.sub ieee H2 L2)) (r * r) (r * r) (1 * 1) 11 :=
    Ap.mul hε srr r0 d1 d2 (by norm_num) (by norm_num) (by norm_num) (by norm_num) (by norm_num) (by norm_num)
      (by norm_num) (by norm_num) (by norm_num)
  have m := Ap.inv (m := 12) hε srr.pos sm pr (by norm_num) (by norm_num) (by norm_num)
  have oh1 : Ap ε (Fl.sub ieee H1 (real q1)) (l1 + r - q1) r (21 / 10) 5 :=
    Ap.sub hε sr hH1 (Ap.exact ε q1 r0) o1 (by norm_num) (by norm_num) (by norm_num)
  have ol1 : Ap ε (Fl.sub ieee (real q1) L1) (q1 - l1) r (21 / 10) 3 :=
    Ap.sub hε sr (Ap.exact ε q1 r0) hL1 p1 (by norm_num) (by norm_num) (by norm_num)
  have oh2 : Ap ε (Fl.sub ieee H2 (real q2)) (l2 + r - q2) r (21 / 10) 5 :=
    Ap.sub hε sr hH2 (Ap.exact ε q2 r0) o2 (by norm_num) (by norm_num) (by norm_num)
  have ol2 : Ap ε (Fl.sub ieee (real q2) L2) (q2 - l2) r (21 / 10) 3 :=
    Ap.sub hε sr (Ap.exact ε q2 r0) hL2 p2 (by norm_num) (by norm_num) (by norm_num)
  have unit : ∀ {u : ℝ}, |u| ≤ 2 → Ap ε (real u) u 1 2 0 := fun {u} hu =>
    ⟨by rw [mul_one]; exact hu, u, rfl, by simp⟩
  have nu1 : Ap ε (neg (real u1)) (-u1) 1 2 0 := by rw [neg_real']; exact unit (by rwa [abs_neg])
  have nu2 : Ap ε (neg (real u2)) (-u2) 1 2 0 := by rw [neg_real']; exact unit (by rwa [abs_neg])
  have pu1 := unit hu1
  have pu2 := unit hu2
  have a := Ap.mul (m := 32) hε sa sm.pos m oh1 (by norm_num) (by norm_num) (by norm_num) (by norm_num) (by norm_num)
    (by norm_num) (by norm_num) (by norm_num) (by norm_num)
  have b := Ap.mul (m := 30) hε sa sm.pos m ol1 (by norm_num) (by norm_num) (by norm_num) (by norm_num) (by norm_num)
    (by norm_num) (by norm_num) (by norm_num) (by norm_num)
  -- derivatives of the two weights
  have da0 := (Ap.mul (m := 26) hε som (by norm_num) nu1 m (by norm_num) (by norm_num) (by norm_num)
    (by norm_num) (by norm_num) (by norm_num) (by norm_num) (by norm_num) (by norm_num)).rescale one_m
  have da := Ap.add' (m := 28) hε sm (Ap.zero_mul (s := 1 / (r * r)) oh1) da0 (by norm_num) (by norm_num) (by norm_num)
  have db0 := (Ap.mul (m := 26) hε som (by norm_num) pu1 m (by norm_num) (by norm_num) (by norm_num)
    (by norm_num) (by norm_num) (by norm_num) (by norm_num) (by norm_num) (by norm_num)).rescale one_m
  have db := Ap.add' (m := 28) hε sm (Ap.zero_mul (s := 1 / (r * r)) ol1) db0 (by norm_num) (by norm_num) (by norm_num)
  -- the two rows of values
  have part : ∀ {x y : ℝ} {X Y A : FVal} {z C k : ℝ}, Ap ε X x (1 / (r * r)) (0 + 2 * 1) 28 → Ap ε Y y V 1 2 →
      Ap ε A z (1 / (r * r) * r) C k →
      Ap ε (Fl.add ieee (Fl.mul ieee X Y) (Fl.mul ieee (real 0) A)) (x * y + 0) (1 / (r * r) * V)
        ((0 + 2 * 1) * 1 + 0) 36 := by
    intro x y X Y A z C k hX hY hA
    have p := Ap.mul (m := 34) hε sd sm.pos hX hY (by norm_num) (by norm_num) (by norm_num) (by norm_num)
      (by norm_num) (by norm_num) (by norm_num) (by norm_num) (by norm_num)
    exact Ap.add' (m := 36) hε sd p (Ap.zero_mul hA) (by norm_num) (by norm_num) (by norm_num)
  have dv := Ap.add' (m := 75) hε sd (part da hll a) (part db hhl b) (by norm_num) (by norm_num) (by norm_num)
  have dw := Ap.add' (m := 75) hε sd (part da hlh a) (part db hhh b) (by norm_num) (by norm_num) (by norm_num)
  have all := Ap.mul (m := 38) hε sv sa.pos a hll (by norm_num) (by norm_num) (by norm_num) (by norm_num)
    (by norm_num) (by norm_num) (by norm_num) (by norm_num) (by norm_num)
  have alh := Ap.mul (m := 38) hε sv sa.pos a hlh (by norm_num) (by norm_num) (by norm_num) (by norm_num)
    (by norm_num) (by norm_num) (by norm_num) (by norm_num) (by norm_num)
  have bhl := Ap.mul (m := 36) hε sv sa.pos b hhl (by norm_num) (by norm_num) (by norm_num) (by norm_num)
    (by norm_num) (by norm_num) (by norm_num) (by norm_num) (by norm_num)
  have bhh := Ap.mul (m := 36) hε sv sa.pos b hhh (by norm_num) (by norm_num) (by norm_num) (by norm_num)
    (by norm_num) (by norm_num) (by norm_num) (by norm_num) (by norm_num)
  have s0 := Ap.add' (m := 77) hε sv all bhl (by norm_num) (by norm_num) (by norm_num)
  have s1 := Ap.add' (m := 77) hε sv alh bhh (by norm_num) (by norm_num) (by norm_num)
  have e1 : 1 / (r * r) * V * r = V * (1 / r) := by field_simp
  have e2 : 1 * (1 / (r * r) * r * V) = V * (1 / r) := by field_simp
  have so : Scale (1 * (1 / (r * r) * r * V)) := by rw [e2]; exact sF
  have x0 := (Ap.mul (m := 183) hε sdr sd.pos dv oh2 (by norm_num) (by norm_num) (by norm_num) (by norm_num)
    (by norm_num) (by norm_num) (by norm_num) (by norm_num) (by norm_num)).rescale e1
  have x1 := (Ap.mul (m := 159) hε so (by norm_num) nu2 s0 (by norm_num) (by norm_num) (by norm_num) (by norm_num)
    (by norm_num) (by norm_num) (by norm_num) (by norm_num) (by norm_num)).rescale e2
  have y0 := (Ap.mul (m := 183) hε sdr sd.pos dw ol2 (by norm_num) (by norm_num) (by norm_num) (by norm_num)
    (by norm_num) (by norm_num) (by norm_num) (by norm_num) (by norm_num)).rescale e1
  have y1 := (Ap.mul (m := 159) hε so (by norm_num) pu2 s1 (by norm_num) (by norm_num) (by norm_num) (by norm_num)
    (by norm_num) (by norm_num) (by norm_num) (by norm_num) (by norm_num)).rescale e2
  have x := Ap.add' (m := 351) hε sF x0 x1 (by norm_num) (by norm_num) (by norm_num)
  have y := Ap.add' (m := 351) hε sF y0 y1 (by norm_num) (by norm_num) (by norm_num)
  have fin := Ap.add' (m := 720) hε sF x y (by norm_num) (by norm_num) (by norm_num)
  refine Ap.congr (Ap.weaken (C := 34) hε sF.pos fin (by norm_num) le_rfl) ?_
  field_simp
  ring

/-- One derivative of `FDual.trilinear`. -/
noncomputable def trilinearD (R : Rounding) (res : ℝ) (c : V3 FVal) (q u : V3 FVal)
    (a1 a2 a3 a4 a5 a6 a7 a8 : FVal) : FVal :=
  let hx := add R c.x (real res)
  let hy := add R c.y (real res)
  let lo := bilinear R c.x hx c.y hy q.x q.y a1 a3 a5 a7
  let dlo := bilinearD R c.x hx c.y hy q.x u.x q.y u.y a1 a3 a5 a7
  let hi := bilinear R c.x hx c.y hy q.x q.y a2 a4 a6 a8
  let dhi := bilinearD R c.x hx c.y hy q.x u.x q.y u.y a2 a4 a6 a8
  let inv := div R (real 1) (real res)
  let slope := mul R (sub R hi lo) inv
  let dslope := mul R (sub R dhi dlo) inv
  let dz := sub R q.z c.z
  let ddz := sub R u.z (real 0)
  add R dlo (add R (mul R ddz slope) (mul R dslope dz))

theorem trilinear_d (R : Rounding) (res : ℝ) (c : V3 FVal) (q : V3 FDual) (a1 a2 a3 a4 a5 a6 a7 a8 : FVal) :
    (FDual.trilinear R res c q a1 a2 a3 a4 a5 a6 a7 a8).d =
      ⟨trilinearD R res c ⟨q.x.val, q.y.val, q.z.val⟩ ⟨q.x.d.x, q.y.d.x, q.z.d.x⟩ a1 a2 a3 a4 a5 a6 a7 a8,
       trilinearD R res c ⟨q.x.val, q.y.val, q.z.val⟩ ⟨q.x.d.y, q.y.d.y, q.z.d.y⟩ a1 a2 a3 a4 a5 a6 a7 a8,
       trilinearD R res c ⟨q.x.val, q.y.val, q.z.val⟩ ⟨q.x.d.z, q.y.d.z, q.z.d.z⟩ a1 a2 a3 a4 a5 a6 a7 a8⟩ := by
  simp only [FDual.trilinear, FDual.add, FDual.mul, FDual.sub, FDual.scale, FDual.const, FDual.bilinearXY, bilinear_d,
    bilinear_val, trilinearD]

/-- The slopes of the piece of the interpolant between the chosen cells, along the three grid axes. -/
noncomputable def pieceSlope (r : ℝ) (q : V3 ℝ) (g : Int → Int → Int → ℝ) (a b c : Int × Int) : V3 ℝ :=
  ⟨blend r q.z (fun z => blend r q.y (fun y => (g a.2 y z - g a.1 y z) / r) b) c,
   blend r q.z (fun z => blend r q.x (fun x => (g x b.2 z - g x b.1 z) / r) a) c,
   blend r q.y (fun y => blend r q.x (fun x => (g x y c.2 - g x y c.1) / r) a) b⟩

theorem trilinearD_ap {ε V : ℝ} {t : MSdf ℝ} {N : ℕ} (hε : Unit' ε)
    (hN : N ≤ 2 ^ 20) (hεN : (N : ℝ) / 2 ^ 52 ≤ ε) (hr : Rng t.res (-100) 100) (hV : Rng V (-101) 200)
    {c : V3 FVal} {q u : V3 ℝ} {a b e : Int × Int} (g : Int → Int → Int → ℝ)
    (hx : Ap ε c.x (((a.1 : ℝ) + 1 / 2) * t.res) t.res N 1) (hy : Ap ε c.y (((b.1 : ℝ) + 1 / 2) * t.res) t.res N 1)
    (hz : Ap ε c.z (((e.1 : ℝ) + 1 / 2) * t.res) t.res N 1)
    (ox : |((a.1 : ℝ) + 1 / 2) * t.res + t.res - q.x| ≤ 21 / 10 * t.res)
    (px : |q.x - ((a.1 : ℝ) + 1 / 2) * t.res| ≤ 21 / 10 * t.res)
    (oy : |((b.1 : ℝ) + 1 / 2) * t.res + t.res - q.y| ≤ 21 / 10 * t.res)
    (py : |q.y - ((b.1 : ℝ) + 1 / 2) * t.res| ≤ 21 / 10 * t.res)
    (pz : |q.z - ((e.1 : ℝ) + 1 / 2) * t.res| ≤ 21 / 10 * t.res)
    (hu : |u.x| ≤ 2 ∧ |u.y| ≤ 2 ∧ |u.z| ≤ 2) {a1 a2 a3 a4 a5 a6 a7 a8 : FVal}
    (h1 : Ap ε a1 (g a.1 b.1 e.1) V 1 2) (h2 : Ap ε a2 (g a.1 b.1 e.2) V 1 2) (h3 : Ap ε a3 (g a.1 b.2 e.1) V 1 2)
    (h4 : Ap ε a4 (g a.1 b.2 e.2) V 1 2) (h5 : Ap ε a5 (g a.2 b.1 e.1) V 1 2) (h6 : Ap ε a6 (g a.2 b.1 e.2) V 1 2)
    (h7 : Ap ε a7 (g a.2 b.2 e.1) V 1 2) (h8 : Ap ε a8 (g a.2 b.2 e.2) V 1 2) :
    ∃ y : ℝ, trilinearD ieee t.res c (loc q) (loc u) a1 a2 a3 a4 a5 a6 a7 a8 = real y ∧
      |y - u.dot (pieceSlope t.res q g a b e)| ≤ 6312 * ε * (V / t.res) := by
  have r0 := hr.pos
  have V0 := hV.pos
  have sr : Scale t.res := hr.scale (by norm_num) (by norm_num)
  have sV : Scale V := hV.scale (by norm_num) (by norm_num)
  have ri := hr.inv
  have si : Scale (1 / t.res) := ri.scale (by norm_num) (by norm_num)
  have rs := hV.mul ri
  have ss : Scale (V * (1 / t.res)) := rs.scale (by norm_num) (by norm_num)
  have rss := rs.mul ri
  have sss : Scale (V * (1 / t.res) * (1 / t.res)) := rss.scale (by norm_num) (by norm_num)
  have st : Scale (V * (1 / t.res) * (1 / t.res) * t.res) := (rss.mul hr).scale (by norm_num) (by norm_num)
  have one : Scale (1 : ℝ) := ⟨by
    have := Ieee.two_mono (a := -900) (b := 0) (by norm_num); simpa using this, by
    have := Ieee.two_mono (a := 0) (b := 900) (by norm_num); simpa using this⟩
  have kx := high_ap hε hr hN hεN hx
  have ky := high_ap hε hr hN hεN hy
  have lo := bilinear_ap hε hr hV hx kx hy ky ox px oy py h1 h3 h5 h7
  have hi := bilinear_ap hε hr hV hx kx hy ky ox px oy py h2 h4 h6 h8
  have dlo := bilinearD_ap hε hr hV hx kx hy ky ox px oy py hu.1 hu.2.1 h1 h3 h5 h7
  have dhi := bilinearD_ap hε hr hV hx kx hy ky ox px oy py hu.1 hu.2.1 h2 h4 h6 h8
  have d := Ap.sub' (m := 775) hε sV hi lo (by norm_num) (by norm_num) (by norm_num)
  have dd := Ap.sub' (m := 1475) hε ss dhi dlo (by norm_num) (by norm_num) (by norm_num)
  have er : Ap ε (real t.res) t.res t.res 1 0 := by
    have := Ap.exact ε t.res r0
    rwa [abs_of_pos r0, div_self r0.ne'] at this
  have inv := Ap.inv (m := 1) hε r0 si er (by norm_num) (by norm_num) (by norm_num)
  have slope := Ap.mul (m := 830) hε ss V0 d inv (by norm_num) (by norm_num) (by norm_num) (by norm_num) (by norm_num)
    (by norm_num) (by norm_num) (by norm_num) (by norm_num)
  have dslope := Ap.mul (m := 1578) hε sss ss.pos dd inv (by norm_num) (by norm_num) (by norm_num) (by norm_num)
    (by norm_num) (by norm_num) (by norm_num) (by norm_num) (by norm_num)
  have dz : Ap ε (Fl.sub ieee (real q.z) c.z) (q.z - ((e.1 : ℝ) + 1 / 2) * t.res) t.res (21 / 10) 3 :=
    Ap.sub hε sr (Ap.exact ε q.z r0) hz pz (by norm_num) (by norm_num) (by norm_num)
  have uz : Ap ε (real u.z) u.z 1 2 0 := ⟨by rw [mul_one]; exact hu.2.2, u.z, rfl, by simp⟩
  have ddz := Ap.sub' (m := 2) hε one uz (Ap.zero ε) (by norm_num) (by norm_num) (by norm_num)
  have so : Scale (1 * (V * (1 / t.res))) := by rw [one_mul]; exact ss
  have p1 := (Ap.mul (m := 1769) hε so (by norm_num) ddz slope (by norm_num) (by norm_num) (by norm_num) (by norm_num)
    (by norm_num) (by norm_num) (by norm_num) (by norm_num) (by norm_num)).rescale (one_mul _)
  have e1 : V * (1 / t.res) * (1 / t.res) * t.res = V * (1 / t.res) := by field_simp
  have p2 := (Ap.mul (m := 3590) hε st sss.pos dslope dz (by norm_num) (by norm_num) (by norm_num) (by norm_num)
    (by norm_num) (by norm_num) (by norm_num) (by norm_num) (by norm_num)).rescale e1
  have p := Ap.add' (m := 5467) hε ss p1 p2 (by norm_num) (by norm_num) (by norm_num)
  obtain ⟨-, y, e2, e3⟩ := Ap.add' (m := 6312) hε ss dlo p (by norm_num) (by norm_num) (by norm_num)
  refine ⟨y, e2, ?_⟩
  rw [mul_one_div V t.res] at e3
  refine le_of_eq_of_le ?_ e3
  congr 2
  unfold pieceSlope blend V3.dot MSdf.bilinear
  simp only [id]
  field_simp
  ring

/-! ## The gradient at a grid-frame location -/

/-- A grid-frame location with the derivatives of its coordinates, the rows of the transform `B`. -/
noncomputable def lift (B : Aff ℝ) (q : V3 ℝ) : V3 FDual :=
  ⟨⟨real q.x, loc B.rx⟩, ⟨real q.y, loc B.ry⟩, ⟨real q.z, loc B.rz⟩⟩

/-- The chain rule: the gradient in the world frame of a function with gradient `G` in the grid frame, for the
transform `B` from the world to the grid frame. -/
def pullback {K : Type} [Add K] [Mul K] (B : Aff K) (G : V3 K) : V3 K :=
  ⟨B.rx.x * G.x + B.ry.x * G.y + B.rz.x * G.z, B.rx.y * G.x + B.ry.y * G.y + B.rz.y * G.z,
   B.rx.z * G.x + B.ry.z * G.y + B.rz.z * G.z⟩

/-- The slopes of the piece of the field `t` that is in use between the given cells. -/
noncomputable def slopeOf (t : MSdf ℝ) (q : V3 ℝ) (a b c : Int × Int) : V3 ℝ :=
  pieceSlope t.res q (fun x y z => adj t ⟨x, y, z⟩) a b c

/-- The ranges of cell sizes and distances, in the form of the error calculus. -/
theorem ranges {res D : ℝ} (hlo : 1 / 2 ^ 100 ≤ res) (hhi : res ≤ 2 ^ 100) (D0 : 0 ≤ D) (hD : D ≤ 2 ^ 150) :
    Rng res (-100) 100 ∧ Rng (D + res / 2) (-101) 200 := by
  refine ⟨⟨?_, ?_⟩, ?_, ?_⟩
  · have := zpow_neg_nat 100
    push_cast at this
    rw [this]; exact hlo
  · exact_mod_cast hhi
  · have := zpow_neg_nat 101
    push_cast at this
    rw [this]
    norm_num at hlo ⊢; linarith
  · have e : (2 : ℝ) ^ (200 : ℤ) = 2 ^ 200 := by norm_cast
    rw [e]
    norm_num at hhi hD ⊢; linarith

theorem unit_of {N : ℕ} (hN1 : 1 ≤ N) (hN : N ≤ 2 ^ 20) : Unit' ((N : ℝ) / 2 ^ 52) := by
  have h1 : (1 : ℝ) ≤ N := by exact_mod_cast hN1
  have h2 : (N : ℝ) ≤ 2 ^ 20 := by exact_mod_cast hN
  constructor
  · gcongr
  · calc (N : ℝ) / 2 ^ 52 ≤ 2 ^ 20 / 2 ^ 52 := by gcongr
      _ = 1 / 2 ^ 32 := by norm_num

/-- The computed derivatives are those of the piece that the computed signs select, up to rounding. -/
theorem estGridD_ap {s : FSdf} {t : MSdf ℝ} (h : Stores s t) {N : ℕ} (hN : N ≤ 2 ^ 20)
    (hdim : t.grid.dims.nx ≤ N ∧ t.grid.dims.ny ≤ N ∧ t.grid.dims.nz ≤ N)
    (hlo : 1 / 2 ^ 100 ≤ t.res) (hhi : t.res ≤ 2 ^ 100) {D : ℝ} (hD : D ≤ 2 ^ 150)
    (hv : ∀ i, InBounds t.grid.dims i → |t.grid.get i| ≤ D) {B : Aff ℝ}
    (hB : RowSmall B.rx ∧ RowSmall B.ry ∧ RowSmall B.rz) {q : V3 ℝ} {i : Idx} (hi : InBounds t.grid.dims i)
    (hx : |q.x - ((i.x : ℝ) + 1 / 2) * t.res| ≤ t.res) (hy : |q.y - ((i.y : ℝ) + 1 / 2) * t.res| ≤ t.res)
    (hz : |q.z - ((i.z : ℝ) + 1 / 2) * t.res| ≤ t.res) :
    ∃ bx bY bz,
      (bx = geZero (sub ieee (real q.x) (s.center ieee i).x) ∧ bY = geZero (sub ieee (real q.y) (s.center ieee i).y) ∧
        bz = geZero (sub ieee (real q.z) (s.center ieee i).z)) ∧
      (bx ≠ decide (q.x - ((i.x : ℝ) + 1 / 2) * t.res ≥ 0) → |q.x / t.res - ((i.x : ℝ) + 1 / 2)| ≤ N / 2 ^ 51) ∧
      (bY ≠ decide (q.y - ((i.y : ℝ) + 1 / 2) * t.res ≥ 0) → |q.y / t.res - ((i.y : ℝ) + 1 / 2)| ≤ N / 2 ^ 51) ∧
      (bz ≠ decide (q.z - ((i.z : ℝ) + 1 / 2) * t.res ≥ 0) → |q.z / t.res - ((i.z : ℝ) + 1 / 2)| ≤ N / 2 ^ 51) ∧
      ∃ a y, s.estGridD ieee (lift B q) i = some a ∧ a.d = loc y ∧
        Within (6312 * (N / 2 ^ 52) * ((D + t.res / 2) / t.res)) y
          (pullback B (slopeOf t q (axisIdx i.x t.grid.dims.nx bx) (axisIdx i.y t.grid.dims.ny bY)
            (axisIdx i.z t.grid.dims.nz bz))) := by
  have D0 : 0 ≤ D := (abs_nonneg _).trans (hv i hi)
  obtain ⟨hr, hV⟩ := ranges hlo hhi D0 hD
  have r0 := hr.pos
  obtain ⟨ix, iy, iz⟩ := id hi
  have hN1 : 1 ≤ N := by omega
  set ε : ℝ := (N : ℝ) / 2 ^ 52 with hεdef
  have hε : Unit' ε := unit_of hN1 hN
  have hεN : (N : ℝ) / 2 ^ 52 ≤ ε := le_rfl
  have e51 : (N : ℝ) / 2 ^ 51 = 2 * ε := by rw [hεdef]; ring
  have cap : ∀ {j : Int} {n : ℕ}, n ≤ N → (0 ≤ j ∧ j < n) →
      Ap ε (Fl.mul ieee (real t.res) (real ((j : ℝ) + 1 / 2))) (((j : ℝ) + 1 / 2) * t.res) t.res N 1 := by
    intro j n hn hj
    exact center_ap hε hr hN hεN ⟨hj.1, by have := hj.2; omega⟩
  have hdims := h.1
  have hres := h.2.1
  have sx := sign_ap hε hr (cap hdim.1 ix) hx
  have sy := sign_ap hε hr (cap hdim.2.1 iy) hy
  have sz := sign_ap hε hr (cap hdim.2.2 iz) hz
  rw [e51]
  unfold center
  rw [hres]
  refine ⟨_, _, _, ⟨rfl, rfl, rfl⟩, sx, sy, sz, ?_⟩
  unfold estGridD center lift
  dsimp only
  rw [hdims, hres]
  generalize geZero (sub ieee (real q.x) (Fl.mul ieee (real t.res) (real ((i.x : ℝ) + 1 / 2)))) = bx
  generalize geZero (sub ieee (real q.y) (Fl.mul ieee (real t.res) (real ((i.y : ℝ) + 1 / 2)))) = bY
  generalize geZero (sub ieee (real q.z) (Fl.mul ieee (real t.res) (real ((i.z : ℝ) + 1 / 2)))) = bz
  have gx := axisIdx_inB ix bx
  have gy := axisIdx_inB iy bY
  have gz := axisIdx_inB iz bz
  have ofx := offsets (n := t.grid.dims.nx) r0 hx bx
  have ofy := offsets (n := t.grid.dims.ny) r0 hy bY
  have ofz := offsets (n := t.grid.dims.nz) r0 hz bz
  have hc : ∀ {a b c}, (0 ≤ a ∧ a < (t.grid.dims.nx : Int)) → (0 ≤ b ∧ b < (t.grid.dims.ny : Int)) →
      (0 ≤ c ∧ c < (t.grid.dims.nz : Int)) →
      ∃ w, s.corrected ieee ⟨a, b, c⟩ = some w ∧ Ap ε w (adj t ⟨a, b, c⟩) (D + t.res / 2) 1 2 :=
    fun ha hb hc => corrected_ap h hε hr hV ⟨ha, hb, hc⟩ (hv _ ⟨ha, hb, hc⟩)
  obtain ⟨w1, e1, f1⟩ := hc gx.1 gy.1 gz.1
  obtain ⟨w2, e2, f2⟩ := hc gx.1 gy.1 gz.2
  obtain ⟨w3, e3, f3⟩ := hc gx.1 gy.2 gz.1
  obtain ⟨w4, e4, f4⟩ := hc gx.1 gy.2 gz.2
  obtain ⟨w5, e5, f5⟩ := hc gx.2 gy.1 gz.1
  obtain ⟨w6, e6, f6⟩ := hc gx.2 gy.1 gz.2
  obtain ⟨w7, e7, f7⟩ := hc gx.2 gy.2 gz.1
  obtain ⟨w8, e8, f8⟩ := hc gx.2 gy.2 gz.2
  rw [e1, e2, e3, e4, e5, e6, e7, e8]
  have key := fun (u : V3 ℝ) (hu : |u.x| ≤ 2 ∧ |u.y| ≤ 2 ∧ |u.z| ≤ 2) =>
    trilinearD_ap (t := t) hε hN hεN hr hV (q := q) (u := u)
      (c := ⟨Fl.mul ieee (real t.res) (real (((axisIdx i.x t.grid.dims.nx bx).1 : ℝ) + 1 / 2)),
        Fl.mul ieee (real t.res) (real (((axisIdx i.y t.grid.dims.ny bY).1 : ℝ) + 1 / 2)),
        Fl.mul ieee (real t.res) (real (((axisIdx i.z t.grid.dims.nz bz).1 : ℝ) + 1 / 2))⟩)
      (a := axisIdx i.x t.grid.dims.nx bx) (b := axisIdx i.y t.grid.dims.ny bY) (e := axisIdx i.z t.grid.dims.nz bz)
      (fun x y z => adj t ⟨x, y, z⟩) (cap hdim.1 gx.1) (cap hdim.2.1 gy.1) (cap hdim.2.2 gz.1)
      ofx.1 ofx.2 ofy.1 ofy.2 ofz.2 hu f1 f2 f3 f4 f5 f6 f7 f8
  obtain ⟨hB1, hB2, hB3⟩ := hB
  obtain ⟨yx, ex, kx⟩ := key ⟨B.rx.x, B.ry.x, B.rz.x⟩ ⟨hB1.1, hB2.1, hB3.1⟩
  obtain ⟨yy, ey, ky⟩ := key ⟨B.rx.y, B.ry.y, B.rz.y⟩ ⟨hB1.2.1, hB2.2.1, hB3.2.1⟩
  obtain ⟨yz, ez, kz⟩ := key ⟨B.rx.z, B.ry.z, B.rz.z⟩ ⟨hB1.2.2, hB2.2.2, hB3.2.2⟩
  refine ⟨_, ⟨yx, yy, yz⟩, rfl, ?_, kx, ky, kz⟩
  rw [trilinear_d]
  unfold loc at ex ey ez ⊢
  dsimp only at ex ey ez ⊢
  rw [ex, ey, ez]

/-! ## From the computed location to a location whose piece is the computed one -/

/-- Near every location for which rounding may select the wrong piece, there is one that lies in the selected piece. -/
theorem axis_pick {n : ℕ} {res q δ : ℝ} {i : Int} {b : Bool} (hr : 0 < res) (h0 : 0 ≤ i) (h1 : i < n)
    (hq : |q - ((i : ℝ) + 1 / 2) * res| < res) (hδ : 0 < δ) (hδ' : δ < 1)
    (hb : b ≠ decide (q - ((i : ℝ) + 1 / 2) * res ≥ 0) → |q / res - ((i : ℝ) + 1 / 2)| ≤ δ) :
    ∃ q', |q' - q| ≤ 2 * δ * res ∧ |q' - ((i : ℝ) + 1 / 2) * res| ≤ res ∧
      axisIdx i n b = (lowerCell n (q' / res), upperCell n (q' / res)) := by
  by_cases hs : b = decide (q - ((i : ℝ) + 1 / 2) * res ≥ 0)
  · refine ⟨q, by rw [sub_self, abs_zero]; positivity, hq.le, ?_⟩
    rw [← axisIdx_upto hr h0 h1 hq, axisIdx_exact, hs]
  · have hn := hb hs
    have hnear : |q - ((i : ℝ) + 1 / 2) * res| ≤ δ * res := by
      have e : q - ((i : ℝ) + 1 / 2) * res = (q / res - ((i : ℝ) + 1 / 2)) * res := by field_simp
      rw [e, abs_mul, abs_of_pos hr]
      gcongr
    have dr : 0 < δ * res := by positivity
    cases b with
    | true =>
      refine ⟨((i : ℝ) + 1 / 2) * res, ?_, ?_, ?_⟩
      · rw [abs_sub_comm]; linarith
      · rw [sub_self, abs_zero]; exact hr.le
      · rw [← axisIdx_upto hr h0 h1 (by rw [sub_self, abs_zero]; exact hr), axisIdx_exact, sub_self]
        simp
    | false =>
      have e : ((i : ℝ) + 1 / 2) * res - δ * res - ((i : ℝ) + 1 / 2) * res = -(δ * res) := by ring
      have lt : δ * res < res := by nlinarith
      refine ⟨((i : ℝ) + 1 / 2) * res - δ * res, ?_, ?_, ?_⟩
      · rw [abs_le] at hnear ⊢
        constructor <;> linarith [hnear.1, hnear.2]
      · rw [e, abs_neg, abs_of_pos dr]; exact lt.le
      · rw [← axisIdx_upto hr h0 h1 (by rw [e, abs_neg, abs_of_pos dr]; exact lt), axisIdx_exact, e]
        have : ¬ (-(δ * res) ≥ 0) := by linarith
        simp [this]

theorem blend_move {r q q' F κ : ℝ} {f : Int → ℝ} {a : Int × Int} (h1 : |f a.1| ≤ F) (h2 : |f a.2| ≤ F)
    (hq : |q / r - q' / r| ≤ κ) : |blend r q f a - blend r q' f a| ≤ 2 * κ * F := by
  have e : blend r q f a - blend r q' f a = (q / r - q' / r) * (f a.2 - f a.1) := by unfold blend; ring
  rw [e, abs_mul]
  have : |f a.2 - f a.1| ≤ 2 * F := by
    have := abs_sub (f a.2) (f a.1)
    linarith
  calc _ ≤ κ * (2 * F) := mul_le_mul hq this (abs_nonneg _) ((abs_nonneg _).trans hq)
    _ = _ := by ring

/-- Inside one piece the slopes change little. -/
theorem slope_move {t : MSdf ℝ} (hr : 0 < t.res) {V κ : ℝ} {i : Idx} (hi : InBounds t.grid.dims i)
    (hg : ∀ i, InBounds t.grid.dims i → |adj t i| ≤ V) {q q' : V3 ℝ} {bx bY bz : Bool}
    (hx : |q.x / t.res - ((i.x : ℝ) + 1 / 2)| ≤ 1) (hy : |q.y / t.res - ((i.y : ℝ) + 1 / 2)| ≤ 1)
    (hy' : |q'.y / t.res - ((i.y : ℝ) + 1 / 2)| ≤ 1) (hx' : |q'.x / t.res - ((i.x : ℝ) + 1 / 2)| ≤ 1)
    (hz : |q.z / t.res - ((i.z : ℝ) + 1 / 2)| ≤ 1)
    (kx : |q.x / t.res - q'.x / t.res| ≤ κ) (ky : |q.y / t.res - q'.y / t.res| ≤ κ)
    (kz : |q.z / t.res - q'.z / t.res| ≤ κ) :
    Within (24 * κ * (V / t.res))
      (slopeOf t q (axisIdx i.x t.grid.dims.nx bx) (axisIdx i.y t.grid.dims.ny bY) (axisIdx i.z t.grid.dims.nz bz))
      (slopeOf t q' (axisIdx i.x t.grid.dims.nx bx) (axisIdx i.y t.grid.dims.ny bY)
        (axisIdx i.z t.grid.dims.nz bz)) := by
  obtain ⟨ix, iy, iz⟩ := hi
  have gx := axisIdx_inB ix bx
  have gy := axisIdx_inB iy bY
  have gz := axisIdx_inB iz bz
  have κ0 : 0 ≤ κ := (abs_nonneg _).trans kx
  have V0 : 0 ≤ V := (abs_nonneg _).trans (hg ⟨_, _, _⟩ ⟨gx.1, gy.1, gz.1⟩)
  have diff : ∀ {u v : ℝ}, |u| ≤ V → |v| ≤ V → |(u - v) / t.res| ≤ 2 * V / t.res := by
    intro u v hu hv
    rw [abs_div, abs_of_pos hr]
    have := abs_sub u v
    gcongr
    linarith
  -- two nested blends of bounded values
  have two : ∀ {n1 n2 : ℕ} {i1 i2 : Int} {b1 b2 : Bool} {u u' v v' F : ℝ} {f : Int → Int → ℝ},
      (0 ≤ i1 ∧ i1 < (n1 : Int)) → (0 ≤ i2 ∧ i2 < (n2 : Int)) → |u / t.res - ((i1 : ℝ) + 1 / 2)| ≤ 1 →
      |v' / t.res - ((i2 : ℝ) + 1 / 2)| ≤ 1 → |u / t.res - u' / t.res| ≤ κ → |v / t.res - v' / t.res| ≤ κ →
      (∀ y z, (0 ≤ z ∧ z < (n1 : Int)) → (0 ≤ y ∧ y < (n2 : Int)) → |f z y| ≤ F) →
      |blend t.res u (fun z => blend t.res v (f z) (axisIdx i2 n2 b2)) (axisIdx i1 n1 b1) -
        blend t.res u' (fun z => blend t.res v' (f z) (axisIdx i2 n2 b2)) (axisIdx i1 n1 b1)| ≤ 12 * κ * F := by
    intro n1 n2 i1 i2 b1 b2 u u' v v' F f h1 h2 hu hv ku kv hf
    have g1 := axisIdx_inB h1 b1
    have g2 := axisIdx_inB h2 b2
    have s1 : |blend t.res u (fun z => blend t.res v (f z) (axisIdx i2 n2 b2)) (axisIdx i1 n1 b1) -
        blend t.res u (fun z => blend t.res v' (f z) (axisIdx i2 n2 b2)) (axisIdx i1 n1 b1)| ≤ 3 * (2 * κ * F) := by
      rw [blend_sub]
      exact blend_bound h1 hu (fun z z0 z1 => blend_move (hf _ _ ⟨z0, z1⟩ g2.1) (hf _ _ ⟨z0, z1⟩ g2.2) kv) b1
    have s2 : |blend t.res u (fun z => blend t.res v' (f z) (axisIdx i2 n2 b2)) (axisIdx i1 n1 b1) -
        blend t.res u' (fun z => blend t.res v' (f z) (axisIdx i2 n2 b2)) (axisIdx i1 n1 b1)| ≤ 2 * κ * (3 * F) :=
      blend_move (blend_bound h2 hv (fun y y0 y1 => hf y _ g1.1 ⟨y0, y1⟩) b2)
        (blend_bound h2 hv (fun y y0 y1 => hf y _ g1.2 ⟨y0, y1⟩) b2) ku
    refine (abs_sub_le _ _ _).trans ((add_le_add s1 s2).trans (le_of_eq ?_))
    ring
  have e : 24 * κ * (V / t.res) = 12 * κ * (2 * V / t.res) := by ring
  rw [e]
  refine ⟨?_, ?_, ?_⟩
  · exact two (f := fun z y => (adj t ⟨(axisIdx i.x t.grid.dims.nx bx).2, y, z⟩ -
        adj t ⟨(axisIdx i.x t.grid.dims.nx bx).1, y, z⟩) / t.res) (b1 := bz) (b2 := bY) iz iy hz hy' kz ky
      fun y z hz hy => diff (hg ⟨_, y, z⟩ ⟨gx.2, hy, hz⟩) (hg ⟨_, y, z⟩ ⟨gx.1, hy, hz⟩)
  · exact two (f := fun z x => (adj t ⟨x, (axisIdx i.y t.grid.dims.ny bY).2, z⟩ -
        adj t ⟨x, (axisIdx i.y t.grid.dims.ny bY).1, z⟩) / t.res) (b1 := bz) (b2 := bx) iz ix hz hx' kz kx
      fun x z hz hx => diff (hg ⟨x, _, z⟩ ⟨hx, gy.2, hz⟩) (hg ⟨x, _, z⟩ ⟨hx, gy.1, hz⟩)
  · exact two (f := fun y x => (adj t ⟨x, y, (axisIdx i.z t.grid.dims.nz bz).2⟩ -
        adj t ⟨x, y, (axisIdx i.z t.grid.dims.nz bz).1⟩) / t.res) (b1 := bY) (b2 := bx) iy ix hy hx' ky kx
      fun x y hy hx => diff (hg ⟨x, y, _⟩ ⟨hx, hy, gz.2⟩) (hg ⟨x, y, _⟩ ⟨hx, hy, gz.1⟩)

/-- The chain rule does not enlarge errors by more than a factor of six. -/
theorem pullback_move {B : Aff ℝ} (hB : RowSmall B.rx ∧ RowSmall B.ry ∧ RowSmall B.rz) {G H : V3 ℝ} {e : ℝ}
    (h : Within e G H) : Within (6 * e) (pullback B G) (pullback B H) := by
  obtain ⟨⟨a1, a2, a3⟩, ⟨b1, b2, b3⟩, c1, c2, c3⟩ := hB
  obtain ⟨h1, h2, h3⟩ := h
  have row : ∀ {a b c : ℝ}, |a| ≤ 2 → |b| ≤ 2 → |c| ≤ 2 →
      |a * G.x + b * G.y + c * G.z - (a * H.x + b * H.y + c * H.z)| ≤ 6 * e := by
    intro a b c ha hb hc
    have p1 := mul_le_two ha h1
    have p2 := mul_le_two hb h2
    have p3 := mul_le_two hc h3
    have e : a * G.x + b * G.y + c * G.z - (a * H.x + b * H.y + c * H.z) =
        a * (G.x - H.x) + b * (G.y - H.y) + c * (G.z - H.z) := by ring
    rw [e]
    have q1 := abs_add_le (a * (G.x - H.x) + b * (G.y - H.y)) (c * (G.z - H.z))
    have q2 := abs_add_le (a * (G.x - H.x)) (b * (G.y - H.y))
    linarith
  exact ⟨row a1 b1 c1, row a2 b2 c2, row a3 b3 c3⟩

/-! ## The slopes of the piece in use, exactly -/

/-- The slopes of the piece in use at a grid-frame location. -/
noncomputable def slopeAt (t : MSdf ℝ) (q : V3 ℝ) : V3 ℝ :=
  slopeOf t q (lowerCell t.grid.dims.nx (q.x / t.res), upperCell t.grid.dims.nx (q.x / t.res))
    (lowerCell t.grid.dims.ny (q.y / t.res), upperCell t.grid.dims.ny (q.y / t.res))
    (lowerCell t.grid.dims.nz (q.z / t.res), upperCell t.grid.dims.nz (q.z / t.res))

theorem adj_closer (t : MSdf ℝ) (i : Idx) : halfCellCloser t.res (t.grid.get i) = adj t i := by
  unfold halfCellCloser adj
  simp only [ge_iff_le]
  split_ifs <;> ring

theorem dual_slope {t : MSdf ℝ} (hr : 0 < t.res) (Q : V3 (Dual ℝ)) (g : Int → Int → Int → ℝ) (a b c : Int × Int) :
    (MSdf.trilinear Dual.const t (t.center ⟨a.1, b.1, c.1⟩) Q (g a.1 b.1 c.1) (g a.1 b.1 c.2) (g a.1 b.2 c.1)
      (g a.1 b.2 c.2) (g a.2 b.1 c.1) (g a.2 b.1 c.2) (g a.2 b.2 c.1) (g a.2 b.2 c.2)).d =
    pullback ⟨Q.x.d, Q.y.d, Q.z.d, ⟨0, 0, 0⟩⟩ (pieceSlope t.res ⟨Q.x.val, Q.y.val, Q.z.val⟩ g a b c) := by
  unfold MSdf.trilinear MSdf.bilinearXY MSdf.bilinear MSdf.center pullback pieceSlope blend
  beta_reduce
  generalize g a.1 b.1 c.1 = g1
  generalize g a.1 b.1 c.2 = g2
  generalize g a.1 b.2 c.1 = g3
  generalize g a.1 b.2 c.2 = g4
  generalize g a.2 b.1 c.1 = g5
  generalize g a.2 b.1 c.2 = g6
  generalize g a.2 b.2 c.1 = g7
  generalize g a.2 b.2 c.2 = g8
  have h0 := hr.ne'
  have lo : ∀ v l : ℝ, v - l * t.res = (v / t.res - l) * t.res := by intro v l; field_simp
  have up : ∀ v l : ℝ, l * t.res + t.res - v = (1 - (v / t.res - l)) * t.res := by intro v l; field_simp; ring
  ext <;> simp only [Dual.add_d, Dual.sub_d, Dual.mul_d, Dual.add_val, Dual.sub_val, Dual.mul_val, Dual.const,
    add_sub_cancel_left] <;> simp only [lo, up]
  all_goals
    generalize Q.x.val / t.res - ((a.1 : ℝ) + 1 / 2) = X
    generalize Q.y.val / t.res - ((b.1 : ℝ) + 1 / 2) = Y
    generalize Q.z.val / t.res - ((c.1 : ℝ) + 1 / 2) = Z
    generalize t.res = r at *
    field_simp
    ring

/-- Grid-frame locations whose coordinates are all at least those of `q`. -/
def ahead (q : V3 ℝ) : Set (ℝ × ℝ × ℝ) := {r | q.x ≤ r.1 ∧ q.y ≤ r.2.1 ∧ q.z ≤ r.2.2}

/-- The corners and weights of the interpolant, with the names of this file. -/
theorem interpAt_piece {t : MSdf ℝ} (hr : 0 < t.res) (q : V3 ℝ) {lx ly lz : Int}
    (ex : lowerCell t.grid.dims.nx (q.x / t.res) = lx) (ey : lowerCell t.grid.dims.ny (q.y / t.res) = ly)
    (ez : lowerCell t.grid.dims.nz (q.z / t.res) = lz) {ux uy uz : Int}
    (fx : upperCell t.grid.dims.nx (q.x / t.res) = ux) (fy : upperCell t.grid.dims.ny (q.y / t.res) = uy)
    (fz : upperCell t.grid.dims.nz (q.z / t.res) = uz) :
    interpAt t q = MSdf.trilinear id t (t.center ⟨lx, ly, lz⟩) q (adj t ⟨lx, ly, lz⟩) (adj t ⟨lx, ly, uz⟩)
      (adj t ⟨lx, uy, lz⟩) (adj t ⟨lx, uy, uz⟩) (adj t ⟨ux, ly, lz⟩) (adj t ⟨ux, ly, uz⟩) (adj t ⟨ux, uy, lz⟩)
      (adj t ⟨ux, uy, uz⟩) := by
  subst ex ey ez fx fy fz
  unfold interpAt
  have := trilinear_eq t hr.ne' ⟨lowerCell t.grid.dims.nx (q.x / t.res),
    lowerCell t.grid.dims.ny (q.y / t.res), lowerCell t.grid.dims.nz (q.z / t.res)⟩ q (cornerVal t q)
  simp only [cornerVal, pick, if_true, Bool.false_eq_true, if_false, adj_closer] at this
  rw [this]
  unfold cornerWeight cornerVal
  simp only [adj_closer]

/-- The slopes of the piece in use are the derivative of the interpolant towards increasing coordinates. -/
theorem slopeAt_forward {t : MSdf ℝ} (hr : 0 < t.res) (q : V3 ℝ) :
    HasFDerivWithinAt (fun r : ℝ × ℝ × ℝ => interpAt t ⟨r.1, r.2.1, r.2.2⟩) (linForm (slopeAt t q)) (ahead q)
      q.triple := by
  have T := (Tracks.trilinear (S := ahead q) (q := q.triple) t (t.center
          ⟨lowerCell t.grid.dims.nx (q.x / t.res), lowerCell t.grid.dims.ny (q.y / t.res),
            lowerCell t.grid.dims.nz (q.z / t.res)⟩) (f := fun r => ⟨r.1, r.2.1, r.2.2⟩) (Tracks.proj q.triple)
    (adj t ⟨lowerCell t.grid.dims.nx (q.x / t.res), lowerCell t.grid.dims.ny (q.y / t.res),
      lowerCell t.grid.dims.nz (q.z / t.res)⟩)
    (adj t ⟨lowerCell t.grid.dims.nx (q.x / t.res), lowerCell t.grid.dims.ny (q.y / t.res),
      upperCell t.grid.dims.nz (q.z / t.res)⟩)
    (adj t ⟨lowerCell t.grid.dims.nx (q.x / t.res), upperCell t.grid.dims.ny (q.y / t.res),
      lowerCell t.grid.dims.nz (q.z / t.res)⟩)
    (adj t ⟨lowerCell t.grid.dims.nx (q.x / t.res), upperCell t.grid.dims.ny (q.y / t.res),
      upperCell t.grid.dims.nz (q.z / t.res)⟩)
    (adj t ⟨upperCell t.grid.dims.nx (q.x / t.res), lowerCell t.grid.dims.ny (q.y / t.res),
      lowerCell t.grid.dims.nz (q.z / t.res)⟩)
    (adj t ⟨upperCell t.grid.dims.nx (q.x / t.res), lowerCell t.grid.dims.ny (q.y / t.res),
      upperCell t.grid.dims.nz (q.z / t.res)⟩)
    (adj t ⟨upperCell t.grid.dims.nx (q.x / t.res), upperCell t.grid.dims.ny (q.y / t.res),
      lowerCell t.grid.dims.nz (q.z / t.res)⟩)
    (adj t ⟨upperCell t.grid.dims.nx (q.x / t.res), upperCell t.grid.dims.ny (q.y / t.res),
      upperCell t.grid.dims.nz (q.z / t.res)⟩)).2
  have e := dual_slope hr (MSdf.seedDual ⟨q.triple.1, q.triple.2.1, q.triple.2.2⟩) (fun x y z => adj t ⟨x, y, z⟩)
    (lowerCell t.grid.dims.nx (q.x / t.res), upperCell t.grid.dims.nx (q.x / t.res))
    (lowerCell t.grid.dims.ny (q.y / t.res), upperCell t.grid.dims.ny (q.y / t.res))
    (lowerCell t.grid.dims.nz (q.z / t.res), upperCell t.grid.dims.nz (q.z / t.res))
  dsimp only at e
  rw [e] at T
  have e' : ∀ G : V3 ℝ, pullback ⟨(MSdf.seedDual ⟨q.triple.1, q.triple.2.1, q.triple.2.2⟩).x.d,
      (MSdf.seedDual ⟨q.triple.1, q.triple.2.1, q.triple.2.2⟩).y.d,
      (MSdf.seedDual ⟨q.triple.1, q.triple.2.1, q.triple.2.2⟩).z.d, ⟨0, 0, 0⟩⟩ G = G := by
    intro G
    ext <;> simp [pullback, MSdf.seedDual]
  rw [e'] at T
  refine HasFDerivWithinAt.congr_of_eventuallyEq T ?_ ?_
  · have tends : ∀ {c : ℝ × ℝ × ℝ → ℝ}, Continuous c → (∀ r ∈ ahead q, c q.triple ≤ c r) →
        Tendsto (fun r => c r / t.res) (𝓝[ahead q] q.triple) (𝓝[≥] (c q.triple / t.res)) := by
      intro c hc hle
      refine tendsto_nhdsWithin_iff.mpr
        ⟨(hc.div_const t.res).continuousAt.tendsto.mono_left nhdsWithin_le_nhds, ?_⟩
      filter_upwards [self_mem_nhdsWithin] with r hr'
      exact div_le_div_of_nonneg_right (hle r hr') hr.le
    have tx := tends continuous_fst (fun r h => h.1)
    have ty := tends (continuous_fst.comp continuous_snd) (fun r h => h.2.1)
    have tz := tends (continuous_snd.comp continuous_snd) (fun r h => h.2.2)
    filter_upwards [tx.eventually (lowerCell_right t.grid.dims.nx _),
      ty.eventually (lowerCell_right t.grid.dims.ny _), tz.eventually (lowerCell_right t.grid.dims.nz _)] with r h1 h2 h3
    have u : ∀ {n : ℕ} {a b : ℝ}, lowerCell n a = lowerCell n b → upperCell n a = upperCell n b := by
      intro n a b h; unfold upperCell; rw [h]
    exact interpAt_piece hr ⟨r.1, r.2.1, r.2.2⟩ h1 h2 h3 (u h1) (u h2) (u h3)
  · exact interpAt_piece hr q rfl rfl rfl rfl rfl rfl

/-- The gradient in exact arithmetic, with the names of this file. -/
theorem autoDiff_exact {t : MSdf ℝ} (hr : 0 < t.res) {p : V3 ℝ} (hp : InBounds t.grid.dims (t.locIdx p)) :
    t.autoDiffGradient p = some [(pullback t.inv (slopeAt t (t.toGrid p))).x,
      (pullback t.inv (slopeAt t (t.toGrid p))).y, (pullback t.inv (slopeAt t (t.toGrid p))).z] := by
  have hd := estGrid_dual_gen t hr p hp
  unfold MSdf.autoDiffGradient
  rw [if_pos (inB_iff_spec.mpr hp), hd]
  have e := dual_slope hr (t.inv.app Dual.const (MSdf.seedDual p)) (fun x y z => adj t ⟨x, y, z⟩)
    (lowerCell t.grid.dims.nx ((t.toGrid p).x / t.res), upperCell t.grid.dims.nx ((t.toGrid p).x / t.res))
    (lowerCell t.grid.dims.ny ((t.toGrid p).y / t.res), upperCell t.grid.dims.ny ((t.toGrid p).y / t.res))
    (lowerCell t.grid.dims.nz ((t.toGrid p).z / t.res), upperCell t.grid.dims.nz ((t.toGrid p).z / t.res))
  dsimp only at e
  simp only [cornerVal, pick, if_true, Bool.false_eq_true, if_false, adj_closer, Option.map_some]
  rw [e]
  have v : (⟨(t.inv.app Dual.const (MSdf.seedDual p)).x.val, (t.inv.app Dual.const (MSdf.seedDual p)).y.val,
      (t.inv.app Dual.const (MSdf.seedDual p)).z.val⟩ : V3 ℝ) = t.toGrid p := by
    ext <;> simp [Aff.app, MSdf.toGrid, MSdf.seedDual, Dual.const, Dual.add_val, Dual.mul_val]
  rw [v]
  have d : ∀ G : V3 ℝ, pullback ⟨(t.inv.app Dual.const (MSdf.seedDual p)).x.d,
      (t.inv.app Dual.const (MSdf.seedDual p)).y.d, (t.inv.app Dual.const (MSdf.seedDual p)).z.d, ⟨0, 0, 0⟩⟩ G =
      pullback t.inv G := by
    intro G
    ext <;> simp [pullback, Aff.app, MSdf.seedDual, Dual.const, Dual.add_d, Dual.mul_d]
  rw [d]
  rfl

/-! ## The transform of the location and its derivatives -/

/-- The entries of a row are numbers that `double` can hold. -/
def DoubleRow (r : V3 ℝ) : Prop :=
  ieee.r64 (r.x : EReal) = (r.x : EReal) ∧ ieee.r64 (r.y : EReal) = (r.y : EReal) ∧ ieee.r64 (r.z : EReal) = (r.z : EReal)

/-- `f` evaluates the product of the matrix `A` and a location seeded with unit derivatives: the location as in
`Accurate`, the derivatives without error. -/
def DualAccurate (f : V3 FDual → V3 FDual) (A : Aff ℝ) : Prop :=
  ∀ (v : V3 ℝ) (M : ℝ), Reach A v M → M ≤ 2 ^ 200 →
    ∃ w, f (FDual.seed (loc v)) = lift A w ∧ Within (M / 2 ^ 50 + 1 / 2 ^ 200) w (A.app id v)

theorem add_coe {x y z : ℝ} (h : x + y = z) (hz : ieee.r64 (z : EReal) = (z : EReal)) :
    Fl.add ieee (real x) (real y) = real z := by
  rw [add_real, h, hz]; rfl

theorem mul_coe {x y z : ℝ} (h : x * y = z) (hz : ieee.r64 (z : EReal) = (z : EReal)) :
    Fl.mul ieee (real x) (real y) = real z := by
  rw [mul_real, h, hz]; rfl

theorem rowApp_seed {r v : V3 ℝ} {t : ℝ} (hr : DoubleRow r) :
    FDual.rowApp ieee r t (FDual.seed (loc v)) = ⟨FSdf.rowApp ieee r t (loc v), loc r⟩ := by
  obtain ⟨hx, hy, hz⟩ := hr
  have z0 := r64_coe_zero ieee
  unfold FDual.rowApp FDual.add FDual.scale FDual.seed FDual.const FSdf.rowApp loc
  dsimp only
  simp only [zero_mul_coe, mul_coe (one_mul r.x) hx, mul_coe (one_mul r.y) hy, mul_coe (one_mul r.z) hz,
    add_coe (add_zero (0 : ℝ)) z0, add_coe (add_zero r.x) hx, add_coe (add_zero r.y) hy, add_coe (zero_add r.y) hy,
    add_coe (zero_add r.z) hz, add_coe (add_zero r.z) hz]
  simp only [mul_real, mul_comm v.x, mul_comm v.y, mul_comm v.z, mul_comm (1 : ℝ) t]

/-- The product added in pairs. -/
theorem pairs_near (r v : V3 ℝ) (t : ℝ) {M : ℝ} (hM : |r.x * v.x| + |r.y * v.y| + |r.z * v.z| + |t| ≤ M)
    (hM' : M ≤ 2 ^ 200) (hr : DoubleRow r) :
    ∃ w, FDual.rowPairs ieee r t (FDual.seed (loc v)) = ⟨real w, loc r⟩ ∧
      |w - (r.x * v.x + r.y * v.y + r.z * v.z + t)| ≤ M / 2 ^ 50 + 1 / 2 ^ 200 := by
  obtain ⟨hx', hy', hz'⟩ := hr
  have z0 := r64_coe_zero ieee
  generalize hmx : r.x * v.x = mx at hM ⊢
  generalize hmy : r.y * v.y = my at hM ⊢
  generalize hmz : r.z * v.z = mz at hM ⊢
  have ax := abs_nonneg mx
  have ay := abs_nonneg my
  have az := abs_nonneg mz
  have at' := abs_nonneg t
  obtain ⟨x, ex, hx⟩ := round_200 (z := mx) (by linarith)
  obtain ⟨y, ey, hy⟩ := round_200 (z := my) (by linarith)
  obtain ⟨z, ez, hz⟩ := round_200 (z := mz) (by linarith)
  obtain ⟨s, es, hs⟩ := round_200 (z := t) (by linarith)
  have tri : ∀ {a b : ℝ}, |a| ≤ |a - b| + |b| := by
    intro a b; have := abs_add_le (a - b) b; rwa [sub_add_cancel] at this
  have bx := tri (a := x) (b := mx)
  have bY := tri (a := y) (b := my)
  have bz := tri (a := z) (b := mz)
  have bs := tri (a := s) (b := t)
  have bxy := abs_add_le x y
  have bzs := abs_add_le z s
  obtain ⟨c, ec, hc⟩ := round_200 (z := x + y) (by linarith)
  have bc := tri (a := c) (b := x + y)
  obtain ⟨d, ed, hd⟩ := round_200 (z := z + s) (by linarith)
  have bd := tri (a := d) (b := z + s)
  have bcd := abs_add_le c d
  obtain ⟨e, ee, he⟩ := round_200 (z := c + d) (by linarith)
  refine ⟨e, ?_, ?_⟩
  · unfold FDual.rowPairs FDual.add FDual.scale FDual.seed FDual.const loc
    dsimp only
    simp only [zero_mul_coe, mul_coe (one_mul r.x) hx', mul_coe (one_mul r.y) hy', mul_coe (one_mul r.z) hz',
      add_coe (add_zero (0 : ℝ)) z0, add_coe (add_zero r.x) hx', add_coe (add_zero r.y) hy',
      add_coe (zero_add r.y) hy', add_coe (zero_add r.z) hz', add_coe (add_zero r.z) hz']
    simp only [mul_real, mul_comm v.x, mul_comm v.y, mul_comm v.z, one_mul, hmx, hmy, hmz]
    rw [ex, ey, ez, es, add_real, ec, add_real, ed, add_real, ee]
  · have split : e - (mx + my + mz + t) = (e - (c + d)) + (d - (z + s)) + (c - (x + y)) + (x - mx) + (y - my) +
        (z - mz) + (s - t) := by ring
    rw [split]
    have a1 := abs_add_le ((e - (c + d)) + (d - (z + s)) + (c - (x + y)) + (x - mx) + (y - my) + (z - mz)) (s - t)
    have a2 := abs_add_le ((e - (c + d)) + (d - (z + s)) + (c - (x + y)) + (x - mx) + (y - my)) (z - mz)
    have a3 := abs_add_le ((e - (c + d)) + (d - (z + s)) + (c - (x + y)) + (x - mx)) (y - my)
    have a4 := abs_add_le ((e - (c + d)) + (d - (z + s)) + (c - (x + y))) (x - mx)
    have a5 := abs_add_le ((e - (c + d)) + (d - (z + s))) (c - (x + y))
    have a6 := abs_add_le (e - (c + d)) (d - (z + s))
    linarith

/-- C113: the product of the stored inverse transform and the seeded location is accurate, for both orders of the
additions: the rows of the matrix arrive as the derivatives of the grid-frame coordinates. -/
theorem C113_product {A : Aff ℝ} (hx : DoubleRow A.rx) (hy : DoubleRow A.ry) (hz : DoubleRow A.rz) :
    DualAccurate (FDual.affApp (FDual.rowApp ieee) A) A ∧ DualAccurate (FDual.affApp (FDual.rowPairs ieee) A) A := by
  constructor
  · intro v M hv hM
    obtain ⟨w, ew, hw⟩ := C112_product A v M hv hM
    refine ⟨w, ?_, hw⟩
    unfold FDual.affApp
    rw [rowApp_seed hx, rowApp_seed hy, rowApp_seed hz]
    unfold FSdf.affApp loc at ew
    injection ew with e1 e2 e3
    unfold lift
    rw [← e1, ← e2, ← e3]
    rfl
  · intro v M hv hM
    obtain ⟨x, ex, bx⟩ := pairs_near A.rx v A.t.x hv.1 hM hx
    obtain ⟨y, ey, bY⟩ := pairs_near A.ry v A.t.y hv.2.1 hM hy
    obtain ⟨z, ez, bz⟩ := pairs_near A.rz v A.t.z hv.2.2 hM hz
    refine ⟨⟨x, y, z⟩, ?_, bx, bY, bz⟩
    unfold FDual.affApp lift
    rw [ex, ey, ez]

/-! ## C113 -/

theorem adj_bound {t : MSdf ℝ} (hr : 0 < t.res) {D : ℝ} {i : Idx} (h : |t.grid.get i| ≤ D) :
    |adj t i| ≤ D + t.res / 2 := by
  unfold adj
  rw [abs_le] at *
  split_ifs with h0 <;> constructor <;> linarith [h.1, h.2]

/-- The gradient from a computed grid-frame location `q` and a computed cell `i`, against the slopes at any location
`g` near `q` whose piece is that of `q'`, the location that stands for the computed choice of cells. -/
theorem gradient_near {s : FSdf} {t : MSdf ℝ} (h : Stores s t) {N : ℕ} (hN : N ≤ 2 ^ 20)
    (hdim : t.grid.dims.nx ≤ N ∧ t.grid.dims.ny ≤ N ∧ t.grid.dims.nz ≤ N)
    (hlo : 1 / 2 ^ 100 ≤ t.res) (hhi : t.res ≤ 2 ^ 100) {D : ℝ} (hD : D ≤ 2 ^ 150)
    (hv : ∀ i, InBounds t.grid.dims i → |t.grid.get i| ≤ D) {B : Aff ℝ}
    (hB : RowSmall B.rx ∧ RowSmall B.ry ∧ RowSmall B.rz)
    {toGrid : V3 FDual → V3 FDual} {locIdx : V3 FVal → Idx} {p : V3 FVal} {q : V3 ℝ} {i : Idx}
    (hi : InBounds t.grid.dims i) (hloc : locIdx p = i) (hq : toGrid (FDual.seed p) = lift B q)
    (hx : |q.x - ((i.x : ℝ) + 1 / 2) * t.res| ≤ 3 / 4 * t.res)
    (hy : |q.y - ((i.y : ℝ) + 1 / 2) * t.res| ≤ 3 / 4 * t.res)
    (hz : |q.z - ((i.z : ℝ) + 1 / 2) * t.res| ≤ 3 / 4 * t.res) :
    ∃ q' y : V3 ℝ, s.autoDiffGradient ieee toGrid locIdx p = some [real y.x, real y.y, real y.z] ∧
      Within (N / 2 ^ 50 * t.res) q q' ∧
      ∀ (g : V3 ℝ) (κ : ℝ), κ ≤ 1 / 4 → Within (κ * t.res) q g →
        lowerCell t.grid.dims.nx (g.x / t.res) = lowerCell t.grid.dims.nx (q'.x / t.res) →
        lowerCell t.grid.dims.ny (g.y / t.res) = lowerCell t.grid.dims.ny (q'.y / t.res) →
        lowerCell t.grid.dims.nz (g.z / t.res) = lowerCell t.grid.dims.nz (q'.z / t.res) →
        Within ((6312 * (N / 2 ^ 52) + 144 * κ) * ((D + t.res / 2) / t.res)) y (pullback B (slopeAt t g)) := by
  have r0 : 0 < t.res := lt_of_lt_of_le (by positivity) hlo
  obtain ⟨ix, iy, iz⟩ := id hi
  have hN1 : 1 ≤ N := by omega
  have hNr : (N : ℝ) ≤ 2 ^ 20 := by exact_mod_cast hN
  have hN1r : (1 : ℝ) ≤ N := by exact_mod_cast hN1
  obtain ⟨bx, bY, bz, -, sx, sy, sz, a, y, ea, ed, hyy⟩ := estGridD_ap h hN hdim hlo hhi hD hv hB hi
    (q := q) (by linarith) (by linarith) (by linarith)
  have δ0 : (0 : ℝ) < N / 2 ^ 51 := by positivity
  have δ1 : (N : ℝ) / 2 ^ 51 < 1 := by linarith
  obtain ⟨x', dx, -, ax⟩ := axis_pick r0 ix.1 ix.2 (lt_of_le_of_lt hx (by linarith)) δ0 δ1 sx
  obtain ⟨y', dy, -, ay⟩ := axis_pick r0 iy.1 iy.2 (lt_of_le_of_lt hy (by linarith)) δ0 δ1 sy
  obtain ⟨z', dz, -, az⟩ := axis_pick r0 iz.1 iz.2 (lt_of_le_of_lt hz (by linarith)) δ0 δ1 sz
  have e50 : 2 * ((N : ℝ) / 2 ^ 51) * t.res = N / 2 ^ 50 * t.res := by ring
  rw [e50, abs_sub_comm] at dx dy dz
  refine ⟨⟨x', y', z'⟩, y, ?_, ⟨dx, dy, dz⟩, ?_⟩
  · unfold autoDiffGradient
    rw [h.1, hloc, if_pos (inB_iff_spec.mpr hi), hq, ea, Option.map_some, ed]
    rfl
  intro g κ hκ hg ex ey ez
  obtain ⟨gx, gy, gz⟩ := hg
  have cells : ∀ {u v : ℝ}, |u - v| ≤ κ * t.res → |u / t.res - v / t.res| ≤ κ := by
    intro u v h
    rw [← sub_div, abs_div, abs_of_pos r0, div_le_iff₀ r0]
    exact h
  have near : ∀ {u : ℝ} {j : Int}, |u - ((j : ℝ) + 1 / 2) * t.res| ≤ 3 / 4 * t.res →
      |u / t.res - ((j : ℝ) + 1 / 2)| ≤ 3 / 4 := by
    intro u j h
    have e : u - ((j : ℝ) + 1 / 2) * t.res = (u / t.res - ((j : ℝ) + 1 / 2)) * t.res := by field_simp
    rw [e, abs_mul, abs_of_pos r0] at h
    exact le_of_mul_le_mul_right h r0
  have near' : ∀ {u v : ℝ} {j : Int}, |u - ((j : ℝ) + 1 / 2) * t.res| ≤ 3 / 4 * t.res → |u - v| ≤ κ * t.res →
      |v / t.res - ((j : ℝ) + 1 / 2)| ≤ 1 := by
    intro u v j h1 h2
    have := abs_sub_le (v / t.res) (u / t.res) ((j : ℝ) + 1 / 2)
    rw [abs_sub_comm (v / t.res) (u / t.res)] at this
    linarith [cells h2, near h1]
  have up : ∀ {n : ℕ} {u v : ℝ}, lowerCell n u = lowerCell n v → upperCell n u = upperCell n v := by
    intro n u v h; unfold upperCell; rw [h]
  have mv := slope_move (t := t) r0 hi (V := D + t.res / 2) (fun j hj => adj_bound r0 (hv j hj)) (q := q) (q' := g)
    (bx := bx) (bY := bY) (bz := bz) ((near hx).trans (by norm_num)) ((near hy).trans (by norm_num)) (near' hy gy)
    (near' hx gx) ((near hz).trans (by norm_num)) (cells gx) (cells gy) (cells gz)
  have pm := pullback_move hB mv
  have es : slopeAt t g = slopeOf t g (axisIdx i.x t.grid.dims.nx bx) (axisIdx i.y t.grid.dims.ny bY)
      (axisIdx i.z t.grid.dims.nz bz) := by
    unfold slopeAt
    rw [ax, ay, az, ex, ey, ez, up ex, up ey, up ez]
  rw [es]
  generalize (D + t.res / 2) / t.res = W at *
  have tri : ∀ {u v w : ℝ}, |u - v| ≤ 6312 * (N / 2 ^ 52) * W → |v - w| ≤ 6 * (24 * κ * W) →
      |u - w| ≤ (6312 * (N / 2 ^ 52) + 144 * κ) * W := by
    intro u v w h1 h2
    refine (abs_sub_le u v w).trans ((add_le_add h1 h2).trans (le_of_eq ?_))
    ring
  exact ⟨tri hyy.1 pm.1, tri hyy.2.1 pm.2.1, tri hyy.2.2 pm.2.2⟩

/-- The computed grid-frame location and its derivatives. -/
theorem lift_near {f : V3 FDual → V3 FDual} {A : Aff ℝ} (hf : DualAccurate f A) {res M : ℝ} (hlo : 1 / 2 ^ 100 ≤ res)
    (hhi : res ≤ 2 ^ 100) (hM : 1 ≤ M) (hM' : M ≤ 2 ^ 39) {p : V3 ℝ} (hp : Reach A p (M * res)) :
    ∃ q, f (FDual.seed (loc p)) = lift A q ∧ Within (M * res / 2 ^ 49) q (A.app id p) := by
  have r0 : 0 < res := lt_of_lt_of_le (by positivity) hlo
  obtain ⟨q, eq, hq⟩ := hf p (M * res) hp (by
    calc M * res ≤ 2 ^ 39 * 2 ^ 100 := by gcongr
      _ ≤ 2 ^ 200 := by norm_num)
  have hle : M * res / 2 ^ 50 + 1 / 2 ^ 200 ≤ M * res / 2 ^ 49 := by
    have : res ≤ M * res := by nlinarith
    linarith
  exact ⟨q, eq, hq.1.trans hle, hq.2.1.trans hle, hq.2.2.trans hle⟩

/-- The coordinate `g` (in cells) is further than `m` from the centres of the inner cells of its axis. -/
def OffCentres (n : ℕ) (m g : ℝ) : Prop := ∀ k : Int, 1 ≤ k → k + 2 ≤ n → m < |g - ((k : ℝ) + 1 / 2)|

theorem lowerCell_off {n : ℕ} {m g u : ℝ} (h : OffCentres n m g) (h0 : 0 < g) (h1 : g < n) (hm : m ≤ 1 / 2)
    (hu : |u - g| ≤ m) : lowerCell n u = lowerCell n g := by
  have a1 := Int.floor_le (g - 1 / 2)
  have a2 := Int.lt_floor_add_one (g - 1 / 2)
  have b1 := Int.floor_le (u - 1 / 2)
  have b2 := Int.lt_floor_add_one (u - 1 / 2)
  have n1 : -1 ≤ ⌊g - 1 / 2⌋ := Int.le_floor.mpr (by push_cast; linarith)
  have n2 : ⌊g - 1 / 2⌋ < n := Int.floor_lt.mpr (by push_cast; linarith)
  rw [abs_le] at hu
  unfold lowerCell
  rcases lt_trichotomy ⌊u - 1 / 2⌋ ⌊g - 1 / 2⌋ with hlt | heq | hgt
  · -- the location has moved down across the centre of cell `⌊g - 1/2⌋`
    by_cases hk : 1 ≤ ⌊g - 1 / 2⌋ ∧ ⌊g - 1 / 2⌋ + 2 ≤ n
    · exfalso
      have := h _ hk.1 hk.2
      have c : (⌊u - 1 / 2⌋ : ℝ) + 1 ≤ ⌊g - 1 / 2⌋ := by exact_mod_cast hlt
      rw [abs_of_nonneg (by linarith)] at this
      linarith
    · have d : ⌊g - 1 / 2⌋ - 1 ≤ ⌊u - 1 / 2⌋ := Int.le_floor.mpr (by push_cast; linarith)
      omega
  · rw [heq]
  · by_cases hk : 1 ≤ ⌊g - 1 / 2⌋ + 1 ∧ ⌊g - 1 / 2⌋ + 1 + 2 ≤ n
    · exfalso
      have := h _ hk.1 hk.2
      have c : (⌊g - 1 / 2⌋ : ℝ) + 1 ≤ ⌊u - 1 / 2⌋ := by exact_mod_cast hgt
      push_cast at this
      rw [abs_of_nonpos (by linarith)] at this
      linarith
    · have d : ⌊u - 1 / 2⌋ ≤ ⌊g - 1 / 2⌋ + 1 := by
        have : ⌊u - 1 / 2⌋ < ⌊g - 1 / 2⌋ + 2 := Int.floor_lt.mpr (by push_cast; linarith)
        omega
      omega

/-- C113: `GetAutoDiffGradient` in IEEE arithmetic, for a grid with any pose, at any location inside the volume that is
not closer to a face than rounding can see.  The result is three numbers: up to rounding, the gradient (towards
increasing grid coordinates) of the exact interpolant at a location `q'` that differs from the query by at most the
rounding of the grid-frame coordinates.  `M` is the distance of the query and of the grid's origin, in cells. -/
theorem C113_gradient_partial {s : FSdf} {t : MSdf ℝ} (h : Stores s t) {N : ℕ} (hN : N ≤ 2 ^ 20)
    (hdim : t.grid.dims.nx ≤ N ∧ t.grid.dims.ny ≤ N ∧ t.grid.dims.nz ≤ N)
    (hlo : 1 / 2 ^ 100 ≤ t.res) (hhi : t.res ≤ 2 ^ 100) {D : ℝ} (hD : D ≤ 2 ^ 150)
    (hv : ∀ i, InBounds t.grid.dims i → |t.grid.get i| ≤ D)
    (hB : RowSmall t.inv.rx ∧ RowSmall t.inv.ry ∧ RowSmall t.inv.rz)
    {toGrid : V3 FDual → V3 FDual} {toGrid' : V3 FVal → V3 FVal} (ha : DualAccurate toGrid t.inv)
    (ha' : Accurate toGrid' t.inv) {cell : FVal → Int} (hl : LookupOk cell t.res) {p : V3 ℝ} {M : ℝ} (hM : 1 ≤ M)
    (hM' : M ≤ 2 ^ 39) (hp : Reach t.inv p (M * t.res))
    (hf : ∀ f ∈ faces t.size (t.toGrid p), (M + N) * t.res / 2 ^ 48 < f) :
    ∃ q' G y : V3 ℝ,
      s.autoDiffGradient ieee toGrid (fun p => byAxis cell (toGrid' p)) (loc p) = some [real y.x, real y.y, real y.z] ∧
      Within ((M + N) * t.res / 2 ^ 49) (t.toGrid p) q' ∧
      HasFDerivWithinAt (fun r : ℝ × ℝ × ℝ => interpAt t ⟨r.1, r.2.1, r.2.2⟩) (linForm G) (ahead q') q'.triple ∧
      Within (N / 2 ^ 39 * ((D + t.res / 2) / t.res)) y (pullback t.inv G) ∧
      (OffCentres t.grid.dims.nx ((M + N) / 2 ^ 49) ((t.toGrid p).x / t.res) →
        OffCentres t.grid.dims.ny ((M + N) / 2 ^ 49) ((t.toGrid p).y / t.res) →
        OffCentres t.grid.dims.nz ((M + N) / 2 ^ 49) ((t.toGrid p).z / t.res) →
        ∃ g : V3 ℝ, HasFDerivAt (estimatedDistance t) (linForm g) p.triple ∧
          Within ((M / 2 ^ 41 + N / 2 ^ 39) * ((D + t.res / 2) / t.res)) y g) := by
  have r0 : 0 < t.res := lt_of_lt_of_le (by positivity) hlo
  obtain ⟨q, eq, qx, qy, qz⟩ := lift_near ha hlo hhi hM hM' hp
  obtain ⟨q₂, eq₂, qx₂, qy₂, qz₂⟩ := grid_near ha' hlo hhi hM hM' hp
  have hg : t.inv.app id p = t.toGrid p := rfl
  rw [hg] at qx qy qz qx₂ qy₂ qz₂
  have el : byAxis cell (toGrid' (loc p)) = ⟨cell (real q₂.x), cell (real q₂.y), cell (real q₂.z)⟩ := by
    rw [eq₂]; rfl
  simp only [faces, List.mem_cons, List.not_mem_nil, or_false, forall_eq_or_imp, forall_eq, MSdf.size] at hf
  obtain ⟨x0, x1, y0, y1, z0, z1⟩ := hf
  have N0 : (0 : ℝ) ≤ N := by positivity
  have hNr : (N : ℝ) ≤ 2 ^ 20 := by exact_mod_cast hN
  have m0 : 0 < (M + N) * t.res / 2 ^ 48 := by positivity
  have D0 : 0 ≤ D := by
    have i1 := cell_inside r0 hl hdim.1 hN hM hM' x0 x1 qx qx₂
    have i2 := cell_inside r0 hl hdim.2.1 hN hM hM' y0 y1 qy qy₂
    have i3 := cell_inside r0 hl hdim.2.2 hN hM hM' z0 z1 qz qz₂
    exact (abs_nonneg _).trans (hv ⟨_, _, _⟩ ⟨i1.1, i2.1, i3.1⟩)
  obtain ⟨ix, cx⟩ := cell_inside r0 hl hdim.1 hN hM hM' x0 x1 qx qx₂
  obtain ⟨iy, cy⟩ := cell_inside r0 hl hdim.2.1 hN hM hM' y0 y1 qy qy₂
  obtain ⟨iz, cz⟩ := cell_inside r0 hl hdim.2.2 hN hM hM' z0 z1 qz qz₂
  obtain ⟨q', y, ey, wq, key⟩ := gradient_near h hN hdim hlo hhi hD hv hB (toGrid := toGrid)
    (locIdx := fun p => byAxis cell (toGrid' p)) (p := loc p)
    (i := ⟨cell (real q₂.x), cell (real q₂.y), cell (real q₂.z)⟩) ⟨ix, iy, iz⟩ el eq cx cy cz
  have W0 : 0 ≤ (D + t.res / 2) / t.res := by positivity
  have le : ∀ {a b : ℝ} {u v : V3 ℝ}, a ≤ b → Within (a * ((D + t.res / 2) / t.res)) u v →
      Within (b * ((D + t.res / 2) / t.res)) u v := by
    intro a b u v hab hw
    have := mul_le_mul_of_nonneg_right hab W0
    exact ⟨hw.1.trans this, hw.2.1.trans this, hw.2.2.trans this⟩
  have tri : ∀ {u v w : ℝ}, |u - v| ≤ M * t.res / 2 ^ 49 → |u - w| ≤ N / 2 ^ 50 * t.res →
      |v - w| ≤ (M + N) * t.res / 2 ^ 49 := by
    intro u v w h1 h2
    have := abs_sub_le v u w
    rw [abs_sub_comm v u] at this
    have e : (M + N) * t.res / 2 ^ 49 = M * t.res / 2 ^ 49 + 2 * (N / 2 ^ 50 * t.res) := by ring
    have : 0 ≤ N / 2 ^ 50 * t.res := by positivity
    linarith
  have tx := tri qx wq.1
  have ty := tri qy wq.2.1
  have tz := tri qz wq.2.2
  refine ⟨q', slopeAt t q', y, ey, ⟨tx, ty, tz⟩, slopeAt_forward r0 q', ?_, ?_⟩
  · refine le ?_ (key q' (N / 2 ^ 50) (by linarith) wq rfl rfl rfl)
    linarith
  · intro ox oy oz
    have inner : ∀ {n : ℕ} {g : ℝ}, (M + N) * t.res / 2 ^ 48 < g → (M + N) * t.res / 2 ^ 48 < n * t.res - g →
        0 < g / t.res ∧ g / t.res < n := by
      intro n g h1 h2
      constructor
      · exact div_pos (by linarith) r0
      · rw [div_lt_iff₀ r0]; linarith
    have gx := inner x0 x1
    have gy := inner y0 y1
    have gz := inner z0 z1
    have mhalf : (M + N) / 2 ^ 49 ≤ 1 / 2 := by linarith
    have cells : ∀ {u v : ℝ}, |u - v| ≤ (M + N) * t.res / 2 ^ 49 → |v / t.res - u / t.res| ≤ (M + N) / 2 ^ 49 := by
      intro u v h
      rw [← sub_div, abs_div, abs_of_pos r0, div_le_iff₀ r0, abs_sub_comm]
      linarith
    have lx := lowerCell_off ox gx.1 gx.2 mhalf (cells tx)
    have ly := lowerCell_off oy gy.1 gy.2 mhalf (cells ty)
    have lz := lowerCell_off oz gz.1 gz.2 mhalf (cells tz)
    have smooth : ∀ {n : ℕ} {g : ℝ}, OffCentres n ((M + N) / 2 ^ 49) g → 0 < g ∧ g < n → Smooth n g := by
      intro n g o hg
      refine ⟨hg.1, hg.2, fun k h1 h2 e => ?_⟩
      have := o k h1 h2
      rw [e, sub_self, abs_zero] at this
      have : 0 < (M + N) / 2 ^ 49 := by positivity
      linarith
    obtain ⟨g, eg, dg⟩ := C72_derivative t r0 p (smooth ox gx) (smooth oy gy) (smooth oz gz)
    refine ⟨g, dg, ?_⟩
    have hp' : InBounds t.grid.dims (t.locIdx p) := by
      by_contra hc
      have := (C72_shape t r0 p).2 hc
      rw [this] at eg
      simp at eg
    rw [autoDiff_exact r0 hp'] at eg
    simp only [Option.some.injEq, List.cons.injEq, and_true] at eg
    obtain ⟨e1, e2, e3⟩ := eg
    have e : g = pullback t.inv (slopeAt t (t.toGrid p)) := by
      ext
      · exact e1.symm
      · exact e2.symm
      · exact e3.symm
    rw [e]
    refine le ?_ (key (t.toGrid p) (M / 2 ^ 49) (by linarith) ?_ lx.symm ly.symm lz.symm)
    · linarith
    · have e : M / 2 ^ 49 * t.res = M * t.res / 2 ^ 49 := by ring
      rw [e]
      exact ⟨qx, qy, qz⟩

/-- C113: a location outside the volume gets the empty result. -/
theorem C113_outside {s : FSdf} {t : MSdf ℝ} (h : Stores s t) {N : ℕ} (hlo : 1 / 2 ^ 100 ≤ t.res)
    (hhi : t.res ≤ 2 ^ 100) (toGrid : V3 FDual → V3 FDual) {toGrid' : V3 FVal → V3 FVal} (ha' : Accurate toGrid' t.inv)
    {cell : FVal → Int} (hl : LookupOk cell t.res) {p : V3 ℝ} {M : ℝ} (hM : 1 ≤ M) (hM' : M ≤ 2 ^ 39)
    (hp : Reach t.inv p (M * t.res)) (hf : ∃ f ∈ faces t.size (t.toGrid p), f < -((M + N) * t.res / 2 ^ 48)) :
    s.autoDiffGradient ieee toGrid (fun p => byAxis cell (toGrid' p)) (loc p) = some [] := by
  have r0 : 0 < t.res := lt_of_lt_of_le (by positivity) hlo
  obtain ⟨q', eq', qx', qy', qz'⟩ := grid_near ha' hlo hhi hM hM' hp
  obtain ⟨mx, my, mz⟩ := app_le_mag t.inv p
  have hg : t.inv.app id p = t.toGrid p := rfl
  rw [hg] at qx' qy' qz' mx my mz
  have el : byAxis cell (toGrid' (loc p)) = ⟨cell (real q'.x), cell (real q'.y), cell (real q'.z)⟩ := by
    rw [eq']; rfl
  simp only [faces, List.mem_cons, List.not_mem_nil, or_false, exists_eq_or_imp, exists_eq_left, MSdf.size] at hf
  have key : ¬ InBounds t.grid.dims (byAxis cell (toGrid' (loc p))) := by
    rw [el]
    rintro ⟨⟨a1, a2⟩, ⟨b1, b2⟩, c1, c2⟩
    dsimp only at a1 a2 b1 b2 c1 c2
    rcases hf with hf | hf | hf | hf | hf | hf
    · have := cell_outside (n := t.grid.dims.nx) r0 hl hM hM' (mx.trans hp.1) (Or.inl hf) qx'; omega
    · have := cell_outside (n := t.grid.dims.nx) r0 hl hM hM' (mx.trans hp.1) (Or.inr hf) qx'; omega
    · have := cell_outside (n := t.grid.dims.ny) r0 hl hM hM' (my.trans hp.2.1) (Or.inl hf) qy'; omega
    · have := cell_outside (n := t.grid.dims.ny) r0 hl hM hM' (my.trans hp.2.1) (Or.inr hf) qy'; omega
    · have := cell_outside (n := t.grid.dims.nz) r0 hl hM hM' (mz.trans hp.2.2) (Or.inl hf) qz'; omega
    · have := cell_outside (n := t.grid.dims.nz) r0 hl hM hM' (mz.trans hp.2.2) (Or.inr hf) qz'; omega
  unfold autoDiffGradient
  rw [h.1, if_neg (fun hb => key (inB_iff_spec.mp hb))]

/-! ## Infinite fields -/

theorem trilinearD_notFinite (R : Rounding) (res : ℝ) (c : V3 FVal) (q : V3 FDual) {v : FVal} (h : NotFinite v) :
    (FDual.trilinear R res c q v v v v v v v v).d = ⟨none, none, none⟩ := by
  have hb : NotFinite (FDual.bilinearXY R res c q v v v v).val := by
    unfold FDual.bilinearXY FDual.bilinear FDual.add FDual.mul FDual.const
    dsimp only
    refine add_notFinite R ?_ _
    rw [mul_comm']
    exact mul_notFinite R _ (add_notFinite R (mul_notFinite R _ h) _)
  unfold FDual.trilinear
  generalize FDual.bilinearXY R res c q v v v v = lo at hb
  simp only [FDual.add, FDual.mul, FDual.scale, FDual.sub, sub_self_notFinite R hb, none_mul, mul_none]
  have n : ∀ a : FVal, Fl.add R none a = none := fun a => by cases a <;> rfl
  simp only [n, add_none]

/-- C113, the failing case: when the cells around the location share an infinite value, the gradient consists of three
NaNs. -/
theorem C113_infinite (R : Rounding) (toGrid : V3 FDual → V3 FDual) (locIdx : V3 FVal → Idx) {s : FSdf}
    {p : V3 FVal} (hp : InBounds s.grid.dims (locIdx p))
    (hall : (∀ j, Reads s.grid.dims (locIdx p) j → s.grid.get j = some ⊤) ∨
      ∀ j, Reads s.grid.dims (locIdx p) j → s.grid.get j = some ⊥) :
    s.autoDiffGradient R toGrid locIdx p = some [none, none, none] := by
  obtain ⟨v, h, hall⟩ : ∃ v, NotFinite v ∧ ∀ j, Reads s.grid.dims (locIdx p) j → s.grid.get j = v := by
    rcases hall with h | h
    · exact ⟨_, Or.inr (Or.inl rfl), h⟩
    · exact ⟨_, Or.inr (Or.inr rfl), h⟩
  unfold autoDiffGradient
  rw [if_pos (inB_iff_spec.mpr hp)]
  generalize locIdx p = i at *
  generalize toGrid (FDual.seed p) = q
  obtain ⟨w, hw, hc⟩ := corrected_notFinite R (s := s) h
  unfold estGridD
  dsimp only
  obtain ⟨⟨x1, x2⟩, ⟨y1, y2⟩, z1, z2⟩ := hp
  generalize geZero (sub R q.x.val (s.center R i).x) = bx
  generalize geZero (sub R q.y.val (s.center R i).y) = by'
  generalize geZero (sub R q.z.val (s.center R i).z) = bz
  have hx := axisIdx_inB ⟨x1, x2⟩ bx
  have hy := axisIdx_inB ⟨y1, y2⟩ by'
  have hz := axisIdx_inB ⟨z1, z2⟩ bz
  have nx := axisIdx_near i.x s.grid.dims.nx bx
  have ny := axisIdx_near i.y s.grid.dims.ny by'
  have nz := axisIdx_near i.z s.grid.dims.nz bz
  have hr : ∀ a b c, (0 ≤ a ∧ a < (s.grid.dims.nx : Int)) → (0 ≤ b ∧ b < (s.grid.dims.ny : Int)) →
      (0 ≤ c ∧ c < (s.grid.dims.nz : Int)) → |a - i.x| ≤ 1 → |b - i.y| ≤ 1 → |c - i.z| ≤ 1 →
      s.corrected R ⟨a, b, c⟩ = some w := by
    intro a b c ha hb hc' h1 h2 h3
    have hin : InBounds s.grid.dims ⟨a, b, c⟩ := ⟨ha, hb, hc'⟩
    exact hc _ hin (hall _ ⟨hin, h1, h2, h3⟩)
  rw [hr _ _ _ hx.1 hy.1 hz.1 nx.1 ny.1 nz.1, hr _ _ _ hx.1 hy.1 hz.2 nx.1 ny.1 nz.2,
    hr _ _ _ hx.1 hy.2 hz.1 nx.1 ny.2 nz.1, hr _ _ _ hx.1 hy.2 hz.2 nx.1 ny.2 nz.2,
    hr _ _ _ hx.2 hy.1 hz.1 nx.2 ny.1 nz.1, hr _ _ _ hx.2 hy.1 hz.2 nx.2 ny.1 nz.2,
    hr _ _ _ hx.2 hy.2 hz.1 nx.2 ny.2 nz.1, hr _ _ _ hx.2 hy.2 hz.2 nx.2 ny.2 nz.2]
  have e := trilinearD_notFinite R s.res (s.center R ⟨(axisIdx i.x s.grid.dims.nx bx).1,
    (axisIdx i.y s.grid.dims.ny by').1, (axisIdx i.z s.grid.dims.nz bz).1⟩) q hw
  show some [_, _, _] = _
  rw [e]

/-- C113, a map without obstacles: the gradient at every location inside the grid consists of three NaNs. -/
theorem C113_no_obstacle {R : Rounding} {res : ℝ} (hres : GoodRes R res) {d : Dims} (hd : SmallGrid d)
    {fill : Idx → Option Bool} (hf : Answers d fill fun _ => false) {oob : FVal}
    {o : Out} (ho : extract R (res, res, res) d fill oob false = some o)
    (toGrid : V3 FDual → V3 FDual) (locIdx : V3 FVal → Idx) {p : V3 FVal} (hp : InBounds d (locIdx p)) :
    (FSdf.mk o.sdf res).autoDiffGradient R toGrid locIdx p = some [none, none, none] := by
  have hall := ((C14_uniform hres hd hp hf ho).1 fun _ _ => rfl).1
  have hdim : o.sdf.dims = d := by
    obtain ⟨o', a', b', ho', hs⟩ := base_spec hd hf R res oob
    rw [extract_false, ho'] at ho
    rw [← Option.some.inj ho]
    exact hs.dims
  refine C113_infinite R toGrid locIdx (s := ⟨o.sdf, res⟩) (hdim.symm ▸ hp) (Or.inl fun j hj => hall j ?_)
  rw [← hdim]; exact hj.1

/-! ## Queries by index -/

/-- The value of a rounded magnitude from its exponent and its nearest multiple of the last place. -/
theorem r64_eval {x : ℝ} {e n : ℤ} (h1 : 2 ^ e ≤ x) (h2 : x < 2 ^ (e + 1)) (he : -1022 ≤ e) (he' : e ≤ 100)
    (hn : Ieee.nearest (x / 2 ^ (e - 52)) = n) : ieee.r64 (x : EReal) = ((n * 2 ^ (e - 52) : ℝ) : EReal) := by
  have x0 : 0 < x := lt_of_lt_of_le (Ieee.two_pos' e) h1
  show Ieee.round Ieee.binary64 (x : EReal) = _
  rw [Ieee.round_coe _ x0.le]
  have hlog : Int.log 2 x = e := by
    have a := Ieee.log_lt x0 h2
    have b : e ≤ Int.log 2 x := (Int.zpow_le_iff_le_log (by norm_num) x0).mp (by exact_mod_cast h1)
    omega
  have hq : Ieee.quantum Ieee.binary64 x = e - 52 := by
    unfold Ieee.quantum
    rw [hlog]
    show max e (-1022) - (53 - 1) = _
    omega
  have hm : Ieee.magnitude Ieee.binary64 x = n * 2 ^ (e - 52) := by
    unfold Ieee.magnitude
    rw [hq, hn]
  unfold Ieee.roundMag
  rw [hm, if_pos]
  have hle : (n : ℝ) ≤ x / 2 ^ (e - 52) + 1 / 2 := by
    have := Ieee.nearest_error (x / 2 ^ (e - 52))
    rw [hn, abs_le] at this
    linarith [this.2]
  have p := Ieee.two_pos' (e - 52)
  have e1 : (2 : ℝ) ^ (e + 1) = 2 ^ (e - 52) * 2 ^ 53 := by
    rw [show e + 1 = e - 52 + 53 by ring, Ieee.two_add]; norm_num
  have hx : x / 2 ^ (e - 52) < 2 ^ 53 := by
    rw [div_lt_iff₀ p]; linarith
  calc (n : ℝ) * 2 ^ (e - 52) < (2 ^ 53 + 1) * 2 ^ (e - 52) := by
        apply mul_lt_mul_of_pos_right _ p; linarith
    _ ≤ 2 ^ (54 : ℤ) * 2 ^ (e - 52) := by
        apply mul_le_mul_of_nonneg_right _ p.le; norm_num
    _ = 2 ^ (e + 2) := by rw [← Ieee.two_add]; congr 1; ring
    _ ≤ 2 ^ ((1023 : ℤ) + 1) := Ieee.two_mono (by omega)

/-- Numbers with at most 53 binary digits are kept. -/
theorem r64_keep {x : ℝ} (n : ℕ) (e : ℤ) (hx : x = n * 2 ^ e) (hn : n < 2 ^ 53) (he : -1074 ≤ e) (he' : e ≤ 100) :
    ieee.r64 (x : EReal) = (x : EReal) := by
  subst hx
  refine Ieee.round_exact (F := Ieee.binary64) hn (by show (-1022 : ℤ) - (53 - 1) ≤ e; omega) ?_
  have h1 : (n : ℝ) ≤ 2 ^ (53 : ℤ) := by
    have : (n : ℝ) ≤ ((2 ^ 53 : ℕ) : ℝ) := by exact_mod_cast hn.le
    push_cast at this
    exact_mod_cast this
  calc (n : ℝ) * 2 ^ e ≤ 2 ^ (53 : ℤ) * 2 ^ e := mul_le_mul_of_nonneg_right h1 (Ieee.two_pos' e).le
    _ = 2 ^ (53 + e) := (Ieee.two_add _ _).symm
    _ < 2 ^ ((1023 : ℤ) + 1) := zpow_lt_zpow_right₀ (by norm_num) (by omega)

theorem r64_keep_neg {x : ℝ} (h : ieee.r64 (x : EReal) = (x : EReal)) : ieee.r64 ((-x : ℝ) : EReal) = ((-x : ℝ) : EReal) := by
  rw [EReal.coe_neg, ieee.odd64, h]

end FSdf

end Verif
