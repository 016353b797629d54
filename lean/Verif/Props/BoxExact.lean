import Verif.Props.Ieee
import Mathlib.Data.Int.Lemmas

/-!
# Distances to boxes, walls and regular arrangements are exact (C91)

If the filled cells (or the free cells) are those whose three coordinates satisfy three independent
conditions, the stored distances are the distances to the nearest cell of the opposite class.
-/

namespace Verif

open Spec DField SdfGen

/-- The cells marked by `f` are a product: membership is a condition on each coordinate.  Boxes, walls,
floors, rows of equal blocks. -/
def IsProduct (d : Dims) (f : Idx → Prop) (A B C : ℤ → Prop) : Prop :=
  ∀ i, InBounds d i → (f i ↔ A i.x ∧ B i.y ∧ C i.z)

namespace BoxExact

theorem sq_le_sq_nat {a b : ℤ} (h : a.natAbs ≤ b.natAbs) : a ^ 2 ≤ b ^ 2 :=
  Int.natAbs_le_iff_sq_le.mp h

theorem nat_le_of_sq {a b : ℤ} (h : a ^ 2 ≤ b ^ 2) : a.natAbs ≤ b.natAbs :=
  Int.natAbs_le_iff_sq_le.mpr h

/-- One axis of a step from `v` to `u` towards `p`. -/
def Toward (v u p : ℤ) : Prop := u = v ∨
  (2 ≤ (v - p).natAbs ∧ (u - v).natAbs = 1 ∧ (u - p).natAbs + 1 = (v - p).natAbs)

theorem axis {v u p r : ℤ} (h : Toward v u p) (hr : (v - p).natAbs ≤ (v - r).natAbs) :
    (u - p).natAbs ≤ (u - r).natAbs ∧ ((u - r).natAbs ≤ (u - p).natAbs → (v - r).natAbs = (v - p).natAbs) := by
  unfold Toward at h
  omega

theorem toward_le {v u p : ℤ} (h : Toward v u p) : (u - p).natAbs ≤ (v - p).natAbs := by
  unfold Toward at h
  omega

/-- Nearest source on every axis. -/
def AxisNearest (pts : List Idx) (v p : Idx) : Prop := ∀ r ∈ pts, (v.x - p.x).natAbs ≤ (v.x - r.x).natAbs ∧
  (v.y - p.y).natAbs ≤ (v.y - r.y).natAbs ∧ (v.z - p.z).natAbs ≤ (v.z - r.z).natAbs

theorem AxisNearest.nearest {pts : List Idx} {v p : Idx} (hp : p ∈ pts) (h : AxisNearest pts v p) :
    IsNearest pts v p := by
  refine ⟨hp, fun r hr => ?_⟩
  obtain ⟨h1, h2, h3⟩ := h r hr
  have := sq_le_sq_nat h1
  have := sq_le_sq_nat h2
  have := sq_le_sq_nat h3
  unfold sqDist
  linarith

theorem axisNearest_of {d : Dims} {pts : List Idx} {A B C : ℤ → Prop}
    (hpts : ∀ p, p ∈ pts ↔ InBounds d p ∧ A p.x ∧ B p.y ∧ C p.z) {v p : Idx} (hp : IsNearest pts v p) :
    AxisNearest pts v p := by
  intro r hr
  obtain ⟨p1, p2, p3, p4⟩ := (hpts p).mp hp.1
  obtain ⟨r1, r2, r3, r4⟩ := (hpts r).mp hr
  have hx := hp.2 ⟨r.x, p.y, p.z⟩ ((hpts _).mpr ⟨by unfold InBounds at *; dsimp only; omega, r2, p3, p4⟩)
  have hy := hp.2 ⟨p.x, r.y, p.z⟩ ((hpts _).mpr ⟨by unfold InBounds at *; dsimp only; omega, p2, r3, p4⟩)
  have hz := hp.2 ⟨p.x, p.y, r.z⟩ ((hpts _).mpr ⟨by unfold InBounds at *; dsimp only; omega, p2, p3, r4⟩)
  unfold sqDist at hx hy hz
  dsimp only at hx hy hz
  exact ⟨nat_le_of_sq (by linarith), nat_le_of_sq (by linarith), nat_le_of_sq (by linarith)⟩

/-- A step towards the nearest source keeps the nearest sources. -/
theorem step {pts : List Idx} {v u p : Idx} (hp : p ∈ pts) (h : AxisNearest pts v p)
    (hx : Toward v.x u.x p.x) (hy : Toward v.y u.y p.y) (hz : Toward v.z u.z p.z)
    (hlt : sqDist u p < sqDist v p) :
    AxisNearest pts u p ∧ ∀ r, IsNearest pts u r → IsNearest pts v r ∧ sqDist u r < sqDist v r := by
  refine ⟨fun r hr => ?_, fun r hr => ?_⟩
  · obtain ⟨h1, h2, h3⟩ := h r hr
    exact ⟨(axis hx h1).1, (axis hy h2).1, (axis hz h3).1⟩
  · obtain ⟨h1, h2, h3⟩ := h r hr.1
    have a1 := axis hx h1
    have a2 := axis hy h2
    have a3 := axis hz h3
    have hle := hr.2 p hp
    have s1 := sq_le_sq_nat a1.1
    have s2 := sq_le_sq_nat a2.1
    have s3 := sq_le_sq_nat a3.1
    unfold sqDist at hle
    have e1 := a1.2 (nat_le_of_sq (by linarith))
    have e2 := a2.2 (nat_le_of_sq (by linarith))
    have e3 := a3.2 (nat_le_of_sq (by linarith))
    have q : ∀ {a b : ℤ}, a.natAbs = b.natAbs → a ^ 2 = b ^ 2 := fun h => Int.natAbs_eq_iff_sq_eq.mp h
    have hv : sqDist v r = sqDist v p := by
      unfold sqDist; rw [q e1, q e2, q e3]
    have hu : sqDist u r = sqDist u p := by unfold sqDist; linarith
    refine ⟨⟨hr.1, fun w hw => ?_⟩, by rw [hu, hv]; exact hlt⟩
    rw [hv]
    exact (AxisNearest.nearest hp h).2 w hw

theorem sq_lt_of {a b : ℤ} (h : a.natAbs < b.natAbs) : a ^ 2 < b ^ 2 := Int.natAbs_lt_iff_sq_lt.mp h

/-- Sources forming a product: every cell is on a chain. -/
theorem chain_product {d : Dims} {pts : List Idx} {p : Idx} (hp : p ∈ pts) (hpb : InBounds d p) :
    ∀ (k : Nat) (v : Idx), InBounds d v → AxisNearest pts v p →
      (v.x - p.x).natAbs + (v.y - p.y).natAbs + (v.z - p.z).natAbs ≤ k → Chain d pts v := by
  intro k
  induction k with
  | zero =>
    intro v hv hn hk
    refine Chain.near hv (hn.nearest hp) ?_
    unfold Close; simp only [abs_le]; omega
  | succ k ih =>
    intro v hv hn hk
    by_cases hc : Close v p
    · exact Chain.near hv (hn.nearest hp) hc
    have hstep : ∀ u : Idx, InBounds d u → FaceAdj u v → Toward v.x u.x p.x → Toward v.y u.y p.y →
        Toward v.z u.z p.z → sqDist u p < sqDist v p →
        (u.x - p.x).natAbs + (u.y - p.y).natAbs + (u.z - p.z).natAbs ≤ k → Chain d pts v := by
      intro u hu hf hx hy hz hlt hk'
      obtain ⟨h1, h2⟩ := step hp hn hx hy hz hlt
      exact Chain.step (ih u hu h1 hk') hv hf h2
    unfold Close at hc
    simp only [abs_le] at hc
    obtain ⟨vx, vy, vz⟩ := v
    obtain ⟨px, py, pz⟩ := p
    unfold InBounds at hv hpb
    dsimp only at *
    rcases (by omega : 2 ≤ vx - px ∨ vx - px ≤ -2 ∨ 2 ≤ vy - py ∨ vy - py ≤ -2 ∨ 2 ≤ vz - pz ∨
      vz - pz ≤ -2) with hh | hh | hh | hh | hh | hh
    · refine hstep ⟨vx - 1, vy, vz⟩ (by unfold InBounds; dsimp only; omega) (by simp [FaceAdj])
        (by unfold Toward; dsimp only; omega) (Or.inl rfl) (Or.inl rfl) ?_ (by dsimp only; omega)
      have := sq_lt_of (a := vx - 1 - px) (b := vx - px) (by omega)
      unfold sqDist; dsimp only; linarith
    · refine hstep ⟨vx + 1, vy, vz⟩ (by unfold InBounds; dsimp only; omega) (by simp [FaceAdj])
        (by unfold Toward; dsimp only; omega) (Or.inl rfl) (Or.inl rfl) ?_ (by dsimp only; omega)
      have := sq_lt_of (a := vx + 1 - px) (b := vx - px) (by omega)
      unfold sqDist; dsimp only; linarith
    · refine hstep ⟨vx, vy - 1, vz⟩ (by unfold InBounds; dsimp only; omega) (by simp [FaceAdj])
        (Or.inl rfl) (by unfold Toward; dsimp only; omega) (Or.inl rfl) ?_ (by dsimp only; omega)
      have := sq_lt_of (a := vy - 1 - py) (b := vy - py) (by omega)
      unfold sqDist; dsimp only; linarith
    · refine hstep ⟨vx, vy + 1, vz⟩ (by unfold InBounds; dsimp only; omega) (by simp [FaceAdj])
        (Or.inl rfl) (by unfold Toward; dsimp only; omega) (Or.inl rfl) ?_ (by dsimp only; omega)
      have := sq_lt_of (a := vy + 1 - py) (b := vy - py) (by omega)
      unfold sqDist; dsimp only; linarith
    · refine hstep ⟨vx, vy, vz - 1⟩ (by unfold InBounds; dsimp only; omega) (by simp [FaceAdj])
        (Or.inl rfl) (Or.inl rfl) (by unfold Toward; dsimp only; omega) ?_ (by dsimp only; omega)
      have := sq_lt_of (a := vz - 1 - pz) (b := vz - pz) (by omega)
      unfold sqDist; dsimp only; linarith
    · refine hstep ⟨vx, vy, vz + 1⟩ (by unfold InBounds; dsimp only; omega) (by simp [FaceAdj])
        (Or.inl rfl) (Or.inl rfl) (by unfold Toward; dsimp only; omega) ?_ (by dsimp only; omega)
      have := sq_lt_of (a := vz + 1 - pz) (b := vz - pz) (by omega)
      unfold sqDist; dsimp only; linarith

/-- Sources forming the complement of a product: a nearest source lies on an axis through the cell. -/
theorem on_axis {d : Dims} {pts : List Idx} {A B C : ℤ → Prop}
    (hpts : ∀ p, p ∈ pts ↔ InBounds d p ∧ ¬ (A p.x ∧ B p.y ∧ C p.z)) {v p : Idx} (hv : InBounds d v)
    (hp : IsNearest pts v p) :
    (v.y = p.y ∧ v.z = p.z) ∨ (v.x = p.x ∧ v.z = p.z) ∨ (v.x = p.x ∧ v.y = p.y) := by
  obtain ⟨p1, p2⟩ := (hpts p).mp hp.1
  have zero : ∀ a b : ℤ, a ^ 2 + b ^ 2 ≤ 0 → a = 0 ∧ b = 0 := by
    intro a b h
    have ha := sq_nonneg a
    have hb := sq_nonneg b
    exact ⟨pow_eq_zero_iff (two_ne_zero) |>.mp (by linarith), pow_eq_zero_iff (two_ne_zero) |>.mp (by linarith)⟩
  have hcase : ¬ A p.x ∨ ¬ B p.y ∨ ¬ C p.z := by
    by_contra hc
    push Not at hc
    exact p2 hc
  rcases hcase with h | h | h
  · have := hp.2 ⟨p.x, v.y, v.z⟩ ((hpts _).mpr ⟨by unfold InBounds at *; dsimp only; omega, fun hc => h hc.1⟩)
    unfold sqDist at this
    dsimp only at this
    have := zero (v.y - p.y) (v.z - p.z) (by simp only [sub_self] at this; linarith)
    left; omega
  · have := hp.2 ⟨v.x, p.y, v.z⟩ ((hpts _).mpr ⟨by unfold InBounds at *; dsimp only; omega, fun hc => h hc.2.1⟩)
    unfold sqDist at this
    dsimp only at this
    have := zero (v.x - p.x) (v.z - p.z) (by simp only [sub_self] at this; linarith)
    right; left; omega
  · have := hp.2 ⟨v.x, v.y, p.z⟩ ((hpts _).mpr ⟨by unfold InBounds at *; dsimp only; omega, fun hc => h hc.2.2⟩)
    unfold sqDist at this
    dsimp only at this
    have := zero (v.x - p.x) (v.y - p.y) (by simp only [sub_self] at this; linarith)
    right; right; omega

end BoxExact

open BoxExact

/-- C10 on regular source sets: the transform is exact everywhere if the sources are the cells of a
product, or the cells outside a product. -/
theorem C10_exact_product_partial {d : Dims} (hd : SmallGrid d) {pts : List Idx} {A B C : ℤ → Prop}
    (hpts : (∀ p, p ∈ pts ↔ InBounds d p ∧ A p.x ∧ B p.y ∧ C p.z) ∨
      ∀ p, p ∈ pts ↔ InBounds d p ∧ ¬ (A p.x ∧ B p.y ∧ C p.z))
    {s : St} (h : build d pts = some s) {v : Idx} (hv : InBounds d v) {m : ℤ} (hm : IsMinSq pts v m) :
    ∃ n, reported s v = some n ∧ (n : ℤ) = m := by
  obtain ⟨⟨p, hp, rfl⟩, hmin⟩ := hm
  have hn : IsNearest pts v p := ⟨hp, hmin⟩
  have hch : Chain d pts v := by
    rcases hpts with hA | hA
    · exact chain_product hp ((hA p).mp hp).1 _ v hv (axisNearest_of hA hn) (Nat.le_refl _)
    · refine chain_near_axis (fun q hq => ((hA q).mp hq).1) hv hn ?_
      rcases on_axis hA hv hn with ⟨e1, e2⟩ | ⟨e1, e2⟩ | ⟨e1, e2⟩
      · left; rw [e1, e2]; simp
      · right; left; rw [e1, e2]; simp
      · right; right; rw [e1, e2]; simp
  obtain ⟨n, h1, h2, _⟩ := C10_exact_on_chains_partial hd h hch hn
  exact ⟨n, h1, h2⟩

theorem product_exact {d : Dims} (hd : SmallGrid d) {f : Idx → Bool} {A B C : ℤ → Prop}
    (hprod : IsProduct d (fun i => f i = true) A B C ∨ IsProduct d (fun i => f i = false) A B C)
    {v : Idx} (hv : InBounds d v) {m : ℤ} (hm : NearestOpposite d f v m) {pts : List Idx} {s : St}
    (hb : build d pts = some s) (hmem : ∀ p, p ∈ pts ↔ Opposite d f v p) :
    ∃ n : ℕ, reported s v = some n ∧ (n : ℤ) = m := by
  refine C10_exact_product_partial (A := A) (B := B) (C := C) hd ?_ hb hv
    ⟨by obtain ⟨p, hp, e⟩ := hm.1; exact ⟨p, (hmem p).mpr hp, e⟩, fun p hp => hm.2 p ((hmem p).mp hp)⟩
  have hneg : ∀ {b : Bool}, IsProduct d (fun i => f i = b) A B C → f v = b →
      ∀ p, p ∈ pts ↔ InBounds d p ∧ ¬ (A p.x ∧ B p.y ∧ C p.z) := by
    intro b hP hb p
    rw [hmem]
    unfold Opposite
    constructor
    · rintro ⟨h1, h2⟩; exact ⟨h1, fun hc => h2 (((hP p h1).mpr hc).trans hb.symm)⟩
    · rintro ⟨h1, h2⟩; exact ⟨h1, fun hc => h2 ((hP p h1).mp (hc.trans hb))⟩
  have hpos : ∀ {b : Bool}, IsProduct d (fun i => f i = b) A B C → f v ≠ b →
      ∀ p, p ∈ pts ↔ InBounds d p ∧ A p.x ∧ B p.y ∧ C p.z := by
    intro b hP hb p
    rw [hmem]
    unfold Opposite
    constructor
    · rintro ⟨h1, h2⟩
      refine ⟨h1, (hP p h1).mp ?_⟩
      show f p = b
      revert hb h2; cases f p <;> cases f v <;> cases b <;> simp
    · rintro ⟨h1, h2⟩
      exact ⟨h1, fun hc => hb (hc.symm.trans ((hP p h1).mpr h2))⟩
  rcases hprod with hP | hP
  · by_cases hfv : f v = true
    · exact Or.inr (hneg hP hfv)
    · exact Or.inl (hpos hP hfv)
  · by_cases hfv : f v = false
    · exact Or.inr (hneg hP hfv)
    · exact Or.inl (hpos hP hfv)

/-- C91.  If the filled cells, or the free cells, form a product, the stored value of every cell is plus or
minus the (rounded) distance to the nearest cell of the opposite class. -/
theorem C91_exact {R : Rounding} {res : ℝ} {d : Dims} (hd : SmallGrid d) {fill : Idx → Option Bool}
    {f : Idx → Bool} (hf : Answers d fill f) {A B C : ℤ → Prop}
    (hprod : IsProduct d (fun i => f i = true) A B C ∨ IsProduct d (fun i => f i = false) A B C)
    {oob : FVal} {o : Out} (ho : extract R (res, res, res) d fill oob false = some o) {v : Idx}
    (hv : InBounds d v) {m : ℤ} (hm : NearestOpposite d f v m) :
    o.sdf.get v = some (if f v then -R.r32 (R.r64 (R.r64 ((Real.sqrt m : ℝ) : EReal) * res))
      else R.r32 (R.r64 (R.r64 ((Real.sqrt m : ℝ) : EReal) * res))) := by
  obtain ⟨o', a, b, ho', hs⟩ := base_spec hd hf R res oob
  rw [extract_false, ho'] at ho
  simp only [Option.some.injEq] at ho
  subst ho
  obtain ⟨pts, s, hb, hmem, hval⟩ := opposite_field hs hv
  obtain ⟨n, hr, hn⟩ := product_exact hd hprod hv hm hb hmem
  rw [hval, hr]
  have : ((m : ℤ) : ℝ) = n := by rw [← hn]; simp
  rw [this]
  simp [scaled, sqrtE]

/-- C91 for any map: the stored value is the (rounded) distance wherever the nearest cell of the opposite class is straight
ahead, that is at most one cell off on two axes. -/
theorem C91_straight {R : Rounding} {res : ℝ} {d : Dims} (hd : SmallGrid d) {fill : Idx → Option Bool}
    {f : Idx → Bool} (hf : Answers d fill f) {oob : FVal} {o : Out}
    (ho : extract R (res, res, res) d fill oob false = some o) {v p : Idx} (hv : InBounds d v)
    (hp : Opposite d f v p) (hmin : ∀ q, Opposite d f v q → sqDist v p ≤ sqDist v q)
    (hax : (|v.y - p.y| ≤ 1 ∧ |v.z - p.z| ≤ 1) ∨ (|v.x - p.x| ≤ 1 ∧ |v.z - p.z| ≤ 1) ∨
      (|v.x - p.x| ≤ 1 ∧ |v.y - p.y| ≤ 1)) :
    o.sdf.get v = some (if f v then -R.r32 (R.r64 (R.r64 ((Real.sqrt (sqDist v p) : ℝ) : EReal) * res))
      else R.r32 (R.r64 (R.r64 ((Real.sqrt (sqDist v p) : ℝ) : EReal) * res))) := by
  obtain ⟨o', a, b, ho', hs⟩ := base_spec hd hf R res oob
  rw [extract_false, ho'] at ho
  simp only [Option.some.injEq] at ho
  subst ho
  obtain ⟨pts, s, hb, hmem, hval⟩ := opposite_field hs hv
  have hn : IsNearest pts v p := ⟨(hmem p).mpr hp, fun q hq => hmin q ((hmem q).mp hq)⟩
  obtain ⟨n, hr, hn, _⟩ := C10_exact_on_chains_partial hd hb
    (chain_near_axis (fun q hq => ((hmem q).mp hq).1) hv hn hax) hn
  rw [hval, hr]
  have : ((sqDist v p : ℤ) : ℝ) = n := by rw [← hn]; simp
  rw [this]
  simp [scaled, sqrtE]

/-- C91 in IEEE arithmetic: the stored value is the metric distance up to the relative error. -/
theorem C91_ieee {res : ℝ} (hres : GoodRes ieee res) (hlo : 1 / 2 ^ 126 ≤ res) (hhi : res ≤ 2 ^ 100)
    {d : Dims} (hd : SmallGrid d) {fill : Idx → Option Bool}
    {f : Idx → Bool} (hf : Answers d fill f) {A B C : ℤ → Prop}
    (hprod : IsProduct d (fun i => f i = true) A B C ∨ IsProduct d (fun i => f i = false) A B C)
    {oob : FVal} {o : Out} (ho : extract ieee (res, res, res) d fill oob false = some o) {v : Idx}
    (hv : InBounds d v) {m : ℤ} (hm : NearestOpposite d f v m) :
    ∃ y : ℝ, o.sdf.get v = some (if f v then ((-y : ℝ) : EReal) else (y : EReal)) ∧ 0 < y ∧
      |y - res * Real.sqrt m| ≤ relErr * (res * Real.sqrt m) := by
  obtain ⟨o', a, b, ho', hs⟩ := base_spec hd hf ieee res oob
  rw [extract_false, ho'] at ho
  simp only [Option.some.injEq] at ho
  subst ho
  obtain ⟨pts, s, hb, hmem, hval⟩ := opposite_field hs hv
  obtain ⟨n, hr, hn⟩ := product_exact hd hprod hv hm hb hmem
  obtain ⟨y, hy, hpos, herr⟩ := stored_value hres hlo hhi hd hb hv hmem hr
  have hcast : ((m : ℤ) : ℝ) = n := by rw [← hn]; simp
  exact ⟨y, by rw [hval, hy]; rfl, hpos, by rw [hcast]; exact herr⟩

/-- How far `x` is outside `[lo, hi]`. -/
def gap (lo hi x : ℤ) : ℤ := max 0 (max (lo - x) (x - hi))

/-- How many steps lead from `x` in `[lo, hi]` out of it. -/
def depth (lo hi x : ℤ) : ℤ := min (x - lo + 1) (hi - x + 1)

theorem gap_spec (lo hi x : ℤ) (h : lo ≤ hi) :
    ∃ q, lo ≤ q ∧ q ≤ hi ∧ (x - q) ^ 2 = gap lo hi x ^ 2 := by
  unfold gap
  rcases le_total x lo with h1 | h1
  · refine ⟨lo, le_refl _, h, ?_⟩
    rw [max_eq_right (by omega), max_eq_left (by omega)]; ring
  · rcases le_total x hi with h2 | h2
    · exact ⟨x, h1, h2, by rw [max_eq_left (by simp only [max_le_iff]; omega)]; ring⟩
    · refine ⟨hi, h, le_refl _, ?_⟩
      rw [max_eq_right (a := lo - x) (by omega), max_eq_right (by omega)]

theorem gap_le (lo hi x q : ℤ) (h1 : lo ≤ q) (h2 : q ≤ hi) : gap lo hi x ^ 2 ≤ (x - q) ^ 2 := by
  apply sq_le_sq_nat
  unfold gap
  omega

/-- C91 for one solid box strictly inside the grid, in closed form: outside the box the stored value is the
(rounded) Euclidean distance to the box, inside it is minus the (rounded) number of cells to the nearest
face. -/
theorem C91_box {R : Rounding} {res : ℝ} {d : Dims} (hd : SmallGrid d) {fill : Idx → Option Bool}
    {lo hi : Idx} (hx : 1 ≤ lo.x ∧ lo.x ≤ hi.x ∧ hi.x + 1 < d.nx)
    (hy : 1 ≤ lo.y ∧ lo.y ≤ hi.y ∧ hi.y + 1 < d.ny) (hz : 1 ≤ lo.z ∧ lo.z ≤ hi.z ∧ hi.z + 1 < d.nz)
    (hf : ∀ i, InBounds d i → fill i = some (decide
      ((lo.x ≤ i.x ∧ i.x ≤ hi.x) ∧ (lo.y ≤ i.y ∧ i.y ≤ hi.y) ∧ (lo.z ≤ i.z ∧ i.z ≤ hi.z))))
    {oob : FVal} {o : Out} (ho : extract R (res, res, res) d fill oob false = some o) {v : Idx}
    (hv : InBounds d v) :
    o.sdf.get v = some (
      if (lo.x ≤ v.x ∧ v.x ≤ hi.x) ∧ (lo.y ≤ v.y ∧ v.y ≤ hi.y) ∧ (lo.z ≤ v.z ∧ v.z ≤ hi.z) then
        -R.r32 (R.r64 (R.r64 (((min (depth lo.x hi.x v.x)
          (min (depth lo.y hi.y v.y) (depth lo.z hi.z v.z)) : ℤ) : ℝ) : EReal) * res))
      else R.r32 (R.r64 (R.r64 ((Real.sqrt ((gap lo.x hi.x v.x ^ 2 + gap lo.y hi.y v.y ^ 2 +
        gap lo.z hi.z v.z ^ 2 : ℤ) : ℝ) : ℝ) : EReal) * res))) := by
  set f : Idx → Bool := fun i => decide
      ((lo.x ≤ i.x ∧ i.x ≤ hi.x) ∧ (lo.y ≤ i.y ∧ i.y ≤ hi.y) ∧ (lo.z ≤ i.z ∧ i.z ≤ hi.z)) with hfdef
  have hprod : IsProduct d (fun i => f i = true) (fun x => lo.x ≤ x ∧ x ≤ hi.x)
      (fun y => lo.y ≤ y ∧ y ≤ hi.y) (fun z => lo.z ≤ z ∧ z ≤ hi.z) := by
    intro i _; simp [hfdef]
  by_cases hin : (lo.x ≤ v.x ∧ v.x ≤ hi.x) ∧ (lo.y ≤ v.y ∧ v.y ≤ hi.y) ∧ (lo.z ≤ v.z ∧ v.z ≤ hi.z)
  · have hfv : f v = true := by simpa [hfdef] using hin
    set k := min (depth lo.x hi.x v.x) (min (depth lo.y hi.y v.y) (depth lo.z hi.z v.z)) with hk
    have hk0 : 0 ≤ k := by rw [hk]; unfold depth; omega
    have hm : NearestOpposite d f v (k ^ 2) := by
      constructor
      · have hex : ∃ p : Idx, InBounds d p ∧ f p = false ∧ sqDist v p = k ^ 2 := by
          have hkc : k = v.x - lo.x + 1 ∨ k = hi.x - v.x + 1 ∨ k = v.y - lo.y + 1 ∨ k = hi.y - v.y + 1 ∨
              k = v.z - lo.z + 1 ∨ k = hi.z - v.z + 1 := by
            rw [hk]; unfold depth; omega
          unfold InBounds at hv
          rcases hkc with h | h | h | h | h | h
          · exact ⟨⟨lo.x - 1, v.y, v.z⟩, by unfold InBounds; dsimp only; omega,
              by simp only [hfdef, decide_eq_false_iff_not]; omega, by unfold sqDist; dsimp only; rw [h]; ring⟩
          · exact ⟨⟨hi.x + 1, v.y, v.z⟩, by unfold InBounds; dsimp only; omega,
              by simp only [hfdef, decide_eq_false_iff_not]; omega, by unfold sqDist; dsimp only; rw [h]; ring⟩
          · exact ⟨⟨v.x, lo.y - 1, v.z⟩, by unfold InBounds; dsimp only; omega,
              by simp only [hfdef, decide_eq_false_iff_not]; omega, by unfold sqDist; dsimp only; rw [h]; ring⟩
          · exact ⟨⟨v.x, hi.y + 1, v.z⟩, by unfold InBounds; dsimp only; omega,
              by simp only [hfdef, decide_eq_false_iff_not]; omega, by unfold sqDist; dsimp only; rw [h]; ring⟩
          · exact ⟨⟨v.x, v.y, lo.z - 1⟩, by unfold InBounds; dsimp only; omega,
              by simp only [hfdef, decide_eq_false_iff_not]; omega, by unfold sqDist; dsimp only; rw [h]; ring⟩
          · exact ⟨⟨v.x, v.y, hi.z + 1⟩, by unfold InBounds; dsimp only; omega,
              by simp only [hfdef, decide_eq_false_iff_not]; omega, by unfold sqDist; dsimp only; rw [h]; ring⟩
        obtain ⟨p, h1, h2, h3⟩ := hex
        exact ⟨p, ⟨h1, by rw [h2, hfv]; simp⟩, h3⟩
      · rintro p ⟨_, hp⟩
        rw [hfv] at hp
        simp only [hfdef, ne_eq, decide_eq_true_eq] at hp
        have key : k.natAbs ≤ (v.x - p.x).natAbs ∨ k.natAbs ≤ (v.y - p.y).natAbs ∨
            k.natAbs ≤ (v.z - p.z).natAbs := by
          have : k ≤ depth lo.x hi.x v.x ∧ k ≤ depth lo.y hi.y v.y ∧ k ≤ depth lo.z hi.z v.z := by
            rw [hk]; omega
          unfold depth at this
          omega
        have s1 := sq_nonneg (v.x - p.x)
        have s2 := sq_nonneg (v.y - p.y)
        have s3 := sq_nonneg (v.z - p.z)
        unfold sqDist
        rcases key with h | h | h <;> have := sq_le_sq_nat h <;> linarith
    rw [C91_exact hd (f := f) (fun i hi => hf i hi) (Or.inl hprod) ho hv hm, if_pos hfv, if_pos hin]
    have : Real.sqrt ((k ^ 2 : ℤ) : ℝ) = (k : ℝ) := by
      push_cast
      exact Real.sqrt_sq (by exact_mod_cast hk0)
    rw [this]
  · have hfv : ¬ f v = true := by simpa [hfdef] using hin
    have hm : NearestOpposite d f v (gap lo.x hi.x v.x ^ 2 + gap lo.y hi.y v.y ^ 2 +
        gap lo.z hi.z v.z ^ 2) := by
      obtain ⟨qx, x1, x2, x3⟩ := gap_spec lo.x hi.x v.x hx.2.1
      obtain ⟨qy, y1, y2, y3⟩ := gap_spec lo.y hi.y v.y hy.2.1
      obtain ⟨qz, z1, z2, z3⟩ := gap_spec lo.z hi.z v.z hz.2.1
      constructor
      · refine ⟨⟨qx, qy, qz⟩, ⟨by unfold InBounds; dsimp only; omega, ?_⟩, ?_⟩
        · have : f ⟨qx, qy, qz⟩ = true := by simp only [hfdef, decide_eq_true_eq]; omega
          rw [this]; exact fun h => hfv h.symm
        · unfold sqDist; dsimp only; rw [x3, y3, z3]
      · rintro p ⟨_, hp⟩
        have hfp : f p = true := by
          revert hp hfv; cases f p <;> cases f v <;> simp
        simp only [hfdef, decide_eq_true_eq] at hfp
        have a1 := gap_le lo.x hi.x v.x p.x hfp.1.1 hfp.1.2
        have a2 := gap_le lo.y hi.y v.y p.y hfp.2.1.1 hfp.2.1.2
        have a3 := gap_le lo.z hi.z v.z p.z hfp.2.2.1 hfp.2.2.2
        unfold sqDist
        linarith
    rw [C91_exact hd (f := f) (fun i hi => hf i hi) (Or.inl hprod) ho hv hm, if_neg hfv, if_neg hin]

open Classical in
/-- C91 for the SDF of a collision map: the obstacles (occupied cells, and unknown cells if these count as
filled) or the other cells form a product. -/
theorem C91_collision_map {res : ℝ} (hres : GoodRes ieee res) (hlo : 1 / 2 ^ 126 ≤ res) (hhi : res ≤ 2 ^ 100)
    (m : CMap) (hd : SmallGrid m.grid.dims) (oob : FVal) (u : Bool) {A B C : ℤ → Prop}
    (hprod : IsProduct m.grid.dims (Obstacle m u) A B C ∨
      IsProduct m.grid.dims (fun i => ¬ Obstacle m u i) A B C) :
    ∃ o, extractMap ieee (res, res, res) m oob u false = some o ∧
      ∀ v, InBounds m.grid.dims v → ∀ k, NearestOpposite m.grid.dims (fun i => decide (Obstacle m u i)) v k →
        ∃ y : ℝ, o.sdf.get v = some (if Obstacle m u v then ((-y : ℝ) : EReal) else (y : EReal)) ∧ 0 < y ∧
          |y - res * Real.sqrt k| ≤ relErr * (res * Real.sqrt k) := by
  obtain ⟨o, a, b, ho, _⟩ := base_spec hd (mapFill_answers m u) ieee res oob
  refine ⟨o, by unfold extractMap; rw [extract_false]; exact ho, ?_⟩
  intro v hv k hk
  have := C91_ieee hres hlo hhi hd (mapFill_answers m u) (A := A) (B := B) (C := C) (by
    rcases hprod with h | h
    · left; intro i hi; have := h i hi; simpa using this
    · right; intro i hi; have := h i hi; simpa using this) (by rw [extract_false]; exact ho) hv hk
  simpa using this

/-- A box that meets the hypotheses of `C91_box`, and whose extraction succeeds. -/
example : SmallGrid ⟨5, 6, 5⟩ ∧ ∃ o, extract ieee ((1 / 4 : ℝ), (1 / 4 : ℝ), (1 / 4 : ℝ)) ⟨5, 6, 5⟩
    (fun i => some (decide ((1 ≤ i.x ∧ i.x ≤ 2) ∧ (1 ≤ i.y ∧ i.y ≤ 4) ∧ (2 ≤ i.z ∧ i.z ≤ 2)))) (some ⊤) false
      = some o := by
  have hd : SmallGrid ⟨5, 6, 5⟩ := by unfold SmallGrid; decide
  obtain ⟨o, _, _, ho, _⟩ := base_spec hd (f := fun i => decide ((1 ≤ i.x ∧ i.x ≤ 2) ∧ (1 ≤ i.y ∧ i.y ≤ 4) ∧
    (2 ≤ i.z ∧ i.z ≤ 2))) (fill := fun i => some (decide ((1 ≤ i.x ∧ i.x ≤ 2) ∧ (1 ≤ i.y ∧ i.y ≤ 4) ∧
    (2 ≤ i.z ∧ i.z ≤ 2)))) (fun _ _ => rfl) ieee (1 / 4) (some ⊤)
  exact ⟨hd, o, by rw [extract_false]; exact ho⟩

/-- A room: the free cells form a box, the filled cells are walls around it. -/
example : IsProduct ⟨7, 7, 7⟩ (fun i => (!decide ((1 ≤ i.x ∧ i.x ≤ 5) ∧ (1 ≤ i.y ∧ i.y ≤ 5) ∧
      (1 ≤ i.z ∧ i.z ≤ 5))) = false) (fun x => 1 ≤ x ∧ x ≤ 5) (fun y => 1 ≤ y ∧ y ≤ 5)
      (fun z => 1 ≤ z ∧ z ≤ 5) ∧
    NearestOpposite ⟨7, 7, 7⟩ (fun i => !decide ((1 ≤ i.x ∧ i.x ≤ 5) ∧ (1 ≤ i.y ∧ i.y ≤ 5) ∧
      (1 ≤ i.z ∧ i.z ≤ 5))) ⟨3, 2, 3⟩ 4 := by
  refine ⟨fun i _ => by simp, ⟨⟨3, 0, 3⟩, ⟨by simp [InBounds], by simp⟩, by norm_num [sqDist]⟩, ?_⟩
  rintro ⟨x, y, z⟩ ⟨_, hp⟩
  have hout : ¬ ((1 ≤ x ∧ x ≤ 5) ∧ (1 ≤ y ∧ y ≤ 5) ∧ (1 ≤ z ∧ z ≤ 5)) := by
    intro hc
    apply hp
    simp only [hc]
    decide
  have key : (2 : ℤ).natAbs ≤ (3 - x).natAbs ∨ (2 : ℤ).natAbs ≤ (2 - y).natAbs ∨
      (2 : ℤ).natAbs ≤ (3 - z).natAbs := by omega
  have s1 := sq_nonneg (3 - x)
  have s2 := sq_nonneg (2 - y)
  have s3 := sq_nonneg (3 - z)
  unfold sqDist
  dsimp only
  rcases key with h | h | h <;> have := sq_le_sq_nat h <;> linarith

/-- A regular arrangement of pillars is a product too. -/
example : IsProduct ⟨9, 9, 9⟩ (fun i => (decide (i.x % 4 = 1) && decide (i.y % 4 = 1)) = true)
    (fun x => x % 4 = 1) (fun y => y % 4 = 1) (fun _ => True) := by
  intro i _
  simp

end Verif
