import Verif.Props.BoxExact

/-!
# Accuracy of distances with a virtual border (C92)

With a virtual border the value of a cell is the distance to the nearest cell of the opposite class or of the
layer of virtual cells around the grid.
-/

namespace Verif

open Spec DField SdfGen

/-- One coordinate of a cell of the grid or of the layer around it: an axis with one cell gets no layer. -/
def NearAxis (n : ℕ) (x : ℤ) : Prop := (0 ≤ x ∧ x < n) ∨ (1 < n ∧ (x = -1 ∨ x = n))

/-- The virtual layer, one cell thick, around the grid along the axes with more than one cell. -/
def Layer (d : Dims) (p : Idx) : Prop :=
  ¬ InBounds d p ∧ NearAxis d.nx p.x ∧ NearAxis d.ny p.y ∧ NearAxis d.nz p.z

/-- `p` is a cell of the other class than `v`, or a virtual cell. -/
def Barrier (d : Dims) (f : Idx → Bool) (v p : Idx) : Prop := (InBounds d p ∧ f p ≠ f v) ∨ Layer d p

/-- `m` is the squared distance (in cells) from `v` to the nearest barrier. -/
def NearestBarrier (d : Dims) (f : Idx → Bool) (v : Idx) (m : ℤ) : Prop :=
  (∃ p, Barrier d f v p ∧ sqDist v p = m) ∧ ∀ p, Barrier d f v p → m ≤ sqDist v p

namespace BorderAcc

theorem off_cases (n : ℕ) : (1 < n ∧ off n = 1) ∨ (n ≤ 1 ∧ off n = 0) := by
  unfold off
  by_cases h : 1 < n
  · left; rw [if_pos h]; exact ⟨h, rfl⟩
  · right; rw [if_neg h]; exact ⟨by omega, rfl⟩

theorem axis_iff (n : ℕ) (x : ℤ) :
    ((0 ≤ x + off n ∧ x + off n < ((n + 2 * off n : ℕ) : ℤ)) ↔ NearAxis n x) := by
  unfold NearAxis
  rcases off_cases n with ⟨h, e⟩ | ⟨h, e⟩ <;> rw [e] <;> push_cast <;> omega

theorem inBounds_enlarge (d : Dims) (p : Idx) : InBounds (enlarge d) (p + offset d) ↔
    NearAxis d.nx p.x ∧ NearAxis d.ny p.y ∧ NearAxis d.nz p.z := by
  rw [← axis_iff, ← axis_iff, ← axis_iff]
  rfl

theorem border_iff {d : Dims} {p : Idx} (h : InBounds (enlarge d) (p + offset d)) :
    isBorder d (p + offset d) = true ↔ ¬ InBounds d p := by
  constructor
  · intro hb hp
    rw [(real_not_border hp).1] at hb
    cases hb
  · intro hp
    by_contra hb
    have := border_or_real h (by simpa using hb)
    rw [add_sub_offset] at this
    exact hp this

theorem borderFn_layer {d : Dims} {p : Idx} (hp : Layer d p) (b : Bool) (f : Idx → Bool) :
    borderFn d b f (p + offset d) = b := by
  unfold borderFn
  rw [(border_iff ((inBounds_enlarge d p).mpr hp.2)).mpr hp.1]
  rfl

theorem sqDist_shift (v p o : Idx) : sqDist (v + o) (p + o) = sqDist v p := by
  unfold sqDist
  simp only [Idx.add_x, Idx.add_y, Idx.add_z]
  ring

theorem sub_add_offset (d : Dims) (v : Idx) : v - offset d + offset d = v := by
  obtain ⟨x, y, z⟩ := v
  show (⟨x - (offset d).x + (offset d).x, y - (offset d).y + (offset d).y,
    z - (offset d).z + (offset d).z⟩ : Idx) = _
  simp

/-- Barriers are the opposite cells of the enlarged grid. -/
theorem barrier_iff {d : Dims} {f : Idx → Bool} {v : Idx} (hv : InBounds d v) (p : Idx) :
    Opposite (enlarge d) (borderFn d (!f v) f) (v + offset d) (p + offset d) ↔ Barrier d f v p := by
  unfold Opposite Barrier
  rw [borderFn_real hv]
  constructor
  · rintro ⟨h1, h2⟩
    by_cases hp : InBounds d p
    · left; rw [borderFn_real hp] at h2; exact ⟨hp, h2⟩
    · right; exact ⟨hp, (inBounds_enlarge d p).mp h1⟩
  · rintro (⟨h1, h2⟩ | h)
    · refine ⟨(real_not_border h1).2, ?_⟩
      rw [borderFn_real h1]; exact h2
    · refine ⟨(inBounds_enlarge d p).mpr h.2, ?_⟩
      rw [borderFn_layer h]
      cases f v <;> simp

theorem nearest_iff {d : Dims} {f : Idx → Bool} {v : Idx} (hv : InBounds d v) (m : ℤ) :
    NearestOpposite (enlarge d) (borderFn d (!f v) f) (v + offset d) m ↔ NearestBarrier d f v m := by
  unfold NearestOpposite NearestBarrier
  constructor
  · rintro ⟨⟨p, hp, e⟩, hmin⟩
    refine ⟨⟨p - offset d, ?_, ?_⟩, ?_⟩
    · rw [← barrier_iff hv, sub_add_offset]; exact hp
    · rw [← sqDist_shift _ _ (offset d), sub_add_offset]; exact e
    · intro q hq
      rw [← sqDist_shift _ _ (offset d)]
      exact hmin _ ((barrier_iff hv q).mpr hq)
  · rintro ⟨⟨p, hp, e⟩, hmin⟩
    refine ⟨⟨p + offset d, (barrier_iff hv p).mpr hp, by rw [sqDist_shift]; exact e⟩, ?_⟩
    intro q hq
    have := hmin (q - offset d) (by rw [← barrier_iff hv, sub_add_offset]; exact hq)
    rwa [← sqDist_shift _ _ (offset d), sub_add_offset] at this

/-- The distance field from which the value of `v` is taken. -/
theorem border_field {R : Rounding} {res : ℝ} (hres : GoodRes R res) (h32 : 0 < R.r32 res) {d : Dims}
    (hd : SmallGrid (enlarge d)) {fill : Idx → Option Bool} {f : Idx → Bool} (hf : Answers d fill f)
    {oob : FVal} {o : Out} (ho : extract R (res, res, res) d fill oob true = some o) {v : Idx}
    (hv : InBounds d v) :
    ∃ (pts : List Idx) (s : St), build (enlarge d) pts = some s ∧
      (∀ p, p ∈ pts ↔ Opposite (enlarge d) (borderFn d (!f v) f) (v + offset d) p) ∧
      o.sdf.get v = some (if f v then -R.r32 (scaled R res (reported s (v + offset d)))
        else R.r32 (scaled R res (reported s (v + offset d)))) := by
  obtain ⟨o', fr, fi, a, b, a', b', ho', h1, h2, _, _, _, _, _, hval⟩ := border_spec hd hf R res oob
  rw [ho] at ho'
  simp only [Option.some.injEq] at ho'
  subst ho'
  obtain ⟨c1, c2⟩ := combine_value hres h32 h1 h2 hv
  rw [hval v hv]
  have mem : ∀ (c : Bool) (g : Idx → Bool),
      (∀ i, g i = true ↔ borderFn d c f i ≠ borderFn d c f (v + offset d)) →
      ∀ p, p ∈ (enlarge d).all.filter g ↔ Opposite (enlarge d) (borderFn d c f) (v + offset d) p := by
    intro c g hg p
    rw [List.mem_filter, Dims.mem_all, inB_iff_spec, hg]; rfl
  cases hfv : f v with
  | true =>
    refine ⟨_, b', h2.hb, mem false _ (by intro i; rw [borderFn_real hv, hfv]; simp), ?_⟩
    rw [(c2 hfv).1, if_pos rfl, R.odd32]
  | false =>
    refine ⟨_, a, h1.ha, mem true _ (by intro i; rw [borderFn_real hv, hfv]; simp), ?_⟩
    rw [(c1 hfv).1]; rfl

end BorderAcc

open BorderAcc

/-- C92, general.  A stored finite value has the sign of its cell, and its magnitude is, up to the relative
error, the distance to some barrier; so it is at least the distance to the nearest barrier, up to the relative
error. -/
theorem C92_accuracy {res : ℝ} (hres : GoodRes ieee res) (hlo : 1 / 2 ^ 126 ≤ res) (hhi : res ≤ 2 ^ 100)
    {d : Dims} (hd : SmallGrid (enlarge d)) {fill : Idx → Option Bool} {f : Idx → Bool}
    (hf : Answers d fill f) {oob : FVal} {o : Out}
    (ho : extract ieee (res, res, res) d fill oob true = some o) {v : Idx} (hv : InBounds d v) :
    o.sdf.get v = some (if f v then ⊥ else ⊤) ∨
    ∃ (y : ℝ) (p : Idx), o.sdf.get v = some (if f v then ((-y : ℝ) : EReal) else (y : EReal)) ∧ 0 < y ∧
      Barrier d f v p ∧
      |y - res * Real.sqrt (sqDist v p)| ≤ relErr * (res * Real.sqrt (sqDist v p)) ∧
      ∀ m, NearestBarrier d f v m → (1 - relErr) * (res * Real.sqrt m) ≤ y := by
  obtain ⟨pts, s, hb, hmem, hval⟩ := border_field hres (ieee_resolution hlo hhi).1 hd hf ho hv
  have hvb := (real_not_border hv).2
  cases hr : reported s (v + offset d) with
  | none =>
    left
    rw [hval, hr, scaled_top hres.1, ieee.top32]
    rfl
  | some n =>
    right
    obtain ⟨y, hy, hpos, herr⟩ := stored_value hres hlo hhi hd hb hvb hmem hr
    obtain ⟨h1, h2, h3⟩ := C08_sound hd hb hvb hr
    have hshift : sqDist v (closest s (v + offset d) - offset d) = n := by
      rw [← sqDist_shift _ _ (offset d), sub_add_offset, ← h2]
    have hcast : ((sqDist v (closest s (v + offset d) - offset d) : ℤ) : ℝ) = n := by rw [hshift]; simp
    refine ⟨y, closest s (v + offset d) - offset d, ?_, hpos, ?_, by rw [hcast]; exact herr, ?_⟩
    · rw [hval, hy]; rfl
    · rw [← barrier_iff hv, sub_add_offset]; exact (hmem _).mp h1
    · intro m hm
      rw [← nearest_iff hv] at hm
      have hmn : m ≤ n := h3 m ⟨by
        obtain ⟨p, hp, e⟩ := hm.1
        exact ⟨p, (hmem p).mpr hp, e⟩, fun p hp => hm.2 p ((hmem p).mp hp)⟩
      have hsq : Real.sqrt m ≤ Real.sqrt n := Real.sqrt_le_sqrt (by exact_mod_cast hmn)
      have hle : res * Real.sqrt m ≤ res * Real.sqrt n := mul_le_mul_of_nonneg_left hsq hres.1.le
      have hrel : relErr ≤ 1 := by unfold relErr; norm_num
      rw [abs_le] at herr
      nlinarith [herr.1]

/-- C92, near.  A cell whose nearest barrier is at squared distance `m < 8` stores that distance up to the
relative error. -/
theorem C92_near {res : ℝ} (hres : GoodRes ieee res) (hlo : 1 / 2 ^ 126 ≤ res) (hhi : res ≤ 2 ^ 100)
    {d : Dims} (hd : SmallGrid (enlarge d)) {fill : Idx → Option Bool} {f : Idx → Bool}
    (hf : Answers d fill f) {oob : FVal} {o : Out}
    (ho : extract ieee (res, res, res) d fill oob true = some o) {v : Idx} (hv : InBounds d v) {m : ℤ}
    (hm : NearestBarrier d f v m) (h8 : m < 8) :
    ∃ y : ℝ, o.sdf.get v = some (if f v then ((-y : ℝ) : EReal) else (y : EReal)) ∧ 0 < y ∧
      |y - res * Real.sqrt m| ≤ relErr * (res * Real.sqrt m) := by
  obtain ⟨pts, s, hb, hmem, hval⟩ := border_field hres (ieee_resolution hlo hhi).1 hd hf ho hv
  have hvb := (real_not_border hv).2
  rw [← nearest_iff hv] at hm
  obtain ⟨n, hr, hn⟩ := C10_exact_below_8_partial hd hb hvb (m := m) ⟨by
    obtain ⟨p, hp, e⟩ := hm.1
    exact ⟨p, (hmem p).mpr hp, e⟩, fun p hp => hm.2 p ((hmem p).mp hp)⟩ h8
  obtain ⟨y, hy, hpos, herr⟩ := stored_value hres hlo hhi hd hb hvb hmem hr
  have hcast : ((m : ℤ) : ℝ) = n := by rw [← hn]; simp
  exact ⟨y, by rw [hval, hy]; rfl, hpos, by rw [hcast]; exact herr⟩

/-- C92, two-dimensional maps.  On a flat grid every stored value is finite (also where all cells are of one
class), and its magnitude is between the distance to the nearest barrier and `sqrt 2` times that distance, up
to the relative error. -/
theorem C92_flat {res : ℝ} (hres : GoodRes ieee res) (hlo : 1 / 2 ^ 126 ≤ res) (hhi : res ≤ 2 ^ 100)
    {d : Dims} (hd : SmallGrid (enlarge d)) (hflat : Flat d) {fill : Idx → Option Bool} {f : Idx → Bool}
    (hf : Answers d fill f) {oob : FVal} {o : Out}
    (ho : extract ieee (res, res, res) d fill oob true = some o) {v : Idx} (hv : InBounds d v) {m : ℤ}
    (hm : NearestBarrier d f v m) :
    ∃ y : ℝ, o.sdf.get v = some (if f v then ((-y : ℝ) : EReal) else (y : EReal)) ∧ 0 < y ∧
      (1 - relErr) * (res * Real.sqrt m) ≤ y ∧
      y ≤ (1 + relErr) * (res * (Real.sqrt 2 * Real.sqrt m)) := by
  obtain ⟨pts, s, hb, hmem, hval⟩ := border_field hres (ieee_resolution hlo hhi).1 hd hf ho hv
  have hvb := (real_not_border hv).2
  rw [← nearest_iff hv] at hm
  have hflat' : Flat (enlarge d) := by
    rcases hflat with h | h | h
    · left; show d.nx + 2 * off d.nx = 1; rw [h]; rfl
    · right; left; show d.ny + 2 * off d.ny = 1; rw [h]; rfl
    · right; right; show d.nz + 2 * off d.nz = 1; rw [h]; rfl
  obtain ⟨n, hr, hn1, hn2⟩ := C10_flat_factor_partial hd hflat' hb hvb (m := m) ⟨by
    obtain ⟨p, hp, e⟩ := hm.1
    exact ⟨p, (hmem p).mpr hp, e⟩, fun p hp => hm.2 p ((hmem p).mp hp)⟩
  obtain ⟨y, hy, hpos, herr⟩ := stored_value hres hlo hhi hd hb hvb hmem hr
  refine ⟨y, by rw [hval, hy]; rfl, hpos, ?_, ?_⟩ <;> rw [abs_le] at herr
  · have hsq : Real.sqrt m ≤ Real.sqrt n := Real.sqrt_le_sqrt (by exact_mod_cast hn1)
    have hle : res * Real.sqrt m ≤ res * Real.sqrt n := mul_le_mul_of_nonneg_left hsq hres.1.le
    have hrel : relErr ≤ 1 := by unfold relErr; norm_num
    nlinarith [herr.1]
  · have hsq : Real.sqrt n ≤ Real.sqrt 2 * Real.sqrt m := by
      rw [← Real.sqrt_mul (by norm_num)]
      exact Real.sqrt_le_sqrt (by exact_mod_cast hn2)
    have hle := mul_le_mul_of_nonneg_left hsq hres.1.le
    have hrel : 0 ≤ relErr := by unfold relErr; norm_num
    nlinarith [herr.2]

/-- C92, exactness.  If the cells of the class of `v` form a product - `v` lies in a solid box, or in a map
without obstacles - the stored value of `v` is plus or minus the (rounded) distance to the nearest barrier. -/
theorem C92_exact {R : Rounding} {res : ℝ} (hres : GoodRes R res) (h32 : 0 < R.r32 res) {d : Dims}
    (hd : SmallGrid (enlarge d)) {fill : Idx → Option Bool} {f : Idx → Bool} (hf : Answers d fill f)
    {oob : FVal} {o : Out} (ho : extract R (res, res, res) d fill oob true = some o) {v : Idx}
    (hv : InBounds d v) {A B C : ℤ → Prop} (hprod : IsProduct d (fun i => f i = f v) A B C) {m : ℤ}
    (hm : NearestBarrier d f v m) :
    o.sdf.get v = some (if f v then -R.r32 (R.r64 (R.r64 ((Real.sqrt m : ℝ) : EReal) * res))
      else R.r32 (R.r64 (R.r64 ((Real.sqrt m : ℝ) : EReal) * res))) := by
  obtain ⟨pts, s, hb, hmem, hval⟩ := border_field hres h32 hd hf ho hv
  have hvb := (real_not_border hv).2
  rw [← nearest_iff hv] at hm
  have hP : IsProduct (enlarge d) (fun i => borderFn d (!f v) f i = f v)
      (fun x => (0 ≤ x - off d.nx ∧ x - off d.nx < d.nx) ∧ A (x - off d.nx))
      (fun y => (0 ≤ y - off d.ny ∧ y - off d.ny < d.ny) ∧ B (y - off d.ny))
      (fun z => (0 ≤ z - off d.nz ∧ z - off d.nz < d.nz) ∧ C (z - off d.nz)) := by
    intro i hi
    rw [← sub_add_offset d i] at hi ⊢
    generalize i - offset d = p at hi ⊢
    have hc : ((0 ≤ p.x ∧ p.x < d.nx) ∧ A p.x) ∧ ((0 ≤ p.y ∧ p.y < d.ny) ∧ B p.y) ∧
        ((0 ≤ p.z ∧ p.z < d.nz) ∧ C p.z) ↔ InBounds d p ∧ A p.x ∧ B p.y ∧ C p.z := by
      unfold InBounds; tauto
    have ex : (p + offset d).x - off d.nx = p.x := by simp [offset, Idx.add_x]
    have ey : (p + offset d).y - off d.ny = p.y := by simp [offset, Idx.add_y]
    have ez : (p + offset d).z - off d.nz = p.z := by simp [offset, Idx.add_z]
    dsimp only
    rw [ex, ey, ez, hc]
    by_cases hp : InBounds d p
    · rw [borderFn_real hp]
      simpa [hp] using hprod p hp
    · rw [borderFn_layer ⟨hp, (inBounds_enlarge d p).mp hi⟩]
      simp [hp]
  obtain ⟨A', B', C', hP⟩ : ∃ A' B' C', IsProduct (enlarge d) (fun i => borderFn d (!f v) f i = f v) A' B' C' :=
    ⟨_, _, _, hP⟩
  have hor : ∀ b, f v = b → IsProduct (enlarge d) (fun i => borderFn d (!f v) f i = b) A' B' C' := by
    intro b hfv i hi
    have := hP i hi
    dsimp only at this ⊢
    rw [← hfv]
    exact this
  obtain ⟨n, hr, hn⟩ := product_exact hd (by
    rcases Bool.eq_false_or_eq_true (f v) with h | h
    · exact Or.inl (hor _ h)
    · exact Or.inr (hor _ h)) hvb hm hb hmem
  rw [hval, hr]
  have : ((m : ℤ) : ℝ) = n := by rw [← hn]; simp
  rw [this]
  simp [scaled, sqrtE]

/-- There is a nearest barrier in every grid with an axis of more than one cell. -/
theorem C92_barrier_exists {d : Dims} (hd : 1 < d.nx ∨ 1 < d.ny ∨ 1 < d.nz) (f : Idx → Bool) {v : Idx}
    (hv : InBounds d v) : ∃ m, NearestBarrier d f v m := by
  have hex : ∃ n : ℕ, ∃ p, Barrier d f v p ∧ sqDist v p = n := by
    have hp : ∃ p, Layer d p := by
      unfold InBounds at hv
      rcases hd with h | h | h
      · exact ⟨⟨-1, v.y, v.z⟩, by simp [InBounds], Or.inr ⟨h, Or.inl rfl⟩, Or.inl hv.2.1, Or.inl hv.2.2⟩
      · exact ⟨⟨v.x, -1, v.z⟩, by simp [InBounds], Or.inl hv.1, Or.inr ⟨h, Or.inl rfl⟩, Or.inl hv.2.2⟩
      · exact ⟨⟨v.x, v.y, -1⟩, by simp [InBounds], Or.inl hv.1, Or.inl hv.2.1, Or.inr ⟨h, Or.inl rfl⟩⟩
    obtain ⟨p, hp⟩ := hp
    exact ⟨(sqDist v p).toNat, p, Or.inr hp, by
      rw [Int.toNat_of_nonneg]; unfold sqDist; positivity⟩
  classical
  obtain ⟨p, hp, e⟩ := Nat.find_spec hex
  refine ⟨Nat.find hex, ⟨p, hp, e⟩, ?_⟩
  intro q hq
  have h0 : 0 ≤ sqDist v q := by unfold sqDist; positivity
  have := Nat.find_min' hex ⟨q, hq, (Int.toNat_of_nonneg h0).symm⟩
  omega

open Classical in
/-- C92 for the SDF of a collision map with border: the extraction succeeds, and every value is infinite or,
up to the relative error, the distance to an opposite or virtual cell not nearer than the nearest. -/
theorem C92_collision_map {res : ℝ} (hres : GoodRes ieee res) (hlo : 1 / 2 ^ 126 ≤ res) (hhi : res ≤ 2 ^ 100)
    (m : CMap) (hd : SmallGrid (enlarge m.grid.dims)) (oob : FVal) (u : Bool) :
    ∃ o, extractMap ieee (res, res, res) m oob u true = some o ∧
      ∀ v, InBounds m.grid.dims v →
        o.sdf.get v = some (if Obstacle m u v then ⊥ else ⊤) ∨
        ∃ (y : ℝ) (p : Idx), o.sdf.get v = some (if Obstacle m u v then ((-y : ℝ) : EReal) else (y : EReal)) ∧
          0 < y ∧ Barrier m.grid.dims (fun i => decide (Obstacle m u i)) v p ∧
          |y - res * Real.sqrt (sqDist v p)| ≤ relErr * (res * Real.sqrt (sqDist v p)) ∧
          ∀ k, NearestBarrier m.grid.dims (fun i => decide (Obstacle m u i)) v k →
            (1 - relErr) * (res * Real.sqrt k) ≤ y := by
  obtain ⟨⟨o, ho⟩, _⟩ := C17_safe_queries hd ieee res oob (mapFill_answers m u) (mapFill_answers m u)
  refine ⟨o, ho, ?_⟩
  intro v hv
  simpa using C92_accuracy hres hlo hhi hd (mapFill_answers m u) ho hv

/-- A map without obstacles: at cell (2, 1, 0) of a 5 x 4 x 1 grid the nearest barrier is the virtual cell
(2, -1, 0). -/
example : SmallGrid (enlarge ⟨5, 4, 1⟩) ∧ Flat ⟨5, 4, 1⟩ ∧
    IsProduct ⟨5, 4, 1⟩ (fun i => (fun _ : Idx => false) i = (fun _ : Idx => false) (⟨2, 1, 0⟩ : Idx))
      (fun _ => True) (fun _ => True) (fun _ => True) ∧
    NearestBarrier ⟨5, 4, 1⟩ (fun _ => false) ⟨2, 1, 0⟩ 4 := by
  refine ⟨by unfold SmallGrid enlarge off; decide, Or.inr (Or.inr rfl), fun i _ => by simp,
    ⟨⟨2, -1, 0⟩, Or.inr ⟨by simp [InBounds], ?_⟩, by norm_num [sqDist]⟩, ?_⟩
  · simp [NearAxis]
  · rintro ⟨x, y, z⟩ (⟨_, h⟩ | ⟨h, h1, h2, h3⟩)
    · exact absurd rfl h
    · have h' : ¬ ((0 ≤ x ∧ x < 5) ∧ (0 ≤ y ∧ y < 4) ∧ (0 ≤ z ∧ z < 1)) := h
      have h3' : (0 ≤ z ∧ z < 1) ∨ (1 < 1 ∧ (z = -1 ∨ z = 1)) := h3
      have key : (2 : ℤ).natAbs ≤ (2 - x).natAbs ∨ (2 : ℤ).natAbs ≤ (1 - y).natAbs := by omega
      have s1 := sq_nonneg (2 - x)
      have s2 := sq_nonneg (1 - y)
      have s3 := sq_nonneg (0 - z)
      unfold sqDist
      dsimp only
      rcases key with h | h <;> have := BoxExact.sq_le_sq_nat h <;> linarith

/-- Extractions with a border succeed. -/
example : ∃ o, extract ieee ((1 / 4 : ℝ), (1 / 4 : ℝ), (1 / 4 : ℝ)) ⟨5, 4, 1⟩ (fun _ => some false) (some ⊤)
    true = some o :=
  (C17_safe_queries (by unfold SmallGrid enlarge off; decide) ieee (1 / 4) (some ⊤)
    (fun _ _ => rfl : Answers ⟨5, 4, 1⟩ (fun _ => some false) (fun _ => false)) (fun _ _ => rfl)).1

end Verif
