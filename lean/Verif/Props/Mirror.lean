import Verif.Props.Enlarge

/-!
# C134: congruent maps

The distances of a map that is mirrored or turned.  Distances in space do not change; the stored ones can,
because the wavefront visits the cells in another order.
-/

namespace Verif

open Spec SdfGen DField

/-- The renamed map: the same cells are filled. -/
def SameClasses (d : Dims) (σ : Idx → Idx) (f f' : Idx → Bool) : Prop := ∀ v, InBounds d v → f' (σ v) = f v

theorem nearest_congruent {d d' : Dims} {σ : Idx → Idx} (hσ : Congruent d d' σ) {f f' : Idx → Bool}
    (hc : SameClasses d σ f f') {v : Idx} (hv : InBounds d v) {m : ℤ} (hm : NearestOpposite d f v m) :
    NearestOpposite d' f' (σ v) m := by
  obtain ⟨hin, honto, hdist⟩ := hσ
  obtain ⟨⟨p, hp, e⟩, hmin⟩ := hm
  refine ⟨⟨σ p, ⟨hin p hp.1, ?_⟩, by rw [hdist v p hv hp.1]; exact e⟩, ?_⟩
  · rw [hc p hp.1, hc v hv]; exact hp.2
  · rintro w ⟨hw, hne⟩
    obtain ⟨q, hq, rfl⟩ := honto w hw
    rw [hdist v q hv hq]
    refine hmin q ⟨hq, ?_⟩
    rwa [hc q hq, hc v hv] at hne

/-- C134 near the boundary of the obstacles, any rounding: where the nearest cell of the other class is less
than `sqrt 8` cells away, the renamed cell stores the same value.  Missing: larger distances (`C134_false`). -/
theorem C134_near_partial {R : Rounding} {res : ℝ} {d d' : Dims} (hd : SmallGrid d) (hd' : SmallGrid d')
    {σ : Idx → Idx} (hσ : Congruent d d' σ) {fill fill' : Idx → Option Bool} {f f' : Idx → Bool}
    (hf : Answers d fill f) (hf' : Answers d' fill' f') (hc : SameClasses d σ f f') {oob oob' : FVal} {o o' : Out}
    (ho : extract R (res, res, res) d fill oob false = some o)
    (ho' : extract R (res, res, res) d' fill' oob' false = some o') {v : Idx} (hv : InBounds d v) {m : ℤ}
    (hm : NearestOpposite d f v m) (h8 : m < 8) : o'.sdf.get (σ v) = o.sdf.get v := by
  obtain ⟨q, a, b, hq, hs⟩ := base_spec hd hf R res oob
  obtain ⟨q', a', b', hq', hs'⟩ := base_spec hd' hf' R res oob'
  rw [extract_false, hq] at ho
  rw [extract_false, hq'] at ho'
  rw [← Option.some.inj ho, ← Option.some.inj ho']
  have hm' := nearest_congruent hσ hc hv hm
  obtain ⟨pts, s, hb, hmem, hval⟩ := opposite_field hs hv
  obtain ⟨pts', s', hb', hmem', hval'⟩ := opposite_field hs' (hσ.1 v hv)
  obtain ⟨n, hr, hn⟩ := C10_exact_below_8_partial hd hb hv (m := m) ⟨by
    obtain ⟨p, hp, e⟩ := hm.1
    exact ⟨p, (hmem p).mpr hp, e⟩, fun p hp => hm.2 p ((hmem p).mp hp)⟩ h8
  obtain ⟨n', hr', hn'⟩ := C10_exact_below_8_partial hd' hb' (hσ.1 v hv) (m := m) ⟨by
    obtain ⟨p, hp, e⟩ := hm'.1
    exact ⟨p, (hmem' p).mpr hp, e⟩, fun p hp => hm'.2 p ((hmem' p).mp hp)⟩ h8
  have e : n' = n := by omega
  rw [hval, hval', hc v hv, hr, hr', e]

/-- C134 for two-dimensional maps with cells of both classes: the two stored values are finite, have the same
sign, and differ by a factor of at most 1.42.  Missing: equality (`C134_false`); thick maps. -/
theorem C134_flat_partial {res : ℝ} (hres : GoodRes ieee res) (hlo : 1 / 2 ^ 126 ≤ res) (hhi : res ≤ 2 ^ 100)
    {d d' : Dims} (hd : SmallGrid d) (hd' : SmallGrid d') (hflat : Flat d) (hflat' : Flat d')
    {σ : Idx → Idx} (hσ : Congruent d d' σ) {fill fill' : Idx → Option Bool} {f f' : Idx → Bool}
    (hf : Answers d fill f) (hf' : Answers d' fill' f') (hc : SameClasses d σ f f') {oob oob' : FVal} {o o' : Out}
    (ho : extract ieee (res, res, res) d fill oob false = some o)
    (ho' : extract ieee (res, res, res) d' fill' oob' false = some o') {v : Idx} (hv : InBounds d v) {m : ℤ}
    (hm : NearestOpposite d f v m) :
    ∃ x y : ℝ, 0 < x ∧ 0 < y ∧ o.sdf.get v = some (if f v then ((-x : ℝ) : EReal) else (x : EReal)) ∧
      o'.sdf.get (σ v) = some (if f v then ((-y : ℝ) : EReal) else (y : EReal)) ∧
      y ≤ 71 / 50 * x ∧ x ≤ 71 / 50 * y := by
  obtain ⟨x, ex, hx0, hx1, hx2⟩ := C86_flat hres hlo hhi hd hflat hf ho hv hm
  obtain ⟨y, ey, hy0, hy1, hy2⟩ := C86_flat hres hlo hhi hd' hflat' hf' ho' (hσ.1 v hv)
    (nearest_congruent hσ hc hv hm)
  rw [hc v hv] at ey
  refine ⟨x, y, hx0, hy0, ex, ey, ?_⟩
  have hr0 : 0 ≤ relErr := by unfold relErr; norm_num
  have hr : relErr ≤ 1 / 10000 := by unfold relErr; norm_num
  have hs2 : Real.sqrt 2 ≤ 14143 / 10000 := by rw [Real.sqrt_le_iff]; norm_num
  have ht : 0 ≤ res * Real.sqrt m := mul_nonneg hres.1.le (Real.sqrt_nonneg _)
  have e2 : (1 + relErr) * (res * (Real.sqrt 2 * Real.sqrt m)) =
      ((1 + relErr) * Real.sqrt 2) * (res * Real.sqrt m) := by ring
  rw [e2] at hx2 hy2
  have hk : (1 + relErr) * Real.sqrt 2 ≤ 71 / 50 * (1 - relErr) := by
    have h1 : (1 + relErr) * Real.sqrt 2 ≤ (1 + 1 / 10000) * (14143 / 10000) :=
      mul_le_mul (by linarith) hs2 (Real.sqrt_nonneg _) (by norm_num)
    linarith
  have h3 := mul_le_mul_of_nonneg_right hk ht
  constructor <;> nlinarith only [h3, hx1, hx2, hy1, hy2]

/-- Mirroring along the first axis is such a renaming. -/
theorem congruent_mirrorX (d : Dims) : Congruent d d (mirrorX d) := by
  refine ⟨fun v hv => ?_, fun w hw => ⟨mirrorX d w, ?_, ?_⟩, fun u v _ _ => ?_⟩
  · unfold InBounds mirrorX at *
    dsimp only
    omega
  · unfold InBounds mirrorX at *
    dsimp only
    omega
  · unfold mirrorX
    ext <;> dsimp only
    omega
  · unfold mirrorX sqDist
    dsimp only
    ring

/-- Exchanging the first two axes is such a renaming. -/
theorem congruent_swapXY (d : Dims) : Congruent d ⟨d.ny, d.nx, d.nz⟩ swapXY := by
  refine ⟨fun v hv => ?_, fun w hw => ⟨swapXY w, ?_, rfl⟩, fun u v _ _ => ?_⟩
  · unfold InBounds swapXY at *
    dsimp only
    omega
  · unfold InBounds swapXY at *
    dsimp only at *
    omega
  · unfold swapXY sqDist
    dsimp only
    ring

/-- C134 in full, for IEEE arithmetic and mirroring along the first axis. -/
def C134Statement : Prop := ∀ (res : ℝ) (d : Dims) (fill fill' : Idx → Option Bool) (f f' : Idx → Bool)
    (oob : FVal) (o o' : Out) (v : Idx), GoodRes ieee res → SmallGrid d → Answers d fill f → Answers d fill' f' →
    SameClasses d (mirrorX d) f f' → extract ieee (res, res, res) d fill oob false = some o →
    extract ieee (res, res, res) d fill' oob false = some o' → InBounds d v →
    o'.sdf.get (mirrorX d v) = o.sdf.get v

def exMir : Idx → Bool := fun i => decide (i ∈ [(⟨0, 0, 0⟩ : Idx), ⟨2, 1, 0⟩, ⟨3, 2, 0⟩])

def exMir' : Idx → Bool := fun i => decide (i ∈ [(⟨3, 0, 0⟩ : Idx), ⟨1, 1, 0⟩, ⟨0, 2, 0⟩])

theorem exMir_same : SameClasses ⟨4, 4, 1⟩ (mirrorX ⟨4, 4, 1⟩) exMir exMir' := by
  rintro ⟨x, y, z⟩ _
  simp only [exMir, exMir', mirrorX, List.mem_cons, List.not_mem_nil, or_false, Idx.mk.injEq, decide_eq_decide]
  omega

/-- C134 fails: mirroring a 4 x 4 x 1 map with three filled cells changes the stored distance of a corner cell
(from sqrt 8 to 3, rounded). -/
theorem C134_false : ¬ C134Statement := by
  intro h
  have hs : SmallGrid ⟨4, 4, 1⟩ := by unfold SmallGrid; decide
  have ha : ∀ f : Idx → Bool, Answers ⟨4, 4, 1⟩ (fun i => some (f i)) f := fun f i _ => rfl
  have hv : InBounds ⟨4, 4, 1⟩ ⟨0, 3, 0⟩ := by norm_num [InBounds]
  have hv' : InBounds ⟨4, 4, 1⟩ ⟨3, 3, 0⟩ := by norm_num [InBounds]
  have hfree : exMir ⟨0, 3, 0⟩ = false := by decide
  have hfree' : exMir' ⟨3, 3, 0⟩ = false := by decide
  obtain ⟨q, a, b, hq, hb⟩ := base_spec hs (ha exMir) ieee 1 none
  obtain ⟨q', a', b', hq', hb'⟩ := base_spec hs (ha exMir') ieee 1 none
  have key := h 1 ⟨4, 4, 1⟩ _ _ exMir exMir' none q q' ⟨0, 3, 0⟩ FSdf.goodRes_ieee_one hs
    (ha _) (ha _) exMir_same (by rw [extract_false, hq]) (by rw [extract_false, hq']) hv
  have w : (build ⟨4, 4, 1⟩ (Dims.all ⟨4, 4, 1⟩ |>.filter exMir)).map (fun s => reported s ⟨0, 3, 0⟩) =
      some (some 8) := by decide +kernel
  have w' : (build ⟨4, 4, 1⟩ (Dims.all ⟨4, 4, 1⟩ |>.filter exMir')).map (fun s => reported s ⟨3, 3, 0⟩) =
      some (some 9) := by decide +kernel
  rw [hb.ha] at w
  rw [hb'.ha] at w'
  simp only [Option.map_some, Option.some.injEq] at w w'
  have e : mirrorX ⟨4, 4, 1⟩ ⟨0, 3, 0⟩ = ⟨3, 3, 0⟩ := rfl
  rw [e, hb.val _ hv, hb'.val _ hv', exactVal, exactVal, hfree, hfree', w, w'] at key
  exact stored_8_9 (by simpa using key.symm)

/-- The distance field is not determined by the set of its sources: the same three sources in another order
give another squared distance (8 and 9) at a cell of a 4 x 4 x 1 grid. -/
theorem C134_order : ∃ (pts pts' : List Idx) (s s' : St) (v : Idx), pts.Perm pts' ∧
    build ⟨4, 4, 1⟩ pts = some s ∧ build ⟨4, 4, 1⟩ pts' = some s' ∧ reported s v = some 8 ∧ reported s' v = some 9 := by
  have w : (build ⟨4, 4, 1⟩ [⟨0, 0, 0⟩, ⟨2, 1, 0⟩, ⟨3, 2, 0⟩]).map (fun s => reported s ⟨0, 3, 0⟩) =
      some (some 8) := by decide +kernel
  have w' : (build ⟨4, 4, 1⟩ [⟨3, 2, 0⟩, ⟨2, 1, 0⟩, ⟨0, 0, 0⟩]).map (fun s => reported s ⟨0, 3, 0⟩) =
      some (some 9) := by decide +kernel
  rw [Option.map_eq_some_iff] at w w'
  obtain ⟨s, hs, h⟩ := w
  obtain ⟨s', hs', h'⟩ := w'
  refine ⟨_, _, s, s', ⟨0, 3, 0⟩, ?_, hs, hs', h, h'⟩
  exact List.reverse_perm [(⟨3, 2, 0⟩ : Idx), ⟨2, 1, 0⟩, ⟨0, 0, 0⟩]

/-- The hypotheses are met by the maps of `C134_false`, at a cell next to a filled one. -/
example : SmallGrid ⟨4, 4, 1⟩ ∧ Flat ⟨4, 4, 1⟩ ∧ Congruent ⟨4, 4, 1⟩ ⟨4, 4, 1⟩ (mirrorX ⟨4, 4, 1⟩) ∧
    SameClasses ⟨4, 4, 1⟩ (mirrorX ⟨4, 4, 1⟩) exMir exMir' ∧ NearestOpposite ⟨4, 4, 1⟩ exMir ⟨0, 1, 0⟩ 1 := by
  refine ⟨by unfold SmallGrid; decide, Or.inr (Or.inr rfl), congruent_mirrorX _, exMir_same,
    ⟨⟨0, 0, 0⟩, ⟨by norm_num [InBounds], by decide⟩, by norm_num [sqDist]⟩, ?_⟩
  rintro ⟨x, y, z⟩ ⟨_, hne⟩
  have h0 : (⟨x, y, z⟩ : Idx) ≠ ⟨0, 1, 0⟩ := fun e => hne (by rw [e])
  have h1 : ¬ (x = 0 ∧ y - 1 = 0 ∧ z = 0) := by
    rintro ⟨rfl, hy, rfl⟩
    exact h0 (by congr 1; omega)
  simp only [sqDist]
  have key : ∀ a : ℤ, a ≠ 0 → 1 ≤ a ^ 2 := fun a ha => by have := sq_pos_of_ne_zero ha; omega
  by_cases hx : x = 0
  · by_cases hy : y - 1 = 0
    · have := key z (fun hz => h1 ⟨hx, hy, hz⟩)
      nlinarith [sq_nonneg x, sq_nonneg (y - 1)]
    · have := key (y - 1) hy
      nlinarith [sq_nonneg x, sq_nonneg z]
  · have := key x hx
    nlinarith [sq_nonneg (y - 1), sq_nonneg z]

end Verif
