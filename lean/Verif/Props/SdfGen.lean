import Verif.SdfGen
import Verif.CollisionMap
import Verif.Props.DistanceField

/-!
# Properties of signed distance field extraction (C13 - C18)

`SdfGen.extract R (res, res, res) d fill oob border` is `ExtractSignedDistanceField` for a grid with
cell counts `d` and cell size `res`; `fill` is the fill predicate, which may throw (`none`).
The result is `none` if an exception escapes.
-/

namespace Verif

open Spec DField SdfGen

/-- The predicate returns `f` on every cell of the grid; outside it may do anything (throw). -/
def Answers (d : Dims) (fill : Idx → Option Bool) (f : Idx → Bool) : Prop :=
  ∀ i, InBounds d i → fill i = some (f i)

/-- The cell size is a positive double. -/
def GoodRes (R : Rounding) (res : ℝ) : Prop := 0 < res ∧ R.r64 res = res

namespace SdfGen

variable {R : Rounding}

/-- Value before conversion to float. -/
noncomputable def exactVal (R : Rounding) (res : ℝ) (a b : St) (f : Idx → Bool) (v : Idx) : EReal :=
  if f v then -scaled R res (reported b v) else scaled R res (reported a v)

structure BaseSpec (R : Rounding) (res : ℝ) (d : Dims) (f : Idx → Bool) (oob : FVal) (o : Out)
    (a b : St) : Prop where
  ha : build d (d.all.filter f) = some a
  hb : build d (d.all.filter fun i => !f i) = some b
  wf : o.sdf.WF
  dims : o.sdf.dims = d
  oob : o.sdf.oob = oob
  val : ∀ v, InBounds d v → o.sdf.get v = some (R.r32 (exactVal R res a b f v))
  filled0 : ∀ v, InBounds d v → (f v = true ↔ reported a v = some 0)
  free0 : ∀ v, InBounds d v → (f v = false ↔ reported b v = some 0)
  max_ge : ∀ v, InBounds d v → exactVal R res a b f v ≤ o.max
  max_at : o.max = ⊥ ∨ ∃ v, InBounds d v ∧ exactVal R res a b f v = o.max
  min_le : ∀ v, InBounds d v → o.min ≤ exactVal R res a b f v
  min_at : o.min = ⊤ ∨ ∃ v, InBounds d v ∧ exactVal R res a b f v = o.min

theorem foldl_congr_mem {α β : Type} {f g : α → β → α} : ∀ (l : List β) (x : α),
    (∀ a, ∀ b ∈ l, f a b = g a b) → l.foldl f x = l.foldl g x := by
  intro l
  induction l with
  | nil => intro x _; rfl
  | cons b l ih =>
    intro x h
    simp only [List.foldl_cons]
    rw [h x b (List.mem_cons_self ..)]
    exact ih _ (fun a c hc => h a c (List.mem_cons_of_mem _ hc))

theorem base_spec {d : Dims} (hd : SmallGrid d) {fill : Idx → Option Bool} {f : Idx → Bool}
    (hf : Answers d fill f) (R : Rounding) (res : ℝ) (oob : FVal) :
    ∃ o a b, base R res d fill oob = some o ∧ BaseSpec R res d f oob o a b := by
  have hpart := partition_some (fill := fill) (f := f) (l := d.all)
    (fun i hi => hf i (inB_iff_spec.mp (Dims.mem_all.mp hi)))
  obtain ⟨a0, ea, -⟩ := (build_spec d (d.all.filter f)).2
    (fun p hp => Dims.mem_all.mp (List.mem_of_mem_filter hp))
  obtain ⟨b0, eb, -⟩ := (build_spec d (d.all.filter fun i => !f i)).2
    (fun p hp => Dims.mem_all.mp (List.mem_of_mem_filter hp))
  set a := after a0 (maxSq d + 1) with ha
  set b := after b0 (maxSq d + 1) with hb
  have hfl := fillLoop_spec R res a.field b.field d.all ⟨Grid.mk' d oob oob, ⊥, ⊤⟩
    (Grid.wf_mk' _ _ _) (fun i hi => Dims.mem_all.mp hi)
  obtain ⟨h1, h2, h3, h4, h5, h6⟩ := hfl
  have z1 : ∀ v, InBounds d v → (f v = true ↔ reported a v = some 0) := by
    intro v hv
    rw [(C09_zero_iff_source hd ea hv).1, List.mem_filter, Dims.mem_all]
    simp [inB_iff_spec.mpr hv]
  have z2 : ∀ v, InBounds d v → (f v = false ↔ reported b v = some 0) := by
    intro v hv
    rw [(C09_zero_iff_source hd eb hv).1, List.mem_filter, Dims.mem_all]
    simp [inB_iff_spec.mpr hv]
  have hdist : ∀ v, InBounds d v → distance R res (a.field.get v).dist (b.field.get v).dist =
      some (exactVal R res a b f v) := by
    intro v hv
    unfold exactVal
    cases hfv : f v with
    | true =>
      have := (z1 v hv).mp hfv
      unfold reported at this
      rw [this, distance_filled]; rfl
    | false =>
      have := (z2 v hv).mp hfv
      unfold reported at this
      rw [this, distance_free]; rfl
  have hfold : d.all.foldl (fun e i => updExtrema e
      (distance R res (a.field.get i).dist (b.field.get i).dist)) ((⊥ : EReal), (⊤ : EReal)) =
      d.all.foldl (fun e i => updExtrema e (some (exactVal R res a b f i))) (⊥, ⊤) :=
    foldl_congr_mem _ _ (fun e i hi => by rw [hdist i (inB_iff_spec.mp (Dims.mem_all.mp hi))])
  have hext := extrema_fold (exactVal R res a b f) d.all (⊥, ⊤)
  rw [← hfold] at hext
  obtain ⟨⟨_, x2, x3⟩, ⟨_, y2, y3⟩⟩ := hext
  refine ⟨_, a, b, ?_, ea, eb, h1, h2, h3, ?_, z1, z2, ?_, ?_, ?_, ?_⟩
  · unfold base
    rw [hpart]
    simp only
    rw [ea, eb]
  · intro v hv
    rw [h4 v, if_pos (Dims.mem_all.mpr (inB_iff_spec.mpr hv)), hdist v hv]
    rfl
  · intro v hv; rw [h5]; exact x2 v (Dims.mem_all.mpr (inB_iff_spec.mpr hv))
  · rw [h5]
    rcases x3 with x3 | ⟨i, hi, x3⟩
    · exact Or.inl x3
    · exact Or.inr ⟨i, inB_iff_spec.mp (Dims.mem_all.mp hi), x3⟩
  · intro v hv; rw [h6]; exact y2 v (Dims.mem_all.mpr (inB_iff_spec.mpr hv))
  · rw [h6]
    rcases y3 with y3 | ⟨i, hi, y3⟩
    · exact Or.inl y3
    · exact Or.inr ⟨i, inB_iff_spec.mp (Dims.mem_all.mp hi), y3⟩

theorem BaseSpec.max_attained {res : ℝ} {d : Dims} {f : Idx → Bool} {oob : FVal} {o : Out} {a b : St}
    (h : BaseSpec R res d f oob o a b) {w : Idx} (hw : InBounds d w) :
    ∃ v, InBounds d v ∧ exactVal R res a b f v = o.max := by
  rcases h.max_at with hb | hv
  · refine ⟨w, hw, ?_⟩
    have := h.max_ge w hw
    rw [hb] at this ⊢
    exact le_bot_iff.mp this
  · exact hv

theorem BaseSpec.min_attained {res : ℝ} {d : Dims} {f : Idx → Bool} {oob : FVal} {o : Out} {a b : St}
    (h : BaseSpec R res d f oob o a b) {w : Idx} (hw : InBounds d w) :
    ∃ v, InBounds d v ∧ exactVal R res a b f v = o.min := by
  rcases h.min_at with hb | hv
  · refine ⟨w, hw, ?_⟩
    have := h.min_le w hw
    rw [hb] at this ⊢
    exact top_le_iff.mp this
  · exact hv

theorem BaseSpec.free_ge {res : ℝ} (hres : GoodRes R res) {d : Dims} {f : Idx → Bool} {oob : FVal}
    {o : Out} {a b : St} (h : BaseSpec R res d f oob o a b) {v : Idx} (hv : InBounds d v)
    (hfv : f v = false) : (res : EReal) ≤ exactVal R res a b f v := by
  unfold exactVal
  rw [hfv]
  apply le_scaled hres.1 hres.2
  intro h0
  have := (h.filled0 v hv).mpr h0
  rw [hfv] at this
  simp at this

theorem BaseSpec.filled_le {res : ℝ} (hres : GoodRes R res) {d : Dims} {f : Idx → Bool} {oob : FVal}
    {o : Out} {a b : St} (h : BaseSpec R res d f oob o a b) {v : Idx} (hv : InBounds d v)
    (hfv : f v = true) : exactVal R res a b f v ≤ -(res : EReal) := by
  unfold exactVal
  rw [hfv]
  simp only [if_true]
  rw [EReal.neg_le_neg_iff]
  apply le_scaled hres.1 hres.2
  intro h0
  have := (h.free0 v hv).mpr h0
  rw [hfv] at this
  simp at this

theorem extract_false (R : Rounding) (res : ℝ) (d : Dims) (fill : Idx → Option Bool) (oob : FVal) :
    extract R (res, res, res) d fill oob false = base R res d fill oob := by
  unfold extract; simp

end SdfGen

/-! ## C13 -/

/-- C13.  Without a border, the extraction succeeds; filled cells get at most minus the stored
resolution, the others at least the stored resolution, and no value is NaN. -/
theorem C13_sign {R : Rounding} {res : ℝ} (hres : GoodRes R res) {d : Dims} (hd : SmallGrid d)
    {fill : Idx → Option Bool} {f : Idx → Bool} (hf : Answers d fill f) (oob : FVal) :
    ∃ o, extract R (res, res, res) d fill oob false = some o ∧ o.sdf.dims = d ∧
      ∀ v, InBounds d v → ∃ x, o.sdf.get v = some x ∧
        (f v = true → x ≤ -R.r32 res) ∧ (f v = false → R.r32 res ≤ x) := by
  obtain ⟨o, a, b, ho, hs⟩ := base_spec hd hf R res oob
  refine ⟨o, by rw [extract_false]; exact ho, hs.dims, ?_⟩
  intro v hv
  refine ⟨_, hs.val v hv, ?_, ?_⟩
  · intro hfv
    rw [← R.odd32]
    exact R.mono32 (hs.filled_le hres hv hfv)
  · intro hfv
    exact R.mono32 (hs.free_ge hres hv hfv)

/-- C13, strict form: if the resolution does not underflow to zero as a float, no value is zero and
the sign tells filled from free. -/
theorem C13_nonzero {R : Rounding} {res : ℝ} (hres : GoodRes R res) (h32 : 0 < R.r32 res)
    {d : Dims} (hd : SmallGrid d) {fill : Idx → Option Bool} {f : Idx → Bool}
    (hf : Answers d fill f) {oob : FVal} {o : Out}
    (ho : extract R (res, res, res) d fill oob false = some o) {v : Idx} (hv : InBounds d v) :
    ∃ x, o.sdf.get v = some x ∧ x ≠ 0 ∧ (x < 0 ↔ f v = true) ∧ (0 < x ↔ f v = false) := by
  obtain ⟨o', ho', _, hall⟩ := C13_sign hres hd hf oob
  rw [ho] at ho'
  simp only [Option.some.injEq] at ho'
  subst ho'
  obtain ⟨x, hx, h1, h2⟩ := hall v hv
  have hneg : -R.r32 res < 0 := by
    rw [show (0 : EReal) = -0 by simp, EReal.neg_lt_neg_iff]; exact h32
  refine ⟨x, hx, ?_, ?_⟩
  · rintro rfl
    cases hfv : f v with
    | true => exact absurd (h1 hfv) (not_le.mpr hneg)
    | false => exact absurd (h2 hfv) (not_le.mpr h32)
  · cases hfv : f v with
    | true =>
      have : x < 0 := lt_of_le_of_lt (h1 hfv) hneg
      simp [this, not_lt.mpr this.le]
    | false =>
      have : 0 < x := lt_of_lt_of_le h32 (h2 hfv)
      simp [this, not_lt.mpr this.le]

/-- The extraction throws if the cell sizes differ, or if the predicate throws on some cell. -/
theorem C13_throws (R : Rounding) (d : Dims) (fill : Idx → Option Bool) (oob : FVal) :
    (∀ sizes border, (sizes.1 ≠ sizes.2.1 ∨ sizes.1 ≠ sizes.2.2) →
      extract R sizes d fill oob border = none) ∧
    (∀ res, (∃ i, InBounds d i ∧ fill i = none) →
      extract R (res, res, res) d fill oob false = none) := by
  constructor
  · intro sizes border h
    unfold extract
    rw [if_pos h]
  · rintro res ⟨i, hi, hn⟩
    rw [extract_false]
    unfold base
    rw [partition_none ⟨i, Dims.mem_all.mpr (inB_iff_spec.mpr hi), hn⟩]

/-- A predicate that is filled on one cell and throws outside a 2 x 2 x 2 grid. -/
def exFill (i : Idx) : Option Bool :=
  if (⟨2, 2, 2⟩ : Dims).inB i then some (decide (i = ⟨0, 0, 0⟩)) else none

theorem exFill_answers : Answers ⟨2, 2, 2⟩ exFill (fun i => decide (i = ⟨0, 0, 0⟩)) := by
  intro i hi
  unfold exFill
  rw [if_pos (inB_iff_spec.mpr hi)]

example : GoodRes exactRounding (1 / 4) ∧ 0 < exactRounding.r32 ((1 / 4 : ℝ) : EReal) ∧
    SmallGrid ⟨2, 2, 2⟩ ∧ exFill ⟨2, 0, 0⟩ = none := by
  refine ⟨⟨by norm_num, rfl⟩, ?_, by unfold SmallGrid; decide, by decide⟩
  show (0 : EReal) < ((1 / 4 : ℝ) : EReal)
  exact_mod_cast (by norm_num : (0 : ℝ) < 1 / 4)

/-- A cell of a collision map counts as an obstacle: occupancy above 0.5, or exactly 0.5 when unknown
space is to be filled. -/
def Obstacle (m : CMap) (unknownIsFilled : Bool) (i : Idx) : Prop :=
  (m.getImm i).1.occ.gtHalf = true ∨ (unknownIsFilled = true ∧ (m.getImm i).1.occ.eqHalf = true)

/-- The fill predicate of a collision map answers on every cell of the map. -/
theorem mapFill_answers (m : CMap) (u : Bool) :
    Answers m.grid.dims (mapFill m u) (open Classical in fun i => decide (Obstacle m u i)) := by
  intro i hi
  have hb : (m.getImm i).2 = true := by
    simp [CMap.getImm, Grid.getImm, inB_iff_spec.mpr hi]
  unfold mapFill
  simp only [hb, if_true]
  by_cases h1 : (m.getImm i).1.occ.gtHalf = true
  · simp [h1, Obstacle]
  · by_cases h2 : u = true
    · by_cases h3 : (m.getImm i).1.occ.eqHalf = true
      · simp [h1, h2, h3, Obstacle]
      · simp [h1, h3, Obstacle]
    · simp [h1, h2, Obstacle]

/-- C13 and C17 for collision maps.  For every map (any occupancies, NaN included), either setting of
`unknown_is_filled` and with or without border, the extraction does not throw; obstacle cells get at
most minus the stored resolution and all other cells at least the stored resolution. -/
theorem C13_collision_map {R : Rounding} {res : ℝ} (hres : GoodRes R res) (m : CMap)
    (hd : SmallGrid m.grid.dims) (oob : FVal) (u : Bool) :
    ∃ o, extractMap R (res, res, res) m oob u false = some o ∧ o.sdf.dims = m.grid.dims ∧
      ∀ v, InBounds m.grid.dims v → ∃ x, o.sdf.get v = some x ∧
        (Obstacle m u v → x ≤ -R.r32 res) ∧ (¬ Obstacle m u v → R.r32 res ≤ x) := by
  obtain ⟨o, h1, h2, h3⟩ := C13_sign hres hd (mapFill_answers m u) oob
  refine ⟨o, h1, h2, ?_⟩
  intro v hv
  obtain ⟨x, e, a, b⟩ := h3 v hv
  exact ⟨x, e, fun h => a (by simpa using h), fun h => b (by simpa using h)⟩

example : Obstacle ((CMap.create ⟨2, 1, 1⟩ (CCell.ofOcc F32.half) (CCell.ofOcc F32.zero)).setValue
    ⟨0, 0, 0⟩ (CCell.ofOcc F32.one)).1 false ⟨0, 0, 0⟩ ∧
    ¬ Obstacle ((CMap.create ⟨2, 1, 1⟩ (CCell.ofOcc F32.half) (CCell.ofOcc F32.zero)).setValue
    ⟨0, 0, 0⟩ (CCell.ofOcc F32.one)).1 false ⟨1, 0, 0⟩ := by
  unfold Obstacle
  decide +kernel

/-! ## C14 -/

theorem build_nil {d : Dims} (hd : SmallGrid d) {s : St} (h : build d [] = some s) {v : Idx}
    (hv : InBounds d v) : reported s v = none := by
  cases hr : reported s v with
  | none => rfl
  | some n =>
    have := (C08_sound hd h hv hr).1
    simp at this

/-- C14, uniform maps.  Without filled cells every value is `+inf` and the extrema are
`(+inf, +inf)`; without free cells every value is `-inf` and the extrema are `(-inf, -inf)`. -/
theorem C14_uniform {R : Rounding} {res : ℝ} (hres : GoodRes R res) {d : Dims} (hd : SmallGrid d)
    {w : Idx} (hw : InBounds d w) {fill : Idx → Option Bool} {f : Idx → Bool}
    (hf : Answers d fill f) {oob : FVal} {o : Out}
    (ho : extract R (res, res, res) d fill oob false = some o) :
    ((∀ v, InBounds d v → f v = false) →
      (∀ v, InBounds d v → o.sdf.get v = some ⊤) ∧ o.max = ⊤ ∧ o.min = ⊤) ∧
    ((∀ v, InBounds d v → f v = true) →
      (∀ v, InBounds d v → o.sdf.get v = some ⊥) ∧ o.max = ⊥ ∧ o.min = ⊥) := by
  obtain ⟨o', a, b, ho', hs⟩ := base_spec hd hf R res oob
  rw [extract_false, ho'] at ho
  simp only [Option.some.injEq] at ho
  subst ho
  constructor
  · intro hall
    have hnil : d.all.filter f = [] := by
      rw [List.filter_eq_nil_iff]
      intro i hi
      rw [hall i (inB_iff_spec.mp (Dims.mem_all.mp hi))]; simp
    have hval : ∀ v, InBounds d v → exactVal R res a b f v = ⊤ := by
      intro v hv
      unfold exactVal
      rw [hall v hv]
      simp only [Bool.false_eq_true, if_false]
      rw [build_nil hd (hnil ▸ hs.ha) hv, scaled_top hres.1]
    refine ⟨fun v hv => ?_, ?_, ?_⟩
    · rw [hs.val v hv, hval v hv, R.top32]
    · obtain ⟨v, hv, he⟩ := hs.max_attained hw
      rw [← he, hval v hv]
    · obtain ⟨v, hv, he⟩ := hs.min_attained hw
      rw [← he, hval v hv]
  · intro hall
    have hnil : d.all.filter (fun i => !f i) = [] := by
      rw [List.filter_eq_nil_iff]
      intro i hi
      rw [hall i (inB_iff_spec.mp (Dims.mem_all.mp hi))]; simp
    have hval : ∀ v, InBounds d v → exactVal R res a b f v = ⊥ := by
      intro v hv
      unfold exactVal
      rw [hall v hv, build_nil hd (hnil ▸ hs.hb) hv, scaled_top hres.1]; rfl
    refine ⟨fun v hv => ?_, ?_, ?_⟩
    · rw [hs.val v hv, hval v hv, show (⊥ : EReal) = -⊤ from rfl, R.odd32, R.top32]
    · obtain ⟨v, hv, he⟩ := hs.max_attained hw
      rw [← he, hval v hv]
    · obtain ⟨v, hv, he⟩ := hs.min_attained hw
      rw [← he, hval v hv]

/-- The reported squared distance of a cell with a source among its 26 neighbours. -/
theorem reported_close {d : Dims} (hd : SmallGrid d) {pts : List Idx} {s : St}
    (h : build d pts = some s) {v p : Idx} (hv : InBounds d v) (hp : p ∈ pts) (hc : Close v p) :
    ∃ n, reported s v = some n ∧ (n : Int) ≤ sqDist v p ∧ IsMinSq pts v n := by
  obtain ⟨r, hr⟩ := exists_isNearest (List.ne_nil_of_mem hp) v
  have h3 : sqDist v p ≤ 3 := by
    obtain ⟨c1, c2, c3⟩ := hc
    rw [abs_le] at c1 c2 c3
    unfold sqDist
    nlinarith
  have hm : IsMinSq pts v (sqDist v r) := ⟨⟨r, hr.1, rfl⟩, hr.2⟩
  obtain ⟨n, h1, h2⟩ := C10_exact_below_8_partial hd h hv hm (by have := hr.2 p hp; omega)
  exact ⟨n, h1, by rw [h2]; exact hr.2 p hp, by rw [h2]; exact hm⟩

/-- C14, converse.  A cell with an opposite cell `p` in its 26-neighbourhood has magnitude at most
the rounded `sqrt(|v-p|^2) * resolution` (so at most `sqrt 3` cells). -/
theorem C14_close {R : Rounding} {res : ℝ} (hres : GoodRes R res) {d : Dims} (hd : SmallGrid d)
    {fill : Idx → Option Bool} {f : Idx → Bool} (hf : Answers d fill f) {oob : FVal} {o : Out}
    (ho : extract R (res, res, res) d fill oob false = some o) {v p : Idx} (hv : InBounds d v)
    (hp : InBounds d p) (hc : Close v p) (hop : f v ≠ f p) :
    ∃ x, o.sdf.get v = some x ∧
      -R.r32 (R.r64 (R.r64 ((Real.sqrt 3 : ℝ) : EReal) * res)) ≤ x ∧
      x ≤ R.r32 (R.r64 (R.r64 ((Real.sqrt 3 : ℝ) : EReal) * res)) := by
  obtain ⟨o', a, b, ho', hs⟩ := base_spec hd hf R res oob
  rw [extract_false, ho'] at ho
  simp only [Option.some.injEq] at ho
  subst ho
  have hscaled3 : scaled R res (some 3) = R.r64 (R.r64 ((Real.sqrt 3 : ℝ) : EReal) * res) := by
    simp [scaled, sqrtE]
  rw [← hscaled3]
  have hsq : sqDist v p ≤ 3 := by
    obtain ⟨c1, c2, c3⟩ := hc
    rw [abs_le] at c1 c2 c3
    unfold sqDist
    nlinarith
  have hnn : (0 : EReal) ≤ scaled R res (some 3) := by
    rw [← scaled_zero (R := R) res]; exact scaled_mono hres.1 (by norm_num)
  have key : ∀ n : Nat, (n : Int) ≤ sqDist v p → scaled R res (some n) ≤ scaled R res (some 3) :=
    fun n hn => scaled_mono hres.1 (by omega)
  have nonneg : ∀ n : Nat, 0 ≤ scaled R res (some n) := by
    intro n
    rw [← scaled_zero (R := R) res]; exact scaled_mono hres.1 (Nat.zero_le _)
  refine ⟨_, hs.val v hv, ?_, ?_⟩
  · rw [← R.odd32]
    apply R.mono32
    unfold exactVal
    cases hfv : f v with
    | true =>
      have hpf : f p = false := by cases h : f p <;> simp_all
      obtain ⟨n, hn, hle, _⟩ := reported_close hd hs.hb hv (p := p)
        (List.mem_filter.mpr ⟨Dims.mem_all.mpr (inB_iff_spec.mpr hp), by simp [hpf]⟩) hc
      rw [hn]
      simp only [if_true]
      rw [EReal.neg_le_neg_iff]
      exact key n hle
    | false =>
      have hpf : f p = true := by cases h : f p <;> simp_all
      obtain ⟨n, hn, hle, _⟩ := reported_close hd hs.ha hv (p := p)
        (List.mem_filter.mpr ⟨Dims.mem_all.mpr (inB_iff_spec.mpr hp), hpf⟩) hc
      rw [hn]
      refine le_trans ?_ (nonneg n)
      rw [show (0 : EReal) = -0 by simp, EReal.neg_le_neg_iff]
      simpa using hnn
  · apply R.mono32
    unfold exactVal
    cases hfv : f v with
    | true =>
      have hpf : f p = false := by cases h : f p <;> simp_all
      obtain ⟨n, hn, hle, _⟩ := reported_close hd hs.hb hv (p := p)
        (List.mem_filter.mpr ⟨Dims.mem_all.mpr (inB_iff_spec.mpr hp), by simp [hpf]⟩) hc
      rw [hn]
      simp only [if_true]
      refine le_trans ?_ hnn
      have := nonneg n
      rw [show (0 : EReal) = -0 by simp, EReal.neg_le_neg_iff]
      simpa using this
    | false =>
      have hpf : f p = true := by cases h : f p <;> simp_all
      obtain ⟨n, hn, hle, _⟩ := reported_close hd hs.ha hv (p := p)
        (List.mem_filter.mpr ⟨Dims.mem_all.mpr (inB_iff_spec.mpr hp), hpf⟩) hc
      rw [hn]
      exact key n hle

example : InBounds ⟨2, 2, 2⟩ ⟨1, 1, 1⟩ ∧ InBounds ⟨2, 2, 2⟩ ⟨0, 0, 0⟩ ∧
    Close ⟨1, 1, 1⟩ ⟨0, 0, 0⟩ ∧
    ((fun i : Idx => decide (i = ⟨0, 0, 0⟩)) ⟨1, 1, 1⟩ ≠
      (fun i : Idx => decide (i = ⟨0, 0, 0⟩)) ⟨0, 0, 0⟩) := by
  refine ⟨by simp [InBounds], by simp [InBounds], by simp [Close], by decide⟩

/-! ## C15 -/

/-- `m` is the greatest, `n` the least of the values of a field over a grid. -/
def AreExtrema (d : Dims) (val : Idx → FVal) (m n : EReal) : Prop :=
  (∃ v, InBounds d v ∧ val v = some m) ∧ (∃ v, InBounds d v ∧ val v = some n) ∧
    ∀ v, InBounds d v → ∃ x, val v = some x ∧ n ≤ x ∧ x ≤ m

/-- C15.  The reported pair is the maximum and minimum of the computed distances (of which the stored
values are the float roundings); rounded to float it is the maximum and minimum of the stored values. -/
theorem C15_extrema {R : Rounding} {res : ℝ} {d : Dims} (hd : SmallGrid d) {w : Idx}
    (hw : InBounds d w) {fill : Idx → Option Bool} {f : Idx → Bool} (hf : Answers d fill f)
    {oob : FVal} {o : Out} (ho : extract R (res, res, res) d fill oob false = some o) :
    AreExtrema d o.sdf.get (R.r32 o.max) (R.r32 o.min) ∧
      ∃ val : Idx → EReal, (∀ v, InBounds d v → o.sdf.get v = some (R.r32 (val v))) ∧
        AreExtrema d (fun v => some (val v)) o.max o.min := by
  obtain ⟨o', a, b, ho', hs⟩ := base_spec hd hf R res oob
  rw [extract_false, ho'] at ho
  simp only [Option.some.injEq] at ho
  subst ho
  obtain ⟨v1, hv1, e1⟩ := hs.max_attained hw
  obtain ⟨v2, hv2, e2⟩ := hs.min_attained hw
  refine ⟨⟨⟨v1, hv1, ?_⟩, ⟨v2, hv2, ?_⟩, ?_⟩, exactVal R res a b f, hs.val,
    ⟨v1, hv1, by simp [e1]⟩, ⟨v2, hv2, by simp [e2]⟩, ?_⟩
  · rw [hs.val v1 hv1, e1]
  · rw [hs.val v2 hv2, e2]
  · intro v hv
    exact ⟨_, hs.val v hv, R.mono32 (hs.min_le v hv), R.mono32 (hs.max_ge v hv)⟩
  · intro v hv
    exact ⟨_, rfl, hs.min_le v hv, hs.max_ge v hv⟩

example : InBounds ⟨2, 2, 2⟩ ⟨1, 0, 1⟩ := by simp [InBounds]

/-! ## Border -/

namespace SdfGen

/-- Index arithmetic of the enlarged grid: in-bounds cells are border cells or images of real
cells. -/
theorem border_or_real {d : Dims} {v : Idx} (hv : InBounds (enlarge d) v) :
    isBorder d v = false → InBounds d (v - offset d) := by
  intro hb
  unfold isBorder at hb
  unfold InBounds enlarge at *
  unfold offset
  simp only [Bool.or_eq_false_iff, Bool.and_eq_false_imp, decide_eq_true_eq,
    decide_eq_false_iff_not, Idx.sub_x, Idx.sub_y, Idx.sub_z] at *
  have e1 : off d.nx = 0 ∨ off d.nx = 1 := by unfold off; split <;> simp
  have e2 : off d.ny = 0 ∨ off d.ny = 1 := by unfold off; split <;> simp
  have e3 : off d.nz = 0 ∨ off d.nz = 1 := by unfold off; split <;> simp
  generalize off d.nx = ox at *
  generalize off d.ny = oy at *
  generalize off d.nz = oz at *
  push_cast at *
  refine ⟨⟨?_, ?_⟩, ⟨?_, ?_⟩, ⟨?_, ?_⟩⟩
  · rcases e1 with rfl | rfl <;> simp at * <;> omega
  · rcases e1 with rfl | rfl <;> simp at * <;> omega
  · rcases e2 with rfl | rfl <;> simp at * <;> omega
  · rcases e2 with rfl | rfl <;> simp at * <;> omega
  · rcases e3 with rfl | rfl <;> simp at * <;> omega
  · rcases e3 with rfl | rfl <;> simp at * <;> omega

theorem real_not_border {d : Dims} {v : Idx} (hv : InBounds d v) :
    isBorder d (v + offset d) = false ∧ InBounds (enlarge d) (v + offset d) := by
  unfold isBorder
  unfold InBounds enlarge at *
  unfold offset
  simp only [Bool.or_eq_false_iff, Bool.and_eq_false_imp, decide_eq_true_eq,
    decide_eq_false_iff_not]
  simp only [Idx.add_x, Idx.add_y, Idx.add_z]
  have e1 : off d.nx = 0 ∨ off d.nx = 1 := by unfold off; split <;> simp
  have e2 : off d.ny = 0 ∨ off d.ny = 1 := by unfold off; split <;> simp
  have e3 : off d.nz = 0 ∨ off d.nz = 1 := by unfold off; split <;> simp
  generalize off d.nx = ox at *
  generalize off d.ny = oy at *
  generalize off d.nz = oz at *
  push_cast
  omega

theorem add_sub_offset (d : Dims) (v : Idx) : v + offset d - offset d = v := by
  obtain ⟨x, y, z⟩ := v
  show (⟨x + (offset d).x - (offset d).x, y + (offset d).y - (offset d).y,
    z + (offset d).z - (offset d).z⟩ : Idx) = _
  simp

/-- Total version of `withBorder`. -/
def borderFn (d : Dims) (border : Bool) (f : Idx → Bool) (v : Idx) : Bool :=
  if isBorder d v then border else f (v - offset d)

theorem withBorder_answers {d : Dims} {fill : Idx → Option Bool} {f : Idx → Bool}
    (hf : Answers d fill f) (border : Bool) :
    Answers (enlarge d) (withBorder d border fill) (borderFn d border f) := by
  intro v hv
  unfold withBorder borderFn
  cases hb : isBorder d v with
  | true => simp
  | false => simp [hf _ (border_or_real hv hb)]

theorem borderFn_real {d : Dims} {v : Idx} (hv : InBounds d v) (border : Bool) (f : Idx → Bool) :
    borderFn d border f (v + offset d) = f v := by
  unfold borderFn
  rw [(real_not_border hv).1, add_sub_offset]; rfl

/-- Everything about an extraction with border. -/
theorem border_spec {d : Dims} (hd : SmallGrid (enlarge d)) {fill : Idx → Option Bool}
    {f : Idx → Bool} (hf : Answers d fill f) (R : Rounding) (res : ℝ) (oob : FVal) :
    ∃ o fr fi a b a' b', extract R (res, res, res) d fill oob true = some o ∧
      BaseSpec R res (enlarge d) (borderFn d true f) oob fr a b ∧
      BaseSpec R res (enlarge d) (borderFn d false f) oob fi a' b' ∧
      o.sdf.WF ∧ o.sdf.dims = d ∧ o.sdf.oob = oob ∧ o.max = fr.max ∧ o.min = fi.min ∧
      ∀ v, InBounds d v → o.sdf.get v =
        combine (fr.sdf.get (v + offset d)) (fi.sdf.get (v + offset d)) := by
  obtain ⟨fr, a, b, e1, h1⟩ := base_spec hd (withBorder_answers hf true) R res oob
  obtain ⟨fi, a', b', e2, h2⟩ := base_spec hd (withBorder_answers hf false) R res oob
  refine ⟨⟨(Grid.mk' d oob oob).setAll d.all (fun i =>
      combine (fr.sdf.get (i + offset d)) (fi.sdf.get (i + offset d))), fr.max, fi.min⟩,
    fr, fi, a, b, a', b', ?_, h1, h2, ?_, ?_, ?_, rfl, rfl, ?_⟩
  · unfold extract
    simp only [e1, e2]
    simp [Grid.setAll]
  · exact (Grid.wf_mk' _ _ _).setAll _ _
  · exact Grid.dims_setAll _ _ _
  · exact Grid.oob_setAll _ _ _
  · intro v hv
    show ((Grid.mk' d oob oob).setAll d.all _).get v = _
    rw [Grid.get_setAll (Grid.wf_mk' _ _ _)]
    have hv' := inB_iff_spec.mpr hv
    rw [if_pos ⟨Dims.mem_all.mpr hv', hv'⟩]

/-- The combined value of a real cell: from the free field if free, from the filled field if
filled. -/
theorem combine_value {R : Rounding} {res : ℝ} (hres : GoodRes R res) (h32 : 0 < R.r32 res)
    {d : Dims} {f : Idx → Bool} {oob : FVal} {fr fi : Out} {a b a' b' : St}
    (h1 : BaseSpec R res (enlarge d) (borderFn d true f) oob fr a b)
    (h2 : BaseSpec R res (enlarge d) (borderFn d false f) oob fi a' b') {v : Idx}
    (hv : InBounds d v) :
    (f v = false → combine (fr.sdf.get (v + offset d)) (fi.sdf.get (v + offset d)) =
      some (R.r32 (scaled R res (reported a (v + offset d)))) ∧
      R.r32 res ≤ R.r32 (scaled R res (reported a (v + offset d)))) ∧
    (f v = true → combine (fr.sdf.get (v + offset d)) (fi.sdf.get (v + offset d)) =
      some (R.r32 (-scaled R res (reported b' (v + offset d)))) ∧
      R.r32 (-scaled R res (reported b' (v + offset d))) ≤ -R.r32 res) := by
  obtain ⟨_, hvb⟩ := real_not_border hv
  have f1 := borderFn_real hv true f
  have f2 := borderFn_real hv false f
  have hneg : -R.r32 res < 0 := by
    rw [show (0 : EReal) = -0 by simp, EReal.neg_lt_neg_iff]; exact h32
  constructor
  · intro hfv
    rw [hfv] at f1
    have hge := R.mono32 (h1.free_ge hres hvb f1)
    have hex : exactVal R res a b (borderFn d true f) (v + offset d) =
        scaled R res (reported a (v + offset d)) := by
      unfold exactVal; rw [f1]; rfl
    rw [hex] at hge
    refine ⟨?_, hge⟩
    unfold combine
    rw [h1.val _ hvb, hex]
    have : geZero (some (R.r32 (scaled R res (reported a (v + offset d))))) = true := by
      unfold geZero
      simpa using le_trans h32.le hge
    rw [this]; rfl
  · intro hfv
    rw [hfv] at f1 f2
    have hle := R.mono32 (h1.filled_le hres hvb f1)
    have hle2 := R.mono32 (h2.filled_le hres hvb f2)
    have hex : exactVal R res a' b' (borderFn d false f) (v + offset d) =
        -scaled R res (reported b' (v + offset d)) := by
      unfold exactVal; rw [f2]; rfl
    rw [hex] at hle2
    rw [R.odd32] at hle
    rw [R.odd32 res] at hle2
    refine ⟨?_, hle2⟩
    unfold combine
    rw [h1.val _ hvb, h2.val _ hvb, hex]
    have : geZero (some (R.r32 (exactVal R res a b (borderFn d true f) (v + offset d)))) = false := by
      unfold geZero
      simpa using lt_of_le_of_lt hle hneg
    rw [this]
    have : leZero (some (R.r32 (-scaled R res (reported b' (v + offset d))))) = true := by
      unfold leZero
      simpa using le_trans hle2 hneg.le
    rw [this]; rfl

end SdfGen

/-! ## C17 -/

/-- C17, safe queries.  With a border the predicate is only consulted on real cells: the extraction
succeeds for every predicate that answers on the real grid (even if it throws everywhere else), and
its result depends only on those answers. -/
theorem C17_safe_queries {d : Dims} (hd : SmallGrid (enlarge d)) (R : Rounding) (res : ℝ)
    (oob : FVal) {fill fill' : Idx → Option Bool} {f : Idx → Bool} (hf : Answers d fill f)
    (hf' : Answers d fill' f) :
    (∃ o, extract R (res, res, res) d fill oob true = some o) ∧
      extract R (res, res, res) d fill oob true = extract R (res, res, res) d fill' oob true := by
  have hcongr : ∀ border, base R res (enlarge d) (withBorder d border fill) oob =
      base R res (enlarge d) (withBorder d border fill') oob := by
    intro border
    unfold base
    rw [partition_some (f := borderFn d border f) (fun i hi =>
        withBorder_answers hf border i (inB_iff_spec.mp (Dims.mem_all.mp hi))),
      partition_some (f := borderFn d border f) (fun i hi =>
        withBorder_answers hf' border i (inB_iff_spec.mp (Dims.mem_all.mp hi)))]
  constructor
  · obtain ⟨o, _, _, _, _, _, _, h, _⟩ := border_spec hd hf R res oob
    exact ⟨o, h⟩
  · unfold extract
    simp [hcongr]

/-- C17, signs.  Filled cells get at most minus the stored resolution, free cells at least the stored
resolution; in particular the value 0 never appears. -/
theorem C17_sign {R : Rounding} {res : ℝ} (hres : GoodRes R res) (h32 : 0 < R.r32 res) {d : Dims}
    (hd : SmallGrid (enlarge d)) {fill : Idx → Option Bool} {f : Idx → Bool} (hf : Answers d fill f)
    {oob : FVal} {o : Out} (ho : extract R (res, res, res) d fill oob true = some o) {v : Idx}
    (hv : InBounds d v) :
    o.sdf.dims = d ∧ ∃ x, o.sdf.get v = some x ∧ x ≠ 0 ∧
      (f v = true → x ≤ -R.r32 res) ∧ (f v = false → R.r32 res ≤ x) := by
  obtain ⟨o', fr, fi, a, b, a', b', ho', h1, h2, _, hdims, _, _, _, hval⟩ := border_spec hd hf R res oob
  rw [ho] at ho'
  simp only [Option.some.injEq] at ho'
  subst ho'
  refine ⟨hdims, ?_⟩
  rw [hval v hv]
  obtain ⟨c1, c2⟩ := combine_value hres h32 h1 h2 hv
  have hneg : -R.r32 res < 0 := by
    rw [show (0 : EReal) = -0 by simp, EReal.neg_lt_neg_iff]; exact h32
  cases hfv : f v with
  | false =>
    obtain ⟨e, hle⟩ := c1 hfv
    exact ⟨_, e, (lt_of_lt_of_le h32 hle).ne', by simp, fun _ => hle⟩
  | true =>
    obtain ⟨e, hle⟩ := c2 hfv
    exact ⟨_, e, (lt_of_le_of_lt hle hneg).ne, fun _ => hle, by simp⟩

/-- C17 for collision maps: with border the extraction does not throw and signs are right. -/
theorem C17_collision_map {R : Rounding} {res : ℝ} (hres : GoodRes R res) (h32 : 0 < R.r32 res)
    (m : CMap) (hd : SmallGrid (enlarge m.grid.dims)) (oob : FVal) (u : Bool) :
    ∃ o, extractMap R (res, res, res) m oob u true = some o ∧
      ∀ v, InBounds m.grid.dims v → ∃ x, o.sdf.get v = some x ∧ x ≠ 0 ∧
        (Obstacle m u v → x ≤ -R.r32 res) ∧ (¬ Obstacle m u v → R.r32 res ≤ x) := by
  obtain ⟨⟨o, ho⟩, _⟩ := C17_safe_queries hd R res oob (mapFill_answers m u) (mapFill_answers m u)
  refine ⟨o, ho, ?_⟩
  intro v hv
  obtain ⟨_, x, e, h0, a, b⟩ := C17_sign hres h32 hd (mapFill_answers m u) ho hv
  exact ⟨x, e, h0, fun h => a (by simpa using h), fun h => b (by simpa using h)⟩

/-- The cell touches the boundary face of an axis that has more than one cell. -/
def OnThickFace (d : Dims) (v : Idx) : Prop :=
  (1 < d.nx ∧ (v.x = 0 ∨ v.x + 1 = d.nx)) ∨ (1 < d.ny ∧ (v.y = 0 ∨ v.y + 1 = d.ny)) ∨
    (1 < d.nz ∧ (v.z = 0 ∨ v.z + 1 = d.nz))

namespace SdfGen

theorem border_neighbour {d : Dims} {v : Idx} (hv : InBounds d v) (hface : OnThickFace d v) :
    ∃ p, InBounds (enlarge d) p ∧ isBorder d p = true ∧ sqDist (v + offset d) p = 1 := by
  have e1 : 1 < d.nx → off d.nx = 1 := by intro h; unfold off; rw [if_pos h]
  have e2 : 1 < d.ny → off d.ny = 1 := by intro h; unfold off; rw [if_pos h]
  have e3 : 1 < d.nz → off d.nz = 1 := by intro h; unfold off; rw [if_pos h]
  unfold InBounds at hv
  rcases hface with ⟨hn, h | h⟩ | ⟨hn, h | h⟩ | ⟨hn, h | h⟩
  · refine ⟨⟨0, v.y + off d.ny, v.z + off d.nz⟩, ?_, ?_, ?_⟩
    · unfold InBounds enlarge; dsimp only; push_cast; simp only [true_and]; omega
    · unfold isBorder; simp [e1 hn]
    · unfold sqDist offset; simp [Idx.add_x, Idx.add_y, Idx.add_z, e1 hn, h]
  · refine ⟨⟨d.nx + 1, v.y + off d.ny, v.z + off d.nz⟩, ?_, ?_, ?_⟩
    · unfold InBounds enlarge; dsimp only; push_cast; rw [e1 hn]; omega
    · unfold isBorder enlarge
      simp only [Bool.or_eq_true, Bool.and_eq_true, decide_eq_true_eq]
      left; left
      rw [e1 hn]; push_cast; simp only [true_and]; omega
    · unfold sqDist offset; simp only [Idx.add_x, Idx.add_y, Idx.add_z, e1 hn, ← h]; ring
  · refine ⟨⟨v.x + off d.nx, 0, v.z + off d.nz⟩, ?_, ?_, ?_⟩
    · unfold InBounds enlarge; dsimp only; push_cast; simp only [true_and]; omega
    · unfold isBorder; simp [e2 hn]
    · unfold sqDist offset; simp [Idx.add_x, Idx.add_y, Idx.add_z, e2 hn, h]
  · refine ⟨⟨v.x + off d.nx, d.ny + 1, v.z + off d.nz⟩, ?_, ?_, ?_⟩
    · unfold InBounds enlarge; dsimp only; push_cast; rw [e2 hn]; omega
    · unfold isBorder enlarge
      simp only [Bool.or_eq_true, Bool.and_eq_true, decide_eq_true_eq]
      left; right
      rw [e2 hn]; push_cast; simp only [gt_iff_lt, zero_lt_one, true_and]; omega
    · unfold sqDist offset; simp only [Idx.add_x, Idx.add_y, Idx.add_z, e2 hn, ← h]; ring
  · refine ⟨⟨v.x + off d.nx, v.y + off d.ny, 0⟩, ?_, ?_, ?_⟩
    · unfold InBounds enlarge; dsimp only; push_cast; simp only [true_and]; omega
    · unfold isBorder; simp [e3 hn]
    · unfold sqDist offset; simp [Idx.add_x, Idx.add_y, Idx.add_z, e3 hn, h]
  · refine ⟨⟨v.x + off d.nx, v.y + off d.ny, d.nz + 1⟩, ?_, ?_, ?_⟩
    · unfold InBounds enlarge; dsimp only; push_cast; rw [e3 hn]; omega
    · unfold isBorder enlarge
      simp only [Bool.or_eq_true, Bool.and_eq_true, decide_eq_true_eq]
      right
      rw [e3 hn]; push_cast; simp only [gt_iff_lt, zero_lt_one, true_and]; omega
    · unfold sqDist offset; simp only [Idx.add_x, Idx.add_y, Idx.add_z, e3 hn, ← h]; ring

theorem reported_one {d : Dims} (hd : SmallGrid d) {pts : List Idx} {s : St}
    (h : build d pts = some s) {v p : Idx} (hv : InBounds d v) (hp : p ∈ pts) (hnot : v ∉ pts)
    (h1 : sqDist v p = 1) : reported s v = some 1 := by
  have hc : Close v p := by
    unfold sqDist at h1
    unfold Close
    simp only [abs_le]
    refine ⟨⟨?_, ?_⟩, ⟨?_, ?_⟩, ⟨?_, ?_⟩⟩ <;> nlinarith [sq_nonneg (v.x - p.x), sq_nonneg (v.y - p.y), sq_nonneg (v.z - p.z)]
  obtain ⟨n, hn, hle, _⟩ := reported_close hd h hv hp hc
  rcases (C09_zero_iff_source hd h hv).2 hnot with h0 | ⟨m, hm, hm1⟩
  · rw [h0] at hn; simp at hn
  · rw [hm] at hn ⊢
    simp only [Option.some.injEq] at hn ⊢
    omega

end SdfGen

/-- C17, boundary cells.  A free (filled) cell on the boundary face of an axis with more than one cell
gets exactly plus (minus) the stored resolution. -/
theorem C17_boundary {R : Rounding} {res : ℝ} (hres : GoodRes R res) (h32 : 0 < R.r32 res)
    {d : Dims} (hd : SmallGrid (enlarge d)) {fill : Idx → Option Bool} {f : Idx → Bool}
    (hf : Answers d fill f) {oob : FVal} {o : Out}
    (ho : extract R (res, res, res) d fill oob true = some o) {v : Idx} (hv : InBounds d v)
    (hface : OnThickFace d v) :
    o.sdf.get v = some (if f v then -R.r32 res else R.r32 res) := by
  obtain ⟨o', fr, fi, a, b, a', b', ho', h1, h2, _, _, _, _, _, hval⟩ := border_spec hd hf R res oob
  rw [ho] at ho'
  simp only [Option.some.injEq] at ho'
  subst ho'
  obtain ⟨p, hp, hpb, hsq⟩ := border_neighbour hv hface
  obtain ⟨hnb, hvb⟩ := real_not_border hv
  rw [hval v hv]
  obtain ⟨c1, c2⟩ := combine_value hres h32 h1 h2 hv
  cases hfv : f v with
  | false =>
    rw [(c1 hfv).1]
    have hrep : reported a (v + offset d) = some 1 := by
      refine reported_one hd h1.ha hvb (p := p) ?_ ?_ hsq
      · rw [List.mem_filter]
        exact ⟨Dims.mem_all.mpr (inB_iff_spec.mpr hp), by unfold borderFn; rw [hpb]; rfl⟩
      · rw [List.mem_filter]
        rintro ⟨_, hh⟩
        rw [borderFn_real hv, hfv] at hh
        simp at hh
    rw [hrep, scaled_one hres.2]; rfl
  | true =>
    rw [(c2 hfv).1]
    have hrep : reported b' (v + offset d) = some 1 := by
      refine reported_one hd h2.hb hvb (p := p) ?_ ?_ hsq
      · rw [List.mem_filter]
        exact ⟨Dims.mem_all.mpr (inB_iff_spec.mpr hp), by unfold borderFn; rw [hpb]; rfl⟩
      · rw [List.mem_filter]
        rintro ⟨_, hh⟩
        rw [borderFn_real hv, hfv] at hh
        simp at hh
    rw [hrep, scaled_one hres.2, R.odd32]; rfl

example : SmallGrid (enlarge ⟨2, 2, 1⟩) ∧ OnThickFace ⟨2, 2, 1⟩ ⟨1, 0, 0⟩ ∧
    enlarge ⟨2, 2, 1⟩ = ⟨4, 4, 1⟩ := by
  refine ⟨by unfold SmallGrid enlarge off; decide, ?_, by decide⟩
  simp [OnThickFace]

/-! ## C16 -/

/-- The full statement of C16. -/
def C16Statement (R : Rounding) : Prop := ∀ (res : ℝ) (d : Dims) (fill : Idx → Option Bool)
  (f : Idx → Bool) (oob : FVal) (o : Out), GoodRes R res → 0 < R.r32 res → SmallGrid (enlarge d) →
  (∃ w, InBounds d w) → Answers d fill f → extract R (res, res, res) d fill oob true = some o →
  AreExtrema d o.sdf.get (R.r32 o.max) (R.r32 o.min)

/-- C16 is false: for a map of filled cells the reported maximum is `-inf` although all stored values
are finite (here: all are minus the resolution). -/
theorem C16_false (R : Rounding) {res : ℝ} (hres : GoodRes R res) (h32 : 0 < R.r32 res)
    (hfin : R.r32 res ≠ ⊤) : ¬ C16Statement R := by
  intro h
  have hd : SmallGrid (enlarge ⟨2, 2, 1⟩) := by unfold SmallGrid enlarge off; decide
  have hf : Answers ⟨2, 2, 1⟩ (fun _ => some true) (fun _ => true) := fun _ _ => rfl
  obtain ⟨o, fr, fi, a, b, a', b', ho, h1, _, _, _, _, hmax, _, _⟩ := border_spec hd hf R res none
  have hall := h res ⟨2, 2, 1⟩ _ _ none o hres h32 hd ⟨⟨0, 0, 0⟩, by simp [InBounds]⟩ hf ho
  have hw : InBounds (enlarge ⟨2, 2, 1⟩) ⟨0, 0, 0⟩ := by simp [InBounds, enlarge, off]
  -- the free field is all filled
  have hfrall : ∀ v, borderFn ⟨2, 2, 1⟩ true (fun _ => true) v = true := by
    intro v; unfold borderFn; simp
  have hnil : (enlarge ⟨2, 2, 1⟩).all.filter (fun i => !borderFn ⟨2, 2, 1⟩ true (fun _ => true) i) = [] := by
    rw [List.filter_eq_nil_iff]; intro i _; simp [hfrall]
  obtain ⟨v, hv, hval⟩ := h1.max_attained hw
  have hbot : exactVal R res a b (borderFn ⟨2, 2, 1⟩ true fun _ => true) v = ⊥ := by
    unfold exactVal
    rw [hfrall v, build_nil hd (hnil ▸ h1.hb) hv, scaled_top hres.1]; rfl
  have hmb : o.max = ⊥ := by rw [hmax, ← hval, hbot]
  obtain ⟨⟨w, hwb, hwv⟩, _, _⟩ := hall
  have hface : OnThickFace ⟨2, 2, 1⟩ w := by
    have hb := hwb
    unfold InBounds at hb
    unfold OnThickFace
    dsimp only at hb ⊢
    push_cast at hb ⊢
    simp only [true_and, false_and, or_false]
    omega
  rw [C17_boundary hres h32 hd hf ho hwb hface, hmb] at hwv
  simp only [if_true, Option.some.injEq] at hwv
  rw [show (⊥ : EReal) = -⊤ from rfl, R.odd32, R.top32, neg_inj] at hwv
  exact hfin hwv

example : GoodRes exactRounding 1 ∧ 0 < exactRounding.r32 ((1 : ℝ) : EReal) ∧
    exactRounding.r32 ((1 : ℝ) : EReal) ≠ ⊤ := by
  refine ⟨⟨by norm_num, rfl⟩, ?_, ?_⟩
  · show (0 : EReal) < ((1 : ℝ) : EReal)
    exact_mod_cast zero_lt_one
  · show ((1 : ℝ) : EReal) ≠ ⊤
    exact EReal.coe_ne_top 1

/-- C16, the part that holds: if the map has a free and a filled cell, the reported pair (rounded to
float) is the maximum and minimum of the stored values.  Missing: all-free and all-filled maps, where
one of the two is an infinity (`C16_false`). -/
theorem C16_extrema_partial {R : Rounding} {res : ℝ} (hres : GoodRes R res) (h32 : 0 < R.r32 res)
    {d : Dims} (hd : SmallGrid (enlarge d)) {fill : Idx → Option Bool} {f : Idx → Bool}
    (hf : Answers d fill f) {oob : FVal} {o : Out}
    (ho : extract R (res, res, res) d fill oob true = some o)
    {p q : Idx} (hp : InBounds d p) (hpf : f p = false) (hq : InBounds d q) (hqf : f q = true) :
    AreExtrema d o.sdf.get (R.r32 o.max) (R.r32 o.min) := by
  obtain ⟨o', fr, fi, a, b, a', b', ho', h1, h2, _, _, _, hmax, hmin, hval⟩ :=
    border_spec hd hf R res oob
  rw [ho] at ho'
  simp only [Option.some.injEq] at ho'
  subst ho'
  have hresE : (0 : EReal) < res := by exact_mod_cast hres.1
  have hnegE : -(res : EReal) < 0 := by
    rw [show (0 : EReal) = -0 by simp, EReal.neg_lt_neg_iff]; exact hresE
  obtain ⟨_, hpb⟩ := real_not_border hp
  obtain ⟨_, hqb⟩ := real_not_border hq
  -- the maximum is attained at a real free cell
  have hmaxv : ∃ v, InBounds d v ∧ o.sdf.get v = some (R.r32 o.max) := by
    obtain ⟨w, hw, hwe⟩ := h1.max_attained hpb
    have hpos : (0 : EReal) < exactVal R res a b (borderFn d true f) w := by
      rw [hwe]
      exact lt_of_lt_of_le hresE (le_trans (h1.free_ge hres hpb (by rw [borderFn_real hp]; exact hpf))
        (h1.max_ge _ hpb))
    have hwf : borderFn d true f w = false := by
      cases hb : borderFn d true f w with
      | false => rfl
      | true =>
        exact absurd (lt_of_lt_of_le hpos (h1.filled_le hres hw hb)) (not_lt.mpr hnegE.le)
    have hnb : isBorder d w = false := by
      cases hb : isBorder d w with
      | false => rfl
      | true => unfold borderFn at hwf; rw [hb] at hwf; simp at hwf
    have hreal := border_or_real hw hnb
    have hadd : w - offset d + offset d = w := by
      obtain ⟨x, y, z⟩ := w
      show (⟨x - (offset d).x + (offset d).x, y - (offset d).y + (offset d).y,
        z - (offset d).z + (offset d).z⟩ : Idx) = _
      simp
    have hfr : f (w - offset d) = false := by rw [← borderFn_real hreal true f, hadd]; exact hwf
    refine ⟨w - offset d, hreal, ?_⟩
    rw [hval _ hreal, ((combine_value hres h32 h1 h2 hreal).1 hfr).1, hadd, hmax, ← hwe]
    unfold exactVal; rw [hwf]; rfl
  have hminv : ∃ v, InBounds d v ∧ o.sdf.get v = some (R.r32 o.min) := by
    obtain ⟨w, hw, hwe⟩ := h2.min_attained hqb
    have hneg : exactVal R res a' b' (borderFn d false f) w < 0 := by
      rw [hwe]
      exact lt_of_le_of_lt (le_trans (h2.min_le _ hqb)
        (h2.filled_le hres hqb (by rw [borderFn_real hq]; exact hqf))) hnegE
    have hwf : borderFn d false f w = true := by
      cases hb : borderFn d false f w with
      | true => rfl
      | false =>
        exact absurd (lt_of_le_of_lt (h2.free_ge hres hw hb) hneg) (not_lt.mpr hresE.le)
    have hnb : isBorder d w = false := by
      cases hb : isBorder d w with
      | false => rfl
      | true => unfold borderFn at hwf; rw [hb] at hwf; simp at hwf
    have hreal := border_or_real hw hnb
    have hadd : w - offset d + offset d = w := by
      obtain ⟨x, y, z⟩ := w
      show (⟨x - (offset d).x + (offset d).x, y - (offset d).y + (offset d).y,
        z - (offset d).z + (offset d).z⟩ : Idx) = _
      simp
    have hfr : f (w - offset d) = true := by rw [← borderFn_real hreal false f, hadd]; exact hwf
    refine ⟨w - offset d, hreal, ?_⟩
    rw [hval _ hreal, ((combine_value hres h32 h1 h2 hreal).2 hfr).1, hadd, hmin, ← hwe]
    unfold exactVal; rw [hwf]; rfl
  refine ⟨hmaxv, hminv, ?_⟩
  intro v hv
  obtain ⟨_, hvb⟩ := real_not_border hv
  have omax_pos : (0 : EReal) ≤ R.r32 o.max := by
    rw [← zero32 (R := R), hmax]
    apply R.mono32
    exact le_trans hresE.le (le_trans (h1.free_ge hres hpb (by rw [borderFn_real hp]; exact hpf))
        (h1.max_ge _ hpb))
  have omin_neg : R.r32 o.min ≤ 0 := by
    rw [← zero32 (R := R), hmin]
    apply R.mono32
    exact le_trans (le_trans (h2.min_le _ hqb)
        (h2.filled_le hres hqb (by rw [borderFn_real hq]; exact hqf))) hnegE.le
  have hneg32 : -R.r32 res < 0 := by
    rw [show (0 : EReal) = -0 by simp, EReal.neg_lt_neg_iff]; exact h32
  rw [hval v hv]
  obtain ⟨c1, c2⟩ := combine_value hres h32 h1 h2 hv
  cases hfv : f v with
  | false =>
    obtain ⟨e, hle⟩ := c1 hfv
    refine ⟨_, e, le_trans omin_neg (le_trans h32.le hle), ?_⟩
    rw [hmax]
    apply R.mono32
    have := h1.max_ge _ hvb
    unfold exactVal at this
    rwa [borderFn_real hv, hfv] at this
  | true =>
    obtain ⟨e, hle⟩ := c2 hfv
    refine ⟨_, e, ?_, le_trans hle (le_trans hneg32.le omax_pos)⟩
    rw [hmin]
    apply R.mono32
    have := h2.min_le _ hvb
    unfold exactVal at this
    rwa [borderFn_real hv, hfv] at this

example : InBounds ⟨2, 2, 2⟩ ⟨1, 1, 1⟩ ∧ decide ((⟨1, 1, 1⟩ : Idx) = ⟨0, 0, 0⟩) = false ∧
    InBounds ⟨2, 2, 2⟩ ⟨0, 0, 0⟩ ∧ decide ((⟨0, 0, 0⟩ : Idx) = ⟨0, 0, 0⟩) = true := by
  simp [InBounds]

/-! ## C18 -/

namespace SdfGen

theorem exactVal_swap {R : Rounding} {res : ℝ} {d : Dims} {f g : Idx → Bool} {oob oob' : FVal}
    {o o' : Out} {a b a' b' : St} (h : BaseSpec R res d f oob o a b)
    (h' : BaseSpec R res d g oob' o' a' b') (hg : ∀ v, InBounds d v → g v = !f v) {v : Idx}
    (hv : InBounds d v) : exactVal R res a' b' g v = -exactVal R res a b f v := by
  have e1 : d.all.filter g = d.all.filter (fun i => !f i) :=
    List.filter_congr (fun i hi => hg i (inB_iff_spec.mp (Dims.mem_all.mp hi)))
  have e2 : (d.all.filter fun i => !g i) = d.all.filter f :=
    List.filter_congr (fun i hi => by rw [hg i (inB_iff_spec.mp (Dims.mem_all.mp hi))]; simp)
  have ea : a' = b := by
    have := h'.ha
    rw [e1, h.hb] at this
    simpa using this.symm
  have eb : b' = a := by
    have := h'.hb
    rw [e2, h.ha] at this
    simpa using this.symm
  subst ea eb
  unfold exactVal
  rw [hg v hv]
  cases f v <;> simp

theorem swap_max {R : Rounding} {res : ℝ} {d : Dims} {f g : Idx → Bool} {oob oob' : FVal}
    {o o' : Out} {a b a' b' : St} (h : BaseSpec R res d f oob o a b)
    (h' : BaseSpec R res d g oob' o' a' b') (hg : ∀ v, InBounds d v → g v = !f v)
    {w : Idx} (hw : InBounds d w) : o'.max = -o.min ∧ o'.min = -o.max := by
  constructor
  · obtain ⟨v, hv, he⟩ := h'.max_attained hw
    obtain ⟨u, hu, hue⟩ := h.min_attained hw
    apply le_antisymm
    · rw [← he, exactVal_swap h h' hg hv, EReal.neg_le_neg_iff]
      exact h.min_le v hv
    · rw [← hue, ← exactVal_swap h h' hg hu]
      exact h'.max_ge u hu
  · obtain ⟨v, hv, he⟩ := h'.min_attained hw
    obtain ⟨u, hu, hue⟩ := h.max_attained hw
    apply le_antisymm
    · rw [← hue, ← exactVal_swap h h' hg hu]
      exact h'.min_le u hu
    · rw [← he, exactVal_swap h h' hg hv, EReal.neg_le_neg_iff]
      exact h.max_ge v hv

end SdfGen

/-- C18.  Swapping filled and free negates every SDF value and turns the extrema `(max, min)` into
`(-min, -max)`, with and without border. -/
theorem C18_swap {R : Rounding} {res : ℝ} (hres : GoodRes R res) (h32 : 0 < R.r32 res) {d : Dims}
    (hd : SmallGrid (enlarge d)) {w : Idx} (hw : InBounds d w) {fill fill' : Idx → Option Bool}
    {f : Idx → Bool} (hf : Answers d fill f) (hf' : Answers d fill' fun i => !f i)
    {oob oob' : FVal} {border : Bool} {o o' : Out}
    (ho : extract R (res, res, res) d fill oob border = some o)
    (ho' : extract R (res, res, res) d fill' oob' border = some o') :
    (∀ v, InBounds d v → ∃ x, o.sdf.get v = some x ∧ o'.sdf.get v = some (-x)) ∧
      o'.max = -o.min ∧ o'.min = -o.max := by
  cases border with
  | false =>
    have hd' : SmallGrid d := by
      unfold SmallGrid enlarge at *
      refine lt_of_le_of_lt ?_ hd
      dsimp only
      have := Nat.mul_le_mul (Nat.le_add_right d.nx (2 * off d.nx)) (Nat.le_add_right d.nx (2 * off d.nx))
      have := Nat.mul_le_mul (Nat.le_add_right d.ny (2 * off d.ny)) (Nat.le_add_right d.ny (2 * off d.ny))
      have := Nat.mul_le_mul (Nat.le_add_right d.nz (2 * off d.nz)) (Nat.le_add_right d.nz (2 * off d.nz))
      omega
    obtain ⟨p, a, b, e1, h1⟩ := base_spec hd' hf R res oob
    obtain ⟨p', a', b', e2, h2⟩ := base_spec hd' hf' R res oob'
    rw [extract_false, e1] at ho
    rw [extract_false, e2] at ho'
    simp only [Option.some.injEq] at ho ho'
    subst ho ho'
    refine ⟨?_, swap_max h1 h2 (fun _ _ => rfl) hw⟩
    intro v hv
    refine ⟨_, h1.val v hv, ?_⟩
    rw [h2.val v hv, exactVal_swap h1 h2 (fun _ _ => rfl) hv, R.odd32]
  | true =>
    obtain ⟨p, fr, fi, a, b, a', b', e1, h1, h2, _, _, _, m1, n1, v1⟩ := border_spec hd hf R res oob
    obtain ⟨p', fr', fi', c, d', c', d'', e2, g1, g2, _, _, _, m2, n2, v2⟩ :=
      border_spec hd hf' R res oob'
    rw [e1] at ho
    rw [e2] at ho'
    simp only [Option.some.injEq] at ho ho'
    subst ho ho'
    have hs1 : ∀ v, InBounds (enlarge d) v →
        borderFn d true (fun i => !f i) v = !borderFn d false f v := by
      intro v _; unfold borderFn; split <;> simp
    have hs2 : ∀ v, InBounds (enlarge d) v →
        borderFn d false (fun i => !f i) v = !borderFn d true f v := by
      intro v _; unfold borderFn; split <;> simp
    obtain ⟨_, hwb⟩ := real_not_border hw
    refine ⟨?_, ?_, ?_⟩
    · intro v hv
      obtain ⟨_, hvb⟩ := real_not_border hv
      obtain ⟨x1, x2⟩ := combine_value hres h32 h1 h2 hv
      obtain ⟨y1, y2⟩ := combine_value hres h32 g1 g2 hv
      rw [v1 v hv, v2 v hv]
      cases hfv : f v with
      | false =>
        refine ⟨_, (x1 hfv).1, ?_⟩
        rw [(y2 (by simp [hfv])).1, ← R.odd32]
        have := exactVal_swap h1 g2 hs2 hvb
        unfold exactVal at this
        rw [borderFn_real hv, borderFn_real hv, hfv] at this
        simp only [Bool.not_false, if_true] at this
        rw [this]; rfl
      | true =>
        refine ⟨_, (x2 hfv).1, ?_⟩
        rw [(y1 (by simp [hfv])).1, ← R.odd32, neg_neg]
        have := exactVal_swap h2 g1 hs1 hvb
        unfold exactVal at this
        rw [borderFn_real hv, borderFn_real hv, hfv] at this
        simp only [Bool.not_true, if_true, neg_neg] at this
        exact congrArg (fun t => some (R.r32 t)) this
    · rw [m2, n1]; exact (swap_max h2 g1 hs1 hwb).1
    · rw [n2, m1]; exact (swap_max h1 g2 hs2 hwb).2

example : Answers ⟨2, 2, 2⟩ (fun i => (exFill i).map (!·))
    (fun i => !decide (i = ⟨0, 0, 0⟩)) := by
  intro i hi
  simp only [exFill_answers i hi]; rfl

end Verif
