import Verif.Props.TaggedSdf
import Verif.Props.Ieee

/-!
# C133: what the free-and-named-objects field stores
-/

namespace Verif

open Spec SdfGen DField

namespace SdfGen

theorem partition_congr {fill fill' : Idx → Option Bool} :
    ∀ {l : List Idx}, (∀ i ∈ l, fill i = fill' i) → partitionCells fill l = partitionCells fill' l
  | [], _ => rfl
  | i :: l, h => by
    have := partition_congr (l := l) fun j hj => h j (List.mem_cons_of_mem _ hj)
    unfold partitionCells
    rw [h i (List.mem_cons_self ..), this]

theorem base_congr (R : Rounding) (res : ℝ) {d : Dims} {fill fill' : Idx → Option Bool}
    (h : ∀ i, InBounds d i → fill i = fill' i) (oob : FVal) : base R res d fill oob = base R res d fill' oob := by
  unfold base
  rw [partition_congr fun i hi => h i (inB_iff_spec.mp (Dims.mem_all.mp hi))]

end SdfGen

/-- The squared distance (in cells) from `v` to the nearest cell with the property. -/
def NearestWith (d : Dims) (P : Idx → Prop) (v : Idx) (m : ℤ) : Prop :=
  (∃ p, InBounds d p ∧ P p ∧ sqDist v p = m) ∧ ∀ p, InBounds d p → P p → m ≤ sqDist v p

/-- C133, agreement: on free cells the field is that of all objects, on cells of named objects it is that of the named
objects, and on other obstacles it is 0. `ids` are any ids that include all that occur and are not 0. -/
theorem C133_agrees {R : Rounding} {res : ℝ} (hres : GoodRes R res) (h32 : 0 < R.r32 res) (m : TMap)
    (hd : SmallGrid m.dims) (oob : FVal) (u : Bool) {ids : List UInt32} (hne : ids ≠ []) (h0 : 0 ∉ ids)
    (hall : ∀ i, InBounds m.dims i → (m.getImm i).1.obj ≠ 0 → (m.getImm i).1.obj ∈ ids) :
    ∃ o a b, m.extractFreeNamed R (res, res, res) oob u = some o ∧
      m.extractObjs R (res, res, res) oob [] u false = some a ∧
      m.extractObjs R (res, res, res) oob ids u false = some b ∧ o.max = a.max ∧ o.min = b.min ∧ o.sdf.dims = m.dims ∧
      ∀ v, InBounds m.dims v →
        (¬ TObstacle m u v → o.sdf.get v = a.sdf.get v) ∧
        (TObstacle m u v → (m.getImm v).1.obj ≠ 0 → o.sdf.get v = b.sdf.get v) ∧
        (TObstacle m u v → (m.getImm v).1.obj = 0 → o.sdf.get v = some 0) := by
  obtain ⟨fr, a, b, h1, h2⟩ := base_spec hd (f := fun i => TMap.occFilled u (m.grid.get i))
    (fill := fun i => some (TMap.occFilled u (m.grid.get i))) (fun _ _ => rfl) R res oob
  obtain ⟨ob, a', b', g1, g2⟩ := base_spec hd (f := fun i => TMap.namedFilled u (m.grid.get i))
    (fill := fun i => some (TMap.namedFilled u (m.grid.get i))) (fun _ _ => rfl) R res oob
  have e1 : extractCells R (res, res, res) m.grid (TMap.occFilled u) oob = some fr := by
    unfold extractCells; rw [extract_false]; exact h1
  have e2 : extractCells R (res, res, res) m.grid (TMap.namedFilled u) oob = some ob := by
    unfold extractCells; rw [extract_false]; exact g1
  have ans : ∀ objs, ∀ f : Idx → Bool, (∀ i, InBounds m.dims i → ((Selected m objs i ∧ TObstacle m u i) ↔ f i = true)) →
      m.extractObjs R (res, res, res) oob objs u false = base R res m.dims (fun i => some (f i)) oob := by
    intro objs f hf
    unfold TMap.extractObjs
    rw [extract_false]
    refine base_congr R res (fun i hi => ?_) oob
    rw [TMap.objFill_answers m objs u i hi]
    have := hf i hi
    refine congrArg some ?_
    cases h : f i <;> simp_all
  have ea : m.extractObjs R (res, res, res) oob [] u false = some fr := by
    rw [ans [] (fun i => TMap.occFilled u (m.grid.get i)) fun i _ => by
      rw [TMap.occFilled_iff]; simp [Selected]]
    exact h1
  have eb : m.extractObjs R (res, res, res) oob ids u false = some ob := by
    rw [ans ids (fun i => TMap.namedFilled u (m.grid.get i)) fun i hi => by
      rw [TMap.namedFilled_iff]
      unfold Selected NamedObstacle
      constructor
      · rintro ⟨h | h, ho⟩
        · exact absurd h hne
        · exact ⟨ho, fun e => h0 (e ▸ h)⟩
      · exact fun ⟨ho, h⟩ => ⟨Or.inr (hall i hi h), ho⟩]
    exact g1
  refine ⟨⟨fr.sdf.dims.all.foldl (fun g i => g.set i (combine (fr.sdf.get i) (ob.sdf.get i))) fr.sdf,
    fr.max, ob.min⟩, fr, ob, by unfold TMap.extractFreeNamed; rw [e1, e2], ea, eb, rfl, rfl, ?_, fun v hv => ?_⟩
  · show (fr.sdf.setAll fr.sdf.dims.all _).dims = _
    rw [Grid.dims_setAll]; exact h2.dims
  have get : (fr.sdf.setAll fr.sdf.dims.all (fun i => combine (fr.sdf.get i) (ob.sdf.get i))).get v =
      combine (fr.sdf.get v) (ob.sdf.get v) := by
    rw [Grid.get_setAll h2.wf]
    have : fr.sdf.dims.inB v = true := by rw [h2.dims]; exact inB_iff_spec.mpr hv
    rw [if_pos ⟨Dims.mem_all.mpr this, this⟩]
  obtain ⟨c1, c2, c3⟩ := TMap.freeNamed_value hres h32 m h2 g2 hv
  refine ⟨fun h => ?_, fun h hn => ?_, fun h hn => ?_⟩
  · exact get.trans ((c1 h).1.trans (h2.val v hv).symm)
  · exact get.trans ((c2 ⟨h, hn⟩).1.trans (g2.val v hv).symm)
  · exact get.trans (c3 h fun k => k.2 hn)

/-- C133, the distances, in IEEE arithmetic: a free cell stores the distance to an obstacle cell, no less than that to the
nearest one; a cell of a named object stores minus the distance to a cell that is free or an obstacle without a name, no
less than that to the nearest one; all up to the relative error of C86. The nearest one is met exactly when it is less than
`sqrt 8` cells away, and up to a factor of `sqrt 2` on maps one cell thick. -/
theorem C133_distances {res : ℝ} (hres : GoodRes ieee res) (hlo : 1 / 2 ^ 126 ≤ res) (hhi : res ≤ 2 ^ 100) (m : TMap)
    (hd : SmallGrid m.dims) (oob : FVal) (u : Bool) :
    ∃ o, m.extractFreeNamed ieee (res, res, res) oob u = some o ∧ ∀ v, InBounds m.dims v →
      ∀ (s : ℝ) (P : Idx → Prop),
      (s = 1 ∧ ¬ TObstacle m u v ∧ P = TObstacle m u) ∨ (s = -1 ∧ NamedObstacle m u v ∧ P = fun p => ¬ NamedObstacle m u p) →
      (o.sdf.get v = some (if s = 1 then ⊤ else ⊥) ∨ ∃ (y : ℝ) (p : Idx), o.sdf.get v = some ((s * y : ℝ) : EReal) ∧
        0 < y ∧ InBounds m.dims p ∧ P p ∧
        |y - res * Real.sqrt (sqDist v p)| ≤ relErr * (res * Real.sqrt (sqDist v p)) ∧
        ∀ k, NearestWith m.dims P v k → (1 - relErr) * (res * Real.sqrt k) ≤ y) ∧
      ∀ k, NearestWith m.dims P v k →
        (k < 8 → ∃ y : ℝ, o.sdf.get v = some ((s * y : ℝ) : EReal) ∧
          |y - res * Real.sqrt k| ≤ relErr * (res * Real.sqrt k)) ∧
        (Flat m.dims → ∃ y : ℝ, o.sdf.get v = some ((s * y : ℝ) : EReal) ∧ (1 - relErr) * (res * Real.sqrt k) ≤ y ∧
          y ≤ (1 + relErr) * (res * (Real.sqrt 2 * Real.sqrt k))) := by
  classical
  have h32 := (ieee_resolution hlo hhi).1
  obtain ⟨ids, hne, h0, hall⟩ : ∃ ids : List UInt32, ids ≠ [] ∧ (0 : UInt32) ∉ ids ∧
      ∀ i, InBounds m.dims i → (m.getImm i).1.obj ≠ 0 → (m.getImm i).1.obj ∈ ids := by
    refine ⟨1 :: (m.dims.all.map fun i => (m.getImm i).1.obj).filter (· ≠ 0), by simp, by simp, fun i hi h => ?_⟩
    refine List.mem_cons_of_mem _ (List.mem_filter.mpr ⟨List.mem_map.mpr ⟨i, Dims.mem_all.mpr (inB_iff_spec.mpr hi), rfl⟩, ?_⟩)
    simpa using h
  obtain ⟨o, a, b, ho, ha, hb, -, -, -, hval⟩ := C133_agrees hres h32 m hd oob u hne h0 hall
  refine ⟨o, ho, fun v hv s P hs => ?_⟩
  have key : ∀ (f : Idx → Bool) (x : Out) (fill : Idx → Option Bool), Answers m.dims fill f →
      extract ieee (res, res, res) m.dims fill oob false = some x → o.sdf.get v = x.sdf.get v →
      (f v = true ↔ s = -1) → (s = 1 ∨ s = -1) → (∀ p, InBounds m.dims p → (P p ↔ f p ≠ f v)) →
      (o.sdf.get v = some (if s = 1 then ⊤ else ⊥) ∨ ∃ (y : ℝ) (p : Idx), o.sdf.get v = some ((s * y : ℝ) : EReal) ∧
        0 < y ∧ InBounds m.dims p ∧ P p ∧
        |y - res * Real.sqrt (sqDist v p)| ≤ relErr * (res * Real.sqrt (sqDist v p)) ∧
        ∀ k, NearestWith m.dims P v k → (1 - relErr) * (res * Real.sqrt k) ≤ y) ∧
      ∀ k, NearestWith m.dims P v k →
        (k < 8 → ∃ y : ℝ, o.sdf.get v = some ((s * y : ℝ) : EReal) ∧
          |y - res * Real.sqrt k| ≤ relErr * (res * Real.sqrt k)) ∧
        (Flat m.dims → ∃ y : ℝ, o.sdf.get v = some ((s * y : ℝ) : EReal) ∧ (1 - relErr) * (res * Real.sqrt k) ≤ y ∧
          y ≤ (1 + relErr) * (res * (Real.sqrt 2 * Real.sqrt k))) := by
    intro f x fill hans hx hg hfs hs' hP
    have near : ∀ k, NearestWith m.dims P v k → NearestOpposite m.dims f v k := by
      rintro k ⟨⟨p, hp, h1, h2⟩, h3⟩
      exact ⟨⟨p, ⟨hp, (hP p hp).mp h1⟩, h2⟩, fun q hq => h3 q hq.1 ((hP q hq.1).mpr hq.2)⟩
    have sgn : ∀ y : ℝ, (if f v then ((-y : ℝ) : EReal) else (y : EReal)) = ((s * y : ℝ) : EReal) := by
      intro y
      by_cases h : f v = true
      · rw [if_pos h, hfs.mp h]; simp
      · have : s = 1 := hs'.resolve_right fun k => h (hfs.mpr k)
        rw [if_neg h, this]; simp
    refine ⟨?_, fun k hk => ⟨fun h8 => ?_, fun hflat => ?_⟩⟩
    · rcases C86_accuracy hres hlo hhi hd hans hx hv with h | ⟨y, p, h1, h2, h3, h4, h5⟩
      · left
        rw [hg, h]
        by_cases h : f v = true
        · rw [if_pos h, hfs.mp h]; norm_num
        · have : s = 1 := hs'.resolve_right fun k => h (hfs.mpr k)
          rw [if_neg h, this]; simp
      · exact Or.inr ⟨y, p, by rw [hg, h1, sgn], h2, h3.1, (hP p h3.1).mpr h3.2, h4, fun k hk => h5 k (near k hk)⟩
    · obtain ⟨y, h1, -, h3⟩ := C86_near hres hlo hhi hd hans hx hv (near k hk) h8
      exact ⟨y, by rw [hg, h1, sgn], h3⟩
    · obtain ⟨y, h1, -, h3, h4⟩ := C86_flat hres hlo hhi hd hflat hans hx hv (near k hk)
      exact ⟨y, by rw [hg, h1, sgn], h3, h4⟩
  obtain ⟨c1, c2, -⟩ := hval v hv
  rcases hs with ⟨rfl, hfree, rfl⟩ | ⟨rfl, hnamed, rfl⟩
  · refine key _ a _ (m.objFill_answers [] u) ha (c1 hfree) ?_ (Or.inl rfl) fun p _ => ?_
    · simp [hfree]; norm_num
    · simp [hfree, Selected]
  · have sel : ∀ p, InBounds m.dims p → ((Selected m ids p ∧ TObstacle m u p) ↔ NamedObstacle m u p) := by
      intro p hp
      unfold Selected NamedObstacle
      constructor
      · rintro ⟨h | h, ho⟩
        · exact absurd h hne
        · exact ⟨ho, fun e => h0 (e ▸ h)⟩
      · exact fun ⟨ho, h⟩ => ⟨Or.inr (hall p hp h), ho⟩
    refine key _ b _ (m.objFill_answers ids u) hb (c2 hnamed.1 hnamed.2) ?_ (Or.inr rfl) fun p hp => ?_
    · simp only [decide_eq_true_eq, sel v hv, hnamed, iff_true]
    · simp only [ne_eq, decide_eq_decide, sel v hv, sel p hp, hnamed, iff_true]

/-- The map of C41: a free cell, a cell of object 7 and an obstacle without a name in a row of cells of size 1/4. The free
cell is one cell from the nearest obstacle, and the object's cell one cell from the nearest other one. -/
example : GoodRes ieee (1 / 4) ∧ SmallGrid exTagged.dims ∧
    (¬ TObstacle exTagged true ⟨0, 0, 0⟩ ∧ NearestWith exTagged.dims (TObstacle exTagged true) ⟨0, 0, 0⟩ 1) ∧
    (NamedObstacle exTagged true ⟨1, 0, 0⟩ ∧
      NearestWith exTagged.dims (fun p => ¬ NamedObstacle exTagged true p) ⟨1, 0, 0⟩ 1) := by
  have hd : exTagged.dims = ⟨3, 1, 1⟩ := rfl
  have f0 : ¬ TObstacle exTagged true ⟨0, 0, 0⟩ := by unfold TObstacle; decide
  have n1 : NamedObstacle exTagged true ⟨1, 0, 0⟩ := by unfold NamedObstacle TObstacle; decide
  have pos : ∀ v p : Idx, p ≠ v → 1 ≤ sqDist v p := by
    intro v p h
    by_contra hc
    apply h
    unfold sqDist at hc
    have a := sq_nonneg (v.x - p.x)
    have b := sq_nonneg (v.y - p.y)
    have c := sq_nonneg (v.z - p.z)
    have ex : v.x - p.x = 0 := by by_contra h; have := pow_pos (abs_pos.mpr h) 2; rw [sq_abs] at this; omega
    have ey : v.y - p.y = 0 := by by_contra h; have := pow_pos (abs_pos.mpr h) 2; rw [sq_abs] at this; omega
    have ez : v.z - p.z = 0 := by by_contra h; have := pow_pos (abs_pos.mpr h) 2; rw [sq_abs] at this; omega
    cases v; cases p
    simp only [Idx.mk.injEq] at *
    omega
  refine ⟨quarter_good, by unfold SmallGrid; decide, ⟨f0, ⟨⟨1, 0, 0⟩, by rw [hd]; norm_num [InBounds], n1.1, by decide⟩,
    fun p _ hp => pos _ _ fun e => f0 (e ▸ hp)⟩, n1, ⟨⟨0, 0, 0⟩, by rw [hd]; norm_num [InBounds], fun h => f0 h.1, by decide⟩,
    fun p _ hp => pos _ _ fun e => hp (e ▸ n1)⟩

end Verif
