import Verif.TaggedSdf
import Verif.Props.SdfGen

/-!
# Properties of the SDFs of tagged maps (C40, C41, C62)
-/

namespace Verif

open Spec SdfGen

/-- The cell is an obstacle: occupancy above 0.5, or exactly 0.5 when unknown space is filled. -/
def TObstacle (m : TMap) (u : Bool) (i : Idx) : Prop :=
  (m.getImm i).1.occ.gtHalf = true ∨ (u = true ∧ (m.getImm i).1.occ.eqHalf = true)

/-- The cell belongs to the objects of interest; the empty list means all. -/
def Selected (m : TMap) (objs : List UInt32) (i : Idx) : Prop :=
  objs = [] ∨ (m.getImm i).1.obj ∈ objs

namespace TMap

theorem objFill_answers (m : TMap) (objs : List UInt32) (u : Bool) :
    Answers m.grid.dims (objFill m objs u)
      (open Classical in fun i => decide (Selected m objs i ∧ TObstacle m u i)) := by
  intro i hi
  have hb : (m.getImm i).2 = true := by
    simp [TMap.getImm, Grid.getImm, inB_iff_spec.mpr hi]
  unfold objFill
  simp only [hb, if_true]
  by_cases hs : Selected m objs i
  · have : (m.getImm i).1.obj ∈ objs ∨ objs.length = 0 := by
      rcases hs with h | h
      · exact Or.inr (by simp [h])
      · exact Or.inl h
    rw [if_pos this]
    by_cases h1 : (m.getImm i).1.occ.gtHalf = true
    · simp [h1, hs, TObstacle]
    · by_cases h2 : u = true
      · by_cases h3 : (m.getImm i).1.occ.eqHalf = true
        · simp [h1, h2, h3, hs, TObstacle]
        · simp [h1, h3, hs, TObstacle]
      · simp [h1, h2, hs, TObstacle]
  · have : ¬ ((m.getImm i).1.obj ∈ objs ∨ objs.length = 0) := by
      rintro (h | h)
      · exact hs (Or.inr h)
      · exact hs (Or.inl (List.eq_nil_of_length_eq_zero h))
    rw [if_neg this]
    simp [hs]

end TMap

/-- The grid is small enough for the field to be built (with the border's layer, if any). -/
def FieldFits (d : Dims) (border : Bool) : Prop :=
  if border then SmallGrid (enlarge d) else SmallGrid d

/-- C40, the fill rule.  For every tagged map, object list (with duplicates, empty or not) and either
setting of the flags, the extraction succeeds; a cell gets at most minus the stored resolution if it
is selected and an obstacle, and at least the stored resolution otherwise. -/
theorem C40_object_filter {R : Rounding} {res : ℝ} (hres : GoodRes R res) (h32 : 0 < R.r32 res)
    (m : TMap) (border : Bool) (hd : FieldFits m.dims border) (oob : FVal) (objs : List UInt32)
    (u : Bool) :
    ∃ o, m.extractObjs R (res, res, res) oob objs u border = some o ∧
      ∀ v, InBounds m.dims v → o.sdf.dims = m.dims ∧ ∃ x, o.sdf.get v = some x ∧ x ≠ 0 ∧
        (Selected m objs v ∧ TObstacle m u v → x ≤ -R.r32 res) ∧
        (¬ (Selected m objs v ∧ TObstacle m u v) → R.r32 res ≤ x) := by
  have hneg : -R.r32 res < 0 := by
    rw [show (0 : EReal) = -0 by simp, EReal.neg_lt_neg_iff]; exact h32
  have ha := TMap.objFill_answers m objs u
  cases border with
  | false =>
    obtain ⟨o, h1, h2, h3⟩ := C13_sign hres hd ha oob
    refine ⟨o, h1, fun v hv => ⟨h2, ?_⟩⟩
    obtain ⟨x, e, a, b⟩ := h3 v hv
    refine ⟨x, e, ?_, fun h => a (by simpa using h), fun h => b (by simpa using h)⟩
    by_cases hf : Selected m objs v ∧ TObstacle m u v
    · exact (lt_of_le_of_lt (a (by simpa using hf)) hneg).ne
    · exact (lt_of_lt_of_le h32 (b (by simpa using hf))).ne'
  | true =>
    obtain ⟨⟨o, ho⟩, _⟩ := C17_safe_queries hd R res oob ha ha
    refine ⟨o, ho, fun v hv => ?_⟩
    obtain ⟨hdim, x, e, h0, a, b⟩ := C17_sign hres h32 hd ha ho hv
    exact ⟨hdim, x, e, h0, fun h => a (by simpa using h), fun h => b (by simpa using h)⟩

namespace TMap

theorem objectIds_fold (m : TMap) : ∀ (l : List Idx) (acc : List (UInt32 × UInt32)), OMap.Sorted acc →
    OMap.Sorted (l.foldl (fun acc i =>
      if (m.grid.get i).obj > 0 then OMap.insert (m.grid.get i).obj (1 : UInt32) acc else acc) acc) ∧
    ∀ id, id ∈ OMap.keys (l.foldl (fun acc i =>
      if (m.grid.get i).obj > 0 then OMap.insert (m.grid.get i).obj (1 : UInt32) acc else acc) acc) ↔
      (id ∈ OMap.keys acc ∨ ∃ i ∈ l, (m.grid.get i).obj = id ∧ id ≠ 0) := by
  have hpos : ∀ u : UInt32, u > 0 ↔ u ≠ 0 := by
    intro u
    rw [gt_iff_lt, UInt32.lt_iff_toNat_lt, ne_eq, ← UInt32.toNat_inj]
    simp only [UInt32.toNat_zero]
    omega
  intro l
  induction l with
  | nil => intro acc h; exact ⟨h, fun id => by simp⟩
  | cons a l ih =>
    intro acc h
    simp only [List.foldl_cons]
    by_cases h0 : (m.grid.get a).obj > 0
    · rw [if_pos h0]
      obtain ⟨i1, i2⟩ := ih _ (OMap.sorted_insert (m.grid.get a).obj (1 : UInt32) acc h)
      refine ⟨i1, fun id => ?_⟩
      rw [i2, OMap.mem_keys_insert]
      constructor
      · rintro ((rfl | hk) | ⟨i, hi, e⟩)
        · exact Or.inr ⟨a, List.mem_cons_self .., rfl, (hpos _).mp h0⟩
        · exact Or.inl hk
        · exact Or.inr ⟨i, List.mem_cons_of_mem _ hi, e⟩
      · rintro (hk | ⟨i, hi, e⟩)
        · exact Or.inl (Or.inr hk)
        · rcases List.mem_cons.mp hi with rfl | hi
          · exact Or.inl (Or.inl e.1.symm)
          · exact Or.inr ⟨i, hi, e⟩
    · rw [if_neg h0]
      obtain ⟨i1, i2⟩ := ih _ h
      refine ⟨i1, fun id => ?_⟩
      rw [i2]
      constructor
      · rintro (hk | ⟨i, hi, e⟩)
        · exact Or.inl hk
        · exact Or.inr ⟨i, List.mem_cons_of_mem _ hi, e⟩
      · rintro (hk | ⟨i, hi, e⟩)
        · exact Or.inl hk
        · rcases List.mem_cons.mp hi with rfl | hi
          · exact absurd ((hpos _).mpr (e.1 ▸ e.2)) h0
          · exact Or.inr ⟨i, hi, e⟩

theorem makeObjectSDFs_fold {R : Rounding} {sizes : ℝ × ℝ × ℝ} {m : TMap} {u border : Bool}
    (f : UInt32 → Out) (hf : ∀ id, m.extractObjs R sizes (some ⊤) [id] u border = some (f id)) :
    ∀ (ids : List UInt32) (acc : List (UInt32 × Grid FVal)), OMap.Sorted acc →
    ∃ l, ids.foldl (fun acc id => acc.bind fun l =>
        (extractObjs R sizes m (some ⊤) [id] u border).map fun o => OMap.insert id o.sdf l) (some acc)
          = some l ∧ OMap.Sorted l ∧
      ∀ id, OMap.find id l = if id ∈ ids then some (f id).sdf else OMap.find id acc := by
  intro ids
  induction ids with
  | nil => intro acc h; exact ⟨acc, rfl, h, fun id => by simp⟩
  | cons a ids ih =>
    intro acc h
    simp only [List.foldl_cons]
    have : ((some acc).bind fun l =>
        (extractObjs R sizes m (some ⊤) [a] u border).map fun o => OMap.insert a o.sdf l)
          = some (OMap.insert a (f a).sdf acc) := by
      simp [hf a]
    rw [this]
    obtain ⟨l, h1, h2, h3⟩ := ih _ (OMap.sorted_insert a (f a).sdf acc h)
    refine ⟨l, h1, h2, fun id => ?_⟩
    rw [h3, OMap.find_insert]
    by_cases hi : id ∈ ids
    · simp [hi]
    · by_cases ha : a = id
      · subst ha; simp
      · have : ¬ id = a := fun h => ha h.symm
        simp [hi, ha, this]

end TMap

/-- C40, per-object fields.  For every list of ids (duplicates allowed) `MakeObjectSDFs` returns a map
with increasing keys whose keys are exactly those ids, each with the field of that single object. -/
theorem C40_make_objects {R : Rounding} {res : ℝ} (hres : GoodRes R res) (h32 : 0 < R.r32 res)
    (m : TMap) (border : Bool) (hd : FieldFits m.dims border) (u : Bool) (ids : List UInt32) :
    ∃ l, m.makeObjectSDFs R (res, res, res) ids u border = some l ∧ (l.map Prod.fst).Pairwise (· < ·) ∧
      (∀ id, id ∈ l.map Prod.fst ↔ id ∈ ids) ∧
      ∀ id g, (id, g) ∈ l → ∃ o, m.extractObjs R (res, res, res) (some ⊤) [id] u border = some o ∧
        o.sdf = g := by
  have hex : ∀ id, ∃ o, m.extractObjs R (res, res, res) (some ⊤) [id] u border = some o := by
    intro id
    obtain ⟨o, h, _⟩ := C40_object_filter hres h32 m border hd (some ⊤) [id] u
    exact ⟨o, h⟩
  choose f hf using hex
  obtain ⟨l, h1, h2, h3⟩ := TMap.makeObjectSDFs_fold f hf ids [] (by simp [OMap.Sorted, OMap.keys])
  refine ⟨l, h1, h2, fun id => ?_, fun id g hg => ?_⟩
  · show id ∈ OMap.keys l ↔ _
    rw [← OMap.find_isSome_iff, h3]
    by_cases hi : id ∈ ids
    · simp [hi]
    · simp [hi, OMap.find]
  · have := (OMap.mem_iff_find h2 id g).mp hg
    rw [h3] at this
    by_cases hi : id ∈ ids
    · simp only [hi, if_true, Option.some.injEq] at this
      exact ⟨f id, hf id, this⟩
    · simp [hi, OMap.find] at this

/-- C40, all objects.  `MakeAllObjectSDFs` returns exactly one field per nonzero object id that
occurs in the grid, negative exactly on the obstacle cells of that object. -/
theorem C40_all_objects {R : Rounding} {res : ℝ} (hres : GoodRes R res) (h32 : 0 < R.r32 res)
    (m : TMap) (border : Bool) (hd : FieldFits m.dims border) (u : Bool) :
    ∃ l, m.makeAllObjectSDFs R (res, res, res) u border = some l ∧ (l.map Prod.fst).Nodup ∧
      (∀ id, id ∈ l.map Prod.fst ↔ id ≠ 0 ∧ ∃ i, InBounds m.dims i ∧ (m.getImm i).1.obj = id) ∧
      ∀ id g, (id, g) ∈ l → ∀ v, InBounds m.dims v → ∃ x, g.get v = some x ∧ x ≠ 0 ∧
        (x < 0 ↔ (m.getImm v).1.obj = id ∧ TObstacle m u v) := by
  obtain ⟨l, h1, h2, h3, h4⟩ := C40_make_objects hres h32 m border hd u m.objectIds
  have hneg : -R.r32 res < 0 := by
    rw [show (0 : EReal) = -0 by simp, EReal.neg_lt_neg_iff]; exact h32
  refine ⟨l, h1, h2.imp (fun h e => absurd (e ▸ h) (UInt32.lt_irrefl _)), fun id => ?_, ?_⟩
  · rw [h3]
    have := (TMap.objectIds_fold m m.dims.all [] (by simp [OMap.Sorted, OMap.keys])).2 id
    unfold TMap.objectIds
    rw [this]
    simp only [OMap.keys, List.map_nil, List.not_mem_nil, false_or]
    constructor
    · rintro ⟨i, hi, e, h0⟩
      exact ⟨h0, i, inB_iff_spec.mp (Dims.mem_all.mp hi), e⟩
    · rintro ⟨h0, i, hi, e⟩
      exact ⟨i, Dims.mem_all.mpr (inB_iff_spec.mpr hi), e, h0⟩
  · intro id g hg v hv
    obtain ⟨o, ho, rfl⟩ := h4 id g hg
    obtain ⟨o', ho', hall⟩ := C40_object_filter hres h32 m border hd (some ⊤) [id] u
    rw [ho] at ho'
    simp only [Option.some.injEq] at ho'
    subst ho'
    obtain ⟨_, x, e, h0, a, b⟩ := hall v hv
    refine ⟨x, e, h0, ?_⟩
    have hsel : Selected m [id] v ↔ (m.getImm v).1.obj = id := by simp [Selected]
    rw [hsel] at a b
    constructor
    · intro hx
      by_contra hn
      exact absurd (lt_of_le_of_lt (b hn) hx) (not_lt.mpr h32.le)
    · intro h; exact lt_of_le_of_lt (a h) hneg

/-- A map with a named obstacle, an unnamed obstacle and free space. -/
def exTagged : TMap := (TMap.create false ⟨3, 1, 1⟩ (TCell.ofObj 0 0) (TCell.ofObj 0 0)).run
  [.setValue ⟨1, 0, 0⟩ (TCell.ofObj F32.one 7), .setValue ⟨2, 0, 0⟩ (TCell.ofObj F32.one 0)]

example : Selected exTagged [7, 7] ⟨1, 0, 0⟩ ∧ TObstacle exTagged false ⟨1, 0, 0⟩ ∧
    ¬ Selected exTagged [7, 7] ⟨2, 0, 0⟩ ∧ exTagged.objectIds = [7] ∧
    FieldFits exTagged.dims false := by
  refine ⟨?_, ?_, ?_, by decide, ?_⟩
  · unfold Selected; decide
  · unfold TObstacle; decide
  · unfold Selected; decide
  · show SmallGrid _; unfold SmallGrid; decide

/-! ## C41: free space and named objects -/

/-- The cell is an obstacle that belongs to a named object. -/
def NamedObstacle (m : TMap) (u : Bool) (i : Idx) : Prop :=
  TObstacle m u i ∧ (m.getImm i).1.obj ≠ 0

namespace TMap

theorem occFilled_iff (m : TMap) (u : Bool) (i : Idx) :
    occFilled u (m.grid.get i) = true ↔ TObstacle m u i := by
  show _ ↔ ((m.grid.get i).occ.gtHalf = true ∨ (u = true ∧ (m.grid.get i).occ.eqHalf = true))
  unfold occFilled
  by_cases h1 : (m.grid.get i).occ.gtHalf = true
  · simp [h1]
  · simp [h1]

theorem namedFilled_iff (m : TMap) (u : Bool) (i : Idx) :
    namedFilled u (m.grid.get i) = true ↔ NamedObstacle m u i := by
  have hpos : (m.grid.get i).obj > 0 ↔ (m.grid.get i).obj ≠ 0 := by
    rw [gt_iff_lt, UInt32.lt_iff_toNat_lt, ne_eq, ← UInt32.toNat_inj]
    simp only [UInt32.toNat_zero]
    omega
  unfold NamedObstacle
  rw [← occFilled_iff]
  show _ ↔ _ ∧ (m.grid.get i).obj ≠ 0
  rw [← hpos]
  unfold namedFilled occFilled
  by_cases h0 : (m.grid.get i).obj > 0
  · simp [h0]
  · simp [h0]

/-- Both fields exist and the result is their cell-wise combination. -/
theorem freeNamed_spec {R : Rounding} (res : ℝ) (m : TMap) (hd : SmallGrid m.dims) (oob : FVal)
    (u : Bool) :
    ∃ o fr ob a b a' b', m.extractFreeNamed R (res, res, res) oob u = some o ∧
      BaseSpec R res m.dims (fun i => occFilled u (m.grid.get i)) oob fr a b ∧
      BaseSpec R res m.dims (fun i => namedFilled u (m.grid.get i)) oob ob a' b' ∧
      o.max = fr.max ∧ o.min = ob.min ∧ o.sdf.dims = m.dims ∧
      ∀ v, InBounds m.dims v → o.sdf.get v = combine (fr.sdf.get v) (ob.sdf.get v) := by
  obtain ⟨fr, a, b, h1, h2⟩ := base_spec hd (f := fun i => occFilled u (m.grid.get i))
    (fill := fun i => some (occFilled u (m.grid.get i))) (fun _ _ => rfl) R res oob
  obtain ⟨ob, a', b', g1, g2⟩ := base_spec hd (f := fun i => namedFilled u (m.grid.get i))
    (fill := fun i => some (namedFilled u (m.grid.get i))) (fun _ _ => rfl) R res oob
  have e1 : extractCells R (res, res, res) m.grid (occFilled u) oob = some fr := by
    unfold extractCells; rw [extract_false]; exact h1
  have e2 : extractCells R (res, res, res) m.grid (namedFilled u) oob = some ob := by
    unfold extractCells; rw [extract_false]; exact g1
  refine ⟨⟨fr.sdf.dims.all.foldl (fun g i => g.set i (combine (fr.sdf.get i) (ob.sdf.get i))) fr.sdf,
    fr.max, ob.min⟩, fr, ob, a, b, a', b', by unfold extractFreeNamed; rw [e1, e2], h2, g2, rfl, rfl,
    ?_, ?_⟩
  · show (fr.sdf.setAll fr.sdf.dims.all _).dims = _
    rw [Grid.dims_setAll]; exact h2.dims
  · intro v hv
    show (fr.sdf.setAll fr.sdf.dims.all (fun i => combine (fr.sdf.get i) (ob.sdf.get i))).get v = _
    rw [Grid.get_setAll h2.wf]
    have : fr.sdf.dims.inB v = true := by rw [h2.dims]; exact inB_iff_spec.mpr hv
    rw [if_pos ⟨Dims.mem_all.mpr this, this⟩]

/-- The value of each kind of cell. -/
theorem freeNamed_value {R : Rounding} {res : ℝ} (hres : GoodRes R res) (h32 : 0 < R.r32 res)
    (m : TMap) {oob : FVal} {u : Bool} {fr ob : Out} {a b a' b' : DField.St}
    (h1 : BaseSpec R res m.dims (fun i => occFilled u (m.grid.get i)) oob fr a b)
    (h2 : BaseSpec R res m.dims (fun i => namedFilled u (m.grid.get i)) oob ob a' b') {v : Idx}
    (hv : InBounds m.dims v) :
    (¬ TObstacle m u v → combine (fr.sdf.get v) (ob.sdf.get v) =
      some (R.r32 (exactVal R res a b (fun i => occFilled u (m.grid.get i)) v)) ∧
      R.r32 res ≤ R.r32 (exactVal R res a b (fun i => occFilled u (m.grid.get i)) v)) ∧
    (NamedObstacle m u v → combine (fr.sdf.get v) (ob.sdf.get v) =
      some (R.r32 (exactVal R res a' b' (fun i => namedFilled u (m.grid.get i)) v)) ∧
      R.r32 (exactVal R res a' b' (fun i => namedFilled u (m.grid.get i)) v) ≤ -R.r32 res) ∧
    (TObstacle m u v → ¬ NamedObstacle m u v → combine (fr.sdf.get v) (ob.sdf.get v) = some 0) := by
  have hneg : -R.r32 res < 0 := by
    rw [show (0 : EReal) = -0 by simp, EReal.neg_lt_neg_iff]; exact h32
  have hfree_neg : TObstacle m u v →
      geZero (some (R.r32 (exactVal R res a b (fun i => occFilled u (m.grid.get i)) v))) = false := by
    intro ho
    have hle := R.mono32 (h1.filled_le hres hv ((occFilled_iff m u v).mpr ho))
    rw [R.odd32] at hle
    unfold geZero
    simpa using lt_of_le_of_lt hle hneg
  refine ⟨?_, ?_, ?_⟩
  · intro ho
    have hf : occFilled u (m.grid.get v) = false := by
      cases h : occFilled u (m.grid.get v) with
      | false => rfl
      | true => exact absurd ((occFilled_iff m u v).mp h) ho
    have hge := R.mono32 (h1.free_ge hres hv hf)
    refine ⟨?_, hge⟩
    unfold combine
    rw [h1.val v hv]
    have : geZero (some (R.r32 (exactVal R res a b (fun i => occFilled u (m.grid.get i)) v))) = true := by
      unfold geZero
      simpa using le_trans h32.le hge
    rw [this]; rfl
  · intro hn
    have hle := R.mono32 (h2.filled_le hres hv ((namedFilled_iff m u v).mpr hn))
    rw [R.odd32] at hle
    refine ⟨?_, hle⟩
    unfold combine
    rw [h1.val v hv, h2.val v hv, hfree_neg hn.1]
    have : leZero (some (R.r32 (exactVal R res a' b' (fun i => namedFilled u (m.grid.get i)) v)))
        = true := by
      unfold leZero
      simpa using le_trans hle hneg.le
    rw [this]; rfl
  · intro ho hn
    have hf : namedFilled u (m.grid.get v) = false := by
      cases h : namedFilled u (m.grid.get v) with
      | false => rfl
      | true => exact absurd ((namedFilled_iff m u v).mp h) hn
    have hge := R.mono32 (h2.free_ge hres hv hf)
    unfold combine
    rw [h1.val v hv, h2.val v hv, hfree_neg ho]
    have : leZero (some (R.r32 (exactVal R res a' b' (fun i => namedFilled u (m.grid.get i)) v)))
        = false := by
      unfold leZero
      simpa using lt_of_lt_of_le h32 hge
    rw [this]; rfl

end TMap

/-- C41.  In the free-and-named-objects field a cell is at least the stored resolution iff it is free,
at most minus the stored resolution iff it is an obstacle of a named object, and exactly zero iff it
is an obstacle without a name.  The extraction succeeds for every map. -/
theorem C41_trichotomy {R : Rounding} {res : ℝ} (hres : GoodRes R res) (h32 : 0 < R.r32 res)
    (m : TMap) (hd : SmallGrid m.dims) (oob : FVal) (u : Bool) :
    ∃ o, m.extractFreeNamed R (res, res, res) oob u = some o ∧ o.sdf.dims = m.dims ∧
      ∀ v, InBounds m.dims v → ∃ x, o.sdf.get v = some x ∧
        (R.r32 res ≤ x ↔ ¬ TObstacle m u v) ∧
        (x ≤ -R.r32 res ↔ TObstacle m u v ∧ (m.getImm v).1.obj ≠ 0) ∧
        (x = 0 ↔ TObstacle m u v ∧ (m.getImm v).1.obj = 0) := by
  obtain ⟨o, fr, ob, a, b, a', b', ho, h1, h2, _, _, hdim, hval⟩ := TMap.freeNamed_spec (R := R) res m hd oob u
  refine ⟨o, ho, hdim, fun v hv => ?_⟩
  have hneg : -R.r32 res < 0 := by
    rw [show (0 : EReal) = -0 by simp, EReal.neg_lt_neg_iff]; exact h32
  obtain ⟨c1, c2, c3⟩ := TMap.freeNamed_value hres h32 m h1 h2 hv
  rw [hval v hv]
  by_cases hob : TObstacle m u v
  · by_cases hn : (m.getImm v).1.obj = 0
    · have := c3 hob (fun h => h.2 hn)
      refine ⟨0, this, ?_, ?_, ?_⟩
      · simp [hob, not_le.mpr h32]
      · simp [hn, not_le.mpr hneg]
      · simp [hob, hn]
    · obtain ⟨e, hle⟩ := c2 ⟨hob, hn⟩
      refine ⟨_, e, ?_, ?_, ?_⟩
      · have : ¬ R.r32 res ≤ R.r32 (exactVal R res a' b' (fun i => TMap.namedFilled u (m.grid.get i)) v) :=
          not_le.mpr (lt_of_le_of_lt hle (lt_trans hneg h32))
        simp [hob, this]
      · simp [hob, hn, hle]
      · have := (lt_of_le_of_lt hle hneg).ne
        simp [hn, this]
  · obtain ⟨e, hge⟩ := c1 hob
    refine ⟨_, e, ?_, ?_, ?_⟩
    · simp [hob, hge]
    · have : ¬ R.r32 (exactVal R res a b (fun i => TMap.occFilled u (m.grid.get i)) v) ≤ -R.r32 res :=
        not_le.mpr (lt_of_lt_of_le (lt_trans hneg h32) hge)
      simp [hob, this]
    · have := (lt_of_lt_of_le h32 hge).ne'
      simp [hob, this]

example : SmallGrid exTagged.dims ∧ ¬ TObstacle exTagged true ⟨0, 0, 0⟩ ∧
    NamedObstacle exTagged true ⟨1, 0, 0⟩ ∧
    (TObstacle exTagged true ⟨2, 0, 0⟩ ∧ ¬ NamedObstacle exTagged true ⟨2, 0, 0⟩) := by
  refine ⟨by unfold SmallGrid; decide, by unfold TObstacle; decide, ?_, ?_⟩ <;>
  · unfold NamedObstacle TObstacle; decide

/-! ## C62: reported extrema of the free-and-named-objects field -/

/-- The full statement of C62: the reported pair is the maximum and minimum of the returned field. -/
def C62Statement (R : Rounding) : Prop := ∀ (res : ℝ) (m : TMap) (oob : FVal) (u : Bool) (o : Out),
  GoodRes R res → 0 < R.r32 res → SmallGrid m.dims → (∃ w, InBounds m.dims w) →
  m.extractFreeNamed R (res, res, res) oob u = some o →
  AreExtrema m.dims o.sdf.get (R.r32 o.max) (R.r32 o.min)

/-- C62, the part that holds: a map with a free cell and a cell of a named object.  Missing: other
maps, for which the statement is false (`C62_false`). -/
theorem C62_extrema_partial {R : Rounding} {res : ℝ} (hres : GoodRes R res) (h32 : 0 < R.r32 res)
    (m : TMap) (hd : SmallGrid m.dims) (oob : FVal) (u : Bool) {o : Out}
    (ho : m.extractFreeNamed R (res, res, res) oob u = some o) {p q : Idx}
    (hp : InBounds m.dims p) (hpf : ¬ TObstacle m u p) (hq : InBounds m.dims q)
    (hqf : NamedObstacle m u q) :
    AreExtrema m.dims o.sdf.get (R.r32 o.max) (R.r32 o.min) := by
  obtain ⟨o', fr, ob, a, b, a', b', ho', h1, h2, hmax, hmin, hdim, hval⟩ :=
    TMap.freeNamed_spec (R := R) res m hd oob u
  rw [ho] at ho'
  simp only [Option.some.injEq] at ho'
  subst ho'
  have hresE : (0 : EReal) < res := by exact_mod_cast hres.1
  have hnegE : -(res : EReal) < 0 := by
    rw [show (0 : EReal) = -0 by simp, EReal.neg_lt_neg_iff]; exact hresE
  have hneg : -R.r32 res < 0 := by
    rw [show (0 : EReal) = -0 by simp, EReal.neg_lt_neg_iff]; exact h32
  have occF : ∀ {v}, ¬ TObstacle m u v → TMap.occFilled u (m.grid.get v) = false := by
    intro v hv
    cases h : TMap.occFilled u (m.grid.get v) with
    | false => rfl
    | true => exact absurd ((TMap.occFilled_iff m u v).mp h) hv
  have hmaxpos : (res : EReal) ≤ fr.max := le_trans (h1.free_ge hres hp (occF hpf)) (h1.max_ge p hp)
  have hminneg : ob.min ≤ -(res : EReal) :=
    le_trans (h2.min_le q hq) (h2.filled_le hres hq ((TMap.namedFilled_iff m u q).mpr hqf))
  refine ⟨?_, ?_, ?_⟩
  · obtain ⟨w, hw, hwe⟩ := h1.max_attained hp
    have hwf : ¬ TObstacle m u w := by
      intro hob
      have := h1.filled_le hres hw ((TMap.occFilled_iff m u w).mpr hob)
      rw [hwe] at this
      exact absurd (le_trans hmaxpos this) (not_le.mpr (lt_trans hnegE hresE))
    refine ⟨w, hw, ?_⟩
    rw [hval w hw, ((TMap.freeNamed_value hres h32 m h1 h2 hw).1 hwf).1, hwe, hmax]
  · obtain ⟨w, hw, hwe⟩ := h2.min_attained hq
    have hwf : NamedObstacle m u w := by
      by_contra hn
      have hf : TMap.namedFilled u (m.grid.get w) = false := by
        cases h : TMap.namedFilled u (m.grid.get w) with
        | false => rfl
        | true => exact absurd ((TMap.namedFilled_iff m u w).mp h) hn
      have := h2.free_ge hres hw hf
      rw [hwe] at this
      exact absurd (le_trans this hminneg) (not_le.mpr (lt_trans hnegE hresE))
    refine ⟨w, hw, ?_⟩
    rw [hval w hw, ((TMap.freeNamed_value hres h32 m h1 h2 hw).2.1 hwf).1, hwe, hmin]
  · intro v hv
    have hmax32 : R.r32 res ≤ R.r32 fr.max := R.mono32 hmaxpos
    have hmin32 : R.r32 ob.min ≤ -R.r32 res := by
      rw [← R.odd32]; exact R.mono32 hminneg
    obtain ⟨c1, c2, c3⟩ := TMap.freeNamed_value hres h32 m h1 h2 hv
    rw [hval v hv, hmax, hmin]
    by_cases hob : TObstacle m u v
    · by_cases hn : NamedObstacle m u v
      · obtain ⟨e, hle⟩ := c2 hn
        exact ⟨_, e, R.mono32 (h2.min_le v hv),
          le_trans hle (le_trans (lt_trans hneg h32).le hmax32)⟩
      · exact ⟨0, c3 hob hn, le_trans hmin32 hneg.le, le_trans h32.le hmax32⟩
    · obtain ⟨e, hge⟩ := c1 hob
      exact ⟨_, e, le_trans hmin32 (le_trans (lt_trans hneg h32).le hge), R.mono32 (h1.max_ge v hv)⟩

/-- C62 is false: on a map made of unnamed obstacles every stored value is 0, but the reported
maximum is `-inf` (and the reported minimum `+inf`). -/
theorem C62_false (R : Rounding) {res : ℝ} (hres : GoodRes R res) (h32 : 0 < R.r32 res) :
    ¬ C62Statement R := by
  intro h
  let m := TMap.create false ⟨1, 1, 1⟩ (TCell.ofObj F32.one 0) (TCell.ofObj 0 0)
  have hd : SmallGrid m.dims := by show SmallGrid ⟨1, 1, 1⟩; unfold SmallGrid; decide
  have hin : ∀ v, InBounds m.dims v → v = ⟨0, 0, 0⟩ := by
    intro v hv
    have hv' : InBounds ⟨1, 1, 1⟩ v := hv
    unfold InBounds at hv'
    dsimp only at hv'
    push_cast at hv'
    obtain ⟨x, y, z⟩ := v
    simp only [Idx.mk.injEq]
    dsimp only at hv'
    omega
  have h0 : InBounds m.dims ⟨0, 0, 0⟩ := by
    show InBounds ⟨1, 1, 1⟩ _; unfold InBounds; decide
  have hob : TObstacle m false ⟨0, 0, 0⟩ := by unfold TObstacle; decide
  have hnn : ¬ NamedObstacle m false ⟨0, 0, 0⟩ := by unfold NamedObstacle TObstacle; decide
  obtain ⟨o, fr, ob, a, b, a', b', ho, h1, h2, hmax, hmin, hdim, hval⟩ :=
    TMap.freeNamed_spec (R := R) res m hd (some 0) false
  obtain ⟨⟨v, hv, e⟩, _, _⟩ := h res m (some 0) false o hres h32 hd ⟨_, h0⟩ ho
  rw [hval v hv, hin v hv, (TMap.freeNamed_value hres h32 m h1 h2 h0).2.2 hob hnn] at e
  simp only [Option.some.injEq] at e
  obtain ⟨w, hw, hwe⟩ := h1.max_attained h0
  have hle := h1.filled_le hres hw ((TMap.occFilled_iff m false w).mpr (by rw [hin w hw]; exact hob))
  rw [hwe, ← hmax] at hle
  have := R.mono32 hle
  rw [← e, R.odd32] at this
  have hneg : -R.r32 res < 0 := by
    rw [show (0 : EReal) = -0 by simp, EReal.neg_lt_neg_iff]; exact h32
  exact absurd this (not_le.mpr hneg)

end Verif
