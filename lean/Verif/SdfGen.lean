import Verif.DistanceField
import Verif.CollisionMap
import Mathlib.Data.EReal.Basic
import Mathlib.Data.EReal.Operations
import Mathlib.Data.EReal.Inv
import Mathlib.Analysis.Real.Sqrt

/-!
# Signed distance field generation

Model of the `ExtractSignedDistanceField` functions of `include/sdf_tools/sdf_generation.hpp:209-441`.

Floating point values are extended reals, with `none` for NaN.  The rounding of `double` operations
and of the conversion to `float` are abstract monotone functions (`Rounding`).
-/

namespace Verif

/-- Abstract rounding to `double` (`r64`) and to `float` (`r32`).  IEEE round-to-nearest is an instance
(`ieee`, `Verif/Ieee.lean`). -/
structure Rounding where
  r64 : EReal → EReal
  r32 : EReal → EReal
  mono64 : Monotone r64
  mono32 : Monotone r32
  idem64 : ∀ x, r64 (r64 x) = r64 x
  odd64 : ∀ x, r64 (-x) = -r64 x
  odd32 : ∀ x, r32 (-x) = -r32 x
  one64 : r64 1 = 1
  top64 : r64 ⊤ = ⊤
  top32 : r32 ⊤ = ⊤

/-- A floating point value; `none` is NaN. -/
abbrev FVal := Option EReal

/-- IEEE subtraction before rounding: NaN for `inf - inf`. -/
noncomputable def fsub (a b : EReal) : FVal :=
  open Classical in
  if (a = ⊤ ∧ b = ⊤) ∨ (a = ⊥ ∧ b = ⊥) then none else some (a - b)

/-- `std::sqrt` of a squared distance, before rounding. -/
noncomputable def sqrtE : Option Nat → EReal
  | none => ⊤
  | some n => (Real.sqrt n : ℝ)

namespace SdfGen

variable (R : Rounding)

/-- `std::sqrt(distance_square) * GetResolution()` in `double`
(`include/sdf_tools/sdf_generation.hpp:254-255`). -/
noncomputable def scaled (res : ℝ) (n : Option Nat) : EReal :=
  R.r64 (R.r64 (sqrtE n) * (res : EReal))

/-- `distance1 - distance2` in `double` (`include/sdf_tools/sdf_generation.hpp:254-256`). -/
noncomputable def distance (res : ℝ) (dFilled dFree : Option Nat) : FVal :=
  (fsub (scaled R res dFilled) (scaled R res dFree)).map R.r64

/-- Update of `max_distance` and `min_distance` (`include/sdf_tools/sdf_generation.hpp:257-264`);
comparisons with NaN are false. -/
noncomputable def updExtrema (acc : EReal × EReal) (x : FVal) : EReal × EReal :=
  open Classical in
  match x with
  | none => acc
  | some x => (if x > acc.1 then x else acc.1, if x < acc.2 then x else acc.2)

/-- The scan that splits the cells (`include/sdf_tools/sdf_generation.hpp:219-240`); the predicate may
throw (`none`). -/
def partitionCells (fill : Idx → Option Bool) : List Idx → Option (List Idx × List Idx)
  | [] => some ([], [])
  | i :: l =>
    match fill i with
    | none => none
    | some b =>
      match partitionCells fill l with
      | none => none
      | some (a, c) => some (if b then (i :: a, c) else (a, i :: c))

/-- Result of an extraction: the field and `(max, min)`. -/
structure Out where
  sdf : Grid FVal
  max : EReal
  min : EReal

/-- The loop that fills the SDF (`include/sdf_tools/sdf_generation.hpp:248-268`). -/
noncomputable def fillLoop (res : ℝ) (filledDF freeDF : Grid BCell) (l : List Idx) (o : Out) : Out :=
  l.foldl (fun o i =>
    let x := distance R res (filledDF.get i).dist (freeDF.get i).dist
    let e := updExtrema (o.max, o.min) x
    ⟨o.sdf.set i (x.map R.r32), e.1, e.2⟩) o

/-- `ExtractSignedDistanceField` without border (`include/sdf_tools/sdf_generation.hpp:209-271`).
`none`: an exception. -/
noncomputable def base (res : ℝ) (d : Dims) (fill : Idx → Option Bool) (oob : FVal) : Option Out :=
  match partitionCells fill d.all with
  | none => none
  | some (filled, free) =>
    match DField.build d filled, DField.build d free with
    | some a, some b => some (fillLoop R res a.field b.field d.all ⟨Grid.mk' d oob oob, ⊥, ⊤⟩)
    | _, _ => none

/-- `*_axis_query_offset` (`include/sdf_tools/sdf_generation.hpp:289-294`). -/
def off (n : Nat) : Nat := if n > 1 then 1 else 0

/-- The enlarged cell counts (`include/sdf_tools/sdf_generation.hpp:289-298`). -/
def enlarge (d : Dims) : Dims := ⟨d.nx + 2 * off d.nx, d.ny + 2 * off d.ny, d.nz + 2 * off d.nz⟩

/-- The query offset as an index. -/
def offset (d : Dims) : Idx := ⟨off d.nx, off d.ny, off d.nz⟩

/-- The border tests of the two predicates (`include/sdf_tools/sdf_generation.hpp:304-333,
344-373`). -/
def isBorder (d : Dims) (v : Idx) : Bool :=
  (decide (off d.nx > 0) && (decide (v.x = 0) || decide (v.x = (enlarge d).nx - 1))) ||
  (decide (off d.ny > 0) && (decide (v.y = 0) || decide (v.y = (enlarge d).ny - 1))) ||
  (decide (off d.nz > 0) && (decide (v.z = 0) || decide (v.z = (enlarge d).nz - 1)))

/-- `free_is_filled_fn` (`border = true`) and `filled_is_filled_fn` (`border = false`)
(`include/sdf_tools/sdf_generation.hpp:299-379`). -/
def withBorder (d : Dims) (border : Bool) (fill : Idx → Option Bool) (v : Idx) : Option Bool :=
  if isBorder d v then some border else fill (v - offset d)

/-- Comparison `a >= 0.0` (false for NaN). -/
noncomputable def geZero : FVal → Bool
  | none => false
  | some x => open Classical in decide (0 ≤ x)

/-- Comparison `a <= -0.0` (false for NaN). -/
noncomputable def leZero : FVal → Bool
  | none => false
  | some x => open Classical in decide (x ≤ 0)

/-- Selection of one combined value (`include/sdf_tools/sdf_generation.hpp:394-411`;
`include/sdf_tools/tagged_object_collision_map.hpp:787-800`). -/
noncomputable def combine (free filled : FVal) : FVal :=
  if geZero free then free else if leZero filled then filled else some 0

/-- `ExtractSignedDistanceField` with border flag (`include/sdf_tools/sdf_generation.hpp:273-420`).
`sizes` are the three cell sizes; unequal sizes throw. -/
noncomputable def extract (sizes : ℝ × ℝ × ℝ) (d : Dims) (fill : Idx → Option Bool) (oob : FVal)
    (border : Bool) : Option Out :=
  open Classical in
  if sizes.1 ≠ sizes.2.1 ∨ sizes.1 ≠ sizes.2.2 then none
  else if border = false then base R sizes.1 d fill oob
  else
    match base R sizes.1 (enlarge d) (withBorder d true fill) oob,
      base R sizes.1 (enlarge d) (withBorder d false fill) oob with
    | some fr, some fi =>
      some ⟨d.all.foldl (fun g i =>
          g.set i (combine (fr.sdf.get (i + offset d)) (fi.sdf.get (i + offset d))))
          (Grid.mk' d oob oob), fr.max, fi.min⟩
    | _, _ => none

/-- The overload that takes a predicate on cells (`include/sdf_tools/sdf_generation.hpp:422-441`). -/
noncomputable def extractCells {α : Type} (sizes : ℝ × ℝ × ℝ) (g : Grid α) (filled : α → Bool)
    (oob : FVal) : Option Out :=
  extract R sizes g.dims (fun i => some (filled (g.get i))) oob false

/-- `is_filled_fn` of `CollisionMapGrid::ExtractSignedDistanceField`
(`include/sdf_tools/collision_map.hpp:685-709`); an index out of bounds throws. -/
def mapFill (m : CMap) (unknownIsFilled : Bool) (i : Idx) : Option Bool :=
  let q := m.getImm i
  if q.2 then
    if q.1.occ.gtHalf then some true
    else if unknownIsFilled && q.1.occ.eqHalf then some true
    else some false
  else none

/-- `CollisionMapGrid::ExtractSignedDistanceField` (`include/sdf_tools/collision_map.hpp:680-712`). -/
noncomputable def extractMap (sizes : ℝ × ℝ × ℝ) (m : CMap) (oob : FVal) (unknownIsFilled border : Bool) :
    Option Out :=
  extract R sizes m.grid.dims (mapFill m unknownIsFilled) oob border

/-! ## Lemmas -/

theorem partition_some {fill : Idx → Option Bool} {f : Idx → Bool} :
    ∀ {l : List Idx}, (∀ i ∈ l, fill i = some (f i)) →
      partitionCells fill l = some (l.filter f, l.filter (fun i => !f i)) := by
  intro l
  induction l with
  | nil => intro _; rfl
  | cons a l ih =>
    intro h
    have ha := h a (List.mem_cons_self ..)
    have hl := ih (fun i hi => h i (List.mem_cons_of_mem _ hi))
    unfold partitionCells
    rw [ha, hl]
    cases hf : f a <;> simp [hf]

theorem partition_none {fill : Idx → Option Bool} :
    ∀ {l : List Idx}, (∃ i ∈ l, fill i = none) → partitionCells fill l = none := by
  intro l
  induction l with
  | nil => rintro ⟨i, hi, _⟩; simp at hi
  | cons a l ih =>
    rintro ⟨i, hi, hn⟩
    unfold partitionCells
    cases ha : fill a with
    | none => rfl
    | some b =>
      rcases List.mem_cons.mp hi with rfl | hi
      · rw [ha] at hn; simp at hn
      · rw [ih ⟨i, hi, hn⟩]

/-- Result of the fill loop: values and extrema. -/
theorem fillLoop_spec (res : ℝ) (A B : Grid BCell) : ∀ (l : List Idx) (o : Out), o.sdf.WF →
    (∀ i ∈ l, o.sdf.dims.inB i = true) →
    (fillLoop R res A B l o).sdf.WF ∧ (fillLoop R res A B l o).sdf.dims = o.sdf.dims ∧
    (fillLoop R res A B l o).sdf.oob = o.sdf.oob ∧
    (∀ v, (fillLoop R res A B l o).sdf.get v =
      if v ∈ l then (distance R res (A.get v).dist (B.get v).dist).map R.r32 else o.sdf.get v) ∧
    (fillLoop R res A B l o).max = (l.foldl (fun e i => updExtrema e
      (distance R res (A.get i).dist (B.get i).dist)) (o.max, o.min)).1 ∧
    (fillLoop R res A B l o).min = (l.foldl (fun e i => updExtrema e
      (distance R res (A.get i).dist (B.get i).dist)) (o.max, o.min)).2 := by
  intro l
  induction l with
  | nil => intro o h _; exact ⟨h, rfl, rfl, by simp [fillLoop], rfl, rfl⟩
  | cons a l ih =>
    intro o h hb
    have ha := hb a (List.mem_cons_self ..)
    obtain ⟨h1, h2, h3, h4, h5, h6⟩ := ih
      ⟨o.sdf.set a ((distance R res (A.get a).dist (B.get a).dist).map R.r32),
        (updExtrema (o.max, o.min) (distance R res (A.get a).dist (B.get a).dist)).1,
        (updExtrema (o.max, o.min) (distance R res (A.get a).dist (B.get a).dist)).2⟩
      (h.set _ _) (by intro i hi; simpa using hb i (List.mem_cons_of_mem _ hi))
    have hstep : fillLoop R res A B (a :: l) o = fillLoop R res A B l
      ⟨o.sdf.set a ((distance R res (A.get a).dist (B.get a).dist).map R.r32),
        (updExtrema (o.max, o.min) (distance R res (A.get a).dist (B.get a).dist)).1,
        (updExtrema (o.max, o.min) (distance R res (A.get a).dist (B.get a).dist)).2⟩ := rfl
    rw [hstep]
    refine ⟨h1, h2.trans (by simp), h3.trans (by simp), ?_, ?_, ?_⟩
    · intro v
      rw [h4]
      by_cases hv : v ∈ l
      · simp [hv]
      · simp only [hv, if_false, List.mem_cons, or_false]
        rw [Grid.get_set h]
        by_cases hva : v = a
        · subst hva; simp [ha]
        · have : ¬ a = v := fun e => hva e.symm
          simp [hva, this]
    · rw [h5]; rfl
    · rw [h6]; rfl

/-- The extrema fold computes the greatest and least value. -/
theorem extrema_fold (f : Idx → EReal) : ∀ (l : List Idx) (acc : EReal × EReal),
    let r := l.foldl (fun e i => updExtrema e (some (f i))) acc
    (acc.1 ≤ r.1 ∧ (∀ i ∈ l, f i ≤ r.1) ∧ (r.1 = acc.1 ∨ ∃ i ∈ l, f i = r.1)) ∧
    (r.2 ≤ acc.2 ∧ (∀ i ∈ l, r.2 ≤ f i) ∧ (r.2 = acc.2 ∨ ∃ i ∈ l, f i = r.2)) := by
  intro l
  induction l with
  | nil => intro acc; simp
  | cons a l ih =>
    intro acc
    obtain ⟨⟨h1, h2, h3⟩, ⟨g1, g2, g3⟩⟩ := ih (updExtrema acc (some (f a)))
    simp only [List.foldl_cons]
    have hm : (updExtrema acc (some (f a))).1 = if f a > acc.1 then f a else acc.1 := rfl
    have hn : (updExtrema acc (some (f a))).2 = if f a < acc.2 then f a else acc.2 := rfl
    rw [hm] at h1 h3
    rw [hn] at g1 g3
    have m1 : acc.1 ≤ (if f a > acc.1 then f a else acc.1) := by split <;> [exact le_of_lt ‹_›; exact le_refl _]
    have m2 : f a ≤ (if f a > acc.1 then f a else acc.1) := by split <;> [exact le_refl _; exact not_lt.mp ‹_›]
    have n1 : (if f a < acc.2 then f a else acc.2) ≤ acc.2 := by split <;> [exact le_of_lt ‹_›; exact le_refl _]
    have n2 : (if f a < acc.2 then f a else acc.2) ≤ f a := by split <;> [exact le_refl _; exact not_lt.mp ‹_›]
    refine ⟨⟨m1.trans h1, ?_, ?_⟩, ⟨g1.trans n1, ?_, ?_⟩⟩
    · intro i hi
      rcases List.mem_cons.mp hi with rfl | hi
      · exact m2.trans h1
      · exact h2 i hi
    · rcases h3 with h3 | ⟨i, hi, h3⟩
      · split at h3
        · exact Or.inr ⟨a, List.mem_cons_self .., h3.symm⟩
        · exact Or.inl h3
      · exact Or.inr ⟨i, List.mem_cons_of_mem _ hi, h3⟩
    · intro i hi
      rcases List.mem_cons.mp hi with rfl | hi
      · exact g1.trans n2
      · exact g2 i hi
    · rcases g3 with g3 | ⟨i, hi, g3⟩
      · split at g3
        · exact Or.inr ⟨a, List.mem_cons_self .., g3.symm⟩
        · exact Or.inl g3
      · exact Or.inr ⟨i, List.mem_cons_of_mem _ hi, g3⟩

/-! ### Rounding -/

variable {R}

theorem zero64 : R.r64 0 = 0 := by
  have h := R.odd64 0
  rw [neg_zero] at h
  have : R.r64 0 ≤ R.r64 1 := R.mono64 zero_le_one
  rw [R.one64] at this
  induction hx : R.r64 0 with
  | bot => rw [hx] at h; simp at h
  | top => rw [hx] at h; simp at h
  | coe x =>
    rw [hx] at h
    have h' : x = -x := by exact_mod_cast h
    have : x = 0 := by linarith
    rw [this]; rfl

theorem zero32 : R.r32 0 = 0 := by
  have h := R.odd32 0
  rw [neg_zero] at h
  induction hx : R.r32 0 with
  | bot => rw [hx] at h; simp at h
  | top => rw [hx] at h; simp at h
  | coe x =>
    rw [hx] at h
    have h' : x = -x := by exact_mod_cast h
    have : x = 0 := by linarith
    rw [this]; rfl

theorem sqrtE_zero : sqrtE (some 0) = 0 := by simp [sqrtE]

theorem sqrtE_mono {a b : Nat} (h : a ≤ b) : sqrtE (some a) ≤ sqrtE (some b) := by
  simp only [sqrtE]
  exact EReal.coe_le_coe_iff.mpr (Real.sqrt_le_sqrt (by exact_mod_cast h))

theorem sqrtE_one : sqrtE (some 1) = 1 := by simp [sqrtE]

theorem one_le_sqrtE {n : Option Nat} (h : n ≠ some 0) : 1 ≤ sqrtE n := by
  cases n with
  | none => exact le_top
  | some n =>
    rw [← sqrtE_one]
    apply sqrtE_mono
    rcases Nat.eq_zero_or_pos n with h0 | h0
    · exact absurd (by rw [h0]) h
    · exact h0

theorem scaled_zero (res : ℝ) : scaled R res (some 0) = 0 := by
  simp [scaled, sqrtE_zero, zero64]

theorem scaled_top {res : ℝ} (h : 0 < res) : scaled R res none = ⊤ := by
  simp [scaled, sqrtE, R.top64, EReal.top_mul_coe_of_pos h]

theorem scaled_mono {res : ℝ} (h : 0 < res) {a b : Nat} (hab : a ≤ b) :
    scaled R res (some a) ≤ scaled R res (some b) := by
  unfold scaled
  apply R.mono64
  exact mul_le_mul_of_nonneg_right (R.mono64 (sqrtE_mono hab)) (by exact_mod_cast h.le)

theorem le_scaled {res : ℝ} (h : 0 < res) (hr : R.r64 res = res) {n : Option Nat}
    (hn : n ≠ some 0) : (res : EReal) ≤ scaled R res n := by
  unfold scaled
  rw [← hr]
  nth_rewrite 2 [hr]
  apply R.mono64
  have h1 : (1 : EReal) ≤ R.r64 (sqrtE n) := by
    rw [← R.one64]; exact R.mono64 (one_le_sqrtE hn)
  calc (res : EReal) = 1 * res := by rw [one_mul]
    _ ≤ _ := mul_le_mul_of_nonneg_right h1 (by exact_mod_cast h.le)

theorem scaled_one {res : ℝ} (hr : R.r64 res = res) : scaled R res (some 1) = res := by
  simp [scaled, sqrtE_one, R.one64, hr]

/-- Distance of a free cell (0 in the free field). -/
theorem distance_free (res : ℝ) (n : Option Nat) :
    distance R res n (some 0) = some (scaled R res n) := by
  unfold distance
  rw [scaled_zero]
  unfold fsub
  have : ¬ ((scaled R res n = ⊤ ∧ (0 : EReal) = ⊤) ∨ (scaled R res n = ⊥ ∧ (0 : EReal) = ⊥)) := by
    simp
  rw [if_neg this]
  simp only [Option.map_some, sub_zero]
  unfold scaled
  rw [R.idem64]

/-- Distance of a filled cell (0 in the filled field). -/
theorem distance_filled (res : ℝ) (n : Option Nat) :
    distance R res (some 0) n = some (-scaled R res n) := by
  unfold distance
  rw [scaled_zero]
  unfold fsub
  have : ¬ (((0 : EReal) = ⊤ ∧ scaled R res n = ⊤) ∨ ((0 : EReal) = ⊥ ∧ scaled R res n = ⊥)) := by
    simp
  rw [if_neg this]
  simp only [Option.map_some, zero_sub, R.odd64]
  unfold scaled
  rw [R.idem64]

/-- The identity rounding (exact arithmetic). -/
def exactRounding : Rounding where
  r64 := id
  r32 := id
  mono64 := monotone_id
  mono32 := monotone_id
  idem64 _ := rfl
  odd64 _ := rfl
  odd32 _ := rfl
  one64 := rfl
  top64 := rfl
  top32 := rfl

end SdfGen

end Verif
