import Verif.Grid
import Mathlib.Tactic.Linarith
import Mathlib.Tactic.Ring
import Mathlib.Tactic.NormNum
import Mathlib.Tactic.Positivity
import Mathlib.Tactic.Tauto

/-!
# Distance transform

Model of `sdf_generation::BuildDistanceField` (`include/sdf_tools/sdf_generation.hpp:19-207`): bucket
queue propagation of distances from source cells.  The C++ undefined behaviour that could occur
(appending to the vector that is being iterated, indexing a bucket or table out of range, signed
overflow) is recorded in the flag `ub`.
-/

namespace Verif

/-- Squared Euclidean distance of two cell indices. -/
def dsq (a b : Idx) : Nat :=
  (a.x - b.x).natAbs ^ 2 + (a.y - b.y).natAbs ^ 2 + (a.z - b.z).natAbs ^ 2

theorem dsq_cast (a b : Idx) :
    (dsq a b : Int) = (a.x - b.x) ^ 2 + (a.y - b.y) ^ 2 + (a.z - b.z) ^ 2 := by
  unfold dsq; push_cast; simp only [sq_abs]

/-- `bucket_cell` (`include/sdf_tools/sdf_generation.hpp:19-25`).  `dist = none` is `+inf`.  The
members `update_direction`, `location` and `closest_point` of the default cell are uninitialised in
the code; they are not read before they are written (only cells pushed to the queue are read). -/
structure BCell where
  dist : Option Nat
  dir : Int
  loc : Idx
  cp : Idx
deriving DecidableEq, Repr

/-- `default_cell` (`include/sdf_tools/sdf_generation.hpp:103-105`). -/
def BCell.default : BCell := ⟨none, 0, ⟨0, 0, 0⟩, ⟨0, 0, 0⟩⟩

namespace DField

/-- `GetDirectionNumber` (`include/sdf_tools/sdf_generation.hpp:29-32`). -/
def dirNum (δ : Idx) : Int := ((δ.x + 1) * 9) + ((δ.y + 1) * 3) + (δ.z + 1)

/-- The triple loop over `-1..1` (`include/sdf_tools/sdf_generation.hpp:42-46, 50-54`). -/
def dirs27 : List Idx :=
  ([-1, 0, 1] : List Int).flatMap fun x => ([-1, 0, 1] : List Int).flatMap fun y =>
    ([-1, 0, 1] : List Int).map fun z => ⟨x, y, z⟩

/-- The target filter of `MakeNeighborhoods` (`include/sdf_tools/sdf_generation.hpp:56-71`). -/
def keep (n : Nat) (s t : Idx) : Bool :=
  if t.x = 0 ∧ t.y = 0 ∧ t.z = 0 then false
  else if n ≥ 1 then
    if t.x.natAbs + t.y.natAbs + t.z.natAbs ≠ 1 then false
    else if s.x * t.x < 0 ∨ s.y * t.y < 0 ∨ s.z * t.z < 0 then false
    else true
  else true

/-- `MakeNeighborhoods` (`include/sdf_tools/sdf_generation.hpp:34-85`).  Source directions are
enumerated in the order of their direction numbers (`dirNum_dirs27`), so entry `k` of each list is
the neighbourhood of direction number `k`. -/
def neighborhoods : List (List (List Idx)) :=
  [0, 1].map fun n => dirs27.map fun s => dirs27.filter (keep n s)

theorem dirNum_dirs27 : dirs27.map dirNum = (List.range 27).map fun (k : Nat) => (k : Int) := by decide

/-- A value fits in `int32_t`. -/
def i32 (a : Int) : Bool := decide (-(2 ^ 31) ≤ a) && decide (a < 2 ^ 31)

/-- No signed overflow in `ComputeDistanceSquared(n, c)` and in the `int` conversions of its
arguments (`include/sdf_tools/sdf_generation.hpp:87-93, 165-174`). -/
def noOverflow (n c : Idx) : Bool :=
  i32 n.x && i32 n.y && i32 n.z && i32 c.x && i32 c.y && i32 c.z &&
  i32 (n.x - c.x) && i32 (n.y - c.y) && i32 (n.z - c.z) &&
  i32 ((n.x - c.x) ^ 2) && i32 ((n.y - c.y) ^ 2) && i32 ((n.z - c.z) ^ 2) &&
  i32 ((n.x - c.x) ^ 2 + (n.y - c.y) ^ 2) &&
  i32 ((n.x - c.x) ^ 2 + (n.y - c.y) ^ 2 + (n.z - c.z) ^ 2)

/-- `max_distance_square` (`include/sdf_tools/sdf_generation.hpp:107`). -/
def maxSq (d : Dims) : Nat := d.nx * d.nx + d.ny * d.ny + d.nz * d.nz

/-- State of the propagation. -/
structure St where
  field : Grid BCell
  q : List (List BCell)
  ub : Bool
deriving DecidableEq, Repr

/-- Entries of a bucket. -/
def St.bucket (s : St) (b : Nat) : List BCell := s.q.getD b []

/-- `new_distance_square < stored.distance_square`. -/
def better (new : Nat) : Option Nat → Bool
  | none => true
  | some o => decide (new < o)

/-- Body of the neighbour loop (`include/sdf_tools/sdf_generation.hpp:157-197`) for the direction
`δ`, while bucket `b` is being iterated and `e` is the current entry. -/
def relax (b : Nat) (e : BCell) (s : St) (δ : Idx) : St :=
  let n := e.loc + δ
  if s.field.dims.inB n then
    let new := dsq n e.cp
    let ub1 := s.ub || !noOverflow n e.cp
    if maxSq s.field.dims < new then { s with ub := ub1 }
    else if better new (s.field.get n).dist then
      let c : BCell := ⟨some new, dirNum δ, n, e.cp⟩
      { field := s.field.set n c
        q := s.q.modify new (· ++ [c])
        ub := ub1 || decide (new = b) || decide (s.q.length ≤ new) }
    else { s with ub := ub1 }
  else s

/-- Processing of one queue entry (`include/sdf_tools/sdf_generation.hpp:133-200`).  `D` is
`min(bq_idx, 1)` after conversion to `int`. -/
def processCell (b : Nat) (s : St) (e : BCell) : St :=
  let s := { s with ub := s.ub || !i32 b }
  let D := if b > 1 then 1 else b
  if e.dir < 0 ∨ e.dir > 26 then s
  else
    match (neighborhoods[D]?).bind (·[e.dir.toNat]?) with
    | none => { s with ub := true }
    | some nb => nb.foldl (relax b e) s

/-- One iteration of the bucket loop (`include/sdf_tools/sdf_generation.hpp:129-203`). -/
def processBucket (s : St) (b : Nat) : St :=
  let s' := (s.bucket b).foldl (processCell b) s
  { s' with q := s'.q.set b [] }

/-- Marking one source point (`include/sdf_tools/sdf_generation.hpp:114-127`); `none` is the
exception for points out of bounds. -/
def seed (s : Option St) (p : Idx) : Option St :=
  s.bind fun s =>
    if s.field.dims.inB p then
      let c : BCell := ⟨some 0, dirNum ⟨0, 0, 0⟩, p, p⟩
      some { s with field := s.field.set p c, q := s.q.modify 0 (· ++ [c]) }
    else none

/-- Fields and queue before marking (`include/sdf_tools/sdf_generation.hpp:102-111`). -/
def start (d : Dims) : St :=
  ⟨Grid.mk' d BCell.default BCell.default, List.replicate (maxSq d + 1) [], false⟩

/-- State after the buckets `0..t-1` have been processed. -/
def after (s : St) (t : Nat) : St := (List.range t).foldl processBucket s

/-- `BuildDistanceField` (`include/sdf_tools/sdf_generation.hpp:95-207`); `none` is the exception. -/
def build (d : Dims) (pts : List Idx) : Option St :=
  (pts.foldl seed (some (start d))).map fun s => after s (maxSq d + 1)

/-! ## Geometry of directions -/

theorem mem_dirs27 {δ : Idx} :
    δ ∈ dirs27 ↔ (-1 ≤ δ.x ∧ δ.x ≤ 1) ∧ (-1 ≤ δ.y ∧ δ.y ≤ 1) ∧ (-1 ≤ δ.z ∧ δ.z ≤ 1) := by
  obtain ⟨x, y, z⟩ := δ
  simp only [dirs27, List.mem_flatMap, List.mem_map, List.mem_cons, List.not_mem_nil, or_false,
    Idx.mk.injEq]
  constructor
  · rintro ⟨a, ha, b, hb, c, hc, rfl, rfl, rfl⟩
    omega
  · rintro ⟨h1, h2, h3⟩
    exact ⟨x, by omega, y, by omega, z, by omega, rfl, rfl, rfl⟩

/-- The table entry for a direction is the filtered target list. -/
theorem neighborhoods_dirNum : ∀ δ ∈ dirs27, ∀ D ∈ [0, 1],
    (neighborhoods[D]?).bind (·[(dirNum δ).toNat]?) = some (dirs27.filter (keep D δ)) := by
  decide

theorem dirNum_range : ∀ δ ∈ dirs27, 0 ≤ dirNum δ ∧ dirNum δ ≤ 26 := by decide

/-- The direction points away from the origin along each of its axes. -/
def Away (δ w : Idx) : Prop :=
  (δ.x ≠ 0 → 0 < δ.x * w.x) ∧ (δ.y ≠ 0 → 0 < δ.y * w.y) ∧ (δ.z ≠ 0 → 0 < δ.z * w.z)

/-- Axis moves. -/
theorem face_cases {t : Idx} (h : t.x.natAbs + t.y.natAbs + t.z.natAbs = 1) :
    t = ⟨1, 0, 0⟩ ∨ t = ⟨-1, 0, 0⟩ ∨ t = ⟨0, 1, 0⟩ ∨ t = ⟨0, -1, 0⟩ ∨ t = ⟨0, 0, 1⟩ ∨
      t = ⟨0, 0, -1⟩ := by
  obtain ⟨x, y, z⟩ := t
  simp only at h
  rcases (by omega : x = 1 ∨ x = -1 ∨ x = 0) with rfl | rfl | rfl
  · have hy : y = 0 := by omega
    have hz : z = 0 := by omega
    subst hy hz; simp
  · have hy : y = 0 := by omega
    have hz : z = 0 := by omega
    subst hy hz; simp
  · rcases (by omega : y = 1 ∨ y = -1 ∨ y = 0) with rfl | rfl | rfl
    · have hz : z = 0 := by omega
      subst hz; simp
    · have hz : z = 0 := by omega
      subst hz; simp
    · rcases (by omega : z = 1 ∨ z = -1) with rfl | rfl <;> simp

theorem dsq_self_add (a δ : Idx) : (dsq (a + δ) a : Int) = δ.x ^ 2 + δ.y ^ 2 + δ.z ^ 2 := by
  rw [dsq_cast]
  simp only [Idx.add_x, Idx.add_y, Idx.add_z]
  ring

theorem dsq_add (a δ c : Idx) : (dsq (a + δ) c : Int) =
    dsq a c + 2 * (δ.x * (a.x - c.x) + δ.y * (a.y - c.y) + δ.z * (a.z - c.z)) +
      (δ.x ^ 2 + δ.y ^ 2 + δ.z ^ 2) := by
  rw [dsq_cast, dsq_cast]
  simp only [Idx.add_x, Idx.add_y, Idx.add_z]
  ring

theorem dsq_eq_zero {a b : Idx} : dsq a b = 0 ↔ a = b := by
  constructor
  · intro h
    unfold dsq at h
    have h1 : (a.x - b.x).natAbs ^ 2 = 0 := by omega
    have h2 : (a.y - b.y).natAbs ^ 2 = 0 := by omega
    have h3 : (a.z - b.z).natAbs ^ 2 = 0 := by omega
    rw [pow_eq_zero_iff (by norm_num)] at h1 h2 h3
    obtain ⟨x, y, z⟩ := a
    obtain ⟨x', y', z'⟩ := b
    simp only at h1 h2 h3
    simp only [Idx.mk.injEq]
    omega
  · rintro rfl; simp [dsq]

theorem dsq_le_maxSq {d : Dims} {a b : Idx} (ha : d.inB a = true) (hb : d.inB b = true) :
    dsq a b ≤ maxSq d := by
  rw [Dims.inB_iff] at ha hb
  unfold dsq maxSq
  have h1 : (a.x - b.x).natAbs ≤ d.nx := by omega
  have h2 : (a.y - b.y).natAbs ≤ d.ny := by omega
  have h3 : (a.z - b.z).natAbs ≤ d.nz := by omega
  have e1 := Nat.mul_le_mul h1 h1
  have e2 := Nat.mul_le_mul h2 h2
  have e3 := Nat.mul_le_mul h3 h3
  simp only [pow_two]
  omega

theorem noOverflow_of_inB {d : Dims} (hd : maxSq d < 2 ^ 31) {a b : Idx} (ha : d.inB a = true)
    (hb : d.inB b = true) : noOverflow a b = true := by
  have hle := dsq_le_maxSq ha hb
  have hc := dsq_cast a b
  rw [Dims.inB_iff] at ha hb
  have hx : (d.nx : Int) ≤ maxSq d := by
    unfold maxSq; have := Nat.le_mul_self d.nx; omega
  have hy : (d.ny : Int) ≤ maxSq d := by
    unfold maxSq; have := Nat.le_mul_self d.ny; omega
  have hz : (d.nz : Int) ≤ maxSq d := by
    unfold maxSq; have := Nat.le_mul_self d.nz; omega
  have p1 := sq_nonneg (a.x - b.x)
  have p2 := sq_nonneg (a.y - b.y)
  have p3 := sq_nonneg (a.z - b.z)
  unfold noOverflow i32
  simp only [Bool.and_eq_true, decide_eq_true_eq]
  generalize (a.x - b.x) ^ 2 = X at *
  generalize (a.y - b.y) ^ 2 = Y at *
  generalize (a.z - b.z) ^ 2 = Z at *
  omega

/-! ## Buckets -/

theorem bucket_modify (q : List (List BCell)) (n b : Nat) (c : BCell) (hn : n < q.length) :
    (q.modify n (· ++ [c])).getD b [] = if b = n then q.getD b [] ++ [c] else q.getD b [] := by
  simp only [List.getD_eq_getElem?_getD, List.getElem?_modify]
  by_cases h : n = b
  · subst h
    simp [List.getElem?_eq_getElem hn]
  · have h' : ¬ b = n := fun e => h e.symm
    simp [h, h']

theorem bucket_set_nil (q : List (List BCell)) (n b : Nat) :
    (q.set n []).getD b [] = if b = n then [] else q.getD b [] := by
  simp only [List.getD_eq_getElem?_getD, List.getElem?_set]
  by_cases h : n = b
  · subst h
    by_cases hn : n < q.length <;> simp [hn]
  · have h' : ¬ b = n := fun e => h e.symm
    simp [h, h']

/-! ## Invariant -/

/-- A queue entry of bucket `b` describes a source at squared distance `b`. -/
def EntryOK (d : Dims) (S : List Idx) (b : Nat) (e : BCell) : Prop :=
  d.inB e.loc = true ∧ e.cp ∈ S ∧ dsq e.loc e.cp = b ∧ ∃ δ ∈ dirs27, e.dir = dirNum δ

/-- The entry's direction points away from its source. -/
def Fwd (e : BCell) : Prop := ∃ δ ∈ dirs27, e.dir = dirNum δ ∧ Away δ (e.loc - e.cp)

/-- Invariant of the propagation; buckets `≥ t` have not been processed. -/
structure Inv (d : Dims) (S : List Idx) (t : Nat) (s : St) : Prop where
  wf : s.field.WF
  dims : s.field.dims = d
  qlen : s.q.length = maxSq d + 1
  noub : s.ub = false
  sound : ∀ v n, d.inB v = true → (s.field.get v).dist = some n →
    (s.field.get v).loc = v ∧ (s.field.get v).cp ∈ S ∧ n = dsq v (s.field.get v).cp
  src : ∀ p ∈ S, (s.field.get p).dist = some 0
  entry : ∀ b e, e ∈ s.bucket b → EntryOK d S b e
  fwd : ∀ b e, t ≤ b → e ∈ s.bucket b → Fwd e
  pend : ∀ v n, d.inB v = true → (s.field.get v).dist = some n → t ≤ n →
    s.field.get v ∈ s.bucket n

/-- The stored distance is at most `k`. -/
def ValLE (s : St) (v : Idx) (k : Nat) : Prop := ∃ n, (s.field.get v).dist = some n ∧ n ≤ k

/-- Distances only decrease. -/
def Mono (s s' : St) : Prop := ∀ v k, ValLE s v k → ValLE s' v k

theorem Mono.refl (s : St) : Mono s s := fun _ _ h => h
theorem Mono.trans {a b c : St} (h : Mono a b) (h' : Mono b c) : Mono a c :=
  fun v k hv => h' v k (h v k hv)

variable {d : Dims} {S : List Idx}

theorem Inv.weaken {t t' : Nat} {s : St} (h : Inv d S t s) (ht : t ≤ t') : Inv d S t' s :=
  ⟨h.wf, h.dims, h.qlen, h.noub, h.sound, h.src, h.entry,
    fun b e hb he => h.fwd b e (Nat.le_trans ht hb) he,
    fun v n hv hn hle => h.pend v n hv hn (Nat.le_trans ht hle)⟩

/-- The neighbourhood used for an entry of bucket `b` with direction `δ'`. -/
def nbhd (b : Nat) (δ' : Idx) : List Idx := dirs27.filter (keep (if b > 1 then 1 else b) δ')

theorem mem_nbhd_zero {δ δ' : Idx} : δ ∈ nbhd 0 δ' ↔ δ ∈ dirs27 ∧ δ ≠ ⟨0, 0, 0⟩ := by
  obtain ⟨x, y, z⟩ := δ
  simp only [nbhd, List.mem_filter, keep]
  simp
  intro _
  tauto

theorem mem_nbhd_pos {b : Nat} (hb : 1 ≤ b) {δ δ' : Idx} : δ ∈ nbhd b δ' ↔
    δ ∈ dirs27 ∧ δ.x.natAbs + δ.y.natAbs + δ.z.natAbs = 1 ∧
      0 ≤ δ'.x * δ.x ∧ 0 ≤ δ'.y * δ.y ∧ 0 ≤ δ'.z * δ.z := by
  have hD : (if b > 1 then 1 else b) = 1 := by split <;> omega
  simp only [nbhd, List.mem_filter, keep, hD]
  by_cases h0 : δ.x = 0 ∧ δ.y = 0 ∧ δ.z = 0
  · simp [h0]
  · by_cases h1 : δ.x.natAbs + δ.y.natAbs + δ.z.natAbs = 1
    · simp only [h0, h1]
      by_cases h2 : δ'.x * δ.x < 0 ∨ δ'.y * δ.y < 0 ∨ δ'.z * δ.z < 0
      · simp only [h2]
        simp
        intro _ a b
        by_contra hc
        rcases h2 with h | h | h <;> omega
      · simp only [h2]
        simp
        intro _
        refine ⟨?_, ?_, ?_⟩ <;> by_contra hc <;> apply h2 <;> omega
    · simp [h0, h1]

/-- Effect of relaxing one neighbour. -/
theorem relax_spec (hd : maxSq d < 2 ^ 31) {b : Nat} {s : St} (h : Inv d S (b + 1) s)
    (hS : ∀ p ∈ S, d.inB p = true) {e : BCell} (he : EntryOK d S b e) {δ' : Idx}
    {δ : Idx} (hδ : δ ∈ nbhd b δ') :
    Inv d S (b + 1) (relax b e s δ) ∧ Mono s (relax b e s δ) ∧
      (d.inB (e.loc + δ) = true → ValLE (relax b e s δ) (e.loc + δ) (dsq (e.loc + δ) e.cp)) := by
  obtain ⟨he1, he2, he3, -⟩ := he
  have hδd : δ ∈ dirs27 := List.mem_of_mem_filter hδ
  -- new bucket differs from the current one, and forward pushes point away from the source
  have hgeom : dsq (e.loc + δ) e.cp ≠ b ∧
      (b + 1 ≤ dsq (e.loc + δ) e.cp → Away δ (e.loc + δ - e.cp)) := by
    by_cases hb : b = 0
    · subst hb
      have heq : e.loc = e.cp := dsq_eq_zero.mp he3
      obtain ⟨_, hne⟩ := mem_nbhd_zero.mp hδ
      constructor
      · intro h0
        have := dsq_eq_zero.mp h0
        apply hne
        rw [← heq] at this
        have hx := congrArg Idx.x this
        have hy := congrArg Idx.y this
        have hz := congrArg Idx.z this
        simp only [Idx.add_x, Idx.add_y, Idx.add_z] at hx hy hz
        obtain ⟨x, y, z⟩ := δ
        simp only [Idx.mk.injEq]
        simp only at hx hy hz
        omega
      · intro _
        rw [← heq]
        unfold Away
        simp only [Idx.add_x, Idx.add_y, Idx.add_z, Idx.sub_x, Idx.sub_y, Idx.sub_z]
        refine ⟨fun h => ?_, fun h => ?_, fun h => ?_⟩
        · have := mul_self_pos.mpr h; linarith [this, show δ.x * (e.loc.x + δ.x - e.loc.x) = δ.x * δ.x by ring]
        · have := mul_self_pos.mpr h; linarith [this, show δ.y * (e.loc.y + δ.y - e.loc.y) = δ.y * δ.y by ring]
        · have := mul_self_pos.mpr h; linarith [this, show δ.z * (e.loc.z + δ.z - e.loc.z) = δ.z * δ.z by ring]
    · obtain ⟨_, hf, hx, hy, hz⟩ := (mem_nbhd_pos (by omega)).mp hδ
      have hadd := dsq_add e.loc δ e.cp
      rw [he3] at hadd
      unfold Away
      simp only [Idx.add_x, Idx.add_y, Idx.add_z, Idx.sub_x, Idx.sub_y, Idx.sub_z]
      rcases face_cases hf with rfl | rfl | rfl | rfl | rfl | rfl <;> simp at hadd ⊢ <;> omega
  unfold relax
  rw [h.dims]
  by_cases hin : d.inB (e.loc + δ) = true
  · have hmax : ¬ maxSq d < dsq (e.loc + δ) e.cp := Nat.not_lt.mpr (dsq_le_maxSq hin (hS _ he2))
    have hov : noOverflow (e.loc + δ) e.cp = true := noOverflow_of_inB hd hin (hS _ he2)
    simp only [hin, if_true, hmax, if_false, hov, Bool.not_true, Bool.or_false]
    by_cases hbet : better (dsq (e.loc + δ) e.cp) (s.field.get (e.loc + δ)).dist = true
    · simp only [hbet, if_true]
      have hlt : dsq (e.loc + δ) e.cp < s.q.length := by rw [h.qlen]; omega
      have hin' : s.field.dims.inB (e.loc + δ) = true := by rw [h.dims]; exact hin
      have hget : ∀ v, (s.field.set (e.loc + δ) ⟨some (dsq (e.loc + δ) e.cp), dirNum δ, e.loc + δ, e.cp⟩).get v
          = if e.loc + δ = v then ⟨some (dsq (e.loc + δ) e.cp), dirNum δ, e.loc + δ, e.cp⟩
            else s.field.get v := by
        intro v
        rw [Grid.get_set h.wf]
        simp [hin']
      refine ⟨⟨h.wf.set _ _, by simp [h.dims], by simp [h.qlen], ?_, ?_, ?_, ?_, ?_, ?_⟩, ?_, ?_⟩
      · simp [h.noub, hgeom.1, hlt]
      · intro v n hv hn
        simp only [hget] at hn ⊢
        split at hn
        · rename_i hv'
          subst hv'
          simp only [Option.some.injEq] at hn
          simp only [if_true]
          exact ⟨trivial, he2, hn.symm⟩
        · rename_i hv'
          simp only [hv', if_false]
          exact h.sound v n hv hn
      · intro p hp
        simp only [hget]
        split
        · rename_i hv'
          have hs := h.src p hp
          rw [← hv'] at hs
          rw [hs] at hbet
          simp [better] at hbet
        · exact h.src p hp
      · intro b' e' he'
        simp only [St.bucket, bucket_modify _ _ _ _ hlt] at he'
        split at he'
        · rename_i hb'
          rcases List.mem_append.mp he' with h1 | h1
          · exact h.entry b' e' h1
          · simp only [List.mem_singleton] at h1
            subst h1
            exact ⟨hin, he2, hb'.symm, δ, hδd, rfl⟩
        · exact h.entry b' e' he'
      · intro b' e' hb'' he'
        simp only [St.bucket, bucket_modify _ _ _ _ hlt] at he'
        split at he'
        · rename_i hb'
          rcases List.mem_append.mp he' with h1 | h1
          · exact h.fwd b' e' hb'' h1
          · simp only [List.mem_singleton] at h1
            subst h1
            exact ⟨δ, hδd, rfl, hgeom.2 (by omega)⟩
        · exact h.fwd b' e' hb'' he'
      · intro v n hv hn hle
        simp only [hget] at hn ⊢
        simp only [St.bucket, bucket_modify _ _ _ _ hlt]
        split at hn
        · rename_i hv'
          simp only [Option.some.injEq] at hn
          subst hv' hn
          simp
        · rename_i hv'
          have := h.pend v n hv hn hle
          simp only [hv', if_false]
          split
          · exact List.mem_append_left _ this
          · exact this
      · intro v k ⟨n, hn, hk⟩
        by_cases hv' : e.loc + δ = v
        · refine ⟨dsq (e.loc + δ) e.cp, ?_, ?_⟩
          · simp only [hget, if_pos hv']
          · rw [← hv'] at hn
            rw [hn] at hbet
            simp only [better, decide_eq_true_eq] at hbet
            omega
        · refine ⟨n, ?_, hk⟩
          simp only [hget, hv', if_false]
          exact hn
      · intro _
        refine ⟨dsq (e.loc + δ) e.cp, ?_, Nat.le_refl _⟩
        simp only [hget, if_true]
    · simp only [hbet]
      have : ({ s with ub := s.ub } : St) = s := rfl
      refine ⟨h, Mono.refl s, fun _ => ?_⟩
      cases hdst : (s.field.get (e.loc + δ)).dist with
      | none => rw [hdst] at hbet; simp [better] at hbet
      | some n =>
        rw [hdst] at hbet
        simp only [better, decide_eq_true_eq] at hbet
        exact ⟨n, hdst, by omega⟩
  · simp only [hin]
    exact ⟨h, Mono.refl s, fun hh => absurd hh (by simp)⟩

theorem relax_fold (hd : maxSq d < 2 ^ 31) {b : Nat} (hS : ∀ p ∈ S, d.inB p = true) {e : BCell}
    (he : EntryOK d S b e) {δ' : Idx} (l : List Idx) (hl : ∀ δ ∈ l, δ ∈ nbhd b δ') : ∀ s, Inv d S (b + 1) s →
      Inv d S (b + 1) (l.foldl (relax b e) s) ∧ Mono s (l.foldl (relax b e) s) ∧
      ∀ δ ∈ l, d.inB (e.loc + δ) = true →
        ValLE (l.foldl (relax b e) s) (e.loc + δ) (dsq (e.loc + δ) e.cp) := by
  induction l with
  | nil => intro s h; exact ⟨h, Mono.refl s, by simp⟩
  | cons a l ih =>
    intro s h
    obtain ⟨h1, h2, h3⟩ := relax_spec hd h hS he (hl a (List.mem_cons_self ..))
    obtain ⟨g1, g2, g3⟩ := ih (fun δ hδ => hl δ (List.mem_cons_of_mem _ hδ)) _ h1
    refine ⟨g1, h2.trans g2, ?_⟩
    intro δ hδ hin
    rcases List.mem_cons.mp hδ with rfl | hδ
    · exact g2 _ _ (h3 hin)
    · exact g3 δ hδ hin

theorem processCell_spec (hd : maxSq d < 2 ^ 31) {b : Nat} (hb : b ≤ maxSq d)
    (hS : ∀ p ∈ S, d.inB p = true) {e : BCell} (he : EntryOK d S b e) (hf : Fwd e) {s : St}
    (h : Inv d S (b + 1) s) :
    Inv d S (b + 1) (processCell b s e) ∧ Mono s (processCell b s e) ∧
      ∀ δ', e.dir = dirNum δ' → Away δ' (e.loc - e.cp) → δ' ∈ dirs27 →
        ∀ δ ∈ nbhd b δ', d.inB (e.loc + δ) = true →
          ValLE (processCell b s e) (e.loc + δ) (dsq (e.loc + δ) e.cp) := by
  have hi32 : i32 b = true := by
    unfold i32; simp only [Bool.and_eq_true, decide_eq_true_eq]; omega
  have hs : ({ s with ub := s.ub || !i32 b } : St) = s := by
    rw [hi32]; simp
  have key : ∀ δ' ∈ dirs27, e.dir = dirNum δ' →
      processCell b s e = (nbhd b δ').foldl (relax b e) s := by
    intro δ' hδ' hdir
    have hr := dirNum_range δ' hδ'
    have hnr : ¬ (e.dir < 0 ∨ e.dir > 26) := by rw [hdir]; omega
    have hD : (if b > 1 then 1 else b) ∈ [0, 1] := by
      simp only [List.mem_cons, List.not_mem_nil, or_false]; split <;> omega
    have ht := neighborhoods_dirNum δ' hδ' _ hD
    unfold processCell
    simp only [hs, hnr, if_false]
    rw [hdir, ht]
    rfl
  obtain ⟨δ0, hδ0, hdir0, _⟩ := hf
  obtain ⟨g1, g2, g3⟩ := relax_fold hd hS he (nbhd b δ0) (fun _ h => h) s h
  rw [← key δ0 hδ0 hdir0] at g1 g2 g3
  refine ⟨g1, g2, ?_⟩
  intro δ' hdir _ hδ' δ hδ hin
  obtain ⟨_, _, k3⟩ := relax_fold hd hS he (nbhd b δ') (fun _ h => h) s h
  rw [← key δ' hδ' hdir] at k3
  exact k3 δ hδ hin

theorem cells_fold (hd : maxSq d < 2 ^ 31) {b : Nat} (hb : b ≤ maxSq d)
    (hS : ∀ p ∈ S, d.inB p = true) (l : List BCell)
    (hl : ∀ e ∈ l, EntryOK d S b e ∧ Fwd e) : ∀ s, Inv d S (b + 1) s →
      Inv d S (b + 1) (l.foldl (processCell b) s) ∧ Mono s (l.foldl (processCell b) s) ∧
      ∀ e ∈ l, ∀ δ', e.dir = dirNum δ' → Away δ' (e.loc - e.cp) → δ' ∈ dirs27 →
        ∀ δ ∈ nbhd b δ', d.inB (e.loc + δ) = true →
          ValLE (l.foldl (processCell b) s) (e.loc + δ) (dsq (e.loc + δ) e.cp) := by
  induction l with
  | nil => intro s h; exact ⟨h, Mono.refl s, by simp⟩
  | cons a l ih =>
    intro s h
    obtain ⟨ha1, ha2⟩ := hl a (List.mem_cons_self ..)
    obtain ⟨h1, h2, h3⟩ := processCell_spec hd hb hS ha1 ha2 h
    obtain ⟨g1, g2, g3⟩ := ih (fun e he => hl e (List.mem_cons_of_mem _ he)) _ h1
    refine ⟨g1, h2.trans g2, ?_⟩
    intro e he
    rcases List.mem_cons.mp he with rfl | he
    · intro δ' a1 a2 a3 δ a4 a5
      exact g2 _ _ (h3 δ' a1 a2 a3 δ a4 a5)
    · exact g3 e he

theorem processBucket_spec (hd : maxSq d < 2 ^ 31) {b : Nat} (hb : b ≤ maxSq d)
    (hS : ∀ p ∈ S, d.inB p = true) {s : St} (h : Inv d S b s) :
    Inv d S (b + 1) (processBucket s b) ∧ Mono s (processBucket s b) ∧
      ∀ e ∈ s.bucket b, ∀ δ', e.dir = dirNum δ' → Away δ' (e.loc - e.cp) → δ' ∈ dirs27 →
        ∀ δ ∈ nbhd b δ', d.inB (e.loc + δ) = true →
          ValLE (processBucket s b) (e.loc + δ) (dsq (e.loc + δ) e.cp) := by
  obtain ⟨g1, g2, g3⟩ := cells_fold hd hb hS (s.bucket b)
    (fun e he => ⟨h.entry b e he, h.fwd b e (Nat.le_refl _) he⟩) s (h.weaken (Nat.le_succ _))
  refine ⟨⟨g1.wf, g1.dims, ?_, g1.noub, g1.sound, g1.src, ?_, ?_, ?_⟩, g2, g3⟩
  · simp [processBucket, g1.qlen]
  · intro b' e he
    simp only [processBucket, St.bucket, bucket_set_nil] at he
    split at he
    · simp at he
    · exact g1.entry b' e he
  · intro b' e hle he
    simp only [processBucket, St.bucket, bucket_set_nil] at he
    split at he
    · simp at he
    · exact g1.fwd b' e hle he
  · intro v n hv hn hle
    have := g1.pend v n hv hn hle
    simp only [processBucket, St.bucket, bucket_set_nil]
    have hne : ¬ n = b := by omega
    simp only [hne, if_false]
    exact this

theorem after_succ (s : St) (t : Nat) : after s (t + 1) = processBucket (after s t) t := by
  simp [after, List.range_succ]

theorem after_inv (hd : maxSq d < 2 ^ 31) (hS : ∀ p ∈ S, d.inB p = true) {s : St}
    (h : Inv d S 0 s) : ∀ t, t ≤ maxSq d + 1 → Inv d S t (after s t) := by
  intro t
  induction t with
  | zero => intro _; simpa [after] using h
  | succ t ih =>
    intro ht
    rw [after_succ]
    exact (processBucket_spec hd (by omega) hS (ih (by omega))).1

theorem after_mono (hd : maxSq d < 2 ^ 31) (hS : ∀ p ∈ S, d.inB p = true) {s : St}
    (h : Inv d S 0 s) (t : Nat) : ∀ k, t + k ≤ maxSq d + 1 → Mono (after s t) (after s (t + k)) := by
  intro k
  induction k with
  | zero => intro _; exact Mono.refl _
  | succ k ih =>
    intro hk
    have h1 := ih (by omega)
    have h2 := (processBucket_spec hd (b := t + k) (by omega) hS
      (after_inv hd hS h (t + k) (by omega))).2.1
    rw [show t + (k + 1) = (t + k) + 1 by omega, after_succ]
    exact h1.trans h2

/-! ## Seeding -/

theorem seed_none (pts : List Idx) : pts.foldl seed none = none := by
  induction pts with
  | nil => rfl
  | cons a l ih => simpa [seed] using ih

/-- Invariant while the sources are being marked: `S` are the sources marked so far. -/
theorem seed_spec (pts : List Idx) : ∀ (S : List Idx) (s : St),
    (∀ p ∈ S, d.inB p = true) → Inv d S 0 s →
    (∀ b, b ≠ 0 → s.bucket b = []) →
    (∀ v, d.inB v = true → (s.field.get v).dist ≠ none → v ∈ S) →
    ((∃ p ∈ pts, d.inB p = false) → pts.foldl seed (some s) = none) ∧
    ((∀ p ∈ pts, d.inB p = true) → ∃ s', pts.foldl seed (some s) = some s' ∧
      Inv d (S ++ pts) 0 s' ∧ (∀ p ∈ pts, ValLE s' p 0) ∧ (∀ b, b ≠ 0 → s'.bucket b = []) ∧
      (∀ v, d.inB v = true → (s'.field.get v).dist ≠ none → v ∈ S ++ pts)) := by
  induction pts with
  | nil =>
    intro S s hS h hb hn
    refine ⟨by simp, fun _ => ⟨s, rfl, by simpa using h, by simp, hb, by simpa using hn⟩⟩
  | cons a l ih =>
    intro S s hS h hb hn
    by_cases ha : d.inB a = true
    · have hseed : seed (some s) a = some { s with
          field := s.field.set a ⟨some 0, dirNum ⟨0, 0, 0⟩, a, a⟩,
          q := s.q.modify 0 (· ++ [⟨some 0, dirNum ⟨0, 0, 0⟩, a, a⟩]) } := by
        simp [seed, h.dims, ha]
      have ha' : s.field.dims.inB a = true := by rw [h.dims]; exact ha
      have hlt : 0 < s.q.length := by rw [h.qlen]; omega
      have hget : ∀ v, (s.field.set a ⟨some 0, dirNum ⟨0, 0, 0⟩, a, a⟩).get v
          = if a = v then ⟨some 0, dirNum ⟨0, 0, 0⟩, a, a⟩ else s.field.get v := by
        intro v; rw [Grid.get_set h.wf]; simp [ha']
      have h0mem : (⟨0, 0, 0⟩ : Idx) ∈ dirs27 := by decide
      have hinv : Inv d (S ++ [a]) 0 { s with
          field := s.field.set a ⟨some 0, dirNum ⟨0, 0, 0⟩, a, a⟩,
          q := s.q.modify 0 (· ++ [⟨some 0, dirNum ⟨0, 0, 0⟩, a, a⟩]) } := by
        refine ⟨h.wf.set _ _, by simp [h.dims], by simp [h.qlen], h.noub, ?_, ?_, ?_, ?_, ?_⟩
        · intro v n hv hvn
          simp only [hget] at hvn ⊢
          split at hvn
          · rename_i hav
            subst hav
            simp only [Option.some.injEq] at hvn
            simp only [if_true]
            refine ⟨trivial, by simp, ?_⟩
            rw [dsq_eq_zero.mpr rfl, ← hvn]
          · rename_i hav
            simp only [hav, if_false]
            obtain ⟨x, y, z⟩ := h.sound v n hv hvn
            exact ⟨x, List.mem_append_left _ y, z⟩
        · intro p hp
          simp only [hget]
          split
          · rfl
          · rename_i hap
            rcases List.mem_append.mp hp with hp | hp
            · exact h.src p hp
            · simp only [List.mem_singleton] at hp; exact absurd hp.symm hap
        · intro b e he
          simp only [St.bucket, bucket_modify _ _ _ _ hlt] at he
          have hold : e ∈ s.q.getD b [] → EntryOK d (S ++ [a]) b e := by
            intro he
            obtain ⟨x, y, z⟩ := h.entry b e he
            exact ⟨x, List.mem_append_left _ y, z⟩
          split at he
          · rename_i hb0
            rcases List.mem_append.mp he with he | he
            · exact hold he
            · simp only [List.mem_singleton] at he
              subst he
              exact ⟨ha, by simp, by rw [hb0]; exact dsq_eq_zero.mpr rfl, _, h0mem, rfl⟩
          · exact hold he
        · intro b e _ he
          simp only [St.bucket, bucket_modify _ _ _ _ hlt] at he
          split at he
          · rcases List.mem_append.mp he with he | he
            · exact h.fwd b e (Nat.zero_le _) he
            · simp only [List.mem_singleton] at he
              subst he
              exact ⟨_, h0mem, rfl, by unfold Away; simp⟩
          · exact h.fwd b e (Nat.zero_le _) he
        · intro v n hv hvn hle
          simp only [hget] at hvn ⊢
          simp only [St.bucket, bucket_modify _ _ _ _ hlt]
          split at hvn
          · rename_i hav
            simp only [Option.some.injEq] at hvn
            simp [hav, ← hvn]
          · rename_i hav
            simp only [hav, if_false]
            have := h.pend v n hv hvn hle
            split
            · exact List.mem_append_left _ this
            · exact this
      have hih := ih (S ++ [a]) _ (by
          intro p hp
          rcases List.mem_append.mp hp with hp | hp
          · exact hS p hp
          · simp only [List.mem_singleton] at hp; subst hp; exact ha) hinv (by
          intro b hb0
          simp only [St.bucket, bucket_modify _ _ _ _ hlt, hb0, if_false]
          exact hb b hb0) (by
          intro v hv hvn
          simp only [hget] at hvn
          split at hvn
          · rename_i hav; simp [hav]
          · exact List.mem_append_left _ (hn v hv hvn))
      simp only [List.foldl_cons, hseed]
      constructor
      · rintro ⟨p, hp, hpb⟩
        apply hih.1
        rcases List.mem_cons.mp hp with rfl | hp
        · rw [ha] at hpb; exact absurd hpb (by simp)
        · exact ⟨p, hp, hpb⟩
      · intro hall
        obtain ⟨s', e1, e2, e3, e4, e5⟩ := hih.2 (fun p hp => hall p (List.mem_cons_of_mem _ hp))
        have eS : S ++ [a] ++ l = S ++ a :: l := by simp
        rw [eS] at e2 e5
        refine ⟨s', e1, e2, ?_, e4, e5⟩
        intro p hp
        exact ⟨0, e2.src p (List.mem_append_right _ hp), Nat.le_refl _⟩
    · have hseed : seed (some s) a = none := by simp [seed, h.dims, ha]
      simp only [List.foldl_cons, hseed, seed_none]
      exact ⟨fun _ => trivial, fun hall => absurd (hall a (List.mem_cons_self ..)) ha⟩

theorem start_inv (d : Dims) : Inv d [] 0 (start d) := by
  have hget : ∀ v, ((start d).field.get v).dist = none := by
    intro v
    simp only [start, Grid.get_mk', ite_self]
    rfl
  have hbk : ∀ b, (start d).bucket b = [] := by
    intro b
    simp only [start, St.bucket, List.getD_eq_getElem?_getD, List.getElem?_replicate]
    split <;> rfl
  refine ⟨Grid.wf_mk' _ _ _, rfl, by simp [start], rfl, ?_, by simp, ?_, ?_, ?_⟩
  · intro v n _ hn; rw [hget] at hn; simp at hn
  · intro b e he; rw [hbk] at he; simp at he
  · intro b e _ he; rw [hbk] at he; simp at he
  · intro v n _ hn; rw [hget] at hn; simp at hn

/-- Everything the property theorems need to know about a finished construction. -/
theorem build_spec (d : Dims) (pts : List Idx) :
    ((∃ p ∈ pts, d.inB p = false) → build d pts = none) ∧
    ((∀ p ∈ pts, d.inB p = true) → ∃ s0,
      build d pts = some (after s0 (maxSq d + 1)) ∧ Inv d pts 0 s0 ∧
      (∀ b, b ≠ 0 → s0.bucket b = []) ∧
      (∀ v, d.inB v = true → (s0.field.get v).dist ≠ none → v ∈ pts)) := by
  obtain ⟨h1, h2⟩ := seed_spec (d := d) pts [] (start d) (by simp) (start_inv d)
    (by
      intro b _
      simp only [start, St.bucket, List.getD_eq_getElem?_getD, List.getElem?_replicate]
      split <;> rfl)
    (by
      intro v _ hv
      simp only [start, Grid.get_mk', ite_self] at hv
      exact absurd rfl hv)
  constructor
  · intro h; simp [build, h1 h]
  · intro h
    obtain ⟨s', e1, e2, _, e4, e5⟩ := h2 h
    refine ⟨s', by simp [build, e1], by simpa using e2, e4, by simpa using e5⟩

end DField

end Verif
