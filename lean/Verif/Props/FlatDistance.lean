import Verif.Props.DistancePlanar
import Verif.Props.SdfGen

/-!
# Distances on flat grids (C85; additional parts of C10 and C11)

`Flat d`: the grid is one cell thick along some axis (two-dimensional maps).  `manhattan u v` counts face
steps between cells.  The proofs are in `Verif/Props/DistancePlanar.lean`.
-/

namespace Verif

open Spec DField SdfGen

/-- C85, distance field.  On a flat grid with at least one source every cell gets a finite distance,
which lies between the Euclidean and the Manhattan distance to the nearest source. -/
theorem C85_between {d : Dims} (hd : SmallGrid d) (hflat : Flat d) {pts : List Idx} (hne : pts ≠ [])
    {s : St} (h : build d pts = some s) {v : Idx} (hv : InBounds d v) :
    ∃ n : Nat, reported s v = some n ∧
      (∀ m, IsMinSq pts v m → m ≤ n) ∧ ∀ p ∈ pts, (n : Int) ≤ manhattan v p ^ 2 := by
  have hb := inB_iff_spec.mpr hv
  have hnn : ∀ p : Idx, 0 ≤ manhattan v p := by
    intro p; unfold manhattan; positivity
  obtain ⟨p0, hp0⟩ := List.exists_mem_of_ne_nil _ hne
  obtain ⟨n, hn, _⟩ := flat_manhattan hd hflat h hp0 (manhattan v p0).toNat v hb
    (by have := hnn p0; omega)
  refine ⟨n, hn, (C08_sound hd h hv hn).2.2, ?_⟩
  intro p hp
  obtain ⟨k, hk, hle⟩ := flat_manhattan hd hflat h hp (manhattan v p).toNat v hb
    (by have := hnn p; omega)
  rw [hn] at hk
  simp only [Option.some.injEq] at hk
  subst hk
  zify at hle
  rwa [Int.toNat_of_nonneg (hnn p)] at hle

theorem manhattan_sq_le {d : Dims} (hflat : Flat d) {v p : Idx} (hv : InBounds d v)
    (hp : InBounds d p) : manhattan v p ^ 2 ≤ 2 * sqDist v p := by
  have key : ∀ a b : Int, (|a| + |b|) ^ 2 ≤ 2 * (a ^ 2 + b ^ 2) := by
    intro a b
    nlinarith [sq_nonneg (|a| - |b|), sq_abs a, sq_abs b]
  unfold InBounds at hv hp
  unfold manhattan sqDist
  rcases hflat with h | h | h <;> rw [h] at hv hp
  · rw [show v.x = p.x by omega]
    have := key (v.y - p.y) (v.z - p.z)
    simpa using this
  · rw [show v.y = p.y by omega]
    have := key (v.x - p.x) (v.z - p.z)
    simpa using this
  · rw [show v.z = p.z by omega]
    have := key (v.x - p.x) (v.y - p.y)
    simpa using this

/-- C10 on flat grids: the reported squared distance is at most twice the true one (the distance at most
`sqrt 2` times).  Missing: exactness, which fails already on flat grids (`C10_false`), and the general
three-dimensional grid. -/
theorem C10_flat_factor_partial {d : Dims} (hd : SmallGrid d) (hflat : Flat d) {pts : List Idx}
    {s : St} (h : build d pts = some s) {v : Idx} (hv : InBounds d v) {m : Int}
    (hm : IsMinSq pts v m) : ∃ n : Nat, reported s v = some n ∧ m ≤ n ∧ (n : Int) ≤ 2 * m := by
  obtain ⟨⟨p, hp, he⟩, hmin⟩ := hm
  obtain ⟨n, h1, h2, h3⟩ := C85_between hd hflat (List.ne_nil_of_mem hp) h hv
  refine ⟨n, h1, h2 m ⟨⟨p, hp, he⟩, hmin⟩, ?_⟩
  have hpb : InBounds d p := inB_iff_spec.mp ((build_some hd h).1 p hp)
  rw [← he]
  exact (h3 p hp).trans (manhattan_sq_le hflat hv hpb)

/-- C11 on flat grids: adding sources can at most double a reported squared distance.  Missing: no
increase at all, which fails (`C11_false`). -/
theorem C11_flat_factor_partial {d : Dims} (hd : SmallGrid d) (hflat : Flat d) {A B : List Idx}
    (hAB : ∀ p ∈ A, p ∈ B) {a b : St} (ha : build d A = some a) (hb : build d B = some b) {v : Idx}
    (hv : InBounds d v) {n : Nat} (hn : reported a v = some n) :
    ∃ m, reported b v = some m ∧ m ≤ 2 * n := by
  obtain ⟨hcp, hsq, _⟩ := C08_sound hd ha hv hn
  have hmem := hAB _ hcp
  obtain ⟨m, h1, _, h3⟩ := C85_between hd hflat (List.ne_nil_of_mem hmem) hb hv
  have hpb : InBounds d (closest a v) := inB_iff_spec.mp ((build_some hd hb).1 _ hmem)
  have := (h3 _ hmem).trans (manhattan_sq_le hflat hv hpb)
  exact ⟨m, h1, by omega⟩

theorem sqrt_face {d : Dims} (hd : SmallGrid d) (hflat : Flat d) {pts : List Idx} {s : St}
    (h : build d pts = some s) {u v : Idx} (hu : InBounds d u) (hv : InBounds d v)
    (hadj : FaceAdj u v) {n m : Nat} (hn : reported s u = some n) (hm : reported s v = some m) :
    Real.sqrt m ≤ Real.sqrt n + 1 := by
  obtain ⟨k, hk, hle⟩ := flat_local hd hflat h (inB_iff_spec.mpr hu) (inB_iff_spec.mpr hv) hadj hn
  rw [hm] at hk
  simp only [Option.some.injEq] at hk
  subst hk
  obtain ⟨_, hn2, _⟩ := C08_sound hd h hu hn
  obtain ⟨δ, _, hf, rfl⟩ := face_move hadj
  have hadd := dsq_add u δ (closest s u)
  have hcast := dsq_cast u (closest s u)
  rw [← dsq_sqDist] at hn2
  -- the component along the move is at most the distance
  obtain ⟨a, ha, hm'⟩ : ∃ a : Int, a ^ 2 ≤ n ∧ (dsq (u + δ) (closest s u) : Int) ≤ n + 2 * a + 1 := by
    rcases face_cases hf with rfl | rfl | rfl | rfl | rfl | rfl
    · exact ⟨u.x - (closest s u).x, by rw [hn2, hcast]; nlinarith, by rw [hadd, hn2]; norm_num⟩
    · exact ⟨-(u.x - (closest s u).x), by rw [hn2, hcast]; nlinarith, by rw [hadd, hn2]; norm_num⟩
    · exact ⟨u.y - (closest s u).y, by rw [hn2, hcast]; nlinarith, by rw [hadd, hn2]; norm_num⟩
    · exact ⟨-(u.y - (closest s u).y), by rw [hn2, hcast]; nlinarith, by rw [hadd, hn2]; norm_num⟩
    · exact ⟨u.z - (closest s u).z, by rw [hn2, hcast]; nlinarith, by rw [hadd, hn2]; norm_num⟩
    · exact ⟨-(u.z - (closest s u).z), by rw [hn2, hcast]; nlinarith, by rw [hadd, hn2]; norm_num⟩
  have haR : (a : ℝ) ≤ Real.sqrt n := by
    apply Real.le_sqrt_of_sq_le
    exact_mod_cast ha
  have hmR : (m : ℝ) ≤ n + 2 * a + 1 := by
    have : (m : Int) ≤ n + 2 * a + 1 := by omega
    exact_mod_cast this
  rw [Real.sqrt_le_iff]
  have hs := Real.sqrt_nonneg (n : ℝ)
  have hsq := Real.sq_sqrt (Nat.cast_nonneg (α := ℝ) n)
  exact ⟨by positivity, by nlinarith⟩

/-- C85, neighbours.  On a flat grid the reported distances of two cells that share a face differ by at
most one cell size. -/
theorem C85_neighbours {d : Dims} (hd : SmallGrid d) (hflat : Flat d) {pts : List Idx} {s : St}
    (h : build d pts = some s) {u v : Idx} (hu : InBounds d u) (hv : InBounds d v)
    (hadj : FaceAdj u v) {n m : Nat} (hn : reported s u = some n) (hm : reported s v = some m) :
    |Real.sqrt n - Real.sqrt m| ≤ 1 := by
  have h1 := sqrt_face hd hflat h hu hv hadj hn hm
  have h2 := sqrt_face hd hflat h hv hu
    (by unfold FaceAdj at *; rw [abs_sub_comm, abs_sub_comm v.y, abs_sub_comm v.z]; exact hadj) hm hn
  rw [abs_le]
  constructor <;> linarith

/-- The examples of this file: a flat grid, three sources, and a cell whose reported squared distance (9)
is above the minimum (8) but within all the bounds. -/
example : Flat dfDims ∧ SmallGrid dfDims ∧ dfPts ≠ [] ∧ InBounds dfDims ⟨3, 0, 3⟩ ∧
    InBounds dfDims ⟨3, 0, 4⟩ ∧ FaceAdj ⟨3, 0, 3⟩ ⟨3, 0, 4⟩ ∧ IsMinSq dfPts ⟨3, 0, 3⟩ 8 ∧
    (build dfDims dfPts).map (fun s => (reported s ⟨3, 0, 3⟩, reported s ⟨3, 0, 4⟩)) =
      some (some 9, some 13) := by
  refine ⟨Or.inr (Or.inl rfl), by unfold SmallGrid dfDims; decide, by decide,
    by simp [InBounds, dfDims], by simp [InBounds, dfDims], by simp [FaceAdj], ⟨?_, ?_⟩,
    by decide +kernel⟩
  · exact ⟨⟨1, 0, 1⟩, by simp [dfPts], by norm_num [sqDist]⟩
  · simp [dfPts, sqDist]

/-- The sources of one of the two distance fields: the cells of the class opposite to `v`. -/
theorem opposite_reported {d : Dims} (hd : SmallGrid d) (hflat : Flat d) {f : Idx → Bool} {v q : Idx}
    (hv : InBounds d v) (hq : InBounds d q) (hop : f q ≠ f v) {g : Idx → Bool}
    (hg : ∀ i, g i = true ↔ f i ≠ f v) {s : St} (h : build d (d.all.filter g) = some s) :
    ∃ n : Nat, reported s v = some n ∧ (∃ p, InBounds d p ∧ f p ≠ f v ∧ (n : Int) = sqDist v p) ∧
      ∀ p, InBounds d p → f p ≠ f v → (n : Int) ≤ manhattan v p ^ 2 := by
  have mem : ∀ p, p ∈ d.all.filter g ↔ InBounds d p ∧ f p ≠ f v := by
    intro p
    rw [List.mem_filter, Dims.mem_all, inB_iff_spec, hg]
  obtain ⟨n, h1, _, h3⟩ := C85_between hd hflat (List.ne_nil_of_mem ((mem q).mpr ⟨hq, hop⟩)) h hv
  obtain ⟨k1, k2, _⟩ := C08_sound hd h hv h1
  exact ⟨n, h1, ⟨closest s v, ((mem _).mp k1).1, ((mem _).mp k1).2, k2⟩,
    fun p hp hpf => h3 p ((mem p).mpr ⟨hp, hpf⟩)⟩

/-- C85, signed distance field.  On a flat grid that has a cell of the opposite class, the stored value of
a cell is plus or minus the rounded distance to some cell of the opposite class, and the squared distance
(in cells) is at most the squared Manhattan distance to every cell of the opposite class. -/
theorem C85_signed {R : Rounding} {res : ℝ} {d : Dims} (hd : SmallGrid d) (hflat : Flat d)
    {fill : Idx → Option Bool} {f : Idx → Bool} (hf : Answers d fill f) {oob : FVal} {o : Out}
    (ho : extract R (res, res, res) d fill oob false = some o) {v q : Idx} (hv : InBounds d v)
    (hq : InBounds d q) (hop : f q ≠ f v) :
    ∃ n : Nat, (∃ p, InBounds d p ∧ f p ≠ f v ∧ (n : Int) = sqDist v p) ∧
      (∀ p, InBounds d p → f p ≠ f v → (n : Int) ≤ manhattan v p ^ 2) ∧
      o.sdf.get v = some (if f v then
          -R.r32 (R.r64 (R.r64 ((Real.sqrt n : ℝ) : EReal) * res))
        else R.r32 (R.r64 (R.r64 ((Real.sqrt n : ℝ) : EReal) * res))) := by
  obtain ⟨o', a, b, ho', hs⟩ := base_spec hd hf R res oob
  rw [extract_false, ho'] at ho
  simp only [Option.some.injEq] at ho
  subst ho
  have hsc : ∀ n : Nat, scaled R res (some n) = R.r64 (R.r64 ((Real.sqrt n : ℝ) : EReal) * res) := by
    intro n; simp [scaled, sqrtE]
  cases hfv : f v with
  | true =>
    obtain ⟨n, h1, h2, h3⟩ := opposite_reported hd hflat hv hq hop (g := fun i => !f i)
      (by intro i; rw [hfv]; simp) hs.hb
    rw [hfv] at h2 h3
    refine ⟨n, h2, h3, ?_⟩
    rw [hs.val v hv, exactVal, hfv, h1, if_pos rfl, hsc, R.odd32, if_pos rfl]
  | false =>
    obtain ⟨n, h1, h2, h3⟩ := opposite_reported hd hflat hv hq hop (g := f)
      (by intro i; rw [hfv]; simp) hs.ha
    rw [hfv] at h2 h3
    refine ⟨n, h2, h3, ?_⟩
    rw [hs.val v hv, exactVal, hfv, h1, hsc]
    simp

/-- C85, signed distance field, neighbours (exact arithmetic).  On a flat grid with cells of both classes,
the stored values of two cells that share a face differ by at most one cell size if the cells are of the
same class, and are exactly plus and minus one cell size otherwise. -/
theorem C85_signed_neighbours {res : ℝ} (hres : 0 < res) {d : Dims} (hd : SmallGrid d)
    (hflat : Flat d) {fill : Idx → Option Bool} {f : Idx → Bool} (hf : Answers d fill f) {oob : FVal}
    {o : Out} (ho : extract exactRounding (res, res, res) d fill oob false = some o) {u v q : Idx}
    (hu : InBounds d u) (hv : InBounds d v) (hadj : FaceAdj u v) (hq : InBounds d q)
    (hop : f q ≠ f u) :
    ∃ x y : ℝ, o.sdf.get u = some (x : EReal) ∧ o.sdf.get v = some (y : EReal) ∧
      (f u = f v → |x - y| ≤ res) ∧ (f u = false → f v = true → x = res ∧ y = -res) ∧
      (f u = true → f v = false → x = -res ∧ y = res) := by
  obtain ⟨o', a, b, ho', hs⟩ := base_spec hd hf exactRounding res oob
  rw [extract_false, ho'] at ho
  simp only [Option.some.injEq] at ho
  subst ho
  have hsc : ∀ n : Nat, scaled exactRounding res (some n) = ((Real.sqrt n * res : ℝ) : EReal) := by
    intro n
    simp [scaled, sqrtE, exactRounding]
  have hval : ∀ {w : Idx} {n : Nat}, InBounds d w → f w = false → reported a w = some n →
      o'.sdf.get w = some ((Real.sqrt n * res : ℝ) : EReal) := by
    intro w n hw hfw h1
    rw [hs.val w hw, exactVal, hfw, h1, hsc]; rfl
  have hval' : ∀ {w : Idx} {n : Nat}, InBounds d w → f w = true → reported b w = some n →
      o'.sdf.get w = some ((-(Real.sqrt n * res) : ℝ) : EReal) := by
    intro w n hw hfw h1
    rw [hs.val w hw, exactVal, hfw, h1, if_pos rfl, hsc]; rfl
  have hone : sqDist u v = 1 := by
    obtain ⟨δ, _, hface, rfl⟩ := face_move hadj
    rcases face_cases hface with rfl | rfl | rfl | rfl | rfl | rfl <;> simp [sqDist]
  have hone' : sqDist v u = 1 := by rw [← hone]; unfold sqDist; ring
  have memA : ∀ p, p ∈ d.all.filter f ↔ InBounds d p ∧ f p = true := by
    intro p; rw [List.mem_filter, Dims.mem_all, inB_iff_spec]
  have memB : ∀ p, p ∈ d.all.filter (fun i => !f i) ↔ InBounds d p ∧ f p = false := by
    intro p; rw [List.mem_filter, Dims.mem_all, inB_iff_spec]; simp
  have close : ∀ {n m : Nat}, |Real.sqrt n - Real.sqrt m| ≤ 1 →
      |Real.sqrt n * res - Real.sqrt m * res| ≤ res := by
    intro n m h
    rw [← sub_mul, abs_mul, abs_of_pos hres]
    nlinarith
  cases hfu : f u <;> cases hfv : f v
  · have g : ∀ i, f i = true ↔ f i ≠ f u := by intro i; rw [hfu]; simp
    have g' : ∀ i, f i = true ↔ f i ≠ f v := by intro i; rw [hfv]; simp
    obtain ⟨n, h1, _⟩ := opposite_reported hd hflat hu hq hop g hs.ha
    obtain ⟨m, h2, _⟩ := opposite_reported hd hflat hv hq (by rw [hfv, ← hfu]; exact hop) g' hs.ha
    refine ⟨_, _, hval hu hfu h1, hval hv hfv h2, fun _ => ?_, by simp, by simp⟩
    exact close (C85_neighbours hd hflat hs.ha hu hv hadj h1 h2)
  · have h1 := reported_one hd hs.ha hu ((memA v).mpr ⟨hv, hfv⟩)
      (fun h => by simp [hfu] at h) hone
    have h2 := reported_one hd hs.hb hv ((memB u).mpr ⟨hu, hfu⟩)
      (fun h => by simp [hfv] at h) hone'
    exact ⟨_, _, hval hu hfu h1, hval' hv hfv h2, by simp, by simp, by simp⟩
  · have h1 := reported_one hd hs.hb hu ((memB v).mpr ⟨hv, hfv⟩)
      (fun h => by simp [hfu] at h) hone
    have h2 := reported_one hd hs.ha hv ((memA u).mpr ⟨hu, hfu⟩)
      (fun h => by simp [hfv] at h) hone'
    exact ⟨_, _, hval' hu hfu h1, hval hv hfv h2, by simp, by simp, by simp⟩
  · have g : ∀ i, (!f i) = true ↔ f i ≠ f u := by intro i; rw [hfu]; simp
    have g' : ∀ i, (!f i) = true ↔ f i ≠ f v := by intro i; rw [hfv]; simp
    obtain ⟨n, h1, _⟩ := opposite_reported hd hflat hu hq hop g hs.hb
    obtain ⟨m, h2, _⟩ := opposite_reported hd hflat hv hq (by rw [hfv, ← hfu]; exact hop) g' hs.hb
    refine ⟨_, _, hval' hu hfu h1, hval' hv hfv h2, fun _ => ?_, by simp, by simp⟩
    have := close (C85_neighbours hd hflat hs.hb hu hv hadj h1 h2)
    rwa [neg_sub_neg, abs_sub_comm]

/-- The hypotheses are met by a 3x1x2 grid with one filled cell. -/
example : Flat ⟨3, 1, 2⟩ ∧ SmallGrid ⟨3, 1, 2⟩ ∧
    Answers ⟨3, 1, 2⟩ (fun i => some (decide (i = ⟨0, 0, 0⟩))) (fun i => decide (i = ⟨0, 0, 0⟩)) ∧
    FaceAdj ⟨1, 0, 1⟩ ⟨2, 0, 1⟩ ∧ InBounds ⟨3, 1, 2⟩ ⟨2, 0, 1⟩ ∧
    (extract exactRounding (1, 1, 1) ⟨3, 1, 2⟩ (fun i => some (decide (i = ⟨0, 0, 0⟩))) none
      false).isSome = true := by
  have ha : Answers ⟨3, 1, 2⟩ (fun i => some (decide (i = ⟨0, 0, 0⟩)))
      (fun i => decide (i = ⟨0, 0, 0⟩)) := fun i _ => rfl
  have hs : SmallGrid ⟨3, 1, 2⟩ := by unfold SmallGrid; decide
  refine ⟨Or.inr (Or.inl rfl), hs, ha, by simp [FaceAdj], by simp [InBounds], ?_⟩
  obtain ⟨o, a, b, h, _⟩ := base_spec hs ha exactRounding 1 none
  rw [extract_false, h]; rfl

end Verif
