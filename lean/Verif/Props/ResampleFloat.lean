import Verif.ResampleFloat
import Verif.Spec.Resample
import Verif.Props.WorldMarks
import Verif.Props.CMapExports
import Verif.Props.TaggedExports

/-!
# C131: resampling in floating point
-/

namespace Verif

open Spec

namespace FSdf

/-- The computed world location of a cell centre is looked up in a cell of the new grid that contains the centre, up to a
thousandth of a cell. -/
theorem resample_cell {res res' : ℝ} (hlo : 1 / 2 ^ 100 ≤ res) (hhi : res ≤ 2 ^ 60) (hlo' : 1 / 2 ^ 100 ≤ res')
    (hhi' : res' ≤ 2 ^ 60) {A B : Aff ℝ} (hA : NearRotation A) (hB : isoInverse ieee A = (B.rx, B.ry, B.rz, loc B.t))
    {N : ℕ} (hN : N ≤ 2 ^ 20) {M : ℝ} (h1 : 1 ≤ M) (hM : M ≤ 2 ^ 29) (hNM : N * res ≤ M * res')
    (hT : OriginWithin A (M * res')) {i : Idx} (hi : (0 ≤ i.x ∧ i.x < N) ∧ (0 ≤ i.y ∧ i.y < N) ∧ 0 ≤ i.z ∧ i.z < N) :
    NearCube res' (cellAt ieee res' B (centreAt ieee res A i)) (cellCentre res i) := by
  have r0 : 0 < res := lt_of_lt_of_le (by norm_num) hlo
  have r0' : 0 < res' := lt_of_lt_of_le (by norm_num) hlo'
  have hhi2 : res' ≤ 2 ^ 100 := hhi'.trans (by norm_num)
  have hNr : (N : ℝ) ≤ 2 ^ 20 := by exact_mod_cast hN
  have ax : ∀ {j : Int}, (0 ≤ j ∧ j < N) → ∃ c : ℝ, Fl.mul ieee (real res) (real ((j : ℝ) + 1 / 2)) = real c ∧
      |c - ((j : ℝ) + 1 / 2) * res| ≤ M * res' / 2 ^ 50 ∧ |((j : ℝ) + 1 / 2) * res| ≤ M * res' ∧ |c| ≤ M * res' := by
    intro j hj
    have j0 : (0 : ℝ) ≤ j := by exact_mod_cast hj.1
    have j1 : (j : ℝ) + 1 ≤ N := by exact_mod_cast hj.2
    have p0 : 0 ≤ res * ((j : ℝ) + 1 / 2) := by positivity
    have p1 : res * ((j : ℝ) + 1 / 2) ≤ N * res - res / 2 := by nlinarith
    have p2 : N * res ≤ 2 ^ 20 * res := by gcongr
    have p3 : res ≤ N * res := by nlinarith
    obtain ⟨c, ec, hc⟩ := round_200 (z := res * ((j : ℝ) + 1 / 2)) (by rw [abs_of_nonneg p0]; linarith)
    rw [abs_of_nonneg p0] at hc
    refine ⟨c, by rw [mul_real, ec], ?_, ?_, ?_⟩
    · rw [mul_comm ((j : ℝ) + 1 / 2)]
      linarith
    · rw [mul_comm ((j : ℝ) + 1 / 2), abs_of_nonneg p0]
      linarith
    · have := abs_add_le (c - res * ((j : ℝ) + 1 / 2)) (res * ((j : ℝ) + 1 / 2))
      rw [sub_add_cancel, abs_of_nonneg p0] at this
      linarith
  obtain ⟨x, ex, ax1, ax2, ax3⟩ := ax hi.1
  obtain ⟨y, ey, ay1, ay2, ay3⟩ := ax hi.2.1
  obtain ⟨z, ez, az1, az2, az3⟩ := ax hi.2.2
  have hT' : OriginWithin A (2 ^ 190) := by
    have : M * res' ≤ 2 ^ 190 := by
      calc M * res' ≤ 2 ^ 29 * 2 ^ 60 := by gcongr
        _ ≤ 2 ^ 190 := by norm_num
    exact ⟨hT.1.trans this, hT.2.1.trans this, hT.2.2.trans this⟩
  obtain ⟨B', eB, hAB⟩ := C112_inverse hA hT'
  obtain rfl : B' = B := by
    rw [eB] at hB
    obtain ⟨x, y, z, t⟩ := B
    obtain ⟨x', y', z', t'⟩ := B'
    simp only [Prod.mk.injEq] at hB
    obtain ⟨rfl, rfl, rfl, e⟩ := hB
    rw [loc_inj e]
  obtain ⟨p, c, ep, ec, -, w1, w2, w3⟩ := C112_trip hAB hlo' hhi2 h1 (hM.trans (by norm_num)) hT (C112_product B')
    (C112_product A) (c := ⟨x, y, z⟩) ⟨ax3, ay3, az3⟩
  have lk := C112_lookup hlo' hhi2
  have Mr : 0 ≤ M * res' := by positivity
  have big : M * res' ≤ 2 ^ 30 * res' := by
    have : M ≤ 2 ^ 30 := hM.trans (by norm_num)
    gcongr
  have err : ∀ {a b t : ℝ}, |a - b| ≤ M * res' / 2 ^ 42 → |b - t| ≤ M * res' / 2 ^ 50 → |a - t| ≤ res' / 2 ^ 12 := by
    intro a b t h2 h3
    have h4 := abs_sub_le a b t
    have : M * res' ≤ 2 ^ 29 * res' := by gcongr
    linarith
  have e : centreAt ieee res A i = loc p := by
    unfold centreAt
    rw [ex, ey, ez]
    exact ep
  unfold cellAt
  rw [e, ec]
  exact ⟨lookup_cube r0' lk (ax2.trans big) (err w1 ax1), lookup_cube r0' lk (ay2.trans big) (err w2 ay1),
    lookup_cube r0' lk (az2.trans big) (err w3 az1)⟩

/-- A cube that contains a location up to a thousandth of a cell is the one that it is well inside of. -/
theorem near_deep {res : ℝ} (hr : 0 < res) {i j : Idx} {q : V3 ℝ} (hi : NearCube res i q) (hj : DeepInCube res j q) :
    i = j := by
  have ax : ∀ {k l : ℤ} {x : ℝ}, (k : ℝ) * res - res / 1000 < x ∧ x < (k + 1) * res + res / 1000 →
      (l : ℝ) * res + res / 1000 ≤ x ∧ x ≤ (l + 1) * res - res / 1000 → k = l := by
    rintro k l x ⟨a, b⟩ ⟨c, d⟩
    have h1 : (k : ℝ) < l + 1 := lt_of_mul_lt_mul_right (by linarith) hr.le
    have h2 : (l : ℝ) < k + 1 := lt_of_mul_lt_mul_right (by linarith) hr.le
    have h1' : k < l + 1 := by exact_mod_cast h1
    have h2' : l < k + 1 := by exact_mod_cast h2
    omega
  obtain ⟨x, y, z⟩ := i
  obtain ⟨x', y', z'⟩ := j
  have a := ax hi.1 hj.1
  have b := ax hi.2.1 hj.2.1
  have c := ax hi.2.2 hj.2.2
  simp only at a b c
  rw [a, b, c]

/-- A cell is deep inside its own cube. -/
theorem centre_deep {res : ℝ} (hr : 0 < res) (i : Idx) : DeepInCube res i (cellCentre res i) := by
  unfold DeepInCube cellCentre
  dsimp only
  refine ⟨⟨?_, ?_⟩, ⟨?_, ?_⟩, ?_, ?_⟩ <;> nlinarith

/-- Two centres of cells that are larger than a cube are not both near it. -/
theorem near_distinct {res res' : ℝ} (hr' : 0 < res') (h : 501 / 500 * res' ≤ res) {c i j : Idx}
    (hi : NearCube res' c (cellCentre res i)) (hj : NearCube res' c (cellCentre res j)) : i = j := by
  have ax : ∀ {k l n : ℤ}, (n : ℝ) * res' - res' / 1000 < ((k : ℝ) + 1 / 2) * res ∧
      ((k : ℝ) + 1 / 2) * res < (n + 1) * res' + res' / 1000 →
      (n : ℝ) * res' - res' / 1000 < ((l : ℝ) + 1 / 2) * res ∧ ((l : ℝ) + 1 / 2) * res < (n + 1) * res' + res' / 1000 →
      k = l := by
    rintro k l n ⟨a, b⟩ ⟨c, d⟩
    have r0 : 0 < res := by linarith
    have key : ∀ {k l : ℤ}, ((k : ℝ) + 1 / 2) * res - ((l : ℝ) + 1 / 2) * res < res → k ≤ l := by
      intro k l h
      have h' : ((k : ℝ) - l) * res < 1 * res := by linarith
      have := lt_of_mul_lt_mul_right h' r0.le
      have : (k : ℝ) < l + 1 := by linarith
      have : k < l + 1 := by exact_mod_cast this
      omega
    have h1 : k ≤ l := key (by linarith)
    have h2 : l ≤ k := key (by linarith)
    omega
  obtain ⟨x, y, z⟩ := i
  obtain ⟨x', y', z'⟩ := j
  have a := ax hi.1 hj.1
  have b := ax hi.2.1 hj.2.1
  have c := ax hi.2.2 hj.2.2
  simp only at a b c
  rw [a, b, c]

/-- From the order of the writes to the contents. -/
theorem resampled_of {α : Type} {d d' : Dims} {res res' : ℝ} (hr' : 0 < res') {old : Idx → α} {dflt : α}
    {new : Idx → α × Bool} {g : Idx → Idx} (hg : ∀ i, InBounds d i → NearCube res' (g i) (cellCentre res i))
    (hlast : ∀ pre i suf, d.all = pre ++ i :: suf → (∀ j ∈ suf, g j ≠ g i) → InBounds d' (g i) → new (g i) = (old i, true))
    (hno : ∀ c, InBounds d' c → (∀ j ∈ d.all, g j ≠ c) → new c = (dflt, true))
    (hout : ∀ c, ¬ InBounds d' c → new c = (dflt, false)) : Resampled d d' res res' old dflt new := by
  have mem : ∀ {j}, j ∈ d.all → InBounds d j := fun h => inB_iff_spec.mp (Dims.mem_all.mp h)
  refine ⟨fun c hc => ?_, hout, fun i hi hin => ?_⟩
  · rcases last_preimage d g c with h | ⟨i, hi, rfl, -, pre, suf, e, hs⟩
    · exact Or.inr ⟨fun i hi hd => h i hi (near_deep hr' (hg i hi) hd), hno c hc fun j hj => h j (mem hj)⟩
    · exact Or.inl ⟨i, hi, hg i hi, hlast pre i suf e hs hc⟩
  · have hc := near_inside hr' (hg i hi) hin
    rcases last_preimage d g (g i) with h | ⟨j, hj, e, -, pre, suf, es, hs⟩
    · exact absurd rfl (h i hi)
    · refine ⟨g i, j, hc, hj, hg i hi, e ▸ hg j hj, ?_⟩
      rw [← e]
      exact hlast pre j suf es hs (e ▸ hc)

theorem Resampled.same {α : Type} {d : Dims} {res : ℝ} (hr : 0 < res) {old : Idx → α} {dflt : α} {new : Idx → α × Bool}
    (h : Resampled d d res res old dflt new) (c : Idx) (hc : InBounds d c) : new c = (old c, true) := by
  rcases h.cells c hc with ⟨i, -, hn, e⟩ | ⟨hno, -⟩
  · rw [e, near_deep hr hn (centre_deep hr i)]
  · exact absurd (centre_deep hr c) (hno c hc)

theorem Resampled.finer {α : Type} {d d' : Dims} {res res' : ℝ} (hr' : 0 < res') (hle : 501 / 500 * res' ≤ res)
    {old : Idx → α} {dflt : α} {new : Idx → α × Bool} (h : Resampled d d' res res' old dflt new) (i : Idx)
    (hi : InBounds d i) (hin : InsideBy d' res' (cellCentre res i)) :
    ∃ c, InBounds d' c ∧ NearCube res' c (cellCentre res i) ∧ new c = (old i, true) := by
  obtain ⟨c, j, hc, hj, h1, h2, e⟩ := h.centres i hi hin
  refine ⟨c, hc, h1, ?_⟩
  rw [e, near_distinct hr' hle h1 h2]

section

variable {res res' : ℝ} (hlo : 1 / 2 ^ 100 ≤ res) (hhi : res ≤ 2 ^ 60) (hlo' : 1 / 2 ^ 100 ≤ res') (hhi' : res' ≤ 2 ^ 60)
  {A B : Aff ℝ} (hA : NearRotation A) (hB : isoInverse ieee A = (B.rx, B.ry, B.rz, loc B.t)) {N : ℕ} (hN : N ≤ 2 ^ 20)
  {M : ℝ} (h1 : 1 ≤ M) (hM : M ≤ 2 ^ 29) (hNM : N * res ≤ M * res') (hT : OriginWithin A (M * res'))

include hlo hhi hlo' hhi' hA hB hN h1 hM hNM hT

/-- C131: the contents of a resampled collision map, for every old and new resolution. -/
theorem C131_cells {m : CMap} (hdim : m.dims.nx ≤ N ∧ m.dims.ny ≤ N ∧ m.dims.nz ≤ N) (d' : Dims) :
    Resampled m.dims d' res res' (fun i => (m.getImm i).1) m.grid.oob (m.resampleF ieee res res' A B d').getImm := by
  have r0' : 0 < res' := lt_of_lt_of_le (by norm_num) hlo'
  obtain ⟨-, k2, k3, k4, k5⟩ := CMap.resample_fold m (fun i => cellAt ieee res' B (centreAt ieee res A i)) m.dims.all
    (CMap.create d' m.grid.oob m.grid.oob) (Grid.wf_mk' _ _ _)
  have hf : m.resampleF ieee res res' A B d' = m.dims.all.foldl (fun acc i =>
      (acc.setValue (cellAt ieee res' B (centreAt ieee res A i)) (m.grid.get i)).1)
      (CMap.create d' m.grid.oob m.grid.oob) := by
    unfold CMap.resampleF
    congr 1
    funext acc i
    unfold CMap.setAtF CMap.setValue
    split_ifs <;> rfl
  rw [← hf] at k2 k3 k4 k5
  have hd : (m.resampleF ieee res res' A B d').grid.dims = d' := k2
  have ho : (m.resampleF ieee res res' A B d').grid.oob = m.grid.oob := k3
  refine resampled_of r0' (g := fun i => cellAt ieee res' B (centreAt ieee res A i)) (fun i hi => ?_) ?_ ?_ ?_
  · obtain ⟨⟨x0, x1⟩, ⟨y0, y1⟩, z0, z1⟩ := id hi
    exact resample_cell hlo hhi hlo' hhi' hA hB hN h1 hM hNM hT ⟨⟨x0, by omega⟩, ⟨y0, by omega⟩, z0, by omega⟩
  · intro pre i suf e hs hb
    have hb' := inB_iff_spec.mpr hb
    have := k4 pre i suf e hs hb'
    simp only [CMap.getImm, Grid.getImm, hd, hb'] at this ⊢
    rw [this]
  · intro c hc hno
    have hc' := inB_iff_spec.mpr hc
    have := k5 c hno
    simp only [CMap.getImm, Grid.getImm, hd, hc']
    rw [this]
    simp [CMap.create, Grid.get_mk', hc']
  · intro c hc
    have hc' : d'.inB c = false := by
      rw [← Bool.not_eq_true]
      exact fun h => hc (inB_iff_spec.mp h)
    simp [CMap.getImm, Grid.getImm, Grid.get, hd, hc', ho]

/-- C131 for tagged maps: whole cells are copied. -/
theorem C131_tagged {m : TMap} (hdim : m.dims.nx ≤ N ∧ m.dims.ny ≤ N ∧ m.dims.nz ≤ N) (junk : Bool) (d' : Dims) :
    Resampled m.dims d' res res' (fun i => (m.getImm i).1) m.grid.oob (m.resampleF ieee junk res res' A B d').getImm := by
  have r0' : 0 < res' := lt_of_lt_of_le (by norm_num) hlo'
  obtain ⟨-, k2, k3, -, -, -, -, k4, k5⟩ := TMap.resample_fold m (fun i => cellAt ieee res' B (centreAt ieee res A i))
    m.dims.all (TMap.create junk d' m.grid.oob m.grid.oob) (Grid.wf_mk' _ _ _)
  have hf : m.resampleF ieee junk res res' A B d' = m.dims.all.foldl (fun acc i =>
      (acc.setValue (cellAt ieee res' B (centreAt ieee res A i)) (m.grid.get i)).1)
      (TMap.create junk d' m.grid.oob m.grid.oob) := by
    unfold TMap.resampleF
    congr 1
    funext acc i
    unfold TMap.setAtF TMap.setValue
    split_ifs <;> rfl
  rw [← hf] at k2 k3 k4 k5
  have hd : (m.resampleF ieee junk res res' A B d').grid.dims = d' := k2
  have ho : (m.resampleF ieee junk res res' A B d').grid.oob = m.grid.oob := k3
  refine resampled_of r0' (g := fun i => cellAt ieee res' B (centreAt ieee res A i)) (fun i hi => ?_) ?_ ?_ ?_
  · obtain ⟨⟨x0, x1⟩, ⟨y0, y1⟩, z0, z1⟩ := id hi
    exact resample_cell hlo hhi hlo' hhi' hA hB hN h1 hM hNM hT ⟨⟨x0, by omega⟩, ⟨y0, by omega⟩, z0, by omega⟩
  · intro pre i suf e hs hb
    have hb' := inB_iff_spec.mpr hb
    have := k4 pre i suf e hs hb'
    simp only [TMap.getImm, Grid.getImm, hd, hb'] at this ⊢
    rw [this]
  · intro c hc hno
    have hc' := inB_iff_spec.mpr hc
    have := k5 c hno
    simp only [TMap.getImm, Grid.getImm, hd, hc']
    rw [this]
    simp [TMap.create, Grid.get_mk', hc']
  · intro c hc
    have hc' : d'.inB c = false := by
      rw [← Bool.not_eq_true]
      exact fun h => hc (inB_iff_spec.mp h)
    simp [TMap.getImm, Grid.getImm, Grid.get, hd, hc', ho]

/-- C131: resampling to the same resolution keeps every cell, in any pose. -/
theorem C131_same {m : CMap} (hdim : m.dims.nx ≤ N ∧ m.dims.ny ≤ N ∧ m.dims.nz ≤ N) (hs : res' = res) :
    ∀ i, (m.resampleF ieee res res' A B m.dims).getImm i = m.getImm i := by
  subst hs
  have r0 : 0 < res' := lt_of_lt_of_le (by norm_num) hlo'
  have h := C131_cells hlo hhi hlo' hhi' hA hB hN h1 hM hNM hT hdim m.dims
  intro i
  by_cases hi : InBounds m.dims i
  · rw [Resampled.same r0 h i hi]
    have : m.grid.dims.inB i = true := inB_iff_spec.mpr hi
    simp [CMap.getImm, Grid.getImm, this]
  · rw [h.beyond i hi]
    have : m.grid.dims.inB i = false := by
      rw [← Bool.not_eq_true]
      exact fun h => hi (inB_iff_spec.mp h)
    simp [CMap.getImm, Grid.getImm, Grid.get, this]

/-- C131: resampling to smaller cells, in a new grid that reaches beyond the last old centres, keeps the value of every
cell at the new cell around its centre. -/
theorem C131_finer {m : CMap} (hdim : m.dims.nx ≤ N ∧ m.dims.ny ≤ N ∧ m.dims.nz ≤ N) (hle : 501 / 500 * res' ≤ res)
    {d' : Dims} (hx : ((m.dims.nx : ℝ) - 1 / 2) * res + res' / 1000 ≤ d'.nx * res')
    (hy : ((m.dims.ny : ℝ) - 1 / 2) * res + res' / 1000 ≤ d'.ny * res')
    (hz : ((m.dims.nz : ℝ) - 1 / 2) * res + res' / 1000 ≤ d'.nz * res') (i : Idx) (hi : InBounds m.dims i) :
    ∃ c, InBounds d' c ∧ NearCube res' c (cellCentre res i) ∧
      (m.resampleF ieee res res' A B d').getImm c = ((m.getImm i).1, true) := by
  have r0 : 0 < res := lt_of_lt_of_le (by norm_num) hlo
  have r0' : 0 < res' := lt_of_lt_of_le (by norm_num) hlo'
  refine Resampled.finer r0' hle (C131_cells hlo hhi hlo' hhi' hA hB hN h1 hM hNM hT hdim d') i hi ?_
  have ax : ∀ {n n' : ℕ} {k : ℤ}, ((n : ℝ) - 1 / 2) * res + res' / 1000 ≤ n' * res' → 0 ≤ k ∧ k < n →
      res' / 1000 ≤ ((k : ℝ) + 1 / 2) * res ∧ ((k : ℝ) + 1 / 2) * res ≤ n' * res' - res' / 1000 := by
    rintro n n' k h ⟨k0, k1⟩
    have k0' : (0 : ℝ) ≤ k := by exact_mod_cast k0
    have k1' : (k : ℝ) + 1 ≤ n := by exact_mod_cast k1
    have a : 1 / 2 * res ≤ ((k : ℝ) + 1 / 2) * res := by gcongr; linarith
    have b : ((k : ℝ) + 1 / 2) * res ≤ ((n : ℝ) - 1 / 2) * res := by gcongr; linarith
    constructor <;> linarith
  exact ⟨ax hx hi.1, ax hy hi.2.1, ax hz hi.2.2⟩

/-- C131: an obstacle of the new map is an obstacle of the old one near the same place, when values outside the old map
count as free. -/
theorem C131_no_invention {m : CMap} (hdim : m.dims.nx ≤ N ∧ m.dims.ny ≤ N ∧ m.dims.nz ≤ N)
    (hfree : m.grid.oob.occ.gtHalf = false) (d' : Dims) (c : Idx)
    (hc : ((m.resampleF ieee res res' A B d').getImm c).1.occ.gtHalf = true) :
    ∃ i, InBounds m.dims i ∧ ((m.getImm i).1).occ.gtHalf = true ∧ NearCube res' c (cellCentre res i) := by
  have h := C131_cells hlo hhi hlo' hhi' hA hB hN h1 hM hNM hT hdim d'
  by_cases hb : InBounds d' c
  · rcases h.cells c hb with ⟨i, hi, hn, e⟩ | ⟨-, e⟩
    · rw [e] at hc
      exact ⟨i, hi, hc, hn⟩
    · rw [e, hfree] at hc
      simp at hc
  · rw [h.beyond c hb, hfree] at hc
    simp at hc

end

/-- A turned and shifted map of 10 x 10 x 10 cells of size 1/4 with one obstacle. -/
def exMap : CMap :=
  ((CMap.create ⟨10, 10, 10⟩ (CCell.ofOcc F32.zero) (CCell.ofOcc F32.zero)).setValue ⟨3, 4, 5⟩ (CCell.ofOcc F32.one)).1

/-- Resampled to its own resolution it still has its obstacle in the same cell, and only there; resampled to cells of size
1/8 it has it at the same place. -/
example : ∃ B : Aff ℝ, isoInverse ieee exPose = (B.rx, B.ry, B.rz, loc B.t) ∧
    (∀ i, ((exMap.resampleF ieee (1 / 4) (1 / 4) exPose B ⟨10, 10, 10⟩).getImm i).1.occ.gtHalf = true ↔ i = ⟨3, 4, 5⟩) ∧
    ∃ c, NearCube (1 / 8) c ⟨7 / 8, 9 / 8, 11 / 8⟩ ∧
      ((exMap.resampleF ieee (1 / 4) (1 / 8) exPose B ⟨20, 20, 20⟩).getImm c).1.occ.gtHalf = true := by
  obtain ⟨B, hB, -⟩ := C112_inverse exPose_rotation
    ⟨exPose_origin.1.trans (by norm_num), exPose_origin.2.1.trans (by norm_num), exPose_origin.2.2.trans (by norm_num)⟩
  have hd : exMap.dims = ⟨10, 10, 10⟩ := rfl
  have get : ∀ i, (exMap.getImm i).1 = if i = ⟨3, 4, 5⟩ then CCell.ofOcc F32.one else CCell.ofOcc F32.zero := by
    intro i
    unfold exMap CMap.getImm Grid.getImm
    rw [CMap.setValue_get (Grid.wf_mk' _ _ _)]
    have e : ((CMap.create ⟨10, 10, 10⟩ (CCell.ofOcc F32.zero) (CCell.ofOcc F32.zero)).grid.get i) = CCell.ofOcc F32.zero := by
      unfold CMap.create
      rw [Grid.get_mk']
      exact ite_self _
    rw [e]
    have : (CMap.create ⟨10, 10, 10⟩ (CCell.ofOcc F32.zero) (CCell.ofOcc F32.zero)).grid.dims.inB ⟨3, 4, 5⟩ = true := by decide
    simp [this, eq_comm]
  refine ⟨B, hB, fun i => ?_, ?_⟩
  · have := C131_same (res := 1 / 4) (res' := 1 / 4) (m := exMap) (N := 10) (M := 2 ^ 24) (by norm_num) (by norm_num)
      (by norm_num) (by norm_num) exPose_rotation hB (by norm_num) (by norm_num) (by norm_num) (by norm_num)
      ⟨by norm_num [exPose, abs_le], by norm_num [exPose, abs_le], by norm_num [exPose, abs_le]⟩ (by decide) rfl i
    rw [hd] at this
    rw [this, get]
    split_ifs with h
    · simp only [h, iff_true]; decide
    · simp only [h, iff_false]; decide
  · obtain ⟨c, -, hn, e⟩ := C131_finer (res := 1 / 4) (res' := 1 / 8) (m := exMap) (N := 10) (M := 2 ^ 24) (by norm_num)
      (by norm_num) (by norm_num) (by norm_num) exPose_rotation hB (by norm_num) (by norm_num) (by norm_num) (by norm_num)
      ⟨by norm_num [exPose, abs_le], by norm_num [exPose, abs_le], by norm_num [exPose, abs_le]⟩ (by decide)
      (by norm_num) (d' := ⟨20, 20, 20⟩) (by rw [hd]; norm_num) (by rw [hd]; norm_num) (by rw [hd]; norm_num) ⟨3, 4, 5⟩
      (by rw [hd]; norm_num [InBounds])
    refine ⟨c, ?_, ?_⟩
    · have f : cellCentre (1 / 4) ⟨3, 4, 5⟩ = ⟨7 / 8, 9 / 8, 11 / 8⟩ := by
        unfold cellCentre
        norm_num
      rwa [f] at hn
    · rw [e, get, if_pos rfl]
      decide

end FSdf

end Verif
