import Verif.Props.InterpCont

/-!
# C21: how fast `EstimateDistance` varies
-/

namespace Verif

open Spec

/-- A location in cell units lies on the axis or at most half a cell beyond its ends. -/
def OnAxis (n : Nat) (t : ℝ) : Prop := -(1 / 2) ≤ t ∧ t ≤ n + 1 / 2

theorem axisInterp_sub (n : Nat) (f g : Int → ℝ) (t : ℝ) :
    axisInterp n f t - axisInterp n g t = axisInterp n (fun i => f i - g i) t := by
  unfold axisInterp lerp; ring

theorem axisInterp_bound {n : Nat} (hn : 0 < n) {f : Int → ℝ} {V t : ℝ} (ht : OnAxis n t)
    (hf : ∀ k : Int, 0 ≤ k → k < n → |f k| ≤ V) : |axisInterp n f t| ≤ 3 * V := by
  obtain ⟨h0, h1, h2, h3⟩ := lowerCell_spec n t hn
  have fa := hf _ h0 h1
  have fb := hf _ h2 h3
  have hfl := Int.floor_le (t - 1 / 2)
  have hlt := Int.lt_floor_add_one (t - 1 / 2)
  have hV : 0 ≤ V := (abs_nonneg _).trans fa
  have w0 : -1 ≤ t - 1 / 2 - lowerCell n t := by
    rcases le_or_gt (0 : Int) ⌊t - 1 / 2⌋ with h | h
    · have : lowerCell n t ≤ ⌊t - 1 / 2⌋ := by unfold lowerCell; omega
      have : (lowerCell n t : ℝ) ≤ ⌊t - 1 / 2⌋ := by exact_mod_cast this
      linarith
    · have e : lowerCell n t = 0 := by unfold lowerCell; omega
      rw [e]; have := ht.1; push_cast; linarith
  have w1 : t - 1 / 2 - lowerCell n t ≤ 2 := by
    have h4 : (⌊t - 1 / 2⌋ : Int) ≤ lowerCell n t ∨ (n : Int) - 2 ≤ lowerCell n t := by
      unfold lowerCell; omega
    rcases h4 with h | h
    · have : (⌊t - 1 / 2⌋ : ℝ) ≤ lowerCell n t := by exact_mod_cast h
      linarith
    · have : ((n : Int) : ℝ) - 2 ≤ lowerCell n t := by exact_mod_cast h
      have := ht.2
      push_cast at *
      linarith
  unfold axisInterp lerp
  generalize t - 1 / 2 - (lowerCell n t : ℝ) = w at w0 w1
  generalize f (lowerCell n t) = a at fa
  generalize f (upperCell n t) = b at fb
  have hw : |1 - w| + |w| ≤ 3 := by
    rcases abs_cases (1 - w) with ⟨e1, _⟩ | ⟨e1, _⟩ <;> rcases abs_cases w with ⟨e2, _⟩ | ⟨e2, _⟩ <;>
      rw [e1, e2] <;> linarith
  calc |(1 - w) * a + w * b| ≤ |1 - w| * |a| + |w| * |b| := by
        refine (abs_add_le _ _).trans ?_
        rw [abs_mul, abs_mul]
    _ ≤ |1 - w| * V + |w| * V := by gcongr
    _ = (|1 - w| + |w|) * V := by ring
    _ ≤ 3 * V := by gcongr

/-- The axis interpolant varies at most as fast as its values do from cell to cell. -/
theorem axisInterp_lip {n : Nat} (hn : 0 < n) {f : Int → ℝ} {L : ℝ} (hL : 0 ≤ L)
    (hf : ∀ k, 0 ≤ k → k + 1 < (n : Int) → |f (k + 1) - f k| ≤ L) (s t : ℝ) :
    |axisInterp n f s - axisInterp n f t| ≤ L * |s - t| := by
  rcases (by omega : n = 1 ∨ 2 ≤ n) with rfl | h2
  · have : ∀ t, axisInterp 1 f t = f 0 := by
      intro t
      have h1 : lowerCell 1 t = 0 := by unfold lowerCell; omega
      have h2 : upperCell 1 t = 0 := by unfold upperCell; rw [h1]; rfl
      unfold axisInterp lerp
      rw [h1, h2]; ring
    rw [this, this, sub_self, abs_zero]
    positivity
  -- on one piece
  have piece : ∀ (k : Fin (n - 1)) (s t : ℝ), s ∈ axisPiece n k → t ∈ axisPiece n k →
      |axisInterp n f s - axisInterp n f t| ≤ L * |s - t| := by
    intro k s t hs ht
    rw [axisInterp_piece n f k s hs, axisInterp_piece n f k t ht]
    have e : lerp (s - 1 / 2 - (k : ℝ)) (f (k : Nat)) (f ((k : Nat) + 1)) -
        lerp (t - 1 / 2 - (k : ℝ)) (f (k : Nat)) (f ((k : Nat) + 1)) =
        (f ((k : Nat) + 1) - f (k : Nat)) * (s - t) := by unfold lerp; ring
    rw [e, abs_mul]
    have := k.2
    exact mul_le_mul_of_nonneg_right (hf _ (by omega) (by omega)) (abs_nonneg _)
  -- across pieces, from the left
  have key : ∀ (m : Nat) (s t : ℝ) (j k : Fin (n - 1)), s ≤ t → s ∈ axisPiece n j → t ∈ axisPiece n k →
      (k : Nat) ≤ j + m → |axisInterp n f s - axisInterp n f t| ≤ L * |s - t| := by
    intro m
    induction m with
    | zero =>
      intro s t j k hst hs ht hkj
      rcases Nat.lt_or_ge k j with h | h
      · -- then both are at the boundary
        have h1 := hs.1 (by omega)
        have h2 := ht.2 (by have := j.2; omega)
        have h3 : ((k : Nat) : ℝ) + 1 ≤ (j : Nat) := by exact_mod_cast h
        have e : s = t := le_antisymm hst (by linarith)
        rw [e, sub_self, abs_zero]; positivity
      · have e : k = j := Fin.ext (by omega)
        exact piece j s t hs (e ▸ ht)
    | succ m ih =>
      intro s t j k hst hs ht hkj
      rcases Nat.lt_or_ge j k with h | h
      · -- the right end of piece `j`
        have hk := k.2
        set u : ℝ := (j : ℝ) + 1 + 1 / 2 with hu
        have su : s ≤ u := by have := hs.2 (by omega); linarith
        have ut : u ≤ t := by
          have h1 := ht.1 (by omega)
          have h3 : ((j : Nat) : ℝ) + 1 ≤ (k : Nat) := by exact_mod_cast h
          linarith
        have uj : u ∈ axisPiece n j := ⟨fun _ => by rw [hu]; linarith, fun _ => by rw [hu]; linarith⟩
        have uj' : u ∈ axisPiece n ⟨j + 1, by omega⟩ := by
          constructor
          · intro _; rw [hu]; push_cast; linarith
          · intro _; rw [hu]; push_cast; linarith
        have a := piece j s u hs uj
        have b := ih u t ⟨j + 1, by omega⟩ k ut uj' ht (by dsimp only; omega)
        have e : L * |s - t| = L * |s - u| + L * |u - t| := by
          rw [abs_of_nonpos (by linarith), abs_of_nonpos (by linarith), abs_of_nonpos (by linarith)]
          ring
        rw [e]
        exact (abs_sub_le _ _ _).trans (add_le_add a b)
      · exact ih s t j k hst hs ht (by omega)
  have cover : ∀ t : ℝ, ∃ k, t ∈ axisPiece n k := by
    intro t
    have : t ∈ ⋃ k, axisPiece n k := by rw [axisPiece_cover n h2]; trivial
    exact Set.mem_iUnion.mp this
  obtain ⟨j, hj⟩ := cover s
  obtain ⟨k, hk⟩ := cover t
  rcases le_total s t with h | h
  · exact key k s t j k h hj hk (by omega)
  · rw [abs_sub_comm, abs_sub_comm s t]
    exact key j t s k j h hk hj (by omega)

/-- Corrected distances of neighbouring cells differ by at most `L`. -/
def Jump (t : MSdf ℝ) (L : ℝ) : Prop :=
  ∀ i j : Idx, InBounds t.grid.dims i → InBounds t.grid.dims j →
    |i.x - j.x| + |i.y - j.y| + |i.z - j.z| = 1 →
    |halfCellCloser t.res (t.grid.get i) - halfCellCloser t.res (t.grid.get j)| ≤ L

/-- The interpolant at a grid-frame location. -/
noncomputable def interpAt (t : MSdf ℝ) (g : V3 ℝ) : ℝ := trilerp (cornerWeight t g) (cornerVal t g)

/-- A grid-frame location lies in the volume or at most half a cell outside. -/
def OnVolume (t : MSdf ℝ) (g : V3 ℝ) : Prop :=
  OnAxis t.grid.dims.nx (g.x / t.res) ∧ OnAxis t.grid.dims.ny (g.y / t.res) ∧
    OnAxis t.grid.dims.nz (g.z / t.res)

theorem interpAt_lip {t : MSdf ℝ} (hr : 0 < t.res) {L : ℝ} (hL : 0 ≤ L) (hj : Jump t L) {a b : V3 ℝ}
    (hx : 0 < t.grid.dims.nx) (hy : 0 < t.grid.dims.ny) (hz : 0 < t.grid.dims.nz)
    (ha : OnVolume t a) (hb : OnVolume t b) :
    |interpAt t a - interpAt t b| ≤ 9 * L / t.res * (|a.x - b.x| + |a.y - b.y| + |a.z - b.z|) := by
  obtain ⟨ax, ay, az⟩ := ha
  obtain ⟨bx, bY, bz⟩ := hb
  unfold interpAt
  rw [trilerp_nested, trilerp_nested]
  have step : ∀ u v : ℝ, |u / t.res - v / t.res| = |u - v| / t.res := by
    intro u v; rw [← sub_div, abs_div, abs_of_pos hr]
  generalize hc : (fun x y z => halfCellCloser t.res (t.grid.get ⟨x, y, z⟩)) = c
  have cx : ∀ x y z, 0 ≤ x → x + 1 < (t.grid.dims.nx : Int) → 0 ≤ y → y < (t.grid.dims.ny : Int) → 0 ≤ z →
      z < (t.grid.dims.nz : Int) → |c (x + 1) y z - c x y z| ≤ L := by
    intro x y z x0 x1 y0 y1 z0 z1
    rw [← hc]
    refine hj ⟨x + 1, y, z⟩ ⟨x, y, z⟩ ⟨⟨?_, ?_⟩, ⟨y0, y1⟩, z0, z1⟩ ⟨⟨x0, ?_⟩, ⟨y0, y1⟩, z0, z1⟩ ?_
    · dsimp only; omega
    · dsimp only; omega
    · dsimp only; omega
    · simp
  have cy : ∀ x y z, 0 ≤ x → x < (t.grid.dims.nx : Int) → 0 ≤ y → y + 1 < (t.grid.dims.ny : Int) → 0 ≤ z →
      z < (t.grid.dims.nz : Int) → |c x (y + 1) z - c x y z| ≤ L := by
    intro x y z x0 x1 y0 y1 z0 z1
    rw [← hc]
    refine hj ⟨x, y + 1, z⟩ ⟨x, y, z⟩ ⟨⟨x0, x1⟩, ⟨?_, ?_⟩, z0, z1⟩ ⟨⟨x0, x1⟩, ⟨y0, ?_⟩, z0, z1⟩ ?_
    · dsimp only; omega
    · dsimp only; omega
    · dsimp only; omega
    · simp
  have cz : ∀ x y z, 0 ≤ x → x < (t.grid.dims.nx : Int) → 0 ≤ y → y < (t.grid.dims.ny : Int) → 0 ≤ z →
      z + 1 < (t.grid.dims.nz : Int) → |c x y (z + 1) - c x y z| ≤ L := by
    intro x y z x0 x1 y0 y1 z0 z1
    rw [← hc]
    refine hj ⟨x, y, z + 1⟩ ⟨x, y, z⟩ ⟨⟨x0, x1⟩, ⟨y0, y1⟩, ?_, ?_⟩ ⟨⟨x0, x1⟩, ⟨y0, y1⟩, z0, ?_⟩ ?_
    · dsimp only; omega
    · dsimp only; omega
    · dsimp only; omega
    · simp
  have e : ∀ x y : Int, (fun z => halfCellCloser t.res (t.grid.get ⟨x, y, z⟩)) = c x y := by
    intro x y; rw [← hc]
  simp only [e]
  generalize hX : a.x / t.res = X at ax
  generalize hX' : b.x / t.res = X' at bx
  generalize hY : a.y / t.res = Y at ay
  generalize hY' : b.y / t.res = Y' at bY
  generalize hZ : a.z / t.res = Z at az
  generalize hZ' : b.z / t.res = Z' at bz
  have s1 : |axisInterp t.grid.dims.nx (fun x => axisInterp t.grid.dims.ny (fun y =>
        axisInterp t.grid.dims.nz (c x y) Z) Y) X -
      axisInterp t.grid.dims.nx (fun x => axisInterp t.grid.dims.ny (fun y =>
        axisInterp t.grid.dims.nz (c x y) Z) Y) X'| ≤ 3 * (3 * L) * |X - X'| := by
    refine axisInterp_lip hx (by positivity) (fun x x0 x1 => ?_) X X'
    rw [axisInterp_sub]
    refine axisInterp_bound hy ay (fun y y0 y1 => ?_)
    rw [axisInterp_sub]
    exact axisInterp_bound hz az (fun z z0 z1 => cx x y z x0 x1 y0 y1 z0 z1)
  have s2 : |axisInterp t.grid.dims.nx (fun x => axisInterp t.grid.dims.ny (fun y =>
        axisInterp t.grid.dims.nz (c x y) Z) Y) X' -
      axisInterp t.grid.dims.nx (fun x => axisInterp t.grid.dims.ny (fun y =>
        axisInterp t.grid.dims.nz (c x y) Z) Y') X'| ≤ 3 * (3 * L * |Y - Y'|) := by
    rw [axisInterp_sub]
    refine axisInterp_bound hx bx (fun x x0 x1 => ?_)
    refine axisInterp_lip hy (by positivity) (fun y y0 y1 => ?_) Y Y'
    rw [axisInterp_sub]
    exact axisInterp_bound hz az (fun z z0 z1 => cy x y z x0 x1 y0 y1 z0 z1)
  have s3 : |axisInterp t.grid.dims.nx (fun x => axisInterp t.grid.dims.ny (fun y =>
        axisInterp t.grid.dims.nz (c x y) Z) Y') X' -
      axisInterp t.grid.dims.nx (fun x => axisInterp t.grid.dims.ny (fun y =>
        axisInterp t.grid.dims.nz (c x y) Z') Y') X'| ≤ 3 * (3 * (L * |Z - Z'|)) := by
    rw [axisInterp_sub]
    refine axisInterp_bound hx bx (fun x x0 x1 => ?_)
    rw [axisInterp_sub]
    refine axisInterp_bound hy bY (fun y y0 y1 => ?_)
    exact axisInterp_lip hz hL (fun z z0 z1 => cz x y z x0 x1 y0 y1 z0 z1) Z Z'
  have t1 := (abs_sub_le _ _ _).trans (add_le_add s1 s2)
  have t2 := (abs_sub_le _ _ _).trans (add_le_add t1 s3)
  refine t2.trans (le_of_eq ?_)
  rw [← hX, ← hX', ← hY, ← hY', ← hZ, ← hZ', step, step, step]
  ring

/-- C21.  Inside the grid the estimate varies by at most nine times the largest difference between neighbouring
corrected distances per cell of grid-frame displacement along each axis. -/
theorem C21_lipschitz {t : MSdf ℝ} (hr : 0 < t.res) {L : ℝ} (hj : Jump t L) (hL : 0 ≤ L) {p q : V3 ℝ}
    (hp : InBounds t.grid.dims (t.locIdx p)) (hq : InBounds t.grid.dims (t.locIdx q)) :
    ∃ y z, t.estimate p = some (y, true) ∧ t.estimate q = some (z, true) ∧
      |y - z| ≤ 9 * L / t.res * (|(t.toGrid p).x - (t.toGrid q).x| + |(t.toGrid p).y - (t.toGrid q).y| +
        |(t.toGrid p).z - (t.toGrid q).z|) := by
  have near : ∀ {g : V3 ℝ}, InBounds t.grid.dims (t.cellOf g) → OnVolume t g := by
    intro g h
    have ax : ∀ {n : Nat} {u : ℝ}, 0 ≤ ⌊u⌋ → ⌊u⌋ < (n : Int) → OnAxis n u := by
      intro n u h0 h1
      have a := Int.le_floor.mp h0
      have b := Int.floor_lt.mp h1
      push_cast at a b
      exact ⟨by linarith, by linarith⟩
    exact ⟨ax h.1.1 h.1.2, ax h.2.1.1 h.2.1.2, ax h.2.2.1 h.2.2.2⟩
  refine ⟨_, _, (C20_trilinear t hr p).1 hp, (C20_trilinear t hr q).1 hq, ?_⟩
  have hp' := hp
  obtain ⟨⟨a1, a2⟩, ⟨b1, b2⟩, c1, c2⟩ := hp'
  exact interpAt_lip hr hL hj (by omega) (by omega) (by omega) (near hp) (near hq)

example : 0 < exReal.res ∧ Jump exReal 1 ∧ InBounds exReal.grid.dims (exReal.locIdx ⟨1, 1 / 2, 1 / 4⟩) ∧
    InBounds exReal.grid.dims (exReal.locIdx ⟨1 / 2, 1 / 2, 1 / 4⟩) := by
  refine ⟨by norm_num [exReal], ?_, ?_, ?_⟩
  · have v : ∀ i : Idx, InBounds exReal.grid.dims i →
        halfCellCloser exReal.res (exReal.grid.get i) = 1 / 2 ∨
        halfCellCloser exReal.res (exReal.grid.get i) = -(1 / 2) := by
      rintro ⟨x, y, z⟩ ⟨⟨x0, x1⟩, ⟨y0, y1⟩, z0, z1⟩
      simp only [exReal] at x0 x1 y0 y1 z0 z1
      have hx : x = 0 ∨ x = 1 := by omega
      have hy : y = 0 := by omega
      have hz : z = 0 := by omega
      subst hy hz
      rcases hx with rfl | rfl
      · left
        norm_num [halfCellCloser, exReal, Grid.get, Dims.inB, Dims.lin]
      · right
        norm_num [halfCellCloser, exReal, Grid.get, Dims.inB, Dims.lin]
    intro i j hi hj _
    rcases v i hi with e | e <;> rcases v j hj with e' | e' <;> rw [e, e'] <;> norm_num
  · have e : exReal.locIdx ⟨1, 1 / 2, 1 / 4⟩ = ⟨1, 0, 0⟩ := by
      ext <;> simp only [MSdf.locIdx, MSdf.cellOf, MSdf.toGrid, exReal, Aff.app, id] <;>
        rw [Int.floor_eq_iff] <;> norm_num
    rw [e]
    unfold InBounds exReal; decide
  · have e : exReal.locIdx ⟨1 / 2, 1 / 2, 1 / 4⟩ = ⟨0, 0, 0⟩ := by
      ext <;> simp only [MSdf.locIdx, MSdf.cellOf, MSdf.toGrid, exReal, Aff.app, id] <;>
        rw [Int.floor_eq_iff] <;> norm_num
    rw [e]
    unfold InBounds exReal; decide

end Verif
