import Verif.Spec.Frames
import Verif.Props.ImageExact
import Verif.Props.IeeeExports

/-!
# C143: the image node treats every picture by itself
-/

namespace Verif

open Spec

namespace Img

theorem resize_length {α : Type} (l : List α) (n : Nat) (a : α) : (resize l n a).length = n := by
  simp only [resize, List.length_append, List.length_take, List.length_replicate]
  omega

theorem fit_sized (f : List (List FVal)) (rows cols : Nat) : Sized (fit f rows cols) rows cols := by
  refine ⟨by simp [fit, resize_length], fun row h => ?_⟩
  obtain ⟨r, -, rfl⟩ := List.mem_map.mp h
  exact resize_length _ _ _

theorem put_entry {f : List (List FVal)} {rows cols : Nat} (h : Sized f rows cols) {v : Idx}
    (hv : InBounds ⟨rows, cols, 1⟩ v) (x : FVal) :
    Sized (put f v x) rows cols ∧
      ∀ i j, entry (put f v x) i j = if v = ⟨i, j, 0⟩ then some x else entry f i j := by
  obtain ⟨⟨x0, x1⟩, ⟨y0, y1⟩, z0, z1⟩ := hv
  have e1 : v.x < rows := x1
  have e2 : v.y < cols := y1
  have e3 : v.z < 1 := z1
  refine ⟨⟨by simp [put, h.1], fun row hr => ?_⟩, fun i j => ?_⟩
  · obtain ⟨k, hk⟩ := List.mem_iff_getElem?.mp hr
    unfold put at hk
    rw [List.getElem?_modify] at hk
    cases hf : f[k]? with
    | none => rw [hf] at hk; simp at hk
    | some r =>
      have hl := h.2 r (List.mem_of_getElem? hf)
      rw [hf] at hk
      simp only [Option.map_eq_map, Option.map_some, Option.some.injEq] at hk
      rw [← hk]
      split <;> simp [hl]
  · unfold entry put
    rw [List.getElem?_modify]
    by_cases hi : v.x.toNat = i
    · have hlt : i < f.length := by rw [h.1]; omega
      have hf : f[i]? = some f[i] := List.getElem?_eq_getElem hlt
      have hl := h.2 f[i] (List.getElem_mem hlt)
      simp only [if_pos hi, hf, Option.map_eq_map, Option.map_some, Option.bind_some]
      by_cases hj : v.y.toNat = j
      · have : v = ⟨i, j, 0⟩ := by
          obtain ⟨a, b, c⟩ := v
          dsimp only at *
          simp only [Idx.mk.injEq]
          omega
        rw [if_pos this, List.getElem?_set, if_pos hj, if_pos (by rw [hl]; omega)]
      · have : v ≠ ⟨i, j, 0⟩ := by
          rintro rfl
          simp at hj
        rw [if_neg this, List.getElem?_set, if_neg hj]
    · have : v ≠ ⟨i, j, 0⟩ := by
        rintro rfl
        simp at hi
      rw [if_neg this]
      simp [hi]

theorem node_loop (val : Idx → EReal) (rows cols : Nat) : ∀ (l : List Idx) (s : Node),
    Sized s.field rows cols → (∀ i ∈ l, InBounds ⟨rows, cols, 1⟩ i) →
    let s' := l.foldl (fun (s : Node) i =>
      (⟨put s.field i (some (val i)), (SdfGen.updExtrema (s.max, s.min) (some (val i))).1,
        (SdfGen.updExtrema (s.max, s.min) (some (val i))).2⟩ : Node)) s
    Sized s'.field rows cols ∧
      (∀ i j : Nat, entry s'.field i j =
        if (⟨i, j, 0⟩ : Idx) ∈ l then some (some (val ⟨i, j, 0⟩)) else entry s.field i j) ∧
      (s'.max, s'.min) = l.foldl (fun e i => SdfGen.updExtrema e (some (val i))) (s.max, s.min)
  | [], s, h, _ => ⟨h, by simp, rfl⟩
  | a :: l, s, h, hb => by
    obtain ⟨p1, p2⟩ := put_entry h (hb a List.mem_cons_self) (some (val a))
    obtain ⟨h1, h2, h3⟩ := node_loop val rows cols l
      ⟨put s.field a (some (val a)), (SdfGen.updExtrema (s.max, s.min) (some (val a))).1,
        (SdfGen.updExtrema (s.max, s.min) (some (val a))).2⟩ p1 (fun i hi => hb i (List.mem_cons_of_mem _ hi))
    refine ⟨h1, fun i j => ?_, h3⟩
    refine (h2 i j).trans ?_
    by_cases hv : (⟨i, j, 0⟩ : Idx) ∈ l
    · simp [hv]
    · simp only [hv, if_false, List.mem_cons, or_false]
      rw [p2]
      by_cases hva : a = ⟨i, j, 0⟩
      · rw [if_pos hva, if_pos hva.symm, hva]
      · rw [if_neg hva, if_neg (fun e => hva e.symm)]

theorem bounds_of {m : Mat} {i j : Nat} (hi : i < m.rows) (hj : j < m.cols) : InBounds m.dims ⟨i, j, 0⟩ :=
  ⟨⟨Int.natCast_nonneg _, by show (i : ℤ) < (m.rows : ℤ); omega⟩,
    ⟨Int.natCast_nonneg _, by show (j : ℤ) < (m.cols : ℤ); omega⟩, ⟨le_refl _, by show (0 : ℤ) < ((1 : ℕ) : ℤ); decide⟩⟩

theorem node_update (R : Rounding) (s : Node) (m : Mat) :
    (∀ i j : Nat, i < m.rows → j < m.cols → (s.update R m).at i j = some ((updateSdf R m.dims m.filled).field.get ⟨i, j, 0⟩)) ∧
    (s.update R m).max = (updateSdf R m.dims m.filled).max ∧ (s.update R m).min = (updateSdf R m.dims m.filled).min := by
  have hz : m.dims.nz = 1 := rfl
  obtain ⟨_, _, hget, hext⟩ := update_spec R hz m.filled
  have hval : ∀ v, InBounds m.dims v → value R ((partialSdf (marked m.dims m.filled)).get v)
      ((partialSdf (marked m.dims fun i => !m.filled i)).get v) = some (pixelVal R m.dims m.filled v) := by
    intro v hv
    unfold pixelVal
    cases hi : m.filled v with
    | true => rw [value_filled R (partial_zero hz m.filled hv hi)]; rfl
    | false => rw [value_empty R (partial_zero hz (fun i => !m.filled i) hv (by simp [hi]))]; rfl
  have e : s.update R m = m.dims.all.foldl (fun (s : Node) i =>
      (⟨put s.field i (some (pixelVal R m.dims m.filled i)),
        (SdfGen.updExtrema (s.max, s.min) (some (pixelVal R m.dims m.filled i))).1,
        (SdfGen.updExtrema (s.max, s.min) (some (pixelVal R m.dims m.filled i))).2⟩ : Node))
        ⟨fit s.field m.rows m.cols, 0, 0⟩ := by
    unfold Node.update
    refine SdfGen.foldl_congr_mem _ _ (fun r i hi => ?_)
    dsimp only
    rw [hval i (inB_iff_spec.mp (Dims.mem_all.mp hi))]
  obtain ⟨-, h2, h3⟩ := node_loop (pixelVal R m.dims m.filled) m.rows m.cols m.dims.all
    ⟨fit s.field m.rows m.cols, 0, 0⟩ (fit_sized _ _ _) (fun i hi => inB_iff_spec.mp (Dims.mem_all.mp hi))
  rw [← e] at h2 h3
  rw [← hext] at h3
  simp only [Prod.mk.injEq] at h3
  refine ⟨fun i j hi hj => ?_, h3⟩
  have hb := bounds_of hi hj
  rw [hget _ hb]
  refine (h2 i j).trans ?_
  rw [if_pos (Dims.mem_all.mpr (inB_iff_spec.mpr hb))]

theorem published (R : Rounding) (s : Node) (m : Mat) :
    (s.step R (some m)).2 = some
      { raw := (List.range m.rows).map fun i => (List.range m.cols).map fun j =>
          some (rawPixel R ((updateSdf R m.dims m.filled).field.get ⟨(i : Nat), (j : Nat), 0⟩))
        preview := (List.range m.rows).map fun i => (List.range m.cols).map fun j =>
          previewPixel R (updateSdf R m.dims m.filled) ((updateSdf R m.dims m.filled).field.get ⟨(i : Nat), (j : Nat), 0⟩) } := by
  obtain ⟨h1, h2, h3⟩ := node_update R s m
  have hp : ∀ x, previewPixel R ⟨Grid.mk' ⟨0, 0, 0⟩ none none, (s.update R m).max, (s.update R m).min⟩ x =
      previewPixel R (updateSdf R m.dims m.filled) x := by
    intro x
    unfold previewPixel
    simp only [h2, h3]
  simp only [Node.step, Node.publish, Option.some.injEq, Published.mk.injEq]
  constructor
  · refine List.map_congr_left fun i hi => List.map_congr_left fun j hj => ?_
    rw [h1 i j (List.mem_range.mp hi) (List.mem_range.mp hj)]; rfl
  · refine List.map_congr_left fun i hi => List.map_congr_left fun j hj => ?_
    rw [h1 i j (List.mem_range.mp hi) (List.mem_range.mp hj)]
    exact hp _

theorem entry_table {α : Type} (g : Nat → Nat → α) {rows cols i j : Nat} (hi : i < rows) (hj : j < cols) :
    entry ((List.range rows).map fun i => (List.range cols).map fun j => g i j) i j = some (g i j) := by
  simp [entry, hi, hj]

theorem sized_table {α : Type} (g : Nat → Nat → α) (rows cols : Nat) :
    Sized ((List.range rows).map fun i => (List.range cols).map fun j => g i j) rows cols := by
  refine ⟨by simp, fun row h => ?_⟩
  obtain ⟨i, -, rfl⟩ := List.mem_map.mp h
  simp

theorem of_bounds {m : Mat} {v : Idx} (h : InBounds m.dims v) :
    ∃ i j : Nat, i < m.rows ∧ j < m.cols ∧ v = ⟨i, j, 0⟩ := by
  obtain ⟨⟨x0, x1⟩, ⟨y0, y1⟩, z0, z1⟩ := h
  have e1 : v.x < m.rows := x1
  have e2 : v.y < m.cols := y1
  have e3 : v.z < 1 := z1
  refine ⟨v.x.toNat, v.y.toNat, by omega, by omega, ?_⟩
  obtain ⟨a, b, c⟩ := v
  dsimp only at *
  simp only [Idx.mk.injEq]
  omega

theorem gray_iff {m : Mat} (he : m.elem = 1) (i j : Nat) : m.filled ⟨i, j, 0⟩ = true ↔ NotBlack m i j := by
  unfold NotBlack Mat.filled Mat.at
  rw [he]
  simp

end Img

open Img

/-- C143, history.  The node answers the pictures one by one: nothing is published for a picture that cannot be decoded,
and one pair of images for every other.  What is published does not depend on the pictures seen before, whatever their
sizes, nor on whether some of them could not be decoded. -/
theorem C143_history (R : Rounding) (fs : List (Option Mat)) (s : Node) :
    (s.run R fs = fs.map fun f => (Node.start.step R f).2) ∧
    ∀ k < fs.length, (s.run R fs)[k]? = some none ↔ fs[k]? = some none := by
  have key : s.run R fs = fs.map fun f => (Node.start.step R f).2 := by
    induction fs generalizing s with
    | nil => rfl
    | cons f fs ih =>
      have e : (s.step R f).2 = (Node.start.step R f).2 := by
        cases f with
        | none => rfl
        | some m => rw [published, published]
      rw [Node.run, List.map_cons, ih, e]
  refine ⟨key, fun k hk => ?_⟩
  rw [key, List.getElem?_map, List.getElem?_eq_getElem hk]
  cases fs[k] with
  | none => simp [Node.step]
  | some m => rw [Option.map_some, published]; simp

/-- C143 for pictures of one byte per pixel, in any state of the node.  Both images have the size of the picture.  In the
raw image a pixel that is not black has 0 in the first channel, a black one in the second; the other channel is the
rounded distance, at least 1, and if the picture has both kinds of pixels it is the distance to a pixel of the other
kind. -/
theorem C143_gray_partial (R : Rounding) (s : Node) {m : Mat} (he : m.elem = 1) :
    ∃ out : Published, (s.step R (some m)).2 = some out ∧ Sized out.raw m.rows m.cols ∧
      Sized out.preview m.rows m.cols ∧
      ∀ i j, i < m.rows → j < m.cols → ∃ x : EReal, 1 ≤ x ∧
        (NotBlack m i j → entry out.raw i j = some (some (some 0, some (R.r32 x)))) ∧
        (¬ NotBlack m i j → entry out.raw i j = some (some (some (R.r32 x), some 0))) ∧
        ((∃ k l, k < m.rows ∧ l < m.cols ∧ (NotBlack m k l ↔ ¬ NotBlack m i j)) →
          ∃ k l, k < m.rows ∧ l < m.cols ∧ (NotBlack m k l ↔ ¬ NotBlack m i j) ∧
            x = R.r64 (Real.sqrt (pixelSq i j k l) : ℝ)) := by
  refine ⟨_, published R s m, sized_table _ _ _, sized_table _ _ _, fun i j hi hj => ?_⟩
  have hv := bounds_of hi hj
  obtain ⟨x, ex, hraw⟩ := C66_raw R (d := m.dims) rfl m.filled hv
  obtain ⟨x', ex', s1, s2⟩ := C49_sign R (d := m.dims) rfl m.filled hv
  have exx : x' = x := by rw [ex] at ex'; exact (Option.some.inj ex').symm
  subst exx
  have hf := gray_iff he i j
  have ent : entry ((List.range m.rows).map fun i => (List.range m.cols).map fun j =>
      some (rawPixel R ((updateSdf R m.dims m.filled).field.get ⟨(i : Nat), (j : Nat), 0⟩))) i j = _ :=
    entry_table (fun i j => some (rawPixel R ((updateSdf R m.dims m.filled).field.get ⟨(i : Nat), (j : Nat), 0⟩))) hi hj
  rw [hraw] at ent
  have mixed : (∃ k l, k < m.rows ∧ l < m.cols ∧ (NotBlack m k l ↔ ¬ NotBlack m i j)) →
      ∃ (k l : ℕ) (n : ℕ), k < m.rows ∧ l < m.cols ∧ (NotBlack m k l ↔ ¬ NotBlack m i j) ∧ (n : ℤ) = pixelSq i j k l ∧
        x' = if m.filled ⟨i, j, 0⟩ then -R.r64 (Real.sqrt n : ℝ) else R.r64 (Real.sqrt n : ℝ) := by
    rintro ⟨k, l, hk, hl, h⟩
    have hm : Mixed m.dims m.filled := by
      by_cases hb : NotBlack m i j
      · exact ⟨⟨_, hv, hf.mpr hb⟩, ⟨_, bounds_of hk hl, by
          rw [← Bool.not_eq_true, gray_iff he]; tauto⟩⟩
      · exact ⟨⟨_, bounds_of hk hl, by rw [gray_iff he]; tauto⟩, ⟨_, hv, by rw [← Bool.not_eq_true, hf]; exact hb⟩⟩
    obtain ⟨n, w, hw, hne, hn, hx⟩ := C49_value R (d := m.dims) rfl hm hv
    obtain ⟨k', l', hk', hl', rfl⟩ := of_bounds hw
    refine ⟨k', l', n, hk', hl', ?_, ?_, ?_⟩
    · rw [← gray_iff he, ← hf]
      revert hne
      cases m.filled ⟨k', l', 0⟩ <;> cases m.filled ⟨i, j, 0⟩ <;> simp
    · rw [hn]; simp [sqDist, pixelSq]
    · rw [ex] at hx; exact Option.some.inj hx
  cases hm : m.filled ⟨i, j, 0⟩ with
  | true =>
    have hb := hf.mp hm
    rw [hm] at ent mixed
    refine ⟨-x', ?_, fun _ => ent, fun h => absurd hb h, fun h => ?_⟩
    · have := s1 hm
      rw [← EReal.neg_le_neg_iff, neg_neg]
      exact this
    · obtain ⟨k, l, n, hk, hl, h1, h2, h3⟩ := mixed h
      refine ⟨k, l, hk, hl, h1, ?_⟩
      rw [h3, if_pos rfl, neg_neg, ← h2]; rfl
  | false =>
    have hb : ¬ NotBlack m i j := fun h => by rw [hf.mpr h] at hm; cases hm
    rw [hm] at ent mixed
    refine ⟨x', s2 hm, fun h => absurd h hb, fun _ => ent, fun h => ?_⟩
    obtain ⟨k, l, n, hk, hl, h1, h2, h3⟩ := mixed h
    refine ⟨k, l, hk, hl, h1, ?_⟩
    rw [h3, if_neg (by simp), ← h2]; rfl

/-- C143, preview, for pictures of one byte per pixel with both kinds of pixels: pixels that are not black are blue, the
others red. -/
theorem C143_preview_partial {R : Rounding} (s : Node) {m : Mat} (hR : PreviewOk R m.dims) (he : m.elem = 1)
    (hmix : ∃ i j k l, i < m.rows ∧ j < m.cols ∧ k < m.rows ∧ l < m.cols ∧ NotBlack m i j ∧ ¬ NotBlack m k l) :
    ∃ out : Published, (s.step R (some m)).2 = some out ∧
      ∀ i j, i < m.rows → j < m.cols → ∃ c, 64 ≤ c ∧ c ≤ 128 ∧
        (NotBlack m i j → entry out.preview i j = some (some (c, 0, 0))) ∧
        (¬ NotBlack m i j → entry out.preview i j = some (some (0, 0, c))) := by
  refine ⟨_, published R s m, fun i j hi hj => ?_⟩
  have hm : Mixed m.dims m.filled := by
    obtain ⟨i, j, k, l, hi, hj, hk, hl, h1, h2⟩ := hmix
    exact ⟨⟨_, bounds_of hi hj, (gray_iff he i j).mpr h1⟩, ⟨_, bounds_of hk hl, by
      rw [← Bool.not_eq_true, gray_iff he]; exact h2⟩⟩
  obtain ⟨c, h1, h2, h3⟩ := C66_preview_partial hR rfl hm (bounds_of hi hj)
  have ent := entry_table (fun i j => previewPixel R (updateSdf R m.dims m.filled)
    ((updateSdf R m.dims m.filled).field.get ⟨(i : Nat), (j : Nat), 0⟩)) hi hj
  rw [h3] at ent
  refine ⟨c, h1, h2, fun h => ?_, fun h => ?_⟩
  · rw [(gray_iff he i j).mpr h] at ent
    exact ent
  · have hf : m.filled ⟨i, j, 0⟩ = false := by rw [← Bool.not_eq_true, gray_iff he]; exact h
    rw [hf] at ent
    exact ent

theorem Img.update_congr (R : Rounding) {d : Dims} {p q : Idx → Bool} (h : ∀ v, InBounds d v → p v = q v) :
    updateSdf R d p = updateSdf R d q := by
  have hm : ∀ {p q : Idx → Bool}, (∀ v, InBounds d v → p v = q v) → marked d p = marked d q := by
    intro p q h
    unfold marked Grid.setAll
    refine SdfGen.foldl_congr_mem _ _ (fun r i hi => ?_)
    dsimp only
    rw [h i (inB_iff_spec.mp (Dims.mem_all.mp hi))]
  unfold updateSdf
  rw [hm h, hm (p := fun i => !p i) (q := fun i => !q i) (fun v hv => by rw [h v hv])]

/-- C143, pictures of several bytes per pixel.  The node looks at as many bytes of each row as there are columns: two
pictures whose pixels agree in the columns `j` with `j * elem < cols` are published alike, whatever the rest of the
pictures shows. -/
theorem C143_ignored (R : Rounding) (s : Node) {m m' : Mat} (hrows : m'.rows = m.rows) (hcols : m'.cols = m.cols)
    (helem : m'.elem = m.elem) (hpos : 0 < m.elem)
    (hleft : ∀ i j k, i < m.rows → j * m.elem < m.cols → k < m.elem →
      m'.data (m'.step * i + m'.elem * j + k) = m.data (m.step * i + m.elem * j + k)) :
    (s.step R (some m')).2 = (s.step R (some m)).2 := by
  have hd : m'.dims = m.dims := by unfold Mat.dims; rw [hrows, hcols]
  have e : updateSdf R m.dims m'.filled = updateSdf R m.dims m.filled := by
    refine Img.update_congr R fun v hv => ?_
    obtain ⟨i, j, hi, hj, rfl⟩ := of_bounds hv
    have h := hleft i (j / m.elem) (j % m.elem) hi (lt_of_le_of_lt (Nat.div_mul_le_self _ _) hj) (Nat.mod_lt _ hpos)
    rw [helem, add_assoc, add_assoc, Nat.div_add_mod] at h
    simp only [Mat.filled, Mat.at, Int.toNat_natCast]
    rw [h]
  rw [published, published, hd, e, hrows, hcols]

/-- The property: a pixel of any decoded picture that is not black has 0 in the first channel of the raw image. -/
def C143Statement (R : Rounding) : Prop :=
  ∀ (s : Node) (m : Mat) (out : Published), 0 < m.elem → m.elem * m.cols ≤ m.step →
    (s.step R (some m)).2 = some out → ∀ i j, i < m.rows → j < m.cols → NotBlack m i j →
      ∃ y, entry out.raw i j = some (some (some 0, y))

/-- A `bgr8` picture of two pixels: black and white. -/
def exPair : Mat := ⟨1, 2, 3, 6, fun k => if 3 ≤ k then 255 else 0⟩

/-- C143 fails for pictures of several bytes per pixel: in a row of a black and a white pixel the white one is taken for
black. -/
theorem C143_false (R : Rounding) : ¬ C143Statement R := by
  intro h
  have hall : ∀ v, InBounds exPair.dims v → exPair.filled v = false := by
    intro v hv
    obtain ⟨i, j, hi, hj, rfl⟩ := of_bounds hv
    have hi : i < 1 := hi
    have hj : j < 2 := hj
    obtain rfl : i = 0 := by omega
    obtain rfl | rfl : j = 0 ∨ j = 1 := by omega
    · decide
    · decide
  obtain ⟨y, hy⟩ := h Node.start exPair _ (by decide) (by decide) (published R Node.start exPair) 0 1 (by decide) (by decide)
    ⟨0, by decide, by decide⟩
  have hb : InBounds exPair.dims ⟨(0 : ℕ), (1 : ℕ), 0⟩ := bounds_of (by decide) (by decide)
  have ent := entry_table (fun i j => some (rawPixel R ((updateSdf R exPair.dims exPair.filled).field.get
    ⟨(i : Nat), (j : Nat), 0⟩))) (rows := exPair.rows) (cols := exPair.cols) (i := 0) (j := 1) (by decide) (by decide)
  obtain ⟨x, ex, hraw⟩ := C66_raw R (d := exPair.dims) rfl exPair.filled hb
  have htop := (C49_uniform R (d := exPair.dims) rfl exPair.filled).1 hall _ hb
  rw [ex] at htop
  rw [hraw, hall _ hb, Option.some.inj htop] at ent
  have := hy.symm.trans ent
  simp [R.top32] at this

/-! ### The hypotheses are satisfiable -/

/-- A `mono8` picture of three pixels in a row with a padding byte, the middle one not black. -/
def exGray : Mat := ⟨1, 3, 1, 4, fun k => if k = 1 then 7 else 0⟩

/-- The node has seen another picture and one that could not be decoded; for `exGray` it publishes the distance 1 for
each pixel, in the second channel for the middle one. -/
example : ∃ out : Published, Node.start.run ieee [some exPair, none, some exGray] =
      [(Node.start.step ieee (some exPair)).2, none, some out] ∧
    entry out.raw 0 0 = some (some (some 1, some 0)) ∧ entry out.raw 0 1 = some (some (some 0, some 1)) := by
  have hb : ∀ i j, i < 1 → (NotBlack exGray i j ↔ j = 1) := by
    intro i j hi
    obtain rfl : i = 0 := by omega
    constructor
    · rintro ⟨k, hk, h⟩
      have hk : k < 1 := hk
      obtain rfl : k = 0 := by omega
      by_contra hj
      refine h ?_
      show (if 4 * 0 + 1 * j + 0 = 1 then (7 : UInt8) else 0) = 0
      rw [if_neg (by omega)]
    · rintro rfl
      exact ⟨0, by decide, by decide⟩
  obtain ⟨out, ho, -, -, h⟩ := C143_gray_partial ieee Node.start (m := exGray) rfl
  have one : ieee.r64 ((Real.sqrt ((1 : ℤ) : ℝ) : ℝ) : EReal) = 1 := by
    simp only [Int.cast_one, Real.sqrt_one, EReal.coe_one]
    exact ieee.one64
  have one' : ieee.r32 1 = 1 := by
    have h := Ieee.round_exact (F := Ieee.binary32) (n := 1) (e := 0) (by decide) (by decide)
      (by simpa using one_lt_zpow₀ (by norm_num : (1 : ℝ) < 2) (by decide : (0 : ℤ) < Ieee.binary32.emax + 1))
    show Ieee.round Ieee.binary32 1 = 1
    simpa using h
  refine ⟨out, ?_, ?_, ?_⟩
  · rw [(C143_history _ _ _).1]
    simp only [List.map_cons, List.map_nil, ho]
    rfl
  · obtain ⟨x, -, -, h1, h2⟩ := h 0 0 (by decide) (by decide)
    obtain ⟨k, l, hk, hl, hkl, hx⟩ := h2 ⟨0, 1, by decide, by decide, by rw [hb _ _ (by decide), hb _ _ (by decide)]; decide⟩
    rw [hb k l hk, hb 0 0 (by decide)] at hkl
    obtain rfl : l = 1 := hkl.mpr (by decide)
    have hk : k < 1 := hk
    obtain rfl : k = 0 := by omega
    have e : pixelSq 0 0 0 1 = 1 := by decide
    rw [e, one] at hx
    rw [h1 (by rw [hb _ _ (by decide)]; decide), hx, one']
  · obtain ⟨x, -, h1, -, h2⟩ := h 0 1 (by decide) (by decide)
    obtain ⟨k, l, hk, hl, hkl, hx⟩ := h2 ⟨0, 0, by decide, by decide, by rw [hb _ _ (by decide), hb _ _ (by decide)]; decide⟩
    rw [hb k l hk, hb 0 1 (by decide)] at hkl
    have hl' : l ≠ 1 := fun e => (hkl.mp e) rfl
    have hk : k < 1 := hk
    have hl : l < 3 := hl
    obtain rfl : k = 0 := by omega
    have e : pixelSq 0 1 0 l = 1 := by
      obtain rfl | rfl : l = 0 ∨ l = 2 := by omega
      · decide
      · decide
    rw [e, one] at hx
    rw [h1 (by rw [hb _ _ (by decide)]), hx, one']

/-- For the same picture the middle pixel of the preview is blue, the others are red. -/
example (s : Node) : ∃ out : Published, (s.step ieee (some exGray)).2 = some out ∧
    (∃ c, 64 ≤ c ∧ entry out.preview 0 1 = some (some (c, 0, 0))) ∧
    ∃ c, 64 ≤ c ∧ entry out.preview 0 2 = some (some (0, 0, c)) := by
  have h1 : NotBlack exGray 0 1 := ⟨0, by decide, by decide⟩
  have h2 : ¬ NotBlack exGray 0 2 := by
    rintro ⟨k, hk, h⟩
    have hk : k < 1 := hk
    obtain rfl : k = 0 := by omega
    exact h rfl
  obtain ⟨out, ho, h⟩ := C143_preview_partial s (m := exGray) (C66_ieee (by decide) (by decide)) rfl
    ⟨0, 1, 0, 2, by decide, by decide, by decide, by decide, h1, h2⟩
  obtain ⟨c, hc, -, e, -⟩ := h 0 1 (by decide) (by decide)
  obtain ⟨c', hc', -, -, e'⟩ := h 0 2 (by decide) (by decide)
  exact ⟨out, ho, ⟨c, hc, e h1⟩, ⟨c', hc', e' h2⟩⟩

/-- Two `bgr8` pictures of two pixels that differ in the second one only are published alike. -/
example (s : Node) : (s.step ieee (some ⟨1, 2, 3, 6, fun _ => 0⟩)).2 = (s.step ieee (some exPair)).2 := by
  refine C143_ignored ieee s rfl rfl rfl (by decide) (fun i j k hi hj hk => ?_)
  have hi : i < 1 := hi
  have hj : j * 3 < 2 := hj
  have hk : k < 3 := hk
  show (0 : UInt8) = if 3 ≤ 6 * i + 3 * j + k then 255 else 0
  rw [if_neg (by omega)]

end Verif
