import Verif.Props.Markers
import Mathlib.Tactic.Ring

/-!
# What a viewer shows: C94 to C97

* C94: hashed maps (the cubes are the cells; false for rotated maps).
* C95: the two messages published by the generator node (wrong frame).
* C96: namespaces.
* C97: a display published again replaces the earlier one (false for displays that leave markers out).
-/

namespace Verif

open Spec

/-! ## C94: hashed maps -/

section C94

variable {K C : Type} [Field K] [LinearOrder K]

/-- The transform does not rotate. -/
def IsTranslation (a : Aff K) : Prop := a.rx = ⟨1, 0, 0⟩ ∧ a.ry = ⟨0, 1, 0⟩ ∧ a.rz = ⟨0, 0, 1⟩

/-- The point `w` of the map's frame is in the box of the given size around the grid-frame point `c`. -/
def InBox (origin : Aff K) (size c w : V3 K) : Prop :=
  ∃ u : V3 K, |u.x - c.x| ≤ size.x / 2 ∧ |u.y - c.y| ≤ size.y / 2 ∧ |u.z - c.z| ≤ size.z / 2 ∧
    w = origin.app id u

/-- The centres of the uniform chunks. -/
def uniformCentres (loc : HChunk → Idx → V3 K) (chunks : List HChunk) : List (V3 K) :=
  (chunks.filter fun c => c.chunkInit).map fun c => loc c ⟨0, 0, 0⟩

/-- The centres of the cells of the chunks with individual cells. -/
def cellCentres (loc : HChunk → Idx → V3 K) (chunks : List HChunk) : List (V3 K) :=
  (chunks.filter fun c => !c.chunkInit && c.cellInit).flatMap fun c => c.cells.dims.all.map (loc c)

omit [LinearOrder K] in
theorem centres_drawn (loc : HChunk → Idx → V3 K) (tf : V3 K → V3 K) (coll free unk : C)
    (chunks : List HChunk) :
    (chunks.flatMap fun c => (drawnCubes loc tf coll free unk c).1).map Prod.fst =
      (uniformCentres loc chunks).map tf ∧
    (chunks.flatMap fun c => (drawnCubes loc tf coll free unk c).2).map Prod.fst =
      (cellCentres loc chunks).map tf := by
  induction chunks with
  | nil => exact ⟨rfl, rfl⟩
  | cons c cs ih =>
    obtain ⟨h1, h2⟩ := ih
    unfold uniformCentres cellCentres at *
    rw [List.flatMap_cons, List.flatMap_cons, List.map_append, List.map_append, h1, h2]
    by_cases hc : c.chunkInit = true
    · simp [drawnCubes, hc]
    · by_cases hd : c.cellInit = true
      · simp [drawnCubes, hc, hd, Function.comp_def]
      · simp [drawnCubes, hc, hd]

theorem inCube_translation [IsStrictOrderedRing K] {origin : Aff K} (ht : IsTranslation origin)
    {k : Msg K C} (hp : k.pose = Aff.identity) (c w : V3 K) :
    InCube k (origin.app id c) w ↔ InBox origin k.scale c w := by
  obtain ⟨h1, h2, h3⟩ := ht
  unfold InCube InBox
  rw [hp]
  constructor
  · rintro ⟨u, a, b, d, rfl⟩
    refine ⟨⟨u.x - origin.t.x, u.y - origin.t.y, u.z - origin.t.z⟩, ?_, ?_, ?_, ?_⟩
    · simp only [Aff.app, h1, id] at a
      rw [show u.x - origin.t.x - c.x = u.x - (1 * c.x + 0 * c.y + 0 * c.z + origin.t.x) by ring]
      exact a
    · simp only [Aff.app, h2, id] at b
      rw [show u.y - origin.t.y - c.y = u.y - (0 * c.x + 1 * c.y + 0 * c.z + origin.t.y) by ring]
      exact b
    · simp only [Aff.app, h3, id] at d
      rw [show u.z - origin.t.z - c.z = u.z - (0 * c.x + 0 * c.y + 1 * c.z + origin.t.z) by ring]
      exact d
    · ext <;> simp [Aff.app, Aff.identity, h1, h2, h3]
  · rintro ⟨u, a, b, d, rfl⟩
    refine ⟨origin.app id u, ?_, ?_, ?_, ?_⟩
    · simp only [Aff.app, h1, id]
      rw [show 1 * u.x + 0 * u.y + 0 * u.z + origin.t.x - (1 * c.x + 0 * c.y + 0 * c.z + origin.t.x) =
        u.x - c.x by ring]
      exact a
    · simp only [Aff.app, h2, id]
      rw [show 0 * u.x + 1 * u.y + 0 * u.z + origin.t.y - (0 * c.x + 1 * c.y + 0 * c.z + origin.t.y) =
        u.y - c.y by ring]
      exact b
    · simp only [Aff.app, h3, id]
      rw [show 0 * u.x + 0 * u.y + 1 * u.z + origin.t.z - (0 * c.x + 0 * c.y + 1 * c.z + origin.t.z) =
        u.z - c.z by ring]
      exact d
    · ext <;> simp [Aff.app, Aff.identity]

/-- The marker is a list of cubes, to be added and kept, in the given frame; its cubes are the boxes of the
given size around the listed centres, one colour each. -/
structure DrawsBoxes (frame : String) (origin : Aff K) (size : V3 K) (centres : List (V3 K))
    (k : Msg K C) : Prop where
  frame_eq : k.frame = frame
  cubes : k.type = 6
  added : k.action = 0
  kept : k.lifetime = 0
  regions : List.Forall₂ (fun q c => ∀ w, InCube k q w ↔ InBox origin size c w) k.points centres
  coloured : k.colors.length = centres.length

/-- C94 for maps that are not rotated: the display of a hashed map draws the box of every uniform chunk and
the box of every cell of the other chunks.  Missing: rotated maps, where it is false
(`C94_rotated_map_misdrawn`). -/
theorem C94_translated_map_partial [IsStrictOrderedRing K] (frame : String) {origin : Aff K}
    (ht : IsTranslation origin) (chunkSize cellSize : V3 K) (loc : HChunk → Idx → V3 K)
    (chunks : List HChunk) (coll free unk : C) :
    ∃ big small : List (Msg K C),
      HMap.displayMsgs frame origin chunkSize cellSize loc chunks coll free unk = big ++ small ∧
      big.length ≤ 1 ∧ small.length ≤ 1 ∧
      (big = [] ↔ uniformCentres loc chunks = []) ∧ (small = [] ↔ cellCentres loc chunks = []) ∧
      (∀ k ∈ big, DrawsBoxes frame origin chunkSize (uniformCentres loc chunks) k) ∧
      (∀ k ∈ small, DrawsBoxes frame origin cellSize (cellCentres loc chunks) k) := by
  obtain ⟨big, small, e, l1, l2, b1, b2, d1, d2⟩ := C75_display frame chunkSize cellSize loc
    (fun p => origin.app id p) coll free unk chunks
  obtain ⟨c1, c2⟩ := centres_drawn loc (fun p => origin.app id p) coll free unk chunks
  refine ⟨big.map HMap.asMsg, small.map HMap.asMsg, ?_, by simpa using l1, by simpa using l2, ?_, ?_, ?_, ?_⟩
  · unfold HMap.displayMsgs; rw [e, List.map_append]
  · rw [List.map_eq_nil_iff, ← not_iff_not, ← ne_eq, b1]
    unfold uniformCentres
    simp
  · rw [List.map_eq_nil_iff, ← not_iff_not, ← ne_eq, b2]
    unfold cellCentres
    rw [List.flatMap_eq_nil_iff]
    push Not
    constructor
    · rintro ⟨c, hc, h1, h2, i, hi⟩
      refine ⟨c, List.mem_filter.mpr ⟨hc, by simp [h1, h2]⟩, ?_⟩
      rw [ne_eq, List.map_eq_nil_iff]
      exact List.ne_nil_of_mem (Dims.mem_all.mpr (inB_iff_spec.mpr hi))
    · rintro ⟨c, hc, h⟩
      obtain ⟨hc1, hc2⟩ := List.mem_filter.mp hc
      rw [Bool.and_eq_true, Bool.not_eq_true'] at hc2
      rw [ne_eq, List.map_eq_nil_iff] at h
      obtain ⟨i, hi⟩ := List.exists_mem_of_ne_nil _ h
      exact ⟨c, hc1, hc2.1, hc2.2, i, inB_iff_spec.mp (Dims.mem_all.mp hi)⟩
  · intro k hk
    obtain ⟨k', hk', rfl⟩ := List.mem_map.mp hk
    have h := d1 k' hk'
    refine ⟨h.frame_eq, rfl, rfl, rfl, ?_, ?_⟩
    · show List.Forall₂ _ k'.points _
      rw [h.points_eq, c1, List.forall₂_map_left_iff]
      refine List.forall₂_same.mpr fun c _ w => ?_
      rw [inCube_translation ht rfl]
      show InBox origin k'.scale c w ↔ _
      rw [h.scale_eq]
    · show k'.colors.length = _
      have := congrArg List.length c1
      rw [h.colors_eq]
      simpa using this
  · intro k hk
    obtain ⟨k', hk', rfl⟩ := List.mem_map.mp hk
    have h := d2 k' hk'
    refine ⟨h.frame_eq, rfl, rfl, rfl, ?_, ?_⟩
    · show List.Forall₂ _ k'.points _
      rw [h.points_eq, c2, List.forall₂_map_left_iff]
      refine List.forall₂_same.mpr fun c _ w => ?_
      rw [inCube_translation ht rfl]
      show InBox origin k'.scale c w ↔ _
      rw [h.scale_eq]
    · show k'.colors.length = _
      have := congrArg List.length c2
      rw [h.colors_eq]
      simpa using this

/-- The rotation with cosine 3/5 and sine 4/5 around the z axis. -/
def turn345 : Aff ℚ := ⟨⟨3 / 5, -4 / 5, 0⟩, ⟨4 / 5, 3 / 5, 0⟩, ⟨0, 0, 1⟩, ⟨0, 0, 0⟩⟩

/-- One chunk with the single cell (0, 0, 0). -/
def exChunk : HChunk := ⟨⟨0, 0, 0⟩, false, true, ⟨0, 0⟩, Grid.mk' ⟨1, 1, 1⟩ ⟨F32.one, 0⟩ ⟨0, 0⟩⟩

/-- C94 is violated: in a rotated map the display of a hashed map does not draw the cells, the cubes stay
parallel to the axes of the map's frame.  Here a point of the only cell is in no cube of any marker. -/
theorem C94_rotated_map_misdrawn :
    ∃ (origin : Aff ℚ) (loc : HChunk → Idx → V3 ℚ) (chunks : List HChunk) (w : V3 ℚ),
      (∀ p q : V3 ℚ, ((origin.app id p).x - (origin.app id q).x) ^ 2 +
        ((origin.app id p).y - (origin.app id q).y) ^ 2 + ((origin.app id p).z - (origin.app id q).z) ^ 2 =
        (p.x - q.x) ^ 2 + (p.y - q.y) ^ 2 + (p.z - q.z) ^ 2) ∧
      cellCentres loc chunks = [⟨1 / 2, 1 / 2, 1 / 2⟩] ∧
      InBox origin ⟨1, 1, 1⟩ ⟨1 / 2, 1 / 2, 1 / 2⟩ w ∧
      ∀ k ∈ HMap.displayMsgs "map" origin ⟨1, 1, 1⟩ ⟨1, 1, 1⟩ loc chunks 'c' 'f' 'u',
        ∀ q ∈ k.points, ¬ InCube k q w := by
  refine ⟨turn345, fun _ i => ⟨(i.x : ℚ) + 1 / 2, (i.y : ℚ) + 1 / 2, (i.z : ℚ) + 1 / 2⟩, [exChunk],
    ⟨3 / 5, 4 / 5, 1 / 2⟩, ?_, ?_, ?_, ?_⟩
  · intro p q; simp only [turn345, Aff.app, id]; ring
  · decide +kernel
  · exact ⟨⟨1, 0, 1 / 2⟩, by norm_num [abs_le], by norm_num [abs_le], by norm_num [abs_le],
      by ext <;> norm_num [turn345, Aff.app]⟩
  · have e : (HMap.displayMsgs "map" turn345 ⟨1, 1, 1⟩ ⟨1, 1, 1⟩
        (fun _ i => ⟨(i.x : ℚ) + 1 / 2, (i.y : ℚ) + 1 / 2, (i.z : ℚ) + 1 / 2⟩) [exChunk] 'c' 'f' 'u') =
        [⟨"map", "dynamic_spatial_hashed_collision_map_cells_display", 1, 6, 0, 0, false, Aff.identity,
          ⟨1, 1, 1⟩, [⟨-1 / 10, 7 / 10, 1 / 2⟩], ['c'], none⟩] := by
      have h : HMap.exportForDisplay "map" (⟨1, 1, 1⟩ : V3 ℚ) ⟨1, 1, 1⟩
          (fun _ i => ⟨(i.x : ℚ) + 1 / 2, (i.y : ℚ) + 1 / 2, (i.z : ℚ) + 1 / 2⟩)
          (fun p => turn345.app id p) [exChunk] 'c' 'f' 'u' =
          [⟨"map", "dynamic_spatial_hashed_collision_map_cells_display", 1, ⟨1, 1, 1⟩,
            [⟨-1 / 10, 7 / 10, 1 / 2⟩], ['c']⟩] := by decide +kernel
      unfold HMap.displayMsgs
      rw [h]; rfl
    rw [e]
    intro k hk q hq
    rw [List.mem_singleton] at hk
    subst hk
    rw [List.mem_singleton] at hq
    subst hq
    rintro ⟨u, a, _, _, ew⟩
    have ex := congrArg V3.x ew
    simp only [Aff.app, Aff.identity, id] at ex
    rw [abs_le] at a
    obtain ⟨_, a2⟩ := a
    dsimp only at a2
    linarith

/-- A translation by (1, -1, 2). -/
example : IsTranslation (⟨⟨1, 0, 0⟩, ⟨0, 1, 0⟩, ⟨0, 0, 1⟩, ⟨1, -1, 2⟩⟩ : Aff ℚ) ∧
    cellCentres (fun _ i => (⟨i.x, i.y, i.z⟩ : V3 ℚ)) [exChunk] ≠ [] := by
  refine ⟨⟨rfl, rfl, rfl⟩, ?_⟩
  decide +kernel

end C94

/-! ## C95: the generator node -/

section C95

variable {K : Type} [Field K] [LinearOrder K]

/-- C95 if the configured frame is `"base"`: both messages of a pass are in the configured frame, the
first draws the occupied cells, the second every cell.  Missing: any other configured frame, where it is false
(`C95_wrong_frame`). -/
theorem C95_base_partial [IsStrictOrderedRing K] {originFrame : String} (hf : originFrame = "base")
    (g : Grid Nat) (s : MSdf K) (ht : IsTranslation s.origin)
    (hg : ∀ i, InBounds g.dims i → g.get i = 0 ∨ g.get i = 1) :
    ∃ k1 k2 col, GenNode.published originFrame g s = some [k1, k2] ∧
      DrawsCells originFrame ⟨s.res, s.origin, s.inv⟩ g.dims (fun i => g.get i = 1)
        (fun _ => ⟨1, 0, 0, 1⟩) k1 ∧
      DrawsCells originFrame ⟨s.res, s.origin, s.inv⟩ s.grid.dims (fun _ => True) col k2 ∧
      ∀ i, InBounds s.grid.dims i → ShownAs s (s.grid.get i) (col i) := by
  obtain ⟨col, hc, hd⟩ := C93_sdf originFrame s (1 / 10)
  have e : GenNode.exportCollisionMap s.placed.location g = _ := (GenNode.C80_display _ g _).mpr ⟨hg, rfl⟩
  refine ⟨_, _, col, by unfold GenNode.published GenNode.collisionMsg; rw [e]; rfl, ?_, hd, hc⟩
  refine ⟨g.dims.all.filter fun i => g.get i == 1, List.filter_sublist, ?_, hf.symm, rfl, rfl, rfl, ?_, ?_⟩
  · intro i; rw [List.mem_filter, Dims.mem_all, inB_iff_spec, beq_iff_eq]
  · rw [List.forall₂_map_left_iff]
    refine List.forall₂_same.mpr fun i _ w => ?_
    show InCube _ (s.origin.app id (s.placed.center i)) w ↔ _
    rw [inCube_translation ht rfl]
    unfold InBox InCell
    simp only [Frame.center, axis_iff, MSdf.placed]
  · left
    simp [Function.comp_def]

/-- C95 is violated: with any other configured frame the collision map is published in a frame different from
the configured one, which is the frame of the field. -/
theorem C95_wrong_frame {originFrame : String} (hf : originFrame ≠ "base") (g : Grid Nat) (s : MSdf K)
    (hg : ∀ i, InBounds g.dims i → g.get i = 0 ∨ g.get i = 1) :
    ∃ k1 k2, GenNode.published originFrame g s = some [k1, k2] ∧ k2.frame = originFrame ∧
      k1.frame ≠ originFrame := by
  have e : GenNode.exportCollisionMap s.placed.location g = _ := (GenNode.C80_display _ g _).mpr ⟨hg, rfl⟩
  exact ⟨_, _, by unfold GenNode.published GenNode.collisionMsg; rw [e]; rfl, rfl, Ne.symm hf⟩

/-- The collision map of two cells, one occupied, satisfies the hypothesis. -/
example : (∀ i ∈ (⟨⟨2, 1, 1⟩, [1, 0], 0, 0⟩ : Grid Nat).dims.all,
    (⟨⟨2, 1, 1⟩, [1, 0], 0, 0⟩ : Grid Nat).get i = 0 ∨ (⟨⟨2, 1, 1⟩, [1, 0], 0, 0⟩ : Grid Nat).get i = 1) ∧
    (⟨⟨2, 1, 1⟩, [1, 0], 0, 0⟩ : Grid Nat).get ⟨0, 0, 0⟩ = 1 ∧ "world" ≠ "base" := by decide

end C95

/-! ## C96: namespaces -/

section C96

variable {K C : Type} [Field K]

/-- The key by which a viewer identifies a marker. -/
def Msg.key (k : Msg K C) : String × Nat := (k.ns, k.id)

theorem decimal_injective {a b : UInt32} (h : decimal a = decimal b) : a = b := by
  unfold decimal at h
  rw [Nat.toString_eq_repr, Nat.toString_eq_repr] at h
  have h' := congrArg String.toList h
  rw [Nat.toList_repr, Nat.toList_repr] at h'
  have := congrArg (fun l => Nat.ofDigitChars 10 l 0) h'
  simp only [Nat.ofDigitChars_ten_toDigits] at this
  exact UInt32.toNat_inj.mp this

theorem decimal_clean (a : UInt32) : '_' ∉ (decimal a).toList := by
  unfold decimal
  rw [Nat.toString_eq_repr, Nat.toList_repr]
  exact Nat.underscore_not_in_toDigits

theorem split_at {c : Char} : ∀ {a b x y : List Char}, c ∉ a → c ∉ b → a ++ c :: x = b ++ c :: y →
    a = b ∧ x = y
  | [], [], _, _, _, _, h => by simpa using h
  | [], b :: bs, _, _, _, hb, h => by
    simp only [List.nil_append, List.cons_append, List.cons.injEq] at h
    exact absurd (List.mem_cons.mpr (Or.inl h.1)) hb
  | a :: as, [], _, _, ha, _, h => by
    simp only [List.nil_append, List.cons_append, List.cons.injEq] at h
    exact absurd (List.mem_cons.mpr (Or.inl h.1.symm)) ha
  | a :: as, b :: bs, _, _, ha, hb, h => by
    simp only [List.cons_append, List.cons.injEq] at h
    obtain ⟨h1, h2⟩ := split_at (fun m => ha (List.mem_cons.mpr (Or.inr m)))
      (fun m => hb (List.mem_cons.mpr (Or.inr m))) h.2
    exact ⟨by rw [h.1, h1], h2⟩

/-- C96: two convex segments never share a marker: the names of their markers differ. -/
theorem C96_segments (frame frame' : String) (F F' : Frame K) (gen gen' : UInt32 → C)
    (hot hot' : UInt32 → UInt32 → C) (m m' : TMap) (o o' sg sg' : UInt32)
    (h : (m.segmentMsg frame F gen hot o sg).key = (m'.segmentMsg frame' F' gen' hot' o' sg').key) :
    o = o' ∧ sg = sg' := by
  have h1 : "tagged_object_" ++ decimal o ++ "_convex_segment_" ++ decimal sg ++ "_display" =
      "tagged_object_" ++ decimal o' ++ "_convex_segment_" ++ decimal sg' ++ "_display" :=
    congrArg Prod.fst h
  have h2 := congrArg String.toList h1
  simp only [String.toList_append, List.append_assoc] at h2
  have h3 := List.append_cancel_left h2
  obtain ⟨e1, e2⟩ := split_at (decimal_clean o) (decimal_clean o') h3
  have h4 : "convex_segment_".toList ++ ((decimal sg).toList ++ "_display".toList) =
      "convex_segment_".toList ++ ((decimal sg').toList ++ "_display".toList) := e2
  have h5 := List.append_cancel_left h4
  obtain ⟨e3, _⟩ := split_at (decimal_clean sg) (decimal_clean sg') h5
  exact ⟨decimal_injective (String.toList_inj.mp e1), decimal_injective (String.toList_inj.mp e3)⟩

theorem objectName_injective {o o' : UInt32} (h : objectName o = objectName o') : o = o' := by
  have h2 := congrArg String.toList h
  unfold objectName at h2
  simp only [String.toList_append] at h2
  exact decimal_injective (String.toList_inj.mp (List.append_cancel_left h2))

theorem nodup_keys (frame : String) (F : Frame K) {r : List (DMarker (V3 K) C)}
    (h : (r.map DMarker.ns).Nodup) : ((r.map (TMap.objectMsg frame F)).map Msg.key).Nodup := by
  rw [List.map_map]
  refine List.Nodup.of_map Prod.fst ?_
  rw [List.map_map]
  have : (r.map (Prod.fst ∘ Msg.key ∘ TMap.objectMsg (C := C) frame F)) =
      (r.map DMarker.ns).map objectName := by
    rw [List.map_map]; rfl
  rw [this]
  exact h.map fun a b e => objectName_injective e

/-- C96: the markers of one array have different names, so a viewer keeps all of them. -/
theorem C96_arrays (frame : String) (F : Frame K) (gen : UInt32 → C) (shown : C → Bool) (m : TMap) :
    (∀ objs : List UInt32, objs.length ≤ 2 ^ 32 → ∀ ks, m.uniqueMsgs frame F gen shown objs = some ks →
      (ks.map Msg.key).Nodup) ∧
    (∀ cmap : List (UInt32 × C), (cmap.map Prod.fst).Pairwise (· < ·) →
      ∀ ks, m.uniqueColorsMsgs frame F gen shown cmap = some ks → (ks.map Msg.key).Nodup) := by
  constructor
  · intro objs hlen ks hk
    obtain ⟨r, e, h⟩ := C44_list gen shown F.center m hlen
    unfold TMap.uniqueMsgs at hk
    rw [e] at hk
    obtain rfl := Option.some.inj hk
    exact nodup_keys frame F h.nodup
  · intro cmap hs ks hk
    obtain ⟨r, e, h⟩ := C44_color_map gen shown F.center m hs
    unfold TMap.uniqueColorsMsgs at hk
    rw [e] at hk
    obtain rfl := Option.some.inj hk
    exact nodup_keys frame F h.nodup

theorem decimal_start (a : UInt32) : ∃ c l, (decimal a).toList = c :: l ∧ c.isDigit = true := by
  unfold decimal
  rw [Nat.toString_eq_repr, Nat.toList_repr]
  cases h : Nat.toDigits 10 a.toNat with
  | nil => exact absurd h Nat.toDigits_ne_nil
  | cons c l =>
    exact ⟨c, l, rfl, Nat.isDigit_of_mem_toDigits (by decide) (by decide) (h ▸ List.mem_cons_self)⟩

theorem segment_name_ne (o sg : UInt32) (t : String) (ht : (t.toList.drop 14).head?.all (!·.isDigit)) :
    "tagged_object_" ++ decimal o ++ "_convex_segment_" ++ decimal sg ++ "_display" ≠ t := by
  intro e
  obtain ⟨c, l, hc, hd⟩ := decimal_start o
  rw [← e] at ht
  simp only [String.toList_append, List.append_assoc] at ht
  rw [List.drop_append_of_le_length (by decide), hc] at ht
  simp [hd] at ht

theorem object_name_ne (o : UInt32) (t : String) (ht : t.toList.take 36 ≠
    "tagged_object_collision_map_display_".toList) : objectName o ≠ t := by
  intro e
  apply ht
  rw [← e]
  unfold objectName
  rw [String.toList_append, List.take_append_of_le_length (by decide)]
  decide

/-- C96, tagged maps: displays of different kinds do not share a name. -/
theorem C96_kinds (frame : String) (F : Frame K) (gen : UInt32 → C) (shown : C → Bool) (m : TMap)
    (objs : List UInt32) (coll free unk grey : C) (cu : Bool) (hot : UInt32 → UInt32 → C)
    (object segment : UInt32) (surface : List (Idx × UInt8)) (w : DMarker (V3 K) C) :
    ([m.objectsMsg frame F gen shown objs, m.occupancyMsg frame F shown coll free unk,
      m.componentsMsg frame F gen grey cu, m.segmentMsg frame F gen hot object segment,
      TMap.surfaceMsg frame F surface coll, TMap.objectMsg frame F w].map Msg.key).Nodup := by
  refine List.Nodup.of_map Prod.fst ?_
  show (["tagged_object_collision_map_display", "tagged_object_collision_map_occupancy_display",
    "tagged_object_connected_components_display", "tagged_object_" ++ decimal object ++ "_convex_segment_" ++
      decimal segment ++ "_display", "tagged_object_collision_map_surface", objectName w.ns] : List String).Nodup
  have s := segment_name_ne object segment
  have n := object_name_ne w.ns
  have hs : "tagged_object_" ++ decimal object ++ "_convex_segment_" ++ decimal segment ++ "_display" ≠
      objectName w.ns := s _ (by
    unfold objectName
    rw [String.toList_append, List.drop_append_of_le_length (by decide)]
    rfl)
  simp only [List.nodup_cons, List.mem_cons, List.not_mem_nil, or_false, not_or, List.nodup_nil, and_true,
    not_false_eq_true]
  refine ⟨⟨by decide, by decide, (s _ (by decide)).symm, by decide, (n _ (by decide)).symm⟩,
    ⟨by decide, (s _ (by decide)).symm, by decide, (n _ (by decide)).symm⟩,
    ⟨(s _ (by decide)).symm, by decide, (n _ (by decide)).symm⟩,
    ⟨s _ (by decide), hs⟩, (n _ (by decide)).symm⟩

/-- C96, collision maps: the separate displays. -/
theorem C96_separate (frame : String) (F : Frame K) (m : CMap) (coll free unk : CMap.Colour) :
    ((m.separateMsgs frame F coll free unk ++ m.surfacesSeparateMsgs frame F coll free unk).map
      Msg.key).Nodup := by
  simp [CMap.separateMsgs, CMap.surfacesSeparateMsgs, Msg.key]

/-- C96, contour displays. -/
theorem C96_contour_arrays {R : Rounding} {F : Frame ℝ} (hres : GoodRes R F.res) (h32 : 0 < R.r32 F.res)
    (hk : KeepsLimit R F.res) (frame : String) (gen : UInt32 → C) (shown : C → Bool) (m : TMap)
    (hd : SmallGrid m.dims) :
    (∀ objs ks, m.contourUniqueMsgs R frame F gen shown objs = some ks → (ks.map Msg.key).Nodup) ∧
    (∀ cmap ks, m.contourUniqueColorsMsgs R frame F gen shown cmap = some ks →
      (ks.map Msg.key).Nodup) := by
  constructor
  · intro objs ks hk'
    obtain ⟨r, e, vis, h, _⟩ := C64_contour_by_object hres h32 hk gen shown F.center m hd objs
    unfold TMap.contourUniqueMsgs at hk'
    rw [e] at hk'
    obtain rfl := Option.some.inj hk'
    exact nodup_keys frame F h.nodup
  · intro cmap ks hk'
    obtain ⟨r, e, vis, h, _⟩ := C64_contour_colors hres h32 hk gen shown F.center m hd cmap
    unfold TMap.contourUniqueColorsMsgs at hk'
    rw [e] at hk'
    obtain rfl := Option.some.inj hk'
    exact nodup_keys frame F h.nodup

/-- C96, hashed maps. -/
theorem C96_hashed (frame : String) (origin : Aff K) (chunkSize cellSize : V3 K) (loc : HChunk → Idx → V3 K)
    (chunks : List HChunk) (coll free unk : C) :
    ((HMap.displayMsgs frame origin chunkSize cellSize loc chunks coll free unk).map Msg.key).Nodup := by
  obtain ⟨big, small, e, l1, l2, _, _, d1, d2⟩ := C75_display frame chunkSize cellSize loc
    (fun p => origin.app id p) coll free unk chunks
  unfold HMap.displayMsgs
  rw [e]
  match big, small with
  | [], [] => simp
  | [a], [] => simp
  | [], [b] => simp
  | [a], [b] =>
    have ha := (d1 a (by simp)).ns_eq
    have hb := (d2 b (by simp)).ns_eq
    simp [Msg.key, HMap.asMsg, ha, hb]
  | _ :: _ :: _, _ => simp at l1
  | _, _ :: _ :: _ => simp at l2

end C96

/-! ## C97: publishing again -/

section C97

variable {K C : Type} [Field K]

/-- What a viewer shows, by namespace and number (contract of the viewer: a marker to be added replaces the
one with the same namespace and number, and stays). -/
abbrev Viewer (K C : Type) : Type := String × Nat → Option (Msg K C)

/-- A viewer receives one message. -/
def Viewer.add (v : Viewer K C) (k : Msg K C) : Viewer K C := fun key => if key = k.key then some k else v key

/-- A viewer receives messages, oldest first. -/
def Viewer.receive (v : Viewer K C) (ks : List (Msg K C)) : Viewer K C := ks.foldl Viewer.add v

theorem Viewer.receive_append (v : Viewer K C) (a b : List (Msg K C)) :
    v.receive (a ++ b) = (v.receive a).receive b := List.foldl_append ..

theorem Viewer.receive_other (ks : List (Msg K C)) : ∀ (v : Viewer K C) {key : String × Nat},
    (∀ k ∈ ks, k.key ≠ key) → v.receive ks key = v key := by
  induction ks with
  | nil => intro v key _; rfl
  | cons a l ih =>
    intro v key h
    show Viewer.receive (Viewer.add v a) l key = _
    rw [ih _ fun k hk => h k (List.mem_cons_of_mem _ hk)]
    exact if_neg fun e => h a List.mem_cons_self e.symm

theorem Viewer.receive_cover (ks : List (Msg K C)) : ∀ (v v' : Viewer K C) {key : String × Nat},
    (∃ k ∈ ks, k.key = key) → v.receive ks key = v'.receive ks key := by
  induction ks with
  | nil => rintro v v' key ⟨k, hk, _⟩; simp at hk
  | cons a l ih =>
    intro v v' key h
    show Viewer.receive (Viewer.add v a) l key = Viewer.receive (Viewer.add v' a) l key
    by_cases hl : ∃ k ∈ l, k.key = key
    · exact ih _ _ hl
    · push Not at hl
      rw [Viewer.receive_other l _ hl, Viewer.receive_other l _ hl]
      obtain ⟨k, hk, e⟩ := h
      rcases List.mem_cons.mp hk with rfl | hk
      · simp [Viewer.add, e]
      · exact absurd e (hl k hk)

/-- If the last messages carry every name used before, the earlier messages leave no trace. -/
theorem Viewer.forget (v : Viewer K C) (hist last : List (Msg K C))
    (h : ∀ k ∈ hist, ∃ k' ∈ last, k'.key = k.key) : v.receive (hist ++ last) = v.receive last := by
  rw [Viewer.receive_append]
  funext key
  by_cases hc : ∃ k ∈ last, k.key = key
  · exact Viewer.receive_cover last _ _ hc
  · push Not at hc
    rw [Viewer.receive_other last _ hc, Viewer.receive_other last _ hc, Viewer.receive_other]
    intro k hk e
    obtain ⟨k', hk', e'⟩ := h k hk
    exact hc k' hk' (e'.trans e)

/-- C97 for displays of signed distance fields: whatever fields were displayed before, the viewer shows the
last one only. -/
theorem C97_sdf [LinearOrder K] (v : Viewer K (Rgba K)) (hist : List (String × MSdf K × K)) (frame : String)
    (s : MSdf K) (alpha : K) :
    v.receive (hist.map (fun e => e.2.1.displayMsg e.1 e.2.2) ++ [s.displayMsg frame alpha]) =
      v.receive [s.displayMsg frame alpha] ∧
    v.receive (hist.map (fun e => e.2.1.collisionMsg e.1 e.2.2) ++ [s.collisionMsg frame alpha]) =
      v.receive [s.collisionMsg frame alpha] := by
  constructor <;> refine v.forget _ _ fun k hk => ⟨_, List.mem_singleton.mpr rfl, ?_⟩ <;>
    (obtain ⟨e, _, rfl⟩ := List.mem_map.mp hk; rfl)

/-- The arguments of a display of a collision map. -/
structure CShow (K : Type) where
  frame : String
  placed : Frame K
  map : CMap
  coll : CMap.Colour
  free : CMap.Colour
  unk : CMap.Colour

/-- C97 for displays of collision maps. -/
theorem C97_collision_map (v : Viewer K CMap.Colour) (hist : List (CShow K)) (a : CShow K)
    (E : CShow K → List (Msg K CMap.Colour))
    (hE : E ∈ [fun a => [a.map.displayMsg a.frame a.placed a.coll a.free a.unk],
      fun a => a.map.separateMsgs a.frame a.placed a.coll a.free a.unk,
      fun a => [a.map.surfacesMsg a.frame a.placed a.coll a.free a.unk],
      fun a => a.map.surfacesSeparateMsgs a.frame a.placed a.coll a.free a.unk]) :
    v.receive (hist.flatMap E ++ E a) = v.receive (E a) := by
  refine v.forget _ _ fun k hk => ?_
  obtain ⟨e, _, hk⟩ := List.mem_flatMap.mp hk
  simp only [List.mem_cons, List.not_mem_nil, or_false] at hE
  rcases hE with rfl | rfl | rfl | rfl <;>
    simp only [CMap.separateMsgs, CMap.surfacesSeparateMsgs, List.mem_cons, List.not_mem_nil, or_false] at hk
  · subst hk; exact ⟨_, List.mem_singleton.mpr rfl, rfl⟩
  · rcases hk with rfl | rfl | rfl
    · exact ⟨_, List.mem_cons_self, rfl⟩
    · exact ⟨_, List.mem_cons_of_mem _ List.mem_cons_self, rfl⟩
    · exact ⟨_, List.mem_cons_of_mem _ (List.mem_cons_of_mem _ List.mem_cons_self), rfl⟩
  · subst hk; exact ⟨_, List.mem_singleton.mpr rfl, rfl⟩
  · rcases hk with rfl | rfl | rfl
    · exact ⟨_, List.mem_cons_self, rfl⟩
    · exact ⟨_, List.mem_cons_of_mem _ List.mem_cons_self, rfl⟩
    · exact ⟨_, List.mem_cons_of_mem _ (List.mem_cons_of_mem _ List.mem_cons_self), rfl⟩

/-- The arguments of a display of a tagged map. -/
structure TShow (K C : Type) where
  frame : String
  placed : Frame K
  map : TMap
  gen : UInt32 → C
  hot : UInt32 → UInt32 → C
  shown : C → Bool
  objs : List UInt32
  colours : List (UInt32 × C)
  coll : C
  free : C
  unk : C
  all : Bool

/-- C97 for the displays of tagged maps in a single marker. -/
theorem C97_tagged (v : Viewer K C) (object segment : UInt32) (hist : List (TShow K C)) (a : TShow K C)
    (E : TShow K C → Msg K C)
    (hE : E ∈ [fun a => a.map.objectsMsg a.frame a.placed a.gen a.shown a.objs,
      fun a => a.map.colorsMsg a.frame a.placed a.gen a.shown a.colours,
      fun a => a.map.occupancyMsg a.frame a.placed a.shown a.coll a.free a.unk,
      fun a => a.map.componentsMsg a.frame a.placed a.gen a.unk a.all,
      fun a => a.map.segmentMsg a.frame a.placed a.gen a.hot object segment]) :
    v.receive (hist.map E ++ [E a]) = v.receive [E a] := by
  refine v.forget _ _ fun k hk => ⟨_, List.mem_singleton.mpr rfl, ?_⟩
  obtain ⟨e, _, rfl⟩ := List.mem_map.mp hk
  simp only [List.mem_cons, List.not_mem_nil, or_false] at hE
  rcases hE with rfl | rfl | rfl | rfl | rfl <;> rfl

/-- C97 for the component display of collision maps and the surface display of tagged maps. -/
theorem C97_components_and_surfaces (v : Viewer K CMap.Colour) (w : Viewer K C) :
    (∀ (hist : List (String × Frame K × CMap × (UInt32 → CMap.Colour) × CMap.Colour × Bool)) (frame : String)
      (F : Frame K) (m : CMap) (gen : UInt32 → CMap.Colour) (grey : CMap.Colour) (cu : Bool),
      v.receive (hist.map (fun e => e.2.2.1.componentsMsg e.1 e.2.1 e.2.2.2.1 e.2.2.2.2.1 e.2.2.2.2.2) ++
        [m.componentsMsg frame F gen grey cu]) = v.receive [m.componentsMsg frame F gen grey cu]) ∧
    (∀ (hist : List (String × Frame K × List (Idx × UInt8) × C)) (frame : String) (F : Frame K)
      (s : List (Idx × UInt8)) (c : C),
      w.receive (hist.map (fun e => TMap.surfaceMsg e.1 e.2.1 e.2.2.1 e.2.2.2) ++
        [TMap.surfaceMsg frame F s c]) = w.receive [TMap.surfaceMsg frame F s c]) := by
  constructor
  · intro hist frame F m gen grey cu
    refine v.forget _ _ fun k hk => ⟨_, List.mem_singleton.mpr rfl, ?_⟩
    obtain ⟨e, _, rfl⟩ := List.mem_map.mp hk
    rfl
  · intro hist frame F s c
    refine w.forget _ _ fun k hk => ⟨_, List.mem_singleton.mpr rfl, ?_⟩
    obtain ⟨e, _, rfl⟩ := List.mem_map.mp hk
    rfl

/-- C97 for displays with one marker per object, if every object shown before is shown again.  Missing: an
object that is no longer shown stays in the viewer (`C97_stale_object`). -/
theorem C97_by_object_partial (v : Viewer K C) (frame : String) (F : Frame K) (gen : UInt32 → C)
    (shown : C → Bool) (m : TMap) {objs : List UInt32} (hlen : objs.length ≤ 2 ^ 32)
    {hist ks : List (Msg K C)} (hk : m.uniqueMsgs frame F gen shown objs = some ks)
    (hh : ∀ k ∈ hist, k.id = 1 ∧ ∃ i, InBounds m.dims i ∧ k.ns = objectName (objAt m i) ∧
      (objAt m i ∈ objs ∨ (objs = [] ∧ objAt m i ≠ 0)) ∧ shown (gen (objAt m i)) = true) :
    v.receive (hist ++ ks) = v.receive ks := by
  obtain ⟨r, e, h⟩ := C44_list gen shown F.center m hlen
  unfold TMap.uniqueMsgs at hk
  rw [e] at hk
  obtain rfl := Option.some.inj hk
  refine v.forget _ _ fun k hk => ?_
  obtain ⟨h1, i, hi, h2, hv⟩ := hh k hk
  obtain ⟨w, hw, ew⟩ := h.complete i hi hv
  refine ⟨_, List.mem_map.mpr ⟨w, hw, rfl⟩, ?_⟩
  show (objectName w.ns, 1) = (k.ns, k.id)
  rw [h1, h2, ew]

end C97

/-- C97 is violated by the displays with one marker per object: `exDisplay` with objects 7 and 9 is displayed,
object 9 is then removed from the map and the map displayed again; the viewer still shows the cubes of
object 9. -/
theorem C97_stale_object :
    ∃ (m m' : TMap) (ks ks' : List (Msg ℚ UInt32)) (old : Msg ℚ UInt32),
      m' = m.run [.setValue ⟨0, 1, 0⟩ (TCell.ofObj 0 0), .setValue ⟨1, 1, 0⟩ (TCell.ofObj 0 0)] ∧
      (∀ i, InBounds m'.dims i → objAt m' i ≠ 9) ∧
      m.uniqueMsgs "map" exFrame (fun o => o) (fun _ => true) [] = some ks ∧
      m'.uniqueMsgs "map" exFrame (fun o => o) (fun _ => true) [] = some ks' ∧
      Viewer.receive (fun _ => none) (ks ++ ks') (objectName 9, 1) = some old ∧
      old.points.length = 2 ∧ old.colors = [9, 9] := by
  have h1 : exDisplay.exportUnique (fun o => o) (fun _ => true) exFrame.center [] =
      some [⟨9, [exFrame.center ⟨0, 1, 0⟩, exFrame.center ⟨1, 1, 0⟩], [9, 9]⟩,
        ⟨7, [exFrame.center ⟨1, 0, 0⟩], [7]⟩] := by decide +kernel
  have h2 : (exDisplay.run [.setValue ⟨0, 1, 0⟩ (TCell.ofObj 0 0),
      .setValue ⟨1, 1, 0⟩ (TCell.ofObj 0 0)]).exportUnique (fun o => o) (fun _ => true) exFrame.center [] =
      some [⟨7, [exFrame.center ⟨1, 0, 0⟩], [7]⟩] := by decide +kernel
  refine ⟨exDisplay, _, _, _, TMap.objectMsg "map" exFrame
    ⟨9, [exFrame.center ⟨0, 1, 0⟩, exFrame.center ⟨1, 1, 0⟩], [9, 9]⟩, rfl, ?_,
    by unfold TMap.uniqueMsgs; rw [h1]; rfl, by unfold TMap.uniqueMsgs; rw [h2]; rfl, ?_, rfl, rfl⟩
  · intro i hi
    have hm := Dims.mem_all.mpr (inB_iff_spec.mpr hi)
    have hall : ∀ i ∈ (exDisplay.run [.setValue ⟨0, 1, 0⟩ (TCell.ofObj 0 0),
        .setValue ⟨1, 1, 0⟩ (TCell.ofObj 0 0)]).dims.all,
        objAt (exDisplay.run [.setValue ⟨0, 1, 0⟩ (TCell.ofObj 0 0),
          .setValue ⟨1, 1, 0⟩ (TCell.ofObj 0 0)]) i ≠ 9 := by decide +kernel
    exact hall i hm
  · have n : objectName 9 ≠ objectName 7 := fun e => absurd (objectName_injective e) (by decide)
    have k9 : ∀ w : DMarker (V3 ℚ) UInt32, (TMap.objectMsg "map" exFrame w).key = (objectName w.ns, 1) :=
      fun _ => rfl
    simp only [List.map_cons, List.map_nil, List.cons_append, List.nil_append, Viewer.receive,
      Viewer.add, List.foldl_cons, List.foldl_nil, k9, Prod.mk.injEq, n, and_true, if_false, if_true]

/-- One uniform chunk. -/
def exUniform : HChunk := ⟨⟨0, 0, 0⟩, true, false, ⟨F32.one, 0⟩, Grid.mk' ⟨1, 1, 1⟩ ⟨0, 0⟩ ⟨0, 0⟩⟩

/-- C97 is violated by the display of hashed maps: once the last uniform chunk has been split into cells, the
display has no marker for chunks, and the viewer still shows the chunk. -/
theorem C97_stale_chunk :
    ∃ (before after : List HChunk) (old : Msg ℚ Char), uniformCentres (K := ℚ) (fun _ _ => ⟨0, 0, 0⟩) after = [] ∧
      Viewer.receive (fun _ => none)
        (HMap.displayMsgs "map" Aff.identity ⟨4, 4, 4⟩ ⟨1, 1, 1⟩ (fun _ _ => ⟨0, 0, 0⟩) before 'c' 'f' 'u' ++
          HMap.displayMsgs "map" Aff.identity ⟨4, 4, 4⟩ ⟨1, 1, 1⟩ (fun _ _ => ⟨0, 0, 0⟩) after 'c' 'f' 'u')
        ("dynamic_spatial_hashed_collision_map_chunks_display", 1) = some old ∧
      old.points.length = 1 ∧ old.colors = ['c'] ∧ old.scale = (⟨4, 4, 4⟩ : V3 ℚ) := by
  have h1 : HMap.exportForDisplay "map" (⟨4, 4, 4⟩ : V3 ℚ) ⟨1, 1, 1⟩ (fun _ _ => ⟨0, 0, 0⟩)
      (fun p => Aff.identity.app id p) [exUniform] 'c' 'f' 'u' =
      [⟨"map", "dynamic_spatial_hashed_collision_map_chunks_display", 1, ⟨4, 4, 4⟩, [⟨0, 0, 0⟩], ['c']⟩] := by
    decide +kernel
  have h2 : HMap.exportForDisplay "map" (⟨4, 4, 4⟩ : V3 ℚ) ⟨1, 1, 1⟩ (fun _ _ => ⟨0, 0, 0⟩)
      (fun p => Aff.identity.app id p) [exChunk] 'c' 'f' 'u' =
      [⟨"map", "dynamic_spatial_hashed_collision_map_cells_display", 1, ⟨1, 1, 1⟩, [⟨0, 0, 0⟩], ['c']⟩] := by
    decide +kernel
  refine ⟨[exUniform], [exChunk], HMap.asMsg
    ⟨"map", "dynamic_spatial_hashed_collision_map_chunks_display", 1, ⟨4, 4, 4⟩, [⟨0, 0, 0⟩], ['c']⟩,
    by decide +kernel, ?_, rfl, rfl, rfl⟩
  unfold HMap.displayMsgs
  rw [h1, h2]
  simp [Viewer.receive, Viewer.add, Msg.key, HMap.asMsg]

/-- The full and the contour display of a map use the same name: showing one hides the other. -/
theorem C97_contour_hides_full {R : Rounding} {C : Type} {F : Frame ℝ} (hres : GoodRes R F.res)
    (h32 : 0 < R.r32 F.res) (hk : KeepsLimit R F.res) (frame : String) (gen : UInt32 → C)
    (shown : C → Bool) (m : TMap) (hd : SmallGrid m.dims) (objs : List UInt32) (v : Viewer ℝ C) :
    ∃ k, m.contourMsg R frame F gen shown objs = some k ∧
      v.receive [m.objectsMsg frame F gen shown objs, k] = v.receive [k] := by
  obtain ⟨r, e, _⟩ := C64_contour hres h32 hk gen shown F.center m hd objs
  refine ⟨_, by unfold TMap.contourMsg; rw [e]; rfl, ?_⟩
  exact v.forget [_] [_] fun k hk => ⟨_, List.mem_singleton.mpr rfl, by
    rw [List.mem_singleton] at hk; subst hk; rfl⟩

/-- Object 7 shown twice with different colours: the second picture replaces the first. -/
example : ∃ ks, exDisplay.uniqueMsgs "map" exFrame (fun o => o) (fun _ => true) [7] = some ks ∧
    ks.map (fun k => (k.colors, k.id)) = [([7], 1)] := by
  have h : exDisplay.exportUnique (fun o => o) (fun _ => true) exFrame.center [7] =
      some [⟨7, [exFrame.center ⟨1, 0, 0⟩], [7]⟩] := by decide +kernel
  exact ⟨_, by unfold TMap.uniqueMsgs; rw [h]; rfl, rfl⟩

end Verif
