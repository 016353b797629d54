import Verif.Markers
import Verif.Props.Located
import Verif.Props.SdfDisplay
import Verif.Props.CMapExports
import Verif.Props.TaggedDisplay
import Verif.Props.TaggedExports
import Verif.Props.Hashed
import Verif.Props.GenNode
import Mathlib.Tactic.Linarith
import Mathlib.Tactic.NormNum

/-!
# C93: the cubes in a display are the cells of the map
-/

namespace Verif

open Spec

/-! ## Specification -/

section spec

variable {K C : Type} [Field K] [LinearOrder K]

/-- The point `w` of the marker's frame is in the cube that a viewer draws for the listed point `q`. -/
def InCube (k : Msg K C) (q w : V3 K) : Prop :=
  ∃ u : V3 K, |u.x - q.x| ≤ k.scale.x / 2 ∧ |u.y - q.y| ≤ k.scale.y / 2 ∧ |u.z - q.z| ≤ k.scale.z / 2 ∧
    w = k.pose.app id u

/-- The point `w` of the map's frame is in the cell `i` of a map with cells of size `F.res`, whose grid frame
is placed by `F.origin`. -/
def InCell (F : Frame K) (i : Idx) (w : V3 K) : Prop :=
  ∃ u : V3 K, ((i.x : K) * F.res ≤ u.x ∧ u.x ≤ ((i.x : K) + 1) * F.res) ∧
    ((i.y : K) * F.res ≤ u.y ∧ u.y ≤ ((i.y : K) + 1) * F.res) ∧
    ((i.z : K) * F.res ≤ u.z ∧ u.z ≤ ((i.z : K) + 1) * F.res) ∧ w = F.origin.app id u

/-- The colours of the cubes of a marker: one each, or the colour of the marker for all of them. -/
def Coloured (k : Msg K C) (cols : List C) : Prop :=
  k.colors = cols ∨ (k.colors = [] ∧ ∃ c, k.color = some c ∧ ∀ x ∈ cols, x = c)

/-- The marker is a list of cubes, to be added and kept, in the given frame; its cubes are the listed cells,
in that order, in the given colours. -/
structure DrawsList (frame : String) (F : Frame K) (cells : List Idx) (col : Idx → C) (k : Msg K C) :
    Prop where
  frame_eq : k.frame = frame
  cubes : k.type = 6
  added : k.action = 0
  kept : k.lifetime = 0
  regions : List.Forall₂ (fun q i => ∀ w, InCube k q w ↔ InCell F i w) k.points cells
  coloured : Coloured k (cells.map col)

/-- The marker draws exactly the cells of the grid for which `vis` holds, each of them once. -/
def DrawsCells (frame : String) (F : Frame K) (d : Dims) (vis : Idx → Prop) (col : Idx → C)
    (k : Msg K C) : Prop :=
  ∃ cells : List Idx, cells.Sublist d.all ∧ (∀ i, i ∈ cells ↔ InBounds d i ∧ vis i) ∧
    DrawsList frame F cells col k

end spec

/-! ## Cubes are cells -/

section cubes

variable {K C : Type} [Field K] [LinearOrder K] [IsStrictOrderedRing K]

theorem axis_iff (r a u : K) : |u - (a + 1 / 2) * r| ≤ r / 2 ↔ a * r ≤ u ∧ u ≤ (a + 1) * r := by
  rw [abs_le]
  constructor
  · rintro ⟨h1, h2⟩; constructor <;> linarith
  · rintro ⟨h1, h2⟩; constructor <;> linarith

theorem cube_center (F : Frame K) (k : Msg K C) (hp : k.pose = F.origin)
    (hs : k.scale = ⟨F.res, F.res, F.res⟩) (i : Idx) (w : V3 K) :
    InCube k (F.center i) w ↔ InCell F i w := by
  unfold InCube InCell
  rw [hp, hs]
  simp only [Frame.center, axis_iff]

theorem drawsList_of (frame : String) (F : Frame K) (cells : List Idx) (col : Idx → C)
    {k : Msg K C} (hf : k.frame = frame) (ht : k.type = 6) (ha : k.action = 0) (hl : k.lifetime = 0)
    (hp : k.pose = F.origin) (hs : k.scale = ⟨F.res, F.res, F.res⟩)
    (hq : k.points = cells.map F.center) (hc : Coloured k (cells.map col)) :
    DrawsList frame F cells col k := by
  refine ⟨hf, ht, ha, hl, ?_, hc⟩
  rw [hq, List.forall₂_map_left_iff]
  exact List.forall₂_same.mpr fun i _ w => cube_center F k hp hs i w

theorem drawsList_fill (frame : String) (F : Frame K) (ns : String) (cells : List Idx) (col : Idx → C)
    {r : List (V3 K) × List C} (h1 : r.1 = cells.map F.center) (h2 : r.2 = cells.map col) :
    DrawsList frame F cells col ((Msg.start frame F ns).fill r) :=
  drawsList_of frame F cells col rfl rfl rfl rfl rfl rfl h1 (Or.inl h2)

end cubes

/-! ## C93 -/

section C93

variable {K : Type} [Field K] [LinearOrder K] [IsStrictOrderedRing K]

/-- C93, signed distance fields: the display draws every cell of the field. -/
theorem C93_sdf (frame : String) (s : MSdf K) (alpha : K) :
    ∃ col : Idx → Rgba K, (∀ i, InBounds s.grid.dims i → ShownAs s (s.grid.get i) (col i)) ∧
      DrawsCells frame ⟨s.res, s.origin, s.inv⟩ s.grid.dims (fun _ => True) col
        (s.displayMsg frame alpha) := by
  obtain ⟨col, e, h⟩ := C46_display s alpha
  refine ⟨col, fun i hi => (h i hi).1, s.grid.dims.all, List.Sublist.refl _, ?_, ?_⟩
  · intro i; rw [Dims.mem_all, inB_iff_spec]; simp
  · unfold MSdf.displayMsg
    exact drawsList_fill frame s.placed _ _ col (by rw [e]; rfl) (by rw [e])

/-- C93, signed distance fields: the collision display draws the cells with a distance of at most zero, in
one colour. -/
theorem C93_sdf_collision (frame : String) (s : MSdf K) (alpha : K) :
    DrawsCells frame ⟨s.res, s.origin, s.inv⟩ s.grid.dims (fun i => s.grid.get i ≤ 0)
      (fun _ => ⟨1, 0, 0, alpha⟩) (s.collisionMsg frame alpha) := by
  have e := C56_collision_only s alpha
  refine ⟨_, List.filter_sublist (p := fun i => decide (s.grid.get i ≤ 0)), ?_,
    drawsList_of frame s.placed _ _ rfl rfl rfl rfl rfl rfl ?_ ?_⟩
  · intro i; rw [List.mem_filter, Dims.mem_all, inB_iff_spec]; simp
  · show (s.exportCollisionOnly alpha).1 = _
    rw [e]; rfl
  · right
    refine ⟨rfl, ⟨1, 0, 0, alpha⟩, ?_, ?_⟩
    · show some (s.exportCollisionOnly alpha).2 = _
      rw [e]
    · intro x hx
      obtain ⟨_, _, rfl⟩ := List.mem_map.mp hx
      rfl

theorem cmap_draws (frame : String) (F : Frame K) (ns : String) (d : Dims) (vis : Idx → Prop)
    (col : Idx → CMap.Colour) {k : CMap.Marker} (h1 : k.points.Sublist d.all)
    (h2 : ∀ i, i ∈ k.points ↔ InBounds d i ∧ vis i) (h3 : k.colours = k.points.map col) :
    DrawsCells frame F d vis col (CMap.asMsg frame F ns k) :=
  ⟨k.points, h1, h2, drawsList_fill frame F ns _ col rfl h3⟩

/-- C93, collision maps: the display draws the cells whose class has a visible colour, in that colour. -/
theorem C93_collision_map (frame : String) (F : Frame K) (m : CMap) (coll free unk : CMap.Colour) :
    DrawsCells frame F m.dims (fun i => (colourOf coll free unk (classOf m i)).visible = true)
      (fun i => colourOf coll free unk (classOf m i)) (m.displayMsg frame F coll free unk) := by
  have h := C45_export_for_display m coll free unk
  dsimp only at h
  refine cmap_draws frame F _ m.dims _ _ ?_ ?_ (by rw [h.2, h.1])
  · rw [h.1]; exact List.filter_sublist
  · intro i; rw [h.1, List.mem_filter, Dims.mem_all, inB_iff_spec]

omit [IsStrictOrderedRing K] in
theorem DrawsCells.congr {C : Type} {frame : String} {F : Frame K} {d : Dims} {vis vis' : Idx → Prop}
    {col col' : Idx → C} {k : Msg K C} (h : DrawsCells frame F d vis col k)
    (hv : ∀ i, InBounds d i → (vis i ↔ vis' i)) (hc : ∀ i, InBounds d i → vis i → col i = col' i) :
    DrawsCells frame F d vis' col' k := by
  obtain ⟨cells, h1, h2, h3⟩ := h
  refine ⟨cells, h1, fun i => ?_, h3.1, h3.2, h3.3, h3.4, h3.5, ?_⟩
  · rw [h2]; exact and_congr_right (hv i)
  · rw [← List.map_congr_left (f := col) fun i hi => hc i ((h2 i).mp hi).1 ((h2 i).mp hi).2]
    exact h3.6

omit [IsStrictOrderedRing K] in
theorem DrawsCells.rename {C : Type} {frame : String} {F : Frame K} {d : Dims} {vis : Idx → Prop}
    {col : Idx → C} {k : Msg K C} (h : DrawsCells frame F d vis col k) (ns : String) :
    DrawsCells frame F d vis col { k with ns := ns } := by
  obtain ⟨cells, h1, h2, h3⟩ := h
  exact ⟨cells, h1, h2, h3.1, h3.2, h3.3, h3.4, h3.5, h3.6⟩

/-- C93, collision maps: of the three separate displays, the first draws the filled cells, the second the
free cells and the third the unknown cells. -/
theorem C93_separate (frame : String) (F : Frame K) (m : CMap) (coll free unk : CMap.Colour) :
    ∃ a b c, m.separateMsgs frame F coll free unk = [a, b, c] ∧
      DrawsCells frame F m.dims (fun i => classOf m i = .filled ∧ coll.visible = true) (fun _ => coll) a ∧
      DrawsCells frame F m.dims (fun i => classOf m i = .free ∧ free.visible = true) (fun _ => free) b ∧
      DrawsCells frame F m.dims (fun i => classOf m i = .unknown ∧ unk.visible = true) (fun _ => unk) c := by
  refine ⟨_, _, _, rfl, ?_, ?_, ?_⟩ <;>
    refine ((C93_collision_map frame F m _ _ _).congr ?_ ?_).rename _ <;>
    intro i _ <;> cases classOf m i <;> simp [colourOf, CMap.noColour]

/-- C93, collision maps: the surface display draws the cells with a visible colour that touch a cell of
another class. -/
theorem C93_surfaces (frame : String) (F : Frame K) (m : CMap) (coll free unk : CMap.Colour)
    (hnan : ∀ i, InBounds m.dims i → ((m.getImm i).1).occ.isNaN = false) :
    DrawsCells frame F m.dims (fun i => (colourOf coll free unk (classOf m i)).visible = true ∧
        ∃ j, InBounds m.dims j ∧ Touch i j ∧ classOf m j ≠ classOf m i)
      (fun i => colourOf coll free unk (classOf m i)) (m.surfacesMsg frame F coll free unk) := by
  obtain ⟨h1, h2, h3⟩ := C52_surface_export m coll free unk hnan
  refine cmap_draws frame F _ m.dims _ _ (h2.trans List.filter_sublist) ?_ h1
  intro i
  rw [h3, List.mem_filter, Dims.mem_all, inB_iff_spec, and_assoc]

/-- C93, collision maps: the three separate surface displays. -/
theorem C93_separate_surfaces (frame : String) (F : Frame K) (m : CMap) (coll free unk : CMap.Colour)
    (hnan : ∀ i, InBounds m.dims i → ((m.getImm i).1).occ.isNaN = false) :
    ∃ a b c, m.surfacesSeparateMsgs frame F coll free unk = [a, b, c] ∧
      ∀ k cl col, (k, cl, col) ∈ [(a, CellClass.filled, coll), (b, CellClass.free, free),
          (c, CellClass.unknown, unk)] →
        DrawsCells frame F m.dims (fun i => classOf m i = cl ∧ col.visible = true ∧
          ∃ j, InBounds m.dims j ∧ Touch i j ∧ classOf m j ≠ cl) (fun _ => col) k := by
  refine ⟨_, _, _, rfl, ?_⟩
  intro k cl col hk
  simp only [List.mem_cons, Prod.mk.injEq, List.not_mem_nil, or_false] at hk
  rcases hk with ⟨rfl, rfl, rfl⟩ | ⟨rfl, rfl, rfl⟩ | ⟨rfl, rfl, rfl⟩ <;>
    refine ((C93_surfaces frame F m _ _ _ hnan).congr ?_ ?_).rename _ <;>
    intro i _ <;> cases hcl : classOf m i <;> simp [colourOf, CMap.noColour]

/-- C93, collision maps: the component display draws every cell. -/
theorem C93_components (frame : String) (F : Frame K) (m : CMap) (gen : UInt32 → CMap.Colour)
    (grey : CMap.Colour) (cu : Bool) :
    DrawsCells frame F m.dims (fun _ => True) (fun i =>
      if ((m.getImm i).1).occ = F32.half ∧ cu = false then grey else gen ((m.getImm i).1).comp)
      (m.componentsMsg frame F gen grey cu) := by
  obtain ⟨h1, h2⟩ := C45_component_display m gen grey cu
  refine cmap_draws frame F _ m.dims _ _ (by rw [h1]) ?_ (by rw [h2, h1])
  intro i; rw [h1, Dims.mem_all, inB_iff_spec]; simp

theorem tmap_draws {C : Type} (frame : String) (F : Frame K) (ns : String) (m : TMap) {vis : Idx → Prop}
    {col : Idx → C} {r : List (V3 K) × List C} (h : ShowsCells m vis col F.center r) :
    DrawsCells frame F m.dims vis col ((Msg.start frame F ns).fill r) := by
  obtain ⟨cells, h1, h2, h3, h4⟩ := h
  exact ⟨cells, h1, h2, drawsList_fill frame F ns cells col h3 h4⟩

/-- C93, tagged maps: the displays in a single marker. -/
theorem C93_tagged {C : Type} (frame : String) (F : Frame K) (gen : UInt32 → C) (shown : C → Bool)
    (m : TMap) :
    (∀ objs, DrawsCells frame F m.dims
      (fun i => (objs = [] ∨ objAt m i ∈ objs) ∧ shown (gen (objAt m i)) = true)
      (fun i => gen (objAt m i)) (m.objectsMsg frame F gen shown objs)) ∧
    (∀ cmap, DrawsCells frame F m.dims (fun i => shown (chosenColor gen cmap (objAt m i)) = true)
      (fun i => chosenColor gen cmap (objAt m i)) (m.colorsMsg frame F gen shown cmap)) ∧
    (∀ grey cu, DrawsCells frame F m.dims (fun _ => True)
      (fun i => if (m.getImm i).1.occ.eqHalf = true ∧ cu = false then grey else gen (m.getImm i).1.comp)
      (m.componentsMsg frame F gen grey cu)) ∧
    (∀ hot object segment, ∃ c, DrawsCells frame F m.dims
      (fun i => (m.getImm i).1.obj = object ∧ (m.getImm i).1.seg = segment) (fun _ => c)
      (m.segmentMsg frame F gen hot object segment)) := by
  refine ⟨fun objs => tmap_draws frame F _ m (C63_objects gen shown F.center m objs),
    fun cmap => tmap_draws frame F _ m (C63_color_map gen shown F.center m cmap),
    fun grey cu => tmap_draws frame F _ m (C63_components gen grey F.center m cu), ?_⟩
  intro hot o sg
  obtain ⟨c, h⟩ := C63_segment gen hot F.center m o sg
  exact ⟨c, tmap_draws frame F _ m h⟩

/-- C93, tagged maps: the occupancy display. -/
theorem C93_occupancy {C : Type} (frame : String) (F : Frame K) (shown : C → Bool) (m : TMap)
    (collision free unknown : C) :
    ∃ col : Idx → C, (∀ i, ((m.getImm i).1.occ.gtHalf = true → col i = collision) ∧
        ((m.getImm i).1.occ.ltHalf = true → col i = free) ∧
        ((m.getImm i).1.occ.gtHalf = false → (m.getImm i).1.occ.ltHalf = false → col i = unknown)) ∧
      DrawsCells frame F m.dims (fun i => shown (col i) = true) col
        (m.occupancyMsg frame F shown collision free unknown) := by
  obtain ⟨col, h1, h2⟩ := C63_occupancy shown F.center m collision free unknown
  exact ⟨col, h1, tmap_draws frame F _ m h2⟩

/-- C93, tagged maps: the display of a given surface draws its valid cells. -/
theorem C93_surface {C : Type} (frame : String) (F : Frame K) (surface : List (Idx × UInt8)) (colour : C) :
    DrawsList frame F ((surface.filter fun e => e.2 == 1).map Prod.fst) (fun _ => colour)
      (TMap.surfaceMsg frame F surface colour) := by
  obtain ⟨h1, h2, _⟩ := C78_surface_display F.center surface colour
  refine drawsList_fill frame F _ _ _ ?_ ?_
  · rw [h1, List.map_map]; rfl
  · rw [h2, h1, List.map_const']; simp

/-- The namespace of the marker of an object. -/
def objectName (o : UInt32) : String := "tagged_object_collision_map_display_" ++ toString o.toNat

/-- The markers show the cells `vis`, one marker per object, named after it. -/
structure DrawsObjects {C : Type} (frame : String) (F : Frame K) (m : TMap) (vis : Idx → Prop)
    (col : UInt32 → C) (ks : List (Msg K C)) : Prop where
  each : ∀ k ∈ ks, ∃ o, k.ns = objectName o ∧ k.points ≠ [] ∧
    DrawsCells frame F m.dims (fun i => objAt m i = o ∧ vis i) (fun i => col (objAt m i)) k
  complete : ∀ i, InBounds m.dims i → vis i → ∃ k ∈ ks, k.ns = objectName (objAt m i)

theorem draws_objects {C : Type} (frame : String) (F : Frame K) (m : TMap) {vis : Idx → Prop}
    {col : UInt32 → C} {r : List (DMarker (V3 K) C)} (h : ShowsByObject m vis col F.center r) :
    DrawsObjects frame F m vis col (r.map (TMap.objectMsg frame F)) := by
  constructor
  · intro k hk
    obtain ⟨w, hw, rfl⟩ := List.mem_map.mp hk
    obtain ⟨cells, h1, h2, h0, h3, h4⟩ := h.content w hw
    refine ⟨w.ns, rfl, ?_, cells, h1, h2, drawsList_fill frame F _ cells _ h3 h4⟩
    show w.points ≠ []
    rw [h3]; simpa using h0
  · intro i hi hv
    obtain ⟨w, hw, e⟩ := h.complete i hi hv
    exact ⟨_, List.mem_map.mpr ⟨w, hw, rfl⟩, by rw [← e]; rfl⟩

/-- C93, tagged maps: the displays with one marker per object. -/
theorem C93_by_object {C : Type} (frame : String) (F : Frame K) (gen : UInt32 → C) (shown : C → Bool)
    (m : TMap) :
    (∀ objs : List UInt32, objs.length ≤ 2 ^ 32 → ∃ ks, m.uniqueMsgs frame F gen shown objs = some ks ∧
      DrawsObjects frame F m (fun i => (objAt m i ∈ objs ∨ (objs = [] ∧ objAt m i ≠ 0)) ∧
        shown (gen (objAt m i)) = true) gen ks) ∧
    (∀ cmap : List (UInt32 × C), (cmap.map Prod.fst).Pairwise (· < ·) →
      ∃ ks, m.uniqueColorsMsgs frame F gen shown cmap = some ks ∧
      DrawsObjects frame F m (fun i => (objAt m i ∈ cmap.map Prod.fst ∨ objAt m i ≠ 0) ∧
        shown (chosenColor gen cmap (objAt m i)) = true) (chosenColor gen cmap) ks) := by
  constructor
  · intro objs hlen
    obtain ⟨r, e, h⟩ := C44_list gen shown F.center m hlen
    exact ⟨_, by unfold TMap.uniqueMsgs; rw [e]; rfl, draws_objects frame F m h⟩
  · intro cmap hs
    obtain ⟨r, e, h⟩ := C44_color_map gen shown F.center m hs
    exact ⟨_, by unfold TMap.uniqueColorsMsgs; rw [e]; rfl, draws_objects frame F m h⟩

omit [IsStrictOrderedRing K] in
theorem DrawsObjects.congr {C : Type} {frame : String}
    {F : Frame K} {m : TMap} {vis vis' : Idx → Prop} {col : UInt32 → C} {ks : List (Msg K C)}
    (h : DrawsObjects frame F m vis col ks) (hv : ∀ i, InBounds m.dims i → (vis i ↔ vis' i)) :
    DrawsObjects frame F m vis' col ks := by
  constructor
  · intro k hk
    obtain ⟨o, h1, h2, h3⟩ := h.each k hk
    exact ⟨o, h1, h2, h3.congr (fun i hi => and_congr_right fun _ => hv i hi) fun _ _ _ => rfl⟩
  · intro i hi hvi
    exact h.complete i hi ((hv i hi).mpr hvi)

end C93

section C93_contours

variable {C : Type} {R : Rounding} {F : Frame ℝ} (hres : GoodRes R F.res) (h32 : 0 < R.r32 F.res)
  (hk : KeepsLimit R F.res) (frame : String) (gen : UInt32 → C) (shown : C → Bool) (m : TMap)
  (hd : SmallGrid m.dims)

include hres h32 hk hd

/-- C93, tagged maps: the contour displays. -/
theorem C93_contours :
    (∀ objs, ∃ k, m.contourMsg R frame F gen shown objs = some k ∧
      DrawsCells frame F m.dims (fun i => (objAt m i ∈ objs ∨ (objs = [] ∧ objAt m i ≠ 0)) ∧
        OnBoundary m i ∧ shown (gen (objAt m i)) = true) (fun i => gen (objAt m i)) k) ∧
    (∀ cmap, ∃ k, m.contourColorsMsg R frame F gen shown cmap = some k ∧
      DrawsCells frame F m.dims (fun i => objAt m i ≠ 0 ∧
        OnBoundary m i ∧ shown (chosenColor gen cmap (objAt m i)) = true)
        (fun i => chosenColor gen cmap (objAt m i)) k) := by
  constructor
  · intro objs
    obtain ⟨r, e, vis, h, hv⟩ := C64_contour hres h32 hk gen shown F.center m hd objs
    exact ⟨_, by unfold TMap.contourMsg; rw [e]; rfl,
      (tmap_draws frame F _ m h).congr hv fun _ _ _ => rfl⟩
  · intro cmap
    obtain ⟨r, e, vis, h, hv⟩ := C64_contour_colors_single hres h32 hk gen shown F.center m hd cmap
    exact ⟨_, by unfold TMap.contourColorsMsg; rw [e]; rfl,
      (tmap_draws frame F _ m h).congr hv fun _ _ _ => rfl⟩

/-- C93, tagged maps: the contour displays with one marker per object. -/
theorem C93_contours_by_object :
    (∀ objs, ∃ ks, m.contourUniqueMsgs R frame F gen shown objs = some ks ∧
      DrawsObjects frame F m (fun i => (objAt m i ∈ objs ∨ (objs = [] ∧ objAt m i ≠ 0)) ∧
        OnBoundary m i ∧ shown (gen (objAt m i)) = true) gen ks) ∧
    (∀ cmap, ∃ ks, m.contourUniqueColorsMsgs R frame F gen shown cmap = some ks ∧
      DrawsObjects frame F m (fun i => objAt m i ≠ 0 ∧
        OnBoundary m i ∧ shown (chosenColor gen cmap (objAt m i)) = true) (chosenColor gen cmap) ks) := by
  constructor
  · intro objs
    obtain ⟨r, e, vis, h, hv⟩ := C64_contour_by_object hres h32 hk gen shown F.center m hd objs
    exact ⟨_, by unfold TMap.contourUniqueMsgs; rw [e]; rfl, (draws_objects frame F m h).congr hv⟩
  · intro cmap
    obtain ⟨r, e, vis, h, hv⟩ := C64_contour_colors hres h32 hk gen shown F.center m hd cmap
    exact ⟨_, by unfold TMap.contourUniqueColorsMsgs; rw [e]; rfl,
      (draws_objects frame F m h).congr hv⟩

end C93_contours

/-- A map rotated by a quarter turn: cell (0, 0, 0) of `exFrame` is the box from (5/2, 1, 0) to
(3, 3/2, 1/2), and the point (14/5, 6/5, 1/5) is in the cube drawn for it. -/
example : InCube (exDisplay.objectsMsg "map" exFrame (fun o => o) (fun _ => true) [])
    (exFrame.center ⟨0, 0, 0⟩) ⟨14 / 5, 6 / 5, 1 / 5⟩ ∧
    ¬ InCube (exDisplay.objectsMsg "map" exFrame (fun o => o) (fun _ => true) [])
      (exFrame.center ⟨0, 0, 0⟩) ⟨16 / 5, 6 / 5, 1 / 5⟩ := by
  constructor
  · refine ⟨⟨1 / 5, 1 / 5, 1 / 5⟩, ?_⟩
    norm_num [exFrame, Frame.center, TMap.objectsMsg, Msg.start, Msg.fill, Aff.app, abs_le]
  · rw [cube_center exFrame _ rfl rfl]
    rintro ⟨u, _, ⟨h1, h2⟩, _, e⟩
    have := congrArg V3.x e
    norm_num [exFrame, Aff.app] at this h1 h2
    linarith

end Verif
