import Verif.Props.StoredDistances
import Verif.Props.UnitLength

/-!
# C140 with a virtual border: what the bytes of a stored distance field say about the map

With a virtual border the number stored for a cell is the distance to the nearest cell of the other class or of the
layer of virtual cells around the grid.
-/

namespace Verif

open Serial Spec SdfGen DField BorderAcc

namespace Spec

/-- `p` is a cell of the other class than `v`, or a cell of the layer around the grid. -/
def Stops (m : CMap) (u : Bool) (v p : Idx) : Prop :=
  (InBounds m.dims p ∧ (CountsAsFilled u (m.getImm p).1 ↔ ¬ CountsAsFilled u (m.getImm v).1)) ∨ Layer m.dims p

/-- What the number `x` stored for the cell `v` says about the map and its virtual border: its sign tells whether the
cell is an obstacle; it is infinite, or its magnitude is the distance to some stop up to a relative error of
2^-24 + 2^-51, and not less than the distance to the nearest stop, up to the same error. -/
def TellsBorder (m : CMap) (u : Bool) (res : ℝ) (v : Idx) (x : EReal) : Prop :=
  (x < 0 ↔ CountsAsFilled u (m.getImm v).1) ∧ (0 < x ↔ ¬ CountsAsFilled u (m.getImm v).1) ∧
  (x = ⊤ ∨ x = ⊥ ∨ ∃ (y : ℝ) (p : Idx), x = (y : EReal) ∧ Stops m u v p ∧
    |(|y| - res * Real.sqrt (sqDist v p))| ≤ (1 / 2 ^ 24 + 1 / 2 ^ 51) * (res * Real.sqrt (sqDist v p)) ∧
    ∀ q, Stops m u v q → (∀ q', Stops m u v q' → sqDist v q ≤ sqDist v q') →
      (1 - (1 / 2 ^ 24 + 1 / 2 ^ 51)) * (res * Real.sqrt (sqDist v q)) ≤ |y|)

end Spec

/-- A field all of whose values are rounded to `float` can be held in memory bit for bit. -/
theorem storable_of_floats {d : Dims} (hd : SmallGrid d) {o : Out} (hdims : o.sdf.dims = d) (hwf : o.sdf.WF)
    (hval : ∀ i, InBounds d i → ∃ x, o.sdf.get i = some (ieee.r32 x)) (frame : List UInt8) :
    ∃ s : SdfRec, Holds s o ∧ s.frame = frame := by
  classical
  let enc : FVal → F32 := fun v => if h : ∃ c, floatValue c = v then h.choose else 0
  have henc : ∀ x, floatValue (enc (some (ieee.r32 x))) = some (ieee.r32 x) := by
    intro x
    have h := C139_float.hits x
    show floatValue (if h : ∃ c, floatValue c = some (ieee.r32 x) then h.choose else 0) = _
    rw [dif_pos h]
    exact h.choose_spec
  have hsq : ∀ n : ℕ, n ≤ n * n := fun n => Nat.le_mul_self n
  have hx := hsq d.nx
  have hy := hsq d.ny
  have hz := hsq d.nz
  unfold SmallGrid at hd
  have hI : ∀ n : ℕ, n < 2 ^ 31 → (Int64.ofNat n).toInt.toNat = n := by
    intro n hn
    rw [Int64.toInt_ofNat_of_lt (by omega)]
    rfl
  have hgd : (⟨(Int64.ofNat d.nx).toInt.toNat, (Int64.ofNat d.ny).toInt.toNat, (Int64.ofNat d.nz).toInt.toNat⟩ : Dims) = d := by
    rw [hI d.nx (by omega), hI d.ny (by omega), hI d.nz (by omega)]
  let base : Base F32 :=
    { blankBase (0 : F32) with
      numX := Int64.ofNat d.nx
      numY := Int64.ofNat d.ny
      numZ := Int64.ofNat d.nz
      data := o.sdf.data.map enc }
  let s : SdfRec := ⟨base, frame, false⟩
  have hdim : s.map.grid.dims = d := hgd
  have hw : s.map.grid.WF := by
    show (o.sdf.data.map enc).length = s.map.grid.dims.size
    rw [List.length_map, hdim, ← hdims]
    exact hwf
  refine ⟨s, ⟨hdim.trans hdims.symm, hw, ?_⟩, rfl⟩
  intro i hi
  have hb : o.sdf.dims.inB i = true := inB_iff_spec.mpr hi
  have hb' : s.map.grid.dims.inB i = true := by rw [hdim, ← hdims]; exact hb
  have e1 := Grid.get_eq_getElem hwf hb
  have e2 := Grid.get_eq_getElem hw hb'
  have e3 : s.map.grid.get i = enc (o.sdf.get i) := by
    have : s.map.grid.data[s.map.grid.dims.lin i]? = some (enc (o.sdf.get i)) := by
      rw [hdim, ← hdims]
      show (o.sdf.data.map enc)[_]? = _
      rw [List.getElem?_map, e1]; rfl
    rw [e2] at this
    exact Option.some.inj this
  have e4 : (s.map.getImm i).1 = s.map.grid.get i := by
    simp [Sdf.getImm, Grid.getImm, hb']
  obtain ⟨x, hx⟩ := hval i (by rw [← hdims]; exact hi)
  rw [e4, e3, hx]
  exact henc x

/-- C140 with a border, storing.  Every distance field computed with a virtual border can be held in memory bit for
bit. -/
theorem C140_border_storable {res : ℝ} (hres : GoodRes ieee res) (hlo : 1 / 2 ^ 126 ≤ res) (hhi : res ≤ 2 ^ 100)
    {d : Dims} (hd : SmallGrid (enlarge d)) {fill : Idx → Option Bool} {f : Idx → Bool} (hf : Answers d fill f)
    {oob : FVal} {o : Out} (ho : extract ieee (res, res, res) d fill oob true = some o) (frame : List UInt8) :
    ∃ s : SdfRec, Holds s o ∧ s.frame = frame := by
  obtain ⟨o', _, _, _, _, _, _, ho', _, _, hwf, hdims, _⟩ := border_spec hd hf ieee res oob
  rw [ho] at ho'
  simp only [Option.some.injEq] at ho'
  subst ho'
  have hd' : SmallGrid d := by
    unfold SmallGrid enlarge at *
    dsimp only at hd
    have h : ∀ n k : ℕ, n * n ≤ (n + k) * (n + k) := fun n k => Nat.mul_le_mul (by omega) (by omega)
    have h1 := h d.nx (2 * off d.nx)
    have h2 := h d.ny (2 * off d.ny)
    have h3 := h d.nz (2 * off d.nz)
    omega
  refine storable_of_floats hd' hdims hwf (fun i hi => ?_) frame
  obtain ⟨_, s, _, _, hval⟩ := border_field hres (ieee_resolution hlo hhi).1 hd hf ho hi
  rw [hval]
  cases f i
  · exact ⟨_, rfl⟩
  · exact ⟨_, congrArg some (ieee.odd32 _).symm⟩

theorem stops_iff (m : CMap) (u : Bool) (v p : Idx) [DecidablePred (Obstacle m u)] :
    Barrier m.dims (fun i => decide (Obstacle m u i)) v p ↔ Stops m u v p := by
  unfold Barrier Stops
  refine or_congr_left (and_congr_right fun _ => ?_)
  rw [← obstacle_counts, ← obstacle_counts]
  by_cases hP : Obstacle m u p <;> by_cases hV : Obstacle m u v <;> simp [hP, hV]

/-- C140 with a border, memory.  What a cell of an object that holds the distance field of a map says about the map. -/
theorem C140_border_cell {res : ℝ} (hres : GoodRes ieee res) (hlo : 1 / 2 ^ 126 ≤ res) (hhi : res ≤ 2 ^ 100) (m : CMap)
    (hd : SmallGrid (enlarge m.dims)) (u : Bool) {oob : FVal} {o : Out}
    (ho : extractMap ieee (res, res, res) m oob u true = some o) {s : SdfRec} (hs : Holds s o)
    {v : Idx} (hv : InBounds m.dims v) :
    (s.map.getImm v).2 = true ∧ ∃ x : EReal, floatValue (s.map.getImm v).1 = some x ∧ TellsBorder m u res v x := by
  classical
  have hdims : o.sdf.dims = m.dims := by
    obtain ⟨o', _, _, _, _, _, _, ho', _, _, _, h', _⟩ := border_spec hd (mapFill_answers m u) ieee res oob
    have := ho'.symm.trans ho
    rw [← Option.some.inj this]
    exact h'
  have hacc := C92_accuracy hres hlo hhi hd (mapFill_answers m u) ho hv
  have hcell : floatValue (s.map.getImm v).1 = o.sdf.get v := hs.cells v (by rw [hdims]; exact hv)
  have hb : s.map.grid.dims.inB v = true := by
    rw [hs.dims, hdims]; exact inB_iff_spec.mpr hv
  refine ⟨by simp [Sdf.getImm, Grid.getImm, hb], ?_⟩
  rw [hcell]
  have hdec : ∀ i, (decide (Obstacle m u i) = true) ↔ CountsAsFilled u (m.getImm i).1 := by
    intro i; rw [decide_eq_true_eq]; exact obstacle_counts m u i
  have hopp := stops_iff m u v
  rcases hacc with h | ⟨y, p, hy, hpos, hop, herr, hnear⟩
  · refine ⟨_, h, ?_, ?_, ?_⟩
    · rw [← hdec v]; cases decide (Obstacle m u v) <;> simp
    · rw [← hdec v]; cases decide (Obstacle m u v) <;> simp
    · cases decide (Obstacle m u v) <;> simp
  · have hp := (hopp p).mp hop
    have hfin : ∀ y' : ℝ, |y'| = y →
        |(|y'| - res * Real.sqrt (sqDist v p))| ≤ (1 / 2 ^ 24 + 1 / 2 ^ 51) * (res * Real.sqrt (sqDist v p)) ∧
          ∀ q, Stops m u v q → (∀ q', Stops m u v q' → sqDist v q ≤ sqDist v q') →
            (1 - (1 / 2 ^ 24 + 1 / 2 ^ 51)) * (res * Real.sqrt (sqDist v q)) ≤ |y'| := by
      intro y' hy'
      rw [hy']
      refine ⟨herr, fun q hq hq3 => ?_⟩
      exact hnear (sqDist v q) ⟨⟨q, (hopp q).mpr hq, rfl⟩, fun q' hq' => hq3 q' ((hopp q').mp hq')⟩
    refine ⟨_, hy, ?_, ?_, Or.inr (Or.inr ?_)⟩
    · rw [← hdec v]
      cases decide (Obstacle m u v)
      · simp only [Bool.false_eq_true, if_false, iff_false, not_lt]
        exact_mod_cast hpos.le
      · simp only [if_true, iff_true]
        exact_mod_cast neg_lt_zero.mpr hpos
    · rw [← hdec v]
      cases decide (Obstacle m u v)
      · simp only [Bool.false_eq_true, if_false, not_false_eq_true, iff_true]
        exact_mod_cast hpos
      · simp only [if_true, not_true_eq_false, iff_false, not_lt]
        exact_mod_cast (neg_lt_zero.mpr hpos).le
    · cases decide (Obstacle m u v)
      · exact ⟨y, p, rfl, hp, hfin y (abs_of_pos hpos)⟩
      · exact ⟨-y, p, rfl, hp, hfin (-y) (by rw [abs_neg, abs_of_pos hpos])⟩

/-- C140 with a border, two-dimensional maps.  On a grid of one cell along some axis the number is finite, and its
magnitude is between the distance to the nearest stop and `sqrt 2` times that distance, up to the relative error. -/
theorem C140_border_flat {res : ℝ} (hres : GoodRes ieee res) (hlo : 1 / 2 ^ 126 ≤ res) (hhi : res ≤ 2 ^ 100) (m : CMap)
    (hd : SmallGrid (enlarge m.dims)) (hflat : m.dims.nx = 1 ∨ m.dims.ny = 1 ∨ m.dims.nz = 1) (u : Bool) {oob : FVal}
    {o : Out} (ho : extractMap ieee (res, res, res) m oob u true = some o) {s : SdfRec} (hs : Holds s o)
    {v : Idx} (hv : InBounds m.dims v) {q : Idx} (hq : Stops m u v q)
    (hmin : ∀ q', Stops m u v q' → sqDist v q ≤ sqDist v q') :
    ∃ y : ℝ, floatValue (s.map.getImm v).1 = some (y : EReal) ∧
      (1 - (1 / 2 ^ 24 + 1 / 2 ^ 51)) * (res * Real.sqrt (sqDist v q)) ≤ |y| ∧
      |y| ≤ (1 + (1 / 2 ^ 24 + 1 / 2 ^ 51)) * (res * (Real.sqrt 2 * Real.sqrt (sqDist v q))) := by
  classical
  have hdims : o.sdf.dims = m.dims := by
    obtain ⟨o', _, _, _, _, _, _, ho', _, _, _, h', _⟩ := border_spec hd (mapFill_answers m u) ieee res oob
    have := ho'.symm.trans ho
    rw [← Option.some.inj this]
    exact h'
  rw [hs.cells v (by rw [hdims]; exact hv)]
  have hopp := stops_iff m u v
  obtain ⟨y, hy, hpos, h1, h2⟩ := C92_flat hres hlo hhi hd hflat (mapFill_answers m u) ho hv (m := sqDist v q)
    ⟨⟨q, (hopp q).mpr hq, rfl⟩, fun q' hq' => hmin q' ((hopp q').mp hq')⟩
  rw [hy]
  cases decide (Obstacle m u v)
  · exact ⟨y, rfl, by rw [abs_of_pos hpos]; exact h1, by rw [abs_of_pos hpos]; exact h2⟩
  · exact ⟨-y, rfl, by rw [abs_neg, abs_of_pos hpos]; exact h1, by rw [abs_neg, abs_of_pos hpos]; exact h2⟩

/-- C140 with a border, bytes.  The field of a map is saved without compression: the four bytes of a cell in the file are
the bits of a number that tells what it should about the map and its border. -/
theorem C140_border_file (z : Zlib) {res : ℝ} (hres : GoodRes ieee res) (hlo : 1 / 2 ^ 126 ≤ res) (hhi : res ≤ 2 ^ 100)
    (m : CMap) (hd : SmallGrid (enlarge m.dims)) (u : Bool) {oob : FVal} {o : Out}
    (ho : extractMap ieee (res, res, res) m oob u true = some o) {s : SdfRec} (hs : Holds s o)
    (h1 : FitsMemory s.base.data) (h2 : FitsMemory s.frame) {v : Idx} (hv : InBounds m.dims v) :
    ∃ bits : UInt32, Word (sdfFormat.save z s false)
        (269 + 4 * (v.x.toNat * (m.dims.ny * m.dims.nz) + v.y.toNat * m.dims.nz + v.z.toNat)) 4 bits.toNat ∧
      ∃ x : EReal, floatValue bits = some x ∧ TellsBorder m u res v x := by
  have hdims : o.sdf.dims = m.dims := by
    obtain ⟨o', _, _, _, _, _, _, ho', _, _, _, h', _⟩ := border_spec hd (mapFill_answers m u) ieee res oob
    have := ho'.symm.trans ho
    rw [← Option.some.inj this]
    exact h'
  have hb : s.map.grid.dims.inB v = true := by
    rw [hs.dims, hdims]; exact inB_iff_spec.mpr hv
  have e4 : (s.map.getImm v).1 = s.map.grid.get v := by simp [Sdf.getImm, Grid.getImm, hb]
  have hword := C137_sdf_value z s h1 h2 s.map.grid hs.sound rfl v (inB_iff_spec.mp hb)
  rw [hs.dims, hdims] at hword
  obtain ⟨-, x, hx, ht⟩ := C140_border_cell hres hlo hhi m hd u ho hs hv
  rw [e4] at hx
  exact ⟨_, hword, x, hx, ht⟩

/-- C140 with a border, programs.  As `C140_program`: a map is created and written to, its field is extracted with a
virtual border, stored and saved; the process ends; another process loads the field and reads numbers that tell what they
should about the map that was written and its border. -/
theorem C140_border_program {z : Zlib} (hz : ZlibOk z) (hp : ZlibRefusesPrefixes z) {res : ℝ} (hres : GoodRes ieee res)
    (hlo : 1 / 2 ^ 126 ≤ res) (hhi : res ≤ 2 ^ 100) {r : CMapRec} (hfit : Fits (.cmap r)) {d : Dims} (hd : SmallGrid (enlarge d))
    {dflt oob : CCell} (hr : r.map = CMap.create d dflt oob) (hist : List (Idx × CCell)) (first : List Step)
    (hfirst : first = .new 0 (.cmap r) :: hist.map fun w => .call 0 (.cmap (.setValue w.1 w.2)))
    (u : Bool) {oob' : FVal} {o : Out}
    (ho : extractMap ieee (res, res, res) ((CMap.create d dflt oob).setAllValues hist) oob' u true = some o)
    {s : SdfRec} (hs : Holds s o) (hfits : Fits (.sdf s)) (path : String) (c : Bool) (n : Nat)
    (hn : (Obj.file z c (.sdf s)).length ≤ n) (mid : List Step) (hnew : ∀ k o, Step.new k o ∈ mid → Fits o ∧ Sound o)
    (hmid : LeavesFile path mid) :
    ∃ (r1 : CMapRec) (s' : SdfRec), (World.start.run z first).mem 0 = some (.cmap r1) ∧
      r1.map = (CMap.create d dflt oob).setAllValues hist ∧
      (World.start.run z (first ++ [.new 1 (.sdf s), .save 1 path c (.wrote n), .restart] ++ mid ++
        [.load .sdf path 2])).mem 2 = some (.sdf s') ∧ s'.frame = s.frame ∧
      ∀ v, InBounds d v → (r1.map.getImm v).1 = (lastWrite hist v).getD dflt ∧ (s'.map.getImm v).2 = true ∧
        ∃ x : EReal, floatValue (s'.map.getImm v).1 = some x ∧ TellsBorder r1.map u res v x := by
  obtain ⟨r1, hmem, hmap, hdim, hload, hlast⟩ := stored_program hz hp hfit hr hist first hfirst hs.sound hfits path c n hn
    mid hnew hmid
  refine ⟨r1, s, hmem, hmap, hload, rfl, fun v hv => ⟨hlast v hv, ?_⟩⟩
  exact C140_border_cell hres hlo hhi r1.map (by rw [hdim]; exact hd) u (by rw [hmap]; exact ho) hs
    (by rw [hdim]; exact hv)

/-- A concrete case: a free map of 3×1×1 cells of width 1/4.  Its field is held by an object, the number of the middle
cell is positive, and a cell of the border stops it. -/
example : ∃ (o : Out) (s : SdfRec) (x : EReal),
    extractMap ieee (1 / 4, 1 / 4, 1 / 4) (CMap.create ⟨3, 1, 1⟩ ⟨0, 0⟩ ⟨0, 0⟩) none false true = some o ∧ Holds s o ∧
    floatValue (s.map.getImm ⟨1, 0, 0⟩).1 = some x ∧ 0 < x ∧
    Stops (CMap.create ⟨3, 1, 1⟩ ⟨0, 0⟩ ⟨0, 0⟩) false ⟨1, 0, 0⟩ ⟨-1, 0, 0⟩ := by
  let m : CMap := CMap.create ⟨3, 1, 1⟩ ⟨0, 0⟩ ⟨0, 0⟩
  have hd : SmallGrid (enlarge m.dims) := by unfold SmallGrid enlarge off; decide
  obtain ⟨o, _, _, _, _, _, _, ho, _⟩ := border_spec hd (mapFill_answers m false) ieee (1 / 4) none
  obtain ⟨s, hs, -⟩ := C140_border_storable quarter_good (by norm_num) (by norm_num) hd (mapFill_answers m false) ho []
  obtain ⟨-, x, hx, ht⟩ := C140_border_cell quarter_good (by norm_num) (by norm_num) m hd false ho hs (v := ⟨1, 0, 0⟩)
    (inB_iff_spec.mp (by decide))
  refine ⟨o, s, x, ho, hs, hx, ht.2.1.mpr ?_, Or.inr ⟨?_, ?_⟩⟩
  · have e : (m.getImm ⟨1, 0, 0⟩).1 = ⟨0, 0⟩ := by decide
    rw [e]
    rintro ⟨x, hx, h | h⟩
    · exact absurd ((C139_tests 0).1.mpr ⟨x, hx, h⟩) (by decide)
    · exact absurd h.1 (by decide)
  · intro h
    have : (0 : ℤ) ≤ -1 := h.1.1
    omega
  · simp [NearAxis, CMap.create, CMap.dims, Grid.mk']

/-- The same map in two dimensions: the nearest stop of the middle cell is two cells away, so its number is finite and
between half a metre and `sqrt 2 / 2` metres, up to the relative error. -/
example : ∃ (o : Out) (s : SdfRec) (y : ℝ),
    extractMap ieee (1 / 4, 1 / 4, 1 / 4) (CMap.create ⟨3, 1, 1⟩ ⟨0, 0⟩ ⟨0, 0⟩) none false true = some o ∧ Holds s o ∧
    floatValue (s.map.getImm ⟨1, 0, 0⟩).1 = some (y : EReal) ∧
    (1 - (1 / 2 ^ 24 + 1 / 2 ^ 51)) * (1 / 4 * Real.sqrt (4 : ℤ)) ≤ |y| ∧
    |y| ≤ (1 + (1 / 2 ^ 24 + 1 / 2 ^ 51)) * (1 / 4 * (Real.sqrt 2 * Real.sqrt (4 : ℤ))) := by
  let m : CMap := CMap.create ⟨3, 1, 1⟩ ⟨0, 0⟩ ⟨0, 0⟩
  have hd : SmallGrid (enlarge m.dims) := by unfold SmallGrid enlarge off; decide
  obtain ⟨o, _, _, _, _, _, _, ho, _⟩ := border_spec hd (mapFill_answers m false) ieee (1 / 4) none
  obtain ⟨s, hs, -⟩ := C140_border_storable quarter_good (by norm_num) (by norm_num) hd (mapFill_answers m false) ho []
  have hq : Stops m false ⟨1, 0, 0⟩ ⟨-1, 0, 0⟩ := by
    refine Or.inr ⟨fun h => ?_, ?_⟩
    · have : (0 : ℤ) ≤ -1 := h.1.1
      omega
    · simp [m, NearAxis, CMap.create, CMap.dims, Grid.mk']
  have hall : ∀ p, InBounds m.dims p → (m.getImm p).1 = ⟨0, 0⟩ := by
    rintro ⟨x, y, z⟩ ⟨⟨h1, h2⟩, ⟨h3, h4⟩, ⟨h5, h6⟩⟩
    have e2 : x < 3 := h2
    have e4 : y < 1 := h4
    have e6 : z < 1 := h6
    dsimp only at h1 h3 h5
    obtain rfl : y = 0 := by omega
    obtain rfl : z = 0 := by omega
    interval_cases x <;> decide
  have hmin : ∀ q', Stops m false ⟨1, 0, 0⟩ q' → sqDist (⟨1, 0, 0⟩ : Idx) ⟨-1, 0, 0⟩ ≤ sqDist ⟨1, 0, 0⟩ q' := by
    rintro ⟨x, y, z⟩ (⟨hin, h⟩ | ⟨hout, h1, h2, h3⟩)
    · rw [hall _ hin, hall ⟨1, 0, 0⟩ (inB_iff_spec.mp (by decide))] at h
      exact absurd h (by tauto)
    · have hx : (0 ≤ x ∧ x < 3) ∨ (1 < 3 ∧ (x = -1 ∨ x = 3)) := h1
      have hy : (0 ≤ y ∧ y < 1) ∨ (1 < 1 ∧ (y = -1 ∨ y = 1)) := h2
      have hz : (0 ≤ z ∧ z < 1) ∨ (1 < 1 ∧ (z = -1 ∨ z = 1)) := h3
      obtain rfl : y = 0 := by omega
      obtain rfl : z = 0 := by omega
      have hx' : x = -1 ∨ x = 3 := by
        rcases hx with h | h
        · exact absurd (⟨h, ⟨le_refl 0, one_pos⟩, ⟨le_refl 0, one_pos⟩⟩ : InBounds m.dims ⟨x, 0, 0⟩) hout
        · exact h.2
      rcases hx' with rfl | rfl <;> decide
  obtain ⟨y, hy, h1, h2⟩ := C140_border_flat quarter_good (by norm_num) (by norm_num) m hd (Or.inr (Or.inl rfl)) false ho
    hs (v := ⟨1, 0, 0⟩) (inB_iff_spec.mp (by decide)) hq hmin
  exact ⟨o, s, y, ho, hs, hy, h1, h2⟩

/-- A map of two cells of width 1/4, the second written as filled: the program that stores and reloads its distance field
with a virtual border exists, and what it reads is positive for the first cell and negative for the second. -/
example : ∃ s s' : SdfRec,
    (World.start.run ⟨exZip, exUnzip⟩ [.new 0 (.cmap exNewMap), .call 0 (.cmap (.setValue ⟨1, 0, 0⟩ ⟨F32.one, 0⟩)),
      .new 1 (.sdf s), .save 1 "a" true (.wrote (Obj.file ⟨exZip, exUnzip⟩ true (.sdf s)).length), .restart,
      .load .cmap "a" 0, .load .sdf "a" 2]).mem 2 = some (.sdf s') ∧
    ∃ x y : EReal, floatValue (s'.map.getImm ⟨0, 0, 0⟩).1 = some x ∧ 0 < x ∧
      floatValue (s'.map.getImm ⟨1, 0, 0⟩).1 = some y ∧ y < 0 := by
  have hd : SmallGrid (enlarge ⟨2, 1, 1⟩) := by unfold SmallGrid enlarge off; decide
  have hfit : Fits (.cmap exNewMap) := ⟨by unfold FitsMemory; decide, by unfold FitsMemory; decide⟩
  let m : CMap := (CMap.create ⟨2, 1, 1⟩ ⟨0, 0⟩ ⟨0, 0⟩).setAllValues [(⟨1, 0, 0⟩, ⟨F32.one, 0⟩)]
  obtain ⟨o, _, _, _, _, _, _, ho, _, _, _, hdims, _⟩ := border_spec (d := ⟨2, 1, 1⟩) hd (mapFill_answers m false) ieee
    (1 / 4) none
  have hom : extractMap ieee (1 / 4, 1 / 4, 1 / 4) m none false true = some o := ho
  obtain ⟨s, hs, hframe⟩ := C140_border_storable (d := ⟨2, 1, 1⟩) quarter_good (by norm_num) (by norm_num) hd
    (mapFill_answers m false) ho (ascii "world")
  have hfits : Fits (.sdf s) := by
    refine ⟨?_, by rw [hframe]; unfold FitsMemory; decide⟩
    have h1 : s.base.data.length = s.map.grid.dims.size := hs.sound
    rw [hs.dims, hdims] at h1
    unfold FitsMemory
    rw [h1]; decide
  obtain ⟨r1, s', -, -, h2, -, h3⟩ := C140_border_program exZlib_ok.1 exZlib_ok.2 quarter_good (by norm_num) (by norm_num) hfit hd
    (dflt := ⟨0, 0⟩) (oob := ⟨0, 0⟩) rfl [(⟨1, 0, 0⟩, ⟨F32.one, 0⟩)] _ rfl false
    hom hs hfits "a" true _ le_rfl [.load .cmap "a" 0]
    (by intro k o h; simp at h)
    (by intro s hs k p c n e; simp at hs; rw [hs] at e; simp at e)
  refine ⟨s, s', by simpa only [List.map_cons, List.map_nil, List.cons_append, List.nil_append] using h2, ?_⟩
  obtain ⟨e0, -, x, hx, ht0⟩ := h3 ⟨0, 0, 0⟩ (by norm_num [InBounds])
  obtain ⟨e1, -, y, hy, ht1⟩ := h3 ⟨1, 0, 0⟩ (by norm_num [InBounds])
  refine ⟨x, y, hx, ht0.2.1.mpr ?_, hy, ht1.1.mpr ?_⟩
  · rw [e0]
    rintro ⟨x, hx, h | h⟩
    · exact absurd ((C139_tests 0).1.mpr ⟨x, hx, h⟩) (by decide)
    · exact absurd h.1 (by decide)
  · rw [e1]
    obtain ⟨x, hx, h⟩ := (C139_tests F32.one).1.mp (by decide)
    exact ⟨x, hx, Or.inl h⟩

end Verif
