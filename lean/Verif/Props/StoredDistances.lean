import Verif.Props.FloatBits
import Verif.Props.FileLayout
import Verif.Props.Sessions
import Verif.Props.Ieee

/-!
# C140: what the bytes of a stored distance field say about the map

Joins the bit patterns of C139, the files of C137 and C138 and the accuracy of C86: from the writes to a collision map
to the number that another program reads in the file of its distance field.
-/

namespace Verif

open Serial Spec SdfGen

namespace Spec

/-- The object `s` holds the distance field `o`: as many cells, and in each cell the bits of the value. -/
structure Holds (s : SdfRec) (o : Out) : Prop where
  dims : s.map.grid.dims = o.sdf.dims
  sound : s.map.grid.WF
  cells : ∀ i, InBounds o.sdf.dims i → floatValue (s.map.getImm i).1 = o.sdf.get i

/-- A cell counts as obstacle: occupancy above 0.5, or exactly 0.5 if unknown cells are to be filled. -/
def CountsAsFilled (unknownIsFilled : Bool) (c : CCell) : Prop :=
  ∃ x : EReal, floatValue c.occ = some x ∧
    (((1 / 2 : ℝ) : EReal) < x ∨ (unknownIsFilled = true ∧ x = ((1 / 2 : ℝ) : EReal)))

/-- What the number `x` stored for the cell `v` says about the map: its sign tells whether the cell is an obstacle; it is
infinite, or its magnitude is the distance to some cell of the other class up to a relative error of 2^-24 + 2^-51, and
not less than the distance to the nearest such cell, up to the same error. -/
def Tells (m : CMap) (u : Bool) (res : ℝ) (v : Idx) (x : EReal) : Prop :=
  (x < 0 ↔ CountsAsFilled u (m.getImm v).1) ∧ (0 < x ↔ ¬ CountsAsFilled u (m.getImm v).1) ∧
  (x = ⊤ ∨ x = ⊥ ∨ ∃ (y : ℝ) (p : Idx), x = (y : EReal) ∧ InBounds m.dims p ∧
    (CountsAsFilled u (m.getImm p).1 ↔ ¬ CountsAsFilled u (m.getImm v).1) ∧
    |(|y| - res * Real.sqrt (sqDist v p))| ≤ (1 / 2 ^ 24 + 1 / 2 ^ 51) * (res * Real.sqrt (sqDist v p)) ∧
    ∀ q, InBounds m.dims q → (CountsAsFilled u (m.getImm q).1 ↔ ¬ CountsAsFilled u (m.getImm v).1) →
      (∀ q', InBounds m.dims q' → (CountsAsFilled u (m.getImm q').1 ↔ ¬ CountsAsFilled u (m.getImm v).1) →
        sqDist v q ≤ sqDist v q') →
      (1 - (1 / 2 ^ 24 + 1 / 2 ^ 51)) * (res * Real.sqrt (sqDist v q)) ≤ |y|)

end Spec

theorem obstacle_counts (m : CMap) (u : Bool) (i : Idx) : Obstacle m u i ↔ CountsAsFilled u (m.getImm i).1 := by
  unfold Obstacle CountsAsFilled
  obtain ⟨h1, -, h3⟩ := C139_tests (m.getImm i).1.occ
  rw [h1, h3]
  constructor
  · rintro (⟨x, hx, h⟩ | ⟨hu, h⟩)
    · exact ⟨x, hx, Or.inl h⟩
    · exact ⟨_, h, Or.inr ⟨hu, rfl⟩⟩
  · rintro ⟨x, hx, h | ⟨hu, rfl⟩⟩
    · exact Or.inl ⟨x, hx, h⟩
    · exact Or.inr ⟨hu, hx⟩

/-- C140, storing.  Every distance field that is computed (in IEEE arithmetic, without border) can be held in memory bit
for bit: each value has a `float` pattern. -/
theorem C140_storable {res : ℝ} {d : Dims} (hd : SmallGrid d) {fill : Idx → Option Bool} {f : Idx → Bool}
    (hf : Answers d fill f) {oob : FVal} {o : Out} (ho : extract ieee (res, res, res) d fill oob false = some o)
    (frame : List UInt8) : ∃ s : SdfRec, Holds s o ∧ s.frame = frame := by
  obtain ⟨o', a, b, ho', hs⟩ := base_spec hd hf ieee res oob
  rw [extract_false, ho'] at ho
  simp only [Option.some.injEq] at ho
  subst ho
  classical
  let enc : FVal → F32 := fun v => if h : ∃ c, floatValue c = v then h.choose else 0
  have henc : ∀ x, floatValue (enc (some (ieee.r32 x))) = some (ieee.r32 x) := by
    intro x
    have h := C139_float.hits x
    show floatValue (if h : ∃ c, floatValue c = some (ieee.r32 x) then h.choose else 0) = _
    rw [dif_pos h]
    exact h.choose_spec
  have hsq : ∀ n : ℕ, n ≤ n * n := fun n => Nat.le_mul_self n
  have hx := hsq d.nx
  have hy := hsq d.ny
  have hz := hsq d.nz
  unfold SmallGrid at hd
  have hI : ∀ n : ℕ, n < 2 ^ 31 → (Int64.ofNat n).toInt.toNat = n := by
    intro n hn
    rw [Int64.toInt_ofNat_of_lt (by omega)]
    rfl
  have hgd : (⟨(Int64.ofNat d.nx).toInt.toNat, (Int64.ofNat d.ny).toInt.toNat, (Int64.ofNat d.nz).toInt.toNat⟩ : Dims) = d := by
    rw [hI d.nx (by omega), hI d.ny (by omega), hI d.nz (by omega)]
  let base : Base F32 :=
    { blankBase (0 : F32) with
      numX := Int64.ofNat d.nx
      numY := Int64.ofNat d.ny
      numZ := Int64.ofNat d.nz
      data := o'.sdf.data.map enc }
  let s : SdfRec := ⟨base, frame, false⟩
  have hdim : s.map.grid.dims = d := hgd
  have hw : s.map.grid.WF := by
    show (o'.sdf.data.map enc).length = s.map.grid.dims.size
    rw [List.length_map, hdim, ← hs.dims]
    exact hs.wf
  refine ⟨s, ⟨hdim.trans hs.dims.symm, hw, ?_⟩, rfl⟩
  intro i hi
  have hb : o'.sdf.dims.inB i = true := inB_iff_spec.mpr hi
  have hb' : s.map.grid.dims.inB i = true := by rw [hdim, ← hs.dims]; exact hb
  have e1 := Grid.get_eq_getElem hs.wf hb
  have e2 := Grid.get_eq_getElem hw hb'
  have e3 : s.map.grid.get i = enc (o'.sdf.get i) := by
    have : s.map.grid.data[s.map.grid.dims.lin i]? = some (enc (o'.sdf.get i)) := by
      rw [hdim, ← hs.dims]
      show (o'.sdf.data.map enc)[_]? = _
      rw [List.getElem?_map, e1]; rfl
    rw [e2] at this
    exact Option.some.inj this
  have e4 : (s.map.getImm i).1 = s.map.grid.get i := by
    simp [Sdf.getImm, Grid.getImm, hb']
  rw [e4, e3, hs.val i (by rw [← hs.dims]; exact hi)]
  exact henc _

theorem extracted_dims {res : ℝ} {m : CMap} (hd : SmallGrid m.dims) {u : Bool} {oob : FVal} {o : Out}
    (ho : extractMap ieee (res, res, res) m oob u false = some o) : o.sdf.dims = m.dims := by
  obtain ⟨o', a, b, ho', hb⟩ := base_spec hd (mapFill_answers m u) ieee res oob
  unfold extractMap at ho
  rw [extract_false] at ho
  have := ho'.symm.trans ho
  rw [← Option.some.inj this]
  exact hb.dims

/-- C140, memory.  What a cell of an object that holds the distance field of a map says about the map. -/
theorem C140_cell {res : ℝ} (hres : GoodRes ieee res) (hlo : 1 / 2 ^ 126 ≤ res) (hhi : res ≤ 2 ^ 100) (m : CMap)
    (hd : SmallGrid m.dims) (u : Bool) {oob : FVal} {o : Out}
    (ho : extractMap ieee (res, res, res) m oob u false = some o) {s : SdfRec} (hs : Holds s o)
    {v : Idx} (hv : InBounds m.dims v) :
    (s.map.getImm v).2 = true ∧ ∃ x : EReal, floatValue (s.map.getImm v).1 = some x ∧ Tells m u res v x := by
  classical
  have hdims : o.sdf.dims = m.dims := extracted_dims hd ho
  have hacc := C86_accuracy hres hlo hhi hd (mapFill_answers m u) ho hv
  have hcell : floatValue (s.map.getImm v).1 = o.sdf.get v := hs.cells v (by rw [hdims]; exact hv)
  have hb : s.map.grid.dims.inB v = true := by
    rw [hs.dims, hdims]; exact inB_iff_spec.mpr hv
  have e4 : (s.map.getImm v).1 = s.map.grid.get v := by simp [Sdf.getImm, Grid.getImm, hb]
  rw [e4] at hcell
  refine ⟨by simp [Sdf.getImm, Grid.getImm, hb], ?_⟩
  rw [e4, hcell]
  have hdec : ∀ i, (decide (Obstacle m u i) = true) ↔ CountsAsFilled u (m.getImm i).1 := by
    intro i; rw [decide_eq_true_eq]; exact obstacle_counts m u i
  have hopp : ∀ p, Opposite m.dims (fun i => decide (Obstacle m u i)) v p ↔ InBounds m.dims p ∧
      (CountsAsFilled u (m.getImm p).1 ↔ ¬ CountsAsFilled u (m.getImm v).1) := by
    intro p
    unfold Opposite
    refine and_congr_right fun _ => ?_
    rw [← obstacle_counts, ← obstacle_counts]
    by_cases hP : Obstacle m u p <;> by_cases hV : Obstacle m u v <;> simp [hP, hV]
  rcases hacc with h | ⟨y, p, hy, hpos, hop, herr, hnear⟩
  · refine ⟨_, h, ?_, ?_, ?_⟩
    · rw [← hdec v]; cases decide (Obstacle m u v) <;> simp
    · rw [← hdec v]; cases decide (Obstacle m u v) <;> simp
    · cases decide (Obstacle m u v) <;> simp
  · have hp := (hopp p).mp hop
    have hfin : ∀ y' : ℝ, |y'| = y →
        |(|y'| - res * Real.sqrt (sqDist v p))| ≤ (1 / 2 ^ 24 + 1 / 2 ^ 51) * (res * Real.sqrt (sqDist v p)) ∧
          ∀ q, InBounds m.dims q → (CountsAsFilled u (m.getImm q).1 ↔ ¬ CountsAsFilled u (m.getImm v).1) →
            (∀ q', InBounds m.dims q' → (CountsAsFilled u (m.getImm q').1 ↔ ¬ CountsAsFilled u (m.getImm v).1) →
              sqDist v q ≤ sqDist v q') →
            (1 - (1 / 2 ^ 24 + 1 / 2 ^ 51)) * (res * Real.sqrt (sqDist v q)) ≤ |y'| := by
      intro y' hy'
      rw [hy']
      refine ⟨herr, fun q hq1 hq2 hq3 => ?_⟩
      exact hnear (sqDist v q) ⟨⟨q, (hopp q).mpr ⟨hq1, hq2⟩, rfl⟩,
        fun q' hq' => hq3 q' ((hopp q').mp hq').1 ((hopp q').mp hq').2⟩
    refine ⟨_, hy, ?_, ?_, Or.inr (Or.inr ?_)⟩
    · rw [← hdec v]
      cases decide (Obstacle m u v)
      · simp only [Bool.false_eq_true, if_false, iff_false, not_lt]
        exact_mod_cast hpos.le
      · simp only [if_true, iff_true]
        exact_mod_cast neg_lt_zero.mpr hpos
    · rw [← hdec v]
      cases decide (Obstacle m u v)
      · simp only [Bool.false_eq_true, if_false, not_false_eq_true, iff_true]
        exact_mod_cast hpos
      · simp only [if_true, not_true_eq_false, iff_false, not_lt]
        exact_mod_cast (neg_lt_zero.mpr hpos).le
    · cases decide (Obstacle m u v)
      · exact ⟨y, p, rfl, hp.1, hp.2, hfin y (abs_of_pos hpos)⟩
      · exact ⟨-y, p, rfl, hp.1, hp.2, hfin (-y) (by rw [abs_neg, abs_of_pos hpos])⟩

/-- C140, bytes.  The field of a map is saved without compression: the four bytes of a cell in the file are the bits of a
number that tells what it should about the map. -/
theorem C140_file (z : Zlib) {res : ℝ} (hres : GoodRes ieee res) (hlo : 1 / 2 ^ 126 ≤ res) (hhi : res ≤ 2 ^ 100) (m : CMap)
    (hd : SmallGrid m.dims) (u : Bool) {oob : FVal} {o : Out}
    (ho : extractMap ieee (res, res, res) m oob u false = some o) {s : SdfRec} (hs : Holds s o)
    (h1 : FitsMemory s.base.data) (h2 : FitsMemory s.frame) {v : Idx} (hv : InBounds m.dims v) :
    ∃ bits : UInt32, Word (sdfFormat.save z s false)
        (269 + 4 * (v.x.toNat * (m.dims.ny * m.dims.nz) + v.y.toNat * m.dims.nz + v.z.toNat)) 4 bits.toNat ∧
      ∃ x : EReal, floatValue bits = some x ∧ Tells m u res v x := by
  have hdims := extracted_dims hd ho
  have hb : s.map.grid.dims.inB v = true := by
    rw [hs.dims, hdims]; exact inB_iff_spec.mpr hv
  have e4 : (s.map.getImm v).1 = s.map.grid.get v := by simp [Sdf.getImm, Grid.getImm, hb]
  have hword := C137_sdf_value z s h1 h2 s.map.grid hs.sound rfl v (inB_iff_spec.mp hb)
  rw [hs.dims, hdims] at hword
  obtain ⟨-, x, hx, ht⟩ := C140_cell hres hlo hhi m hd u ho hs hv
  rw [e4] at hx
  exact ⟨_, hword, x, hx, ht⟩

/-- A program that creates a map, writes to it, stores an object and ends, and another one that loads the object: what
is in the memory of both. -/
theorem stored_program {z : Zlib} (hz : ZlibOk z) (hp : ZlibRefusesPrefixes z) {r : CMapRec} (hfit : Fits (.cmap r))
    {d : Dims} {dflt oob : CCell} (hr : r.map = CMap.create d dflt oob) (hist : List (Idx × CCell)) (first : List Step)
    (hfirst : first = .new 0 (.cmap r) :: hist.map fun w => .call 0 (.cmap (.setValue w.1 w.2)))
    {s : SdfRec} (hs : s.map.grid.WF) (hfits : Fits (.sdf s)) (path : String) (c : Bool) (n : Nat)
    (hn : (Obj.file z c (.sdf s)).length ≤ n) (mid : List Step) (hnew : ∀ k o, Step.new k o ∈ mid → Fits o ∧ Sound o)
    (hmid : LeavesFile path mid) :
    ∃ r1 : CMapRec, (World.start.run z first).mem 0 = some (.cmap r1) ∧
      r1.map = (CMap.create d dflt oob).setAllValues hist ∧ r1.map.dims = d ∧
      (World.start.run z (first ++ [.new 1 (.sdf s), .save 1 path c (.wrote n), .restart] ++ mid ++
        [.load .sdf path 2])).mem 2 = some (.sdf s) ∧
      ∀ v, InBounds d v → (r1.map.getImm v).1 = (lastWrite hist v).getD dflt := by
  subst hfirst
  have hw : r.map.grid.WF := by rw [hr]; exact Grid.wf_mk' _ _ _
  obtain ⟨r1, h1, h1m, h1f, h1b⟩ := C138_calls.2.1 r (hist.map fun w => .setValue w.1 w.2) hw
  have hnew0 : ∀ k o, Step.new k o ∈ (Step.new 0 (.cmap r)) :: hist.map (fun w => Step.call 0 (.cmap (.setValue w.1 w.2))) →
      Fits o ∧ Sound o := by
    intro k o h
    simp only [List.mem_cons, List.mem_map, reduceCtorEq, and_false, exists_false, or_false, Step.new.injEq] at h
    rw [h.2]; exact ⟨hfit, hw⟩
  have hmem : (World.start.run z (Step.new 0 (.cmap r) :: hist.map (fun w => Step.call 0 (.cmap (.setValue w.1 w.2))))).mem 0
      = some (.cmap r1) := by
    rw [(C138_sessions hz hp _ hnew0).2]
    have := ideal_calls (fileSize z) 0 (hist.map fun w => Call.cmap (.setValue w.1 w.2))
      (Ideal.start.run (fileSize z) [Step.new 0 (.cmap r)]) (.cmap r) (by simp [Ideal.run, Ideal.step])
    rw [List.map_map] at this
    rw [← h1, List.map_map]
    exact this
  have hmap : r1.map = (CMap.create d dflt oob).setAllValues hist := by rw [h1m, ← setAllValues_run, hr]
  have hdim : r1.map.dims = d := by
    have := (CMap.setAllValues_spec hist (CMap.create d dflt oob) (Grid.wf_mk' _ _ _)).2.1
    rw [hmap]; exact this
  have hmem1 : (World.start.run z (Step.new 0 (.cmap r) :: hist.map (fun w => Step.call 0 (.cmap (.setValue w.1 w.2))) ++
      [.new 1 (.sdf s)])).mem 1 = some (.sdf s) := by
    simp only [World.run, List.foldl_append, List.foldl_cons, List.foldl_nil]
    simp [World.step]
  obtain ⟨-, h3⟩ := C138_continue hz hp (Step.new 0 (.cmap r) ::
      hist.map (fun w => Step.call 0 (.cmap (.setValue w.1 w.2))) ++ [.new 1 (.sdf s)]) (.restart :: mid) 1 2 n path c
    [] (o := .sdf s)
    (by
      intro k o h
      rw [List.mem_append, List.mem_append] at h
      rcases h with (h | h) | h
      · exact hnew0 k o h
      · simp only [List.mem_singleton, Step.new.injEq] at h
        rw [h.2]; exact ⟨hfits, hs⟩
      · simp only [List.mem_cons, reduceCtorEq, false_or] at h
        exact hnew k o h)
    hmem1 hn
    (by
      intro s hs
      rcases List.mem_cons.mp hs with rfl | hs
      · intro k p c n e; simp at e
      · exact hmid s hs)
  refine ⟨r1, hmem, hmap, hdim, ?_, ?_⟩
  · simp only [World.run, List.foldl_append, List.foldl_cons, List.foldl_nil, List.map_nil] at h3 ⊢
    exact h3
  · intro v hv
    rw [hmap, C01_fresh d dflt oob hist v hv]

/-- C140, programs.  A collision map is created and written to (`hist`); its distance field is extracted, stored in an
object and saved completely; the process ends (and anything may happen that does not open the file); another process
loads the field.  The numbers it reads tell what they should about the map that was written: in particular a number is
negative exactly if the last value written to its cell (or the default) counts as filled. -/
theorem C140_program {z : Zlib} (hz : ZlibOk z) (hp : ZlibRefusesPrefixes z) {res : ℝ} (hres : GoodRes ieee res)
    (hlo : 1 / 2 ^ 126 ≤ res) (hhi : res ≤ 2 ^ 100) {r : CMapRec} (hfit : Fits (.cmap r)) {d : Dims} (hd : SmallGrid d)
    {dflt oob : CCell} (hr : r.map = CMap.create d dflt oob) (hist : List (Idx × CCell)) (first : List Step)
    (hfirst : first = .new 0 (.cmap r) :: hist.map fun w => .call 0 (.cmap (.setValue w.1 w.2)))
    (u : Bool) {oob' : FVal} {o : Out}
    (ho : extractMap ieee (res, res, res) ((CMap.create d dflt oob).setAllValues hist) oob' u false = some o)
    {s : SdfRec} (hs : Holds s o) (hfits : Fits (.sdf s)) (path : String) (c : Bool) (n : Nat)
    (hn : (Obj.file z c (.sdf s)).length ≤ n) (mid : List Step) (hnew : ∀ k o, Step.new k o ∈ mid → Fits o ∧ Sound o)
    (hmid : LeavesFile path mid) :
    ∃ (r1 : CMapRec) (s' : SdfRec), (World.start.run z first).mem 0 = some (.cmap r1) ∧
      r1.map = (CMap.create d dflt oob).setAllValues hist ∧
      (World.start.run z (first ++ [.new 1 (.sdf s), .save 1 path c (.wrote n), .restart] ++ mid ++
        [.load .sdf path 2])).mem 2 = some (.sdf s') ∧ s'.frame = s.frame ∧
      ∀ v, InBounds d v → (r1.map.getImm v).1 = (lastWrite hist v).getD dflt ∧ (s'.map.getImm v).2 = true ∧
        ∃ x : EReal, floatValue (s'.map.getImm v).1 = some x ∧ Tells r1.map u res v x := by
  obtain ⟨r1, hmem, hmap, hdim, hload, hlast⟩ := stored_program hz hp hfit hr hist first hfirst hs.sound hfits path c n hn
    mid hnew hmid
  refine ⟨r1, s, hmem, hmap, hload, rfl, fun v hv => ⟨hlast v hv, ?_⟩⟩
  exact C140_cell hres hlo hhi r1.map (by rw [hdim]; exact hd) u (by rw [hmap]; exact ho) hs (by rw [hdim]; exact hv)

/-! ### The hypotheses are satisfiable -/

/-- A map of two cells of width 1/4, the second written as filled: the program that stores and reloads its distance field
exists, and what it reads is positive for the first cell and negative for the second. -/
example : ∃ s s' : SdfRec,
    (World.start.run ⟨exZip, exUnzip⟩ [.new 0 (.cmap exNewMap), .call 0 (.cmap (.setValue ⟨1, 0, 0⟩ ⟨F32.one, 0⟩)),
      .new 1 (.sdf s), .save 1 "a" true (.wrote (Obj.file ⟨exZip, exUnzip⟩ true (.sdf s)).length), .restart,
      .load .cmap "a" 0, .load .sdf "a" 2]).mem 2 = some (.sdf s') ∧
    ∃ x y : EReal, floatValue (s'.map.getImm ⟨0, 0, 0⟩).1 = some x ∧ 0 < x ∧
      floatValue (s'.map.getImm ⟨1, 0, 0⟩).1 = some y ∧ y < 0 := by
  have hd : SmallGrid ⟨2, 1, 1⟩ := by unfold SmallGrid; decide
  have hfit : Fits (.cmap exNewMap) := ⟨by unfold FitsMemory; decide, by unfold FitsMemory; decide⟩
  let m : CMap := (CMap.create ⟨2, 1, 1⟩ ⟨0, 0⟩ ⟨0, 0⟩).setAllValues [(⟨1, 0, 0⟩, ⟨F32.one, 0⟩)]
  obtain ⟨o, a, b, ho, hs0⟩ := base_spec (d := ⟨2, 1, 1⟩) hd (mapFill_answers m false) ieee (1 / 4) none
  have hom : extractMap ieee (1 / 4, 1 / 4, 1 / 4) m none false false = some o := by
    unfold extractMap; rw [extract_false]; exact ho
  obtain ⟨s, hs, hframe⟩ := C140_storable (d := ⟨2, 1, 1⟩) hd (mapFill_answers m false) hom (ascii "world")
  have hfits : Fits (.sdf s) := by
    refine ⟨?_, by rw [hframe]; unfold FitsMemory; decide⟩
    have h1 : s.base.data.length = s.map.grid.dims.size := hs.sound
    rw [hs.dims, hs0.dims] at h1
    unfold FitsMemory
    rw [h1]; decide
  obtain ⟨r1, s', -, -, h2, -, h3⟩ := C140_program exZlib_ok.1 exZlib_ok.2 quarter_good (by norm_num) (by norm_num) hfit hd
    (dflt := ⟨0, 0⟩) (oob := ⟨0, 0⟩) rfl [(⟨1, 0, 0⟩, ⟨F32.one, 0⟩)] _ rfl false
    hom hs hfits "a" true _ le_rfl [.load .cmap "a" 0]
    (by intro k o h; simp at h)
    (by intro s hs k p c n e; simp at hs; rw [hs] at e; simp at e)
  refine ⟨s, s', by simpa only [List.map_cons, List.map_nil, List.cons_append, List.nil_append] using h2, ?_⟩
  obtain ⟨e0, -, x, hx, ht0⟩ := h3 ⟨0, 0, 0⟩ (by norm_num [InBounds])
  obtain ⟨e1, -, y, hy, ht1⟩ := h3 ⟨1, 0, 0⟩ (by norm_num [InBounds])
  refine ⟨x, y, hx, ht0.2.1.mpr ?_, hy, ht1.1.mpr ?_⟩
  · rw [e0]
    rintro ⟨x, hx, h | h⟩
    · exact absurd ((C139_tests 0).1.mpr ⟨x, hx, h⟩) (by decide)
    · exact absurd h.1 (by decide)
  · rw [e1]
    obtain ⟨x, hx, h⟩ := (C139_tests F32.one).1.mp (by decide)
    exact ⟨x, hx, Or.inl h⟩

end Verif
