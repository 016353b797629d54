import Verif.Spec.FileLayout
import Verif.Props.Serial
import Verif.Spec.Basic

/-!
# Where the parts of a map stand in a file (C137)
-/

namespace Verif

open Spec Serial

namespace Serial

/-! ## Bytes inside a concatenation -/

theorem word_leBytes (pre post : List UInt8) (k v off : Nat) (h : pre.length = off) :
    Word (pre ++ (leBytes k v ++ post)) off k v := by
  subst h
  intro j hj
  have key : ∀ (k v j : Nat), j < k → (leBytes k v)[j]? = some (UInt8.ofNat (v / 256 ^ j % 256)) := by
    intro k
    induction k with
    | zero => intro v j h; omega
    | succ k ih =>
      intro v j h
      cases j with
      | zero => simp [leBytes]
      | succ j =>
        simp only [leBytes, List.getElem?_cons_succ]
        rw [ih _ _ (by omega), Nat.div_div_eq_div_mul, pow_succ, Nat.mul_comm]
  refine ⟨UInt8.ofNat (v / 256 ^ j % 256), ?_, by simp⟩
  rw [List.getElem?_append_right (by omega), Nat.add_sub_cancel_left,
    List.getElem?_append_left (by rw [leBytes_length]; exact hj)]
  exact key k v j hj

theorem text_at (pre l post : List UInt8) (off : Nat) (h : pre.length = off) :
    Text (pre ++ (l ++ post)) off l := by
  subst h
  intro j hj
  rw [List.getElem?_append_right (by omega), Nat.add_sub_cancel_left, List.getElem?_append_left hj]

/-- Pieces of equal length. -/
theorem flatten_split {α : Type} (put : α → List UInt8) (w : Nat) (hw : ∀ a, (put a).length = w) :
    ∀ (l : List α) (k : Nat) (hk : k < l.length), ∃ a b : List UInt8,
      (l.map put).flatten = a ++ (put l[k] ++ b) ∧ a.length = w * k
  | [], k, hk => by simp at hk
  | x :: l, 0, _ => ⟨[], (l.map put).flatten, by simp, by simp⟩
  | x :: l, k + 1, hk => by
    obtain ⟨a, b, h1, h2⟩ := flatten_split put w hw l k (by simpa using hk)
    refine ⟨put x ++ a, b, ?_, ?_⟩
    · simp [h1]
    · simp [hw, h2]; ring

theorem flatten_length {α : Type} (put : α → List UInt8) (w : Nat) (hw : ∀ a, (put a).length = w)
    (l : List α) : ((l.map put).flatten).length = w * l.length := by
  induction l with
  | nil => simp
  | cons x l ih => simp only [List.map_cons, List.flatten_cons, List.length_append, hw, ih, List.length_cons]; ring

theorem putU8_length (v : UInt8) : (putU8 v).length = 1 := leBytes_length 1 _
theorem putU32_length (v : UInt32) : (putU32 v).length = 4 := leBytes_length 4 _
theorem putU64_length (v : UInt64) : (putU64 v).length = 8 := leBytes_length 8 _
theorem putI64_length (v : Int64) : (putI64 v).length = 8 := leBytes_length 8 _
theorem putBool_length (v : Bool) : (putBool v).length = 1 := leBytes_length 1 _
theorem putCCell_length (c : CCell) : (putCCell c).length = 8 := by
  simp [putCCell, putU32_length]
theorem putTCell_length (c : TCell) : (putTCell c).length = 16 := by
  simp [putTCell, putU32_length]
theorem putIso_length (t : Iso) : (putIso t).length = 128 := by
  rw [putIso, flatten_length putU64 8 putU64_length, t.len]
theorem putStr_length (l : List UInt8) : (putStr l).length = 8 + l.length := by
  simp only [putStr, putVec, List.length_append, putU64_length]
  rw [flatten_length putU8 1 putU8_length]; ring
theorem flatten_u8 (l : List UInt8) : (l.map putU8).flatten = l := by
  induction l with
  | nil => rfl
  | cons x l ih => simp only [List.map_cons, List.flatten_cons, ih]; simp [putU8, leBytes]

/-- The piece number `i` of a list of pieces. -/
theorem piece_at (l : List (List UInt8)) (i : Nat) (p : List UInt8) (h : l[i]? = some p) :
    l.flatten = (l.take i).flatten ++ (p ++ (l.drop (i + 1)).flatten) := by
  have hi : i < l.length := by
    by_contra hc
    rw [List.getElem?_eq_none (by omega)] at h; simp at h
  have e : l[i] = p := by rw [List.getElem?_eq_getElem hi] at h; simpa using h
  conv_lhs => rw [← List.take_append_drop i l, List.flatten_append, List.drop_eq_getElem_cons hi, List.flatten_cons, e]

theorem ofNat_len {n : Nat} (h : n < 2 ^ 64) : (UInt64.ofNat n).toNat = n := by
  simp only [UInt64.toNat_ofNat']; exact Nat.mod_eq_of_lt h

theorem word_bool (pre post : List UInt8) (b : Bool) (off : Nat) (h : pre.length = off) :
    Word (pre ++ (putBool b ++ post)) off 1 (if b then 1 else 0) := by
  have := word_leBytes pre post 1 (if b then (1 : UInt8) else 0).toNat off h
  cases b <;> exact this

/-- The common part of the three files. -/
theorem grid_layout {α : Type} (Cell : List UInt8 → Nat → α → Prop) (w : Nat) (put : α → List UInt8)
    (hw : ∀ a, (put a).length = w)
    (hc : ∀ (a : α) (pre post : List UInt8), Cell (pre ++ (put a ++ post)) pre.length a)
    (b : Base α) (hd : FitsMemory b.data) (magic : List UInt8) (h4 : magic.length = 4)
    (tail : List (List UInt8)) :
    GridLayout Cell w (magic ++ (basePieces put b ++ tail).flatten) b := by
  have hc' : ∀ (a : α) (pre post : List UInt8) (off : Nat), pre.length = off →
      Cell (pre ++ (put a ++ post)) off a := by intro a pre post off h; subst h; exact hc a pre post
  set l : List (List UInt8) := basePieces put b ++ tail with hl
  have at' : ∀ (i : Nat) (p : List UInt8), l[i]? = some p →
      magic ++ l.flatten = (magic ++ (l.take i).flatten) ++ (p ++ (l.drop (i + 1)).flatten) := by
    intro i p h
    rw [piece_at l i p h]; simp
  have vl : (putVec put b.data).length = 8 + w * b.data.length := by
    simp only [putVec, List.length_append, putU64_length, flatten_length put w hw]
  have re : ∀ A x q y C : List UInt8, A ++ ((x ++ (q ++ y)) ++ C) = (A ++ x) ++ (q ++ (y ++ C)) := by
    intro A x q y C; simp
  have l3 : (magic ++ (l.take 3).flatten).length = 261 := by
    simp [hl, basePieces, putBool_length, putIso_length, h4]
  have step : ∀ (i n : Nat) (p : List UInt8), l[i]? = some p → (magic ++ (l.take i).flatten).length = n →
      (magic ++ (l.take (i + 1)).flatten).length = n + p.length := by
    intro i n p h hn
    rw [List.length_append] at hn ⊢
    rw [List.take_add_one, h, List.flatten_append, List.length_append]
    simp only [Option.toList_some, List.flatten_cons, List.flatten_nil, List.append_nil]; omega
  have l4 := step 3 _ (putVec put b.data) rfl l3
  rw [vl] at l4
  have l5 := step 4 _ (putU64 b.cellX) rfl l4
  rw [putU64_length] at l5
  have l6 := step 5 _ (putU64 b.cellY) rfl l5
  rw [putU64_length] at l6
  have l7 := step 6 _ (putU64 b.cellZ) rfl l6
  rw [putU64_length] at l7
  have l8 := step 7 _ (putU64 b.invCellX) rfl l7
  rw [putU64_length] at l8
  have l9 := step 8 _ (putU64 b.invCellY) rfl l8
  rw [putU64_length] at l9
  have l10 := step 9 _ (putU64 b.invCellZ) rfl l9
  rw [putU64_length] at l10
  have l11 := step 10 _ (putU64 b.sizeX) rfl l10
  rw [putU64_length] at l11
  have l12 := step 11 _ (putU64 b.sizeY) rfl l11
  rw [putU64_length] at l12
  have l13 := step 12 _ (putU64 b.sizeZ) rfl l12
  rw [putU64_length] at l13
  have l14 := step 13 _ (putI64 b.stride1) rfl l13
  rw [putI64_length] at l14
  have l15 := step 14 _ (putI64 b.stride2) rfl l14
  rw [putI64_length] at l15
  have l16 := step 15 _ (putI64 b.numX) rfl l15
  rw [putI64_length] at l16
  have l17 := step 16 _ (putI64 b.numY) rfl l16
  rw [putI64_length] at l17
  have l18 := step 17 _ (putI64 b.numZ) rfl l17
  rw [putI64_length] at l18
  have l19 := step 18 _ (put b.dflt) rfl l18
  rw [hw] at l19
  refine ⟨?_, ?_, ?_, ?_, ?_, ?_, ?_, ?_, ?_, ?_, ?_, ?_, ?_, ?_, ?_, ?_, ?_, ?_, ?_, ?_, ?_⟩
  · rw [at' 0 (putBool b.initialized) rfl]
    exact word_bool _ _ _ _ (by simp [h4])
  · intro j h
    rw [at' 1 (putIso b.origin) rfl]
    obtain ⟨x, y, e, hx⟩ := flatten_split putU64 8 putU64_length b.origin.rows j (by rw [b.origin.len]; exact h)
    rw [putIso, e, re]
    exact word_leBytes _ _ 8 _ _ (by simp [hl, basePieces, putBool_length, h4, hx]; omega)
  · intro j h
    rw [at' 2 (putIso b.inverse) rfl]
    obtain ⟨x, y, e, hx⟩ := flatten_split putU64 8 putU64_length b.inverse.rows j (by rw [b.inverse.len]; exact h)
    rw [putIso, e, re]
    exact word_leBytes _ _ 8 _ _ (by simp [hl, basePieces, putBool_length, putIso_length, h4, hx]; omega)
  · have e : putVec put b.data = [] ++ (leBytes 8 b.data.length ++ (b.data.map put).flatten) := by
      rw [putVec, putU64, ofNat_len hd]; rfl
    rw [at' 3 (putVec put b.data) rfl, e, re]
    exact word_leBytes _ _ 8 _ _ (by rw [List.append_nil, l3])
  · intro k h
    obtain ⟨x, y, e, hx⟩ := flatten_split put w hw b.data k h
    have e' : putVec put b.data = (putU64 (UInt64.ofNat b.data.length) ++ x) ++ (put b.data[k] ++ y) := by
      rw [putVec, e]; simp
    rw [at' 3 (putVec put b.data) rfl, e', re]
    exact hc' _ _ _ _ (by rw [List.length_append, l3, List.length_append, putU64_length, hx]; omega)
  · rw [at' 4 (putU64 b.cellX) rfl]
    exact word_leBytes _ _ 8 _ _ (by rw [l4]; omega)
  · rw [at' 5 (putU64 b.cellY) rfl]
    exact word_leBytes _ _ 8 _ _ (by rw [l5]; omega)
  · rw [at' 6 (putU64 b.cellZ) rfl]
    exact word_leBytes _ _ 8 _ _ (by rw [l6]; omega)
  · rw [at' 7 (putU64 b.invCellX) rfl]
    exact word_leBytes _ _ 8 _ _ (by rw [l7]; omega)
  · rw [at' 8 (putU64 b.invCellY) rfl]
    exact word_leBytes _ _ 8 _ _ (by rw [l8]; omega)
  · rw [at' 9 (putU64 b.invCellZ) rfl]
    exact word_leBytes _ _ 8 _ _ (by rw [l9]; omega)
  · rw [at' 10 (putU64 b.sizeX) rfl]
    exact word_leBytes _ _ 8 _ _ (by rw [l10]; omega)
  · rw [at' 11 (putU64 b.sizeY) rfl]
    exact word_leBytes _ _ 8 _ _ (by rw [l11]; omega)
  · rw [at' 12 (putU64 b.sizeZ) rfl]
    exact word_leBytes _ _ 8 _ _ (by rw [l12]; omega)
  · rw [at' 13 (putI64 b.stride1) rfl]
    exact word_leBytes _ _ 8 _ _ (by rw [l13]; omega)
  · rw [at' 14 (putI64 b.stride2) rfl]
    exact word_leBytes _ _ 8 _ _ (by rw [l14]; omega)
  · rw [at' 15 (putI64 b.numX) rfl]
    exact word_leBytes _ _ 8 _ _ (by rw [l15]; omega)
  · rw [at' 16 (putI64 b.numY) rfl]
    exact word_leBytes _ _ 8 _ _ (by rw [l16]; omega)
  · rw [at' 17 (putI64 b.numZ) rfl]
    exact word_leBytes _ _ 8 _ _ (by rw [l17]; omega)
  · rw [at' 18 (put b.dflt) rfl]
    exact hc' _ _ _ _ (by rw [l18]; omega)
  · rw [at' 19 (put b.oob) rfl]
    exact hc' _ _ _ _ (by rw [l19]; omega)

/-- Where the common part ends. -/
theorem tail_at {α : Type} (put : α → List UInt8) (w : Nat) (hw : ∀ a, (put a).length = w) (b : Base α)
    (magic : List UInt8) (h4 : magic.length = 4) :
    (magic ++ (basePieces put b).flatten).length = 381 + w * b.data.length + 2 * w := by
  have vl : (putVec put b.data).length = 8 + w * b.data.length := by
    simp only [putVec, List.length_append, putU64_length, flatten_length put w hw]
  simp only [basePieces, List.flatten_cons, List.flatten_nil, List.length_append, List.length_nil, putBool_length,
    putIso_length, putU64_length, putI64_length, vl, hw, h4]
  ring

theorem sdf_cell (v : F32) (pre post : List UInt8) : SdfCell (pre ++ (putU32 v ++ post)) pre.length v :=
  word_leBytes _ _ 4 _ _ rfl

theorem collision_cell (c : CCell) (pre post : List UInt8) :
    CollisionCell (pre ++ (putCCell c ++ post)) pre.length c := by
  refine ⟨?_, ?_⟩
  · rw [putCCell, List.append_assoc]; exact word_leBytes _ _ 4 _ _ rfl
  · rw [putCCell, List.append_assoc, ← List.append_assoc]
    exact word_leBytes _ _ 4 _ _ (by simp [putU32_length])

theorem tagged_cell (c : TCell) (pre post : List UInt8) :
    TaggedCell (pre ++ (putTCell c ++ post)) pre.length c := by
  have e : pre ++ (putTCell c ++ post) = pre ++ (putU32 c.occ ++ (putU32 c.comp ++ (putU32 c.obj ++
      (putU32 c.seg ++ post)))) := by simp [putTCell]
  rw [e]
  refine ⟨word_leBytes _ _ 4 _ _ rfl, ?_, ?_, ?_⟩
  · rw [← List.append_assoc]
    exact word_leBytes _ _ 4 _ _ (by simp [putU32_length])
  · rw [← List.append_assoc, ← List.append_assoc]
    exact word_leBytes _ _ 4 _ _ (by simp [putU32_length])
  · rw [← List.append_assoc, ← List.append_assoc, ← List.append_assoc]
    exact word_leBytes _ _ 4 _ _ (by simp [putU32_length])

end Serial

/-! ## C137 -/

/-- Positions of everything in an uncompressed file of a distance field. -/
theorem C137_sdf_file (z : Zlib) (s : SdfRec) (h1 : FitsMemory s.base.data) (h2 : FitsMemory s.frame) :
    SdfLayout (sdfFormat.save z s false) s := by
  have hs : sdfFormat.save z s false = sdfFormat.saveR ++ s.bytes := by
    simp [Format.save, sdfFormat, SdfRec.serialize, appendPieces_eq, SdfRec.bytes]
  have ht := tail_at putU32 4 putU32_length s.base sdfFormat.saveR rfl
  have e : sdfFormat.saveR ++ s.bytes = (sdfFormat.saveR ++ (basePieces putU32 s.base).flatten) ++
      (leBytes 8 s.frame.length ++ (s.frame ++ (putBool s.locked ++ []))) := by
    simp [SdfRec.bytes, putStr, putVec, flatten_u8, putU64, ofNat_len h2]
  rw [hs]
  refine ⟨?_, ?_, ?_, ?_, ?_, ?_⟩
  · rw [show ("SDFR".toList.map fun c => UInt8.ofNat c.toNat) = sdfFormat.saveR by decide]
    exact text_at [] _ _ 0 rfl
  · exact grid_layout SdfCell 4 putU32 putU32_length sdf_cell s.base h1 _ rfl _
  · rw [e]; exact word_leBytes _ _ 8 _ _ (by rw [ht]; omega)
  · rw [e, ← List.append_assoc]; exact text_at _ _ _ _ (by rw [List.length_append, ht, leBytes_length]; omega)
  · rw [e, ← List.append_assoc, ← List.append_assoc]
    exact word_bool _ _ _ _ (by rw [List.length_append, List.length_append, ht, leBytes_length]; omega)
  · rw [e, List.length_append, ht]
    simp only [List.length_append, leBytes_length, putBool_length, List.length_nil]; omega

/-- Positions of everything in an uncompressed file of a collision map. -/
theorem C137_cmap_file (z : Zlib) (m : CMapRec) (h1 : FitsMemory m.base.data) (h2 : FitsMemory m.frame) :
    CollisionLayout (cmapFormat.save z m false) m := by
  have hs : cmapFormat.save z m false = cmapFormat.saveR ++ m.bytes := by
    simp [Format.save, cmapFormat, CMapRec.serialize, appendPieces_eq, CMapRec.bytes]
  have ht := tail_at putCCell 8 putCCell_length m.base cmapFormat.saveR rfl
  have e : cmapFormat.saveR ++ m.bytes = (cmapFormat.saveR ++ (basePieces putCCell m.base).flatten) ++
      (putU32 m.nComp ++ (leBytes 8 m.frame.length ++ (m.frame ++ (putBool m.compValid ++ [])))) := by
    simp [CMapRec.bytes, putStr, putVec, flatten_u8, putU64, ofNat_len h2]
  rw [hs]
  refine ⟨?_, ?_, ?_, ?_, ?_, ?_, ?_⟩
  · rw [show ("CMGR".toList.map fun c => UInt8.ofNat c.toNat) = cmapFormat.saveR by decide]
    exact text_at [] _ _ 0 rfl
  · exact grid_layout CollisionCell 8 putCCell putCCell_length collision_cell m.base h1 _ rfl _
  · rw [e]; exact word_leBytes _ _ 4 _ _ (by rw [ht]; omega)
  · rw [e, ← List.append_assoc]
    exact word_leBytes _ _ 8 _ _ (by rw [List.length_append, ht, putU32_length]; omega)
  · rw [e, ← List.append_assoc, ← List.append_assoc]
    exact text_at _ _ _ _ (by rw [List.length_append, List.length_append, ht, leBytes_length, putU32_length]; omega)
  · rw [e, ← List.append_assoc, ← List.append_assoc, ← List.append_assoc]
    exact word_bool _ _ _ _ (by
      rw [List.length_append, List.length_append, List.length_append, ht, leBytes_length, putU32_length]; omega)
  · rw [e, List.length_append, ht]
    simp only [List.length_append, leBytes_length, putBool_length, putU32_length, List.length_nil]; omega

/-- Positions of everything in an uncompressed file of a tagged map. -/
theorem C137_tmap_file (z : Zlib) (m : TMapRec) (h1 : FitsMemory m.base.data) (h2 : FitsMemory m.frame) :
    TaggedLayout (tmapFormat.save z m false) m := by
  have hs : tmapFormat.save z m false = tmapFormat.saveR ++ m.bytes := by
    simp [Format.save, tmapFormat, TMapRec.serialize, appendPieces_eq, TMapRec.bytes]
  have ht := tail_at putTCell 16 putTCell_length m.base tmapFormat.saveR rfl
  have e : tmapFormat.saveR ++ m.bytes = (tmapFormat.saveR ++ (basePieces putTCell m.base).flatten) ++
      (putU32 m.nComp ++ (putU32 m.nSeg ++ (leBytes 8 m.frame.length ++ (m.frame ++ (putBool m.compValid ++
        (putBool m.segValid ++ [])))))) := by
    simp [TMapRec.bytes, putStr, putVec, flatten_u8, putU64, ofNat_len h2]
  rw [hs]
  refine ⟨?_, ?_, ?_, ?_, ?_, ?_, ?_, ?_, ?_⟩
  · rw [show ("TCMR".toList.map fun c => UInt8.ofNat c.toNat) = tmapFormat.saveR by decide]
    exact text_at [] _ _ 0 rfl
  · exact grid_layout TaggedCell 16 putTCell putTCell_length tagged_cell m.base h1 _ rfl _
  · rw [e]; exact word_leBytes _ _ 4 _ _ (by rw [ht]; omega)
  · rw [e, ← List.append_assoc]
    exact word_leBytes _ _ 4 _ _ (by rw [List.length_append, ht, putU32_length]; omega)
  · rw [e, ← List.append_assoc, ← List.append_assoc]
    exact word_leBytes _ _ 8 _ _ (by simp only [List.length_append (as := _ ++ _), ht, putU32_length]; omega)
  · rw [e, ← List.append_assoc, ← List.append_assoc, ← List.append_assoc]
    exact text_at _ _ _ _ (by
      rw [List.length_append, List.length_append, List.length_append, ht, leBytes_length, putU32_length, putU32_length]
      omega)
  · rw [e, ← List.append_assoc, ← List.append_assoc, ← List.append_assoc, ← List.append_assoc]
    exact word_bool _ _ _ _ (by
      rw [List.length_append, List.length_append, List.length_append, List.length_append, ht, leBytes_length,
        putU32_length, putU32_length]; omega)
  · rw [e, ← List.append_assoc, ← List.append_assoc, ← List.append_assoc, ← List.append_assoc, ← List.append_assoc]
    exact word_bool _ _ _ _ (by
      rw [List.length_append, List.length_append, List.length_append, List.length_append, List.length_append, ht,
        leBytes_length, putU32_length, putU32_length, putBool_length]; omega)
  · rw [e, List.length_append, ht]
    simp only [List.length_append, leBytes_length, putBool_length, putU32_length, List.length_nil]; omega

/-! The layout fixes every byte, so a program that writes a file by it writes the file the library would
have written. -/

namespace Spec

theorem Word.same {a b : List UInt8} {off k v : Nat} (ha : Word a off k v) (hb : Word b off k v) {i : Nat}
    (h1 : off ≤ i) (h2 : i < off + k) : a[i]? = b[i]? := by
  obtain ⟨j, rfl⟩ := Nat.exists_eq_add_of_le h1
  obtain ⟨x, hx, ex⟩ := ha j (by omega)
  obtain ⟨y, hy, ey⟩ := hb j (by omega)
  rw [hx, hy, UInt8.toNat_inj.1 (ex.trans ey.symm)]

theorem Text.same {a b : List UInt8} {off : Nat} {l : List UInt8} (ha : Text a off l) (hb : Text b off l)
    {i : Nat} (h1 : off ≤ i) (h2 : i < off + l.length) : a[i]? = b[i]? := by
  obtain ⟨j, rfl⟩ := Nat.exists_eq_add_of_le h1
  rw [ha j (by omega), hb j (by omega)]

theorem collision_same {a b : List UInt8} {off : Nat} {v : CCell} (h1 : CollisionCell a off v)
    (h2 : CollisionCell b off v) {i : Nat} (l : off ≤ i) (r : i < off + 8) : a[i]? = b[i]? := by
  by_cases c : i < off + 4
  · exact h1.1.same h2.1 l c
  · exact h1.2.same h2.2 (by omega) (by omega)

theorem tagged_same {a b : List UInt8} {off : Nat} {v : TCell} (h1 : TaggedCell a off v)
    (h2 : TaggedCell b off v) {i : Nat} (l : off ≤ i) (r : i < off + 16) : a[i]? = b[i]? := by
  by_cases c : i < off + 4
  · exact h1.1.same h2.1 l c
  by_cases c' : i < off + 4 + 4
  · exact h1.2.1.same h2.2.1 (by omega) c'
  by_cases c'' : i < off + 8 + 4
  · exact h1.2.2.1.same h2.2.2.1 (by omega) c''
  · exact h1.2.2.2.same h2.2.2.2 (by omega) (by omega)

theorem GridLayout.same {α : Type} {Cell : List UInt8 → Nat → α → Prop} {w : Nat} (hw : 0 < w)
    (hc : ∀ {a b : List UInt8} {off : Nat} {v : α}, Cell a off v → Cell b off v →
      ∀ {i : Nat}, off ≤ i → i < off + w → a[i]? = b[i]?)
    {a b : List UInt8} {g : Base α} (ha : GridLayout Cell w a g) (hb : GridLayout Cell w b g) {i : Nat}
    (h1 : 4 ≤ i) (h2 : i < 381 + w * g.data.length + 2 * w) : a[i]? = b[i]? := by
  by_cases c0 : i < 5
  · exact ha.initialized.same hb.initialized (by omega) (by omega)
  by_cases c1 : i < 133
  · exact (ha.origin ((i - 5) / 8) (by omega)).same (hb.origin ((i - 5) / 8) (by omega)) (by omega) (by omega)
  by_cases c2 : i < 261
  · exact (ha.inverse ((i - 133) / 8) (by omega)).same (hb.inverse ((i - 133) / 8) (by omega)) (by omega) (by omega)
  by_cases c3 : i < 269
  · exact ha.count.same hb.count (by omega) (by omega)
  by_cases c4 : i < 269 + w * g.data.length
  · have hk : (i - 269) / w < g.data.length := by
      rw [Nat.div_lt_iff_lt_mul hw]; rw [Nat.mul_comm]; omega
    have e := Nat.div_add_mod (i - 269) w
    have r := Nat.mod_lt (i - 269) hw
    exact hc (ha.cells _ hk) (hb.cells _ hk) (by omega) (by omega)
  generalize hn : w * g.data.length = n at *
  by_cases d0 : i < 277 + n
  · exact (hn ▸ ha.cellX).same (hn ▸ hb.cellX) (by omega) (by omega)
  by_cases d1 : i < 285 + n
  · exact (hn ▸ ha.cellY).same (hn ▸ hb.cellY) (by omega) (by omega)
  by_cases d2 : i < 293 + n
  · exact (hn ▸ ha.cellZ).same (hn ▸ hb.cellZ) (by omega) (by omega)
  by_cases d3 : i < 301 + n
  · exact (hn ▸ ha.invCellX).same (hn ▸ hb.invCellX) (by omega) (by omega)
  by_cases d4 : i < 309 + n
  · exact (hn ▸ ha.invCellY).same (hn ▸ hb.invCellY) (by omega) (by omega)
  by_cases d5 : i < 317 + n
  · exact (hn ▸ ha.invCellZ).same (hn ▸ hb.invCellZ) (by omega) (by omega)
  by_cases d6 : i < 325 + n
  · exact (hn ▸ ha.sizeX).same (hn ▸ hb.sizeX) (by omega) (by omega)
  by_cases d7 : i < 333 + n
  · exact (hn ▸ ha.sizeY).same (hn ▸ hb.sizeY) (by omega) (by omega)
  by_cases d8 : i < 341 + n
  · exact (hn ▸ ha.sizeZ).same (hn ▸ hb.sizeZ) (by omega) (by omega)
  by_cases d9 : i < 349 + n
  · exact (hn ▸ ha.stride1).same (hn ▸ hb.stride1) (by omega) (by omega)
  by_cases d10 : i < 357 + n
  · exact (hn ▸ ha.stride2).same (hn ▸ hb.stride2) (by omega) (by omega)
  by_cases d11 : i < 365 + n
  · exact (hn ▸ ha.numX).same (hn ▸ hb.numX) (by omega) (by omega)
  by_cases d12 : i < 373 + n
  · exact (hn ▸ ha.numY).same (hn ▸ hb.numY) (by omega) (by omega)
  by_cases d13 : i < 381 + n
  · exact (hn ▸ ha.numZ).same (hn ▸ hb.numZ) (by omega) (by omega)
  by_cases d14 : i < 381 + n + w
  · exact hc (hn ▸ ha.dflt) (hn ▸ hb.dflt) (by omega) (by omega)
  · exact hc (hn ▸ ha.oob) (hn ▸ hb.oob) (by omega) (by omega)

theorem SdfLayout.same {a b : List UInt8} {s : SdfRec} (ha : SdfLayout a s) (hb : SdfLayout b s) : a = b := by
  apply List.ext_getElem?
  intro i
  by_cases c0 : i < 4
  · exact ha.magic.same hb.magic (by omega) (by simpa using c0)
  by_cases c1 : i < 389 + 4 * s.base.data.length
  · exact GridLayout.same (Cell := SdfCell) (w := 4) (g := s.base) (by norm_num) (fun h1 h2 _ l r => Word.same h1 h2 l r) ha.grid hb.grid
      (by omega) (by omega)
  by_cases c2 : i < 397 + 4 * s.base.data.length
  · exact ha.frameLength.same hb.frameLength (by omega) (by omega)
  by_cases c3 : i < 397 + 4 * s.base.data.length + s.frame.length
  · exact ha.frame.same hb.frame (by omega) (by omega)
  by_cases c4 : i < 398 + 4 * s.base.data.length + s.frame.length
  · exact ha.locked.same hb.locked (by omega) (by omega)
  · rw [List.getElem?_eq_none (by rw [ha.length]; omega), List.getElem?_eq_none (by rw [hb.length]; omega)]

theorem CollisionLayout.same {a b : List UInt8} {m : CMapRec} (ha : CollisionLayout a m)
    (hb : CollisionLayout b m) : a = b := by
  apply List.ext_getElem?
  intro i
  by_cases c0 : i < 4
  · exact ha.magic.same hb.magic (by omega) (by simpa using c0)
  by_cases c1 : i < 397 + 8 * m.base.data.length
  · exact GridLayout.same (Cell := CollisionCell) (w := 8) (g := m.base) (by norm_num) (fun h1 h2 _ l r => collision_same h1 h2 l r) ha.grid hb.grid
      (by omega) (by omega)
  by_cases c2 : i < 401 + 8 * m.base.data.length
  · exact ha.components.same hb.components (by omega) (by omega)
  by_cases c3 : i < 409 + 8 * m.base.data.length
  · exact ha.frameLength.same hb.frameLength (by omega) (by omega)
  by_cases c4 : i < 409 + 8 * m.base.data.length + m.frame.length
  · exact ha.frame.same hb.frame (by omega) (by omega)
  by_cases c5 : i < 410 + 8 * m.base.data.length + m.frame.length
  · exact ha.valid.same hb.valid (by omega) (by omega)
  · rw [List.getElem?_eq_none (by rw [ha.length]; omega), List.getElem?_eq_none (by rw [hb.length]; omega)]

theorem TaggedLayout.same {a b : List UInt8} {m : TMapRec} (ha : TaggedLayout a m)
    (hb : TaggedLayout b m) : a = b := by
  apply List.ext_getElem?
  intro i
  by_cases c0 : i < 4
  · exact ha.magic.same hb.magic (by omega) (by simpa using c0)
  by_cases c1 : i < 413 + 16 * m.base.data.length
  · exact GridLayout.same (Cell := TaggedCell) (w := 16) (g := m.base) (by norm_num) (fun h1 h2 _ l r => tagged_same h1 h2 l r) ha.grid hb.grid
      (by omega) (by omega)
  by_cases c2 : i < 417 + 16 * m.base.data.length
  · exact ha.components.same hb.components (by omega) (by omega)
  by_cases c2' : i < 421 + 16 * m.base.data.length
  · exact ha.segments.same hb.segments (by omega) (by omega)
  by_cases c3 : i < 429 + 16 * m.base.data.length
  · exact ha.frameLength.same hb.frameLength (by omega) (by omega)
  by_cases c4 : i < 429 + 16 * m.base.data.length + m.frame.length
  · exact ha.frame.same hb.frame (by omega) (by omega)
  by_cases c5 : i < 430 + 16 * m.base.data.length + m.frame.length
  · exact ha.valid.same hb.valid (by omega) (by omega)
  by_cases c6 : i < 431 + 16 * m.base.data.length + m.frame.length
  · exact ha.segmentsValid.same hb.segmentsValid (by omega) (by omega)
  · rw [List.getElem?_eq_none (by rw [ha.length]; omega), List.getElem?_eq_none (by rw [hb.length]; omega)]

end Spec

theorem Serial.Format.Ok.load_raw {M : Type} {f : Format M} {m : M} {bytes : List UInt8} (h : f.Ok m bytes)
    (z : Zlib) : f.load z (some (f.save z m false)) = .ok m := by
  unfold Format.load Format.save
  simp only [Bool.false_eq_true, if_false]
  rw [if_pos (by simp [h.r4]), cString_magic h.r4 h.rnz, if_neg h.ne, if_pos h.rr,
    List.drop_left' h.r4, h.ser]
  exact h.decode

/-- Whoever writes a file by the layout of a map gives `LoadFromFile` that map. -/
theorem C137_files_by_layout_load (z : Zlib) :
    (∀ (s : SdfRec) (bytes : List UInt8), FitsMemory s.base.data → FitsMemory s.frame →
      SdfLayout bytes s → sdfFormat.load z (some bytes) = .ok s) ∧
    (∀ (m : CMapRec) (bytes : List UInt8), FitsMemory m.base.data → FitsMemory m.frame →
      CollisionLayout bytes m → cmapFormat.load z (some bytes) = .ok m) ∧
    (∀ (m : TMapRec) (bytes : List UInt8), FitsMemory m.base.data → FitsMemory m.frame →
      TaggedLayout bytes m → tmapFormat.load z (some bytes) = .ok m) := by
  refine ⟨fun s bytes h1 h2 h => ?_, fun m bytes h1 h2 h => ?_, fun m bytes h1 h2 h => ?_⟩
  · rw [h.same (C137_sdf_file z s h1 h2)]
    exact (sdf_ok s h1 h2).load_raw z
  · rw [h.same (C137_cmap_file z m h1 h2)]
    exact (cmap_ok m h1 h2).load_raw z
  · rw [h.same (C137_tmap_file z m h1 h2)]
    exact (tmap_ok m h1 h2).load_raw z

/-- The value at a cell of the grid: four bytes at `269 + 4 * (x * ny * nz + y * nz + z)`. -/
theorem C137_sdf_value (z : Zlib) (s : SdfRec) (h1 : FitsMemory s.base.data) (h2 : FitsMemory s.frame)
    (g : Grid F32) (hg : g.WF) (hs : g.data = s.base.data) (i : Idx) (hi : InBounds g.dims i) :
    SdfCell (sdfFormat.save z s false)
      (269 + 4 * (i.x.toNat * (g.dims.ny * g.dims.nz) + i.y.toNat * g.dims.nz + i.z.toNat)) (g.get i) := by
  have hb : g.dims.inB i = true := by
    obtain ⟨⟨a, b⟩, ⟨c, d⟩, e, f⟩ := hi
    exact Dims.inB_iff.2 ⟨a, c, e, b, d, f⟩
  have e := Grid.get_eq_getElem hg hb
  rw [hs] at e
  obtain ⟨hl, e'⟩ := List.getElem?_eq_some_iff.1 e
  have := (C137_sdf_file z s h1 h2).grid.cells _ hl
  rw [e'] at this
  exact this

/-- Two maps with the same uncompressed file are the same map. -/
theorem C137_files_tell_maps_apart (z : Zlib) :
    (∀ s s' : SdfRec, FitsMemory s.base.data → FitsMemory s.frame → FitsMemory s'.base.data →
      FitsMemory s'.frame → sdfFormat.save z s false = sdfFormat.save z s' false → s = s') ∧
    (∀ m m' : CMapRec, FitsMemory m.base.data → FitsMemory m.frame → FitsMemory m'.base.data →
      FitsMemory m'.frame → cmapFormat.save z m false = cmapFormat.save z m' false → m = m') ∧
    (∀ m m' : TMapRec, FitsMemory m.base.data → FitsMemory m.frame → FitsMemory m'.base.data →
      FitsMemory m'.frame → tmapFormat.save z m false = tmapFormat.save z m' false → m = m') := by
  refine ⟨fun s s' a b c d e => ?_, fun s s' a b c d e => ?_, fun s s' a b c d e => ?_⟩
  · have h := (sdf_ok s a b).load_raw z
    rw [e, (sdf_ok s' c d).load_raw z] at h
    exact (Except.ok.inj h).symm
  · have h := (cmap_ok s a b).load_raw z
    rw [e, (cmap_ok s' c d).load_raw z] at h
    exact (Except.ok.inj h).symm
  · have h := (tmap_ok s a b).load_raw z
    rw [e, (tmap_ok s' c d).load_raw z] at h
    exact (Except.ok.inj h).symm

/-- The message of a map: zlib applied to the file without its four header bytes. -/
theorem C137_messages (z : Zlib) (s : SdfRec) (m : CMapRec) (t : TMapRec) :
    sdfFormat.toMsg z s = ⟨z.compress ((sdfFormat.save z s false).drop 4), true⟩ ∧
    cmapFormat.toMsg z m = ⟨z.compress ((cmapFormat.save z m false).drop 4), true⟩ ∧
    tmapFormat.toMsg z t = ⟨z.compress ((tmapFormat.save z t false).drop 4), true⟩ :=
  ⟨rfl, rfl, rfl⟩

example (z : Zlib) : (sdfFormat.save z exSdfRec false).length = 411 ∧
    Word (sdfFormat.save z exSdfRec false) 269 4 0x3F800000 ∧
    Word (sdfFormat.save z exSdfRec false) 273 4 0xBF800000 := by
  have h := C137_sdf_file z exSdfRec (by unfold FitsMemory; decide +kernel) (by unfold FitsMemory; decide +kernel)
  exact ⟨h.length, h.grid.cells 0 (by decide), h.grid.cells 1 (by decide)⟩

example (z : Zlib) : (cmapFormat.save z exCMapRec false).length = 431 ∧
    (tmapFormat.save z exTMapRec false).length = 466 ∧
    Word (tmapFormat.save z exTMapRec false) (269 + 8) 4 7 := by
  have h := C137_cmap_file z exCMapRec (by unfold FitsMemory; decide +kernel) (by unfold FitsMemory; decide +kernel)
  have h' := C137_tmap_file z exTMapRec (by unfold FitsMemory; decide +kernel) (by unfold FitsMemory; decide +kernel)
  exact ⟨h.length, h'.length, (h'.grid.cells 0 (by decide)).2.2.1⟩

/-- A one-by-one-by-two field stored in the two cells of `exSdfRec`. -/
example (z : Zlib) : Word (sdfFormat.save z exSdfRec false) 273 4 0xBF800000 :=
  C137_sdf_value z exSdfRec (by unfold FitsMemory; decide +kernel) (by unfold FitsMemory; decide +kernel)
    ⟨⟨1, 1, 2⟩, [0x3F800000, 0xBF800000], 0, 0⟩ rfl rfl ⟨0, 0, 1⟩ (by norm_num [InBounds])

example : exSdfRec ≠ { exSdfRec with locked := false } := by decide +kernel

end Verif
