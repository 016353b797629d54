import Verif.Serial
import Mathlib.Tactic.Linarith

/-!
# Properties of serialization, files and messages (C28-C33, C55)
-/

namespace Verif

open Serial

namespace Spec

/-- Lengths are 64-bit in memory: a vector or string has fewer than `2^64` elements. -/
def FitsMemory {α : Type} (l : List α) : Prop := l.length < 2 ^ 64

/-- `deserialize` undoes `serialize`: whatever the buffer contained before (`before`) and contains
afterwards (`after`), whatever the object held before (`old`), `SerializeSelf` only appends, the
value read back at the position where writing began is the one written, and both sides report the
number of appended bytes. -/
def RoundTrips {M : Type} (serialize : M → List UInt8 → List UInt8 × Nat)
    (deserialize : M → List UInt8 → Nat → Option (M × Nat)) (m : M) : Prop :=
  ∃ bytes : List UInt8, ∀ (before after : List UInt8) (old : M),
    serialize m before = (before ++ bytes, bytes.length) ∧
    deserialize old (before ++ bytes ++ after) before.length = some (m, bytes.length)

/-- zlib: decompression undoes compression. -/
def ZlibOk (z : Zlib) : Prop := ∀ b, z.decompress (z.compress b) = some b

/-- ASCII text as bytes. -/
def ascii (s : String) : List UInt8 := s.toList.map fun c => UInt8.ofNat c.toNat

end Spec

open Spec

namespace Serial

/-! ## Bytes -/

theorem leBytes_length (k v : Nat) : (leBytes k v).length = k := by
  induction k generalizing v with
  | zero => rfl
  | succ k ih => simp [leBytes, ih]

theorem ofLe_leBytes (k v : Nat) (h : v < 256 ^ k) : ofLe (leBytes k v) = v := by
  induction k generalizing v with
  | zero => simp [leBytes, ofLe] at *; omega
  | succ k ih =>
    have h2 : v / 256 < 256 ^ k := by
      rw [Nat.div_lt_iff_lt_mul (by norm_num)]; rw [pow_succ] at h; exact h
    have h3 : (UInt8.ofNat (v % 256)).toNat = v % 256 := by
      simp
    simp only [leBytes, ofLe, ih _ h2, h3]
    omega

/-! ## Readers -/

/-- The reader reads the value `a` wherever the bytes `bs` stand. -/
def Reads {α : Type} (r : Reader α) (bs : List UInt8) (a : α) : Prop :=
  ∀ before after : List UInt8, r (before ++ bs ++ after) before.length = some (a, bs.length)

theorem Reads.pure {α : Type} (a : α) : Reads (Pure.pure a : Reader α) [] a := by
  intro b c; rfl

theorem Reads.bind {α β : Type} {r : Reader α} {f : α → Reader β} {b1 b2 : List UInt8} {a : α} {c : β}
    (h1 : Reads r b1 a) (h2 : Reads (f a) b2 c) : Reads (r >>= f) (b1 ++ b2) c := by
  intro pre post
  show Reader.bind r f _ _ = _
  unfold Reader.bind
  have e1 : pre ++ (b1 ++ b2) ++ post = pre ++ b1 ++ (b2 ++ post) := by simp
  have e2 : pre ++ (b1 ++ b2) ++ post = (pre ++ b1) ++ b2 ++ post := by simp
  have h1' := h1 pre (b2 ++ post)
  have h2' := h2 (pre ++ b1) post
  rw [← e1] at h1'
  rw [← e2, List.length_append] at h2'
  rw [h1']
  dsimp only
  rw [h2']
  simp

theorem Reads.map {α β : Type} {r : Reader α} {f : α → β} {b : List UInt8} {a : α}
    (h : Reads r b a) : Reads (r >>= fun x => Pure.pure (f x)) b (f a) := by
  have := h.bind (f := fun x => Pure.pure (f x)) (Reads.pure (f a))
  simpa using this

theorem reads_pod (k v : Nat) (h : v < 256 ^ k) : Reads (getPod k) (leBytes k v) v := by
  intro pre post
  unfold getPod
  rw [if_pos (by simp [leBytes_length])]
  have : ((pre ++ leBytes k v ++ post).drop pre.length).take k = leBytes k v := by
    rw [List.append_assoc, List.drop_left, List.take_left' (leBytes_length _ _)]
  rw [this, ofLe_leBytes k v h, leBytes_length]

theorem reads_u8 (v : UInt8) : Reads getU8 (putU8 v) v := by
  have := (reads_pod 1 v.toNat (by have := v.toNat_lt; simpa using this)).map (f := UInt8.ofNat)
  rwa [show UInt8.ofNat v.toNat = v by simp] at this

theorem reads_u32 (v : UInt32) : Reads getU32 (putU32 v) v := by
  have := (reads_pod 4 v.toNat (by have := v.toNat_lt; simpa using this)).map (f := UInt32.ofNat)
  rwa [show UInt32.ofNat v.toNat = v by simp] at this

theorem reads_u64 (v : UInt64) : Reads getU64 (putU64 v) v := by
  have := (reads_pod 8 v.toNat (by have := v.toNat_lt; simpa using this)).map (f := UInt64.ofNat)
  rwa [show UInt64.ofNat v.toNat = v by simp] at this

theorem reads_i64 (v : Int64) : Reads getI64 (putI64 v) v := by
  exact (reads_u64 v.toUInt64).map (f := UInt64.toInt64)

theorem reads_bool (b : Bool) : Reads getBool (putBool b) b := by
  have := (reads_u8 (if b then 1 else 0)).map (f := fun x => x != 0)
  cases b <;> exact this

theorem reads_ccell (c : CCell) : Reads getCCell (putCCell c) c := by
  unfold getCCell putCCell
  exact (reads_u32 c.occ).bind ((reads_u32 c.comp).map)

theorem reads_tcell (c : TCell) : Reads getTCell (putTCell c) c := by
  unfold getTCell putTCell
  simp only [List.append_assoc]
  exact (reads_u32 c.occ).bind ((reads_u32 c.comp).bind ((reads_u32 c.obj).bind ((reads_u32 c.seg).map)))

theorem reads_many {α : Type} {get : Reader α} {put : α → List UInt8} (h : ∀ a, Reads get (put a) a)
    (l : List α) : Reads (getMany get l.length) ((l.map put).flatten) l := by
  induction l with
  | nil => exact Reads.pure _
  | cons a l ih =>
    simp only [List.map_cons, List.flatten_cons]
    exact (h a).bind (ih.map)

theorem reads_vec {α : Type} {get : Reader α} {put : α → List UInt8} (h : ∀ a, Reads get (put a) a)
    (l : List α) (hl : FitsMemory l) : Reads (getVec get) (putVec put l) l := by
  unfold getVec putVec
  refine (reads_u64 _).bind ?_
  have : (UInt64.ofNat l.length).toNat = l.length := by
    rw [UInt64.toNat_ofNat']; exact Nat.mod_eq_of_lt hl
  rw [this]
  exact reads_many h l

theorem reads_str (l : List UInt8) (hl : FitsMemory l) : Reads getStr (putStr l) l :=
  reads_vec reads_u8 l hl

theorem reads_iso (t : Iso) : Reads getIso (putIso t) t := by
  intro pre post
  have h := reads_many reads_u64 t.rows pre post
  rw [t.len] at h
  unfold getIso putIso
  split
  · rename_i h'; rw [h] at h'; simp at h'
  · rename_i h'
    rw [h] at h'
    simp only [Option.some.injEq, Prod.mk.injEq] at h'
    obtain ⟨rfl, rfl⟩ := h'
    rfl

theorem reads_base {α : Type} {get : Reader α} {put : α → List UInt8} (h : ∀ a, Reads get (put a) a)
    (b old : Base α) (hd : FitsMemory b.data) :
    Reads (readBase get old) (basePieces put b).flatten b := by
  unfold readBase basePieces
  simp only [List.flatten_cons, List.flatten_nil]
  refine (reads_bool _).bind ?_
  refine (reads_iso _).bind ?_
  refine (reads_iso _).bind ?_
  refine (reads_vec h _ hd).bind ?_
  iterate 9 refine (reads_u64 _).bind ?_
  iterate 5 refine (reads_i64 _).bind ?_
  refine (h _).bind ?_
  refine (h _).bind ?_
  exact Reads.pure b

theorem appendPieces_eq (p : List (List UInt8)) (buffer : List UInt8) :
    appendPieces p buffer = (buffer ++ p.flatten, p.flatten.length) := by
  have : ∀ b : List UInt8, p.foldl (· ++ ·) b = b ++ p.flatten := by
    induction p with
    | nil => simp
    | cons a p ih => intro b; simp [ih, List.append_assoc]
  unfold appendPieces
  simp [this]

/-- The bytes `SerializeSelf` appends. -/
def SdfRec.bytes (s : SdfRec) : List UInt8 :=
  (basePieces putU32 s.base ++ [putStr s.frame, putBool s.locked]).flatten

def CMapRec.bytes (m : CMapRec) : List UInt8 :=
  (basePieces putCCell m.base ++ [putU32 m.nComp, putStr m.frame, putBool m.compValid]).flatten

def TMapRec.bytes (m : TMapRec) : List UInt8 :=
  (basePieces putTCell m.base ++
    [putU32 m.nComp, putU32 m.nSeg, putStr m.frame, putBool m.compValid, putBool m.segValid]).flatten

theorem reads_sdf (s old : SdfRec) (h1 : FitsMemory s.base.data) (h2 : FitsMemory s.frame) :
    Reads old.deserialize s.bytes s := by
  unfold SdfRec.deserialize SdfRec.bytes
  simp only [List.flatten_append, List.flatten_cons, List.flatten_nil]
  refine (reads_base reads_u32 _ _ h1).bind ?_
  refine (reads_str _ h2).bind ?_
  refine (reads_bool _).bind ?_
  exact Reads.pure s

theorem reads_cmap (m old : CMapRec) (h1 : FitsMemory m.base.data) (h2 : FitsMemory m.frame) :
    Reads old.deserialize m.bytes m := by
  unfold CMapRec.deserialize CMapRec.bytes
  simp only [List.flatten_append, List.flatten_cons, List.flatten_nil]
  refine (reads_base reads_ccell _ _ h1).bind ?_
  refine (reads_u32 _).bind ?_
  refine (reads_str _ h2).bind ?_
  refine (reads_bool _).bind ?_
  exact Reads.pure m

theorem reads_tmap (m old : TMapRec) (h1 : FitsMemory m.base.data) (h2 : FitsMemory m.frame) :
    Reads old.deserialize m.bytes m := by
  unfold TMapRec.deserialize TMapRec.bytes
  simp only [List.flatten_append, List.flatten_cons, List.flatten_nil]
  refine (reads_base reads_tcell _ _ h1).bind ?_
  refine (reads_u32 _).bind ?_
  refine (reads_u32 _).bind ?_
  refine (reads_str _ h2).bind ?_
  refine (reads_bool _).bind ?_
  refine (reads_bool _).bind ?_
  exact Reads.pure m

/-! ## Reading is local: bytes behind those consumed do not matter -/

/-- What was read lies inside the buffer, and stays readable when the buffer is extended. -/
def Local {α : Type} (r : Reader α) : Prop :=
  ∀ (buf : List UInt8) (pos : Nat) (a : α) (n : Nat), pos ≤ buf.length → r buf pos = some (a, n) →
    pos + n ≤ buf.length ∧ ∀ ext, r (buf ++ ext) pos = some (a, n)

theorem Local.pure {α : Type} (a : α) : Local (Pure.pure a : Reader α) := by
  intro buf pos b n hp h
  have h' : some (a, 0) = some (b, n) := h
  simp only [Option.some.injEq, Prod.mk.injEq] at h'
  obtain ⟨rfl, rfl⟩ := h'
  exact ⟨hp, fun _ => rfl⟩

theorem Local.bind {α β : Type} {r : Reader α} {f : α → Reader β} (h1 : Local r)
    (h2 : ∀ a, Local (f a)) : Local (r >>= f) := by
  intro buf pos b n hp h
  have h' : Reader.bind r f buf pos = some (b, n) := h
  unfold Reader.bind at h'
  split at h'
  · simp at h'
  · rename_i a k hr
    split at h'
    · simp at h'
    · rename_i c j hf
      simp only [Option.some.injEq, Prod.mk.injEq] at h'
      obtain ⟨rfl, rfl⟩ := h'
      obtain ⟨g1, g2⟩ := h1 _ _ _ _ hp hr
      obtain ⟨g3, g4⟩ := h2 a _ _ _ _ g1 hf
      refine ⟨by omega, fun ext => ?_⟩
      show Reader.bind r f _ _ = _
      unfold Reader.bind
      rw [g2 ext]
      dsimp only
      rw [g4 ext]

theorem local_pod (k : Nat) : Local (getPod k) := by
  intro buf pos a n hp h
  unfold getPod at h ⊢
  split at h
  · rename_i hk
    simp only [Option.some.injEq, Prod.mk.injEq] at h
    obtain ⟨rfl, rfl⟩ := h
    refine ⟨hk, fun ext => ?_⟩
    rw [if_pos (by rw [List.length_append]; omega)]
    rw [List.drop_append_of_le_length hp, List.take_append_of_le_length (by rw [List.length_drop]; omega)]
  · simp at h

theorem local_u8 : Local getU8 := (local_pod 1).bind fun _ => Local.pure _
theorem local_u32 : Local getU32 := (local_pod 4).bind fun _ => Local.pure _
theorem local_u64 : Local getU64 := (local_pod 8).bind fun _ => Local.pure _
theorem local_i64 : Local getI64 := local_u64.bind fun _ => Local.pure _
theorem local_bool : Local getBool := local_u8.bind fun _ => Local.pure _
theorem local_ccell : Local getCCell := local_u32.bind fun _ => local_u32.bind fun _ => Local.pure _
theorem local_tcell : Local getTCell :=
  local_u32.bind fun _ => local_u32.bind fun _ => local_u32.bind fun _ => local_u32.bind fun _ =>
    Local.pure _

theorem local_many {α : Type} {get : Reader α} (h : Local get) (n : Nat) : Local (getMany get n) := by
  induction n with
  | zero => exact Local.pure _
  | succ n ih => exact h.bind fun _ => ih.bind fun _ => Local.pure _

theorem local_vec {α : Type} {get : Reader α} (h : Local get) : Local (getVec get) :=
  local_u64.bind fun _ => local_many h _

theorem local_str : Local getStr := local_vec local_u8

theorem local_iso : Local getIso := by
  intro buf pos a n hp h
  unfold getIso at h
  split at h
  · simp at h
  · rename_i l k hm
    simp only [Option.some.injEq, Prod.mk.injEq] at h
    obtain ⟨rfl, rfl⟩ := h
    obtain ⟨g1, g2⟩ := local_many local_u64 16 _ _ _ _ hp hm
    refine ⟨g1, fun ext => ?_⟩
    unfold getIso
    split
    · rename_i h'; rw [g2] at h'; simp at h'
    · rename_i h'
      rw [g2] at h'
      simp only [Option.some.injEq, Prod.mk.injEq] at h'
      obtain ⟨rfl, rfl⟩ := h'
      rfl

theorem local_base {α : Type} {get : Reader α} (h : Local get) (old : Base α) :
    Local (readBase get old) := by
  unfold readBase
  refine local_bool.bind fun _ => ?_
  refine local_iso.bind fun _ => ?_
  refine local_iso.bind fun _ => ?_
  refine (local_vec h).bind fun _ => ?_
  iterate 9 refine local_u64.bind fun _ => ?_
  iterate 5 refine local_i64.bind fun _ => ?_
  refine h.bind fun _ => ?_
  refine h.bind fun _ => ?_
  exact Local.pure _

theorem local_sdf (old : SdfRec) : Local old.deserialize := by
  unfold SdfRec.deserialize
  refine (local_base local_u32 _).bind fun _ => ?_
  refine local_str.bind fun _ => ?_
  exact local_bool.bind fun _ => Local.pure _

theorem local_cmap (old : CMapRec) : Local old.deserialize := by
  unfold CMapRec.deserialize
  refine (local_base local_ccell _).bind fun _ => ?_
  refine local_u32.bind fun _ => ?_
  refine local_str.bind fun _ => ?_
  exact local_bool.bind fun _ => Local.pure _

theorem local_tmap (old : TMapRec) : Local old.deserialize := by
  unfold TMapRec.deserialize
  refine (local_base local_tcell _).bind fun _ => ?_
  refine local_u32.bind fun _ => ?_
  refine local_u32.bind fun _ => ?_
  refine local_str.bind fun _ => ?_
  refine local_bool.bind fun _ => ?_
  exact local_bool.bind fun _ => Local.pure _

/-- A strict prefix of readable bytes is not readable. -/
theorem reads_prefix {α : Type} {r : Reader α} {bs p q : List UInt8} {a : α} (hr : Reads r bs a)
    (hl : Local r) (hpq : bs = p ++ q) (hq : q ≠ []) : r p 0 = none := by
  cases h : r p 0 with
  | none => rfl
  | some v =>
    obtain ⟨b, n⟩ := v
    exfalso
    obtain ⟨h1, h2⟩ := hl p 0 b n (Nat.zero_le _) h
    have h3 := h2 q
    have h4 := hr [] []
    simp only [List.nil_append, List.append_nil, List.length_nil] at h4
    rw [← hpq, h4] at h3
    simp only [Option.some.injEq, Prod.mk.injEq] at h3
    have : bs.length = p.length + q.length := by rw [hpq, List.length_append]
    have : 0 < q.length := List.length_pos_of_ne_nil hq
    omega

end Serial

/-! ## C28-C30: round trips -/

/-- C28.  Signed distance fields: every field is restored, at any position of any buffer. -/
theorem C28_sdf_round_trip (s : SdfRec) (h1 : FitsMemory s.base.data) (h2 : FitsMemory s.frame) :
    RoundTrips SdfRec.serialize SdfRec.deserialize s :=
  ⟨s.bytes, fun before after old => ⟨appendPieces_eq _ _, reads_sdf s old h1 h2 before after⟩⟩

/-- C29.  Collision maps. -/
theorem C29_cmap_round_trip (m : CMapRec) (h1 : FitsMemory m.base.data) (h2 : FitsMemory m.frame) :
    RoundTrips CMapRec.serialize CMapRec.deserialize m :=
  ⟨m.bytes, fun before after old => ⟨appendPieces_eq _ _, reads_cmap m old h1 h2 before after⟩⟩

/-- C30.  Tagged object collision maps. -/
theorem C30_tmap_round_trip (m : TMapRec) (h1 : FitsMemory m.base.data) (h2 : FitsMemory m.frame) :
    RoundTrips TMapRec.serialize TMapRec.deserialize m :=
  ⟨m.bytes, fun before after old => ⟨appendPieces_eq _ _, reads_tmap m old h1 h2 before after⟩⟩

/-- A base with two cells and all members different. -/
def exBase {α : Type} (a b : α) : Base α :=
  ⟨true, ⟨List.range 16 |>.map UInt64.ofNat, rfl⟩, ⟨List.range 16 |>.map (fun n => UInt64.ofNat (n + 100)), rfl⟩,
    [a, b], 1, 2, 3, 4, 5, 6, 7, 8, 9, 10, -11, 12, 13, 14, b, a⟩

def exSdfRec : SdfRec := ⟨exBase 0x3F800000 0xBF800000, ascii "world", true⟩
def exCMapRec : CMapRec := ⟨exBase ⟨0x3F800000, 1⟩ ⟨0, 2⟩, 2, ascii "world", true⟩
def exTMapRec : TMapRec := ⟨exBase ⟨0x3F800000, 1, 7, 3⟩ ⟨0, 2, 0, 0⟩, 2, 3, ascii "map", false, true⟩

example : FitsMemory exSdfRec.base.data ∧ FitsMemory exSdfRec.frame ∧
    exSdfRec.serialize [1, 2] ≠ ([], 0) ∧ (exSdfRec.serialize [1, 2]).2 = 407 := by
  refine ⟨?_, ?_, ?_, ?_⟩ <;> first | decide +kernel | (unfold FitsMemory; decide +kernel)

example : FitsMemory exCMapRec.base.data ∧ FitsMemory exTMapRec.frame ∧
    (exCMapRec.serialize []).2 = 427 ∧ (exTMapRec.serialize []).2 = 462 := by
  refine ⟨?_, ?_, ?_, ?_⟩ <;> first | decide +kernel | (unfold FitsMemory; decide +kernel)

/-! ## C31: files and messages -/

namespace Serial

/-- What the file functions need to know about a map type. -/
structure Format.Ok {M : Type} (f : Format M) (m : M) (bytes : List UInt8) : Prop where
  ser : (f.serialize m []).1 = bytes
  reads : ∀ old, Reads (f.deserialize old) bytes m
  loc : ∀ old, Local (f.deserialize old)
  z4 : f.saveZ.length = 4
  r4 : f.saveR.length = 4
  znz : f.saveZ.all (· != 0) = true
  rnz : f.saveR.all (· != 0) = true
  zz : f.saveZ = f.loadZ
  rr : f.saveR = f.loadR
  ne : f.saveR ≠ f.loadZ

theorem cString_magic {l rest : List UInt8} (h4 : l.length = 4) (hn : l.all (· != 0) = true) :
    cString ((l ++ rest).take 4 ++ [0]) = l := by
  have : (l ++ rest).take 4 = l := by rw [List.take_left' h4]
  rw [this]
  unfold cString
  rw [List.takeWhile_append_of_pos (by simpa using hn)]
  simp

theorem Format.Ok.decode {M : Type} {f : Format M} {m : M} {bytes : List UInt8} (h : f.Ok m bytes) :
    f.decode bytes = .ok m := by
  unfold Format.decode
  have := h.reads f.blank [] []
  simp only [List.nil_append, List.append_nil, List.length_nil] at this
  rw [this]

theorem Format.Ok.load_save {M : Type} {f : Format M} {m : M} {bytes : List UInt8} (h : f.Ok m bytes)
    {z : Zlib} (hz : ZlibOk z) (c : Bool) : f.load z (some (f.save z m c)) = .ok m := by
  unfold Format.load Format.save
  cases c with
  | true =>
    simp only [if_true]
    rw [if_pos (by simp [h.z4]), cString_magic h.z4 h.znz, if_pos h.zz, List.drop_left' h.z4]
    unfold Format.decodeZ
    rw [hz, h.ser]
    exact h.decode
  | false =>
    simp only [Bool.false_eq_true, if_false]
    rw [if_pos (by simp [h.r4]), cString_magic h.r4 h.rnz, if_neg h.ne, if_pos h.rr,
      List.drop_left' h.r4, h.ser]
    exact h.decode

theorem Format.Ok.msg {M : Type} {f : Format M} {m : M} {bytes : List UInt8} (h : f.Ok m bytes)
    {z : Zlib} (hz : ZlibOk z) : f.ofMsg z (f.toMsg z m) = .ok m := by
  unfold Format.ofMsg Format.toMsg Format.decodeZ
  simp only [if_true]
  rw [hz, h.ser]
  exact h.decode

theorem sdf_ok (s : SdfRec) (h1 : FitsMemory s.base.data) (h2 : FitsMemory s.frame) :
    sdfFormat.Ok s s.bytes := by
  refine ⟨?_, fun old => reads_sdf s old h1 h2, local_sdf, rfl, rfl, rfl, rfl, rfl, rfl, by decide⟩
  show (appendPieces _ _).1 = _
  rw [appendPieces_eq]; rfl

theorem cmap_ok (m : CMapRec) (h1 : FitsMemory m.base.data) (h2 : FitsMemory m.frame) :
    cmapFormat.Ok m m.bytes := by
  refine ⟨?_, fun old => reads_cmap m old h1 h2, local_cmap, rfl, rfl, rfl, rfl, rfl, rfl, by decide⟩
  show (appendPieces _ _).1 = _
  rw [appendPieces_eq]; rfl

theorem tmap_ok (m : TMapRec) (h1 : FitsMemory m.base.data) (h2 : FitsMemory m.frame) :
    tmapFormat.Ok m m.bytes := by
  refine ⟨?_, fun old => reads_tmap m old h1 h2, local_tmap, rfl, rfl, rfl, rfl, rfl, rfl, by decide⟩
  show (appendPieces _ _).1 = _
  rw [appendPieces_eq]; rfl

end Serial

/-- C31, signed distance fields: saving and loading, compressed or not, and the message round trip
give the field back. -/
theorem C31_sdf (z : Zlib) (hz : ZlibOk z) (s : SdfRec) (h1 : FitsMemory s.base.data)
    (h2 : FitsMemory s.frame) :
    (∀ compress, sdfFormat.load z (some (sdfFormat.save z s compress)) = .ok s) ∧
      sdfFormat.ofMsg z (sdfFormat.toMsg z s) = .ok s :=
  ⟨(sdf_ok s h1 h2).load_save hz, (sdf_ok s h1 h2).msg hz⟩

/-- C31, collision maps. -/
theorem C31_cmap (z : Zlib) (hz : ZlibOk z) (m : CMapRec) (h1 : FitsMemory m.base.data)
    (h2 : FitsMemory m.frame) :
    (∀ compress, cmapFormat.load z (some (cmapFormat.save z m compress)) = .ok m) ∧
      cmapFormat.ofMsg z (cmapFormat.toMsg z m) = .ok m :=
  ⟨(cmap_ok m h1 h2).load_save hz, (cmap_ok m h1 h2).msg hz⟩

/-- C31, tagged object collision maps. -/
theorem C31_tmap (z : Zlib) (hz : ZlibOk z) (m : TMapRec) (h1 : FitsMemory m.base.data)
    (h2 : FitsMemory m.frame) :
    (∀ compress, tmapFormat.load z (some (tmapFormat.save z m compress)) = .ok m) ∧
      tmapFormat.ofMsg z (tmapFormat.toMsg z m) = .ok m :=
  ⟨(tmap_ok m h1 h2).load_save hz, (tmap_ok m h1 h2).msg hz⟩

/-- The hypothesis on zlib can be met (here by a compressor that changes the data). -/
example : ZlibOk ⟨fun b => 7 :: b.reverse, fun b => match b with | 7 :: t => some t.reverse | _ => none⟩ := by
  intro b; simp

/-! ## C32: rejection -/

/-- C32.  `LoadFromFile` with the headers `hz` and `hr` rejects missing files, files shorter than
four bytes and files that do not begin with one of its two headers, each with its own error. -/
theorem C32_rejects {M : Type} (f : Format M) (hf : f.loadZ.length = 4 ∧ f.loadR.length = 4)
    (z : Zlib) :
    f.load z none = .error .noFile ∧
    (∀ bytes, bytes.length < 4 → f.load z (some bytes) = .error .tooSmall) ∧
    (∀ bytes, 4 ≤ bytes.length → bytes.take 4 ≠ f.loadZ → bytes.take 4 ≠ f.loadR →
      f.load z (some bytes) = .error .badHeader) := by
  refine ⟨rfl, ?_, ?_⟩
  · intro bytes h
    unfold Format.load
    dsimp only
    rw [if_neg (by omega)]
  · intro bytes h h1 h2
    unfold Format.load
    dsimp only
    rw [if_pos h]
    -- the C string is either the four bytes or shorter than four
    have key : ∀ m : List UInt8, m.length = 4 → bytes.take 4 ≠ m →
        cString (bytes.take 4 ++ [0]) ≠ m := by
      intro m hm hne e
      have h4 : (bytes.take 4).length = 4 := by simp; omega
      unfold cString at e
      have hpre : (bytes.take 4 ++ [0]).takeWhile (· != 0) <+: (bytes.take 4 ++ [0]) :=
        List.takeWhile_prefix _
      rw [e] at hpre
      have : m <+: bytes.take 4 := by
        refine List.prefix_of_prefix_length_le hpre (List.prefix_append _ _) (by rw [hm, h4])
      exact hne (this.eq_of_length (by rw [hm, h4])).symm
    rw [if_neg (key _ hf.1 h1), if_neg (key _ hf.2 h2)]

/-- The three types use the headers of the documentation. -/
theorem C32_headers :
    sdfFormat.loadZ = ascii "SDFZ" ∧ sdfFormat.loadR = ascii "SDFR" ∧
    cmapFormat.loadZ = ascii "CMGZ" ∧ cmapFormat.loadR = ascii "CMGR" ∧
    tmapFormat.loadZ = ascii "TCMZ" ∧ tmapFormat.loadR = ascii "TCMR" := by decide

/-- C32, files of another type: whatever one of the three types saves, the other two reject. -/
theorem C32_other_type (z : Zlib) (s : SdfRec) (m : CMapRec) (t : TMapRec) (c : Bool) :
    cmapFormat.load z (some (sdfFormat.save z s c)) = .error .badHeader ∧
    tmapFormat.load z (some (sdfFormat.save z s c)) = .error .badHeader ∧
    sdfFormat.load z (some (cmapFormat.save z m c)) = .error .badHeader ∧
    tmapFormat.load z (some (cmapFormat.save z m c)) = .error .badHeader ∧
    sdfFormat.load z (some (tmapFormat.save z t c)) = .error .badHeader ∧
    cmapFormat.load z (some (tmapFormat.save z t c)) = .error .badHeader := by
  have key : ∀ {M N : Type} (f : Format M) (g : Format N) (m : M),
      f.saveZ.length = 4 → f.saveR.length = 4 → g.loadZ.length = 4 → g.loadR.length = 4 →
      f.saveZ ≠ g.loadZ → f.saveZ ≠ g.loadR → f.saveR ≠ g.loadZ → f.saveR ≠ g.loadR →
      g.load z (some (f.save z m c)) = .error .badHeader := by
    intro M N f g m h1 h2 h3 h4 h5 h6 h7 h8
    have htake : (f.save z m c).take 4 = if c then f.saveZ else f.saveR := by
      unfold Format.save
      cases c
      · simp [List.take_left' h2]
      · simp [List.take_left' h1]
    have hlen : 4 ≤ (f.save z m c).length := by
      unfold Format.save
      cases c <;> simp [h1, h2]
    apply (C32_rejects g ⟨h3, h4⟩ z).2.2 _ hlen <;> rw [htake] <;> cases c <;> simp [*]
  refine ⟨?_, ?_, ?_, ?_, ?_, ?_⟩ <;> apply key <;> decide

example : sdfFormat.load ⟨id, some⟩ (some [0x53, 0x44, 0x46, 0, 1, 2]) = .error .badHeader ∧
    sdfFormat.load ⟨id, some⟩ (some (ascii "SDF")) = .error .tooSmall := by decide +kernel

/-! ## C33: interrupted saves -/

namespace Serial

theorem Format.Ok.truncated {M : Type} {f : Format M} {m : M} {bytes : List UInt8} (h : f.Ok m bytes)
    (z : Zlib) (n : Nat) (hn : n < (f.save z m false).length) :
    f.load z (some ((f.save z m false).take n)) = .error .tooSmall ∨
      f.load z (some ((f.save z m false).take n)) = .error .badData := by
  have hs : f.save z m false = f.saveR ++ bytes := by
    unfold Format.save; simp [h.ser]
  rw [hs] at hn ⊢
  have hn' : n < 4 + bytes.length := by rw [List.length_append, h.r4] at hn; exact hn
  by_cases h4 : n < 4
  · left
    unfold Format.load
    dsimp only
    rw [if_neg (by simp; omega)]
  · right
    have ht : (f.saveR ++ bytes).take n = f.saveR ++ bytes.take (n - 4) := by
      rw [List.take_append, h.r4, List.take_of_length_le (by rw [h.r4]; omega)]
    rw [ht]
    unfold Format.load
    dsimp only
    rw [if_pos (by rw [List.length_append, h.r4]; omega), cString_magic h.r4 h.rnz, if_neg h.ne,
      if_pos h.rr, List.drop_left' h.r4]
    unfold Format.decode
    have := reads_prefix (h.reads f.blank) (h.loc f.blank) (p := bytes.take (n - 4))
      (q := bytes.drop (n - 4)) (List.take_append_drop _ _).symm (by
        intro e
        have := congrArg List.length e
        simp only [List.length_drop, List.length_nil] at this
        omega)
    rw [this]

end Serial

/-- C33.  If only the first `n` bytes of an uncompressed save reached the disk, for any `n` smaller
than the file, `LoadFromFile` throws. -/
theorem C33_interrupted_save (z : Zlib) (n : Nat) :
    (∀ s : SdfRec, FitsMemory s.base.data → FitsMemory s.frame →
      n < (sdfFormat.save z s false).length →
      ∃ e, sdfFormat.load z (some ((sdfFormat.save z s false).take n)) = .error e) ∧
    (∀ m : CMapRec, FitsMemory m.base.data → FitsMemory m.frame →
      n < (cmapFormat.save z m false).length →
      ∃ e, cmapFormat.load z (some ((cmapFormat.save z m false).take n)) = .error e) ∧
    (∀ m : TMapRec, FitsMemory m.base.data → FitsMemory m.frame →
      n < (tmapFormat.save z m false).length →
      ∃ e, tmapFormat.load z (some ((tmapFormat.save z m false).take n)) = .error e) := by
  refine ⟨fun s h1 h2 hn => ?_, fun s h1 h2 hn => ?_, fun s h1 h2 hn => ?_⟩
  · rcases (sdf_ok s h1 h2).truncated z n hn with h | h <;> exact ⟨_, h⟩
  · rcases (cmap_ok s h1 h2).truncated z n hn with h | h <;> exact ⟨_, h⟩
  · rcases (tmap_ok s h1 h2).truncated z n hn with h | h <;> exact ⟨_, h⟩

/-- zlib refuses every strict prefix of compressed data. -/
def Spec.ZlibRefusesPrefixes (z : Zlib) : Prop :=
  ∀ b n, n < (z.compress b).length → z.decompress ((z.compress b).take n) = none

theorem Serial.Format.truncatedZ {M : Type} (f : Format M) (h4 : f.saveZ.length = 4)
    (hnz : f.saveZ.all (· != 0) = true) (hz' : f.saveZ = f.loadZ) (z : Zlib)
    (hz : ZlibRefusesPrefixes z) (n : Nat) (m : M) (hn : n < (f.save z m true).length) :
    ∃ e, f.load z (some ((f.save z m true).take n)) = .error e := by
  have hs : f.save z m true = f.saveZ ++ z.compress (f.serialize m []).1 := rfl
  generalize (f.serialize m []).1 = b at hs
  rw [hs] at hn ⊢
  rw [List.length_append, h4] at hn
  by_cases hlt : n < 4
  · refine ⟨.tooSmall, ?_⟩
    unfold Format.load
    dsimp only
    rw [if_neg (by simp; omega)]
  · refine ⟨.badData, ?_⟩
    have ht : (f.saveZ ++ z.compress b).take n = f.saveZ ++ (z.compress b).take (n - 4) := by
      rw [List.take_append, h4, List.take_of_length_le (by rw [h4]; omega)]
    rw [ht]
    unfold Format.load
    dsimp only
    rw [if_pos (by rw [List.length_append, h4]; omega), cString_magic h4 hnz, if_pos hz',
      List.drop_left' h4]
    unfold Format.decodeZ
    rw [hz b _ (by omega)]

/-- C33 for compressed saves, if zlib refuses every strict prefix of compressed data. -/
theorem C33_interrupted_compressed_save (z : Zlib) (hz : ZlibRefusesPrefixes z) (n : Nat) :
    (∀ s : SdfRec, n < (sdfFormat.save z s true).length →
      ∃ e, sdfFormat.load z (some ((sdfFormat.save z s true).take n)) = .error e) ∧
    (∀ m : CMapRec, n < (cmapFormat.save z m true).length →
      ∃ e, cmapFormat.load z (some ((cmapFormat.save z m true).take n)) = .error e) ∧
    (∀ m : TMapRec, n < (tmapFormat.save z m true).length →
      ∃ e, tmapFormat.load z (some ((tmapFormat.save z m true).take n)) = .error e) :=
  ⟨fun s h => sdfFormat.truncatedZ rfl rfl rfl z hz n s h,
   fun s h => cmapFormat.truncatedZ rfl rfl rfl z hz n s h,
   fun s h => tmapFormat.truncatedZ rfl rfl rfl z hz n s h⟩

/-- A self-delimiting encoding, to show that the hypotheses on zlib can be met. -/
def exZip : List UInt8 → List UInt8
  | [] => [0]
  | x :: l => 1 :: x :: exZip l

def exUnzip : List UInt8 → Option (List UInt8)
  | [0] => some []
  | 1 :: x :: t => (exUnzip t).map (x :: ·)
  | _ => none

example : ZlibOk ⟨exZip, exUnzip⟩ ∧ ZlibRefusesPrefixes ⟨exZip, exUnzip⟩ := by
  constructor
  · intro b
    show exUnzip (exZip b) = some b
    induction b with
    | nil => rfl
    | cons x b ih => simp [exZip, exUnzip, ih]
  · intro b
    show ∀ n, n < (exZip b).length → exUnzip ((exZip b).take n) = none
    induction b with
    | nil => intro n hn; simp [exZip] at hn; subst hn; rfl
    | cons x b ih =>
      intro n hn
      match n, hn with
      | 0, _ => rfl
      | 1, _ => rfl
      | n + 2, hn =>
        simp only [exZip, List.length_cons] at hn
        simp [exZip, exUnzip, ih n (by omega)]

/-! ## C55: loading does not check that the cell counts match the data -/

/-- The number of stored cells is the product of the cell counts. -/
def Spec.Consistent {α : Type} (b : Base α) : Prop :=
  b.data.length = b.numX.toNatClampNeg * b.numY.toNatClampNeg * b.numZ.toNatClampNeg

/-- C55 as stated. -/
def C55Statement : Prop :=
  ∀ (z : Zlib) (file : List UInt8) (s : SdfRec), sdfFormat.load z (some file) = .ok s → Consistent s.base

/-- A field that claims 1000 x 1 x 1 cells and stores none. -/
def hollow : SdfRec := ⟨{ blankBase 0 with numX := 1000, numY := 1, numZ := 1 }, [], false⟩

/-- C55 is violated: a file with matching header and too few cells is loaded without an error, and
its in-bounds cells lie outside the storage. -/
theorem C55_false : ¬ C55Statement := by
  intro h
  have h1 := (C31_sdf ⟨id, some⟩ (fun _ => rfl) hollow (by unfold FitsMemory; decide)
    (by unfold FitsMemory; decide)).1 false
  have := h _ _ _ h1
  revert this
  unfold Consistent
  decide +kernel

/-- C55 (part).  Files written by `SaveToFile` from a consistent field load as a consistent field.
Missing: files from elsewhere (`C55_false`). -/
theorem C55_own_files_partial (z : Zlib) (hz : ZlibOk z) (s : SdfRec) (h1 : FitsMemory s.base.data)
    (h2 : FitsMemory s.frame) (hc : Consistent s.base) (c : Bool) :
    ∃ s', sdfFormat.load z (some (sdfFormat.save z s c)) = .ok s' ∧ Consistent s'.base :=
  ⟨s, (C31_sdf z hz s h1 h2).1 c, hc⟩

example : Consistent ({ blankBase 0 with numX := 2, numY := 1, numZ := 1, data := [1, 2] } : Base F32) := by
  unfold Consistent; decide +kernel

end Verif
