import Verif.PyBind
import Verif.Props.Serial
import Verif.Props.SerialInto

/-!
# Storing fields from Python (C105)
-/

namespace Verif

open Spec

namespace Serial

namespace Py

theorem bytesOf_map (l : List UInt8) : bytesOf (l.map fun b => (b.toNat : Int)) = some l := by
  induction l with
  | nil => rfl
  | cons b l ih =>
    have h : (b.toNat : Int) < 256 := by exact_mod_cast b.toNat_lt
    simp only [List.map_cons, bytesOf, ih, Int.toNat_natCast]
    rw [if_pos ⟨by omega, h⟩]
    simp

/-- C105, the failing case: no call of a message method succeeds, on the class or on an object, whatever the
arguments; nothing is changed. -/
theorem C105_messages_raise (z : Zlib) (w : World) (args : List Val) :
    onClass z w .getMessage args = (w, .error .type) ∧ onClass z w .loadMessage args = (w, .error .type) ∧
    ∀ self, onObject z w .getMessage self args = (w, .error .type) ∧
      onObject z w .loadMessage self args = (w, .error .type) := by
  have hg : ∀ args, onClass z w .getMessage args = (w, .error .type) := by
    intro args
    unfold onClass
    split
    · rfl
    · next a _ => rcases a with _ | ⟨⟨⟩, _ | ⟨_, _⟩⟩ <;> rfl
  have hl : ∀ args, onClass z w .loadMessage args = (w, .error .type) := by
    intro args
    unfold onClass
    rcases args with _ | ⟨v, args⟩
    · rfl
    · have : convert w .message v = none := by cases v <;> rfl
      simp [Method.params, convertAll, this]
  exact ⟨hg _, hl _, fun self => ⟨hg _, hl _⟩⟩

/-- C105, the failing case: `SerializeSelf` never puts anything into the list of the caller.  Every call, whatever
the arguments, leaves all lists, fields and files as they were. -/
theorem C105_serialize_lost (z : Zlib) (w : World) (args : List Val) :
    (onClass z w .serialize args).1 = w ∧ ∀ self, (onObject z w .serialize self args).1 = w := by
  have h : ∀ args, (onClass z w .serialize args).1 = w := by
    intro args
    unfold onClass
    split
    · rfl
    · unfold Method.body
      split <;> first | rfl | simp_all
  exact ⟨h _, fun self => h _⟩

/-- C105, the failing case: `LoadFromFile` cannot be called on an object. -/
theorem C105_load_on_object_raises (z : Zlib) (w : World) (self : Nat) (args : List Val) :
    onObject z w .loadFromFile self args = (w, .error .type) := by
  unfold onObject onClass
  have : convert w .str (.field self) = none := rfl
  simp [Method.params, convertAll, this]

/-- C105: a field saved from Python on any object is what `SignedDistanceField.LoadFromFile` returns as a new object,
whatever was called between that does not touch the file; nothing else changes. -/
theorem C105_files_partial (z : Zlib) (hz : ZlibOk z) (w : World) {self : Nat} {s : SdfRec}
    (hs : w.fields self = some s) (h1 : FitsMemory s.base.data) (h2 : FitsMemory s.frame) (path : String)
    (compress : Bool) :
    let w' := (onObject z w .saveToFile self [.str path, .bool compress]).1
    (onObject z w .saveToFile self [.str path, .bool compress]).2 = .ok .none ∧
    w'.fields = w.fields ∧ w'.lists = w.lists ∧ (∀ q, q ≠ path → w'.files q = w.files q) ∧
    ∀ v : World, v.files path = w'.files path →
      ∃ r v', onClass z v .loadFromFile [.str path] = (v', .ok (.field r)) ∧ r = v.next ∧ v'.fields r = some s ∧
        (∀ q, q ≠ r → v'.fields q = v.fields q) ∧ v'.lists = v.lists ∧ v'.files = v.files := by
  have e : onObject z w .saveToFile self [.str path, .bool compress] =
      ({ w with files := fun q => if q = path then some (sdfFormat.save z s compress) else w.files q }, .ok .none) := by
    simp [onObject, onClass, Method.params, convertAll, convert, hs, Method.body]
  rw [e]
  refine ⟨rfl, rfl, rfl, fun q hq => if_neg hq, fun v hv => ?_⟩
  have hf : v.files path = some (sdfFormat.save z s compress) := by rw [hv]; simp
  have hl := (C31_sdf z hz s h1 h2).1 compress
  refine ⟨v.next, (v.alloc s).1, ?_, rfl, by simp [World.alloc], fun q hq => by simp [World.alloc, hq], rfl, rfl⟩
  simp [onClass, Method.params, convertAll, convert, Method.body, hf, hl, World.alloc]

/-- C105: `DeserializeSelf` called from Python on any object, with a list that holds a serialized field anywhere,
makes the object that field, and returns its length; nothing else changes. -/
theorem C105_deserialize_partial (z : Zlib) (w : World) {self r : Nat} {old s : SdfRec}
    (hold : w.fields self = some old) (h1 : FitsMemory s.base.data) (h2 : FitsMemory s.frame) (before after : List UInt8)
    (hb : before.length < 2 ^ 64)
    (hr : w.lists r = (before ++ (s.serialize []).1 ++ after).map fun b => (b.toNat : Int)) :
    ∃ w', onObject z w .deserialize self [.list r, .int before.length, .callable] =
        (w', .ok (.int (s.serialize []).2)) ∧
      w'.fields self = some s ∧ (∀ q, q ≠ self → w'.fields q = w.fields q) ∧ w'.lists = w.lists ∧
      w'.files = w.files := by
  have hi := (C99_reads_back).1 s old before after h1 h2
  have hc : convert w .bytes (.list r) = some (.bytes (before ++ (s.serialize []).1 ++ after)) := by
    simp only [convert, hr, bytesOf_map, Option.map_some]
  have hu : convert w .u64 (.int before.length) = some (.u64 before.length) := by
    simp only [convert, Int.toNat_natCast]
    rw [if_pos ⟨by omega, by exact_mod_cast hb⟩]
  refine ⟨{ w with fields := fun q => if q = self then some s else w.fields q }, ?_, by simp,
    fun q hq => by simp [hq], rfl, rfl⟩
  have hf : convert w .field (.field self) = some (.field self old) := by simp [convert, hold]
  have hcall : convert w .callable .callable = some .callable := rfl
  simp only [onObject, onClass, Method.params, convertAll, hf, hc, hu, hcall]
  show Method.body z w .deserialize [.field self old, .bytes _, .u64 _, .callable] = _
  simp only [Method.body, hi]

/-! ### The hypotheses are satisfiable -/

/-- One object, one list holding a serialized field, no files. -/
def exWorld : World :=
  ⟨fun r => if r = 0 then some exSdfRec else none,
    fun r => if r = 1 then (exSdfRec.serialize []).1.map fun b => (b.toNat : Int) else [], fun _ => none, 2⟩

example : exWorld.fields 0 = some exSdfRec ∧ FitsMemory exSdfRec.base.data ∧ FitsMemory exSdfRec.frame ∧
    exWorld.lists 1 = ([] ++ (exSdfRec.serialize []).1 ++ []).map fun b : UInt8 => (b.toNat : Int) := by
  refine ⟨rfl, by unfold FitsMemory; decide +kernel, by unfold FitsMemory; decide +kernel, by simp [exWorld]⟩

/-- The call of `SerializeSelf` that a user would write is accepted, and returns the number of bytes. -/
example (z : Zlib) : onObject z exWorld .serialize 0 [.list 2, .callable] = (exWorld, .ok (.int 407)) := by
  have h : (exSdfRec.serialize []).2 = 407 := by decide +kernel
  simp [onObject, onClass, Method.params, convertAll, convert, exWorld, bytesOf, Method.body, h]

end Py

end Serial

end Verif
