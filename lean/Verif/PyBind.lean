import Verif.Files
import Verif.SerialInto

/-!
# Storing fields from Python

Model of the methods of the Python class `SignedDistanceField` that store and restore fields
(`src/sdf_tools/bindings.cpp:35-60`), as a program acting on Python objects and files.

What is taken from pybind11 (external): a bound function accepts a call if the number of arguments is right and each
of them converts to the parameter type, and raises `TypeError` otherwise; a function bound with `def` receives the
object in front of the arguments when it is called on an object, and only the arguments when it is called on the
class; a Python list converts to a fresh `std::vector` whose later changes the list does not see (no container is made
opaque in `bindings.cpp`); a C++ type that is not registered, such as the ROS message, converts neither way.  A C++
exception becomes a Python exception.
-/

namespace Verif

namespace Serial

namespace Py

/-- Python values, as far as they are passed to these methods.  Lists and fields are references. -/
inductive Val where
  | none
  | bool (b : Bool)
  | int (n : Int)
  | str (s : String)
  | list (r : Nat)
  | field (r : Nat)
  | callable
  /-- any other object, e.g. a ROS message -/
  | other
deriving DecidableEq, Repr

/-- Python exceptions. -/
inductive Err where
  | type
  | runtime
deriving DecidableEq, Repr

/-- Everything a call can change: the field objects, the lists, the files; and the next free reference. -/
structure World where
  fields : Nat → Option SdfRec
  lists : Nat → List Int
  files : Files
  next : Nat

/-- Parameter types of the bound functions. -/
inductive Ty where
  | field
  | str
  | bool
  | u64
  | bytes
  | callable
  /-- `sdf_tools::SDF`, not registered -/
  | message

/-- Converted arguments. -/
inductive Arg where
  | field (r : Nat) (s : SdfRec)
  | str (s : String)
  | bool (b : Bool)
  | u64 (n : Nat)
  /-- a fresh `std::vector<uint8_t>` -/
  | bytes (l : List UInt8)
  | callable

/-- A list converts if each entry is a number that fits into a byte. -/
def bytesOf : List Int → Option (List UInt8)
  | [] => some []
  | n :: l => if 0 ≤ n ∧ n < 256 then (bytesOf l).map (UInt8.ofNat n.toNat :: ·) else none

/-- Conversion of one argument. -/
def convert (w : World) : Ty → Val → Option Arg
  | .field, .field r => (w.fields r).map (.field r)
  | .str, .str s => some (.str s)
  | .bool, .bool b => some (.bool b)
  | .u64, .int n => if 0 ≤ n ∧ n < 2 ^ 64 then some (.u64 n.toNat) else none
  | .bytes, .list r => (bytesOf (w.lists r)).map .bytes
  | .callable, .callable => some .callable
  | .callable, .none => some .callable
  | _, _ => none

/-- Conversion of an argument list of the right length. -/
def convertAll (w : World) : List Ty → List Val → Option (List Arg)
  | [], [] => some []
  | t :: ts, v :: vs => do return (← convert w t v) :: (← convertAll w ts vs)
  | _, _ => none

/-- The methods (`src/sdf_tools/bindings.cpp:43-49`). -/
inductive Method where
  | getMessage
  | loadMessage
  | saveToFile
  | loadFromFile
  | serialize
  | deserialize

/-- Their parameters (`include/sdf_tools/sdf.hpp:1224-1249`), the object first for member functions. -/
def Method.params : Method → List Ty
  | .getMessage => [.field]
  | .loadMessage => [.message]
  | .saveToFile => [.field, .str, .bool]
  | .loadFromFile => [.str]
  | .serialize => [.field, .bytes, .callable]
  | .deserialize => [.field, .bytes, .u64, .callable]

/-- A new Python object. -/
def World.alloc (w : World) (s : SdfRec) : World × Val :=
  ({ w with fields := fun r => if r = w.next then some s else w.fields r, next := w.next + 1 }, .field w.next)

/-- The C++ functions on converted arguments (`src/sdf_tools/sdf.cpp:213-502`; the value serializers are unused there).
The save reaches the disk completely. -/
def Method.body (z : Zlib) (w : World) : Method → List Arg → World × Except Err Val
  -- the message is built and then does not convert to Python
  | .getMessage, [.field _ _] => (w, .error .type)
  | .saveToFile, [.field _ s, .str p, .bool c] =>
    ({ w with files := fun q => if q = p then some (sdfFormat.save z s c) else w.files q }, .ok .none)
  | .loadFromFile, [.str p] =>
    match sdfFormat.load z (w.files p) with
    | .ok s => let r := w.alloc s; (r.1, .ok r.2)
    | .error _ => (w, .error .runtime)
  | .serialize, [.field _ s, .bytes l, .callable] => (w, .ok (.int ((s.serialize l).2 : Int)))
  | .deserialize, [.field r s, .bytes l, .u64 n, .callable] =>
    let o := s.into l n
    ({ w with fields := fun q => if q = r then some o.1 else w.fields q },
      match o.2 with
      | some k => .ok (.int (k : Int))
      | none => .error .runtime)
  | _, _ => (w, .error .type)

/-- `SignedDistanceField.m(args)`. -/
def onClass (z : Zlib) (w : World) (m : Method) (args : List Val) : World × Except Err Val :=
  match convertAll w m.params args with
  | none => (w, .error .type)
  | some a => m.body z w a

/-- `object.m(args)`. -/
def onObject (z : Zlib) (w : World) (m : Method) (self : Nat) (args : List Val) : World × Except Err Val :=
  onClass z w m (.field self :: args)

end Py

end Serial

end Verif
