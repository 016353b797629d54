import Verif.Sessions

/-!
# Specification for C138: files hold objects

The same programs in a world without bytes: a file holds an object, or the rest of an incomplete save.  Loading gives
the object if it has the right type and throws otherwise; sending gives the object.
-/

namespace Verif.Spec

open Serial

inductive Content where
  | whole (o : Obj)
  | broken

structure Ideal where
  mem : Nat → Option Obj
  files : String → Option Content

def Ideal.start : Ideal := ⟨fun _ => none, fun _ => none⟩

/-- `size o compress` is the number of bytes of the file: a save of which fewer bytes were written is incomplete. -/
def Ideal.step (size : Obj → Bool → Nat) (w : Ideal) : Step → Ideal × Bool
  | .new k o => (⟨Function.update w.mem k (some o), w.files⟩, true)
  | .call k c => (⟨Function.update w.mem k ((w.mem k).map (·.apply c)), w.files⟩, true)
  | .save k path compress fate =>
    match w.mem k, fate with
    | some o, .wrote n =>
      (⟨w.mem, fun p => if p = path then some (if size o compress ≤ n then .whole o else .broken) else w.files p⟩, true)
    | _, _ => (w, true)
  | .load ty path k =>
    match w.files path with
    | some (.whole o) => if o.ty = ty then (⟨Function.update w.mem k (some o), w.files⟩, true) else (w, false)
    | _ => (w, false)
  | .send k k' =>
    match w.mem k with
    | some o => (⟨Function.update w.mem k' (some o), w.files⟩, true)
    | none => (w, true)
  | .restart => (⟨fun _ => none, w.files⟩, true)

def Ideal.run (size : Obj → Bool → Nat) (w : Ideal) (l : List Step) : Ideal := l.foldl (fun w s => (w.step size s).1) w

def Ideal.replies (size : Obj → Bool → Nat) (w : Ideal) : List Step → List Bool
  | [] => []
  | s :: l => (w.step size s).2 :: Ideal.replies size (w.step size s).1 l

end Verif.Spec
