import Verif.Serial

/-!
# Histories of saves

Model of `SaveToFile` of the three map types as an operation on a file system that can fail
(`src/sdf_tools/sdf.cpp:392-416`, `src/sdf_tools/collision_map.cpp:205-229`,
`src/sdf_tools/tagged_object_collision_map.cpp:226-250`).

The file is opened with truncation, the header and the data are written in order, the stream is closed.  The state
of the stream is never tested, so a file that cannot be opened and a write that fails are not noticed.  If the
process ends during the call, a first part of the bytes has reached the file.
-/

namespace Verif

namespace Serial

/-- What the operating system did with a save. -/
inductive Fate where
  /-- the file could not be opened; nothing is written -/
  | refused
  /-- the file was opened and the first `n` bytes were written (all, if there are not more than `n`) -/
  | wrote (n : Nat)
deriving DecidableEq, Repr

/-- One call of `SaveToFile`; `returned` tells whether the call came back to the caller. -/
structure SaveCall (M : Type) where
  path : String
  map : M
  compress : Bool
  fate : Fate
  returned : Bool

/-- File contents by path. -/
abbrev Files := String → Option (List UInt8)

/-- The files after one call. -/
def Files.save {M : Type} (f : Format M) (z : Zlib) (fs : Files) (e : SaveCall M) : Files :=
  match e.fate with
  | .refused => fs
  | .wrote n => fun p => if p = e.path then some ((f.save z e.map e.compress).take n) else fs p

/-- The files after a history of calls, over any number of processes. -/
def Files.run {M : Type} (f : Format M) (z : Zlib) (fs : Files) (l : List (SaveCall M)) : Files :=
  l.foldl (Files.save f z) fs

end Serial

end Verif
