import Verif.ImageNode
import Verif.Spec.Distance

/-!
# What a picture shows, and what is published for it
-/

namespace Verif.Spec

open Img

/-- Pixel `(i, j)` of the picture is not black: one of its bytes is not zero. -/
def NotBlack (m : Mat) (i j : ℕ) : Prop := ∃ k < m.elem, m.data (m.step * i + m.elem * j + k) ≠ 0

/-- Entry `(i, j)` of a table. -/
def entry {α : Type} (t : List (List α)) (i j : ℕ) : Option α := (t[i]?).bind fun row => row[j]?

/-- The table has `rows` rows of `cols` entries. -/
def Sized {α : Type} (t : List (List α)) (rows cols : ℕ) : Prop := t.length = rows ∧ ∀ row ∈ t, row.length = cols

/-- The squared distance between two pixels. -/
def pixelSq (i j k l : ℕ) : ℤ := ((i : ℤ) - k) ^ 2 + ((j : ℤ) - l) ^ 2

end Verif.Spec
