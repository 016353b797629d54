import Verif.Spec.Basic

/-!
# Specification of Euclidean distance between cells
-/

namespace Verif.Spec

/-- Squared Euclidean distance of two cells, in cells. -/
def sqDist (a b : Idx) : Int := (a.x - b.x) ^ 2 + (a.y - b.y) ^ 2 + (a.z - b.z) ^ 2

/-- `p` is a source nearest to `v`. -/
def IsNearest (pts : List Idx) (v p : Idx) : Prop := p ∈ pts ∧ ∀ r ∈ pts, sqDist v p ≤ sqDist v r

/-- `n` is the smallest squared distance from `v` to a source. -/
def IsMinSq (pts : List Idx) (v : Idx) (n : Int) : Prop :=
  (∃ p ∈ pts, sqDist v p = n) ∧ ∀ p ∈ pts, n ≤ sqDist v p

/-- The cells are equal or among each other's 26 neighbours. -/
def Close (a b : Idx) : Prop := |a.x - b.x| ≤ 1 ∧ |a.y - b.y| ≤ 1 ∧ |a.z - b.z| ≤ 1

end Verif.Spec
