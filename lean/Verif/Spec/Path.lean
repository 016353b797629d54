import Verif.Spec.SignedDistance

/-!
# Paths through waypoints
-/

namespace Verif.Spec

/-- The point `p` lies on the straight line from `a` to `b`. -/
def OnSegment (a b p : V3 ℝ) : Prop :=
  ∃ t : ℝ, 0 ≤ t ∧ t ≤ 1 ∧ p = ⟨a.x + t * (b.x - a.x), a.y + t * (b.y - a.y), a.z + t * (b.z - a.z)⟩

/-- The point `p` lies on the path that visits the waypoints in order along straight lines. -/
def OnPath : List (V3 ℝ) → V3 ℝ → Prop
  | [], _ => False
  | [a], p => p = a
  | a :: b :: l, p => OnSegment a b p ∨ OnPath (b :: l) p

/-- Waypoints that follow each other are at most `s` apart. -/
def Spaced (s : ℝ) : List (V3 ℝ) → Prop
  | a :: b :: l => dist3 a b ≤ s ∧ Spaced s (b :: l)
  | _ => True

end Verif.Spec
