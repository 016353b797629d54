import Verif.Interp

/-!
# Specification of interpolation, gradients and projection
-/

namespace Verif.Spec

variable {K : Type} [Field K] [LinearOrder K]

/-- Straight-line blend: `a` at `w = 0`, `b` at `w = 1`. -/
def lerp (w a b : K) : K := (1 - w) * a + w * b

/-- Trilinear blend of eight values at the corners of a unit cube. -/
def trilerp (w : V3 K) (v : Bool → Bool → Bool → K) : K :=
  lerp w.x
    (lerp w.y (lerp w.z (v false false false) (v false false true))
      (lerp w.z (v false true false) (v false true true)))
    (lerp w.y (lerp w.z (v true false false) (v true false true))
      (lerp w.z (v true true false) (v true true true)))

/-- Distance from a cell centre to the nearest face of the nearest opposite cell, as the header
describes it: half a cell closer to the surface than the stored centre-to-centre distance. -/
def halfCellCloser (res v : K) : K := if 0 ≤ v then v - res / 2 else v + res / 2

/-- The lower of the two cells used on an axis with `n` cells, for coordinate `t` in cell units. -/
def lowerCell [FloorRing K] (n : Nat) (t : K) : Int := max 0 (min ⌊t - 1 / 2⌋ ((n : Int) - 2))

/-- The upper of the two cells used on an axis with `n` cells. -/
def upperCell [FloorRing K] (n : Nat) (t : K) : Int := min (lowerCell n t + 1) ((n : Int) - 1)

/-- Squared Euclidean distance. -/
def sqDist3 (a b : V3 K) : K := (a.x - b.x) ^ 2 + (a.y - b.y) ^ 2 + (a.z - b.z) ^ 2

/-- The origin transform is an isometry and the stored inverse is its inverse. -/
structure RigidFrame (s : MSdf K) : Prop where
  left : ∀ p, s.toWorld (s.toGrid p) = p
  right : ∀ p, s.toGrid (s.toWorld p) = p
  iso : ∀ p q, sqDist3 (s.toWorld p) (s.toWorld q) = sqDist3 p q

/-- Corner selection: `false` the lower, `true` the upper index. -/
def pick (b : Bool) (lo hi : Int) : Int := if b then hi else lo

/-- The eight corrected values surrounding a grid-frame point. -/
def cornerVal [FloorRing K] (s : MSdf K) (g : V3 K) (bx bY bz : Bool) : K :=
  halfCellCloser s.res (s.grid.get
    ⟨pick bx (lowerCell s.grid.dims.nx (g.x / s.res)) (upperCell s.grid.dims.nx (g.x / s.res)),
     pick bY (lowerCell s.grid.dims.ny (g.y / s.res)) (upperCell s.grid.dims.ny (g.y / s.res)),
     pick bz (lowerCell s.grid.dims.nz (g.z / s.res)) (upperCell s.grid.dims.nz (g.z / s.res))⟩)

/-- Position of a grid-frame point inside the cube of the eight cell centres, 0 to 1 per axis
between the centres. -/
def cornerWeight [FloorRing K] (s : MSdf K) (g : V3 K) : V3 K :=
  ⟨g.x / s.res - 1 / 2 - lowerCell s.grid.dims.nx (g.x / s.res),
   g.y / s.res - 1 / 2 - lowerCell s.grid.dims.ny (g.y / s.res),
   g.z / s.res - 1 / 2 - lowerCell s.grid.dims.nz (g.z / s.res)⟩

end Verif.Spec
