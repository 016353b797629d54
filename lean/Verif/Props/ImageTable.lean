/-!
# Walks of up to 13 pixels (table for C65)

A finite table used in the proof of `C65_exact_below_13_partial`, about walks in the integer plane; it
does not mention the code.
-/

namespace Verif

namespace Img

/-- Squared distance of points with natural coordinates. -/
def natSq (a b c d : Nat) : Nat :=
  ((a - c) + (c - a)) * ((a - c) + (c - a)) + ((b - d) + (d - b)) * ((b - d) + (d - b))

/-- For every point `t` at least as far from `(a, b)` as the origin and at most as far as the origin from
`(x, y)`: `t` is at most as far as the origin from `(x', y')`.  Checked on the points of a disc of radius
less than 13 (coordinates shifted by 12). -/
def stepCheck (a b x y x' y' : Nat) : Bool :=
  (List.range 25).all fun i => (List.range 25).all fun j =>
    bif (natSq (x + i) (y + j) (x + 12) (y + 12)).ble (x * x + y * y) then
      bif (a * a + b * b).ble (natSq (x + i) (y + j) (a + 12) (b + 12)) then
        (natSq (x + i) (y + j) (x' + 12) (y' + 12)).ble (x' * x' + y' * y')
      else true
    else true

/-- The walk to `(a, b)`, `a ≤ b`: the cells closest to the segment, up to the rounding `c`. -/
def route (c a b i : Nat) : Nat := (20 * a * i + c * b) / (20 * b)

/-- Every step of the walk passes `stepCheck`. -/
def routeCheck (c a b : Nat) : Bool := (List.range b).all fun i =>
  stepCheck a b (route c a b i) i (route c a b (i + 1)) (i + 1)

/-- Every point at distance less than 13 (up to symmetry) has a walk all of whose steps pass. -/
theorem route_table : ((List.range 13).all fun b => (List.range (b + 1)).all fun a =>
    !decide (a * a + b * b < 169) || (routeCheck 9 a b || routeCheck 11 a b)) = true := by
  decide +kernel

end Img

end Verif
