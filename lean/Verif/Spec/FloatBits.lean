import Verif.F32
import Verif.SdfGen

/-!
# Specification: bit patterns and rounding

What the bits of a `float` and of a `double` mean, and what "round to nearest, ties to even" means for them.
Nothing here mentions how `ieee` rounds.
-/

namespace Verif

namespace Spec

/-- The value of a `float` bit pattern: sign bit, 8 bits exponent, 23 bits mantissa (IEEE 754 binary32); `none` is NaN. -/
noncomputable def floatValue (b : UInt32) : FVal :=
  let expo : ℕ := b.toNat / 2 ^ 23 % 2 ^ 8
  let mant : ℕ := b.toNat % 2 ^ 23
  let sign : ℝ := if 2 ^ 31 ≤ b.toNat then -1 else 1
  if expo = 255 then
    if mant = 0 then (if 2 ^ 31 ≤ b.toNat then some ⊥ else some ⊤) else none
  else if expo = 0 then some ((sign * ((mant : ℝ) / 2 ^ 23 * 2 ^ (-126 : ℤ)) : ℝ) : EReal)
  else some ((sign * ((1 + (mant : ℝ) / 2 ^ 23) * 2 ^ ((expo : ℤ) - 127)) : ℝ) : EReal)

/-- The value of a `double` bit pattern: sign bit, 11 bits exponent, 52 bits mantissa (IEEE 754 binary64). -/
noncomputable def doubleValue (b : UInt64) : FVal :=
  let expo : ℕ := b.toNat / 2 ^ 52 % 2 ^ 11
  let mant : ℕ := b.toNat % 2 ^ 52
  let sign : ℝ := if 2 ^ 63 ≤ b.toNat then -1 else 1
  if expo = 2047 then
    if mant = 0 then (if 2 ^ 63 ≤ b.toNat then some ⊥ else some ⊤) else none
  else if expo = 0 then some ((sign * ((mant : ℝ) / 2 ^ 52 * 2 ^ (-1022 : ℤ)) : ℝ) : EReal)
  else some ((sign * ((1 + (mant : ℝ) / 2 ^ 52) * 2 ^ ((expo : ℤ) - 1023)) : ℝ) : EReal)

/-- `r` rounds to nearest, ties to even, among the numbers that the patterns stand for; results beyond the middle
between the largest number and the next power of two (`top`) are infinite. -/
structure RoundsToNearest {α : Type} (value : α → FVal) (bits : α → Nat) (top : ℝ) (r : EReal → EReal) : Prop where
  /-- every result is a number of the format -/
  hits : ∀ x, ∃ b, value b = some (r x)
  /-- numbers of the format are not changed -/
  keeps : ∀ b x, value b = some x → r x = x
  /-- no number of the format is closer than the result -/
  nearest : ∀ (x y q : ℝ) (b : α), r x = y → value b = some (q : EReal) → |y - x| ≤ |q - x|
  /-- of two numbers that are equally close, the one whose last bit is zero is the result -/
  even : ∀ (x y q : ℝ) (b b' : α), r x = y → value b = some (y : EReal) → value b' = some (q : EReal) → q ≠ y →
    |y - x| = |q - x| → bits b % 2 = 0
  overflow : ∀ x : ℝ, (r x = ⊤ ↔ top ≤ x) ∧ (r x = ⊥ ↔ x ≤ -top)
  infinite : r ⊤ = ⊤ ∧ r ⊥ = ⊥

end Spec

end Verif
