import Verif.Spec.Number
/-
Values that get one digit more when they are rounded.
-/
namespace Kolombos.Spec

/-- In `N` characters, the value is so close below a power of ten that it is rounded up to it, and there
are decimals: at most half a unit of the last decimal. -/
def JustBelow (N : Nat) (w : Rat) : Prop :=
  ∃ D : Nat, 1 ≤ D ∧ D + 2 ≤ N - (minusOf w).length ∧ 10 ^ D - lastUnit (N - (minusOf w).length) D / 2 ≤ |w| ∧ |w| < 10 ^ D

/-- `w` is `v` at its scale, with `z` prefixes below the base unit and `l` prefixes in all; out of their
range it is at the scale after the last or before the first one. -/
def AtScale (m : Rat) (z l : Nat) (v w : Rat) : Prop :=
  (∃ k : Int, InScale m k |v| ∧ -z ≤ k ∧ z + k < l ∧ w = v / m ^ k) ∨ (m ^ (l - z) ≤ |v| ∧ w = v / m ^ (l - z)) ∨
  (v ≠ 0 ∧ |v| * m ^ (z + 1) ≤ 1 ∧ w = v * m ^ (z + 1))

end Kolombos.Spec
