import Verif.Spec.Lines
import Mathlib.Data.Rat.Floor
/-
What a text says as a number.
-/
namespace Kolombos.Spec

/-- `t` is a decimal numeral, maybe with blanks before it; its value is `q` and the unit of its last
digit is `u`. -/
def IsDecimal (t : Str) (q u : Rat) : Prop :=
  ∃ (blanks : Nat) (i f : Str) (n : Nat), i ≠ [] ∧ t = List.replicate blanks ' ' ++ i ++ (if f = [] then [] else '.' :: f) ∧
    readDigits 10 0 (i ++ f) = some n ∧ u = 1 / 10 ^ f.length ∧ q = n * u

/-- An integer in decimal notation. -/
def intText (e : Int) : Str := if e < 0 then '-' :: Nat.toDigits 10 e.natAbs else Nat.toDigits 10 e.natAbs

/-- The sign of a negative number. -/
def minusOf (v : Rat) : Str := if v < 0 then ['-'] else []

/-- The unit of the last digit of a numeral of `n` characters with `d` digits before the point. -/
def lastUnit (n d : Nat) : Rat := 1 / 10 ^ (n - d - 1)

/-- `q` is the best value for `x` in `n` characters, `d` of them for the integer part: a nearest one;
without a fraction it is the greatest one that fits, and a value below one may be nought. -/
def BestIn (n d : Nat) (x q : Rat) : Prop :=
  |q - x| ≤ lastUnit n d / 2 ∨ (n = d ∧ (10 ^ d - 1 / 2 ≤ x ∧ q = 10 ^ d - 1 ∨ x < 1 ∧ q = 0))

/-- The scales: the prefix for the `k`-th power of `m` is used for these values. -/
def InScale (m : Rat) (k : Int) (a : Rat) : Prop :=
  (0 < k ∧ m ^ k ≤ a ∧ a < m ^ (k + 1)) ∨ (k = 0 ∧ (a = 0 ∨ 1 / m < a ∧ a < m)) ∨ (k < 0 ∧ m ^ (k - 1) < a ∧ a ≤ m ^ k)

/-- The SI prefix for the `k`-th power of the base. -/
def siPrefix : Int → Str
  | -8 => "y".toList | -7 => "z".toList | -6 => "a".toList | -5 => "f".toList | -4 => "p".toList | -3 => "n".toList
  | -2 => "μ".toList | -1 => "m".toList | 1 => "k".toList | 2 => "M".toList | 3 => "G".toList | 4 => "T".toList
  | 5 => "P".toList | 6 => "E".toList | 7 => "Z".toList | 8 => "Y".toList | _ => []

/-- The unit is not empty and has no blanks at its ends. -/
def UnitText (unit : Str) : Prop :=
  ∃ (a z : Char), unit.head? = some a ∧ unit.getLast? = some z ∧ ∀ c, c = a ∨ c = z → 0x20 < c.toNat ∧ c.toNat ≠ 0x85 ∧ c.toNat ≠ 0xa0 ∧
    (c.toNat < 0x1680 ∨ 0x3000 < c.toNat)

end Kolombos.Spec
