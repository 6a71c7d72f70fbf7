import Verif.Model.AutoFloat
/-
pytermor/util/prefixed_unit.py: numbers with unit prefixes.

Simplifications: numbers are rational and all arithmetic is exact.  `none` is a
`ValueError`.
-/
namespace Kolombos

/-- What `str.strip()` removes at the ends: the characters with `str.isspace()`. -/
def isPySpace (c : Char) : Bool :=
  let n := c.toNat
  (9 ≤ n && n ≤ 13) || (0x1c ≤ n && n ≤ 0x20) || n == 0x85 || n == 0xa0 || n == 0x1680 || (0x2000 ≤ n && n ≤ 0x200a) ||
    n == 0x2028 || n == 0x2029 || n == 0x202f || n == 0x205f || n == 0x3000

/-- `s.strip()`. -/
def pyStrip (s : Str) : Str := ((s.dropWhile isPySpace).reverse.dropWhile isPySpace).reverse

/-- `math.trunc`. -/
def pyTrunc (v : Rat) : Int := if v < 0 then ⌈v⌉ else ⌊v⌋

/-- `PrefixedUnitFormatter` (pytermor/util/prefixed_unit.py:67-94). -/
structure PrefixedUnit where
  maxValueLen : Int
  truncateFrac : Bool
  unit : Str
  unitSeparator : Str
  mcoef : Rat
  prefixes : List (Option Str)
  prefixZeroIdx : Int

namespace PrefixedUnit

/-- The text of a value once its prefix is known (pytermor/util/prefixed_unit.py:127-137).  A negative
index counts from the end. -/
def shown (F : PrefixedUnit) (unit : Str) (value : Rat) (idx : Int) : Option Str :=
  let i := if idx < 0 then idx + F.prefixes.length else idx
  let unitFull := ((F.prefixes.getD i.toNat none).getD []) ++ (if unit = [] then F.unit else unit)
  let num :=
    if F.truncateFrac = true ∧ idx = F.prefixZeroIdx then some ((decInt (pyTrunc value)).take F.maxValueLen.toNat)
    else formatAutoFloat value F.maxValueLen false
  num.map fun n => pyStrip n ++ F.unitSeparator ++ pyStrip unitFull

/-- `max([len(p) for p in prefixes if p])`; `none` is the `ValueError` of `max` without values. -/
def maxPrefixLen (F : PrefixedUnit) : Option Nat :=
  match F.prefixes.filterMap fun p => if p.getD [] = [] then none else some (p.getD []).length with
  | [] => none
  | l => some (l.foldl max 0)

/-- `PrefixedUnitFormatter.max_len` (pytermor/util/prefixed_unit.py:96-106). -/
def maxLen (F : PrefixedUnit) : Option Int :=
  let result := F.maxValueLen
  let result := result + F.unitSeparator.length
  let result := result + F.unit.length
  F.maxPrefixLen.map fun n : Nat => result + (n : Int)

/-- The text of a value without a prefix of its own (pytermor/util/prefixed_unit.py:139-144). -/
def overflow (F : PrefixedUnit) (value : Rat) : Option Str :=
  match formatAutoFloat value F.maxValueLen false, F.maxPrefixLen with
  | some n, some k => some (pyStrip n ++ F.unitSeparator ++ pyStrip (List.replicate k '?' ++ F.unit))
  | _, _ => none

/-- The loop of `PrefixedUnitFormatter.format` (pytermor/util/prefixed_unit.py:116-137).  The index moves
in one direction only, so as many steps as there are prefixes are enough. -/
def loop (F : PrefixedUnit) (unit : Str) : Nat → Rat → Int → Option Str
  | 0, value, _ => F.overflow value
  | fuel + 1, value, idx =>
    if 0 ≤ idx ∧ idx < F.prefixes.length then
      if 0 < |value| ∧ |value| ≤ 1 / F.mcoef then
        if |value * F.mcoef| ≤ 1 then F.loop unit fuel (value * F.mcoef) (idx - 1)
        else F.shown unit (value * F.mcoef) (idx - 1)
      else if |value| ≥ F.mcoef then F.loop unit fuel (value / F.mcoef) (idx + 1)
      else F.shown unit value idx
    else F.overflow value

/-- `PrefixedUnitFormatter.format` (pytermor/util/prefixed_unit.py:108-144). -/
def format (F : PrefixedUnit) (value : Rat) (unit : Str) : Option Str :=
  F.loop unit (F.prefixes.length + 1) value F.prefixZeroIdx

end PrefixedUnit

/-- `PREFIXES_SI` (pytermor/util/prefixed_unit.py:151). -/
def prefixesSi : List (Option Str) :=
  [some ['y'], some ['z'], some ['a'], some ['f'], some ['p'], some ['n'], some ['μ'], some ['m'], none,
   some ['k'], some ['M'], some ['G'], some ['T'], some ['P'], some ['E'], some ['Z'], some ['Y']]

/-- `_formatter_si_metric` (pytermor/util/prefixed_unit.py:162-170). -/
def siMetric : PrefixedUnit := ⟨4, false, [], [' '], 1000, prefixesSi, 8⟩

/-- `_formatter_si_binary` (pytermor/util/prefixed_unit.py:184-192). -/
def siBinary : PrefixedUnit := ⟨5, true, ['b'], [' '], 1024, prefixesSi, 8⟩

/-- `format_si_metric` (pytermor/util/prefixed_unit.py:19-40). -/
def formatSiMetric (value : Rat) (unit : Str) : Option Str := siMetric.format value unit

/-- `format_si_binary` (pytermor/util/prefixed_unit.py:43-64). -/
def formatSiBinary (value : Rat) (unit : Str) : Option Str := siBinary.format value unit

end Kolombos
