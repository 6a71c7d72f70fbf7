import Verif.Model.Base
/-
pytermor/util/__init__.py: digits in groups.
-/
namespace Kolombos

/-- Digits in groups of three from the right, as the format option `_` makes them; the first argument
bounds the number of groups. -/
def groupsOfThree : Nat → Str → List Str
  | 0, s => [s]
  | n + 1, s => if s.length ≤ 3 then [s] else groupsOfThree n (s.take (s.length - 3)) ++ [s.drop (s.length - 3)]

/-- `f'{value:_}'` for an integer. -/
def underscored (value : Int) : Str :=
  (if value < 0 then ['-'] else []) ++ join ['_'] (groupsOfThree (dec value.natAbs).length (dec value.natAbs))

/-- `format_thousand_sep` (pytermor/util/__init__.py:21-32; the same function is in
dev/generate_legend.py:346-347).  Simplified: integers only. -/
def formatThousandSep (value : Int) (separator : Str) : Str :=
  (underscored value).flatMap fun c => if c = '_' then separator else [c]

end Kolombos
