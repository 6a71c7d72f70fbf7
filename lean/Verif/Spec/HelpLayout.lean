/-
How the lines of the help page are set.
-/
import Verif.Spec.HelpPage

namespace Kolombos.Spec
open Kolombos

/-- A line in bold face. -/
def isHeading (l : Str) : Bool := "\x1b[1m".toList.isPrefixOf l

/-- A line on which nothing can be seen. -/
def isBlankLine (l : Str) : Bool := l.all (· == ' ')

/-- A line that begins with two blanks. -/
def isIndented (l : Str) : Bool := [' ', ' '].isPrefixOf l

/-- Two lines may follow each other: after a heading there is an indented line; a line that is
not indented comes after an empty line. -/
def Follows (a b : Str) : Prop :=
  (isHeading a = true → isIndented b = true) ∧ (isIndented b = true ∨ isBlankLine b = true ∨ (b.head? ≠ some ' ' ∧ isBlankLine a = true))

/-- Each line may follow the line before it. -/
def WellSet : List Str → Prop
  | a :: b :: r => Follows a b ∧ WellSet (b :: r)
  | _ => True

/-- The headings of the page. -/
def headings : List String := ["USAGE", "INPUT", "OPERATING MODE", "CHARACTER CLASS OPTIONS", "GENERIC OPTIONS", "TEXT MODE OPTIONS",
  "BINARY MODE OPTIONS", "EXAMPLES"]

end Kolombos.Spec
