import Verif.Spec.Filter
import Verif.Spec.Lines
import Verif.Spec.Spelling
/-
Reading the help page.
-/
namespace Kolombos.Spec
open Kolombos

/-- The characters between blanks and line breaks; empty strings count. -/
def parts : Str → List Str
  | [] => [[]]
  | c :: r =>
    if IsWhitespace c then [] :: parts r
    else match parts r with
      | [] => [[c]]
      | h :: t => (c :: h) :: t

/-- The words of a text. -/
def words (s : Str) : List Str := (parts s).filter (· ≠ [])

/-- A word without a colon at its end. -/
def noColon (w : Str) : Str := if w.getLast? = some ':' then w.dropLast else w

/-- A text without its colour sequences: everything from an escape character to the next `m` is
left out. -/
def uncoloured : Bool → Str → Str
  | _, [] => []
  | true, c :: r => if c = 'm' then uncoloured false r else uncoloured true r
  | false, c :: r => if c = '\x1b' then uncoloured true r else c :: uncoloured false r

/-- The words that can be read. -/
def shownWords (s : Str) : List Str := words (uncoloured false s)

/-- The characters that can be seen on paper, colons left out. -/
def inked (s : Str) : Str := s.filter fun c => ¬ IsWhitespace c ∧ c ≠ ':'

/-- The lines of the page that are about an option: they begin with two blanks and a minus. -/
def isOptionLine (l : Str) : Bool := [' ', ' ', '-'].isPrefixOf l

/-- The names at the beginning of such a line, with commas in between. -/
def namesOnLine (l : Str) : List Str :=
  ((words l).takeWhile (fun w => w.head? = some '-')).map fun w => if w.getLast? = some ',' then w.dropLast else w

/-- The options that a page lists: for every option line the names on it. -/
def listed (page : Str) : List (List Str) := ((linesOf page).filter isOptionLine).map namesOnLine

/-- The names of an option, as they are written on the command line. -/
def namesOf : Option Char × String → List Str
  | (none, long) => ['-' :: '-' :: long.toList]
  | (some c, long) => [['-', c], '-' :: '-' :: long.toList]

end Kolombos.Spec
