import Verif.Model.Sgr
import Verif.Model.PrefixedUnit
/-
pytermor/util/string_filter.py: filters for strings.

Python parses a replacement text into literal characters and references to groups; here replacements are
given in that form, and `Model/ReplTemplate` has the parser.
-/
namespace Kolombos

/-- One item of a replacement: a character, or a reference `\n` to a group. -/
inductive TplItem where
  | lit (c : Char)
  | ref (n : Nat)
  deriving DecidableEq

/-- The replacement for a match; a group that did not take part is empty, group 0 is all of the match. -/
def expandTpl (t : List TplItem) (m : Match Char) : Str :=
  t.flatMap fun
    | .lit c => [c]
    | .ref n => if n = 0 then m.text else (m.group n).getD []

/-- `ReplaceSGR(repl).apply(s)` (pytermor/util/string_filter.py:89-98, 70-72). -/
def replaceSgr (t : List TplItem) (s : Str) : Str := sgrRegexp.sub (expandTpl t) s

/-- The pattern of `ReplaceCSI`, `(\x1b)(\[)(([0-9;:<=>?])*)([@A-Za-z])` (pytermor/util/string_filter.py:111). -/
def csiRegexp : Re Char :=
  .seq (.grp 1 (.cls (· == '\x1b')))
    (.seq (.grp 2 (.cls (· == '[')))
      (.seq (.grp 3 (.star (.grp 4 (.cls fun c => c.isDigit || c == ';' || c == ':' || c == '<' || c == '=' || c == '>' || c == '?'))))
        (.grp 5 (.cls fun c => c == '@' || c.isAlpha))))

/-- `ReplaceCSI(repl).apply(s)` (pytermor/util/string_filter.py:101-111, 70-72). -/
def replaceCsi (t : List TplItem) (s : Str) : Str := csiRegexp.sub (expandTpl t) s

/-- The pattern of `VisualuzeWhitespace`, `(\n)|\s` (pytermor/util/string_filter.py:86). -/
def whitespaceRegexp : Re Char := .alt (.grp 1 (.cls (· == '\n'))) (.cls isPySpace)

end Kolombos
