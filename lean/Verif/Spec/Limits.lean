import Verif.Spec.Parts
import Verif.Spec.Ink
/-
What C114 says, apart from the code.
-/
namespace Kolombos.Spec
open Kolombos

/-- A display consists of some lines, each ending with its only line feed, and an empty line. -/
def DisplayedLines (x : List (Char × Style)) (ls : List (List (Char × Style))) : Prop :=
  x = ls.flatten ++ [('\n', ({} : Style))] ∧ ∀ l ∈ ls, ∃ y st, l = y ++ [('\n', st)] ∧ ∀ c ∈ y, c.1 ≠ '\n'

/-- The last line that is shown, `l`, compared to the same line without a limit, `l0`: missing are the symbol of the line feed and at
most two characters that are details, none if no details are asked for (`m ≤ 0`). -/
def LastLine (m : Int) (l l0 : List (Char × Style)) : Prop :=
  ∃ x t c st st', l = x ++ [('\n', ({} : Style))] ∧ l0 = x ++ t ++ [(c, st), ('\n', st')] ∧ (c = '↵' ∨ c = '×') ∧
    t.length ≤ 2 ∧ (m ≤ 0 → t = [])

/-- How the lines of a display with `--max-lines n` and those of the display without it are related, if `p` is the part of `p0` before the
`n`-th line feed: the first lines are the same; if there is a line feed too many, the last line is incomplete, or missing if it is empty. -/
def FirstLines (n : Nat) (m : Int) (p0 p : Bytes) (full shown : List (List (Char × Style))) : Prop :=
  (p = p0 → shown = full) ∧
  (p ≠ p0 → n ≤ full.length ∧ (p = [] ∨ p.getLast? = some 0x0a → shown = full.take (n - 1)) ∧
    (¬ (p = [] ∨ p.getLast? = some 0x0a) → ∃ l l0, shown = full.take (n - 1) ++ [l] ∧ full[n - 1]? = some l0 ∧ LastLine m l l0))

/-- How the lines of a display of only the bytes `p` are related to the lines of the whole display: the lines complete in `p` are the same, and
there is at most one more. -/
def FirstBytes (p : Bytes) (full shown : List (List (Char × Style))) : Prop :=
  shown.take (p.count 0x0a) = full.take (p.count 0x0a) ∧ p.count 0x0a ≤ full.length ∧ p.count 0x0a ≤ shown.length ∧ shown.length ≤ p.count 0x0a + 1

end Kolombos.Spec
