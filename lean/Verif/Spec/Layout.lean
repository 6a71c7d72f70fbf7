import Verif.Spec.Terminal
import Verif.Model.Settings
/-
How binary output is laid out on the terminal.
-/
namespace Kolombos.Spec
open Kolombos

/-- Offsets are displayed unless they are switched off; the debug option shows
them in any case. -/
def offsetsShown (s : Settings) : Bool := s.debug != 0 || !s.noOffsets

/-- A byte as it is displayed: the byte, its character and their style. -/
structure Cell where
  byte : Byte
  char : Char
  style : Style
  deriving DecidableEq

/-- The hexadecimal digit of a number below 16. -/
def hexDigit (n : Nat) : Char :=
  ['0', '1', '2', '3', '4', '5', '6', '7', '8', '9', 'a', 'b', 'c', 'd', 'e', 'f'].getD n ' '

/-- A text with blanks in front of it, up to the width `w`. -/
def alignRight (w : Nat) (t : Str) : Str := List.replicate (w - t.length) ' ' ++ t

/-- Some characters in one style. -/
def inStyle (st : Style) (s : Str) : List (Char × Style) := s.map fun c => (c, st)

/-- A byte in the hex column: a blank and two digits. -/
def Cell.hex (c : Cell) : List (Char × Style) :=
  inStyle c.style [' ', hexDigit (c.byte.toNat / 16), hexDigit (c.byte.toNat % 16)]

/-- A byte in the character column. -/
def Cell.shown (c : Cell) : Char × Style := (c.char, c.style)

/-- One row: prefix, hex column filled up with blanks to `cols` cells, blank,
separator, character column, line feed. -/
def rowLayout (pref sep : List (Char × Style)) (cols : Nat) (cells : List Cell) : List (Char × Style) :=
  pref ++ cells.flatMap Cell.hex ++ inStyle {} (List.replicate (3 * (cols - cells.length)) ' ') ++ inStyle {} [' '] ++ sep
    ++ cells.map Cell.shown ++ inStyle {} ['\n']

/-- The `i`-th group of `c` elements. -/
def slice {α : Type} (c i : Nat) (l : List α) : List α := (l.drop (i * c)).take c

/-- The bar between the parts of a row. -/
def bar (s : Settings) : Char × Style := ('│', { fg := .basic (if s.debug > 0 then 90 else 36) })

/-- An offset in figures: decimal, or hexadecimal after `0x`, filled up with zeros to four digits
or, if that is more, to the length of the decimal number, made even. -/
def offsetFigures (s : Settings) (n : Nat) : Str :=
  if s.decimalOffsets then Nat.toDigits 10 n
  else
    let d := Nat.toDigits 16 n
    '0' :: 'x' :: (List.replicate (max 4 (((Nat.toDigits 10 n).length + 1) / 2 * 2) - d.length) '0' ++ d)

/-- An offset in a colour: the first 8 characters of the figures on the right, `0x` dimmed; then a bar. -/
def offsetInk (s : Settings) (color n : Nat) : List (Char × Style) :=
  let t := (offsetFigures s n).take 8
  inStyle { fg := .basic color } (List.replicate (8 - t.length) ' ') ++
    (if s.decimalOffsets then inStyle { fg := .basic color } t
     else inStyle { fg := .basic color, dim := true } (t.take 2) ++ inStyle { fg := .basic color } (t.drop 2)) ++ [bar s]

/-- The beginning of the row with offset `n`: the offset in green. -/
def rowStart (s : Settings) (n : Nat) : List (Char × Style) := if offsetsShown s then offsetInk s 32 n else []

/-- The separator of a row: a bar, without offsets a blank. -/
def rowBar (s : Settings) : List (Char × Style) := if offsetsShown s then [bar s] else [(' ', ({} : Style))]

/-- The last line: the number of bytes in cyan. -/
def totalLine (s : Settings) (n : Nat) : List (Char × Style) := if offsetsShown s then offsetInk s 36 n ++ [('\n', ({} : Style))] else []

/-- Cells in rows of `c`, and the last line. -/
def rowsView (s : Settings) (c : Nat) (cells : List Cell) : List (Char × Style) :=
  ((List.range ((cells.length + c - 1) / c)).flatMap fun i => rowLayout (rowStart s (i * c)) (rowBar s) c (slice c i cells)) ++
    totalLine s cells.length

/-- A row: its number of columns and its bytes. -/
abbrev Row := Nat × List Cell

/-- The bytes of some rows. -/
def rowCells (rows : List Row) : List Cell := rows.flatMap Prod.snd

/-- Rows one below the other; `pref` gives the prefix for an offset. -/
def rowsLayout (pref : Nat → List (Char × Style)) (sep : List (Char × Style)) (off : Nat) :
    List Row → List (Char × Style)
  | [] => []
  | r :: rs => rowLayout (pref off) sep r.1 r.2 ++ rowsLayout pref sep (off + r.2.length) rs

/-- Groups of `c` elements: `m` of them. -/
def slices {α : Type} (c m : Nat) (l : List α) : List (List α) := (List.range m).map fun i => slice c i l

end Kolombos.Spec
