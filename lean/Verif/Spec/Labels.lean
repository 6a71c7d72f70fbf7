import Verif.Spec.Limits
/-
What C115 says, apart from the code.
-/
namespace Kolombos.Spec
open Kolombos

/-- One of the two characters that enclose a sequence with details: they have a colour of their own, `255` of the palette. -/
def IsSeparator (x : Char × Style) : Bool := decide (x = ('⢸', { fg := .indexed 255 }) ∨ x = ('⡇', { fg := .indexed 255 }))

/-- The number of a line in green, at least two characters wide, and a cyan bar. -/
def lineNumber (n : Nat) : List (Char × Style) :=
  inStyle { fg := .basic 32 } (alignRight 2 (Nat.toDigits 10 n)) ++ [('│', { fg := .basic 36 })]

/-- A row of binary mode: on the left of the bar, on its right. -/
abbrev RowSides := List (Char × Style) × List (Char × Style)

/-- Rows of `c` columns for `n` bytes: three characters per column and a blank on the left, at most `c` characters on the right. -/
def RowsFor (c n : Nat) (rows : List RowSides) : Prop :=
  rows.length = (n + c - 1) / c ∧ ∀ r ∈ rows, r.1.length = 3 * c + 1 ∧ r.2.length ≤ c

/-- Rows with offsets: `label` gives what is in front of the row with an offset; below is the number of bytes. -/
def offsetRows (label : Nat → List (Char × Style)) (last : List (Char × Style)) (c : Nat) (rows : List RowSides) : List (Char × Style) :=
  (rows.mapIdx fun i r => label (i * c) ++ r.1 ++ [('│', { fg := .basic 36 })] ++ r.2 ++ [('\n', ({} : Style))]).flatten ++ last ++ [('\n', ({} : Style))]

/-- Rows without offsets. -/
def bareRows (rows : List RowSides) : List (Char × Style) :=
  (rows.map fun r => r.1 ++ [(' ', ({} : Style))] ++ r.2 ++ [('\n', ({} : Style))]).flatten ++ [('\n', ({} : Style))]

/-- What is in front of a row or in the last line: the figures of a number, the first 8 of them, on the right, in a colour; then a bar. -/
def figuresInk (decimal : Bool) (color n : Nat) : List (Char × Style) :=
  if decimal then
    inStyle { fg := .basic color } (alignRight 8 ((Nat.toDigits 10 n).take 8)) ++ [('│', { fg := .basic 36 })]
  else
    let d := Nat.toDigits 16 n
    let t := ('0' :: 'x' :: (List.replicate (max 4 (((Nat.toDigits 10 n).length + 1) / 2 * 2) - d.length) '0' ++ d)).take 8
    inStyle { fg := .basic color } (List.replicate (8 - t.length) ' ') ++ inStyle { fg := .basic color, dim := true } (t.take 2) ++
      inStyle { fg := .basic color } (t.drop 2) ++ [('│', { fg := .basic 36 })]

end Kolombos.Spec
