import Verif.Spec.Legend
/-
The display with its colours: which characters appear in which style for a piece
of input.  Styles are those of a terminal; nothing here refers to templates or
segments of the code.
-/
namespace Kolombos.Spec
open Kolombos

/-- The colour of a kind of piece. -/
def kindColor : Kind → Style
  | .tab | .newline | .vertTab | .formFeed | .carrReturn | .space => { fg := .basic 96 }
  | .null => { fg := .basic 91 }
  | .ctrl | .backspace | .delete => { fg := .basic 31 }
  | .esc => { fg := .basic 93 }
  | .reset => { fg := .indexed 255, bg := .indexed 16 }
  | .sgr => { fg := .indexed 210, bg := .indexed 16 }
  | .csi => { fg := .basic 92 }
  | .nF => { fg := .basic 32 }
  | .fp | .fe | .fs => { fg := .basic 33 }
  | .utf8 => { fg := .basic 94 }
  | .binary => { fg := .basic 35 }
  | .printable => { fg := .indexed 102 }

/-- The colour of a kind of piece whose class is in focus: black on colour for whitespace
and printable characters, otherwise inverse. -/
def kindFocus : Kind → Style
  | .tab | .newline | .vertTab | .formFeed | .carrReturn | .space => { fg := .basic 30, bg := .basic 46 }
  | .printable => { fg := .basic 30, bg := .basic 47 }
  | k => { kindColor k with inverse := true }

/-- The style of everything ignored. -/
def dimGrey : Style := { fg := .basic 90, dim := true }

/-- The style of a piece. -/
def kindInk (s : Settings) (k : Kind) : Style :=
  if s.ignore (classOfKind k) then dimGrey else if s.focus (classOfKind k) then kindFocus k else kindColor k

/-- An element of SGR parameters applied to a marker: dim, italic, crossed, overlined
and colours take effect, everything else is left out. -/
def SgrItem.copy (st : Style) : SgrItem → Style
  | .code n =>
    if n = 2 then { st with dim := true }
    else if n = 3 then { st with italic := true }
    else if n = 9 then { st with crossed := true }
    else if n = 53 then { st with overlined := true }
    else if (30 ≤ n ∧ n ≤ 37) ∨ (90 ≤ n ∧ n ≤ 97) then { st with fg := .basic n }
    else if (40 ≤ n ∧ n ≤ 47) ∨ (100 ≤ n ∧ n ≤ 107) then { st with bg := .basic n }
    else st
  | .indexed bg n => if bg then { st with bg := .indexed n } else { st with fg := .indexed n }
  | .rgb bg r g b => if bg then { st with bg := .rgb r g b } else { st with fg := .rgb r g b }

/-- The style of an SGR sequence applied to a marker, from left to right. -/
def copied (p : Bytes) (st : Style) : Style := (sgrItems (numbers (csiParams p))).foldl SgrItem.copy st

/-- The style of details: underlined, on black. -/
def detailInk : Style := { bg := .indexed 16, underline := 1 }

/-- The style of the marker of an escape sequence. -/
def markerInk (s : Settings) (k : Kind) (p : Bytes) : Style :=
  if k = .sgr ∧ s.colorMarkers = true then copied p {} else kindInk s k

/-- The style of the details of an escape sequence. -/
def escInk (s : Settings) (k : Kind) (p : Bytes) : Style :=
  if k = .sgr then (if s.colorMarkers then copied p detailInk else detailInk)
  else { kindColor k with bg := .indexed 16, underline := 1 }

/-- Names with a dot between them; the dots are not underlined. -/
def dottedInk (st : Style) : List Str → List (Char × Style)
  | [] => []
  | [x] => inStyle st x
  | x :: r => inStyle st x ++ ('･', { st with underline := 0 }) :: dottedInk st r

/-- The details of an escape sequence. -/
def escDetailInk (s : Settings) (k : Kind) (p : Bytes) : List (Char × Style) :=
  if level s = 1 ∧ k = .sgr then dottedInk (escInk s k p) ((sgrItems (numbers (csiParams p))).map SgrItem.name)
  else inStyle (escInk s k p) (escDetail (level s) k p)

/-- What appears for a piece in text mode, including the line feed that ends the line. -/
def textInk (s : Settings) (q : Kind × Bytes) : List (Char × Style) :=
  if s.ignore (classOfKind q.1) then
    inStyle dimGrey ((q.2.map fun _ => '×') ++ (if q.1 = .newline then ['\n'] else []))
  else match q.1 with
    | .newline => [('↵', kindInk s .newline), ('\n', ({} : Style))]
    | .ctrl => q.2.flatMap fun b =>
      ('Ɐ', kindInk s .ctrl) :: inStyle { fg := .basic 31, bg := .indexed 16, underline := 1 } (ctrlDetail (level s) b)
    | .reset | .sgr | .csi | .nF | .fp | .fe | .fs =>
      if enclosed s then
        ('⢸', { fg := .indexed 255 }) :: (symbol q.1, markerInk s q.1 q.2) :: (escDetailInk s q.1 q.2 ++ [('⡇', { fg := .indexed 255 })])
      else (symbol q.1, markerInk s q.1 q.2) :: escDetailInk s q.1 q.2
    | k => inStyle (kindInk s k) (textGlyphs s k q.2)

/-- What appears for a piece in the character column of binary mode. -/
def binInk (s : Settings) (q : Kind × Bytes) : List (Char × Style) :=
  if s.ignore (classOfKind q.1) then inStyle dimGrey (q.2.map fun _ => '×')
  else match q.1 with
    | .reset | .sgr | .csi | .nF | .fp | .fe | .fs =>
      (symbol q.1, markerInk s q.1 q.2) :: inStyle (escInk s q.1 q.2) (asciiChars (q.2.drop 1))
    | k => inStyle (kindInk s k) (binGlyphs s k q.2)

/-- The label in front of a line: green, with a bar. -/
def labelInk (s : Settings) (n : Nat) : List (Char × Style) :=
  let bar : List (Char × Style) := [('│', { fg := .basic (if s.debug > 0 then 90 else 36) })]
  if s.debug ≠ 0 then inStyle { fg := .basic 32 } (alignRight 8 ((Nat.toDigits 10 n).take 8)) ++ bar
  else if s.noLineNumbers then []
  else inStyle { fg := .basic 32 } (alignRight 2 (Nat.toDigits 10 n)) ++ bar

/-- Lines made of what `disp` gives for each piece; `label` gives the beginning of each
line (the first is number 1), `lost` the number of characters missing at the end of
an incomplete line. -/
def inkLines (label : Nat → List (Char × Style)) (disp : Kind × Bytes → List (Char × Style)) (lost : List (Kind × Bytes) → Nat)
    (qs : List (Kind × Bytes)) : List (List (Char × Style)) :=
  let rest := (pieceLines qs).2
  ((pieceLines qs).1.map (fun l => l.flatMap disp) ++
    (if rest = [] then [] else [(rest.flatMap disp).take ((rest.flatMap disp).length - lost rest) ++ [('\n', ({} : Style))]])).mapIdx
      fun i l => label (i + 1) ++ l

end Kolombos.Spec
