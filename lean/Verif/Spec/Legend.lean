import Verif.Spec.Pieces
import Verif.Spec.Layout
import Verif.Model.Settings
/-
The documented legend (README.md, `kolombos --legend`): which characters are
displayed for a piece of input.  Written from the documentation; nothing here
refers to templates, overrides or segments of the code.
-/
namespace Kolombos.Spec
open Kolombos

/-- The character class of a piece. -/
def classOfKind : Kind → CharClass
  | .tab | .newline | .vertTab | .formFeed | .carrReturn | .space => .whitespace
  | .ctrl | .null | .backspace | .esc | .delete => .controlChar
  | .reset | .sgr | .csi | .nF | .fp | .fe | .fs => .escapeSeq
  | .utf8 => .utf8Seq
  | .binary => .binaryData
  | .printable => .printableChar

/-- The symbol of a kind of piece in the legend (printable characters stand for
themselves). -/
def symbol : Kind → Char
  | .tab => '⇥' | .newline => '↵' | .vertTab => '⤓' | .formFeed => '↡' | .carrReturn => '⇤' | .space => '␣'
  | .null => 'Ø' | .backspace => '←' | .delete => '→' | .esc => '∌' | .ctrl => 'Ɐ'
  | .reset => 'θ' | .sgr => 'ǝ' | .csi => 'Ͻ' | .nF => 'ꟻ' | .fp => 'ꟼ' | .fe => 'Ǝ' | .fs => 'Ꙅ'
  | .utf8 => '▯' | .binary => 'Ḇ' | .printable => '?'

/-- ASCII text. -/
def asciiChars (p : Bytes) : Str := p.map fun b => Char.ofNat b.toNat

/-- The character encoded by a well-formed UTF-8 sequence of two to four bytes. -/
def utf8Char : Bytes → Str
  | [a, b] => [Char.ofNat (a.toNat % 32 * 64 + b.toNat % 64)]
  | [a, b, c] => [Char.ofNat (a.toNat % 16 * 4096 + b.toNat % 64 * 64 + c.toNat % 64)]
  | [a, b, c, d] => [Char.ofNat (a.toNat % 8 * 262144 + b.toNat % 64 * 4096 + c.toNat % 64 * 64 + d.toNat % 64)]
  | _ => []

/-! ### Parameters of SGR sequences -/

/-- The parts between semicolons. -/
def fields : Bytes → List Bytes
  | [] => [[]]
  | b :: r =>
    if b = 0x3b then [] :: fields r
    else match fields r with
      | [] => [[b]]
      | q :: qs => (b :: q) :: qs

/-- The number at the beginning of a part. -/
def fieldNumber (q : Bytes) : Nat := (q.takeWhile (between 0x30 0x39)).foldl (fun a b => 10 * a + (b.toNat - 0x30)) 0

/-- The numbers in a parameter string. -/
def numbers (ps : Bytes) : List Nat := ((fields ps).filter (· ≠ [])).map fieldNumber

/-- An element of the parameters: a code, or a colour of the 256-colour palette or
an RGB colour for the foreground or the background. -/
inductive SgrItem where
  | code (n : Nat)
  | indexed (bg : Bool) (n : Nat)
  | rgb (bg : Bool) (r g b : Nat)
  deriving DecidableEq

/-- Combining numbers to elements. -/
def sgrItems : List Nat → List SgrItem
  | 38 :: 5 :: n :: r => .indexed false n :: sgrItems r
  | 48 :: 5 :: n :: r => .indexed true n :: sgrItems r
  | 38 :: 2 :: x :: y :: z :: r => .rgb false x y z :: sgrItems r
  | 48 :: 2 :: x :: y :: z :: r => .rgb true x y z :: sgrItems r
  | n :: r => .code n :: sgrItems r
  | [] => []

/-- An upper-case hexadecimal number of at least six digits. -/
def hex6 (n : Nat) : Str :=
  let d := (Nat.toDigits 16 n).map Char.toUpper
  List.replicate (6 - d.length) '0' ++ d

/-- The short name of an element. -/
def SgrItem.name : SgrItem → Str
  | .code n => Nat.toDigits 10 n
  | .indexed bg n => (if bg then 'B' else 'F') :: Nat.toDigits 10 n
  | .rgb bg r g b => (if bg then 'B' else 'F') :: hex6 (65536 * r + 256 * g + b)

/-- The codes of an element that may be applied to a marker: dim, italic, crossed,
overlined and colours. -/
def SgrItem.harmless : SgrItem → List Nat
  | .code n =>
    if n = 2 ∨ n = 3 ∨ n = 9 ∨ n = 53 ∨ (30 ≤ n ∧ n ≤ 37) ∨ (40 ≤ n ∧ n ≤ 47) ∨ (90 ≤ n ∧ n ≤ 97) ∨ (100 ≤ n ∧ n ≤ 107)
    then [n] else []
  | .indexed bg n => [if bg then 48 else 38, 5, n]
  | .rgb bg r g b => [if bg then 48 else 38, 2, r, g, b]

/-- Names with a dot between them. -/
def dotted : List Str → Str
  | [] => []
  | [x] => x
  | x :: r => x ++ '･' :: dotted r

/-- The short description of an SGR sequence. -/
def sgrBrief (p : Bytes) : Str := dotted ((sgrItems (numbers (csiParams p))).map SgrItem.name)

/-! ### Text mode -/

/-- How much is said about control characters and escape sequences (`-m`). -/
def level (s : Settings) : Nat := if s.marker ≤ 0 then 0 else if s.marker = 1 then 1 else 2

/-- What follows the symbol of a control character: nothing, its letter in caret notation
(`^A` for 01), or its code. -/
def ctrlDetail (lv : Nat) (b : Byte) : Str :=
  if lv = 0 then []
  else if lv = 1 then [Char.ofNat (b.toNat + 0x40)]
  else [hexDigit (b.toNat / 16), hexDigit (b.toNat % 16)]

/-- What follows the symbol of an escape sequence: nothing, the short description
(SGR only), or the rest of the sequence. -/
def escDetail (lv : Nat) (k : Kind) (p : Bytes) : Str :=
  if lv = 0 then []
  else if lv = 1 then (if k = .sgr then sgrBrief p else [])
  else asciiChars (p.drop 1)

/-- Escape sequences with details are enclosed in separators. -/
def enclosed (s : Settings) : Bool := !s.noSeparators && decide (level s ≠ 0)

/-- The characters displayed for a piece in text mode, without the line feed that
ends the line after a line feed. -/
def textGlyphs (s : Settings) (k : Kind) (p : Bytes) : Str :=
  if s.ignore (classOfKind k) then p.map fun _ => '×'
  else match k with
    | .printable => asciiChars p
    | .utf8 => utf8Char p
    | .tab => p.flatMap fun _ => [symbol .tab, '\t']
    | .space => p.map fun _ => if s.focus .whitespace then '·' else symbol .space
    | .ctrl => p.flatMap fun b => symbol .ctrl :: ctrlDetail (level s) b
    | .newline | .vertTab | .formFeed | .carrReturn | .null | .backspace | .delete | .esc | .binary =>
      p.map fun _ => symbol k
    | .reset | .sgr | .csi | .nF | .fp | .fe | .fs =>
      if enclosed s then '⢸' :: symbol k :: (escDetail (level s) k p ++ ['⡇'])
      else symbol k :: escDetail (level s) k p

/-- The number of characters at the end of the glyphs of a piece that are not
displayed if the input ends there. -/
def textLost (s : Settings) (k : Kind) : Nat :=
  if s.ignore (classOfKind k) then 0
  else match k with
    | .ctrl => level s
    | .reset | .sgr | .csi | .nF | .fp | .fe | .fs => if enclosed s then 1 else 0
    | _ => 0

/-- Pieces divided into lines: complete lines (each ends with a line feed), and the
pieces after the last line feed. -/
def pieceLines : List (Kind × Bytes) → List (List (Kind × Bytes)) × List (Kind × Bytes)
  | [] => ([], [])
  | q :: qs =>
    let r := pieceLines qs
    if q.1 = .newline then ([q] :: r.1, r.2)
    else match r.1 with
      | [] => ([], q :: r.2)
      | l :: ls => ((q :: l) :: ls, r.2)

/-- The characters displayed for some pieces. -/
def glyphsAll (s : Settings) (qs : List (Kind × Bytes)) : Str := qs.flatMap fun q => textGlyphs s q.1 q.2

/-- The label in front of a line. -/
def lineLabel (s : Settings) (n : Nat) : Str :=
  if s.debug ≠ 0 then alignRight 8 ((Nat.toDigits 10 n).take 8) ++ ['│']
  else if s.noLineNumbers then []
  else alignRight 2 (Nat.toDigits 10 n) ++ ['│']

/-- The number of characters lost at the end of an incomplete line. -/
def lostAt (s : Settings) (qs : List (Kind × Bytes)) : Nat :=
  match qs.getLast? with
  | some q => textLost s q.1
  | none => 0

/-- The lines displayed for the pieces of a complete input. -/
def textView (s : Settings) (qs : List (Kind × Bytes)) : List Str :=
  let bodies := (pieceLines qs).1.map (glyphsAll s) ++
    (if (pieceLines qs).2 = [] then []
     else [(glyphsAll s (pieceLines qs).2).take ((glyphsAll s (pieceLines qs).2).length - lostAt s (pieceLines qs).2)])
  bodies.mapIdx fun i t => lineLabel s (i + 1) ++ t

/-- The lines of pieces; an incomplete last line counts. -/
def linesOfPieces (qs : List (Kind × Bytes)) : List (List (Kind × Bytes)) :=
  (pieceLines qs).1 ++ (if (pieceLines qs).2 = [] then [] else [(pieceLines qs).2])

/-- The lines with everything that is displayed for their pieces. -/
def fullView (s : Settings) (qs : List (Kind × Bytes)) : List Str :=
  (linesOfPieces qs).mapIdx fun i l => lineLabel s (i + 1) ++ glyphsAll s l

/-! ### Binary mode -/

/-- The characters displayed for a piece in binary mode, one per byte. -/
def binGlyphs (s : Settings) (k : Kind) (p : Bytes) : Str :=
  if s.ignore (classOfKind k) then p.map fun _ => '×'
  else match k with
    | .printable => asciiChars p
    | .utf8 =>
      if s.decode = some true then List.replicate (p.length - 1) '_' ++ utf8Char p else p.map fun _ => '▯'
    | .binary => p.map fun _ => '▯'
    | .space => p.map fun _ => if s.focus .whitespace then '·' else symbol .space
    | .reset | .sgr | .csi | .nF | .fp | .fe | .fs => symbol k :: asciiChars (p.drop 1)
    | .tab | .newline | .vertTab | .formFeed | .carrReturn | .null | .backspace | .delete | .esc | .ctrl =>
      p.map fun _ => symbol k

/-- The pieces of some chunks. -/
def chunkPieces (chunks : List Bytes) : List (Kind × Bytes) := chunks.flatMap pieces

end Kolombos.Spec
