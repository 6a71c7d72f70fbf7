import Verif.Spec.Terminal
import Verif.Spec.Layout
import Verif.Spec.Legend
/-
Lines on a screen, and what debug messages say.
-/
namespace Kolombos.Spec
open Kolombos

/-- What appears, cut after each line feed; the last line may be incomplete. -/
def screenLines : List (Char × Style) → List (List (Char × Style))
  | [] => []
  | x :: r =>
    if x.1 = '\n' then [x] :: screenLines r
    else match screenLines r with
      | [] => [[x]]
      | l :: ls => (x :: l) :: ls

/-- The plain character for a byte: a dot for white space, the character itself if it is printable
ASCII, a box for anything else. -/
def plainChar (b : Byte) : Char :=
  if b ∈ [0x09, 0x0a, 0x0b, 0x0c, 0x0d, 0x20] then '·' else if 0x21 ≤ b ∧ b ≤ 0x7e then Char.ofNat b.toNat else '▯'

/-- The two digits of a byte. -/
def hexPair (b : Byte) : Str := [hexDigit (b.toNat / 16), hexDigit (b.toNat % 16)]

/-- An offset at the beginning of a line: at most 8 characters, on the right, and a bar. -/
def offsetText (s : Settings) (off : Nat) : Str := alignRight 8 ((offsetFigures s off).take 8) ++ ['│']

/-- A line with an offset, some bytes, `fill` blanks, and some characters. -/
def dumpLine (s : Settings) (off fill : Nat) (bytes : Bytes) (chars : Str) : Str :=
  offsetText s off ++ (bytes.flatMap fun b => ' ' :: hexPair b) ++ List.replicate fill ' ' ++ [' ', '│'] ++ chars ++ ['\n']

/-- Bytes in figures, with blanks between them. -/
def spacedHex : Bytes → Str
  | [] => []
  | [b] => hexPair b
  | b :: c :: r => hexPair b ++ ' ' :: spacedHex (c :: r)

/-- The bytes as a message shows them at level 3: the first three, and the last if there are more. -/
def briefHex (bytes : Bytes) : Str :=
  if bytes.length ≤ 3 then spacedHex bytes
  else spacedHex (bytes.take 3) ++ ['.', '.', ' '] ++ spacedHex (bytes.drop (bytes.length - 1))

/-- What the messages say about the chunks: number, offset and length of each; from level 3 on also
bytes, from level 4 on all of them. -/
def chunkReports (s : Settings) : Nat → Nat → List Bytes → List Str
  | _, _, [] => []
  | k, off, c :: cs =>
    (offsetText s off ++ "Read chunk #".toList ++ Nat.toDigits 10 k ++ ": len ".toList ++ Nat.toDigits 10 c.length
      ++ (if s.debug < 3 then [] else [' ', '['] ++ (if s.debug = 3 then briefHex c else spacedHex c) ++ [']']) ++ ['\n'])
      :: chunkReports s (k + 1) (off + c.length) cs

/-- The lines of some bytes, each with its line feed; the last line may have none. -/
def keptLines : Bytes → List Bytes
  | [] => []
  | b :: r =>
    if b = 0x0a then [b] :: keptLines r
    else match keptLines r with
      | [] => [[b]]
      | l :: ls => (b :: l) :: ls

/-- What the messages say about some lines: the offset of each with its bytes in figures, and with plain
characters. -/
def lineDumps (s : Settings) : Nat → List Bytes → List (Str × Str)
  | _, [] => []
  | off, l :: ls =>
    (offsetText s off ++ (l.flatMap fun b => ' ' :: hexPair b) ++ ['\n'], offsetText s off ++ l.map plainChar ++ ['\n'])
      :: lineDumps s (off + l.length) ls

/-- What the messages show of a piece: of an escape sequence without details only ESC, instead of a control
character with details as many zeros as its code says, otherwise its bytes. -/
def dumpedBytes (s : Settings) (q : Kind × Bytes) : Bytes :=
  if q.1 = .ctrl ∧ level s ≠ 0 then q.2.flatMap fun b => List.replicate b.toNat 0
  else if classOfKind q.1 = .escapeSeq ∧ s.ignore .escapeSeq = false ∧ level s = 0 then q.2.take 1
  else q.2

/-- The texts of the lines on a screen. -/
def screenTexts (out : Str) : List Str := (screenLines (appears out)).map (·.map Prod.fst)

/-- Lines on a screen and the lines of the display among them: each of these satisfies `T`, or the line right
above it is a message that is related to it by `P`. -/
inductive Annotated (P : Str → Str → Prop) (T : Str → Prop) : List Str → List Str → Prop
  | nil : Annotated P T [] []
  | message (u : Str) {screen display : List Str} : Annotated P T screen display → Annotated P T (u :: screen) display
  | row {u t : Str} {screen display : List Str} : P u t → Annotated P T screen display → Annotated P T (u :: t :: screen) (t :: display)
  | alone {t : Str} {screen display : List Str} : T t → Annotated P T screen display → Annotated P T (t :: screen) (t :: display)

end Kolombos.Spec
