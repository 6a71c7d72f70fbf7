import Verif.Spec.Debug
/-
What debug messages say about the pieces of the input.
-/
namespace Kolombos.Spec
open Kolombos

/-- The number that messages give to a kind of piece: the number of the group of the expression that finds it. -/
def pieceNumber : Kind → Nat
  | .utf8 => 0
  | .binary => 1
  | .reset | .sgr | .csi => 2
  | .nF => 8
  | .fp => 13
  | .fe => 16
  | .fs => 19
  | .ctrl => 22
  | .null => 23
  | .backspace => 24
  | .esc => 25
  | .delete => 26
  | .tab => 27
  | .newline => 28
  | .vertTab => 29
  | .formFeed => 30
  | .carrReturn => 31
  | .space => 32
  | .printable => 33

/-- The letter of a class. -/
def classLetter : CharClass → Char
  | .controlChar => 'C'
  | .escapeSeq => 'E'
  | .whitespace => 'S'
  | .utf8Seq => 'U'
  | .binaryData => 'B'
  | .printableChar => 'P'

/-- The piece is shown between separators: an escape sequence with details, in text mode. -/
def Framed (s : Settings) (k : Kind) : Prop :=
  classOfKind k = .escapeSeq ∧ s.ignore .escapeSeq = false ∧ s.readMode.1 = .text ∧ s.noSeparators = false ∧ level s ≠ 0

instance (s : Settings) (k : Kind) : Decidable (Framed s k) := by unfold Framed; infer_instance

/-- Two digits, or more if needed. -/
def twoDigits (n : Nat) : Str := if n < 10 then '0' :: Nat.toDigits 10 n else Nat.toDigits 10 n

/-- What messages say about some bytes: their number, from level 3 on the bytes in brief, from level 4 on all of them. -/
def bytesReport (s : Settings) (v : Bytes) : Str :=
  "len ".toList ++ Nat.toDigits 10 v.length
    ++ (if s.debug < 3 then [] else [' ', '['] ++ (if s.debug = 3 then briefHex v else spacedHex v) ++ [']'])

/-- What the message about a piece begins with: its offset, the number of its kind, its class (unless a separator is shown
before it) and its bytes. -/
def pieceReport (s : Settings) (off : Nat) (q : Kind × Bytes) : Str :=
  offsetText s off ++ "Match group #".toList ++ twoDigits (pieceNumber q.1) ++ ": Seg <".toList
    ++ (if Framed s q.1 then [] else [classLetter (classOfKind q.1)]) ++ ">: ".toList ++ bytesReport s q.2

/-- The messages about some pieces, with their levels. -/
def pieceReports (s : Settings) : Nat → List (Kind × Bytes) → List (Nat × Str)
  | _, [] => []
  | off, q :: qs => (2, pieceReport s off q) :: pieceReports s (off + q.2.length) qs

/-- What the message about the bytes that wait for being parsed says. -/
def bufferReport (s : Settings) (c : Bytes) : Nat × Str := (2, alignRight 8 "parsbuf".toList ++ "│Buffer state: ".toList ++ bytesReport s c)

/-- The messages about some bytes, the last ones or not, with their levels: how many come to the buffer, what is in it, that it is closed,
what is parsed, the pieces, and that nothing is left in the buffer. -/
def partReports (s : Settings) (off : Nat) (c : Bytes) (closing : Bool) : List (Nat × Str) :=
  (3, alignRight 8 "parsbuf".toList ++ "│Appending ".toList ++ Nat.toDigits 10 c.length ++ " bytes".toList) :: bufferReport s c
    :: (if closing then [(1, alignRight 8 "parsbuf".toList ++ "│Closing buffer for input".toList)] else [])
    ++ (1, alignRight 8 "parser".toList ++ "│Parsing segment: ".toList ++ bytesReport s c) :: pieceReports s off (pieces c)
    ++ [(3, alignRight 8 "parsbuf".toList ++ "│Purging".toList), bufferReport s []]

/-- The message about the end of the input. -/
def eofReport (s : Settings) (off : Nat) : Nat × Str := (1, offsetText s off ++ "Encountered EOF".toList)

/-- The messages about the input, with their levels: for each chunk its number, offset and bytes, and then its pieces; at the
end the offset of the end, after which no more bytes come. -/
def inputReports (s : Settings) : Nat → Nat → List Bytes → List (Nat × Str)
  | _, off, [] => eofReport s off :: partReports s off [] true
  | k, off, c :: cs =>
    (1, offsetText s off ++ "Read chunk #".toList ++ Nat.toDigits 10 k ++ [':', ' '] ++ bytesReport s c)
      :: partReports s off c false ++ inputReports s (k + 1) (off + c.length) cs

/-- A line that begins with `r`; more may follow only about what is shown for a piece. -/
def Reports (t r : Str) : Prop := ∃ rest, t = r ++ rest ++ ['\n'] ∧ (rest = [] ∨ " -> ".toList <+: rest ∨ "; ".toList <+: rest)

end Kolombos.Spec
