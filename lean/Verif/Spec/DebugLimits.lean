import Verif.Spec.DebugPieces
import Verif.Spec.Reader
/-
What debug messages say about input that is limited.
-/
namespace Kolombos.Spec
open Kolombos

/-- The part of some bytes before their `n`-th line feed, all of them if there are fewer. -/
def beforeLf : Nat → Bytes → Bytes
  | _, [] => []
  | n, b :: r => if b = 0x0a then (if n ≤ 1 then [] else b :: beforeLf (n - 1) r) else b :: beforeLf n r

/-- What the limit of lines leaves of a chunk if `before` has been read before. -/
def underLines (lines : Option Nat) (before c : Bytes) : Bytes :=
  match limit lines with
  | some n => beforeLf (n - before.count 0x0a) c
  | none => c

/-- What the limit of bytes leaves of a chunk if `before` has been read before. -/
def underBytes (bytes : Option Nat) (before c : Bytes) : Bytes :=
  match limit bytes with
  | some n => c.take (n - before.length)
  | none => c

/-- The messages about the end of the input. -/
def endReports (s : Settings) (off : Nat) : List (Nat × Str) := eofReport s off :: partReports s off [] true

/-- The messages about a limit: its name, and what is left. -/
def limitReport (s : Settings) (off : Nat) (name : Str) (n : Option Nat) (left : Bytes) : List (Nat × Str) :=
  [(2, offsetText s off ++ name ++ " limit exceeded: ".toList ++ Nat.toDigits 10 (n.getD 0)),
   (3, offsetText s off ++ "Cropping input -> ".toList ++ bytesReport s left)]

/-- The messages about the input, with their levels, if it is limited: for each chunk its number, offset and bytes; for a chunk that is cut
the limit and what is left; the pieces of what is left; then the end.  If the limit of bytes cuts a chunk of which `n` bytes are left, the
offset of the end is `e off n`. -/
def limitedReports (s : Settings) (bytes lines : Option Nat) (e : Nat → Nat → Nat) : Nat → Bytes → List Bytes → List (Nat × Str)
  | _, before, [] => endReports s before.length
  | k, before, c :: cs =>
    let off := before.length
    let c1 := underLines lines before c
    let c2 := underBytes bytes before c1
    (1, offsetText s off ++ "Read chunk #".toList ++ Nat.toDigits 10 k ++ [':', ' '] ++ bytesReport s c)
      :: (if c1 ≠ c then limitReport s off "Line".toList lines c1 else [])
      ++ if c2 ≠ c1 then limitReport s off "Byte".toList bytes c2 ++ eofReport s (e off c2.length) :: partReports s off c2 true
        else partReports s off c1 false
          ++ if c1 ≠ c ∨ limit bytes = some (off + c1.length) then endReports s (off + c1.length)
            else limitedReports s bytes lines e (k + 1) (before ++ c) cs

end Kolombos.Spec
