import Verif.Model.Segment
import Verif.Spec.Debug
/-
The contents of the queue, as debug messages show them.
-/
namespace Kolombos.Spec
open Kolombos

/-- A sequence as it is written, with square brackets in place of its first two characters and its last one. -/
def seqWord (q : Sgr) : Str := if q = [] then [] else "[ǝ".toList ++ (q.assemble.drop 2).dropLast ++ "]".toList

/-- The elements of the queue in words: every byte in two figures, every sequence in square brackets. -/
def queueWords : List Chainable → List Str
  | [] => []
  | .seg g :: r => g.raw.map hexPair ++ queueWords r
  | .start q :: r => seqWord q :: queueWords r
  | .stop q :: r => seqWord q :: queueWords r
  | .oneUse q :: r => seqWord q :: queueWords r

/-- Words with blanks between them. -/
def sentence : List Str → Str
  | [] => []
  | [w] => w
  | w :: v :: r => w ++ ' ' :: sentence (v :: r)

/-- The bytes that wait in the queue. -/
def waiting : List Chainable → Bytes
  | [] => []
  | .seg g :: r => g.raw ++ waiting r
  | _ :: r => waiting r

/-- The number of characters of the sequences in the queue. -/
def seqChars : List Chainable → Nat
  | [] => 0
  | .seg _ :: r => seqChars r
  | .start q :: r => q.assemble.length + seqChars r
  | .stop q :: r => q.assemble.length + seqChars r
  | .oneUse q :: r => q.assemble.length + seqChars r

/-- The value of a figure. -/
def figure (c : Char) : Nat := if c ≤ '9' then c.toNat - '0'.toNat else c.toNat - 'a'.toNat + 10

/-- Reading bytes: words of two characters are figures of one byte. -/
def readWords (ws : List Str) : List Nat :=
  ws.filterMap fun w => match w with
    | [a, b] => some (16 * figure a + figure b)
    | _ => none

end Kolombos.Spec
