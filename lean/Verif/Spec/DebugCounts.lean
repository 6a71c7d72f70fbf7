import Verif.Spec.Debug
/-
The numbers in debug messages: how many bytes were parsed, wait in the queue, and were taken from it.
-/
namespace Kolombos.Spec
open Kolombos

/-- What the messages about these numbers begin with. -/
def parsedMark : Str := "  parser│Parsing segment: len ".toList
@[inherit_doc parsedMark] def queueMark : Str := "chainbuf│Buffer state: len ".toList
@[inherit_doc parsedMark] def takenMark : Str := "chainbuf│Detached ".toList

/-- A line that has none of these numbers. -/
def NoCount (t : Str) : Prop := ¬ parsedMark <+: t ∧ ¬ queueMark <+: t ∧ ¬ takenMark <+: t

/-- Some bytes in figures, with a blank before each. -/
def hexRow (bytes : Bytes) : Str := bytes.flatMap fun b => ' ' :: hexPair b

/-- The numbers in some lines agree with each other, where `waiting` bytes are in the queue, `taken` were taken from it and not
shown, and `off` is the number of bytes shown: bytes that are parsed come to the queue; what is said about the queue is their
number; bytes are taken only after those taken before were shown; the bytes taken are shown at once, with the right offset. -/
inductive CountsAdd (s : Settings) : Nat → Nat → Nat → List Str → Prop where
  | nil (waiting off : Nat) : CountsAdd s waiting 0 off []
  | parsed {waiting off : Nat} {r : List Str} (n : Nat) (rest : Str) (h : rest = ['\n'] ∨ [' '] <+: rest) (hr : CountsAdd s (waiting + n) 0 off r) :
      CountsAdd s waiting 0 off ((parsedMark ++ Nat.toDigits 10 n ++ rest) :: r)
  | queue {waiting taken off : Nat} {r : List Str} (rest : Str) (hr : CountsAdd s waiting taken off r) :
      CountsAdd s waiting taken off ((queueMark ++ Nat.toDigits 10 waiting ++ ['+'] ++ rest) :: r)
  | taken {waiting off : Nat} {r : List Str} (n : Nat) (hr : CountsAdd s waiting n off r) :
      CountsAdd s (waiting + n) 0 off ((takenMark ++ Nat.toDigits 10 n ++ " data byte(s)\n".toList) :: r)
  | row {waiting off : Nat} {r : List Str} (bytes : Bytes) (rest : Str) (h : rest = ['\n'] ∨ [' ', ' '] <+: rest ∨ [' ', '│'] <+: rest)
      (hr : CountsAdd s waiting 0 (off + bytes.length) r) :
      CountsAdd s waiting bytes.length off ((offsetText s off ++ hexRow bytes ++ rest) :: r)
  | other {waiting taken off : Nat} {r : List Str} (t : Str) (h : NoCount t) (hr : CountsAdd s waiting taken off r) :
      CountsAdd s waiting taken off (t :: r)

end Kolombos.Spec
