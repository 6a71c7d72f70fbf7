import Verif.Model.Base
/-
Reading printed lines back.
-/
namespace Kolombos.Spec
open Kolombos

/-- The lines of a text, without their line feeds. -/
def linesOf : Str → List Str
  | [] => []
  | c :: s =>
    if c = '\n' then [] :: linesOf s
    else
      match linesOf s with
      | [] => [[c]]
      | l :: ls => (c :: l) :: ls

/-- The lines of some bytes, without their line feeds; an incomplete last line
counts. -/
def byteLines : Bytes → List Bytes
  | [] => []
  | b :: r =>
    if b = 0x0a then [] :: byteLines r
    else
      match byteLines r with
      | [] => [[b]]
      | l :: ls => (b :: l) :: ls

/-- The value of a digit `0`-`9`, `a`-`f`. -/
def digitVal (c : Char) : Option Nat :=
  if '0' ≤ c ∧ c ≤ '9' then some (c.toNat - 48)
  else if 'a' ≤ c ∧ c ≤ 'f' then some (c.toNat - 87)
  else none

/-- The number written with the given digits, after digits with value `acc`. -/
def readDigits (base : Nat) : Nat → Str → Option Nat
  | acc, [] => some acc
  | acc, c :: r =>
    match digitVal c with
    | some d => if d < base then readDigits base (acc * base + d) r else none
    | none => none

/-- The text is a number in the given base. -/
def Denotes (base : Nat) (t : Str) (n : Nat) : Prop := t ≠ [] ∧ readDigits base 0 t = some n

/-- The text denotes an offset: decimal, or `0x` and hexadecimal. -/
def IsOffsetLabel (decimal : Bool) (n : Nat) (t : Str) : Prop :=
  if decimal then Denotes 10 t n else ∃ ds, t = '0' :: 'x' :: ds ∧ Denotes 16 ds n

/-- The bytes written at the beginning of a text, each as a blank and two
hexadecimal digits. -/
def readBytes : Str → Bytes
  | ' ' :: h :: l :: r =>
    match digitVal h, digitVal l with
    | some x, some y => UInt8.ofNat (16 * x + y) :: readBytes r
    | _, _ => []
  | _ => []

end Kolombos.Spec
