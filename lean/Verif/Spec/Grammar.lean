import Verif.Model.Base
/-
Escape sequences and byte classes as the documentation describes them
(ECMA-48, ISO 2022, README.md "Character classes"), declaratively.
-/
namespace Kolombos.Spec
open Kolombos

/-- `lo ≤ b ≤ hi` -/
def Rng (lo hi : Nat) (b : Byte) : Prop := lo ≤ b.toNat ∧ b.toNat ≤ hi

/-- `ESC [ parameters(30-3f)* intermediates(20-2f)* final(40-7e)` -/
def IsCsi (params : Bytes) (final : Byte) (p : Bytes) : Prop :=
  ∃ inters, p = 0x1b :: 0x5b :: (params ++ inters ++ [final]) ∧ (∀ b ∈ params, Rng 0x30 0x3f b) ∧
    (∀ b ∈ inters, Rng 0x20 0x2f b) ∧ Rng 0x40 0x7e final

/-- `ESC intermediates(20-2f)+ final(30-7e)` -/
def IsNf (p : Bytes) : Prop :=
  ∃ inters final, p = 0x1b :: (inters ++ [final]) ∧ inters ≠ [] ∧ (∀ b ∈ inters, Rng 0x20 0x2f b) ∧
    Rng 0x30 0x7e final

/-- ESC and one byte -/
def IsTwo (lo hi : Nat) (p : Bytes) : Prop := ∃ c, p = [0x1b, c] ∧ Rng lo hi c

/-- An escape sequence of any form. -/
def IsEscape (p : Bytes) : Prop := (∃ ps f, IsCsi ps f p) ∨ IsNf p ∨ IsTwo 0x30 0x7e p

/-- The documented class of a 7-bit byte outside escape sequences. -/
inductive DocClass where
  | whitespace | control | printable | high
  deriving DecidableEq

/-- README.md: 09-0d and 20 whitespace, 00-08, 0e-1f and 7f control, 21-7e printable. -/
def docClass (b : Byte) : DocClass :=
  let n := b.toNat
  if (0x09 ≤ n ∧ n ≤ 0x0d) ∨ n = 0x20 then .whitespace
  else if n ≤ 0x1f ∨ n = 0x7f then .control
  else if n ≤ 0x7e then .printable
  else .high

end Kolombos.Spec
