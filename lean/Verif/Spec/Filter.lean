import Verif.Model.Base
/-
Text with control sequences.
-/
namespace Kolombos.Spec

/-- A part of a text: characters, or a control sequence with its parameters and its final character. -/
inductive Bit where
  | text (s : Str)
  | csi (params : Str) (final : Char)

/-- A part as it is written. -/
def Bit.written : Bit → Str
  | .text s => s
  | .csi ps f => '\x1b' :: '[' :: (ps ++ [f])

/-- Texts have no escape characters; parameters are from `0` to `?`; the final character is `@` or a letter. -/
def Bit.Usual : Bit → Prop
  | .text s => '\x1b' ∉ s
  | .csi ps f => (∀ c ∈ ps, 0x30 ≤ c.toNat ∧ c.toNat ≤ 0x3f) ∧ (f = '@' ∨ ('A' ≤ f ∧ f ≤ 'Z') ∨ ('a' ≤ f ∧ f ≤ 'z'))

/-- A sequence that sets colours and other attributes. -/
def Bit.IsSgr : Bit → Prop
  | .text _ => False
  | .csi ps f => f = 'm' ∧ ∀ c ∈ ps, ('0' ≤ c ∧ c ≤ '9') ∨ c = ';'

/-- The parts of a sequence by their numbers in a replacement: all of it, escape character, bracket, parameters, last
character of the parameters, final character. -/
def seqPart (ps : Str) (f : Char) : Nat → Str
  | 0 => Bit.written (.csi ps f)
  | 1 => ['\x1b']
  | 2 => ['[']
  | 3 => ps
  | 4 => ps.getLast?.toList
  | 5 => [f]
  | _ => []

/-- Control sequences in general (ECMA-48, 5.4): parameters, then intermediate characters, then a final character. -/
def IsControlSequence (s : Str) : Prop :=
  ∃ (ps is : Str) (f : Char), s = '\x1b' :: '[' :: (ps ++ is ++ [f]) ∧ (∀ c ∈ ps, 0x30 ≤ c.toNat ∧ c.toNat ≤ 0x3f) ∧
    (∀ c ∈ is, 0x20 ≤ c.toNat ∧ c.toNat ≤ 0x2f) ∧ 0x40 ≤ f.toNat ∧ f.toNat ≤ 0x7e

/-- Whitespace: the blank, the controls for tabulation and new lines, the information separators, and the spaces and
line separators of Unicode. -/
def IsWhitespace (c : Char) : Prop :=
  c ∈ [' ', '\t', '\n', '\x0b', '\x0c', '\r', '\x1c', '\x1d', '\x1e', '\x1f', '\u0085', '\u00a0', '\u1680', '\u2000', '\u2001',
    '\u2002', '\u2003', '\u2004', '\u2005', '\u2006', '\u2007', '\u2008', '\u2009', '\u200a', '\u2028', '\u2029', '\u202f',
    '\u205f', '\u3000']

instance (c : Char) : Decidable (IsWhitespace c) := inferInstanceAs (Decidable (_ ∈ _))

end Kolombos.Spec
