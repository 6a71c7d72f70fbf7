/-
How representations are supposed to be read, and what the ready-made styles are
supposed to look like.
-/
import Verif.Spec.Tmux
import Verif.Spec.Terminal
import Verif.Spec.Style

namespace Kolombos.Spec
open Kolombos

/-- The number that hexadecimal digits stand for. -/
def hexNumber (s : Str) : Nat := s.foldl (fun n c => 16 * n + (hexValue c).getD 0) 0

/-- Hexadecimal digits in lower case, six of them or more, without needless
zeros. -/
structure HexText (s : Str) (h : Nat) : Prop where
  digits : ∀ c ∈ s, ('0' ≤ c ∧ c ≤ '9') ∨ ('a' ≤ c ∧ c ≤ 'f')
  value : hexNumber s = h
  six : 6 ≤ s.length
  short : h < 16777216 → s.length = 6

/-- The attributes of a style with their names. -/
def styleFlags (s : PStyle) : List (String × Option Bool) :=
  [("bold", s.bold), ("dim", s.dim), ("italic", s.italic), ("underlined", s.underlined), ("double_underlined", s.doubleUnderlined),
    ("blink", s.blink), ("inversed", s.inversed), ("crosslined", s.crosslined), ("overlined", s.overlined)]

/-- A colour in the representation of a style: its name and its value, or its
absence. -/
def ColorPart (what : String) (c : PColor) (s : Str) : Prop :=
  match c.hex with
  | none => s = "no ".toList ++ what.toList
  | some h => ∃ d, HexText d h ∧ s = what.toList ++ '=' :: d

/-- The ready-made styles on a terminal. -/
def readyStyles : List (String × Style) :=
  [("warning", { fg := .basic 33 }), ("warning_label", { fg := .basic 33, bold := true }), ("warning_accent", { fg := .basic 93 }),
    ("error", { fg := .basic 31 }), ("error_label", { fg := .basic 31, bold := true }), ("error_accent", { fg := .basic 91 }),
    ("critical", { fg := .basic 97, bg := .basic 101 }), ("critical_label", { fg := .basic 97, bg := .basic 101, bold := true }),
    ("critical_accent", { fg := .basic 97, bg := .basic 101, bold := true, blink := 1 })]

end Kolombos.Spec
