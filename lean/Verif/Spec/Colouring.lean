import Verif.Spec.Ink
import Verif.Model.Args
/-
What C116 says, apart from the code: which options only colour.
-/
namespace Kolombos.Spec
open Kolombos

/-- Two displays of the same length; the characters at each place are in the relation `R`. -/
def SamePlaces (R : Char × Style → Char × Style → Prop) (a b : List (Char × Style)) : Prop :=
  a.length = b.length ∧ ∀ xy ∈ a.zip b, R xy.1 xy.2

/-- What focusing a class may do to a character: nothing, or replace the colour of a kind of the class by that for focus; the symbol
of a space becomes a dot. -/
def FocusChange (c : CharClass) (x y : Char × Style) : Prop :=
  y = x ∨ ∃ k, classOfKind k = c ∧ x.2 = kindColor k ∧ y.2 = kindFocus k ∧ (y.1 = x.1 ∨ k = .space ∧ x.1 = '␣' ∧ y.1 = '·')

/-- What `--color-markers` may do to a character: nothing, or give the marker or the details of an SGR sequence of the input the colours
of the sequence. -/
def MarkerChange (qs : List (Kind × Bytes)) (x y : Char × Style) : Prop :=
  y = x ∨ y.1 = x.1 ∧ ∃ p, (.sgr, p) ∈ qs ∧
    ((x.2 = kindColor .sgr ∨ x.2 = kindFocus .sgr) ∧ y.2 = copied p {} ∨ x.2 = detailInk ∧ y.2 = copied p detailInk ∨
      x.2 = { detailInk with underline := 0 } ∧ y.2 = { copied p detailInk with underline := 0 })

/-- What ignoring a class may do to a character in binary mode: nothing, or make something in a style of a piece of the class dim grey;
in the column of characters it becomes a cross. -/
def IgnoreChange (s : Settings) (qs : List (Kind × Bytes)) (c : CharClass) (x y : Char × Style) : Prop :=
  y = x ∨ y.2 = dimGrey ∧ (y.1 = x.1 ∨ y.1 = '×') ∧ ∃ q ∈ qs, classOfKind q.1 = c ∧ x.2 ∈ (binInk s q).map Prod.snd

/-- What `--decode` may do to a character in binary mode: nothing, or replace the symbol of a byte of UTF-8 in the same colour. -/
def DecodeChange (x y : Char × Style) : Prop :=
  y = x ∨ y.2 = x.2 ∧ x.1 = '▯' ∧ (x.2 = kindColor .utf8 ∨ x.2 = kindFocus .utf8)

/-- The options that only colour, in both modes. -/
inductive Colours : Flag → Prop
  | focus (c : CharClass) : Colours (.focus c)
  | markers : Colours .colorMarkers

/-- The options that change single places of the display of binary mode. -/
inductive ChangesPlaces : Flag → Prop
  | colours {f : Flag} (h : Colours f) : ChangesPlaces f
  | ignore (c : CharClass) : ChangesPlaces (.ignore c)
  | decode : ChangesPlaces .decode

/-- What an option may do to a character. -/
def OptionChange (s : Settings) (qs : List (Kind × Bytes)) : Flag → Char × Style → Char × Style → Prop
  | .focus c => FocusChange c
  | .colorMarkers => MarkerChange qs
  | .ignore c => IgnoreChange s qs c
  | .decode => DecodeChange
  | _ => fun x y => y = x

end Kolombos.Spec
