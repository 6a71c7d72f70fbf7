/-
What a styled text is supposed to look like on a terminal.
-/
import Verif.Model.Render
import Verif.Spec.Color
import Verif.Spec.Terminal

namespace Kolombos

/-- How a terminal writes characters of a style, once the colours are known.  A
style that is underlined once and twice is underlined once. -/
def pen (s : PStyle) (fg bg : Spec.Color) : Spec.Style where
  bold := decide (s.bold = some true)
  dim := decide (s.dim = some true)
  italic := decide (s.italic = some true)
  underline :=
    if s.underlined = some true then 1
    else if s.doubleUnderlined = some true then 2
    else 0
  blink := if s.blink = some true then 1 else 0
  inverse := decide (s.inversed = some true)
  hidden := false
  crossed := decide (s.crosslined = some true)
  overlined := decide (s.overlined = some true)
  fg := fg
  bg := bg

/-- The colour a terminal shows for a colour object, given the colours created
so far with 16 and with 256 codes (value and object, in order of creation) and
the compatibility settings. -/
inductive ColorShown (reg16 reg256 : List (Nat × IxColor)) (compat256 compat16 bg : Bool) :
    PColor → Spec.Color → Prop
  | unset {c : PColor} (h : c.hex = none) : ColorShown reg16 reg256 compat256 compat16 bg c .dflt
  | trueColor {h : Nat} (h16 : compat16 = false) (h256 : compat256 = false) :
      ColorShown reg16 reg256 compat256 compat16 bg (.rgb (some h))
        (.rgb (redOf h) (greenOf h) (blueOf h))
  | rgbTo256 {h g n : Nat} {e : IxColor} (h16 : compat16 = false) (h256 : compat256 = true)
      (near : Nearest reg256 h (g, e)) (code : e.code = some n) :
      ColorShown reg16 reg256 compat256 compat16 bg (.rgb (some h)) (.indexed n)
  | rgbTo16 {h g n : Nat} {e : IxColor} (h16 : compat16 = true)
      (near : Nearest reg16 h (g, e)) (code : (if bg then e.codeBg else e.code) = some n) :
      ColorShown reg16 reg256 compat256 compat16 bg (.rgb (some h)) (.basic n)
  | indexed {c : IxColor} {h n : Nat} (h16 : compat16 = false) (hex : c.hex = some h)
      (code : c.code = some n) :
      ColorShown reg16 reg256 compat256 compat16 bg (.ix256 c) (.indexed n)
  | indexedTo16 {c : IxColor} {h g n : Nat} {e : IxColor} (h16 : compat16 = true)
      (hex : c.hex = some h)
      (near : Nearest reg16 h (g, e)) (code : (if bg then e.codeBg else e.code) = some n) :
      ColorShown reg16 reg256 compat256 compat16 bg (.ix256 c) (.basic n)
  | basic {c : IxColor} {h n : Nat} (hex : c.hex = some h)
      (code : (if bg then c.codeBg else c.code) = some n) :
      ColorShown reg16 reg256 compat256 compat16 bg (.ix16 c) (.basic n)

/-- A colour with 16 codes that terminals know: the foreground code is one of
30-37 and 90-97, the background code is 10 more. -/
def Known16 (c : IxColor) : Prop :=
  ∃ n, c.code = some n ∧ c.codeBg = some (n + 10) ∧ ((30 ≤ n ∧ n ≤ 37) ∨ (90 ≤ n ∧ n ≤ 97))

/-- A colour with 256 codes that terminals know. -/
def Known256 (c : IxColor) : Prop := ∃ n, c.code = some n ∧ n ≤ 255

/-- A 24-bit colour with codes that terminals know, or no colour. -/
def PColor.Known : PColor → Prop
  | .rgb h => ∀ v, h = some v → v < 16777216
  | .ix256 c => ∀ v, c.hex = some v → v < 16777216 ∧ Known256 c
  | .ix16 c => ∀ v, c.hex = some v → v < 16777216 ∧ Known16 c

/-- The colours of a style are known. -/
def PStyle.Known (s : PStyle) : Prop := s.fg.Known ∧ s.bg.Known

/-- Histories of colour creations and searches for both kinds of palettes, as
they happen in a program: some colours have been created, and all of them are
known to terminals. -/
structure Palette (ops16 ops256 : List ColorOp) : Prop where
  some16 : created ops16 ≠ []
  some256 : created ops256 ≠ []
  known16 : ∀ e ∈ created ops16, e.1 < 16777216 ∧ Known16 e.2
  known256 : ∀ e ∈ created ops256, e.1 < 16777216 ∧ Known256 e.2

/-- Whether the renderer uses sequences: always, never, or on a terminal only. -/
def RenderConfig.Styled (cfg : RenderConfig) : Prop :=
  cfg.forceStyles = some true ∨ (cfg.forceStyles = some false ∧ cfg.isatty = true)

/-- How the characters of a run are supposed to be written. -/
def RunPen (reg16 reg256 : List (Nat × IxColor)) (cfg : RenderConfig) (r : TextRun)
    (st : Spec.Style) : Prop :=
  match r.style with
  | none => st = {}
  | some s => ∃ fg bg, ColorShown reg16 reg256 cfg.compat256 cfg.compat16 false s.fg fg
      ∧ ColorShown reg16 reg256 cfg.compat256 cfg.compat16 true s.bg bg
      ∧ st = pen s fg bg

/-- The characters of several runs, each written with its pen. -/
def written : List TextRun → List Spec.Style → List (Char × Spec.Style)
  | r :: rs, st :: sts => r.string.map (fun c => (c, st)) ++ written rs sts
  | _, _ => []

end Kolombos
