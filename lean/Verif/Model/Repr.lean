/-
The representations of sequences, spans, colours and styles (pytermor/ansi.py,
color.py, render.py), and the ready-made styles.

Simplifications: numbers are natural.  A `Style` under construction, whose
representation is `Style[uninitialized]`, is not modelled.
-/
import Verif.Model.Ansi
import Verif.Model.ColorNames
import Verif.Model.Help

namespace Kolombos

/-- `f'{x!r}'` and `f'{x}'` of a number or `None`. -/
def reprNat : Option Nat → Str
  | none => chars% "None"
  | some n => dec n

/-- `Color.format_value` (pytermor/color.py:109-112). -/
def PColor.formatValue (c : PColor) (pfx : Option Str := some (chars% "0x")) (noopLabel : Str := ['~']) : Str :=
  match c.hex with
  | none => noopLabel
  | some h => pfx.getD [] ++ hexPad 6 h

/-- `ColorIndexed16.__repr__`, `ColorIndexed256.__repr__`, `ColorRGB.__repr__`
(pytermor/color.py:161-165, 193-196, 211-212). -/
def PColor.repr (c : PColor) : Str :=
  match c with
  | .ix16 x => chars% "ColorIndexed16[fg=" ++ reprNat x.code ++ chars% ", bg=" ++ reprNat x.codeBg ++ chars% ", "
      ++ c.formatValue ++ [']']
  | .ix256 x => chars% "ColorIndexed256[code=" ++ reprNat x.code ++ chars% ", " ++ c.formatValue ++ [']']
  | .rgb _ => chars% "ColorRGB[" ++ c.formatValue ++ [']']

/-- `ColorIndexed16.__eq__`, `ColorIndexed256.__eq__`, `ColorRGB.__eq__`
(pytermor/color.py:154-159, 187-191, 206-209). -/
def PColor.eq (a b : PColor) : Bool :=
  match a, b with
  | .ix16 x, .ix16 y => x.hex == y.hex && x.codeBg == y.codeBg && x.code == y.code
  | .ix256 x, .ix256 y => x.hex == y.hex && x.code == y.code
  | .rgb x, .rgb y => x == y
  | _, _ => false

/-- `Sequence.__repr__` of a `SequenceSGR` (pytermor/ansi.py:72-76, 244-246). -/
def Sgr.repr (q : Sgr) : Str :=
  let params := join [';'] (q.map dec)
  let params := if q.length = 0 then ['~'] else params
  chars% "SGR" ++ ['['] ++ params ++ [']']

/-- `Span.__repr__` (pytermor/ansi.py:369-370). -/
def SpanObj.repr (sp : SpanObj) : Str :=
  chars% "Span[" ++ Sgr.repr sp.opening ++ chars% ", " ++ Sgr.repr sp.closing ++ [']']

/-- The public attributes of a `Style` whose values are `bool` or `None`, in the
order of `dir()`, which is alphabetical (pytermor/render.py:237-245). -/
def PStyle.dir (s : PStyle) : List (Str × Option Bool) :=
  [(chars% "blink", s.blink), (chars% "bold", s.bold), (chars% "crosslined", s.crosslined), (chars% "dim", s.dim),
    (chars% "double_underlined", s.doubleUnderlined), (chars% "inversed", s.inversed), (chars% "italic", s.italic),
    (chars% "overlined", s.overlined), (chars% "underlined", s.underlined)]

/-- `Style.__repr__` (pytermor/render.py:315-326). -/
def PStyle.repr (s : PStyle) : Str :=
  let propsSet := [s.fg.formatValue (some (chars% "fg=")) (chars% "no fg"), s.bg.formatValue (some (chars% "bg=")) (chars% "no bg")]
  let propsSet := propsSet ++ s.dir.filterMap fun e => if e.2 == some true then some e.1 else none
  chars% "Style" ++ ['['] ++ join (chars% ", ") propsSet ++ [']']

/-! ### `Styles` (pytermor/render.py:733-753) -/

/-- A colour of `Colors` by its name in the class (pytermor/color.py:333-642). -/
def presetColor (name : Str) : PColor :=
  match colorsResolve name with
  | .ok c => c
  | .error _ => noopRgb

/-- `Styles.WARNING` (pytermor/render.py:743). -/
def stylesWarning : PStyle := newStyle none { fg := some (presetColor (chars% "YELLOW")) }

/-- `Styles.ERROR` (pytermor/render.py:747). -/
def stylesError : PStyle := newStyle none { fg := some (presetColor (chars% "RED")) }

/-- `Styles.CRITICAL` (pytermor/render.py:751). -/
def stylesCritical : PStyle :=
  newStyle none { bg := some (presetColor (chars% "HI_RED")), fg := some (presetColor (chars% "HI_WHITE")) }

/-- `Styles` (pytermor/render.py:743-753). -/
def styleTable : List (String × PStyle) :=
  [("WARNING", stylesWarning),
    ("WARNING_LABEL", newStyle (some stylesWarning) { bold := some true }),
    ("WARNING_ACCENT", newStyle none { fg := some (presetColor (chars% "HI_YELLOW")) }),
    ("ERROR", stylesError),
    ("ERROR_LABEL", newStyle (some stylesError) { bold := some true }),
    ("ERROR_ACCENT", newStyle none { fg := some (presetColor (chars% "HI_RED")) }),
    ("CRITICAL", stylesCritical),
    ("CRITICAL_LABEL", newStyle (some stylesCritical) { bold := some true }),
    ("CRITICAL_ACCENT", newStyle (some stylesCritical) { bold := some true, blink := some true })]

/-- `Styles.resolve(name)` (pytermor/common.py:18-31). -/
def stylesResolve (name : Str) : Except AnsiErr PStyle := registryResolve styleTable name

end Kolombos
