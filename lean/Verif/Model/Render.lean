/-
pytermor/render.py: styles, texts made of styled runs, and the renderer that
turns them into SGR sequences.

Simplifications: arguments of unexpected types are left out; colours given by
name are not modelled (`Colors.resolve`); `sys.stdout.isatty()` is part of the
configuration.  `none` is an exception.
-/
import Verif.Model.Sgr
import Verif.Model.Color
import Verif.Model.App

namespace Kolombos

/-- `Color` and its subclasses (pytermor/color.py:102-212): `ColorRGB`,
`ColorIndexed256`, `ColorIndexed16`. -/
inductive PColor where
  | rgb (hex : Option Nat)
  | ix256 (c : IxColor)
  | ix16 (c : IxColor)
  deriving DecidableEq, Repr

/-- `Color.hex_value` (pytermor/color.py:20-26). -/
def PColor.hex : PColor → Option Nat
  | .rgb h => h
  | .ix256 c => c.hex
  | .ix16 c => c.hex

/-- `NOOP_COLOR` (pytermor/color.py:330). -/
def noopRgb : PColor := .rgb none

/-- `SequenceSGR._validate_extended_color` (pytermor/ansi.py:234-238). -/
def validExtended (n : Nat) : Bool := !(n > 255)

/-- `SequenceSGR.init_color_indexed` (pytermor/ansi.py:153-167). -/
def initColorIndexed (idx : Nat) (bg : Bool) : Option Sgr :=
  if validExtended idx then some [if bg then 48 else 38, 5, idx] else none

/-- `SequenceSGR.init_color_rgb` (pytermor/ansi.py:169-190). -/
def initColorRgb (r g b : Nat) (bg : Bool) : Option Sgr :=
  if validExtended r && validExtended g && validExtended b then
    some [if bg then 48 else 38, 2, r, g, b]
  else none

/-- `ColorIndexed16.to_sgr` (pytermor/color.py:149-152); `SequenceSGR(None)`
raises. -/
def IxColor.toSgr16 (c : IxColor) (bg : Bool) : Option Sgr :=
  if bg then c.codeBg.map (fun n => [n]) else c.code.map (fun n => [n])

/-- `ColorIndexed256.to_sgr` (pytermor/color.py:183-186). -/
def IxColor.toSgr256 (c : IxColor) (bg : Bool) : Option Sgr :=
  match c.hex with
  | none => some []
  | some _ => c.code.bind (fun n => initColorIndexed n bg)

/-- `ColorRGB.to_sgr` (pytermor/color.py:201-205). -/
def rgbToSgr (hex : Option Nat) (bg : Bool) : Option Sgr :=
  match hex with
  | none => some []
  | some h => let (r, g, b) := hexToRgb h; initColorRgb r g b bg

/-- `Style` (pytermor/render.py:187-254) after its construction. -/
structure PStyle where
  fg : PColor := noopRgb
  bg : PColor := noopRgb
  blink : Option Bool := none
  bold : Option Bool := none
  crosslined : Option Bool := none
  dim : Option Bool := none
  doubleUnderlined : Option Bool := none
  inversed : Option Bool := none
  italic : Option Bool := none
  overlined : Option Bool := none
  underlined : Option Bool := none
  className : Option Str := none
  deriving DecidableEq, Repr

/-- `bool(x)` of an attribute that is `None`, `False` or `True`. -/
def truthy (x : Option Bool) : Bool := x == some true

/-- `SgrRenderer.set_up` (pytermor/render.py:419-459) and whether the output is
a terminal. -/
structure RenderConfig where
  forceStyles : Option Bool := some false
  compat256 : Bool := false
  compat16 : Bool := false
  isatty : Bool
  deriving DecidableEq, Repr

/-- The class variables `_approximator` of `ColorIndexed16` and
`ColorIndexed256` (pytermor/color.py:120-127). -/
structure Palettes where
  p16 : Approximator := {}
  p256 : Approximator := {}
  deriving DecidableEq, Repr

/-- `SgrRenderer.is_sgr_usage_allowed` (pytermor/render.py:520-526). -/
def RenderConfig.sgrAllowed (cfg : RenderConfig) : Bool :=
  if cfg.forceStyles = some true then true
  else if cfg.forceStyles = none then false
  else cfg.isatty

/-- `SgrRenderer._render_attributes` (pytermor/render.py:476-494), the list of
sequences. -/
def attributeSgrs (cfg : RenderConfig) (s : PStyle) : List Sgr :=
  if !cfg.sgrAllowed then [[]]
  else
    (if truthy s.blink then [[5]] else [])
    ++ (if truthy s.bold then [[1]] else [])
    ++ (if truthy s.crosslined then [[9]] else [])
    ++ (if truthy s.dim then [[2]] else [])
    ++ (if truthy s.doubleUnderlined then [[21]] else [])
    ++ (if truthy s.inversed then [[7]] else [])
    ++ (if truthy s.italic then [[3]] else [])
    ++ (if truthy s.overlined then [[53]] else [])
    ++ (if truthy s.underlined then [[4]] else [])

/-- The same with `squash=True`: `reduce(lambda p, c: p + c, result, NOOP_SEQ)`. -/
def renderAttributes (cfg : RenderConfig) (s : PStyle) : Sgr :=
  if !cfg.sgrAllowed then [] else (attributeSgrs cfg s).foldl Sgr.add []

/-- `ColorIndexed16.find_closest(hex).to_sgr(bg)` with the updated cache. -/
def closest16 (p : Palettes) (h : Nat) (bg : Bool) : Option (Sgr × Palettes) :=
  match p.p16.findClosest h with
  | none => none
  | some (c, a) => (c.toSgr16 bg).map (fun q => (q, { p with p16 := a }))

/-- `ColorIndexed256.find_closest(hex).to_sgr(bg)` with the updated cache.  The
search answers with a `ColorIndexed16` if there is nothing to find. -/
def closest256 (p : Palettes) (h : Nat) (bg : Bool) : Option (Sgr × Palettes) :=
  match p.p256.findClosest h with
  | none => none
  | some (c, a) =>
    (if c = noopColor then c.toSgr16 bg else c.toSgr256 bg).map (fun q => (q, { p with p256 := a }))

/-- `SgrRenderer._render_color` (pytermor/render.py:496-518). -/
def renderColor (cfg : RenderConfig) (p : Palettes) (c : PColor) (bg : Bool) :
    Option (Sgr × Palettes) :=
  match c.hex with
  | none => some ([], p)
  | some h =>
    if !cfg.sgrAllowed then some ([], p)
    else
      match c with
      | .rgb hex =>
        if cfg.compat16 then closest16 p h bg
        else if cfg.compat256 then closest256 p h bg
        else (rgbToSgr hex bg).map (fun q => (q, p))
      | .ix256 c =>
        if cfg.compat16 then closest16 p h bg
        else (c.toSgr256 bg).map (fun q => (q, p))
      | .ix16 c => (c.toSgr16 bg).map (fun q => (q, p))

/-- The opening sequence of `SgrRenderer.render` (pytermor/render.py:463-465). -/
def openingSgr (cfg : RenderConfig) (p : Palettes) (s : PStyle) : Option (Sgr × Palettes) :=
  match renderColor cfg p s.fg false with
  | none => none
  | some (f, p) =>
    match renderColor cfg p s.bg true with
    | none => none
    | some (b, p) => some (Sgr.add (Sgr.add (renderAttributes cfg s) f) b, p)

/-- `SgrRenderer.render` (pytermor/render.py:461-474). -/
def sgrRender (cfg : RenderConfig) (p : Palettes) (text : Str) (s : PStyle) :
    Option (Str × Palettes) :=
  match openingSgr cfg p s with
  | none => none
  | some (o, p) => some (((splitLines text).map (span o)).flatten, p)

/-- `Text._TextRun` (pytermor/render.py:163-168). -/
structure TextRun where
  string : Str
  style : Option PStyle := none
  deriving DecidableEq, Repr

/-- `Text._TextRun._render_using` (pytermor/render.py:170-173) with
`SgrRenderer`. -/
def renderRun (cfg : RenderConfig) (p : Palettes) (r : TextRun) : Option (Str × Palettes) :=
  match r.style with
  | none => some (r.string, p)
  | some s => sgrRender cfg p r.string s

/-- `Text._render_using` (pytermor/render.py:115-116) with `SgrRenderer`. -/
def renderText (cfg : RenderConfig) (p : Palettes) : List TextRun → Option (Str × Palettes)
  | [] => some ([], p)
  | r :: rs =>
    match renderRun cfg p r with
    | none => none
    | some (a, p) =>
      match renderText cfg p rs with
      | none => none
      | some (b, p) => some (a ++ b, p)

end Kolombos
