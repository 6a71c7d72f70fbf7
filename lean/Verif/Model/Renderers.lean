/-
pytermor/render.py: the preferences of the renderers and the default renderer.

Simplifications: `Text.render` is modelled on the list of runs of the text; the
order in which `HtmlRenderer` iterates over sets is a parameter.  `set_up` of a
class without such a method is an `AttributeError` and changes nothing.
-/
import Verif.Model.Render
import Verif.Model.OtherRenderers

namespace Kolombos

/-- The renderers (pytermor/render.py:393, 529, 645, 660, 713). -/
inductive RendererClass where
  | sgr
  | tmux
  | noOp
  | html
  | debug
  deriving DecidableEq, Repr

/-- The arguments of `SgrRenderer.set_up` (pytermor/render.py:424-426), which
become class attributes; their first values are at 419-421. -/
structure Prefs where
  forceStyles : Option Bool := some false
  compat256 : Bool := false
  compat16 : Bool := false
  deriving DecidableEq, Repr

/-- The attributes of the classes: `RendererManager._default`
(pytermor/render.py:353, 730), those of `SgrRenderer`, and those of its subclasses
if they have been assigned there. -/
structure RendererState where
  default : RendererClass := .sgr
  sgr : Prefs := {}
  tmux : Option Prefs := none
  debug : Option Prefs := none
  deriving DecidableEq, Repr

/-- `RendererManager.set_up(r)` and `c.set_up(...)`. -/
inductive SetUp where
  | manager (r : Option RendererClass)
  | renderer (c : RendererClass) (p : Prefs)
  deriving DecidableEq, Repr

/-- `RendererManager.set_up` (pytermor/render.py:356-371) and `SgrRenderer.set_up`
(pytermor/render.py:424-459): the attributes are assigned to the class that the
method is called on. -/
def RendererState.step (st : RendererState) : SetUp → RendererState
  | .manager r => { st with default := r.getD .sgr }
  | .renderer c p =>
    match c with
    | .sgr => { st with sgr := p }
    | .tmux => { st with tmux := some p }
    | .debug => { st with debug := some p }
    | .noOp => st
    | .html => st

/-- `cls._force_styles` and so on (pytermor/render.py:502-526): an attribute is looked up
in the class and then in its base class. -/
def RendererState.prefs (st : RendererState) (c : RendererClass) : Prefs :=
  match c with
  | .tmux => st.tmux.getD st.sgr
  | .debug => st.debug.getD st.sgr
  | _ => st.sgr

/-- The preferences together with `sys.stdout.isatty()`. -/
def Prefs.config (p : Prefs) (isatty : Bool) : RenderConfig where
  forceStyles := p.forceStyles
  compat256 := p.compat256
  compat16 := p.compat16
  isatty := isatty

/-- `render` of a renderer (pytermor/render.py:461-474, 599-614, 655-657, 671-700,
721-723). -/
def renderWith (order : List Str → List Str) (c : RendererClass) (cfg : RenderConfig) (p : Palettes) (text : Str) (s : PStyle) :
    Option (Str × Palettes) :=
  match c with
  | .sgr => sgrRender cfg p text s
  | .tmux => tmuxRender cfg p text s
  | .noOp => some (noOpRender text s, p)
  | .html => some (htmlRender order text s, p)
  | .debug => debugRender cfg p text s

/-- `Text._render_using` (pytermor/render.py:115-116, 170-173). -/
def renderUsing (order : List Str → List Str) (c : RendererClass) (cfg : RenderConfig) (p : Palettes) : List TextRun → Option (Str × Palettes)
  | [] => some ([], p)
  | r :: rs =>
    match (match r.style with
      | none => some (r.string, p)
      | some s => renderWith order c cfg p r.string s) with
    | none => none
    | some (a, p) =>
      match renderUsing order c cfg p rs with
      | none => none
      | some (b, p) => some (a ++ b, p)

/-- `Text.render` and `str(text)` (pytermor/render.py:92-93, 99-100, 374-376). -/
def RendererState.render (st : RendererState) (order : List Str → List Str) (isatty : Bool) (p : Palettes) (runs : List TextRun) :
    Option (Str × Palettes) :=
  renderUsing order st.default ((st.prefs st.default).config isatty) p runs

end Kolombos
