/-
Which renderer and which preferences are in force after some calls of `set_up`.
-/
import Verif.Model.Renderers

namespace Kolombos.Spec
open Kolombos

/-- The renderer given in the last call of `RendererManager.set_up`, if it has
been called; `None` and the beginning stand for `SgrRenderer`. -/
def defaultAfter (calls : List SetUp) : RendererClass :=
  (calls.reverse.findSome? fun
    | .manager none => some .sgr
    | .manager (some c) => some c
    | _ => none).getD .sgr

/-- The arguments of the last call of `set_up` on a renderer. -/
def ownAfter (c : RendererClass) (calls : List SetUp) : Option Prefs :=
  calls.reverse.findSome? fun
    | .renderer d p => if d = c then some p else none
    | _ => none

/-- The preferences of a renderer: its own ones, those of `SgrRenderer`, or the
documented defaults. -/
def prefsAfter (c : RendererClass) (calls : List SetUp) : Prefs :=
  match ownAfter c calls, ownAfter .sgr calls with
  | some p, _ => p
  | none, some p => p
  | none, none => { forceStyles := some false, compat256 := false, compat16 := false }

/-- What these preferences ask for on an output that is a terminal or not. -/
def asked (p : Prefs) (isatty : Bool) : RenderConfig :=
  { forceStyles := p.forceStyles, compat256 := p.compat256, compat16 := p.compat16, isatty := isatty }

end Kolombos.Spec
