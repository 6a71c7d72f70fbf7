/-
pytermor/render.py: the renderers for tmux, for HTML, for debugging, and the one
that does nothing.  `none` is an exception.
-/
import Verif.Model.Render
import Verif.Model.Filter

namespace Kolombos

/-- `TmuxRenderer.SGR_TO_TMUX_MAP` (pytermor/render.py:534-597), in the order of
the source. -/
def tmuxMap : List (Sgr × Str) := [
  ([], []), ([0], "default".toList),
  ([1], "bold".toList), ([2], "dim".toList), ([3], "italics".toList), ([4], "underscore".toList),
  ([5], "blink".toList), ([6], "blink".toList), ([5], "blink".toList), ([7], "reverse".toList),
  ([8], "hidden".toList), ([9], "strikethrough".toList), ([21], "double-underscore".toList),
  ([53], "overline".toList),
  ([22], "nobold nodim".toList), ([23], "noitalics".toList), ([24], "nounderscore".toList),
  ([25], "noblink".toList), ([27], "noreverse".toList), ([28], "nohidden".toList),
  ([29], "nostrikethrough".toList), ([55], "nooverline".toList),
  ([30], "fg=black".toList), ([31], "fg=red".toList), ([32], "fg=green".toList),
  ([33], "fg=yellow".toList), ([34], "fg=blue".toList), ([35], "fg=magenta".toList),
  ([36], "fg=cyan".toList), ([37], "fg=white".toList), ([39], "fg=default".toList),
  ([40], "bg=black".toList), ([41], "bg=red".toList), ([42], "bg=green".toList),
  ([43], "bg=yellow".toList), ([44], "bg=blue".toList), ([45], "bg=magenta".toList),
  ([46], "bg=cyan".toList), ([47], "bg=white".toList), ([49], "bg=default".toList),
  ([90], "fg=brightblack".toList), ([91], "fg=brightred".toList), ([92], "fg=brightgreen".toList),
  ([93], "fg=brightyellow".toList), ([94], "fg=brightblue".toList), ([95], "fg=brightmagenta".toList),
  ([96], "fg=brightcyan".toList), ([97], "fg=brightwhite".toList),
  ([100], "bg=brightblack".toList), ([101], "bg=brightred".toList), ([102], "bg=brightgreen".toList),
  ([103], "bg=brightyellow".toList), ([104], "bg=brightblue".toList), ([105], "bg=brightmagenta".toList),
  ([106], "bg=brightcyan".toList), ([107], "bg=brightwhite".toList)]

/-- `SGR_TO_TMUX_MAP.get(sgr)`: a key is found by its hash, then compared. -/
def tmuxGet (q : Sgr) : Option Str :=
  (tmuxMap.find? fun e => e.1.hash == q.hash && Sgr.eq e.1 q).map Prod.snd

/-- `SequenceSGR.is_color_extended` (pytermor/ansi.py:223-227). -/
def Sgr.isColorExtended (q : Sgr) : Bool :=
  decide (q.length ≥ 3) && (q.head? == some 38 || q.head? == some 48)

/-- The body of the loop of `TmuxRenderer._sgr_to_tmux_style`
(pytermor/render.py:619-642): what is added to the result.  A wrong number of
channels is a `TypeError`. -/
def sgrToTmux (q : Sgr) : Option Str :=
  if q.isColorExtended then
    let target := if q.head? = some 48 then "bg".toList else "fg".toList
    match q.drop 1 with
    | 5 :: n :: _ => some ("#[".toList ++ target ++ "=color".toList ++ dec n ++ "]".toList)
    | [2, r, g, b] =>
      some ("#[".toList ++ target ++ "=#".toList ++ hexPad 6 (rgbToHex r g b) ++ "]".toList)
    | _ => none
  else
    match tmuxGet q with
    | none => none
    | some d => if d.length > 0 then some ("#[".toList ++ d ++ "]".toList) else some []

/-- `TmuxRenderer._sgr_to_tmux_style` (pytermor/render.py:616-642). -/
def sgrsToTmux : List Sgr → Option Str
  | [] => some []
  | q :: qs =>
    match sgrToTmux q, sgrsToTmux qs with
    | some a, some b => some (a ++ b)
    | _, _ => none

/-- `TmuxRenderer.render` (pytermor/render.py:599-614). -/
def tmuxRender (cfg : RenderConfig) (p : Palettes) (text : Str) (s : PStyle) :
    Option (Str × Palettes) :=
  match renderColor cfg p s.fg false with
  | none => none
  | some (f, p) =>
    match renderColor cfg p s.bg true with
    | none => none
    | some (b, p) =>
      let sgrs := attributeSgrs cfg s ++ [f, b]
      match sgrsToTmux sgrs, sgrsToTmux (sgrs.map Sgr.closing) with
      | some o, some c => some (((splitLines text).map fun l => o ++ l ++ c).flatten, p)
      | _, _ => none

/-- `Text._render_using` and `Text._TextRun._render_using`
(pytermor/render.py:115-116, 170-173) with `TmuxRenderer`. -/
def tmuxRenderText (cfg : RenderConfig) (p : Palettes) : List TextRun → Option (Str × Palettes)
  | [] => some ([], p)
  | r :: rs =>
    match (match r.style with
      | none => some (r.string, p)
      | some s => tmuxRender cfg p r.string s) with
    | none => none
    | some (a, p) =>
      match tmuxRenderText cfg p rs with
      | none => none
      | some (b, p) => some (a ++ b, p)

/-- `NoOpRenderer.render` (pytermor/render.py:655-657). -/
def noOpRender (text : Str) (_ : PStyle) : Str := text

/-- `set.add`: the elements in the order of their insertion. -/
def setAdd (s : List Str) (x : Str) : List Str := if x ∈ s then s else s ++ [x]

/-- `HtmlRenderer.render` (pytermor/render.py:671-700), the dictionary
`span_styles`: keys in the order of `DEFAULT_ATTRS`. -/
def htmlStyles (s : PStyle) : List (Str × List Str) :=
  let color (c : PColor) : List Str :=
    match c.hex with
    | none => []
    | some h => ['#' :: hexPad 6 h]
  let fg := color s.fg
  let bg := color s.bg
  let border := if truthy s.blink then setAdd (setAdd [] "1px".toList) "dotted".toList else []
  let weight := if truthy s.bold then setAdd [] "700".toList else []
  let decoration := if truthy s.crosslined then setAdd [] "line-through".toList else []
  let filter := if truthy s.dim then setAdd (setAdd [] "saturate(0.5)".toList) "brightness(0.75)".toList else []
  let decoration := if truthy s.doubleUnderlined then setAdd (setAdd decoration "underline".toList) "double".toList else decoration
  let (fg, bg) := if truthy s.inversed then (bg, fg) else (fg, bg)
  let slant := if truthy s.italic then setAdd [] "italic".toList else []
  let decoration := if truthy s.overlined then setAdd decoration "overline".toList else decoration
  let decoration := if truthy s.underlined then setAdd decoration "underline".toList else decoration
  [("color".toList, fg), ("background-color".toList, bg), ("font-weight".toList, weight),
    ("font-style".toList, slant), ("text-decoration".toList, decoration), ("border".toList, border),
    ("filter".toList, filter)]

/-- `HtmlRenderer.render` (pytermor/render.py:702-706).  The order in which a set
is iterated is not specified: `order` is any function that puts the elements of a
set into some order. -/
def htmlRender (order : List Str → List Str) (text : Str) (s : PStyle) : Str :=
  let cls := match s.className with
    | none => []
    | some c => " class=\"".toList ++ c ++ "\"".toList
  let decls := ((htmlStyles s).filter fun e => decide (e.2.length > 0)).map fun e =>
    e.1 ++ ": ".toList ++ join [' '] (order e.2)
  "<span".toList ++ cls ++ " style=\"".toList ++ join "; ".toList decls ++ "\">".toList ++ text ++ "</span>".toList

/-- `DebugRenderer.render` (pytermor/render.py:721-727): sequences are always
allowed, and then made visible by `ReplaceSGR(r'|ǝ\3|')`. -/
def debugRender (cfg : RenderConfig) (p : Palettes) (text : Str) (s : PStyle) :
    Option (Str × Palettes) :=
  (sgrRender { cfg with forceStyles := some true } p text s).map fun r =>
    (replaceSgr [.lit '|', .lit 'ǝ', .ref 3, .lit '|'] r.1, r.2)

end Kolombos
