/-
What tmux makes of a string with styles embedded in it (`#[...]`), as described
in the section STYLES of its manual.
-/
import Verif.Spec.Render

namespace Kolombos.Spec
open Kolombos

/-- Colours of tmux; `ansi` are the eight colours and their bright variants. -/
inductive TmuxColor where
  | dflt
  | ansi (n : Nat)
  | indexed (n : Nat)
  | rgb (r g b : Nat)
  deriving DecidableEq

/-- The attributes with which tmux draws characters. -/
structure TmuxPen where
  bold : Bool := false
  dim : Bool := false
  underscore : Bool := false
  blink : Bool := false
  reverse : Bool := false
  hidden : Bool := false
  italics : Bool := false
  strikethrough : Bool := false
  doubleUnderscore : Bool := false
  overline : Bool := false
  fg : TmuxColor := .dflt
  bg : TmuxColor := .dflt
  deriving DecidableEq

/-- The names of the eight colours, in their order. -/
def tmuxNames : List Str :=
  ["black", "red", "green", "yellow", "blue", "magenta", "cyan", "white"].map String.toList

/-- The value of a hexadecimal digit. -/
def hexValue (c : Char) : Option Nat :=
  if '0' ≤ c ∧ c ≤ '9' then some (c.toNat - 48)
  else if 'a' ≤ c ∧ c ≤ 'f' then some (c.toNat - 87)
  else if 'A' ≤ c ∧ c ≤ 'F' then some (c.toNat - 55)
  else none

/-- A number of two hexadecimal digits. -/
def hexByte (a b : Char) : Option Nat :=
  match hexValue a, hexValue b with
  | some x, some y => some (16 * x + y)
  | _, _ => none

/-- A decimal number. -/
def decValue : Str → Option Nat
  | [] => none
  | s => if s.all (fun c => decide ('0' ≤ c ∧ c ≤ '9')) then
      some (s.foldl (fun n c => 10 * n + (c.toNat - 48)) 0) else none

/-- What is left of a text after a prefix. -/
def after (p s : Str) : Option Str := if p.isPrefixOf s then some (s.drop p.length) else none

/-- The colour a text means. -/
def tmuxColor (s : Str) : Option TmuxColor :=
  match s with
  | ['#', a, b, c, d, e, f] =>
    match hexByte a b, hexByte c d, hexByte e f with
    | some r, some g, some b => some (.rgb r g b)
    | _, _, _ => none
  | _ =>
    if s = "default".toList then some .dflt
    else if s ∈ tmuxNames then some (.ansi (tmuxNames.idxOf s))
    else match after "bright".toList s with
      | some n => if n ∈ tmuxNames then some (.ansi (8 + tmuxNames.idxOf n)) else none
      | none => match after "color".toList s with
        | some n => match decValue n with
          | some n => if n ≤ 255 then some (.indexed n) else none
          | none => none
        | none => none

/-- Switching an attribute on or off by its name. -/
def TmuxPen.attribute (p : TmuxPen) (name : Str) (on : Bool) : Option TmuxPen :=
  if name = "bold".toList then some { p with bold := on }
  else if name = "dim".toList then some { p with dim := on }
  else if name = "underscore".toList then some { p with underscore := on }
  else if name = "blink".toList then some { p with blink := on }
  else if name = "reverse".toList then some { p with reverse := on }
  else if name = "hidden".toList then some { p with hidden := on }
  else if name = "italics".toList then some { p with italics := on }
  else if name = "strikethrough".toList then some { p with strikethrough := on }
  else if name = "double-underscore".toList then some { p with doubleUnderscore := on }
  else if name = "overline".toList then some { p with overline := on }
  else none

/-- One word of a style. -/
def TmuxPen.word (p : TmuxPen) (w : Str) : Option TmuxPen :=
  if w = [] then some p
  else if w = "default".toList then some {}
  else match after "fg=".toList w with
    | some c => (tmuxColor c).map fun x => { p with fg := x }
    | none => match after "bg=".toList w with
      | some c => (tmuxColor c).map fun x => { p with bg := x }
      | none => match after "no".toList w with
        | some a => p.attribute a false
        | none => p.attribute w true

/-- The words of a style: separated by blanks or commas. -/
def tmuxWords : Str → List Str
  | [] => [[]]
  | c :: s =>
    if c = ' ' ∨ c = ',' then [] :: tmuxWords s
    else match tmuxWords s with
      | w :: ws => (c :: w) :: ws
      | [] => [[c]]

/-- All words of a style. -/
def TmuxPen.style (p : TmuxPen) : List Str → Option TmuxPen
  | [] => some p
  | w :: ws => match p.word w with
    | some p => p.style ws
    | none => none

/-- Reading state: in text, after `#`, within `#[`. -/
inductive TmuxMode where
  | text
  | hash
  | body (s : Str)
  deriving DecidableEq

structure Tmux where
  mode : TmuxMode := .text
  pen : TmuxPen := {}
  deriving DecidableEq

/-- One character: new state, and what is drawn.  A style with an unknown word
is ignored. -/
def Tmux.step (t : Tmux) (c : Char) : Tmux × List (Char × TmuxPen) :=
  match t.mode with
  | .text => if c = '#' then (⟨.hash, t.pen⟩, []) else (t, [(c, t.pen)])
  | .hash =>
    if c = '[' then (⟨.body [], t.pen⟩, [])
    else if c = '#' then (⟨.text, t.pen⟩, [('#', t.pen)])
    else (⟨.text, t.pen⟩, [('#', t.pen), (c, t.pen)])
  | .body s =>
    if c = ']' then (⟨.text, (t.pen.style (tmuxWords s)).getD t.pen⟩, [])
    else (⟨.body (s ++ [c]), t.pen⟩, [])

/-- tmux after a text, and what is drawn. -/
def Tmux.run (t : Tmux) : Str → Tmux × List (Char × TmuxPen)
  | [] => (t, [])
  | c :: s =>
    let r := t.step c
    let q := Tmux.run r.1 s
    (q.1, r.2 ++ q.2)

/-- A colour of a terminal as a colour of tmux: codes 30-37 and 40-47 are the
eight colours, codes 90-97 and 100-107 the bright ones. -/
def Color.tmux : Color → TmuxColor
  | .dflt => .dflt
  | .basic n => .ansi (if n < 90 then n % 10 else 8 + n % 10)
  | .indexed n => .indexed n
  | .rgb r g b => .rgb r g b

/-- How tmux is supposed to draw characters of a style, once the colours are
known. -/
def tmuxPen (s : PStyle) (fg bg : Color) : TmuxPen where
  bold := decide (s.bold = some true)
  dim := decide (s.dim = some true)
  underscore := decide (s.underlined = some true)
  blink := decide (s.blink = some true)
  reverse := decide (s.inversed = some true)
  italics := decide (s.italic = some true)
  strikethrough := decide (s.crosslined = some true)
  doubleUnderscore := decide (s.doubleUnderlined = some true)
  overline := decide (s.overlined = some true)
  fg := fg.tmux
  bg := bg.tmux

/-- How tmux is supposed to draw the characters of a run. -/
def TmuxRunPen (reg16 reg256 : List (Nat × IxColor)) (cfg : RenderConfig) (r : TextRun)
    (q : TmuxPen) : Prop :=
  match r.style with
  | none => q = {}
  | some s => ∃ fg bg, ColorShown reg16 reg256 cfg.compat256 cfg.compat16 false s.fg fg
      ∧ ColorShown reg16 reg256 cfg.compat256 cfg.compat16 true s.bg bg
      ∧ q = tmuxPen s fg bg

/-- The characters of several runs, each drawn with its pen. -/
def drawn : List TextRun → List TmuxPen → List (Char × TmuxPen)
  | r :: rs, q :: qs => r.string.map (fun c => (c, q)) ++ drawn rs qs
  | _, _ => []

end Kolombos.Spec
