/-
What a browser makes of a text with `span` elements: the characters, each with
the style declarations of the innermost element.
-/
import Verif.Model.Render

namespace Kolombos.Spec
open Kolombos

/-- The pieces of a text between occurrences of a character. -/
def cut (x : Char) : Str → List Str
  | [] => [[]]
  | c :: s =>
    if c = x then [] :: cut x s
    else match cut x s with
      | p :: ps => (c :: p) :: ps
      | [] => [[c]]

/-- The words of a text. -/
def blankWords (s : Str) : List Str := (cut ' ' s).filter fun w => !w.isEmpty

/-- One declaration: property and words of its value. -/
def cssDecl (d : Str) : Option (Str × List Str) :=
  match cut ':' d with
  | [n, ws] =>
    match blankWords n with
    | [n] => some (n, blankWords ws)
    | _ => none
  | _ => none

/-- The declarations of a `style` attribute. -/
def cssDecls (v : Str) : List (Str × List Str) := (cut ';' v).filterMap cssDecl

/-- Names and values of quoted attributes; the name is at the end of its text. -/
def quoted : List Str → List (Str × Str)
  | a :: v :: r => (a, v) :: quoted r
  | _ => []

/-- The value of the attribute `style` of a tag. -/
def styleOf (tag : Str) : Str :=
  match (quoted (cut '"' tag)).find? fun e => " style=".toList.isSuffixOf e.1 with
  | some e => e.2
  | none => []

/-- Reading state: in text, within a character reference, within a tag and
whether within quotes there. -/
inductive HtmlMode where
  | text
  | ref (s : Str)
  | tag (s : Str) (quotes : Bool)
  deriving DecidableEq

structure Html where
  mode : HtmlMode := .text
  styles : List Str := []
  deriving DecidableEq

/-- The characters of a character reference. -/
def charRef (s : Str) : Str :=
  if s = "lt".toList then ['<']
  else if s = "gt".toList then ['>']
  else if s = "amp".toList then ['&']
  else if s = "quot".toList then ['"']
  else []

/-- One character: new state, and what appears. -/
def Html.step (t : Html) (c : Char) : Html × List (Char × Str) :=
  match t.mode with
  | .text =>
    if c = '<' then (⟨.tag [] false, t.styles⟩, [])
    else if c = '&' then (⟨.ref [], t.styles⟩, [])
    else (t, [(c, t.styles.headD [])])
  | .ref s =>
    if c = ';' then (⟨.text, t.styles⟩, (charRef s).map fun c => (c, t.styles.headD []))
    else (⟨.ref (s ++ [c]), t.styles⟩, [])
  | .tag s q =>
    if c = '"' then (⟨.tag (s ++ [c]) (!q), t.styles⟩, [])
    else if c = '>' ∧ q = false then
      (⟨.text, if s.head? = some '/' then t.styles.tail else styleOf s :: t.styles⟩, [])
    else (⟨.tag (s ++ [c]) q, t.styles⟩, [])

/-- The reader after a text, and what appears. -/
def Html.run (t : Html) : Str → Html × List (Char × Str)
  | [] => (t, [])
  | c :: s =>
    let r := t.step c
    let q := Html.run r.1 s
    (q.1, r.2 ++ q.2)

/-- A colour in CSS. -/
def cssColor (h : Nat) : Str :=
  '#' :: [h / 1048576 % 16, h / 65536 % 16, h / 4096 % 16, h / 256 % 16, h / 16 % 16, h % 16].map Nat.digitChar

/-- The colour in CSS of a colour object, if it has one. -/
def cssOf (c : PColor) : List Str := (c.hex.map cssColor).toList

/-- The properties of CSS in use. -/
inductive CssProp where
  | color | background | weight | slant | decoration | border | filter
  deriving DecidableEq

/-- Their names. -/
def CssProp.name : CssProp → Str
  | .color => "color".toList
  | .background => "background-color".toList
  | .weight => "font-weight".toList
  | .slant => "font-style".toList
  | .decoration => "text-decoration".toList
  | .border => "border".toList
  | .filter => "filter".toList

/-- The words a style has for a property of CSS. -/
def wanted (s : PStyle) : CssProp → List Str
  | .color => if s.inversed = some true then cssOf s.bg else cssOf s.fg
  | .background => if s.inversed = some true then cssOf s.fg else cssOf s.bg
  | .weight => if s.bold = some true then ["700".toList] else []
  | .slant => if s.italic = some true then ["italic".toList] else []
  | .decoration =>
    (if s.crosslined = some true then ["line-through".toList] else [])
    ++ (if s.underlined = some true ∨ s.doubleUnderlined = some true then ["underline".toList] else [])
    ++ (if s.doubleUnderlined = some true then ["double".toList] else [])
    ++ (if s.overlined = some true then ["overline".toList] else [])
  | .border => if s.blink = some true then ["1px".toList, "dotted".toList] else []
  | .filter => if s.dim = some true then ["saturate(0.5)".toList, "brightness(0.75)".toList] else []

/-- The words declared for a property. -/
def declared (v : Str) (p : CssProp) : List Str := ((cssDecls v).find? fun e => e.1 = p.name).elim [] Prod.snd

/-- A text in `style` declares what a style is: each property once, with the
words in any order, and nothing else. -/
structure Declares (v : Str) (s : PStyle) : Prop where
  once : ((cssDecls v).map Prod.fst).Nodup
  words : ∀ p, (declared v p).Perm (wanted s p)
  only : ∀ e ∈ cssDecls v, ∃ p : CssProp, e.1 = p.name

end Kolombos.Spec
