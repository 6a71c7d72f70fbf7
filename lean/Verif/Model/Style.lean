/-
pytermor/render.py: construction of styles, and `Text` objects, which share
their runs.

Simplifications: colours given by name are not modelled; a format specification
is a function on strings; `none` is an exception.
-/
import Verif.Model.Render

namespace Kolombos

/-- The keyword arguments of `Style(...)` (pytermor/render.py:226-231), `none`
for those left out.  An integer colour is a `ColorRGB`
(pytermor/render.py:294-307). -/
structure StyleArgs where
  fg : Option PColor := none
  bg : Option PColor := none
  blink : Option Bool := none
  bold : Option Bool := none
  crosslined : Option Bool := none
  dim : Option Bool := none
  doubleUnderlined : Option Bool := none
  inversed : Option Bool := none
  italic : Option Bool := none
  overlined : Option Bool := none
  underlined : Option Bool := none
  className : Option Str := none
  deriving DecidableEq, Repr

/-- One round of the loop of `_clone_from` (pytermor/render.py:309-313). -/
def cloneAttr {α : Type} (own inherit : Option α) : Option α :=
  if own.isNone && inherit.isSome then inherit else own

/-- `Style._clone_from` (pytermor/render.py:309-313).  The colours of a
constructed style are never `None`. -/
def StyleArgs.cloneFrom (a : StyleArgs) (p : PStyle) : StyleArgs where
  fg := cloneAttr a.fg (some p.fg)
  bg := cloneAttr a.bg (some p.bg)
  blink := cloneAttr a.blink p.blink
  bold := cloneAttr a.bold p.bold
  crosslined := cloneAttr a.crosslined p.crosslined
  dim := cloneAttr a.dim p.dim
  doubleUnderlined := cloneAttr a.doubleUnderlined p.doubleUnderlined
  inversed := cloneAttr a.inversed p.inversed
  italic := cloneAttr a.italic p.italic
  overlined := cloneAttr a.overlined p.overlined
  underlined := cloneAttr a.underlined p.underlined
  className := cloneAttr a.className p.className

/-- `Style.__init__` (pytermor/render.py:226-254). -/
def newStyle (inherit : Option PStyle) (a : StyleArgs) : PStyle :=
  let a := match inherit with
    | some p => a.cloneFrom p
    | none => a
  { fg := a.fg.getD noopRgb
    bg := a.bg.getD noopRgb
    blink := a.blink
    bold := a.bold
    crosslined := a.crosslined
    dim := a.dim
    doubleUnderlined := a.doubleUnderlined
    inversed := a.inversed
    italic := a.italic
    overlined := a.overlined
    underlined := a.underlined
    className := a.className }

/-- `Style.flip` (pytermor/render.py:285-291). -/
def PStyle.flip (s : PStyle) : PStyle := { s with fg := s.bg, bg := s.fg }

/-- `Style.autopick_fg` (pytermor/render.py:262-283); `Colors.RGB_GREY_4` and
`Colors.RGB_GREY_80` are in pytermor/color.py:611, 631. -/
def PStyle.autopickFg (s : PStyle) : Option PStyle :=
  match s.bg.hex with
  | none => some s
  | some hex =>
    match hexToHsv hex with
    | none => none
    | some (_, _, v) =>
      if v ≥ 45 / 100 then some { s with fg := .rgb (some 0x0a0a0a) }
      else some { s with fg := .rgb (some 0xcccccc) }

/-- `Style.__eq__`, generated by `@dataclass` from the two declared fields
(pytermor/render.py:186, 223-224). -/
def PStyle.eq (a b : PStyle) : Bool := a.fg == b.fg && a.bg == b.bg

/-- A value given to `Text`: `None`, an integer or a string. -/
inductive TextArg where
  | none
  | int (n : Int)
  | str (s : Str)
  deriving DecidableEq, Repr

/-- `str(n)`. -/
def pyStrInt (n : Int) : Str := if n < 0 then '-' :: dec n.natAbs else dec n.natAbs

/-- `str(string) if string else ''` (pytermor/render.py:165). -/
def runString : TextArg → Str
  | .none => []
  | .int n => if n = 0 then [] else pyStrInt n
  | .str s => if s = [] then [] else s

/-- Objects: the runs, and for every `Text` the list `_runs` of references
(pytermor/render.py:112-113). -/
structure TextHeap where
  runs : List TextRun := []
  texts : List (List Nat) := []
  deriving DecidableEq, Repr

/-- What a program does with texts; texts are numbered in order of creation. -/
inductive TextOp where
  | new (s : Str) (style : Option PStyle)
  | appendStr (t : Nat) (s : Str)
  | appendText (t u : Nat)
  | prependStr (t : Nat) (s : Str)
  | prependText (t u : Nat)
  | format (t : Nat) (f : Str → Str)

/-- The references of a text. -/
def TextHeap.refs (h : TextHeap) (t : Nat) : List Nat := h.texts.getD t []

/-- Executes one operation (pytermor/render.py:112-135, 140-161, 181-183);
`a + b` and `a += b` are `append`, `str + a` is `prepend`.  Formatting a text of
several runs raises and changes nothing. -/
def TextHeap.step (h : TextHeap) : TextOp → TextHeap
  | .new s style =>
    { runs := h.runs ++ [⟨runString (.str s), style⟩], texts := h.texts ++ [[h.runs.length]] }
  | .appendStr t s =>
    { runs := h.runs ++ [⟨runString (.str s), none⟩]
      texts := h.texts.set t (h.refs t ++ [h.runs.length]) }
  | .appendText t u => { h with texts := h.texts.set t (h.refs t ++ h.refs u) }
  | .prependStr t s =>
    { runs := h.runs ++ [⟨runString (.str s), none⟩]
      texts := h.texts.set t (h.runs.length :: h.refs t) }
  | .prependText t u => { h with texts := h.texts.set t (h.refs u ++ h.refs t) }
  | .format t f =>
    match h.refs t with
    | [r] =>
      match h.runs[r]? with
      | some run => { h with runs := h.runs.set r { run with string := f run.string } }
      | none => h
    | _ => h

/-- The runs of a text, in order. -/
def TextHeap.content (h : TextHeap) (t : Nat) : List TextRun :=
  (h.refs t).filterMap (fun r => h.runs[r]?)

/-- `Text.raw` (pytermor/render.py:118-119, 175-176). -/
def TextHeap.raw (h : TextHeap) (t : Nat) : Str := ((h.content t).map TextRun.string).flatten

/-- `Text.__len__` (pytermor/render.py:137-138, 178-179). -/
def TextHeap.len (h : TextHeap) (t : Nat) : Nat := ((h.content t).map (fun r => r.string.length)).sum

/-- `Text.__add__` for two texts (pytermor/render.py:151-153): the objects
afterwards and the result. -/
def TextHeap.add (h : TextHeap) (t u : Nat) : TextHeap × Nat := (h.step (.appendText t u), t)

/-- `str(text)` with `SgrRenderer` (pytermor/render.py:92-100, 115-116). -/
def TextHeap.render (h : TextHeap) (cfg : RenderConfig) (p : Palettes) (t : Nat) :
    Option (Str × Palettes) := renderText cfg p (h.content t)

end Kolombos
