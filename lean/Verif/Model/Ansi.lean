import Verif.Model.Sgr
/-
pytermor/ansi.py, pytermor/common.py: sequences and spans from names, codes and
other sequences; spans with explicit sequences; registries of presets.
-/
namespace Kolombos

/-- `str.upper` on one character.  Exact for ASCII and for the characters outside ASCII whose
upper case is ASCII; all others, whose upper case is not ASCII, are kept (simplification:
a name with such a character is in no registry either way). -/
def upperChar (c : Char) : Str :=
  if 'a' ≤ c ∧ c ≤ 'z' then [Char.ofNat (c.toNat - 32)]
  else if c.toNat = 0xdf then ['S', 'S']
  else if c.toNat = 0x131 then ['I']
  else if c.toNat = 0x17f then ['S']
  else if c.toNat = 0xfb00 then ['F', 'F']
  else if c.toNat = 0xfb01 then ['F', 'I']
  else if c.toNat = 0xfb02 then ['F', 'L']
  else if c.toNat = 0xfb03 then ['F', 'F', 'I']
  else if c.toNat = 0xfb04 then ['F', 'F', 'L']
  else if c.toNat = 0xfb05 ∨ c.toNat = 0xfb06 then ['S', 'T']
  else [c]

/-- `name.upper()` (pytermor/common.py:27). -/
def pyUpper (s : Str) : Str := s.flatMap upperChar

/-- The exceptions of the constructors. -/
inductive AnsiErr where
  | key
  | value
  | type
  deriving DecidableEq

/-- `Registry.resolve` (pytermor/common.py:18-31) on a class whose upper case attributes are
given; the other attributes of a class have lower case letters in their names. -/
def registryResolve {α : Type} (table : List (String × α)) (name : Str) : Except AnsiErr α :=
  match table.find? fun e => e.1.toList == pyUpper name with
  | some e => .ok e.2
  | none => .error .key

/-- A value of `IntCodes`: an integer or a list of integers. -/
inductive CodeVal where
  | int (n : Nat)
  | list (l : List Nat)

/-- The integers of `IntCodes` (pytermor/ansi.py:404-502). -/
def intCodeTable : List (String × Nat) := [
  ("RESET", 0), ("BOLD", 1), ("DIM", 2), ("ITALIC", 3), ("UNDERLINED", 4), ("BLINK_SLOW", 5), ("BLINK_FAST", 6), ("INVERSED", 7),
  ("HIDDEN", 8), ("CROSSLINED", 9), ("DOUBLE_UNDERLINED", 21), ("OVERLINED", 53), ("BOLD_DIM_OFF", 22), ("ITALIC_OFF", 23),
  ("UNDERLINED_OFF", 24), ("BLINK_OFF", 25), ("INVERSED_OFF", 27), ("HIDDEN_OFF", 28), ("CROSSLINED_OFF", 29), ("COLOR_OFF", 39),
  ("BG_COLOR_OFF", 49), ("OVERLINED_OFF", 55), ("BLACK", 30), ("RED", 31), ("GREEN", 32), ("YELLOW", 33), ("BLUE", 34),
  ("MAGENTA", 35), ("CYAN", 36), ("WHITE", 37), ("COLOR_EXTENDED", 38), ("BG_BLACK", 40), ("BG_RED", 41), ("BG_GREEN", 42),
  ("BG_YELLOW", 43), ("BG_BLUE", 44), ("BG_MAGENTA", 45), ("BG_CYAN", 46), ("BG_WHITE", 47), ("BG_COLOR_EXTENDED", 48),
  ("GRAY", 90), ("HI_RED", 91), ("HI_GREEN", 92), ("HI_YELLOW", 93), ("HI_BLUE", 94), ("HI_MAGENTA", 95), ("HI_CYAN", 96),
  ("HI_WHITE", 97), ("BG_GRAY", 100), ("BG_HI_RED", 101), ("BG_HI_GREEN", 102), ("BG_HI_YELLOW", 103), ("BG_HI_BLUE", 104),
  ("BG_HI_MAGENTA", 105), ("BG_HI_CYAN", 106), ("BG_HI_WHITE", 107), ("EXTENDED_MODE_256", 5), ("EXTENDED_MODE_RGB", 2)]

/-- The lists of `IntCodes` (pytermor/ansi.py:491-497). -/
def listCodeTable : List (String × List Nat) :=
  let colors := List.range' 30 9
  let bgColors := List.range' 40 9
  let hiColors := List.range' 90 8
  let bgHiColors := List.range' 100 8
  [("LIST_COLORS", colors), ("LIST_BG_COLORS", bgColors), ("LIST_HI_COLORS", hiColors), ("LIST_BG_HI_COLORS", bgHiColors),
    ("LIST_ALL_COLORS", colors ++ bgColors ++ hiColors ++ bgHiColors)]

/-- `IntCodes` (pytermor/ansi.py:404-502). -/
def intCodes : List (String × CodeVal) :=
  intCodeTable.map (fun e => (e.1, .int e.2)) ++ listCodeTable.map (fun e => (e.1, .list e.2))

/-- An argument of `SequenceSGR(...)` and `Span(...)`. -/
inductive SgrArg where
  | name (s : Str)
  | code (n : Int)
  | seq (s : Sgr)
  | other

/-- One round of the loop of `SequenceSGR.__init__` (pytermor/ansi.py:139-149): the parameters
that are appended. -/
def SgrArg.params : SgrArg → Except AnsiErr (List Int)
  | .name s =>
    match registryResolve intCodes s with
    | .error e => .error e
    | .ok (.list _) => .error .value
    | .ok (.int n) => .ok [(n : Int)]
  | .code n => .ok [n]
  | .seq s => .ok (s.map fun (n : Nat) => (n : Int))
  | .other => .error .type

/-- The loop of `SequenceSGR.__init__` (pytermor/ansi.py:137-149). -/
def collectParams : List SgrArg → Except AnsiErr (List Int)
  | [] => .ok []
  | a :: as =>
    match a.params with
    | .error e => .error e
    | .ok ps =>
      match collectParams as with
      | .error e => .error e
      | .ok r => .ok (ps ++ r)

/-- `SequenceSGR(*args)` (pytermor/ansi.py:118-151) with the base constructor, which clamps
negative numbers (pytermor/ansi.py:41-42). -/
def mkSgr (args : List SgrArg) : Except AnsiErr Sgr :=
  match collectParams args with
  | .error e => .error e
  | .ok ps => .ok (ps.map fun p => (max 0 p).toNat)

/-- A `Span`: opening and closing sequence (pytermor/ansi.py:250-286). -/
structure SpanObj where
  opening : Sgr
  closing : Sgr

/-- `Span(*args)` (pytermor/ansi.py:256-286). -/
def mkSpan (args : List SgrArg) : Except AnsiErr SpanObj :=
  match mkSgr args with
  | .error e => .error e
  | .ok o =>
    if args.length = 0 then .ok ⟨o, []⟩
    else .ok ⟨o, Sgr.closing o⟩

/-- `Sequence.__len__` (pytermor/ansi.py:63-64). -/
def seqLen (_ : Sgr) : Nat := 0

/-- `Span._opt_arg` (pytermor/ansi.py:349-353): `not arg` of an object without `__bool__` asks
for its length. -/
def optArg : Option Sgr → Sgr
  | none => []
  | some s => if seqLen s = 0 then [] else s

/-- `Span.init_explicit` (pytermor/ansi.py:288-309). -/
def explicitSpan (opening closing : Option Sgr) (hardReset : Bool) : SpanObj :=
  let o := optArg opening
  let c := optArg closing
  if hardReset then ⟨o, [0]⟩ else ⟨o, c⟩

/-- `Span.wrap(text)` (pytermor/ansi.py:311-327); `none` is a missing text. -/
def SpanObj.wrap (sp : SpanObj) (text : Option Str) : Str :=
  let result := sp.opening.assemble
  let result := match text with
    | some t => result ++ t
    | none => result
  result ++ sp.closing.assemble

/-- `Span.__call__(text)` (pytermor/ansi.py:355-362). -/
def SpanObj.call (sp : SpanObj) (text : Option Str) : Str := sp.wrap text

/-- `Span.__eq__` (pytermor/ansi.py:364-367), both arguments being spans. -/
def SpanObj.eq (a b : SpanObj) : Bool := Sgr.eq a.opening b.opening && Sgr.eq a.closing b.closing

/-- `Seqs` (pytermor/ansi.py:505-585), each preset with the code it is made of. -/
def seqTable : List (String × Nat) := [
  ("RESET", 0), ("BOLD", 1), ("DIM", 2), ("ITALIC", 3), ("UNDERLINED", 4), ("BLINK_SLOW", 5), ("BLINK_FAST", 6), ("BLINK_DEFAULT", 5), ("INVERSED", 7),
  ("HIDDEN", 8), ("CROSSLINED", 9), ("DOUBLE_UNDERLINED", 21), ("OVERLINED", 53), ("BOLD_DIM_OFF", 22), ("ITALIC_OFF", 23),
  ("UNDERLINED_OFF", 24), ("BLINK_OFF", 25), ("INVERSED_OFF", 27), ("HIDDEN_OFF", 28), ("CROSSLINED_OFF", 29),
  ("OVERLINED_OFF", 55), ("BLACK", 30), ("RED", 31), ("GREEN", 32), ("YELLOW", 33), ("BLUE", 34), ("MAGENTA", 35), ("CYAN", 36),
  ("WHITE", 37), ("COLOR_OFF", 39), ("BG_BLACK", 40), ("BG_RED", 41), ("BG_GREEN", 42), ("BG_YELLOW", 43), ("BG_BLUE", 44),
  ("BG_MAGENTA", 45), ("BG_CYAN", 46), ("BG_WHITE", 47), ("BG_COLOR_OFF", 49), ("GRAY", 90), ("HI_RED", 91), ("HI_GREEN", 92),
  ("HI_YELLOW", 93), ("HI_BLUE", 94), ("HI_MAGENTA", 95), ("HI_CYAN", 96), ("HI_WHITE", 97), ("BG_GRAY", 100), ("BG_HI_RED", 101),
  ("BG_HI_GREEN", 102), ("BG_HI_YELLOW", 103), ("BG_HI_BLUE", 104), ("BG_HI_MAGENTA", 105), ("BG_HI_CYAN", 106),
  ("BG_HI_WHITE", 107)]

/-- `Seqs.resolve(name)` (pytermor/common.py:18-31). -/
def seqsResolve (name : Str) : Except AnsiErr Sgr :=
  match registryResolve seqTable name with
  | .error e => .error e
  | .ok n => mkSgr [.code n]

/-- `Spans` (pytermor/ansi.py:677-733), each preset with the code it is made of. -/
def spanTable : List (String × Nat) := [
  ("BOLD", 1), ("DIM", 2), ("ITALIC", 3), ("UNDERLINED", 4), ("BLINK_SLOW", 5), ("BLINK_FAST", 6), ("INVERSED", 7), ("HIDDEN", 8),
  ("CROSSLINED", 9), ("DOUBLE_UNDERLINED", 21), ("OVERLINED", 53), ("BLACK", 30), ("RED", 31), ("GREEN", 32), ("YELLOW", 33),
  ("BLUE", 34), ("MAGENTA", 35), ("CYAN", 36), ("WHITE", 37), ("GRAY", 90), ("HI_RED", 91), ("HI_GREEN", 92), ("HI_YELLOW", 93),
  ("HI_BLUE", 94), ("HI_MAGENTA", 95), ("HI_CYAN", 96), ("HI_WHITE", 97), ("BG_BLACK", 40), ("BG_RED", 41), ("BG_GREEN", 42),
  ("BG_YELLOW", 43), ("BG_BLUE", 44), ("BG_MAGENTA", 45), ("BG_CYAN", 46), ("BG_WHITE", 47), ("BG_GRAY", 100), ("BG_HI_RED", 101),
  ("BG_HI_GREEN", 102), ("BG_HI_YELLOW", 103), ("BG_HI_BLUE", 104), ("BG_HI_MAGENTA", 105), ("BG_HI_CYAN", 106),
  ("BG_HI_WHITE", 107)]

/-- `Spans.resolve(name)` (pytermor/common.py:18-31). -/
def spansResolve (name : Str) : Except AnsiErr SpanObj :=
  match registryResolve spanTable name with
  | .error e => .error e
  | .ok n => mkSpan [.code n]

end Kolombos
