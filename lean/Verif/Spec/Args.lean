import Verif.Model.Args
/-
What the command line means.
-/
namespace Kolombos.Spec
open Kolombos

/-- Elements that exclude each other. -/
inductive Excludes : Arg → Arg → Prop
  | demoFile (n) : Excludes (.flag .demo) (.file n)
  | textBinary : Excludes (.flag .text) (.flag .binary)
  | textLegend : Excludes (.flag .text) (.flag .legend)
  | binaryLegend : Excludes (.flag .binary) (.flag .legend)
  | output (c) : Excludes (.flag (.focus c)) (.flag (.ignore c))
  | offsets : Excludes (.flag .decimalOffsets) (.flag .noOffsets)
  | symm {a b} : Excludes a b → Excludes b a

/-- The number given last for an option. -/
def lastInt (o : IntOpt) : List Arg → Option Int
  | [] => none
  | a :: as =>
    match lastInt o as with
    | some v => some v
    | none => match a with
      | .int p v => if p = o then v else none
      | _ => none

/-- The element gives a number for the option. -/
def Numbers (o : IntOpt) : Arg → Bool
  | .int p _ => decide (p = o)
  | _ => false

/-- No number is given twice. -/
def NumbersOnce (args : List Arg) : Prop := ∀ o, (args.filter (Numbers o)).length ≤ 1

/-- The file names. -/
def fileNames (args : List Arg) : List Str := args.filterMap fun a => match a with | .file n => some n | _ => none

/-- A command line without mistakes. -/
structure WellFormed (args : List Arg) : Prop where
  numbers : ∀ o, Arg.int o none ∉ args
  compatible : ∀ a ∈ args, ∀ b ∈ args, ¬ Excludes a b
  oneFile : (fileNames args).length ≤ 1

/-- The settings that a command line asks for. -/
structure Asked (args : List Arg) (s : Settings) : Prop where
  demo : s.demo = true ↔ Arg.flag .demo ∈ args
  text : s.text = true ↔ Arg.flag .text ∈ args
  binary : s.binary = true ↔ Arg.flag .binary ∈ args
  legend : s.legend = true ↔ Arg.flag .legend ∈ args
  version : s.version = true ↔ Arg.flag .version ∈ args
  focus : ∀ c, s.focus c = true ↔ Arg.flag (.focus c) ∈ args
  ignore : ∀ c, s.ignore c = true ↔ Arg.flag (.ignore c) ∈ args
  colorMarkers : s.colorMarkers = true ↔ Arg.flag .colorMarkers ∈ args
  noSeparators : s.noSeparators = true ↔ Arg.flag .noSeparators ∈ args
  noLineNumbers : s.noLineNumbers = true ↔ Arg.flag .noLineNumbers ∈ args
  decode : s.decode = if Arg.flag .decode ∈ args then some true else none
  decimalOffsets : s.decimalOffsets = true ↔ Arg.flag .decimalOffsets ∈ args
  noOffsets : s.noOffsets = true ↔ Arg.flag .noOffsets ∈ args
  debug : s.debug = args.count .debug
  buffer : s.buffer = lastInt .buffer args
  maxLines : s.maxLines = lastInt .maxLines args
  maxBytes : s.maxBytes = lastInt .maxBytes args
  marker : s.marker = (lastInt .marker args).getD 0
  columns : s.columns = lastInt .columns args
  mode : s.defaultReadMode = .text

/-- A command line that asks to display the file `name`, without debugging. -/
structure Views (args : List Arg) (name : Str) : Prop where
  wellFormed : WellFormed args
  file : fileNames args = [name]
  named : name ≠ [] ∧ name ≠ ['-']
  only : ∀ a ∈ [Arg.help, .debug, .flag .demo, .flag .legend, .flag .version], a ∉ args

/-- A command line that asks to display standard input, without debugging: it names no file, or
the empty name, or `-`. -/
structure ViewsStdin (args : List Arg) : Prop where
  wellFormed : WellFormed args
  file : fileNames args = [] ∨ fileNames args = [[]] ∨ fileNames args = [['-']]
  only : ∀ a ∈ [Arg.help, .debug, .flag .demo, .flag .legend, .flag .version], a ∉ args

/-- A command line that asks for the demonstration, without debugging. -/
structure ViewsDemo (args : List Arg) : Prop where
  wellFormed : WellFormed args
  demo : .flag .demo ∈ args
  only : ∀ a ∈ [Arg.help, .debug, .flag .legend, .flag .version], a ∉ args

/-- The settings of the demonstration: characters are decoded, the table has 16 columns unless
`-w` says otherwise, and the mode is binary unless `-t` says otherwise. -/
def inDemo (s : Settings) : Settings :=
  { s with decode := some true, columns := some (s.columns.getD 16), defaultReadMode := .binary }

/-- Where a reader of a text is: at the beginning of a line, inside a comment line (one that
begins with `#`) or inside another line. -/
inductive LineState where
  | start
  | comment
  | inside
  deriving DecidableEq

/-- A text without its comment lines. -/
def copyLines : LineState → Str → Str
  | _, [] => []
  | st, c :: r =>
    let here := if st = .start then (if c = '#' then .comment else .inside) else st
    let rest := copyLines (if c = '\n' then .start else here) r
    if here = .comment then rest else c :: rest

/-- The text has line feeds as its only line breaks. -/
def OnlyLineFeeds (s : Str) : Prop :=
  ∀ c ∈ s, c.toNat ∉ [0x0b, 0x0c, 0x0d, 0x1c, 0x1d, 0x1e, 0x85, 0x2028, 0x2029]

/-- The number of bytes read at once. -/
def bufferSize (args : List Arg) : Int :=
  match lastInt .buffer args with
  | none => 4096
  | some n => if n = 0 then 4096 else n

end Kolombos.Spec
