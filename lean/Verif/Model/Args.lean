import Verif.Model.App
/-
kolombos/arghelp.py: the options, and what `argparse` does with them; the program
from the command line on.
-/
namespace Kolombos

/-- The options without argument (`action='store_true'`,
/repo/kolombos/arghelp.py:151-199). -/
inductive Flag where
  | demo
  | text
  | binary
  | legend
  | version
  | focus (c : CharClass)
  | ignore (c : CharClass)
  | colorMarkers
  | noSeparators
  | noLineNumbers
  | decode
  | decimalOffsets
  | noOffsets
  deriving DecidableEq, Repr

/-- The options with an integer argument (`type=int`, /repo/kolombos/arghelp.py:180-195). -/
inductive IntOpt where
  | buffer
  | maxLines
  | maxBytes
  | marker
  | columns
  deriving DecidableEq, Repr

/-- An element of the command line, as `argparse` recognises it.  How strings are
divided into options and arguments (short and long forms, abbreviations, `-USP` for
`-U -S -P`, `-m2`, `--marker=2`) is the business of `argparse` and not modelled. -/
inductive Arg where
  | flag (f : Flag)
  /-- the argument converted by `int()`; `none` if that fails -/
  | int (o : IntOpt) (v : Option Int)
  /-- `-D` (`action='count'`) -/
  | debug
  | help
  | file (name : Str)
  deriving DecidableEq, Repr

/-- The mutually exclusive groups of /repo/kolombos/arghelp.py:149-199. -/
inductive ArgGroup where
  | input
  | mode
  | output (c : CharClass)
  | offsets
  deriving DecidableEq, Repr

/-- The group an option is added to. -/
def Flag.group : Flag → Option ArgGroup
  | .demo => some .input
  | .text | .binary | .legend => some .mode
  | .focus c | .ignore c => some (.output c)
  | .decimalOffsets | .noOffsets => some .offsets
  | .version | .colorMarkers | .noSeparators | .noLineNumbers | .decode => none

/-- The group of an element of the command line. -/
def Arg.group : Arg → Option ArgGroup
  | .flag f => f.group
  | .file _ => some .input
  | .int _ _ | .debug | .help => none

/-- Two elements stand for the same `argparse` action. -/
def Arg.sameAction : Arg → Arg → Bool
  | .flag f, .flag g => f = g
  | .int o _, .int p _ => o = p
  | .debug, .debug => true
  | .help, .help => true
  | .file _, .file _ => true
  | _, _ => false

/-- `setattr(namespace, dest, True)`. -/
def Settings.setFlag (s : Settings) : Flag → Settings
  | .demo => { s with demo := true }
  | .text => { s with text := true }
  | .binary => { s with binary := true }
  | .legend => { s with legend := true }
  | .version => { s with version := true }
  | .focus c => { s with focus := fun d => if d = c then true else s.focus d }
  | .ignore c => { s with ignore := fun d => if d = c then true else s.ignore d }
  | .colorMarkers => { s with colorMarkers := true }
  | .noSeparators => { s with noSeparators := true }
  | .noLineNumbers => { s with noLineNumbers := true }
  | .decode => { s with decode := some true }
  | .decimalOffsets => { s with decimalOffsets := true }
  | .noOffsets => { s with noOffsets := true }

/-- `setattr(namespace, dest, value)`. -/
def Settings.setInt (s : Settings) (v : Int) : IntOpt → Settings
  | .buffer => { s with buffer := some v }
  | .maxLines => { s with maxLines := some v }
  | .maxBytes => { s with maxBytes := some v }
  | .marker => { s with marker := v }
  | .columns => { s with columns := some v }

/-- How `parse_args` ends. -/
inductive Parsed where
  /-- settings and file name -/
  | run (s : Settings) (file : Option Str)
  /-- `--help`: the help is printed, `SystemExit(0)` -/
  | help
  /-- `ArgumentParser.error`: the usage is printed on stderr, `SystemExit(2)` -/
  | usage

/-- `ArgumentParser.parse_known_args` over the recognised elements: the argument is
converted, then compared with the actions seen before that conflict with it, then the
action is executed.  A file name after the first one is an extra argument, for which
`parse_args` fails at the end.  The settings that are not set keep the values of the
constructor: `argparse` sets its own defaults only for attributes that do not exist,
and `parse_args` is given a `Settings` instance as namespace
(/repo/kolombos/app.py:25-26, /repo/kolombos/settings.py:13-51). -/
def parseLoop : List Arg → List Arg → Settings → Option Str → Bool → Parsed
  | [], _, s, file, extra => if extra then .usage else .run s file
  | a :: as, seen, s, file, extra =>
    let conflict := seen.any fun b => !a.sameAction b && a.group.isSome && decide (a.group = b.group)
    match a with
    | .file name =>
      match file with
      | some _ => parseLoop as seen s file true
      | none => if conflict then .usage else parseLoop as (a :: seen) s (some name) extra
    | .flag f => if conflict then .usage else parseLoop as (a :: seen) (s.setFlag f) file extra
    | .int o v =>
      match v with
      | none => .usage
      | some v => parseLoop as (a :: seen) (s.setInt v o) file extra
    | .debug => parseLoop as (a :: seen) { s with debug := s.debug + 1 } file extra
    | .help => .help

/-- `AppArgumentParser().parse_args(namespace=Settings())` (/repo/kolombos/app.py:24-26). -/
def parseArgs (args : List Arg) : Parsed := parseLoop args [] {} none false

/-- What a run depends on apart from the command line. -/
structure World where
  /-- what reading standard input gives -/
  stdin : List IoStep
  /-- the content of a file, or the exception raised by `open` -/
  file : Str → Except Err Bytes
  /-- the bundled file `demo.bin` -/
  demo : Bytes
  /-- the number of columns of the terminal at the `k`-th call of the formatter -/
  term : Nat → Int
  /-- the content of the bundled file `legend.ansi` -/
  legend : Str
  /-- the versions of the application and of pytermor -/
  version : Str
  pytermor : Str
  /-- the text printed by `--help` -/
  help : Str

/-- `Reader._open` (/repo/kolombos/byteio/reader.py:78-84) with the chunk size of
`Reader._get_chunk_size`; the file name of the demo is set in
/repo/kolombos/runner/demo.py:20-21. -/
def World.open (w : World) (s : Settings) (name : Option Str) : Option Err × List IoStep :=
  if s.demo then (none, Reader.fileSteps (Reader.chunkSize s.buffer s.debug) w.demo)
  else match name with
  | none => (none, w.stdin)
  | some name =>
    if name = [] ∨ name = ['-'] then (none, w.stdin)
    else match w.file name with
    | .error e => (some e, [])
    | .ok data => (none, Reader.fileSteps (Reader.chunkSize s.buffer s.debug) data)

/-- The program (/repo/kolombos/__main__.py:8-9, /repo/kolombos/app.py:14-31).  `SystemExit`
raised by `argparse` is not an `Exception`, so it is not caught in `App.run`. -/
def program (fuel : Nat) (w : World) (args : List Arg) : Exit :=
  match parseArgs args with
  | .help => ⟨w.help, some 0⟩
  | .usage => ⟨[], some 2⟩
  | .run s name =>
    appRun fuel s w.term (w.open s name).1 (w.open s name).2 (legendText w.legend) (versionText w.version w.pytermor)

end Kolombos
