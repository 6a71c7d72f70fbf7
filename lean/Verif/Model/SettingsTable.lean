import Verif.Model.Debug
import Verif.Model.Args
/-
kolombos/console.py: the table of settings (`-DDD`), the lines of dashes, exceptions with
`-D`; the program with its debug output.
-/
namespace Kolombos

/-- The values of the attributes of `Settings`. -/
inductive PyVal where
  | none
  | bool (b : Bool)
  | int (n : Int)
  | str (s : Str)
  /-- `Class.MEMBER` -/
  | enum (name : Str)
  /-- a bound method of the object number `self`, with its `repr` -/
  | method (self : Nat) (repr : Str)
  deriving DecidableEq

/-- `f'{v!s}'` (/repo/kolombos/console.py:210-213). -/
def PyVal.str' : PyVal → Str
  | .none => "None".toList
  | .bool b => if b then "True".toList else "False".toList
  | .int n => Debug.intStr n
  | .str s => s
  | .enum name => name
  | .method _ repr => repr

/-- `Option` settings. -/
def PyVal.ofInt? : Option Int → PyVal
  | some n => .int n
  | Option.none => .none

/-- A `Settings` object as the table sees it: which object it is, the modelled attributes,
`filename`, and the `repr` of the bound method `set_default_read_mode`, which depends on all of
them and is not modelled. -/
structure SettingsObj where
  id : Nat
  settings : Settings
  filename : Option Str
  methodRepr : Settings → Option Str → Str

/-- The names in `Settings.__dict__`, in the order of the constructor
(/repo/kolombos/settings.py:17-51), with their values.  `hide_ignored` and `squash_ignored` have no
option and keep their values. -/
def ownAttrs : List (String × (SettingsObj → PyVal)) := [
  ("binary", fun o => .bool o.settings.binary),
  ("buffer", fun o => .ofInt? o.settings.buffer),
  ("columns", fun o => .ofInt? o.settings.columns),
  ("decimal_offsets", fun o => .bool o.settings.decimalOffsets),
  ("debug", fun o => .int o.settings.debug),
  ("decode", fun o => match o.settings.decode with | some b => .bool b | none => .none),
  ("filename", fun o => match o.filename with | some f => .str f | none => .none),
  ("focus_control", fun o => .bool (o.settings.focus .controlChar)),
  ("focus_esc", fun o => .bool (o.settings.focus .escapeSeq)),
  ("focus_space", fun o => .bool (o.settings.focus .whitespace)),
  ("focus_utf8", fun o => .bool (o.settings.focus .utf8Seq)),
  ("focus_binary", fun o => .bool (o.settings.focus .binaryData)),
  ("focus_printable", fun o => .bool (o.settings.focus .printableChar)),
  ("ignore_control", fun o => .bool (o.settings.ignore .controlChar)),
  ("ignore_esc", fun o => .bool (o.settings.ignore .escapeSeq)),
  ("ignore_space", fun o => .bool (o.settings.ignore .whitespace)),
  ("ignore_utf8", fun o => .bool (o.settings.ignore .utf8Seq)),
  ("ignore_binary", fun o => .bool (o.settings.ignore .binaryData)),
  ("ignore_printable", fun o => .bool (o.settings.ignore .printableChar)),
  ("hide_ignored", fun _ => .bool false),
  ("legend", fun o => .bool o.settings.legend),
  ("marker", fun o => .int o.settings.marker),
  ("max_bytes", fun o => .ofInt? o.settings.maxBytes),
  ("max_lines", fun o => .ofInt? o.settings.maxLines),
  ("color_markers", fun o => .bool o.settings.colorMarkers),
  ("no_line_numbers", fun o => .bool o.settings.noLineNumbers),
  ("no_separators", fun o => .bool o.settings.noSeparators),
  ("no_offsets", fun o => .bool o.settings.noOffsets),
  ("squash_ignored", fun _ => .bool false),
  ("text", fun o => .bool o.settings.text),
  ("version", fun o => .bool o.settings.version),
  ("demo", fun o => .bool o.settings.demo),
  ("_default_read_mode", fun o => .enum (match o.settings.defaultReadMode with
    | .binary => "ReadMode.BINARY".toList | .text => "ReadMode.TEXT".toList))]

/-- `str()` of a `ReadMode` (/repo/kolombos/byteio/const.py:20-27). -/
def ReadMode.str' : ReadMode → Str
  | .binary => "ReadMode.BINARY".toList
  | .text => "ReadMode.TEXT".toList

/-- `str()` of a `MarkerDetailsEnum` (/repo/kolombos/byteio/const.py:66-71). -/
def MarkerDetails.str' : MarkerDetails → Str
  | .noDetails => "MarkerDetailsEnum.NO_DETAILS".toList
  | .brief => "MarkerDetailsEnum.BRIEF_DETAILS".toList
  | .full => "MarkerDetailsEnum.FULL_DETAILS".toList
  | .binaryStrict => "MarkerDetailsEnum.BINARY_STRICT".toList

/-- `str()` of a `DisplayMode` (/repo/kolombos/byteio/const.py:30-33). -/
def DisplayMode.str' : DisplayMode → Str
  | .default => "DisplayMode.DEFAULT".toList
  | .focused => "DisplayMode.FOCUSED".toList
  | .ignored => "DisplayMode.IGNORED".toList

/-- `str()` of a `CharClass` (/repo/kolombos/byteio/const.py:46-52). -/
def CharClass.str' : CharClass → Str
  | .controlChar => "CharClass.CONTROL_CHAR".toList
  | .escapeSeq => "CharClass.ESCAPE_SEQ".toList
  | .whitespace => "CharClass.WHITESPACE".toList
  | .utf8Seq => "CharClass.UTF_8_SEQ".toList
  | .binaryData => "CharClass.BINARY_DATA".toList
  | .printableChar => "CharClass.PRINTABLE_CHAR".toList

/-- `for char_class in CharClass` (/repo/kolombos/console.py:246). -/
def CharClass.all' : List CharClass :=
  [.controlChar, .escapeSeq, .whitespace, .utf8Seq, .binaryData, .printableChar]

/-- The other names in `Settings.__dir__()`: properties and methods of the class and of
`argparse.Namespace` (/repo/kolombos/settings.py:53-113); names with two underscores, which the
table leaves out for the first of them, are not listed.  Getting `read_mode` changes the object; the values of the
methods that are never shown are irrelevant. -/
def derivedAttrs : List (String × (SettingsObj → PyVal × SettingsObj)) := [
  ("read_mode", fun o => (.enum o.settings.readMode.1.str', { o with settings := o.settings.readMode.2 })),
  ("set_default_read_mode", fun o => (.method o.id (o.methodRepr o.settings o.filename), o)),
  ("get_char_class_display_mode", fun o => (.method o.id [], o)),
  ("effective_marker_details", fun o => (.enum o.settings.markerDetails.str', o)),
  ("effective_print_offsets", fun o => (.bool o.settings.printOffsets, o)),
  ("debug_settings", fun o => (.bool (o.settings.debug ≥ 3), o)),
  ("debug_settings_derived", fun o => (.bool (o.settings.debug ≥ 4), o)),
  ("debug_buffer_contents", fun o => (.bool (o.settings.debug ≥ 3), o)),
  ("debug_buffer_contents_full", fun o => (.bool (o.settings.debug ≥ 4), o)),
  ("_get_args", fun o => (.method o.id [], o)),
  ("_get_kwargs", fun o => (.method o.id [], o))]

/-- An attribute: its name, whether it is not in `__dict__`, `getattr`. -/
structure Attr where
  name : Str
  derived : Bool
  get : SettingsObj → PyVal × SettingsObj

/-- `app_settings.__dir__()` (/repo/kolombos/console.py:226). -/
def dirAttrs : List Attr :=
  (ownAttrs.map fun e => ⟨e.1.toList, false, fun o => (e.2 o, o)⟩)
    ++ derivedAttrs.map fun e => ⟨e.1.toList, true, e.2⟩

/-- The key of the sorting (/repo/kolombos/console.py:204-205, 227). -/
def Attr.key (a : Attr) : Str := if a.derived then a.name else '_' :: a.name

/-- `a <= b` for strings: by code points. -/
def strLe : Str → Str → Bool
  | [], _ => true
  | _ :: _, [] => false
  | a :: s, b :: t => if a = b then strLe s t else decide (a.toNat < b.toNat)

/-- Insertion before the first larger element. -/
def insertAttr (a : Attr) : List Attr → List Attr
  | [] => [a]
  | b :: r => if strLe a.key b.key then a :: b :: r else b :: insertAttr a r

/-- `sorted(…, key=…)`; names are different, so there are no equal keys. -/
def sortAttrs : List Attr → List Attr
  | [] => []
  | a :: r => insertAttr a (sortAttrs r)

/-- The attributes of the table (/repo/kolombos/console.py:225-228). -/
def tableAttrs (derived : Bool) : List Attr :=
  (sortAttrs dirAttrs).filter fun a =>
    !(['_'].isPrefixOf a.name || "init".toList.isPrefixOf a.name || "get".toList.isPrefixOf a.name)
      && (!a.derived || derived)

/-- `max([len(attr) for attr in attrs]) + 3` (/repo/kolombos/console.py:230). -/
def maxAttrLen (attrs : List Attr) : Nat := (attrs.map fun a => a.name.length).foldl max 0 + 3

/-- `Console.get_separator_line` (/repo/kolombos/console.py:161-196); `prefixLen` is
`Console.settings_prefix_len`. -/
def separatorLineWith (s : Settings) (prefixLen : Nat) (width : Int)
    (settingsOpen settingsMid settingsClose mainOpen mainClose : Bool) : Str :=
  let settingsCross := '─'
  let mainCross := '┼'
  let (settingsCross, mainCross) := if settingsOpen then ('┬', '─') else (settingsCross, mainCross)
  let (settingsCross, mainCross) := if settingsMid then ('┼', '─') else (settingsCross, mainCross)
  let settingsCross := if settingsClose then '┴' else settingsCross
  let mainCross := if mainOpen then '┬' else mainCross
  let mainCross := if mainClose then '┴' else mainCross
  let mainRaw := List.replicate 8 '─'
  let (mainPart, settingsPart) :=
    if prefixLen ≠ 0 ∧ (settingsOpen ∨ settingsMid ∨ settingsClose) then
      (span [40] (mainRaw ++ [mainCross]), span [40] (pyRepeat ['─'] ((prefixLen : Int) - 8 - 1)) ++ [settingsCross])
    else (span [40] mainRaw ++ [mainCross], [])
  let fillerLen := width - (stripSgr (mainPart ++ settingsPart)).length
  Debug.formatSeparator s (mainPart ++ settingsPart ++ pyRepeat ['─'] fillerLen)

/-- `debug_print` (/repo/kolombos/console.py:207-218). -/
def tableRow (s : Settings) (maxLen : Nat) (name : Str) (derived : Bool) (app dflt : PyVal) : Str :=
  let (seq, values) :=
    if app ≠ dflt then
      (Sgr.add [40] [1], span [32] app.str' ++ [' '] ++ span [90] (['['] ++ dflt.str' ++ [']']))
    else ([40], span [33] dflt.str')
  let seq := if derived then Sgr.add seq [3] else seq
  span seq (rjust maxLen ' ' name) ++ Console.separator s ++ values

/-- `for attr in attrs: debug_print(…)` (/repo/kolombos/console.py:242-243): the rows, and the two
objects afterwards.  The separator depends on the debug level only, which no attribute changes. -/
def tableRows (s : Settings) (maxLen : Nat) : List Attr → SettingsObj → SettingsObj → List Str × SettingsObj × SettingsObj
  | [], app, dflt => ([], app, dflt)
  | a :: r, app, dflt =>
    let v := a.get app
    let w := a.get dflt
    let q := tableRows s maxLen r v.2 w.2
    (tableRow s maxLen a.name a.derived v.1 w.1 :: q.1, q.2)

/-- `re.sub(r'\[\w+]', lambda m: len(m.group(0)) * ' ', header)` (/repo/kolombos/console.py:238) on
the header: the brackets and the word between them become blanks.  Simplified: the one match in the
header is given. -/
def blankBrackets (header : Str) : Str :=
  let before := header.takeWhile (· ≠ '[')
  let inside := (header.drop before.length).takeWhile (· ≠ ']')
  if inside = [] then header
  else before ++ List.replicate (inside.length + 1) ' ' ++ header.drop (before.length + inside.length + 1)

/-- `header` (/repo/kolombos/console.py:234-238). -/
def tableHeader (maxLen : Nat) (derived : Bool) : Str :=
  let header := ljust maxLen ' ' "SETTINGS [DERIVED]".toList
  if derived then
    let header := header.flatMap fun c => if c = '[' then '[' :: Sgr.assemble [3] else [c]
    header.flatMap fun c => if c = ']' then Sgr.assemble [23] ++ [']'] else [c]
  else blankBrackets header

/-- `Console.debug_settings` (/repo/kolombos/console.py:198-251): what is printed, one element for
each line; `wide` as in `Debug.byteIoRun`. -/
def settingsTable (s : Settings) (file : Option Str) (methodRepr : Settings → Option Str → Str) (wide : Nat → Int) : List Str :=
  if s.debug ≥ 3 then
    let derived : Bool := s.debug ≥ 4
    let attrs := tableAttrs derived
    let maxLen := maxAttrLen attrs
    let q := tableRows s maxLen attrs ⟨1, s, file, methodRepr⟩ ⟨0, {}, none, methodRepr⟩
    [separatorLineWith s maxLen (wide 0) true false false false false,
      span (Sgr.add [40] [1]) (tableHeader maxLen derived) ++ Console.separator s]
      ++ q.1
      ++ (if derived then CharClass.all'.map fun c =>
            tableRow s maxLen c.str' true (.enum (q.2.1.settings.displayMode c).str') (.enum (q.2.2.settings.displayMode c).str')
          else [])
      ++ [separatorLineWith s maxLen (wide 1) false false true true false]
  else []

/-- The writes of the table (/repo/kolombos/console.py:218, 221, 233, 240, 251). -/
def settingsEvents (s : Settings) (file : Option Str) (methodRepr : Settings → Option Str → Str) (wide : Nat → Int) : List Ev :=
  (settingsTable s file methodRepr wide).map fun t => .dbg 3 (t ++ ['\n'])

namespace Debug

/-- What `Console.on_exception` writes to standard output (/repo/kolombos/console.py:121-139) for an
exception of the runner; `trace` is the traceback, without the last line, which goes to standard
error. -/
def onException (s : Settings) (trace : Str) : Str :=
  if s.debug > 0 then span [31] trace ++ ['\n'] else errorHint

/-- What a run with debug output depends on in addition. -/
structure Details where
  /-- the exact number of columns of the terminal when the `k`-th line of dashes is printed -/
  wide : Nat → Int
  /-- see `SettingsObj` -/
  methodRepr : Settings → Option Str → Str
  /-- the traceback of an exception, without the last line -/
  trace : Err → Str
  /-- whether a named file is seekable -/
  seekable : Str → Bool

/-- `App.run` (/repo/kolombos/app.py:15-31) after the arguments are parsed, with the debug
output: the writes to standard output, and the exit status.  `src` and `io` are for the file that
is read: the file of the demo has a name, too.  The table has the first two lines of dashes. -/
def appRun (fuel : Nat) (d : Details) (s : Settings) (file : Option Str) (src : Source) (term : Nat → Int) (opened : Option Err)
    (io : List IoStep) (legend version : Str) : List Ev × Option Nat :=
  let table := settingsEvents s file d.methodRepr d.wide
  let s := debugSettings s
  match Runner.create s with
  | .legend => (table ++ [.out legend, .out ['\n']], some 0)
  | .version => (table ++ [.out version, .out ['\n']], some 0)
  | .demo =>
    let r := byteIoRun fuel (demoSettings s) src term (fun k => d.wide (k + 2)) opened io
    match r.res with
    | .ok _ => (table ++ r.evs ++ [.out demoHint, .out ['\n']], some 0)
    | .err e => (table ++ r.evs ++ [.out (onException s (d.trace e)), .out ['\n']], some 1)
    | .timeout => (table ++ r.evs, none)
  | .byteIo =>
    let r := byteIoRun fuel s src term (fun k => d.wide (k + 2)) opened io
    match r.res with
    | .ok _ => (table ++ r.evs ++ [.out ['\n']], some 0)
    | .err e => (table ++ r.evs ++ [.out (onException s (d.trace e)), .out ['\n']], some 1)
    | .timeout => (table ++ r.evs, none)

/-- The source that `Reader._open` opens (/repo/kolombos/byteio/reader.py:78-84,
/repo/kolombos/runner/demo.py:20-21); `demoName` is the path of the file of the demo. -/
def source (d : Details) (demoName : Str) (s : Settings) (name : Option Str) : Source :=
  if s.demo then .file demoName true
  else match name with
  | none => .stdin
  | some name => if name = [] ∨ name = ['-'] then .stdin else .file name (d.seekable name)

/-- The program with its debug output (/repo/kolombos/__main__.py:8-9, /repo/kolombos/app.py:14-31). -/
def program (fuel : Nat) (d : Details) (demoName : Str) (w : World) (args : List Arg) : Exit :=
  match parseArgs args with
  | .help => ⟨w.help, some 0⟩
  | .usage => ⟨[], some 2⟩
  | .run s name =>
    let r := appRun fuel d s name (source d demoName s name) w.term (w.open s name).1 (w.open s name).2
      (legendText w.legend) (versionText w.version w.pytermor)
    ⟨stdoutOf s.debug r.1, r.2⟩

end Debug

end Kolombos
