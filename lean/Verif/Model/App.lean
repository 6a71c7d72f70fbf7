import Verif.Model.Parser
import Verif.Model.Formatter
import Verif.Model.Reader
/-
kolombos/runner/, kolombos/app.py
-/
namespace Kolombos

/-- Everything `ByteIoRunner._reinit` creates that does not change afterwards. -/
structure Config where
  settings : Settings
  registry : Registry
  mode : ReadMode

/-- The mutable state of a run: parser buffer, segment buffer, the formatter's
`_offset` and `_line_num` (/repo/kolombos/byteio/formatter/binary.py:28, text.py:18-19),
and the number of calls so far (to look up the terminal width). -/
structure State where
  pb : ParserBuffer := {}
  buf : SegmentBuffer := {}
  offset : Nat := 0
  lineNum : Nat := 1
  calls : Nat := 0

/-- `ByteIoRunner._reinit` (/repo/kolombos/runner/byteio.py:29-40): the registry is created
first, `FormatterFactory.create` (/repo/kolombos/byteio/formatter/factory.py:11-19) reads
the mode afterwards. -/
def Config.create (s : Settings) : Config :=
  let r := Registry.create s
  let m := r.2.readMode
  { settings := m.2, registry := r.1, mode := m.1 }

/-- `self._formatter.format()` for the formatter of the mode. -/
def formatStep (fuel : Nat) (c : Config) (term : Nat → Int) (st : State) : Run State :=
  match c.mode with
  | .binary =>
    (BinaryFormatter.format fuel c.settings (term st.calls) st.pb.closed st.buf st.offset).bind
      fun r => .pure { st with buf := r.1, offset := r.2, calls := st.calls + 1 }
  | .text =>
    (TextFormatter.format c.settings st.pb.closed fuel st.buf st.offset st.lineNum).bind
      fun r => .pure { st with buf := r.1, offset := r.2.1, lineNum := r.2.2, calls := st.calls + 1 }

/-- `ByteIoRunner._process_chunk_buffered` (/repo/kolombos/runner/byteio.py:42-47).  `term k`
is the number of terminal columns at the `k`-th call.  The `offset` argument is
used for debug output and error messages only. -/
def processChunk (fuel : Nat) (c : Config) (term : Nat → Int) (st : State) (raw : Bytes)
    (_offset : Nat) (finish : Bool) : Run State :=
  let pb := st.pb.appendRaw raw finish
  match parse c.registry c.settings pb st.buf with
  | .error e => .fail e
  | .ok (pb', buf') => formatStep fuel c term { st with pb := pb', buf := buf' }

/-- `ByteIoRunner.run` (/repo/kolombos/runner/byteio.py:16-19). -/
def byteIoRun (fuel : Nat) (s : Settings) (term : Nat → Int) (opened : Option Err)
    (io : List IoStep) : Reader.Outcome State :=
  let c := Config.create s
  Reader.read opened c.settings.maxBytes c.settings.maxLines (processChunk fuel c term) io {}

/-- The settings `DemoRunner.run` sets up (/repo/kolombos/runner/demo.py:19-25); the file name
is not modelled. -/
def demoSettings (s : Settings) : Settings :=
  let s := s.setDefaultReadMode .binary
  let s := if s.decode = none then { s with decode := some true } else s
  if s.columns = none then { s with columns := some 16 } else s

/-- `Console.debug_settings` (/repo/kolombos/console.py:199-251): its effect on the settings.
With debug level 4 and above every public attribute is read, including the
property `read_mode`. -/
def debugSettings (s : Settings) : Settings := if s.debug ≥ 4 then s.readMode.2 else s

/-- `RunnerFactory.create` (/repo/kolombos/runner/factory.py:11-20). -/
inductive Runner where
  | legend
  | version
  | demo
  | byteIo
  deriving DecidableEq, Repr

/-- `RunnerFactory.create` (/repo/kolombos/runner/factory.py:12-20). -/
def Runner.create (s : Settings) : Runner :=
  if s.legend then .legend
  else if s.version then .version
  else if s.demo then .demo
  else .byteIo

/-- What a process leaves behind: stdout and the exit status (`none`: does not
terminate). -/
structure Exit where
  out : Str
  status : Option Nat

/-- `Console.on_exception` without debug, its output on stdout
(/repo/kolombos/console.py:137-139). -/
def errorHint : Str :=
  "Run the app with '".toList ++ span [1] "--debug".toList
    ++ "' argument to see the details\n".toList

/-- Text printed by `DemoRunner` at the end (/repo/kolombos/runner/demo.py:27). -/
def demoHint : Str :=
  "\nRun the app with '".toList ++ span [1] "--legend".toList
    ++ "' option to learn how to read the output\n".toList

/-- The characters at which `str.splitlines` ends a line. -/
def isLineBreak (c : Char) : Bool :=
  c.toNat ∈ [0x0a, 0x0b, 0x0c, 0x0d, 0x1c, 0x1d, 0x1e, 0x85, 0x2028, 0x2029]

/-- `s.splitlines(keepends=True)`. -/
def splitLines : Str → List Str
  | [] => []
  | c :: r =>
    if isLineBreak c && !(c == '\r' && r.head? == some '\n') then [c] :: splitLines r
    else match splitLines r with
      | [] => [[c]]
      | l :: ls => (c :: l) :: ls

/-- `LegendRunner.run` (/repo/kolombos/runner/legend.py:14-18) for the content of the file. -/
def legendText (file : Str) : Str := ((splitLines file).filter fun l => l.head? != some '#').flatten

/-- `VersionRunner.run` (/repo/kolombos/runner/version.py:14-17). -/
def versionText (version pytermor : Str) : Str :=
  ljust 16 ' ' "es7s/kolombos".toList ++ version ++ ['\n'] ++ (ljust 16 ' ' "pytermor".toList ++ pytermor ++ ['\n'])

/-- `App.run` (/repo/kolombos/app.py:15-31) after successful parsing of the arguments into
`s`; the output is the one for debug level 0.  `legend` and `version` are the outputs of the two runners that only print a
text.  Only `Exception`s are caught; a `KeyboardInterrupt` cannot get here from
`Reader.read`. -/
def appRun (fuel : Nat) (s : Settings) (term : Nat → Int) (opened : Option Err)
    (io : List IoStep) (legend version : Str) : Exit :=
  let s := debugSettings s
  match Runner.create s with
  | .legend => ⟨legend ++ ['\n'], some 0⟩
  | .version => ⟨version ++ ['\n'], some 0⟩
  | .demo =>
    let r := byteIoRun fuel (demoSettings s) term opened io
    match r.res with
    | .ok _ => ⟨r.out ++ demoHint ++ ['\n'], some 0⟩
    | .err _ => ⟨r.out ++ errorHint ++ ['\n'], some 1⟩
    | .timeout => ⟨r.out, none⟩
  | .byteIo =>
    let r := byteIoRun fuel s term opened io
    match r.res with
    | .ok _ => ⟨r.out ++ ['\n'], some 0⟩
    | .err _ => ⟨r.out ++ errorHint ++ ['\n'], some 1⟩
    | .timeout => ⟨r.out, none⟩

end Kolombos
