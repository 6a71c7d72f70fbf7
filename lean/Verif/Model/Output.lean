import Verif.Model.SettingsTable
/-
Standard output that may fail: the program with exceptions raised by `print`
(`UnicodeEncodeError`, `BrokenPipeError`, `KeyboardInterrupt`, …).
-/
namespace Kolombos

/-- Standard output: what the `k`-th call of `print` does for a text: the text is written, or an
exception is raised.  Simplified: if it raises, nothing of the text is written, as it is for
encoding errors. -/
abbrev Device := Nat → Str → Option Err

/-- The state of the output: the number of calls of `print`, the texts written, and the `_buf` of
the console buffer whose `print` failed (/repo/kolombos/console.py:62-67, 94-99: it is emptied only
after `print`). -/
structure Out where
  calls : Nat := 0
  written : List Str := []
  pending : Option Str := none
  deriving DecidableEq

namespace Out

/-- `Console.print` (/repo/kolombos/console.py:271-273), `print`. -/
def print (dev : Device) (o : Out) (t : Str) : Out × Option Err :=
  match dev o.calls t with
  | none => ({ o with calls := o.calls + 1, written := o.written ++ [t] }, none)
  | some e => ({ o with calls := o.calls + 1 }, some e)

/-- Several calls of `Console.info`. -/
def prints (dev : Device) : List Str → Out → Out × Option Err
  | [], o => (o, none)
  | t :: ts, o =>
    match o.print dev t with
    | (o, none) => prints dev ts o
    | (o, some e) => (o, some e)

/-- Several writes to console buffers, each with `flush` (/repo/kolombos/console.py:33-67, 79-99). -/
def writes (dev : Device) : List Str → Out → Out × Option Err
  | [], o => (o, none)
  | t :: ts, o =>
    match o.print dev t with
    | (o, none) => writes dev ts o
    | (o, some e) => ({ o with pending := some t }, some e)

end Out

/-- The calls of `print` for some writes: messages above the debug level and empty texts are
skipped (/repo/kolombos/console.py:63-64, 80-81, 95-96). -/
def printsOf (debug : Nat) (evs : List Ev) : List Str := (evs.map (Ev.printed debug)).filter (· ≠ [])

namespace Debug

/-- The writes of `ByteIoRunner._reinit` (/repo/kolombos/runner/byteio.py:30-32). -/
def reinitEvents (s : Settings) (wide : Nat → Int) : List Ev :=
  if s.debug ≥ 3 then [] else [runner.write s 1 (separatorLine s (wide 2) '┬')]

/-- The writes of `Reader.read` before its `try` block (/repo/kolombos/byteio/reader.py:35-36, 78-84). -/
def openingEvents (s : Settings) (src : Source) (size : Int) : List Ev :=
  [reader.write s 1 (match src with
    | .stdin => "Reading from stdin".toList
    | .file name _ => "Opened file: ".toList ++ bold name),
   reader.write s 2 ("Read buffer: size ".toList ++ bold (intStr size))]

/-- The `try` block of `Reader.read` for `ByteIoRunner`. -/
def readingTrace (fuel : Nat) (s : Settings) (src : Source) (term wide : Nat → Int) (io : List IoStep) : Trace State :=
  let c := Config.create s
  readLoop c.settings src c.settings.maxBytes c.settings.maxLines (processChunk fuel c term wide) io 0 0 0 0 {}

/-- `ByteIoRunner.run` and `Reader.read` (/repo/kolombos/runner/byteio.py:16-40,
/repo/kolombos/byteio/reader.py:34-84): an exception in the `try` block is passed on, unless it is
a `KeyboardInterrupt`. -/
def byteIoOn (dev : Device) (fuel : Nat) (s : Settings) (src : Source) (term wide : Nat → Int) (opened : Option Err) (io : List IoStep)
    (o : Out) : Out × Res Unit :=
  let c := Config.create s
  match o.writes dev (printsOf s.debug (reinitEvents s wide)) with
  | (o, some e) => (o, .err e)
  | (o, none) =>
    match opened with
    | some e => (o, .err e)
    | none =>
      match o.writes dev (printsOf s.debug (openingEvents c.settings src (Reader.chunkSize c.settings.buffer c.settings.debug))) with
      | (o, some e) => (o, .err e)
      | (o, none) =>
        let t := readingTrace fuel s src term wide io
        match o.writes dev (printsOf s.debug t.evs) with
        | (o, some e) => (o, if e = .keyboardInterrupt then .ok () else .err e)
        | (o, none) =>
          match t.res with
          | .ok _ => (o, .ok ())
          | .err e => (o, if e = .keyboardInterrupt then .ok () else .err e)
          | .timeout => (o, .timeout)

/-- The exit status of python for an exception that nobody catches. -/
def uncaught (e : Err) : Nat := if e = .keyboardInterrupt then 130 else 1

/-- `App._exit` (/repo/kolombos/app.py:29-31). -/
def exitOn (dev : Device) (code : Nat) (o : Out) : Out × Option Nat :=
  match o.print dev ['\n'] with
  | (o, none) => (o, some code)
  | (o, some e) => (o, some (uncaught e))

/-- `Console.on_exception` and `_exit(1)` (/repo/kolombos/app.py:19-21,
/repo/kolombos/console.py:117-139) for an exception of the `try` block of `App.run`; it does not
catch `KeyboardInterrupt`.  First the buffers are flushed.  Standard error is assumed to work. -/
def handleOn (dev : Device) (d : Details) (s : Settings) (e : Err) (o : Out) : Out × Option Nat :=
  if e = .keyboardInterrupt then (o, some 130)
  else
    match (match o.pending with
      | none => (o, none)
      | some t => match o.print dev t with
        | (o, none) => ({ o with pending := none }, none)
        | (o, some e) => (o, some e)) with
    | (o, some e) => (o, some (uncaught e))
    | (o, none) =>
      match o.print dev (onException s (d.trace e)) with
      | (o, some e) => (o, some (uncaught e))
      | (o, none) => exitOn dev 1 o

/-- The lines that `LegendRunner` prints (/repo/kolombos/runner/legend.py:14-18). -/
def legendPrints (file : Str) : List Str := (splitLines file).filter fun l => l.head? != some '#'

/-- The lines that `VersionRunner` prints (/repo/kolombos/runner/version.py:14-17). -/
def versionPrints (version pytermor : Str) : List Str :=
  [ljust 16 ' ' "es7s/kolombos".toList ++ version ++ ['\n'], ljust 16 ' ' "pytermor".toList ++ pytermor ++ ['\n']]

/-- The runners (/repo/kolombos/runner/); `s` are the settings after the table. -/
def runnerOn (dev : Device) (fuel : Nat) (d : Details) (s : Settings) (src : Source) (term : Nat → Int) (opened : Option Err)
    (io : List IoStep) (legend version : List Str) (o : Out) : Out × Res Unit :=
  let told (r : Out × Option Err) : Out × Res Unit := match r with
    | (o, none) => (o, .ok ())
    | (o, some e) => (o, .err e)
  match Runner.create s with
  | .legend => told (o.prints dev legend)
  | .version => told (o.prints dev version)
  | .demo =>
    match byteIoOn dev fuel (demoSettings s) src term (fun k => d.wide (k + 2)) opened io o with
    | (o, .ok _) => told (o.prints dev [demoHint])
    | r => r
  | .byteIo => byteIoOn dev fuel s src term (fun k => d.wide (k + 2)) opened io o

/-- `App.run` (/repo/kolombos/app.py:15-31) after the arguments are parsed. -/
def appOn (dev : Device) (fuel : Nat) (d : Details) (s : Settings) (file : Option Str) (src : Source) (term : Nat → Int) (opened : Option Err)
    (io : List IoStep) (legend version : List Str) : Out × Option Nat :=
  match ({} : Out).writes dev (printsOf s.debug (settingsEvents s file d.methodRepr d.wide)) with
  | (o, some e) => handleOn dev d s e o
  | (o, none) =>
    match runnerOn dev fuel d (debugSettings s) src term opened io legend version o with
    | (o, .ok _) => exitOn dev 0 o
    | (o, .err e) => handleOn dev d s e o
    | (o, .timeout) => (o, none)

/-- The program (/repo/kolombos/__main__.py:8-9) for a command line that is accepted. -/
def programOn (dev : Device) (fuel : Nat) (d : Details) (demoName : Str) (w : World) (s : Settings) (name : Option Str) : Out × Option Nat :=
  appOn dev fuel d s name (source d demoName s name) w.term (w.open s name).1 (w.open s name).2
    (legendPrints w.legend) (versionPrints w.version w.pytermor)

end Debug

end Kolombos
