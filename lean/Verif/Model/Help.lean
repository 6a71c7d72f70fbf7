import Verif.Model.TextWrap
import Verif.Model.Render
import Verif.Model.Ansi
import Verif.Model.Presets
import Verif.Model.Template
/-
kolombos/arghelp.py: the text shown by `--help`.  `argparse` is the one of Python 3.11.

Simplifications: the texts of the program are tables of this file; they are given as lists of
runs with and without a style, as the program puts them together.  Rendering them cannot
raise (the only colour is a preset).  `%`-formatting knows `%(prog)s` and `%(default)s`;
no other percent sign occurs in the texts.
-/
namespace Kolombos

/-- The characters of a string literal. -/
macro "chars% " s:str : term => do
  let cs := s.getString.toList.map Lean.Syntax.mkCharLit
  `([$(cs.toArray),*])

/-- `Style(fg=pt.Colors.YELLOW)` (/repo/kolombos/arghelp.py:103, pytermor/color.py:351). -/
def yellowStyle : PStyle := { fg := .ix16 ⟨some 0x808000, some 33, some 43⟩ }

/-- A text without a style. -/
def plainRun (s : Str) : TextRun := ⟨s, none⟩

/-- `fmt_default(s)` (/repo/kolombos/arghelp.py:103). -/
def defaultRun (s : Str) : TextRun := ⟨s, some yellowStyle⟩

/-- `fmt_b(s)` (/repo/kolombos/arghelp.py:101). -/
def boldRun (s : Str) : TextRun := ⟨s, some { bold := some true }⟩

/-- `fmt_u(s)` (/repo/kolombos/arghelp.py:102). -/
def underRun (s : Str) : TextRun := ⟨s, some { underlined := some true }⟩

/-- The configuration of the renderer, which the program does not change; `tty` says whether
the output is a terminal. -/
def helpConfig (tty : Bool) : RenderConfig := { isatty := tty }

/-- `str(text)`, `f'{text}'` and `ren(text)` (/repo/kolombos/arghelp.py:104,
pytermor/render.py:115-116, 181-183, 461-474). -/
def renRuns (tty : Bool) (rs : List TextRun) : Str :=
  match renderText (helpConfig tty) {} rs with
  | none => []
  | some (s, p) => ((sgrRender (helpConfig tty) p s {}).map Prod.fst).getD []

/-- One argument of the parser: its names, `metavar` and `help`. -/
structure HelpEntry where
  names : List Str
  metavar : Option Str
  help : List TextRun

/-- The groups of arguments with their titles (/repo/kolombos/arghelp.py:146-199). -/
def helpGroups : List (Str × List HelpEntry) := [
  (chars% "input", [
    ⟨[], some (chars% "<file>"), [plainRun (chars% "file to read from; if empty or \"-\", read stdin instead; ignored if --demo is present")]⟩,
    ⟨[chars% "-M", chars% "--demo"], none, [plainRun (chars% "show output examples and exit; see --legend for the description")]⟩]),
  (chars% "operating mode", [
    ⟨[chars% "-t", chars% "--text"], none, [plainRun (chars% "open file in text mode "), defaultRun (chars% "[this is a default]")]⟩,
    ⟨[chars% "-b", chars% "--binary"], none, [plainRun (chars% "open file in binary mode")]⟩,
    ⟨[chars% "-l", chars% "--legend"], none, [plainRun (chars% "show annotation symbol list and exit")]⟩,
    ⟨[chars% "-v", chars% "--version"], none, [plainRun (chars% "show app version and exit")]⟩,
    ⟨[chars% "-h", chars% "--help"], none, [plainRun (chars% "show this help message and exit")]⟩]),
  (chars% "character class options", [
    ⟨[chars% "-s", chars% "--focus-space"], none, [plainRun (chars% "highlight whitespace markers")]⟩,
    ⟨[chars% "-c", chars% "--focus-control"], none, [plainRun (chars% "highlight control char markers")]⟩,
    ⟨[chars% "-p", chars% "--focus-printable"], none, [plainRun (chars% "highlight printable chars")]⟩,
    ⟨[chars% "-e", chars% "--focus-esc"], none, [plainRun (chars% "highlight escape sequences markers")]⟩,
    ⟨[chars% "-u", chars% "--focus-utf8"], none, [plainRun (chars% "highlight UTF-8 sequences")]⟩,
    ⟨[chars% "-i", chars% "--focus-binary"], none, [plainRun (chars% "highlight binary data bytes")]⟩,
    ⟨[chars% "-S", chars% "--ignore-space"], none, [plainRun (chars% "dim/hide whitespaces")]⟩,
    ⟨[chars% "-C", chars% "--ignore-control"], none, [plainRun (chars% "dim/hide control chars")]⟩,
    ⟨[chars% "-P", chars% "--ignore-printable"], none, [plainRun (chars% "dim/hide printable chars")]⟩,
    ⟨[chars% "-E", chars% "--ignore-esc"], none, [plainRun (chars% "dim/hide escape sequences")]⟩,
    ⟨[chars% "-U", chars% "--ignore-utf8"], none, [plainRun (chars% "dim/hide UTF-8 sequences")]⟩,
    ⟨[chars% "-I", chars% "--ignore-binary"], none, [plainRun (chars% "dim/hide binary data")]⟩]),
  (chars% "generic options", [
    ⟨[chars% "-f", chars% "--buffer"], some (chars% "<size>"), [plainRun (chars% "read buffer size, in bytes "), ⟨chars% "[default: " ++ dec 4096 ++ chars% "]", some yellowStyle⟩]⟩,
    ⟨[chars% "-L", chars% "--max-lines"], some (chars% "<num>"), [plainRun (chars% "stop after reading <num> lines "), defaultRun (chars% "[default: no limit]")]⟩,
    ⟨[chars% "-B", chars% "--max-bytes"], some (chars% "<num>"), [plainRun (chars% "stop after reading <num> bytes "), defaultRun (chars% "[default: no limit]")]⟩,
    ⟨[chars% "-D", chars% "--debug"], none, [plainRun (chars% "enable debug mode; can be used from 1 to 4 times, each level increases verbosity (-D|DD|DDD|DDDD)")]⟩,
    ⟨[chars% "--color-markers"], none, [plainRun (chars% "apply SGR marker format to themselves")]⟩]),
  (chars% "text mode options", [
    ⟨[chars% "-m", chars% "--marker"], some (chars% "<details>"), [plainRun (chars% "marker details: 0 is none, 1 is brief, 2 is full "), defaultRun (chars% "[default: %(default)s]")]⟩,
    ⟨[chars% "--no-separators"], none, [plainRun (chars% "do not print "), ⟨[separatorLeft] ++ chars% "separators" ++ [separatorRight], none⟩, plainRun (chars% " around escape sequences")]⟩,
    ⟨[chars% "--no-line-numbers"], none, [plainRun (chars% "do not print line numbers")]⟩]),
  (chars% "binary mode options", [
    ⟨[chars% "-w", chars% "--columns"], some (chars% "<num>"), [plainRun (chars% "format output as <num>-columns wide table "), defaultRun (chars% "[default: auto]")]⟩,
    ⟨[chars% "-d", chars% "--decode"], none, [plainRun (chars% "decode valid UTF-8 sequences, print as unicode chars")]⟩,
    ⟨[chars% "--decimal-offsets"], none, [plainRun (chars% "output offsets in decimal format "), defaultRun (chars% "[default: hex format]")]⟩,
    ⟨[chars% "--no-offsets"], none, [plainRun (chars% "do not print offsets")]⟩])]

/-- `description` (/repo/kolombos/arghelp.py:107). -/
def helpDescription : Str := chars% "Escape sequences and control characters visualiser"

/-- `usage` (/repo/kolombos/arghelp.py:108-113). -/
def helpUsage : List Str := [
  chars% "%(prog)s [[--text] | --binary] [<options>] [--demo | <file>]",
  chars% "%(prog)s --legend",
  chars% "%(prog)s --version",
  chars% "%(prog)s --help"]

/-- `epilog` (/repo/kolombos/arghelp.py:114-123); the number is `Reader.READ_CHUNK_SIZE_DEBUG`. -/
def helpEpilog (tty : Bool) : List Str := [
  chars% "Mandatory or optional arguments to long options are also mandatory or optional for any corresponding short options. Arguments can be separated with both space or \"=\" in both cases.",
  [],
  chars% "Binary mode disables " ++ renRuns tty [boldRun (chars% "--marker")] ++ chars% " setting, because marker length should be always equal to actual sequence length. Therefore, control chars have 0 details level, while escape seqs are displayed with full details (2). Also, debug mode sets " ++ renRuns tty [boldRun (chars% "--buffer")] ++ chars% " setting to " ++ dec 128 ++ chars% " bytes (however, it can be overriden as usual).",
  [],
  chars% "Demo mode effectively fixes <filename> to a preset path for the current run, as well as implies -b, -d and -w16 (can be overriden).",
  [],
  chars% "(c) 2022-2023 A. Shavykin <0.delameter@gmail.com>"]

/-- `examples` (/repo/kolombos/arghelp.py:124-140). -/
def helpExamples (tty : Bool) : List Str :=
  let prog := chars% "    " ++ renRuns tty [underRun (chars% "%(prog)s")]
  [ chars% "Read file in text mode, highlight escape sequences, marker verbosity 2 (max)",
    prog ++ chars% " --focus-esc -m" ++ renRuns tty [underRun (chars% "2")] ++ chars% " file.txt",
    [],
    chars% "Read file in binary mode, ignore whitespace, printables and UTF-8 sequences",
    prog ++ chars% " --binary -USP file.bin",
    [],
    chars% "Read stdin in binary mode, highlight control characters, process 128 first bytes and exit",
    prog ++ chars% " --binary --focus-control -B" ++ renRuns tty [underRun (chars% "128")],
    [],
    chars% "Show demo in binary mode, 32 bytes per line, with decimal offsets",
    prog ++ chars% " -w32 --decimal-offsets --demo",
    [],
    chars% "Display annotation symbol list and color map",
    prog ++ chars% " --legend",
    ['\n'] ]

/-- `text % params` for `%(prog)s` and `%(default)s`. -/
def expandPercent (dflt : Str) : Nat → Str → Str
  | 0, s => s
  | _ + 1, [] => []
  | n + 1, c :: r =>
    if c = '%' then
      if (chars% "(prog)s").isPrefixOf r then chars% "kolombos" ++ expandPercent dflt n (r.drop 7)
      else if (chars% "(default)s").isPrefixOf r then dflt ++ expandPercent dflt n (r.drop 10)
      else c :: expandPercent dflt n r
    else c :: expandPercent dflt n r

/-- `CustomHelpFormatter.format_header` (/repo/kolombos/arghelp.py:24-25). -/
def formatHeader (title : Str) : Str := span [1] (pyUpper title)

/-- `s.rstrip('\n')`. -/
def rstripLf (s : Str) : Str := (s.reverse.dropWhile (· == '\n')).reverse

/-- `CustomHelpFormatter._format_text` and `_fill_text` (/repo/kolombos/arghelp.py:66-70,
argparse.py:509-514). -/
def formatHelpText (indent : Nat) (text : Str) : Str :=
  let text := expandPercent [] text.length text
  rstripLf (((splitLines text).map (List.replicate indent ' ' ++ ·)).flatten ++ ['\n', '\n']) ++ ['\n']

/-- `CustomHelpFormatter.add_usage` (/repo/kolombos/arghelp.py:33-38) and `_format_usage`
(argparse.py:298-304, 505-507). -/
def formatUsage : Str :=
  let usage := (join ['\n'] helpUsage).flatMap fun c => if c = '\n' then ['\n', ' ', ' '] else [c]
  formatHelpText 0 (formatHeader (chars% "usage")) ++
    ([' ', ' '] ++ expandPercent [] usage.length usage ++ ['\n', '\n'])

/-- `CustomHelpFormatter._format_action_invocation` (/repo/kolombos/arghelp.py:45-64): the
argument is shown after the long name only. -/
def invocation (e : HelpEntry) : Str :=
  match e.names, e.metavar with
  | [], m => m.getD []
  | ns, none => join [',', ' '] ns
  | ns, some m =>
    join [',', ' '] (ns.map fun n => if n.length > 2 ∨ ns.length = 1 then n ++ [' '] ++ m else n)

/-- `_whitespace_matcher.sub(' ', text)`, blanks being those of ASCII (argparse.py:189, 656). -/
def squeezeBlanks : Bool → Str → Str
  | _, [] => []
  | b, c :: r =>
    if (9 ≤ c.toNat ∧ c.toNat ≤ 13) ∨ c = ' ' then
      if b then squeezeBlanks true r else ' ' :: squeezeBlanks true r
    else c :: squeezeBlanks false r

/-- `HelpFormatter._split_lines` (argparse.py:655-660). -/
def splitHelpLines (width : Nat) (text : Str) : List Str :=
  textWrap width (pyStrip (squeezeBlanks false text))

/-- The column at which explanations start: `max_help_position` and `_action_max_length` of
`HelpFormatter` (argparse.py:170-180, 261-277, 517-520), for `width = columns - 2`; the
arguments are indented by two. -/
def helpPosition (width : Nat) : Nat :=
  let longest := ((helpGroups.flatMap Prod.snd).map fun e => (invocation e).length + 2).foldl max 0
  min (longest + 2) (min 30 (max (width - 20) 4))

/-- `HelpFormatter._format_action` (argparse.py:516-562) inside a group, where the indent is
two. -/
def formatAction (tty : Bool) (width : Nat) (e : HelpEntry) : Str :=
  let position := helpPosition width
  let helpWidth := max (width - position) 11
  let actionWidth := position - 2 - 2
  let header := invocation e
  let text := renRuns tty e.help
  let lines := splitHelpLines helpWidth (expandPercent ['0'] text.length text)
  let first := if header.length ≤ actionWidth
    then [' ', ' '] ++ ljust actionWidth ' ' header ++ [' ', ' ']
    else [' ', ' '] ++ header ++ ['\n'] ++ List.replicate position ' '
  match lines with
  | [] => first
  | l :: ls => first ++ l ++ ['\n'] ++ (ls.map fun l => List.replicate position ' ' ++ l ++ ['\n']).flatten

/-- `HelpFormatter._Section.format_help` (argparse.py:212-235) for a section of the root. -/
def formatSection (title : Str) (items : Str) : Str :=
  if items = [] then [] else ['\n'] ++ formatHeader title ++ [':', '\n'] ++ items ++ ['\n']

/-- `_long_break_matcher.sub('\n\n', s)` (argparse.py:190, 289); `k` line feeds came before. -/
def squeezeBreaks : Nat → Str → Str
  | _, [] => []
  | k, c :: r =>
    if c = '\n' then
      if 2 ≤ k then squeezeBreaks (k + 1) r else c :: squeezeBreaks (k + 1) r
    else c :: squeezeBreaks 0 r

/-- `HelpFormatter.format_help` (argparse.py:286-291). -/
def finishHelp (help : Str) : Str :=
  if help = [] then []
  else (rstripLf (squeezeBreaks 0 help)).dropWhile (· == '\n') ++ ['\n']

/-- `ArgumentParser.format_help` (argparse.py:2574-2595), when there is no epilog left. -/
def mainHelp (tty : Bool) (width : Nat) : Str :=
  finishHelp (formatUsage ++ formatHelpText 0 helpDescription ++
    (helpGroups.map fun g => formatSection g.1 ((g.2.map (formatAction tty width)).flatten)).flatten)

/-- The first part of `CustomArgumentParser.format_help` (/repo/kolombos/arghelp.py:82-90):
epilog and examples. -/
def endingHelp (tty : Bool) (epilog : Option Str) : Str :=
  finishHelp (
    (match epilog with
      | none => []
      | some e => formatHelpText 0 [' '] ++ formatHelpText 0 e) ++
    formatSection (chars% "examples") (formatHelpText 2 (join ['\n'] (helpExamples tty))))

/-- `\033\[[0-9;]*m` at the beginning: its length. -/
def sgrHere : Str → Option Nat
  | '\x1b' :: '[' :: r =>
    let k := (r.takeWhile fun c => c.isDigit || c == ';').length
    if (r.drop k).head? = some 'm' then some (k + 3) else none
  | _ => none

/-- `\s*:\s*(\n|\033|$)` at the beginning: the characters that the group keeps, and what
follows the match.  The blanks after the colon are given back until a line feed follows. -/
def colonHere (s : Str) : Option (Str × Str) :=
  match s.dropWhile isPySpace with
  | ':' :: r =>
    let blanks := r.takeWhile isPySpace
    match r.dropWhile isPySpace with
    | [] => some ([], [])
    | '\x1b' :: rest => some (['\x1b'], rest)
    | rest =>
      if '\n' ∈ blanks then
        some (['\n'], (blanks.reverse.takeWhile (· != '\n')).reverse ++ rest)
      else none
  | _ => none

/-- One match of `(\033\[[0-9;]*m)?\s*:\s*(\n|\033|$)` at the beginning: the replacement
`\1\2` and what follows. -/
def headerColon (s : Str) : Option (Str × Str) :=
  match sgrHere s with
  | some k =>
    match colonHere (s.drop k) with
    | some (g, rest) => some (s.take k ++ g, rest)
    | none => colonHere s
  | none => colonHere s

/-- `re.sub(r'(\033\[[0-9;]*m)?\s*:\s*(\n|\033|$)', r'\1\2', s)`
(/repo/kolombos/arghelp.py:95). -/
def removeColons : Nat → Str → Str
  | 0, s => s
  | _ + 1, [] => []
  | n + 1, c :: r =>
    match headerColon (c :: r) with
    | some (g, rest) => g ++ removeColons n rest
    | none => c :: removeColons n r

/-- `CustomArgumentParser.format_help` (/repo/kolombos/arghelp.py:82-96) for a terminal with
`columns` columns; the epilog is `None` after the first call. -/
def formatHelp (tty : Bool) (columns : Nat) (epilog : Option Str) : Str :=
  let result := mainHelp tty (columns - 2) ++ endingHelp tty epilog
  removeColons result.length result

/-- The text that `--help` prints. -/
def helpPage (tty : Bool) (columns : Nat) : Str :=
  formatHelp tty columns (some (join ['\n'] (helpEpilog tty)))

/-- Several calls of `format_help` of one parser, for terminals with these numbers of columns:
the first call takes the epilog away (/repo/kolombos/arghelp.py:91). -/
def helpCalls (tty : Bool) : Option Str → List Nat → List Str
  | _, [] => []
  | epilog, columns :: rest => formatHelp tty columns epilog :: helpCalls tty none rest

/-- The calls of a new parser. -/
def helpPages (tty : Bool) (columns : List Nat) : List Str :=
  helpCalls tty (some (join ['\n'] (helpEpilog tty))) columns

end Kolombos
