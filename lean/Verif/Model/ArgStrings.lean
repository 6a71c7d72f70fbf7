import Verif.Model.Args
/-
kolombos/arghelp.py: the strings of the command line.  `argparse` is the one of Python 3.11
(`argparse.py` of the standard library, its line numbers are given as argparse.py:…); it is not a
part of /repo, but all options of the program pass through it.
-/
namespace Kolombos

/-- The actions that have option strings. -/
inductive Opt where
  | flag (f : Flag)
  | int (o : IntOpt)
  | debug
  | help
  deriving DecidableEq, Repr

/-- `_option_string_actions`, in the order of the `add_argument` calls
(/repo/kolombos/arghelp.py:147-199). -/
def optionTable : List (String × Opt) := [
  ("-M", .flag .demo), ("--demo", .flag .demo),
  ("-t", .flag .text), ("--text", .flag .text),
  ("-b", .flag .binary), ("--binary", .flag .binary),
  ("-l", .flag .legend), ("--legend", .flag .legend),
  ("-v", .flag .version), ("--version", .flag .version),
  ("-h", .help), ("--help", .help),
  ("-s", .flag (.focus .whitespace)), ("--focus-space", .flag (.focus .whitespace)),
  ("-c", .flag (.focus .controlChar)), ("--focus-control", .flag (.focus .controlChar)),
  ("-p", .flag (.focus .printableChar)), ("--focus-printable", .flag (.focus .printableChar)),
  ("-e", .flag (.focus .escapeSeq)), ("--focus-esc", .flag (.focus .escapeSeq)),
  ("-u", .flag (.focus .utf8Seq)), ("--focus-utf8", .flag (.focus .utf8Seq)),
  ("-i", .flag (.focus .binaryData)), ("--focus-binary", .flag (.focus .binaryData)),
  ("-S", .flag (.ignore .whitespace)), ("--ignore-space", .flag (.ignore .whitespace)),
  ("-C", .flag (.ignore .controlChar)), ("--ignore-control", .flag (.ignore .controlChar)),
  ("-P", .flag (.ignore .printableChar)), ("--ignore-printable", .flag (.ignore .printableChar)),
  ("-E", .flag (.ignore .escapeSeq)), ("--ignore-esc", .flag (.ignore .escapeSeq)),
  ("-U", .flag (.ignore .utf8Seq)), ("--ignore-utf8", .flag (.ignore .utf8Seq)),
  ("-I", .flag (.ignore .binaryData)), ("--ignore-binary", .flag (.ignore .binaryData)),
  ("-f", .int .buffer), ("--buffer", .int .buffer),
  ("-L", .int .maxLines), ("--max-lines", .int .maxLines),
  ("-B", .int .maxBytes), ("--max-bytes", .int .maxBytes),
  ("-D", .debug), ("--debug", .debug),
  ("--color-markers", .flag .colorMarkers),
  ("-m", .int .marker), ("--marker", .int .marker),
  ("--no-separators", .flag .noSeparators),
  ("--no-line-numbers", .flag .noLineNumbers),
  ("-w", .int .columns), ("--columns", .int .columns),
  ("-d", .flag .decode), ("--decode", .flag .decode),
  ("--decimal-offsets", .flag .decimalOffsets),
  ("--no-offsets", .flag .noOffsets)]

/-- The keys as lists of characters. -/
def optionStrings : List (Str × Opt) := optionTable.map fun e => (e.1.toList, e.2)

/-- `_option_string_actions.get(s)`. -/
def findOpt (s : Str) : Option Opt := (optionStrings.find? fun e => e.1 = s).map Prod.snd

/-- What `_parse_optional` finds: the action (`none`: there is no such option), the option string,
the separator (`''` or `'='`), the argument in the same string. -/
structure OptTuple where
  action : Option Opt
  name : Str
  sep : Option Str
  explicit : Option Str
  deriving DecidableEq, Repr

/-- `s.partition('=')`. -/
def partitionEq (s : Str) : Str × Str × Str :=
  let before := s.takeWhile (· ≠ '=')
  match s.drop before.length with
  | [] => (s, [], [])
  | c :: r => (before, [c], r)

/-- `_get_option_tuples` (argparse.py:2300-2340). -/
def optionTuples (s : Str) : List OptTuple :=
  match s with
  | '-' :: '-' :: _ =>
    let (before, sep, explicit) := partitionEq s
    optionStrings.filterMap fun e =>
      if before.isPrefixOf e.1 then
        some (if sep = [] then ⟨some e.2, e.1, none, none⟩ else ⟨some e.2, e.1, some sep, some explicit⟩)
      else none
  | _ =>
    optionStrings.filterMap fun e =>
      if e.1 = s.take 2 then some ⟨some e.2, e.1, some [], some (s.drop 2)⟩
      else if s.isPrefixOf e.1 then some ⟨some e.2, e.1, none, none⟩
      else none

/-- `_negative_number_matcher.match(s)` (argparse.py:1386): `^-\d+$|^-\d*\.\d+$`; `digit` is `\d`,
which includes digits of other scripts.  `$` is also before a line feed at the end. -/
def negativeNumber (digit : Char → Bool) (s : Str) : Bool :=
  let s := if s.getLast? = some '\n' then s.dropLast else s
  match s with
  | '-' :: r =>
    (!r.isEmpty && r.all digit) ||
      (match r.dropWhile digit with
        | '.' :: q => !q.isEmpty && q.all digit
        | _ => false)
  | _ => false

/-- How a string is classified: `O`, `A`, `-`. -/
inductive ArgClass where
  | opt (t : OptTuple)
  | arg
  | dashes
  deriving DecidableEq, Repr

/-- `_parse_optional` (argparse.py:2243-2298); `none` if `error` is called. -/
def parseOptional (digit : Char → Bool) (s : Str) : Option ArgClass :=
  if s = [] then some .arg
  else if s.head? ≠ some '-' then some .arg
  else match findOpt s with
  | some a => some (.opt ⟨some a, s, none, none⟩)
  | none =>
    if s.length = 1 then some .arg
    else
      let (before, sep, explicit) := partitionEq s
      match (if sep ≠ [] then findOpt before else none) with
      | some a => some (.opt ⟨some a, before, some sep, some explicit⟩)
      | none =>
        match optionTuples s with
        | _ :: _ :: _ => none
        | [t] => some (.opt t)
        | [] =>
          if negativeNumber digit s then some .arg
          else if ' ' ∈ s then some .arg
          else some (.opt ⟨none, s, none, none⟩)

/-- The classification of all strings (argparse.py:1936-1959): after `--` there are arguments only. -/
def classify (digit : Char → Bool) : List Str → Option (List (Str × ArgClass))
  | [] => some []
  | s :: r =>
    if s = ['-', '-'] then some ((s, .dashes) :: r.map fun t => (t, .arg))
    else match parseOptional digit s with
    | none => none
    | some c => (classify digit r).map fun q => (s, c) :: q

/-- What happens while the strings are consumed. -/
inductive Tok where
  /-- an action is taken -/
  | arg (a : Arg)
  /-- a string is left over -/
  | extra
  /-- `ArgumentError` -/
  | bad
  deriving DecidableEq, Repr

/-- An action without argument (`nargs=0`); `none` for those with one. -/
def Opt.switch : Opt → Option Arg
  | .flag f => some (.flag f)
  | .debug => some .debug
  | .help => some .help
  | .int _ => none

/-- `consume_optional` without an argument in the same string (argparse.py:2041-2050): `toInt` is
`int()`, `next` is the next string if it is an argument, `acc` are the actions collected so far.  The
result: what happens, and whether the next string is used up. -/
def takeNext (toInt : Str → Option Int) (next : Option Str) (action : Opt) (acc : List Tok) : List Tok × Bool :=
  match action with
  | .flag f => (acc ++ [.arg (.flag f)], false)
  | .debug => (acc ++ [.arg .debug], false)
  | .help => (acc ++ [.arg .help], false)
  | .int o =>
    match next with
    | some v => (acc ++ [.arg (.int o (toInt v))], true)
    | none => ([.bad], false)

/-- `consume_optional` with an argument in the same string (argparse.py:1997-2039): the argument, or
further options of one letter.  `long` if the option string is a long one, `sep` if the separator is
`=`. -/
def takeExplicit (toInt : Str → Option Int) (next : Option Str) (action : Opt) (long sep : Bool) (explicit : Str) (acc : List Tok) : List Tok × Bool :=
  match action.switch, action with
  | some a, _ =>
    if long then ([.bad], false)
    else match explicit with
    | [] => ([.bad], false)
    | c :: r =>
      if sep ∨ c = '-' then ([.bad], false)
      else match findOpt ['-', c] with
      | none => (acc ++ [.arg a, .extra], false)
      | some b =>
        match r with
        | [] => takeNext toInt next b (acc ++ [.arg a])
        | d :: q =>
          if d = '=' then takeExplicit toInt next b false true q (acc ++ [.arg a])
          else takeExplicit toInt next b false false (d :: q) (acc ++ [.arg a])
  | none, .int o => (acc ++ [.arg (.int o (toInt explicit))], false)
  | none, _ => ([.bad], false)
  termination_by structural explicit

/-- `consume_optional` (argparse.py:1986-2072) if there is such an option. -/
def consumeOptional (toInt : Str → Option Int) (next : Option Str) (action : Opt) (t : OptTuple) : List Tok × Bool :=
  match t.explicit with
  | none => takeNext toInt next action []
  | some e => takeExplicit toInt next action ((t.name.drop 1).head? = some '-') (t.sep.getD [] ≠ []) e []

/-- The main loop (argparse.py:2094-2136): `taken` if the positional argument is used up.  Its pattern
is `(-*A?-*)`, and it gets the strings without the first `--` (argparse.py:2477-2481). -/
def consume (toInt : Str → Option Int) : List (Str × ArgClass) → Bool → List Tok
  | [], _ => []
  | (_, .opt t) :: r, taken =>
    match t.action with
    | none => .extra :: consume toInt r taken
    | some a =>
      match r with
      | (v, .arg) :: q =>
        let x := consumeOptional toInt (some v) a t
        x.1 ++ (if x.2 then consume toInt q taken else consume toInt ((v, .arg) :: q) taken)
      | r => (consumeOptional toInt none a t).1 ++ consume toInt r taken
  | (s, .arg) :: r, taken =>
    if taken then .extra :: consume toInt r taken
    else match r with
    | (_, .dashes) :: q => .arg (.file s) :: consume toInt q true
    | r => .arg (.file s) :: consume toInt r true
  | (_, .dashes) :: r, taken =>
    if taken then .extra :: consume toInt r taken
    else match r with
    | (v, .arg) :: q => .arg (.file v) :: consume toInt q true
    | r => consume toInt r true
  termination_by structural l => l

/-- `take_action` for one event after the other (argparse.py:1965-1983), and the end of `parse_args`
(argparse.py:1873-1878): left-over strings are an error. -/
def runToks : List Tok → List Arg → Settings → Option Str → Bool → Parsed
  | [], _, s, file, extra => if extra then .usage else .run s file
  | .bad :: _, _, _, _, _ => .usage
  | .extra :: r, seen, s, file, _ => runToks r seen s file true
  | .arg a :: r, seen, s, file, extra =>
    let conflict := seen.any fun b => !a.sameAction b && a.group.isSome && decide (a.group = b.group)
    match a with
    | .file name => if conflict then .usage else runToks r (a :: seen) s (some name) extra
    | .flag f => if conflict then .usage else runToks r (a :: seen) (s.setFlag f) file extra
    | .int o v =>
      match v with
      | none => .usage
      | some v => runToks r (a :: seen) (s.setInt v o) file extra
    | .debug => runToks r (a :: seen) { s with debug := s.debug + 1 } file extra
    | .help => .help

/-- `AppArgumentParser().parse_args(namespace=Settings())` for the strings of the command line
(/repo/kolombos/app.py:24-26). -/
def parseStrings (digit : Char → Bool) (toInt : Str → Option Int) (args : List Str) : Parsed :=
  match classify digit args with
  | none => .usage
  | some l => runToks (consume toInt l false) [] {} none false

/-- The program, from the strings of the command line on. -/
def programOf (digit : Char → Bool) (toInt : Str → Option Int) (fuel : Nat) (w : World) (args : List Str) : Exit :=
  match parseStrings digit toInt args with
  | .help => ⟨w.help, some 0⟩
  | .usage => ⟨[], some 2⟩
  | .run s name =>
    appRun fuel s w.term (w.open s name).1 (w.open s name).2 (legendText w.legend) (versionText w.version w.pytermor)

end Kolombos
