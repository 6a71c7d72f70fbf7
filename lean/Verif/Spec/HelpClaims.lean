import Verif.Spec.HelpPage
import Verif.Spec.Spelling
/-
What the help page tells about the options.
-/
namespace Kolombos.Spec
open Kolombos

/-- The words on the page, colons at their ends left aside. -/
def pageWordsOf (page : Str) : List Str := (shownWords page).map noColon

/-- The words of the sentence follow each other on the page. -/
def PageHas (page : Str) (sentence : Str) : Prop := (words sentence).map noColon <:+: pageWordsOf page

/-- What the page says about an option: the words after the first place where its long name is, up to
the next word that begins with a minus. -/
def saidAbout (page : Str) (long : String) : List Str :=
  (((pageWordsOf page).dropWhile (· ≠ '-' :: '-' :: long.toList)).drop 1).takeWhile fun w => w.head? ≠ some '-'

/-- The default value that the page gives for an option, if it is a single word: `[default: 5]`. -/
def defaultOnPage (page : Str) (long : String) : Option Str :=
  match (saidAbout page long).dropWhile (· ≠ ['[', 'd', 'e', 'f', 'a', 'u', 'l', 't']) with
  | _ :: v :: _ => if v.getLast? = some ']' then some v.dropLast else none
  | _ => none

/-- The mode a command line asks for: the one of `-b` or `-t`; without these, the demonstration is in
binary mode (unless there are four `-D`, see C34), everything else is in text mode. -/
def displayedIn (args : List Arg) : ReadMode :=
  if .flag .binary ∈ args then .binary
  else if .flag .text ∈ args then .text
  else if .flag .demo ∈ args ∧ args.count .debug < 4 then .binary
  else .text

/-- A word of a title (five or more capital letters) or the first word of a sentence (a capital letter and a
small one). -/
def endsList (w : Str) : Bool :=
  let capital : Char → Bool := fun c => decide ('A' ≤ c) && decide (c ≤ 'Z')
  (decide (5 ≤ w.length) && w.all capital) ||
    match w with
    | c :: d :: _ => capital c && decide ('a' ≤ d) && decide (d ≤ 'z')
    | _ => false

/-- What follows the first place where the words stand. -/
def following (title : List Str) : List Str → List Str
  | [] => []
  | w :: ws => if title.isPrefixOf (w :: ws) then (w :: ws).drop title.length else following title ws

/-- The long names under a title on the page, up to the next title or the remarks. -/
def optionsUnder (page title : Str) : List Str :=
  ((following (words title) (pageWordsOf page)).takeWhile fun w => !endsList w).filter fun w => ['-', '-'].isPrefixOf w

/-- The titles of the options for the modes. -/
def titleOf : ReadMode → Str
  | .text => "TEXT MODE OPTIONS".toList
  | .binary => "BINARY MODE OPTIONS".toList

/-- The long name of an option, with the minus signs. -/
def longNameOf : Arg → Str
  | .int o _ => '-' :: '-' :: (numberName o).2.toList
  | a => '-' :: '-' :: (switchName a).2.toList

/-- The options that the page lists under TEXT MODE OPTIONS and BINARY MODE OPTIONS. -/
inductive OptionOf : ReadMode → Arg → Prop
  | marker (v : Int) : OptionOf .text (.int .marker (some v))
  | noSeparators : OptionOf .text (.flag .noSeparators)
  | noLineNumbers : OptionOf .text (.flag .noLineNumbers)
  | columns (v : Int) : OptionOf .binary (.int .columns (some v))
  | decode : OptionOf .binary (.flag .decode)
  | decimalOffsets : OptionOf .binary (.flag .decimalOffsets)
  | noOffsets : OptionOf .binary (.flag .noOffsets)

/-- The commands on a page: the words of the lines that begin with the name of the program and have no
placeholder in them, without this name. -/
def commandsOn (page : Str) : List (List Str) :=
  ((linesOf page).map fun l => words (uncoloured false l)).filterMap fun ws =>
    match ws with
    | [] => none
    | p :: r => if p = ['k', 'o', 'l', 'o', 'm', 'b', 'o', 's'] ∧ ∀ w ∈ r, '<' ∉ w ∧ '[' ∉ w then some r else none

/-- The commands that the page should show, with what it says about them and what they ask for. -/
def documented : List (String × List String × List Arg) := [
  ("", ["--legend"], [.flag .legend]),
  ("", ["--version"], [.flag .version]),
  ("", ["--help"], [.help]),
  ("Read file in text mode, highlight escape sequences, marker verbosity 2 (max)",
    ["--focus-esc", "-m2", "file.txt"], [.flag (.focus .escapeSeq), .int .marker (some 2), .file "file.txt".toList]),
  ("Read file in binary mode, ignore whitespace, printables and UTF-8 sequences",
    ["--binary", "-USP", "file.bin"],
    [.flag .binary, .flag (.ignore .utf8Seq), .flag (.ignore .whitespace), .flag (.ignore .printableChar), .file "file.bin".toList]),
  ("Read stdin in binary mode, highlight control characters, process 128 first bytes and exit",
    ["--binary", "--focus-control", "-B128"], [.flag .binary, .flag (.focus .controlChar), .int .maxBytes (some 128)]),
  ("Show demo in binary mode, 32 bytes per line, with decimal offsets",
    ["-w32", "--decimal-offsets", "--demo"], [.int .columns (some 32), .flag .decimalOffsets, .flag .demo]),
  ("Display annotation symbol list and color map", ["--legend"], [.flag .legend])]

end Kolombos.Spec
