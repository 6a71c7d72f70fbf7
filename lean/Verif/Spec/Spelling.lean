import Verif.Spec.Args
/-
How options are written on the command line.
-/
namespace Kolombos.Spec
open Kolombos

/-- The short and the long name of an option without argument. -/
def switchName : Arg → Option Char × String
  | .flag .demo => (some 'M', "demo")
  | .flag .text => (some 't', "text")
  | .flag .binary => (some 'b', "binary")
  | .flag .legend => (some 'l', "legend")
  | .flag .version => (some 'v', "version")
  | .flag (.focus .whitespace) => (some 's', "focus-space")
  | .flag (.focus .controlChar) => (some 'c', "focus-control")
  | .flag (.focus .printableChar) => (some 'p', "focus-printable")
  | .flag (.focus .escapeSeq) => (some 'e', "focus-esc")
  | .flag (.focus .utf8Seq) => (some 'u', "focus-utf8")
  | .flag (.focus .binaryData) => (some 'i', "focus-binary")
  | .flag (.ignore .whitespace) => (some 'S', "ignore-space")
  | .flag (.ignore .controlChar) => (some 'C', "ignore-control")
  | .flag (.ignore .printableChar) => (some 'P', "ignore-printable")
  | .flag (.ignore .escapeSeq) => (some 'E', "ignore-esc")
  | .flag (.ignore .utf8Seq) => (some 'U', "ignore-utf8")
  | .flag (.ignore .binaryData) => (some 'I', "ignore-binary")
  | .flag .colorMarkers => (none, "color-markers")
  | .flag .noSeparators => (none, "no-separators")
  | .flag .noLineNumbers => (none, "no-line-numbers")
  | .flag .decode => (some 'd', "decode")
  | .flag .decimalOffsets => (none, "decimal-offsets")
  | .flag .noOffsets => (none, "no-offsets")
  | .debug => (some 'D', "debug")
  | .help => (some 'h', "help")
  | .int _ _ | .file _ => (none, "")

/-- The short and the long name of an option with an argument. -/
def numberName : IntOpt → Char × String
  | .buffer => ('f', "buffer")
  | .maxLines => ('L', "max-lines")
  | .maxBytes => ('B', "max-bytes")
  | .marker => ('m', "marker")
  | .columns => ('w', "columns")

/-- All long names. -/
def longNames : List String := [
  "demo", "text", "binary", "legend", "version", "help",
  "focus-space", "focus-control", "focus-printable", "focus-esc", "focus-utf8", "focus-binary",
  "ignore-space", "ignore-control", "ignore-printable", "ignore-esc", "ignore-utf8", "ignore-binary",
  "buffer", "max-lines", "max-bytes", "debug", "color-markers", "marker", "no-separators", "no-line-numbers",
  "columns", "decode", "decimal-offsets", "no-offsets"]

/-- All short names. -/
def shortNames : List Char := "MtblvhscpeuiSCPEUIfLBDmwd".toList

/-- The word stands for the long name: it is the name, or a beginning of it and of no other name. -/
def Means (word : Str) (name : String) : Prop :=
  word <+: name.toList ∧ ∀ other ∈ longNames, word <+: other.toList → other = name

/-- Letters for options without argument. -/
def Letters : Str → List Arg → Prop
  | [], [] => True
  | c :: cs, a :: as => (switchName a).1 = some c ∧ Letters cs as
  | _, _ => False

/-- A word that begins like an option, but is none: its letter is no short name, or it is no beginning
of a long name. -/
def Unknown : Str → Prop
  | '-' :: '-' :: r => r ≠ [] ∧ ∀ name ∈ longNames, ¬ (r.takeWhile (· ≠ '=')) <+: name.toList
  | '-' :: c :: _ => c ∉ shortNames
  | _ => False

/-- Figures, perhaps with a point before some of them, after a minus (and perhaps before a line feed). -/
def Negative (digit : Char → Bool) (w : Str) : Prop :=
  ∃ a b z, (∀ c ∈ a ++ b, digit c = true) ∧ (z = [] ∨ z = ['\n']) ∧
    ((w = '-' :: (a ++ z) ∧ b = [] ∧ a ≠ []) ∨ (w = '-' :: (a ++ '.' :: b ++ z) ∧ b ≠ []))

/-- Figures: of ASCII those are `0` to `9`. -/
def Figures (digit : Char → Bool) : Prop := ∀ c, c.toNat < 128 → (digit c = true ↔ '0' ≤ c ∧ c ≤ '9')

/-- The word is no option: it does not begin with a minus, or is just a minus, or it is a negative
number or has a blank in it (and is no option otherwise). -/
def IsArgument (digit : Char → Bool) (w : Str) : Prop :=
  w.head? ≠ some '-' ∨ w = ['-'] ∨ (Unknown w ∧ (Negative digit w ∨ ' ' ∈ w))

/-- The words of a command line and what they stand for; `toInt` is how numbers are written. -/
inductive Spelled (digit : Char → Bool) (toInt : Str → Option Int) : List Str → List Arg → Prop
  | nil : Spelled digit toInt [] []
  /-- `--binary`, `--bin` -/
  | long (w : Str) (a : Arg) {ws : List Str} {as : List Arg} : Means w (switchName a).2 → w ≠ [] →
      Spelled digit toInt ws as → Spelled digit toInt (('-' :: '-' :: w) :: ws) (a :: as)
  /-- `--columns=16`, `--colu=16` -/
  | longValue (w : Str) (o : IntOpt) (v : Str) {ws : List Str} {as : List Arg} : Means w (numberName o).2 → w ≠ [] →
      Spelled digit toInt ws as → Spelled digit toInt (('-' :: '-' :: w ++ '=' :: v) :: ws) (.int o (toInt v) :: as)
  /-- `--columns 16`, `--colu 16` -/
  | longNext (w : Str) (o : IntOpt) (v : Str) {ws : List Str} {as : List Arg} : Means w (numberName o).2 → w ≠ [] →
      IsArgument digit v → Spelled digit toInt ws as → Spelled digit toInt (('-' :: '-' :: w) :: v :: ws) (.int o (toInt v) :: as)
  /-- `-b`, `-DDD`, `-USP` -/
  | letters (cs : Str) (l : List Arg) {ws : List Str} {as : List Arg} : Letters cs l → cs ≠ [] →
      Spelled digit toInt ws as → Spelled digit toInt (('-' :: cs) :: ws) (l ++ as)
  /-- `-w16`, `-Dw16`, `-w=16` -/
  | lettersValue (cs : Str) (l : List Arg) (o : IntOpt) (c : Char) (v : Str) {ws : List Str} {as : List Arg} : Letters cs l →
      Spelled digit toInt ws as →
      Spelled digit toInt (('-' :: cs ++ (numberName o).1 :: c :: v) :: ws)
        (l ++ .int o (toInt (if c = '=' then v else c :: v)) :: as)
  /-- `-w 16`, `-Dw 16` -/
  | lettersNext (cs : Str) (l : List Arg) (o : IntOpt) (v : Str) {ws : List Str} {as : List Arg} : Letters cs l →
      IsArgument digit v → Spelled digit toInt ws as →
      Spelled digit toInt (('-' :: cs ++ [(numberName o).1]) :: v :: ws) (l ++ .int o (toInt v) :: as)
  /-- a file name -/
  | file (v : Str) {ws : List Str} {as : List Arg} : IsArgument digit v → Spelled digit toInt ws as →
      Spelled digit toInt (v :: ws) (.file v :: as)
  /-- file names after `--` -/
  | files (v : Str) (vs : List Str) : Spelled digit toInt (['-', '-'] :: v :: vs) ((v :: vs).map .file)

/-- The same with a `--` at the end that has no file name after it. -/
def Written (digit : Char → Bool) (toInt : Str → Option Int) (ws : List Str) (as : List Arg) : Prop :=
  Spelled digit toInt ws as ∨ ∃ front, ws = front ++ [['-', '-']] ∧ Spelled digit toInt front as

end Kolombos.Spec
