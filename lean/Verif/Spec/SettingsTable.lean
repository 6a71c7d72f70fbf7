import Verif.Spec.Layout
/-
The table of settings as it looks on a terminal.
-/
namespace Kolombos.Spec
open Kolombos

/-- A setting: its name, its value, the default, and whether the two are different. -/
structure Entry where
  name : String
  value : Str
  dflt : Str
  changed : Bool

/-- Yes or no; the default is no. -/
def yesNo (name : String) (b : Bool) : Entry := ⟨name, if b then "True".toList else "False".toList, "False".toList, b⟩

/-- An integer in figures. -/
def figures : Int → Str
  | .ofNat n => Nat.toDigits 10 n
  | .negSucc n => '-' :: Nat.toDigits 10 (n + 1)

/-- A number that may be missing; missing is the default. -/
def maybe (name : String) : Option Int → Entry
  | some n => ⟨name, figures n, "None".toList, true⟩
  | none => ⟨name, "None".toList, "None".toList, false⟩

/-- The settings in alphabetical order. -/
def entries (s : Settings) (file : Option Str) : List Entry := [
  yesNo "binary" s.binary,
  maybe "buffer" s.buffer,
  yesNo "color_markers" s.colorMarkers,
  maybe "columns" s.columns,
  ⟨"debug", Nat.toDigits 10 s.debug, "0".toList, s.debug != 0⟩,
  yesNo "decimal_offsets" s.decimalOffsets,
  match s.decode with
    | some b => ⟨"decode", (yesNo "" b).value, "None".toList, true⟩
    | none => ⟨"decode", "None".toList, "None".toList, false⟩,
  yesNo "demo" s.demo,
  match file with
    | some f => ⟨"filename", f, "None".toList, true⟩
    | none => ⟨"filename", "None".toList, "None".toList, false⟩,
  yesNo "focus_binary" (s.focus .binaryData),
  yesNo "focus_control" (s.focus .controlChar),
  yesNo "focus_esc" (s.focus .escapeSeq),
  yesNo "focus_printable" (s.focus .printableChar),
  yesNo "focus_space" (s.focus .whitespace),
  yesNo "focus_utf8" (s.focus .utf8Seq),
  yesNo "hide_ignored" false,
  yesNo "ignore_binary" (s.ignore .binaryData),
  yesNo "ignore_control" (s.ignore .controlChar),
  yesNo "ignore_esc" (s.ignore .escapeSeq),
  yesNo "ignore_printable" (s.ignore .printableChar),
  yesNo "ignore_space" (s.ignore .whitespace),
  yesNo "ignore_utf8" (s.ignore .utf8Seq),
  yesNo "legend" s.legend,
  ⟨"marker", figures s.marker, "0".toList, s.marker != 0⟩,
  maybe "max_bytes" s.maxBytes,
  maybe "max_lines" s.maxLines,
  yesNo "no_line_numbers" s.noLineNumbers,
  yesNo "no_offsets" s.noOffsets,
  yesNo "no_separators" s.noSeparators,
  yesNo "squash_ignored" false,
  yesNo "text" s.text,
  yesNo "version" s.version]

/-- How the characters of a class are displayed; by default they are neither focused nor ignored. -/
def classEntry (s : Settings) (name : String) (c : CharClass) : Entry :=
  ⟨name, if s.ignore c then "DisplayMode.IGNORED".toList else if s.focus c then "DisplayMode.FOCUSED".toList else "DisplayMode.DEFAULT".toList,
    "DisplayMode.DEFAULT".toList, s.ignore c || s.focus c⟩

/-- What follows from the settings, if `-D` is given at least four times, in the order of the table.
`method` and `dfltMethod` are what is shown for a method of the program. -/
def derivedEntries (s : Settings) (method dfltMethod : Str) : List Entry := [
  ⟨"debug_buffer_contents", "True".toList, "False".toList, true⟩,
  ⟨"debug_buffer_contents_full", "True".toList, "False".toList, true⟩,
  ⟨"debug_settings", "True".toList, "False".toList, true⟩,
  ⟨"debug_settings_derived", "True".toList, "False".toList, true⟩,
  ⟨"effective_marker_details",
    if s.binary then "MarkerDetailsEnum.BINARY_STRICT".toList
    else if s.marker ≥ 2 then "MarkerDetailsEnum.FULL_DETAILS".toList
    else if s.marker = 1 then "MarkerDetailsEnum.BRIEF_DETAILS".toList
    else "MarkerDetailsEnum.NO_DETAILS".toList,
    "MarkerDetailsEnum.NO_DETAILS".toList, s.binary || decide (s.marker > 0)⟩,
  ⟨"effective_print_offsets", "True".toList, "True".toList, false⟩,
  if s.binary then ⟨"read_mode", "ReadMode.BINARY".toList, "ReadMode.TEXT".toList, true⟩
    else ⟨"read_mode", "ReadMode.TEXT".toList, "ReadMode.TEXT".toList, false⟩,
  ⟨"set_default_read_mode", method, dfltMethod, true⟩,
  classEntry s "CharClass.CONTROL_CHAR" .controlChar,
  classEntry s "CharClass.ESCAPE_SEQ" .escapeSeq,
  classEntry s "CharClass.WHITESPACE" .whitespace,
  classEntry s "CharClass.UTF_8_SEQ" .utf8Seq,
  classEntry s "CharClass.BINARY_DATA" .binaryData,
  classEntry s "CharClass.PRINTABLE_CHAR" .printableChar]

/-- A grey character. -/
def grey : Style := { fg := .basic 90 }

/-- A row: the name on the right of `w` columns, on black, bold if the value is not the default, in
italics if it is derived; a bar; the value, in yellow, or in green with the default in brackets. -/
def Entry.row (w : Nat) (derived : Bool) (e : Entry) : List (Char × Style) :=
  inStyle { bold := e.changed, italic := derived, bg := .basic 40 } (alignRight w e.name.toList) ++ inStyle grey ['│']
    ++ (if e.changed then
          inStyle { fg := .basic 32 } e.value ++ inStyle {} [' '] ++ inStyle grey (['['] ++ e.dflt ++ [']'])
        else inStyle { fg := .basic 33 } e.value)
    ++ inStyle {} ['\n']

/-- The line above the table: the bar goes down at column `w`. -/
def topLine (w : Nat) (width : Int) : List (Char × Style) :=
  inStyle { fg := .basic 90, bg := .basic 40 } (List.replicate w '─') ++ inStyle grey ['┬']
    ++ inStyle grey (List.replicate (width - (w + 1)).toNat '─') ++ inStyle {} ['\n']

/-- The line below the table: the bar of the table ends, the one of the display begins at column 8. -/
def bottomLine (w : Nat) (width : Int) : List (Char × Style) :=
  inStyle { fg := .basic 90, bg := .basic 40 } (List.replicate 8 '─' ++ ['┬'] ++ List.replicate (w - 9) '─') ++ inStyle grey ['┴']
    ++ inStyle grey (List.replicate (width - (w + 1)).toNat '─') ++ inStyle {} ['\n']

/-- The table for `-DDD`. -/
def tableView (s : Settings) (file : Option Str) (w1 w2 : Int) : List (Char × Style) :=
  topLine 19 w1
    ++ (inStyle { bold := true, bg := .basic 40 } "SETTINGS           ".toList ++ inStyle grey ['│'] ++ inStyle {} ['\n'])
    ++ (entries s file).flatMap (Entry.row 19 false)
    ++ bottomLine 19 w2

/-- The table if `-D` is given at least four times. -/
def fullTableView (s : Settings) (file : Option Str) (method dfltMethod : Str) (w1 w2 : Int) : List (Char × Style) :=
  topLine 29 w1
    ++ (inStyle { bold := true, bg := .basic 40 } "SETTINGS [".toList ++ inStyle { bold := true, italic := true, bg := .basic 40 } "DERIVED".toList
        ++ inStyle { bold := true, bg := .basic 40 } "]           ".toList ++ inStyle grey ['│'] ++ inStyle {} ['\n'])
    ++ (entries s file).flatMap (Entry.row 29 false)
    ++ (derivedEntries s method dfltMethod).flatMap (Entry.row 29 true)
    ++ bottomLine 29 w2

end Kolombos.Spec
