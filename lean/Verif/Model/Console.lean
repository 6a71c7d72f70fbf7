import Verif.Model.Sgr
import Verif.Model.Settings
/-
kolombos/console.py, kolombos/common.py (the parts used without debug output)
-/
namespace Kolombos
namespace Console

/-- `Console.get_separator` (/repo/kolombos/console.py:157-159, 300-302). -/
def separator (s : Settings) : Str := span (if s.debug > 0 then [90] else [36]) ['│']

/-- `re.sub('0x', lambda m: Spans.DIM(m.group()), prefix)` (/repo/kolombos/console.py:256). -/
def dim0x : Str → Str
  | '0' :: 'x' :: r => span [2] ['0', 'x'] ++ dim0x r
  | c :: r => c :: dim0x r
  | [] => []

/-- `Console.format_prefix` (/repo/kolombos/console.py:253-257); `f` is the opening
sequence of the span, `MAIN_PREFIX_LEN` is 8. -/
def formatPrefix (s : Settings) (label : Str) (f : Sgr) : Str :=
  dim0x (span f (rjust 8 ' ' (label.take 8)) ++ separator s)

/-- The label of `Console.format_prefix_with_offset` (/repo/kolombos/console.py:261-264);
`ceil(len/2)*2` is exact integer arithmetic here. -/
def offsetLabel (s : Settings) (offset : Nat) : Str :=
  if s.decimalOffsets then dec offset
  else '0' :: 'x' :: hexPad (max 4 (((dec offset).length + 1) / 2 * 2)) offset

/-- `Console.format_prefix_with_offset` (/repo/kolombos/console.py:259-265). -/
def formatPrefixWithOffset (s : Settings) (offset : Nat) (f : Sgr) : Str :=
  formatPrefix s (offsetLabel s offset) f

/-- `Console.format_total_size` (/repo/kolombos/console.py:267-269). -/
def formatTotalSize (s : Settings) (offset : Nat) : Str := formatPrefixWithOffset s offset [36]

/-- The prefix of `ConsoleOutputBuffer.write_with_line_num`
(/repo/kolombos/console.py:38-45). -/
def linePrefix (s : Settings) (n : Nat) : Str :=
  if s.debug ≠ 0 then formatPrefix s (dec n) [32]
  else if s.noLineNumbers then []
  else span [32] (rjust 2 ' ' (dec n)) ++ separator s

/-- The prefix of `ConsoleOutputBuffer.write_with_offset`
(/repo/kolombos/console.py:51-56). -/
def offsetPrefix (s : Settings) (offset : Nat) : Str :=
  if s.printOffsets then formatPrefixWithOffset s offset [32] else []

end Console

/-- `get_terminal_width()` without `exact` (/repo/kolombos/common.py:12-20), given
`shutil.get_terminal_size().columns`. -/
def terminalWidth (columns : Int) : Int := columns - 2

end Kolombos
