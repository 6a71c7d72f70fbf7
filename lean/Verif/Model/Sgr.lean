import Verif.Model.Base
import Verif.Model.Regex
/-
pytermor: SGR sequences, closing sequences, spans, removal of SGR codes.
-/
namespace Kolombos

/-- `SequenceSGR`, represented by its parameter list
(/repo/pytermor/ansi.py:41-42, 118-151).  The constructor clamps negative
integers to 0; all integers reaching it here are non-negative, so the list holds
naturals.  Construction from names is not modelled. -/
abbrev Sgr := List Nat

namespace Sgr

/-- `SequenceSGR.assemble` (/repo/pytermor/ansi.py:192-203). -/
def assemble (s : Sgr) : Str :=
  if s.length = 0 then []
  else
    let params := if s = [0] then [] else s
    '\x1b' :: '[' :: (join [';'] (params.map dec) ++ ['m'])

/-- `SequenceSGR.__add__` (/repo/pytermor/ansi.py:208-210). -/
def add (a b : Sgr) : Sgr := a ++ b

/-- `SequenceSGR.__hash__` (/repo/pytermor/ansi.py:205-206): the assembled string is
ASCII, so its encoding is the list of code points. -/
def hash (s : Sgr) : Nat := (assemble s).foldl (fun n c => n * 256 + c.toNat) 0

/-- `SequenceSGR.__eq__` (/repo/pytermor/ansi.py:218-221), both arguments being `SequenceSGR`. -/
def eq (a b : Sgr) : Bool := a == b

/-- `SequenceSGR.init_color_indexed` (/repo/pytermor/ansi.py:153-167) for a valid index
(the code only calls it with constants below 256). -/
def colorIndexed (idx : Nat) (bg : Bool := false) : Sgr := [if bg then 48 else 38, 5, idx]

/-- `_SgrPairityRegistry._code_to_breaker_map` for single codes
(/repo/pytermor/ansi.py:599-618). -/
def breaker (code : Nat) : Option Nat :=
  if code = 1 ∨ code = 2 then some 22
  else if code = 3 then some 23
  else if code = 4 ∨ code = 21 then some 24
  else if code = 5 ∨ code = 6 then some 25
  else if code = 7 then some 27
  else if code = 8 then some 28
  else if code = 9 then some 29
  else if code = 53 then some 55
  else if (30 ≤ code ∧ code ≤ 38) ∨ (90 ≤ code ∧ code ≤ 97) then some 39
  else if (40 ≤ code ∧ code ≤ 48) ∨ (100 ≤ code ∧ code ≤ 107) then some 49
  else none

/-- `_complex_code_def` and the breaker of a complex code: number of parameters
after the two-element key, and the closing code (/repo/pytermor/ansi.py:620-623, 634-644). -/
def complexDef : List Nat → Option (Nat × Nat)
  | [38, 5] => some (1, 39)
  | [38, 2] => some (3, 39)
  | [48, 5] => some (1, 49)
  | [48, 2] => some (3, 49)
  | _ => none

/-- The `for complex_len in range(1, min(len(opening_params), 6))` search of
`get_closing_seq` (/repo/pytermor/ansi.py:654-663), `_complex_code_max_len` being 5:
the first prefix that is a complex code: its length, parameter count, breaker. -/
def findComplex (params : List Nat) : Option (Nat × Nat × Nat) :=
  ((List.range' 1 (min params.length 6 - 1)).findSome? fun n =>
    (complexDef (params.take n)).map fun d => (n, d.1, d.2))

/-- `_SgrPairityRegistry.get_closing_seq` (/repo/pytermor/ansi.py:647-672); the first
argument bounds the number of loop rounds (the parameter list shrinks in each). -/
def closingAux : Nat → List Nat → Sgr
  | 0, _ => []
  | _ + 1, [] => []
  | n + 1, p :: ps =>
    match findComplex (p :: ps) with
    | some (len, cnt, brk) => brk :: closingAux n ((p :: ps).drop (len + cnt))
    | none =>
      match breaker p with
      | some brk => brk :: closingAux n ps
      | none => closingAux n ps

/-- `Span(seq).closing_seq` (/repo/pytermor/ansi.py:281-286, 647-672). -/
def closing (s : Sgr) : Sgr := closingAux s.length s

end Sgr

/-- `Span(seq)(text)` (/repo/pytermor/ansi.py:311-327). -/
def span (s : Sgr) (text : Str) : Str := s.assemble ++ text ++ (Sgr.closing s).assemble

/-- `SGR_REGEXP` = `(\x1b)(\[)(([0-9;])*)(m)` (/repo/pytermor/util/string_filter.py:27). -/
def sgrRegexp : Re Char :=
  .seq (.grp 1 (.cls (· == '\x1b')))
    (.seq (.grp 2 (.cls (· == '[')))
      (.seq (.grp 3 (.star (.grp 4 (.cls fun c => c.isDigit || c == ';'))))
        (.grp 5 (.cls (· == 'm')))))

/-- `ReplaceSGR('').apply(s)` (/repo/pytermor/util/string_filter.py:89-98, 70-72). -/
def stripSgr (s : Str) : Str := sgrRegexp.sub (fun _ => []) s

/-- `ljust_sgr` (/repo/pytermor/util/stdlib_ext.py:12-20). -/
def ljustSgr (s : Str) (width : Int) (fill : Char) : Str :=
  s ++ pyRepeat [fill] (max 0 (width - (stripSgr s).length))

/-- `rjust_sgr` (/repo/pytermor/util/stdlib_ext.py:23-31). -/
def rjustSgr (s : Str) (width : Int) (fill : Char) : Str :=
  pyRepeat [fill] (max 0 (width - (stripSgr s).length)) ++ s

/-- `center_sgr` (/repo/pytermor/util/stdlib_ext.py:34-53). -/
def centerSgr (s : Str) (width : Int) (fill : Char) : Str :=
  let fillLen := max 0 (width - (stripSgr s).length)
  if fillLen = 0 then s
  else
    let right := fillLen / 2
    let left := fillLen - right
    pyRepeat [fill] left ++ s ++ pyRepeat [fill] right

end Kolombos
