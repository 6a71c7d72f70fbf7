import Verif.Model.Run
import Verif.Model.Console
import Verif.Model.Segment
/-
kolombos/byteio/formatter/
-/
namespace Kolombos

/-- `AbstractFormatter._seg_raw_to_hex` (/repo/kolombos/byteio/formatter/_abstract.py:27-28). -/
def segRawToHex (g : Segment) : Str := g.raw.flatMap fun b => ' ' :: hexPad 2 b.toNat

/-- `AbstractFormatter._seg_processed_noop` (/repo/kolombos/byteio/formatter/_abstract.py:41-42). -/
def segProcessed (g : Segment) : Str := g.processed

namespace BinaryFormatter

/-- `BinaryFormatter._compute_cols_num` (/repo/kolombos/byteio/formatter/binary.py:92-111):
`chunk_len` = 3*4 + 3 + 2; the float division is exact floor division here. -/
def computeCols (columns : Int) (offsetLen : Nat) : Int :=
  ((terminalWidth columns - offsetLen - 1) / 17) * 4

/-- The number of columns used by one call of `format`
(/repo/kolombos/byteio/formatter/binary.py:35-38); `term` is the number of columns of
the terminal at that moment. -/
def curCols (s : Settings) (term : Int) (offset : Nat) : Int :=
  match s.columns with
  | some c => c
  | none => computeCols term (Console.formatPrefixWithOffset s offset []).length

/-- One output row (/repo/kolombos/byteio/formatter/binary.py:60-80). -/
def row (s : Settings) (cols : Int) (offset dataLen : Nat) (out : List Chainable) : Str :=
  Console.offsetPrefix s offset
    ++ (SegmentBuffer.format segRawToHex out
        ++ pyRepeat [' ', ' ', ' '] (cols - dataLen)
        ++ [' ']
        ++ (if s.printOffsets then Console.separator s else [' '])
        ++ SegmentBuffer.format segProcessed out)
    ++ ['\n']

/-- The `while True` loop (/repo/kolombos/byteio/formatter/binary.py:44-82): writes the
rows, ends with the segment buffer and the offset. -/
def loop (s : Settings) (cols req : Int) (closed : Bool) :
    Nat → SegmentBuffer → Nat → Run (SegmentBuffer × Nat)
  | 0, _, _ => ⟨[], .timeout⟩
  | n + 1, buf, offset =>
    match buf.detachBytes req closed with
    | .error e => .fail e
    | .ok (.wait, buf') => .pure (buf', offset)
    | .ok (.eof, buf') => .pure (buf', offset)
    | .ok (.ok out, buf') =>
      .write (row s cols offset buf'.lastLen out) (loop s cols req closed n buf' (offset + buf'.lastLen))

/-- `BinaryFormatter.format` (/repo/kolombos/byteio/formatter/binary.py:34-87), without
debug output. -/
def format (fuel : Nat) (s : Settings) (term : Int) (closed : Bool) (buf : SegmentBuffer)
    (offset : Nat) : Run (SegmentBuffer × Nat) :=
  let cols := curCols s term offset
  let req := if closed then min (buf.dataLen : Int) cols else cols
  (loop s cols req closed fuel buf offset).bind fun r =>
    if closed ∧ s.printOffsets then
      .write (Console.formatTotalSize s r.2 ++ ['\n']) (.pure r)
    else .pure r

end BinaryFormatter

namespace TextFormatter

/-- Python's `s.endswith('\n')`. -/
def endsWithNewline (s : Str) : Bool := s.getLast? == some '\n'

/-- One printed line (/repo/kolombos/byteio/formatter/text.py:40-48). -/
def line (s : Settings) (lineNum : Nat) (out : List Chainable) : Str :=
  let final := SegmentBuffer.format segProcessed out
  Console.linePrefix s lineNum ++ final
    ++ (if endsWithNewline (stripSgr final) then [] else ['\n'])

/-- The `while True` loop of `TextFormatter.format`
(/repo/kolombos/byteio/formatter/text.py:24-51): ends with the segment buffer, the
offset and the next line number. -/
def format (s : Settings) (closed : Bool) :
    Nat → SegmentBuffer → Nat → Nat → Run (SegmentBuffer × Nat × Nat)
  | 0, _, _, _ => ⟨[], .timeout⟩
  | n + 1, buf, offset, lineNum =>
    match buf.detachLine closed with
    | .error e => .fail e
    | .ok (.wait, buf') => .pure (buf', offset, lineNum)
    | .ok (.eof, buf') => .pure (buf', offset, lineNum)
    | .ok (.ok out, buf') =>
      .write (line s lineNum out) (format s closed n buf' (offset + buf'.lastLen) (lineNum + 1))

end TextFormatter

end Kolombos
