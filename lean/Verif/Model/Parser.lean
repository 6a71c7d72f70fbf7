import Verif.Model.Regex
import Verif.Model.Template
/-
kolombos/byteio/parser/
-/
namespace Kolombos

/-- `ParserBuffer` (/repo/kolombos/byteio/parser/buffer.py:12-15). -/
structure ParserBuffer where
  raw : Bytes := []
  closed : Bool := false

/-- `bytes.find`: offset of the first occurrence of `needle`. -/
def findSub {α : Type} [DecidableEq α] (needle : List α) : List α → Option Nat
  | [] => if needle = [] then some 0 else none
  | a :: s =>
    if needle.isPrefixOf (a :: s) then some 0
    else (findSub needle s).map (· + 1)

namespace ParserBuffer

/-- `ParserBuffer.append_raw` (/repo/kolombos/byteio/parser/buffer.py:19-26). -/
def appendRaw (b : ParserBuffer) (raw : Bytes) (finish : Bool) : ParserBuffer :=
  { raw := b.raw ++ raw, closed := finish }

/-- `ParserBuffer.crop_raw` (/repo/kolombos/byteio/parser/buffer.py:31-44). -/
def cropRaw (b : ParserBuffer) (new : Bytes) : Except Err ParserBuffer :=
  if new.length = 0 then .ok { b with raw := [] }
  else match findSub new b.raw with
    | none => .error .runtimeError
    | some off => .ok { b with raw := b.raw.drop off }

end ParserBuffer

/-- A character class of the pattern: `[lo-hi]`. -/
def cr (lo hi : Nat) : Re Byte := .cls (inRng lo hi)

/-- A literal byte of the pattern. -/
def lit (n : Nat) : Re Byte := .cls fun b => b.toNat == n

/-- Alternatives of a list, in order. -/
def altL {α : Type} : List (Re α) → Re α
  | [] => .cls fun _ => false
  | [r] => r
  | r :: s :: t => .alt r (altL (s :: t))

/-- Sequence of a list. -/
def seqL {α : Type} : List (Re α) → Re α
  | [] => .eps
  | [r] => r
  | r :: s :: t => .seq r (seqL (s :: t))

/-- Group [0] of `F_SEPARATOR`, one UTF-8 sequence of two or more bytes
(/repo/kolombos/byteio/parser/parser.py:30-38). -/
def reUtf8 : Re Byte := altL [
  seqL [cr 0xc2 0xdf, cr 0x80 0xbf],
  seqL [lit 0xe0, cr 0xa0 0xbf, cr 0x80 0xbf],
  seqL [.cls fun b => inRng 0xe1 0xec b || b.toNat == 0xee || b.toNat == 0xef,
        cr 0x80 0xbf, cr 0x80 0xbf],
  seqL [lit 0xed, cr 0x80 0x9f, cr 0x80 0xbf],
  seqL [lit 0xf0, cr 0x90 0xbf, cr 0x80 0xbf, cr 0x80 0xbf],
  seqL [cr 0xf1 0xf3, cr 0x80 0xbf, cr 0x80 0xbf, cr 0x80 0xbf],
  seqL [lit 0xf4, cr 0x80 0x8f, cr 0x80 0xbf, cr 0x80 0xbf]]

/-- `Parser.F_SEPARATOR` (/repo/kolombos/byteio/parser/parser.py:29-60).  The comments of the
source number the groups from 0, python's `group(n)` and this tree from 1. -/
def fSeparator : Re Byte := altL [
  .grp 1 reUtf8,
  .grp 2 (.plus (cr 0x80 0xff)),
  .grp 3 (seqL [.grp 4 (lit 0x1b), .grp 5 (lit 0x5b), .grp 6 (.star (cr 0x30 0x3f)),
                .grp 7 (.star (cr 0x20 0x2f)), .grp 8 (cr 0x40 0x7e)]),
  .grp 9 (seqL [.grp 10 (lit 0x1b), .grp 11 (cr 0x20 0x2f), .grp 12 (.star (cr 0x20 0x2f)),
                .grp 13 (cr 0x30 0x7e)]),
  .grp 14 (seqL [.grp 15 (lit 0x1b), .grp 16 (cr 0x30 0x3f)]),
  .grp 17 (seqL [.grp 18 (lit 0x1b), .grp 19 (cr 0x40 0x5f)]),
  .grp 20 (seqL [.grp 21 (lit 0x1b), .grp 22 (cr 0x60 0x7e)]),
  .grp 23 (.plus (.cls fun b => inRng 0x01 0x07 b || inRng 0x0e 0x1a b || inRng 0x1c 0x1f b)),
  .grp 24 (.plus (lit 0x00)),
  .grp 25 (.plus (lit 0x08)),
  .grp 26 (lit 0x1b),
  .grp 27 (.plus (lit 0x7f)),
  .grp 28 (.plus (lit 0x09)),
  .grp 29 (lit 0x0a),
  .grp 30 (.plus (lit 0x0b)),
  .grp 31 (.plus (lit 0x0c)),
  .grp 32 (.plus (lit 0x0d)),
  .grp 33 (.plus (lit 0x20)),
  .grp 34 (.plus (cr 0x21 0x7e))]

/-- `primary_mgroup` of `Parser._substitute`
(/repo/kolombos/byteio/parser/parser.py:101-102): the smallest index of a non-empty
group (index = group number - 1); `min` of nothing is a `ValueError`. -/
def primaryMgroup (m : Match Byte) : Except Err Nat :=
  match ((m.caps.filter fun g => g.2 ≠ []).map fun g => g.1 - 1).min? with
  | some i => .ok i
  | none => .error .valueError

/-- `Parser._resolve_escape_seq_csi` (/repo/kolombos/byteio/parser/parser.py:127-136).  The
SGR template is returned with its details set; in python they stay in the
template object, where the next call overwrites them before they are read. -/
def resolveCsi (reg : Registry) (m : Match Byte) : Except Err Template :=
  if m.group 8 = some [0x6d] then
    let params := (m.group 6).getD []
    if params = [] ∨ params = [0x30] then .ok reg.escapeSeqSgr0
    else match setDetails params with
      | .error e => .error e
      | .ok d => .ok { reg.escapeSeqSgr with sgr := d }
  else .ok reg.escapeSeqCsi

/-- `Parser._resolve_match` with `MGROUP_TO_TPL_MAP`
(/repo/kolombos/byteio/parser/parser.py:62-82, 116-125). -/
def resolveMatch (reg : Registry) (m : Match Byte) (mgroup : Nat) : Except Err Template :=
  match mgroup with
  | 0 => .ok reg.utf8Seq
  | 1 => .ok reg.binaryData
  | 2 => resolveCsi reg m
  | 8 => .ok reg.escapeSeqNf
  | 13 => .ok reg.escapeSeqFp
  | 16 => .ok reg.escapeSeqFe
  | 19 => .ok reg.escapeSeqFs
  | 22 => .ok reg.controlChar
  | 23 => .ok reg.controlCharNull
  | 24 => .ok reg.controlCharBackspace
  | 25 => .ok reg.controlCharEscape
  | 26 => .ok reg.controlCharDelete
  | 27 => .ok reg.whitespaceTab
  | 28 => .ok reg.whitespaceNewline
  | 29 => .ok reg.whitespaceVertTab
  | 30 => .ok reg.whitespaceFormFeed
  | 31 => .ok reg.whitespaceCarrReturn
  | 32 => .ok reg.whitespaceSpace
  | 33 => .ok reg.printableChar
  | _ => .error .runtimeError

/-- `Parser._substitute` and `_handle` up to `attach`
(/repo/kolombos/byteio/parser/parser.py:100-114): the segments for one match. -/
def matchSegments (reg : Registry) (s : Settings) (m : Match Byte) : Except Err (List Segment) :=
  match primaryMgroup m with
  | .error e => .error e
  | .ok i =>
    let raw := (m.group (i + 1)).getD []
    match resolveMatch reg m i with
    | .error e => .error e
    | .ok t => t.substitute s raw

/-- `regex.sub(self._substitute, raw)` with the effect of `attach`
(/repo/kolombos/byteio/parser/parser.py:92, 100-114): the unmatched bytes and the
segment buffer. -/
def subItems (reg : Registry) (s : Settings) :
    List (Item Byte) → SegmentBuffer → Except Err (Bytes × SegmentBuffer)
  | [], buf => .ok ([], buf)
  | .copied b :: rest, buf =>
    match subItems reg s rest buf with
    | .error e => .error e
    | .ok (u, buf') => .ok (b :: u, buf')
  | .matched m :: rest, buf =>
    match matchSegments reg s m with
    | .error e => .error e
    | .ok segs => subItems reg s rest (buf.attach segs)

/-- `Parser.parse` (/repo/kolombos/byteio/parser/parser.py:87-98). -/
def parse (reg : Registry) (s : Settings) (pb : ParserBuffer) (buf : SegmentBuffer) :
    Except Err (ParserBuffer × SegmentBuffer) :=
  match subItems reg s (fSeparator.scan pb.raw) buf with
  | .error e => .error e
  | .ok (unmatched, buf') =>
    if unmatched.length ≠ 0 then .error .runtimeError
    else match pb.cropRaw unmatched with
      | .error e => .error e
      | .ok pb' => .ok (pb', buf')

end Kolombos
