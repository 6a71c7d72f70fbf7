import Verif.Model.Sgr
/-
kolombos/byteio/segment/
-/
namespace Kolombos

/-- `Segment` (/repo/kolombos/byteio/segment/segment.py:12-17). -/
structure Segment where
  opening : Sgr
  typeLabel : Str
  raw : Bytes
  processed : Str
  deriving DecidableEq

namespace Segment

/-- `Segment.data_len` (/repo/kolombos/byteio/segment/segment.py:31-33). -/
def dataLen (g : Segment) : Nat := g.raw.length

/-- `Segment.is_newline` (/repo/kolombos/byteio/segment/segment.py:35-37). -/
def isNewline (g : Segment) : Bool := g.processed.contains '\n'

/-- `Segment.is_consistent` (/repo/kolombos/byteio/segment/segment.py:39-41). -/
def isConsistent (g : Segment) : Bool := g.raw.length == g.processed.length

/-- `Segment.split` (/repo/kolombos/byteio/segment/segment.py:19-29): the returned left
segment and the new state of the segment itself. -/
def split (g : Segment) (n : Int) : Except Err (Segment × Segment) :=
  if !g.isConsistent then .error .bufferError
  else .ok ({ g with raw := pyTake n g.raw, processed := pyTake n g.processed },
            { g with raw := pyDrop n g.raw, processed := pyDrop n g.processed })

end Segment

/-- `Chainable`: `Segment`, `StartSequenceRef`, `StopSequenceRef`, `OneUseSequenceRef`
(/repo/kolombos/byteio/segment/chainable.py:8-15, sequence_ref.py:12-46). -/
inductive Chainable where
  | seg (g : Segment)
  | start (s : Sgr)
  | stop (s : Sgr)
  | oneUse (s : Sgr)
  deriving DecidableEq

namespace Chainable

/-- `data_len` (/repo/kolombos/byteio/segment/segment.py:31-33, sequence_ref.py:16-18). -/
def dataLen : Chainable → Nat
  | seg g => g.dataLen
  | _ => 0

/-- `is_newline` (/repo/kolombos/byteio/segment/segment.py:35-37, sequence_ref.py:20-22). -/
def isNewline : Chainable → Bool
  | seg g => g.isNewline
  | _ => false

/-- `SequenceRef.__eq__` (/repo/kolombos/byteio/segment/sequence_ref.py:28-31): it
compares `self._ref` with itself.  `none` if the left operand is a `Segment`
(which has its own `__eq__`). -/
def refEq : Chainable → Chainable → Option Bool
  | seg _, _ => none
  | _, seg _ => some false
  | start s, _ => some (Sgr.eq s s)
  | stop s, _ => some (Sgr.eq s s)
  | oneUse s, _ => some (Sgr.eq s s)

end Chainable

/-- `SegmentBuffer` (/repo/kolombos/byteio/segment/buffer.py:19-25). -/
structure SegmentBuffer where
  chain : List Chainable := []
  active : List Sgr := []
  lastLen : Nat := 0

/-- What `detach_bytes`/`detach_line` answer: the detached elements, `EOFError`,
or `WaitRequest`. -/
inductive Detached where
  | ok (out : List Chainable)
  | eof
  | wait
  deriving DecidableEq

namespace SegmentBuffer

/-- `SegmentBuffer.data_len` (/repo/kolombos/byteio/segment/buffer.py:27-29). -/
def dataLen (b : SegmentBuffer) : Nat := (b.chain.map Chainable.dataLen).sum

/-- The elements `attach` appends for one segment
(/repo/kolombos/byteio/segment/buffer.py:37-47). -/
def attachOne (g : Segment) : List Chainable :=
  if g.opening.length = 0 ∨ (g.opening ≠ [] ∧ ∀ p ∈ g.opening, p = 0) then [.seg g]
  else [.start g.opening, .seg g, .stop g.opening, .oneUse (Sgr.closing g.opening)]

/-- `SegmentBuffer.attach` (/repo/kolombos/byteio/segment/buffer.py:35-47). -/
def attach (b : SegmentBuffer) (gs : List Segment) : SegmentBuffer :=
  { b with chain := b.chain ++ gs.flatMap attachOne }

/-- The loop of `_detach` (/repo/kolombos/byteio/segment/buffer.py:118-148): output,
remaining chain, active sequences.  `list.remove` of an absent element is a
`ValueError`. -/
def detachLoop : List Chainable → Int → List Sgr →
    Except Err (List Chainable × List Chainable × List Sgr)
  | [], _, act => .ok ([], [], act)
  | .seg g :: rest, req, act =>
    if req = 0 then .ok ([], .seg g :: rest, act)
    else if (g.dataLen : Int) ≤ req then
      match detachLoop rest (req - g.dataLen) act with
      | .error e => .error e
      | .ok (o, c, a) => .ok (.seg g :: o, c, a)
    else match g.split req with
      | .error e => .error e
      | .ok (l, r) => .ok ([.seg l], .seg r :: rest, act)
  | .start s :: rest, req, act =>
    if req = 0 then .ok ([], .start s :: rest, act)
    else match detachLoop rest req (act ++ [s]) with
      | .error e => .error e
      | .ok (o, c, a) => .ok (.start s :: o, c, a)
  | .stop s :: rest, req, act =>
    if s ∈ act then detachLoop rest req (act.erase s) else .error .valueError
  | .oneUse s :: rest, req, act =>
    match detachLoop rest req act with
    | .error e => .error e
    | .ok (o, c, a) => .ok (.oneUse s :: o, c, a)

/-- `SegmentBuffer._detach` (/repo/kolombos/byteio/segment/buffer.py:110-155).  After an
exception the buffer is not used any more, its partial update is not modelled. -/
def detach (b : SegmentBuffer) (req : Int) : Except Err (List Chainable × SegmentBuffer) :=
  if b.chain.length = 0 then .ok ([], b)
  else match detachLoop b.chain req b.active with
    | .error e => .error e
    | .ok (o, c, a) =>
      let out := b.active.map Chainable.oneUse ++ o
        ++ a.map fun s => Chainable.oneUse (Sgr.closing s)
      .ok (out, { chain := c, active := a, lastLen := (out.map Chainable.dataLen).sum })

/-- `SegmentBuffer.detach_bytes` (/repo/kolombos/byteio/segment/buffer.py:49-61), without
the formatting by printers (see `format`). -/
def detachBytes (b : SegmentBuffer) (req : Int) (force : Bool) :
    Except Err (Detached × SegmentBuffer) :=
  if (b.dataLen : Int) ≥ req ∨ force then
    match b.detach req with
    | .error e => .error e
    | .ok (out, b') => if out.length = 0 then .ok (.eof, b') else .ok (.ok out, b')
  else .ok (.wait, b)

/-- The search loop of `detach_line` (/repo/kolombos/byteio/segment/buffer.py:64-70):
`avail_bytes` and `has_newline`. -/
def lineAvail : List Chainable → Nat × Bool
  | [] => (0, false)
  | el :: rest =>
    if el.isNewline then (el.dataLen, true)
    else let r := lineAvail rest; (el.dataLen + r.1, r.2)

/-- `SegmentBuffer.detach_line` (/repo/kolombos/byteio/segment/buffer.py:63-83), without
the formatting by printers. -/
def detachLine (b : SegmentBuffer) (force : Bool) : Except Err (Detached × SegmentBuffer) :=
  let r := lineAvail b.chain
  if r.1 = 0 then .ok (.eof, b)
  else if r.2 ∨ force then
    match b.detach r.1 with
    | .error e => .error e
    | .ok (out, b') => .ok (.ok out, b')
  else .ok (.wait, b)

/-- `SegmentBuffer._format` with a printer that applies SGR codes unencoded
(/repo/kolombos/byteio/segment/buffer.py:160-177); `f` is the printer's format
function.  The other printers are used for debug output only. -/
def format (f : Segment → Str) (detached : List Chainable) : Str :=
  detached.flatMap fun
    | .seg g => f g
    | .start s => s.assemble
    | .stop s => s.assemble
    | .oneUse s => s.assemble

end SegmentBuffer

end Kolombos
