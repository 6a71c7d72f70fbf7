import Verif.Model.App
/-
The debug output of kolombos (`-D`): everything that is printed, in the order in which it is
printed.  All writes flush at once (/repo/kolombos/console.py:28-97), so standard output is
the concatenation of the texts written.
-/
namespace Kolombos

/-- One write to standard output: of a `ConsoleOutputBuffer` or `Console.print`, or of a
`ConsoleDebugBuffer`, with its level. -/
inductive Ev where
  | out (s : Str)
  | dbg (level : Nat) (s : Str)
  deriving DecidableEq

/-- A computation with the writes it makes; those of debug buffers are listed whatever their
level is, see `Ev.printed`. -/
structure Trace (α : Type) where
  evs : List Ev
  res : Res α

namespace Trace

/-- normal return -/
def pure {α : Type} (a : α) : Trace α := ⟨[], .ok a⟩

/-- `raise` -/
def fail {α : Type} (e : Err) : Trace α := ⟨[], .err e⟩

/-- writes, then continue -/
def log {α : Type} (es : List Ev) (t : Trace α) : Trace α := ⟨es ++ t.evs, t.res⟩

/-- sequential composition -/
def bind {α β : Type} (t : Trace α) (f : α → Trace β) : Trace β :=
  match t.res with
  | .ok a => ⟨t.evs ++ (f a).evs, (f a).res⟩
  | .err e => ⟨t.evs, .err e⟩
  | .timeout => ⟨t.evs, .timeout⟩

end Trace

/-- `if SettingsManager.app_settings.debug < level: return` (/repo/kolombos/console.py:79-80). -/
def Ev.printed (debug : Nat) : Ev → Str
  | .out s => s
  | .dbg level s => if debug < level then [] else s

/-- Standard output. -/
def stdoutOf (debug : Nat) (evs : List Ev) : Str := evs.flatMap (Ev.printed debug)

namespace Debug

/-- `str(n)`. -/
def intStr (n : Int) : Str := if n < 0 then '-' :: dec n.natAbs else dec n.natAbs

/-- `Spans.BOLD(text)`. -/
def bold (t : Str) : Str := span [1] t

/-- A `ConsoleDebugBuffer`: the key, and the colour of offsets
(/repo/kolombos/console.py:69-76). -/
structure Buffer where
  key : Option Str
  color : Sgr := [90]

/-- The debug buffers of the classes (/repo/kolombos/byteio/reader.py:28,
parser/parser.py:85, parser/buffer.py:17, segment/buffer.py:25, formatter/binary.py:32,
formatter/text.py:22, /repo/kolombos/runner/byteio.py:30). -/
def reader : Buffer := ⟨some "reader".toList, [35]⟩
@[inherit_doc reader] def parser : Buffer := ⟨some "parser".toList, [36]⟩
@[inherit_doc reader] def parsbuf : Buffer := ⟨some "parsbuf".toList, [90]⟩
@[inherit_doc reader] def chainbuf : Buffer := ⟨some "chainbuf".toList, [90]⟩
@[inherit_doc reader] def binfmt : Buffer := ⟨some "binfmt".toList, [33]⟩
@[inherit_doc reader] def txtfmt : Buffer := ⟨some "txtfmt".toList, [33]⟩
@[inherit_doc reader] def runner : Buffer := ⟨none, [90]⟩

/-- The prefix in `ConsoleDebugBuffer.write` (/repo/kolombos/console.py:82-87);
`no_default_prefix` is never used. -/
def Buffer.prefix (d : Buffer) (s : Settings) (offset : Option Nat) : Str :=
  match offset with
  | some o => Console.formatPrefixWithOffset s o (Sgr.add d.color [40])
  | none =>
    match d.key with
    | some k => Console.formatPrefix s k (Sgr.add [90] [40])
    | none => []

/-- `ConsoleDebugBuffer.write` (/repo/kolombos/console.py:78-91) with the defaults for
`end` and `flush`. -/
def Buffer.write (d : Buffer) (s : Settings) (level : Nat) (t : Str) (offset : Option Nat := none) : Ev :=
  .dbg level (d.prefix s offset ++ t ++ ['\n'])

/-- `Console.printd` for bytes with `max_input_len=5` (/repo/kolombos/console.py:275-298).
With debug level 4 the limit is `sys.maxsize`, which no string exceeds. -/
def printd (s : Settings) (v : Bytes) : Str :=
  let result := "len ".toList ++ bold (dec v.length)
  if s.debug < 3 then result
  else if v.length = 0 then result ++ [' '] ++ Sgr.assemble [90] ++ ['[', ']'] ++ Sgr.assemble [39]
  else
    let h := join [' '] (v.map fun b => hexPad 2 b.toNat)
    result ++ [' '] ++ Sgr.assemble [90] ++ ['[']
      ++ (if s.debug ≥ 4 then h
          else h.take 8 ++ (if h.length > 8 then ".. ".toList ++ h.drop (h.length - 2) else []))
      ++ [']'] ++ Sgr.assemble [39]

/-- `SegmentBuffer._preview_sgr` (/repo/kolombos/byteio/segment/buffer.py:186-187):
`ReplaceSGR('[ǝ\\3]')`. -/
def previewSgr (t : Str) : Str :=
  sgrRegexp.sub (fun m => ['[', 'ǝ'] ++ (m.group 3).getD [] ++ [']']) t

/-- The sequence of an element of the chain other than a segment. -/
def refOf : Chainable → Option Sgr
  | .seg _ => none
  | .start q | .stop q | .oneUse q => some q

/-- The strings for one element in `preview`
(/repo/kolombos/byteio/segment/buffer.py:95-100, 196-206). -/
def previewElement : Chainable → List Str
  | .seg g => g.raw.map fun b => hexPad 2 b.toNat
  | .start q | .stop q | .oneUse q => [span [3] (previewSgr q.assemble)]

/-- `SegmentBuffer.preview` with `_preview_collect` (/repo/kolombos/byteio/segment/buffer.py:85-108, 189-212);
`printd` calls it with 5, or `sys.maxsize` for debug level 4. -/
def preview (s : Settings) (b : SegmentBuffer) : Str :=
  let sgrLen := ((b.chain.filterMap refOf).map fun q => q.assemble.length).sum
  let shown := if s.debug ≥ 4 then b.chain else b.chain.take 5
  let more : Str := if s.debug < 4 ∧ b.chain.length > 5 then ['.', '.'] else []
  "len ".toList ++ bold (dec b.dataLen) ++ span [3] ('+' :: dec sgrLen)
    ++ (if s.debug ≥ 3 then [':', ' '] ++ span [90] (['['] ++ join [' '] (shown.flatMap previewElement) ++ more ++ [']']) else [])
    ++ (if s.debug ≥ 4 then ". Active SGR buffer state: ".toList
          ++ span [90] (['['] ++ join [' '] (b.active.map fun q => previewSgr q.assemble) ++ [']']) else [])

/-- `f'Buffer state: {Console.printd(self)}'`. -/
def bufferState (s : Settings) (b : SegmentBuffer) : Ev :=
  chainbuf.write s 2 ("Buffer state: ".toList ++ preview s b)

/-- `SegmentBuffer._detach` (/repo/kolombos/byteio/segment/buffer.py:110-155). -/
def detach (s : Settings) (b : SegmentBuffer) (req : Int) : Trace (List Chainable × SegmentBuffer) :=
  .log [bufferState s b]
    (match b.detach req with
    | .error e => .fail e
    | .ok (out, b') =>
      .log (if b.chain.length = 0 then []
        else [chainbuf.write s 2 ("Detached ".toList ++ bold (dec b'.lastLen) ++ " data byte(s)".toList), bufferState s b'])
        (.pure (out, b')))

/-- `SegmentBuffer.detach_bytes` (/repo/kolombos/byteio/segment/buffer.py:49-61). -/
def detachBytes (s : Settings) (b : SegmentBuffer) (req : Int) (force : Bool) : Trace (Detached × SegmentBuffer) :=
  if (b.dataLen : Int) ≥ req ∨ force then
    (detach s b req).bind fun r =>
      if r.1.length = 0 then
        .log [chainbuf.write s 1 "Responsing with EOF".toList, bufferState s r.2] (.pure (.eof, r.2))
      else .pure (.ok r.1, r.2)
  else .log [chainbuf.write s 1 "Responsing with WaitRequest".toList, bufferState s b] (.pure (.wait, b))

/-- `SegmentBuffer.detach_line` (/repo/kolombos/byteio/segment/buffer.py:63-83). -/
def detachLine (s : Settings) (b : SegmentBuffer) (force : Bool) : Trace (Detached × SegmentBuffer) :=
  let r := SegmentBuffer.lineAvail b.chain
  if r.1 = 0 then .log [chainbuf.write s 1 "Responsing with EOF".toList, bufferState s b] (.pure (.eof, b))
  else if r.2 ∨ force then (detach s b r.1).bind fun q => .pure (.ok q.1, q.2)
  else .log [chainbuf.write s 1 "Responsing with WaitRequest".toList, bufferState s b] (.pure (.wait, b))

/-- `AbstractFormatter._seg_raw_to_safe` (/repo/kolombos/byteio/formatter/_abstract.py:30-39):
a byte above `7f` is decoded to U+FFFD, which is not a printable code. -/
def segRawToSafe (g : Segment) : Str :=
  g.raw.map fun b =>
    if (9 ≤ b.toNat ∧ b.toNat ≤ 13) ∨ b.toNat = 32 then '·'
    else if 33 ≤ b.toNat ∧ b.toNat ≤ 126 then Char.ofNat b.toNat
    else '▯'

/-- `SegmentBuffer._format` with a printer that omits SGR codes
(/repo/kolombos/byteio/segment/buffer.py:160-177). -/
def formatPlain (f : Segment → Str) (out : List Chainable) : Str :=
  out.flatMap fun
    | .seg g => f g
    | _ => []

/-- `SegmentBuffer._format` with a printer that encodes SGR codes
(/repo/kolombos/byteio/segment/buffer.py:160-177). -/
def formatEncoded (f : Segment → Str) (out : List Chainable) : Str :=
  out.flatMap fun
    | .seg g => f g
    | .start q | .stop q | .oneUse q => previewSgr q.assemble

namespace BinaryFormatter

/-- The debug rows (/repo/kolombos/byteio/formatter/binary.py:67-73). -/
def rowEvents (s : Settings) (cols : Int) (offset dataLen : Nat) (out : List Chainable) : List Ev :=
  [binfmt.write s 3 (formatEncoded segRawToSafe out) (some offset),
   binfmt.write s 1 (formatPlain segRawToHex out ++ pyRepeat [' ', ' ', ' '] (cols - dataLen) ++ [' ']
      ++ (if s.printOffsets then Console.separator s else [' ']) ++ formatPlain segRawToSafe out) (some offset)]

/-- The `while True` loop (/repo/kolombos/byteio/formatter/binary.py:44-82). -/
def loop (s : Settings) (cols req : Int) (closed : Bool) : Nat → SegmentBuffer → Nat → Trace (SegmentBuffer × Nat)
  | 0, _, _ => ⟨[], .timeout⟩
  | n + 1, buf, offset =>
    .log [binfmt.write s 1 ("Requested ".toList ++ bold (intStr req) ++ " byte(s)".toList)]
      ((detachBytes s buf req closed).bind fun r =>
        match r.1 with
        | .wait => .pure (r.2, offset)
        | .eof => .pure (r.2, offset)
        | .ok out =>
          .log (rowEvents s cols offset r.2.lastLen out ++ [.out (Kolombos.BinaryFormatter.row s cols offset r.2.lastLen out)])
            (loop s cols req closed n r.2 (offset + r.2.lastLen)))

/-- `BinaryFormatter.format` (/repo/kolombos/byteio/formatter/binary.py:34-87, 109). -/
def format (fuel : Nat) (s : Settings) (term : Int) (closed : Bool) (buf : SegmentBuffer) (offset : Nat) :
    Trace (SegmentBuffer × Nat) :=
  let cols := Kolombos.BinaryFormatter.curCols s term offset
  let req := if closed then min (buf.dataLen : Int) cols else cols
  .log (if s.columns = none then [binfmt.write s 2 ("Columns amount set to: ".toList ++ bold (intStr cols))] else [])
    ((loop s cols req closed fuel buf offset).bind fun r =>
      if closed ∧ s.printOffsets then .log [.out (Console.formatTotalSize s r.2 ++ ['\n'])] (.pure r)
      else .pure r)

end BinaryFormatter

namespace TextFormatter

/-- The debug lines (/repo/kolombos/byteio/formatter/text.py:42-44). -/
def lineEvents (s : Settings) (offset : Nat) (out : List Chainable) : List Ev :=
  [txtfmt.write s 3 (formatEncoded segRawToSafe out) (some offset),
   txtfmt.write s 2 (formatPlain segRawToHex out) (some offset),
   txtfmt.write s 1 (formatPlain segRawToSafe out) (some offset)]

/-- The `while True` loop (/repo/kolombos/byteio/formatter/text.py:25-51). -/
def loop (s : Settings) (closed : Bool) : Nat → SegmentBuffer → Nat → Nat → Trace (SegmentBuffer × Nat × Nat)
  | 0, _, _, _ => ⟨[], .timeout⟩
  | n + 1, buf, offset, lineNum =>
    .log [txtfmt.write s 1 "Requested line".toList]
      ((detachLine s buf closed).bind fun r =>
        match r.1 with
        | .wait => .pure (r.2, offset, lineNum)
        | .eof => .pure (r.2, offset, lineNum)
        | .ok out =>
          .log (lineEvents s offset out ++ [.out (Kolombos.TextFormatter.line s lineNum out)])
            (loop s closed n r.2 (offset + r.2.lastLen) (lineNum + 1)))

/-- `TextFormatter.format` (/repo/kolombos/byteio/formatter/text.py:24-54). -/
def format (s : Settings) (closed : Bool) (fuel : Nat) (buf : SegmentBuffer) (offset lineNum : Nat) :
    Trace (SegmentBuffer × Nat × Nat) :=
  (loop s closed fuel buf offset lineNum).bind fun r =>
    .log (if closed then [txtfmt.write s 1 "EOF".toList] else []) (.pure r)

end TextFormatter

/-- `segment.processed.encode('ascii', errors="replace")`. -/
def encodeAscii (t : Str) : Bytes := t.map fun c => if c.toNat < 128 then UInt8.ofNat c.toNat else 0x3f

/-- One segment in `_debug_print_match_segments` (/repo/kolombos/byteio/parser/parser.py:147-150). -/
def segmentText (s : Settings) (curRaw : Bytes) (g : Segment) : Str :=
  "Seg ".toList ++ span [7] (['<'] ++ g.typeLabel ++ ['>']) ++ [':', ' '] ++ printd s curRaw
    ++ (if curRaw ≠ encodeAscii g.processed then " -> ".toList ++ printd s (encodeAscii g.processed) else [])

/-- `Parser._debug_print_match_segments` (/repo/kolombos/byteio/parser/parser.py:138-152). -/
def matchEvent (s : Settings) (mgroup : Nat) (raw : Bytes) (segs : List Segment) (offset : Nat) : Ev :=
  parser.write s 2 ("Match group #".toList ++ rjust 2 '0' (dec mgroup) ++ [':', ' ']
    ++ join [';', ' '] (segs.mapIdx fun i g => segmentText s (if i > 0 then [] else raw) g)) (some offset)

/-- `regex.sub(self._substitute, raw)` (/repo/kolombos/byteio/parser/parser.py:92, 100-114);
`pos` is the position in `raw`.  The primary group is the whole match, so its start is the
position of the match. -/
def subItems (reg : Registry) (s : Settings) (offset : Nat) :
    List (Item Byte) → Nat → SegmentBuffer → Trace (Bytes × SegmentBuffer)
  | [], _, buf => .pure ([], buf)
  | .copied b :: rest, pos, buf =>
    (subItems reg s offset rest (pos + 1) buf).bind fun r => .pure (b :: r.1, r.2)
  | .matched m :: rest, pos, buf =>
    match primaryMgroup m, matchSegments reg s m with
    | .error e, _ => .fail e
    | _, .error e => .fail e
    | .ok i, .ok segs =>
      .log [matchEvent s i ((m.group (i + 1)).getD []) segs (offset + pos)]
        (subItems reg s offset rest (pos + m.text.length) (buf.attach segs))

/-- `Console.printd(self._raw_buffer)` in `ParserBuffer`. -/
def rawState (s : Settings) (pb : ParserBuffer) : Ev := parsbuf.write s 2 ("Buffer state: ".toList ++ printd s pb.raw)

/-- `ParserBuffer.append_raw` (/repo/kolombos/byteio/parser/buffer.py:19-26). -/
def appendEvents (s : Settings) (raw : Bytes) (finish : Bool) (pb : ParserBuffer) : List Ev :=
  [parsbuf.write s 3 ("Appending ".toList ++ bold (dec raw.length) ++ " bytes".toList), rawState s pb]
    ++ (if finish then [parsbuf.write s 1 "Closing buffer for input".toList] else [])

/-- `Parser.parse` with `ParserBuffer.crop_raw` (/repo/kolombos/byteio/parser/parser.py:87-98,
/repo/kolombos/byteio/parser/buffer.py:31-44). -/
def parse (reg : Registry) (s : Settings) (offset : Nat) (pb : ParserBuffer) (buf : SegmentBuffer) :
    Trace (ParserBuffer × SegmentBuffer) :=
  .log [parser.write s 1 ("Parsing segment: ".toList ++ printd s pb.raw)]
    ((subItems reg s offset (fSeparator.scan pb.raw) 0 buf).bind fun r =>
      if r.1.length ≠ 0 then .fail .runtimeError
      else match pb.cropRaw r.1 with
        | .error e => .fail e
        | .ok pb' => .log [parsbuf.write s 3 (if r.1.length = 0 then "Purging".toList else "Cropping".toList), rawState s pb']
            (.pure (pb', r.2)))

/-- `Console._format_separator` (/repo/kolombos/console.py:300-302). -/
def formatSeparator (s : Settings) (t : Str) : Str := span (if s.debug > 0 then [90] else [36]) t

/-- `Console.get_separator_line` without `settings_*` (/repo/kolombos/console.py:161-197);
`width` is `get_terminal_width(exact=True)`, `cross` is `┼`, `┬` for `main_open`, `┴` for
`main_close`. -/
def separatorLine (s : Settings) (width : Int) (cross : Char) : Str :=
  let main := span [40] (List.replicate 8 '─') ++ [cross]
  formatSeparator s (main ++ pyRepeat ['─'] (width - (stripSgr main).length))

/-- `self._formatter.format()`. -/
def formatStep (fuel : Nat) (c : Config) (term : Nat → Int) (st : State) : Trace State :=
  match c.mode with
  | .binary =>
    (BinaryFormatter.format fuel c.settings (term st.calls) st.pb.closed st.buf st.offset).bind
      fun r => .pure { st with buf := r.1, offset := r.2, calls := st.calls + 1 }
  | .text =>
    (TextFormatter.format c.settings st.pb.closed fuel st.buf st.offset st.lineNum).bind
      fun r => .pure { st with buf := r.1, offset := r.2.1, lineNum := r.2.2, calls := st.calls + 1 }

/-- `ByteIoRunner._process_chunk_buffered` (/repo/kolombos/runner/byteio.py:42-47); `wide k` is the
exact terminal width when the `k`-th line of dashes is printed. -/
def processChunk (fuel : Nat) (c : Config) (term wide : Nat → Int) (st : State) (raw : Bytes) (offset : Nat) (finish : Bool) :
    Trace State :=
  let pb := st.pb.appendRaw raw finish
  .log (appendEvents c.settings raw finish pb)
    ((parse c.registry c.settings offset pb st.buf).bind fun r =>
      (formatStep fuel c term { st with pb := r.1, buf := r.2 }).bind fun st' =>
        .log [runner.write c.settings 1 (separatorLine c.settings (wide (3 + st.calls)) (if finish then '┴' else '┼'))] (.pure st'))

/-- Where the input comes from: standard input or a named file.  `tell` fails for a file that is
not seekable (a named pipe, a process substitution). -/
inductive Source where
  | stdin
  | file (name : Str) (seekable : Bool)

/-- `Read chunk #…` (/repo/kolombos/byteio/reader.py:45). -/
def chunkEvent (s : Settings) (raw : Bytes) (offset chunks : Nat) : Ev :=
  reader.write s 1 ("Read chunk #".toList ++ dec chunks ++ [':', ' '] ++ printd s raw) (some offset)

/-- `self._io.tell() if not self.reading_stdin else "n/a"` (/repo/kolombos/byteio/reader.py:46),
evaluated whatever the debug level is; `pos` is the number of bytes read. -/
def position (src : Source) (pos : Nat) : Except Err Str :=
  match src with
  | .stdin => .ok "n/a".toList
  | .file _ true => .ok (dec pos)
  | .file _ false => .error .osError

/-- The messages for the position and for the limits (/repo/kolombos/byteio/reader.py:46-59);
`where_` is the position, `cropped` the input after the line limit. -/
def limitEvents (s : Settings) (where_ : Str) (maxBytes maxLines : Option Int) (raw cropped : Bytes) (offset : Nat) : List Ev :=
  [reader.write s 3 ("Current position: ".toList ++ bold where_) (some offset)]
    ++ (if cropped.length < raw.length then
          [reader.write s 2 ("Line limit exceeded: ".toList ++ bold (intStr (maxLines.getD 0))) (some offset),
           reader.write s 3 ("Cropping input -> ".toList ++ printd s cropped) (some offset)]
        else [])
    ++ (if Reader.bytesExceeded maxBytes offset cropped.length then
          [reader.write s 2 ("Byte limit exceeded: ".toList ++ bold (intStr (maxBytes.getD 0))) (some offset),
           reader.write s 3 ("Cropping input -> ".toList ++ printd s (pyTake (maxBytes.getD 0 - offset) cropped)) (some offset)]
        else [])

/-- `Encountered EOF` (/repo/kolombos/byteio/reader.py:70). -/
def eofEvent (s : Settings) (offset : Nat) : Ev := reader.write s 1 "Encountered EOF".toList (some offset)

/-- The `try` block of `Reader.read` (/repo/kolombos/byteio/reader.py:43-71). -/
def readLoop {σ : Type} (s : Settings) (src : Source) (maxBytes maxLines : Option Int) (cb : σ → Bytes → Nat → Bool → Trace σ) :
    List IoStep → Nat → Nat → Nat → Nat → σ → Trace σ
  | [], offset, _, _, _, st => .log [eofEvent s offset] (cb st [] offset true)
  | .raise e :: _, _, _, _, _, _ => .fail e
  | .data raw :: rest, offset, lines, chunks, pos, st =>
    if raw = [] then .log [eofEvent s offset] (cb st [] offset true)
    else
      .log [chunkEvent s raw offset chunks]
        (match position src (pos + raw.length) with
        | .error e => .fail e
        | .ok where_ =>
          let r := Reader.limitLines maxLines raw lines
          .log (limitEvents s where_ maxBytes maxLines raw r.1 offset)
            (if Reader.bytesExceeded maxBytes offset r.1.length then
              .log [eofEvent s offset] (cb st (pyTake (maxBytes.getD 0 - offset) r.1) offset true)
            else
              (cb st r.1 offset false).bind fun st' =>
                let offset' := offset + r.1.length
                if Reader.limitReached maxBytes maxLines offset' r.2 then .log [eofEvent s offset'] (cb st' [] offset' true)
                else readLoop s src maxBytes maxLines cb rest offset' r.2 (chunks + 1) (pos + raw.length) st'))

/-- `Reader.read` (/repo/kolombos/byteio/reader.py:34-84): the result is `none` if the handler of
`KeyboardInterrupt` was taken. -/
def read {σ : Type} (s : Settings) (src : Source) (size : Int) (opened : Option Err) (maxBytes maxLines : Option Int)
    (cb : σ → Bytes → Nat → Bool → Trace σ) (io : List IoStep) (st : σ) : Trace (Option σ) :=
  match opened with
  | some e => .fail e
  | none =>
    let t := Trace.log
      [reader.write s 1 (match src with
        | .stdin => "Reading from stdin".toList
        | .file name _ => "Opened file: ".toList ++ bold name),
       reader.write s 2 ("Read buffer: size ".toList ++ bold (intStr size))]
      (readLoop s src maxBytes maxLines cb io 0 0 0 0 st)
    match t.res with
    | .ok st' => ⟨t.evs, .ok (some st')⟩
    | .err .keyboardInterrupt => ⟨t.evs, .ok none⟩
    | .err e => ⟨t.evs, .err e⟩
    | .timeout => ⟨t.evs, .timeout⟩

/-- `ByteIoRunner.run` (/repo/kolombos/runner/byteio.py:16-40). -/
def byteIoRun (fuel : Nat) (s : Settings) (src : Source) (term wide : Nat → Int) (opened : Option Err) (io : List IoStep) :
    Trace (Option State) :=
  let c := Config.create s
  .log (if s.debug ≥ 3 then [] else [runner.write s 1 (separatorLine s (wide 2) '┬')])
    (read c.settings src (Reader.chunkSize c.settings.buffer c.settings.debug) opened c.settings.maxBytes c.settings.maxLines
      (processChunk fuel c term wide) io {})

end Debug

end Kolombos
