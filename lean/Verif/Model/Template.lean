import Verif.Model.Settings
import Verif.Model.Segment
import Verif.Model.Utf8
/-
kolombos/byteio/template/
-/
namespace Kolombos

/-- The template classes. -/
inductive TplKind where
  /-- `Template` (/repo/kolombos/byteio/template/template.py:17) -/
  | generic
  /-- `ControlCharGenericTemplate` (/repo/kolombos/byteio/template/template_control.py:16) -/
  | control
  /-- `EscapeSequenceTemplate` (/repo/kolombos/byteio/template/template_escape.py:17) -/
  | escape
  /-- `EscapeSequenceSGRTemplate` (/repo/kolombos/byteio/template/template_escape_sgr.py:15) -/
  | escapeSgr
  /-- `NewlineTemplate` (/repo/kolombos/byteio/template/template_newline.py:13) -/
  | newline
  /-- `PrintableCharTemplate` (/repo/kolombos/byteio/template/template_printable.py:13) -/
  | printable
  /-- `Utf8SequenceTemplate` (/repo/kolombos/byteio/template/template_utf8.py:13) -/
  | utf8
  deriving DecidableEq, Repr

/-- The state `EscapeSequenceSGRTemplate.set_details_fmt_str` leaves in the template:
`_brief_details_processed` and `_details_opening_seq`
(/repo/kolombos/byteio/template/template_escape_sgr.py:26-28, 62-63). -/
structure SgrDetails where
  brief : Str := []
  opening : Sgr := []
  deriving DecidableEq

/-- A template object (/repo/kolombos/byteio/template/template.py:25-49).  The list
`_substituted` is cleared at the start of every `substitute` and not modelled. -/
structure Template where
  kind : TplKind
  charClass : CharClass
  openingStack : PartialOverride Mode Sgr
  labelStack : PartialOverride Mode Str
  displayMode : DisplayMode := .default
  readMode : ReadMode := .text
  markerDetails : MarkerDetails := .noDetails
  decode : Bool := false
  sgr : SgrDetails := {}

/-- `Template.SEPARATOR_LEFT` (/repo/kolombos/byteio/template/template.py:18). -/
def separatorLeft : Char := '⢸'
/-- `Template.SEPARATOR_RIGHT` (/repo/kolombos/byteio/template/template.py:19). -/
def separatorRight : Char := '⡇'
/-- `Template.IGNORED_LABEL` (/repo/kolombos/byteio/template/template.py:21). -/
def ignoredLabel : Str := ['×']
/-- `Template.IGNORED_OPENING_SEQ` (/repo/kolombos/byteio/template/template.py:22). -/
def ignoredOpening : Sgr := Sgr.add [90] [2]
/-- `Template.DETAILS_OPENING_SEQ` (/repo/kolombos/byteio/template/template.py:23). -/
def detailsOpening : Sgr := Sgr.add (Sgr.colorIndexed 16 true) [4]

namespace Template

/-- `Template.__init__` (/repo/kolombos/byteio/template/template.py:25-49) including
`update_settings` (51-56).  The settings are threaded because reading `read_mode`
changes them. -/
def create (kind : TplKind) (cc : CharClass) (opening : PartialOverride Mode Sgr)
    (label : PartialOverride Mode Str) (s : Settings) : Template × Settings :=
  let opening := if opening.hasKey (.display .focused) then opening
    else opening.set (.display .focused) (Sgr.add (opening.get []) [7])
  let opening := if opening.hasKey (.display .ignored) then opening
    else opening.set (.display .ignored) ignoredOpening
  let label := if label.hasKey (.display .ignored) then label
    else label.set (.display .ignored) ignoredLabel
  let dm := s.displayMode cc
  let rm := s.readMode
  ({ kind := kind, charClass := cc, openingStack := opening, labelStack := label,
     displayMode := dm, readMode := rm.1, markerDetails := rm.2.markerDetails,
     decode := rm.2.decode.getD false }, rm.2)

/-- `self._opening_seq_stack.get(self._display_mode, self._read_mode)` -/
def openingSeq (t : Template) : Sgr :=
  t.openingStack.get [.display t.displayMode, .read t.readMode]

/-- `Template._process_byte` (/repo/kolombos/byteio/template/template.py:80-81). -/
def processByteBase (t : Template) : Str :=
  t.labelStack.get [.display t.displayMode, .read t.readMode]

/-- `_process_byte` with the overrides of `NewlineTemplate`
(/repo/kolombos/byteio/template/template_newline.py:17-26) and `PrintableCharTemplate`
(/repo/kolombos/byteio/template/template_printable.py:17-21). -/
def processByte (t : Template) (b : Byte) : Str :=
  match t.kind with
  | .newline =>
    if t.readMode = .text then
      if t.displayMode = .ignored then t.processByteBase ++ ['\n']
      else t.processByteBase ++ Sgr.assemble [0] ++ ['\n']
    else t.processByteBase
  | .printable => if t.displayMode = .ignored then t.processByteBase else [chr b.toNat]
  | _ => t.processByteBase

/-- `Template._process` (/repo/kolombos/byteio/template/template.py:77-78). -/
def processBase (t : Template) (raw : Bytes) : Str := raw.flatMap t.processByte

/-- `_process` with the override of `Utf8SequenceTemplate`
(/repo/kolombos/byteio/template/template_utf8.py:19-34). -/
def process (t : Template) (raw : Bytes) : Str :=
  match t.kind with
  | .utf8 =>
    if t.displayMode = .ignored then t.processBase raw
    else if t.readMode = .text ∨ t.decode then
      let decoded := decodeUtf8 raw
      if t.readMode = .binary then
        if decoded.length < raw.length then rjust raw.length '_' decoded
        else if decoded.length > raw.length then decoded.take raw.length
        else decoded
      else decoded
    else t.processBase raw
  | _ => t.processBase raw

/-- `Template._create_primary_segment` (/repo/kolombos/byteio/template/template.py:83-84). -/
def primarySegment (t : Template) (opening : Sgr) (raw : Bytes) (processed : Str) : Segment :=
  ⟨opening, t.charClass.typeLabel, raw, processed⟩

/-- `_get_details_opening_seq`
(/repo/kolombos/byteio/template/template_control.py:69-70, template_escape.py:68-69,
template_escape_sgr.py:75-78).  The base class raises; it is never called there. -/
def detailsOpeningSeq (t : Template) (colorMarkers : Bool) : Sgr :=
  match t.kind with
  | .escapeSgr =>
    if !colorMarkers then detailsOpening else Sgr.add detailsOpening t.sgr.opening
  | _ => Sgr.add (t.openingStack.get []) detailsOpening

/-- `Template._create_details_segment` (/repo/kolombos/byteio/template/template.py:86-87). -/
def detailsSegment (t : Template) (colorMarkers : Bool) (raw : Bytes) (processed : Str) : Segment :=
  ⟨t.detailsOpeningSeq colorMarkers, typeLabelDetails, raw, processed⟩

/-- `Template.substitute` (/repo/kolombos/byteio/template/template.py:58-67). -/
def substituteBase (t : Template) (raw : Bytes) : List Segment :=
  [t.primarySegment t.openingSeq raw (t.process raw)]

/-- `ControlCharGenericTemplate._brief_label_map`
(/repo/kolombos/byteio/template/template_control.py:20-25). -/
def briefLabel : Nat → Option Char
  | 0x01 => 'A' | 0x02 => 'B' | 0x03 => 'C' | 0x04 => 'D' | 0x05 => 'E' | 0x06 => 'F'
  | 0x07 => 'G' | 0x0e => 'N' | 0x0f => 'O' | 0x10 => 'P' | 0x11 => 'Q' | 0x12 => 'R'
  | 0x13 => 'S' | 0x14 => 'T' | 0x15 => 'U' | 0x16 => 'V' | 0x17 => 'W' | 0x18 => 'X'
  | 0x19 => 'Y' | 0x1a => 'Z' | 0x1c => '\\' | 0x1d => ']' | 0x1e => '^' | 0x1f => '_'
  | _ => none

/-- `ControlCharGenericTemplate._fill_additional_segments`
(/repo/kolombos/byteio/template/template_control.py:50-67).  The branch
`BINARY_STRICT`/`NO_DETAILS` (54-56) is dead, the caller has returned before. -/
def controlDetails (t : Template) (colorMarkers : Bool) (b : Byte) : Except Err (List Segment) :=
  if t.displayMode = .ignored then .ok []
  else match t.markerDetails with
    | .binaryStrict => .ok []
    | .noDetails => .ok []
    | .brief =>
      match briefLabel b.toNat with
      | none => .error .keyError
      | some c => .ok [t.detailsSegment colorMarkers [] [c]]
    | .full => .ok [t.detailsSegment colorMarkers [] (hexPad 2 b.toNat)]

/-- The loop of `ControlCharGenericTemplate.substitute`
(/repo/kolombos/byteio/template/template_control.py:39-48).  `bytes(label_raw)` with an
integer `label_raw` is that many zero bytes. -/
def controlLoop (t : Template) (colorMarkers : Bool) : Bytes → Except Err (List Segment)
  | [] => .ok []
  | b :: rest =>
    match t.controlDetails colorMarkers b with
    | .error e => .error e
    | .ok ds =>
      match controlLoop t colorMarkers rest with
      | .error e => .error e
      | .ok r =>
        .ok (t.primarySegment t.openingSeq (List.replicate b.toNat 0) (t.processByte b) :: ds ++ r)

/-- `ControlCharGenericTemplate.substitute`
(/repo/kolombos/byteio/template/template_control.py:27-48). -/
def substituteControl (t : Template) (colorMarkers : Bool) (raw : Bytes) : Except Err (List Segment) :=
  if t.markerDetails = .binaryStrict ∨ t.markerDetails = .noDetails then
    .ok [t.primarySegment t.openingSeq raw (t.process raw)]
  else t.controlLoop colorMarkers raw

/-- `_get_label_opening_seq`
(/repo/kolombos/byteio/template/template_escape.py:65-66, template_escape_sgr.py:70-73);
`ESQ_MARKER_LABEL_SEQ` is the empty sequence. -/
def labelOpeningSeq (t : Template) (colorMarkers : Bool) : Sgr :=
  if t.kind = .escapeSgr ∧ colorMarkers then Sgr.add t.sgr.opening []
  else Sgr.add t.openingSeq []

/-- `_get_brief_details_processed`
(/repo/kolombos/byteio/template/template_escape.py:62-63, template_escape_sgr.py:65-68). -/
def briefDetails (t : Template) : Str := if t.kind = .escapeSgr then t.sgr.brief else []

/-- `EscapeSequenceTemplate._fill_additional_segments`
(/repo/kolombos/byteio/template/template_escape.py:49-60). -/
def escapeDetails (t : Template) (colorMarkers : Bool) (params : Bytes) : List Segment :=
  if t.markerDetails = .noDetails then []
  else [t.detailsSegment colorMarkers params
    (if t.markerDetails = .brief then t.briefDetails else decodeAscii params)]

/-- `Template.wrap_in_separators` for a list of segments
(/repo/kolombos/byteio/template/template.py:95-103). -/
def wrapInSeparators (gs : List Segment) : List Segment :=
  ⟨Sgr.colorIndexed 255, [], [], [separatorLeft]⟩ :: gs
    ++ [⟨Sgr.colorIndexed 255, [], [], [separatorRight]⟩]

/-- `EscapeSequenceTemplate.substitute`
(/repo/kolombos/byteio/template/template_escape.py:23-47). -/
def substituteEscape (t : Template) (s : Settings) (raw : Bytes) : List Segment :=
  if t.displayMode = .ignored then t.substituteBase raw
  else
    let labelRaw := raw.take 1
    let paramsRaw := raw.drop 1
    let segs := t.primarySegment (t.labelOpeningSeq s.colorMarkers) labelRaw (t.process labelRaw)
      :: t.escapeDetails s.colorMarkers paramsRaw
    if t.readMode ≠ .binary ∧ !s.noSeparators ∧ (t.markerDetails = .brief ∨ t.markerDetails = .full)
    then wrapInSeparators segs else segs

/-- `substitute`, dispatched on the template class. -/
def substitute (t : Template) (s : Settings) (raw : Bytes) : Except Err (List Segment) :=
  match t.kind with
  | .control => t.substituteControl s.colorMarkers raw
  | .escape => .ok (t.substituteEscape s raw)
  | .escapeSgr => .ok (t.substituteEscape s raw)
  | _ => .ok (t.substituteBase raw)

end Template

/-- `ALLOWED_SGRS_FOR_MARKER_FORMAT`
(/repo/kolombos/byteio/template/template_escape_sgr.py:18-22, /repo/pytermor/ansi.py:491-497). -/
def allowedSgr (c : Nat) : Bool :=
  c == 2 || c == 3 || c == 53 || c == 9 ||
  (decide (30 ≤ c) && decide (c ≤ 38)) || (decide (40 ≤ c) && decide (c ≤ 48)) ||
  (decide (90 ≤ c) && decide (c ≤ 97)) || (decide (100 ≤ c) && decide (c ≤ 107))

/-- `M1_SEPARATOR` with its surrounding sequences, the joint of the brief names
(/repo/kolombos/byteio/template/template_escape_sgr.py:16, 62). -/
def briefSeparator : Str := Sgr.assemble [24] ++ ['･'] ++ Sgr.assemble [4]

/-- `pcodes = [int(p.split(":")[0]) for p in params if p]`
(/repo/kolombos/byteio/template/template_escape_sgr.py:39). -/
def parsePcodes : List Str → Except Err (List Nat)
  | [] => .ok []
  | p :: ps =>
    if p = [] then parsePcodes ps
    else match pyInt ((splitOn ':' p).headD []) with
      | .error e => .error e
      | .ok n =>
        match parsePcodes ps with
        | .error e => .error e
        | .ok r => .ok (n :: r)

/-- The loop over `pcodes` (/repo/kolombos/byteio/template/template_escape_sgr.py:42-60):
allowed codes and brief names.  The first argument bounds the number of rounds. -/
def pcodesLoop : Nat → List Nat → List Nat × List Str
  | 0, _ => ([], [])
  | _ + 1, [] => ([], [])
  | n + 1, p :: ps =>
    if p = 38 ∨ p = 48 then
      let ty : Char := if p = 38 then 'F' else 'B'
      match ps with
      | 5 :: x :: r =>
        let q := pcodesLoop n r
        (p :: 5 :: x :: q.1, (ty :: dec x) :: q.2)
      | 2 :: x :: y :: z :: r =>
        let q := pcodesLoop n r
        (p :: 2 :: x :: y :: z :: q.1, (ty :: hexPadUpper 6 (x * 256 * 256 + y * 256 + z)) :: q.2)
      | _ =>
        let q := pcodesLoop n ps
        (q.1, dec p :: q.2)
    else
      let q := pcodesLoop n ps
      if allowedSgr p then (p :: q.1, dec p :: q.2) else (q.1, dec p :: q.2)

/-- `EscapeSequenceSGRTemplate.set_details_fmt_str`
(/repo/kolombos/byteio/template/template_escape_sgr.py:35-63); the argument consists
of bytes `30-3f`, so decoding it as ASCII succeeds. -/
def setDetails (s : Bytes) : Except Err SgrDetails :=
  match parsePcodes (splitOn ';' (decodeAscii s)) with
  | .error e => .error e
  | .ok pcodes =>
    let q := pcodesLoop pcodes.length pcodes
    .ok { brief := join briefSeparator q.2, opening := q.1 }

/-- `TemplateRegistry` (/repo/kolombos/byteio/template/registry.py:12-46). -/
structure Registry where
  controlChar : Template
  controlCharNull : Template
  controlCharBackspace : Template
  controlCharDelete : Template
  controlCharEscape : Template
  whitespaceTab : Template
  whitespaceNewline : Template
  whitespaceVertTab : Template
  whitespaceFormFeed : Template
  whitespaceCarrReturn : Template
  whitespaceSpace : Template
  escapeSeqSgr0 : Template
  escapeSeqSgr : Template
  escapeSeqCsi : Template
  escapeSeqNf : Template
  escapeSeqFp : Template
  escapeSeqFe : Template
  escapeSeqFs : Template
  utf8Seq : Template
  binaryData : Template
  printableChar : Template

/-- `TemplateRegistry.__init__` (/repo/kolombos/byteio/template/registry.py:13-46).  The
object `op_ws` is shared by the whitespace templates in python; the first
constructor adds the `IGNORED` override to it, which is what every further
constructor would add, so separate copies behave the same. -/
def Registry.create (s : Settings) : Registry × Settings :=
  let c := Template.create
  let opWs : PartialOverride Mode Sgr := ⟨[96], [(.display .focused, Sgr.add [46] [30])]⟩
  let opPr : PartialOverride Mode Sgr :=
    ⟨Sgr.colorIndexed 102, [(.display .focused, Sgr.add [47] [30])]⟩
  let (t1, s) := c .control .controlChar ⟨[31], []⟩ ⟨['Ɐ'], []⟩ s
  let (t2, s) := c .generic .controlChar ⟨[91], []⟩ ⟨['Ø'], []⟩ s
  let (t3, s) := c .generic .controlChar ⟨[31], []⟩ ⟨['←'], []⟩ s
  let (t4, s) := c .generic .controlChar ⟨[31], []⟩ ⟨['→'], []⟩ s
  let (t5, s) := c .generic .controlChar ⟨[93], []⟩ ⟨['∌'], []⟩ s
  let (t6, s) := c .generic .whitespace opWs ⟨['⇥'], [(.read .text, ['⇥', '\t'])]⟩ s
  let (t7, s) := c .newline .whitespace opWs ⟨['↵'], []⟩ s
  let (t8, s) := c .generic .whitespace opWs ⟨['⤓'], []⟩ s
  let (t9, s) := c .generic .whitespace opWs ⟨['↡'], []⟩ s
  let (t10, s) := c .generic .whitespace opWs ⟨['⇤'], []⟩ s
  let (t11, s) := c .generic .whitespace opWs ⟨['␣'], [(.display .focused, ['·'])]⟩ s
  let (t12, s) := c .escape .escapeSeq
    ⟨Sgr.add (Sgr.colorIndexed 255) (Sgr.colorIndexed 16 true), []⟩ ⟨['θ'], []⟩ s
  let (t13, s) := c .escapeSgr .escapeSeq
    ⟨Sgr.add (Sgr.colorIndexed 210) (Sgr.colorIndexed 16 true), []⟩ ⟨['ǝ'], []⟩ s
  let (t14, s) := c .escape .escapeSeq ⟨[92], []⟩ ⟨['Ͻ'], []⟩ s
  let (t15, s) := c .escape .escapeSeq ⟨[32], []⟩ ⟨['ꟻ'], []⟩ s
  let (t16, s) := c .escape .escapeSeq ⟨[33], []⟩ ⟨['ꟼ'], []⟩ s
  let (t17, s) := c .escape .escapeSeq ⟨[33], []⟩ ⟨['Ǝ'], []⟩ s
  let (t18, s) := c .escape .escapeSeq ⟨[33], []⟩ ⟨['Ꙅ'], []⟩ s
  let (t19, s) := c .utf8 .utf8Seq ⟨[94], []⟩ ⟨[], [(.read .binary, ['▯'])]⟩ s
  let (t20, s) := c .generic .binaryData ⟨[35], []⟩ ⟨['Ḇ'], [(.read .binary, ['▯'])]⟩ s
  let (t21, s) := c .printable .printableChar opPr ⟨[], []⟩ s
  (⟨t1, t2, t3, t4, t5, t6, t7, t8, t9, t10, t11, t12, t13, t14, t15, t16, t17, t18, t19, t20, t21⟩, s)

end Kolombos
