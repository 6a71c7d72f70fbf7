import Verif.Model.Es7sTpl
import Verif.Model.Template
import Verif.Model.Style
/-
dev/generate_legend.py: the generator of the legend.

Simplifications: the rendered labels are those of an output with styles and true colours; the
date in the last line is a parameter; exceptions of templates are `none`.
-/
namespace Kolombos

namespace LegendGen

/-- `sanitize` (dev/generate_legend.py:40-41). -/
def sanitize (s : Str) : Str := (s.filter (· ≠ '\t')).filter (· ≠ '\n')

/-- The renderer of `Style.render`: styles on, no compatibility modes. -/
def renderer : RenderConfig := { forceStyles := some true, isatty := true }

/-- `Style(...).render(text)`; `none` is an exception. -/
def styled (a : StyleArgs) (text : Str) : Option Str := (sgrRender renderer {} text (newStyle none a)).map Prod.fst

/-- `render_label` (dev/generate_legend.py:44-45). -/
def renderLabel (char : Str) (fg bg : Option Nat) (bold : Bool) : Option Str :=
  styled { fg := fg.map fun h => .rgb (some h), bg := bg.map fun h => .rgb (some h), bold := some bold } (' ' :: sanitize char ++ [' '])

/-- `render_label(char)`. -/
def label (char : Str) : Option Str := renderLabel char (some 0xffffff) (some 0x000000) true

/-- `render_label("(*)", fg=Colors.RGB_GREY_40, bg=None, bold=False)` (dev/generate_legend.py:63, 161). -/
def starLabel : Option Str := renderLabel "(*)".toList (some 0x666666) none false

/-- `Template.update_settings` (kolombos/byteio/template/template.py:51-56). -/
def updateSettings (t : Template) (s : Settings) : Template × Settings :=
  let dm := s.displayMode t.charClass
  let rm := s.readMode
  ({ t with displayMode := dm, readMode := rm.1, markerDetails := rm.2.markerDetails, decode := rm.2.decode.getD false }, rm.2)

/-- The arguments of `substitute_with` (dev/generate_legend.py:180-190). -/
structure With where
  focused : Bool
  read : ReadMode
  marker : MarkerDetails := .brief
  decode : Bool := false
  colorMarkers : Bool := false
  separators : Bool := true
  details : Option Bytes := none

/-- `MarkerDetailsEnum(...).value` (kolombos/byteio/const.py:66-71). -/
def markerValue : MarkerDetails → Int
  | .noDetails => 0
  | .brief => 1
  | .full => 2
  | .binaryStrict => 3

/-- `substitute_with` (dev/generate_legend.py:180-203).  The settings are shared by all calls; what a
call does not set itself does not matter for its template, so each starts from the defaults. -/
def substituteWith (t : Template) (raw : Bytes) (w : With) : Option (List Segment) :=
  let s : Settings := {
    text := w.read = .text, binary := !(decide (w.read = .text)), focus := fun c => c == t.charClass && w.focused,
    marker := markerValue w.marker, decode := some w.decode, colorMarkers := w.colorMarkers, noSeparators := !w.separators }
  let (t, s) := updateSettings t s
  let t? : Except Err Template := match t.kind, w.details with
    | .escapeSgr, some d => (setDetails d).map fun x => { t with sgr := x }
    | _, _ => .ok t
  match t? with
  | .error _ => none
  | .ok t => (t.substitute s raw).toOption

/-- `cur_raw.hex(" ")`. -/
def hexSpaced (raw : Bytes) : Str := join [' '] (raw.map fun b => hexPad 2 b.toNat)

/-- The loop of `segs_to_hex` (dev/generate_legend.py:211-221): result and `excessive`. -/
def hexLoop (maxB : Nat) : Nat → List Segment → Str × Bool
  | _, [] => ([], false)
  | cur, g :: gs =>
    let raw := g.raw.take (maxB - cur)
    let hex := hexSpaced raw
    let over := decide (raw.length > 0) && decide (g.raw.length + cur > maxB)
    let hex := if over then hex.dropLast else hex
    let out := span g.opening (' ' :: hex)
    let cur := cur + raw.length
    if cur ≥ maxB then (out, over)
    else
      let (r, e) := hexLoop maxB cur gs
      (out ++ r, over || e)

/-- `segs_to_hex` (dev/generate_legend.py:206-224). -/
def segsToHex (gs : List Segment) : Str :=
  let (r, e) := hexLoop 4 0 gs
  if e then r ++ ['‥'] else r

/-- `segs_to_processed` (dev/generate_legend.py:227-228). -/
def segsToProcessed (gs : List Segment) : Str := gs.flatMap fun g => span g.opening (sanitize g.processed)

/-- One line of examples, its columns (dev/generate_legend.py:242-246). -/
structure Columns where
  label : Option Str
  hexDefault : Option Str
  hexFocused : Option Str
  chrDefault : Option Str
  chrFocused : Option Str

/-- `format_example` with `COLS_ORDER` and `COL_FORMATTERS` (dev/generate_legend.py:231-263). -/
def formatExample (c : Columns) : Str :=
  let part (f : Str → Str) (x : Option Str) : Str := match x with
    | some s => f s
    | none => []
  part (fun s => centerSgr (join [' '] (splitOn '\x00' s)) 7 ' ') c.label
  ++ part (fun s => rjustSgr s 5 ' ' ++ [' ']) c.chrDefault
  ++ part (fun s => ljustSgr s 5 ' ') c.chrFocused
  ++ part (fun s => rjustSgr s 6 ' ') c.hexDefault
  ++ part (fun s => rjustSgr s 6 ' ' ++ [' ']) c.hexFocused
  ++ pyRepeat [' '] 3

/-- The list `raw` of `invoke_default` (dev/generate_legend.py:72-79). -/
def spreadRaws (raws : List Bytes) : List (Option Bytes) :=
  match raws with
  | [a] => [some a, none, some a, none]
  | [a, b] => [some a, none, some b, none]
  | [a, b, c] => [some a, some b, some c, none]
  | rs => rs.map some

/-- The loop of `invoke_default` (dev/generate_legend.py:81-93) over one half of the list: bytes and characters. -/
def exampleHalf (t : Template) (focused : Bool) (read : ReadMode) (marker : MarkerDetails) (printHex : Bool) :
    List (Option Bytes) → Option (Str × Str)
  | [] => some ([], [])
  | x :: xs =>
    match exampleHalf t focused read marker printHex xs with
    | none => none
    | some (h, c) =>
      match x with
      | none => some (h, c)
      | some raw =>
        if raw.length = 0 then some (h, c)
        else
          match (if printHex then (substituteWith t raw { focused, read := .binary, marker }).map segsToHex else some []),
            substituteWith t raw { focused, read, marker } with
          | some h1, some gs => some (h1 ++ h, segsToProcessed gs ++ c)
          | _, _ => none

/-- The label column of `invoke_default` (dev/generate_legend.py:56-70). -/
def exampleLabel (t : Template) (read : ReadMode) : Option Str :=
  let dflt := t.labelStack.get [.display .default, .read read]
  match (if dflt.length ≠ 0 then label dflt else starLabel) with
  | none => none
  | some ld =>
    let foc := t.labelStack.get [.display .focused, .read read]
    match label foc with
    | none => none
    | some lf => some (if foc.length ≠ 0 ∧ foc ≠ dflt then join ['\x00'] [ld, lf] else ld)

/-- `invoke_default` (dev/generate_legend.py:46-98). -/
def idef (t : Template) (raws : List Bytes) (read : ReadMode := .binary) (printLabel : Bool := true) (printHex : Bool := true)
    (marker : MarkerDetails := .noDetails) : Option Str :=
  let raw := spreadRaws raws
  match (if printLabel then exampleLabel t read else some []),
    exampleHalf t false read marker printHex (raw.take (raw.length / 2)),
    exampleHalf t true read marker printHex (raw.drop (raw.length / 2)) with
  | some l, some (hd, cd), some (hf, cf) => some (formatExample ⟨some l, some hd, some hf, some cd, some cf⟩)
  | _, _, _ => none

/-- The arguments of `invoke_on_escape_sequences` (dev/generate_legend.py:101-112); an SGR sequence is given by its
parameters. -/
structure EscArgs where
  marker : MarkerDetails := .brief
  printLabel : Bool := true
  focus : Bool := false
  printHex : Bool := true
  colorMarkers : Bool := true
  separators : Bool := true

/-- `invoke_on_escape_sequences` (dev/generate_legend.py:101-142); `details` is `sgr_params_str`. -/
def iesqRaw (t : Template) (raw : Bytes) (details : Option Bytes) (a : EscArgs) : Option Str :=
  let w (read : ReadMode) (marker : MarkerDetails) : With :=
    { focused := a.focus, read, marker, colorMarkers := a.colorMarkers, separators := a.separators, details }
  match (if a.printLabel then label (t.labelStack.get []) else some []),
    (if a.printHex then (substituteWith t raw (w .binary .brief)).map fun gs => some (rjustSgr (segsToHex gs) 12 ' ' ++ [' ']) else some none),
    substituteWith t raw (w .text a.marker) with
  | some l, some h, some gs => some (formatExample ⟨some l, h, none, some (centerSgr (segsToProcessed gs) 10 ' '), none⟩)
  | _, _, _ => none

/-- The bytes of an ASCII string. -/
def asciiBytes (s : Str) : Bytes := s.map fun c => UInt8.ofNat c.toNat

/-- `invoke_on_escape_sequences` with a sequence object (dev/generate_legend.py:113-115): `ReplaceSGR("\\3")` leaves
the parameters. -/
def iesq (t : Template) (q : Sgr) (a : EscArgs) : Option Str :=
  iesqRaw t (asciiBytes q.assemble) (some (asciiBytes (replaceSgr [.ref 3] q.assemble))) a

/-- The loop of `invoke_on_utf8` (dev/generate_legend.py:168-172). -/
def utf8Loop (t : Template) (read : ReadMode) (decode printHex : Bool) : Bool → List Bytes → Option (List Segment × List Str)
  | _, [] => some ([], [])
  | focused, raw :: raws =>
    match substituteWith t raw { focused, read, decode }, utf8Loop t read decode printHex true raws with
    | some gs, some (hs, cs) => some ((if printHex then gs else []) ++ hs, segsToProcessed gs :: cs)
    | _, _ => none

/-- `invoke_on_utf8` (dev/generate_legend.py:145-177). -/
def iutf (t : Template) (raws : List Bytes) (read : ReadMode := .binary) (printLabel printHex decode : Bool := false) (shift : Nat := 0) :
    Option Str :=
  match (if printLabel then
      if decode then label ['_'] else if read = .text then starLabel else label (t.labelStack.get [.read .binary])
    else some []),
    utf8Loop t read decode printHex false raws with
  | some l, some (hs, cs) =>
    some (formatExample ⟨some l, some (ljustSgr (segsToHex hs) 13 ' '), none,
      some (pyRepeat [' '] shift ++ centerSgr (join [' '] cs) 8 ' '), none⟩)
  | _, _ => none

/-- The registry of templates with default settings (dev/generate_legend.py:32-34). -/
def reg : Registry := (Registry.create {}).1

/-- `VARIABLES` (dev/generate_legend.py:278-337); values that are sequences are given by their strings. -/
def variableTable (version : Str) : List (String × Option Str) := [
  ("ver", some version),
  ("ex_s_tab", idef reg.whitespaceTab [[0x09]]),
  ("ex_s_lf", idef reg.whitespaceNewline [[0x0a]]),
  ("ex_s_vtab", idef reg.whitespaceVertTab [[0x0b]]),
  ("ex_s_ff", idef reg.whitespaceFormFeed [[0x0c]]),
  ("ex_s_cr", idef reg.whitespaceCarrReturn [[0x0d]]),
  ("ex_s_space", idef reg.whitespaceSpace [[0x20]]),
  ("ex_c_misc0", idef reg.controlChar [[0x03], [0x1e]]),
  ("ex_c_misc1", idef reg.controlChar [[0x03], [0x1e]] .text false false .brief),
  ("ex_c_misc2", idef reg.controlChar [[0x03], [0x1e]] .text false false .full),
  ("ex_c_null", idef reg.controlCharNull [[0x00]]),
  ("ex_c_bskpc", idef reg.controlCharBackspace [[0x08]]),
  ("ex_c_del", idef reg.controlCharDelete [[0x7f]]),
  ("ex_c_esc", idef reg.controlCharEscape [[0x1b]]),
  ("ex_p_print", idef reg.printableChar [[0x21], [0x22], [0x31], [0x32]]),
  ("ex_p_print2", idef reg.printableChar [[0x41], [0x42], [0x7d], [0x7e]] .binary false),
  ("ex_e_reset_lbl", idef reg.escapeSeqSgr0 [[]]),
  ("ex_e_reset_m0", iesq reg.escapeSeqSgr0 [0] { marker := .noDetails }),
  ("ex_e_reset_m1", iesq reg.escapeSeqSgr0 [0] { printLabel := false }),
  ("ex_e_reset_m2", iesq reg.escapeSeqSgr0 [0] { marker := .full, printLabel := false }),
  ("ex_e_sgr_lbl", idef reg.escapeSeqSgr [[]]),
  ("ex_e_sgr_m0", iesq reg.escapeSeqSgr [34] { marker := .noDetails, colorMarkers := false }),
  ("ex_e_sgr_m0c", iesq reg.escapeSeqSgr [33] { marker := .noDetails, printLabel := false }),
  ("ex_e_sgr_m1", iesq reg.escapeSeqSgr [93, 1] { printLabel := false }),
  ("ex_e_sgr_m1_2", iesq reg.escapeSeqSgr (Sgr.add (Sgr.colorIndexed 88) (Sgr.colorIndexed 16 true)) { printLabel := false }),
  ("ex_e_sgr_m1_3", iesq reg.escapeSeqSgr [38, 2, 0xaa, 0x6a, 0x6a] { printLabel := false }),
  ("ex_e_sgr_m2", iesq reg.escapeSeqSgr [38, 2, 0xaa, 0x6a, 0x6a] { marker := .full, printLabel := false, printHex := false, colorMarkers := false }),
  ("ex_e_csi", iesqRaw reg.escapeSeqCsi [0x1b, 0x5b, 0x32, 0x34, 0x64] none { marker := .full }),
  ("ex_e_nf", iesqRaw reg.escapeSeqNf [0x1b, 0x28, 0x42] none { marker := .full, focus := true }),
  ("ex_e_fp", iesqRaw reg.escapeSeqFp [0x1b, 0x32] none { marker := .full, focus := true }),
  ("ex_e_fe", iesqRaw reg.escapeSeqFe [0x1b, 0x47] none {}),
  ("ex_e_fs", iesqRaw reg.escapeSeqFs [0x1b, 0x73] none { marker := .noDetails }),
  ("ex_u_lbl", idef reg.utf8Seq [[]]),
  ("ex_u_1", idef reg.utf8Seq [[0xd1], [0x85], [0xd0], [0xb9]]),
  ("ex_u_2", iutf reg.utf8Seq [[0xd1, 0x8b], [0xe4, 0xb8, 0x96]] (printHex := true) (decode := true) (shift := 1) (printLabel := true)),
  ("ex_u_3", iutf reg.utf8Seq [[0xf0, 0x9f, 0x90, 0x8d]] (read := .text) (printHex := true) (shift := 1) (printLabel := true)),
  ("ex_i_1", idef reg.binaryData [[0xee], [0xb0], [0xc0], [0xcc]]),
  ("ex_i_2", idef reg.binaryData [[0xc0], [0xff], [0xee], [0xda]] .text),
  ("separator", (styled { fg := some (.rgb (some 0x333333)) } ['─']).map fun s => pyRepeat s 87),
  ("fmt_header", some (Sgr.assemble (Sgr.add [97] [1]))),
  ("fmt_thead", some (Sgr.assemble [2])),
  ("fmt_cc", some (Sgr.assemble [1])),
  ("fmt_comment", some (Sgr.assemble [90])),
  ("fmt_param", some (Sgr.assemble (Sgr.add [90] [1]))),
  ("fmt_m1", some (Sgr.assemble (Sgr.colorIndexed 117))),
  ("fmt_m2", some (Sgr.assemble [38, 2, 248, 184, 137]))]

/-- The variables if none of the examples raised. -/
def allVariables (version : Str) : Option (List (Str × Str)) :=
  (variableTable version).mapM fun e => e.2.map fun v => (e.1.toList, v)

/-- The text written into the legend (dev/generate_legend.py:339-345). -/
def generate (tbl : CharTable) (version template date : Str) : Option Str :=
  match allVariables version with
  | none => none
  | some vars =>
    match (substituteTpl tbl [] template (some vars)).1 with
    | .error _ => none
    | .ok (out, _) =>
      let out := if out.getLast? = some '\n' then out else out ++ ['\n']
      some (out ++ "# Generated at ".toList ++ date)

end LegendGen

end Kolombos
