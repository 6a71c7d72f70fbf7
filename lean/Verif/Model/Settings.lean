import Verif.Model.Base
/-
kolombos/settings.py, kolombos/byteio/const.py, kolombos/byteio/partial_override.py
-/
namespace Kolombos

/-- `ReadMode` (/repo/kolombos/byteio/const.py:20-27). -/
inductive ReadMode where
  | binary
  | text
  deriving DecidableEq, Repr

/-- `DisplayMode` (/repo/kolombos/byteio/const.py:30-40). -/
inductive DisplayMode where
  | default
  | focused
  | ignored
  deriving DecidableEq, Repr

/-- `CharClass` (/repo/kolombos/byteio/const.py:46-52). -/
inductive CharClass where
  | controlChar
  | escapeSeq
  | whitespace
  | utf8Seq
  | binaryData
  | printableChar
  deriving DecidableEq, Repr

/-- `TYPE_LABEL_MAP` (/repo/kolombos/byteio/const.py:55-62). -/
def CharClass.typeLabel : CharClass → Str
  | .controlChar => ['C']
  | .escapeSeq => ['E']
  | .whitespace => ['S']
  | .utf8Seq => ['U']
  | .binaryData => ['B']
  | .printableChar => ['P']

/-- `TYPE_LABEL_DETAILS` (/repo/kolombos/byteio/const.py:63). -/
def typeLabelDetails : Str := ['*']

/-- `MarkerDetailsEnum` (/repo/kolombos/byteio/const.py:66-71). -/
inductive MarkerDetails where
  | noDetails
  | brief
  | full
  | binaryStrict
  deriving DecidableEq, Repr

/-- `Settings` (/repo/kolombos/settings.py:13-51), without the attributes no modelled
function reads (`filename`, `hide_ignored`, `squash_ignored`).  Defaults as in the
constructor. -/
structure Settings where
  binary : Bool := false
  buffer : Option Int := none
  columns : Option Int := none
  decimalOffsets : Bool := false
  debug : Nat := 0
  decode : Option Bool := none
  focus : CharClass → Bool := fun _ => false
  ignore : CharClass → Bool := fun _ => false
  legend : Bool := false
  marker : Int := 0
  maxBytes : Option Int := none
  maxLines : Option Int := none
  colorMarkers : Bool := false
  noLineNumbers : Bool := false
  noSeparators : Bool := false
  noOffsets : Bool := false
  text : Bool := false
  version : Bool := false
  demo : Bool := false
  defaultReadMode : ReadMode := .text

namespace Settings

/-- The property `Settings.read_mode` with its side effect on `text`/`binary`
(/repo/kolombos/settings.py:53-63). -/
def readMode (s : Settings) : ReadMode × Settings :=
  if s.binary then (.binary, s)
  else if s.text then (.text, s)
  else (s.defaultReadMode,
    { s with text := s.defaultReadMode = .text, binary := s.defaultReadMode = .binary })

/-- `Settings.set_default_read_mode` (/repo/kolombos/settings.py:65-66). -/
def setDefaultReadMode (s : Settings) (m : ReadMode) : Settings := { s with defaultReadMode := m }

/-- `Settings.get_char_class_display_mode` (/repo/kolombos/settings.py:68-80); the
attributes `ignore_*`/`focus_*` exist for all six classes, so the `KeyError`s
cannot occur and are not modelled. -/
def displayMode (s : Settings) (c : CharClass) : DisplayMode :=
  if s.ignore c then .ignored
  else if s.focus c then .focused
  else .default

/-- `Settings.effective_marker_details` (/repo/kolombos/settings.py:82-91). -/
def markerDetails (s : Settings) : MarkerDetails :=
  if s.binary then .binaryStrict
  else if s.marker ≤ 0 then .noDetails
  else if s.marker = 1 then .brief
  else .full

/-- `Settings.effective_print_offsets` (/repo/kolombos/settings.py:93-97). -/
def printOffsets (s : Settings) : Bool := if s.debug ≠ 0 then true else !s.noOffsets

end Settings

/-- `ByteIOMode` = `Union[DisplayMode, ReadMode]` (/repo/kolombos/byteio/const.py:43). -/
inductive Mode where
  | display (m : DisplayMode)
  | read (m : ReadMode)
  deriving DecidableEq, Repr

/-- `PartialOverride` (/repo/kolombos/byteio/partial_override.py:17-47).  The dict is an
association list, the latest binding first; `None` and the empty dict behave the
same in every method and are both the empty list. -/
structure PartialOverride (K V : Type) where
  dflt : V
  override : List (K × V) := []

namespace PartialOverride

variable {K V : Type} [DecidableEq K]

/-- dict lookup -/
def lookup (l : List (K × V)) (k : K) : Option V := (l.find? fun e => e.1 = k).map Prod.snd

/-- `PartialOverride.get` (/repo/kolombos/byteio/partial_override.py:27-37). -/
def get (p : PartialOverride K V) (keys : List K) : V :=
  match keys with
  | [] => p.dflt
  | k :: ks =>
    match lookup p.override k with
    | some v => v
    | none => get p ks

/-- `PartialOverride.set` (/repo/kolombos/byteio/partial_override.py:39-42). -/
def set (p : PartialOverride K V) (k : K) (v : V) : PartialOverride K V :=
  { p with override := (k, v) :: p.override }

/-- `PartialOverride.has_key` (/repo/kolombos/byteio/partial_override.py:44-47). -/
def hasKey (p : PartialOverride K V) (k : K) : Bool := (lookup p.override k).isSome

end PartialOverride

end Kolombos
