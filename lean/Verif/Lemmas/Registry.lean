import Verif.Lemmas.Pieces
/-
The templates `TemplateRegistry` creates, as a table.
-/
set_option linter.unusedSimpArgs false

namespace Kolombos
open Spec

theorem readMode_idem (s : Settings) : s.readMode.2.readMode = s.readMode := by
  unfold Settings.readMode
  cases h1 : s.binary <;> cases h2 : s.text <;> cases h3 : s.defaultReadMode <;>
    simp [h1, h2, h3]

theorem readMode_displayMode (s : Settings) (c : CharClass) :
    s.readMode.2.displayMode c = s.displayMode c := by
  unfold Settings.readMode
  split
  · rfl
  · split <;> rfl

theorem readMode_decode (s : Settings) : s.readMode.2.decode = s.decode := by
  unfold Settings.readMode
  split
  · rfl
  · split <;> rfl

/-- The template class of a kind of piece. -/
def tplKind : Kind → TplKind
  | .utf8 => .utf8 | .ctrl => .control | .reset => .escape | .sgr => .escapeSgr
  | .csi => .escape | .nF => .escape | .fp => .escape | .fe => .escape | .fs => .escape
  | .newline => .newline | .printable => .printable
  | _ => .generic

/-- The character class of a kind of piece. -/
def kindClass : Kind → CharClass
  | .utf8 => .utf8Seq | .binary => .binaryData | .printable => .printableChar
  | .reset => .escapeSeq | .sgr => .escapeSeq | .csi => .escapeSeq | .nF => .escapeSeq
  | .fp => .escapeSeq | .fe => .escapeSeq | .fs => .escapeSeq
  | .ctrl => .controlChar | .null => .controlChar | .backspace => .controlChar
  | .esc => .controlChar | .delete => .controlChar
  | .tab => .whitespace | .newline => .whitespace | .vertTab => .whitespace
  | .formFeed => .whitespace | .carrReturn => .whitespace | .space => .whitespace

/-- Opening sequences: default and focused. -/
def kindOpening : Kind → Sgr × Sgr
  | .ctrl => ([31], [31, 7]) | .null => ([91], [91, 7]) | .backspace => ([31], [31, 7])
  | .delete => ([31], [31, 7]) | .esc => ([93], [93, 7])
  | .tab => ([96], [46, 30]) | .newline => ([96], [46, 30]) | .vertTab => ([96], [46, 30])
  | .formFeed => ([96], [46, 30]) | .carrReturn => ([96], [46, 30]) | .space => ([96], [46, 30])
  | .reset => ([38, 5, 255, 48, 5, 16], [38, 5, 255, 48, 5, 16, 7])
  | .sgr => ([38, 5, 210, 48, 5, 16], [38, 5, 210, 48, 5, 16, 7])
  | .csi => ([92], [92, 7]) | .nF => ([32], [32, 7]) | .fp => ([33], [33, 7])
  | .fe => ([33], [33, 7]) | .fs => ([33], [33, 7])
  | .utf8 => ([94], [94, 7]) | .binary => ([35], [35, 7])
  | .printable => ([38, 5, 102], [47, 30])

/-- Labels in text mode, in binary mode, and when focused. -/
def kindLabel : Kind → Str × Str × Option Str
  | .ctrl => (['Ɐ'], ['Ɐ'], none) | .null => (['Ø'], ['Ø'], none) | .backspace => (['←'], ['←'], none)
  | .delete => (['→'], ['→'], none) | .esc => (['∌'], ['∌'], none)
  | .tab => (['⇥', '\t'], ['⇥'], none) | .newline => (['↵'], ['↵'], none) | .vertTab => (['⤓'], ['⤓'], none)
  | .formFeed => (['↡'], ['↡'], none) | .carrReturn => (['⇤'], ['⇤'], none)
  | .space => (['␣'], ['␣'], some ['·'])
  | .reset => (['θ'], ['θ'], none) | .sgr => (['ǝ'], ['ǝ'], none) | .csi => (['Ͻ'], ['Ͻ'], none)
  | .nF => (['ꟻ'], ['ꟻ'], none) | .fp => (['ꟼ'], ['ꟼ'], none) | .fe => (['Ǝ'], ['Ǝ'], none)
  | .fs => (['Ꙅ'], ['Ꙅ'], none) | .utf8 => ([], ['▯'], none) | .binary => (['Ḇ'], ['▯'], none)
  | .printable => ([], [], none)

/-- What a template displays per byte, by display and read mode. -/
def kindText (k : Kind) (d : DisplayMode) (r : ReadMode) : Str :=
  match d with
  | .ignored => ['×']
  | .focused => (kindLabel k).2.2.getD (match r with | .text => (kindLabel k).1 | .binary => (kindLabel k).2.1)
  | .default => match r with | .text => (kindLabel k).1 | .binary => (kindLabel k).2.1

/-- The style of a piece by display mode. -/
def kindStyle (k : Kind) (d : DisplayMode) : Sgr :=
  match d with
  | .ignored => [90, 2]
  | .focused => (kindOpening k).2
  | .default => (kindOpening k).1

theorem create_snd (kind : TplKind) (cc : CharClass) (o : PartialOverride Mode Sgr)
    (l : PartialOverride Mode Str) (s : Settings) : (Template.create kind cc o l s).2 = s.readMode.2 := rfl

/-- Everything about a template that the model looks at. -/
structure TplIs (s : Settings) (k : Kind) (t : Template) : Prop where
  kind : t.kind = tplKind k
  cls : t.charClass = kindClass k
  display : t.displayMode = s.displayMode (kindClass k)
  read : t.readMode = s.readMode.1
  marker : t.markerDetails = s.readMode.2.markerDetails
  decode : t.decode = s.decode.getD false
  style : ∀ d r, t.openingStack.get [.display d, .read r] = kindStyle k d
  base : t.openingStack.get [] = (kindOpening k).1
  label : ∀ d r, t.labelStack.get [.display d, .read r] = kindText k d r
  sgr : t.sgr = {}

theorem create_is (s s' : Settings) (hs : s'.readMode = s.readMode)
    (hd : ∀ c, s'.displayMode c = s.displayMode c)
    (k : Kind) (o : PartialOverride Mode Sgr) (l : PartialOverride Mode Str)
    (kind : TplKind) (cc : CharClass) (h1 : kind = tplKind k) (h2 : cc = kindClass k)
    (h3 : ∀ (d : DisplayMode) (r : ReadMode),
      ((Template.create kind cc o l {}).1.openingStack.get [.display d, .read r]) = kindStyle k d)
    (h4 : (Template.create kind cc o l {}).1.openingStack.get [] = (kindOpening k).1)
    (h5 : ∀ (d : DisplayMode) (r : ReadMode),
      (Template.create kind cc o l {}).1.labelStack.get [.display d, .read r] = kindText k d r) :
    TplIs s k (Template.create kind cc o l s').1 := by
  refine ⟨h1, h2, ?_, ?_, ?_, ?_, h3, h4, h5, rfl⟩
  · simp only [Template.create, hd, h2]
  · simp only [Template.create, hs]
  · simp only [Template.create, hs]
  · simp only [Template.create, hs, readMode_decode]

theorem create_readMode (s : Settings) : (Registry.create s).2 = s.readMode.2 := by
  simp only [Registry.create, create_snd, readMode_idem]

/-- The registry, template by template. -/
theorem create_tpl (s : Settings) (k : Kind) : TplIs s k ((Registry.create s).1.tpl k) := by
  have h1 := readMode_idem s
  have h2 := readMode_displayMode s
  cases k <;> simp only [Registry.create, create_snd, readMode_idem, Registry.tpl] <;>
    (apply create_is <;>
      first | exact h1 | exact h2 | (intro c; rfl) | rfl | (intro d r; cases d <;> cases r <;> rfl))

end Kolombos
