import Verif.Props.Sgr
import Verif.Props.Color
import Verif.Props.ColorNames
import Verif.Props.Renderers
import Verif.Props.Repr
import Verif.Props.Style
import Verif.Props.Html
import Verif.Props.Tmux
import Verif.Props.Pad
import Verif.Props.TimeDelta
import Verif.Props.NumberExact
import Verif.Props.UnitsLen
import Verif.Props.ReplTemplate
import Verif.Props.Filter
import Verif.Props.Ansi
import Verif.Props.Spelling
import Verif.Props.HelpClaims

/-! Applications of theorems about the library and about the command line to concrete values.  Each one shows that
the hypotheses of the theorem it names can be met, by something that is not trivial. -/

set_option linter.unusedSimpArgs false

namespace Kolombos
open Spec

/-! ### Sequences -/

/-- Orange, underlined, on a background, bold. -/
theorem caseStyles : Styles [38, 5, 208, 4, 48, 2, 7, 8, 9, 1] [.fg, .underline, .bg, .intensity] :=
  .cons (.fgIndexed 208) (.cons (.underline 4 (by decide)) (.cons (.bgRgb 7 8 9) (.cons (.intensity 1 (by decide)) .nil)))

example (st : Style) : sameOn .fg (applySgr (Sgr.closing [38, 5, 208, 4, 48, 2, 7, 8, 9, 1]) st) {} :=
  (C42_closing caseStyles st .fg).1 (by decide)

example (st : Style) : sameOn .italic (applySgr (Sgr.closing [38, 5, 208, 4, 48, 2, 7, 8, 9, 1]) st) st :=
  (C42_closing caseStyles st .italic).2 (by decide)

example (st : Style) := C42_span caseStyles st "some text".toList (by decide)

example (st : Style) : applySgr (Sgr.add [38, 5, 208, 4, 48, 2, 7, 8, 9, 1] [22, 0]) st = applySgr [22, 0] (applySgr [38, 5, 208, 4, 48, 2, 7, 8, 9, 1] st) :=
  C42_add caseStyles _ st

theorem casePlainParts : Plain [.sgr "1;31".toList, .text "ab".toList, .sgr [], .text "[1m".toList] := by
  refine ⟨?_, ?_⟩
  · intro s hs
    simp at hs
    rcases hs with rfl | rfl <;> decide
  · intro s hs
    simp at hs
    rcases hs with rfl | rfl <;> decide

example := C43_strip _ casePlainParts
example := C43_appears _ casePlainParts

example : Sgr.assemble [1, 31] ≠ Sgr.assemble [31, 1] := fun h => absurd ((C41_assemble _ _).1 h) (by decide)
example : Sgr.hash [1, 31] ≠ Sgr.hash [131] := fun h => absurd ((C41_hash _ _).1 h) (by decide)
example : Sgr.repr [1, 31] ≠ Sgr.repr [31, 1] := fun h => absurd ((C108_sequence _ _).1 h) (by decide)

/-! ### Colours -/

example : ∃ r g b, hexToRgb 0xff8801 = (r, g, b) ∧ r < 256 ∧ g < 256 ∧ b < 256 ∧ rgbToHex r g b = 0xff8801 := C52_split 0xff8801 (by decide)
example : hexToHsv 0xff8801 ≠ hexToHsv 0xff8802 := fun h => absurd (C53_injective _ _ (by decide) (by decide) h) (by decide)

theorem casePalette : Palette presetOps16 presetOps256 := by simpa using C60_usable [] [] (by simp [created]) (by simp [created])

theorem caseStyled : RenderConfig.Styled ⟨some true, false, false, true⟩ := .inl rfl

example : colorsResolve (chars% "Hi_Red") = colorsResolve (chars% "hI_rED") := C103_case _ _ (by decide)

example : IsGrey 50 (indexedColor 244) := C103_grey_partial 50 (chars% "GREY_") (.inl rfl) _ (by decide +kernel) (by decide)

example := C103_shown _ _ casePalette ⟨some true, false, false, true⟩ caseStyled rfl rfl (chars% "Hi_Red") (basicColor true 1) (by decide +kernel) "text".toList (by decide)

example := C103_background _ _ casePalette ⟨some true, false, false, true⟩ caseStyled rfl rfl (chars% "red") (chars% "dodger_blue_2")
  (basicColor false 1) (indexedColor 27) (by decide +kernel) (by decide +kernel) "text".toList (by decide)
example := C103_flipped _ _ casePalette ⟨some true, false, false, true⟩ caseStyled rfl rfl (chars% "red") (chars% "dodger_blue_2")
  (basicColor false 1) (indexedColor 27) (by decide +kernel) (by decide +kernel) "text".toList (by decide)

example := C103_span_partial _ _ casePalette ⟨some true, false, false, true⟩ caseStyled rfl rfl (chars% "Yellow") (fun st => { st with fg := .basic 33 })
  ⟨("yellow", _), by simp [textColours, basicNames], by decide, rfl⟩ (by decide) "text".toList (by decide)

example (old : PStyle) (h : newStyleNamed none (.name (chars% "red")) .none {} = .ok old) :=
  C103_setter none (chars% "green") (chars% "blue") {} (.name (chars% "red")) .none old h

/-- The style with a red text is known. -/
theorem caseRed_known : PStyle.Known { fg := .ix16 { hex := some 0x800000, code := some 31, codeBg := some 41 }, bold := some true } := by
  refine ⟨?_, ?_⟩
  · intro v h
    cases h
    refine ⟨by decide, ?_⟩
    simp [Known16]
  · intro v h; cases h

/-- A red bold text with two lines, and a text without a style. -/
def caseRuns : List TextRun :=
  [⟨"a\nb".toList, some { fg := .ix16 { hex := some 0x800000, code := some 31, codeBg := some 41 }, bold := some true }⟩, ⟨"c".toList, none⟩]

theorem caseRuns_known : ∀ r ∈ caseRuns, ∀ s, r.style = some s → s.Known ∧ s.doubleUnderlined ≠ some true := by
  intro r hr s hs
  simp only [caseRuns, List.mem_cons, List.not_mem_nil, or_false] at hr
  rcases hr with rfl | rfl
  · cases hs; exact ⟨caseRed_known, by decide⟩
  · cases hs

example := C59_shown _ _ casePalette ⟨some true, false, false, true⟩ caseStyled caseRuns (fun r hr s hs => (caseRuns_known r hr s hs).1) (by decide)
example (p : Palettes) := C59_plain ⟨some false, false, false, false⟩ (by simp [RenderConfig.Styled]) p caseRuns
example := C80_shown_partial _ _ casePalette ⟨some true, false, false, true⟩ caseStyled caseRuns caseRuns_known (by decide)
example := C80_double _ _ casePalette ⟨some true, false, false, true⟩ caseStyled "text".toList _ caseRed_known (by decide)
example (p : Palettes) := C80_plain ⟨none, false, false, true⟩ (by simp [RenderConfig.Styled]) p caseRuns

example (order : List Str → List Str) := C104_tmux_partial [.renderer .sgr ⟨some true, true, false⟩, .manager (some .tmux)] order false _ _ casePalette (by decide)
  (.inl (by decide)) caseRuns caseRuns_known (by decide)

example (order : List Str → List Str) (p : Palettes) := C104_plain [.renderer .sgr ⟨some true, true, false⟩, .manager (some .noOp)] order true p caseRuns (.inl (by decide))
example (order : List Str → List Str) (p : Palettes) := C104_plain [.renderer .sgr ⟨none, true, false⟩] order true p caseRuns
  (.inr ⟨.inl (by decide), by unfold RenderConfig.Styled; decide⟩)
example (order : List Str → List Str) (p : Palettes) := C104_others [.manager (some .html)] [.renderer .sgr ⟨none, true, false⟩, .manager (some .html)] order true false p caseRuns
  (by decide) (.inl (by decide))
example (order : List Str → List Str) (p : Palettes) := C104_off_partial [.manager (some .html), .renderer .sgr ⟨some true, false, false⟩] order true p caseRuns .tmux true false
  (.inr (.inr ⟨rfl, by simp⟩))

example (order : List Str → List Str) := C108_html { fg := .rgb (some 1), bold := some true } { fg := .ix16 { hex := some 1, code := some 31, codeBg := some 41 }, bold := some true } rfl rfl
  (by decide) order "a".toList

example := C108_terminal { fg := .rgb (some 1), bold := some true, dim := some false } { fg := .rgb (some 1), bold := some true } (some 1) none (some 1) none ⟨rfl, rfl⟩ ⟨rfl, rfl⟩ (by decide)

example := C62_partial { fg := .rgb (some 1), bold := some true, dim := some false } { fg := .rgb (some 1), bold := some true }

example (order : List Str → List Str) (ho : ∀ l, (order l).Perm l) := C82_inverse_partial order ho "a b".toList { inversed := some true, fg := .rgb (some 1) }
  ⟨by intro v h; cases h; decide, by intro v h; cases h⟩ (by decide) (by decide) (by simp) rfl (by decide)

/-! ### Texts -/

example : (∃ r, distributePadded ["ab".toList, "c".toList] 5 false true = .ok r) :=
  (C48_fits ["ab".toList, "c".toList] 5 false true (by simp)).2 (by decide)
example : ¬ ∃ r, distributePadded ["ab".toList, "c".toList] 4 false true = .ok r :=
  fun h => absurd ((C48_fits ["ab".toList, "c".toList] 4 false true (by simp)).1 h) (by decide)
example := C48_layout ["ab".toList, "c".toList, "d".toList] 9 false false _ (by decide) rfl

example : formatTimeDelta (3 / 2) (some 2) = .error .valueError := C49_short _ _ (by decide)

/-! ### Filters -/

/-- A text, a sequence, a text. -/
theorem caseLeftmost : Leftmost CsiSeq [.text ['a'], .csi "31".toList 'm', .text ['b']] := by
  refine ⟨⟨_, rfl, ?_⟩, ⟨?_, by decide⟩, ⟨_, rfl, ?_⟩, trivial⟩
  · rintro ⟨ps, f, -, t, ht⟩
    simp [Bit.written] at ht
  · decide
  · rintro ⟨ps, f, -, t, ht⟩
    simp [Bit.written] at ht

theorem caseFine : Repl.Fine 5 [.char 'E', .part 3, .char '.'] := by
  refine ⟨show 'E' ≠ '\\' by decide, ?_, ⟨by decide, by decide, by decide⟩, ?_, show '.' ≠ '\\' by decide, ?_, trivial⟩ <;> intro c r' h <;> cases h
  show '.'.isDigit = false
  decide

example {toInt : Str → Option Int} (hi : ∀ n : Nat, toInt (dec n) = some (n : Int)) : ReplaceCSI toInt "E\\3.".toList "a\x1b[31mb".toList = some "aE31.b".toList :=
  C111_csi hi [.char 'E', .part 3, .char '.'] caseFine _ caseLeftmost

example {toInt : Str → Option Int} (hi : ∀ n : Nat, toInt (dec n) = some (n : Int)) : VisualuzeWhitespace toInt "<\\g<0>>".toList "a b\nc".toList = some "a< >b<\n>\nc".toList :=
  C111_space hi [.char '<', .named 0, .char '>']
    ⟨show '<' ≠ '\\' by decide, fun _ _ _ => trivial, Nat.zero_le _, fun _ _ _ => trivial, show '>' ≠ '\\' by decide, fun _ _ _ => trivial, trivial⟩ "a b\nc".toList

example {toInt : Str → Option Int} (hi : ∀ n : Nat, toInt (dec n) = some (n : Int)) : ReplaceNonAsciiBytes toInt [0x3f] [65, 0xd0] = some [65, 0x3f] :=
  C111_bytes hi [.char '?'] ⟨show '?' ≠ '\\' by decide, fun _ _ _ => trivial, trivial⟩ [0x3f] (by decide) [65, 0xd0]

example {toInt : Str → Option Int} (hi : ∀ n : Nat, toInt (dec n) = some (n : Int)) (s : Str) : ReplaceSGR toInt "E\\6.".toList s = none :=
  ((C111_refused hi [.char 'E'] "\\6.".toList).1 ⟨show 'E' ≠ '\\' by decide, fun _ _ _ => trivial, trivial⟩ (BadRepl.part 6 ['.'] (by decide) (by decide) (by decide)) s).1

example : replaceCsi [] "a\x1b[31mb".toList = "ab".toList := (C77_csi_any _).2 _ caseLeftmost rfl []

/-! ### The command line -/

example (fuel : Nat) (w : World) := C90_program asciiDigit_figures spelled_example fuel w

example (fuel : Nat) (w : World) : ∃ v : Nat, program fuel w [.debug, .int .buffer (some v), .file ['f']] = program fuel w [.debug, .file ['f']] := by
  obtain ⟨v, -, h⟩ := C96_debug true (c := 80) (by omega)
  exact ⟨v, h fuel w (pre := [.debug]) (post := [.file ['f']]) (by simp) (by simp)⟩

example (fuel : Nat) (w : World) : program fuel w [.flag .binary, .int .marker (some 2), .file ['f']] = program fuel w [.flag .binary, .file ['f']] :=
  (C97_marker true (c := 80) (by omega)).2 2 fuel w (pre := [.flag .binary]) (post := [.file ['f']]) (by simp)

example : longNameOf (.flag .noOffsets) ∈ optionsUnder (helpPage true 80) (titleOf .binary) :=
  (C97_listed true (c := 80) (by omega) .binary (.flag .noOffsets) (by intro o h; cases h)).1 .noOffsets

example (fuel : Nat) (w : World) : program fuel w [.flag .demo, .flag .decode] = program fuel w [.flag .demo] :=
  ((C98_demo_partial true (c := 80) (by omega)).2 fuel w (pre := [.flag .demo]) (post := []) (by simp)).2.1

end Kolombos
