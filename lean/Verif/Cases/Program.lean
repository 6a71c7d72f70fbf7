import Verif.Props.Args
import Verif.Props.Stdin
import Verif.Props.Parts
import Verif.Props.Labels
import Verif.Props.Colouring
import Verif.Props.Details
import Verif.Props.Limits
import Verif.Props.Legend
import Verif.Props.Keys
import Verif.Props.Tokens

/-! Applications of the theorems about the program (from the options on) to concrete command lines.
Each one shows that the hypotheses of the theorem it names can be met, by something that is not trivial. -/

namespace Kolombos
open Spec

/-- There are settings that a command line asks for. -/
theorem asked_closed {args : List Arg} (h1 : ∀ o, .int o none ∉ args) (h2 : ∀ a ∈ args, ∀ b ∈ args, clash a b = false)
    (h3 : (fileNames args).length ≤ 1) (hh : .help ∉ args) : ∃ s, Asked args s := by
  obtain ⟨s, -, hs⟩ := (C55_settings args hh).1 (wellFormed_closed h1 h2 h3)
  exact ⟨s, hs⟩

/-- A file with a sequence, a line feed and a letter beyond ASCII. -/
def caseData : Bytes := [0x61, 0x1b, 0x5b, 0x33, 0x31, 0x6d, 0x0a, 0xc3, 0xa9]

theorem caseData_good : ¬ BadChunk caseData := fun h => absurd ((anyBad_iff _).2 h) (by decide)

/-- `kolombos -mm f`: -/
def caseText : List Arg := [.int .marker (some 2), .file ['f']]

theorem caseText_views : Views caseText ['f'] :=
  ⟨wellFormed_closed (by intro o; cases o <;> decide) (by decide) (by decide), rfl, by decide, by decide⟩

/-- `kolombos -b -w 4 f`: -/
def caseBinary : List Arg := [.flag .binary, .int .columns (some 4), .file ['f']]

theorem caseBinary_views : Views caseBinary ['f'] :=
  ⟨wellFormed_closed (by intro o; cases o <;> decide) (by decide) (by decide), rfl, by decide, by decide⟩

example (w : World) (h : w.file ['f'] = .ok caseData) : (program 99 w caseText).status = some 0 := by
  obtain ⟨s, hs⟩ := asked_closed (args := caseText) (by intro o; cases o <;> decide) (by decide) (by decide) (by decide)
  exact (C56_text caseText w ['f'] caseData s none none caseData caseData caseData caseText_views hs (by decide) h rfl rfl rfl rfl rfl caseData_good
    (.inr (.inl (by decide))) 99 (by decide)).1

/-- Only six bytes of it. -/
example (w : World) (h : w.file ['f'] = .ok caseData) :
    ∃ cells : List Cell, cells.map Cell.byte = [0x61, 0x1b, 0x5b, 0x33, 0x31, 0x6d] ∧
      ∃ s, appears (program 99 w (.int .maxBytes (some 6) :: caseBinary)).out = rowsView s 4 cells ++ [('\n', ({} : Style))] := by
  have hv : Views (.int .maxBytes (some 6) :: caseBinary) ['f'] :=
    ⟨wellFormed_closed (by intro o; cases o <;> decide) (by decide) (by decide), rfl, by decide, by decide⟩
  obtain ⟨s, hs⟩ := asked_closed (args := .int .maxBytes (some 6) :: caseBinary) (by intro o; cases o <;> decide) (by decide) (by decide) (by decide)
  obtain ⟨-, -, cells, h1, -, h2⟩ := C56_binary (.int .maxBytes (some 6) :: caseBinary) w ['f'] caseData s (some 6) none [0x61, 0x1b, 0x5b, 0x33, 0x31, 0x6d] caseData
    [0x61, 0x1b, 0x5b, 0x33, 0x31, 0x6d] hv hs (by decide) h 4 (by decide) rfl rfl rfl rfl rfl rfl
    (fun h => absurd ((anyBad_iff _).2 h) (by decide)) (.inr (.inl (by decide))) 99 (by decide)
  exact ⟨cells, h1, s, h2⟩

example (w : World) (h : w.file ['f'] = .error .osError) : (program 99 w caseText).status = some 1 :=
  (C56_missing 99 w caseText ['f'] .osError caseText_views h).1

example (w : World) : (program 99 w [.flag .binary, .flag .text]).status = some 2 := by
  refine (C56_usage 99 w [.flag .binary, .flag .text]).1.2 (.inl ⟨by decide, fun h => ?_⟩)
  have := (C55_settings [.flag .binary, .flag .text] (by decide)).1 h
  obtain ⟨s, h, -⟩ := this
  exact absurd h (by intro h; cases h)

/-- `-h` after `-b`; what follows does not matter. -/
example : parseArgs [.flag .binary, .help, .flag .text] = .help := by
  refine (C55_help [.flag .binary] [.flag .text] (by decide)).1 ⟨by intro o; cases o <;> decide, ?_⟩
  intro a ha b hb he
  rw [List.mem_singleton.1 ha, List.mem_singleton.1 hb] at he
  exact absurd he.clash.1 (by decide)

/-- Standard input in two parts, each a number of complete lines but the last one. -/
example (w : World) (h : w.stdin = [[0x61, 0x0a], [0x1b, 0x5b, 0x31, 0x6d, 0x62]].map .data) : (program 99 w [.int .marker (some 1)]).status = some 0 := by
  obtain ⟨s, hs⟩ := asked_closed (args := [.int .marker (some 1)]) (by intro o; cases o <;> decide) (by decide) (by decide) (by decide)
  exact (C56_stdin_text [.int .marker (some 1)] w [[0x61, 0x0a], [0x1b, 0x5b, 0x31, 0x6d, 0x62]] s none none _ _ _
    ⟨wellFormed_closed (by intro o; cases o <;> decide) (by decide) (by decide), .inl rfl, by decide⟩ hs (by decide) h (by decide) rfl rfl rfl rfl rfl
    (fun h => absurd ((anyBad_iff _).2 h) (by decide)) (.inr (.inr (by decide))) 99 (by decide)).1

example (w : World) (h : w.stdin = [[0x61, 0x0a], [0x1b, 0x5b, 0x31, 0x6d, 0x62]].map .data) : (program 99 w stdinArgs).status = some 0 := by
  obtain ⟨s, hs⟩ := asked_closed (args := stdinArgs) (by intro o; cases o <;> decide) (by decide) (by decide) (by decide)
  exact (C56_stdin_binary stdinArgs w [[0x61, 0x0a], [0x1b, 0x5b, 0x31, 0x6d, 0x62]] s none none _ _ _ stdinArgs_views hs (by decide) h (by decide)
    2 (by decide) rfl rfl rfl rfl rfl rfl (fun h => absurd ((anyBad_iff _).2 h) (by decide)) (.inr (.inr (by decide))) 99 (by decide)).1

/-- The demonstration with the file it displays. -/
example (w : World) (h : w.demo = demoFile) : (program 700 w [.flag .demo]).status = some 0 := by
  obtain ⟨s, hs⟩ := asked_closed (args := [.flag .demo]) (by intro o; cases o <;> decide) (by decide) (by decide) (by decide)
  refine (C57_demo [.flag .demo] w s none none w.demo w.demo w.demo
    ⟨wellFormed_closed (by intro o; cases o <;> decide) (by decide) (by decide), by decide, by decide⟩ hs (by decide) 16 (by decide) rfl rfl rfl rfl rfl (by simp) ?_ ?_ 700 ?_).1
  · rw [h]; exact fun hb => absurd ((anyBad_iff _).2 hb) (by decide +kernel)
  · rw [h]; exact .inr (by decide +kernel)
  · rw [h]; decide +kernel

example (w : World) (h : OnlyLineFeeds w.legend) : (program 9 w [.flag .decode, .flag .legend]).status = some 0 :=
  (C58_legend 9 w [.flag .decode, .flag .legend] (by decide) (wellFormed_closed (by intro o; cases o <;> decide) (by decide) (by decide)) (by decide) h).1

example (w : World) : (program 9 w [.flag .version]).status = some 0 :=
  (C58_version 9 w [.flag .version] (by decide) (wellFormed_closed (by intro o; cases o <;> decide) (by decide) (by decide)) (by decide) (by decide)).1

/-! ### Parts of any length -/

/-- Parts of two bytes, so that the letter is cut: it is displayed as parts of a letter. -/
theorem caseParts_good : ∀ c ∈ partsOf (bufferSize partsArgs) [0x61, 0xc3, 0xa9], ¬ BadChunk c := by
  intro c hc hb
  have : ∀ c ∈ partsOf (bufferSize partsArgs) [0x61, 0xc3, 0xa9], (pieces c).any badPiece = false := by decide
  exact absurd (this c hc) (by rw [(anyBad_iff c).2 hb]; simp)

example (w : World) (h : w.file ['f'] = .ok [0x61, 0xc3, 0xa9]) : (program 99 w partsArgs).status = some 0 := by
  obtain ⟨s, hs⟩ := asked_closed (args := partsArgs) (by intro o; cases o <;> decide) (by decide) (by decide) (by decide)
  exact (C107_text partsArgs w ['f'] [0x61, 0xc3, 0xa9] s none none _ _ _ partsArgs_views hs (by decide) h rfl rfl rfl rfl rfl caseParts_good 99 (by decide)).1

/-- In binary mode, with as many columns as fit. -/
example (w : World) (h : w.file ['f'] = .ok [0x61, 0xc3, 0xa9]) (ht : ∀ k, w.term k = 100) : (program 99 w (.flag .binary :: partsArgs)).status = some 0 := by
  obtain ⟨s, hs⟩ := asked_closed (args := .flag .binary :: partsArgs) (by intro o; cases o <;> decide) (by decide) (by decide) (by decide)
  refine (C107_binary (.flag .binary :: partsArgs) w ['f'] [0x61, 0xc3, 0xa9] s none none _ _ _
    ⟨wellFormed_closed (by intro o; cases o <;> decide) (by decide) (by decide), rfl, by decide, by decide⟩ hs (by decide) h 16 (by decide)
    (.inr ⟨rfl, 100, ht, by decide⟩) rfl rfl rfl rfl rfl ?_ 99 (by decide)).1
  exact caseParts_good

/-- A part that cannot be displayed. -/
def caseBad : Bytes := [0x61, 0x0a, 0x62, 0x63, 0x64, 0x1b, 0x5b, 0x3f, 0x31, 0x6d, 0x65]

def caseBadArgs : List Arg := [.int .buffer (some 5), .file ['f']]

theorem caseBadArgs_views : Views caseBadArgs ['f'] :=
  ⟨wellFormed_closed (by intro o; cases o <;> decide) (by decide) (by decide), rfl, by decide, by decide⟩

theorem caseBad_first : ∀ c ∈ ([[0x61, 0x0a, 0x62, 0x63, 0x64]] : List Bytes), ¬ BadChunk c := by
  intro c hc hb
  rw [List.mem_singleton.1 hc] at hb
  exact absurd ((anyBad_iff _).2 hb) (by decide)

/-- The line before it is displayed, the status is 1. -/
example (w : World) (h : w.file ['f'] = .ok caseBad) :
    (program 99 w caseBadArgs).status = some 1 ∧ ∃ shown, (program 99 w caseBadArgs).out = shown ++ errorHint ++ ['\n'] ∧ (linesOf (visible shown)).length = 1 := by
  obtain ⟨s, hs⟩ := asked_closed (args := caseBadArgs) (by intro o; cases o <;> decide) (by decide) (by decide) (by decide)
  obtain ⟨h1, shown, h2, -, h3⟩ := C107_text_fails caseBadArgs w ['f'] caseBad s none none _ _ _ caseBadArgs_views hs (by decide) h rfl rfl rfl rfl rfl
    [[0x61, 0x0a, 0x62, 0x63, 0x64]] [[0x65]] [0x1b, 0x5b, 0x3f, 0x31, 0x6d] (by decide) caseBad_first ((anyBad_iff _).1 (by decide)) 99 (by decide)
  refine ⟨h1, shown, h2, ?_⟩
  rw [h3, List.length_mapIdx]
  decide +kernel

/-- In rows of two bytes: two rows. -/
example (w : World) (h : w.file ['f'] = .ok caseBad) :
    (program 99 w ([.flag .binary, .int .columns (some 2)] ++ caseBadArgs)).status = some 1 ∧
    ∃ shown, (program 99 w ([.flag .binary, .int .columns (some 2)] ++ caseBadArgs)).out = shown ++ errorHint ++ ['\n'] ∧ (linesOf (visible shown)).length = 2 := by
  obtain ⟨s, hs⟩ := asked_closed (args := [.flag .binary, .int .columns (some 2)] ++ caseBadArgs) (by intro o; cases o <;> decide) (by decide) (by decide) (by decide)
  obtain ⟨h1, shown, h2, -, h3, -⟩ := C107_binary_fails ([.flag .binary, .int .columns (some 2)] ++ caseBadArgs) w ['f'] caseBad s none none _ _ _
    ⟨wellFormed_closed (by intro o; cases o <;> decide) (by decide) (by decide), rfl, by decide, by decide⟩ hs (by decide) h 2 (by decide) (.inl rfl) rfl rfl rfl rfl rfl
    [[0x61, 0x0a, 0x62, 0x63, 0x64]] [[0x65]] [0x1b, 0x5b, 0x3f, 0x31, 0x6d] (by decide) caseBad_first ((anyBad_iff _).1 (by decide)) 99 (by decide)
  exact ⟨h1, shown, h2, h3⟩

example (w : World) (h : w.file ['f'] = .ok caseBad) : (program 99 w caseBadArgs).status = some 1 := by
  obtain ⟨s, hs⟩ := asked_closed (args := caseBadArgs) (by intro o; cases o <;> decide) (by decide) (by decide) (by decide)
  exact (C107_status caseBadArgs w ['f'] caseBad s none none _ _ _ caseBadArgs_views hs h (fun h => absurd h (by decide)) rfl rfl rfl rfl rfl 99 (by decide)).1.2
    ⟨[0x1b, 0x5b, 0x3f, 0x31, 0x6d], by decide, (anyBad_iff _).1 (by decide)⟩

/-- The same from standard input. -/
def caseBadParts : List Bytes := [[0x61, 0x0a, 0x62, 0x63, 0x64], [0x1b, 0x5b, 0x3f, 0x31, 0x6d], [0x65]]

example (w : World) (h : w.stdin = caseBadParts.map .data) : (program 99 w []).status = some 1 := by
  obtain ⟨s, hs⟩ := asked_closed (args := []) (by intro o; cases o <;> decide) (by decide) (by decide) (by decide)
  exact (C107_stdin_text_fails [] w caseBadParts s none none _ _ _ ⟨wellFormed_closed (by intro o; cases o <;> decide) (by decide) (by decide), .inl rfl, by decide⟩ hs (by decide) h (by decide)
    rfl rfl rfl rfl rfl [[0x61, 0x0a, 0x62, 0x63, 0x64]] [[0x65]] [0x1b, 0x5b, 0x3f, 0x31, 0x6d] (by decide) caseBad_first ((anyBad_iff _).1 (by decide)) 99 (by decide)).1

example (w : World) (h : w.stdin = caseBadParts.map .data) : (program 99 w stdinArgs).status = some 1 := by
  obtain ⟨s, hs⟩ := asked_closed (args := stdinArgs) (by intro o; cases o <;> decide) (by decide) (by decide) (by decide)
  exact (C107_stdin_binary_fails stdinArgs w caseBadParts s none none _ _ _ stdinArgs_views hs (by decide) h (by decide) 2 (by decide) (.inl rfl)
    rfl rfl rfl rfl rfl [[0x61, 0x0a, 0x62, 0x63, 0x64]] [[0x65]] [0x1b, 0x5b, 0x3f, 0x31, 0x6d] (by decide) caseBad_first ((anyBad_iff _).1 (by decide)) 99 (by decide)).1

example (w : World) (h : w.stdin = caseBadParts.map .data) : (program 99 w [.int .maxBytes (some 4)]).status = some 0 := by
  obtain ⟨s, hs⟩ := asked_closed (args := [.int .maxBytes (some 4)]) (by intro o; cases o <;> decide) (by decide) (by decide) (by decide)
  refine (C107_stdin_status [.int .maxBytes (some 4)] w caseBadParts s (some 4) none _ _ [0x61, 0x0a, 0x62, 0x63]
    ⟨wellFormed_closed (by intro o; cases o <;> decide) (by decide) (by decide), .inl rfl, by decide⟩ hs h (by decide)
    (fun h => absurd h (by decide)) rfl rfl rfl rfl rfl 99 (by decide)).2.2 ?_
  intro c hc hb
  have : ∀ c ∈ takeParts 4 caseBadParts, (pieces c).any badPiece = false := by decide
  exact absurd (this c hc) (by rw [(anyBad_iff c).2 hb]; simp)

example (w : World) (h : w.stdin = labelInput.map .data) : (program 100 w [.flag .decode]).status = some 0 := by
  obtain ⟨s, hs⟩ := asked_closed (args := [.flag .decode]) (by intro o; cases o <;> decide) (by decide) (by decide) (by decide)
  exact (C107_stdin_text [.flag .decode] w labelInput s none none _ _ _ ⟨wellFormed_closed (by intro o; cases o <;> decide) (by decide) (by decide), .inl rfl, by decide⟩ hs (by decide) h (by decide)
    rfl rfl rfl rfl rfl labelInput_good 100 (by decide)).1

example (w : World) (h : w.stdin = labelInput.map .data) : (program 100 w stdinArgs).status = some 0 := by
  obtain ⟨s, hs⟩ := asked_closed (args := stdinArgs) (by intro o; cases o <;> decide) (by decide) (by decide) (by decide)
  exact (C107_stdin_binary stdinArgs w labelInput s none none _ _ _ stdinArgs_views hs (by decide) h (by decide) 2 (by decide) (.inl rfl)
    rfl rfl rfl rfl rfl labelInput_good 100 (by decide)).1

/-! ### One option more -/

theorem caseFile_good (args : List Arg) (h : bufferSize args = 4096) : ∀ c ∈ partsOf (bufferSize args) caseData, ¬ BadChunk c := by
  rw [h]
  intro c hc hb
  have : ∀ c ∈ partsOf 4096 caseData, (pieces c).any badPiece = false := by decide
  exact absurd (this c hc) (by rw [(anyBad_iff c).2 hb]; simp)

example (w : World) (h : w.file ['f'] = .ok caseData) :
    ∃ bare, DisplayedLines (appears (program 100 w (.flag .noLineNumbers :: caseText)).out) bare ∧
      DisplayedLines (appears (program 100 w caseText).out) (bare.mapIdx fun i l => lineNumber (i + 1) ++ l) :=
  (C115_numbers [] caseText w ['f'] caseData none none _ _ _
    ⟨wellFormed_closed (by intro o; cases o <;> decide) (by decide) (by decide), rfl, by decide, by decide⟩ (by decide) (by decide) h rfl rfl rfl rfl rfl
    (caseFile_good _ rfl) 100 (by decide)).2.2

example (w : World) (h : w.file ['f'] = .ok caseData) :
    appears (program 100 w (.flag .noSeparators :: caseText)).out = (appears (program 100 w caseText).out).filter (fun x => !IsSeparator x) :=
  (C115_separators [] caseText w ['f'] caseData none none _ _ _
    ⟨wellFormed_closed (by intro o; cases o <;> decide) (by decide) (by decide), rfl, by decide, by decide⟩ (by decide) h rfl rfl rfl rfl rfl
    (caseFile_good _ rfl) 100 (by decide)).2.2

example (w : World) (h : w.file ['f'] = .ok caseData) :
    ∃ rows, RowsFor 4 9 rows ∧ appears (program 100 w (.flag .noOffsets :: caseBinary)).out = bareRows rows := by
  obtain ⟨-, -, rows, h1, h2, -⟩ := C115_offsets [] caseBinary w ['f'] caseData none none _ _ _
    ⟨wellFormed_closed (by intro o; cases o <;> decide) (by decide) (by decide), rfl, by decide, by decide⟩ (by decide) (by decide) h 4 (by decide) (.inl rfl) rfl rfl rfl rfl rfl
    (caseFile_good _ rfl) 100 (by decide)
  exact ⟨rows, h1, h2⟩

example (w : World) (h : w.file ['f'] = .ok caseData) :
    ∃ rows, RowsFor 4 9 rows ∧ appears (program 100 w (.flag .decimalOffsets :: caseBinary)).out =
      offsetRows (figuresInk true 32) (figuresInk true 36 9 ++ [('\n', ({} : Style))]) 4 rows := by
  obtain ⟨-, -, rows, h1, h2, -⟩ := C115_decimal [] caseBinary w ['f'] caseData none none _ _ _
    ⟨wellFormed_closed (by intro o; cases o <;> decide) (by decide) (by decide), rfl, by decide, by decide⟩ (by decide) (by decide) h 4 (by decide) rfl rfl rfl rfl rfl rfl
    (caseFile_good _ rfl) 100 (by decide)
  exact ⟨rows, h1, h2⟩

example (w : World) (h : w.file ['f'] = .ok caseData) :
    visible (program 100 w (.flag .colorMarkers :: caseText)).out = visible (program 100 w caseText).out := by
  obtain ⟨s, hs⟩ := asked_closed (args := caseText) (by intro o; cases o <;> decide) (by decide) (by decide) (by decide)
  exact (C116_text .markers [] caseText w ['f'] caseData s none none _ _ _
    ⟨wellFormed_closed (by intro o; cases o <;> decide) (by decide) (by decide), rfl, by decide, by decide⟩ hs (by decide) h rfl rfl rfl rfl rfl
    (caseFile_good _ rfl) 100 (by decide)).2.2.2.2 (by decide)

example (w : World) (h : w.file ['f'] = .ok caseData) : (program 100 w (.flag .decode :: caseBinary)).status = some 0 := by
  obtain ⟨s, hs⟩ := asked_closed (args := caseBinary) (by intro o; cases o <;> decide) (by decide) (by decide) (by decide)
  exact (C116_binary .decode [] caseBinary w ['f'] caseData s none none _ _ _
    ⟨wellFormed_closed (by intro o; cases o <;> decide) (by decide) (by decide), rfl, by decide, by decide⟩ hs (by decide) h 4 (by decide) (.inl rfl) rfl rfl rfl rfl rfl
    (caseFile_good _ rfl) 100 (by decide)).2.1

example (w : World) (h : w.file ['f'] = .ok caseData) :
    (appears (program 100 w [.int .marker (some 1), .file ['f']]).out).filter (fun x => !IsDetail x) = appears (program 100 w [.file ['f']]).out :=
  (C117_text [] [.file ['f']] 1 w ['f'] caseData none none _ _ _
    ⟨wellFormed_closed (by intro o; cases o <;> decide) (by decide) (by decide), rfl, by decide, by decide⟩ (by decide) rfl h rfl rfl rfl rfl rfl
    (caseFile_good _ rfl) 100 (by decide)).2.2

example (w : World) (h : w.file ['f'] = .ok caseData) :
    ∃ (s : Settings) (cells : List Cell), cells.map Cell.byte = caseData ∧
      appears (program 100 w (.int .maxLines (some 1) :: caseBinary)).out = rowsView s 4 (cells.take 6) ++ [('\n', ({} : Style))] := by
  obtain ⟨-, -, s, cells, -, h1, -, h2⟩ := C114_binary [] caseBinary w ['f'] caseData 1 (by decide) none caseData [0x61, 0x1b, 0x5b, 0x33, 0x31, 0x6d] caseBinary_views (by decide) h
    4 (by decide) (.inl rfl) rfl rfl rfl (.inr ⟨⟨[0xc3, 0xa9], rfl⟩, rfl⟩) (caseFile_good _ rfl) 100 (by decide)
  exact ⟨s, cells, h1, h2⟩

example (w : World) (h : w.stdin = labelInput.map .data) :
    ∃ full shown, DisplayedLines (appears (program 100 w []).out) full ∧ DisplayedLines (appears (program 100 w [.int .maxBytes (some 1)]).out) shown ∧
      FirstBytes [0x61] full shown := by
  have h1 : ∀ c ∈ labelInput, ¬ BadChunk c := labelInput_good
  have h2 : ∀ c ∈ takeParts 1 labelInput, ¬ BadChunk c := by
    intro c hc hb
    have : ∀ c ∈ takeParts 1 labelInput, (pieces c).any badPiece = false := by decide
    exact absurd (this c hc) (by rw [(anyBad_iff c).2 hb]; simp)
  exact (C114_stdin_bytes [] [] w labelInput 1 (by decide) ⟨wellFormed_closed (by intro o; cases o <;> decide) (by decide) (by decide), .inl rfl, by decide⟩ (by decide) h (by decide)
    rfl rfl h1 h2 100 (by decide)).2.2

/-! ### The terminal -/

/-- `COLUMNS=120 kolombos -b f` on a terminal of 100 columns: as with `-w 20`. -/
example (fuel : Nat) (w : World) (z : Bool) :
    program fuel (w.inside (fun _ => some 120) z fun _ => ⟨some ['1', '2', '0'], none, some (100, 24)⟩) [.flag .binary, .file ['f']] =
      program fuel (w.inside (fun _ => some 120) z fun _ => ⟨some ['1', '2', '0'], none, some (100, 24)⟩) [.flag .binary, .file ['f'], .int .columns (some 20)] :=
  C106_program fuel w (fun _ => some 120) z (fun _ => ⟨some ['1', '2', '0'], none, some (100, 24)⟩) 120 (by simp) (fun _ => .inl ⟨by decide, _, rfl, rfl⟩)
    [.flag .binary, .file ['f']] { binary := true } (some ['f']) rfl rfl rfl rfl

example := C106_columns 9 { binary := true } rfl rfl rfl (fun _ => 100) 100 (fun _ => rfl) none [.data [0x61, 0x0a]] [] []

example : (getTerminalSize (fun _ => none) true ⟨some ['x'], none, none⟩).1 = 80 :=
  C106_redirected (fun _ => none) true ⟨some ['x'], none, none⟩ rfl fun c h => by
    obtain ⟨-, t, -, h⟩ := h
    cases h

example : (getTerminalSize (fun _ => none) true ⟨some ['x'], none, some (90, 24)⟩).1 = 90 :=
  (C106_width (fun _ => none) true ⟨some ['x'], none, some (90, 24)⟩ (by simp) 90).2
    (.inr ⟨fun _ ⟨_, _, _, h⟩ => (by cases h), .inl ⟨90, 24, rfl, rfl⟩⟩)

/-! ### Waiting for a key -/

/-- The attributes of a terminal. -/
def caseAttrs : TermAttrs := ⟨0x500, 5, 0xbf, 0x8a3b, 15, 15, [[3]]⟩

example : (waitKey ⟨some caseAttrs, [], []⟩ { keys := .ok ['q', 'w'] }).kb.attrs = some caseAttrs := C105_restored _ _ rfl

example : OneKeyMode caseAttrs { caseAttrs with lflag := 0x8a31, cc := [[3]] } := by
  refine C105_during ⟨some caseAttrs, [], []⟩ { keys := .ok ['q'] } _ _ rfl ?_
  rfl

example : (waitKey ⟨some caseAttrs, [], []⟩ { keys := .ok ['q', 'w'] }).res = .ok (some ['q']) :=
  (C105_result ⟨some caseAttrs, [], []⟩ { keys := .ok ['q', 'w'] } caseAttrs rfl rfl rfl ['q', 'w'] rfl).1

example : (waitKey ⟨some caseAttrs, [], []⟩ { keys := .error .osError }).res = .ok none :=
  (C105_exception ⟨some caseAttrs, [], []⟩ { keys := .error .osError } caseAttrs rfl rfl rfl .osError rfl).2.1 rfl

example : (waitKey ⟨none, [], []⟩ { keys := .ok ['q'] }).res = .error .osError := (C105_no_terminal ⟨none, [], []⟩ { keys := .ok ['q'] } rfl).2

/-! ### Pieces -/

/-- A sequence among letters. -/
example : ∃ q ∈ shown (registryOf {}) [0x61, 0x1b, 0x5b, 0x31, 0x6d], q.1 = [0x1b, 0x5b, 0x31, 0x6d] ∧ IsEscape q.1 := by
  have h : ∃ q ∈ shown (registryOf {}) [0x61, 0x1b, 0x5b, 0x31, 0x6d], q.1 = [0x1b, 0x5b, 0x31, 0x6d] ∧ classOf q.2 = some .escapeSeq := by decide +kernel
  obtain ⟨q, h1, h2, h3⟩ := h
  exact ⟨q, h1, h2, (C06_escape_iff {} _ q.1 q.2 h1).1 (.inl h3)⟩

end Kolombos
