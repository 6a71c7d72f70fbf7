import Verif.Props.Errors
import Verif.Props.Buffer
import Verif.Props.Chunks
import Verif.Props.Columns
import Verif.Props.Display
import Verif.Props.Underline
import Verif.Props.Distinct
import Verif.Props.Reader

/-! Applications of the theorems about a session (chunks delivered one after another) to concrete inputs.
Each one shows that the hypotheses of the theorem it names can be met, by something that is not trivial. -/

namespace Kolombos
open Spec Reader

/-! ### Text mode -/

/-- Tabs, a space, a sequence, control characters, letters, in several chunks: `exampleInk`. -/
example := C13_text { marker := 2 } rfl (fun _ => 80) exampleInk (.inl exampleInk_complete) exampleInk_readable 99 (by decide)

example := C25_lines { marker := 1 } rfl rfl (fun _ => 80) exampleInk exampleInk_complete exampleInk_readable 99 (by decide)

example := C26_view_partial { marker := 1 } rfl (fun _ => 80) exampleInk exampleInk_complete exampleInk_readable 99 (by decide)

example := C27_end { marker := 1 } rfl (fun _ => 80) exampleInk exampleInk_complete exampleInk_readable 99 (by decide)

example := C30_text { marker := 1 } rfl (fun c => c = .escapeSeq) exampleInk exampleInk_complete exampleInk_readable

/-- `Ⱡ` and the like: the control characters of `exampleInk` with two digits. -/
example : ∃ disp, ShowsText { marker := 2 } exampleInk disp ∧ ∀ q ∈ chunkPieces (exampleInk.map (·.data)), (∃ b ∈ q.2, isCtrl b = true) →
    (disp q).map Prod.fst = q.2.flatMap fun b => ['Ɐ', hexDigit (b.toNat / 16), hexDigit (b.toNat % 16)] := by
  obtain ⟨disp, h1, h2⟩ := C31_controls { marker := 2 } rfl rfl exampleInk exampleInk_complete exampleInk_readable
  exact ⟨disp, h1, fun q hq h => (h2 q hq h).2.2.2 (by decide)⟩

/-- ... and such characters there are. -/
example : ∃ q ∈ chunkPieces (exampleInk.map (·.data)), ∃ b ∈ q.2, isCtrl b = true := by decide +kernel

example := C32_offset_partial { marker := 1 } rfl (fun _ => 80) exampleInk exampleInk_complete exampleInk_readable 99 (by decide)

example := C33_text { colorMarkers := true } rfl rfl rfl exampleInk exampleInk_complete exampleInk_readable

example := C51_text { marker := 1 } rfl exampleInk exampleInk_complete exampleInk_readable

/-- A line without its line feed yet: letters, a line feed, a sequence. -/
def caseUnfinished : List ReadEvent := [⟨[0x61, 0x0a], 0, false⟩, ⟨[0x62, 0x1b, 0x5b, 0x31, 0x6d], 2, false⟩]

theorem caseUnfinished_readable : Readable caseUnfinished := by
  intro e he
  simp only [caseUnfinished, List.mem_cons, List.not_mem_nil, or_false] at he
  rw [bad_dec]
  rcases he with rfl | rfl <;> decide

theorem caseUnfinished_unfinished : Unfinished caseUnfinished := by simp [Unfinished, caseUnfinished]

example : ∃ out st, session 99 {} (fun _ => 80) caseUnfinished = ⟨out, .ok st⟩ ∧ (linesOf (visible out)).length = 1 := by
  obtain ⟨out, st, h1, h2, -⟩ := C27_prompt {} rfl (fun _ => 80) caseUnfinished caseUnfinished_unfinished caseUnfinished_readable 99 (by decide)
  exact ⟨out, st, h1, h2⟩

example := C13_text {} rfl (fun _ => 80) caseUnfinished (.inr caseUnfinished_unfinished) caseUnfinished_readable 99 (by decide)

/-- No control characters, a sequence: `a`, `ESC [ 1 m`, line feed. -/
def casePlain : List ReadEvent := [⟨[0x61, 0x1b, 0x5b, 0x31, 0x6d, 0x0a], 0, false⟩, ⟨[], 6, true⟩]

theorem casePlain_complete : Complete casePlain := ⟨casePlain.take 1, ⟨[], 6, true⟩, rfl, rfl, by simp [casePlain]⟩

theorem casePlain_readable : Readable casePlain := by
  intro e he
  simp only [casePlain, List.mem_cons, List.not_mem_nil, or_false] at he
  rw [bad_dec]
  rcases he with rfl | rfl <;> decide

example : ∃ out st, session 99 { marker := 1 } (fun _ => 80) casePlain = ⟨out, .ok st⟩ ∧ st.offset = 6 :=
  C32_exact_partial { marker := 1 } rfl (fun _ => 80) casePlain casePlain_complete casePlain_readable 99 (by decide) (by decide) (.inl (by decide))

example := C26_complete_partial { marker := 1 } rfl (fun _ => 80) casePlain casePlain_complete casePlain_readable 99 (by decide)
  (.inr (.inl ⟨[0x61, 0x1b, 0x5b, 0x31, 0x6d], rfl⟩))

/-- A sequence that cannot be displayed: what passes is still clean. -/
example := C28_clean_partial {} (fun _ => 80) [⟨[0x61, 0x0a], 0, false⟩, ⟨[0x1b, 0x5b, 0x3f, 0x31, 0x6d, 0x07], 2, false⟩] (.inr (by simp [Unfinished])) (.inl rfl) 99 (by decide)

/-! ### Binary mode -/

/-- Eight bytes in a row on a terminal of 80 columns. -/
theorem case_cols (s : Settings) (hs : s.columns = none) (hd : s.decimalOffsets = false) (off : Nat) : BinaryFormatter.curCols s 80 off = 8 := by
  unfold BinaryFormatter.curCols
  rw [hs]
  simp [BinaryFormatter.computeCols, prefix_length, terminalWidth, hd]

example := C13_binary { binary := true, columns := some 3 } rfl (fun _ => 80) (fun _ _ => (by decide : (0 : Int) < 3)) exampleInk (.inl exampleInk_complete) exampleInk_readable 99 (by decide)

example := C14_cells { binary := true } rfl exampleInk exampleInk_complete exampleInk_readable

example := C17_geometry { binary := true } rfl (fun _ => 80) 8 (by decide) (fun _ off => case_cols _ rfl rfl off) exampleInk exampleInk_complete exampleInk_readable 99 (by decide)

example := C18_hex { binary := true, noOffsets := true } rfl (fun _ => 80) 8 (by decide) (fun _ off => case_cols _ rfl rfl off) exampleInk exampleInk_complete exampleInk_readable 99 (by decide)

example := C19_offsets { binary := true } rfl (fun _ => 80) 8 (by decide) (fun _ off => case_cols _ rfl rfl off) exampleInk exampleInk_complete exampleInk_readable (by decide) 99 (by decide)

/-- Seven bytes in rows of four: one row is displayed, three bytes wait. -/
example : ∃ out st, session 99 { binary := true, columns := some 4 } (fun _ => 80) caseUnfinished = ⟨out, .ok st⟩ ∧
    (linesOf (visible out)).length = 1 ∧ st.buf.dataLen = 3 := by
  obtain ⟨out, st, h1, h2, -, h3, -⟩ := C21_held { binary := true, columns := some 4 } rfl (fun _ => 80) 4 (by decide) (fun _ _ => rfl) caseUnfinished
    caseUnfinished_unfinished caseUnfinished_readable 99 (by decide)
  exact ⟨out, st, h1, h2, h3⟩

example := C21_end { binary := true } rfl (fun _ => 80) (fun _ off => (C24_positive_partial { binary := true } rfl 80 off).2 (by decide)) exampleInk exampleInk_complete exampleInk_readable 99 (by decide)

example := C20_label_partial {} 999999 [36] (.inr rfl) (by decide)

example := C29_binary { binary := true, ignore := fun c => c = .escapeSeq } rfl exampleInk exampleInk_complete exampleInk_readable

example := C30_binary { binary := true } rfl (fun c => c = .whitespace) exampleInk exampleInk_complete exampleInk_readable

example := C33_binary { binary := true, colorMarkers := true } rfl rfl rfl exampleInk exampleInk_complete exampleInk_readable

example := C51_binary { binary := true } rfl exampleInk exampleInk_complete exampleInk_readable

example := C112_binary { binary := true } rfl exampleInk exampleInk_complete exampleInk_readable

/-- Rows of four bytes: the next chunk ends, too ... -/
example : ∃ out st, session 99 { binary := true, columns := some 4 } (fun _ => 80) caseUnfinished = ⟨out, .ok st⟩ ∧
    ∃ fuel, (processChunk fuel (Config.create { binary := true, columns := some 4 }) (fun _ => 80) st [0x61, 0x62] 7 false).res ≠ .timeout := by
  obtain ⟨out, st, h, -⟩ := C21_held { binary := true, columns := some 4 } rfl (fun _ => 80) 4 (by decide) (fun _ _ => rfl) caseUnfinished
    caseUnfinished_unfinished caseUnfinished_readable 99 (by decide)
  refine ⟨out, st, h, (C23_terminates_partial { binary := true, columns := some 4 } rfl (fun _ => 80) 99 caseUnfinished out st h [0x61, 0x62] ?_ 7 false).2 (.inl ?_)⟩
  · exact fun hb => absurd ((anyBad_iff _).2 hb) (by decide)
  · show 0 < (4 : Int)
    decide

/-- ... but not on a terminal that is too narrow. -/
example : ¬ ∃ fuel, (processChunk fuel (Config.create { binary := true }) (fun _ => 20) {} [0x61, 0x62] 0 false).res ≠ .timeout := by
  rw [C23_terminates_partial { binary := true } rfl (fun _ => 20) 1 [] [] {} rfl [0x61, 0x62] (fun hb => absurd ((anyBad_iff _).2 hb) (by decide)) 0 false]
  decide

example := C24_fits_partial {} rfl 80 5 8 (by decide)

example := C24_positive_partial { decimalOffsets := true } rfl 39 5

example := C24_narrow_partial {} rfl 40 5

/-! ### Cuts -/

/-- The same bytes cut in two ways, at the ends of pieces. -/
example : ∃ out st out' st',
    session 99 {} (fun _ => 80) [⟨[0x61, 0x62], 0, false⟩, ⟨[0x63, 0x20], 2, false⟩, ⟨[0x1b, 0x5b, 0x6d], 4, false⟩, ⟨[], 7, true⟩] = ⟨out, .ok st⟩ ∧
    session 99 {} (fun _ => 80) [⟨[0x61, 0x62, 0x63, 0x20, 0x1b, 0x5b, 0x6d], 0, false⟩, ⟨[], 7, true⟩] = ⟨out', .ok st'⟩ ∧ appears out' = appears out := by
  refine C40_text_partial {} rfl _ _ ?_ ?_ ?_ ?_ ?_ ?_ _ _ 99 ?_
  · exact ⟨[⟨[0x61, 0x62], 0, false⟩, ⟨[0x63, 0x20], 2, false⟩, ⟨[0x1b, 0x5b, 0x6d], 4, false⟩], ⟨[], 7, true⟩, rfl, rfl, by simp⟩
  · exact ⟨[⟨[0x61, 0x62, 0x63, 0x20, 0x1b, 0x5b, 0x6d], 0, false⟩], ⟨[], 7, true⟩, rfl, rfl, by simp⟩
  · intro e he
    simp only [List.mem_cons, List.not_mem_nil, or_false] at he
    rw [bad_dec]
    rcases he with rfl | rfl | rfl | rfl <;> decide
  · rfl
  · exact ⟨⟨[], [(.space, [0x20]), (.reset, [0x1b, 0x5b, 0x6d])], .inr ⟨.printable, [0x61, 0x62], [0x63], by decide +kernel⟩⟩,
      ⟨[(.printable, [0x63]), (.space, [0x20])], [(.reset, [0x1b, 0x5b, 0x6d])], .inl (by decide +kernel)⟩, safe_nil_right _, safe_nil_right _, trivial⟩
  · exact ⟨safe_nil_right _, safe_nil_right _, trivial⟩
  · decide

/-- Two lines in one chunk, and one by one. -/
def caseWhole : List ReadEvent := [⟨[0x61, 0x0a, 0x1b, 0x5b, 0x31, 0x6d, 0x0a], 0, false⟩, ⟨[], 7, true⟩]

def caseLines : List ReadEvent := [⟨[0x61, 0x0a], 0, false⟩, ⟨[0x1b, 0x5b, 0x31, 0x6d, 0x0a], 2, false⟩, ⟨[], 7, true⟩]

theorem caseWhole_complete : Complete caseWhole := ⟨caseWhole.take 1, ⟨[], 7, true⟩, rfl, rfl, by simp [caseWhole]⟩

theorem caseLines_complete : Complete caseLines := ⟨caseLines.take 2, ⟨[], 7, true⟩, rfl, rfl, by simp [caseLines]⟩

theorem caseWhole_readable : Readable caseWhole := by
  intro e he
  simp only [caseWhole, List.mem_cons, List.not_mem_nil, or_false] at he
  rw [bad_dec]
  rcases he with rfl | rfl <;> decide

example : ∃ out st out' st', session 99 {} (fun _ => 80) caseWhole = ⟨out, .ok st⟩ ∧ session 99 {} (fun _ => 60) caseLines = ⟨out', .ok st'⟩ ∧
    appears out' = appears out :=
  C40_lines_partial {} rfl caseWhole caseLines caseWhole_complete caseLines_complete caseWhole_readable rfl (by decide) (by decide) _ _ 99 (by decide)

example : ∃ out st out' st', session 99 { binary := true, columns := some 3 } (fun _ => 80) caseWhole = ⟨out, .ok st⟩ ∧
    session 99 { binary := true, columns := some 3 } (fun _ => 60) caseLines = ⟨out', .ok st'⟩ ∧ appears out' = appears out := by
  refine C40_binary_partial { binary := true, columns := some 3 } rfl caseWhole caseLines caseWhole_complete caseLines_complete caseWhole_readable rfl ?_ ?_ _ _ 3
    (by decide) (fun _ _ => rfl) (fun _ _ => rfl) 99 (by decide)
  · exact ⟨safe_nil_right _, safe_nil_right _, trivial⟩
  · exact ⟨⟨[(.printable, [0x61]), (.newline, [0x0a])], [(.sgr, [0x1b, 0x5b, 0x31, 0x6d]), (.newline, [0x0a])], .inl (by decide +kernel)⟩, safe_nil_right _, safe_nil_right _, trivial⟩

example : ∃ out st out' st', session 99 {} (fun _ => 80) [⟨[0x61], 0, false⟩, ⟨[0x62, 0x0a, 0x07], 1, false⟩, ⟨[], 4, true⟩] = ⟨out, .ok st⟩ ∧
    session 99 {} (fun _ => 80) [⟨[0x61, 0x62], 0, false⟩, ⟨[0x0a, 0x07], 2, true⟩] = ⟨out', .ok st'⟩ ∧ appears out' = appears out :=
  C40_ascii_partial {} rfl [⟨[0x61], 0, false⟩, ⟨[0x62, 0x0a, 0x07], 1, false⟩, ⟨[], 4, true⟩] [⟨[0x61, 0x62], 0, false⟩, ⟨[0x0a, 0x07], 2, true⟩]
    ⟨[⟨[0x61], 0, false⟩, ⟨[0x62, 0x0a, 0x07], 1, false⟩], ⟨[], 4, true⟩, rfl, rfl, by simp⟩ ⟨[⟨[0x61, 0x62], 0, false⟩], ⟨[0x0a, 0x07], 2, true⟩, rfl, rfl, by simp⟩ rfl
    (by decide) _ _ 99 (by decide)

/-! ### The same display -/

/-- Cut in another way, the display is the same: so the bytes are. -/
example : knownBytes (chunkPieces (caseWhole.map (·.data))) = knownBytes (chunkPieces (caseLines.map (·.data))) := by
  have hl : Readable caseLines := by
    intro e he
    simp only [caseLines, List.mem_cons, List.not_mem_nil, or_false] at he
    rw [bad_dec]
    rcases he with rfl | rfl | rfl <;> decide
  exact C113_text { marker := 2 } rfl (by decide) (fun _ => rfl) caseWhole caseLines caseWhole_complete caseWhole_readable caseLines_complete hl (fun _ => 80) (fun _ => 80) 99 99
    (by decide) (by decide) (by decide +kernel)

example : delivered caseWhole = delivered caseLines := by
  have hl : Readable caseLines := by
    intro e he
    simp only [caseLines, List.mem_cons, List.not_mem_nil, or_false] at he
    rw [bad_dec]
    rcases he with rfl | rfl | rfl <;> decide
  exact C113_binary { binary := true, columns := some 3 } rfl (fun _ => 80) (fun _ => 60) 3 3 (by decide) (by decide) (fun _ _ => rfl) (fun _ _ => rfl) caseWhole caseLines
    caseWhole_complete caseWhole_readable caseLines_complete hl 99 99 (by decide) (by decide) (by decide +kernel)

/-! ### Reading -/

theorem exampleIo_noRaise : NoRaise exampleIo := by intro e; simp [exampleIo]

example : ∃ evs, loop (some 4) none record exampleIo 0 0 [] = .pure evs ∧ delivered evs = [97, 10, 98, 10] := C36_max_bytes 4 (by decide) exampleIo exampleIo_noRaise

/-- Four bytes, but not the second line feed: the three bytes before it. -/
example : ∃ evs, loop (some 4) (some 2) record exampleIo 0 0 [] = .pure evs ∧ delivered evs = [97, 10, 98] :=
  C37_limits (some 4) (some 2) exampleIo exampleIo_noRaise [97, 10, 98, 10] [97, 10, 98] rfl (.inr ⟨⟨[99], rfl⟩, rfl⟩)

example : ∃ evs, loop none none record exampleIo 0 0 [] = .pure evs ∧
    ((appRun 99 {} (fun _ => 80) none exampleIo [] []).status = some 1 → ∃ e ∈ evs, BadChunk e.data) := by
  obtain ⟨evs, h1, h2, -⟩ := C09_status 99 {} (fun _ => 80) exampleIo [] [] exampleIo_noRaise ⟨rfl, rfl⟩
  exact ⟨evs, h1, h2⟩

/-! ### The queue -/

example : ∃ out b, BufOp.history {} exampleOps = .ok (out, b) ∧ rawBytes out ++ rawBytes b.chain = (BufOp.given exampleOps).flatMap Segment.raw :=
  ⟨_, _, rfl, C10_queue exampleOps _ _ rfl⟩

end Kolombos
