import Verif.Props.DebugLimits
import Verif.Props.DebugApp
import Verif.Props.DebugScreen
import Verif.Props.Output
import Verif.Props.OutputScreen
import Verif.Props.SettingsTable
import Verif.Cases.Program

/-! Applications of the theorems about debug output and about failures of the output to concrete runs.
Each one shows that the hypotheses of the theorem it names can be met, by something that is not trivial. -/

namespace Kolombos
open Spec Debug

/-- Whether a run ended as usual. -/
def endedOk : Res (Option State) → Bool
  | .ok (some _) => true
  | _ => false

theorem endedOk_spec {r : Res (Option State)} (h : endedOk r = true) : ∃ st, r = .ok (some st) := by
  unfold endedOk at h
  split at h
  · exact ⟨_, rfl⟩
  · cases h

/-- Two chunks; a line across them. -/
def caseChunks : List Bytes := [[0x61, 0x62], [0x0a, 0x63, 0x07]]

/-! ### Reports -/

example : (Debug.byteIoRun 9 { debug := 1 } (.file ['f'] false) (fun _ => 80) (fun _ => 30) none [.data [0x61], .data [0x62]]).res = .err .osError :=
  (C67_unseekable 9 { debug := 1 } ['f'] (fun _ => 80) (fun _ => 30) [0x61] (by decide) [.data [0x62]]).1

example : (chunkReports { debug := 2 } 0 0 caseChunks).Sublist
    (screenTexts (stdoutOf 2 (Debug.byteIoRun 9 { debug := 2 } (.file ['f'] true) (fun _ => 80) (fun _ => 30) none (caseChunks.map .data)).evs)) := by
  obtain ⟨st, h⟩ := endedOk_spec (r := (Debug.byteIoRun 9 { debug := 2 } (.file ['f'] true) (fun _ => 80) (fun _ => 30) none (caseChunks.map .data)).res) (by decide +kernel)
  refine C68_screen 9 { debug := 2 } (by decide) (.file ['f'] true) ?_ (fun _ => 80) (fun _ => 30) (fun h => absurd h (by decide)) caseChunks (by decide) rfl rfl h
  intro name k he
  cases he
  decide

/-- ... and there are two such reports. -/
example : (chunkReports { debug := 2 } 0 0 caseChunks).length = 2 := by decide +kernel

example : ∃ us : List (Str × Str × Str),
    us.map (fun u => (visible u.1, visible u.2.1)) = lineDumps { debug := 2, text := true } 0 (keptLines ((chunkPieces caseChunks).flatMap (dumpedBytes { debug := 2, text := true }))) := by
  obtain ⟨st, h⟩ := endedOk_spec (r := (Debug.byteIoRun 9 { debug := 2, text := true } .stdin (fun _ => 80) (fun _ => 30) none (caseChunks.map .data)).res) (by decide +kernel)
  obtain ⟨us, -, -, h⟩ := C69_exact_partial 9 { debug := 2, text := true } rfl .stdin (fun _ => 80) (fun _ => 30) caseChunks (by decide) rfl rfl h
  exact ⟨us, h⟩

example : (screenTexts (byteIoRun 9 { debug := 2, text := true } (fun _ => 80) none (caseChunks.map .data)).out).length =
    (keptLines ((chunkPieces caseChunks).flatMap (dumpedBytes { debug := 2, text := true }))).length := by
  obtain ⟨st, h⟩ := endedOk_spec (r := (Debug.byteIoRun 9 { debug := 2, text := true } .stdin (fun _ => 80) (fun _ => 30) none (caseChunks.map .data)).res) (by decide +kernel)
  exact (C69_screen_exact_partial 9 { debug := 2, text := true } rfl (by decide) .stdin (by simp) (by simp) (fun _ => 80) (fun _ => 30) caseChunks (by decide) rfl rfl h).1

/-- The limits of bytes and of lines cut the same chunk. -/
example : ∃ ts : List Str, List.Forall₂ Reports ts
    (((limitedReports { debug := 2, maxBytes := some 3, maxLines := some 2 } (some 3) (some 2) (fun off _ => off) 0 [] limitCase).filter fun r => r.1 ≤ 2).map Prod.snd) := by
  obtain ⟨st, h⟩ := endedOk_spec (r := (Debug.byteIoRun 9 { debug := 2, maxBytes := some 3, maxLines := some 2 } .stdin (fun _ => 80) (fun _ => 30) none
    (limitCase.map .data)).res) (by decide +kernel)
  obtain ⟨ts, -, h⟩ := C120_screen_partial 9 { debug := 2, maxBytes := some 3, maxLines := some 2 } .stdin (by simp) (fun _ => 80) (fun _ => 30)
    (fun h => absurd h (by decide)) limitCase (by decide) (some 3) (some 2) rfl rfl h
  exact ⟨ts, h⟩

example : ∃ us : List (Nat × Str), List.Forall₂ (fun u r => u.1 = r.1 ∧ Reports (visible u.2) r.2) us
    (limitedReports { debug := 2, maxLines := some 2 } none (some 2) (fun off n => off + n) 0 [] limitCase) := by
  obtain ⟨st, h⟩ := endedOk_spec (r := (Debug.byteIoRun 9 { debug := 2, maxLines := some 2 } .stdin (fun _ => 80) (fun _ => 30) none
    (limitCase.map .data)).res) (by decide +kernel)
  obtain ⟨us, -, h⟩ := C120_lines_partial 9 { debug := 2, maxLines := some 2 } .stdin (fun _ => 80) (fun _ => 30) limitCase (by decide) (some 2) rfl rfl h
  exact ⟨us, h⟩

/-! ### The table of settings -/

example : ∃ a b, appears (stdoutOf 4 (settingsEvents { debug := 4, marker := 1 } (some ['f']) (fun _ _ => ['m']) fun _ => 30)) =
    fullTableView { debug := 4, marker := 1 } (some ['f']) a b 30 30 :=
  C88_derived { debug := 4, marker := 1 } (by decide) rfl (some ['f']) (by intro f hf; cases hf; decide) (fun _ _ => ['m']) (by intro t f; show _ ∉ "m".toList; decide) fun _ => 30

example : stdoutOf 2 (settingsEvents { debug := 2 } none (fun _ _ => ['m']) fun _ => 30) = [] := C88_none { debug := 2 } (by decide) none (fun _ _ => ['m']) fun _ => 30

/-- `kolombos -DDD -m2 f` and `kolombos -DDDD f`. -/
example (w : World) : ∃ s rest, Asked [.debug, .debug, .debug, .int .marker (some 2), .file ['f']] s ∧
    appears (Debug.program 9 debugDetails [] w [.debug, .debug, .debug, .int .marker (some 2), .file ['f']]).out = tableView s (some ['f']) 30 30 ++ appears rest := by
  obtain ⟨s, hs⟩ := asked_closed (args := [.debug, .debug, .debug, .int .marker (some 2), .file ['f']]) (by intro o; cases o <;> decide) (by decide) (by decide) (by decide)
  obtain ⟨rest, h⟩ := C88_program 9 debugDetails [] w [.debug, .debug, .debug, .int .marker (some 2), .file ['f']]
    (wellFormed_closed (by intro o; cases o <;> decide) (by decide) (by decide)) (by decide) s hs (by decide) (by decide)
  exact ⟨s, rest, hs, h⟩

example (w : World) : ∃ s a b rest, Asked [.debug, .debug, .debug, .debug, .file ['f']] s ∧
    appears (Debug.program 9 debugDetails [] w [.debug, .debug, .debug, .debug, .file ['f']]).out = fullTableView s (some ['f']) a b 30 30 ++ appears rest := by
  obtain ⟨s, hs⟩ := asked_closed (args := [.debug, .debug, .debug, .debug, .file ['f']]) (by intro o; cases o <;> decide) (by decide) (by decide) (by decide)
  obtain ⟨a, b, rest, h⟩ := C88_program_derived 9 debugDetails [] w [.debug, .debug, .debug, .debug, .file ['f']]
    (wellFormed_closed (by intro o; cases o <;> decide) (by decide) (by decide)) (by decide) s hs (by decide) (by decide) (by intro t f; show '\x1b' ∉ "m".toList; decide)
  exact ⟨s, a, b, rest, hs, h⟩

/-! ### Debugging does not change the display -/

example (w : World) : (Debug.program 9 debugDetails [] w [.debug, .file ['f']]).status = (program 9 w [.debug, .file ['f']]).status :=
  C89_status 9 debugDetails [] w [.debug, .file ['f']] (fun _ _ _ _ => rfl)

example (w : World) : Debug.program 9 debugDetails [] w [.flag .binary, .file ['f']] = program 9 w [.flag .binary, .file ['f']] :=
  C89_quiet 9 debugDetails [] w [.flag .binary, .file ['f']] (fun _ _ _ _ => rfl) (by decide)

/-- In text mode there are no columns. -/
theorem case_text {args : List Arg} (h1 : .flag .binary ∉ args) (h2 : .flag .demo ∉ args) (h3 : args.count .debug = 1) (s : Settings) (hs : Asked args s) :
    ¬ (effectiveSettings s).readMode.1 = .binary := by
  have e1 : s.debug = 1 := hs.debug.trans h3
  have e2 : ¬ s.demo = true := by rw [hs.demo]; simpa using h2
  have e3 : ¬ s.binary = true := by rw [hs.binary]; simpa using h1
  have e4 : debugSettings s = s := by unfold debugSettings; rw [if_neg (by omega)]
  unfold effectiveSettings
  rw [e4, if_neg e2]
  unfold Settings.readMode
  rw [if_neg e3, hs.mode]
  split <;> simp

example : (screenLines (appears (program 9 debugWorld [.debug, .file "a b".toList]).out)).Sublist
    (screenLines (appears (Debug.program 9 debugDetails [] debugWorld [.debug, .file "a b".toList]).out)) :=
  C89_display 9 debugDetails (by intro t f; show '\x1b' ∉ "m".toList; decide) [] (by simp) debugWorld [.debug, .file "a b".toList] (fun _ _ _ _ => rfl) (by decide)
    (fun s hs h => absurd h (case_text (by decide) (by decide) (by decide) s hs)) (by decide +kernel)

/-- A file that is missing. -/
example : ∃ shown hint, (program 9 debugWorld [.debug, .file ['b']]).out = shown ++ hint ∧
    (screenLines (appears shown)).Sublist (screenLines (appears (Debug.program 9 debugDetails [] debugWorld [.debug, .file ['b']]).out)) := by
  obtain ⟨a, b, h1, -, h2⟩ := C89_failure 9 debugDetails (by intro t f; show '\x1b' ∉ "m".toList; decide) [] (by simp) debugWorld [.debug, .file ['b']] (fun _ _ _ _ => rfl) (by decide)
    (fun s hs h => absurd h (case_text (by decide) (by decide) (by decide) s hs)) (by decide +kernel)
  exact ⟨a, b, h1, h2⟩

/-! ### Failures of the output -/

example : (programOn takesAll 9 sampleDetails [] (sampleWorld [.data [0x61, 0x0a, 0x62]]) {} none).1.written.flatten =
    (Debug.program 9 sampleDetails [] (sampleWorld [.data [0x61, 0x0a, 0x62]]) []).out :=
  (C100_same 9 sampleDetails [] (sampleWorld [.data [0x61, 0x0a, 0x62]]) [] {} none rfl (by simp [World.open])).1

/-- A device that takes three texts. -/
def takesThree : Device := fun k _ => if k < 3 then none else some .osError

theorem takesThree_passes (ts : List Str) : Passes takesThree 0 (ts.take 3) := by
  intro i t ht
  have := (List.getElem?_eq_some_iff.1 ht).1
  rw [List.length_take] at this
  show (if 0 + i < 3 then none else some Err.osError) = none
  rw [if_pos (by omega)]

example := C100_prefix takesThree 9 sampleDetails [] (sampleWorld [.data [0x61, 0x0a, 0x62, 0x0a, 0x63]]) {} none 3 (takesThree_passes _)

example : programOn takesThree 9 sampleDetails [] (sampleWorld [.data [0x61, 0x0a, 0x62]]) {} none =
    programOn takesAll 9 sampleDetails [] (sampleWorld [.data [0x61, 0x0a, 0x62]]) {} none := by
  refine C100_usual takesThree 9 sampleDetails [] (sampleWorld [.data [0x61, 0x0a, 0x62]]) {} none ?_
  have : (programOn takesAll 9 sampleDetails [] (sampleWorld [.data [0x61, 0x0a, 0x62]]) {} none).1.written.take 3 =
      (programOn takesAll 9 sampleDetails [] (sampleWorld [.data [0x61, 0x0a, 0x62]]) {} none).1.written := by decide +kernel
  rw [← this]
  exact takesThree_passes _

/-- A device that fails at the second text only. -/
def failsOnce : Device := fun k _ => if k = 1 then some .osError else none

example : (programOn failsOnce 9 sampleDetails [] (sampleWorld [.data [0x61, 0x0a, 0x62]]) {} none).2 = some 1 := by
  have h : FailsAt failsOnce 0 (programOn takesAll 9 sampleDetails [] (sampleWorld [.data [0x61, 0x0a, 0x62]]) {} none).1.written 1
      ((programOn takesAll 9 sampleDetails [] (sampleWorld [.data [0x61, 0x0a, 0x62]]) {} none).1.written[1]?.getD []) .osError := by
    refine ⟨by decide +kernel, by decide +kernel, ?_⟩
    intro i u hi hu
    obtain rfl : i = 0 := by omega
    rfl
  obtain ⟨-, -, -, h1 | ⟨-, j, u, h⟩⟩ := C100_failure_partial failsOnce 9 sampleDetails [] (sampleWorld [.data [0x61, 0x0a, 0x62]]) {} none h (by decide)
  · exact h1
  · exfalso
    unfold failsOnce at h
    split at h <;> cases h

/-- An ASCII terminal and a letter beyond it, without line numbers. -/
example : (programOn (encoded ascii) 9 sampleDetails [] (sampleWorld [.data [0x61, 0x0a, 0xc3, 0xa9]]) { noLineNumbers := true } none).2 = some 1 := by
  rw [(C100_encoding ascii 9 sampleDetails [] (sampleWorld [.data [0x61, 0x0a, 0xc3, 0xa9]]) { noLineNumbers := true } none rfl rfl rfl).2]
  decide +kernel

/-- An interruption at the second line. -/
example : (programOn (interruptAt 1) 9 sampleDetails [] (sampleWorld [.data [0x61, 0x0a, 0x62]]) {} none).2 = some 0 := by
  refine (C101_interrupt 9 sampleDetails [] (by simp) (sampleWorld [.data [0x61, 0x0a, 0x62]]) {} none rfl rfl rfl (by simp [World.open]) (by simp) (by simp)
    (fun h => absurd h (by decide)) 1 ?_).1
  decide +kernel

example : (programOn (encoded ascii) 9 sampleDetails [] (sampleWorld [.data [0x61]]) {} none).2 = some 1 :=
  (C102_separator ascii (by decide) 9 sampleDetails [] (by simp) (sampleWorld [.data [0x61]]) {} none rfl rfl rfl rfl (by simp [World.open]) (by simp) (by simp)
    ⟨by decide, by decide⟩ (by decide +kernel)).2

end Kolombos
