import Verif.Lemmas.DebugPieces
import Verif.Props.DebugScreen
/-
C118: what debug messages say about the pieces of the input.
-/
set_option linter.unusedSimpArgs false

namespace Kolombos
open Spec

theorem run_told (fuel : Nat) (s : Settings) (src : Debug.Source) (term wide : Nat → Int) (cs : List Bytes) (hcs : ∀ c ∈ cs, c ≠ [])
    (hmb : s.maxBytes = none) (hml : s.maxLines = none) {st : State}
    (hr : (Debug.byteIoRun fuel s src term wide none (cs.map .data)).res = .ok (some st)) :
    Debug.Told (Debug.byteIoRun fuel s src term wide none (cs.map .data)).evs (inputReports s 0 0 cs) := by
  unfold Debug.byteIoRun at hr ⊢
  have h1 : (Config.create s).settings.maxBytes = none := by
    rw [config_settings]; unfold Settings.readMode; repeat' split
    all_goals exact hmb
  have h2 : (Config.create s).settings.maxLines = none := by
    rw [config_settings]; unfold Settings.readMode; repeat' split
    all_goals exact hml
  simp only [Trace.log] at hr ⊢
  rw [Debug.read_evs, h1, h2]
  rw [h1, h2] at hr
  have hl : ∃ st', (Debug.readLoop (Config.create s).settings src none none (Debug.processChunk fuel (Config.create s) term wide) (cs.map .data) 0 0 0 0 {}).res = .ok st' := by
    unfold Debug.read at hr
    simp only [Trace.log] at hr
    revert hr
    generalize (Debug.readLoop _ _ _ _ _ _ _ _ _ _ _ : Trace State) = t
    intro hr
    cases hres : t.res with
    | ok st' => exact ⟨st', rfl⟩
    | timeout => simp [hres] at hr
    | err e => cases e <;> simp [hres] at hr
  obtain ⟨st', hl⟩ := hl
  rw [config_settings] at hl ⊢
  exact (Debug.readLoop_told s src fuel term wide cs hcs 0 0 0 0 {} st' rfl hl).mono ((List.sublist_append_right _ _).trans (List.sublist_append_right _ _))

/-- C118 on the trace of messages and writes: if the input is read to its end without limits, there is a message of level 1 for every
chunk, followed by a message of level 2 for every piece of the chunk, in their order; each has the offset of the piece, the number of
its kind, its class and its length, and with `-DDD` its bytes.  The last of them are about the end of the input. -/
theorem C118_messages (fuel : Nat) (s : Settings) (src : Debug.Source) (term wide : Nat → Int) (cs : List Bytes) (hcs : ∀ c ∈ cs, c ≠ [])
    (hmb : s.maxBytes = none) (hml : s.maxLines = none) {st : State}
    (hr : (Debug.byteIoRun fuel s src term wide none (cs.map .data)).res = .ok (some st)) :
    ∃ us : List (Nat × Str), (us.map fun u => Ev.dbg u.1 u.2).Sublist (Debug.byteIoRun fuel s src term wide none (cs.map .data)).evs ∧
      List.Forall₂ (fun u r => u.1 = r.1 ∧ Reports (visible u.2) r.2) us (inputReports s 0 0 cs) :=
  run_told fuel s src term wide cs hcs hmb hml hr

/-- Two chunks: letters and a colour; a line feed and a null. -/
def piecesCase : List Bytes := [[0x61, 0x62, 0x1b, 0x5b, 0x33, 0x31, 0x6d], [0x0a, 0x00]]

example : (∀ c ∈ piecesCase, c ≠ []) ∧
    (match (Debug.byteIoRun 9 { debug := 3 } .stdin (fun _ => 80) (fun _ => 30) none (piecesCase.map .data)).res with
      | .ok (some _) => true
      | _ => false) = true ∧
    inputReports { debug := 3 } 0 0 piecesCase =
      [(1, "  0x0000│Read chunk #0: len 7 [61 62 1b.. 6d]".toList), (3, " parsbuf│Appending 7 bytes".toList),
       (2, " parsbuf│Buffer state: len 7 [61 62 1b.. 6d]".toList), (1, "  parser│Parsing segment: len 7 [61 62 1b.. 6d]".toList),
       (2, "  0x0000│Match group #33: Seg <P>: len 2 [61 62]".toList), (2, "  0x0002│Match group #02: Seg <E>: len 5 [1b 5b 33.. 6d]".toList),
       (3, " parsbuf│Purging".toList), (2, " parsbuf│Buffer state: len 0 []".toList), (1, "  0x0007│Read chunk #1: len 2 [0a 00]".toList),
       (3, " parsbuf│Appending 2 bytes".toList), (2, " parsbuf│Buffer state: len 2 [0a 00]".toList),
       (1, "  parser│Parsing segment: len 2 [0a 00]".toList), (2, "  0x0007│Match group #28: Seg <S>: len 1 [0a]".toList),
       (2, "  0x0008│Match group #23: Seg <C>: len 1 [00]".toList), (3, " parsbuf│Purging".toList), (2, " parsbuf│Buffer state: len 0 []".toList),
       (1, "  0x0009│Encountered EOF".toList), (3, " parsbuf│Appending 0 bytes".toList), (2, " parsbuf│Buffer state: len 0 []".toList),
       (1, " parsbuf│Closing buffer for input".toList), (1, "  parser│Parsing segment: len 0 []".toList), (3, " parsbuf│Purging".toList),
       (2, " parsbuf│Buffer state: len 0 []".toList)] := by decide +kernel

theorem printedTexts_levels (debug : Nat) {us rs : List (Nat × Str)} (h : List.Forall₂ (fun u r => u.1 = r.1 ∧ Reports (visible u.2) r.2) us rs) :
    List.Forall₂ Reports ((printedTexts debug (us.map fun u => Ev.dbg u.1 u.2)).map visible) ((rs.filter fun r => r.1 ≤ debug).map Prod.snd) := by
  induction h with
  | nil => exact .nil
  | @cons u r us rs h _ ih =>
    rw [List.map_cons, printedTexts_cons_dbg, List.filter_cons, h.1]
    by_cases hd : r.1 ≤ debug
    · rw [if_neg (by omega), if_pos (by simpa using hd)]
      exact .cons h.2 ih
    · rw [if_pos (by omega), if_neg (by simpa using hd)]
      exact ih

/-- C118 on the screen: with `-DD` such lines are among the lines on the screen, in their order; with `-D` those about the chunks and
the end. -/
theorem C118_screen (fuel : Nat) (s : Settings) (src : Debug.Source)
    (hn : ∀ name k, src = .file name k → ∀ c ∈ name, isControlChar c = false) (term wide : Nat → Int)
    (hp : s.readMode.1 = .binary → PosCols s term) (cs : List Bytes) (hcs : ∀ c ∈ cs, c ≠ [])
    (hmb : s.maxBytes = none) (hml : s.maxLines = none) {st : State}
    (hr : (Debug.byteIoRun fuel s src term wide none (cs.map .data)).res = .ok (some st)) :
    ∃ ts : List Str, ts.Sublist (screenTexts (stdoutOf s.debug (Debug.byteIoRun fuel s src term wide none (cs.map .data)).evs)) ∧
      List.Forall₂ Reports ts (((inputReports s 0 0 cs).filter fun r => r.1 ≤ s.debug).map Prod.snd) := by
  have hs : src.Plain := by
    cases src with
    | stdin => trivial
    | file name k => exact hn name k rfl
  obtain ⟨us, h1, h2⟩ := run_told fuel s src term wide cs hcs hmb hml hr
  rw [screenTexts_stdout (Debug.byteIoRun_lines fuel s hs hp wide none _)]
  exact ⟨_, (printedTexts_sublist (debug := s.debug) h1).map visible, printedTexts_levels s.debug h2⟩

/-- The lines for the input above with `-DD`, and what follows in them about what is shown. -/
example : (∀ c ∈ piecesCase, c ≠ []) ∧
    (((inputReports { debug := 2 } 0 0 piecesCase).filter fun r => r.1 ≤ 2).map Prod.snd).length = 17 ∧
    (screenTexts (stdoutOf 2 (Debug.byteIoRun 9 { debug := 2 } .stdin (fun _ => 80) (fun _ => 30) none (piecesCase.map .data)).evs)).filter
        (fun t => t.contains 'M') =
      ["  0x0000│Match group #33: Seg <P>: len 2\n".toList, "  0x0002│Match group #02: Seg <E>: len 5 -> len 1\n".toList,
       "  0x0007│Match group #28: Seg <S>: len 1 -> len 5\n".toList, "  0x0008│Match group #23: Seg <C>: len 1 -> len 1\n".toList] := by decide +kernel

/-- With details, in text mode: the first part is a separator. -/
example : Framed { debug := 2, marker := 1 } .sgr ∧
    (screenTexts (stdoutOf 2 (Debug.byteIoRun 9 { debug := 2, marker := 1 } .stdin (fun _ => 80) (fun _ => 30) none
      [.data [0x1b, 0x5b, 0x33, 0x31, 0x6d]]).evs)).filter (fun t => t.contains 'M') =
      ["  0x0000│Match group #02: Seg <>: len 5 -> len 1; Seg <E>: len 0 -> len 1; Seg <*>: len 0 -> len 2; Seg <>: len 0 -> len 1\n".toList] := by
  decide +kernel

end Kolombos
