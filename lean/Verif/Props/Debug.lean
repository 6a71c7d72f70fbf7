import Verif.Lemmas.DebugRows
import Verif.Props.Args
import Verif.Props.Binary
/-
C65, C66, C67: the debug output.
-/
set_option linter.unusedSimpArgs false

namespace Kolombos
open Spec

/-! ### C65: the display is still there -/

/-- C65: whatever the debug level, the result is that of the run without messages, and the lines
of the display appear among the lines on the screen, whole, in their colours and in their order. -/
theorem C65_display (fuel : Nat) (s : Settings) (src : Debug.Source) (term wide : Nat → Int) (opened : Option Err) (io : List IoStep)
    (hk : ∀ name, src ≠ .file name false) (hn : ∀ name k, src = .file name k → ∀ c ∈ name, isControlChar c = false)
    (hp : s.readMode.1 = .binary → PosCols s term) :
    (Debug.byteIoRun fuel s src term wide opened io).res = (byteIoRun fuel s term opened io).res ∧
    ∀ level, (screenLines (appears (byteIoRun fuel s term opened io).out)).Sublist
      (screenLines (appears (stdoutOf level (Debug.byteIoRun fuel s src term wide opened io).evs))) := by
  obtain ⟨e1, e2⟩ := Debug.byteIoRun_erases fuel s src hk term wide opened io
  refine ⟨e2, fun level => ?_⟩
  rw [← e1]
  have hs : src.Plain := by
    cases src with
    | stdin => trivial
    | file name k => exact hn name k rfl
  exact display_sublist (Debug.byteIoRun_lines fuel s hs hp wide opened io) level

/-- Two lines among twenty; the second message line shows the file. -/
example : (screenLines (appears (byteIoRun 9 { debug := 1 } (fun _ => 80) none [.data [0x61, 0x01, 0x0a, 0x62]]).out)).length = 2 ∧
    (screenLines (appears (stdoutOf 1 (Debug.byteIoRun 9 { debug := 1 } (.file "f.txt".toList true) (fun _ => 80) (fun _ => 30) none
      [.data [0x61, 0x01, 0x0a, 0x62]]).evs))).length = 20 ∧
    ((screenLines (appears (stdoutOf 1 (Debug.byteIoRun 9 { debug := 1 } (.file "f.txt".toList true) (fun _ => 80) (fun _ => 30) none
      [.data [0x61, 0x01, 0x0a, 0x62]]).evs)))[1]?.map fun l => l.map Prod.fst) = some "  reader│Opened file: f.txt\n".toList ∧
    ((screenLines (appears (stdoutOf 1 (Debug.byteIoRun 9 { debug := 1 } (.file "f.txt".toList true) (fun _ => 80) (fun _ => 30) none
      [.data [0x61, 0x01, 0x0a, 0x62]]).evs)))[6]?.map fun l => l.map Prod.fst) = some "       1│aⱯ↵\n".toList ∧
    ({ debug := 1 } : Settings).readMode.1 = .text := by decide +kernel

/-- The name of the source is mentioned in the first message only. -/
theorem readLoop_name {σ : Type} (s : Settings) (name : Str) (b : Bool) (mb ml : Option Int) (cb : σ → Bytes → Nat → Bool → Trace σ) (io : List IoStep) :
    ∀ off lines chunks pos st, Debug.readLoop s (.file name b) mb ml cb io off lines chunks pos st =
      Debug.readLoop s (.file [] b) mb ml cb io off lines chunks pos st := by
  induction io with
  | nil => intros; rfl
  | cons i io ih =>
    intro off lines chunks pos st
    cases i with
    | raise e => rfl
    | data raw =>
      have hp : ∀ k, Debug.position (.file name b) k = Debug.position (.file [] b) k := by intro k; cases b <;> rfl
      simp only [Debug.readLoop, ih, hp]

theorem quiet_name (fuel : Nat) (s : Settings) (name : Str) (b : Bool) (term wide : Nat → Int) (opened : Option Err) (io : List IoStep) :
    stdoutOf 0 (Debug.byteIoRun fuel s (.file name b) term wide opened io).evs =
      stdoutOf 0 (Debug.byteIoRun fuel s (.file [] b) term wide opened io).evs := by
  unfold Debug.byteIoRun Debug.read
  cases opened with
  | some e => rfl
  | none =>
    simp only [readLoop_name _ name b]
    have key : ∀ (c : Settings) (t u : Str) (e : Ev) (pre r : List Ev), stdoutOf 0 (pre ++ ([Debug.reader.write c 1 t, e] ++ r)) =
        stdoutOf 0 (pre ++ ([Debug.reader.write c 1 u, e] ++ r)) := by
      intro c t u e pre r
      simp [stdoutOf, Debug.Buffer.write, Ev.printed]
    generalize Debug.readLoop _ _ _ _ _ io 0 0 0 0 ({} : State) = r
    obtain ⟨evs, res⟩ := r
    simp only [Trace.log]
    cases res with
    | ok a => simp only; exact key _ _ _ _ _ _
    | timeout => simp only; exact key _ _ _ _ _ _
    | err e => cases e <;> (simp only; exact key _ _ _ _ _ _)

/-- C65 without `-D`: no message is printed, standard output is the display. -/
theorem C65_quiet (fuel : Nat) (s : Settings) (src : Debug.Source) (term wide : Nat → Int) (opened : Option Err) (io : List IoStep)
    (hk : ∀ name, src ≠ .file name false) :
    stdoutOf 0 (Debug.byteIoRun fuel s src term wide opened io).evs = (byteIoRun fuel s term opened io).out := by
  have main : ∀ src : Debug.Source, src.Plain → (∀ name, src ≠ .file name false) →
      stdoutOf 0 (Debug.byteIoRun fuel s src term wide opened io).evs = (byteIoRun fuel s term opened io).out := by
    intro src hs hk
    rw [← (Debug.byteIoRun_erases fuel s src hk term wide opened io).1]
    have h := Debug.byteIoRun_fineEvs (P := fun _ => True) (fun _ => trivial) fuel s hs term wide opened io
    unfold AllEvs at h
    revert h
    generalize (Debug.byteIoRun fuel s src term wide opened io).evs = evs
    intro h
    induction evs with
    | nil => rfl
    | cons e evs ih =>
      have := ih fun e he => h e (by simp [he])
      unfold stdoutOf outsOf at this ⊢
      rw [List.flatMap_cons, List.flatMap_cons, this]
      cases e with
      | out t => rfl
      | dbg l t =>
        have h1 : 1 ≤ l := (h (.dbg l t) (by simp)).1.1
        simp only [Ev.printed]
        rw [if_pos (by omega)]
  cases src with
  | stdin => exact main .stdin trivial (by simp)
  | file name b =>
    have hb : b = true := by
      cases b with
      | true => rfl
      | false => exact absurd rfl (hk name)
    subst hb
    rw [quiet_name]
    exact main (.file [] true) (by intro c hc; cases hc) (by simp)

example : stdoutOf 0 (Debug.byteIoRun 9 {} .stdin (fun _ => 80) (fun _ => 30) none [.data [0x61]]).evs ≠ [] ∧
    (Debug.byteIoRun 9 {} .stdin (fun _ => 80) (fun _ => 30) none [.data [0x61]]).evs.length = 35 := by decide +kernel

/-- C65 for a file in binary mode with a given number of columns: among the lines on the screen
are the rows of all bytes of the file and the total. -/
theorem C65_rows (fuel : Nat) (s : Settings) (hm : s.readMode.1 = .binary) (c : Nat) (hc : 0 < c) (hcol : s.columns = some (c : Int))
    (name : Str) (hn : ∀ x ∈ name, isControlChar x = false) (term wide : Nat → Int) (data : Bytes)
    (hmb : s.maxBytes = none) (hml : s.maxLines = none) (hesc : (0x1b : Byte) ∉ data) (hf : data.length < fuel) :
    ∃ cells : List Cell, cells.map Cell.byte = data ∧ ∀ level,
      (screenLines (rowsView s c cells)).Sublist (screenLines (appears (stdoutOf level
        (Debug.byteIoRun fuel s (.file name true) term wide none (Reader.fileSteps (Reader.chunkSize s.buffer s.debug) data)).evs))) := by
  have hd : delivered (fileEvents s data) = data := by
    have := fileEvents_delivered (s := s) (data := data) (mb := none) (ml := none) (pB := data) (pL := data) hmb hml rfl rfl
    simpa using this
  have hr : Readable (fileEvents s data) := by
    intro e he hb
    obtain ⟨q, hq, ps, ⟨inters, e1, -⟩, -⟩ := hb
    refine hesc ?_
    rw [← hd]
    refine List.mem_flatMap.2 ⟨e, he, ?_⟩
    rw [← pieces_flatten e.data]
    refine List.mem_flatten.2 ⟨q.2, List.mem_map_of_mem hq, ?_⟩
    rw [e1]; simp
  obtain ⟨cells, h1, h2⟩ := C14_cells s hm (fileEvents s data) (fileEvents_complete s data) hr
  have hw : s.withColumns c = s := by
    unfold Settings.withColumns; rw [← hcol]
  obtain ⟨out, st, e1, e2⟩ := h2 c term fuel hc (by rw [hd]; exact hf)
  rw [hw] at e1
  have hb := byteIoRun_session e1
  refine ⟨cells, by rw [h1, hd], fun level => ?_⟩
  have hp : PosCols s term := by
    intro k off
    unfold BinaryFormatter.curCols
    rw [hcol]; simp only; omega
  have := (C65_display fuel s (.file name true) term wide none (Reader.fileSteps (Reader.chunkSize s.buffer s.debug) data)
    (by simp) (by intro name' k e; cases e; exact hn) fun _ => hp).2 level
  rw [hb] at this
  simp only at this
  rw [e2] at this
  exact this

/-- Settings and a file for `C65_rows`; the row and the total are among 35 lines. -/
example : ({ binary := true, columns := some 4, debug := 3 } : Settings).readMode.1 = .binary ∧ (0x1b : Byte) ∉ [0x61, 0x00] ∧
    (screenLines (appears (stdoutOf 3 (Debug.byteIoRun 9 { binary := true, columns := some 4, debug := 3 } (.file ['f'] true) (fun _ => 80) (fun _ => 30) none
      [.data [0x61, 0x00]]).evs))).length = 35 ∧
    ((screenLines (appears (stdoutOf 3 (Debug.byteIoRun 9 { binary := true, columns := some 4, debug := 3 } (.file ['f'] true) (fun _ => 80) (fun _ => 30) none
      [.data [0x61, 0x00]]).evs))).map fun l => l.map Prod.fst).contains "  0x0000│ 61 00       │aØ\n".toList = true := by decide +kernel

/-! ### C66: messages are single lines -/

/-- C66: if the name of the file has no control characters, every message has a level from 1 to 3
and is one line without control characters that leaves the terminal in its default style. -/
theorem C66_messages_partial (fuel : Nat) (s : Settings) (src : Debug.Source) (term wide : Nat → Int) (opened : Option Err) (io : List IoStep)
    (hn : ∀ name k, src = .file name k → ∀ c ∈ name, isControlChar c = false) (level : Nat) (t : Str)
    (ht : .dbg level t ∈ (Debug.byteIoRun fuel s src term wide opened io).evs) :
    (1 ≤ level ∧ level ≤ 3) ∧ (Term.run {} t).1 = {} ∧
      ∃ u, visible t = u ++ ['\n'] ∧ ∀ c ∈ u, isControlChar c = false := by
  have hs : src.Plain := by
    cases src with
    | stdin => trivial
    | file name k => exact hn name k rfl
  obtain ⟨h1, u, rfl, v, h2, h3⟩ := Debug.byteIoRun_fineEvs (P := fun _ => True) (fun _ => trivial) fuel s hs term wide opened io _ ht
  have hsh := h2.append (Shows.text {} (s := ['\n']) (by decide))
  refine ⟨h1, ?_, v.map Prod.fst, ?_, ?_⟩
  · show (Term.run ⟨.ground, {}⟩ _).1 = _
    rw [hsh.run]
  · have := hsh.visible
    rw [this, List.map_append, inStyle_fst]
  · intro c hc
    obtain ⟨x, hx, rfl⟩ := List.mem_map.1 hc
    exact h3 x hx

/-- A message of level 2. -/
example : Ev.dbg 2 (Debug.reader.prefix {} none ++ "Read buffer: size ".toList ++ Debug.bold "4096".toList ++ ['\n']) ∈
      (Debug.byteIoRun 9 {} .stdin (fun _ => 80) (fun _ => 30) none [.data [0x07]]).evs ∧
    visible (Debug.reader.prefix {} none ++ "Read buffer: size ".toList ++ Debug.bold "4096".toList ++ ['\n']) =
      "  reader│Read buffer: size 4096\n".toList := by decide +kernel

/-- C66 is false for a file whose name has a line feed: the name is printed as it is. -/
theorem C66_negation : ¬ ∀ (fuel : Nat) (s : Settings) (src : Debug.Source) (term wide : Nat → Int) (opened : Option Err) (io : List IoStep)
    (level : Nat) (t : Str), .dbg level t ∈ (Debug.byteIoRun fuel s src term wide opened io).evs →
    ∃ u, visible t = u ++ ['\n'] ∧ ∀ c ∈ u, isControlChar c = false := by
  intro h
  obtain ⟨u, h1, h2⟩ := h 1 {} (.file ['a', '\n', 'b'] true) (fun _ => 80) (fun _ => 80) none [.raise .keyboardInterrupt] 1
    (Debug.Buffer.write Debug.reader {} 1 ("Opened file: ".toList ++ Debug.bold ['a', '\n', 'b']) |> fun | .out t => t | .dbg _ t => t)
    (by decide +kernel)
  have e : visible (Debug.Buffer.write Debug.reader {} 1 ("Opened file: ".toList ++ Debug.bold ['a', '\n', 'b']) |> fun | .out t => t | .dbg _ t => t) =
      "  reader│Opened file: a".toList ++ '\n' :: (['b'] ++ ['\n']) := by decide +kernel
  rw [e] at h1
  have h3 : "  reader│Opened file: a".toList ++ '\n' :: ['b'] = u := by
    apply List.append_cancel_right (as := "  reader│Opened file: a".toList ++ '\n' :: ['b']) (bs := ['\n']) 
    rw [← h1]; rfl
  exact absurd (h2 '\n' (by rw [← h3]; simp)) (by decide)

/-! ### C67: where the bytes come from -/

/-- C67 for sources that can tell their position: what is displayed without `-D` and the result
do not depend on whether the bytes come from standard input or from a named file. -/
theorem C67_source_partial (fuel : Nat) (s : Settings) (name : Str) (term wide : Nat → Int) (io : List IoStep) :
    stdoutOf 0 (Debug.byteIoRun fuel s (.file name true) term wide none io).evs = stdoutOf 0 (Debug.byteIoRun fuel s .stdin term wide none io).evs ∧
    (Debug.byteIoRun fuel s (.file name true) term wide none io).res = (Debug.byteIoRun fuel s .stdin term wide none io).res := by
  have h1 : ∀ n, Debug.Source.file name true ≠ .file n false := by simp
  have h2 : ∀ n, Debug.Source.stdin ≠ .file n false := by simp
  rw [C65_quiet fuel s _ term wide none io h1, C65_quiet fuel s .stdin term wide none io h2,
    (Debug.byteIoRun_erases fuel s _ h1 term wide none io).2, (Debug.byteIoRun_erases fuel s _ h2 term wide none io).2]
  exact ⟨rfl, rfl⟩

example :
    visible (stdoutOf 0 (Debug.byteIoRun 9 {} (.file ['f'] true) (fun _ => 80) (fun _ => 30) none [.data [0x07]]).evs) = " 1│Ɐ\n".toList := by decide +kernel

/-- C67 is false for a named source that cannot tell its position, such as a named pipe or a process
substitution: the run fails at the first chunk and nothing is displayed, whatever it is. -/
theorem C67_unseekable (fuel : Nat) (s : Settings) (name : Str) (term wide : Nat → Int) (raw : Bytes) (hraw : raw ≠ []) (rest : List IoStep) :
    (Debug.byteIoRun fuel s (.file name false) term wide none (.data raw :: rest)).res = .err .osError ∧
    ∀ t, .out t ∉ (Debug.byteIoRun fuel s (.file name false) term wide none (.data raw :: rest)).evs := by
  have e : ∀ (c : Settings) (mb ml : Option Int) (cb : State → Bytes → Nat → Bool → Trace State) (st : State),
      Debug.readLoop c (.file name false) mb ml cb (.data raw :: rest) 0 0 0 0 st = .log [Debug.chunkEvent c raw 0 0] (.fail .osError) := by
    intro c mb ml cb st
    rw [Debug.readLoop, if_neg hraw]
    rfl
  unfold Debug.byteIoRun Debug.read
  simp only [e]
  refine ⟨rfl, ?_⟩
  intro t ht
  simp only [Trace.log, Trace.fail, Debug.chunkEvent, Debug.Buffer.write, List.mem_append, List.mem_cons, List.not_mem_nil, or_false, reduceCtorEq, false_or] at ht
  split at ht
  · cases ht
  · simp at ht

/-- See `C67_unseekable`. -/
theorem C67_negation : ¬ ∀ (fuel : Nat) (s : Settings) (name : Str) (seekable : Bool) (term wide : Nat → Int) (io : List IoStep),
    (∀ c ∈ name, isControlChar c = false) →
    (Debug.byteIoRun fuel s (.file name seekable) term wide none io).res = (Debug.byteIoRun fuel s .stdin term wide none io).res := by
  intro h
  have h1 := h 3 {} ['f'] false (fun _ => 80) (fun _ => 80) [.data [0x61]] (by decide)
  rw [(C67_unseekable 3 {} ['f'] (fun _ => 80) (fun _ => 80) [0x61] (by simp) []).1,
    (Debug.byteIoRun_erases 3 {} .stdin (by simp) (fun _ => 80) (fun _ => 80) none [.data [0x61]]).2] at h1
  have : (match (byteIoRun 3 {} (fun _ => 80) none [.data [0x61]]).res with | .ok _ => true | _ => false) = true := by decide +kernel
  rw [← h1] at this
  cases this

end Kolombos
