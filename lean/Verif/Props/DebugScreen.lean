import Verif.Props.DebugReport
/-
C68, C69 on the screen: the messages as they are printed.
-/
set_option linter.unusedSimpArgs false

namespace Kolombos
open Spec

/-! ### Printed texts and lines on the screen -/

theorem screenTexts_writes {l : List Str} (h : ∀ t ∈ l, OneLine t) : screenTexts l.flatten = l.map visible := by
  obtain ⟨a1, a2⟩ := shows_writes h
  unfold screenTexts
  rw [a1.appears, a2]
  unfold writtenLines visible
  rw [List.map_map]
  rfl

theorem screenTexts_stdout {evs : List Ev} (h : ∀ e ∈ evs, EvFine OneLine e) (debug : Nat) :
    screenTexts (stdoutOf debug evs) = (printedTexts debug evs).map visible := by
  rw [stdoutOf_flatten, screenTexts_writes (printedTexts_oneLine h)]

theorem screenTexts_outs {evs : List Ev} (h : ∀ e ∈ evs, EvFine OneLine e) : screenTexts (outsOf evs) = (outTexts evs).map visible := by
  rw [outsOf_flatten, screenTexts_writes]
  intro t ht
  exact printedTexts_oneLine (debug := 0) h t ((outTexts_sublist 0 evs).subset ht)

theorem printedTexts_dbg {debug l : Nat} (hl : l ≤ debug) (us : List Str) : printedTexts debug (us.map (.dbg l)) = us := by
  unfold printedTexts
  induction us with
  | nil => rfl
  | cons u us ih => simp [List.filterMap_cons, show ¬ debug < l by omega]

theorem printedTexts_cons_dbg (debug l : Nat) (u : Str) (evs : List Ev) :
    printedTexts debug (.dbg l u :: evs) = if debug < l then printedTexts debug evs else u :: printedTexts debug evs := by
  unfold printedTexts
  rw [List.filterMap_cons]
  by_cases h : debug < l <;> simp [h]

theorem printedTexts_cons_out (debug : Nat) (u : Str) (evs : List Ev) : printedTexts debug (.out u :: evs) = u :: printedTexts debug evs := rfl

theorem printedTexts_sublist {debug : Nat} {a b : List Ev} (h : a.Sublist b) : (printedTexts debug a).Sublist (printedTexts debug b) :=
  h.filterMap _

/-- Events: every line of the display satisfies `T` or is right below a message of level 1 related by `P`. -/
def Under (P : Str → Str → Prop) (T : Str → Prop) (evs : List Ev) : Prop :=
  ∀ before t after, evs = before ++ .out t :: after → T t ∨ ∃ earlier u, before = earlier ++ [.dbg 1 u] ∧ P u t

theorem Under.tail_dbg {P : Str → Str → Prop} {T : Str → Prop} {e e' : Ev} {rest : List Ev} (h : Under P T (e :: e' :: rest)) (he : ∀ t, e' ≠ .out t) :
    Under P T (e' :: rest) := by
  intro before t after hb
  rcases h (e :: before) t after (by rw [hb]; rfl) with h | ⟨earlier, u, h1, h2⟩
  · exact .inl h
  · cases before with
    | nil => simp only [List.nil_append, List.cons.injEq] at hb; exact absurd hb.1 (he t)
    | cons b bs =>
      cases earlier with
      | nil => simp at h1
      | cons a as =>
        simp only [List.cons_append, List.cons.injEq] at h1
        exact .inr ⟨as, u, h1.2, h2⟩

theorem Under.tail_out {P : Str → Str → Prop} {T : Str → Prop} {x : Str} {rest : List Ev} {pre : List Ev} (h : Under P T (pre ++ .out x :: rest)) :
    Under P T rest := by
  intro before t after hb
  rcases h (pre ++ .out x :: before) t after (by rw [hb]; simp) with h | ⟨earlier, u, h1, h2⟩
  · exact .inl h
  · rcases List.eq_nil_or_concat before with hn | ⟨bs, b, hc⟩
    · subst hn
      have := congrArg List.getLast? h1
      simp at this
    · subst hc
      have h3 : pre ++ .out x :: bs ++ [b] = earlier ++ [.dbg 1 u] := by simpa using h1
      have h4 := List.append_inj_right' h3 rfl
      simp only [List.cons.injEq, and_true] at h4
      exact .inr ⟨bs, u, by rw [h4]; simp, h2⟩

theorem annotated_of_under {P : Str → Str → Prop} {T : Str → Prop} (f : Str → Str) {debug : Nat} (hd : 1 ≤ debug) :
    ∀ (n : Nat) (evs : List Ev), evs.length ≤ n → Under (fun u t => P (f u) (f t)) (fun t => T (f t)) evs →
      Annotated P T ((printedTexts debug evs).map f) ((outTexts evs).map f)
  | _, [], _, _ => .nil
  | 0, _ :: _, h, _ => by simp at h
  | n + 1, .out t :: rest, hn, h => by
    have ih := annotated_of_under f hd n rest (by simpa using hn) (Under.tail_out (pre := []) h)
    rcases h [] t rest rfl with h1 | ⟨earlier, u, h1, -⟩
    · exact .alone h1 ih
    · simp at h1
  | n + 1, [.dbg l u], _, _ => by
    rw [printedTexts_cons_dbg]
    split
    · exact .nil
    · exact .message _ .nil
  | n + 1, .dbg l u :: .dbg l' u' :: rest, hn, h => by
    have ih := annotated_of_under f hd n (.dbg l' u' :: rest) (by simpa using hn) (Under.tail_dbg h (by simp))
    rw [printedTexts_cons_dbg debug l]
    have e : outTexts (.dbg l u :: .dbg l' u' :: rest) = outTexts (.dbg l' u' :: rest) := rfl
    rw [e]
    split
    · exact ih
    · exact .message _ ih
  | n + 1, .dbg l u :: .out t :: rest, hn, h => by
    have ih := annotated_of_under f hd n rest (by simp at hn; omega) (Under.tail_out (pre := [.dbg l u]) h)
    have e : outTexts (.dbg l u :: .out t :: rest) = t :: outTexts rest := rfl
    rw [printedTexts_cons_dbg, printedTexts_cons_out, e]
    rcases h [.dbg l u] t rest rfl with h1 | ⟨earlier, v, h1, h2⟩
    · split
      · exact .alone h1 ih
      · exact .message _ (.alone h1 ih)
    · have hnil : earlier = [] := by
        have := congrArg List.length h1
        simp at this
        exact this
      subst hnil
      simp only [List.nil_append, List.cons.injEq, Ev.dbg.injEq, and_true] at h1
      obtain ⟨rfl, rfl⟩ := h1
      rw [if_neg (by omega)]
      exact .row h2 ih

/-! ### C68 -/

/-- C68 for chunks, on the screen: with `-D` the lines about the chunks are among the lines on the screen, in
their order. -/
theorem C68_screen (fuel : Nat) (s : Settings) (hd : 1 ≤ s.debug) (src : Debug.Source)
    (hn : ∀ name k, src = .file name k → ∀ c ∈ name, isControlChar c = false) (term wide : Nat → Int)
    (hp : s.readMode.1 = .binary → PosCols s term) (cs : List Bytes) (hcs : ∀ c ∈ cs, c ≠ [])
    (hmb : s.maxBytes = none) (hml : s.maxLines = none) {st : State}
    (hr : (Debug.byteIoRun fuel s src term wide none (cs.map .data)).res = .ok (some st)) :
    (chunkReports s 0 0 cs).Sublist (screenTexts (stdoutOf s.debug (Debug.byteIoRun fuel s src term wide none (cs.map .data)).evs)) := by
  have hs : src.Plain := by
    cases src with
    | stdin => trivial
    | file name k => exact hn name k rfl
  obtain ⟨us, h1, h2⟩ := C68_chunks fuel s src term wide cs hcs hmb hml hr
  rw [screenTexts_stdout (Debug.byteIoRun_lines fuel s hs hp wide none _), ← h2]
  have h3 := printedTexts_sublist (debug := s.debug) h1
  rw [printedTexts_dbg hd us] at h3
  exact h3.map visible

/-- C68 for rows, on the screen: in binary mode with `-D`, every line of the display is the line with the total,
or the line right above it has the same offset, the same bytes and plain characters for them. -/
theorem C68_rows_screen (fuel : Nat) (s : Settings) (hm : s.readMode.1 = .binary) (hd : 1 ≤ s.debug) (src : Debug.Source)
    (hk : ∀ name, src ≠ .file name false) (hn : ∀ name k, src = .file name k → ∀ c ∈ name, isControlChar c = false) (term wide : Nat → Int)
    (hp : PosCols s term) (opened : Option Err) (io : List IoStep) :
    Annotated
      (fun u t => ∃ off fill bytes chars, bytes ≠ [] ∧ chars.length = bytes.length ∧
        t = dumpLine s off fill bytes chars ∧ u = dumpLine s off fill bytes (bytes.map plainChar))
      (fun t => ∃ n, t = offsetText s n ++ ['\n'])
      (screenTexts (stdoutOf s.debug (Debug.byteIoRun fuel s src term wide opened io).evs))
      (screenTexts (byteIoRun fuel s term opened io).out) := by
  have hs : src.Plain := by
    cases src with
    | stdin => trivial
    | file name k => exact hn name k rfl
  have hl := Debug.byteIoRun_lines fuel s hs (fun _ => hp) wide opened io
  rw [← (Debug.byteIoRun_erases fuel s src hk term wide opened io).1, screenTexts_stdout hl, screenTexts_outs hl]
  refine annotated_of_under visible hd _ _ (Nat.le_refl _) ?_
  intro before t after he
  rcases C68_rows fuel s hm hd src term wide hp opened io before after t he with h | ⟨earlier, u, off, fill, bytes, chars, h1, h2⟩
  · exact .inl h
  · exact .inr ⟨earlier, u, h1, off, fill, bytes, chars, h2⟩

/-- A row, the message above it, the message with the chunk. -/
example : ({ binary := true, columns := some 4, debug := 1 } : Settings).readMode.1 = .binary ∧
    (screenTexts (stdoutOf 1 (Debug.byteIoRun 9 { binary := true, columns := some 4, debug := 1 } .stdin (fun _ => 80) (fun _ => 30) none [.data [0x61, 0x0a, 0xff]]).evs)).filter
      (fun t => t.contains '0' && t.contains 'x') =
      ["  0x0000│Read chunk #0: len 3\n".toList, "  0x0003│Encountered EOF\n".toList, "  0x0000│ 61 0a ff    │a·▯\n".toList, "  0x0000│ 61 0a ff    │a↵▯\n".toList, "  0x0003│\n".toList] ∧
    chunkReports { binary := true, columns := some 4, debug := 1 } 0 0 [[0x61, 0x0a, 0xff]] = ["  0x0000│Read chunk #0: len 3\n".toList] := by decide +kernel

/-! ### C69 -/

/-- C69 on the screen, what is true for every input: with `-DD` each line of the display is below the two lines with
the bytes in `dumpedBytes` and with their characters. -/
theorem C69_screen_exact_partial (fuel : Nat) (s : Settings) (hm : s.readMode.1 = .text) (hd : 2 ≤ s.debug) (src : Debug.Source)
    (hf : ∀ name, src ≠ .file name false) (hn : ∀ name k, src = .file name k → ∀ c ∈ name, isControlChar c = false) (term wide : Nat → Int)
    (cs : List Bytes) (hcs : ∀ c ∈ cs, c ≠ []) (hmb : s.maxBytes = none) (hml : s.maxLines = none) {st : State}
    (hr : (Debug.byteIoRun fuel s src term wide none (cs.map .data)).res = .ok (some st)) :
    (screenTexts (byteIoRun fuel s term none (cs.map .data)).out).length = (keptLines ((chunkPieces cs).flatMap (dumpedBytes s))).length ∧
    (((lineDumps s 0 (keptLines ((chunkPieces cs).flatMap (dumpedBytes s)))).zip (screenTexts (byteIoRun fuel s term none (cs.map .data)).out)).flatMap
      fun x => [x.1.1, x.1.2, x.2]).Sublist
      (screenTexts (stdoutOf s.debug (Debug.byteIoRun fuel s src term wide none (cs.map .data)).evs)) := by
  have hs : src.Plain := by
    cases src with
    | stdin => trivial
    | file name k => exact hn name k rfl
  have hl := Debug.byteIoRun_lines fuel s hs (fun h => by rw [hm] at h; cases h) (term := term) wide none (cs.map .data)
  obtain ⟨us, h1, h2, h3⟩ := C69_exact_partial fuel s hm src term wide cs hcs hmb hml hr
  rw [← (Debug.byteIoRun_erases fuel s src hf term wide none (cs.map .data)).1, screenTexts_stdout hl, screenTexts_outs hl, h2, ← h3]
  have hlen : ∀ (ls : List Bytes) off, (lineDumps s off ls).length = ls.length := by
    intro ls
    induction ls with
    | nil => intro off; rfl
    | cons l ls ih => intro off; simp [lineDumps, ih]
  refine ⟨?_, ?_⟩
  · rw [← hlen _ 0, ← h3]; simp
  · have h4 := (printedTexts_sublist (debug := s.debug) h1).map visible
    refine List.Sublist.trans ?_ h4
    clear h1 h2 h3 h4
    refine List.Sublist.trans (Eq.subst (motive := fun l => List.Sublist _ l) ?_ (List.Sublist.refl _)) (List.Sublist.refl _)
    induction us with
    | nil => rfl
    | cons u us ih =>
      have e : ∀ r, printedTexts s.debug ([Ev.dbg 2 u.1, .dbg 1 u.2.1, .out u.2.2] ++ r) = u.1 :: u.2.1 :: u.2.2 :: printedTexts s.debug r := by
        intro r
        simp only [List.cons_append, List.nil_append, printedTexts_cons_dbg, printedTexts_cons_out, show ¬ s.debug < 2 by omega, show ¬ s.debug < 1 by omega, if_false]
      rw [List.flatMap_cons, e]
      simp only [List.map_cons, List.zip_cons_cons, List.flatMap_cons, ih]
      rfl

/-- C69 without escape sequences, or with details but without control characters, on the screen: with `-DD` there are as many lines of
the display as lines of the input, and each is on the screen below the two lines with its bytes and its characters. -/
theorem C69_screen_partial (fuel : Nat) (s : Settings) (hm : s.readMode.1 = .text) (hd : 2 ≤ s.debug) (src : Debug.Source)
    (hf : ∀ name, src ≠ .file name false) (hn : ∀ name k, src = .file name k → ∀ c ∈ name, isControlChar c = false) (term wide : Nat → Int)
    (cs : List Bytes) (hcs : ∀ c ∈ cs, c ≠ []) (he : DumpsAll s cs) (hmb : s.maxBytes = none) (hml : s.maxLines = none) {st : State}
    (hr : (Debug.byteIoRun fuel s src term wide none (cs.map .data)).res = .ok (some st)) :
    (screenTexts (byteIoRun fuel s term none (cs.map .data)).out).length = (keptLines cs.flatten).length ∧
    (((lineDumps s 0 (keptLines cs.flatten)).zip (screenTexts (byteIoRun fuel s term none (cs.map .data)).out)).flatMap
      fun x => [x.1.1, x.1.2, x.2]).Sublist
      (screenTexts (stdoutOf s.debug (Debug.byteIoRun fuel s src term wide none (cs.map .data)).evs)) := by
  have := C69_screen_exact_partial fuel s hm hd src hf hn term wide cs hcs hmb hml hr
  rwa [dumped_all he.pieces] at this

/-- Two lines, the first one in two chunks; the lines on the screen without the messages about other things. -/
example : ({ debug := 2, text := true } : Settings).readMode.1 = .text ∧
    screenTexts (byteIoRun 9 { debug := 2, text := true } (fun _ => 80) none ([[0x61, 0x62], [0x0a, 0x63, 0x07]].map .data)).out =
      ["       1│ab↵\n".toList, "       2│cⱯ\n".toList] ∧
    (screenTexts (stdoutOf 2 (Debug.byteIoRun 9 { debug := 2, text := true } .stdin (fun _ => 80) (fun _ => 30) none ([[0x61, 0x62], [0x0a, 0x63, 0x07]].map .data)).evs)).filter
      (fun t => !(t.contains 'e' || t.contains 'E' || t.contains '─')) =
      ["  0x0000│ 61 62 0a\n".toList, "  0x0000│ab·\n".toList, "       1│ab↵\n".toList, "  0x0003│ 63 07\n".toList, "  0x0003│c▯\n".toList, "       2│cⱯ\n".toList] := by
  decide +kernel

end Kolombos
