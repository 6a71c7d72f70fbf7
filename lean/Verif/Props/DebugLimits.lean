import Verif.Lemmas.DebugLimits
import Verif.Props.DebugPieces
/-
C120: what debug messages say about input that is limited.
-/
set_option linter.unusedSimpArgs false

namespace Kolombos
open Spec

theorem run_limited (fuel : Nat) (s : Settings) (src : Debug.Source) (term wide : Nat → Int) (cs : List Bytes) (hcs : ∀ c ∈ cs, c ≠ [])
    (bytes lines : Option Nat) (hmb : s.maxBytes = optInt bytes) (hml : s.maxLines = optInt lines) {st : State}
    (hr : (Debug.byteIoRun fuel s src term wide none (cs.map .data)).res = .ok (some st)) :
    Debug.Told (Debug.byteIoRun fuel s src term wide none (cs.map .data)).evs (limitedReports s bytes lines (fun off _ => off) 0 [] cs) := by
  unfold Debug.byteIoRun at hr ⊢
  have h1 : (Config.create s).settings.maxBytes = optInt bytes := by
    rw [config_settings]; unfold Settings.readMode; repeat' split
    all_goals exact hmb
  have h2 : (Config.create s).settings.maxLines = optInt lines := by
    rw [config_settings]; unfold Settings.readMode; repeat' split
    all_goals exact hml
  simp only [Trace.log] at hr ⊢
  rw [Debug.read_evs, h1, h2]
  rw [h1, h2] at hr
  have hl : ∃ st', (Debug.readLoop (Config.create s).settings src (optInt bytes) (optInt lines) (Debug.processChunk fuel (Config.create s) term wide)
      (cs.map .data) 0 0 0 0 {}).res = .ok st' := by
    unfold Debug.read at hr
    simp only [Trace.log] at hr
    revert hr
    generalize (Debug.readLoop _ _ _ _ _ _ _ _ _ _ _ : Trace State) = t
    intro hr
    cases hres : t.res with
    | ok st' => exact ⟨st', rfl⟩
    | timeout => simp [hres] at hr
    | err e => cases e <;> simp [hres] at hr
  obtain ⟨st', hl⟩ := hl
  rw [config_settings] at hl ⊢
  refine (Debug.readLoop_limited s src fuel term wide bytes lines cs hcs [] 0 0 0 {} st' rfl ?_ ?_ hl).mono
    ((List.sublist_append_right _ _).trans (List.sublist_append_right _ _))
  · intro m hm
    exact ⟨rfl, Nat.pos_of_ne_zero (Debug.limit_some hm).2⟩
  · intro m hm
    exact Nat.pos_of_ne_zero (Debug.limit_some hm).2

/-- The part before a line feed is what it is said to be. -/
theorem beforeLf_is : ∀ (c : Bytes) (n : Nat), 1 ≤ n → BeforeLf n c (beforeLf n c) := by
  intro c
  induction c with
  | nil => intro n h; exact .inl ⟨rfl, h⟩
  | cons b r ih =>
    intro n h
    unfold beforeLf
    by_cases hb : b = 0x0a
    · subst hb
      rw [if_pos rfl]
      by_cases h1 : n ≤ 1
      · rw [if_pos h1]
        exact .inr ⟨⟨r, rfl⟩, by simp; omega⟩
      · rw [if_neg h1]
        rcases ih (n - 1) (by omega) with ⟨h2, h3⟩ | ⟨⟨t, h2⟩, h3⟩
        · exact .inl ⟨by rw [h2], by rw [List.count_cons_self]; omega⟩
        · exact .inr ⟨⟨t, by rw [List.cons_append, List.cons_append, h2]⟩, by rw [List.count_cons_self]; omega⟩
    · rw [if_neg hb]
      rcases ih n h with ⟨h2, h3⟩ | ⟨⟨t, h2⟩, h3⟩
      · exact .inl ⟨by rw [h2], by rw [List.count_cons_of_ne hb]; exact h3⟩
      · exact .inr ⟨⟨t, by rw [List.cons_append, List.cons_append, h2]⟩, by rw [List.count_cons_of_ne hb]; exact h3⟩

/-- C120 on the trace of messages and writes: for every chunk that is read there is a message with its number, offset and bytes; if a limit
cuts it, messages with the limit and with what is left; messages for the pieces of what is left; after a limit has been reached those about
the end.  If the limit of bytes cuts a chunk, the offset of the end is that of the chunk. -/
theorem C120_messages_partial (fuel : Nat) (s : Settings) (src : Debug.Source) (term wide : Nat → Int) (cs : List Bytes) (hcs : ∀ c ∈ cs, c ≠ [])
    (bytes lines : Option Nat) (hmb : s.maxBytes = optInt bytes) (hml : s.maxLines = optInt lines) {st : State}
    (hr : (Debug.byteIoRun fuel s src term wide none (cs.map .data)).res = .ok (some st)) :
    ∃ us : List (Nat × Str), (us.map fun u => Ev.dbg u.1 u.2).Sublist (Debug.byteIoRun fuel s src term wide none (cs.map .data)).evs ∧
      List.Forall₂ (fun u r => u.1 = r.1 ∧ Reports (visible u.2) r.2) us (limitedReports s bytes lines (fun off _ => off) 0 [] cs) :=
  run_limited fuel s src term wide cs hcs bytes lines hmb hml hr

theorem limitedReports_lines (s : Settings) {bytes : Option Nat} (hb : limit bytes = none) (lines : Option Nat) (e e' : Nat → Nat → Nat) (cs : List Bytes) :
    ∀ k before, limitedReports s bytes lines e k before cs = limitedReports s bytes lines e' k before cs := by
  induction cs with
  | nil => intro k before; rfl
  | cons c cs ih =>
    intro k before
    have h : ∀ d, underBytes bytes before d = d := fun d => by unfold underBytes; rw [hb]
    unfold limitedReports
    simp only [h, ne_eq, not_true_eq_false, if_false, ih (k + 1)]

/-- C120 with a limit of lines only: the offset of the end is the number of bytes that are left. -/
theorem C120_lines_partial (fuel : Nat) (s : Settings) (src : Debug.Source) (term wide : Nat → Int) (cs : List Bytes) (hcs : ∀ c ∈ cs, c ≠ [])
    (lines : Option Nat) (hmb : s.maxBytes = none) (hml : s.maxLines = optInt lines) {st : State}
    (hr : (Debug.byteIoRun fuel s src term wide none (cs.map .data)).res = .ok (some st)) :
    ∃ us : List (Nat × Str), (us.map fun u => Ev.dbg u.1 u.2).Sublist (Debug.byteIoRun fuel s src term wide none (cs.map .data)).evs ∧
      List.Forall₂ (fun u r => u.1 = r.1 ∧ Reports (visible u.2) r.2) us (limitedReports s none lines (fun off n => off + n) 0 [] cs) := by
  rw [limitedReports_lines s (bytes := none) rfl lines _ (fun off _ => off)]
  exact run_limited fuel s src term wide cs hcs none lines hmb hml hr

/-- C120 on the screen: the messages up to the level asked for are among the lines on the screen, in their order. -/
theorem C120_screen_partial (fuel : Nat) (s : Settings) (src : Debug.Source)
    (hn : ∀ name k, src = .file name k → ∀ c ∈ name, isControlChar c = false) (term wide : Nat → Int)
    (hp : s.readMode.1 = .binary → PosCols s term) (cs : List Bytes) (hcs : ∀ c ∈ cs, c ≠ [])
    (bytes lines : Option Nat) (hmb : s.maxBytes = optInt bytes) (hml : s.maxLines = optInt lines) {st : State}
    (hr : (Debug.byteIoRun fuel s src term wide none (cs.map .data)).res = .ok (some st)) :
    ∃ ts : List Str, ts.Sublist (screenTexts (stdoutOf s.debug (Debug.byteIoRun fuel s src term wide none (cs.map .data)).evs)) ∧
      List.Forall₂ Reports ts (((limitedReports s bytes lines (fun off _ => off) 0 [] cs).filter fun r => r.1 ≤ s.debug).map Prod.snd) := by
  have hs : src.Plain := by
    cases src with
    | stdin => trivial
    | file name k => exact hn name k rfl
  obtain ⟨us, h1, h2⟩ := run_limited fuel s src term wide cs hcs bytes lines hmb hml hr
  rw [screenTexts_stdout (Debug.byteIoRun_lines fuel s hs hp wide none _)]
  exact ⟨_, (printedTexts_sublist (debug := s.debug) h1).map visible, printedTexts_levels s.debug h2⟩

/-- Two chunks, of which the second is cut by the limit of lines; a third is not read. -/
def limitCase : List Bytes := [[0x61, 0x0a], [0x62, 0x0a, 0x63], [0x64]]

example : (∀ c ∈ limitCase, c ≠ []) ∧
    (match (Debug.byteIoRun 9 { debug := 3, maxLines := some 2 } .stdin (fun _ => 80) (fun _ => 30) none (limitCase.map .data)).res with
      | .ok (some _) => true
      | _ => false) = true ∧
    limitedReports { debug := 3, maxLines := some 2 } none (some 2) (fun off n => off + n) 0 [] limitCase =
      [(1, "  0x0000│Read chunk #0: len 2 [61 0a]".toList), (3, " parsbuf│Appending 2 bytes".toList),
       (2, " parsbuf│Buffer state: len 2 [61 0a]".toList), (1, "  parser│Parsing segment: len 2 [61 0a]".toList),
       (2, "  0x0000│Match group #33: Seg <P>: len 1 [61]".toList), (2, "  0x0001│Match group #28: Seg <S>: len 1 [0a]".toList),
       (3, " parsbuf│Purging".toList), (2, " parsbuf│Buffer state: len 0 []".toList), (1, "  0x0002│Read chunk #1: len 3 [62 0a 63]".toList),
       (2, "  0x0002│Line limit exceeded: 2".toList), (3, "  0x0002│Cropping input -> len 1 [62]".toList), (3, " parsbuf│Appending 1 bytes".toList),
       (2, " parsbuf│Buffer state: len 1 [62]".toList), (1, "  parser│Parsing segment: len 1 [62]".toList),
       (2, "  0x0002│Match group #33: Seg <P>: len 1 [62]".toList), (3, " parsbuf│Purging".toList), (2, " parsbuf│Buffer state: len 0 []".toList),
       (1, "  0x0003│Encountered EOF".toList), (3, " parsbuf│Appending 0 bytes".toList), (2, " parsbuf│Buffer state: len 0 []".toList),
       (1, " parsbuf│Closing buffer for input".toList), (1, "  parser│Parsing segment: len 0 []".toList), (3, " parsbuf│Purging".toList),
       (2, " parsbuf│Buffer state: len 0 []".toList)] := by decide +kernel

/-- The limit of bytes cuts the second chunk: the end is reported where that chunk begins. -/
example : limitedReports { debug := 2, maxBytes := some 4 } (some 4) none (fun off _ => off) 0 [] limitCase =
      [(1, "  0x0000│Read chunk #0: len 2".toList), (3, " parsbuf│Appending 2 bytes".toList), (2, " parsbuf│Buffer state: len 2".toList),
       (1, "  parser│Parsing segment: len 2".toList), (2, "  0x0000│Match group #33: Seg <P>: len 1".toList),
       (2, "  0x0001│Match group #28: Seg <S>: len 1".toList), (3, " parsbuf│Purging".toList), (2, " parsbuf│Buffer state: len 0".toList),
       (1, "  0x0002│Read chunk #1: len 3".toList), (2, "  0x0002│Byte limit exceeded: 4".toList), (3, "  0x0002│Cropping input -> len 2".toList),
       (1, "  0x0002│Encountered EOF".toList), (3, " parsbuf│Appending 2 bytes".toList), (2, " parsbuf│Buffer state: len 2".toList),
       (1, " parsbuf│Closing buffer for input".toList), (1, "  parser│Parsing segment: len 2".toList),
       (2, "  0x0002│Match group #33: Seg <P>: len 1".toList), (2, "  0x0003│Match group #28: Seg <S>: len 1".toList), (3, " parsbuf│Purging".toList),
       (2, " parsbuf│Buffer state: len 0".toList)] ∧
    (screenTexts (stdoutOf 2 (Debug.byteIoRun 9 { debug := 2, maxBytes := some 4 } .stdin (fun _ => 80) (fun _ => 30) none (limitCase.map .data)).evs)).filter
        (fun t => (t.drop 9).take 11 == "Encountered".toList) = ["  0x0002│Encountered EOF\n".toList] := by decide +kernel

theorem forall₂_mem {α β : Type} {R : α → β → Prop} {l : List α} {l' : List β} (h : List.Forall₂ R l l') {b : β} (hb : b ∈ l') : ∃ a ∈ l, R a b := by
  induction h with
  | nil => cases hb
  | cons h1 _ ih =>
    rcases List.mem_cons.1 hb with rfl | hb
    · exact ⟨_, by simp, h1⟩
    · obtain ⟨a, ha, h2⟩ := ih hb
      exact ⟨a, by simp [ha], h2⟩

/-- C120 is not met if the limit of bytes cuts a chunk: one byte is left of two, and the end is not reported after it. -/
theorem C120_negation : ¬ ∀ (fuel : Nat) (s : Settings) (src : Debug.Source) (term wide : Nat → Int) (cs : List Bytes), (∀ c ∈ cs, c ≠ []) →
    ∀ (bytes lines : Option Nat), s.maxBytes = optInt bytes → s.maxLines = optInt lines → ∀ st : State,
    (Debug.byteIoRun fuel s src term wide none (cs.map .data)).res = .ok (some st) →
    ∃ us : List (Nat × Str), (us.map fun u => Ev.dbg u.1 u.2).Sublist (Debug.byteIoRun fuel s src term wide none (cs.map .data)).evs ∧
      List.Forall₂ (fun u r => u.1 = r.1 ∧ Reports (visible u.2) r.2) us (limitedReports s bytes lines (fun off n => off + n) 0 [] cs) := by
  intro h
  have hok : ∃ st, (Debug.byteIoRun 9 { debug := 1, maxBytes := some 1 } .stdin (fun _ => 80) (fun _ => 30) none [.data [0x61, 0x62]]).res = .ok (some st) := by
    have : (match (Debug.byteIoRun 9 { debug := 1, maxBytes := some 1 } .stdin (fun _ => 80) (fun _ => 30) none [.data [0x61, 0x62]]).res with
      | .ok (some _) => true
      | _ => false) = true := by decide +kernel
    revert this
    generalize (Debug.byteIoRun _ _ _ _ _ _ _).res = r
    intro hr
    cases r with
    | ok o =>
      cases o with
      | none => simp at hr
      | some st => exact ⟨st, rfl⟩
    | timeout => simp at hr
    | err e => simp at hr
  obtain ⟨st, hst⟩ := hok
  obtain ⟨us, h1, h2⟩ := h 9 { debug := 1, maxBytes := some 1 } .stdin (fun _ => 80) (fun _ => 30) [[0x61, 0x62]] (by simp) (some 1) none rfl rfl st hst
  have hmem : (1, "  0x0001│Encountered EOF".toList) ∈
      limitedReports { debug := 1, maxBytes := some 1 } (some 1) none (fun off n => off + n) 0 [] [[0x61, 0x62]] := by decide +kernel
  obtain ⟨u, hu, hl, rest, hrep, -⟩ := forall₂_mem h2 hmem
  have hev := h1.subset (List.mem_map.2 ⟨u, hu, rfl⟩)
  have hno : ∀ e ∈ (Debug.byteIoRun 9 { debug := 1, maxBytes := some 1 } .stdin (fun _ => 80) (fun _ => 30) none ([[0x61, 0x62]].map .data)).evs,
      (match e with
        | .dbg 1 t => "  0x0001│Encountered EOF".toList.isPrefixOf (visible t)
        | _ => false) = false := by decide +kernel
  have := hno _ hev
  rw [hl] at this
  simp only [hrep, List.append_assoc] at this
  rw [← Bool.not_eq_true, List.isPrefixOf_iff_prefix] at this
  exact this (List.prefix_append _ _)

end Kolombos
