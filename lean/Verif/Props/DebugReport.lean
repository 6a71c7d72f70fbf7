import Verif.Lemmas.DebugDumps
/-
C68, C69: what debug messages say about the input.
-/
set_option linter.unusedSimpArgs false

namespace Kolombos
open Spec

/-! ### C68: chunks and rows -/

/-- C68 for chunks: if the input is read to its end without limits, there is a message of level 1 for
every chunk, in their order; it has the offset of the chunk, its number and its length, and with `-DDD`
its bytes. -/
theorem C68_chunks (fuel : Nat) (s : Settings) (src : Debug.Source) (term wide : Nat → Int) (cs : List Bytes) (hcs : ∀ c ∈ cs, c ≠ [])
    (hmb : s.maxBytes = none) (hml : s.maxLines = none) {st : State}
    (hr : (Debug.byteIoRun fuel s src term wide none (cs.map .data)).res = .ok (some st)) :
    ∃ us : List Str, (us.map (.dbg 1)).Sublist (Debug.byteIoRun fuel s src term wide none (cs.map .data)).evs ∧
      us.map visible = chunkReports s 0 0 cs := by
  unfold Debug.byteIoRun at hr ⊢
  have h1 : (Config.create s).settings.maxBytes = none := by
    rw [config_settings]; unfold Settings.readMode; repeat' split
    all_goals exact hmb
  have h2 : (Config.create s).settings.maxLines = none := by
    rw [config_settings]; unfold Settings.readMode; repeat' split
    all_goals exact hml
  have h3 : ∀ k off, chunkReports (Config.create s).settings k off cs = chunkReports s k off cs := by
    rw [config_settings]
    clear hcs hr
    induction cs with
    | nil => intro k off; rfl
    | cons c cs ih => intro k off; simp only [chunkReports, Debug.readMode_offsetText, Debug.readMode_debug, ih]
  simp only [Trace.log] at hr ⊢
  rw [Debug.read_evs, h1, h2]
  rw [h1, h2] at hr
  have hl : ∃ st', (Debug.readLoop (Config.create s).settings src none none (Debug.processChunk fuel (Config.create s) term wide) (cs.map .data) 0 0 0 0 {}).res = .ok st' := by
    unfold Debug.read at hr
    simp only [Trace.log] at hr
    revert hr
    generalize (Debug.readLoop _ _ _ _ _ _ _ _ _ _ _ : Trace State) = t
    intro hr
    cases hres : t.res with
    | ok st' => exact ⟨st', rfl⟩
    | timeout => simp [hres] at hr
    | err e => cases e <;> simp [hres] at hr
  obtain ⟨st', hl⟩ := hl
  obtain ⟨us, e1, e2⟩ := Debug.readLoop_reports _ src cs hcs _ _ _ _ _ _ hl
  exact ⟨us, (e1.trans (List.sublist_append_right _ _)).trans (List.sublist_append_right _ _), by rw [e2, h3]⟩

/-- Two chunks. -/
example : (∀ c ∈ [[0x61, 0x62, 0x63, 0x64, 0x65], [(0x0a : Byte)]], c ≠ []) ∧
    (match (Debug.byteIoRun 9 { debug := 3 } .stdin (fun _ => 80) (fun _ => 30) none ([[0x61, 0x62, 0x63, 0x64, 0x65], [0x0a]].map .data)).res with
      | .ok (some _) => true
      | _ => false) = true ∧
    chunkReports { debug := 3 } 0 0 [[0x61, 0x62, 0x63, 0x64, 0x65], [0x0a]] =
      ["  0x0000│Read chunk #0: len 5 [61 62 63.. 65]\n".toList, "  0x0005│Read chunk #1: len 1 [0a]\n".toList] := by decide +kernel

/-- C68 for rows: in binary mode with `-D`, every write of the display is the line with the total or a row
right below a message of level 1 that has the same offset and the same bytes, and plain characters for them. -/
theorem C68_rows (fuel : Nat) (s : Settings) (hm : s.readMode.1 = .binary) (hd : 1 ≤ s.debug) (src : Debug.Source) (term wide : Nat → Int)
    (hp : PosCols s term) (opened : Option Err) (io : List IoStep) (before after : List Ev) (t : Str)
    (he : (Debug.byteIoRun fuel s src term wide opened io).evs = before ++ .out t :: after) :
    (∃ n, visible t = offsetText s n ++ ['\n']) ∨
    ∃ earlier u off fill bytes chars, before = earlier ++ [.dbg 1 u] ∧ bytes ≠ [] ∧ chars.length = bytes.length ∧
      visible t = dumpLine s off fill bytes chars ∧ visible u = dumpLine s off fill bytes (bytes.map plainChar) := by
  rcases Debug.byteIoRun_paired hd hm fuel src hp wide opened io before t after he with h | ⟨a, u, h1, off, fill, bytes, chars, h2⟩
  · exact .inl h
  · exact .inr ⟨a, u, off, fill, bytes, chars, h1, h2⟩

/-- A row and the message above it. -/
example : ({ binary := true, columns := some 4, debug := 1 } : Settings).readMode.1 = .binary ∧
    ((printedTexts 1 (Debug.byteIoRun 9 { binary := true, columns := some 4, debug := 1 } .stdin (fun _ => 80) (fun _ => 30) none [.data [0x61, 0x0a, 0xff]]).evs).map
      visible).filter (fun t => t.contains 'a' && t.contains '6') = ["  0x0000│ 61 0a ff    │a·▯\n".toList, "  0x0000│ 61 0a ff    │a↵▯\n".toList] ∧
    dumpLine { binary := true, columns := some 4, debug := 1 } 0 3 [0x61, 0x0a, 0xff] ([0x61, 0x0a, 0xff].map plainChar) =
      "  0x0000│ 61 0a ff    │a·▯\n".toList := by decide +kernel

/-! ### C69: lines

In text mode every line of the display is below a message of level 2 with the offset of the line and its bytes,
and a message of level 1 with its offset and plain characters. -/

/-- C69, what is true for every input: the lines are those of the bytes in `dumpedBytes`, and the offsets are counted
in them, too. -/
theorem C69_exact_partial (fuel : Nat) (s : Settings) (hm : s.readMode.1 = .text) (src : Debug.Source) (term wide : Nat → Int)
    (cs : List Bytes) (hcs : ∀ c ∈ cs, c ≠ []) (hmb : s.maxBytes = none) (hml : s.maxLines = none) {st : State}
    (hr : (Debug.byteIoRun fuel s src term wide none (cs.map .data)).res = .ok (some st)) :
    ∃ us : List (Str × Str × Str),
      (us.flatMap fun u => [Ev.dbg 2 u.1, .dbg 1 u.2.1, .out u.2.2]).Sublist (Debug.byteIoRun fuel s src term wide none (cs.map .data)).evs ∧
      outTexts (Debug.byteIoRun fuel s src term wide none (cs.map .data)).evs = us.map (·.2.2) ∧
      us.map (fun u => (visible u.1, visible u.2.1)) = lineDumps s 0 (keptLines ((chunkPieces cs).flatMap (dumpedBytes s))) := by
  unfold Debug.byteIoRun at hr ⊢
  have h1 : (Config.create s).settings.maxBytes = none := by
    rw [config_settings]; unfold Settings.readMode; repeat' split
    all_goals exact hmb
  have h2 : (Config.create s).settings.maxLines = none := by
    rw [config_settings]; unfold Settings.readMode; repeat' split
    all_goals exact hml
  simp only [Trace.log] at hr ⊢
  rw [Debug.read_evs, h1, h2]
  rw [h1, h2] at hr
  have hl : ∃ st', (Debug.readLoop (Config.create s).settings src none none (Debug.processChunk fuel (Config.create s) term wide) (cs.map .data) 0 0 0 0 {}).res = .ok st' := by
    unfold Debug.read at hr
    simp only [Trace.log] at hr
    revert hr
    generalize (Debug.readLoop _ _ _ _ _ _ _ _ _ _ _ : Trace State) = t
    intro hr
    cases hres : t.res with
    | ok st' => exact ⟨st', rfl⟩
    | timeout => simp [hres] at hr
    | err e => cases e <;> simp [hres] at hr
  obtain ⟨st', hl⟩ := hl
  obtain ⟨ls, as, bs, hc, hd⟩ := Debug.readLoop_dumped hm (Config.create s).settings src fuel term wide cs hcs 0 0 0 0 {} st' [] .start (by simp [NoNl]) hl
  rw [List.nil_append] at hc
  have hall : rawSegs (cs.flatMap (chunkSegs s)) = (chunkPieces cs).flatMap (dumpedBytes s) := by
    clear hcs hr hl hc hd
    unfold chunkPieces
    induction cs with
    | nil => rfl
    | cons c cs ih => rw [List.flatMap_cons, rawSegs_append, ih, (chunkSegs_dumped hm c).1, List.flatMap_cons, List.flatMap_append]
  have hg : ∀ g ∈ cs.flatMap (chunkSegs s), LineSeg g := by
    intro g hg
    obtain ⟨c, hc, hg⟩ := List.mem_flatMap.1 hg
    exact (chunkSegs_dumped hm c).2 g hg
  rw [cut_kept hg hc, hall] at hd
  refine Dumped.before ?_ (Dumped.before ?_ hd)
  · split
    · simp
    · simp only [List.mem_cons, List.not_mem_nil, or_false, forall_eq]; exact Debug.write_message _ _ _ _ _
  · exact forall_pair (Debug.write_message _ _ _ _ _) (Debug.write_message _ _ _ _ _)

/-- C69 for input that the messages show completely: without details there must be no ESC (unless escape sequences are ignored), with
details no control characters. -/
def DumpsAll (s : Settings) (cs : List Bytes) : Prop :=
  (level s = 0 → s.ignore .escapeSeq = false → ∀ c ∈ cs, (0x1b : Byte) ∉ c) ∧ (level s ≠ 0 → ∀ c ∈ cs, ∀ b ∈ c, isCtrl b = false)

theorem DumpsAll.pieces {s : Settings} {cs : List Bytes} (h : DumpsAll s cs) : ∀ q ∈ chunkPieces cs, dumpedBytes s q = q.2 := by
  intro q hq
  obtain ⟨c, hc, hq⟩ := List.mem_flatMap.1 hq
  have hw := pieces_wf hq
  have hsub : ∀ b ∈ q.2, b ∈ c := by
    intro b hb
    rw [← pieces_flatten c]
    exact List.mem_flatten.2 ⟨q.2, List.mem_map_of_mem hq, hb⟩
  unfold dumpedBytes
  split
  · rename_i h1
    exfalso
    obtain ⟨k, p⟩ := q
    simp only at h1 hw hsub
    obtain ⟨rfl, h1⟩ := h1
    cases p with
    | nil => exact hw.ne_nil rfl
    | cons b p =>
      have := hw.run_all (q := isCtrl) rfl b (by simp)
      rw [h.2 h1 c hc b (hsub b (by simp))] at this
      cases this
  · split
    · rename_i h1
      have hk : isEscKind q.1 = true := by
        have := h1.1
        cases hk : q.1 <;> rw [hk] at this <;> first | (cases this; done) | rfl
      obtain ⟨t, e, -⟩ := hw.esc_form hk
      exact absurd (hsub 0x1b (by rw [e]; simp)) (h.1 h1.2.2 h1.2.1 c hc)
    · rfl

/-- C69 without escape sequences, or without control characters and with details. -/
theorem C69_lines_partial (fuel : Nat) (s : Settings) (hm : s.readMode.1 = .text) (src : Debug.Source) (term wide : Nat → Int)
    (cs : List Bytes) (hcs : ∀ c ∈ cs, c ≠ []) (he : DumpsAll s cs) (hmb : s.maxBytes = none) (hml : s.maxLines = none) {st : State}
    (hr : (Debug.byteIoRun fuel s src term wide none (cs.map .data)).res = .ok (some st)) :
    ∃ us : List (Str × Str × Str),
      (us.flatMap fun u => [Ev.dbg 2 u.1, .dbg 1 u.2.1, .out u.2.2]).Sublist (Debug.byteIoRun fuel s src term wide none (cs.map .data)).evs ∧
      outTexts (Debug.byteIoRun fuel s src term wide none (cs.map .data)).evs = us.map (·.2.2) ∧
      us.map (fun u => (visible u.1, visible u.2.1)) = lineDumps s 0 (keptLines cs.flatten) := by
  have := C69_exact_partial fuel s hm src term wide cs hcs hmb hml hr
  rwa [dumped_all he.pieces] at this

/-- Escape sequences with details; a control character with details and a sequence without. -/
example : DumpsAll { debug := 2, text := true, marker := 2 } [[0x1b, 0x5b, 0x33, 0x31, 0x6d, 0x61, 0x0a]] ∧
    (match (Debug.byteIoRun 9 { debug := 2, text := true, marker := 2 } .stdin (fun _ => 80) (fun _ => 30) none ([[0x1b, 0x5b, 0x33, 0x31, 0x6d, 0x61, 0x0a]].map .data)).res with
      | .ok (some _) => true
      | _ => false) = true ∧
    lineDumps { debug := 2, text := true, marker := 2 } 0 (keptLines [0x1b, 0x5b, 0x33, 0x31, 0x6d, 0x61, 0x0a]) =
      [("  0x0000│ 1b 5b 33 31 6d 61 0a\n".toList, "  0x0000│▯[31ma·\n".toList)] := by
  refine ⟨⟨fun h => absurd h (by decide), fun _ => by decide⟩, ?_, ?_⟩ <;> decide +kernel

example : (chunkPieces [[0x03, 0x1b, 0x5b, 0x33, 0x31, 0x6d, 0x61, 0x0a]]).flatMap (dumpedBytes { marker := 1 }) = [0, 0, 0, 0x1b, 0x5b, 0x33, 0x31, 0x6d, 0x61, 0x0a] ∧
    (chunkPieces [[0x03, 0x1b, 0x5b, 0x33, 0x31, 0x6d, 0x61, 0x0a]]).flatMap (dumpedBytes {}) = [0x03, 0x1b, 0x61, 0x0a] := by decide +kernel

/-- Two lines, the first one in two chunks. -/
example : ({ debug := 2, text := true } : Settings).readMode.1 = .text ∧ (∀ c ∈ [[0x61, 0x62], [(0x0a : Byte), 0x63, 0x07]], c ≠ [] ∧ (0x1b : Byte) ∉ c) ∧
    (match (Debug.byteIoRun 9 { debug := 2, text := true } .stdin (fun _ => 80) (fun _ => 30) none ([[0x61, 0x62], [0x0a, 0x63, 0x07]].map .data)).res with
      | .ok (some _) => true
      | _ => false) = true ∧
    lineDumps { debug := 2, text := true } 0 (keptLines [0x61, 0x62, 0x0a, 0x63, 0x07]) =
      [("  0x0000│ 61 62 0a\n".toList, "  0x0000│ab·\n".toList), ("  0x0003│ 63 07\n".toList, "  0x0003│c▯\n".toList)] := by decide +kernel

/-- C69 does not hold in general: the messages omit the parameters of escape sequences, here for a line with a
colour. -/
theorem C69_negation : ¬ ∀ (fuel : Nat) (s : Settings), s.readMode.1 = .text → ∀ (src : Debug.Source) (term wide : Nat → Int)
    (cs : List Bytes), (∀ c ∈ cs, c ≠ []) → s.maxBytes = none → s.maxLines = none → ∀ st : State,
    (Debug.byteIoRun fuel s src term wide none (cs.map .data)).res = .ok (some st) →
    ∃ us : List (Str × Str × Str),
      (us.flatMap fun u => [Ev.dbg 2 u.1, .dbg 1 u.2.1, .out u.2.2]).Sublist (Debug.byteIoRun fuel s src term wide none (cs.map .data)).evs ∧
      outTexts (Debug.byteIoRun fuel s src term wide none (cs.map .data)).evs = us.map (·.2.2) ∧
      us.map (fun u => (visible u.1, visible u.2.1)) = lineDumps s 0 (keptLines cs.flatten) := by
  intro h
  have hok : ∃ st, (Debug.byteIoRun 9 { debug := 2, text := true } .stdin (fun _ => 80) (fun _ => 30) none
      ([[0x1b, 0x5b, 0x33, 0x31, 0x6d, 0x61, 0x0a]].map .data)).res = .ok (some st) := by
    have : (match (Debug.byteIoRun 9 { debug := 2, text := true } .stdin (fun _ => 80) (fun _ => 30) none
        ([[0x1b, 0x5b, 0x33, 0x31, 0x6d, 0x61, 0x0a]].map .data)).res with | .ok (some _) => true | _ => false) = true := by decide +kernel
    split at this
    · rename_i st e; exact ⟨st, e⟩
    · cases this
  obtain ⟨st, hok⟩ := hok
  obtain ⟨us, h1, -, h3⟩ := h 9 { debug := 2, text := true } (by decide) .stdin (fun _ => 80) (fun _ => 30)
    [[0x1b, 0x5b, 0x33, 0x31, 0x6d, 0x61, 0x0a]] (by decide) rfl rfl st hok
  have e : lineDumps { debug := 2, text := true } 0 (keptLines [[0x1b, 0x5b, 0x33, 0x31, 0x6d, 0x61, 0x0a]].flatten) =
      [("  0x0000│ 1b 5b 33 31 6d 61 0a\n".toList, "  0x0000│▯[31ma·\n".toList)] := by decide +kernel
  rw [e] at h3
  match us, h3 with
  | [u], h3 =>
    have h4 : visible u.1 = "  0x0000│ 1b 5b 33 31 6d 61 0a\n".toList := by
      have := List.head_eq_of_cons_eq h3
      exact congrArg Prod.fst this
    have h5 : Ev.dbg 2 u.1 ∈ (Debug.byteIoRun 9 { debug := 2, text := true } .stdin (fun _ => 80) (fun _ => 30) none
      ([[0x1b, 0x5b, 0x33, 0x31, 0x6d, 0x61, 0x0a]].map .data)).evs := h1.subset (by simp)
    have h6 : ((Debug.byteIoRun 9 { debug := 2, text := true } .stdin (fun _ => 80) (fun _ => 30) none
      ([[0x1b, 0x5b, 0x33, 0x31, 0x6d, 0x61, 0x0a]].map .data)).evs.all fun
        | .dbg 2 t => visible t != "  0x0000│ 1b 5b 33 31 6d 61 0a\n".toList
        | _ => true) = true := by decide +kernel
    have := List.all_eq_true.1 h6 _ h5
    simp [h4] at this
  | [], h3 => cases h3
  | _ :: _ :: _, h3 => simp at h3

end Kolombos
