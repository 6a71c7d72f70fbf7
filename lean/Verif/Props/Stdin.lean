import Verif.Props.Args
/-
C56 for standard input.
-/
set_option linter.unusedSimpArgs false

namespace Kolombos
open Spec

/-- The reader's calls for the steps of an input. -/
def ioEvents (s : Settings) (io : List IoStep) : List ReadEvent := (readEvents s.maxBytes s.maxLines io 0 0).1

theorem ioEvents_complete (s : Settings) {io : List IoStep} (h : NoRaise io) : Complete (ioEvents s io) :=
  (readEvents_shape _ _ _ 0 0).last (readEvents_noRaise h 0 0)

theorem ioEvents_delivered {s : Settings} {io : List IoStep} (hio : NoRaise io) {mb ml : Option Nat} {pB pL : Bytes} (hmb : s.maxBytes = optInt mb)
    (hml : s.maxLines = optInt ml) (hB : UnderBytes mb (contentOf io) pB) (hL : UnderLines ml (contentOf io) pL) :
    delivered (ioEvents s io) = if pB.length ≤ pL.length then pB else pL := by
  obtain ⟨evs, h1, h2⟩ := C37_limits mb ml _ hio pB pL hB hL
  rw [loop_record, readEvents_noRaise hio] at h1
  simp only [Run.pure, List.nil_append, Run.mk.injEq, Res.ok.injEq, true_and] at h1
  rw [ioEvents, hmb, hml, h1, h2]

theorem cropLines_all (n : Int) (s : Bytes) (k : Nat) : (Reader.cropLines n s k).1 = s ∨ ((Reader.cropLines n s k).2 : Int) ≥ n := by
  induction s generalizing k with
  | nil => exact .inl rfl
  | cons b s ih =>
    rw [Reader.cropLines]
    split
    · split
      · rename_i h; exact .inr h
      · rcases ih (k + 1) with h | h
        · exact .inl (by simp only [h])
        · exact .inr h
    · rcases ih k with h | h
      · exact .inl (by simp only [h])
      · exact .inr h

theorem limitLines_all {mb ml : Option Int} {raw : Bytes} {k offset : Nat} (h : ¬ Reader.limitReached mb ml offset (Reader.limitLines ml raw k).2 = true) :
    (Reader.limitLines ml raw k).1 = raw := by
  unfold Reader.limitLines at *
  cases ml with
  | none => rfl
  | some n =>
    simp only at *
    by_cases hn : n = 0
    · simp [hn]
    · rw [if_pos hn] at h ⊢
      rcases cropLines_all n raw k with h' | h'
      · exact h'
      · exfalso
        apply h
        unfold Reader.limitReached
        simp [hn, h']

/-- Chunks that end with a line feed (all but the last one). -/
theorem readEvents_lines (mb ml : Option Int) (cs : List Bytes) (h : ∀ c ∈ cs.dropLast, c.getLast? = some 0x0a) (offset lines : Nat) :
    SafeChunks ((readEvents mb ml (cs.map .data) offset lines).1.map (·.data)) := by
  have h1 : ∀ x : Bytes, SafeChunks [x] := fun x => ⟨safe_nil_right x, trivial⟩
  have h2 : ∀ x : Bytes, SafeChunks [x, []] := fun x => ⟨safe_nil_right x, h1 []⟩
  induction cs generalizing offset lines with
  | nil => exact h1 []
  | cons c cs ih =>
    rw [List.map_cons, readEvents]
    split
    · exact h1 []
    · simp only
      split
      · exact h1 _
      · split
        · exact h2 _
        · rename_i hl
          rw [limitLines_all hl]
          simp only [List.map_cons]
          cases cs with
          | nil => exact h2 _
          | cons d cs =>
            rw [List.dropLast_cons_cons] at h
            exact ⟨safe_lf (h c (by simp)) _, ih (fun x hx => h x (by simp [hx])) _ _⟩

theorem contentOf_mem {cs : List Bytes} {x : Byte} (h : x ∈ contentOf (cs.map .data)) : ∃ c ∈ cs, x ∈ c := by
  induction cs with
  | nil => simp [contentOf] at h
  | cons c cs ih =>
    cases c with
    | nil => simp [contentOf] at h
    | cons b c =>
      rw [List.map_cons, contentOf, List.mem_append] at h
      rcases h with h | h
      · exact ⟨b :: c, by simp, h⟩
      · obtain ⟨d, h1, h2⟩ := ih h
        exact ⟨d, by simp [h1], h2⟩

theorem noRaise_data (cs : List Bytes) : NoRaise (cs.map .data) := by
  intro e he
  obtain ⟨c, -, h⟩ := List.mem_map.1 he
  cases h

theorem ioEvents_safe {s : Settings} {cs : List Bytes} {p : Bytes} (hd : delivered (ioEvents s (cs.map .data)) = p)
    (hp : p <+: contentOf (cs.map .data)) (hsafe : TameChunks cs) :
    SafeChunks ((ioEvents s (cs.map .data)).map (·.data)) := by
  rcases hsafe with h | h | h
  · refine readEvents_lines _ _ cs ?_ 0 0
    match cs, h with
    | [], _ => simp
    | [c], _ => simp
  · refine safeChunks_ascii fun x hx => ?_
    obtain ⟨c, h1, h2⟩ := contentOf_mem (hp.mem (show x ∈ p by rw [← hd]; exact hx))
    exact h c h1 x h2
  · exact readEvents_lines _ _ cs h 0 0

theorem stdin_readable {s : Settings} {cs : List Bytes} {p : Bytes} (hd : delivered (ioEvents s (cs.map .data)) = p)
    (hp : p <+: contentOf (cs.map .data)) (hbad : ¬ BadChunk p) (hsafe : TameChunks cs) :
    SafeChunks ((ioEvents s (cs.map .data)).map (·.data)) ∧ Readable (ioEvents s (cs.map .data)) := by
  have h1 := ioEvents_safe hd hp hsafe
  refine ⟨h1, readable_of_safe (es := [⟨p, 0, true⟩]) ⟨safe_nil_right p, trivial⟩ h1 ?_ ?_⟩
  · rw [hd]; simp [delivered]
  · intro e he
    rw [List.mem_singleton.1 he]; exact hbad

theorem byteIoRun_ioSession {fuel : Nat} {t : Settings} {term : Nat → Int} {io : List IoStep} (hio : NoRaise io) {out : Str} {st : State}
    (h : session fuel t term (ioEvents t io) = ⟨out, .ok st⟩) :
    byteIoRun fuel t term none io = ⟨out, .ok (some st), true⟩ := by
  obtain ⟨a, b, hset⟩ := readMode_eq t
  have hcs : (Config.create t).settings = t.readMode.2 := config_settings _
  have hmb : (Config.create t).settings.maxBytes = t.maxBytes := by rw [hcs, hset]
  have hml : (Config.create t).settings.maxLines = t.maxLines := by rw [hcs, hset]
  unfold byteIoRun Reader.read
  simp only [hmb, hml]
  rw [loop_play, playAll, readEvents_noRaise hio]
  simp only [bind_pure]
  have h' : playEvents (processChunk fuel (Config.create t) term) (readEvents t.maxBytes t.maxLines io 0 0).1 {} = ⟨out, .ok st⟩ := h
  rw [h']

theorem program_stdin {args : List Arg} {w : World} {s : Settings} (hv : ViewsStdin args) (hs : Asked args s) (hio : NoRaise w.stdin)
    {fuel : Nat} {out : Str} {st : State} (h : session fuel s w.term (ioEvents s w.stdin) = ⟨out, .ok st⟩) :
    program fuel w args = ⟨out ++ ['\n'], some 0⟩ := by
  have no : ∀ a ∈ [Arg.help, .debug, .flag .demo, .flag .legend, .flag .version], a ∉ args := hv.only
  obtain ⟨t, e1, e2⟩ := (C55_settings args (no _ (by simp))).1 hv.wellFormed
  have := settings_ext e2 hs
  subst this
  have hdem : t.demo = false := by
    have := hs.demo; have := no (.flag .demo) (by simp)
    simp_all
  have hleg : t.legend = false := by
    have := hs.legend; have := no (.flag .legend) (by simp)
    simp_all
  have hver : t.version = false := by
    have := hs.version; have := no (.flag .version) (by simp)
    simp_all
  have hdeb : t.debug = 0 := by
    rw [hs.debug, List.count_eq_zero]; exact no _ (by simp)
  have hds : debugSettings t = t := by unfold debugSettings; rw [if_neg (by omega)]
  have ho : w.open t (fileNames args).head? = (none, w.stdin) := by
    unfold World.open
    rw [hdem]
    rcases hv.file with h | h | h <;> rw [h] <;> simp
  unfold program
  rw [e1]
  simp only
  rw [ho]
  unfold appRun Runner.create
  simp only [hds, hleg, hver, hdem, Bool.false_eq_true, if_false]
  rw [byteIoRun_ioSession hio h]

/-- C56 for standard input, text mode: standard input delivers the chunks `cs`, of whose bytes the
limits leave `p`; the process ends with status 0, and the terminal shows the lines of the pieces
of `p` in their colours, and an empty line. -/
theorem C56_stdin_text (args : List Arg) (w : World) (cs : List Bytes) (s : Settings) (mb ml : Option Nat) (pB pL p : Bytes)
    (hv : ViewsStdin args) (hs : Asked args s) (hb : .flag .binary ∉ args) (hw : w.stdin = cs.map .data) (hne : ∀ c ∈ cs, c ≠ [])
    (hmb : lastInt .maxBytes args = optInt mb) (hml : lastInt .maxLines args = optInt ml)
    (hB : UnderBytes mb cs.flatten pB) (hL : UnderLines ml cs.flatten pL) (hp : p = if pB.length ≤ pL.length then pB else pL) (hbad : ¬ BadChunk p)
    (hsafe : TameChunks cs) (fuel : Nat) (hfuel : 4 * p.length < fuel) :
    (program fuel w args).status = some 0 ∧
      appears (program fuel w args).out = (inkLines (labelInk s) (textInk s) (lostAt s) (pieces p)).flatten ++ [('\n', ({} : Style))] := by
  have hio := noRaise_data cs
  have hcont : contentOf (cs.map .data) = cs.flatten := by
    clear hw hsafe hB hL hio
    induction cs with
    | nil => rfl
    | cons c cs ih =>
      cases c with
      | nil => exact absurd rfl (hne [] (by simp))
      | cons b c => rw [List.map_cons, contentOf, ih fun x hx => hne x (by simp [hx])]; rfl
  have hd := ioEvents_delivered (s := s) hio (by rw [hs.maxBytes, hmb]) (by rw [hs.maxLines, hml]) (by rw [hcont]; exact hB) (by rw [hcont]; exact hL)
  have hpre := limits_prefix hB hL
  rw [← hp] at hd hpre
  obtain ⟨h1, h2⟩ := stdin_readable hd (by rw [hcont]; exact hpre) hbad hsafe
  have hbin : s.binary = false := by
    have := hs.binary
    simp_all
  have hm : s.readMode.1 = .text := by
    unfold Settings.readMode
    rw [hbin, hs.mode]
    cases s.text <;> rfl
  obtain ⟨out, st, e1, e2⟩ := inkComplete hm w.term (ioEvents_complete s hio) h2 (fuel := fuel) (by rw [hd]; exact hfuel)
  rw [program_stdin hv hs (by rw [hw]; exact hio) (by rw [hw]; exact e1)]
  refine ⟨rfl, ?_⟩
  have := (e2.append (Shows.text {} (s := ['\n']) (by decide))).appears
  rw [this]
  have r := (safe_chunks h1).ink_eq s
  rw [show ((ioEvents s (cs.map .data)).map (·.data)).flatten = p from hd] at r
  rw [r]
  rfl

/-- C56 for standard input, binary mode with `c > 0` columns. -/
theorem C56_stdin_binary (args : List Arg) (w : World) (cs : List Bytes) (s : Settings) (mb ml : Option Nat) (pB pL p : Bytes)
    (hv : ViewsStdin args) (hs : Asked args s) (hb : .flag .binary ∈ args) (hw : w.stdin = cs.map .data) (hne : ∀ c ∈ cs, c ≠ [])
    (c : Nat) (hc : 0 < c) (hcols : lastInt .columns args = some (c : Int))
    (hmb : lastInt .maxBytes args = optInt mb) (hml : lastInt .maxLines args = optInt ml)
    (hB : UnderBytes mb cs.flatten pB) (hL : UnderLines ml cs.flatten pL) (hp : p = if pB.length ≤ pL.length then pB else pL) (hbad : ¬ BadChunk p)
    (hsafe : TameChunks cs) (fuel : Nat) (hfuel : p.length < fuel) :
    (program fuel w args).status = some 0 ∧
      ∃ cells : List Cell,
        cells.map Cell.byte = p ∧ cells.map Cell.shown = (pieces p).flatMap (binInk s) ∧
        appears (program fuel w args).out = rowsView s c cells ++ [('\n', ({} : Style))] := by
  have hio := noRaise_data cs
  have hcont : contentOf (cs.map .data) = cs.flatten := by
    clear hw hsafe hB hL hio
    induction cs with
    | nil => rfl
    | cons c cs ih =>
      cases c with
      | nil => exact absurd rfl (hne [] (by simp))
      | cons b c => rw [List.map_cons, contentOf, ih fun x hx => hne x (by simp [hx])]; rfl
  have hd := ioEvents_delivered (s := s) hio (by rw [hs.maxBytes, hmb]) (by rw [hs.maxLines, hml]) (by rw [hcont]; exact hB) (by rw [hcont]; exact hL)
  have hpre := limits_prefix hB hL
  rw [← hp] at hd hpre
  obtain ⟨h1, h2⟩ := stdin_readable hd (by rw [hcont]; exact hpre) hbad hsafe
  have hbin : s.binary = true := hs.binary.2 hb
  have htext : s.text = false := by
    cases h : s.text with
    | false => rfl
    | true => exact absurd .textBinary (hv.wellFormed.compatible _ (hs.text.1 h) _ hb)
  have hm : s.readMode.1 = .binary := by
    unfold Settings.readMode
    rw [hbin, htext]
    rfl
  have hco : ∀ k off, BinaryFormatter.curCols s (w.term k) off = c := by
    intro k off
    unfold BinaryFormatter.curCols
    rw [hs.columns, hcols]
  obtain ⟨out, st, e1, -, e2⟩ := binComplete hm hc hco (ioEvents_complete s hio) h2 (fuel := fuel) (by rw [hd]; exact hfuel)
  rw [program_stdin hv hs (by rw [hw]; exact hio) (by rw [hw]; exact e1)]
  refine ⟨rfl, allCells s (ioEvents s (cs.map .data)), ?_, ?_, ?_⟩
  · rw [allCells_byte hm, hd]
  · rw [allCells_shown hm h2]
    have r := (safe_chunks h1).binInk_eq s
    rw [show ((ioEvents s (cs.map .data)).map (·.data)).flatten = p from hd] at r
    exact r.symm
  · have := (e2.append (Shows.text {} (s := ['\n']) (by decide))).appears
    rw [← allCells_length hm, rowsView_eq] at this
    exact this

/-- `kolombos -b -w 2 -` for two lines typed in one after the other ... -/
def stdinArgs : List Arg := [.flag .binary, .int .columns (some 2), .file ['-']]

theorem stdinArgs_views : ViewsStdin stdinArgs := by
  refine ⟨⟨by intro o; cases o <;> decide, ?_, by decide⟩, .inr (.inr rfl), by decide⟩
  have hall : ∀ a ∈ stdinArgs, ∀ b ∈ stdinArgs, clash a b = false := by decide
  intro a ha b hb he
  have := he.clash.1
  rw [hall a ha b hb] at this
  exact absurd this (by simp)

/-- ... the first one has a complete SGR sequence. -/
example : (∃ s, Asked stdinArgs s) ∧ TameChunks [[0x61, 0x1b, 0x5b, 0x31, 0x6d, 0x0a], [0xc3, 0xa9]] ∧ lastInt .columns stdinArgs = some 2 ∧
    ¬ BadChunk ([[0x61, 0x1b, 0x5b, 0x31, 0x6d, 0x0a], [0xc3, 0xa9]] : List Bytes).flatten := by
  obtain ⟨s, -, h2⟩ := (C55_settings stdinArgs (stdinArgs_views.only _ (by simp))).1 stdinArgs_views.wellFormed
  refine ⟨⟨s, h2⟩, .inr (.inr (by decide)), rfl, fun h => ?_⟩
  exact absurd ((anyBad_iff _).2 h) (by decide)

end Kolombos
