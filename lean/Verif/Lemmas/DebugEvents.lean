import Verif.Lemmas.DebugLines
/-
The debug messages: each of them is a line without control characters.
-/
set_option linter.unusedSimpArgs false

namespace Kolombos
open Spec

/-! ### Plain texts -/

/-- No control characters. -/
abbrev PlainStr (t : Str) : Prop := ∀ c ∈ t, isControlChar c = false

theorem PlainStr.append {t u : Str} (h : PlainStr t) (h' : PlainStr u) : PlainStr (t ++ u) := by
  intro c hc
  rcases List.mem_append.1 hc with hc | hc
  · exact h c hc
  · exact h' c hc

theorem PlainStr.flatMap {α : Type} {f : α → Str} {l : List α} (h : ∀ x ∈ l, PlainStr (f x)) : PlainStr (l.flatMap f) := by
  intro c hc
  obtain ⟨x, hx, hc⟩ := List.mem_flatMap.1 hc
  exact h x hx c hc

theorem PlainStr.join {sep : Str} {l : List Str} (hs : PlainStr sep) (h : ∀ x ∈ l, PlainStr x) : PlainStr (Kolombos.join sep l) := by
  induction l with
  | nil => intro c hc; simp [Kolombos.join] at hc
  | cons x l ih =>
    cases l with
    | nil => exact h x (by simp)
    | cons y l => exact ((h x (by simp)).append hs).append (ih fun z hz => h z (by simp [hz]))

theorem intStr_plain (n : Int) : PlainStr (Debug.intStr n) := by
  unfold Debug.intStr
  split
  · intro c hc
    rcases List.mem_cons.1 hc with rfl | hc
    · decide
    · exact dec_plain _ c hc
  · exact dec_plain _

theorem segRawToHex_plain (g : Segment) : PlainStr (segRawToHex g) := by
  refine PlainStr.flatMap fun b _ c hc => ?_
  rcases List.mem_cons.1 hc with rfl | hc
  · decide
  · exact hexPad_plain _ _ c hc

theorem segRawToSafe_plain (g : Segment) : PlainStr (Debug.segRawToSafe g) := by
  intro c hc
  unfold Debug.segRawToSafe at hc
  obtain ⟨b, -, rfl⟩ := List.mem_map.1 hc
  have : ∀ n < 256, isControlChar (if (9 ≤ n ∧ n ≤ 13) ∨ n = 32 then '·'
    else if 33 ≤ n ∧ n ≤ 126 then Char.ofNat n else '▯') = false := by decide +kernel
  exact this b.toNat b.toNat_lt

theorem formatPlain_plain {f : Segment → Str} (h : ∀ g, PlainStr (f g)) (out : List Chainable) : PlainStr (Debug.formatPlain f out) := by
  refine PlainStr.flatMap fun x _ => ?_
  cases x with
  | seg g => exact h g
  | _ => intro c hc; cases hc

theorem formatEncoded_plain {f : Segment → Str} (h : ∀ g, PlainStr (f g)) (out : List Chainable) : PlainStr (Debug.formatEncoded f out) := by
  refine PlainStr.flatMap fun x _ => ?_
  cases x with
  | seg g => exact h g
  | start q => exact previewSgr_plain q
  | stop q => exact previewSgr_plain q
  | oneUse q => exact previewSgr_plain q

theorem pyRepeat_plain {t : Str} (h : PlainStr t) (n : Int) : PlainStr (pyRepeat t n) := by
  intro c hc
  unfold pyRepeat at hc
  obtain ⟨x, hx, hc⟩ := List.mem_flatten.1 hc
  rw [(List.mem_replicate.1 hx).2] at hc
  exact h c hc

/-! ### Parts of messages -/

theorem bold_fine {t : Str} (h : PlainStr t) : FineIn {} (Debug.bold t) := FineIn.span (FineIn.text _ h) (by decide)

theorem hexList_plain (v : Bytes) : PlainStr (join [' '] (v.map fun b => hexPad 2 b.toNat)) := by
  refine PlainStr.join (by decide) fun x hx => ?_
  obtain ⟨b, -, rfl⟩ := List.mem_map.1 hx
  exact hexPad_plain _ _

theorem printd_fine (s : Settings) (v : Bytes) : FineIn {} (Debug.printd s v) := by
  unfold Debug.printd
  have h0 : FineIn {} ("len ".toList ++ Debug.bold (dec v.length)) :=
    (FineIn.text _ (by decide)).append (bold_fine (dec_plain _))
  have h1 : ∀ t : Str, PlainStr t → FineIn {} ("len ".toList ++ Debug.bold (dec v.length) ++ [' '] ++ Sgr.assemble [90] ++ ['['] ++ t ++ [']'] ++ Sgr.assemble [39]) := by
    intro t ht
    have hp : PlainStr (['['] ++ t ++ [']']) := (PlainStr.append (by decide) ht).append (by decide)
    have := (h0.append (FineIn.text {} (t := [' ']) (by decide))).append
      (FineIn.span (o := [90]) (FineIn.text (applySgr [90] {}) hp) (by decide))
    have e : Sgr.assemble (Sgr.closing [90]) = Sgr.assemble [39] := by decide
    simpa [span, e, List.append_assoc] using this
  simp only
  split
  · exact h0
  · split
    · have := h1 [] (by simp [PlainStr])
      simpa using this
    · refine h1 _ ?_
      have hh := hexList_plain v
      split
      · exact hh
      · refine PlainStr.append (fun c hc => hh c (List.mem_of_mem_take hc)) ?_
        split
        · exact PlainStr.append (by decide) fun c hc => hh c (List.mem_of_mem_drop hc)
        · intro c hc; cases hc

theorem previewElement_fine (c : Chainable) : ∀ t ∈ Debug.previewElement c, FineIn (applySgr [90] {}) t := by
  intro t ht
  cases c with
  | seg g =>
    obtain ⟨b, -, rfl⟩ := List.mem_map.1 ht
    exact FineIn.text _ (hexPad_plain _ _)
  | start q => rw [List.mem_singleton.1 ht]; exact FineIn.span (FineIn.text _ (previewSgr_plain q)) (by decide)
  | stop q => rw [List.mem_singleton.1 ht]; exact FineIn.span (FineIn.text _ (previewSgr_plain q)) (by decide)
  | oneUse q => rw [List.mem_singleton.1 ht]; exact FineIn.span (FineIn.text _ (previewSgr_plain q)) (by decide)

theorem preview_fine (s : Settings) (b : SegmentBuffer) : FineIn {} (Debug.preview s b) := by
  unfold Debug.preview
  simp only
  refine ((((FineIn.text _ (by decide)).append (bold_fine (dec_plain _))).append ?_).append ?_).append ?_
  · refine FineIn.span (FineIn.text _ ?_) (by decide)
    intro c hc
    rcases List.mem_cons.1 hc with rfl | hc
    · decide
    · exact dec_plain _ c hc
  · split
    · refine (FineIn.text _ (by decide)).append (FineIn.span ?_ (by decide))
      refine ((((FineIn.text _ (by decide)).append (FineIn.join (FineIn.text _ (by decide)) ?_))).append (FineIn.text _ ?_)).append (FineIn.text _ (by decide))
      · intro t ht
        obtain ⟨c, -, ht⟩ := List.mem_flatMap.1 ht
        exact previewElement_fine c t ht
      · split <;> decide
    · exact FineIn.nil _
  · split
    · refine (FineIn.text _ (by decide)).append (FineIn.span (FineIn.text _ ?_) (by decide))
      refine (PlainStr.append (by decide) (PlainStr.join (by decide) ?_)).append (by decide)
      intro t ht
      obtain ⟨q, -, rfl⟩ := List.mem_map.1 ht
      exact previewSgr_plain q
    · exact FineIn.nil _

theorem separatorLine_fine (s : Settings) (w : Int) {cross : Char} (h : isControlChar cross = false) :
    FineIn {} (Debug.separatorLine s w cross) := by
  unfold Debug.separatorLine Debug.formatSeparator
  simp only
  have hc : PlainStr [cross] := by intro c hc; rw [List.mem_singleton.1 hc]; exact h
  split
  · refine FineIn.span ?_ (by decide)
    refine ((FineIn.span (FineIn.text _ (by decide)) (by decide)).append (FineIn.text _ hc)).append (FineIn.text _ (pyRepeat_plain (by decide) _))
  · refine FineIn.span ?_ (by decide)
    refine ((FineIn.span (FineIn.text _ (by decide)) (by decide)).append (FineIn.text _ hc)).append (FineIn.text _ (pyRepeat_plain (by decide) _))

theorem segmentText_fine (s : Settings) (raw : Bytes) {g : Segment} (h : PlainStr g.typeLabel) : FineIn {} (Debug.segmentText s raw g) := by
  unfold Debug.segmentText
  refine ((((FineIn.text _ (by decide)).append (FineIn.span (FineIn.text _ ((PlainStr.append (by decide) h).append (by decide))) (by decide))).append
    (FineIn.text _ (by decide))).append (printd_fine _ _)).append ?_
  split
  · exact (FineIn.text _ (by decide)).append (printd_fine _ _)
  · exact FineIn.nil _

/-! ### Labels of segment types -/

theorem typeLabel_plain (c : CharClass) : PlainStr c.typeLabel := by cases c <;> decide

theorem controlLoop_labels (t : Template) (cm : Bool) (raw : Bytes) : ∀ {gs : List Segment}, t.controlLoop cm raw = .ok gs → ∀ g ∈ gs, PlainStr g.typeLabel := by
  induction raw with
  | nil => intro gs h; cases h; simp
  | cons b raw ih =>
    intro gs h
    rw [Template.controlLoop] at h
    split at h
    · cases h
    · rename_i ds hd
      split at h
      · cases h
      · rename_i r hr
        cases h
        have hds : ∀ g ∈ ds, PlainStr g.typeLabel := by
          unfold Template.controlDetails at hd
          split at hd
          · cases hd; simp
          · split at hd
            · cases hd; simp
            · cases hd; simp
            · split at hd
              · cases hd
              · cases hd; intro g hg; rw [List.mem_singleton.1 hg]; show PlainStr typeLabelDetails; decide
            · cases hd; intro g hg; rw [List.mem_singleton.1 hg]; show PlainStr typeLabelDetails; decide
        intro g hg
        simp only [List.cons_append, List.mem_cons, List.mem_append] at hg
        rcases hg with rfl | hg | hg
        · exact typeLabel_plain _
        · exact hds g hg
        · exact ih hr g hg

theorem substitute_labels (t : Template) (s : Settings) (raw : Bytes) {gs : List Segment} (h : t.substitute s raw = .ok gs) :
    ∀ g ∈ gs, PlainStr g.typeLabel := by
  have hb : ∀ g ∈ t.substituteBase raw, PlainStr g.typeLabel := by
    intro g hg; rw [List.mem_singleton.1 hg]; exact typeLabel_plain _
  have he : ∀ g ∈ t.substituteEscape s raw, PlainStr g.typeLabel := by
    unfold Template.substituteEscape
    split
    · exact hb
    · have hs : ∀ g ∈ t.primarySegment (t.labelOpeningSeq s.colorMarkers) (raw.take 1) (t.process (raw.take 1))
          :: t.escapeDetails s.colorMarkers (raw.drop 1), PlainStr g.typeLabel := by
        intro g hg
        rcases List.mem_cons.1 hg with rfl | hg
        · exact typeLabel_plain _
        · unfold Template.escapeDetails at hg
          split at hg
          · cases hg
          · rw [List.mem_singleton.1 hg]; show PlainStr typeLabelDetails; decide
      simp only
      split
      · intro g hg
        unfold Template.wrapInSeparators at hg
        simp only [List.cons_append, List.mem_cons, List.mem_append, List.not_mem_nil, or_false] at hg
        rcases hg with rfl | rfl | hg | rfl
        · intro c hc; cases hc
        · exact typeLabel_plain _
        · exact hs g (List.mem_cons_of_mem _ hg)
        · intro c hc; cases hc
      · exact hs
  unfold Template.substitute at h
  split at h
  · unfold Template.substituteControl at h
    split at h
    · cases h; intro g hg; rw [List.mem_singleton.1 hg]; exact typeLabel_plain _
    · exact controlLoop_labels _ _ _ h
  · cases h; exact he
  · cases h; exact he
  · cases h; exact hb

theorem matchSegments_labels {reg : Registry} {s : Settings} {m : Match Byte} {gs : List Segment} (h : matchSegments reg s m = .ok gs) :
    ∀ g ∈ gs, PlainStr g.typeLabel := by
  unfold matchSegments at h
  split at h
  · cases h
  · simp only at h
    split at h
    · cases h
    · exact substitute_labels _ _ _ h

theorem forall_pair {α : Type} {P : α → Prop} {a b : α} (ha : P a) (hb : P b) : ∀ e ∈ [a, b], P e := by
  simp only [List.mem_cons, List.not_mem_nil, or_false, forall_eq_or_imp, forall_eq]
  exact ⟨ha, hb⟩

/-! ### Traces -/

/-- Every write meets the condition. -/
def AllEvs {α : Type} (E : Ev → Prop) (t : Trace α) : Prop := ∀ e ∈ t.evs, E e

namespace AllEvs

variable {α β : Type} {E : Ev → Prop}

theorem nil (r : Res α) : AllEvs E ⟨[], r⟩ := by intro e he; cases he

theorem pure (a : α) : AllEvs E (.pure a) := nil _

theorem fail (e : Err) : AllEvs E (.fail e : Trace α) := nil _

theorem log {es : List Ev} {t : Trace α} (h : ∀ e ∈ es, E e) (ht : AllEvs E t) : AllEvs E (.log es t) := by
  intro e he
  rcases List.mem_append.1 he with he | he
  · exact h e he
  · exact ht e he

theorem bind {t : Trace α} {f : α → Trace β} (ht : AllEvs E t) (hf : ∀ a, t.res = .ok a → AllEvs E (f a)) : AllEvs E (t.bind f) := by
  unfold Trace.bind
  split
  · rename_i a h
    intro e he
    rcases List.mem_append.1 he with he | he
    · exact ht e he
    · exact hf a h e he
  · exact ht
  · exact ht

end AllEvs

/-- A debug message: its level, and one line without control characters; other writes meet `P`. -/
def EvFine (P : Str → Prop) : Ev → Prop
  | .out t => P t
  | .dbg l t => (1 ≤ l ∧ l ≤ 3) ∧ ∃ u, t = u ++ ['\n'] ∧ FineIn {} u

namespace Debug

variable {P : Str → Prop}

/-- The buffers in use. -/
def Buffer.Ours (d : Buffer) : Prop := d ∈ [reader, parser, parsbuf, chainbuf, binfmt, txtfmt, runner]

theorem reader_ours : reader.Ours := by simp [Buffer.Ours]
theorem parser_ours : parser.Ours := by simp [Buffer.Ours]
theorem parsbuf_ours : parsbuf.Ours := by simp [Buffer.Ours]
theorem chainbuf_ours : chainbuf.Ours := by simp [Buffer.Ours]
theorem binfmt_ours : binfmt.Ours := by simp [Buffer.Ours]
theorem txtfmt_ours : txtfmt.Ours := by simp [Buffer.Ours]
theorem runner_ours : runner.Ours := by simp [Buffer.Ours]

theorem prefix_fine {d : Buffer} (h : d.Ours) (s : Settings) (o : Option Nat) : FineIn {} (d.prefix s o) := by
  unfold Buffer.Ours at h
  simp only [List.mem_cons, List.not_mem_nil, or_false] at h
  cases o with
  | some o =>
    rcases h with rfl | rfl | rfl | rfl | rfl | rfl | rfl
    · exact offsetPrefix_fine s o 35 (by decide)
    · exact offsetPrefix_fine s o 36 (by decide)
    · exact offsetPrefix_fine s o 90 (by decide)
    · exact offsetPrefix_fine s o 90 (by decide)
    · exact offsetPrefix_fine s o 33 (by decide)
    · exact offsetPrefix_fine s o 33 (by decide)
    · exact offsetPrefix_fine s o 90 (by decide)
  | none =>
    rcases h with rfl | rfl | rfl | rfl | rfl | rfl | rfl
    · exact keyPrefix_fine s _ (by decide) (by decide)
    · exact keyPrefix_fine s _ (by decide) (by decide)
    · exact keyPrefix_fine s _ (by decide) (by decide)
    · exact keyPrefix_fine s _ (by decide) (by decide)
    · exact keyPrefix_fine s _ (by decide) (by decide)
    · exact txtPrefix_fine s
    · exact FineIn.nil _

theorem write_fine {d : Buffer} (h : d.Ours) (s : Settings) {l : Nat} (hl : 1 ≤ l ∧ l ≤ 3) {t : Str} (ht : FineIn {} t) (o : Option Nat) :
    EvFine P (d.write s l t o) := ⟨hl, _, rfl, (prefix_fine h s o).append ht⟩

theorem bufferState_fine (s : Settings) (b : SegmentBuffer) : EvFine P (bufferState s b) :=
  write_fine chainbuf_ours s (by decide) ((FineIn.text _ (by decide)).append (preview_fine s b)) _

theorem rawState_fine (s : Settings) (pb : ParserBuffer) : EvFine P (rawState s pb) :=
  write_fine parsbuf_ours s (by decide) ((FineIn.text _ (by decide)).append (printd_fine s _)) _

theorem detach_fine (s : Settings) (b : SegmentBuffer) (req : Int) : AllEvs (EvFine P) (detach s b req) := by
  unfold detach
  refine .log (by simp [bufferState_fine]) ?_
  split
  · exact .fail _
  · refine .log ?_ (.pure _)
    split
    · simp
    · simp only [List.mem_cons, List.not_mem_nil, or_false, forall_eq_or_imp, forall_eq]
      exact ⟨write_fine chainbuf_ours s (by decide) (((FineIn.text _ (by decide)).append (bold_fine (dec_plain _))).append (FineIn.text _ (by decide))) _,
        bufferState_fine _ _⟩

theorem detachBytes_fine (s : Settings) (b : SegmentBuffer) (req : Int) (force : Bool) : AllEvs (EvFine P) (detachBytes s b req force) := by
  unfold detachBytes
  have hw : ∀ t : Str, PlainStr t → ∀ b : SegmentBuffer, ∀ e ∈ [chainbuf.write s 1 t, bufferState s b], EvFine P e := by
    intro t ht b
    simp only [List.mem_cons, List.not_mem_nil, or_false, forall_eq_or_imp, forall_eq]
    exact ⟨write_fine chainbuf_ours s (by decide) (FineIn.text _ ht) _, bufferState_fine _ _⟩
  split
  · refine .bind (detach_fine _ _ _) fun r _ => ?_
    split
    · exact .log (hw _ (by decide) _) (.pure _)
    · exact .pure _
  · exact .log (hw _ (by decide) _) (.pure _)

theorem detachLine_fine (s : Settings) (b : SegmentBuffer) (force : Bool) : AllEvs (EvFine P) (detachLine s b force) := by
  unfold detachLine
  have hw : ∀ t : Str, PlainStr t → ∀ b : SegmentBuffer, ∀ e ∈ [chainbuf.write s 1 t, bufferState s b], EvFine P e := by
    intro t ht b
    simp only [List.mem_cons, List.not_mem_nil, or_false, forall_eq_or_imp, forall_eq]
    exact ⟨write_fine chainbuf_ours s (by decide) (FineIn.text _ ht) _, bufferState_fine _ _⟩
  simp only
  split
  · exact .log (hw _ (by decide) _) (.pure _)
  · split
    · exact .bind (detach_fine _ _ _) fun r _ => .pure _
    · exact .log (hw _ (by decide) _) (.pure _)

theorem rowEvents_fine (s : Settings) (cols : Int) (off len : Nat) (out : List Chainable) : ∀ e ∈ BinaryFormatter.rowEvents s cols off len out, EvFine P e := by
  unfold BinaryFormatter.rowEvents
  simp only [List.mem_cons, List.not_mem_nil, or_false, forall_eq_or_imp, forall_eq]
  refine ⟨write_fine binfmt_ours s (by decide) (FineIn.text _ (formatEncoded_plain segRawToSafe_plain _)) _, write_fine binfmt_ours s (by decide) ?_ _⟩
  refine ((((FineIn.text _ (formatPlain_plain segRawToHex_plain _)).append (FineIn.text _ (pyRepeat_plain (by decide) _))).append
    (FineIn.text _ (by decide))).append ?_).append (FineIn.text _ (formatPlain_plain segRawToSafe_plain _))
  split
  · exact separator_fine s
  · exact FineIn.text _ (by decide)

theorem binLoop_fine (hP : ∀ t, P t) (s : Settings) (cols req : Int) (closed : Bool) (n : Nat) :
    ∀ b off, AllEvs (EvFine P) (BinaryFormatter.loop s cols req closed n b off) := by
  induction n with
  | zero => intro b off; exact .nil _
  | succ n ih =>
    intro b off
    rw [BinaryFormatter.loop]
    refine .log ?_ (.bind (detachBytes_fine _ _ _ _) fun r _ => ?_)
    · simp only [List.mem_cons, List.not_mem_nil, or_false, forall_eq]
      exact write_fine binfmt_ours s (by decide) (((FineIn.text _ (by decide)).append (bold_fine (intStr_plain _))).append (FineIn.text _ (by decide))) _
    · split
      · exact .pure _
      · exact .pure _
      · refine .log ?_ (ih _ _)
        intro e he
        rcases List.mem_append.1 he with he | he
        · exact rowEvents_fine _ _ _ _ _ e he
        · rw [List.mem_singleton.1 he]; exact hP _

theorem binFormat_fine (hP : ∀ t, P t) (fuel : Nat) (s : Settings) (term : Int) (closed : Bool) (b : SegmentBuffer) (off : Nat) :
    AllEvs (EvFine P) (BinaryFormatter.format fuel s term closed b off) := by
  unfold BinaryFormatter.format
  refine .log ?_ (.bind (binLoop_fine hP _ _ _ _ _ _ _) fun r _ => ?_)
  · split
    · simp only [List.mem_cons, List.not_mem_nil, or_false, forall_eq]
      exact write_fine binfmt_ours s (by decide) ((FineIn.text _ (by decide)).append (bold_fine (intStr_plain _))) _
    · simp
  · split
    · refine .log ?_ (.pure _)
      intro e he; rw [List.mem_singleton.1 he]; exact hP _
    · exact .pure _

theorem lineEvents_fine (s : Settings) (off : Nat) (out : List Chainable) : ∀ e ∈ TextFormatter.lineEvents s off out, EvFine P e := by
  unfold TextFormatter.lineEvents
  simp only [List.mem_cons, List.not_mem_nil, or_false, forall_eq_or_imp, forall_eq]
  exact ⟨write_fine txtfmt_ours s (by decide) (FineIn.text _ (formatEncoded_plain segRawToSafe_plain _)) _,
    write_fine txtfmt_ours s (by decide) (FineIn.text _ (formatPlain_plain segRawToHex_plain _)) _,
    write_fine txtfmt_ours s (by decide) (FineIn.text _ (formatPlain_plain segRawToSafe_plain _)) _⟩

theorem textLoop_fine (hP : ∀ t, P t) (s : Settings) (closed : Bool) (n : Nat) :
    ∀ b off k, AllEvs (EvFine P) (TextFormatter.loop s closed n b off k) := by
  induction n with
  | zero => intro b off k; exact .nil _
  | succ n ih =>
    intro b off k
    rw [TextFormatter.loop]
    refine .log ?_ (.bind (detachLine_fine _ _ _) fun r _ => ?_)
    · simp only [List.mem_cons, List.not_mem_nil, or_false, forall_eq]
      exact write_fine txtfmt_ours s (by decide) (FineIn.text _ (by decide)) _
    · split
      · exact .pure _
      · exact .pure _
      · refine .log ?_ (ih _ _ _)
        intro e he
        rcases List.mem_append.1 he with he | he
        · exact lineEvents_fine _ _ _ e he
        · rw [List.mem_singleton.1 he]; exact hP _

theorem textFormat_fine (hP : ∀ t, P t) (s : Settings) (closed : Bool) (fuel : Nat) (b : SegmentBuffer) (off k : Nat) :
    AllEvs (EvFine P) (TextFormatter.format s closed fuel b off k) := by
  unfold TextFormatter.format
  refine .bind (textLoop_fine hP _ _ _ _ _ _) fun r _ => .log ?_ (.pure _)
  split
  · simp only [List.mem_cons, List.not_mem_nil, or_false, forall_eq]
    exact write_fine txtfmt_ours s (by decide) (FineIn.text _ (by decide)) _
  · simp

theorem matchEvent_fine (s : Settings) (i : Nat) (raw : Bytes) {segs : List Segment} (h : ∀ g ∈ segs, PlainStr g.typeLabel) (off : Nat) :
    EvFine P (matchEvent s i raw segs off) := by
  refine write_fine parser_ours s (by decide) ?_ _
  refine (((FineIn.text _ (by decide)).append (FineIn.text _ (rjust_plain (by decide) (dec_plain _)))).append (FineIn.text _ (by decide))).append
    (FineIn.join (FineIn.text _ (by decide)) ?_)
  intro t ht
  obtain ⟨k, hk, rfl⟩ := List.mem_mapIdx.1 ht
  exact segmentText_fine _ _ (h _ (List.getElem_mem hk))

theorem subItems_fine (reg : Registry) (s : Settings) (off : Nat) (is : List (Item Byte)) :
    ∀ pos b, AllEvs (EvFine P) (subItems reg s off is pos b) := by
  induction is with
  | nil => intro pos b; exact .pure _
  | cons i is ih =>
    intro pos b
    cases i with
    | copied x =>
      rw [subItems]
      exact .bind (ih _ _) fun r _ => .pure _
    | matched m =>
      rw [subItems]
      split
      · exact .fail _
      · exact .fail _
      · rename_i segs hp hm
        refine .log ?_ (ih _ _)
        simp only [List.mem_cons, List.not_mem_nil, or_false, forall_eq]
        exact matchEvent_fine _ _ _ (matchSegments_labels hm) _

theorem parse_fine (reg : Registry) (s : Settings) (off : Nat) (pb : ParserBuffer) (b : SegmentBuffer) : AllEvs (EvFine P) (parse reg s off pb b) := by
  unfold parse
  refine .log ?_ (.bind (subItems_fine _ _ _ _ _ _) fun r _ => ?_)
  · simp only [List.mem_cons, List.not_mem_nil, or_false, forall_eq]
    exact write_fine parser_ours s (by decide) ((FineIn.text _ (by decide)).append (printd_fine _ _)) _
  · split
    · exact .fail _
    · split
      · exact .fail _
      · refine .log ?_ (.pure _)
        simp only [List.mem_cons, List.not_mem_nil, or_false, forall_eq_or_imp, forall_eq]
        refine ⟨write_fine parsbuf_ours s (by decide) (FineIn.text _ ?_) _, rawState_fine _ _⟩
        split <;> decide

theorem formatStep_fine (hP : ∀ t, P t) (fuel : Nat) (c : Config) (term : Nat → Int) (st : State) : AllEvs (EvFine P) (formatStep fuel c term st) := by
  unfold formatStep
  cases c.mode with
  | binary => exact .bind (binFormat_fine hP _ _ _ _ _ _) fun r _ => .pure _
  | text => exact .bind (textFormat_fine hP _ _ _ _ _ _) fun r _ => .pure _

theorem appendEvents_fine (s : Settings) (raw : Bytes) (finish : Bool) (pb : ParserBuffer) : ∀ e ∈ appendEvents s raw finish pb, EvFine P e := by
  unfold appendEvents
  intro e he
  rcases List.mem_append.1 he with he | he
  · exact forall_pair (write_fine parsbuf_ours s (by decide) (((FineIn.text _ (by decide)).append (bold_fine (dec_plain _))).append (FineIn.text _ (by decide))) _)
      (rawState_fine _ _) e he
  · split at he
    · rw [List.mem_singleton.1 he]
      exact write_fine parsbuf_ours s (by decide) (FineIn.text _ (by decide)) _
    · cases he

theorem processChunk_fineEvs (hP : ∀ t, P t) (fuel : Nat) (c : Config) (term wide : Nat → Int) (st : State) (raw : Bytes) (off : Nat) (finish : Bool) :
    AllEvs (EvFine P) (processChunk fuel c term wide st raw off finish) := by
  unfold processChunk
  refine .log (appendEvents_fine _ _ _ _) (.bind (parse_fine _ _ _ _ _) fun r _ => .bind (formatStep_fine hP _ _ _ _) fun st' _ => .log ?_ (.pure _))
  simp only [List.mem_cons, List.not_mem_nil, or_false, forall_eq]
  exact write_fine runner_ours _ (by decide) (separatorLine_fine _ _ (by split <;> decide)) _

theorem position_plain {src : Source} {pos : Nat} {t : Str} (h : position src pos = .ok t) : PlainStr t := by
  unfold position at h
  split at h
  · cases h; decide
  · cases h; exact dec_plain _
  · cases h

theorem limitEvents_fine (s : Settings) {w : Str} (hw : PlainStr w) (mb ml : Option Int) (raw cropped : Bytes) (off : Nat) :
    ∀ e ∈ limitEvents s w mb ml raw cropped off, EvFine P e := by
  unfold limitEvents
  intro e he
  rcases List.mem_append.1 he with he | he
  · rcases List.mem_append.1 he with he | he
    · rw [List.mem_singleton.1 he]
      exact write_fine reader_ours s (by decide) ((FineIn.text _ (by decide)).append (bold_fine hw)) _
    · split at he
      · exact forall_pair (write_fine reader_ours s (by decide) ((FineIn.text _ (by decide)).append (bold_fine (intStr_plain _))) _)
          (write_fine reader_ours s (by decide) ((FineIn.text _ (by decide)).append (printd_fine _ _)) _) e he
      · cases he
  · split at he
    · exact forall_pair (write_fine reader_ours s (by decide) ((FineIn.text _ (by decide)).append (bold_fine (intStr_plain _))) _)
        (write_fine reader_ours s (by decide) ((FineIn.text _ (by decide)).append (printd_fine _ _)) _) e he
    · cases he

theorem eofEvent_fine (s : Settings) (off : Nat) : ∀ e ∈ [eofEvent s off], EvFine P e := by
  simp only [List.mem_cons, List.not_mem_nil, or_false, forall_eq]
  exact write_fine reader_ours s (by decide) (FineIn.text _ (by decide)) _

theorem chunkEvent_fine (s : Settings) (raw : Bytes) (off n : Nat) : ∀ e ∈ [chunkEvent s raw off n], EvFine P e := by
  simp only [List.mem_cons, List.not_mem_nil, or_false, forall_eq]
  exact write_fine reader_ours s (by decide) ((((FineIn.text _ (by decide)).append (FineIn.text _ (dec_plain _))).append (FineIn.text _ (by decide))).append (printd_fine _ _)) _

theorem readLoop_fine {σ : Type} (s : Settings) (src : Source) (mb ml : Option Int) {cb : σ → Bytes → Nat → Bool → Trace σ}
    {I : σ → Prop} (h : ∀ st raw o f, I st → AllEvs (EvFine P) (cb st raw o f))
    (hI : ∀ st raw o st', I st → (cb st raw o false).res = .ok st' → I st') (io : List IoStep) :
    ∀ off lines chunks pos st, I st → AllEvs (EvFine P) (readLoop s src mb ml cb io off lines chunks pos st) := by
  induction io with
  | nil => intro off lines chunks pos st hi; exact .log (eofEvent_fine _ _) (h _ _ _ _ hi)
  | cons i io ih =>
    intro off lines chunks pos st hi
    cases i with
    | raise e => exact .fail _
    | data raw =>
      rw [readLoop]
      split
      · exact .log (eofEvent_fine _ _) (h _ _ _ _ hi)
      · refine .log (chunkEvent_fine _ _ _ _) ?_
        split
        · exact .fail _
        · rename_i w hw
          refine .log (limitEvents_fine _ (position_plain hw) _ _ _ _ _) ?_
          split
          · exact .log (eofEvent_fine _ _) (h _ _ _ _ hi)
          · refine .bind (h _ _ _ _ hi) fun st' hst => ?_
            simp only
            split
            · exact .log (eofEvent_fine _ _) (h _ _ _ _ (hI _ _ _ _ hi hst))
            · exact ih _ _ _ _ _ (hI _ _ _ _ hi hst)

/-- The name of the source has no control characters. -/
def Source.Plain : Source → Prop
  | .stdin => True
  | .file name _ => PlainStr name

theorem read_fine {σ : Type} (s : Settings) {src : Source} (hs : src.Plain) (size : Int) (opened : Option Err) (mb ml : Option Int)
    {cb : σ → Bytes → Nat → Bool → Trace σ} {I : σ → Prop} (h : ∀ st raw o f, I st → AllEvs (EvFine P) (cb st raw o f))
    (hI : ∀ st raw o st', I st → (cb st raw o false).res = .ok st' → I st') (io : List IoStep) (st : σ) (hi : I st) :
    AllEvs (EvFine P) (read s src size opened mb ml cb io st) := by
  have hl := fun off lines chunks pos => readLoop_fine s src mb ml h hI io off lines chunks pos st hi
  unfold read
  split
  · exact .fail _
  · have : ∀ msg, FineIn {} msg → AllEvs (EvFine P) (Trace.log
      [reader.write s 1 msg, reader.write s 2 ("Read buffer: size ".toList ++ bold (intStr size))]
      (readLoop s src mb ml cb io 0 0 0 0 st)) := fun msg hm =>
      .log (forall_pair (write_fine reader_ours s (by decide) hm _)
        (write_fine reader_ours s (by decide) ((FineIn.text _ (by decide)).append (bold_fine (intStr_plain _))) _)) (hl _ _ _ _)
    have key : ∀ t : Trace σ, AllEvs (EvFine P) t → AllEvs (EvFine P) (match t.res with
        | .ok st' => ⟨t.evs, .ok (some st')⟩
        | .err .keyboardInterrupt => ⟨t.evs, .ok none⟩
        | .err e => ⟨t.evs, .err e⟩
        | .timeout => ⟨t.evs, .timeout⟩ : Trace (Option σ)) := by
      intro t ht
      split <;> exact ht
    cases src with
    | stdin => exact key _ (this _ (FineIn.text _ (by decide)))
    | file name sk => exact key _ (this _ ((FineIn.text _ (by decide)).append (bold_fine hs)))

theorem byteIoRun_fineEvs (hP : ∀ t, P t) (fuel : Nat) (s : Settings) {src : Source} (hs : src.Plain) (term wide : Nat → Int) (opened : Option Err) (io : List IoStep) :
    AllEvs (EvFine P) (byteIoRun fuel s src term wide opened io) := by
  unfold byteIoRun
  refine .log ?_ (read_fine _ hs _ _ _ _ (I := fun _ => True) (fun st raw o f _ => processChunk_fineEvs hP _ _ _ _ _ _ _ _) (fun _ _ _ _ _ _ => True.intro) _ _ True.intro)
  split
  · simp
  · simp only [List.mem_cons, List.not_mem_nil, or_false, forall_eq]
    exact write_fine runner_ours _ (by decide) (separatorLine_fine _ _ (by decide)) _

end Debug

end Kolombos
