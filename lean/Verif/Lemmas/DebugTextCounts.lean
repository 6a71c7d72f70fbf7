import Verif.Lemmas.DebugCounts
import Verif.Props.DebugReport
import Verif.Props.Parts
/-
The numbers in debug messages in text mode (C119).
-/
set_option linter.unusedSimpArgs false

namespace Kolombos
open Spec

/-! ### Lines of the display -/

theorem noCount_label {s : Settings} (hd : s.debug ≠ 0) (n : Nat) (x : Str) : NoCount (lineLabel s n ++ x) := by
  have hl : (lineLabel s n).length = 9 := by
    unfold lineLabel alignRight
    rw [if_pos hd]
    simp only [List.length_append, List.length_replicate, List.length_take, List.length_cons, List.length_nil]
    omega
  have hno : ∀ c : Char, c.isDigit = false → c ≠ ' ' → c ≠ '│' → c ∉ lineLabel s n := by
    intro c h1 h2 h3 hm
    unfold lineLabel alignRight at hm
    rw [if_pos hd] at hm
    simp only [List.mem_append, List.mem_singleton] at hm
    rcases hm with (hm | hm) | hm
    · exact h2 (List.eq_of_mem_replicate hm)
    · have := dec_digit (n := n) (List.mem_of_mem_take hm)
      rw [h1] at this
      cases this
    · exact h3 hm
  have hpre : ∀ (m : Str), 9 ≤ m.length → m <+: lineLabel s n ++ x → m.take 9 = lineLabel s n := by
    rintro m hm ⟨y, e⟩
    have := congrArg (List.take 9) e
    rw [List.take_append_of_le_length hm, List.take_append_of_le_length (by omega)] at this
    rw [this, List.take_of_length_le (by omega)]
  refine ⟨fun h => ?_, fun h => ?_, fun h => ?_⟩
  · have := hpre _ (by decide) h
    exact hno 'p' (by decide) (by decide) (by decide) (by rw [← this]; decide)
  · have := hpre _ (by decide) h
    exact hno 'h' (by decide) (by decide) (by decide) (by rw [← this]; decide)
  · have := hpre _ (by decide) h
    exact hno 'h' (by decide) (by decide) (by decide) (by rw [← this]; decide)

theorem line_noCount {s : Settings} (hd : s.debug ≠ 0) (n : Nat) {out : List Chainable} {os : List Segment} (h : OutRel out os)
    (ht : ∀ g ∈ os, ∃ k, TextSeg k g) : NoCount (visible (TextFormatter.line s n out)) := by
  obtain ⟨v, h1, -⟩ := shows_segs ht
  obtain ⟨w, h3, h4⟩ := shows_linePrefix s n
  rw [line_eq h]
  have : ∃ t, visible (lineText s n os) = lineLabel s n ++ t := by
    unfold lineText
    simp only
    split
    · rw [List.append_nil, (h3.append h1).visible, List.map_append, h4]
      exact ⟨_, rfl⟩
    · rw [((h3.append h1).append (Shows.text {} (s := ['\n']) (by decide))).visible, List.map_append, List.map_append, h4, List.append_assoc]
      exact ⟨_, rfl⟩
  obtain ⟨t, e⟩ := this
  rw [e]
  exact noCount_label hd n t

namespace Debug

theorem txtfmt_offset (s : Settings) (l off : Nat) {t : Str} (h : FineIn {} t) : OtherEv (txtfmt.write s l t (some off)) :=
  offset_other ⟨33, by decide, by decide⟩ s l off h

theorem txtfmtPrefix_eq (s : Settings) : Console.formatPrefix s "txtfmt".toList [90, 40] = span [90, 40] "  txtfmt".toList ++ Console.separator s := by
  unfold Console.formatPrefix Console.separator
  by_cases h : s.debug > 0
  · rw [if_pos h]; decide +kernel
  · rw [if_neg h]; decide +kernel

theorem txtfmt_other (s : Settings) (l : Nat) {t : Str} (h : FineIn {} t) : OtherEv (txtfmt.write s l t) := by
  obtain ⟨x, hx⟩ := h.says
  have hp : Says {} (txtfmt.prefix s none) ("  txtfmt".toList ++ ['│']) := by
    show Says {} (Console.formatPrefix s "txtfmt".toList [90, 40]) _
    rw [txtfmtPrefix_eq]
    exact (Says.span (Says.plain _ (by decide)) (by decide)).append (separator_says s)
  refine ⟨l, _, rfl, ?_⟩
  rw [((hp.append hx).append (Says.text {} (t := ['\n']) (by decide))).visible]
  have := noCount_start (p := "  txtfmt".toList ++ ['│']) (x := x ++ ['\n']) (by decide) (by decide) (by decide) (by decide) (by decide) (by decide)
  simpa only [List.append_assoc] using this

/-! ### The text formatter -/

theorem line_moves {s s0 : Settings} {d : Nat} (hs : ∀ n, offsetText s n = offsetText s0 n) (hd1 : s.debug ≠ 0) (hd : 2 ≤ d) (off k : Nat) {out : List Chainable}
    {os : List Segment} (h : OutRel out os) (ht : ∀ g ∈ os, ∃ k, TextSeg k g) (w : Nat) :
    Moves s0 d (TextFormatter.lineEvents s off out ++ [.out (Kolombos.TextFormatter.line s k out)]) (w, total os, off) (w, 0, off + total os) := by
  have hx : PlainStr (formatPlain segRawToHex out) := formatPlain_plain segRawToHex_plain out
  have hsf : PlainStr (formatPlain segRawToSafe out) := formatPlain_plain segRawToSafe_plain out
  have h1 := (((offsetPrefix_says s off 33 (by decide)).append (Says.plain {} hx)).append (Says.text {} (t := ['\n']) (by decide))).visible
  unfold TextFormatter.lineEvents
  show Moves s0 d ([_] ++ ([_] ++ ([_] ++ [_]))) _ _
  refine (Moves.other (x := [_]) ?_ _).append (Moves.append (b := (w, 0, off + total os)) ?_ (Moves.append (b := (w, 0, off + total os)) (.other (x := [_]) ?_ _) ?_))
  · simp only [List.mem_cons, List.not_mem_nil, or_false, forall_eq]
    exact txtfmt_offset s 3 off (FineIn.text _ (formatEncoded_plain segRawToSafe_plain out))
  · intro r hr
    have e : txtfmt.write s 2 (formatPlain segRawToHex out) (some off) = .dbg 2 (Console.formatPrefixWithOffset s off [33, 40] ++ formatPlain segRawToHex out ++ ['\n']) := rfl
    rw [e, textsOf_dbg hd, h1, formatPlain_hex, h.raw, hs]
    have := CountsAdd.row (s := s0) (waiting := w) (off := off) (os.flatMap Segment.raw) ['\n'] (.inl rfl) hr
    exact this
  · simp only [List.mem_cons, List.not_mem_nil, or_false, forall_eq]
    exact txtfmt_offset s 1 off (FineIn.text _ hsf)
  · intro r hr
    rw [textsOf_out]
    exact .other _ (line_noCount hd1 k h ht) hr

theorem detachLine_trace {s : Settings} {b b' : SegmentBuffer} {f : Bool} {out : List Chainable} (h : b.detachLine f = .ok (.ok out, b')) :
    detachLine s b f = ⟨[bufferState s b, chainbuf.write s 2 ("Detached ".toList ++ bold (dec b'.lastLen) ++ " data byte(s)".toList), bufferState s b'],
      .ok (.ok out, b')⟩ := by
  unfold SegmentBuffer.detachLine at h
  unfold detachLine
  simp only at h ⊢
  by_cases h0 : (SegmentBuffer.lineAvail b.chain).1 = 0
  · rw [if_pos h0] at h; cases h
  · rw [if_neg h0] at h ⊢
    by_cases hq : (SegmentBuffer.lineAvail b.chain).2 = true ∨ f = true
    · rw [if_pos hq] at h ⊢
      have hl : ¬ b.chain.length = 0 := by
        intro e
        rw [List.length_eq_zero_iff.1 e] at h0
        exact h0 rfl
      cases hd : b.detach (SegmentBuffer.lineAvail b.chain).1 with
      | error e => rw [hd] at h; cases h
      | ok r =>
        obtain ⟨o, b2⟩ := r
        rw [hd] at h
        cases h
        unfold detach
        simp only [hd, Trace.log, Trace.bind, Trace.pure, if_neg hl]
        rfl
    · rw [if_neg hq] at h; cases h

theorem textLoop_counted {s s0 : Settings} {d : Nat} (hs : ∀ n, offsetText s n = offsetText s0 n) (hd1 : s.debug ≠ 0) (hd : 2 ≤ d) (closed : Bool) (fuel : Nat) :
    ∀ (b : SegmentBuffer) (gs : List Segment) (off k : Nat), Rep b false gs → (∀ g ∈ gs, ∃ k, TextSeg k g) →
      Counted s0 d (TextFormatter.loop s closed fuel b off k) (b.dataLen, 0, off) fun q n => n = (q.1.dataLen, 0, q.2.1) := by
  induction fuel with
  | zero => intro b gs off k _ _; exact .empty rfl (by intro x h; cases h) _ _
  | succ fuel ih =>
    intro b gs off k h ht
    rw [TextFormatter.loop]
    refine .log (.other (by
      simp only [List.mem_cons, List.not_mem_nil, or_false, forall_eq]
      exact txtfmt_other s 1 (FineIn.text _ (by decide))) _) ?_
    have hne := nlNe_of_text ht
    -- one line is detached
    have step : ∀ as bs, gs = as ++ bs → (∃ x g, as = x ++ [g] ∧ g.raw ≠ []) → (segAvail (as ++ bs)).1 = total as →
        ((segAvail (as ++ bs)).2 = true ∨ closed = true) →
        Counted s0 d ((detachLine s b closed).bind fun r =>
          match r.1 with
          | .wait => .pure (r.2, off, k)
          | .eof => .pure (r.2, off, k)
          | .ok out =>
            .log (TextFormatter.lineEvents s off out ++ [.out (Kolombos.TextFormatter.line s k out)])
              (TextFormatter.loop s closed fuel r.2 (off + r.2.lastLen) (k + 1))) (b.dataLen, 0, off) fun q n => n = (q.1.dataLen, 0, q.2.1) := by
      rintro as bs rfl h1 h2 h3
      obtain ⟨out, b', e1, e2, e3, e4⟩ := detachLine_take h closed h1 h2 h3
      rw [detachLine_trace e1]
      have hlen : b.dataLen = b'.dataLen + b'.lastLen := by
        have k1 : b.dataLen = total (as ++ bs) := h.dataLen
        have k2 : b'.dataLen = total bs := e2.dataLen
        rw [k1, k2, e3, total_append]; omega
      simp only [Trace.bind]
      show Counted s0 d (.log ([_] ++ ([_] ++ [_])) (.log _ _)) _ _
      refine .log ((Moves.queue hd s b rfl).append (Moves.append (b := (b'.dataLen, b'.lastLen, off)) ?_ (Moves.queue hd s b' rfl))) ?_
      · rw [hlen]; exact Moves.taken hd s _ _ _
      refine .log (b := (b'.dataLen, 0, off + b'.lastLen)) ?_ (ih b' bs _ _ e2 fun g hg => ht g (by simp [hg]))
      rw [e3]
      exact line_moves hs hd1 hd off k e4 (fun g hg => ht g (by simp [hg])) _
    obtain ⟨ls, as, bs, hc⟩ := cut_exists gs
    cases ls with
    | cons l ls =>
      obtain ⟨x, g, rfl, hx, hg⟩ := hc.lines l (by simp)
      have e : gs = (x ++ [g]) ++ (ls.flatten ++ (as ++ bs)) := by rw [hc.eq]; simp
      have hav : segAvail ((x ++ [g]) ++ (ls.flatten ++ (as ++ bs))) = (total (x ++ [g]), true) := by
        rw [List.append_assoc]; exact segAvail_nl hx hg _
      exact step _ _ e ⟨x, g, rfl, hne g (by rw [e]; simp) hg⟩ (by rw [hav]) (.inl (by rw [hav]))
    | nil =>
      have e : gs = as ++ bs := by rw [hc.eq]; rfl
      have hav : segAvail (as ++ bs) = (total as, false) := by
        rw [segAvail_none hc.noNl, total_append, total_zero hc.empty]; rfl
      by_cases hcl : closed = true ∧ as ≠ []
      · exact step as bs e (hc.last.resolve_left hcl.2) (by rw [hav]) (.inr hcl.1)
      · have hrest : total gs = 0 ∨ closed = false := by
          cases closed with
          | false => exact .inr rfl
          | true =>
            have : as = [] := Classical.byContradiction fun h => hcl ⟨rfl, h⟩
            subst this
            rw [e]; exact .inl (total_zero hc.empty)
        have hresp : ∀ t : Str, PlainStr t → Moves s0 d [chainbuf.write s 1 ("Responsing with ".toList ++ t), bufferState s b] (b.dataLen, 0, off) (b.dataLen, 0, off) := fun t ht =>
          (Moves.other (x := [_]) (by
            simp only [List.mem_cons, List.not_mem_nil, or_false, forall_eq]
            exact respond_other s 1 ht) _).append (Moves.queue hd s b rfl)
        have hnot : ∀ out b', b.detachLine closed ≠ .ok (.ok out, b') := by
          intro out b' e'
          rcases detachLine_rest h closed (by rw [e]; exact hc.noNl) hrest with e'' | e'' <;> rw [e''] at e' <;> cases e'
        have hdl := hnot
        unfold SegmentBuffer.detachLine at hdl
        unfold detachLine
        simp only at hdl ⊢
        by_cases h0 : (SegmentBuffer.lineAvail b.chain).1 = 0
        · rw [if_pos h0]
          exact .log (t := .pure (b, off, k)) (hresp "EOF".toList (by decide)) (.pure rfl)
        · rw [if_neg h0] at hdl ⊢
          by_cases hq : (SegmentBuffer.lineAvail b.chain).2 = true ∨ closed = true
          · exfalso
            rw [if_pos hq] at hdl
            rcases detachLine_rest h closed (by rw [e]; exact hc.noNl) hrest with e'' | e'' <;> unfold SegmentBuffer.detachLine at e'' <;>
              simp only [if_neg h0, if_pos hq] at e'' <;> split at e'' <;> cases e''
          · rw [if_neg hq]
            exact .log (t := .pure (b, off, k)) (hresp "WaitRequest".toList (by decide)) (.pure rfl)

theorem textFormat_counted {s s0 : Settings} {d : Nat} (hs : ∀ n, offsetText s n = offsetText s0 n) (hd1 : s.debug ≠ 0) (hd : 2 ≤ d) (closed : Bool) (fuel : Nat)
    {b : SegmentBuffer} {gs : List Segment} (off k : Nat) (h : Rep b false gs) (ht : ∀ g ∈ gs, ∃ k, TextSeg k g) :
    Counted s0 d (TextFormatter.format s closed fuel b off k) (b.dataLen, 0, off) fun q n => n = (q.1.dataLen, 0, q.2.1) := by
  unfold TextFormatter.format
  refine .bind (textLoop_counted hs hd1 hd closed fuel b gs off k h ht) fun r n _ hn => ?_
  subst hn
  refine .log (.other ?_ _) (.pure rfl)
  split
  · simp only [List.mem_cons, List.not_mem_nil, or_false, forall_eq]
    exact txtfmt_other s 1 (FineIn.text _ (by decide))
  · simp

/-! ### Chunks and the input -/

theorem chunkSegs_all {s : Settings} (hm : s.readMode.1 = .text) {raw : Bytes} (h : DumpsAll s [raw]) : total (chunkSegs s raw) = raw.length := by
  have h1 := (chunkSegs_dumped hm raw).1
  have h2 := dumped_all h.pieces
  unfold chunkPieces at h2
  simp only [List.flatMap_cons, List.flatMap_nil, List.append_nil, List.flatten_cons, List.flatten_nil] at h2
  unfold rawSegs at h1
  unfold total
  rw [h1, h2]

theorem processChunk_textCounted {s : Settings} (hd : 2 ≤ s.debug) (hm : s.readMode.1 = .text) {st : State} (h : Held s st) (fuel : Nat) (term : Nat → Int)
    (wide : Nat → Int) {raw : Bytes} (hraw : DumpsAll s [raw]) (off : Nat) (finish : Bool) :
    Counted s s.debug (processChunk fuel (Config.create s) term wide st raw off finish) (st.buf.dataLen, 0, st.offset)
      fun st' n => n = (st'.buf.dataLen, 0, st'.offset) := by
  unfold processChunk
  refine .log (.other (appendEvents_other _ _ _ _) _) (.bind (parse_counted _ _ _ hd _ _ _ _ _) fun r n hr hn => ?_)
  subst hn
  have hres := res_of (parse_erases _ _ _ _ _) hr
  rw [parse_chunk] at hres
  simp only [ParserBuffer.appendRaw, h.parser, List.nil_append] at hres ⊢
  split at hres
  · cases hres
  · cases hres
    obtain ⟨H, hh⟩ := h.2 hm
    have hrep := hh.rep.attach (chunkSegs s raw)
    have hlen : (st.buf.attach (chunkSegs s raw)).dataLen = st.buf.dataLen + raw.length := by
      have e1 : st.buf.dataLen = total H := hh.rep.dataLen
      have e2 : (st.buf.attach (chunkSegs s raw)).dataLen = total (H ++ chunkSegs s raw) := hrep.dataLen
      rw [e2, total_append, e1, chunkSegs_all hm hraw]
    rw [← hlen]
    refine .bind (Q := fun st' n => n = (st'.buf.dataLen, 0, st'.offset)) ?_ fun st' n _ hn => ?_
    · unfold formatStep
      rw [config_mode, config_settings, hm]
      refine .bind (textFormat_counted (fun n => readMode_offsetText s n) (by rw [readMode_debug]; omega) hd _ _ _ _ hrep ?_) fun r n _ hn => ?_
      · intro g hg
        rcases List.mem_append.1 hg with hg | hg
        · exact hh.segs g hg
        · exact chunkSegs_text hm raw g hg
      subst hn
      exact .pure rfl
    · subst hn
      refine .log (.other ?_ _) (.pure rfl)
      simp only [List.mem_cons, List.not_mem_nil, or_false, forall_eq]
      exact dashes_other _ _ _ _ (by split <;> decide)

theorem readLoop_countedIn {s : Settings} (s' : Settings) (src : Source) (mb ml : Option Int) {cb : State → Bytes → Nat → Bool → Trace State}
    {I : State → Prop} {P : Bytes → Prop} (h0 : P []) (hP : ∀ a b, a <+: b → P b → P a)
    (h : ∀ st raw o f, I st → P raw → Counted s s.debug (cb st raw o f) (st.buf.dataLen, 0, st.offset) fun st' n => n = (st'.buf.dataLen, 0, st'.offset))
    (hI : ∀ st raw o st', I st → (cb st raw o false).res = .ok st' → I st') (io : List IoStep) (hio : ∀ raw, .data raw ∈ io → P raw) :
    ∀ off lines chunks pos st, I st → Counted s s.debug (readLoop s' src mb ml cb io off lines chunks pos st) (st.buf.dataLen, 0, st.offset)
      fun st' n => n = (st'.buf.dataLen, 0, st'.offset) := by
  have he : ∀ off n, Moves s s.debug [eofEvent s' off] n n := fun off n =>
    .other (by simp only [List.mem_cons, List.not_mem_nil, or_false, forall_eq]; exact eof_other _ _) _
  induction io with
  | nil => intro off lines chunks pos st hi; exact .log (he _ _) (h _ _ _ _ hi h0)
  | cons i io ih =>
    have ih := ih fun raw hr => hio raw (by simp [hr])
    intro off lines chunks pos st hi
    cases i with
    | raise e => exact .empty rfl (by intro x h; cases h) _ _
    | data raw =>
      have hraw := hP _ _ (limitLines_prefix ml raw lines) (hio raw (by simp))
      rw [readLoop]
      split
      · exact .log (he _ _) (h _ _ _ _ hi h0)
      · refine .log (.other (by simp only [List.mem_cons, List.not_mem_nil, or_false, forall_eq]; exact chunk_other _ _ _ _) _) ?_
        split
        · exact .empty rfl (by intro x h; cases h) _ _
        · rename_i w hw
          refine .log (.other (limit_other _ (position_plain hw) _ _ _ _ _) _) ?_
          split
          · exact .log (he _ _) (h _ _ _ _ hi (hP _ _ (pyTake_prefix _ _) hraw))
          · refine .bind (h _ _ _ _ hi hraw) fun st' n hst hn => ?_
            subst hn
            simp only
            split
            · exact .log (he _ _) (h _ _ _ _ (hI _ _ _ _ hi hst) h0)
            · exact ih _ _ _ _ _ (hI _ _ _ _ hi hst)

theorem dumpsAll_prefix {s : Settings} (a b : Bytes) (h : a <+: b) (hb : DumpsAll s [b]) : DumpsAll s [a] := by
  refine ⟨fun h1 h2 c hc hm => ?_, fun h1 c hc x hx => ?_⟩
  · rw [List.mem_singleton.1 hc] at hm
    exact hb.1 h1 h2 b (by simp) (h.subset hm)
  · rw [List.mem_singleton.1 hc] at hx
    exact hb.2 h1 b (by simp) x (h.subset hx)

/-- In text mode the numbers add up if the queue has all bytes of the input. -/
theorem byteIoRun_textCounted {s : Settings} (hd : 2 ≤ s.debug) (hm : s.readMode.1 = .text) (fuel : Nat) {src : Source} (hs : src.Plain) (term : Nat → Int)
    (wide : Nat → Int) (opened : Option Err) (io : List IoStep) (hio : ∀ raw, .data raw ∈ io → DumpsAll s [raw]) :
    CountsAdd s 0 0 0 (textsOf s.debug (byteIoRun fuel s src term wide opened io).evs) := by
  have hp : s.readMode.1 = .binary → PosCols s term := fun h => by rw [hm] at h; cases h
  have : ∃ w o, Moves s s.debug (byteIoRun fuel s src term wide opened io).evs (0, 0, 0) (w, 0, o) := by
    unfold byteIoRun
    simp only [Trace.log]
    have h1 : Moves s s.debug (if s.debug ≥ 3 then [] else [runner.write s 1 (separatorLine s (wide 2) '┬')]) (0, 0, 0) (0, 0, 0) := by
      split
      · exact .nil _
      · exact .other (by simp only [List.mem_cons, List.not_mem_nil, or_false, forall_eq]; exact dashes_other _ _ _ _ (by decide)) _
    cases opened with
    | some e => exact ⟨0, 0, h1.append (.nil _)⟩
    | none =>
      have hl := readLoop_countedIn (s := s) (Config.create s).settings src (Config.create s).settings.maxBytes (Config.create s).settings.maxLines
        (cb := processChunk fuel (Config.create s) term wide) (I := Held s) (P := fun raw => DumpsAll s [raw])
        ⟨fun _ _ c hc => by rw [List.mem_singleton.1 hc]; simp, fun _ c hc => by rw [List.mem_singleton.1 hc]; simp⟩
        dumpsAll_prefix (fun st raw o f h hr => processChunk_textCounted hd hm h _ _ _ hr _ _) (by
          intro st raw o st' h e
          rw [(processChunk_erases _ _ _ _ _ _ _ _).res] at e
          exact processChunk_held h _ hp _ _ _ e) io hio 0 0 0 0 {} (.start s)
      obtain ⟨w, o, h2⟩ := hl.2
      refine ⟨w, o, h1.append ?_⟩
      rw [read_evs]
      exact (Moves.other (openEvents_other _ hs _) _).append h2
  obtain ⟨w, o, h⟩ := this
  have := h [] (.nil _ _)
  rwa [List.append_nil] at this

end Debug

end Kolombos
