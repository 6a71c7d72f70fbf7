import Verif.Lemmas.DebugEvents
/-
The writes of the display are single lines, whatever is written between them.
-/
set_option linter.unusedSimpArgs false

namespace Kolombos
open Spec

/-- Characters on a terminal that form one line. -/
theorem OneLine.of {t : Str} {v : List (Char × Style)} {l : Str} (h : Shows {} t {} v) (e : v.map Prod.fst = l ++ ['\n']) (hl : '\n' ∉ l) : OneLine t := by
  rcases List.eq_nil_or_concat v with rfl | ⟨w, x, rfl⟩
  · simp at e
  · rw [List.concat_eq_append] at h e
    rw [List.map_append, List.map_singleton] at e
    obtain ⟨e1, e2⟩ := List.append_inj' e rfl
    obtain ⟨c, st⟩ := x
    simp only [List.cons.injEq, and_true] at e2
    subst e2
    refine ⟨w, st, h, ?_⟩
    intro x hx ex
    apply hl
    rw [← e1, ← ex]
    exact List.mem_map_of_mem hx

theorem row_oneLine (s : Settings) (c off : Nat) {out : List Chainable} {os : List Segment} (h : OutRel out os)
    (hf : ∀ g ∈ os, Fit g) (hn : ∀ x ∈ queueCells os, x.char ≠ '\n') : OneLine (BinaryFormatter.row s (c : Int) off (total os) out) :=
  .of (shows_row s c off h hf) (rowLayout_text s c off _) (rowLine_noNl hn)

theorem total_oneLine (s : Settings) (n : Nat) : OneLine (Console.formatTotalSize s n ++ ['\n']) := by
  refine .of ((shows_prefix s 36 n (.inr rfl)).append (Shows.text {} (s := ['\n']) (by decide))) (l := (prefixLayout s 36 n).map Prod.fst) ?_
    (prefixLayout_noNl s 36 n)
  rw [List.map_append]; rfl

theorem textSeg_noNl {k : Kind} {g : Segment} (h : TextSeg k g) (hg : g.isNewline = false) : '\n' ∉ stripSgr g.processed := by
  intro hm
  rcases h.chars _ hm (by decide) with ⟨hk, -⟩ | ⟨-, e⟩ | ⟨-, e⟩
  · rw [h.newline.2 hk] at hg; cases hg
  · exact absurd e (by decide)
  · exact absurd e (by decide)

theorem plainOf_noNl {gs : List Segment} (h : ∀ g ∈ gs, ∃ k, TextSeg k g) (hn : NoNl gs) : '\n' ∉ plainOf gs := by
  intro hm
  obtain ⟨g, hg, hm⟩ := List.mem_flatMap.1 hm
  obtain ⟨k, hk⟩ := h g hg
  exact textSeg_noNl hk (hn g hg) hm

theorem line_oneLine (s : Settings) (n : Nat) {out : List Chainable} {os : List Segment} (h : OutRel out os)
    (ht : ∀ g ∈ os, ∃ k, TextSeg k g) (hn : NoNl os ∨ ∃ x g, os = x ++ [g] ∧ NoNl x ∧ g.isNewline = true) :
    OneLine (TextFormatter.line s n out) := by
  rw [line_eq h]
  have key : ∀ t, '\n' ∉ t → (plainOf os = t ++ ['\n'] ∨ plainOf os = t) → OneLine (lineText s n os) := by
    intro t h1 h2
    obtain ⟨v, e1, e2⟩ := shows_line (s := s) (n := n) ht t h1 h2
    refine .of e1 e2 ?_
    intro hm
    rcases List.mem_append.1 hm with hm | hm
    · exact absurd (lineLabel_plain s n _ hm) (by decide)
    · exact h1 hm
  rcases hn with hn | ⟨x, g, rfl, hx, hg⟩
  · exact key _ (plainOf_noNl ht hn) (.inr rfl)
  · obtain ⟨k, hk⟩ := ht g (by simp)
    obtain ⟨-, t, e, h2⟩ := hk.nl (hk.newline.1 hg)
    refine key (plainOf x ++ t) ?_ (.inl ?_)
    · intro hm
      rcases List.mem_append.1 hm with hm | hm
      · exact plainOf_noNl (fun g hg => ht g (by simp [hg])) hx hm
      · exact h2 hm
    · rw [plainOf_append]
      simp [plainOf, e]

namespace Debug

/-- The result of a trace. -/
theorem res_of {α : Type} {t : Trace α} {x : Except Err α} (h : Erases t (ofExcept x)) {a : α} (e : t.res = .ok a) : x = .ok a := by
  have := h.res
  rw [e] at this
  cases x with
  | error e => cases this
  | ok b => cases this; rfl

theorem binLoop_lines (s : Settings) (c : Nat) (closed : Bool) (fuel : Nat) :
    ∀ (r : Nat) (b : SegmentBuffer) (o : Bool) (gs : List Segment) (off : Nat), (0 < r ∨ closed = true ∧ gs = []) → Rep b o gs → (∀ g ∈ gs, Fit g) →
      (∀ x ∈ queueCells gs, x.char ≠ '\n') → AllEvs (EvFine OneLine) (BinaryFormatter.loop s c r closed fuel b off) := by
  induction fuel with
  | zero => intro r b o gs off _ _ _ _; exact .nil _
  | succ fuel ih =>
    intro r b o gs off hr h hf hn
    rw [BinaryFormatter.loop]
    refine .log ?_ (.bind (detachBytes_fine _ _ _ _) fun q hq => ?_)
    · simp only [List.mem_cons, List.not_mem_nil, or_false, forall_eq]
      exact write_fine binfmt_ours s (by decide) (((FineIn.text _ (by decide)).append (bold_fine (intStr_plain _))).append (FineIn.text _ (by decide))) _
    · have hres := res_of (detachBytes_erases s b r closed) hq
      obtain ⟨q1, q2⟩ := q
      cases q1 with
      | wait => exact .pure _
      | eof => exact .pure _
      | ok out =>
        simp only
        by_cases he : gs = []
        · subst he
          exfalso
          cases closed with
          | true => rw [detachBytes_eof h] at hres; cases hres
          | false =>
            have : 0 < r := by rcases hr with hr | ⟨hr, -⟩; exact hr; cases hr
            rw [detachBytes_wait h (by rw [total_nil]; exact this)] at hres; cases hres
        · have hr' : 0 < r := by
            rcases hr with hr | ⟨-, hr⟩
            · exact hr
            · exact absurd hr he
          by_cases hw : r ≤ total gs ∨ closed = true
          · obtain ⟨out', b', os, rs, o', e1, e2, e3, e4, e5, e6, e7, e8⟩ := detachBytes_row h hf hr' he hw
            rw [e1] at hres
            cases hres
            refine .log ?_ (ih r _ o' rs _ (.inl hr') e2 e3 ?_)
            · intro e hm
              rcases List.mem_append.1 hm with hm | hm
              · exact rowEvents_fine _ _ _ _ _ e hm
              · rw [List.mem_singleton.1 hm, e6]
                exact row_oneLine s c off e5 e4 fun x hx => hn x (by rw [e7] at hx; exact List.mem_of_mem_take hx)
            · intro x hx
              rw [e8] at hx
              exact hn x (List.mem_of_mem_drop hx)
          · exfalso
            have : closed = false := by cases closed with | false => rfl | true => exact absurd (.inr rfl) hw
            subst this
            rw [detachBytes_wait h (by omega)] at hres; cases hres

theorem binFormat_lines (s : Settings) {c : Nat} (hc : 0 < c) (closed : Bool) {gs : List Segment} {o : Bool} {b : SegmentBuffer}
    (h : Rep b o gs) (hf : ∀ g ∈ gs, Fit g) (hn : ∀ x ∈ queueCells gs, x.char ≠ '\n') (off fuel : Nat) (term : Int)
    (hcols : Kolombos.BinaryFormatter.curCols s term off = c) : AllEvs (EvFine OneLine) (BinaryFormatter.format fuel s term closed b off) := by
  unfold BinaryFormatter.format
  simp only
  rw [hcols]
  refine .log ?_ (.bind ?_ fun r _ => ?_)
  · split
    · simp only [List.mem_cons, List.not_mem_nil, or_false, forall_eq]
      exact write_fine binfmt_ours s (by decide) ((FineIn.text _ (by decide)).append (bold_fine (intStr_plain _))) _
    · simp
  · have hlen : b.dataLen = total gs := h.dataLen
    have : ∃ r : Nat, (if closed then min (b.dataLen : Int) c else c) = r ∧ (0 < r ∨ closed = true ∧ gs = []) := by
      cases closed with
      | false => exact ⟨c, rfl, .inl hc⟩
      | true =>
        refine ⟨min b.dataLen c, by simp only [if_true]; omega, ?_⟩
        cases gs with
        | nil => exact .inr ⟨rfl, rfl⟩
        | cons g gs =>
          left
          have := List.length_pos_iff.2 (hf g (by simp)).ne
          rw [total_cons, Segment.dataLen] at hlen; omega
    obtain ⟨r, e, hr⟩ := this
    rw [e]
    exact binLoop_lines s c closed fuel r b o gs off hr h hf hn
  · split
    · refine .log ?_ (.pure _)
      intro e he
      rw [List.mem_singleton.1 he]
      exact total_oneLine s _
    · exact .pure _

theorem textLoop_linesEvs (s : Settings) (closed : Bool) (fuel : Nat) :
    ∀ (b : SegmentBuffer) (gs : List Segment) (off k : Nat), Rep b false gs → (∀ g ∈ gs, ∃ k, TextSeg k g) →
      AllEvs (EvFine OneLine) (TextFormatter.loop s closed fuel b off k) := by
  induction fuel with
  | zero => intro b gs off k _ _; exact .nil _
  | succ fuel ih =>
    intro b gs off k h ht
    rw [TextFormatter.loop]
    refine .log ?_ (.bind (detachLine_fine _ _ _) fun q hq => ?_)
    · simp only [List.mem_cons, List.not_mem_nil, or_false, forall_eq]
      exact write_fine txtfmt_ours s (by decide) (FineIn.text _ (by decide)) _
    · have hres := res_of (detachLine_erases s b closed) hq
      obtain ⟨q1, q2⟩ := q
      cases q1 with
      | wait => exact .pure _
      | eof => exact .pure _
      | ok out =>
        simp only
        have hne := nlNe_of_text ht
        -- one line is detached
        have step : ∀ as bs, gs = as ++ bs → (∃ x g, as = x ++ [g] ∧ g.raw ≠ []) → (segAvail (as ++ bs)).1 = total as →
            ((segAvail (as ++ bs)).2 = true ∨ closed = true) → (NoNl as ∨ ∃ x g, as = x ++ [g] ∧ NoNl x ∧ g.isNewline = true) →
            AllEvs (EvFine OneLine) (.log (TextFormatter.lineEvents s off out ++ [.out (Kolombos.TextFormatter.line s k out)])
              (TextFormatter.loop s closed fuel q2 (off + q2.lastLen) (k + 1))) := by
          rintro as bs rfl h1 h2 h3 h4
          obtain ⟨out', b', e1, e2, e3, e4⟩ := detachLine_take h closed h1 h2 h3
          rw [e1] at hres
          cases hres
          refine .log ?_ (ih _ bs _ _ e2 fun g hg => ht g (by simp [hg]))
          intro e hm
          rcases List.mem_append.1 hm with hm | hm
          · exact lineEvents_fine _ _ _ e hm
          · rw [List.mem_singleton.1 hm]
            exact line_oneLine s k e4 (fun g hg => ht g (by simp [hg])) h4
        obtain ⟨ls, as, bs, hc⟩ := cut_exists gs
        cases ls with
        | cons l ls =>
          obtain ⟨x, g, rfl, hx, hg⟩ := hc.lines l (by simp)
          have e : gs = (x ++ [g]) ++ (ls.flatten ++ (as ++ bs)) := by rw [hc.eq]; simp
          have hav : segAvail ((x ++ [g]) ++ (ls.flatten ++ (as ++ bs))) = (total (x ++ [g]), true) := by
            rw [List.append_assoc]; exact segAvail_nl hx hg _
          exact step _ _ e ⟨x, g, rfl, hne g (by rw [e]; simp) hg⟩ (by rw [hav]) (.inl (by rw [hav])) (.inr ⟨x, g, rfl, hx, hg⟩)
        | nil =>
          have e : gs = as ++ bs := by rw [hc.eq]; rfl
          have hav : segAvail (as ++ bs) = (total as, false) := by
            rw [segAvail_none hc.noNl, total_append, total_zero hc.empty]; rfl
          by_cases hcl : closed = true ∧ as ≠ []
          · exact step as bs e (hc.last.resolve_left hcl.2) (by rw [hav]) (.inr hcl.1) (.inl fun g hg => hc.noNl g (by simp [hg]))
          · exfalso
            have : total gs = 0 ∨ closed = false := by
              cases closed with
              | false => exact .inr rfl
              | true =>
                have : as = [] := Classical.byContradiction fun h => hcl ⟨rfl, h⟩
                subst this
                rw [e]; exact .inl (total_zero hc.empty)
            rcases detachLine_rest h closed (by rw [e]; exact hc.noNl) this with e' | e' <;> rw [e'] at hres <;> cases hres

theorem textFormat_lines (s : Settings) (closed : Bool) (fuel : Nat) {b : SegmentBuffer} {gs : List Segment} (off k : Nat) (h : Rep b false gs)
    (ht : ∀ g ∈ gs, ∃ k, TextSeg k g) : AllEvs (EvFine OneLine) (TextFormatter.format s closed fuel b off k) := by
  unfold TextFormatter.format
  refine .bind (textLoop_linesEvs s closed fuel b gs off k h ht) fun r _ => .log ?_ (.pure _)
  split
  · simp only [List.mem_cons, List.not_mem_nil, or_false, forall_eq]
    exact write_fine txtfmt_ours s (by decide) (FineIn.text _ (by decide)) _
  · simp

/-- What holds between two chunks. -/
def Held (s : Settings) (st : State) : Prop :=
  (s.readMode.1 = .binary → ∃ H, BinHold st H ∧ ∀ x ∈ H, x.char ≠ '\n') ∧ (s.readMode.1 = .text → ∃ H, TextHold st H)

theorem Held.start (s : Settings) : Held s {} := ⟨fun _ => ⟨[], .start, by simp⟩, fun _ => ⟨[], .start⟩⟩

theorem Held.parser {s : Settings} {st : State} (h : Held s st) : st.pb.raw = [] := by
  cases hm : s.readMode.1 with
  | binary => obtain ⟨H, h, -⟩ := h.1 hm; exact h.parser
  | text => obtain ⟨H, h⟩ := h.2 hm; exact h.parser

theorem chunk_noNl {s : Settings} (hm : s.readMode.1 = .binary) (raw : Bytes) : ∀ x ∈ chunkCells s raw, x.char ≠ '\n' := by
  have := cells_noNl hm [⟨raw, 0, false⟩]
  simpa [allCells] using this

theorem processChunk_lines {s : Settings} {st : State} (h : Held s st) (fuel : Nat) {term : Nat → Int}
    (hp : s.readMode.1 = .binary → PosCols s term) (wide : Nat → Int) (raw : Bytes) (off : Nat) (finish : Bool) :
    AllEvs (EvFine OneLine) (processChunk fuel (Config.create s) term wide st raw off finish) := by
  unfold processChunk
  refine .log (appendEvents_fine _ _ _ _) (.bind (parse_fine _ _ _ _ _) fun r hr => .bind ?_ fun st' _ => .log ?_ (.pure _))
  · have hres := res_of (parse_erases _ _ _ _ _) hr
    rw [parse_chunk] at hres
    simp only [ParserBuffer.appendRaw, h.parser, List.nil_append] at hres
    split at hres
    · cases hres
    · cases hres
      unfold formatStep
      rw [config_mode, config_settings]
      cases hm : s.readMode.1 with
      | binary =>
        obtain ⟨H, hh, hn⟩ := h.1 hm
        obtain ⟨o, gs, h1, h2, rfl⟩ := hh.held
        obtain ⟨c, hc, hcols⟩ := (hp hm).get st.calls st.offset
        have hf : ∀ g ∈ gs ++ chunkSegs s raw, Fit g := by
          intro g hg
          rcases List.mem_append.1 hg with hg | hg
          · exact h2 g hg
          · exact chunkSegs_fit hm raw g hg
        refine .bind (binFormat_lines s.readMode.2 hc _ (h1.attach (chunkSegs s raw)) hf ?_ _ _ _ (by rw [readMode_curCols]; exact hcols)) fun r _ => .pure _
        rw [queueCells_append]
        intro x hx
        rcases List.mem_append.1 hx with hx | hx
        · exact hn x hx
        · exact chunk_noNl hm raw x hx
      | text =>
        obtain ⟨H, hh⟩ := h.2 hm
        refine .bind (textFormat_lines s.readMode.2 _ _ _ _ (hh.rep.attach (chunkSegs s raw)) ?_) fun r _ => .pure _
        intro g hg
        rcases List.mem_append.1 hg with hg | hg
        · exact hh.segs g hg
        · exact chunkSegs_text hm raw g hg
  · simp only [List.mem_cons, List.not_mem_nil, or_false, forall_eq]
    exact write_fine runner_ours _ (by decide) (separatorLine_fine _ _ (by split <;> decide)) _

theorem processChunk_held {s : Settings} {st st' : State} (h : Held s st) (fuel : Nat) {term : Nat → Int}
    (hp : s.readMode.1 = .binary → PosCols s term) (raw : Bytes) (off : Nat) (finish : Bool)
    (e : (Kolombos.processChunk fuel (Config.create s) term st raw off finish).res = .ok st') : Held s st' := by
  by_cases hb : (pieces raw).any badPiece = true
  · rw [processChunk_eq fuel s term st raw off finish h.parser, if_pos hb] at e; cases e
  · have hb : (pieces raw).any badPiece = false := by simpa using hb
    cases hm : s.readMode.1 with
    | binary =>
      obtain ⟨H, hh, hn⟩ := h.1 hm
      obtain ⟨c, hc, hcols⟩ := (hp hm).get st.calls st.offset
      obtain ⟨k1, k2⟩ := binStep hm hh raw hb off finish term hc hcols fuel _ _ rfl rfl
      by_cases hfu : rowCount finish c (H ++ chunkCells s raw).length < fuel
      · obtain ⟨out, st2, e1, e2, -⟩ := k1 hfu
        rw [e1] at e
        cases e
        refine ⟨fun _ => ⟨_, e2, ?_⟩, fun h => by rw [hm] at h; cases h⟩
        intro x hx
        rcases List.mem_append.1 (List.mem_of_mem_drop hx) with hx | hx
        · exact hn x hx
        · exact chunk_noNl hm raw x hx
      · rw [k2 (by omega)] at e; cases e
    | text =>
      obtain ⟨H, hh⟩ := h.2 hm
      obtain ⟨ls, as, bs, hc⟩ := cut_exists (H ++ chunkSegs s raw)
      obtain ⟨k1, k2⟩ := textStep hm hh raw hb off finish term hc fuel
      by_cases hfu : (printed finish ls as).length < fuel
      · obtain ⟨st2, e1, e2, -⟩ := k1 hfu
        rw [e1] at e
        cases e
        exact ⟨fun h => (by rw [hm] at h; cases h), fun _ => ⟨_, e2⟩⟩
      · rw [k2 (by omega)] at e; cases e

/-- Every write is one line. -/
theorem byteIoRun_lines (fuel : Nat) (s : Settings) {src : Source} (hs : src.Plain) {term : Nat → Int} (hp : s.readMode.1 = .binary → PosCols s term)
    (wide : Nat → Int) (opened : Option Err) (io : List IoStep) : AllEvs (EvFine OneLine) (byteIoRun fuel s src term wide opened io) := by
  unfold byteIoRun
  refine .log ?_ (read_fine _ hs _ _ _ _ (I := Held s) (fun st raw o f h => processChunk_lines h _ hp _ _ _ _) ?_ _ _ (.start s))
  · split
    · simp
    · simp only [List.mem_cons, List.not_mem_nil, or_false, forall_eq]
      exact write_fine runner_ours _ (by decide) (separatorLine_fine _ _ (by decide)) _
  · intro st raw o st' h e
    rw [(processChunk_erases _ _ _ _ _ _ _ _).res] at e
    exact processChunk_held h _ hp _ _ _ e

end Debug

/-! ### Lines on the screen -/

theorem screenLines_line (l : List (Char × Style)) (st : Style) (h : ∀ x ∈ l, x.1 ≠ '\n') (r : List (Char × Style)) :
    screenLines (l ++ ('\n', st) :: r) = (l ++ [('\n', st)]) :: screenLines r := by
  induction l with
  | nil => simp [screenLines]
  | cons x l ih =>
    rw [List.cons_append, screenLines, if_neg (h x (by simp)), ih fun y hy => h y (by simp [hy])]
    rfl

/-- The lines of some writes. -/
def writtenLines (l : List Str) : List (List (Char × Style)) := l.map appears

theorem shows_writes {l : List Str} (h : ∀ t ∈ l, OneLine t) : Shows {} l.flatten {} (writtenLines l).flatten ∧ screenLines (writtenLines l).flatten = writtenLines l := by
  induction l with
  | nil => exact ⟨.nil _, rfl⟩
  | cons t l ih =>
    obtain ⟨v, st, h1, h2⟩ := h t (by simp)
    obtain ⟨i1, i2⟩ := ih fun t ht => h t (by simp [ht])
    have e : writtenLines (t :: l) = (v ++ [('\n', st)]) :: writtenLines l := by
      unfold writtenLines; rw [List.map_cons, h1.appears]
    rw [e, List.flatten_cons, List.flatten_cons]
    refine ⟨h1.append i1, ?_⟩
    rw [List.append_assoc, List.singleton_append, screenLines_line v st h2, i2]

/-- The texts printed at a debug level. -/
def printedTexts (debug : Nat) (evs : List Ev) : List Str := evs.filterMap fun
  | .out t => some t
  | .dbg l t => if debug < l then none else some t

theorem stdoutOf_flatten (debug : Nat) (evs : List Ev) : stdoutOf debug evs = (printedTexts debug evs).flatten := by
  unfold stdoutOf printedTexts
  induction evs with
  | nil => rfl
  | cons e evs ih =>
    rw [List.flatMap_cons, ih, List.filterMap_cons]
    cases e with
    | out t => rfl
    | dbg l t =>
      simp only [Ev.printed]
      split <;> rfl

/-- The texts of the display. -/
def outTexts (evs : List Ev) : List Str := evs.filterMap fun
  | .out t => some t
  | .dbg _ _ => none

theorem outsOf_flatten (evs : List Ev) : outsOf evs = (outTexts evs).flatten := by
  unfold outsOf outTexts
  induction evs with
  | nil => rfl
  | cons e evs ih =>
    rw [List.flatMap_cons, ih, List.filterMap_cons]
    cases e <;> rfl

theorem outTexts_sublist (debug : Nat) (evs : List Ev) : (outTexts evs).Sublist (printedTexts debug evs) := by
  unfold outTexts printedTexts
  induction evs with
  | nil => exact .slnil
  | cons e evs ih =>
    rw [List.filterMap_cons, List.filterMap_cons]
    cases e with
    | out t => exact ih.cons_cons t
    | dbg l t =>
      simp only
      by_cases hl : debug < l
      · rw [if_pos hl]; exact ih
      · rw [if_neg hl]; exact ih.cons t

theorem printedTexts_oneLine {debug : Nat} {evs : List Ev} (h : ∀ e ∈ evs, EvFine OneLine e) : ∀ t ∈ printedTexts debug evs, OneLine t := by
  intro t ht
  unfold printedTexts at ht
  obtain ⟨e, he, ht⟩ := List.mem_filterMap.1 ht
  have := h e he
  cases e with
  | out u => cases ht; exact this
  | dbg l u =>
    simp only at ht
    split at ht
    · cases ht
    · cases ht
      obtain ⟨-, w, rfl, hw⟩ := this
      exact hw.line

/-- The lines of the display are among the lines on the screen, in their order. -/
theorem display_sublist {evs : List Ev} (h : ∀ e ∈ evs, EvFine OneLine e) (debug : Nat) :
    (screenLines (appears (outsOf evs))).Sublist (screenLines (appears (stdoutOf debug evs))) := by
  have h1 := printedTexts_oneLine (debug := debug) h
  have h2 : ∀ t ∈ outTexts evs, OneLine t := fun t ht => h1 t ((outTexts_sublist debug evs).subset ht)
  obtain ⟨a1, a2⟩ := shows_writes h1
  obtain ⟨b1, b2⟩ := shows_writes h2
  rw [outsOf_flatten, stdoutOf_flatten, a1.appears, b1.appears, a2, b2]
  exact (outTexts_sublist debug evs).map _

end Kolombos
