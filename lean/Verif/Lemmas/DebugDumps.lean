import Verif.Lemmas.DebugReport
/-
The debug messages above the lines in text mode.
-/
set_option linter.unusedSimpArgs false

namespace Kolombos
open Spec

/-- The bytes of some segments. -/
def rawSegs (gs : List Segment) : Bytes := gs.flatMap Segment.raw

theorem rawSegs_append (a b : List Segment) : rawSegs (a ++ b) = rawSegs a ++ rawSegs b := by simp [rawSegs]

theorem rawSegs_flatten (ls : List (List Segment)) : (ls.map rawSegs).flatten = rawSegs ls.flatten := by
  induction ls with
  | nil => rfl
  | cons l ls ih => rw [List.map_cons, List.flatten_cons, List.flatten_cons, rawSegs_append, ih]

theorem lineDumps_append (s : Settings) (a b : List Bytes) : ∀ off, lineDumps s off (a ++ b) = lineDumps s off a ++ lineDumps s (off + a.flatten.length) b := by
  induction a with
  | nil => intro off; rfl
  | cons l a ih =>
    intro off
    rw [List.cons_append, lineDumps, lineDumps, ih, List.flatten_cons, List.length_append, Nat.add_assoc]
    rfl

theorem outTexts_append (a b : List Ev) : outTexts (a ++ b) = outTexts a ++ outTexts b := by
  unfold outTexts; rw [List.filterMap_append]

/-- Every write of the display comes with the messages that show the bytes. -/
def Dumped (s : Settings) (off : Nat) (evs : List Ev) (bss : List Bytes) : Prop :=
  ∃ us : List (Str × Str × Str), (us.flatMap fun u => [Ev.dbg 2 u.1, .dbg 1 u.2.1, .out u.2.2]).Sublist evs ∧ outTexts evs = us.map (·.2.2) ∧
    us.map (fun u => (visible u.1, visible u.2.1)) = lineDumps s off bss

namespace Dumped
variable {s : Settings} {off : Nat}

theorem messages {x : List Ev} (h : ∀ e ∈ x, ∃ l u, e = .dbg l u) : Dumped s off x [] := by
  refine ⟨[], List.nil_sublist _, ?_, rfl⟩
  induction x with
  | nil => rfl
  | cons e x ih =>
    obtain ⟨l, u, rfl⟩ := h e (by simp)
    exact ih fun e he => h e (by simp [he])

theorem nil : Dumped s off [] [] := messages (by simp)

theorem append {x y : List Ev} {a b : List Bytes} (h : Dumped s off x a) (h' : Dumped s (off + a.flatten.length) y b) : Dumped s off (x ++ y) (a ++ b) := by
  obtain ⟨us, h1, h2, h3⟩ := h
  obtain ⟨vs, g1, g2, g3⟩ := h'
  refine ⟨us ++ vs, ?_, ?_, ?_⟩
  · rw [List.flatMap_append]; exact h1.append g1
  · rw [outTexts_append, h2, g2, List.map_append]
  · rw [List.map_append, h3, g3, lineDumps_append]

theorem before {x y : List Ev} {b : List Bytes} (h : ∀ e ∈ x, ∃ l u, e = .dbg l u) (h' : Dumped s off y b) : Dumped s off (x ++ y) b :=
  (messages h).append h'

theorem after {x y : List Ev} {b : List Bytes} (h' : Dumped s off x b) (h : ∀ e ∈ y, ∃ l u, e = .dbg l u) : Dumped s off (x ++ y) b := by
  have := h'.append (messages h)
  rwa [List.append_nil] at this

end Dumped

namespace Debug

theorem line_dumped (s : Settings) (off k : Nat) {out : List Chainable} {os : List Segment} (h : OutRel out os) :
    Dumped s off (TextFormatter.lineEvents s off out ++ [.out (Kolombos.TextFormatter.line s k out)]) [rawSegs os] := by
  have hx : PlainStr (formatPlain segRawToHex out) := formatPlain_plain segRawToHex_plain out
  have hs : PlainStr (formatPlain segRawToSafe out) := formatPlain_plain segRawToSafe_plain out
  have h1 := (((offsetPrefix_says s off 33 (by decide)).append (Says.plain {} hx)).append (Says.text {} (t := ['\n']) (by decide))).visible
  have h2 := (((offsetPrefix_says s off 33 (by decide)).append (Says.plain {} hs)).append (Says.text {} (t := ['\n']) (by decide))).visible
  refine ⟨[(Console.formatPrefixWithOffset s off [33, 40] ++ formatPlain segRawToHex out ++ ['\n'],
    Console.formatPrefixWithOffset s off [33, 40] ++ formatPlain segRawToSafe out ++ ['\n'], Kolombos.TextFormatter.line s k out)],
    (List.Sublist.refl _).cons _, rfl, ?_⟩
  rw [List.map_cons, List.map_nil, h1, h2, formatPlain_hex, formatPlain_safe, h.raw]
  rfl

theorem bind_ok_inv {α β : Type} {t : Trace α} {f : α → Trace β} {b : β} (h : (t.bind f).res = .ok b) :
    ∃ a, t.res = .ok a ∧ (f a).res = .ok b ∧ (t.bind f).evs = t.evs ++ (f a).evs := by
  unfold Trace.bind at h ⊢
  cases hr : t.res with
  | ok a => rw [hr] at h; exact ⟨a, rfl, h, rfl⟩
  | err e => rw [hr] at h; cases h
  | timeout => rw [hr] at h; cases h

theorem textLoop_dumped (s : Settings) (closed : Bool) (fuel : Nat) :
    ∀ (b : SegmentBuffer) (gs : List Segment) (off k : Nat) (ls : List (List Segment)) (as bs : List Segment), Rep b false gs → NlNe gs → Cut gs ls as bs →
      ∀ r, (TextFormatter.loop s closed fuel b off k).res = .ok r →
      Dumped s off (TextFormatter.loop s closed fuel b off k).evs ((printed closed ls as).map rawSegs) := by
  induction fuel with
  | zero => intro b gs off k ls as bs _ _ _ r hr; cases hr
  | succ fuel ih =>
    intro b gs off k ls as bs h hne hc r hr
    rw [TextFormatter.loop] at hr ⊢
    simp only [Trace.log] at hr ⊢
    obtain ⟨q, hq, hr, e⟩ := bind_ok_inv hr
    rw [e]
    refine .before (by simp only [List.mem_cons, List.not_mem_nil, or_false, forall_eq]; exact write_message _ _ _ _ _) ?_
    refine .before (onlyMessages_of_fine (detachLine_fine _ _ _)) ?_
    have hres := res_of (detachLine_erases s b closed) hq
    obtain ⟨q1, q2⟩ := q
    have key : (∃ x y ls' as', gs = x ++ y ∧ (∃ z g, x = z ++ [g] ∧ g.raw ≠ []) ∧ (segAvail (x ++ y)).1 = total x ∧
        ((segAvail (x ++ y)).2 = true ∨ closed = true) ∧ Cut y ls' as' bs ∧ printed closed ls as = x :: printed closed ls' as') ∨
        ((total gs = 0 ∨ closed = false) ∧ NoNl gs ∧ printed closed ls as = []) := by
      cases ls with
      | cons l ls =>
        obtain ⟨x, g, rfl, hx, hg⟩ := hc.lines l (by simp)
        have e : gs = (x ++ [g]) ++ (ls.flatten ++ (as ++ bs)) := by rw [hc.eq]; simp
        have hav : segAvail ((x ++ [g]) ++ (ls.flatten ++ (as ++ bs))) = (total (x ++ [g]), true) := by
          rw [List.append_assoc]; exact segAvail_nl hx hg _
        refine .inl ⟨_, _, ls, as, e, ⟨x, g, rfl, hne g (by rw [e]; simp) hg⟩, by rw [hav], .inl (by rw [hav]), ?_, ?_⟩
        · exact ⟨rfl, fun l hl => hc.lines l (by simp [hl]), hc.noNl, hc.empty, hc.last⟩
        · unfold printed; split <;> rfl
      | nil =>
        have e : gs = as ++ bs := by rw [hc.eq]; rfl
        have hav : segAvail (as ++ bs) = (total as, false) := by
          rw [segAvail_none hc.noNl, total_append, total_zero hc.empty]; rfl
        by_cases hcl : closed = true ∧ as ≠ []
        · refine .inl ⟨as, bs, [], [], e, hc.last.resolve_left hcl.2, by rw [hav], .inr hcl.1, ?_, ?_⟩
          · exact ⟨rfl, fun l hl => by simp at hl, fun g hg => hc.noNl g (by simp at hg; simp [hg]), hc.empty, .inl rfl⟩
          · unfold printed; rw [if_pos hcl, if_neg (by simp)]; rfl
        · have : total gs = 0 ∨ closed = false := by
            cases closed with
            | false => exact .inr rfl
            | true =>
              have : as = [] := Classical.byContradiction fun h => hcl ⟨rfl, h⟩
              subst this
              rw [e]; exact .inl (total_zero hc.empty)
          exact .inr ⟨this, by rw [e]; exact hc.noNl, by unfold printed; rw [if_neg hcl]⟩
    rcases key with ⟨x, y, ls', as', rfl, h1, h2, h3, h4, h5⟩ | ⟨h1, h2, h3⟩
    · obtain ⟨out', b', e1, e2, e3, e4⟩ := detachLine_take h closed h1 h2 h3
      rw [e1] at hres
      cases hres
      rw [h5, List.map_cons]
      simp only [Trace.log] at hr ⊢
      refine (line_dumped s off k e4).append (b := (printed closed ls' as').map rawSegs) ?_
      have := ih q2 y (off + q2.lastLen) (k + 1) ls' as' bs e2 (fun g hg => hne g (by simp [hg])) h4 r hr
      rw [e3] at this ⊢
      simpa [total, rawSegs] using this
    · rw [h3]
      rcases detachLine_rest h closed h2 h1 with e' | e' <;> rw [e'] at hres <;> cases hres <;> exact .nil

theorem readMode_lineDumps (s : Settings) (off : Nat) (bss : List Bytes) : lineDumps s.readMode.2 off bss = lineDumps s off bss := by
  induction bss generalizing off with
  | nil => rfl
  | cons l bss ih => rw [lineDumps, lineDumps, ih, readMode_offsetText]

theorem processChunk_dumped {s : Settings} (hm : s.readMode.1 = .text) {st : State} {H : List Segment} (h : TextHold st H) (fuel : Nat) (term wide : Nat → Int)
    (raw : Bytes) (off : Nat) (fin : Bool) {ls : List (List Segment)} {as bs : List Segment} (hc : Cut (H ++ chunkSegs s raw) ls as bs) {st' : State}
    (hr : (processChunk fuel (Config.create s) term wide st raw off fin).res = .ok st') :
    Dumped s st.offset (processChunk fuel (Config.create s) term wide st raw off fin).evs ((printed fin ls as).map rawSegs) ∧
      TextHold st' (if fin = true then bs else as ++ bs) ∧ st'.offset = st.offset + total (printed fin ls as).flatten := by
  constructor
  · unfold processChunk at hr ⊢
    simp only [Trace.log] at hr ⊢
    obtain ⟨q, hq, hr, e⟩ := bind_ok_inv hr
    rw [e]
    obtain ⟨q', hq', hr, e'⟩ := bind_ok_inv hr
    rw [e']
    refine .before ?_ (.before (onlyMessages_of_fine (parse_fine _ _ _ _ _)) (.after ?_ ?_))
    · intro e he
      have := appendEvents_fine (P := fun _ => False) _ _ _ _ e he
      cases e with
      | out u => exact this.elim
      | dbg l u => exact ⟨l, u, rfl⟩
    · have hres := res_of (parse_erases _ _ _ _ _) hq
      rw [parse_chunk] at hres
      simp only [ParserBuffer.appendRaw, h.parser, List.nil_append] at hres
      split at hres
      · cases hres
      · cases hres
        unfold formatStep at hq' ⊢
        rw [config_mode, config_settings, hm] at hq' ⊢
        simp only at hq' ⊢
        obtain ⟨r, hr1, -, e1⟩ := bind_ok_inv hq'
        rw [e1]
        unfold TextFormatter.format at hr1 ⊢
        obtain ⟨r', hr2, -, e2⟩ := bind_ok_inv hr1
        rw [e2]
        have hseg : ∀ g ∈ H ++ chunkSegs s raw, ∃ k, TextSeg k g := by
          intro g hg
          rcases List.mem_append.1 hg with hg | hg
          · exact h.segs g hg
          · exact chunkSegs_text hm raw g hg
        have := textLoop_dumped s.readMode.2 fin fuel _ _ st.offset st.lineNum ls as bs (h.rep.attach (chunkSegs s raw)) (nlNe_of_text hseg) hc r' hr2
        unfold Dumped at this
        rw [readMode_lineDumps] at this
        change Dumped s _ _ _ at this
        refine .after (.after this ?_) (by intro e he; simp [Trace.pure] at he)
        intro e he
        simp only [Trace.log, Trace.pure, List.append_nil] at he
        split at he
        · simp only [List.mem_cons, List.not_mem_nil, or_false] at he
          subst he
          exact write_message _ _ _ _ _
        · simp at he
    · intro e he
      simp only [Trace.log, Trace.pure, List.append_nil, List.mem_cons, List.not_mem_nil, or_false] at he
      subst he
      exact write_message _ _ _ _ _
  · rw [(processChunk_erases _ _ _ _ _ _ _ _).res] at hr
    by_cases hb : (pieces raw).any badPiece = true
    · rw [processChunk_eq fuel s term st raw off fin h.parser, if_pos hb] at hr; cases hr
    · have hb : (pieces raw).any badPiece = false := by simpa using hb
      obtain ⟨k1, k2⟩ := textStep hm h raw hb off fin term hc fuel
      by_cases hfu : (printed fin ls as).length < fuel
      · obtain ⟨st2, e1, e2, -, e3⟩ := k1 hfu
        rw [e1] at hr
        cases hr
        exact ⟨e2, e3⟩
      · rw [k2 (by omega)] at hr; cases hr

theorem readLoop_dumped {s : Settings} (hm : s.readMode.1 = .text) (s' : Settings) (src : Source) (fuel : Nat) (term wide : Nat → Int) (cs : List Bytes) (hcs : ∀ c ∈ cs, c ≠ []) :
    ∀ off lines chunks pos st st' H, TextHold st H → NoNl H →
      (readLoop s' src none none (processChunk fuel (Config.create s) term wide) (cs.map .data) off lines chunks pos st).res = .ok st' →
      ∃ ls as bs, Cut (H ++ cs.flatMap (chunkSegs s)) ls as bs ∧
        Dumped s st.offset (readLoop s' src none none (processChunk fuel (Config.create s) term wide) (cs.map .data) off lines chunks pos st).evs
          ((printed true ls as).map rawSegs) := by
  induction cs with
  | nil =>
    intro off lines chunks pos st st' H h hn hr
    obtain ⟨ls, as, bs, hc⟩ := cut_exists (H ++ chunkSegs s [])
    refine ⟨ls, as, bs, ?_, ?_⟩
    · have : chunkSegs s [] = [] := by unfold chunkSegs; rw [pieces]; rfl
      rw [this] at hc
      exact hc
    · rw [List.map_nil, readLoop] at hr ⊢
      refine .before ?_ (processChunk_dumped hm h fuel term wide [] off true hc hr).1
      simp only [List.mem_cons, List.not_mem_nil, or_false, forall_eq]; exact write_message _ _ _ _ _
  | cons c cs ih =>
    intro off lines chunks pos st st' H h hn hr
    have hc0 := hcs c (by simp)
    rw [List.map_cons, readLoop, if_neg hc0] at hr ⊢
    cases hw : position src (pos + c.length) with
    | error e => rw [hw] at hr; cases hr
    | ok w =>
      rw [hw] at hr
      simp only [Reader.limitLines, Reader.bytesExceeded, Reader.limitReached, Bool.or_self, Bool.false_eq_true, if_false] at hr ⊢
      simp only [Trace.log] at hr ⊢
      obtain ⟨st2, h2, hr, e⟩ := bind_ok_inv hr
      rw [e]
      obtain ⟨ls, as, bs, hc⟩ := cut_exists (H ++ chunkSegs s c)
      obtain ⟨k1, k2, k3⟩ := processChunk_dumped hm h fuel term wide c off false hc h2
      have hp : printed false ls as = ls := by unfold printed; rw [if_neg (by simp)]
      rw [hp] at k1 k3
      rw [if_neg (by simp)] at k2
      obtain ⟨ls', as', bs', hc', k4⟩ := ih (fun c hc => hcs c (by simp [hc])) _ _ _ _ _ _ _ k2 hc.noNl hr
      refine ⟨ls ++ ls', as', bs', ⟨?_, hc.lines.append hc'.lines, hc'.noNl, hc'.empty, hc'.last⟩, ?_⟩
      · rw [List.flatMap_cons, ← List.append_assoc, hc.eq, List.flatten_append, List.append_assoc, List.append_assoc ls.flatten, ← hc'.eq]
      · have hpr : printed true (ls ++ ls') as' = ls ++ printed true ls' as' := by
          unfold printed; split <;> simp
        rw [hpr, List.map_append]
        refine .before ?_ (.before ?_ (k1.append ?_))
        · simp only [List.mem_cons, List.not_mem_nil, or_false, forall_eq]; exact write_message _ _ _ _ _
        · intro e he
          have := limitEvents_fine (P := fun _ => False) _ (position_plain hw) _ _ _ _ _ e he
          cases e with
          | out u => exact this.elim
          | dbg l u => exact ⟨l, u, rfl⟩
        · have e1 : (ls.map rawSegs).flatten.length = total ls.flatten := by
            rw [rawSegs_flatten]; rfl
          rw [e1, ← k3]
          exact k4

end Debug

/-! ### Bytes without escape sequences -/

/-- Segments that have the bytes of a line or of a part of a line. -/
def LineSeg (g : Segment) : Prop := (g.isNewline = true → g.raw = [0x0a]) ∧ (g.isNewline = false → (0x0a : Byte) ∉ g.raw)

theorem rawSegs_ctrl (s : Settings) (p : Bytes) : (p.flatMap (ctrlSegments s)).flatMap Segment.raw = p.flatMap fun b => List.replicate b.toNat 0 := by
  induction p with
  | nil => rfl
  | cons b p ih =>
    rw [List.flatMap_cons, List.flatMap_append, ih, List.flatMap_cons]
    congr 1
    unfold ctrlSegments ctrlDetails
    split <;> simp

theorem segsOf_dumped {s : Settings} (hm : s.readMode.1 = .text) {q : Kind × Bytes} (hw : Wf q.1 q.2) :
    (segsOf s q).flatMap Segment.raw = dumpedBytes s q := by
  have hlv := level_details hm
  have hig := displayOf_ignored s q.1
  unfold segsOf segmentsOf dumpedBytes
  by_cases he : isEscKind q.1 = true ∧ displayOf s q.1 ≠ .ignored
  · have hcl : classOfKind q.1 = .escapeSeq := by
      have := he.1
      cases hk : q.1 <;> rw [hk] at this <;> first | (cases this; done) | rfl
    have hni : s.ignore .escapeSeq = false := by
      cases h : s.ignore .escapeSeq with
      | false => rfl
      | true => exact absurd (hig.2 (by rw [hcl]; exact h)) he.2
    rw [if_pos he, if_neg (by rintro ⟨h, -⟩; rw [h] at he; cases he.1)]
    have hbody : (escBody s q.1 q.2 (detailsFn q)).flatMap Segment.raw = (if level s = 0 then q.2.take 1 else q.2) := by
      unfold escBody
      rw [hlv]
      by_cases h0 : level s = 0
      · simp [h0]
      · have e : q.2.take 1 ++ q.2.tail = q.2 := by cases q.2 <;> simp
        by_cases h1 : level s = 1
        · simp only [h1]; simpa using e
        · simpa [h0, h1] using e
    have hseg : (escSegments s q.1 q.2 (detailsFn q)).flatMap Segment.raw = (escBody s q.1 q.2 (detailsFn q)).flatMap Segment.raw := by
      unfold escSegments
      split
      · simp [sepSegment]
      · rfl
    rw [hseg, hbody]
    by_cases h0 : level s = 0
    · rw [if_pos h0, if_pos ⟨hcl, hni, h0⟩]
    · rw [if_neg h0, if_neg fun h => h0 h.2.2]
  · rw [if_neg he]
    by_cases hc : q.1 = .ctrl ∧ level s ≠ 0
    · rw [if_pos hc, if_pos, rawSegs_ctrl]
      refine ⟨hc.1, ?_⟩
      rw [hlv, if_neg hc.2]
      split <;> simp
    · rw [if_neg hc, if_neg, if_neg]
      · simp
      · rintro ⟨h1, h2, -⟩
        refine he ⟨?_, fun h => ?_⟩
        · cases hk : q.1 <;> rw [hk] at h1 <;> first | (cases h1; done) | rfl
        · have := hig.1 h
          rw [h1, h2] at this; cases this
      · rintro ⟨h1, h2⟩
        refine hc ⟨h1, fun h0 => ?_⟩
        rw [hlv, if_pos h0] at h2
        simp at h2

theorem dumped_lf {s : Settings} {q : Kind × Bytes} (hw : Wf q.1 q.2) (h : (0x0a : Byte) ∈ dumpedBytes s q) : q.1 = .newline := by
  apply hw.lf
  unfold dumpedBytes at h
  split at h
  · obtain ⟨b, -, h⟩ := List.mem_flatMap.1 h
    exact absurd (List.eq_of_mem_replicate h) (by decide)
  · split at h
    · exact List.mem_of_mem_take h
    · exact h

/-- The bytes of the segments of a chunk. -/
theorem chunkSegs_dumped {s : Settings} (hm : s.readMode.1 = .text) (raw : Bytes) :
    rawSegs (chunkSegs s raw) = (pieces raw).flatMap (dumpedBytes s) ∧ ∀ g ∈ chunkSegs s raw, LineSeg g := by
  constructor
  · have : ∀ qs : List (Kind × Bytes), (∀ q ∈ qs, Wf q.1 q.2) → (qs.flatMap (segsOf s)).flatMap Segment.raw = qs.flatMap (dumpedBytes s) := by
      intro qs
      induction qs with
      | nil => intro _; rfl
      | cons q qs ih =>
        intro hw
        rw [List.flatMap_cons, List.flatMap_append, ih fun q hq => hw q (by simp [hq]), segsOf_dumped hm (hw q (by simp)), List.flatMap_cons]
    exact this _ fun q hq => pieces_wf hq
  · intro g hg
    obtain ⟨q, hq, hg⟩ := List.mem_flatMap.1 hg
    have h1 := segmentsOf_text hm (pieces_wf hq) (detailsFn_good q) g hg
    refine ⟨fun h => (h1.nl (h1.newline.1 h)).1, fun h hn => ?_⟩
    have h2 : (0x0a : Byte) ∈ (segsOf s q).flatMap Segment.raw := List.mem_flatMap.2 ⟨g, hg, hn⟩
    rw [segsOf_dumped hm (pieces_wf hq)] at h2
    rw [h1.newline.2 (dumped_lf (pieces_wf hq) h2)] at h
    cases h

theorem pieces_noEsc {raw : Bytes} (he : (0x1b : Byte) ∉ raw) {q : Kind × Bytes} (hq : q ∈ pieces raw) : (0x1b : Byte) ∉ q.2 := by
  intro h
  apply he
  rw [← pieces_flatten raw]
  exact List.mem_flatten.2 ⟨q.2, List.mem_map_of_mem hq, h⟩

theorem dumped_all {s : Settings} {cs : List Bytes} (h : ∀ q ∈ chunkPieces cs, dumpedBytes s q = q.2) : (chunkPieces cs).flatMap (dumpedBytes s) = cs.flatten := by
  rw [← chunkPieces_bytes]
  unfold bytesOf
  revert h
  generalize chunkPieces cs = qs
  intro h
  induction qs with
  | nil => rfl
  | cons q qs ih => rw [List.flatMap_cons, List.flatMap_cons, h q (by simp), ih fun q hq => h q (by simp [hq])]

theorem keptLines_line {a : Bytes} (h : (0x0a : Byte) ∉ a) (t : Bytes) : keptLines (a ++ 0x0a :: t) = (a ++ [0x0a]) :: keptLines t := by
  induction a with
  | nil => simp [keptLines]
  | cons c a ih =>
    have hc : c ≠ 0x0a := fun e => h (by simp [e])
    rw [List.cons_append, keptLines, if_neg hc, ih fun e => h (by simp [e])]
    rfl

theorem keptLines_part {a : Bytes} (h : (0x0a : Byte) ∉ a) : keptLines a = if a = [] then [] else [a] := by
  induction a with
  | nil => rfl
  | cons c a ih =>
    have hc : c ≠ 0x0a := fun e => h (by simp [e])
    rw [keptLines, if_neg hc, ih fun e => h (by simp [e])]
    cases a <;> simp

theorem cut_kept {gs : List Segment} (hg : ∀ g ∈ gs, LineSeg g) {ls : List (List Segment)} {as bs : List Segment} (hc : Cut gs ls as bs) :
    (printed true ls as).map rawSegs = keptLines (rawSegs gs) := by
  have noNl : ∀ x : List Segment, NoNl x → (∀ g ∈ x, LineSeg g) → (0x0a : Byte) ∉ rawSegs x := by
    intro x h1 h2 hm
    obtain ⟨g, hg, hm⟩ := List.mem_flatMap.1 hm
    exact (h2 g hg).2 (h1 g hg) hm
  induction ls generalizing gs with
  | nil =>
    have e : gs = as ++ bs := by rw [hc.eq]; rfl
    have eb : rawSegs bs = [] := by
      unfold rawSegs
      rw [List.flatMap_eq_nil_iff]; exact hc.empty
    have h1 := noNl as (fun g hg => hc.noNl g (by simp [hg])) (fun g h => hg g (by rw [e]; simp [h]))
    rw [e, rawSegs_append, eb, List.append_nil, keptLines_part h1]
    unfold printed
    by_cases ha : as = []
    · subst ha; rw [if_neg (by simp)]; rfl
    · rw [if_pos ⟨rfl, ha⟩, if_neg]
      · rfl
      · obtain ⟨x, g, rfl, hne⟩ := hc.last.resolve_left ha
        simp [rawSegs, hne]
  | cons l ls ih =>
    obtain ⟨x, g, rfl, hx, hgn⟩ := hc.lines l (by simp)
    have e : gs = x ++ g :: (ls.flatten ++ (as ++ bs)) := by rw [hc.eq]; simp
    have h1 := noNl x hx (fun g h => hg g (by rw [e]; simp [h]))
    have h2 : g.raw = [0x0a] := (hg g (by rw [e]; simp)).1 hgn
    have e2 : rawSegs gs = rawSegs x ++ 0x0a :: rawSegs (ls.flatten ++ (as ++ bs)) := by
      rw [e, rawSegs_append]
      congr 1
      show g.raw ++ _ = _
      rw [h2]; rfl
    have e3 : printed true ((x ++ [g]) :: ls) as = (x ++ [g]) :: printed true ls as := by unfold printed; split <;> rfl
    rw [e2, keptLines_line h1, e3, List.map_cons, rawSegs_append]
    rw [ih (gs := ls.flatten ++ (as ++ bs)) (fun g h => hg g (by rw [e]; simp only [List.mem_append, List.mem_cons] at h ⊢; exact .inr (.inr h)))
      ⟨rfl, fun l hl => hc.lines l (by simp [hl]), hc.noNl, hc.empty, hc.last⟩]
    simp [rawSegs, h2]

end Kolombos
