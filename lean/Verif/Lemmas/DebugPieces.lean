import Verif.Lemmas.DebugDumps
import Verif.Spec.DebugPieces
/-
What the debug messages say about the pieces of the input.
-/
set_option linter.unusedSimpArgs false

namespace Kolombos
open Spec

theorem groupIdx_number (k : Kind) : groupIdx k = pieceNumber k := by cases k <;> rfl

theorem label_letter (k : Kind) : (kindClass k).typeLabel = [classLetter (classOfKind k)] := by cases k <;> rfl

theorem twoDigits_eq (k : Kind) : rjust 2 '0' (dec (pieceNumber k)) = twoDigits (pieceNumber k) := by cases k <;> decide

theorem FineIn.says {a : Style} {t : Str} (h : FineIn a t) : ∃ x, Says a t x := by
  obtain ⟨v, h1, -⟩ := h
  exact ⟨_, v, h1, rfl⟩

/-- The first segment of a piece. -/
theorem segsOf_head (s : Settings) {q : Kind × Bytes} (hne : q.2 ≠ []) :
    ∃ g gs, segsOf s q = g :: gs ∧ g.typeLabel = (if Framed s q.1 then [] else [classLetter (classOfKind q.1)]) := by
  have hig := displayOf_ignored s q.1
  unfold segsOf segmentsOf
  by_cases he : isEscKind q.1 = true ∧ displayOf s q.1 ≠ .ignored
  · have hcl : classOfKind q.1 = .escapeSeq := by
      have := he.1
      cases hk : q.1 <;> rw [hk] at this <;> first | (cases this; done) | rfl
    have hni : s.ignore .escapeSeq = false := by
      cases h : s.ignore .escapeSeq with
      | false => rfl
      | true => exact absurd (hig.2 (by rw [hcl]; exact h)) he.2
    rw [if_pos he]
    unfold escSegments
    by_cases hf : Framed s q.1
    · have hlv := level_details hf.2.2.1
      rw [if_pos hf, if_pos]
      · exact ⟨_, _, rfl, rfl⟩
      · refine ⟨hf.2.2.1, hf.2.2.2.1, ?_⟩
        rw [hlv, if_neg hf.2.2.2.2]
        split <;> simp
    · rw [if_neg hf, if_neg]
      · exact ⟨_, _, rfl, by rw [hcl]; rfl⟩
      · rintro ⟨h1, h2, h3⟩
        refine hf ⟨hcl, hni, h1, h2, fun h0 => ?_⟩
        rw [level_details h1, if_pos h0] at h3
        simp at h3
  · rw [if_neg he]
    have hf : ¬ Framed s q.1 := by
      rintro ⟨h1, h2, -⟩
      refine he ⟨?_, fun h => ?_⟩
      · cases hk : q.1 <;> rw [hk] at h1 <;> first | (cases h1; done) | rfl
      · have := hig.1 h
        rw [h1, h2] at this; cases this
    rw [if_neg hf]
    split
    · rename_i hc
      cases hp : q.2 with
      | nil => exact absurd hp hne
      | cons b r =>
        refine ⟨_, _, rfl, ?_⟩
        rw [hc.1]; rfl
    · exact ⟨_, _, rfl, label_letter _⟩

/-- A prefix with a key. -/
theorem keyPrefix_says (s : Settings) {k : Str} (hp : PlainStr k) (hx : 'x' ∉ k) (hl : k.length ≤ 8) :
    Says {} (Console.formatPrefix s k [90, 40]) (alignRight 8 k ++ ['│']) := by
  unfold Console.formatPrefix alignRight
  have hspx : ∀ k, 'x' ∉ List.replicate k ' ' := fun k hm => absurd (List.mem_replicate.1 hm).2 (by decide)
  rw [List.take_of_length_le hl, dim0x_noX]
  · exact (Says.span (Says.plain _ (rjust_plain (by decide) hp)) (by decide)).append (separator_says s)
  · simp only [span, rjust, List.mem_append, not_or]
    exact ⟨⟨⟨by decide, hspx _, hx⟩, by decide⟩, separator_noX s⟩

namespace Debug

theorem printd_report (s : Settings) (v : Bytes) : Says {} (printd s v) (bytesReport s v) := printd_says s v

/-- The message about a piece. -/
theorem matchEvent_says (s : Settings) (off : Nat) {q : Kind × Bytes} (hne : q.2 ≠ []) {segs : List Segment}
    (hl : ∀ g ∈ segs, PlainStr g.typeLabel) (hs : segs = segsOf s q) :
    ∃ u, matchEvent s.readMode.2 (groupIdx q.1) q.2 segs off = .dbg 2 u ∧ Reports (visible u) (pieceReport s off q) := by
  refine ⟨_, rfl, ?_⟩
  obtain ⟨g, gs, e, hlab⟩ := segsOf_head s hne
  rw [← hs] at e
  subst e
  show Reports (visible (Console.formatPrefixWithOffset s.readMode.2 off [36, 40] ++ _ ++ ['\n'])) _
  rw [List.mapIdx_cons]
  have hg : PlainStr g.typeLabel := hl g (by simp)
  -- the rest about the first segment
  obtain ⟨x, hx, hx'⟩ : ∃ x, Says {} (if q.2 ≠ encodeAscii g.processed then " -> ".toList ++ printd s.readMode.2 (encodeAscii g.processed) else []) x ∧
      (x = [] ∨ " -> ".toList <+: x) := by
    by_cases h : q.2 ≠ encodeAscii g.processed
    · rw [if_pos h]
      obtain ⟨y, hy⟩ := (printd_fine s.readMode.2 (encodeAscii g.processed)).says
      exact ⟨_, (Says.plain {} (t := " -> ".toList) (by decide)).append hy, .inr ⟨_, rfl⟩⟩
    · rw [if_neg h]
      exact ⟨[], .nil _, .inl rfl⟩
  -- the other segments
  obtain ⟨y, z, hy, hy'⟩ : ∃ y z, join [';', ' '] (segmentText s.readMode.2 q.2 g :: gs.mapIdx fun i g => segmentText s.readMode.2 (if i + 1 > 0 then [] else q.2) g) =
      segmentText s.readMode.2 q.2 g ++ z ∧ Says {} z y ∧ (y = [] ∨ "; ".toList <+: y) := by
    cases hgs : gs with
    | nil => exact ⟨[], [], by simp [join], .nil _, .inl rfl⟩
    | cons g2 gs2 =>
      rw [List.mapIdx_cons]
      obtain ⟨y, hy⟩ : ∃ y, Says {} (join [';', ' '] (segmentText s.readMode.2 (if 0 + 1 > 0 then [] else q.2) g2 ::
          gs2.mapIdx fun i g => segmentText s.readMode.2 (if i + 1 + 1 > 0 then [] else q.2) g)) y := by
        refine (FineIn.join (FineIn.text _ (by decide)) ?_).says
        intro t ht
        rcases List.mem_cons.1 ht with rfl | ht
        · exact segmentText_fine _ _ (hl g2 (by simp [hgs]))
        · obtain ⟨k, hk, rfl⟩ := List.mem_mapIdx.1 ht
          exact segmentText_fine _ _ (hl _ (by rw [hgs]; exact List.mem_cons_of_mem _ (List.mem_cons_of_mem _ (List.getElem_mem hk))))
      refine ⟨_, [';', ' '] ++ _, by rw [join, List.append_assoc], (Says.plain {} (t := [';', ' ']) (by decide)).append hy, .inr ⟨_, rfl⟩⟩
  have hrep : bytesReport s.readMode.2 q.2 = bytesReport s q.2 := by unfold bytesReport; rw [readMode_debug]
  have hseg : Says {} (segmentText s.readMode.2 q.2 g) ("Seg <".toList ++ g.typeLabel ++ ">: ".toList ++ bytesReport s q.2 ++ x) := by
    unfold segmentText
    refine ((((Says.plain {} (t := "Seg ".toList) (by decide)).append (Says.span (Says.plain _ ((PlainStr.append (by decide) hg).append (by decide))) (by decide))).append
      (Says.plain {} (t := [':', ' ']) (by decide))).append (printd_report _ _)).append hx |>.cast ?_
    rw [hrep]
    simp
  have hpre := offsetPrefix_says s.readMode.2 off 36 (by decide)
  rw [readMode_offsetText] at hpre
  have htext := ((Says.plain {} (t := "Match group #".toList) (by decide)).append
    (Says.plain {} (rjust_plain (w := 2) (c := '0') (by decide) (dec_plain (groupIdx q.1))))).append (Says.plain {} (t := [':', ' ']) (by decide))
  have hall := ((hpre.append (htext.append (hseg.append hy'.1))).append (Says.text {} (t := ['\n']) (by decide))).visible
  have hjoin : join [';', ' '] (segmentText s.readMode.2 (if 0 > 0 then [] else q.2) g ::
      gs.mapIdx fun i g => segmentText s.readMode.2 (if i + 1 > 0 then [] else q.2) g) = segmentText s.readMode.2 q.2 g ++ z := by
    rw [if_neg (by omega)]; exact hy
  rw [hjoin]
  refine ⟨x ++ y, ?_, ?_⟩
  · rw [hall, groupIdx_number, twoDigits_eq, hlab]
    simp [pieceReport]
  · rcases hx' with rfl | ⟨x', rfl⟩
    · rcases hy'.2 with rfl | h
      · exact .inl rfl
      · exact .inr (.inr h)
    · exact .inr (.inl ⟨x' ++ y, by simp⟩)

/-- Messages with their levels. -/
def Told (evs : List Ev) (rs : List (Nat × Str)) : Prop :=
  ∃ us : List (Nat × Str), (us.map fun u => Ev.dbg u.1 u.2).Sublist evs ∧ List.Forall₂ (fun u r => u.1 = r.1 ∧ Reports (visible u.2) r.2) us rs

namespace Told

theorem nil (evs : List Ev) : Told evs [] := ⟨[], List.nil_sublist _, .nil⟩

theorem append {x y : List Ev} {a b : List (Nat × Str)} (h : Told x a) (h' : Told y b) : Told (x ++ y) (a ++ b) := by
  obtain ⟨us, h1, h2⟩ := h
  obtain ⟨vs, h3, h4⟩ := h'
  exact ⟨us ++ vs, by rw [List.map_append]; exact h1.append h3, List.rel_append h2 h4⟩

theorem mono {x y : List Ev} {a : List (Nat × Str)} (h : Told x a) (hs : x.Sublist y) : Told y a := by
  obtain ⟨us, h1, h2⟩ := h
  exact ⟨us, h1.trans hs, h2⟩

theorem one {e : Ev} {l : Nat} {r : Str} (h : ∃ u, e = .dbg l u ∧ Reports (visible u) r) : Told [e] [(l, r)] := by
  obtain ⟨u, rfl, h⟩ := h
  exact ⟨[(l, u)], by simp, .cons ⟨rfl, h⟩ .nil⟩

end Told

theorem reports_self {u r : Str} (h : visible u = r ++ ['\n']) : Reports (visible u) r := ⟨[], by simp [h], .inl rfl⟩

theorem subItems_told (s : Settings) {its : List (Item Byte)} {qs : List (Kind × Bytes)} (h : List.Forall₂ ItemOf its qs)
    (hw : ∀ q ∈ qs, Wf q.1 q.2) (hne : ∀ q ∈ qs, q.2 ≠ []) (off : Nat) : ∀ (pos : Nat) (buf : SegmentBuffer) (r : Bytes × SegmentBuffer),
    (subItems (registryOf s) s.readMode.2 off its pos buf).res = .ok r →
    Told (subItems (registryOf s) s.readMode.2 off its pos buf).evs (pieceReports s (off + pos) qs) := by
  induction h with
  | nil => intro pos buf r _; exact Told.nil _
  | @cons it q its qs hi _ ih =>
    intro pos buf r hr
    obtain ⟨caps, rfl, hg⟩ := hi
    simp only [subItems, hg.prim] at hr ⊢
    cases hseg : matchSegments (registryOf s) s.readMode.2 ⟨q.2, caps⟩ with
    | error e => rw [hseg] at hr; cases hr
    | ok segs =>
      rw [hseg] at hr
      simp only [hg.grp, Option.getD_some, Trace.log] at hr ⊢
      have hsegs : segs = segsOf s q := by
        rw [matchSegments_good hg, pieceSegments_eq s (hw q (by simp))] at hseg
        cases hd : sgrDetails q.1 q.2 with
        | error e => rw [hd] at hseg; cases hseg
        | ok d =>
          rw [hd] at hseg
          cases hseg
          unfold segsOf detailsFn
          rw [hd]
      refine (Told.one (matchEvent_says s (off + pos) (hne q (by simp)) (matchSegments_labels hseg) hsegs)).append ?_
      have := ih (fun q hq => hw q (by simp [hq])) (fun q hq => hne q (by simp [hq])) _ _ _ hr
      rw [← Nat.add_assoc] at this
      exact this

theorem key_write_says (d : Buffer) (s : Settings) (l : Nat) {k : Str} (hk : d.key = some k) (hp : PlainStr k) (hx : 'x' ∉ k) (hl : k.length ≤ 8)
    {t x : Str} (h : Says {} t x) : ∃ u, d.write s l t = .dbg l u ∧ visible u = alignRight 8 k ++ '│' :: x ++ ['\n'] := by
  refine ⟨_, rfl, ?_⟩
  unfold Buffer.prefix
  simp only [hk]
  have := (((keyPrefix_says s hp hx hl).append h).append (Says.text {} (t := ['\n']) (by decide))).visible
  simpa [Sgr.add] using this

theorem report_readMode (s : Settings) (v : Bytes) : bytesReport s.readMode.2 v = bytesReport s v := by unfold bytesReport; rw [readMode_debug]

theorem rawState_told (s : Settings) (pb : ParserBuffer) : Told [rawState s.readMode.2 pb] [bufferReport s pb.raw] := by
  refine Told.one ?_
  obtain ⟨u, h1, h2⟩ := key_write_says parsbuf s.readMode.2 2 rfl (by decide) (by decide) (by decide)
    ((Says.plain {} (t := "Buffer state: ".toList) (by decide)).append (printd_report s.readMode.2 pb.raw))
  refine ⟨u, h1, reports_self ?_⟩
  rw [h2, report_readMode]
  simp

theorem parse_told (s : Settings) (off : Nat) (pb : ParserBuffer) (buf : SegmentBuffer) {r : ParserBuffer × SegmentBuffer}
    (hr : (parse (registryOf s) s.readMode.2 off pb buf).res = .ok r) :
    Told (parse (registryOf s) s.readMode.2 off pb buf).evs
      ((1, alignRight 8 "parser".toList ++ "│Parsing segment: ".toList ++ bytesReport s pb.raw) :: pieceReports s off (pieces pb.raw)
        ++ [(3, alignRight 8 "parsbuf".toList ++ "│Purging".toList), bufferReport s []]) := by
  unfold parse at hr ⊢
  simp only [Trace.log] at hr ⊢
  obtain ⟨q, hq, hr, e⟩ := bind_ok_inv hr
  rw [e]
  refine Told.append (a := [_]) (Told.one ?_) (Told.append (subItems_told s (scan_pieces pb.raw) (fun q hq => pieces_wf hq) (pieces_ne_nil pb.raw) off 0 buf q hq) ?_)
  · obtain ⟨u, h1, h2⟩ := key_write_says parser s.readMode.2 1 rfl (by decide) (by decide) (by decide)
      ((Says.plain {} (t := "Parsing segment: ".toList) (by decide)).append (printd_report s.readMode.2 _))
    refine ⟨u, h1, reports_self ?_⟩
    rw [h2, report_readMode]
    simp
  · by_cases h0 : q.1.length = 0
    · rw [if_neg (fun h => h h0)]
      unfold ParserBuffer.cropRaw
      simp only [if_pos h0]
      simp only [Trace.pure, List.append_nil]
      refine Told.append (a := [_]) (b := [_]) (Told.one ?_) (rawState_told s { pb with raw := [] })
      obtain ⟨u, h1, h2⟩ := key_write_says parsbuf s.readMode.2 3 rfl (by decide) (by decide) (by decide)
        (Says.plain {} (t := "Purging".toList) (by decide))
      exact ⟨u, h1, reports_self (by rw [h2]; simp)⟩
    · rw [if_pos h0] at hr
      cases hr

theorem appendEvents_told (s : Settings) (raw : Bytes) (fin : Bool) (pb : ParserBuffer) :
    Told (appendEvents s.readMode.2 raw fin pb)
      ((3, alignRight 8 "parsbuf".toList ++ "│Appending ".toList ++ Nat.toDigits 10 raw.length ++ " bytes".toList) :: bufferReport s pb.raw
        :: (if fin then [(1, alignRight 8 "parsbuf".toList ++ "│Closing buffer for input".toList)] else [])) := by
  unfold appendEvents
  refine Told.append (a := [_, _]) (Told.append (x := [_]) (y := [_]) (a := [_]) (b := [_]) (Told.one ?_) (rawState_told s pb)) ?_
  · obtain ⟨u, h1, h2⟩ := key_write_says parsbuf s.readMode.2 3 rfl (by decide) (by decide) (by decide)
      (((Says.plain {} (t := "Appending ".toList) (by decide)).append (bold_says (dec_plain raw.length))).append (Says.plain {} (t := " bytes".toList) (by decide)))
    refine ⟨u, h1, reports_self ?_⟩
    rw [h2]
    simp [dec]
  · cases fin with
    | false => exact Told.nil _
    | true =>
      refine Told.one ?_
      obtain ⟨u, h1, h2⟩ := key_write_says parsbuf s.readMode.2 1 rfl (by decide) (by decide) (by decide)
        (Says.plain {} (t := "Closing buffer for input".toList) (by decide))
      exact ⟨u, h1, reports_self (by rw [h2]; simp)⟩

/-- A chunk. -/
theorem processChunk_told {s : Settings} (fuel : Nat) (term wide : Nat → Int) {st : State} (hst : st.pb.raw = []) (raw : Bytes) (off : Nat) (fin : Bool)
    {st' : State} (hr : (processChunk fuel (Config.create s) term wide st raw off fin).res = .ok st') :
    Told (processChunk fuel (Config.create s) term wide st raw off fin).evs (partReports s off raw fin) := by
  unfold processChunk at hr ⊢
  simp only [Trace.log] at hr ⊢
  obtain ⟨q, hq, -, e⟩ := bind_ok_inv hr
  rw [e, config_settings, config_registry]
  rw [config_settings, config_registry] at hq
  have e2 : (st.pb.appendRaw raw fin).raw = raw := by simp [ParserBuffer.appendRaw, hst]
  have h1 := parse_told s off (st.pb.appendRaw raw fin) st.buf hq
  have h2 := appendEvents_told s raw fin (st.pb.appendRaw raw fin)
  rw [e2] at h1 h2
  have hp : ∀ (a : Nat × Str) (b c d : List (Nat × Str)), a :: b ++ c ++ d = a :: b ++ (c ++ d) := fun a b c d => List.append_assoc _ _ _
  unfold partReports
  rw [hp]
  exact h2.append (h1.mono (List.sublist_append_left _ _))

theorem processChunk_emptied {s : Settings} (fuel : Nat) (term wide : Nat → Int) {st : State} (raw : Bytes) (off : Nat) (fin : Bool)
    {st' : State} (hr : (processChunk fuel (Config.create s) term wide st raw off fin).res = .ok st') : st'.pb.raw = [] := by
  unfold processChunk at hr
  simp only [Trace.log] at hr
  obtain ⟨q, hq, hr, -⟩ := bind_ok_inv hr
  have hres := res_of (parse_erases _ _ _ _ _) hq
  rw [parse_chunk] at hres
  split at hres
  · cases hres
  · cases hres
    obtain ⟨q', hq', hr, -⟩ := bind_ok_inv hr
    simp only [Trace.pure] at hr
    cases hr
    unfold formatStep at hq'
    split at hq' <;>
    · obtain ⟨r, -, hr2, -⟩ := bind_ok_inv hq'
      cases hr2
      rfl

theorem offset_write_says (s : Settings) (l off : Nat) {t x : Str} (h : Says {} t x) :
    ∃ u, reader.write s.readMode.2 l t (some off) = .dbg l u ∧ visible u = offsetText s off ++ x ++ ['\n'] := by
  refine ⟨_, rfl, ?_⟩
  have hpre := offsetPrefix_says s.readMode.2 off 35 (by decide)
  rw [readMode_offsetText] at hpre
  exact ((hpre.append h).append (Says.text {} (t := ['\n']) (by decide))).visible

theorem readLoop_told (s : Settings) (src : Source) (fuel : Nat) (term wide : Nat → Int) (cs : List Bytes) (hcs : ∀ c ∈ cs, c ≠ []) :
    ∀ off lines chunks pos st st', st.pb.raw = [] →
      (readLoop s.readMode.2 src none none (processChunk fuel (Config.create s) term wide) (cs.map .data) off lines chunks pos st).res = .ok st' →
      Told (readLoop s.readMode.2 src none none (processChunk fuel (Config.create s) term wide) (cs.map .data) off lines chunks pos st).evs
        (inputReports s chunks off cs) := by
  induction cs with
  | nil =>
    intro off lines chunks pos st st' hst hr
    simp only [List.map_nil, readLoop, Trace.log, inputReports]
    simp only [List.map_nil, readLoop, Trace.log] at hr
    refine Told.append (a := [_]) (Told.one ?_) (processChunk_told fuel term wide hst [] off true hr)
    obtain ⟨u, h1, h2⟩ := offset_write_says s 1 off (Says.plain {} (t := "Encountered EOF".toList) (by decide))
    exact ⟨u, h1, reports_self h2⟩
  | cons c cs ih =>
    intro off lines chunks pos st st' hst hr
    have hc := hcs c (by simp)
    rw [List.map_cons, readLoop, if_neg hc] at hr ⊢
    have hev : ∃ u, chunkEvent s.readMode.2 c off chunks = .dbg 1 u ∧
        Reports (visible u) (offsetText s off ++ "Read chunk #".toList ++ Nat.toDigits 10 chunks ++ [':', ' '] ++ bytesReport s c) := by
      obtain ⟨u, h1, h2⟩ := offset_write_says s 1 off ((((Says.plain {} (t := "Read chunk #".toList) (by decide)).append (Says.plain _ (dec_plain chunks))).append
        (Says.plain {} (t := [':', ' ']) (by decide))).append (printd_report s.readMode.2 c))
      refine ⟨u, h1, reports_self ?_⟩
      rw [h2, report_readMode]
      simp [dec]
    cases hw : position src (pos + c.length) with
    | error e => rw [hw] at hr; cases hr
    | ok w =>
      rw [hw] at hr
      simp only [Reader.limitLines, Reader.bytesExceeded, Reader.limitReached, Bool.or_self, Bool.false_eq_true, if_false] at hr ⊢
      simp only [Trace.log] at hr ⊢
      obtain ⟨st2, hres, hr, e⟩ := bind_ok_inv hr
      rw [e]
      refine Told.append (a := [_]) (Told.one hev) (Told.mono ?_ (List.sublist_append_right _ _))
      have h2 := (processChunk_told fuel term wide hst c off false hres).append
        (ih (fun c hc => hcs c (by simp [hc])) _ _ _ _ _ _ (processChunk_emptied fuel term wide c off false hres) hr)
      exact h2

end Debug

end Kolombos
