import Verif.Lemmas.DebugPieces
import Verif.Spec.DebugCounts
/-
The numbers in debug messages add up.
-/
set_option linter.unusedSimpArgs false

namespace Kolombos
open Spec

theorem CountsAdd.settings {s s' : Settings} (h : ∀ n, offsetText s n = offsetText s' n) {w t o : Nat} {l : List Str} (hc : CountsAdd s w t o l) :
    CountsAdd s' w t o l := by
  induction hc with
  | nil w o => exact .nil w o
  | parsed n rest hr _ ih => exact .parsed n rest hr ih
  | queue rest _ ih => exact .queue rest ih
  | taken n _ ih => exact .taken n ih
  | row bytes rest hr _ ih => rw [h]; exact .row bytes rest hr ih
  | other t ht _ ih => exact .other t ht ih

/-! ### Lines without these numbers -/

theorem offsetText_length (s : Settings) (n : Nat) : (offsetText s n).length = 9 := by
  unfold offsetText alignRight
  simp only [List.length_append, List.length_replicate, List.length_take, List.length_cons, List.length_nil]
  omega

theorem offsetText_noP (s : Settings) (n : Nat) : 'p' ∉ offsetText s n ∧ 'h' ∉ offsetText s n := by
  have key : ∀ x : Char, x.isDigit = false → x ≠ ' ' → x ≠ '│' → x ≠ 'x' → (∀ d : Fin 16, hexDigit d.1 ≠ x) → x ∉ offsetText s n := by
    intro x hx h1 h2 h3 h4 hm
    unfold offsetText alignRight at hm
    simp only [List.mem_append, List.mem_singleton] at hm
    rcases hm with (hm | hm) | hm
    · exact h1 (List.mem_replicate.1 hm).2
    · have hm := List.mem_of_mem_take hm
      have hfig : offsetFigures s n = Console.offsetLabel s n := rfl
      rw [hfig] at hm
      unfold Console.offsetLabel at hm
      split at hm
      · have := dec_digit hm
        rw [hx] at this; cases this
      · rcases List.mem_cons.1 hm with rfl | hm
        · revert hx; decide
        · rcases List.mem_cons.1 hm with hm | hm
          · exact h3 hm
          · obtain ⟨d, hd, e⟩ := hexPad_digits _ _ _ hm
            exact h4 ⟨d, hd⟩ e.symm
    · exact h2 hm
  exact ⟨key _ (by decide) (by decide) (by decide) (by decide) (by decide), key _ (by decide) (by decide) (by decide) (by decide) (by decide)⟩

theorem noCount_offset (s : Settings) (n : Nat) (x : Str) : NoCount (offsetText s n ++ x) := by
  have hpre : ∀ (m : Str), 9 ≤ m.length → m <+: offsetText s n ++ x → m.take 9 = offsetText s n := by
    rintro m hm ⟨y, e⟩
    have := congrArg (List.take 9) e
    rw [List.take_append_of_le_length hm, List.take_append_of_le_length (by rw [offsetText_length]; exact Nat.le_refl _)] at this
    rw [this, List.take_of_length_le (by rw [offsetText_length]; exact Nat.le_refl _)]
  have hp := offsetText_noP s n
  refine ⟨fun h => ?_, fun h => ?_, fun h => ?_⟩
  · have := hpre _ (by decide) h
    rw [← this] at hp
    exact hp.1 (by decide)
  · have := hpre _ (by decide) h
    rw [← this] at hp
    exact hp.2 (by decide)
  · have := hpre _ (by decide) h
    rw [← this] at hp
    exact hp.2 (by decide)

/-- A line that begins differently. -/
theorem noCount_start {p x : Str} (h1 : ¬ parsedMark <+: p) (h2 : ¬ queueMark <+: p) (h3 : ¬ takenMark <+: p)
    (h4 : ¬ p <+: parsedMark) (h5 : ¬ p <+: queueMark) (h6 : ¬ p <+: takenMark) : NoCount (p ++ x) := by
  have : ∀ m : Str, ¬ m <+: p → ¬ p <+: m → ¬ m <+: p ++ x := by
    intro m ha hb hm
    rcases List.prefix_or_prefix_of_prefix hm (List.prefix_append p x) with h | h
    · exact ha h
    · exact hb h
  exact ⟨this _ h1 h4, this _ h2 h5, this _ h3 h6⟩

namespace Debug

/-- A message without these numbers. -/
def OtherEv (e : Ev) : Prop := ∃ l u, e = .dbg l u ∧ NoCount (visible u)

theorem offset_other {d : Buffer} (hc : ∃ color ∈ [32, 33, 35, 36, 90], Sgr.add d.color [40] = [color, 40]) (s : Settings) (l off : Nat) {t : Str} (h : FineIn {} t) :
    OtherEv (d.write s l t (some off)) := by
  refine ⟨_, _, rfl, ?_⟩
  obtain ⟨color, hc, e⟩ := hc
  obtain ⟨x, hx⟩ := h.says
  have := (((offsetPrefix_says s off color hc).append hx).append (Says.text {} (t := ['\n']) (by decide))).visible
  unfold Buffer.prefix
  simp only [e]
  rw [this, List.append_assoc]
  exact noCount_offset s off _

theorem reader_offset (s : Settings) (l off : Nat) {t : Str} (h : FineIn {} t) : OtherEv (reader.write s l t (some off)) :=
  offset_other ⟨35, by decide, by decide⟩ s l off h

theorem parser_offset (s : Settings) (l off : Nat) {t : Str} (h : FineIn {} t) : OtherEv (parser.write s l t (some off)) :=
  offset_other ⟨36, by decide, by decide⟩ s l off h

theorem binfmt_offset (s : Settings) (l off : Nat) {t : Str} (h : FineIn {} t) : OtherEv (binfmt.write s l t (some off)) :=
  offset_other ⟨33, by decide, by decide⟩ s l off h

theorem key_other (d : Buffer) {k : Str} (hk : d.key = some k) (hp : k ∈ ["reader".toList, "parsbuf".toList, "binfmt".toList]) (s : Settings) (l : Nat)
    {t : Str} (h : FineIn {} t) : OtherEv (d.write s l t) := by
  obtain ⟨x, hx⟩ := h.says
  have hk' : PlainStr k ∧ 'x' ∉ k ∧ k.length ≤ 8 ∧ ¬ parsedMark <+: alignRight 8 k ++ ['│'] ∧ ¬ queueMark <+: alignRight 8 k ++ ['│'] ∧
      ¬ takenMark <+: alignRight 8 k ++ ['│'] ∧ ¬ alignRight 8 k ++ ['│'] <+: parsedMark ∧ ¬ alignRight 8 k ++ ['│'] <+: queueMark ∧
      ¬ alignRight 8 k ++ ['│'] <+: takenMark := by
    have : ∀ k ∈ ["reader".toList, "parsbuf".toList, "binfmt".toList], PlainStr k ∧ 'x' ∉ k ∧ k.length ≤ 8 ∧ ¬ parsedMark <+: alignRight 8 k ++ ['│'] ∧ ¬ queueMark <+: alignRight 8 k ++ ['│'] ∧
      ¬ takenMark <+: alignRight 8 k ++ ['│'] ∧ ¬ alignRight 8 k ++ ['│'] <+: parsedMark ∧ ¬ alignRight 8 k ++ ['│'] <+: queueMark ∧
      ¬ alignRight 8 k ++ ['│'] <+: takenMark := by decide +kernel
    exact this k hp
  obtain ⟨h1, h2, h3, h4, h5, h6, h7, h8, h9⟩ := hk'
  obtain ⟨u, e1, e2⟩ := key_write_says d s l hk h1 h2 h3 hx
  refine ⟨l, u, e1, ?_⟩
  rw [e2]
  have := noCount_start (x := x ++ ['\n']) h4 h5 h6 h7 h8 h9
  simpa using this

theorem reader_other (s : Settings) (l : Nat) {t : Str} (h : FineIn {} t) : OtherEv (reader.write s l t) := key_other reader rfl (by simp) s l h
theorem parsbuf_other (s : Settings) (l : Nat) {t : Str} (h : FineIn {} t) : OtherEv (parsbuf.write s l t) := key_other parsbuf rfl (by simp) s l h
theorem binfmt_other (s : Settings) (l : Nat) {t : Str} (h : FineIn {} t) : OtherEv (binfmt.write s l t) := key_other binfmt rfl (by simp) s l h

theorem chainbuf_says (s : Settings) (l : Nat) {t x : Str} (h : Says {} t x) :
    ∃ u, chainbuf.write s l t = .dbg l u ∧ visible u = "chainbuf│".toList ++ x ++ ['\n'] := by
  obtain ⟨u, e1, e2⟩ := key_write_says chainbuf s l (k := "chainbuf".toList) rfl (by decide) (by decide) (by decide) h
  exact ⟨u, e1, e2⟩

theorem respond_other (s : Settings) (l : Nat) {t : Str} (h : PlainStr t) : OtherEv (chainbuf.write s l ("Responsing with ".toList ++ t)) := by
  obtain ⟨u, e1, e2⟩ := chainbuf_says s l ((Says.plain {} (t := "Responsing with ".toList) (by decide)).append (Says.plain {} h))
  refine ⟨l, u, e1, ?_⟩
  rw [e2]
  have := noCount_start (p := "chainbuf│Responsing with ".toList) (x := t ++ ['\n']) (by decide) (by decide) (by decide) (by decide) (by decide) (by decide)
  simpa using this

theorem dashes_says (s : Settings) (w : Int) {cross : Char} (hc : PlainStr [cross]) : ∃ x, Says {} (separatorLine s w cross) (List.replicate 8 '─' ++ x) := by
  unfold separatorLine formatSeparator
  simp only
  have h : ∀ a : Style, a = applySgr [90] {} ∨ a = applySgr [36] {} → Says a
      (span [40] (List.replicate 8 '─') ++ [cross] ++ pyRepeat ['─'] (w - (stripSgr (span [40] (List.replicate 8 '─') ++ [cross])).length))
      (List.replicate 8 '─' ++ ([cross] ++ pyRepeat ['─'] (w - (stripSgr (span [40] (List.replicate 8 '─') ++ [cross])).length))) := by
    intro a ha
    rw [← List.append_assoc]
    refine ((Says.span (Says.plain _ (by decide)) ?_).append (Says.plain _ hc)).append (Says.plain _ (pyRepeat_plain (by decide) _))
    rcases ha with rfl | rfl <;> decide
  split
  · exact ⟨_, Says.span (h _ (.inl rfl)) (by decide)⟩
  · exact ⟨_, Says.span (h _ (.inr rfl)) (by decide)⟩

theorem dashes_other (s s' : Settings) (l : Nat) (w : Int) {cross : Char} (hc : PlainStr [cross]) : OtherEv (runner.write s l (separatorLine s' w cross)) := by
  obtain ⟨x, hx⟩ := dashes_says s' w hc
  refine ⟨_, _, rfl, ?_⟩
  have := (hx.append (Says.text {} (t := ['\n']) (by decide))).visible
  show NoCount (visible ([] ++ _ ++ _))
  rw [List.nil_append, this, List.append_assoc]
  exact noCount_start (by decide) (by decide) (by decide) (by decide) (by decide) (by decide)

/-- What is said about some bytes. -/
theorem printd_len (s : Settings) (v : Bytes) : ∃ rest, Says {} (printd s v) ("len ".toList ++ Nat.toDigits 10 v.length ++ rest) ∧ (rest = [] ∨ [' '] <+: rest) := by
  by_cases hv : v = []
  · subst hv
    unfold printd
    have h0 : Says {} ("len ".toList ++ bold (dec ([] : Bytes).length)) ("len ".toList ++ Nat.toDigits 10 ([] : Bytes).length) :=
      (Says.plain {} (by decide)).append (Says.span (Says.plain _ (by decide)) (by decide))
    simp only
    split
    · exact ⟨[], by rw [List.append_nil]; exact h0, .inl rfl⟩
    · rw [if_pos (by rfl)]
      refine ⟨[' ', '[', ']'], ?_, .inr ⟨_, rfl⟩⟩
      have h1 := (h0.append (Says.plain {} (t := [' ']) (by decide))).append (Says.span (o := [90]) (Says.plain _ (t := ['[', ']']) (by decide)) (by decide))
      have e : span [90] ['[', ']'] = Sgr.assemble [90] ++ ['[', ']'] ++ Sgr.assemble [39] := by decide
      rw [e] at h1
      simpa [List.append_assoc] using h1
  · have := printd_report s v
    unfold bytesReport at this
    refine ⟨_, this, ?_⟩
    split
    · exact .inl rfl
    · exact .inr ⟨_, rfl⟩

theorem queueMark_eq : queueMark = "chainbuf│".toList ++ ("Buffer state: ".toList ++ "len ".toList) := by decide +kernel

theorem takenMark_eq : takenMark = "chainbuf│".toList ++ "Detached ".toList := by decide +kernel

theorem takenEnd_eq : " data byte(s)\n".toList = " data byte(s)".toList ++ ['\n'] := by decide +kernel

theorem parsedMark_eq : parsedMark = alignRight 8 "parser".toList ++ '│' :: ("Parsing segment: ".toList ++ "len ".toList) := by decide +kernel

theorem preview_parts (s : Settings) (b : SegmentBuffer) :
    ∃ k r, preview s b = "len ".toList ++ bold (dec b.dataLen) ++ span [3] ('+' :: dec k) ++ r ∧ FineIn {} r := by
  unfold preview
  simp only
  rw [List.append_assoc]
  refine ⟨_, _, rfl, FineIn.append ?_ ?_⟩
  · split
    · refine (FineIn.text _ (by decide)).append (FineIn.span ?_ (by decide))
      refine ((((FineIn.text _ (by decide)).append (FineIn.join (FineIn.text _ (by decide)) ?_))).append (FineIn.text _ ?_)).append (FineIn.text _ (by decide))
      · intro t ht
        obtain ⟨c, -, ht⟩ := List.mem_flatMap.1 ht
        exact previewElement_fine c t ht
      · split <;> decide
    · exact FineIn.nil _
  · split
    · refine (FineIn.text _ (by decide)).append (FineIn.span (FineIn.text _ ?_) (by decide))
      refine (PlainStr.append (by decide) (PlainStr.join (by decide) ?_)).append (by decide)
      intro t ht
      obtain ⟨q, -, rfl⟩ := List.mem_map.1 ht
      exact previewSgr_plain q
    · exact FineIn.nil _

/-- What is said about the queue. -/
theorem bufferState_says (s : Settings) (b : SegmentBuffer) : ∃ u rest : Str, bufferState s b = .dbg 2 u ∧ visible u = queueMark ++ Nat.toDigits 10 b.dataLen ++ ['+'] ++ rest := by
  obtain ⟨x, hx⟩ : ∃ x, Says {} (preview s b) ("len ".toList ++ Nat.toDigits 10 b.dataLen ++ '+' :: x) := by
    obtain ⟨k, r, e, hr⟩ := preview_parts s b
    obtain ⟨x, hx⟩ := hr.says
    rw [e]
    have hp : PlainStr ('+' :: dec k) := by
      intro c hc
      rcases List.mem_cons.1 hc with rfl | hc
      · decide
      · exact dec_plain _ c hc
    refine ⟨dec k ++ x, ((((Says.plain {} (t := "len ".toList) (by decide)).append (Says.span (Says.plain _ (dec_plain _)) (by decide))).append
      (Says.span (Says.plain _ hp) (by decide))).append hx).cast ?_⟩
    simp [dec]
  obtain ⟨u, e1, e2⟩ := chainbuf_says s 2 ((Says.plain {} (t := "Buffer state: ".toList) (by decide)).append hx)
  refine ⟨u, x ++ ['\n'], (by unfold bufferState; exact e1), ?_⟩
  rw [e2, queueMark_eq]
  simp only [List.append_assoc, List.cons_append, List.nil_append]

/-! ### Steps -/

/-- The lines printed for some events. -/
def textsOf (debug : Nat) (evs : List Ev) : List Str := (printedTexts debug evs).map visible

theorem textsOf_append (debug : Nat) (a b : List Ev) : textsOf debug (a ++ b) = textsOf debug a ++ textsOf debug b := by
  unfold textsOf printedTexts
  rw [List.filterMap_append, List.map_append]

theorem textsOf_dbg {debug l : Nat} (h : l ≤ debug) (u : Str) : textsOf debug [.dbg l u] = [visible u] := by
  unfold textsOf printedTexts
  simp [Nat.not_lt.2 h]

theorem textsOf_out (debug : Nat) (u : Str) : textsOf debug [.out u] = [visible u] := rfl

/-- Some events lead from numbers to numbers. -/
def Moves (s : Settings) (debug : Nat) (evs : List Ev) (a b : Nat × Nat × Nat) : Prop :=
  ∀ r, CountsAdd s b.1 b.2.1 b.2.2 r → CountsAdd s a.1 a.2.1 a.2.2 (textsOf debug evs ++ r)

namespace Moves

variable {s : Settings} {d : Nat}

theorem nil (a : Nat × Nat × Nat) : Moves s d [] a a := fun _ h => h

theorem append {x y : List Ev} {a b c : Nat × Nat × Nat} (h : Moves s d x a b) (h' : Moves s d y b c) : Moves s d (x ++ y) a c := by
  intro r hr
  rw [textsOf_append, List.append_assoc]
  exact h _ (h' _ hr)

theorem other {x : List Ev} (h : ∀ e ∈ x, OtherEv e) (a : Nat × Nat × Nat) : Moves s d x a a := by
  induction x with
  | nil => exact nil a
  | cons e x ih =>
    refine append (x := [e]) (y := x) ?_ (ih fun e he => h e (by simp [he]))
    obtain ⟨l, u, rfl, hu⟩ := h e (by simp)
    intro r hr
    by_cases hl : l ≤ d
    · rw [textsOf_dbg hl]
      exact .other _ hu hr
    · have : textsOf d [.dbg l u] = [] := by unfold textsOf printedTexts; simp [Nat.not_le.1 hl]
      rw [this]
      exact hr

theorem queue (hd : 2 ≤ d) (s' : Settings) (b : SegmentBuffer) {w t o : Nat} (hw : b.dataLen = w) : Moves s d [bufferState s' b] (w, t, o) (w, t, o) := by
  obtain ⟨u, rest, e1, e2⟩ := bufferState_says s' b
  intro r hr
  rw [e1, textsOf_dbg hd, e2, hw]
  exact .queue rest hr

theorem taken (hd : 2 ≤ d) (s' : Settings) (w n o : Nat) :
    Moves s d [chainbuf.write s' 2 ("Detached ".toList ++ bold (dec n) ++ " data byte(s)".toList)] (w + n, 0, o) (w, n, o) := by
  have hb : Says {} (bold (dec n)) (dec n) := Says.span (Says.plain _ (dec_plain n)) (by decide)
  obtain ⟨u, e1, e2⟩ := chainbuf_says s' 2 (((Says.plain {} (t := "Detached ".toList) (by decide)).append hb).append
    (Says.plain {} (t := " data byte(s)".toList) (by decide)))
  intro r hr
  rw [e1, textsOf_dbg hd, e2]
  have := CountsAdd.taken n hr
  rw [takenMark_eq, takenEnd_eq] at this
  simp only [List.append_assoc, List.cons_append, List.nil_append] at this ⊢
  exact this

theorem parsed (hd : 2 ≤ d) (s' : Settings) (v : Bytes) (w o : Nat) :
    Moves s d [parser.write s' 1 ("Parsing segment: ".toList ++ printd s' v)] (w, 0, o) (w + v.length, 0, o) := by
  obtain ⟨rest, h1, h2⟩ := printd_len s' v
  obtain ⟨u, e1, e2⟩ := key_write_says parser s' 1 (k := "parser".toList) rfl (by decide) (by decide) (by decide)
    ((Says.plain {} (t := "Parsing segment: ".toList) (by decide)).append h1)
  intro r hr
  rw [e1, textsOf_dbg (by omega), e2]
  have := CountsAdd.parsed v.length (rest ++ ['\n']) (by
    rcases h2 with rfl | ⟨x, rfl⟩
    · exact .inl rfl
    · exact .inr ⟨x ++ ['\n'], by simp⟩) hr
  rw [parsedMark_eq] at this
  simp only [List.append_assoc, List.cons_append, List.nil_append] at this ⊢
  exact this

end Moves

/-- The numbers at the end of a computation. -/
def Counted {α : Type} (s : Settings) (d : Nat) (t : Trace α) (a : Nat × Nat × Nat) (Q : α → Nat × Nat × Nat → Prop) : Prop :=
  (∀ x, t.res = .ok x → ∃ b, Q x b ∧ Moves s d t.evs a b) ∧ ∃ w o, Moves s d t.evs a (w, 0, o)

namespace Counted

variable {α β : Type} {s : Settings} {d : Nat}

theorem log {es : List Ev} {t : Trace α} {a b : Nat × Nat × Nat} {Q : α → Nat × Nat × Nat → Prop} (h : Moves s d es a b) (ht : Counted s d t b Q) :
    Counted s d (.log es t) a Q := by
  refine ⟨fun x hx => ?_, ?_⟩
  · obtain ⟨c, h1, h2⟩ := ht.1 x hx
    exact ⟨c, h1, h.append h2⟩
  · obtain ⟨w, o, h2⟩ := ht.2
    exact ⟨w, o, h.append h2⟩

theorem pure {x : α} {w o : Nat} {Q : α → Nat × Nat × Nat → Prop} (h : Q x (w, 0, o)) : Counted s d (.pure x) (w, 0, o) Q :=
  ⟨fun y hy => by cases hy; exact ⟨_, h, .nil _⟩, w, o, .nil _⟩

theorem empty {t : Trace α} (ht : t.evs = []) (hr : ∀ x, t.res ≠ .ok x) (w o : Nat) {Q : α → Nat × Nat × Nat → Prop} : Counted s d t (w, 0, o) Q :=
  ⟨fun y hy => absurd hy (hr y), w, o, by rw [ht]; exact .nil _⟩

theorem bind {t : Trace α} {f : α → Trace β} {a : Nat × Nat × Nat} {Q : α → Nat × Nat × Nat → Prop} {R : β → Nat × Nat × Nat → Prop}
    (h : Counted s d t a Q) (hf : ∀ x b, t.res = .ok x → Q x b → Counted s d (f x) b R) : Counted s d (t.bind f) a R := by
  unfold Trace.bind
  cases hr : t.res with
  | ok x =>
    obtain ⟨b, h1, h2⟩ := h.1 x hr
    exact log h2 (hf x b hr h1)
  | err e => exact ⟨fun y hy => (by cases hy), h.2⟩
  | timeout => exact ⟨fun y hy => (by cases hy), h.2⟩

theorem others {t : Trace α} (h : AllEvs OtherEv t) (w o : Nat) : Counted s d t (w, 0, o) fun _ b => b = (w, 0, o) :=
  ⟨fun _ _ => ⟨_, rfl, .other h _⟩, w, o, .other h _⟩

theorem mono {t : Trace α} {a : Nat × Nat × Nat} {Q R : α → Nat × Nat × Nat → Prop} (h : Counted s d t a Q) (hq : ∀ x b, t.res = .ok x → Q x b → R x b) :
    Counted s d t a R :=
  ⟨fun x hx => by obtain ⟨b, h1, h2⟩ := h.1 x hx; exact ⟨b, hq x b hx h1, h2⟩, h.2⟩

end Counted

/-! ### The binary formatter -/

theorem detachBytes_trace {s : Settings} {b b' : SegmentBuffer} {req : Int} {f : Bool} {out : List Chainable}
    (h : b.detachBytes req f = .ok (.ok out, b')) (hc : b.chain ≠ []) :
    detachBytes s b req f = ⟨[bufferState s b, chainbuf.write s 2 ("Detached ".toList ++ bold (dec b'.lastLen) ++ " data byte(s)".toList), bufferState s b'],
      .ok (.ok out, b')⟩ := by
  unfold SegmentBuffer.detachBytes at h
  unfold detachBytes
  by_cases hq : (b.dataLen : Int) ≥ req ∨ f = true
  · rw [if_pos hq] at h ⊢
    cases hd : b.detach req with
    | error e => rw [hd] at h; simp at h
    | ok r =>
      obtain ⟨o, b2⟩ := r
      rw [hd] at h
      simp only at h
      have hl : ¬ b.chain.length = 0 := by simp [hc]
      unfold detach
      simp only [hd, Trace.log, Trace.bind, Trace.pure, if_neg hl]
      by_cases ho : o.length = 0
      · rw [if_pos ho] at h; cases h
      · rw [if_neg ho] at h; cases h
        rw [if_neg ho]
        rfl
  · rw [if_neg hq] at h; cases h

theorem row_moves {s s0 : Settings} {d : Nat} (hs : ∀ n, offsetText s n = offsetText s0 n) (hd1 : 1 ≤ s.debug) (hd : 2 ≤ d) (c off : Nat) {out : List Chainable}
    {os : List Segment} (h : OutRel out os) (hf : ∀ g ∈ os, Fit g) (hne : os ≠ []) (w : Nat) :
    Moves s0 d (BinaryFormatter.rowEvents s c off (total os) out ++ [.out (Kolombos.BinaryFormatter.row s c off (total os) out)])
      (w, total os, off) (w, 0, off + total os) := by
  obtain ⟨x, u, fill, bytes, chars, h1, h2, h3, h4, h5, h6⟩ := row_dump hd1 c off h hf hne
  have hx : OtherEv (.dbg 3 x) := by
    have := binfmt_offset s 3 off (FineIn.text _ (formatEncoded_plain segRawToSafe_plain out))
    unfold BinaryFormatter.rowEvents at h1
    simp only [List.cons.injEq] at h1
    rwa [h1.1] at this
  rw [h1]
  refine (Moves.other (x := [.dbg 3 x]) (by simpa using hx) _).append (Moves.append (x := [.dbg 1 u]) (y := [.out _]) (b := (w, 0, off + total os)) ?_ ?_)
  · intro r hr
    rw [textsOf_dbg (by omega), h6, ← h2]
    rw [← h2] at hr
    unfold dumpLine
    have := CountsAdd.row (s := s0) (off := off) bytes (List.replicate fill ' ' ++ [' ', '│'] ++ bytes.map plainChar ++ ['\n']) (by
      right
      match fill with
      | 0 => exact .inr ⟨_, rfl⟩
      | 1 => exact .inl ⟨_, rfl⟩
      | n + 2 => exact .inl ⟨List.replicate n ' ' ++ [' ', '│'] ++ bytes.map plainChar ++ ['\n'], by simp [List.replicate_succ]⟩) hr
    rw [hs]
    unfold hexRow at this
    simp only [List.append_assoc, List.cons_append, List.nil_append] at this ⊢
    exact this
  · intro r hr
    rw [textsOf_out, h5]
    unfold dumpLine
    refine .other _ ?_ hr
    simp only [List.append_assoc]
    exact noCount_offset s off _

theorem binLoop_counted {s s0 : Settings} {d : Nat} (hs : ∀ n, offsetText s n = offsetText s0 n) (hd1 : 1 ≤ s.debug) (hd : 2 ≤ d) (c : Nat) (closed : Bool) (fuel : Nat) :
    ∀ (r : Nat) (b : SegmentBuffer) (o : Bool) (gs : List Segment) (off : Nat), (0 < r ∨ closed = true ∧ gs = []) → Rep b o gs → (∀ g ∈ gs, Fit g) →
      Counted s0 d (BinaryFormatter.loop s c r closed fuel b off) (b.dataLen, 0, off) fun q n => n = (q.1.dataLen, 0, q.2) := by
  induction fuel with
  | zero => intro r b o gs off _ _ _; exact .empty rfl (by intro x h; cases h) _ _
  | succ fuel ih =>
    intro r b o gs off hr h hf
    rw [BinaryFormatter.loop]
    refine .log (.other (by
      simp only [List.mem_cons, List.not_mem_nil, or_false, forall_eq]
      exact binfmt_other s 1 (((FineIn.text _ (by decide)).append (bold_fine (intStr_plain _))).append (FineIn.text _ (by decide)))) _) ?_
    by_cases he : gs = []
    · subst he
      have hlen : b.dataLen = 0 := h.dataLen
      cases closed with
      | true =>
        have hc : b.chain = [] := by rw [h.chain]; cases o <;> rfl
        have : detachBytes s b r true = ⟨[bufferState s b, chainbuf.write s 1 "Responsing with EOF".toList, bufferState s b], .ok (.eof, b)⟩ := by
          simp [detachBytes, detach, SegmentBuffer.detach, hc, Trace.log, Trace.bind, Trace.pure]
        rw [this]
        refine .log (t := .pure (b, off)) ?_ (.pure rfl)
        exact (Moves.queue hd s b rfl).append ((Moves.other (x := [_]) (by
          simp only [List.mem_cons, List.not_mem_nil, or_false, forall_eq]
          exact respond_other s 1 (t := "EOF".toList) (by decide)) _).append (Moves.queue hd s b rfl))
      | false =>
        have : 0 < r := by rcases hr with hr | ⟨hr, -⟩; exact hr; cases hr
        have : detachBytes s b r false = ⟨[chainbuf.write s 1 "Responsing with WaitRequest".toList, bufferState s b], .ok (.wait, b)⟩ := by
          unfold detachBytes
          rw [if_neg (by simp; omega)]
          rfl
        rw [this]
        refine .log (t := .pure (b, off)) ?_ (.pure rfl)
        exact ((Moves.other (x := [_]) (by
          simp only [List.mem_cons, List.not_mem_nil, or_false, forall_eq]
          exact respond_other s 1 (t := "WaitRequest".toList) (by decide)) _).append (Moves.queue hd s b rfl))
    · have hr' : 0 < r := by
        rcases hr with hr | ⟨-, hr⟩
        · exact hr
        · exact absurd hr he
      by_cases hw : r ≤ total gs ∨ closed = true
      · obtain ⟨out, b', os, rs, o', e1, e2, e3, e4, e5, e6, e7, e8⟩ := detachBytes_row h hf hr' he hw
        have hos : os ≠ [] := by
          rintro rfl
          have h0 := congrArg List.length e7
          rw [List.length_take, queueCells_length hf] at h0
          have : 0 < total gs := by
            obtain ⟨g, gs', rfl⟩ := List.exists_cons_of_ne_nil he
            rw [total_cons]
            have := List.length_pos_iff.2 (hf g (by simp)).ne
            unfold Segment.dataLen; omega
          simp [queueCells] at h0
          omega
        have hch : b.chain ≠ [] := by
          intro hc
          have h0 : b.dataLen = 0 := by simp [SegmentBuffer.dataLen, hc]
          have h1 : b.dataLen = total gs := h.dataLen
          obtain ⟨g, gs', rfl⟩ := List.exists_cons_of_ne_nil he
          rw [total_cons] at h1
          have := List.length_pos_iff.2 (hf g (by simp)).ne
          unfold Segment.dataLen at h1; omega
        rw [detachBytes_trace e1 hch]
        have hlen : b.dataLen = b'.dataLen + b'.lastLen := by
          have h1 : b.dataLen = total gs := h.dataLen
          have h2 : b'.dataLen = total rs := e2.dataLen
          have h3 := congrArg List.length e7
          have h4 := congrArg List.length e8
          rw [List.length_take, queueCells_length hf, queueCells_length e4] at h3
          rw [List.length_drop, queueCells_length hf, queueCells_length e3] at h4
          omega
        simp only [Trace.bind]
        show Counted s0 d (.log ([_] ++ ([_] ++ [_])) (.log _ _)) _ _
        refine .log ((Moves.queue hd s b rfl).append (Moves.append (b := (b'.dataLen, b'.lastLen, off)) ?_ (Moves.queue hd s b' rfl))) ?_
        · rw [hlen]; exact Moves.taken hd s _ _ _
        refine .log (b := (b'.dataLen, 0, off + b'.lastLen)) ?_ (ih r b' o' rs _ (.inl hr') e2 e3)
        rw [e6]
        exact row_moves hs hd1 hd c off e5 e4 hos _
      · have hcl : closed = false := by cases closed with | false => rfl | true => exact absurd (.inr rfl) hw
        subst hcl
        have hlen : b.dataLen = total gs := h.dataLen
        have : detachBytes s b r false = ⟨[chainbuf.write s 1 "Responsing with WaitRequest".toList, bufferState s b], .ok (.wait, b)⟩ := by
          unfold detachBytes
          rw [if_neg (by simp; omega)]
          rfl
        rw [this]
        refine .log (t := .pure (b, off)) ?_ (.pure rfl)
        exact ((Moves.other (x := [_]) (by
          simp only [List.mem_cons, List.not_mem_nil, or_false, forall_eq]
          exact respond_other s 1 (t := "WaitRequest".toList) (by decide)) _).append (Moves.queue hd s b rfl))

theorem total_other (s : Settings) (n : Nat) : NoCount (visible (Console.formatTotalSize s n ++ ['\n'])) := by
  obtain ⟨k, hk⟩ := total_says s n
  rw [hk]
  exact noCount_offset s k _

theorem binFormat_counted {s s0 : Settings} {d : Nat} (hs : ∀ n, offsetText s n = offsetText s0 n) (hd1 : 1 ≤ s.debug) (hd : 2 ≤ d) {c : Nat} (hc : 0 < c) (closed : Bool)
    {gs : List Segment} {o : Bool} {b : SegmentBuffer} (h : Rep b o gs) (hf : ∀ g ∈ gs, Fit g) (off fuel : Nat) (term : Int)
    (hcols : Kolombos.BinaryFormatter.curCols s term off = c) :
    Counted s0 d (BinaryFormatter.format fuel s term closed b off) (b.dataLen, 0, off) fun q n => n = (q.1.dataLen, 0, q.2) := by
  unfold BinaryFormatter.format
  simp only
  rw [hcols]
  refine .log (.other ?_ _) (.bind (Q := fun q n => n = (q.1.dataLen, 0, q.2)) ?_ fun r n _ hn => ?_)
  · split
    · simp only [List.mem_cons, List.not_mem_nil, or_false, forall_eq]
      exact binfmt_other s 2 ((FineIn.text _ (by decide)).append (bold_fine (intStr_plain _)))
    · simp
  · have hlen : b.dataLen = total gs := h.dataLen
    have : ∃ r : Nat, (if closed then min (b.dataLen : Int) c else c) = r ∧ (0 < r ∨ closed = true ∧ gs = []) := by
      cases closed with
      | false => exact ⟨c, rfl, .inl hc⟩
      | true =>
        refine ⟨min b.dataLen c, by simp only [if_true]; omega, ?_⟩
        cases gs with
        | nil => exact .inr ⟨rfl, rfl⟩
        | cons g gs =>
          left
          have := List.length_pos_iff.2 (hf g (by simp)).ne
          rw [total_cons, Segment.dataLen] at hlen; omega
    obtain ⟨r, e, hr⟩ := this
    rw [e]
    exact binLoop_counted hs hd1 hd c closed fuel r b o gs off hr h hf
  · subst hn
    split
    · refine .log (b := (r.1.dataLen, 0, r.2)) ?_ (.pure rfl)
      intro t ht
      rw [textsOf_out]
      exact .other _ (total_other s _) ht
    · exact .pure rfl

/-! ### Chunks and the input -/

theorem subItems_other (reg : Registry) (s : Settings) (off : Nat) (is : List (Item Byte)) :
    ∀ pos b, AllEvs OtherEv (subItems reg s off is pos b) := by
  induction is with
  | nil => intro pos b; exact .pure _
  | cons i is ih =>
    intro pos b
    cases i with
    | copied x =>
      rw [subItems]
      exact .bind (ih _ _) fun r _ => .pure _
    | matched m =>
      rw [subItems]
      split
      · exact .fail _
      · exact .fail _
      · rename_i segs hp hm
        refine .log ?_ (ih _ _)
        simp only [List.mem_cons, List.not_mem_nil, or_false, forall_eq]
        refine parser_offset s 2 _ ?_
        refine (((FineIn.text _ (by decide)).append (FineIn.text _ (rjust_plain (by decide) (dec_plain _)))).append (FineIn.text _ (by decide))).append
          (FineIn.join (FineIn.text _ (by decide)) ?_)
        intro t ht
        obtain ⟨k, hk, rfl⟩ := List.mem_mapIdx.1 ht
        exact segmentText_fine _ _ (matchSegments_labels hm _ (List.getElem_mem hk))

theorem rawState_other (s : Settings) (pb : ParserBuffer) : OtherEv (rawState s pb) :=
  parsbuf_other s 2 ((FineIn.text _ (by decide)).append (printd_fine s _))

theorem parse_counted (reg : Registry) (s s0 : Settings) {d : Nat} (hd : 2 ≤ d) (off : Nat) (pb : ParserBuffer) (b : SegmentBuffer) (w o : Nat) :
    Counted s0 d (parse reg s off pb b) (w, 0, o) fun _ n => n = (w + pb.raw.length, 0, o) := by
  unfold parse
  refine .log (Moves.parsed hd s pb.raw w o) (.bind (.others (subItems_other _ _ _ _ _ _) _ _) fun r n _ hn => ?_)
  subst hn
  split
  · exact .empty rfl (by intro x h; cases h) _ _
  · split
    · exact .empty rfl (by intro x h; cases h) _ _
    · refine .log (.other (forall_pair (parsbuf_other s 3 (FineIn.text _ ?_)) (rawState_other _ _)) _) (.pure rfl)
      split <;> decide

theorem appendEvents_other (s : Settings) (raw : Bytes) (finish : Bool) (pb : ParserBuffer) : ∀ e ∈ appendEvents s raw finish pb, OtherEv e := by
  unfold appendEvents
  intro e he
  rcases List.mem_append.1 he with he | he
  · exact forall_pair (parsbuf_other s 3 (((FineIn.text _ (by decide)).append (bold_fine (dec_plain _))).append (FineIn.text _ (by decide))))
      (rawState_other _ _) e he
  · split at he
    · rw [List.mem_singleton.1 he]
      exact parsbuf_other s 1 (FineIn.text _ (by decide))
    · cases he

theorem processChunk_counted {s : Settings} (hd : 2 ≤ s.debug) (hm : s.readMode.1 = .binary) {st : State} (h : Held s st) (fuel : Nat) {term : Nat → Int}
    (hp : PosCols s term) (wide : Nat → Int) (raw : Bytes) (off : Nat) (finish : Bool) :
    Counted s s.debug (processChunk fuel (Config.create s) term wide st raw off finish) (st.buf.dataLen, 0, st.offset)
      fun st' n => n = (st'.buf.dataLen, 0, st'.offset) := by
  unfold processChunk
  refine .log (.other (appendEvents_other _ _ _ _) _) (.bind (parse_counted _ _ _ hd _ _ _ _ _) fun r n hr hn => ?_)
  subst hn
  have hres := res_of (parse_erases _ _ _ _ _) hr
  rw [parse_chunk] at hres
  simp only [ParserBuffer.appendRaw, h.parser, List.nil_append] at hres ⊢
  split at hres
  · cases hres
  · cases hres
    obtain ⟨H, hh, hn⟩ := h.1 hm
    obtain ⟨o, gs, h1, h2, rfl⟩ := hh.held
    obtain ⟨c, hc, hcols⟩ := hp.get st.calls st.offset
    have hf : ∀ g ∈ gs ++ chunkSegs s raw, Fit g := by
      intro g hg
      rcases List.mem_append.1 hg with hg | hg
      · exact h2 g hg
      · exact chunkSegs_fit hm raw g hg
    have hrep := h1.attach (chunkSegs s raw)
    have hlen : (st.buf.attach (chunkSegs s raw)).dataLen = st.buf.dataLen + raw.length := by
      have e1 : st.buf.dataLen = total gs := h1.dataLen
      have e2 : (st.buf.attach (chunkSegs s raw)).dataLen = total (gs ++ chunkSegs s raw) := hrep.dataLen
      have e3 : total (chunkSegs s raw) = raw.length := by unfold total; rw [chunkSegs_raw hm]
      rw [e2, total_append, e1, e3]
    rw [← hlen]
    refine .bind (Q := fun st' n => n = (st'.buf.dataLen, 0, st'.offset)) ?_ fun st' n _ hn => ?_
    · unfold formatStep
      rw [config_mode, config_settings, hm]
      refine .bind (binFormat_counted (fun n => readMode_offsetText s n) (by rw [readMode_debug]; omega) hd hc _ hrep hf _ _ _
        (by rw [readMode_curCols]; exact hcols)) fun r n _ hn => ?_
      subst hn
      exact .pure rfl
    · subst hn
      refine .log (.other ?_ _) (.pure rfl)
      simp only [List.mem_cons, List.not_mem_nil, or_false, forall_eq]
      exact dashes_other _ _ _ _ (by split <;> decide)

theorem eof_other (s : Settings) (off : Nat) : OtherEv (eofEvent s off) := reader_offset s 1 off (FineIn.text _ (by decide))

theorem limit_other (s : Settings) {w : Str} (hw : PlainStr w) (mb ml : Option Int) (raw cropped : Bytes) (off : Nat) :
    ∀ e ∈ limitEvents s w mb ml raw cropped off, OtherEv e := by
  unfold limitEvents
  intro e he
  simp only [List.mem_append, List.mem_singleton] at he
  rcases he with (he | he) | he
  · rw [he]; exact reader_offset s 3 off ((FineIn.text _ (by decide)).append (bold_fine hw))
  · split at he
    · exact forall_pair (reader_offset s 2 off ((FineIn.text _ (by decide)).append (bold_fine (intStr_plain _))))
        (reader_offset s 3 off ((FineIn.text _ (by decide)).append (printd_fine _ _))) e he
    · cases he
  · split at he
    · exact forall_pair (reader_offset s 2 off ((FineIn.text _ (by decide)).append (bold_fine (intStr_plain _))))
        (reader_offset s 3 off ((FineIn.text _ (by decide)).append (printd_fine _ _))) e he
    · cases he

theorem chunk_other (s : Settings) (raw : Bytes) (off k : Nat) : OtherEv (chunkEvent s raw off k) :=
  reader_offset s 1 off ((((FineIn.text _ (by decide)).append (FineIn.text _ (dec_plain _))).append (FineIn.text _ (by decide))).append (printd_fine _ _))

theorem readLoop_counted {s : Settings} (s' : Settings) (src : Source) (mb ml : Option Int) {cb : State → Bytes → Nat → Bool → Trace State}
    {I : State → Prop} (h : ∀ st raw o f, I st → Counted s s.debug (cb st raw o f) (st.buf.dataLen, 0, st.offset) fun st' n => n = (st'.buf.dataLen, 0, st'.offset))
    (hI : ∀ st raw o st', I st → (cb st raw o false).res = .ok st' → I st') (io : List IoStep) :
    ∀ off lines chunks pos st, I st → Counted s s.debug (readLoop s' src mb ml cb io off lines chunks pos st) (st.buf.dataLen, 0, st.offset)
      fun st' n => n = (st'.buf.dataLen, 0, st'.offset) := by
  have he : ∀ off n, Moves s s.debug [eofEvent s' off] n n := fun off n =>
    .other (by simp only [List.mem_cons, List.not_mem_nil, or_false, forall_eq]; exact eof_other _ _) _
  induction io with
  | nil => intro off lines chunks pos st hi; exact .log (he _ _) (h _ _ _ _ hi)
  | cons i io ih =>
    intro off lines chunks pos st hi
    cases i with
    | raise e => exact .empty rfl (by intro x h; cases h) _ _
    | data raw =>
      rw [readLoop]
      split
      · exact .log (he _ _) (h _ _ _ _ hi)
      · refine .log (.other (by simp only [List.mem_cons, List.not_mem_nil, or_false, forall_eq]; exact chunk_other _ _ _ _) _) ?_
        split
        · exact .empty rfl (by intro x h; cases h) _ _
        · rename_i w hw
          refine .log (.other (limit_other _ (position_plain hw) _ _ _ _ _) _) ?_
          split
          · exact .log (he _ _) (h _ _ _ _ hi)
          · refine .bind (h _ _ _ _ hi) fun st' n hst hn => ?_
            subst hn
            simp only
            split
            · exact .log (he _ _) (h _ _ _ _ (hI _ _ _ _ hi hst))
            · exact ih _ _ _ _ _ (hI _ _ _ _ hi hst)

theorem openEvents_other (s : Settings) {src : Source} (hs : src.Plain) (size : Int) : ∀ e ∈ openEvents s src size, OtherEv e := by
  refine forall_pair (reader_other s 1 ?_) (reader_other s 2 ((FineIn.text _ (by decide)).append (bold_fine (intStr_plain _))))
  cases src with
  | stdin => exact FineIn.text _ (by decide)
  | file name k => exact (FineIn.text _ (by decide)).append (bold_fine hs)

/-- In binary mode the numbers add up. -/
theorem byteIoRun_counted {s : Settings} (hd : 2 ≤ s.debug) (hm : s.readMode.1 = .binary) (fuel : Nat) {src : Source} (hs : src.Plain) {term : Nat → Int} (hp : PosCols s term)
    (wide : Nat → Int) (opened : Option Err) (io : List IoStep) : CountsAdd s 0 0 0 (textsOf s.debug (byteIoRun fuel s src term wide opened io).evs) := by
  have : ∃ w o, Moves s s.debug (byteIoRun fuel s src term wide opened io).evs (0, 0, 0) (w, 0, o) := by
    unfold byteIoRun
    simp only [Trace.log]
    have h1 : Moves s s.debug (if s.debug ≥ 3 then [] else [runner.write s 1 (separatorLine s (wide 2) '┬')]) (0, 0, 0) (0, 0, 0) := by
      split
      · exact .nil _
      · exact .other (by simp only [List.mem_cons, List.not_mem_nil, or_false, forall_eq]; exact dashes_other _ _ _ _ (by decide)) _
    cases opened with
    | some e => exact ⟨0, 0, h1.append (.nil _)⟩
    | none =>
      have hl := readLoop_counted (s := s) (Config.create s).settings src (Config.create s).settings.maxBytes (Config.create s).settings.maxLines
        (cb := processChunk fuel (Config.create s) term wide) (I := Held s) (fun st raw o f h => processChunk_counted hd hm h _ hp _ _ _ _) (by
          intro st raw o st' h e
          rw [(processChunk_erases _ _ _ _ _ _ _ _).res] at e
          exact processChunk_held h _ (fun _ => hp) _ _ _ e) io 0 0 0 0 {} (.start s)
      obtain ⟨w, o, h2⟩ := hl.2
      refine ⟨w, o, h1.append ?_⟩
      rw [read_evs]
      exact (Moves.other (openEvents_other _ hs _) _).append h2
  obtain ⟨w, o, h⟩ := this
  have := h [] (.nil _ _)
  rwa [List.append_nil] at this

end Debug

end Kolombos
