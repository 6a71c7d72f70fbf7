import Verif.Lemmas.Controls
import Verif.Props.Binary
/-
C13 (text mode), C25 - C28, C50: what text mode prints; the characters printed in
both modes.
-/
set_option linter.unusedSimpArgs false

namespace Kolombos
open Spec

/-! ### C13 -/

theorem ShownLines.each {n : Nat} {out : Str} {s : Settings} {bodies lines : List Str} (h : ShownLines n out s bodies lines)
    (hb : ∀ t ∈ bodies, '\n' ∉ t) : ∀ l ∈ lines, (Term.run {} l).1 = {} ∧ ∃ x, visible l = x ++ ['\n'] ∧ '\n' ∉ x := by
  intro l hl
  obtain ⟨i, hi, rfl⟩ := List.getElem_of_mem hl
  have hi' : i < bodies.length := by rw [← h.length]; exact hi
  obtain ⟨v, h1, h2⟩ := h.shows i hi' hi
  refine ⟨by show (Term.run ⟨.ground, {}⟩ _).1 = _; rw [h1.run], lineLabel s (n + i) ++ bodies[i], by rw [h1.visible, h2], ?_⟩
  intro hm
  rcases List.mem_append.1 hm with hm | hm
  · exact absurd (lineLabel_plain s _ _ hm) (by decide)
  · exact hb _ (List.getElem_mem _) hm

/-- C13, text mode: the output is a sequence of printed lines, each with one line
feed at its end (colour codes removed), and after each of them the terminal has
its default attributes, whatever chunks were read so far. -/
theorem C13_text (s : Settings) (hm : s.readMode.1 = .text) (term : Nat → Int) (es : List ReadEvent)
    (hco : Complete es ∨ Unfinished es) (hr : Readable es) (fuel : Nat) (hf : 4 * (delivered es).length < fuel) :
    ∃ out st, ∃ lines : List Str, session fuel s term es = ⟨out, .ok st⟩ ∧ out = lines.flatten ∧
      ∀ l ∈ lines, (Term.run {} l).1 = {} ∧ ∃ x, visible l = x ++ ['\n'] ∧ '\n' ∉ x := by
  have hg := runPieces_good hr
  rcases hco with hco | hu
  · obtain ⟨out, st, lines, bs, h1, h2, -⟩ := textComplete hm term hco hr hf
    exact ⟨out, st, lines, h1, h2.out_eq, h2.each (textBodies_noNl hm hg)⟩
  · obtain ⟨out, st, lines, h1, h2, -⟩ := textOpen hm term hu hr hf
    refine ⟨out, st, lines, h1, h2.out_eq, h2.each ?_⟩
    intro t ht
    obtain ⟨l, hl, rfl⟩ := List.mem_map.1 ht
    exact glyphsAll_noNl hm ((pieceLines_good hg).1 l hl)

/-! ### C25 -/

theorem textBodies_length (s : Settings) (qs : List (Kind × Bytes)) : (textBodies s qs).length = (linesOfPieces qs).length := by
  unfold textBodies linesOfPieces
  split <;> simp

theorem line_bytes {l : List (Kind × Bytes)} (hg : ∀ q ∈ l, Wf q.1 q.2) (hl : ∃ x q, l = x ++ [q] ∧ (∀ y ∈ x, y.1 ≠ .newline) ∧ q.1 = .newline) :
    ∃ a, bytesOf l = a ++ [0x0a] ∧ (0x0a : Byte) ∉ a := by
  obtain ⟨x, q, rfl, h1, h2⟩ := hl
  refine ⟨bytesOf x, ?_, bytesOf_noLf (fun q hq => hg q (by simp [hq])) h1⟩
  have hw := hg q (by simp)
  obtain ⟨k, p⟩ := q
  simp only at h2 hw
  subst h2
  simp [bytesOf, hw.newline_eq]

theorem filter_noLf {a : Bytes} (h : (0x0a : Byte) ∉ a) : a.filter (· ≠ 0x0a) = a := by
  rw [List.filter_eq_self]
  intro b hb
  simp only [ne_eq, decide_not, Bool.not_eq_eq_eq_not, Bool.not_true, decide_eq_false_iff_not]
  rintro rfl; exact h hb

/-- The bytes of the lines of pieces are the lines of the input. -/
theorem linesOfPieces_bytes {qs : List (Kind × Bytes)} (hw : ∀ q ∈ qs, Wf q.1 q.2) :
    (linesOfPieces qs).map (fun l => (bytesOf l).filter (· ≠ 0x0a)) = byteLines (bytesOf qs) := by
  rw [byteLines_pieces hw]
  obtain ⟨h1, h2, h3⟩ := pieceLines_spec qs
  have hwL : ∀ l ∈ (pieceLines qs).1, ∀ q ∈ l, Wf q.1 q.2 := fun l hl q hq => hw q (by
    rw [h1]; exact List.mem_append.2 (.inl (List.mem_flatten.2 ⟨l, hl, hq⟩)))
  have hwR : ∀ q ∈ (pieceLines qs).2, Wf q.1 q.2 := fun q hq => hw q (by rw [h1]; simp [hq])
  unfold linesOfPieces
  rw [List.map_append]
  congr 1
  · apply List.map_congr_left
    intro l hl
    obtain ⟨a, e, ha⟩ := line_bytes (hwL l hl) (h2 l hl)
    rw [e, List.dropLast_concat, List.filter_append, filter_noLf ha]
    simp
  · split
    · rfl
    · simp only [List.map_cons, List.map_nil]
      rw [filter_noLf (bytesOf_noLf hwR h3)]

/-- C25: in text mode the printed lines are as many as the lines of the input; each
ends with a line feed, and line `i` begins with its number `i`, right-justified in
two characters, and a bar (with `--no-line-numbers` with nothing).  (Debug output
is not modelled.) -/
theorem C25_lines (s : Settings) (hm : s.readMode.1 = .text) (hd : s.debug = 0) (term : Nat → Int) (es : List ReadEvent)
    (hco : Complete es) (hr : Readable es) (fuel : Nat) (hf : 4 * (delivered es).length < fuel) :
    ∃ out st, ∃ lines : List Str, session fuel s term es = ⟨out, .ok st⟩ ∧ visible out = lines.flatMap (fun l => l ++ ['\n']) ∧
      lines.length = (byteLines (delivered es)).length ∧
      ∀ i (h : i < lines.length), '\n' ∉ lines[i] ∧
        (s.noLineNumbers = false → ∃ ds rest, Denotes 10 ds (i + 1) ∧ lines[i] = alignRight 2 ds ++ '│' :: rest) := by
  have hg := runPieces_good hr
  obtain ⟨out, st, lines, bs, h1, h2, -⟩ := textComplete hm term hco hr hf
  obtain ⟨v, h3, h4⟩ := h2.all
  refine ⟨out, st, _, h1, by rw [h3.visible, h4], ?_, ?_⟩
  · rw [List.length_mapIdx, textBodies_length, ← runPieces_bytes, ← linesOfPieces_bytes fun q hq => (hg q hq).1, List.length_map]
  · intro i h
    rw [List.getElem_mapIdx]
    refine ⟨?_, ?_⟩
    · intro hmem
      rcases List.mem_append.1 hmem with hmem | hmem
      · exact absurd (lineLabel_plain s _ _ hmem) (by decide)
      · exact textBodies_noNl hm hg _ (List.getElem_mem _) hmem
    · intro hn
      refine ⟨dec (1 + i), (textBodies s (runPieces es))[i]'(by simpa using h), by rw [Nat.add_comm i 1]; exact denotes_dec _, ?_⟩
      unfold lineLabel
      rw [if_neg (by simp [hd]), if_neg (by simp [hn]), List.append_assoc]
      rfl

/-! ### C26 -/

/-- C26, as far as it is true, and exactly: the printed lines are those of
`textView`: all glyphs of all pieces of each line, except that at the end of an input
without a final line feed the details of a last control character or the closing
separator of a last escape sequence are not printed. -/
theorem C26_view_partial (s : Settings) (hm : s.readMode.1 = .text) (term : Nat → Int) (es : List ReadEvent)
    (hco : Complete es) (hr : Readable es) (fuel : Nat) (hf : 4 * (delivered es).length < fuel) :
    ∃ out st, session fuel s term es = ⟨out, .ok st⟩ ∧ linesOf (visible out) = textView s (chunkPieces (es.map (·.data))) := by
  have hg := runPieces_good hr
  obtain ⟨out, st, lines, bs, h1, h2, -⟩ := textComplete hm term hco hr hf
  refine ⟨out, st, h1, ?_⟩
  rw [h2.lines (textBodies_noNl hm hg)]
  exact (textView_eq s _).symm

theorem mapIdx_of_map {α β γ : Type} (f : Nat → β → γ) (g : α → β) (l : List α) : (l.map g).mapIdx f = l.mapIdx fun i x => f i (g x) := by
  apply List.ext_getElem (by simp)
  intro i h1 h2
  simp

theorem lost_zero {s : Settings} (h : level s = 0) (qs : List (Kind × Bytes)) : lostAt s qs = 0 := by
  unfold lostAt
  cases qs.getLast? with
  | none => rfl
  | some q =>
    obtain ⟨k, p⟩ := q
    unfold textLost enclosed
    cases k <;> simp [h]

theorem fullView_eq {s : Settings} {qs : List (Kind × Bytes)} (h : lostAt s (pieceLines qs).2 = 0) : textView s qs = fullView s qs := by
  unfold textView fullView linesOfPieces
  simp only [h, Nat.sub_zero, List.take_length]
  rw [show (if (pieceLines qs).2 = [] then [] else [glyphsAll s (pieceLines qs).2]) =
      (if (pieceLines qs).2 = [] then [] else [(pieceLines qs).2]).map (glyphsAll s) by split <;> rfl,
    ← List.map_append]
  rw [mapIdx_of_map]

/-- C26 for inputs that end with a line feed (or are empty), or without marker
details (`-m 0`): the characters displayed on line `k` are those of all pieces of
line `k`, and the bytes of these pieces are the bytes of line `k` of the input. -/
theorem C26_complete_partial (s : Settings) (hm : s.readMode.1 = .text) (term : Nat → Int) (es : List ReadEvent)
    (hco : Complete es) (hr : Readable es) (fuel : Nat) (hf : 4 * (delivered es).length < fuel)
    (hend : delivered es = [] ∨ (∃ a, delivered es = a ++ [0x0a]) ∨ s.marker ≤ 0) :
    ∃ out st qs, session fuel s term es = ⟨out, .ok st⟩ ∧ qs = linesOfPieces (chunkPieces (es.map (·.data))) ∧
      (linesOf (visible out)) = qs.mapIdx (fun i l => lineLabel s (i + 1) ++ glyphsAll s l) ∧
      qs.map (fun l => (l.flatMap Prod.snd).filter (· ≠ 0x0a)) = byteLines (delivered es) := by
  have hg := runPieces_good hr
  have hw : ∀ q ∈ runPieces es, Wf q.1 q.2 := fun q hq => (hg q hq).1
  obtain ⟨out, st, h1, h2⟩ := C26_view_partial s hm term es hco hr fuel hf
  refine ⟨out, st, _, h1, rfl, ?_, ?_⟩
  · rw [h2]
    refine fullView_eq ?_
    have hrest : (∀ q ∈ (pieceLines (runPieces es)).2, False) → lostAt s (pieceLines (runPieces es)).2 = 0 := by
      intro h
      rw [List.eq_nil_iff_forall_not_mem.2 h]; rfl
    have hb := runPieces_bytes es
    obtain ⟨p1, p2, p3⟩ := pieceLines_spec (runPieces es)
    have hR : bytesOf (runPieces es) = bytesOf (pieceLines (runPieces es)).1.flatten ++ bytesOf (pieceLines (runPieces es)).2 := by
      conv => lhs; rw [p1]
      simp [bytesOf]
    have hwR : ∀ q ∈ (pieceLines (runPieces es)).2, Wf q.1 q.2 := fun q hq => hw q (by rw [p1]; simp [hq])
    have hne : (pieceLines (runPieces es)).2 ≠ [] → bytesOf (pieceLines (runPieces es)).2 ≠ [] := by
      intro h
      cases hR : (pieceLines (runPieces es)).2 with
      | nil => exact absurd hR h
      | cons q r =>
        rw [hR] at hwR
        have := (hwR q (by simp)).ne_nil
        simp [bytesOf, this]
    have hno := bytesOf_noLf hwR p3
    rcases hend with h | ⟨a, h⟩ | h
    · apply hrest
      intro q hq
      have : (pieceLines (runPieces es)).2 ≠ [] := List.ne_nil_of_mem hq
      rw [h, hR] at hb
      exact hne this (List.append_eq_nil_iff.1 hb).2
    · apply hrest
      intro q hq
      have hn := hne (List.ne_nil_of_mem hq)
      rw [h, hR] at hb
      have hl := congrArg List.getLast? hb
      rw [List.getLast?_append_of_ne_nil _ hn, List.getLast?_concat] at hl
      exact hno (List.mem_of_getLast? hl)
    · exact lost_zero (by unfold level; rw [if_pos h]) _
  · rw [← runPieces_bytes, ← linesOfPieces_bytes hw]
    rfl

/-- C26 is false: with the default settings the line for an input that is the control
character 01 alone lacks the letter `A`. -/
theorem C26_negation : ¬ ∀ (s : Settings) (term : Nat → Int) (es : List ReadEvent) (fuel : Nat), s.readMode.1 = .text → Complete es →
    Readable es → 4 * (delivered es).length < fuel →
    linesOf (visible (session fuel s term es).out) = fullView s (chunkPieces (es.map (·.data))) := by
  intro h
  have := h { marker := 1 } (fun _ => 80) [⟨[0x01], 0, false⟩, ⟨[], 1, true⟩] 9 rfl ⟨[⟨[0x01], 0, false⟩], ⟨[], 1, true⟩, rfl, rfl, by simp⟩
    (by
      intro e he
      simp only [List.mem_cons, List.not_mem_nil, or_false] at he
      rw [bad_dec]
      rcases he with rfl | rfl <;> decide) (by decide)
  exact absurd this (by decide +kernel)

/-! ### C27 -/

theorem count_lines {L : List (List (Kind × Bytes))} (h : ∀ l ∈ L, ∃ a, bytesOf l = a ++ [0x0a] ∧ (0x0a : Byte) ∉ a) :
    (bytesOf L.flatten).count 0x0a = L.length := by
  induction L with
  | nil => rfl
  | cons l L ih =>
    obtain ⟨a, e, ha⟩ := h l (by simp)
    have : bytesOf (l :: L).flatten = bytesOf l ++ bytesOf L.flatten := by simp [bytesOf]
    rw [this, List.count_append, ih fun l hl => h l (by simp [hl]), e, List.count_append, List.count_eq_zero.2 ha]
    simp; omega

/-- C27: after any chunks before the end, one line has been printed for each line
feed read so far; it shows all pieces of that line. -/
theorem C27_prompt (s : Settings) (hm : s.readMode.1 = .text) (term : Nat → Int) (es : List ReadEvent)
    (hu : Unfinished es) (hr : Readable es) (fuel : Nat) (hf : 4 * (delivered es).length < fuel) :
    ∃ out st, session fuel s term es = ⟨out, .ok st⟩ ∧ (linesOf (visible out)).length = (delivered es).count 0x0a ∧
      linesOf (visible out) = (pieceLines (chunkPieces (es.map (·.data)))).1.mapIdx fun i l => lineLabel s (i + 1) ++ glyphsAll s l := by
  have hg := runPieces_good hr
  obtain ⟨out, st, lines, h1, h2, -⟩ := textOpen hm term hu hr hf
  have hl := h2.lines (by
    intro t ht
    obtain ⟨l, hl, rfl⟩ := List.mem_map.1 ht
    exact glyphsAll_noNl hm ((pieceLines_good hg).1 l hl))
  obtain ⟨p1, p2, p3⟩ := pieceLines_spec (runPieces es)
  refine ⟨out, st, h1, ?_, ?_⟩
  · rw [hl, List.length_mapIdx, List.length_map]
    have hw : ∀ q ∈ runPieces es, Wf q.1 q.2 := fun q hq => (hg q hq).1
    have hwL : ∀ l ∈ (pieceLines (runPieces es)).1, ∀ q ∈ l, Wf q.1 q.2 := fun l hl q hq => hw q (by
      rw [p1]; exact List.mem_append.2 (.inl (List.mem_flatten.2 ⟨l, hl, hq⟩)))
    have hwR : ∀ q ∈ (pieceLines (runPieces es)).2, Wf q.1 q.2 := fun q hq => hw q (by rw [p1]; simp [hq])
    rw [← runPieces_bytes]
    have hR : bytesOf (runPieces es) = bytesOf (pieceLines (runPieces es)).1.flatten ++ bytesOf (pieceLines (runPieces es)).2 := by
      conv => lhs; rw [p1]
      simp [bytesOf]
    rw [hR, List.count_append, count_lines fun l hl => line_bytes (hwL l hl) (p2 l hl), List.count_eq_zero.2 (bytesOf_noLf hwR p3)]
    rfl
  · rw [hl, mapIdx_of_map]
    congr 1
    funext i l
    rw [Nat.add_comm]

theorem byteLines_count (r : Bytes) :
    (byteLines r).length = r.count 0x0a + if r = [] ∨ r.getLast? = some 0x0a then 0 else 1 := by
  induction r with
  | nil => rfl
  | cons b r ih =>
    rw [byteLines]
    by_cases hb : b = 0x0a
    · subst hb
      rw [if_pos rfl, List.length_cons, ih, List.count_cons_self]
      cases r with
      | nil => simp
      | cons c r =>
        rw [List.getLast?_cons_cons]
        simp; omega
    · rw [if_neg hb, List.count_cons_of_ne (by simpa using hb)]
      cases r with
      | nil =>
        simp [byteLines, hb]
      | cons c r =>
        rw [List.getLast?_cons_cons]
        simp only [reduceCtorEq, false_or] at ih ⊢
        rw [← ih]
        cases hL : byteLines (c :: r) with
        | nil =>
          exfalso
          rw [byteLines] at hL
          split at hL
          · cases hL
          · split at hL <;> cases hL
        | cons l ls => simp

/-- C27: after the final chunk the incomplete line, if there is one, has been
printed too, and no data is held back. -/
theorem C27_end (s : Settings) (hm : s.readMode.1 = .text) (term : Nat → Int) (es : List ReadEvent)
    (hco : Complete es) (hr : Readable es) (fuel : Nat) (hf : 4 * (delivered es).length < fuel) :
    ∃ out st, session fuel s term es = ⟨out, .ok st⟩ ∧
      (linesOf (visible out)).length = (delivered es).count 0x0a +
        (if delivered es = [] ∨ (delivered es).getLast? = some 0x0a then 0 else 1) ∧ st.buf.dataLen = 0 := by
  have hg := runPieces_good hr
  obtain ⟨out, st, lines, bs, h1, h2, h3, h4, -⟩ := textComplete hm term hco hr hf
  refine ⟨out, st, h1, ?_, ?_⟩
  · rw [h2.lines (textBodies_noNl hm hg), List.length_mapIdx, textBodies_length, ← byteLines_count, ← runPieces_bytes,
      ← linesOfPieces_bytes fun q hq => (hg q hq).1, List.length_map]
  · rw [h3.rep.dataLen]
    have : ∀ l : List Segment, (∀ g ∈ l, g.raw = []) → total l = 0 := by
      intro l
      induction l with
      | nil => intro _; rfl
      | cons g l ih =>
        intro h
        have := ih fun g hg => h g (by simp [hg])
        unfold total at *
        simp [h g (by simp), this]
    exact this bs h4

/-! ### C28 -/

/-- Control characters that get through: line feeds of the display, tabs if there
is a tab in the input, C1 controls whose UTF-8 encoding is in a chunk. -/
def Passed (es : List ReadEvent) (c : Char) : Prop :=
  c = '\n' ∨ (c = '\t' ∧ (0x09 : Byte) ∈ delivered es) ∨
  (0x80 ≤ c.toNat ∧ c.toNat ≤ 0x9f ∧ ∃ e ∈ es, [0xc2, UInt8.ofNat c.toNat] <:+: e.data)

theorem Passed.mono {a es : List ReadEvent} (h : a <+: es) {c : Char} (hc : Passed a c) : Passed es c := by
  obtain ⟨b, rfl⟩ := h
  rcases hc with h | ⟨h1, h2⟩ | ⟨h1, h2, e, he, h3⟩
  · exact .inl h
  · exact .inr (.inl ⟨h1, by simp [delivered] at h2 ⊢; rcases h2 with ⟨x, h, h'⟩; exact .inl ⟨x, h, h'⟩⟩)
  · exact .inr (.inr ⟨h1, h2, e, by simp [he], h3⟩)

theorem mem_delivered {es : List ReadEvent} {e : ReadEvent} (he : e ∈ es) {b : Byte} (hb : b ∈ e.data) : b ∈ delivered es :=
  List.mem_flatMap.2 ⟨e, he, hb⟩

theorem glyphsAll_passed {s : Settings} (hm : s.readMode.1 = .text) {es : List ReadEvent} (hr : Readable es) {qs : List (Kind × Bytes)}
    (hq : ∀ q ∈ qs, q ∈ runPieces es) {c : Char} (hc : c ∈ glyphsAll s qs) (hct : isControlChar c = true) : Passed es c := by
  obtain ⟨q, hqm, hc⟩ := List.mem_flatMap.1 hc
  have hin := hq q hqm
  obtain ⟨hw, hb⟩ := runPieces_good hr q hin
  obtain ⟨e, he, hp⟩ := runPieces_mem hin
  have hinf := pieces_infix hp
  rcases textGlyphs_ctrl hm hw hb hc hct with ⟨h1, h2⟩ | ⟨h1, h2, h3⟩
  · exact .inr (.inl ⟨h1, mem_delivered he (hinf.subset h2)⟩)
  · exact .inr (.inr ⟨h1, h2, e, he, by rw [← h3]; exact hinf⟩)

/-- Control characters shown by a run. -/
theorem shown_passed (s : Settings) (term : Nat → Int) (es : List ReadEvent) (hco : Complete es ∨ Unfinished es)
    (hp : s.readMode.1 = .text ∨ PosCols s term) (hr : Readable es) (fuel : Nat) (hf : 4 * (delivered es).length < fuel) :
    ∃ out st v, session fuel s term es = ⟨out, .ok st⟩ ∧ Shows {} out {} v ∧ ∀ c ∈ v.map Prod.fst, isControlChar c = true → Passed es c := by
  have hg := runPieces_good hr
  cases hm : s.readMode.1 with
  | text =>
    obtain ⟨p1, -, -⟩ := pieceLines_spec (runPieces es)
    have hbody : ∀ {n : Nat} {bodies : List Str}, (∀ t ∈ bodies, ∀ c ∈ t, isControlChar c = true → Passed es c) →
        ∀ c ∈ (bodies.mapIdx fun i t => lineLabel s (n + i) ++ t).flatMap fun l => l ++ ['\n'], isControlChar c = true → Passed es c := by
      intro n bodies h c hc hct
      obtain ⟨l, hl, hc⟩ := List.mem_flatMap.1 hc
      obtain ⟨i, hi, rfl⟩ := List.mem_mapIdx.1 hl
      rcases List.mem_append.1 hc with hc | hc
      · rcases List.mem_append.1 hc with hc | hc
        · rw [lineLabel_plain s _ _ hc] at hct; cases hct
        · exact h _ (List.getElem_mem _) c hc hct
      · exact .inl (List.mem_singleton.1 hc)
    have hL : ∀ t ∈ (pieceLines (runPieces es)).1.map (glyphsAll s), ∀ c ∈ t, isControlChar c = true → Passed es c := by
      intro t ht c hc
      obtain ⟨l, hl, rfl⟩ := List.mem_map.1 ht
      refine glyphsAll_passed hm hr (fun q hq => ?_) hc
      rw [p1]
      exact List.mem_append.2 (.inl (List.mem_flatten.2 ⟨l, hl, hq⟩))
    rcases hco with hco | hu
    · obtain ⟨out, st, lines, bs, h1, h2, -⟩ := textComplete hm term hco hr hf
      obtain ⟨v, h3, h4⟩ := h2.all
      refine ⟨out, st, v, h1, h3, ?_⟩
      rw [h4]
      refine hbody ?_
      intro t ht
      rcases List.mem_append.1 ht with ht | ht
      · exact hL t ht
      · split at ht
        · cases ht
        · rw [List.mem_singleton.1 ht]
          intro c hc
          refine glyphsAll_passed hm hr (fun q hq => ?_) (List.mem_of_mem_take hc)
          rw [p1]; simp [hq]
    · obtain ⟨out, st, lines, h1, h2, -⟩ := textOpen hm term hu hr hf
      obtain ⟨v, h3, h4⟩ := h2.all
      refine ⟨out, st, v, h1, h3, ?_⟩
      rw [h4]
      exact hbody hL
  | binary =>
    have hpos : PosCols s term := by
      rcases hp with h | h
      · rw [hm] at h; cases h
      · exact h
    have hcells : ∀ x ∈ allCells s es, isControlChar x.char = true → Passed es x.char := by
      intro x hx hct
      have hmem : x.char ∈ (allCells s es).map Cell.char := List.mem_map_of_mem hx
      rw [allCells_char hm] at hmem
      obtain ⟨q, hq, hc⟩ := List.mem_flatMap.1 hmem
      obtain ⟨e, he, hpi⟩ := runPieces_mem hq
      obtain ⟨h1, h2, h3⟩ := binGlyphs_ctrl hm (hg q hq).1 hc hct
      exact .inr (.inr ⟨h1, h2, e, he, by rw [← h3]; exact pieces_infix hpi⟩)
    have hb := readable_any hr
    have hl := allCells_length hm es
    rcases hco with ⟨a, e, rfl, he, ha⟩ | hu
    · obtain ⟨out, st, rows, h1, -, h3, -, -, h6, -⟩ := binRun_all hm hpos a
        (fun x hx => ⟨ha x hx, hb x (by simp [hx])⟩) e he (hb e (by simp)) (fuel := fuel) (by omega)
      refine ⟨out, st, _, h1, h6, ?_⟩
      intro c hc hct
      rw [List.map_append] at hc
      rcases List.mem_append.1 hc with hc | hc
      · rcases rowsLayout_ctrl _ hc hct with h | ⟨y, hy, rfl⟩
        · exact .inl h
        · exact hcells y (by rw [← h3]; exact hy) hct
      · exact .inl (totalLayout_ctrl hc hct)
    · obtain ⟨out, st, rows, H, h1, -, h3, -, -, -, h6, -⟩ := binRun_open hm hpos es (fun x hx => ⟨hu x hx, hb x hx⟩) BinHold.start
        (fuel := fuel) (by simp; omega)
      refine ⟨out, st, _, h1, h6, ?_⟩
      intro c hc hct
      rcases rowsLayout_ctrl _ hc hct with h | ⟨y, hy, rfl⟩
      · exact .inl h
      · rw [List.nil_append] at h3
        exact hcells y (by rw [← h3]; simp [hy]) hct

/-- C28, as far as it is true: for every input, also for one that cannot be displayed
to the end, the output consists of SGR sequences and of texts without ESC, in which
the only control characters are line feeds, tabs if the input has a tab, and C1
controls (80-9f) whose UTF-8 encoding is in a chunk. -/
theorem C28_clean_partial (s : Settings) (term : Nat → Int) (es : List ReadEvent) (hco : Complete es ∨ Unfinished es)
    (hp : s.readMode.1 = .text ∨ PosCols s term) (fuel : Nat) (hf : 4 * (delivered es).length < fuel) :
    ∃ ps : List Part, (session fuel s term es).out = ps.flatMap Part.written ∧
      Plain ps ∧ ∀ t, Part.text t ∈ ps → ∀ c ∈ t, isControlChar c = true → Passed es c := by
  obtain ⟨a, h1, h2, h3, h4⟩ := session_readable s es hco
  have hlen : (delivered a).length ≤ (delivered es).length := by
    obtain ⟨b, rfl⟩ := h1
    simp [delivered]
  obtain ⟨out, st, v, e1, e2, e3⟩ := shown_passed s term a h2 hp h3 fuel (by omega)
  obtain ⟨ps, k1, k2⟩ := e2.clean
  refine ⟨ps, by rw [h4 fuel term out st e1, k2], k1, ?_⟩
  intro t ht c hc hct
  refine Passed.mono h1 (e3 c ?_ hct)
  have := stripSgr_parts ps k1 []
  rw [List.append_nil, ← k2, e2.strip] at this
  rw [this]
  exact List.mem_append.2 (.inl (List.mem_flatMap.2 ⟨_, ht, hc⟩))

/-- C28 is false: the bytes C2 9B in text mode print U+009B, the one-character CSI. -/
theorem C28_negation : ¬ ∀ (s : Settings) (term : Nat → Int) (es : List ReadEvent) (fuel : Nat), s.readMode.1 = .text → Complete es →
    4 * (delivered es).length < fuel → ∀ c ∈ visible (session fuel s term es).out, isControlChar c = true → c = '\n' ∨ c = '\t' := by
  intro h
  have := h {} (fun _ => 80) [⟨[0xc2, 0x9b], 0, false⟩, ⟨[], 2, true⟩] 9 rfl ⟨[⟨[0xc2, 0x9b], 0, false⟩], ⟨[], 2, true⟩, rfl, rfl, by simp⟩ (by decide)
    (Char.ofNat 0x9b) (by decide +kernel) (by decide)
  exact absurd this (by decide)

/-! ### C50 -/

/-- C50: in binary mode the characters after the separators of the rows are, in
order, those of the legend for the pieces of all chunks. -/
theorem C50_chars (s : Settings) (hm : s.readMode.1 = .binary) (term : Nat → Int) (c : Nat) (hc : 0 < c)
    (hcols : ∀ k off, BinaryFormatter.curCols s (term k) off = c) (es : List ReadEvent) (hco : Complete es) (hr : Readable es)
    (fuel : Nat) (hf : (delivered es).length < fuel) :
    ∃ out st, session fuel s term es = ⟨out, .ok st⟩ ∧
      ((linesOf (visible out)).flatMap fun l => l.drop ((if offsetsShown s then 9 else 0) + 3 * c + 2)) =
        (chunkPieces (es.map (·.data))).flatMap fun q => binGlyphs s q.1 q.2 := by
  simp only [printOffsets_eq]
  obtain ⟨out, st, h1, -, h2⟩ := binComplete hm hc hcols hco hr hf
  refine ⟨out, st, h1, ?_⟩
  have hpl : ∀ off, (prefText s off).length = if s.printOffsets then 9 else 0 := by
    intro off
    rw [prefText_eq]
    split
    · rw [List.length_append, alignRight_length (by rw [List.length_take]; omega)]; rfl
    · rfl
  rw [binLines (cells_noNl hm es) h2, List.flatMap_append, List.flatMap_map]
  have ht : ((if true = true ∧ s.printOffsets = true then [prefText s (delivered es).length] else []).flatMap fun l =>
      l.drop ((if s.printOffsets then 9 else 0) + 3 * c + 2)) = [] := by
    have hd : (prefText s (delivered es).length).drop ((if s.printOffsets then 9 else 0) + 3 * c + 2) = [] :=
      List.drop_of_length_le (by rw [hpl]; omega)
    by_cases hp : s.printOffsets = true
    · simp only [hp, and_self, if_true, List.flatMap_cons, List.flatMap_nil, List.append_nil] at hd ⊢
      exact hd
    · simp [hp]
  rw [ht, List.append_nil]
  have hrow : ∀ i, (rowLine s c (i * c) (slice c i (allCells s es))).drop ((if s.printOffsets then 9 else 0) + 3 * c + 2) =
      (slice c i (allCells s es)).map Cell.char := by
    intro i
    have hk : (slice c i (allCells s es)).length ≤ c := by simp only [slice, List.length_take]; omega
    unfold rowLine
    have e : ∀ (a : Str) (x y : Char) (b : Str) (n : Nat), a.length = n → (a ++ x :: y :: b).drop (n + 2) = b := by
      rintro a x y b n rfl
      rw [List.drop_append, List.drop_of_length_le (by omega)]
      have : a.length + 2 - a.length = 2 := by omega
      rw [this]; rfl
    refine e _ _ _ _ _ ?_
    rw [List.length_append, hpl, List.length_append, hexText_length, List.length_replicate]
    omega
  simp only [hrow]
  have : ∀ m, ((List.range m).flatMap fun i => (slice c i (allCells s es)).map Cell.char) = ((slices c m (allCells s es)).flatten).map Cell.char := by
    intro m
    simp [slices, List.flatMap, List.map_flatten, Function.comp_def]
  rw [this, slices_flatten, List.take_of_length_le]
  · exact allCells_char hm es
  · rw [allCells_length hm es]
    exact rowCount_closed_all hc _

/-! ### Non-vacuity -/

/-- Two lines and an incomplete one, cut inside the second. -/
def exampleText : List ReadEvent := [⟨[0x61, 0x20, 0x09, 0x0a, 0x1b], 0, false⟩, ⟨[0x5b, 0x31, 0x6d, 0x0a, 0x62, 0x07], 5, false⟩, ⟨[], 11, true⟩]

example : Complete exampleText ∧ Readable exampleText ∧ ({} : Settings).readMode.1 = .text ∧ 4 * (delivered exampleText).length < 99 := by
  refine ⟨⟨[⟨[0x61, 0x20, 0x09, 0x0a, 0x1b], 0, false⟩, ⟨[0x5b, 0x31, 0x6d, 0x0a, 0x62, 0x07], 5, false⟩], ⟨[], 11, true⟩, rfl, rfl, by simp⟩, ?_, rfl, by decide⟩
  intro e he
  simp only [exampleText, List.mem_cons, List.not_mem_nil, or_false] at he
  rw [bad_dec]
  rcases he with rfl | rfl | rfl <;> decide

example : visible (session 99 { marker := 1 } (fun _ => 80) exampleText).out =
    " 1│a␣⇥\t↵\n 2│∌[1m↵\n 3│bⱯ\n".toList := by decide +kernel

example : visible (session 99 { binary := true, columns := some 20 } (fun _ => 80) exampleText).out =
    "  0x0000│ 61 20 09 0a 1b 5b 31 6d 0a 62 07                            │a␣⇥↵∌[1m↵bⱯ\n  0x000b│\n".toList := by decide +kernel

end Kolombos
