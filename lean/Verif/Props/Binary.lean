import Verif.Lemmas.BinView
/-
C13, C14, C16 - C22: what binary mode prints.
-/
set_option linter.unusedSimpArgs false

namespace Kolombos
open Spec

/-! ### C14, C17, C18, C19 -/

/-- C17: with `c > 0` columns, a complete input of `n` bytes gives ceil(n/c) rows and,
with offsets, one final line.  Each row consists of the prefix (9 characters or
none), `3*c` characters of which the last ones are blank for missing bytes, a blank,
a separator character and one character per byte; row `i` shows `min(c, n - i*c)`
bytes, so every row but the last shows `c`. -/
theorem C17_geometry (s : Settings) (hm : s.readMode.1 = .binary) (term : Nat → Int) (c : Nat) (hc : 0 < c)
    (hcols : ∀ k off, BinaryFormatter.curCols s (term k) off = c) (es : List ReadEvent) (hco : Complete es) (hr : Readable es)
    (fuel : Nat) (hf : (delivered es).length < fuel) :
    ∃ out st rows total, session fuel s term es = ⟨out, .ok st⟩ ∧
      linesOf (visible out) = rows ++ (if offsetsShown s then [total] else []) ∧
      total.length = (if offsetsShown s then 9 else 0) ∧
      rows.length = ((delivered es).length + c - 1) / c ∧
      ∀ i (h : i < rows.length), ∃ pre hex sep chars k, k = min c ((delivered es).length - i * c) ∧ 0 < k ∧
        rows[i] = pre ++ (hex ++ List.replicate (3 * (c - k)) ' ') ++ ' ' :: sep :: chars ∧
        pre.length = (if offsetsShown s then 9 else 0) ∧ hex.length = 3 * k ∧ chars.length = k := by
  simp only [printOffsets_eq]
  obtain ⟨out, st, h1, -, h2⟩ := binComplete hm hc hcols hco hr hf
  have hl := binLines (cells_noNl hm es) h2
  have hpl : ∀ off, (prefText s off).length = if s.printOffsets then 9 else 0 := by
    intro off
    rw [prefText_eq]
    split
    · rw [List.length_append, alignRight_length (by rw [List.length_take]; omega)]; rfl
    · rfl
  have hn := allCells_length hm es
  refine ⟨out, st, _, prefText s (delivered es).length, h1, by simpa using hl, hpl _, by simp, ?_⟩
  intro i hi
  have hi' : i < ((delivered es).length + c - 1) / c := by simpa using hi
  have hk : (slice c i (allCells s es)).length = min c ((delivered es).length - i * c) := by
    simp only [slice, List.length_take, List.length_drop, hn]
  have hroom := ceil_room (n := (delivered es).length) hc
  refine ⟨prefText s (i * c), ((slice c i (allCells s es)).flatMap Cell.hex).map Prod.fst, sepChar s, (slice c i (allCells s es)).map Cell.char,
    _, rfl, ?_, ?_, hpl _, ?_, ?_⟩
  · have h3 := Nat.div_mul_le_self ((delivered es).length + c - 1) c
    have h4 : (i + 1) * c ≤ ((delivered es).length + c - 1) / c * c := Nat.mul_le_mul_right c hi'
    rw [Nat.succ_mul] at h4
    omega
  · rw [List.getElem_map, List.getElem_range, rowLine, hk]
  · rw [hexText_length, hk]
  · rw [List.length_map, hk]

/-- C18: the bytes written in the hex columns, read line by line (after the
prefix), are the processed bytes. -/
theorem C18_hex (s : Settings) (hm : s.readMode.1 = .binary) (term : Nat → Int) (c : Nat) (hc : 0 < c)
    (hcols : ∀ k off, BinaryFormatter.curCols s (term k) off = c) (es : List ReadEvent) (hco : Complete es) (hr : Readable es)
    (fuel : Nat) (hf : (delivered es).length < fuel) :
    ∃ out st, session fuel s term es = ⟨out, .ok st⟩ ∧
      ((linesOf (visible out)).flatMap fun l => readBytes (l.drop (if offsetsShown s then 9 else 0))) = delivered es := by
  simp only [printOffsets_eq]
  obtain ⟨out, st, h1, -, h2⟩ := binComplete hm hc hcols hco hr hf
  refine ⟨out, st, h1, ?_⟩
  rw [binLines (cells_noNl hm es) h2, List.flatMap_append, List.flatMap_map]
  have ht : ((if true = true ∧ s.printOffsets = true then [prefText s (delivered es).length] else []).flatMap fun l =>
      readBytes (l.drop (if s.printOffsets then 9 else 0))) = [] := by
    by_cases hp : s.printOffsets = true
    · simp only [hp, and_self, if_true, List.flatMap_cons, List.flatMap_nil, List.append_nil]
      rw [List.drop_of_length_le]
      · simp [readBytes]
      · rw [prefText_eq, if_pos hp, List.length_append, alignRight_length (by rw [List.length_take]; omega)]
        exact Nat.le_refl _
    · simp [hp]
  rw [ht, List.append_nil]
  simp only [readBytes_row]
  have : ∀ m, ((List.range m).flatMap fun i => (slice c i (allCells s es)).map Cell.byte) = ((slices c m (allCells s es)).flatten).map Cell.byte := by
    intro m
    simp [slices, List.flatMap, List.map_flatten, Function.comp_def]
  have hn := allCells_length hm es
  rw [this, slices_flatten, List.take_of_length_le, allCells_byte hm]
  rw [hn]
  exact rowCount_closed_all hc _

/-- C19: row `i` is labelled with offset `i*c` and the final line with the number
of processed bytes: the label denotes that number; its first 8 characters are
printed (see C20). -/
theorem C19_offsets (s : Settings) (hm : s.readMode.1 = .binary) (term : Nat → Int) (c : Nat) (hc : 0 < c)
    (hcols : ∀ k off, BinaryFormatter.curCols s (term k) off = c) (es : List ReadEvent) (hco : Complete es) (hr : Readable es)
    (hoff : offsetsShown s = true) (fuel : Nat) (hf : (delivered es).length < fuel) :
    ∃ out st, session fuel s term es = ⟨out, .ok st⟩ ∧
      (linesOf (visible out)).length = ((delivered es).length + c - 1) / c + 1 ∧
      (∀ i (h : i < (linesOf (visible out)).length), i < ((delivered es).length + c - 1) / c →
        ∃ lab rest, IsOffsetLabel s.decimalOffsets (i * c) lab ∧
          (linesOf (visible out))[i] = alignRight 8 (lab.take 8) ++ '│' :: rest) ∧
      ∃ lab, IsOffsetLabel s.decimalOffsets (delivered es).length lab ∧
        (linesOf (visible out)).getLast? = some (alignRight 8 (lab.take 8) ++ ['│']) := by
  rw [printOffsets_eq] at hoff
  obtain ⟨out, st, h1, -, h2⟩ := binComplete hm hc hcols hco hr hf
  refine ⟨out, st, h1, ?_⟩
  rw [binLines (cells_noNl hm es) h2, if_pos ⟨rfl, hoff⟩]
  refine ⟨by simp, ?_, Console.offsetLabel s _, offsetLabel_denotes s _, ?_⟩
  · intro i h hi
    rw [List.getElem_append_left (by simpa using hi), List.getElem_map, List.getElem_range, rowLine, prefText_eq, if_pos hoff]
    exact ⟨Console.offsetLabel s _, ((slice c i (allCells s es)).flatMap Cell.hex).map Prod.fst ++
      (List.replicate (3 * (c - (slice c i (allCells s es)).length)) ' ' ++ ' ' :: sepChar s :: (slice c i (allCells s es)).map Cell.char),
      offsetLabel_denotes s _, by simp only [List.append_assoc, List.cons_append, List.nil_append]⟩
  · rw [List.getLast?_concat, prefText_eq, if_pos hoff]

/-- The settings with a given number of columns (`-w`). -/
abbrev Settings.withColumns (s : Settings) (c : Nat) : Settings := { s with columns := some c }

theorem chunkSegs_columns (s : Settings) (c : Nat) (raw : Bytes) : chunkSegs (s.withColumns c) raw = chunkSegs s raw := by
  obtain ⟨h1, h2⟩ : (s.withColumns c).readMode.1 = s.readMode.1 ∧ detailsOf (s.withColumns c) = detailsOf s := by
    unfold detailsOf Settings.readMode
    cases s.binary <;> cases s.text <;> exact ⟨rfl, rfl⟩
  unfold chunkSegs
  congr 1
  funext q
  exact segmentsOf_congr h1 h2 rfl rfl rfl rfl _ _

/-- C14: there is one list of cells (byte, character and style) such that, whatever
the number of columns, the rows show consecutive groups of it. -/
theorem C14_cells (s : Settings) (hm : s.readMode.1 = .binary) (es : List ReadEvent) (hco : Complete es) (hr : Readable es) :
    ∃ cells : List Cell, cells.map Cell.byte = delivered es ∧
      ∀ (c : Nat) (term : Nat → Int) (fuel : Nat), 0 < c → (delivered es).length < fuel →
        ∃ out st, session fuel (s.withColumns c) term es = ⟨out, .ok st⟩ ∧
          appears out = rowsView s c cells := by
  refine ⟨allCells s es, allCells_byte hm es, ?_⟩
  intro c term fuel hc hf
  have hm' : (s.withColumns c).readMode.1 = .binary := by
    rw [← hm]
    unfold Settings.readMode
    repeat' split
    all_goals rfl
  have hr' : Readable es := by
    intro e he hb
    exact hr e he ((anyBad_iff _).1 ((anyBad_iff _).2 hb))
  obtain ⟨out, st, h1, -, h2⟩ := binComplete hm' (term := term) hc (fun _ _ => rfl) hco hr' hf
  have hcells : allCells (s.withColumns c) es = allCells s es := by
    simp only [allCells, chunkCells, chunkSegs_columns]
  refine ⟨out, st, h1, ?_⟩
  rw [h2.appears, hcells, ← allCells_length hm es, ← rowsView_eq]
  rfl

/-! ### C13 -/

theorem rowLayout_nl {s : Settings} {c off : Nat} {cells : List Cell} (h : ∀ x ∈ cells, x.char ≠ '\n') :
    ∀ x ∈ rowLayout (offLayout s off) (midLayout s) c cells, x.1 = '\n' → x.2 = {} := by
  intro x hx e
  unfold rowLayout at hx
  rcases List.mem_append.1 hx with hx | hx
  · exfalso
    have hmem : x.1 ∈ rowLine s c off cells := by
      have := List.mem_map_of_mem (f := Prod.fst) hx
      unfold rowLine prefText
      simpa only [List.map_append, map_inStyle, midLayout_text, List.map_map, Function.comp_def, Cell.shown, List.append_assoc,
        List.cons_append, List.nil_append] using this
    rw [e] at hmem
    exact rowLine_noNl h hmem
  · simp [inStyle] at hx
    rw [hx]

theorem rowsLayout_nl {s : Settings} {rows : List Row} (h : ∀ x ∈ rowCells rows, x.char ≠ '\n') (off : Nat) :
    ∀ x ∈ rowsLayout (offLayout s) (midLayout s) off rows, x.1 = '\n' → x.2 = {} := by
  induction rows generalizing off with
  | nil => intro x hx; simp [rowsLayout] at hx
  | cons r rows ih =>
    intro x hx
    rw [rowsLayout] at hx
    have hc : rowCells (r :: rows) = r.2 ++ rowCells rows := rfl
    rw [hc] at h
    rcases List.mem_append.1 hx with hx | hx
    · exact rowLayout_nl (fun x hx => h x (by simp [hx])) x hx
    · exact ih (fun x hx => h x (by simp [hx])) _ x hx

theorem totalLayout_nl (s : Settings) (closed : Bool) (n : Nat) : ∀ x ∈ totalLayout s closed n, x.1 = '\n' → x.2 = {} := by
  intro x hx e
  unfold totalLayout at hx
  split at hx
  · rcases List.mem_append.1 hx with hx | hx
    · exfalso
      have := List.mem_map_of_mem (f := Prod.fst) hx
      rw [e] at this
      exact prefixLayout_noNl s 36 n this
    · simp [inStyle] at hx
      rw [hx]
  · simp at hx

/-- C13, binary mode: after every printed line feed, and at the end, the terminal
has its default attributes, whatever chunks were read so far and however the number
of (positive) columns changes. -/
theorem C13_binary (s : Settings) (hm : s.readMode.1 = .binary) (term : Nat → Int) (hp : PosCols s term) (es : List ReadEvent)
    (hco : Complete es ∨ Unfinished es) (hr : Readable es) (fuel : Nat) (hf : (delivered es).length < fuel) :
    ∃ out st, session fuel s term es = ⟨out, .ok st⟩ ∧ (Term.run {} out).1 = {} ∧
      ∀ pre suf, out = pre ++ '\n' :: suf → (Term.run {} (pre ++ ['\n'])).1 = {} := by
  have hb := readable_any hr
  have hl := allCells_length hm es
  have hnl := cells_noNl hm es
  rcases hco with ⟨a, e, rfl, he, ha⟩ | hu
  · obtain ⟨out, st, rows, h1, -, h3, -, -, h6, -⟩ := binRun_all hm hp a
      (fun x hx => ⟨ha x hx, hb x (by simp [hx])⟩) e he (hb e (by simp)) (fuel := fuel) (by omega)
    refine ⟨out, st, h1, by show (Term.run ⟨.ground, {}⟩ out).1 = _; rw [h6.run], ?_⟩
    refine h6.newline ?_
    intro x hx
    rcases List.mem_append.1 hx with hx | hx
    · exact rowsLayout_nl (by rw [h3]; exact hnl) _ x hx
    · exact totalLayout_nl _ _ _ x hx
  · obtain ⟨out, st, rows, H, h1, -, h3, -, -, -, h6, -⟩ := binRun_open hm hp es (fun x hx => ⟨hu x hx, hb x hx⟩) BinHold.start
      (fuel := fuel) (by simp; omega)
    refine ⟨out, st, h1, by show (Term.run ⟨.ground, {}⟩ out).1 = _; rw [h6.run], ?_⟩
    refine h6.newline (rowsLayout_nl ?_ _)
    rw [List.nil_append] at h3
    intro x hx
    exact hnl x (by rw [← h3]; simp [hx])

/-! ### C16 -/

/-- C16: in every state that can be reached in binary mode, reading a chunk leaves
in the buffer only segments with as many displayed characters as bytes, whose
bytes are those held back before followed by the chunk; and no run ends with
`BufferError`. -/
theorem C16_consistent (s : Settings) (hm : s.readMode.1 = .binary) (fuel : Nat) (term : Nat → Int) (es : List ReadEvent) :
    (session fuel s term es).res ≠ .err .bufferError ∧
    ∀ out st, session fuel s term es = ⟨out, .ok st⟩ → ∀ raw fin pb' buf',
      parse (Config.create s).registry (Config.create s).settings (st.pb.appendRaw raw fin) st.buf = .ok (pb', buf') →
      (∀ g, Chainable.seg g ∈ buf'.chain → g.raw.length = g.processed.length) ∧
      rawOf buf'.chain = rawOf st.buf.chain ++ raw := by
  refine ⟨fun h => absurd (session_err es (Safe.start s) h).1 (by decide), ?_⟩
  intro out st h raw fin pb' buf' hp
  have hs := safe_reached es (Safe.start s) h
  obtain ⟨o, gs, h1, h2⟩ := hs.binary hm
  rw [parse_chunk] at hp
  split at hp
  · cases hp
  simp only [Except.ok.injEq, Prod.mk.injEq] at hp
  have hraw : (st.pb.appendRaw raw fin).raw = raw := by simp [ParserBuffer.appendRaw, hs.parser]
  rw [hraw] at hp
  obtain ⟨-, rfl⟩ := hp
  have hrep := h1.attach (chunkSegs s raw)
  refine ⟨?_, ?_⟩
  · intro g hg
    rw [hrep.chain] at hg
    have hall : AllConsistent (gs ++ chunkSegs s raw) := by
      intro g hg
      rcases List.mem_append.1 hg with hg | hg
      · exact h2 g hg
      · obtain ⟨k, hk⟩ := chunkSegs_binary hm raw g hg
        exact hk.len
    have hmem : ∀ (l : List Segment), Chainable.seg g ∈ l.flatMap SegmentBuffer.attachOne → g ∈ l := by
      intro l hl
      obtain ⟨x, hx, hl⟩ := List.mem_flatMap.1 hl
      rw [attachOne_eq] at hl
      split at hl <;> simp at hl <;> rw [hl] <;> exact hx
    cases o with
    | false => rw [chainOf_false] at hg; exact hall g (hmem _ hg)
    | true =>
      generalize gs ++ chunkSegs s raw = l at *
      cases l with
      | nil => simp [chainOf] at hg
      | cons x l =>
        simp only [chainOf, List.mem_cons] at hg
        rcases hg with hg | hg | hg | hg
        · cases hg; exact hall g (by simp)
        · cases hg
        · cases hg
        · exact hall g (by simp [hmem _ hg])
  · rw [hrep.raw, h1.raw, List.flatMap_append, chunkSegs_raw hm]

/-! ### C20 -/

/-- C20 is false: with hexadecimal offsets the label is cut to 8 characters although
it is longer from 1000000 on (with decimal ones from 100000000 on), so different
offsets get the same label. -/
theorem C20_negation : ¬ ∀ (s : Settings) (m n : Nat) (f : Sgr),
    Console.formatPrefixWithOffset s m f = Console.formatPrefixWithOffset s n f → m = n := by
  intro h
  exact absurd (h {} 1000000 1000001 [] (by decide)) (by decide)

theorem hex_length {n k : Nat} (hk : 0 < k) (h : n < 16 ^ k) : (hex n).length ≤ k :=
  (Nat.length_toDigits_le_iff (by decide) hk).2 h

theorem dec_length {n k : Nat} (hk : 0 < k) (h : n < 10 ^ k) : (dec n).length ≤ k :=
  (Nat.length_toDigits_le_iff (by decide) hk).2 h

/-- C20, as far as it is true: below 1000000 (with decimal offsets below 100000000)
the printed prefix is a text that denotes the offset, right-justified, and a bar. -/
theorem C20_label_partial (s : Settings) (n : Nat) (f : Sgr) (hf : f = [32] ∨ f = [36])
    (h : n < if s.decimalOffsets then 100000000 else 1000000) :
    ∃ lab, IsOffsetLabel s.decimalOffsets n lab ∧
      visible (Console.formatPrefixWithOffset s n f) = alignRight 8 lab ++ ['│'] := by
  refine ⟨Console.offsetLabel s n, offsetLabel_denotes s n, ?_⟩
  have hl : (Console.offsetLabel s n).length ≤ 8 := by
    unfold Console.offsetLabel
    split
    · rename_i hd
      rw [if_pos hd] at h
      exact dec_length (by decide) h
    · rename_i hd
      rw [if_neg hd] at h
      have h1 : (dec n).length ≤ 6 := dec_length (by decide) h
      have h2 : (hex n).length ≤ 6 := hex_length (by decide) (by omega)
      simp only [List.length_cons, hexPad, List.length_append, List.length_replicate]
      omega
  have : visible (Console.formatPrefixWithOffset s n f) = alignRight 8 ((Console.offsetLabel s n).take 8) ++ ['│'] := by
    rcases hf with rfl | rfl
    · rw [(shows_prefix s 32 n (.inl rfl)).visible, prefixLayout_text]
    · rw [(shows_prefix s 36 n (.inr rfl)).visible, prefixLayout_text]
  rw [this, List.take_of_length_le hl]

theorem isOffsetLabel_unique {d : Bool} {m n : Nat} {t : Str} (h : IsOffsetLabel d m t) (h' : IsOffsetLabel d n t) : m = n := by
  unfold IsOffsetLabel at h h'
  split at h
  · rename_i hd
    rw [if_pos hd] at h'
    exact Option.some.inj (h.2.symm.trans h'.2)
  · rename_i hd
    rw [if_neg hd] at h'
    obtain ⟨ds, rfl, h1⟩ := h
    obtain ⟨ds', e, h2⟩ := h'
    have : ds = ds' := (List.cons.inj (List.cons.inj e).2).2
    subst this
    exact Option.some.inj (h1.2.symm.trans h2.2)

theorem readDigits_noBlank {base acc n : Nat} {t : Str} (h : readDigits base acc t = some n) : ' ' ∉ t := by
  induction t generalizing acc with
  | nil => simp
  | cons c t ih =>
    rw [readDigits] at h
    cases hd : digitVal c with
    | none => rw [hd] at h; cases h
    | some d =>
      rw [hd] at h
      simp only at h
      split at h
      · intro hm
        rcases List.mem_cons.1 hm with rfl | hm
        · rw [show digitVal ' ' = none by decide] at hd; cases hd
        · exact ih h hm
      · cases h

theorem alignRight_inj {w : Nat} {a b : Str} (ha : ' ' ∉ a) (hb : ' ' ∉ b) (h : alignRight w a = alignRight w b) : a = b := by
  have key : ∀ (k : Nat) (t : Str), ' ' ∉ t → (List.replicate k ' ' ++ t).filter (· != ' ') = t := by
    intro k t ht
    rw [List.filter_append, List.filter_eq_nil_iff.2, List.nil_append, List.filter_eq_self.2]
    · intro c hc
      simp only [bne_iff_ne, ne_eq]
      rintro rfl; exact ht hc
    · intro c hc
      simp [(List.mem_replicate.1 hc).2]
  have := congrArg (List.filter (· != ' ')) h
  unfold alignRight at this
  rwa [key _ _ ha, key _ _ hb] at this

theorem isOffsetLabel_noBlank {d : Bool} {n : Nat} {t : Str} (h : IsOffsetLabel d n t) : ' ' ∉ t := by
  unfold IsOffsetLabel at h
  split at h
  · exact readDigits_noBlank h.2
  · obtain ⟨ds, rfl, h⟩ := h
    have := readDigits_noBlank h.2
    simp [this]

/-- Below the bounds the prefix determines the offset. -/
theorem C20_injective_partial (s : Settings) (m n : Nat) (f : Sgr) (hf : f = [32] ∨ f = [36])
    (hm : m < if s.decimalOffsets then 100000000 else 1000000) (hn : n < if s.decimalOffsets then 100000000 else 1000000)
    (h : Console.formatPrefixWithOffset s m f = Console.formatPrefixWithOffset s n f) : m = n := by
  obtain ⟨a, h1, h2⟩ := C20_label_partial s m f hf hm
  obtain ⟨b, h3, h4⟩ := C20_label_partial s n f hf hn
  rw [h, h4] at h2
  have := alignRight_inj (isOffsetLabel_noBlank h3) (isOffsetLabel_noBlank h1) (List.append_cancel_right h2)
  subst this
  exact isOffsetLabel_unique h1 h3

example : visible (Console.formatPrefixWithOffset {} 999999 [32]) = "0x0f423f│".toList ∧
    IsOffsetLabel false 999999 "0x0f423f".toList ∧
    visible (Console.formatPrefixWithOffset {} 1000000 [32]) = "0x000f42│".toList := by
  refine ⟨by decide, ⟨_, rfl, by decide, by decide⟩, by decide⟩

/-! ### C21 -/

theorem rows_full {c : Nat} {rows : List Row} (h : ∀ r ∈ rows, FullRow r) (hr : ∀ r ∈ rows, r.1 = c) (H : List Cell) :
    rows = (slices c rows.length (rowCells rows ++ H)).map fun x => (c, x) := by
  induction rows with
  | nil => rfl
  | cons r rows ih =>
    obtain ⟨x, y⟩ := r
    have h1 := hr (x, y) (by simp)
    obtain ⟨-, h2⟩ := h (x, y) (by simp)
    simp only at h1 h2
    subst h1
    have hc : rowCells ((x, y) :: rows) = y ++ rowCells rows := rfl
    rw [hc, List.append_assoc, List.length_cons, slices_succ, List.map_cons, List.take_left' h2, List.drop_left' h2,
      ← ih (fun r hr' => h r (by simp [hr'])) (fun r hr' => hr r (by simp [hr']))]

theorem rows_full_length {c : Nat} {rows : List Row} (h : ∀ r ∈ rows, FullRow r) (hr : ∀ r ∈ rows, r.1 = c) :
    (rowCells rows).length = rows.length * c := by
  induction rows with
  | nil => simp [rowCells]
  | cons r rows ih =>
    have h1 := hr r (by simp)
    obtain ⟨-, h2⟩ := h r (by simp)
    have hc : rowCells (r :: rows) = r.2 ++ rowCells rows := rfl
    rw [hc, List.length_append, ih (fun r hr' => h r (by simp [hr'])) (fun r hr' => hr r (by simp [hr'])), List.length_cons, h2, h1, Nat.succ_mul]
    omega

/-- C21: after any chunks before the end, `n` bytes in all, the `n / c` complete rows
have been printed: they show the first `n / c * c` bytes, and `n % c` bytes, fewer
than `c`, are held back. -/
theorem C21_held (s : Settings) (hm : s.readMode.1 = .binary) (term : Nat → Int) (c : Nat) (hc : 0 < c)
    (hcols : ∀ k off, BinaryFormatter.curCols s (term k) off = c) (es : List ReadEvent) (hu : Unfinished es) (hr : Readable es)
    (fuel : Nat) (hf : (delivered es).length < fuel) :
    ∃ out st, session fuel s term es = ⟨out, .ok st⟩ ∧ (linesOf (visible out)).length = (delivered es).length / c ∧
      ((linesOf (visible out)).flatMap fun l => readBytes (l.drop (if offsetsShown s then 9 else 0))) =
        (delivered es).take ((delivered es).length / c * c) ∧
      st.buf.dataLen = (delivered es).length % c ∧ st.buf.dataLen < c := by
  simp only [printOffsets_eq]
  have hb := readable_any hr
  have hl := allCells_length hm es
  have hnl := cells_noNl hm es
  obtain ⟨out, st, rows, H, h1, h2, h3, -, -, h5, h6, h7, h8⟩ := binRun_open hm (term := term) (fun k off => by rw [hcols]; omega) es
    (fun x hx => ⟨hu x hx, hb x hx⟩) BinHold.start (fuel := fuel) (by simp; omega)
  rw [List.nil_append] at h3
  have hH : H.length < c := by
    by_cases he : es = []
    · subst he
      have h3' : rowCells rows ++ H = [] := h3
      rw [(List.append_eq_nil_iff.1 h3').2]
      exact hc
    · obtain ⟨off, ho⟩ := h7 he
      exact ho c (hcols _ _)
  have hfull := rows_full h5 (h8 c hcols) H
  have hlen := rows_full_length h5 (h8 c hcols)
  have h3l := congrArg List.length h3
  rw [List.length_append, hlen, hl] at h3l
  have hdiv : (delivered es).length / c = rows.length := by
    rw [← h3l, Nat.add_comm, Nat.add_mul_div_right _ _ hc, Nat.div_eq_of_lt hH]; omega
  have hmod : (delivered es).length % c = H.length := by
    rw [← h3l, Nat.add_comm, Nat.add_mul_mod_self_right, Nat.mod_eq_of_lt hH]
  have hdl : st.buf.dataLen = H.length := by
    obtain ⟨o, gs, g1, g2, g3⟩ := h2.held
    rw [g1.dataLen, ← g3, queueCells_length g2]; rfl
  rw [h3] at hfull
  have hroom : rows.length = 0 ∨ (rows.length - 1) * c ≤ (allCells s es).length := by
    by_cases h0 : rows.length = 0
    · exact .inl h0
    · right
      have : (rows.length - 1) * c ≤ rows.length * c := Nat.mul_le_mul_right c (by omega)
      omega
  have hlay : Shows {} out {} (((List.range rows.length).flatMap fun i =>
      rowLayout (offLayout s (i * c)) (midLayout s) c (slice c i (allCells s es))) ++ totalLayout s false 0) := by
    have ht : totalLayout s false 0 = [] := by unfold totalLayout; rw [if_neg (by simp)]
    rw [ht, List.append_nil]
    rw [hfull, rowsLayout_const _ _ _ _ _ _ hroom] at h6
    have h0 : ({} : State).offset = 0 := rfl
    simpa only [h0, Nat.zero_add] using h6
  have hlines := binLines hnl hlay
  rw [if_neg (by simp), List.append_nil] at hlines
  refine ⟨out, st, h1, ?_, ?_, by rw [hdl, hmod], by rw [hdl]; exact hH⟩
  · rw [hlines, hdiv]; simp
  · rw [hlines, List.flatMap_map]
    simp only [readBytes_row]
    have : ∀ m, ((List.range m).flatMap fun i => (slice c i (allCells s es)).map Cell.byte) = ((slices c m (allCells s es)).flatten).map Cell.byte := by
      intro m
      simp [slices, List.flatMap, List.map_flatten, Function.comp_def]
    rw [this, slices_flatten, List.map_take, allCells_byte hm, hdiv]

/-- C21: at the end nothing is held back. -/
theorem C21_end (s : Settings) (hm : s.readMode.1 = .binary) (term : Nat → Int) (hp : PosCols s term) (es : List ReadEvent)
    (hco : Complete es) (hr : Readable es) (fuel : Nat) (hf : (delivered es).length < fuel) :
    ∃ out st, session fuel s term es = ⟨out, .ok st⟩ ∧ st.buf.dataLen = 0 := by
  obtain ⟨a, e, rfl, he, ha⟩ := hco
  have hb := readable_any hr
  have hl := allCells_length hm (a ++ [e])
  obtain ⟨out, st, rows, h1, h2, -⟩ := binRun_all hm hp a
    (fun x hx => ⟨ha x hx, hb x (by simp [hx])⟩) e he (hb e (by simp)) (fuel := fuel) (by omega)
  refine ⟨out, st, h1, ?_⟩
  obtain ⟨o, gs, g1, g2, g3⟩ := h2.held
  have := queueCells_length g2
  rw [g3] at this
  rw [g1.dataLen]
  exact this.symm

/-! ### C22 -/

theorem Run.bind_prefix {α β γ : Type} (r : Run α) (f : α → Run β) (g : α → Run γ) (h : ∀ a, (f a).out <+: (g a).out) :
    (r.bind f).out <+: (r.bind g).out := by
  obtain ⟨out, res⟩ := r
  cases res with
  | ok a => exact (List.prefix_append_right_inj _).2 (h a)
  | err e => exact List.prefix_rfl
  | timeout => exact List.prefix_rfl

theorem loop_prefix {σ : Type} (mb ml : Option Int) (cb : σ → Bytes → Nat → Bool → Run σ) (io : List IoStep) (e : Err)
    (rest rest' : List IoStep) (offset lines : Nat) (st : σ) :
    (Reader.loop mb ml cb (io ++ .raise e :: rest) offset lines st).out <+:
      (Reader.loop mb ml cb (io ++ rest') offset lines st).out := by
  induction io generalizing offset lines st with
  | nil => simp [Reader.loop, Run.fail]
  | cons x io ih =>
    rw [List.cons_append, List.cons_append]
    cases x with
    | raise e' => exact List.prefix_rfl
    | data raw =>
      rw [Reader.loop, Reader.loop]
      split
      · exact List.prefix_rfl
      · simp only
        split
        · exact List.prefix_rfl
        · apply Run.bind_prefix
          intro st'
          split
          · exact List.prefix_rfl
          · exact ih _ _ _

/-- C22: if reading is interrupted (or fails) after some chunks, then what has been
printed is a prefix of what is printed when reading goes on, whatever follows. -/
theorem C22_prefix (fuel : Nat) (s : Settings) (term : Nat → Int) (io : List IoStep) (e : Err) (rest rest' : List IoStep) :
    (byteIoRun fuel s term none (io ++ .raise e :: rest)).out <+: (byteIoRun fuel s term none (io ++ rest')).out := by
  have key : ∀ io', (byteIoRun fuel s term none io').out =
      (Reader.loop (Config.create s).settings.maxBytes (Config.create s).settings.maxLines
        (processChunk fuel (Config.create s) term) io' 0 0 {}).out := by
    intro io'
    unfold byteIoRun Reader.read
    simp only
    generalize Reader.loop _ _ _ io' 0 0 ({} : State) = r
    obtain ⟨out, res⟩ := r
    cases res with
    | ok a => rfl
    | err e => cases e <;> rfl
    | timeout => rfl
  rw [key, key]
  exact loop_prefix _ _ _ io e rest rest' 0 0 ({} : State)

/-! ### Non-vacuity -/

/-- 5 bytes in two chunks, two columns, marker for the escape sequence. -/
def exampleChunks : List ReadEvent := [⟨[0x61, 0x1b, 0x5b], 0, false⟩, ⟨[0x31, 0x6d], 3, false⟩, ⟨[], 5, true⟩]

example : Complete exampleChunks ∧ Readable exampleChunks ∧
    ({ binary := true } : Settings).readMode.1 = .binary ∧
    (∀ off, BinaryFormatter.curCols ({ binary := true, columns := some 2 } : Settings) 80 off = 2) ∧
    (delivered exampleChunks).length < 9 ∧
    visible (session 9 { binary := true, columns := some 2 } (fun _ => 80) exampleChunks).out =
      "  0x0000│ 61 1b │aƎ\n  0x0002│ 5b 31 │[1\n  0x0004│ 6d    │m\n  0x0005│\n".toList := by
  refine ⟨⟨[⟨[0x61, 0x1b, 0x5b], 0, false⟩, ⟨[0x31, 0x6d], 3, false⟩], ⟨[], 5, true⟩, rfl, rfl, by simp⟩, ?_, rfl, fun _ => rfl, by decide, by decide +kernel⟩
  intro e he hb
  have := (anyBad_iff _).2 hb
  simp only [exampleChunks, List.mem_cons, List.not_mem_nil, or_false] at he
  rcases he with rfl | rfl | rfl <;> exact absurd this (by decide)

end Kolombos
