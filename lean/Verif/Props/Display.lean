import Verif.Lemmas.Ink
import Verif.Props.Text
/-
C29 - C33, C51: the display of the pieces with their styles.
-/
set_option linter.unusedSimpArgs false

namespace Kolombos
open Spec

/-! ### Display, piece by piece -/

/-- In text mode the input is displayed line by line, each line beginning with its label
and showing what `disp` gives for each of its pieces (without the last
`lostAt` characters if the last line is incomplete). -/
def ShowsText (s : Settings) (es : List ReadEvent) (disp : Kind × Bytes → List (Char × Style)) : Prop :=
  ∀ (term : Nat → Int) (fuel : Nat), 4 * (delivered es).length < fuel →
    ∃ out st, session fuel s term es = ⟨out, .ok st⟩ ∧
      appears out = (inkLines (labelInk s) disp (lostAt s) (chunkPieces (es.map (·.data)))).flatten

/-- In binary mode the bytes are displayed in rows of cells, whatever the number of
columns; the characters of the cells are what `disp` gives for the pieces. -/
def ShowsBinary (s : Settings) (es : List ReadEvent) (disp : Kind × Bytes → List (Char × Style)) : Prop :=
  ∃ cells : List Cell,
    cells.map Cell.byte = delivered es ∧ cells.map Cell.shown = (chunkPieces (es.map (·.data))).flatMap disp ∧
    ∀ (c : Nat) (term : Nat → Int) (fuel : Nat), 0 < c → (delivered es).length < fuel →
      ∃ out st, session fuel (s.withColumns c) term es = ⟨out, .ok st⟩ ∧
        appears out = rowsView s c cells

/-- C51, text mode: what appears on the terminal, characters and styles. -/
theorem C51_text (s : Settings) (hm : s.readMode.1 = .text) (es : List ReadEvent) (hco : Complete es) (hr : Readable es) :
    ShowsText s es (textInk s) := by
  intro term fuel hf
  obtain ⟨out, st, h1, h2⟩ := inkComplete hm term hco hr hf
  exact ⟨out, st, h1, h2.appears⟩

/-- C51, binary mode. -/
theorem C51_binary (s : Settings) (hm : s.readMode.1 = .binary) (es : List ReadEvent) (hco : Complete es) (hr : Readable es) :
    ShowsBinary s es (binInk s) := by
  refine ⟨allCells s es, allCells_byte hm es, allCells_shown hm hr, ?_⟩
  intro c term fuel hc hf
  have hm' : (s.withColumns c).readMode.1 = .binary := by
    rw [← hm]
    unfold Settings.readMode
    repeat' split
    all_goals rfl
  have hr' : Readable es := by
    intro e he hb
    exact hr e he ((anyBad_iff _).1 ((anyBad_iff _).2 hb))
  obtain ⟨out, st, h1, -, h2⟩ := binComplete hm' (term := term) hc (fun _ _ => rfl) hco hr' hf
  have hcells : allCells (s.withColumns c) es = allCells s es := by
    simp only [allCells, chunkCells, chunkSegs_columns]
  refine ⟨out, st, h1, ?_⟩
  rw [h2.appears, hcells, ← allCells_length hm es, ← rowsView_eq]
  rfl

/-! ### C29 -/

/-- C29, text mode: each byte of a piece of an ignored class appears as `×` in dim grey; a line
feed is followed by the line feed itself. -/
theorem C29_text (s : Settings) (hm : s.readMode.1 = .text) (es : List ReadEvent) (hco : Complete es) (hr : Readable es) :
    ∃ disp, ShowsText s es disp ∧ ∀ k p, s.ignore (classOfKind k) = true →
      disp (k, p) = (List.replicate p.length ('×', { fg := .basic 90, dim := true }) : List (Char × Style)) ++
        (if k = .newline then [('\n', { fg := .basic 90, dim := true })] else []) := by
  refine ⟨textInk s, C51_text s hm es hco hr, ?_⟩
  intro k p hi
  unfold textInk
  rw [if_pos hi]
  have : inStyle dimGrey (p.map fun _ => '×') = List.replicate p.length ('×', dimGrey) := by
    unfold inStyle; rw [List.map_map]; exact List.map_const' ..
  rw [inStyle_append, this]
  congr 1
  simp only
  split <;> rfl

/-- C29, binary mode. -/
theorem C29_binary (s : Settings) (hm : s.readMode.1 = .binary) (es : List ReadEvent) (hco : Complete es) (hr : Readable es) :
    ∃ disp, ShowsBinary s es disp ∧ ∀ k p, s.ignore (classOfKind k) = true →
      disp (k, p) = (List.replicate p.length ('×', { fg := .basic 90, dim := true }) : List (Char × Style)) := by
  refine ⟨binInk s, C51_binary s hm es hco hr, ?_⟩
  intro k p hi
  unfold binInk
  rw [if_pos hi]
  unfold inStyle; rw [List.map_map]; exact List.map_const' ..

/-! ### C30 -/

/-- The settings with other focused classes. -/
abbrev Settings.withFocus (s : Settings) (f : CharClass → Bool) : Settings := { s with focus := f }

theorem focus_readMode (s : Settings) (f : CharClass → Bool) : (s.withFocus f).readMode.1 = s.readMode.1 := by
  unfold Settings.readMode
  cases s.binary <;> cases s.text <;> rfl

theorem focus_kindInk {s : Settings} {f : CharClass → Bool} {k : Kind} (h : f (classOfKind k) = s.focus (classOfKind k)) :
    kindInk (s.withFocus f) k = kindInk s k := by
  unfold kindInk; simp only [h]

theorem focus_textGlyphs {s : Settings} {f : CharClass → Bool} {k : Kind} (h : f (classOfKind k) = s.focus (classOfKind k) ∨ k ≠ .space) (p : Bytes) :
    textGlyphs (s.withFocus f) k p = textGlyphs s k p := by
  unfold textGlyphs
  split
  · rfl
  · rcases h with h | h
    · cases k <;> first | rfl | (simp only [show f .whitespace = s.focus .whitespace from h])
    · cases k <;> first | rfl | exact absurd rfl h

theorem focus_binGlyphs {s : Settings} {f : CharClass → Bool} {k : Kind} (h : f (classOfKind k) = s.focus (classOfKind k) ∨ k ≠ .space) (p : Bytes) :
    binGlyphs (s.withFocus f) k p = binGlyphs s k p := by
  unfold binGlyphs
  split
  · rfl
  · rcases h with h | h
    · cases k <;> first | rfl | (simp only [show f .whitespace = s.focus .whitespace from h])
    · cases k <;> first | rfl | exact absurd rfl h

theorem focus_textInk {s : Settings} {f : CharClass → Bool} {q : Kind × Bytes} (h : f (classOfKind q.1) = s.focus (classOfKind q.1)) :
    textInk (s.withFocus f) q = textInk s q := by
  obtain ⟨k, p⟩ := q
  have h1 := focus_kindInk h
  have h2 := focus_textGlyphs (.inl h) p
  have hm : markerInk (s.withFocus f) k p = markerInk s k p := by unfold markerInk; rw [h1]
  unfold textInk
  simp only at h1 h2 ⊢
  split
  · rfl
  · cases k <;> simp only [h1, h2, hm] <;> rfl

theorem focus_binInk {s : Settings} {f : CharClass → Bool} {q : Kind × Bytes} (h : f (classOfKind q.1) = s.focus (classOfKind q.1)) :
    binInk (s.withFocus f) q = binInk s q := by
  obtain ⟨k, p⟩ := q
  have h1 := focus_kindInk h
  have h2 := focus_binGlyphs (.inl h) p
  have hm : markerInk (s.withFocus f) k p = markerInk s k p := by unfold markerInk; rw [h1]
  unfold binInk
  simp only at h1 h2 ⊢
  split
  · rfl
  · cases k <;> simp only [h1, h2, hm] <;> rfl

theorem escDetailInk_fst (s : Settings) (k : Kind) (p : Bytes) : (escDetailInk s k p).map Prod.fst = escDetail (level s) k p := by
  unfold escDetailInk
  split
  · rename_i h
    rw [← namesLayout_ink, namesLayout_dotted]
    unfold escDetail
    rw [if_neg (by omega), if_pos h.1, if_pos h.2]; rfl
  · exact inStyle_fst _ _

/-- The characters of the display with styles. -/
theorem textInk_fst (s : Settings) (q : Kind × Bytes) (hq : q.1 = .newline → q.2 = [0x0a]) :
    (textInk s q).map Prod.fst = textGlyphs s q.1 q.2 ++ (if q.1 = .newline then ['\n'] else []) := by
  obtain ⟨k, p⟩ := q
  unfold textInk textGlyphs
  simp only at hq ⊢
  split
  · rw [inStyle_fst]
  · have hesc : ∀ k, (if enclosed s then
        ('⢸', { fg := .indexed 255 }) :: (symbol k, markerInk s k p) :: (escDetailInk s k p ++ [('⡇', { fg := .indexed 255 })])
        else (symbol k, markerInk s k p) :: escDetailInk s k p).map Prod.fst =
        if enclosed s then '⢸' :: symbol k :: (escDetail (level s) k p ++ ['⡇']) else symbol k :: escDetail (level s) k p := by
      intro k
      split <;> simp [escDetailInk_fst]
    cases k <;> simp only [hesc] <;> simp [inStyle_fst, textGlyphs, *]
    all_goals first | rfl | (simp only [List.map_flatMap, List.map_cons, inStyle_fst]; rfl)

theorem binInk_fst (s : Settings) (q : Kind × Bytes) : (binInk s q).map Prod.fst = binGlyphs s q.1 q.2 := by
  obtain ⟨k, p⟩ := q
  unfold binInk binGlyphs
  simp only
  split
  · rw [inStyle_fst]
  · cases k <;> simp [inStyle_fst, binGlyphs, *]

/-- A space as it is displayed without focus. -/
def plainSpace (c : Char) : Char := if c = '·' then '␣' else c

/-- C30, text mode: with other focused classes, the same input is displayed line by line and
piece by piece; a piece whose class is focused in both cases or in none looks the
same, and every piece except spaces has the same characters (spaces: `·` for `␣`). -/
theorem C30_text (s : Settings) (hm : s.readMode.1 = .text) (f : CharClass → Bool) (es : List ReadEvent) (hco : Complete es) (hr : Readable es) :
    ∃ disp disp', ShowsText s es disp ∧ ShowsText (s.withFocus f) es disp' ∧ ∀ q ∈ chunkPieces (es.map (·.data)),
      (f (classOfKind q.1) = s.focus (classOfKind q.1) → disp' q = disp q) ∧
      (q.1 ≠ .space → (disp' q).map Prod.fst = (disp q).map Prod.fst) ∧
      ((disp' q).map fun x => plainSpace x.1) = (disp q).map fun x => plainSpace x.1 := by
  refine ⟨textInk s, textInk (s.withFocus f), C51_text s hm es hco hr,
    C51_text _ (by rw [focus_readMode]; exact hm) es hco hr, ?_⟩
  intro q hq
  have hw := (runPieces_good hr q hq).1
  have hnl : q.1 = .newline → q.2 = [0x0a] := by
    intro h; obtain ⟨k, p⟩ := q; simp only at h hw; subst h; exact hw.newline_eq
  have hchars : q.1 ≠ .space → (textInk (s.withFocus f) q).map Prod.fst = (textInk s q).map Prod.fst := by
    intro h
    rw [textInk_fst _ _ hnl, textInk_fst _ _ hnl, focus_textGlyphs (.inr h)]
  refine ⟨focus_textInk, hchars, ?_⟩
  have e : ∀ l : List (Char × Style), (l.map fun x => plainSpace x.1) = (l.map Prod.fst).map plainSpace := by
    intro l; rw [List.map_map]; rfl
  rw [e, e]
  by_cases h : q.1 = .space
  · rw [textInk_fst _ _ hnl, textInk_fst _ _ hnl]
    obtain ⟨k, p⟩ := q
    simp only at h
    subst h
    unfold textGlyphs
    simp only [reduceCtorEq, if_false, List.append_nil]
    split
    · rfl
    · simp only [List.map_map, symbol]
      apply List.map_congr_left
      intro b _
      simp only [Function.comp_apply]
      split <;> split <;> decide
  · rw [hchars h]

/-- C30, binary mode. -/
theorem C30_binary (s : Settings) (hm : s.readMode.1 = .binary) (f : CharClass → Bool) (es : List ReadEvent) (hco : Complete es) (hr : Readable es) :
    ∃ disp disp', ShowsBinary s es disp ∧ ShowsBinary (s.withFocus f) es disp' ∧ ∀ q ∈ chunkPieces (es.map (·.data)),
      (f (classOfKind q.1) = s.focus (classOfKind q.1) → disp' q = disp q) ∧
      (q.1 ≠ .space → (disp' q).map Prod.fst = (disp q).map Prod.fst) ∧
      ((disp' q).map fun x => plainSpace x.1) = (disp q).map fun x => plainSpace x.1 := by
  refine ⟨binInk s, binInk (s.withFocus f), C51_binary s hm es hco hr,
    C51_binary _ (by rw [focus_readMode]; exact hm) es hco hr, ?_⟩
  intro q hq
  have hchars : q.1 ≠ .space → (binInk (s.withFocus f) q).map Prod.fst = (binInk s q).map Prod.fst := by
    intro h
    rw [binInk_fst, binInk_fst, focus_binGlyphs (.inr h)]
  refine ⟨focus_binInk, hchars, ?_⟩
  have e : ∀ l : List (Char × Style), (l.map fun x => plainSpace x.1) = (l.map Prod.fst).map plainSpace := by
    intro l; rw [List.map_map]; rfl
  rw [e, e]
  by_cases h : q.1 = .space
  · rw [binInk_fst, binInk_fst]
    obtain ⟨k, p⟩ := q
    simp only at h
    subst h
    unfold binGlyphs
    split
    · rfl
    · simp only [List.map_map, symbol]
      apply List.map_congr_left
      intro b _
      simp only [Function.comp_apply]
      split <;> split <;> decide
  · rw [hchars h]

/-! ### C31 -/

/-- Control characters occur in runs of control characters only. -/
theorem Wf.ctrl_kind {k : Kind} {p : Bytes} (h : Wf k p) {b : Byte} (hb : b ∈ p) (hc : isCtrl b = true) : k = .ctrl := by
  have hlt := isCtrl_lt hc
  have h127 : ∀ {lo hi : Nat}, between lo hi b = true → 32 ≤ lo → False := by
    intro lo hi h1 h2; simp [between] at h1; omega
  have hne : b ≠ 0x1b := by rintro rfl; exact absurd hc (by decide)
  cases h with
  | utf8 c hc' =>
    exfalso
    have hhigh : ∀ x ∈ enc c, 128 ≤ x.toNat := by
      have hv := char_valid c
      intro x hx
      by_cases h2 : c.toNat < 0x800
      · rw [enc2 c hc' h2] at hx
        simp at hx
        rcases hx with rfl | rfl <;> simp <;> omega
      by_cases h3 : c.toNat < 0x10000
      · rw [enc3 c (by omega) h3] at hx
        simp at hx
        rcases hx with rfl | rfl | rfl <;> simp <;> omega
      · rw [enc4 c (by omega)] at hx
        simp at hx
        rcases hx with rfl | rfl | rfl | rfl <;> simp <;> omega
    have := hhigh b hb
    omega
  | esc => exfalso; rw [List.mem_singleton.1 hb] at hc; exact absurd hc (by decide)
  | newline => exfalso; rw [List.mem_singleton.1 hb] at hc; exact absurd hc (by decide)
  | run hr _ hall =>
    have := hall b hb
    cases k <;> first | rfl | (cases hr; done) | skip
    all_goals
      exfalso
      cases hr
      first
        | exact h127 this (by decide)
        | (simp only [beq_iff_eq] at this; rw [this] at hc; exact absurd hc (by decide))
  | csi _ h1 h2 h3 =>
    exfalso
    simp only [List.mem_cons, List.mem_append, List.not_mem_nil, or_false] at hb
    rcases hb with hb | hb | (hb | hb) | hb
    · exact hne hb
    · rw [hb] at hc; exact absurd hc (by decide)
    · exact h127 (h1 _ hb) (by decide)
    · exact h127 (h2 _ hb) (by decide)
    · rw [← hb] at h3; exact h127 h3 (by decide)
  | seq _ _ _ h2 =>
    exfalso
    rcases List.mem_cons.1 hb with hb | hb
    · exact hne hb
    · exact h127 (h2 _ hb) (by decide)

/-- C31: in text mode, a piece with a control character 01-07, 0e-1a or 1c-1f in it consists of such
characters; each appears as its marker, followed by nothing (`-m 0`), by
its letter in caret notation (`-m 1`), or by its code (`-m 2`). -/
theorem C31_controls (s : Settings) (hm : s.readMode.1 = .text) (hi : s.ignore .controlChar = false) (es : List ReadEvent)
    (hco : Complete es) (hr : Readable es) :
    ∃ disp, ShowsText s es disp ∧ ∀ q ∈ chunkPieces (es.map (·.data)), (∃ b ∈ q.2, isCtrl b = true) →
      (∀ b ∈ q.2, isCtrl b = true) ∧
      (s.marker ≤ 0 → (disp q).map Prod.fst = q.2.flatMap fun _ => ['Ɐ']) ∧
      (s.marker = 1 → (disp q).map Prod.fst = q.2.flatMap fun b => ['Ɐ', Char.ofNat (b.toNat + 0x40)]) ∧
      (2 ≤ s.marker → (disp q).map Prod.fst = q.2.flatMap fun b => ['Ɐ', hexDigit (b.toNat / 16), hexDigit (b.toNat % 16)]) := by
  refine ⟨textInk s, C51_text s hm es hco hr, ?_⟩
  rintro ⟨k, p⟩ hq ⟨b, hb, hc⟩
  have hw := (runPieces_good hr _ hq).1
  simp only at hw hb
  have hk := hw.ctrl_kind hb hc
  subst hk
  have hall := hw.run_all (q := isCtrl) rfl
  have hg : (textInk s (.ctrl, p)).map Prod.fst = p.flatMap fun b => 'Ɐ' :: ctrlDetail (level s) b := by
    rw [textInk_fst _ _ (by simp)]
    simp only [reduceCtorEq, if_false, List.append_nil]
    unfold textGlyphs
    rw [if_neg (by rw [show classOfKind .ctrl = .controlChar from rfl, hi]; simp)]
    rfl
  refine ⟨hall, ?_, ?_, ?_⟩
  · intro h
    rw [hg]
    have : level s = 0 := by unfold level; rw [if_pos h]
    simp only [this, ctrlDetail, if_true]
  · intro h
    rw [hg]
    have : level s = 1 := by unfold level; rw [if_neg (by omega), if_pos h]
    simp only [this, ctrlDetail, if_true, if_neg (show ¬(1 = 0) by decide)]
  · intro h
    rw [hg]
    have : level s = 2 := by unfold level; rw [if_neg (by omega), if_neg (by omega)]
    simp only [this, ctrlDetail, if_neg (show ¬(2 = 0) by decide), if_neg (show ¬(2 = 1) by decide)]

/-! ### C33 -/

theorem copy_keeps (st : Style) (i : SgrItem) : (i.copy st).bold = st.bold ∧ (i.copy st).underline = st.underline ∧ (i.copy st).blink = st.blink ∧
    (i.copy st).inverse = st.inverse ∧ (i.copy st).hidden = st.hidden := by
  cases i with
  | code n =>
    unfold SgrItem.copy
    simp only
    repeat' split
    all_goals exact ⟨rfl, rfl, rfl, rfl, rfl⟩
  | indexed bg n => unfold SgrItem.copy; cases bg <;> simp
  | rgb bg r g b => unfold SgrItem.copy; cases bg <;> simp

theorem copied_keeps (p : Bytes) (st : Style) : (copied p st).bold = st.bold ∧ (copied p st).underline = st.underline ∧ (copied p st).blink = st.blink ∧
    (copied p st).inverse = st.inverse ∧ (copied p st).hidden = st.hidden := by
  unfold copied
  generalize sgrItems (numbers (csiParams p)) = is
  induction is generalizing st with
  | nil => simp
  | cons i is ih =>
    have h1 := copy_keeps st i
    have h2 := ih (i.copy st)
    rw [List.foldl_cons]
    exact ⟨h2.1.trans h1.1, h2.2.1.trans h1.2.1, h2.2.2.1.trans h1.2.2.1, h2.2.2.2.1.trans h1.2.2.2.1, h2.2.2.2.2.trans h1.2.2.2.2⟩

/-- Neither bold nor blinking, inverse or hidden. -/
def Calm (st : Style) : Prop := st.bold = false ∧ st.blink = 0 ∧ st.inverse = false ∧ st.hidden = false

theorem copied_calm {p : Bytes} {st : Style} (h : Calm st) : Calm (copied p st) := by
  obtain ⟨h1, -, h3, h4, h5⟩ := copied_keeps p st
  exact ⟨h1.trans h.1, h3.trans h.2.1, h4.trans h.2.2.1, h5.trans h.2.2.2⟩

theorem inStyle_calm {st : Style} (h : Calm st) (t : Str) : ∀ x ∈ inStyle st t, Calm x.2 := by
  intro x hx
  obtain ⟨c, -, rfl⟩ := List.mem_map.1 hx
  exact h

theorem dottedInk_calm {st : Style} (h : Calm st) (ns : List Str) : ∀ x ∈ dottedInk st ns, Calm x.2 := by
  induction ns with
  | nil => intro x hx; cases hx
  | cons y r ih =>
    cases r with
    | nil => exact inStyle_calm h y
    | cons z r =>
      intro x hx
      rw [dottedInk] at hx
      · rcases List.mem_append.1 hx with hx | hx
        · exact inStyle_calm h y x hx
        · rcases List.mem_cons.1 hx with rfl | hx
          · exact h
          · exact ih x hx
      · simp

theorem escDetailInk_calm {s : Settings} {p : Bytes} (hc : s.colorMarkers = true) : ∀ x ∈ escDetailInk s .sgr p, Calm x.2 := by
  have h : Calm (escInk s .sgr p) := by
    unfold escInk
    rw [if_pos rfl, if_pos hc]
    exact copied_calm ⟨rfl, rfl, rfl, rfl⟩
  unfold escDetailInk
  split
  · exact dottedInk_calm h _
  · exact inStyle_calm h _

theorem markerInk_copied {s : Settings} (p : Bytes) (hc : s.colorMarkers = true) : markerInk s .sgr p = copied p {} := by
  unfold markerInk; rw [if_pos ⟨rfl, hc⟩]

/-- C33, text mode: with `--color-markers` the marker of an SGR sequence appears in the style
that its parameters, taken from left to right, give when only dim, italic, crossed,
overlined and complete colours are applied; it is not underlined, and nothing
displayed for the sequence is bold, blinking, inverse or hidden. -/
theorem C33_text (s : Settings) (hm : s.readMode.1 = .text) (hc : s.colorMarkers = true) (hi : s.ignore .escapeSeq = false) (es : List ReadEvent)
    (hco : Complete es) (hr : Readable es) :
    ∃ disp, ShowsText s es disp ∧ ∀ p, ('ǝ', (sgrItems (numbers (csiParams p))).foldl SgrItem.copy {}) ∈ disp (.sgr, p) ∧
      (∀ x ∈ disp (.sgr, p), Calm x.2) ∧ ((sgrItems (numbers (csiParams p))).foldl SgrItem.copy {}).underline = 0 := by
  refine ⟨textInk s, C51_text s hm es hco hr, ?_⟩
  intro p
  have e : textInk s (.sgr, p) = (if enclosed s then
        ('⢸', { fg := .indexed 255 }) :: ('ǝ', copied p {}) :: (escDetailInk s .sgr p ++ [('⡇', { fg := .indexed 255 })])
      else ('ǝ', copied p {}) :: escDetailInk s .sgr p) := by
    rw [← markerInk_copied p hc]
    unfold textInk
    rw [if_neg (by rw [show classOfKind (Kind.sgr, p).1 = .escapeSeq from rfl, hi]; simp)]
    rfl
  rw [e]
  have hcalm : Calm (copied p {}) := copied_calm ⟨rfl, rfl, rfl, rfl⟩
  refine ⟨?_, ?_, (copied_keeps p {}).2.1⟩
  · split <;> simp [copied]
  · split
    · intro x hx
      simp only [List.mem_cons, List.mem_append, List.not_mem_nil, or_false] at hx
      rcases hx with rfl | rfl | hx | rfl
      · exact ⟨rfl, rfl, rfl, rfl⟩
      · exact hcalm
      · exact escDetailInk_calm hc x hx
      · exact ⟨rfl, rfl, rfl, rfl⟩
    · intro x hx
      rcases List.mem_cons.1 hx with rfl | hx
      · exact hcalm
      · exact escDetailInk_calm hc x hx

/-- C33, binary mode. -/
theorem C33_binary (s : Settings) (hm : s.readMode.1 = .binary) (hc : s.colorMarkers = true) (hi : s.ignore .escapeSeq = false) (es : List ReadEvent)
    (hco : Complete es) (hr : Readable es) :
    ∃ disp, ShowsBinary s es disp ∧ ∀ p, ('ǝ', (sgrItems (numbers (csiParams p))).foldl SgrItem.copy {}) ∈ disp (.sgr, p) ∧
      (∀ x ∈ disp (.sgr, p), Calm x.2) := by
  refine ⟨binInk s, C51_binary s hm es hco hr, ?_⟩
  intro p
  have e : binInk s (.sgr, p) = ('ǝ', copied p {}) :: inStyle (escInk s .sgr p) (asciiChars (p.drop 1)) := by
    rw [← markerInk_copied p hc]
    unfold binInk
    rw [if_neg (by rw [show classOfKind (Kind.sgr, p).1 = .escapeSeq from rfl, hi]; simp)]
    rfl
  rw [e]
  refine ⟨by simp [copied], ?_⟩
  intro x hx
  rcases List.mem_cons.1 hx with rfl | hx
  · exact copied_calm ⟨rfl, rfl, rfl, rfl⟩
  · refine inStyle_calm ?_ _ x hx
    unfold escInk
    rw [if_pos rfl, if_pos hc]
    exact copied_calm ⟨rfl, rfl, rfl, rfl⟩

theorem sgrItems_harmless (ns : List Nat) (h : ∀ i ∈ sgrItems ns, i.harmless ≠ []) : (sgrItems ns).flatMap SgrItem.harmless = ns := by
  fun_induction sgrItems ns with
  | case1 n r ih => simp [SgrItem.harmless, ih fun i hi => h i (by simp [hi])]
  | case2 n r ih => simp [SgrItem.harmless, ih fun i hi => h i (by simp [hi])]
  | case3 x y z r ih => simp [SgrItem.harmless, ih fun i hi => h i (by simp [hi])]
  | case4 x y z r ih => simp [SgrItem.harmless, ih fun i hi => h i (by simp [hi])]
  | case5 n r _ _ _ _ ih =>
    have h1 := h (.code n) (by simp)
    rw [List.flatMap_cons, ih fun i hi => h i (by simp [hi])]
    unfold SgrItem.harmless at h1 ⊢
    simp only at h1 ⊢
    split at h1
    · rename_i hx; rw [if_pos hx]; rfl
    · exact absurd rfl h1
  | case6 => rfl

/-- C33: if all elements of the parameters may be applied, the style of the marker is the style
the sequence itself gives on a terminal. -/
theorem C33_faithful (p : Bytes) (h : ∀ i ∈ sgrItems (numbers (csiParams p)), i.harmless ≠ []) :
    (sgrItems (numbers (csiParams p))).foldl SgrItem.copy {} = applySgr (numbers (csiParams p)) {} := by
  rw [← harmless_copies, sgrItems_harmless _ h]

/-! ### C32 -/

/-- The number of bytes counted for a piece in text mode: control characters with
details count as much as their codes, escape sequences without details count as one. -/
def countedBytes (s : Settings) (q : Kind × Bytes) : Nat :=
  if q.1 = .ctrl ∧ level s ≠ 0 then (q.2.map UInt8.toNat).sum
  else if classOfKind q.1 = .escapeSeq ∧ s.ignore .escapeSeq = false ∧ level s = 0 then 1
  else q.2.length

theorem total_flatMap_ctrl (s : Settings) (p : Bytes) : total (p.flatMap (ctrlSegments s)) = (p.map UInt8.toNat).sum := by
  induction p with
  | nil => rfl
  | cons b p ih =>
    rw [List.flatMap_cons, total_append, ih, List.map_cons, List.sum_cons]
    congr 1
    unfold ctrlSegments ctrlDetails
    rw [total_cons]
    split <;> simp [total, Segment.dataLen]

theorem segsOf_total {s : Settings} (hr : s.readMode.1 = .text) {q : Kind × Bytes} (hw : Wf q.1 q.2) : total (segsOf s q) = countedBytes s q := by
  have hlv := level_details hr
  have hig := displayOf_ignored s q.1
  unfold segsOf segmentsOf countedBytes
  by_cases he : isEscKind q.1 = true ∧ displayOf s q.1 ≠ .ignored
  · have hcl : classOfKind q.1 = .escapeSeq := by
      have := he.1
      cases hk : q.1 <;> rw [hk] at this <;> first | (cases this; done) | rfl
    have hni : s.ignore .escapeSeq = false := by
      cases h : s.ignore .escapeSeq with
      | false => rfl
      | true => exact absurd (hig.2 (by rw [hcl]; exact h)) he.2
    rw [if_pos he, if_neg (by rintro ⟨h, -⟩; rw [h] at he; cases he.1)]
    have hbody : total (escBody s q.1 q.2 (detailsFn q)) = (if level s = 0 then 1 else q.2.length) := by
      obtain ⟨t, e, -, -⟩ := hw.esc_form he.1
      unfold escBody
      rw [hlv, e]
      by_cases h0 : level s = 0
      · simp [h0, total]
      · by_cases h1 : level s = 1
        · simp [h1, total]
        · simp [h0, h1, total]
    have hseg : total (escSegments s q.1 q.2 (detailsFn q)) = total (escBody s q.1 q.2 (detailsFn q)) := by
      unfold escSegments
      split
      · rw [total_cons, total_append, total_cons, total_nil]
        simp [sepSegment, Segment.dataLen]
      · rfl
    rw [hseg, hbody]
    by_cases h0 : level s = 0
    · rw [if_pos h0, if_pos ⟨hcl, hni, h0⟩]
    · rw [if_neg h0, if_neg fun h => h0 h.2.2]
  · rw [if_neg he]
    by_cases hc : q.1 = .ctrl ∧ level s ≠ 0
    · rw [if_pos hc, if_pos, total_flatMap_ctrl]
      refine ⟨hc.1, ?_⟩
      rw [hlv, if_neg hc.2]
      split <;> simp
    · rw [if_neg hc, if_neg, if_neg]
      · simp [total]
      · rintro ⟨h1, h2, -⟩
        refine he ⟨?_, fun h => ?_⟩
        · cases hk : q.1 <;> rw [hk] at h1 <;> first | (cases h1; done) | rfl
        · have := hig.1 h
          rw [h1, h2] at this; cases this
      · rintro ⟨h1, h2⟩
        refine hc ⟨h1, fun h0 => ?_⟩
        rw [hlv, if_pos h0] at h2
        simp at h2

theorem segs_total {s : Settings} (hr : s.readMode.1 = .text) {qs : List (Kind × Bytes)} (hw : ∀ q ∈ qs, Wf q.1 q.2) :
    total (qs.flatMap (segsOf s)) = (qs.map (countedBytes s)).sum := by
  induction qs with
  | nil => rfl
  | cons q qs ih =>
    rw [List.flatMap_cons, total_append, segsOf_total hr (hw q (by simp)), ih fun q hq => hw q (by simp [hq])]
    rfl

/-- C32, what is true: the offset after a complete input in text mode is the sum of
`countedBytes`. -/
theorem C32_offset_partial (s : Settings) (hm : s.readMode.1 = .text) (term : Nat → Int) (es : List ReadEvent)
    (hco : Complete es) (hr : Readable es) (fuel : Nat) (hf : 4 * (delivered es).length < fuel) :
    ∃ out st, session fuel s term es = ⟨out, .ok st⟩ ∧ st.offset = ((chunkPieces (es.map (·.data))).map (countedBytes s)).sum := by
  obtain ⟨out, st, lines, bs, h1, -, -, -, h2⟩ := textComplete hm term hco hr hf
  refine ⟨out, st, h1, ?_⟩
  rw [h2, allSegs_pieces, segs_total hm fun q hq => (runPieces_good hr q hq).1]
  rfl

/-- C32 for inputs without control characters 01-07, 0e-1a, 1c-1f, if escape sequences are displayed with
details or ignored: the offset is the number of bytes read. -/
theorem C32_exact_partial (s : Settings) (hm : s.readMode.1 = .text) (term : Nat → Int) (es : List ReadEvent)
    (hco : Complete es) (hr : Readable es) (fuel : Nat) (hf : 4 * (delivered es).length < fuel)
    (hc : ∀ b ∈ delivered es, isCtrl b = false) (hd : 1 ≤ s.marker ∨ s.ignore .escapeSeq = true) :
    ∃ out st, session fuel s term es = ⟨out, .ok st⟩ ∧ st.offset = (delivered es).length := by
  obtain ⟨out, st, h1, h2⟩ := C32_offset_partial s hm term es hco hr fuel hf
  refine ⟨out, st, h1, ?_⟩
  rw [h2, ← runPieces_bytes]
  show _ = (bytesOf (runPieces es)).length
  have hmem : ∀ q ∈ runPieces es, ∀ b ∈ q.2, isCtrl b = false := by
    intro q hq b hb
    apply hc
    rw [← runPieces_bytes]
    exact List.mem_flatMap.2 ⟨q, hq, hb⟩
  have hw : ∀ q ∈ runPieces es, Wf q.1 q.2 := fun q hq => (runPieces_good hr q hq).1
  show ((runPieces es).map _).sum = _
  unfold bytesOf
  generalize runPieces es = qs at hmem hw
  induction qs with
  | nil => rfl
  | cons q qs ih =>
    rw [List.map_cons, List.sum_cons, ih (fun q hq => hmem q (by simp [hq])) (fun q hq => hw q (by simp [hq])), List.flatMap_cons, List.length_append]
    congr 1
    unfold countedBytes
    rw [if_neg, if_neg]
    · rintro ⟨-, h1, h2⟩
      rcases hd with hd | hd
      · unfold level at h2
        rw [if_neg (by omega)] at h2
        split at h2 <;> cases h2
      · rw [hd] at h1; cases h1
    · rintro ⟨hk, -⟩
      have hwq := hw q (by simp)
      have hne := hwq.ne_nil
      cases hp : q.2 with
      | nil => exact hne hp
      | cons b p =>
        have := hwq.run_all (q := isCtrl) (by rw [hk]; rfl) b (by rw [hp]; simp)
        rw [hmem q (by simp) b (by rw [hp]; simp)] at this
        cases this

/-- C32 is false: with marker details the control character 1a counts as 26 bytes. -/
theorem C32_negation : ¬ ∀ (s : Settings) (term : Nat → Int) (es : List ReadEvent) (fuel : Nat) (out : Str) (st : State), s.readMode.1 = .text → Complete es →
    Readable es → 4 * (delivered es).length < fuel → session fuel s term es = ⟨out, .ok st⟩ → st.offset = (delivered es).length := by
  intro h
  have hco : Complete [⟨[0x1a], 0, false⟩, ⟨[], 1, true⟩] := ⟨[⟨[0x1a], 0, false⟩], ⟨[], 1, true⟩, rfl, rfl, by simp⟩
  have hr : Readable [⟨[0x1a], 0, false⟩, ⟨[], 1, true⟩] := by
    intro e he
    simp only [List.mem_cons, List.not_mem_nil, or_false] at he
    rw [bad_dec]
    rcases he with rfl | rfl <;> decide
  obtain ⟨out, st, h1, h2⟩ := C32_offset_partial { marker := 1 } rfl (fun _ => 80) _ hco hr 9 (by decide)
  have := h { marker := 1 } (fun _ => 80) _ 9 out st rfl hco hr (by decide) h1
  rw [h2] at this
  exact absurd this (by decide)

/-! ### Concrete cases -/

/-- Ignored whitespace in text mode (C29, C51). -/
def ignoreBlanks : Settings := { ignore := fun c => c = .whitespace, noLineNumbers := true, marker := 1, colorMarkers := true }

/-- A tab, a space, an SGR sequence with several parameters, control characters and two lines. -/
def exampleInk : List ReadEvent :=
  [⟨[0x09, 0x20, 0x1b, 0x5b, 0x31, 0x3b, 0x33, 0x3b, 0x33, 0x31, 0x6d, 0x0a], 0, false⟩, ⟨[0x01, 0x1a, 0x61, 0x0a], 12, false⟩, ⟨[], 16, true⟩]

theorem exampleInk_complete : Complete exampleInk :=
  ⟨[⟨[0x09, 0x20, 0x1b, 0x5b, 0x31, 0x3b, 0x33, 0x3b, 0x33, 0x31, 0x6d, 0x0a], 0, false⟩, ⟨[0x01, 0x1a, 0x61, 0x0a], 12, false⟩], ⟨[], 16, true⟩, rfl, rfl, by simp⟩

theorem exampleInk_readable : Readable exampleInk := by
  intro e he
  simp only [exampleInk, List.mem_cons, List.not_mem_nil, or_false] at he
  rw [bad_dec]
  rcases he with rfl | rfl | rfl <;> decide

example : ∃ disp, ShowsText ignoreBlanks exampleInk disp ∧ disp (.tab, [0x09]) = [('×', { fg := .basic 90, dim := true })] := by
  obtain ⟨disp, h1, h2⟩ := C29_text ignoreBlanks rfl exampleInk exampleInk_complete exampleInk_readable
  exact ⟨disp, h1, h2 .tab [0x09] (by decide)⟩

example : appears (session 99 ignoreBlanks (fun _ => 80) exampleInk).out =
    inStyle dimGrey ['×', '×'] ++ [('⢸', { fg := .indexed 255 }), ('ǝ', { italic := true, fg := .basic 31 })] ++
    inStyle { italic := true, fg := .basic 31, bg := .indexed 16, underline := 1 } "1".toList ++ [('･', { italic := true, fg := .basic 31, bg := .indexed 16 })] ++
    inStyle { italic := true, fg := .basic 31, bg := .indexed 16, underline := 1 } "3".toList ++ [('･', { italic := true, fg := .basic 31, bg := .indexed 16 })] ++
    inStyle { italic := true, fg := .basic 31, bg := .indexed 16, underline := 1 } "31".toList ++ [('⡇', { fg := .indexed 255 })] ++
    inStyle dimGrey ['×', '\n'] ++
    [('Ɐ', { fg := .basic 31 }), ('A', { fg := .basic 31, bg := .indexed 16, underline := 1 }), ('Ɐ', { fg := .basic 31 }), ('Z', { fg := .basic 31, bg := .indexed 16, underline := 1 }),
      ('a', { fg := .indexed 102 })] ++ inStyle dimGrey ['×', '\n'] := by decide +kernel

/-- Focus on whitespace changes spaces and colours (C30). -/
example : (appears (session 99 { focus := fun c => c = .whitespace, noLineNumbers := true } (fun _ => 80) exampleInk).out).take 4 =
    inStyle { fg := .basic 30, bg := .basic 46 } "⇥\t·".toList ++ [('ǝ', { fg := .indexed 210, bg := .indexed 16 })] := by decide +kernel

example : (appears (session 99 { noLineNumbers := true } (fun _ => 80) exampleInk).out).take 4 =
    inStyle { fg := .basic 96 } "⇥\t␣".toList ++ [('ǝ', { fg := .indexed 210, bg := .indexed 16 })] := by decide +kernel

/-- Parameters that may all be applied (C33). -/
example : (∀ i ∈ sgrItems (numbers (csiParams [0x1b, 0x5b, 0x33, 0x3b, 0x33, 0x31, 0x6d])), i.harmless ≠ []) ∧
    applySgr (numbers (csiParams [0x1b, 0x5b, 0x33, 0x3b, 0x33, 0x31, 0x6d])) {} = { italic := true, fg := .basic 31 } := by decide

/-- The offset of C32 with and without control characters. -/
example : ((chunkPieces (exampleInk.map (·.data))).map (countedBytes ignoreBlanks)).sum = 41 ∧ (delivered exampleInk).length = 16 := by decide +kernel

end Kolombos
