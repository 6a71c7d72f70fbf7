import Verif.Props.Display
/-
C112: which characters are underlined.
-/
set_option linter.unusedSimpArgs false

namespace Kolombos
open Spec

namespace Spec

/-- README.md:165: underlined are the bytes of escape sequences after the ESC character;
nothing is underlined in other pieces and in escape sequences that are ignored. -/
def underlinedBytes (s : Settings) (q : Kind × Bytes) : List Bool :=
  if classOfKind q.1 = .escapeSeq ∧ s.ignore .escapeSeq = false then false :: List.replicate (q.2.length - 1) true
  else List.replicate q.2.length false

end Spec

theorem SgrItem.copy_underline (i : SgrItem) (st : Style) : (SgrItem.copy st i).underline = st.underline := by
  cases i with
  | code n =>
    unfold SgrItem.copy
    dsimp only
    repeat' split
    all_goals rfl
  | indexed b n => cases b <;> rfl
  | rgb b r g bl => cases b <;> rfl

theorem copied_underline (p : Bytes) (st : Style) : (copied p st).underline = st.underline := by
  unfold copied
  generalize sgrItems (numbers (csiParams p)) = l
  induction l generalizing st with
  | nil => rfl
  | cons i l ih => rw [List.foldl_cons, ih, SgrItem.copy_underline]

theorem kindInk_underline (s : Settings) (k : Kind) : (kindInk s k).underline = 0 := by
  unfold kindInk
  split
  · rfl
  · split <;> cases k <;> rfl

theorem markerInk_underline (s : Settings) (k : Kind) (p : Bytes) : (markerInk s k p).underline = 0 := by
  unfold markerInk
  split
  · rw [copied_underline]
  · exact kindInk_underline s k

theorem escInk_underline (s : Settings) (k : Kind) (p : Bytes) : (escInk s k p).underline = 1 := by
  unfold escInk
  repeat' split
  · rw [copied_underline]; rfl
  · rfl
  · rfl

theorem inStyle_underline (st : Style) (t : Str) :
    (inStyle st t).map (fun x => decide (x.2.underline ≠ 0)) = List.replicate t.length (decide (st.underline ≠ 0)) := by
  induction t with
  | nil => rfl
  | cons c t ih =>
    rw [List.length_cons, List.replicate_succ, ← ih]
    rfl

theorem binGlyphs_length (s : Settings) {k : Kind} {p : Bytes} (hw : Wf k p) (hk : classOfKind k ≠ .escapeSeq) :
    (binGlyphs s k p).length = p.length := by
  unfold binGlyphs
  split
  · simp
  · cases k <;> first | exact absurd rfl hk | skip
    case utf8 =>
      obtain ⟨x, hx, rfl⟩ := hw.utf8_eq
      have hpos := List.length_pos_iff.2 (enc_ne_nil x)
      simp only
      split
      · rw [List.length_append, List.length_replicate, utf8Char_enc x hx, List.length_singleton]; omega
      · simp
    all_goals simp [asciiChars]

theorem binInk_esc (s : Settings) {k : Kind} {p : Bytes} (hi : s.ignore (classOfKind k) = false) (hk : classOfKind k = .escapeSeq) :
    binInk s (k, p) = (symbol k, markerInk s k p) :: inStyle (escInk s k p) (asciiChars (p.drop 1)) := by
  unfold binInk
  rw [if_neg (by rw [hi]; simp)]
  cases k <;> first | rfl | cases hk

theorem binInk_other (s : Settings) {k : Kind} {p : Bytes} (hi : s.ignore (classOfKind k) = false) (hk : classOfKind k ≠ .escapeSeq) :
    binInk s (k, p) = inStyle (kindInk s k) (binGlyphs s k p) := by
  unfold binInk
  rw [if_neg (by rw [hi]; simp)]
  cases k <;> first | rfl | exact absurd rfl hk

theorem binInk_underline (s : Settings) {q : Kind × Bytes} (hw : Wf q.1 q.2) :
    (binInk s q).map (fun x => decide (x.2.underline ≠ 0)) = underlinedBytes s q := by
  obtain ⟨k, p⟩ := q
  dsimp only at hw
  unfold underlinedBytes
  dsimp only
  by_cases hi : s.ignore (classOfKind k) = true
  · unfold binInk
    rw [if_pos hi, if_neg (by rintro ⟨h1, h2⟩; rw [h1, h2] at hi; cases hi), inStyle_underline, List.length_map]
    rfl
  · have hi := Bool.eq_false_iff.2 hi
    by_cases hk : classOfKind k = .escapeSeq
    · rw [if_pos ⟨hk, by rw [← hk]; exact hi⟩, binInk_esc s hi hk, List.map_cons, inStyle_underline, markerInk_underline, escInk_underline]
      simp [asciiChars]
    · rw [if_neg fun h => hk h.1, binInk_other s hi hk, inStyle_underline, kindInk_underline, binGlyphs_length s hw hk]
      rfl

/-- C112: in binary mode exactly the bytes of escape sequences after the ESC character
are underlined, in the hexadecimal column as well as in the column of characters, with
any options; nothing is if escape sequences are ignored. -/
theorem C112_binary (s : Settings) (hm : s.readMode.1 = .binary) (es : List ReadEvent) (hco : Complete es) (hr : Readable es) :
    ∃ cells : List Cell,
      cells.map Cell.byte = delivered es ∧
      cells.map (fun x => decide (x.style.underline ≠ 0)) = (chunkPieces (es.map (·.data))).flatMap (underlinedBytes s) ∧
      ∀ (c : Nat) (term : Nat → Int) (fuel : Nat), 0 < c → (delivered es).length < fuel →
        ∃ out st, session fuel (s.withColumns c) term es = ⟨out, .ok st⟩ ∧ appears out = rowsView s c cells := by
  obtain ⟨cells, h1, h2, h3⟩ := C51_binary s hm es hco hr
  refine ⟨cells, h1, ?_, h3⟩
  have : cells.map (fun x => decide (x.style.underline ≠ 0)) = (cells.map Cell.shown).map fun x => decide (x.2.underline ≠ 0) := by
    rw [List.map_map]; rfl
  rw [this, h2, List.map_flatMap]
  have hw : ∀ q ∈ chunkPieces (es.map (·.data)), Wf q.1 q.2 := fun q hq => (runPieces_good hr q hq).1
  generalize chunkPieces (es.map (·.data)) = l at hw
  induction l with
  | nil => rfl
  | cons q l ih =>
    rw [List.flatMap_cons, List.flatMap_cons, binInk_underline s (hw q (by simp)), ih fun x hx => hw x (by simp [hx])]

/-- The underlined characters. -/
def underlinedIn (l : List (Char × Style)) : Str := (l.filter fun x => decide (x.2.underline ≠ 0)).map Prod.fst

namespace Spec

/-- The details of a piece: the letter or the code of a control character, the names of
the parameters of an SGR sequence or all bytes of an escape sequence after ESC. -/
def markerDetails (s : Settings) (k : Kind) (p : Bytes) : Str :=
  if s.ignore (classOfKind k) ∨ s.marker ≤ 0 then []
  else if k = .ctrl then p.flatMap (ctrlDetail (level s))
  else if classOfKind k ≠ .escapeSeq then []
  else if s.marker ≠ 1 then asciiChars (p.drop 1)
  else if k = .sgr then (sgrItems (numbers (csiParams p))).flatMap SgrItem.name
  else []

end Spec

theorem underlinedIn_append (a b : List (Char × Style)) : underlinedIn (a ++ b) = underlinedIn a ++ underlinedIn b := by
  unfold underlinedIn
  rw [List.filter_append, List.map_append]

theorem underlinedIn_cons (a : Char × Style) (b : List (Char × Style)) :
    underlinedIn (a :: b) = (if a.2.underline ≠ 0 then [a.1] else []) ++ underlinedIn b := by
  unfold underlinedIn
  by_cases h : a.2.underline ≠ 0
  · rw [List.filter_cons_of_pos (by simpa using h), if_pos h]; rfl
  · rw [List.filter_cons_of_neg (by simpa using h), if_neg h]; rfl

theorem underlinedIn_inStyle (st : Style) (t : Str) : underlinedIn (inStyle st t) = if st.underline ≠ 0 then t else [] := by
  induction t with
  | nil => simp [underlinedIn, inStyle]
  | cons c t ih =>
    have : inStyle st (c :: t) = (c, st) :: inStyle st t := rfl
    rw [this, underlinedIn_cons, ih]
    dsimp only
    split <;> simp

theorem underlinedIn_dotted {st : Style} (h : st.underline ≠ 0) (l : List Str) : underlinedIn (dottedInk st l) = l.flatten := by
  induction l with
  | nil => rfl
  | cons a l ih =>
    cases l with
    | nil => rw [dottedInk, underlinedIn_inStyle, if_pos h]; simp
    | cons b l =>
      rw [dottedInk, underlinedIn_append, underlinedIn_inStyle, if_pos h, underlinedIn_cons, ih, if_neg (by simp)]
      · simp
      · simp

theorem level_cases (s : Settings) : (s.marker ≤ 0 ∧ level s = 0) ∨ (s.marker = 1 ∧ level s = 1) ∨ (¬ s.marker ≤ 0 ∧ s.marker ≠ 1 ∧ level s = 2) := by
  unfold level
  by_cases h : s.marker ≤ 0
  · exact .inl ⟨h, if_pos h⟩
  · by_cases h' : s.marker = 1
    · exact .inr (.inl ⟨h', by rw [if_neg h, if_pos h']⟩)
    · exact .inr (.inr ⟨h, h', by rw [if_neg h, if_neg h']⟩)

theorem escDetailInk_underlined (s : Settings) (k : Kind) (p : Bytes) :
    underlinedIn (escDetailInk s k p) =
      if s.marker ≤ 0 then [] else if s.marker ≠ 1 then asciiChars (p.drop 1)
      else if k = .sgr then (sgrItems (numbers (csiParams p))).flatMap SgrItem.name else [] := by
  have hu : (escInk s k p).underline ≠ 0 := by rw [escInk_underline]; decide
  unfold escDetailInk
  rcases level_cases s with ⟨h1, h2⟩ | ⟨h1, h2⟩ | ⟨h1, h2, h3⟩
  · rw [if_neg (by rw [h2]; rintro ⟨h, -⟩; cases h), if_pos h1, underlinedIn_inStyle, if_pos hu, h2]
    rfl
  · by_cases hk : k = .sgr
    · rw [if_pos ⟨h2, hk⟩, if_neg (by rw [h1]; decide), if_neg (fun h => h h1), if_pos hk, underlinedIn_dotted hu]
      rfl
    · rw [if_neg fun h => hk h.2, if_neg (by rw [h1]; decide), if_neg (fun h => h h1), if_neg hk, underlinedIn_inStyle, if_pos hu, h2, escDetail, if_neg (by decide), if_pos rfl, if_neg hk]
  · rw [if_neg (by rw [h3]; rintro ⟨h, -⟩; cases h), if_neg h1, if_pos h2, underlinedIn_inStyle, if_pos hu, h3]
    rfl

theorem textInk_underlined (s : Settings) (k : Kind) (p : Bytes) : underlinedIn (textInk s (k, p)) = markerDetails s k p := by
  unfold markerDetails
  by_cases hi : s.ignore (classOfKind k) = true
  · rw [if_pos (.inl hi)]
    unfold textInk
    rw [if_pos hi, underlinedIn_inStyle, if_neg (by simp [dimGrey])]
  · have hmk := markerInk_underline s k p
    have hd := escDetailInk_underlined s k p
    have hsep : ∀ c : Char, underlinedIn [(c, ({ fg := .indexed 255 } : Style))] = [] := fun _ => rfl
    have esc : classOfKind k = .escapeSeq → k ≠ .ctrl → textInk s (k, p) =
        (if enclosed s then
          ('⢸', ({ fg := .indexed 255 } : Style)) :: (symbol k, markerInk s k p) :: (escDetailInk s k p ++ [('⡇', ({ fg := .indexed 255 } : Style))])
        else (symbol k, markerInk s k p) :: escDetailInk s k p) := by
      intro hk _
      unfold textInk
      rw [if_neg hi]
      cases k <;> first | rfl | cases hk
    by_cases hc : k = .ctrl
    · subst hc
      unfold textInk
      rw [if_neg hi]
      dsimp only
      have hm := level_cases s
      by_cases h0 : s.marker ≤ 0
      · rw [if_pos (.inr h0)]
        have hl : level s = 0 := by rcases hm with h | h | h <;> omega
        rw [hl]
        clear hmk hd esc
        induction p with
        | nil => rfl
        | cons b p ih =>
          rw [List.flatMap_cons, underlinedIn_append, underlinedIn_cons, underlinedIn_inStyle, kindInk_underline, ctrlDetail, if_pos rfl, ih]
          rfl
      · rw [if_neg (by rintro (h | h) <;> contradiction), if_pos rfl]
        clear hmk hd esc
        induction p with
        | nil => rfl
        | cons b p ih =>
          rw [List.flatMap_cons, underlinedIn_append, underlinedIn_cons, underlinedIn_inStyle, kindInk_underline, ih, List.flatMap_cons]
          rfl
    · by_cases hk : classOfKind k = .escapeSeq
      · rw [esc hk hc]
        have hr : underlinedIn (escDetailInk s k p) =
            (if s.ignore (classOfKind k) = true ∨ s.marker ≤ 0 then []
            else if k = .ctrl then p.flatMap (ctrlDetail (level s)) else if classOfKind k ≠ .escapeSeq then []
            else if s.marker ≠ 1 then asciiChars (p.drop 1)
            else if k = .sgr then (sgrItems (numbers (csiParams p))).flatMap SgrItem.name else []) := by
          rw [hd]
          by_cases h0 : s.marker ≤ 0
          · rw [if_pos h0, if_pos (.inr h0)]
          · have h1 : ¬ (s.ignore (classOfKind k) = true ∨ s.marker ≤ 0) := by rintro (h | h) <;> contradiction
            have h2 : ¬ (classOfKind k ≠ .escapeSeq) := fun h => h hk
            rw [if_neg h0, if_neg h1, if_neg hc, if_neg (c := classOfKind k ≠ .escapeSeq) h2]
        rw [← hr]
        split
        · rw [underlinedIn_cons, underlinedIn_cons, underlinedIn_append, hsep, hmk]; simp
        · rw [underlinedIn_cons, hmk]; simp
      · have hz : (if s.ignore (classOfKind k) = true ∨ s.marker ≤ 0 then ([] : Str)
            else if k = .ctrl then p.flatMap (ctrlDetail (level s)) else if classOfKind k ≠ .escapeSeq then []
            else if s.marker ≠ 1 then asciiChars (p.drop 1)
            else if k = .sgr then (sgrItems (numbers (csiParams p))).flatMap SgrItem.name else []) = [] := by
          rw [if_neg hc, if_pos hk, ite_self]
        rw [hz]
        unfold textInk
        rw [if_neg hi]
        cases k <;> first
          | exact absurd rfl hc
          | exact absurd rfl hk
          | (dsimp only; rw [underlinedIn_inStyle, kindInk_underline]; rfl)
          | (dsimp only; rw [underlinedIn_cons, kindInk_underline]; rfl)

/-- C112, text mode: the underlined characters of a piece are exactly its details. -/
theorem C112_text (s : Settings) (hm : s.readMode.1 = .text) (es : List ReadEvent) (hco : Complete es) (hr : Readable es) :
    ∃ disp, ShowsText s es disp ∧ ∀ k p, underlinedIn (disp (k, p)) = markerDetails s k p :=
  ⟨textInk s, C51_text s hm es hco hr, textInk_underlined s⟩

/-! ### Examples -/

/-- An SGR sequence of five bytes between two letters. -/
def exampleSgr : List ReadEvent := [⟨[0x61, 0x1b, 0x5b, 0x33, 0x31, 0x6d, 0x62], 0, false⟩, ⟨[], 7, true⟩]

example : Complete exampleSgr := ⟨[⟨[0x61, 0x1b, 0x5b, 0x33, 0x31, 0x6d, 0x62], 0, false⟩], ⟨[], 7, true⟩, rfl, rfl, by simp⟩

example : Readable exampleSgr := by
  intro e he
  simp only [exampleSgr, List.mem_cons, List.not_mem_nil, or_false] at he
  rw [bad_dec]
  rcases he with rfl | rfl <;> decide

example : (chunkPieces (exampleSgr.map (·.data))).flatMap (underlinedBytes { binary := true, colorMarkers := true }) =
    [false, false, true, true, true, true, false] := by decide

/-- With `--color-markers` in binary mode, hexadecimal digits and characters. -/
example : underlinedIn (appears (session 99 { binary := true, colorMarkers := true, columns := some 8 } (fun _ => 80) exampleSgr).out) =
    " 5b 33 31 6d[31m".toList := by decide +kernel

/-- Ctrl-A and an SGR sequence with `-m` in text mode. -/
example : underlinedIn (appears (session 99 { marker := 1 } (fun _ => 80) exampleInk).out) = "1331AZ".toList := by decide +kernel

end Kolombos
