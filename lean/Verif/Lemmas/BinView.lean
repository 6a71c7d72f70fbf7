import Verif.Lemmas.BinRun
import Verif.Lemmas.TextRun
import Verif.Lemmas.Lines
import Verif.Props.Errors
/-
Binary output line by line.
-/
set_option linter.unusedSimpArgs false

namespace Kolombos
open Spec

theorem printOffsets_eq (s : Settings) : offsetsShown s = s.printOffsets := by
  unfold offsetsShown Settings.printOffsets
  by_cases h : s.debug = 0 <;> simp [h]

theorem map_inStyle (st : Style) (t : Str) : (inStyle st t).map Prod.fst = t := inStyle_fst st t

/-- The prefix without its colours. -/
theorem prefixLayout_text (s : Settings) (color off : Nat) :
    (prefixLayout s color off).map Prod.fst = alignRight 8 ((Console.offsetLabel s off).take 8) ++ ['│'] := by
  unfold prefixLayout sepLayout alignRight
  split
  · simp only [List.map_append, map_inStyle]
  · simp only [List.map_append, map_inStyle]
    rw [List.take_append_drop]

theorem alignRight_length {w : Nat} {t : Str} (h : t.length ≤ w) : (alignRight w t).length = w := by
  unfold alignRight
  simp; omega

theorem rjust_length {w : Nat} {t : Str} (h : t.length ≤ w) (c : Char) : (rjust w c t).length = w := by
  unfold rjust
  rw [List.length_append, List.length_replicate]; omega

theorem prefixLayout_length (s : Settings) (color off : Nat) : (prefixLayout s color off).length = 9 := by
  have := congrArg List.length (prefixLayout_text s color off)
  rw [List.length_map, List.length_append, alignRight_length (by rw [List.length_take]; omega)] at this
  exact this

theorem offsetLabel_chars (s : Settings) (off : Nat) : ∀ c ∈ Console.offsetLabel s off, c ≠ '\n' ∧ c ≠ '\x1b' := by
  intro c hc
  unfold Console.offsetLabel at hc
  split at hc
  · have := dec_digit hc
    refine ⟨?_, ?_⟩ <;> rintro rfl <;> exact absurd this (by decide)
  · simp only [List.mem_cons] at hc
    rcases hc with rfl | rfl | hc
    · decide
    · decide
    · obtain ⟨d, h1, rfl⟩ := hexPad_digits _ _ _ hc
      have : ∀ d : Fin 16, hexDigit d.1 ≠ '\n' ∧ hexDigit d.1 ≠ '\x1b' := by decide
      exact this ⟨d, h1⟩

theorem prefixLayout_noNl (s : Settings) (color off : Nat) : '\n' ∉ (prefixLayout s color off).map Prod.fst := by
  rw [prefixLayout_text]
  intro h
  rcases List.mem_append.1 h with h | h
  · rcases List.mem_append.1 h with h | h
    · exact absurd (List.mem_replicate.1 h).2 (by decide)
    · exact (offsetLabel_chars s off _ (List.mem_of_mem_take h)).1 rfl
  · simp at h

/-- The separator character of a row. -/
def sepChar (s : Settings) : Char := if s.printOffsets then '│' else ' '

theorem midLayout_text (s : Settings) : (midLayout s).map Prod.fst = [sepChar s] := by
  unfold midLayout sepChar sepLayout
  split <;> simp [inStyle]

/-- The prefix of a row without its colours. -/
def prefText (s : Settings) (off : Nat) : Str := (offLayout s off).map Prod.fst

/-- A row without its line feed and colours. -/
def rowLine (s : Settings) (c off : Nat) (cells : List Cell) : Str :=
  prefText s off ++ ((cells.flatMap Cell.hex).map Prod.fst ++ List.replicate (3 * (c - cells.length)) ' ') ++
    ' ' :: sepChar s :: cells.map Cell.char

theorem rowLayout_text (s : Settings) (c off : Nat) (cells : List Cell) :
    (rowLayout (offLayout s off) (midLayout s) c cells).map Prod.fst = rowLine s c off cells ++ ['\n'] := by
  unfold rowLayout rowLine prefText
  simp only [List.map_append, map_inStyle, midLayout_text, List.map_map, Function.comp_def, Cell.shown, List.append_assoc, List.cons_append, List.nil_append]

theorem hexText_chars (cells : List Cell) : ∀ c ∈ (cells.flatMap Cell.hex).map Prod.fst, c ≠ '\n' := by
  intro c hc
  obtain ⟨x, hx, rfl⟩ := List.mem_map.1 hc
  obtain ⟨y, -, hy⟩ := List.mem_flatMap.1 hx
  have key : ∀ n, hexDigit n ≠ '\n' := by
    intro n
    unfold hexDigit
    by_cases h : n < 16
    · have : ∀ m : Fin 16, ['0', '1', '2', '3', '4', '5', '6', '7', '8', '9', 'a', 'b', 'c', 'd', 'e', 'f'].getD m.1 ' ' ≠ '\n' := by decide
      exact this ⟨n, h⟩
    · rw [List.getD_eq_getElem?_getD, List.getElem?_eq_none (by simp; omega)]
      decide
  simp only [Cell.hex, inStyle, List.map_cons, List.map_nil, List.mem_cons, List.not_mem_nil, or_false] at hy
  rcases hy with rfl | rfl | rfl
  · exact (by decide : ' ' ≠ '\n')
  · exact key _
  · exact key _

theorem hexText_length (cells : List Cell) : ((cells.flatMap Cell.hex).map Prod.fst).length = 3 * cells.length := by
  induction cells with
  | nil => rfl
  | cons c cells ih =>
    rw [List.flatMap_cons, List.map_append, List.length_append, ih, List.length_cons]
    have : (c.hex.map Prod.fst).length = 3 := rfl
    omega

theorem prefText_eq (s : Settings) (off : Nat) : prefText s off =
    if s.printOffsets then alignRight 8 ((Console.offsetLabel s off).take 8) ++ ['│'] else [] := by
  unfold prefText offLayout
  split
  · exact prefixLayout_text s 32 off
  · rfl

theorem prefText_noNl (s : Settings) (off : Nat) : '\n' ∉ prefText s off := by
  unfold prefText offLayout
  split
  · exact prefixLayout_noNl s 32 off
  · simp

theorem rowLine_noNl {s : Settings} {c off : Nat} {cells : List Cell} (h : ∀ x ∈ cells, x.char ≠ '\n') : '\n' ∉ rowLine s c off cells := by
  unfold rowLine
  intro hm
  rcases List.mem_append.1 hm with hm | hm
  · rcases List.mem_append.1 hm with hm | hm
    · exact prefText_noNl s off hm
    · rcases List.mem_append.1 hm with hm | hm
      · exact hexText_chars cells _ hm rfl
      · exact absurd (List.mem_replicate.1 hm).2 (by decide)
  · rcases List.mem_cons.1 hm with hm | hm
    · exact absurd hm (by decide)
    · rcases List.mem_cons.1 hm with hm | hm
      · unfold sepChar at hm; split at hm <;> exact absurd hm (by decide)
      · obtain ⟨x, hx, e⟩ := List.mem_map.1 hm
        exact h x hx e

theorem readBytes_blank (t : Str) : readBytes (' ' :: ' ' :: t) = [] := by
  cases t with
  | nil => simp [readBytes]
  | cons c t =>
    rw [readBytes, show digitVal ' ' = none by decide]

/-- The hex column of a row, read back. -/
theorem readBytes_row (s : Settings) (c off : Nat) (cells : List Cell) :
    readBytes ((rowLine s c off cells).drop (if s.printOffsets then 9 else 0)) = cells.map Cell.byte := by
  have hl : (prefText s off).length = if s.printOffsets then 9 else 0 := by
    rw [prefText_eq]
    split
    · rw [List.length_append, alignRight_length (by rw [List.length_take]; omega)]; rfl
    · rfl
  unfold rowLine
  rw [List.append_assoc, List.append_assoc, List.drop_left' hl]
  apply readBytes_cells
  generalize 3 * (c - cells.length) = k
  cases k with
  | zero =>
    rw [List.replicate_zero, List.nil_append]
    unfold sepChar
    split
    · cases cells.map Cell.char with
      | nil => simp [readBytes]
      | cons x t => rw [readBytes, show digitVal '│' = none by decide]
    · exact readBytes_blank _
  | succ k =>
    rw [List.replicate_succ, List.cons_append]
    cases k with
    | zero => exact readBytes_blank _
    | succ k => rw [List.replicate_succ, List.cons_append]; exact readBytes_blank _

/-! ### The characters of the cells -/

theorem cells_char {s : Settings} (hm : s.readMode.1 = .binary) (raw : Bytes) : ∀ x ∈ chunkCells s raw, isControlChar x.char = true → 0x80 ≤ x.char.toNat := by
  intro x hx hc
  unfold chunkCells queueCells at hx
  obtain ⟨g, hg, hx⟩ := List.mem_flatMap.1 hx
  obtain ⟨k, hk⟩ := chunkSegs_binary hm raw g hg
  unfold cellsOf at hx
  obtain ⟨y, hy, rfl⟩ := List.mem_map.1 hx
  exact (hk.chars _ (List.of_mem_zip hy).2 hc).2

theorem cells_noNl {s : Settings} (hm : s.readMode.1 = .binary) (es : List ReadEvent) : ∀ x ∈ allCells s es, x.char ≠ '\n' := by
  intro x hx e
  unfold allCells at hx
  obtain ⟨ev, -, hx⟩ := List.mem_flatMap.1 hx
  have := cells_char hm ev.data x hx (by rw [e]; decide)
  rw [e] at this
  exact absurd this (by decide)

theorem allCells_byte {s : Settings} (hm : s.readMode.1 = .binary) (es : List ReadEvent) : (allCells s es).map Cell.byte = delivered es := by
  induction es with
  | nil => rfl
  | cons e es ih =>
    have : allCells s (e :: es) = chunkCells s e.data ++ allCells s es := rfl
    rw [this, List.map_append, ih, chunkCells_byte hm]; rfl

theorem allCells_length {s : Settings} (hm : s.readMode.1 = .binary) (es : List ReadEvent) : (allCells s es).length = (delivered es).length := by
  rw [← allCells_byte hm, List.length_map]

/-! ### Rows of the same number of columns -/

theorem rowsLayout_const (pref : Nat → List (Char × Style)) (sep : List (Char × Style)) (off c m : Nat) (A : List Cell)
    (h : m = 0 ∨ (m - 1) * c ≤ A.length) :
    rowsLayout pref sep off ((slices c m A).map fun x => (c, x)) =
      (List.range m).flatMap fun i => rowLayout (pref (off + i * c)) sep c (slice c i A) := by
  induction m with
  | zero => rfl
  | succ m ih =>
    have h' : m * c ≤ A.length := by
      rcases h with h | h
      · cases h
      · simpa using h
    rw [slices_snoc, List.map_append, rowsLayout_append, ih, List.range_succ, List.flatMap_append]
    · congr 1
      rw [rowCells_map, slices_flatten, List.length_take, Nat.min_eq_left h']
      simp [rowsLayout]
    · cases m with
      | zero => exact .inl rfl
      | succ m =>
        right
        rw [Nat.add_sub_cancel]
        rw [Nat.succ_mul] at h'
        omega

theorem ceil_room {c n : Nat} (hc : 0 < c) : (n + c - 1) / c = 0 ∨ ((n + c - 1) / c - 1) * c ≤ n := by
  by_cases h : (n + c - 1) / c = 0
  · exact .inl h
  · right
    have := Nat.div_mul_le_self (n + c - 1) c
    obtain ⟨k, hk⟩ : ∃ k, (n + c - 1) / c = k + 1 := ⟨(n + c - 1) / c - 1, (Nat.succ_pred_eq_of_ne_zero h).symm⟩
    rw [hk, Nat.succ_mul] at this
    rw [hk, Nat.add_sub_cancel]
    omega

/-- What is shown of a complete input, when the number of columns is `c`. -/
theorem binComplete {s : Settings} (hm : s.readMode.1 = .binary) {term : Nat → Int} {c : Nat} (hc : 0 < c)
    (hcols : ∀ k off, BinaryFormatter.curCols s (term k) off = c) {es : List ReadEvent} (hco : Complete es) (hr : Readable es)
    {fuel : Nat} (hf : (delivered es).length < fuel) :
    ∃ out st, session fuel s term es = ⟨out, .ok st⟩ ∧ BinHold st [] ∧
      Shows {} out {} (((List.range (((delivered es).length + c - 1) / c)).flatMap fun i =>
        rowLayout (offLayout s (i * c)) (midLayout s) c (slice c i (allCells s es))) ++ totalLayout s true (delivered es).length) := by
  obtain ⟨a, e, rfl, he, ha⟩ := hco
  have hb := readable_any hr
  have hl := allCells_length hm (a ++ [e])
  obtain ⟨out, st, rows, h1, h2, h3, h4, h5, h6, h7⟩ := binRun_all hm (term := term) (fun k off => by rw [hcols]; omega) a
    (fun x hx => ⟨ha x hx, hb x (by simp [hx])⟩) e he (hb e (by simp)) (fuel := fuel) (by omega)
  refine ⟨out, st, h1, h2, ?_⟩
  have hrows := rows_const hc h5 (h7 c hcols)
  rw [h3, hl] at hrows
  rw [hrows, hl, rowsLayout_const _ _ _ _ _ _ (by rw [hl]; exact ceil_room hc)] at h6
  simpa only [Nat.zero_add] using h6

/-- ... line by line. -/
theorem binLines {s : Settings} {c n : Nat} {A : List Cell} (hA : ∀ x ∈ A, x.char ≠ '\n') {m : Nat} {out : Str} {closed : Bool}
    (h : Shows {} out {} (((List.range m).flatMap fun i =>
        rowLayout (offLayout s (i * c)) (midLayout s) c (slice c i A)) ++ totalLayout s closed n)) :
    linesOf (visible out) = ((List.range m).map fun i => rowLine s c (i * c) (slice c i A)) ++
      if closed ∧ s.printOffsets then [prefText s n] else [] := by
  have htot : (totalLayout s closed n).map Prod.fst = (if closed ∧ s.printOffsets then [prefText s n] else []).flatMap fun l => l ++ ['\n'] := by
    unfold totalLayout
    split
    · rename_i hp
      rw [List.map_append, prefixLayout_text, prefText_eq, if_pos hp.2]
      simp [inStyle]
    · rfl
  have hrows : ∀ m, ((List.range m).flatMap fun i => rowLayout (offLayout s (i * c)) (midLayout s) c (slice c i A)).map Prod.fst =
      ((List.range m).map fun i => rowLine s c (i * c) (slice c i A)).flatMap fun l => l ++ ['\n'] := by
    intro m
    induction m with
    | zero => rfl
    | succ m ih =>
      rw [List.range_succ, List.flatMap_append, List.map_append, ih, List.map_append, List.flatMap_append]
      simp [rowLayout_text]
  rw [h.visible, List.map_append, htot, hrows, ← List.flatMap_append]
  apply linesOf_flat
  intro l hl
  rcases List.mem_append.1 hl with hl | hl
  · obtain ⟨i, -, rfl⟩ := List.mem_map.1 hl
    apply rowLine_noNl
    intro x hx
    exact hA x (List.mem_of_mem_drop (List.mem_of_mem_take hx))
  · split at hl
    · rw [List.mem_singleton.1 hl]; exact prefText_noNl s n
    · simp at hl

/-! ### Style at line feeds -/

theorem clean_before {s : Str} (h : Clean s) (pre suf : Str) (e : s = pre ++ '\n' :: suf) : Clean pre := by
  obtain ⟨ps, h1, rfl⟩ := h
  induction ps generalizing pre with
  | nil => simp at e
  | cons p ps ih =>
    rw [List.flatMap_cons] at e
    have hps : Plain ps := h1.tail
    have hp : Clean p.written := ⟨[p], ⟨fun t ht => h1.texts t (by simp at ht; simp [ht]), fun t ht => h1.params t (by simp at ht; simp [ht])⟩, by simp⟩
    rcases List.append_eq_append_iff.1 e with ⟨c, rfl, e2⟩ | ⟨c, e1, e2⟩
    · exact hp.append (ih c hps e2)
    · cases c with
      | nil =>
        rw [List.append_nil] at e1
        rw [← e1]; exact hp
      | cons x c =>
        have hx : x = '\n' := (List.cons.inj e2).1.symm
        subst hx
        cases p with
        | text t =>
          have ht := h1.texts t (by simp)
          have e1' : t = pre ++ '\n' :: c := e1
          exact .text fun hm => ht (by rw [e1']; simp [hm])
        | sgr q =>
          exfalso
          have hmem : '\n' ∈ (Part.sgr q).written := by rw [e1]; simp
          simp only [Part.written, List.mem_cons, List.mem_append, List.not_mem_nil, or_false] at hmem
          rcases hmem with h | h | h | h
          · exact absurd h (by decide)
          · exact absurd h (by decide)
          · exact absurd (h1.params q (by simp) _ h) (by decide)
          · exact absurd h (by decide)

theorem Clean.shows {s : Str} (h : Clean s) (a : Style) : ∃ b v, Shows a s b v := by
  obtain ⟨ps, h1, rfl⟩ := h
  induction ps generalizing a with
  | nil => exact ⟨a, [], .nil a⟩
  | cons p ps ih =>
    have hp : ∃ b v, Shows a p.written b v := by
      cases p with
      | text t => exact ⟨a, _, .text a (h1.texts t (by simp))⟩
      | sgr q =>
        obtain ⟨b, e⟩ := term_sgr (h1.params q (by simp)) a
        exact ⟨b, [], ⟨[.sgr q], ⟨by simp, fun t ht => h1.params t (by simp at ht; simp [ht])⟩, by simp⟩, e⟩
    obtain ⟨b, v, hv⟩ := hp
    obtain ⟨c, w, hw⟩ := ih b h1.tail
    exact ⟨c, v ++ w, by rw [List.flatMap_cons]; exact hv.append hw⟩

/-- If every line feed appears in the default style, the terminal has the default
style after each of them. -/
theorem Shows.newline {out : Str} {v : List (Char × Style)} {b : Style} (h : Shows {} out b v) (hv : ∀ x ∈ v, x.1 = '\n' → x.2 = {})
    (pre suf : Str) (e : out = pre ++ '\n' :: suf) : (Term.run ⟨.ground, {}⟩ (pre ++ ['\n'])).1 = ⟨.ground, {}⟩ := by
  have hpre := clean_before h.clean pre suf e
  obtain ⟨st, w, hw⟩ := hpre.shows {}
  have hone : Term.run ⟨.ground, st⟩ ['\n'] = (⟨.ground, st⟩, [('\n', st)]) := rfl
  have hst : st = {} := by
    have hr := h.run
    rw [e, show pre ++ '\n' :: suf = pre ++ (['\n'] ++ suf) by simp, term_append, hw.run, term_append, hone] at hr
    have hv' := congrArg Prod.snd hr
    simp only at hv'
    exact hv ('\n', st) (by rw [← hv']; simp) rfl
  rw [term_append, hw.run, hone, hst]

/-! ### The layout in terms of the specification -/

theorem offLayout_eq (s : Settings) : offLayout s = rowStart s := by
  funext n
  unfold offLayout rowStart
  rw [printOffsets_eq]
  rfl

theorem midLayout_eq (s : Settings) : midLayout s = rowBar s := by
  unfold midLayout rowBar
  rw [printOffsets_eq]
  rfl

theorem totalLayout_eq (s : Settings) (n : Nat) : totalLayout s true n = totalLine s n := by
  unfold totalLayout totalLine
  rw [printOffsets_eq]
  simp only [true_and]
  rfl

theorem rowsView_eq (s : Settings) (c : Nat) (cells : List Cell) :
    ((List.range ((cells.length + c - 1) / c)).flatMap fun i => rowLayout (offLayout s (i * c)) (midLayout s) c (slice c i cells)) ++
      totalLayout s true cells.length = rowsView s c cells := by
  rw [offLayout_eq, midLayout_eq, totalLayout_eq]
  rfl

end Kolombos
