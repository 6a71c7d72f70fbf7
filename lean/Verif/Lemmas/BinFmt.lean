import Verif.Lemmas.BinFacts
import Verif.Lemmas.Buffer
import Verif.Lemmas.Shows
import Verif.Lemmas.Reader
import Verif.Lemmas.TextFmt
/-
The binary formatter on a queue of segments.
-/
set_option linter.unusedSimpArgs false

namespace Kolombos
open Spec

/-- A segment the binary formatter can handle. -/
structure Fit (g : Segment) : Prop where
  ne : g.raw ≠ []
  len : g.raw.length = g.processed.length
  esc : '\x1b' ∉ g.processed
  style : Stylish g.opening

/-- The bytes of a segment as they are displayed. -/
def cellsOf (g : Segment) : List Cell :=
  (g.raw.zip g.processed).map fun x => ⟨x.1, x.2, applySgr g.opening {}⟩

/-- The bytes of a queue as they are displayed. -/
def queueCells (gs : List Segment) : List Cell := gs.flatMap cellsOf

theorem queueCells_cons (g : Segment) (gs : List Segment) : queueCells (g :: gs) = cellsOf g ++ queueCells gs := rfl

theorem queueCells_append (a b : List Segment) : queueCells (a ++ b) = queueCells a ++ queueCells b := by
  simp [queueCells]

theorem cellsOf_length {g : Segment} (h : Fit g) : (cellsOf g).length = g.dataLen := by
  simp [cellsOf, Segment.dataLen, ← h.len]

theorem cellsOf_byte {g : Segment} (h : Fit g) : (cellsOf g).map Cell.byte = g.raw := by
  simp only [cellsOf, List.map_map, Function.comp_def]
  exact List.map_fst_zip (by rw [h.len]; exact Nat.le_refl _)

theorem queueCells_length {gs : List Segment} (h : ∀ g ∈ gs, Fit g) : (queueCells gs).length = total gs := by
  induction gs with
  | nil => rfl
  | cons g gs ih =>
    rw [queueCells_cons, List.length_append, cellsOf_length (h g (by simp)), ih fun g hg => h g (by simp [hg]), total_cons]

theorem queueCells_byte {gs : List Segment} (h : ∀ g ∈ gs, Fit g) : (queueCells gs).map Cell.byte = gs.flatMap Segment.raw := by
  induction gs with
  | nil => rfl
  | cons g gs ih =>
    rw [queueCells_cons, List.map_append, cellsOf_byte (h g (by simp)), ih fun g hg => h g (by simp [hg])]; rfl

/-- Splitting a segment in the middle. -/
theorem fit_split {g : Segment} (h : Fit g) {n : Nat} (h0 : 0 < n) (hn : n < g.dataLen) :
    ∃ l r, g.split n = .ok (l, r) ∧ Fit l ∧ Fit r ∧ cellsOf l = (cellsOf g).take n ∧ cellsOf r = (cellsOf g).drop n ∧
      styled r = styled g := by
  have hl := h.len
  refine ⟨{ g with raw := g.raw.take n, processed := g.processed.take n },
    { g with raw := g.raw.drop n, processed := g.processed.drop n }, ?_, ?_, ?_, ?_, ?_, rfl⟩
  · unfold Segment.split
    rw [if_neg (by simp [Segment.isConsistent, hl])]
    simp [pyTake_nat, pyDrop_nat]
  · refine ⟨?_, by simp [hl], fun hm => h.esc (List.mem_of_mem_take hm), h.style⟩
    have := List.length_pos_iff.2 h.ne
    intro e
    have := congrArg List.length e
    simp at this
    unfold Segment.dataLen at hn
    rcases this with rfl | this
    · omega
    · exact h.ne this
  · refine ⟨?_, by simp [hl], fun hm => h.esc (List.mem_of_mem_drop hm), h.style⟩
    intro e
    have := congrArg List.length e
    simp at this
    unfold Segment.dataLen at hn
    omega
  · simp [cellsOf, List.zip, List.take_zipWith, List.map_take]
  · simp [cellsOf, List.zip, List.drop_zipWith, List.map_drop]

/-- Detaching `n` bytes takes the first `n` cells. -/
theorem qDetach_cells {gs : List Segment} (h : ∀ g ∈ gs, Fit g) (n : Nat) :
    ∃ os rs o, qDetach (n : Int) gs = .ok (os, rs, o) ∧ (∀ g ∈ os, Fit g) ∧ (∀ g ∈ rs, Fit g) ∧
      queueCells os = (queueCells gs).take n ∧ queueCells rs = (queueCells gs).drop n := by
  induction gs generalizing n with
  | nil => exact ⟨[], [], false, rfl, by simp, by simp, by simp [queueCells], by simp [queueCells]⟩
  | cons g gs ih =>
    have hg := h g (by simp)
    have hgs : ∀ g ∈ gs, Fit g := fun x hx => h x (by simp [hx])
    rw [queueCells_cons]
    by_cases h0 : n = 0
    · subst h0
      exact ⟨[], g :: gs, false, by simp [qDetach], by simp, h, by simp [queueCells], by simp [queueCells]⟩
    · by_cases hl : g.dataLen ≤ n
      · obtain ⟨os, rs, o, e, h1, h2, h3, h4⟩ := ih hgs (n - g.dataLen)
        refine ⟨g :: os, rs, o, ?_, ?_, h2, ?_, ?_⟩
        · rw [qDetach, if_neg (by omega), if_pos (by omega), show (n : Int) - g.dataLen = ((n - g.dataLen : Nat) : Int) by omega, e]
        · intro x hx
          rcases List.mem_cons.1 hx with rfl | hx
          · exact hg
          · exact h1 x hx
        · rw [queueCells_cons, h3, List.take_append, cellsOf_length hg, List.take_of_length_le (l := cellsOf g) (by rw [cellsOf_length hg]; exact hl)]
        · rw [h4, List.drop_append, cellsOf_length hg, List.drop_of_length_le (l := cellsOf g) (by rw [cellsOf_length hg]; exact hl)]
          rfl
      · obtain ⟨l, r, e, h1, h2, h3, h4, -⟩ := fit_split hg (n := n) (by omega) (by omega)
        refine ⟨[l], r :: gs, styled r, ?_, ?_, ?_, ?_, ?_⟩
        · rw [qDetach, if_neg (by omega), if_neg (by omega), e]
        · intro x hx; rw [List.mem_singleton.1 hx]; exact h1
        · intro x hx
          rcases List.mem_cons.1 hx with rfl | hx
          · exact h2
          · exact hgs x hx
        · rw [List.take_append_of_le_length (by rw [cellsOf_length hg]; omega)]
          simp [queueCells, h3]
        · rw [queueCells_cons, h4, List.drop_append_of_le_length (by rw [cellsOf_length hg]; omega)]

theorem styled_of_stylish {g : Segment} (h : Stylish g.opening) : styled g = true ↔ g.opening ≠ [] := by
  obtain ⟨gs, h⟩ := h
  unfold styled
  generalize g.opening = o at *
  cases h with
  | nil => simp
  | cons hc hs =>
    rename_i p gr ps gs'
    have : ∃ n, n ∈ p ++ ps ∧ n ≠ 0 := by
      cases hc with
      | intensity n h => exact ⟨n, by simp, by omega⟩
      | underline n h => exact ⟨n, by simp, by omega⟩
      | blink n h => exact ⟨n, by simp, by omega⟩
      | fg n h => exact ⟨n, by simp, by omega⟩
      | bg n h => exact ⟨n, by simp, by omega⟩
      | italic => exact ⟨3, by simp, by omega⟩
      | inverse => exact ⟨7, by simp, by omega⟩
      | hidden => exact ⟨8, by simp, by omega⟩
      | crossed => exact ⟨9, by simp, by omega⟩
      | overlined => exact ⟨53, by simp, by omega⟩
      | fgIndexed n => exact ⟨38, by simp, by omega⟩
      | bgIndexed n => exact ⟨48, by simp, by omega⟩
      | fgRgb a b c => exact ⟨38, by simp, by omega⟩
      | bgRgb a b c => exact ⟨48, by simp, by omega⟩
    obtain ⟨n, hn, h0⟩ := this
    have hne : p ++ ps ≠ [] := List.ne_nil_of_mem hn
    have h1 : ¬((p ++ ps).length = 0 ∨ (p ++ ps ≠ [] ∧ ∀ q ∈ p ++ ps, q = 0)) := by
      rintro (h | ⟨-, h⟩)
      · exact hne (List.length_eq_zero_iff.1 h)
      · exact h0 (h n hn)
    rw [decide_eq_false h1]
    simp only [Bool.not_false, true_iff]
    exact hne

/-- A displayed segment is a span. -/
theorem fmtBlock_span {f : Segment → Str} {g : Segment} (h : Stylish g.opening) : fmtBlock f g = span g.opening (f g) := by
  unfold fmtBlock span
  by_cases hs : styled g = true
  · rw [if_pos hs, List.append_assoc]
  · rw [if_neg hs]
    have : g.opening = [] := Classical.byContradiction fun h' => hs ((styled_of_stylish h).2 h')
    rw [this]
    simp [Sgr.assemble, Sgr.closing, Sgr.closingAux]

theorem hexPad2 (b : Byte) : hexPad 2 b.toNat = [hexDigit (b.toNat / 16), hexDigit (b.toNat % 16)] := by
  have key : ∀ n : Fin 256, hexPad 2 n.1 = [hexDigit (n.1 / 16), hexDigit (n.1 % 16)] := by decide +kernel
  exact key ⟨b.toNat, b.toNat_lt⟩

theorem hexDigit_ne_esc (n : Nat) : hexDigit n ≠ '\x1b' := by
  unfold hexDigit
  by_cases h : n < 16
  · have : ∀ m : Fin 16, ['0', '1', '2', '3', '4', '5', '6', '7', '8', '9', 'a', 'b', 'c', 'd', 'e', 'f'].getD m.1 ' ' ≠ '\x1b' := by decide
    exact this ⟨n, h⟩
  · rw [List.getD_eq_getElem?_getD, List.getElem?_eq_none (by simp; omega)]
    decide

/-- The hex column of a segment. -/
theorem shows_hex {g : Segment} (h : Fit g) : Shows {} (fmtBlock segRawToHex g) {} ((cellsOf g).flatMap Cell.hex) := by
  rw [fmtBlock_span h.style]
  have hesc : '\x1b' ∉ segRawToHex g := by
    unfold segRawToHex
    intro hm
    obtain ⟨b, -, hm⟩ := List.mem_flatMap.1 hm
    rw [hexPad2] at hm
    simp at hm
    rcases hm with hm | hm
    · exact hexDigit_ne_esc _ hm.symm
    · exact hexDigit_ne_esc _ hm.symm
  have := Shows.span h.style hesc
  have e : inStyle (applySgr g.opening {}) (segRawToHex g) = (cellsOf g).flatMap Cell.hex := by
    unfold segRawToHex cellsOf
    have hl := h.len
    generalize applySgr g.opening {} = st
    generalize g.raw = a, g.processed = b at hl
    induction a generalizing b with
    | nil => rfl
    | cons x a ih =>
      cases b with
      | nil => simp at hl
      | cons y b =>
        rw [List.flatMap_cons, inStyle_append, ih b (by simpa using hl)]
        simp only [List.zip_cons_cons, List.map_cons, List.flatMap_cons]
        congr 1
        rw [hexPad2]; rfl
  rw [e] at this
  exact this

/-- The character column of a segment. -/
theorem shows_chars {g : Segment} (h : Fit g) : Shows {} (fmtBlock segProcessed g) {} ((cellsOf g).map Cell.shown) := by
  rw [fmtBlock_span h.style]
  have := Shows.span h.style h.esc
  have e : inStyle (applySgr g.opening {}) (segProcessed g) = (cellsOf g).map Cell.shown := by
    unfold segProcessed cellsOf inStyle
    simp only [List.map_map, Function.comp_def, Cell.shown]
    have hl := h.len
    generalize applySgr g.opening {} = st
    generalize g.raw = a, g.processed = b at hl
    induction a generalizing b with
    | nil => cases b with
      | nil => rfl
      | cons _ _ => simp at hl
    | cons x a ih =>
      cases b with
      | nil => simp at hl
      | cons y b => simp [ih b (by simpa using hl)]
  unfold segProcessed at e
  rw [e] at this
  exact this

theorem shows_flatMap {os : List Segment} {f : Segment → Str} {v : Segment → List (Char × Style)}
    (h : ∀ g ∈ os, Shows {} (f g) {} (v g)) : Shows {} (os.flatMap f) {} (os.flatMap v) := by
  induction os with
  | nil => exact .nil _
  | cons g os ih =>
    rw [List.flatMap_cons, List.flatMap_cons]
    exact (h g (by simp)).append (ih fun x hx => h x (by simp [hx]))

/-! ### Prefixes -/

theorem dim0x_noX (s : Str) (h : 'x' ∉ s) : Console.dim0x s = s := by
  fun_induction Console.dim0x s with
  | case1 r ih => exact absurd (by simp) h
  | case2 c r hc ih => rw [ih fun hm => h (by simp [hm])]
  | case3 => rfl

theorem dim0x_append (a t : Str) (h : '0' ∉ a) : Console.dim0x (a ++ t) = a ++ Console.dim0x t := by
  induction a with
  | nil => rfl
  | cons c a ih =>
    have hc : c ≠ '0' := fun e => h (by simp [e])
    have := ih fun hm => h (by simp [hm])
    rw [List.cons_append, Console.dim0x.eq_def]
    split
    · rename_i e; exact absurd (List.cons.inj e).1 hc
    · rename_i x y _ e
      obtain ⟨rfl, rfl⟩ := List.cons.inj e
      rw [this]; rfl
    · rename_i e; cases e

theorem dim0x_0x (t : Str) : Console.dim0x ('0' :: 'x' :: t) = span [2] ['0', 'x'] ++ Console.dim0x t := by
  rw [Console.dim0x]

/-- The style of a foreground colour. -/
def fgStyle (c : Nat) : Style := { fg := .basic c }

/-- The colour of the separator. -/
def sepColor (s : Settings) : Nat := if s.debug > 0 then 90 else 36

/-- The separator as it appears. -/
def sepLayout (s : Settings) : List (Char × Style) := inStyle (fgStyle (sepColor s)) ['│']

/-- A prefix as it appears: the offset label, cut to 8 characters, right-justified,
`0x` dimmed; then the separator. -/
def prefixLayout (s : Settings) (color off : Nat) : List (Char × Style) :=
  let lab := (Console.offsetLabel s off).take 8
  inStyle (fgStyle color) (List.replicate (8 - lab.length) ' ') ++
    (if s.decimalOffsets then inStyle (fgStyle color) lab
     else inStyle { fg := .basic color, dim := true } (lab.take 2) ++ inStyle (fgStyle color) (lab.drop 2)) ++
    sepLayout s

theorem shows_separator (s : Settings) : Shows {} (Console.separator s) {} (sepLayout s) := by
  unfold Console.separator sepLayout sepColor
  split
  · exact Shows.span (Stylish.code (.fg 90 (by decide))) (by decide)
  · exact Shows.span (Stylish.code (.fg 36 (by decide))) (by decide)

theorem digitChar_eq {d : Nat} (h : d < 16) : d.digitChar = hexDigit d := by
  have : ∀ d : Fin 16, d.1.digitChar = hexDigit d.1 := by decide
  exact this ⟨d, h⟩

theorem hex_digits (n : Nat) : ∀ c ∈ hex n, ∃ d, d < 16 ∧ c = hexDigit d := by
  induction n using Nat.strongRecOn with
  | ind n ih =>
    intro c hc
    unfold hex at hc ih
    by_cases h : n < 16
    · rw [Nat.toDigits_of_lt_base h] at hc
      rw [List.mem_singleton.1 hc]
      exact ⟨n, h, digitChar_eq h⟩
    · rw [Nat.toDigits_of_base_le (by decide) (by omega)] at hc
      rcases List.mem_append.1 hc with hc | hc
      · exact ih (n / 16) (by omega) c hc
      · rw [List.mem_singleton.1 hc]
        exact ⟨n % 16, Nat.mod_lt _ (by decide), digitChar_eq (Nat.mod_lt _ (by decide))⟩

theorem hexPad_digits (w n : Nat) : ∀ c ∈ hexPad w n, ∃ d, d < 16 ∧ c = hexDigit d := by
  intro c hc
  unfold hexPad at hc
  rcases List.mem_append.1 hc with hc | hc
  · exact ⟨0, by decide, (List.mem_replicate.1 hc).2⟩
  · exact hex_digits n c hc

theorem hexDigit_ne_x (d : Nat) (h : d < 16) : hexDigit d ≠ 'x' := by
  have : ∀ d : Fin 16, hexDigit d.1 ≠ 'x' := by decide
  exact this ⟨d, h⟩

theorem dec_noX (n : Nat) (c : Char) (hc : c = 'x' ∨ c = '\x1b') : c ∉ dec n := by
  intro h
  have := dec_digit h
  rcases hc with rfl | rfl <;> exact absurd this (by decide)

/-- The prefix with an offset. -/
theorem shows_prefix (s : Settings) (color off : Nat) (hc : color = 32 ∨ color = 36) :
    Shows {} (Console.formatPrefixWithOffset s off [color]) {} (prefixLayout s color off) := by
  have hsep := shows_separator s
  have hsx : 'x' ∉ Console.separator s := by
    unfold Console.separator; split <;> decide
  have h1 : Shows {} (Sgr.assemble [color]) (fgStyle color) [] := by
    have := Shows.sgr {} [color]
    rcases hc with rfl | rfl <;> exact this
  have h2 : Shows (fgStyle color) (Sgr.assemble (Sgr.closing [color])) {} [] := by
    have := Shows.sgr (fgStyle color) (Sgr.closing [color])
    rcases hc with rfl | rfl <;> exact this
  have hb : ∀ k, '\x1b' ∉ List.replicate k ' ' := fun k hm => absurd (List.mem_replicate.1 hm).2 (by decide)
  unfold Console.formatPrefixWithOffset Console.formatPrefix prefixLayout
  simp only
  cases hd : s.decimalOffsets with
  | true =>
    have hlab : Console.offsetLabel s off = dec off := by unfold Console.offsetLabel; rw [if_pos hd]
    rw [hlab]
    have hx : 'x' ∉ (dec off).take 8 := fun hm => dec_noX off 'x' (.inl rfl) (List.mem_of_mem_take hm)
    have he : '\x1b' ∉ (dec off).take 8 := fun hm => dec_noX off '\x1b' (.inr rfl) (List.mem_of_mem_take hm)
    rw [dim0x_noX]
    · unfold span rjust
      simp only [if_true]
      have := (((h1.append ((Shows.text (fgStyle color) (hb (8 - ((dec off).take 8).length))).append (Shows.text (fgStyle color) he))).append h2).append hsep)
      simpa using this
    · simp only [span, rjust, List.mem_append, not_or]
      refine ⟨⟨⟨?_, ?_, hx⟩, ?_⟩, hsx⟩
      · rcases hc with rfl | rfl <;> decide
      · intro hm; exact absurd (List.mem_replicate.1 hm).2 (by decide)
      · rcases hc with rfl | rfl <;> decide
  | false =>
    obtain ⟨w, hlab⟩ : ∃ w, Console.offsetLabel s off = '0' :: 'x' :: hexPad w off := by
      unfold Console.offsetLabel; rw [if_neg (by simp [hd])]; exact ⟨_, rfl⟩
    rw [hlab]
    simp only [List.take_succ_cons, List.drop_succ_cons, List.take_zero, List.drop_zero, Bool.false_eq_true, if_false]
    generalize hD : (hexPad w off).take 6 = D
    have hx : 'x' ∉ D := by
      rw [← hD]; intro hm
      obtain ⟨d, h, e⟩ := hexPad_digits _ _ _ (List.mem_of_mem_take hm)
      exact hexDigit_ne_x d h e.symm
    have he : '\x1b' ∉ D := by
      rw [← hD]; intro hm
      obtain ⟨d, h, e⟩ := hexPad_digits _ _ _ (List.mem_of_mem_take hm)
      exact hexDigit_ne_esc d e.symm
    generalize hK : 8 - ('0' :: 'x' :: D).length = K
    have e : span [color] (rjust 8 ' ' ('0' :: 'x' :: D)) ++ Console.separator s =
        (Sgr.assemble [color] ++ List.replicate K ' ') ++ ('0' :: 'x' :: (D ++ (Sgr.assemble (Sgr.closing [color]) ++ Console.separator s))) := by
      simp only [span, rjust, hK, List.append_assoc, List.cons_append]
    rw [e, dim0x_append, dim0x_0x, dim0x_noX]
    · have i1 : Shows (fgStyle color) (Sgr.assemble [2]) { fg := .basic color, dim := true } [] := Shows.sgr (fgStyle color) [2]
      have i2 : Shows { fg := .basic color, dim := true } (Sgr.assemble (Sgr.closing [2])) (fgStyle color) [] :=
        Shows.sgr { fg := .basic color, dim := true } (Sgr.closing [2])
      have i3 : Shows { fg := .basic color, dim := true } ['0', 'x'] { fg := .basic color, dim := true } (inStyle { fg := .basic color, dim := true } ['0', 'x']) :=
        Shows.text _ (by decide)
      have := (h1.append (Shows.text (fgStyle color) (hb K))).append (((i1.append i3).append i2).append ((Shows.text (fgStyle color) he).append (h2.append hsep)))
      simpa [span] using this
    · simp only [List.mem_append, not_or]
      refine ⟨hx, ?_, hsx⟩
      rcases hc with rfl | rfl <;> decide
    · simp only [List.mem_append, not_or]
      refine ⟨?_, ?_⟩
      · rcases hc with rfl | rfl <;> decide
      · intro hm; exact absurd (List.mem_replicate.1 hm).2 (by decide)

end Kolombos
