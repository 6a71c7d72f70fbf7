import Verif.Props.Args
import Verif.Model.LegendFile
/-
C58: `--legend` and `--version`.
-/
set_option linter.unusedSimpArgs false

namespace Kolombos
open Spec

/-! ### What is printed -/

theorem isLineBreak_of {c : Char} (h : c.toNat ∉ [0x0b, 0x0c, 0x0d, 0x1c, 0x1d, 0x1e, 0x85, 0x2028, 0x2029]) :
    isLineBreak c = decide (c = '\n') := by
  unfold isLineBreak
  by_cases hc : c = '\n'
  · subst hc; decide
  · have : c.toNat ≠ 0x0a := fun e => hc (Char.toNat_inj.1 e)
    simp only [List.mem_cons, List.not_mem_nil, or_false, not_or] at h
    simp [hc, this, h]

theorem splitLines_cons {c : Char} {r : Str} (h : c.toNat ∉ [0x0b, 0x0c, 0x0d, 0x1c, 0x1d, 0x1e, 0x85, 0x2028, 0x2029]) :
    splitLines (c :: r) = if c = '\n' then [c] :: splitLines r else
      match splitLines r with
      | [] => [[c]]
      | l :: ls => (c :: l) :: ls := by
  have hr : c ≠ '\r' := by rintro rfl; exact absurd h (by decide)
  rw [splitLines, isLineBreak_of h]
  by_cases hc : c = '\n'
  · simp [hc]
  · simp [hc, hr]
    rfl

/-- The lines that are printed. -/
def printedLines (ls : List Str) : Str := (ls.filter fun l => l.head? != some '#').flatten

theorem printedLines_cons (l : Str) (ls : List Str) :
    printedLines (l :: ls) = (if l.head? = some '#' then [] else l) ++ printedLines ls := by
  unfold printedLines
  by_cases h : l.head? = some '#'
  · rw [List.filter_cons_of_neg (by simp [h]), if_pos h]; rfl
  · rw [List.filter_cons_of_pos (by simpa using h), if_neg h]; rfl

theorem printedLines_nil : printedLines [] = [] := rfl

theorem copyLines_eq (s : Str) (h : OnlyLineFeeds s) :
    copyLines .start s = printedLines (splitLines s) ∧
    copyLines .inside s = (match splitLines s with | [] => [] | l :: ls => l ++ printedLines ls) ∧
    copyLines .comment s = (match splitLines s with | [] => [] | _ :: ls => printedLines ls) := by
  induction s with
  | nil => exact ⟨rfl, rfl, rfl⟩
  | cons c r ih =>
    obtain ⟨i1, i2, i3⟩ := ih fun x hx => h x (by simp [hx])
    rw [splitLines_cons (h c (by simp))]
    by_cases hc : c = '\n'
    · subst hc
      refine ⟨?_, ?_, ?_⟩
      · simp [copyLines, i1, printedLines_cons, printedLines_nil]
      · simp [copyLines, i1]
      · simp [copyLines, i1]
    · simp only [hc, if_false]
      refine ⟨?_, ?_, ?_⟩
      · by_cases hh : c = '#'
        · subst hh
          simp only [copyLines, if_true, hc, if_false, i3]
          cases splitLines r with
          | nil => simp [printedLines_cons, printedLines_nil]
          | cons l ls => simp [printedLines_cons, printedLines_nil]
        · simp only [copyLines, if_true, hc, hh, if_false, i2, reduceCtorEq]
          cases splitLines r with
          | nil => simp [printedLines_cons, printedLines_nil, hh]
          | cons l ls => simp [printedLines_cons, printedLines_nil, hh]
      · simp only [copyLines, reduceCtorEq, if_false, hc, i2]
        cases splitLines r <;> simp [printedLines_cons, printedLines_nil]
      · simp only [copyLines, reduceCtorEq, if_false, hc, i3, if_true]
        cases splitLines r <;> simp [printedLines_cons, printedLines_nil]

theorem legendText_eq (s : Str) (h : OnlyLineFeeds s) : legendText s = copyLines .start s := (copyLines_eq s h).1.symm

/-- C58: `--legend` prints the legend without its comment lines, whatever other options are
given; the status is 0. -/
theorem C58_legend (fuel : Nat) (w : World) (args : List Arg) (hh : .help ∉ args) (hw : WellFormed args) (hl : .flag .legend ∈ args)
    (hf : OnlyLineFeeds w.legend) :
    (program fuel w args).status = some 0 ∧ (program fuel w args).out = copyLines .start w.legend ++ ['\n'] := by
  obtain ⟨s, e1, hs⟩ := (C55_settings args hh).1 hw
  have hleg : (debugSettings s).legend = true := by
    have := hs.legend.2 hl
    unfold debugSettings Settings.readMode
    repeat' split
    all_goals exact this
  unfold program
  rw [e1]
  simp only
  unfold appRun Runner.create
  simp only [hleg, if_true]
  exact ⟨trivial, by rw [legendText_eq _ hf]⟩

/-- C58: `--version` without `--legend` prints the two versions, whatever other options are given. -/
theorem C58_version (fuel : Nat) (w : World) (args : List Arg) (hh : .help ∉ args) (hw : WellFormed args) (hl : .flag .legend ∉ args)
    (hv : .flag .version ∈ args) :
    (program fuel w args).status = some 0 ∧
      (program fuel w args).out = "es7s/kolombos   ".toList ++ w.version ++ "\npytermor        ".toList ++ w.pytermor ++ "\n\n".toList := by
  obtain ⟨s, e1, hs⟩ := (C55_settings args hh).1 hw
  have hleg : (debugSettings s).legend = false := by
    have h1 := hs.legend
    have : s.legend = false := by
      cases h : s.legend with
      | false => rfl
      | true => exact absurd (h1.1 h) hl
    unfold debugSettings Settings.readMode
    repeat' split
    all_goals exact this
  have hver : (debugSettings s).version = true := by
    have := hs.version.2 hv
    unfold debugSettings Settings.readMode
    repeat' split
    all_goals exact this
  unfold program
  rw [e1]
  simp only
  unfold appRun Runner.create
  simp only [hleg, hver, if_true, Bool.false_eq_true, if_false]
  refine ⟨trivial, ?_⟩
  unfold versionText
  rw [show ljust 16 ' ' "es7s/kolombos".toList = "es7s/kolombos   ".toList by decide, show ljust 16 ' ' "pytermor".toList = "pytermor        ".toList by decide]
  simp [List.append_assoc]


/-! ### The bundled legend -/

/-- A line that is printed: its only line break is the line feed at its end. -/
def wholeLine (l : List Str) : Bool :=
  l.flatten.dropLast.all (fun c => !isLineBreak c) && l.flatten.getLast? == some '\n' && l.flatten.head? != some '#'

theorem copyLines_inside (body rest : Str) (h : '\n' ∉ body) :
    copyLines .inside (body ++ '\n' :: rest) = body ++ '\n' :: copyLines .start rest := by
  induction body with
  | nil => simp [copyLines]
  | cons c body ih =>
    have hc : c ≠ '\n' := fun e => h (by simp [e])
    rw [List.cons_append, copyLines]
    simp only [reduceCtorEq, if_false, hc]
    rw [ih fun hm => h (by simp [hm])]
    rfl

theorem copyLines_line (l : List Str) (h : wholeLine l = true) (rest : Str) :
    copyLines .start (l.flatten ++ rest) = l.flatten ++ copyLines .start rest := by
  unfold wholeLine at h
  simp only [Bool.and_eq_true, List.all_eq_true, Bool.not_eq_true', beq_iff_eq, bne_iff_ne, ne_eq] at h
  obtain ⟨⟨h1, h2⟩, h3⟩ := h
  generalize l.flatten = t at *
  obtain ⟨body, rfl⟩ : ∃ body, t = body ++ ['\n'] := by
    have hne : t ≠ [] := by rintro rfl; cases h2
    refine ⟨t.dropLast, ?_⟩
    have := List.dropLast_append_getLast hne
    rw [List.getLast?_eq_some_getLast hne] at h2
    rw [← Option.some.inj h2, this]
  rw [List.dropLast_concat] at h1
  have hb : '\n' ∉ body := fun hm => absurd (h1 _ hm) (by decide)
  cases body with
  | nil => simp [copyLines]
  | cons c body =>
    have hc : c ≠ '\n' := fun e => hb (by simp [e])
    have hh : c ≠ '#' := fun e => h3 (by simp [e])
    simp only [List.cons_append, List.append_assoc, List.nil_append]
    rw [copyLines]
    simp only [if_true, hh, if_false, hc, reduceCtorEq]
    rw [copyLines_inside _ _ fun hm => hb (by simp [hm])]

theorem copyLines_all (ls : List (List Str)) (h : ls.all wholeLine = true) (rest : Str) :
    copyLines .start ((ls.map List.flatten).flatten ++ rest) = (ls.map List.flatten).flatten ++ copyLines .start rest := by
  induction ls with
  | nil => rfl
  | cons l ls ih =>
    rw [List.all_cons, Bool.and_eq_true] at h
    rw [List.map_cons, List.flatten_cons, List.append_assoc, copyLines_line l h.1, ih h.2, List.append_assoc]

theorem legendLines_whole : (legendLines.take 68).all wholeLine = true := by decide +kernel

theorem legendFile_printed : copyLines .start legendFile = ((legendLines.take 68).map List.flatten).flatten := by
  unfold legendFile
  rw [← List.take_append_drop 68 legendLines, List.map_append, List.flatten_append, copyLines_all _ legendLines_whole,
    show copyLines .start ((legendLines.drop 68).map List.flatten).flatten = [] by decide +kernel, List.append_nil,
    List.take_append_drop]

/-- Some lines leave the terminal grey. -/
def lineStart (i : Nat) : Style := if i ∈ [25, 28, 29, 30, 33, 48, 49] then { fg := .basic 90 } else {}

/-- The terminal after some parts, if the parts end between sequences. -/
def partsTerm : Style → List Str → Option Style
  | st, [] => some st
  | st, p :: ps =>
    match Term.run ⟨.ground, st⟩ p with
    | (⟨.ground, st'⟩, _) => partsTerm st' ps
    | _ => none

theorem legendLines_ends : ((legendLines.take 68).zipIdx.all fun l => partsTerm (lineStart l.2) l.1 == some (lineStart (l.2 + 1))) = true := by
  decide +kernel


/-- What appears for some parts. -/
def partsView : Style → List Str → List (Char × Style)
  | _, [] => []
  | st, p :: ps =>
    match Term.run ⟨.ground, st⟩ p with
    | (⟨_, st'⟩, v) => v ++ partsView st' ps

theorem parts_run {st st' : Style} {ps : List Str} (h : partsTerm st ps = some st') :
    Term.run ⟨.ground, st⟩ ps.flatten = (⟨.ground, st'⟩, partsView st ps) := by
  induction ps generalizing st with
  | nil => cases h; rfl
  | cons p ps ih =>
    unfold partsTerm at h
    split at h
    · rename_i st1 v e
      rw [List.flatten_cons, term_append, e]
      simp only [ih h, partsView, e]
    · cases h

theorem lines_run (ls : List (List Str)) (n : Nat)
    (h : ((ls.zipIdx n).all fun l => partsTerm (lineStart l.2) l.1 == some (lineStart (l.2 + 1))) = true) :
    Term.run ⟨.ground, lineStart n⟩ (ls.map List.flatten).flatten =
      (⟨.ground, lineStart (n + ls.length)⟩, (ls.zipIdx n).flatMap fun l => partsView (lineStart l.2) l.1) := by
  induction ls generalizing n with
  | nil => rfl
  | cons l ls ih =>
    rw [List.zipIdx_cons, List.all_cons, Bool.and_eq_true, beq_iff_eq] at h
    rw [List.map_cons, List.flatten_cons, term_append, parts_run h.1]
    simp only [ih (n + 1) h.2, List.zipIdx_cons, List.flatMap_cons, List.length_cons]
    rw [show n + 1 + ls.length = n + (ls.length + 1) by omega]

/-- What appears for the bundled legend. -/
def legendView : List (Char × Style) := (legendLines.take 68).zipIdx.flatMap fun l => partsView (lineStart l.2) l.1

theorem legend_appears : appears (copyLines .start legendFile) = legendView := by
  rw [legendFile_printed]
  have := lines_run (legendLines.take 68) 0 legendLines_ends
  unfold appears
  show (Term.run ⟨.ground, lineStart 0⟩ _).2 = _
  rw [this]
  rfl

/-- Appearances and the line of the legend where each can be found. -/
def legendTable : List (Nat × Char × Style) :=
  [(19, symbol .tab, kindColor .tab), (19, symbol .tab, kindFocus .tab), (20, symbol .newline, kindColor .newline),
   (20, symbol .newline, kindFocus .newline), (21, symbol .vertTab, kindColor .vertTab), (21, symbol .vertTab, kindFocus .vertTab),
   (22, symbol .formFeed, kindColor .formFeed), (22, symbol .formFeed, kindFocus .formFeed),
   (23, symbol .carrReturn, kindColor .carrReturn), (23, symbol .carrReturn, kindFocus .carrReturn),
   (24, symbol .space, kindColor .space), (24, '·', kindFocus .space), (30, symbol .null, kindColor .null),
   (30, symbol .null, kindFocus .null), (31, symbol .backspace, kindColor .backspace), (31, symbol .backspace, kindFocus .backspace),
   (32, symbol .delete, kindColor .delete), (32, symbol .delete, kindFocus .delete), (33, symbol .esc, kindColor .esc),
   (33, symbol .esc, kindFocus .esc), (26, symbol .ctrl, kindColor .ctrl), (26, symbol .ctrl, kindFocus .ctrl),
   (45, symbol .reset, kindColor .reset), (49, symbol .sgr, kindColor .sgr), (56, symbol .csi, kindColor .csi),
   (59, symbol .fe, kindColor .fe), (60, symbol .fs, kindColor .fs), (42, symbol .utf8, kindColor .utf8),
   (42, symbol .utf8, kindFocus .utf8), (38, symbol .binary, kindColor .binary), (38, symbol .binary, kindFocus .binary),
   (39, '▯', kindColor .binary), (39, '▯', kindFocus .binary), (57, symbol .nF, kindFocus .nF), (58, symbol .fp, kindFocus .fp),
   (46, '⢸', { fg := .indexed 255 }), (46, '⡇', { fg := .indexed 255 }), (43, '_', kindColor .utf8), (43, '_', kindFocus .utf8)]

theorem legend_has : (legendTable.all fun x => match (legendLines.take 68)[x.1]? with
    | some l => (partsView (lineStart x.1) l).contains x.2
    | none => false) = true := by
  decide +kernel

theorem mem_legend {i : Nat} {x : Char × Style} (h : (i, x) ∈ legendTable) : x ∈ appears (copyLines .start legendFile) := by
  have := List.all_eq_true.1 legend_has _ h
  rw [legend_appears, legendView]
  simp only at this
  split at this
  · rename_i l e
    exact List.mem_flatMap.2 ⟨(l, i), List.mem_zipIdx_iff_getElem?.2 (by simpa using e), List.contains_iff_mem.1 this⟩
  · cases this

theorem legend_missing : legendView.all (fun x => x.1 != '×' && x != (symbol .nF, kindColor .nF) && x != (symbol .fp, kindColor .fp)) = true := by
  decide +kernel

/-- The symbol of a kind in its style is in the legend. -/
theorem symbol_explained (s : Settings) (k : Kind) (hk : k ∉ [.printable])
    (he : classOfKind k = .escapeSeq → (s.focus .escapeSeq = true ↔ k = .nF ∨ k = .fp)) :
    (if k = .space ∧ s.focus .whitespace = true then '·' else symbol k, if s.focus (classOfKind k) = true then kindFocus k else kindColor k) ∈
      appears (copyLines .start legendFile) := by
  have mem (i : Nat) {x : Char × Style} (h : (i, x) ∈ legendTable) : x ∈ appears (copyLines .start legendFile) := mem_legend h
  cases k <;> simp only [List.mem_cons, reduceCtorEq, List.not_mem_nil, or_true, or_false, true_or, or_self, not_true_eq_false, not_false_eq_true] at hk <;>
    simp only [classOfKind, true_and, reduceCtorEq, false_and, if_false, or_false, or_true, or_self, iff_true, iff_false, Bool.not_eq_true, forall_const] at he ⊢
  case reset => simp only [he, Bool.false_eq_true, if_false]; exact mem 45 (by decide)
  case sgr => simp only [he, Bool.false_eq_true, if_false]; exact mem 49 (by decide)
  case csi => simp only [he, Bool.false_eq_true, if_false]; exact mem 56 (by decide)
  case fe => simp only [he, Bool.false_eq_true, if_false]; exact mem 59 (by decide)
  case fs => simp only [he, Bool.false_eq_true, if_false]; exact mem 60 (by decide)
  case nF => simp only [he, if_true]; exact mem 57 (by decide)
  case fp => simp only [he, if_true]; exact mem 58 (by decide)
  case tab => by_cases h : s.focus .whitespace = true <;> simp only [h, if_true, if_false, Bool.false_eq_true] <;> exact mem 19 (by decide)
  case newline => by_cases h : s.focus .whitespace = true <;> simp only [h, if_true, if_false, Bool.false_eq_true] <;> exact mem 20 (by decide)
  case vertTab => by_cases h : s.focus .whitespace = true <;> simp only [h, if_true, if_false, Bool.false_eq_true] <;> exact mem 21 (by decide)
  case formFeed => by_cases h : s.focus .whitespace = true <;> simp only [h, if_true, if_false, Bool.false_eq_true] <;> exact mem 22 (by decide)
  case carrReturn => by_cases h : s.focus .whitespace = true <;> simp only [h, if_true, if_false, Bool.false_eq_true] <;> exact mem 23 (by decide)
  case space => by_cases h : s.focus .whitespace = true <;> simp only [h, if_true, if_false, Bool.false_eq_true] <;> exact mem 24 (by decide)
  case null => by_cases h : s.focus .controlChar = true <;> simp only [h, if_true, if_false, Bool.false_eq_true] <;> exact mem 30 (by decide)
  case backspace => by_cases h : s.focus .controlChar = true <;> simp only [h, if_true, if_false, Bool.false_eq_true] <;> exact mem 31 (by decide)
  case delete => by_cases h : s.focus .controlChar = true <;> simp only [h, if_true, if_false, Bool.false_eq_true] <;> exact mem 32 (by decide)
  case esc => by_cases h : s.focus .controlChar = true <;> simp only [h, if_true, if_false, Bool.false_eq_true] <;> exact mem 33 (by decide)
  case ctrl => by_cases h : s.focus .controlChar = true <;> simp only [h, if_true, if_false, Bool.false_eq_true] <;> exact mem 26 (by decide)
  case binary => by_cases h : s.focus .binaryData = true <;> simp only [h, if_true, if_false, Bool.false_eq_true] <;> exact mem 38 (by decide)
  case utf8 => by_cases h : s.focus .utf8Seq = true <;> simp only [h, if_true, if_false, Bool.false_eq_true] <;> exact mem 42 (by decide)

theorem dotted_explained (st : Style) (hu : st.underline ≠ 0) (l : List Str) : ∀ x ∈ dottedInk st l, x.1 = '･' ∨ x.2.underline ≠ 0 := by
  induction l with
  | nil => intro x hx; cases hx
  | cons a l ih =>
    cases l with
    | nil =>
      intro x hx
      obtain ⟨c, -, rfl⟩ := List.mem_map.1 hx
      exact .inr hu
    | cons b l =>
      intro x hx
      rw [dottedInk, List.mem_append, List.mem_cons] at hx
      rcases hx with hx | rfl | hx
      · obtain ⟨c, -, rfl⟩ := List.mem_map.1 hx
        exact .inr hu
      · exact .inl rfl
      · exact ih x hx
      · simp

/-- C58: every character displayed in text mode other than characters of the input themselves, tabulations, the ends of
lines and underlined details (with the dots between them) is in the legend, in the same style.  Left out: SGR sequences with
`--color-markers`, ignored classes, and what the legend shows wrongly: escape sequences of the kinds nF and Fp without focus, of the
other kinds with focus. -/
theorem C58_explained_partial (s : Settings) (k : Kind) (p : Bytes) (hi : s.ignore (classOfKind k) = false)
    (hk : k ∉ [.printable, .utf8]) (hc : k = .sgr → s.colorMarkers = false)
    (he : classOfKind k = .escapeSeq → (s.focus .escapeSeq = true ↔ k = .nF ∨ k = .fp)) :
    ∀ x ∈ textInk s (k, p), x.1 = '\t' ∨ x.1 = '\n' ∨ x.1 = '･' ∨ x.2.underline ≠ 0 ∨ x ∈ appears (copyLines .start legendFile) := by
  have hsym := symbol_explained s k (by simp only [List.mem_cons, List.not_mem_nil, or_false, not_or] at hk ⊢; exact hk.1) he
  have mem (i : Nat) {x : Char × Style} (h : (i, x) ∈ legendTable) : x ∈ appears (copyLines .start legendFile) := mem_legend h
  have hesc : ∀ k, isEscKind k = true → s.ignore (classOfKind k) = false → (k = .sgr → s.colorMarkers = false) →
      (if k = .space ∧ s.focus .whitespace = true then '·' else symbol k, if s.focus (classOfKind k) = true then kindFocus k else kindColor k) ∈
        appears (copyLines .start legendFile) →
      ∀ x ∈ (if enclosed s then
        ('⢸', { fg := .indexed 255 }) :: (symbol k, markerInk s k p) :: (escDetailInk s k p ++ [('⡇', { fg := .indexed 255 })])
        else (symbol k, markerInk s k p) :: escDetailInk s k p : List (Char × Style)),
        x.1 = '\t' ∨ x.1 = '\n' ∨ x.1 = '･' ∨ x.2.underline ≠ 0 ∨ x ∈ appears (copyLines .start legendFile) := by
    intro k hk hi hc hsym
    have hm : (symbol k, markerInk s k p) ∈ appears (copyLines .start legendFile) := by
      rw [if_neg (by rintro ⟨rfl, -⟩; cases hk)] at hsym
      unfold markerInk kindInk
      rw [if_neg (by rintro ⟨h1, h2⟩; rw [hc h1] at h2; cases h2), hi]
      exact hsym
    have hu : (escInk s k p).underline ≠ 0 := by
      unfold escInk
      split
      · rename_i h; rw [hc h]; simp [detailInk]
      · simp
    have hd : ∀ x ∈ escDetailInk s k p, x.1 = '･' ∨ x.2.underline ≠ 0 := by
      unfold escDetailInk
      split
      · exact dotted_explained _ hu _
      · intro x hx
        obtain ⟨c, -, rfl⟩ := List.mem_map.1 hx
        exact .inr hu
    intro x hx
    have : x = ('⢸', { fg := .indexed 255 }) ∨ x = ('⡇', { fg := .indexed 255 }) ∨ x = (symbol k, markerInk s k p) ∨ x ∈ escDetailInk s k p := by
      split at hx
      · simp only [List.mem_cons, List.mem_append, List.not_mem_nil, or_false] at hx
        rcases hx with h | h | h | h
        · exact .inl h
        · exact .inr (.inr (.inl h))
        · exact .inr (.inr (.inr h))
        · exact .inr (.inl h)
      · rcases List.mem_cons.1 hx with h | h
        · exact .inr (.inr (.inl h))
        · exact .inr (.inr (.inr h))
    rcases this with rfl | rfl | rfl | h
    · exact .inr (.inr (.inr (.inr (mem 46 (by decide)))))
    · exact .inr (.inr (.inr (.inr (mem 46 (by decide)))))
    · exact .inr (.inr (.inr (.inr hm)))
    · rcases hd x h with h | h
      · exact .inr (.inr (.inl h))
      · exact .inr (.inr (.inr (.inl h)))
  have hrun : ∀ k, k ≠ .tab → s.ignore (classOfKind k) = false →
      (if k = .space ∧ s.focus .whitespace = true then '·' else symbol k, if s.focus (classOfKind k) = true then kindFocus k else kindColor k) ∈
        appears (copyLines .start legendFile) →
      ∀ x ∈ inStyle (kindInk s k) (p.map fun _ => if k = .space ∧ s.focus .whitespace = true then '·' else symbol k),
        x.1 = '\t' ∨ x.1 = '\n' ∨ x.1 = '･' ∨ x.2.underline ≠ 0 ∨ x ∈ appears (copyLines .start legendFile) := by
    intro k _ hi hsym x hx
    obtain ⟨c, hc, rfl⟩ := List.mem_map.1 hx
    obtain ⟨b, -, rfl⟩ := List.mem_map.1 hc
    refine .inr (.inr (.inr (.inr ?_)))
    unfold kindInk
    rw [hi]
    exact hsym
  have hesc' := fun h => hesc k h hi hc hsym
  have hrun' := fun h => hrun k h hi hsym
  clear hesc hrun
  unfold textInk
  simp only [hi, Bool.false_eq_true, if_false]
  cases k with
  | printable => exact absurd (by simp) hk
  | utf8 => exact absurd (by simp) hk
  | reset => exact hesc' rfl
  | sgr => exact hesc' rfl
  | csi => exact hesc' rfl
  | nF => exact hesc' rfl
  | fp => exact hesc' rfl
  | fe => exact hesc' rfl
  | fs => exact hesc' rfl
  | newline =>
    intro x hx
    simp only [List.mem_cons, List.not_mem_nil, or_false] at hx
    rcases hx with rfl | rfl
    · refine .inr (.inr (.inr (.inr ?_)))
      unfold kindInk
      rw [hi]
      exact hsym
    · exact .inr (.inl rfl)
  | ctrl =>
    intro x hx
    obtain ⟨b, -, hx⟩ := List.mem_flatMap.1 hx
    rcases List.mem_cons.1 hx with rfl | hx
    · refine .inr (.inr (.inr (.inr ?_)))
      unfold kindInk
      rw [hi]
      exact hsym
    · obtain ⟨c, -, rfl⟩ := List.mem_map.1 hx
      exact .inr (.inr (.inr (.inl (by simp))))
  | tab =>
    intro x hx
    obtain ⟨c, hc, rfl⟩ := List.mem_map.1 hx
    unfold textGlyphs at hc
    rw [hi] at hc
    simp only [Bool.false_eq_true, if_false] at hc
    obtain ⟨b, -, hc⟩ := List.mem_flatMap.1 hc
    simp only [List.mem_cons, List.not_mem_nil, or_false] at hc
    rcases hc with rfl | rfl
    · refine .inr (.inr (.inr (.inr ?_)))
      unfold kindInk
      rw [hi]
      exact hsym
    · exact .inl rfl
  | _ =>
    have := hrun' (by decide)
    simpa only [textGlyphs, hi, Bool.false_eq_true, if_false, true_and, reduceCtorEq, false_and] using this

/-- C58 in binary mode: every character other than those of the input and underlined details is in the legend, in the same style. -/
theorem C58_binary_partial (s : Settings) (k : Kind) (p : Bytes) (hi : s.ignore (classOfKind k) = false)
    (hk : k ≠ .printable) (hc : k = .sgr → s.colorMarkers = false)
    (he : classOfKind k = .escapeSeq → (s.focus .escapeSeq = true ↔ k = .nF ∨ k = .fp)) :
    ∀ x ∈ binInk s (k, p), (k = .utf8 ∧ s.decode = some true ∧ x.1 ∈ utf8Char p) ∨ x.2.underline ≠ 0 ∨ x ∈ appears (copyLines .start legendFile) := by
  have hsym := symbol_explained s k (by simpa using hk) he
  have mem (i : Nat) {x : Char × Style} (h : (i, x) ∈ legendTable) : x ∈ appears (copyLines .start legendFile) := mem_legend h
  have hesc : isEscKind k = true → ∀ x ∈ ((symbol k, markerInk s k p) :: inStyle (escInk s k p) (asciiChars (p.drop 1))),
      (k = .utf8 ∧ s.decode = some true ∧ x.1 ∈ utf8Char p) ∨ x.2.underline ≠ 0 ∨ x ∈ appears (copyLines .start legendFile) := by
    intro hk x hx
    rcases List.mem_cons.1 hx with rfl | hx
    · rw [if_neg (by rintro ⟨rfl, -⟩; cases hk)] at hsym
      refine .inr (.inr ?_)
      unfold markerInk kindInk
      rw [if_neg (by rintro ⟨h1, h2⟩; rw [hc h1] at h2; cases h2), hi]
      exact hsym
    · obtain ⟨c, -, rfl⟩ := List.mem_map.1 hx
      refine .inr (.inl ?_)
      unfold escInk
      split
      · rename_i h; rw [hc h]; simp [detailInk]
      · simp
  have hrun : ∀ x ∈ inStyle (kindInk s k) (p.map fun _ => if k = .space ∧ s.focus .whitespace = true then '·' else symbol k),
        (k = .utf8 ∧ s.decode = some true ∧ x.1 ∈ utf8Char p) ∨ x.2.underline ≠ 0 ∨ x ∈ appears (copyLines .start legendFile) := by
    intro x hx
    obtain ⟨c, hc, rfl⟩ := List.mem_map.1 hx
    obtain ⟨b, -, rfl⟩ := List.mem_map.1 hc
    refine .inr (.inr ?_)
    unfold kindInk
    rw [hi]
    exact hsym
  unfold binInk
  simp only [hi, Bool.false_eq_true, if_false]
  cases k with
  | printable => exact absurd rfl hk
  | reset => exact hesc rfl
  | sgr => exact hesc rfl
  | csi => exact hesc rfl
  | nF => exact hesc rfl
  | fp => exact hesc rfl
  | fe => exact hesc rfl
  | fs => exact hesc rfl
  | utf8 =>
    intro x hx
    obtain ⟨c, hc, rfl⟩ := List.mem_map.1 hx
    unfold binGlyphs at hc
    rw [hi] at hc
    simp only [Bool.false_eq_true, if_false] at hc
    have hst : ∀ c, (∀ f : Bool, (c, if f = true then kindFocus .utf8 else kindColor .utf8) ∈ appears (copyLines .start legendFile)) →
        (c, kindInk s .utf8) ∈ appears (copyLines .start legendFile) := by
      intro c h
      unfold kindInk
      rw [hi]
      exact h _
    split at hc
    · rename_i hd
      rcases List.mem_append.1 hc with hc | hc
      · rw [List.eq_of_mem_replicate hc]
        exact .inr (.inr (hst _ fun f => by cases f <;> exact mem 43 (by decide)))
      · exact .inl ⟨rfl, hd, hc⟩
    · obtain ⟨b, -, rfl⟩ := List.mem_map.1 hc
      exact .inr (.inr (hst _ fun f => by cases f <;> exact mem 42 (by decide)))
  | binary =>
    intro x hx
    obtain ⟨c, hc, rfl⟩ := List.mem_map.1 hx
    unfold binGlyphs at hc
    rw [hi] at hc
    simp only [Bool.false_eq_true, if_false] at hc
    obtain ⟨b, -, rfl⟩ := List.mem_map.1 hc
    refine .inr (.inr ?_)
    unfold kindInk
    rw [hi]
    simp only [Bool.false_eq_true, if_false]
    split <;> exact mem 39 (by decide)
  | _ =>
    simpa only [binGlyphs, hi, Bool.false_eq_true, if_false, true_and, reduceCtorEq, false_and] using hrun

/-- The hypotheses are met: a carriage return with whitespace in focus. -/
example : ('⇤', ({ fg := .basic 30, bg := .basic 46 } : Style)) ∈ appears (copyLines .start legendFile) := by
  have := C58_explained_partial { ({} : Settings) with focus := fun c => c == .whitespace } .carrReturn [0x0d] (by decide) (by decide) (by decide) (by decide)
    ('⇤', { fg := .basic 30, bg := .basic 46 }) (by decide)
  simpa using this

/-- ... the separator of an escape sequence with details, and a box of binary mode. -/
example : ('⢸', ({ fg := .indexed 255 } : Style)) ∈ appears (copyLines .start legendFile) := by
  have := C58_explained_partial { ({} : Settings) with marker := 1 } .sgr [0x1b, 0x5b, 0x31, 0x6d] (by decide) (by decide) (by decide) (by decide)
    ('⢸', { fg := .indexed 255 }) (by decide)
  simpa using this

example : ('▯', kindColor .utf8) ∈ appears (copyLines .start legendFile) := by
  have := C58_binary_partial {} .utf8 [0xc3, 0xa9] (by decide) (by decide) (by decide) (by decide) ('▯', kindColor .utf8) (by decide)
  rcases this with h | h | h
  · exact absurd h.2.1 (by decide)
  · exact absurd rfl h
  · exact h

/-- C58 does not hold in full: the markers of nF and Fp sequences and the mark of ignored bytes
are displayed but not in the legend. -/
theorem C58_negation :
    (¬ ∀ q : Kind × Bytes, q.1 ∉ [.printable, .utf8] → ∀ x ∈ textInk {} q, x.1 = '\t' ∨ x.1 = '\n' ∨ x ∈ appears (copyLines .start legendFile)) ∧
    (¬ ∀ (s : Settings) (q : Kind × Bytes), ∀ x ∈ textInk s q, x.1 = '×' → ∃ st, ('×', st) ∈ appears (copyLines .start legendFile)) := by
  rw [legend_appears]
  have h := legend_missing
  rw [List.all_eq_true] at h
  refine ⟨fun H => ?_, fun H => ?_⟩
  · have := H (.nF, [0x1b, 0x28, 0x42]) (by decide) (symbol .nF, kindColor .nF) (by decide)
    rcases this with e | e | e
    · exact absurd e (by decide)
    · exact absurd e (by decide)
    · exact absurd (h _ e) (by decide)
  · obtain ⟨st, e⟩ := H { ({} : Settings) with ignore := fun c => c == .whitespace } (.space, [0x20]) ('×', dimGrey) (by decide) rfl
    have := h _ e
    simp at this

end Kolombos
