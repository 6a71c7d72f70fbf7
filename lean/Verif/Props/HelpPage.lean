import Verif.Lemmas.HelpInk
import Verif.Spec.HelpPage
/-
C91 - C95: the help page.
-/
set_option linter.unusedSimpArgs false
namespace Kolombos
open Spec

/-! ## C91: the width of the terminal -/

/-- Whatever the width and wherever the output goes, the words that can be read are the same, colons at
the ends of words left aside (the next theorem says why); at least 22 columns are needed. -/
theorem C91_words_partial (t t' : Bool) {c c' : Nat} (h : 22 ≤ c) (h' : 22 ≤ c') :
    (shownWords (helpPage t c)).map noColon = (shownWords (helpPage t' c')).map noColon := by
  have h1 := formatHelp_words t h true
  have h2 := formatHelp_words t' h' true
  simp only [if_true] at h1 h2
  show bareWords (formatHelp t c _) = bareWords (formatHelp t' c' _)
  rw [h1, h2, pageWords_tty t, pageWords_tty t']

example : (shownWords (helpPage true 40)).map noColon = (shownWords (helpPage false 200)).map noColon :=
  C91_words_partial _ _ (by omega) (by omega)

theorem words80 : (["[default".toList] : List Str).isSublist (shownWords (helpPage false 80)) = true ∧
    (["[default".toList] : List Str).isSublist (shownWords (helpPage false 125)) = false := by decide +kernel

/-- The colons cannot be left out of the statement above: a colon at the end of a line is taken for the
colon of a title and disappears.  With 80 columns the page says `[default` instead of `[default:`. -/
theorem C91_negation : ¬ ∀ (t : Bool) (c c' : Nat), 22 ≤ c → 22 ≤ c' → shownWords (helpPage t c) = shownWords (helpPage t c') := by
  intro h
  obtain ⟨h1, h2⟩ := words80
  rw [h false 80 125 (by omega) (by omega), h2] at h1
  cases h1

/-- With fewer columns words are broken. -/
theorem C91_negation_narrow : ¬ ∀ (c c' : Nat), (shownWords (helpPage false c)).map noColon = (shownWords (helpPage false c')).map noColon := by
  intro h
  have : ((shownWords (helpPage false 21)).map noColon).contains "(-D|DD|DDD|DDDD)".toList = false ∧
      ((shownWords (helpPage false 22)).map noColon).contains "(-D|DD|DDD|DDDD)".toList = true := by decide +kernel
  rw [h 21 22, this.2] at this
  cases this.1

/-- No printed character is ever lost, whatever the width: colons and blanks left aside, the characters of
the page are the same. -/
theorem C91_ink (t : Bool) (c c' : Nat) : inked (helpPage t c) = inked (helpPage t c') := by
  unfold helpPage
  rw [inked_formatHelp, inked_formatHelp]

example : inked (helpPage true 1) = inked (helpPage true 80) := C91_ink ..

theorem entryGroups_wide (tty : Bool) {w : Nat} (hw : 123 ≤ w) {e : HelpEntry} (he : checkEntry tty e = true) :
    entryGroups tty w e = [entryWords tty e] := by
  have hpos : helpPosition w = 26 := by rw [helpPosition_eq]; omega
  simp only [checkEntry, Bool.and_eq_true, decide_eq_true_eq] at he
  obtain ⟨⟨⟨⟨h1, h2⟩, h3⟩, h4⟩, h5⟩ := he
  have hne : entryWords tty e ≠ [] := by simpa using h2
  have hp : ∀ x ∈ entryWords tty e, IsPlainWord x := fun x hx => okWord_plain (okWords_mem h3 x hx)
  have hj : join [' '] (entryWords tty e) = entryText tty e := join_splitOn _
  unfold entryGroups
  rw [textWrap, h1, wrapChunks_one (by omega) hne hp (by rw [hj, hpos]; omega)]
  rw [List.map_singleton, splitOn_join hne fun x hx => plain_blank (hp x hx)]

theorem pageLines_wide (t : Bool) {w : Nat} (hw : 123 ≤ w) (remarks : Bool) : pageLines t w remarks = pageLines t 123 remarks := by
  have hpos : helpPosition w = 26 := by rw [helpPosition_eq]; omega
  have hpos' : helpPosition 123 = 26 := by rw [helpPosition_eq]; omega
  have hg : ∀ g ∈ helpGroups, ([] :: groupLines t w g : List Str) = [] :: groupLines t 123 g := by
    intro g hg
    have he : ∀ e ∈ g.2, entryLines (helpPosition w) (invocation e) (entryGroups t w e) =
        entryLines (helpPosition 123) (invocation e) (entryGroups t 123 e) := by
      intro e he
      rw [entryGroups_wide t hw (entry_ok hg he t), entryGroups_wide t (Nat.le_refl _) (entry_ok hg he t), hpos, hpos']
    rw [groupLines, groupLines, List.flatMap_def, List.flatMap_def, List.map_congr_left he]
  rw [pageLines, pageLines, List.flatMap_def, List.flatMap_def, List.map_congr_left hg]

/-- From 125 columns on the page does not change, and nothing is missing: it shows the words of the
uncoloured page with their colons. -/
theorem C91_wide (t : Bool) {c : Nat} (h : 125 ≤ c) :
    helpPage t c = helpPage t 125 ∧ shownWords (helpPage t c) = shownWords (helpPage false 125) := by
  have h0 : helpPage t c = helpPage t 125 := by
    have h1 := formatHelp_lines t (c := c) (by omega) true
    have h2 := formatHelp_lines t (c := 125) (by omega) true
    simp only [if_true] at h1 h2
    unfold helpPage
    rw [h1, h2, pageLines_wide t (w := c - 2) (by omega)]
  refine ⟨h0, ?_⟩
  rw [h0]
  cases t
  · rfl
  · decide +kernel

example : ("[default:".toList ∈ shownWords (helpPage true 1000)) := by
  rw [(C91_wide true (by omega)).2]
  decide +kernel

/-! ## C92: the page lists the options -/

/-- What the page lists, written down from the table of the parser. -/
def tableNames : List (List Str) :=
  helpGroups.flatMap fun g => g.2.flatMap fun e => if e.names = [] then [] else [e.names]

/-- What the proof needs to know of the left column. -/
def checkNames (e : HelpEntry) : Bool :=
  let v := invocation e
  (if e.names = [] then v.head? != some '-' else v.head? == some '-' && decide (namesOnLine v = e.names))

/-- No line of these is about an option. -/
def checkNoOption (l : Str) : Bool := !isOptionLine (dropEndColon l)

theorem names_checked : (helpGroups.all fun g => checkNoOption (formatHeader g.1 ++ [':']) &&
    g.2.all fun e => checkNames e && ((entryWords true e ++ entryWords false e).all fun x => x.head? != some '-' || x.dropLast != []) &&
      (entryWords true e).head?.all (fun x => x.head? != some '-') && (entryWords false e).head?.all (fun x => x.head? != some '-')) = true := by
  decide +kernel

theorem fixed_noOption (tty : Bool) : (headLines.all checkNoOption && (endLines tty true).all checkNoOption) = true := by
  cases tty <;> decide +kernel

theorem optionLine_blank (s : Str) : isOptionLine (' ' :: ' ' :: ' ' :: s) = false := by
  simp [isOptionLine, List.isPrefixOf]

theorem optionLine_two (s : Str) : isOptionLine (' ' :: ' ' :: s) = (s.head? == some '-') := by
  cases s with
  | nil => simp [isOptionLine, List.isPrefixOf]
  | cons c s => simp [isOptionLine, List.isPrefixOf, eq_comm]

theorem takeWhile_stop {α : Type} (p : α → Bool) : ∀ (A B : List α), B.head?.all (fun x => !p x) = true →
    (A ++ B).takeWhile p = A.takeWhile p
  | [], [], _ => rfl
  | [], b :: B, h => by
    simp only [List.head?_cons, Option.all_some, Bool.not_eq_true'] at h
    simp [List.takeWhile_cons, h]
  | a :: A, B, h => by
    rw [List.cons_append, List.takeWhile_cons, List.takeWhile_cons, takeWhile_stop p A B h]

theorem dropEndColon_head {x : Str} (h : okWord x = true) : (dropEndColon x).head? = x.head? ∧ IsPlainWord (dropEndColon x) := by
  have hp := okWord_plain h
  rcases okWord_split h with ⟨h1, _⟩ | ⟨a, ha, rfl, _, _⟩
  · have : dropEndColon x = x := by
      unfold dropEndColon
      rw [if_neg]
      intro e
      exact h1 (List.mem_of_getLast? e)
    rw [this]
    exact ⟨rfl, hp⟩
  · rw [dropEndColon_snoc]
    refine ⟨?_, ha, fun c hc => hp.2 c (by simp [hc])⟩
    obtain ⟨c, r, rfl⟩ := List.exists_cons_of_ne_nil ha
    rfl

/-- The option lines about an entry. -/
theorem entryLines_listed {tty : Bool} {w : Nat} (hw : 20 ≤ w) {g : Str × List HelpEntry} (hg : g ∈ helpGroups)
    {e : HelpEntry} (he : e ∈ g.2) :
    (((entryLines (helpPosition w) (invocation e) (entryGroups tty w e)).map dropEndColon).filter isOptionLine).map namesOnLine =
      if e.names = [] then [] else [e.names] := by
  obtain ⟨h1, h2, h3, _⟩ := entryGroups_ok hw (entry_ok hg he tty)
  have hpos := helpPosition_ge w
  have hc := List.all_eq_true.1 names_checked g hg
  simp only [Bool.and_eq_true] at hc
  have hc := List.all_eq_true.1 hc.2 e he
  simp only [Bool.and_eq_true] at hc
  obtain ⟨⟨⟨hn, _⟩, ht⟩, hf⟩ := hc
  have hfirst : (entryWords tty e).head?.all (fun x => x.head? != some '-') = true := by
    cases tty
    · exact hf
    · exact ht
  clear ht hf
  have hok : okWords (entryWords tty e) = true := by
    have := entry_ok hg he tty
    simp only [checkEntry, Bool.and_eq_true, decide_eq_true_eq] at this
    exact this.1.1.2
  have hi := invocation_ok hg he
  simp only [checkInvocation, Bool.and_eq_true, Bool.not_eq_true', decide_eq_true_eq] at hi
  obtain ⟨⟨⟨⟨⟨i1, i2⟩, _⟩, _⟩, _⟩, _⟩ := hi
  have i1' : invocation e ≠ [] := by simpa using i1
  have i2' : ':' ∉ invocation e := by simpa using i2
  rw [← h1] at hfirst hok
  unfold checkNames at hn
  simp only [] at hn
  generalize hp : helpPosition w = pos at *
  generalize entryGroups tty w e = gs at *
  generalize invocation e = v at *
  have hwords : ∀ g ∈ gs, g ≠ [] ∧ ∀ x ∈ g, okWord x = true := fun g hg =>
    ⟨(h3 g hg).1, fun x hx => okWords_mem hok x (List.mem_flatten.2 ⟨g, hg, hx⟩)⟩
  have hrest : ∀ gs : List (List Str), (∀ g ∈ gs, g ≠ [] ∧ ∀ x ∈ g, okWord x = true) →
      ((gs.map fun g => List.replicate pos ' ' ++ join [' '] g).map dropEndColon).filter isOptionLine = [] := by
    intro gs hgs
    rw [List.filter_eq_nil_iff]
    intro l hl
    obtain ⟨m, hm, rfl⟩ := List.mem_map.1 hl
    obtain ⟨g, hg, rfl⟩ := List.mem_map.1 hm
    have hj := join_ne_nil (hgs g hg).1 fun x hx => (okWord_plain ((hgs g hg).2 x hx)).1
    obtain ⟨k, rfl⟩ : ∃ k, pos = k + 3 := ⟨pos - 3, by omega⟩
    rw [dropEndColon_append _ hj, List.replicate_succ, List.replicate_succ, List.replicate_succ]
    simp only [List.cons_append, optionLine_blank]
    simp
  obtain ⟨f, fs, rfl⟩ := List.exists_cons_of_ne_nil h2
  have hf := hwords f (by simp)
  rw [entryLines]
  -- the first line
  have key : ∀ (l : Str) (p : Str) (B : List Str), l = ' ' :: ' ' :: (v ++ p) →
      words (v ++ p) = words v ++ B → B.head?.all (fun x => x.head? != some '-') = true →
      ([l].filter isOptionLine).map namesOnLine = if e.names = [] then [] else [e.names] := by
    intro l p B hl hB hBh
    have hhead : isOptionLine l = (v.head? == some '-') := by
      rw [hl, optionLine_two]
      obtain ⟨c, r, rfl⟩ := List.exists_cons_of_ne_nil i1'
      rfl
    by_cases hz : e.names = []
    · rw [if_pos hz] at hn ⊢
      rw [List.filter_cons, if_neg]
      · rfl
      · rw [hhead]
        simpa using hn
    · rw [if_neg hz] at hn ⊢
      simp only [Bool.and_eq_true, decide_eq_true_eq] at hn
      rw [List.filter_cons, if_pos (by rw [hhead]; exact hn.1), List.filter_nil, List.map_singleton, ← hn.2]
      congr 1
      unfold namesOnLine
      rw [hl, words_cons ws_blank, words_cons ws_blank, hB, takeWhile_stop]
      cases hb : B.head? with
      | none => rfl
      | some b =>
        rw [hb] at hBh
        simpa using hBh
  by_cases hfit : v.length ≤ pos - 2 - 2
  · simp only [hfit, if_true]
    rw [List.map_cons, ← List.singleton_append, List.filter_append,
      hrest fs fun x hx => hwords x (List.mem_cons_of_mem _ hx), List.append_nil]
    obtain ⟨a, x, hax, hd⟩ := dropEndColon_join ([' ', ' '] ++ ljust (pos - 2 - 2) ' ' v ++ [' ', ' ']) hf.1
      fun x hx => (okWord_plain (hf.2 x hx)).1
    have hpl : ∀ y ∈ a ++ [dropEndColon x], IsPlainWord y := by
      intro y hy
      rcases List.mem_append.1 hy with hy | hy
      · exact okWord_plain (hf.2 y (by rw [hax]; simp [hy]))
      · simp only [List.mem_singleton] at hy
        subst hy
        exact (dropEndColon_head (hf.2 x (by rw [hax]; simp))).2
    rw [hd]
    refine key _ (List.replicate (pos - 2 - 2 - v.length) ' ' ++ [' ', ' '] ++ join [' '] (a ++ [dropEndColon x]))
      (a ++ [dropEndColon x]) (by simp [ljust]) ?_ ?_
    · have hsh : v ++ (List.replicate (pos - 2 - 2 - v.length) ' ' ++ [' ', ' '] ++ join [' '] (a ++ [dropEndColon x])) =
          v ++ ' ' :: (List.replicate (pos - 2 - 2 - v.length) ' ' ++ ' ' :: join [' '] (a ++ [dropEndColon x])) := by
        have : List.replicate (pos - 2 - 2 - v.length) ' ' ++ [' ', ' '] = ' ' :: (List.replicate (pos - 2 - 2 - v.length) ' ' ++ [' ']) := by
          have h1 : List.replicate (pos - 2 - 2 - v.length) ' ' ++ [' '] = ' ' :: List.replicate (pos - 2 - 2 - v.length) ' ' := by
            rw [← List.replicate_succ', List.replicate_succ]
          rw [show ([' ', ' '] : Str) = [' '] ++ [' '] from rfl, ← List.append_assoc, h1, List.cons_append, h1]
        rw [this]
        simp
      rw [hsh, words_append ws_blank, words_blanks, words_cons ws_blank, words_join hpl]
    · rw [List.flatten_cons, hax] at hfirst
      cases a with
      | nil =>
        simp only [List.nil_append, List.cons_append, List.head?_cons, Option.all_some] at hfirst ⊢
        rw [(dropEndColon_head (hf.2 x (by rw [hax]; simp))).1]
        exact hfirst
      | cons y a => simpa using hfirst
  · simp only [hfit, if_false]
    rw [List.map_cons, ← List.singleton_append, List.filter_append, hrest (f :: fs) hwords, List.append_nil]
    have hd : dropEndColon ([' ', ' '] ++ v) = ' ' :: ' ' :: (v ++ []) := by
      unfold dropEndColon
      rw [if_neg]
      · simp
      · intro h
        have := List.mem_of_getLast? h
        simp [i2'] at this
    exact key _ [] [] hd (by simp) rfl

theorem filter_flatMap_option {α : Type} (f : α → List Str) (n : α → List (List Str)) : ∀ (l : List α),
    (∀ e ∈ l, (((f e).map dropEndColon).filter isOptionLine).map namesOnLine = n e) →
    (((l.flatMap f).map dropEndColon).filter isOptionLine).map namesOnLine = l.flatMap n
  | [], _ => rfl
  | e :: l, h => by
    rw [List.flatMap_cons, List.map_append, List.filter_append, List.map_append, h e (by simp),
      filter_flatMap_option f n l fun x hx => h x (List.mem_cons_of_mem _ hx), List.flatMap_cons]

theorem noOption_filter {L : List Str} (h : L.all checkNoOption = true) : (L.map dropEndColon).filter isOptionLine = [] := by
  rw [List.filter_eq_nil_iff]
  intro l hl
  obtain ⟨m, hm, rfl⟩ := List.mem_map.1 hl
  have := List.all_eq_true.1 h m hm
  simpa [checkNoOption] using this

theorem okLines_lf : ∀ {L : List Str}, okLines L = true → ∀ l ∈ L, '\n' ∉ l
  | l :: L, h, m, hm => by
    simp only [okLines, Bool.and_eq_true] at h
    rcases List.mem_cons.1 hm with rfl | hm
    · simpa using h.1.1.2
    · exact okLines_lf h.2 m hm

theorem dropEndColon_subset {l : Str} {c : Char} (h : c ∈ dropEndColon l) : c ∈ l := by
  unfold dropEndColon at h
  split at h
  · exact List.dropLast_subset _ h
  · exact h

theorem formatHelp_linesOf (tty : Bool) {c : Nat} (hc : 22 ≤ c) (remarks : Bool) :
    linesOf (formatHelp tty c (if remarks then some (join ['\n'] (helpEpilog tty)) else none)) =
      (pageLines tty (c - 2) remarks).map dropEndColon := by
  rw [formatHelp_lines tty hc]
  refine linesOf_flat ?_
  intro l hl
  obtain ⟨m, hm, rfl⟩ := List.mem_map.1 hl
  intro h
  exact okLines_lf (pageLines_ok (by omega) remarks) m hm (dropEndColon_subset h)

theorem helpPage_linesOf (tty : Bool) {c : Nat} (hc : 22 ≤ c) :
    linesOf (helpPage tty c) = (pageLines tty (c - 2) true).map dropEndColon := by
  have := formatHelp_linesOf tty hc true
  simp only [if_true] at this
  exact this

theorem listed_table (tty : Bool) {c : Nat} (hc : 22 ≤ c) : listed (helpPage tty c) = tableNames := by
  unfold listed
  rw [helpPage_linesOf tty hc]
  have hfix := fixed_noOption tty
  simp only [Bool.and_eq_true] at hfix
  unfold pageLines
  rw [List.map_append, List.map_append, List.filter_append, List.filter_append, noOption_filter hfix.1, noOption_filter hfix.2,
    List.nil_append, List.append_nil]
  refine filter_flatMap_option _ _ _ fun g hg => ?_
  have hc := List.all_eq_true.1 names_checked g hg
  simp only [Bool.and_eq_true] at hc
  have h0 : ([[], formatHeader g.1 ++ [':']].map dropEndColon).filter isOptionLine = [] := by
    apply noOption_filter
    simp only [List.all_cons, List.all_nil, Bool.and_true, Bool.and_eq_true]
    exact ⟨by decide, hc.1⟩
  have h1 := filter_flatMap_option (fun e => entryLines (helpPosition (c - 2)) (invocation e) (entryGroups tty (c - 2) e))
    (fun e => if e.names = [] then [] else [e.names]) g.2 fun e he => entryLines_listed (by omega) hg he
  have hsplit : [] :: groupLines tty (c - 2) g = [[], formatHeader g.1 ++ [':']] ++
      g.2.flatMap fun e => entryLines (helpPosition (c - 2)) (invocation e) (entryGroups tty (c - 2) e) := rfl
  rw [hsplit, List.map_append, List.filter_append, h0, List.nil_append, h1]

/-- The names of all options, as the user writes them. -/
theorem tableNames_eq : tableNames = [
    .flag .demo, .flag .text, .flag .binary, .flag .legend, .flag .version, .help,
    .flag (.focus .whitespace), .flag (.focus .controlChar), .flag (.focus .printableChar), .flag (.focus .escapeSeq),
    .flag (.focus .utf8Seq), .flag (.focus .binaryData),
    .flag (.ignore .whitespace), .flag (.ignore .controlChar), .flag (.ignore .printableChar), .flag (.ignore .escapeSeq),
    .flag (.ignore .utf8Seq), .flag (.ignore .binaryData)].map (fun a => namesOf (switchName a)) ++
    [.buffer, .maxLines, .maxBytes].map (fun n => namesOf (some (numberName n).1, (numberName n).2)) ++
    [.debug, .flag .colorMarkers].map (fun a => namesOf (switchName a)) ++
    [.marker].map (fun n => namesOf (some (numberName n).1, (numberName n).2)) ++
    [.flag .noSeparators, .flag .noLineNumbers].map (fun a => namesOf (switchName a)) ++
    [.columns].map (fun n => namesOf (some (numberName n).1, (numberName n).2)) ++
    [.flag .decode, .flag .decimalOffsets, .flag .noOffsets].map (fun a => namesOf (switchName a)) := by decide +kernel

/-- The page lists an option exactly if the program knows it: a name is on it if and only if it is one of
the short or long names, no name is listed twice, and names that share a line belong to one option. -/
theorem C92_options (t : Bool) {c : Nat} (h : 22 ≤ c) :
    (∀ n, n ∈ (listed (helpPage t c)).flatten ↔ (∃ s ∈ shortNames, n = ['-', s]) ∨ ∃ l ∈ longNames, n = '-' :: '-' :: l.toList) ∧
    (listed (helpPage t c)).flatten.Nodup ∧
    ∀ ns ∈ listed (helpPage t c), (∃ a, ns = namesOf (switchName a)) ∨
      ∃ o, ns = namesOf (some (numberName o).1, (numberName o).2) := by
  rw [listed_table t h]
  refine ⟨?_, ?_, ?_⟩
  · have h1 : ∀ n ∈ tableNames.flatten, n ∈ shortNames.map (fun s => ['-', s]) ++ longNames.map fun l => '-' :: '-' :: l.toList := by
      decide +kernel
    have h2 : ∀ n ∈ shortNames.map (fun s => ['-', s]) ++ longNames.map (fun l => '-' :: '-' :: l.toList), n ∈ tableNames.flatten := by
      decide +kernel
    intro n
    constructor
    · intro hn
      have := h1 n hn
      simp only [List.mem_append, List.mem_map] at this
      rcases this with ⟨s, hs, e⟩ | ⟨l, hl, e⟩
      · exact .inl ⟨s, hs, e.symm⟩
      · exact .inr ⟨l, hl, e.symm⟩
    · rintro (⟨s, hs, e⟩ | ⟨l, hl, e⟩)
      · exact h2 n (by rw [e]; simp only [List.mem_append, List.mem_map]; exact .inl ⟨s, hs, rfl⟩)
      · exact h2 n (by rw [e]; simp only [List.mem_append, List.mem_map]; exact .inr ⟨l, hl, rfl⟩)
  · decide +kernel
  · rw [tableNames_eq]
    intro ns hns
    simp only [List.mem_append, List.mem_map] at hns
    rcases hns with (((((⟨a, _, e⟩ | ⟨o, _, e⟩) | ⟨a, _, e⟩) | ⟨o, _, e⟩) | ⟨a, _, e⟩) | ⟨o, _, e⟩) | ⟨a, _, e⟩
    all_goals first | exact .inl ⟨a, e.symm⟩ | exact .inr ⟨o, e.symm⟩

example : ["-w".toList, "--columns".toList] ∈ listed (helpPage true 60) := by
  rw [listed_table true (by omega)]
  decide +kernel

/-! ## C93: the page fits -/

/-- A line of the page that is longer than the terminal (less two columns) allows is one of those that do
not depend on the terminal: usage, titles, remarks and examples.  Names of options and explanations fit. -/
theorem C93_fits (t : Bool) {c : Nat} (h : 22 ≤ c) {l : Str} (hl : l ∈ linesOf (helpPage t c)) :
    (uncoloured false l).length ≤ max (c - 2) 24 ∨ ∀ c', 22 ≤ c' → l ∈ linesOf (helpPage t c') := by
  rw [helpPage_linesOf t h] at hl
  obtain ⟨m, hm, rfl⟩ := List.mem_map.1 hl
  have hlen : (uncoloured false (dropEndColon m)).length ≤ m.length := by
    refine Nat.le_trans (uncoloured_length _ _) ?_
    unfold dropEndColon
    split <;> simp
  have hfix : (∀ w, m ∈ pageLines t w true) → ∀ c', 22 ≤ c' → dropEndColon m ∈ linesOf (helpPage t c') := by
    intro hw c' hc'
    rw [helpPage_linesOf t hc']
    exact List.mem_map.2 ⟨m, hw _, rfl⟩
  unfold pageLines at hm
  rcases List.mem_append.1 hm with hm | hm
  · rcases List.mem_append.1 hm with hm | hm
    · right
      apply hfix
      intro w
      simp [pageLines, hm]
    · obtain ⟨g, hg, hm⟩ := List.mem_flatMap.1 hm
      rcases List.mem_cons.1 hm with hm | hm
      · left
        subst hm
        simp only [List.length_nil, Nat.le_zero] at hlen
        omega
      rcases List.mem_cons.1 hm with hm | hm
      · right
        apply hfix
        intro w
        unfold pageLines
        refine List.mem_append_left _ (List.mem_append_right _ (List.mem_flatMap.2 ⟨g, hg, ?_⟩))
        rw [hm, groupLines]
        simp
      · left
        refine Nat.le_trans hlen ?_
        obtain ⟨e, he, hm⟩ := List.mem_flatMap.1 hm
        obtain ⟨_, h2, h3, _⟩ := entryGroups_ok (w := c - 2) (by omega) (entry_ok hg he t)
        have hi := invocation_ok hg he
        simp only [checkInvocation, Bool.and_eq_true, Bool.not_eq_true', decide_eq_true_eq] at hi
        have i5 := hi.1.2
        have hp1 := helpPosition_eq (c - 2)
        generalize helpPosition (c - 2) = pos at *
        generalize entryGroups t (c - 2) e = gs at *
        have hrest : ∀ gs' : List (List Str), (∀ g ∈ gs', g ∈ gs) →
            m ∈ (gs'.map fun g => List.replicate pos ' ' ++ join [' '] g) → m.length ≤ max (c - 2) 24 := by
          intro gs' hgs hm
          obtain ⟨g', hg', rfl⟩ := List.mem_map.1 hm
          have := (h3 g' (hgs g' hg')).2
          simp only [List.length_append, List.length_replicate]
          omega
        obtain ⟨f, fs, rfl⟩ := List.exists_cons_of_ne_nil h2
        rw [entryLines] at hm
        by_cases hfit : (invocation e).length ≤ pos - 2 - 2
        · simp only [hfit, if_true] at hm
          rcases List.mem_cons.1 hm with hm | hm
          · have := (h3 f (by simp)).2
            rw [hm]
            simp only [List.length_append, ljust, List.length_replicate, List.length_cons, List.length_nil]
            omega
          · exact hrest fs (fun g hg => by simp [hg]) hm
        · simp only [hfit, if_false] at hm
          rcases List.mem_cons.1 hm with hm | hm
          · rw [hm]
            simp only [List.length_append, List.length_cons, List.length_nil]
            omega
          · exact hrest (f :: fs) (fun g hg => hg) hm
  · right
    apply hfix
    intro w
    simp [pageLines, hm]

example : ∃ l ∈ linesOf (helpPage false 40), l.length = 38 ∧ ¬ l ∈ linesOf (helpPage false 60) :=
  ⟨"  -v, --version   show app version and".toList, by decide +kernel⟩

/-! ## C94: asking twice -/

/-- A parser asked for its help twice does not answer the same. -/
theorem C94_negation : ¬ ∀ (t : Bool) (c : Nat), ∃ page, helpPages t [c, c] = [page, page] := by
  intro h
  obtain ⟨page, hp⟩ := h false 80
  simp only [helpPages, helpCalls, List.cons.injEq] at hp
  have h1 : formatHelp false 80 (some (join ['\n'] (helpEpilog false))) ≠ formatHelp false 80 none := by decide +kernel
  exact h1 (hp.1.trans hp.2.1.symm)

/-- All pages but the first are as the first, except that the remarks are missing; apart from this every
answer is what a new parser would answer. -/
theorem C94_later_partial (t : Bool) : ∃ remarks rest : Str, remarks ≠ [] ∧ ∀ (c : Nat) (cs : List Nat), (∀ x ∈ c :: cs, 22 ≤ x) →
    ∃ first : Nat → Str, (∀ x, 22 ≤ x → helpPage t x = first x ++ remarks ++ rest) ∧
      helpPages t (c :: cs) = (first c ++ remarks ++ rest) :: cs.map fun x => first x ++ rest := by
  have hend : ∃ A, (endLines t true).map dropEndColon = A ++ (endLines t false).map dropEndColon ∧ A ≠ [] := by
    cases t
    · exact ⟨((endLines false true).map dropEndColon).take ((endLines false true).length - (endLines false false).length), by decide +kernel⟩
    · exact ⟨((endLines true true).map dropEndColon).take ((endLines true true).length - (endLines true false).length), by decide +kernel⟩
  obtain ⟨A, hA, hne⟩ := hend
  refine ⟨unl A, unl ((endLines t false).map dropEndColon), ?_, ?_⟩
  · obtain ⟨x, r, rfl⟩ := List.exists_cons_of_ne_nil hne
    rw [unl_cons]
    simp
  intro c cs hcs
  let first : Nat → Str := fun x =>
    unl ((headLines ++ helpGroups.flatMap fun g => [] :: groupLines t (x - 2) g).map dropEndColon)
  have h1 : ∀ x, 22 ≤ x → formatHelp t x (some (join ['\n'] (helpEpilog t))) =
      first x ++ unl A ++ unl ((endLines t false).map dropEndColon) := by
    intro x hx
    have := formatHelp_lines t hx true
    simp only [if_true] at this
    rw [this, pageLines, List.map_append, unl_append, hA, unl_append, List.append_assoc]
  have h2 : ∀ x, 22 ≤ x → formatHelp t x none = first x ++ unl ((endLines t false).map dropEndColon) := by
    intro x hx
    have := formatHelp_lines t hx false
    simp only [Bool.false_eq_true, if_false] at this
    rw [this, pageLines, List.map_append, unl_append]
  refine ⟨first, h1, ?_⟩
  have : ∀ cs : List Nat, (∀ x ∈ cs, 22 ≤ x) → helpCalls t none cs =
      cs.map fun x => first x ++ unl ((endLines t false).map dropEndColon) := by
    intro cs
    induction cs with
    | nil => intro _; rfl
    | cons x cs ih =>
      intro h
      rw [helpCalls, h2 x (h x (by simp)), ih fun y hy => h y (List.mem_cons_of_mem _ hy), List.map_cons]
  rw [helpPages, helpCalls, h1 c (hcs c (by simp)), this cs fun x hx => hcs x (List.mem_cons_of_mem _ hx)]

/-! ## C95: not on a terminal -/

/-- Whether the page contains an escape character although it does not go to a terminal: it does. -/
theorem C95_negation : ¬ ∀ c, '\x1b' ∉ helpPage false c := by
  intro h
  have : '\x1b' ∈ helpPage false 80 := by decide +kernel
  exact h 80 this

/-- What the proof needs to know of the other lines. -/
def checkPlainLine (l : Str) : Bool :=
  let m := dropEndColon l
  !m.contains '\x1b' ||
    decide (m = "\x1b[1m".toList ++ ((m.drop 4).take (m.length - 9)) ++ "\x1b[22m".toList ∧
      ((m.drop 4).take (m.length - 9)).all (fun c => decide (c = ' ' ∨ ('A' ≤ c ∧ c ≤ 'Z'))) = true)

theorem plain_checked : (headLines.all checkPlainLine && (endLines false true).all checkPlainLine && helpGroups.all fun g =>
    checkPlainLine (formatHeader g.1 ++ [':']) && g.2.all fun e =>
      (entryWords false e).all fun x => !x.contains '\x1b') = true := by decide +kernel

/-- If the output is no terminal, the page has escape characters only around titles, which are written
in bold letters all the same. -/
theorem C95_titles_partial {c : Nat} (h : 22 ≤ c) {l : Str} (hl : l ∈ linesOf (helpPage false c)) (he : '\x1b' ∈ l) :
    ∃ title : Str, (∀ x ∈ title, x = ' ' ∨ ('A' ≤ x ∧ x ≤ 'Z')) ∧ l = "\x1b[1m".toList ++ title ++ "\x1b[22m".toList := by
  rw [helpPage_linesOf false h] at hl
  obtain ⟨m, hm, rfl⟩ := List.mem_map.1 hl
  have hchk := plain_checked
  simp only [Bool.and_eq_true] at hchk
  obtain ⟨⟨hc1, hc2⟩, hc3⟩ := hchk
  have key : checkPlainLine m = true → ∃ title : Str, (∀ x ∈ title, x = ' ' ∨ ('A' ≤ x ∧ x ≤ 'Z')) ∧
      dropEndColon m = "\x1b[1m".toList ++ title ++ "\x1b[22m".toList := by
    intro hk
    simp only [checkPlainLine, Bool.or_eq_true, Bool.not_eq_true', decide_eq_true_eq] at hk
    rcases hk with hk | ⟨hk1, hk2⟩
    · simp [he] at hk
    · exact ⟨_, fun x hx => by simpa using List.all_eq_true.1 hk2 x hx, hk1⟩
  unfold pageLines at hm
  rcases List.mem_append.1 hm with hm | hm
  · rcases List.mem_append.1 hm with hm | hm
    · exact key (List.all_eq_true.1 hc1 m hm)
    · obtain ⟨g, hg, hm⟩ := List.mem_flatMap.1 hm
      have hcg := List.all_eq_true.1 hc3 g hg
      simp only [Bool.and_eq_true] at hcg
      rcases List.mem_cons.1 hm with hm | hm
      · subst hm
        simp [dropEndColon] at he
      rcases List.mem_cons.1 hm with hm | hm
      · exact key (by rw [hm]; exact hcg.1)
      · exfalso
        obtain ⟨e, hee, hm⟩ := List.mem_flatMap.1 hm
        have hw := List.all_eq_true.1 hcg.2 e hee
        obtain ⟨h1, h2, h3, _⟩ := entryGroups_ok (tty := false) (w := c - 2) (by omega) (entry_ok hg hee false)
        have hi := invocation_ok hg hee
        simp only [checkInvocation, Bool.and_eq_true, Bool.not_eq_true', decide_eq_true_eq] at hi
        have i4' : '\x1b' ∉ invocation e := by simpa using hi.1.1.2
        have he' := dropEndColon_subset he
        have hj : ∀ g' ∈ entryGroups false (c - 2) e, '\x1b' ∉ join [' '] g' := by
          intro g' hg' hx
          rcases mem_joinBlank hx with hx | ⟨x, hx, hx'⟩
          · cases hx
          · have := List.all_eq_true.1 hw x (by rw [← h1]; exact List.mem_flatten.2 ⟨g', hg', hx⟩)
            simp [hx'] at this
        generalize helpPosition (c - 2) = pos at *
        generalize entryGroups false (c - 2) e = gs at *
        have hrest : ∀ gs' : List (List Str), (∀ g ∈ gs', g ∈ gs) →
            m ∉ (gs'.map fun g => List.replicate pos ' ' ++ join [' '] g) := by
          intro gs' hgs hm
          obtain ⟨g', hg', rfl⟩ := List.mem_map.1 hm
          have := hj g' (hgs g' hg')
          simp [List.mem_replicate, this] at he'
        obtain ⟨f, fs, rfl⟩ := List.exists_cons_of_ne_nil h2
        rw [entryLines] at hm
        by_cases hfit : (invocation e).length ≤ pos - 2 - 2
        · simp only [hfit, if_true] at hm
          rcases List.mem_cons.1 hm with hm | hm
          · have := hj f (by simp)
            rw [hm] at he'
            simp [ljust, List.mem_replicate, this, i4'] at he'
          · exact hrest fs (fun g hg => by simp [hg]) hm
        · simp only [hfit, if_false] at hm
          rcases List.mem_cons.1 hm with hm | hm
          · rw [hm] at he'
            simp [i4'] at he'
          · exact hrest (f :: fs) (fun g hg => hg) hm
  · exact key (List.all_eq_true.1 hc2 m hm)

example : "\x1b[1mOPERATING MODE\x1b[22m".toList ∈ linesOf (helpPage false 80) := by decide +kernel

end Kolombos
