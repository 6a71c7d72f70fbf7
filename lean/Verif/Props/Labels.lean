import Verif.Spec.Labels
import Verif.Props.Limits
import Verif.Props.Distinct
/-
C115: options about labels and separators change nothing else.
-/
set_option linter.unusedSimpArgs false

namespace Kolombos
open Spec

/-! ### One flag less -/

theorem wellFormed_less {pre post : List Arg} {a : Arg} (h : WellFormed (pre ++ a :: post)) : WellFormed (pre ++ post) := by
  have hmem : ∀ b, b ∈ pre ++ post → b ∈ pre ++ a :: post := by
    intro b hb
    simp only [List.mem_append, List.mem_cons] at hb ⊢
    rcases hb with hb | hb
    · exact .inl hb
    · exact .inr (.inr hb)
  refine ⟨fun o ho => h.numbers o (hmem _ ho), fun b hb c hc => h.compatible b (hmem _ hb) c (hmem _ hc), ?_⟩
  have := h.oneFile
  simp only [fileNames, List.filterMap_append, List.filterMap_cons, List.length_append] at this ⊢
  split at this <;> simp at this ⊢ <;> omega

theorem only_less {pre post : List Arg} {a : Arg} {l : List Arg} (h : ∀ b ∈ l, b ∉ pre ++ a :: post) : ∀ b ∈ l, b ∉ pre ++ post := by
  intro b hb hm
  refine h b hb ?_
  simp only [List.mem_append, List.mem_cons] at hm ⊢
  rcases hm with hm | hm
  · exact .inl hm
  · exact .inr (.inr hm)

theorem fileNames_flag (pre post : List Arg) (f : Flag) : fileNames (pre ++ .flag f :: post) = fileNames (pre ++ post) := by
  simp [fileNames]

theorem views_less {pre post : List Arg} {f : Flag} {name : Str} (h : Views (pre ++ .flag f :: post) name) : Views (pre ++ post) name :=
  ⟨wellFormed_less h.wellFormed, by rw [← fileNames_flag pre post f]; exact h.file, h.named, only_less h.only⟩

theorem viewsStdin_less {pre post : List Arg} {f : Flag} (h : ViewsStdin (pre ++ .flag f :: post)) : ViewsStdin (pre ++ post) :=
  ⟨wellFormed_less h.wellFormed, by rw [← fileNames_flag pre post f]; exact h.file, only_less h.only⟩

theorem lastInt_flag (pre post : List Arg) (f : Flag) (o : IntOpt) : lastInt o (pre ++ .flag f :: post) = lastInt o (pre ++ post) := by
  rw [lastInt_append, lastInt_append]
  have : lastInt o (.flag f :: post) = lastInt o post := by rw [lastInt.eq_def]; simp only; cases lastInt o post <;> rfl
  rw [this]

theorem bufferSize_flag (pre post : List Arg) (f : Flag) : bufferSize (pre ++ .flag f :: post) = bufferSize (pre ++ post) := by
  unfold bufferSize
  rw [lastInt_flag]

theorem mem_flag {pre post : List Arg} {f g : Flag} (h : g ≠ f) : .flag g ∈ pre ++ .flag f :: post ↔ .flag g ∈ pre ++ post := by
  simp [h]

theorem debug_zero {args : List Arg} {s : Settings} (hs : Asked args s) (h : .debug ∉ args) : s.debug = 0 := by
  rw [hs.debug, List.count_eq_zero]; exact h

/-! ### Line numbers -/

theorem inkLines_label (label : Nat → List (Char × Style)) (disp : Kind × Bytes → List (Char × Style)) (lost : List (Kind × Bytes) → Nat)
    (qs : List (Kind × Bytes)) :
    inkLines label disp lost qs = (inkLines (fun _ => []) disp lost qs).mapIdx fun i l => label (i + 1) ++ l := by
  unfold inkLines
  simp only [List.nil_append, List.mapIdx_mapIdx, Function.comp_def]

/-- What is common to files and standard input. -/
theorem numbers_core {pre post : List Arg} {s : Settings} (hs : Asked (pre ++ post) s) (hb : .flag .binary ∉ pre ++ post) (hd : .debug ∉ pre ++ post)
    (hn : .flag .noLineNumbers ∉ pre ++ post) {qs : List (Kind × Bytes)} (hg : GoodPieces qs) {x y : List (Char × Style)}
    (hx : x = (inkLines (labelInk s) (textInk s) (lostAt s) qs).flatten ++ [('\n', ({} : Style))])
    (hy : y = (inkLines (labelInk (s.setFlag .noLineNumbers)) (textInk (s.setFlag .noLineNumbers)) (lostAt (s.setFlag .noLineNumbers)) qs).flatten ++ [('\n', ({} : Style))]) :
    ∃ bare, DisplayedLines y bare ∧ DisplayedLines x (bare.mapIdx fun i l => lineNumber (i + 1) ++ l) := by
  have hr := asked_text hs hb
  have hdz := debug_zero hs hd
  have hnz : s.noLineNumbers = false := by
    have := hs.noLineNumbers
    cases h : s.noLineNumbers with
    | false => rfl
    | true => exact absurd (this.1 h) hn
  have hl0 : labelInk s = lineNumber := by
    funext n
    unfold labelInk lineNumber
    simp [hdz, hnz]
  have hl1 : labelInk (s.setFlag .noLineNumbers) = fun _ => [] := by
    funext n
    unfold labelInk
    simp [Settings.setFlag, hdz]
  have hr1 : (s.setFlag .noLineNumbers).readMode.1 = .text := asked_text (asked_insert_flag hs .noLineNumbers) (by rw [mem_flag (by decide)]; exact hb)
  have h1 := displayed hr1 hg hy
  have h0 := displayed hr hg hx
  rw [hl1] at h1
  rw [hl0, inkLines_label] at h0
  exact ⟨_, h1, h0⟩

/-- C115, files: `--no-line-numbers` removes the number and the bar in front of every line and changes nothing else. -/
theorem C115_numbers (pre post : List Arg) (w : World) (name : Str) (data : Bytes) (mb ml : Option Nat) (pB pL p : Bytes)
    (hv : Views (pre ++ .flag .noLineNumbers :: post) name) (hb : .flag .binary ∉ pre ++ post) (hn : .flag .noLineNumbers ∉ pre ++ post)
    (hf : w.file name = .ok data) (hmb : lastInt .maxBytes (pre ++ post) = optInt mb) (hml : lastInt .maxLines (pre ++ post) = optInt ml)
    (hB : UnderBytes mb data pB) (hL : UnderLines ml data pL) (hp : p = if pB.length ≤ pL.length then pB else pL)
    (hgood : ∀ c ∈ partsOf (bufferSize (pre ++ post)) p, ¬ BadChunk c) (fuel : Nat) (hfuel : 4 * p.length < fuel) :
    (program fuel w (pre ++ post)).status = some 0 ∧ (program fuel w (pre ++ .flag .noLineNumbers :: post)).status = some 0 ∧
      ∃ bare, DisplayedLines (appears (program fuel w (pre ++ .flag .noLineNumbers :: post)).out) bare ∧
        DisplayedLines (appears (program fuel w (pre ++ post)).out) (bare.mapIdx fun i l => lineNumber (i + 1) ++ l) := by
  have hv0 := views_less hv
  obtain ⟨s, -, hs⟩ := (C55_settings _ (hv0.only _ (by simp))).1 hv0.wellFormed
  obtain ⟨a1, a2⟩ := C107_text (pre ++ post) w name data s mb ml pB pL p hv0 hs hb hf hmb hml hB hL hp hgood fuel hfuel
  obtain ⟨b1, b2⟩ := C107_text (pre ++ .flag .noLineNumbers :: post) w name data _ mb ml pB pL p hv (asked_insert_flag hs _)
    (by rw [mem_flag (by decide)]; exact hb) hf (by rw [lastInt_flag]; exact hmb) (by rw [lastInt_flag]; exact hml) hB hL hp
    (by rw [bufferSize_flag]; exact hgood) fuel hfuel
  rw [bufferSize_flag] at b2
  exact ⟨a1, b1, numbers_core hs hb (hv0.only _ (by simp)) hn (good_parts hgood) a2 b2⟩

/-- C115, standard input: the same. -/
theorem C115_stdin_numbers (pre post : List Arg) (w : World) (cs : List Bytes) (mb ml : Option Nat) (pB pL p : Bytes)
    (hv : ViewsStdin (pre ++ .flag .noLineNumbers :: post)) (hb : .flag .binary ∉ pre ++ post) (hn : .flag .noLineNumbers ∉ pre ++ post)
    (hw : w.stdin = cs.map .data) (hne : ∀ c ∈ cs, c ≠ [])
    (hmb : lastInt .maxBytes (pre ++ post) = optInt mb) (hml : lastInt .maxLines (pre ++ post) = optInt ml)
    (hB : UnderBytes mb cs.flatten pB) (hL : UnderLines ml cs.flatten pL) (hp : p = if pB.length ≤ pL.length then pB else pL)
    (hgood : ∀ c ∈ takeParts p.length cs, ¬ BadChunk c) (fuel : Nat) (hfuel : 4 * p.length < fuel) :
    (program fuel w (pre ++ post)).status = some 0 ∧ (program fuel w (pre ++ .flag .noLineNumbers :: post)).status = some 0 ∧
      ∃ bare, DisplayedLines (appears (program fuel w (pre ++ .flag .noLineNumbers :: post)).out) bare ∧
        DisplayedLines (appears (program fuel w (pre ++ post)).out) (bare.mapIdx fun i l => lineNumber (i + 1) ++ l) := by
  have hv0 := viewsStdin_less hv
  obtain ⟨s, -, hs⟩ := (C55_settings _ (hv0.only _ (by simp))).1 hv0.wellFormed
  obtain ⟨a1, a2⟩ := C107_stdin_text (pre ++ post) w cs s mb ml pB pL p hv0 hs hb hw hne hmb hml hB hL hp hgood fuel hfuel
  obtain ⟨b1, b2⟩ := C107_stdin_text (pre ++ .flag .noLineNumbers :: post) w cs _ mb ml pB pL p hv (asked_insert_flag hs _)
    (by rw [mem_flag (by decide)]; exact hb) hw hne (by rw [lastInt_flag]; exact hmb) (by rw [lastInt_flag]; exact hml) hB hL hp
    hgood fuel hfuel
  exact ⟨a1, b1, numbers_core hs hb (hv0.only _ (by simp)) hn (good_parts hgood) a2 b2⟩

/-! ### Separators -/

theorem sep_style {st : Style} (h : st ≠ sepInk) (c : Char) : IsSeparator (c, st) = false := by
  unfold IsSeparator
  simp only [decide_eq_false_iff_not, not_or, Prod.mk.injEq, not_and]
  exact ⟨fun _ e => h e, fun _ e => h e⟩

theorem sep_char {c : Char} (h1 : c ≠ '⢸') (h2 : c ≠ '⡇') (st : Style) : IsSeparator (c, st) = false := by
  unfold IsSeparator
  simp [h1, h2]

theorem inStyle_noSep {st : Style} (h : st ≠ sepInk) (t : Str) : ∀ x ∈ inStyle st t, IsSeparator x = false := by
  intro x hx
  simp only [inStyle, List.mem_map] at hx
  obtain ⟨c, -, rfl⟩ := hx
  exact sep_style h c

theorem under_sep {st : Style} (h : st.underline ≠ 0) : st ≠ sepInk := by
  rintro rfl; exact h rfl

theorem escInk_under (s : Settings) (k : Kind) (p : Bytes) : (escInk s k p).underline ≠ 0 := by
  unfold escInk
  split
  · split
    · rw [copied_under_eq]; decide
    · decide
  · simp

theorem dotted_noSep {st : Style} (h : st.underline ≠ 0) (l : List Str) : ∀ x ∈ dottedInk st l, IsSeparator x = false := by
  induction l with
  | nil => intro x hx; simp [dottedInk] at hx
  | cons a l ih =>
    cases l with
    | nil => exact inStyle_noSep (under_sep h) a
    | cons b l =>
      intro x hx
      rw [dottedInk, List.mem_append, List.mem_cons] at hx
      · rcases hx with hx | rfl | hx
        · exact inStyle_noSep (under_sep h) a x hx
        · exact sep_char (by decide) (by decide) _
        · exact ih x hx
      · simp

theorem detail_noSep (s : Settings) (k : Kind) (p : Bytes) : ∀ x ∈ escDetailInk s k p, IsSeparator x = false := by
  unfold escDetailInk
  split
  · exact dotted_noSep (escInk_under s k p) _
  · exact inStyle_noSep (under_sep (escInk_under s k p)) _

theorem filter_noSep {l : List (Char × Style)} (h : ∀ x ∈ l, IsSeparator x = false) : l.filter (fun x => !IsSeparator x) = l := by
  rw [List.filter_eq_self]
  intro x hx
  simp [h x hx]

theorem ctrl_noSep (s : Settings) (p : Bytes) : ∀ x ∈ (p.flatMap fun b =>
      ('Ɐ', kindInk s .ctrl) :: inStyle { fg := .basic 31, bg := .indexed 16, underline := 1 } (ctrlDetail (level s) b)), IsSeparator x = false := by
  intro x hx
  simp only [List.mem_flatMap, List.mem_cons] at hx
  obtain ⟨b, -, rfl | hx⟩ := hx
  · exact sep_char (by decide) (by decide) _
  · exact inStyle_noSep (under_sep (by decide)) _ x hx

theorem symbol_noSep (k : Kind) (st : Style) : IsSeparator (symbol k, st) = false :=
  sep_char (by cases k <;> decide) (by cases k <;> decide) _

/-- Without separators a piece appears as with them, except for them. -/
theorem textInk_filter (s : Settings) (q : Kind × Bytes) :
    (textInk s q).filter (fun x => !IsSeparator x) = textInk (s.setFlag .noSeparators) q := by
  obtain ⟨k, p⟩ := q
  have e1 : (s.setFlag .noSeparators).ignore = s.ignore := rfl
  have e2 : ∀ k, kindInk (s.setFlag .noSeparators) k = kindInk s k := fun _ => rfl
  have e3 : ∀ k p, markerInk (s.setFlag .noSeparators) k p = markerInk s k p := fun _ _ => rfl
  have e4 : ∀ k p, escDetailInk (s.setFlag .noSeparators) k p = escDetailInk s k p := fun _ _ => rfl
  have e5 : level (s.setFlag .noSeparators) = level s := rfl
  have e7 : enclosed (s.setFlag .noSeparators) = false := by simp [enclosed, Settings.setFlag]
  have hesc : ∀ k, ((if enclosed s then
        ('⢸', { fg := .indexed 255 }) :: (symbol k, markerInk s k p) :: (escDetailInk s k p ++ [('⡇', { fg := .indexed 255 })])
        else (symbol k, markerInk s k p) :: escDetailInk s k p) : List (Char × Style)).filter (fun x => !IsSeparator x) =
      (symbol k, markerInk s k p) :: escDetailInk s k p := by
    intro k
    have h1 : IsSeparator ('⢸', { fg := .indexed 255 }) = true := by decide
    have h2 : IsSeparator ('⡇', { fg := .indexed 255 }) = true := by decide
    split
    · simp [List.filter_cons, List.filter_append, h1, h2, symbol_noSep, filter_noSep (detail_noSep s k p)]
    · simp [List.filter_cons, symbol_noSep, filter_noSep (detail_noSep s k p)]
  unfold textInk
  simp only [e1]
  split
  · exact filter_noSep (inStyle_noSep (by decide) _)
  · cases k <;> simp only [e2, e3, e4, e5, e7, Bool.false_eq_true, if_false] <;>
      first
      | exact hesc _
      | exact filter_noSep (ctrl_noSep s p)
      | exact filter_noSep (inStyle_noSep (kindInk_sep s _) _)
      | skip
    simp [List.filter_cons, sep_char]

theorem flatMap_filter_sep (s : Settings) (qs : List (Kind × Bytes)) :
    (qs.flatMap (textInk s)).filter (fun x => !IsSeparator x) = qs.flatMap (textInk (s.setFlag .noSeparators)) := by
  induction qs with
  | nil => rfl
  | cons q qs ih => rw [List.flatMap_cons, List.filter_append, textInk_filter, ih, List.flatMap_cons]

/-- The end of an incomplete line. -/
theorem rest_filter (s : Settings) {qs : List (Kind × Bytes)} (hw : ∀ q ∈ qs, Wf q.1 q.2) :
    ((qs.flatMap (textInk s)).take ((qs.flatMap (textInk s)).length - lostAt s qs)).filter (fun x => !IsSeparator x) =
      (qs.flatMap (textInk (s.setFlag .noSeparators))).take
        ((qs.flatMap (textInk (s.setFlag .noSeparators))).length - lostAt (s.setFlag .noSeparators) qs) := by
  have hall := flatMap_filter_sep s qs
  rcases List.eq_nil_or_concat qs with rfl | ⟨L, q, rfl⟩
  · rfl
  rw [List.concat_eq_append] at *
  obtain ⟨k, p⟩ := q
  have hk : Wf k p := hw (k, p) (by simp)
  have hl : ∀ s, lostAt s (L ++ [(k, p)]) = textLost s k := by intro s; unfold lostAt; simp
  rw [hl, hl]
  have zero : ∀ a b, a = 0 → b = 0 → ((((L ++ [(k, p)]).flatMap (textInk s)).take (((L ++ [(k, p)]).flatMap (textInk s)).length - a)).filter (fun x => !IsSeparator x) =
      ((L ++ [(k, p)]).flatMap (textInk (s.setFlag .noSeparators))).take
        (((L ++ [(k, p)]).flatMap (textInk (s.setFlag .noSeparators))).length - b)) := by
    rintro a b rfl rfl
    rw [Nat.sub_zero, Nat.sub_zero, List.take_length, List.take_length]
    exact hall
  by_cases hi : s.ignore (classOfKind k) = true
  · exact zero _ _ (by simp [textLost, hi]) (by simp [textLost, Settings.setFlag, hi])
  have e7 : enclosed (s.setFlag .noSeparators) = false := by simp [enclosed, Settings.setFlag]
  have hesc : isEscKind k = true → ((((L ++ [(k, p)]).flatMap (textInk s)).take (((L ++ [(k, p)]).flatMap (textInk s)).length - textLost s k)).filter (fun x => !IsSeparator x) =
      ((L ++ [(k, p)]).flatMap (textInk (s.setFlag .noSeparators))).take
        (((L ++ [(k, p)]).flatMap (textInk (s.setFlag .noSeparators))).length - textLost (s.setFlag .noSeparators) k)) := by
    intro hk'
    have z : textLost (s.setFlag .noSeparators) k = 0 := by
      unfold textLost
      split
      · rfl
      · cases k <;> first | (cases hk'; done) | simp [e7]
    by_cases he : enclosed s = true
    · have o : textLost s k = 1 := by
        unfold textLost
        rw [if_neg hi]
        cases k <;> first | (cases hk'; done) | simp [he]
      have f : ∃ y, textInk s (k, p) = y ++ [('⡇', { fg := .indexed 255 })] := by
        unfold textInk
        simp only [hi, he, if_true]
        cases k <;> first | (cases hk'; done) | exact ⟨_ :: _ :: escDetailInk s _ p, rfl⟩
      obtain ⟨y, f⟩ := f
      have g : (L ++ [(k, p)]).flatMap (textInk s) = (L.flatMap (textInk s) ++ y) ++ [('⡇', { fg := .indexed 255 })] := by simp [f]
      rw [z, Nat.sub_zero, List.take_length, ← hall, o, g, List.filter_append]
      have h2 : IsSeparator ('⡇', { fg := .indexed 255 }) = true := by decide
      simp only [List.filter_cons, h2, Bool.not_true, Bool.false_eq_true, if_false, List.filter_nil, List.append_nil]
      rw [List.length_append (bs := [('⡇', _)]), List.length_singleton, Nat.add_sub_cancel, List.take_left' rfl]
    · refine zero _ _ ?_ z
      unfold textLost
      rw [if_neg hi]
      cases k <;> first | (cases hk'; done) | simp [he]
  have h0 : isEscKind k = false → k ≠ .ctrl → ((((L ++ [(k, p)]).flatMap (textInk s)).take (((L ++ [(k, p)]).flatMap (textInk s)).length - textLost s k)).filter (fun x => !IsSeparator x) =
      ((L ++ [(k, p)]).flatMap (textInk (s.setFlag .noSeparators))).take
        (((L ++ [(k, p)]).flatMap (textInk (s.setFlag .noSeparators))).length - textLost (s.setFlag .noSeparators) k)) := by
    intro hk1 hk2
    have z : ∀ s, textLost s k = 0 := by
      intro s
      unfold textLost
      split
      · rfl
      · cases k <;> first | (cases hk1; done) | exact absurd rfl hk2 | rfl
    exact zero _ _ (z _) (z _)
  by_cases hc : k = .ctrl
  · subst hc
    have hne : p ≠ [] := hk.ne_nil
    obtain ⟨p0, b, rfl⟩ : ∃ p0 b, p = p0 ++ [b] := by
      rcases List.eq_nil_or_concat p with rfl | ⟨a, b, h⟩
      · exact absurd rfl hne
      · exact ⟨a, b, by rw [h, List.concat_eq_append]⟩
    have hlen : (ctrlDetail (level s) b).length = level s := by
      unfold ctrlDetail
      unfold level
      split
      · simp
      · split
        · simp
        · simp
    have f : ∃ y d, textInk s (.ctrl, p0 ++ [b]) = y ++ d ∧ d.length = level s := by
      unfold textInk
      simp only [hi]
      refine ⟨(p0.flatMap fun b => ('Ɐ', kindInk s .ctrl) :: inStyle { fg := .basic 31, bg := .indexed 16, underline := 1 } (ctrlDetail (level s) b)) ++
        [('Ɐ', kindInk s .ctrl)], inStyle { fg := .basic 31, bg := .indexed 16, underline := 1 } (ctrlDetail (level s) b), ?_, by simp [inStyle, hlen]⟩
      · rw [List.flatMap_append]
        simp only [List.flatMap_cons, List.flatMap_nil, List.append_nil]
        rw [if_neg (by simp), ← List.singleton_append, ← List.append_assoc]
    obtain ⟨y, d, f, hd⟩ := f
    have f' : textInk (s.setFlag .noSeparators) (.ctrl, p0 ++ [b]) = y ++ d := f
    have hno : ∀ x ∈ y ++ d, IsSeparator x = false := by
      rw [← f]
      unfold textInk
      simp only [hi]
      exact ctrl_noSep s _
    have o : textLost s .ctrl = d.length := by unfold textLost; rw [if_neg hi, hd]
    have o' : textLost (s.setFlag .noSeparators) .ctrl = d.length := o
    rw [o, o']
    simp only [List.flatMap_append, List.flatMap_cons, List.flatMap_nil, List.append_nil, f, f', ← List.append_assoc]
    rw [List.length_append (bs := d), List.length_append (bs := d), Nat.add_sub_cancel, Nat.add_sub_cancel, List.take_left', List.take_left']
    · rw [List.filter_append, flatMap_filter_sep, filter_noSep fun x hx => hno x (by simp [hx])]
    · rfl
    · rfl
  · by_cases he : isEscKind k = true
    · exact hesc he
    · exact h0 (by simpa using he) hc

theorem mapIdx_filter (label : Nat → List (Char × Style)) (hlab : ∀ n, ∀ x ∈ label n, IsSeparator x = false) (ls : List (List (Char × Style))) :
    ((ls.mapIdx fun i l => label (i + 1) ++ l).flatten).filter (fun x => !IsSeparator x) =
      ((ls.map fun l => l.filter fun x => !IsSeparator x).mapIdx fun i l => label (i + 1) ++ l).flatten := by
  induction ls generalizing label with
  | nil => rfl
  | cons l ls ih =>
    simp only [List.mapIdx_cons, List.map_cons, List.flatten_cons, List.filter_append]
    rw [filter_noSep (hlab _), ih (fun n => label (n + 1)) fun n => hlab _]

theorem inkLines_filter (s : Settings) {qs : List (Kind × Bytes)} (hg : GoodPieces qs) :
    ((inkLines (labelInk s) (textInk s) (lostAt s) qs).flatten ++ [('\n', ({} : Style))]).filter (fun x => !IsSeparator x) =
      (inkLines (labelInk (s.setFlag .noSeparators)) (textInk (s.setFlag .noSeparators)) (lostAt (s.setFlag .noSeparators)) qs).flatten ++
        [('\n', ({} : Style))] := by
  have hlab : ∀ n, ∀ x ∈ labelInk s n, IsSeparator x = false := by
    intro n x hx
    unfold labelInk at hx
    simp only at hx
    have hb : ∀ st : Style, IsSeparator ('│', st) = false := fun st => sep_char (by decide) (by decide) st
    split at hx
    · rw [List.mem_append] at hx
      rcases hx with hx | hx
      · exact inStyle_noSep (by decide) _ x hx
      · simp only [List.mem_singleton] at hx; rw [hx]; exact hb _
    · split at hx
      · simp at hx
      · rw [List.mem_append] at hx
        rcases hx with hx | hx
        · exact inStyle_noSep (by decide) _ x hx
        · simp only [List.mem_singleton] at hx; rw [hx]; exact hb _
  have hl : labelInk (s.setFlag .noSeparators) = labelInk s := rfl
  have hnl : ([('\n', ({} : Style))] : List (Char × Style)).filter (fun x => !IsSeparator x) = [('\n', ({} : Style))] := by decide
  have hw : ∀ q ∈ (pieceLines qs).2, Wf q.1 q.2 := fun q hq => ((pieceLines_good hg).2 q hq).1
  rw [List.filter_append, hnl, hl]
  congr 1
  unfold inkLines
  simp only
  rw [mapIdx_filter _ hlab, List.map_append, List.map_map]
  congr 3
  · apply List.map_congr_left
    intro l _
    exact flatMap_filter_sep s l
  · split
    · rfl
    · simp only [List.map_cons, List.map_nil, List.filter_append, hnl]
      rw [rest_filter s hw]

/-- C115, files: `--no-separators` removes the separators and changes nothing else. -/
theorem C115_separators (pre post : List Arg) (w : World) (name : Str) (data : Bytes) (mb ml : Option Nat) (pB pL p : Bytes)
    (hv : Views (pre ++ .flag .noSeparators :: post) name) (hb : .flag .binary ∉ pre ++ post)
    (hf : w.file name = .ok data) (hmb : lastInt .maxBytes (pre ++ post) = optInt mb) (hml : lastInt .maxLines (pre ++ post) = optInt ml)
    (hB : UnderBytes mb data pB) (hL : UnderLines ml data pL) (hp : p = if pB.length ≤ pL.length then pB else pL)
    (hgood : ∀ c ∈ partsOf (bufferSize (pre ++ post)) p, ¬ BadChunk c) (fuel : Nat) (hfuel : 4 * p.length < fuel) :
    (program fuel w (pre ++ post)).status = some 0 ∧ (program fuel w (pre ++ .flag .noSeparators :: post)).status = some 0 ∧
      appears (program fuel w (pre ++ .flag .noSeparators :: post)).out =
        (appears (program fuel w (pre ++ post)).out).filter (fun x => !IsSeparator x) := by
  have hv0 := views_less hv
  obtain ⟨s, -, hs⟩ := (C55_settings _ (hv0.only _ (by simp))).1 hv0.wellFormed
  obtain ⟨a1, a2⟩ := C107_text (pre ++ post) w name data s mb ml pB pL p hv0 hs hb hf hmb hml hB hL hp hgood fuel hfuel
  obtain ⟨b1, b2⟩ := C107_text (pre ++ .flag .noSeparators :: post) w name data _ mb ml pB pL p hv (asked_insert_flag hs _)
    (by rw [mem_flag (by decide)]; exact hb) hf (by rw [lastInt_flag]; exact hmb) (by rw [lastInt_flag]; exact hml) hB hL hp
    (by rw [bufferSize_flag]; exact hgood) fuel hfuel
  rw [bufferSize_flag] at b2
  exact ⟨a1, b1, by rw [a2, b2, inkLines_filter s (good_parts hgood)]⟩

/-- C115, standard input: the same. -/
theorem C115_stdin_separators (pre post : List Arg) (w : World) (cs : List Bytes) (mb ml : Option Nat) (pB pL p : Bytes)
    (hv : ViewsStdin (pre ++ .flag .noSeparators :: post)) (hb : .flag .binary ∉ pre ++ post)
    (hw : w.stdin = cs.map .data) (hne : ∀ c ∈ cs, c ≠ [])
    (hmb : lastInt .maxBytes (pre ++ post) = optInt mb) (hml : lastInt .maxLines (pre ++ post) = optInt ml)
    (hB : UnderBytes mb cs.flatten pB) (hL : UnderLines ml cs.flatten pL) (hp : p = if pB.length ≤ pL.length then pB else pL)
    (hgood : ∀ c ∈ takeParts p.length cs, ¬ BadChunk c) (fuel : Nat) (hfuel : 4 * p.length < fuel) :
    (program fuel w (pre ++ post)).status = some 0 ∧ (program fuel w (pre ++ .flag .noSeparators :: post)).status = some 0 ∧
      appears (program fuel w (pre ++ .flag .noSeparators :: post)).out =
        (appears (program fuel w (pre ++ post)).out).filter (fun x => !IsSeparator x) := by
  have hv0 := viewsStdin_less hv
  obtain ⟨s, -, hs⟩ := (C55_settings _ (hv0.only _ (by simp))).1 hv0.wellFormed
  obtain ⟨a1, a2⟩ := C107_stdin_text (pre ++ post) w cs s mb ml pB pL p hv0 hs hb hw hne hmb hml hB hL hp hgood fuel hfuel
  obtain ⟨b1, b2⟩ := C107_stdin_text (pre ++ .flag .noSeparators :: post) w cs _ mb ml pB pL p hv (asked_insert_flag hs _)
    (by rw [mem_flag (by decide)]; exact hb) hw hne (by rw [lastInt_flag]; exact hmb) (by rw [lastInt_flag]; exact hml) hB hL hp
    hgood fuel hfuel
  exact ⟨a1, b1, by rw [a2, b2, inkLines_filter s (good_parts hgood)]⟩

/-! ### Offsets -/

theorem mapIdx_range {α β : Type} (f : Nat → α → β) (g : Nat → α) (n : Nat) :
    ((List.range n).map g).mapIdx f = (List.range n).map fun i => f i (g i) := by
  apply List.ext_getElem
  · simp
  · intro i h1 h2; simp

/-- The sides of the rows. -/
def sidesOf (c : Nat) (cells : List Cell) : List RowSides :=
  (List.range ((cells.length + c - 1) / c)).map fun i =>
    ((slice c i cells).flatMap Cell.hex ++ inStyle {} (List.replicate (3 * (c - (slice c i cells).length)) ' ') ++ inStyle {} [' '],
      (slice c i cells).map Cell.shown)

theorem sidesOf_rows (c : Nat) (cells : List Cell) : RowsFor c cells.length (sidesOf c cells) := by
  unfold sidesOf
  refine ⟨by simp, ?_⟩
  intro r hr
  simp only [List.mem_map] at hr
  obtain ⟨i, -, rfl⟩ := hr
  have hx : ∀ l : List Cell, (l.flatMap Cell.hex).length = 3 * l.length := by
    intro l
    induction l with
    | nil => rfl
    | cons a l ih => rw [List.flatMap_cons, List.length_append, ih]; simp [Cell.hex, inStyle]; omega
  have hs : (slice c i cells).length ≤ c := by simp [slice]; omega
  refine ⟨?_, by simpa using hs⟩
  simp only [List.length_append, hx, inStyle, List.length_map, List.length_replicate, List.length_cons, List.length_nil]
  omega

theorem rowsView_offsets {s : Settings} (hd : s.debug = 0) (hn : s.noOffsets = false) (c : Nat) (cells : List Cell) :
    rowsView s c cells ++ [('\n', ({} : Style))] =
      offsetRows (figuresInk s.decimalOffsets 32) (figuresInk s.decimalOffsets 36 cells.length ++ [('\n', ({} : Style))]) c (sidesOf c cells) := by
  have ho : offsetsShown s = true := by simp [offsetsShown, hd, hn]
  have hbar : bar s = ('│', { fg := .basic 36 }) := by simp [bar, hd]
  have hink : ∀ col n, offsetInk s col n = figuresInk s.decimalOffsets col n := by
    intro col n
    unfold offsetInk figuresInk offsetFigures
    rw [hbar]
    cases s.decimalOffsets
    · simp
    · simp [alignRight, inStyle]
  unfold rowsView offsetRows sidesOf rowLayout rowStart rowBar totalLine
  simp only [ho, if_true, hink, hbar]
  rw [mapIdx_range, List.flatMap_def]
  simp only [List.append_assoc, inStyle, List.map_cons, List.map_nil]

theorem rowsView_bare {s : Settings} (hd : s.debug = 0) (hn : s.noOffsets = true) (c : Nat) (cells : List Cell) :
    rowsView s c cells ++ [('\n', ({} : Style))] = bareRows (sidesOf c cells) := by
  have ho : offsetsShown s = false := by simp [offsetsShown, hd, hn]
  unfold rowsView bareRows sidesOf rowLayout rowStart rowBar totalLine
  simp only [ho, Bool.false_eq_true, if_false]
  rw [List.flatMap_def]
  simp only [List.append_assoc, inStyle, List.map_cons, List.map_nil, List.map_map, Function.comp_def, List.nil_append, List.append_nil]

theorem cells_unique {a b : List Cell} (h1 : a.map Cell.byte = b.map Cell.byte) (h2 : a.map Cell.shown = b.map Cell.shown) : a = b := by
  induction a generalizing b with
  | nil => cases b with
    | nil => rfl
    | cons _ _ => simp at h1
  | cons x a ih =>
    cases b with
    | nil => simp at h1
    | cons y b =>
      simp only [List.map_cons, List.cons.injEq, Cell.shown, Prod.mk.injEq] at h1 h2
      rw [ih h1.2 (by simpa [Cell.shown] using h2.2)]
      obtain ⟨x1, x2, x3⟩ := x
      obtain ⟨y1, y2, y3⟩ := y
      simp_all

theorem rowsOf_flag {pre post : List Arg} {f : Flag} (h : f ≠ .decimalOffsets) {w : World} {c : Int} (hc : RowsOf (pre ++ post) w c) :
    RowsOf (pre ++ .flag f :: post) w c := by
  unfold RowsOf at *
  rw [lastInt_flag]
  rcases hc with hc | ⟨h1, W, h2, h3⟩
  · exact .inl hc
  · refine .inr ⟨h1, W, h2, ?_⟩
    rw [h3]
    congr 2
    simp only [eq_iff_iff]
    exact (mem_flag (Ne.symm h)).symm

/-- The settings of a command line with one more flag. -/
theorem asked_off {args : List Arg} {s : Settings} (hs : Asked args s) (h : .flag .noOffsets ∉ args) : s.noOffsets = false := by
  have := hs.noOffsets
  cases e : s.noOffsets with
  | false => rfl
  | true => exact absurd (this.1 e) h

theorem asked_dec {args : List Arg} {s : Settings} (hs : Asked args s) : s.decimalOffsets = decide (.flag .decimalOffsets ∈ args) := by
  have := hs.decimalOffsets
  cases e : s.decimalOffsets with
  | false => rw [e] at this; simp at this; simp [this]
  | true => simp [this.1 e]

/-- C115, files: `--no-offsets` removes the offsets, the bar after them and the last line, and replaces the bar within each row by a blank;
nothing else changes. -/
theorem C115_offsets (pre post : List Arg) (w : World) (name : Str) (data : Bytes) (mb ml : Option Nat) (pB pL p : Bytes)
    (hv : Views (pre ++ .flag .noOffsets :: post) name) (hb : .flag .binary ∈ pre ++ post) (hn : .flag .noOffsets ∉ pre ++ post)
    (hf : w.file name = .ok data) (c : Nat) (hc : 0 < c) (hcols : RowsOf (pre ++ post) w c)
    (hmb : lastInt .maxBytes (pre ++ post) = optInt mb) (hml : lastInt .maxLines (pre ++ post) = optInt ml)
    (hB : UnderBytes mb data pB) (hL : UnderLines ml data pL) (hp : p = if pB.length ≤ pL.length then pB else pL)
    (hgood : ∀ c ∈ partsOf (bufferSize (pre ++ post)) p, ¬ BadChunk c) (fuel : Nat) (hfuel : p.length < fuel) :
    (program fuel w (pre ++ post)).status = some 0 ∧ (program fuel w (pre ++ .flag .noOffsets :: post)).status = some 0 ∧
      ∃ rows, RowsFor c p.length rows ∧ appears (program fuel w (pre ++ .flag .noOffsets :: post)).out = bareRows rows ∧
        appears (program fuel w (pre ++ post)).out =
          offsetRows (figuresInk false 32) (figuresInk false 36 p.length ++ [('\n', ({} : Style))]) c rows := by
  have hv0 := views_less hv
  obtain ⟨s, -, hs⟩ := (C55_settings _ (hv0.only _ (by simp))).1 hv0.wellFormed
  obtain ⟨a1, -, x, a2, a3, a4⟩ := C107_binary (pre ++ post) w name data s mb ml pB pL p hv0 hs hb hf c hc hcols hmb hml hB hL hp hgood fuel hfuel
  have hs1 := asked_insert_flag hs (.noOffsets)
  obtain ⟨b1, -, y, b2, b3, b4⟩ := C107_binary (pre ++ .flag .noOffsets :: post) w name data _ mb ml pB pL p hv hs1
    (by rw [mem_flag (by decide)]; exact hb) hf c hc (rowsOf_flag (by decide) hcols) (by rw [lastInt_flag]; exact hmb) (by rw [lastInt_flag]; exact hml) hB hL hp
    (by rw [bufferSize_flag]; exact hgood) fuel hfuel
  rw [bufferSize_flag] at b3
  have hxy : y = x := cells_unique (b2.trans a2.symm) (b3.trans a3.symm)
  subst hxy
  have hdz := debug_zero hs (hv0.only _ (by simp))
  have hdec : s.decimalOffsets = false := by
    rw [asked_dec hs, decide_eq_false_iff_not]
    intro h
    exact hv.wellFormed.compatible (.flag .noOffsets) (by simp) (.flag .decimalOffsets) (by rw [mem_flag (by decide)]; exact h) (.symm .offsets)
  refine ⟨a1, b1, sidesOf c y, by rw [← a2, List.length_map]; exact sidesOf_rows c y, ?_, ?_⟩
  · rw [b4, rowsView_bare (s := s.setFlag .noOffsets) hdz rfl]
  · rw [a4, rowsView_offsets hdz (asked_off hs hn), hdec, ← a2, List.length_map]

/-- C115, standard input: the same. -/
theorem C115_stdin_offsets (pre post : List Arg) (w : World) (cs : List Bytes) (mb ml : Option Nat) (pB pL p : Bytes)
    (hv : ViewsStdin (pre ++ .flag .noOffsets :: post)) (hb : .flag .binary ∈ pre ++ post) (hn : .flag .noOffsets ∉ pre ++ post)
    (hw : w.stdin = cs.map .data) (hne : ∀ c ∈ cs, c ≠ []) (c : Nat) (hc : 0 < c) (hcols : RowsOf (pre ++ post) w c)
    (hmb : lastInt .maxBytes (pre ++ post) = optInt mb) (hml : lastInt .maxLines (pre ++ post) = optInt ml)
    (hB : UnderBytes mb cs.flatten pB) (hL : UnderLines ml cs.flatten pL) (hp : p = if pB.length ≤ pL.length then pB else pL)
    (hgood : ∀ c ∈ takeParts p.length cs, ¬ BadChunk c) (fuel : Nat) (hfuel : p.length < fuel) :
    (program fuel w (pre ++ post)).status = some 0 ∧ (program fuel w (pre ++ .flag .noOffsets :: post)).status = some 0 ∧
      ∃ rows, RowsFor c p.length rows ∧ appears (program fuel w (pre ++ .flag .noOffsets :: post)).out = bareRows rows ∧
        appears (program fuel w (pre ++ post)).out =
          offsetRows (figuresInk false 32) (figuresInk false 36 p.length ++ [('\n', ({} : Style))]) c rows := by
  have hv0 := viewsStdin_less hv
  obtain ⟨s, -, hs⟩ := (C55_settings _ (hv0.only _ (by simp))).1 hv0.wellFormed
  obtain ⟨a1, -, x, a2, a3, a4⟩ := C107_stdin_binary (pre ++ post) w cs s mb ml pB pL p hv0 hs hb hw hne c hc hcols hmb hml hB hL hp hgood fuel hfuel
  have hs1 := asked_insert_flag hs (.noOffsets)
  obtain ⟨b1, -, y, b2, b3, b4⟩ := C107_stdin_binary (pre ++ .flag .noOffsets :: post) w cs _ mb ml pB pL p hv hs1
    (by rw [mem_flag (by decide)]; exact hb) hw hne c hc (rowsOf_flag (by decide) hcols) (by rw [lastInt_flag]; exact hmb) (by rw [lastInt_flag]; exact hml) hB hL hp
    hgood fuel hfuel
  have hxy : y = x := cells_unique (b2.trans a2.symm) (b3.trans a3.symm)
  subst hxy
  have hdz := debug_zero hs (hv0.only _ (by simp))
  have hdec : s.decimalOffsets = false := by
    rw [asked_dec hs, decide_eq_false_iff_not]
    intro h
    exact hv.wellFormed.compatible (.flag .noOffsets) (by simp) (.flag .decimalOffsets) (by rw [mem_flag (by decide)]; exact h) (.symm .offsets)
  refine ⟨a1, b1, sidesOf c y, by rw [← a2, List.length_map]; exact sidesOf_rows c y, ?_, ?_⟩
  · rw [b4, rowsView_bare (s := s.setFlag .noOffsets) hdz rfl]
  · rw [a4, rowsView_offsets hdz (asked_off hs hn), hdec, ← a2, List.length_map]

/-- C115, files: with a given number of columns, `--decimal-offsets` changes the numbers only. -/
theorem C115_decimal (pre post : List Arg) (w : World) (name : Str) (data : Bytes) (mb ml : Option Nat) (pB pL p : Bytes)
    (hv : Views (pre ++ .flag .decimalOffsets :: post) name) (hb : .flag .binary ∈ pre ++ post) (hn : .flag .decimalOffsets ∉ pre ++ post)
    (hf : w.file name = .ok data) (c : Nat) (hc : 0 < c) (hcols : lastInt .columns (pre ++ post) = some (c : Int))
    (hmb : lastInt .maxBytes (pre ++ post) = optInt mb) (hml : lastInt .maxLines (pre ++ post) = optInt ml)
    (hB : UnderBytes mb data pB) (hL : UnderLines ml data pL) (hp : p = if pB.length ≤ pL.length then pB else pL)
    (hgood : ∀ c ∈ partsOf (bufferSize (pre ++ post)) p, ¬ BadChunk c) (fuel : Nat) (hfuel : p.length < fuel) :
    (program fuel w (pre ++ post)).status = some 0 ∧ (program fuel w (pre ++ .flag .decimalOffsets :: post)).status = some 0 ∧
      ∃ rows, RowsFor c p.length rows ∧ appears (program fuel w (pre ++ .flag .decimalOffsets :: post)).out =
          offsetRows (figuresInk true 32) (figuresInk true 36 p.length ++ [('\n', ({} : Style))]) c rows ∧
        appears (program fuel w (pre ++ post)).out =
          offsetRows (figuresInk false 32) (figuresInk false 36 p.length ++ [('\n', ({} : Style))]) c rows := by
  have hv0 := views_less hv
  obtain ⟨s, -, hs⟩ := (C55_settings _ (hv0.only _ (by simp))).1 hv0.wellFormed
  obtain ⟨a1, -, x, a2, a3, a4⟩ := C107_binary (pre ++ post) w name data s mb ml pB pL p hv0 hs hb hf c hc (.inl hcols) hmb hml hB hL hp hgood fuel hfuel
  have hs1 := asked_insert_flag hs (.decimalOffsets)
  obtain ⟨b1, -, y, b2, b3, b4⟩ := C107_binary (pre ++ .flag .decimalOffsets :: post) w name data _ mb ml pB pL p hv hs1
    (by rw [mem_flag (by decide)]; exact hb) hf c hc (.inl (by rw [lastInt_flag]; exact hcols)) (by rw [lastInt_flag]; exact hmb) (by rw [lastInt_flag]; exact hml) hB hL hp
    (by rw [bufferSize_flag]; exact hgood) fuel hfuel
  rw [bufferSize_flag] at b3
  have hxy : y = x := cells_unique (b2.trans a2.symm) (b3.trans a3.symm)
  subst hxy
  have hdz := debug_zero hs (hv0.only _ (by simp))
  have hno : s.noOffsets = false := by
    refine asked_off hs fun h => ?_
    exact hv.wellFormed.compatible (.flag .noOffsets) (by rw [mem_flag (by decide)]; exact h) (.flag .decimalOffsets) (by simp) (.symm .offsets)
  refine ⟨a1, b1, sidesOf c y, by rw [← a2, List.length_map]; exact sidesOf_rows c y, ?_, ?_⟩
  · rw [b4, rowsView_offsets (s := s.setFlag .decimalOffsets) hdz hno, ← a2, List.length_map]; rfl
  · rw [a4, rowsView_offsets hdz hno, asked_dec hs, decide_eq_false hn, ← a2, List.length_map]

/-- C115, standard input: the same. -/
theorem C115_stdin_decimal (pre post : List Arg) (w : World) (cs : List Bytes) (mb ml : Option Nat) (pB pL p : Bytes)
    (hv : ViewsStdin (pre ++ .flag .decimalOffsets :: post)) (hb : .flag .binary ∈ pre ++ post) (hn : .flag .decimalOffsets ∉ pre ++ post)
    (hw : w.stdin = cs.map .data) (hne : ∀ c ∈ cs, c ≠ []) (c : Nat) (hc : 0 < c) (hcols : lastInt .columns (pre ++ post) = some (c : Int))
    (hmb : lastInt .maxBytes (pre ++ post) = optInt mb) (hml : lastInt .maxLines (pre ++ post) = optInt ml)
    (hB : UnderBytes mb cs.flatten pB) (hL : UnderLines ml cs.flatten pL) (hp : p = if pB.length ≤ pL.length then pB else pL)
    (hgood : ∀ c ∈ takeParts p.length cs, ¬ BadChunk c) (fuel : Nat) (hfuel : p.length < fuel) :
    (program fuel w (pre ++ post)).status = some 0 ∧ (program fuel w (pre ++ .flag .decimalOffsets :: post)).status = some 0 ∧
      ∃ rows, RowsFor c p.length rows ∧ appears (program fuel w (pre ++ .flag .decimalOffsets :: post)).out =
          offsetRows (figuresInk true 32) (figuresInk true 36 p.length ++ [('\n', ({} : Style))]) c rows ∧
        appears (program fuel w (pre ++ post)).out =
          offsetRows (figuresInk false 32) (figuresInk false 36 p.length ++ [('\n', ({} : Style))]) c rows := by
  have hv0 := viewsStdin_less hv
  obtain ⟨s, -, hs⟩ := (C55_settings _ (hv0.only _ (by simp))).1 hv0.wellFormed
  obtain ⟨a1, -, x, a2, a3, a4⟩ := C107_stdin_binary (pre ++ post) w cs s mb ml pB pL p hv0 hs hb hw hne c hc (.inl hcols) hmb hml hB hL hp hgood fuel hfuel
  have hs1 := asked_insert_flag hs (.decimalOffsets)
  obtain ⟨b1, -, y, b2, b3, b4⟩ := C107_stdin_binary (pre ++ .flag .decimalOffsets :: post) w cs _ mb ml pB pL p hv hs1
    (by rw [mem_flag (by decide)]; exact hb) hw hne c hc (.inl (by rw [lastInt_flag]; exact hcols)) (by rw [lastInt_flag]; exact hmb) (by rw [lastInt_flag]; exact hml) hB hL hp
    hgood fuel hfuel
  have hxy : y = x := cells_unique (b2.trans a2.symm) (b3.trans a3.symm)
  subst hxy
  have hdz := debug_zero hs (hv0.only _ (by simp))
  have hno : s.noOffsets = false := by
    refine asked_off hs fun h => ?_
    exact hv.wellFormed.compatible (.flag .noOffsets) (by rw [mem_flag (by decide)]; exact h) (.flag .decimalOffsets) (by simp) (.symm .offsets)
  refine ⟨a1, b1, sidesOf c y, by rw [← a2, List.length_map]; exact sidesOf_rows c y, ?_, ?_⟩
  · rw [b4, rowsView_offsets (s := s.setFlag .decimalOffsets) hdz hno, ← a2, List.length_map]; rfl
  · rw [a4, rowsView_offsets hdz hno, asked_dec hs, decide_eq_false hn, ← a2, List.length_map]

/-! ### Cases -/

/-- A command line without contradictions, if that can be seen. -/
theorem wellFormed_closed {args : List Arg} (h1 : ∀ o, .int o none ∉ args) (h2 : ∀ a ∈ args, ∀ b ∈ args, clash a b = false)
    (h3 : (fileNames args).length ≤ 1) : WellFormed args :=
  ⟨h1, fun a ha b hb he => by
    have := he.clash.1
    rw [h2 a ha b hb] at this
    exact absurd this (by simp), h3⟩

/-- Text in two parts, with a sequence: ... -/
def labelInput : List Bytes := [[0x61, 0x0a], [0x1b, 0x5b, 0x33, 0x31, 0x6d, 0x62]]

theorem labelInput_good : ∀ c ∈ takeParts 8 labelInput, ¬ BadChunk c := by
  intro c hc hb
  have : ∀ c ∈ takeParts 8 labelInput, (pieces c).any badPiece = false := by decide
  exact absurd (this c hc) (by rw [(anyBad_iff c).2 hb]; simp)

/-- ... the line numbers, ... -/
example (w : World) (h : w.stdin = labelInput.map .data) :
    ∃ bare, DisplayedLines (appears (program 100 w [.int .marker (some 2), .flag .noLineNumbers]).out) bare ∧
      DisplayedLines (appears (program 100 w [.int .marker (some 2)]).out) (bare.mapIdx fun i l => lineNumber (i + 1) ++ l) :=
  (C115_stdin_numbers [.int .marker (some 2)] [] w labelInput none none labelInput.flatten labelInput.flatten labelInput.flatten
    ⟨wellFormed_closed (by intro o; cases o <;> decide) (by decide) (by decide), .inl rfl, by decide⟩ (by decide) (by decide) h (by decide)
    rfl rfl rfl rfl rfl labelInput_good 100 (by decide)).2.2

/-- ... the separators, ... -/
example (w : World) (h : w.stdin = labelInput.map .data) :
    appears (program 100 w [.int .marker (some 2), .flag .noSeparators]).out =
      (appears (program 100 w [.int .marker (some 2)]).out).filter (fun x => !IsSeparator x) :=
  (C115_stdin_separators [.int .marker (some 2)] [] w labelInput none none labelInput.flatten labelInput.flatten labelInput.flatten
    ⟨wellFormed_closed (by intro o; cases o <;> decide) (by decide) (by decide), .inl rfl, by decide⟩ (by decide) h (by decide)
    rfl rfl rfl rfl rfl labelInput_good 100 (by decide)).2.2

/-- ... the offsets ... -/
example (w : World) (h : w.stdin = labelInput.map .data) :
    ∃ rows, RowsFor 3 8 rows ∧ appears (program 100 w [.flag .binary, .int .columns (some 3), .flag .noOffsets]).out = bareRows rows ∧
      appears (program 100 w [.flag .binary, .int .columns (some 3)]).out =
        offsetRows (figuresInk false 32) (figuresInk false 36 8 ++ [('\n', ({} : Style))]) 3 rows :=
  (C115_stdin_offsets [.flag .binary, .int .columns (some 3)] [] w labelInput none none labelInput.flatten labelInput.flatten labelInput.flatten
    ⟨wellFormed_closed (by intro o; cases o <;> decide) (by decide) (by decide), .inl rfl, by decide⟩ (by decide) (by decide) h (by decide)
    3 (by decide) (.inl rfl) rfl rfl rfl rfl rfl labelInput_good 100 (by decide)).2.2

/-- ... and the numbers. -/
example (w : World) (h : w.stdin = labelInput.map .data) :
    ∃ rows, RowsFor 3 8 rows ∧ appears (program 100 w [.flag .binary, .int .columns (some 3), .flag .decimalOffsets]).out =
        offsetRows (figuresInk true 32) (figuresInk true 36 8 ++ [('\n', ({} : Style))]) 3 rows ∧
      appears (program 100 w [.flag .binary, .int .columns (some 3)]).out =
        offsetRows (figuresInk false 32) (figuresInk false 36 8 ++ [('\n', ({} : Style))]) 3 rows :=
  (C115_stdin_decimal [.flag .binary, .int .columns (some 3)] [] w labelInput none none labelInput.flatten labelInput.flatten labelInput.flatten
    ⟨wellFormed_closed (by intro o; cases o <;> decide) (by decide) (by decide), .inl rfl, by decide⟩ (by decide) (by decide) h (by decide)
    3 (by decide) rfl rfl rfl rfl rfl rfl labelInput_good 100 (by decide)).2.2

/-- With details there are separators: two of them here. -/
example : ((([(.printable, [0x61]), (.sgr, [0x1b, 0x5b, 0x33, 0x31, 0x6d])] : List (Kind × Bytes)).flatMap (textInk { marker := 2 })).filter IsSeparator).length = 2 := by
  decide +kernel

end Kolombos
