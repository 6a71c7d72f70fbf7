import Verif.Spec.Details
import Verif.Props.Labels
/-
C117: details are all that `--marker` adds.
-/
set_option linter.unusedSimpArgs false

namespace Kolombos
open Spec

/-! ### Pieces -/

theorem notDetail {c : Char} {st : Style} (hu : st.underline = 0) (hs : IsSeparator (c, st) = false) (hd : c ≠ '･' ∨ st.bg = .dflt) :
    IsDetail (c, st) = false := by
  unfold IsDetail
  rw [hs]
  simp only [hu, Bool.or_false, ne_eq, not_true_eq_false, decide_false, Bool.false_or, decide_eq_false_iff_not, not_and, not_not]
  intro h
  rcases hd with hd | hd
  · exact absurd h hd
  · exact hd

theorem isDetail_under {st : Style} (hu : st.underline ≠ 0) (c : Char) : IsDetail (c, st) = true := by
  unfold IsDetail
  simp [hu]

theorem keep_all {l : List (Char × Style)} (h : ∀ x ∈ l, IsDetail x = false) : l.filter (fun x => !IsDetail x) = l := by
  rw [List.filter_eq_self]
  intro x hx
  simp [h x hx]

theorem keep_none {l : List (Char × Style)} (h : ∀ x ∈ l, IsDetail x = true) : l.filter (fun x => !IsDetail x) = [] := by
  rw [List.filter_eq_nil_iff]
  intro x hx
  simp [h x hx]

theorem inStyle_details {st : Style} (hu : st.underline ≠ 0) (t : Str) : ∀ x ∈ inStyle st t, IsDetail x = true := by
  intro x hx
  simp only [inStyle, List.mem_map] at hx
  obtain ⟨c, -, rfl⟩ := hx
  exact isDetail_under hu c

theorem copied_bg (p : Bytes) {st : Style} (h : st.bg ≠ .dflt) : (copied p st).bg ≠ .dflt := by
  unfold copied
  generalize sgrItems (numbers (csiParams p)) = l
  induction l generalizing st with
  | nil => exact h
  | cons i l ih =>
    refine ih ?_
    cases i with
    | code n => unfold SgrItem.copy; simp only; repeat' split
                all_goals first | exact h | simp
    | indexed b n => unfold SgrItem.copy; simp only; split <;> first | exact h | simp
    | rgb b x y z => unfold SgrItem.copy; simp only; split <;> first | exact h | simp

theorem escInk_bg (s : Settings) (k : Kind) (p : Bytes) : (escInk s k p).bg ≠ .dflt := by
  unfold escInk
  split
  · split
    · exact copied_bg p (by decide)
    · decide
  · simp

theorem dotted_details {st : Style} (hu : st.underline ≠ 0) (hb : st.bg ≠ .dflt) (l : List Str) : ∀ x ∈ dottedInk st l, IsDetail x = true := by
  induction l with
  | nil => intro x hx; simp [dottedInk] at hx
  | cons a l ih =>
    cases l with
    | nil => exact inStyle_details hu a
    | cons b l =>
      intro x hx
      have e : dottedInk st (a :: b :: l) = inStyle st a ++ ('･', { st with underline := 0 }) :: dottedInk st (b :: l) := rfl
      rw [e, List.mem_append, List.mem_cons] at hx
      rcases hx with hx | rfl | hx
      · exact inStyle_details hu a x hx
      · unfold IsDetail; simp [hb]
      · exact ih x hx

theorem escDetail_details (s : Settings) (k : Kind) (p : Bytes) : ∀ x ∈ escDetailInk s k p, IsDetail x = true := by
  unfold escDetailInk
  split
  · exact dotted_details (escInk_under s k p) (escInk_bg s k p) _
  · exact inStyle_details (escInk_under s k p) _

theorem kindInk_under (s : Settings) (k : Kind) : (kindInk s k).underline = 0 := by
  unfold kindInk
  split
  · rfl
  · split <;> cases k <;> rfl

theorem markerInk_under (s : Settings) (k : Kind) (p : Bytes) : (markerInk s k p).underline = 0 := by
  unfold markerInk
  split
  · rw [copied_under_eq]
  · exact kindInk_under s k

theorem symbol_dot (k : Kind) : symbol k ≠ '･' := by cases k <;> decide

theorem marker_kept (s : Settings) (k : Kind) (p : Bytes) : IsDetail (symbol k, markerInk s k p) = false :=
  notDetail (markerInk_under s k p) (symbol_noSep k _) (.inl (symbol_dot k))

theorem ascii_dot {p : Bytes} {c : Char} (h : c ∈ asciiChars p) : c ≠ '･' := by
  unfold asciiChars at h
  obtain ⟨b, -, rfl⟩ := List.mem_map.1 h
  have : ∀ i : Fin 256, Char.ofNat i.val ≠ '･' := by decide +kernel
  exact this ⟨b.toNat, b.toNat_lt⟩

/-- Pieces other than control characters and sequences have no details. -/
theorem plain_kept (s : Settings) {k : Kind} (hk : isEscKind k = false) (hc : k ≠ .ctrl) (p : Bytes) :
    ∀ x ∈ inStyle (kindInk s k) (textGlyphs s k p), IsDetail x = false := by
  intro x hx
  simp only [inStyle, List.mem_map] at hx
  obtain ⟨c, h, rfl⟩ := hx
  have hsep : IsSeparator (c, kindInk s k) = false := sep_style (kindInk_sep s k) c
  refine notDetail (kindInk_under s k) hsep ?_
  by_cases hu : k = .utf8
  · subst hu
    right
    unfold kindInk
    split
    · rfl
    · split <;> rfl
  · left
    unfold textGlyphs at h
    split at h
    · obtain ⟨_, -, rfl⟩ := List.mem_map.1 h; decide
    · cases k
      case utf8 => exact absurd rfl hu
      case ctrl => exact absurd rfl hc
      case printable => exact ascii_dot h
      case tab =>
        simp only [List.mem_flatMap, List.mem_cons, List.not_mem_nil, or_false] at h
        obtain ⟨_, -, rfl | rfl⟩ := h <;> decide
      case space =>
        obtain ⟨_, -, rfl⟩ := List.mem_map.1 h
        split <;> decide
      all_goals
        first
        | (cases hk; done)
        | (obtain ⟨_, -, rfl⟩ := List.mem_map.1 h; exact symbol_dot _)

/-- The settings without details. -/
abbrev bareMarkers (s : Settings) : Settings := s.setInt 0 .marker

/-- A piece with details removed is the piece without details. -/
theorem textInk_details (s : Settings) (q : Kind × Bytes) : (textInk s q).filter (fun x => !IsDetail x) = textInk (bareMarkers s) q := by
  obtain ⟨k, p⟩ := q
  have e1 : (bareMarkers s).ignore = s.ignore := rfl
  have e2 : ∀ k, kindInk (bareMarkers s) k = kindInk s k := fun _ => rfl
  have e3 : ∀ k p, markerInk (bareMarkers s) k p = markerInk s k p := fun _ _ => rfl
  have e5 : level (bareMarkers s) = 0 := rfl
  have e4 : ∀ k p, escDetailInk (bareMarkers s) k p = [] := by
    intro k p
    unfold escDetailInk escDetail
    simp [e5, inStyle]
  have e7 : enclosed (bareMarkers s) = false := by simp [enclosed, e5]
  have hesc : ∀ k, ((if enclosed s then
        ('⢸', { fg := .indexed 255 }) :: (symbol k, markerInk s k p) :: (escDetailInk s k p ++ [('⡇', { fg := .indexed 255 })])
        else (symbol k, markerInk s k p) :: escDetailInk s k p) : List (Char × Style)).filter (fun x => !IsDetail x) =
      [(symbol k, markerInk s k p)] := by
    intro k
    have h1 : IsDetail ('⢸', { fg := .indexed 255 }) = true := by decide
    have h2 : IsDetail ('⡇', { fg := .indexed 255 }) = true := by decide
    split
    · simp [List.filter_cons, List.filter_append, h1, h2, marker_kept, keep_none (escDetail_details s k p)]
    · simp [List.filter_cons, marker_kept, keep_none (escDetail_details s k p)]
  unfold textInk
  simp only [e1]
  by_cases hi : s.ignore (classOfKind k) = true
  · simp only [hi, if_true]
    refine keep_all fun x hx => ?_
    simp only [inStyle, List.mem_map] at hx
    obtain ⟨c, -, rfl⟩ := hx
    exact notDetail rfl (sep_style (by decide) c) (.inr rfl)
  simp only [hi, Bool.false_eq_true, if_false]
  cases k
  case newline =>
    simp only [e2]
    refine keep_all fun x hx => ?_
    simp only [List.mem_cons, List.not_mem_nil, or_false] at hx
    rcases hx with rfl | rfl
    · exact notDetail (kindInk_under s _) (sep_style (kindInk_sep s _) _) (.inl (by decide))
    · decide
  case ctrl =>
    simp only [e2, e5]
    clear hesc
    induction p with
    | nil => rfl
    | cons b p ih =>
      rw [List.flatMap_cons, List.filter_append, ih, List.flatMap_cons]
      congr 1
      have h1 : IsDetail ('Ɐ', kindInk s .ctrl) = false := notDetail (kindInk_under s _) (sep_style (kindInk_sep s _) _) (.inl (by decide))
      have h2 : ∀ x ∈ inStyle { fg := .basic 31, bg := .indexed 16, underline := 1 } (ctrlDetail (level s) b), IsDetail x = true := inStyle_details (by decide) _
      rw [List.filter_cons, keep_none h2, h1]
      rfl
  all_goals
    first
    | (simp only [e3, e4, e7, Bool.false_eq_true, if_false]; exact hesc _)
    | (refine (keep_all (plain_kept s rfl (by decide) p)).trans ?_; rfl)

theorem flatMap_details (s : Settings) (qs : List (Kind × Bytes)) :
    (qs.flatMap (textInk s)).filter (fun x => !IsDetail x) = qs.flatMap (textInk (bareMarkers s)) := by
  induction qs with
  | nil => rfl
  | cons q qs ih => rw [List.flatMap_cons, List.filter_append, textInk_details, ih, List.flatMap_cons]

/-- What is lost at the end of an incomplete line are details. -/
theorem lost_details (s : Settings) {k : Kind} {p : Bytes} (hw : Wf k p) :
    ∃ y d, textInk s (k, p) = y ++ d ∧ d.length = textLost s k ∧ ∀ x ∈ d, IsDetail x = true := by
  by_cases h0 : textLost s k = 0
  · exact ⟨textInk s (k, p), [], by simp, by simp [h0], by simp⟩
  have hi : s.ignore (classOfKind k) = false := by
    cases h : s.ignore (classOfKind k) with
    | false => rfl
    | true => exact absurd (by simp [textLost, h]) h0
  by_cases hc : k = .ctrl
  · subst hc
    have hne : p ≠ [] := hw.ne_nil
    obtain ⟨p0, b, rfl⟩ : ∃ p0 b, p = p0 ++ [b] := by
      rcases List.eq_nil_or_concat p with rfl | ⟨a, b, h⟩
      · exact absurd rfl hne
      · exact ⟨a, b, by rw [h, List.concat_eq_append]⟩
    have hlen : (ctrlDetail (level s) b).length = level s := by
      unfold ctrlDetail
      unfold level
      split
      · simp
      · split <;> simp
    refine ⟨(p0.flatMap fun b => ('Ɐ', kindInk s .ctrl) :: inStyle { fg := .basic 31, bg := .indexed 16, underline := 1 } (ctrlDetail (level s) b)) ++
        [('Ɐ', kindInk s .ctrl)], inStyle { fg := .basic 31, bg := .indexed 16, underline := 1 } (ctrlDetail (level s) b), ?_, ?_, inStyle_details (by decide) _⟩
    · unfold textInk
      simp only [hi]
      rw [List.flatMap_append]
      simp only [List.flatMap_cons, List.flatMap_nil, List.append_nil]
      rw [if_neg (by simp), ← List.singleton_append, ← List.append_assoc]
    · unfold textLost
      simp [hi, inStyle, hlen]
  · have hk : isEscKind k = true ∧ enclosed s = true := by
      unfold textLost at h0
      simp only [hi] at h0
      cases k <;> simp at h0 <;> first | exact absurd rfl hc | exact ⟨rfl, h0⟩
    obtain ⟨hk, he⟩ := hk
    have hl : textLost s k = 1 := by
      unfold textLost
      simp only [hi]
      cases k <;> first | (cases hk; done) | simp [he]
    have : ∃ y, textInk s (k, p) = y ++ [('⡇', { fg := .indexed 255 })] := by
      unfold textInk
      simp only [hi, he, if_true]
      cases k <;> first | (cases hk; done) | exact ⟨_ :: _ :: escDetailInk s _ p, rfl⟩
    obtain ⟨y, hy⟩ := this
    exact ⟨y, _, hy, by rw [hl]; rfl, by decide⟩

/-- The end of an incomplete line. -/
theorem rest_details (s : Settings) {qs : List (Kind × Bytes)} (hw : ∀ q ∈ qs, Wf q.1 q.2) :
    ((qs.flatMap (textInk s)).take ((qs.flatMap (textInk s)).length - lostAt s qs)).filter (fun x => !IsDetail x) =
      qs.flatMap (textInk (bareMarkers s)) := by
  rcases List.eq_nil_or_concat qs with rfl | ⟨L, q, rfl⟩
  · rfl
  rw [List.concat_eq_append] at *
  obtain ⟨k, p⟩ := q
  obtain ⟨y, d, h1, h2, h3⟩ := lost_details s (hw (k, p) (by simp))
  have hl : lostAt s (L ++ [(k, p)]) = d.length := by rw [h2]; unfold lostAt; simp
  rw [← flatMap_details, hl]
  simp only [List.flatMap_append, List.flatMap_cons, List.flatMap_nil, List.append_nil, h1, ← List.append_assoc]
  rw [List.length_append (bs := d), Nat.add_sub_cancel, List.take_left' rfl, List.filter_append _ d, keep_none h3, List.append_nil]

theorem mapIdx_details (label : Nat → List (Char × Style)) (hlab : ∀ n, ∀ x ∈ label n, IsDetail x = false) (ls : List (List (Char × Style))) :
    ((ls.mapIdx fun i l => label (i + 1) ++ l).flatten).filter (fun x => !IsDetail x) =
      ((ls.map fun l => l.filter fun x => !IsDetail x).mapIdx fun i l => label (i + 1) ++ l).flatten := by
  induction ls generalizing label with
  | nil => rfl
  | cons l ls ih =>
    simp only [List.mapIdx_cons, List.map_cons, List.flatten_cons, List.filter_append]
    rw [keep_all (hlab _), ih (fun n => label (n + 1)) fun n => hlab _]

theorem inkLines_details {s : Settings} (hd : s.debug = 0) {qs : List (Kind × Bytes)} (hg : GoodPieces qs) :
    ((inkLines (labelInk s) (textInk s) (lostAt s) qs).flatten ++ [('\n', ({} : Style))]).filter (fun x => !IsDetail x) =
      (inkLines (labelInk (bareMarkers s)) (textInk (bareMarkers s)) (lostAt (bareMarkers s)) qs).flatten ++ [('\n', ({} : Style))] := by
  have hlab : ∀ n, ∀ x ∈ labelInk s n, IsDetail x = false := by
    intro n x hx
    unfold labelInk at hx
    simp only [hd] at hx
    split at hx
    · contradiction
    · split at hx
      · simp at hx
      · rw [List.mem_append] at hx
        rcases hx with hx | hx
        · simp only [inStyle, List.mem_map] at hx
          obtain ⟨c, h, rfl⟩ := hx
          exact notDetail rfl (sep_style (by decide) c) (.inr rfl)
        · simp only [List.mem_singleton] at hx; rw [hx]; decide
  have hl : labelInk (bareMarkers s) = labelInk s := rfl
  have hnl : ([('\n', ({} : Style))] : List (Char × Style)).filter (fun x => !IsDetail x) = [('\n', ({} : Style))] := by decide
  have hw : ∀ q ∈ (pieceLines qs).2, Wf q.1 q.2 := fun q hq => ((pieceLines_good hg).2 q hq).1
  have h0 : ∀ l, lostAt (bareMarkers s) l = 0 := by
    intro l
    unfold lostAt
    split
    · unfold textLost
      have e5 : level (bareMarkers s) = 0 := rfl
      have e7 : enclosed (bareMarkers s) = false := by simp [enclosed, e5]
      split
      · rfl
      · split <;> simp [e5, e7]
    · rfl
  rw [List.filter_append, hnl, hl]
  congr 1
  unfold inkLines
  simp only
  rw [mapIdx_details _ hlab, List.map_append, List.map_map]
  congr 3
  · apply List.map_congr_left
    intro l _
    exact flatMap_details s l
  · split
    · rfl
    · simp only [List.map_cons, List.map_nil, List.filter_append, hnl]
      rw [rest_details s hw, h0, Nat.sub_zero, List.take_length]

/-! ### The program -/

theorem asked_bare {args : List Arg} {s : Settings} (hs : Asked args s) (h : lastInt .marker args = none) (v : Int) :
    bareMarkers (s.setInt v .marker) = s := by
  have : s.marker = 0 := by rw [hs.marker, h]; rfl
  obtain ⟨⟩ := s
  simp only [Settings.setInt] at *
  rw [this]

/-- C117, files: with `--marker`, the display has what it has without the option, and details. -/
theorem C117_text (pre post : List Arg) (v : Int) (w : World) (name : Str) (data : Bytes) (mb ml : Option Nat) (pB pL p : Bytes)
    (hv : Views (pre ++ post) name) (hb : .flag .binary ∉ pre ++ post) (hm : lastInt .marker (pre ++ post) = none)
    (hf : w.file name = .ok data) (hmb : lastInt .maxBytes (pre ++ post) = optInt mb) (hml : lastInt .maxLines (pre ++ post) = optInt ml)
    (hB : UnderBytes mb data pB) (hL : UnderLines ml data pL) (hp : p = if pB.length ≤ pL.length then pB else pL)
    (hgood : ∀ c ∈ partsOf (bufferSize (pre ++ post)) p, ¬ BadChunk c) (fuel : Nat) (hfuel : 4 * p.length < fuel) :
    (program fuel w (pre ++ post)).status = some 0 ∧ (program fuel w (pre ++ .int .marker (some v) :: post)).status = some 0 ∧
      (appears (program fuel w (pre ++ .int .marker (some v) :: post)).out).filter (fun x => !IsDetail x) =
        appears (program fuel w (pre ++ post)).out := by
  obtain ⟨s, -, hs⟩ := (C55_settings _ (hv.only _ (by simp))).1 hv.wellFormed
  obtain ⟨a1, a2⟩ := C107_text (pre ++ post) w name data s mb ml pB pL p hv hs hb hf hmb hml hB hL hp hgood fuel hfuel
  obtain ⟨b1, b2⟩ := C107_text (pre ++ .int .marker (some v) :: post) w name data _ mb ml pB pL p (views_int .marker v hv) (asked_int_new v hm hs)
    (by rw [flag_int]; exact hb) hf (by rw [lastInt_int v hm, if_neg (by decide)]; exact hmb) (by rw [lastInt_int v hm, if_neg (by decide)]; exact hml) hB hL hp
    (by rw [bufferSize_int (by decide) v hm]; exact hgood) fuel hfuel
  rw [bufferSize_int (by decide) v hm] at b2
  refine ⟨a1, b1, ?_⟩
  have hd : (s.setInt v .marker).debug = 0 := by
    have := debug_zero hs (hv.only _ (by simp))
    exact this
  rw [b2, inkLines_details hd (good_parts hgood), asked_bare hs hm v, a2]

/-- C117, standard input: the same. -/
theorem C117_stdin_text (pre post : List Arg) (v : Int) (w : World) (cs : List Bytes) (mb ml : Option Nat) (pB pL p : Bytes)
    (hv : ViewsStdin (pre ++ post)) (hb : .flag .binary ∉ pre ++ post) (hm : lastInt .marker (pre ++ post) = none)
    (hw : w.stdin = cs.map .data) (hne : ∀ c ∈ cs, c ≠ [])
    (hmb : lastInt .maxBytes (pre ++ post) = optInt mb) (hml : lastInt .maxLines (pre ++ post) = optInt ml)
    (hB : UnderBytes mb cs.flatten pB) (hL : UnderLines ml cs.flatten pL) (hp : p = if pB.length ≤ pL.length then pB else pL)
    (hgood : ∀ c ∈ takeParts p.length cs, ¬ BadChunk c) (fuel : Nat) (hfuel : 4 * p.length < fuel) :
    (program fuel w (pre ++ post)).status = some 0 ∧ (program fuel w (pre ++ .int .marker (some v) :: post)).status = some 0 ∧
      (appears (program fuel w (pre ++ .int .marker (some v) :: post)).out).filter (fun x => !IsDetail x) =
        appears (program fuel w (pre ++ post)).out := by
  obtain ⟨s, -, hs⟩ := (C55_settings _ (hv.only _ (by simp))).1 hv.wellFormed
  obtain ⟨a1, a2⟩ := C107_stdin_text (pre ++ post) w cs s mb ml pB pL p hv hs hb hw hne hmb hml hB hL hp hgood fuel hfuel
  obtain ⟨b1, b2⟩ := C107_stdin_text (pre ++ .int .marker (some v) :: post) w cs _ mb ml pB pL p (viewsStdin_int .marker v hv) (asked_int_new v hm hs)
    (by rw [flag_int]; exact hb) hw hne (by rw [lastInt_int v hm, if_neg (by decide)]; exact hmb) (by rw [lastInt_int v hm, if_neg (by decide)]; exact hml)
    hB hL hp hgood fuel hfuel
  refine ⟨a1, b1, ?_⟩
  have hd : (s.setInt v .marker).debug = 0 := by
    have := debug_zero hs (hv.only _ (by simp))
    exact this
  rw [b2, inkLines_details hd (good_parts hgood), asked_bare hs hm v, a2]

/-! ### Cases -/

/-- A sequence and text in two parts, with `--color-markers`. -/
example (w : World) (h : w.stdin = labelInput.map .data) :
    (appears (program 100 w [.flag .colorMarkers, .int .marker (some 2)]).out).filter (fun x => !IsDetail x) =
      appears (program 100 w [.flag .colorMarkers]).out :=
  (C117_stdin_text [.flag .colorMarkers] [] 2 w labelInput none none labelInput.flatten labelInput.flatten labelInput.flatten
    ⟨wellFormed_closed (by intro o; cases o <;> decide) (by decide) (by decide), .inl rfl, by decide⟩ (by decide) rfl h (by decide)
    rfl rfl rfl rfl rfl labelInput_good 100 (by decide)).2.2

/-- There is something to remove: of a sequence with two codes the separators, the codes and the dot between them, ... -/
example : ((textInk { marker := 1 } (.sgr, [0x1b, 0x5b, 0x31, 0x3b, 0x33, 0x31, 0x6d])).filter IsDetail).map Prod.fst = "⢸1･31⡇".toList := by
  decide +kernel

/-- ... but not the same dot in the input. -/
example : (textInk { marker := 1 } (.utf8, [0xef, 0xbd, 0xa5])).map Prod.fst = ['･'] ∧
    (textInk { marker := 1 } (.utf8, [0xef, 0xbd, 0xa5])).filter IsDetail = [] := by
  decide +kernel

end Kolombos
