import Verif.Lemmas.BinGlyphs
import Verif.Spec.Ink
/-
The styles in which the segments of a piece appear.
-/
set_option linter.unusedSimpArgs false

namespace Kolombos
open Spec

/-! ### Styles -/

theorem kindStyle_ink (s : Settings) (k : Kind) : applySgr (kindStyle k (displayOf s k)) {} = kindInk s k := by
  have h1 : applySgr (kindStyle k .ignored) {} = dimGrey := rfl
  have h2 : applySgr (kindStyle k .focused) {} = kindFocus k := by cases k <;> rfl
  have h3 : applySgr (kindStyle k .default) {} = kindColor k := by cases k <;> rfl
  unfold kindInk
  cases hi : s.ignore (classOfKind k) with
  | true => rw [(displayOf_ignored s k).2 hi]; exact h1
  | false =>
    rw [displayOf_focused s k hi]
    cases s.focus (classOfKind k)
    · exact h3
    · exact h2

theorem harmless_copy (i : SgrItem) (r : List Nat) (st : Style) : applySgr (i.harmless ++ r) st = applySgr r (i.copy st) := by
  cases i with
  | indexed bg n => cases bg <;> simp [SgrItem.harmless, applySgr, setColor, SgrItem.copy]
  | rgb bg x y z => cases bg <;> simp [SgrItem.harmless, applySgr, setColor, SgrItem.copy]
  | code n =>
    by_cases h : n = 2 ∨ n = 3 ∨ n = 9 ∨ n = 53 ∨ (30 ≤ n ∧ n ≤ 37) ∨ (40 ≤ n ∧ n ≤ 47) ∨ (90 ≤ n ∧ n ≤ 97) ∨ (100 ≤ n ∧ n ≤ 107)
    · have e : (SgrItem.code n).harmless = [n] := by unfold SgrItem.harmless; simp only; rw [if_pos h]
      rw [e]
      have h38 : ¬(n = 38 ∨ n = 48) := by omega
      rw [List.singleton_append, applySgr.eq_def]
      simp only
      rw [if_neg h38]
      congr 1
      unfold SgrItem.copy applyOne
      simp only
      by_cases h2 : n = 2
      · subst h2; rfl
      by_cases h3 : n = 3
      · subst h3; rfl
      by_cases h9 : n = 9
      · subst h9; rfl
      by_cases h53 : n = 53
      · subst h53; rfl
      rw [if_neg (by omega), if_neg (by omega), if_neg (by omega), if_neg (by omega), if_neg (by omega), if_neg (by omega), if_neg (by omega),
        if_neg (by omega), if_neg (by omega), if_neg (by omega), if_neg (by omega), if_neg (by omega), if_neg (by omega), if_neg (by omega),
        if_neg (by omega), if_neg (by omega), if_neg (by omega), if_neg (by omega), if_neg (by omega), if_neg (by omega), if_neg (by omega),
        if_neg (by omega)]
      rw [if_neg h2, if_neg h3, if_neg h9, if_neg h53]
    · have e : (SgrItem.code n).harmless = [] := by unfold SgrItem.harmless; simp only; rw [if_neg h]
      rw [e]
      unfold SgrItem.copy
      simp only
      rw [if_neg (by omega), if_neg (by omega), if_neg (by omega), if_neg (by omega), if_neg (by omega), if_neg (by omega)]
      rfl

theorem harmless_copies (is : List SgrItem) (st : Style) : applySgr (is.flatMap SgrItem.harmless) st = is.foldl SgrItem.copy st := by
  induction is generalizing st with
  | nil => rfl
  | cons i is ih => rw [List.flatMap_cons, harmless_copy, ih]; rfl

theorem opening_copied {k : Kind} {p : Bytes} {q : SgrDetails} (hw : Wf k p) (hk : k = .sgr) (hq : sgrDetails k p = .ok q) (st : Style) :
    applySgr q.opening st = copied p st := by
  unfold sgrDetails at hq
  rw [if_pos hk] at hq
  obtain ⟨h, -⟩ := setDetails_items (hw.params_lt hk) hq
  rw [h, harmless_copies]; rfl

theorem labelStyle_ink {s : Settings} {k : Kind} {p : Bytes} {q : SgrDetails} (hw : Wf k p) (hq : sgrDetails k p = .ok q) :
    applySgr (labelStyle s k q) {} = markerInk s k p := by
  unfold labelStyle markerInk
  by_cases h : k = .sgr ∧ s.colorMarkers = true
  · rw [if_pos h, if_pos h, opening_copied hw h.1 hq]
  · rw [if_neg h, if_neg h, kindStyle_ink]

theorem detailStyle_ink {s : Settings} {k : Kind} {p : Bytes} {q : SgrDetails} (hw : Wf k p) (he : isEscKind k = true) (hq : sgrDetails k p = .ok q) :
    applySgr (detailStyle s k q) {} = escInk s k p := by
  unfold detailStyle escInk
  by_cases h : k = .sgr
  · rw [if_pos h, if_pos h]
    by_cases hc : s.colorMarkers = true
    · rw [if_pos hc, if_pos hc]
      have h0 : Styles [48, 5, 16, 4] [.bg, .underline] := .cons (.bgIndexed 16) (.cons (.underline 4 (.inl rfl)) .nil)
      have := C42_add h0 q.opening {}
      unfold Sgr.add at this
      rw [this, opening_copied hw h hq]; rfl
    · rw [if_neg hc, if_neg hc]; rfl
  · rw [if_neg h, if_neg h]
    cases k <;> first | (cases he; done) | rfl

/-! ### Segments in text mode -/

/-- What appears for a segment. -/
def inkOf (g : Segment) : List (Char × Style) := appears (fmtBlock segProcessed g)

/-- What appears for some segments. -/
def inksOf (gs : List Segment) : List (Char × Style) := gs.flatMap inkOf

theorem inksOf_append (a b : List Segment) : inksOf (a ++ b) = inksOf a ++ inksOf b := by simp [inksOf]

theorem inksOf_cons (g : Segment) (gs : List Segment) : inksOf (g :: gs) = inkOf g ++ inksOf gs := rfl

theorem inksOf_nil : inksOf [] = [] := rfl

theorem ink_shows {g : Segment} {b : Style} {v : List (Char × Style)} (ho : Stylish g.opening)
    (h : Shows (applySgr g.opening {}) g.processed b v) (hb : applySgr (Sgr.closing g.opening) b = {}) : inkOf g = v :=
  (shows_fmt ho h hb).appears

theorem ink_plain {g : Segment} (ho : Stylish g.opening) (he : '\x1b' ∉ g.processed) : inkOf g = inStyle (applySgr g.opening {}) g.processed :=
  ink_shows ho (Shows.text _ he) (closing_opening ho)

theorem TextSeg.ink {k : Kind} {g : Segment} (h : TextSeg k g) :
    Shows {} (fmtBlock segProcessed g) {} (inkOf g) ∧ (inkOf g).map Prod.fst = stripSgr g.processed := by
  obtain ⟨v, h1, h2⟩ := h.strip
  have : inkOf g = v := h1.appears
  rw [this]; exact ⟨h1, h2⟩

theorem inks_shows {gs : List Segment} (h : ∀ g ∈ gs, ∃ k, TextSeg k g) :
    Shows {} (gs.flatMap (fmtBlock segProcessed)) {} (inksOf gs) ∧ (inksOf gs).map Prod.fst = plainOf gs := by
  induction gs with
  | nil => exact ⟨.nil _, rfl⟩
  | cons g gs ih =>
    obtain ⟨k, hk⟩ := h g (by simp)
    obtain ⟨h1, h2⟩ := hk.ink
    obtain ⟨h3, h4⟩ := ih fun g hg => h g (by simp [hg])
    exact ⟨by rw [List.flatMap_cons]; exact h1.append h3, by rw [inksOf_cons, List.map_append, h2, h4]; rfl⟩

theorem namesLayout_ink (st : Style) (ns : List Str) : namesLayout st ns = dottedInk st ns := by
  induction ns with
  | nil => rfl
  | cons x r ih =>
    cases r with
    | nil => rfl
    | cons y r => rw [namesLayout, ih]; rfl

theorem sep_ink (c : Char) (h : '\x1b' ∉ [c]) : inkOf (sepSegment c) = [(c, { fg := .indexed 255 })] :=
  ink_plain (g := sepSegment c) (Stylish.code (.fgIndexed 255)) h

theorem escDetail_noEsc {lv : Nat} {k : Kind} {p : Bytes} (hw : Wf k p) (he : isEscKind k = true) (h : ¬(lv = 1 ∧ k = .sgr)) :
    '\x1b' ∉ escDetail lv k p := by
  obtain ⟨t, rfl, -, ht⟩ := hw.esc_form he
  unfold escDetail
  by_cases h0 : lv = 0
  · rw [if_pos h0]; simp
  rw [if_neg h0]
  by_cases h1 : lv = 1
  · rw [if_pos h1, if_neg fun hk => h ⟨h1, hk⟩]; simp
  · rw [if_neg h1]
    refine plain_noEsc fun c hc => ?_
    obtain ⟨b, hb, rfl⟩ := List.mem_map.1 hc
    exact ascii_plain (ht b (by simpa using hb))

theorem escBody_ink {s : Settings} (hr : s.readMode.1 = .text) {k : Kind} {p : Bytes} {q : SgrDetails} (hw : Wf k p) (hk : isEscKind k = true)
    (hi : displayOf s k ≠ .ignored) (hq : sgrDetails k p = .ok q) (hst : ∀ g ∈ escBody s k p q, Stylish g.opening) :
    inksOf (escBody s k p q) = (symbol k, markerInk s k p) :: escDetailInk s k p := by
  obtain ⟨t, ep, hne, ht⟩ := hw.esc_form hk
  have hsym : kindText k (displayOf s k) .text = [symbol k] := by
    rw [kindText_symbol k hi (by rintro rfl; cases hk) (by rintro rfl; cases hk)]
    cases k <;> first | (cases hk; done) | rfl
  have hlab : ((p.take 1).flatMap fun _ => kindText k (displayOf s k) s.readMode.1) = [symbol k] := by
    rw [ep, hr, hsym]; rfl
  have hlv := level_details hr
  have hA : ∀ l r, Stylish (labelStyle s k q) → inkOf ⟨labelStyle s k q, l, r, [symbol k]⟩ = [(symbol k, markerInk s k p)] := by
    intro l r h
    rw [ink_plain h (symbol_noEsc k)]
    show inStyle (applySgr (labelStyle s k q) {}) [symbol k] = _
    rw [labelStyle_ink hw hq]; rfl
  unfold escBody at hst ⊢
  rw [hlab] at hst ⊢
  rw [inksOf_cons, hA _ _ (hst _ List.mem_cons_self)]
  rw [List.singleton_append]
  congr 1
  by_cases h0 : level s = 0
  · rw [if_pos (show detailsOf s = .noDetails by rw [hlv, if_pos h0])]
    unfold escDetailInk escDetail
    rw [if_neg (by omega), if_pos h0]; rfl
  · have hd : detailsOf s ≠ .noDetails := by rw [hlv, if_neg h0]; split <;> simp
    rw [if_neg hd] at hst ⊢
    have hst' := hst _ (List.mem_cons_of_mem _ (List.mem_singleton.2 rfl))
    rw [inksOf_cons, inksOf_nil, List.append_nil]
    by_cases hs : level s = 1 ∧ k = .sgr
    · unfold escDetailInk
      rw [if_pos hs]
      have hbr : detailsOf s = .brief := by rw [hlv, if_neg h0, if_pos hs.1]
      simp only [if_pos hbr, if_pos hs.2] at hst' ⊢
      have hq' := hq
      unfold sgrDetails at hq'
      rw [if_pos hs.2] at hq'
      obtain ⟨-, hb⟩ := setDetails_items (hw.params_lt hs.2) hq'
      have hnames : ∀ x ∈ (sgrItems (numbers (csiParams p))).map SgrItem.name, '\x1b' ∉ x := by
        intro x hx
        have e : (pcodesLoop (numbers (csiParams p)).length (numbers (csiParams p))).2 = (sgrItems (numbers (csiParams p))).map SgrItem.name := by
          rw [pcodesLoop_items _ _ (Nat.le_refl _)]
        rw [← e] at hx
        exact plain_noEsc (pcodesLoop_names _ _ x hx)
      have hgood : GoodDetails q := by
        have := detailsFn_good (k, p)
        unfold detailsFn at this
        simp only [hq] at this
        exact this
      have hst2 := hs.2
      have hu : (applySgr (detailStyle s k q) {}).underline = 1 := by rw [hst2]; exact detailStyle_underline s q hgood
      have hsh := shows_names _ hu _ hnames
      rw [← hb] at hsh
      rw [ink_shows (g := ⟨detailStyle s k q, ['*'], p.drop 1, q.brief⟩) hst' hsh (closing_opening hst'), namesLayout_ink, detailStyle_ink hw hk hq]
    · unfold escDetailInk
      rw [if_neg hs]
      have hno := escDetail_noEsc hw hk hs
      have htext : (if detailsOf s = .brief then (if k = .sgr then q.brief else []) else decodeAscii (p.drop 1)) = escDetail (level s) k p := by
        unfold escDetail
        rw [if_neg h0, hlv, if_neg h0]
        by_cases h1 : level s = 1
        · have hks : k ≠ .sgr := fun h => hs ⟨h1, h⟩
          rw [if_pos h1, if_pos rfl, if_pos h1, if_neg hks, if_neg hks]
        · rw [if_neg h1, if_neg (by simp), if_neg h1, ep]
          simp only [List.drop_succ_cons, List.drop_zero]
          rw [decodeAscii_eq ht]; rfl
      rw [htext] at hst' ⊢
      rw [ink_plain hst' hno]
      show inStyle (applySgr (detailStyle s k q) {}) _ = _
      rw [detailStyle_ink hw hk hq]

/-- The segments of a piece appear as described. -/
theorem segsOf_ink {s : Settings} (hr : s.readMode.1 = .text) {q : Kind × Bytes} (hw : Wf q.1 q.2) (hb : badPiece q = false) :
    inksOf (segsOf s q) = textInk s q := by
  have htext := segsOf_text hr hw
  obtain ⟨-, -, -, -, -, -, hgl, -⟩ := segsOf_glyphs hr hw hb
  obtain ⟨k, p⟩ := q
  simp only at hw hgl htext
  obtain ⟨d, hd⟩ : ∃ d, sgrDetails k p = .ok d := by
    unfold badPiece at hb
    cases h : sgrDetails k p with
    | error e => simp only [h] at hb; cases hb
    | ok d => exact ⟨d, rfl⟩
  have hseg : segsOf s (k, p) = segmentsOf s k p d := by
    unfold segsOf detailsFn; simp only; rw [hd]
  rw [hseg] at htext hgl ⊢
  have hig := displayOf_ignored s k
  unfold segmentsOf at htext hgl ⊢
  by_cases he : isEscKind k = true ∧ displayOf s k ≠ .ignored
  · rw [if_pos he] at htext ⊢
    have hni : s.ignore (classOfKind k) ≠ true := fun h => he.2 (hig.2 h)
    have e : textInk s (k, p) = (if enclosed s then
        ('⢸', { fg := .indexed 255 }) :: (symbol k, markerInk s k p) :: (escDetailInk s k p ++ [('⡇', { fg := .indexed 255 })])
      else (symbol k, markerInk s k p) :: escDetailInk s k p) := by
      unfold textInk
      rw [if_neg hni]
      have := he.1
      cases k <;> first | (cases this; done) | rfl
    have hcond : (s.readMode.1 = .text ∧ s.noSeparators = false ∧ (detailsOf s = .brief ∨ detailsOf s = .full)) ↔ enclosed s = true := by
      have hlv := level_details hr
      unfold enclosed
      rw [hlv]
      by_cases h0 : level s = 0
      · simp [h0]
      · by_cases h1 : level s = 1
        · simp [h0, h1, hr]
        · simp [h0, h1, hr]
    have hbody : ∀ g ∈ escBody s k p d, Stylish g.opening := by
      intro g hg
      refine (htext g ?_).style
      unfold escSegments
      split
      · simp [hg]
      · exact hg
    have hB := escBody_ink hr hw he.1 he.2 hd hbody
    rw [e]
    unfold escSegments
    by_cases hen : enclosed s = true
    · rw [if_pos (hcond.2 hen), if_pos hen, inksOf_cons, inksOf_append, hB, sep_ink _ (by decide), inksOf_cons, sep_ink _ (by decide)]
      rfl
    · rw [if_neg (fun h => hen (hcond.1 h)), if_neg hen, hB]
  rw [if_neg he] at htext hgl ⊢
  have hlv := level_details hr
  by_cases hc : k = .ctrl ∧ (detailsOf s = .brief ∨ detailsOf s = .full)
  · rw [if_pos hc] at htext ⊢
    obtain ⟨rfl, hdd⟩ := hc
    have h0 : level s ≠ 0 := by
      intro h; rw [hlv, if_pos h] at hdd; simp at hdd
    have hall : ∀ b ∈ p, isCtrl b = true := hw.run_all (q := isCtrl) rfl
    have hmap : ∀ f : Byte → List (Char × Style), (∀ b ∈ p, inksOf (ctrlSegments s b) = f b) → inksOf (p.flatMap (ctrlSegments s)) = p.flatMap f := by
      intro f hf
      clear htext hw hgl hall hb hd hseg he
      induction p with
      | nil => rfl
      | cons b p ih => rw [List.flatMap_cons, inksOf_append, hf b (by simp), ih fun b hb => hf b (by simp [hb])]; rfl
    by_cases hi : displayOf s .ctrl = .ignored
    · rw [hmap (fun _ => [('×', dimGrey)])]
      · unfold textInk
        rw [if_pos (hig.1 hi)]
        simp [inStyle, flatMap_single]
      · intro b hbm
        have e : ctrlSegments s b = [⟨kindStyle .ctrl .ignored, ['C'], List.replicate b.toNat 0, ['×']⟩] := by
          unfold ctrlSegments ctrlDetails
          rw [if_pos hi, hi]; rfl
        have hst := (htext _ (List.mem_flatMap.2 ⟨b, hbm, by rw [e]; exact List.mem_singleton.2 rfl⟩)).style
        rw [e, inksOf_cons, ink_plain hst (show '\x1b' ∉ ['×'] by decide)]
        rfl
    · have hni : s.ignore (classOfKind .ctrl) ≠ true := fun h => hi (hig.2 h)
      rw [hmap (fun b => ('Ɐ', kindInk s .ctrl) :: inStyle { fg := .basic 31, bg := .indexed 16, underline := 1 } (ctrlDetail (level s) b))]
      · unfold textInk
        rw [if_neg hni]
      · intro b hbm
        obtain ⟨g, d', h1, -, -, h4, h5, -⟩ := ctrl_plain hr (hall b hbm) hi h0
        have h1' := h1
        unfold ctrlSegments ctrlDetails at h1
        rw [if_neg hi] at h1
        simp only [List.cons.injEq, and_true] at h1
        obtain ⟨rfl, rfl⟩ := h1
        have hg := htext _ (List.mem_flatMap.2 ⟨b, hbm, by rw [h1']; exact List.mem_cons_self⟩)
        have hd' := htext _ (List.mem_flatMap.2 ⟨b, hbm, by rw [h1']; exact List.mem_cons_of_mem _ (List.mem_singleton.2 rfl)⟩)
        have n1 : '\x1b' ∉ kindText .ctrl (displayOf s .ctrl) s.readMode.1 := by
          rw [hr, kindText_symbol _ hi (by simp) (by simp)]; exact symbol_noEsc .ctrl
        have n2 : '\x1b' ∉ (if detailsOf s = .brief then [(Template.briefLabel b.toNat).getD ' '] else hexPad 2 b.toNat) := by
          split
          · rw [briefLabel_caret (hall b hbm)]
            have : ∀ n : Fin 32, '\x1b' ∉ [(some (Char.ofNat (n.1 + 0x40))).getD ' '] := by decide
            exact this ⟨b.toNat, (isCtrl_lt (hall b hbm)).1⟩
          · exact plain_noEsc (hexPad_plain _ _)
        simp only at h4 h5
        rw [strip_plain n1] at h4
        rw [strip_plain n2] at h5
        rw [h1', inksOf_cons, inksOf_cons, ink_plain hg.style n1, ink_plain hd'.style n2]
        simp only [h4, h5, kindStyle_ink]
        simp [inStyle, inksOf_nil, symbol]
        intro a _
        rfl
  · rw [if_neg hc] at htext hgl ⊢
    have ht := htext _ (List.mem_singleton.2 rfl)
    rw [inksOf_cons, inksOf_nil, List.append_nil]
    by_cases hn : k = .newline
    · subst hn
      have hp := hw.newline_eq
      subst hp
      by_cases hi : displayOf s .newline = .ignored
      · have hx : pieceText s .newline [0x0a] = ['×', '\n'] := by unfold pieceText; rw [if_pos hi, if_pos ⟨rfl, hr⟩]
        rw [hx] at ht ⊢
        rw [ink_plain ht.style (show '\x1b' ∉ ['×', '\n'] by decide)]
        simp only [kindStyle_ink]
        unfold textInk kindInk
        rw [if_pos (hig.1 hi), if_pos (hig.1 hi)]; rfl
      · have hx : pieceText s .newline [0x0a] = '↵' :: (Sgr.assemble [0] ++ ['\n']) := by
          unfold pieceText; rw [if_neg hi]; simp only; rw [if_pos hr]
        rw [hx] at ht ⊢
        have hs : ∀ st, Shows st ('↵' :: (Sgr.assemble [0] ++ ['\n'])) {} [('↵', st), ('\n', ({} : Style))] := fun st =>
          (Shows.text st (s := ['↵']) (by decide)).append ((Shows.sgr st [0]).append (Shows.text {} (s := ['\n']) (by decide)))
        rw [ink_shows ht.style (hs _) (closing_empty ht.style)]
        simp only [kindStyle_ink]
        unfold textInk
        rw [if_neg fun h => hi (hig.2 h)]
    · obtain ⟨hne, -⟩ := pieceText_text hr hw hn
      have hpt : pieceText s k p = textGlyphs s k p := by
        rw [if_neg hn, List.append_nil] at hgl
        rw [← hgl]
        show _ = stripSgr (pieceText s k p) ++ []
        rw [strip_plain hne, List.append_nil]
      rw [ink_plain ht.style hne]
      simp only [kindStyle_ink, hpt]
      unfold textInk
      cases hi : s.ignore (classOfKind k) with
      | true =>
        rw [if_pos rfl, if_neg hn, List.append_nil]
        unfold kindInk textGlyphs
        rw [if_pos hi, if_pos hi]
      | false =>
        rw [if_neg (by simp)]
        have hnot : isEscKind k = false := by
          cases hk : isEscKind k with
          | false => rfl
          | true => exact absurd ⟨hk, fun h => by rw [hig.1 h] at hi; cases hi⟩ he
        cases k with
        | newline => exact absurd rfl hn
        | ctrl =>
          have h0 : level s = 0 := by
            refine Classical.byContradiction fun h0 => hc ⟨rfl, ?_⟩
            rw [hlv, if_neg h0]; split <;> simp
          unfold textGlyphs ctrlDetail
          rw [if_neg (by rw [hi]; simp)]
          simp only [h0, if_true]
          simp [inStyle, flatMap_single, symbol]
        | reset => cases hnot
        | sgr => cases hnot
        | csi => cases hnot
        | nF => cases hnot
        | fp => cases hnot
        | fe => cases hnot
        | fs => cases hnot
        | _ => rfl

/-! ### Lines -/

theorem labelInk_shows (s : Settings) (n : Nat) : Shows {} (Console.linePrefix s n) {} (labelInk s n) := by
  have hsp : ∀ t : Str, (∀ c ∈ t, isControlChar c = false) → Shows {} (span [32] t) {} (inStyle (applySgr [32] {}) t) := fun t ht =>
    Shows.span (Stylish.code (.fg 32 (by decide))) (plain_noEsc ht)
  have hsep := shows_separator s
  unfold Console.linePrefix labelInk
  by_cases hd : s.debug ≠ 0
  · rw [if_pos hd]
    simp only
    rw [if_pos hd]
    unfold Console.formatPrefix
    have ht : ∀ c ∈ alignRight 8 ((dec n).take 8), isControlChar c = false :=
      rjust_plain (by decide) fun c hc => dec_plain n c (List.mem_of_mem_take hc)
    have hx : 'x' ∉ alignRight 8 ((dec n).take 8) := by
      intro hm
      rcases List.mem_append.1 hm with hm | hm
      · exact absurd (List.mem_replicate.1 hm).2 (by decide)
      · exact absurd (dec_digit (List.mem_of_mem_take hm)) (by decide)
    rw [dim0x_noX]
    · exact (hsp _ ht).append hsep
    · simp only [List.mem_append, not_or, span]
      refine ⟨⟨⟨by decide, hx⟩, by decide⟩, ?_⟩
      unfold Console.separator
      split <;> decide
  · rw [if_neg hd]
    simp only
    rw [if_neg hd]
    split
    · exact .nil _
    · have ht : ∀ c ∈ alignRight 2 (dec n), isControlChar c = false := rjust_plain (by decide) (dec_plain n)
      exact (hsp _ ht).append hsep

/-- What appears for the segments of a line. -/
def lineInk (gs : List Segment) : List (Char × Style) :=
  inksOf gs ++ (if TextFormatter.endsWithNewline (plainOf gs) then [] else [('\n', ({} : Style))])

theorem lineText_shows {s : Settings} (n : Nat) {gs : List Segment} (h : ∀ g ∈ gs, ∃ k, TextSeg k g) :
    Shows {} (lineText s n gs) {} (labelInk s n ++ lineInk gs) := by
  obtain ⟨h1, h2⟩ := inks_shows h
  have h3 := labelInk_shows s n
  have hst : stripSgr (gs.flatMap (fmtBlock segProcessed)) = plainOf gs := by rw [h1.strip, h2]
  unfold lineText lineInk
  simp only
  rw [hst, ← List.append_assoc]
  split
  · rw [List.append_nil, List.append_nil]; exact h3.append h1
  · exact (h3.append h1).append (Shows.text {} (s := ['\n']) (by decide))

theorem linesText_shows {s : Settings} (n : Nat) {Ls : List (List Segment)} (h : ∀ l ∈ Ls, ∀ g ∈ l, ∃ k, TextSeg k g) :
    Shows {} (linesText s n Ls) {} ((Ls.map lineInk).mapIdx fun i v => labelInk s (n + i) ++ v).flatten := by
  induction Ls generalizing n with
  | nil => exact .nil _
  | cons l Ls ih =>
    have h1 := lineText_shows (s := s) n (h l (by simp))
    have h2 := ih (n + 1) fun l hl => h l (by simp [hl])
    have := h1.append h2
    rw [linesText]
    convert this using 1
    rw [List.map_cons, List.mapIdx_cons, List.flatten_cons]
    simp only [Nat.add_zero]
    congr 2
    congr 1
    funext i v
    rw [Nat.add_assoc, Nat.add_comm 1 i]

theorem segs_ink {s : Settings} (hr : s.readMode.1 = .text) {qs : List (Kind × Bytes)} (hg : GoodPieces qs) :
    inksOf (qs.flatMap (segsOf s)) = qs.flatMap (textInk s) := by
  induction qs with
  | nil => rfl
  | cons q qs ih =>
    have hq := hg q (by simp)
    rw [List.flatMap_cons, inksOf_append, segsOf_ink hr hq.1 hq.2, ih fun q hq => hg q (by simp [hq])]
    rfl

theorem full_ink {s : Settings} (hr : s.readMode.1 = .text) {l : List (Kind × Bytes)} (hg : GoodPieces l)
    (hl : ∃ x q, l = x ++ [q] ∧ (∀ y ∈ x, y.1 ≠ .newline) ∧ q.1 = .newline) :
    lineInk (l.flatMap (segsOf s)) = l.flatMap (textInk s) := by
  obtain ⟨-, -, h⟩ := full_lines hr hg hl
  unfold lineInk
  rw [h, segs_ink hr hg, if_pos, List.append_nil]
  unfold TextFormatter.endsWithNewline
  rw [List.getLast?_concat]; rfl

/-- The incomplete line. -/
theorem rest_ink {s : Settings} (hr : s.readMode.1 = .text) {qs : List (Kind × Bytes)} (hg : GoodPieces qs) (hn : ∀ y ∈ qs, y.1 ≠ .newline)
    {as bs : List Segment} (e : as ++ bs = qs.flatMap (segsOf s)) (hb : ∀ g ∈ bs, g.raw = [])
    (ha : as = [] ∨ ∃ x g, as = x ++ [g] ∧ g.raw ≠ []) :
    lineInk as = (qs.flatMap (textInk s)).take ((qs.flatMap (textInk s)).length - lostAt s qs) ++ [('\n', ({} : Style))] := by
  obtain ⟨r1, r2⟩ := rest_glyphs hr hg hn e hb ha
  have htx : ∀ g ∈ qs.flatMap (segsOf s), ∃ k, TextSeg k g := segs_text hr hg
  have ha' := (inks_shows (gs := as) fun g hgm => htx g (by rw [← e]; simp [hgm])).2
  have hall := (inks_shows htx).2
  have hall2 := segs_ink hr hg
  rw [flatMap_glyphs hr hg hn] at hall
  have hlen : (qs.flatMap (textInk s)).length = (glyphsAll s qs).length := by
    rw [← hall2, ← hall, List.length_map]
  have hlen' : (inksOf as).length = (glyphsAll s qs).length - lostAt s qs := by
    have := congrArg List.length ha'
    rw [r2, List.length_map, List.length_take] at this
    omega
  unfold lineInk
  have hno : '\n' ∉ plainOf as := by
    rw [r2]
    intro h
    exact glyphsAll_noNl hr hg (List.mem_of_mem_take h)
  rw [if_neg (by
    unfold TextFormatter.endsWithNewline
    simp only [beq_iff_eq]
    intro hl
    exact hno (List.mem_of_getLast? hl))]
  congr 1
  rw [hlen, ← hlen', ← hall2, ← e, inksOf_append, List.take_left]

/-- A complete run in text mode. -/
theorem inkComplete {s : Settings} (hm : s.readMode.1 = .text) (term : Nat → Int) {es : List ReadEvent} (hco : Complete es) (hr : Readable es)
    {fuel : Nat} (hf : 4 * (delivered es).length < fuel) :
    ∃ out st, session fuel s term es = ⟨out, .ok st⟩ ∧
      Shows {} out {} (inkLines (labelInk s) (textInk s) (lostAt s) (runPieces es)).flatten := by
  have hg := runPieces_good hr
  have hlen := segs_length s (qs := runPieces es) fun q hq => (hg q hq).1
  rw [runPieces_bytes, ← allSegs_pieces] at hlen
  have hb := readable_any hr
  obtain ⟨a, e, rfl, he, ha⟩ := hco
  obtain ⟨st, Ls, as, bs, hc, e1, e2, e3⟩ := textRun_all hm (term := term) a (fun x hx => ⟨ha x hx, hb x (by simp [hx])⟩) e he (hb e (by simp)) (fuel := fuel) (by omega)
  rw [allSegs_pieces] at hc
  obtain ⟨c1, c2⟩ := pieceSegs_cut hm hg hc
  obtain ⟨p1, p2, p3⟩ := pieceLines_spec (runPieces (a ++ [e]))
  obtain ⟨g1, g2⟩ := pieceLines_good hg
  obtain ⟨r1, r2⟩ := rest_glyphs hm g2 p3 c2 hc.empty hc.last
  have r3 := rest_ink hm g2 p3 c2 hc.empty hc.last
  have hpr : printed true Ls as = (pieceLines (runPieces (a ++ [e]))).1.map (fun l => l.flatMap (segsOf s)) ++
      (if (pieceLines (runPieces (a ++ [e]))).2 = [] then [] else [as]) := by
    unfold printed
    by_cases h : as = []
    · rw [if_neg (by simp [h]), if_pos (r1.1 h), c1, List.append_nil]
    · rw [if_pos ⟨rfl, h⟩, if_neg (fun h' => h (r1.2 h')), c1]
  have hsh := linesText_shows (s := s) 1 (Ls := printed true Ls as) (by
    rw [hpr]
    intro l hl g hgl
    rcases List.mem_append.1 hl with hl | hl
    · obtain ⟨l', hl', rfl⟩ := List.mem_map.1 hl
      exact segs_text hm (g1 l' hl') g hgl
    · split at hl
      · cases hl
      · rw [List.mem_singleton.1 hl] at hgl
        exact segs_text hm g2 g (by rw [← c2]; simp [hgl]))
  refine ⟨_, st, e1, ?_⟩
  convert hsh using 1
  unfold inkLines
  simp only
  congr 1
  have hbody : (printed true Ls as).map lineInk = (pieceLines (runPieces (a ++ [e]))).1.map (fun l => l.flatMap (textInk s)) ++
      (if (pieceLines (runPieces (a ++ [e]))).2 = [] then [] else
        [((pieceLines (runPieces (a ++ [e]))).2.flatMap (textInk s)).take (((pieceLines (runPieces (a ++ [e]))).2.flatMap (textInk s)).length -
          lostAt s (pieceLines (runPieces (a ++ [e]))).2) ++ [('\n', ({} : Style))]]) := by
    rw [hpr, List.map_append, List.map_map]
    congr 1
    · apply List.map_congr_left
      intro l hl
      exact full_ink hm (g1 l hl) (p2 l hl)
    · split
      · rfl
      · rw [List.map_singleton, r3]
  rw [hbody]
  congr 1
  funext i v
  rw [Nat.add_comm]

/-! ### Binary mode -/

theorem cellsOf_shown {g : Segment} (h : g.raw.length = g.processed.length) :
    (cellsOf g).map Cell.shown = inStyle (applySgr g.opening {}) g.processed := by
  have := cellsOf_char h
  unfold cellsOf at this ⊢
  rw [List.map_map] at this ⊢
  conv => rhs; rw [← this]
  unfold inStyle
  rw [List.map_map]
  rfl

theorem segsOf_binInk {s : Settings} (hr : s.readMode.1 = .binary) {q : Kind × Bytes} (hw : Wf q.1 q.2) (hb : badPiece q = false) :
    (segsOf s q).flatMap (fun g => inStyle (applySgr g.opening {}) g.processed) = binInk s q := by
  have hgl := segsOf_binGlyphs hr hw
  obtain ⟨k, p⟩ := q
  simp only at hw hgl ⊢
  obtain ⟨d, hd⟩ : ∃ d, sgrDetails k p = .ok d := by
    unfold badPiece at hb
    cases h : sgrDetails k p with
    | error e => simp only [h] at hb; cases hb
    | ok d => exact ⟨d, rfl⟩
  have hseg : segsOf s (k, p) = segmentsOf s k p d := by
    unfold segsOf detailsFn; simp only; rw [hd]
  rw [hseg] at hgl ⊢
  have hig := displayOf_ignored s k
  have hdb := details_binary hr
  unfold segmentsOf at hgl ⊢
  by_cases he : isEscKind k = true ∧ displayOf s k ≠ .ignored
  · rw [if_pos he]
    unfold escSegments
    rw [if_neg (by rw [hr]; simp)]
    unfold escBody
    have hl := labelStyle_ink (s := s) hw hd
    have hdt := detailStyle_ink (s := s) hw he.1 hd
    obtain ⟨t, rfl, hne, ht⟩ := hw.esc_form he.1
    rw [if_neg (by rw [hdb]; simp), if_neg (by rw [hdb]; simp), hr]
    have hsym : kindText k (displayOf s k) .binary = [symbol k] := by
      rw [kindText_symbol_binary k he.2 (by rintro rfl; cases he.1) (by rintro rfl; cases he.1) (by rintro rfl; cases he.1),
        if_neg (by rintro ⟨rfl, -⟩; cases he.1)]
    rw [hsym]
    simp only [List.take_succ_cons, List.take_zero, List.drop_succ_cons, List.drop_zero, List.flatMap_cons, List.flatMap_nil, List.append_nil]
    rw [decodeAscii_eq ht, hl, hdt]
    unfold binInk
    rw [if_neg fun h => he.2 (hig.2 h)]
    have := he.1
    cases k <;> first | (cases this; done) | rfl
  · rw [if_neg he, if_neg (by rw [hdb]; simp)] at hgl ⊢
    simp only [List.flatMap_cons, List.flatMap_nil, List.append_nil] at hgl ⊢
    rw [hgl, kindStyle_ink]
    unfold binInk
    cases hi : s.ignore (classOfKind k) with
    | true =>
      rw [if_pos rfl]
      unfold kindInk binGlyphs
      rw [if_pos hi, if_pos hi]
    | false =>
      rw [if_neg (by simp)]
      have hnot : isEscKind k = false := by
        cases hk : isEscKind k with
        | false => rfl
        | true => exact absurd ⟨hk, fun h => by rw [hig.1 h] at hi; cases hi⟩ he
      cases k <;> first | (cases hnot; done) | rfl

/-- The characters of the cells of a run with their styles. -/
theorem allCells_shown {s : Settings} (hm : s.readMode.1 = .binary) {es : List ReadEvent} (hr : Readable es) :
    (allCells s es).map Cell.shown = (runPieces es).flatMap (binInk s) := by
  have hgood := runPieces_good hr
  have hseg : ∀ gs : List Segment, (∀ g ∈ gs, ∃ k, BinSeg k g) →
      (queueCells gs).map Cell.shown = gs.flatMap fun g => inStyle (applySgr g.opening {}) g.processed := by
    intro gs
    induction gs with
    | nil => intro _; rfl
    | cons g gs ih =>
      intro h
      obtain ⟨k, hk⟩ := h g (by simp)
      rw [queueCells_cons, List.map_append, cellsOf_shown hk.len, ih fun g hg => h g (by simp [hg])]
      rfl
  have hp : ∀ qs : List (Kind × Bytes), GoodPieces qs →
      (qs.flatMap (segsOf s)).flatMap (fun g => inStyle (applySgr g.opening {}) g.processed) = qs.flatMap (binInk s) := by
    intro qs
    induction qs with
    | nil => intro _; rfl
    | cons q qs ih =>
      intro hw
      rw [List.flatMap_cons, List.flatMap_append, ih fun q hq => hw q (by simp [hq]), segsOf_binInk hm (hw q (by simp)).1 (hw q (by simp)).2]
      rfl
  have hall : ∀ es : List ReadEvent, GoodPieces (runPieces es) → (allCells s es).map Cell.shown = (runPieces es).flatMap (binInk s) := by
    intro es
    induction es with
    | nil => intro _; rfl
    | cons e es ih =>
      intro hg
      have e1 : runPieces (e :: es) = pieces e.data ++ runPieces es := by simp [runPieces, chunkPieces]
      have e2 : allCells s (e :: es) = chunkCells s e.data ++ allCells s es := by simp [allCells]
      rw [e1] at hg ⊢
      rw [e2, List.map_append, ih fun q hq => hg q (by simp [hq]), List.flatMap_append]
      congr 1
      unfold chunkCells
      rw [hseg _ (chunkSegs_binary hm _)]
      exact hp _ fun q hq => hg q (by simp [hq])
  exact hall es hgood

end Kolombos
