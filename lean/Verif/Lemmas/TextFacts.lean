import Verif.Lemmas.BinFmt
/-
The segments of text mode.
-/
set_option linter.unusedSimpArgs false

namespace Kolombos
open Spec

/-! ### Closing sequences -/

theorem closing_default {o : Sgr} {gs : List Group} (h : Styles o gs) {b : Style} (hb : ∀ g, g ∉ gs → sameOn g b {}) :
    applySgr (Sgr.closing o) b = {} := by
  apply sameOn_all
  intro g
  obtain ⟨h1, h2⟩ := C42_closing h b g
  by_cases hg : g ∈ gs
  · exact h1 hg
  · exact sameOn_trans (h2 hg) (hb g hg)

theorem closing_opening {o : Sgr} (h : Stylish o) : applySgr (Sgr.closing o) (applySgr o {}) = {} := by
  obtain ⟨gs, h⟩ := h
  exact closing_default h fun g hg => applySgr_styles h {} g hg

theorem closing_empty {o : Sgr} (h : Stylish o) : applySgr (Sgr.closing o) {} = {} := by
  obtain ⟨gs, h⟩ := h
  exact closing_default h fun g _ => sameOn_refl g _

/-- A segment with style changes inside. -/
theorem shows_fmt {g : Segment} {b : Style} {v : List (Char × Style)} (ho : Stylish g.opening)
    (h : Shows (applySgr g.opening {}) g.processed b v) (hb : applySgr (Sgr.closing g.opening) b = {}) :
    Shows {} (fmtBlock segProcessed g) {} v := by
  rw [fmtBlock_span ho]
  have := ((Shows.sgr {} g.opening).append h).append (Shows.sgr b (Sgr.closing g.opening))
  rw [hb] at this
  simpa [span, segProcessed] using this

/-! ### Details of SGR sequences -/

/-- Groups that a copied style can belong to. -/
def harmlessGroup : Group → Bool
  | .intensity | .italic | .crossed | .overlined | .fg | .bg => true
  | _ => false

theorem pcodesLoop_styles (n : Nat) (ps : List Nat) :
    ∃ gs, Styles (pcodesLoop n ps).1 gs ∧ ∀ g ∈ gs, harmlessGroup g = true := by
  induction n generalizing ps with
  | zero => exact ⟨[], .nil, by simp⟩
  | succ n ih =>
    have cons : ∀ {a : List Nat} {g : Group} {r : List Nat}, StyleCode a g → harmlessGroup g = true →
        ∃ gs, Styles (a ++ (pcodesLoop n r).1) gs ∧ ∀ g ∈ gs, harmlessGroup g = true := by
      intro a g r hc hg
      obtain ⟨gs, h1, h2⟩ := ih r
      refine ⟨g :: gs, .cons hc h1, ?_⟩
      intro x hx
      rcases List.mem_cons.1 hx with rfl | hx
      · exact hg
      · exact h2 x hx
    cases ps with
    | nil => exact ⟨[], .nil, by simp⟩
    | cons p ps =>
      unfold pcodesLoop
      by_cases h : p = 38 ∨ p = 48
      · rw [if_pos h]
        simp only
        split
        · rename_i x r
          rcases h with rfl | rfl
          · exact cons (.fgIndexed x) rfl
          · exact cons (.bgIndexed x) rfl
        · rename_i x y z r
          rcases h with rfl | rfl
          · exact cons (.fgRgb x y z) rfl
          · exact cons (.bgRgb x y z) rfl
        · exact ih ps
      · rw [if_neg h]
        simp only
        split
        · rename_i ha
          simp [allowedSgr] at ha
          by_cases h1 : p = 2
          · exact cons (.intensity p (.inr h1)) rfl
          by_cases h2 : p = 3
          · subst h2; exact cons .italic rfl
          by_cases h3 : p = 53
          · subst h3; exact cons .overlined rfl
          by_cases h4 : p = 9
          · subst h4; exact cons .crossed rfl
          by_cases h5 : (30 ≤ p ∧ p ≤ 37) ∨ (90 ≤ p ∧ p ≤ 97)
          · exact cons (.fg p h5) rfl
          · exact cons (.bg p (by omega)) rfl
        · exact ih ps

theorem isDigit_plain {c : Char} (h : c.isDigit = true) : isControlChar c = false := by
  simp only [Char.isDigit, Bool.and_eq_true, decide_eq_true_eq] at h
  unfold isControlChar
  have h1 : 48 ≤ c.toNat := h.1
  have h2 : c.toNat ≤ 57 := h.2
  simp; omega

theorem dec_plain (n : Nat) : ∀ c ∈ dec n, isControlChar c = false := fun _ hc => isDigit_plain (dec_digit hc)

theorem hexPadUpper_plain (w n : Nat) : ∀ c ∈ hexPadUpper w n, isControlChar c = false := by
  intro c hc
  unfold hexPadUpper at hc
  rcases List.mem_append.1 hc with hc | hc
  · rw [(List.mem_replicate.1 hc).2]; decide
  · obtain ⟨x, hx, rfl⟩ := List.mem_map.1 hc
    obtain ⟨d, hd, rfl⟩ := hex_digits n x hx
    have : ∀ d : Fin 16, isControlChar (hexDigit d.1).toUpper = false := by decide
    exact this ⟨d, hd⟩

theorem hexPad_plain (w n : Nat) : ∀ c ∈ hexPad w n, isControlChar c = false := by
  intro c hc
  obtain ⟨d, hd, rfl⟩ := hexPad_digits w n c hc
  have : ∀ d : Fin 16, isControlChar (hexDigit d.1) = false := by decide
  exact this ⟨d, hd⟩

theorem pcodesLoop_names (n : Nat) (ps : List Nat) :
    ∀ x ∈ (pcodesLoop n ps).2, ∀ c ∈ x, isControlChar c = false := by
  induction n generalizing ps with
  | zero => intro x hx; cases hx
  | succ n ih =>
    cases ps with
    | nil => intro x hx; cases hx
    | cons p ps =>
      have cons : ∀ (y : Str) (r : List Nat), (∀ c ∈ y, isControlChar c = false) → ∀ x ∈ y :: (pcodesLoop n r).2, ∀ c ∈ x, isControlChar c = false := by
        intro y r hy x hx
        rcases List.mem_cons.1 hx with rfl | hx
        · exact hy
        · exact ih r x hx
      have ty : ∀ c, c = (if p = 38 then 'F' else 'B') → isControlChar c = false := by
        rintro c rfl; split <;> decide
      unfold pcodesLoop
      by_cases h : p = 38 ∨ p = 48
      · rw [if_pos h]
        simp only
        split
        · rename_i x r
          refine cons _ r fun c hc => ?_
          rcases List.mem_cons.1 hc with hc | hc
          · exact ty c hc
          · exact dec_plain x c hc
        · rename_i x y z r
          refine cons _ r fun c hc => ?_
          rcases List.mem_cons.1 hc with hc | hc
          · exact ty c hc
          · exact hexPadUpper_plain _ _ c hc
        · exact cons _ ps (dec_plain p)
      · rw [if_neg h]
        simp only
        split
        · exact cons _ ps (dec_plain p)
        · exact cons _ ps (dec_plain p)

theorem plain_noEsc {t : Str} (h : ∀ c ∈ t, isControlChar c = false) : '\x1b' ∉ t := by
  intro hm; exact absurd (h _ hm) (by decide)

theorem plain_noNl {t : Str} (h : ∀ c ∈ t, isControlChar c = false) : '\n' ∉ t := by
  intro hm; exact absurd (h _ hm) (by decide)

/-- Names with their separators. -/
def namesLayout (st : Style) : List Str → List (Char × Style)
  | [] => []
  | [x] => inStyle st x
  | x :: y :: r => inStyle st x ++ ('･', { st with underline := 0 }) :: namesLayout st (y :: r)

theorem shows_names (st : Style) (hu : st.underline = 1) (ns : List Str) (h : ∀ x ∈ ns, '\x1b' ∉ x) :
    Shows st (join briefSeparator ns) st (namesLayout st ns) := by
  induction ns with
  | nil => exact .nil _
  | cons x r ih =>
    cases r with
    | nil => exact .text st (h x (by simp))
    | cons y r =>
      have i := ih fun z hz => h z (by simp [hz])
      have a : Shows st (Sgr.assemble [24]) { st with underline := 0 } [] := Shows.sgr st [24]
      have b : Shows { st with underline := 0 } ['･'] { st with underline := 0 } [('･', { st with underline := 0 })] :=
        Shows.text _ (by decide)
      have c : Shows { st with underline := 0 } (Sgr.assemble [4]) st [] := by
        have := Shows.sgr { st with underline := 0 } [4]
        have e : applySgr [4] { st with underline := 0 } = st := by
          cases st; simp at hu; subst hu; rfl
        rw [e] at this; exact this
      have := ((Shows.text st (h x (by simp))).append ((a.append b).append c)).append i
      simpa [join, briefSeparator, namesLayout] using this

theorem namesLayout_chars (st : Style) (ns : List Str) (h : ∀ x ∈ ns, ∀ c ∈ x, isControlChar c = false) :
    ∀ c ∈ (namesLayout st ns).map Prod.fst, isControlChar c = false := by
  induction ns with
  | nil => intro c hc; cases hc
  | cons x r ih =>
    cases r with
    | nil => intro c hc; rw [namesLayout, inStyle_fst] at hc; exact h x (by simp) c hc
    | cons y r =>
      intro c hc
      rw [namesLayout, List.map_append, inStyle_fst] at hc
      rcases List.mem_append.1 hc with hc | hc
      · exact h x (by simp) c hc
      · rcases List.mem_cons.1 hc with rfl | hc
        · exact (by decide : isControlChar '･' = false)
        · exact ih (fun z hz => h z (by simp [hz])) c hc

/-- What is kept of the parameters, for pieces that are not bad. -/
structure GoodDetails (q : SgrDetails) : Prop where
  style : ∃ gs, Styles q.opening gs ∧ ∀ g ∈ gs, harmlessGroup g = true
  brief : ∃ ns, q.brief = join briefSeparator ns ∧ ∀ x ∈ ns, ∀ c ∈ x, isControlChar c = false

theorem GoodDetails.empty : GoodDetails {} := ⟨⟨[], .nil, by simp⟩, ⟨[], rfl, by simp⟩⟩

theorem detailsFn_good (q : Kind × Bytes) : GoodDetails (detailsFn q) := by
  unfold detailsFn
  cases h : sgrDetails q.1 q.2 with
  | error e => exact .empty
  | ok d =>
    unfold sgrDetails at h
    split at h
    · unfold setDetails at h
      split at h
      · cases h
      · cases h
        exact ⟨pcodesLoop_styles _ _, _, rfl, pcodesLoop_names _ _⟩
    · cases h; exact .empty

/-! ### Segments -/

/-- A segment of text mode: what it shows, its control characters, line feeds. -/
structure TextSeg (k : Kind) (g : Segment) : Prop where
  style : Stylish g.opening
  clean : Clean g.processed
  shows' : ∃ b v, Shows (applySgr g.opening {}) g.processed b v ∧ applySgr (Sgr.closing g.opening) b = {}
  chars : ∀ c ∈ stripSgr g.processed, isControlChar c = true →
    (k = .newline ∧ c = '\n') ∨ (k = .tab ∧ c = '\t') ∨ (k = .utf8 ∧ 0x80 ≤ c.toNat)
  nl : k = .newline → g.raw = [0x0a] ∧ ∃ t, stripSgr g.processed = t ++ ['\n'] ∧ '\n' ∉ t
  newline : g.isNewline = true ↔ k = .newline

theorem strip_plain {t : Str} (h : '\x1b' ∉ t) : stripSgr t = t := by
  have := (Shows.text {} h).strip
  rw [this, inStyle_fst]

/-- Segments without style changes inside. -/
theorem TextSeg.plain {k : Kind} {g : Segment} (ho : Stylish g.opening) (he : '\x1b' ∉ g.processed)
    (hk : k ≠ .newline) (hc : ∀ c ∈ g.processed, isControlChar c = true → (k = .tab ∧ c = '\t') ∨ (k = .utf8 ∧ 0x80 ≤ c.toNat)) :
    TextSeg k g := by
  refine ⟨ho, .text he, ⟨_, _, Shows.text _ he, closing_opening ho⟩, ?_, fun h => absurd h hk, ?_⟩
  · rw [strip_plain he]; intro c h1 h2; exact .inr (hc c h1 h2)
  · refine iff_of_false ?_ hk
    intro h
    unfold Segment.isNewline at h
    rw [List.contains_iff_mem] at h
    rcases hc _ h (by decide) with h | h
    · exact absurd h.2 (by decide)
    · exact absurd h.2 (by decide)

theorem TextSeg.simple {k : Kind} {g : Segment} (ho : Stylish g.opening) (hk : k ≠ .newline)
    (hc : ∀ c ∈ g.processed, isControlChar c = false) : TextSeg k g :=
  .plain ho (plain_noEsc hc) hk fun c h1 h2 => by rw [hc c h1] at h2; cases h2

theorem kindText_tab (d : DisplayMode) : ∀ c ∈ kindText .tab d .text, isControlChar c = true → c = '\t' := by
  cases d <;> decide

theorem pieceText_text {s : Settings} {k : Kind} {p : Bytes} (hr : s.readMode.1 = .text) (hw : Wf k p) (hk : k ≠ .newline) :
    '\x1b' ∉ pieceText s k p ∧
    ∀ c ∈ pieceText s k p, isControlChar c = true → (k = .tab ∧ c = '\t') ∨ (k = .utf8 ∧ 0x80 ≤ c.toNat) := by
  suffices H : ∀ c ∈ pieceText s k p, isControlChar c = true → (k = .tab ∧ c = '\t') ∨ (k = .utf8 ∧ 0x80 ≤ c.toNat) by
    refine ⟨fun hm => ?_, H⟩
    rcases H _ hm (by decide) with h | h
    · exact absurd h.2 (by decide)
    · exact absurd h.2 (by decide)
  intro c hc hcc
  unfold pieceText at hc
  by_cases hi : displayOf s k = .ignored
  · rw [if_pos hi, if_neg (fun h => hk h.1)] at hc
    obtain ⟨b, -, rfl⟩ := List.mem_map.1 hc
    exact absurd hcc (by decide)
  · rw [if_neg hi] at hc
    have gen : c ∈ (p.flatMap fun _ => kindText k (displayOf s k) s.readMode.1) → (k = .tab ∧ c = '\t') ∨ (k = .utf8 ∧ 0x80 ≤ c.toNat) := by
      intro hm
      obtain ⟨b, -, hm⟩ := List.mem_flatMap.1 hm
      by_cases ht : k = .tab
      · subst ht; rw [hr] at hm; exact .inl ⟨rfl, kindText_tab _ c hm hcc⟩
      · have := kindText_plain k (displayOf s k) s.readMode.1 (.inl ht) c hm
        rw [this] at hcc; cases hcc
    cases k with
    | newline => exact absurd rfl hk
    | printable =>
      obtain ⟨b, hb, rfl⟩ := List.mem_map.1 hc
      have hall := hw.run_all (q := isPrintable) rfl b hb
      rw [ascii_plain (between_mono hall (by decide) (by decide))] at hcc
      cases hcc
    | utf8 =>
      obtain ⟨x, hx, rfl⟩ := hw.utf8_eq
      simp only [hr, if_true] at hc
      rw [decodeUtf8_enc] at hc
      rw [List.mem_singleton.1 hc]
      exact .inr ⟨rfl, hx⟩
    | _ => exact gen hc

theorem detailStyle_underline (s : Settings) (q : SgrDetails) (hq : GoodDetails q) :
    (applySgr (detailStyle s .sgr q) {}).underline = 1 := by
  obtain ⟨gs, h1, h2⟩ := hq.style
  unfold detailStyle
  rw [if_pos rfl]
  have h0 : Styles [48, 5, 16, 4] [.bg, .underline] := .cons (.bgIndexed 16) (.cons (.underline 4 (.inl rfl)) .nil)
  split
  · have := C42_add h0 q.opening {}
    unfold Sgr.add at this
    rw [this]
    have hu : Group.underline ∉ gs := fun hm => absurd (h2 _ hm) (by decide)
    have := applySgr_styles h1 (applySgr [48, 5, 16, 4] {}) .underline hu
    have e : (applySgr [48, 5, 16, 4] {}).underline = 1 := by decide
    rw [← e]; exact this
  · decide

theorem TextSeg.line₁ {o : Sgr} (l : Str) (hst : Stylish o) : TextSeg .newline ⟨o, l, [0x0a], ['×', '\n']⟩ := by
  have hsh : Shows (applySgr o {}) ['×', '\n'] _ _ := Shows.text _ (by decide)
  have hstrip : stripSgr ['×', '\n'] = ['×', '\n'] := strip_plain (by decide)
  refine ⟨hst, hsh.clean, ⟨_, _, hsh, closing_opening hst⟩, ?_, fun _ => ⟨rfl, ['×'], hstrip, by decide⟩, ?_⟩
  · simp only
    rw [hstrip]
    intro c h1 h2
    simp only [List.mem_cons, List.not_mem_nil, or_false] at h1
    rcases h1 with rfl | rfl
    · exact absurd h2 (by decide)
    · exact .inl (by simp)
  · exact iff_of_true (by simp [Segment.isNewline]) rfl

theorem TextSeg.line₂ {o : Sgr} (l : Str) (hst : Stylish o) :
    TextSeg .newline ⟨o, l, [0x0a], '↵' :: (Sgr.assemble [0] ++ ['\n'])⟩ := by
  have hs : ∀ st, Shows st ('↵' :: (Sgr.assemble [0] ++ ['\n'])) {} [('↵', st), ('\n', ({} : Style))] := fun st =>
    (Shows.text st (s := ['↵']) (by decide)).append ((Shows.sgr st [0]).append (Shows.text {} (s := ['\n']) (by decide)))
  have hstrip : stripSgr ('↵' :: (Sgr.assemble [0] ++ ['\n'])) = ['↵', '\n'] := (hs {}).strip
  refine ⟨hst, (hs {}).clean, ⟨_, _, hs _, closing_empty hst⟩, ?_, fun _ => ⟨rfl, ['↵'], hstrip, by decide⟩, ?_⟩
  · simp only
    rw [hstrip]
    intro c h1 h2
    simp only [List.mem_cons, List.not_mem_nil, or_false] at h1
    rcases h1 with rfl | rfl
    · exact absurd h2 (by decide)
    · exact .inl (by simp)
  · exact iff_of_true (by simp [Segment.isNewline]) rfl

theorem segmentsOf_text {s : Settings} {k : Kind} {p : Bytes} {q : SgrDetails} (hr : s.readMode.1 = .text) (hw : Wf k p)
    (hq : GoodDetails q) : ∀ g ∈ segmentsOf s k p q, TextSeg k g := by
  intro g hg
  have hst := segmentsOf_stylish s k p q (by obtain ⟨gs, h, -⟩ := hq.style; exact ⟨gs, h⟩) g hg
  unfold segmentsOf at hg
  by_cases he : isEscKind k = true ∧ displayOf s k ≠ .ignored
  · rw [if_pos he] at hg
    have hk : k ≠ .newline := by rintro rfl; cases he.1
    have ht : k ≠ .tab := by rintro rfl; cases he.1
    have hsep : ∀ c, isControlChar c = false → g = sepSegment c → TextSeg k g := by
      rintro c hc rfl
      refine .simple hst hk ?_
      intro x hx
      rw [List.mem_singleton.1 hx]; exact hc
    have hbody : g ∈ escBody s k p q → TextSeg k g := by
      intro hg
      obtain ⟨t, rfl, hne, ht'⟩ := hw.esc_form he.1
      unfold escBody at hg
      rcases List.mem_cons.1 hg with rfl | hg
      · refine .simple hst hk ?_
        intro c hc
        obtain ⟨b, -, hc⟩ := List.mem_flatMap.1 hc
        exact kindText_plain k _ _ (.inl ht) c hc
      · split at hg
        · cases hg
        · have hg' := List.mem_singleton.1 hg
          by_cases hb : detailsOf s = .brief
          · rw [if_pos hb] at hg'
            by_cases hs : k = .sgr
            · rw [if_pos hs] at hg'
              subst hs
              subst hg'
              obtain ⟨ns, hn1, hn2⟩ := hq.brief
              have hsh := shows_names (applySgr (detailStyle s .sgr q) {}) (detailStyle_underline s q hq) ns fun x hx => plain_noEsc (hn2 x hx)
              rw [← hn1] at hsh
              have hstrip : ∀ st, st.underline = 1 → stripSgr q.brief = (namesLayout st ns).map Prod.fst := by
                intro st _
                have h0 := shows_names { underline := 1 } rfl ns fun x hx => plain_noEsc (hn2 x hx)
                rw [← hn1] at h0
                have := ((Shows.sgr {} [4]).append h0).strip
                rw [(Clean.sgr [4]).strip_append] at this
                have e : stripSgr (Sgr.assemble [4]) = [] := (Shows.sgr {} [4]).strip
                rw [e] at this
                simp only [List.nil_append] at this
                rw [this]
                clear * -
                have : ∀ (a b : Style) (ns : List Str), (namesLayout a ns).map Prod.fst = (namesLayout b ns).map Prod.fst := by
                  intro a b ns
                  induction ns with
                  | nil => rfl
                  | cons x r ih =>
                    cases r with
                    | nil => simp [namesLayout, inStyle_fst]
                    | cons y r => simp [namesLayout, inStyle_fst, ih]
                exact this _ _ ns
              have hplain : ∀ c ∈ stripSgr q.brief, isControlChar c = false := by
                rw [hstrip { underline := 1 } rfl]
                exact namesLayout_chars _ ns hn2
              refine ⟨hst, hsh.clean, ⟨_, _, hsh, closing_opening hst⟩, ?_, fun h => absurd h hk, ?_⟩
              · intro c h1 h2
                rw [hplain c h1] at h2; cases h2
              · refine iff_of_false ?_ hk
                intro h
                unfold Segment.isNewline at h
                rw [List.contains_iff_mem] at h
                -- a line feed would appear
                simp only at h
                rw [hn1] at h
                have : ∀ ns : List Str, (∀ x ∈ ns, ∀ c ∈ x, isControlChar c = false) → '\n' ∉ join briefSeparator ns := by
                  intro ns
                  induction ns with
                  | nil => intro _ h; cases h
                  | cons x r ih =>
                    intro hx
                    cases r with
                    | nil => exact plain_noNl (hx x (by simp))
                    | cons y r =>
                      rw [join]
                      simp only [List.mem_append, not_or]
                      exact ⟨⟨plain_noNl (hx x (by simp)), by decide⟩, ih fun z hz => hx z (by simp [hz])⟩
                exact this ns hn2 h
            · rw [if_neg hs] at hg'
              subst hg'
              exact .simple hst hk (by simp)
          · rw [if_neg hb] at hg'
            subst hg'
            refine .simple hst hk ?_
            intro c hc
            simp only [List.drop_succ_cons, List.drop_zero] at hc
            rw [decodeAscii_eq ht'] at hc
            obtain ⟨b, hb, rfl⟩ := List.mem_map.1 hc
            exact ascii_plain (ht' b hb)
    unfold escSegments at hg
    split at hg
    · simp only [List.mem_cons, List.mem_append, List.not_mem_nil, or_false] at hg
      rcases hg with hg | hg | hg
      · exact hsep _ (by decide) hg
      · exact hbody hg
      · exact hsep _ (by decide) hg
    · exact hbody hg
  · rw [if_neg he] at hg
    by_cases hc : k = .ctrl ∧ (detailsOf s = .brief ∨ detailsOf s = .full)
    · rw [if_pos hc] at hg
      obtain ⟨rfl, hdd⟩ := hc
      obtain ⟨b, hb, hg⟩ := List.mem_flatMap.1 hg
      unfold ctrlSegments ctrlDetails at hg
      rcases List.mem_cons.1 hg with rfl | hg
      · exact .simple hst (by simp) (kindText_plain _ _ _ (.inl (by simp)))
      · split at hg
        · cases hg
        · rw [List.mem_singleton.1 hg] at hst ⊢
          refine .simple hst (by simp) ?_
          intro c hc
          simp only at hc
          split at hc
          · obtain ⟨x, hx⟩ := briefLabel_ctrl (hw.run_all (q := isCtrl) rfl b hb)
            rw [hx] at hc
            simp at hc
            subst hc
            have key : ∀ n : Fin 32, ∀ x, Template.briefLabel n.1 = some x → isControlChar x = false := by
              intro n
              have : ∀ n : Fin 32, ((Template.briefLabel n.1).all fun x => !isControlChar x) = true := by decide
              intro x hx
              have := this n
              rw [hx] at this
              simpa using this
            have hlt : b.toNat < 32 := by
              have := hw.run_all (q := isCtrl) rfl b hb
              simp [isCtrl, between] at this
              omega
            exact key ⟨b.toNat, hlt⟩ _ hx
          · exact hexPad_plain _ _ c hc
    · rw [if_neg hc] at hg
      have hg' := List.mem_singleton.1 hg
      by_cases hk : k = .newline
      · subst hk
        have hp := hw.newline_eq
        subst hp
        subst hg'
        have e : pieceText s .newline [0x0a] = if displayOf s .newline = .ignored then ['×', '\n'] else '↵' :: (Sgr.assemble [0] ++ ['\n']) := by
          unfold pieceText
          simp only [hr]
          simp
        rw [e]
        split
        · exact .line₁ _ hst
        · exact .line₂ _ hst
      · obtain ⟨h1, h2⟩ := pieceText_text hr hw hk
        subst hg'
        exact .plain hst h1 hk h2

theorem TextSeg.shows {k : Kind} {g : Segment} (h : TextSeg k g) : ∃ v, Shows {} (fmtBlock segProcessed g) {} v := by
  obtain ⟨b, v, h1, h2⟩ := h.shows'
  exact ⟨v, shows_fmt h.style h1 h2⟩

theorem chunkSegs_text {s : Settings} (hr : s.readMode.1 = .text) (raw : Bytes) :
    ∀ g ∈ chunkSegs s raw, ∃ k, TextSeg k g := by
  intro g hg
  obtain ⟨q, hq, hg⟩ := List.mem_flatMap.1 hg
  exact ⟨q.1, segmentsOf_text hr (pieces_wf hq) (detailsFn_good q) g hg⟩

theorem nlNe_of_text {gs : List Segment} (h : ∀ g ∈ gs, ∃ k, TextSeg k g) : NlNe gs := by
  intro g hg hn
  obtain ⟨k, hk⟩ := h g hg
  rw [(hk.nl (hk.newline.1 hn)).1]; simp

end Kolombos
