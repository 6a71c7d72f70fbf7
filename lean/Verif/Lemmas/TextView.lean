import Verif.Lemmas.Glyphs
import Verif.Lemmas.TextRun
import Verif.Lemmas.BinView
import Verif.Props.Errors
/-
Printed lines of text mode and the pieces of the input.
-/
set_option linter.unusedSimpArgs false

namespace Kolombos
open Spec

/-! ### Uniqueness of cuts -/

theorem lines_unique {ls ls' : List (List Segment)} {r r' : List Segment} (h : Lines ls) (h' : Lines ls') (hr : NoNl r) (hr' : NoNl r')
    (e : ls.flatten ++ r = ls'.flatten ++ r') : ls = ls' ∧ r = r' := by
  have first : ∀ {x y : List Segment} {g g' : Segment} {t t' : List Segment}, NoNl x → NoNl y → g.isNewline = true → g'.isNewline = true →
      x ++ g :: t = y ++ g' :: t' → x = y ∧ g = g' ∧ t = t' := by
    intro x
    induction x with
    | nil =>
      intro y g g' t t' _ hy hg hg' e
      cases y with
      | nil => simp at e; exact ⟨rfl, e⟩
      | cons a y =>
        simp at e
        have := hy a (by simp)
        rw [← e.1, hg] at this; cases this
    | cons a x ih =>
      intro y g g' t t' hx hy hg hg' e
      cases y with
      | nil =>
        simp at e
        have := hx a (by simp)
        rw [e.1, hg'] at this; cases this
      | cons b y =>
        simp at e
        obtain ⟨h1, h2, h3⟩ := ih (fun c hc => hx c (by simp [hc])) (fun c hc => hy c (by simp [hc])) hg hg' e.2
        exact ⟨by rw [e.1, h1], h2, h3⟩
  induction ls generalizing ls' with
  | nil =>
    cases ls' with
    | nil => simpa using e
    | cons l ls' =>
      obtain ⟨x, g, rfl, -, hg⟩ := h' l (by simp)
      simp at e
      have := hr g (by rw [e]; simp)
      rw [hg] at this; cases this
  | cons l ls ih =>
    obtain ⟨x, g, rfl, hx, hg⟩ := h l (by simp)
    cases ls' with
    | nil =>
      simp at e
      have := hr' g (by rw [← e]; simp)
      rw [hg] at this; cases this
    | cons l' ls' =>
      obtain ⟨x', g', rfl, hx', hg'⟩ := h' l' (by simp)
      simp only [List.flatten_cons, List.append_assoc, List.cons_append, List.nil_append] at e
      obtain ⟨h1, h2, h3⟩ := first hx hx' hg hg' e
      obtain ⟨h4, h5⟩ := ih (fun l hl => h l (by simp [hl])) (fun l hl => h' l (by simp [hl])) h3
      exact ⟨by rw [h1, h2, h4], h5⟩

theorem rest_unique {as bs as' bs' : List Segment} (hb : ∀ g ∈ bs, g.raw = []) (hb' : ∀ g ∈ bs', g.raw = [])
    (ha : as = [] ∨ ∃ x g, as = x ++ [g] ∧ g.raw ≠ []) (ha' : as' = [] ∨ ∃ x g, as' = x ++ [g] ∧ g.raw ≠ [])
    (e : as ++ bs = as' ++ bs') : as = as' ∧ bs = bs' := by
  have key : ∀ {as bs as' bs' : List Segment}, (∀ g ∈ bs, g.raw = []) → (as' = [] ∨ ∃ x g, as' = x ++ [g] ∧ g.raw ≠ []) →
      ∀ c, as' = as ++ c → bs = c ++ bs' → c = [] := by
    intro as bs as' bs' hb ha' c e1 e2
    rcases List.eq_nil_or_concat c with rfl | ⟨c', g, hc'⟩
    · rfl
    · rw [List.concat_eq_append] at hc'
      exfalso
      subst hc'
      rcases ha' with rfl | ⟨x, g', rfl, hg'⟩
      · simp at e1
      · rw [← List.append_assoc] at e1
        have := List.append_inj_right' e1 rfl
        simp at this
        subst this
        exact hg' (hb g' (by rw [e2]; simp))
  rcases List.append_eq_append_iff.1 e with ⟨c, e1, e2⟩ | ⟨c, e1, e2⟩
  · have := key hb ha' c e1 e2
    subst this
    simp at e1 e2
    exact ⟨e1.symm, e2⟩
  · have := key hb' ha c e1 e2
    subst this
    simp at e1 e2
    exact ⟨e1, e2.symm⟩

/-! ### Pieces in lines -/

theorem pieceLines_spec (qs : List (Kind × Bytes)) :
    qs = (pieceLines qs).1.flatten ++ (pieceLines qs).2 ∧
    (∀ l ∈ (pieceLines qs).1, ∃ x q, l = x ++ [q] ∧ (∀ y ∈ x, y.1 ≠ .newline) ∧ q.1 = .newline) ∧
    ∀ y ∈ (pieceLines qs).2, y.1 ≠ .newline := by
  induction qs with
  | nil => simp [pieceLines]
  | cons q qs ih =>
    obtain ⟨h1, h2, h3⟩ := ih
    rw [pieceLines]
    by_cases hq : q.1 = .newline
    · rw [if_pos hq]
      refine ⟨by simpa using h1, ?_, h3⟩
      intro l hl
      rcases List.mem_cons.1 hl with rfl | hl
      · exact ⟨[], q, rfl, by simp, hq⟩
      · exact h2 l hl
    · rw [if_neg hq]
      cases hL : (pieceLines qs).1 with
      | nil =>
        rw [hL] at h1
        refine ⟨by simpa using h1, by simp, ?_⟩
        intro y hy
        rcases List.mem_cons.1 hy with rfl | hy
        · exact hq
        · exact h3 y hy
      | cons l ls =>
        rw [hL] at h1 h2
        refine ⟨by simpa using h1, ?_, h3⟩
        intro l' hl'
        rcases List.mem_cons.1 hl' with rfl | hl'
        · obtain ⟨x, z, rfl, g1, g2⟩ := h2 l (by simp)
          refine ⟨q :: x, z, rfl, ?_, g2⟩
          intro y hy
          rcases List.mem_cons.1 hy with rfl | hy
          · exact hq
          · exact g1 y hy
        · exact h2 l' (by simp [hl'])

/-- Pieces that can be displayed. -/
def GoodPieces (qs : List (Kind × Bytes)) : Prop := ∀ q ∈ qs, Wf q.1 q.2 ∧ badPiece q = false

theorem segsOf_text {s : Settings} (hr : s.readMode.1 = .text) {q : Kind × Bytes} (hw : Wf q.1 q.2) : ∀ g ∈ segsOf s q, TextSeg q.1 g :=
  segmentsOf_text hr hw (detailsFn_good q)

theorem segs_noNl {s : Settings} (hr : s.readMode.1 = .text) {qs : List (Kind × Bytes)} (hg : GoodPieces qs) (hn : ∀ y ∈ qs, y.1 ≠ .newline) :
    NoNl (qs.flatMap (segsOf s)) := by
  intro g hgm
  obtain ⟨q, hq, hgm⟩ := List.mem_flatMap.1 hgm
  have := (segsOf_text hr (hg q hq).1 g hgm).newline
  cases h : g.isNewline with
  | false => rfl
  | true => exact absurd (this.1 h) (hn q hq)

theorem segs_newline {s : Settings} (hr : s.readMode.1 = .text) {q : Kind × Bytes} (hw : Wf q.1 q.2) (hq : q.1 = .newline) :
    ∃ g, segsOf s q = [g] ∧ g.isNewline = true := by
  obtain ⟨k, p⟩ := q
  simp only at hq hw
  subst hq
  have : ∃ g, segsOf s (.newline, p) = [g] := by
    unfold segsOf segmentsOf
    rw [if_neg (by rintro ⟨h, -⟩; cases h), if_neg (by simp)]
    exact ⟨_, rfl⟩
  obtain ⟨g, hg⟩ := this
  exact ⟨g, hg, (segsOf_text hr hw g (by rw [hg]; simp)).newline.2 rfl⟩

theorem flatten_flatMap {α β : Type} (f : α → List β) (L : List (List α)) : L.flatten.flatMap f = (L.map fun l => l.flatMap f).flatten := by
  induction L with
  | nil => rfl
  | cons l L ih => rw [List.flatten_cons, List.flatMap_append, ih, List.map_cons, List.flatten_cons]

/-- The cut of the segments of some pieces. -/
theorem pieceSegs_cut {s : Settings} (hr : s.readMode.1 = .text) {qs : List (Kind × Bytes)} (hg : GoodPieces qs) {Ls : List (List Segment)}
    {as bs : List Segment} (hc : Cut (qs.flatMap (segsOf s)) Ls as bs) :
    Ls = (pieceLines qs).1.map (fun l => l.flatMap (segsOf s)) ∧ as ++ bs = (pieceLines qs).2.flatMap (segsOf s) := by
  obtain ⟨h1, h2, h3⟩ := pieceLines_spec qs
  have hgL : ∀ l ∈ (pieceLines qs).1, GoodPieces l := by
    intro l hl q hq
    apply hg
    rw [h1]
    exact List.mem_append.2 (.inl (List.mem_flatten.2 ⟨l, hl, hq⟩))
  have hgR : GoodPieces (pieceLines qs).2 := by
    intro q hq
    apply hg
    rw [h1]; simp [hq]
  refine lines_unique hc.lines ?_ hc.noNl (segs_noNl hr hgR h3) ?_
  · intro l hl
    obtain ⟨l', hl', rfl⟩ := List.mem_map.1 hl
    obtain ⟨x, q, e, hx, hq⟩ := h2 l' hl'
    have hgl := hgL l' hl'
    rw [e] at hgl ⊢
    obtain ⟨g, eg, hgn⟩ := segs_newline hr (hgl q (by simp)).1 hq
    refine ⟨x.flatMap (segsOf s), g, by rw [List.flatMap_append, List.flatMap_singleton, eg], ?_, hgn⟩
    exact segs_noNl hr (fun y hy => hgl y (by simp [hy])) hx
  · rw [← hc.eq]
    conv => lhs; rw [h1]
    rw [List.flatMap_append]
    congr 1
    exact flatten_flatMap _ _

/-! ### Characters -/

theorem flatMap_glyphs {s : Settings} (hr : s.readMode.1 = .text) {qs : List (Kind × Bytes)} (hg : GoodPieces qs) (hn : ∀ y ∈ qs, y.1 ≠ .newline) :
    plainOf (qs.flatMap (segsOf s)) = glyphsAll s qs := by
  induction qs with
  | nil => rfl
  | cons q qs ih =>
    have hq := hg q (by simp)
    obtain ⟨-, -, -, -, -, -, h, -⟩ := segsOf_glyphs hr hq.1 hq.2
    rw [if_neg (hn q (by simp)), List.append_nil] at h
    rw [List.flatMap_cons, plainOf_append, ih (fun q hq => hg q (by simp [hq])) (fun y hy => hn y (by simp [hy])), h]
    rfl

theorem line_glyphs {s : Settings} (hr : s.readMode.1 = .text) {x : List (Kind × Bytes)} {q : Kind × Bytes} (hg : GoodPieces (x ++ [q]))
    (hx : ∀ y ∈ x, y.1 ≠ .newline) (hq : q.1 = .newline) : plainOf ((x ++ [q]).flatMap (segsOf s)) = glyphsAll s (x ++ [q]) ++ ['\n'] := by
  have hgq := hg q (by simp)
  obtain ⟨-, -, -, -, -, -, h, -⟩ := segsOf_glyphs hr hgq.1 hgq.2
  rw [if_pos hq] at h
  rw [List.flatMap_append, List.flatMap_singleton, plainOf_append, h, flatMap_glyphs hr (fun y hy => hg y (by simp [hy])) hx]
  simp [glyphsAll]

/-- The segments of an incomplete line that are displayed. -/
theorem rest_glyphs {s : Settings} (hr : s.readMode.1 = .text) {qs : List (Kind × Bytes)} (hg : GoodPieces qs) (hn : ∀ y ∈ qs, y.1 ≠ .newline)
    {as bs : List Segment} (e : as ++ bs = qs.flatMap (segsOf s)) (hb : ∀ g ∈ bs, g.raw = [])
    (ha : as = [] ∨ ∃ x g, as = x ++ [g] ∧ g.raw ≠ []) :
    (as = [] ↔ qs = []) ∧ plainOf as = (glyphsAll s qs).take ((glyphsAll s qs).length - lostAt s qs) := by
  rcases List.eq_nil_or_concat qs with rfl | ⟨qs', q, hqs⟩
  · simp at e
    obtain ⟨rfl, rfl⟩ := e
    simp [plainOf, glyphsAll]
  · rw [List.concat_eq_append] at hqs
    subst hqs
    have hq := hg q (by simp)
    obtain ⟨x, g, cs, h1, h2, h3, h4, h5, -⟩ := segsOf_glyphs hr hq.1 hq.2
    have e' : as ++ bs = (qs'.flatMap (segsOf s) ++ x ++ [g]) ++ cs := by
      rw [e, List.flatMap_append, List.flatMap_singleton, h1]; simp
    obtain ⟨r1, r2⟩ := rest_unique hb h3 ha (.inr ⟨_, g, rfl, h2⟩) e'
    refine ⟨iff_of_false (by rw [r1]; simp) (by simp), ?_⟩
    have hall := flatMap_glyphs hr hg hn
    rw [← e, plainOf_append, r2] at hall
    have hlost : lostAt s (qs' ++ [q]) = (plainOf cs).length := by
      unfold lostAt; rw [List.getLast?_concat]; exact h5.symm
    rw [← hall, hlost, List.length_append, Nat.add_sub_cancel, List.take_left]

/-! ### Printed lines -/

theorem TextSeg.strip {k : Kind} {g : Segment} (h : TextSeg k g) :
    ∃ v, Shows {} (fmtBlock segProcessed g) {} v ∧ v.map Prod.fst = stripSgr g.processed := by
  obtain ⟨b, v, h1, h2⟩ := h.shows'
  refine ⟨v, shows_fmt h.style h1 h2, ?_⟩
  have := ((Shows.sgr {} g.opening).append h1).strip
  rw [(Clean.sgr g.opening).strip_append] at this
  have e : stripSgr (Sgr.assemble g.opening) = [] := (Shows.sgr {} g.opening).strip
  rw [e] at this
  simpa using this.symm

theorem shows_segs {gs : List Segment} (h : ∀ g ∈ gs, ∃ k, TextSeg k g) :
    ∃ v, Shows {} (gs.flatMap (fmtBlock segProcessed)) {} v ∧ v.map Prod.fst = plainOf gs := by
  induction gs with
  | nil => exact ⟨[], .nil _, rfl⟩
  | cons g gs ih =>
    obtain ⟨k, hk⟩ := h g (by simp)
    obtain ⟨v, h1, h2⟩ := hk.strip
    obtain ⟨w, h3, h4⟩ := ih fun g hg => h g (by simp [hg])
    exact ⟨v ++ w, by rw [List.flatMap_cons]; exact h1.append h3, by rw [List.map_append, h2, h4]; rfl⟩

theorem rjust_plain {w : Nat} {t : Str} {c : Char} (hc : isControlChar c = false) (h : ∀ c ∈ t, isControlChar c = false) :
    ∀ x ∈ rjust w c t, isControlChar x = false := by
  intro x hx
  rcases List.mem_append.1 hx with hx | hx
  · rw [(List.mem_replicate.1 hx).2]; exact hc
  · exact h x hx

theorem shows_linePrefix (s : Settings) (n : Nat) : ∃ v, Shows {} (Console.linePrefix s n) {} v ∧ v.map Prod.fst = lineLabel s n := by
  have hsp : ∀ t : Str, (∀ c ∈ t, isControlChar c = false) → Shows {} (span [32] t) {} (inStyle (applySgr [32] {}) t) := fun t ht =>
    Shows.span (Stylish.code (.fg 32 (by decide))) (plain_noEsc ht)
  have hsep := shows_separator s
  have hsept : (sepLayout s).map Prod.fst = ['│'] := by unfold sepLayout; rw [inStyle_fst]
  unfold Console.linePrefix lineLabel
  by_cases hd : s.debug ≠ 0
  · rw [if_pos hd, if_pos hd]
    unfold Console.formatPrefix
    have ht : ∀ c ∈ alignRight 8 ((dec n).take 8), isControlChar c = false :=
      rjust_plain (by decide) fun c hc => dec_plain n c (List.mem_of_mem_take hc)
    have hx : 'x' ∉ alignRight 8 ((dec n).take 8) := by
      intro hm
      rcases List.mem_append.1 hm with hm | hm
      · exact absurd (List.mem_replicate.1 hm).2 (by decide)
      · exact absurd (dec_digit (List.mem_of_mem_take hm)) (by decide)
    rw [dim0x_noX]
    · exact ⟨_, (hsp _ ht).append hsep, by rw [List.map_append, inStyle_fst, hsept]; rfl⟩
    · simp only [List.mem_append, not_or, span]
      refine ⟨⟨⟨by decide, hx⟩, by decide⟩, ?_⟩
      unfold Console.separator
      split <;> decide
  · rw [if_neg hd, if_neg hd]
    split
    · exact ⟨[], .nil _, rfl⟩
    · have ht : ∀ c ∈ alignRight 2 (dec n), isControlChar c = false := rjust_plain (by decide) (dec_plain n)
      exact ⟨_, (hsp _ ht).append hsep, by rw [List.map_append, inStyle_fst, hsept]; rfl⟩

theorem lineLabel_plain (s : Settings) (n : Nat) : ∀ c ∈ lineLabel s n, isControlChar c = false := by
  intro c hc
  unfold lineLabel at hc
  split at hc
  · rcases List.mem_append.1 hc with hc | hc
    · exact rjust_plain (by decide) (fun c hc => dec_plain n c (List.mem_of_mem_take hc)) c hc
    · rw [List.mem_singleton.1 hc]; decide
  · split at hc
    · cases hc
    · rcases List.mem_append.1 hc with hc | hc
      · exact rjust_plain (by decide) (dec_plain n) c hc
      · rw [List.mem_singleton.1 hc]; decide

/-- A printed line on the terminal. -/
theorem shows_line {s : Settings} {n : Nat} {gs : List Segment} (h : ∀ g ∈ gs, ∃ k, TextSeg k g) (t : Str) (ht : '\n' ∉ t)
    (he : plainOf gs = t ++ ['\n'] ∨ plainOf gs = t) :
    ∃ v, Shows {} (lineText s n gs) {} v ∧ v.map Prod.fst = lineLabel s n ++ t ++ ['\n'] := by
  obtain ⟨v, h1, h2⟩ := shows_segs h
  obtain ⟨w, h3, h4⟩ := shows_linePrefix s n
  have hst : stripSgr (gs.flatMap (fmtBlock segProcessed)) = plainOf gs := by rw [h1.strip, h2]
  unfold lineText
  simp only
  rw [hst]
  rcases he with he | he
  · have : TextFormatter.endsWithNewline (plainOf gs) = true := by
      rw [he]; unfold TextFormatter.endsWithNewline; rw [List.getLast?_concat]; rfl
    rw [if_pos this, List.append_nil]
    exact ⟨_, h3.append h1, by rw [List.map_append, h4, h2, he, List.append_assoc]⟩
  · have : ¬TextFormatter.endsWithNewline (plainOf gs) = true := by
      rw [he]
      unfold TextFormatter.endsWithNewline
      simp only [beq_iff_eq]
      intro hl
      exact ht (List.mem_of_getLast? hl)
    rw [if_neg this]
    exact ⟨_, (h3.append h1).append (Shows.text {} (s := ['\n']) (by decide)), by
      rw [List.map_append, List.map_append, h4, h2, he]; rfl⟩

theorem glyphs_noNl {s : Settings} (hr : s.readMode.1 = .text) {q : Kind × Bytes} (hw : Wf q.1 q.2) (hb : badPiece q = false) :
    '\n' ∉ textGlyphs s q.1 q.2 := by
  obtain ⟨-, -, -, -, -, -, h, -⟩ := segsOf_glyphs hr hw hb
  by_cases hq : q.1 = .newline
  · obtain ⟨g, hg, -⟩ := segs_newline hr hw hq
    obtain ⟨-, t, h1, h2⟩ := (segsOf_text hr hw g (by rw [hg]; simp)).nl hq
    rw [if_pos hq, hg] at h
    have : plainOf [g] = t ++ ['\n'] := by show stripSgr g.processed ++ [] = _; rw [h1, List.append_nil]
    rw [this] at h
    rw [← List.append_cancel_right h]; exact h2
  · rw [if_neg hq, List.append_nil] at h
    rw [← h]
    intro hm
    obtain ⟨g, hg, hm⟩ := List.mem_flatMap.1 hm
    rcases (segsOf_text hr hw g hg).chars _ hm (by decide) with h | h | h
    · exact hq h.1
    · exact absurd h.2 (by decide)
    · exact absurd h.2 (by decide)

theorem glyphsAll_noNl {s : Settings} (hr : s.readMode.1 = .text) {qs : List (Kind × Bytes)} (hg : GoodPieces qs) : '\n' ∉ glyphsAll s qs := by
  intro h
  obtain ⟨q, hq, h⟩ := List.mem_flatMap.1 h
  exact glyphs_noNl hr (hg q hq).1 (hg q hq).2 h

/-- Printed lines: each is shown by itself. -/
structure ShownLines (n : Nat) (out : Str) (s : Settings) (bodies : List Str) (lines : List Str) : Prop where
  out_eq : out = lines.flatten
  length : lines.length = bodies.length
  shows : ∀ i (h : i < bodies.length) (h' : i < lines.length), ∃ v, Shows {} lines[i] {} v ∧ v.map Prod.fst = lineLabel s (n + i) ++ bodies[i] ++ ['\n']

theorem shown_lines {s : Settings} (n : Nat) (Ls : List (List Segment)) (bodies : List Str) (hlen : Ls.length = bodies.length)
    (h : ∀ i (h : i < Ls.length) (h' : i < bodies.length), (∀ g ∈ Ls[i], ∃ k, TextSeg k g) ∧ '\n' ∉ bodies[i] ∧
      (plainOf Ls[i] = bodies[i] ++ ['\n'] ∨ plainOf Ls[i] = bodies[i])) :
    ∃ lines, ShownLines n (linesText s n Ls) s bodies lines := by
  induction Ls generalizing n bodies with
  | nil =>
    have : bodies = [] := List.eq_nil_of_length_eq_zero (by simpa using hlen.symm)
    subst this
    exact ⟨[], rfl, rfl, by intro i h; simp at h⟩
  | cons l Ls ih =>
    cases bodies with
    | nil => simp at hlen
    | cons t bodies =>
      obtain ⟨h1, h2, h3⟩ := h 0 (by simp) (by simp)
      obtain ⟨lines, g1, g2, g3⟩ := ih (n + 1) bodies (by simpa using hlen) (fun i hi hi' => by
        have := h (i + 1) (by simp; omega) (by simp; omega)
        simpa using this)
      obtain ⟨v, hv1, hv2⟩ := shows_line (s := s) (n := n) h1 t h2 h3
      refine ⟨lineText s n l :: lines, by rw [linesText, List.flatten_cons, g1], by simp [g2], ?_⟩
      intro i hi hi'
      cases i with
      | zero => exact ⟨v, hv1, hv2⟩
      | succ i =>
        obtain ⟨w, hw1, hw2⟩ := g3 i (by simpa using hi) (by simpa using hi')
        refine ⟨w, by simpa using hw1, ?_⟩
        rw [hw2]
        have : n + 1 + i = n + (i + 1) := by omega
        simp [this]

theorem ShownLines.all {n : Nat} {out : Str} {s : Settings} {bodies lines : List Str} (h : ShownLines n out s bodies lines) :
    ∃ v, Shows {} out {} v ∧ v.map Prod.fst = (bodies.mapIdx fun i t => lineLabel s (n + i) ++ t).flatMap fun l => l ++ ['\n'] := by
  obtain ⟨rfl, h2, h3⟩ := h
  induction lines generalizing n bodies with
  | nil =>
    have : bodies = [] := List.eq_nil_of_length_eq_zero (by simpa using h2.symm)
    subst this
    exact ⟨[], .nil _, rfl⟩
  | cons l lines ih =>
    cases bodies with
    | nil => simp at h2
    | cons t bodies =>
      obtain ⟨v, hv1, hv2⟩ := h3 0 (by simp) (by simp)
      obtain ⟨w, hw1, hw2⟩ := ih (n := n + 1) (bodies := bodies) (by simpa using h2) (fun i hi hi' => by
        have := h3 (i + 1) (by simp; omega) (by simp; omega)
        have e : n + 1 + i = n + (i + 1) := by omega
        simpa [e] using this)
      refine ⟨v ++ w, by rw [List.flatten_cons]; exact hv1.append hw1, ?_⟩
      rw [List.map_append, hv2, hw2, List.mapIdx_cons, List.flatMap_cons]
      congr 1
      congr 1
      apply List.ext_getElem (by simp)
      intro i h1 h2
      have e : n + 1 + i = n + (i + 1) := by omega
      simp [e]

/-- Reading printed lines back. -/
theorem ShownLines.lines {n : Nat} {out : Str} {s : Settings} {bodies lines : List Str} (h : ShownLines n out s bodies lines)
    (hb : ∀ t ∈ bodies, '\n' ∉ t) : linesOf (visible out) = bodies.mapIdx fun i t => lineLabel s (n + i) ++ t := by
  obtain ⟨v, h1, h2⟩ := h.all
  rw [h1.visible, h2, linesOf_flat]
  intro l hl
  obtain ⟨i, hi, rfl⟩ := List.mem_mapIdx.1 hl
  intro hm
  rcases List.mem_append.1 hm with hm | hm
  · exact absurd (lineLabel_plain s _ _ hm) (by decide)
  · exact hb _ (List.getElem_mem _) hm

/-! ### Lines of bytes -/

theorem Wf.lf {k : Kind} {p : Bytes} (h : Wf k p) (hm : (0x0a : Byte) ∈ p) : k = .newline := by
  cases h with
  | newline => rfl
  | utf8 c hc =>
    exfalso
    have hv := char_valid c
    by_cases h2 : c.toNat < 0x800
    · rw [enc2 c hc h2] at hm
      simp at hm
      rcases hm with hm | hm <;> have := congrArg UInt8.toNat hm <;> simp at this <;> omega
    by_cases h3 : c.toNat < 0x10000
    · rw [enc3 c (by omega) h3] at hm
      simp at hm
      rcases hm with hm | hm | hm <;> have := congrArg UInt8.toNat hm <;> simp at this <;> omega
    · rw [enc4 c (by omega)] at hm
      simp at hm
      rcases hm with hm | hm | hm | hm <;> have := congrArg UInt8.toNat hm <;> simp at this <;> omega
  | esc => exact absurd hm (by decide)
  | run hr _ hall =>
    have := hall _ hm
    exfalso
    cases k <;> first | (cases hr; done) | (cases hr; exact absurd this (by decide))
  | csi _ h1 h2 h3 =>
    exfalso
    simp only [List.mem_cons, List.mem_append, List.not_mem_nil, or_false] at hm
    rcases hm with hm | hm | (hm | hm) | hm
    · exact absurd hm (by decide)
    · exact absurd hm (by decide)
    · exact absurd (h1 _ hm) (by decide)
    · exact absurd (h2 _ hm) (by decide)
    · rw [← hm] at h3; exact absurd h3 (by decide)
  | seq _ _ _ h2 =>
    exfalso
    simp only [List.mem_cons] at hm
    rcases hm with hm | hm
    · exact absurd hm (by decide)
    · exact absurd (h2 _ hm) (by decide)

/-- The bytes of some pieces. -/
def bytesOf (qs : List (Kind × Bytes)) : Bytes := qs.flatMap Prod.snd

theorem byteLines_line {a : Bytes} (h : (0x0a : Byte) ∉ a) (t : Bytes) : byteLines (a ++ 0x0a :: t) = a :: byteLines t := by
  induction a with
  | nil => simp [byteLines]
  | cons c a ih =>
    have hc : c ≠ 0x0a := fun e => h (by simp [e])
    rw [List.cons_append, byteLines, if_neg hc, ih fun hm => h (by simp [hm])]

theorem byteLines_rest {a : Bytes} (h : (0x0a : Byte) ∉ a) (ha : a ≠ []) : byteLines a = [a] := by
  induction a with
  | nil => exact absurd rfl ha
  | cons c a ih =>
    have hc : c ≠ 0x0a := fun e => h (by simp [e])
    rw [byteLines, if_neg hc]
    cases a with
    | nil => rfl
    | cons d a => rw [ih (fun hm => h (List.mem_cons_of_mem _ hm)) (by simp)]

theorem bytesOf_noLf {qs : List (Kind × Bytes)} (hw : ∀ q ∈ qs, Wf q.1 q.2) (hn : ∀ y ∈ qs, y.1 ≠ .newline) : (0x0a : Byte) ∉ bytesOf qs := by
  intro hm
  obtain ⟨q, hq, hm⟩ := List.mem_flatMap.1 hm
  exact hn q hq ((hw q hq).lf hm)

/-- The lines of the input are the bytes of the lines of pieces. -/
theorem byteLines_pieces {qs : List (Kind × Bytes)} (hw : ∀ q ∈ qs, Wf q.1 q.2) :
    byteLines (bytesOf qs) = (pieceLines qs).1.map (fun l => (bytesOf l).dropLast) ++
      (if (pieceLines qs).2 = [] then [] else [bytesOf (pieceLines qs).2]) := by
  obtain ⟨h1, h2, h3⟩ := pieceLines_spec qs
  generalize (pieceLines qs).1 = L at *
  generalize (pieceLines qs).2 = R at *
  subst h1
  induction L with
  | nil =>
    simp only [List.flatten_nil, List.nil_append, List.map_nil]
    have hn := bytesOf_noLf (fun q hq => hw q (by simp [hq])) h3
    by_cases hR : R = []
    · rw [if_pos hR, hR]; rfl
    · rw [if_neg hR]
      refine byteLines_rest hn ?_
      cases R with
      | nil => exact absurd rfl hR
      | cons q R =>
        have := (hw q (by simp)).ne_nil
        unfold bytesOf
        rw [List.flatMap_cons]
        intro h
        exact this (List.append_eq_nil_iff.1 h).1
  | cons l L ih =>
    obtain ⟨x, q, rfl, hx, hq⟩ := h2 l (by simp)
    have hwx : ∀ y ∈ x, Wf y.1 y.2 := fun y hy => hw y (by simp [hy])
    have hwq := hw q (by simp)
    rw [hq] at hwq
    have hqp := hwq.newline_eq
    have hb : bytesOf (x ++ [q]) = bytesOf x ++ [0x0a] := by simp [bytesOf, hqp]
    have e : bytesOf (((x ++ [q]) :: L).flatten ++ R) = bytesOf x ++ 0x0a :: bytesOf (L.flatten ++ R) := by
      simp [bytesOf, hqp]
    rw [e, byteLines_line (bytesOf_noLf hwx hx), List.map_cons, List.cons_append, hb, List.dropLast_concat]
    congr 1
    refine ih (fun l hl => h2 l (by simp [hl])) fun q hq => hw q ?_
    simp only [List.flatten_cons, List.append_assoc, List.mem_append] at hq ⊢
    exact .inr (.inr hq)

theorem chunkPieces_bytes (chunks : List Bytes) : bytesOf (chunkPieces chunks) = chunks.flatten := by
  induction chunks with
  | nil => rfl
  | cons c cs ih =>
    have e : bytesOf (chunkPieces (c :: cs)) = bytesOf (pieces c) ++ bytesOf (chunkPieces cs) := by
      simp [bytesOf, chunkPieces]
    rw [e, ih]
    have : bytesOf (pieces c) = ((pieces c).map Prod.snd).flatten := by simp [bytesOf, List.flatMap]
    rw [this, pieces_flatten]; rfl

/-! ### Number of segments -/

theorem segsOf_length (s : Settings) {q : Kind × Bytes} (hw : Wf q.1 q.2) : (segsOf s q).length ≤ 4 * q.2.length := by
  have h1 := List.length_pos_iff.2 hw.ne_nil
  unfold segsOf segmentsOf
  split
  · have : (escBody s q.1 q.2 (detailsFn q)).length ≤ 2 := by unfold escBody; split <;> simp
    unfold escSegments
    split <;> simp <;> omega
  · split
    · have hb : ∀ b, (ctrlSegments s b).length ≤ 2 := by
        intro b; unfold ctrlSegments ctrlDetails; split <;> simp
      have : ∀ p : Bytes, (p.flatMap (ctrlSegments s)).length ≤ 2 * p.length := by
        intro p
        induction p with
        | nil => simp
        | cons b p ih =>
          rw [List.flatMap_cons, List.length_append, List.length_cons]
          have := hb b
          omega
      have := this q.2
      omega
    · simp; omega

theorem segs_length (s : Settings) {qs : List (Kind × Bytes)} (hw : ∀ q ∈ qs, Wf q.1 q.2) :
    (qs.flatMap (segsOf s)).length ≤ 4 * (bytesOf qs).length := by
  induction qs with
  | nil => simp
  | cons q qs ih =>
    have h1 := segsOf_length s (hw q (by simp))
    have h2 := ih fun q hq => hw q (by simp [hq])
    unfold bytesOf at *
    rw [List.flatMap_cons, List.length_append, List.flatMap_cons, List.length_append]
    omega

/-! ### Whole runs -/

/-- The pieces of the chunks of a run. -/
def runPieces (es : List ReadEvent) : List (Kind × Bytes) := chunkPieces (es.map (·.data))

theorem allSegs_pieces (s : Settings) (es : List ReadEvent) : allSegs s es = (runPieces es).flatMap (segsOf s) := by
  unfold allSegs runPieces chunkPieces chunkSegs
  induction es with
  | nil => rfl
  | cons e es ih => simp only [List.flatMap_cons, List.map_cons, List.flatMap_append, ih]

theorem runPieces_good {es : List ReadEvent} (h : Readable es) : GoodPieces (runPieces es) := by
  intro q hq
  obtain ⟨c, hc, hq⟩ := List.mem_flatMap.1 hq
  obtain ⟨e, he, rfl⟩ := List.mem_map.1 hc
  refine ⟨pieces_wf hq, ?_⟩
  have := readable_any h e he
  cases hb : badPiece q with
  | false => rfl
  | true =>
    have h' : (pieces e.data).any badPiece = true := List.any_eq_true.2 ⟨q, hq, hb⟩
    rw [h'] at this; cases this

theorem runPieces_bytes (es : List ReadEvent) : bytesOf (runPieces es) = delivered es := by
  unfold runPieces
  rw [chunkPieces_bytes]
  unfold delivered
  simp [List.flatMap]

/-- The bodies of the lines displayed for a complete input. -/
def textBodies (s : Settings) (qs : List (Kind × Bytes)) : List Str :=
  (pieceLines qs).1.map (glyphsAll s) ++
    (if (pieceLines qs).2 = [] then []
     else [(glyphsAll s (pieceLines qs).2).take ((glyphsAll s (pieceLines qs).2).length - lostAt s (pieceLines qs).2)])

theorem textView_eq (s : Settings) (qs : List (Kind × Bytes)) :
    textView s qs = (textBodies s qs).mapIdx fun i t => lineLabel s (1 + i) ++ t := by
  unfold textView textBodies
  simp only [Nat.add_comm]

theorem pieceLines_good {qs : List (Kind × Bytes)} (hg : GoodPieces qs) :
    (∀ l ∈ (pieceLines qs).1, GoodPieces l) ∧ GoodPieces (pieceLines qs).2 := by
  have h1 := (pieceLines_spec qs).1
  refine ⟨fun l hl q hq => hg q ?_, fun q hq => hg q ?_⟩
  · rw [h1]; exact List.mem_append.2 (.inl (List.mem_flatten.2 ⟨l, hl, hq⟩))
  · rw [h1]; simp [hq]

theorem textBodies_noNl {s : Settings} (hr : s.readMode.1 = .text) {qs : List (Kind × Bytes)} (hg : GoodPieces qs) :
    ∀ t ∈ textBodies s qs, '\n' ∉ t := by
  obtain ⟨g1, g2⟩ := pieceLines_good hg
  intro t ht
  rcases List.mem_append.1 ht with ht | ht
  · obtain ⟨l, hl, rfl⟩ := List.mem_map.1 ht
    exact glyphsAll_noNl hr (g1 l hl)
  · split at ht
    · cases ht
    · rw [List.mem_singleton.1 ht]
      intro h
      exact glyphsAll_noNl hr g2 (List.mem_of_mem_take h)

theorem segs_text {s : Settings} (hr : s.readMode.1 = .text) {qs : List (Kind × Bytes)} (hg : GoodPieces qs) :
    ∀ g ∈ qs.flatMap (segsOf s), ∃ k, TextSeg k g := by
  intro g hgm
  obtain ⟨q, hq, hgm⟩ := List.mem_flatMap.1 hgm
  exact ⟨q.1, segsOf_text hr (hg q hq).1 g hgm⟩

/-- Complete lines of pieces on the terminal. -/
theorem full_lines {s : Settings} (hr : s.readMode.1 = .text) {l : List (Kind × Bytes)} (hg : GoodPieces l)
    (hl : ∃ x q, l = x ++ [q] ∧ (∀ y ∈ x, y.1 ≠ .newline) ∧ q.1 = .newline) :
    (∀ g ∈ l.flatMap (segsOf s), ∃ k, TextSeg k g) ∧ '\n' ∉ glyphsAll s l ∧ plainOf (l.flatMap (segsOf s)) = glyphsAll s l ++ ['\n'] := by
  obtain ⟨x, q, rfl, h1, h2⟩ := hl
  exact ⟨segs_text hr hg, glyphsAll_noNl hr hg, line_glyphs hr hg h1 h2⟩

/-- Everything about a complete run in text mode. -/
theorem textComplete {s : Settings} (hm : s.readMode.1 = .text) (term : Nat → Int) {es : List ReadEvent} (hco : Complete es) (hr : Readable es)
    {fuel : Nat} (hf : 4 * (delivered es).length < fuel) :
    ∃ out st lines bs, session fuel s term es = ⟨out, .ok st⟩ ∧ ShownLines 1 out s (textBodies s (runPieces es)) lines ∧
      TextHold st bs ∧ (∀ g ∈ bs, g.raw = []) ∧ st.offset = total (allSegs s es) := by
  have hg := runPieces_good hr
  have hlen := segs_length s (qs := runPieces es) fun q hq => (hg q hq).1
  rw [runPieces_bytes, ← allSegs_pieces] at hlen
  have hb := readable_any hr
  obtain ⟨a, e, rfl, he, ha⟩ := hco
  obtain ⟨st, Ls, as, bs, hc, e1, e2, e3⟩ := textRun_all hm (term := term) a (fun x hx => ⟨ha x hx, hb x (by simp [hx])⟩) e he (hb e (by simp)) (fuel := fuel) (by omega)
  rw [allSegs_pieces] at hc
  obtain ⟨c1, c2⟩ := pieceSegs_cut hm hg hc
  obtain ⟨p1, p2, p3⟩ := pieceLines_spec (runPieces (a ++ [e]))
  obtain ⟨g1, g2⟩ := pieceLines_good hg
  obtain ⟨r1, r2⟩ := rest_glyphs hm g2 p3 c2 hc.empty hc.last
  have hpr : printed true Ls as = (pieceLines (runPieces (a ++ [e]))).1.map (fun l => l.flatMap (segsOf s)) ++
      (if (pieceLines (runPieces (a ++ [e]))).2 = [] then [] else [as]) := by
    unfold printed
    by_cases h : as = []
    · rw [if_neg (by simp [h]), if_pos (r1.1 h), c1, List.append_nil]
    · rw [if_pos ⟨rfl, h⟩, if_neg (fun h' => h (r1.2 h')), c1]
  have hall : ∀ g ∈ as, ∃ k, TextSeg k g := fun g hgm => segs_text hm g2 g (by rw [← c2]; simp [hgm])
  obtain ⟨lines, hl⟩ := shown_lines (s := s) 1 (printed true Ls as) (textBodies s (runPieces (a ++ [e]))) (by
      rw [hpr]; unfold textBodies
      rw [List.length_append, List.length_append, List.length_map, List.length_map]
      congr 1; split <;> rfl) (by
    intro i hi hi'
    have hbd : ∀ y, textBodies s (runPieces (a ++ [e])) = y → (h : i < y.length) → y[i] = (textBodies s (runPieces (a ++ [e])))[i] := by
      rintro y rfl h; rfl
    by_cases hlt : i < (pieceLines (runPieces (a ++ [e]))).1.length
    · have x1 : (printed true Ls as)[i] = ((pieceLines (runPieces (a ++ [e]))).1[i]).flatMap (segsOf s) := by
        simp only [hpr]
        rw [List.getElem_append_left (by simpa using hlt), List.getElem_map]
      have x2 : (textBodies s (runPieces (a ++ [e])))[i] = glyphsAll s ((pieceLines (runPieces (a ++ [e]))).1[i]) := by
        simp only [textBodies]
        rw [List.getElem_append_left (by simpa using hlt), List.getElem_map]
      rw [x1, x2]
      obtain ⟨f1, f2, f3⟩ := full_lines hm (g1 _ (List.getElem_mem hlt)) (p2 _ (List.getElem_mem hlt))
      exact ⟨f1, f2, .inl f3⟩
    · have hR : (pieceLines (runPieces (a ++ [e]))).2 ≠ [] := by
        intro h
        rw [hpr, if_pos h, List.append_nil, List.length_map] at hi
        exact hlt hi
      have x1 : (printed true Ls as)[i] = as := by
        simp only [hpr]
        rw [List.getElem_append_right (by simpa using hlt)]
        simp only [if_neg hR, List.getElem_singleton]
      have x2 : (textBodies s (runPieces (a ++ [e])))[i] = plainOf as := by
        rw [r2]
        simp only [textBodies]
        rw [List.getElem_append_right (by simpa using hlt)]
        simp only [if_neg hR, List.getElem_singleton]
      rw [x1, x2]
      refine ⟨hall, ?_, .inr rfl⟩
      rw [r2]
      intro h
      exact glyphsAll_noNl hm g2 (List.mem_of_mem_take h))
  exact ⟨_, st, lines, bs, e1, hl, e2, hc.empty, e3⟩

/-- Everything about a run in text mode before the end of the input. -/
theorem textOpen {s : Settings} (hm : s.readMode.1 = .text) (term : Nat → Int) {es : List ReadEvent} (hu : Unfinished es) (hr : Readable es)
    {fuel : Nat} (hf : 4 * (delivered es).length < fuel) :
    ∃ out st lines, session fuel s term es = ⟨out, .ok st⟩ ∧
      ShownLines 1 out s ((pieceLines (runPieces es)).1.map (glyphsAll s)) lines ∧
      TextHold st ((pieceLines (runPieces es)).2.flatMap (segsOf s)) := by
  have hg := runPieces_good hr
  have hlen := segs_length s (qs := runPieces es) fun q hq => (hg q hq).1
  rw [runPieces_bytes, ← allSegs_pieces] at hlen
  have hb := readable_any hr
  obtain ⟨st, Ls, H, e1, e2, e3, e4, e5, -, -⟩ := textRun_open hm (term := term) es (fun x hx => ⟨hu x hx, hb x hx⟩) TextHold.start (by simp [NoNl])
    (fuel := fuel) (by simp; omega)
  rw [List.nil_append, allSegs_pieces] at e5
  obtain ⟨as, bs, rfl, k1, k2⟩ := rest_split H
  obtain ⟨c1, c2⟩ := pieceSegs_cut hm hg (Ls := Ls) (as := as) (bs := bs) ⟨e5.symm, e4, e3, k1, k2⟩
  obtain ⟨p1, p2, p3⟩ := pieceLines_spec (runPieces es)
  obtain ⟨g1, g2⟩ := pieceLines_good hg
  obtain ⟨lines, hl⟩ := shown_lines (s := s) 1 Ls ((pieceLines (runPieces es)).1.map (glyphsAll s)) (by rw [c1]; simp) (by
      intro i hi hi'
      have hlt : i < (pieceLines (runPieces es)).1.length := by simpa using hi'
      obtain ⟨f1, f2, f3⟩ := full_lines hm (g1 _ (List.getElem_mem hlt)) (p2 _ (List.getElem_mem hlt))
      simp only [c1, List.getElem_map]
      exact ⟨f1, f2, .inl f3⟩)
  rw [c2] at e2
  exact ⟨_, st, lines, e1, hl, e2⟩

end Kolombos
