/-
C80: texts rendered for tmux.
-/
import Verif.Lemmas.Tmux
import Verif.Props.Render

set_option linter.unusedSimpArgs false

namespace Kolombos
open Spec

theorem tmux_lines {o c : Str} {f g : TmuxPen → TmuxPen} (ho : ∀ p, Tmux.run ⟨.text, p⟩ o = (⟨.text, f p⟩, []))
    (hc : ∀ p, Tmux.run ⟨.text, p⟩ c = (⟨.text, g p⟩, [])) {pen : TmuxPen} {b : Bool} (hf : ∀ d, (d = true → b = true) → f (leftOver d) = pen)
    (hg : g pen = leftOver b) (ls : List Str) (hl : ∀ l ∈ ls, '#' ∉ l) (d : Bool) (hd : d = true → b = true) :
    Tmux.run ⟨.text, leftOver d⟩ (ls.map fun l => o ++ l ++ c).flatten =
      (⟨.text, leftOver (if ls = [] then d else b)⟩, ls.flatten.map fun k => (k, pen)) := by
  induction ls generalizing d with
  | nil => rfl
  | cons l ls ih =>
    simp only [List.map_cons, List.flatten_cons]
    rw [tmux_append, tmux_append, tmux_append, ho, hf d hd, tmux_text _ _ (hl l (by simp)), hc, hg,
      ih (fun x hx => hl x (by simp [hx])) b (fun h => h)]
    simp

theorem splitLines_nil {s : Str} : splitLines s = [] ↔ s = [] := by
  constructor
  · intro h
    have := splitLines_flatten s
    rw [h] at this
    simpa using this.symm
  · rintro rfl; rfl

/-- One run, after another one that may have left its double underline. -/
theorem tmuxRender_shown {reg16 reg256 : List (Nat × IxColor)} {p : Palettes}
    (k : PaletteKnown reg16 reg256) (i : PaletteInv reg16 reg256 p) {cfg : RenderConfig}
    (al : cfg.sgrAllowed = true) {s : PStyle} (hs : s.Known) {text : Str} (ht : '#' ∉ text) :
    ∃ out p' fg bg, tmuxRender cfg p text s = some (out, p') ∧ PaletteInv reg16 reg256 p'
      ∧ ColorShown reg16 reg256 cfg.compat256 cfg.compat16 false s.fg fg
      ∧ ColorShown reg16 reg256 cfg.compat256 cfg.compat16 true s.bg bg
      ∧ ∀ d, (d = true → s.doubleUnderlined = some true) → Tmux.run ⟨.text, leftOver d⟩ out =
          (⟨.text, leftOver (if text = [] then d else decide (s.doubleUnderlined = some true))⟩,
            text.map (fun c => (c, tmuxPen s fg bg))) := by
  obtain ⟨f, p1, fg, e1, i1, c1, d1⟩ := renderColor_shown k i al hs.1 false
  obtain ⟨b, p2, bg, e2, i2, c2, d2⟩ := renderColor_shown k i1 al hs.2 true
  obtain ⟨fa, ga, a1, a2, a3, a4⟩ := attributes_eff al s
  obtain ⟨ff, gf, f1, f2, f3, f4⟩ := color_eff d1.shape
  obtain ⟨fb, gb, b1, b2, b3, b4⟩ := color_eff d2.shape
  obtain ⟨o, o1, o2⟩ := effL_append a1 (effL_cons f1 (effL_cons b1 effL_nil))
  obtain ⟨c, x1, x2⟩ := effL_append a2 (effL_cons f2 (effL_cons b2 effL_nil))
  have e : (attributeSgrs cfg s ++ [f, b]).map Sgr.closing = (attributeSgrs cfg s).map Sgr.closing ++ [Sgr.closing f, Sgr.closing b] := by
    simp
  rw [← e] at x1
  refine ⟨((splitLines text).map fun l => o ++ l ++ c).flatten, p2, fg, bg, ?_, i2, c1, c2, ?_⟩
  · simp only [tmuxRender, e1, e2, o1, x1]
  · intro d hd
    have := tmux_lines (pen := tmuxPen s fg bg) (b := decide (s.doubleUnderlined = some true)) o2 x2 ?_ ?_ (splitLines text)
      (fun l hl hm => ht (mem_splitLines hl hm)) d (by simpa using hd)
    · rw [this, splitLines_flatten]
      simp only [splitLines_nil]
    · intro d hd
      simp only [Function.comp_apply, id_eq]
      rw [a3 d (by simpa using hd), f3 _ rfl, b3 _ rfl]
      rfl
    · simp only [Function.comp_apply, id_eq]
      rw [a4, f4 _ rfl, b4 _ rfl]
      rfl

theorem tmuxRenderText_shown {reg16 reg256 : List (Nat × IxColor)} {cfg : RenderConfig}
    (k : PaletteKnown reg16 reg256) (al : cfg.sgrAllowed = true) (runs : List TextRun)
    (hs : ∀ r ∈ runs, ∀ s, r.style = some s → s.Known ∧ s.doubleUnderlined ≠ some true) (ht : ∀ r ∈ runs, '#' ∉ r.string)
    (p : Palettes) (i : PaletteInv reg16 reg256 p) :
    ∃ out p' pens, tmuxRenderText cfg p runs = some (out, p')
      ∧ List.Forall₂ (TmuxRunPen reg16 reg256 cfg) runs pens
      ∧ Tmux.run {} out = ({}, drawn runs pens) := by
  induction runs generalizing p with
  | nil => exact ⟨[], p, [], rfl, .nil, rfl⟩
  | cons r rs ih =>
    have ih := ih (fun r hr => hs r (by simp [hr])) (fun r hr => ht r (by simp [hr]))
    have ht0 := ht r (by simp)
    cases hst : r.style with
    | none =>
      obtain ⟨out, p', pens, h1, h2, h3⟩ := ih p i
      refine ⟨r.string ++ out, p', {} :: pens, ?_, .cons ?_ h2, ?_⟩
      · simp only [tmuxRenderText, hst, h1]
      · simp only [TmuxRunPen, hst]
      · rw [tmux_append, tmux_text _ _ ht0, h3]
        rfl
    | some s =>
      obtain ⟨hk, hd⟩ := hs r (by simp) s hst
      obtain ⟨a, p1, fg, bg, e1, i1, c1, c2, e2⟩ := tmuxRender_shown k i al hk ht0
      obtain ⟨out, p', pens, h1, h2, h3⟩ := ih p1 i1
      have e2 := e2 false (by simp)
      have e3 : leftOver (if r.string = [] then false else decide (s.doubleUnderlined = some true)) = {} := by
        simp [hd, leftOver]
      rw [e3] at e2
      refine ⟨a ++ out, p', tmuxPen s fg bg :: pens, ?_, .cons ?_ h2, ?_⟩
      · simp only [tmuxRenderText, hst, e1, h1]
      · simp only [TmuxRunPen, hst]
        exact ⟨fg, bg, c1, c2, rfl⟩
      · rw [tmux_append]
        have e2' : Tmux.run {} a = _ := e2
        rw [e2', h3]
        rfl

/-- tmux draws the characters of a text with their styles, and afterwards its
state is the default. -/
theorem C80_shown_partial (ops16 ops256 : List ColorOp) (hp : Palette ops16 ops256)
    (cfg : RenderConfig) (hc : cfg.Styled) (runs : List TextRun)
    (hs : ∀ r ∈ runs, ∀ s, r.style = some s → s.Known ∧ s.doubleUnderlined ≠ some true)
    (ht : ∀ r ∈ runs, '#' ∉ r.string) :
    ∃ p16 p256 out p' pens, colorRun {} ops16 = some p16 ∧ colorRun {} ops256 = some p256
      ∧ tmuxRenderText cfg ⟨p16, p256⟩ runs = some (out, p')
      ∧ List.Forall₂ (TmuxRunPen (created ops16) (created ops256) cfg) runs pens
      ∧ Tmux.run {} out = ({}, drawn runs pens) := by
  obtain ⟨p16, e1, i1⟩ := palette_run (fun e he => (hp.known16 e he).1)
  obtain ⟨p256, e2, i2⟩ := palette_run (fun e he => (hp.known256 e he).1)
  obtain ⟨out, p', pens, h1, h3, h4⟩ :=
    tmuxRenderText_shown (palette_known hp) (styled_allowed.mpr hc) runs hs ht ⟨p16, p256⟩ ⟨i1, i2⟩
  exact ⟨p16, p256, out, p', pens, e1, e2, h1, h3, h4⟩

/-- A style with a double underline is drawn as well, but the double underline
stays: there is no word for its end. -/
theorem C80_double (ops16 ops256 : List ColorOp) (hp : Palette ops16 ops256)
    (cfg : RenderConfig) (hc : cfg.Styled) (text : Str) (s : PStyle) (hs : s.Known) (ht : '#' ∉ text) :
    ∃ p16 p256 out p' q, colorRun {} ops16 = some p16 ∧ colorRun {} ops256 = some p256
      ∧ tmuxRenderText cfg ⟨p16, p256⟩ [⟨text, some s⟩] = some (out, p')
      ∧ TmuxRunPen (created ops16) (created ops256) cfg ⟨text, some s⟩ q
      ∧ (Tmux.run {} out).2 = text.map (fun c => (c, q))
      ∧ (Tmux.run {} out).1.pen = { doubleUnderscore := decide (text ≠ [] ∧ s.doubleUnderlined = some true) } := by
  obtain ⟨p16, e1, i1⟩ := palette_run (fun e he => (hp.known16 e he).1)
  obtain ⟨p256, e2, i2⟩ := palette_run (fun e he => (hp.known256 e he).1)
  obtain ⟨out, p', fg, bg, h1, -, h2, h3, h4⟩ :=
    tmuxRender_shown (palette_known hp) (p := ⟨p16, p256⟩) ⟨i1, i2⟩ (styled_allowed.mpr hc) hs ht
  have h5 : Tmux.run {} out = _ := h4 false (by simp)
  refine ⟨p16, p256, out, p', _, e1, e2, by simp [tmuxRenderText, h1], ⟨fg, bg, h2, h3, rfl⟩, by rw [h5], ?_⟩
  rw [h5]
  by_cases h : text = [] <;> simp [h, leftOver]

/-- Without styles a text is written as it is. -/
theorem C80_plain (cfg : RenderConfig) (hc : ¬ cfg.Styled) (p : Palettes) (runs : List TextRun) :
    tmuxRenderText cfg p runs = some ((runs.map TextRun.string).flatten, p) := by
  have al : cfg.sgrAllowed = false := by
    cases h : cfg.sgrAllowed with
    | false => rfl
    | true => exact absurd (styled_allowed.mp h) hc
  have one : ∀ (text : Str) (s : PStyle), tmuxRender cfg p text s = some (text, p) := by
    intro text s
    have rc : ∀ c bg, renderColor cfg p c bg = some ([], p) := by
      intro c bg
      unfold renderColor
      cases c.hex <;> simp [al]
    have ra : attributeSgrs cfg s = [[]] := by simp [attributeSgrs, al]
    have e : sgrsToTmux ([[]] ++ [[], []]) = some [] := by decide +kernel
    have e' : sgrsToTmux (([[]] ++ [[], []]).map Sgr.closing) = some [] := by decide +kernel
    simp only [tmuxRender, rc, ra, e, e']
    have : (splitLines text).map (fun l => [] ++ l ++ []) = splitLines text := by simp
    rw [this, splitLines_flatten]
  induction runs with
  | nil => rfl
  | cons r rs ih =>
    cases hs : r.style with
    | none => simp only [tmuxRenderText, hs, ih, List.map_cons, List.flatten_cons]
    | some s => simp only [tmuxRenderText, hs, one, ih, List.map_cons, List.flatten_cons]

/-- A text with a number sign may be taken for a style, so that not all of its
characters are drawn. -/
theorem C80_negation : ¬ ∀ (cfg : RenderConfig) (p : Palettes) (runs : List TextRun) (out : Str) (p' : Palettes), cfg.Styled →
    tmuxRenderText cfg p runs = some (out, p') → (Tmux.run {} out).2.map Prod.fst = (runs.map TextRun.string).flatten := by
  intro h
  have := h { forceStyles := some true, isatty := false } {} [⟨"a#[b]".toList, none⟩] "a#[b]".toList {} (.inl rfl) rfl
  exact absurd this (by decide)

/-- What follows a text with a double underline is drawn with it, too. -/
theorem C80_negation_state : ¬ ∀ (cfg : RenderConfig) (p : Palettes) (runs : List TextRun) (out : Str) (p' : Palettes), cfg.Styled →
    tmuxRenderText cfg p runs = some (out, p') → (Tmux.run {} out).1 = {} := by
  intro h
  have := h { forceStyles := some true, isatty := false } {} [⟨"a".toList, some { doubleUnderlined := some true }⟩]
    "#[double-underscore]a#[nounderscore]".toList {} (.inl rfl) (by decide +kernel)
  exact absurd this (by decide +kernel)

/-- Two lines in bold red on a true colour. -/
example : tmuxRenderText { forceStyles := some true, isatty := false } {}
      [⟨"a\nb".toList, some { bold := some true, fg := .ix16 { hex := some 0x800000, code := some 31, codeBg := some 41 }, bg := .rgb (some 0x0180ff) }⟩] =
    some ("#[bold]#[fg=red]#[bg=#0180ff]a\n#[nobold nodim]#[fg=default]#[bg=default]#[bold]#[fg=red]#[bg=#0180ff]b#[nobold nodim]#[fg=default]#[bg=default]".toList, {}) := by
  decide +kernel

end Kolombos
