/-
C104: the default renderer and the preferences of renderers.
-/
import Verif.Spec.Renderers
import Verif.Props.Render
import Verif.Props.Tmux
import Verif.Props.Html
import Verif.Props.DebugRender

set_option linter.unusedSimpArgs false

namespace Kolombos
open Spec

theorem renderUsing_sgr (order : List Str → List Str) (cfg : RenderConfig) (p : Palettes) (runs : List TextRun) :
    renderUsing order .sgr cfg p runs = renderText cfg p runs := by
  induction runs generalizing p with
  | nil => rfl
  | cons r rs ih =>
    rw [renderUsing, renderText]
    unfold renderRun
    cases r.style with
    | none => simp only [ih]; rfl
    | some s => simp only [renderWith, ih]; rfl

theorem renderUsing_tmux (order : List Str → List Str) (cfg : RenderConfig) (p : Palettes) (runs : List TextRun) :
    renderUsing order .tmux cfg p runs = tmuxRenderText cfg p runs := by
  induction runs generalizing p with
  | nil => rfl
  | cons r rs ih =>
    rw [renderUsing, tmuxRenderText]
    simp only [renderWith, ih]
    rfl

/-- The state after some calls is what the calls say. -/
theorem after_calls (calls : List SetUp) :
    let st := calls.foldl RendererState.step {}
    st.default = defaultAfter calls ∧ st.tmux = ownAfter .tmux calls ∧ st.debug = ownAfter .debug calls
      ∧ st.sgr = (ownAfter .sgr calls).getD {} := by
  induction calls using List.reverseRecOn with
  | nil => exact ⟨rfl, rfl, rfl, rfl⟩
  | append_singleton calls c ih =>
    obtain ⟨h1, h2, h3, h4⟩ := ih
    simp only [List.foldl_append, List.foldl_cons, List.foldl_nil]
    unfold defaultAfter ownAfter at *
    simp only [List.reverse_append, List.reverse_cons, List.reverse_nil, List.nil_append, List.cons_append, List.findSome?_cons]
    cases c with
    | manager r => cases r <;> exact ⟨rfl, h2, h3, h4⟩
    | renderer d p => cases d <;> simp [RendererState.step, h1, h2, h3, h4]

theorem prefs_after (calls : List SetUp) (c : RendererClass) (hc : c = .sgr ∨ c = .tmux ∨ c = .debug) :
    (calls.foldl RendererState.step {}).prefs c = prefsAfter c calls := by
  obtain ⟨-, h2, h3, h4⟩ := after_calls calls
  unfold prefsAfter RendererState.prefs
  rcases hc with rfl | rfl | rfl
  · simp only [h4]; cases ownAfter .sgr calls <;> rfl
  · simp only [h2, h4]; cases ownAfter .tmux calls <;> cases ownAfter .sgr calls <;> rfl
  · simp only [h3, h4]; cases ownAfter .debug calls <;> cases ownAfter .sgr calls <;> rfl

/-- A text whose default renderer passes it on as it is. -/
theorem renderUsing_noOp (order : List Str → List Str) (cfg : RenderConfig) (p : Palettes) (runs : List TextRun) :
    renderUsing order .noOp cfg p runs = some ((runs.map TextRun.string).flatten, p) := by
  induction runs with
  | nil => rfl
  | cons r rs ih =>
    rw [renderUsing]
    cases r.style with
    | none => simp only [ih]; rfl
    | some s => simp only [renderWith, noOpRender, ih]; rfl

/-- After any calls of `set_up`, a text rendered with the default renderer appears on a
terminal as it is, each character in its style, if the terminal renderer is the one named last
and its preferences allow styles: only the last preferences count. -/
theorem C104_terminal (calls : List SetUp) (order : List Str → List Str) (isatty : Bool) (ops16 ops256 : List ColorOp) (hp : Palette ops16 ops256)
    (hd : defaultAfter calls = .sgr) (hc : (asked (prefsAfter .sgr calls) isatty).Styled) (runs : List TextRun)
    (hs : ∀ r ∈ runs, ∀ s, r.style = some s → s.Known) (ht : ∀ r ∈ runs, '\x1b' ∉ r.string) :
    ∃ p16 p256 out p' pens, colorRun {} ops16 = some p16 ∧ colorRun {} ops256 = some p256
      ∧ (calls.foldl RendererState.step {}).render order isatty ⟨p16, p256⟩ runs = some (out, p')
      ∧ List.Forall₂ (RunPen (created ops16) (created ops256) (asked (prefsAfter .sgr calls) isatty)) runs pens
      ∧ Term.run {} out = ({}, written runs pens) := by
  unfold RendererState.render
  rw [(after_calls calls).1, hd, prefs_after _ _ (.inl rfl)]
  simp only [renderUsing_sgr]
  exact C59_shown ops16 ops256 hp _ hc runs hs ht

/-- Settings made before the last ones do not matter: the output is no terminal, but styles are forced. -/
example : let calls : List SetUp := [.manager (some .html), .renderer .sgr ⟨none, false, true⟩, .renderer .sgr ⟨some true, true, false⟩, .manager none]
    defaultAfter calls = .sgr ∧ (asked (prefsAfter .sgr calls) false).Styled ∧ (prefsAfter .sgr calls).compat256 = true :=
  ⟨by decide, .inl (by decide), by decide⟩

/-- The same for tmux; the renderer for tmux has its own preferences from the first time on they are set. -/
theorem C104_tmux_partial (calls : List SetUp) (order : List Str → List Str) (isatty : Bool) (ops16 ops256 : List ColorOp) (hp : Palette ops16 ops256)
    (hd : defaultAfter calls = .tmux) (hc : (asked (prefsAfter .tmux calls) isatty).Styled) (runs : List TextRun)
    (hs : ∀ r ∈ runs, ∀ s, r.style = some s → s.Known ∧ s.doubleUnderlined ≠ some true) (ht : ∀ r ∈ runs, '#' ∉ r.string) :
    ∃ p16 p256 out p' pens, colorRun {} ops16 = some p16 ∧ colorRun {} ops256 = some p256
      ∧ (calls.foldl RendererState.step {}).render order isatty ⟨p16, p256⟩ runs = some (out, p')
      ∧ List.Forall₂ (TmuxRunPen (created ops16) (created ops256) (asked (prefsAfter .tmux calls) isatty)) runs pens
      ∧ Tmux.run {} out = ({}, drawn runs pens) := by
  unfold RendererState.render
  rw [(after_calls calls).1, hd, prefs_after _ _ (.inr (.inl rfl))]
  simp only [renderUsing_tmux]
  exact C80_shown_partial ops16 ops256 hp _ hc runs hs ht

/-- A text is written as it is if the last renderer named is the one that does nothing, or
one of those for a terminal or tmux whose preferences do not allow styles. -/
theorem C104_plain (calls : List SetUp) (order : List Str → List Str) (isatty : Bool) (p : Palettes) (runs : List TextRun)
    (h : defaultAfter calls = .noOp ∨
      ((defaultAfter calls = .sgr ∨ defaultAfter calls = .tmux) ∧ ¬ (asked (prefsAfter (defaultAfter calls) calls) isatty).Styled)) :
    (calls.foldl RendererState.step {}).render order isatty p runs = some ((runs.map TextRun.string).flatten, p) := by
  unfold RendererState.render
  rw [(after_calls calls).1]
  rcases h with h | ⟨h | h, hc⟩
  · rw [h, renderUsing_noOp]
  · rw [h] at hc ⊢
    rw [prefs_after _ _ (.inl rfl), renderUsing_sgr]
    exact C59_plain (asked _ isatty) hc p runs
  · rw [h] at hc ⊢
    rw [prefs_after _ _ (.inr (.inl rfl)), renderUsing_tmux]
    exact C80_plain (asked _ isatty) hc p runs

/-- With forced styles it does not matter whether the output is a terminal. -/
theorem forced_tty (a b t t' : Bool) (p : Palettes) (text : Str) (s : PStyle) :
    sgrRender ⟨some true, a, b, t⟩ p text s = sgrRender ⟨some true, a, b, t'⟩ p text s := by
  have ha : ∀ t, (⟨some true, a, b, t⟩ : RenderConfig).sgrAllowed = true := fun t => rfl
  have hc : ∀ p c bg, renderColor ⟨some true, a, b, t⟩ p c bg = renderColor ⟨some true, a, b, t'⟩ p c bg := by
    intro p c bg
    unfold renderColor
    simp only [ha]
  have hr : renderAttributes ⟨some true, a, b, t⟩ s = renderAttributes ⟨some true, a, b, t'⟩ s := by
    unfold renderAttributes attributeSgrs
    simp only [ha]
  unfold sgrRender openingSgr
  simp only [hc, hr]

/-- Neither the terminal nor preferences other than the number of colours matter for the debug renderer, and none
for HTML. -/
theorem C104_others (calls calls' : List SetUp) (order : List Str → List Str) (isatty isatty' : Bool) (p : Palettes) (runs : List TextRun)
    (he : defaultAfter calls = defaultAfter calls')
    (h : defaultAfter calls = .html ∨ (defaultAfter calls = .debug
      ∧ (prefsAfter .debug calls).compat256 = (prefsAfter .debug calls').compat256
      ∧ (prefsAfter .debug calls).compat16 = (prefsAfter .debug calls').compat16)) :
    (calls.foldl RendererState.step {}).render order isatty p runs = (calls'.foldl RendererState.step {}).render order isatty' p runs := by
  have key : ∀ (c : RendererClass) (cfg cfg' : RenderConfig), (∀ p text s, renderWith order c cfg p text s = renderWith order c cfg' p text s) →
      ∀ p, renderUsing order c cfg p runs = renderUsing order c cfg' p runs := by
    intro c cfg cfg' hh
    induction runs with
    | nil => intro p; rfl
    | cons r rs ih =>
      intro p
      rw [renderUsing, renderUsing]
      simp only [hh, ih]
  unfold RendererState.render
  rw [(after_calls calls).1, (after_calls calls').1, ← he]
  rcases h with h | ⟨h, h1, h2⟩
  · rw [h]
    refine key _ _ _ (fun _ _ _ => ?_) _
    rfl
  · rw [h, prefs_after _ _ (.inr (.inr rfl)), prefs_after _ _ (.inr (.inr rfl))]
    refine key _ _ _ (fun p text s => ?_) _
    simp only [renderWith, debugRender, Prefs.config, h1, h2]
    rw [forced_tty _ _ isatty isatty']

/-- The documentation of `force_styles=None`, as far as it is true: the renderers for terminals and, unless it has been set up
itself, for tmux write every text as it is, and so does the one that does nothing. -/
theorem C104_off_partial (calls : List SetUp) (order : List Str → List Str) (isatty : Bool) (p : Palettes) (runs : List TextRun) (c : RendererClass) (c256 c16 : Bool)
    (hc : c = .sgr ∨ c = .noOp ∨ (c = .tmux ∧ ∀ q, SetUp.renderer .tmux q ∉ calls)) :
    ((calls ++ [SetUp.renderer .sgr ⟨none, c256, c16⟩, .manager (some c)]).foldl RendererState.step {}).render order isatty p runs =
      some ((runs.map TextRun.string).flatten, p) := by
  apply C104_plain
  have hd : defaultAfter (calls ++ [SetUp.renderer .sgr ⟨none, c256, c16⟩, .manager (some c)]) = c := by
    unfold defaultAfter
    simp
  have hns : ¬ (({ forceStyles := none, compat256 := c256, compat16 := c16 } : Prefs).config isatty).Styled := by
    rintro (h | ⟨h, _⟩) <;> cases h
  rw [hd]
  rcases hc with rfl | rfl | ⟨rfl, hno⟩
  · refine .inr ⟨.inl rfl, ?_⟩
    have : prefsAfter .sgr (calls ++ [SetUp.renderer .sgr ⟨none, c256, c16⟩, .manager (some .sgr)]) = ⟨none, c256, c16⟩ := by
      unfold prefsAfter ownAfter
      simp
    rw [this]
    exact hns
  · exact .inl rfl
  · refine .inr ⟨.inr rfl, ?_⟩
    have h1 : ownAfter .tmux (calls ++ [SetUp.renderer .sgr ⟨none, c256, c16⟩, .manager (some .tmux)]) = none := by
      unfold ownAfter
      simp only [List.reverse_append, List.reverse_cons, List.reverse_nil, List.nil_append, List.cons_append, List.findSome?_cons]
      simp only [reduceCtorEq, if_false]
      rw [List.findSome?_eq_none_iff]
      intro x hx
      cases x with
      | manager r => rfl
      | renderer d q =>
        simp only
        rw [if_neg]
        rintro rfl
        exact hno q (by simpa using hx)
    have : prefsAfter .tmux (calls ++ [SetUp.renderer .sgr ⟨none, c256, c16⟩, .manager (some .tmux)]) = ⟨none, c256, c16⟩ := by
      unfold prefsAfter
      rw [h1]
      unfold ownAfter
      simp
    rw [this]
    exact hns

/-- It is not true of the debug renderer (nor of HTML). -/
theorem C104_negation : ¬ ∀ (calls : List SetUp) (order : List Str → List Str) (isatty : Bool) (p : Palettes) (runs : List TextRun) (c : RendererClass),
    (∀ q, SetUp.renderer c q ∉ calls) →
    ((calls ++ [SetUp.renderer .sgr ⟨none, false, false⟩, .manager (some c)]).foldl RendererState.step {}).render order isatty p runs =
      some ((runs.map TextRun.string).flatten, p) := by
  intro h
  have := h [] id true {} [⟨['a'], some { bold := some true }⟩] .debug (by simp)
  exact absurd this (by decide +kernel)

/-- Nor of tmux, once its renderer has been set up: "affects all renderer types" in the documentation of
`set_up` is not true then. -/
theorem C104_negation_tmux : ¬ ∀ (calls : List SetUp) (order : List Str → List Str) (isatty : Bool) (p : Palettes) (runs : List TextRun),
    ((calls ++ [SetUp.renderer .sgr ⟨none, false, false⟩, .manager (some .tmux)]).foldl RendererState.step {}).render order isatty p runs =
      some ((runs.map TextRun.string).flatten, p) := by
  intro h
  have := h [.renderer .tmux {}] id true {} [⟨['a'], some { bold := some true }⟩]
  exact absurd this (by decide +kernel)

/-- The example of the documentation, after other settings. -/
example : (([.renderer .sgr ⟨none, true, false⟩, .manager (some .html), .manager (some .debug)] : List SetUp).foldl RendererState.step {}).render
    id false {} [⟨"text".toList, some { fg := .ix16 { hex := some 0x800000, code := some 31, codeBg := some 41 } }⟩, ⟨"!".toList, none⟩] = some ("|ǝ31|text|ǝ39|!".toList, {}) := by
  decide +kernel

end Kolombos
