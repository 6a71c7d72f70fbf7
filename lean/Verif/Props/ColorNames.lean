import Verif.Model.ColorNames
import Verif.Spec.ColorNames
import Verif.Props.Ansi
import Verif.Props.Render
/-
C103: colours by name.
-/
set_option linter.unusedSimpArgs false

namespace Kolombos
open Spec

/-! ### The table -/

theorem colorTable_upper : ∀ e ∈ colorTable, pyUpper e.1 = e.1 := by decide +kernel

theorem colorTable_find : ∀ e ∈ colorTable, colorTable.find? (fun x => x.1 == e.1) = some e := by decide +kernel

/-- A name is found iff it is in the table, apart from the case of letters. -/
theorem colorsResolve_iff {name : Str} {c : PColor} : colorsResolve name = .ok c ↔ (pyUpper name, c) ∈ colorTable := by
  unfold colorsResolve
  constructor
  · intro h
    cases hf : colorTable.find? (fun e => e.1 == pyUpper name) with
    | none => rw [hf] at h; cases h
    | some e =>
      rw [hf] at h
      simp only [Except.ok.injEq] at h
      have h1 := List.find?_some hf
      simp only [beq_iff_eq] at h1
      have h2 := List.mem_of_find?_eq_some hf
      rw [← h1, ← h]
      exact h2
  · intro h
    have := colorTable_find _ h
    simp only at this
    rw [this]

/-- What an entry may be. -/
def okColor : PColor → Bool
  | .ix16 c => (List.range 8).any fun i => decide (PColor.ix16 c = basicColor false i) || decide (PColor.ix16 c = basicColor true i)
  | .ix256 c => decide (16 ≤ c.code.getD 0) && decide (c.code.getD 0 ≤ 255) && decide (PColor.ix256 c = indexedColor (c.code.getD 0))
  | .rgb h => match h with
    | some h => decide (h < 16777216)
    | none => false

theorem colorTable_ok : ∀ e ∈ colorTable, okColor e.2 = true := by decide +kernel

/-! ### C103 -/

/-- C103: whatever a name stands for is a colour of one of the palettes, with the value and the codes that terminals have for it, or a
24-bit colour; all other names raise `KeyError`. -/
theorem C103_meaning (name : Str) :
    (∃ c, colorsResolve name = .ok c ∧ ((∃ b i, i < 8 ∧ c = basicColor b i) ∨ (∃ n, 16 ≤ n ∧ n ≤ 255 ∧ c = indexedColor n) ∨
      ∃ h, h < 16777216 ∧ c = .rgb (some h))) ∨ colorsResolve name = .error .key := by
  cases hr : colorsResolve name with
  | error e =>
    unfold colorsResolve at hr
    split at hr
    · cases hr
    · cases hr; exact .inr rfl
  | ok c =>
    refine .inl ⟨c, rfl, ?_⟩
    have h := colorTable_ok _ (colorsResolve_iff.1 hr)
    cases c with
    | ix16 c =>
      left
      simp only [okColor, List.any_eq_true, List.mem_range, Bool.or_eq_true, decide_eq_true_eq] at h
      obtain ⟨i, hi, h | h⟩ := h
      · exact ⟨false, i, hi, h⟩
      · exact ⟨true, i, hi, h⟩
    | ix256 c =>
      right; left
      simp only [okColor, Bool.and_eq_true, decide_eq_true_eq] at h
      exact ⟨_, h.1.1, h.1.2, h.2⟩
    | rgb h' =>
      right; right
      cases h' with
      | none => simp [okColor] at h
      | some v => simp only [okColor, decide_eq_true_eq] at h; exact ⟨v, h, rfl⟩

theorem complete_basic : ∀ b : Bool, ∀ i ∈ List.range 8, ∃ e ∈ colorTable, e.2 = basicColor b i := by decide +kernel
theorem complete_indexed : ∀ n ∈ List.range' 16 240, ∃ e ∈ colorTable, e.2 = indexedColor n := by decide +kernel

/-- C103: every colour of the 16-colour palette, and every colour of the 256-colour palette from 16 on, has a name. -/
theorem C103_complete :
    (∀ b i, i < 8 → ∃ name, colorsResolve name = .ok (basicColor b i)) ∧
    (∀ n, 16 ≤ n → n ≤ 255 → ∃ name, colorsResolve name = .ok (indexedColor n)) := by
  have key : ∀ e ∈ colorTable, colorsResolve e.1 = .ok e.2 := fun e he => colorsResolve_iff.2 (by rw [colorTable_upper e he]; exact he)
  constructor
  · intro b i hi
    obtain ⟨e, he, h⟩ := complete_basic b i (List.mem_range.2 hi)
    exact ⟨e.1, by rw [key e he, h]⟩
  · intro n h1 h2
    obtain ⟨e, he, h⟩ := complete_indexed n (by rw [List.mem_range'_1]; omega)
    exact ⟨e.1, by rw [key e he, h]⟩

/-- C103: upper and lower case do not matter. -/
theorem C103_case (name name' : Str) (h : lower name = lower name') : colorsResolve name = colorsResolve name' := by
  unfold colorsResolve
  rw [← upper_lower name, h, upper_lower]

/-! ### Greys -/

theorem upper_digits (n : Nat) : pyUpper (dec n) = dec n := by
  have : ∀ s : Str, (∀ c ∈ s, c.isDigit = true) → pyUpper s = s := by
    intro s hs
    induction s with
    | nil => rfl
    | cons c s ih =>
      rw [pyUpper_cons, ih fun c hc => hs c (by simp [hc])]
      have := hs c (by simp)
      have h1 : c.toNat < 128 := by
        simp only [Char.isDigit, Bool.and_eq_true, decide_eq_true_eq] at this
        have := this.2
        have : c.toNat ≤ 57 := this
        omega
      have h2 : upperChar c = [c] := by
        revert this
        exact lt128_cases (P := fun c => c.isDigit = true → upperChar c = [c]) (by decide +kernel) c h1
      rw [h2]
      rfl
  exact this _ fun c hc => dec_digit hc

/-- The greys of the table, with their percentages. -/
theorem colorTable_grey : ∀ e ∈ colorTable, ∀ p ∈ [chars% "GREY_", chars% "RGB_GREY_"], p <+: e.1 → e.1 ≠ chars% "GREY_63" →
    ∃ m ∈ List.range 101, e.1 = p ++ dec m ∧ ∃ v ∈ List.range 256, e.2.hex = some (65793 * v) ∧ 1000 * v ≤ 2550 * m + 1530 ∧ 2550 * m ≤ 1000 * v + 1530 := by
  decide +kernel

/-- C103: the names `grey_<n>` and `rgb_grey_<n>` stand for greys of `n` percent, except for `grey_63`. -/
theorem C103_grey_partial (n : Nat) (p : Str) (hp : p = chars% "GREY_" ∨ p = chars% "RGB_GREY_") (c : PColor) (h : colorsResolve (p ++ dec n) = .ok c)
    (hn : ¬ (p = chars% "GREY_" ∧ n = 63)) : IsGrey n c := by
  have hu : pyUpper (p ++ dec n) = p ++ dec n := by
    rw [pyUpper_append, upper_digits]
    congr 1
    rcases hp with rfl | rfl <;> decide
  have hm := colorsResolve_iff.1 h
  rw [hu] at hm
  have hne : p ++ dec n ≠ chars% "GREY_63" := by
    intro e
    rcases hp with rfl | rfl
    · have : dec n = dec 63 := by
        have h1 : dec n = ['6', '3'] := by simpa using e
        rw [h1]; decide
      exact hn ⟨rfl, dec_inj this⟩
    · simp at e
  obtain ⟨m, -, e1, v, hv, e2, e3, e4⟩ := colorTable_grey _ hm p (by rcases hp with rfl | rfl <;> simp) (List.prefix_append _ _) hne
  have : m = n := (dec_inj (List.append_cancel_left e1)).symm
  subst this
  exact ⟨v, e2, by have := List.mem_range.1 hv; omega, e3, e4⟩

/-- C103: `grey_63` is not a grey. -/
theorem C103_negation : ¬ ∀ (n : Nat) (c : PColor), colorsResolve (chars% "grey_" ++ dec n) = .ok c → IsGrey n c := by
  intro h
  have h1 : colorsResolve (chars% "grey_" ++ dec 63) = .ok (indexedColor 139) := by decide +kernel
  obtain ⟨v, h2, h3, -, -⟩ := h 63 _ h1
  have h4 : (indexedColor 139).hex = some 0xaf87af := by decide +kernel
  rw [h4] at h2
  simp only [Option.some.injEq] at h2
  omega

/-! ### On the terminal -/

theorem meaning_known {name : Str} {c : PColor} (h : colorsResolve name = .ok c) : c.Known ∧ c.hex ≠ none := by
  rcases C103_meaning name with ⟨c', h1, h2⟩ | h1
  · rw [h] at h1
    cases h1
    rcases h2 with ⟨b, i, hi, rfl⟩ | ⟨n, h1, h2, rfl⟩ | ⟨v, hv, rfl⟩
    · refine ⟨?_, by simp [basicColor, PColor.hex]⟩
      intro v hv
      simp only [Option.some.injEq] at hv
      subst hv
      refine ⟨?_, (if b then 90 else 30) + i, rfl, rfl, ?_⟩
      · have : ∀ b : Bool, ∀ i ∈ List.range 8, vgaColor b i < 16777216 := by decide +kernel
        exact this b i (List.mem_range.2 hi)
      · cases b <;> simp <;> omega
    · refine ⟨?_, by simp [indexedColor, PColor.hex]⟩
      intro v hv
      simp only [Option.some.injEq] at hv
      subst hv
      refine ⟨?_, n, rfl, h2⟩
      have : ∀ n ∈ List.range' 16 240, xtermColor n < 16777216 := by decide +kernel
      exact this n (by rw [List.mem_range'_1]; omega)
    · exact ⟨fun u hu => by cases hu; exact hv, by simp [PColor.hex]⟩
  · rw [h] at h1; cases h1

theorem shown_fg {r16 r256 : List (Nat × IxColor)} {c : PColor} {f : Spec.Color} (hhex : c.hex ≠ none)
    (s : ColorShown r16 r256 false false false c f) : f = onTerminal c := by
  cases s with
  | unset h => exact absurd h hhex
  | trueColor => rfl
  | indexed a b code => simp [onTerminal, code]
  | basic hex code => simp only [Bool.false_eq_true, if_false] at code; simp [onTerminal, code]
  | rgbTo256 _ h => cases h
  | rgbTo16 h => cases h
  | indexedTo16 h => cases h

theorem shown_bg {r16 r256 : List (Nat × IxColor)} {c : PColor} {f : Spec.Color} (hhex : c.hex ≠ none)
    (s : ColorShown r16 r256 false false true c f) : f = behindText c := by
  cases s with
  | unset h => exact absurd h hhex
  | trueColor => rfl
  | indexed a b code => simp [behindText, code]
  | basic hex code => simp only [if_true] at code; simp [behindText, code]
  | rgbTo256 _ h => cases h
  | rgbTo16 h => cases h
  | indexedTo16 h => cases h

/-- C103: a text with the name of a colour as its style appears in this colour, all of it and nothing else, whatever was created and
rendered before. -/
theorem C103_shown (ops16 ops256 : List ColorOp) (hp : Palette ops16 ops256) (cfg : RenderConfig) (hc : cfg.Styled)
    (h16 : cfg.compat16 = false) (h256 : cfg.compat256 = false) (name : Str) (c : PColor) (hn : colorsResolve name = .ok c)
    (text : Str) (ht : '\x1b' ∉ text) :
    ∃ run p16 p256 out p', textNamed text name = .ok run ∧ colorRun {} ops16 = some p16 ∧ colorRun {} ops256 = some p256 ∧
      renderText cfg ⟨p16, p256⟩ [run] = some (out, p') ∧ Term.run {} out = ({}, text.map fun x => (x, { fg := onTerminal c })) := by
  obtain ⟨hk, hhex⟩ := meaning_known hn
  have hrun : textNamed text name = .ok ⟨text, some { fg := c }⟩ := by
    unfold textNamed newStyleNamed
    simp only [ColorArg.resolve, hn]
    rfl
  obtain ⟨p16, p256, out, p', pens, e1, e2, e3, e4, e5⟩ := C59_shown ops16 ops256 hp cfg hc [⟨text, some { fg := c }⟩]
    (by
      intro r hr s hs
      simp only [List.mem_singleton] at hr
      subst hr
      cases hs
      exact ⟨hk, fun v hv => by cases hv⟩)
    (by intro r hr; simp only [List.mem_singleton] at hr; subst hr; exact ht)
  refine ⟨_, p16, p256, out, p', hrun, e1, e2, e3, ?_⟩
  rw [e5]
  cases e4 with
  | cons h1 h2 =>
    cases h2
    obtain ⟨f, b, s1, s2, rfl⟩ := h1
    rw [h16, h256] at s1
    have hb : b = .dflt := by
      cases s2 with
      | unset h => rfl
    have hf := shown_fg hhex s1
    subst hb hf
    simp [written, pen]

/-- C103: with two names, the text appears in the first colour and its background in the second one. -/
theorem C103_background (ops16 ops256 : List ColorOp) (hp : Palette ops16 ops256) (cfg : RenderConfig) (hc : cfg.Styled)
    (h16 : cfg.compat16 = false) (h256 : cfg.compat256 = false) (fg bg : Str) (c d : PColor) (hf : colorsResolve fg = .ok c)
    (hb : colorsResolve bg = .ok d) (text : Str) (ht : '\x1b' ∉ text) :
    ∃ style p16 p256 out p', newStyleNamed none (.name fg) (.name bg) {} = .ok style ∧
      colorRun {} ops16 = some p16 ∧ colorRun {} ops256 = some p256 ∧ renderText cfg ⟨p16, p256⟩ [⟨text, some style⟩] = some (out, p') ∧
      Term.run {} out = ({}, text.map fun x => (x, { fg := onTerminal c, bg := behindText d })) := by
  obtain ⟨hk, hhex⟩ := meaning_known hf
  obtain ⟨hk', hhex'⟩ := meaning_known hb
  have hrun : newStyleNamed none (.name fg) (.name bg) {} = .ok { fg := c, bg := d } := by
    unfold newStyleNamed
    simp only [ColorArg.resolve, hf, hb]
    rfl
  obtain ⟨p16, p256, out, p', pens, e1, e2, e3, e4, e5⟩ := C59_shown ops16 ops256 hp cfg hc [⟨text, some { fg := c, bg := d }⟩]
    (by
      intro r hr s hs
      simp only [List.mem_singleton] at hr
      subst hr
      cases hs
      exact ⟨hk, hk'⟩)
    (by intro r hr; simp only [List.mem_singleton] at hr; subst hr; exact ht)
  refine ⟨_, p16, p256, out, p', hrun, e1, e2, e3, ?_⟩
  rw [e5]
  cases e4 with
  | cons h1 h2 =>
    cases h2
    obtain ⟨f, b, s1, s2, rfl⟩ := h1
    rw [h16, h256] at s1 s2
    have hf := shown_fg hhex s1
    have hb := shown_bg hhex' s2
    subst hb hf
    simp [written, pen]

/-- C103: a text in the style with its colours exchanged has the background colour as foreground and the foreground
colour as background. -/
theorem C103_flipped (ops16 ops256 : List ColorOp) (hp : Palette ops16 ops256) (cfg : RenderConfig) (hc : cfg.Styled)
    (h16 : cfg.compat16 = false) (h256 : cfg.compat256 = false) (fg bg : Str) (c d : PColor) (hf : colorsResolve fg = .ok c)
    (hb : colorsResolve bg = .ok d) (text : Str) (ht : '\x1b' ∉ text) :
    ∃ style p16 p256 out p', newStyleNamed none (.name fg) (.name bg) {} = .ok style ∧
      colorRun {} ops16 = some p16 ∧ colorRun {} ops256 = some p256 ∧
      renderText cfg ⟨p16, p256⟩ [⟨text, some style.flip⟩] = some (out, p') ∧
      Term.run {} out = ({}, text.map fun x => (x, { fg := onTerminal d, bg := behindText c })) := by
  obtain ⟨style, p16, p256, out, p', e1, e2, e3, e4, e5⟩ := C103_background ops16 ops256 hp cfg hc h16 h256 bg fg d c hb hf text ht
  refine ⟨style.flip, p16, p256, out, p', ?_, e2, e3, ?_, e5⟩
  · unfold newStyleNamed at e1 ⊢
    simp only [ColorArg.resolve, hf, hb] at e1 ⊢
    cases e1
    rfl
  · rw [show style.flip.flip = style from rfl]
    exact e4

/-- C103: changing the colours of a style afterwards gives the same style as creating it with these colours, whatever it inherits;
a name that is refused there is refused here. -/
theorem C103_setter (parent : Option PStyle) (fg bg : Str) (a : StyleArgs) (fg' bg' : ColorArg) (old : PStyle)
    (h : newStyleNamed parent fg' bg' a = .ok old) :
    (match old.setFg (.name fg) with
      | .ok s => s.setBg (.name bg)
      | .error e => .error e) = newStyleNamed parent (.name fg) (.name bg) a := by
  unfold newStyleNamed at h ⊢
  cases hf : fg'.resolve true with
  | error e => rw [hf] at h; cases h
  | ok f' =>
    rw [hf] at h
    simp only at h
    cases hb : bg'.resolve true with
    | error e => rw [hb] at h; cases h
    | ok b' =>
      rw [hb] at h
      simp only [Except.ok.injEq] at h
      subst h
      unfold PStyle.setFg PStyle.setBg
      simp only [ColorArg.resolve]
      cases hc : colorsResolve fg with
      | error e => simp only
      | ok c =>
        simp only
        cases hd : colorsResolve bg with
        | error e => simp only
        | ok d => cases parent <;> simp [newStyle, StyleArgs.cloneFrom, cloneAttr]

/-- C103: a style given no colour for the text or for the background has the colour of the style it inherits from. -/
theorem C103_inherited (parent : PStyle) (c : ColorArg) (a : StyleArgs) :
    newStyleNamed (some parent) .none c a = newStyleNamed (some parent) (.color parent.fg) c a ∧
    newStyleNamed (some parent) c .none a = newStyleNamed (some parent) c (.color parent.bg) a := by
  unfold newStyleNamed
  simp only [ColorArg.resolve, if_true]
  constructor
  · cases c.resolve true with
    | error e => rfl
    | ok f => simp [newStyle, StyleArgs.cloneFrom, cloneAttr]
  · cases c.resolve true with
    | error e => rfl
    | ok f => simp [newStyle, StyleArgs.cloneFrom, cloneAttr]

/-- C103: setting no colour afterwards removes the colour, and only this one, also an inherited one. -/
theorem C103_removed (old : PStyle) :
    (∃ s, old.setFg .none = .ok s ∧ s.fg.hex = none ∧ { s with fg := old.fg } = old) ∧
    (∃ s, old.setBg .none = .ok s ∧ s.bg.hex = none ∧ { s with bg := old.bg } = old) :=
  ⟨⟨_, rfl, rfl, rfl⟩, ⟨_, rfl, rfl, rfl⟩⟩

/-! ### The same names for spans -/

theorem basic_names : ∀ e ∈ basicNames.zipIdx, colorsResolve e.1.toList = .ok (basicColor false e.2) := by decide +kernel
theorem bright_names : ∀ e ∈ brightNames.zipIdx, e.1 ≠ "gray" → colorsResolve e.1.toList = .ok (basicColor true e.2) := by decide +kernel

/-- C103: the names of the text colours, except for `gray`, mean the same for styles and for spans: a text looks alike on a fresh
terminal. -/
theorem C103_span_partial (ops16 ops256 : List ColorOp) (hp : Palette ops16 ops256) (cfg : RenderConfig) (hc : cfg.Styled)
    (h16 : cfg.compat16 = false) (h256 : cfg.compat256 = false) (name : Str) (f : Style → Style) (hn : Named textColours name f)
    (hg : lower name ≠ chars% "gray") (text : Str) (ht : '\x1b' ∉ text) :
    ∃ run p16 p256 out p' sp, textNamed text name = .ok run ∧ colorRun {} ops16 = some p16 ∧ colorRun {} ops256 = some p256 ∧
      renderText cfg ⟨p16, p256⟩ [run] = some (out, p') ∧ mkSpan [.name name] = .ok sp ∧
      Term.run {} out = ({}, text.map fun x => (x, f {})) ∧ Term.run {} (sp.wrap (some text)) = Term.run {} out := by
  have key : ∃ c, colorsResolve name = .ok c ∧ f {} = { fg := onTerminal c } := by
    obtain ⟨e, he, h1, rfl⟩ := hn
    have hl : lower name = lower e.1.toList := by
      rw [h1]
      have : ∀ e ∈ textColours, lower e.1.toList = e.1.toList := by decide +kernel
      exact (this e he).symm
    rw [C103_case name e.1.toList hl]
    unfold textColours at he
    rw [List.mem_append, List.mem_map, List.mem_map] at he
    rcases he with ⟨a, ha, rfl⟩ | ⟨a, ha, rfl⟩
    · exact ⟨_, basic_names a ha, rfl⟩
    · refine ⟨_, bright_names a ha ?_, rfl⟩
      intro e
      apply hg
      rw [h1]
      simp only [e]
      decide
  obtain ⟨c, h1, h2⟩ := key
  obtain ⟨run, p16, p256, out, p', e1, e2, e3, e4, e5⟩ := C103_shown ops16 ops256 hp cfg hc h16 h256 name c h1 text ht
  have hm : MeansAll [.name name] [f] := by
    refine .cons (.name ?_) .nil
    obtain ⟨e, he, h⟩ := hn
    refine ⟨e, ?_, h⟩
    unfold Spec.allNames styleNames colourNames
    unfold textColours at he
    rw [List.mem_append] at he
    simp only [List.mem_append]
    rcases he with he | he <;> simp only [he, true_or, or_true]
  obtain ⟨sp, hs, hw⟩ := C84_span hm text ht
  obtain ⟨st', hw1, hw2⟩ := hw {}
  rw [hw2 rfl] at hw1
  refine ⟨run, p16, p256, out, p', sp, e1, e2, e3, e4, hs, by rw [e5, h2], ?_⟩
  rw [e5, ← h2]
  exact hw1

/-- C103: `gray` is a colour for spans, but styles refuse it. -/
theorem C103_negation_gray : ¬ ∀ (name : Str) (f : Style → Style), Named textColours name f → ∃ c, colorsResolve name = .ok c := by
  intro h
  obtain ⟨c, hc⟩ := h (chars% "gray") (fun st => { st with fg := .basic 90 })
    ⟨("gray", _), by simp [textColours, brightNames], by decide, rfl⟩
  have : colorsResolve (chars% "gray") = .error .key := by decide +kernel
  rw [this] at hc
  cases hc

/-! ### Cases -/

/-- A style with the background of its parent. -/
example : ∃ s, newStyleNamed (some { fg := basicColor false 1, bg := basicColor false 4 }) (.name (chars% "green")) .none {} = .ok s ∧
    s.fg = basicColor false 2 ∧ s.bg = basicColor false 4 := by
  have : colorsResolve (chars% "green") = .ok (basicColor false 2) := by decide +kernel
  refine ⟨_, by rw [(C103_inherited _ _ _).2]; unfold newStyleNamed; simp only [ColorArg.resolve, this]; rfl, rfl, rfl⟩

/-- Names of each kind, and their colours. -/
example : colorsResolve (chars% "Hi_Red") = .ok (basicColor true 1) ∧ colorsResolve (chars% "dodger_blue_2") = .ok (indexedColor 27) ∧
    colorsResolve (chars% "purple_mountain") = .error .key ∧ lower (chars% "Hi_Red") = lower (chars% "hI_rED") ∧
    onTerminal (basicColor true 1) = .basic 91 ∧ behindText (basicColor true 1) = .basic 101 := by decide +kernel

/-- A grey. -/
example : colorsResolve (chars% "GREY_" ++ dec 50) = .ok (indexedColor 244) ∧ (indexedColor 244).hex = some 0x808080 := by decide +kernel

/-- The palettes of the presets meet the hypotheses. -/
example : Palette presetOps16 presetOps256 ∧ RenderConfig.Styled ⟨some true, false, false, true⟩ ∧
    Named textColours (chars% "Yellow") (fun st => { st with fg := .basic 33 }) ∧ lower (chars% "Yellow") ≠ chars% "gray" :=
  ⟨by simpa using C60_usable [] [] (by simp [created]) (by simp [created]), by simp [RenderConfig.Styled], ⟨("yellow", _), by simp [textColours, basicNames], by decide, rfl⟩, by decide⟩

end Kolombos
