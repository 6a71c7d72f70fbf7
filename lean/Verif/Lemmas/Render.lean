/-
The opening sequence of a style and what a terminal does with it.
-/
import Verif.Spec.Render
import Verif.Lemmas.Color
import Verif.Props.Sgr

set_option linter.unusedSimpArgs false

namespace Kolombos
open Spec

theorem splitLines_flatten (s : Str) : (splitLines s).flatten = s := by
  induction s with
  | nil => rfl
  | cons c r ih =>
    rw [splitLines]
    split
    · simp [ih]
    · cases h : splitLines r with
      | nil => rw [h] at ih; simp at ih; simp [ih]
      | cons l ls => rw [h] at ih; simp only [List.flatten_cons] at ih ⊢; rw [← ih]; rfl

theorem span_nil (s : Str) : span [] s = s := by
  simp [span, Sgr.closing, Sgr.closingAux, Sgr.assemble]

/-- Sequences made of style codes, applied one after another. -/
theorem applySgr_add {a : Sgr} {gs : List Group} (h : Styles a gs) (b : Sgr) (st : Style) :
    applySgr (a ++ b) st = applySgr b (applySgr a st) := C42_add h b st

theorem styles_append {a b : Sgr} {gs gs' : List Group} (h : Styles a gs) (h' : Styles b gs') :
    Styles (a ++ b) (gs ++ gs') := by
  induction h with
  | nil => exact h'
  | cons hc _ ih => rw [List.append_assoc]; exact .cons hc ih

/-- An optional single code. -/
theorem styles_opt {n : Nat} {g : Group} (h : StyleCode [n] g) (b : Bool) :
    ∃ gs, Styles (if b then [n] else []) gs := by
  cases b
  · exact ⟨[], .nil⟩
  · exact ⟨[g], .cons h .nil⟩

/-- The attributes as one list of codes. -/
def attributeCodes (s : PStyle) : Sgr :=
  (if truthy s.blink then [5] else [])
  ++ (if truthy s.bold then [1] else [])
  ++ (if truthy s.crosslined then [9] else [])
  ++ (if truthy s.dim then [2] else [])
  ++ (if truthy s.doubleUnderlined then [21] else [])
  ++ (if truthy s.inversed then [7] else [])
  ++ (if truthy s.italic then [3] else [])
  ++ (if truthy s.overlined then [53] else [])
  ++ (if truthy s.underlined then [4] else [])

theorem foldl_add (l : List Sgr) (a : Sgr) : l.foldl Sgr.add a = a ++ l.flatten := by
  induction l generalizing a with
  | nil => simp
  | cons x l ih => rw [List.foldl_cons, ih]; simp [Sgr.add]

theorem flatten_opt (b : Bool) (n : Nat) :
    (if b then [[n]] else ([] : List Sgr)).flatten = if b then [n] else [] := by
  cases b <;> rfl

theorem renderAttributes_eq {cfg : RenderConfig} (h : cfg.sgrAllowed = true) (s : PStyle) :
    renderAttributes cfg s = attributeCodes s := by
  unfold renderAttributes attributeSgrs attributeCodes
  simp only [h, Bool.not_true, Bool.false_eq_true, if_false]
  rw [foldl_add]
  simp only [List.flatten_append, flatten_opt, List.nil_append]

theorem attributeCodes_styles (s : PStyle) : ∃ gs, Styles (attributeCodes s) gs := by
  obtain ⟨_, h1⟩ := styles_opt (.blink 5 (by decide)) (truthy s.blink)
  obtain ⟨_, h2⟩ := styles_opt (.intensity 1 (by decide)) (truthy s.bold)
  obtain ⟨_, h3⟩ := styles_opt .crossed (truthy s.crosslined)
  obtain ⟨_, h4⟩ := styles_opt (.intensity 2 (by decide)) (truthy s.dim)
  obtain ⟨_, h5⟩ := styles_opt (.underline 21 (by decide)) (truthy s.doubleUnderlined)
  obtain ⟨_, h6⟩ := styles_opt .inverse (truthy s.inversed)
  obtain ⟨_, h7⟩ := styles_opt .italic (truthy s.italic)
  obtain ⟨_, h8⟩ := styles_opt .overlined (truthy s.overlined)
  obtain ⟨_, h9⟩ := styles_opt (.underline 4 (by decide)) (truthy s.underlined)
  exact ⟨_, styles_append (styles_append (styles_append (styles_append (styles_append
    (styles_append (styles_append (styles_append h1 h2) h3) h4) h5) h6) h7) h8) h9⟩

theorem truthy_eq (x : Option Bool) : truthy x = decide (x = some true) := by
  cases x with
  | none => rfl
  | some b => cases b <;> rfl

theorem applySgr_opt {n : Nat} (h1 : n ≠ 38) (h2 : n ≠ 48) (b : Bool) (r : Sgr) (st : Style) :
    applySgr ((if b then [n] else []) ++ r) st = applySgr r (if b then applyOne n st else st) := by
  cases b
  · rfl
  · exact applySgr_simple h1 h2

theorem opt5 (b : Bool) (st : Style) : (if b then applyOne 5 st else st) =
    { st with blink := if b then 1 else st.blink } := by cases b <;> rfl
theorem opt1 (b : Bool) (st : Style) : (if b then applyOne 1 st else st) =
    { st with bold := if b then true else st.bold } := by cases b <;> rfl
theorem opt9 (b : Bool) (st : Style) : (if b then applyOne 9 st else st) =
    { st with crossed := if b then true else st.crossed } := by cases b <;> rfl
theorem opt2 (b : Bool) (st : Style) : (if b then applyOne 2 st else st) =
    { st with dim := if b then true else st.dim } := by cases b <;> rfl
theorem opt21 (b : Bool) (st : Style) : (if b then applyOne 21 st else st) =
    { st with underline := if b then 2 else st.underline } := by cases b <;> rfl
theorem opt7 (b : Bool) (st : Style) : (if b then applyOne 7 st else st) =
    { st with inverse := if b then true else st.inverse } := by cases b <;> rfl
theorem opt3 (b : Bool) (st : Style) : (if b then applyOne 3 st else st) =
    { st with italic := if b then true else st.italic } := by cases b <;> rfl
theorem opt53 (b : Bool) (st : Style) : (if b then applyOne 53 st else st) =
    { st with overlined := if b then true else st.overlined } := by cases b <;> rfl
theorem opt4 (b : Bool) (st : Style) : (if b then applyOne 4 st else st) =
    { st with underline := if b then 1 else st.underline } := by cases b <;> rfl

theorem attributeCodes_apply (s : PStyle) :
    applySgr (attributeCodes s) {} = pen s .dflt .dflt := by
  unfold attributeCodes
  simp only [List.append_assoc]
  rw [← List.append_nil (if truthy s.underlined then [4] else [])]
  rw [applySgr_opt (by decide) (by decide), applySgr_opt (by decide) (by decide),
    applySgr_opt (by decide) (by decide), applySgr_opt (by decide) (by decide),
    applySgr_opt (by decide) (by decide), applySgr_opt (by decide) (by decide),
    applySgr_opt (by decide) (by decide), applySgr_opt (by decide) (by decide),
    applySgr_opt (by decide) (by decide)]
  rw [opt5, opt1, opt9, opt2, opt21, opt7, opt3, opt53, opt4]
  simp only [applySgr, pen, truthy_eq, decide_eq_true_eq]
  congr 1 <;> split <;> simp_all

/-- The sequences that set a colour. -/
inductive ColorShape (bg : Bool) : Sgr → Color → Prop
  | unset : ColorShape bg [] .dflt
  | basic (n : Nat) (h : if bg then (40 ≤ n ∧ n ≤ 47) ∨ (100 ≤ n ∧ n ≤ 107) else (30 ≤ n ∧ n ≤ 37) ∨ (90 ≤ n ∧ n ≤ 97)) :
      ColorShape bg [n] (.basic n)
  | indexed (n : Nat) (h : n ≤ 255) : ColorShape bg [if bg then 48 else 38, 5, n] (.indexed n)
  | rgb (r g b : Nat) (hr : r ≤ 255) (hg : g ≤ 255) (hb : b ≤ 255) :
      ColorShape bg [if bg then 48 else 38, 2, r, g, b] (.rgb r g b)

/-- What is known about a rendered colour: it is nothing, or one style code of
its group, which sets the colour. -/
structure ColorCode (bg : Bool) (q : Sgr) (col : Color) : Prop where
  styles : ∃ gs, Styles q gs
  apply : ∀ st : Style, (if bg then st.bg else st.fg) = .dflt →
    applySgr q st = if bg then { st with bg := col } else { st with fg := col }
  shape : ColorShape bg q col

theorem colorCode_nil (bg : Bool) : ColorCode bg [] .dflt := by
  refine ⟨⟨[], .nil⟩, fun st h => ?_, .unset⟩
  cases bg
  · simp only [Bool.false_eq_true, if_false] at h ⊢
    cases st; simp_all [applySgr]
  · simp only [if_true] at h ⊢
    cases st; simp_all [applySgr]

theorem colorCode_indexed (bg : Bool) (n : Nat) (h : n ≤ 255) :
    ColorCode bg [if bg then 48 else 38, 5, n] (.indexed n) := by
  cases bg
  · exact ⟨⟨_, .cons (.fgIndexed n) .nil⟩, fun st _ => by simp [applySgr, setColor], .indexed n h⟩
  · exact ⟨⟨_, .cons (.bgIndexed n) .nil⟩, fun st _ => by simp [applySgr, setColor], .indexed n h⟩

theorem colorCode_rgb (bg : Bool) (r g b : Nat) (hr : r ≤ 255) (hg : g ≤ 255) (hb : b ≤ 255) :
    ColorCode bg [if bg then 48 else 38, 2, r, g, b] (.rgb r g b) := by
  cases bg
  · exact ⟨⟨_, .cons (.fgRgb r g b) .nil⟩, fun st _ => by simp [applySgr, setColor], .rgb r g b hr hg hb⟩
  · exact ⟨⟨_, .cons (.bgRgb r g b) .nil⟩, fun st _ => by simp [applySgr, setColor], .rgb r g b hr hg hb⟩

theorem applyOne_fg {n : Nat} (h : (30 ≤ n ∧ n ≤ 37) ∨ (90 ≤ n ∧ n ≤ 97)) (st : Style) :
    applySgr [n] st = { st with fg := .basic n } := by
  have e : n ≠ 38 ∧ n ≠ 48 := by omega
  rw [applySgr_simple e.1 e.2]
  unfold applyOne
  repeat rw [if_neg (by omega)]
  rw [if_pos h]
  rfl

theorem applyOne_bg {n : Nat} (h : (40 ≤ n ∧ n ≤ 47) ∨ (100 ≤ n ∧ n ≤ 107)) (st : Style) :
    applySgr [n] st = { st with bg := .basic n } := by
  have e : n ≠ 38 ∧ n ≠ 48 := by omega
  rw [applySgr_simple e.1 e.2]
  unfold applyOne
  repeat rw [if_neg (by omega)]
  rw [if_pos h]
  rfl

theorem colorCode_basic (bg : Bool) {c : IxColor} (h : Known16 c) :
    ∃ n, (if bg then c.codeBg else c.code) = some n ∧ c.toSgr16 bg = some [n]
      ∧ ColorCode bg [n] (.basic n) := by
  obtain ⟨n, h1, h2, h3⟩ := h
  cases bg
  · refine ⟨n, h1, by simp [IxColor.toSgr16, h1], ⟨_, .cons (.fg n h3) .nil⟩, fun st _ => ?_, .basic n h3⟩
    exact applyOne_fg h3 st
  · refine ⟨n + 10, h2, by simp [IxColor.toSgr16, h2], ⟨_, .cons (.bg (n + 10) (by omega)) .nil⟩, fun st _ => ?_, .basic (n + 10) ?_⟩
    · exact applyOne_bg (by omega) st
    · simp only [if_true]; omega

theorem colorCode_256 (bg : Bool) {c : IxColor} (h : Known256 c) {v : Nat} (hv : c.hex = some v) :
    ∃ n, c.code = some n ∧ c.toSgr256 bg = some [if bg then 48 else 38, 5, n]
      ∧ ColorCode bg [if bg then 48 else 38, 5, n] (.indexed n) := by
  obtain ⟨n, h1, h2⟩ := h
  refine ⟨n, h1, ?_, colorCode_indexed bg n h2⟩
  have : validExtended n = true := by simp [validExtended]; omega
  simp [IxColor.toSgr256, hv, h1, initColorIndexed, this]

/-- Both palettes are as some histories left them. -/
structure PaletteInv (reg16 reg256 : List (Nat × IxColor)) (p : Palettes) : Prop where
  inv16 : ColorInv reg16 p.p16
  inv256 : ColorInv reg256 p.p256

/-- The colours in the palettes are known. -/
structure PaletteKnown (reg16 reg256 : List (Nat × IxColor)) : Prop where
  some16 : reg16 ≠ []
  some256 : reg256 ≠ []
  known16 : ∀ e ∈ reg16, e.1 < 16777216 ∧ Known16 e.2
  known256 : ∀ e ∈ reg256, e.1 < 16777216 ∧ Known256 e.2 ∧ e.2.hex = some e.1

theorem closest16_shown {reg16 reg256 : List (Nat × IxColor)} {p : Palettes}
    (k : PaletteKnown reg16 reg256) (i : PaletteInv reg16 reg256 p) {h : Nat} (hh : h < 16777216)
    (bg : Bool) :
    ∃ g e n p', closest16 p h bg = some ([n], p') ∧ PaletteInv reg16 reg256 p'
      ∧ Nearest reg16 h (g, e) ∧ (if bg then e.codeBg else e.code) = some n
      ∧ ColorCode bg [n] (.basic n) := by
  obtain ⟨c, a, h1, h2, -, -, h5⟩ := inv_find i.inv16 (fun e he => (k.known16 e he).1) h
  obtain ⟨g, hn⟩ := h5 k.some16 hh
  obtain ⟨n, h6, h7, h8⟩ := colorCode_basic bg (k.known16 _ (nearest_mem hn)).2
  exact ⟨g, c, n, { p with p16 := a }, by simp [closest16, h1, h7], ⟨h2, i.inv256⟩, hn, h6, h8⟩

theorem closest256_shown {reg16 reg256 : List (Nat × IxColor)} {p : Palettes}
    (k : PaletteKnown reg16 reg256) (i : PaletteInv reg16 reg256 p) {h : Nat} (hh : h < 16777216)
    (bg : Bool) :
    ∃ g e n p', closest256 p h bg = some ([if bg then 48 else 38, 5, n], p')
      ∧ PaletteInv reg16 reg256 p'
      ∧ Nearest reg256 h (g, e) ∧ e.code = some n
      ∧ ColorCode bg [if bg then 48 else 38, 5, n] (.indexed n) := by
  obtain ⟨c, a, h1, h2, -, -, h5⟩ := inv_find i.inv256 (fun e he => (k.known256 e he).1) h
  obtain ⟨g, hn⟩ := h5 k.some256 hh
  have hk := (k.known256 _ (nearest_mem hn)).2
  obtain ⟨n, h6, h7, h8⟩ := colorCode_256 bg hk.1 hk.2
  have hne : c ≠ noopColor := by
    intro e; have := hk.2; rw [e] at this; simp [noopColor] at this
  exact ⟨g, c, n, { p with p256 := a }, by simp [closest256, h1, h7, hne], ⟨i.inv16, h2⟩, hn, h6, h8⟩

theorem renderColor_shown {reg16 reg256 : List (Nat × IxColor)} {p : Palettes}
    (k : PaletteKnown reg16 reg256) (i : PaletteInv reg16 reg256 p) {cfg : RenderConfig}
    (al : cfg.sgrAllowed = true) {c : PColor} (hc : c.Known) (bg : Bool) :
    ∃ q p' col, renderColor cfg p c bg = some (q, p') ∧ PaletteInv reg16 reg256 p'
      ∧ ColorShown reg16 reg256 cfg.compat256 cfg.compat16 bg c col ∧ ColorCode bg q col := by
  unfold renderColor
  cases hx : c.hex with
  | none => exact ⟨[], p, .dflt, rfl, i, .unset hx, colorCode_nil bg⟩
  | some h =>
    simp only [al, Bool.not_true, Bool.false_eq_true, if_false]
    cases c with
    | rgb hex =>
      simp only [PColor.hex] at hx
      subst hx
      have hh : h < 16777216 := hc h rfl
      simp only
      cases h16 : cfg.compat16 with
      | true =>
        obtain ⟨g, e, n, p', e1, e2, e3, e4, e5⟩ := closest16_shown k i hh bg
        exact ⟨_, p', _, by simp [e1], e2, .rgbTo16 rfl e3 e4, e5⟩
      | false =>
        cases h256 : cfg.compat256 with
        | true =>
          obtain ⟨g, e, n, p', e1, e2, e3, e4, e5⟩ := closest256_shown k i hh bg
          exact ⟨_, p', _, by simp [e1], e2, .rgbTo256 rfl rfl e3 e4, e5⟩
        | false =>
          refine ⟨_, p, _, ?_, i, .trueColor rfl rfl, colorCode_rgb bg _ _ _
            (Nat.le_of_lt_succ (Nat.mod_lt _ (by decide))) (Nat.le_of_lt_succ (Nat.mod_lt _ (by decide))) (Nat.le_of_lt_succ (Nat.mod_lt _ (by decide)))⟩
          have v : ∀ n, n < 256 → validExtended n = true := by
            intro n hn; simp [validExtended]; omega
          have v1 := v (redOf h) (Nat.mod_lt _ (by decide))
          have v2 := v (greenOf h) (Nat.mod_lt _ (by decide))
          have v3 := v (blueOf h) (Nat.mod_lt _ (by decide))
          simp [rgbToSgr, hexToRgb_eq, initColorRgb, v1, v2, v3]
    | ix256 c =>
      simp only [PColor.hex] at hx
      obtain ⟨hh, hk⟩ := hc h hx
      simp only
      cases h16 : cfg.compat16 with
      | true =>
        obtain ⟨g, e, n, p', e1, e2, e3, e4, e5⟩ := closest16_shown k i hh bg
        exact ⟨_, p', _, by simp [e1], e2, .indexedTo16 rfl hx e3 e4, e5⟩
      | false =>
        obtain ⟨n, h1, h2, h3⟩ := colorCode_256 bg hk hx
        exact ⟨_, p, _, by simp [h2], i, .indexed rfl hx h1, h3⟩
    | ix16 c =>
      simp only [PColor.hex] at hx
      obtain ⟨hh, hk⟩ := hc h hx
      obtain ⟨n, h1, h2, h3⟩ := colorCode_basic bg hk
      exact ⟨_, p, _, by simp [h2], i, .basic hx h1, h3⟩

theorem openingSgr_shown {reg16 reg256 : List (Nat × IxColor)} {p : Palettes}
    (k : PaletteKnown reg16 reg256) (i : PaletteInv reg16 reg256 p) {cfg : RenderConfig}
    (al : cfg.sgrAllowed = true) {s : PStyle} (hs : s.Known) :
    ∃ o p' fg bg gs, openingSgr cfg p s = some (o, p') ∧ PaletteInv reg16 reg256 p'
      ∧ ColorShown reg16 reg256 cfg.compat256 cfg.compat16 false s.fg fg
      ∧ ColorShown reg16 reg256 cfg.compat256 cfg.compat16 true s.bg bg
      ∧ Styles o gs ∧ applySgr o {} = pen s fg bg := by
  obtain ⟨f, p1, fg, e1, i1, c1, d1⟩ := renderColor_shown k i al hs.1 false
  obtain ⟨b, p2, bg, e2, i2, c2, d2⟩ := renderColor_shown k i1 al hs.2 true
  obtain ⟨g0, s0⟩ := attributeCodes_styles s
  obtain ⟨g1, s1⟩ := d1.styles
  obtain ⟨g2, s2⟩ := d2.styles
  refine ⟨Sgr.add (Sgr.add (renderAttributes cfg s) f) b, p2, fg, bg, (g0 ++ g1) ++ g2,
    by simp only [openingSgr, e1, e2], i2, c1, c2, ?_, ?_⟩
  · rw [renderAttributes_eq al]
    exact styles_append (styles_append s0 s1) s2
  · rw [renderAttributes_eq al]
    unfold Sgr.add
    rw [applySgr_add (styles_append s0 s1), applySgr_add s0, attributeCodes_apply,
      d1.apply _ rfl, d2.apply _ rfl]
    rfl

theorem term_lines {o : Sgr} {gs : List Group} (h : Styles o gs) (ls : List Str)
    (ht : ∀ l ∈ ls, '\x1b' ∉ l) :
    Term.run {} (ls.map (span o)).flatten
      = ({}, ls.flatten.map (fun c => (c, applySgr o {}))) := by
  induction ls with
  | nil => rfl
  | cons l ls ih =>
    obtain ⟨st', e, -⟩ := C42_span h {} l (ht l (by simp))
    have d := C42_default h l (ht l (by simp))
    simp only [List.map_cons, List.flatten_cons]
    rw [term_append]
    have e' : Term.run {} (span o l) = (⟨.ground, st'⟩, l.map fun c => (c, applySgr o {})) := e
    rw [e'] at d
    simp only at d
    rw [e', d, ih (fun x hx => ht x (by simp [hx]))]
    simp

theorem mem_splitLines {s l : Str} (h : l ∈ splitLines s) {c : Char} (hc : c ∈ l) : c ∈ s := by
  have := splitLines_flatten s
  rw [← this]
  exact List.mem_flatten.mpr ⟨l, h, hc⟩

theorem sgrRender_shown {reg16 reg256 : List (Nat × IxColor)} {p : Palettes}
    (k : PaletteKnown reg16 reg256) (i : PaletteInv reg16 reg256 p) {cfg : RenderConfig}
    (al : cfg.sgrAllowed = true) {s : PStyle} (hs : s.Known) {text : Str} (ht : '\x1b' ∉ text) :
    ∃ out p' fg bg, sgrRender cfg p text s = some (out, p') ∧ PaletteInv reg16 reg256 p'
      ∧ ColorShown reg16 reg256 cfg.compat256 cfg.compat16 false s.fg fg
      ∧ ColorShown reg16 reg256 cfg.compat256 cfg.compat16 true s.bg bg
      ∧ Term.run {} out = ({}, text.map (fun c => (c, pen s fg bg))) := by
  obtain ⟨o, p', fg, bg, gs, e, i', c1, c2, st, ap⟩ := openingSgr_shown k i al hs
  refine ⟨((splitLines text).map (span o)).flatten, p', fg, bg, by simp only [sgrRender, e], i', c1, c2, ?_⟩
  rw [term_lines st _ (fun l hl hc => ht (mem_splitLines hl hc)), splitLines_flatten, ap]

end Kolombos
