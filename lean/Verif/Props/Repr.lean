/-
C108: what the representations of sequences, spans, colours and styles tell.
C109: the ready-made styles.
-/
import Verif.Lemmas.Repr
import Verif.Props.ColorNames
import Verif.Props.Style
import Verif.Model.OtherRenderers
set_option linter.unusedSimpArgs false

namespace Kolombos
open Kolombos.Spec

/-! ### Sequences and spans -/

/-- C108: sequences have the same representation exactly if they are the same. -/
theorem C108_sequence (a b : Sgr) : Sgr.repr a = Sgr.repr b ↔ a = b := ⟨sgrRepr_inj, fun h => by rw [h]⟩

/-- C108: the representation has the codes as they are sent to the terminal; nothing is sent for `SGR[~]`, and the code 0 is sent as none. -/
theorem C108_sequence_form (q : Sgr) :
    (q = [] ∧ Sgr.repr q = "SGR[~]".toList ∧ q.assemble = []) ∨ (q = [0] ∧ Sgr.repr q = "SGR[0]".toList ∧ q.assemble = "\x1b[m".toList) ∨
    ∃ body, Sgr.repr q = "SGR[".toList ++ body ++ "]".toList ∧ q.assemble = "\x1b[".toList ++ body ++ "m".toList := by
  by_cases h : q.length = 0
  · left
    have := List.length_eq_zero_iff.1 h
    subst this
    exact ⟨rfl, rfl, rfl⟩
  · by_cases h0 : q = [0]
    · subst h0; right; left; exact ⟨rfl, by decide, by decide⟩
    · right; right
      refine ⟨join [';'] (q.map dec), ?_, ?_⟩
      · simp [Sgr.repr, h]
      · simp [Sgr.assemble, h, h0]

/-- C108: spans have the same representation exactly if they open and close alike. -/
theorem C108_span (a b : SpanObj) : a.repr = b.repr ↔ a.opening = b.opening ∧ a.closing = b.closing := by
  constructor
  · intro h
    unfold SpanObj.repr at h
    have h := List.append_cancel_right h
    simp only [List.append_assoc, List.append_cancel_left_eq, List.cons_append] at h
    simp only [List.cons.injEq, true_and] at h
    obtain ⟨h1, h2⟩ := sgr_split_at (sgrRepr_comma _) (sgrRepr_comma _) h
    simp only [List.nil_append, List.cons.injEq, true_and] at h2
    exact ⟨sgrRepr_inj h1, sgrRepr_inj h2⟩
  · rintro ⟨h1, h2⟩
    unfold SpanObj.repr
    rw [h1, h2]

/-! ### Colours -/

/-- C108: colours have the same representation exactly if they compare equal. -/
theorem C108_color (a b : PColor) : a.repr = b.repr ↔ a.eq b = true := by
  cases a with
  | rgb x =>
    cases b with
    | rgb y =>
      simp only [PColor.repr, PColor.eq, beq_iff_eq]
      constructor
      · intro h
        exact formatValue_default_inj (a := .rgb x) (b := .rgb y) (List.append_cancel_left (List.append_cancel_right h))
      · rintro rfl; rfl
    | ix16 y => simp [PColor.repr, PColor.eq]
    | ix256 y => simp [PColor.repr, PColor.eq]
  | ix256 x =>
    cases b with
    | rgb y => simp [PColor.repr, PColor.eq]
    | ix16 y => simp [PColor.repr, PColor.eq]
    | ix256 y =>
      simp only [PColor.repr, PColor.eq, beq_iff_eq, Bool.and_eq_true]
      constructor
      · intro h
        have h := List.append_cancel_right h
        simp only [List.append_assoc, List.append_cancel_left_eq] at h
        obtain ⟨h1, h2⟩ := sgr_split_at (reprNat_comma _) (reprNat_comma _) h
        exact ⟨formatValue_default_inj (List.append_cancel_left (as := [' ']) h2), reprNat_inj h1⟩
      · rintro ⟨h1, h2⟩
        rw [h2, formatValue_congr (a := .ix256 x) (b := .ix256 y) _ _ h1]
  | ix16 x =>
    cases b with
    | rgb y => simp [PColor.repr, PColor.eq]
    | ix256 y => simp [PColor.repr, PColor.eq]
    | ix16 y =>
      simp only [PColor.repr, PColor.eq, beq_iff_eq, Bool.and_eq_true]
      constructor
      · intro h
        have h := List.append_cancel_right h
        simp only [List.append_assoc, List.append_cancel_left_eq] at h
        obtain ⟨h1, h2⟩ := sgr_split_at (reprNat_comma _) (reprNat_comma _) h
        obtain ⟨h3, h4⟩ := sgr_split_at (reprNat_comma _) (reprNat_comma _) (List.append_cancel_left (as := chars% " bg=") h2)
        exact ⟨⟨formatValue_default_inj (List.append_cancel_left (as := [' ']) h4), reprNat_inj h3⟩, reprNat_inj h1⟩
      · rintro ⟨⟨h1, h2⟩, h3⟩
        rw [h2, h3, formatValue_congr (a := .ix16 x) (b := .ix16 y) _ _ h1]

/-- C108: the value of a colour is shown as a hexadecimal number of six digits after a prefix that can be chosen. -/
theorem C108_value (c : PColor) (pfx : Option Str) (label : Str) :
    (c.hex = none → c.formatValue pfx label = label) ∧
    ∀ h, c.hex = some h → ∃ d, HexText d h ∧ c.formatValue pfx label = pfx.getD [] ++ d := by
  constructor
  · intro h; simp [PColor.formatValue, h]
  · intro h hh
    exact ⟨_, hexPad_text h, by simp [PColor.formatValue, hh]⟩

/-! ### Styles -/

/-- C108: styles have the same representation exactly if the values of their colours and their attributes are the same. -/
theorem C108_style (a b : PStyle) : a.repr = b.repr ↔ a.fg.hex = b.fg.hex ∧ a.bg.hex = b.bg.hex ∧ SameLook a b := by
  rw [styleRepr_eq, styleRepr_eq]
  constructor
  · intro h
    have h := List.append_cancel_left (List.append_cancel_right h)
    have nc : ∀ s : PStyle, ∀ x ∈ (s.fg.formatValue (some (chars% "fg=")) (chars% "no fg") ::
        s.bg.formatValue (some (chars% "bg=")) (chars% "no bg") :: onNames s), ',' ∉ x := by
      intro s x hx
      simp only [List.mem_cons] at hx
      rcases hx with rfl | rfl | hx
      · exact formatValue_comma _ (by decide) (by decide)
      · exact formatValue_comma _ (by decide) (by decide)
      · exact onNames_comma s x hx
    have h := join_sep_inj (by simp) (by simp) (nc a) (nc b) h
    simp only [List.cons.injEq] at h
    obtain ⟨h1, h2, h3⟩ := h
    refine ⟨formatValue_inj (by intro n e; simp at e) h1, formatValue_inj (by intro n e; simp at e) h2, ?_⟩
    have m : ∀ x, (x, some true) ∈ a.dir ↔ (x, some true) ∈ b.dir := by
      intro x
      rw [← onNames_mem, ← onNames_mem, h3]
    constructor
    · have d : ∀ s : PStyle, (chars% "blink", some true) ∈ s.dir ↔ some true = s.blink := by intro s; simp [PStyle.dir]
      rw [eq_comm, ← d, m, d, eq_comm]
    · have d : ∀ s : PStyle, (chars% "bold", some true) ∈ s.dir ↔ some true = s.bold := by intro s; simp [PStyle.dir]
      rw [eq_comm, ← d, m, d, eq_comm]
    · have d : ∀ s : PStyle, (chars% "crosslined", some true) ∈ s.dir ↔ some true = s.crosslined := by intro s; simp [PStyle.dir]
      rw [eq_comm, ← d, m, d, eq_comm]
    · have d : ∀ s : PStyle, (chars% "dim", some true) ∈ s.dir ↔ some true = s.dim := by intro s; simp [PStyle.dir]
      rw [eq_comm, ← d, m, d, eq_comm]
    · have d : ∀ s : PStyle, (chars% "double_underlined", some true) ∈ s.dir ↔ some true = s.doubleUnderlined := by intro s; simp [PStyle.dir]
      rw [eq_comm, ← d, m, d, eq_comm]
    · have d : ∀ s : PStyle, (chars% "inversed", some true) ∈ s.dir ↔ some true = s.inversed := by intro s; simp [PStyle.dir]
      rw [eq_comm, ← d, m, d, eq_comm]
    · have d : ∀ s : PStyle, (chars% "italic", some true) ∈ s.dir ↔ some true = s.italic := by intro s; simp [PStyle.dir]
      rw [eq_comm, ← d, m, d, eq_comm]
    · have d : ∀ s : PStyle, (chars% "overlined", some true) ∈ s.dir ↔ some true = s.overlined := by intro s; simp [PStyle.dir]
      rw [eq_comm, ← d, m, d, eq_comm]
    · have d : ∀ s : PStyle, (chars% "underlined", some true) ∈ s.dir ↔ some true = s.underlined := by intro s; simp [PStyle.dir]
      rw [eq_comm, ← d, m, d, eq_comm]
  · rintro ⟨h1, h2, h3⟩
    rw [formatValue_congr _ _ h1, formatValue_congr _ _ h2]
    have : onNames a = onNames b := by
      have t : ∀ x y : Option Bool, (x = some true ↔ y = some true) → (x == some true) = (y == some true) := by
        intro x y e
        rw [Bool.eq_iff_iff]
        simpa using e
      simp only [onNames, PStyle.dir, List.filterMap_cons, List.filterMap_nil, t _ _ h3.blink, t _ _ h3.bold, t _ _ h3.crosslined,
        t _ _ h3.dim, t _ _ h3.doubleUnderlined, t _ _ h3.inversed, t _ _ h3.italic, t _ _ h3.overlined, t _ _ h3.underlined]
    rw [this]

/-- C108: the representation of a style names both colours and the attributes that are on, each of them once, in alphabetical order. -/
theorem C108_style_form (s : PStyle) : ∃ f b names, s.repr = "Style[".toList ++ join ", ".toList (f :: b :: names) ++ "]".toList ∧
    ColorPart "fg" s.fg f ∧ ColorPart "bg" s.bg b ∧ names.Pairwise (· < ·) ∧
    ∀ x, x ∈ names ↔ ∃ e ∈ styleFlags s, e.1.toList = x ∧ e.2 = some true := by
  refine ⟨_, _, onNames s, styleRepr_eq s, ?_, ?_, ?_, ?_⟩
  · unfold ColorPart PColor.formatValue
    cases s.fg.hex with
    | none => rfl
    | some h => exact ⟨_, hexPad_text h, rfl⟩
  · unfold ColorPart PColor.formatValue
    cases s.bg.hex with
    | none => rfl
    | some h => exact ⟨_, hexPad_text h, rfl⟩
  · have sub : (onNames s).Sublist (s.dir.map (·.1)) := by
      unfold onNames
      generalize s.dir = l
      induction l with
      | nil => exact List.Sublist.slnil
      | cons e l ih =>
        by_cases h : (e.2 == some true) = true
        · rw [List.filterMap_cons, if_pos h]; exact ih.cons_cons _
        · rw [List.filterMap_cons, if_neg h]; exact ih.cons _
    refine List.Pairwise.sublist sub ?_
    have : s.dir.map (·.1) = ({} : PStyle).dir.map (·.1) := rfl
    rw [this]
    decide
  · intro x
    rw [onNames_mem]
    simp only [PStyle.dir, styleFlags, List.mem_cons, List.not_mem_nil, or_false, Prod.mk.injEq, exists_eq_or_imp, exists_eq_left]
    constructor
    · rintro (⟨rfl, h⟩ | ⟨rfl, h⟩ | ⟨rfl, h⟩ | ⟨rfl, h⟩ | ⟨rfl, h⟩ | ⟨rfl, h⟩ | ⟨rfl, h⟩ | ⟨rfl, h⟩ | ⟨rfl, h⟩) <;> simp [← h]
    · rintro (⟨rfl, h⟩ | ⟨rfl, h⟩ | ⟨rfl, h⟩ | ⟨rfl, h⟩ | ⟨rfl, h⟩ | ⟨rfl, h⟩ | ⟨rfl, h⟩ | ⟨rfl, h⟩ | ⟨rfl, h⟩) <;> simp [h]

/-- C108: styles without a class that have the same representation are the same in HTML. -/
theorem C108_html (a b : PStyle) (ha : a.className = none) (hb : b.className = none) (h : a.repr = b.repr) (order : List Str → List Str)
    (text : Str) : htmlRender order text a = htmlRender order text b := by
  obtain ⟨h1, h2, h3⟩ := (C108_style a b).1 h
  have t : ∀ x y : Option Bool, (x = some true ↔ y = some true) → truthy x = truthy y := by
    intro x y e
    unfold truthy
    rw [Bool.eq_iff_iff]
    simpa using e
  have e : htmlStyles a = htmlStyles b := by
    unfold htmlStyles
    rw [t _ _ h3.blink, t _ _ h3.bold, t _ _ h3.crosslined, t _ _ h3.dim, t _ _ h3.doubleUnderlined, t _ _ h3.inversed,
      t _ _ h3.italic, t _ _ h3.overlined, t _ _ h3.underlined]
    dsimp only
    rw [h1, h2]
  unfold htmlRender
  rw [ha, hb, e]

/-- C108: styles with 24-bit colours that have the same representation are the same on every terminal. -/
theorem C108_terminal (a b : PStyle) (af ab bf bb : Option Nat) (ha : a.fg = .rgb af ∧ a.bg = .rgb ab) (hb : b.fg = .rgb bf ∧ b.bg = .rgb bb)
    (h : a.repr = b.repr) (cfg : RenderConfig) (p : Palettes) (text : Str) : sgrRender cfg p text a = sgrRender cfg p text b := by
  obtain ⟨h1, h2, h3⟩ := (C108_style a b).1 h
  refine C62_partial a b ?_ h3 cfg p text
  simp only [PStyle.eq, Bool.and_eq_true, beq_iff_eq]
  rw [ha.1, hb.1] at h1
  rw [ha.2, hb.2] at h2
  exact ⟨by rw [ha.1, hb.1]; exact congrArg _ h1, by rw [ha.2, hb.2]; exact congrArg _ h2⟩

/-- C108: in general they are not, because the representation does not tell the kinds of colours. -/
theorem C108_terminal_kinds : ¬ ∀ (a b : PStyle), a.repr = b.repr → ∀ cfg p text, sgrRender cfg p text a = sgrRender cfg p text b := by
  intro h
  have := h { fg := .rgb (some 0x800000) } { fg := .ix16 ⟨some 0x800000, some 31, some 41⟩ } (by decide)
    ⟨some true, false, false, true⟩ {} ['a']
  revert this
  decide

/-! ### Ready-made styles -/

/-- A colour of the 16-colour palette. -/
def isBasic : PColor → Bool
  | .ix16 ⟨some v, some n, some m⟩ => decide (v < 16777216 ∧ m = n + 10 ∧ ((30 ≤ n ∧ n ≤ 37) ∨ (90 ≤ n ∧ n ≤ 97)))
  | _ => false

/-- The style is made of colours of the 16-colour palette, and it looks like this. -/
def looksLike (s : PStyle) (look : Spec.Style) : Bool :=
  isBasic s.fg && ((isBasic s.bg || s.bg == .rgb none) && decide (pen s (onTerminal s.fg) (behindText s.bg) = look))

theorem ready_table : ∀ e ∈ readyStyles, ∃ x ∈ styleTable, x.1.toList = pyUpper e.1.toList ∧
    (styleTable.find? fun y => y.1.toList == pyUpper e.1.toList) = some x ∧ looksLike x.2 e.2 = true := by
  decide +kernel

theorem basic_known {c : PColor} (h : isBasic c = true) : c.Known := by
  unfold isBasic at h
  split at h
  · rename_i v n m
    simp only [decide_eq_true_eq] at h
    intro u hu
    cases hu
    exact ⟨h.1, n, rfl, by rw [h.2.1], h.2.2⟩
  · cases h

theorem basic_shown {r16 r256 : List (Nat × IxColor)} {c256 c16 bg : Bool} {c : PColor} {f : Spec.Color} (h : isBasic c = true)
    (s : ColorShown r16 r256 c256 c16 bg c f) : f = if bg then behindText c else onTerminal c := by
  unfold isBasic at h
  split at h
  · cases s with
    | unset h => cases h
    | basic hex code => cases bg <;> simp at code <;> simp [onTerminal, behindText, code]
  · cases h

theorem ready_resolve {name : Str} {e : String × Spec.Style} (he : e ∈ readyStyles) (hn : lower name = e.1.toList) :
    ∃ s, stylesResolve name = .ok s ∧ looksLike s e.2 = true := by
  obtain ⟨x, -, -, h2, h3⟩ := ready_table e he
  refine ⟨x.2, ?_, h3⟩
  unfold stylesResolve registryResolve
  rw [← upper_lower name, hn, h2]

/-- C109: a text in a ready-made style appears as it should, all of it and nothing else, on terminals of any kind. -/
theorem C109_shown (ops16 ops256 : List ColorOp) (hp : Palette ops16 ops256) (cfg : RenderConfig) (hc : cfg.Styled) (name : Str) (look : Spec.Style)
    (hn : ∃ e ∈ readyStyles, lower name = e.1.toList ∧ look = e.2) (text : Str) (ht : '\x1b' ∉ text) :
    ∃ s p16 p256 out p', stylesResolve name = .ok s ∧ colorRun {} ops16 = some p16 ∧ colorRun {} ops256 = some p256 ∧
      renderText cfg ⟨p16, p256⟩ [⟨text, some s⟩] = some (out, p') ∧ Term.run {} out = ({}, text.map fun x => (x, look)) := by
  obtain ⟨e, he, h1, rfl⟩ := hn
  obtain ⟨s, hs, hl⟩ := ready_resolve he h1
  simp only [looksLike, Bool.and_eq_true, decide_eq_true_eq] at hl
  obtain ⟨hf, hb, hlook⟩ := hl
  have hb : isBasic s.bg = true ∨ s.bg = .rgb none := by simpa using hb
  obtain ⟨p16, p256, out, p', pens, e1, e2, e3, e4, e5⟩ := C59_shown ops16 ops256 hp cfg hc [⟨text, some s⟩]
    (by
      intro r hr t hs
      simp only [List.mem_singleton] at hr
      subst hr
      cases hs
      refine ⟨basic_known hf, ?_⟩
      rcases hb with hb | hb
      · exact basic_known hb
      · rw [hb]; intro v hv; cases hv)
    (by intro r hr; simp only [List.mem_singleton] at hr; subst hr; exact ht)
  refine ⟨s, p16, p256, out, p', hs, e1, e2, e3, ?_⟩
  rw [e5]
  cases e4 with
  | cons h1 h2 =>
    cases h2
    obtain ⟨f, b, s1, s2, rfl⟩ := h1
    have hf' : f = onTerminal s.fg := by simpa using basic_shown hf s1
    have hb' : b = behindText s.bg := by
      rcases hb with hb | hb
      · simpa using basic_shown hb s2
      · rw [hb] at s2 ⊢
        cases s2 with
        | unset h => rfl
    subst hf' hb'
    simp [written, hlook]

/-- C109: other names without letters beyond ASCII are not known. -/
theorem C109_names (name : Str) (ha : ∀ c ∈ name, c.toNat < 128) :
    (∃ s, stylesResolve name = .ok s) ↔ ∃ e ∈ readyStyles, lower name = e.1.toList := by
  constructor
  · rintro ⟨s, hs⟩
    unfold stylesResolve registryResolve at hs
    cases hf : styleTable.find? (fun e => e.1.toList == pyUpper name) with
    | none => rw [hf] at hs; cases hs
    | some x =>
      have hm := List.mem_of_find?_eq_some hf
      have hx := List.find?_some hf
      simp only [beq_iff_eq] at hx
      have : ∀ x ∈ styleTable, ∃ e ∈ readyStyles, lower x.1.toList = e.1.toList := by decide +kernel
      obtain ⟨e, he, h⟩ := this x hm
      exact ⟨e, he, by rw [← h, hx, lower_upper name ha]⟩
  · rintro ⟨e, he, h⟩
    obtain ⟨s, hs, -⟩ := ready_resolve he h
    exact ⟨s, hs⟩

/-! ### Cases -/

example : Sgr.repr [1, 38, 5, 208] = "SGR[1;38;5;208]".toList ∧ Sgr.repr [] ≠ Sgr.repr [0] := by decide

example : (SpanObj.repr ⟨[42, 4], [49, 24]⟩) = "Span[SGR[42;4], SGR[49;24]]".toList := by decide

example : PColor.repr (.ix16 ⟨some 0x800000, some 31, none⟩) = "ColorIndexed16[fg=31, bg=None, 0x800000]".toList
    ∧ PColor.repr (.ix256 ⟨some 0xdadada, some 253, none⟩) = "ColorIndexed256[code=253, 0xdadada]".toList
    ∧ PColor.repr (.rgb (some 0xff)) = "ColorRGB[0x0000ff]".toList ∧ PColor.repr (.rgb none) = "ColorRGB[~]".toList := by decide

/-- The cases of the documentation of `Style`. -/
example : PStyle.repr { fg := basicColor false 2, bold := some true } = "Style[fg=008000, no bg, bold]".toList
    ∧ PStyle.repr { bg := .rgb (some 0xff) } = "Style[no fg, bg=0000ff]".toList := by decide +kernel

/-- Attributes that are off are not told apart from those that are left out. -/
example : PStyle.repr { bold := some false, underlined := some true } = PStyle.repr { underlined := some true } := by decide

example : ∃ e ∈ readyStyles, lower (chars% "Critical_LABEL") = e.1.toList ∧ ({ fg := .basic 97, bg := .basic 101, bold := true } : Spec.Style) = e.2 := by
  decide +kernel

example : stylesResolve (chars% "notice") = .error .key := by decide +kernel

end Kolombos
