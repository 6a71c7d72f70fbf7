/-
C59 (styled texts on a terminal), C60 (preset palettes).
-/
import Verif.Lemmas.Render
import Verif.Props.Color
import Verif.Spec.Presets

set_option linter.unusedSimpArgs false

namespace Kolombos
open Spec

theorem created_hex {ops : List ColorOp} {e : Nat × IxColor} (h : e ∈ created ops) :
    e.2.hex = some e.1 := by
  induction ops with
  | nil => simp [created] at h
  | cons o ops ih =>
    cases o with
    | search x => exact ih h
    | create c =>
      simp only [created] at h
      cases hc : c.hex with
      | none => rw [hc] at h; exact ih h
      | some v =>
        rw [hc] at h
        rcases List.mem_cons.mp h with rfl | h
        · exact hc
        · exact ih h

theorem palette_known {ops16 ops256 : List ColorOp} (h : Palette ops16 ops256) :
    PaletteKnown (created ops16) (created ops256) :=
  ⟨h.some16, h.some256, h.known16, fun e he => ⟨(h.known256 e he).1, (h.known256 e he).2, created_hex he⟩⟩

theorem palette_run {ops : List ColorOp} (h : ∀ e ∈ created ops, e.1 < 16777216) :
    ∃ a, colorRun {} ops = some a ∧ ColorInv (created ops) a := by
  obtain ⟨a, ha, i⟩ := colorRun_inv ops inv_init (by simpa using h)
  exact ⟨a, ha, by simpa using i⟩

theorem styled_allowed {cfg : RenderConfig} : cfg.sgrAllowed = true ↔ cfg.Styled := by
  unfold RenderConfig.sgrAllowed RenderConfig.Styled
  rcases cfg with ⟨_ | _ | _, a, b, t⟩ <;> simp

theorem renderText_shown {reg16 reg256 : List (Nat × IxColor)} {cfg : RenderConfig}
    (k : PaletteKnown reg16 reg256) (al : cfg.sgrAllowed = true) (runs : List TextRun)
    (hs : ∀ r ∈ runs, ∀ s, r.style = some s → s.Known) (ht : ∀ r ∈ runs, '\x1b' ∉ r.string)
    {p : Palettes} (i : PaletteInv reg16 reg256 p) :
    ∃ out p' pens, renderText cfg p runs = some (out, p') ∧ PaletteInv reg16 reg256 p'
      ∧ List.Forall₂ (RunPen reg16 reg256 cfg) runs pens
      ∧ Term.run {} out = ({}, written runs pens) := by
  induction runs generalizing p with
  | nil => exact ⟨[], p, [], rfl, i, .nil, rfl⟩
  | cons r rs ih =>
    have one : ∃ a p1 st, renderRun cfg p r = some (a, p1) ∧ PaletteInv reg16 reg256 p1
        ∧ RunPen reg16 reg256 cfg r st
        ∧ Term.run {} a = ({}, r.string.map (fun c => (c, st))) := by
      unfold renderRun RunPen
      cases hr : r.style with
      | none => exact ⟨r.string, p, {}, rfl, i, rfl, term_text {} r.string (ht r (by simp))⟩
      | some s =>
        obtain ⟨a, p1, fg, bg, e1, i1, c1, c2, t⟩ :=
          sgrRender_shown k i al (hs r (by simp) s hr) (ht r (by simp))
        exact ⟨a, p1, pen s fg bg, e1, i1, ⟨fg, bg, c1, c2, rfl⟩, t⟩
    obtain ⟨a, p1, st, e1, i1, c1, t1⟩ := one
    obtain ⟨b, p2, sts, e2, i2, c2, t2⟩ :=
      ih (fun x hx => hs x (by simp [hx])) (fun x hx => ht x (by simp [hx])) i1
    refine ⟨a ++ b, p2, st :: sts, by simp only [renderText, e1, e2], i2, .cons c1 c2, ?_⟩
    rw [term_append, t1]
    simp only
    rw [t2]
    rfl

/-- C59.  Rendering a text of styled runs, with whatever palettes and earlier
searches, never fails; on a fresh terminal exactly the characters of the runs
appear, each with the attributes and colours of its style (the nearest palette
colours under the compatibility settings), over line breaks too, and the
terminal ends in its default state. -/
theorem C59_shown (ops16 ops256 : List ColorOp) (hp : Palette ops16 ops256)
    (cfg : RenderConfig) (hc : cfg.Styled) (runs : List TextRun)
    (hs : ∀ r ∈ runs, ∀ s, r.style = some s → s.Known) (ht : ∀ r ∈ runs, '\x1b' ∉ r.string) :
    ∃ p16 p256 out p' pens, colorRun {} ops16 = some p16 ∧ colorRun {} ops256 = some p256
      ∧ renderText cfg ⟨p16, p256⟩ runs = some (out, p')
      ∧ List.Forall₂ (RunPen (created ops16) (created ops256) cfg) runs pens
      ∧ Term.run {} out = ({}, written runs pens) := by
  obtain ⟨p16, e1, i1⟩ := palette_run (fun e he => (hp.known16 e he).1)
  obtain ⟨p256, e2, i2⟩ := palette_run (fun e he => (hp.known256 e he).1)
  obtain ⟨out, p', pens, h1, -, h3, h4⟩ :=
    renderText_shown (palette_known hp) (styled_allowed.mpr hc) runs hs ht (p := ⟨p16, p256⟩) ⟨i1, i2⟩
  exact ⟨p16, p256, out, p', pens, e1, e2, h1, h3, h4⟩

/-- The appearance of a run is determined by its style, the settings and the
created colours. -/
theorem colorShown_unique {reg16 reg256 : List (Nat × IxColor)} {c256 c16 bg : Bool} {c : PColor}
    {x y : Color} (hx : ColorShown reg16 reg256 c256 c16 bg c x)
    (hy : ColorShown reg16 reg256 c256 c16 bg c y) : x = y := by
  have key : ∀ {reg : List (Nat × IxColor)} {h h' g g' n n' : Nat} {e e' : IxColor}
      {f : IxColor → Option Nat}, h = h' → Nearest reg h (g, e) → Nearest reg h' (g', e') →
      f e = some n → f e' = some n' → n = n' := by
    intro reg h h' g g' n n' e e' f hh n1 n2 c1 c2
    subst hh
    have := (Prod.mk.inj (nearest_unique n1 n2)).2
    subst this
    rw [c1] at c2
    exact Option.some.inj c2
  cases hx with
  | unset h => cases hy <;> simp_all [PColor.hex]
  | trueColor h1 h2 => cases hy <;> simp_all [PColor.hex]
  | rgbTo256 h1 h2 near code =>
    cases hy with
    | rgbTo256 _ _ near' code' => rw [key (f := IxColor.code) rfl near near' code code']
    | unset h => simp [PColor.hex] at h
    | trueColor a b => simp_all
    | rgbTo16 a => simp_all
  | rgbTo16 h1 near code =>
    cases hy with
    | rgbTo16 _ near' code' =>
      rw [key (f := fun e => if bg then e.codeBg else e.code) rfl near near' code code']
    | unset h => simp [PColor.hex] at h
    | trueColor a b => simp_all
    | rgbTo256 a => simp_all
  | indexed h1 hex code => cases hy <;> simp_all [PColor.hex]
  | indexedTo16 h1 hex near code =>
    cases hy with
    | indexedTo16 _ hex' near' code' =>
      rw [key (f := fun e => if bg then e.codeBg else e.code)
        (Option.some.inj (hex.symm.trans hex')) near near' code code']
    | unset h => simp_all [PColor.hex]
    | indexed a => simp_all
  | basic hex code => cases hy <;> simp_all [PColor.hex]

/-- C59.  The appearance does not depend on what was searched or rendered
before: after two histories with the same creations every run is written the
same way. -/
theorem C59_stable (ops16 ops256 ops16' ops256' : List ColorOp)
    (e16 : created ops16' = created ops16) (e256 : created ops256' = created ops256)
    (cfg : RenderConfig) (r : TextRun) (st st' : Style)
    (h : RunPen (created ops16) (created ops256) cfg r st)
    (h' : RunPen (created ops16') (created ops256') cfg r st') : st = st' := by
  rw [e16, e256] at h'
  unfold RunPen at h h'
  cases hr : r.style with
  | none => rw [hr] at h h'; exact h.trans h'.symm
  | some s =>
    rw [hr] at h h'
    obtain ⟨f, b, h1, h2, h3⟩ := h
    obtain ⟨f', b', h1', h2', h3'⟩ := h'
    rw [h3, h3', colorShown_unique h1 h1', colorShown_unique h2 h2']

theorem render_plain {cfg : RenderConfig} (h : cfg.sgrAllowed = false) (p : Palettes) (text : Str)
    (s : PStyle) : sgrRender cfg p text s = some (text, p) := by
  have rc : ∀ c bg, renderColor cfg p c bg = some ([], p) := by
    intro c bg
    unfold renderColor
    cases c.hex <;> simp [h]
  have ra : renderAttributes cfg s = [] := by simp [renderAttributes, h]
  simp only [sgrRender, openingSgr, rc, ra, Sgr.add, List.append_nil]
  have : (splitLines text).map (span []) = splitLines text := by
    conv => rhs; rw [← List.map_id (splitLines text)]
    exact List.map_congr_left (fun l _ => span_nil l)
  rw [this, splitLines_flatten]

/-- C59.  If styles are switched off, or left to the library and the output is
not a terminal, every text is passed through unchanged, whatever its styles and
characters are, and no palette is touched. -/
theorem C59_plain (cfg : RenderConfig) (hc : ¬ cfg.Styled) (p : Palettes) (runs : List TextRun) :
    renderText cfg p runs = some ((runs.map TextRun.string).flatten, p) := by
  have al : cfg.sgrAllowed = false := by
    cases h : cfg.sgrAllowed with
    | false => rfl
    | true => exact absurd (styled_allowed.mp h) hc
  induction runs with
  | nil => rfl
  | cons r rs ih =>
    have : renderRun cfg p r = some (r.string, p) := by
      unfold renderRun
      cases r.style with
      | none => rfl
      | some s => exact render_plain al p r.string s
    simp only [renderText, this, ih, List.map_cons, List.flatten_cons]

/-- C60.  The presets of the library are the 256-colour palette of xterm from
index 16 on, each index once and in order, and the 16 colours with their
foreground and background codes. -/
theorem C60_palette :
    presets256 = (List.range' 16 240).map (fun n => (xtermColor n, n))
    ∧ presets16 = (List.range 8).map (fun i => (vgaColor false i, 30 + i, 40 + i))
        ++ (List.range 8).map (fun i => (vgaColor true i, 90 + i, 100 + i)) := by
  decide +kernel

/-- C60.  The presets are palettes as rendering expects them, also after the
program has created more colours that terminals know. -/
theorem C60_usable (ops16 ops256 : List ColorOp)
    (h16 : ∀ e ∈ created ops16, e.1 < 16777216 ∧ Known16 e.2)
    (h256 : ∀ e ∈ created ops256, e.1 < 16777216 ∧ Known256 e.2) :
    Palette (presetOps16 ++ ops16) (presetOps256 ++ ops256) := by
  have c16 : created presetOps16 = presets16.map (fun e => (e.1, ix16 e)) := by decide +kernel
  have c256 : created presetOps256 = presets256.map (fun e => (e.1, ix256 e)) := by decide +kernel
  have k16 : ∀ e ∈ presets16, e.1 < 16777216 ∧ e.2.2 = e.2.1 + 10
      ∧ ((30 ≤ e.2.1 ∧ e.2.1 ≤ 37) ∨ (90 ≤ e.2.1 ∧ e.2.1 ≤ 97)) := by decide +kernel
  have k256 : ∀ e ∈ presets256, e.1 < 16777216 ∧ e.2 ≤ 255 := by decide +kernel
  constructor
  · rw [created_append, c16]; simp [presets16]
  · rw [created_append, c256]
    exact List.append_ne_nil_of_left_ne_nil (by rw [ne_eq, List.map_eq_nil_iff]; exact (by decide +kernel)) _
  · intro e he
    rw [created_append, c16] at he
    rcases List.mem_append.mp he with he | he
    · obtain ⟨x, hx, rfl⟩ := List.mem_map.mp he
      obtain ⟨h1, h2, h3⟩ := k16 x hx
      exact ⟨h1, x.2.1, rfl, by simp [ix16, h2], h3⟩
    · exact h16 e he
  · intro e he
    rw [created_append, c256] at he
    rcases List.mem_append.mp he with he | he
    · obtain ⟨x, hx, rfl⟩ := List.mem_map.mp he
      obtain ⟨h1, h2⟩ := k256 x hx
      exact ⟨h1, x.2, rfl, h2⟩
    · exact h256 e he

/-- Every level of a channel is within 47 of a level of the cube. -/
theorem cube_near (v : Nat) (h : v < 256) :
    ∃ i < 6, ((cubeLevel i : Int) - v) * ((cubeLevel i : Int) - v) ≤ 2209 := by
  have : ∀ v : Fin 256, ∃ i : Fin 6,
      ((cubeLevel i : Int) - (v : Nat)) * ((cubeLevel i : Int) - (v : Nat)) ≤ 2209 := by decide +kernel
  obtain ⟨i, hi⟩ := this ⟨v, h⟩
  exact ⟨i, i.isLt, hi⟩

theorem xterm_lt : ∀ c ∈ List.range' 16 240, xtermColor c < 16777216 := by decide +kernel

theorem xterm_nodup : ((List.range' 16 240).map xtermColor).Nodup := by decide +kernel

theorem channels_of {r g b : Nat} (hr : r < 256) (hg : g < 256) (hb : b < 256) :
    redOf (65536 * r + 256 * g + b) = r ∧ greenOf (65536 * r + 256 * g + b) = g
      ∧ blueOf (65536 * r + 256 * g + b) = b := by
  unfold redOf greenOf blueOf
  omega

theorem cubeLevel_lt {i : Nat} (h : i < 6) : cubeLevel i < 256 := by
  unfold cubeLevel; split <;> omega

/-- C60.  With the presets, whatever else was created or searched, a true colour
shown with the 256-colour palette is off by at most 47 in the root mean square of
the three channels, and a colour of the palette is shown as itself. -/
theorem C60_close (ops256 : List ColorOp) (h : Nat) (e : Nat × IxColor)
    (n : Nearest (created (presetOps256 ++ ops256)) h e) :
    rgbGap e.1 h ≤ 3 * 47 * 47
    ∧ (∀ c, 16 ≤ c → c ≤ 255 → h = xtermColor c → e = (h, ⟨some h, some c, none⟩)) := by
  have c256 : created presetOps256
      = ((List.range' 16 240).map (fun n => (xtermColor n, n))).map (fun e => (e.1, ix256 e)) := by
    rw [← C60_palette.1]; decide +kernel
  have mem : ∀ c, 16 ≤ c → c ≤ 255 →
      (xtermColor c, ix256 (xtermColor c, c)) ∈ created (presetOps256 ++ ops256) := by
    intro c h1 h2
    rw [created_append, c256]
    refine List.mem_append.mpr (Or.inl ?_)
    refine List.mem_map.mpr ⟨(xtermColor c, c), List.mem_map.mpr ⟨c, ?_, rfl⟩, rfl⟩
    rw [List.mem_range'_1]
    omega
  have le : ∀ d ∈ created (presetOps256 ++ ops256), rgbGap e.1 h ≤ rgbGap d.1 h :=
    nearest_le n
  constructor
  · obtain ⟨i, hi, h1⟩ := cube_near (redOf h) (by unfold redOf; omega)
    obtain ⟨j, hj, h2⟩ := cube_near (greenOf h) (by unfold greenOf; omega)
    obtain ⟨k, hk, h3⟩ := cube_near (blueOf h) (by unfold blueOf; omega)
    have := le _ (mem (16 + 36 * i + 6 * j + k) (by omega) (by omega))
    have x : xtermColor (16 + 36 * i + 6 * j + k)
        = 65536 * cubeLevel i + 256 * cubeLevel j + cubeLevel k := by
      unfold xtermColor
      rw [if_pos (by omega)]
      have e1 : (16 + 36 * i + 6 * j + k - 16) / 36 = i := by omega
      have e2 : (16 + 36 * i + 6 * j + k - 16) / 6 % 6 = j := by omega
      have e3 : (16 + 36 * i + 6 * j + k - 16) % 6 = k := by omega
      rw [e1, e2, e3]
    obtain ⟨r1, r2, r3⟩ := channels_of (cubeLevel_lt hi) (cubeLevel_lt hj) (cubeLevel_lt hk)
    simp only [x] at this
    unfold rgbGap at this ⊢
    rw [r1, r2, r3] at this
    omega
  · rintro c h1 h2 rfl
    have split : List.range' 16 240 = List.range' 16 (c - 16) ++ c :: List.range' (c + 1) (255 - c) := by
      have e1 : 240 = (c - 16) + ((255 - c) + 1) := by omega
      rw [e1, ← List.range'_append_1, List.range'_succ]
      have e2 : 16 + (c - 16) = c := by omega
      rw [e2]
    have inj : ∀ d ∈ List.range' 16 (c - 16), xtermColor d ≠ xtermColor c := by
      intro d hd he
      have nd := xterm_nodup
      rw [split, List.map_append, List.nodup_append] at nd
      exact nd.2.2 _ (List.mem_map_of_mem hd) _ (by simp) he
    have zero : rgbGap (xtermColor c) (xtermColor c) = 0 := by simp [rgbGap]
    refine nearest_unique n
      ⟨(List.range' 16 (c - 16)).map (fun n => (xtermColor n, ix256 (xtermColor n, n))),
       (List.range' (c + 1) (255 - c)).map (fun n => (xtermColor n, ix256 (xtermColor n, n)))
        ++ created ops256, ?_, ?_, ?_⟩
    · rw [created_append, c256, split]
      simp [ix256, Function.comp_def]
    · intro d hd
      obtain ⟨m, hm, rfl⟩ := List.mem_map.mp hd
      rw [zero]
      have lt : ∀ x ∈ List.range' 16 240, xtermColor x < 16777216 := xterm_lt
      rw [List.mem_range'_1] at hm
      refine Classical.byContradiction fun hlt => inj m (by rw [List.mem_range'_1]; exact hm) ?_
      refine rgbGap_eq_zero (lt m ?_) (lt c ?_) (Int.not_lt.mp hlt)
      · rw [List.mem_range'_1]; omega
      · rw [List.mem_range'_1]; omega
    · intro d _
      rw [zero]
      exact rgbGap_nonneg _ _

/-- A warning of two lines, bold and in true colours, shown with 256 colours. -/
example :
    ((colorRun {} presetOps256).bind fun p => renderText ⟨some true, true, false, false⟩ ⟨{}, p⟩
      [⟨"a\nb".toList, some { fg := .rgb (some 0xff8801), bold := some true }⟩,
       ⟨['c'], none⟩]).map (·.1)
    = some ("\x1b[1;38;5;208ma\n\x1b[22;39m\x1b[1;38;5;208mb\x1b[22;39mc".toList) := by
  decide +kernel

/-- `NOOP_COLOR_INDEXED` is documented to render into an empty string; as a
colour of a style it does, but its own sequence cannot be made. -/
example : noopColor.toSgr16 false = none ∧ renderColor ⟨some true, false, false, true⟩ {} (.ix16 noopColor) false
    = some ([], {}) := by decide

end Kolombos
