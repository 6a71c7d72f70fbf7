/-
The styles of tmux written by the renderer and what tmux does with them.
-/
import Verif.Model.OtherRenderers
import Verif.Spec.Tmux
import Verif.Lemmas.Render

set_option linter.unusedSimpArgs false

namespace Kolombos
open Spec

theorem tmux_append (t : Tmux) (a b : Str) :
    Tmux.run t (a ++ b) = ((Tmux.run (Tmux.run t a).1 b).1, (Tmux.run t a).2 ++ (Tmux.run (Tmux.run t a).1 b).2) := by
  induction a generalizing t with
  | nil => rfl
  | cons c a ih =>
    rw [List.cons_append]
    simp only [Tmux.run]
    rw [ih]
    simp [List.append_assoc]

theorem tmux_body (p : TmuxPen) (w d : Str) (h : ']' ∉ d) :
    Tmux.run ⟨.body w, p⟩ (d ++ [']']) = (⟨.text, (p.style (tmuxWords (w ++ d))).getD p⟩, []) := by
  induction d generalizing w with
  | nil => simp [Tmux.run, Tmux.step]
  | cons c d ih =>
    have hc : c ≠ ']' := fun e => h (by simp [e])
    rw [List.cons_append]
    simp only [Tmux.run, Tmux.step, if_neg hc]
    rw [ih _ (fun hm => h (by simp [hm]))]
    simp

theorem tmux_style (p : TmuxPen) (d : Str) (h : ']' ∉ d) :
    Tmux.run ⟨.text, p⟩ ("#[".toList ++ d ++ "]".toList) = (⟨.text, (p.style (tmuxWords d)).getD p⟩, []) := by
  have e : "#[".toList ++ d ++ "]".toList = '#' :: '[' :: (d ++ [']']) := rfl
  rw [e]
  simp only [Tmux.run, Tmux.step, if_true]
  rw [tmux_body p [] d h]
  rfl

theorem tmux_text (p : TmuxPen) (l : Str) (h : '#' ∉ l) :
    Tmux.run ⟨.text, p⟩ l = (⟨.text, p⟩, l.map fun c => (c, p)) := by
  induction l with
  | nil => rfl
  | cons c l ih =>
    have hc : c ≠ '#' := fun e => h (by simp [e])
    simp only [Tmux.run, Tmux.step, if_neg hc]
    rw [ih (fun hm => h (by simp [hm]))]
    rfl

/-- The renderer writes something for a sequence, and tmux changes the pen by
it. -/
def Eff (q : Sgr) (f : TmuxPen → TmuxPen) : Prop :=
  ∃ d, sgrToTmux q = some d ∧ ∀ p, Tmux.run ⟨.text, p⟩ d = (⟨.text, f p⟩, [])

/-- The same for several sequences. -/
def EffL (qs : List Sgr) (f : TmuxPen → TmuxPen) : Prop :=
  ∃ d, sgrsToTmux qs = some d ∧ ∀ p, Tmux.run ⟨.text, p⟩ d = (⟨.text, f p⟩, [])

theorem effL_nil : EffL [] id := ⟨[], rfl, fun _ => rfl⟩

theorem effL_cons {q : Sgr} {qs : List Sgr} {f g : TmuxPen → TmuxPen} (h : Eff q f) (h' : EffL qs g) :
    EffL (q :: qs) (g ∘ f) := by
  obtain ⟨a, a1, a2⟩ := h
  obtain ⟨b, b1, b2⟩ := h'
  refine ⟨a ++ b, by simp [sgrsToTmux, a1, b1], fun p => ?_⟩
  rw [tmux_append, a2, b2]
  rfl

theorem effL_append {qs rs : List Sgr} {f g : TmuxPen → TmuxPen} (h : EffL qs f) (h' : EffL rs g) :
    EffL (qs ++ rs) (g ∘ f) := by
  induction qs generalizing f with
  | nil =>
    obtain ⟨a, a1, a2⟩ := h
    obtain ⟨b, b1, b2⟩ := h'
    simp only [sgrsToTmux, Option.some.injEq] at a1
    subst a1
    refine ⟨b, b1, fun p => ?_⟩
    have := a2 p
    simp only [Tmux.run, Prod.mk.injEq, Tmux.mk.injEq, true_and, and_true] at this
    rw [b2]
    simp only [Function.comp_apply]
    rw [← this]
  | cons q qs ih =>
    obtain ⟨a, a1, a2⟩ := h
    obtain ⟨b, b1, b2⟩ := h'
    have key : ∀ (qs : List Sgr) (a : Str), sgrsToTmux qs = some a → sgrsToTmux (qs ++ rs) = some (a ++ b) := by
      intro qs
      induction qs with
      | nil => intro a h; simp only [sgrsToTmux, Option.some.injEq] at h; subst h; exact b1
      | cons q qs ih =>
        intro a h
        simp only [sgrsToTmux, List.cons_append] at h ⊢
        cases h1 : sgrToTmux q with
        | none => simp [h1] at h
        | some x =>
          cases h2 : sgrsToTmux qs with
          | none => simp [h1, h2] at h
          | some y =>
            simp only [h1, h2, Option.some.injEq] at h
            rw [ih y h2]
            simp [← h]
    refine ⟨a ++ b, key _ a a1, fun p => ?_⟩
    rw [tmux_append, a2, b2]
    rfl

theorem effL_opt {q : Sgr} {f : TmuxPen → TmuxPen} (h : Eff q f) (b : Bool) :
    EffL (if b then [q] else []) (if b then f else id) := by
  cases b
  · exact effL_nil
  · have := effL_cons h effL_nil
    exact this

/-- Sequences in the table. -/
theorem eff_table {q : Sgr} {d : Str} {f : TmuxPen → TmuxPen} (h1 : sgrToTmux q = some ("#[".toList ++ d ++ "]".toList))
    (h2 : ']' ∉ d) (h3 : ∀ p : TmuxPen, p.style (tmuxWords d) = some (f p)) : Eff q f :=
  ⟨_, h1, fun p => by rw [tmux_style p d h2, h3]; rfl⟩

theorem eff_noop : Eff [] id := ⟨[], by decide +kernel, fun _ => rfl⟩

theorem eff5 : Eff [5] fun p => { p with blink := true } := eff_table (d := "blink".toList) (by decide +kernel) (by decide) fun _ => rfl
theorem eff1 : Eff [1] fun p => { p with bold := true } := eff_table (d := "bold".toList) (by decide +kernel) (by decide) fun _ => rfl
theorem eff9 : Eff [9] fun p => { p with strikethrough := true } := eff_table (d := "strikethrough".toList) (by decide +kernel) (by decide) fun _ => rfl
theorem eff2 : Eff [2] fun p => { p with dim := true } := eff_table (d := "dim".toList) (by decide +kernel) (by decide) fun _ => rfl
theorem eff21 : Eff [21] fun p => { p with doubleUnderscore := true } := eff_table (d := "double-underscore".toList) (by decide +kernel) (by decide) fun _ => rfl
theorem eff7 : Eff [7] fun p => { p with reverse := true } := eff_table (d := "reverse".toList) (by decide +kernel) (by decide) fun _ => rfl
theorem eff3 : Eff [3] fun p => { p with italics := true } := eff_table (d := "italics".toList) (by decide +kernel) (by decide) fun _ => rfl
theorem eff53 : Eff [53] fun p => { p with overline := true } := eff_table (d := "overline".toList) (by decide +kernel) (by decide) fun _ => rfl
theorem eff4 : Eff [4] fun p => { p with underscore := true } := eff_table (d := "underscore".toList) (by decide +kernel) (by decide) fun _ => rfl
theorem eff25 : Eff [25] fun p => { p with blink := false } := eff_table (d := "noblink".toList) (by decide +kernel) (by decide) fun _ => rfl
theorem eff22 : Eff [22] fun p => { p with bold := false, dim := false } := eff_table (d := "nobold nodim".toList) (by decide +kernel) (by decide) fun _ => rfl
theorem eff29 : Eff [29] fun p => { p with strikethrough := false } := eff_table (d := "nostrikethrough".toList) (by decide +kernel) (by decide) fun _ => rfl
theorem eff24 : Eff [24] fun p => { p with underscore := false } := eff_table (d := "nounderscore".toList) (by decide +kernel) (by decide) fun _ => rfl
theorem eff27 : Eff [27] fun p => { p with reverse := false } := eff_table (d := "noreverse".toList) (by decide +kernel) (by decide) fun _ => rfl
theorem eff23 : Eff [23] fun p => { p with italics := false } := eff_table (d := "noitalics".toList) (by decide +kernel) (by decide) fun _ => rfl
theorem eff55 : Eff [55] fun p => { p with overline := false } := eff_table (d := "nooverline".toList) (by decide +kernel) (by decide) fun _ => rfl
theorem eff39 : Eff [39] fun p => { p with fg := .dflt } := eff_table (d := "fg=default".toList) (by decide +kernel) (by decide) fun _ => rfl
theorem eff49 : Eff [49] fun p => { p with bg := .dflt } := eff_table (d := "bg=default".toList) (by decide +kernel) (by decide) fun _ => rfl

theorem tmuxWords_one {w : Str} (h : ∀ c ∈ w, c ≠ ' ' ∧ c ≠ ',') : tmuxWords w = [w] := by
  induction w with
  | nil => rfl
  | cons c w ih =>
    have hc := h c (by simp)
    rw [tmuxWords, if_neg (by simp [hc.1, hc.2]), ih (fun x hx => h x (by simp [hx]))]

/-- What is said about a colour within `#[...]`. -/
def ground (bg : Bool) : Str := if bg then "bg=".toList else "fg=".toList

/-- Changing one of the colours. -/
def setGround (bg : Bool) (x : TmuxColor) (p : TmuxPen) : TmuxPen :=
  if bg then { p with bg := x } else { p with fg := x }

theorem word_color (bg : Bool) (c : Str) (p : TmuxPen) :
    p.word (ground bg ++ c) = (tmuxColor c).map fun x => setGround bg x p := by
  cases bg
  · have e : ground false ++ c = 'f' :: 'g' :: '=' :: c := rfl
    rw [e]
    have d : ('f' :: 'g' :: '=' :: c : Str) ≠ "default".toList := by
      intro h; have : ('f' : Char) = 'd' := by injection h
      exact absurd this (by decide)
    have a : after "fg=".toList ('f' :: 'g' :: '=' :: c) = some c := rfl
    simp only [TmuxPen.word, if_neg d, a]
    rfl
  · have e : ground true ++ c = 'b' :: 'g' :: '=' :: c := rfl
    rw [e]
    have d : ('b' :: 'g' :: '=' :: c : Str) ≠ "default".toList := by
      intro h; have : ('b' : Char) = 'd' := by injection h
      exact absurd this (by decide)
    have a : after "bg=".toList ('b' :: 'g' :: '=' :: c) = some c := rfl
    have a' : after "fg=".toList ('b' :: 'g' :: '=' :: c) = none := rfl
    simp only [TmuxPen.word, if_neg d, a, a']
    rfl

theorem style_color (bg : Bool) {c : Str} {x : TmuxColor} (hc : ∀ k ∈ c, k ≠ ' ' ∧ k ≠ ',') (hx : tmuxColor c = some x)
    (p : TmuxPen) : p.style (tmuxWords (ground bg ++ c)) = some (setGround bg x p) := by
  rw [tmuxWords_one]
  · simp only [TmuxPen.style, word_color, hx, Option.map_some]
  · intro k hk
    rcases List.mem_append.1 hk with hk | hk
    · clear * - hk; revert k; cases bg <;> decide
    · exact hc k hk

theorem ground_noBracket (bg : Bool) : ']' ∉ ground bg := by cases bg <;> decide

theorem eff_color (bg : Bool) {q : Sgr} {c : Str} {x : TmuxColor} (h : sgrToTmux q = some ("#[".toList ++ (ground bg ++ c) ++ "]".toList))
    (hb : ']' ∉ c) (hc : ∀ k ∈ c, k ≠ ' ' ∧ k ≠ ',') (hx : tmuxColor c = some x) : Eff q (setGround bg x) :=
  eff_table h (by simp [ground_noBracket, hb]) (style_color bg hc hx)

/-- The name of a colour with a code of its own. -/
def basicName (n : Nat) : Str :=
  if n < 90 then tmuxNames.getD (n % 10) [] else "bright".toList ++ tmuxNames.getD (n % 10) []

theorem basicName_facts : ∀ n ∈ (List.range' 30 8 ++ List.range' 90 8 ++ List.range' 40 8 ++ List.range' 100 8),
    ']' ∉ basicName n ∧ (∀ k ∈ basicName n, k ≠ ' ' ∧ k ≠ ',') ∧ tmuxColor (basicName n) = some (Color.basic n).tmux := by
  decide +kernel

theorem basicName_fg : ∀ n ∈ (List.range' 30 8 ++ List.range' 90 8),
    sgrToTmux [n] = some ("#[".toList ++ (ground false ++ basicName n) ++ "]".toList) ∧ Sgr.closing [n] = [39] := by
  decide +kernel

theorem basicName_bg : ∀ n ∈ (List.range' 40 8 ++ List.range' 100 8),
    sgrToTmux [n] = some ("#[".toList ++ (ground true ++ basicName n) ++ "]".toList) ∧ Sgr.closing [n] = [49] := by
  decide +kernel

theorem decValue_dec (n : Nat) : decValue (dec n) = some n := by
  unfold decValue
  split
  · rename_i h; exact absurd h (dec_ne_nil n)
  · rw [if_pos]
    · congr 1
      exact Nat.ofDigitChars_ten_toDigits
    · rw [List.all_eq_true]
      intro c hc
      have := dec_digit hc
      simp only [Char.isDigit, Bool.and_eq_true, decide_eq_true_eq] at this ⊢
      exact this

theorem dec_char {n : Nat} {c : Char} (h : c ∈ dec n) (x : Char) (hx : x.isDigit = false) : c ≠ x := by
  rintro rfl
  rw [dec_digit h] at hx
  cases hx

theorem tmuxColor_indexed {n : Nat} (h : n ≤ 255) : tmuxColor ("color".toList ++ dec n) = some (.indexed n) := by
  have e : "color".toList ++ dec n = 'c' :: 'o' :: 'l' :: 'o' :: 'r' :: dec n := rfl
  have h1 : ('c' :: 'o' :: 'l' :: 'o' :: 'r' :: dec n : Str) ≠ "default".toList := by
    intro h; have : ('c' : Char) = 'd' := by injection h
    exact absurd this (by decide)
  have h2 : ('c' :: 'o' :: 'l' :: 'o' :: 'r' :: dec n : Str) ∉ tmuxNames := by
    intro h
    have : ∀ w ∈ tmuxNames, w.take 2 ≠ ['c', 'o'] := by decide +kernel
    exact this _ h rfl
  have h3 : after "bright".toList ('c' :: 'o' :: 'l' :: 'o' :: 'r' :: dec n) = none := rfl
  have h4 : after "color".toList ('c' :: 'o' :: 'l' :: 'o' :: 'r' :: dec n) = some (dec n) := rfl
  rw [e]
  unfold tmuxColor
  split
  · rename_i h; injection h with h _; exact absurd h (by decide)
  · simp only [if_neg h1, if_neg h2, h3, h4, decValue_dec, if_pos h]

theorem hexPad_succ (w n : Nat) (hw : 1 ≤ w) : hexPad (w + 1) n = hexPad w (n / 16) ++ [Nat.digitChar (n % 16)] := by
  unfold hexPad hex
  by_cases h : n < 16
  · rw [Nat.toDigits_of_lt_base h, Nat.div_eq_of_lt h, Nat.mod_eq_of_lt h, Nat.toDigits_of_lt_base (by decide)]
    obtain ⟨k, rfl⟩ : ∃ k, w = k + 1 := ⟨w - 1, by omega⟩
    simp only [List.length_singleton, Nat.add_sub_cancel]
    rw [List.replicate_succ']
    rfl
  · rw [Nat.toDigits_of_base_le (by decide) (by omega), List.length_append, List.length_singleton]
    rw [show w + 1 - ((Nat.toDigits 16 (n / 16)).length + 1) = w - (Nat.toDigits 16 (n / 16)).length by omega]
    simp

theorem hexPad_six {r g b : Nat} (hr : r ≤ 255) (hg : g ≤ 255) (hb : b ≤ 255) :
    hexPad 6 (rgbToHex r g b) = [Nat.digitChar (r / 16), Nat.digitChar (r % 16), Nat.digitChar (g / 16),
      Nat.digitChar (g % 16), Nat.digitChar (b / 16), Nat.digitChar (b % 16)] := by
  have e : rgbToHex r g b = r * 65536 + g * 256 + b := by
    simp [rgbToHex, Nat.shiftLeft_eq]
  rw [e]
  rw [hexPad_succ _ _ (by decide), hexPad_succ _ _ (by decide), hexPad_succ _ _ (by decide), hexPad_succ _ _ (by decide),
    hexPad_succ _ _ (by decide)]
  have h1 : hexPad 1 ((r * 65536 + g * 256 + b) / 16 / 16 / 16 / 16 / 16) = [Nat.digitChar (r / 16)] := by
    rw [show (r * 65536 + g * 256 + b) / 16 / 16 / 16 / 16 / 16 = r / 16 by omega]
    unfold hexPad hex
    rw [Nat.toDigits_of_lt_base (by omega)]
    rfl
  rw [h1]
  rw [show (r * 65536 + g * 256 + b) / 16 / 16 / 16 / 16 % 16 = r % 16 by omega,
    show (r * 65536 + g * 256 + b) / 16 / 16 / 16 % 16 = g / 16 by omega,
    show (r * 65536 + g * 256 + b) / 16 / 16 % 16 = g % 16 by omega,
    show (r * 65536 + g * 256 + b) / 16 % 16 = b / 16 by omega,
    show (r * 65536 + g * 256 + b) % 16 = b % 16 by omega]
  rfl

theorem hexValue_digit {d : Nat} (h : d < 16) : hexValue d.digitChar = some d := by
  have : ∀ d : Fin 16, hexValue d.1.digitChar = some d.1 := by decide
  exact this ⟨d, h⟩

theorem hexByte_digits {n : Nat} (h : n ≤ 255) : hexByte (Nat.digitChar (n / 16)) (Nat.digitChar (n % 16)) = some n := by
  unfold hexByte
  rw [hexValue_digit (by omega), hexValue_digit (by omega)]
  simp only [Option.some.injEq]
  omega

theorem digit_char {d : Nat} (h : d < 16) : d.digitChar ≠ ']' ∧ d.digitChar ≠ ' ' ∧ d.digitChar ≠ ',' := by
  have : ∀ d : Fin 16, d.1.digitChar ≠ ']' ∧ d.1.digitChar ≠ ' ' ∧ d.1.digitChar ≠ ',' := by decide
  exact this ⟨d, h⟩

theorem tmuxColor_rgb {r g b : Nat} (hr : r ≤ 255) (hg : g ≤ 255) (hb : b ≤ 255) :
    tmuxColor ('#' :: hexPad 6 (rgbToHex r g b)) = some (.rgb r g b) := by
  rw [hexPad_six hr hg hb]
  simp only [tmuxColor, hexByte_digits hr, hexByte_digits hg, hexByte_digits hb]

theorem hexPad_six_chars {r g b : Nat} (hr : r ≤ 255) (hg : g ≤ 255) (hb : b ≤ 255) :
    ∀ c ∈ hexPad 6 (rgbToHex r g b), c ≠ ']' ∧ c ≠ ' ' ∧ c ≠ ',' := by
  rw [hexPad_six hr hg hb]
  intro c hc
  simp only [List.mem_cons, List.not_mem_nil, or_false] at hc
  rcases hc with rfl | rfl | rfl | rfl | rfl | rfl <;> exact digit_char (by omega)

/-- The effect of a colour and of its end. -/
theorem color_eff {bg : Bool} {q : Sgr} {col : Color} (h : ColorShape bg q col) :
    ∃ f g, Eff q f ∧ Eff (Sgr.closing q) g
      ∧ (∀ p : TmuxPen, (if bg then p.bg else p.fg) = .dflt → f p = setGround bg col.tmux p)
      ∧ (∀ p : TmuxPen, (if bg then p.bg else p.fg) = col.tmux → g p = setGround bg .dflt p) := by
  have hclose : ∀ q : Sgr, Sgr.closing q = [if bg then 49 else 39] → Eff (Sgr.closing q) (setGround bg .dflt) := by
    intro q h
    rw [h]
    cases bg
    · exact eff39
    · exact eff49
  cases h with
  | unset =>
    refine ⟨id, id, eff_noop, eff_noop, ?_, ?_⟩ <;>
    · intro p hp
      cases bg
      · simp only [Bool.false_eq_true, if_false, Color.tmux] at hp
        simp only [setGround, Color.tmux, Bool.false_eq_true, if_false, ← hp, id_eq]
      · simp only [if_true, Color.tmux] at hp
        simp only [setGround, Color.tmux, if_true, ← hp, id_eq]
  | basic n h =>
    have hm : n ∈ (List.range' 30 8 ++ List.range' 90 8 ++ List.range' 40 8 ++ List.range' 100 8) := by
      simp only [List.mem_append, List.mem_range'_1]
      cases bg
      · simp only [Bool.false_eq_true, if_false] at h; omega
      · simp only [if_true] at h; omega
    obtain ⟨a1, a2, a3⟩ := basicName_facts n hm
    have hh : sgrToTmux [n] = some ("#[".toList ++ (ground bg ++ basicName n) ++ "]".toList) ∧ Sgr.closing [n] = [if bg then 49 else 39] := by
      cases bg
      · simp only [Bool.false_eq_true, if_false] at h
        exact basicName_fg n (by simp only [List.mem_append, List.mem_range'_1]; omega)
      · simp only [if_true] at h
        exact basicName_bg n (by simp only [List.mem_append, List.mem_range'_1]; omega)
    exact ⟨_, _, eff_color bg hh.1 a1 a2 a3, hclose _ hh.2, fun _ _ => rfl, fun _ _ => rfl⟩
  | indexed n h =>
    refine ⟨_, _, eff_color bg (c := "color".toList ++ dec n) ?_ ?_ ?_ (tmuxColor_indexed h), hclose _ ?_, fun _ _ => rfl, fun _ _ => rfl⟩
    · cases bg <;> simp [sgrToTmux, Sgr.isColorExtended, ground]
    · simp only [List.mem_append, not_or]
      exact ⟨by decide, fun hc => dec_char hc ']' (by decide) rfl⟩
    · intro k hk
      rcases List.mem_append.1 hk with hk | hk
      · clear * - hk; revert k; decide
      · exact ⟨dec_char hk ' ' (by decide), dec_char hk ',' (by decide)⟩
    · cases bg <;> rfl
  | rgb r g b hr hg hb =>
    refine ⟨_, _, eff_color bg (c := '#' :: hexPad 6 (rgbToHex r g b)) ?_ ?_ ?_ (tmuxColor_rgb hr hg hb), hclose _ ?_, fun _ _ => rfl, fun _ _ => rfl⟩
    · cases bg <;> simp [sgrToTmux, Sgr.isColorExtended, ground]
    · simp only [List.mem_cons, not_or]
      exact ⟨by decide, fun hc => (hexPad_six_chars hr hg hb _ hc).1 rfl⟩
    · intro k hk
      rcases List.mem_cons.1 hk with rfl | hk
      · decide
      · exact (hexPad_six_chars hr hg hb _ hk).2
    · cases bg <;> rfl


theorem topt5 (b : Bool) (p : TmuxPen) : (if b then (fun p : TmuxPen => { p with blink := true }) else id) p =
    { p with blink := b || p.blink } := by cases b <;> rfl
theorem topt1 (b : Bool) (p : TmuxPen) : (if b then (fun p : TmuxPen => { p with bold := true }) else id) p =
    { p with bold := b || p.bold } := by cases b <;> rfl
theorem topt9 (b : Bool) (p : TmuxPen) : (if b then (fun p : TmuxPen => { p with strikethrough := true }) else id) p =
    { p with strikethrough := b || p.strikethrough } := by cases b <;> rfl
theorem topt2 (b : Bool) (p : TmuxPen) : (if b then (fun p : TmuxPen => { p with dim := true }) else id) p =
    { p with dim := b || p.dim } := by cases b <;> rfl
theorem topt21 (b : Bool) (p : TmuxPen) : (if b then (fun p : TmuxPen => { p with doubleUnderscore := true }) else id) p =
    { p with doubleUnderscore := b || p.doubleUnderscore } := by cases b <;> rfl
theorem topt7 (b : Bool) (p : TmuxPen) : (if b then (fun p : TmuxPen => { p with reverse := true }) else id) p =
    { p with reverse := b || p.reverse } := by cases b <;> rfl
theorem topt3 (b : Bool) (p : TmuxPen) : (if b then (fun p : TmuxPen => { p with italics := true }) else id) p =
    { p with italics := b || p.italics } := by cases b <;> rfl
theorem topt53 (b : Bool) (p : TmuxPen) : (if b then (fun p : TmuxPen => { p with overline := true }) else id) p =
    { p with overline := b || p.overline } := by cases b <;> rfl
theorem topt4 (b : Bool) (p : TmuxPen) : (if b then (fun p : TmuxPen => { p with underscore := true }) else id) p =
    { p with underscore := b || p.underscore } := by cases b <;> rfl

theorem tcls25 (b : Bool) (p : TmuxPen) : (if b then (fun p : TmuxPen => { p with blink := false }) else id) p =
    { p with blink := !b && p.blink } := by cases b <;> rfl
theorem tcls22 (b : Bool) (p : TmuxPen) : (if b then (fun p : TmuxPen => { p with bold := false, dim := false }) else id) p =
    { p with bold := !b && p.bold, dim := !b && p.dim } := by cases b <;> rfl
theorem tcls29 (b : Bool) (p : TmuxPen) : (if b then (fun p : TmuxPen => { p with strikethrough := false }) else id) p =
    { p with strikethrough := !b && p.strikethrough } := by cases b <;> rfl
theorem tcls24 (b : Bool) (p : TmuxPen) : (if b then (fun p : TmuxPen => { p with underscore := false }) else id) p =
    { p with underscore := !b && p.underscore } := by cases b <;> rfl
theorem tcls27 (b : Bool) (p : TmuxPen) : (if b then (fun p : TmuxPen => { p with reverse := false }) else id) p =
    { p with reverse := !b && p.reverse } := by cases b <;> rfl
theorem tcls23 (b : Bool) (p : TmuxPen) : (if b then (fun p : TmuxPen => { p with italics := false }) else id) p =
    { p with italics := !b && p.italics } := by cases b <;> rfl
theorem tcls55 (b : Bool) (p : TmuxPen) : (if b then (fun p : TmuxPen => { p with overline := false }) else id) p =
    { p with overline := !b && p.overline } := by cases b <;> rfl

theorem map_closing_opt (b : Bool) (n : Nat) :
    (if b then [[n]] else ([] : List Sgr)).map Sgr.closing = if b then [Sgr.closing [n]] else [] := by
  cases b <;> rfl

/-- The pen a line begins with. -/
def leftOver (d : Bool) : TmuxPen := { doubleUnderscore := d }

/-- The attributes of a style at the beginning of a line, and at its end. -/
theorem attributes_eff {cfg : RenderConfig} (al : cfg.sgrAllowed = true) (s : PStyle) :
    ∃ f g, EffL (attributeSgrs cfg s) f ∧ EffL ((attributeSgrs cfg s).map Sgr.closing) g
      ∧ (∀ d, (d = true → s.doubleUnderlined = some true) → f (leftOver d) = tmuxPen s .dflt .dflt)
      ∧ (∀ fg bg, g (tmuxPen s fg bg) =
          { leftOver (decide (s.doubleUnderlined = some true)) with fg := fg.tmux, bg := bg.tmux }) := by
  have h := effL_append (effL_append (effL_append (effL_append (effL_append (effL_append (effL_append (effL_append
    (effL_opt eff5 (truthy s.blink)) (effL_opt eff1 (truthy s.bold))) (effL_opt eff9 (truthy s.crosslined)))
    (effL_opt eff2 (truthy s.dim))) (effL_opt eff21 (truthy s.doubleUnderlined))) (effL_opt eff7 (truthy s.inversed)))
    (effL_opt eff3 (truthy s.italic))) (effL_opt eff53 (truthy s.overlined))) (effL_opt eff4 (truthy s.underlined))
  have h' := effL_append (effL_append (effL_append (effL_append (effL_append (effL_append (effL_append (effL_append
    (effL_opt eff25 (truthy s.blink)) (effL_opt eff22 (truthy s.bold))) (effL_opt eff29 (truthy s.crosslined)))
    (effL_opt eff22 (truthy s.dim))) (effL_opt eff24 (truthy s.doubleUnderlined))) (effL_opt eff27 (truthy s.inversed)))
    (effL_opt eff23 (truthy s.italic))) (effL_opt eff55 (truthy s.overlined))) (effL_opt eff24 (truthy s.underlined))
  have e : attributeSgrs cfg s = (if truthy s.blink then [[5]] else []) ++ (if truthy s.bold then [[1]] else [])
      ++ (if truthy s.crosslined then [[9]] else []) ++ (if truthy s.dim then [[2]] else [])
      ++ (if truthy s.doubleUnderlined then [[21]] else []) ++ (if truthy s.inversed then [[7]] else [])
      ++ (if truthy s.italic then [[3]] else []) ++ (if truthy s.overlined then [[53]] else [])
      ++ (if truthy s.underlined then [[4]] else []) := by
    unfold attributeSgrs
    simp only [al, Bool.not_true, Bool.false_eq_true, if_false]
  have e' : (attributeSgrs cfg s).map Sgr.closing = (if truthy s.blink then [[25]] else []) ++ (if truthy s.bold then [[22]] else [])
      ++ (if truthy s.crosslined then [[29]] else []) ++ (if truthy s.dim then [[22]] else [])
      ++ (if truthy s.doubleUnderlined then [[24]] else []) ++ (if truthy s.inversed then [[27]] else [])
      ++ (if truthy s.italic then [[23]] else []) ++ (if truthy s.overlined then [[55]] else [])
      ++ (if truthy s.underlined then [[24]] else []) := by
    rw [e]
    simp only [List.map_append, map_closing_opt]
    rfl
  rw [← e] at h
  rw [← e'] at h'
  refine ⟨_, _, h, h', ?_, ?_⟩
  · intro d hd
    simp only [Function.comp_apply]
    rw [topt5, topt1, topt9, topt2, topt21, topt7, topt3, topt53, topt4]
    simp only [truthy_eq, tmuxPen, leftOver, Bool.or_false, Color.tmux]
    congr 1
    cases d
    · simp
    · simp [hd rfl]
  · intro fg bg
    simp only [Function.comp_apply]
    rw [tcls25, tcls22, tcls29, tcls22, tcls24, tcls27, tcls23, tcls55, tcls24]
    simp only [truthy_eq, tmuxPen, leftOver]
    have hb : ∀ x y : Bool, (!x && (!y && x)) = false := by decide
    clear h h' e e'
    congr 1 <;> simp [hb]

end Kolombos
