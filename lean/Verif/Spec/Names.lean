import Verif.Spec.Terminal
/-
The names of text styles and what they mean on a terminal.
-/
namespace Kolombos.Spec
open Kolombos

/-- The eight basic colours, in the order of the terminal's palette. -/
def basicNames : List String := ["black", "red", "green", "yellow", "blue", "magenta", "cyan", "white"]

/-- The bright variants; bright black is called gray. -/
def brightNames : List String := ["gray", "hi_red", "hi_green", "hi_yellow", "hi_blue", "hi_magenta", "hi_cyan", "hi_white"]

/-- Attributes and what they do. -/
def attributeNames : List (String × (Style → Style)) := [
  ("bold", fun st => { st with bold := true }),
  ("dim", fun st => { st with dim := true }),
  ("italic", fun st => { st with italic := true }),
  ("underlined", fun st => { st with underline := 1 }),
  ("double_underlined", fun st => { st with underline := 2 }),
  ("blink_slow", fun st => { st with blink := 1 }),
  ("blink_fast", fun st => { st with blink := 2 }),
  ("inversed", fun st => { st with inverse := true }),
  ("hidden", fun st => { st with hidden := true }),
  ("crosslined", fun st => { st with crossed := true }),
  ("overlined", fun st => { st with overlined := true })]

/-- Names that end a style. -/
def endingNames : List (String × (Style → Style)) := [
  ("reset", fun _ => {}),
  ("bold_dim_off", fun st => { st with bold := false, dim := false }),
  ("italic_off", fun st => { st with italic := false }),
  ("underlined_off", fun st => { st with underline := 0 }),
  ("blink_off", fun st => { st with blink := 0 }),
  ("inversed_off", fun st => { st with inverse := false }),
  ("hidden_off", fun st => { st with hidden := false }),
  ("crosslined_off", fun st => { st with crossed := false }),
  ("overlined_off", fun st => { st with overlined := false }),
  ("color_off", fun st => { st with fg := .dflt }),
  ("bg_color_off", fun st => { st with bg := .dflt })]

/-- Colour names for text and background: the number of a basic colour is its place in the
palette, counted from 30 (text) or 40 (background), bright ones from 90 and 100. -/
def colourNames : List (String × (Style → Style)) :=
  basicNames.zipIdx.map (fun e => (e.1, fun st => { st with fg := .basic (30 + e.2) })) ++
  brightNames.zipIdx.map (fun e => (e.1, fun st => { st with fg := .basic (90 + e.2) })) ++
  basicNames.zipIdx.map (fun e => ("bg_" ++ e.1, fun st => { st with bg := .basic (40 + e.2) })) ++
  brightNames.zipIdx.map (fun e => ("bg_" ++ e.1, fun st => { st with bg := .basic (100 + e.2) }))

/-- The names that start a style. -/
def styleNames : List (String × (Style → Style)) := attributeNames ++ colourNames

/-- All names of styles. -/
def allNames : List (String × (Style → Style)) := styleNames ++ endingNames

/-- Letters in lower case. -/
def lower (s : Str) : Str := s.map fun c => if 'A' ≤ c ∧ c ≤ 'Z' then Char.ofNat (c.toNat + 32) else c

/-- The names are known in any mix of upper and lower case. -/
def Named (names : List (String × (Style → Style))) (name : Str) (f : Style → Style) : Prop :=
  ∃ e ∈ names, lower name = e.1.toList ∧ f = e.2

/-- Further constants that can be named: the beginnings of extended colours, and lists of codes. -/
def otherNames : List String := ["color_extended", "bg_color_extended", "extended_mode_256", "extended_mode_rgb"]

/-- The names of lists. -/
def listNames : List String := ["list_colors", "list_bg_colors", "list_hi_colors", "list_bg_hi_colors", "list_all_colors"]

end Kolombos.Spec
