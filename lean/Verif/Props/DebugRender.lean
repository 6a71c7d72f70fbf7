/-
C83 (styles made visible as text).
-/
import Verif.Props.Render
import Verif.Props.Filter
import Verif.Model.OtherRenderers
import Verif.Lemmas.DebugLines
import Verif.Spec.DebugRender

set_option linter.unusedSimpArgs false

namespace Kolombos
open Spec

/-- A sequence as a part of a text. -/
def sgrBits (q : Sgr) : List Bit := if q = [] then [] else [.csi (paramText q) 'm']

theorem sgrBits_written (q : Sgr) : (sgrBits q).flatMap Bit.written = q.assemble := by
  unfold sgrBits Sgr.assemble
  by_cases hq : q = []
  · subst hq; rfl
  · rw [if_neg hq, if_neg (by simpa using hq)]
    simp [Bit.written, paramText]

theorem paramText_chars (q : Sgr) : ∀ c ∈ paramText q, ('0' ≤ c ∧ c ≤ '9') ∨ c = ';' := by
  intro c hc
  exact (sgrParam_iff c).1 (join_sgrParam _ c hc)

theorem sgrBits_fine (q : Sgr) : ∀ b ∈ sgrBits q, b.Fine := by
  unfold sgrBits
  by_cases hq : q = []
  · simp [hq]
  · rw [if_neg hq]
    intro b hb
    rw [List.mem_singleton] at hb
    subst hb
    exact ⟨rfl, paramText_chars q⟩

theorem fine_usual {b : Bit} (h : b.Fine) : b.Usual := by
  cases b with
  | text s => exact h
  | csi ps f =>
    obtain ⟨rfl, h⟩ := h
    refine ⟨fun c hc => ?_, .inr (.inr (by decide))⟩
    have e0 : '0'.toNat = 48 := by decide
    have e9 : '9'.toNat = 57 := by decide
    rcases h c hc with ⟨h1, h2⟩ | rfl
    · have h1 : '0'.toNat ≤ c.toNat := h1
      have h2 : c.toNat ≤ '9'.toNat := h2
      omega
    · decide

theorem sgrBits_plain (q : Sgr) : (sgrBits q).flatMap Bit.plain = [] := by
  unfold sgrBits; split <;> rfl

/-- The parts of a rendered text. -/
def spanBits (o : Sgr) (l : Str) : List Bit := sgrBits o ++ [.text l] ++ sgrBits (Sgr.closing o)

theorem flatMap_parts {g : Bit → Str} {h : Str → Str} (o : Sgr) (e : ∀ l, (spanBits o l).flatMap g = h l) (ls : List Str) :
    (ls.flatMap (spanBits o)).flatMap g = (ls.map h).flatten := by
  induction ls with
  | nil => rfl
  | cons l ls ih => rw [List.flatMap_cons, List.flatMap_append, e, ih, List.map_cons, List.flatten_cons]

theorem marked_flatMap {bits : List Bit} (h : ∀ b ∈ bits, b.Fine) :
    replaceSgr [.lit '|', .lit 'ǝ', .ref 3, .lit '|'] (bits.flatMap Bit.written) = bits.flatMap Bit.marked := by
  rw [C77_sgr _ _ fun b hb => fine_usual (h b hb)]
  induction bits with
  | nil => rfl
  | cons b bits ih =>
    rw [List.flatMap_cons, List.flatMap_cons, ih fun b hb => h b (by simp [hb])]
    congr 1
    have hb := h b (by simp)
    cases b with
    | text s => rfl
    | csi ps f =>
      have hs : (Bit.csi ps f).IsSgr := hb
      simp only [hs, if_true]
      simp [filled, Bit.marked, seqPart]

theorem marked_readable (bits : List Bit) (h : ∀ b ∈ bits, b.Fine) : '\x1b' ∉ bits.flatMap Bit.marked := by
  intro hc
  obtain ⟨b, hb, hc⟩ := List.mem_flatMap.1 hc
  have hf := h b hb
  cases b with
  | text s => exact hf hc
  | csi ps f =>
    simp only [Bit.marked, List.mem_cons, List.mem_append, List.not_mem_nil, or_false] at hc
    rcases hc with hc | hc | hc | hc
    · exact absurd hc (by decide)
    · exact absurd hc (by decide)
    · rcases hf.2 _ hc with h | h
      · exact absurd h.1 (by decide)
      · exact absurd h (by decide)
    · exact absurd hc (by decide)

/-- C83.  A text rendered for debugging consists of the same parts as the text
rendered for a terminal with styles forced, the sequences shown in a readable
way; the latter shows the text in its style, and no escape character is left. -/
theorem C83_marks (ops16 ops256 : List ColorOp) (hp : Palette ops16 ops256)
    (cfg : RenderConfig) (text : Str) (s : PStyle) (hs : s.Known) (ht : '\x1b' ∉ text) :
    ∃ p16 p256, ∃ bits : List Bit, ∃ p' pen, colorRun {} ops16 = some p16 ∧ colorRun {} ops256 = some p256
      ∧ debugRender cfg ⟨p16, p256⟩ text s = some (bits.flatMap Bit.marked, p')
      ∧ (∀ b ∈ bits, b.Fine) ∧ '\x1b' ∉ bits.flatMap Bit.marked
      ∧ bits.flatMap Bit.plain = text
      ∧ RunPen (created ops16) (created ops256) cfg ⟨text, some s⟩ pen
      ∧ Term.run {} (bits.flatMap Bit.written) = ({}, text.map fun c => (c, pen)) := by
  obtain ⟨p16, e1, i1⟩ := palette_run (fun e he => (hp.known16 e he).1)
  obtain ⟨p256, e2, i2⟩ := palette_run (fun e he => (hp.known256 e he).1)
  have al : ({ cfg with forceStyles := some true } : RenderConfig).sgrAllowed = true := styled_allowed.2 (.inl rfl)
  obtain ⟨o, p', fg, bg, gs, e, i', c1, c2, st, ap⟩ :=
    openingSgr_shown (palette_known hp) (p := ⟨p16, p256⟩) ⟨i1, i2⟩ al hs
  have hw : ((splitLines text).flatMap (spanBits o)).flatMap Bit.written = ((splitLines text).map (span o)).flatten :=
    flatMap_parts o (fun l => by
      simp only [spanBits, List.flatMap_append, sgrBits_written, List.flatMap_cons, List.flatMap_nil, List.append_nil, span]
      rfl) _
  have hpl : ((splitLines text).flatMap (spanBits o)).flatMap Bit.plain = text := by
    rw [flatMap_parts o (h := id) (fun l => by
      simp only [spanBits, List.flatMap_append, sgrBits_plain, List.flatMap_cons, List.flatMap_nil, List.append_nil]
      rfl) _, List.map_id, splitLines_flatten]
  have hf : ∀ b ∈ (splitLines text).flatMap (spanBits o), b.Fine := by
    intro b hb
    obtain ⟨l, hl, hb⟩ := List.mem_flatMap.1 hb
    simp only [spanBits, List.mem_append, List.mem_singleton] at hb
    rcases hb with (hb | rfl) | hb
    · exact sgrBits_fine _ b hb
    · exact fun hc => ht (mem_splitLines hl hc)
    · exact sgrBits_fine _ b hb
  refine ⟨p16, p256, (splitLines text).flatMap (spanBits o), p', pen s fg bg, e1, e2, ?_, hf, marked_readable _ hf, hpl, ⟨fg, bg, c1, c2, rfl⟩, ?_⟩
  · simp only [debugRender, sgrRender, e, Option.map_some]
    rw [← hw, marked_flatMap hf]
  · rw [hw, term_lines st _ (fun l hl hc => ht (mem_splitLines hl hc)), splitLines_flatten, ap]

/-- The example of the documentation, without a terminal. -/
example : debugRender { isatty := false } {} "text".toList
      { bold := some true, fg := .ix16 { hex := some 0x800000, code := some 31, codeBg := some 41 } } =
    some ("|ǝ1;31|text|ǝ22;39|".toList, {}) := by
  decide +kernel

end Kolombos
