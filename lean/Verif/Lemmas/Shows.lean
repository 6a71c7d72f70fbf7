import Verif.Props.Sgr
import Verif.Spec.Layout
/-
Texts and what they show on a terminal.
-/
set_option linter.unusedSimpArgs false

namespace Kolombos
open Spec

/-- A text of SGR sequences and characters other than ESC. -/
def Clean (s : Str) : Prop := ∃ ps, Plain ps ∧ s = ps.flatMap Part.written

/-- The text shows `v` on a terminal in style `a` and leaves style `b`. -/
structure Shows (a : Style) (s : Str) (b : Style) (v : List (Char × Style)) : Prop where
  clean : Clean s
  run : Term.run ⟨.ground, a⟩ s = (⟨.ground, b⟩, v)

theorem Clean.nil : Clean [] := ⟨[], ⟨by simp, by simp⟩, rfl⟩

theorem Clean.append {a b : Str} (h : Clean a) (h' : Clean b) : Clean (a ++ b) := by
  obtain ⟨ps, h1, rfl⟩ := h
  obtain ⟨qs, h2, rfl⟩ := h'
  refine ⟨ps ++ qs, ⟨?_, ?_⟩, by simp⟩
  · intro s hs
    rcases List.mem_append.1 hs with hs | hs
    · exact h1.texts s hs
    · exact h2.texts s hs
  · intro s hs
    rcases List.mem_append.1 hs with hs | hs
    · exact h1.params s hs
    · exact h2.params s hs

theorem Clean.text {s : Str} (h : '\x1b' ∉ s) : Clean s :=
  ⟨[.text s], ⟨by intro t ht; simp at ht; subst ht; exact h, by simp⟩, by simp [Part.written]⟩

theorem Clean.sgr (q : Sgr) : Clean q.assemble := by
  have key : ∀ l : List Nat, Clean ('\x1b' :: '[' :: (join [';'] (l.map dec) ++ ['m'])) := by
    intro l
    refine ⟨[.sgr (join [';'] (l.map dec))], ⟨by simp, ?_⟩, by simp [Part.written]⟩
    intro t ht c hc
    simp only [List.mem_singleton, Part.sgr.injEq] at ht
    subst ht
    have := join_sgrParam l c hc
    simp only [isSgrParam, Char.isDigit, Bool.or_eq_true, Bool.and_eq_true, decide_eq_true_eq, beq_iff_eq] at this
    exact this
  unfold Sgr.assemble
  split
  · exact .nil
  · exact key _

theorem Clean.strip_append {s : Str} (h : Clean s) (t : Str) : stripSgr (s ++ t) = stripSgr s ++ stripSgr t := by
  obtain ⟨ps, h1, rfl⟩ := h
  rw [stripSgr_parts ps h1, C43_strip ps h1]

theorem Shows.nil (a : Style) : Shows a [] a [] := ⟨.nil, rfl⟩

theorem Shows.append {a b c : Style} {s t : Str} {v w : List (Char × Style)} (h : Shows a s b v) (h' : Shows b t c w) :
    Shows a (s ++ t) c (v ++ w) := by
  refine ⟨h.clean.append h'.clean, ?_⟩
  rw [term_append, h.run]
  simp only [h'.run]

theorem Shows.text (a : Style) {s : Str} (h : '\x1b' ∉ s) : Shows a s a (inStyle a s) :=
  ⟨.text h, term_text a s h⟩

theorem Shows.sgr (a : Style) (q : Sgr) : Shows a q.assemble (applySgr q a) [] :=
  ⟨.sgr q, term_assemble a q⟩

theorem Shows.visible {b : Style} {s : Str} {v : List (Char × Style)} (h : Shows {} s b v) : visible s = v.map Prod.fst := by
  unfold Spec.visible
  show ((Term.run ⟨.ground, {}⟩ s).2).map Prod.fst = _
  rw [h.run]

/-- The characters that appear are those left after removal of the SGR codes. -/
theorem Shows.strip {b : Style} {s : Str} {v : List (Char × Style)} (h : Shows {} s b v) : stripSgr s = v.map Prod.fst := by
  obtain ⟨ps, h1, e⟩ := h.clean
  rw [e, ← C43_appears ps h1, ← e]
  show ((Term.run ⟨.ground, {}⟩ s).2).map Prod.fst = _
  rw [h.run]

theorem Shows.appears {b : Style} {s : Str} {v : List (Char × Style)} (h : Shows {} s b v) : appears s = v := by
  show (Term.run ⟨.ground, {}⟩ s).2 = v
  rw [h.run]

/-- A span on a fresh terminal. -/
theorem Shows.span {o : Sgr} (ho : ∃ gs, Styles o gs) {text : Str} (ht : '\x1b' ∉ text) :
    Shows {} (span o text) {} (inStyle (applySgr o {}) text) := by
  obtain ⟨gs, h⟩ := ho
  refine ⟨?_, ?_⟩
  · exact ((Clean.sgr o).append (.text ht)).append (.sgr _)
  · obtain ⟨st', e, hs⟩ := C42_span h {} text ht
    have : st' = {} := sameOn_all fun g => by
      by_cases hg : g ∈ gs
      · exact (hs g).1 hg
      · exact (hs g).2 hg
    rw [e, this]; rfl

theorem inStyle_append (st : Style) (a b : Str) : inStyle st (a ++ b) = inStyle st a ++ inStyle st b := by
  simp [inStyle]

theorem inStyle_fst (st : Style) (a : Str) : (inStyle st a).map Prod.fst = a := by
  simp [inStyle, Function.comp_def]

end Kolombos
