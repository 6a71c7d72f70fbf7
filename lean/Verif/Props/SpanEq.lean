import Verif.Props.Ansi
/-
C123: comparing spans.
-/
set_option linter.unusedSimpArgs false

namespace Kolombos
open Spec

theorem assemble_no_x (a : Sgr) : 'x' ∉ a.assemble := by
  intro h
  unfold Sgr.assemble at h
  by_cases ha : a.length = 0
  · rw [if_pos ha] at h
    exact absurd h (by simp)
  · rw [if_neg ha] at h
    simp only [List.mem_cons, List.mem_append, List.not_mem_nil, or_false] at h
    rcases h with h | h | h | h
    · exact absurd h (by decide)
    · exact absurd h (by decide)
    · exact absurd (join_sgrParam _ _ h) (by decide)
    · exact absurd h (by decide)

theorem SpanObj.eq_iff (a b : SpanObj) : SpanObj.eq a b = true ↔ a = b := by
  unfold SpanObj.eq
  rw [Bool.and_eq_true, (C41_eq _ _).1, (C41_eq _ _).1]
  cases a
  cases b
  simp

/-- C123: two spans compare equal if and only if they wrap every text alike (calling them or with `wrap`). -/
theorem C123_wrap (a b : SpanObj) :
    SpanObj.eq a b = true ↔ ∀ text : Option Str, a.wrap text = b.wrap text ∧ a.call text = b.wrap text := by
  rw [SpanObj.eq_iff]
  refine ⟨fun h text => h ▸ ⟨rfl, rfl⟩, fun h => ?_⟩
  have h := (h (some ['x'])).1
  unfold SpanObj.wrap at h
  simp only [List.append_assoc, List.cons_append, List.nil_append] at h
  obtain ⟨h1, h2⟩ := sgr_split_at (assemble_no_x _) (assemble_no_x _) h
  cases a
  cases b
  simp only at h1 h2
  rw [assemble_inj h1, assemble_inj h2]

/-- C123: spans made of codes, names and sequences are equal if and only if the opening sequences
are; and a span that leaves some text as it is, leaves every text as it is: it is `NOOP_SPAN`. -/
theorem C123_made (x y : List SgrArg) (a b : SpanObj) (hx : mkSpan x = .ok a) (hy : mkSpan y = .ok b) :
    (SpanObj.eq a b = true ↔ Sgr.eq a.opening b.opening = true) ∧
    ((∃ text : Str, a.wrap (some text) = text) ↔ SpanObj.eq a ⟨[], []⟩ = true) := by
  have key : ∀ (x : List SgrArg) (a : SpanObj), mkSpan x = .ok a → a.closing = Sgr.closing a.opening := by
    intro x a h
    unfold mkSpan at h
    cases hm : mkSgr x with
    | error e => rw [hm] at h; exact absurd h (by simp)
    | ok o =>
      rw [hm] at h
      simp only at h
      by_cases hl : x.length = 0
      · rw [if_pos hl] at h
        rw [List.length_eq_zero_iff.1 hl] at hm
        cases h
        cases hm
        rfl
      · rw [if_neg hl] at h
        cases h
        rfl
  refine ⟨?_, ?_⟩
  · unfold SpanObj.eq
    rw [key x a hx, key y b hy, Bool.and_eq_true, (C41_eq _ _).1, (C41_eq _ _).1]
    exact ⟨fun h => h.1, fun h => ⟨h, by rw [h]⟩⟩
  · rw [SpanObj.eq_iff]
    refine ⟨fun ⟨t, h⟩ => ?_, fun h => ⟨[], by rw [h]; rfl⟩⟩
    unfold SpanObj.wrap at h
    have hl := congrArg List.length h
    simp only [List.length_append] at hl
    have h1 := (C41_noop a.opening).1 (List.length_eq_zero_iff.1 (by omega))
    have h2 := (C41_noop a.closing).1 (List.length_eq_zero_iff.1 (by omega))
    cases a
    simp only at h1 h2
    rw [h1, h2]

example :
    (match mkSpan [.name "Red".toList, .name "BOLD".toList], mkSpan [.seq [31], .code 1] with
      | .ok a, .ok b => SpanObj.eq a b
      | _, _ => false) = true := by decide +kernel

example : SpanObj.eq ⟨[31], [39]⟩ ⟨[31], [0]⟩ = false ∧ SpanObj.call ⟨[31], [0]⟩ (some ['a']) = "\x1b[31ma\x1b[m".toList := by decide +kernel

end Kolombos
