import Verif.Lemmas.Registry
import Verif.Lemmas.PieceFacts
import Verif.Props.View
import Verif.Spec.Grammar
/-
The observed pieces are the pieces of the specification.
-/
set_option linter.unusedSimpArgs false

namespace Kolombos
open Spec

theorem shownItem_good {reg : Registry} {it : Item Byte} {q : Kind × Bytes} (h : ItemOf it q) :
    shownItem reg it = (q.2, resolvePiece reg q.1 q.2) := by
  obtain ⟨caps, rfl, hg⟩ := h
  simp only [shownItem, hg.prim, hg.grp, Option.getD_some, resolveMatch_good hg]

theorem shown_eq (reg : Registry) (raw : Bytes) :
    shown reg raw = (pieces raw).map fun q => (q.2, resolvePiece reg q.1 q.2) := by
  unfold shown
  have := scan_pieces raw
  revert this
  generalize fSeparator.scan raw = its
  generalize pieces raw = qs
  intro h
  induction h with
  | nil => rfl
  | cons h _ ih => rw [List.map_cons, List.map_cons, ih, shownItem_good h]

theorem pyInt_err {s : Str} {e : Err} (h : pyInt s = .error e) : e = .valueError := by
  unfold pyInt at h; split at h
  · cases h
  · cases h; rfl

theorem parsePcodes_err {l : List Str} {e : Err} (h : parsePcodes l = .error e) : e = .valueError := by
  induction l with
  | nil => cases h
  | cons p l ih =>
    unfold parsePcodes at h
    split at h
    · exact ih h
    · split at h
      · rename_i e' he; cases h; exact pyInt_err he
      · split at h
        · rename_i e' he; cases h; exact ih he
        · cases h

theorem setDetails_err {s : Bytes} {e : Err} (h : setDetails s = .error e) : e = .valueError := by
  unfold setDetails at h
  split at h
  · rename_i he; cases h; exact parsePcodes_err he
  · cases h

theorem resolvePiece_err {reg : Registry} {k : Kind} {p : Bytes} {e : Err}
    (h : resolvePiece reg k p = .error e) : k = .sgr ∧ e = .valueError ∧ setDetails (csiParams p) = .error e := by
  unfold resolvePiece at h
  split at h
  · rename_i hk
    split at h
    · rename_i he; cases h; exact ⟨hk, setDetails_err he, he⟩
    · cases h
  · cases h

/-- The template of a piece, with all its properties but the SGR details. -/
theorem resolvePiece_ok {s : Settings} {k : Kind} {p : Bytes} {t : Template}
    (h : resolvePiece (registryOf s) k p = .ok t) :
    ∃ d, t = { (registryOf s).tpl k with sgr := d } ∧ (k ≠ .sgr → d = {}) ∧
      (k = .sgr → setDetails (csiParams p) = .ok d) := by
  unfold resolvePiece at h
  split at h
  · rename_i hk
    split at h
    · cases h
    · rename_i d he; cases h; subst hk; exact ⟨d, rfl, by simp, fun _ => he⟩
  · rename_i hk
    cases h
    refine ⟨{}, ?_, fun _ => rfl, fun h => absurd h hk⟩
    rw [← (create_tpl s k).sgr]

theorem tpl_with_sgr {s : Settings} {k : Kind} {d : SgrDetails} :
    ({ (registryOf s).tpl k with sgr := d } : Template).charClass = kindClass k := (create_tpl s k).cls

theorem classOf_resolve {s : Settings} {k : Kind} {p : Bytes} {c : CharClass}
    (h : classOf (resolvePiece (registryOf s) k p) = some c) : c = kindClass k := by
  cases h' : resolvePiece (registryOf s) k p with
  | error e => rw [h'] at h; cases h
  | ok t =>
    obtain ⟨d, rfl, -⟩ := resolvePiece_ok h'
    rw [h'] at h
    simp only [classOf, Option.some.injEq] at h
    rw [← h]; exact tpl_with_sgr

theorem classOf_resolve' {s : Settings} {k : Kind} {p : Bytes} (hk : k ≠ .sgr) :
    classOf (resolvePiece (registryOf s) k p) = some (kindClass k) := by
  unfold resolvePiece
  rw [if_neg hk]
  simp only [classOf, (create_tpl s k).cls]

/-- The default labels. -/
def kindMarker : Kind → Str
  | .utf8 => [] | .binary => ['Ḇ'] | .printable => []
  | .tab => ['⇥']
  | k => (kindLabel k).1

theorem create_marker (s : Settings) (k : Kind) : ((registryOf s).tpl k).labelStack.get [] = kindMarker k := by
  cases k <;> rfl

theorem markerOf_resolve {s : Settings} {k : Kind} {p : Bytes} {m : Str}
    (h : markerOf (resolvePiece (registryOf s) k p) = some m) : m = kindMarker k := by
  cases h' : resolvePiece (registryOf s) k p with
  | error e => rw [h'] at h; cases h
  | ok t =>
    obtain ⟨d, rfl, -⟩ := resolvePiece_ok h'
    rw [h'] at h
    simp only [markerOf, Option.some.injEq] at h
    rw [← h]; exact create_marker s k

theorem markerOf_resolve' {s : Settings} {k : Kind} {p : Bytes} (hk : k ≠ .sgr) :
    markerOf (resolvePiece (registryOf s) k p) = some (kindMarker k) := by
  unfold resolvePiece
  rw [if_neg hk]
  simp only [markerOf, create_marker s k]

/-! ### grammar -/

theorem between_Rng {lo hi : Nat} {b : Byte} : between lo hi b = true ↔ Rng lo hi b := by
  simp [between, Rng]

theorem isCsi_iff {ps : Bytes} {f : Byte} {p : Bytes} :
    IsCsi ps f p ↔ ∃ is, p = 0x1b :: 0x5b :: (ps ++ is ++ [f]) ∧ (∀ b ∈ ps, isParam b = true) ∧
      (∀ b ∈ is, isInter b = true) ∧ isFinal f = true := by
  simp only [IsCsi, isParam, isInter, isFinal, between_Rng]

theorem isNf_iff {p : Bytes} :
    IsNf p ↔ ∃ is f, p = 0x1b :: (is ++ [f]) ∧ is ≠ [] ∧ (∀ b ∈ is, isInter b = true) ∧ isFinalNF f = true := by
  simp only [IsNf, isInter, isFinalNF, between_Rng]

theorem docClass_run {k : Kind} {p : Byte → Bool} (h : runClass k = some p) (hk : k ≠ .binary) {b : Byte}
    (hb : p b = true) :
    (kindClass k = .whitespace ∧ docClass b = .whitespace) ∨ (kindClass k = .controlChar ∧ docClass b = .control) ∨
      (kindClass k = .printableChar ∧ docClass b = .printable) := by
  cases k <;> simp only [runClass, Option.some.injEq, reduceCtorEq] at h <;> subst h
  case binary => exact absurd rfl hk
  case ctrl =>
    refine .inr (.inl ⟨rfl, ?_⟩)
    simp [isCtrl, between] at hb
    unfold docClass
    simp only
    rw [if_neg (by omega), if_pos (by omega)]
  case printable =>
    refine .inr (.inr ⟨rfl, ?_⟩)
    simp [isPrintable, between] at hb
    unfold docClass
    simp only
    rw [if_neg (by omega), if_neg (by omega), if_pos (by omega)]
  all_goals
    simp only [beq_iff_eq] at hb
    subst hb
    decide

end Kolombos
