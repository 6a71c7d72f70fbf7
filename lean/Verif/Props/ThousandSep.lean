import Verif.Model.ThousandSep
import Verif.Spec.Number
import Verif.Lemmas.Sgr
/-
C75: digits in groups.
-/
set_option linter.unusedSimpArgs false

namespace Kolombos
open Spec

theorem groups_shape : ∀ (n : Nat) (s : Str), s ≠ [] → s.length ≤ n + 3 → ∃ g gs, groupsOfThree n s = g :: gs ∧ 1 ≤ g.length ∧ g.length ≤ 3 ∧
    (∀ x ∈ gs, x.length = 3) ∧ g ++ gs.flatten = s := by
  intro n
  induction n with
  | zero =>
    intro s hs hl
    exact ⟨s, [], rfl, List.length_pos_iff.2 hs, by omega, by simp, by simp⟩
  | succ n ih =>
    intro s hs hl
    rw [groupsOfThree]
    split
    · rename_i h
      exact ⟨s, [], rfl, List.length_pos_iff.2 hs, h, by simp, by simp⟩
    · rename_i h
      obtain ⟨g, gs, e1, e2, e3, e4, e5⟩ := ih (s.take (s.length - 3)) (by rw [← List.length_pos_iff]; simp; omega) (by simp; omega)
      refine ⟨g, gs ++ [s.drop (s.length - 3)], by rw [e1]; rfl, e2, e3, ?_, ?_⟩
      · intro x hx
        rcases List.mem_append.1 hx with hx | hx
        · exact e4 x hx
        · rw [List.mem_singleton] at hx
          subst hx
          simp
          omega
      · rw [List.flatten_append, ← List.append_assoc, e5]
        simp

theorem replace_none {sep t : Str} (h : '_' ∉ t) : (t.flatMap fun c => if c = '_' then sep else [c]) = t := by
  induction t with
  | nil => rfl
  | cons a t ih =>
    rw [List.flatMap_cons, ih (fun hc => h (List.mem_cons_of_mem _ hc)), if_neg (fun hc => h (by rw [hc]; simp))]
    rfl

theorem replace_join {sep : Str} : ∀ (gs : List Str) (g : Str), '_' ∉ g ++ gs.flatten →
    ((join ['_'] (g :: gs)).flatMap fun c => if c = '_' then sep else [c]) = g ++ gs.flatMap (sep ++ ·) := by
  intro gs
  induction gs with
  | nil =>
    intro g h
    simp only [List.flatten_nil, List.append_nil] at h
    simp only [join, List.flatMap_nil, List.append_nil]
    exact replace_none h
  | cons g' gs ih =>
    intro g h
    simp only [List.flatten_cons, List.mem_append, not_or] at h
    rw [join]
    · rw [List.flatMap_append, List.flatMap_append, ih g' (by simp only [List.mem_append, not_or]; exact h.2), replace_none h.1]
      simp

theorem C75_groups (n : Int) (sep : Str) :
    ∃ (g : Str) (gs : List Str), formatThousandSep n sep = (if n < 0 then ['-'] else []) ++ g ++ gs.flatMap (sep ++ ·) ∧
      1 ≤ g.length ∧ g.length ≤ 3 ∧ (∀ x ∈ gs, x.length = 3) ∧ g ++ gs.flatten = Nat.toDigits 10 n.natAbs := by
  obtain ⟨g, gs, e1, e2, e3, e4, e5⟩ := groups_shape (dec n.natAbs).length (dec n.natAbs) (dec_ne_nil _) (by omega)
  refine ⟨g, gs, ?_, e2, e3, e4, e5⟩
  unfold formatThousandSep underscored
  rw [e1, List.flatMap_append, replace_join]
  · rw [List.append_assoc]
    congr 1
    split <;> rfl
  · rw [e5]
    intro hc
    exact absurd (dec_digit hc) (by decide)

example : formatThousandSep 260341 " ".toList = "260 341".toList ∧ formatThousandSep (-9123123123) ",".toList = "-9,123,123,123".toList ∧
    formatThousandSep 7 ",".toList = "7".toList := by decide

end Kolombos
