/-
Reading back what the renderer for HTML writes.
-/
import Verif.Model.OtherRenderers
import Verif.Spec.Html
import Verif.Lemmas.Tmux

set_option linter.unusedSimpArgs false

namespace Kolombos
open Spec

theorem cut_none {x : Char} {s : Str} (h : x ∉ s) : cut x s = [s] := by
  induction s with
  | nil => rfl
  | cons c s ih =>
    have hc : c ≠ x := fun e => h (by simp [e])
    rw [cut, if_neg hc, ih (fun hm => h (by simp [hm]))]

theorem cut_sep {x : Char} {a : Str} (s : Str) (h : x ∉ a) : cut x (a ++ x :: s) = a :: cut x s := by
  induction a with
  | nil => simp [cut]
  | cons c a ih =>
    have hc : c ≠ x := fun e => h (by simp [e])
    rw [List.cons_append, cut, if_neg hc, ih (fun hm => h (by simp [hm]))]

theorem html_append (t : Html) (a b : Str) :
    Html.run t (a ++ b) = ((Html.run (Html.run t a).1 b).1, (Html.run t a).2 ++ (Html.run (Html.run t a).1 b).2) := by
  induction a generalizing t with
  | nil => rfl
  | cons c a ih =>
    rw [List.cons_append]
    simp only [Html.run]
    rw [ih]
    simp [List.append_assoc]

/-- Characters of a tag, within quotes or not. -/
theorem html_tag (s u : Str) (q : Bool) (st : List Str) (h : '"' ∉ u) (h' : q = false → '>' ∉ u) :
    Html.run ⟨.tag s q, st⟩ u = (⟨.tag (s ++ u) q, st⟩, []) := by
  induction u generalizing s with
  | nil => simp [Html.run]
  | cons c u ih =>
    have hc : c ≠ '"' := fun e => h (by simp [e])
    have hg : ¬ (c = '>' ∧ q = false) := fun e => h' e.2 (by simp [e.1])
    simp only [Html.run, Html.step, if_neg hc, if_neg hg]
    rw [ih _ (fun hm => h (by simp [hm])) (fun hq hm => h' hq (by simp [hm]))]
    simp

theorem html_text (st : List Str) (u : Str) (h : '<' ∉ u) (h' : '&' ∉ u) :
    Html.run ⟨.text, st⟩ u = (⟨.text, st⟩, u.map fun c => (c, st.headD [])) := by
  induction u with
  | nil => rfl
  | cons c u ih =>
    have hc : c ≠ '<' := fun e => h (by simp [e])
    have hg : c ≠ '&' := fun e => h' (by simp [e])
    simp only [Html.run, Html.step, if_neg hc, if_neg hg]
    rw [ih (fun hm => h (by simp [hm])) (fun hm => h' (by simp [hm]))]
    rfl

/-- A word without the characters that have a meaning in declarations. -/
def CleanWord (w : Str) : Prop := w ≠ [] ∧ ∀ c ∈ w, c ≠ ' ' ∧ c ≠ ':' ∧ c ≠ ';' ∧ c ≠ '"'

instance (w : Str) : Decidable (CleanWord w) := by unfold CleanWord; infer_instance

theorem CleanWord.noBlank {w : Str} (h : CleanWord w) : ' ' ∉ w := fun hm => (h.2 _ hm).1 rfl
theorem CleanWord.noColon {w : Str} (h : CleanWord w) : ':' ∉ w := fun hm => (h.2 _ hm).2.1 rfl
theorem CleanWord.noSemi {w : Str} (h : CleanWord w) : ';' ∉ w := fun hm => (h.2 _ hm).2.2.1 rfl
theorem CleanWord.noQuote {w : Str} (h : CleanWord w) : '"' ∉ w := fun hm => (h.2 _ hm).2.2.2 rfl

theorem join_cons_cons (sep a b : Str) (l : List Str) : join sep (a :: b :: l) = a ++ (sep ++ join sep (b :: l)) := by
  simp [join]

theorem join_one (sep a : Str) : join sep [a] = a := by simp [join]

/-- The characters of joined texts. -/
theorem mem_join {sep : Str} {l : List Str} {c : Char} (h : c ∈ join sep l) : c ∈ sep ∨ ∃ w ∈ l, c ∈ w := by
  induction l with
  | nil => simp [join] at h
  | cons a l ih =>
    cases l with
    | nil => rw [join_one] at h; exact .inr ⟨a, by simp, h⟩
    | cons b l =>
      rw [join_cons_cons] at h
      rcases List.mem_append.1 h with h | h
      · exact .inr ⟨a, by simp, h⟩
      · rcases List.mem_append.1 h with h | h
        · exact .inl h
        · rcases ih h with h | ⟨w, hw, hc⟩
          · exact .inl h
          · exact .inr ⟨w, by simp [hw], hc⟩

theorem blankWords_join {ws : List Str} (h : ∀ w ∈ ws, CleanWord w) : blankWords (join [' '] ws) = ws := by
  have key : ∀ ws : List Str, ws ≠ [] → (∀ w ∈ ws, CleanWord w) → cut ' ' (join [' '] ws) = ws := by
    intro ws
    induction ws with
    | nil => intro h; exact absurd rfl h
    | cons a l ih =>
      intro _ h
      cases l with
      | nil => rw [join_one, cut_none (h a (by simp)).noBlank]
      | cons b l =>
        rw [join_cons_cons, List.singleton_append, cut_sep _ (h a (by simp)).noBlank, ih (by simp) (fun w hw => h w (by simp [hw]))]
  unfold blankWords
  cases ws with
  | nil => rfl
  | cons a l =>
    rw [key _ (by simp) h, List.filter_eq_self]
    intro w hw
    have := (h w hw).1
    cases w with
    | nil => exact absurd rfl this
    | cons _ _ => rfl

theorem blankWords_blank (s : Str) : blankWords (' ' :: s) = blankWords s := by
  unfold blankWords
  rw [cut, if_pos rfl]
  rfl

/-- The text of a declaration. -/
def declText (e : Str × List Str) : Str := e.1 ++ ": ".toList ++ join [' '] e.2

/-- A declaration with clean words. -/
def CleanDecl (e : Str × List Str) : Prop := CleanWord e.1 ∧ ∀ w ∈ e.2, CleanWord w

theorem declText_mem {e : Str × List Str} (h : CleanDecl e) {c : Char} (hc : c ∈ declText e) : c ≠ ';' ∧ c ≠ '"' := by
  unfold declText at hc
  rcases List.mem_append.1 hc with hc | hc
  · rcases List.mem_append.1 hc with hc | hc
    · exact ⟨(h.1.2 c hc).2.2.1, (h.1.2 c hc).2.2.2⟩
    · clear * - hc; revert c; decide
  · rcases mem_join hc with hc | ⟨w, hw, hc⟩
    · clear * - hc; revert c; decide
    · exact ⟨((h.2 w hw).2 c hc).2.2.1, ((h.2 w hw).2 c hc).2.2.2⟩

theorem cut_decl {e : Str × List Str} (h : CleanDecl e) (pre : Str) (hp : pre = [] ∨ pre = [' ']) :
    cssDecl (pre ++ declText e) = some e := by
  have h0 : ':' ∉ pre ++ e.1 := by
    rw [List.mem_append, not_or]
    refine ⟨?_, h.1.noColon⟩
    rcases hp with rfl | rfl <;> decide
  have h1 : pre ++ declText e = (pre ++ e.1) ++ ':' :: (' ' :: join [' '] e.2) := by
    unfold declText
    simp
  have h2 : ':' ∉ ' ' :: join [' '] e.2 := by
    intro hm
    rcases List.mem_cons.1 hm with hm | hm
    · exact absurd hm (by decide)
    · rcases mem_join hm with hm | ⟨w, hw, hm⟩
      · exact absurd hm (by decide)
      · exact (h.2 w hw).noColon hm
  have h3 : blankWords (pre ++ e.1) = [e.1] := by
    have h4 : blankWords e.1 = [e.1] := by
      have := blankWords_join (ws := [e.1]) (by simp [h.1])
      rwa [join_one] at this
    rcases hp with rfl | rfl
    · exact h4
    · rw [List.singleton_append, blankWords_blank, h4]
  unfold cssDecl
  rw [h1, cut_sep _ h0, cut_none h2]
  simp only [h3, blankWords_blank, blankWords_join h.2]

theorem cssDecls_join {E : List (Str × List Str)} (h : ∀ e ∈ E, CleanDecl e) :
    cssDecls (join "; ".toList (E.map declText)) = E := by
  have key : ∀ (E : List (Str × List Str)) (pre : Str), (pre = [] ∨ pre = [' ']) → E ≠ [] → (∀ e ∈ E, CleanDecl e) →
      cssDecls (pre ++ join "; ".toList (E.map declText)) = E := by
    intro E
    induction E with
    | nil => intro _ _ h; exact absurd rfl h
    | cons e E ih =>
      intro pre hp _ h
      have he := h e (by simp)
      have hs : ';' ∉ pre ++ declText e := by
        rw [List.mem_append, not_or]
        refine ⟨?_, fun hm => (declText_mem he hm).1 rfl⟩
        rcases hp with rfl | rfl <;> decide
      cases E with
      | nil =>
        unfold cssDecls
        rw [List.map_singleton, join_one, cut_none hs, List.filterMap_cons, cut_decl he pre hp]
        rfl
      | cons f E =>
        have ih := ih [' '] (.inr rfl) (by simp) (fun e he => h e (by simp [he]))
        rw [List.map_cons, List.map_cons, join_cons_cons, ← List.map_cons]
        have e1 : pre ++ (declText e ++ ("; ".toList ++ join "; ".toList (List.map declText (f :: E)))) =
            (pre ++ declText e) ++ ';' :: ([' '] ++ join "; ".toList (List.map declText (f :: E))) := by
          simp
        rw [e1]
        unfold cssDecls at ih ⊢
        rw [cut_sep _ hs, List.filterMap_cons, cut_decl he pre hp, ih]
  cases E with
  | nil => rfl
  | cons e E => exact key (e :: E) [] (.inl rfl) (by simp) h

/-- The words of an entry. -/
def lookupD (L : List (Str × List Str)) (n : Str) : List Str := (L.find? fun e => e.1 = n).elim [] Prod.snd

theorem lookupD_absent {L : List (Str × List Str)} {n : Str} (h : ∀ e ∈ L, e.1 ≠ n) : lookupD L n = [] := by
  unfold lookupD
  rw [List.find?_eq_none.2]
  · rfl
  · intro e he
    simp [h e he]

theorem lookupD_ordered {order : List Str → List Str} (ho : ∀ l, (order l).Perm l) {L : List (Str × List Str)}
    (hn : (L.map Prod.fst).Nodup) (n : Str) :
    (lookupD ((L.filter fun e => decide (e.2.length > 0)).map fun e => (e.1, order e.2)) n).Perm (lookupD L n) := by
  induction L with
  | nil => exact .refl _
  | cons e L ih =>
    rw [List.map_cons, List.nodup_cons] at hn
    by_cases he : e.1 = n
    · have h1 : lookupD (e :: L) n = e.2 := by simp [lookupD, he]
      rw [h1]
      by_cases hl : e.2.length > 0
      · rw [List.filter_cons_of_pos (by simpa using hl), List.map_cons]
        have : lookupD ((e.1, order e.2) :: (L.filter fun e => decide (e.2.length > 0)).map fun e => (e.1, order e.2)) n = order e.2 := by
          simp [lookupD, he]
        rw [this]
        exact ho _
      · rw [List.filter_cons_of_neg (by simpa using hl), lookupD_absent]
        · have : e.2 = [] := List.eq_nil_of_length_eq_zero (by omega)
          rw [this]
        · intro x hx
          obtain ⟨y, hy, rfl⟩ := List.mem_map.1 hx
          intro h
          exact hn.1 (by rw [he, ← h]; exact List.mem_map.2 ⟨y, (List.mem_filter.1 hy).1, rfl⟩)
    · have h1 : lookupD (e :: L) n = lookupD L n := by simp [lookupD, he]
      rw [h1]
      by_cases hl : e.2.length > 0
      · rw [List.filter_cons_of_pos (by simpa using hl), List.map_cons]
        have : lookupD ((e.1, order e.2) :: (L.filter fun e => decide (e.2.length > 0)).map fun e => (e.1, order e.2)) n =
            lookupD ((L.filter fun e => decide (e.2.length > 0)).map fun e => (e.1, order e.2)) n := by
          simp [lookupD, he]
        rw [this]
        exact ih hn.2
      · rw [List.filter_cons_of_neg (by simpa using hl)]
        exact ih hn.2

theorem cssColor_eq {h : Nat} (hh : h < 16777216) : '#' :: hexPad 6 h = cssColor h := by
  unfold cssColor
  congr 1
  rw [hexPad_succ _ _ (by decide), hexPad_succ _ _ (by decide), hexPad_succ _ _ (by decide), hexPad_succ _ _ (by decide),
    hexPad_succ _ _ (by decide)]
  have h1 : hexPad 1 (h / 16 / 16 / 16 / 16 / 16) = [Nat.digitChar (h / 1048576 % 16)] := by
    rw [show h / 16 / 16 / 16 / 16 / 16 = h / 1048576 % 16 by omega]
    unfold hexPad hex
    rw [Nat.toDigits_of_lt_base (by omega)]
    rfl
  rw [h1, show h / 16 / 16 / 16 / 16 % 16 = h / 65536 % 16 by omega, show h / 16 / 16 / 16 % 16 = h / 4096 % 16 by omega,
    show h / 16 / 16 % 16 = h / 256 % 16 by omega]
  rfl

end Kolombos
