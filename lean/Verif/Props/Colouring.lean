import Verif.Spec.Colouring
import Verif.Props.Labels
import Verif.Props.Underline
/-
C116: options that only colour.
-/
set_option linter.unusedSimpArgs false

namespace Kolombos
open Spec

/-! ### Places -/

section
variable {R : Char × Style → Char × Style → Prop}

theorem places_refl (hR : ∀ x, R x x) (a : List (Char × Style)) : SamePlaces R a a := by
  refine ⟨rfl, ?_⟩
  induction a with
  | nil => simp
  | cons x a ih =>
    intro xy h
    rw [List.zip_cons_cons, List.mem_cons] at h
    rcases h with rfl | h
    · exact hR x
    · exact ih xy h

theorem places_append {a b a' b' : List (Char × Style)} (h : SamePlaces R a b) (h' : SamePlaces R a' b') : SamePlaces R (a ++ a') (b ++ b') := by
  refine ⟨by rw [List.length_append, List.length_append, h.1, h'.1], ?_⟩
  intro xy hxy
  rw [List.zip_append h.1, List.mem_append] at hxy
  rcases hxy with hxy | hxy
  · exact h.2 xy hxy
  · exact h'.2 xy hxy

theorem places_cons {x y : Char × Style} {a b : List (Char × Style)} (hx : R x y) (h : SamePlaces R a b) : SamePlaces R (x :: a) (y :: b) :=
  places_append (a := [x]) (b := [y]) ⟨rfl, by simp [hx]⟩ h

theorem places_inStyle {st st' : Style} (t : Str) (h : ∀ c ∈ t, R (c, st) (c, st')) : SamePlaces R (inStyle st t) (inStyle st' t) := by
  induction t with
  | nil => exact ⟨rfl, by simp [inStyle]⟩
  | cons c t ih => exact places_cons (h c (by simp)) (ih fun d hd => h d (by simp [hd]))

theorem places_flatMap {α : Type} {f g : α → List (Char × Style)} (l : List α) (h : ∀ q ∈ l, SamePlaces R (f q) (g q)) :
    SamePlaces R (l.flatMap f) (l.flatMap g) := by
  induction l with
  | nil => exact ⟨rfl, by simp⟩
  | cons q l ih =>
    rw [List.flatMap_cons, List.flatMap_cons]
    exact places_append (h q (by simp)) (ih fun q hq => h q (by simp [hq]))

theorem places_take {a b : List (Char × Style)} (h : SamePlaces R a b) (n : Nat) : SamePlaces R (a.take n) (b.take n) := by
  refine ⟨by rw [List.length_take, List.length_take, h.1], ?_⟩
  intro xy hxy
  rw [List.zip_eq_zipWith, ← List.take_zipWith, ← List.zip_eq_zipWith] at hxy
  exact h.2 xy (List.mem_of_mem_take hxy)

/-- Lines made of pieces. -/
theorem places_lines (hR : ∀ x, R x x) (label : Nat → List (Char × Style)) {f g : Kind × Bytes → List (Char × Style)}
    (lost : List (Kind × Bytes) → Nat) (qs : List (Kind × Bytes)) (h : ∀ q ∈ qs, SamePlaces R (f q) (g q)) :
    SamePlaces R (inkLines label f lost qs).flatten (inkLines label g lost qs).flatten := by
  have hs := (pieceLines_spec qs).1
  have h1 : ∀ l ∈ (pieceLines qs).1, ∀ q ∈ l, q ∈ qs := fun l hl q hq => by
    rw [hs]; exact List.mem_append.2 (.inl (List.mem_flatten.2 ⟨l, hl, hq⟩))
  have h2 : ∀ q ∈ (pieceLines qs).2, q ∈ qs := fun q hq => by
    rw [hs]; exact List.mem_append.2 (.inr hq)
  have key : ∀ (label : Nat → List (Char × Style)) (ls ls' : List (List (Char × Style))), ls.length = ls'.length →
      (∀ xy ∈ ls.zip ls', SamePlaces R xy.1 xy.2) →
      SamePlaces R (ls.mapIdx fun i l => label (i + 1) ++ l).flatten (ls'.mapIdx fun i l => label (i + 1) ++ l).flatten := by
    intro label ls
    induction ls generalizing label with
    | nil => intro ls' hl _; cases ls' with
      | nil => exact ⟨rfl, by simp⟩
      | cons _ _ => simp at hl
    | cons x ls ih =>
      intro ls' hl hz
      cases ls' with
      | nil => simp at hl
      | cons y ls' =>
        simp only [List.mapIdx_cons, List.flatten_cons]
        refine places_append (places_append (places_refl hR _) (hz (x, y) (by simp))) ?_
        exact ih (fun n => label (n + 1)) ls' (by simpa using hl) fun xy hxy => hz xy (by simp [hxy])
  unfold inkLines
  refine key label _ _ (by split <;> simp) ?_
  intro xy hxy
  rw [List.zip_append (by simp), List.mem_append] at hxy
  rcases hxy with hxy | hxy
  · rw [List.zip_map, List.mem_map] at hxy
    obtain ⟨⟨l, l'⟩, hl, rfl⟩ := hxy
    have hll : l = l' ∧ l ∈ (pieceLines qs).1 := by
      rw [List.zip_eq_zipWith, List.zipWith_self, List.mem_map] at hl
      obtain ⟨z, hz, e⟩ := hl
      simp only [Prod.mk.injEq] at e
      exact ⟨e.1.symm.trans e.2, e.1 ▸ hz⟩
    obtain ⟨rfl, hm⟩ := hll
    exact places_flatMap l fun q hq => h q (h1 l hm q hq)
  · split at hxy
    · simp at hxy
    · simp only [List.zip_cons_cons, List.zip_nil_right, List.mem_singleton] at hxy
      subst hxy
      have hf := places_flatMap (pieceLines qs).2 fun q hq => h q (h2 q hq)
      simp only
      rw [← hf.1]
      exact places_append (places_take hf _) (places_refl hR _)

/-- Rows of cells. -/
theorem places_rows (hR : ∀ x, R x x) (hd : ∀ x y, R x y → ∀ d, R (d, x.2) (d, y.2)) {s s' : Settings} (hs : rowStart s' = rowStart s)
    (hb : rowBar s' = rowBar s) (ht : totalLine s' = totalLine s) (c : Nat) {a b : List Cell} (h1 : a.map Cell.byte = b.map Cell.byte)
    (h2 : SamePlaces R (a.map Cell.shown) (b.map Cell.shown)) : SamePlaces R (rowsView s c a) (rowsView s' c b) := by
  have hl : a.length = b.length := by simpa using h2.1
  have hz : ∀ xy ∈ a.zip b, xy.1.byte = xy.2.byte ∧ R xy.1.shown xy.2.shown := by
    intro xy hxy
    refine ⟨?_, h2.2 (xy.1.shown, xy.2.shown) ?_⟩
    · have : ∀ (a b : List Cell), a.map Cell.byte = b.map Cell.byte → ∀ xy ∈ a.zip b, xy.1.byte = xy.2.byte := by
        intro a
        induction a with
        | nil => intro b _ xy h; simp at h
        | cons x a ih =>
          intro b h xy hxy
          cases b with
          | nil => simp at hxy
          | cons y b =>
            simp only [List.map_cons, List.cons.injEq] at h
            rw [List.zip_cons_cons, List.mem_cons] at hxy
            rcases hxy with rfl | hxy
            · exact h.1
            · exact ih b h.2 xy hxy
      exact this a b h1 xy hxy
    · rw [List.zip_map, List.mem_map]
      exact ⟨xy, hxy, rfl⟩
  have hrow : ∀ (m n : List Cell), m.length = n.length → (∀ xy ∈ m.zip n, xy.1.byte = xy.2.byte ∧ R xy.1.shown xy.2.shown) →
      SamePlaces R (m.flatMap Cell.hex) (n.flatMap Cell.hex) ∧ SamePlaces R (m.map Cell.shown) (n.map Cell.shown) := by
    intro m
    induction m with
    | nil => intro n hn _; cases n with
      | nil => exact ⟨⟨rfl, by simp⟩, ⟨rfl, by simp⟩⟩
      | cons _ _ => simp at hn
    | cons x m ih =>
      intro n hn hz
      cases n with
      | nil => simp at hn
      | cons y n =>
        obtain ⟨e, r⟩ := hz (x, y) (by simp)
        obtain ⟨i1, i2⟩ := ih n (by simpa using hn) fun xy hxy => hz xy (by simp [hxy])
        rw [List.flatMap_cons, List.flatMap_cons, List.map_cons, List.map_cons]
        refine ⟨places_append ?_ i1, places_cons r i2⟩
        unfold Cell.hex
        simp only at e
        rw [e]
        exact places_inStyle _ fun d _ => hd _ _ r d
  unfold rowsView
  rw [hl, ht, hs, hb]
  refine places_append (places_flatMap _ fun i _ => ?_) (places_refl hR _)
  have hsl : (slice c i a).length = (slice c i b).length := by simp [slice, hl]
  obtain ⟨r1, r2⟩ := hrow (slice c i a) (slice c i b) hsl (by
    intro xy hxy
    refine hz xy ?_
    unfold slice at hxy
    rw [List.zip_eq_zipWith, ← List.take_zipWith, ← List.drop_zipWith, ← List.zip_eq_zipWith] at hxy
    exact List.mem_of_mem_drop (List.mem_of_mem_take hxy))
  unfold rowLayout
  rw [hsl]
  exact places_append (places_append (places_append (places_append (places_append (places_append (places_refl hR _) r1) (places_refl hR _)) (places_refl hR _)) (places_refl hR _)) r2)
    (places_refl hR _)
end

/-! ### What the options do to a piece -/

theorem focusChange_refl (c : CharClass) (x : Char × Style) : FocusChange c x x := .inl rfl

theorem focus_kind {s : Settings} {c : CharClass} {k : Kind} (hi : s.ignore (classOfKind k) = false) :
    kindInk (s.setFlag (.focus c)) k = kindInk s k ∨
      classOfKind k = c ∧ kindInk s k = kindColor k ∧ kindInk (s.setFlag (.focus c)) k = kindFocus k ∧ s.focus c = false := by
  have e : (s.setFlag (.focus c)).ignore = s.ignore := rfl
  unfold kindInk
  rw [e]
  simp only [hi, Bool.false_eq_true, if_false]
  by_cases hk : classOfKind k = c
  · subst hk
    cases hf : s.focus (classOfKind k) with
    | true => left; simp [Settings.setFlag]
    | false => right; simp [Settings.setFlag]
  · left; simp [Settings.setFlag, hk]

theorem focus_step {s : Settings} {c : CharClass} {k : Kind} (hi : s.ignore (classOfKind k) = false) (d : Char) :
    FocusChange c (d, kindInk s k) (d, kindInk (s.setFlag (.focus c)) k) := by
  rcases focus_kind (c := c) hi with h | ⟨h1, h2, h3, -⟩
  · left; rw [h]
  · exact .inr ⟨k, h1, h2, h3, .inl rfl⟩

theorem focus_marker {s : Settings} {c : CharClass} {k : Kind} (hi : s.ignore (classOfKind k) = false) (p : Bytes) (d : Char) :
    FocusChange c (d, markerInk s k p) (d, markerInk (s.setFlag (.focus c)) k p) := by
  have e : (s.setFlag (.focus c)).colorMarkers = s.colorMarkers := rfl
  unfold markerInk
  rw [e]
  split
  · exact .inl rfl
  · exact focus_step hi d

theorem focus_space {s : Settings} {c : CharClass} (hi : s.ignore .whitespace = false) (p : Bytes) :
    SamePlaces (FocusChange c) (inStyle (kindInk s .space) (p.map fun _ => if s.focus .whitespace then '·' else '␣'))
      (inStyle (kindInk (s.setFlag (.focus c)) .space) (p.map fun _ => if (s.setFlag (.focus c)).focus .whitespace then '·' else '␣')) := by
  induction p with
  | nil => exact ⟨rfl, by simp [inStyle]⟩
  | cons b p ih =>
    refine places_cons ?_ ih
    simp only
    rcases focus_kind (c := c) (k := .space) hi with h | ⟨h1, h2, h3, h4⟩
    · rw [h]
      have : (s.setFlag (.focus c)).focus .whitespace = s.focus .whitespace := by
        by_cases hc : CharClass.whitespace = c
        · subst hc
          have e : (s.setFlag (.focus .whitespace)).focus .whitespace = true := by simp [Settings.setFlag]
          have hi' : (s.setFlag (.focus .whitespace)).ignore = s.ignore := rfl
          rw [e]
          cases hf : s.focus .whitespace with
          | true => rfl
          | false =>
            unfold kindInk at h
            rw [hi'] at h
            simp only [classOfKind, hi, e, hf, if_true, if_false] at h
            exact absurd h (by decide)
        · simp [Settings.setFlag, hc]
      rw [this]
      exact .inl rfl
    · refine .inr ⟨.space, h1, h2, h3, .inr ⟨rfl, ?_, ?_⟩⟩
      · simp only [classOfKind] at h1
        rw [h1, h4]; rfl
      · simp only [classOfKind] at h1
        subst h1
        simp [Settings.setFlag]

/-- Focusing a class, text mode. -/
theorem focus_text (s : Settings) (c : CharClass) (q : Kind × Bytes) :
    SamePlaces (FocusChange c) (textInk s q) (textInk (s.setFlag (.focus c)) q) := by
  obtain ⟨k, p⟩ := q
  have e1 : (s.setFlag (.focus c)).ignore = s.ignore := rfl
  have e2 : level (s.setFlag (.focus c)) = level s := rfl
  have e3 : enclosed (s.setFlag (.focus c)) = enclosed s := rfl
  have e4 : ∀ k p, escDetailInk (s.setFlag (.focus c)) k p = escDetailInk s k p := fun _ _ => rfl
  have hr := focusChange_refl c
  unfold textInk
  simp only [e1]
  by_cases hi : s.ignore (classOfKind k) = true
  · simp only [hi, if_true]; exact places_refl hr _
  have hi' : s.ignore (classOfKind k) = false := by simpa using hi
  simp only [hi', Bool.false_eq_true, if_false]
  cases k
  case newline => exact places_cons (focus_step hi' _) (places_refl hr _)
  case ctrl => exact places_flatMap _ fun b _ => places_cons (focus_step hi' _) (places_refl hr _)
  case space =>
    have := focus_space (c := c) hi' p
    unfold textGlyphs
    simp only [e1, hi', Bool.false_eq_true, if_false]
    exact this
  all_goals
    first
    | (simp only [e3, e4]
       split
       · exact places_cons (hr _) (places_cons (focus_marker hi' p _) (places_refl hr _))
       · exact places_cons (focus_marker hi' p _) (places_refl hr _))
    | exact places_inStyle _ fun d _ => focus_step hi' d

/-- Focusing a class, binary mode. -/
theorem focus_bin (s : Settings) (c : CharClass) (q : Kind × Bytes) :
    SamePlaces (FocusChange c) (binInk s q) (binInk (s.setFlag (.focus c)) q) := by
  obtain ⟨k, p⟩ := q
  have e1 : (s.setFlag (.focus c)).ignore = s.ignore := rfl
  have hr := focusChange_refl c
  by_cases hi : s.ignore (classOfKind k) = true
  · unfold binInk
    simp only [e1, hi, if_true]; exact places_refl hr _
  have hi' : s.ignore (classOfKind k) = false := by simpa using hi
  by_cases hk : classOfKind k = .escapeSeq
  · rw [binInk_esc s hi' hk, binInk_esc _ (by rw [e1]; exact hi') hk]
    exact places_cons (focus_marker hi' p _) (places_refl hr _)
  · rw [binInk_other s hi' hk, binInk_other _ (by rw [e1]; exact hi') hk]
    by_cases hs : k = .space
    · subst hs
      have := focus_space (c := c) hi' p
      unfold binGlyphs
      simp only [e1, hi', Bool.false_eq_true, if_false]
      exact this
    · have : binGlyphs (s.setFlag (.focus c)) k p = binGlyphs s k p := by
        unfold binGlyphs
        simp only [e1]
        cases k <;> first | rfl | exact absurd rfl hs
      rw [this]
      exact places_inStyle _ fun d _ => focus_step hi' d

theorem marker_step {s : Settings} {qs : List (Kind × Bytes)} {k : Kind} {p : Bytes} (hq : (k, p) ∈ qs) (hi : s.ignore (classOfKind k) = false) (d : Char) :
    MarkerChange qs (d, markerInk s k p) (d, markerInk (s.setFlag .colorMarkers) k p) := by
  have e : ∀ k, kindInk (s.setFlag .colorMarkers) k = kindInk s k := fun _ => rfl
  unfold markerInk
  by_cases hk : k = .sgr
  · subst hk
    cases hm : s.colorMarkers with
    | true => left; simp [Settings.setFlag]
    | false =>
      refine .inr ⟨rfl, p, hq, .inl ⟨?_, by simp [Settings.setFlag]⟩⟩
      unfold kindInk
      simp only [hi, Bool.false_eq_true, and_false, if_false]
      split
      · exact .inr rfl
      · exact .inl rfl
  · left; simp [hk, e]

theorem marker_esc {s : Settings} {qs : List (Kind × Bytes)} {k : Kind} {p : Bytes} (hq : (k, p) ∈ qs) (d : Char) :
    MarkerChange qs (d, escInk s k p) (d, escInk (s.setFlag .colorMarkers) k p) ∧
      MarkerChange qs (d, { escInk s k p with underline := 0 }) (d, { escInk (s.setFlag .colorMarkers) k p with underline := 0 }) := by
  unfold escInk
  by_cases hk : k = .sgr
  · subst hk
    cases hm : s.colorMarkers with
    | true => exact ⟨.inl (by simp [Settings.setFlag]), .inl (by simp [Settings.setFlag])⟩
    | false =>
      exact ⟨.inr ⟨rfl, p, hq, .inr (.inl ⟨by simp, by simp [Settings.setFlag]⟩)⟩, .inr ⟨rfl, p, hq, .inr (.inr ⟨by simp, by simp [Settings.setFlag]⟩)⟩⟩
  · exact ⟨.inl (by simp [hk]), .inl (by simp [hk])⟩

theorem places_dotted {R : Char × Style → Char × Style → Prop} {st st' : Style} (h : ∀ c, R (c, st) (c, st'))
    (h0 : ∀ c, R (c, { st with underline := 0 }) (c, { st' with underline := 0 })) (l : List Str) : SamePlaces R (dottedInk st l) (dottedInk st' l) := by
  induction l with
  | nil => exact ⟨rfl, by simp [dottedInk]⟩
  | cons a l ih =>
    cases l with
    | nil => exact places_inStyle _ fun c _ => h c
    | cons b l =>
      show SamePlaces R (inStyle st a ++ ('･', { st with underline := 0 }) :: dottedInk st (b :: l))
        (inStyle st' a ++ ('･', { st' with underline := 0 }) :: dottedInk st' (b :: l))
      exact places_append (places_inStyle _ fun c _ => h c) (places_cons (h0 _) ih)

theorem marker_detail {s : Settings} {qs : List (Kind × Bytes)} {k : Kind} {p : Bytes} (hq : (k, p) ∈ qs) :
    SamePlaces (MarkerChange qs) (escDetailInk s k p) (escDetailInk (s.setFlag .colorMarkers) k p) := by
  have e : level (s.setFlag .colorMarkers) = level s := rfl
  unfold escDetailInk
  simp only [e]
  split
  · exact places_dotted (fun c => (marker_esc hq c).1) (fun c => (marker_esc hq c).2) _
  · exact places_inStyle _ fun c _ => (marker_esc hq c).1

/-- `--color-markers`, text mode. -/
theorem marker_text (s : Settings) {qs : List (Kind × Bytes)} {q : Kind × Bytes} (hq : q ∈ qs) :
    SamePlaces (MarkerChange qs) (textInk s q) (textInk (s.setFlag .colorMarkers) q) := by
  obtain ⟨k, p⟩ := q
  have e1 : (s.setFlag .colorMarkers).ignore = s.ignore := rfl
  have e2 : level (s.setFlag .colorMarkers) = level s := rfl
  have e3 : enclosed (s.setFlag .colorMarkers) = enclosed s := rfl
  have e4 : ∀ k, kindInk (s.setFlag .colorMarkers) k = kindInk s k := fun _ => rfl
  have hr : ∀ x, MarkerChange qs x x := fun x => .inl rfl
  unfold textInk
  simp only [e1]
  by_cases hi : s.ignore (classOfKind k) = true
  · simp only [hi, if_true]; exact places_refl hr _
  have hi' : s.ignore (classOfKind k) = false := by simpa using hi
  simp only [hi', Bool.false_eq_true, if_false]
  cases k
  all_goals
    first
    | (simp only [e3]
       split
       · exact places_cons (hr _) (places_cons (marker_step hq hi' _) (places_append (marker_detail hq) (places_refl hr _)))
       · exact places_cons (marker_step hq hi' _) (marker_detail hq))
    | exact places_refl hr _

/-- `--color-markers`, binary mode. -/
theorem marker_bin (s : Settings) {qs : List (Kind × Bytes)} {q : Kind × Bytes} (hq : q ∈ qs) :
    SamePlaces (MarkerChange qs) (binInk s q) (binInk (s.setFlag .colorMarkers) q) := by
  obtain ⟨k, p⟩ := q
  have e1 : (s.setFlag .colorMarkers).ignore = s.ignore := rfl
  have hr : ∀ x, MarkerChange qs x x := fun x => .inl rfl
  by_cases hi : s.ignore (classOfKind k) = true
  · unfold binInk
    simp only [e1, hi, if_true]; exact places_refl hr _
  have hi' : s.ignore (classOfKind k) = false := by simpa using hi
  by_cases hk : classOfKind k = .escapeSeq
  · rw [binInk_esc s hi' hk, binInk_esc _ (by rw [e1]; exact hi') hk]
    exact places_cons (marker_step hq hi' _) (places_inStyle _ fun c _ => (marker_esc hq c).1)
  · rw [binInk_other s hi' hk, binInk_other _ (by rw [e1]; exact hi') hk]
    exact places_refl hr _

theorem places_make {R : Char × Style → Char × Style → Prop} {a b : List (Char × Style)} (hl : a.length = b.length) (h : ∀ x ∈ a, ∀ y ∈ b, R x y) :
    SamePlaces R a b :=
  ⟨hl, fun _ hxy => h _ (List.of_mem_zip hxy).1 _ (List.of_mem_zip hxy).2⟩

/-- Ignoring a class, binary mode. -/
theorem ignore_bin (s : Settings) (c : CharClass) {qs : List (Kind × Bytes)} {q : Kind × Bytes} (hq : q ∈ qs) (hw : Wf q.1 q.2) :
    SamePlaces (IgnoreChange s qs c) (binInk s q) (binInk (s.setFlag (.ignore c)) q) := by
  have hr : ∀ x, IgnoreChange s qs c x x := fun x => .inl rfl
  by_cases hc : classOfKind q.1 = c
  · by_cases hi : s.ignore (classOfKind q.1) = true
    · have h1 : (s.setFlag (.ignore c)).ignore (classOfKind q.1) = true := by simp [Settings.setFlag, hc]
      have : binInk (s.setFlag (.ignore c)) q = binInk s q := by
        unfold binInk
        simp only [hi, h1, if_true]
      rw [this]; exact places_refl hr _
    have hi' : s.ignore (classOfKind q.1) = false := by simpa using hi
    have h1 : binInk (s.setFlag (.ignore c)) q = inStyle dimGrey (q.2.map fun _ => '×') := by
      unfold binInk
      have : (s.setFlag (.ignore c)).ignore (classOfKind q.1) = true := by simp [Settings.setFlag, hc]
      rw [if_pos this]
    have hlen : (binInk s q).length = q.2.length := by
      obtain ⟨k, p⟩ := q
      dsimp only at hw hi' ⊢
      by_cases hk : classOfKind k = .escapeSeq
      · rw [binInk_esc s hi' hk]
        have := List.length_pos_iff.2 hw.ne_nil
        simp [inStyle, asciiChars]
        omega
      · rw [binInk_other s hi' hk]
        simp [inStyle, binGlyphs_length s hw hk]
    refine places_make (by rw [hlen, h1]; simp [inStyle]) fun x hx y hy => ?_
    rw [h1] at hy
    simp only [inStyle, List.mem_map] at hy
    obtain ⟨_, ⟨b, -, rfl⟩, rfl⟩ := hy
    exact .inr ⟨rfl, .inr rfl, q, hq, hc, List.mem_map_of_mem hx⟩
  · have h1 : (s.setFlag (.ignore c)).ignore (classOfKind q.1) = s.ignore (classOfKind q.1) := by simp [Settings.setFlag, hc]
    have : binInk (s.setFlag (.ignore c)) q = binInk s q := by
      obtain ⟨k, p⟩ := q
      dsimp only at h1 hc
      by_cases hi : s.ignore (classOfKind k) = true
      · unfold binInk
        simp only [h1, hi, if_true]
      have hi' : s.ignore (classOfKind k) = false := by simpa using hi
      have hk1 : kindInk (s.setFlag (.ignore c)) k = kindInk s k := by
        unfold kindInk
        rw [h1]
        rfl
      by_cases hk : classOfKind k = .escapeSeq
      · rw [binInk_esc s hi' hk, binInk_esc _ (by rw [h1]; exact hi') hk]
        have hm : markerInk (s.setFlag (.ignore c)) k p = markerInk s k p := by
          unfold markerInk
          rw [hk1]
          rfl
        rw [hm]
        rfl
      · rw [binInk_other s hi' hk, binInk_other _ (by rw [h1]; exact hi') hk, hk1]
        unfold binGlyphs
        rw [h1]
        rfl
    rw [this]; exact places_refl hr _

/-- `--decode`, binary mode. -/
theorem decode_bin (s : Settings) {q : Kind × Bytes} (hw : Wf q.1 q.2) : SamePlaces DecodeChange (binInk s q) (binInk (s.setFlag .decode) q) := by
  have hr : ∀ x, DecodeChange x x := fun x => .inl rfl
  have e1 : (s.setFlag .decode).ignore = s.ignore := rfl
  obtain ⟨k, p⟩ := q
  dsimp only at hw
  by_cases hi : s.ignore (classOfKind k) = true
  · unfold binInk
    simp only [e1, hi, if_true]; exact places_refl hr _
  have hi' : s.ignore (classOfKind k) = false := by simpa using hi
  by_cases hk : classOfKind k = .escapeSeq
  · rw [binInk_esc s hi' hk, binInk_esc _ (by rw [e1]; exact hi') hk]
    exact places_refl hr _
  · rw [binInk_other s hi' hk, binInk_other _ (by rw [e1]; exact hi') hk]
    have e2 : kindInk (s.setFlag .decode) k = kindInk s k := rfl
    rw [e2]
    by_cases hu : k = .utf8
    · subst hu
      by_cases hd : s.decode = some true
      · have : binGlyphs (s.setFlag .decode) .utf8 p = binGlyphs s .utf8 p := by
          unfold binGlyphs
          simp [e1, hi', hd, Settings.setFlag]
        rw [this]; exact places_refl hr _
      · have hlen : (binGlyphs s .utf8 p).length = (binGlyphs (s.setFlag .decode) .utf8 p).length := by
          rw [binGlyphs_length s hw hk, binGlyphs_length _ hw hk]
        refine places_make (by simpa [inStyle] using hlen) fun x hx y hy => ?_
        simp only [inStyle, List.mem_map] at hx hy
        obtain ⟨a, ha, rfl⟩ := hx
        obtain ⟨b, -, rfl⟩ := hy
        have ha' : a = '▯' := by
          unfold binGlyphs at ha
          simp only [hi', hd, Bool.false_eq_true, if_false, List.mem_map] at ha
          obtain ⟨_, -, rfl⟩ := ha
          rfl
        refine .inr ⟨rfl, ha', ?_⟩
        unfold kindInk
        simp only [hi', Bool.false_eq_true, if_false]
        split
        · exact .inr rfl
        · exact .inl rfl
    · have : binGlyphs (s.setFlag .decode) k p = binGlyphs s k p := by
        unfold binGlyphs
        simp only [e1]
        cases k <;> first | rfl | exact absurd rfl hu
      rw [this]; exact places_refl hr _

/-! ### The program -/

theorem change_refl (s : Settings) (qs : List (Kind × Bytes)) (f : Flag) (x : Char × Style) : OptionChange s qs f x x := by
  unfold OptionChange
  split <;> first | exact .inl rfl | rfl

theorem colours_label {f : Flag} (hc : Colours f) (s : Settings) : labelInk (s.setFlag f) = labelInk s ∧ lostAt (s.setFlag f) = lostAt s := by
  cases hc <;> exact ⟨rfl, rfl⟩

theorem colours_piece {f : Flag} (hc : Colours f) (s : Settings) (qs : List (Kind × Bytes)) :
    ∀ q ∈ qs, SamePlaces (OptionChange s qs f) (textInk s q) (textInk (s.setFlag f) q) := by
  intro q hq
  cases hc with
  | focus c => exact focus_text s c q
  | markers => exact marker_text s hq

theorem changes_piece {f : Flag} (hc : ChangesPlaces f) (s : Settings) {qs : List (Kind × Bytes)} (hg : GoodPieces qs) :
    ∀ q ∈ qs, SamePlaces (OptionChange s qs f) (binInk s q) (binInk (s.setFlag f) q) := by
  intro q hq
  cases hc with
  | colours h => cases h with
    | focus c => exact focus_bin s c q
    | markers => exact marker_bin s hq
  | ignore c => exact ignore_bin s c hq (hg q hq).1
  | decode => exact decode_bin s (hg q hq).1

theorem changes_rows {f : Flag} (hc : ChangesPlaces f) (s : Settings) :
    rowStart (s.setFlag f) = rowStart s ∧ rowBar (s.setFlag f) = rowBar s ∧ totalLine (s.setFlag f) = totalLine s ∧ f ≠ .decimalOffsets ∧ f ≠ .binary := by
  cases hc with
  | colours h => cases h <;> exact ⟨rfl, rfl, rfl, by simp, by simp⟩
  | ignore c => exact ⟨rfl, rfl, rfl, by simp, by simp⟩
  | decode => exact ⟨rfl, rfl, rfl, by simp, by simp⟩

theorem changes_hex {f : Flag} (hc : ChangesPlaces f) (s : Settings) (qs : List (Kind × Bytes)) (x y : Char × Style)
    (h : OptionChange s qs f x y) (d : Char) : OptionChange s qs f (d, x.2) (d, y.2) := by
  cases hc with
  | colours hc => cases hc with
    | focus c =>
      rcases h with rfl | ⟨k, h1, h2, h3, -⟩
      · exact .inl rfl
      · exact .inr ⟨k, h1, h2, h3, .inl rfl⟩
    | markers =>
      rcases h with rfl | ⟨-, h⟩
      · exact .inl rfl
      · exact .inr ⟨rfl, h⟩
  | ignore c =>
    rcases h with rfl | ⟨h1, -, h3⟩
    · exact .inl rfl
    · exact .inr ⟨h1, .inl rfl, h3⟩
  | decode =>
    rcases h with rfl | ⟨h1, -⟩
    · exact .inl rfl
    · exact .inl (by rw [h1])

/-- The characters: those of options that colour are the same, up to the dots for spaces. -/
theorem places_characters {f : Flag} (hc : Colours f) {s : Settings} {qs : List (Kind × Bytes)} {a b : List (Char × Style)}
    (h : SamePlaces (OptionChange s qs f) a b) :
    (b.map fun x => plainSpace x.1) = (a.map fun x => plainSpace x.1) ∧ (f ≠ .focus .whitespace → b.map Prod.fst = a.map Prod.fst) := by
  have key : ∀ x y, OptionChange s qs f x y → plainSpace y.1 = plainSpace x.1 ∧ (f ≠ .focus .whitespace → y.1 = x.1) := by
    intro x y h
    cases hc with
    | focus c =>
      rcases h with rfl | ⟨k, h1, -, -, h | ⟨rfl, h2, h3⟩⟩
      · exact ⟨rfl, fun _ => rfl⟩
      · exact ⟨by rw [h], fun _ => h⟩
      · refine ⟨by rw [h2, h3]; decide, fun hne => absurd ?_ hne⟩
        simp only [classOfKind] at h1
        rw [h1]
    | markers =>
      rcases h with rfl | ⟨h, -⟩
      · exact ⟨rfl, fun _ => rfl⟩
      · exact ⟨by rw [h], fun _ => h⟩
  obtain ⟨hl, h⟩ := h
  induction a generalizing b with
  | nil => cases b with
    | nil => exact ⟨rfl, fun _ => rfl⟩
    | cons _ _ => simp at hl
  | cons x a ih =>
    cases b with
    | nil => simp at hl
    | cons y b =>
      obtain ⟨i1, i2⟩ := ih (by simpa using hl) fun xy hxy => h xy (by simp [hxy])
      obtain ⟨k1, k2⟩ := key x y (h (x, y) (by simp))
      refine ⟨?_, fun hf => ?_⟩
      · rw [List.map_cons, List.map_cons, i1, k1]
      · rw [List.map_cons, List.map_cons, i2 hf, k2 hf]

/-- What is common to files and standard input, text mode. -/
theorem colours_core {f : Flag} (hc : Colours f) {s : Settings} {qs : List (Kind × Bytes)} {x y : Str}
    (hx : appears x = (inkLines (labelInk s) (textInk s) (lostAt s) qs).flatten ++ [('\n', ({} : Style))])
    (hy : appears y = (inkLines (labelInk (s.setFlag f)) (textInk (s.setFlag f)) (lostAt (s.setFlag f)) qs).flatten ++ [('\n', ({} : Style))]) :
    SamePlaces (OptionChange s qs f) (appears x) (appears y) ∧ (visible y).map plainSpace = (visible x).map plainSpace ∧
      (f ≠ .focus .whitespace → visible y = visible x) := by
  have hr := change_refl s qs f
  rw [(colours_label hc s).1, (colours_label hc s).2] at hy
  have h : SamePlaces (OptionChange s qs f) (appears x) (appears y) := by
    rw [hx, hy]
    exact places_append (places_lines hr _ _ qs (colours_piece hc s qs)) (places_refl hr _)
  obtain ⟨h1, h2⟩ := places_characters hc h
  refine ⟨h, ?_, h2⟩
  unfold visible
  rw [List.map_map, List.map_map]
  exact h1

/-- C116, files, text mode. -/
theorem C116_text {f : Flag} (hc : Colours f) (pre post : List Arg) (w : World) (name : Str) (data : Bytes) (s : Settings) (mb ml : Option Nat) (pB pL p : Bytes)
    (hv : Views (pre ++ .flag f :: post) name) (hs : Asked (pre ++ post) s) (hb : .flag .binary ∉ pre ++ post)
    (hf : w.file name = .ok data) (hmb : lastInt .maxBytes (pre ++ post) = optInt mb) (hml : lastInt .maxLines (pre ++ post) = optInt ml)
    (hB : UnderBytes mb data pB) (hL : UnderLines ml data pL) (hp : p = if pB.length ≤ pL.length then pB else pL)
    (hgood : ∀ c ∈ partsOf (bufferSize (pre ++ post)) p, ¬ BadChunk c) (fuel : Nat) (hfuel : 4 * p.length < fuel) :
    (program fuel w (pre ++ post)).status = some 0 ∧ (program fuel w (pre ++ .flag f :: post)).status = some 0 ∧
      SamePlaces (OptionChange s ((partsOf (bufferSize (pre ++ post)) p).flatMap pieces) f)
        (appears (program fuel w (pre ++ post)).out) (appears (program fuel w (pre ++ .flag f :: post)).out) ∧
      (visible (program fuel w (pre ++ .flag f :: post)).out).map plainSpace = (visible (program fuel w (pre ++ post)).out).map plainSpace ∧
      (f ≠ .focus .whitespace → visible (program fuel w (pre ++ .flag f :: post)).out = visible (program fuel w (pre ++ post)).out) := by
  have hv0 := views_less hv
  obtain ⟨a1, a2⟩ := C107_text (pre ++ post) w name data s mb ml pB pL p hv0 hs hb hf hmb hml hB hL hp hgood fuel hfuel
  obtain ⟨b1, b2⟩ := C107_text (pre ++ .flag f :: post) w name data _ mb ml pB pL p hv (asked_insert_flag hs _)
    (by rw [mem_flag (changes_rows (.colours hc) s).2.2.2.2.symm]; exact hb) hf (by rw [lastInt_flag]; exact hmb) (by rw [lastInt_flag]; exact hml) hB hL hp
    (by rw [bufferSize_flag]; exact hgood) fuel hfuel
  rw [bufferSize_flag] at b2
  exact ⟨a1, b1, colours_core hc a2 b2⟩

/-- C116, standard input, text mode. -/
theorem C116_stdin_text {f : Flag} (hc : Colours f) (pre post : List Arg) (w : World) (cs : List Bytes) (s : Settings) (mb ml : Option Nat) (pB pL p : Bytes)
    (hv : ViewsStdin (pre ++ .flag f :: post)) (hs : Asked (pre ++ post) s) (hb : .flag .binary ∉ pre ++ post)
    (hw : w.stdin = cs.map .data) (hne : ∀ c ∈ cs, c ≠ [])
    (hmb : lastInt .maxBytes (pre ++ post) = optInt mb) (hml : lastInt .maxLines (pre ++ post) = optInt ml)
    (hB : UnderBytes mb cs.flatten pB) (hL : UnderLines ml cs.flatten pL) (hp : p = if pB.length ≤ pL.length then pB else pL)
    (hgood : ∀ c ∈ takeParts p.length cs, ¬ BadChunk c) (fuel : Nat) (hfuel : 4 * p.length < fuel) :
    (program fuel w (pre ++ post)).status = some 0 ∧ (program fuel w (pre ++ .flag f :: post)).status = some 0 ∧
      SamePlaces (OptionChange s ((takeParts p.length cs).flatMap pieces) f)
        (appears (program fuel w (pre ++ post)).out) (appears (program fuel w (pre ++ .flag f :: post)).out) ∧
      (visible (program fuel w (pre ++ .flag f :: post)).out).map plainSpace = (visible (program fuel w (pre ++ post)).out).map plainSpace ∧
      (f ≠ .focus .whitespace → visible (program fuel w (pre ++ .flag f :: post)).out = visible (program fuel w (pre ++ post)).out) := by
  have hv0 := viewsStdin_less hv
  obtain ⟨a1, a2⟩ := C107_stdin_text (pre ++ post) w cs s mb ml pB pL p hv0 hs hb hw hne hmb hml hB hL hp hgood fuel hfuel
  obtain ⟨b1, b2⟩ := C107_stdin_text (pre ++ .flag f :: post) w cs _ mb ml pB pL p hv (asked_insert_flag hs _)
    (by rw [mem_flag (changes_rows (.colours hc) s).2.2.2.2.symm]; exact hb) hw hne (by rw [lastInt_flag]; exact hmb) (by rw [lastInt_flag]; exact hml) hB hL hp
    hgood fuel hfuel
  exact ⟨a1, b1, colours_core hc a2 b2⟩

/-- What is common to files and standard input, binary mode. -/
theorem changes_core {f : Flag} (hc : ChangesPlaces f) {s : Settings} {qs : List (Kind × Bytes)} (hg : GoodPieces qs) (c : Nat) {a b : List Cell} {p : Bytes}
    (a2 : a.map Cell.byte = p) (b2 : b.map Cell.byte = p) (a3 : a.map Cell.shown = qs.flatMap (binInk s))
    (b3 : b.map Cell.shown = qs.flatMap (binInk (s.setFlag f))) {x y : Str} (hx : appears x = rowsView s c a ++ [('\n', ({} : Style))])
    (hy : appears y = rowsView (s.setFlag f) c b ++ [('\n', ({} : Style))]) : SamePlaces (OptionChange s qs f) (appears x) (appears y) := by
  have hr := change_refl s qs f
  obtain ⟨r1, r2, r3, -, -⟩ := changes_rows hc s
  rw [hx, hy]
  refine places_append (places_rows hr (changes_hex hc s qs) r1 r2 r3 c (a2.trans b2.symm) ?_) (places_refl hr _)
  rw [a3, b3]
  exact places_flatMap qs (changes_piece hc s hg)

/-- C116, files, binary mode. -/
theorem C116_binary {f : Flag} (hc : ChangesPlaces f) (pre post : List Arg) (w : World) (name : Str) (data : Bytes) (s : Settings) (mb ml : Option Nat)
    (pB pL p : Bytes) (hv : Views (pre ++ .flag f :: post) name) (hs : Asked (pre ++ post) s) (hb : .flag .binary ∈ pre ++ post)
    (hf : w.file name = .ok data) (c : Nat) (hpos : 0 < c) (hcols : RowsOf (pre ++ post) w c)
    (hmb : lastInt .maxBytes (pre ++ post) = optInt mb) (hml : lastInt .maxLines (pre ++ post) = optInt ml)
    (hB : UnderBytes mb data pB) (hL : UnderLines ml data pL) (hp : p = if pB.length ≤ pL.length then pB else pL)
    (hgood : ∀ c ∈ partsOf (bufferSize (pre ++ post)) p, ¬ BadChunk c) (fuel : Nat) (hfuel : p.length < fuel) :
    (program fuel w (pre ++ post)).status = some 0 ∧ (program fuel w (pre ++ .flag f :: post)).status = some 0 ∧
      SamePlaces (OptionChange s ((partsOf (bufferSize (pre ++ post)) p).flatMap pieces) f)
        (appears (program fuel w (pre ++ post)).out) (appears (program fuel w (pre ++ .flag f :: post)).out) := by
  have hv0 := views_less hv
  obtain ⟨a1, -, x, a2, a3, a4⟩ := C107_binary (pre ++ post) w name data s mb ml pB pL p hv0 hs hb hf c hpos hcols hmb hml hB hL hp hgood fuel hfuel
  obtain ⟨b1, -, y, b2, b3, b4⟩ := C107_binary (pre ++ .flag f :: post) w name data _ mb ml pB pL p hv (asked_insert_flag hs f)
    (by rw [mem_flag (changes_rows hc s).2.2.2.2.symm]; exact hb) hf c hpos (rowsOf_flag (changes_rows hc s).2.2.2.1 hcols)
    (by rw [lastInt_flag]; exact hmb) (by rw [lastInt_flag]; exact hml) hB hL hp (by rw [bufferSize_flag]; exact hgood) fuel hfuel
  rw [bufferSize_flag] at b3
  exact ⟨a1, b1, changes_core hc (good_parts hgood) c a2 b2 a3 b3 a4 b4⟩

/-- C116, standard input, binary mode. -/
theorem C116_stdin_binary {f : Flag} (hc : ChangesPlaces f) (pre post : List Arg) (w : World) (cs : List Bytes) (s : Settings) (mb ml : Option Nat)
    (pB pL p : Bytes) (hv : ViewsStdin (pre ++ .flag f :: post)) (hs : Asked (pre ++ post) s) (hb : .flag .binary ∈ pre ++ post)
    (hw : w.stdin = cs.map .data) (hne : ∀ c ∈ cs, c ≠ []) (c : Nat) (hpos : 0 < c) (hcols : RowsOf (pre ++ post) w c)
    (hmb : lastInt .maxBytes (pre ++ post) = optInt mb) (hml : lastInt .maxLines (pre ++ post) = optInt ml)
    (hB : UnderBytes mb cs.flatten pB) (hL : UnderLines ml cs.flatten pL) (hp : p = if pB.length ≤ pL.length then pB else pL)
    (hgood : ∀ c ∈ takeParts p.length cs, ¬ BadChunk c) (fuel : Nat) (hfuel : p.length < fuel) :
    (program fuel w (pre ++ post)).status = some 0 ∧ (program fuel w (pre ++ .flag f :: post)).status = some 0 ∧
      SamePlaces (OptionChange s ((takeParts p.length cs).flatMap pieces) f)
        (appears (program fuel w (pre ++ post)).out) (appears (program fuel w (pre ++ .flag f :: post)).out) := by
  have hv0 := viewsStdin_less hv
  obtain ⟨a1, -, x, a2, a3, a4⟩ := C107_stdin_binary (pre ++ post) w cs s mb ml pB pL p hv0 hs hb hw hne c hpos hcols hmb hml hB hL hp hgood fuel hfuel
  obtain ⟨b1, -, y, b2, b3, b4⟩ := C107_stdin_binary (pre ++ .flag f :: post) w cs _ mb ml pB pL p hv (asked_insert_flag hs f)
    (by rw [mem_flag (changes_rows hc s).2.2.2.2.symm]; exact hb) hw hne c hpos (rowsOf_flag (changes_rows hc s).2.2.2.1 hcols)
    (by rw [lastInt_flag]; exact hmb) (by rw [lastInt_flag]; exact hml) hB hL hp hgood fuel hfuel
  exact ⟨a1, b1, changes_core hc (good_parts hgood) c a2 b2 a3 b3 a4 b4⟩

/-! ### Cases -/

/-- A sequence and text in two parts: focusing printable characters changes no character, ... -/
example (w : World) (h : w.stdin = labelInput.map .data) :
    visible (program 100 w [.int .marker (some 2), .flag (.focus .printableChar)]).out = visible (program 100 w [.int .marker (some 2)]).out := by
  obtain ⟨s, -, hs⟩ := (C55_settings [.int .marker (some 2)] (by decide)).1 (wellFormed_closed (by intro o; cases o <;> decide) (by decide) (by decide))
  exact (C116_stdin_text (.focus .printableChar) [.int .marker (some 2)] [] w labelInput s none none labelInput.flatten labelInput.flatten labelInput.flatten
    ⟨wellFormed_closed (by intro o; cases o <;> decide) (by decide) (by decide), .inl rfl, by decide⟩ hs (by decide) h (by decide)
    rfl rfl rfl rfl rfl labelInput_good 100 (by decide)).2.2.2.2 (by decide)

/-- ... ignoring sequences in binary mode leaves as many characters as there were, ... -/
example (w : World) (h : w.stdin = labelInput.map .data) :
    (visible (program 100 w [.flag .binary, .int .columns (some 3)]).out).length =
      (visible (program 100 w [.flag .binary, .int .columns (some 3), .flag (.ignore .escapeSeq)]).out).length := by
  obtain ⟨s, -, hs⟩ := (C55_settings [.flag .binary, .int .columns (some 3)] (by decide)).1 (wellFormed_closed (by intro o; cases o <;> decide) (by decide) (by decide))
  have := (C116_stdin_binary (.ignore .escapeSeq) [.flag .binary, .int .columns (some 3)] [] w labelInput s none none labelInput.flatten labelInput.flatten labelInput.flatten
    ⟨wellFormed_closed (by intro o; cases o <;> decide) (by decide) (by decide), .inl rfl, by decide⟩ hs (by decide) h (by decide)
    3 (by decide) (.inl rfl) rfl rfl rfl rfl rfl labelInput_good 100 (by decide)).2.2.1
  simpa [visible] using this

/-- ... and the relations are not trivial: the letter `a` in focus, the marker of a sequence in its colour; not the other way round. -/
example : FocusChange .printableChar ('a', kindColor .printable) ('a', kindFocus .printable) ∧
    MarkerChange [(.sgr, [0x1b, 0x5b, 0x33, 0x31, 0x6d])] ('ǝ', kindColor .sgr) ('ǝ', { fg := .basic 31 }) ∧
    ¬ FocusChange .printableChar ('a', kindFocus .printable) ('a', kindColor .printable) ∧
    ¬ FocusChange .whitespace ('a', kindColor .printable) ('a', kindFocus .printable) := by
  refine ⟨.inr ⟨.printable, rfl, rfl, rfl, .inl rfl⟩, .inr ⟨rfl, [0x1b, 0x5b, 0x33, 0x31, 0x6d], by simp, .inl ⟨.inl rfl, by decide +kernel⟩⟩, ?_, ?_⟩
  · rintro (h | ⟨k, h1, h2, h3, -⟩)
    · revert h; decide
    · revert h1 h2 h3; cases k <;> decide
  · rintro (h | ⟨k, h1, h2, h3, -⟩)
    · revert h; decide
    · revert h1 h2 h3; cases k <;> decide

end Kolombos
